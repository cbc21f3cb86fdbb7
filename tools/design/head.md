# Design

Formal model of FabriceSalvaire/Patro in Lean 4 (v4.33.0, Mathlib). The code was read as text only; nothing of it was run.

This file is written by `tools/design.py` from `tools/design/head.md`, `tools/design/plans.json`, `properties.jsonl`, `MANIFEST.json`
and `tools/design/axioms.json`.

## Layout

* `lean/Verif/Model/*.lean`: the model, one file per area. Every definition cites the file and lines of /repo it mirrors and states its simplifications.
* `lean/Verif/Spec/*.lean`: small specifications that do not mention the model's helpers.
* `lean/Verif/Proof/*.lean`: lemmas and invariants.
* `lean/Verif/Props/*.lean`: the theorems of the properties. The comment of each one begins with the number of the property; examples beside them meet their hypotheses.
* `seeded/LOG.jsonl`: wrong programs the theorems were tried against.

## Conventions

* Functions are total and computable where possible. Python exceptions are values of `Except PyErr`. A function that fails after an assignment returns the state it leaves behind too (theorems named `…_torn`).
* Loops that may not end are modelled by a step function or by an inductive relation, so that divergence can be stated.
* Python dicts are insertion-ordered association lists. Sets are lists without duplicates, and theorems hold for every order of iteration.
* Strings are lists of characters. Numbers written in texts go through a codec parameter when only the round trip matters.
* Floats are elements of a linearly ordered field `K` (ℚ in the examples), or real numbers when roots, angles or limits matter. Rounding, NaN and infinities are not modelled, except where numpy's division by zero is represented by `none`. `sign(0)` is 1.
* Threads: small-step interleaving semantics; each read or write of an attribute is one atomic step, locks as in `threading`.
* Where the code falsifies a natural property, the negation is proved, either for a concrete reachable witness or for all inputs of a kind (`…_wrong`), and what does hold is kept under a name that ends in `_partial` or as an exact characterisation. The model follows the code, not the intention.

## Trusted base

1. Lean's kernel (and, for the build, the elaborator that produces the terms the kernel checks).
2. The axioms `propext`, `Classical.choice` and `Quot.sound`. No other axiom is used; the list per theorem is at the end of this file. No `sorry`, `native_decide` or `bv_decide`.
3. The reading of the Python source: that each definition of the model does what the cited lines do. This is by inspection only.
4. The idealisations of the conventions above.
5. The assumptions on external code below.

### Assumptions on external code

| Library | Assumption |
|---|---|
| Python | version 3.10 or later; dicts keep the order of insertion; `sorted` is a stable sort; recursion deeper than the limit raises `RecursionError`; attribute access through `__getattr__` as in the language reference |
| numpy | before 1.24; a division by zero of array elements gives inf or nan and no exception; `rint` rounds to an integer at distance at most one half |
| sympy | `subs` with a dictionary replaces one symbol after the other in the order of the names; `real_roots` gives exactly the real roots (`RootsOf`) |
| lxml | comments are children of the tree, with a callable as tag; attributes are in document order |
| rtree | `intersection` gives, in any order, the identifiers of the boxes that meet the query box; deleting an unknown pair is an error |
| IntervalArithmetic | `\|=` is the smallest interval that contains both; `in` is membership of the closed interval; `enlarge` moves both bounds outwards in place |
| ezdxf | gives the vertices of a polyline in order with their bulges |
| yaml | loads the structures of the file; only the loaded data are modelled |
| `colorsys`, `str.format`, `re` | the documented behaviour, modelled on the forms the code uses |
| Qt, OpenGL, matplotlib, reportlab | not modelled |

`GraphicScene/Scene.py` has a syntax error at line 403, so that it cannot be imported. Its functions are modelled as written, as if the file could be imported.

## What is modelled

| Model file | Source (under /repo/Patro) |
|---|---|
| `Py` | exceptions |
| `IterTools` | Common/IterTools.py |
| `Graph` | Common/Graph/DirectedAcyclicGraph.py |
| `Counter`, `Singleton` | Common/AtomicCounter.py, Common/Object.py, Common/Singleton.py (threads) |
| `Common` | Common/Path.py (with `os.walk` on a tree without links), Common/Singleton.py (monostate), Common/Logging/Logging.py and Config/ConfigInstall.py (the configuration and the level), FileFormat/Svg/SvgFile.py (view box of the root) |
| `MathFunctions`, `Roots` | Common/Math/Functions.py, Common/Math/Root.py |
| `Text`, `Xml` | Common/Xml/Objectivity.py |
| `Calculator`, `Measurement`, `MeasurementFile` | Pattern/Calculator.py, Measurement/Measurement.py (with `yaml`, `sympify`, `str` and the codecs of Python as parameters) |
| `Pattern`, `SketchGeometry`, `SketchAgain`, `SketchEval` (specification) | Pattern/Pattern.py, Sketch.py, SketchOperation.py |
| `Vector`, `Transformation`, `TransformationNew`, `Line`, `Shapes`, `LineTools`, `Primitive` | GeometryEngine/Vector.py, Transformation.py, Primitive.py, Line.py, Segment.py, Triangle.py, Rectangle.py, Polyline.py, BoundingBox.py |
| `Polygon`, `PolygonMoment`, `Hull`, `PolygonTools`, `PolygonRest`, `Simplify`, `RegularObject` | GeometryEngine/Polygon.py |
| `Conic`, `CircleObject`, `Ellipse` | GeometryEngine/Conic.py, Mixin.py |
| `Bezier`, `BezierReal`, `BezierLength`, `BezierIntersect`, `BezierClip`, `Spline`, `SplineBezier`, `SplineObject`, `UniformSpline` | GeometryEngine/Bezier.py, Spline.py, Interpolation.py |
| `Path`, `PathBulge`, `PathEdit` | GeometryEngine/Path.py |
| `SvgPath`, `SvgTransform`, `SvgState` | FileFormat/Svg/SvgFormat.py, SvgFile.py |
| `Dxf`, `DxfImport`, `DxfRoundTrip` | FileFormat/Dxf/Polyline.py, Importer.py |
| `Scene`, `SceneGeometry`, `Style` | GraphicEngine/GraphicScene/Scene.py, GraphicItemMixin.py, GraphicItem.py, GraphicStyle.py, Pattern/SketchStyle.py |
| `Paper`, `Units` | GraphicEngine/Painter/Paper.py, Painter.py (tiler), QtPainter.py (viewport), GraphicScene/TypographyUnit.py, TextileTechnology/Yarn.py |
| `Color`, `Textile`, `Tex`, `TexFigure` | GraphicStyle/Color/ColorDataBase.py, TextileTechnology/*.py, GraphicEngine/TeX/*.py, Painter/TexPainter.py |
| `Painters` | GraphicEngine/Painter/SvgPainter.py, DxfPainter.py, PdfPainter.py, MplPainter.py, FileFormat/Svg/SvgFile.py (writer) |
| `Printed`, `PrintedText` | the scene of `Sketch.detail_scene` given to the painters of `Painters` and of `Tex`, `TexFigure`; what the SVG painter does with the data of a path |
| `QtPainter` | GraphicEngine/Painter/QtPainter.py, Painter.py |
| `Viewer` | GraphicEngine/Painter/QtPainter.py (the slots of the viewer, with the state after an exception), QtApplication/qml/main.qml (the handlers of the tool bar, the keyboard and the mouse) |
| `CalcFunctions` | Pattern/Calculator.py (dependencies, functions of the calculator) |
| `Formula` | Pattern/Calculator.py (value of an expression); the tokens, the grammar and the evaluation of Python for numbers, names, strings as arguments, the methods of `__calculator__`, signs, the four operations and parentheses are a part of the model, and so of the trusted base |
| `ValFormulas` | Pattern/Calculator.py (cache of the measurements) and Measurement/Measurement.py (`value`) for sets of Valentina measurements, composed with `Formula`, `Vit` and `ValPlaces` |
| `ValVit` | FileFormat/Valentina/Measurement.py composed with `ValFormulas`, `ValPlaces` and `ValPrinted` |
| `VectorObject` | GeometryEngine/Vector.py (vectors as mutable objects, integer, normalised and homogeneous vectors) |
| `Valentina`, `ValPlaces`, `ValEval`, `ValRead`, `ValPrinted`, `ValDrawn` | FileFormat/Valentina/Pattern.py, VitFormat.py, Pattern/SketchOperation.py (constructors), Sketch.py (dictionary of operations), Common/Object.py (ids) |
| `Vit` | Common/Datetime.py, Measurement/PersonalData.py, Measurement/StandardMeasurement.py, Measurement/ValentinaMeasurement.py, Common/Xml/XmlFile.py (paths that are child names), FileFormat/Valentina/Measurement.py |
| `Catalogue` | Measurement/ValentinaStandardMeasurement.py and the names of its data file |
| `Detail` | Pattern/Sketch.py (`bounding_box`, `detail_scene`) |
| `ToPython` | Pattern/SketchOperation.py (`to_python`, `_init_args`) |
| `ArrowHead` | GeometryEngine/Shape/ArrowHead.py |
| `Application` | QtApplication/QmlApplication.py (the single instance, the scene property, the message handler, the script of the user), Common/ArgparseAction.py; the disk, the compiler and the execution are parameters |
| `Save` | FileFormat/Valentina/Pattern.py (`ValFileWriter`), FileFormat/Svg/SvgFile.py (`SvgFileWriter`), GraphicEngine/TeX/Document.py (`write`): the states of the disk during a save; the bytes of a document, the errors of `open` and the way the bytes are cut in writes are parameters |
| `XmlFile` | Common/Xml/XmlFile.py (`parse`), and `ValFileReader` on a disk; `etree.fromstring` is a parameter |
| `ColorData` | GraphicStyle/Color/color_data.py, Color/\_\_init\_\_.py: the tables of colours, generated from the file |
| `Platform` | Common/Platform.py (Linux; the frequency is a parameter) |

## What is not modelled

* The event loop of the Qt application, what its QML draws, and OpenGL (the handlers of the events are modelled in `Viewer`). The calls the painters make to Qt, ezdxf, reportlab, matplotlib and lxml are outputs of the model; what these libraries do with them is not modelled.
* What is logged (except by the application), the parsing of the command line, and the installation of configuration files.
* Floating point rounding, except where a tolerance is part of the code (it is then a number of the model).
* Functions that can never be called because of a missing name or a wrong signature are modelled as the exception they raise when a property depends on them, and are left out otherwise.
* The failure of `import Patro.FileFormat.Valentina.Pattern` (a name missing in Measurement/ValentinaMeasurement.py): the functions of the module are modelled as they would run with the import repaired. The evaluation of a sketch that is read, and the reading of its file of measurements, are parameters there; `ValPlaces` gives the operations that are read to the evaluation of `SketchGeometry`.
* Fatal situations of the interpreter (memory, signals).

## Plan and result per property

Each entry gives the model and the way of proof, then the theorems and their status.

