# Design

Formal model of FabriceSalvaire/Patro in Lean 4 (v4.33.0, Mathlib). The code was read as text only; nothing of it was run.

This file is written by `tools/design.py` from `tools/design/head.md`, `tools/design/plans.json`, `properties.jsonl`, `MANIFEST.json`
and `tools/design/axioms.json`.

## Layout

* `lean/Verif/Model/*.lean`: the model, one file per area. Every definition cites the file and lines of /repo it mirrors and states its simplifications.
* `lean/Verif/Spec/*.lean`: small specifications that do not mention the model's helpers.
* `lean/Verif/Proof/*.lean`: lemmas and invariants.
* `lean/Verif/Props/*.lean`: the theorems of the properties. The comment of each one begins with the number of the property; examples beside them meet their hypotheses.
* `seeded/LOG.jsonl`: wrong programs the theorems were tried against.

## Conventions

* Functions are total and computable where possible. Python exceptions are values of `Except PyErr`. A function that fails after an assignment returns the state it leaves behind too (theorems named `…_torn`).
* Loops that may not end are modelled by a step function or by an inductive relation, so that divergence can be stated.
* Python dicts are insertion-ordered association lists. Sets are lists without duplicates, and theorems hold for every order of iteration.
* Strings are lists of characters. Numbers written in texts go through a codec parameter when only the round trip matters.
* Floats are elements of a linearly ordered field `K` (ℚ in the examples), or real numbers when roots, angles or limits matter. Rounding, NaN and infinities are not modelled, except where numpy's division by zero is represented by `none`. `sign(0)` is 1.
* Threads: small-step interleaving semantics; each read or write of an attribute is one atomic step, locks as in `threading`.
* Where the code falsifies a natural property, the negation is proved, either for a concrete reachable witness or for all inputs of a kind (`…_wrong`), and what does hold is kept under a name that ends in `_partial` or as an exact characterisation. The model follows the code, not the intention.

## Trusted base

1. Lean's kernel (and, for the build, the elaborator that produces the terms the kernel checks).
2. The axioms `propext`, `Classical.choice` and `Quot.sound`. No other axiom is used; the list per theorem is at the end of this file. No `sorry`, `native_decide` or `bv_decide`.
3. The reading of the Python source: that each definition of the model does what the cited lines do. This is by inspection only.
4. The idealisations of the conventions above.
5. The assumptions on external code below.

### Assumptions on external code

| Library | Assumption |
|---|---|
| Python | version 3.10 or later; dicts keep the order of insertion; `sorted` is a stable sort; recursion deeper than the limit raises `RecursionError`; attribute access through `__getattr__` as in the language reference |
| numpy | before 1.24; a division by zero of array elements gives inf or nan and no exception; `rint` rounds to an integer at distance at most one half |
| sympy | `subs` with a dictionary replaces one symbol after the other in the order of the names; `real_roots` gives exactly the real roots (`RootsOf`) |
| lxml | comments are children of the tree, with a callable as tag; attributes are in document order |
| rtree | `intersection` gives, in any order, the identifiers of the boxes that meet the query box; deleting an unknown pair is an error |
| IntervalArithmetic | `\|=` is the smallest interval that contains both; `in` is membership of the closed interval; `enlarge` moves both bounds outwards in place |
| ezdxf | gives the vertices of a polyline in order with their bulges |
| yaml | loads the structures of the file; only the loaded data are modelled |
| `colorsys`, `str.format`, `re` | the documented behaviour, modelled on the forms the code uses |
| Qt, OpenGL, matplotlib, reportlab | not modelled |

`GraphicScene/Scene.py` has a syntax error at line 403, so that it cannot be imported. Its functions are modelled as written, as if the file could be imported.

## What is modelled

| Model file | Source (under /repo/Patro) |
|---|---|
| `Py` | exceptions |
| `IterTools` | Common/IterTools.py |
| `Graph` | Common/Graph/DirectedAcyclicGraph.py |
| `Counter`, `Singleton` | Common/AtomicCounter.py, Common/Object.py, Common/Singleton.py (threads) |
| `Common` | Common/Path.py (with `os.walk` on a tree without links), Common/Singleton.py (monostate), Common/Logging/Logging.py and Config/ConfigInstall.py (the configuration and the level), FileFormat/Svg/SvgFile.py (view box of the root) |
| `MathFunctions`, `Roots` | Common/Math/Functions.py, Common/Math/Root.py |
| `Text`, `Xml` | Common/Xml/Objectivity.py |
| `Calculator`, `Measurement`, `MeasurementFile` | Pattern/Calculator.py, Measurement/Measurement.py (with `yaml`, `sympify`, `str` and the codecs of Python as parameters) |
| `Pattern`, `SketchGeometry`, `SketchAgain`, `SketchEval` (specification) | Pattern/Pattern.py, Sketch.py, SketchOperation.py |
| `Vector`, `Transformation`, `TransformationNew`, `Line`, `Shapes`, `LineTools`, `Primitive` | GeometryEngine/Vector.py, Transformation.py, Primitive.py, Line.py, Segment.py, Triangle.py, Rectangle.py, Polyline.py, BoundingBox.py |
| `Polygon`, `PolygonMoment`, `Hull`, `PolygonTools`, `PolygonRest`, `Simplify`, `RegularObject` | GeometryEngine/Polygon.py |
| `Conic`, `CircleObject`, `Ellipse` | GeometryEngine/Conic.py, Mixin.py |
| `Bezier`, `BezierReal`, `BezierLength`, `BezierIntersect`, `BezierClip`, `Spline`, `SplineBezier`, `SplineObject`, `UniformSpline` | GeometryEngine/Bezier.py, Spline.py, Interpolation.py |
| `Path`, `PathBulge`, `PathEdit` | GeometryEngine/Path.py |
| `SvgPath`, `SvgTransform`, `SvgState` | FileFormat/Svg/SvgFormat.py, SvgFile.py |
| `Dxf`, `DxfImport`, `DxfRoundTrip` | FileFormat/Dxf/Polyline.py, Importer.py |
| `Scene`, `SceneGeometry`, `Style` | GraphicEngine/GraphicScene/Scene.py, GraphicItemMixin.py, GraphicItem.py, GraphicStyle.py, Pattern/SketchStyle.py |
| `Paper`, `Units` | GraphicEngine/Painter/Paper.py, Painter.py (tiler), QtPainter.py (viewport), GraphicScene/TypographyUnit.py, TextileTechnology/Yarn.py |
| `Color`, `Textile`, `Tex`, `TexFigure` | GraphicStyle/Color/ColorDataBase.py, TextileTechnology/*.py, GraphicEngine/TeX/*.py, Painter/TexPainter.py |
| `Painters` | GraphicEngine/Painter/SvgPainter.py, DxfPainter.py, PdfPainter.py, MplPainter.py, FileFormat/Svg/SvgFile.py (writer) |
| `Printed`, `PrintedText` | the scene of `Sketch.detail_scene` given to the painters of `Painters` and of `Tex`, `TexFigure`; what the SVG painter does with the data of a path |
| `QtPainter` | GraphicEngine/Painter/QtPainter.py, Painter.py |
| `Viewer` | GraphicEngine/Painter/QtPainter.py (the slots of the viewer, with the state after an exception), QtApplication/qml/main.qml (the handlers of the tool bar, the keyboard and the mouse) |
| `CalcFunctions` | Pattern/Calculator.py (dependencies, functions of the calculator) |
| `Formula` | Pattern/Calculator.py (value of an expression); the tokens, the grammar and the evaluation of Python for numbers, names, strings as arguments, the methods of `__calculator__`, signs, the four operations and parentheses are a part of the model, and so of the trusted base |
| `ValFormulas` | Pattern/Calculator.py (cache of the measurements) and Measurement/Measurement.py (`value`) for sets of Valentina measurements, composed with `Formula`, `Vit` and `ValPlaces` |
| `ValVit` | FileFormat/Valentina/Measurement.py composed with `ValFormulas`, `ValPlaces` and `ValPrinted` |
| `VectorObject` | GeometryEngine/Vector.py (vectors as mutable objects, integer, normalised and homogeneous vectors) |
| `Valentina`, `ValPlaces`, `ValEval`, `ValRead`, `ValPrinted`, `ValDrawn` | FileFormat/Valentina/Pattern.py, VitFormat.py, Pattern/SketchOperation.py (constructors), Sketch.py (dictionary of operations), Common/Object.py (ids) |
| `Vit` | Common/Datetime.py, Measurement/PersonalData.py, Measurement/StandardMeasurement.py, Measurement/ValentinaMeasurement.py, Common/Xml/XmlFile.py (paths that are child names), FileFormat/Valentina/Measurement.py |
| `Catalogue` | Measurement/ValentinaStandardMeasurement.py and the names of its data file |
| `Detail` | Pattern/Sketch.py (`bounding_box`, `detail_scene`) |
| `ToPython` | Pattern/SketchOperation.py (`to_python`, `_init_args`) |
| `ArrowHead` | GeometryEngine/Shape/ArrowHead.py |
| `Application` | QtApplication/QmlApplication.py (the single instance, the scene property, the message handler, the script of the user), Common/ArgparseAction.py; the disk, the compiler and the execution are parameters |
| `Save` | FileFormat/Valentina/Pattern.py (`ValFileWriter`), FileFormat/Svg/SvgFile.py (`SvgFileWriter`), GraphicEngine/TeX/Document.py (`write`): the states of the disk during a save; the bytes of a document, the errors of `open` and the way the bytes are cut in writes are parameters |
| `XmlFile` | Common/Xml/XmlFile.py (`parse`), and `ValFileReader` on a disk; `etree.fromstring` is a parameter |
| `ColorData` | GraphicStyle/Color/color_data.py, Color/\_\_init\_\_.py: the tables of colours, generated from the file |
| `Platform` | Common/Platform.py (Linux; the frequency is a parameter) |

## What is not modelled

* The event loop of the Qt application, what its QML draws, and OpenGL (the handlers of the events are modelled in `Viewer`). The calls the painters make to Qt, ezdxf, reportlab, matplotlib and lxml are outputs of the model; what these libraries do with them is not modelled.
* What is logged (except by the application), the parsing of the command line, and the installation of configuration files.
* Floating point rounding, except where a tolerance is part of the code (it is then a number of the model).
* Functions that can never be called because of a missing name or a wrong signature are modelled as the exception they raise when a property depends on them, and are left out otherwise.
* The failure of `import Patro.FileFormat.Valentina.Pattern` (a name missing in Measurement/ValentinaMeasurement.py): the functions of the module are modelled as they would run with the import repaired. The evaluation of a sketch that is read, and the reading of its file of measurements, are parameters there; `ValPlaces` gives the operations that are read to the evaluation of `SketchGeometry`.
* Fatal situations of the interpreter (memory, signals).

## Plan and result per property

Each entry gives the model and the way of proof, then the theorems and their status.


* **C01** Topological sort yields dependencies first (proved). Model: `Graph`. Finite graph as node list + descendant function; DFS with fuel-free well-founded recursion, set orders as arbitrary permutations chosen by an oracle; loop invariant (post-order list closed under descendants).
  Theorems: `Graph.topologicalSort_sound`.
* **C02** Topological sort fails exactly on cyclic graphs (partial). Model: `Graph`. Same model; soundness (back edge => cycle) and completeness (cycle => error) from the DFS invariant.
  Theorems: `Graph.topologicalSort_complete_partial`, `Graph.topologicalSort_deep_wrong`.
  False of deep graphs: topologicalSort_deep_wrong gives, for every recursion limit of the interpreter, a chain without a cycle on which RecursionError is raised. topologicalSort_complete_partial proves the equivalence for graphs with fewer nodes than the limit.
* **C03** Breadth first search visits exactly the reachable nodes once (proved). Model: `Graph`. Queue/visited loop; invariant visited = queue ∪ yielded, closed under reachability; distance layering invariant.
  Theorems: `Graph.breadthFirstSearch_spec`.
* **C04** Ancestor and descendant links stay mirror images (proved). Model: `Graph`. State machine over add_node/connect/disconnect; invariant by induction on the history.
  Theorems: `Graph.links_mirror`, `Graph.connect_edges`, `Graph.disconnect_edge`, `Graph.disconnect_non_edge`, `Graph.roots_leafs_spec`.
* **C05** Graph node ids are unique (proved). Model: `Graph`. Same state machine.
  Theorems: `Graph.addNode_new`, `Graph.addNode_duplicate`.
* **C06** Counter increments are never lost (proved). Model: `Counter`. Small-step interleaving semantics: per thread program counter; lock; invariant on value + pending increments.
  Theorems: `Counter.increments_not_lost`, `Counter.no_deadlock`.
* **C07** Concurrent increments return distinct values (partial). Model: `Counter`. Same semantics; negation by concrete schedule, `_partial` for non-overlapping calls.
  Theorems: `Counter.increment_returns_duplicate`, `Counter.increment_returns_same_wrong`, `Counter.increment_returns_increasing_partial`.
  The claim is false of the code for overlapping calls: increment_returns_duplicate gives a schedule in which two calls return the same value, increment_returns_same_wrong one for any number of threads in which all the calls return the same value. increment_returns_increasing_partial proves it for calls that do not overlap.
* **C08** Global ids are strictly increasing and unique (proved). Model: `Counter`. Sequential state machine; induction on the creation list.
  Theorems: `Counter.ids_strictly_increasing`, `Counter.explicit_id_spec`, `Counter.automatic_id_spec`, `Counter.newOperationId_spec`.
* **C09** Singleton metaclass creates one instance under every schedule (proved). Model: `Singleton`. Interleaving semantics with re-entrant lock; invariant: instance write-once.
  Theorems: `Singleton.metaclass_single_instance`, `Singleton.metaclass_no_deadlock`.
* **C10** The singleton decorator is only safe without overlap (proved). Model: `Singleton`. Sequential fold + explicit racing schedule.
  Theorems: `Singleton.decorator_sequential`, `Singleton.decorator_race`, `Singleton.decorator_race_all`.
  decorator_sequential proves the safe case, decorator_race exhibits the schedule with two instances.
* **C11** Closed and open pair iteration (proved). Model: `IterTools`. Generators as list functions with Except for raising; index characterisation.
  Theorems: `IterTools.closedIterator_spec`, `IterTools.closedIterator_nil`, `IterTools.pairwise_spec`, `IterTools.pairwise_nil`, `IterTools.closedPairwise_spec`.
* **C12** Sliding windows (proved). Model: `IterTools`. tee/next/zip modelled on lists; index characterisation.
  Theorems: `IterTools.multiwise_spec`, `IterTools.multiwise_zero`, `IterTools.closedMultiwiseIndex_spec`.
* **C13** Trigonometric clamp (proved). Model: `MathFunctions`. Generic ordered field.
  Theorems: `MathFunctions.trignometricClamp_nearest`, `MathFunctions.trignometricClamp_eq_self_iff`, `MathFunctions.trignometricClamp_mono`, `MathFunctions.isInTrignometricRange_iff`.
* **C14** Quadratic solver is exact (proved). Model: `MathFunctions`. Real numbers with Real.sqrt; case analysis.
  Theorems: `MathFunctions.quadraticRoot_exact`, `MathFunctions.quadraticRoot_none_iff`, `MathFunctions.quadraticRoot_two_order`.
* **C15** XML attribute defaults and lookup (proved). Model: `Xml`. Attribute lists with codec parameters; finite maps as association lists.
  Theorems: `Xml.initFromXml_attribute`, `Xml.initFromXml_succeeds_iff`, `Xml.initFromXml_undeclared`.
* **C16** XML object round trip (proved). Model: `Xml`. Same; induction on the attribute list.
  Theorems: `Xml.xml_round_trip`, `Xml.toXml_kwargs`, `Xml.toXml_unset`.
* **C17** Scalar attribute codecs round trip (proved). Model: `Xml`. Char-list parsers/printers for bool and decimal integers.
  Theorems: `Xml.boolFromXml_spec`, `Xml.bool_round_trip`, `Xml.int_round_trip`, `Xml.intFromText_spaces`.
* **C18** Float list attribute round trip (proved). Model: `Xml`. split/join on char lists; induction.
  Theorems: `Xml.floatList_round_trip`, `Xml.floatList_comma`, `Xml.floatList_empty`, `Xml.floatList_comma_space`.
* **C19** Text element keeps its text (partial). Model: `Xml`. Constructor order model; negation theorem.
  Theorems: `Xml.textObj_ofXml_text`, `Xml.textObj_kwargs_text_partial`, `Xml.textObj_kwargs`.
  The claim is false of the code: textObj_ofXml_text proves that the text read from XML is always lost. textObj_kwargs_text_partial proves that a text given as keyword argument is kept and written.
* **C20** Expression value cache (proved). Model: `Calculator`. Cache state machine with evaluator parameter.
  Theorems: `Calculator.value_kept`, `Calculator.nameError_kept`, `Calculator.read_after_dirty`, `Calculator.read_compile_error`, `Calculator.evaluation_count`.
* **C21** Rewriting of custom measurement names (partial). Model: `Calculator`. Char-list find/replace; negation with witness and single-name partial theorem.
  Theorems: `Calculator.rewriteCustom_one_name_partial`, `Calculator.rewriteCustom_last`, `Calculator.rewriteCustom_unknown`, `Calculator.rewriteCustom_two_names`.
  False of the code for two different custom names (rewriteCustom_two_names; rewriteCustom_last gives what is computed in general). rewriteCustom_one_name_partial proves the claim for one distinct name.
* **C22** Scan for identifiers terminates and finds every occurrence (proved). Model: `Calculator`. Well-founded scan.
  Theorems: `Calculator.identifier_characters`, `Calculator.findIdentifier_spec`, `Calculator.scan_terminates`, `Calculator.identifiers_sound`, `Calculator.identifiers_complete`.
* **C23** Measurement names are validated (proved). Model: `Measurement`. Char-list validation with isalnum predicate parameter.
  Theorems: `Measurement.validateName_spec`, `Measurement.validateName_idempotent`.
* **C24** Measurement set keeps the first definition (proved). Model: `Measurement`. Insertion ordered map; induction on the history.
  Theorems: `Measurement.add_spec`, `Measurement.lookup_first`, `Measurement.sortedIter_spec`.
* **C25** Measurement formulas evaluate independently of naming (partial). Model: `Measurement`. Expression AST with one-pass ordered substitution (assumed sympy semantics); negation + partial.
  Theorems: `Measurement.subs_sound`, `Measurement.subs_solution`, `Measurement.subs_complete_partial`, `Measurement.subs_chain_unresolved`.
  False of the code: subs_chain_unresolved is a witness (sympy replaces one name after the other in name order, so a reference to an earlier formula is left unresolved). subs_sound and subs_solution prove that a computed number is always right, whatever the other measurements; subs_complete_partial is the exact criterion: it is computed if and only if all the names needed are in the set and refer to later names.
* **C26** Pattern scope registry (proved). Model: `Pattern`. List of scopes; histories.
  Theorems: `Pattern.scopes_in_insertion_order`, `Pattern.scope_by_name`, `Pattern.scope_by_index`, `Pattern.removeScope_by_name`, `Pattern.rename_only`, `Pattern.removeScope_at_most_one`.
* **C27** Sketch operations resolve to earlier operations (proved). Model: `Pattern`. Sketch state machine: op list, dict, dag, counter.
  Theorems: `Pattern.getOperation_latest`, `Pattern.create_ok`, `Pattern.create_error`, `Pattern.create_succeeds`, `Pattern.id_resolves`, `Pattern.id_hidden_by_name`.
* **C28** The sketch dependency graph is acyclic and creation order is a valid evaluation order (partial). Model: `Pattern`. Same; invariant all edges go from earlier to later; combined with C02.
  Theorems: `Pattern.edges_forward_weak`, `Pattern.edges_forward_partial`, `Pattern.topologicalSort_never_raises_partial`, `Pattern.eval_order`, `Pattern.eval_positions`, `Pattern.dependencies_before`, `Pattern.mentioned_before_partial`, `Pattern.create_edges`, `Pattern.eval_selfLoop`.
  False of the code in one case (eval_selfLoop): a point whose expression mentions a Line_ call on the point itself in a branch that is not taken becomes its own ancestor and topological_sort raises. edges_forward_partial, topologicalSort_never_raises_partial and mentioned_before_partial prove the claim for every history without such a request; edges_forward_weak, eval_order, dependencies_before and create_edges hold without restriction. The sort needs a recursion limit above the number of operations (see C02).
* **C29** Sketch points satisfy their geometric definition (proved). Model: `Pattern`. Eval functions over reals/ordered fields.
  Theorems: `SketchGeometry.sketch_satisfies`, `SketchGeometry.sketch_values`, `SketchGeometry.spline_geometry`.
* **C30** Rotation is a direct isometry (proved). Model `Vector`: `rotate`, `normal`, `permute`, `scale` over ℝ. Compared with the multiplication by a complex number of modulus one; norms and linearity by algebra.
  Theorems: `Vec.rotate_toComplex`, `Vec.rotate_isometry`, `Vec.rotate_linear`, `Vec.rotate_rotate`, `Vec.permute_scale_middle`, `Vec.normal_rotate`.
* **C31** Dot and cross product laws (proved). Model `Vector`: `dot`, `cross`, `is_parallel` over an ordered field; `rint` on the cross product kept. Ring identities, Lagrange's identity; the parallel test is characterised exactly.
  Theorems: `Vec.dot_laws`, `Vec.cross_laws`, `Vec.dot_sq_add_cross_sq`, `Vec.isParallel_iff`, `Vec.isParallel_short`.
* **C32** Projection and deviation decompose a vector (proved). Model `Vector`: `projection_on`, `deviation_with`, `cos_with`, `sin_with` with Python's `ZeroDivisionError`. Decomposition by algebra over ℝ.
  Theorems: `Vec.projection_deviation`, `Vec.projection_idempotent`, `Vec.projection_error`, `Vec.cos_sin_with`.
* **C33** Normalising gives a unit vector in the same direction (proved). Model `Vector`: `to_normalised`, `from_polar`; numpy's division by zero is `none`. Algebra with `Real.sqrt`.
  Theorems: `Vec.toNormalised_spec`, `Vec.fromPolar_magnitude`, `Vec.fromPolar_rotate`.
* **C34** Transformation product composes (proved). Model `Transformation`: matrices of Mathlib with the type tag; `*` and `*=` for linear and affine transformations. Applying a product is applying both factors, by matrix algebra; the affine product is characterised, and refuted where the last row is wrong.
  Theorems: `Transformation.lin_mul_apply`, `Transformation.lin_mul_assoc`, `Transformation.lin_mul_ok_iff`, `Transformation.aff_mul_apply`, `Transformation.aff_mul_assoc`, `Transformation.aff_mul_wrong`, `Transformation.aff_reach_mul_apply`, `Transformation.imul_apply`, `Transformation.lin_imul_raises`.
* **C35** The identity type tag is trustworthy (proved). Model `Transformation`: inductive set of the transformations a program can build. The tag is compared with the matrix by induction on the construction.
  Theorems: `Transformation.lin_identity_sound`, `Transformation.lin_type_sound`, `Transformation.aff_identity_sound`.
* **C36** Affine transformations about a centre (proved). Model `Transformation`: affine constructors, rotation about a centre. Matrix computation.
  Theorems: `Transformation.aff_constructors`, `Transformation.rotationAt_apply`, `Transformation.rotationAt_spec`.
* **C37** Transforming a primitive transforms each of its points (proved). Model `Transformation`: `transform(clone)` as a state change on a list of points. For every reachable transformation.
  Theorems: `Transformation.transform_clone`, `Transformation.transform_in_place`, `Transformation.transform_reach`, `Transformation.mirror_spec`.
* **C38** Line intersection is the common point (partial). Model `Line`: `intersection` with the rounding test of parallelism. Specification: set of points of a line. Cramer's rule.
  Theorems: `intersection_sound`, `intersection_none_iff`, `intersection_found_partial`, `intersection_missed`.
  False of the code for nearly parallel lines: intersection_missed gives two non parallel lines for which no intersection is reported, because a cross product that rounds to zero counts as parallel. intersection_sound holds for all lines, intersection_none_iff is the exact condition, intersection_found_partial proves the claim when the cross product does not round to zero.
* **C39** Segment intersection test is exact for proper position (proved). Model `Line`: `intersect_with` by the four orientations. Specification: a common point of the two closed segments. Case analysis on the signs.
  Theorems: `intersectWith_iff`, `triangleOrientation_spec`, `segment_intersection_spec`.
* **C40** Distance from a point to a segment is minimal (proved). Model `Line`: `distance_to_point` of segments. Specification `IsLeast` of the distances to the points of the segment. Projection inequality.
  Theorems: `distanceToPoint_isLeast`.
* **C41** Point inside triangle (proved). Model `Shapes`: barycentric test. Specification: convex combination of the vertices, any order of the vertices.
  Theorems: `isPointInside_iff`, `isPointInside_order`, `create_triangle_spec`, `isPointInside_flat`, `triangle_edges`.
* **C42** Rectangle membership and area (proved). Model `Shapes`: rectangles and intervals. Algebra.
  Theorems: `rectangle_isPointInside`, `rectangle_edges`, `rectangle_perimeter_area`.
* **C43** Polyline distance is the minimum over its edges (partial). Model `Shapes`: polyline with its edge cache as a state machine over questions and transformations. Induction on the history; minimum of a list.
  Theorems: `polyline_distance_fresh`, `polyline_distance_partial`, `polyline_distance_frozen`, `polyline_stale`, `polyline_create`.
  False after an in place transformation that follows a question: polyline_stale. polyline_distance_partial proves it when transformations come before the first question and polyline_distance_frozen proves that later answers are for the polyline of the first question.
* **C44** Polygon area is the shoelace area (proved). Model `Polygon`: cached area. Specification: signed area, invariant by translation, rotation of the vertex list and cuts. Induction on the vertex list.
  Theorems: `Polygon.create_spec`, `Polygon.area_spec`, `Polygon.signedArea_affine`, `Polygon.signedArea_order`, `Polygon.signedArea_cut`, `Polygon.area_triangle`, `Polygon.area_frozen`, `Polygon.area_stale`, `Polygon.perimeter_spec`.
  The area is computed once: area_frozen and area_stale state what happens after a transformation.
* **C45** Bezier split gives the same curve (proved). Model `Bezier`: `split_at_t` by de Casteljau. Polynomial identities.
  Theorems: `Bezier.cubic_split`, `Bezier.quad_split`.
* **C46** Degree elevation preserves the curve (proved). Model `Bezier`: `to_cubic`. Polynomial identity.
  Theorems: `Bezier.toCubic_pointAt`.
* **C47** Bezier curves interpolate end points and stay in the convex hull (proved). Model `Bezier`: `point_at_t`. Bernstein weights are non-negative and sum to one; convex hull of Mathlib.
  Theorems: `Bezier.end_points`, `Bezier.in_hull`, `Bezier.in_box`, `Bezier.in_box_quad`, `Bezier.affine_invariant`.
* **C48** Fat line bounds the curve (proved). Model `Bezier`: `fat_line`. Bound of the Bernstein weights of the inner points.
  Theorems: `Bezier.fatLine_spec`, `Bezier.quad_fatLine_wrong`.
* **C49** Bezier basis matrices are inverse (proved). Model `Bezier`: basis matrices. Matrix product computed in Lean.
  Theorems: `Bezier.cubic_basis_inverse`, `Bezier.polynomial_form`, `Bezier.toSpline_pointAt`, `Bezier.quad_basis_wrong`.
* **C50** Uniform knot vectors are well formed (proved). Model `Spline`: default knot list. List characterisation for every degree and number of points.
  Theorems: `Spline.uniformKnots_spec`.
* **C51** Span location (proved). Model `Spline`: `span` for both kinds of knots. Loop invariant.
  Theorems: `Spline.span_uniform`, `Spline.span_given`.
  Complete behaviour for both kinds of splines. At the end of the range span gives the number of points (default knots) or None (given knots).
* **C52** B-spline basis functions (proved). Model `Spline`: Cox–de Boor recursion. Non-negativity, support and partition of unity by induction on the degree.
  Theorems: `Spline.basis_spec`, `Spline.basis_sum`.
* **C53** De Boor evaluation equals the basis sum (partial). Model `Spline`: de Boor triangle as array updates. Row invariant against the basis sum; errors at the bounds.
  Theorems: `Spline.pointAt_curve`, `Spline.pointAt_uniform`, `Spline.pointAt_end_wrong`, `Spline.pointAt_before_wrong`, `Spline.pointAt_after`, `Spline.naive_wrong`.
  Proved inside the range for every well formed spline (pointAt_curve) with the end points and the errors of splines without given knots (pointAt_uniform). False at the last knot of a spline with given knots, TypeError (pointAt_end_wrong), before the range of such a spline (pointAt_before_wrong) and for naive=True, TypeError (naive_wrong).
* **C54** Knot insertion preserves the curve (partial). Model `Spline`: `insert_knot`. The new curve has the same points, by the blossoming identity of the basis functions.
  Theorems: `Spline.insertKnot_spec`, `Spline.insertKnot_pointAt`, `Spline.insertKnot_end_wrong`, `Spline.insertKnot_end`.
  Proved inside the range (insertKnot_spec, insertKnot_pointAt) and at the end of a spline without given knots (insertKnot_end). False at the end of the curve: the result has given knots, so that evaluating its end raises TypeError (insertKnot_end_wrong).
* **C55** Angular domain membership (partial). Model `Conic`: `AngularDomain.is_inside`. Specification: sector swept from start to stop modulo 360.
  Theorems: `Conic.isInside_partial`, `Conic.isInside_bounds`, `Conic.isInside_wrong`.
  Proved for bounds in [0, 360] and angles in [0, 360) (isInside_partial). False in general: closed domains given clockwise or shifted by a turn do not hold every angle, and domains that cross the origin with a bound outside [0, 360] miss angles (isInside_wrong).
* **C56** Circle and segment intersection points (proved). Model `Conic`: `intersect_segment` of circles. Specification: points of the line at distance radius; discriminant cases.
  Theorems: `Conic.intersectSegment_spec`, `Conic.intersectSegment_null`.
* **C57** Circle distance (partial). Model `Conic`: `is_point_inside`, `distance_to_point`. Specification `IsLeast`; law of cosines for arcs.
  Theorems: `Conic.isPointInside_iff`, `Conic.distance_circle`, `Conic.distance_arc_partial`, `Conic.distance_arc_wrong`.
  Proved for full circles (distance_circle, isPointInside_iff) and for arcs with bounds in [0, 360) (distance_arc_partial). False for arcs with a negative bound (distance_arc_wrong).
* **C58** Path parts chain (partial). Model `Path`: path as a list of parts with the commands as a state machine. Specification: trace of a pen. Induction on the command list.
  Theorems: `Path.points_eq_trace_partial`, `Path.first_start`, `Path.chain_partial`, `Path.closed_stop`, `Path.add_open`, `Path.add_radius_error`, `Path.closed_ignores`, `Path.add_keeps`, `Path.stringed_wrong`, `Path.stringedQuadratic_wrong`, `Path.move_closed_wrong`, `Path.close_twice_wrong`, `Path.close_torn_wrong`, `Path.roundedRectangle_points`.
  Proved for every history: points are the ones of the specification, parts chain, a closed path ignores additions. False of stringed curves (NotImplementedError/NameError), of move_to after close with a rounded corner, of close called twice with a radius, and close on a path which begins with a curve leaves it torn.
* **C59** Relative and absolute path commands agree (partial). Model `Path`: relative flags, `transform`. Simulation between the relative and the absolute command lists.
  Theorems: `Path.relative_absolute`, `Path.direction_line`, `Path.horizontal_absolute_wrong`, `Path.corner_radius`, `Path.transform_points`, `Path.transform_ok_iff`, `Path.transform_no_radius`, `Path.transform_parts`, `Path.transform_radius`, `Path.transform_arc_wrong`, `Path.transform_torn_wrong`.
  Relative and absolute commands have the same trace, a transformation which succeeds maps every point, and it succeeds exactly when radii are accepted. False of horizontal_to/vertical_to absolute, of the radii of arcs, and a transformation which raises leaves the path torn.
* **C60** SVG path data parsing terminates (partial). Model `SvgPath`: tokenizer and parser on characters, with a step function and an explicit divergence. Exact condition of termination by induction on the text.
  Theorems: `SvgPath.parse_terminates_partial`, `SvgPath.parse_hangs_wrong`, `SvgPath.parse_terminates_iff`.
  Reading stops exactly for the texts characterised by parse_terminates_iff; parse_hangs_wrong gives a text for which the loop never ends.
* **C61** SVG path data grouping (partial). Model `SvgPath`: parser and writer. Round trip by induction on the command list.
  Theorems: `SvgPath.parse_blocks_partial`, `SvgPath.smooth_quadratic_wrong`, `SvgPath.write_read_partial`, `SvgPath.read_write_wrong`, `SvgPath.compact_wrong`.
  Proved for data in the spaced form the reader accepts; compact forms such as M10 20 are rejected and the smooth quadratic command is not readable (compact_wrong, smooth_quadratic_wrong).
* **C62** SVG group state is scoped (partial). Model `SvgState`: reader state machine with a stack of states over a document tree. Induction on the tree.
  Theorems: `SvgState.read_exact`, `SvgState.group_scope_partial`, `SvgState.group_scope_wrong`.
  False in general: group states are pushed and never popped (group_scope_wrong). read_exact says what is computed for every document, group_scope_partial gives the documents where it is right.
* **C63** DXF bulge arcs (proved). Model `Dxf`: segments with bulge. Specification: the arc with the given tangent of a quarter of its angle. Trigonometry over ℝ.
  Theorems: `Dxf.positive_bulge`, `Dxf.negative_bulge_wrong`, `Dxf.flat_or_null`, `Dxf.polyline_items`, `Dxf.vertex_angle`, `Dxf.added_items`, `Dxf.sagitta_spec`.
  Positive bulges, flat and null segments and the sequence of items of a polyline. For a negative bulge, negative_bulge_wrong shows that for every chord and every negative bulge the radius is negative and the summit is not on the arc (a bug). vertex_angle: the angle property is the supplement of the angle of the arc.
* **C64** Scene draws items in z order (proved). Model `Scene`: z-ordered insertion. Sortedness and stability by induction.
  Theorems: `Scene.z_order`.
* **C65** Picking returns items within the radius sorted by distance (proved). Model `Scene`: index and distance query with `rtree` as an assumption. Sorted permutation of the items within the radius.
  Theorems: `Scene.pick`, `Scene.pick_negative`, `Scene.meets_iff`, `Scene.update_then_pick`.
* **C66** Viewport mapping round trip and fit (proved). Model `Paper`: viewport as a record with rational coordinates; zoom, pan, fit, resize. Algebra.
  Theorems: `Paper.viewport_round_trip`, `Paper.viewport_unset`, `Paper.zoom_mapping`, `Paper.zoom_without_size`, `Paper.fit`, `Paper.resize`, `Paper.pan_moves`, `Paper.zoom_at_position`, `Paper.lengths`.
* **C67** Tiling covers the scene (partial). Model `Paper`: tiler loops. Grid, disjointness and exact covering condition.
  Theorems: `Paper.tiles_grid`, `Paper.tiles_disjoint`, `Paper.tiles_cover_iff`, `Paper.tiler_cover`.
  tiles are disjoint and form the grid; they cover the bounding box exactly when the numbers of rows and columns agree (tiles_cover_iff): the code exchanges rows and columns
* **C68** Paper sizes (partial). Model `Paper`: paper sizes by halving, and the names that are accepted. Induction on the size number.
  Theorems: `Paper.paper_size`, `Paper.halving`, `Paper.landscape_swaps`, `Paper.accepted`, `Paper.accepted_iff`, `Paper.odd_names_wrong`.
  sizes, halving and landscape proved; the set of accepted names is characterised, and odd names such as those of odd_names_wrong are accepted
* **C69** Unit conversions are mutually consistent (partial). Model `Units`: conversion constants as rationals. Compared with the definitions of the units.
  Theorems: `Units.conversions_right`, `Units.mm_point_round_trip`, `Units.unused_factor_wrong`, `Units.conversions_wrong`, `Units.inch_point_round_trip`.
  mm<->point and inch->mm proved; the other conversions are refuted by conversions_wrong
* **C70** Yarn count conversions are consistent (partial). Model `Units`: yarn counts. Compared with the definitions of tex, den, Nm.
  Theorems: `Units.tex_to_den`, `Units.tex_to_nm`, `Units.den_to_tex_wrong`, `Units.nm_to_tex_wrong`.
  tex->den and tex->nm proved; den->tex and nm->tex refuted
* **C71** TeX template formatting inserts text verbatim (partial). Model `Tex`: template substitution on character lists. Induction on the text.
  Theorems: `Tex.template_filled`, `Tex.guillemets_wrong`, `Tex.document_source`, `Tex.positional_field`, `Tex.environments_nested`, `Tex.append_list`.
  holds for plain texts without guillemets and well-formed placeholders; other guillemets are not kept verbatim (guillemets_wrong)
* **C72** Colour text form round trips (partial). Model `Color`: parsing of hexadecimal texts and 8-bit components. Induction on digits; exact set of accepted texts.
  Theorems: `Colour.text_read`, `Colour.text_round_trip`, `Colour.three_arguments`, `Colour.integer_components`, `Colour.set_component`, `Colour.text_accepted_partial`, `Colour.text_middle_wrong`, `Colour.text_negative_wrong`, `Colour.text_wrong`, `Colour.components_in_range`.
  the round trip holds for all 8-bit colours and numbers out of range are rejected; exactly the texts that are accepted are stated in text_accepted_partial: some with signs, spaces or other lengths are among them (text_negative_wrong, text_middle_wrong, text_wrong)
* **C73** Databases keep the first definition (proved). Model `Color`, `Textile`: databases as association lists. Induction on the history of definitions.
  Theorems: `Colour.load_first`, `Colour.add_replaces`, `Colour.ensureColor_spec`, `Textile.database_first`, `Textile.fibers_loaded`, `Textile.fiber_without_source`, `Textile.fibers_malformed`.
  for loading and registering; ColorDataBase.add called directly replaces the old definition (add_replaces)
* **C74** Small numeric helpers (proved). Model `MathFunctions`: small functions. Case analysis.
  Theorems: `MathFunctions.cmp_spec`, `MathFunctions.epsilonFloat_spec`, `MathFunctions.sign_spec`, `MathFunctions.middle_spec`.
* **C75** Degenerate cubics (proved). Model `MathFunctions`: cubic with null leading coefficient. Reduction to C14.
  Theorems: `MathFunctions.cubicRootDegenerate_exact`.
* **C76** Attributes are inherited and overridden predictably (proved). Model `Xml`: attribute lists of a class hierarchy. Induction on the list of bases.
  Theorems: `Xml.attributes_mem_iff`, `Xml.effective_attribute`.
* **C77** Function calls in expressions are rewritten (partial). Models `Calculator` and `CalculatorCalls`: rewriting of calls on characters. Expressions are words (plain text, calls, CurrentLength); the rewriting is proved word by word for any number of words, by induction, when no name holds another; refuted by witnesses otherwise.
  Theorems: `Calculator.rewriteCalls_single_partial`, `Calculator.rewriteCalls_none`, `Calculator.rewriteCalls_prefix_clash`, `Calculator.rewriteCalls_current_length`, `Calculator.rewriteCalls_words_partial`, `Calculator.pythonise_words_partial`.
  rewriteCalls_words_partial and pythonise_words_partial: proved for expressions with any number of words and calls whose names do not clash. Refuted otherwise: rewriteCalls_prefix_clash and rewriteCalls_current_length are witnesses.
* **C78** Reading a measurement fixes it (proved). Model `Measurement`: value cache. Induction on the history of reads.
  Theorems: `Measurement.value_stable`, `Measurement.value_error_stable`.
* **C79** Orientation is the polar angle (proved). Model `Vector`: `orientation`, `angle_with`. Compared with `Complex.arg`.
  Theorems: `Vec.orientation_eq_arg`, `Vec.fromPolar_orientation`, `Vec.angleWith_spec`, `Vec.orientation_null`.
* **C80** Distance to a line and projection on a line (partial). Model `Line`: distance and projection on a line. Least distance; exact condition of rightness of the projection.
  Theorems: `distanceToLine_spec`, `projectedPoint_partial`, `projectedPoint_foot_iff`, `projectedPoint_wrong`.
  projected_point is false unless the direction is normalised: projectedPoint_wrong is a witness, projectedPoint_foot_iff the exact condition and projectedPoint_partial the case that holds. distanceToLine_spec is proved in full.
* **C81** Derived lines and sides (proved). Model `Line`: derived lines, sides and points. Algebra.
  Theorems: `coordinates_spec`, `parallel_orthogonal_spec`, `sideOf_spec`, `segment_center_spec`, `shareVertexWith_spec`, `shiftedParallelLine_spec`, `pointAtDistance_spec`.
* **C82** Segment contains a point (partial). Model `Line`: `contain_point`. Exact set of accepted points.
  Theorems: `containPoint_iff`, `containPoint_partial`, `containPoint_wrong`.
  False of the code: containPoint_wrong. containPoint_iff is the exact behaviour, containPoint_partial the case that holds.
* **C83** Triangle area and bisectors (partial). Model `Shapes`: area and bisector of triangles. Algebra; bisector compared with equal angles.
  Theorems: `bisector_is_median`, `triangle_area_spec`, `triangle_area_base_height`, `bisector_iff_partial`, `bisector_wrong`.
  The bisector half is false: bisector_wrong, bisector_is_median; bisector_iff_partial is the exact condition. The area half is proved.
* **C84** Bounding box of points (proved). Model `Shapes`: box of a list of points. Least box by induction.
  Theorems: `boundingBox_spec`.
* **C85** is_simple detects self-intersections (partial). Model `Polygon`: `is_simple`. Specification: edges meet only at shared vertices. Exact characterisation.
  Theorems: `Polygon.isSimple_iff`, `Polygon.isSimple_complete`, `Polygon.isSimple_partial`, `Polygon.isSimple_wrong_small`, `Polygon.isSimple_wrong_vertex`, `Polygon.isSimple_again`.
  Every simple polygon is reported as simple, and the answer is characterised exactly (isSimple_iff). The converse is refuted: edges whose cross product rounds to zero are taken for parallel and a shared vertex is always accepted (isSimple_wrong_small, isSimple_wrong_vertex).
* **C86** Barycenter and orientation of a polygon (proved). Model `Polygon`: barycenter and orientation. Invariance under affine maps and cuts.
  Theorems: `Polygon.barycenter_spec`, `Polygon.isClockwise_spec`, `Polygon.pointBarycenter_spec`.
* **C87** Point in polygon (partial). Model `Polygon`: `is_point_inside` with its missing attributes. Exact behaviour.
  Theorems: `Polygon.isPointInside_exact`, `Polygon.isPointInside_partial`, `Polygon.isPointInside_raises`.
  The code is wrong: the method reads attributes which do not exist. isPointInside_exact characterises what is observable, isPointInside_raises is a counterexample; the answer is never True.
* **C88** is_convex recognises convex polygons (proved). Model `Polygon`: `is_convex`. Turning angles of the vertex list.
  Theorems: `Polygon.isConvex_complete`, `Polygon.isConvex_simple`, `Polygon.isConvex_wrong_order`, `Polygon.isConvex_wrong_double`, `Polygon.isConvex_again`.
  As stated. The converse fails (isConvex_wrong_double) and so does the statement for polygons with a flat vertex in clockwise order (isConvex_wrong_order).
* **C89** convex_hull returns the convex hull (partial). Model `Hull`: Graham scan with the sort as a permutation. Loop invariant: hull of the points seen.
  Theorems: `Hull.convexHull_partial`, `Hull.convexHull_raises_iff`, `Hull.convexHull_cases`, `Hull.convexHull_wrong`, `Hull.convexHullPolygon_clockwise`.
  Proved for distinct points of which no two are aligned with the lowest one. Otherwise TypeError is raised (convexHull_raises_iff, convexHull_wrong).
* **C90** Regular polygons (proved). Model `PolygonTools`: regular polygons. Trigonometry and induction.
  Theorems: `Polygon.regular_spec`, `Polygon.regular_convex`, `Polygon.regular_area`, `Polygon.regular_error`.
* **C91** simplify stays close to the polygon (partial). Model `Simplify`: reduction loop. Termination by the length; exact criterion.
  Theorems: `Polygon.simplify_partial`, `Polygon.simplify_negative`, `Polygon.simplify_wrong`, `Polygon.simplify_none_iff`, `Polygon.simplify_unbounded_wrong`.
  Termination, order of the vertices, the exact criterion of removal and, for distinct vertices, the exact condition under which None is returned (simplify_none_iff) are proved. The bound on the distance is refuted: for every threshold, the distance of a removed vertex to the result exceeds any bound (simplify_unbounded_wrong), since the errors accumulate.
* **C92** A transformation multiplied by a length gives the transformed length (partial). Model `Transformation`: product by a number. Compared with the length of an image segment.
  Theorems: `Transformation.scalarMul_partial`, `Transformation.scalarMul_wrong`, `Transformation.scalarMul_screen`, `Transformation.scalarMul_made`, `Transformation.scalarMul_opposite_wrong`.
  scalarMul_made gives the exact product for each transformation made by the class methods; scalarMul_partial the general case of a known type that is not a shear. False when the type is lost: a rotation of 90 degrees about a centre multiplies a length by 0 (scalarMul_wrong); the screen transformation and a scale by opposite factors raise ValueError although they multiply all the distances by one number (scalarMul_screen, scalarMul_opposite_wrong).
* **C93** Lengths of angular domains, arcs and circles (partial). Model `Conic`: length of domains and arcs. Compared with the sector.
  Theorems: `Conic.length_partial`, `Conic.length_wrong`, `Conic.perimeter_wrong`, `Conic.new_distance`.
  Proved for counter-clockwise and closed domains (length_partial) and for the start angle and distance constructor (new_distance). False for clockwise domains (length_wrong) and for the perimeter, whose branches are swapped (perimeter_wrong).
* **C94** Angles and points of a circle correspond (proved). Model `Conic`: `point_at_angle`, `angle_for_point`, tangent. Polar coordinates through `Complex.arg`.
  Theorems: `Conic.pointAtAngle_on`, `Conic.angleForPoint_inverse`, `Conic.angle_roundtrip`, `Conic.tangent_spec`, `Conic.pointAtDistance_spec`.
* **C95** Transforming a circle gives its image (partial). Model `Conic`: `apply_transformation` with its torn state. Image of the set of points.
  Theorems: `Conic.circle_transform_made`, `Conic.circle_transform_partial`, `Conic.arc_transform_partial`, `Conic.arc_transform_wrong`, `Conic.circle_transform_wrong`, `Conic.circle_transform_torn`.
  The exact outcome for the transformations made by the class methods is circle_transform_made. The image is proved for full circles and transformations of known type (circle_transform_partial) and for arcs under translations and positive scales (arc_transform_partial). False for arcs under rotations (arc_transform_wrong), for the rotation about a centre (circle_transform_wrong), and a refused transformation leaves the centre moved (circle_transform_torn).
* **C96** Point of contact (partial). Model `SketchGeometry`: point of contact. From C56.
  Theorems: `SketchGeometry.contact_partial`, `SketchGeometry.contact_outside_wrong`, `SketchGeometry.contact_tangent_wrong`.
  Refuted as stated: the point kept may be outside of the segment (contact_outside_wrong) and a tangent line raises (contact_tangent_wrong). Proved: on the line and on the circle, missing iff the line misses the circle.
* **C97** Length of a quadratic Bezier curve (partial). Model `BezierReal`: closed formula of the length. Compared with the integral of the speed by differentiation.
  Theorems: `Bezier.quad_length`, `Bezier.quad_length_wrong`.
  Complete behaviour proved (quad_length): the length is the integral of the speed, except for control points on a line with no gain of speed at the start, where ValueError is raised (quad_length_wrong).
* **C98** Length of a cubic Bezier curve (partial). Model `BezierLength`: subdivision in quadratic curves. Error bound of the integral of the speed.
  Theorems: `Bezier.cubic_length_partial`, `Bezier.cubic_length_wrong`, `Bezier.toCubic_length_wrong`, `Bezier.cubic_length_wrong'`.
  Proved for the curves of degree three with their number of parts, the distance of each part to its approximation and the error on the length (cubic_length_partial). False for curves of degree at most two, ZeroDivisionError (cubic_length_wrong, toCubic_length_wrong), and for some curves along a line, ValueError (cubic_length_wrong').
* **C99** The part of a Bezier curve between two parameters (partial). Model `Bezier`: `split_at_two_t`. Polynomial identities.
  Theorems: `Bezier.cubic_splitTwo`, `Bezier.quad_splitTwo_partial`, `Bezier.quad_splitTwo_wrong`.
  Proved for cubic curves and, for quadratic curves, for parameters from 0 to 1. Refuted for quadratic curves out of this range (quad_splitTwo_wrong).
* **C100** The point of a Bezier curve closest to a point (partial). Model `Bezier`: roots of the derivative of the squared distance, with `sympy.real_roots` as an assumption (`RootsOf`). Critical points.
  Theorems: `Bezier.closest_critical_partial`, `Bezier.closest_interior_partial`, `Bezier.closest_wrong`, `Bezier.quad_closest_wrong`, `Bezier.quad_closest_outcome`.
  Refuted (closest_wrong, quad_closest_wrong). Proved: the point returned is a critical point of the distance; it is the nearest point when this one is the only critical point and is inside the curve.
* **C101** Area of a cubic Bezier curve (partial). Model `BezierReal`: area formula. Compared with the line integral.
  Theorems: `Bezier.area_origin`, `Bezier.area_chord_iff`, `Bezier.area_partial`, `Bezier.area_wrong`.
  Proved relative to the origin, and exactly when it is the area with the chord (area_origin, area_chord_iff). Refuted in general (area_wrong).
* **C102** A curve said to be flat enough is near its chord (proved). Model `Bezier`: flatness test. Bound of the distance to the chord.
  Theorems: `Bezier.flat_spec`, `Bezier.flat_complete`, `Bezier.flat_zero_iff`.
* **C103** Tangent of a Bezier curve (proved). Model `BezierReal`: tangent. Compared with the derivative.
  Theorems: `Bezier.tangent_velocity`.
* **C104** Interpolated length of a Bezier curve (proved). Model `BezierLength`: loop over parameters. Invariant; error bound; divergence for a null step.
  Theorems: `Bezier.interpolated_cubic`, `Bezier.interpolated_quad`, `Bezier.interpolated_default`, `Bezier.interpolated_diverges`.
  With an explicit bound on the error. The default step raises ZeroDivisionError for a closed curve, and a step that is not positive loops for ever (interpolated_default, interpolated_diverges).
* **C105** Parameter at a given length (partial). Model `BezierLength`: bisection as written. Exact behaviour.
  Theorems: `Bezier.tAtLength_spec`, `Bezier.tAtLength_partial`, `Bezier.tAtLength_wrong`.
  Refuted (tAtLength_wrong): only the two ends are found. Complete behaviour in tAtLength_spec.
* **C106** Conversion of B-splines to Bezier curves (partial). Model `SplineBezier`: knot insertions to full multiplicity. From C54.
  Theorems: `Spline.toBezier_spec`, `Spline.toBezier_closed_wrong`, `Spline.toBezier_degree_wrong`, `Spline.toBezier_given_wrong`.
  Proved for open splines of degree 2 and 3 without given knots (toBezier_spec). Raises for closed splines (toBezier_closed_wrong), other degrees (toBezier_degree_wrong) and given knots (toBezier_given_wrong).
* **C107** Clone of a path (partial). Model `Path`: clone of every kind of part, with the exceptions. Exact condition.
  Theorems: `Path.clone_partial`, `Path.clone_line_wrong`, `Path.clone_raises_wrong`.
  Exact characterisation: clone succeeds iff no part is a PathSegment, cubic or stringed curve; then the clone is equal to the path. Paths with a line raise UnboundLocalError, cubic curves NameError.
* **C108** Rounded corners of a path are tangent arcs (proved). Model `PathBulge`: centre, ends and angles of rounded corners. Trigonometry.
  Theorems: `Path.bulge_tangent`, `Path.bulge_side`, `Path.bulge_arc`, `Path.bulge_length_wrong`.
  For non-parallel unit directions and a positive radius. The code does not check that the radius fits the length of the parts (bulge_length_wrong).
* **C109** The direction of a part follows the transformations (partial). Model `Path`: cached directions. Histories of transformations and reads.
  Theorems: `Path.direction_fresh`, `Path.transform_dir_fresh`, `Path.direction_translation_partial`, `Path.direction_stale_wrong`.
  False: the cached direction of a segment is stale after a rotation. Proved when it was not asked before, for the parts by direction, and for translations and positive scalings.
* **C110** An SVG path is read as the curve it describes (partial). Model `SvgPath`: conversion of commands to a path. Compared with the pen of the SVG standard.
  Theorems: `SvgPath.geometry_partial`, `SvgPath.first_move`, `SvgPath.read_text_partial`, `SvgPath.vertical_wrong`, `SvgPath.second_move_wrong`, `SvgPath.after_close_wrong`, `SvgPath.wrong_coordinates`, `SvgPath.smooth_wrong`.
  Proved for the commands which are drawn rightly; V, a second move, commands after a close and smooth commands are wrong (vertical_wrong, second_move_wrong, after_close_wrong, smooth_wrong).
* **C111** An SVG transform attribute is read as the transformation it denotes (partial). Model `SvgTransform`: regular expression and conversion. Compared with the matrices of the SVG standard.
  Theorems: `SvgTransform.transform_partial`, `SvgTransform.spaces_wrong`, `SvgTransform.several_wrong`, `SvgTransform.unsupported_wrong`, `SvgTransform.unknown_wrong`, `SvgTransform.write_read_wrong`.
  Proved for one transformation without spaces; spaces, lists, skews and the library's own output are wrong (spaces_wrong, several_wrong, unsupported_wrong, write_read_wrong).
* **C112** SVG lengths keep their value and unit (partial). Model `SvgTransform`: lengths with units. Character lists.
  Theorems: `SvgTransform.length_partial`, `SvgTransform.length_value_error`, `SvgTransform.length_written`, `SvgTransform.percent_written_wrong`, `SvgTransform.unit_wrong`.
  Numbers and percentages are read as they are; the code falsifies the rest: a percentage is written as the text of an object, which is not read again (percent_written_wrong), and the unit is cut and written alone (unit_wrong).
* **C113** SVG attributes are inherited from groups (partial). Model `SvgState`: attributes of states and elements. Exact condition of inheritance.
  Theorems: `SvgState.newState_settled`, `SvgState.extend_attribute`, `SvgState.extend_text`, `SvgState.extend_transform`, `SvgState.extend_settled`, `SvgState.inherited_iff`, `SvgState.inherited_wrong`, `SvgState.stroke_attributes_lost`, `SvgState.extend_iff`.
  False for the attributes the class of the element knows: inherited_iff is exact, inherited_wrong the witness; caps, joins and mitre limits given as attributes are lost. extend_iff says exactly when an element without a style has a state.
* **C114** An SVG style attribute sets the properties it declares (partial). Model `SvgState`: parsing of style attributes. Induction on the declarations.
  Theorems: `SvgState.style_partial`, `SvgState.style_iff`, `SvgState.style_semicolon_wrong`, `SvgState.style_transform_wrong`.
  Proved for styles without a final semicolon and without transform; both of these raise (style_semicolon_wrong, style_transform_wrong). style_iff says exactly when a style of declarations is read.
* **C115** An SVG document written by the library can be read by it (partial). Model `SvgState`: document with comments as `lxml` gives them. Error for every written document.
  Theorems: `SvgState.comment_wrong`, `SvgState.written_read_wrong`.
  False: a comment raises TypeError (comment_wrong) and the writer always writes one (written_read_wrong).
* **C116** Every graphic element of SVG is read by the class of its tag (partial). Model `SvgState`: table of tags. Case analysis over the tags.
  Theorems: `SvgState.class_of_tag`, `SvgState.polygon_ellipse_wrong`, `SvgState.item_attributes`, `SvgState.item_shape`, `SvgState.item_class_partial`.
  Polygons and ellipses cannot be read and polylines are read as polygons (class_of_tag, polygon_ellipse_wrong); item_class_partial covers the others.
* **C117** The spatial index of a scene follows its items (proved). Model `Scene`: index as a set of boxes. Invariant over every history.
  Theorems: `Scene.index_consistent`, `Scene.update_index`, `Scene.update_succeeds`.
* **C118** A dirty item is computed again (partial). Model `Scene`: dirty flags and cached geometry. Histories of assignments, reads and updates.
  Theorems: `Scene.dirty_false_recomputes`, `Scene.dirty_true_wrong`, `Scene.moved_item_wrong`, `Scene.moved_item`, `Scene.clean_item_skipped_wrong`, `Scene.read_first_wrong`.
  Setting dirty to false does recompute (dirty_false_recomputes, moved_item). The natural call, dirty = True, keeps the old geometry for ever (dirty_true_wrong, moved_item_wrong) and an item whose geometry is read before its first update never enters the index (clean_item_skipped_wrong, read_first_wrong).
* **C119** User data, selection and removal in a scene (partial). Model `Scene`: user data, selection, removal. State machine.
  Theorems: `Scene.user_data`, `Scene.unselect_all`, `Scene.remove_item_wrong`.
  User data and selection are proved. remove_item always raises TypeError and removes nothing (remove_item_wrong).
* **C120** A chain of Bézier curves uses the points in turn (partial). Model `Scene`: `bezier_path`. Induction on the list of points.
  Theorems: `Scene.bezier_path`, `Scene.bezier_path_rejected`, `Scene.bezier_path_segments_wrong`.
  Proved for degrees 2 and 3, and the rejection of everything else. A chain of degree 1 always ends with TypeError after making its segments (bezier_path_segments_wrong).
* **C121** Named coordinates of a scene (proved). Model `Scene`: named coordinates. Dictionary.
  Theorems: `Scene.coordinate_cast`, `Scene.coordinate_unknown`.
* **C122** Yarn construction (partial). Model `Units`: yarn constructor. Case analysis on the arguments.
  Theorems: `Units.yarn_default_wrong`, `Units.yarn_new`, `Units.yarn_number`.
  holds with an explicit twist type; the default argument always raises ValueError (yarn_default_wrong)
* **C123** Copies of colours and equality (partial). Model `Color`: copies and equality. Quantised components.
  Theorems: `Colour.clone_same`, `Colour.copy_partial`, `Colour.copy_wrong`, `Colour.eq_iff`.
  clone and equality proved; a colour made from a colour is quantised and nameless (copy_wrong)
* **C124** Colours made from hue, saturation and value or lightness (partial). Model `Color`: `colorsys` of the standard library is modelled. Round trips by case analysis on the sector.
  Theorems: `Colour.hsv_round_trip`, `Colour.hls_round_trip`, `Colour.hsv_accepted`, `Colour.hls_accepted`, `Colour.hue_wrong`, `Colour.light_integer_wrong`, `Colour.hue_missing`.
  proved for float components; integer 1 is read as 1/255 (hue_wrong)
* **C125** The stitch database has the stitches of its file (partial). Model `Textile`: stitch loader with its wrong field. Fold over the entries.
  Theorems: `Textile.stitches_wrong`, `Textile.stitches_read`.
  refuted for every file (stitches_wrong); what is proved is that loading reads all entries or raises and leaves the database unchanged (stitches_read)
* **C126** Fabrics, seams and machines can be created and named (partial). Model `Textile`: constructors with their exceptions. Case analysis.
  Theorems: `Textile.fabric_wrong`, `Textile.seam_name_wrong`, `Textile.machine_wrong`, `Textile.machine_needles`, `Textile.machine_stitch_types`, `Textile.machine_speed`, `Textile.fabric_bending`, `Textile.machine_partial`.
  refuted: fabric_wrong, seam_name_wrong, machine_wrong; machine_partial gives the arguments that work
* **C127** Names of the TeX files (partial). Model `Tex`: file names. Character lists.
  Theorems: `Tex.file_name_partial`, `Tex.file_name_wrong`, `Tex.output_directory_wrong`.
  file_name_partial for names that do not have three characters; refuted for all others (file_name_wrong) and for the directory (output_directory_wrong)
* **C128** TikZ path styles (partial). Model `Tex`: style texts. Case analysis.
  Theorems: `Tex.path_style`, `Tex.path_style_texts`, `Tex.path_style_wrong`.
  proved for five of the six stroke styles with a colour; refuted for the others (path_style_wrong)
* **C129** A painter paints each item once in order (proved). Model `Tex`: dispatch of a painter over a scene. Induction on the items.
  Theorems: `Tex.painted_in_order`, `Tex.painting_stops`.
* **C130** TeX text of the items of a scene (partial). Model `Tex`: text of each kind of item. Case analysis.
  Theorems: `Tex.text_painted`, `Tex.curves_painted`, `Tex.circle_painted`, `Tex.circle_wrong`, `Tex.other_kinds_wrong`, `Tex.coordinates_first`.
  proved for texts, segments and cubic curves; refuted for circles and the other kinds (circle_wrong, other_kinds_wrong)
* **C131** A clone of a graphic style is the same style (partial). Model `Style`: clones of styles. Exact condition.
  Theorems: `Style.path_clone_partial`, `Style.path_clone_iff`, `Style.bezier_clone_wrong`, `Style.clone_wrong`.
  path_clone_iff characterises the styles with a faithful clone; refuted by clone_wrong and bezier_clone_wrong
* **C132** Attributes of graphic styles (proved). Model `Style`: attributes, defaults and enumerations. Case analysis.
  Theorems: `Style.style_defaults`, `Style.style_attributes`, `Style.style_made`, `Style.enumeration_bool`, `Style.style_bool`, `Style.enumerations`, `Style.sketch_styles`, `Style.sketch_new`, `Style.bezier_control`.
* **C133** Frame of an ellipse (proved). Model `Ellipse`: change of frame. Trigonometric identities.
  Theorems: `Conic.frame_coordinates`, `Conic.frame_roundtrip`, `Conic.frame_isometry`.
* **C134** Points of an ellipse (proved). Model `Ellipse`: `point_at_angle`. Specification: equation of the ellipse. Polar coordinates.
  Theorems: `Conic.ellipse_points`, `Conic.ellipse_ends`.
* **C135** Bounding box of an ellipse (partial). Model `Ellipse`: box and its cache as a state machine. Specification `IsSmallestBox`. Induction on the history.
  Theorems: `Conic.ellipse_box_partial`, `Conic.ellipse_box_wrong`, `Conic.major_vector_wrong`, `Conic.axis_vectors_wrong`, `Conic.ellipse_cache_partial`, `Conic.ellipse_cache_wrong`.
  Proved for ellipses with the angle 0 and for histories without the setters of the centre, radii and angle; ellipse_box_wrong, major_vector_wrong and ellipse_cache_wrong refute the rest.
* **C136** Transformations of ellipses (partial). Model `Ellipse`: `apply_transformation` with its torn state. Images of points.
  Theorems: `Conic.ellipse_clone`, `Conic.ellipse_transform_partial`, `Conic.ellipse_transform_wrong`, `Conic.ellipse_transform_torn`.
  Proved for clones, translations and positive scales; ellipse_transform_wrong and ellipse_transform_torn refute it for rotations and for transformations that fail half-way.
* **C137** Eccentricity and matrix of an ellipse (partial). Model `Ellipse`: eccentricity and matrix. Sum of the distances to the foci.
  Theorems: `Conic.eccentricity_foci`, `Conic.eccentricity_wrong`, `Conic.matrix_wrong`.
  The eccentricity holds when the first radius is the greatest one (eccentricity_foci), eccentricity_wrong and matrix_wrong refute the rest.
* **C138** Distance to an ellipse (partial). Model `Ellipse`: Eberly's bisection, 1074 halvings. Specification: least distance. Monotone function, loop invariant.
  Theorems: `Conic.ellipse_distance_partial`, `Conic.ellipse_distance_error`, `Conic.ellipse_distance_wrong`, `Conic.ellipse_inside_partial`, `Conic.ellipse_inside_wrong`.
  Proved for radius_x >= radius_y up to the error of 1074 halvings in exact arithmetic; ellipse_distance_wrong refutes it for the other order, ellipse_inside_wrong for centres other than the origin.
* **C139** Ellipse and segment intersection (partial). Model `Ellipse`: quadratic equation. From C14; exact behaviour.
  Theorems: `Conic.ellipse_intersect`, `Conic.ellipse_intersect_null`.
  Proved when the line meets the ellipse twice; the same theorem shows that a tangent line raises AttributeError and a line that misses the ellipse TypeError.
* **C140** Bézier curves of an ellipse (partial). Model `Ellipse`: number of pieces and control points. Closed form of the error of a piece, intermediate value theorem for the covering.
  Theorems: `Conic.to_bezier_partial`, `Conic.to_bezier_quarters`, `Conic.to_bezier_clockwise`, `Conic.to_bezier_wrong`, `Conic.to_bezier_null`.
  Proved for closed ellipses and counter-clockwise arcs; to_bezier_wrong and to_bezier_clockwise refute it for clockwise arcs, to_bezier_null for null arcs.
* **C141** Arcs given by their ends (partial). Model `Ellipse`: `svg_arc`. Specification: points on the ellipse, mirror images, signs of the angles. Trigonometry.
  Theorems: `Conic.svg_arc_partial`, `Conic.svg_arc_small`, `Conic.svg_arc_degenerate`, `Conic.svg_arc_ends_wrong`, `Conic.svg_arc_wrong`.
  Direction, length and ellipse are proved; the ends are the mirror images of the points (svg_arc_partial, svg_arc_wrong), and radii that are too small raise (svg_arc_small).
* **C142** Constructors, area and flags of circles (partial). Model `Conic`: constructors. Lebesgue measure of Mathlib for the area.
  Theorems: `Conic.domain_flags`, `Conic.circle_from_points`, `Conic.circle_diameter`, `Conic.circle_radius`, `Conic.circle_area`, `Conic.circle_area_wrong`.
  The area ignores the domain of an arc (circle_area_wrong).
* **C143** Clones of circles (partial). Model `CircleObject`: heap of vectors and domains. Invariant over every sequence of operations on the clone.
  Theorems: `Conic.circle_clone_partial`, `Conic.circle_operations`, `Conic.circle_clone_wrong`.
  The bounds of the domain are shared (circle_clone_wrong).
* **C144** Intersections of circles (partial). Model `CircleObject`: `intersect_circle`. Coordinates along and across the line of the centres.
  Theorems: `Conic.intersect_circle_none`, `Conic.intersect_circle_tangent_partial`, `Conic.intersect_circle_secant`, `Conic.intersect_circle_concentric`, `Conic.intersect_circle_wrong`.
  Characterised for all pairs of circles: None and tangent circles on the right are right, the others are refuted (intersect_circle_secant, intersect_circle_wrong, intersect_circle_concentric).
* **C145** Recentring a polygon (partial). Model `PolygonMoment`: points changed in place, cached and shared barycentre. First moments of a translated polygon by induction on the triangles.
  Theorems: `Polygon.signedArea_shift`, `Polygon.recenter_partial`, `Polygon.recenter_unread_wrong`, `Polygon.recenter_twice_wrong`, `Polygon.recenter_flat_wrong`, `Polygon.recenter_transformed_wrong`.
  True once, after the barycentre has been read, for a polygon which is not flat. Without a reading AttributeError is raised, the second call moves the polygon again, and a flat polygon is deformed because its barycentre is its first point object.
* **C146** Axes of inertia of a polygon (partial). Model `PolygonMoment` over the reals with arctan. The extrema of the quadratic form over all directions, by the Cauchy inequality.
  Theorems: `Polygon.axes_partial`, `Polygon.axes_not_simple`, `Polygon.axes_position_wrong`, `Polygon.axes_stale_wrong`.
  Proved for the second moments of the vertices about the origin. The code never recentres, so the axes of a square depend on its position (axes_position_wrong), and the axes are not recomputed after a transformation.
* **C147** Reversing a primitive (partial). Model `Primitive`: the hierarchy of classes as data and the order of resolution of Python; lookup computed for each class, then for all points.
  Theorems: `Primitive.reverse_wrong`, `Primitive.reverse_defined`, `Primitive.reverse_partial`.
  False of the code: PointPrimitive.reverse comes before the one of the mixin in the order of resolution and returns the same object.
* **C148** Conversion of a primitive to a path or a polygon (partial). Models `Primitive` and `Path`: the parts added by a loop, then the trace of the path; induction on the points.
  Theorems: `Primitive.closed_iff`, `Primitive.toPath_polygon`, `Primitive.toPath_wrong`, `Primitive.toPolygon_wrong`, `Primitive.toPath_polyline`, `Primitive.toPath_polyline_wrong`.
  Proved for polygons. to_path raises for triangles and rectangles, to_polygon always raises, and Polyline2D.to_path takes the points as displacements.
* **C149** Runs of consecutive points (proved). Model `Primitive`: list of slices, indexed characterisation.
  Theorems: `Primitive.iterOnNuplets_spec`.
* **C150** A geometric object added to a scene covers its points (partial). Model `SceneGeometry`: the items with their positions and numbers. The points covered by objects and items are sets of a separate specification; equality by cases.
  Theorems: `SceneGeometry.add_partial`, `SceneGeometry.ellipse_arc_wrong`, `SceneGeometry.add_spline_cubic`, `SceneGeometry.add_spline_quadratic_wrong`.
  Proved for curves, circles, whole ellipses, polygons, polylines, rectangles, segments, triangles and cubic splines. Arcs of ellipses are drawn as whole ellipses, quadratic splines raise TypeError, lines raise NotImplementedError; paths are in C152.
* **C151** Geometry of an item in a transformed scene (partial). Model `SceneGeometry`: `Item.geometry`. Images of sets of points, by affine combinations; witnesses where it fails.
  Theorems: `SceneGeometry.transformed_partial`, `SceneGeometry.transformed_rectangle_partial`, `SceneGeometry.transformed_circle_partial`, `SceneGeometry.transformed_circle_wrong`, `SceneGeometry.transformed_rectangle_wrong`, `SceneGeometry.ellipse_item_wrong`.
  Proved for Bézier curves, polygons, polylines and segments; exactly when it holds for rectangles which are not flat (the axes are kept or exchanged); for circles under translations, and whole circles under isometries. False for scaled circles, turned rectangles and arcs of ellipses.
* **C152** A path added to a scene is drawn part by part (partial). Models `SceneGeometry`, `Path`, `PathBulge`: induction on the parts with the trace of the path and the rounding theorems of C108.
  Theorems: `SceneGeometry.path_items_partial`, `SceneGeometry.plain_items_partial`, `SceneGeometry.stringed_items_wrong`, `SceneGeometry.arc_items_wrong`, `SceneGeometry.closed_twice_wrong`.
  Proved for lines, Bézier curves and rounded corners of any path closed once. Stringed curves are not drawn (stringed_items_wrong), arcs of ellipses inherit the faults of svg_arc (C141) or raise, and a path closed twice is torn.
* **C153** A path added to a scene as one item (partial). Models `SceneGeometry`, `Path`, `Scene`: induction on the parts; counterexamples for arcs, corners and the index.
  Theorems: `SceneGeometry.path_item_partial`, `SceneGeometry.path_item_arc_wrong`, `SceneGeometry.path_item_geometry_wrong`, `SceneGeometry.path_item_index_wrong`.
  Proved for lines and Bézier curves. Arcs and rounded corners are ignored, and the geometry of the item is its start point, so that the index of the scene cannot be updated.
* **C154** Bounding box of a path (partial). Model `SceneGeometry`: the loop over the parts; induction with the union of boxes; counterexample for a rounded corner.
  Theorems: `SceneGeometry.path_box_partial`, `SceneGeometry.path_box_contains`, `SceneGeometry.path_box_curve_wrong`, `SceneGeometry.path_box_stringed_wrong`, `SceneGeometry.path_box_wrong`.
  Proved for paths of lines and Bézier curves without rounded corners: the box is that of the points and of the control points, and contains the path. Refuted: the arc of a rounded corner is not in the box (path_box_wrong), the box of a curve is not the smallest one (path_box_curve_wrong), a stringed curve raises (path_box_stringed_wrong). Arcs of ellipses inherit the faults of C135 and C141.
* **C155** A scene painted in SVG shows each visible item once, at its place on the page (partial). The four paint methods produce the attributes of the elements through the model of the XML adaptors; the loop of the painter runs over the model of z_value_iter. Proved by induction on the items for texts and segments; the place, the circles, the curves are counterexamples, and so is a scene whose bounding box was not assigned.
  Theorems: `Painters.svg_style_sheet`, `Painters.svg_items_partial`, `Painters.svg_place_wrong`, `Painters.svg_above_page_wrong`, `Painters.svg_vector`, `Painters.svg_circle_wrong`, `Painters.svg_cubic_wrong`, `Painters.no_bounding_box_wrong`, `Painters.painter_document`, `Painters.other_kinds_wrong`, `Painters.positions_wrong`, `Painters.no_colour_wrong`, `Painters.no_colour_exception`, `Painters.other_items_wrong`.
  Proved for texts and segments, for the order and for the scale. It fails for the place (the translation is applied after the scale: right only when the corner of the box is the origin, and above the page for a scene on the positive side), for circles (written as an empty text), for cubic curves (not written), for the other kinds, and for every scene whose bounding box was not assigned from outside, as only detail_scene does (no_bounding_box_wrong).
* **C156** The SVG document has the size of the paper and the millimetre as unit (proved). The attributes of the root are a dictionary of texts; the statement reads them.
  Theorems: `Painters.svg_document`.
* **C157** A scene saved in DXF holds each visible item once, in millimetres (partial). The calls made to ezdxf are the output. Induction on the painted items; a scene that cannot be painted is not saved.
  Theorems: `Painters.dxf_items_partial`, `Painters.dxf_colour_wrong`, `Painters.dxf_circle_wrong`, `Painters.other_kinds_wrong`, `Painters.dxf_driver`.
  Proved for texts, segments and cubic curves without colour, without a named colour, or black. It fails for every other named colour (the file is not saved), for circles (skipped) and for the other kinds.
* **C158** A scene painted in PDF has each visible item once, at scale, inside the page (partial). The calls made to the canvas are the output; the place on the page is the sum of the translations and of the place on the canvas. Field arithmetic gives the exact boxes for which the margin is right.
  Theorems: `Painters.no_bounding_box_wrong`, `Painters.painter_document`, `Painters.other_kinds_wrong`, `Painters.pdf_page`, `Painters.pdf_items_partial`, `Painters.pdf_margin_wrong`, `Painters.pdf_style_wrong`, `Painters.pdf_driver_wrong`.
  Proved for the page size, the items and their order. It fails for the scale (seven tenths), for the margin (right only when the corner of the box is the origin), for the style and the radius of circles (not used), without the driver argument (KeyError), for the other kinds, and for every scene whose bounding box was not assigned from outside, as only detail_scene does (no_bounding_box_wrong).
* **C159** A scene shown with matplotlib has each visible item once, inside the axes (partial). The artists added to the axes are the output. Induction on the items; order reasoning for the limits.
  Theorems: `Painters.no_bounding_box_wrong`, `Painters.painter_document`, `Painters.other_kinds_wrong`, `Painters.mpl_items_partial`, `Painters.positions_wrong`, `Painters.no_colour_wrong`, `Painters.no_colour_exception`, `Painters.other_items_wrong`, `Painters.mpl_limits`, `Painters.mpl_circle_wrong`.
  Proved for texts, segments, cubic curves and the limits. It fails for the radius of circles, for the other kinds, and for every scene whose bounding box was not assigned from outside, as only detail_scene does (no_bounding_box_wrong).
* **C160** Reading the calculations of a Valentina file gives the operations its elements describe (proved). The elements go through the model of the XML adaptors, the dispatch by tag and type, the conversion of references and the constructor of the operations. An independent table gives, per class, the attribute and the meaning of each property; the reading relation is proved equivalent to the program by induction on the elements.
  Theorems: `Valentina.read_describes`, `Valentina.read_succeeds`, `Valentina.read_raises`, `Valentina.unknown_raises`, `Valentina.dangling_raises`.
  The model describes the modules as they would run if their import were repaired: at this commit Valentina/Pattern.py cannot be imported (ValentinaMeasurement.py imports a name that does not exist). The classes are those of the dispatch tables; `float` is a parameter that raises nothing else than ValueError.
* **C161** Writing a sketch gives one element per operation that says the same thing (partial). An invariant over the calls of the API gives the shape of the operations; each class is then written row by row of the same independent table. The default stroke style of three classes is a counterexample.
  Theorems: `Valentina.write_operation`, `Valentina.write_sketch`, `Valentina.default_style_wrong`, `Valentina.missing_argument`.
  The model describes the modules as they would run if their import were repaired: at this commit Valentina/Pattern.py cannot be imported (ValentinaMeasurement.py imports a name that does not exist). Proved for operations whose stroke style is a style and whose colour is a colour or None. It fails for the default stroke style of the points along a line, at the end of a line and on a normal, which is None and raises KeyError.
* **C162** A sketch written to a Valentina file and read back is the same sketch (partial). The writing theorem gives elements that describe operations with the same properties; the reading theorem gives the operations described. The style of splines, names that are not given and colours of splines are counterexamples.
  Theorems: `Valentina.sketch_round_trip_partial`, `Valentina.spline_style_wrong`, `Valentina.unnamed_wrong`, `Valentina.object_style_wrong`.
  The model describes the modules as they would run if their import were repaired: at this commit Valentina/Pattern.py cannot be imported (ValentinaMeasurement.py imports a name that does not exist). Proved for named points, colours in range, and splines with a solid line and a colour. It fails for other styles of splines, which are not written, for points without a name, which come back with the name 'None', and for the colour of a spline, which comes back as a text; a style kept as an XML object is written as 'StrokeStyle.…', which no reader knows.
* **C163** A Valentina file can be read again in the same process (partial). The counter is part of the state of the model. The property is false for every file whose first operation has an id and for every sketch: NameError is proved for all of them.
  Theorems: `Valentina.second_reading_wrong`, `Valentina.read_back_wrong`.
  The model describes the modules as they would run if their import were repaired: at this commit Valentina/Pattern.py cannot be imported (ValentinaMeasurement.py imports a name that does not exist). The property is false: a second reading raises NameError, and so does reading back a sketch in the process that built it. Both are proved for all inputs; nothing positive is left to prove.
* **C164** A pattern written to a Valentina file and read back is the same pattern (partial). Induction on the scopes with the counter of ids carried from one to the next; patterns whose scopes were filled in turns are a counterexample.
  Theorems: `Valentina.pattern_round_trip_partial`, `Valentina.interleaved_scopes_wrong`.
  The model describes the modules as they would run if their import were repaired: at this commit Valentina/Pattern.py cannot be imported (ValentinaMeasurement.py imports a name that does not exist). Proved for scopes filled one after the other, with values that the format holds. It fails when the scopes were filled in turns (NameError).
* **C165** A Valentina file is read completely or refused (partial). Case analysis of the reading of the head and induction on the pieces. The second half is false: details and modeling are dropped, for every document.
  Theorems: `Valentina.file_requires`, `Valentina.file_lacks`, `Valentina.details_wrong`, `Valentina.details_require`, `Valentina.boolean_written`, `Valentina.boolean_from_python_wrong`, `Valentina.modeling_item_read`, `Valentina.detail_read`, `Valentina.detail_child_read`.
  The model describes the modules as they would run if their import were repaired: at this commit Valentina/Pattern.py cannot be imported (ValentinaMeasurement.py imports a name that does not exist). The first half is proved. The second half is false: details and modeling are read and dropped, and never written.
* **C166** A set of Valentina measurements holds what was added, under its names (partial). An invariant over the calls gives the dictionary of names exactly as a list; lookups, loops and the comparison with the plain set of C24 follow. The loop is a counterexample for custom measurements, and @a excludes C_a.
  Theorems: `Vit.vset_add`, `Vit.vset_add_errors`, `Vit.vset_lookup`, `Vit.vset_iter_partial`, `Vit.vset_iter_wrong`, `Vit.vset_clash_wrong`, `Vit.vset_plain`.
  Proved except for loops: a custom measurement is given twice (vset_iter_wrong), and @a and C_a exclude each other (vset_clash_wrong). At this commit the module imports a name that does not exist; it is modelled as if the import were repaired.
* **C167** A .vit file gives the measurements and the personal data it describes (partial). An independent relation says what a document describes; reading is proved to succeed exactly on the documents that describe something and to give it. The unit, an empty e-mail and the personal data of older files are counterexamples for all documents.
  Theorems: `Vit.vit_read`, `Vit.vit_read_succeeds`, `Vit.vit_unit_wrong`, `Vit.vit_email_wrong`, `Vit.vit_missing`, `Vit.vit_body`.
  Proved for the measurements and the personal data. The measurements have no unit and no system whatever the file says (vit_unit_wrong), an empty e-mail becomes the text None (vit_email_wrong), and a file without customer is refused (vit_missing), as the example in the module is.
* **C168** Personal data keep what they are given (partial). The constructor is modelled setter by setter; exact conditions for success are proved. A text given as None and a birth date given with a time are counterexamples.
  Theorems: `Vit.gender_set`, `Vit.personal_ignores`, `Vit.personal_round_trip`, `Vit.personal_new_partial`, `Vit.personal_none_wrong`, `Vit.birth_date_wrong`.
  A text given as None becomes the text None (personal_none_wrong); a birth date given with a time keeps it (birth_date_wrong). The rest is proved.
* **C169** Dates are read from texts exactly (partial). The regular expressions of strptime are modelled with backtracking, and proved to accept exactly the texts of an independent description. The text of a datetime is a counterexample, for all of them.
  Theorems: `Vit.ensure_date_text`, `Vit.ensure_datetime_text`, `Vit.date_round_trip`, `Vit.datetime_round_trip_partial`, `Vit.datetime_round_trip_wrong`.
  Proved for dates and for both formats. The text of a datetime is never read back (datetime_round_trip_wrong). Digits outside ASCII are not modelled.
* **C170** Standard measurements are found under the name they were first added with (proved). Induction on the calls.
  Theorems: `Vit.standard_lookup`.
  The names of the measurements do not change after they are added.
* **C171** The bounding box of a sketch is the smallest that contains it (proved). Induction on the operations for the box; the convex hull property of Bézier curves (C48) for the points of the curves. Evaluated states exist by C29; the points that eval leaves without position are named.
  Theorems: `Detail.sketch_box`, `Detail.sketch_box_curves`, `Detail.sketch_box_eval`, `Detail.sketch_box_before`, `Detail.sketch_box_ends`, `Detail.sketch_box_no_controls`.
  The points eval leaves without position (contacts and intersections that do not exist) make the bounding box raise AttributeError (sketch_box_eval).
* **C172** detail_scene draws each operation of a sketch at its place (proved). The loop is refined to a list of marks given by an independent specification; positions are looked up through the dictionary of coordinates.
  Theorems: `Detail.detail_scene`, `Detail.detail_user_data`, `Detail.detail_coordinate`, `Detail.detail_default`, `Detail.detail_ends`.
  Under the hypotheses that names are distinct and that lines have a style; see C173 without them.
* **C173** detail_scene draws any evaluated sketch (partial). Each clause is refuted for all the sketches it concerns; what happens instead is proved.
  Theorems: `Detail.detail_same_name_wrong`, `Detail.detail_label_wrong`, `Detail.detail_style_wrong`, `Detail.detail_box_error`.
  Refuted: a repeated name moves the first point (detail_same_name_wrong), a label without offset gets a line of null length (detail_label_wrong), a point without line style, the default, raises ValueError (detail_style_wrong).
* **C174** to_python gives the code that makes the operation (partial). An independent reader of Python calls with literals is written as specification; reading the code back gives the class and the values. Quotes, styles, colours and inf are counterexamples.
  Theorems: `ToPython.to_python_partial`, `ToPython.to_python_injective`, `ToPython.to_python_style_wrong`, `ToPython.to_python_line_wrong`, `ToPython.to_python_quote_wrong`, `ToPython.to_python_inf_wrong`.
  Proved for the values that can be written. A line style or a colour, which every line has by default, gives code that cannot be parsed (to_python_style_wrong, to_python_line_wrong), as do a quote in a name and the expression inf. What float accepts is a parameter.
* **C175** A DXF file is imported entity by entity (proved). Specification of the points of an entity written from the DXF reference, independent of the code; the loop is refined to a relation between the known entities and the items.
  Theorems: `DxfImport.import_items`, `DxfImport.import_refused`.
  What the attributes of entities are is the DXF reference as written in Spec/DxfImport.lean; see C176 and C177 for the entities whose points differ.
* **C176** An imported circle, arc or ellipse has the points and the ends of the entity (partial). Equality of the parametrisations when the axis does not point upwards; each other clause is refuted.
  Theorems: `DxfImport.ellipse_parameters`, `DxfImport.ellipse_vertical_full`, `DxfImport.ellipse_vertical_wrong`, `DxfImport.ellipse_closed_wrong`, `DxfImport.mirrored_wrong`, `DxfImport.arc_range_wrong`.
  Proved for ellipses which are not mirrored and whose major axis does not point upwards. Refuted: a major axis pointing upwards moves the ends by a quarter of a turn (ellipse_vertical_wrong), a whole ellipse is never closed, the extrusion is ignored (mirrored_wrong), angles out of the range from 0 to 360 lose points (arc_range_wrong).
* **C177** An imported spline is the curve of the file (partial). For clamped uniform knots the curve of the item is the one of the specification of C50; other knots, weights and fit points are refuted.
  Theorems: `DxfImport.spline_points_partial`, `DxfImport.spline_data_wrong`, `DxfImport.spline_knots_wrong`, `DxfImport.spline_fit_wrong`.
  Proved for clamped uniform knots without weights. The knots, the weights and the fit points of the file play no part, for every spline (spline_data_wrong); refuted for other knots (spline_knots_wrong) and for fit points (spline_fit_wrong).
* **C178** An arrow head is the triangle its parameters mean (partial). Exact coordinates of the corners; the angle by the cosine of the two sides. Options which always raise are refuted for all the inputs.
  Theorems: `ArrowHead.head_triangle`, `ArrowHead.head_angle`, `ArrowHead.one_side_wrong`, `ArrowHead.axial_offset_wrong`, `ArrowHead.head_made`, `ArrowHead.head_transform_wrong`.
  Proved for both sides and no offset. Refuted for one side (one_side_wrong) and for an offset (axial_offset_wrong), which always raise AttributeError, and for transformations (head_transform_wrong).
* **C179** A curved arrow head is a closed path symmetric about its axis (partial). The parts of the path and their points; the symmetry is refuted for every triangle and depth which are not null.
  Theorems: `ArrowHead.curvy_path`, `ArrowHead.curvy_symmetric_wrong`.
  The path is proved; the symmetry is refuted unless the depth or the triangle is null (curvy_symmetric_wrong).
* **C180** The Qt painter draws every visible item at its place (partial). The calls to QPainter are the output of the model; a relation Shows between an item and its figures is the specification; the loop is handled by the theorem shared with the other painters. Classes which cannot be painted are refuted.
  Theorems: `Qt.paint_items_partial`, `Qt.rectangle_wrong`, `Qt.curved_path_wrong`, `Qt.closed_path_wrong`, `Qt.ellipse_angle_wrong`, `Qt.quadratic_partial`, `Qt.quadratic_wrong`, `Qt.quadratic_cache_wrong`, `Qt.control_points`.
  Proved for texts, images, circles, ellipses, segments, polylines, polygons, cubic curves and open paths of segments, and for quadratic curves in scenes without transformation. Refuted: rectangles (rectangle_wrong), paths with curves (curved_path_wrong), closed paths (closed_path_wrong), rotated ellipses (ellipse_angle_wrong), quadratic curves in a transformed scene (quadratic_wrong) or after a move of their points (quadratic_cache_wrong). QPainter is trusted.
* **C181** An item is drawn with its own pen and brush (partial). The list of calls is run by a small specification of a device with a current pen and brush; induction on the items with the device state generalised.
  Theorems: `Qt.control_pens`, `Qt.pens_partial`, `Qt.fill_pen_wrong`, `Qt.no_colour_wrong`, `Qt.text_pen_wrong`.
  Proved for items with a colour and no fill. Refuted: the outline of a filled item has the fill colour, also when it is selected (fill_pen_wrong), an item without colour is drawn with the pen of the previous one (no_colour_wrong), and so is a text (text_pen_wrong).
* **C182** The Qt painter draws an arc over the angles of the item (partial). Bounds on truncation; an explicit formula for the points of an arc of Qt compared with the images of the points of the circle.
  Theorems: `Qt.arc_angles_partial`, `Qt.arc_angles_wrong`, `Qt.arc_place`, `Qt.svg_arc_wrong`.
  Refuted for a stop angle less than a sixteenth of a degree before the start (arc_angles_wrong) and for SVG files, which are drawn upside down (svg_arc_wrong).
* **C183** The grid shows all the multiples of its step in the visible area (partial). Integer part arithmetic on an ordered field; the specification asks for a strictly increasing list of exactly the integers whose multiples are in the area.
  Theorems: `Qt.grid_step`, `Qt.grid_transformed_wrong`, `Qt.grid_partial`, `Qt.empty_area_wrong`, `Qt.grid_below`.
  Proved for scenes without transformation. Refuted: an area without size makes the painting fail (empty_area_wrong), the grid follows the transformation of the scene (grid_transformed_wrong).
* **C184** Setting the scene of a viewer fits it in the viewport (partial). The setter with the attribute bounding_box as a parameter, on top of the theorem for fit_scene; refuted for scenes whose box was not assigned.
  Theorems: `Qt.set_scene_partial`, `Qt.new_viewer`, `Qt.set_scene_no_size`, `Qt.set_scene_wrong`.
  Proved for a scene whose bounding box was assigned. Refuted for the others: a scene has no bounding box of its own, the setter raises AttributeError and keeps the scene (set_scene_wrong).
* **C185** A click selects the nearest item and no other (partial). For every reachable scene, on top of the invariant of the index and of the specification of picking.
  Theorems: `Qt.click_nearest`, `Qt.click_succeeds`, `Qt.click_invisible_wrong`.
  Proved for the items of the index. Refuted: items that are not visible can be selected (click_invisible_wrong); an item whose geometry was read before the first update is not in the index, see C118.
* **C186** The dependencies of an expression are the points it refers to (partial). The syntax tree of Python expressions as an inductive type, the visitor as a recursive function; an independent list of the occurrences of names, compared by induction.
  Theorems: `dependencies_partial`, `dependencies_error`, `line_dependencies`, `other_dependencies_wrong`.
  The exact dependencies are proved for every expression; refuted as wanted: only the calls of Line are registered, the points of the other functions are not (other_dependencies_wrong).
* **C187** The functions of a formula measure what their names say (partial). The functions over real coordinates, with the orientation of C79.
  Theorems: `line_value`, `angle_line_value`, `current_length`, `unknown_point`, `spline_functions_wrong`, `angle_line_null_wrong`.
  Proved for Line, AngleLine and CurrentLength. Refuted: the functions of a curve are 0 (spline_functions_wrong), and the direction between two points at the same place is 90 degrees (angle_line_null_wrong).
* **C188** Vectors do not share their coordinates (proved). A heap of vector objects; one step per operator; induction on the history.
  Theorems: `VectorObject.operators_pure`, `VectorObject.vectors_not_shared`.
* **C189** The operators of vectors compute coordinate by coordinate (partial). The step function of C188 computed on each class; the failing classes are refuted.
  Theorems: `VectorObject.arithmetic`, `VectorObject.add_class`, `VectorObject.int_add_wrong`, `VectorObject.homogeneous_right_wrong`, `VectorObject.homogeneous_weight_wrong`, `VectorObject.normalised_wrong`.
  Proved for vectors of floats. Refuted for vectors of integers (int_add_wrong), homogeneous vectors (homogeneous_right_wrong, homogeneous_weight_wrong) and normalised vectors (normalised_wrong).
* **C190** Equality of vectors is equality of coordinates (partial). The comparison of numpy on arrays of 2 and 3 numbers; symmetry is refuted for every relative tolerance in (0, 1).
  Theorems: `VectorObject.eq_iff_partial`, `VectorObject.eq_homogeneous_wrong`, `VectorObject.almost_equal_partial`, `VectorObject.almost_equal_wrong`.
  Refuted across classes (eq_homogeneous_wrong) and for the symmetry of almost_equal (almost_equal_wrong).
* **C191** Conversions to integers round as they say, and vectors of integers stay so (proved). Rounding on an ordered field with floor; an invariant of the heap.
  Theorems: `VectorObject.integers`, `VectorObject.integers_stay`.
* **C192** A scene saved as DXF and imported again is the same drawing (partial). Models `Painters` and `DxfImport` composed; ezdxf is assumed to give back the entities it was given. The basis of the knots 0 0 0 0 1 1 1 1 is computed.
  Theorems: `DxfRoundTrip.round_trip_partial`, `DxfRoundTrip.scale_wrong`, `DxfRoundTrip.lost_wrong`.
  Proved: one item for each visible segment and curve, in order, with every point ten times further. Refuted: the scale (scale_wrong), texts and circles (lost_wrong).
* **C193** Lines meet boxes, measure distances and complete triangles (partial). Model `LineTools` over an ordered field, over the reals where roots are taken.
  Theorems: `boundingBox_covers_partial`, `boundingBox_vertical_wrong`, `boundingBox_center_partial`, `boundingBox_outside_wrong`, `distances_wrong`, `triangleProjectedPoint_iff`, `triangleProjectedPoint_partial`, `triangleProjectedPoint_wrong`, `triangleProjectedPoint_always_wrong`, `parallel_orthogonal_lines`.
  Proved: the points of a box (lines that are not vertical; inside the box for a line through its center), parallelism, completion of a triangle for vectors of length 1 and exactly when for the others. Refuted: vertical lines, points outside of the box, distances between abscissae, other vectors.
* **C194** A triangle knows its perimeter, its angles and its centers (partial). An object with its optional attributes; induction on the history. Refuted for all triangles and histories.
  Theorems: `Triangle.measures_wrong`.
  Refuted: every measure but the area raises, for all triangles and histories (measures_wrong).
* **C195** The roots of a polynomial are its roots (partial). sympy is a parameter, assumed exact; the division by the leading coefficient keeps the roots.
  Theorems: `Roots.fifthRoot_exact`, `Roots.fifthRoot_arguments`, `Roots.cubicRoot_exact`, `Roots.cubicRoot_constant`, `Roots.cubicRootNormalised_raises_wrong`, `Roots.cubicRootNormalised_cube_wrong`.
  Proved for cubic_root and fifth_root; refuted for cubic_root_normalised (cubicRootNormalised_raises_wrong, cubicRootNormalised_cube_wrong).
* **C196** Polygons become triangles, count crossings and have names (partial). Model `PolygonRest` over an ordered field; the loop over the edges by induction.
  Theorems: `PolygonRest.toTriangle_spec`, `PolygonRest.crossingNumberTest_wrong`, `PolygonRest.ngonName_wrong`, `PolygonRest.turns_spec`.
  Proved for the triangles and the turns; refuted for the crossing number and the names (crossingNumberTest_wrong, ngonName_wrong).
* **C197** The intersections of a Bézier curve are its common points (partial). The mapping of the curve on the line, which always raises, and the roots after it, with C195.
  Theorems: `BezierIntersect.intersectLine_wrong`, `BezierIntersect.quadRoots_partial`, `BezierIntersect.cubicRoots_partial`, `BezierIntersect.intersectCurve_wrong`, `BezierIntersect.tangents_spec`, `BezierIntersect.tangent1_wrong`.
  Refuted: the intersections always raise (intersectLine_wrong, intersectCurve_wrong) and so does the end tangent of a quadratic curve. Proved: the roots computed after the mapping (quadRoots_partial, cubicRoots_partial), the other tangents.
* **C198** A detail figure of a TeX document shows the whole scene once (proved). Model `TexFigure` on top of the models of the buffers and of the painter; the text of the content is computed, with the template theorem of C71.
  Theorems: `Tex.detail_figure`, `Tex.detail_figure_raises`.
* **C199** A tiled figure prints the whole scene at full size, one page for each tile (partial). Induction on the tiles of the model of C67; the cover fails with the tiler.
  Theorems: `Tex.tiled_figure_partial`, `Tex.tiled_figure_raises`, `Tex.tiled_cover_wrong`.
  Proved for the pictures, their order, their size and their content, and for the exceptions. The pictures do not show the whole scene unless the grid has as many rows as columns (tiled_cover_wrong, from C67).
* **C200** A TeX document has the page of its paper (partial). The template is split in its pieces and filled with the theorem of C71; the two orientations give the same text.
  Theorems: `Tex.document_page_partial`, `Tex.landscape_wrong`.
  Proved for the name and the margin. The orientation is not in the preamble: landscape papers give a portrait page on which the tiles do not fit (landscape_wrong).
* **C201** Measurements saved in a YAML file are read back (partial). Model `MeasurementFile`: files are a dictionary, YAML and sympy are parameters that are inverse on what is saved; induction on the entries. The name of the codec is not one Python knows, so that the file is emptied and nothing is ever saved.
  Theorems: `Measurement.save_wrong`, `Measurement.yaml_round_trip_partial`, `Measurement.yaml_number_wrong`, `Measurement.yaml_formula_value`, `Measurement.yaml_value`, `Measurement.load_refused`.
  Python has no codec called 'uft8': a save raises LookupError after having emptied the file, and a load raises too (save_wrong). Where a codec of this name is registered, the names, the texts and the expressions come back (yaml_round_trip_partial), with the numbers changed: a Python number comes back rounded to three digits (yaml_number_wrong).
* **C202** A measurement is an attribute of its set (partial). Model of the lookup of an attribute with its fallback; exact condition, and the two ways it fails.
  Theorems: `Measurement.attribute_iff`, `Measurement.attribute_name_wrong`, `Measurement.hasattr_wrong`, `Measurement.hasattr_never_false`.
  True exactly for the names that are not those of an attribute of the set, which `add` accepts (attribute_iff, attribute_name_wrong); a missing name raises KeyError, also from hasattr (hasattr_wrong, hasattr_never_false).
* **C203** A scene is rendered to a SVG picture as it is (partial). `toSvg` on top of the model of the Qt painter; the y axis of the picture goes down while the transformation of the painter does not change it.
  Theorems: `Qt.to_svg_partial`, `Qt.to_svg_wrong`.
  Proved for the size, the place and the items; the picture is upside down, and a scene without bounding box raises (to_svg_wrong); the conversion of the size to integers is not modelled.
* **C204** A file is found wherever it is under the directories given (partial). Trees are an inductive type, `os.walk` is a recursive function on them; induction on the tree.
  Theorems: `Common.find_partial`, `Common.find_text_wrong`, `Common.join_spec`.
  Proved for a list of directories (find_partial). A directory given as a text is taken as the list of its characters, and nothing is found under bytes (find_text_wrong): the test for a single directory is one of Python 2.
* **C205** Parent directories (proved). `os.path.dirname` is modelled on texts; induction on the number of steps.
  Theorems: `Common.parent_add`, `Common.parent_absolute`, `Common.parent_default`.
* **C206** The objects of a monostate class share their attributes, and only they (partial). A heap of dictionaries, one for each class that defines its state; induction on the history.
  Theorems: `Common.monostate_shared`, `Common.monostate_classes`, `Common.monostate_arguments_wrong`.
  Proved between the objects of a class (monostate_shared). All classes that do not define their own state share one (monostate_classes), and constructors with arguments raise TypeError (monostate_arguments_wrong).
* **C207** Logging is set up from the configuration file (partial). The configuration is a nested dictionary; the options that change are listed and all the others are shown equal.
  Theorems: `Common.logging_partial`, `Common.logging_wrong`, `Common.logging_level`.
  Proved for Linux and Windows (logging_partial, logging_level). On macOS the marks are not replaced although the format is the one of the terminal, on other systems it raises, and a level that does not exist raises (logging_wrong).
* **C208** The view box of a SVG file is the one of its root (partial). The four numbers are compared with the rectangle; exact condition.
  Theorems: `Common.view_box_partial`, `Common.view_box_wrong`.
  True exactly if the corner is the origin (view_box_partial, view_box_wrong): width and height are taken for upper bounds.
* **C209** What is printed is the sketch that was evaluated (partial). The scene made by the model of `detail_scene` is given to the models of the painters; the items are visible and of z value 0, hence painted in their order, and what each painter makes of an item is a function of the mark of the operation.
  Theorems: `Printed.sketch_to_pdf`, `Printed.sketch_to_pdf_operation`, `Printed.sketch_to_dxf_partial`, `Printed.sketch_to_dxf_wrong`, `Printed.sketch_to_mpl_partial`, `Printed.sketch_without_colour_wrong`, `Printed.ready_of_eval`.
  Proved for PDF (sketch_to_pdf, sketch_to_pdf_operation, ready_of_eval). For DXF only if no line has a colour with a name other than black (sketch_to_dxf_partial), otherwise nothing is saved (sketch_to_dxf_wrong); for Matplotlib only if every line has a colour (sketch_to_mpl_partial, sketch_without_colour_wrong), which is not required by detail_scene.
* **C210** Reading a path does not depend on what was read before (proved). A path with its parts as mutable objects, each with the attributes it keeps, is a state; every reading is a function of the state. The invariant is that what is kept is what is computed from the path, and each reading is proved to keep it and to return the computed value.
  Theorems: `PathEdit.reads_same`, `PathEdit.points_computed`, `PathEdit.arc_computed`.
* **C211** Edits of the parts of a path are seen by later readings (partial). The setters are functions of the same state as in C210: the parts of the path are changed and what is kept is left.
  Theorems: `PathEdit.edit_unread_partial`, `PathEdit.edit_plain_partial`, `PathEdit.radius_later_wrong`, `PathEdit.direction_kept_wrong`, `PathEdit.corner_kept_wrong`, `PathEdit.no_radius`.
  False of the code: a radius given to a part made without one makes its points unreadable (radius_later_wrong), a direction read before an edit is kept (direction_kept_wrong), and so are the points and the centre of a rounded corner (corner_kept_wrong). Proved before any reading (edit_unread_partial) and for paths without rounded corners (edit_plain_partial).
* **C212** The platform is the one described by the files of Linux (partial). The files are lists of lines; the functions that search a word in them are modelled line by line, the reading of the frequency is a parameter.
  Theorems: `Platform.memory_read`, `Platform.cores_partial`, `Platform.cores_wrong`, `Platform.cpu_partial`, `Platform.cpu_wrong`, `Platform.no_colon`, `Platform.no_frequency_wrong`.
  The size of the memory is proved (memory_read). The number of cores counts every line with the word 'processor' (cores_partial, cores_wrong), the name is cut at a colon (cpu_partial, cpu_wrong) and a processor without frequency raises TypeError (no_frequency_wrong).
* **C213** A transformation is made from a list, an array or another transformation (partial). An array is its shape and its elements; the branches of the constructor are modelled one by one for the two classes.
  Theorems: `TransformationNew.list_read_partial`, `TransformationNew.refused`, `TransformationNew.array_kept_partial`, `TransformationNew.no_type_wrong`, `TransformationNew.affine_no_type_wrong`, `TransformationNew.copy_affine_wrong`, `TransformationNew.copy_linear_partial`, `TransformationNew.linear_of_affine_wrong`, `TransformationNew.number_wrong`.
  False of the code: no transformation is accepted by AffineTransformation2D, even an affine one (copy_affine_wrong), an affine one is accepted by Transformation2D with its array of 3x3 (linear_of_affine_wrong), without a type Transformation2D raises AttributeError (no_type_wrong) and AffineTransformation2D sets no type (affine_no_type_wrong), and a number makes no matrix (number_wrong). Proved: lists and arrays with a type (list_read_partial, array_kept_partial), refusals (refused), copies of linear transformations (copy_linear_partial).
* **C214** The type found for a matrix is the effect of the matrix (partial). The effect of a matrix on a point is stated apart; both implications are proved for all matrices.
  Theorems: `TransformationNew.type_sound`, `TransformationNew.type_complete`, `TransformationNew.type_refused`, `TransformationNew.rotation_wrong`.
  Sound and complete for identity, reflections and scales (type_sound, type_complete, type_refused); rotations are found to be generic (rotation_wrong).
* **C215** Clipping the convex hull of a Bezier curve keeps what is in the band (partial). The walk on a chain of edges is proved by induction on the chain: its result is on the chain and on the threshold, and nothing on its left is beyond.
  Theorems: `BezierClip.clip_part_partial`, `BezierClip.clip_hull_wrong`, `BezierClip.clip_hull_partial`, `BezierClip.same_side_wrong`, `BezierClip.opposite_sides_partial`, `BezierClip.chord_wrong`, `BezierClip.end_at_origin_wrong`.
  Proved of the walk on one part (clip_part_partial) and of hulls whose left is in the band (clip_hull_partial). False of the rest: NameError as soon as there is something to clip (clip_hull_wrong) or when the control points are on the same side (same_side_wrong), and the line used is not the chord unless the curve begins at the origin (opposite_sides_partial, chord_wrong, end_at_origin_wrong).
* **C216** Evaluating a sketch again (partial). A second evaluation is run on the state left by the first one, values kept; what an operation places is shown to be a function of the vectors it refers to and of the values of its expressions.
  Theorems: `SketchGeometry.again_same_partial`, `SketchGeometry.measurements_ignored_wrong`, `SketchGeometry.dirty_fresh_partial`.
  Proved: with the same formulas and measurements nothing changes (again_same_partial); when every expression is set dirty the evaluation is the one of a new sketch (dirty_fresh_partial, call_stable). False of the code: the library never sets expressions dirty, so a change of measurements is ignored by the next evaluation (measurements_ignored_wrong).
* **C217** A change of measurements moves only what depends on it (proved). Strong induction on the operations: the values of the formulas of an operation are the ones of the environment of the points before it, and what it places depends on these values and on the vectors it refers to.
  Theorems: `SketchGeometry.unchanged_same`.
  unchanged_same, about two evaluations of new sketches.
* **C218** The points of a Valentina file are where the file says (proved). The operations that are read (C160) are numbered in the order of the file and given to the evaluation (C29); what an element says is stated from its XML attributes alone.
  Theorems: `ValPlaces.file_well_formed`, `ValPlaces.file_places`.
  file_well_formed, file_places. The elements have an id, the points a name, and no placing attribute is missing; the text of a formula is interpreted by a parameter.
* **C219** A sketch that is written and read back is evaluated to the same drawing (proved). The round trip (C162) keeps names, references and formulas, so that the operations that are evaluated are equal.
  Theorems: `ValPlaces.written_drawing`.
  written_drawing, under the conditions of C162 on the values of a sketch.
* **C220** A sketch saved in a SVG file shows its points, lines and curves (partial). The scene of C172 is given to the painter of C155; the data of a curve is read by the parser of C60 and C61.
  Theorems: `Printed.cubic_data_read`, `Printed.sketch_to_svg_partial`, `Printed.sketch_to_svg_wrong`.
  sketch_to_svg_partial gives the whole document: labels and lines are there in order, with their colour, width and dashes, at the place of svg_place_wrong (C155). sketch_to_svg_wrong: no element is a path or a circle, so that the curves and the discs are missing. Lines without colour raise, see C209. cubic_data_read: the data of a curve, which is not written, is always read without exception.
* **C221** A sketch added to a TeX document is drawn at the places computed (partial). The scene of C172 is given to the painter of C130 and C198; a name stands for the position which the document gives to it.
  Theorems: `Printed.sketch_to_tex_partial`, `Printed.sketch_to_tiles_partial`, `Printed.sketch_to_tex_wrong`.
  sketch_to_tex_partial and sketch_to_tiles_partial. sketch_to_tex_wrong: a line without colour, or with the stroke style TeX has no text for, raises. The tiles miss a part of the box when the numbers of rows and columns differ (tiled_cover_wrong, C198). TeX itself is not modelled: a text is said to stand for a point.
* **C222** A Valentina file is printed as it describes its pattern (proved). C161 gives the operations, C218 their places, C172 the scene and C209 the page; the colour of a curve is read as a text, which is drawn as the colour it names.
  Theorems: `ValPrinted.file_printed`, `ValPrinted.file_without_style`.
  file_printed, file_without_style. The elements have the attributes which place them, the points have the offset of their label, a curve has no colour or a known one, and the intersections of lines and points of contact exist; points of the same name are drawn wrongly (C172, detail_same_name_wrong). The text of a formula is interpreted by a parameter.
* **C223** A Valentina file is drawn as it describes its pattern in DXF, Matplotlib, SVG and TeX (partial). The pen and the marks of each element are specified from its attributes (Spec/ValDrawn.lean); C161 and C218 give the operations and their places, C172 the scene, C209, C220 and C221 what is saved.
  Theorems: `ValPrinted.file_to_dxf_partial`, `ValPrinted.file_to_mpl_partial`, `ValPrinted.file_to_svg_partial`, `ValPrinted.file_to_tex_partial`, `ValPrinted.file_to_tiles_partial`, `ValPrinted.file_to_dxf_wrong`, `ValPrinted.file_without_colour_wrong`.
  file_to_dxf_partial if the named colours are black, otherwise the painter raises (file_to_dxf_wrong); file_to_mpl_partial, file_to_svg_partial, file_to_tex_partial and file_to_tiles_partial if every line has a colour, and for TeX a style other than dashDotDotLine; a line without colour, which the format allows, raises (file_without_colour_wrong). In SVG the discs and the curves are missing and the places are wrong, see C220 and C155.
* **C224** The catalogue of the standard measurements is loaded completely or not at all (proved). The two loops are modelled over the value yaml.load gives; their result is compared to the list of the fields of the document by induction.
  Theorems: `Catalogue.load_ok`, `Catalogue.load_found`, `Catalogue.load_error`, `Catalogue.shipped_loads`.
  load_ok, load_found, load_error, shipped_loads. The reading of the YAML text is not modelled; the fields are texts.
* **C225** A formula has the value it denotes (partial). The grammar of Python for this part of its expressions is modelled by a reader of tokens and a parser by recursive descent. A formula is a tree with its text and its value (Spec/Formula.lean); the text rewritten by the code is read back as this tree by induction, and its evaluation is compared to the value.
  Theorems: `Formulas.Formula.formula_value_partial`, `Formulas.Formula.formula_value_only_partial`, `Formulas.Formula.formula_none_partial`, `Formulas.Formula.formula_error_partial`, `Formulas.Formula.formula_outcome_partial`, `Formulas.Formula.formula_unambiguous_partial`, `Formulas.Formula.formula_angle_wrong`, `Formulas.Formula.formula_text_partial`, `Formulas.Formula.formula_text_outside_partial`, `Formulas.Formula.formula_spline_wrong`.
  formula_value_partial, formula_value_only_partial, formula_none_partial, formula_error_partial, formula_outcome_partial and formula_unambiguous_partial for readable formulas: no use of a function begins like another one (C22), CurrentLength is used once, at most one custom measurement is used (C21), and there is no blank at the beginning. The functions of splines give 0 (formula_spline_wrong). The angle of a line between two points at the same place is 90 degrees (formula_angle_wrong). The tokens and the grammar of Python are a part of the model. formula_text_partial and formula_text_outside_partial: for the texts without functions and custom measurements nothing has to be assumed, such a text has a value exactly if it is the text of a formula, and the value this formula denotes.
* **C226** A Valentina file with measurements is placed as its formulas denote (partial). The loading of the cache is modelled with the caches of the measurements. The entries of the cache are found by induction over the loop and compared with a solution of the expressions (C25); the names given to Python are shown to be readable, so that C225 and C218 compose.
  Theorems: `ValFormulas.calculator_values`, `ValFormulas.calculator_solution`, `ValFormulas.calculator_error`, `ValFormulas.calculator_hidden_wrong`, `ValFormulas.formula_measurements_partial`, `ValFormulas.file_places_formulas_partial`.
  calculator_values, calculator_error and calculator_hidden_wrong (a measurement called __calculator__ takes the place of the calculator) for all sets; formula_measurements_partial and file_places_formulas_partial for the formulas readable in the sense of C225 which ask no angle between points at the same place.
* **C227** A pattern with its file of measurements is printed as both describe it (partial). C167, C226 and C222 are composed. The measurements of the set are related to the elements m of the document by the specification of reading, and the existence and uniqueness of the values follow from the exact criterion of C25, by recursion over the names needed in reverse order.
  Theorems: `ValVit.vit_values`, `ValVit.vit_file_printed_partial`, `ValVit.vit_calculator`.
  vit_values and vit_calculator for all files; vit_file_printed_partial for the formulas readable in the sense of C225. Measurements that refer to earlier names make the calculator raise TypeError, as in C25.
* **C228** A sketch is evaluated exactly when each of its operations can be placed (proved). Each eval_internal is shown to succeed exactly under a condition of the specification on the places so far; the state after a prefix is related to the names which are visible; the whole is by induction on the list.
  Theorems: `SketchGeometry.evaluates_next`, `SketchGeometry.sketch_evaluates_iff`, `SketchGeometry.evaluated_placeable`, `SketchGeometry.tangent_not_evaluated`.
  evaluates_next for one more operation, sketch_evaluates_iff for the whole, evaluated_placeable for the final places, tangent_not_evaluated for the tangent lines. Over the reals, in which a point of contact is exactly on a tangent; the floats of the code are not modelled.
* **C229** A Valentina file is evaluated exactly when each of its calculations has what it needs (proved). C228 is composed with the correspondence between elements and operations of C218; what an operation needs is restated on the attributes of the element.
  Theorems: `ValPlaces.file_evaluates_iff`.
  file_evaluates_iff: exact, for files whose calculations have the attributes that place them.
* **C230** There is at most one application (proved). create is modelled as a function of the class attribute and the outcome of the constructor; induction over the calls.
  Theorems: `App.creates_first`, `App.creates_none`, `App.creates_once`.
  creates_first, creates_none and creates_once, for one thread.
* **C231** The view is notified exactly when the scene changes (proved). The property is a record with the notifications made; they are compared to the sequence without repetitions by induction.
  Theorems: `App.scene_last`, `App.scene_notified`.
  scene_last and scene_notified.
* **C232** Each message of Qt is shown once, at its level (proved). The handler returns the events shown; the name of a path is computed from its parts, and related to any directory and name.
  Theorems: `App.message_shown`, `App.message_text`.
  message_shown and message_text.
* **C233** The script of the user is run at most once and its failures end the program (proved). The disk, the compiler and the execution are parameters; the method returns the events and how it ends; each outcome is followed.
  Theorems: `App.script_runs`, `App.script_ends`, `App.script_messages`, `App.script_at_start`.
  script_runs, script_ends, script_messages and script_at_start. What the event loop of Qt does with an exception is not modelled.
* **C234** Exactly which Valentina files are read (proved). The reader is that of C159–C165. The success of each loop is related to a condition on each of its elements, the modeling to the last item with an id, and the sketch to the operations that the elements describe.
  Theorems: `Valentina.file_read_iff`, `Valentina.file_computed_iff`.
  file_read_iff, for any eval which does not distinguish operations with the same properties; file_computed_iff, with the conditions of C229 for the evaluation. The float that a text is, the file of measurements and the compiled formulas are parameters.
* **C235** What a save does to the files of the user, at every moment (partial). A save is the list of the states of the disk that it goes through, and its outcome. The file is emptied when it is opened and the bytes are appended in any number of writes. What is made before the file is opened cannot damage it.
  Theorems: `Save.valentina_saved`, `Save.valentina_failed`, `Save.torn_wrong`, `Save.svg_saved`, `Save.tex_saved`, `Save.tex_failed_wrong`.
  valentina_saved, valentina_failed, svg_saved and tex_saved: the other files are kept, the file has its old content or a beginning of the new one, all of it at the end, and a pattern or an SVG file that cannot be made leaves the disk as it was. torn_wrong: the file is empty at some moment of every save, so a program stopped there loses it. tex_failed_wrong: a TeX document whose text cannot be encoded leaves an empty file. The bytes of the XML document and the errors of open are parameters.
* **C236** The colours that are known after the import (partial). The tables are in the model, generated from the file. Each of their texts is a colour, which is checked by the kernel, so the theorem on the loading of any tables (C73) applies; the colour of a name is that of the first definition.
  Theorems: `Colour.colors_loaded`, `Colour.valentina_colors_partial`, `Colour.valentina_colors_wrong`.
  colors_loaded: the import succeeds and gives the first definition of each name. valentina_colors_partial: twelve of the seventeen names of Valentina have the colour of Valentina. valentina_colors_wrong: goldenrod, green, lime, orange and violet have the colour of an earlier table.
* **C237** A pattern that is saved is read back by a new process, also after a crash (partial). The states of the disk of C235 are read with the reader of C164. Each of them has the old file or a beginning of the new bytes; the parser refuses a beginning or finds the whole document.
  Theorems: `Save.saved_and_loaded_partial`, `Save.saved_and_lost_wrong`.
  saved_and_loaded_partial: the pattern is read back from the last state of the disk, and every other state gives what was read before, the new pattern, or an exception; with the hypotheses of C164 on the pattern, and for a parser that finds the whole document or nothing in a beginning of its bytes. saved_and_lost_wrong: every save goes through a state in which neither the old pattern nor the new one can be read.
* **C238** A XML document is parsed from the data given or else from the file (partial). The source of parse is a function of the disk, the path and the data; etree.fromstring is a parameter.
  Theorems: `Save.parse_data`, `Save.parse_file`, `Save.parse_none_wrong`.
  parse_data and parse_file. parse_none_wrong: without path and data, the file called None is read.
* **C239** What the viewer shows at every moment (proved). The slots and the handlers are functions on states that also give the state after an exception. Induction on the events with an invariant: the viewport was never set, or its translation is computed from its size, its centre and its scale.
  Theorems: `Viewer.session_mapping`, `Viewer.stays_shown`, `Viewer.scene_shown`, `Viewer.edit_then_fit`, `Viewer.no_scene`, `Viewer.slots_succeed`, `Viewer.null_zoom`.
  null_zoom: a null zoom, which no handler of the window asks for, raises ZeroDivisionError and is kept.
* **C240** The tool bar and the keyboard of the viewer (partial). Induction on the keys and on the buttons; 11^a 9^b is odd, hence is not a power of ten.
  Theorems: `Viewer.keys`, `Viewer.zoom_buttons_partial`, `Viewer.zoom_buttons_wrong`, `Viewer.fit_button`.
  keys, zoom_buttons_partial and fit_button. zoom_buttons_wrong: the factors are 1.1 and 0.9, no sequence of the two buttons brings back the scale.
* **C241** The mouse of the viewer (partial). Induction on the positions of the mouse: the displacements are added. The views after the wheel are computed.
  Theorems: `Viewer.drag_partial`, `Viewer.drag_wrong`, `Viewer.wheel_partial`, `Viewer.wheel_wrong`, `Viewer.label_partial`, `Viewer.label_wrong`, `Viewer.other_buttons`.
  drag_partial: the picture moves by -1.5 times the displacement of the mouse, whatever its path; drag_wrong: hence the point under the mouse does not follow it. wheel_partial: the point under the mouse goes to the middle; wheel_wrong. label_partial; label_wrong: the label is not updated by the wheel.
* **C242** The program ends with the code of its reason (proved). The launch of the program is a function of the argument, the signals of the engine, the outside world and the code of the event loop; induction on the signals.
  Theorems: `App.launch_no_window`, `App.launch_no_script`, `App.launch_script`, `App.path_arguments`.
  That sys.exit in a slot ends the program, and that the timer of zero milliseconds fires first, are assumed.
* **C243** Rounded rectangles and circles made of paths are drawn as such (partial). The items made by add_path for these paths are computed for all sizes; the points of the arcs are described by the coordinates of a quarter of circle.
  Theorems: `SceneGeometry.rounded_rectangle_items`, `SceneGeometry.circle_items`, `SceneGeometry.circle_center_wrong`.
  Proved for the shapes which are drawn. The code falsifies the reading where the point is the centre of the circle (circle_center_wrong).
* **C244** The dictionary of a drawing state lists its attributes (proved). Induction on the list of the attributes.
  Theorems: `SvgState.to_dict`, `SvgState.to_dict_missing`.
  For the states which the reader makes (Settled).
* **C245** Needles keep what they are made of (partial). Both classes are records of attributes; the conversion to int is the floor or the ceiling.
  Theorems: `Textile.needle_kept`, `Textile.needle_refused`, `Textile.machine_needle_partial`, `Textile.machine_needle_wrong`.
  Proved for the class of Needle.py; false of the class of SewingMachine.py, whose size raises AttributeError (machine_needle_wrong).
* **C246** A singleton whose constructor uses the singleton (partial). A run of the constructor is a tree of inner calls, executed by recursion with the class attribute and the list of the returned objects. Induction on the tree.
  Theorems: `Singleton.reentrant_partial`, `Singleton.reentrant_wrong`, `Singleton.reentrant_raise_wrong`.
  Proved for the calls made outside of the constructor (reentrant_partial). The code falsifies the rest for every constructor that uses its class (reentrant_wrong, reentrant_raise_wrong).
* **C247** Ids of objects made by several threads (partial). The interleaving semantics of C06. An invariant: an accepted id is at most the value of the counter, and no other accepted call has it.
  Theorems: `Counter.explicit_ids_distinct_partial`, `Counter.explicit_automatic_same_wrong`.
  Proved for explicit ids (explicit_ids_distinct_partial), every schedule. The code falsifies the claim for automatic ids: explicit_automatic_same_wrong, for every explicit id, and increment_returns_same_wrong (C07).
* **C248** The convex hull of a polygon does not depend on what was asked before (partial). The polygon is the record of its vertices and caches (C85). Induction on the questions: only is_convex writes the cache which is read. The vertices of a strictly convex polygon are distinct and no three are aligned, so that the scan of C89 succeeds.
  Theorems: `Hull.hull_asked_partial`, `Hull.hull_hull`, `Hull.hull_asked_wrong`, `Hull.hull_declared_wrong`.
  Proved for all the questions other than is_convex (hull_asked_partial) and for the hull of a hull (hull_hull). The code falsifies it after is_convex for every strictly convex clockwise polygon (hull_asked_wrong) and for a polygon declared convex (hull_declared_wrong).
* **C249** A regular polygon can be copied, transformed and simplified (partial). The object is the record of its attributes and of the polygon (Model/RegularObject.lean); the constructor takes arguments by position, since the inherited methods call it with points. Induction on the transformations; the centre of a circle through three vertices that are not aligned (C90) is unique.
  Theorems: `RegularObject.regular_clone_wrong`, `RegularObject.regular_transform_partial`, `RegularObject.circumcircle_iff`, `RegularObject.circumcircle_wrong`, `RegularObject.regular_simplify`, `RegularObject.square_simplify_wrong`.
  Proved: what a transformation in place does (regular_transform_partial), exactly when the vertices are still on the circumcircle after any sequence of transformations that multiply the distances by a factor (circumcircle_iff), and the three outcomes of simplify (regular_simplify). The code falsifies the rest for every regular polygon: copies raise TypeError (regular_clone_wrong), a translation leaves the circumcircle behind (circumcircle_wrong), every square simplified with its radius raises TypeError (square_simplify_wrong).
* **C250** A B-spline can be made, copied, reversed, compared and transformed (partial). The constructor is called with vectors by position, as the inherited methods do (Model/SplineObject.lean). The two loops of the algorithm of de Boor and the insertion of a knot (C52, C53) commute with every map that keeps the weighted means of two points: induction on the loops, without hypothesis on the spline.
  Theorems: `SplineObject.spline_clone_wrong`, `SplineObject.spline_one_point_wrong`, `SplineObject.spline_made`, `SplineObject.spline_transform_partial`, `SplineObject.spline_eq_iff`, `SplineObject.spline_eq_wrong`.
  Proved: in place, any affine transformation gives the image of the curve at every parameter and commutes with the insertion of knots (spline_transform_partial), the constructor with any number of points other than one (spline_made), exactly when two splines compare equal (spline_eq_iff). The code falsifies the rest for all inputs: copies, reversals and transformations with clone raise (spline_clone_wrong), one control point is refused (spline_one_point_wrong), every uniform spline is equal to one of another degree (spline_eq_wrong).
* **C251** A B-spline stays among its control points and in its bounding box (partial). The convex hull is the intersection of the half planes that contain the points. The point is the sum of the control points weighted by the basis functions (C53), which are not negative and sum to one on a span (C52); the box is the one of C84.
  Theorems: `SplineObject.spline_hull`, `SplineObject.spline_box`, `SplineObject.spline_box_uniform`, `SplineObject.spline_box_wrong`.
  Proved: the convex hull of the control points of the span (spline_hull), the bounding box on the range of every spline (spline_box) and at every parameter where a spline without given knots has a point (spline_box_uniform). The code falsifies that the box is the smallest one (spline_box_wrong).
* **C252** A B-spline of degree 1 is the polyline of its control points (proved). The sum of the control points weighted by the basis functions (C53) has, on a span, degree + 1 terms (C52); the basis functions of degree 1 and, at a knot, those of degree 2 are computed for knots at distance 1.
  Theorems: `Spline.spline_polyline`, `Spline.spline_middles`.
  spline_polyline for degree 1, the last parameter included, and spline_middles for degree 2.
* **C253** The segments of uniform splines join smoothly and stay among their control points (partial). The weights of the four control points are not negative and sum to one; the derivatives of the polynomial are computed at both ends. The product of the two bases used by to_bezier is computed and compared with the quadratic uniform B-spline at three parameters (Model/UniformSpline.lean).
  Theorems: `Spline.cubicSpline_bspline`, `Bezier.cubicSpline_hull`, `Bezier.cubicSpline_affine`, `Bezier.cubicSpline_join_partial`, `Bezier.quadSpline_toBezier`, `Bezier.quadSpline_wrong`.
  Proved for cubic splines: the junctions (cubicSpline_join_partial), the convex hull (cubicSpline_hull), the affine transformations (cubicSpline_affine), and that they are a piece of the B-spline with integer knots (cubicSpline_bspline). The code falsifies it for every quadratic one (quadSpline_wrong, quadSpline_toBezier).

## Axioms per theorem

Printed by `#print axioms` for every theorem of MANIFEST.json. `C` stands for `Classical.choice`, `P` for `propext` and
`Q` for `Quot.sound`.

* none: `App.path_arguments`, `Counter.increment_returns_duplicate`, `IterTools.multiwise_zero`, `PolygonRest.ngonName_wrong`, `Singleton.decorator_race`, `SvgState.class_of_tag`, `Tex.output_directory_wrong`, `Xml.toXml_unset`.
* C P Q: `App.launch_no_script`, `App.launch_no_window`, `App.launch_script`, `App.message_shown`, `App.message_text`, `App.scene_last`, `App.script_at_start`, `App.script_ends`, `App.script_messages`, `App.script_runs`, `ArrowHead.axial_offset_wrong`, `ArrowHead.curvy_path`, `ArrowHead.curvy_symmetric_wrong`, `ArrowHead.head_angle`, `ArrowHead.head_made`, `ArrowHead.head_transform_wrong`, `ArrowHead.head_triangle`, `ArrowHead.one_side_wrong`, `Bezier.area_chord_iff`, `Bezier.area_origin`, `Bezier.area_partial`, `Bezier.area_wrong`, `Bezier.closest_critical_partial`, `Bezier.closest_interior_partial`, `Bezier.closest_wrong`, `Bezier.cubicSpline_affine`, `Bezier.cubicSpline_hull`, `Bezier.cubicSpline_join_partial`, `Bezier.cubic_basis_inverse`, `Bezier.cubic_length_partial`, `Bezier.cubic_length_wrong`, `Bezier.cubic_length_wrong'`, `Bezier.cubic_splitTwo`, `Bezier.fatLine_spec`, `Bezier.flat_complete`, `Bezier.flat_spec`, `Bezier.flat_zero_iff`, `Bezier.in_box`, `Bezier.in_box_quad`, `Bezier.in_hull`, `Bezier.interpolated_cubic`, `Bezier.interpolated_default`, `Bezier.interpolated_diverges`, `Bezier.interpolated_quad`, `Bezier.polynomial_form`, `Bezier.quadSpline_toBezier`, `Bezier.quadSpline_wrong`, `Bezier.quad_basis_wrong`, `Bezier.quad_closest_outcome`, `Bezier.quad_closest_wrong`, `Bezier.quad_fatLine_wrong`, `Bezier.quad_length`, `Bezier.quad_length_wrong`, `Bezier.quad_split`, `Bezier.quad_splitTwo_partial`, `Bezier.quad_splitTwo_wrong`, `Bezier.tAtLength_partial`, `Bezier.tAtLength_spec`, `Bezier.tAtLength_wrong`, `Bezier.tangent_velocity`, `Bezier.toCubic_length_wrong`, `Bezier.toCubic_pointAt`, `Bezier.toSpline_pointAt`, `BezierClip.chord_wrong`, `BezierClip.clip_part_partial`, `BezierClip.end_at_origin_wrong`, `BezierClip.opposite_sides_partial`, `BezierClip.same_side_wrong`, `BezierIntersect.cubicRoots_partial`, `BezierIntersect.intersectCurve_wrong`, `BezierIntersect.intersectLine_wrong`, `BezierIntersect.quadRoots_partial`, `BezierIntersect.tangent1_wrong`, `BezierIntersect.tangents_spec`, `Calculator.identifiers_complete`, `Calculator.identifiers_sound`, `Calculator.pythonise_words_partial`, `Calculator.rewriteCalls_current_length`, `Calculator.rewriteCalls_none`, `Calculator.rewriteCalls_prefix_clash`, `Calculator.rewriteCalls_single_partial`, `Calculator.rewriteCalls_words_partial`, `Calculator.rewriteCustom_one_name_partial`, `Calculator.rewriteCustom_two_names`, `Calculator.scan_terminates`, `Catalogue.shipped_loads`, `Colour.clone_same`, `Colour.colors_loaded`, `Colour.components_in_range`, `Colour.copy_partial`, `Colour.copy_wrong`, `Colour.ensureColor_spec`, `Colour.eq_iff`, `Colour.hls_accepted`, `Colour.hls_round_trip`, `Colour.hsv_accepted`, `Colour.hsv_round_trip`, `Colour.hue_missing`, `Colour.hue_wrong`, `Colour.integer_components`, `Colour.light_integer_wrong`, `Colour.load_first`, `Colour.set_component`, `Colour.text_accepted_partial`, `Colour.text_middle_wrong`, `Colour.text_negative_wrong`, `Colour.text_read`, `Colour.text_round_trip`, `Colour.text_wrong`, `Colour.three_arguments`, `Colour.valentina_colors_partial`, `Colour.valentina_colors_wrong`, `Common.logging_partial`, `Common.logging_wrong`, `Conic.angleForPoint_inverse`, `Conic.angle_roundtrip`, `Conic.arc_transform_partial`, `Conic.arc_transform_wrong`, `Conic.axis_vectors_wrong`, `Conic.circle_area`, `Conic.circle_area_wrong`, `Conic.circle_clone_partial`, `Conic.circle_clone_wrong`, `Conic.circle_diameter`, `Conic.circle_from_points`, `Conic.circle_operations`, `Conic.circle_radius`, `Conic.circle_transform_made`, `Conic.circle_transform_partial`, `Conic.circle_transform_torn`, `Conic.circle_transform_wrong`, `Conic.distance_arc_partial`, `Conic.distance_arc_wrong`, `Conic.distance_circle`, `Conic.domain_flags`, `Conic.eccentricity_foci`, `Conic.eccentricity_wrong`, `Conic.ellipse_box_partial`, `Conic.ellipse_box_wrong`, `Conic.ellipse_cache_partial`, `Conic.ellipse_cache_wrong`, `Conic.ellipse_clone`, `Conic.ellipse_distance_error`, `Conic.ellipse_distance_partial`, `Conic.ellipse_distance_wrong`, `Conic.ellipse_ends`, `Conic.ellipse_inside_partial`, `Conic.ellipse_inside_wrong`, `Conic.ellipse_intersect`, `Conic.ellipse_intersect_null`, `Conic.ellipse_points`, `Conic.ellipse_transform_partial`, `Conic.ellipse_transform_torn`, `Conic.ellipse_transform_wrong`, `Conic.frame_coordinates`, `Conic.frame_isometry`, `Conic.frame_roundtrip`, `Conic.intersectSegment_null`, `Conic.intersectSegment_spec`, `Conic.intersect_circle_concentric`, `Conic.intersect_circle_none`, `Conic.intersect_circle_secant`, `Conic.intersect_circle_tangent_partial`, `Conic.intersect_circle_wrong`, `Conic.isInside_bounds`, `Conic.isInside_partial`, `Conic.isInside_wrong`, `Conic.isPointInside_iff`, `Conic.length_partial`, `Conic.length_wrong`, `Conic.major_vector_wrong`, `Conic.matrix_wrong`, `Conic.new_distance`, `Conic.perimeter_wrong`, `Conic.pointAtAngle_on`, `Conic.pointAtDistance_spec`, `Conic.svg_arc_degenerate`, `Conic.svg_arc_ends_wrong`, `Conic.svg_arc_partial`, `Conic.svg_arc_small`, `Conic.svg_arc_wrong`, `Conic.tangent_spec`, `Conic.to_bezier_clockwise`, `Conic.to_bezier_null`, `Conic.to_bezier_partial`, `Conic.to_bezier_quarters`, `Conic.to_bezier_wrong`, `Counter.automatic_id_spec`, `Counter.explicit_id_spec`, `Counter.ids_strictly_increasing`, `Counter.increment_returns_same_wrong`, `Counter.increments_not_lost`, `Detail.detail_box_error`, `Detail.detail_coordinate`, `Detail.detail_default`, `Detail.detail_ends`, `Detail.detail_label_wrong`, `Detail.detail_same_name_wrong`, `Detail.detail_scene`, `Detail.detail_style_wrong`, `Detail.detail_user_data`, `Detail.sketch_box`, `Detail.sketch_box_before`, `Detail.sketch_box_curves`, `Detail.sketch_box_ends`, `Detail.sketch_box_eval`, `Detail.sketch_box_no_controls`, `Dxf.added_items`, `Dxf.flat_or_null`, `Dxf.negative_bulge_wrong`, `Dxf.polyline_items`, `Dxf.positive_bulge`, `Dxf.sagitta_spec`, `Dxf.vertex_angle`, `DxfImport.arc_range_wrong`, `DxfImport.ellipse_closed_wrong`, `DxfImport.ellipse_parameters`, `DxfImport.ellipse_vertical_full`, `DxfImport.ellipse_vertical_wrong`, `DxfImport.import_items`, `DxfImport.import_refused`, `DxfImport.mirrored_wrong`, `DxfImport.spline_data_wrong`, `DxfImport.spline_fit_wrong`, `DxfImport.spline_knots_wrong`, `DxfImport.spline_points_partial`, `DxfRoundTrip.lost_wrong`, `DxfRoundTrip.round_trip_partial`, `DxfRoundTrip.scale_wrong`, `Formulas.Formula.formula_angle_wrong`, `Formulas.Formula.formula_error_partial`, `Formulas.Formula.formula_none_partial`, `Formulas.Formula.formula_outcome_partial`, `Formulas.Formula.formula_spline_wrong`, `Formulas.Formula.formula_text_outside_partial`, `Formulas.Formula.formula_text_partial`, `Formulas.Formula.formula_unambiguous_partial`, `Formulas.Formula.formula_value_only_partial`, `Formulas.Formula.formula_value_partial`, `Graph.addNode_new`, `Graph.breadthFirstSearch_spec`, `Graph.disconnect_edge`, `Graph.links_mirror`, `Graph.roots_leafs_spec`, `Graph.topologicalSort_complete_partial`, `Graph.topologicalSort_sound`, `Hull.convexHullPolygon_clockwise`, `Hull.convexHull_cases`, `Hull.convexHull_partial`, `Hull.convexHull_raises_iff`, `Hull.convexHull_wrong`, `Hull.hull_asked_partial`, `Hull.hull_asked_wrong`, `Hull.hull_declared_wrong`, `Hull.hull_hull`, `MathFunctions.cmp_spec`, `MathFunctions.cubicRootDegenerate_exact`, `MathFunctions.epsilonFloat_spec`, `MathFunctions.middle_spec`, `MathFunctions.quadraticRoot_exact`, `MathFunctions.quadraticRoot_none_iff`, `MathFunctions.quadraticRoot_two_order`, `MathFunctions.sign_spec`, `MathFunctions.trignometricClamp_eq_self_iff`, `MathFunctions.trignometricClamp_mono`, `MathFunctions.trignometricClamp_nearest`, `Measurement.attribute_iff`, `Measurement.attribute_name_wrong`, `Measurement.hasattr_never_false`, `Measurement.hasattr_wrong`, `Measurement.load_refused`, `Measurement.save_wrong`, `Measurement.sortedIter_spec`, `Measurement.subs_chain_unresolved`, `Measurement.subs_complete_partial`, `Measurement.subs_solution`, `Measurement.validateName_idempotent`, `Measurement.validateName_spec`, `Measurement.yaml_round_trip_partial`, `Painters.dxf_colour_wrong`, `Painters.dxf_driver`, `Painters.dxf_items_partial`, `Painters.mpl_circle_wrong`, `Painters.mpl_items_partial`, `Painters.mpl_limits`, `Painters.no_bounding_box_wrong`, `Painters.no_colour_exception`, `Painters.no_colour_wrong`, `Painters.other_items_wrong`, `Painters.other_kinds_wrong`, `Painters.painter_document`, `Painters.pdf_driver_wrong`, `Painters.pdf_items_partial`, `Painters.pdf_margin_wrong`, `Painters.pdf_page`, `Painters.pdf_style_wrong`, `Painters.positions_wrong`, `Painters.svg_above_page_wrong`, `Painters.svg_circle_wrong`, `Painters.svg_cubic_wrong`, `Painters.svg_document`, `Painters.svg_items_partial`, `Painters.svg_place_wrong`, `Painters.svg_style_sheet`, `Painters.svg_vector`, `Paper.accepted`, `Paper.accepted_iff`, `Paper.fit`, `Paper.halving`, `Paper.landscape_swaps`, `Paper.lengths`, `Paper.odd_names_wrong`, `Paper.pan_moves`, `Paper.paper_size`, `Paper.resize`, `Paper.tiler_cover`, `Paper.tiles_cover_iff`, `Paper.tiles_disjoint`, `Paper.viewport_round_trip`, `Paper.zoom_at_position`, `Paper.zoom_mapping`, `Path.add_keeps`, `Path.bulge_arc`, `Path.bulge_length_wrong`, `Path.bulge_side`, `Path.bulge_tangent`, `Path.chain_partial`, `Path.clone_line_wrong`, `Path.clone_partial`, `Path.closed_stop`, `Path.corner_radius`, `Path.direction_fresh`, `Path.direction_stale_wrong`, `Path.direction_translation_partial`, `Path.first_start`, `Path.horizontal_absolute_wrong`, `Path.move_closed_wrong`, `Path.points_eq_trace_partial`, `Path.roundedRectangle_points`, `Path.stringed_wrong`, `Path.transform_arc_wrong`, `Path.transform_dir_fresh`, `Path.transform_no_radius`, `Path.transform_ok_iff`, `Path.transform_parts`, `Path.transform_points`, `Path.transform_radius`, `Path.transform_torn_wrong`, `PathEdit.arc_computed`, `PathEdit.corner_kept_wrong`, `PathEdit.direction_kept_wrong`, `PathEdit.edit_plain_partial`, `PathEdit.edit_unread_partial`, `PathEdit.no_radius`, `PathEdit.points_computed`, `PathEdit.radius_later_wrong`, `PathEdit.reads_same`, `Pattern.create_edges`, `Pattern.create_error`, `Pattern.create_ok`, `Pattern.create_succeeds`, `Pattern.dependencies_before`, `Pattern.edges_forward_partial`, `Pattern.edges_forward_weak`, `Pattern.eval_order`, `Pattern.eval_positions`, `Pattern.eval_selfLoop`, `Pattern.getOperation_latest`, `Pattern.id_hidden_by_name`, `Pattern.id_resolves`, `Pattern.mentioned_before_partial`, `Pattern.topologicalSort_never_raises_partial`, `Platform.cores_partial`, `Platform.cores_wrong`, `Platform.cpu_partial`, `Platform.cpu_wrong`, `Platform.memory_read`, `Platform.no_colon`, `Platform.no_frequency_wrong`, `Polygon.area_frozen`, `Polygon.area_spec`, `Polygon.area_stale`, `Polygon.area_triangle`, `Polygon.axes_not_simple`, `Polygon.axes_partial`, `Polygon.axes_position_wrong`, `Polygon.axes_stale_wrong`, `Polygon.barycenter_spec`, `Polygon.isClockwise_spec`, `Polygon.isConvex_complete`, `Polygon.isConvex_wrong_double`, `Polygon.isConvex_wrong_order`, `Polygon.isPointInside_partial`, `Polygon.isPointInside_raises`, `Polygon.isSimple_complete`, `Polygon.isSimple_iff`, `Polygon.isSimple_partial`, `Polygon.isSimple_wrong_small`, `Polygon.isSimple_wrong_vertex`, `Polygon.perimeter_spec`, `Polygon.recenter_flat_wrong`, `Polygon.recenter_partial`, `Polygon.recenter_transformed_wrong`, `Polygon.recenter_twice_wrong`, `Polygon.regular_area`, `Polygon.regular_convex`, `Polygon.regular_error`, `Polygon.regular_spec`, `Polygon.signedArea_affine`, `Polygon.signedArea_order`, `Polygon.signedArea_shift`, `Polygon.simplify_negative`, `Polygon.simplify_none_iff`, `Polygon.simplify_partial`, `Polygon.simplify_unbounded_wrong`, `Polygon.simplify_wrong`, `PolygonRest.toTriangle_spec`, `PolygonRest.turns_spec`, `Primitive.toPath_polygon`, `Primitive.toPath_polyline`, `Primitive.toPath_polyline_wrong`, `Primitive.toPolygon_wrong`, `Printed.cubic_data_read`, `Printed.ready_of_eval`, `Printed.sketch_to_dxf_partial`, `Printed.sketch_to_dxf_wrong`, `Printed.sketch_to_mpl_partial`, `Printed.sketch_to_pdf`, `Printed.sketch_to_pdf_operation`, `Printed.sketch_to_svg_partial`, `Printed.sketch_to_svg_wrong`, `Printed.sketch_to_tex_partial`, `Printed.sketch_to_tex_wrong`, `Printed.sketch_to_tiles_partial`, `Printed.sketch_without_colour_wrong`, `Qt.arc_angles_partial`, `Qt.arc_angles_wrong`, `Qt.arc_place`, `Qt.click_invisible_wrong`, `Qt.click_nearest`, `Qt.click_succeeds`, `Qt.closed_path_wrong`, `Qt.control_pens`, `Qt.control_points`, `Qt.curved_path_wrong`, `Qt.ellipse_angle_wrong`, `Qt.empty_area_wrong`, `Qt.fill_pen_wrong`, `Qt.grid_below`, `Qt.grid_partial`, `Qt.grid_step`, `Qt.grid_transformed_wrong`, `Qt.new_viewer`, `Qt.no_colour_wrong`, `Qt.paint_items_partial`, `Qt.pens_partial`, `Qt.quadratic_cache_wrong`, `Qt.quadratic_partial`, `Qt.quadratic_wrong`, `Qt.rectangle_wrong`, `Qt.set_scene_partial`, `Qt.svg_arc_wrong`, `Qt.to_svg_partial`, `Qt.to_svg_wrong`, `RegularObject.circumcircle_iff`, `RegularObject.circumcircle_wrong`, `RegularObject.regular_clone_wrong`, `RegularObject.regular_simplify`, `RegularObject.regular_transform_partial`, `RegularObject.square_simplify_wrong`, `Roots.cubicRootNormalised_cube_wrong`, `Roots.cubicRootNormalised_raises_wrong`, `Roots.cubicRoot_constant`, `Roots.cubicRoot_exact`, `Roots.fifthRoot_arguments`, `Roots.fifthRoot_exact`, `Save.parse_data`, `Save.parse_file`, `Save.parse_none_wrong`, `Save.saved_and_loaded_partial`, `Save.saved_and_lost_wrong`, `Save.tex_failed_wrong`, `Save.tex_saved`, `Save.torn_wrong`, `Save.valentina_failed`, `Save.valentina_saved`, `Scene.bezier_path_rejected`, `Scene.clean_item_skipped_wrong`, `Scene.index_consistent`, `Scene.moved_item`, `Scene.moved_item_wrong`, `Scene.pick`, `Scene.pick_negative`, `Scene.read_first_wrong`, `Scene.unselect_all`, `Scene.update_index`, `Scene.update_then_pick`, `Scene.user_data`, `Scene.z_order`, `SceneGeometry.add_partial`, `SceneGeometry.add_spline_cubic`, `SceneGeometry.add_spline_quadratic_wrong`, `SceneGeometry.arc_items_wrong`, `SceneGeometry.circle_center_wrong`, `SceneGeometry.circle_items`, `SceneGeometry.closed_twice_wrong`, `SceneGeometry.ellipse_arc_wrong`, `SceneGeometry.ellipse_item_wrong`, `SceneGeometry.path_box_contains`, `SceneGeometry.path_box_curve_wrong`, `SceneGeometry.path_box_partial`, `SceneGeometry.path_box_stringed_wrong`, `SceneGeometry.path_box_wrong`, `SceneGeometry.path_item_arc_wrong`, `SceneGeometry.path_item_geometry_wrong`, `SceneGeometry.path_item_index_wrong`, `SceneGeometry.path_item_partial`, `SceneGeometry.path_items_partial`, `SceneGeometry.plain_items_partial`, `SceneGeometry.rounded_rectangle_items`, `SceneGeometry.stringed_items_wrong`, `SceneGeometry.transformed_circle_partial`, `SceneGeometry.transformed_circle_wrong`, `SceneGeometry.transformed_partial`, `SceneGeometry.transformed_rectangle_partial`, `SceneGeometry.transformed_rectangle_wrong`, `Singleton.decorator_race_all`, `Singleton.decorator_sequential`, `Singleton.metaclass_single_instance`, `Singleton.reentrant_partial`, `Singleton.reentrant_wrong`, `SketchGeometry.again_same_partial`, `SketchGeometry.contact_outside_wrong`, `SketchGeometry.contact_partial`, `SketchGeometry.contact_tangent_wrong`, `SketchGeometry.dirty_fresh_partial`, `SketchGeometry.evaluated_placeable`, `SketchGeometry.evaluates_next`, `SketchGeometry.measurements_ignored_wrong`, `SketchGeometry.sketch_evaluates_iff`, `SketchGeometry.sketch_satisfies`, `SketchGeometry.sketch_values`, `SketchGeometry.spline_geometry`, `SketchGeometry.tangent_not_evaluated`, `SketchGeometry.unchanged_same`, `Spline.basis_spec`, `Spline.basis_sum`, `Spline.cubicSpline_bspline`, `Spline.insertKnot_end`, `Spline.insertKnot_end_wrong`, `Spline.insertKnot_pointAt`, `Spline.insertKnot_spec`, `Spline.pointAt_after`, `Spline.pointAt_before_wrong`, `Spline.pointAt_curve`, `Spline.pointAt_end_wrong`, `Spline.pointAt_uniform`, `Spline.span_given`, `Spline.span_uniform`, `Spline.spline_middles`, `Spline.spline_polyline`, `Spline.toBezier_closed_wrong`, `Spline.toBezier_degree_wrong`, `Spline.toBezier_spec`, `Spline.uniformKnots_spec`, `SplineObject.spline_box`, `SplineObject.spline_box_uniform`, `SplineObject.spline_box_wrong`, `SplineObject.spline_clone_wrong`, `SplineObject.spline_eq_wrong`, `SplineObject.spline_hull`, `Style.bezier_clone_wrong`, `Style.bezier_control`, `Style.clone_wrong`, `Style.enumerations`, `Style.path_clone_iff`, `Style.path_clone_partial`, `Style.sketch_new`, `Style.sketch_styles`, `Style.style_attributes`, `Style.style_bool`, `Style.style_defaults`, `Style.style_made`, `SvgPath.parse_blocks_partial`, `SvgPath.parse_hangs_wrong`, `SvgPath.parse_terminates_iff`, `SvgPath.parse_terminates_partial`, `SvgPath.read_text_partial`, `SvgPath.smooth_wrong`, `SvgPath.write_read_partial`, `SvgState.comment_wrong`, `SvgState.extend_attribute`, `SvgState.extend_iff`, `SvgState.extend_settled`, `SvgState.extend_text`, `SvgState.extend_transform`, `SvgState.group_scope_partial`, `SvgState.group_scope_wrong`, `SvgState.inherited_iff`, `SvgState.inherited_wrong`, `SvgState.item_class_partial`, `SvgState.newState_settled`, `SvgState.polygon_ellipse_wrong`, `SvgState.read_exact`, `SvgState.stroke_attributes_lost`, `SvgState.style_iff`, `SvgState.style_partial`, `SvgState.style_semicolon_wrong`, `SvgState.style_transform_wrong`, `SvgState.to_dict`, `SvgState.to_dict_missing`, `SvgState.written_read_wrong`, `SvgTransform.length_partial`, `SvgTransform.length_value_error`, `SvgTransform.length_written`, `SvgTransform.percent_written_wrong`, `SvgTransform.several_wrong`, `SvgTransform.spaces_wrong`, `SvgTransform.transform_partial`, `SvgTransform.unit_wrong`, `SvgTransform.unknown_wrong`, `SvgTransform.unsupported_wrong`, `SvgTransform.write_read_wrong`, `Tex.append_list`, `Tex.circle_painted`, `Tex.circle_wrong`, `Tex.coordinates_first`, `Tex.curves_painted`, `Tex.detail_figure`, `Tex.detail_figure_raises`, `Tex.document_page_partial`, `Tex.document_source`, `Tex.environments_nested`, `Tex.file_name_partial`, `Tex.file_name_wrong`, `Tex.guillemets_wrong`, `Tex.landscape_wrong`, `Tex.other_kinds_wrong`, `Tex.path_style`, `Tex.path_style_texts`, `Tex.path_style_wrong`, `Tex.template_filled`, `Tex.text_painted`, `Tex.tiled_cover_wrong`, `Tex.tiled_figure_partial`, `Tex.tiled_figure_raises`, `Textile.fiber_without_source`, `Textile.fibers_loaded`, `Textile.fibers_malformed`, `Textile.needle_kept`, `Textile.seam_name_wrong`, `Textile.stitches_read`, `Textile.stitches_wrong`, `ToPython.to_python_inf_wrong`, `ToPython.to_python_injective`, `ToPython.to_python_line_wrong`, `ToPython.to_python_partial`, `ToPython.to_python_quote_wrong`, `ToPython.to_python_style_wrong`, `Transformation.aff_constructors`, `Transformation.aff_identity_sound`, `Transformation.aff_mul_apply`, `Transformation.aff_mul_assoc`, `Transformation.aff_mul_wrong`, `Transformation.aff_reach_mul_apply`, `Transformation.imul_apply`, `Transformation.lin_identity_sound`, `Transformation.lin_imul_raises`, `Transformation.lin_mul_apply`, `Transformation.lin_mul_assoc`, `Transformation.lin_mul_ok_iff`, `Transformation.lin_type_sound`, `Transformation.mirror_spec`, `Transformation.rotationAt_apply`, `Transformation.rotationAt_spec`, `Transformation.scalarMul_made`, `Transformation.scalarMul_opposite_wrong`, `Transformation.scalarMul_partial`, `Transformation.scalarMul_screen`, `Transformation.scalarMul_wrong`, `Transformation.transform_clone`, `Transformation.transform_reach`, `TransformationNew.affine_no_type_wrong`, `TransformationNew.array_kept_partial`, `TransformationNew.copy_affine_wrong`, `TransformationNew.copy_linear_partial`, `TransformationNew.linear_of_affine_wrong`, `TransformationNew.list_read_partial`, `TransformationNew.no_type_wrong`, `TransformationNew.number_wrong`, `TransformationNew.refused`, `TransformationNew.rotation_wrong`, `TransformationNew.type_complete`, `TransformationNew.type_sound`, `Triangle.measures_wrong`, `Units.conversions_right`, `Units.conversions_wrong`, `Units.den_to_tex_wrong`, `Units.inch_point_round_trip`, `Units.mm_point_round_trip`, `Units.nm_to_tex_wrong`, `Units.tex_to_den`, `Units.tex_to_nm`, `Units.unused_factor_wrong`, `Units.yarn_new`, `ValFormulas.calculator_error`, `ValFormulas.calculator_hidden_wrong`, `ValFormulas.calculator_solution`, `ValFormulas.calculator_values`, `ValFormulas.file_places_formulas_partial`, `ValFormulas.formula_measurements_partial`, `ValPlaces.file_evaluates_iff`, `ValPlaces.file_places`, `ValPlaces.file_well_formed`, `ValPlaces.written_drawing`, `ValPrinted.file_printed`, `ValPrinted.file_to_dxf_partial`, `ValPrinted.file_to_dxf_wrong`, `ValPrinted.file_to_mpl_partial`, `ValPrinted.file_to_svg_partial`, `ValPrinted.file_to_tex_partial`, `ValPrinted.file_to_tiles_partial`, `ValPrinted.file_without_colour_wrong`, `ValPrinted.file_without_style`, `ValVit.vit_calculator`, `ValVit.vit_file_printed_partial`, `ValVit.vit_values`, `Valentina.boolean_from_python_wrong`, `Valentina.boolean_written`, `Valentina.dangling_raises`, `Valentina.default_style_wrong`, `Valentina.detail_child_read`, `Valentina.detail_read`, `Valentina.details_require`, `Valentina.details_wrong`, `Valentina.file_computed_iff`, `Valentina.file_lacks`, `Valentina.file_read_iff`, `Valentina.file_requires`, `Valentina.interleaved_scopes_wrong`, `Valentina.missing_argument`, `Valentina.modeling_item_read`, `Valentina.object_style_wrong`, `Valentina.pattern_round_trip_partial`, `Valentina.read_back_wrong`, `Valentina.read_describes`, `Valentina.read_raises`, `Valentina.read_succeeds`, `Valentina.second_reading_wrong`, `Valentina.sketch_round_trip_partial`, `Valentina.spline_style_wrong`, `Valentina.unknown_raises`, `Valentina.unnamed_wrong`, `Valentina.write_operation`, `Valentina.write_sketch`, `Vec.angleWith_spec`, `Vec.cos_sin_with`, `Vec.cross_laws`, `Vec.dot_laws`, `Vec.fromPolar_magnitude`, `Vec.fromPolar_orientation`, `Vec.fromPolar_rotate`, `Vec.isParallel_iff`, `Vec.isParallel_short`, `Vec.normal_rotate`, `Vec.orientation_eq_arg`, `Vec.orientation_null`, `Vec.permute_scale_middle`, `Vec.projection_deviation`, `Vec.projection_error`, `Vec.projection_idempotent`, `Vec.rotate_isometry`, `Vec.rotate_linear`, `Vec.rotate_rotate`, `Vec.rotate_toComplex`, `Vec.toNormalised_spec`, `VectorObject.almost_equal_partial`, `VectorObject.almost_equal_wrong`, `VectorObject.eq_homogeneous_wrong`, `VectorObject.integers`, `VectorObject.integers_stay`, `VectorObject.operators_pure`, `VectorObject.vectors_not_shared`, `Viewer.drag_partial`, `Viewer.drag_wrong`, `Viewer.edit_then_fit`, `Viewer.fit_button`, `Viewer.keys`, `Viewer.label_wrong`, `Viewer.scene_shown`, `Viewer.session_mapping`, `Viewer.slots_succeed`, `Viewer.stays_shown`, `Viewer.wheel_partial`, `Viewer.wheel_wrong`, `Viewer.zoom_buttons_partial`, `Viewer.zoom_buttons_wrong`, `Vit.birth_date_wrong`, `Vit.date_round_trip`, `Vit.datetime_round_trip_partial`, `Vit.datetime_round_trip_wrong`, `Vit.ensure_date_text`, `Vit.ensure_datetime_text`, `Vit.gender_set`, `Vit.personal_ignores`, `Vit.personal_new_partial`, `Vit.personal_none_wrong`, `Vit.personal_round_trip`, `Vit.vit_body`, `Vit.vit_email_wrong`, `Vit.vit_missing`, `Vit.vit_read`, `Vit.vit_read_succeeds`, `Vit.vit_unit_wrong`, `Vit.vset_add`, `Vit.vset_add_errors`, `Vit.vset_clash_wrong`, `Vit.vset_iter_partial`, `Vit.vset_iter_wrong`, `Vit.vset_lookup`, `Vit.vset_plain`, `Xml.boolFromXml_spec`, `Xml.bool_round_trip`, `Xml.floatList_comma`, `Xml.floatList_comma_space`, `Xml.floatList_empty`, `Xml.floatList_round_trip`, `Xml.initFromXml_succeeds_iff`, `Xml.textObj_ofXml_text`, `bisector_iff_partial`, `bisector_is_median`, `bisector_wrong`, `boundingBox_center_partial`, `boundingBox_covers_partial`, `boundingBox_outside_wrong`, `containPoint_iff`, `containPoint_partial`, `containPoint_wrong`, `coordinates_spec`, `create_triangle_spec`, `distanceToLine_spec`, `distanceToPoint_isLeast`, `distances_wrong`, `intersectWith_iff`, `intersection_found_partial`, `intersection_missed`, `intersection_none_iff`, `intersection_sound`, `isPointInside_flat`, `isPointInside_iff`, `isPointInside_order`, `parallel_orthogonal_lines`, `pointAtDistance_spec`, `polyline_create`, `polyline_distance_fresh`, `polyline_distance_frozen`, `polyline_distance_partial`, `polyline_stale`, `projectedPoint_foot_iff`, `projectedPoint_partial`, `projectedPoint_wrong`, `rectangle_isPointInside`, `rectangle_perimeter_area`, `segment_center_spec`, `segment_intersection_spec`, `shiftedParallelLine_spec`, `sideOf_spec`, `triangleOrientation_spec`, `triangleProjectedPoint_always_wrong`, `triangleProjectedPoint_iff`, `triangleProjectedPoint_partial`, `triangleProjectedPoint_wrong`, `triangle_area_base_height`, `triangle_area_spec`.
* P: `App.creates_first`, `App.creates_none`, `App.scene_notified`, `Calculator.identifier_characters`, `Calculator.read_compile_error`, `Calculator.rewriteCustom_unknown`, `Common.join_spec`, `Common.logging_level`, `Common.view_box_partial`, `Common.view_box_wrong`, `Counter.explicit_automatic_same_wrong`, `Counter.newOperationId_spec`, `Graph.addNode_duplicate`, `IterTools.closedIterator_nil`, `IterTools.pairwise_nil`, `IterTools.pairwise_spec`, `Measurement.yaml_formula_value`, `Measurement.yaml_number_wrong`, `Measurement.yaml_value`, `Pattern.rename_only`, `Primitive.closed_iff`, `Primitive.reverse_defined`, `Primitive.reverse_partial`, `Primitive.reverse_wrong`, `Scene.meets_iff`, `Singleton.reentrant_raise_wrong`, `SplineObject.spline_eq_iff`, `SvgPath.smooth_quadratic_wrong`, `Tex.painted_in_order`, `Tex.painting_stops`, `Xml.attributes_mem_iff`, `Xml.initFromXml_undeclared`, `Xml.textObj_kwargs`, `Xml.textObj_kwargs_text_partial`.
* P Q: `App.creates_once`, `Bezier.affine_invariant`, `Bezier.cubic_split`, `Bezier.end_points`, `BezierClip.clip_hull_partial`, `BezierClip.clip_hull_wrong`, `Calculator.evaluation_count`, `Calculator.findIdentifier_spec`, `Calculator.nameError_kept`, `Calculator.read_after_dirty`, `Calculator.rewriteCustom_last`, `Calculator.value_kept`, `Catalogue.load_error`, `Catalogue.load_found`, `Catalogue.load_ok`, `Colour.add_replaces`, `Common.find_partial`, `Common.find_text_wrong`, `Common.monostate_arguments_wrong`, `Common.monostate_classes`, `Common.monostate_shared`, `Common.parent_absolute`, `Common.parent_add`, `Common.parent_default`, `Counter.explicit_ids_distinct_partial`, `Counter.increment_returns_increasing_partial`, `Counter.no_deadlock`, `Graph.connect_edges`, `Graph.disconnect_non_edge`, `Graph.topologicalSort_deep_wrong`, `IterTools.closedIterator_spec`, `IterTools.closedMultiwiseIndex_spec`, `IterTools.closedPairwise_spec`, `IterTools.multiwise_spec`, `MathFunctions.isInTrignometricRange_iff`, `Measurement.add_spec`, `Measurement.lookup_first`, `Measurement.subs_sound`, `Measurement.value_error_stable`, `Measurement.value_stable`, `Painters.dxf_circle_wrong`, `Paper.tiles_grid`, `Paper.viewport_unset`, `Paper.zoom_without_size`, `Path.add_open`, `Path.add_radius_error`, `Path.clone_raises_wrong`, `Path.close_torn_wrong`, `Path.close_twice_wrong`, `Path.closed_ignores`, `Path.direction_line`, `Path.relative_absolute`, `Path.stringedQuadratic_wrong`, `Pattern.removeScope_at_most_one`, `Pattern.removeScope_by_name`, `Pattern.scope_by_index`, `Pattern.scope_by_name`, `Pattern.scopes_in_insertion_order`, `Polygon.create_spec`, `Polygon.isConvex_again`, `Polygon.isConvex_simple`, `Polygon.isPointInside_exact`, `Polygon.isSimple_again`, `Polygon.pointBarycenter_spec`, `Polygon.recenter_unread_wrong`, `Polygon.signedArea_cut`, `PolygonRest.crossingNumberTest_wrong`, `Primitive.iterOnNuplets_spec`, `Primitive.toPath_wrong`, `Qt.set_scene_no_size`, `Qt.set_scene_wrong`, `Qt.text_pen_wrong`, `Save.svg_saved`, `Scene.bezier_path`, `Scene.bezier_path_segments_wrong`, `Scene.coordinate_cast`, `Scene.coordinate_unknown`, `Scene.dirty_false_recomputes`, `Scene.dirty_true_wrong`, `Scene.remove_item_wrong`, `Scene.update_succeeds`, `Singleton.metaclass_no_deadlock`, `Spline.naive_wrong`, `Spline.toBezier_given_wrong`, `SplineObject.spline_made`, `SplineObject.spline_one_point_wrong`, `SplineObject.spline_transform_partial`, `Style.enumeration_bool`, `SvgPath.after_close_wrong`, `SvgPath.compact_wrong`, `SvgPath.first_move`, `SvgPath.geometry_partial`, `SvgPath.read_write_wrong`, `SvgPath.second_move_wrong`, `SvgPath.vertical_wrong`, `SvgPath.wrong_coordinates`, `SvgState.item_attributes`, `SvgState.item_shape`, `Tex.positional_field`, `Textile.database_first`, `Textile.fabric_bending`, `Textile.fabric_wrong`, `Textile.machine_needle_partial`, `Textile.machine_needle_wrong`, `Textile.machine_needles`, `Textile.machine_partial`, `Textile.machine_speed`, `Textile.machine_stitch_types`, `Textile.machine_wrong`, `Textile.needle_refused`, `Transformation.transform_in_place`, `TransformationNew.type_refused`, `Units.yarn_default_wrong`, `Units.yarn_number`, `Vec.dot_sq_add_cross_sq`, `VectorObject.add_class`, `VectorObject.arithmetic`, `VectorObject.eq_iff_partial`, `VectorObject.homogeneous_right_wrong`, `VectorObject.homogeneous_weight_wrong`, `VectorObject.int_add_wrong`, `VectorObject.normalised_wrong`, `Viewer.label_partial`, `Viewer.no_scene`, `Viewer.null_zoom`, `Viewer.other_buttons`, `Vit.standard_lookup`, `Xml.effective_attribute`, `Xml.initFromXml_attribute`, `Xml.intFromText_spaces`, `Xml.int_round_trip`, `Xml.toXml_kwargs`, `Xml.xml_round_trip`, `boundingBox_spec`, `boundingBox_vertical_wrong`, `parallel_orthogonal_spec`, `rectangle_edges`, `shareVertexWith_spec`, `triangle_edges`.
* not yet printed: 10 theorems
