{
 "C01": "Model: `Graph`. Finite graph as node list + descendant function; DFS with fuel-free well-founded recursion, set orders as arbitrary permutations chosen by an oracle; loop invariant (post-order list closed under descendants).",
 "C02": "Model: `Graph`. Same model; soundness (back edge => cycle) and completeness (cycle => error) from the DFS invariant.",
 "C03": "Model: `Graph`. Queue/visited loop; invariant visited = queue ∪ yielded, closed under reachability; distance layering invariant.",
 "C04": "Model: `Graph`. State machine over add_node/connect/disconnect; invariant by induction on the history.",
 "C05": "Model: `Graph`. Same state machine.",
 "C06": "Model: `Counter`. Small-step interleaving semantics: per thread program counter; lock; invariant on value + pending increments.",
 "C07": "Model: `Counter`. Same semantics; negation by concrete schedule, `_partial` for non-overlapping calls.",
 "C08": "Model: `Counter`. Sequential state machine; induction on the creation list.",
 "C09": "Model: `Singleton`. Interleaving semantics with re-entrant lock; invariant: instance write-once.",
 "C10": "Model: `Singleton`. Sequential fold + explicit racing schedule.",
 "C11": "Model: `IterTools`. Generators as list functions with Except for raising; index characterisation.",
 "C12": "Model: `IterTools`. tee/next/zip modelled on lists; index characterisation.",
 "C13": "Model: `MathFunctions`. Generic ordered field.",
 "C14": "Model: `MathFunctions`. Real numbers with Real.sqrt; case analysis.",
 "C15": "Model: `Xml`. Attribute lists with codec parameters; finite maps as association lists.",
 "C16": "Model: `Xml`. Same; induction on the attribute list.",
 "C17": "Model: `Xml`. Char-list parsers/printers for bool and decimal integers.",
 "C18": "Model: `Xml`. split/join on char lists; induction.",
 "C19": "Model: `Xml`. Constructor order model; negation theorem.",
 "C20": "Model: `Calculator`. Cache state machine with evaluator parameter.",
 "C21": "Model: `Calculator`. Char-list find/replace; negation with witness and single-name partial theorem.",
 "C22": "Model: `Calculator`. Well-founded scan.",
 "C23": "Model: `Measurement`. Char-list validation with isalnum predicate parameter.",
 "C24": "Model: `Measurement`. Insertion ordered map; induction on the history.",
 "C25": "Model: `Measurement`. Expression AST with one-pass ordered substitution (assumed sympy semantics); negation + partial.",
 "C26": "Model: `Pattern`. List of scopes; histories.",
 "C27": "Model: `Pattern`. Sketch state machine: op list, dict, dag, counter.",
 "C28": "Model: `Pattern`. Same; invariant all edges go from earlier to later; combined with C02.",
 "C29": "Model: `Pattern`. Eval functions over reals/ordered fields.",
 "C30": "Model `Vector`: `rotate`, `normal`, `permute`, `scale` over ℝ. Compared with the multiplication by a complex number of modulus one; norms and linearity by algebra.",
 "C31": "Model `Vector`: `dot`, `cross`, `is_parallel` over an ordered field; `rint` on the cross product kept. Ring identities, Lagrange's identity; the parallel test is characterised exactly.",
 "C32": "Model `Vector`: `projection_on`, `deviation_with`, `cos_with`, `sin_with` with Python's `ZeroDivisionError`. Decomposition by algebra over ℝ.",
 "C33": "Model `Vector`: `to_normalised`, `from_polar`; numpy's division by zero is `none`. Algebra with `Real.sqrt`.",
 "C34": "Model `Transformation`: matrices of Mathlib with the type tag; `*` and `*=` for linear and affine transformations. Applying a product is applying both factors, by matrix algebra; the affine product is characterised, and refuted where the last row is wrong.",
 "C35": "Model `Transformation`: inductive set of the transformations a program can build. The tag is compared with the matrix by induction on the construction.",
 "C36": "Model `Transformation`: affine constructors, rotation about a centre. Matrix computation.",
 "C37": "Model `Transformation`: `transform(clone)` as a state change on a list of points. For every reachable transformation.",
 "C38": "Model `Line`: `intersection` with the rounding test of parallelism. Specification: set of points of a line. Cramer's rule.",
 "C39": "Model `Line`: `intersect_with` by the four orientations. Specification: a common point of the two closed segments. Case analysis on the signs.",
 "C40": "Model `Line`: `distance_to_point` of segments. Specification `IsLeast` of the distances to the points of the segment. Projection inequality.",
 "C41": "Model `Shapes`: barycentric test. Specification: convex combination of the vertices, any order of the vertices.",
 "C42": "Model `Shapes`: rectangles and intervals. Algebra.",
 "C43": "Model `Shapes`: polyline with its edge cache as a state machine over questions and transformations. Induction on the history; minimum of a list.",
 "C44": "Model `Polygon`: cached area. Specification: signed area, invariant by translation, rotation of the vertex list and cuts. Induction on the vertex list.",
 "C45": "Model `Bezier`: `split_at_t` by de Casteljau. Polynomial identities.",
 "C46": "Model `Bezier`: `to_cubic`. Polynomial identity.",
 "C47": "Model `Bezier`: `point_at_t`. Bernstein weights are non-negative and sum to one; convex hull of Mathlib.",
 "C48": "Model `Bezier`: `fat_line`. Bound of the Bernstein weights of the inner points.",
 "C49": "Model `Bezier`: basis matrices. Matrix product computed in Lean.",
 "C50": "Model `Spline`: default knot list. List characterisation for every degree and number of points.",
 "C51": "Model `Spline`: `span` for both kinds of knots. Loop invariant.",
 "C52": "Model `Spline`: Cox–de Boor recursion. Non-negativity, support and partition of unity by induction on the degree.",
 "C53": "Model `Spline`: de Boor triangle as array updates. Row invariant against the basis sum; errors at the bounds.",
 "C54": "Model `Spline`: `insert_knot`. The new curve has the same points, by the blossoming identity of the basis functions.",
 "C55": "Model `Conic`: `AngularDomain.is_inside`. Specification: sector swept from start to stop modulo 360.",
 "C56": "Model `Conic`: `intersect_segment` of circles. Specification: points of the line at distance radius; discriminant cases.",
 "C57": "Model `Conic`: `is_point_inside`, `distance_to_point`. Specification `IsLeast`; law of cosines for arcs.",
 "C58": "Model `Path`: path as a list of parts with the commands as a state machine. Specification: trace of a pen. Induction on the command list.",
 "C59": "Model `Path`: relative flags, `transform`. Simulation between the relative and the absolute command lists.",
 "C60": "Model `SvgPath`: tokenizer and parser on characters, with a step function and an explicit divergence. Exact condition of termination by induction on the text.",
 "C61": "Model `SvgPath`: parser and writer. Round trip by induction on the command list.",
 "C62": "Model `SvgState`: reader state machine with a stack of states over a document tree. Induction on the tree.",
 "C63": "Model `Dxf`: segments with bulge. Specification: the arc with the given tangent of a quarter of its angle. Trigonometry over ℝ.",
 "C64": "Model `Scene`: z-ordered insertion. Sortedness and stability by induction.",
 "C65": "Model `Scene`: index and distance query with `rtree` as an assumption. Sorted permutation of the items within the radius.",
 "C66": "Model `Paper`: viewport as a record with rational coordinates; zoom, pan, fit, resize. Algebra.",
 "C67": "Model `Paper`: tiler loops. Grid, disjointness and exact covering condition.",
 "C68": "Model `Paper`: paper sizes by halving, and the names that are accepted. Induction on the size number.",
 "C69": "Model `Units`: conversion constants as rationals. Compared with the definitions of the units.",
 "C70": "Model `Units`: yarn counts. Compared with the definitions of tex, den, Nm.",
 "C71": "Model `Tex`: template substitution on character lists. Induction on the text.",
 "C72": "Model `Color`: parsing of hexadecimal texts and 8-bit components. Induction on digits; exact set of accepted texts.",
 "C73": "Model `Color`, `Textile`: databases as association lists. Induction on the history of definitions.",
 "C74": "Model `MathFunctions`: small functions. Case analysis.",
 "C75": "Model `MathFunctions`: cubic with null leading coefficient. Reduction to C14.",
 "C76": "Model `Xml`: attribute lists of a class hierarchy. Induction on the list of bases.",
 "C77": "Models `Calculator` and `CalculatorCalls`: rewriting of calls on characters. Expressions are words (plain text, calls, CurrentLength); the rewriting is proved word by word for any number of words, by induction, when no name holds another; refuted by witnesses otherwise.",
 "C78": "Model `Measurement`: value cache. Induction on the history of reads.",
 "C79": "Model `Vector`: `orientation`, `angle_with`. Compared with `Complex.arg`.",
 "C80": "Model `Line`: distance and projection on a line. Least distance; exact condition of rightness of the projection.",
 "C81": "Model `Line`: derived lines, sides and points. Algebra.",
 "C82": "Model `Line`: `contain_point`. Exact set of accepted points.",
 "C83": "Model `Shapes`: area and bisector of triangles. Algebra; bisector compared with equal angles.",
 "C84": "Model `Shapes`: box of a list of points. Least box by induction.",
 "C85": "Model `Polygon`: `is_simple`. Specification: edges meet only at shared vertices. Exact characterisation.",
 "C86": "Model `Polygon`: barycenter and orientation. Invariance under affine maps and cuts.",
 "C87": "Model `Polygon`: `is_point_inside` with its missing attributes. Exact behaviour.",
 "C88": "Model `Polygon`: `is_convex`. Turning angles of the vertex list.",
 "C89": "Model `Hull`: Graham scan with the sort as a permutation. Loop invariant: hull of the points seen.",
 "C90": "Model `PolygonTools`: regular polygons. Trigonometry and induction.",
 "C91": "Model `Simplify`: reduction loop. Termination by the length; exact criterion.",
 "C92": "Model `Transformation`: product by a number. Compared with the length of an image segment.",
 "C93": "Model `Conic`: length of domains and arcs. Compared with the sector.",
 "C94": "Model `Conic`: `point_at_angle`, `angle_for_point`, tangent. Polar coordinates through `Complex.arg`.",
 "C95": "Model `Conic`: `apply_transformation` with its torn state. Image of the set of points.",
 "C96": "Model `SketchGeometry`: point of contact. From C56.",
 "C97": "Model `BezierReal`: closed formula of the length. Compared with the integral of the speed by differentiation.",
 "C98": "Model `BezierLength`: subdivision in quadratic curves. Error bound of the integral of the speed.",
 "C99": "Model `Bezier`: `split_at_two_t`. Polynomial identities.",
 "C100": "Model `Bezier`: roots of the derivative of the squared distance, with `sympy.real_roots` as an assumption (`RootsOf`). Critical points.",
 "C101": "Model `BezierReal`: area formula. Compared with the line integral.",
 "C102": "Model `Bezier`: flatness test. Bound of the distance to the chord.",
 "C103": "Model `BezierReal`: tangent. Compared with the derivative.",
 "C104": "Model `BezierLength`: loop over parameters. Invariant; error bound; divergence for a null step.",
 "C105": "Model `BezierLength`: bisection as written. Exact behaviour.",
 "C106": "Model `SplineBezier`: knot insertions to full multiplicity. From C54.",
 "C107": "Model `Path`: clone of every kind of part, with the exceptions. Exact condition.",
 "C108": "Model `PathBulge`: centre, ends and angles of rounded corners. Trigonometry.",
 "C109": "Model `Path`: cached directions. Histories of transformations and reads.",
 "C110": "Model `SvgPath`: conversion of commands to a path. Compared with the pen of the SVG standard.",
 "C111": "Model `SvgTransform`: regular expression and conversion. Compared with the matrices of the SVG standard.",
 "C112": "Model `SvgTransform`: lengths with units. Character lists.",
 "C113": "Model `SvgState`: attributes of states and elements. Exact condition of inheritance.",
 "C114": "Model `SvgState`: parsing of style attributes. Induction on the declarations.",
 "C115": "Model `SvgState`: document with comments as `lxml` gives them. Error for every written document.",
 "C116": "Model `SvgState`: table of tags. Case analysis over the tags.",
 "C117": "Model `Scene`: index as a set of boxes. Invariant over every history.",
 "C118": "Model `Scene`: dirty flags and cached geometry. Histories of assignments, reads and updates.",
 "C119": "Model `Scene`: user data, selection, removal. State machine.",
 "C120": "Model `Scene`: `bezier_path`. Induction on the list of points.",
 "C121": "Model `Scene`: named coordinates. Dictionary.",
 "C122": "Model `Units`: yarn constructor. Case analysis on the arguments.",
 "C123": "Model `Color`: copies and equality. Quantised components.",
 "C124": "Model `Color`: `colorsys` of the standard library is modelled. Round trips by case analysis on the sector.",
 "C125": "Model `Textile`: stitch loader with its wrong field. Fold over the entries.",
 "C126": "Model `Textile`: constructors with their exceptions. Case analysis.",
 "C127": "Model `Tex`: file names. Character lists.",
 "C128": "Model `Tex`: style texts. Case analysis.",
 "C129": "Model `Tex`: dispatch of a painter over a scene. Induction on the items.",
 "C130": "Model `Tex`: text of each kind of item. Case analysis.",
 "C131": "Model `Style`: clones of styles. Exact condition.",
 "C132": "Model `Style`: attributes, defaults and enumerations. Case analysis.",
 "C133": "Model `Ellipse`: change of frame. Trigonometric identities.",
 "C134": "Model `Ellipse`: `point_at_angle`. Specification: equation of the ellipse. Polar coordinates.",
 "C135": "Model `Ellipse`: box and its cache as a state machine. Specification `IsSmallestBox`. Induction on the history.",
 "C136": "Model `Ellipse`: `apply_transformation` with its torn state. Images of points.",
 "C137": "Model `Ellipse`: eccentricity and matrix. Sum of the distances to the foci.",
 "C138": "Model `Ellipse`: Eberly's bisection, 1074 halvings. Specification: least distance. Monotone function, loop invariant.",
 "C139": "Model `Ellipse`: quadratic equation. From C14; exact behaviour.",
 "C140": "Model `Ellipse`: number of pieces and control points. Closed form of the error of a piece, intermediate value theorem for the covering.",
 "C141": "Model `Ellipse`: `svg_arc`. Specification: points on the ellipse, mirror images, signs of the angles. Trigonometry.",
 "C142": "Model `Conic`: constructors. Lebesgue measure of Mathlib for the area.",
 "C143": "Model `CircleObject`: heap of vectors and domains. Invariant over every sequence of operations on the clone.",
 "C144": "Model `CircleObject`: `intersect_circle`. Coordinates along and across the line of the centres.",
 "C145": "Model `PolygonMoment`: points changed in place, cached and shared barycentre. First moments of a translated polygon by induction on the triangles.",
 "C146": "Model `PolygonMoment` over the reals with arctan. The extrema of the quadratic form over all directions, by the Cauchy inequality.",
 "C147": "Model `Primitive`: the hierarchy of classes as data and the order of resolution of Python; lookup computed for each class, then for all points.",
 "C148": "Models `Primitive` and `Path`: the parts added by a loop, then the trace of the path; induction on the points.",
 "C149": "Model `Primitive`: list of slices, indexed characterisation.",
 "C150": "Model `SceneGeometry`: the items with their positions and numbers. The points covered by objects and items are sets of a separate specification; equality by cases.",
 "C151": "Model `SceneGeometry`: `Item.geometry`. Images of sets of points, by affine combinations; witnesses where it fails.",
 "C152": "Models `SceneGeometry`, `Path`, `PathBulge`: induction on the parts with the trace of the path and the rounding theorems of C108.",
 "C153": "Models `SceneGeometry`, `Path`, `Scene`: induction on the parts; counterexamples for arcs, corners and the index.",
 "C154": "Model `SceneGeometry`: the loop over the parts; induction with the union of boxes; counterexample for a rounded corner.",
 "C155": "The four paint methods produce the attributes of the elements through the model of the XML adaptors; the loop of the painter runs over the model of z_value_iter. Proved by induction on the items for texts and segments; the place, the circles, the curves are counterexamples, and so is a scene whose bounding box was not assigned.",
 "C156": "The attributes of the root are a dictionary of texts; the statement reads them.",
 "C157": "The calls made to ezdxf are the output. Induction on the painted items; a scene that cannot be painted is not saved.",
 "C158": "The calls made to the canvas are the output; the place on the page is the sum of the translations and of the place on the canvas. Field arithmetic gives the exact boxes for which the margin is right.",
 "C159": "The artists added to the axes are the output. Induction on the items; order reasoning for the limits.",
 "C160": "The elements go through the model of the XML adaptors, the dispatch by tag and type, the conversion of references and the constructor of the operations. An independent table gives, per class, the attribute and the meaning of each property; the reading relation is proved equivalent to the program by induction on the elements.",
 "C161": "An invariant over the calls of the API gives the shape of the operations; each class is then written row by row of the same independent table. The default stroke style of three classes is a counterexample.",
 "C162": "The writing theorem gives elements that describe operations with the same properties; the reading theorem gives the operations described. The style of splines, names that are not given and colours of splines are counterexamples.",
 "C163": "The counter is part of the state of the model. The property is false for every file whose first operation has an id and for every sketch: NameError is proved for all of them.",
 "C164": "Induction on the scopes with the counter of ids carried from one to the next; patterns whose scopes were filled in turns are a counterexample.",
 "C165": "Case analysis of the reading of the head and induction on the pieces. The second half is false: details and modeling are dropped, for every document.",
 "C166": "An invariant over the calls gives the dictionary of names exactly as a list; lookups, loops and the comparison with the plain set of C24 follow. The loop is a counterexample for custom measurements, and @a excludes C_a.",
 "C167": "An independent relation says what a document describes; reading is proved to succeed exactly on the documents that describe something and to give it. The unit, an empty e-mail and the personal data of older files are counterexamples for all documents.",
 "C168": "The constructor is modelled setter by setter; exact conditions for success are proved. A text given as None and a birth date given with a time are counterexamples.",
 "C169": "The regular expressions of strptime are modelled with backtracking, and proved to accept exactly the texts of an independent description. The text of a datetime is a counterexample, for all of them.",
 "C170": "Induction on the calls.",
 "C171": "Induction on the operations for the box; the convex hull property of Bézier curves (C48) for the points of the curves. Evaluated states exist by C29; the points that eval leaves without position are named.",
 "C172": "The loop is refined to a list of marks given by an independent specification; positions are looked up through the dictionary of coordinates.",
 "C173": "Each clause is refuted for all the sketches it concerns; what happens instead is proved.",
 "C174": "An independent reader of Python calls with literals is written as specification; reading the code back gives the class and the values. Quotes, styles, colours and inf are counterexamples.",
 "C175": "Specification of the points of an entity written from the DXF reference, independent of the code; the loop is refined to a relation between the known entities and the items.",
 "C176": "Equality of the parametrisations when the axis does not point upwards; each other clause is refuted.",
 "C177": "For clamped uniform knots the curve of the item is the one of the specification of C50; other knots, weights and fit points are refuted.",
 "C178": "Exact coordinates of the corners; the angle by the cosine of the two sides. Options which always raise are refuted for all the inputs.",
 "C179": "The parts of the path and their points; the symmetry is refuted for every triangle and depth which are not null.",
 "C180": "The calls to QPainter are the output of the model; a relation Shows between an item and its figures is the specification; the loop is handled by the theorem shared with the other painters. Classes which cannot be painted are refuted.",
 "C181": "The list of calls is run by a small specification of a device with a current pen and brush; induction on the items with the device state generalised.",
 "C182": "Bounds on truncation; an explicit formula for the points of an arc of Qt compared with the images of the points of the circle.",
 "C183": "Integer part arithmetic on an ordered field; the specification asks for a strictly increasing list of exactly the integers whose multiples are in the area.",
 "C184": "The setter with the attribute bounding_box as a parameter, on top of the theorem for fit_scene; refuted for scenes whose box was not assigned.",
 "C185": "For every reachable scene, on top of the invariant of the index and of the specification of picking.",
 "C186": "The syntax tree of Python expressions as an inductive type, the visitor as a recursive function; an independent list of the occurrences of names, compared by induction.",
 "C187": "The functions over real coordinates, with the orientation of C79.",
 "C188": "A heap of vector objects; one step per operator; induction on the history.",
 "C189": "The step function of C188 computed on each class; the failing classes are refuted.",
 "C190": "The comparison of numpy on arrays of 2 and 3 numbers; symmetry is refuted for every relative tolerance in (0, 1).",
 "C191": "Rounding on an ordered field with floor; an invariant of the heap.",
 "C192": "Models `Painters` and `DxfImport` composed; ezdxf is assumed to give back the entities it was given. The basis of the knots 0 0 0 0 1 1 1 1 is computed.",
 "C193": "Model `LineTools` over an ordered field, over the reals where roots are taken.",
 "C194": "An object with its optional attributes; induction on the history. Refuted for all triangles and histories.",
 "C195": "sympy is a parameter, assumed exact; the division by the leading coefficient keeps the roots.",
 "C196": "Model `PolygonRest` over an ordered field; the loop over the edges by induction.",
 "C197": "The mapping of the curve on the line, which always raises, and the roots after it, with C195.",
 "C198": "Model `TexFigure` on top of the models of the buffers and of the painter; the text of the content is computed, with the template theorem of C71.",
 "C199": "Induction on the tiles of the model of C67; the cover fails with the tiler.",
 "C200": "The template is split in its pieces and filled with the theorem of C71; the two orientations give the same text.",
 "C201": "Model `MeasurementFile`: files are a dictionary, YAML and sympy are parameters that are inverse on what is saved; induction on the entries. The name of the codec is not one Python knows, so that the file is emptied and nothing is ever saved.",
 "C202": "Model of the lookup of an attribute with its fallback; exact condition, and the two ways it fails.",
 "C203": "`toSvg` on top of the model of the Qt painter; the y axis of the picture goes down while the transformation of the painter does not change it.",
 "C204": "Trees are an inductive type, `os.walk` is a recursive function on them; induction on the tree.",
 "C205": "`os.path.dirname` is modelled on texts; induction on the number of steps.",
 "C206": "A heap of dictionaries, one for each class that defines its state; induction on the history.",
 "C207": "The configuration is a nested dictionary; the options that change are listed and all the others are shown equal.",
 "C208": "The four numbers are compared with the rectangle; exact condition.",
 "C209": "The scene made by the model of `detail_scene` is given to the models of the painters; the items are visible and of z value 0, hence painted in their order, and what each painter makes of an item is a function of the mark of the operation.",
 "C210": "A path with its parts as mutable objects, each with the attributes it keeps, is a state; every reading is a function of the state. The invariant is that what is kept is what is computed from the path, and each reading is proved to keep it and to return the computed value.",
 "C211": "The setters are functions of the same state as in C210: the parts of the path are changed and what is kept is left.",
 "C212": "The files are lists of lines; the functions that search a word in them are modelled line by line, the reading of the frequency is a parameter.",
 "C213": "An array is its shape and its elements; the branches of the constructor are modelled one by one for the two classes.",
 "C214": "The effect of a matrix on a point is stated apart; both implications are proved for all matrices.",
 "C215": "The walk on a chain of edges is proved by induction on the chain: its result is on the chain and on the threshold, and nothing on its left is beyond.",
 "C216": "A second evaluation is run on the state left by the first one, values kept; what an operation places is shown to be a function of the vectors it refers to and of the values of its expressions.",
 "C217": "Strong induction on the operations: the values of the formulas of an operation are the ones of the environment of the points before it, and what it places depends on these values and on the vectors it refers to.",
 "C218": "The operations that are read (C160) are numbered in the order of the file and given to the evaluation (C29); what an element says is stated from its XML attributes alone.",
 "C219": "The round trip (C162) keeps names, references and formulas, so that the operations that are evaluated are equal.",
 "C220": "The scene of C172 is given to the painter of C155; the data of a curve is read by the parser of C60 and C61.",
 "C221": "The scene of C172 is given to the painter of C130 and C198; a name stands for the position which the document gives to it.",
 "C222": "C161 gives the operations, C218 their places, C172 the scene and C209 the page; the colour of a curve is read as a text, which is drawn as the colour it names.",
 "C223": "The pen and the marks of each element are specified from its attributes (Spec/ValDrawn.lean); C161 and C218 give the operations and their places, C172 the scene, C209, C220 and C221 what is saved.",
 "C224": "The two loops are modelled over the value yaml.load gives; their result is compared to the list of the fields of the document by induction.",
 "C225": "The grammar of Python for this part of its expressions is modelled by a reader of tokens and a parser by recursive descent. A formula is a tree with its text and its value (Spec/Formula.lean); the text rewritten by the code is read back as this tree by induction, and its evaluation is compared to the value.",
 "C226": "The loading of the cache is modelled with the caches of the measurements. The entries of the cache are found by induction over the loop and compared with a solution of the expressions (C25); the names given to Python are shown to be readable, so that C225 and C218 compose.",
 "C227": "C167, C226 and C222 are composed. The measurements of the set are related to the elements m of the document by the specification of reading, and the existence and uniqueness of the values follow from the exact criterion of C25, by recursion over the names needed in reverse order.",
 "C228": "Each eval_internal is shown to succeed exactly under a condition of the specification on the places so far; the state after a prefix is related to the names which are visible; the whole is by induction on the list.",
 "C229": "C228 is composed with the correspondence between elements and operations of C218; what an operation needs is restated on the attributes of the element.",
 "C230": "create is modelled as a function of the class attribute and the outcome of the constructor; induction over the calls.",
 "C231": "The property is a record with the notifications made; they are compared to the sequence without repetitions by induction.",
 "C232": "The handler returns the events shown; the name of a path is computed from its parts, and related to any directory and name.",
 "C233": "The disk, the compiler and the execution are parameters; the method returns the events and how it ends; each outcome is followed.",
 "C234": "The reader is that of C159–C165. The success of each loop is related to a condition on each of its elements, the modeling to the last item with an id, and the sketch to the operations that the elements describe.",
 "C235": "A save is the list of the states of the disk that it goes through, and its outcome. The file is emptied when it is opened and the bytes are appended in any number of writes. What is made before the file is opened cannot damage it.",
 "C236": "The tables are in the model, generated from the file. Each of their texts is a colour, which is checked by the kernel, so the theorem on the loading of any tables (C73) applies; the colour of a name is that of the first definition.",
 "C237": "The states of the disk of C235 are read with the reader of C164. Each of them has the old file or a beginning of the new bytes; the parser refuses a beginning or finds the whole document.",
 "C238": "The source of parse is a function of the disk, the path and the data; etree.fromstring is a parameter.",
 "C239": "The slots and the handlers are functions on states that also give the state after an exception. Induction on the events with an invariant: the viewport was never set, or its translation is computed from its size, its centre and its scale.",
 "C240": "Induction on the keys and on the buttons; 11^a 9^b is odd, hence is not a power of ten.",
 "C241": "Induction on the positions of the mouse: the displacements are added. The views after the wheel are computed.",
 "C242": "The launch of the program is a function of the argument, the signals of the engine, the outside world and the code of the event loop; induction on the signals.",
 "C243": "The items made by add_path for these paths are computed for all sizes; the points of the arcs are described by the coordinates of a quarter of circle.",
 "C244": "Induction on the list of the attributes.",
 "C245": "Both classes are records of attributes; the conversion to int is the floor or the ceiling.",
 "C246": "A run of the constructor is a tree of inner calls, executed by recursion with the class attribute and the list of the returned objects. Induction on the tree.",
 "C247": "The interleaving semantics of C06. An invariant: an accepted id is at most the value of the counter, and no other accepted call has it.",
 "C248": "The polygon is the record of its vertices and caches (C85). Induction on the questions: only is_convex writes the cache which is read. The vertices of a strictly convex polygon are distinct and no three are aligned, so that the scan of C89 succeeds.",
 "C249": "The object is the record of its attributes and of the polygon (Model/RegularObject.lean); the constructor takes arguments by position, since the inherited methods call it with points. Induction on the transformations; the centre of a circle through three vertices that are not aligned (C90) is unique.",
 "C250": "The constructor is called with vectors by position, as the inherited methods do (Model/SplineObject.lean). The two loops of the algorithm of de Boor and the insertion of a knot (C52, C53) commute with every map that keeps the weighted means of two points: induction on the loops, without hypothesis on the spline.",
 "C251": "The convex hull is the intersection of the half planes that contain the points. The point is the sum of the control points weighted by the basis functions (C53), which are not negative and sum to one on a span (C52); the box is the one of C84.",
 "C252": "The sum of the control points weighted by the basis functions (C53) has, on a span, degree + 1 terms (C52); the basis functions of degree 1 and, at a knot, those of degree 2 are computed for knots at distance 1.",
 "C253": "The weights of the four control points are not negative and sum to one; the derivatives of the polynomial are computed at both ends. The product of the two bases used by to_bezier is computed and compared with the quadratic uniform B-spline at three parameters (Model/UniformSpline.lean)."
}