{"id": "C01", "title": "Topological sort yields dependencies first", "statement": "Whenever DirectedAcyclicGraph.topological_sort() returns, the returned list contains every node of the graph exactly once, and for every edge added with connect_ancestor/add_edge the ancestor appears before the descendant. This holds whichever order Python's sets hand out nodes and descendants.", "quantifier": "every finite graph, every pop order of the node set and every iteration order of each descendant set", "why_tests_cant": "Set iteration order depends on object addresses; a test sees one order per run, and graphs are unbounded.", "anchors": ["Patro/Common/Graph/DirectedAcyclicGraph.py: DirectedAcyclicGraph.topological_sort"]}
{"id": "C02", "title": "Topological sort fails exactly on cyclic graphs", "statement": "topological_sort() raises NameError('Not a DAG') if and only if the graph has a directed cycle (a self-loop counts), whatever the iteration order; it always terminates. FALSE of this code for graphs deeper than the recursion limit of the interpreter, whose sort raises RecursionError; it holds below this limit.", "quantifier": "every finite graph, cyclic or not, every iteration order", "why_tests_cant": "Needs every graph and every schedule of set iteration; a missed back edge shows only on some shapes/orders.", "anchors": ["Patro/Common/Graph/DirectedAcyclicGraph.py: DirectedAcyclicGraph.topological_sort"]}
{"id": "C03", "title": "Breadth first search visits exactly the reachable nodes once", "statement": "node.breadth_first_search() terminates and yields each node reachable from the start node along descendant edges exactly once and nothing else, starting with the node itself, even on cyclic graphs; nodes come out in non-decreasing distance from the start.", "quantifier": "every finite graph, every start node, every descendant-set iteration order", "why_tests_cant": "Reachability over unbounded graphs and arbitrary set orders.", "anchors": ["Patro/Common/Graph/DirectedAcyclicGraph.py:DirectedAcyclicGraphNode.breadth_first_search"]}
{"id": "C04", "title": "Ancestor and descendant links stay mirror images", "statement": "After any sequence of add_node, connect_ancestor/add_edge and disconnect_ancestor calls, node a is an ancestor of node b exactly when b is a descendant of a; is_root/is_leaf and roots()/leafs() agree with the absence of incoming/outgoing edges; a disconnect of a non-edge raises KeyError and changes nothing.", "quantifier": "every history of graph operations of any length", "why_tests_cant": "An invariant over all call histories.", "anchors": ["Patro/Common/Graph/DirectedAcyclicGraph.py: connect_ancestor, disconnect_ancestor, roots, leafs"]}
{"id": "C05", "title": "Graph node ids are unique", "statement": "add_node with an id that is already registered raises NameError and leaves the graph unchanged; otherwise the id becomes resolvable with graph[id] and all previously registered ids still resolve to the same nodes.", "quantifier": "every history of add_node calls", "why_tests_cant": "Quantifies over all histories and ids.", "anchors": ["Patro/Common/Graph/DirectedAcyclicGraph.py: add_node, __getitem__"]}
{"id": "C06", "title": "Counter increments are never lost", "statement": "When any number of threads call AtomicCounter.increment(v) concurrently, once all calls have finished the counter holds the initial value plus the sum of all increments, for every interleaving.", "quantifier": "every number of threads, every increment value, every interleaving of their atomic steps", "why_tests_cant": "Interleavings cannot be enumerated by tests.", "anchors": ["Patro/Common/AtomicCounter.py: AtomicCounter.increment"]}
{"id": "C07", "title": "Concurrent increments return distinct values", "statement": "Two concurrent increment() calls on the same counter never return the same number (so that two operations never share an id). FALSE of this code for interleaved threads: the value is re-read after the lock is released; it holds for calls that do not overlap.", "quantifier": "every number of threads and every interleaving", "why_tests_cant": "The failing schedule needs a preemption between two bytecodes.", "anchors": ["Patro/Common/AtomicCounter.py: AtomicCounter.increment", "Patro/Common/Object.py: ObjectGlobalIdMixin"]}
{"id": "C08", "title": "Global ids are strictly increasing and unique", "statement": "In a single thread, the ids of successfully created objects form a strictly increasing sequence of integers, whatever mix of explicit ids and automatic ids is used and however many creations fail; an explicit id is accepted exactly when it is greater than every id given before, and a refused creation leaves the counter unchanged.", "quantifier": "every finite sequence of creations with or without explicit ids", "why_tests_cant": "All histories.", "anchors": ["Patro/Common/Object.py: ObjectGlobalIdMixin.__init__", "Patro/Common/AtomicCounter.py: set, increment", "Patro/Pattern/SketchOperation.py: SketchOperation.__init__"]}
{"id": "C09", "title": "Singleton metaclass creates one instance under every schedule", "statement": "For a class using SingletonMetaClass, the constructor body runs at most once and all calls, from any threads in any interleaving, that return do return that same instance.", "quantifier": "every number of threads and calls, every interleaving", "why_tests_cant": "Race freedom for all schedules.", "anchors": ["Patro/Common/Singleton.py: SingletonMetaClass.__call__"]}
{"id": "C10", "title": "The singleton decorator is only safe without overlap", "statement": "With the `singleton` class decorator, calls that do not overlap all return one instance created by the first call; with two overlapping threads a schedule exists in which two different instances are created and returned.", "quantifier": "every sequential history; existence of a bad interleaving", "why_tests_cant": "The bad schedule needs a preemption between test and set.", "anchors": ["Patro/Common/Singleton.py: singleton.__call__, singleton_func"]}
{"id": "C11", "title": "Closed and open pair iteration", "statement": "pairwise(s) yields exactly the consecutive pairs (s[i], s[i+1]) in order; closed_pairwise(s) yields those plus the closing pair (last, first), one pair per item; closed_iterator(s) yields s followed by its first item; pairwise/closed_iterator on an empty sequence raise (IndexError/ZeroDivisionError) and closed_pairwise yields nothing.", "quantifier": "every sequence of any length and item type", "why_tests_cant": "Length is unbounded; polygons/polylines use these everywhere.", "anchors": ["Patro/Common/IterTools.py: closed_iterator, pairwise, closed_pairwise"]}
{"id": "C12", "title": "Sliding windows", "statement": "multiwise(s, n) yields exactly the len(s)-n+1 contiguous windows of length n in order for n >= 1 (none when n > len(s)) and nothing for n = 0; closed_multiwise_index_iterator(N, n) yields N windows of n indices, all < N, the j-th entry of window i being (i+j) mod N.", "quantifier": "every sequence, every window size", "why_tests_cant": "Unbounded sizes and the shared-iterator mechanics.", "anchors": ["Patro/Common/IterTools.py: multiwise, closed_multiwise_index_iterator"]}
{"id": "C13", "title": "Trigonometric clamp", "statement": "trignometric_clamp(x) always lies in [-1, 1], equals x when x already lies there, is the nearest value of the interval otherwise, and is monotone; is_in_trignometric_range decides exactly membership.", "quantifier": "every number", "why_tests_cant": "Ranges over all numbers.", "anchors": ["Patro/Common/Math/Functions.py: trignometric_clamp, is_in_trignometric_range"]}
{"id": "C14", "title": "Quadratic solver is exact", "statement": "quadratic_root(a, b, c) returns exactly the real solutions of a x^2 + b x + c = 0: every returned number is a solution and every solution is returned; it returns None exactly when there is no real solution or when a = b = 0.", "quantifier": "every triple of real coefficients", "why_tests_cant": "Sign/degeneracy branches over a continuum of inputs.", "anchors": ["Patro/Common/Math/Root.py: quadratic_root"]}
{"id": "C15", "title": "XML attribute defaults and lookup", "statement": "Building an object from an XML element sets every declared attribute: to its decoded value if the XML attribute is present, to the declared default otherwise; XML attributes that are not declared never influence the object.", "quantifier": "every declared attribute list and every XML element", "why_tests_cant": "All declarations and elements.", "anchors": ["Patro/Common/Xml/Objectivity.py: XmlObjectAdaptator._init_from_xml"]}
{"id": "C16", "title": "XML object round trip", "statement": "For an object whose declared attributes have distinct XML names and codecs that decode what they encode, writing it with to_xml() and reading the element back gives the same attribute values, provided that attributes whose value is None have default None; extra to_xml keyword arguments override.", "quantifier": "every attribute list and attribute values", "why_tests_cant": "All objects and declarations.", "anchors": ["Patro/Common/Xml/Objectivity.py: to_xml, _init_from_xml"]}
{"id": "C17", "title": "Scalar attribute codecs round trip", "statement": "Bool attributes accept exactly 'true','1','false','0' and decode what to_xml writes; Int attributes decode the decimal text that to_xml writes for every integer; String attributes are identity.", "quantifier": "every boolean, integer and string; every input text for the boolean decoder", "why_tests_cant": "Unbounded integers and strings.", "anchors": ["Patro/Common/Xml/Objectivity.py: BoolAttribute, IntAttribute, StringAttribute"]}
{"id": "C18", "title": "Float list attribute round trip", "statement": "A non-empty list of numbers written by FloatListAttribute.to_xml is decoded to the same list (given a codec float(str(x)) = x producing no space or comma); the empty list is written as '' and cannot be read back.", "quantifier": "every list length and contents", "why_tests_cant": "Unbounded lists; separator selection depends on content.", "anchors": ["Patro/Common/Xml/Objectivity.py: FloatListAttribute"]}
{"id": "C19", "title": "Text element keeps its text", "statement": "An object built from an XML text element carries the element's text. FALSE of this code: the constructor overwrites the text read from XML with the keyword default '', so every text element read from XML has empty text.", "quantifier": "every XML text element", "why_tests_cant": "Universal statement over documents.", "anchors": ["Patro/Common/Xml/Objectivity.py: TextXmlObjectAdaptator.__init__"]}
{"id": "C20", "title": "Expression value cache", "statement": "Reading Expression.value any number of times evaluates the expression at most once until set_dirty() is called; a value that failed with NameError stays None until set_dirty(); after set_dirty() the next read re-evaluates with the calculator's current variables.", "quantifier": "every sequence of reads, environment changes and set_dirty calls", "why_tests_cant": "All histories.", "anchors": ["Patro/Pattern/Calculator.py: Expression.value, eval, set_dirty"]}
{"id": "C21", "title": "Rewriting of custom measurement names", "statement": "Before evaluation every @name in an expression is replaced by the Python name of that custom measurement. FALSE of this code when the expression holds two different custom names (only the last one is replaced, because each replacement restarts from the original text); it holds when there is exactly one distinct custom name.", "quantifier": "every expression text and measurement set", "why_tests_cant": "All texts.", "anchors": ["Patro/Pattern/Calculator.py: Expression._compile, _find_identifier"]}
{"id": "C22", "title": "Scan for identifiers terminates and finds every occurrence", "statement": "The scan for a function/measurement prefix terminates on every text and returns maximal identifiers: each found name starts with the prefix, continues with identifier characters only and is followed by the end of the text or a non-identifier character; no later occurrence is missed except one starting within a found name or directly after its terminating character.", "quantifier": "every text and prefix", "why_tests_cant": "Unbounded texts.", "anchors": ["Patro/Pattern/Calculator.py: Expression._find_identifier, _compile"]}
{"id": "C23", "title": "Measurement names are validated", "statement": "A measurement is created exactly when its name, after replacing spaces by underscores, has only alphanumeric characters and underscores; the stored name has no space, and validating a stored name again returns it unchanged.", "quantifier": "every name string", "why_tests_cant": "All strings.", "anchors": ["Patro/Measurement/Measurement.py: Measurement._validate_name"]}
{"id": "C24", "title": "Measurement set keeps the first definition", "statement": "After any sequence of add calls, looking up a name yields the measurement of the first successful add with that (validated) name; a duplicate add raises NameError and changes nothing; iteration gives insertion order and sorted_iter gives the same measurements in ascending name order.", "quantifier": "every history of add calls", "why_tests_cant": "All histories.", "anchors": ["Patro/Measurement/Measurement.py: MeasurementSet.add, __getitem__, sorted_iter"]}
{"id": "C25", "title": "Measurement formulas evaluate independently of naming", "statement": "The value of a measurement defined by a formula over other measurements is the number obtained by resolving all references. FALSE of this code in general: references are substituted one pass in name order, so a chain c -> b -> a with a < b stays unresolved; it holds when every reference points to a measurement substituted later in the order, or to a number.", "quantifier": "every set of formulas and names", "why_tests_cant": "Depends on alphabetical relation between names along dependency chains of any length.", "anchors": ["Patro/Measurement/Measurement.py: MeasurementSet.subs, Measurement.value"]}
{"id": "C26", "title": "Pattern scope registry", "statement": "scope(name) returns the earliest added, not removed scope with that name or None; scope(i) returns the i-th scope in insertion order with Python negative indices; remove_scope(name) removes exactly the earliest one with that name and is a no-op otherwise; other scopes keep their order.", "quantifier": "every history of add_scope/remove_scope", "why_tests_cant": "All histories, duplicate names.", "anchors": ["Patro/Pattern/Pattern.py: Pattern.add_scope, scope, remove_scope"]}
{"id": "C27", "title": "Sketch operations resolve to earlier operations", "statement": "An operation created through a sketch method can only reference operations already in that sketch: every reference given as id or name resolves to the latest earlier operation registered under that id/name, otherwise KeyError is raised and the sketch's operation list is unchanged; ids always resolve to the operation created with it unless a point is named after it.", "quantifier": "every history of operation creations", "why_tests_cant": "All histories, overriding names.", "anchors": ["Patro/Pattern/__init__.py", "Patro/Pattern/Sketch.py: _add_operation, get_operation", "Patro/Pattern/SketchOperation.py: _get_operation"]}
{"id": "C28", "title": "The sketch dependency graph is acyclic and creation order is a valid evaluation order", "statement": "After any sequence of operation creations and evaluations through the sketch API, every dependency edge goes from an earlier to a later operation, hence topological_sort on the sketch's graph never raises, and eval() evaluates every operation after all operations it depends on.", "quantifier": "every history of creations and evaluations", "why_tests_cant": "All histories.", "anchors": ["Patro/Pattern/Sketch.py: eval", "Patro/Pattern/SketchOperation.py: _connect_ancestor, connect_ancestor_for_expressions"]}
{"id": "C29", "title": "Sketch points satisfy their geometric definition", "statement": "After eval, an AlongLinePoint lies on the ray from first to second point at the given (signed) distance from the first; an EndLinePoint is at the given length and angle from its base point; a NormalPoint lies at the given length from the first point along the rotated normal; a PointOfIntersection takes x from the first and y from the second point; a LineIntersectPoint lies on both lines; the spline control points are at given angle/length from the end points.", "quantifier": "every point coordinates, lengths and angles for which evaluation succeeds", "why_tests_cant": "Continuum of inputs.", "anchors": ["Patro/Pattern/SketchOperation.py: *.eval_internal"]}
{"id": "C30", "title": "Rotation is a direct isometry", "statement": "Vector2D.rotate(a) preserves length, dot and cross products, is linear, rotate(a).rotate(b) = rotate(a+b), rotate(-a) undoes rotate(a); normal/anti_normal/parity are the rotations by +90, -90 and 180 degrees.", "quantifier": "every vector and angle", "why_tests_cant": "Continuum.", "anchors": ["Patro/GeometryEngine/Vector.py: rotate, normal, anti_normal, parity"]}
{"id": "C31", "title": "Dot and cross product laws", "statement": "dot is symmetric, bilinear and positive definite; cross is antisymmetric, bilinear and vanishes exactly for parallel vectors; dot^2 + cross^2 = |v|^2 |w|^2.", "quantifier": "every pair of vectors", "why_tests_cant": "Continuum.", "anchors": ["Patro/GeometryEngine/Vector.py: dot, cross, magnitude_square"]}
{"id": "C32", "title": "Projection and deviation decompose a vector", "statement": "For a non-null direction d, v equals its projection along d plus its deviation along the normal of d, and projecting is idempotent; cos_with/sin_with always lie in [-1,1] and, for non-null vectors, cos^2+sin^2=1.", "quantifier": "every vector pair with non-null direction", "why_tests_cant": "Continuum.", "anchors": ["Patro/GeometryEngine/Vector.py: projection_on, deviation_with, cos_with, sin_with"]}
{"id": "C33", "title": "Normalising gives a unit vector in the same direction", "statement": "to_normalised() of a non-null vector has length 1 and is a positive multiple of it; polar/from_angle vectors have the requested length.", "quantifier": "every non-null vector", "why_tests_cant": "Continuum.", "anchors": ["Patro/GeometryEngine/Vector.py: to_normalised, normalise, from_polar"]}
{"id": "C34", "title": "Transformation product composes", "statement": "Applying T2*T1 to a vector equals applying T1 then T2, for linear 2D and affine transformations, whenever the product succeeds; identity is neutral and products are associative on vectors.", "quantifier": "every pair/triple of transformations and every vector", "why_tests_cant": "Continuum.", "anchors": ["Patro/GeometryEngine/Transformation.py: __mul__, __imul__"]}
{"id": "C35", "title": "The identity type tag is trustworthy", "statement": "Whenever a transformation reports is_identity its matrix is the identity, so that geometry which skips identity transformations is not changed wrongly; the product's type tag follows the type lattice soundly.", "quantifier": "every transformation reachable by constructors and products", "why_tests_cant": "All construction histories.", "anchors": ["Patro/GeometryEngine/Transformation.py: type, is_identity, _mul_type", "Patro/GeometryEngine/Primitive.py: PointPrimitive.transform"]}
{"id": "C36", "title": "Affine transformations about a centre", "statement": "Rotation about a centre leaves the centre fixed and preserves distances; Translation shifts every point by its vector; the screen transformation is an involution.", "quantifier": "every centre, angle and point", "why_tests_cant": "Continuum.", "anchors": ["Patro/GeometryEngine/Transformation.py: AffineTransformation2D.Translation, RotationAt, Screen"]}
{"id": "C37", "title": "Transforming a primitive transforms each of its points", "statement": "primitive.transform(T, clone=True) leaves the original unchanged and gives a primitive whose points are the images of the points under T; with clone=False it updates in place; for an identity nothing changes.", "quantifier": "every point primitive and transformation", "why_tests_cant": "All primitives.", "anchors": ["Patro/GeometryEngine/Primitive.py: PointPrimitive.transform"]}
{"id": "C38", "title": "Line intersection is the common point", "statement": "For two non-parallel lines the returned point lies on both lines and is the only such point; for parallel lines the result is the 'parallel' answer (None).", "quantifier": "every pair of lines", "why_tests_cant": "Continuum.", "anchors": ["Patro/GeometryEngine/Line.py: intersection_abscissae, intersection"]}
{"id": "C39", "title": "Segment intersection test is exact for proper position", "statement": "Segment2D.intersect_with answers True exactly when the two segments share a point, for segments in general position, with the collinear/touching cases characterised exactly.", "quantifier": "every pair of segments", "why_tests_cant": "Continuum; degenerate configurations.", "anchors": ["Patro/GeometryEngine/Segment.py: intersect_with", "Patro/GeometryEngine/Triangle.py: triangle_orientation"]}
{"id": "C40", "title": "Distance from a point to a segment is minimal", "statement": "Segment2D.distance_to_point returns the minimum over all points of the segment of the distance to the given point.", "quantifier": "every segment and point", "why_tests_cant": "Continuum, case split.", "anchors": ["Patro/GeometryEngine/Segment.py: distance_to_point"]}
{"id": "C41", "title": "Point inside triangle", "statement": "Triangle2D.is_point_inside answers True exactly for the convex combinations of the three vertices (boundary handling characterised), independent of the orientation of the vertices. The edges join consecutive vertices and close.", "quantifier": "every non-flat triangle and point", "why_tests_cant": "Continuum.", "anchors": ["Patro/GeometryEngine/Triangle.py: is_point_inside, same_side, triangle_orientation"]}
{"id": "C42", "title": "Rectangle membership and area", "statement": "is_point_inside is True exactly for the points between the corner coordinates; the four edges join consecutive corners and the perimeter/area are those of the corner box.", "quantifier": "every rectangle and point", "why_tests_cant": "Continuum.", "anchors": ["Patro/GeometryEngine/Rectangle.py"]}
{"id": "C43", "title": "Polyline distance is the minimum over its edges", "statement": "Polyline2D.distance_to_point returns a distance achieved on some edge and not larger than that of any edge.", "quantifier": "every polyline and point", "why_tests_cant": "Unbounded number of edges.", "anchors": ["Patro/GeometryEngine/Polyline.py: distance_to_point"]}
{"id": "C44", "title": "Polygon area is the shoelace area", "statement": "The polygon area is invariant under translation and rotation, under cyclic renumbering of vertices, changes sign under reversal before the absolute value, and equals the triangle area for three points; it is only computed once, so a polygon transformed in place keeps reporting the old area.", "quantifier": "every polygon with at least three vertices", "why_tests_cant": "Unbounded vertex count, continuum.", "anchors": ["Patro/GeometryEngine/Polygon.py: _compute_area_barycenter, area"]}
{"id": "C45", "title": "Bezier split gives the same curve", "statement": "Splitting a quadratic or cubic Bezier curve at t gives two curves that trace exactly the curve on [0,t] and [t,1], joined at the split point.", "quantifier": "every control points and parameter", "why_tests_cant": "Continuum.", "anchors": ["Patro/GeometryEngine/Bezier.py: split_at_t"]}
{"id": "C46", "title": "Degree elevation preserves the curve", "statement": "QuadraticBezier2D.to_cubic returns a cubic with the same point at every parameter.", "quantifier": "every quadratic curve and parameter", "why_tests_cant": "Continuum.", "anchors": ["Patro/GeometryEngine/Bezier.py: QuadraticBezier2D.to_cubic"]}
{"id": "C47", "title": "Bezier curves interpolate end points and stay in the convex hull", "statement": "point_at_t(0)/point_at_t(1) are the end points; for t in [0,1] the point is a convex combination of the control points, thus inside their bounding box; the curve commutes with affine transformations.", "quantifier": "every curve, every t in [0,1], every affine map", "why_tests_cant": "Continuum.", "anchors": ["Patro/GeometryEngine/Bezier.py: point_at_t"]}
{"id": "C48", "title": "Fat line bounds the curve", "statement": "Every point of a cubic Bezier curve (t in [0,1]) has its signed distance to the base line within the fat line bounds.", "quantifier": "every cubic and t", "why_tests_cant": "Continuum.", "anchors": ["Patro/GeometryEngine/Bezier.py: fat_line"]}
{"id": "C49", "title": "Bezier basis matrices are inverse", "statement": "The cubic BASIS and INVERSE_BASIS matrices are inverse of each other, so that converting to polynomial coefficients and back is lossless; the polynomial form evaluates to the same points.", "quantifier": "every curve", "why_tests_cant": "Continuum.", "anchors": ["Patro/GeometryEngine/Bezier.py: BASIS, INVERSE_BASIS"]}
{"id": "C50", "title": "Uniform knot vectors are well formed", "statement": "For n control points and degree d the knot vector has n+d+1 entries, is non-decreasing, starts with d+1 equal knots and ends with d+1 equal knots; fewer than d+1 points is rejected.", "quantifier": "every n and d", "why_tests_cant": "Unbounded.", "anchors": ["Patro/GeometryEngine/Spline.py: BSpline2D.uniform_knots"]}
{"id": "C51", "title": "Span location", "statement": "span(t) returns the index i with knots[i] <= t < knots[i+1] for every t in the knot range (end value characterised), and raises ValueError outside.", "quantifier": "every knot vector and t", "why_tests_cant": "Unbounded.", "anchors": ["Patro/GeometryEngine/Spline.py: BSpline2D.span"]}
{"id": "C52", "title": "B-spline basis functions", "statement": "Basis functions are non-negative, vanish outside degree+1 spans (local support), and sum to one on the valid range.", "quantifier": "every non-decreasing knot vector, degree, index and parameter", "why_tests_cant": "Induction on degree; unbounded.", "anchors": ["Patro/GeometryEngine/Spline.py: basis_function"]}
{"id": "C53", "title": "De Boor evaluation equals the basis sum", "statement": "point_at_t computed by De Boor's algorithm equals the basis-function weighted sum of control points.", "quantifier": "every spline and t in range", "why_tests_cant": "Induction on degree.", "anchors": ["Patro/GeometryEngine/Spline.py: _deboor, _naive_point_at_t, point_at_t"]}
{"id": "C54", "title": "Knot insertion preserves the curve", "statement": "insert_knot(t) adds exactly one knot and one control point, keeps knots sorted, and the spline's points are unchanged.", "quantifier": "every spline, every inserted t, every evaluation parameter", "why_tests_cant": "Unbounded.", "anchors": ["Patro/GeometryEngine/Spline.py: insert_knot"]}
{"id": "C55", "title": "Angular domain membership", "statement": "AngularDomain.is_inside decides exactly the closed angular sector; a closed domain holds every angle.", "quantifier": "every domain and angle", "why_tests_cant": "Continuum.", "anchors": ["Patro/GeometryEngine/Mixin.py: AngularDomain"]}
{"id": "C56", "title": "Circle and segment intersection points", "statement": "Every point returned by Circle2D.intersect_segment lies on the circle and on the supporting line; None/no point is returned exactly when the line misses the circle (tangent case characterised).", "quantifier": "every circle and segment", "why_tests_cant": "Continuum, discriminant cases.", "anchors": ["Patro/GeometryEngine/Conic.py: Circle2D.intersect_segment"]}
{"id": "C57", "title": "Circle distance", "statement": "distance_to_point of a full circle is the minimum distance from the point to the circle; is_point_inside agrees with the signed distance.", "quantifier": "every circle and point", "why_tests_cant": "Continuum.", "anchors": ["Patro/GeometryEngine/Conic.py: signed_distance_to_point, distance_to_point, is_point_inside"]}
{"id": "C58", "title": "Path parts chain", "statement": "In a Path2D each part starts where the previous part stops; the first part starts at the path's start point; parts added to a closed path are ignored and the path stays unchanged.", "quantifier": "every history of path operations", "why_tests_cant": "All histories.", "anchors": ["Patro/GeometryEngine/Path.py: PathPart.start_point, Path2D._add_part, close"]}
{"id": "C59", "title": "Relative and absolute path commands agree", "statement": "A relative move by v and an absolute move to start+v define the same geometry; transforming the path maps every stop point through the transformation.", "quantifier": "every path and transformation", "why_tests_cant": "All histories.", "anchors": ["Patro/GeometryEngine/Path.py: to_absolute_point, apply_transformation"]}
{"id": "C60", "title": "SVG path data parsing terminates", "statement": "Parsing a path data attribute ends for every token sequence. FALSE of this code: a number following a close command makes the parser loop forever; it holds, with an exact result or an error, for all other inputs.", "quantifier": "every token sequence", "why_tests_cant": "Unbounded inputs, non-termination cannot be observed by a test.", "anchors": ["Patro/FileFormat/Svg/SvgFormat.py: PathDataAttribute.from_xml"]}
{"id": "C61", "title": "SVG path data grouping", "statement": "Parsed commands carry the number of arguments of the command, repeated argument groups become repeated commands and groups after a move-to become line-to, in the case of the move-to; writing parsed data back and re-parsing gives the same commands.", "quantifier": "every well-formed path data", "why_tests_cant": "Unbounded inputs.", "anchors": ["Patro/FileFormat/Svg/SvgFormat.py: PathDataAttribute"]}
{"id": "C62", "title": "SVG group state is scoped", "statement": "Drawing state set by a group applies to the group's children only. FALSE of this code: the state pushed for a group is never popped, so it leaks to following siblings; what holds is that the state applied to an item is the merge of all enclosing and preceding groups.", "quantifier": "every SVG tree", "why_tests_cant": "All trees.", "anchors": ["Patro/FileFormat/Svg/SvgFile.py: SvgDispatcher.on_group, RenderStateStack"]}
{"id": "C63", "title": "DXF bulge arcs", "statement": "The arc reconstructed for a polyline segment with a positive bulge is the one DXF means: its centre is at the distance of its radius from both vertices, it goes counter-clockwise from the first vertex to the second one over four times the angle whose tangent is the bulge, and its sagitta is the bulge times half the chord, on the right of the chord. For a negative bulge the reconstructed arc never is the DXF arc. A polyline gives one item for each pair of successive vertices.", "quantifier": "every pair of vertices and bulge", "why_tests_cant": "Continuum.", "anchors": ["Patro/FileFormat/Dxf/Polyline.py: PolylineVertex"]}
{"id": "C64", "title": "Scene draws items in z order", "statement": "z_value_iter yields exactly the visible items, in non-decreasing z value, insertion order among equal z.", "quantifier": "every scene", "why_tests_cant": "Unbounded.", "anchors": ["Patro/GraphicEngine/GraphicScene/Scene.py: z_value_iter"]}
{"id": "C65", "title": "Picking returns items within the radius sorted by distance", "statement": "item_at(position, radius) returns exactly the candidate items whose distance is at most the radius, sorted by distance.", "quantifier": "every scene, position and radius", "why_tests_cant": "Unbounded.", "anchors": ["Patro/GraphicEngine/GraphicScene/Scene.py: item_at"]}
{"id": "C66", "title": "Viewport mapping round trip and fit", "statement": "scene_to_viewport and viewport_to_scene are inverse; after fit_scene the whole scene area maps inside the viewport.", "quantifier": "every scene area and viewport size", "why_tests_cant": "Continuum.", "anchors": ["Patro/GraphicEngine/Painter/QtPainter.py: ViewportArea"]}
{"id": "C67", "title": "Tiling covers the scene", "statement": "The tiles of the tiler cover the whole bounding box. FALSE of this code when the number of rows and columns differ since row and column are exchanged; holds for square tilings.", "quantifier": "every bounding box and paper", "why_tests_cant": "Continuum.", "anchors": ["Patro/GraphicEngine/Painter/Painter.py: Tiler"]}
{"id": "C68", "title": "Paper sizes", "statement": "Width of size n+1... each format halves: the next size is obtained by halving the long side; landscape swaps width and height; unknown format names are rejected.", "quantifier": "every format and size index", "why_tests_cant": "All sizes.", "anchors": ["Patro/GraphicEngine/Painter/Paper.py: PaperSize"]}
{"id": "C69", "title": "Unit conversions are mutually consistent", "statement": "Typographic unit conversions between mm, inch and point compose consistently. FALSE for the inch<->point and mm->inch conversions of this code; holds for mm<->point and inch->mm.", "quantifier": "every length", "why_tests_cant": "Continuum.", "anchors": ["Patro/GraphicEngine/GraphicScene/TypographyUnit.py"]}
{"id": "C70", "title": "Yarn count conversions are consistent", "statement": "Converting a yarn count to another system and back gives the original. FALSE for den->tex and nm->tex; holds for the others.", "quantifier": "every count", "why_tests_cant": "Continuum.", "anchors": ["Patro/TextileTechnology/Yarn.py"]}
{"id": "C71", "title": "TeX template formatting inserts text verbatim", "statement": "The guillemet template formatter replaces exactly the guillemet placeholders and leaves all other braces as they are; environments are properly nested begin/end.", "quantifier": "every template and argument", "why_tests_cant": "All strings.", "anchors": ["Patro/GraphicEngine/TeX: Document._format, Environment"]}
{"id": "C72", "title": "Colour text form round trips", "statement": "Every 8-bit RGB colour written as '#rrggbb' is read back as the same colour; components outside 0..255 / 0..1 are rejected.", "quantifier": "all colours", "why_tests_cant": "16 million cases and text forms.", "anchors": ["Patro/GraphicStyle/Color/ColorDataBase.py: Color"]}
{"id": "C73", "title": "Databases keep the first definition", "statement": "In the colour and textile databases the first definition of a name wins and later ones never change it.", "quantifier": "every sequence of registrations", "why_tests_cant": "All histories.", "anchors": ["Patro/GraphicStyle/Color/__init__.py", "Patro/TextileTechnology"]}
{"id": "C74", "title": "Small numeric helpers", "statement": "cmp is an exact three way comparison (1, 0, -1) and antisymmetric; epsilon_float(a,b,e) is True exactly when b lies in [a-e, a+e] and is symmetric; sign(x)*|x| = x; middle(a,b) is half way.", "quantifier": "every pair of numbers and tolerance", "why_tests_cant": "universally quantified over all numbers", "anchors": ["Patro/Common/Math/Functions.py: cmp, epsilon_float, sign, middle"]}
{"id": "C75", "title": "Degenerate cubics", "statement": "When the discriminant of a cubic a x^3+b x^2+c x+d (a != 0) vanishes, the closed formulas of the cubic solver return exactly the real solutions.", "quantifier": "all real coefficients with a != 0 and zero discriminant", "why_tests_cant": "infinitely many coefficient triples; exactness is an algebraic identity", "anchors": ["Patro/Common/Math/Root.py: _cubic_root"]}
{"id": "C76", "title": "Attributes are inherited and overridden predictably", "statement": "The XML attributes of a class are exactly those declared in its body and in its ancestors; when a Python attribute name is declared several times the declaration of the class body takes effect, otherwise the one in effect in the last base class that knows the name.", "quantifier": "every class hierarchy with single or multiple inheritance", "why_tests_cant": "hierarchies are unbounded trees; a test covers one hierarchy", "anchors": ["Patro/Common/Xml/Objectivity.py: XmlObjectAdaptatorMetaClass.__init__, register_from_super_class"]}
{"id": "C77", "title": "Function calls in expressions are rewritten", "statement": "Every call such as Line_A_B, AngleLine_A_B or CurrentLength in an expression is rewritten into the Python call with the point names as arguments before evaluation, and nothing else is changed. FALSE of this code when the text of one call begins the text of another one (Line_A_B1 and Line_A_B10) and when CurrentLength is used twice; it holds for a single call.", "quantifier": "every expression text", "why_tests_cant": "the clash depends on point names and on which calls are combined; tests use a few names", "anchors": ["Patro/Pattern/Calculator.py: Expression._compile"]}
{"id": "C78", "title": "Reading a measurement fixes it", "statement": "Once the value of a measurement has been read, later additions to the set never change it; and once reading it has failed because a name was not resolved, it fails for ever, even after the missing measurement is added.", "quantifier": "every measurement set, measurement name and later sequence of additions", "why_tests_cant": "The claim ranges over all later histories of the set; the failure is sticky because of a cache, which a test that defines everything first never sees.", "anchors": ["Patro/Measurement/Measurement.py: Measurement.value", "Patro/Measurement/Measurement.py: Measurement.evaluated_expression"]}
{"id": "C79", "title": "Orientation is the polar angle", "statement": "For a non-null vector, orientation is its polar angle in degrees in (-180, 180] and together with the magnitude recovers the vector; angle_with gives the angle in (-180, 180] that turns the direction into the vector. The null vector is not rejected.", "quantifier": "every pair of non-null vectors", "why_tests_cant": "The result comes from an inverse tangent and a case split on the signs of the coordinates; all quadrants and axes must be covered for every vector.", "anchors": ["Patro/GeometryEngine/Vector.py: orientation, angle_with"]}
{"id": "C80", "title": "Distance to a line and projection on a line", "statement": "distance_to_line is the signed distance: its absolute value is the least distance from the point to the points of the line and it is positive exactly on the left of the line; a null direction raises ZeroDivisionError. projected_point is the foot of the perpendicular. The second half is FALSE of this code unless the direction vector has length 1 (or the foot is the base point).", "quantifier": "every line and point", "why_tests_cant": "least distance quantifies over all points of the line, and tests with unit directions never see the missing normalisation", "anchors": ["Patro/GeometryEngine/Line.py: Line2D.distance_to_line, projected_point, projected_abscissa"]}
{"id": "C81", "title": "Derived lines and sides", "statement": "get_y_from_x and get_x_from_y give the only point of the line with this coordinate; parallel and orthogonal lines pass through the given point with the right direction; shifted_parallel_line is everywhere at the given signed distance; point_at_distance is at this distance in the direction of the line; side_of, left_of, right_of and is_collinear agree with each other and with the line; share_vertex_with returns a common vertex if there is one; the center of a segment is halfway between its end points.", "quantifier": "every line, segment, point and distance", "why_tests_cant": "equalities between reals for all coordinates, including vertical, horizontal and null directions", "anchors": ["Patro/GeometryEngine/Line.py: Line2D", "Patro/GeometryEngine/Segment.py: Segment2D.side_of, left_of, right_of, is_collinear, share_vertex_with"]}
{"id": "C82", "title": "Segment contains a point", "statement": "contain_point tells whether the point lies on the segment. FALSE of this code: it tells whether the projection of the point on the line of the segment is at a signed distance between 0 and 1 of the first point.", "quantifier": "every segment and point", "why_tests_cant": "the answer is right on unit segments and collinear points, which is what a test would try", "anchors": ["Patro/GeometryEngine/Segment.py: Segment2D.contain_point"]}
{"id": "C83", "title": "Triangle area and bisectors", "statement": "The area of a triangle is half of base times height, does not depend on the order of the vertices or on translations and is positive exactly for a triangle that is not flat; bisector_vector0/1/2 and bisector_line0/1/2 bisect the angle at the vertex. The second half is FALSE of this code: they are the medians, which bisect the angle only when the two sides have the same length.", "quantifier": "every triangle", "why_tests_cant": "continuum of triangles; a test on an isosceles triangle cannot tell medians from bisectors", "anchors": ["Patro/GeometryEngine/Triangle.py: Triangle2D.area, bisector_vector0, bisector_line0"]}
{"id": "C84", "title": "Bounding box of points", "statement": "bounding_box of a primitive defined by points contains every point and each of its sides is reached by one of the points; it is None exactly for no point.", "quantifier": "every list of points", "why_tests_cant": "unbounded number of points", "anchors": ["Patro/GeometryEngine/BoundingBox.py: bounding_box_from_points", "Patro/GeometryEngine/Primitive.py: PointPrimitive.bounding_box"]}
{"id": "C85", "title": "is_simple detects self-intersections", "statement": "Polygon2D.is_simple is True exactly when no two edges of the polygon meet, apart from the vertex shared by consecutive edges. In particular every simple polygon is reported as simple.", "quantifier": "for every list of at least three vertices", "why_tests_cant": "The answer depends on all pairs of edges of an arbitrary list of vertices, and on a tolerance that a handful of polygons never meets.", "anchors": ["Patro/GeometryEngine/Polygon.py:Polygon2D._test_is_simple", "Patro/GeometryEngine/Polygon.py:Polygon2D.is_simple", "Patro/GeometryEngine/Segment.py:Segment2D.intersection"]}
{"id": "C86", "title": "Barycenter and orientation of a polygon", "statement": "Polygon2D.barycenter is the centre of mass of the region, that is the first moments of the fan of triangles divided by the signed area; is_clockwise is True exactly when the signed area is negative or null; point_barycenter is the mean of the vertices.", "quantifier": "for every list of at least three vertices for which an area is computed", "why_tests_cant": "The formulas sum over an unbounded list of vertices, which may be anywhere in the plane.", "anchors": ["Patro/GeometryEngine/Polygon.py:Polygon2D.barycenter", "Patro/GeometryEngine/Polygon.py:Polygon2D.is_clockwise", "Patro/GeometryEngine/Polygon.py:Polygon2D.point_barycenter"]}
{"id": "C87", "title": "Point in polygon", "statement": "Polygon2D.is_point_inside tells whether a point is in the region bounded by the polygon.", "quantifier": "for every polygon and every point", "why_tests_cant": "The crossing rule must be right for every relative position of the point and of the edges.", "anchors": ["Patro/GeometryEngine/Polygon.py:Polygon2D.is_point_inside", "Patro/GeometryEngine/Polygon.py:Polygon2D._winding_number_test"]}
{"id": "C88", "title": "is_convex recognises convex polygons", "statement": "Polygon2D.is_convex is True for every strictly convex polygon, whether its vertices are in counter-clockwise or in clockwise order; only polygons found simple are said to be convex.", "quantifier": "for every list of at least three vertices", "why_tests_cant": "Convexity is a condition on all the pairs of a side and a vertex, for polygons with any number of vertices.", "anchors": ["Patro/GeometryEngine/Polygon.py:Polygon2D._test_is_convex", "Patro/GeometryEngine/Polygon.py:Polygon2D.is_convex"]}
{"id": "C89", "title": "convex_hull returns the convex hull", "statement": "convex_hull returns vertices taken among the points, distinct and starting from the lowest leftmost one, such that every point is in their convex hull and on the left of every side of the polygon; the polygon is really counter-clockwise, as it is declared.", "quantifier": "for every list of distinct points", "why_tests_cant": "The scan works on a list of any length in any position; the invariant of its stack is a statement about all triples of points.", "anchors": ["Patro/GeometryEngine/Polygon.py:convex_hull", "Patro/GeometryEngine/Polygon.py:sort_point_for_graham_scan"]}
{"id": "C90", "title": "Regular polygons", "statement": "RegularPolygon(center, radius, n, angle) has n vertices at the distance radius from the center, starting at the given angle, n edges of length 2 radius sin(pi/n), is convex and has the area n radius^2 sin(2 pi/n)/2; fewer than three edges raise ValueError.", "quantifier": "for every center, radius, number of edges and angle", "why_tests_cant": "Any number of edges and any real radius and angle; the equalities are trigonometric identities.", "anchors": ["Patro/GeometryEngine/Polygon.py:RegularPolygon"]}
{"id": "C91", "title": "simplify stays close to the polygon", "statement": "Polygon2D.simplify(threshold) ends and keeps vertices of the polygon in their order; the vertices it removes are within threshold of the boundary of the result.", "quantifier": "for every polygon and every threshold", "why_tests_cant": "A loop with an index that wraps around, on any number of vertices; the errors accumulate along a run of removed vertices.", "anchors": ["Patro/GeometryEngine/Polygon.py:Polygon2D.simplify"]}
{"id": "C92", "title": "A transformation multiplied by a length gives the transformed length", "statement": "T * length returns the length multiplied by the factor by which T multiplies the distances between points (1 for a rotation, a translation or a reflection), and raises ValueError for the transformations that do not multiply all the distances by the same factor.", "quantifier": "all affine transformations built with the class methods and products, all lengths", "why_tests_cant": "the scale factor is read from one matrix coefficient and a type tag, so whether it is right depends on every history of products", "anchors": ["Patro/GeometryEngine/Transformation.py:Transformation.__mul__", "Patro/GeometryEngine/Conic.py:Circle2D.apply_transformation"]}
{"id": "C93", "title": "Lengths of angular domains, arcs and circles", "statement": "AngularDomain.length is the length of the sector on a unit circle (the full circle for a closed domain), Circle2D.perimeter is radius times this length, and a circle built from a start angle and a distance is the arc of this length.", "quantifier": "all domains, circles and distances", "why_tests_cant": "continuum of angles, clockwise and counter-clockwise domains", "anchors": ["Patro/GeometryEngine/Mixin.py:AngularDomain.length", "Patro/GeometryEngine/Conic.py:Circle2D.__init__", "Patro/GeometryEngine/Conic.py:Circle2D.perimeter"]}
{"id": "C94", "title": "Angles and points of a circle correspond", "statement": "point_at_angle gives a point of the circle; angle_for_point returns an angle in [0, 360) and inverts point_at_angle on the circle; tangent_at_angle touches the circle only at the point at this angle; point_at_distance is the point at the given arc length.", "quantifier": "all circles, angles and points", "why_tests_cant": "continuum of angles with quadrant case distinctions", "anchors": ["Patro/GeometryEngine/Conic.py:Circle2D.point_at_angle", "Patro/GeometryEngine/Conic.py:Circle2D.angle_for_point", "Patro/GeometryEngine/Conic.py:Circle2D.tangent_at_angle", "Patro/GeometryEngine/Conic.py:Circle2D.point_at_distance"]}
{"id": "C95", "title": "Transforming a circle gives its image", "statement": "For every transformation that keeps circles circles, the transformed circle (or arc) is the image of the circle (or arc); when the transformation is refused the circle is unchanged.", "quantifier": "all circles, arcs and transformations", "why_tests_cant": "all histories of transformations and all arcs", "anchors": ["Patro/GeometryEngine/Conic.py:Circle2D.apply_transformation"]}
{"id": "C96", "title": "Point of contact", "statement": "After eval, a PointOfContact lies on the circle of the given centre and radius and on the line of its two points; when the segment meets the circle it is a point of the segment, and a tangent line gives the tangent point.", "quantifier": "every segment, centre and radius", "why_tests_cant": "Continuum of inputs; the point chosen depends on the length and the direction of the segment.", "anchors": ["Patro/Pattern/SketchOperation.py: PointOfContact.eval_internal", "Patro/GeometryEngine/Conic.py: Circle2D.intersect_segment", "Patro/GeometryEngine/Segment.py: Segment2D.contain_point"]}
{"id": "C97", "title": "Length of a quadratic Bezier curve", "statement": "The length of a quadratic Bezier curve is the integral of its speed from 0 to 1.", "quantifier": "every three control points", "why_tests_cant": "A continuum of control points; the closed form has degenerate cases which samples miss.", "anchors": ["Patro/GeometryEngine/Bezier.py: QuadraticBezier2D.length"]}
{"id": "C98", "title": "Length of a cubic Bezier curve", "statement": "The length of a cubic Bezier curve is computed in finitely many steps from consecutive parts of the curve, each within the interpolation precision of its quadratic approximation, and differs from the integral of the speed by at most a known error per part.", "quantifier": "every four control points", "why_tests_cant": "A loop whose number of turns depends on real numbers; an error bound over all curves.", "anchors": ["Patro/GeometryEngine/Bezier.py: CubicBezier2D.adaptive_length_approximation", "Patro/GeometryEngine/Bezier.py: CubicBezier2D.length", "Patro/GeometryEngine/Bezier.py: CubicBezier2D.mid_point_quadratic_approximation"]}
{"id": "C99", "title": "The part of a Bezier curve between two parameters", "statement": "split_at_two_t gives the part of the curve between the two parameters, in whatever order they are given, and the point for equal parameters.", "quantifier": "every Bezier curve and pair of parameters", "why_tests_cant": "All curves and all pairs of parameters.", "anchors": ["Patro/GeometryEngine/Bezier.py: BezierMixin2D.split_at_two_t"]}
{"id": "C100", "title": "The point of a Bezier curve closest to a point", "statement": "closest_point returns a point of the curve at the least distance from the given point, and distance_to_point this distance.", "quantifier": "every Bezier curve and every point", "why_tests_cant": "Minimality ranges over all parameters of all curves.", "anchors": ["Patro/GeometryEngine/Bezier.py: CubicBezier2D.closest_point", "Patro/GeometryEngine/Bezier.py: QuadraticBezier2D.closest_point", "Patro/GeometryEngine/Bezier.py: BezierMixin2D.distance_to_point"]}
{"id": "C101", "title": "Area of a cubic Bezier curve", "statement": "The area of a cubic Bezier curve is the signed area between the curve and its chord, whatever the position of the curve.", "quantifier": "every four control points", "why_tests_cant": "An integral over every curve, and all translations of it.", "anchors": ["Patro/GeometryEngine/Bezier.py: CubicBezier2D.area"]}
{"id": "C102", "title": "A curve said to be flat enough is near its chord", "statement": "When is_flat_enough holds for a flatness, every point of the curve is within this flatness of the point of the chord of the same parameter.", "quantifier": "every cubic Bezier curve and flatness", "why_tests_cant": "All points of all curves.", "anchors": ["Patro/GeometryEngine/Bezier.py: CubicBezier2D.is_flat_enough"]}
{"id": "C103", "title": "Tangent of a Bezier curve", "statement": "tangent_at is, up to the degree of the curve, the derivative of the point with respect to the parameter.", "quantifier": "every Bezier curve and parameter", "why_tests_cant": "A limit at every parameter of every curve.", "anchors": ["Patro/GeometryEngine/Bezier.py: CubicBezier2D.tangent_at", "Patro/GeometryEngine/Bezier.py: QuadraticBezier2D.tangent_at"]}
{"id": "C104", "title": "Interpolated length of a Bezier curve", "statement": "interpolated_length ends for every positive step; it is between the distance of the end points and the length of the curve, and tends to this length with the step.", "quantifier": "every Bezier curve and every step", "why_tests_cant": "A limit, over all curves; termination for all real steps.", "anchors": ["Patro/GeometryEngine/Bezier.py: BezierMixin2D.interpolated_length"]}
{"id": "C105", "title": "Parameter at a given length", "statement": "t_at_length returns, for each length from 0 to the length of the curve, a parameter at which the length from the start is the given one up to the precision; it rejects any other length.", "quantifier": "every Bezier curve and length", "why_tests_cant": "All lengths on all curves.", "anchors": ["Patro/GeometryEngine/Bezier.py: BezierMixin2D.t_at_length", "Patro/GeometryEngine/Bezier.py: BezierMixin2D.length_at_t"]}
{"id": "C106", "title": "Conversion of B-splines to Bezier curves", "statement": "to_bezier gives one Bezier curve per span of the spline, and each curve traces the spline on its span.", "quantifier": "every spline without given knots and every parameter", "why_tests_cant": "Unbounded number of points and spans; reals.", "anchors": ["Patro/GeometryEngine/Spline.py: to_bezier_form, to_bezier"]}
{"id": "C107", "title": "Clone of a path", "statement": "The clone of a path succeeds and is equal to the path: same start point, same parts, same closed state.", "quantifier": "every history of path operations", "why_tests_cant": "All histories and kinds of parts.", "anchors": ["Patro/GeometryEngine/Path.py: Path2D.clone, PathSegment.clone, CubicBezierSegment.clone"]}
{"id": "C108", "title": "Rounded corners of a path are tangent arcs", "statement": "A corner with a radius is rounded by an arc of this radius, tangent to both parts at the points where they are cut, on the inner side of the turn, and drawn over the angle of the turn.", "quantifier": "every corner, pair of directions and radius", "why_tests_cant": "Continuous inputs.", "anchors": ["Patro/GeometryEngine/Path.py: LinearSegment.bulge_center, bulge_start_point, bulge_stop_point, bulge_geometry"]}
{"id": "C109", "title": "The direction of a part follows the transformations", "statement": "After a transformation the direction of a linear part is the one of its transformed points, whatever was asked before.", "quantifier": "every path, history of queries and transformation", "why_tests_cant": "All interleavings of queries and transformations.", "anchors": ["Patro/GeometryEngine/Path.py: LinearSegment.direction, _reset_cache, Path2D.apply_transformation"]}
{"id": "C110", "title": "An SVG path is read as the curve it describes", "statement": "The geometry built from the path data of an SVG path is the curve the SVG specification gives to these commands: every command draws its part from the current point, absolute and relative.", "quantifier": "every sequence of path commands", "why_tests_cant": "Command sequences are unbounded and their coordinates continuous.", "anchors": ["Patro/FileFormat/Svg/SvgFormat.py: PathDataAttribute.from_xml, to_geometry"]}
{"id": "C111", "title": "An SVG transform attribute is read as the transformation it denotes", "statement": "The transform attribute is read as the composition of the transformations in its list, applied from right to left, whatever the separators SVG allows between numbers, and a transformation written by the library is read back as the same.", "quantifier": "every transform attribute", "why_tests_cant": "Texts and numbers are unbounded.", "anchors": ["Patro/FileFormat/Svg/SvgFormat.py: TransformAttribute.from_xml, to_xml, to_python"]}
{"id": "C112", "title": "SVG lengths keep their value and unit", "statement": "A length attribute is read as its number with its unit or percentage, and written back as the same length.", "quantifier": "every number and unit", "why_tests_cant": "All numbers and units.", "anchors": ["Patro/FileFormat/Svg/SvgFormat.py: PercentLengthAttribute, PercentValue, UnitValue"]}
{"id": "C113", "title": "SVG attributes are inherited from groups", "statement": "An element which does not specify an attribute has the value of the innermost group which specifies it; one it specifies wins; transformations are composed, the outermost applied last.", "quantifier": "every state, class of element and attribute", "why_tests_cant": "All nestings, classes and attribute values.", "anchors": ["Patro/FileFormat/Svg/SvgFile.py: RenderState.merge, RenderState.clone, RenderState.to_python", "Patro/FileFormat/Svg/SvgFormat.py: PresentationAttributes, StrokeMixin"]}
{"id": "C114", "title": "An SVG style attribute sets the properties it declares", "statement": "Each declaration of a style attribute sets its property; the last declaration of a property wins, and wins over the attribute of the same name; a final semicolon is allowed.", "quantifier": "every style text", "why_tests_cant": "Style texts are unbounded.", "anchors": ["Patro/FileFormat/Svg/SvgFile.py: RenderState.merge"]}
{"id": "C115", "title": "An SVG document written by the library can be read by it", "statement": "Comments are ignored when a document is read; in particular every document made by the SVG writer can be read back.", "quantifier": "every document", "why_tests_cant": "All documents.", "anchors": ["Patro/FileFormat/Svg/SvgFile.py: SvgDispatcher.on_root, element_tag, SvgFileWriter._new_root, _write"]}
{"id": "C116", "title": "Every graphic element of SVG is read by the class of its tag", "statement": "Circles, ellipses, lines, paths, polylines, polygons and rectangles are each read as an object of their own class, with their attributes.", "quantifier": "every document", "why_tests_cant": "All documents.", "anchors": ["Patro/FileFormat/Svg/SvgFile.py: SvgDispatcher.__TAGS__, __TAGS_TO_READ__, from_xml, on_graphic_item", "Patro/FileFormat/Svg/SvgFormat.py: Polygon, Ellipse"]}
{"id": "C117", "title": "The spatial index of a scene follows its items", "statement": "After any sequence of calls the index holds at most one entry per item and only items of the scene; a successful update leaves exactly one entry for each item to be updated, with the bounding box of its geometry.", "quantifier": "every sequence of calls on a scene, every kind of item", "why_tests_cant": "Histories are unbounded.", "anchors": ["Patro/GraphicEngine/GraphicScene/Scene.py: update_rtree, update_rtree_item"]}
{"id": "C118", "title": "A dirty item is computed again", "statement": "When a coordinate is moved and the items that use it are marked as dirty, the next update of the index and the next picking use the new position; every item of the scene is in the index after an update.", "quantifier": "every history, coordinate, item", "why_tests_cant": "Depends on the order of calls.", "anchors": ["Patro/GraphicEngine/GraphicScene/GraphicItemMixin.py: dirty, geometry, bounding_box", "Patro/GraphicEngine/GraphicScene/Scene.py: update_rtree"]}
{"id": "C119", "title": "User data, selection and removal in a scene", "statement": "The items made for some user data are found again from it, in order; unselecting leaves no selected item and changes nothing else; a removed item is no longer in the scene.", "quantifier": "every history", "why_tests_cant": "Histories are unbounded.", "anchors": ["Patro/GraphicEngine/GraphicScene/Scene.py: add_item, remove_item, item_for_user_data, selected_items, unselect_items"]}
{"id": "C120", "title": "A chain of Bézier curves uses the points in turn", "statement": "bezier_path of degree 1, 2 or 3 with degree*n+1 points makes n items, item k having the points degree*k to degree*k+degree; any other degree or number of points is rejected and makes no item.", "quantifier": "every list of points and degree", "why_tests_cant": "All lengths.", "anchors": ["Patro/GraphicEngine/GraphicScene/Scene.py: bezier_path"]}
{"id": "C121", "title": "Named coordinates of a scene", "statement": "A name denotes the last position added under it, mapped by the transformation of the scene; adding a name does not change the others; unknown names are rejected.", "quantifier": "every scene, name and position", "why_tests_cant": "All histories.", "anchors": ["Patro/GraphicEngine/GraphicScene/Scene.py: add_coordinate, remove_coordinate, cast_position"]}
{"id": "C122", "title": "Yarn construction", "statement": "A yarn can be created from its linear density, with or without a twist type; it keeps them, and its denier and metric counts are those of the same linear density. FALSE of this code: leaving the twist type out always raises ValueError; with a twist type it holds.", "quantifier": "every non-null linear density and twist type", "why_tests_cant": "equalities between numbers for every count", "anchors": ["Patro/TextileTechnology/Yarn.py: Yarn"]}
{"id": "C123", "title": "Copies of colours and equality", "statement": "The clone of a colour has the same components and name; a colour made from another colour has the same components and name; two colours are equal exactly when their integer components are. FALSE of this code for a colour made from another colour: the components are quantised to multiples of 1/255 and the name is dropped.", "quantifier": "every colour", "why_tests_cant": "All real components.", "anchors": ["Patro/GraphicStyle/Color/ColorDataBase.py: Color.__init__, clone, __eq__"]}
{"id": "C124", "title": "Colours made from hue, saturation and value or lightness", "statement": "A colour made from its HSV or HLS components has these components again when they are read back from its red, green and blue ones; a missing component raises. FALSE of this code when a component is the integer 1, which is read as 1/255.", "quantifier": "every hue, saturation, value and lightness between 0 and 1", "why_tests_cant": "Continuum of colours; six sectors of the hue circle.", "anchors": ["Patro/GraphicStyle/Color/ColorDataBase.py: Color.__init__"]}
{"id": "C125", "title": "The stitch database has the stitches of its file", "statement": "After the stitch database is loaded every stitch of the file can be looked up. FALSE of this code: loading reads every entry and adds none.", "quantifier": "every content of the file", "why_tests_cant": "All files.", "anchors": ["Patro/TextileTechnology/StitchType.py: StitchDatabase.load"]}
{"id": "C126", "title": "Fabrics, seams and machines can be created and named", "statement": "A fabric, a seam name and a sewing machine can be made from their documented arguments. FALSE of this code: no fabric can be made, no seam has a name, and a machine is made only with its stitch types given under a misspelt keyword.", "quantifier": "all arguments", "why_tests_cant": "All combinations of arguments.", "anchors": ["Patro/TextileTechnology/Fabric.py: Fabric", "Patro/TextileTechnology/Seam.py: AstmSeam.name", "Patro/TextileTechnology/SewingMachine.py: SewingMachine"]}
{"id": "C127", "title": "Names of the TeX files", "statement": "The TeX and PDF files of a document have the given name, with the extension '.tex' or '.pdf' in place of a '.tex' extension. FALSE of this code for every name of three characters, which is lost, and the output directory always raises AttributeError.", "quantifier": "every file name", "why_tests_cant": "All strings.", "anchors": ["Patro/GraphicEngine/TeX/Document.py: Document.__init__, tex_filename, pdf_filename, output_directory"]}
{"id": "C128", "title": "TikZ path styles", "statement": "Every path style has a TikZ text that gives its width, its dash pattern and its colour, and different dash styles have different texts. FALSE of this code for the dash dot dot style (KeyError) and for a style without a colour (AttributeError).", "quantifier": "every path style", "why_tests_cant": "All styles, widths and colour names.", "anchors": ["Patro/GraphicEngine/TeX/Tikz.py: format_path_style"]}
{"id": "C129", "title": "A painter paints each item once in order", "statement": "Painting a scene paints each of its items exactly once, in the drawing order; at the first item that has no paint method, or whose method raises, it stops with an exception after having painted exactly the items before it.", "quantifier": "every scene and every set of paint methods", "why_tests_cant": "All scenes and all failing positions.", "anchors": ["Patro/GraphicEngine/Painter/Painter.py: Painter.paint"]}
{"id": "C130", "title": "TeX text of the items of a scene", "statement": "Texts, circles, segments and curves are written with their positions, style and content, whatever the characters of the text; the coordinates are defined before they are used. FALSE of this code for circles, whose radius is ignored, and for the other kinds of items, which raise NotImplementedError.", "quantifier": "every item and position", "why_tests_cant": "All texts and positions.", "anchors": ["Patro/GraphicEngine/Painter/TexPainter.py: TexPainter"]}
{"id": "C131", "title": "A clone of a graphic style is the same style", "statement": "The clone of a path or Bézier style has all its attributes. FALSE of this code: the clone of a path style loses the transparencies, cap and join styles, and the clone of a Bézier style loses its whole path style.", "quantifier": "every style", "why_tests_cant": "All combinations of attributes.", "anchors": ["Patro/GraphicEngine/GraphicScene/GraphicStyle.py: GraphicPathStyle.clone, GraphicBezierStyle._dict_keys"]}
{"id": "C132", "title": "Attributes of graphic styles", "statement": "Each attribute of a style is the one given by its keyword, converted by itself, or its documented default; the enumerated ones are given by member or number and anything else is rejected; the styles derived from a sketch style have its colour and width.", "quantifier": "every set of keyword arguments", "why_tests_cant": "All combinations of keywords and values.", "anchors": ["Patro/GraphicEngine/GraphicScene/GraphicStyle.py: GraphicPathStyle", "Patro/Pattern/SketchStyle.py: DetailSketchStyle"]}
{"id": "C133", "title": "Frame of an ellipse", "statement": "Ellipse2D.point_in_ellipse_frame gives the coordinates of a point along the two axes of the ellipse, point_from_ellipse_frame is its inverse, and both keep distances.", "quantifier": "every ellipse and every point of the plane", "why_tests_cant": "Continuum of centres, angles and points.", "anchors": ["Patro/GeometryEngine/Conic.py: Ellipse2D.point_in_ellipse_frame, point_from_ellipse_frame"]}
{"id": "C134", "title": "Points of an ellipse", "statement": "Ellipse2D.point_at_angle runs over the points that satisfy the equation of the ellipse and over no other point; start_point and stop_point are the points at the bounds of the domain.", "quantifier": "every ellipse with non-null radii, every angle, every point", "why_tests_cant": "Set equality over a continuum.", "anchors": ["Patro/GeometryEngine/Conic.py: Ellipse2D.point_at_angle", "Patro/GeometryEngine/Mixin.py: AngularDomainMixin.start_stop_point"]}
{"id": "C135", "title": "Bounding box of an ellipse", "statement": "Ellipse2D.bounding_box is the smallest box that contains the ellipse, also after its attributes change.", "quantifier": "every ellipse and every history of updates", "why_tests_cant": "Continuum of ellipses, and the result depends on the history of a cache.", "anchors": ["Patro/GeometryEngine/Conic.py: Ellipse2D.bounding_box, Ellipse2D.major_vector"]}
{"id": "C136", "title": "Transformations of ellipses", "statement": "Ellipse2D.clone gives an equal ellipse, and Ellipse2D.transform gives the image of the ellipse.", "quantifier": "every ellipse and every transformation", "why_tests_cant": "Continuum of transformations.", "anchors": ["Patro/GeometryEngine/Conic.py: Ellipse2D.apply_transformation, Ellipse2D.clone"]}
{"id": "C137", "title": "Eccentricity and matrix of an ellipse", "statement": "Ellipse2D.eccentricity is the ratio of the focal distance to the major radius, and Ellipse2D.matrix is the matrix of the quadratic form of the ellipse.", "quantifier": "every ellipse", "why_tests_cant": "Identity over a continuum.", "anchors": ["Patro/GeometryEngine/Conic.py: Ellipse2D.eccentricity, Ellipse2D.matrix"]}
{"id": "C138", "title": "Distance to an ellipse", "statement": "Ellipse2D.distance_to_point is the distance to the nearest point of the ellipse, and is_point_inside decides the inside of the ellipse.", "quantifier": "every ellipse and every point", "why_tests_cant": "A minimum over infinitely many points, computed by bisection.", "anchors": ["Patro/GeometryEngine/Conic.py: Ellipse2D.distance_to_point, Ellipse2D._eberly_distance, Ellipse2D.is_point_inside"]}
{"id": "C139", "title": "Ellipse and segment intersection", "statement": "Ellipse2D.intersect_segment returns exactly the points of the supporting line that are on the ellipse.", "quantifier": "every ellipse and segment", "why_tests_cant": "Continuum, discriminant cases.", "anchors": ["Patro/GeometryEngine/Conic.py: Ellipse2D.intersect_segment"]}
{"id": "C140", "title": "Bézier curves of an ellipse", "statement": "Ellipse2D.to_bezier gives curves that start and stop at the ends of the arc, are joined with the same tangents, and stay along the whole arc within one part in 3600.", "quantifier": "every ellipse, every domain, every parameter of every curve", "why_tests_cant": "A bound on every point of every curve, and a covering of every angle.", "anchors": ["Patro/GeometryEngine/Conic.py: Ellipse2D.to_bezier, Ellipse2D._bezier_arc"]}
{"id": "C141", "title": "Arcs given by their ends", "statement": "Ellipse2D.svg_arc returns an arc of an ellipse with the given radii and angle that starts at the first point, stops at the second one, turns in the direction of the sweep flag and is long or short as the large arc flag says.", "quantifier": "all pairs of points, radii, angles and flags", "why_tests_cant": "Seven continuous parameters.", "anchors": ["Patro/GeometryEngine/Conic.py: Ellipse2D.svg_arc"]}
{"id": "C142", "title": "Constructors, area and flags of circles", "statement": "A circle built from two points passes through the second one around the first one, the diameter is the greatest distance between its points, its area is the measure of the disc, and the flags of an angular domain compare its bounds with a turn.", "quantifier": "every centre, point, radius and domain", "why_tests_cant": "Continuum; the area is a measure.", "anchors": ["Patro/GeometryEngine/Conic.py: Circle2D.__init__, from_two_points, area", "Patro/GeometryEngine/Mixin.py: AngularDomain"]}
{"id": "C143", "title": "Clones of circles", "statement": "A clone of a circle has the same value, and no later operation on the clone changes the circle.", "quantifier": "every circle and every sequence of operations on the clone", "why_tests_cant": "Unbounded histories over shared mutable objects.", "anchors": ["Patro/GeometryEngine/Conic.py: Circle2D.clone", "Patro/GeometryEngine/Mixin.py: AngularDomainMixin.domain, CenterMixin.center"]}
{"id": "C144", "title": "Intersections of circles", "statement": "Circle2D.intersect_circle returns exactly the common points of the two circles.", "quantifier": "every pair of circles", "why_tests_cant": "Continuum, tangent cases.", "anchors": ["Patro/GeometryEngine/Conic.py: Circle2D.intersect_circle"]}
{"id": "C145", "title": "Recentring a polygon", "statement": "Polygon2D.recenter translates a simple polygon so that its barycenter is the origin, whatever was called before, and calling it again changes nothing.", "quantifier": "every simple polygon and every history of calls", "why_tests_cant": "Continuum of polygons; histories of calls with caches and shared points.", "anchors": ["Patro/GeometryEngine/Polygon.py: Polygon2D.recenter, _compute_area_barycenter"]}
{"id": "C146", "title": "Axes of inertia of a polygon", "statement": "major_axis_angle, major_axis, minor_axis and axis_ratio of a simple polygon give the directions and sizes of its largest and smallest second moments about its center.", "quantifier": "every simple polygon", "why_tests_cant": "Continuum of polygons; the maximum over all directions.", "anchors": ["Patro/GeometryEngine/Polygon.py: Polygon2D._compute_inertia_moment, major_axis_angle, major_axis, minor_axis, axis_ratio"]}
{"id": "C147", "title": "Reversing a primitive", "statement": "reverse of a segment, polygon, polyline or curve gives the primitive with its points in the reverse order.", "quantifier": "every primitive class and every list of points", "why_tests_cant": "All classes and all lists of points.", "anchors": ["Patro/GeometryEngine/Primitive.py: PointPrimitive.reverse, ReversiblePrimitiveMixin.reverse"]}
{"id": "C148", "title": "Conversion of a primitive to a path or a polygon", "statement": "to_path of a polygon, triangle, rectangle or polyline is a path through its vertices, closed when the primitive is; to_polygon of a triangle or rectangle is the polygon with its vertices.", "quantifier": "every primitive and every list of points", "why_tests_cant": "Lists of any length over a continuum.", "anchors": ["Patro/GeometryEngine/Primitive.py: PathMixin.to_path, PolygonMixin.to_polygon, iter_from_second_point", "Patro/GeometryEngine/Polyline.py: Polyline2D.to_path"]}
{"id": "C149", "title": "Runs of consecutive points", "statement": "iter_on_nuplets(size) yields every run of size consecutive points of a primitive once, in order, and raises ValueError when size exceeds the number of points.", "quantifier": "every list of points and every size", "why_tests_cant": "Lists and sizes are unbounded.", "anchors": ["Patro/GeometryEngine/Primitive.py: PrimitiveNP.iter_on_nuplets"]}
{"id": "C150", "title": "A geometric object added to a scene covers its points", "statement": "add_geometry adds to a scene items which cover exactly the points of the given object, whatever its class, and keeps its arc of angle.", "quantifier": "every object of every class of the geometry engine", "why_tests_cant": "Continuum of objects; equality of sets of points.", "anchors": ["Patro/GraphicEngine/GraphicScene/Scene.py: GraphicSceneScope.add_geometry, add_spline", "Patro/GraphicEngine/GraphicScene/GraphicItem.py"]}
{"id": "C151", "title": "Geometry of an item in a transformed scene", "statement": "The geometry of an item in a scene with an affine transformation is the image by the transformation of what the item draws.", "quantifier": "every item and every affine transformation", "why_tests_cant": "Continuum of items and transformations.", "anchors": ["Patro/GraphicEngine/GraphicScene/GraphicItem.py: get_geometry", "Patro/GraphicEngine/GraphicScene/GraphicItemMixin.py: casted_position", "Patro/GraphicEngine/GraphicScene/Scene.py: cast_position"]}
{"id": "C152", "title": "A path added to a scene is drawn part by part", "statement": "add_path adds the lines, curves and arcs of the path in order, each from where the previous one stops; each corner with a radius is replaced by an arc of this radius tangent to both parts, and the parts stop and start at the ends of the arc.", "quantifier": "every path built by the methods of the library", "why_tests_cant": "Paths of any length over a continuum of points and radii.", "anchors": ["Patro/GraphicEngine/GraphicScene/Scene.py: add_path, add_as_path_segments", "Patro/GeometryEngine/Path.py: LinearSegment.points, bulge_geometry"]}
{"id": "C153", "title": "A path added to a scene as one item", "statement": "add_path with as_segments false adds one item with the lines, curves, arcs and rounded corners of the path, closed when the path is, and the item can be indexed.", "quantifier": "every path built by the methods of the library", "why_tests_cant": "Paths of any length over a continuum of points.", "anchors": ["Patro/GraphicEngine/GraphicScene/Scene.py: add_as_path, update_rtree", "Patro/GraphicEngine/GraphicScene/GraphicItem.py: PathItem"]}
{"id": "C154", "title": "Bounding box of a path", "statement": "The bounding box of a path is the smallest box which contains it.", "quantifier": "every path built by the methods of the library", "why_tests_cant": "Paths of any length over a continuum of points.", "anchors": ["Patro/GeometryEngine/Path.py: Path2D.bounding_box, PathSegment.geometry"]}
{"id": "C155", "title": "A scene painted in SVG shows each visible item once, at its place on the page", "statement": "The SVG document painted for a scene holds, after the style sheet, one element for each visible item, in the order of the z values and then of insertion, with the place of the item at ten millimetres per centimetre from the upper left corner of the bounding box of the scene, and with its colour, its line width and its dashes.", "quantifier": "every scene, every box, every item, every way to write a number", "why_tests_cant": "The order, the places and the styles have to be right for every scene; the tests draw one scene and do not read the file.", "anchors": ["Patro/GraphicEngine/Painter/SvgPainter.py:SvgPainter", "Patro/GraphicEngine/Painter/Painter.py:Painter.paint"]}
{"id": "C156", "title": "The SVG document has the size of the paper and the millimetre as unit", "statement": "The width and the height of the document are those of the paper in millimetres, its view box starts at 0 0 and has the same numbers, and the elements of the tree are its children in the same order.", "quantifier": "every paper size, every tree", "why_tests_cant": "It has to hold for every paper and every tree.", "anchors": ["Patro/FileFormat/Svg/SvgFile.py:SvgFileWriter._new_root", "Patro/FileFormat/Svg/SvgFile.py:SvgFileWriter._write"]}
{"id": "C157", "title": "A scene saved in DXF holds each visible item once, in millimetres", "statement": "The DXF file saved for a scene holds one entity for each visible item, in the order of the z values and then of insertion: a text at its place, a line between its two points, an open spline of degree 3 with its four control points, at ten units per centimetre, with the line type and the colour of the item; the driver is ezdxf unless another one is given.", "quantifier": "every scene, every item, every driver name", "why_tests_cant": "The entities have to be right for every scene; ezdxf is not needed to state which calls are made.", "anchors": ["Patro/GraphicEngine/Painter/DxfPainter.py:EzdxfPainter", "Patro/GraphicEngine/Painter/DxfPainter.py:DxfPainter", "Patro/GraphicEngine/Painter/Painter.py:Painter.paint"]}
{"id": "C158", "title": "A scene painted in PDF has each visible item once, at scale, inside the page", "statement": "The PDF page has the size of the paper; it shows each visible item once, in the order of the z values and then of insertion, at one centimetre per unit of the scene, with the lower left corner of the bounding box one centimetre from the sides, and with the style of the item; the driver argument is optional.", "quantifier": "every scene, every box, every paper size", "why_tests_cant": "The places have to be right for every scene and every box.", "anchors": ["Patro/GraphicEngine/Painter/PdfPainter.py:ReportlabPainter", "Patro/GraphicEngine/Painter/PdfPainter.py:PdfPainterBase.mm_to_pt", "Patro/GraphicEngine/Painter/PdfPainter.py:PdfPainter"]}
{"id": "C159", "title": "A scene shown with matplotlib has each visible item once, inside the axes", "statement": "The figure has one artist for each visible item, in the order of the z values and then of insertion, at its place in the scene with its radius, its colour, its line width and its line style; the axes leave a margin of one tenth of the larger side of the bounding box around it.", "quantifier": "every scene, every box", "why_tests_cant": "It has to hold for every scene; a figure is only looked at.", "anchors": ["Patro/GraphicEngine/Painter/MplPainter.py:MplPainter"]}
{"id": "C160", "title": "Reading the calculations of a Valentina file gives the operations its elements describe", "statement": "The operations of a sketch read from a .val file are those its elements describe, in the order of the file: the class is given by the tag and the type, each property by its attribute, a reference by the id of an earlier operation; elements that are known but not implemented are skipped, and anything else stops the reading with KeyError, ValueError, NameError or AttributeError.", "quantifier": "every list of elements, every attribute text, every value of the counter of ids", "why_tests_cant": "The files of the tests use a few kinds of elements; a file may hold any mixture in any order, with attributes missing or references that dangle.", "anchors": ["Patro/FileFormat/Valentina/Pattern.py:ValFileReader.read_piece", "Patro/FileFormat/Valentina/Pattern.py:CalculationDispatcher.from_xml", "Patro/FileFormat/Valentina/VitFormat.py:CalculationMixin.from_operation", "Patro/Pattern/SketchOperation.py:SketchOperation", "Patro/Pattern/Sketch.py:Sketch._add_operation"]}
{"id": "C161", "title": "Writing a sketch gives one element per operation that says the same thing", "statement": "A sketch built with the API is written as one element per operation, in order, with the tag and the type of its class, its id, the ids of the operations it refers to, the texts of its formulas, the name of its stroke style and the text of its colour.", "quantifier": "every sequence of calls of the API, including calls that raise", "why_tests_cant": "It has to hold for every sketch, with every class of operation and every optional argument.", "anchors": ["Patro/FileFormat/Valentina/Pattern.py:ValFileWriter._build_xml_tree", "Patro/FileFormat/Valentina/Pattern.py:CalculationDispatcher.from_operation", "Patro/FileFormat/Valentina/VitFormat.py:CalculationMixin.from_operation", "Patro/Common/Xml/Objectivity.py:XmlObjectAdaptator.to_xml"]}
{"id": "C162", "title": "A sketch written to a Valentina file and read back is the same sketch", "statement": "Writing the operations of a sketch and reading the elements in a new process gives operations with the same classes, ids, label offsets and properties.", "quantifier": "every sketch built with the API, every counter of ids below its ids", "why_tests_cant": "A round trip has to hold for every operation, value and order of operations.", "anchors": ["Patro/FileFormat/Valentina/Pattern.py:ValFileReader.read_piece", "Patro/FileFormat/Valentina/Pattern.py:ValFileWriter._build_xml_tree", "Patro/FileFormat/Valentina/VitFormat.py:Point", "Patro/FileFormat/Valentina/VitFormat.py:Spline", "Patro/FileFormat/Valentina/VitFormat.py:Line"]}
{"id": "C163", "title": "A Valentina file can be read again in the same process", "statement": "Reading the same calculations a second time, or reading back a sketch in the process that built it, gives the operations again.", "quantifier": "every list of elements, every sketch, every later value of the counter of ids", "why_tests_cant": "The counter of ids is shared by the whole process, so the outcome depends on everything done before.", "anchors": ["Patro/Common/Object.py:ObjectGlobalIdMixin", "Patro/Pattern/SketchOperation.py:SketchOperation.__init__", "Patro/FileFormat/Valentina/Pattern.py:ValFileReader.read_piece"]}
{"id": "C164", "title": "A pattern written to a Valentina file and read back is the same pattern", "statement": "Writing a pattern to a .val file and reading the file in a new process gives the same unit and the same scopes, in the same order, with the same names and the same operations.", "quantifier": "every pattern, with any number of scopes built with the API", "why_tests_cant": "It has to hold for every pattern, every interleaving of the scopes and every unit.", "anchors": ["Patro/FileFormat/Valentina/Pattern.py:ValFileReader.read", "Patro/FileFormat/Valentina/Pattern.py:ValFileReader.read_piece", "Patro/FileFormat/Valentina/Pattern.py:ValFileWriter._build_xml_tree", "Patro/Pattern/Pattern.py:Pattern"]}
{"id": "C165", "title": "A Valentina file is read completely or refused", "statement": "A .val file that is read has a unit, an element for the measurements and, for every piece, a name and its calculations, modeling and details; everything the file says about a piece is part of the pattern.", "quantifier": "every document", "why_tests_cant": "It has to hold for every document, including those with missing elements.", "anchors": ["Patro/FileFormat/Valentina/Pattern.py:ValFileReader.read", "Patro/FileFormat/Valentina/Pattern.py:ValFileReader.read_piece", "Patro/FileFormat/Valentina/Pattern.py:ValFileReader.read_detail", "Patro/FileFormat/Valentina/Pattern.py:ValFileReader.read_measurements"]}
{"id": "C166", "title": "A set of Valentina measurements holds what was added, under its names", "statement": "After any sequence of calls of add, a measurement is found under its name, in which @ is replaced by C_ and spaces by _, and a custom one also under its name with @; no other key is found. A bad name, a missing value, a value that is no expression and a name that is taken are refused and change nothing. A loop gives each measurement once, and expressions are evaluated as in a plain set in which the custom measurements are called C_….", "quantifier": "every sequence of calls of add, every key, every expression", "why_tests_cant": "The two names of custom measurements can collide with any other name in any order of the calls.", "anchors": ["Patro/Measurement/ValentinaMeasurement.py:ValentinaMeasurement", "Patro/Measurement/ValentinaMeasurement.py:ValentinaMeasurements", "Patro/Measurement/Measurement.py:MeasurementSet"]}
{"id": "C167", "title": "A .vit file gives the measurements and the personal data it describes", "statement": "Reading a .vit file gives one measurement per element m of body-measurements, in order, with its name, value, full name and description, and the customer, birth date, gender and e-mail of the element personal; the unit and the system of the measurements are those of the file. A file that lacks an element is refused.", "quantifier": "every document", "why_tests_cant": "It has to hold for every document: any number of measurements, any texts, elements missing or in any order.", "anchors": ["Patro/FileFormat/Valentina/Measurement.py:VitFileInternal.read", "Patro/FileFormat/Valentina/Measurement.py:XmlMeasurement", "Patro/FileFormat/Valentina/Measurement.py:VitFile", "Patro/Common/Xml/XmlFile.py:XmlFileMixin.get_xpath_element"]}
{"id": "C168", "title": "Personal data keep what they are given", "statement": "The attributes of personal data are the values that were given: texts, dates in the formats of ensure_date and ensure_datetime, a gender by its name in any case, its member or its number; anything that is not known is empty, and personal data made from the attributes of others are equal to them.", "quantifier": "every combination of arguments", "why_tests_cant": "It has to hold for all values of seven arguments.", "anchors": ["Patro/Measurement/PersonalData.py:PersonalData", "Patro/Measurement/PersonalData.py:Gender"]}
{"id": "C169", "title": "Dates are read from texts exactly", "statement": "ensure_date and ensure_datetime return dates as they are and read a text exactly when it is written in their format and names a date of the calendar; otherwise ValueError is raised. The text of a date is read back as the date.", "quantifier": "every text, every date of the years 1 to 9999, every time of the day", "why_tests_cant": "All texts and all dates are concerned, with leap years and one-digit months.", "anchors": ["Patro/Common/Datetime.py:ensure_date", "Patro/Common/Datetime.py:ensure_datetime"]}
{"id": "C170", "title": "Standard measurements are found under the name they were first added with", "statement": "After any sequence of calls of add, a name gives the first measurement added with it, a loop gives the measurements in the order they were added, and adding a name again raises NameError and changes nothing.", "quantifier": "every sequence of calls", "why_tests_cant": "It has to hold for every sequence of names, with repetitions anywhere.", "anchors": ["Patro/Measurement/StandardMeasurement.py:StandardMeasurement"]}
{"id": "C171", "title": "The bounding box of a sketch is the smallest that contains it", "statement": "After evaluation, Sketch.bounding_box is the smallest box that contains the positions of the points and the control points of the curves; it contains every point of every line and curve. A sketch without operation has no bounding box. If a point has no position, AttributeError is raised.", "quantifier": "every sequence of operations, every evaluated state, every parameter of a curve", "why_tests_cant": "It has to hold for any number of operations of any kinds and for all the points of the curves.", "anchors": ["Patro/Pattern/Sketch.py:Sketch.bounding_box", "Patro/Pattern/SketchOperation.py:Line.bounding_box", "Patro/Pattern/SketchOperation.py:SimpleInteractiveSpline.bounding_box"]}
{"id": "C172", "title": "detail_scene draws each operation of a sketch at its place", "statement": "detail_scene of an evaluated sketch gives a scene with, for each operation in order, a disc at the point, a line to its label, the label and the construction line, or the line or the curve; each item carries its operation as user data, the items of an operation are found through it, the coordinates are the positions of the points, and the box is the bounding box of the sketch.", "quantifier": "every sketch whose points have distinct names and whose lines have a style, every style", "why_tests_cant": "Any number of operations of eleven kinds share one scene, in which positions are looked up by name.", "anchors": ["Patro/Pattern/Sketch.py:Sketch.detail_scene", "Patro/GraphicEngine/GraphicScene/Scene.py:GraphicScene"]}
{"id": "C173", "title": "detail_scene draws any evaluated sketch", "statement": "detail_scene draws every evaluated sketch: points with the same name are drawn at their own positions, a label without offset has no line to it, and points without line style are drawn without construction line.", "quantifier": "every evaluated sketch", "why_tests_cant": "The failures depend on the names, the offsets and the styles of the operations.", "anchors": ["Patro/Pattern/Sketch.py:Sketch.detail_scene"]}
{"id": "C174", "title": "to_python gives the code that makes the operation", "statement": "to_python of an operation returns a Python call of its class with sketch and, for every parameter of the constructor, a literal of the value of the operation; operations with the same code have the same class and the same values.", "quantifier": "every class of operation, every value of its attributes", "why_tests_cant": "The names and expressions are arbitrary texts, put into code without escaping.", "anchors": ["Patro/Pattern/SketchOperation.py:SketchOperation.to_python", "Patro/Pattern/SketchOperation.py:SketchOperation._init_args"]}
{"id": "C175", "title": "A DXF file is imported entity by entity", "statement": "DxfImporter(path) gives one item per line, circle, arc, ellipse, light-weight polyline and spline of the model space, in their order, and skips the other entities. A line gives a segment with the same points; a circle, an arc and an ellipse give items with the same points; a polyline gives the list of its segments and arcs; a spline gives a spline with its control points and degree. The files which are refused are known, with their exception.", "quantifier": "every sequence of entities with every attributes", "why_tests_cant": "A drawing has any number of entities of any kinds, and the sets of points compared are infinite.", "anchors": ["Patro/FileFormat/Dxf/Importer.py:DxfImporter._read", "Patro/FileFormat/Dxf/Importer.py:DxfImporter._on_line", "Patro/FileFormat/Dxf/Importer.py:DxfImporter._on_circle", "Patro/FileFormat/Dxf/Importer.py:DxfImporter._on_arc", "Patro/FileFormat/Dxf/Importer.py:DxfImporter._on_ellipse", "Patro/FileFormat/Dxf/Importer.py:DxfImporter._on_polyline", "Patro/FileFormat/Dxf/Importer.py:DxfImporter._on_spline"]}
{"id": "C176", "title": "An imported circle, arc or ellipse has the points and the ends of the entity", "statement": "The item of a circle, an arc or an ellipse has exactly the points of the entity, starts and ends where it does, for any angles, any direction of the major axis and any extrusion direction; a whole ellipse is closed.", "quantifier": "every centre, radius, axis, ratio, angles and orientation", "why_tests_cant": "The failures depend on the direction of the axis, on the range of the angles and on the extrusion.", "anchors": ["Patro/FileFormat/Dxf/Importer.py:DxfImporter._on_circle", "Patro/FileFormat/Dxf/Importer.py:DxfImporter._on_arc", "Patro/FileFormat/Dxf/Importer.py:DxfImporter._on_ellipse"]}
{"id": "C177", "title": "An imported spline is the curve of the file", "statement": "The points of the item of a spline entity are those of the curve the entity means: the B-spline of its control points, degree, knots and weights, or the spline through its fit points.", "quantifier": "every list of control points, knots, weights and fit points, every degree, every parameter", "why_tests_cant": "Curves are compared at every parameter, and the knots are arbitrary.", "anchors": ["Patro/FileFormat/Dxf/Importer.py:DxfImporter._on_spline", "Patro/GeometryEngine/Spline.py:BSpline"]}
{"id": "C178", "title": "An arrow head is the triangle its parameters mean", "statement": "TriangularHead(point, direction, length, width, offset, left_side, right_side) is the triangle with its tip at the point, its base at the given length behind it and the two other corners at the given width on the left and on the right; angle is the angle at the tip. A head can have one side only or an axial offset, and can be transformed.", "quantifier": "every point, direction, length, width, offset and sides, every transformation", "why_tests_cant": "It is a statement on all directions and sizes, and the failures depend on the options.", "anchors": ["Patro/GeometryEngine/Shape/ArrowHead.py:TriangularHeadMixin", "Patro/GeometryEngine/Shape/ArrowHead.py:TriangularHead"]}
{"id": "C179", "title": "A curved arrow head is a closed path symmetric about its axis", "statement": "TriangularCurvyHead is a closed path made of a curve from the tip to the left corner, the base and a curve back to the tip; the curves leave the sides by the given depth times the length of the side, and are mirror images of each other in the axis of the head.", "quantifier": "every point, direction, length, width and depth", "why_tests_cant": "It is a statement on all directions, sizes and depths.", "anchors": ["Patro/GeometryEngine/Shape/ArrowHead.py:TriangularCurvyHead", "Patro/GeometryEngine/Path.py:Path2D"]}
{"id": "C180", "title": "The Qt painter draws every visible item at its place", "statement": "Painting a scene with the Qt painter draws, for each visible item and for no other, the figure of its class: the text, the image, the ellipse or arc, the line, the chain of lines, the polygon, the curve or the path, with the positions of the item moved to the device, from the lowest z value to the highest, in order of insertion among equal values.", "quantifier": "every scene, every number of items of every class, every device mapping", "why_tests_cant": "A scene has any number of items of any classes and levels; the device mapping is arbitrary.", "anchors": ["Patro/GraphicEngine/Painter/QtPainter.py:QtPainter.paint_CircleItem", "Patro/GraphicEngine/Painter/QtPainter.py:QtPainter.paint_SegmentItem", "Patro/GraphicEngine/Painter/QtPainter.py:QtPainter.paint_PathItem", "Patro/GraphicEngine/Painter/QtPainter.py:QtPainter.paint_QuadraticBezierItem", "Patro/GraphicEngine/Painter/Painter.py:Painter.paint"]}
{"id": "C181", "title": "An item is drawn with its own pen and brush", "statement": "Whatever was drawn before, an item is drawn with the colour, the width and the line styles of its own style, in red and four times as wide when it is selected, and filled with its own fill colour or not at all.", "quantifier": "every scene, every style, every state of the device", "why_tests_cant": "The pen is state kept between the items: it has to hold for every sequence of items drawn before.", "anchors": ["Patro/GraphicEngine/Painter/QtPainter.py:QtPainter._set_pen", "Patro/GraphicEngine/Painter/QtPainter.py:QtPainter.paint_TextItem"]}
{"id": "C182", "title": "The Qt painter draws an arc over the angles of the item", "statement": "The arc drawn for a circle or an ellipse item goes from its start angle to its stop angle anticlockwise, up to the resolution of a sixteenth of a degree, on the image of the circle or of the ellipse.", "quantifier": "every start and stop angle, centre, radii, scale and translation", "why_tests_cant": "The failures are at angles that differ by less than the resolution, and on devices with another orientation.", "anchors": ["Patro/GraphicEngine/Painter/QtPainter.py:QtPainter._paint_arc", "Patro/GraphicEngine/Painter/QtPainter.py:QtPainter.paint_EllipseItem", "Patro/GraphicEngine/Painter/QtPainter.py:ViewportArea.scene_to_viewport"]}
{"id": "C183", "title": "The grid shows all the multiples of its step in the visible area", "statement": "The grid is drawn under the items: with a thick pen the lines at all the multiples of the step within the visible area, in both directions and across the whole area, then with a thin pen those at the multiples of a tenth of the step. The step is the greatest power of ten that is not above the smallest side of the area, and at least ten.", "quantifier": "every visible area, of any size and place", "why_tests_cant": "The area is any rectangle with any bounds; lines on the borders and negative bounds are the failures one fears.", "anchors": ["Patro/GraphicEngine/Painter/QtPainter.py:QtPainter._paint_grid", "Patro/GraphicEngine/Painter/QtPainter.py:QtPainter._paint_axis_grid"]}
{"id": "C184", "title": "Setting the scene of a viewer fits it in the viewport", "statement": "When a scene is given to the viewer, the whole scene becomes visible, centred in the viewport.", "quantifier": "every scene with a box, every size of the viewport", "why_tests_cant": "It is a statement on all scenes and viewports.", "anchors": ["Patro/GraphicEngine/Painter/QtPainter.py:QtQuickPaintedSceneItem.scene", "Patro/GraphicEngine/Painter/QtPainter.py:ViewportArea.fit_scene"]}
{"id": "C185", "title": "A click selects the nearest item and no other", "statement": "After a click the only item selected is the one at the smallest distance of the place that was clicked, among those within the radius in pixels, and no item is selected if there is none within it.", "quantifier": "every history of the scene, every viewport, place and radius", "why_tests_cant": "It depends on the whole history of the scene: caches, index, selections.", "anchors": ["Patro/GraphicEngine/Painter/QtPainter.py:QtQuickPaintedSceneItem.item_at", "Patro/GraphicEngine/GraphicScene/Scene.py:GraphicSceneScope.item_at"]}
{"id": "C186", "title": "The dependencies of an expression are the points it refers to", "statement": "Analysing an expression records as its dependencies exactly the points that it refers to, in the order of the text; the analysis fails exactly when it refers to a point that does not exist.", "quantifier": "every expression, of any size and nesting, every set of points", "why_tests_cant": "Expressions are trees of any depth with any calls in any place.", "anchors": ["Patro/Pattern/Calculator.py:NodeVisitor", "Patro/Pattern/Calculator.py:Expression._compile"]}
{"id": "C187", "title": "The functions of a formula measure what their names say", "statement": "In a formula, Line_A_B is the distance of the two points, AngleLine_A_B the direction from the first to the second in degrees, CurrentLength the length of the segment being drawn, and the functions of a curve its length, its angles and the lengths of its control segments; an unknown point is an error.", "quantifier": "every sketch, every pair of points, every curve", "why_tests_cant": "The points and the curves are arbitrary.", "anchors": ["Patro/Pattern/Calculator.py:Calculator._function_Line", "Patro/Pattern/Calculator.py:Calculator._function_AngleLine", "Patro/Pattern/Calculator.py:Calculator._function_Spl"]}
{"id": "C188", "title": "Vectors do not share their coordinates", "statement": "No sum, product, copy or conversion of vectors shares data with its operands: over any history of operations a vector keeps its coordinates unless an in-place operator is applied to it.", "quantifier": "every history of operations on any number of vectors, with any exceptions in between", "why_tests_cant": "Aliasing shows only in some histories: a later in-place operator on another vector.", "anchors": ["Patro/GeometryEngine/Vector.py:Vector2DBase", "Patro/GeometryEngine/Vector.py:Vector2DBase.__add__", "Patro/GeometryEngine/Vector.py:Vector2D.__imul__", "Patro/GeometryEngine/Vector.py:Vector2DBase.clone"]}
{"id": "C189", "title": "The operators of vectors compute coordinate by coordinate", "statement": "Sums, differences, products by a number, quotients and opposites are computed coordinate by coordinate for all the classes of vectors, the in-place operators give the same result to the vector itself, and the sum has the class of its left operand.", "quantifier": "every pair of vectors of any classes, every number", "why_tests_cant": "It ranges over all coordinates and all pairs of classes.", "anchors": ["Patro/GeometryEngine/Vector.py:Vector2DBase.__add__", "Patro/GeometryEngine/Vector.py:Vector2DBase.__iadd__", "Patro/GeometryEngine/Vector.py:Vector2D.__itruediv__", "Patro/GeometryEngine/Vector.py:NormalisedVector2D.__mul__", "Patro/GeometryEngine/Vector.py:HomogeneousVector2D"]}
{"id": "C190", "title": "Equality of vectors is equality of coordinates", "statement": "Two vectors are equal exactly when their coordinates are; almost_equal is reflexive and symmetric and compares each coordinate with the tolerances.", "quantifier": "every pair of vectors of any classes, all tolerances", "why_tests_cant": "It ranges over all coordinates, classes and tolerances.", "anchors": ["Patro/GeometryEngine/Vector.py:Vector2DBase.__eq__", "Patro/GeometryEngine/Vector.py:Vector2DFloatBase.almost_equal"]}
{"id": "C191", "title": "Conversions to integers round as they say, and vectors of integers stay so", "statement": "rint rounds each coordinate to the nearest integer, halves to even; to_int_list and the construction of a vector of integers truncate towards zero; a vector of integers holds whole numbers after any history.", "quantifier": "every vector, every history of operations", "why_tests_cant": "All coordinates, with halves and negative numbers, and all histories.", "anchors": ["Patro/GeometryEngine/Vector.py:Vector2D.rint", "Patro/GeometryEngine/Vector.py:Vector2DBase.to_int_list", "Patro/GeometryEngine/Vector.py:Vector2DInt"]}
{"id": "C192", "title": "A scene saved as DXF and imported again is the same drawing", "statement": "Importing the DXF file a scene was saved to gives back the visible segments and curves of the scene, in the order they are painted, at the same place and with the same size.", "quantifier": "every scene of texts, circles, segments and cubic curves, every parameter of the curves", "why_tests_cant": "Scenes are arbitrary lists of items, and two curves are the same when all their points are, which are infinitely many.", "anchors": ["Patro/GraphicEngine/Painter/DxfPainter.py:EzdxfPainter", "Patro/FileFormat/Dxf/Importer.py:DxfImporter"]}
{"id": "C193", "title": "Lines meet boxes, measure distances and complete triangles", "statement": "The points of a line returned for a bounding box are on the line, inside the box, and the part of the line in the box is between them; the distance of two abscissae is the one of their points; the point of a line at a given distance of a point is at this distance, on the side asked.", "quantifier": "every line, box, point, distance and list of abscissae", "why_tests_cant": "The coordinates are arbitrary.", "anchors": ["Patro/GeometryEngine/Line.py:Line2D.get_x_y_from_bounding_box", "Patro/GeometryEngine/Line.py:Line2D.compute_distance", "Patro/GeometryEngine/Line.py:Line2D.triangle_projected_point", "Patro/GeometryEngine/Line.py:Line2D.is_parallel"]}
{"id": "C194", "title": "A triangle knows its perimeter, its angles and its centers", "statement": "The perimeter of a triangle is the sum of the lengths of its sides and the tests (equilateral, scalene, isosceles, right, obtuse, acute) are true exactly for the triangles they name, whatever was read before.", "quantifier": "every triangle, every history of reads", "why_tests_cant": "All triangles, and all orders of reading the cached values.", "anchors": ["Patro/GeometryEngine/Triangle.py:Triangle2D._cache_length", "Patro/GeometryEngine/Triangle.py:Triangle2D.perimeter", "Patro/GeometryEngine/Triangle.py:Triangle2D.is_equilateral"]}
{"id": "C195", "title": "The roots of a polynomial are its roots", "statement": "The functions for polynomials of degree 3 and 5, with a null leading coefficient or not, return exactly the real roots.", "quantifier": "every polynomial", "why_tests_cant": "The coefficients are arbitrary numbers.", "anchors": ["Patro/Common/Math/Root.py:cubic_root", "Patro/Common/Math/Root.py:fifth_root", "Patro/Common/Math/Root.py:cubic_root_normalised"]}
{"id": "C196", "title": "Polygons become triangles, count crossings and have names", "statement": "A polygon with three points that are not aligned converts to the triangle of these points and no other does; three points turn counter-clockwise, clockwise or are aligned, exactly one of them; the crossing number of a point says whether it is inside; a regular polygon has a name.", "quantifier": "every polygon, every three points", "why_tests_cant": "The points are arbitrary.", "anchors": ["Patro/GeometryEngine/Polygon.py:Polygon2D.to_triangle", "Patro/GeometryEngine/Polygon.py:Polygon2D._crossing_number_test", "Patro/GeometryEngine/Polygon.py:RegularPolygon2D.ngon_name", "Patro/GeometryEngine/Polygon.py:ccw"]}
{"id": "C197", "title": "The intersections of a Bézier curve are its common points", "statement": "The intersection of a quadratic or cubic curve with a line gives exactly the parameters of the common points, that of two cubic curves their common points; the end tangents have length 1 and the direction of the curve.", "quantifier": "every curve and line, every pair of curves", "why_tests_cant": "The control points are arbitrary.", "anchors": ["Patro/GeometryEngine/Bezier.py:QuadraticBezier2D.intersect_line", "Patro/GeometryEngine/Bezier.py:CubicBezier2D.intersect_line", "Patro/GeometryEngine/Bezier.py:CubicBezier2D._instersect_curve", "Patro/GeometryEngine/Bezier.py:QuadraticBezier2D.tangent1"]}
{"id": "C198", "title": "A detail figure of a TeX document shows the whole scene once", "statement": "Adding a detail figure to a TeX document keeps what the document had and adds one centred picture, at eight millimetres by unit, with the coordinates of the scene and then each item once, in order; when an item cannot be painted the method raises.", "quantifier": "every document, every scene", "why_tests_cant": "It has to hold for all scenes and all documents; tests only compile one drawing.", "anchors": ["Patro/GraphicEngine/Painter/TexPainter.py:TexPainter.add_detail_figure", "Patro/GraphicEngine/TeX/Environment.py:Center"]}
{"id": "C199", "title": "A tiled figure prints the whole scene at full size, one page for each tile", "statement": "A tiled figure has one picture for each tile of the page grid, in order, at ten millimetres by unit, with its row and column numbers, cut at the border of the tile, no larger than the page without its margins, and holding the whole scene; together the pictures show the whole scene.", "quantifier": "every scene, every bounding box, every paper size and margin", "why_tests_cant": "The grid depends on the sizes of the scene and of the paper; the cover of the plane is a statement on all points.", "anchors": ["Patro/GraphicEngine/Painter/TexPainter.py:TexPainter.add_tiled_detail_figure", "Patro/GraphicEngine/Painter/Painter.py:Tiler"]}
{"id": "C200", "title": "A TeX document has the page of its paper", "statement": "The preamble of the document sets the page to the name, the margin and the orientation of the paper, and is otherwise the same for all papers.", "quantifier": "every paper, every path", "why_tests_cant": "It ranges over all papers and both orientations.", "anchors": ["Patro/GraphicEngine/Painter/TexPainter.py:TexPainter.__init__", "Patro/GraphicEngine/Painter/TexPainter.py:TexPainter.paper_name"]}
{"id": "C201", "title": "Measurements saved in a YAML file are read back", "statement": "Saving a set of measurements writes a file that, loaded in an empty set, gives the same names with the same values, expressions and texts; loading a missing or a wrong file raises and keeps what was there.", "quantifier": "every set of measurements, every state of the files", "why_tests_cant": "It is a round trip over all sets of names and expressions, and depends on the order of side effects of the open of a file.", "anchors": ["Patro/Measurement/Measurement.py:MeasurementSet.save_as_yaml", "Patro/Measurement/Measurement.py:MeasurementSet.load_yaml", "Patro/Measurement/Measurement.py:Measurement.__init__"]}
{"id": "C202", "title": "A measurement is an attribute of its set", "statement": "The attribute of a set of measurements with the name of a measurement is this measurement; a name that is not there is told as for any object, so that hasattr answers no.", "quantifier": "every set of measurements, every name", "why_tests_cant": "It has to hold for all names, among them those of the methods of the set and those that the library asks for.", "anchors": ["Patro/Measurement/Measurement.py:MeasurementSet.__getattr__", "Patro/Measurement/Measurement.py:MeasurementSet.add"]}
{"id": "C203", "title": "A scene is rendered to a SVG picture as it is", "statement": "Rendering a scene to SVG with Qt gives a picture with the size of the bounding box at the scale asked for, in which each item is drawn once at its place and with the orientation of the scene.", "quantifier": "every scene, every scale, every point", "why_tests_cant": "It is a statement on all points of all scenes.", "anchors": ["Patro/GraphicEngine/Painter/QtPainter.py:QtPainter.to_svg", "Patro/GraphicEngine/Painter/QtPainter.py:QtPainter.paint"]}
{"id": "C204", "title": "A file is found wherever it is under the directories given", "statement": "Looking for a file name in directories returns the path of such a file in the first directory that has one at any depth, and raises NameError exactly when there is none; a single directory can be given instead of a list.", "quantifier": "every tree of directories, every list of directories, every name", "why_tests_cant": "It ranges over all trees; tests only have the tree of the library.", "anchors": ["Patro/Common/Path.py:find", "Patro/Config/ConfigInstall.py:Logging.find"]}
{"id": "C205", "title": "Parent directories", "statement": "The directory n steps up from an absolute path has the names of the path but the n last; the root is its own parent; steps add up.", "quantifier": "every path, every number of steps", "why_tests_cant": "It ranges over all depths and numbers of steps.", "anchors": ["Patro/Common/Path.py:parent_directory_of"]}
{"id": "C206", "title": "The objects of a monostate class share their attributes, and only they", "statement": "After any program, all objects of a class derived from monostate have the same attributes and see at once what is set on one of them; objects of other classes do not.", "quantifier": "every sequence of creations and assignments, every pair of objects", "why_tests_cant": "It has to hold after every history.", "anchors": ["Patro/Common/Singleton.py:monostate.__new__"]}
{"id": "C207", "title": "Logging is set up from the configuration file", "statement": "The configuration given to the logging module is that of the file with only the format of the console chosen for the system and the escape marks replaced; the level is the one of the environment.", "quantifier": "every configuration, every system, every level", "why_tests_cant": "It ranges over the systems, of which a test has one, and over all configurations.", "anchors": ["Patro/Common/Logging/Logging.py:setup_logging", "Patro/Config/ConfigInstall.py:OsFactory"]}
{"id": "C208", "title": "The view box of a SVG file is the one of its root", "statement": "The view box of a SVG file that is read is the rectangle its root gives by a corner and a size.", "quantifier": "every view box", "why_tests_cant": "It has to hold for all corners and sizes, not only for those of the library's own files.", "anchors": ["Patro/FileFormat/Svg/SvgFile.py:SvgFileInternal.on_svg_root"]}
{"id": "C209", "title": "What is printed is the sketch that was evaluated", "statement": "A sketch evaluated, drawn with detail_scene and given to a painter becomes a file with, for every operation and in their order, its points with their labels, its construction lines, its lines and its curves, at the positions computed by the evaluation, at a fixed scale; the page or the axes are placed by the bounding box of the sketch.", "quantifier": "every sketch, every evaluation, every style, the PDF, DXF and Matplotlib painters", "why_tests_cant": "It composes the evaluation, the scene and the painters and has to hold for all sketches; a test compares one file with itself.", "anchors": ["Patro/Pattern/Sketch.py:Sketch.detail_scene", "Patro/GraphicEngine/Painter/PdfPainter.py:ReportlabPainter", "Patro/GraphicEngine/Painter/DxfPainter.py:EzdxfPainter", "Patro/GraphicEngine/Painter/MplPainter.py:MplPainter"]}
{"id": "C210", "title": "Reading a path does not depend on what was read before", "statement": "The directions, bissectors, bulge angles, centres, points and arcs of the parts of a path are the same whatever was read of the path before, in any order, and reading does not change the path.", "quantifier": "every path, every history of readings, every part", "why_tests_cant": "The parts keep what they computed and ask their neighbours, so that the order of the readings matters unless every kept value is the one that would be computed; there are unboundedly many orders.", "anchors": ["Patro/GeometryEngine/Path.py:PathPart", "Patro/GeometryEngine/Path.py:LinearSegment", "Patro/GeometryEngine/Path.py:DirectionalSegment", "Patro/GeometryEngine/Path.py:PathSegment"]}
{"id": "C211", "title": "Edits of the parts of a path are seen by later readings", "statement": "After the radius, the point, the angle or the length of a part, or the start point of the path, was changed, the readings are the ones of a path made with the new values.", "quantifier": "every path, every history of readings, every edit", "why_tests_cant": "It depends on the readings made before the edit, of the part and of its neighbours; tests edit a path just made.", "anchors": ["Patro/GeometryEngine/Path.py:LinearSegment.radius", "Patro/GeometryEngine/Path.py:OnePointMixin.point", "Patro/GeometryEngine/Path.py:DirectionalSegment.length", "Patro/GeometryEngine/Path.py:Path2D.p0"]}
{"id": "C212", "title": "The platform is the one described by the files of Linux", "statement": "The number of cores, the name of the processor and the size of the memory are the ones of /proc/cpuinfo and /proc/meminfo.", "quantifier": "every content of /proc/cpuinfo and of /proc/meminfo", "why_tests_cant": "The files depend on the machine; a test reads the ones of the machine it runs on.", "anchors": ["Patro/Common/Platform.py:Platform"]}
{"id": "C213", "title": "A transformation is made from a list, an array or another transformation", "statement": "A list of numbers is the matrix of the transformation, row after row; an array of the right shape is kept; a transformation given to its class is copied; anything else is refused with ValueError. The type which is given is kept, and without a type it is found from the matrix.", "quantifier": "every list, array, number and transformation, every type, both classes", "why_tests_cant": "It ranges over all matrices, lengths and shapes and over the pairs of classes; the tests make transformations with the class methods only.", "anchors": ["Patro/GeometryEngine/Transformation.py:Transformation.__init__", "Patro/GeometryEngine/Transformation.py:Transformation.same_dimension"]}
{"id": "C214", "title": "The type found for a matrix is the effect of the matrix", "statement": "check_matrix_type answers identity, reflection of one or two axes, or scale exactly when the matrix has that effect on every point.", "quantifier": "every matrix, every point", "why_tests_cant": "It ranges over all matrices and all points.", "anchors": ["Patro/GeometryEngine/Transformation.py:Transformation2D.check_matrix_type"]}
{"id": "C215", "title": "Clipping the convex hull of a Bezier curve keeps what is in the band", "statement": "The hull of a curve is divided into its top and its bottom; clipping it by a band returns the first abscissa where the hull enters the band, and nothing when it does not.", "quantifier": "every curve, every hull, every band", "why_tests_cant": "It ranges over all hulls; the clipping is reached by no test.", "anchors": ["Patro/GeometryEngine/Bezier.py:CubicBezier2D._clipping_convex_hull", "Patro/GeometryEngine/Bezier.py:CubicBezier2D._clip_convex_hull", "Patro/GeometryEngine/Bezier.py:CubicBezier2D._clip_convex_hull_part"]}
{"id": "C216", "title": "Evaluating a sketch again", "statement": "Evaluating an evaluated sketch again changes nothing as long as the measurements are the same, and follows the measurements when they change.", "quantifier": "every sketch whose operations refer to earlier ones, every set of formulas, every change of the measurements", "why_tests_cant": "It ranges over all sketches, over the states left by a first evaluation and over all changes of measurements; no test evaluates a sketch twice.", "anchors": ["Patro/Pattern/Sketch.py:Sketch.eval", "Patro/Pattern/Calculator.py:Expression.value", "Patro/Pattern/Calculator.py:Expression.set_dirty", "Patro/Pattern/SketchOperation.py:SketchOperation.eval"]}
{"id": "C217", "title": "A change of measurements moves only what depends on it", "statement": "When a sketch is evaluated with two sets of measurements, an operation whose formulas, and those of everything it refers to or names, are not concerned by the change has the same points and values in both.", "quantifier": "every sketch, every two sets of values of the formulas, every operation, every set of operations closed under references and names", "why_tests_cant": "It compares two executions, for all sketches and all changes.", "anchors": ["Patro/Pattern/Sketch.py:Sketch.eval", "Patro/Pattern/SketchOperation.py", "Patro/Pattern/Calculator.py:Expression"]}
{"id": "C218", "title": "The points of a Valentina file are where the file says", "statement": "When the calculations of a .val file are read and the sketch is evaluated without exception, every point is at the place its element describes from the points it refers to by id and from the values of its formulas, and every spline has the control points its element describes; a formula sees the points that come before it in the file, under their names.", "quantifier": "every list of elements, every interpretation of the formulas, every position in the file", "why_tests_cant": "It ranges over all files and all formulas, and follows a file through the reading, the resolution of ids and names and the evaluation.", "anchors": ["Patro/FileFormat/Valentina/Pattern.py:ValFileReaderInternal.read_piece", "Patro/FileFormat/Valentina/VitFormat.py", "Patro/Pattern/SketchOperation.py", "Patro/Pattern/Sketch.py:Sketch.eval"]}
{"id": "C219", "title": "A sketch that is written and read back is evaluated to the same drawing", "statement": "A sketch made with the API, whose values the format can hold, is written to a .val file; the sketch that is read back has the same operations to evaluate, and its points and control points are the same under the same ids.", "quantifier": "every sketch made with the API, every interpretation of the formulas", "why_tests_cant": "It ranges over all sketches and compares the evaluation before and after a round trip.", "anchors": ["Patro/FileFormat/Valentina/Pattern.py", "Patro/FileFormat/Valentina/VitFormat.py", "Patro/Pattern/Sketch.py:Sketch.eval"]}
{"id": "C220", "title": "A sketch saved in a SVG file shows its points, lines and curves", "statement": "An evaluated sketch drawn with detail_scene and given to the SVG painter gives a document of the size of the paper, with one element for each mark of its operations, in their order, at the place computed by the evaluation.", "quantifier": "every sketch that is evaluated and whose lines have a style, every style of a sketch, every paper", "why_tests_cant": "It ranges over all sketches and follows them from the evaluation to the file.", "anchors": ["Patro/Pattern/Sketch.py:Sketch.detail_scene", "Patro/GraphicEngine/Painter/SvgPainter.py:SvgPainter", "Patro/FileFormat/Svg/SvgFormat.py:PathDataAttribute.from_xml"]}
{"id": "C221", "title": "A sketch added to a TeX document is drawn at the places computed", "statement": "An evaluated sketch drawn with detail_scene and added as a figure to a TeX document, tiled or not: the figure names the positions of its points and draws the marks of its operations, in their order, each at the positions computed by the evaluation, given by their coordinates or by the name of a point.", "quantifier": "every sketch that is evaluated and whose lines have a style, every style of a sketch, every document, every paper larger than its margins for the tiled figure", "why_tests_cant": "It ranges over all sketches and follows them from the evaluation to the text of the document.", "anchors": ["Patro/Pattern/Sketch.py:Sketch.detail_scene", "Patro/GraphicEngine/Painter/TexPainter.py:TexPainter", "Patro/GraphicEngine/TeX/Tikz.py:TikzFigure.format_path_style", "Patro/GraphicEngine/Painter/Painter.py:Tiler"]}
{"id": "C222", "title": "A Valentina file is printed as it describes its pattern", "statement": "The calculations of a .val file are read, evaluated, drawn with detail_scene and given to the PDF painter: the page has, for every element that is implemented and in the order of the file, the point with its label at its offset and its construction line, the line or the curve it describes, at the places of C218. When a line has no attribute typeLine, nothing is printed: detail_scene raises ValueError.", "quantifier": "every list of elements whose points have different names, every interpretation of the formulas, every style, every paper", "why_tests_cant": "It ranges over all files and follows them through the reader, the evaluation, the scene and the painter.", "anchors": ["Patro/FileFormat/Valentina/Pattern.py:ValFileReaderInternal.read_piece", "Patro/FileFormat/Valentina/VitFormat.py", "Patro/Pattern/Sketch.py:Sketch.eval", "Patro/Pattern/Sketch.py:Sketch.detail_scene", "Patro/GraphicEngine/Painter/PdfPainter.py:ReportlabPainter"]}
{"id": "C223", "title": "A Valentina file is drawn as it describes its pattern in DXF, Matplotlib, SVG and TeX", "statement": "The calculations of a .val file are read, evaluated, drawn with detail_scene and given to the DXF, Matplotlib or SVG painter, or added to a TeX document, tiled or not: what is saved has, for every element that is implemented and in the order of the file, the marks of the element: a disc, its label and its construction line for a point, a line or a curve, with the style and the colour of its attributes, at the places of C218.", "quantifier": "every list of elements whose points have different names, every interpretation of the formulas, every style, every paper", "why_tests_cant": "It ranges over all files and follows them through the reader, the evaluation, the scene and the painters.", "anchors": ["Patro/FileFormat/Valentina/Pattern.py:ValFileReaderInternal.read_piece", "Patro/FileFormat/Valentina/VitFormat.py", "Patro/Pattern/Sketch.py:Sketch.eval", "Patro/Pattern/Sketch.py:Sketch.detail_scene", "Patro/GraphicEngine/Painter/DxfPainter.py:EzdxfPainter", "Patro/GraphicEngine/Painter/MplPainter.py:MplPainter", "Patro/GraphicEngine/Painter/SvgPainter.py:SvgPainter", "Patro/GraphicEngine/Painter/TexPainter.py:TexPainter"]}
{"id": "C224", "title": "The catalogue of the standard measurements is loaded completely or not at all", "statement": "ValentinaStandardMeasurement() has, after its construction, the measurements of all the topics of its YAML document, in the order of the document, each with its code and found under its name, exactly if every topic has measurements, every measurement has four fields and no name occurs twice; otherwise the construction, and so the import of the module, raises KeyError, TypeError or NameError. The document that comes with the library is loaded.", "quantifier": "every document", "why_tests_cant": "A test can only load the document that comes with the library.", "anchors": ["Patro/Measurement/ValentinaStandardMeasurement.py:ValentinaStandardMeasurement", "Patro/Measurement/StandardMeasurement.py:StandardMeasurement", "Patro/Measurement/data/valentina-standard-measurements.yaml"]}
{"id": "C225", "title": "A formula has the value it denotes", "statement": "The value of a formula of a pattern is the one its text denotes: numbers are decimal, products bind more than sums, operations of the same strength associate to the left, a name stands for the measurement of this name and @name for the custom one, Line_A_B is the distance of two points, AngleLine_A_B the angle in degrees of the line from one to the other, and CurrentLength the length of the segment being drawn. A formula without value gives None or an exception, which has its reason in the formula.", "quantifier": "every formula made of numbers, measurements, custom measurements, Line, AngleLine, CurrentLength, parentheses, blanks, signs and the four operations, every set of measurements, every place of the points", "why_tests_cant": "It ranges over all the texts of formulas, of any depth; a test evaluates a few.", "anchors": ["Patro/Pattern/Calculator.py:Expression._compile", "Patro/Pattern/Calculator.py:Expression.eval", "Patro/Pattern/Calculator.py:Expression.value", "Patro/Pattern/Calculator.py:Calculator._function_Line", "Patro/Pattern/Calculator.py:Calculator._function_AngleLine", "Patro/Pattern/Calculator.py:Calculator._function_CurrentLength"]}
{"id": "C226", "title": "A Valentina file with measurements is placed as its formulas denote", "statement": "A calculator made with a set of measurements knows the value of each of them, rounded, under the name of the measurement, and nothing else. When the sketch of a Valentina file is evaluated with it, each point is where its element says and each spline has the control points its element says, every formula having the value that its text denotes with the measurements of the set, the custom ones by their name with @.", "quantifier": "every sequence of additions to a set of measurements, every solution of their expressions, every list of elements of a file, every element, every formula in the modelled part of the language", "why_tests_cant": "It ranges over all sets of measurements and all files; a test follows a few formulas of one file.", "anchors": ["Patro/Pattern/Calculator.py:Calculator.__init__", "Patro/Pattern/Calculator.py:Expression._compile", "Patro/Measurement/Measurement.py:Measurement.value", "Patro/Measurement/ValentinaMeasurement.py:ValentinaMeasurements.add", "Patro/FileFormat/Valentina/Pattern.py:ValFile.read", "Patro/Pattern/Sketch.py:Sketch.eval"]}
{"id": "C227", "title": "A pattern with its file of measurements is printed as both describe it", "statement": "A .vit file and the calculations of a .val file are read, the sketch is evaluated with the measurements and printed in PDF: the page has the marks of each element in the order of the file, at the places the elements say, the formulas having the values they denote when each measurement of the .vit file has the value of its expression, under its name. The measurements have values, only one each, whenever the calculator can be made, and it is made exactly if every name needed by a measurement is a measurement of the file which refers to later names; otherwise TypeError is raised.", "quantifier": "every document of measurements, every list of elements whose points have different names, every style, every paper", "why_tests_cant": "It ranges over all pairs of files; a test follows one pattern with one set of measurements.", "anchors": ["Patro/FileFormat/Valentina/Measurement.py:VitFileInternal.read", "Patro/FileFormat/Valentina/Pattern.py:ValFile.read", "Patro/Pattern/Calculator.py:Calculator.__init__", "Patro/Measurement/Measurement.py:Measurement.value", "Patro/Pattern/Sketch.py:Sketch.detail_scene", "Patro/GraphicEngine/Painter/PdfPainter.py:PdfPainter"]}
{"id": "C228", "title": "A sketch is evaluated exactly when each of its operations can be placed", "statement": "Sketch.eval raises no exception if and only if, for each operation in turn, the points it refers to have a place, its expressions have a value with the points known so far, the two points which give a direction or a line are different, and the line of a point of contact does not touch the circle in exactly one point. In particular parallel lines and a line which misses the circle raise nothing by themselves, but leave a point without place.", "quantifier": "every list of operations which refer to earlier ones, with any expressions", "why_tests_cant": "It is an exact criterion over all sketches, all expressions and all positions; a test evaluates one sketch.", "anchors": ["Patro/Pattern/Sketch.py:Sketch.eval", "Patro/Pattern/SketchOperation.py:SketchOperation.eval_internal", "Patro/GeometryEngine/Conic.py:Circle2D.intersect_segment"]}
{"id": "C229", "title": "A Valentina file is evaluated exactly when each of its calculations has what it needs", "statement": "When the calculations of a .val file are read, the evaluation of the pattern raises no exception if and only if each calculation, in the order of the file, refers to points which have a place, has formulas which have a value with the points before it under their names, and is not degenerate: a direction or a line needs two different points, and the line of a point of contact must not touch its circle in one point.", "quantifier": "every list of elements which is read, with any formulas", "why_tests_cant": "It ranges over all the files; a test evaluates one file.", "anchors": ["Patro/FileFormat/Valentina/Pattern.py:ValFile.read", "Patro/Pattern/Sketch.py:Sketch.eval", "Patro/Pattern/SketchOperation.py:SketchOperation.eval_internal"]}
{"id": "C230", "title": "There is at most one application", "statement": "Whatever the sequence of calls of Application.create and the exceptions of the constructor, at most one call returns an application; it is the one that is kept, the calls before it raise what their constructor raised, and every call after it raises NameError and changes nothing. As long as no call succeeds another one can be tried.", "quantifier": "every sequence of calls, each with a constructor which succeeds or raises", "why_tests_cant": "It ranges over all histories of calls and failures.", "anchors": ["Patro/QtApplication/QmlApplication.py:Application.create"]}
{"id": "C231", "title": "The view is notified exactly when the scene changes", "statement": "Whatever the assignments to the scene of the QML application, the scene is the last one assigned, and sceneChanged is emitted once for each assignment of another scene than the current one, with this scene, and not for the others.", "quantifier": "every sequence of assignments", "why_tests_cant": "It ranges over all histories of assignments.", "anchors": ["Patro/QtApplication/QmlApplication.py:QmlApplication.scene"]}
{"id": "C232", "title": "Each message of Qt is shown once, at its level", "statement": "The message handler gives each debugging, informative or warning message to the logger once, at its level, and prints each critical or fatal one after the date; the text has the name of the file without its directory, the function and the message. A message of another type raises UnboundLocalError.", "quantifier": "every message, file, function and type", "why_tests_cant": "It ranges over all the texts and paths.", "anchors": ["Patro/QtApplication/QmlApplication.py:Application._message_handler", "Patro/QtApplication/QmlApplication.py:Application._print_critical_message"]}
{"id": "C233", "title": "The script of the user is run at most once and its failures end the program", "statement": "execute_user_script runs the code of the file once, with the only variable application, if the file can be read and compiled, and runs nothing otherwise. The program goes on exactly if the script ends normally; it ends with the code 1 if the file does not exist, is not a program or if the script raises, after a message with the error, and with the code of the script if it asks to exit. At start the script of --user-script is run, and none without this argument.", "quantifier": "every disk, compiler and behaviour of the script", "why_tests_cant": "It ranges over all the outcomes of reading, compiling and running.", "anchors": ["Patro/QtApplication/QmlApplication.py:Application.execute_user_script", "Patro/QtApplication/QmlApplication.py:Application._on_critical_exception", "Patro/QtApplication/QmlApplication.py:Application._post_init"]}
{"id": "C234", "title": "Exactly which Valentina files are read", "statement": "ValFileReader gives a pattern exactly when the file has a unit; its element measurements is empty or names a file of measurements that is read; each piece has a name and calculations which describe operations, and these are evaluated; the modeling has only points and splines, and the details only nodes, grain lines, labels and data, whose attributes are integers, floats and booleans where they must be; and each node refers, through the last item of the modeling with the id that it gives, to an operation of the piece. When the elements have the attributes which place them, the operations are evaluated exactly when each calculation has what it needs in the drawing of the calculations before it. In every other case an exception is raised.", "quantifier": "every document, whatever its pieces, elements and attributes, and every value of the counter of ids", "why_tests_cant": "It ranges over all the documents, and says when the reading fails as well as when it succeeds.", "anchors": ["Patro/FileFormat/Valentina/Pattern.py:ValFileReader", "Patro/FileFormat/Valentina/Pattern.py:ValFileReader.read", "Patro/FileFormat/Valentina/Pattern.py:ValFileReader.read_piece", "Patro/FileFormat/Valentina/Pattern.py:ValFileReader.read_detail", "Patro/FileFormat/Valentina/Pattern.py:ValFileReader.read_attributes"]}
{"id": "C235", "title": "What a save does to the files of the user, at every moment", "statement": "Saving a Valentina pattern, an SVG file or a TeX document only changes the file of the given path. At every moment of the save, whenever the program is stopped, the file has its old content or the new one; at the end it has the new one. A save that raises an exception leaves the file as it was.", "quantifier": "every pattern, list of elements and document, every content of the disk, every way of cutting the bytes in writes, and every moment of the save", "why_tests_cant": "It ranges over all the moments at which the program can stop, all the documents and all the disks.", "anchors": ["Patro/FileFormat/Valentina/Pattern.py:ValFileWriter", "Patro/FileFormat/Svg/SvgFile.py:SvgFileWriter", "Patro/GraphicEngine/TeX/Document.py:Document.write"]}
{"id": "C236", "title": "The colours that are known after the import", "statement": "The import of the colours succeeds: each text of the six tables is a colour. A name is known exactly when a table has it, with underscores instead of spaces, and its colour is that of the first table which has it. The names of the colours of Valentina are known, and their colours are those of Valentina.", "quantifier": "every name", "why_tests_cant": "It ranges over all the names, and the database depends on the order in which more than a thousand colours are loaded.", "anchors": ["Patro/GraphicStyle/Color/__init__.py:Colors", "Patro/GraphicStyle/Color/color_data.py:QML_COLORS", "Patro/GraphicStyle/Color/color_data.py:VALENTINA_COLORS", "Patro/GraphicStyle/Color/ColorDataBase.py:ColorDataBase.add"]}
{"id": "C237", "title": "A pattern that is saved is read back by a new process, also after a crash", "statement": "After a pattern is saved, a new process that opens the file gets the same unit, scopes and operations, whatever was on the disk. If the program is stopped at any moment of the save, a new process gets what was in the file before or the new pattern.", "quantifier": "every pattern, every content of the disk, every way of cutting the bytes in writes, and every moment of the save", "why_tests_cant": "It ranges over all the moments at which the program can stop, all the patterns and all the disks.", "anchors": ["Patro/FileFormat/Valentina/Pattern.py:ValFileWriter", "Patro/FileFormat/Valentina/Pattern.py:ValFileReader", "Patro/Common/Xml/XmlFile.py:XmlFileMixin.parse"]}
{"id": "C238", "title": "A XML document is parsed from the data given or else from the file", "statement": "When data are given they are parsed, whatever the path is: bytes as they are, a text without the spaces around it. Otherwise the file of the path is parsed, and a file which does not exist raises an exception. Without path and data an exception is raised.", "quantifier": "every path, every data, every content of the disk", "why_tests_cant": "It ranges over all the data and all the contents of the disk.", "anchors": ["Patro/Common/Xml/XmlFile.py:XmlFileMixin", "Patro/Common/Xml/XmlFile.py:XmlFileMixin.parse"]}
{"id": "C239", "title": "What the viewer shows at every moment", "statement": "Whatever happens to the window of the application, in any order (sizes, scenes, changes of the scene, tool bar, keyboard, mouse), and also after an exception, the scale is positive and, once a scene was shown, the points are converted between the scene and the viewport by one picture: the centre is at the middle of the last size that was given, the y axis goes up, both conversions are inverse, and the area that is announced is what is seen. Without a scene or with an empty scene the gestures do nothing.", "quantifier": "every sequence of events of the window, with positive sizes and bounding boxes not reduced to a point", "why_tests_cant": "It ranges over all the histories of events.", "anchors": ["Patro/GraphicEngine/Painter/QtPainter.py:ViewportArea", "Patro/GraphicEngine/Painter/QtPainter.py:QtQuickPaintedSceneItem", "Patro/QtApplication/qml/main.qml"]}
{"id": "C240", "title": "The tool bar and the keyboard of the viewer", "statement": "The arrow keys move the view by ten pixels each, in any order. The buttons zoom around the middle of the view, and to zoom out undoes to zoom in. The button that fits the scene shows the whole scene, whatever was done before.", "quantifier": "every window that shows a scene, every sequence of keys and buttons", "why_tests_cant": "It ranges over all the sequences of keys and buttons.", "anchors": ["Patro/QtApplication/qml/main.qml", "Patro/GraphicEngine/Painter/QtPainter.py:QtQuickPaintedSceneItem.pan", "Patro/GraphicEngine/Painter/QtPainter.py:QtQuickPaintedSceneItem.zoom_at_center", "Patro/GraphicEngine/Painter/QtPainter.py:QtQuickPaintedSceneItem.fit_scene"]}
{"id": "C241", "title": "The mouse of the viewer", "statement": "A drag with the middle button moves the picture with the mouse. The wheel zooms around the mouse: the point of the scene under the mouse stays there, and the wheel turned back brings back the view. The label gives the coordinates of the point of the scene under the mouse.", "quantifier": "every window that shows a scene, every path of the mouse, every position of the wheel", "why_tests_cant": "It ranges over all the paths of the mouse and all the views.", "anchors": ["Patro/QtApplication/qml/main.qml", "Patro/GraphicEngine/Painter/QtPainter.py:QtQuickPaintedSceneItem.zoom_at", "Patro/GraphicEngine/Painter/QtPainter.py:QtQuickPaintedSceneItem.format_coordinate"]}
{"id": "C242", "title": "The program ends with the code of its reason", "statement": "The program ends with the code -1 exactly when its main window is not loaded, and then runs nothing; a missing component does not end it. Otherwise the script of --user-script is run once, as execute_user_script does, and nothing is run without this argument; the program ends with the code of the event loop if the script ends normally or there is none, and as the script does otherwise. Arguments which are paths are kept in their order.", "quantifier": "every command line, sequence of signals of the engine, disk, behaviour of the script and code of the event loop", "why_tests_cant": "It ranges over all the sequences of signals and all the scripts.", "anchors": ["bin/patro", "Patro/QtApplication/QmlApplication.py:Application.__init__", "Patro/QtApplication/QmlApplication.py:Application._check_qml_is_loaded", "Patro/QtApplication/QmlApplication.py:Application._post_init", "Patro/QtApplication/QmlApplication.py:Application.exec_", "Patro/Common/ArgparseAction.py:PathAction"]}
{"id": "C243", "title": "Rounded rectangles and circles made of paths are drawn as such", "statement": "The path of Path2D.rounded_rectangle added to a scene gives four quarters of circles of the given radius, tangent to the sides, joined by four segments on the sides of the rectangle. The path of Path2D.circle gives four quarters of one circle of the given radius, which cover it. FALSE if the point given to Path2D.circle is taken for the centre: the centre is the point moved by the radius along both axes.", "quantifier": "every point, width, height and radius for which the path is made", "why_tests_cant": "It ranges over all the sizes and over all the points of the arcs.", "anchors": ["Patro/GeometryEngine/Path.py:Path2D.rounded_rectangle", "Patro/GeometryEngine/Path.py:Path2D.circle", "Patro/GraphicEngine/GraphicScene/Scene.py:GraphicScene.add_path"]}
{"id": "C244", "title": "The dictionary of a drawing state lists its attributes", "statement": "to_dict of the drawing state of a SVG file gives the value of each presentation attribute, or only of those which have one, and nothing else; the dictionary of a clone is the same. It raises AttributeError when an attribute was deleted.", "quantifier": "every state and both values of the argument", "why_tests_cant": "It ranges over all the states.", "anchors": ["Patro/FileFormat/Svg/SvgFile.py:RenderState.to_dict", "Patro/FileFormat/Svg/SvgFile.py:RenderState.clone"]}
{"id": "C245", "title": "Needles keep what they are made of", "statement": "A needle gives back the system and the type it was made with, and its size and multiplicity as whole numbers, cut towards zero; the multiplicity is one by default. FALSE of the class Needle of the module SewingMachine: its size is never given back, AttributeError is raised.", "quantifier": "all systems, types, sizes and multiplicities", "why_tests_cant": "It ranges over all the numbers.", "anchors": ["Patro/TextileTechnology/Needle.py:Needle", "Patro/TextileTechnology/SewingMachine.py:Needle"]}
{"id": "C246", "title": "A singleton whose constructor uses the singleton", "statement": "Every call of a singleton class gives the same object, also the calls made by its own constructor, and a call that raises leaves no object behind. FALSE of a constructor that instantiates its class: the lock is re-entrant and the instance is only stored at the end, hence an inner call gives an object that is not the one which is kept; and when the constructor raises afterwards, the object of the inner call is kept.", "quantifier": "every behaviour of the constructor, with any number and depth of inner calls, and every sequence of calls", "why_tests_cant": "The constructor can nest any number of calls to any depth, return or raise at every point.", "anchors": ["Patro/Common/Singleton.py:SingletonMetaClass.__call__"]}
{"id": "C247", "title": "Ids of objects made by several threads", "statement": "Objects created by several threads at the same time, some with an explicit id and others with an automatic one, have different ids. FALSE of the automatic ids: increment reads the value it returns after the release of the lock, hence a thread can get the explicit id another thread has just given. What holds under every schedule: two explicit ids that were accepted are different.", "quantifier": "every number of threads, every list of calls of each thread, every interleaving", "why_tests_cant": "The interleavings are unbounded and the failing ones need a switch of threads between two byte codes.", "anchors": ["Patro/Common/Object.py:ObjectGlobalIdMixin.__init__", "Patro/Common/AtomicCounter.py:AtomicCounter.set", "Patro/Common/AtomicCounter.py:AtomicCounter.increment"]}
{"id": "C248", "title": "The convex hull of a polygon does not depend on what was asked before", "statement": "Polygon2D.convex_hull() gives the same hull whatever was asked of the polygon before, and the hull of a hull is this hull. FALSE once is_convex has been asked for: a strictly convex polygon in clockwise order is then its own hull, whereas its hull is otherwise a polygon with the vertices in another order; and a polygon declared convex is its own hull whatever its vertices.", "quantifier": "every polygon and every sequence of questions (edges, simple, convex, area, barycenter, clockwise, point inside)", "why_tests_cant": "The questions can be asked in any order and any number of times, on any polygon; the cached answers change the branch which is taken.", "anchors": ["Patro/GeometryEngine/Polygon.py:Polygon2D.convex_hull", "Patro/GeometryEngine/Polygon.py:convex_hull", "Patro/GeometryEngine/Polygon.py:Polygon2D.is_convex"]}
{"id": "C249", "title": "A regular polygon can be copied, transformed and simplified", "statement": "A regular polygon can be copied; after any transformations its vertices are on the circumcircle it gives; simplify(threshold) gives it back or gives a polygon with fewer vertices. FALSE of every regular polygon: its copy raises TypeError, with it every transformation of a copy, and every simplification that removes a vertex; the circumcircle does not follow the vertices.", "quantifier": "every regular polygon, every transformation and sequence of transformations, every threshold", "why_tests_cant": "The radius, the centre, the number of edges and the transformations are arbitrary, and these can follow each other in any order.", "anchors": ["Patro/GeometryEngine/Polygon.py:RegularPolygon", "Patro/GeometryEngine/Polygon.py:Polygon2D.simplify", "Patro/GeometryEngine/Primitive.py:PointPrimitive.clone", "Patro/GeometryEngine/Primitive.py:Primitive.transform"]}
{"id": "C250", "title": "A B-spline can be made, copied, reversed, compared and transformed", "statement": "A B-spline can be made from any number of control points its degree allows; it can be copied and reversed; two splines that compare equal are the same curve; after transform(transformation, clone) by an affine transformation, the point at every parameter is the image of the point it had. FALSE of every B-spline with clone, and for copies and reversals: ValueError or TypeError is raised; a spline of one control point cannot be made; splines of different degrees compare equal.", "quantifier": "every B-spline, with or without given knots, every affine transformation, every parameter", "why_tests_cant": "The number of control points, the degree, the knots, the transformation and the parameter are arbitrary.", "anchors": ["Patro/GeometryEngine/Spline.py:BSpline2D", "Patro/GeometryEngine/Primitive.py:PrimitiveNP", "Patro/GeometryEngine/Primitive.py:PointPrimitive.clone", "Patro/GeometryEngine/Primitive.py:Primitive.transform", "Patro/GeometryEngine/Primitive.py:ReversiblePrimitiveMixin.reverse"]}
{"id": "C251", "title": "A B-spline stays among its control points and in its bounding box", "statement": "At every parameter of its range, the point of a B-spline is in the convex hull of the degree + 1 control points of its span, so in bounding_box, and bounding_box is the smallest box that contains the curve. FALSE for the last part: for every spline of degree 2 with a middle control point above the two others, the curve never reaches the upper side of the box.", "quantifier": "every B-spline, with or without given knots, every parameter, every half plane that contains the control points", "why_tests_cant": "The control points, the degree, the knots and the parameter are arbitrary.", "anchors": ["Patro/GeometryEngine/Spline.py:BSpline2D.point_at_t", "Patro/GeometryEngine/Primitive.py:Primitive.bounding_box", "Patro/GeometryEngine/BoundingBox.py:bounding_box_from_points"]}
{"id": "C252", "title": "A B-spline of degree 1 is the polyline of its control points", "statement": "point_at_t of a B-spline of degree 1 without given knots travels the polyline of its control points, one segment for each unit of the parameter, and goes through every control point; one of degree 2 goes, at the integer parameters inside its range, through the middles of its inner control segments.", "quantifier": "every B-spline of degree 1 or 2 without given knots, every segment, every parameter", "why_tests_cant": "The number of control points, their places and the parameter are arbitrary.", "anchors": ["Patro/GeometryEngine/Spline.py:BSpline2D.point_at_t", "Patro/GeometryEngine/Spline.py:BSpline2D.uniform_knots"]}
{"id": "C253", "title": "The segments of uniform splines join smoothly and stay among their control points", "statement": "Two cubic uniform splines that share three control points follow each other with the same point, velocity and acceleration; for t between 0 and 1 a uniform spline stays in the convex hull of its control points; affine transformations of the control points transform the curve; a cubic uniform spline is the piece from 3 to 4 of the B-spline of degree 3 with the knots 0 to 7; a quadratic uniform spline converted by to_bezier is the same curve. FALSE of every quadratic uniform spline: point_at_t raises AttributeError, and to_bezier gives another curve unless the three control points are at the origin.", "quantifier": "every quadratic and cubic uniform spline, every parameter, every affine transformation", "why_tests_cant": "The control points and the parameter are arbitrary.", "anchors": ["Patro/GeometryEngine/Spline.py:CubicUniformSpline2D.point_at_t", "Patro/GeometryEngine/Spline.py:QuadraticUniformSpline2D.point_at_t", "Patro/GeometryEngine/Spline.py:QuadraticUniformSpline2D.to_bezier"]}
