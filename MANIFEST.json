{
 "claims": [
  {
   "property": "C01",
   "status": "proved",
   "theorems": [
    "Patro.Graph.topologicalSort_sound"
   ],
   "note": ""
  },
  {
   "property": "C02",
   "status": "partial",
   "theorems": [
    "Patro.Graph.topologicalSort_complete_partial",
    "Patro.Graph.topologicalSort_deep_wrong"
   ],
   "note": "False of deep graphs: topologicalSort_deep_wrong gives, for every recursion limit of the interpreter, a chain without a cycle on which RecursionError is raised. topologicalSort_complete_partial proves the equivalence for graphs with fewer nodes than the limit."
  },
  {
   "property": "C03",
   "status": "proved",
   "theorems": [
    "Patro.Graph.breadthFirstSearch_spec"
   ],
   "note": ""
  },
  {
   "property": "C04",
   "status": "proved",
   "theorems": [
    "Patro.Graph.links_mirror",
    "Patro.Graph.connect_edges",
    "Patro.Graph.disconnect_edge",
    "Patro.Graph.disconnect_non_edge",
    "Patro.Graph.roots_leafs_spec"
   ],
   "note": ""
  },
  {
   "property": "C05",
   "status": "proved",
   "theorems": [
    "Patro.Graph.addNode_new",
    "Patro.Graph.addNode_duplicate"
   ],
   "note": ""
  },
  {
   "property": "C06",
   "status": "proved",
   "theorems": [
    "Patro.Counter.increments_not_lost",
    "Patro.Counter.no_deadlock"
   ],
   "note": ""
  },
  {
   "property": "C07",
   "status": "partial",
   "theorems": [
    "Patro.Counter.increment_returns_duplicate",
    "Patro.Counter.increment_returns_same_wrong",
    "Patro.Counter.increment_returns_increasing_partial"
   ],
   "note": "The claim is false of the code for overlapping calls: increment_returns_duplicate gives a schedule in which two calls return the same value, increment_returns_same_wrong one for any number of threads in which all the calls return the same value. increment_returns_increasing_partial proves it for calls that do not overlap."
  },
  {
   "property": "C08",
   "status": "proved",
   "theorems": [
    "Patro.Counter.ids_strictly_increasing",
    "Patro.Counter.explicit_id_spec",
    "Patro.Counter.automatic_id_spec",
    "Patro.Counter.newOperationId_spec"
   ],
   "note": ""
  },
  {
   "property": "C09",
   "status": "proved",
   "theorems": [
    "Patro.Singleton.metaclass_single_instance",
    "Patro.Singleton.metaclass_no_deadlock"
   ],
   "note": ""
  },
  {
   "property": "C10",
   "status": "proved",
   "theorems": [
    "Patro.Singleton.decorator_sequential",
    "Patro.Singleton.decorator_race",
    "Patro.Singleton.decorator_race_all"
   ],
   "note": "decorator_sequential proves the safe case, decorator_race exhibits the schedule with two instances."
  },
  {
   "property": "C11",
   "status": "proved",
   "theorems": [
    "Patro.IterTools.closedIterator_spec",
    "Patro.IterTools.closedIterator_nil",
    "Patro.IterTools.pairwise_spec",
    "Patro.IterTools.pairwise_nil",
    "Patro.IterTools.closedPairwise_spec"
   ],
   "note": ""
  },
  {
   "property": "C12",
   "status": "proved",
   "theorems": [
    "Patro.IterTools.multiwise_spec",
    "Patro.IterTools.multiwise_zero",
    "Patro.IterTools.closedMultiwiseIndex_spec"
   ],
   "note": ""
  },
  {
   "property": "C13",
   "status": "proved",
   "theorems": [
    "Patro.MathFunctions.trignometricClamp_nearest",
    "Patro.MathFunctions.trignometricClamp_eq_self_iff",
    "Patro.MathFunctions.trignometricClamp_mono",
    "Patro.MathFunctions.isInTrignometricRange_iff"
   ],
   "note": ""
  },
  {
   "property": "C14",
   "status": "proved",
   "theorems": [
    "Patro.MathFunctions.quadraticRoot_exact",
    "Patro.MathFunctions.quadraticRoot_none_iff",
    "Patro.MathFunctions.quadraticRoot_two_order"
   ],
   "note": ""
  },
  {
   "property": "C15",
   "status": "proved",
   "theorems": [
    "Patro.Xml.initFromXml_attribute",
    "Patro.Xml.initFromXml_succeeds_iff",
    "Patro.Xml.initFromXml_undeclared"
   ],
   "note": ""
  },
  {
   "property": "C16",
   "status": "proved",
   "theorems": [
    "Patro.Xml.xml_round_trip",
    "Patro.Xml.toXml_kwargs",
    "Patro.Xml.toXml_unset"
   ],
   "note": ""
  },
  {
   "property": "C17",
   "status": "proved",
   "theorems": [
    "Patro.Xml.boolFromXml_spec",
    "Patro.Xml.bool_round_trip",
    "Patro.Xml.int_round_trip",
    "Patro.Xml.intFromText_spaces"
   ],
   "note": ""
  },
  {
   "property": "C18",
   "status": "proved",
   "theorems": [
    "Patro.Xml.floatList_round_trip",
    "Patro.Xml.floatList_comma",
    "Patro.Xml.floatList_empty",
    "Patro.Xml.floatList_comma_space"
   ],
   "note": ""
  },
  {
   "property": "C19",
   "status": "partial",
   "theorems": [
    "Patro.Xml.textObj_ofXml_text",
    "Patro.Xml.textObj_kwargs_text_partial",
    "Patro.Xml.textObj_kwargs"
   ],
   "note": "The claim is false of the code: textObj_ofXml_text proves that the text read from XML is always lost. textObj_kwargs_text_partial proves that a text given as keyword argument is kept and written."
  },
  {
   "property": "C20",
   "status": "proved",
   "theorems": [
    "Patro.Calculator.value_kept",
    "Patro.Calculator.nameError_kept",
    "Patro.Calculator.read_after_dirty",
    "Patro.Calculator.read_compile_error",
    "Patro.Calculator.evaluation_count"
   ],
   "note": ""
  },
  {
   "property": "C21",
   "status": "partial",
   "theorems": [
    "Patro.Calculator.rewriteCustom_one_name_partial",
    "Patro.Calculator.rewriteCustom_last",
    "Patro.Calculator.rewriteCustom_unknown",
    "Patro.Calculator.rewriteCustom_two_names"
   ],
   "note": "False of the code for two different custom names (rewriteCustom_two_names; rewriteCustom_last gives what is computed in general). rewriteCustom_one_name_partial proves the claim for one distinct name."
  },
  {
   "property": "C22",
   "status": "proved",
   "theorems": [
    "Patro.Calculator.identifier_characters",
    "Patro.Calculator.findIdentifier_spec",
    "Patro.Calculator.scan_terminates",
    "Patro.Calculator.identifiers_sound",
    "Patro.Calculator.identifiers_complete"
   ],
   "note": ""
  },
  {
   "property": "C23",
   "status": "proved",
   "theorems": [
    "Patro.Measurement.validateName_spec",
    "Patro.Measurement.validateName_idempotent"
   ],
   "note": ""
  },
  {
   "property": "C24",
   "status": "proved",
   "theorems": [
    "Patro.Measurement.add_spec",
    "Patro.Measurement.lookup_first",
    "Patro.Measurement.sortedIter_spec"
   ],
   "note": ""
  },
  {
   "property": "C25",
   "status": "partial",
   "theorems": [
    "Patro.Measurement.subs_sound",
    "Patro.Measurement.subs_solution",
    "Patro.Measurement.subs_complete_partial",
    "Patro.Measurement.subs_chain_unresolved"
   ],
   "note": "False of the code: subs_chain_unresolved is a witness (sympy replaces one name after the other in name order, so a reference to an earlier formula is left unresolved). subs_sound and subs_solution prove that a computed number is always right, whatever the other measurements; subs_complete_partial is the exact criterion: it is computed if and only if all the names needed are in the set and refer to later names."
  },
  {
   "property": "C26",
   "status": "proved",
   "theorems": [
    "Patro.Pattern.scopes_in_insertion_order",
    "Patro.Pattern.scope_by_name",
    "Patro.Pattern.scope_by_index",
    "Patro.Pattern.removeScope_by_name",
    "Patro.Pattern.rename_only",
    "Patro.Pattern.removeScope_at_most_one"
   ],
   "note": ""
  },
  {
   "property": "C27",
   "status": "proved",
   "theorems": [
    "Patro.Pattern.getOperation_latest",
    "Patro.Pattern.create_ok",
    "Patro.Pattern.create_error",
    "Patro.Pattern.create_succeeds",
    "Patro.Pattern.id_resolves",
    "Patro.Pattern.id_hidden_by_name"
   ],
   "note": ""
  },
  {
   "property": "C28",
   "status": "partial",
   "theorems": [
    "Patro.Pattern.edges_forward_weak",
    "Patro.Pattern.edges_forward_partial",
    "Patro.Pattern.topologicalSort_never_raises_partial",
    "Patro.Pattern.eval_order",
    "Patro.Pattern.eval_positions",
    "Patro.Pattern.dependencies_before",
    "Patro.Pattern.mentioned_before_partial",
    "Patro.Pattern.create_edges",
    "Patro.Pattern.eval_selfLoop"
   ],
   "note": "False of the code in one case (eval_selfLoop): a point whose expression mentions a Line_ call on the point itself in a branch that is not taken becomes its own ancestor and topological_sort raises. edges_forward_partial, topologicalSort_never_raises_partial and mentioned_before_partial prove the claim for every history without such a request; edges_forward_weak, eval_order, dependencies_before and create_edges hold without restriction. The sort needs a recursion limit above the number of operations (see C02)."
  },
  {
   "property": "C29",
   "status": "proved",
   "theorems": [
    "Patro.SketchGeometry.sketch_satisfies",
    "Patro.SketchGeometry.sketch_values",
    "Patro.SketchGeometry.spline_geometry"
   ],
   "note": ""
  },
  {
   "property": "C30",
   "status": "proved",
   "theorems": [
    "Patro.Vec.rotate_toComplex",
    "Patro.Vec.rotate_isometry",
    "Patro.Vec.rotate_linear",
    "Patro.Vec.rotate_rotate",
    "Patro.Vec.permute_scale_middle",
    "Patro.Vec.normal_rotate"
   ],
   "note": ""
  },
  {
   "property": "C31",
   "status": "proved",
   "theorems": [
    "Patro.Vec.dot_laws",
    "Patro.Vec.cross_laws",
    "Patro.Vec.dot_sq_add_cross_sq",
    "Patro.Vec.isParallel_iff",
    "Patro.Vec.isParallel_short"
   ],
   "note": ""
  },
  {
   "property": "C32",
   "status": "proved",
   "theorems": [
    "Patro.Vec.projection_deviation",
    "Patro.Vec.projection_idempotent",
    "Patro.Vec.projection_error",
    "Patro.Vec.cos_sin_with"
   ],
   "note": ""
  },
  {
   "property": "C33",
   "status": "proved",
   "theorems": [
    "Patro.Vec.toNormalised_spec",
    "Patro.Vec.fromPolar_magnitude",
    "Patro.Vec.fromPolar_rotate"
   ],
   "note": ""
  },
  {
   "property": "C34",
   "status": "proved",
   "theorems": [
    "Patro.Transformation.lin_mul_apply",
    "Patro.Transformation.lin_mul_assoc",
    "Patro.Transformation.lin_mul_ok_iff",
    "Patro.Transformation.aff_mul_apply",
    "Patro.Transformation.aff_mul_assoc",
    "Patro.Transformation.aff_mul_wrong",
    "Patro.Transformation.aff_reach_mul_apply",
    "Patro.Transformation.imul_apply",
    "Patro.Transformation.lin_imul_raises"
   ],
   "note": ""
  },
  {
   "property": "C35",
   "status": "proved",
   "theorems": [
    "Patro.Transformation.lin_identity_sound",
    "Patro.Transformation.lin_type_sound",
    "Patro.Transformation.aff_identity_sound"
   ],
   "note": ""
  },
  {
   "property": "C36",
   "status": "proved",
   "theorems": [
    "Patro.Transformation.aff_constructors",
    "Patro.Transformation.rotationAt_apply",
    "Patro.Transformation.rotationAt_spec"
   ],
   "note": ""
  },
  {
   "property": "C37",
   "status": "proved",
   "theorems": [
    "Patro.Transformation.transform_clone",
    "Patro.Transformation.transform_in_place",
    "Patro.Transformation.transform_reach",
    "Patro.Transformation.mirror_spec"
   ],
   "note": ""
  },
  {
   "property": "C38",
   "status": "partial",
   "theorems": [
    "Patro.intersection_sound",
    "Patro.intersection_none_iff",
    "Patro.intersection_found_partial",
    "Patro.intersection_missed"
   ],
   "note": "False of the code for nearly parallel lines: intersection_missed gives two non parallel lines for which no intersection is reported, because a cross product that rounds to zero counts as parallel. intersection_sound holds for all lines, intersection_none_iff is the exact condition, intersection_found_partial proves the claim when the cross product does not round to zero."
  },
  {
   "property": "C39",
   "status": "proved",
   "theorems": [
    "Patro.intersectWith_iff",
    "Patro.triangleOrientation_spec",
    "Patro.segment_intersection_spec"
   ],
   "note": ""
  },
  {
   "property": "C40",
   "status": "proved",
   "theorems": [
    "Patro.distanceToPoint_isLeast"
   ],
   "note": ""
  },
  {
   "property": "C41",
   "status": "proved",
   "theorems": [
    "Patro.isPointInside_iff",
    "Patro.isPointInside_order",
    "Patro.create_triangle_spec",
    "Patro.isPointInside_flat",
    "Patro.triangle_edges"
   ],
   "note": ""
  },
  {
   "property": "C42",
   "status": "proved",
   "theorems": [
    "Patro.rectangle_isPointInside",
    "Patro.rectangle_edges",
    "Patro.rectangle_perimeter_area"
   ],
   "note": ""
  },
  {
   "property": "C43",
   "status": "partial",
   "theorems": [
    "Patro.polyline_distance_fresh",
    "Patro.polyline_distance_partial",
    "Patro.polyline_distance_frozen",
    "Patro.polyline_stale",
    "Patro.polyline_create"
   ],
   "note": "False after an in place transformation that follows a question: polyline_stale. polyline_distance_partial proves it when transformations come before the first question and polyline_distance_frozen proves that later answers are for the polyline of the first question."
  },
  {
   "property": "C44",
   "status": "proved",
   "theorems": [
    "Patro.Polygon.create_spec",
    "Patro.Polygon.area_spec",
    "Patro.Polygon.signedArea_affine",
    "Patro.Polygon.signedArea_order",
    "Patro.Polygon.signedArea_cut",
    "Patro.Polygon.area_triangle",
    "Patro.Polygon.area_frozen",
    "Patro.Polygon.area_stale",
    "Patro.Polygon.perimeter_spec"
   ],
   "note": "The area is computed once: area_frozen and area_stale state what happens after a transformation."
  },
  {
   "property": "C45",
   "status": "proved",
   "theorems": [
    "Patro.Bezier.cubic_split",
    "Patro.Bezier.quad_split"
   ],
   "note": ""
  },
  {
   "property": "C46",
   "status": "proved",
   "theorems": [
    "Patro.Bezier.toCubic_pointAt"
   ],
   "note": ""
  },
  {
   "property": "C47",
   "status": "proved",
   "theorems": [
    "Patro.Bezier.end_points",
    "Patro.Bezier.in_hull",
    "Patro.Bezier.in_box",
    "Patro.Bezier.in_box_quad",
    "Patro.Bezier.affine_invariant"
   ],
   "note": ""
  },
  {
   "property": "C48",
   "status": "proved",
   "theorems": [
    "Patro.Bezier.fatLine_spec",
    "Patro.Bezier.quad_fatLine_wrong"
   ],
   "note": ""
  },
  {
   "property": "C49",
   "status": "proved",
   "theorems": [
    "Patro.Bezier.cubic_basis_inverse",
    "Patro.Bezier.polynomial_form",
    "Patro.Bezier.toSpline_pointAt",
    "Patro.Bezier.quad_basis_wrong"
   ],
   "note": ""
  },
  {
   "property": "C50",
   "status": "proved",
   "theorems": [
    "Patro.Spline.uniformKnots_spec"
   ],
   "note": ""
  },
  {
   "property": "C51",
   "status": "proved",
   "theorems": [
    "Patro.Spline.span_uniform",
    "Patro.Spline.span_given"
   ],
   "note": "Complete behaviour for both kinds of splines. At the end of the range span gives the number of points (default knots) or None (given knots)."
  },
  {
   "property": "C52",
   "status": "proved",
   "theorems": [
    "Patro.Spline.basis_spec",
    "Patro.Spline.basis_sum"
   ],
   "note": ""
  },
  {
   "property": "C53",
   "status": "partial",
   "theorems": [
    "Patro.Spline.pointAt_curve",
    "Patro.Spline.pointAt_uniform",
    "Patro.Spline.pointAt_end_wrong",
    "Patro.Spline.pointAt_before_wrong",
    "Patro.Spline.pointAt_after",
    "Patro.Spline.naive_wrong"
   ],
   "note": "Proved inside the range for every well formed spline (pointAt_curve) with the end points and the errors of splines without given knots (pointAt_uniform). False at the last knot of a spline with given knots, TypeError (pointAt_end_wrong), before the range of such a spline (pointAt_before_wrong) and for naive=True, TypeError (naive_wrong)."
  },
  {
   "property": "C54",
   "status": "partial",
   "theorems": [
    "Patro.Spline.insertKnot_spec",
    "Patro.Spline.insertKnot_pointAt",
    "Patro.Spline.insertKnot_end_wrong",
    "Patro.Spline.insertKnot_end"
   ],
   "note": "Proved inside the range (insertKnot_spec, insertKnot_pointAt) and at the end of a spline without given knots (insertKnot_end). False at the end of the curve: the result has given knots, so that evaluating its end raises TypeError (insertKnot_end_wrong)."
  },
  {
   "property": "C55",
   "status": "partial",
   "theorems": [
    "Patro.Conic.isInside_partial",
    "Patro.Conic.isInside_bounds",
    "Patro.Conic.isInside_wrong"
   ],
   "note": "Proved for bounds in [0, 360] and angles in [0, 360) (isInside_partial). False in general: closed domains given clockwise or shifted by a turn do not hold every angle, and domains that cross the origin with a bound outside [0, 360] miss angles (isInside_wrong)."
  },
  {
   "property": "C56",
   "status": "proved",
   "theorems": [
    "Patro.Conic.intersectSegment_spec",
    "Patro.Conic.intersectSegment_null"
   ],
   "note": ""
  },
  {
   "property": "C57",
   "status": "partial",
   "theorems": [
    "Patro.Conic.isPointInside_iff",
    "Patro.Conic.distance_circle",
    "Patro.Conic.distance_arc_partial",
    "Patro.Conic.distance_arc_wrong"
   ],
   "note": "Proved for full circles (distance_circle, isPointInside_iff) and for arcs with bounds in [0, 360) (distance_arc_partial). False for arcs with a negative bound (distance_arc_wrong)."
  },
  {
   "property": "C58",
   "status": "partial",
   "theorems": [
    "Patro.Path.points_eq_trace_partial",
    "Patro.Path.first_start",
    "Patro.Path.chain_partial",
    "Patro.Path.closed_stop",
    "Patro.Path.add_open",
    "Patro.Path.add_radius_error",
    "Patro.Path.closed_ignores",
    "Patro.Path.add_keeps",
    "Patro.Path.stringed_wrong",
    "Patro.Path.stringedQuadratic_wrong",
    "Patro.Path.move_closed_wrong",
    "Patro.Path.close_twice_wrong",
    "Patro.Path.close_torn_wrong",
    "Patro.Path.roundedRectangle_points"
   ],
   "note": "Proved for every history: points are the ones of the specification, parts chain, a closed path ignores additions. False of stringed curves (NotImplementedError/NameError), of move_to after close with a rounded corner, of close called twice with a radius, and close on a path which begins with a curve leaves it torn."
  },
  {
   "property": "C59",
   "status": "partial",
   "theorems": [
    "Patro.Path.relative_absolute",
    "Patro.Path.direction_line",
    "Patro.Path.horizontal_absolute_wrong",
    "Patro.Path.corner_radius",
    "Patro.Path.transform_points",
    "Patro.Path.transform_ok_iff",
    "Patro.Path.transform_no_radius",
    "Patro.Path.transform_parts",
    "Patro.Path.transform_radius",
    "Patro.Path.transform_arc_wrong",
    "Patro.Path.transform_torn_wrong"
   ],
   "note": "Relative and absolute commands have the same trace, a transformation which succeeds maps every point, and it succeeds exactly when radii are accepted. False of horizontal_to/vertical_to absolute, of the radii of arcs, and a transformation which raises leaves the path torn."
  },
  {
   "property": "C60",
   "status": "partial",
   "theorems": [
    "Patro.SvgPath.parse_terminates_partial",
    "Patro.SvgPath.parse_hangs_wrong",
    "Patro.SvgPath.parse_terminates_iff"
   ],
   "note": "Reading stops exactly for the texts characterised by parse_terminates_iff; parse_hangs_wrong gives a text for which the loop never ends."
  },
  {
   "property": "C61",
   "status": "partial",
   "theorems": [
    "Patro.SvgPath.parse_blocks_partial",
    "Patro.SvgPath.smooth_quadratic_wrong",
    "Patro.SvgPath.write_read_partial",
    "Patro.SvgPath.read_write_wrong",
    "Patro.SvgPath.compact_wrong"
   ],
   "note": "Proved for data in the spaced form the reader accepts; compact forms such as M10 20 are rejected and the smooth quadratic command is not readable (compact_wrong, smooth_quadratic_wrong)."
  },
  {
   "property": "C62",
   "status": "partial",
   "theorems": [
    "Patro.SvgState.read_exact",
    "Patro.SvgState.group_scope_partial",
    "Patro.SvgState.group_scope_wrong"
   ],
   "note": "False in general: group states are pushed and never popped (group_scope_wrong). read_exact says what is computed for every document, group_scope_partial gives the documents where it is right."
  },
  {
   "property": "C63",
   "status": "proved",
   "theorems": [
    "Patro.Dxf.positive_bulge",
    "Patro.Dxf.negative_bulge_wrong",
    "Patro.Dxf.flat_or_null",
    "Patro.Dxf.polyline_items",
    "Patro.Dxf.vertex_angle",
    "Patro.Dxf.added_items",
    "Patro.Dxf.sagitta_spec"
   ],
   "note": "Positive bulges, flat and null segments and the sequence of items of a polyline. For a negative bulge, negative_bulge_wrong shows that for every chord and every negative bulge the radius is negative and the summit is not on the arc (a bug). vertex_angle: the angle property is the supplement of the angle of the arc."
  },
  {
   "property": "C64",
   "status": "proved",
   "theorems": [
    "Patro.Scene.z_order"
   ],
   "note": ""
  },
  {
   "property": "C65",
   "status": "proved",
   "theorems": [
    "Patro.Scene.pick",
    "Patro.Scene.pick_negative",
    "Patro.Scene.meets_iff",
    "Patro.Scene.update_then_pick"
   ],
   "note": ""
  },
  {
   "property": "C66",
   "status": "proved",
   "theorems": [
    "Patro.Paper.viewport_round_trip",
    "Patro.Paper.viewport_unset",
    "Patro.Paper.zoom_mapping",
    "Patro.Paper.zoom_without_size",
    "Patro.Paper.fit",
    "Patro.Paper.resize",
    "Patro.Paper.pan_moves",
    "Patro.Paper.zoom_at_position",
    "Patro.Paper.lengths"
   ],
   "note": ""
  },
  {
   "property": "C67",
   "status": "partial",
   "theorems": [
    "Patro.Paper.tiles_grid",
    "Patro.Paper.tiles_disjoint",
    "Patro.Paper.tiles_cover_iff",
    "Patro.Paper.tiler_cover"
   ],
   "note": "tiles are disjoint and form the grid; they cover the bounding box exactly when the numbers of rows and columns agree (tiles_cover_iff): the code exchanges rows and columns"
  },
  {
   "property": "C68",
   "status": "partial",
   "theorems": [
    "Patro.Paper.paper_size",
    "Patro.Paper.halving",
    "Patro.Paper.landscape_swaps",
    "Patro.Paper.accepted",
    "Patro.Paper.accepted_iff",
    "Patro.Paper.odd_names_wrong"
   ],
   "note": "sizes, halving and landscape proved; the set of accepted names is characterised, and odd names such as those of odd_names_wrong are accepted"
  },
  {
   "property": "C69",
   "status": "partial",
   "theorems": [
    "Patro.Units.conversions_right",
    "Patro.Units.mm_point_round_trip",
    "Patro.Units.unused_factor_wrong",
    "Patro.Units.conversions_wrong",
    "Patro.Units.inch_point_round_trip"
   ],
   "note": "mm<->point and inch->mm proved; the other conversions are refuted by conversions_wrong"
  },
  {
   "property": "C70",
   "status": "partial",
   "theorems": [
    "Patro.Units.tex_to_den",
    "Patro.Units.tex_to_nm",
    "Patro.Units.den_to_tex_wrong",
    "Patro.Units.nm_to_tex_wrong"
   ],
   "note": "tex->den and tex->nm proved; den->tex and nm->tex refuted"
  },
  {
   "property": "C71",
   "status": "partial",
   "theorems": [
    "Patro.Tex.template_filled",
    "Patro.Tex.guillemets_wrong",
    "Patro.Tex.document_source",
    "Patro.Tex.positional_field",
    "Patro.Tex.environments_nested",
    "Patro.Tex.append_list"
   ],
   "note": "holds for plain texts without guillemets and well-formed placeholders; other guillemets are not kept verbatim (guillemets_wrong)"
  },
  {
   "property": "C72",
   "status": "partial",
   "theorems": [
    "Patro.Colour.text_read",
    "Patro.Colour.text_round_trip",
    "Patro.Colour.three_arguments",
    "Patro.Colour.integer_components",
    "Patro.Colour.set_component",
    "Patro.Colour.text_accepted_partial",
    "Patro.Colour.text_middle_wrong",
    "Patro.Colour.text_negative_wrong",
    "Patro.Colour.text_wrong",
    "Patro.Colour.components_in_range"
   ],
   "note": "the round trip holds for all 8-bit colours and numbers out of range are rejected; exactly the texts that are accepted are stated in text_accepted_partial: some with signs, spaces or other lengths are among them (text_negative_wrong, text_middle_wrong, text_wrong)"
  },
  {
   "property": "C73",
   "status": "proved",
   "theorems": [
    "Patro.Colour.load_first",
    "Patro.Colour.add_replaces",
    "Patro.Colour.ensureColor_spec",
    "Patro.Textile.database_first",
    "Patro.Textile.fibers_loaded",
    "Patro.Textile.fiber_without_source",
    "Patro.Textile.fibers_malformed"
   ],
   "note": "for loading and registering; ColorDataBase.add called directly replaces the old definition (add_replaces)"
  },
  {
   "property": "C74",
   "status": "proved",
   "theorems": [
    "Patro.MathFunctions.cmp_spec",
    "Patro.MathFunctions.epsilonFloat_spec",
    "Patro.MathFunctions.sign_spec",
    "Patro.MathFunctions.middle_spec"
   ],
   "note": ""
  },
  {
   "property": "C75",
   "status": "proved",
   "theorems": [
    "Patro.MathFunctions.cubicRootDegenerate_exact"
   ],
   "note": ""
  },
  {
   "property": "C76",
   "status": "proved",
   "theorems": [
    "Patro.Xml.attributes_mem_iff",
    "Patro.Xml.effective_attribute"
   ],
   "note": ""
  },
  {
   "property": "C77",
   "status": "partial",
   "theorems": [
    "Patro.Calculator.rewriteCalls_single_partial",
    "Patro.Calculator.rewriteCalls_none",
    "Patro.Calculator.rewriteCalls_prefix_clash",
    "Patro.Calculator.rewriteCalls_current_length",
    "Patro.Calculator.rewriteCalls_words_partial",
    "Patro.Calculator.pythonise_words_partial"
   ],
   "note": "rewriteCalls_words_partial and pythonise_words_partial: proved for expressions with any number of words and calls whose names do not clash. Refuted otherwise: rewriteCalls_prefix_clash and rewriteCalls_current_length are witnesses."
  },
  {
   "property": "C78",
   "status": "proved",
   "theorems": [
    "Patro.Measurement.value_stable",
    "Patro.Measurement.value_error_stable"
   ],
   "note": ""
  },
  {
   "property": "C79",
   "status": "proved",
   "theorems": [
    "Patro.Vec.orientation_eq_arg",
    "Patro.Vec.fromPolar_orientation",
    "Patro.Vec.angleWith_spec",
    "Patro.Vec.orientation_null"
   ],
   "note": ""
  },
  {
   "property": "C80",
   "status": "partial",
   "theorems": [
    "Patro.distanceToLine_spec",
    "Patro.projectedPoint_partial",
    "Patro.projectedPoint_foot_iff",
    "Patro.projectedPoint_wrong"
   ],
   "note": "projected_point is false unless the direction is normalised: projectedPoint_wrong is a witness, projectedPoint_foot_iff the exact condition and projectedPoint_partial the case that holds. distanceToLine_spec is proved in full."
  },
  {
   "property": "C81",
   "status": "proved",
   "theorems": [
    "Patro.coordinates_spec",
    "Patro.parallel_orthogonal_spec",
    "Patro.sideOf_spec",
    "Patro.segment_center_spec",
    "Patro.shareVertexWith_spec",
    "Patro.shiftedParallelLine_spec",
    "Patro.pointAtDistance_spec"
   ],
   "note": ""
  },
  {
   "property": "C82",
   "status": "partial",
   "theorems": [
    "Patro.containPoint_iff",
    "Patro.containPoint_partial",
    "Patro.containPoint_wrong"
   ],
   "note": "False of the code: containPoint_wrong. containPoint_iff is the exact behaviour, containPoint_partial the case that holds."
  },
  {
   "property": "C83",
   "status": "partial",
   "theorems": [
    "Patro.bisector_is_median",
    "Patro.triangle_area_spec",
    "Patro.triangle_area_base_height",
    "Patro.bisector_iff_partial",
    "Patro.bisector_wrong"
   ],
   "note": "The bisector half is false: bisector_wrong, bisector_is_median; bisector_iff_partial is the exact condition. The area half is proved."
  },
  {
   "property": "C84",
   "status": "proved",
   "theorems": [
    "Patro.boundingBox_spec"
   ],
   "note": ""
  },
  {
   "property": "C85",
   "status": "partial",
   "theorems": [
    "Patro.Polygon.isSimple_iff",
    "Patro.Polygon.isSimple_complete",
    "Patro.Polygon.isSimple_partial",
    "Patro.Polygon.isSimple_wrong_small",
    "Patro.Polygon.isSimple_wrong_vertex",
    "Patro.Polygon.isSimple_again"
   ],
   "note": "Every simple polygon is reported as simple, and the answer is characterised exactly (isSimple_iff). The converse is refuted: edges whose cross product rounds to zero are taken for parallel and a shared vertex is always accepted (isSimple_wrong_small, isSimple_wrong_vertex)."
  },
  {
   "property": "C86",
   "status": "proved",
   "theorems": [
    "Patro.Polygon.barycenter_spec",
    "Patro.Polygon.isClockwise_spec",
    "Patro.Polygon.pointBarycenter_spec"
   ],
   "note": ""
  },
  {
   "property": "C87",
   "status": "partial",
   "theorems": [
    "Patro.Polygon.isPointInside_exact",
    "Patro.Polygon.isPointInside_partial",
    "Patro.Polygon.isPointInside_raises"
   ],
   "note": "The code is wrong: the method reads attributes which do not exist. isPointInside_exact characterises what is observable, isPointInside_raises is a counterexample; the answer is never True."
  },
  {
   "property": "C88",
   "status": "proved",
   "theorems": [
    "Patro.Polygon.isConvex_complete",
    "Patro.Polygon.isConvex_simple",
    "Patro.Polygon.isConvex_wrong_order",
    "Patro.Polygon.isConvex_wrong_double",
    "Patro.Polygon.isConvex_again"
   ],
   "note": "As stated. The converse fails (isConvex_wrong_double) and so does the statement for polygons with a flat vertex in clockwise order (isConvex_wrong_order)."
  },
  {
   "property": "C89",
   "status": "partial",
   "theorems": [
    "Patro.Hull.convexHull_partial",
    "Patro.Hull.convexHull_raises_iff",
    "Patro.Hull.convexHull_cases",
    "Patro.Hull.convexHull_wrong",
    "Patro.Hull.convexHullPolygon_clockwise"
   ],
   "note": "Proved for distinct points of which no two are aligned with the lowest one. Otherwise TypeError is raised (convexHull_raises_iff, convexHull_wrong)."
  },
  {
   "property": "C90",
   "status": "proved",
   "theorems": [
    "Patro.Polygon.regular_spec",
    "Patro.Polygon.regular_convex",
    "Patro.Polygon.regular_area",
    "Patro.Polygon.regular_error"
   ],
   "note": ""
  },
  {
   "property": "C91",
   "status": "partial",
   "theorems": [
    "Patro.Polygon.simplify_partial",
    "Patro.Polygon.simplify_negative",
    "Patro.Polygon.simplify_wrong",
    "Patro.Polygon.simplify_none_iff",
    "Patro.Polygon.simplify_unbounded_wrong"
   ],
   "note": "Termination, order of the vertices, the exact criterion of removal and, for distinct vertices, the exact condition under which None is returned (simplify_none_iff) are proved. The bound on the distance is refuted: for every threshold, the distance of a removed vertex to the result exceeds any bound (simplify_unbounded_wrong), since the errors accumulate."
  },
  {
   "property": "C92",
   "status": "partial",
   "theorems": [
    "Patro.Transformation.scalarMul_partial",
    "Patro.Transformation.scalarMul_wrong",
    "Patro.Transformation.scalarMul_screen",
    "Patro.Transformation.scalarMul_made",
    "Patro.Transformation.scalarMul_opposite_wrong"
   ],
   "note": "scalarMul_made gives the exact product for each transformation made by the class methods; scalarMul_partial the general case of a known type that is not a shear. False when the type is lost: a rotation of 90 degrees about a centre multiplies a length by 0 (scalarMul_wrong); the screen transformation and a scale by opposite factors raise ValueError although they multiply all the distances by one number (scalarMul_screen, scalarMul_opposite_wrong)."
  },
  {
   "property": "C93",
   "status": "partial",
   "theorems": [
    "Patro.Conic.length_partial",
    "Patro.Conic.length_wrong",
    "Patro.Conic.perimeter_wrong",
    "Patro.Conic.new_distance"
   ],
   "note": "Proved for counter-clockwise and closed domains (length_partial) and for the start angle and distance constructor (new_distance). False for clockwise domains (length_wrong) and for the perimeter, whose branches are swapped (perimeter_wrong)."
  },
  {
   "property": "C94",
   "status": "proved",
   "theorems": [
    "Patro.Conic.pointAtAngle_on",
    "Patro.Conic.angleForPoint_inverse",
    "Patro.Conic.angle_roundtrip",
    "Patro.Conic.tangent_spec",
    "Patro.Conic.pointAtDistance_spec"
   ],
   "note": ""
  },
  {
   "property": "C95",
   "status": "partial",
   "theorems": [
    "Patro.Conic.circle_transform_made",
    "Patro.Conic.circle_transform_partial",
    "Patro.Conic.arc_transform_partial",
    "Patro.Conic.arc_transform_wrong",
    "Patro.Conic.circle_transform_wrong",
    "Patro.Conic.circle_transform_torn"
   ],
   "note": "The exact outcome for the transformations made by the class methods is circle_transform_made. The image is proved for full circles and transformations of known type (circle_transform_partial) and for arcs under translations and positive scales (arc_transform_partial). False for arcs under rotations (arc_transform_wrong), for the rotation about a centre (circle_transform_wrong), and a refused transformation leaves the centre moved (circle_transform_torn)."
  },
  {
   "property": "C96",
   "status": "partial",
   "theorems": [
    "Patro.SketchGeometry.contact_partial",
    "Patro.SketchGeometry.contact_outside_wrong",
    "Patro.SketchGeometry.contact_tangent_wrong"
   ],
   "note": "Refuted as stated: the point kept may be outside of the segment (contact_outside_wrong) and a tangent line raises (contact_tangent_wrong). Proved: on the line and on the circle, missing iff the line misses the circle."
  },
  {
   "property": "C97",
   "status": "partial",
   "theorems": [
    "Patro.Bezier.quad_length",
    "Patro.Bezier.quad_length_wrong"
   ],
   "note": "Complete behaviour proved (quad_length): the length is the integral of the speed, except for control points on a line with no gain of speed at the start, where ValueError is raised (quad_length_wrong)."
  },
  {
   "property": "C98",
   "status": "partial",
   "theorems": [
    "Patro.Bezier.cubic_length_partial",
    "Patro.Bezier.cubic_length_wrong",
    "Patro.Bezier.toCubic_length_wrong",
    "Patro.Bezier.cubic_length_wrong'"
   ],
   "note": "Proved for the curves of degree three with their number of parts, the distance of each part to its approximation and the error on the length (cubic_length_partial). False for curves of degree at most two, ZeroDivisionError (cubic_length_wrong, toCubic_length_wrong), and for some curves along a line, ValueError (cubic_length_wrong')."
  },
  {
   "property": "C99",
   "status": "partial",
   "theorems": [
    "Patro.Bezier.cubic_splitTwo",
    "Patro.Bezier.quad_splitTwo_partial",
    "Patro.Bezier.quad_splitTwo_wrong"
   ],
   "note": "Proved for cubic curves and, for quadratic curves, for parameters from 0 to 1. Refuted for quadratic curves out of this range (quad_splitTwo_wrong)."
  },
  {
   "property": "C100",
   "status": "partial",
   "theorems": [
    "Patro.Bezier.closest_critical_partial",
    "Patro.Bezier.closest_interior_partial",
    "Patro.Bezier.closest_wrong",
    "Patro.Bezier.quad_closest_wrong",
    "Patro.Bezier.quad_closest_outcome"
   ],
   "note": "Refuted (closest_wrong, quad_closest_wrong). Proved: the point returned is a critical point of the distance; it is the nearest point when this one is the only critical point and is inside the curve."
  },
  {
   "property": "C101",
   "status": "partial",
   "theorems": [
    "Patro.Bezier.area_origin",
    "Patro.Bezier.area_chord_iff",
    "Patro.Bezier.area_partial",
    "Patro.Bezier.area_wrong"
   ],
   "note": "Proved relative to the origin, and exactly when it is the area with the chord (area_origin, area_chord_iff). Refuted in general (area_wrong)."
  },
  {
   "property": "C102",
   "status": "proved",
   "theorems": [
    "Patro.Bezier.flat_spec",
    "Patro.Bezier.flat_complete",
    "Patro.Bezier.flat_zero_iff"
   ],
   "note": ""
  },
  {
   "property": "C103",
   "status": "proved",
   "theorems": [
    "Patro.Bezier.tangent_velocity"
   ],
   "note": ""
  },
  {
   "property": "C104",
   "status": "proved",
   "theorems": [
    "Patro.Bezier.interpolated_cubic",
    "Patro.Bezier.interpolated_quad",
    "Patro.Bezier.interpolated_default",
    "Patro.Bezier.interpolated_diverges"
   ],
   "note": "With an explicit bound on the error. The default step raises ZeroDivisionError for a closed curve, and a step that is not positive loops for ever (interpolated_default, interpolated_diverges)."
  },
  {
   "property": "C105",
   "status": "partial",
   "theorems": [
    "Patro.Bezier.tAtLength_spec",
    "Patro.Bezier.tAtLength_partial",
    "Patro.Bezier.tAtLength_wrong"
   ],
   "note": "Refuted (tAtLength_wrong): only the two ends are found. Complete behaviour in tAtLength_spec."
  },
  {
   "property": "C106",
   "status": "partial",
   "theorems": [
    "Patro.Spline.toBezier_spec",
    "Patro.Spline.toBezier_closed_wrong",
    "Patro.Spline.toBezier_degree_wrong",
    "Patro.Spline.toBezier_given_wrong"
   ],
   "note": "Proved for open splines of degree 2 and 3 without given knots (toBezier_spec). Raises for closed splines (toBezier_closed_wrong), other degrees (toBezier_degree_wrong) and given knots (toBezier_given_wrong)."
  },
  {
   "property": "C107",
   "status": "partial",
   "theorems": [
    "Patro.Path.clone_partial",
    "Patro.Path.clone_line_wrong",
    "Patro.Path.clone_raises_wrong"
   ],
   "note": "Exact characterisation: clone succeeds iff no part is a PathSegment, cubic or stringed curve; then the clone is equal to the path. Paths with a line raise UnboundLocalError, cubic curves NameError."
  },
  {
   "property": "C108",
   "status": "proved",
   "theorems": [
    "Patro.Path.bulge_tangent",
    "Patro.Path.bulge_side",
    "Patro.Path.bulge_arc",
    "Patro.Path.bulge_length_wrong"
   ],
   "note": "For non-parallel unit directions and a positive radius. The code does not check that the radius fits the length of the parts (bulge_length_wrong)."
  },
  {
   "property": "C109",
   "status": "partial",
   "theorems": [
    "Patro.Path.direction_fresh",
    "Patro.Path.transform_dir_fresh",
    "Patro.Path.direction_translation_partial",
    "Patro.Path.direction_stale_wrong"
   ],
   "note": "False: the cached direction of a segment is stale after a rotation. Proved when it was not asked before, for the parts by direction, and for translations and positive scalings."
  },
  {
   "property": "C110",
   "status": "partial",
   "theorems": [
    "Patro.SvgPath.geometry_partial",
    "Patro.SvgPath.first_move",
    "Patro.SvgPath.read_text_partial",
    "Patro.SvgPath.vertical_wrong",
    "Patro.SvgPath.second_move_wrong",
    "Patro.SvgPath.after_close_wrong",
    "Patro.SvgPath.wrong_coordinates",
    "Patro.SvgPath.smooth_wrong"
   ],
   "note": "Proved for the commands which are drawn rightly; V, a second move, commands after a close and smooth commands are wrong (vertical_wrong, second_move_wrong, after_close_wrong, smooth_wrong)."
  },
  {
   "property": "C111",
   "status": "partial",
   "theorems": [
    "Patro.SvgTransform.transform_partial",
    "Patro.SvgTransform.spaces_wrong",
    "Patro.SvgTransform.several_wrong",
    "Patro.SvgTransform.unsupported_wrong",
    "Patro.SvgTransform.unknown_wrong",
    "Patro.SvgTransform.write_read_wrong"
   ],
   "note": "Proved for one transformation without spaces; spaces, lists, skews and the library's own output are wrong (spaces_wrong, several_wrong, unsupported_wrong, write_read_wrong)."
  },
  {
   "property": "C112",
   "status": "partial",
   "theorems": [
    "Patro.SvgTransform.length_partial",
    "Patro.SvgTransform.length_value_error",
    "Patro.SvgTransform.length_written",
    "Patro.SvgTransform.percent_written_wrong",
    "Patro.SvgTransform.unit_wrong"
   ],
   "note": "Numbers and percentages are read as they are; the code falsifies the rest: a percentage is written as the text of an object, which is not read again (percent_written_wrong), and the unit is cut and written alone (unit_wrong)."
  },
  {
   "property": "C113",
   "status": "partial",
   "theorems": [
    "Patro.SvgState.newState_settled",
    "Patro.SvgState.extend_attribute",
    "Patro.SvgState.extend_text",
    "Patro.SvgState.extend_transform",
    "Patro.SvgState.extend_settled",
    "Patro.SvgState.inherited_iff",
    "Patro.SvgState.inherited_wrong",
    "Patro.SvgState.stroke_attributes_lost",
    "Patro.SvgState.extend_iff"
   ],
   "note": "False for the attributes the class of the element knows: inherited_iff is exact, inherited_wrong the witness; caps, joins and mitre limits given as attributes are lost. extend_iff says exactly when an element without a style has a state."
  },
  {
   "property": "C114",
   "status": "partial",
   "theorems": [
    "Patro.SvgState.style_partial",
    "Patro.SvgState.style_iff",
    "Patro.SvgState.style_semicolon_wrong",
    "Patro.SvgState.style_transform_wrong"
   ],
   "note": "Proved for styles without a final semicolon and without transform; both of these raise (style_semicolon_wrong, style_transform_wrong). style_iff says exactly when a style of declarations is read."
  },
  {
   "property": "C115",
   "status": "partial",
   "theorems": [
    "Patro.SvgState.comment_wrong",
    "Patro.SvgState.written_read_wrong"
   ],
   "note": "False: a comment raises TypeError (comment_wrong) and the writer always writes one (written_read_wrong)."
  },
  {
   "property": "C116",
   "status": "partial",
   "theorems": [
    "Patro.SvgState.class_of_tag",
    "Patro.SvgState.polygon_ellipse_wrong",
    "Patro.SvgState.item_attributes",
    "Patro.SvgState.item_shape",
    "Patro.SvgState.item_class_partial"
   ],
   "note": "Polygons and ellipses cannot be read and polylines are read as polygons (class_of_tag, polygon_ellipse_wrong); item_class_partial covers the others."
  },
  {
   "property": "C117",
   "status": "proved",
   "theorems": [
    "Patro.Scene.index_consistent",
    "Patro.Scene.update_index",
    "Patro.Scene.update_succeeds"
   ],
   "note": ""
  },
  {
   "property": "C118",
   "status": "partial",
   "theorems": [
    "Patro.Scene.dirty_false_recomputes",
    "Patro.Scene.dirty_true_wrong",
    "Patro.Scene.moved_item_wrong",
    "Patro.Scene.moved_item",
    "Patro.Scene.clean_item_skipped_wrong",
    "Patro.Scene.read_first_wrong"
   ],
   "note": "Setting dirty to false does recompute (dirty_false_recomputes, moved_item). The natural call, dirty = True, keeps the old geometry for ever (dirty_true_wrong, moved_item_wrong) and an item whose geometry is read before its first update never enters the index (clean_item_skipped_wrong, read_first_wrong)."
  },
  {
   "property": "C119",
   "status": "partial",
   "theorems": [
    "Patro.Scene.user_data",
    "Patro.Scene.unselect_all",
    "Patro.Scene.remove_item_wrong"
   ],
   "note": "User data and selection are proved. remove_item always raises TypeError and removes nothing (remove_item_wrong)."
  },
  {
   "property": "C120",
   "status": "partial",
   "theorems": [
    "Patro.Scene.bezier_path",
    "Patro.Scene.bezier_path_rejected",
    "Patro.Scene.bezier_path_segments_wrong"
   ],
   "note": "Proved for degrees 2 and 3, and the rejection of everything else. A chain of degree 1 always ends with TypeError after making its segments (bezier_path_segments_wrong)."
  },
  {
   "property": "C121",
   "status": "proved",
   "theorems": [
    "Patro.Scene.coordinate_cast",
    "Patro.Scene.coordinate_unknown"
   ],
   "note": ""
  },
  {
   "property": "C122",
   "status": "partial",
   "theorems": [
    "Patro.Units.yarn_default_wrong",
    "Patro.Units.yarn_new",
    "Patro.Units.yarn_number"
   ],
   "note": "holds with an explicit twist type; the default argument always raises ValueError (yarn_default_wrong)"
  },
  {
   "property": "C123",
   "status": "partial",
   "theorems": [
    "Patro.Colour.clone_same",
    "Patro.Colour.copy_partial",
    "Patro.Colour.copy_wrong",
    "Patro.Colour.eq_iff"
   ],
   "note": "clone and equality proved; a colour made from a colour is quantised and nameless (copy_wrong)"
  },
  {
   "property": "C124",
   "status": "partial",
   "theorems": [
    "Patro.Colour.hsv_round_trip",
    "Patro.Colour.hls_round_trip",
    "Patro.Colour.hsv_accepted",
    "Patro.Colour.hls_accepted",
    "Patro.Colour.hue_wrong",
    "Patro.Colour.light_integer_wrong",
    "Patro.Colour.hue_missing"
   ],
   "note": "proved for float components; integer 1 is read as 1/255 (hue_wrong)"
  },
  {
   "property": "C125",
   "status": "partial",
   "theorems": [
    "Patro.Textile.stitches_wrong",
    "Patro.Textile.stitches_read"
   ],
   "note": "refuted for every file (stitches_wrong); what is proved is that loading reads all entries or raises and leaves the database unchanged (stitches_read)"
  },
  {
   "property": "C126",
   "status": "partial",
   "theorems": [
    "Patro.Textile.fabric_wrong",
    "Patro.Textile.seam_name_wrong",
    "Patro.Textile.machine_wrong",
    "Patro.Textile.machine_needles",
    "Patro.Textile.machine_stitch_types",
    "Patro.Textile.machine_speed",
    "Patro.Textile.fabric_bending",
    "Patro.Textile.machine_partial"
   ],
   "note": "refuted: fabric_wrong, seam_name_wrong, machine_wrong; machine_partial gives the arguments that work"
  },
  {
   "property": "C127",
   "status": "partial",
   "theorems": [
    "Patro.Tex.file_name_partial",
    "Patro.Tex.file_name_wrong",
    "Patro.Tex.output_directory_wrong"
   ],
   "note": "file_name_partial for names that do not have three characters; refuted for all others (file_name_wrong) and for the directory (output_directory_wrong)"
  },
  {
   "property": "C128",
   "status": "partial",
   "theorems": [
    "Patro.Tex.path_style",
    "Patro.Tex.path_style_texts",
    "Patro.Tex.path_style_wrong"
   ],
   "note": "proved for five of the six stroke styles with a colour; refuted for the others (path_style_wrong)"
  },
  {
   "property": "C129",
   "status": "proved",
   "theorems": [
    "Patro.Tex.painted_in_order",
    "Patro.Tex.painting_stops"
   ],
   "note": ""
  },
  {
   "property": "C130",
   "status": "partial",
   "theorems": [
    "Patro.Tex.text_painted",
    "Patro.Tex.curves_painted",
    "Patro.Tex.circle_painted",
    "Patro.Tex.circle_wrong",
    "Patro.Tex.other_kinds_wrong",
    "Patro.Tex.coordinates_first"
   ],
   "note": "proved for texts, segments and cubic curves; refuted for circles and the other kinds (circle_wrong, other_kinds_wrong)"
  },
  {
   "property": "C131",
   "status": "partial",
   "theorems": [
    "Patro.Style.path_clone_partial",
    "Patro.Style.path_clone_iff",
    "Patro.Style.bezier_clone_wrong",
    "Patro.Style.clone_wrong"
   ],
   "note": "path_clone_iff characterises the styles with a faithful clone; refuted by clone_wrong and bezier_clone_wrong"
  },
  {
   "property": "C132",
   "status": "proved",
   "theorems": [
    "Patro.Style.style_defaults",
    "Patro.Style.style_attributes",
    "Patro.Style.style_made",
    "Patro.Style.enumeration_bool",
    "Patro.Style.style_bool",
    "Patro.Style.enumerations",
    "Patro.Style.sketch_styles",
    "Patro.Style.sketch_new",
    "Patro.Style.bezier_control"
   ],
   "note": ""
  },
  {
   "property": "C133",
   "status": "proved",
   "theorems": [
    "Patro.Conic.frame_coordinates",
    "Patro.Conic.frame_roundtrip",
    "Patro.Conic.frame_isometry"
   ],
   "note": ""
  },
  {
   "property": "C134",
   "status": "proved",
   "theorems": [
    "Patro.Conic.ellipse_points",
    "Patro.Conic.ellipse_ends"
   ],
   "note": ""
  },
  {
   "property": "C135",
   "status": "partial",
   "theorems": [
    "Patro.Conic.ellipse_box_partial",
    "Patro.Conic.ellipse_box_wrong",
    "Patro.Conic.major_vector_wrong",
    "Patro.Conic.axis_vectors_wrong",
    "Patro.Conic.ellipse_cache_partial",
    "Patro.Conic.ellipse_cache_wrong"
   ],
   "note": "Proved for ellipses with the angle 0 and for histories without the setters of the centre, radii and angle; ellipse_box_wrong, major_vector_wrong and ellipse_cache_wrong refute the rest."
  },
  {
   "property": "C136",
   "status": "partial",
   "theorems": [
    "Patro.Conic.ellipse_clone",
    "Patro.Conic.ellipse_transform_partial",
    "Patro.Conic.ellipse_transform_wrong",
    "Patro.Conic.ellipse_transform_torn"
   ],
   "note": "Proved for clones, translations and positive scales; ellipse_transform_wrong and ellipse_transform_torn refute it for rotations and for transformations that fail half-way."
  },
  {
   "property": "C137",
   "status": "partial",
   "theorems": [
    "Patro.Conic.eccentricity_foci",
    "Patro.Conic.eccentricity_wrong",
    "Patro.Conic.matrix_wrong"
   ],
   "note": "The eccentricity holds when the first radius is the greatest one (eccentricity_foci), eccentricity_wrong and matrix_wrong refute the rest."
  },
  {
   "property": "C138",
   "status": "partial",
   "theorems": [
    "Patro.Conic.ellipse_distance_partial",
    "Patro.Conic.ellipse_distance_error",
    "Patro.Conic.ellipse_distance_wrong",
    "Patro.Conic.ellipse_inside_partial",
    "Patro.Conic.ellipse_inside_wrong"
   ],
   "note": "Proved for radius_x >= radius_y up to the error of 1074 halvings in exact arithmetic; ellipse_distance_wrong refutes it for the other order, ellipse_inside_wrong for centres other than the origin."
  },
  {
   "property": "C139",
   "status": "partial",
   "theorems": [
    "Patro.Conic.ellipse_intersect",
    "Patro.Conic.ellipse_intersect_null"
   ],
   "note": "Proved when the line meets the ellipse twice; the same theorem shows that a tangent line raises AttributeError and a line that misses the ellipse TypeError."
  },
  {
   "property": "C140",
   "status": "partial",
   "theorems": [
    "Patro.Conic.to_bezier_partial",
    "Patro.Conic.to_bezier_quarters",
    "Patro.Conic.to_bezier_clockwise",
    "Patro.Conic.to_bezier_wrong",
    "Patro.Conic.to_bezier_null"
   ],
   "note": "Proved for closed ellipses and counter-clockwise arcs; to_bezier_wrong and to_bezier_clockwise refute it for clockwise arcs, to_bezier_null for null arcs."
  },
  {
   "property": "C141",
   "status": "partial",
   "theorems": [
    "Patro.Conic.svg_arc_partial",
    "Patro.Conic.svg_arc_small",
    "Patro.Conic.svg_arc_degenerate",
    "Patro.Conic.svg_arc_ends_wrong",
    "Patro.Conic.svg_arc_wrong"
   ],
   "note": "Direction, length and ellipse are proved; the ends are the mirror images of the points (svg_arc_partial, svg_arc_wrong), and radii that are too small raise (svg_arc_small)."
  },
  {
   "property": "C142",
   "status": "partial",
   "theorems": [
    "Patro.Conic.domain_flags",
    "Patro.Conic.circle_from_points",
    "Patro.Conic.circle_diameter",
    "Patro.Conic.circle_radius",
    "Patro.Conic.circle_area",
    "Patro.Conic.circle_area_wrong"
   ],
   "note": "The area ignores the domain of an arc (circle_area_wrong)."
  },
  {
   "property": "C143",
   "status": "partial",
   "theorems": [
    "Patro.Conic.circle_clone_partial",
    "Patro.Conic.circle_operations",
    "Patro.Conic.circle_clone_wrong"
   ],
   "note": "The bounds of the domain are shared (circle_clone_wrong)."
  },
  {
   "property": "C144",
   "status": "partial",
   "theorems": [
    "Patro.Conic.intersect_circle_none",
    "Patro.Conic.intersect_circle_tangent_partial",
    "Patro.Conic.intersect_circle_secant",
    "Patro.Conic.intersect_circle_concentric",
    "Patro.Conic.intersect_circle_wrong"
   ],
   "note": "Characterised for all pairs of circles: None and tangent circles on the right are right, the others are refuted (intersect_circle_secant, intersect_circle_wrong, intersect_circle_concentric)."
  },
  {
   "property": "C145",
   "status": "partial",
   "theorems": [
    "Patro.Polygon.signedArea_shift",
    "Patro.Polygon.recenter_partial",
    "Patro.Polygon.recenter_unread_wrong",
    "Patro.Polygon.recenter_twice_wrong",
    "Patro.Polygon.recenter_flat_wrong",
    "Patro.Polygon.recenter_transformed_wrong"
   ],
   "note": "True once, after the barycentre has been read, for a polygon which is not flat. Without a reading AttributeError is raised, the second call moves the polygon again, and a flat polygon is deformed because its barycentre is its first point object."
  },
  {
   "property": "C146",
   "status": "partial",
   "theorems": [
    "Patro.Polygon.axes_partial",
    "Patro.Polygon.axes_not_simple",
    "Patro.Polygon.axes_position_wrong",
    "Patro.Polygon.axes_stale_wrong"
   ],
   "note": "Proved for the second moments of the vertices about the origin. The code never recentres, so the axes of a square depend on its position (axes_position_wrong), and the axes are not recomputed after a transformation."
  },
  {
   "property": "C147",
   "status": "partial",
   "theorems": [
    "Patro.Primitive.reverse_wrong",
    "Patro.Primitive.reverse_defined",
    "Patro.Primitive.reverse_partial"
   ],
   "note": "False of the code: PointPrimitive.reverse comes before the one of the mixin in the order of resolution and returns the same object."
  },
  {
   "property": "C148",
   "status": "partial",
   "theorems": [
    "Patro.Primitive.closed_iff",
    "Patro.Primitive.toPath_polygon",
    "Patro.Primitive.toPath_wrong",
    "Patro.Primitive.toPolygon_wrong",
    "Patro.Primitive.toPath_polyline",
    "Patro.Primitive.toPath_polyline_wrong"
   ],
   "note": "Proved for polygons. to_path raises for triangles and rectangles, to_polygon always raises, and Polyline2D.to_path takes the points as displacements."
  },
  {
   "property": "C149",
   "status": "proved",
   "theorems": [
    "Patro.Primitive.iterOnNuplets_spec"
   ],
   "note": ""
  },
  {
   "property": "C150",
   "status": "partial",
   "theorems": [
    "Patro.SceneGeometry.add_partial",
    "Patro.SceneGeometry.ellipse_arc_wrong",
    "Patro.SceneGeometry.add_spline_cubic",
    "Patro.SceneGeometry.add_spline_quadratic_wrong"
   ],
   "note": "Proved for curves, circles, whole ellipses, polygons, polylines, rectangles, segments, triangles and cubic splines. Arcs of ellipses are drawn as whole ellipses, quadratic splines raise TypeError, lines raise NotImplementedError; paths are in C152."
  },
  {
   "property": "C151",
   "status": "partial",
   "theorems": [
    "Patro.SceneGeometry.transformed_partial",
    "Patro.SceneGeometry.transformed_rectangle_partial",
    "Patro.SceneGeometry.transformed_circle_partial",
    "Patro.SceneGeometry.transformed_circle_wrong",
    "Patro.SceneGeometry.transformed_rectangle_wrong",
    "Patro.SceneGeometry.ellipse_item_wrong"
   ],
   "note": "Proved for Bézier curves, polygons, polylines and segments; exactly when it holds for rectangles which are not flat (the axes are kept or exchanged); for circles under translations, and whole circles under isometries. False for scaled circles, turned rectangles and arcs of ellipses."
  },
  {
   "property": "C152",
   "status": "partial",
   "theorems": [
    "Patro.SceneGeometry.path_items_partial",
    "Patro.SceneGeometry.plain_items_partial",
    "Patro.SceneGeometry.stringed_items_wrong",
    "Patro.SceneGeometry.arc_items_wrong",
    "Patro.SceneGeometry.closed_twice_wrong"
   ],
   "note": "Proved for lines, Bézier curves and rounded corners of any path closed once. Stringed curves are not drawn (stringed_items_wrong), arcs of ellipses inherit the faults of svg_arc (C141) or raise, and a path closed twice is torn."
  },
  {
   "property": "C153",
   "status": "partial",
   "theorems": [
    "Patro.SceneGeometry.path_item_partial",
    "Patro.SceneGeometry.path_item_arc_wrong",
    "Patro.SceneGeometry.path_item_geometry_wrong",
    "Patro.SceneGeometry.path_item_index_wrong"
   ],
   "note": "Proved for lines and Bézier curves. Arcs and rounded corners are ignored, and the geometry of the item is its start point, so that the index of the scene cannot be updated."
  },
  {
   "property": "C154",
   "status": "partial",
   "theorems": [
    "Patro.SceneGeometry.path_box_partial",
    "Patro.SceneGeometry.path_box_contains",
    "Patro.SceneGeometry.path_box_curve_wrong",
    "Patro.SceneGeometry.path_box_stringed_wrong",
    "Patro.SceneGeometry.path_box_wrong"
   ],
   "note": "Proved for paths of lines and Bézier curves without rounded corners: the box is that of the points and of the control points, and contains the path. Refuted: the arc of a rounded corner is not in the box (path_box_wrong), the box of a curve is not the smallest one (path_box_curve_wrong), a stringed curve raises (path_box_stringed_wrong). Arcs of ellipses inherit the faults of C135 and C141."
  },
  {
   "property": "C155",
   "status": "partial",
   "theorems": [
    "Patro.Painters.svg_style_sheet",
    "Patro.Painters.svg_items_partial",
    "Patro.Painters.svg_place_wrong",
    "Patro.Painters.svg_above_page_wrong",
    "Patro.Painters.svg_vector",
    "Patro.Painters.svg_circle_wrong",
    "Patro.Painters.svg_cubic_wrong",
    "Patro.Painters.no_bounding_box_wrong",
    "Patro.Painters.painter_document",
    "Patro.Painters.other_kinds_wrong",
    "Patro.Painters.positions_wrong",
    "Patro.Painters.no_colour_wrong",
    "Patro.Painters.no_colour_exception",
    "Patro.Painters.other_items_wrong"
   ],
   "note": "Proved for texts and segments, for the order and for the scale. It fails for the place (the translation is applied after the scale: right only when the corner of the box is the origin, and above the page for a scene on the positive side), for circles (written as an empty text), for cubic curves (not written), for the other kinds, and for every scene whose bounding box was not assigned from outside, as only detail_scene does (no_bounding_box_wrong)."
  },
  {
   "property": "C156",
   "status": "proved",
   "theorems": [
    "Patro.Painters.svg_document"
   ],
   "note": ""
  },
  {
   "property": "C157",
   "status": "partial",
   "theorems": [
    "Patro.Painters.dxf_items_partial",
    "Patro.Painters.dxf_colour_wrong",
    "Patro.Painters.dxf_circle_wrong",
    "Patro.Painters.other_kinds_wrong",
    "Patro.Painters.dxf_driver"
   ],
   "note": "Proved for texts, segments and cubic curves without colour, without a named colour, or black. It fails for every other named colour (the file is not saved), for circles (skipped) and for the other kinds."
  },
  {
   "property": "C158",
   "status": "partial",
   "theorems": [
    "Patro.Painters.no_bounding_box_wrong",
    "Patro.Painters.painter_document",
    "Patro.Painters.other_kinds_wrong",
    "Patro.Painters.pdf_page",
    "Patro.Painters.pdf_items_partial",
    "Patro.Painters.pdf_margin_wrong",
    "Patro.Painters.pdf_style_wrong",
    "Patro.Painters.pdf_driver_wrong"
   ],
   "note": "Proved for the page size, the items and their order. It fails for the scale (seven tenths), for the margin (right only when the corner of the box is the origin), for the style and the radius of circles (not used), without the driver argument (KeyError), for the other kinds, and for every scene whose bounding box was not assigned from outside, as only detail_scene does (no_bounding_box_wrong)."
  },
  {
   "property": "C159",
   "status": "partial",
   "theorems": [
    "Patro.Painters.no_bounding_box_wrong",
    "Patro.Painters.painter_document",
    "Patro.Painters.other_kinds_wrong",
    "Patro.Painters.mpl_items_partial",
    "Patro.Painters.positions_wrong",
    "Patro.Painters.no_colour_wrong",
    "Patro.Painters.no_colour_exception",
    "Patro.Painters.other_items_wrong",
    "Patro.Painters.mpl_limits",
    "Patro.Painters.mpl_circle_wrong"
   ],
   "note": "Proved for texts, segments, cubic curves and the limits. It fails for the radius of circles, for the other kinds, and for every scene whose bounding box was not assigned from outside, as only detail_scene does (no_bounding_box_wrong)."
  },
  {
   "property": "C160",
   "status": "proved",
   "theorems": [
    "Patro.Valentina.read_describes",
    "Patro.Valentina.read_succeeds",
    "Patro.Valentina.read_raises",
    "Patro.Valentina.unknown_raises",
    "Patro.Valentina.dangling_raises"
   ],
   "note": "The model describes the modules as they would run if their import were repaired: at this commit Valentina/Pattern.py cannot be imported (ValentinaMeasurement.py imports a name that does not exist). The classes are those of the dispatch tables; `float` is a parameter that raises nothing else than ValueError."
  },
  {
   "property": "C161",
   "status": "partial",
   "theorems": [
    "Patro.Valentina.write_operation",
    "Patro.Valentina.write_sketch",
    "Patro.Valentina.default_style_wrong",
    "Patro.Valentina.missing_argument"
   ],
   "note": "The model describes the modules as they would run if their import were repaired: at this commit Valentina/Pattern.py cannot be imported (ValentinaMeasurement.py imports a name that does not exist). Proved for operations whose stroke style is a style and whose colour is a colour or None. It fails for the default stroke style of the points along a line, at the end of a line and on a normal, which is None and raises KeyError."
  },
  {
   "property": "C162",
   "status": "partial",
   "theorems": [
    "Patro.Valentina.sketch_round_trip_partial",
    "Patro.Valentina.spline_style_wrong",
    "Patro.Valentina.unnamed_wrong",
    "Patro.Valentina.object_style_wrong"
   ],
   "note": "The model describes the modules as they would run if their import were repaired: at this commit Valentina/Pattern.py cannot be imported (ValentinaMeasurement.py imports a name that does not exist). Proved for named points, colours in range, and splines with a solid line and a colour. It fails for other styles of splines, which are not written, for points without a name, which come back with the name 'None', and for the colour of a spline, which comes back as a text; a style kept as an XML object is written as 'StrokeStyle.…', which no reader knows."
  },
  {
   "property": "C163",
   "status": "partial",
   "theorems": [
    "Patro.Valentina.second_reading_wrong",
    "Patro.Valentina.read_back_wrong"
   ],
   "note": "The model describes the modules as they would run if their import were repaired: at this commit Valentina/Pattern.py cannot be imported (ValentinaMeasurement.py imports a name that does not exist). The property is false: a second reading raises NameError, and so does reading back a sketch in the process that built it. Both are proved for all inputs; nothing positive is left to prove."
  },
  {
   "property": "C164",
   "status": "partial",
   "theorems": [
    "Patro.Valentina.pattern_round_trip_partial",
    "Patro.Valentina.interleaved_scopes_wrong"
   ],
   "note": "The model describes the modules as they would run if their import were repaired: at this commit Valentina/Pattern.py cannot be imported (ValentinaMeasurement.py imports a name that does not exist). Proved for scopes filled one after the other, with values that the format holds. It fails when the scopes were filled in turns (NameError)."
  },
  {
   "property": "C165",
   "status": "partial",
   "theorems": [
    "Patro.Valentina.file_requires",
    "Patro.Valentina.file_lacks",
    "Patro.Valentina.details_wrong",
    "Patro.Valentina.details_require",
    "Patro.Valentina.boolean_written",
    "Patro.Valentina.boolean_from_python_wrong",
    "Patro.Valentina.modeling_item_read",
    "Patro.Valentina.detail_read",
    "Patro.Valentina.detail_child_read"
   ],
   "note": "The model describes the modules as they would run if their import were repaired: at this commit Valentina/Pattern.py cannot be imported (ValentinaMeasurement.py imports a name that does not exist). The first half is proved. The second half is false: details and modeling are read and dropped, and never written."
  },
  {
   "property": "C166",
   "status": "partial",
   "theorems": [
    "Patro.Vit.vset_add",
    "Patro.Vit.vset_add_errors",
    "Patro.Vit.vset_lookup",
    "Patro.Vit.vset_iter_partial",
    "Patro.Vit.vset_iter_wrong",
    "Patro.Vit.vset_clash_wrong",
    "Patro.Vit.vset_plain"
   ],
   "note": "Proved except for loops: a custom measurement is given twice (vset_iter_wrong), and @a and C_a exclude each other (vset_clash_wrong). At this commit the module imports a name that does not exist; it is modelled as if the import were repaired."
  },
  {
   "property": "C167",
   "status": "partial",
   "theorems": [
    "Patro.Vit.vit_read",
    "Patro.Vit.vit_read_succeeds",
    "Patro.Vit.vit_unit_wrong",
    "Patro.Vit.vit_email_wrong",
    "Patro.Vit.vit_missing",
    "Patro.Vit.vit_body"
   ],
   "note": "Proved for the measurements and the personal data. The measurements have no unit and no system whatever the file says (vit_unit_wrong), an empty e-mail becomes the text None (vit_email_wrong), and a file without customer is refused (vit_missing), as the example in the module is."
  },
  {
   "property": "C168",
   "status": "partial",
   "theorems": [
    "Patro.Vit.gender_set",
    "Patro.Vit.personal_ignores",
    "Patro.Vit.personal_round_trip",
    "Patro.Vit.personal_new_partial",
    "Patro.Vit.personal_none_wrong",
    "Patro.Vit.birth_date_wrong"
   ],
   "note": "A text given as None becomes the text None (personal_none_wrong); a birth date given with a time keeps it (birth_date_wrong). The rest is proved."
  },
  {
   "property": "C169",
   "status": "partial",
   "theorems": [
    "Patro.Vit.ensure_date_text",
    "Patro.Vit.ensure_datetime_text",
    "Patro.Vit.date_round_trip",
    "Patro.Vit.datetime_round_trip_partial",
    "Patro.Vit.datetime_round_trip_wrong"
   ],
   "note": "Proved for dates and for both formats. The text of a datetime is never read back (datetime_round_trip_wrong). Digits outside ASCII are not modelled."
  },
  {
   "property": "C170",
   "status": "proved",
   "theorems": [
    "Patro.Vit.standard_lookup"
   ],
   "note": "The names of the measurements do not change after they are added."
  },
  {
   "property": "C171",
   "status": "proved",
   "theorems": [
    "Patro.Detail.sketch_box",
    "Patro.Detail.sketch_box_curves",
    "Patro.Detail.sketch_box_eval",
    "Patro.Detail.sketch_box_before",
    "Patro.Detail.sketch_box_ends",
    "Patro.Detail.sketch_box_no_controls"
   ],
   "note": "The points eval leaves without position (contacts and intersections that do not exist) make the bounding box raise AttributeError (sketch_box_eval)."
  },
  {
   "property": "C172",
   "status": "proved",
   "theorems": [
    "Patro.Detail.detail_scene",
    "Patro.Detail.detail_user_data",
    "Patro.Detail.detail_coordinate",
    "Patro.Detail.detail_default",
    "Patro.Detail.detail_ends"
   ],
   "note": "Under the hypotheses that names are distinct and that lines have a style; see C173 without them."
  },
  {
   "property": "C173",
   "status": "partial",
   "theorems": [
    "Patro.Detail.detail_same_name_wrong",
    "Patro.Detail.detail_label_wrong",
    "Patro.Detail.detail_style_wrong",
    "Patro.Detail.detail_box_error"
   ],
   "note": "Refuted: a repeated name moves the first point (detail_same_name_wrong), a label without offset gets a line of null length (detail_label_wrong), a point without line style, the default, raises ValueError (detail_style_wrong)."
  },
  {
   "property": "C174",
   "status": "partial",
   "theorems": [
    "Patro.ToPython.to_python_partial",
    "Patro.ToPython.to_python_injective",
    "Patro.ToPython.to_python_style_wrong",
    "Patro.ToPython.to_python_line_wrong",
    "Patro.ToPython.to_python_quote_wrong",
    "Patro.ToPython.to_python_inf_wrong"
   ],
   "note": "Proved for the values that can be written. A line style or a colour, which every line has by default, gives code that cannot be parsed (to_python_style_wrong, to_python_line_wrong), as do a quote in a name and the expression inf. What float accepts is a parameter."
  },
  {
   "property": "C175",
   "status": "proved",
   "theorems": [
    "Patro.DxfImport.import_items",
    "Patro.DxfImport.import_refused"
   ],
   "note": "What the attributes of entities are is the DXF reference as written in Spec/DxfImport.lean; see C176 and C177 for the entities whose points differ."
  },
  {
   "property": "C176",
   "status": "partial",
   "theorems": [
    "Patro.DxfImport.ellipse_parameters",
    "Patro.DxfImport.ellipse_vertical_full",
    "Patro.DxfImport.ellipse_vertical_wrong",
    "Patro.DxfImport.ellipse_closed_wrong",
    "Patro.DxfImport.mirrored_wrong",
    "Patro.DxfImport.arc_range_wrong"
   ],
   "note": "Proved for ellipses which are not mirrored and whose major axis does not point upwards. Refuted: a major axis pointing upwards moves the ends by a quarter of a turn (ellipse_vertical_wrong), a whole ellipse is never closed, the extrusion is ignored (mirrored_wrong), angles out of the range from 0 to 360 lose points (arc_range_wrong)."
  },
  {
   "property": "C177",
   "status": "partial",
   "theorems": [
    "Patro.DxfImport.spline_points_partial",
    "Patro.DxfImport.spline_data_wrong",
    "Patro.DxfImport.spline_knots_wrong",
    "Patro.DxfImport.spline_fit_wrong"
   ],
   "note": "Proved for clamped uniform knots without weights. The knots, the weights and the fit points of the file play no part, for every spline (spline_data_wrong); refuted for other knots (spline_knots_wrong) and for fit points (spline_fit_wrong)."
  },
  {
   "property": "C178",
   "status": "partial",
   "theorems": [
    "Patro.ArrowHead.head_triangle",
    "Patro.ArrowHead.head_angle",
    "Patro.ArrowHead.one_side_wrong",
    "Patro.ArrowHead.axial_offset_wrong",
    "Patro.ArrowHead.head_made",
    "Patro.ArrowHead.head_transform_wrong"
   ],
   "note": "Proved for both sides and no offset. Refuted for one side (one_side_wrong) and for an offset (axial_offset_wrong), which always raise AttributeError, and for transformations (head_transform_wrong)."
  },
  {
   "property": "C179",
   "status": "partial",
   "theorems": [
    "Patro.ArrowHead.curvy_path",
    "Patro.ArrowHead.curvy_symmetric_wrong"
   ],
   "note": "The path is proved; the symmetry is refuted unless the depth or the triangle is null (curvy_symmetric_wrong)."
  },
  {
   "property": "C180",
   "status": "partial",
   "theorems": [
    "Patro.Qt.paint_items_partial",
    "Patro.Qt.rectangle_wrong",
    "Patro.Qt.curved_path_wrong",
    "Patro.Qt.closed_path_wrong",
    "Patro.Qt.ellipse_angle_wrong",
    "Patro.Qt.quadratic_partial",
    "Patro.Qt.quadratic_wrong",
    "Patro.Qt.quadratic_cache_wrong",
    "Patro.Qt.control_points"
   ],
   "note": "Proved for texts, images, circles, ellipses, segments, polylines, polygons, cubic curves and open paths of segments, and for quadratic curves in scenes without transformation. Refuted: rectangles (rectangle_wrong), paths with curves (curved_path_wrong), closed paths (closed_path_wrong), rotated ellipses (ellipse_angle_wrong), quadratic curves in a transformed scene (quadratic_wrong) or after a move of their points (quadratic_cache_wrong). QPainter is trusted."
  },
  {
   "property": "C181",
   "status": "partial",
   "theorems": [
    "Patro.Qt.control_pens",
    "Patro.Qt.pens_partial",
    "Patro.Qt.fill_pen_wrong",
    "Patro.Qt.no_colour_wrong",
    "Patro.Qt.text_pen_wrong"
   ],
   "note": "Proved for items with a colour and no fill. Refuted: the outline of a filled item has the fill colour, also when it is selected (fill_pen_wrong), an item without colour is drawn with the pen of the previous one (no_colour_wrong), and so is a text (text_pen_wrong)."
  },
  {
   "property": "C182",
   "status": "partial",
   "theorems": [
    "Patro.Qt.arc_angles_partial",
    "Patro.Qt.arc_angles_wrong",
    "Patro.Qt.arc_place",
    "Patro.Qt.svg_arc_wrong"
   ],
   "note": "Refuted for a stop angle less than a sixteenth of a degree before the start (arc_angles_wrong) and for SVG files, which are drawn upside down (svg_arc_wrong)."
  },
  {
   "property": "C183",
   "status": "partial",
   "theorems": [
    "Patro.Qt.grid_step",
    "Patro.Qt.grid_transformed_wrong",
    "Patro.Qt.grid_partial",
    "Patro.Qt.empty_area_wrong",
    "Patro.Qt.grid_below"
   ],
   "note": "Proved for scenes without transformation. Refuted: an area without size makes the painting fail (empty_area_wrong), the grid follows the transformation of the scene (grid_transformed_wrong)."
  },
  {
   "property": "C184",
   "status": "partial",
   "theorems": [
    "Patro.Qt.set_scene_partial",
    "Patro.Qt.new_viewer",
    "Patro.Qt.set_scene_no_size",
    "Patro.Qt.set_scene_wrong"
   ],
   "note": "Proved for a scene whose bounding box was assigned. Refuted for the others: a scene has no bounding box of its own, the setter raises AttributeError and keeps the scene (set_scene_wrong)."
  },
  {
   "property": "C185",
   "status": "partial",
   "theorems": [
    "Patro.Qt.click_nearest",
    "Patro.Qt.click_succeeds",
    "Patro.Qt.click_invisible_wrong"
   ],
   "note": "Proved for the items of the index. Refuted: items that are not visible can be selected (click_invisible_wrong); an item whose geometry was read before the first update is not in the index, see C118."
  },
  {
   "property": "C186",
   "status": "partial",
   "theorems": [
    "dependencies_partial",
    "dependencies_error",
    "line_dependencies",
    "other_dependencies_wrong"
   ],
   "note": "The exact dependencies are proved for every expression; refuted as wanted: only the calls of Line are registered, the points of the other functions are not (other_dependencies_wrong)."
  },
  {
   "property": "C187",
   "status": "partial",
   "theorems": [
    "line_value",
    "angle_line_value",
    "current_length",
    "unknown_point",
    "spline_functions_wrong",
    "angle_line_null_wrong"
   ],
   "note": "Proved for Line, AngleLine and CurrentLength. Refuted: the functions of a curve are 0 (spline_functions_wrong), and the direction between two points at the same place is 90 degrees (angle_line_null_wrong)."
  },
  {
   "property": "C188",
   "status": "proved",
   "theorems": [
    "Patro.VectorObject.operators_pure",
    "Patro.VectorObject.vectors_not_shared"
   ],
   "note": ""
  },
  {
   "property": "C189",
   "status": "partial",
   "theorems": [
    "Patro.VectorObject.arithmetic",
    "Patro.VectorObject.add_class",
    "Patro.VectorObject.int_add_wrong",
    "Patro.VectorObject.homogeneous_right_wrong",
    "Patro.VectorObject.homogeneous_weight_wrong",
    "Patro.VectorObject.normalised_wrong"
   ],
   "note": "Proved for vectors of floats. Refuted for vectors of integers (int_add_wrong), homogeneous vectors (homogeneous_right_wrong, homogeneous_weight_wrong) and normalised vectors (normalised_wrong)."
  },
  {
   "property": "C190",
   "status": "partial",
   "theorems": [
    "Patro.VectorObject.eq_iff_partial",
    "Patro.VectorObject.eq_homogeneous_wrong",
    "Patro.VectorObject.almost_equal_partial",
    "Patro.VectorObject.almost_equal_wrong"
   ],
   "note": "Refuted across classes (eq_homogeneous_wrong) and for the symmetry of almost_equal (almost_equal_wrong)."
  },
  {
   "property": "C191",
   "status": "proved",
   "theorems": [
    "Patro.VectorObject.integers",
    "Patro.VectorObject.integers_stay"
   ],
   "note": ""
  },
  {
   "property": "C192",
   "status": "partial",
   "theorems": [
    "Patro.DxfRoundTrip.round_trip_partial",
    "Patro.DxfRoundTrip.scale_wrong",
    "Patro.DxfRoundTrip.lost_wrong"
   ],
   "note": "Proved: one item for each visible segment and curve, in order, with every point ten times further. Refuted: the scale (scale_wrong), texts and circles (lost_wrong)."
  },
  {
   "property": "C193",
   "status": "partial",
   "theorems": [
    "Patro.boundingBox_covers_partial",
    "Patro.boundingBox_vertical_wrong",
    "Patro.boundingBox_center_partial",
    "Patro.boundingBox_outside_wrong",
    "Patro.distances_wrong",
    "Patro.triangleProjectedPoint_iff",
    "Patro.triangleProjectedPoint_partial",
    "Patro.triangleProjectedPoint_wrong",
    "Patro.triangleProjectedPoint_always_wrong",
    "Patro.parallel_orthogonal_lines"
   ],
   "note": "Proved: the points of a box (lines that are not vertical; inside the box for a line through its center), parallelism, completion of a triangle for vectors of length 1 and exactly when for the others. Refuted: vertical lines, points outside of the box, distances between abscissae, other vectors."
  },
  {
   "property": "C194",
   "status": "partial",
   "theorems": [
    "Patro.Triangle.measures_wrong"
   ],
   "note": "Refuted: every measure but the area raises, for all triangles and histories (measures_wrong)."
  },
  {
   "property": "C195",
   "status": "partial",
   "theorems": [
    "Patro.Roots.fifthRoot_exact",
    "Patro.Roots.fifthRoot_arguments",
    "Patro.Roots.cubicRoot_exact",
    "Patro.Roots.cubicRoot_constant",
    "Patro.Roots.cubicRootNormalised_raises_wrong",
    "Patro.Roots.cubicRootNormalised_cube_wrong"
   ],
   "note": "Proved for cubic_root and fifth_root; refuted for cubic_root_normalised (cubicRootNormalised_raises_wrong, cubicRootNormalised_cube_wrong)."
  },
  {
   "property": "C196",
   "status": "partial",
   "theorems": [
    "Patro.PolygonRest.toTriangle_spec",
    "Patro.PolygonRest.crossingNumberTest_wrong",
    "Patro.PolygonRest.ngonName_wrong",
    "Patro.PolygonRest.turns_spec"
   ],
   "note": "Proved for the triangles and the turns; refuted for the crossing number and the names (crossingNumberTest_wrong, ngonName_wrong)."
  },
  {
   "property": "C197",
   "status": "partial",
   "theorems": [
    "Patro.BezierIntersect.intersectLine_wrong",
    "Patro.BezierIntersect.quadRoots_partial",
    "Patro.BezierIntersect.cubicRoots_partial",
    "Patro.BezierIntersect.intersectCurve_wrong",
    "Patro.BezierIntersect.tangents_spec",
    "Patro.BezierIntersect.tangent1_wrong"
   ],
   "note": "Refuted: the intersections always raise (intersectLine_wrong, intersectCurve_wrong) and so does the end tangent of a quadratic curve. Proved: the roots computed after the mapping (quadRoots_partial, cubicRoots_partial), the other tangents."
  },
  {
   "property": "C198",
   "status": "proved",
   "theorems": [
    "Patro.Tex.detail_figure",
    "Patro.Tex.detail_figure_raises"
   ],
   "note": ""
  },
  {
   "property": "C199",
   "status": "partial",
   "theorems": [
    "Patro.Tex.tiled_figure_partial",
    "Patro.Tex.tiled_figure_raises",
    "Patro.Tex.tiled_cover_wrong"
   ],
   "note": "Proved for the pictures, their order, their size and their content, and for the exceptions. The pictures do not show the whole scene unless the grid has as many rows as columns (tiled_cover_wrong, from C67)."
  },
  {
   "property": "C200",
   "status": "partial",
   "theorems": [
    "Patro.Tex.document_page_partial",
    "Patro.Tex.landscape_wrong"
   ],
   "note": "Proved for the name and the margin. The orientation is not in the preamble: landscape papers give a portrait page on which the tiles do not fit (landscape_wrong)."
  },
  {
   "property": "C201",
   "status": "partial",
   "theorems": [
    "Patro.Measurement.save_wrong",
    "Patro.Measurement.yaml_round_trip_partial",
    "Patro.Measurement.yaml_number_wrong",
    "Patro.Measurement.yaml_formula_value",
    "Patro.Measurement.yaml_value",
    "Patro.Measurement.load_refused"
   ],
   "note": "Python has no codec called 'uft8': a save raises LookupError after having emptied the file, and a load raises too (save_wrong). Where a codec of this name is registered, the names, the texts and the expressions come back (yaml_round_trip_partial), with the numbers changed: a Python number comes back rounded to three digits (yaml_number_wrong)."
  },
  {
   "property": "C202",
   "status": "partial",
   "theorems": [
    "Patro.Measurement.attribute_iff",
    "Patro.Measurement.attribute_name_wrong",
    "Patro.Measurement.hasattr_wrong",
    "Patro.Measurement.hasattr_never_false"
   ],
   "note": "True exactly for the names that are not those of an attribute of the set, which `add` accepts (attribute_iff, attribute_name_wrong); a missing name raises KeyError, also from hasattr (hasattr_wrong, hasattr_never_false)."
  },
  {
   "property": "C203",
   "status": "partial",
   "theorems": [
    "Patro.Qt.to_svg_partial",
    "Patro.Qt.to_svg_wrong"
   ],
   "note": "Proved for the size, the place and the items; the picture is upside down, and a scene without bounding box raises (to_svg_wrong); the conversion of the size to integers is not modelled."
  },
  {
   "property": "C204",
   "status": "partial",
   "theorems": [
    "Patro.Common.find_partial",
    "Patro.Common.find_text_wrong",
    "Patro.Common.join_spec"
   ],
   "note": "Proved for a list of directories (find_partial). A directory given as a text is taken as the list of its characters, and nothing is found under bytes (find_text_wrong): the test for a single directory is one of Python 2."
  },
  {
   "property": "C205",
   "status": "proved",
   "theorems": [
    "Patro.Common.parent_add",
    "Patro.Common.parent_absolute",
    "Patro.Common.parent_default"
   ],
   "note": ""
  },
  {
   "property": "C206",
   "status": "partial",
   "theorems": [
    "Patro.Common.monostate_shared",
    "Patro.Common.monostate_classes",
    "Patro.Common.monostate_arguments_wrong"
   ],
   "note": "Proved between the objects of a class (monostate_shared). All classes that do not define their own state share one (monostate_classes), and constructors with arguments raise TypeError (monostate_arguments_wrong)."
  },
  {
   "property": "C207",
   "status": "partial",
   "theorems": [
    "Patro.Common.logging_partial",
    "Patro.Common.logging_wrong",
    "Patro.Common.logging_level"
   ],
   "note": "Proved for Linux and Windows (logging_partial, logging_level). On macOS the marks are not replaced although the format is the one of the terminal, on other systems it raises, and a level that does not exist raises (logging_wrong)."
  },
  {
   "property": "C208",
   "status": "partial",
   "theorems": [
    "Patro.Common.view_box_partial",
    "Patro.Common.view_box_wrong"
   ],
   "note": "True exactly if the corner is the origin (view_box_partial, view_box_wrong): width and height are taken for upper bounds."
  },
  {
   "property": "C209",
   "status": "partial",
   "theorems": [
    "Patro.Printed.sketch_to_pdf",
    "Patro.Printed.sketch_to_pdf_operation",
    "Patro.Printed.sketch_to_dxf_partial",
    "Patro.Printed.sketch_to_dxf_wrong",
    "Patro.Printed.sketch_to_mpl_partial",
    "Patro.Printed.sketch_without_colour_wrong",
    "Patro.Printed.ready_of_eval"
   ],
   "note": "Proved for PDF (sketch_to_pdf, sketch_to_pdf_operation, ready_of_eval). For DXF only if no line has a colour with a name other than black (sketch_to_dxf_partial), otherwise nothing is saved (sketch_to_dxf_wrong); for Matplotlib only if every line has a colour (sketch_to_mpl_partial, sketch_without_colour_wrong), which is not required by detail_scene."
  },
  {
   "property": "C210",
   "status": "proved",
   "theorems": [
    "Patro.PathEdit.reads_same",
    "Patro.PathEdit.points_computed",
    "Patro.PathEdit.arc_computed"
   ],
   "note": ""
  },
  {
   "property": "C211",
   "status": "partial",
   "theorems": [
    "Patro.PathEdit.edit_unread_partial",
    "Patro.PathEdit.edit_plain_partial",
    "Patro.PathEdit.radius_later_wrong",
    "Patro.PathEdit.direction_kept_wrong",
    "Patro.PathEdit.corner_kept_wrong",
    "Patro.PathEdit.no_radius"
   ],
   "note": "False of the code: a radius given to a part made without one makes its points unreadable (radius_later_wrong), a direction read before an edit is kept (direction_kept_wrong), and so are the points and the centre of a rounded corner (corner_kept_wrong). Proved before any reading (edit_unread_partial) and for paths without rounded corners (edit_plain_partial)."
  },
  {
   "property": "C212",
   "status": "partial",
   "theorems": [
    "Patro.Platform.memory_read",
    "Patro.Platform.cores_partial",
    "Patro.Platform.cores_wrong",
    "Patro.Platform.cpu_partial",
    "Patro.Platform.cpu_wrong",
    "Patro.Platform.no_colon",
    "Patro.Platform.no_frequency_wrong"
   ],
   "note": "The size of the memory is proved (memory_read). The number of cores counts every line with the word 'processor' (cores_partial, cores_wrong), the name is cut at a colon (cpu_partial, cpu_wrong) and a processor without frequency raises TypeError (no_frequency_wrong)."
  },
  {
   "property": "C213",
   "status": "partial",
   "theorems": [
    "Patro.TransformationNew.list_read_partial",
    "Patro.TransformationNew.refused",
    "Patro.TransformationNew.array_kept_partial",
    "Patro.TransformationNew.no_type_wrong",
    "Patro.TransformationNew.affine_no_type_wrong",
    "Patro.TransformationNew.copy_affine_wrong",
    "Patro.TransformationNew.copy_linear_partial",
    "Patro.TransformationNew.linear_of_affine_wrong",
    "Patro.TransformationNew.number_wrong"
   ],
   "note": "False of the code: no transformation is accepted by AffineTransformation2D, even an affine one (copy_affine_wrong), an affine one is accepted by Transformation2D with its array of 3x3 (linear_of_affine_wrong), without a type Transformation2D raises AttributeError (no_type_wrong) and AffineTransformation2D sets no type (affine_no_type_wrong), and a number makes no matrix (number_wrong). Proved: lists and arrays with a type (list_read_partial, array_kept_partial), refusals (refused), copies of linear transformations (copy_linear_partial)."
  },
  {
   "property": "C214",
   "status": "partial",
   "theorems": [
    "Patro.TransformationNew.type_sound",
    "Patro.TransformationNew.type_complete",
    "Patro.TransformationNew.type_refused",
    "Patro.TransformationNew.rotation_wrong"
   ],
   "note": "Sound and complete for identity, reflections and scales (type_sound, type_complete, type_refused); rotations are found to be generic (rotation_wrong)."
  },
  {
   "property": "C215",
   "status": "partial",
   "theorems": [
    "Patro.BezierClip.clip_part_partial",
    "Patro.BezierClip.clip_hull_wrong",
    "Patro.BezierClip.clip_hull_partial",
    "Patro.BezierClip.same_side_wrong",
    "Patro.BezierClip.opposite_sides_partial",
    "Patro.BezierClip.chord_wrong",
    "Patro.BezierClip.end_at_origin_wrong"
   ],
   "note": "Proved of the walk on one part (clip_part_partial) and of hulls whose left is in the band (clip_hull_partial). False of the rest: NameError as soon as there is something to clip (clip_hull_wrong) or when the control points are on the same side (same_side_wrong), and the line used is not the chord unless the curve begins at the origin (opposite_sides_partial, chord_wrong, end_at_origin_wrong)."
  },
  {
   "property": "C216",
   "status": "partial",
   "theorems": [
    "Patro.SketchGeometry.again_same_partial",
    "Patro.SketchGeometry.measurements_ignored_wrong",
    "Patro.SketchGeometry.dirty_fresh_partial"
   ],
   "note": "Proved: with the same formulas and measurements nothing changes (again_same_partial); when every expression is set dirty the evaluation is the one of a new sketch (dirty_fresh_partial, call_stable). False of the code: the library never sets expressions dirty, so a change of measurements is ignored by the next evaluation (measurements_ignored_wrong)."
  },
  {
   "property": "C217",
   "status": "proved",
   "theorems": [
    "Patro.SketchGeometry.unchanged_same"
   ],
   "note": "unchanged_same, about two evaluations of new sketches."
  },
  {
   "property": "C218",
   "status": "proved",
   "theorems": [
    "Patro.ValPlaces.file_well_formed",
    "Patro.ValPlaces.file_places"
   ],
   "note": "file_well_formed, file_places. The elements have an id, the points a name, and no placing attribute is missing; the text of a formula is interpreted by a parameter."
  },
  {
   "property": "C219",
   "status": "proved",
   "theorems": [
    "Patro.ValPlaces.written_drawing"
   ],
   "note": "written_drawing, under the conditions of C162 on the values of a sketch."
  },
  {
   "property": "C220",
   "status": "partial",
   "theorems": [
    "Patro.Printed.cubic_data_read",
    "Patro.Printed.sketch_to_svg_partial",
    "Patro.Printed.sketch_to_svg_wrong"
   ],
   "note": "sketch_to_svg_partial gives the whole document: labels and lines are there in order, with their colour, width and dashes, at the place of svg_place_wrong (C155). sketch_to_svg_wrong: no element is a path or a circle, so that the curves and the discs are missing. Lines without colour raise, see C209. cubic_data_read: the data of a curve, which is not written, is always read without exception."
  },
  {
   "property": "C221",
   "status": "partial",
   "theorems": [
    "Patro.Printed.sketch_to_tex_partial",
    "Patro.Printed.sketch_to_tiles_partial",
    "Patro.Printed.sketch_to_tex_wrong"
   ],
   "note": "sketch_to_tex_partial and sketch_to_tiles_partial. sketch_to_tex_wrong: a line without colour, or with the stroke style TeX has no text for, raises. The tiles miss a part of the box when the numbers of rows and columns differ (tiled_cover_wrong, C198). TeX itself is not modelled: a text is said to stand for a point."
  },
  {
   "property": "C222",
   "status": "proved",
   "theorems": [
    "Patro.ValPrinted.file_printed",
    "Patro.ValPrinted.file_without_style"
   ],
   "note": "file_printed, file_without_style. The elements have the attributes which place them, the points have the offset of their label, a curve has no colour or a known one, and the intersections of lines and points of contact exist; points of the same name are drawn wrongly (C172, detail_same_name_wrong). The text of a formula is interpreted by a parameter."
  },
  {
   "property": "C223",
   "status": "partial",
   "theorems": [
    "Patro.ValPrinted.file_to_dxf_partial",
    "Patro.ValPrinted.file_to_mpl_partial",
    "Patro.ValPrinted.file_to_svg_partial",
    "Patro.ValPrinted.file_to_tex_partial",
    "Patro.ValPrinted.file_to_tiles_partial",
    "Patro.ValPrinted.file_to_dxf_wrong",
    "Patro.ValPrinted.file_without_colour_wrong"
   ],
   "note": "file_to_dxf_partial if the named colours are black, otherwise the painter raises (file_to_dxf_wrong); file_to_mpl_partial, file_to_svg_partial, file_to_tex_partial and file_to_tiles_partial if every line has a colour, and for TeX a style other than dashDotDotLine; a line without colour, which the format allows, raises (file_without_colour_wrong). In SVG the discs and the curves are missing and the places are wrong, see C220 and C155."
  },
  {
   "property": "C224",
   "status": "proved",
   "theorems": [
    "Patro.Catalogue.load_ok",
    "Patro.Catalogue.load_found",
    "Patro.Catalogue.load_error",
    "Patro.Catalogue.shipped_loads"
   ],
   "note": "load_ok, load_found, load_error, shipped_loads. The reading of the YAML text is not modelled; the fields are texts."
  },
  {
   "property": "C225",
   "status": "partial",
   "theorems": [
    "Patro.Formulas.Formula.formula_value_partial",
    "Patro.Formulas.Formula.formula_value_only_partial",
    "Patro.Formulas.Formula.formula_none_partial",
    "Patro.Formulas.Formula.formula_error_partial",
    "Patro.Formulas.Formula.formula_outcome_partial",
    "Patro.Formulas.Formula.formula_unambiguous_partial",
    "Patro.Formulas.Formula.formula_angle_wrong",
    "Patro.Formulas.Formula.formula_text_partial",
    "Patro.Formulas.Formula.formula_text_outside_partial",
    "Patro.Formulas.Formula.formula_spline_wrong"
   ],
   "note": "formula_value_partial, formula_value_only_partial, formula_none_partial, formula_error_partial, formula_outcome_partial and formula_unambiguous_partial for readable formulas: no use of a function begins like another one (C22), CurrentLength is used once, at most one custom measurement is used (C21), and there is no blank at the beginning. The functions of splines give 0 (formula_spline_wrong). The angle of a line between two points at the same place is 90 degrees (formula_angle_wrong). The tokens and the grammar of Python are a part of the model. formula_text_partial and formula_text_outside_partial: for the texts without functions and custom measurements nothing has to be assumed, such a text has a value exactly if it is the text of a formula, and the value this formula denotes."
  },
  {
   "property": "C226",
   "status": "partial",
   "theorems": [
    "Patro.ValFormulas.calculator_values",
    "Patro.ValFormulas.calculator_solution",
    "Patro.ValFormulas.calculator_error",
    "Patro.ValFormulas.calculator_hidden_wrong",
    "Patro.ValFormulas.formula_measurements_partial",
    "Patro.ValFormulas.file_places_formulas_partial"
   ],
   "note": "calculator_values, calculator_error and calculator_hidden_wrong (a measurement called __calculator__ takes the place of the calculator) for all sets; formula_measurements_partial and file_places_formulas_partial for the formulas readable in the sense of C225 which ask no angle between points at the same place."
  },
  {
   "property": "C227",
   "status": "partial",
   "theorems": [
    "Patro.ValVit.vit_values",
    "Patro.ValVit.vit_file_printed_partial",
    "Patro.ValVit.vit_calculator"
   ],
   "note": "vit_values and vit_calculator for all files; vit_file_printed_partial for the formulas readable in the sense of C225. Measurements that refer to earlier names make the calculator raise TypeError, as in C25."
  },
  {
   "property": "C228",
   "status": "proved",
   "theorems": [
    "Patro.SketchGeometry.evaluates_next",
    "Patro.SketchGeometry.sketch_evaluates_iff",
    "Patro.SketchGeometry.evaluated_placeable",
    "Patro.SketchGeometry.tangent_not_evaluated"
   ],
   "note": "evaluates_next for one more operation, sketch_evaluates_iff for the whole, evaluated_placeable for the final places, tangent_not_evaluated for the tangent lines. Over the reals, in which a point of contact is exactly on a tangent; the floats of the code are not modelled."
  },
  {
   "property": "C229",
   "status": "proved",
   "theorems": [
    "Patro.ValPlaces.file_evaluates_iff"
   ],
   "note": "file_evaluates_iff: exact, for files whose calculations have the attributes that place them."
  },
  {
   "property": "C230",
   "status": "proved",
   "theorems": [
    "Patro.App.creates_first",
    "Patro.App.creates_none",
    "Patro.App.creates_once"
   ],
   "note": "creates_first, creates_none and creates_once, for one thread."
  },
  {
   "property": "C231",
   "status": "proved",
   "theorems": [
    "Patro.App.scene_last",
    "Patro.App.scene_notified"
   ],
   "note": "scene_last and scene_notified."
  },
  {
   "property": "C232",
   "status": "proved",
   "theorems": [
    "Patro.App.message_shown",
    "Patro.App.message_text"
   ],
   "note": "message_shown and message_text."
  },
  {
   "property": "C233",
   "status": "proved",
   "theorems": [
    "Patro.App.script_runs",
    "Patro.App.script_ends",
    "Patro.App.script_messages",
    "Patro.App.script_at_start"
   ],
   "note": "script_runs, script_ends, script_messages and script_at_start. What the event loop of Qt does with an exception is not modelled."
  },
  {
   "property": "C234",
   "status": "proved",
   "theorems": [
    "Patro.Valentina.file_read_iff",
    "Patro.Valentina.file_computed_iff"
   ],
   "note": "file_read_iff, for any eval which does not distinguish operations with the same properties; file_computed_iff, with the conditions of C229 for the evaluation. The float that a text is, the file of measurements and the compiled formulas are parameters."
  },
  {
   "property": "C235",
   "status": "partial",
   "theorems": [
    "Patro.Save.valentina_saved",
    "Patro.Save.valentina_failed",
    "Patro.Save.torn_wrong",
    "Patro.Save.svg_saved",
    "Patro.Save.tex_saved",
    "Patro.Save.tex_failed_wrong"
   ],
   "note": "valentina_saved, valentina_failed, svg_saved and tex_saved: the other files are kept, the file has its old content or a beginning of the new one, all of it at the end, and a pattern or an SVG file that cannot be made leaves the disk as it was. torn_wrong: the file is empty at some moment of every save, so a program stopped there loses it. tex_failed_wrong: a TeX document whose text cannot be encoded leaves an empty file. The bytes of the XML document and the errors of open are parameters."
  },
  {
   "property": "C236",
   "status": "partial",
   "theorems": [
    "Patro.Colour.colors_loaded",
    "Patro.Colour.valentina_colors_partial",
    "Patro.Colour.valentina_colors_wrong"
   ],
   "note": "colors_loaded: the import succeeds and gives the first definition of each name. valentina_colors_partial: twelve of the seventeen names of Valentina have the colour of Valentina. valentina_colors_wrong: goldenrod, green, lime, orange and violet have the colour of an earlier table."
  },
  {
   "property": "C237",
   "status": "partial",
   "theorems": [
    "Patro.Save.saved_and_loaded_partial",
    "Patro.Save.saved_and_lost_wrong"
   ],
   "note": "saved_and_loaded_partial: the pattern is read back from the last state of the disk, and every other state gives what was read before, the new pattern, or an exception; with the hypotheses of C164 on the pattern, and for a parser that finds the whole document or nothing in a beginning of its bytes. saved_and_lost_wrong: every save goes through a state in which neither the old pattern nor the new one can be read."
  },
  {
   "property": "C238",
   "status": "partial",
   "theorems": [
    "Patro.Save.parse_data",
    "Patro.Save.parse_file",
    "Patro.Save.parse_none_wrong"
   ],
   "note": "parse_data and parse_file. parse_none_wrong: without path and data, the file called None is read."
  },
  {
   "property": "C239",
   "status": "proved",
   "theorems": [
    "Patro.Viewer.session_mapping",
    "Patro.Viewer.stays_shown",
    "Patro.Viewer.scene_shown",
    "Patro.Viewer.edit_then_fit",
    "Patro.Viewer.no_scene",
    "Patro.Viewer.slots_succeed",
    "Patro.Viewer.null_zoom"
   ],
   "note": "null_zoom: a null zoom, which no handler of the window asks for, raises ZeroDivisionError and is kept."
  },
  {
   "property": "C240",
   "status": "partial",
   "theorems": [
    "Patro.Viewer.keys",
    "Patro.Viewer.zoom_buttons_partial",
    "Patro.Viewer.zoom_buttons_wrong",
    "Patro.Viewer.fit_button"
   ],
   "note": "keys, zoom_buttons_partial and fit_button. zoom_buttons_wrong: the factors are 1.1 and 0.9, no sequence of the two buttons brings back the scale."
  },
  {
   "property": "C241",
   "status": "partial",
   "theorems": [
    "Patro.Viewer.drag_partial",
    "Patro.Viewer.drag_wrong",
    "Patro.Viewer.wheel_partial",
    "Patro.Viewer.wheel_wrong",
    "Patro.Viewer.label_partial",
    "Patro.Viewer.label_wrong",
    "Patro.Viewer.other_buttons"
   ],
   "note": "drag_partial: the picture moves by -1.5 times the displacement of the mouse, whatever its path; drag_wrong: hence the point under the mouse does not follow it. wheel_partial: the point under the mouse goes to the middle; wheel_wrong. label_partial; label_wrong: the label is not updated by the wheel."
  },
  {
   "property": "C242",
   "status": "proved",
   "theorems": [
    "Patro.App.launch_no_window",
    "Patro.App.launch_no_script",
    "Patro.App.launch_script",
    "Patro.App.path_arguments"
   ],
   "note": "That sys.exit in a slot ends the program, and that the timer of zero milliseconds fires first, are assumed."
  },
  {
   "property": "C243",
   "status": "partial",
   "theorems": [
    "Patro.SceneGeometry.rounded_rectangle_items",
    "Patro.SceneGeometry.circle_items",
    "Patro.SceneGeometry.circle_center_wrong"
   ],
   "note": "Proved for the shapes which are drawn. The code falsifies the reading where the point is the centre of the circle (circle_center_wrong)."
  },
  {
   "property": "C244",
   "status": "proved",
   "theorems": [
    "Patro.SvgState.to_dict",
    "Patro.SvgState.to_dict_missing"
   ],
   "note": "For the states which the reader makes (Settled)."
  },
  {
   "property": "C245",
   "status": "partial",
   "theorems": [
    "Patro.Textile.needle_kept",
    "Patro.Textile.needle_refused",
    "Patro.Textile.machine_needle_partial",
    "Patro.Textile.machine_needle_wrong"
   ],
   "note": "Proved for the class of Needle.py; false of the class of SewingMachine.py, whose size raises AttributeError (machine_needle_wrong)."
  },
  {
   "property": "C246",
   "status": "partial",
   "theorems": [
    "Patro.Singleton.reentrant_partial",
    "Patro.Singleton.reentrant_wrong",
    "Patro.Singleton.reentrant_raise_wrong"
   ],
   "note": "Proved for the calls made outside of the constructor (reentrant_partial). The code falsifies the rest for every constructor that uses its class (reentrant_wrong, reentrant_raise_wrong)."
  },
  {
   "property": "C247",
   "status": "partial",
   "theorems": [
    "Patro.Counter.explicit_ids_distinct_partial",
    "Patro.Counter.explicit_automatic_same_wrong"
   ],
   "note": "Proved for explicit ids (explicit_ids_distinct_partial), every schedule. The code falsifies the claim for automatic ids: explicit_automatic_same_wrong, for every explicit id, and increment_returns_same_wrong (C07)."
  },
  {
   "property": "C248",
   "status": "partial",
   "theorems": [
    "Patro.Hull.hull_asked_partial",
    "Patro.Hull.hull_hull",
    "Patro.Hull.hull_asked_wrong",
    "Patro.Hull.hull_declared_wrong"
   ],
   "note": "Proved for all the questions other than is_convex (hull_asked_partial) and for the hull of a hull (hull_hull). The code falsifies it after is_convex for every strictly convex clockwise polygon (hull_asked_wrong) and for a polygon declared convex (hull_declared_wrong)."
  },
  {
   "property": "C249",
   "status": "partial",
   "theorems": [
    "Patro.RegularObject.regular_clone_wrong",
    "Patro.RegularObject.regular_transform_partial",
    "Patro.RegularObject.circumcircle_iff",
    "Patro.RegularObject.circumcircle_wrong",
    "Patro.RegularObject.regular_simplify",
    "Patro.RegularObject.square_simplify_wrong"
   ],
   "note": "Proved: what a transformation in place does (regular_transform_partial), exactly when the vertices are still on the circumcircle after any sequence of transformations that multiply the distances by a factor (circumcircle_iff), and the three outcomes of simplify (regular_simplify). The code falsifies the rest for every regular polygon: copies raise TypeError (regular_clone_wrong), a translation leaves the circumcircle behind (circumcircle_wrong), every square simplified with its radius raises TypeError (square_simplify_wrong)."
  },
  {
   "property": "C250",
   "status": "partial",
   "theorems": [
    "Patro.SplineObject.spline_clone_wrong",
    "Patro.SplineObject.spline_one_point_wrong",
    "Patro.SplineObject.spline_made",
    "Patro.SplineObject.spline_transform_partial",
    "Patro.SplineObject.spline_eq_iff",
    "Patro.SplineObject.spline_eq_wrong"
   ],
   "note": "Proved: in place, any affine transformation gives the image of the curve at every parameter and commutes with the insertion of knots (spline_transform_partial), the constructor with any number of points other than one (spline_made), exactly when two splines compare equal (spline_eq_iff). The code falsifies the rest for all inputs: copies, reversals and transformations with clone raise (spline_clone_wrong), one control point is refused (spline_one_point_wrong), every uniform spline is equal to one of another degree (spline_eq_wrong)."
  },
  {
   "property": "C251",
   "status": "partial",
   "theorems": [
    "Patro.SplineObject.spline_hull",
    "Patro.SplineObject.spline_box",
    "Patro.SplineObject.spline_box_uniform",
    "Patro.SplineObject.spline_box_wrong"
   ],
   "note": "Proved: the convex hull of the control points of the span (spline_hull), the bounding box on the range of every spline (spline_box) and at every parameter where a spline without given knots has a point (spline_box_uniform). The code falsifies that the box is the smallest one (spline_box_wrong)."
  },
  {
   "property": "C252",
   "status": "proved",
   "theorems": [
    "Patro.Spline.spline_polyline",
    "Patro.Spline.spline_middles"
   ],
   "note": "spline_polyline for degree 1, the last parameter included, and spline_middles for degree 2."
  },
  {
   "property": "C253",
   "status": "partial",
   "theorems": [
    "Patro.Spline.cubicSpline_bspline",
    "Patro.Bezier.cubicSpline_hull",
    "Patro.Bezier.cubicSpline_affine",
    "Patro.Bezier.cubicSpline_join_partial",
    "Patro.Bezier.quadSpline_toBezier",
    "Patro.Bezier.quadSpline_wrong"
   ],
   "note": "Proved for cubic splines: the junctions (cubicSpline_join_partial), the convex hull (cubicSpline_hull), the affine transformations (cubicSpline_affine), and that they are a piece of the B-spline with integer knots (cubicSpline_bspline). The code falsifies it for every quadratic one (quadSpline_wrong, quadSpline_toBezier)."
  }
 ]
}