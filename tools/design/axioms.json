{
"Patro.App.creates_first": [
"propext"
],
"Patro.App.creates_none": [
"propext"
],
"Patro.App.creates_once": [
"propext",
"Quot.sound"
],
"Patro.App.launch_no_script": [
"propext",
"Classical.choice",
"Quot.sound"
],
"Patro.App.launch_no_window": [
"propext",
"Classical.choice",
"Quot.sound"
],
"Patro.App.launch_script": [
"propext",
"Classical.choice",
"Quot.sound"
],
"Patro.App.message_shown": [
"propext",
"Classical.choice",
"Quot.sound"
],
"Patro.App.message_text": [
"propext",
"Classical.choice",
"Quot.sound"
],
"Patro.App.path_arguments": [],
"Patro.App.scene_last": [
"propext",
"Classical.choice",
"Quot.sound"
],
"Patro.App.scene_notified": [
"propext"
],
"Patro.App.script_at_start": [
"propext",
"Classical.choice",
"Quot.sound"
],
"Patro.App.script_ends": [
"propext",
"Classical.choice",
"Quot.sound"
],
"Patro.App.script_messages": [
"propext",
"Classical.choice",
"Quot.sound"
],
"Patro.App.script_runs": [
"propext",
"Classical.choice",
"Quot.sound"
],
"Patro.ArrowHead.axial_offset_wrong": [
"propext",
"Classical.choice",
"Quot.sound"
],
"Patro.ArrowHead.curvy_path": [
"propext",
"Classical.choice",
"Quot.sound"
],
"Patro.ArrowHead.curvy_symmetric_wrong": [
"propext",
"Classical.choice",
"Quot.sound"
],
"Patro.ArrowHead.head_angle": [
"propext",
"Classical.choice",
"Quot.sound"
],
"Patro.ArrowHead.head_made": [
"propext",
"Classical.choice",
"Quot.sound"
],
"Patro.ArrowHead.head_transform_wrong": [
"propext",
"Classical.choice",
"Quot.sound"
],
"Patro.ArrowHead.head_triangle": [
"propext",
"Classical.choice",
"Quot.sound"
],
"Patro.ArrowHead.one_side_wrong": [
"propext",
"Classical.choice",
"Quot.sound"
],
"Patro.Bezier.affine_invariant": [
"propext",
"Quot.sound"
],
"Patro.Bezier.area_chord_iff": [
"propext",
"Classical.choice",
"Quot.sound"
],
"Patro.Bezier.area_origin": [
"propext",
"Classical.choice",
"Quot.sound"
],
"Patro.Bezier.area_partial": [
"propext",
"Classical.choice",
"Quot.sound"
],
"Patro.Bezier.area_wrong": [
"propext",
"Classical.choice",
"Quot.sound"
],
"Patro.Bezier.closest_critical_partial": [
"propext",
"Classical.choice",
"Quot.sound"
],
"Patro.Bezier.closest_interior_partial": [
"propext",
"Classical.choice",
"Quot.sound"
],
"Patro.Bezier.closest_wrong": [
"propext",
"Classical.choice",
"Quot.sound"
],
"Patro.Bezier.cubicSpline_affine": [
"propext",
"Classical.choice",
"Quot.sound"
],
"Patro.Bezier.cubicSpline_hull": [
"propext",
"Classical.choice",
"Quot.sound"
],
"Patro.Bezier.cubicSpline_join_partial": [
"propext",
"Classical.choice",
"Quot.sound"
],
"Patro.Bezier.cubic_basis_inverse": [
"propext",
"Classical.choice",
"Quot.sound"
],
"Patro.Bezier.cubic_length_partial": [
"propext",
"Classical.choice",
"Quot.sound"
],
"Patro.Bezier.cubic_length_wrong": [
"propext",
"Classical.choice",
"Quot.sound"
],
"Patro.Bezier.cubic_length_wrong'": [
"propext",
"Classical.choice",
"Quot.sound"
],
"Patro.Bezier.cubic_split": [
"propext",
"Quot.sound"
],
"Patro.Bezier.cubic_splitTwo": [
"propext",
"Classical.choice",
"Quot.sound"
],
"Patro.Bezier.end_points": [
"propext",
"Quot.sound"
],
"Patro.Bezier.fatLine_spec": [
"propext",
"Classical.choice",
"Quot.sound"
],
"Patro.Bezier.flat_complete": [
"propext",
"Classical.choice",
"Quot.sound"
],
"Patro.Bezier.flat_spec": [
"propext",
"Classical.choice",
"Quot.sound"
],
"Patro.Bezier.flat_zero_iff": [
"propext",
"Classical.choice",
"Quot.sound"
],
"Patro.Bezier.in_box": [
"propext",
"Classical.choice",
"Quot.sound"
],
"Patro.Bezier.in_box_quad": [
"propext",
"Classical.choice",
"Quot.sound"
],
"Patro.Bezier.in_hull": [
"propext",
"Classical.choice",
"Quot.sound"
],
"Patro.Bezier.interpolated_cubic": [
"propext",
"Classical.choice",
"Quot.sound"
],
"Patro.Bezier.interpolated_default": [
"propext",
"Classical.choice",
"Quot.sound"
],
"Patro.Bezier.interpolated_diverges": [
"propext",
"Classical.choice",
"Quot.sound"
],
"Patro.Bezier.interpolated_quad": [
"propext",
"Classical.choice",
"Quot.sound"
],
"Patro.Bezier.polynomial_form": [
"propext",
"Classical.choice",
"Quot.sound"
],
"Patro.Bezier.quadSpline_toBezier": [
"propext",
"Classical.choice",
"Quot.sound"
],
"Patro.Bezier.quadSpline_wrong": [
"propext",
"Classical.choice",
"Quot.sound"
],
"Patro.Bezier.quad_basis_wrong": [
"propext",
"Classical.choice",
"Quot.sound"
],
"Patro.Bezier.quad_closest_outcome": [
"propext",
"Classical.choice",
"Quot.sound"
],
"Patro.Bezier.quad_closest_wrong": [
"propext",
"Classical.choice",
"Quot.sound"
],
"Patro.Bezier.quad_fatLine_wrong": [
"propext",
"Classical.choice",
"Quot.sound"
],
"Patro.Bezier.quad_length": [
"propext",
"Classical.choice",
"Quot.sound"
],
"Patro.Bezier.quad_length_wrong": [
"propext",
"Classical.choice",
"Quot.sound"
],
"Patro.Bezier.quad_split": [
"propext",
"Classical.choice",
"Quot.sound"
],
"Patro.Bezier.quad_splitTwo_partial": [
"propext",
"Classical.choice",
"Quot.sound"
],
"Patro.Bezier.quad_splitTwo_wrong": [
"propext",
"Classical.choice",
"Quot.sound"
],
"Patro.Bezier.tAtLength_partial": [
"propext",
"Classical.choice",
"Quot.sound"
],
"Patro.Bezier.tAtLength_spec": [
"propext",
"Classical.choice",
"Quot.sound"
],
"Patro.Bezier.tAtLength_wrong": [
"propext",
"Classical.choice",
"Quot.sound"
],
"Patro.Bezier.tangent_velocity": [
"propext",
"Classical.choice",
"Quot.sound"
],
"Patro.Bezier.toCubic_length_wrong": [
"propext",
"Classical.choice",
"Quot.sound"
],
"Patro.Bezier.toCubic_pointAt": [
"propext",
"Classical.choice",
"Quot.sound"
],
"Patro.Bezier.toSpline_pointAt": [
"propext",
"Classical.choice",
"Quot.sound"
],
"Patro.BezierClip.chord_wrong": [
"propext",
"Classical.choice",
"Quot.sound"
],
"Patro.BezierClip.clip_hull_partial": [
"propext",
"Quot.sound"
],
"Patro.BezierClip.clip_hull_wrong": [
"propext",
"Quot.sound"
],
"Patro.BezierClip.clip_part_partial": [
"propext",
"Classical.choice",
"Quot.sound"
],
"Patro.BezierClip.end_at_origin_wrong": [
"propext",
"Classical.choice",
"Quot.sound"
],
"Patro.BezierClip.opposite_sides_partial": [
"propext",
"Classical.choice",
"Quot.sound"
],
"Patro.BezierClip.same_side_wrong": [
"propext",
"Classical.choice",
"Quot.sound"
],
"Patro.BezierIntersect.cubicRoots_partial": [
"propext",
"Classical.choice",
"Quot.sound"
],
"Patro.BezierIntersect.intersectCurve_wrong": [
"propext",
"Classical.choice",
"Quot.sound"
],
"Patro.BezierIntersect.intersectLine_wrong": [
"propext",
"Classical.choice",
"Quot.sound"
],
"Patro.BezierIntersect.quadRoots_partial": [
"propext",
"Classical.choice",
"Quot.sound"
],
"Patro.BezierIntersect.tangent1_wrong": [
"propext",
"Classical.choice",
"Quot.sound"
],
"Patro.BezierIntersect.tangents_spec": [
"propext",
"Classical.choice",
"Quot.sound"
],
"Patro.Calculator.evaluation_count": [
"propext",
"Quot.sound"
],
"Patro.Calculator.findIdentifier_spec": [
"propext",
"Quot.sound"
],
"Patro.Calculator.identifier_characters": [
"propext"
],
"Patro.Calculator.identifiers_complete": [
"propext",
"Classical.choice",
"Quot.sound"
],
"Patro.Calculator.identifiers_sound": [
"propext",
"Classical.choice",
"Quot.sound"
],
"Patro.Calculator.nameError_kept": [
"propext",
"Quot.sound"
],
"Patro.Calculator.pythonise_words_partial": [
"propext",
"Classical.choice",
"Quot.sound"
],
"Patro.Calculator.read_after_dirty": [
"propext",
"Quot.sound"
],
"Patro.Calculator.read_compile_error": [
"propext"
],
"Patro.Calculator.rewriteCalls_current_length": [
"propext",
"Classical.choice",
"Quot.sound"
],
"Patro.Calculator.rewriteCalls_none": [
"propext",
"Classical.choice",
"Quot.sound"
],
"Patro.Calculator.rewriteCalls_prefix_clash": [
"propext",
"Classical.choice",
"Quot.sound"
],
"Patro.Calculator.rewriteCalls_single_partial": [
"propext",
"Classical.choice",
"Quot.sound"
],
"Patro.Calculator.rewriteCalls_words_partial": [
"propext",
"Classical.choice",
"Quot.sound"
],
"Patro.Calculator.rewriteCustom_last": [
"propext",
"Quot.sound"
],
"Patro.Calculator.rewriteCustom_one_name_partial": [
"propext",
"Classical.choice",
"Quot.sound"
],
"Patro.Calculator.rewriteCustom_two_names": [
"propext",
"Classical.choice",
"Quot.sound"
],
"Patro.Calculator.rewriteCustom_unknown": [
"propext"
],
"Patro.Calculator.scan_terminates": [
"propext",
"Classical.choice",
"Quot.sound"
],
"Patro.Calculator.value_kept": [
"propext",
"Quot.sound"
],
"Patro.Catalogue.load_error": [
"propext",
"Quot.sound"
],
"Patro.Catalogue.load_found": [
"propext",
"Quot.sound"
],
"Patro.Catalogue.load_ok": [
"propext",
"Quot.sound"
],
"Patro.Catalogue.shipped_loads": [
"propext",
"Classical.choice",
"Quot.sound"
],
"Patro.Colour.add_replaces": [
"propext",
"Quot.sound"
],
"Patro.Colour.clone_same": [
"propext",
"Classical.choice",
"Quot.sound"
],
"Patro.Colour.colors_loaded": [
"propext",
"Classical.choice",
"Quot.sound"
],
"Patro.Colour.components_in_range": [
"propext",
"Classical.choice",
"Quot.sound"
],
"Patro.Colour.copy_partial": [
"propext",
"Classical.choice",
"Quot.sound"
],
"Patro.Colour.copy_wrong": [
"propext",
"Classical.choice",
"Quot.sound"
],
"Patro.Colour.ensureColor_spec": [
"propext",
"Classical.choice",
"Quot.sound"
],
"Patro.Colour.eq_iff": [
"propext",
"Classical.choice",
"Quot.sound"
],
"Patro.Colour.hls_accepted": [
"propext",
"Classical.choice",
"Quot.sound"
],
"Patro.Colour.hls_round_trip": [
"propext",
"Classical.choice",
"Quot.sound"
],
"Patro.Colour.hsv_accepted": [
"propext",
"Classical.choice",
"Quot.sound"
],
"Patro.Colour.hsv_round_trip": [
"propext",
"Classical.choice",
"Quot.sound"
],
"Patro.Colour.hue_missing": [
"propext",
"Classical.choice",
"Quot.sound"
],
"Patro.Colour.hue_wrong": [
"propext",
"Classical.choice",
"Quot.sound"
],
"Patro.Colour.integer_components": [
"propext",
"Classical.choice",
"Quot.sound"
],
"Patro.Colour.light_integer_wrong": [
"propext",
"Classical.choice",
"Quot.sound"
],
"Patro.Colour.load_first": [
"propext",
"Classical.choice",
"Quot.sound"
],
"Patro.Colour.set_component": [
"propext",
"Classical.choice",
"Quot.sound"
],
"Patro.Colour.text_accepted_partial": [
"propext",
"Classical.choice",
"Quot.sound"
],
"Patro.Colour.text_middle_wrong": [
"propext",
"Classical.choice",
"Quot.sound"
],
"Patro.Colour.text_negative_wrong": [
"propext",
"Classical.choice",
"Quot.sound"
],
"Patro.Colour.text_read": [
"propext",
"Classical.choice",
"Quot.sound"
],
"Patro.Colour.text_round_trip": [
"propext",
"Classical.choice",
"Quot.sound"
],
"Patro.Colour.text_wrong": [
"propext",
"Classical.choice",
"Quot.sound"
],
"Patro.Colour.three_arguments": [
"propext",
"Classical.choice",
"Quot.sound"
],
"Patro.Colour.valentina_colors_partial": [
"propext",
"Classical.choice",
"Quot.sound"
],
"Patro.Colour.valentina_colors_wrong": [
"propext",
"Classical.choice",
"Quot.sound"
],
"Patro.Common.find_partial": [
"propext",
"Quot.sound"
],
"Patro.Common.find_text_wrong": [
"propext",
"Quot.sound"
],
"Patro.Common.join_spec": [
"propext"
],
"Patro.Common.logging_level": [
"propext"
],
"Patro.Common.logging_partial": [
"propext",
"Classical.choice",
"Quot.sound"
],
"Patro.Common.logging_wrong": [
"propext",
"Classical.choice",
"Quot.sound"
],
"Patro.Common.monostate_arguments_wrong": [
"propext",
"Quot.sound"
],
"Patro.Common.monostate_classes": [
"propext",
"Quot.sound"
],
"Patro.Common.monostate_shared": [
"propext",
"Quot.sound"
],
"Patro.Common.parent_absolute": [
"propext",
"Quot.sound"
],
"Patro.Common.parent_add": [
"propext",
"Quot.sound"
],
"Patro.Common.parent_default": [
"propext",
"Quot.sound"
],
"Patro.Common.view_box_partial": [
"propext"
],
"Patro.Common.view_box_wrong": [
"propext"
],
"Patro.Conic.angleForPoint_inverse": [
"propext",
"Classical.choice",
"Quot.sound"
],
"Patro.Conic.angle_roundtrip": [
"propext",
"Classical.choice",
"Quot.sound"
],
"Patro.Conic.arc_transform_partial": [
"propext",
"Classical.choice",
"Quot.sound"
],
"Patro.Conic.arc_transform_wrong": [
"propext",
"Classical.choice",
"Quot.sound"
],
"Patro.Conic.axis_vectors_wrong": [
"propext",
"Classical.choice",
"Quot.sound"
],
"Patro.Conic.circle_area": [
"propext",
"Classical.choice",
"Quot.sound"
],
"Patro.Conic.circle_area_wrong": [
"propext",
"Classical.choice",
"Quot.sound"
],
"Patro.Conic.circle_clone_partial": [
"propext",
"Classical.choice",
"Quot.sound"
],
"Patro.Conic.circle_clone_wrong": [
"propext",
"Classical.choice",
"Quot.sound"
],
"Patro.Conic.circle_diameter": [
"propext",
"Classical.choice",
"Quot.sound"
],
"Patro.Conic.circle_from_points": [
"propext",
"Classical.choice",
"Quot.sound"
],
"Patro.Conic.circle_operations": [
"propext",
"Classical.choice",
"Quot.sound"
],
"Patro.Conic.circle_radius": [
"propext",
"Classical.choice",
"Quot.sound"
],
"Patro.Conic.circle_transform_made": [
"propext",
"Classical.choice",
"Quot.sound"
],
"Patro.Conic.circle_transform_partial": [
"propext",
"Classical.choice",
"Quot.sound"
],
"Patro.Conic.circle_transform_torn": [
"propext",
"Classical.choice",
"Quot.sound"
],
"Patro.Conic.circle_transform_wrong": [
"propext",
"Classical.choice",
"Quot.sound"
],
"Patro.Conic.distance_arc_partial": [
"propext",
"Classical.choice",
"Quot.sound"
],
"Patro.Conic.distance_arc_wrong": [
"propext",
"Classical.choice",
"Quot.sound"
],
"Patro.Conic.distance_circle": [
"propext",
"Classical.choice",
"Quot.sound"
],
"Patro.Conic.domain_flags": [
"propext",
"Classical.choice",
"Quot.sound"
],
"Patro.Conic.eccentricity_foci": [
"propext",
"Classical.choice",
"Quot.sound"
],
"Patro.Conic.eccentricity_wrong": [
"propext",
"Classical.choice",
"Quot.sound"
],
"Patro.Conic.ellipse_box_partial": [
"propext",
"Classical.choice",
"Quot.sound"
],
"Patro.Conic.ellipse_box_wrong": [
"propext",
"Classical.choice",
"Quot.sound"
],
"Patro.Conic.ellipse_cache_partial": [
"propext",
"Classical.choice",
"Quot.sound"
],
"Patro.Conic.ellipse_cache_wrong": [
"propext",
"Classical.choice",
"Quot.sound"
],
"Patro.Conic.ellipse_clone": [
"propext",
"Classical.choice",
"Quot.sound"
],
"Patro.Conic.ellipse_distance_error": [
"propext",
"Classical.choice",
"Quot.sound"
],
"Patro.Conic.ellipse_distance_partial": [
"propext",
"Classical.choice",
"Quot.sound"
],
"Patro.Conic.ellipse_distance_wrong": [
"propext",
"Classical.choice",
"Quot.sound"
],
"Patro.Conic.ellipse_ends": [
"propext",
"Classical.choice",
"Quot.sound"
],
"Patro.Conic.ellipse_inside_partial": [
"propext",
"Classical.choice",
"Quot.sound"
],
"Patro.Conic.ellipse_inside_wrong": [
"propext",
"Classical.choice",
"Quot.sound"
],
"Patro.Conic.ellipse_intersect": [
"propext",
"Classical.choice",
"Quot.sound"
],
"Patro.Conic.ellipse_intersect_null": [
"propext",
"Classical.choice",
"Quot.sound"
],
"Patro.Conic.ellipse_points": [
"propext",
"Classical.choice",
"Quot.sound"
],
"Patro.Conic.ellipse_transform_partial": [
"propext",
"Classical.choice",
"Quot.sound"
],
"Patro.Conic.ellipse_transform_torn": [
"propext",
"Classical.choice",
"Quot.sound"
],
"Patro.Conic.ellipse_transform_wrong": [
"propext",
"Classical.choice",
"Quot.sound"
],
"Patro.Conic.frame_coordinates": [
"propext",
"Classical.choice",
"Quot.sound"
],
"Patro.Conic.frame_isometry": [
"propext",
"Classical.choice",
"Quot.sound"
],
"Patro.Conic.frame_roundtrip": [
"propext",
"Classical.choice",
"Quot.sound"
],
"Patro.Conic.intersectSegment_null": [
"propext",
"Classical.choice",
"Quot.sound"
],
"Patro.Conic.intersectSegment_spec": [
"propext",
"Classical.choice",
"Quot.sound"
],
"Patro.Conic.intersect_circle_concentric": [
"propext",
"Classical.choice",
"Quot.sound"
],
"Patro.Conic.intersect_circle_none": [
"propext",
"Classical.choice",
"Quot.sound"
],
"Patro.Conic.intersect_circle_secant": [
"propext",
"Classical.choice",
"Quot.sound"
],
"Patro.Conic.intersect_circle_tangent_partial": [
"propext",
"Classical.choice",
"Quot.sound"
],
"Patro.Conic.intersect_circle_wrong": [
"propext",
"Classical.choice",
"Quot.sound"
],
"Patro.Conic.isInside_bounds": [
"propext",
"Classical.choice",
"Quot.sound"
],
"Patro.Conic.isInside_partial": [
"propext",
"Classical.choice",
"Quot.sound"
],
"Patro.Conic.isInside_wrong": [
"propext",
"Classical.choice",
"Quot.sound"
],
"Patro.Conic.isPointInside_iff": [
"propext",
"Classical.choice",
"Quot.sound"
],
"Patro.Conic.length_partial": [
"propext",
"Classical.choice",
"Quot.sound"
],
"Patro.Conic.length_wrong": [
"propext",
"Classical.choice",
"Quot.sound"
],
"Patro.Conic.major_vector_wrong": [
"propext",
"Classical.choice",
"Quot.sound"
],
"Patro.Conic.matrix_wrong": [
"propext",
"Classical.choice",
"Quot.sound"
],
"Patro.Conic.new_distance": [
"propext",
"Classical.choice",
"Quot.sound"
],
"Patro.Conic.perimeter_wrong": [
"propext",
"Classical.choice",
"Quot.sound"
],
"Patro.Conic.pointAtAngle_on": [
"propext",
"Classical.choice",
"Quot.sound"
],
"Patro.Conic.pointAtDistance_spec": [
"propext",
"Classical.choice",
"Quot.sound"
],
"Patro.Conic.svg_arc_degenerate": [
"propext",
"Classical.choice",
"Quot.sound"
],
"Patro.Conic.svg_arc_ends_wrong": [
"propext",
"Classical.choice",
"Quot.sound"
],
"Patro.Conic.svg_arc_partial": [
"propext",
"Classical.choice",
"Quot.sound"
],
"Patro.Conic.svg_arc_small": [
"propext",
"Classical.choice",
"Quot.sound"
],
"Patro.Conic.svg_arc_wrong": [
"propext",
"Classical.choice",
"Quot.sound"
],
"Patro.Conic.tangent_spec": [
"propext",
"Classical.choice",
"Quot.sound"
],
"Patro.Conic.to_bezier_clockwise": [
"propext",
"Classical.choice",
"Quot.sound"
],
"Patro.Conic.to_bezier_null": [
"propext",
"Classical.choice",
"Quot.sound"
],
"Patro.Conic.to_bezier_partial": [
"propext",
"Classical.choice",
"Quot.sound"
],
"Patro.Conic.to_bezier_quarters": [
"propext",
"Classical.choice",
"Quot.sound"
],
"Patro.Conic.to_bezier_wrong": [
"propext",
"Classical.choice",
"Quot.sound"
],
"Patro.Counter.automatic_id_spec": [
"propext",
"Classical.choice",
"Quot.sound"
],
"Patro.Counter.explicit_automatic_same_wrong": [
"propext"
],
"Patro.Counter.explicit_id_spec": [
"propext",
"Classical.choice",
"Quot.sound"
],
"Patro.Counter.explicit_ids_distinct_partial": [
"propext",
"Quot.sound"
],
"Patro.Counter.ids_strictly_increasing": [
"propext",
"Classical.choice",
"Quot.sound"
],
"Patro.Counter.increment_returns_duplicate": [],
"Patro.Counter.increment_returns_increasing_partial": [
"propext",
"Quot.sound"
],
"Patro.Counter.increment_returns_same_wrong": [
"propext",
"Classical.choice",
"Quot.sound"
],
"Patro.Counter.increments_not_lost": [
"propext",
"Classical.choice",
"Quot.sound"
],
"Patro.Counter.newOperationId_spec": [
"propext"
],
"Patro.Counter.no_deadlock": [
"propext",
"Quot.sound"
],
"Patro.Detail.detail_box_error": [
"propext",
"Classical.choice",
"Quot.sound"
],
"Patro.Detail.detail_coordinate": [
"propext",
"Classical.choice",
"Quot.sound"
],
"Patro.Detail.detail_default": [
"propext",
"Classical.choice",
"Quot.sound"
],
"Patro.Detail.detail_ends": [
"propext",
"Classical.choice",
"Quot.sound"
],
"Patro.Detail.detail_label_wrong": [
"propext",
"Classical.choice",
"Quot.sound"
],
"Patro.Detail.detail_same_name_wrong": [
"propext",
"Classical.choice",
"Quot.sound"
],
"Patro.Detail.detail_scene": [
"propext",
"Classical.choice",
"Quot.sound"
],
"Patro.Detail.detail_style_wrong": [
"propext",
"Classical.choice",
"Quot.sound"
],
"Patro.Detail.detail_user_data": [
"propext",
"Classical.choice",
"Quot.sound"
],
"Patro.Detail.sketch_box": [
"propext",
"Classical.choice",
"Quot.sound"
],
"Patro.Detail.sketch_box_before": [
"propext",
"Classical.choice",
"Quot.sound"
],
"Patro.Detail.sketch_box_curves": [
"propext",
"Classical.choice",
"Quot.sound"
],
"Patro.Detail.sketch_box_ends": [
"propext",
"Classical.choice",
"Quot.sound"
],
"Patro.Detail.sketch_box_eval": [
"propext",
"Classical.choice",
"Quot.sound"
],
"Patro.Detail.sketch_box_no_controls": [
"propext",
"Classical.choice",
"Quot.sound"
],
"Patro.Dxf.added_items": [
"propext",
"Classical.choice",
"Quot.sound"
],
"Patro.Dxf.flat_or_null": [
"propext",
"Classical.choice",
"Quot.sound"
],
"Patro.Dxf.negative_bulge_wrong": [
"propext",
"Classical.choice",
"Quot.sound"
],
"Patro.Dxf.polyline_items": [
"propext",
"Classical.choice",
"Quot.sound"
],
"Patro.Dxf.positive_bulge": [
"propext",
"Classical.choice",
"Quot.sound"
],
"Patro.Dxf.sagitta_spec": [
"propext",
"Classical.choice",
"Quot.sound"
],
"Patro.Dxf.vertex_angle": [
"propext",
"Classical.choice",
"Quot.sound"
],
"Patro.DxfImport.arc_range_wrong": [
"propext",
"Classical.choice",
"Quot.sound"
],
"Patro.DxfImport.ellipse_closed_wrong": [
"propext",
"Classical.choice",
"Quot.sound"
],
"Patro.DxfImport.ellipse_parameters": [
"propext",
"Classical.choice",
"Quot.sound"
],
"Patro.DxfImport.ellipse_vertical_full": [
"propext",
"Classical.choice",
"Quot.sound"
],
"Patro.DxfImport.ellipse_vertical_wrong": [
"propext",
"Classical.choice",
"Quot.sound"
],
"Patro.DxfImport.import_items": [
"propext",
"Classical.choice",
"Quot.sound"
],
"Patro.DxfImport.import_refused": [
"propext",
"Classical.choice",
"Quot.sound"
],
"Patro.DxfImport.mirrored_wrong": [
"propext",
"Classical.choice",
"Quot.sound"
],
"Patro.DxfImport.spline_data_wrong": [
"propext",
"Classical.choice",
"Quot.sound"
],
"Patro.DxfImport.spline_fit_wrong": [
"propext",
"Classical.choice",
"Quot.sound"
],
"Patro.DxfImport.spline_knots_wrong": [
"propext",
"Classical.choice",
"Quot.sound"
],
"Patro.DxfImport.spline_points_partial": [
"propext",
"Classical.choice",
"Quot.sound"
],
"Patro.DxfRoundTrip.lost_wrong": [
"propext",
"Classical.choice",
"Quot.sound"
],
"Patro.DxfRoundTrip.round_trip_partial": [
"propext",
"Classical.choice",
"Quot.sound"
],
"Patro.DxfRoundTrip.scale_wrong": [
"propext",
"Classical.choice",
"Quot.sound"
],
"Patro.Formulas.Formula.formula_angle_wrong": [
"propext",
"Classical.choice",
"Quot.sound"
],
"Patro.Formulas.Formula.formula_error_partial": [
"propext",
"Classical.choice",
"Quot.sound"
],
"Patro.Formulas.Formula.formula_none_partial": [
"propext",
"Classical.choice",
"Quot.sound"
],
"Patro.Formulas.Formula.formula_outcome_partial": [
"propext",
"Classical.choice",
"Quot.sound"
],
"Patro.Formulas.Formula.formula_spline_wrong": [
"propext",
"Classical.choice",
"Quot.sound"
],
"Patro.Formulas.Formula.formula_text_outside_partial": [
"propext",
"Classical.choice",
"Quot.sound"
],
"Patro.Formulas.Formula.formula_text_partial": [
"propext",
"Classical.choice",
"Quot.sound"
],
"Patro.Formulas.Formula.formula_unambiguous_partial": [
"propext",
"Classical.choice",
"Quot.sound"
],
"Patro.Formulas.Formula.formula_value_only_partial": [
"propext",
"Classical.choice",
"Quot.sound"
],
"Patro.Formulas.Formula.formula_value_partial": [
"propext",
"Classical.choice",
"Quot.sound"
],
"Patro.Graph.addNode_duplicate": [
"propext"
],
"Patro.Graph.addNode_new": [
"propext",
"Classical.choice",
"Quot.sound"
],
"Patro.Graph.breadthFirstSearch_spec": [
"propext",
"Classical.choice",
"Quot.sound"
],
"Patro.Graph.connect_edges": [
"propext",
"Quot.sound"
],
"Patro.Graph.disconnect_edge": [
"propext",
"Classical.choice",
"Quot.sound"
],
"Patro.Graph.disconnect_non_edge": [
"propext",
"Quot.sound"
],
"Patro.Graph.links_mirror": [
"propext",
"Classical.choice",
"Quot.sound"
],
"Patro.Graph.roots_leafs_spec": [
"propext",
"Classical.choice",
"Quot.sound"
],
"Patro.Graph.topologicalSort_complete_partial": [
"propext",
"Classical.choice",
"Quot.sound"
],
"Patro.Graph.topologicalSort_deep_wrong": [
"propext",
"Quot.sound"
],
"Patro.Graph.topologicalSort_sound": [
"propext",
"Classical.choice",
"Quot.sound"
],
"Patro.Hull.convexHullPolygon_clockwise": [
"propext",
"Classical.choice",
"Quot.sound"
],
"Patro.Hull.convexHull_cases": [
"propext",
"Classical.choice",
"Quot.sound"
],
"Patro.Hull.convexHull_partial": [
"propext",
"Classical.choice",
"Quot.sound"
],
"Patro.Hull.convexHull_raises_iff": [
"propext",
"Classical.choice",
"Quot.sound"
],
"Patro.Hull.convexHull_wrong": [
"propext",
"Classical.choice",
"Quot.sound"
],
"Patro.Hull.hull_asked_partial": [
"propext",
"Classical.choice",
"Quot.sound"
],
"Patro.Hull.hull_asked_wrong": [
"propext",
"Classical.choice",
"Quot.sound"
],
"Patro.Hull.hull_declared_wrong": [
"propext",
"Classical.choice",
"Quot.sound"
],
"Patro.Hull.hull_hull": [
"propext",
"Classical.choice",
"Quot.sound"
],
"Patro.IterTools.closedIterator_nil": [
"propext"
],
"Patro.IterTools.closedIterator_spec": [
"propext",
"Quot.sound"
],
"Patro.IterTools.closedMultiwiseIndex_spec": [
"propext",
"Quot.sound"
],
"Patro.IterTools.closedPairwise_spec": [
"propext",
"Quot.sound"
],
"Patro.IterTools.multiwise_spec": [
"propext",
"Quot.sound"
],
"Patro.IterTools.multiwise_zero": [],
"Patro.IterTools.pairwise_nil": [
"propext"
],
"Patro.IterTools.pairwise_spec": [
"propext"
],
"Patro.MathFunctions.cmp_spec": [
"propext",
"Classical.choice",
"Quot.sound"
],
"Patro.MathFunctions.cubicRootDegenerate_exact": [
"propext",
"Classical.choice",
"Quot.sound"
],
"Patro.MathFunctions.epsilonFloat_spec": [
"propext",
"Classical.choice",
"Quot.sound"
],
"Patro.MathFunctions.isInTrignometricRange_iff": [
"propext",
"Quot.sound"
],
"Patro.MathFunctions.middle_spec": [
"propext",
"Classical.choice",
"Quot.sound"
],
"Patro.MathFunctions.quadraticRoot_exact": [
"propext",
"Classical.choice",
"Quot.sound"
],
"Patro.MathFunctions.quadraticRoot_none_iff": [
"propext",
"Classical.choice",
"Quot.sound"
],
"Patro.MathFunctions.quadraticRoot_two_order": [
"propext",
"Classical.choice",
"Quot.sound"
],
"Patro.MathFunctions.sign_spec": [
"propext",
"Classical.choice",
"Quot.sound"
],
"Patro.MathFunctions.trignometricClamp_eq_self_iff": [
"propext",
"Classical.choice",
"Quot.sound"
],
"Patro.MathFunctions.trignometricClamp_mono": [
"propext",
"Classical.choice",
"Quot.sound"
],
"Patro.MathFunctions.trignometricClamp_nearest": [
"propext",
"Classical.choice",
"Quot.sound"
],
"Patro.Measurement.add_spec": [
"propext",
"Quot.sound"
],
"Patro.Measurement.attribute_iff": [
"propext",
"Classical.choice",
"Quot.sound"
],
"Patro.Measurement.attribute_name_wrong": [
"propext",
"Classical.choice",
"Quot.sound"
],
"Patro.Measurement.hasattr_never_false": [
"propext",
"Classical.choice",
"Quot.sound"
],
"Patro.Measurement.hasattr_wrong": [
"propext",
"Classical.choice",
"Quot.sound"
],
"Patro.Measurement.load_refused": [
"propext",
"Classical.choice",
"Quot.sound"
],
"Patro.Measurement.lookup_first": [
"propext",
"Quot.sound"
],
"Patro.Measurement.save_wrong": [
"propext",
"Classical.choice",
"Quot.sound"
],
"Patro.Measurement.sortedIter_spec": [
"propext",
"Classical.choice",
"Quot.sound"
],
"Patro.Measurement.subs_chain_unresolved": [
"propext",
"Classical.choice",
"Quot.sound"
],
"Patro.Measurement.subs_complete_partial": [
"propext",
"Classical.choice",
"Quot.sound"
],
"Patro.Measurement.subs_solution": [
"propext",
"Classical.choice",
"Quot.sound"
],
"Patro.Measurement.subs_sound": [
"propext",
"Quot.sound"
],
"Patro.Measurement.validateName_idempotent": [
"propext",
"Classical.choice",
"Quot.sound"
],
"Patro.Measurement.validateName_spec": [
"propext",
"Classical.choice",
"Quot.sound"
],
"Patro.Measurement.value_error_stable": [
"propext",
"Quot.sound"
],
"Patro.Measurement.value_stable": [
"propext",
"Quot.sound"
],
"Patro.Measurement.yaml_formula_value": [
"propext"
],
"Patro.Measurement.yaml_number_wrong": [
"propext"
],
"Patro.Measurement.yaml_round_trip_partial": [
"propext",
"Classical.choice",
"Quot.sound"
],
"Patro.Measurement.yaml_value": [
"propext"
],
"Patro.Painters.dxf_circle_wrong": [
"propext",
"Quot.sound"
],
"Patro.Painters.dxf_colour_wrong": [
"propext",
"Classical.choice",
"Quot.sound"
],
"Patro.Painters.dxf_driver": [
"propext",
"Classical.choice",
"Quot.sound"
],
"Patro.Painters.dxf_items_partial": [
"propext",
"Classical.choice",
"Quot.sound"
],
"Patro.Painters.mpl_circle_wrong": [
"propext",
"Classical.choice",
"Quot.sound"
],
"Patro.Painters.mpl_items_partial": [
"propext",
"Classical.choice",
"Quot.sound"
],
"Patro.Painters.mpl_limits": [
"propext",
"Classical.choice",
"Quot.sound"
],
"Patro.Painters.no_bounding_box_wrong": [
"propext",
"Classical.choice",
"Quot.sound"
],
"Patro.Painters.no_colour_exception": [
"propext",
"Classical.choice",
"Quot.sound"
],
"Patro.Painters.no_colour_wrong": [
"propext",
"Classical.choice",
"Quot.sound"
],
"Patro.Painters.other_items_wrong": [
"propext",
"Classical.choice",
"Quot.sound"
],
"Patro.Painters.other_kinds_wrong": [
"propext",
"Classical.choice",
"Quot.sound"
],
"Patro.Painters.painter_document": [
"propext",
"Classical.choice",
"Quot.sound"
],
"Patro.Painters.pdf_driver_wrong": [
"propext",
"Classical.choice",
"Quot.sound"
],
"Patro.Painters.pdf_items_partial": [
"propext",
"Classical.choice",
"Quot.sound"
],
"Patro.Painters.pdf_margin_wrong": [
"propext",
"Classical.choice",
"Quot.sound"
],
"Patro.Painters.pdf_page": [
"propext",
"Classical.choice",
"Quot.sound"
],
"Patro.Painters.pdf_style_wrong": [
"propext",
"Classical.choice",
"Quot.sound"
],
"Patro.Painters.positions_wrong": [
"propext",
"Classical.choice",
"Quot.sound"
],
"Patro.Painters.svg_above_page_wrong": [
"propext",
"Classical.choice",
"Quot.sound"
],
"Patro.Painters.svg_circle_wrong": [
"propext",
"Classical.choice",
"Quot.sound"
],
"Patro.Painters.svg_cubic_wrong": [
"propext",
"Classical.choice",
"Quot.sound"
],
"Patro.Painters.svg_document": [
"propext",
"Classical.choice",
"Quot.sound"
],
"Patro.Painters.svg_items_partial": [
"propext",
"Classical.choice",
"Quot.sound"
],
"Patro.Painters.svg_place_wrong": [
"propext",
"Classical.choice",
"Quot.sound"
],
"Patro.Painters.svg_style_sheet": [
"propext",
"Classical.choice",
"Quot.sound"
],
"Patro.Painters.svg_vector": [
"propext",
"Classical.choice",
"Quot.sound"
],
"Patro.Paper.accepted": [
"propext",
"Classical.choice",
"Quot.sound"
],
"Patro.Paper.accepted_iff": [
"propext",
"Classical.choice",
"Quot.sound"
],
"Patro.Paper.fit": [
"propext",
"Classical.choice",
"Quot.sound"
],
"Patro.Paper.halving": [
"propext",
"Classical.choice",
"Quot.sound"
],
"Patro.Paper.landscape_swaps": [
"propext",
"Classical.choice",
"Quot.sound"
],
"Patro.Paper.lengths": [
"propext",
"Classical.choice",
"Quot.sound"
],
"Patro.Paper.odd_names_wrong": [
"propext",
"Classical.choice",
"Quot.sound"
],
"Patro.Paper.pan_moves": [
"propext",
"Classical.choice",
"Quot.sound"
],
"Patro.Paper.paper_size": [
"propext",
"Classical.choice",
"Quot.sound"
],
"Patro.Paper.resize": [
"propext",
"Classical.choice",
"Quot.sound"
],
"Patro.Paper.tiler_cover": [
"propext",
"Classical.choice",
"Quot.sound"
],
"Patro.Paper.tiles_cover_iff": [
"propext",
"Classical.choice",
"Quot.sound"
],
"Patro.Paper.tiles_disjoint": [
"propext",
"Classical.choice",
"Quot.sound"
],
"Patro.Paper.tiles_grid": [
"propext",
"Quot.sound"
],
"Patro.Paper.viewport_round_trip": [
"propext",
"Classical.choice",
"Quot.sound"
],
"Patro.Paper.viewport_unset": [
"propext",
"Quot.sound"
],
"Patro.Paper.zoom_at_position": [
"propext",
"Classical.choice",
"Quot.sound"
],
"Patro.Paper.zoom_mapping": [
"propext",
"Classical.choice",
"Quot.sound"
],
"Patro.Paper.zoom_without_size": [
"propext",
"Quot.sound"
],
"Patro.Path.add_keeps": [
"propext",
"Classical.choice",
"Quot.sound"
],
"Patro.Path.add_open": [
"propext",
"Quot.sound"
],
"Patro.Path.add_radius_error": [
"propext",
"Quot.sound"
],
"Patro.Path.bulge_arc": [
"propext",
"Classical.choice",
"Quot.sound"
],
"Patro.Path.bulge_length_wrong": [
"propext",
"Classical.choice",
"Quot.sound"
],
"Patro.Path.bulge_side": [
"propext",
"Classical.choice",
"Quot.sound"
],
"Patro.Path.bulge_tangent": [
"propext",
"Classical.choice",
"Quot.sound"
],
"Patro.Path.chain_partial": [
"propext",
"Classical.choice",
"Quot.sound"
],
"Patro.Path.clone_line_wrong": [
"propext",
"Classical.choice",
"Quot.sound"
],
"Patro.Path.clone_partial": [
"propext",
"Classical.choice",
"Quot.sound"
],
"Patro.Path.clone_raises_wrong": [
"propext",
"Quot.sound"
],
"Patro.Path.close_torn_wrong": [
"propext",
"Quot.sound"
],
"Patro.Path.close_twice_wrong": [
"propext",
"Quot.sound"
],
"Patro.Path.closed_ignores": [
"propext",
"Quot.sound"
],
"Patro.Path.closed_stop": [
"propext",
"Classical.choice",
"Quot.sound"
],
"Patro.Path.corner_radius": [
"propext",
"Classical.choice",
"Quot.sound"
],
"Patro.Path.direction_fresh": [
"propext",
"Classical.choice",
"Quot.sound"
],
"Patro.Path.direction_line": [
"propext",
"Quot.sound"
],
"Patro.Path.direction_stale_wrong": [
"propext",
"Classical.choice",
"Quot.sound"
],
"Patro.Path.direction_translation_partial": [
"propext",
"Classical.choice",
"Quot.sound"
],
"Patro.Path.first_start": [
"propext",
"Classical.choice",
"Quot.sound"
],
"Patro.Path.horizontal_absolute_wrong": [
"propext",
"Classical.choice",
"Quot.sound"
],
"Patro.Path.move_closed_wrong": [
"propext",
"Classical.choice",
"Quot.sound"
],
"Patro.Path.points_eq_trace_partial": [
"propext",
"Classical.choice",
"Quot.sound"
],
"Patro.Path.relative_absolute": [
"propext",
"Quot.sound"
],
"Patro.Path.roundedRectangle_points": [
"propext",
"Classical.choice",
"Quot.sound"
],
"Patro.Path.stringedQuadratic_wrong": [
"propext",
"Quot.sound"
],
"Patro.Path.stringed_wrong": [
"propext",
"Classical.choice",
"Quot.sound"
],
"Patro.Path.transform_arc_wrong": [
"propext",
"Classical.choice",
"Quot.sound"
],
"Patro.Path.transform_dir_fresh": [
"propext",
"Classical.choice",
"Quot.sound"
],
"Patro.Path.transform_no_radius": [
"propext",
"Classical.choice",
"Quot.sound"
],
"Patro.Path.transform_ok_iff": [
"propext",
"Classical.choice",
"Quot.sound"
],
"Patro.Path.transform_parts": [
"propext",
"Classical.choice",
"Quot.sound"
],
"Patro.Path.transform_points": [
"propext",
"Classical.choice",
"Quot.sound"
],
"Patro.Path.transform_radius": [
"propext",
"Classical.choice",
"Quot.sound"
],
"Patro.Path.transform_torn_wrong": [
"propext",
"Classical.choice",
"Quot.sound"
],
"Patro.PathEdit.arc_computed": [
"propext",
"Classical.choice",
"Quot.sound"
],
"Patro.PathEdit.corner_kept_wrong": [
"propext",
"Classical.choice",
"Quot.sound"
],
"Patro.PathEdit.direction_kept_wrong": [
"propext",
"Classical.choice",
"Quot.sound"
],
"Patro.PathEdit.edit_plain_partial": [
"propext",
"Classical.choice",
"Quot.sound"
],
"Patro.PathEdit.edit_unread_partial": [
"propext",
"Classical.choice",
"Quot.sound"
],
"Patro.PathEdit.no_radius": [
"propext",
"Classical.choice",
"Quot.sound"
],
"Patro.PathEdit.points_computed": [
"propext",
"Classical.choice",
"Quot.sound"
],
"Patro.PathEdit.radius_later_wrong": [
"propext",
"Classical.choice",
"Quot.sound"
],
"Patro.PathEdit.reads_same": [
"propext",
"Classical.choice",
"Quot.sound"
],
"Patro.Pattern.create_edges": [
"propext",
"Classical.choice",
"Quot.sound"
],
"Patro.Pattern.create_error": [
"propext",
"Classical.choice",
"Quot.sound"
],
"Patro.Pattern.create_ok": [
"propext",
"Classical.choice",
"Quot.sound"
],
"Patro.Pattern.create_succeeds": [
"propext",
"Classical.choice",
"Quot.sound"
],
"Patro.Pattern.dependencies_before": [
"propext",
"Classical.choice",
"Quot.sound"
],
"Patro.Pattern.edges_forward_partial": [
"propext",
"Classical.choice",
"Quot.sound"
],
"Patro.Pattern.edges_forward_weak": [
"propext",
"Classical.choice",
"Quot.sound"
],
"Patro.Pattern.eval_order": [
"propext",
"Classical.choice",
"Quot.sound"
],
"Patro.Pattern.eval_positions": [
"propext",
"Classical.choice",
"Quot.sound"
],
"Patro.Pattern.eval_selfLoop": [
"propext",
"Classical.choice",
"Quot.sound"
],
"Patro.Pattern.getOperation_latest": [
"propext",
"Classical.choice",
"Quot.sound"
],
"Patro.Pattern.id_hidden_by_name": [
"propext",
"Classical.choice",
"Quot.sound"
],
"Patro.Pattern.id_resolves": [
"propext",
"Classical.choice",
"Quot.sound"
],
"Patro.Pattern.mentioned_before_partial": [
"propext",
"Classical.choice",
"Quot.sound"
],
"Patro.Pattern.removeScope_at_most_one": [
"propext",
"Quot.sound"
],
"Patro.Pattern.removeScope_by_name": [
"propext",
"Quot.sound"
],
"Patro.Pattern.rename_only": [
"propext"
],
"Patro.Pattern.scope_by_index": [
"propext",
"Quot.sound"
],
"Patro.Pattern.scope_by_name": [
"propext",
"Quot.sound"
],
"Patro.Pattern.scopes_in_insertion_order": [
"propext",
"Quot.sound"
],
"Patro.Pattern.topologicalSort_never_raises_partial": [
"propext",
"Classical.choice",
"Quot.sound"
],
"Patro.Platform.cores_partial": [
"propext",
"Classical.choice",
"Quot.sound"
],
"Patro.Platform.cores_wrong": [
"propext",
"Classical.choice",
"Quot.sound"
],
"Patro.Platform.cpu_partial": [
"propext",
"Classical.choice",
"Quot.sound"
],
"Patro.Platform.cpu_wrong": [
"propext",
"Classical.choice",
"Quot.sound"
],
"Patro.Platform.memory_read": [
"propext",
"Classical.choice",
"Quot.sound"
],
"Patro.Platform.no_colon": [
"propext",
"Classical.choice",
"Quot.sound"
],
"Patro.Platform.no_frequency_wrong": [
"propext",
"Classical.choice",
"Quot.sound"
],
"Patro.Polygon.area_frozen": [
"propext",
"Classical.choice",
"Quot.sound"
],
"Patro.Polygon.area_spec": [
"propext",
"Classical.choice",
"Quot.sound"
],
"Patro.Polygon.area_stale": [
"propext",
"Classical.choice",
"Quot.sound"
],
"Patro.Polygon.area_triangle": [
"propext",
"Classical.choice",
"Quot.sound"
],
"Patro.Polygon.axes_not_simple": [
"propext",
"Classical.choice",
"Quot.sound"
],
"Patro.Polygon.axes_partial": [
"propext",
"Classical.choice",
"Quot.sound"
],
"Patro.Polygon.axes_position_wrong": [
"propext",
"Classical.choice",
"Quot.sound"
],
"Patro.Polygon.axes_stale_wrong": [
"propext",
"Classical.choice",
"Quot.sound"
],
"Patro.Polygon.barycenter_spec": [
"propext",
"Classical.choice",
"Quot.sound"
],
"Patro.Polygon.create_spec": [
"propext",
"Quot.sound"
],
"Patro.Polygon.isClockwise_spec": [
"propext",
"Classical.choice",
"Quot.sound"
],
"Patro.Polygon.isConvex_again": [
"propext",
"Quot.sound"
],
"Patro.Polygon.isConvex_complete": [
"propext",
"Classical.choice",
"Quot.sound"
],
"Patro.Polygon.isConvex_simple": [
"propext",
"Quot.sound"
],
"Patro.Polygon.isConvex_wrong_double": [
"propext",
"Classical.choice",
"Quot.sound"
],
"Patro.Polygon.isConvex_wrong_order": [
"propext",
"Classical.choice",
"Quot.sound"
],
"Patro.Polygon.isPointInside_exact": [
"propext",
"Quot.sound"
],
"Patro.Polygon.isPointInside_partial": [
"propext",
"Classical.choice",
"Quot.sound"
],
"Patro.Polygon.isPointInside_raises": [
"propext",
"Classical.choice",
"Quot.sound"
],
"Patro.Polygon.isSimple_again": [
"propext",
"Quot.sound"
],
"Patro.Polygon.isSimple_complete": [
"propext",
"Classical.choice",
"Quot.sound"
],
"Patro.Polygon.isSimple_iff": [
"propext",
"Classical.choice",
"Quot.sound"
],
"Patro.Polygon.isSimple_partial": [
"propext",
"Classical.choice",
"Quot.sound"
],
"Patro.Polygon.isSimple_wrong_small": [
"propext",
"Classical.choice",
"Quot.sound"
],
"Patro.Polygon.isSimple_wrong_vertex": [
"propext",
"Classical.choice",
"Quot.sound"
],
"Patro.Polygon.perimeter_spec": [
"propext",
"Classical.choice",
"Quot.sound"
],
"Patro.Polygon.pointBarycenter_spec": [
"propext",
"Quot.sound"
],
"Patro.Polygon.recenter_flat_wrong": [
"propext",
"Classical.choice",
"Quot.sound"
],
"Patro.Polygon.recenter_partial": [
"propext",
"Classical.choice",
"Quot.sound"
],
"Patro.Polygon.recenter_transformed_wrong": [
"propext",
"Classical.choice",
"Quot.sound"
],
"Patro.Polygon.recenter_twice_wrong": [
"propext",
"Classical.choice",
"Quot.sound"
],
"Patro.Polygon.recenter_unread_wrong": [
"propext",
"Quot.sound"
],
"Patro.Polygon.regular_area": [
"propext",
"Classical.choice",
"Quot.sound"
],
"Patro.Polygon.regular_convex": [
"propext",
"Classical.choice",
"Quot.sound"
],
"Patro.Polygon.regular_error": [
"propext",
"Classical.choice",
"Quot.sound"
],
"Patro.Polygon.regular_spec": [
"propext",
"Classical.choice",
"Quot.sound"
],
"Patro.Polygon.signedArea_affine": [
"propext",
"Classical.choice",
"Quot.sound"
],
"Patro.Polygon.signedArea_cut": [
"propext",
"Quot.sound"
],
"Patro.Polygon.signedArea_order": [
"propext",
"Classical.choice",
"Quot.sound"
],
"Patro.Polygon.signedArea_shift": [
"propext",
"Classical.choice",
"Quot.sound"
],
"Patro.Polygon.simplify_negative": [
"propext",
"Classical.choice",
"Quot.sound"
],
"Patro.Polygon.simplify_none_iff": [
"propext",
"Classical.choice",
"Quot.sound"
],
"Patro.Polygon.simplify_partial": [
"propext",
"Classical.choice",
"Quot.sound"
],
"Patro.Polygon.simplify_unbounded_wrong": [
"propext",
"Classical.choice",
"Quot.sound"
],
"Patro.Polygon.simplify_wrong": [
"propext",
"Classical.choice",
"Quot.sound"
],
"Patro.PolygonRest.crossingNumberTest_wrong": [
"propext",
"Quot.sound"
],
"Patro.PolygonRest.ngonName_wrong": [],
"Patro.PolygonRest.toTriangle_spec": [
"propext",
"Classical.choice",
"Quot.sound"
],
"Patro.PolygonRest.turns_spec": [
"propext",
"Classical.choice",
"Quot.sound"
],
"Patro.Primitive.closed_iff": [
"propext"
],
"Patro.Primitive.iterOnNuplets_spec": [
"propext",
"Quot.sound"
],
"Patro.Primitive.reverse_defined": [
"propext"
],
"Patro.Primitive.reverse_partial": [
"propext"
],
"Patro.Primitive.reverse_wrong": [
"propext"
],
"Patro.Primitive.toPath_polygon": [
"propext",
"Classical.choice",
"Quot.sound"
],
"Patro.Primitive.toPath_polyline": [
"propext",
"Classical.choice",
"Quot.sound"
],
"Patro.Primitive.toPath_polyline_wrong": [
"propext",
"Classical.choice",
"Quot.sound"
],
"Patro.Primitive.toPath_wrong": [
"propext",
"Quot.sound"
],
"Patro.Primitive.toPolygon_wrong": [
"propext",
"Classical.choice",
"Quot.sound"
],
"Patro.Printed.cubic_data_read": [
"propext",
"Classical.choice",
"Quot.sound"
],
"Patro.Printed.ready_of_eval": [
"propext",
"Classical.choice",
"Quot.sound"
],
"Patro.Printed.sketch_to_dxf_partial": [
"propext",
"Classical.choice",
"Quot.sound"
],
"Patro.Printed.sketch_to_dxf_wrong": [
"propext",
"Classical.choice",
"Quot.sound"
],
"Patro.Printed.sketch_to_mpl_partial": [
"propext",
"Classical.choice",
"Quot.sound"
],
"Patro.Printed.sketch_to_pdf": [
"propext",
"Classical.choice",
"Quot.sound"
],
"Patro.Printed.sketch_to_pdf_operation": [
"propext",
"Classical.choice",
"Quot.sound"
],
"Patro.Printed.sketch_to_svg_partial": [
"propext",
"Classical.choice",
"Quot.sound"
],
"Patro.Printed.sketch_to_svg_wrong": [
"propext",
"Classical.choice",
"Quot.sound"
],
"Patro.Printed.sketch_to_tex_partial": [
"propext",
"Classical.choice",
"Quot.sound"
],
"Patro.Printed.sketch_to_tex_wrong": [
"propext",
"Classical.choice",
"Quot.sound"
],
"Patro.Printed.sketch_to_tiles_partial": [
"propext",
"Classical.choice",
"Quot.sound"
],
"Patro.Printed.sketch_without_colour_wrong": [
"propext",
"Classical.choice",
"Quot.sound"
],
"Patro.Qt.arc_angles_partial": [
"propext",
"Classical.choice",
"Quot.sound"
],
"Patro.Qt.arc_angles_wrong": [
"propext",
"Classical.choice",
"Quot.sound"
],
"Patro.Qt.arc_place": [
"propext",
"Classical.choice",
"Quot.sound"
],
"Patro.Qt.click_invisible_wrong": [
"propext",
"Classical.choice",
"Quot.sound"
],
"Patro.Qt.click_nearest": [
"propext",
"Classical.choice",
"Quot.sound"
],
"Patro.Qt.click_succeeds": [
"propext",
"Classical.choice",
"Quot.sound"
],
"Patro.Qt.closed_path_wrong": [
"propext",
"Classical.choice",
"Quot.sound"
],
"Patro.Qt.control_pens": [
"propext",
"Classical.choice",
"Quot.sound"
],
"Patro.Qt.control_points": [
"propext",
"Classical.choice",
"Quot.sound"
],
"Patro.Qt.curved_path_wrong": [
"propext",
"Classical.choice",
"Quot.sound"
],
"Patro.Qt.ellipse_angle_wrong": [
"propext",
"Classical.choice",
"Quot.sound"
],
"Patro.Qt.empty_area_wrong": [
"propext",
"Classical.choice",
"Quot.sound"
],
"Patro.Qt.fill_pen_wrong": [
"propext",
"Classical.choice",
"Quot.sound"
],
"Patro.Qt.grid_below": [
"propext",
"Classical.choice",
"Quot.sound"
],
"Patro.Qt.grid_partial": [
"propext",
"Classical.choice",
"Quot.sound"
],
"Patro.Qt.grid_step": [
"propext",
"Classical.choice",
"Quot.sound"
],
"Patro.Qt.grid_transformed_wrong": [
"propext",
"Classical.choice",
"Quot.sound"
],
"Patro.Qt.new_viewer": [
"propext",
"Classical.choice",
"Quot.sound"
],
"Patro.Qt.no_colour_wrong": [
"propext",
"Classical.choice",
"Quot.sound"
],
"Patro.Qt.paint_items_partial": [
"propext",
"Classical.choice",
"Quot.sound"
],
"Patro.Qt.pens_partial": [
"propext",
"Classical.choice",
"Quot.sound"
],
"Patro.Qt.quadratic_cache_wrong": [
"propext",
"Classical.choice",
"Quot.sound"
],
"Patro.Qt.quadratic_partial": [
"propext",
"Classical.choice",
"Quot.sound"
],
"Patro.Qt.quadratic_wrong": [
"propext",
"Classical.choice",
"Quot.sound"
],
"Patro.Qt.rectangle_wrong": [
"propext",
"Classical.choice",
"Quot.sound"
],
"Patro.Qt.set_scene_no_size": [
"propext",
"Quot.sound"
],
"Patro.Qt.set_scene_partial": [
"propext",
"Classical.choice",
"Quot.sound"
],
"Patro.Qt.set_scene_wrong": [
"propext",
"Quot.sound"
],
"Patro.Qt.svg_arc_wrong": [
"propext",
"Classical.choice",
"Quot.sound"
],
"Patro.Qt.text_pen_wrong": [
"propext",
"Quot.sound"
],
"Patro.Qt.to_svg_partial": [
"propext",
"Classical.choice",
"Quot.sound"
],
"Patro.Qt.to_svg_wrong": [
"propext",
"Classical.choice",
"Quot.sound"
],
"Patro.RegularObject.circumcircle_iff": [
"propext",
"Classical.choice",
"Quot.sound"
],
"Patro.RegularObject.circumcircle_wrong": [
"propext",
"Classical.choice",
"Quot.sound"
],
"Patro.RegularObject.regular_clone_wrong": [
"propext",
"Classical.choice",
"Quot.sound"
],
"Patro.RegularObject.regular_simplify": [
"propext",
"Classical.choice",
"Quot.sound"
],
"Patro.RegularObject.regular_transform_partial": [
"propext",
"Classical.choice",
"Quot.sound"
],
"Patro.RegularObject.square_simplify_wrong": [
"propext",
"Classical.choice",
"Quot.sound"
],
"Patro.Roots.cubicRootNormalised_cube_wrong": [
"propext",
"Classical.choice",
"Quot.sound"
],
"Patro.Roots.cubicRootNormalised_raises_wrong": [
"propext",
"Classical.choice",
"Quot.sound"
],
"Patro.Roots.cubicRoot_constant": [
"propext",
"Classical.choice",
"Quot.sound"
],
"Patro.Roots.cubicRoot_exact": [
"propext",
"Classical.choice",
"Quot.sound"
],
"Patro.Roots.fifthRoot_arguments": [
"propext",
"Classical.choice",
"Quot.sound"
],
"Patro.Roots.fifthRoot_exact": [
"propext",
"Classical.choice",
"Quot.sound"
],
"Patro.Save.parse_data": [
"propext",
"Classical.choice",
"Quot.sound"
],
"Patro.Save.parse_file": [
"propext",
"Classical.choice",
"Quot.sound"
],
"Patro.Save.parse_none_wrong": [
"propext",
"Classical.choice",
"Quot.sound"
],
"Patro.Save.saved_and_loaded_partial": [
"propext",
"Classical.choice",
"Quot.sound"
],
"Patro.Save.saved_and_lost_wrong": [
"propext",
"Classical.choice",
"Quot.sound"
],
"Patro.Save.svg_saved": [
"propext",
"Quot.sound"
],
"Patro.Save.tex_failed_wrong": [
"propext",
"Classical.choice",
"Quot.sound"
],
"Patro.Save.tex_saved": [
"propext",
"Classical.choice",
"Quot.sound"
],
"Patro.Save.torn_wrong": [
"propext",
"Classical.choice",
"Quot.sound"
],
"Patro.Save.valentina_failed": [
"propext",
"Classical.choice",
"Quot.sound"
],
"Patro.Save.valentina_saved": [
"propext",
"Classical.choice",
"Quot.sound"
],
"Patro.Scene.bezier_path": [
"propext",
"Quot.sound"
],
"Patro.Scene.bezier_path_rejected": [
"propext",
"Classical.choice",
"Quot.sound"
],
"Patro.Scene.bezier_path_segments_wrong": [
"propext",
"Quot.sound"
],
"Patro.Scene.clean_item_skipped_wrong": [
"propext",
"Classical.choice",
"Quot.sound"
],
"Patro.Scene.coordinate_cast": [
"propext",
"Quot.sound"
],
"Patro.Scene.coordinate_unknown": [
"propext",
"Quot.sound"
],
"Patro.Scene.dirty_false_recomputes": [
"propext",
"Quot.sound"
],
"Patro.Scene.dirty_true_wrong": [
"propext",
"Quot.sound"
],
"Patro.Scene.index_consistent": [
"propext",
"Classical.choice",
"Quot.sound"
],
"Patro.Scene.meets_iff": [
"propext"
],
"Patro.Scene.moved_item": [
"propext",
"Classical.choice",
"Quot.sound"
],
"Patro.Scene.moved_item_wrong": [
"propext",
"Classical.choice",
"Quot.sound"
],
"Patro.Scene.pick": [
"propext",
"Classical.choice",
"Quot.sound"
],
"Patro.Scene.pick_negative": [
"propext",
"Classical.choice",
"Quot.sound"
],
"Patro.Scene.read_first_wrong": [
"propext",
"Classical.choice",
"Quot.sound"
],
"Patro.Scene.remove_item_wrong": [
"propext",
"Quot.sound"
],
"Patro.Scene.unselect_all": [
"propext",
"Classical.choice",
"Quot.sound"
],
"Patro.Scene.update_index": [
"propext",
"Classical.choice",
"Quot.sound"
],
"Patro.Scene.update_succeeds": [
"propext",
"Quot.sound"
],
"Patro.Scene.update_then_pick": [
"propext",
"Classical.choice",
"Quot.sound"
],
"Patro.Scene.user_data": [
"propext",
"Classical.choice",
"Quot.sound"
],
"Patro.Scene.z_order": [
"propext",
"Classical.choice",
"Quot.sound"
],
"Patro.SceneGeometry.add_partial": [
"propext",
"Classical.choice",
"Quot.sound"
],
"Patro.SceneGeometry.add_spline_cubic": [
"propext",
"Classical.choice",
"Quot.sound"
],
"Patro.SceneGeometry.add_spline_quadratic_wrong": [
"propext",
"Classical.choice",
"Quot.sound"
],
"Patro.SceneGeometry.arc_items_wrong": [
"propext",
"Classical.choice",
"Quot.sound"
],
"Patro.SceneGeometry.circle_center_wrong": [
"propext",
"Classical.choice",
"Quot.sound"
],
"Patro.SceneGeometry.circle_items": [
"propext",
"Classical.choice",
"Quot.sound"
],
"Patro.SceneGeometry.closed_twice_wrong": [
"propext",
"Classical.choice",
"Quot.sound"
],
"Patro.SceneGeometry.ellipse_arc_wrong": [
"propext",
"Classical.choice",
"Quot.sound"
],
"Patro.SceneGeometry.ellipse_item_wrong": [
"propext",
"Classical.choice",
"Quot.sound"
],
"Patro.SceneGeometry.path_box_contains": [
"propext",
"Classical.choice",
"Quot.sound"
],
"Patro.SceneGeometry.path_box_curve_wrong": [
"propext",
"Classical.choice",
"Quot.sound"
],
"Patro.SceneGeometry.path_box_partial": [
"propext",
"Classical.choice",
"Quot.sound"
],
"Patro.SceneGeometry.path_box_stringed_wrong": [
"propext",
"Classical.choice",
"Quot.sound"
],
"Patro.SceneGeometry.path_box_wrong": [
"propext",
"Classical.choice",
"Quot.sound"
],
"Patro.SceneGeometry.path_item_arc_wrong": [
"propext",
"Classical.choice",
"Quot.sound"
],
"Patro.SceneGeometry.path_item_geometry_wrong": [
"propext",
"Classical.choice",
"Quot.sound"
],
"Patro.SceneGeometry.path_item_index_wrong": [
"propext",
"Classical.choice",
"Quot.sound"
],
"Patro.SceneGeometry.path_item_partial": [
"propext",
"Classical.choice",
"Quot.sound"
],
"Patro.SceneGeometry.path_items_partial": [
"propext",
"Classical.choice",
"Quot.sound"
],
"Patro.SceneGeometry.plain_items_partial": [
"propext",
"Classical.choice",
"Quot.sound"
],
"Patro.SceneGeometry.rounded_rectangle_items": [
"propext",
"Classical.choice",
"Quot.sound"
],
"Patro.SceneGeometry.stringed_items_wrong": [
"propext",
"Classical.choice",
"Quot.sound"
],
"Patro.SceneGeometry.transformed_circle_partial": [
"propext",
"Classical.choice",
"Quot.sound"
],
"Patro.SceneGeometry.transformed_circle_wrong": [
"propext",
"Classical.choice",
"Quot.sound"
],
"Patro.SceneGeometry.transformed_partial": [
"propext",
"Classical.choice",
"Quot.sound"
],
"Patro.SceneGeometry.transformed_rectangle_partial": [
"propext",
"Classical.choice",
"Quot.sound"
],
"Patro.SceneGeometry.transformed_rectangle_wrong": [
"propext",
"Classical.choice",
"Quot.sound"
],
"Patro.Singleton.decorator_race": [],
"Patro.Singleton.decorator_race_all": [
"propext",
"Classical.choice",
"Quot.sound"
],
"Patro.Singleton.decorator_sequential": [
"propext",
"Classical.choice",
"Quot.sound"
],
"Patro.Singleton.metaclass_no_deadlock": [
"propext",
"Quot.sound"
],
"Patro.Singleton.metaclass_single_instance": [
"propext",
"Classical.choice",
"Quot.sound"
],
"Patro.Singleton.reentrant_partial": [
"propext",
"Classical.choice",
"Quot.sound"
],
"Patro.Singleton.reentrant_raise_wrong": [
"propext"
],
"Patro.Singleton.reentrant_wrong": [
"propext",
"Classical.choice",
"Quot.sound"
],
"Patro.SketchGeometry.again_same_partial": [
"propext",
"Classical.choice",
"Quot.sound"
],
"Patro.SketchGeometry.contact_outside_wrong": [
"propext",
"Classical.choice",
"Quot.sound"
],
"Patro.SketchGeometry.contact_partial": [
"propext",
"Classical.choice",
"Quot.sound"
],
"Patro.SketchGeometry.contact_tangent_wrong": [
"propext",
"Classical.choice",
"Quot.sound"
],
"Patro.SketchGeometry.dirty_fresh_partial": [
"propext",
"Classical.choice",
"Quot.sound"
],
"Patro.SketchGeometry.evaluated_placeable": [
"propext",
"Classical.choice",
"Quot.sound"
],
"Patro.SketchGeometry.evaluates_next": [
"propext",
"Classical.choice",
"Quot.sound"
],
"Patro.SketchGeometry.measurements_ignored_wrong": [
"propext",
"Classical.choice",
"Quot.sound"
],
"Patro.SketchGeometry.sketch_evaluates_iff": [
"propext",
"Classical.choice",
"Quot.sound"
],
"Patro.SketchGeometry.sketch_satisfies": [
"propext",
"Classical.choice",
"Quot.sound"
],
"Patro.SketchGeometry.sketch_values": [
"propext",
"Classical.choice",
"Quot.sound"
],
"Patro.SketchGeometry.spline_geometry": [
"propext",
"Classical.choice",
"Quot.sound"
],
"Patro.SketchGeometry.tangent_not_evaluated": [
"propext",
"Classical.choice",
"Quot.sound"
],
"Patro.SketchGeometry.unchanged_same": [
"propext",
"Classical.choice",
"Quot.sound"
],
"Patro.Spline.basis_spec": [
"propext",
"Classical.choice",
"Quot.sound"
],
"Patro.Spline.basis_sum": [
"propext",
"Classical.choice",
"Quot.sound"
],
"Patro.Spline.cubicSpline_bspline": [
"propext",
"Classical.choice",
"Quot.sound"
],
"Patro.Spline.insertKnot_end": [
"propext",
"Classical.choice",
"Quot.sound"
],
"Patro.Spline.insertKnot_end_wrong": [
"propext",
"Classical.choice",
"Quot.sound"
],
"Patro.Spline.insertKnot_pointAt": [
"propext",
"Classical.choice",
"Quot.sound"
],
"Patro.Spline.insertKnot_spec": [
"propext",
"Classical.choice",
"Quot.sound"
],
"Patro.Spline.naive_wrong": [
"propext",
"Quot.sound"
],
"Patro.Spline.pointAt_after": [
"propext",
"Classical.choice",
"Quot.sound"
],
"Patro.Spline.pointAt_before_wrong": [
"propext",
"Classical.choice",
"Quot.sound"
],
"Patro.Spline.pointAt_curve": [
"propext",
"Classical.choice",
"Quot.sound"
],
"Patro.Spline.pointAt_end_wrong": [
"propext",
"Classical.choice",
"Quot.sound"
],
"Patro.Spline.pointAt_uniform": [
"propext",
"Classical.choice",
"Quot.sound"
],
"Patro.Spline.span_given": [
"propext",
"Classical.choice",
"Quot.sound"
],
"Patro.Spline.span_uniform": [
"propext",
"Classical.choice",
"Quot.sound"
],
"Patro.Spline.spline_middles": [
"propext",
"Classical.choice",
"Quot.sound"
],
"Patro.Spline.spline_polyline": [
"propext",
"Classical.choice",
"Quot.sound"
],
"Patro.Spline.toBezier_closed_wrong": [
"propext",
"Classical.choice",
"Quot.sound"
],
"Patro.Spline.toBezier_degree_wrong": [
"propext",
"Classical.choice",
"Quot.sound"
],
"Patro.Spline.toBezier_given_wrong": [
"propext",
"Quot.sound"
],
"Patro.Spline.toBezier_spec": [
"propext",
"Classical.choice",
"Quot.sound"
],
"Patro.Spline.uniformKnots_spec": [
"propext",
"Classical.choice",
"Quot.sound"
],
"Patro.SplineObject.spline_box": [
"propext",
"Classical.choice",
"Quot.sound"
],
"Patro.SplineObject.spline_box_uniform": [
"propext",
"Classical.choice",
"Quot.sound"
],
"Patro.SplineObject.spline_box_wrong": [
"propext",
"Classical.choice",
"Quot.sound"
],
"Patro.SplineObject.spline_clone_wrong": [
"propext",
"Classical.choice",
"Quot.sound"
],
"Patro.SplineObject.spline_eq_iff": [
"propext"
],
"Patro.SplineObject.spline_eq_wrong": [
"propext",
"Classical.choice",
"Quot.sound"
],
"Patro.SplineObject.spline_hull": [
"propext",
"Classical.choice",
"Quot.sound"
],
"Patro.SplineObject.spline_made": [
"propext",
"Quot.sound"
],
"Patro.SplineObject.spline_one_point_wrong": [
"propext",
"Quot.sound"
],
"Patro.SplineObject.spline_transform_partial": [
"propext",
"Quot.sound"
],
"Patro.Style.bezier_clone_wrong": [
"propext",
"Classical.choice",
"Quot.sound"
],
"Patro.Style.bezier_control": [
"propext",
"Classical.choice",
"Quot.sound"
],
"Patro.Style.clone_wrong": [
"propext",
"Classical.choice",
"Quot.sound"
],
"Patro.Style.enumeration_bool": [
"propext",
"Quot.sound"
],
"Patro.Style.enumerations": [
"propext",
"Classical.choice",
"Quot.sound"
],
"Patro.Style.path_clone_iff": [
"propext",
"Classical.choice",
"Quot.sound"
],
"Patro.Style.path_clone_partial": [
"propext",
"Classical.choice",
"Quot.sound"
],
"Patro.Style.sketch_new": [
"propext",
"Classical.choice",
"Quot.sound"
],
"Patro.Style.sketch_styles": [
"propext",
"Classical.choice",
"Quot.sound"
],
"Patro.Style.style_attributes": [
"propext",
"Classical.choice",
"Quot.sound"
],
"Patro.Style.style_bool": [
"propext",
"Classical.choice",
"Quot.sound"
],
"Patro.Style.style_defaults": [
"propext",
"Classical.choice",
"Quot.sound"
],
"Patro.Style.style_made": [
"propext",
"Classical.choice",
"Quot.sound"
],
"Patro.SvgPath.after_close_wrong": [
"propext",
"Quot.sound"
],
"Patro.SvgPath.compact_wrong": [
"propext",
"Quot.sound"
],
"Patro.SvgPath.first_move": [
"propext",
"Quot.sound"
],
"Patro.SvgPath.geometry_partial": [
"propext",
"Quot.sound"
],
"Patro.SvgPath.parse_blocks_partial": [
"propext",
"Classical.choice",
"Quot.sound"
],
"Patro.SvgPath.parse_hangs_wrong": [
"propext",
"Classical.choice",
"Quot.sound"
],
"Patro.SvgPath.parse_terminates_iff": [
"propext",
"Classical.choice",
"Quot.sound"
],
"Patro.SvgPath.parse_terminates_partial": [
"propext",
"Classical.choice",
"Quot.sound"
],
"Patro.SvgPath.read_text_partial": [
"propext",
"Classical.choice",
"Quot.sound"
],
"Patro.SvgPath.read_write_wrong": [
"propext",
"Quot.sound"
],
"Patro.SvgPath.second_move_wrong": [
"propext",
"Quot.sound"
],
"Patro.SvgPath.smooth_quadratic_wrong": [
"propext"
],
"Patro.SvgPath.smooth_wrong": [
"propext",
"Classical.choice",
"Quot.sound"
],
"Patro.SvgPath.vertical_wrong": [
"propext",
"Quot.sound"
],
"Patro.SvgPath.write_read_partial": [
"propext",
"Classical.choice",
"Quot.sound"
],
"Patro.SvgPath.wrong_coordinates": [
"propext",
"Quot.sound"
],
"Patro.SvgState.class_of_tag": [],
"Patro.SvgState.comment_wrong": [
"propext",
"Classical.choice",
"Quot.sound"
],
"Patro.SvgState.extend_attribute": [
"propext",
"Classical.choice",
"Quot.sound"
],
"Patro.SvgState.extend_iff": [
"propext",
"Classical.choice",
"Quot.sound"
],
"Patro.SvgState.extend_settled": [
"propext",
"Classical.choice",
"Quot.sound"
],
"Patro.SvgState.extend_text": [
"propext",
"Classical.choice",
"Quot.sound"
],
"Patro.SvgState.extend_transform": [
"propext",
"Classical.choice",
"Quot.sound"
],
"Patro.SvgState.group_scope_partial": [
"propext",
"Classical.choice",
"Quot.sound"
],
"Patro.SvgState.group_scope_wrong": [
"propext",
"Classical.choice",
"Quot.sound"
],
"Patro.SvgState.inherited_iff": [
"propext",
"Classical.choice",
"Quot.sound"
],
"Patro.SvgState.inherited_wrong": [
"propext",
"Classical.choice",
"Quot.sound"
],
"Patro.SvgState.item_attributes": [
"propext",
"Quot.sound"
],
"Patro.SvgState.item_class_partial": [
"propext",
"Classical.choice",
"Quot.sound"
],
"Patro.SvgState.item_shape": [
"propext",
"Quot.sound"
],
"Patro.SvgState.newState_settled": [
"propext",
"Classical.choice",
"Quot.sound"
],
"Patro.SvgState.polygon_ellipse_wrong": [
"propext",
"Classical.choice",
"Quot.sound"
],
"Patro.SvgState.read_exact": [
"propext",
"Classical.choice",
"Quot.sound"
],
"Patro.SvgState.stroke_attributes_lost": [
"propext",
"Classical.choice",
"Quot.sound"
],
"Patro.SvgState.style_iff": [
"propext",
"Classical.choice",
"Quot.sound"
],
"Patro.SvgState.style_partial": [
"propext",
"Classical.choice",
"Quot.sound"
],
"Patro.SvgState.style_semicolon_wrong": [
"propext",
"Classical.choice",
"Quot.sound"
],
"Patro.SvgState.style_transform_wrong": [
"propext",
"Classical.choice",
"Quot.sound"
],
"Patro.SvgState.to_dict": [
"propext",
"Classical.choice",
"Quot.sound"
],
"Patro.SvgState.to_dict_missing": [
"propext",
"Classical.choice",
"Quot.sound"
],
"Patro.SvgState.written_read_wrong": [
"propext",
"Classical.choice",
"Quot.sound"
],
"Patro.SvgTransform.length_partial": [
"propext",
"Classical.choice",
"Quot.sound"
],
"Patro.SvgTransform.length_value_error": [
"propext",
"Classical.choice",
"Quot.sound"
],
"Patro.SvgTransform.length_written": [
"propext",
"Classical.choice",
"Quot.sound"
],
"Patro.SvgTransform.percent_written_wrong": [
"propext",
"Classical.choice",
"Quot.sound"
],
"Patro.SvgTransform.several_wrong": [
"propext",
"Classical.choice",
"Quot.sound"
],
"Patro.SvgTransform.spaces_wrong": [
"propext",
"Classical.choice",
"Quot.sound"
],
"Patro.SvgTransform.transform_partial": [
"propext",
"Classical.choice",
"Quot.sound"
],
"Patro.SvgTransform.unit_wrong": [
"propext",
"Classical.choice",
"Quot.sound"
],
"Patro.SvgTransform.unknown_wrong": [
"propext",
"Classical.choice",
"Quot.sound"
],
"Patro.SvgTransform.unsupported_wrong": [
"propext",
"Classical.choice",
"Quot.sound"
],
"Patro.SvgTransform.write_read_wrong": [
"propext",
"Classical.choice",
"Quot.sound"
],
"Patro.Tex.append_list": [
"propext",
"Classical.choice",
"Quot.sound"
],
"Patro.Tex.circle_painted": [
"propext",
"Classical.choice",
"Quot.sound"
],
"Patro.Tex.circle_wrong": [
"propext",
"Classical.choice",
"Quot.sound"
],
"Patro.Tex.coordinates_first": [
"propext",
"Classical.choice",
"Quot.sound"
],
"Patro.Tex.curves_painted": [
"propext",
"Classical.choice",
"Quot.sound"
],
"Patro.Tex.detail_figure": [
"propext",
"Classical.choice",
"Quot.sound"
],
"Patro.Tex.detail_figure_raises": [
"propext",
"Classical.choice",
"Quot.sound"
],
"Patro.Tex.document_page_partial": [
"propext",
"Classical.choice",
"Quot.sound"
],
"Patro.Tex.document_source": [
"propext",
"Classical.choice",
"Quot.sound"
],
"Patro.Tex.environments_nested": [
"propext",
"Classical.choice",
"Quot.sound"
],
"Patro.Tex.file_name_partial": [
"propext",
"Classical.choice",
"Quot.sound"
],
"Patro.Tex.file_name_wrong": [
"propext",
"Classical.choice",
"Quot.sound"
],
"Patro.Tex.guillemets_wrong": [
"propext",
"Classical.choice",
"Quot.sound"
],
"Patro.Tex.landscape_wrong": [
"propext",
"Classical.choice",
"Quot.sound"
],
"Patro.Tex.other_kinds_wrong": [
"propext",
"Classical.choice",
"Quot.sound"
],
"Patro.Tex.output_directory_wrong": [],
"Patro.Tex.painted_in_order": [
"propext"
],
"Patro.Tex.painting_stops": [
"propext"
],
"Patro.Tex.path_style": [
"propext",
"Classical.choice",
"Quot.sound"
],
"Patro.Tex.path_style_texts": [
"propext",
"Classical.choice",
"Quot.sound"
],
"Patro.Tex.path_style_wrong": [
"propext",
"Classical.choice",
"Quot.sound"
],
"Patro.Tex.positional_field": [
"propext",
"Quot.sound"
],
"Patro.Tex.template_filled": [
"propext",
"Classical.choice",
"Quot.sound"
],
"Patro.Tex.text_painted": [
"propext",
"Classical.choice",
"Quot.sound"
],
"Patro.Tex.tiled_cover_wrong": [
"propext",
"Classical.choice",
"Quot.sound"
],
"Patro.Tex.tiled_figure_partial": [
"propext",
"Classical.choice",
"Quot.sound"
],
"Patro.Tex.tiled_figure_raises": [
"propext",
"Classical.choice",
"Quot.sound"
],
"Patro.Textile.database_first": [
"propext",
"Quot.sound"
],
"Patro.Textile.fabric_bending": [
"propext",
"Quot.sound"
],
"Patro.Textile.fabric_wrong": [
"propext",
"Quot.sound"
],
"Patro.Textile.fiber_without_source": [
"propext",
"Classical.choice",
"Quot.sound"
],
"Patro.Textile.fibers_loaded": [
"propext",
"Classical.choice",
"Quot.sound"
],
"Patro.Textile.fibers_malformed": [
"propext",
"Classical.choice",
"Quot.sound"
],
"Patro.Textile.machine_needle_partial": [
"propext",
"Quot.sound"
],
"Patro.Textile.machine_needle_wrong": [
"propext",
"Quot.sound"
],
"Patro.Textile.machine_needles": [
"propext",
"Quot.sound"
],
"Patro.Textile.machine_partial": [
"propext",
"Quot.sound"
],
"Patro.Textile.machine_speed": [
"propext",
"Quot.sound"
],
"Patro.Textile.machine_stitch_types": [
"propext",
"Quot.sound"
],
"Patro.Textile.machine_wrong": [
"propext",
"Quot.sound"
],
"Patro.Textile.needle_kept": [
"propext",
"Classical.choice",
"Quot.sound"
],
"Patro.Textile.needle_refused": [
"propext",
"Quot.sound"
],
"Patro.Textile.seam_name_wrong": [
"propext",
"Classical.choice",
"Quot.sound"
],
"Patro.Textile.stitches_read": [
"propext",
"Classical.choice",
"Quot.sound"
],
"Patro.Textile.stitches_wrong": [
"propext",
"Classical.choice",
"Quot.sound"
],
"Patro.ToPython.to_python_inf_wrong": [
"propext",
"Classical.choice",
"Quot.sound"
],
"Patro.ToPython.to_python_injective": [
"propext",
"Classical.choice",
"Quot.sound"
],
"Patro.ToPython.to_python_line_wrong": [
"propext",
"Classical.choice",
"Quot.sound"
],
"Patro.ToPython.to_python_partial": [
"propext",
"Classical.choice",
"Quot.sound"
],
"Patro.ToPython.to_python_quote_wrong": [
"propext",
"Classical.choice",
"Quot.sound"
],
"Patro.ToPython.to_python_style_wrong": [
"propext",
"Classical.choice",
"Quot.sound"
],
"Patro.Transformation.aff_constructors": [
"propext",
"Classical.choice",
"Quot.sound"
],
"Patro.Transformation.aff_identity_sound": [
"propext",
"Classical.choice",
"Quot.sound"
],
"Patro.Transformation.aff_mul_apply": [
"propext",
"Classical.choice",
"Quot.sound"
],
"Patro.Transformation.aff_mul_assoc": [
"propext",
"Classical.choice",
"Quot.sound"
],
"Patro.Transformation.aff_mul_wrong": [
"propext",
"Classical.choice",
"Quot.sound"
],
"Patro.Transformation.aff_reach_mul_apply": [
"propext",
"Classical.choice",
"Quot.sound"
],
"Patro.Transformation.imul_apply": [
"propext",
"Classical.choice",
"Quot.sound"
],
"Patro.Transformation.lin_identity_sound": [
"propext",
"Classical.choice",
"Quot.sound"
],
"Patro.Transformation.lin_imul_raises": [
"propext",
"Classical.choice",
"Quot.sound"
],
"Patro.Transformation.lin_mul_apply": [
"propext",
"Classical.choice",
"Quot.sound"
],
"Patro.Transformation.lin_mul_assoc": [
"propext",
"Classical.choice",
"Quot.sound"
],
"Patro.Transformation.lin_mul_ok_iff": [
"propext",
"Classical.choice",
"Quot.sound"
],
"Patro.Transformation.lin_type_sound": [
"propext",
"Classical.choice",
"Quot.sound"
],
"Patro.Transformation.mirror_spec": [
"propext",
"Classical.choice",
"Quot.sound"
],
"Patro.Transformation.rotationAt_apply": [
"propext",
"Classical.choice",
"Quot.sound"
],
"Patro.Transformation.rotationAt_spec": [
"propext",
"Classical.choice",
"Quot.sound"
],
"Patro.Transformation.scalarMul_made": [
"propext",
"Classical.choice",
"Quot.sound"
],
"Patro.Transformation.scalarMul_opposite_wrong": [
"propext",
"Classical.choice",
"Quot.sound"
],
"Patro.Transformation.scalarMul_partial": [
"propext",
"Classical.choice",
"Quot.sound"
],
"Patro.Transformation.scalarMul_screen": [
"propext",
"Classical.choice",
"Quot.sound"
],
"Patro.Transformation.scalarMul_wrong": [
"propext",
"Classical.choice",
"Quot.sound"
],
"Patro.Transformation.transform_clone": [
"propext",
"Classical.choice",
"Quot.sound"
],
"Patro.Transformation.transform_in_place": [
"propext",
"Quot.sound"
],
"Patro.Transformation.transform_reach": [
"propext",
"Classical.choice",
"Quot.sound"
],
"Patro.TransformationNew.affine_no_type_wrong": [
"propext",
"Classical.choice",
"Quot.sound"
],
"Patro.TransformationNew.array_kept_partial": [
"propext",
"Classical.choice",
"Quot.sound"
],
"Patro.TransformationNew.copy_affine_wrong": [
"propext",
"Classical.choice",
"Quot.sound"
],
"Patro.TransformationNew.copy_linear_partial": [
"propext",
"Classical.choice",
"Quot.sound"
],
"Patro.TransformationNew.linear_of_affine_wrong": [
"propext",
"Classical.choice",
"Quot.sound"
],
"Patro.TransformationNew.list_read_partial": [
"propext",
"Classical.choice",
"Quot.sound"
],
"Patro.TransformationNew.no_type_wrong": [
"propext",
"Classical.choice",
"Quot.sound"
],
"Patro.TransformationNew.number_wrong": [
"propext",
"Classical.choice",
"Quot.sound"
],
"Patro.TransformationNew.refused": [
"propext",
"Classical.choice",
"Quot.sound"
],
"Patro.TransformationNew.rotation_wrong": [
"propext",
"Classical.choice",
"Quot.sound"
],
"Patro.TransformationNew.type_complete": [
"propext",
"Classical.choice",
"Quot.sound"
],
"Patro.TransformationNew.type_refused": [
"propext",
"Quot.sound"
],
"Patro.TransformationNew.type_sound": [
"propext",
"Classical.choice",
"Quot.sound"
],
"Patro.Triangle.measures_wrong": [
"propext",
"Classical.choice",
"Quot.sound"
],
"Patro.Units.conversions_right": [
"propext",
"Classical.choice",
"Quot.sound"
],
"Patro.Units.conversions_wrong": [
"propext",
"Classical.choice",
"Quot.sound"
],
"Patro.Units.den_to_tex_wrong": [
"propext",
"Classical.choice",
"Quot.sound"
],
"Patro.Units.inch_point_round_trip": [
"propext",
"Classical.choice",
"Quot.sound"
],
"Patro.Units.mm_point_round_trip": [
"propext",
"Classical.choice",
"Quot.sound"
],
"Patro.Units.nm_to_tex_wrong": [
"propext",
"Classical.choice",
"Quot.sound"
],
"Patro.Units.tex_to_den": [
"propext",
"Classical.choice",
"Quot.sound"
],
"Patro.Units.tex_to_nm": [
"propext",
"Classical.choice",
"Quot.sound"
],
"Patro.Units.unused_factor_wrong": [
"propext",
"Classical.choice",
"Quot.sound"
],
"Patro.Units.yarn_default_wrong": [
"propext",
"Quot.sound"
],
"Patro.Units.yarn_new": [
"propext",
"Classical.choice",
"Quot.sound"
],
"Patro.Units.yarn_number": [
"propext",
"Quot.sound"
],
"Patro.ValFormulas.calculator_error": [
"propext",
"Classical.choice",
"Quot.sound"
],
"Patro.ValFormulas.calculator_hidden_wrong": [
"propext",
"Classical.choice",
"Quot.sound"
],
"Patro.ValFormulas.calculator_solution": [
"propext",
"Classical.choice",
"Quot.sound"
],
"Patro.ValFormulas.calculator_values": [
"propext",
"Classical.choice",
"Quot.sound"
],
"Patro.ValFormulas.file_places_formulas_partial": [
"propext",
"Classical.choice",
"Quot.sound"
],
"Patro.ValFormulas.formula_measurements_partial": [
"propext",
"Classical.choice",
"Quot.sound"
],
"Patro.ValPlaces.file_evaluates_iff": [
"propext",
"Classical.choice",
"Quot.sound"
],
"Patro.ValPlaces.file_places": [
"propext",
"Classical.choice",
"Quot.sound"
],
"Patro.ValPlaces.file_well_formed": [
"propext",
"Classical.choice",
"Quot.sound"
],
"Patro.ValPlaces.written_drawing": [
"propext",
"Classical.choice",
"Quot.sound"
],
"Patro.ValPrinted.file_printed": [
"propext",
"Classical.choice",
"Quot.sound"
],
"Patro.ValPrinted.file_to_dxf_partial": [
"propext",
"Classical.choice",
"Quot.sound"
],
"Patro.ValPrinted.file_to_dxf_wrong": [
"propext",
"Classical.choice",
"Quot.sound"
],
"Patro.ValPrinted.file_to_mpl_partial": [
"propext",
"Classical.choice",
"Quot.sound"
],
"Patro.ValPrinted.file_to_svg_partial": [
"propext",
"Classical.choice",
"Quot.sound"
],
"Patro.ValPrinted.file_to_tex_partial": [
"propext",
"Classical.choice",
"Quot.sound"
],
"Patro.ValPrinted.file_to_tiles_partial": [
"propext",
"Classical.choice",
"Quot.sound"
],
"Patro.ValPrinted.file_without_colour_wrong": [
"propext",
"Classical.choice",
"Quot.sound"
],
"Patro.ValPrinted.file_without_style": [
"propext",
"Classical.choice",
"Quot.sound"
],
"Patro.ValVit.vit_calculator": [
"propext",
"Classical.choice",
"Quot.sound"
],
"Patro.ValVit.vit_file_printed_partial": [
"propext",
"Classical.choice",
"Quot.sound"
],
"Patro.ValVit.vit_values": [
"propext",
"Classical.choice",
"Quot.sound"
],
"Patro.Valentina.boolean_from_python_wrong": [
"propext",
"Classical.choice",
"Quot.sound"
],
"Patro.Valentina.boolean_written": [
"propext",
"Classical.choice",
"Quot.sound"
],
"Patro.Valentina.dangling_raises": [
"propext",
"Classical.choice",
"Quot.sound"
],
"Patro.Valentina.default_style_wrong": [
"propext",
"Classical.choice",
"Quot.sound"
],
"Patro.Valentina.detail_child_read": [
"propext",
"Classical.choice",
"Quot.sound"
],
"Patro.Valentina.detail_read": [
"propext",
"Classical.choice",
"Quot.sound"
],
"Patro.Valentina.details_require": [
"propext",
"Classical.choice",
"Quot.sound"
],
"Patro.Valentina.details_wrong": [
"propext",
"Classical.choice",
"Quot.sound"
],
"Patro.Valentina.file_computed_iff": [
"propext",
"Classical.choice",
"Quot.sound"
],
"Patro.Valentina.file_lacks": [
"propext",
"Classical.choice",
"Quot.sound"
],
"Patro.Valentina.file_read_iff": [
"propext",
"Classical.choice",
"Quot.sound"
],
"Patro.Valentina.file_requires": [
"propext",
"Classical.choice",
"Quot.sound"
],
"Patro.Valentina.interleaved_scopes_wrong": [
"propext",
"Classical.choice",
"Quot.sound"
],
"Patro.Valentina.missing_argument": [
"propext",
"Classical.choice",
"Quot.sound"
],
"Patro.Valentina.modeling_item_read": [
"propext",
"Classical.choice",
"Quot.sound"
],
"Patro.Valentina.object_style_wrong": [
"propext",
"Classical.choice",
"Quot.sound"
],
"Patro.Valentina.pattern_round_trip_partial": [
"propext",
"Classical.choice",
"Quot.sound"
],
"Patro.Valentina.read_back_wrong": [
"propext",
"Classical.choice",
"Quot.sound"
],
"Patro.Valentina.read_describes": [
"propext",
"Classical.choice",
"Quot.sound"
],
"Patro.Valentina.read_raises": [
"propext",
"Classical.choice",
"Quot.sound"
],
"Patro.Valentina.read_succeeds": [
"propext",
"Classical.choice",
"Quot.sound"
],
"Patro.Valentina.second_reading_wrong": [
"propext",
"Classical.choice",
"Quot.sound"
],
"Patro.Valentina.sketch_round_trip_partial": [
"propext",
"Classical.choice",
"Quot.sound"
],
"Patro.Valentina.spline_style_wrong": [
"propext",
"Classical.choice",
"Quot.sound"
],
"Patro.Valentina.unknown_raises": [
"propext",
"Classical.choice",
"Quot.sound"
],
"Patro.Valentina.unnamed_wrong": [
"propext",
"Classical.choice",
"Quot.sound"
],
"Patro.Valentina.write_operation": [
"propext",
"Classical.choice",
"Quot.sound"
],
"Patro.Valentina.write_sketch": [
"propext",
"Classical.choice",
"Quot.sound"
],
"Patro.Vec.angleWith_spec": [
"propext",
"Classical.choice",
"Quot.sound"
],
"Patro.Vec.cos_sin_with": [
"propext",
"Classical.choice",
"Quot.sound"
],
"Patro.Vec.cross_laws": [
"propext",
"Classical.choice",
"Quot.sound"
],
"Patro.Vec.dot_laws": [
"propext",
"Classical.choice",
"Quot.sound"
],
"Patro.Vec.dot_sq_add_cross_sq": [
"propext",
"Quot.sound"
],
"Patro.Vec.fromPolar_magnitude": [
"propext",
"Classical.choice",
"Quot.sound"
],
"Patro.Vec.fromPolar_orientation": [
"propext",
"Classical.choice",
"Quot.sound"
],
"Patro.Vec.fromPolar_rotate": [
"propext",
"Classical.choice",
"Quot.sound"
],
"Patro.Vec.isParallel_iff": [
"propext",
"Classical.choice",
"Quot.sound"
],
"Patro.Vec.isParallel_short": [
"propext",
"Classical.choice",
"Quot.sound"
],
"Patro.Vec.normal_rotate": [
"propext",
"Classical.choice",
"Quot.sound"
],
"Patro.Vec.orientation_eq_arg": [
"propext",
"Classical.choice",
"Quot.sound"
],
"Patro.Vec.orientation_null": [
"propext",
"Classical.choice",
"Quot.sound"
],
"Patro.Vec.permute_scale_middle": [
"propext",
"Classical.choice",
"Quot.sound"
],
"Patro.Vec.projection_deviation": [
"propext",
"Classical.choice",
"Quot.sound"
],
"Patro.Vec.projection_error": [
"propext",
"Classical.choice",
"Quot.sound"
],
"Patro.Vec.projection_idempotent": [
"propext",
"Classical.choice",
"Quot.sound"
],
"Patro.Vec.rotate_isometry": [
"propext",
"Classical.choice",
"Quot.sound"
],
"Patro.Vec.rotate_linear": [
"propext",
"Classical.choice",
"Quot.sound"
],
"Patro.Vec.rotate_rotate": [
"propext",
"Classical.choice",
"Quot.sound"
],
"Patro.Vec.rotate_toComplex": [
"propext",
"Classical.choice",
"Quot.sound"
],
"Patro.Vec.toNormalised_spec": [
"propext",
"Classical.choice",
"Quot.sound"
],
"Patro.VectorObject.add_class": [
"propext",
"Quot.sound"
],
"Patro.VectorObject.almost_equal_partial": [
"propext",
"Classical.choice",
"Quot.sound"
],
"Patro.VectorObject.almost_equal_wrong": [
"propext",
"Classical.choice",
"Quot.sound"
],
"Patro.VectorObject.arithmetic": [
"propext",
"Quot.sound"
],
"Patro.VectorObject.eq_homogeneous_wrong": [
"propext",
"Classical.choice",
"Quot.sound"
],
"Patro.VectorObject.eq_iff_partial": [
"propext",
"Quot.sound"
],
"Patro.VectorObject.homogeneous_right_wrong": [
"propext",
"Quot.sound"
],
"Patro.VectorObject.homogeneous_weight_wrong": [
"propext",
"Quot.sound"
],
"Patro.VectorObject.int_add_wrong": [
"propext",
"Quot.sound"
],
"Patro.VectorObject.integers": [
"propext",
"Classical.choice",
"Quot.sound"
],
"Patro.VectorObject.integers_stay": [
"propext",
"Classical.choice",
"Quot.sound"
],
"Patro.VectorObject.normalised_wrong": [
"propext",
"Quot.sound"
],
"Patro.VectorObject.operators_pure": [
"propext",
"Classical.choice",
"Quot.sound"
],
"Patro.VectorObject.vectors_not_shared": [
"propext",
"Classical.choice",
"Quot.sound"
],
"Patro.Viewer.drag_partial": [
"propext",
"Classical.choice",
"Quot.sound"
],
"Patro.Viewer.drag_wrong": [
"propext",
"Classical.choice",
"Quot.sound"
],
"Patro.Viewer.edit_then_fit": [
"propext",
"Classical.choice",
"Quot.sound"
],
"Patro.Viewer.fit_button": [
"propext",
"Classical.choice",
"Quot.sound"
],
"Patro.Viewer.keys": [
"propext",
"Classical.choice",
"Quot.sound"
],
"Patro.Viewer.label_partial": [
"propext",
"Quot.sound"
],
"Patro.Viewer.label_wrong": [
"propext",
"Classical.choice",
"Quot.sound"
],
"Patro.Viewer.no_scene": [
"propext",
"Quot.sound"
],
"Patro.Viewer.null_zoom": [
"propext",
"Quot.sound"
],
"Patro.Viewer.other_buttons": [
"propext",
"Quot.sound"
],
"Patro.Viewer.scene_shown": [
"propext",
"Classical.choice",
"Quot.sound"
],
"Patro.Viewer.session_mapping": [
"propext",
"Classical.choice",
"Quot.sound"
],
"Patro.Viewer.slots_succeed": [
"propext",
"Classical.choice",
"Quot.sound"
],
"Patro.Viewer.stays_shown": [
"propext",
"Classical.choice",
"Quot.sound"
],
"Patro.Viewer.wheel_partial": [
"propext",
"Classical.choice",
"Quot.sound"
],
"Patro.Viewer.wheel_wrong": [
"propext",
"Classical.choice",
"Quot.sound"
],
"Patro.Viewer.zoom_buttons_partial": [
"propext",
"Classical.choice",
"Quot.sound"
],
"Patro.Viewer.zoom_buttons_wrong": [
"propext",
"Classical.choice",
"Quot.sound"
],
"Patro.Vit.birth_date_wrong": [
"propext",
"Classical.choice",
"Quot.sound"
],
"Patro.Vit.date_round_trip": [
"propext",
"Classical.choice",
"Quot.sound"
],
"Patro.Vit.datetime_round_trip_partial": [
"propext",
"Classical.choice",
"Quot.sound"
],
"Patro.Vit.datetime_round_trip_wrong": [
"propext",
"Classical.choice",
"Quot.sound"
],
"Patro.Vit.ensure_date_text": [
"propext",
"Classical.choice",
"Quot.sound"
],
"Patro.Vit.ensure_datetime_text": [
"propext",
"Classical.choice",
"Quot.sound"
],
"Patro.Vit.gender_set": [
"propext",
"Classical.choice",
"Quot.sound"
],
"Patro.Vit.personal_ignores": [
"propext",
"Classical.choice",
"Quot.sound"
],
"Patro.Vit.personal_new_partial": [
"propext",
"Classical.choice",
"Quot.sound"
],
"Patro.Vit.personal_none_wrong": [
"propext",
"Classical.choice",
"Quot.sound"
],
"Patro.Vit.personal_round_trip": [
"propext",
"Classical.choice",
"Quot.sound"
],
"Patro.Vit.standard_lookup": [
"propext",
"Quot.sound"
],
"Patro.Vit.vit_body": [
"propext",
"Classical.choice",
"Quot.sound"
],
"Patro.Vit.vit_email_wrong": [
"propext",
"Classical.choice",
"Quot.sound"
],
"Patro.Vit.vit_missing": [
"propext",
"Classical.choice",
"Quot.sound"
],
"Patro.Vit.vit_read": [
"propext",
"Classical.choice",
"Quot.sound"
],
"Patro.Vit.vit_read_succeeds": [
"propext",
"Classical.choice",
"Quot.sound"
],
"Patro.Vit.vit_unit_wrong": [
"propext",
"Classical.choice",
"Quot.sound"
],
"Patro.Vit.vset_add": [
"propext",
"Classical.choice",
"Quot.sound"
],
"Patro.Vit.vset_add_errors": [
"propext",
"Classical.choice",
"Quot.sound"
],
"Patro.Vit.vset_clash_wrong": [
"propext",
"Classical.choice",
"Quot.sound"
],
"Patro.Vit.vset_iter_partial": [
"propext",
"Classical.choice",
"Quot.sound"
],
"Patro.Vit.vset_iter_wrong": [
"propext",
"Classical.choice",
"Quot.sound"
],
"Patro.Vit.vset_lookup": [
"propext",
"Classical.choice",
"Quot.sound"
],
"Patro.Vit.vset_plain": [
"propext",
"Classical.choice",
"Quot.sound"
],
"Patro.Xml.attributes_mem_iff": [
"propext"
],
"Patro.Xml.boolFromXml_spec": [
"propext",
"Classical.choice",
"Quot.sound"
],
"Patro.Xml.bool_round_trip": [
"propext",
"Classical.choice",
"Quot.sound"
],
"Patro.Xml.effective_attribute": [
"propext",
"Quot.sound"
],
"Patro.Xml.floatList_comma": [
"propext",
"Classical.choice",
"Quot.sound"
],
"Patro.Xml.floatList_comma_space": [
"propext",
"Classical.choice",
"Quot.sound"
],
"Patro.Xml.floatList_empty": [
"propext",
"Classical.choice",
"Quot.sound"
],
"Patro.Xml.floatList_round_trip": [
"propext",
"Classical.choice",
"Quot.sound"
],
"Patro.Xml.initFromXml_attribute": [
"propext",
"Quot.sound"
],
"Patro.Xml.initFromXml_succeeds_iff": [
"propext",
"Classical.choice",
"Quot.sound"
],
"Patro.Xml.initFromXml_undeclared": [
"propext"
],
"Patro.Xml.intFromText_spaces": [
"propext",
"Quot.sound"
],
"Patro.Xml.int_round_trip": [
"propext",
"Quot.sound"
],
"Patro.Xml.textObj_kwargs": [
"propext"
],
"Patro.Xml.textObj_kwargs_text_partial": [
"propext"
],
"Patro.Xml.textObj_ofXml_text": [
"propext",
"Classical.choice",
"Quot.sound"
],
"Patro.Xml.toXml_kwargs": [
"propext",
"Quot.sound"
],
"Patro.Xml.toXml_unset": [],
"Patro.Xml.xml_round_trip": [
"propext",
"Quot.sound"
],
"Patro.bisector_iff_partial": [
"propext",
"Classical.choice",
"Quot.sound"
],
"Patro.bisector_is_median": [
"propext",
"Classical.choice",
"Quot.sound"
],
"Patro.bisector_wrong": [
"propext",
"Classical.choice",
"Quot.sound"
],
"Patro.boundingBox_center_partial": [
"propext",
"Classical.choice",
"Quot.sound"
],
"Patro.boundingBox_covers_partial": [
"propext",
"Classical.choice",
"Quot.sound"
],
"Patro.boundingBox_outside_wrong": [
"propext",
"Classical.choice",
"Quot.sound"
],
"Patro.boundingBox_spec": [
"propext",
"Quot.sound"
],
"Patro.boundingBox_vertical_wrong": [
"propext",
"Quot.sound"
],
"Patro.containPoint_iff": [
"propext",
"Classical.choice",
"Quot.sound"
],
"Patro.containPoint_partial": [
"propext",
"Classical.choice",
"Quot.sound"
],
"Patro.containPoint_wrong": [
"propext",
"Classical.choice",
"Quot.sound"
],
"Patro.coordinates_spec": [
"propext",
"Classical.choice",
"Quot.sound"
],
"Patro.create_triangle_spec": [
"propext",
"Classical.choice",
"Quot.sound"
],
"Patro.distanceToLine_spec": [
"propext",
"Classical.choice",
"Quot.sound"
],
"Patro.distanceToPoint_isLeast": [
"propext",
"Classical.choice",
"Quot.sound"
],
"Patro.distances_wrong": [
"propext",
"Classical.choice",
"Quot.sound"
],
"Patro.intersectWith_iff": [
"propext",
"Classical.choice",
"Quot.sound"
],
"Patro.intersection_found_partial": [
"propext",
"Classical.choice",
"Quot.sound"
],
"Patro.intersection_missed": [
"propext",
"Classical.choice",
"Quot.sound"
],
"Patro.intersection_none_iff": [
"propext",
"Classical.choice",
"Quot.sound"
],
"Patro.intersection_sound": [
"propext",
"Classical.choice",
"Quot.sound"
],
"Patro.isPointInside_flat": [
"propext",
"Classical.choice",
"Quot.sound"
],
"Patro.isPointInside_iff": [
"propext",
"Classical.choice",
"Quot.sound"
],
"Patro.isPointInside_order": [
"propext",
"Classical.choice",
"Quot.sound"
],
"Patro.parallel_orthogonal_lines": [
"propext",
"Classical.choice",
"Quot.sound"
],
"Patro.parallel_orthogonal_spec": [
"propext",
"Quot.sound"
],
"Patro.pointAtDistance_spec": [
"propext",
"Classical.choice",
"Quot.sound"
],
"Patro.polyline_create": [
"propext",
"Classical.choice",
"Quot.sound"
],
"Patro.polyline_distance_fresh": [
"propext",
"Classical.choice",
"Quot.sound"
],
"Patro.polyline_distance_frozen": [
"propext",
"Classical.choice",
"Quot.sound"
],
"Patro.polyline_distance_partial": [
"propext",
"Classical.choice",
"Quot.sound"
],
"Patro.polyline_stale": [
"propext",
"Classical.choice",
"Quot.sound"
],
"Patro.projectedPoint_foot_iff": [
"propext",
"Classical.choice",
"Quot.sound"
],
"Patro.projectedPoint_partial": [
"propext",
"Classical.choice",
"Quot.sound"
],
"Patro.projectedPoint_wrong": [
"propext",
"Classical.choice",
"Quot.sound"
],
"Patro.rectangle_edges": [
"propext",
"Quot.sound"
],
"Patro.rectangle_isPointInside": [
"propext",
"Classical.choice",
"Quot.sound"
],
"Patro.rectangle_perimeter_area": [
"propext",
"Classical.choice",
"Quot.sound"
],
"Patro.segment_center_spec": [
"propext",
"Classical.choice",
"Quot.sound"
],
"Patro.segment_intersection_spec": [
"propext",
"Classical.choice",
"Quot.sound"
],
"Patro.shareVertexWith_spec": [
"propext",
"Quot.sound"
],
"Patro.shiftedParallelLine_spec": [
"propext",
"Classical.choice",
"Quot.sound"
],
"Patro.sideOf_spec": [
"propext",
"Classical.choice",
"Quot.sound"
],
"Patro.triangleOrientation_spec": [
"propext",
"Classical.choice",
"Quot.sound"
],
"Patro.triangleProjectedPoint_always_wrong": [
"propext",
"Classical.choice",
"Quot.sound"
],
"Patro.triangleProjectedPoint_iff": [
"propext",
"Classical.choice",
"Quot.sound"
],
"Patro.triangleProjectedPoint_partial": [
"propext",
"Classical.choice",
"Quot.sound"
],
"Patro.triangleProjectedPoint_wrong": [
"propext",
"Classical.choice",
"Quot.sound"
],
"Patro.triangle_area_base_height": [
"propext",
"Classical.choice",
"Quot.sound"
],
"Patro.triangle_area_spec": [
"propext",
"Classical.choice",
"Quot.sound"
],
"Patro.triangle_edges": [
"propext",
"Quot.sound"
]
}