{
 "C02": {
  "note": "False of deep graphs: topologicalSort_deep_wrong gives, for every recursion limit of the interpreter, a chain without a cycle on which RecursionError is raised. topologicalSort_complete_partial proves the equivalence for graphs with fewer nodes than the limit.",
  "status": "partial"
 },
 "C07": {
  "note": "The claim is false of the code for overlapping calls: increment_returns_duplicate gives a schedule in which two calls return the same value, increment_returns_same_wrong one for any number of threads in which all the calls return the same value. increment_returns_increasing_partial proves it for calls that do not overlap.",
  "status": "partial"
 },
 "C10": {
  "note": "decorator_sequential proves the safe case, decorator_race exhibits the schedule with two instances."
 },
 "C100": {
  "note": "Refuted (closest_wrong, quad_closest_wrong). Proved: the point returned is a critical point of the distance; it is the nearest point when this one is the only critical point and is inside the curve.",
  "status": "partial"
 },
 "C101": {
  "note": "Proved relative to the origin, and exactly when it is the area with the chord (area_origin, area_chord_iff). Refuted in general (area_wrong).",
  "status": "partial"
 },
 "C104": {
  "note": "With an explicit bound on the error. The default step raises ZeroDivisionError for a closed curve, and a step that is not positive loops for ever (interpolated_default, interpolated_diverges).",
  "status": "proved"
 },
 "C105": {
  "note": "Refuted (tAtLength_wrong): only the two ends are found. Complete behaviour in tAtLength_spec.",
  "status": "partial"
 },
 "C106": {
  "note": "Proved for open splines of degree 2 and 3 without given knots (toBezier_spec). Raises for closed splines (toBezier_closed_wrong), other degrees (toBezier_degree_wrong) and given knots (toBezier_given_wrong).",
  "status": "partial"
 },
 "C107": {
  "note": "Exact characterisation: clone succeeds iff no part is a PathSegment, cubic or stringed curve; then the clone is equal to the path. Paths with a line raise UnboundLocalError, cubic curves NameError.",
  "status": "partial"
 },
 "C108": {
  "note": "For non-parallel unit directions and a positive radius. The code does not check that the radius fits the length of the parts (bulge_length_wrong).",
  "status": "proved"
 },
 "C109": {
  "note": "False: the cached direction of a segment is stale after a rotation. Proved when it was not asked before, for the parts by direction, and for translations and positive scalings.",
  "status": "partial"
 },
 "C110": {
  "note": "Proved for the commands which are drawn rightly; V, a second move, commands after a close and smooth commands are wrong (vertical_wrong, second_move_wrong, after_close_wrong, smooth_wrong).",
  "status": "partial"
 },
 "C111": {
  "note": "Proved for one transformation without spaces; spaces, lists, skews and the library's own output are wrong (spaces_wrong, several_wrong, unsupported_wrong, write_read_wrong).",
  "status": "partial"
 },
 "C112": {
  "note": "Numbers and percentages are read as they are; the code falsifies the rest: a percentage is written as the text of an object, which is not read again (percent_written_wrong), and the unit is cut and written alone (unit_wrong)."
 },
 "C113": {
  "note": "False for the attributes the class of the element knows: inherited_iff is exact, inherited_wrong the witness; caps, joins and mitre limits given as attributes are lost. extend_iff says exactly when an element without a style has a state.",
  "status": "partial"
 },
 "C114": {
  "note": "Proved for styles without a final semicolon and without transform; both of these raise (style_semicolon_wrong, style_transform_wrong). style_iff says exactly when a style of declarations is read.",
  "status": "partial"
 },
 "C115": {
  "note": "False: a comment raises TypeError (comment_wrong) and the writer always writes one (written_read_wrong).",
  "status": "partial"
 },
 "C116": {
  "note": "Polygons and ellipses cannot be read and polylines are read as polygons (class_of_tag, polygon_ellipse_wrong); item_class_partial covers the others.",
  "status": "partial"
 },
 "C118": {
  "note": "Setting dirty to false does recompute (dirty_false_recomputes, moved_item). The natural call, dirty = True, keeps the old geometry for ever (dirty_true_wrong, moved_item_wrong) and an item whose geometry is read before its first update never enters the index (clean_item_skipped_wrong, read_first_wrong).",
  "status": "partial"
 },
 "C119": {
  "note": "User data and selection are proved. remove_item always raises TypeError and removes nothing (remove_item_wrong).",
  "status": "partial"
 },
 "C120": {
  "note": "Proved for degrees 2 and 3, and the rejection of everything else. A chain of degree 1 always ends with TypeError after making its segments (bezier_path_segments_wrong).",
  "status": "partial"
 },
 "C122": {
  "note": "holds with an explicit twist type; the default argument always raises ValueError (yarn_default_wrong)",
  "status": "partial"
 },
 "C123": {
  "note": "clone and equality proved; a colour made from a colour is quantised and nameless (copy_wrong)",
  "status": "partial"
 },
 "C124": {
  "note": "proved for float components; integer 1 is read as 1/255 (hue_wrong)",
  "status": "partial"
 },
 "C125": {
  "note": "refuted for every file (stitches_wrong); what is proved is that loading reads all entries or raises and leaves the database unchanged (stitches_read)",
  "status": "partial"
 },
 "C126": {
  "note": "refuted: fabric_wrong, seam_name_wrong, machine_wrong; machine_partial gives the arguments that work",
  "status": "partial"
 },
 "C127": {
  "note": "file_name_partial for names that do not have three characters; refuted for all others (file_name_wrong) and for the directory (output_directory_wrong)",
  "status": "partial"
 },
 "C128": {
  "note": "proved for five of the six stroke styles with a colour; refuted for the others (path_style_wrong)",
  "status": "partial"
 },
 "C130": {
  "note": "proved for texts, segments and cubic curves; refuted for circles and the other kinds (circle_wrong, other_kinds_wrong)",
  "status": "partial"
 },
 "C131": {
  "note": "path_clone_iff characterises the styles with a faithful clone; refuted by clone_wrong and bezier_clone_wrong",
  "status": "partial"
 },
 "C135": {
  "note": "Proved for ellipses with the angle 0 and for histories without the setters of the centre, radii and angle; ellipse_box_wrong, major_vector_wrong and ellipse_cache_wrong refute the rest.",
  "status": "partial"
 },
 "C136": {
  "note": "Proved for clones, translations and positive scales; ellipse_transform_wrong and ellipse_transform_torn refute it for rotations and for transformations that fail half-way.",
  "status": "partial"
 },
 "C137": {
  "note": "The eccentricity holds when the first radius is the greatest one (eccentricity_foci), eccentricity_wrong and matrix_wrong refute the rest.",
  "status": "partial"
 },
 "C138": {
  "note": "Proved for radius_x >= radius_y up to the error of 1074 halvings in exact arithmetic; ellipse_distance_wrong refutes it for the other order, ellipse_inside_wrong for centres other than the origin.",
  "status": "partial"
 },
 "C139": {
  "note": "Proved when the line meets the ellipse twice; the same theorem shows that a tangent line raises AttributeError and a line that misses the ellipse TypeError.",
  "status": "partial"
 },
 "C140": {
  "note": "Proved for closed ellipses and counter-clockwise arcs; to_bezier_wrong and to_bezier_clockwise refute it for clockwise arcs, to_bezier_null for null arcs.",
  "status": "partial"
 },
 "C141": {
  "note": "Direction, length and ellipse are proved; the ends are the mirror images of the points (svg_arc_partial, svg_arc_wrong), and radii that are too small raise (svg_arc_small).",
  "status": "partial"
 },
 "C142": {
  "note": "The area ignores the domain of an arc (circle_area_wrong).",
  "status": "partial"
 },
 "C143": {
  "note": "The bounds of the domain are shared (circle_clone_wrong).",
  "status": "partial"
 },
 "C144": {
  "note": "Characterised for all pairs of circles: None and tangent circles on the right are right, the others are refuted (intersect_circle_secant, intersect_circle_wrong, intersect_circle_concentric).",
  "status": "partial"
 },
 "C145": {
  "note": "True once, after the barycentre has been read, for a polygon which is not flat. Without a reading AttributeError is raised, the second call moves the polygon again, and a flat polygon is deformed because its barycentre is its first point object.",
  "status": "partial"
 },
 "C146": {
  "note": "Proved for the second moments of the vertices about the origin. The code never recentres, so the axes of a square depend on its position (axes_position_wrong), and the axes are not recomputed after a transformation.",
  "status": "partial"
 },
 "C147": {
  "note": "False of the code: PointPrimitive.reverse comes before the one of the mixin in the order of resolution and returns the same object.",
  "status": "partial"
 },
 "C148": {
  "note": "Proved for polygons. to_path raises for triangles and rectangles, to_polygon always raises, and Polyline2D.to_path takes the points as displacements.",
  "status": "partial"
 },
 "C150": {
  "note": "Proved for curves, circles, whole ellipses, polygons, polylines, rectangles, segments, triangles and cubic splines. Arcs of ellipses are drawn as whole ellipses, quadratic splines raise TypeError, lines raise NotImplementedError; paths are in C152.",
  "status": "partial"
 },
 "C151": {
  "note": "Proved for Bézier curves, polygons, polylines and segments; exactly when it holds for rectangles which are not flat (the axes are kept or exchanged); for circles under translations, and whole circles under isometries. False for scaled circles, turned rectangles and arcs of ellipses.",
  "status": "partial"
 },
 "C152": {
  "note": "Proved for lines, Bézier curves and rounded corners of any path closed once. Stringed curves are not drawn (stringed_items_wrong), arcs of ellipses inherit the faults of svg_arc (C141) or raise, and a path closed twice is torn.",
  "status": "partial"
 },
 "C153": {
  "note": "Proved for lines and Bézier curves. Arcs and rounded corners are ignored, and the geometry of the item is its start point, so that the index of the scene cannot be updated.",
  "status": "partial"
 },
 "C154": {
  "note": "Proved for paths of lines and Bézier curves without rounded corners: the box is that of the points and of the control points, and contains the path. Refuted: the arc of a rounded corner is not in the box (path_box_wrong), the box of a curve is not the smallest one (path_box_curve_wrong), a stringed curve raises (path_box_stringed_wrong). Arcs of ellipses inherit the faults of C135 and C141.",
  "status": "partial"
 },
 "C155": {
  "note": "Proved for texts and segments, for the order and for the scale. It fails for the place (the translation is applied after the scale: right only when the corner of the box is the origin, and above the page for a scene on the positive side), for circles (written as an empty text), for cubic curves (not written), for the other kinds, and for every scene whose bounding box was not assigned from outside, as only detail_scene does (no_bounding_box_wrong).",
  "status": "partial"
 },
 "C157": {
  "note": "Proved for texts, segments and cubic curves without colour, without a named colour, or black. It fails for every other named colour (the file is not saved), for circles (skipped) and for the other kinds.",
  "status": "partial"
 },
 "C158": {
  "note": "Proved for the page size, the items and their order. It fails for the scale (seven tenths), for the margin (right only when the corner of the box is the origin), for the style and the radius of circles (not used), without the driver argument (KeyError), for the other kinds, and for every scene whose bounding box was not assigned from outside, as only detail_scene does (no_bounding_box_wrong).",
  "status": "partial"
 },
 "C159": {
  "note": "Proved for texts, segments, cubic curves and the limits. It fails for the radius of circles, for the other kinds, and for every scene whose bounding box was not assigned from outside, as only detail_scene does (no_bounding_box_wrong).",
  "status": "partial"
 },
 "C160": {
  "note": "The model describes the modules as they would run if their import were repaired: at this commit Valentina/Pattern.py cannot be imported (ValentinaMeasurement.py imports a name that does not exist). The classes are those of the dispatch tables; `float` is a parameter that raises nothing else than ValueError.",
  "status": "proved"
 },
 "C161": {
  "note": "The model describes the modules as they would run if their import were repaired: at this commit Valentina/Pattern.py cannot be imported (ValentinaMeasurement.py imports a name that does not exist). Proved for operations whose stroke style is a style and whose colour is a colour or None. It fails for the default stroke style of the points along a line, at the end of a line and on a normal, which is None and raises KeyError.",
  "status": "partial"
 },
 "C162": {
  "note": "The model describes the modules as they would run if their import were repaired: at this commit Valentina/Pattern.py cannot be imported (ValentinaMeasurement.py imports a name that does not exist). Proved for named points, colours in range, and splines with a solid line and a colour. It fails for other styles of splines, which are not written, for points without a name, which come back with the name 'None', and for the colour of a spline, which comes back as a text; a style kept as an XML object is written as 'StrokeStyle.…', which no reader knows.",
  "status": "partial"
 },
 "C163": {
  "note": "The model describes the modules as they would run if their import were repaired: at this commit Valentina/Pattern.py cannot be imported (ValentinaMeasurement.py imports a name that does not exist). The property is false: a second reading raises NameError, and so does reading back a sketch in the process that built it. Both are proved for all inputs; nothing positive is left to prove.",
  "status": "partial"
 },
 "C164": {
  "note": "The model describes the modules as they would run if their import were repaired: at this commit Valentina/Pattern.py cannot be imported (ValentinaMeasurement.py imports a name that does not exist). Proved for scopes filled one after the other, with values that the format holds. It fails when the scopes were filled in turns (NameError).",
  "status": "partial"
 },
 "C165": {
  "note": "The model describes the modules as they would run if their import were repaired: at this commit Valentina/Pattern.py cannot be imported (ValentinaMeasurement.py imports a name that does not exist). The first half is proved. The second half is false: details and modeling are read and dropped, and never written.",
  "status": "partial"
 },
 "C166": {
  "note": "Proved except for loops: a custom measurement is given twice (vset_iter_wrong), and @a and C_a exclude each other (vset_clash_wrong). At this commit the module imports a name that does not exist; it is modelled as if the import were repaired.",
  "status": "partial"
 },
 "C167": {
  "note": "Proved for the measurements and the personal data. The measurements have no unit and no system whatever the file says (vit_unit_wrong), an empty e-mail becomes the text None (vit_email_wrong), and a file without customer is refused (vit_missing), as the example in the module is.",
  "status": "partial"
 },
 "C168": {
  "note": "A text given as None becomes the text None (personal_none_wrong); a birth date given with a time keeps it (birth_date_wrong). The rest is proved.",
  "status": "partial"
 },
 "C169": {
  "note": "Proved for dates and for both formats. The text of a datetime is never read back (datetime_round_trip_wrong). Digits outside ASCII are not modelled.",
  "status": "partial"
 },
 "C170": {
  "note": "The names of the measurements do not change after they are added.",
  "status": "proved"
 },
 "C171": {
  "note": "The points eval leaves without position (contacts and intersections that do not exist) make the bounding box raise AttributeError (sketch_box_eval).",
  "status": "proved"
 },
 "C172": {
  "note": "Under the hypotheses that names are distinct and that lines have a style; see C173 without them.",
  "status": "proved"
 },
 "C173": {
  "note": "Refuted: a repeated name moves the first point (detail_same_name_wrong), a label without offset gets a line of null length (detail_label_wrong), a point without line style, the default, raises ValueError (detail_style_wrong).",
  "status": "partial"
 },
 "C174": {
  "note": "Proved for the values that can be written. A line style or a colour, which every line has by default, gives code that cannot be parsed (to_python_style_wrong, to_python_line_wrong), as do a quote in a name and the expression inf. What float accepts is a parameter.",
  "status": "partial"
 },
 "C175": {
  "note": "What the attributes of entities are is the DXF reference as written in Spec/DxfImport.lean; see C176 and C177 for the entities whose points differ.",
  "status": "proved"
 },
 "C176": {
  "note": "Proved for ellipses which are not mirrored and whose major axis does not point upwards. Refuted: a major axis pointing upwards moves the ends by a quarter of a turn (ellipse_vertical_wrong), a whole ellipse is never closed, the extrusion is ignored (mirrored_wrong), angles out of the range from 0 to 360 lose points (arc_range_wrong).",
  "status": "partial"
 },
 "C177": {
  "note": "Proved for clamped uniform knots without weights. The knots, the weights and the fit points of the file play no part, for every spline (spline_data_wrong); refuted for other knots (spline_knots_wrong) and for fit points (spline_fit_wrong).",
  "status": "partial"
 },
 "C178": {
  "note": "Proved for both sides and no offset. Refuted for one side (one_side_wrong) and for an offset (axial_offset_wrong), which always raise AttributeError, and for transformations (head_transform_wrong).",
  "status": "partial"
 },
 "C179": {
  "note": "The path is proved; the symmetry is refuted unless the depth or the triangle is null (curvy_symmetric_wrong).",
  "status": "partial"
 },
 "C180": {
  "note": "Proved for texts, images, circles, ellipses, segments, polylines, polygons, cubic curves and open paths of segments, and for quadratic curves in scenes without transformation. Refuted: rectangles (rectangle_wrong), paths with curves (curved_path_wrong), closed paths (closed_path_wrong), rotated ellipses (ellipse_angle_wrong), quadratic curves in a transformed scene (quadratic_wrong) or after a move of their points (quadratic_cache_wrong). QPainter is trusted.",
  "status": "partial"
 },
 "C181": {
  "note": "Proved for items with a colour and no fill. Refuted: the outline of a filled item has the fill colour, also when it is selected (fill_pen_wrong), an item without colour is drawn with the pen of the previous one (no_colour_wrong), and so is a text (text_pen_wrong).",
  "status": "partial"
 },
 "C182": {
  "note": "Refuted for a stop angle less than a sixteenth of a degree before the start (arc_angles_wrong) and for SVG files, which are drawn upside down (svg_arc_wrong).",
  "status": "partial"
 },
 "C183": {
  "note": "Proved for scenes without transformation. Refuted: an area without size makes the painting fail (empty_area_wrong), the grid follows the transformation of the scene (grid_transformed_wrong).",
  "status": "partial"
 },
 "C184": {
  "note": "Proved for a scene whose bounding box was assigned. Refuted for the others: a scene has no bounding box of its own, the setter raises AttributeError and keeps the scene (set_scene_wrong).",
  "status": "partial"
 },
 "C185": {
  "note": "Proved for the items of the index. Refuted: items that are not visible can be selected (click_invisible_wrong); an item whose geometry was read before the first update is not in the index, see C118.",
  "status": "partial"
 },
 "C186": {
  "note": "The exact dependencies are proved for every expression; refuted as wanted: only the calls of Line are registered, the points of the other functions are not (other_dependencies_wrong).",
  "status": "partial"
 },
 "C187": {
  "note": "Proved for Line, AngleLine and CurrentLength. Refuted: the functions of a curve are 0 (spline_functions_wrong), and the direction between two points at the same place is 90 degrees (angle_line_null_wrong).",
  "status": "partial"
 },
 "C189": {
  "note": "Proved for vectors of floats. Refuted for vectors of integers (int_add_wrong), homogeneous vectors (homogeneous_right_wrong, homogeneous_weight_wrong) and normalised vectors (normalised_wrong).",
  "status": "partial"
 },
 "C19": {
  "note": "The claim is false of the code: textObj_ofXml_text proves that the text read from XML is always lost. textObj_kwargs_text_partial proves that a text given as keyword argument is kept and written.",
  "status": "partial"
 },
 "C190": {
  "note": "Refuted across classes (eq_homogeneous_wrong) and for the symmetry of almost_equal (almost_equal_wrong).",
  "status": "partial"
 },
 "C192": {
  "note": "Proved: one item for each visible segment and curve, in order, with every point ten times further. Refuted: the scale (scale_wrong), texts and circles (lost_wrong).",
  "status": "partial"
 },
 "C193": {
  "note": "Proved: the points of a box (lines that are not vertical; inside the box for a line through its center), parallelism, completion of a triangle for vectors of length 1 and exactly when for the others. Refuted: vertical lines, points outside of the box, distances between abscissae, other vectors.",
  "status": "partial"
 },
 "C194": {
  "note": "Refuted: every measure but the area raises, for all triangles and histories (measures_wrong).",
  "status": "partial"
 },
 "C195": {
  "note": "Proved for cubic_root and fifth_root; refuted for cubic_root_normalised (cubicRootNormalised_raises_wrong, cubicRootNormalised_cube_wrong).",
  "status": "partial"
 },
 "C196": {
  "note": "Proved for the triangles and the turns; refuted for the crossing number and the names (crossingNumberTest_wrong, ngonName_wrong).",
  "status": "partial"
 },
 "C197": {
  "note": "Refuted: the intersections always raise (intersectLine_wrong, intersectCurve_wrong) and so does the end tangent of a quadratic curve. Proved: the roots computed after the mapping (quadRoots_partial, cubicRoots_partial), the other tangents.",
  "status": "partial"
 },
 "C199": {
  "note": "Proved for the pictures, their order, their size and their content, and for the exceptions. The pictures do not show the whole scene unless the grid has as many rows as columns (tiled_cover_wrong, from C67).",
  "status": "partial"
 },
 "C200": {
  "note": "Proved for the name and the margin. The orientation is not in the preamble: landscape papers give a portrait page on which the tiles do not fit (landscape_wrong).",
  "status": "partial"
 },
 "C201": {
  "note": "Python has no codec called 'uft8': a save raises LookupError after having emptied the file, and a load raises too (save_wrong). Where a codec of this name is registered, the names, the texts and the expressions come back (yaml_round_trip_partial), with the numbers changed: a Python number comes back rounded to three digits (yaml_number_wrong).",
  "status": "partial"
 },
 "C202": {
  "note": "True exactly for the names that are not those of an attribute of the set, which `add` accepts (attribute_iff, attribute_name_wrong); a missing name raises KeyError, also from hasattr (hasattr_wrong, hasattr_never_false).",
  "status": "partial"
 },
 "C203": {
  "note": "Proved for the size, the place and the items; the picture is upside down, and a scene without bounding box raises (to_svg_wrong); the conversion of the size to integers is not modelled.",
  "status": "partial"
 },
 "C204": {
  "note": "Proved for a list of directories (find_partial). A directory given as a text is taken as the list of its characters, and nothing is found under bytes (find_text_wrong): the test for a single directory is one of Python 2.",
  "status": "partial"
 },
 "C206": {
  "note": "Proved between the objects of a class (monostate_shared). All classes that do not define their own state share one (monostate_classes), and constructors with arguments raise TypeError (monostate_arguments_wrong).",
  "status": "partial"
 },
 "C207": {
  "note": "Proved for Linux and Windows (logging_partial, logging_level). On macOS the marks are not replaced although the format is the one of the terminal, on other systems it raises, and a level that does not exist raises (logging_wrong).",
  "status": "partial"
 },
 "C208": {
  "note": "True exactly if the corner is the origin (view_box_partial, view_box_wrong): width and height are taken for upper bounds.",
  "status": "partial"
 },
 "C209": {
  "note": "Proved for PDF (sketch_to_pdf, sketch_to_pdf_operation, ready_of_eval). For DXF only if no line has a colour with a name other than black (sketch_to_dxf_partial), otherwise nothing is saved (sketch_to_dxf_wrong); for Matplotlib only if every line has a colour (sketch_to_mpl_partial, sketch_without_colour_wrong), which is not required by detail_scene.",
  "status": "partial"
 },
 "C21": {
  "note": "False of the code for two different custom names (rewriteCustom_two_names; rewriteCustom_last gives what is computed in general). rewriteCustom_one_name_partial proves the claim for one distinct name.",
  "status": "partial"
 },
 "C211": {
  "note": "False of the code: a radius given to a part made without one makes its points unreadable (radius_later_wrong), a direction read before an edit is kept (direction_kept_wrong), and so are the points and the centre of a rounded corner (corner_kept_wrong). Proved before any reading (edit_unread_partial) and for paths without rounded corners (edit_plain_partial).",
  "status": "partial"
 },
 "C212": {
  "note": "The size of the memory is proved (memory_read). The number of cores counts every line with the word 'processor' (cores_partial, cores_wrong), the name is cut at a colon (cpu_partial, cpu_wrong) and a processor without frequency raises TypeError (no_frequency_wrong).",
  "status": "partial"
 },
 "C213": {
  "note": "False of the code: no transformation is accepted by AffineTransformation2D, even an affine one (copy_affine_wrong), an affine one is accepted by Transformation2D with its array of 3x3 (linear_of_affine_wrong), without a type Transformation2D raises AttributeError (no_type_wrong) and AffineTransformation2D sets no type (affine_no_type_wrong), and a number makes no matrix (number_wrong). Proved: lists and arrays with a type (list_read_partial, array_kept_partial), refusals (refused), copies of linear transformations (copy_linear_partial).",
  "status": "partial"
 },
 "C214": {
  "note": "Sound and complete for identity, reflections and scales (type_sound, type_complete, type_refused); rotations are found to be generic (rotation_wrong).",
  "status": "partial"
 },
 "C215": {
  "note": "Proved of the walk on one part (clip_part_partial) and of hulls whose left is in the band (clip_hull_partial). False of the rest: NameError as soon as there is something to clip (clip_hull_wrong) or when the control points are on the same side (same_side_wrong), and the line used is not the chord unless the curve begins at the origin (opposite_sides_partial, chord_wrong, end_at_origin_wrong).",
  "status": "partial"
 },
 "C216": {
  "note": "Proved: with the same formulas and measurements nothing changes (again_same_partial); when every expression is set dirty the evaluation is the one of a new sketch (dirty_fresh_partial, call_stable). False of the code: the library never sets expressions dirty, so a change of measurements is ignored by the next evaluation (measurements_ignored_wrong).",
  "status": "partial"
 },
 "C217": {
  "note": "unchanged_same, about two evaluations of new sketches.",
  "status": "proved"
 },
 "C218": {
  "note": "file_well_formed, file_places. The elements have an id, the points a name, and no placing attribute is missing; the text of a formula is interpreted by a parameter.",
  "status": "proved"
 },
 "C219": {
  "note": "written_drawing, under the conditions of C162 on the values of a sketch.",
  "status": "proved"
 },
 "C220": {
  "note": "sketch_to_svg_partial gives the whole document: labels and lines are there in order, with their colour, width and dashes, at the place of svg_place_wrong (C155). sketch_to_svg_wrong: no element is a path or a circle, so that the curves and the discs are missing. Lines without colour raise, see C209. cubic_data_read: the data of a curve, which is not written, is always read without exception.",
  "status": "partial"
 },
 "C221": {
  "note": "sketch_to_tex_partial and sketch_to_tiles_partial. sketch_to_tex_wrong: a line without colour, or with the stroke style TeX has no text for, raises. The tiles miss a part of the box when the numbers of rows and columns differ (tiled_cover_wrong, C198). TeX itself is not modelled: a text is said to stand for a point.",
  "status": "partial"
 },
 "C222": {
  "note": "file_printed, file_without_style. The elements have the attributes which place them, the points have the offset of their label, a curve has no colour or a known one, and the intersections of lines and points of contact exist; points of the same name are drawn wrongly (C172, detail_same_name_wrong). The text of a formula is interpreted by a parameter.",
  "status": "proved"
 },
 "C223": {
  "note": "file_to_dxf_partial if the named colours are black, otherwise the painter raises (file_to_dxf_wrong); file_to_mpl_partial, file_to_svg_partial, file_to_tex_partial and file_to_tiles_partial if every line has a colour, and for TeX a style other than dashDotDotLine; a line without colour, which the format allows, raises (file_without_colour_wrong). In SVG the discs and the curves are missing and the places are wrong, see C220 and C155.",
  "status": "partial"
 },
 "C224": {
  "note": "load_ok, load_found, load_error, shipped_loads. The reading of the YAML text is not modelled; the fields are texts.",
  "status": "proved"
 },
 "C225": {
  "note": "formula_value_partial, formula_value_only_partial, formula_none_partial, formula_error_partial, formula_outcome_partial and formula_unambiguous_partial for readable formulas: no use of a function begins like another one (C22), CurrentLength is used once, at most one custom measurement is used (C21), and there is no blank at the beginning. The functions of splines give 0 (formula_spline_wrong). The angle of a line between two points at the same place is 90 degrees (formula_angle_wrong). The tokens and the grammar of Python are a part of the model. formula_text_partial and formula_text_outside_partial: for the texts without functions and custom measurements nothing has to be assumed, such a text has a value exactly if it is the text of a formula, and the value this formula denotes.",
  "status": "partial"
 },
 "C226": {
  "note": "calculator_values, calculator_error and calculator_hidden_wrong (a measurement called __calculator__ takes the place of the calculator) for all sets; formula_measurements_partial and file_places_formulas_partial for the formulas readable in the sense of C225 which ask no angle between points at the same place.",
  "status": "partial"
 },
 "C227": {
  "note": "vit_values and vit_calculator for all files; vit_file_printed_partial for the formulas readable in the sense of C225. Measurements that refer to earlier names make the calculator raise TypeError, as in C25.",
  "status": "partial"
 },
 "C228": {
  "note": "evaluates_next for one more operation, sketch_evaluates_iff for the whole, evaluated_placeable for the final places, tangent_not_evaluated for the tangent lines. Over the reals, in which a point of contact is exactly on a tangent; the floats of the code are not modelled.",
  "status": "proved"
 },
 "C229": {
  "note": "file_evaluates_iff: exact, for files whose calculations have the attributes that place them.",
  "status": "proved"
 },
 "C230": {
  "note": "creates_first, creates_none and creates_once, for one thread.",
  "status": "proved"
 },
 "C231": {
  "note": "scene_last and scene_notified.",
  "status": "proved"
 },
 "C232": {
  "note": "message_shown and message_text.",
  "status": "proved"
 },
 "C233": {
  "note": "script_runs, script_ends, script_messages and script_at_start. What the event loop of Qt does with an exception is not modelled.",
  "status": "proved"
 },
 "C234": {
  "note": "file_read_iff, for any eval which does not distinguish operations with the same properties; file_computed_iff, with the conditions of C229 for the evaluation. The float that a text is, the file of measurements and the compiled formulas are parameters.",
  "status": "proved"
 },
 "C235": {
  "note": "valentina_saved, valentina_failed, svg_saved and tex_saved: the other files are kept, the file has its old content or a beginning of the new one, all of it at the end, and a pattern or an SVG file that cannot be made leaves the disk as it was. torn_wrong: the file is empty at some moment of every save, so a program stopped there loses it. tex_failed_wrong: a TeX document whose text cannot be encoded leaves an empty file. The bytes of the XML document and the errors of open are parameters.",
  "status": "partial"
 },
 "C236": {
  "note": "colors_loaded: the import succeeds and gives the first definition of each name. valentina_colors_partial: twelve of the seventeen names of Valentina have the colour of Valentina. valentina_colors_wrong: goldenrod, green, lime, orange and violet have the colour of an earlier table.",
  "status": "partial"
 },
 "C237": {
  "note": "saved_and_loaded_partial: the pattern is read back from the last state of the disk, and every other state gives what was read before, the new pattern, or an exception; with the hypotheses of C164 on the pattern, and for a parser that finds the whole document or nothing in a beginning of its bytes. saved_and_lost_wrong: every save goes through a state in which neither the old pattern nor the new one can be read.",
  "status": "partial"
 },
 "C238": {
  "note": "parse_data and parse_file. parse_none_wrong: without path and data, the file called None is read.",
  "status": "partial"
 },
 "C239": {
  "note": "null_zoom: a null zoom, which no handler of the window asks for, raises ZeroDivisionError and is kept.",
  "status": "proved"
 },
 "C240": {
  "note": "keys, zoom_buttons_partial and fit_button. zoom_buttons_wrong: the factors are 1.1 and 0.9, no sequence of the two buttons brings back the scale.",
  "status": "partial"
 },
 "C241": {
  "note": "drag_partial: the picture moves by -1.5 times the displacement of the mouse, whatever its path; drag_wrong: hence the point under the mouse does not follow it. wheel_partial: the point under the mouse goes to the middle; wheel_wrong. label_partial; label_wrong: the label is not updated by the wheel.",
  "status": "partial"
 },
 "C242": {
  "note": "That sys.exit in a slot ends the program, and that the timer of zero milliseconds fires first, are assumed.",
  "status": "proved"
 },
 "C243": {
  "note": "Proved for the shapes which are drawn. The code falsifies the reading where the point is the centre of the circle (circle_center_wrong).",
  "status": "partial"
 },
 "C244": {
  "note": "For the states which the reader makes (Settled).",
  "status": "proved"
 },
 "C245": {
  "note": "Proved for the class of Needle.py; false of the class of SewingMachine.py, whose size raises AttributeError (machine_needle_wrong).",
  "status": "partial"
 },
 "C246": {
  "note": "Proved for the calls made outside of the constructor (reentrant_partial). The code falsifies the rest for every constructor that uses its class (reentrant_wrong, reentrant_raise_wrong).",
  "status": "partial"
 },
 "C247": {
  "note": "Proved for explicit ids (explicit_ids_distinct_partial), every schedule. The code falsifies the claim for automatic ids: explicit_automatic_same_wrong, for every explicit id, and increment_returns_same_wrong (C07).",
  "status": "partial"
 },
 "C248": {
  "note": "Proved for all the questions other than is_convex (hull_asked_partial) and for the hull of a hull (hull_hull). The code falsifies it after is_convex for every strictly convex clockwise polygon (hull_asked_wrong) and for a polygon declared convex (hull_declared_wrong).",
  "status": "partial"
 },
 "C249": {
  "note": "Proved: what a transformation in place does (regular_transform_partial), exactly when the vertices are still on the circumcircle after any sequence of transformations that multiply the distances by a factor (circumcircle_iff), and the three outcomes of simplify (regular_simplify). The code falsifies the rest for every regular polygon: copies raise TypeError (regular_clone_wrong), a translation leaves the circumcircle behind (circumcircle_wrong), every square simplified with its radius raises TypeError (square_simplify_wrong).",
  "status": "partial"
 },
 "C25": {
  "note": "False of the code: subs_chain_unresolved is a witness (sympy replaces one name after the other in name order, so a reference to an earlier formula is left unresolved). subs_sound and subs_solution prove that a computed number is always right, whatever the other measurements; subs_complete_partial is the exact criterion: it is computed if and only if all the names needed are in the set and refer to later names.",
  "status": "partial"
 },
 "C250": {
  "note": "Proved: in place, any affine transformation gives the image of the curve at every parameter and commutes with the insertion of knots (spline_transform_partial), the constructor with any number of points other than one (spline_made), exactly when two splines compare equal (spline_eq_iff). The code falsifies the rest for all inputs: copies, reversals and transformations with clone raise (spline_clone_wrong), one control point is refused (spline_one_point_wrong), every uniform spline is equal to one of another degree (spline_eq_wrong).",
  "status": "partial"
 },
 "C251": {
  "note": "Proved: the convex hull of the control points of the span (spline_hull), the bounding box on the range of every spline (spline_box) and at every parameter where a spline without given knots has a point (spline_box_uniform). The code falsifies that the box is the smallest one (spline_box_wrong).",
  "status": "partial"
 },
 "C252": {
  "note": "spline_polyline for degree 1, the last parameter included, and spline_middles for degree 2.",
  "status": "proved"
 },
 "C253": {
  "note": "Proved for cubic splines: the junctions (cubicSpline_join_partial), the convex hull (cubicSpline_hull), the affine transformations (cubicSpline_affine), and that they are a piece of the B-spline with integer knots (cubicSpline_bspline). The code falsifies it for every quadratic one (quadSpline_wrong, quadSpline_toBezier).",
  "status": "partial"
 },
 "C28": {
  "note": "False of the code in one case (eval_selfLoop): a point whose expression mentions a Line_ call on the point itself in a branch that is not taken becomes its own ancestor and topological_sort raises. edges_forward_partial, topologicalSort_never_raises_partial and mentioned_before_partial prove the claim for every history without such a request; edges_forward_weak, eval_order, dependencies_before and create_edges hold without restriction. The sort needs a recursion limit above the number of operations (see C02).",
  "status": "partial"
 },
 "C38": {
  "note": "False of the code for nearly parallel lines: intersection_missed gives two non parallel lines for which no intersection is reported, because a cross product that rounds to zero counts as parallel. intersection_sound holds for all lines, intersection_none_iff is the exact condition, intersection_found_partial proves the claim when the cross product does not round to zero.",
  "status": "partial"
 },
 "C43": {
  "note": "False after an in place transformation that follows a question: polyline_stale. polyline_distance_partial proves it when transformations come before the first question and polyline_distance_frozen proves that later answers are for the polyline of the first question.",
  "status": "partial"
 },
 "C44": {
  "note": "The area is computed once: area_frozen and area_stale state what happens after a transformation.",
  "status": "proved"
 },
 "C51": {
  "note": "Complete behaviour for both kinds of splines. At the end of the range span gives the number of points (default knots) or None (given knots).",
  "status": "proved"
 },
 "C53": {
  "note": "Proved inside the range for every well formed spline (pointAt_curve) with the end points and the errors of splines without given knots (pointAt_uniform). False at the last knot of a spline with given knots, TypeError (pointAt_end_wrong), before the range of such a spline (pointAt_before_wrong) and for naive=True, TypeError (naive_wrong).",
  "status": "partial"
 },
 "C54": {
  "note": "Proved inside the range (insertKnot_spec, insertKnot_pointAt) and at the end of a spline without given knots (insertKnot_end). False at the end of the curve: the result has given knots, so that evaluating its end raises TypeError (insertKnot_end_wrong).",
  "status": "partial"
 },
 "C55": {
  "note": "Proved for bounds in [0, 360] and angles in [0, 360) (isInside_partial). False in general: closed domains given clockwise or shifted by a turn do not hold every angle, and domains that cross the origin with a bound outside [0, 360] miss angles (isInside_wrong).",
  "status": "partial"
 },
 "C57": {
  "note": "Proved for full circles (distance_circle, isPointInside_iff) and for arcs with bounds in [0, 360) (distance_arc_partial). False for arcs with a negative bound (distance_arc_wrong).",
  "status": "partial"
 },
 "C58": {
  "note": "Proved for every history: points are the ones of the specification, parts chain, a closed path ignores additions. False of stringed curves (NotImplementedError/NameError), of move_to after close with a rounded corner, of close called twice with a radius, and close on a path which begins with a curve leaves it torn.",
  "status": "partial"
 },
 "C59": {
  "note": "Relative and absolute commands have the same trace, a transformation which succeeds maps every point, and it succeeds exactly when radii are accepted. False of horizontal_to/vertical_to absolute, of the radii of arcs, and a transformation which raises leaves the path torn.",
  "status": "partial"
 },
 "C60": {
  "note": "Reading stops exactly for the texts characterised by parse_terminates_iff; parse_hangs_wrong gives a text for which the loop never ends.",
  "status": "partial"
 },
 "C61": {
  "note": "Proved for data in the spaced form the reader accepts; compact forms such as M10 20 are rejected and the smooth quadratic command is not readable (compact_wrong, smooth_quadratic_wrong).",
  "status": "partial"
 },
 "C62": {
  "note": "False in general: group states are pushed and never popped (group_scope_wrong). read_exact says what is computed for every document, group_scope_partial gives the documents where it is right.",
  "status": "partial"
 },
 "C63": {
  "note": "Positive bulges, flat and null segments and the sequence of items of a polyline. For a negative bulge, negative_bulge_wrong shows that for every chord and every negative bulge the radius is negative and the summit is not on the arc (a bug). vertex_angle: the angle property is the supplement of the angle of the arc.",
  "status": "proved"
 },
 "C67": {
  "note": "tiles are disjoint and form the grid; they cover the bounding box exactly when the numbers of rows and columns agree (tiles_cover_iff): the code exchanges rows and columns",
  "status": "partial"
 },
 "C68": {
  "note": "sizes, halving and landscape proved; the set of accepted names is characterised, and odd names such as those of odd_names_wrong are accepted",
  "status": "partial"
 },
 "C69": {
  "note": "mm<->point and inch->mm proved; the other conversions are refuted by conversions_wrong",
  "status": "partial"
 },
 "C70": {
  "note": "tex->den and tex->nm proved; den->tex and nm->tex refuted",
  "status": "partial"
 },
 "C71": {
  "note": "holds for plain texts without guillemets and well-formed placeholders; other guillemets are not kept verbatim (guillemets_wrong)",
  "status": "partial"
 },
 "C72": {
  "note": "the round trip holds for all 8-bit colours and numbers out of range are rejected; exactly the texts that are accepted are stated in text_accepted_partial: some with signs, spaces or other lengths are among them (text_negative_wrong, text_middle_wrong, text_wrong)",
  "status": "partial"
 },
 "C73": {
  "note": "for loading and registering; ColorDataBase.add called directly replaces the old definition (add_replaces)",
  "status": "proved"
 },
 "C77": {
  "note": "rewriteCalls_words_partial and pythonise_words_partial: proved for expressions with any number of words and calls whose names do not clash. Refuted otherwise: rewriteCalls_prefix_clash and rewriteCalls_current_length are witnesses.",
  "status": "partial"
 },
 "C80": {
  "note": "projected_point is false unless the direction is normalised: projectedPoint_wrong is a witness, projectedPoint_foot_iff the exact condition and projectedPoint_partial the case that holds. distanceToLine_spec is proved in full.",
  "status": "partial"
 },
 "C82": {
  "note": "False of the code: containPoint_wrong. containPoint_iff is the exact behaviour, containPoint_partial the case that holds.",
  "status": "partial"
 },
 "C83": {
  "note": "The bisector half is false: bisector_wrong, bisector_is_median; bisector_iff_partial is the exact condition. The area half is proved.",
  "status": "partial"
 },
 "C85": {
  "note": "Every simple polygon is reported as simple, and the answer is characterised exactly (isSimple_iff). The converse is refuted: edges whose cross product rounds to zero are taken for parallel and a shared vertex is always accepted (isSimple_wrong_small, isSimple_wrong_vertex).",
  "status": "partial"
 },
 "C87": {
  "note": "The code is wrong: the method reads attributes which do not exist. isPointInside_exact characterises what is observable, isPointInside_raises is a counterexample; the answer is never True.",
  "status": "partial"
 },
 "C88": {
  "note": "As stated. The converse fails (isConvex_wrong_double) and so does the statement for polygons with a flat vertex in clockwise order (isConvex_wrong_order).",
  "status": "proved"
 },
 "C89": {
  "note": "Proved for distinct points of which no two are aligned with the lowest one. Otherwise TypeError is raised (convexHull_raises_iff, convexHull_wrong).",
  "status": "partial"
 },
 "C91": {
  "note": "Termination, order of the vertices, the exact criterion of removal and, for distinct vertices, the exact condition under which None is returned (simplify_none_iff) are proved. The bound on the distance is refuted: for every threshold, the distance of a removed vertex to the result exceeds any bound (simplify_unbounded_wrong), since the errors accumulate.",
  "status": "partial"
 },
 "C92": {
  "note": "scalarMul_made gives the exact product for each transformation made by the class methods; scalarMul_partial the general case of a known type that is not a shear. False when the type is lost: a rotation of 90 degrees about a centre multiplies a length by 0 (scalarMul_wrong); the screen transformation and a scale by opposite factors raise ValueError although they multiply all the distances by one number (scalarMul_screen, scalarMul_opposite_wrong).",
  "status": "partial"
 },
 "C93": {
  "note": "Proved for counter-clockwise and closed domains (length_partial) and for the start angle and distance constructor (new_distance). False for clockwise domains (length_wrong) and for the perimeter, whose branches are swapped (perimeter_wrong).",
  "status": "partial"
 },
 "C95": {
  "note": "The exact outcome for the transformations made by the class methods is circle_transform_made. The image is proved for full circles and transformations of known type (circle_transform_partial) and for arcs under translations and positive scales (arc_transform_partial). False for arcs under rotations (arc_transform_wrong), for the rotation about a centre (circle_transform_wrong), and a refused transformation leaves the centre moved (circle_transform_torn).",
  "status": "partial"
 },
 "C96": {
  "note": "Refuted as stated: the point kept may be outside of the segment (contact_outside_wrong) and a tangent line raises (contact_tangent_wrong). Proved: on the line and on the circle, missing iff the line misses the circle.",
  "status": "partial"
 },
 "C97": {
  "note": "Complete behaviour proved (quad_length): the length is the integral of the speed, except for control points on a line with no gain of speed at the start, where ValueError is raised (quad_length_wrong).",
  "status": "partial"
 },
 "C98": {
  "note": "Proved for the curves of degree three with their number of parts, the distance of each part to its approximation and the error on the length (cubic_length_partial). False for curves of degree at most two, ZeroDivisionError (cubic_length_wrong, toCubic_length_wrong), and for some curves along a line, ValueError (cubic_length_wrong').",
  "status": "partial"
 },
 "C99": {
  "note": "Proved for cubic curves and, for quadratic curves, for parameters from 0 to 1. Refuted for quadratic curves out of this range (quad_splitTwo_wrong).",
  "status": "partial"
 }
}