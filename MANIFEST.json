{
 "claims": [
  {
   "property": "C01",
   "status": "proved",
   "theorems": [
    "Verif.Props.C01_linear_history",
    "Verif.Props.C01_edits_undo_redo_in_scope"
   ],
   "note": "Refinement of Caretaker to a past/present/future timeline, for every run of calls inside the timeline's scope (going elsewhere or remembering while edits can still be redone is out of scope, see C09), and for edits/undo/redo/remember from a fresh history."
  },
  {
   "property": "C02",
   "status": "proved",
   "theorems": [
    "Verif.Props.C02_refused_move_changes_nothing",
    "Verif.Props.C02_undo_then_redo",
    "Verif.Props.C02_redo_then_undo",
    "Verif.Props.C02_undo_from_draft"
   ],
   "note": "can_undo/can_redo hold exactly when the timeline has a past/future."
  },
  {
   "property": "C03",
   "status": "proved",
   "theorems": [
    "Verif.Props.C03_gc_frees_exactly"
   ],
   "note": "Garbage collection frees exactly the timepoints that are not an ancestor-or-self of a pinned, remembered or current one; annotations and object states of freed ones go with them."
  },
  {
   "property": "C04",
   "status": "partial",
   "theorems": [
    "Verif.Props.C04_no_dangling_partial",
    "Verif.Props.C04_false"
   ],
   "note": "No call ever touches a freed timepoint and nothing the Caretaker stores dangles; objects are covered when created at timepoints that stay. C04_false: an object outliving its creation timepoint keeps a dangling pointer."
  },
  {
   "property": "C05",
   "status": "proved",
   "theorems": [
    "Verif.Props.C05_reads_nearest",
    "Verif.Props.C05_go_restores",
    "Verif.Props.C05_same_as_when_last_current"
   ],
   "note": "go restores, for every registered object, the state of its nearest ancestor timepoint holding one."
  },
  {
   "property": "C06",
   "status": "partial",
   "theorems": [
    "Verif.Props.C06_set_then_read_partial",
    "Verif.Props.C06_false"
   ],
   "note": "False for const state types when a second state is set at the same timepoint (C06_false)."
  },
  {
   "property": "C07",
   "status": "proved",
   "theorems": [
    "Verif.Props.C07_gc_invisible"
   ],
   "note": "Garbage collection changes no state that an object shows at a surviving timepoint."
  },
  {
   "property": "C08",
   "status": "proved",
   "theorems": [
    "Verif.Props.C08_edit_discards_future"
   ],
   "note": "After an edit nothing can be redone and the undone timepoints are freed unless pinned or remembered."
  },
  {
   "property": "C09",
   "status": "partial",
   "theorems": [
    "Verif.Props.C09_remembered_stays_partial",
    "Verif.Props.C09_false"
   ],
   "note": "False while undone edits could still be redone (C09_false); proved when nothing can be redone."
  },
  {
   "property": "C10",
   "status": "partial",
   "theorems": [
    "Verif.Props.C10_registered_follows_undo_partial",
    "Verif.Props.C10_false_unregistered",
    "Verif.Props.C10_false_address_reuse"
   ],
   "note": "Proved for registered objects; false for objects never registered (C10_false_unregistered) and with address reuse (C10_false_address_reuse)."
  },
  {
   "property": "C11",
   "status": "proved",
   "theorems": [
    "Verif.Props.C11_ancestors",
    "Verif.Props.C11_queries",
    "Verif.Props.C11_cluster_and_leafs",
    "Verif.Props.C11_common_ancestor",
    "Verif.Props.C11_add_child",
    "Verif.Props.C11_erase"
   ],
   "note": "Tree laws for every tree built by add_child/erase: ancestors, queries, cluster, leafs, common ancestor."
  },
  {
   "property": "C12",
   "status": "proved",
   "theorems": [
    "Verif.Props.C12_pins_are_a_set"
   ],
   "note": "Pins behave as a set; only the last user's unpin allows collection."
  },
  {
   "property": "C13",
   "status": "proved",
   "theorems": [
    "Verif.Props.C13_same_order",
    "Verif.Props.C13_run_executes"
   ],
   "note": "The step tables of run, go_before and next_step all follow the same order, and run executes exactly that step and the later ones when all of it is requested."
  },
  {
   "property": "C14",
   "status": "partial",
   "theorems": [
    "Verif.Props.C14_run_next_step_partial",
    "Verif.Props.C14_false"
   ],
   "note": "Proved when each step creates a timepoint; C14_false: a step that creates none is run again forever."
  },
  {
   "property": "C15",
   "status": "partial",
   "theorems": [
    "Verif.Props.C15_go_before_partial",
    "Verif.Props.C15_false",
    "Verif.Props.C15_edition_partial"
   ],
   "note": "Proved when the step searched has an annotated timepoint; C15_false otherwise. C15_edition_partial: an edition is applied there, then exactly the steps from it on are run."
  },
  {
   "property": "C16",
   "status": "partial",
   "theorems": [
    "Verif.Props.C16_clean_after_parse_partial",
    "Verif.Props.C16_false"
   ],
   "note": "Proved for a first parse; C16_false: a second parse keeps the annotation of the root."
  },
  {
   "property": "C17",
   "status": "partial",
   "theorems": [
    "Verif.Props.C17_no_overwrite_partial",
    "Verif.Props.C17_false",
    "Verif.Props.C17_written",
    "Verif.Props.C17_window"
   ],
   "note": "Proved for CSX and PRETTYPRINT and from the window (C17_window: a file that is there only changes after the user answered save); C17_written: with --force or to a new file it is written. C17_false: PLANTUML replaces the input file."
  },
  {
   "property": "C18",
   "status": "partial",
   "theorems": [
    "Verif.Props.C18_success_means_saved_partial",
    "Verif.Props.C18_false"
   ],
   "note": "Proved when the disk accepts the text; C18_false: a refused write is reported as a success."
  },
  {
   "property": "C19",
   "status": "partial",
   "theorems": [
    "Verif.Props.C19_close_partial",
    "Verif.Props.C19_false"
   ],
   "note": "Proved when the save is not cancelled nor refused; C19_false: the window closes after a cancelled save."
  },
  {
   "property": "C20",
   "status": "proved",
   "theorems": [
    "Verif.Props.C20_half_interval",
    "Verif.Props.C20_closed_form",
    "Verif.Props.C20_zero_d_diverges",
    "Verif.Props.C20_small_smoothness_diverges"
   ],
   "note": "Closed form of find_ls on exact numbers, termination exactly when the parameters are in range; divergence proved for d = 0 and smoothness < 1."
  },
  {
   "property": "C21",
   "status": "proved",
   "theorems": [
    "Verif.Props.C21_interval_mesh",
    "Verif.Props.C21_policies"
   ],
   "note": "Any interval between distinct policies, whole solve and mesh: ordered lines, gaps bounded by the interval's dmax, lines inside, middle line present. C21_policies: from two policies, through the constructor."
  },
  {
   "property": "C22",
   "status": "proved",
   "theorems": [
    "Verif.Props.C22_auto_solve_d",
    "Verif.Props.C22_first_accepted",
    "Verif.Props.C22_constructor",
    "Verif.Props.C22_zero_length_diverges"
   ],
   "note": "Termination of adjust_d for every interval of positive length; first accepted value; divergence proved when the length is 0."
  },
  {
   "property": "C23",
   "status": "proved",
   "theorems": [
    "Verif.Props.C23_auto_solve_smoothness"
   ],
   "note": "Termination of the smoothness adjustment, result in [1, old], same number of lines."
  },
  {
   "property": "C24",
   "status": "proved",
   "theorems": [
    "Verif.Mesh.C24_axis_mesh"
   ],
   "note": "For every separated set of coherent policies on a fresh axis and every sorting function (ties arbitrary). Interval dmax is the global one (no diagonal zone)."
  },
  {
   "property": "C25",
   "status": "proved",
   "theorems": [
    "Verif.Mesh.C25_gaps",
    "Verif.Mesh.C25_whole_axis"
   ],
   "note": "Same scope as C24; C25_whole_axis composes merging, interval detection and meshing."
  },
  {
   "property": "C26",
   "status": "proved",
   "theorems": [
    "Verif.Mesh.C26_terminates_and_separates",
    "Verif.Mesh.C26_conflicting_diverges"
   ],
   "note": "For every limit and every sorting function; C26_conflicting_diverges shows the hypothesis on conflicts is needed."
  },
  {
   "property": "C27",
   "status": "proved",
   "theorems": [
    "Verif.Mesh.C27_merge",
    "Verif.Mesh.C27_extent"
   ],
   "note": "One merge (all kinds) and the whole loop."
  },
  {
   "property": "C28",
   "status": "proved",
   "theorems": [
    "Verif.Mesh.C28_intervals_tile"
   ],
   "note": "Any policies, coordinates may coincide; any sorting function."
  },
  {
   "property": "C29",
   "status": "proved",
   "theorems": [
    "Verif.Mesh.C29_created_iff",
    "Verif.Mesh.C29_always_coherent"
   ],
   "note": "Creation test, and an invariant over any sequence of creations, merges, edits, interval detections and meshings."
  },
  {
   "property": "C30",
   "status": "partial",
   "theorems": [
    "Verif.Board.C30_false",
    "Verif.Board.C30_partial"
   ],
   "note": "C30_false: with coordinates closer than the tolerance, edges not on the same line share a conflict and an edge is in two. Proved for sets of edges on which being on the same line is transitive, any number and order, conflicts of other planes already present."
  },
  {
   "property": "C31",
   "status": "proved",
   "theorems": [
    "Verif.Board.C31_policy",
    "Verif.Board.C31_order"
   ],
   "note": "Every list of edges; the result is the same for any order of the edges up to the coordinate taken from the first."
  },
  {
   "property": "C32",
   "status": "proved",
   "theorems": [
    "Verif.Board.C32_covered"
   ],
   "note": "Left unmeshed only if the ranges cover the edge, for ranges on the line of the edge, whichever way it goes; any number of ranges, any sorting function."
  },
  {
   "property": "C33",
   "status": "proved",
   "theorems": [
    "Verif.Geom.C33_tight",
    "Verif.Geom.C33_defined",
    "Verif.Geom.C33_edges"
   ],
   "note": "Every vertex list; detect_bounding and the box of each edge."
  },
  {
   "property": "C34",
   "status": "proved",
   "theorems": [
    "Verif.Geom.C34_sense",
    "Verif.Geom.C34_start_vertex",
    "Verif.Geom.C34_position",
    "Verif.Geom.C34_reverse",
    "Verif.Geom.C34_scale",
    "Verif.Geom.C34_box"
   ],
   "note": "The shoelace sum is related to the triangles of a fan; the sense includes the tolerance of the code on the area."
  },
  {
   "property": "C35",
   "status": "proved",
   "theorems": [
    "Verif.Geom.C35_cycle",
    "Verif.Geom.C35_direction",
    "Verif.Geom.C35_outward",
    "Verif.Geom.C35_flat",
    "Verif.Geom.C35_box"
   ],
   "note": "Cycle for every vertex list; normals of every polygon stated as growth of the area when the edge moves along its normal; boxes directly."
  },
  {
   "property": "C36",
   "status": "partial",
   "theorems": [
    "Verif.Geom.C36_false",
    "Verif.Geom.C36_partial",
    "Verif.Geom.C36_across"
   ],
   "note": "C36_false: descending diagonals give wrong corners. Proved for horizontal, vertical and ascending lines."
  },
  {
   "property": "C37",
   "status": "proved",
   "theorems": [
    "Verif.Geom.C37_symmetric",
    "Verif.Geom.C37_orientation"
   ],
   "note": "Every pair of segments, tolerance included."
  },
  {
   "property": "C38",
   "status": "proved",
   "theorems": [
    "Verif.Geom.C38_view",
    "Verif.Geom.C38_segment",
    "Verif.Geom.C38_reverse"
   ],
   "note": "Whole finite tables."
  },
  {
   "property": "C39",
   "status": "partial",
   "theorems": [
    "Verif.Geom.C39_false",
    "Verif.Geom.C39_partial"
   ],
   "note": "C39_false: not transitive. The rest of the statement is proved."
  },
  {
   "property": "C40",
   "status": "proved",
   "theorems": [
    "Verif.Board.C40_order",
    "Verif.Board.C40_ambient"
   ],
   "note": "Order laws over the whole table; choice of the ambient material for any number of polygons and any sorting function."
  },
  {
   "property": "C41",
   "status": "partial",
   "theorems": [
    "Verif.Geom.C41_partial",
    "Verif.Geom.C41_border",
    "Verif.Geom.C41_border_only",
    "Verif.Geom.C41_false"
   ],
   "note": "C41_false: the tolerance applies to an area, so a point much farther than the tolerance from the side of a thin box can be misplaced. Proved when the distance is large enough for the height of the box; border exact."
  },
  {
   "property": "C42",
   "status": "proved",
   "theorems": [
    "Verif.Csx.C42_lines",
    "Verif.Csx.C42_order",
    "Verif.Csx.C42_grid"
   ],
   "note": "Texts are lists of characters; numbers are exact with a sign (so -0 is distinct). Back within half a millionth, same order, same count, second writing identical. Grid nodes whose DeltaUnit is absent or 1."
  },
  {
   "property": "C43",
   "status": "partial",
   "theorems": [
    "Verif.Csx.C43_false",
    "Verif.Csx.C43_partial"
   ],
   "note": "C43_false: lines closer than a millionth are written alike (even exactly a millionth apart, with rounding to even). Proved for lines more than a millionth apart."
  },
  {
   "property": "C44",
   "status": "partial",
   "theorems": [
    "Verif.Csx.C44_false",
    "Verif.Csx.C44_partial"
   ],
   "note": "C44_false: Polygon and LinPoly are added to their own plane whether enabled or not. Proved for files without them."
  },
  {
   "property": "C45",
   "status": "partial",
   "theorems": [
    "Verif.Csx.C45_box",
    "Verif.Csx.C45_multibox",
    "Verif.Csx.C45_linpoly",
    "Verif.Csx.C45_polygon",
    "Verif.Csx.C45_sphere",
    "Verif.Csx.C45_sphere_tight",
    "Verif.Csx.C45_point",
    "Verif.Csx.C45_false",
    "Verif.Csx.C45_cylinder_partial",
    "Verif.Csx.C45_curve_partial"
   ],
   "note": "C45_false: cylinder sides use half the radius and no depth, curve depth is only its lowest end. Proved: boxes, multiboxes, stretched and flat polygons (exact), spheres (enclosing and tight), cylinder cross-section, curve outline. Cosines and sines are given, exact at right angles."
  },
  {
   "property": "C46",
   "status": "proved",
   "theorems": [
    "Verif.Csx.C46_precedence"
   ],
   "note": "All eight options and the four file attributes, for every document and list of options; when an option is given several times the last one wins."
  },
  {
   "property": "C47",
   "status": "partial",
   "theorems": [
    "Verif.Csx.C47_false",
    "Verif.Csx.C47_partial",
    "Verif.Csx.C47_false_large"
   ],
   "note": "C47_false: the diagonal zone parameters are not saved. C47_false_large: lmin over 32 bits. Proved for the other four, given that pugixml reads back the doubles it writes (17 digits)."
  },
  {
   "property": "C48",
   "status": "proved",
   "theorems": [
    "Verif.Mesh.C48_fixed"
   ],
   "note": "The tolerance-equal coordinates count as the same line, as in the code."
  },
  {
   "property": "C49",
   "status": "proved",
   "theorems": [
    "Verif.Utils.C49_runs",
    "Verif.Utils.C49_elements"
   ],
   "note": "Runs are maximal and concatenate to the list, for every predicate on neighbours."
  },
  {
   "property": "C50",
   "status": "proved",
   "theorems": [
    "Verif.Utils.C50_one",
    "Verif.Utils.C50_answer",
    "Verif.Utils.C50_destination",
    "Verif.Utils.C50_last"
   ],
   "note": "At most one interactive sink after any sequence of calls, the last one chosen; a question is answered by it only."
  },
  {
   "property": "C51",
   "status": "partial",
   "theorems": [
    "Verif.Geom.C51_crossing",
    "Verif.Geom.C51_intersection_partial",
    "Verif.Geom.C51_false"
   ],
   "note": "Common point exact; C51_false: two long nearly horizontal segments can cross without intersection."
  },
  {
   "property": "C52",
   "status": "partial",
   "theorems": [
    "Verif.Geom.C52_box_partial",
    "Verif.Geom.C52_polygon_partial",
    "Verif.Geom.C52_false"
   ],
   "note": "C52_false: a polygon and point for which the loop never ends. Proved for boxes and for polygons without a vertex just above or below the point."
  },
  {
   "property": "C53",
   "status": "partial",
   "theorems": [
    "Verif.Board.C53_false",
    "Verif.Board.C53_partial",
    "Verif.Board.C53_solved_partial"
   ],
   "note": "C53_false: the first range always counts, so two identical polygons both lose their edges. Proved: ranges from edges with the same side are never joined; C53_solved_partial says it of all the conflicts of a plane solved; see also C32_covered."
  },
  {
   "property": "C54",
   "status": "proved",
   "theorems": [
    "Verif.Board.C54_reversed"
   ],
   "note": "Any number of polygons, any sorting function; stated with the point set just outside the edge."
  },
  {
   "property": "C55",
   "status": "partial",
   "theorems": [
    "Verif.Board.C55_false",
    "Verif.Board.C55_partial",
    "Verif.Board.C55_whole"
   ],
   "note": "C55_false: ranges and edges followed downwards do not combine. Proved for edges followed upwards. C55_whole: any direction, when the ranges are the whole edge."
  },
  {
   "property": "C56",
   "status": "partial",
   "theorems": [
    "Verif.Board.C56_false",
    "Verif.Board.C56_partial",
    "Verif.Board.C56_only"
   ],
   "note": "C56_false: a box with a small area gets no line at all (100 by 35 micrometres in metres). Proved for edges with a side, or sharing their line with another edge. C56_only: no other policy is made."
  },
  {
   "property": "C57",
   "status": "partial",
   "theorems": [
    "Verif.Csx.C57_false",
    "Verif.Csx.C57_partial",
    "Verif.Csx.C57_uniform"
   ],
   "note": "C57_false: DeltaUnit is read as an unsigned integer, so 0.001 gives 0 and kept lines all fall on 0. Proved when DeltaUnit is absent or 1. C57_uniform: whatever the unit, the three axes are multiplied by the same number and no line is lost."
  },
  {
   "property": "C58",
   "status": "partial",
   "theorems": [
    "Verif.Csx.C58_false",
    "Verif.Csx.C58_partial"
   ],
   "note": "C58_false: polygons and curves without vertices. Proved when each has at least one vertex."
  },
  {
   "property": "C59",
   "status": "proved",
   "theorems": [
    "Verif.Csx.C59_priority"
   ],
   "note": "Properties and primitives of any number and any kind modelled."
  },
  {
   "property": "C60",
   "status": "proved",
   "theorems": [
    "Verif.Csx.C60_preserved",
    "Verif.Csx.C60_grid_attrs"
   ],
   "note": "Documents are trees; stated for the attributes and texts found at every path outside the grid and the OpenEMSH node, provided the structure is where the program looks for it."
  },
  {
   "property": "C61",
   "status": "partial",
   "theorems": [
    "Verif.Csx.C61_false",
    "Verif.Csx.C61_partial"
   ],
   "note": "C61_false: writing without the parameters removes the whole OpenEMSH node, fixed lines included. Proved when parameters are saved."
  },
  {
   "property": "C62",
   "status": "partial",
   "theorems": [
    "Verif.Csx.C62_false",
    "Verif.Csx.C62_partial",
    "Verif.Csx.C62_lines"
   ],
   "note": "C62_false: documents with two structures. Proved for documents with the structure at one place."
  },
  {
   "property": "C63",
   "status": "partial",
   "theorems": [
    "Verif.Csx.C63_false",
    "Verif.Csx.C63_partial"
   ],
   "note": "C63_false: saving parameters adds a second root element. Proved without parameters, or over a document that has them."
  },
  {
   "property": "C64",
   "status": "proved",
   "theorems": [
    "Verif.Props.C64_edition_undone",
    "Verif.Props.C64_undone_reads"
   ],
   "note": "Full for editions that make a timepoint and start at a remembered one, as all edit models do; the readings for objects that the steps do not destroy, with states set only at timepoints just made, as the domain does."
  },
  {
   "property": "C65",
   "status": "proved",
   "theorems": [
    "Verif.Board.C65_defined",
    "Verif.Board.C65_corners",
    "Verif.Board.C65_ends"
   ],
   "note": "Full, for polygons with points (an empty one is undefined behaviour)."
  },
  {
   "property": "C66",
   "status": "partial",
   "theorems": [
    "Verif.Board.C66_sound",
    "Verif.Board.C66_complete_partial",
    "Verif.Board.C66_false"
   ],
   "note": "C66_false: a slanted edge crossing a horizontal or vertical one gets no angle, as a flat bounding box overlaps nothing strictly. Proved for two slanted edges."
  },
  {
   "property": "C67",
   "status": "proved",
   "theorems": [
    "Verif.Board.C67_zones",
    "Verif.Board.C67_all"
   ],
   "note": "Full, for any sort meeting the contract of std::ranges::sort, on the angles of detect_diagonal_angles."
  },
  {
   "property": "C68",
   "status": "partial",
   "theorems": [
    "Verif.Board.C68_tidy",
    "Verif.Board.C68_solved_partial",
    "Verif.Board.C68_policies",
    "Verif.Board.C68_false"
   ],
   "note": "C68_false: the minimal angle of a zone, which the user may edit, is not used. Proved with the global one; C68_tidy shows that detected zones meet the hypotheses."
  },
  {
   "property": "C69",
   "status": "partial",
   "theorems": [
    "Verif.Board.C69_dmax_partial",
    "Verif.Board.C69_lines",
    "Verif.Board.C69_false"
   ],
   "note": "C69_false: the last zone decides, even with a larger limit than another or than before. Proved for that last zone."
  },
  {
   "property": "C70",
   "status": "partial",
   "theorems": [
    "Verif.Board.C70_first_partial",
    "Verif.Board.C70_false"
   ],
   "note": "C70_false: only the first zone is kept. Proved for the first."
  },
  {
   "property": "C71",
   "status": "partial",
   "theorems": [
    "Verif.Mesh.C71_sides_partial",
    "Verif.Mesh.C71_cells",
    "Verif.Mesh.C71_false",
    "Verif.Mesh.C71_left_partial"
   ],
   "note": "C71_false: the two sides may use different cells. Proved: the share and the bound on each side. C71_left_partial: the cell of one side is exactly the distance the policy is left with."
  },
  {
   "property": "C72",
   "status": "partial",
   "theorems": [
    "Verif.Props.C72_buttons_partial",
    "Verif.Props.C72_previous_undoes_partial",
    "Verif.Props.C72_false"
   ],
   "note": "Proved when each step creates a timepoint; C72_false: one that creates none is run again and cannot be undone by the button."
  },
  {
   "property": "C73",
   "status": "partial",
   "theorems": [
    "Verif.Props.C73_progress_partial",
    "Verif.Props.C73_false"
   ],
   "note": "Proved when each step creates a timepoint; C73_false: otherwise the step before is still shown."
  },
  {
   "property": "C74",
   "status": "partial",
   "theorems": [
    "Verif.Mesh.C74_false",
    "Verif.Mesh.C74_points_partial"
   ],
   "note": "C74_false: lines are counted, not spaces between them. Proved: what is shown is the number of points of the mesh, more than the number of cells."
  },
  {
   "property": "C75",
   "status": "partial",
   "theorems": [
    "Verif.Mesh.C75_false",
    "Verif.Mesh.C75_default_partial"
   ],
   "note": "Proved for the default options; C75_false: with both kinds of lines they are unsorted and written twice, and with policies only unsorted."
  },
  {
   "property": "C76",
   "status": "proved",
   "theorems": [
    "Verif.Board.C76_registered"
   ],
   "note": "Up to the tolerance and the direction of the range."
  },
  {
   "property": "C77",
   "status": "proved",
   "theorems": [
    "Verif.Board.C77_box",
    "Verif.Board.C77_inside"
   ],
   "note": "Boxes and edges along an axis, in both directions. C77_inside: an edge strictly inside."
  },
  {
   "property": "C78",
   "status": "partial",
   "theorems": [
    "Verif.Board.C78_partial",
    "Verif.Board.C78_border",
    "Verif.Board.C78_false",
    "Verif.Board.C78_index_false"
   ],
   "note": "Proved for edges along an axis with ends apart, and for diagonals overlapping no edge of the polygon; C78_false: an edge going down along an edge of a triangle is sorted by a comparison that is no weak order; C78_index_false: an edge under the tolerance reads past the end."
  },
  {
   "property": "C79",
   "status": "proved",
   "theorems": [
    "Verif.Board.C79_conflicts",
    "Verif.Board.C79_boxes",
    "Verif.Board.C79_engulfed"
   ],
   "note": "C79_conflicts holds for polygons of any shape; C79_boxes for boxes. C79_engulfed: the other direction, for edges strictly inside a box."
  },
  {
   "property": "C80",
   "status": "partial",
   "theorems": [
    "Verif.Mesh.C80_partial",
    "Verif.Mesh.C80_false"
   ],
   "note": "C80_false: four lines of which the first ends further from any line than the limit. C80_partial: the distance is at most the limit times the number of policies that went."
  },
  {
   "property": "C81",
   "status": "proved",
   "theorems": [
    "Verif.Board.C81_boxes"
   ],
   "note": "Whole run of a board of boxes: detection, conflicts, policies, merging, intervals and lines."
  },
  {
   "property": "C82",
   "status": "proved",
   "theorems": [
    "Verif.Board.C82_ends",
    "Verif.Board.C82_slanted",
    "Verif.Board.C82_run"
   ],
   "note": "Whole run of a board of any polygons, under the condition that the detection of edges in polygons ends (it does when no polygon hides another, C82_ends; see C78 for when it may not)."
  },
  {
   "property": "C83",
   "status": "proved",
   "theorems": [
    "Verif.Board.C83_near",
    "Verif.Board.C83_zones"
   ],
   "note": "C83_near takes the distance from zone bounds to policies as a parameter; C83_zones gives it the drift of C82, 0 when nothing is merged."
  },
  {
   "property": "C84",
   "status": "proved",
   "theorems": [
    "Verif.Board.C84_boxes"
   ],
   "note": "The whole of the program between the parsed file and the lines, for files of boxes: parser, builder, adjustment to materials, all the steps. Flat boxes are not covered."
  },
  {
   "property": "C85",
   "status": "proved",
   "theorems": [
    "Verif.Board.C85_sided",
    "Verif.Board.C85_plan"
   ],
   "note": "C85_sided goes from the shapes of a file to polygons with sides, C85_plan from polygons to the lines. That the steps end is told only of polygons that do not hide each other; sides of polygons that may be hidden are told of in C79 and C81 only."
  },
  {
   "property": "C86",
   "status": "proved",
   "theorems": [
    "Verif.Board.C86_adjust"
   ],
   "note": "Composes the builder and the adjustment. The polygons found outside an edge are those whose bounding box meets the shifted edge, as the code does it (C40)."
  },
  {
   "property": "C87",
   "status": "proved",
   "theorems": [
    "Verif.Mesh.C87_kind",
    "Verif.Mesh.C87_others"
   ],
   "note": "The invariant of the merging loop is the votes of the policies at the coordinate. C87_others tells that policies are left on each side that had some."
  },
  {
   "property": "C88",
   "status": "proved",
   "theorems": [
    "Verif.Board.C88_kind",
    "Verif.Board.C88_lines"
   ],
   "note": "C88_kind tells of the policy, C88_lines of the lines around it. The hypothesis Alone asks that nothing wanted, nor a slanted edge, is within the proximity limit. Edges without side that are alone on their line ask for nothing (C56_false)."
  },
  {
   "property": "C89",
   "status": "proved",
   "theorems": [
    "Verif.Board.C89_thirds"
   ],
   "note": "C89_thirds. The cells on the two sides of a face may differ."
  },
  {
   "property": "C90",
   "status": "proved",
   "theorems": [
    "Verif.Props.C90_available"
   ],
   "note": "For every reachable history and registered object; the states listed are related to what is read after going to a timepoint."
  },
  {
   "property": "C91",
   "status": "partial",
   "theorems": [
    "Verif.Dialog.C91_shown",
    "Verif.Dialog.C91_unchanged_partial",
    "Verif.Dialog.C91_interval_partial",
    "Verif.Dialog.C91_false",
    "Verif.Dialog.C91_accepted"
   ],
   "note": "C91_shown and C91_accepted are complete. The last sentence is false (C91_false): the dialog of an interval offers 2 as new smoothness whatever it is, and numbers of more than six digits are rounded (a rounded angle also makes the run start again earlier). C91_unchanged_partial: it holds of numbers of six digits at most, in the dialogs other than the one of intervals; C91_interval_partial: there, only the smoothness changes. QString::number, toDouble and toULong are modelled from the documentation of Qt."
  },
  {
   "property": "C92",
   "status": "partial",
   "theorems": [
    "Verif.Board.C92_unchanged",
    "Verif.Board.C92_kept_partial",
    "Verif.Board.C92_decided",
    "Verif.Board.C92_boxes",
    "Verif.Board.C92_false"
   ],
   "note": "C92_unchanged and C92_decided are complete for the first two sentences. The last one is false (C92_false, for every sorting function and axis): the edition is made before the step that looks for edges in polygons, and solving such a conflict sets to_mesh of the edge without reading it, so an edge partly in a polygon of higher priority is turned on again. C92_kept_partial: it holds of edges whose polygon no other hides; C92_boxes: among boxes, of edges with no two points in a box that hides theirs, and the edges partly in such boxes are those turned on. Missing: the same for polygons of any shape."
  },
  {
   "property": "C93",
   "status": "partial",
   "theorems": [
    "Verif.Board.C93_edited_partial",
    "Verif.Board.C93_unchanged_partial",
    "Verif.Board.C93_false"
   ],
   "note": "False as it stands (C93_false): the dialog accepts a distance of 0, and a policy merged into another at the same place can be enabled again, and both make the meshing loop for ever; accepting the dialog unchanged may change the mesh, since the distance shown is the one lowered by the meshing. C93_edited_partial is the exact line for boards whose run ends: with another policy enabled, the rerun never ends if the distance is not positive or an enabled policy is at the same place, and in all other cases it ends with everything claimed. Missing: a policy enabled alone with a distance not positive (no interval then; it ends). C93_unchanged_partial: unchanged when the meshing had not lowered the distance of this policy and it has six digits at most."
  },
  {
   "property": "C94",
   "status": "partial",
   "theorems": [
    "Verif.Board.C94_edited_partial",
    "Verif.Board.C94_unchanged_partial",
    "Verif.Board.C94_false"
   ],
   "note": "False as it stands (C94_false): the dialog accepts a limit of 0 and a smoothness of 0.5, with which the meshing loops for ever, and it offers a smoothness of 2 whatever it was, so accepting it unchanged changes the mesh. C94_edited_partial: with a positive limit and smoothnesses of at least 1 everything claimed holds; it never ends with a limit not positive, or a smoothness in [0, 1[ with which the lines never get to the middle. Missing: whether it ends with a negative smoothness, or one below 1 for which a few lines are enough. C94_unchanged_partial: typing back what the interval had before its meshing gives the same mesh, when intervals have different lengths (equal lengths may be sorted either way)."
  },
  {
   "property": "C95",
   "status": "partial",
   "theorems": [
    "Verif.Board.C95_edited_partial",
    "Verif.Board.C95_unchanged_partial",
    "Verif.Board.C95_false"
   ],
   "note": "False as it stands (C95_false): the dialog accepts a limit on cells of 0, a smoothness of 0.5 and a proximity limit of -1, with each of which the run may loop for ever, and numbers of more than six digits are rounded when accepted unchanged. C95_edited_partial: the rerun, which starts with the angles as the run before left them, is always the whole run with the numbers typed; with a proximity limit not negative, a smoothness of at least 1 and positive limits it ends as claimed, with the same edges; and it never ends in the cases told. Missing: whether it ends with limits not positive next to slanted edges, with a negative smoothness, or one below 1 for which a few lines are enough. C95_unchanged_partial: the same mesh, with parameters of at most six digits."
  },
  {
   "property": "C96",
   "status": "partial",
   "theorems": [
    "Verif.Board.C96_edited_partial",
    "Verif.Board.C96_unchanged_partial",
    "Verif.Board.C96_false"
   ],
   "note": "False as it stands (C96_false): the minimal angle typed is not used, and with a limit of 0 the run loops for ever. C96_edited_partial: the rerun is solving the intervals of the zones and meshing, from whichever step it starts; other axes do not change; with a positive limit it ends, with increasing lines and gaps within the limit of the last zone that has the middle of the interval, or the global one; it never ends with a limit not positive on a zone that decides for some interval. C96_unchanged_partial: the same mesh, with parameters of at most six digits. The first edit after a run is meant; intervals of earlier runs that zones still hold are left out."
  },
  {
   "property": "C97",
   "status": "proved",
   "theorems": [
    "Verif.Props.C97_nothing_freed"
   ],
   "note": "C97_nothing_freed. The board's steps and the editions are any sequences of calls that pass live timepoints and existing objects (Careful: weaker than the Legal of C04, which also asks that objects born at freed timepoints be released). Consequence: memory grows until another file is opened."
  },
  {
   "property": "C98",
   "status": "proved",
   "theorems": [
    "Verif.Props.C98_shown",
    "Verif.Props.C98_drawn",
    "Verif.Props.C98_again"
   ],
   "note": "C98_shown (both views, current timepoint, what is drawn is what is read), C98_drawn (complete when first shown), C98_again (same scene when coming back). Of the board's steps it is assumed that states are set at timepoints made by the same step. Angles and the board itself are not registered and are out of this claim."
  },
  {
   "property": "C99",
   "status": "proved",
   "theorems": [
    "Verif.Props.C99_connected_once"
   ],
   "note": "C99_connected_once. Editions are supposed to make a timepoint (they all call set_next_state)."
  },
  {
   "property": "C100",
   "status": "partial",
   "theorems": [
    "Verif.Csx.C100_read",
    "Verif.Csx.C100_accepted_partial",
    "Verif.Csx.C100_false",
    "Verif.Csx.C100_grid"
   ],
   "note": "False of the code as stated: std::from_chars reads a prefix and what follows is not looked at, so '10 20,30' is read as the lines 10 and 30 (C100_false). C100_read: lists of numbers are read exactly. C100_accepted_partial: what is accepted begins, after each comma, by the number read. C100_grid: for the grid of a file without unit. Numbers too large for a double, infinities and NaN are left out."
  },
  {
   "property": "C101",
   "status": "partial",
   "theorems": [
    "Verif.Board.C101_partial",
    "Verif.Board.C101_false"
   ],
   "note": "False of the code: a metal block on a substrate with the same priority; both edges of the face between them are covered by an edge of the other side, so both are left out, and no line comes within a unit of the face (C101_false). C101_partial: a face with a point in no box of at least its priority has a policy near."
  },
  {
   "property": "C102",
   "status": "partial",
   "theorems": [
    "Verif.Board.C102_partial",
    "Verif.Board.C102_false"
   ],
   "note": "False of the code (C102_false): the board is not registered with the caretaker, so it keeps its angles and finds them again; the three angles of a triangle become six, and one conflict along x becomes four. C102_partial: the same edges and axis when the steps run again start at the detection of zones, the choice of the angles to mesh, the detection of edges in polygons, the detection of the intervals of zones (any number of times) or their solving, and at the detection of angles if there is none. The steps after DETECT_CONFLICT_EIP that read registered objects only are not restated here."
  },
  {
   "property": "C103",
   "status": "partial",
   "theorems": [
    "Verif.Board.C103_edited_partial",
    "Verif.Board.C103_false"
   ],
   "note": "False as it stands (C103_false): angles are not registered with the caretaker, so after undoing the edit the angle still reads what was undone, and the steps run again give another mesh. C103_edited_partial: all but the undo."
  },
  {
   "property": "C104",
   "status": "partial",
   "theorems": [
    "Verif.Board.C104_partial",
    "Verif.Board.C104_false"
   ],
   "note": "False as it stands (C104_false): is_enabled of a conflict is false from the start, so the dialog shows a solved conflict as not taken into account, and nothing reads it, so its policies are merged again. C104_partial: whatever is ticked, the rerun gives the same axis. That nothing reads the member is in the model (runFromTooClose), from a search through the sources."
  },
  {
   "property": "C105",
   "status": "partial",
   "theorems": [
    "Verif.Geom.C105_evenodd_partial",
    "Verif.Geom.C105_beyond_partial",
    "Verif.Geom.C105_false"
   ],
   "note": "C105_false: a point inside a box a thousandth thick, a hundred times the tolerance away from its border, is said outside, because the tolerance applies to areas. Proved (C105_evenodd_partial) for every closed line, simple or not, whose corners are on a grid of 1/5000 with the point on it too, where the comparisons of areas are exact; missing are the points off the grid. C105_beyond_partial: what is beyond a line that has the polygon on its other side is outside."
  },
  {
   "property": "C106",
   "status": "partial",
   "theorems": [
    "Verif.Geom.C106_same_partial",
    "Verif.Geom.C106_false"
   ],
   "note": "C106_false: of two points of a box a thousandth thick, joined inside it, one is said inside and the other outside. Proved (C106_same_partial) for every closed line with its corners and the two points on a grid of 1/5000; missing are the points off the grid."
  },
  {
   "property": "C107",
   "status": "proved",
   "theorems": [
    "Verif.Board.C107_rectilinear",
    "Verif.Board.C107_inside",
    "Verif.Board.C107_point"
   ],
   "note": "Polygons with edges along the axes, of any shape, crossing themselves or not; multiples of 1/2500. C107_inside: an edge strictly inside. C107_point: an edge that is a point, such as those of a flat box."
  },
  {
   "property": "C108",
   "status": "proved",
   "theorems": [
    "Verif.Board.C108_covered",
    "Verif.Board.C108_engulfed"
   ],
   "note": "The same polygons as C107. C108_covered for what is left unmeshed, C108_engulfed for an edge strictly inside."
  },
  {
   "property": "C109",
   "status": "proved",
   "theorems": [
    "Verif.Board.C109_board",
    "Verif.Board.C109_plan",
    "Verif.Board.C109_file"
   ],
   "note": "C109_file goes from the shapes of a file to polygons along the axes, C109_plan from polygons to the lines, C109_board from the board. Spheres and cylinders are not along the axes and are left out; C85 tells of them when nothing hides them."
  },
  {
   "property": "C110",
   "status": "proved",
   "theorems": [
    "Verif.Csx.C110_shape",
    "Verif.Csx.C110_property",
    "Verif.Csx.C110_document",
    "Verif.Csx.C110_refused"
   ],
   "note": "The specification (Spec/Described) says what nodes stand for by relations, node by node; the theorems are equivalences with what the model decodes, or equations. Names, colours and messages are left out. How doubles are read from attributes is a parameter."
  },
  {
   "property": "C111",
   "status": "proved",
   "theorems": [
    "Verif.Board.C111_files",
    "Verif.Board.C111_kept",
    "Verif.Board.C111_squared"
   ],
   "note": "C111_files and C111_kept hold for all runs; C111_squared is for shapes along the axes (C109) and says that the run ends. The output is assumed to be writable and its directory to exist; the other output formats are left out."
  },
  {
   "property": "C112",
   "status": "partial",
   "theorems": [
    "Verif.Board.C112_partial",
    "Verif.Board.C112_false"
   ],
   "note": "False in general (C112_false): without --save-oemsh-params the first run drops the node of saved parameters, with the fixed lines in it, so that the second run has none of them and writes an empty grid. C112_partial: it holds when old lines are not kept, and either parameters are saved (and numbers survive being written) or there is nothing saved to read. With --integrate-old-mesh the lines of the first run are fixed lines of the second, and it is left out."
  },
  {
   "property": "C113",
   "status": "partial",
   "theorems": [
    "Verif.Board.C113_partial",
    "Verif.Board.C113_false"
   ],
   "note": "False in general (C113_false): --dmax 0 is accepted, only the smoothness is checked, and with two lines apart the program never ends; the same with dmax saved as 0 in the document, which is not checked either. C113_partial: it ends when dmax is positive and the proximity limit not negative, wherever they are given, and the smoothness saved in the document, if any, is at least 1."
  },
  {
   "property": "C114",
   "status": "partial",
   "theorems": [
    "Verif.Props.C114_partial",
    "Verif.Props.C114_false"
   ],
   "note": "False in general (C114_false): when Previous is clicked while something can be redone, the new place is remembered at the end of the history but the browsing position stays, so that Undo goes back from the old position; four enabled clicks (Previous, Undo, Previous, Undo) lead to the board before any step. C114_partial: it holds when no click but Undo and Redo moves to an existing timepoint while something can be redone."
  },
  {
   "property": "C115",
   "status": "partial",
   "theorems": [
    "Verif.Props.C115_steps",
    "Verif.Props.C115_partial",
    "Verif.Props.C115_false",
    "Verif.Props.C115_refused"
   ],
   "note": "C115_steps (Previous, Next, disabled buttons, for all clicks) and C115_refused hold in full. For Undo and Redo it is false (C115_false): after Previous is clicked while something can be redone, Redo is enabled and shows what is already shown. C115_partial: it holds for Undo and Redo when the clicks are orderly as in C114."
  },
  {
   "property": "C116",
   "status": "partial",
   "theorems": [
    "Verif.Dialog.C116_partial",
    "Verif.Dialog.C116_repainted",
    "Verif.Dialog.C116_chosen",
    "Verif.Dialog.C116_false"
   ],
   "note": "False in general (C116_false): the delegate remembers the last painted cell of each type, which can be the one of the old column, and then corrects or reads that one; the dialog is left with THIRDS and no normal, and accepting it does nothing. C116_partial: it holds when editors are opened and left with the new column painted last. C116_repainted: in particular when the whole table is painted after everything that happens, and then every pair that goes together can be chosen."
  },
  {
   "property": "C117",
   "status": "partial",
   "theorems": [
    "Verif.Dialog.C117_partial",
    "Verif.Dialog.C117_false"
   ],
   "note": "False in general (C117_false), by the same cell painted last: the old normal is overwritten and becomes editable. C117_partial: it holds when editors are opened and left with the new column painted last."
  },
  {
   "property": "C118",
   "status": "proved",
   "theorems": [
    "Verif.Dialog.C118_dialog",
    "Verif.Dialog.C118_given",
    "Verif.Dialog.C118_left"
   ],
   "note": "Proved for all sequences, without any assumption on what is painted."
  },
  {
   "property": "C119",
   "status": "partial",
   "theorems": [
    "Verif.Mesh.C119_merging",
    "Verif.Board.C119_policy",
    "Verif.Board.C119_lines",
    "Verif.Board.C119_added",
    "Verif.Board.C119_partial",
    "Verif.Board.C119_false"
   ],
   "note": "Holds unless another line asked for, a side of a shape that encloses no area or a slanted side is within the proximity limit (C119_partial for the program, C119_policy and C119_lines for the run, C119_added from what was added, C119_merging for the merges). False in general: 3 and 4 become 3.5 (C119_false)."
  },
  {
   "property": "C120",
   "status": "proved",
   "theorems": [
    "Verif.Graph.C120_wires",
    "Verif.Graph.C120_ports"
   ],
   "note": "Model of populate and of the wiring of each kind of node. Qt's item hierarchy is abstracted to ports and wires; positions are left out."
  },
  {
   "property": "C121",
   "status": "proved",
   "theorems": [
    "Verif.Graph.C121_chain"
   ],
   "note": "The walk is modelled as a possibly endless recursion; that it ends is proved. Nodes are compared by the object they show."
  },
  {
   "property": "C122",
   "status": "proved",
   "theorems": [
    "Verif.Graph.C122_highlighted"
   ],
   "note": "Qt's part (what a click does to isSelected of the other items) is assumed as stated in the model."
  },
  {
   "property": "C123",
   "status": "proved",
   "theorems": [
    "Verif.Graph.C123_visible",
    "Verif.Graph.C123_selection",
    "Verif.Graph.C123_structure",
    "Verif.Graph.C123_mesh"
   ],
   "note": "C123_visible, C123_selection, C123_structure, C123_mesh. What Qt does (hiding unselects, invisible items cannot be selected, when selectionChanged is emitted) is taken from its documentation and source, as written in Model/Sight.lean; one child stands for the children of a node; the rubber band is left out."
  },
  {
   "property": "C124",
   "status": "partial",
   "theorems": [
    "Verif.Graph.C124_partial",
    "Verif.Graph.C124_lost",
    "Verif.Graph.C124_false"
   ],
   "note": "False in general (C124_false; C124_lost tells what is kept): set_display_mode calls display_selected_chain without its lock, so that selecting the first node again hides the others, which then cannot be selected. C124_partial: kept when each selected node is in the chain of each other."
  },
  {
   "property": "C125",
   "status": "partial",
   "theorems": [
    "Verif.Props.C125_partial",
    "Verif.Props.C125_written",
    "Verif.Props.C125_chosen",
    "Verif.Props.C125_false"
   ],
   "note": "False when closing after a refused file (C125_false, two cases). C125_partial for every action of a session while a document is shown, and none written while none is; C125_written: a save does write when the user agrees. C125_chosen: an export leaves the file the next save goes to. What is read from and written into a text is a parameter of the environment; that a save can be read back exactly is a hypothesis (Exact). Memory freed by Caretaker::reset while the old board stays is not modelled."
  },
  {
   "property": "C126",
   "status": "partial",
   "theorems": [
    "Verif.Props.C126_partial",
    "Verif.Props.C126_false"
   ],
   "note": "False (C126_false): opening a file never asks; a declined Save as renames the file the window names. C126_partial: a document not considered as unsaved is in some file, when no other program writes."
  },
  {
   "property": "C127",
   "status": "partial",
   "theorems": [
    "Verif.Props.Show.C127_partial",
    "Verif.Props.Show.C127_keys",
    "Verif.Props.Show.C127_false"
   ],
   "note": "False after another file is opened (C127_false). C127_partial: kept by everything done with one document, undo and redo included; C127_keys: PageUp and PageDown."
  },
  {
   "property": "C128",
   "status": "partial",
   "theorems": [
    "Verif.Props.Show.C128_partial",
    "Verif.Props.Show.C128_false"
   ],
   "note": "False after going back to a timepoint (C128_false, plane and axes). C128_partial: kept going forward, and established by a click."
  },
  {
   "property": "C129",
   "status": "partial",
   "theorems": [
    "Verif.Props.Show.C129_partial",
    "Verif.Props.Show.C129_false"
   ],
   "note": "False of Fit without a document (C129_false: in every such state). C129_partial: everything else never throws."
  },
  {
   "property": "C130",
   "status": "partial",
   "theorems": [
    "Verif.Uml.C130_partial",
    "Verif.Uml.C130_false"
   ],
   "note": "False when the name of a polygon has a quote (C130_false). C130_partial for all boards whose names have neither quotes nor ends of lines. Colours, and the values of the fields, are in the model but not in the statement."
  },
  {
   "property": "C131",
   "status": "partial",
   "theorems": [
    "Verif.Bar.C131_partial",
    "Verif.Bar.C131_angles",
    "Verif.Bar.C131_false"
   ],
   "note": "False of fixed policies, of diagonal angles with a polygon of more than three edges, of one angle, of one policy and of an empty mesh (C131_false). C131_partial for all other loops; C131_angles for where the angles end. What a loop finds is a parameter, except for policies too close."
  },
  {
   "property": "C132",
   "status": "partial",
   "theorems": [
    "Verif.Bar.C132_partial",
    "Verif.Bar.C132_loops_partial",
    "Verif.Bar.C132_ahead",
    "Verif.Bar.C132_false"
   ],
   "note": "False of progress told by two numbers (C132_false). C132_partial with C132_loops_partial for progress told by one number; C132_ahead for how far ahead the window is."
  },
  {
   "property": "C133",
   "status": "partial",
   "theorems": [
    "Verif.Bar.C133_partial",
    "Verif.Bar.C133_false"
   ],
   "note": "False with numbers of eleven digits (C133_false). C133_partial for all numbers of at most ten."
  },
  {
   "property": "C134",
   "status": "partial",
   "theorems": [
    "Verif.Structure.C134_defined",
    "Verif.Structure.C134_present",
    "Verif.Structure.C134_once",
    "Verif.Structure.C134_places_partial",
    "Verif.Structure.C134_false"
   ],
   "note": "C134_defined, C134_present and C134_once for all boards. False of colinear conflicts in the other plane of their axis (C134_false); C134_places_partial for everything else."
  },
  {
   "property": "C135",
   "status": "partial",
   "theorems": [
    "Verif.Structure.C135_around_partial",
    "Verif.Structure.C135_false"
   ],
   "note": "False between two policies (C135_false, the policies of C71_false). C135_around_partial: what does hold of both lines, and which one is exact."
  },
  {
   "property": "C136",
   "status": "partial",
   "theorems": [
    "Verif.Sync.C136_ends",
    "Verif.Sync.C136_follow_partial",
    "Verif.Sync.C136_false"
   ],
   "note": "C136_ends: the recursion ends and the locks are released. False at any time (C136_false); C136_follow_partial for what holds after each action. That each drawn object has a node is a hypothesis, true of the two populate functions."
  },
  {
   "property": "C137",
   "status": "partial",
   "theorems": [
    "Verif.Sync.C137_hide_partial",
    "Verif.Sync.C137_false"
   ],
   "note": "False of what the plane does not show (C137_false); C137_hide_partial otherwise."
  },
  {
   "property": "C138",
   "status": "proved",
   "theorems": [
    "Verif.Layout.C138_tidy",
    "Verif.Layout.C138_least",
    "Verif.Layout.C138_spread",
    "Verif.Layout.C138_hidden"
   ],
   "note": "Sizes are what boundingRect gives when fit reads it; when Qt applies a new size is left out."
  },
  {
   "property": "C139",
   "status": "proved",
   "theorems": [
    "Verif.Layout.C139_apart",
    "Verif.Layout.C139_places",
    "Verif.Layout.C139_view"
   ],
   "note": "Of visible containers with sizes; for the rectangle, some container visible."
  },
  {
   "property": "C140",
   "status": "proved",
   "theorems": [
    "Verif.Layout.C140_columns",
    "Verif.Layout.C140_right"
   ],
   "note": "Made b rank: what an object comes from was made before it (origins and policies of conflicts are given when made and never removed), and fewer than 2^62 objects."
  },
  {
   "property": "C141",
   "status": "partial",
   "theorems": [
    "Verif.Csx.C141_left",
    "Verif.Csx.C141_names",
    "Verif.Csx.C141_partial",
    "Verif.Csx.C141_found",
    "Verif.Csx.C141_false"
   ],
   "note": "False of kinds never heard of (C141_false, a property and a primitive): they are left out without a word. C141_partial when there are none; C141_left, C141_names and C141_found for every document. Texts among primitives, which take a number, are not nodes of the model."
  },
  {
   "property": "C142",
   "status": "proved",
   "theorems": [
    "Verif.Log.C142_answers"
   ],
   "note": "That exec gives a button of the box is a hypothesis on Qt (Taken)."
  },
  {
   "property": "C143",
   "status": "partial",
   "theorems": [
    "Verif.Log.C143_partial",
    "Verif.Log.C143_offered",
    "Verif.Log.C143_false"
   ],
   "note": "False (C143_false): an action not offered is accepted, and at the end of the input the question is repeated forever. C143_partial gives the answer whenever some line stands for an action. The program never makes this sink interactive."
  },
  {
   "property": "C144",
   "status": "partial",
   "theorems": [
    "Verif.Log.C144_partial",
    "Verif.Log.C144_false"
   ],
   "note": "False (C144_false): the status bar shows the message alone, and information is not written unless the program is verbose. C144_partial for the other messages."
  },
  {
   "property": "C145",
   "status": "partial",
   "theorems": [
    "Verif.Graph.C145_kind",
    "Verif.Graph.C145_partial",
    "Verif.Graph.C145_asked",
    "Verif.Graph.C145_colinear",
    "Verif.Graph.C145_false"
   ],
   "note": "False of conflicts of colinear edges (C145_false): they are offered, and nothing opens. C145_partial without them, C145_colinear what happens with them."
  },
  {
   "property": "C146",
   "status": "partial",
   "theorems": [
    "Verif.Pretty.C146_colinear_partial",
    "Verif.Pretty.C146_in_polygons_partial",
    "Verif.Pretty.C146_untold",
    "Verif.Pretty.C146_false"
   ],
   "note": "False of conflicts of too close policies (C146_false): the serializer does not override that visit, and the chapter is empty. Proved of the other two kinds of conflicts, C146_untold says what is left out."
  },
  {
   "property": "C147",
   "status": "proved",
   "theorems": [
    "Verif.Moved.C147_added",
    "Verif.Moved.C147_parsed",
    "Verif.Moved.C147"
   ],
   "note": "With exact numbers. The sorting functions are any that only compare (the standard leaves open the order of equal elements, not that the order depends on anything but comparisons), the measure of angles any that depends on directions only. C147_added also covers documents with fixed lines kept."
  },
  {
   "property": "C148",
   "status": "proved",
   "theorems": [
    "Verif.Asked.C148",
    "Verif.Asked.C148_run",
    "Verif.Asked.C148_near"
   ],
   "note": "With exact numbers. C148 is about an axis, C148_run about a board with its kept lines in another order. The function that sorts the intervals is any that only compares. C148_near shows that kept lines nearer than the tolerance are left out by the claim for a reason: the first one given stands for the others."
  },
  {
   "property": "C149",
   "status": "partial",
   "theorems": [
    "Verif.Scaled.C149_partial",
    "Verif.Scaled.C149_false"
   ],
   "note": "False of the code: lines to keep are compared with an absolute tolerance of 1e-8, so those nearer than that in one unit are dropped (C149_false: kept lines 0 and 4 give five lines, in a unit 1e9 times longer a single one). C149_partial proves the claim when the kept lines are nearly the same in both units or in none, and the limit on the ratio of cells is at least 1. One axis at a time, from the policies asked for to the lines; the detection of conflicts, where tolerances are used as well, is not covered."
  },
  {
   "property": "C150",
   "status": "partial",
   "theorems": [
    "Verif.Mirror.C150_partial",
    "Verif.Mirror.C150_false",
    "Verif.Mirror.C150_merged_false"
   ],
   "note": "False of the code: intervals of the same size are solved one after the other in an order that depends on where they are, and what is changed for one is seen by the next (C150_false: kept lines 0, ±5, ±10, ±11 give cells of 0.5 on the left of 0 and of 2.5 on its right); and of two pairs of policies equally near, the first is merged (C150_merged_false). C150_partial proves the claim for any sorting functions when no policies are near enough to be merged, no two gaps are of the same size, and there are no diagonal zones. One axis at a time, from the policies asked for to the lines."
  },
  {
   "property": "C151",
   "status": "proved",
   "theorems": [
    "Verif.Wires.C151",
    "Verif.Wires.C151_unique",
    "Verif.Wires.C151_style",
    "Verif.Wires.C151_resized"
   ],
   "note": "Events are those of Spec/Wires.lean; Qt is trusted to tell items what changed. C151_unique: the path that joins two ports in a style is the only one, so the claim fixes what is drawn. C151_resized: the condition on sizes is needed, as only changes of position are listened to. Pens are left out."
  },
  {
   "property": "C152",
   "status": "proved",
   "theorems": [
    "Verif.Wires.C152",
    "Verif.Wires.C152_order",
    "Verif.Wires.C152_loop"
   ],
   "note": "C152_order and C152_loop show that both conditions are needed: a wire deleted by Qt before its ports is used by them, and a port wired to itself deletes the wire twice. Wires are only made from an output port to an input port (processing_scene.cpp:312-323), so the second holds in the program."
  },
  {
   "property": "C153",
   "status": "proved",
   "theorems": [
    "Verif.Orient.C153",
    "Verif.Orient.C153_turned",
    "Verif.Orient.C153_fitted",
    "Verif.Orient.C153_zoom",
    "Verif.Orient.C153_plane"
   ],
   "note": "Coordinates are reals, with sine and cosine; angles are rational. QTransform and QGraphicsView::fitInView are modelled after the documentation and sources of Qt, which is trusted. Scrolling and the font are left out. There must be a scene. C153_plane: the letters are those of the plane chosen last."
  },
  {
   "property": "C154",
   "status": "partial",
   "theorems": [
    "Verif.Layers.C154_false",
    "Verif.Layers.C154_partial",
    "Verif.Layers.C154_populated",
    "Verif.Layers.C154_angles",
    "Verif.Layers.C154_cleared"
   ],
   "note": "False of the code: populating clears first, and clearing the mesh lines puts them on top of policies, intervals and conflicts (C154_false). C154_partial: what does hold after any sequence. C154_populated: the exact order, items and index of a populated scene. C154_angles: clear_all leaves the angles and forgets them in the index; it is only used on new scenes. That memory is used again is left out."
  },
  {
   "property": "C155",
   "status": "partial",
   "theorems": [
    "Verif.Layers.C155_false",
    "Verif.Layers.C155_partial"
   ],
   "note": "False of the code: a polygon deselected while the pointer is over it is lowered (C155_false). C155_partial: one direction always, the equivalence when that does not happen."
  },
  {
   "property": "C156",
   "status": "partial",
   "theorems": [
    "Verif.Props.C156_partial",
    "Verif.Props.C156_saved",
    "Verif.Props.C156_false"
   ],
   "note": "False of the code: a save that the user lets go to the output of the command line, or of a former document, changes the file of the window and not the title; nor does a file that is refused (C156_false). C156_partial: the title follows in all other cases. C156_saved: the message after a save is true."
  },
  {
   "property": "C157",
   "status": "partial",
   "theorems": [
    "Verif.Props.C157_partial",
    "Verif.Props.C157_output",
    "Verif.Props.C157_false"
   ],
   "note": "False of the code: with an output other than the file of the structure, the structure is read back without its mesh and nothing is raised (C157_false, C157_output for all such runs). C157_partial: without such an output, for the format csx, exactly when it returns and what is read. Runs with the window (-G) are not modelled here."
  },
  {
   "property": "C158",
   "status": "partial",
   "theorems": [
    "Verif.Props.C158_partial",
    "Verif.Props.C158_false"
   ],
   "note": "False of the code: without a cleanup a file at the path is taken for the directory (C158_false). C158_partial: the rest, and when it returns."
  },
  {
   "property": "C159",
   "status": "partial",
   "theorems": [
    "Verif.Paint.C159_style",
    "Verif.Paint.C159_partial",
    "Verif.Paint.C159_false"
   ],
   "note": "False of the code: in both styles a hovered edge is painted the same selected or not, and so is a hovered polygon in the colours of its material (C159_false). C159_partial: all the rest. C159_style: the style is the one chosen last."
  },
  {
   "property": "C160",
   "status": "partial",
   "theorems": [
    "Verif.Paint.C160_partial",
    "Verif.Paint.C160_false"
   ],
   "note": "False of the code: the colours of the material are used only while the polygon is selected or hovered (C160_false). C160_partial: exactly what is painted in each case."
  },
  {
   "property": "C161",
   "status": "proved",
   "theorems": [
    "Verif.Paint.C161",
    "Verif.Paint.C161_selected"
   ],
   "note": "Proved for all sequences of chosen styles. C161_selected: conflicts and intervals."
  },
  {
   "property": "C162",
   "status": "partial",
   "theorems": [
    "Verif.Paint.C162_partial",
    "Verif.Paint.C162_false"
   ],
   "note": "False of the code: conflict_docz_selected_hovered defaults to the colour of another conflict, which is opaque (C162_false). C162_partial: the other states, and intervals."
  },
  {
   "property": "C163",
   "status": "proved",
   "theorems": [
    "Verif.Paint.C163",
    "Verif.Paint.C163_wire"
   ],
   "note": "Proved, for hovered nodes from what is assumed of QColor::lighter and QColor::darker (Shades.Plain). C163_wire: wires, without any assumption."
  },
  {
   "property": "C164",
   "status": "proved",
   "theorems": [
    "Verif.Paint.C164",
    "Verif.Paint.C164_told",
    "Verif.Paint.C164_style"
   ],
   "note": "Proved, for hovered nodes from what is assumed of QColor::lighter and QColor::darker (Shades.Plain). C164_told: the colours of kinds of texts differ, without any assumption. C164_style: the style is the one chosen last."
  },
  {
   "property": "C165",
   "status": "proved",
   "theorems": [
    "Verif.Paint.C165",
    "Verif.Paint.C165_angle",
    "Verif.Paint.C165_policy",
    "Verif.Paint.C165_ports",
    "Verif.Paint.C165_values",
    "Verif.Paint.C165_polygon",
    "Verif.Paint.C165_meshline"
   ],
   "note": "Proved for edges. C165_angle, C165_policy, C165_ports, C165_polygon: angles, policies, conflicts of colinear edges, polygons. C165_values, C165_meshline: the lines of intervals, of diagonal or circular zones and of mesh lines."
  },
  {
   "property": "C166",
   "status": "partial",
   "theorems": [
    "Verif.Paint.C166_false",
    "Verif.Paint.C166_partial"
   ],
   "note": "False (C166_false): QString::number writes six digits, so two distances that differ in the seventh read the same. C166_partial: the rest is given."
  },
  {
   "property": "C167",
   "status": "partial",
   "theorems": [
    "Verif.Paint.C167_false",
    "Verif.Paint.C167_partial"
   ],
   "note": "False (C167_false): each constructor ends by reading the identifier through the pointer it tested before, which is undefined behaviour if it is null. C167_partial: defined exactly when there is an entity."
  }
 ]
}