{"id": "C01", "title": "Undo and redo follow a linear editing history", "statement": "When the client only performs edits that are remembered, undo(k) and redo(k), the current timepoint, can_undo(k) and can_redo(k) are always those of a plain past/present/future editing history: an edit pushes the present on the past and empties the future, undo(k) moves k steps back if there are that many and does nothing otherwise, redo(k) symmetrically.", "quantifier": "for every finite sequence of remembered edits (each creating one or more timepoints), undo(k) and redo(k) from a fresh history, every k, every allocation of timepoint addresses", "why_tests_cant": "The histories are unbounded sequences and k is unbounded; tests try a handful of fixed sequences.", "anchors": ["src/utils/state_management.cpp:Caretaker::undo", "src/utils/state_management.cpp:Caretaker::redo", "src/utils/state_management.cpp:Caretaker::can_undo", "src/utils/state_management.cpp:Caretaker::can_redo", "src/utils/state_management.cpp:Caretaker::make_next_timepoint", "src/utils/state_management.cpp:Caretaker::remember_current_timepoint"]}
{"id": "C02", "title": "can_undo and can_redo are exact, and a refused move changes nothing", "statement": "undo(k) (resp. redo(k)) leaves the whole history untouched whenever can_undo(k) (can_redo(k)) is false, and whenever it is true the move goes exactly k remembered steps and redo(k) (undo(k)) is then possible and returns to the starting point if the starting point was remembered.", "quantifier": "for every reachable history state and every k", "why_tests_cant": "Reachable states are unbounded; the iterator arithmetic has corner cases (not browsing, unremembered tip) that sampled tests do not enumerate.", "anchors": ["src/utils/state_management.cpp:Caretaker::undo", "src/utils/state_management.cpp:Caretaker::redo", "src/utils/state_management.cpp:Caretaker::can_undo", "src/utils/state_management.cpp:Caretaker::can_redo"]}
{"id": "C03", "title": "Garbage collection frees exactly what nothing can return to", "statement": "After a garbage collection the live timepoints are exactly the root and the ancestors-or-self of the current timepoint, of the pinned timepoints and of the remembered timepoints; every other timepoint is freed, and ancestry among the survivors is unchanged.", "quantifier": "for every history tree, pinned list, remembered list and current timepoint", "why_tests_cant": "Trees are unbounded in size and shape.", "anchors": ["src/utils/state_management.cpp:Caretaker::garbage_collector", "src/utils/tree_node.cpp:TreeNode::erase_from_descendants", "src/utils/tree_node.cpp:TreeNode::cluster", "src/utils/tree_node.cpp:TreeNode::ancestors"]}
{"id": "C04", "title": "The history never refers to a freed timepoint", "statement": "After any sequence of history operations the current timepoint, every pinned, remembered or annotated timepoint and the browsing position are live, and no operation reads a freed timepoint, provided callers only pass null or live timepoints.", "quantifier": "for every finite sequence of history operations, every allocator behaviour including reuse of freed addresses", "why_tests_cant": "It is a memory-safety invariant over unbounded operation sequences; a test that does not crash shows nothing about other sequences.", "anchors": ["src/utils/state_management.cpp:Caretaker::garbage_collector", "src/utils/state_management.cpp:Caretaker::stop_browsing_user_history", "src/utils/state_management.cpp:Caretaker::reset", "src/utils/state_management.cpp:Caretaker::go_without_remembering"]}
{"id": "C05", "title": "Going to a timepoint restores what every cared-for object was there", "statement": "After the history goes to a timepoint (undo, redo or go), each registered object shows the state last set at that timepoint or at its nearest ancestor that has one, and its initial state if there is none: the same state it showed when that timepoint was last current.", "quantifier": "for every finite sequence of history operations and state updates through the history, every registered object, every live target timepoint", "why_tests_cant": "Objects, states and branches are unbounded; the property relates two arbitrary moments of an execution.", "anchors": ["src/utils/state_management.hpp:Originator::actually_go", "src/utils/state_management.hpp:Originator::go", "src/utils/state_management.hpp:Originator::get_current_state", "src/utils/state_management.cpp:Caretaker::go_without_remembering"]}
{"id": "C06", "title": "A state that is set is the state that is read", "statement": "Right after setting an object's state, reading it returns the value just set.", "quantifier": "for every object history and every timepoint given", "why_tests_cant": "Depends on whether the timepoint already carries a state and on constness; tests only use fresh timepoints.", "anchors": ["src/utils/state_management.hpp:Originator::set_state", "src/utils/state_management.hpp:Originator::set_next_state", "src/utils/state_management.hpp:Originator::get_current_state"]}
{"id": "C07", "title": "Garbage collection is invisible", "statement": "A garbage collection changes neither the state any registered object currently shows nor the state it would show after going to any timepoint that survives.", "quantifier": "for every reachable history with registered objects", "why_tests_cant": "Quantifies over all reachable histories and all surviving targets.", "anchors": ["src/utils/state_management.hpp:Originator::erase", "src/utils/state_management.cpp:Caretaker::garbage_collector"]}
{"id": "C08", "title": "A new edit discards exactly the redoable future", "statement": "Making a new timepoint while browsing makes redo impossible, keeps the remembered timepoints up to the browsing position in order and drops the later ones; the dropped ones that are neither pinned nor needed by a kept one are freed.", "quantifier": "for every reachable history", "why_tests_cant": "Unbounded histories.", "anchors": ["src/utils/state_management.cpp:Caretaker::stop_browsing_user_history", "src/utils/state_management.cpp:Caretaker::make_next_timepoint"]}
{"id": "C09", "title": "A timepoint that was remembered stays reachable by undo until it is undone over", "statement": "After go_and_remember(t) succeeds, the next edit leaves t among the remembered timepoints, so the user can undo back to it.", "quantifier": "for every reachable history, including while browsing the undo history", "why_tests_cant": "Needs an arbitrary interleaving of browsing and jumping.", "anchors": ["src/utils/state_management.cpp:Caretaker::go_and_remember", "src/utils/state_management.cpp:Caretaker::remember_current_timepoint", "src/utils/state_management.cpp:Caretaker::stop_browsing_user_history"]}
{"id": "C10", "title": "Every object of the design follows undo", "statement": "After undoing to a timepoint every object of the board (including the board itself, its angles, its diagonal zones and its fixed line policies) shows the state it had there.", "quantifier": "for every object the pipeline creates and every timepoint", "why_tests_cant": "It depends on which objects are registered with the history, a whole-program fact; unit tests register their objects by hand.", "anchors": ["src/domain/board.cpp:Board::Board", "src/domain/board.cpp:Board::detect_diagonal_angles", "src/domain/board.cpp:Board::Builder::add_fixed_meshline_policy", "src/domain/conflict_manager.cpp:ConflictManager::add_diagonal_or_circular_zone", "src/utils/state_management.cpp:Caretaker::take_care_of"]}
{"id": "C11", "title": "Timepoint tree laws", "statement": "ancestors/root/is_descendant_of/is_ancestor_of/cluster/leafs/common_ancestor agree with one another: a node is in another's cluster iff it is its descendant, the first common ancestor is a common ancestor and every other common ancestor is an ancestor of it, the leafs are the childless nodes of the cluster, adding a child changes no other node's ancestry.", "quantifier": "for every tree built by add_child and every pair of its nodes", "why_tests_cant": "Unbounded trees.", "anchors": ["src/utils/tree_node.cpp:TreeNode"]}
{"id": "C12", "title": "Pins are a set", "statement": "The list of pinned timepoints never contains duplicates, pinning adds only the current timepoint, and after unpin(t) t is not pinned and all others still are, in the same order.", "quantifier": "for every sequence of history operations", "why_tests_cant": "Unbounded sequences.", "anchors": ["src/utils/state_management.cpp:Caretaker::pin_current_timepoint", "src/utils/state_management.cpp:Caretaker::unpin"]}
{"id": "C13", "title": "The pipeline order is one total order everywhere", "statement": "next, that_and_after, the execution order of a run and the displayed step index all describe the same total order of the fifteen steps: a run executes exactly the requested steps, each once, in that order; run_from_step(s) executes s and everything after it.", "quantifier": "for every step and every set of requested steps", "why_tests_cant": "Tests check single steps; this ties four hand-written tables together for all subsets.", "anchors": ["src/app/openemsh.cpp:next", "src/app/openemsh.cpp:that_and_after", "src/app/openemsh.cpp:OpenEMSH::run", "src/app/steps.hpp:index"]}
{"id": "C14", "title": "Next step always progresses", "statement": "Calling run_next_step repeatedly from a freshly parsed board executes the fifteen steps in order and then nothing, whatever the steps do to the board.", "quantifier": "for every board, in particular when a step has nothing to do", "why_tests_cant": "Depends on whether a step happens to create a timepoint for this board; tests use boards where it does or run everything at once.", "anchors": ["src/app/openemsh.cpp:OpenEMSH::run_next_step", "src/app/openemsh.cpp:OpenEMSH::run", "src/utils/state_management.cpp:Caretaker::annotate_current_timepoint"]}
{"id": "C15", "title": "Editing re-runs from the state before the step", "statement": "go_before(s) after a run that executed step s makes current the timepoint at which s started, so that an edit followed by run_from_step(s) starts from the state s started from.", "quantifier": "for every executed set of steps and every step in it", "why_tests_cant": "Depends on how many timepoints each step creates.", "anchors": ["src/app/openemsh.cpp:OpenEMSH::go_before", "src/ui/qt/main_window.cpp:MainWindow::handle_edition_from"]}
{"id": "C16", "title": "Opening a file starts from a clean history", "statement": "After parsing a file, nothing of the previous session is visible: no undo, no redo, no pinned timepoint, no current step.", "quantifier": "for every previous session", "why_tests_cant": "Quantifies over all previous sessions.", "anchors": ["src/app/openemsh.cpp:OpenEMSH::parse", "src/utils/state_management.cpp:Caretaker::reset", "src/app/openemsh.cpp:OpenEMSH::get_current_step"]}
{"id": "C17", "title": "An existing file is never overwritten without consent", "statement": "Run from the command line without --force, the program never changes the content of a file that existed before; with --force, or to a new file, it writes. From the window, such a file only changes after the user answered save.", "quantifier": "for every input, output, output format and file system content", "why_tests_cant": "Quantifies over all parameter combinations and file systems.", "anchors": ["src/main.cpp:main", "src/app/openemsh.cpp:OpenEMSH::is_about_overwriting", "src/app/openemsh.cpp:OpenEMSH::write"]}
{"id": "C18", "title": "A reported success means the file is there", "statement": "When the program reports that the output was written, the output file holds the serialized board.", "quantifier": "for every outcome of the file operations", "why_tests_cant": "Needs failing file systems.", "anchors": ["src/infra/serializers/serializer_to_csx.cpp:SerializerToCsx::run", "src/app/openemsh.cpp:OpenEMSH::write", "src/main.cpp:main"]}
{"id": "C19", "title": "Closing the window never loses work the user asked to save", "statement": "When the user closes an unsaved document and answers save, the window closes only if the document was saved.", "quantifier": "for every answer to the dialogs and every outcome of the save", "why_tests_cant": "Interactive decision logic over all dialog answers.", "anchors": ["src/ui/qt/main_window.cpp:MainWindow::closeEvent", "src/ui/qt/main_window.cpp:MainWindow::save_csx_file"]}
{"id": "C20", "title": "Half-interval lines grow smoothly and reach exactly past the end", "statement": "The lines generated in a half interval are strictly increasing; all but the last are before the end of the half interval and the last is at or after it; each spacing is at most dmax and at most smoothness times the previous one (the first being compared with d), and spacings never decrease.", "quantifier": "for every d > 0, dmax > 0, smoothness >= 1 and every half-interval length", "why_tests_cant": "Real parameters and unbounded number of lines.", "anchors": ["src/domain/mesh/interval.cpp:find_ls"]}
{"id": "C21", "title": "The mesh of an interval is ordered, inside, and dense enough", "statement": "The lines of a solved interval are strictly increasing, lie within the two policy coordinates, contain the middle, and no two consecutive ones are more than dmax apart.", "quantifier": "for every pair of policies, every parameters, after solving", "why_tests_cant": "Real parameters, unbounded line counts.", "anchors": ["src/domain/mesh/interval.cpp:Interval::mesh", "src/domain/mesh/interval.cpp:Interval::auto_solve_d", "src/domain/mesh/interval.cpp:Interval::auto_solve_smoothness"]}
{"id": "C22", "title": "Solving an interval terminates with at least lmin lines per half", "statement": "Adjusting d always terminates and its result has d not greater than before, d at most dmax, and at least lmin lines in each half interval.", "quantifier": "for every interval of positive length, positive d and dmax, smoothness at least 1, every lmin", "why_tests_cant": "Termination of a real-valued search loop.", "anchors": ["src/domain/mesh/interval.cpp:Interval::adjust_d_for_dmax_lmin", "src/domain/mesh/interval.cpp:Interval::auto_solve_d", "src/domain/mesh/interval.cpp:Interval::is_ls_valid_for_dmax_lmin_smoothness"]}
{"id": "C23", "title": "Relaxing smoothness is safe", "statement": "Adjusting the smoothness terminates, never raises it, never makes it smaller than 1 and never changes the number of lines of the half interval.", "quantifier": "for every interval state and parameters", "why_tests_cant": "Real-valued search loop.", "anchors": ["src/domain/mesh/interval.cpp:Interval::adjust_smoothness_for_s", "src/domain/mesh/interval.cpp:Interval::auto_solve_smoothness"]}
{"id": "C24", "title": "Every ONELINE policy gets its line, and the mesh of an axis is sorted", "statement": "After meshing an axis, the lines are sorted in non-decreasing coordinate order, each enabled ONELINE policy has a line exactly at its coordinate, disabled policies contribute none, and every line lies between the smallest and largest enabled policy coordinates.", "quantifier": "for every set of policies on an axis", "why_tests_cant": "Unbounded sets of policies.", "anchors": ["src/domain/meshline_policy_manager.cpp:MeshlinePolicyManager::mesh", "src/domain/mesh/meshline_policy.cpp:MeshlinePolicy::mesh"]}
{"id": "C25", "title": "No gap of the mesh exceeds dmax", "statement": "After meshing an axis, two consecutive lines are never more than dmax apart.", "quantifier": "for every set of separated policies and parameters", "why_tests_cant": "Unbounded sets, real parameters.", "anchors": ["src/domain/meshline_policy_manager.cpp:MeshlinePolicyManager::mesh", "src/domain/mesh/interval.cpp:Interval::mesh"]}
{"id": "C26", "title": "Merging too-close policies terminates and separates", "statement": "Solving too-close policies on an axis terminates and leaves every two enabled policies of the axis strictly more than the proximity limit apart.", "quantifier": "for every list of policies none of which is already in a conflict, every proximity limit", "why_tests_cant": "Termination of an unbounded loop; unbounded lists.", "anchors": ["src/domain/meshline_policy_manager.cpp:MeshlinePolicyManager::detect_and_solve_too_close_meshline_policies", "src/domain/meshline_policy_manager.cpp:MeshlinePolicyManager::detect_closest_meshline_policies", "src/domain/conflict_manager.cpp:ConflictManager::add_too_close_meshline_policies"]}
{"id": "C27", "title": "Merging never moves a line outside, and fixed lines win", "statement": "A merged policy lies between the two it replaces; merging a ONELINE with another kind keeps the ONELINE and its coordinate; so all enabled policies stay within the original extent and no axis that had an enabled policy loses all of them.", "quantifier": "for every list of policies and limit", "why_tests_cant": "Unbounded merging sequences.", "anchors": ["src/domain/conflicts/conflict_too_close_meshline_policies.cpp:ConflictTooCloseMeshlinePolicies::auto_solve"]}
{"id": "C28", "title": "Intervals tile the axis", "statement": "Detected intervals are the consecutive pairs of enabled policies in coordinate order: each starts where the previous one ends, there is one fewer than enabled policies, and disabled policies bound none.", "quantifier": "for every list of policies", "why_tests_cant": "Unbounded lists.", "anchors": ["src/domain/meshline_policy_manager.cpp:MeshlinePolicyManager::detect_intervals"]}
{"id": "C29", "title": "Only coherent policies are created", "statement": "A policy is created iff its kind and its normal agree (THIRDS with a side, the others without); every policy of every axis is coherent, whatever sequence of creations and merges is applied.", "quantifier": "for every sequence of policy creations and merges", "why_tests_cant": "Invariant over sequences.", "anchors": ["src/domain/meshline_policy_manager.cpp:MeshlinePolicyManager::add_meshline_policy", "src/ui/qt/edit/edit_model_meshline_policy.cpp:EditModelMeshlinePolicy::commit"]}
{"id": "C30", "title": "Colinear edges are grouped into exactly one conflict", "statement": "After detection, two different edges of the same plane and direction share a colinear conflict iff they lie at the same coordinate, and no edge is in two colinear conflicts.", "quantifier": "for every set of edges", "why_tests_cant": "Quadratic pairwise detection over unbounded sets.", "anchors": ["src/domain/conflict_manager.cpp:ConflictManager::add_colinear_edges", "src/domain/board.cpp:Board::detect_colinear_edges"]}
{"id": "C31", "title": "Colinear edges get the policy their orientation calls for", "statement": "Solving a colinear conflict ignores edges that are not to be meshed; edges facing both ways give HALFS, facing one way THIRDS with that side, any edge without side ONELINE, none to mesh nothing; the result does not depend on the order of the edges.", "quantifier": "for every list of edges of a conflict", "why_tests_cant": "Unbounded lists and orders.", "anchors": ["src/domain/conflicts/conflict_colinear_edges.cpp:ConflictColinearEdges::auto_solve"]}
{"id": "C32", "title": "An edge is left unmeshed only if covered", "statement": "Solving an edge-in-polygon conflict marks the edge as not to mesh only when the overlapping ranges reported for it, joined end to end, make up the whole edge.", "quantifier": "for every edge and every list of reported ranges", "why_tests_cant": "Unbounded lists of ranges.", "anchors": ["src/domain/conflicts/conflict_edge_in_polygon.cpp:ConflictEdgeInPolygon::auto_solve"]}
{"id": "C33", "title": "The bounding box is tight", "statement": "Each vertex is within the polygon bounding box and each side of the box is reached by some vertex; each edge's bounding is within the polygon's.", "quantifier": "for every non-empty vertex list", "why_tests_cant": "Unbounded vertex lists.", "anchors": ["src/domain/geometrics/polygon.cpp:detect_bounding", "src/domain/geometrics/segment.cpp:bounding"]}
{"id": "C34", "title": "Rotation sense is geometric", "statement": "The rotation of a polygon does not depend on the starting vertex nor on the position of the polygon, is flipped by reversing the vertex order, and is kept by enlarging; shrinking never turns one sense into the other; a box is never reported with the wrong rotation.", "quantifier": "for every vertex list", "why_tests_cant": "Unbounded vertex lists, real coordinates.", "anchors": ["src/domain/geometrics/polygon.cpp:detect_rotation"]}
{"id": "C35", "title": "Edges close the polygon and normals point outside", "statement": "The edges of a polygon form one closed cycle through all vertices, each shared vertex is the end of one edge and the start of the next; edges of an axis-aligned box have the normal pointing out of the box, whatever corner order the box is given in.", "quantifier": "for every vertex list; for every non-degenerate box", "why_tests_cant": "Unbounded lists; all corner orders and coordinates.", "anchors": ["src/domain/geometrics/polygon.cpp:detect_edges", "src/domain/geometrics/polygon.cpp:Polygon::detect_edge_normal"]}
{"id": "C36", "title": "Overlap and merge are interval intersection and hull", "statement": "The overlap of two overlapping parallel segments is their common part and their merge is the smallest segment containing both.", "quantifier": "for every pair of colinear overlapping segments", "why_tests_cant": "Real coordinates and all orientations.", "anchors": ["src/domain/geometrics/segment.cpp:overlap", "src/domain/geometrics/segment.cpp:merge"]}
{"id": "C37", "title": "Segment relation is symmetric and orientation independent", "statement": "The relation between two segments does not depend on which is asked nor on the direction of either.", "quantifier": "for every pair of segments", "why_tests_cant": "Real coordinates.", "anchors": ["src/domain/geometrics/segment.cpp:Segment::relation_to"]}
{"id": "C38", "title": "Axis, plane and view-axis tables are mutually inverse", "statement": "Projecting to a plane and back is consistent: the two view axes of a plane are distinct and are the two space axes of that plane, the meshed axis of a horizontal edge is the plane's vertical axis and conversely, reversing normals twice is the identity.", "quantifier": "for every plane, axis and direction", "why_tests_cant": "Several hand-written tables must agree for all entries.", "anchors": ["src/domain/geometrics/space.cpp:transpose", "src/domain/geometrics/space.hpp:Axes", "src/domain/geometrics/segment.cpp:transpose", "src/domain/geometrics/normal.cpp:reverse"]}
{"id": "C39", "title": "Coordinate equality is an equivalence", "statement": "Coordinate equality is reflexive, symmetric and transitive and consistent with order.", "quantifier": "for all coordinates", "why_tests_cant": "Real numbers.", "anchors": ["src/domain/geometrics/coord.cpp:Coord::operator=="]}
{"id": "C40", "title": "The ambient material is a highest-priority overlapping material", "statement": "The material found around an edge is that of an overlapping polygon whose priority no other overlapping polygon exceeds and whose kind no other of equal priority exceeds (port over conductor over dielectric over air); the board background if there is none.", "quantifier": "for every board and every segment", "why_tests_cant": "Unbounded polygons, sort-based selection.", "anchors": ["src/domain/board.cpp:Board::find_ambient_material", "src/domain/material.cpp:operator<=>"]}
{"id": "C41", "title": "Point in box", "statement": "A point strictly inside an axis-aligned box is reported in, strictly outside out, and on the border on.", "quantifier": "for every box and every point farther than the tolerance from the border lines' extensions or on the border", "why_tests_cant": "Real coordinates and ray retries.", "anchors": ["src/domain/geometrics/polygon.cpp:Polygon::relation_to"]}
{"id": "C42", "title": "Written mesh lines read back as the same mesh", "statement": "Writing a list of mesh lines and reading it back gives as many lines, in the same order, each within half a millionth of the original, and the axes not wanted have none; a list read back and written again is identical.", "quantifier": "for every list of coordinates", "why_tests_cant": "Unbounded lists and numbers.", "anchors": ["src/infra/serializers/serializer_to_csx.cpp:SerializerToCsx::visit", "src/infra/parsers/parser_from_csx.cpp:ParserFromCsx::Pimpl::parse_grid"]}
{"id": "C43", "title": "Distinct lines stay distinct when written", "statement": "Two lines the mesher considers different are written as different numbers.", "quantifier": "for every pair of coordinates", "why_tests_cant": "Needs numbers at the precision limit.", "anchors": ["src/infra/serializers/serializer_to_csx.cpp:SerializerToCsx::visit", "src/domain/global.hpp:equality_tolerance"]}
{"id": "C44", "title": "Disabled planes are not meshed", "statement": "When a plane is disabled by option, no polygon is added on that plane, whatever the primitive.", "quantifier": "for every primitive and every option combination", "why_tests_cant": "All primitives times all options.", "anchors": ["src/infra/parsers/parser_from_csx.cpp:ParserFromCsx::Pimpl::parse_primitive"]}
{"id": "C45", "title": "A primitive's projections cover it", "statement": "For each primitive, the projection on each enabled plane and the extent along the plane's normal enclose the primitive's points; a point is one line on each axis of each enabled plane, at its coordinate.", "quantifier": "for every primitive with real coordinates", "why_tests_cant": "Real coordinates.", "anchors": ["src/infra/parsers/parser_from_csx.cpp:ParserFromCsx::Pimpl::parse_primitive_box", "src/infra/parsers/parser_from_csx.cpp:ParserFromCsx::Pimpl::parse_primitive_cylinder", "src/infra/parsers/parser_from_csx.cpp:ParserFromCsx::Pimpl::parse_primitive_curve", "src/infra/parsers/parser_from_csx.cpp:ParserFromCsx::Pimpl::parse_primitive_linpoly"]}
{"id": "C46", "title": "Command line parameters win over file parameters, which win over defaults", "statement": "Each meshing parameter has the command line value if given, else the file value if present, else the default; parameters are independent.", "quantifier": "for every combination of given and missing parameters", "why_tests_cant": "All combinations and values.", "anchors": ["src/ui/cli/cli.cpp:cli", "src/infra/parsers/parser_from_csx.cpp:ParserFromCsx::run", "src/infra/parsers/parser_from_csx.cpp:ParserFromCsx::Pimpl::parse_oemsh"]}
{"id": "C47", "title": "Saved parameters are read back", "statement": "Writing a board with parameters saved and parsing the result gives the same parameters.", "quantifier": "for every parameter values", "why_tests_cant": "Real values.", "anchors": ["src/infra/serializers/serializer_to_csx.cpp:SerializerToCsx::visit", "src/infra/parsers/parser_from_csx.cpp:ParserFromCsx::Pimpl::parse_oemsh"]}
{"id": "C48", "title": "Fixed lines are added once", "statement": "Adding the input grid's lines as fixed policies creates exactly one ONELINE policy per distinct coordinate and never touches other policies.", "quantifier": "for every list of fixed coordinates", "why_tests_cant": "Unbounded lists; tolerance-based equality.", "anchors": ["src/domain/board.cpp:Board::Builder::add_fixed_meshline_policy", "src/domain/board.cpp:Board::add_fixed_meshline_policies"]}
{"id": "C49", "title": "Consecutive matches are the maximal runs", "statement": "find_consecutive_matches returns the maximal runs of elements satisfying the predicate, in order: they are disjoint, cover every satisfying element and no other.", "quantifier": "for every list and predicate", "why_tests_cant": "Unbounded lists.", "anchors": ["src/utils/vector_utils.hpp:find_consecutive_matches"]}
{"id": "C50", "title": "At most one interactive log sink answers", "statement": "However sinks are registered and chosen, at most one is interactive and a question is answered by that one.", "quantifier": "for every sequence of registrations", "why_tests_cant": "Unbounded sequences.", "anchors": ["src/utils/logger.cpp:Logger::set_as_the_interactive", "src/utils/logger.cpp:Logger::log"]}
{"id": "C51", "title": "Crossing segments meet in one point and it is the one returned", "statement": "Two segments reported as crossing, no end of one being within the tolerance of the other's line, have exactly one common point, and intersection returns it.", "quantifier": "for every pair of segments", "why_tests_cant": "Real coordinates, any slopes.", "anchors": ["src/domain/geometrics/segment.cpp:Segment::relation_to", "src/domain/geometrics/segment.cpp:intersection"]}
{"id": "C52", "title": "The point-in-polygon test always ends", "statement": "The search for a ray that meets no vertex ends for every polygon and every point.", "quantifier": "for every polygon with at least one vertex and every point", "why_tests_cant": "An endless loop has no failing output, and all polygons cannot be tried.", "anchors": ["src/domain/geometrics/polygon.cpp:Polygon::relation_to"]}
{"id": "C53", "title": "Only edges facing the other way hide an edge", "statement": "Ranges of an edge reported inside a polygon because of another edge facing the same way do not count towards leaving the edge unmeshed.", "quantifier": "for every edge and list of reported ranges", "why_tests_cant": "Unbounded lists of ranges in any order.", "anchors": ["src/domain/conflicts/conflict_edge_in_polygon.cpp:ConflictEdgeInPolygon::auto_solve"]}
{"id": "C54", "title": "An edge is reversed exactly when a stronger material lies outside", "statement": "An edge of a polygon is reversed exactly when the material found just outside, on the edge's side, has a higher kind than the polygon's own.", "quantifier": "for every board and every edge with a side", "why_tests_cant": "Any number of polygons, priorities, materials and positions.", "anchors": ["src/domain/board.cpp:Board::adjust_edges_to_materials", "src/domain/board.cpp:Board::find_ambient_material"]}
{"id": "C55", "title": "A wholly covered edge is left unmeshed", "statement": "When the ranges reported for an edge cover it from end to end, the edge is left unmeshed.", "quantifier": "for every edge and list of reported ranges", "why_tests_cant": "Unbounded lists of ranges in any order and any direction.", "anchors": ["src/domain/conflicts/conflict_edge_in_polygon.cpp:ConflictEdgeInPolygon::auto_solve"]}
{"id": "C56", "title": "Every edge to mesh gets a line policy", "statement": "After colinear edges and individual edges are handled, each horizontal or vertical edge to mesh has a policy on the axis it fixes, at its coordinate, and every policy is at the coordinate of such an edge.", "quantifier": "for every set of edges of a plane", "why_tests_cant": "Unbounded sets of edges, real coordinates.", "anchors": ["src/domain/board.cpp:Board::detect_colinear_edges", "src/domain/board.cpp:Board::detect_individual_edges", "src/domain/conflicts/conflict_colinear_edges.cpp:ConflictColinearEdges::auto_solve"]}
{"id": "C57", "title": "Kept mesh lines stay where they are", "statement": "When the old mesh is kept, each of its lines becomes a fixed line at the position it has in the same units as the shapes, on all three axes; a part that is not a number makes the reading fail.", "quantifier": "for every grid node and unit", "why_tests_cant": "Unbounded lists of lines and every unit text.", "anchors": ["src/infra/parsers/parser_from_csx.cpp:ParserFromCsx::Pimpl::parse_grid"]}
{"id": "C58", "title": "Reading shapes never has undefined behaviour", "statement": "Whatever the properties and primitives of a file, reading them does not read outside a list.", "quantifier": "for every list of properties and primitives", "why_tests_cant": "Files of any size; undefined behaviour need not show in a test.", "anchors": ["src/infra/parsers/parser_from_csx.cpp:ParserFromCsx::Pimpl::parse_primitive_polygon", "src/infra/parsers/parser_from_csx.cpp:ParserFromCsx::Pimpl::parse_primitive_curve", "src/infra/parsers/parser_from_csx.cpp:ParserFromCsx::Pimpl::parse_primitive_linpoly"]}
{"id": "C59", "title": "Polygons have the material and priority of their property and primitive", "statement": "Each polygon made from a file has the material of the property (metals and conducting sheets are conductors; lumped elements, excitations and probes are ports; a material is air, a conductor or a dielectric after its constants) and the priority of the primitive it comes from, except ports and curves which have the highest priority; transformed primitives and properties without material make none.", "quantifier": "for every list of properties and primitives", "why_tests_cant": "Files of any size.", "anchors": ["src/infra/parsers/parser_from_csx.cpp:ParserFromCsx::parse", "src/infra/parsers/parser_from_csx.cpp:ParserFromCsx::Pimpl::parse_primitive", "src/infra/parsers/parser_from_csx.cpp:parse_priority"]}
{"id": "C60", "title": "Writing the mesh leaves the rest of the document unchanged", "statement": "After writing, the attributes and texts at every path outside the grid and the OpenEMSH node are the same, in the same order.", "quantifier": "for every document with a structure, every path and every output option", "why_tests_cant": "Unbounded documents and paths.", "anchors": ["src/infra/serializers/serializer_to_csx.cpp:SerializerToCsx::visit"]}
{"id": "C61", "title": "Fixed lines declared in the document survive writing", "statement": "The fixed mesh lines of the OpenEMSH node of a document are still there after writing the mesh.", "quantifier": "for every document and every output option", "why_tests_cant": "Unbounded documents.", "anchors": ["src/infra/serializers/serializer_to_csx.cpp:SerializerToCsx::visit"]}
{"id": "C62", "title": "The mesh is written to the structure it was computed from", "statement": "Reading a document after writing finds the structure that was read before, with the lines written as its grid.", "quantifier": "for every document with a structure", "why_tests_cant": "Unbounded documents.", "anchors": ["src/infra/serializers/serializer_to_csx.cpp:SerializerToCsx::visit", "src/infra/parsers/parser_from_csx.cpp:ParserFromCsx::parse"]}
{"id": "C63", "title": "Writing does not add roots to the document", "statement": "A document with one root element still has one after writing.", "quantifier": "for every document and every output option", "why_tests_cant": "Unbounded documents.", "anchors": ["src/infra/serializers/serializer_to_csx.cpp:SerializerToCsx::visit"]}
{"id": "C64", "title": "An edition can be undone and redone", "statement": "An edition from any step drops what could be redone and adds exactly one remembered timepoint; undoing once shows the board as it was before the edition, redoing once shows the edited board again.", "quantifier": "for every reachable state at a remembered timepoint, every step, every edition and every work of the steps", "why_tests_cant": "Any number of timepoints may be made by the edition and by the steps run after it.", "anchors": ["src/ui/qt/main_window.cpp:MainWindow::handle_edition_from", "src/app/openemsh.cpp:OpenEMSH::run", "src/utils/state_management.cpp:Caretaker::undo"]}
{"id": "C65", "title": "Every end of a slanted side has an angle", "statement": "The angles found in a plane are, for every polygon, exactly one at each vertex where a slanted side arrives or leaves, between those two sides, followed by angles between edges of two different polygons; so every slanted side has an angle at both ends. The detection is defined when no polygon is empty.", "quantifier": "for all lists of polygons with points", "why_tests_cant": "Unbounded numbers of polygons and vertices, any coordinates.", "anchors": ["src/domain/board.cpp:Board::detect_diagonal_angles"]}
{"id": "C66", "title": "A slanted edge crossing an edge of another polygon has an angle there", "statement": "Two edges of different polygons that clearly cross, one at least being slanted, have an angle at their common point, and every angle between polygons is a point of one edge on the line of the other.", "quantifier": "for all lists of polygons and all pairs of edges", "why_tests_cant": "Unbounded numbers of polygons, any coordinates.", "anchors": ["src/domain/board.cpp:Board::detect_diagonal_angles", "src/domain/geometrics/bounding.cpp:does_overlap_strict", "src/domain/geometrics/segment.cpp:intersection"]}
{"id": "C67", "title": "Diagonal zones are the connected pieces under the slanted edges", "statement": "On each axis of a plane, the zones found are the connected pieces of what is under the slanted edges to be meshed: each such edge is over one zone, every point of a zone is under such an edge, zones do not touch each other. No angle is in two of them, and each gets the global diagonal spacing.", "quantifier": "for all polygons, edges, numbers of angles, sorting orders of equal angles and zones already there", "why_tests_cant": "Unbounded numbers of edges and angles, any overlap between edges.", "anchors": ["src/domain/board.cpp:Board::detect_diagonal_zones", "src/domain/conflict_manager.cpp:ConflictManager::add_diagonal_or_circular_zone"]}
{"id": "C68", "title": "Zone ends and sharp angles are meshed", "statement": "After solving, an angle in a zone is to be meshed along the axis of the zone exactly when it is at an end of the zone or at least the minimal angle of the zone; others are left alone. Each angle has a policy along both axes of its plane, enabled in that case.", "quantifier": "for all zones of all axes and all angles", "why_tests_cant": "Unbounded numbers of zones and angles.", "anchors": ["src/domain/conflicts/conflict_diagonal_or_circular_zone.cpp:ConflictDiagonalOrCircularZone::solve_angles", "src/domain/conflict_manager.cpp:ConflictManager::auto_solve_all_diagonal_angles", "src/domain/board.cpp:Board::detect_individual_edges"]}
{"id": "C69", "title": "Lines in a diagonal zone are as close as the zone asks", "statement": "The spacing limit of an interval whose middle is in zones is at most the limit of each, and that of any other interval is unchanged; its lines are at most that far apart.", "quantifier": "for all zones and intervals of an axis", "why_tests_cant": "Unbounded numbers of zones and intervals.", "anchors": ["src/domain/meshline_policy_manager.cpp:MeshlinePolicyManager::detect_intervals_per_diagonal_zones", "src/domain/conflicts/conflict_diagonal_or_circular_zone.cpp:ConflictDiagonalOrCircularZone::solve_intervals", "src/domain/conflicts/conflict_diagonal_or_circular_zone.cpp:ConflictDiagonalOrCircularZone::bounding"]}
{"id": "C70", "title": "An interval knows the diagonal zones it is in", "statement": "After the detection, the conflicts of an interval are those it had and all zones its middle is in.", "quantifier": "for all zones and intervals of an axis", "why_tests_cant": "Unbounded numbers of zones.", "anchors": ["src/domain/meshline_policy_manager.cpp:MeshlinePolicyManager::detect_intervals_per_diagonal_zones", "src/utils/state_management.hpp:Originator::set_state"]}
{"id": "C71", "title": "Halves and thirds are centred on their edge", "statement": "After meshing, a policy that is not one line has no line at its coordinate, and the lines next to it are at a half and a half, or a third and two thirds, of the same cell, of at most half the global maximum.", "quantifier": "for all policies asked for on an axis, all parameters in range and all sorting orders", "why_tests_cant": "Unbounded numbers of policies; the cell is shared by two intervals solved one after the other.", "anchors": ["src/domain/mesh/meshline_policy.cpp:MeshlinePolicy::MeshlinePolicy", "src/domain/mesh/interval.cpp:Interval::mesh", "src/domain/meshline_policy_manager.cpp:MeshlinePolicyManager::mesh"]}
{"id": "C72", "title": "The buttons for the next and the previous step move a cursor in the steps", "statement": "From a board on which no step was run, any presses of the two buttons run what a cursor in the fifteen steps says; a button is enabled exactly when there is a step on its side; the previous button undoes the next one.", "quantifier": "for all sequences of presses, all domains and all boards reachable without steps", "why_tests_cant": "Unbounded sequences of presses; all behaviours of the steps are covered.", "anchors": ["src/app/openemsh.cpp:OpenEMSH::go_before_previous_step", "src/app/openemsh.cpp:OpenEMSH::run_next_step", "src/app/openemsh.cpp:OpenEMSH::can_go_before", "src/app/openemsh.cpp:OpenEMSH::can_run_a_next_step"]}
{"id": "C73", "title": "The progress shown is that of the step under way", "statement": "At any moment of the execution of a step, get_current_step gives this step.", "quantifier": "for all sets of steps, all domains and all moments of their execution", "why_tests_cant": "Unbounded runs; the annotation read is that of an ancestor which depends on all timepoints made.", "anchors": ["src/app/openemsh.cpp:OpenEMSH::get_current_step", "src/app/openemsh.cpp:OpenEMSH::run"]}
{"id": "C74", "title": "The number of cells shown is the number of cells of the mesh", "statement": "get_mesh_cell_number is the number of cells between consecutive lines of the three axes.", "quantifier": "for all meshes", "why_tests_cant": "Unbounded numbers of lines; the product wraps.", "anchors": ["src/domain/meshline_policy_manager.cpp:MeshlinePolicyManager::get_mesh_cell_number"]}
{"id": "C75", "title": "The lines written are in order, each once", "statement": "Whatever the output options, the lines written for an axis are increasing, none is written twice, and those of the policies of one line are among them.", "quantifier": "for all policies asked for on an axis, all parameters in range, all sorting orders and all options", "why_tests_cant": "Unbounded numbers of policies and lines.", "anchors": ["src/infra/serializers/serializer_to_csx.cpp:SerializerToCsx::visit", "src/domain/meshline_policy_manager.cpp:MeshlinePolicyManager::get_meshline_policies_meshlines"]}
{"id": "C76", "title": "Each edge reported in polygons gets one conflict with all it was reported for", "statement": "Each edge for which an overlap is reported has exactly one edge-in-polygon conflict and no other edge has; the conflict holds, in order and each once, reported overlaps of that edge, one standing for each report.", "quantifier": "for all lists of reports, in any order", "why_tests_cant": "Unbounded lists of reports; duplicates are up to the tolerance and to the direction of the range.", "anchors": ["src/domain/conflict_manager.cpp:ConflictManager::add_edge_in_polygon", "src/domain/conflicts/conflict_edge_in_polygon.cpp:ConflictEdgeInPolygon::append"]}
{"id": "C77", "title": "The parts of an edge reported in a box are those the box covers", "statement": "For an edge along an axis and a box, the points of the reported ranges are the points of the edge in the box that are not alone; a range reported with no other edge is inside the box, its ends aside, and one reported with an edge is on this edge. Of an edge strictly inside a box the one range reported is the whole edge.", "quantifier": "for all edges along an axis in both directions, all boxes in both rotations, all coordinates that are equal or 0.0002 apart", "why_tests_cant": "Unbounded coordinates; all relative positions of the edge and the box, with tolerances.", "anchors": ["src/domain/board.cpp:Board::detect_edges_in_polygons", "src/domain/geometrics/edge.cpp:Edge::relation_to"]}
{"id": "C78", "title": "The detection of edges in polygons has no undefined behaviour", "statement": "Sorting the intersections of an edge and a polygon uses a strict weak order, and no element outside the sorted list is read.", "quantifier": "for all polygons and all edges", "why_tests_cant": "Undefined behaviour may go unseen in a test; all lists of intersections are covered.", "anchors": ["src/domain/board.cpp:Board::detect_edges_in_polygons", "src/domain/board.cpp:sort_points_by_vector_orientation"]}
{"id": "C79", "title": "Among boxes, an edge is left unmeshed only if covered by boxes that hide it", "statement": "For polygons that are boxes, the detection of edges in polygons ends; the conflict of an edge is made of overlaps found with other polygons of at least the same priority at a common height, each found overlap being registered; and each point of an edge left unmeshed by its conflict is in such a box. An edge strictly inside such a box, and strictly inside or clear of the others, is left unmeshed.", "quantifier": "for all boxes, priorities and heights, coordinates being the same or clearly apart", "why_tests_cant": "The arrangements of overlapping boxes are unbounded; it composes detection, registration and resolution.", "anchors": ["src/domain/board.cpp:Board::detect_edges_in_polygons", "src/domain/conflict_manager.cpp:ConflictManager::add_edge_in_polygon", "src/domain/conflicts/conflict_edge_in_polygon.cpp:ConflictEdgeInPolygon::auto_solve"]}
{"id": "C80", "title": "Merging moves policies no further than the proximity limit", "statement": "After the policies too close have been merged, for each policy there was, an enabled one is within the proximity limit. False: merges accumulate, and the bound that holds is the limit times the number of policies that went.", "quantifier": "for all axes, parameters and numbers of merges", "why_tests_cant": "The number of merges is unbounded, and the excess only shows after three merges in a row.", "anchors": ["src/domain/meshline_policy_manager.cpp:MeshlinePolicyManager::detect_and_solve_too_close_meshline_policies", "src/domain/conflicts/conflict_too_close_meshline_policies.cpp:ConflictTooCloseMeshlinePolicies::auto_solve"]}
{"id": "C81", "title": "A board of boxes is meshed as a whole", "statement": "On a board of boxes all the steps end without undefined behaviour; on each axis lines increase, no gap is above dmax, all lines are between wanted coordinates (fixed lines, edges to mesh); each edge is within boxes that hide it, each of its points being in one, or has a policy near, as has each fixed line, and a line within dmax of that policy unless it is alone. The policies left are further apart than the proximity limit, a line is at each one of the kind that asks for it and the lines stand around the others. An edge engulfed by boxes that hide it is left unmeshed.", "quantifier": "for all numbers of boxes on the three planes, priorities, heights, fixed lines and parameters in range; coordinates of a plane being equal or 0.0002 apart", "why_tests_cant": "Composes all the steps over unbounded boards.", "anchors": ["src/app/openemsh.cpp:OpenEMSH::run_all_steps", "src/domain/board.cpp:Board::detect_edges_in_polygons", "src/domain/board.cpp:Board::detect_individual_edges", "src/domain/board.cpp:Board::mesh"]}
{"id": "C82", "title": "A board of any polygons is meshed as a whole", "statement": "On a board of polygons with slanted edges, when the steps end the lines increase, no gap is above the greater of dmax and the dmax of zones, lines are between wanted coordinates and coordinates under slanted edges to mesh; each flat or upright edge to mesh, each fixed line and each place where slanted edges start or stop has a policy near, and a line near that one unless it is alone. The policies left are apart, with lines at or around them as their kind asks, at shares of cells not above half of dmax; edges of polygons that none hides are meshed or not as at the start. The steps end when no polygon hides another.", "quantifier": "for all polygons on the three planes, fixed lines, angles and parameters in range; flat or upright edges of a plane being on the same line or not within the tolerance", "why_tests_cant": "Composes all the steps, diagonal ones included, over unbounded boards.", "anchors": ["src/app/openemsh.cpp:OpenEMSH::run_all_steps", "src/domain/board.cpp:Board::detect_diagonal_zones", "src/domain/board.cpp:Board::detect_individual_edges", "src/domain/board.cpp:Board::detect_intervals_per_diagonal_zones", "src/domain/board.cpp:Board::mesh"]}
{"id": "C83", "title": "Lines along slanted edges are as close as asked for zones", "statement": "Two lines next to each other between which, and around which as far as merging moves policies, there are slanted edges to mesh of one plane all along, are no further apart than the dmax of diagonal zones.", "quantifier": "for all boards as in C82, all lines next to each other", "why_tests_cant": "Depends on zones, on which angles get policies, on merging and on the per-interval limits together.", "anchors": ["src/domain/board.cpp:Board::detect_diagonal_zones", "src/domain/board.cpp:Board::solve_diagonal_zones_intervals", "src/domain/conflicts/conflict_diagonal_or_circular_zone.cpp:ConflictDiagonalOrCircularZone::auto_solve", "src/domain/board.cpp:Board::mesh"]}
{"id": "C84", "title": "A file of boxes is meshed as a whole", "statement": "From a file of boxes and points the board is made, edges are adjusted to materials and all the steps end, without undefined behaviour; on each axis lines increase, no gap is above dmax and all lines are between coordinates asked for by the file or by lines kept; each side of each box, seen along each other axis, has a policy near or is within other boxes of at least the same priority; each point and each line kept has a policy near. The policies left are apart, with lines at or around them as their kind asks, at shares of cells not above half of dmax.", "quantifier": "for all files of boxes, multiboxes, points and items left out, of any property; priorities, materials, kept lines and parameters in range; coordinates of faces being equal or 0.0002 apart and boxes not flat", "why_tests_cant": "Composes the parser, the builder, all the steps and the meshing over unbounded files.", "anchors": ["src/infra/parsers/parser_from_csx.cpp:ParserFromCsx::Pimpl::parse_primitive_box", "src/domain/board.cpp:Board::Builder::build", "src/domain/board.cpp:Board::adjust_edges_to_materials", "src/app/openemsh.cpp:OpenEMSH::run_all_steps", "src/domain/board.cpp:Board::mesh"]}
{"id": "C85", "title": "A file of any shapes is meshed as a whole", "statement": "From a file of shapes not too small the polygons made have sides and their heights are in order. From such polygons, of which parallel sides seen together are at the same place or not within the tolerance, the board is made; when the steps end lines increase, no gap is above the greater of dmax and the dmax of diagonal zones, and all lines are between coordinates of added lines, of flat or upright sides or under slanted sides; each added line, each side of a polygon that no other may hide and each place where slanted sides start or stop has a policy near. The policies left are apart, with lines at or around them as their kind asks, at shares of cells not above half of dmax. The steps end, without undefined behaviour, when no polygon may hide another.", "quantifier": "for all files of boxes, multiboxes, stretched or flat polygons, balls, cylinders, curves and points, any directions around circles, materials, priorities, kept lines and parameters in range", "why_tests_cant": "Composes the parser, the builder, the adjustment to materials and all the steps over unbounded files of all the shapes read.", "anchors": ["src/infra/parsers/parser_from_csx.cpp:ParserFromCsx::Pimpl::parse_primitive_linpoly", "src/infra/parsers/parser_from_csx.cpp:ParserFromCsx::Pimpl::parse_primitive_curve", "src/domain/board.cpp:Board::Builder::build", "src/app/openemsh.cpp:OpenEMSH::run_all_steps", "src/domain/board.cpp:Board::mesh"]}
{"id": "C86", "title": "Edges are turned towards what is outside when it outranks the inside", "statement": "When the board is made, the adjustment to materials ends and changes nothing but whether edges are turned. An edge without a side is not turned. An edge with a side is turned exactly when the material found just outside it (that of the polygons met there of highest priority, and highest kind among those; the background when there are none) outranks the material of its polygon.", "quantifier": "for all lists of polygons and lines added, materials, priorities, backgrounds and sorts of equal elements", "why_tests_cant": "Unbounded numbers of polygons; the fold over all edges must leave each edge as its own adjustment made it.", "anchors": ["src/domain/board.cpp:Board::adjust_edges_to_materials", "src/domain/board.cpp:Board::Builder::build", "src/domain/board.cpp:Board::find_ambient_material"]}
{"id": "C87", "title": "The kind of the policy left where several were merged", "statement": "Where enabled policies stand at one coordinate and all the others are further than the proximity limit, merging leaves exactly one there, at that coordinate: it asks for one line when one of them did; else for halves when one of them did or when they faced both ways; else it is of thirds and faces the way they all did. When there were policies above or below that coordinate, some are left above or below.", "quantifier": "for all axes of coherent policies, any number at the coordinate, any order of the merges and any merges elsewhere", "why_tests_cant": "Any number of policies merged in any order; the result must not depend on that order.", "anchors": ["src/domain/meshline_policy_manager.cpp:MeshlinePolicyManager::detect_and_solve_too_close_meshline_policies", "src/domain/conflicts/conflict_too_close_meshline_policies.cpp:ConflictTooCloseMeshlinePolicies::auto_solve"]}
{"id": "C88", "title": "The kind and the lines where edges are alone, after all the steps", "statement": "When all the steps end, where nothing else that asks for lines is near a coordinate of an axis, exactly one policy is there, at that very coordinate, and the lines are as it asks. There is a line at a fixed coordinate and at a sheet. At edges with sides there is none: the lines next to it, towards other coordinates asked for, are at half a cell when edges left to mesh face both ways, and at a third of a cell inwards and two thirds outwards when they face one way. The cell is at most half of dmax.", "quantifier": "for all boards whose polygons have sides and whose parallel sides are at the same place or not within the tolerance, all coordinates with nothing else within the proximity limit, any parameters in range", "why_tests_cant": "Depends on the solving of colinear edges, edges in polygons, merging and meshing together, over any number of edges.", "anchors": ["src/domain/conflicts/conflict_colinear_edges.cpp:ConflictColinearEdges::auto_solve", "src/domain/board.cpp:Board::detect_individual_edges", "src/domain/meshline_policy_manager.cpp:MeshlinePolicyManager::detect_and_solve_too_close_meshline_policies", "src/domain/meshline_policy_manager.cpp:MeshlinePolicyManager::mesh", "src/app/openemsh.cpp:OpenEMSH::run_all_steps"]}
{"id": "C89", "title": "The rule of thirds, from a file of metal boxes", "statement": "From a file of metal boxes and points, over a background that is not a port, all the steps end. Where no other coordinate of a face, a point or a line kept is within the proximity limit of a coordinate of an axis: a point or a line kept there has its line; else, where a face not within other boxes is there, there is no line at it and the next lines are at half a cell on each side when there are both a lower and an upper face not within other boxes, and at a third of a cell inwards and two thirds outwards when all the boxes with a face there are on one side. The cell is at most half of dmax. The next line on a side exists when something else is shown on that side.", "quantifier": "for all files of metal boxes, multiboxes and points, priorities, kept lines, backgrounds and parameters in range; coordinates of faces being equal or 0.0002 apart and boxes not flat", "why_tests_cant": "Composes the parser, the builder, the normals of edges, the adjustment to materials, all the conflicts, the merging and the meshing.", "anchors": ["src/infra/parsers/parser_from_csx.cpp:ParserFromCsx::Pimpl::parse_primitive_box", "src/domain/board.cpp:Board::Builder::build", "src/domain/board.cpp:Board::adjust_edges_to_materials", "src/domain/board.cpp:Board::detect_individual_edges", "src/domain/board.cpp:Board::mesh"]}
{"id": "C90", "title": "The states of an object are listed once each, and are the ones it shows", "statement": "The list of the states of a registered object names each timepoint once, only live ones, none after a descendant of it; going to a timepoint of the list makes the object show the state listed there, and whatever live timepoint is gone to, the state shown is in the list.", "quantifier": "for every history reached by legal calls, every registered object and every live timepoint", "why_tests_cant": "Histories, branches and objects are unbounded.", "anchors": ["src/utils/state_management.hpp:Originator::get_available_states", "src/utils/state_management.hpp:Originator::set_state", "src/utils/state_management.hpp:Originator::erase"]}
{"id": "C91", "title": "Accepting an edition dialog", "statement": "A dialog accepted gives exactly the numbers written in its fields, and no edition at all when one of them is not a number of the kind asked for (or when the kind and the side of a policy do not go together). What a dialog shows for a number is that number up to half of its sixth significant digit, and the number itself when it has six digits at most. Hence accepting a dialog without touching it changes nothing.", "quantifier": "for every text in every field, every state shown and every number", "why_tests_cant": "Texts and numbers are unbounded.", "anchors": ["src/ui/qt/edit/edit_model.cpp:EditModel::try_to_double", "src/ui/qt/edit/edit_model.cpp:EditModel::try_to_ulong", "src/ui/qt/edit/edit_model_global.cpp:EditModelGlobal::commit", "src/ui/qt/edit/edit_model_interval.cpp:EditModelInterval::EditModelInterval", "src/ui/qt/edit/edit_model_interval.cpp:EditModelInterval::commit", "src/ui/qt/edit/edit_model_meshline_policy.cpp:EditModelMeshlinePolicy::commit", "src/ui/qt/edit/edit_model_conflict_diagonal_or_circular_zone.cpp:EditModelConflictDiagonalOrCircularZone::commit"]}
{"id": "C92", "title": "Editing an edge", "statement": "After a run, accepting the dialog of an edge unchanged gives the same edges and the same mesh when the steps are run again. Turning an edge on or off changes no other edge. An edge turned off stays off.", "quantifier": "for every board, every edge, every sorting function, and every run that ends", "why_tests_cant": "Boards are unbounded, and what happens to an edge depends on the polygons over it.", "anchors": ["src/ui/qt/edit/edit_model_edge.cpp:EditModelEdge::commit", "src/ui/qt/main_window.cpp:MainWindow::handle_edition_from", "src/domain/conflicts/conflict_edge_in_polygon.cpp:ConflictEdgeInPolygon::auto_solve", "src/domain/board.cpp:Board::detect_edges_in_polygons"]}
{"id": "C93", "title": "Editing a policy", "statement": "After a run, accepting the dialog of a mesh line policy reruns the steps that detect the intervals and mesh them. They end, the other policies keep their place, kind, normal and whether they are enabled, and the edited one is as asked for: off, or on with the lines of its kind around it at cells not larger than the distance typed. The lines increase with no gap above the limits. Accepting the dialog unchanged gives the same mesh.", "quantifier": "for every board, axis, sorting function, policy, and whatever is typed that the dialog accepts", "why_tests_cant": "What can be typed and the boards are unbounded, and that a run ends is not something a test can observe.", "anchors": ["src/ui/qt/edit/edit_model_meshline_policy.cpp:EditModelMeshlinePolicy::commit", "src/ui/qt/main_window.cpp:MainWindow::handle_edition_from", "src/domain/meshline_policy_manager.cpp:MeshlinePolicyManager::detect_intervals", "src/domain/meshline_policy_manager.cpp:MeshlinePolicyManager::mesh", "src/domain/mesh/interval.cpp:Interval::auto_solve_d", "src/app/openemsh.cpp:OpenEMSH::run"]}
{"id": "C94", "title": "Editing an interval", "statement": "After a run, accepting the dialog of an interval reruns the meshing. It ends; lines increase, gaps between the two policies of the interval are within the limit typed, and those elsewhere within the limits there were; policies keep their place and kind. Accepting the dialog unchanged gives the same mesh.", "quantifier": "for every board, axis, sorting function, interval, and whatever is typed that the dialog accepts", "why_tests_cant": "What can be typed and the boards are unbounded, and that a run ends is not something a test can observe.", "anchors": ["src/ui/qt/edit/edit_model_interval.cpp:EditModelInterval::commit", "src/ui/qt/edit/edit_model_interval.cpp:EditModelInterval::EditModelInterval", "src/ui/qt/main_window.cpp:MainWindow::handle_edition_from", "src/domain/meshline_policy_manager.cpp:MeshlinePolicyManager::mesh", "src/domain/mesh/interval.cpp:Interval::auto_solve_d", "src/domain/mesh/interval.cpp:Interval::update_ls"]}
{"id": "C95", "title": "Editing the global parameters is meshing anew", "statement": "After a run, accepting the dialog of the global parameters reruns the steps from the detection of zones on, and gives what a whole run with the parameters typed gives: edges are to be meshed as before, lines increase, gaps are within the limits typed. It ends whatever is typed that the dialog accepts. Accepting the dialog unchanged gives the same mesh.", "quantifier": "for every board, axis, sorting function, and whatever is typed that the dialog accepts", "why_tests_cant": "What can be typed and the boards are unbounded, and that a run ends is not something a test can observe.", "anchors": ["src/ui/qt/edit/edit_model_global.cpp:EditModelGlobal::commit", "src/ui/qt/edit/edit_model_global.cpp:EditModelGlobal::EditModelGlobal", "src/ui/qt/main_window.cpp:MainWindow::handle_edition_from", "src/app/openemsh.cpp:OpenEMSH::run", "src/domain/global.hpp:Params"]}
{"id": "C96", "title": "Editing a zone changes the lines in this zone only", "statement": "After a run, accepting the dialog of a zone sets the limit typed on the intervals of this zone, and meshes the angles inside it that are at least the minimal angle typed; elsewhere, and on other axes, the limits are as before. Lines increase and gaps are within the limits. It ends whatever is typed that the dialog accepts. Accepting the dialog unchanged gives the same mesh.", "quantifier": "for every board, axis, zone, sorting function, and whatever is typed that the dialog accepts", "why_tests_cant": "What can be typed and the boards are unbounded, and that a run ends is not something a test can observe.", "anchors": ["src/ui/qt/edit/edit_model_conflict_diagonal_or_circular_zone.cpp:EditModelConflictDiagonalOrCircularZone::commit", "src/ui/qt/main_window.cpp:MainWindow::handle_edition_from", "src/domain/conflicts/conflict_diagonal_or_circular_zone.cpp:ConflictDiagonalOrCircularZone::solve_angles", "src/domain/conflicts/conflict_diagonal_or_circular_zone.cpp:ConflictDiagonalOrCircularZone::solve_intervals", "src/app/openemsh.cpp:OpenEMSH::run"]}
{"id": "C97", "title": "From the window, the history frees nothing until another file is opened", "statement": "Once a file is open, whatever buttons are pressed and dialogs confirmed, no timepoint is freed: those that were live stay live, with the same ancestors and annotations, nothing the history or a registered object holds dangles, a garbage collection would free nothing, and undo, redo and previous step never fail. The board needs not care for what a collection could free.", "quantifier": "for every sequence of presses and editions after the opening of a file, whatever the board's steps do with the history", "why_tests_cant": "Sequences of undo, redo, editions and branches are unbounded, and a read of freed memory may go unnoticed.", "anchors": ["src/ui/qt/main_window.cpp:MainWindow::make_current_state_view", "src/ui/qt/main_window.cpp:MainWindow::go_to_or_make_current_state", "src/ui/qt/main_window.cpp:MainWindow::handle_edition_from", "src/ui/qt/main_window.cpp:MainWindow::parse_and_display", "src/utils/state_management.cpp:Caretaker::garbage_collector", "src/utils/state_management.cpp:Caretaker::stop_browsing_user_history", "src/utils/state_management.cpp:Caretaker::pin_current_timepoint"]}
{"id": "C98", "title": "The scene shown is that of the current timepoint and is up to date", "statement": "After each press or edition both views show the scene of the current timepoint, what is drawn of an object there is what the object reads now, a timepoint shown for the first time is drawn with all registered objects, and coming back to a timepoint shows the same scene.", "quantifier": "for every sequence of presses and editions after the opening of a file, whatever the board's steps do, for registered objects that are not destroyed", "why_tests_cant": "A scene kept from earlier is stale only after some order of undo, redo, branches and editions, of which there are infinitely many.", "anchors": ["src/ui/qt/main_window.cpp:MainWindow::go_to_or_make_current_state", "src/ui/qt/main_window.cpp:MainWindow::make_current_state_view", "src/ui/qt/structure_view/structure_view.cpp:StructureView::make_current_state", "src/ui/qt/structure_view/structure_view.cpp:StructureView::go_to_current_state", "src/ui/qt/processing_view/processing_view.cpp:ProcessingView::make_current_state", "src/ui/qt/processing_view/processing_view.cpp:ProcessingView::go_to_current_state"]}
{"id": "C99", "title": "The signals of each scene are connected once", "statement": "When every edition makes a timepoint, the scene of each timepoint kept is connected exactly once to the handler of editions, so that confirming a dialog from the scene shown edits once; opening a file starts afresh.", "quantifier": "for every sequence of presses and editions after the opening of a file", "why_tests_cant": "A second connection appears only when a timepoint already drawn is drawn again, after some order of presses.", "anchors": ["src/ui/qt/main_window.cpp:MainWindow::make_current_state_view", "src/ui/qt/main_window.cpp:MainWindow::go_to_or_make_current_state", "src/ui/qt/main_window.cpp:MainWindow::run", "src/ui/qt/main_window.cpp:MainWindow::clear"]}
{"id": "C100", "title": "Lists of lines in a file are read as the numbers written, or refused", "statement": "A list of numbers in decimal notation separated by commas, each with an optional minus sign, dot and exponent, is read as exactly these numbers in order; any other list is refused.", "quantifier": "for every text of a node of lines", "why_tests_cant": "There are infinitely many texts; the notations with exponents and without leading digits are rarely in test files, and wrong lists are rarer still.", "anchors": ["src/infra/parsers/parser_from_csx.cpp:str_to_double", "src/infra/parsers/parser_from_csx.cpp:ParserFromCsx::Pimpl::parse_grid", "src/infra/parsers/parser_from_csx.cpp:ParserFromCsx::Pimpl::parse_oemsh"]}
{"id": "C101", "title": "The face between two boxes of different materials is meshed", "statement": "Where a face of a box bounds its material (some point of it is in no other box, or only in boxes of another material), a mesh line policy is at the face or near it, whatever the priorities.", "quantifier": "for every file of boxes, every axis, all global parameters in range", "why_tests_cant": "It depends on how the boxes are placed against one another and on their priorities; the mesh looks plausible without the line.", "anchors": ["src/domain/board.cpp:Board::detect_edges_in_polygons", "src/domain/conflicts/conflict_edge_in_polygon.cpp:ConflictEdgeInPolygon::auto_solve", "src/domain/board.cpp:Board::auto_solve_all_edge_in_polygon"]}
{"id": "C102", "title": "Going back and running the steps again gives the same result", "statement": "After a run, going back before any step and running the steps again, with nothing edited in between, leaves the same angles, edges, mesh line policies, conflicts and mesh.", "quantifier": "for every board built from primitives, every axis, every step, any number of times", "why_tests_cant": "A test runs the steps once; what is left over from the run before only shows in the second run, and duplicates at one place still give the same lines.", "anchors": ["src/domain/board.cpp:Board::detect_diagonal_angles", "src/domain/board.cpp:Board::detect_diagonal_zones", "src/app/openemsh.cpp:OpenEMSH::go_before", "src/app/openemsh.cpp:OpenEMSH::run_next_step"]}
{"id": "C103", "title": "Editing an angle", "statement": "After a run, accepting the dialog of an angle runs the steps again from the conflicts of edges on: the angle is then meshed along the axes ticked and only along those, what else is meshed stays, nothing changes along an axis where the box is left as it was, and undoing the edit takes it back.", "quantifier": "for every board built from primitives with its lines apart, every axis, every angle, all global parameters in range", "why_tests_cant": "It depends on what other angles and edges ask at the same place, and on which objects follow the history; a test of the dialog sees only its rows.", "anchors": ["src/ui/qt/edit/edit_model_angle.cpp:EditModelAngle::commit", "src/domain/board.cpp:Board::detect_diagonal_angles", "src/domain/geometrics/angle.hpp:Angle", "src/ui/qt/main_window.cpp:MainWindow::handle_edition_from"]}
{"id": "C104", "title": "Editing a conflict between mesh line policies too close", "statement": "After a run, the dialog of a conflict shows whether it was taken into account; accepting it unchanged leaves the mesh as it is; unticking it keeps its two policies, each with its own lines.", "quantifier": "for every board, every axis, every conflict of a run", "why_tests_cant": "The box is stored and shown; only what a rerun does with it tells that nothing reads it.", "anchors": ["src/ui/qt/edit/edit_model_conflict_too_close_meshline_policies.cpp:EditModelConflictTooCloseMeshlinePolicies::commit", "src/domain/meshline_policy_manager.cpp:MeshlinePolicyManager::detect_and_solve_too_close_meshline_policies", "src/domain/conflict_manager.cpp:ConflictManager::add_too_close_meshline_policies", "src/domain/conflicts/conflict_too_close_meshline_policies.hpp:ConflictTooCloseMeshlinePoliciesState"]}
{"id": "C105", "title": "Inside and outside a polygon follow the even-odd rule", "statement": "For a polygon of any shape, convex or not, crossing itself or not, and any point: the question always gets an answer; it is \"on\" exactly for the points of the line; otherwise it is \"in\" when a ray from the point that goes through no corner meets an odd number of edges and \"out\" when it meets an even number, whichever ray is taken.", "quantifier": "for every list of points, every point, every direction of a ray through no corner", "why_tests_cant": "The rays are tried one after the other and each ends one unit out of the bounding box; that all the rays give the same answer is a theorem on closed lines, not something a set of polygons shows.", "anchors": ["src/domain/geometrics/polygon.cpp:Polygon::relation_to", "src/domain/geometrics/segment.cpp:Segment::relation_to", "src/domain/geometrics/polygon.cpp:detect_edges", "src/domain/geometrics/polygon.cpp:detect_bounding"]}
{"id": "C106", "title": "Points on the same side of a polygon get the same answer", "statement": "Two points joined by a segment that does not meet the closed line of a polygon are both said inside or both said outside, for polygons of any shape.", "quantifier": "for every list of points, every two points joined by a segment off the line", "why_tests_cant": "It is about all the pairs of points and the two different sets of rays tried from each; a test has some points.", "anchors": ["src/domain/geometrics/polygon.cpp:Polygon::relation_to", "src/domain/geometrics/segment.cpp:Segment::relation_to"]}
{"id": "C107", "title": "The parts of an edge in a polygon of any shape along the axes are found exactly", "statement": "Against a polygon of any shape with edges along the axes, the detection for a horizontal or vertical edge ends without undefined behaviour, and the ranges it reports together make exactly the parts of the edge in the polygon, border included. Each range ends at an end of the edge or on the line of the polygon; one reported inside is inside but for its ends; one reported along an edge of the polygon is part of that edge. An edge strictly inside is reported once, whole. An edge that is a point is reported once when strictly inside, else not at all.", "quantifier": "for all polygons along the axes, points next to each other being the same or not, with any number of corners and all horizontal and vertical edges, on a grid of 1/2500", "why_tests_cant": "The number of crossings is not bounded and touching corners, shared parts and notches combine without limit.", "anchors": ["src/domain/board.cpp:Board::detect_edges_in_polygons", "src/domain/geometrics/polygon.cpp:Polygon::relation_to", "src/domain/geometrics/segment.cpp:intersection", "src/domain/geometrics/segment.cpp:overlap"]}
{"id": "C108", "title": "Among polygons of any shape along the axes, an edge left unmeshed is covered", "statement": "Among polygons of any shape with edges along the axes the detection of edges in polygons ends without undefined behaviour; an edge then left unmeshed is covered from end to end by polygons of at least the priority of its own at a common height; an edge strictly inside such a polygon, and strictly inside or away from each other such polygon, is left unmeshed.", "quantifier": "for all numbers of polygons along the axes, with any number of corners, on a grid of 1/2500, all priorities and heights", "why_tests_cant": "The ranges of several polygons are joined one to the other in an order found by sorting; no set of boards covers the ways they can be.", "anchors": ["src/domain/board.cpp:Board::detect_edges_in_polygons", "src/domain/conflict_manager.cpp:ConflictManager::add_edge_in_polygon", "src/domain/conflicts/conflict_edge_in_polygon.cpp:ConflictEdgeInPolygon::auto_solve"]}
{"id": "C109", "title": "The whole run, from a file of shapes along the axes, ends, and each side left without a line is covered", "statement": "From a file of shapes along the axes (boxes, flat or not, prisms and polygons with any number of corners, wires, points), of any materials and overlapping in any way, the board is made and the steps end without undefined behaviour. On every axis the lines increase, none is further than dmax from the next, and all are between added lines and sides that are not sunk in polygons that may hide them. Each added line has a policy near; each side has one or is covered, from end to end, by polygons that may hide it.", "quantifier": "for all files of such shapes on a grid of 1/2500, all parameters in range, all axes", "why_tests_cant": "It is about all the ways shapes can overlap, through the file parser, the detection of the edges in polygons, the policies and the intervals; a test runs some files.", "anchors": ["src/infra/parsers/parser_from_csx.cpp:ParserFromCsx::parse", "src/domain/board.cpp:Board::detect_edges_in_polygons", "src/domain/meshline_policy_manager.cpp:MeshlinePolicyManager::detect_and_solve_too_close_meshline_policies", "src/domain/meshline_policy_manager.cpp:MeshlinePolicyManager::mesh"]}
{"id": "C110", "title": "A document is read as what it describes", "statement": "A document whose structure is at one place is read as what its nodes describe: each property has the kind of its name, with the values of its material and those of vacuum when absent, each primitive its shape, points, vertices in order, and priority; fixed lines saved beside the structure come first, then those of its grid when asked for, each multiplied by its unit, then the shapes in order. A document without structure, or with other coordinates, is refused.", "quantifier": "for all documents (trees of nodes with attributes and texts), all options of the parser", "why_tests_cant": "It is about all trees of nodes: nodes absent, in any order, several of the same name, among others; a test reads some files.", "anchors": ["src/infra/parsers/parser_from_csx.cpp:ParserFromCsx::parse", "src/infra/parsers/parser_from_csx.cpp:ParserFromCsx::Pimpl::parse_primitive", "src/infra/parsers/parser_from_csx.cpp:ParserFromCsx::Pimpl::parse_property", "src/infra/parsers/parser_from_csx.cpp:ParserFromCsx::Pimpl::parse_oemsh", "src/infra/parsers/parser_from_csx.cpp:ParserFromCsx::Pimpl::parse_grid"]}
{"id": "C111", "title": "The whole program writes the document it read with a grid of the lines asked for", "statement": "A run of the program that fails changes no file; a run changes no other file than its output, and without --force changes none that exists. The document written is the one read but for its grid and for the parameters saved beside the structure. From a document of shapes along the axes and parameters in range, the program ends and writes the output, and the grid written for each axis lists the lines of the mesh within half a millionth, in order, none further than dmax and a millionth from the next, with every line added and every side not covered within reach of a line of policy.", "quantifier": "for all documents, options, files present, and all sorts consistent with their orders; the last part for all documents of such shapes on a grid of 1/2500", "why_tests_cant": "It joins the command line, the parser, the steps, the output and the file; a test runs some documents with some options.", "anchors": ["src/main.cpp:main", "src/app/openemsh.cpp:OpenEMSH::parse", "src/app/openemsh.cpp:OpenEMSH::run_all_steps", "src/app/openemsh.cpp:OpenEMSH::write", "src/app/openemsh.cpp:OpenEMSH::is_about_overwriting", "src/infra/serializers/serializer_to_csx.cpp:SerializerToCsx::visit"]}
{"id": "C112", "title": "The program run again on what it wrote writes the same document", "statement": "After a run of the program, a run with the same options whose input is the output of the first, to another file, ends and writes the same document.", "quantifier": "for all documents with their structure at one place, all options, all shapes, all files present, whenever the first run ends", "why_tests_cant": "It compares two whole runs for all documents and options; a test compares some.", "anchors": ["src/main.cpp:main", "src/app/openemsh.cpp:OpenEMSH::write", "src/infra/serializers/serializer_to_csx.cpp:SerializerToCsx::visit", "src/infra/parsers/parser_from_csx.cpp:ParserFromCsx::Pimpl::parse_oemsh"]}
{"id": "C113", "title": "A run whose options the command line accepts ends", "statement": "With any options the command line accepts, the program ends on every document, and writes its output when nothing refuses it.", "quantifier": "for all documents of shapes along the axes on a grid of 1/2500, all options accepted, all parameters saved in the document", "why_tests_cant": "Not ending is about all steps of a loop; and the values are from a continuum, on the command line and in the file.", "anchors": ["src/ui/cli/cli.cpp:cli", "src/ui/cli/cli.cpp:BoundExclusiveInclusive", "src/main.cpp:main", "src/domain/mesh/interval.cpp:find_ls", "src/infra/parsers/parser_from_csx.cpp:ParserFromCsx::Pimpl::parse_oemsh"]}
{"id": "C114", "title": "Undo takes back the last thing clicked in the window", "statement": "After a click, or the confirmation of a dialog, that makes the window show another timepoint, Undo is enabled and shows the timepoint shown before, with the same scenes, and Redo then shows again the one shown after.", "quantifier": "for all sequences of clicks and editions since a file was opened, whatever the steps and the editions do to the board", "why_tests_cant": "The clicks combine without bound, and the fault needs four of them in an order a tester has no reason to try.", "anchors": ["src/ui/qt/main_window.cpp:MainWindow::on_a_undo_triggered", "src/ui/qt/main_window.cpp:MainWindow::on_a_mesh_prev_triggered", "src/ui/qt/main_window.cpp:MainWindow::handle_edition_from", "src/utils/state_management.cpp:Caretaker::go_and_remember", "src/utils/state_management.cpp:Caretaker::remember_current_timepoint", "src/utils/state_management.cpp:Caretaker::undo"]}
{"id": "C115", "title": "A navigation button is enabled exactly when it does something", "statement": "Whatever was clicked since a file was opened, updating the buttons never fails; Undo, Redo and Previous are enabled exactly when pressing them would show another timepoint, Next exactly when pressing it would execute a step; after a refused file none of them does anything.", "quantifier": "for all sequences of clicks and editions since a file was opened, whatever the steps and the editions do to the board", "why_tests_cant": "Enabling is computed apart from what the press does, from a history that the clicks shape without bound.", "anchors": ["src/ui/qt/main_window.cpp:MainWindow::update_navigation_buttons_visibility", "src/ui/qt/main_window.cpp:MainWindow::update_board_dependant_buttons_visibility", "src/app/openemsh.cpp:OpenEMSH::can_run_a_next_step", "src/app/openemsh.cpp:OpenEMSH::can_go_before", "src/utils/state_management.cpp:Caretaker::can_undo", "src/utils/state_management.cpp:Caretaker::can_redo"]}
{"id": "C116", "title": "In the dialog of a meshline policy, the normal follows the policy", "statement": "In the dialog of a meshline policy whose kind and normal go together (THIRDS with MIN or MAX, ONELINE or HALFS with NONE), whatever cells are edited, the new kind and normal go together and the normal is editable when THIRDS is chosen; and each pair that goes together can be chosen, from any other. With the screen up to date, choosing ONELINE or HALFS leaves no normal and none to edit, choosing THIRDS keeps the normal or gives MIN when there was none, and the old column, the box and the number are left alone.", "quantifier": "for all meshline policies and all sequences of items painted, editors opened, choices taken, editors left or abandoned", "why_tests_cant": "Which cell is corrected depends on which cell was painted last, that is on the moves of the mouse; tests of the model do not paint.", "anchors": ["src/ui/qt/edit/edit_delegate.cpp:EditDelegate::createEditor", "src/ui/qt/edit/edit_delegate.cpp:EditDelegate::setEditorData", "src/ui/qt/edit/edit_delegate.cpp:EditDelegate::setModelData", "src/ui/qt/edit/edit_delegate.cpp:EditDelegate::paint", "src/ui/qt/edit/edit_model_meshline_policy.cpp:EditModelMeshlinePolicy::commit"]}
{"id": "C117", "title": "The column of old values of a dialog keeps the old values", "statement": "In the dialog of a meshline policy, whatever cells are edited, the column of old values shows the kind and the normal the policy has, and cannot be edited.", "quantifier": "for all meshline policies and all sequences of items painted, editors opened, choices taken, editors left or abandoned", "why_tests_cant": "The delegate remembers the last cell painted of a type, and both columns hold cells of that type.", "anchors": ["src/ui/qt/edit/edit_delegate.cpp:EditDelegate::setModelData", "src/ui/qt/edit/edit_delegate.cpp:EditDelegate::paint", "src/ui/qt/edit/edit_model.hpp:EditModel::make_row"]}
{"id": "C118", "title": "The dialog of a meshline policy meets no undefined behaviour and gives no policy that does not hold together", "statement": "Whatever is painted, opened, chosen, left or abandoned in the dialog of a meshline policy, no unreachable code nor access outside of an array is met, accepting included; what accepting gives, if anything, is a policy whose kind and normal go together, at the same coordinate, from the detection of intervals on. With no editor open it gives exactly the policy the new column holds, provided its kind and normal go together and its number can be read. Accepted at once it gives the policy as it was, but for the digits of the number. With the screen up to date, an editor opened and left with nothing chosen changes neither the kind nor the normal edited, and each normal can be chosen for thirds, in the new column only.", "quantifier": "for all meshline policies and all sequences of items painted, editors opened, choices taken, editors left or abandoned", "why_tests_cant": "The index shown by an editor comes from the data, from a text painted earlier and from the user, in any order.", "anchors": ["src/ui/qt/edit/edit_delegate.cpp:key", "src/ui/qt/edit/edit_delegate.cpp:EditDelegate::setEditorData", "src/ui/qt/edit/edit_delegate.cpp:EditDelegate::setModelData", "src/ui/qt/edit/edit_dialog.cpp:EditDialog::on_dbb_ok_accepted"]}
{"id": "C119", "title": "A line asked for is in the mesh at its very place", "statement": "Each line that the document or the command line asks for is in the mesh at its very coordinate, and in the grid written up to half a millionth, however near the sides of the shapes are. This holds when no other line asked for, no side of a shape that encloses no area and no slanted side is within the proximity limit of it; in general it is false, as lines asked for that are near each other are replaced by their middle.", "quantifier": "for all documents of shapes along the axes on a grid, all lines asked for and all parameters in range; for the run itself, for all boards and for sheets too; for the merging, for all sets of policies", "why_tests_cant": "Whether a line survives depends on every merge, each of which makes a policy that may be near another one.", "anchors": ["src/domain/conflicts/conflict_too_close_meshline_policies.cpp:ConflictTooCloseMeshlinePolicies::auto_solve", "src/domain/meshline_policy_manager.cpp:MeshlinePolicyManager::detect_and_solve_too_close_meshline_policies", "src/domain/board.cpp:Board::add_fixed_meshline_policies"]}
{"id": "C120", "title": "The wires of the processing view are the origins of the objects", "statement": "Filling the processing view from a board ends without an index out of range, draws no wire twice, and each wire goes from an output port to an input port that the two nodes have. Two nodes are joined by a wire exactly when both objects are on the board and the second holds the first as something it comes from (the conflict that settled an edge, the sides of an angle, the edges of a conflict, the polygons over an edge, the angles of a zone, the policies merged, the origins of a policy, the zones and policies around an interval, the interval or policy of a meshline). Two objects enter a node at the same port only if they are angles of one zone or zones of one interval.", "quantifier": "for all boards, whatever the objects and their origins, provided the origins of policies are of the kinds the code passes to add_meshline_policy", "why_tests_cant": "A wire missing, doubled or reversed shows only on the boards that have objects of the two kinds, in the order in which the nodes are made.", "anchors": ["src/ui/qt/processing_view/processing_scene.cpp:ProcessingScene::wire_to_destination_first_output_port", "src/ui/qt/processing_view/processing_view.cpp:ProcessingView::populate", "src/ui/qt/utils/nodegraph/port.cpp:Port::is_wired_to"]}
{"id": "C121", "title": "The chain of a node is all it comes from and all that comes from it", "statement": "The walk over the wires from a node ends, even where wires would make a cycle, and the chain it returns is exactly the nodes the object comes from through any number of wires, and the nodes that come from it; cousins (what comes from the same origin) are not in it.", "quantifier": "for all boards and all nodes", "why_tests_cant": "The depth of the walk depends on the merges of policies, and its end on the nodes already visited.", "anchors": ["src/ui/qt/utils/nodegraph/node.cpp:Node::get_chain", "src/ui/qt/utils/nodegraph/node.cpp:Node::traverse_up", "src/ui/qt/utils/nodegraph/node.cpp:Node::traverse_down", "src/ui/qt/utils/nodegraph/port.cpp:Port::traverse"]}
{"id": "C122", "title": "What is highlighted is what is related to the selection", "statement": "After any sequence of selections, unselections and clicks with or without the control key, the selected nodes are those the events ask for; a node is highlighted exactly when some selected node is related to it; its ports and texts have its state; and a wire is drawn highlighted exactly when both its ends are selected or highlighted.", "quantifier": "for all boards and all sequences of events about nodes of the scene", "why_tests_cant": "A highlight is shared by all the selected nodes related to it: an error in what is remembered shows only when they are unselected in some order.", "anchors": ["src/ui/qt/utils/nodegraph/node.cpp:Node::itemChange", "src/ui/qt/utils/nodegraph/node.cpp:Node::mouseReleaseEvent", "src/ui/qt/utils/nodegraph/highlightable.cpp:Highlightable::set_highlighted", "src/ui/qt/utils/nodegraph/wire.cpp:Wire::paint"]}
{"id": "C123", "title": "What the processing view shows in each display mode", "statement": "After any presses, clicks, selections from the structure view and changes of mode, plane and axes, the processing view is in the mode asked for last; what is selected is visible; and what is visible is: every node in the mode everything; exactly the selected nodes, all that is related to them and the containers around in the mode selected chain; at least what the structure view draws in the mode structure view, and exactly that when it was just asked for, the selected nodes that are still visible staying selected. Each press, click or selection from the structure view changes the selection as it asks, though the scene hides, shows and selects its nodes again at each signal. The axes shown are those whose lines are visible in the structure view for each of the four mesh buttons.", "quantifier": "for all boards and all sequences of actions", "why_tests_cant": "The scene reacts to the signals that its own reaction emits: the order of these nested reactions depends on the nodes selected and on where they are.", "anchors": ["src/ui/qt/processing_view/processing_scene.cpp:ProcessingScene::set_display_mode", "src/ui/qt/processing_view/processing_scene.cpp:ProcessingScene::display_selected_chain", "src/ui/qt/processing_view/processing_scene.cpp:ProcessingScene::display_structure_view", "src/ui/qt/processing_view/processing_scene.cpp:ProcessingScene::on_selectionChanged", "src/ui/qt/processing_view/processing_scene.cpp:ProcessingScene::select_counterparts", "src/ui/qt/utils/nodegraph/node.cpp:Node::show_after_parents", "src/ui/qt/structure_view/structure_scene.cpp:StructureScene::set_mesh_visibility"]}
{"id": "C124", "title": "Asking for the selected chain keeps the selection", "statement": "Asking for the mode selected chain keeps what is selected and highlighted, and then shows exactly it. This holds when each selected node is in the chain of each other (so when at most one is selected); in general it is false: of several selected nodes that have nothing in common, only the first of the scene is kept.", "quantifier": "for all boards and all scenes that any actions come to", "why_tests_cant": "It takes several selected nodes that are not related and a change of mode; with one node nothing is lost.", "anchors": ["src/ui/qt/processing_view/processing_scene.cpp:ProcessingScene::set_display_mode", "src/ui/qt/processing_view/processing_scene.cpp:ProcessingScene::display_selected_chain", "src/ui/qt/processing_view/processing_scene.cpp:ProcessingScene::on_selectionChanged"]}
{"id": "C125", "title": "What the window saves is the document shown", "statement": "During a session of the window (started with or without a file, files opened, refused, the board edited, saved, saved under a name, given to AppCSXCAD), a save writes one file only, the output chosen last or else the file opened, and that file then holds the text of the file the shown document was opened from, with the mesh shown; opening and editing write nothing; without a document nothing is written. This is false when closing: after a refused file no document is shown, yet closing asks whether to save, and writes the mesh of the previous document into the refused file, or replaces the first document by the refused file with that mesh.", "quantifier": "for all sequences of actions, all answers of the user, all contents of the disk, other programs writing files included", "why_tests_cant": "It takes a file that is refused after one that was accepted, and then closing the window with Save; the loss shows up in the file, not in the window.", "anchors": ["src/ui/qt/main_window.cpp:MainWindow::parse_and_display", "src/ui/qt/main_window.cpp:MainWindow::on_a_file_open_triggered", "src/ui/qt/main_window.cpp:MainWindow::on_a_file_save_triggered", "src/ui/qt/main_window.cpp:MainWindow::on_a_file_save_as_triggered", "src/ui/qt/main_window.cpp:MainWindow::save_csx_file", "src/ui/qt/main_window.cpp:MainWindow::on_a_appcsxcad_triggered", "src/ui/qt/main_window.cpp:MainWindow::closeEvent", "src/app/openemsh.cpp:OpenEMSH::parse", "src/app/openemsh.cpp:OpenEMSH::write"]}
{"id": "C126", "title": "A document is only dropped without a question if it is saved in the file the window names", "statement": "While no other program writes files, a document that the window does not consider as unsaved is in some file with the mesh shown, and closing then asks nothing and changes nothing; when it is unsaved closing asks, and cancelling keeps everything; a document just opened or edited is unsaved. It is false that the file is the one the window names (a Save as whose overwriting is declined renames the window's file all the same), and that nothing unsaved is dropped (opening another file never asks).", "quantifier": "for all sequences of actions, all answers of the user and all contents of the disk", "why_tests_cant": "It depends on the answers to several message boxes in a row, and on what was saved before.", "anchors": ["src/ui/qt/main_window.cpp:MainWindow::on_a_file_open_triggered", "src/ui/qt/main_window.cpp:MainWindow::on_a_file_save_triggered", "src/ui/qt/main_window.cpp:MainWindow::on_a_file_save_as_triggered", "src/ui/qt/main_window.cpp:MainWindow::save_csx_file", "src/ui/qt/main_window.cpp:MainWindow::closeEvent", "src/ui/qt/main_window.cpp:MainWindow::handle_edition_from"]}
{"id": "C127", "title": "The buttons that are checked say what is shown", "statement": "While a document is shown, the plane button checked is the plane shown and the wire button the style of the wires of every timepoint, whatever was done before; that the mesh and display mode buttons say what the views show is kept by every click, key, edition, undo and redo; a click in a group, or going back to a timepoint, makes it so. PageUp and PageDown go round the three planes, inversely of each other. It is false after opening another file: the mesh is shown whole and the mode is the selected chain, whatever the buttons say.", "quantifier": "for all sequences of clicks, keys, editions, navigations and files", "why_tests_cant": "Each timepoint keeps its own mesh visibility and mode, so that the buttons have to follow navigation; tests on one document never open a second one.", "anchors": ["src/ui/qt/main_window.cpp:MainWindow::update_show_buttons_pressing", "src/ui/qt/main_window.cpp:MainWindow::make_current_state_view", "src/ui/qt/main_window.cpp:MainWindow::go_to_current_state", "src/ui/qt/main_window.cpp:MainWindow::go_to_or_make_current_state", "src/ui/qt/main_window.cpp:MainWindow::keyPressEvent", "src/ui/qt/main_window.cpp:MainWindow::parse_and_display", "src/ui/qt/main_window.cpp:MainWindow::clear", "src/ui/qt/structure_view/structure_view.cpp:StructureView::make_current_state", "src/ui/qt/structure_view/structure_view.cpp:StructureView::go_to_current_state", "src/ui/qt/structure_view/structure_view.cpp:StructureView::set_mesh_visibility", "src/ui/qt/processing_view/processing_view.cpp:ProcessingView::make_current_state", "src/ui/qt/processing_view/processing_view.cpp:ProcessingView::go_to_current_state", "src/ui/qt/processing_view/processing_view.cpp:ProcessingView::set_wire_style"]}
{"id": "C128", "title": "The processing view restricted to the structure view is told its plane and axes", "statement": "The processing view was told the plane that the structure view shows and the axes of the lines that it shows. This is kept by whatever is done with the document without going back to a timepoint already seen, and is so once a plane, or mesh, button was clicked; a timepoint shown for the first time, and a file opened, is told the plane; a file opened is told the right axes exactly when the last mesh button clicked was that of the whole mesh. It is false after going back to a timepoint: its scene keeps the plane it was told, and a timepoint made next is told the axes of the mesh button clicked last elsewhere.", "quantifier": "for all sequences of clicks, keys, editions, navigations and files", "why_tests_cant": "The plane is shared by the timepoints in one view and kept per timepoint in the other: only going back after changing the plane shows it.", "anchors": ["src/ui/qt/main_window.cpp:MainWindow::on_tb_plane_xy_clicked", "src/ui/qt/main_window.cpp:MainWindow::on_tb_plane_yz_clicked", "src/ui/qt/main_window.cpp:MainWindow::on_tb_plane_zx_clicked", "src/ui/qt/main_window.cpp:MainWindow::on_tb_show_all_mesh_clicked", "src/ui/qt/main_window.cpp:MainWindow::on_tb_show_no_mesh_clicked", "src/ui/qt/main_window.cpp:MainWindow::go_to_current_state", "src/ui/qt/structure_view/structure_view.cpp:StructureView::set_display_plane", "src/ui/qt/structure_view/structure_view.cpp:StructureView::set_mesh_visibility", "src/ui/qt/processing_view/processing_view.cpp:ProcessingView::set_display_plane", "src/ui/qt/processing_view/processing_view.cpp:ProcessingView::set_display_view_axes", "src/ui/qt/processing_view/processing_view.cpp:ProcessingView::make_current_state", "src/ui/qt/processing_view/processing_view.cpp:ProcessingView::go_to_current_state"]}
{"id": "C129", "title": "No button or key of the window fails", "statement": "Whatever was clicked, pressed, edited, undone, opened or refused before, every button, key and navigation ends without an exception. It is false of Fit, which is never disabled and throws std::out_of_range whenever no document is shown; it holds of all the others, and of Fit while a document is shown.", "quantifier": "for all sequences of clicks, keys, editions, navigations and files, refused ones included", "why_tests_cant": "The views look their scenes up with std::map::at: what is in the map depends on the whole session, and on which buttons were disabled.", "anchors": ["src/ui/qt/main_window.cpp:MainWindow::on_a_fit_triggered", "src/ui/qt/main_window.cpp:MainWindow::update_board_dependant_buttons_visibility", "src/ui/qt/main_window.cpp:MainWindow::keyPressEvent", "src/ui/qt/structure_view/structure_view.cpp:StructureView::get_current_state", "src/ui/qt/structure_view/structure_view.cpp:StructureView::fit", "src/ui/qt/processing_view/processing_view.cpp:ProcessingView::get_current_state", "src/ui/qt/processing_view/processing_view.cpp:ProcessingView::fit"]}
{"id": "C130", "title": "The state diagram is well formed and joins what the board joins", "statement": "Of a board whose objects have numbers of their own and whose pointers are to its objects, the PlantUML text declares no name twice, and declares exactly the planes, the axes, the objects and their pins; it draws an arrow between two of them exactly where the board joins them (an edge and its conflicts, a conflict and its solution, a policy and the edge it comes from, an interval and its two policies, a line and what it comes from); both ends of every arrow are declared; the braces match and the text begins with @startuml and ends with @enduml. This is false when the name of a polygon, which is free text of the file, has a quote: the polygon is then not declared. It holds for names with neither quotes nor ends of lines.", "quantifier": "for all boards, of any number of objects, and for any order std::sort leaves equal policies in", "why_tests_cant": "Names are built by appending suffixes to numbers, so that whether two of them can be equal (12 with pin 3, 1 with pin 23) is a question over all numbers; a test compares one text with one expected text.", "anchors": ["src/infra/serializers/serializer_to_plantuml.cpp:SerializerToPlantuml::run", "src/infra/serializers/serializer_to_plantuml.cpp:SerializerToPlantuml::visit", "src/infra/serializers/serializer_to_plantuml.cpp:SerializerToPlantuml::dump", "src/infra/utils/to_string.cpp:to_string", "src/utils/entity.cpp:Entity", "src/infra/parsers/parser_from_csx.cpp:ParserFromCsx::Pimpl::parse_primitive"]}
{"id": "C131", "title": "On the terminal the progress never goes down and ends at its maximum", "statement": "Of each loop that has a progress bar, the progress shown on the terminal never goes down and is its maximum when the loop ends, and where a number found is shown too it never goes down and ends at the number of things found. This holds of the adjusting of edges, of edges in polygons, of colinear and of individual edges, of the primitives parsed, of policies too close, of intervals per diagonal zones and of conflicts solved; of diagonal zones unless there is exactly one angle; of intervals unless there is exactly one policy; of the mesh unless there is nothing to mesh. It is false of fixed policies, whose progress ends at one more than its maximum, and of diagonal angles, whose progress ends short of its maximum as soon as a polygon has more than three edges.", "quantifier": "for all numbers of polygons, edges, angles, zones, policies, intervals and conflicts, and whatever is found among them", "why_tests_cant": "The maximum is a formula computed before the loop (a number of pairs, a square) and the progress is counted by nested loops which skip some of the pairs; that both agree is a fact about all sizes.", "anchors": ["src/domain/board.cpp:Board::adjust_edges_to_materials", "src/domain/board.cpp:Board::detect_diagonal_angles", "src/domain/board.cpp:Board::detect_edges_in_polygons", "src/domain/board.cpp:Board::detect_colinear_edges", "src/domain/board.cpp:Board::detect_individual_edges", "src/domain/board.cpp:Board::detect_diagonal_zones", "src/domain/board.cpp:Board::add_fixed_meshline_policies", "src/domain/meshline_policy_manager.cpp:MeshlinePolicyManager::detect_and_solve_too_close_meshline_policies", "src/domain/meshline_policy_manager.cpp:MeshlinePolicyManager::detect_intervals", "src/domain/meshline_policy_manager.cpp:MeshlinePolicyManager::detect_intervals_per_diagonal_zones", "src/domain/meshline_policy_manager.cpp:MeshlinePolicyManager::mesh", "src/infra/parsers/parser_from_csx.cpp:ParserFromCsx::parse", "src/ui/cli/progress.cpp:ProgressBar::tick"]}
{"id": "C132", "title": "The window shows the progress the terminal shows", "statement": "After each tick the bar of the window shows what the terminal shows. This holds of progress told by one number below its maximum: conflicts solved, intervals detected, the mesh. It is false of progress told by two numbers: the window adds one to the second, so it is one ahead and full while one edge is left; values beyond the maximum are ignored, so with two polygons or more the window ends at n*n - n + 1 of n*n while edges in polygons are detected, and shows nothing of a single primitive.", "quantifier": "for all numbers of polygons, edges, primitives, conflicts, policies and intervals, at every tick", "why_tests_cant": "No test looks at the bars; the two implementations of the same interface differ only in what they count from, which shows in the numbers and not in a result.", "anchors": ["src/ui/cli/progress.cpp:ProgressBar::tick", "src/ui/qt/progress.cpp:ProgressBar::tick", "src/utils/progress.cpp:Progress::Bar::tick", "src/domain/board.cpp:Board::adjust_edges_to_materials", "src/domain/board.cpp:Board::detect_edges_in_polygons", "src/domain/board.cpp:Board::detect_individual_edges", "src/infra/parsers/parser_from_csx.cpp:ParserFromCsx::parse"]}
{"id": "C133", "title": "The bar of the terminal and its texts are a hundred columns wide", "statement": "Of each message, at each step, the text before the bar, the bar, the percentage with the time, and the text after the bar are together a hundred columns wide, as long as the numbers shown have at most ten digits. The width of the bar is an unsigned subtraction, so with eleven digits it is false: the width wraps to more than 2^63.", "quantifier": "for all messages of the program, all steps, and all numbers of at most ten digits", "why_tests_cant": "The subtraction wraps only for the longest message with numbers of eleven digits, which no test reaches; that nothing shorter wraps needs the length of every message and of every number.", "anchors": ["src/ui/cli/progress.cpp:bar_width", "src/ui/cli/progress.cpp:ProgressBar::tick", "src/main.cpp:main", "src/app/steps.hpp:index"]}
{"id": "C134", "title": "The structure view shows every object of the board once, at its place", "statement": "When the scene of a plane is filled, it holds exactly one item for each polygon, edge and angle of the plane and for each mesh line, policy, interval and conflict of the two axes of the plane, and nothing else; filling it is undefined behaviour exactly if a polygon has no point, a colinear conflict no edge, a diagonal zone no angle or a conflict of too close policies no solution. Each item is at the coordinates of its object: mesh lines, policies and conflicts are lines from one end of the picture to the other at their coordinate along their axis, intervals and zones are strips, and each is in the group of lines the buttons for horizontal or vertical lines show and hide. This is false of colinear conflicts seen from the other plane of their axis: the line is drawn at another coordinate of the edge.", "quantifier": "for all boards, all pictures and the three planes", "why_tests_cant": "The scenes are only looked at; that no object is missing, drawn twice or drawn along the wrong axis in one of the three planes is a fact about every board and plane.", "anchors": ["src/ui/qt/structure_view/structure_view.cpp:StructureView::populate", "src/ui/qt/structure_view/structure_scene.cpp:StructureScene::add", "src/ui/qt/structure_view/structure_conflict_colinear_edges.cpp:convert", "src/ui/qt/structure_view/structure_meshline.cpp:convert"]}
{"id": "C135", "title": "The lines drawn around a policy are lines of the mesh", "statement": "Once an axis is meshed, the item of a policy has three lines: at the coordinate of the policy and at the nearest lines of the mesh on each side of it, or all three at the policy if it asks for one line. What holds: the two lines are on each side of the policy, no line of the mesh is between them except at the policy itself, at least one of them is a line of the mesh as soon as there is another policy, and at the two ends of the axis the outer one is not. It is false between two policies in general: the distance the lines are drawn at is the one left by the interval solved last, and one side was meshed with a larger one.", "quantifier": "for all separated policies with positive distances, in-range parameters, and all pictures", "why_tests_cant": "The distance of a policy is shared by the two intervals beside it and changed while they are solved in turn; whether the drawn lines coincide with mesh lines depends on the numbers of all the neighbours.", "anchors": ["src/ui/qt/structure_view/structure_meshline_policy.cpp:convert_policy_lines", "src/domain/mesh/interval.cpp:Interval::auto_solve_d", "src/domain/meshline_policy_manager.cpp:MeshlinePolicyManager::mesh"]}
{"id": "C136", "title": "A selection in one view is the selection in all views", "statement": "Whatever is pressed, selected, shown or hidden in the processing view and the three planes of the structure view, the scenes telling each other of their selections come to an end, and none is left refusing what it is told. After an action that changes the selection of the view it is done in, the processing view has that selection, and in each plane exactly the items of it that the plane draws and that are visible are selected; other actions change no selection. That the views agree at any time is false: lines selected in another view while they were hidden are not selected when they are shown.", "quantifier": "for all sequences of actions, all boards and all display modes", "why_tests_cant": "Each scene calls the others when its selection changes, and they call it back; only two flags stop the recursion, and each of many intermediate selections is told in turn. No test covers the window.", "anchors": ["src/ui/qt/processing_view/processing_scene.cpp:ProcessingScene::on_selectionChanged", "src/ui/qt/processing_view/processing_scene.cpp:ProcessingScene::select_counterparts", "src/ui/qt/structure_view/structure_scene.cpp:StructureScene::on_selectionChanged", "src/ui/qt/structure_view/structure_scene.cpp:StructureScene::select_counterparts", "src/ui/qt/main_window.cpp:MainWindow::make_current_state_view"]}
{"id": "C137", "title": "Hiding lines of the mesh unselects these lines only", "statement": "When other lines of the mesh are visible in a plane, what is hidden there is unselected everywhere and the rest of the selection stays. It holds if no hidden item is selected, and if all that is selected is seen in that plane. It is false in general: the plane tells what is left of its selection, so things selected that are not drawn in that plane are unselected too.", "quantifier": "for all sequences of actions before it, all boards and all choices of visible lines", "why_tests_cant": "It takes a selection of things of different planes and a change of the lines shown; no test covers the window.", "anchors": ["src/ui/qt/structure_view/structure_scene.cpp:StructureScene::set_mesh_visibility", "src/ui/qt/structure_view/structure_scene.cpp:StructureScene::on_selectionChanged", "src/ui/qt/processing_view/processing_scene.cpp:ProcessingScene::select_counterparts"]}
{"id": "C138", "title": "Fitting a container places what it contains without overlap, in the smallest zone", "statement": "When a shown container of the processing view is fitted, its visible nodes are inside its zone with the margins left free on the four sides; each column is wholly on the right of those before it, the margin between them; in a column the nodes are aligned, in the order they were added, each below the one before it with at least the margin between them. No smaller zone can hold the nodes in these columns and in this order. In a column the nodes are packed on the top, packed on the bottom, spread from margin to margin, or spread with the same space above, between and below them, as the spacing says. A hidden container and hidden nodes do not move.", "quantifier": "for all lists of nodes, all sizes, columns and visibilities, all margins and the four spacings", "why_tests_cant": "The sizes come from fonts and texts and the numbers of nodes from the board; no test covers the window, and an overlap shows only on the screen.", "anchors": ["src/ui/qt/utils/nodegraph/container.cpp:Container::fit", "src/ui/qt/utils/nodegraph/container.cpp:Container::visible_contained_items", "src/ui/qt/utils/nodegraph/node.cpp:Node::itemChange"]}
{"id": "C139", "title": "The containers of the processing scene do not touch, and the scene shows all of them", "statement": "When the scene is arranged, the visible planes are at its left, one below the other, and the visible axes on their right, one below the other; no two of them touch. Planes are at the abscissa 0, axes 1000 on the right of the widest visible plane, and 100 separates each visible one from the next; hidden ones stay. The rectangle of the scene holds every visible container with a twentieth of the smallest side of what they take around it, and is no larger.", "quantifier": "for all sizes and visibilities of the containers", "why_tests_cant": "It depends on the sizes of the containers and on which are hidden; no test covers the window.", "anchors": ["src/ui/qt/processing_view/processing_scene.cpp:ProcessingScene::fit_scene", "src/ui/qt/processing_view/processing_scene.cpp:ProcessingScene::fit", "src/ui/qt/processing_view/processing_scene.cpp:ProcessingScene::visible_items_bounding_rect"]}
{"id": "C140", "title": "In an axis of the processing view every wire goes to the right", "statement": "The recursions that give the columns of the policies and of the conflicts between them end for every board; what comes from an object shown in an axis is in a column of greater number, however long the chain of conflicts and policies; and once the axis is fitted, the node a wire leaves is wholly on the left of the node it enters, the margin between them.", "quantifier": "for all boards whose policies and conflicts were made one after the other, fewer than 2^62 of them, all sizes and all spacings", "why_tests_cant": "Two recursions that call neither each other count the two kinds of nodes; that their numbers interleave depends on chains of any length. No test covers the window.", "anchors": ["src/ui/qt/processing_view/processing_axis.cpp:ProcessingAxis::ProcessingAxis", "src/ui/qt/processing_view/processing_meshline_policy.cpp:ProcessingMeshlinePolicy::count_mlp_tcmlp_deepness", "src/ui/qt/processing_view/processing_conflict_too_close_meshline_policies.cpp:ProcessingConflictTooCloseMeshlinePolicies::count_tcmlp_mlp_deepness", "src/ui/qt/utils/nodegraph/container.cpp:Container::fit"]}
{"id": "C141", "title": "The parser says all that it leaves out of a document", "statement": "Each property that gives no material and each primitive of a material that is not read, be it moved or of an unsupported kind, is named in a warning with its kind, each kind and each name once, in order; nothing else is, and there is no warning when nothing is left out. No two primitives have the same name there. What is left out might as well not be in the document: the same is read without it. The progress bar counts the primitives read and those seen.", "quantifier": "for all documents, all properties and primitives in them", "why_tests_cant": "Tests read documents made of supported kinds; a kind never heard of, as a later CSXCAD may write, has to be thought of.", "anchors": ["src/infra/parsers/parser_from_csx.cpp:ParserFromCsx::parse", "src/infra/parsers/parser_from_csx.cpp:ParserFromCsx::Pimpl::parse_property", "src/infra/parsers/parser_from_csx.cpp:ParserFromCsx::Pimpl::parse_primitive", "src/infra/parsers/parser_from_csx.cpp:ParserFromCsx::Pimpl::warn_unsupported_property", "src/infra/parsers/parser_from_csx.cpp:ParserFromCsx::Pimpl::warn_unsupported_primitive"]}
{"id": "C142", "title": "In the window an answer is one of those offered, and each can be given", "statement": "With the window, a message with something to answer is shown in a box whose buttons are exactly the answers offered; whatever button is taken the answer is one of them, and each of them can be given. A message with nothing to answer gets no answer, and without the window nothing is asked: every answer is NOTHING.", "quantifier": "for all messages, all users, all identifiers of the sinks", "why_tests_cant": "The answers go through two tables and a set of flags, and the answer kept is that of the interactive sink among several; tests cover no sink.", "anchors": ["src/ui/qt/logger.cpp:LoggerSink::log", "src/ui/qt/logger.cpp:from_qt", "src/ui/qt/logger.cpp:to_qt", "src/utils/logger.cpp:Logger::log", "src/main.cpp:main"]}
{"id": "C143", "title": "A question on the terminal gets one of the answers it offers", "statement": "The interactive sink of the terminal reads only for a question that offers answers; it shows their letters, repeats the question until a line stands for an action, leaves the lines after it, and gives an answer that was offered.", "quantifier": "for all messages and all lines typed", "why_tests_cant": "No test types anything; what happens depends on each line, and on the end of the input.", "anchors": ["src/ui/cli/logger.cpp:LoggerSink::log", "src/ui/cli/logger.cpp:from_string", "src/ui/cli/logger.cpp:to_string"]}
{"id": "C144", "title": "A message is shown whole", "statement": "Each message, with its level, what informs on it and its details, is written on the terminal on lines of its own and shown in the window.", "quantifier": "for all messages, verbose or not, with or without the window", "why_tests_cant": "Whether a message has details depends on the files; no test covers the sinks.", "anchors": ["src/ui/cli/logger.cpp:LoggerSink::log", "src/ui/qt/logger.cpp:LoggerSink::log", "src/utils/logger.cpp:Logger::log"]}
{"id": "C145", "title": "Editing opens what can be changed of what was asked for", "statement": "Asking to edit nodes of the processing view opens the dialog of the object when one object can be changed, a menu with one entry per object when several can, each with a title of its own and each opening the dialog of its object; with none the global parameters are opened after the selection is given up. No other dialog is opened.", "quantifier": "for all sets of nodes, by the menu, by the selection and by a double click", "why_tests_cant": "The nodes selected are any set of nodes of a graph that depends on the document.", "anchors": ["src/ui/qt/processing_view/processing_scene.cpp:ProcessingScene::edit", "src/ui/qt/processing_view/processing_scene.cpp:ProcessingScene::edit_selected_nodes", "src/ui/qt/processing_view/processing_scene.cpp:ProcessingScene::mouseDoubleClickEvent", "src/ui/qt/edit/edit_model.cpp:EditModel::make"]}
{"id": "C146", "title": "The conflicts printed are those of the board", "statement": "The text given for --output-format prettyprint tells, in order, each conflict of colinear edges with its axis, its edges and its solution, each edge in polygons with its plane, the polygons, what it lies along and what came of it, and each conflict of too close policies; and nothing else.", "quantifier": "for all boards whose polygons have plain names", "why_tests_cant": "The text of a board depends on each conflict found; tests compare no such text.", "anchors": ["src/infra/serializers/serializer_to_prettyprint.cpp:SerializerToPrettyprint::visit", "src/infra/serializers/serializer_to_prettyprint.cpp:SerializerToPrettyprint::run"]}
{"id": "C147", "title": "Moving all the shapes of a document moves its mesh", "statement": "When all the shapes of a document are moved by the same amount along each axis, the lines of each axis are the lines of the document moved by that amount, and nothing else changes: if one run is undefined or does not end, so is or does the other.", "quantifier": "for all documents, all moves, all parameters, all planes asked for", "why_tests_cant": "Relates the runs of two documents of any number and kind of shapes; tests compare one mesh with one answer.", "anchors": ["src/domain/board.cpp:Board::detect_edges_in_polygons", "src/domain/meshline_policy_manager.cpp:MeshlinePolicyManager::mesh", "src/domain/geometrics/segment.cpp:intersection", "src/infra/parsers/parser_from_csx.cpp:ParserFromCsx::Pimpl::parse_primitive"]}
{"id": "C148", "title": "The lines of an axis depend only on what is asked for at each coordinate", "statement": "The lines of an axis depend only on what the policies of its edges, angles and fixed lines come to at each coordinate: a line there, a line on each side, or a line on one side. The order in which the policies are made, how many times each is made, the disabled ones, and those another one makes up for change nothing, neither in the lines nor in whether the run ends. The same goes for the order and number of the lines of the old mesh that are kept, when no two of them are nearly the same.", "quantifier": "for all lists of policies, all zones, all lists of kept lines, all parameters with a limit of nearness that is not negative", "why_tests_cant": "Relates the merges and the meshing of any two lists of policies, of any lengths; tests give the policies in one order.", "anchors": ["src/domain/meshline_policy_manager.cpp:MeshlinePolicyManager::detect_and_solve_too_close_meshline_policies", "src/domain/conflicts/conflict_too_close_meshline_policies.cpp:ConflictTooCloseMeshlinePolicies::auto_solve", "src/domain/meshline_policy_manager.cpp:MeshlinePolicyManager::detect_intervals", "src/domain/meshline_policy_manager.cpp:MeshlinePolicyManager::mesh"]}
{"id": "C149", "title": "The unit of length does not matter", "statement": "When all the lengths given for an axis are multiplied by the same positive number (the coordinates of policies and kept lines, the limits on cells and on nearness, the bounds and limits of diagonal zones), the lines of its mesh are multiplied by that number, and the steps end or not as before. This supposes exact numbers.", "quantifier": "for all positive factors, all lists of policies and kept lines, all zones, all parameters", "why_tests_cant": "Relates runs in any two units; the tests use one. The loops are compared turn by turn, whatever their number, so no bound on the sizes is needed.", "anchors": ["src/domain/meshline_policy_manager.cpp:MeshlinePolicyManager::mesh", "src/domain/mesh/interval.cpp:Interval::auto_solve_d", "src/domain/mesh/interval.cpp:Interval::auto_solve_smoothness", "src/domain/mesh/interval.cpp:find_ls", "src/domain/board.cpp:Board::Builder::add_fixed_meshline_policy", "src/domain/global.hpp:equality_tolerance"]}
{"id": "C150", "title": "A reflected structure gets the reflected mesh", "statement": "When what is given for an axis is reflected (the coordinates of policies and kept lines change sign, and the sides that policies face are exchanged), the lines of its mesh are reflected, and the steps end or not as before. So a symmetric structure gets a symmetric mesh.", "quantifier": "for all lists of policies and kept lines, all parameters, all sorting functions", "why_tests_cant": "Relates the runs on two structures of any size, whatever the order in which intervals are solved; the tests look at one structure at a time.", "anchors": ["src/domain/meshline_policy_manager.cpp:MeshlinePolicyManager::detect_intervals", "src/domain/meshline_policy_manager.cpp:MeshlinePolicyManager::mesh", "src/domain/mesh/interval.cpp:Interval::auto_solve_d", "src/domain/mesh/interval.cpp:Interval::auto_solve_smoothness", "src/domain/mesh/interval.cpp:Interval::mesh", "src/domain/conflicts/conflict_too_close_meshline_policies.cpp:ConflictTooCloseMeshlinePolicies::auto_solve"]}
{"id": "C151", "title": "A wire is drawn when both its ports are visible, from one to the other", "statement": "After any sequence of ports and wires made, ports shown, hidden or moved and styles chosen, a wire of the processing view is drawn exactly when both its ports are visible. What is drawn is the path in the current style between the borders of the two nodes as they are now: a straight line, or a curve that leaves each border outwards by half the distance and at least 50. This supposes that wires join different ports, and that a node does not change size around a port that stays where it is.", "quantifier": "for all sequences of such events, all numbers of ports and wires, all places", "why_tests_cant": "A path is only updated on some events, and not while the wire is hidden; whether what is drawn is stale depends on the whole sequence. There are no tests of the user interface.", "anchors": ["src/ui/qt/utils/nodegraph/wire.cpp:Wire::update_path", "src/ui/qt/utils/nodegraph/wire.cpp:Wire::itemChange", "src/ui/qt/utils/nodegraph/wire.cpp:Wire::paint", "src/ui/qt/utils/nodegraph/port.cpp:Port::itemChange", "src/ui/qt/utils/nodegraph/port.cpp:Port::attach_pos", "src/ui/qt/processing_view/processing_scene.cpp:ProcessingScene::set_wire_style"]}
{"id": "C152", "title": "Deleting a scene deletes each wire once", "statement": "When a scene of the processing view is deleted, its ports being deleted in any order, each wire is deleted exactly once and no port or wire that was deleted is used. This supposes that wires join different ports, and that Qt deletes the nodes, which were added first, before the wires.", "quantifier": "for all scenes that can be reached, all orders of the ports", "why_tests_cant": "Use after deletion depends on the order of the deletions, which is for Qt to choose; a test sees one order, and may not notice.", "anchors": ["src/ui/qt/utils/nodegraph/port.cpp:Port::~Port", "src/ui/qt/utils/nodegraph/wire.cpp:Wire::unwire", "src/ui/qt/utils/nodegraph/wire.cpp:Wire::Wire", "src/ui/qt/processing_view/processing_view.cpp:ProcessingView::clear"]}
{"id": "C153", "title": "The axes in the corner are those of what is shown", "statement": "However the structure view was turned, zoomed, fitted and switched from plane to plane, what is shown is neither distorted nor mirrored; the two arrows in the corner point the way the two axes of the plane go on the screen, and the letter beyond each is the name of that axis. The first axis is at the angle by which the wheel turned the view, five degrees each time, since the last fit. After a fit the axes go right and up, and the polygons with five around them fill the viewport less two on each side, as large as they can be.", "quantifier": "for all sequences of wheel, fit and plane events, all sizes of polygons and viewports", "why_tests_cant": "The remembered angle is reduced by whole turns while the transformation of the view is not; that they stay the same depends on the whole sequence. There are no tests of the user interface.", "anchors": ["src/ui/qt/structure_view/structure_view.cpp:StructureView::drawForeground", "src/ui/qt/structure_view/structure_view.cpp:StructureView::wheelEvent", "src/ui/qt/structure_view/structure_view.cpp:StructureView::rotate_view", "src/ui/qt/structure_view/structure_view.cpp:StructureView::fit", "src/ui/qt/main_window.cpp:MainWindow::on_a_fit_triggered"]}
{"id": "C154", "title": "The layers of the structure view stay in their order, and its index gives items that are there", "statement": "Whatever is added to and cleared from a scene of the structure view, its layers stay in the order in which its constructor puts them, from the polygons at the bottom to the conflicts at the top, and the index from entities to items never gives an item that was deleted. In a scene that was just populated, the index gives for each entity its item and nothing else.", "quantifier": "for all sequences of additions and clearings, all entities", "why_tests_cant": "The order depends on what was added and restacked before; it is not visible in any value that a test could compare, and there are no tests of the user interface.", "anchors": ["src/ui/qt/structure_view/structure_scene.cpp:StructureScene::StructureScene", "src/ui/qt/structure_view/structure_scene.cpp:StructureScene::clear_all", "src/ui/qt/structure_view/structure_scene.cpp:StructureScene::clear_edges", "src/ui/qt/structure_view/structure_scene.cpp:StructureScene::clear_polygons", "src/ui/qt/structure_view/structure_scene.cpp:StructureScene::clear_meshlines", "src/ui/qt/structure_view/structure_view.cpp:StructureView::populate"]}
{"id": "C155", "title": "A polygon is raised when it is selected or under the pointer", "statement": "Whatever the pointer and the selection do, a polygon of the structure view is raised above the others exactly when it is selected or under the pointer.", "quantifier": "for all sequences of the pointer entering and leaving and of changes of the selection", "why_tests_cant": "There are no tests of the user interface, and whether the polygon is raised depends on the whole sequence of events.", "anchors": ["src/ui/qt/structure_view/structure_polygon.cpp:StructurePolygon::hoverEnterEvent", "src/ui/qt/structure_view/structure_polygon.cpp:StructurePolygon::hoverLeaveEvent", "src/ui/qt/structure_view/structure_polygon.cpp:StructurePolygon::itemChange"]}
{"id": "C156", "title": "The title names the file that the window has", "statement": "In a session of the window, whatever files are opened, refused, saved, saved under a name and given to AppCSXCAD, the title of the window names the file that the window has and saves to. When the window says that a file was saved, no other file than the one it names has changed.", "quantifier": "for all sessions, all files, all answers of the user", "why_tests_cant": "The title, the file of the window, the input and the output are four names that are set at different places; whether they agree depends on the sequence of actions. There are no tests of the user interface.", "anchors": ["src/ui/qt/main_window.cpp:MainWindow::update_title", "src/ui/qt/main_window.cpp:MainWindow::parse_and_display", "src/ui/qt/main_window.cpp:MainWindow::on_a_file_open_triggered", "src/ui/qt/main_window.cpp:MainWindow::on_a_file_save_triggered", "src/ui/qt/main_window.cpp:MainWindow::on_a_file_save_as_triggered"]}
{"id": "C157", "title": "The Python interface reads back the meshed structure", "statement": "When run_openemsh returns, having run the program without the window, the structure is read back from the document that it wrote with the mesh of its own board; no other file changed. When the structure is no document, when it cannot be written, or when overwriting is not allowed, it raises and the structure in the file is as it was.", "quantifier": "for all structures, all files, all arguments -o, --force and --output-format", "why_tests_cant": "Whether the file that is read back is the one that was written depends on the arguments and on the disk. There are no tests of the Python interface.", "anchors": ["api/python/openemsh.py:run_openemsh", "src/main.cpp:main", "src/ui/cli/cli.cpp:cli", "src/app/openemsh.cpp:OpenEMSH::is_about_overwriting"]}
{"id": "C158", "title": "The path of a simulation is a directory once ensured", "statement": "When ensure_sim_path returns, the path is a directory, and an empty one if a cleanup was asked for; without a cleanup nothing that was there is touched.", "quantifier": "for all states of the path and all failures of the removal and the creation", "why_tests_cant": "The removal ignores its errors; what is left then depends on the file system. There are no tests of the Python interface.", "anchors": ["api/python/openemsh.py:ensure_sim_path"]}
{"id": "C159", "title": "What is selected in the structure view shows as selected", "statement": "In each available style, whichever styles were chosen before, everything in the structure view is painted otherwise when it is selected than when it is not, whether the mouse is over it or not.", "quantifier": "for all sequences of chosen styles, all kinds of items, all materials, both values of the setting of material colours, hovered or not", "why_tests_cant": "There are no tests of the user interface; the colours come from defaults that refer to each other and are overridden in part by each style.", "anchors": ["src/ui/qt/structure_view/structure_style.cpp", "src/ui/qt/structure_view/structure_style.hpp:StructureStyle", "src/ui/qt/style.cpp:Style::available_styles", "src/ui/qt/structure_view/structure_edge.cpp:StructureEdge::paint", "src/ui/qt/main_window.cpp:MainWindow::set_style"]}
{"id": "C160", "title": "Material colours are used when asked for", "statement": "When the colours of the CSX properties are asked for, a polygon whose material has them is painted in them; otherwise it is painted with the style.", "quantifier": "for all styles, all materials, all states of a polygon", "why_tests_cant": "There are no tests of the user interface; the choice is made in three places of one function.", "anchors": ["src/ui/qt/structure_view/structure_polygon.cpp:StructurePolygon::paint", "src/ui/qt/main_window.cpp:MainWindow::on_a_does_use_csx_properties_color_triggered"]}
{"id": "C161", "title": "Selected angles and policies tell what is meshed", "statement": "Selected in the structure view, an angle shows in green the axes along which it is meshed and in red the others; a policy is green if it is enabled and red if not. Conflicts, intervals, angles and policies show only when selected.", "quantifier": "for all sequences of chosen styles, all angles and policies, hovered or not", "why_tests_cant": "There are no tests of the user interface; sixteen sets of pens are made by hand from a hundred colours.", "anchors": ["src/ui/qt/structure_view/structure_style.cpp", "src/ui/qt/structure_view/structure_style.hpp:StructureStyle", "src/ui/qt/style.cpp:Style::available_styles", "src/ui/qt/structure_view/structure_scene.cpp:StructureScene::add", "src/ui/qt/structure_view/structure_angle.cpp:StructureAngle::paint", "src/ui/qt/structure_view/structure_meshline_policy.cpp:StructureMeshlinePolicy::paint"]}
{"id": "C162", "title": "Zones let what is below be seen", "statement": "Intervals and zones of diagonals or circles are painted with a translucent brush, in every state.", "quantifier": "for all sequences of chosen styles and all states", "why_tests_cant": "There are no tests of the user interface; the colours come from defaults that refer to each other.", "anchors": ["src/ui/qt/structure_view/structure_style.cpp", "src/ui/qt/structure_view/structure_style.hpp:StructureStyle", "src/ui/qt/style.cpp:Style::available_styles", "src/ui/qt/structure_view/structure_interval.cpp:StructureInterval::paint", "src/ui/qt/structure_view/structure_conflict_diagonal_or_circular_zone.cpp:StructureConflictDiagonalOrCircularZone::paint"]}
{"id": "C163", "title": "Selected and highlighted nodes and wires show in the processing view", "statement": "In each available style, whichever styles were chosen before, a node that is selected, one that is highlighted and one that is neither are painted in three ways, hovered alike. A wire between nodes that are highlighted or selected is painted otherwise than the others, and none is painted to a node that is not visible.", "quantifier": "for all sequences of chosen styles, all states of nodes and wires", "why_tests_cant": "There are no tests of the user interface; the colours come from defaults that refer to each other and are overridden in part by each style.", "anchors": ["src/ui/qt/processing_view/processing_style.cpp", "src/ui/qt/processing_view/processing_style.hpp:ProcessingStyle", "src/ui/qt/style.cpp:Style::available_styles", "src/ui/qt/utils/nodegraph/node.cpp:Node::paint", "src/ui/qt/utils/nodegraph/container.cpp:Container::paint", "src/ui/qt/utils/nodegraph/wire.cpp:Wire::paint"]}
{"id": "C164", "title": "The texts of nodes can be read and told apart", "statement": "In each available style and in each state, no text has the colour of what it is written on, and what is enabled, enabled for sure, disabled and neither is written in different colours.", "quantifier": "for all sequences of chosen styles, all kinds of texts, all states", "why_tests_cant": "There are no tests of the user interface; the colours of texts and of backgrounds are given apart, for six states each.", "anchors": ["src/ui/qt/processing_view/processing_style.cpp", "src/ui/qt/processing_view/processing_style.hpp:ProcessingStyle", "src/ui/qt/style.cpp:Style::available_styles", "src/ui/qt/utils/nodegraph/text.cpp:Text::paint", "src/ui/qt/utils/nodegraph/port.cpp:Port::paint"]}
{"id": "C165", "title": "The nodes of the processing view tell what is meshed and enabled", "statement": "The line of a node that says whether its edge is meshed, its angle is meshed along an axis or its policy is enabled ends with true or false accordingly, and has the colour of enabled or disabled texts accordingly, in each style. The ports of a conflict of colinear edges do so for each edge in order. Nodes of two edges are written alike only if the edges have the same identifier, normal and state.", "quantifier": "for all edges, angles, policies, intervals and conflicts, all sequences of chosen styles, all states of nodes", "why_tests_cant": "There are no tests of the user interface; the text and the colour of each line are set apart from each other.", "anchors": ["src/ui/qt/processing_view/processing_edge.cpp:ProcessingEdge::ProcessingEdge", "src/ui/qt/processing_view/processing_angle.cpp:ProcessingAngle::ProcessingAngle", "src/ui/qt/processing_view/processing_meshline_policy.cpp:ProcessingMeshlinePolicy::ProcessingMeshlinePolicy", "src/ui/qt/processing_view/processing_interval.cpp:ProcessingInterval::ProcessingInterval", "src/ui/qt/processing_view/processing_conflict_colinear_edges.cpp:ProcessingConflictColinearEdges::ProcessingConflictColinearEdges", "src/ui/qt/processing_view/processing_conflict_diagonal_or_circular_zone.cpp:ProcessingConflictDiagonalOrCircularZone::ProcessingConflictDiagonalOrCircularZone"]}
{"id": "C166", "title": "The node of a policy gives its distance", "statement": "What is written on the nodes of two meshline policies is the same only if the policies have the same identifier, normal, state, kind and distance d.", "quantifier": "for all pairs of meshline policies", "why_tests_cant": "There are no tests of the user interface; the texts of tests would have few digits.", "anchors": ["src/ui/qt/processing_view/processing_meshline_policy.cpp:ProcessingMeshlinePolicy::ProcessingMeshlinePolicy"]}
{"id": "C167", "title": "A node can be made without an entity", "statement": "The constructors of nodes, each of which tests whether it is given an entity, are defined when they are given none.", "quantifier": "for all of eight kinds of nodes, with and without an entity", "why_tests_cant": "Nodes are made by the scene for existing entities only, so no run reaches this case.", "anchors": ["src/ui/qt/processing_view/processing_edge.cpp:ProcessingEdge::ProcessingEdge", "src/ui/qt/processing_view/processing_angle.cpp:ProcessingAngle::ProcessingAngle", "src/ui/qt/processing_view/processing_meshline_policy.cpp:ProcessingMeshlinePolicy::ProcessingMeshlinePolicy", "src/ui/qt/processing_view/processing_interval.cpp:ProcessingInterval::ProcessingInterval", "src/ui/qt/processing_view/processing_conflict_colinear_edges.cpp:ProcessingConflictColinearEdges::ProcessingConflictColinearEdges", "src/ui/qt/processing_view/processing_conflict_diagonal_or_circular_zone.cpp:ProcessingConflictDiagonalOrCircularZone::ProcessingConflictDiagonalOrCircularZone"]}
