# Formal model of openemsh: design

The C++ sources in `/repo` are read as text and modelled in Lean 4 (`/verif/lean`). Nothing of the
repository is built or run. This file says, for each property of `properties.jsonl`, what is modelled
and how it is proved, and what the proofs rest on.

## Layout

| Directory | Content |
|---|---|
| `Verif/Model/*` | executable model, one definition per C++ function, each citing file and lines |
| `Verif/Spec/*` | small independent specifications used by the property statements |
| `Verif/Lemmas/*` | helper lemmas |
| `Verif/Props/*` | the property theorems and, beside each, an `example` instantiating its hypotheses |

## Modelling conventions

* Numbers. `double`/`Coord` values are exact rationals (`ℚ`). Rounding, overflow, NaN and infinities are
  **not** modelled. Comparisons and the tolerance `1e-8` are kept as written.
* Pointers. A timepoint pointer is an address (`Nat`). The allocator is not modelled as "always fresh":
  an allocation may return any address that is not live *now*, so address reuse after a free is covered.
  Reading a freed node is a distinct outcome.
* Undefined behaviour, `unreachable()` and `std::terminate` (an exception leaving a `noexcept` function)
  are distinct outcomes (`Except Fault _` or `none`, said at each definition), never a default value.
* Loops. `for` loops over containers are folds or structural recursion. `while` loops whose termination is not
  syntactic are partial functions to `Option` (Lean's `partial_fixpoint`): `none` is the outcome of a loop that does not
  end. Termination theorems say for which inputs the result is `some`, divergence theorems for which it is `none`.
* Shared pointers to domain objects are indices or values; the sharing that matters (policy `d` shared by
  two intervals, edge in conflicts) is modelled by indices into a store.
* The state-management layer (Caretaker/Originator) is modelled on its own, with an arbitrary state type.
  The meshing algorithms are modelled as functions on the current states; that they read and write them
  through Originators is covered by C05/C06/C10.

## Trusted base

* The Lean 4.33.0 kernel, and the axioms `propext`, `Classical.choice`, `Quot.sound` (listed per theorem
  in the section "Axioms" at the end of this file).
* The reading of the C++ into Lean: nothing checks mechanically that the model is the code. Each
  definition cites the lines it was read from.
* The C++ standard library (`std::list`, `std::map`, `std::sort` on strict weak orders, `std::format`/
  `std::to_string`, `std::from_chars`), pugixml, Qt and CLI11 behave as documented.
* Not modelled at all: Qt views and layout (`src/ui/qt` except the decision logic of `main_window.cpp` named
  in C15, C19, C97-C99, C114, C115 and C125-C129, the edit models named in C29 and C91, the edit delegate, C116-C118, and the nodes, wires, selection and visibility of the processing view, C120-C124, the items of the structure view, C134, C135, the selections told between them, C136, C137, where the nodes are placed, C138–C140, and the boxes of messages, C142, C144), prettyprint texts, colours,
  threads (`execution::unseq` loops are read as sequential loops), the CSXCAD layer.
* Of `main.cpp` and `cli.cpp`: what the options mean and which values are accepted is modelled (C111-C113); how CLI11
  splits the command line, prints help and reports errors is not, nor is the graphical branch of `main`.

## Properties

| Id | Status | What is modelled, how it is proved | Theorems |
|---|---|---|---|
| C01 | proved | `Caretaker` (history list, browser index, current, tree). Refinement to a past/present/future zipper, by induction over the operation list. Refinement of Caretaker to a past/present/future timeline, for every run of calls inside the timeline's scope (going elsewhere or remembering while edits can still be redone is out of scope, see C09), and for edits/undo/redo/remember from a fresh history. | `Props.C01_linear_history`, `Props.C01_edits_undo_redo_in_scope` |
| C02 | proved | same model; direct theorem about one `undo`/`redo` from any state satisfying the invariant. can_undo/can_redo hold exactly when the timeline has a past/future. | `Props.C02_refused_move_changes_nothing`, `Props.C02_undo_then_redo`, `Props.C02_redo_then_undo`, `Props.C02_undo_from_draft` |
| C03 | proved | rose tree of addresses, `cluster`, `ancestors`, `erase_from_descendants`; set equality of the live addresses after `garbage_collector`. Garbage collection frees exactly the timepoints that are not an ancestor-or-self of a pinned, remembered or current one; annotations and object states of freed ones go with them. | `Props.C03_gc_frees_exactly` |
| C04 | partial | invariant by induction over all public operations; faults are explicit outcomes. For objects (originators) the invariant needs that an object whose creation timepoint is freed is itself released: `_partial` and witness if not. No call ever touches a freed timepoint and nothing the Caretaker stores dangles; objects are covered when created at timepoints that stay. C04_false: an object outliving its creation timepoint keeps a dangling pointer. | `Props.C04_no_dangling_partial`, `Props.C04_false` |
| C05 | proved | `Originator` with a state type parameter; invariant "recorded timepoints are ordered compatibly with the tree"; the state shown after `go` equals a specification written as "nearest recorded ancestor". go restores, for every registered object, the state of its nearest ancestor timepoint holding one. | `Props.C05_reads_nearest`, `Props.C05_go_restores`, `Props.C05_same_as_when_last_current` |
| C06 | partial | false in general (const state, timepoint already recorded): negation with witness, and `_partial` theorem for unrecorded timepoints. False for const state types when a second state is set at the same timepoint (C06_false). | `Props.C06_set_then_read_partial`, `Props.C06_false` |
| C07 | proved | same model; erase keeps nearest ancestor for surviving targets. Garbage collection changes no state that an object shows at a surviving timepoint. | `Props.C07_gc_invisible` |
| C08 | proved | same model; direct. After an edit nothing can be redone and the undone timepoints are freed unless pinned or remembered. | `Props.C08_edit_discards_future` |
| C09 | partial | false: negation with witness (jump while browsing then edit); `_partial` when not browsing. False while undone edits could still be redone (C09_false); proved when nothing can be redone. | `Props.C09_remembered_stays_partial`, `Props.C09_false` |
| C10 | partial | false: an object never registered does not follow; negation with witness (also with address reuse: a later state is silently dropped); `_partial` is C05 for registered objects. Proved for registered objects; false for objects never registered (C10_false_unregistered) and with address reuse (C10_false_address_reuse). | `Props.C10_registered_follows_undo_partial`, `Props.C10_false_unregistered`, `Props.C10_false_address_reuse` |
| C11 | proved | laws on the rose tree, structural induction. Tree laws for every tree built by add_child/erase: ancestors, queries, cluster, leafs, common ancestor. | `Props.C11_ancestors`, `Props.C11_queries`, `Props.C11_cluster_and_leafs`, `Props.C11_common_ancestor`, `Props.C11_add_child`, `Props.C11_erase` |
| C12 | proved | invariant by induction. Pins behave as a set; only the last user's unpin allows collection. | `Props.C12_pins_are_a_set` |
| C13 | proved | `Step` enumeration with the four tables; finite tables decided, `run` by induction over the table. The step tables of run, go_before and next_step all follow the same order, and run executes exactly that step and the later ones when all of it is requested. | `Props.C13_same_order`, `Props.C13_run_executes` |
| C14 | partial | `run`, `run_next_step` over the Caretaker with an arbitrary "number of timepoints created by a step". Negation when a step creates none; `_partial` when each creates at least one. Proved when each step creates a timepoint; C14_false: a step that creates none is run again forever. | `Props.C14_run_next_step_partial`, `Props.C14_false` |
| C15 | partial | same model; negation/`_partial` in the same way. Proved when the step searched has an annotated timepoint; C15_false otherwise. C15_edition_partial: an edition is applied there, then exactly the steps from it on are run. | `Props.C15_go_before_partial`, `Props.C15_false`, `Props.C15_edition_partial` |
| C16 | partial | `reset` + annotations; negation (annotation of the root survives) and `_partial` for undo/redo/pins. Proved for a first parse; C16_false: a second parse keeps the annotation of the root. | `Props.C16_clean_after_parse_partial`, `Props.C16_false` |
| C17 | partial | `main` as a function of options and a file-system map; negation for PLANTUML, `_partial` for CSX. Proved for CSX and PRETTYPRINT and from the window (C17_window: a file that is there only changes after the user answered save); C17_written: with --force or to a new file it is written. C17_false: PLANTUML replaces the input file. | `Props.C17_no_overwrite_partial`, `Props.C17_false`, `Props.C17_written`, `Props.C17_window` |
| C18 | partial | `write` with a failing save; negation, `_partial`. Proved when the disk accepts the text; C18_false: a refused write is reported as a success. | `Props.C18_success_means_saved_partial`, `Props.C18_false` |
| C19 | partial | decision function; negation, `_partial`. Proved when the save is not cancelled nor refused; C19_false: the window closes after a cancelled save. | `Props.C19_close_partial`, `Props.C19_false` |
| C20 | proved | `find_ls` as a partial function; termination by an explicit bound; laws by induction on the loop. Closed form of find_ls on exact numbers, termination exactly when the parameters are in range; divergence proved for d = 0 and smoothness < 1. | `Props.C20_half_interval`, `Props.C20_closed_form`, `Props.C20_zero_d_diverges`, `Props.C20_small_smoothness_diverges` |
| C21 | proved | `Interval::mesh` from any valid pair of line lists; induction on lists. Any interval between distinct policies, whole solve and mesh: ordered lines, gaps bounded by the interval's dmax, lines inside, middle line present. C21_policies: from two policies, through the constructor. | `Props.C21_interval_mesh`, `Props.C21_policies` |
| C22 | proved | termination of the geometric search by an Archimedean argument; divergence theorem for zero-length intervals. Termination of adjust_d for every interval of positive length; first accepted value; divergence proved when the length is 0. | `Props.C22_auto_solve_d`, `Props.C22_first_accepted`, `Props.C22_constructor`, `Props.C22_zero_length_diverges` |
| C23 | proved | loop invariant. Termination of the smoothness adjustment, result in [1, old], same number of lines. | `Props.C23_auto_solve_smoothness` |
| C24 | proved | `MeshlinePolicyManager::mesh` composition. For every separated set of coherent policies on a fresh axis and every sorting function (ties arbitrary). Interval dmax is the global one (no diagonal zone). | `Mesh.C24_axis_mesh` |
| C25 | proved | composition of C21 and the tiling C28. Same scope as C24; C25_whole_axis composes merging, interval detection and meshing. | `Mesh.C25_gaps`, `Mesh.C25_whole_axis` |
| C26 | proved | loop with decreasing number of enabled policies; closest pair minimality. For every limit and every sorting function; C26_conflicting_diverges shows the hypothesis on conflicts is needed. | `Mesh.C26_terminates_and_separates`, `Mesh.C26_conflicting_diverges` |
| C27 | proved | invariant of the same loop. One merge (all kinds) and the whole loop. | `Mesh.C27_merge`, `Mesh.C27_extent` |
| C28 | proved | sort + adjacent pairs. Any policies, coordinates may coincide; any sorting function. | `Mesh.C28_intervals_tile` |
| C29 | proved | invariant by induction over operations. Creation test, and an invariant over any sequence of creations, merges, edits, interval detections and meshings. | `Mesh.C29_created_iff`, `Mesh.C29_always_coherent` |
| C30 | partial | pairwise detection loop over edge indices; invariant; tolerance non-transitivity gives a witness against, `_partial` under transitivity. C30_false: with coordinates closer than the tolerance, edges not on the same line share a conflict and an edge is in two. Proved for sets of edges on which being on the same line is transitive, any number and order, conflicts of other planes already present. | `Board.C30_false`, `Board.C30_partial` |
| C31 | proved | decision function on lists; permutation invariance. Every list of edges; the result is the same for any order of the edges up to the coordinate taken from the first. | `Board.C31_policy`, `Board.C31_order` |
| C32 | proved | merging fold on ranges. Left unmeshed only if the ranges cover the edge, for ranges on the line of the edge, whichever way it goes; any number of ranges, any sorting function. | `Board.C32_covered` |
| C33 | proved | folds over vertex lists. Every vertex list; detect_bounding and the box of each edge. | `Geom.C33_tight`, `Geom.C33_defined`, `Geom.C33_edges` |
| C34 | proved | shoelace sum over cyclic lists; ring identities by induction. The shoelace sum is related to the triangles of a fan; the sense includes the tolerance of the code on the area. | `Geom.C34_sense`, `Geom.C34_start_vertex`, `Geom.C34_position`, `Geom.C34_reverse`, `Geom.C34_scale`, `Geom.C34_box` |
| C35 | proved | cyclic pairs; box normal table for every corner order. Cycle for every vertex list; normals of every polygon stated as growth of the area when the edge moves along its normal; boxes directly. | `Geom.C35_cycle`, `Geom.C35_direction`, `Geom.C35_outward`, `Geom.C35_flat`, `Geom.C35_box` |
| C36 | partial | case analysis on rational coordinates; negation for descending diagonals. C36_false: descending diagonals give wrong corners. Proved for horizontal, vertical and ascending lines. | `Geom.C36_false`, `Geom.C36_partial`, `Geom.C36_across` |
| C37 | proved | case analysis. Every pair of segments, tolerance included. | `Geom.C37_symmetric`, `Geom.C37_orientation` |
| C38 | proved | finite tables decided. Whole finite tables. | `Geom.C38_view`, `Geom.C38_segment`, `Geom.C38_reverse` |
| C39 | partial | negation for transitivity, `_partial` for the rest. C39_false: not transitive. The rest of the statement is proved. | `Geom.C39_false`, `Geom.C39_partial` |
| C40 | proved | selection by sort is a maximum. Order laws over the whole table; choice of the ambient material for any number of polygons and any sorting function. | `Board.C40_order`, `Board.C40_ambient` |
| C41 | partial | ray casting specialised to four edges. C41_false: the tolerance applies to an area, so a point much farther than the tolerance from the side of a thin box can be misplaced. Proved when the distance is large enough for the height of the box; border exact. | `Geom.C41_partial`, `Geom.C41_border`, `Geom.C41_border_only`, `Geom.C41_false` |
| C42 | proved | decimal printing and parsing on character lists. Texts are lists of characters; numbers are exact with a sign (so -0 is distinct). Back within half a millionth, same order, same count, second writing identical. Grid nodes whose DeltaUnit is absent or 1. | `Csx.C42_lines`, `Csx.C42_order`, `Csx.C42_grid` |
| C43 | partial | negation with witness, `_partial` for lines at least 1e-6 apart. C43_false: lines closer than a millionth are written alike (even exactly a millionth apart, with rounding to even). Proved for lines more than a millionth apart. | `Csx.C43_false`, `Csx.C43_partial` |
| C44 | partial | primitive-to-polygons function; negation (LinPoly/Polygon), `_partial` for the others. C44_false: Polygon and LinPoly are added to their own plane whether enabled or not. Proved for files without them. | `Csx.C44_false`, `Csx.C44_partial` |
| C45 | partial | per primitive theorems; negations for cylinder and curve. C45_false: cylinder sides use half the radius and no depth, curve depth is only its lowest end. Proved: boxes, multiboxes, stretched and flat polygons (exact), spheres (enclosing and tight), cylinder cross-section, curve outline. Cosines and sines are given, exact at right angles. | `Csx.C45_box`, `Csx.C45_multibox`, `Csx.C45_linpoly`, `Csx.C45_polygon`, `Csx.C45_sphere`, `Csx.C45_sphere_tight`, `Csx.C45_point`, `Csx.C45_false`, `Csx.C45_cylinder_partial`, `Csx.C45_curve_partial` |
| C46 | proved | override composition. All eight options and the four file attributes, for every document and list of options; when an option is given several times the last one wins. | `Csx.C46_precedence` |
| C47 | partial | string-level round trip of the attributes that are saved; negation for those that are not. C47_false: the diagonal zone parameters are not saved. C47_false_large: lmin over 32 bits. Proved for the other four, given that pugixml reads back the doubles it writes (17 digits). | `Csx.C47_false`, `Csx.C47_partial`, `Csx.C47_false_large` |
| C48 | proved | fold over coordinates with tolerance equality. The tolerance-equal coordinates count as the same line, as in the code. | `Mesh.C48_fixed` |
| C49 | proved | fold; characterisation by concatenation. Runs are maximal and concatenate to the list, for every predicate on neighbours. | `Utils.C49_runs`, `Utils.C49_elements` |
| C50 | proved | invariant by induction. At most one interactive sink after any sequence of calls, the last one chosen; a question is answered by it only. | `Utils.C50_one`, `Utils.C50_answer`, `Utils.C50_destination`, `Utils.C50_last` |
| C51 | partial | `intersection` of two segments with its tolerance tests; linear algebra over ℚ. Common point exact; C51_false: two long nearly horizontal segments can cross without intersection. | `Geom.C51_crossing`, `Geom.C51_intersection_partial`, `Geom.C51_false` |
| C52 | partial | `Polygon::relation_to` as a partial function (its retry loop); invariant of the diverging loop for the witness. C52_false: a polygon and point for which the loop never ends. Proved for boxes and for polygons without a vertex just above or below the point. | `Geom.C52_box_partial`, `Geom.C52_polygon_partial`, `Geom.C52_false` |
| C53 | partial | `ConflictEdgeInPolygon::auto_solve`; the first range is never tested against the normal: witness. C53_false: the first range always counts, so two identical polygons both lose their edges. Proved: ranges from edges with the same side are never joined; C53_solved_partial says it of all the conflicts of a plane solved; see also C32_covered. | `Board.C53_false`, `Board.C53_partial`, `Board.C53_solved_partial` |
| C54 | proved | `adjust_edges_to_materials` for one edge; the point just outside located by the polygon test. Any number of polygons, any sorting function; stated with the point set just outside the edge. | `Board.C54_reversed` |
| C55 | partial | `auto_solve` on covered edges; completeness direction of C32. C55_false: ranges and edges followed downwards do not combine. Proved for edges followed upwards. C55_whole: any direction, when the ranges are the whole edge. | `Board.C55_false`, `Board.C55_partial`, `Board.C55_whole` |
| C56 | partial | `detect_individual_edges` and the normal computation from the area sign. C56_false: a box with a small area gets no line at all (100 by 35 micrometres in metres). Proved for edges with a side, or sharing their line with another edge. C56_only: no other policy is made. | `Board.C56_false`, `Board.C56_partial`, `Board.C56_only` |
| C57 | partial | `parse_grid` with `as_uint` of DeltaUnit on character lists. C57_false: DeltaUnit is read as an unsigned integer, so 0.001 gives 0 and kept lines all fall on 0. Proved when DeltaUnit is absent or 1. C57_uniform: whatever the unit, the three axes are multiplied by the same number and no line is lost. | `Csx.C57_false`, `Csx.C57_partial`, `Csx.C57_uniform` |
| C58 | partial | vertex folds with an explicit undefined-behaviour outcome for empty lists. C58_false: polygons and curves without vertices. Proved when each has at least one vertex. | `Csx.C58_false`, `Csx.C58_partial` |
| C59 | proved | `parse` loop over properties, `parse_primitive` dispatch, `parse_priority`. Properties and primitives of any number and any kind modelled. | `Csx.C59_priority` |
| C60 | proved | document as a rose tree with attributes and texts; frame theorem by induction on the path. Documents are trees; stated for the attributes and texts found at every path outside the grid and the OpenEMSH node, provided the structure is where the program looks for it. | `Csx.C60_preserved`, `Csx.C60_grid_attrs` |
| C61 | partial | same document model. C61_false: writing without the parameters removes the whole OpenEMSH node, fixed lines included. Proved when parameters are saved. | `Csx.C61_false`, `Csx.C61_partial` |
| C62 | partial | same document model, reader and writer look-up order. C62_false: documents with two structures. Proved for documents with the structure at one place. | `Csx.C62_false`, `Csx.C62_partial`, `Csx.C62_lines` |
| C63 | partial | same document model. C63_false: saving parameters adds a second root element. Proved without parameters, or over a document that has them. | `Csx.C63_false`, `Csx.C63_partial` |
| C64 | proved | `handle_edition_from` = `go_before`, the edition, `run`, pin; invariant "what stays remembered" over all domain calls, then C02. Full for editions that make a timepoint and start at a remembered one, as all edit models do; the readings for objects that the steps do not destroy, with states set only at timepoints just made, as the domain does. | `Props.C64_edition_undone`, `Props.C64_undone_reads` |
| C65 | proved | `detect_diagonal_angles` as list functions on polygons; the corner loop equals a filterMap over vertices. Full, for polygons with points (an empty one is undefined behaviour). | `Board.C65_defined`, `Board.C65_corners`, `Board.C65_ends` |
| C66 | partial | the crossing loops over pairs of polygons, on the modelled `does_overlap_strict`, `relation` and `intersection` (C51); witness for the failure. C66_false: a slanted edge crossing a horizontal or vertical one gets no angle, as a flat bounding box overlaps nothing strictly. Proved for two slanted edges. | `Board.C66_sound`, `Board.C66_complete_partial`, `Board.C66_false` |
| C67 | proved | `detect_diagonal_zones`: angles sorted by any correct sort, cut where no slanted edge is over a gap; invariant on cuts, then the point-set statement. Full, for any sort meeting the contract of std::ranges::sort, on the angles of detect_diagonal_angles. | `Board.C67_zones`, `Board.C67_all` |
| C68 | partial | `solve_angles` over zones as a fold writing `to_mesh`; each angle is in one zone per axis, hence written once per axis. C68_false: the minimal angle of a zone, which the user may edit, is not used. Proved with the global one; C68_tidy shows that detected zones meet the hypotheses. | `Board.C68_tidy`, `Board.C68_solved_partial`, `Board.C68_policies`, `Board.C68_false` |
| C69 | partial | `bounding`, interval positions in zones and `solve_intervals` as folds over zones; C21 for the lines. C69_false: the last zone decides, even with a larger limit than another or than before. Proved for that last zone. | `Board.C69_dmax_partial`, `Board.C69_lines`, `Board.C69_false` |
| C70 | partial | fold over zones with the "already set at this timepoint" flag of constant states. C70_false: only the first zone is kept. Proved for the first. | `Board.C70_first_partial`, `Board.C70_false` |
| C71 | partial | C24's description of the meshed axis (lines of each interval between the initial cells of its policies), weaving of the policies and the interval lines; negation by running fuel versions of the loops (`Lemmas/Fuel.lean`) in the kernel. `Lemmas/Final.lean` follows the shared distance through the intervals solved in turn: the one solved last that touches the policy leaves it exact. C71_false: the two sides may use different cells. Proved: the share and the bound on each side. C71_left_partial: the cell of one side is exactly the distance the policy is left with. | `Mesh.C71_sides_partial`, `Mesh.C71_cells`, `Mesh.C71_false`, `Mesh.C71_left_partial` |
| C72 | partial | invariant `At k`: path of annotated timepoints of the k first steps above the current one; induction on the presses. Proved when each step creates a timepoint; C72_false: one that creates none is run again and cannot be undone by the button. | `Props.C72_buttons_partial`, `Props.C72_previous_undoes_partial`, `Props.C72_false` |
| C73 | partial | `Enters`: the moments at which `run` starts a step; then `boardRun_under` for any prefix of its operations. Proved when each step creates a timepoint; C73_false: otherwise the step before is still shown. | `Props.C73_progress_partial`, `Props.C73_false` |
| C74 | partial | `get_mesh_cell_number` with the wrapping product; cells counted as triples of spaces. C74_false: lines are counted, not spaces between them. Proved: what is shown is the number of points of the mesh, more than the number of cells. | `Mesh.C74_false`, `Mesh.C74_points_partial` |
| C75 | partial | the choice of lines in the CSX writer, over the axis of C24; negation by running the fuel versions of the loops in the kernel. Proved for the default options; C75_false: with both kinds of lines they are unsorted and written twice, and with policies only unsorted. | `Mesh.C75_false`, `Mesh.C75_default_partial` |
| C76 | proved | `addInPolygon` folded over the reports; induction on the reports, appended at the end. Up to the tolerance and the direction of the range. | `Board.C76_registered` |
| C77 | proved | `detectEdge` on a box; the points met by an edge along an axis are put on one line (`Lane`), the ranges between consecutive ones are inside, outside or on the border as a whole (`Facing`). Boxes and edges along an axis, in both directions. C77_inside: an edge strictly inside. | `Board.C77_box`, `Board.C77_inside` |
| C78 | partial | `WeakOrderOn` and out-of-range indices are outcomes of the model; a diagonal's intersections are proved to be on it; negations by evaluation in the kernel, for any sort. Proved for edges along an axis with ends apart, and for diagonals overlapping no edge of the polygon; C78_false: an edge going down along an edge of a triangle is sorted by a comparison that is no weak order; C78_index_false: an edge under the tolerance reads past the end. | `Board.C78_partial`, `Board.C78_border`, `Board.C78_false`, `Board.C78_index_false` |
| C79 | proved | `detectInPolygons` as nested folds whose rounds register reports; composes C76 (registration), C77 (one edge, one box) and C32 (resolution). C79_conflicts holds for polygons of any shape; C79_boxes for boxes. C79_engulfed: the other direction, for edges strictly inside a box. | `Board.C79_conflicts`, `Board.C79_boxes`, `Board.C79_engulfed` |
| C80 | partial | `solveTooClose` by induction on the merges: each replaces two policies by one between them and leaves the others. `C80_false` is a concrete row of four lines. C80_false: four lines of which the first ends further from any line than the limit. C80_partial: the distance is at most the limit times the number of policies that went. | `Mesh.C80_partial`, `Mesh.C80_false` |
| C81 | proved | `runSteps` chains the models of all the steps; the proof composes C79, C30, C56 (extended to three planes), C48, C80, C24 and C25. The diagonal steps are in the run but have nothing to do on boxes. Whole run of a board of boxes: detection, conflicts, policies, merging, intervals and lines. | `Board.C81_boxes` |
| C82 | proved | `runSteps` with the diagonal steps; the proof composes C65, C67, C68, C69 (angles, zones, angles of zones, limits of intervals) with what C81 uses, and a limit per interval (`mesh_zoned`, `finish_axis`). Whole run of a board of any polygons, under the condition that the detection of edges in polygons ends (it does when no polygon hides another, C82_ends; see C78 for when it may not). | `Board.C82_ends`, `Board.C82_slanted`, `Board.C82_run` |
| C83 | proved | From the same lemma (`run_drawn`): an interval that meets lines well inside a zone has its middle in the zone, so that it is meshed with the limit of the zone. C83_near takes the distance from zone bounds to policies as a parameter; C83_zones gives it the drift of C82, 0 when nothing is merged. | `Board.C83_near`, `Board.C83_zones` |
| C84 | proved | `parseProperties`, then `buildDesign` (`Board::Builder`, the constructors), `adjustAll`, `runSteps`. `file_boxes` gives the parts made of the boxes, `file_board` shows that they are a board of boxes in the sense of C81, `adjustAll_same` that the adjustment changes nothing but `to_reverse`. The whole of the program between the parsed file and the lines, for files of boxes: parser, builder, adjustment to materials, all the steps. Flat boxes are not covered. | `Board.C84_boxes` |
| C85 | proved | Same model as C84, polygons of any shape. `fit_primitive` shows that each shape of the file gives polygons with sides (`Sided`), from the exact area of rectangles and circles, and from the sides met twice of sheets and curves. `plan_built` shows that such polygons make a board in the sense of C82, `plan_slanted` that its slanted edges are the slanted sides. C85_sided goes from the shapes of a file to polygons with sides, C85_plan from polygons to the lines. That the steps end is told only of polygons that do not hide each other; sides of polygons that may be hidden are told of in C79 and C81 only. | `Board.C85_sided`, `Board.C85_plan` |
| C86 | proved | `buildDesign`, then `adjustAll`, a fold over planes, polygons and edges. `edge_once` shows that each edge is in one polygon once, so that `adjustAll_edge` gives its own adjustment on the edge as built; `C54_reversed` gives the rest. Composes the builder and the adjustment. The polygons found outside an edge are those whose bounding box meets the shifted edge, as the code does it (C40). | `Board.C86_adjust` |
| C87 | proved | `solveTooClose` by induction on its runs (`solveTooClose_induct`), the invariant being that one line, halves or both ways, and the ways faced at the coordinate stay as asked; `merge_kinds` gives the kind of each merge from the table of `mergeChoice`. The invariant of the merging loop is the votes of the policies at the coordinate. C87_others tells that policies are left on each side that had some. | `Mesh.C87_kind`, `Mesh.C87_others` |
| C88 | proved | `runSteps` is split (`run_parts`); `board_kinds` tells what each conflict of colinear edges and each lone edge asks for and that each edge to mesh is heeded; `axis_holds` carries it to the axis; `C87_kind` through the merges; `finish_same` shows that the later steps change only distances; `Drawn` gives the lines. C88_kind tells of the policy, C88_lines of the lines around it. The hypothesis Alone asks that nothing wanted, nor a slanted edge, is within the proximity limit. Edges without side that are alone on their line ask for nothing (C56_false). | `Board.C88_kind`, `Board.C88_lines` |
| C89 | proved | The board of the file (`file_boxes`, `file_board`); `box_side`, from `C35_box`, gives the side of each edge; `C86_adjust` shows that none is turned, since all is metal; `side_found` that a face not within others has an edge to mesh; `run_lines`, the general form of `C88_lines`, gives the lines. C89_thirds. The cells on the two sides of a face may differ. | `Board.C89_thirds` |
| C90 | proved | `get_available_states` on the invariant of registered objects; `at` on a missing key is a fault, shown not to happen. For every reachable history and registered object; the states listed are related to what is read after going to a timepoint. | `Props.C90_available` |
| C91 | partial | `QString::number` (format `g`, six digits), `toDouble`, `toULong` and the `commit` of each dialog; a grammar of decimal notation stated apart (`Spec/Dialog.lean`) and shown to be what is read; the scaling by a power of ten with `Int.log`. C91_shown and C91_accepted are complete. The last sentence is false (C91_false): the dialog of an interval offers 2 as new smoothness whatever it is, and numbers of more than six digits are rounded (a rounded angle also makes the run start again earlier). C91_unchanged_partial: it holds of numbers of six digits at most, in the dialogs other than the one of intervals; C91_interval_partial: there, only the smoothness changes. QString::number, toDouble and toULong are modelled from the documentation of Qt. | `Dialog.C91_shown`, `Dialog.C91_unchanged_partial`, `Dialog.C91_interval_partial`, `Dialog.C91_false`, `Dialog.C91_accepted` |
| C92 | partial | The steps from `DETECT_CONFLICT_EIP` on (`runFromConflicts`) on a board with an edge replaced; what the solver of a conflict reads of edges does not include `to_mesh`, so edges already as they end change nothing; negation on boxes with C77 and C79. C92_unchanged and C92_decided are complete for the first two sentences. The last one is false (C92_false, for every sorting function and axis): the edition is made before the step that looks for edges in polygons, and solving such a conflict sets to_mesh of the edge without reading it, so an edge partly in a polygon of higher priority is turned on again. C92_kept_partial: it holds of edges whose polygon no other hides; C92_boxes: among boxes, of edges with no two points in a box that hides theirs, and the edges partly in such boxes are those turned on. Missing: the same for polygons of any shape. | `Board.C92_unchanged`, `Board.C92_kept_partial`, `Board.C92_decided`, `Board.C92_boxes`, `Board.C92_false` |
| C93 | partial | The run cut in two at `DETECT_INTERVALS` (`runToIntervals`, `runFromIntervals`); the state accepted by the dialog put in place of the policy of the axis before that step. Divergence: lemmas that each loop of an interval never ends when its distance or length is not positive (`Lemmas/Hang.lean`); the rest with the lemmas behind C24 and C71. Witnesses computed with the bounded loops of `Lemmas/Fuel.lean`, for a box and for fixed lines. False as it stands (C93_false): the dialog accepts a distance of 0, and a policy merged into another at the same place can be enabled again, and both make the meshing loop for ever; accepting the dialog unchanged may change the mesh, since the distance shown is the one lowered by the meshing. C93_edited_partial is the exact line for boards whose run ends: with another policy enabled, the rerun never ends if the distance is not positive or an enabled policy is at the same place, and in all other cases it ends with everything claimed. Missing: a policy enabled alone with a distance not positive (no interval then; it ends). C93_unchanged_partial: unchanged when the meshing had not lowered the distance of this policy and it has six digits at most. | `Board.C93_edited_partial`, `Board.C93_unchanged_partial`, `Board.C93_false` |
| C94 | partial | The run cut in two at `MESH` (`runToMesh`, `runFromMesh`), the interval between the same policies replaced by what the dialog accepts (`Axis.setInterval`). Divergence: `find_ls` with a limit not positive, or with a smoothness below 1, as a geometric sum that stays short of the middle (`Lemmas/HangInterval.lean`); meshing does not read the lines left in the interval. Witness computed with the bounded loops. False as it stands (C94_false): the dialog accepts a limit of 0 and a smoothness of 0.5, with which the meshing loops for ever, and it offers a smoothness of 2 whatever it was, so accepting it unchanged changes the mesh. C94_edited_partial: with a positive limit and smoothnesses of at least 1 everything claimed holds; it never ends with a limit not positive, or a smoothness in [0, 1[ with which the lines never get to the middle. Missing: whether it ends with a negative smoothness, or one below 1 for which a few lines are enough. C94_unchanged_partial: typing back what the interval had before its meshing gives the same mesh, when intervals have different lengths (equal lengths may be sorted either way). | `Board.C94_edited_partial`, `Board.C94_unchanged_partial`, `Board.C94_false` |
| C95 | partial | The run from `DETECT_DIAG_ZONES` on (`runFromZones`) with the angles found before, which do not depend on the parameters. `run_other`: the edges of a run do not depend on the parameters, merging ends whatever they are, and the rest is the meshing of the intervals; divergence from lemmas that no interval is solved. Witnesses computed with the bounded loops, for fixed lines and for a box. False as it stands (C95_false): the dialog accepts a limit on cells of 0, a smoothness of 0.5 and a proximity limit of -1, with each of which the run may loop for ever, and numbers of more than six digits are rounded when accepted unchanged. C95_edited_partial: the rerun, which starts with the angles as the run before left them, is always the whole run with the numbers typed; with a proximity limit not negative, a smoothness of at least 1 and positive limits it ends as claimed, with the same edges; and it never ends in the cases told. Missing: whether it ends with limits not positive next to slanted edges, with a negative smoothness, or one below 1 for which a few lines are enough. C95_unchanged_partial: the same mesh, with parameters of at most six digits. | `Board.C95_edited_partial`, `Board.C95_unchanged_partial`, `Board.C95_false` |
| C96 | partial | `runToZoneIntervals` then `runFromZoneIntervals`, or the run from `SOLVE_DIAG_ZONES_ANGLES` on (`runFromZonesAngles`). `zones_again`: solving angles twice changes nothing, and solving them reads neither the limit nor the minimal angle of zones. `zones_limit`: the limit of an interval is that of the last zone that has its middle. Then `detect_ready`/`Axis.Ready.mesh` as for C94. Witness: a shape with two slanted sides, computed with the bounded loops. False as it stands (C96_false): the minimal angle typed is not used, and with a limit of 0 the run loops for ever. C96_edited_partial: the rerun is solving the intervals of the zones and meshing, from whichever step it starts; other axes do not change; with a positive limit it ends, with increasing lines and gaps within the limit of the last zone that has the middle of the interval, or the global one; it never ends with a limit not positive on a zone that decides for some interval. C96_unchanged_partial: the same mesh, with parameters of at most six digits. The first edit after a run is meant; intervals of earlier runs that zones still hold are left out. | `Board.C96_edited_partial`, `Board.C96_unchanged_partial`, `Board.C96_false` |
| C97 | proved | `Model/Window`: the window with its two views and the presses. `Anchored`: every live timepoint leads to a pinned or to the current one; each call that the window causes keeps it (`Anchored.step`), as moves are made only from a pinned timepoint; so the collection of an edit after an undo frees nothing (`Anchored.needed`), and the legality asked by C04 follows (`Anchored.legal`). C97_nothing_freed. The board's steps and the editions are any sequences of calls that pass live timepoints and existing objects (Careful: weaker than the Legal of C04, which also asks that objects born at freed timepoints be released). Consequence: memory grows until another file is opened. | `Props.C97_nothing_freed` |
| C98 | proved | A scene is what was read of each registered object when drawn. `Saw`: an object shows `v` at a timepoint, and the timepoints made since do not lead to it; kept by each call (`Saw.step`, from `step_shown` of C05). `Pushed`/`Tidy`: the window after each press. C98_shown (both views, current timepoint, what is drawn is what is read), C98_drawn (complete when first shown), C98_again (same scene when coming back). Of the board's steps it is assumed that states are set at timepoints made by the same step. Angles and the board itself are not registered and are out of this claim. | `Props.C98_shown`, `Props.C98_drawn`, `Props.C98_again` |
| C99 | proved | `connected` lists the calls of `make_current_state_view`. The timepoint reached by an edition was not live before (`Path.onward`), hence not connected. C99_connected_once. Editions are supposed to make a timepoint (they all call set_next_state). | `Props.C99_connected_once` |
| C100 | partial | The notation is a grammar (`Spec/Lines`, on the `Magnitude` of the dialogs), separate from the reader. `readUnsigned_of` and `readUnsigned_prefix` give both directions for one number, `splitAll_append` carries them to lists. `C100_false`: a space in place of a comma loses a line without a word. False of the code as stated: std::from_chars reads a prefix and what follows is not looked at, so '10 20,30' is read as the lines 10 and 30 (C100_false). C100_read: lists of numbers are read exactly. C100_accepted_partial: what is accepted begins, after each comma, by the number read. C100_grid: for the grid of a file without unit. Numbers too large for a double, infinities and NaN are left out. | `Csx.C100_read`, `Csx.C100_accepted_partial`, `Csx.C100_false`, `Csx.C100_grid` |
| C101 | partial | `C101_partial` follows from `C84_boxes`. `C101_false` computes a whole run on the file `stackFile 0 0` with versions of the loops that stop after a number of turns (`Lemmas/FuelRun`), each proved to agree with the model when it ends. False of the code: a metal block on a substrate with the same priority; both edges of the face between them are covered by an edge of the other side, so both are left out, and no line comes within a unit of the face (C101_false). C101_partial: a face with a point in no box of at least its priority has a policy near. | `Board.C101_partial`, `Board.C101_false` |
| C102 | partial | What the steps read of objects that are not registered is an argument: `runFromAngles`, `runFromZones`, `runFromZonesAngles`, `runFromConflicts`, `runFromPerZones`, `runFromZoneIntervals`. `C102_partial` gives them what the run before left. `Kept` says what a zone may hold after any number of reruns. `C102_false` computes both runs on a triangle, with the bounded loops of `Lemmas/FuelRun`. False of the code (C102_false): the board is not registered with the caretaker, so it keeps its angles and finds them again; the three angles of a triangle become six, and one conflict along x becomes four. C102_partial: the same edges and axis when the steps run again start at the detection of zones, the choice of the angles to mesh, the detection of edges in polygons, the detection of the intervals of zones (any number of times) or their solving, and at the detection of angles if there is none. The steps after DETECT_CONFLICT_EIP that read registered objects only are not restated here. | `Board.C102_partial`, `Board.C102_false` |
| C103 | partial | `from_conflicts_spec` is the part of C81/C84 from the conflicts on, for any choice of the angles to mesh; `from_conflicts_congr` says what of it an axis reads. `C103_false` joins the history of an unregistered object (as `C10_false_unregistered`) with a computed rerun on `roofBoard`. False as it stands (C103_false): angles are not registered with the caretaker, so after undoing the edit the angle still reads what was undone, and the steps run again give another mesh. C103_edited_partial: all but the undo. | `Board.C103_edited_partial`, `Board.C103_false` |
| C104 | partial | `runFromTooClose` takes what was edited and does not use it, as the code. `C104_partial` comes from splitting a run before the merging. `C104_false` computes a run on `slopeBoard`. False as it stands (C104_false): is_enabled of a conflict is false from the start, so the dialog shows a solved conflict as not taken into account, and nothing reads it, so its policies are merged again. C104_partial: whatever is ticked, the rerun gives the same axis. That nothing reads the member is in the model (runFromTooClose), from a search through the sources. | `Board.C104_partial`, `Board.C104_false` |
| C105 | partial | `crossings_parity`: two rays from a point through no corner meet numbers of edges of a closed line of the same parity. It goes edge by edge: an edge meets only one of the rays when it has just one end in the wedge between them (`edge_wedge`), and round a closed line the changes are even in number (`ring_parity`). `crossing_through` and `crossing_beyond` join the signs the code compares with the ray, that it cuts one unit out of the bounding box. C105_false: a point inside a box a thousandth thick, a hundred times the tolerance away from its border, is said outside, because the tolerance applies to areas. Proved (C105_evenodd_partial) for every closed line, simple or not, whose corners are on a grid of 1/5000 with the point on it too, where the comparisons of areas are exact; missing are the points off the grid. C105_beyond_partial: what is beyond a line that has the polygon on its other side is outside. | `Geom.C105_evenodd_partial`, `Geom.C105_beyond_partial`, `Geom.C105_false` |
| C106 | partial | `same_side` (`Lemmas/Strip`): moving a point along a segment off the line, with a ray usable from both ends, each edge of the line is met from both or has one end in the strip between the two rays; round a closed line those are even in number. C106_false: of two points of a box a thousandth thick, joined inside it, one is said inside and the other outside. Proved (C106_same_partial) for every closed line with its corners and the two points on a grid of 1/5000; missing are the points off the grid. | `Geom.C106_same_partial`, `Geom.C106_false` |
| C107 | proved | `detect_ring` (`Lemmas/Ring`): along an edge, whatever the polygon, from what meeting each edge gives, the answers at the ends and middles, and `same_side`. `detect_rect` (`Lemmas/Rectilinear`) gives it for lines along the axes on the grid, where the comparisons with the tolerance are exact. The specification (`Spec/Inside`) is by the even-odd rule. Polygons with edges along the axes, of any shape, crossing themselves or not; multiples of 1/2500. C107_inside: an edge strictly inside. C107_point: an edge that is a point, such as those of a flat box. | `Board.C107_rectilinear`, `Board.C107_inside`, `Board.C107_point` |
| C108 | proved | As C79 with C107 in place of C77: `coarsely_covered` shows that ranges with their ends on the grid that cover the edge up to the tolerance cover it. The same polygons as C107. C108_covered for what is left unmeshed, C108_engulfed for an edge strictly inside. | `Board.C108_covered`, `Board.C108_engulfed` |
| C109 | proved | `C109_board` as C81 with C108 in place of C79; `C109_plan` as C85, where polygons may hide each other; `C109_file` as `C85_sided`, on a grid where closed lines that enclose an area enclose enough of it, and with wires walked there and back. C109_file goes from the shapes of a file to polygons along the axes, C109_plan from polygons to the lines, C109_board from the board. Spheres and cylinders are not along the axes and are left out; C85 tells of them when nothing hides them. | `Board.C109_board`, `Board.C109_plan`, `Board.C109_file` |
| C110 | proved | `Model/Decode` reads shapes, materials, properties and lines from the nodes. `Spec/Described` relates nodes with what they describe (`Draws`, `IsProperty`, `StructureOf`, `SavedLines`, `GridLines`); each relation is shown to hold of exactly what the model reads. The specification (Spec/Described) says what nodes stand for by relations, node by node; the theorems are equivalences with what the model decodes, or equations. Names, colours and messages are left out. How doubles are read from attributes is a parameter. | `Csx.C110_shape`, `Csx.C110_property`, `Csx.C110_document`, `Csx.C110_refused` |
| C111 | proved | `Model/Program` is `main` without its window: options, document read (C110), parameters decided (C46), board meshed (C109), document written (C60), file written (C48). `rendered` gives the lists written as lists of numbers near the lines (`toString6_number`, C44). `program_cases` gives the ways a run can end. C111_files and C111_kept hold for all runs; C111_squared is for shapes along the axes (C109) and says that the run ends. The output is assumed to be writable and its directory to exist; the other output formats are left out. | `Board.C111_files`, `Board.C111_kept`, `Board.C111_squared` |
| C112 | partial | `writeDocument_twice`: writing the same lines and parameters again changes nothing, as each change finds the node it made; `reading_written`: what was written is read as what it was written from, but for the parameters, which are decided the same (`overrides_twice`). The witness of C112_false is a document with two saved lines, run by C111_squared twice. False in general (C112_false): without --save-oemsh-params the first run drops the node of saved parameters, with the fixed lines in it, so that the second run has none of them and writes an empty grid. C112_partial: it holds when old lines are not kept, and either parameters are saved (and numbers survive being written) or there is nothing saved to read. With --integrate-old-mesh the lines of the first run are fixed lines of the second, and it is left out. | `Board.C112_partial`, `Board.C112_false` |
| C113 | partial | `accepts` is what the command line checks. C113_partial: `decides_holds` brings what holds of all the sources of a parameter (C46) to the parameter, then C111_squared. The witness of C113_false is a document with two saved lines, by the divergence of C95. False in general (C113_false): --dmax 0 is accepted, only the smoothness is checked, and with two lines apart the program never ends; the same with dmax saved as 0 in the document, which is not checked either. C113_partial: it ends when dmax is positive and the proximity limit not negative, wherever they are given, and the smoothness saved in the document, if any, is at least 1. | `Board.C113_partial`, `Board.C113_false` |
| C114 | partial | `Model/Toolbar` over `Model/Window`: the four buttons, enabled or not, and clicks. What domain calls do to the remembered timepoints is summed up by `Trail` (untouched, or a timepoint made and the redoable ones forgotten), by induction over the calls and the steps; a click then leaves the user on the next remembered timepoint (`Follows`), and Undo returns. False when Previous is clicked while browsing: witness of four clicks. False in general (C114_false): when Previous is clicked while something can be redone, the new place is remembered at the end of the history but the browsing position stays, so that Undo goes back from the old position; four enabled clicks (Previous, Undo, Previous, Undo) lead to the board before any step. C114_partial: it holds when no click but Undo and Redo moves to an existing timepoint while something can be redone. | `Props.C114_partial`, `Props.C114_false` |
| C115 | partial | Same model. Previous and Next by the search of the annotated ancestor that both the enabling and the press make; Undo and Redo by the place where the user stands and by no timepoint being remembered twice in a row (`reachable_apart`, induction over all calls). False for Redo after a click on Previous while browsing. C115_steps (Previous, Next, disabled buttons, for all clicks) and C115_refused hold in full. For Undo and Redo it is false (C115_false): after Previous is clicked while something can be redone, Redo is enabled and shows what is already shown. C115_partial: it holds for Undo and Redo when the clicks are orderly as in C114. | `Props.C115_steps`, `Props.C115_partial`, `Props.C115_false`, `Props.C115_refused` |
| C116 | partial | `Model/Delegate`: items with data, text and editability in two columns, the last painted cell of each type, one open combo box, and each function of the delegate. `Together` is the specification. C116_partial: an invariant over all things that happen (`Kept`), editors opened and left with the screen up to date (`Watched`). C116_repainted: painting the whole table each time is a case of it; the pairs that can be chosen by a sequence of six gestures. Two witnesses in C116_false. False in general (C116_false): the delegate remembers the last painted cell of each type, which can be the one of the old column, and then corrects or reads that one; the dialog is left with THIRDS and no normal, and accepting it does nothing. C116_partial: it holds when editors are opened and left with the new column painted last. C116_repainted: in particular when the whole table is painted after everything that happens, and then every pair that goes together can be chosen. | `Dialog.C116_partial`, `Dialog.C116_repainted`, `Dialog.C116_chosen`, `Dialog.C116_false` |
| C117 | partial | Same model and invariant; the witness is the first one of C116_false. False in general (C117_false), by the same cell painted last: the old normal is overwritten and becomes editable. C117_partial: it holds when editors are opened and left with the new column painted last. | `Dialog.C117_partial`, `Dialog.C117_false` |
| C118 | proved | Same model, `none` being undefined behaviour; invariant: the editor open shows one of its three choices. What is emitted by `commit` (C91). Proved for all sequences, without any assumption on what is painted. | `Dialog.C118_dialog`, `Dialog.C118_given`, `Dialog.C118_left` |
| C119 | partial | `C119_merging` by induction on the merges: a merge with a policy of one line keeps its coordinate, and two such policies that are merged are both at the coordinate or on the same side of it, so that their middle is as far. Then `board_kinds` (C88) tells which policies are of one line, and `program_squared` (C111) brings it to the grid written. The witness is computed with bounded versions of the loops. Holds unless another line asked for, a side of a shape that encloses no area or a slanted side is within the proximity limit (C119_partial for the program, C119_policy and C119_lines for the run, C119_added from what was added, C119_merging for the merges). False in general: 3 and 4 become 3.5 (C119_false). | `Mesh.C119_merging`, `Board.C119_policy`, `Board.C119_lines`, `Board.C119_added`, `Board.C119_partial`, `Board.C119_false` |
| C120 | proved | `Model/Graph.lean`: `populate` as the code wires, port by port; `Spec/Graph.lean` has `ComesFrom`, one constructor per member that holds an origin. `C120_wires` by an invariant on the wires drawn so far (`wireAll_ok`, `populate_ok`). Model of populate and of the wiring of each kind of node. Qt's item hierarchy is abstracted to ports and wires; positions are left out. | `Graph.C120_wires`, `Graph.C120_ports` |
| C121 | proved | `traverse` is a `partial_fixpoint`. `traverse_ends` by a measure (nodes not yet seen), `traverse_reaches` gives the transitive closure, and C120 makes it `Related`. The walk is modelled as a possibly endless recursion; that it ends is proved. Nodes are compared by the object they show. | `Graph.C121_chain` |
| C122 | proved | Invariant `Consistent` (who highlights whom = who is selected and has it in its chain) kept by each event (`runEvents_consistent`). Qt's part (what a click does to isSelected of the other items) is assumed as stated in the model. | `Graph.C122_highlighted` |
| C123 | proved | `Model/Sight.lean`: the nested reactions are modelled as they happen: `notify` (locked display) is called at each signal of `select`, `selectChild`, `clearTelling`. Invariant `Inv` kept by each action (`act_ok`); between signals only `Nearly` holds, which the locked display repairs (`displaySelectedChain_ok`). C123_visible, C123_selection, C123_structure, C123_mesh. What Qt does (hiding unselects, invisible items cannot be selected, when selectionChanged is emitted) is taken from its documentation and source, as written in Model/Sight.lean; one child stands for the children of a node; the rubber band is left out. | `Graph.C123_visible`, `Graph.C123_selection`, `Graph.C123_structure`, `Graph.C123_mesh` |
| C124 | partial | `hideEach_chain` (all ends hidden and unselected whatever the nested displays did), then `selectEach_shown` follows which nodes are visible when their turn comes. Witness: two policies of a board without anything else. False in general (C124_false; C124_lost tells what is kept): set_display_mode calls display_selected_chain without its lock, so that selecting the first node again hides the others, which then cannot be selected. C124_partial: kept when each selected node is in the chain of each other. | `Graph.C124_partial`, `Graph.C124_lost`, `Graph.C124_false` |
| C125 | partial | `Model/Session.lean` puts the saves and the closing of `Model/Files.lean` in a session, where the board, the parameters and the names outlive a refused file. `Spec.Reached` follows the document shown beside the session, `Shows` relates them (`act_shows`), and `SavedTo` says what a save does whatever the answers. False when closing after a refused file (C125_false, two cases). C125_partial for every action of a session while a document is shown, and none written while none is; C125_written: a save does write when the user agrees. C125_chosen: an export leaves the file the next save goes to. What is read from and written into a text is a parameter of the environment; that a save can be read back exactly is a hypothesis (Exact). Memory freed by Caretaker::reset while the old board stays is not modelled. | `Props.C125_partial`, `Props.C125_written`, `Props.C125_chosen`, `Props.C125_false` |
| C126 | partial | Invariant of the session: not unsaved implies kept in some file (`reached_kept`), through `savedTo_kept`. Witnesses computed in an environment whose texts are strings. False (C126_false): opening a file never asks; a declined Save as renames the file the window names. C126_partial: a document not considered as unsaved is in some file, when no other program writes. | `Props.C126_partial`, `Props.C126_false` |
| C127 | partial | `Model/Show.lean`: per timepoint what the scenes of the two views were told, with the members the views keep beside. Invariant `Inv` (`reached_inv`), one lemma per action that tells the whole state after (`clickPlane_ok` … `openFile_ok`). False after another file is opened (C127_false). C127_partial: kept by everything done with one document, undo and redo included; C127_keys: PageUp and PageDown. | `Props.Show.C127_partial`, `Props.Show.C127_keys`, `Props.Show.C127_false` |
| C128 | partial | The same lemmas; witnesses: sequences of five and six actions, run. False after going back to a timepoint (C128_false, plane and axes). C128_partial: kept going forward, and established by a click. | `Props.Show.C128_partial`, `Props.Show.C128_false` |
| C129 | partial | `deed_ok`: under `Inv` each action but Fit ends, as the scenes looked up exist whenever the buttons are enabled; `fit_crashes`. False of Fit without a document (C129_false: in every such state). C129_partial: everything else never throws. | `Props.Show.C129_partial`, `Props.Show.C129_false` |
| C130 | partial | `Model/Plantuml.lean` is the text, line by line; `Spec/Plantuml.lean` reads it back (lines, words, declarations, arrows, braces) without using how it was made. Each line is read once (`reads_opening`, `reads_pin`, `reads_field`, `reads_arrow`), then each object as a block (`Block`); names are unique through `key`, the number a name begins with. False when the name of a polygon has a quote (C130_false). C130_partial for all boards whose names have neither quotes nor ends of lines. Colours, and the values of the fields, are in the model but not in the statement. | `Uml.C130_partial`, `Uml.C130_false` |
| C131 | partial | `Model/Progress.lean` is, loop by loop, the list of calls made to the bar; what a loop finds is a parameter, except for the policies too close, where the loop is the modelled one. `Spec/Progress.lean` says what a list of numbers that climbs from one number to another is. Each loop gives such a list (`Does`), and lists that climb are appended; the angles need e*e = 3e + 2 pairs + the rest (`square_pairs`). False of fixed policies, of diagonal angles with a polygon of more than three edges, of one angle, of one policy and of an empty mesh (C131_false). C131_partial for all other loops; C131_angles for where the angles end. What a loop finds is a parameter, except for policies too close. | `Bar.C131_partial`, `Bar.C131_angles`, `Bar.C131_false` |
| C132 | partial | `windowShows` folds `QProgressBar::setValue`, which ignores values out of range, over the calls. False of progress told by two numbers (C132_false). C132_partial with C132_loops_partial for progress told by one number; C132_ahead for how far ahead the window is. | `Bar.C132_partial`, `Bar.C132_loops_partial`, `Bar.C132_ahead`, `Bar.C132_false` |
| C133 | partial | `barWidth` is computed modulo 2^64; the lengths of the messages are compared by computation, those of numbers by induction (`decimal_length`). False with numbers of eleven digits (C133_false). C133_partial for all numbers of at most ten. | `Bar.C133_partial`, `Bar.C133_false` |
| C134 | partial | `Model/Structure.lean` is the filling of a scene, add by add, with the shapes the constructors of the items compute; a failed dereference is undefined behaviour. `Spec/Structure.lean` says which axis of a plane goes which way, what a line or strip across a picture is, and which objects are to be seen. Colours, brushes, pens and the order of painting are left out. C134_defined, C134_present and C134_once for all boards. False of colinear conflicts in the other plane of their axis (C134_false); C134_places_partial for everything else. | `Structure.C134_defined`, `Structure.C134_present`, `Structure.C134_once`, `Structure.C134_places_partial`, `Structure.C134_false` |
| C135 | partial | `Lemmas/Final.lean` (the distance left) with the weaving of C71, and the offsets `convert_policy_lines` computes. False between two policies (C135_false, the policies of C71_false). C135_around_partial: what does hold of both lines, and which one is exact. | `Structure.C135_around_partial`, `Structure.C135_false` |
| C136 | partial | `Model/Sync.lean`: the signals are direct calls, so the eight functions call each other and are defined together with `partial_fixpoint`; a recursion that does not end is `none`. What Qt does on `setSelected`, `clearSelection` and hiding is stated in the file. `Works` says that a change in the processing scene reaches every scene that is not locked; first while the chain display is locked, then from it for the chain display itself. C136_ends: the recursion ends and the locks are released. False at any time (C136_false); C136_follow_partial for what holds after each action. That each drawn object has a node is a hypothesis, true of the two populate functions. | `Sync.C136_ends`, `Sync.C136_follow_partial`, `Sync.C136_false` |
| C137 | partial | Same model; the items hidden are unselected one after the other. False of what the plane does not show (C137_false); C137_hide_partial otherwise. | `Sync.C137_hide_partial`, `Sync.C137_false` |
| C138 | proved | `Model/Layout.lean`: `Container::fit` loop by loop, the map of columns as its keys in order and a function, and the bounds of `Node::itemChange` on every position set. Invariants of the loops give each column as its nodes stacked with one space; then arithmetic. The smallest zone: any tidy placement is at least as far on the right in each column and as high. Sizes are what boundingRect gives when fit reads it; when Qt applies a new size is left out. | `Layout.C138_tidy`, `Layout.C138_least`, `Layout.C138_spread`, `Layout.C138_hidden` |
| C139 | proved | Same file; the two loops of `fit_scene` and the union of rectangles. Of visible containers with sizes; for the rectangle, some container visible. | `Layout.C139_apart`, `Layout.C139_places`, `Layout.C139_view` |
| C140 | proved | The two recursions are one definition with `partial_fixpoint` on the wires of C120; that a conflict's number is the greatest of those of its policies is proved by induction on the order in which they were made. Joined with C138. Made b rank: what an object comes from was made before it (origins and policies of conflicts are given when made and never removed), and fewer than 2^62 objects. | `Layout.C140_columns`, `Layout.C140_right` |
| C141 | partial | `Model/Warnings.lean`: numbers, names and the four sets, on the nodes of `Model/Document.lean`; the sets are lists in order. The loops are shown to add the members of a filtered list, and the numbers to be places in the document. False of kinds never heard of (C141_false, a property and a primitive): they are left out without a word. C141_partial when there are none; C141_left, C141_names and C141_found for every document. Texts among primitives, which take a number, are not nodes of the model. | `Csx.C141_left`, `Csx.C141_names`, `Csx.C141_partial`, `Csx.C141_found`, `Csx.C141_false` |
| C142 | proved | `Model/Sinks.lean`: both sinks, and the logger of C50 with the sinks that the program registers; what the user takes in a box is a function. That exec gives a button of the box is a hypothesis on Qt (Taken). | `Log.C142_answers` |
| C143 | partial | Same file; the lines typed are a list, its end is the end of the input. False (C143_false): an action not offered is accepted, and at the end of the input the question is repeated forever. C143_partial gives the answer whenever some line stands for an action. The program never makes this sink interactive. | `Log.C143_partial`, `Log.C143_offered`, `Log.C143_false` |
| C144 | partial | Same file. False (C144_false): the status bar shows the message alone, and information is not written unless the program is verbose. C144_partial for the other messages. | `Log.C144_partial`, `Log.C144_false` |
| C145 | partial | `Model/Editing.lean`: what the scene offers to edit and what the entries open; a node is its kind and the object. False of conflicts of colinear edges (C145_false): they are offered, and nothing opens. C145_partial without them, C145_colinear what happens with them. | `Graph.C145_kind`, `Graph.C145_partial`, `Graph.C145_asked`, `Graph.C145_colinear`, `Graph.C145_false` |
| C146 | partial | `Model/Pretty.lean`: the text, colours included, written by the serializer; the spec reads the text back as a terminal shows it. Numbers are written by the same function as in C130. False of conflicts of too close policies (C146_false): the serializer does not override that visit, and the chapter is empty. Proved of the other two kinds of conflicts, C146_untold says what is left out. | `Pretty.C146_colinear_partial`, `Pretty.C146_in_polygons_partial`, `Pretty.C146_untold`, `Pretty.C146_false` |
| C147 | proved | No new model: parser, board and all steps as for C71 to C85. `Spec/Moved.lean` says what it is to move a document. Proved step by step (`Lemmas/MovedAxis`, `MovedGeom`, `MovedZones`, `MovedConflicts`, `MovedRun`, `MovedBuild`); loops without end are compared through the inverse move. With exact numbers. The sorting functions are any that only compare (the standard leaves open the order of equal elements, not that the order depends on anything but comparisons), the measure of angles any that depends on directions only. C147_added also covers documents with fixed lines kept. | `Moved.C147_added`, `Moved.C147_parsed`, `Moved.C147` |
| C148 | proved | No new model: merges, intervals and meshing as for C25 to C40. `Spec/Asked.lean` says what the policies come to at a coordinate. Proved by following the merges of both axes at once (`Lemmas/Asked`: what the policies bring at each coordinate is kept alike, ending with the same policies in the order of coordinates), then by renumbering the policies (`Lemmas/AskedMesh`). With exact numbers. C148 is about an axis, C148_run about a board with its kept lines in another order. The function that sorts the intervals is any that only compares. C148_near shows that kept lines nearer than the tolerance are left out by the claim for a reason: the first one given stands for the others. | `Asked.C148`, `Asked.C148_run`, `Asked.C148_near` |
| C149 | partial | No new model. `Spec/Scaled.lean` says what is multiplied. Proved by following each loop of the merges, of the fields of lines, of the adjustments and of the meshing in both units (`Lemmas/Scaled`, `Lemmas/ScaledMesh`); the converse by the inverse factor. The comparison with a tolerance in the check of the fields of lines is shown not to matter (`valid_found`: the last gap compared is the one limited). False of the code: lines to keep are compared with an absolute tolerance of 1e-8, so those nearer than that in one unit are dropped (C149_false: kept lines 0 and 4 give five lines, in a unit 1e9 times longer a single one). C149_partial proves the claim when the kept lines are nearly the same in both units or in none, and the limit on the ratio of cells is at least 1. One axis at a time, from the policies asked for to the lines; the detection of conflicts, where tolerances are used as well, is not covered. | `Scaled.C149_partial`, `Scaled.C149_false` |
| C150 | partial | No new model. `Spec/Mirror.lean` says what a reflection is. Proved by comparing each loop on an interval with the loop on its reflection, whose two sides are exchanged (`Lemmas/Mirror`); gaps of different sizes make the order in which intervals are solved the same; making the intervals from the other end leaves the same policies, since each turn takes a minimum (`turn_comm`); the pointers sorted by opposite keys are reversed (`Lemmas/MirrorRun`). False of the code: intervals of the same size are solved one after the other in an order that depends on where they are, and what is changed for one is seen by the next (C150_false: kept lines 0, ±5, ±10, ±11 give cells of 0.5 on the left of 0 and of 2.5 on its right); and of two pairs of policies equally near, the first is merged (C150_merged_false). C150_partial proves the claim for any sorting functions when no policies are near enough to be merged, no two gaps are of the same size, and there are no diagonal zones. One axis at a time, from the policies asked for to the lines. | `Mirror.C150_partial`, `Mirror.C150_false`, `Mirror.C150_merged_false` |
| C151 | proved | `Model/Wires.lean`: ports with anchor, place, visibility and wires; wires with style, visibility and the path made last; `update_path`, both `itemChange`, `attach_pos`, `paint`, `set_wire_style`. `Spec/Wires.lean` says where a wire is to be, without the formulas of the model, and which events may happen. Proved by an invariant kept by each event (`Sound`, `Current` in `Lemmas/WiresRun`); loops over wires are described by `Changed`. Events are those of Spec/Wires.lean; Qt is trusted to tell items what changed. C151_unique: the path that joins two ports in a style is the only one, so the claim fixes what is drawn. C151_resized: the condition on sizes is needed, as only changes of position are listened to. Pens are left out. | `Wires.C151`, `Wires.C151_unique`, `Wires.C151_style`, `Wires.C151_resized` |
| C152 | proved | Same model, with `~Port`, `unwire` and the deletion of a scene; using a deleted object is `none`. Proved by an invariant of the loop in `~Port` (`Ending`), then over the ports. C152_order and C152_loop show that both conditions are needed: a wire deleted by Qt before its ports is used by them, and a port wired to itself deletes the wire twice. Wires are only made from an output port to an input port (processing_scene.cpp:312-323), so the second holds in the program. | `Wires.C152`, `Wires.C152_order`, `Wires.C152_loop` |
| C153 | proved | `Model/Orient.lean`: `QTransform` with real entries, `fmod`, the wheel, `fit`, `drawForeground`. `Spec/Orient.lean` states directions and headings by themselves. Proved by an invariant: the transformation is a positive factor times a turn by `rotation` times the reflection (`View.Kept`), kept since a bounding rectangle of a turned square is a square and turns by 360 degrees change nothing. Coordinates are reals, with sine and cosine; angles are rational. QTransform and QGraphicsView::fitInView are modelled after the documentation and sources of Qt, which is trusted. Scrolling and the font are left out. There must be a scene. C153_plane: the letters are those of the plane chosen last. | `Orient.C153`, `Orient.C153_turned`, `Orient.C153_fitted`, `Orient.C153_zoom`, `Orient.C153_plane` |
| C154 | partial | `Model/Layers.lean`: the groups of a scene from the bottom to the top, `addItem`, `removeItem` and `stackBefore` of Qt, the items and the index, the four functions that clear. Three orders can be reached, which is shown for all sequences; the claims about them are decided. Populating is shown for all lists of items by induction. False of the code: populating clears first, and clearing the mesh lines puts them on top of policies, intervals and conflicts (C154_false). C154_partial: what does hold after any sequence. C154_populated: the exact order, items and index of a populated scene. C154_angles: clear_all leaves the angles and forgets them in the index; it is only used on new scenes. That memory is used again is left out. | `Layers.C154_false`, `Layers.C154_partial`, `Layers.C154_populated`, `Layers.C154_angles`, `Layers.C154_cleared` |
| C155 | partial | `Shape` in `Model/Layers.lean`: selected, under the pointer, raised; the three handlers. Induction over the events. False of the code: a polygon deselected while the pointer is over it is lowered (C155_false). C155_partial: one direction always, the equivalence when that does not happen. | `Layers.C155_false`, `Layers.C155_partial` |
| C156 | partial | `Model/Title.lean`: the title beside the session of `Model/Session.lean`, updated where the code does. By cases on the action, with the lemmas of C125 on what a save writes. False of the code: a save that the user lets go to the output of the command line, or of a former document, changes the file of the window and not the title; nor does a file that is refused (C156_false). C156_partial: the title follows in all other cases. C156_saved: the message after a save is true. | `Props.C156_partial`, `Props.C156_saved`, `Props.C156_false` |
| C157 | partial | `Model/Api.lean`: `run_openemsh` over `main` of `Model/Files.lean`; openEMS writes and reads texts. By cases on whether the text is a document, may be overwritten and loads again. False of the code: with an output other than the file of the structure, the structure is read back without its mesh and nothing is raised (C157_false, C157_output for all such runs). C157_partial: without such an output, for the format csx, exactly when it returns and what is read. Runs with the window (-G) are not modelled here. | `Props.C157_partial`, `Props.C157_output`, `Props.C157_false` |
| C158 | partial | `Model/Api.lean`: the path is absent, a file or a directory with names; what a removal leaves is free. By cases. False of the code: without a cleanup a file at the path is taken for the directory (C158_false). C158_partial: the rest, and when it returns. | `Props.C158_partial`, `Props.C158_false` |
| C159 | partial | `Model/Paint.lean`: the style with its defaults, the two styles, the sixteen makers of pens and brushes and the choice in each `paint`, member by member. Widths, colours and dashes are kept, caps and joins are not. The style is one of two by induction on what was chosen; then by cases over the whole table. False of the code: in both styles a hovered edge is painted the same selected or not, and so is a hovered polygon in the colours of its material (C159_false). C159_partial: all the rest. C159_style: the style is the one chosen last. | `Paint.C159_style`, `Paint.C159_partial`, `Paint.C159_false` |
| C160 | partial | `Model/Paint.lean`, `paintPolygon`. By cases on the state, the setting and the material. False of the code: the colours of the material are used only while the polygon is selected or hovered (C160_false). C160_partial: exactly what is painted in each case. | `Paint.C160_partial`, `Paint.C160_false` |
| C161 | proved | `Model/Paint.lean`. As C159. Proved for all sequences of chosen styles. C161_selected: conflicts and intervals. | `Paint.C161`, `Paint.C161_selected` |
| C162 | partial | `Model/Paint.lean`. As C159. False of the code: conflict_docz_selected_hovered defaults to the colour of another conflict, which is opaque (C162_false). C162_partial: the other states, and intervals. | `Paint.C162_partial`, `Paint.C162_false` |
| C163 | proved | `Model/PaintGraph.lean`: the style of the processing view with its defaults, the two styles, the makers and the choices in each `paint`, member by member. `QColor::lighter` and `darker` are parameters; assumed is only that greys stay greys within a factor of two and that dark yellow stays yellow. By cases over the whole table. Proved, for hovered nodes from what is assumed of QColor::lighter and QColor::darker (Shades.Plain). C163_wire: wires, without any assumption. | `Paint.C163`, `Paint.C163_wire` |
| C164 | proved | `Model/PaintGraph.lean`. As C163. Proved, for hovered nodes from what is assumed of QColor::lighter and QColor::darker (Shades.Plain). C164_told: the colours of kinds of texts differ, without any assumption. C164_style: the style is the one chosen last. | `Paint.C164`, `Paint.C164_told`, `Paint.C164_style` |
| C165 | proved | `Model/NodeText.lean`: what the constructors of nodes write, line by line, with the kind of text of each; colours from `Model/PaintGraph.lean`. By cases, from C164_told and the injectivity of decimal numbers. Proved for edges. C165_angle, C165_policy, C165_ports, C165_polygon: angles, policies, conflicts of colinear edges, polygons. C165_values, C165_meshline: the lines of intervals, of diagonal or circular zones and of mesh lines. | `Paint.C165`, `Paint.C165_angle`, `Paint.C165_policy`, `Paint.C165_ports`, `Paint.C165_values`, `Paint.C165_polygon`, `Paint.C165_meshline` |
| C166 | partial | `Model/NodeText.lean`, with `QString::number` from `Model/Dialog.lean`. Counterexample evaluated by the kernel. False (C166_false): QString::number writes six digits, so two distances that differ in the seventh read the same. C166_partial: the rest is given. | `Paint.C166_false`, `Paint.C166_partial` |
| C167 | partial | `Model/NodeText.lean`: a null pointer is `none`, and the read through it at the end of each constructor is undefined behaviour, `none` as a result. False (C167_false): each constructor ends by reading the identifier through the pointer it tested before, which is undefined behaviour if it is null. C167_partial: defined exactly when there is an entity. | `Paint.C167_false`, `Paint.C167_partial` |

## Disagreements found between the properties and the code

Each is proved (theorem named) or, where no theorem is named, was seen while reading and is only noted.

State management (`src/utils/state_management.*`)
* A second state set at the same timepoint on an object with const states is ignored (`C06_false`); an interval in two
  diagonal zones loses its second conflict this way.
* A remembered timepoint can be lost when a jump is made while undone edits could be redone, then an edit
  (`C09_false`). `remember_current_timepoint` while browsing corrupts the redo list.
* Objects never registered do not follow undo (`C10_false_unregistered`): the board, angles, diagonal zones, and fixed
  line policies (`add_fixed_meshline_policy` passes the timepoint in the place of the boolean `is_enabled`, so that the
  policy is created with no timepoint). With reuse of the address of a freed timepoint a state can be dropped
  (`C10_false_address_reuse`).
* An object that outlives its creation timepoint reads freed memory after a garbage collection (`C04_false`).
* `reset` keeps the annotation of the root, so a second parse starts with a step marked as done (`C16_false`).

Application (`src/app`, `src/ui`)
* A step that makes no timepoint is run again for ever by `run_next_step` (`C14_false`), and `go_before` may not find
  the step (`C15_false`); the buttons and the progress bar then show a wrong step (`C72_false`, `C73_false`).
* Previous clicked while something can be redone breaks Undo: Previous, Undo, Previous, Undo leads to the board before any
  step (`C114_false`), and Redo can be enabled and do nothing (`C115_false`).
* PLANTUML output replaces the input file (`C17_false`); a refused write is reported as a success (`C18_false`); the
  window closes after a cancelled or failed save (`C19_false`).
* Edit models copy the state read after the run into the timepoint before the step, computed fields included.
  `EditModelGlobal` resets the parameters it does not show.

Domain (`src/domain`)
* `find_ls` and `adjust_d` do not end for zero lengths or smoothness under 1, reachable from the GUI and from files
  (C20, C22 divergence theorems).
* The too-close loop does not end when an enabled policy is already in a conflict (`C26_conflicting_diverges`).
* Edges closer than the tolerance are chained into one conflict or put in two (`C30_false`), tolerance equality is not
  transitive (`C39_false`).
* Overlap of descending diagonals returns wrong corners (`C36_false`).
* The tolerance of the point-in-polygon test is compared with an area (`C41_false`); its retry loop may not end
  (`C52_false`); two long nearly horizontal segments may cross without intersection (`C51_false`).
* The first range of an edge-in-polygon conflict counts whatever its normal (`C53_false`); downward covered edges may
  stay meshed (`C55_false`).
* Small boxes get no normal, hence no line (`C56_false`).
* `detect_edges_in_polygons` sorts with a comparator that is no strict weak order when an edge goes down along an edge of
  the polygon (`C78_false`), and reads `intersections[1]` of a list with one element for an edge shorter than the tolerance
  (`C78_index_false`).
* A slanted edge crossing a horizontal or vertical one gets no angle, against the comment "any other edge" (`C66_false`).
* `angle()` says it takes the acute side but gives the turning angle in [0, 180], which depends on the orientation of the
  edges.
* The minimal angle of a zone is ignored (`C68_false`); its `lmin` is initialised from the global `lmin` instead of
  `diagonal_lmin`, and is unused.
* The last zone of an interval decides its spacing, even when coarser (`C69_false`); an interval in two zones only knows
  the first (`C70_false`).
* The lines around an edge may be at different distances though it asks for halves: the `d` of a policy is lowered while
  meshing its second interval, after the first one was meshed with the old one (`C71_false`).
* Merges accumulate: a line may end further than the proximity limit from where its edge is (`C80_false`).
* The number of cells shown is the product of the numbers of lines, not of spaces (`C74_false`): 2×2×2 lines show 8 cells
  instead of 1.
* `add_fixed_meshline_policy` refuses a coordinate at which a *disabled* ONELINE policy is. Detection of close lines with
  fewer than two policies and an infinite limit dereferences an empty optional (not reachable with finite parameters).

Reading and writing (`src/infra`)
* Polygon and LinPoly ignore the plane flags (`C44_false`); cylinder sides use half the radius and no depth and the
  curve depth is only its lowest end (`C45_false`); shapes without vertices are undefined behaviour (`C58_false`).
* DeltaUnit is read as an unsigned integer (`C57_false`).
* Lines are written with six decimals (`C43_false`); diagonal zone parameters are not saved (`C47_false`), `lmin` over
  32 bits neither (`C47_false_large`).
* Writing without parameters removes the user's fixed lines (`C61_false`); the reader and the writer look for the
  structure in different orders (`C62_false`); saving parameters adds a second root element (`C63_false`).
* With both `--meshlines` and `--policy-lines` they are written twice and unsorted, with the lines of the policies only in the order
  of creation (`C75_false`).
* Numbers are read with `from_chars`, which accepts trailing garbage, `inf` and `nan`. A parse that fails after `reset` leaves
  the old board, whose objects are no longer registered. Axes excluded from the output lose the lines they had in the file.
* The edition dialogs show six significant digits and read them back, so accepting one unchanged rounds the numbers; the dialog of
  an interval resets the smoothness to 2 (`C91_false`).
* An edge turned off in its dialog is turned on again when it is partly in a polygon of at least the same priority (`C92_false`).
* A policy edited to a distance of 0 or less, or enabled again where another is, makes the meshing loop for ever; accepting its dialog
  unchanged may refine the mesh (`C93_false`).
* An interval edited to a limit of 0, or to a smoothness of 0.5, makes the meshing loop for ever; accepting its dialog unchanged sets
  its smoothness to 2 and coarsens the mesh (`C94_false`).
* Global parameters edited to a limit on cells of 0, a smoothness of 0.5 or a proximity limit of -1 make the run loop for ever
  (`C95_false`).
* The minimal angle typed in the dialog of a zone is not used, and a limit of 0 typed there makes the meshing loop for ever
  (`C96_false`).
* A list of lines with something else than a comma between two numbers is accepted, and the second is lost (`C100_false`).
* The face between two boxes of different materials and the same priority gets no policy and no line: each edge of it is
  covered by an edge of the other side, so both are dismissed (`C101_false`).
* Going back before the detection of angles and running again doubles the angles: `Board` is never given to `take_care_of`, and
  `detect_diagonal_angles` appends to what it holds (`C102_false`). The lines come out the same in the witness, conflicts do not.
* Undoing the edit of an angle leaves the angle edited: the next rerun uses what was undone (`C103_false`).
* The box "Enabled" of a conflict between policies too close is unticked for a conflict that was solved, and ticking or
  unticking it changes nothing (`C104_false`).
* The tolerance of the point-in-polygon test applies to areas, so points of thin polygons can be misplaced (`C105_false`, as `C41_false`).
* Two points on the same side of a thin polygon can get different answers (`C106_false`), for the same reason.
* Without `--save-oemsh-params` the fixed lines saved in a document are not in the output, and a second run on it writes an empty grid
  (`C112_false`, see also `C61_false`).
* `--dmax 0` is accepted by the command line, and the program never ends; the same of `dmax` in the document (`C113_false`).
* In the dialog of a meshline policy, the cell of the normal that follows the policy is the last one painted, which is that of the old
  values when the mouse went over it: choosing `THIRDS` then leaves no normal, writes in the column of old values, makes it editable, and
  accepting the dialog silently does nothing (`C116_false`, `C117_false`).
* Lines asked for by the user within the proximity limit of each other are not in the mesh: they are replaced by a line in their middle,
  as policies that come from shapes are (`C119_false`).
* Pressing the button of the selected chain while several nodes that have nothing in common are selected unselects all but the first:
  `set_display_mode` calls `display_selected_chain` without `is_display_selected_chain_locked`, so that the selection of the first node
  again makes the scene hide the others, and Qt refuses to select what is hidden (`C124_false`).
* After a file that is refused the window shows nothing but keeps the old board, and `is_unsaved` stays: closing asks whether to save,
  and Save writes the mesh of the previous document into the refused file, or, when the program was started with the first document,
  writes the refused file with that mesh over the first document (`C125_false`).
* Opening a file never asks about the unsaved document it drops; and Save as whose overwriting is declined still makes the name chosen
  the file of the window, so that a later close of a document saved elsewhere names a file that does not hold it (`C126_false`).
* Opening another file leaves the buttons of the mesh and of the display mode as they were, while the new scenes show the whole mesh
  and the selected chain (`C127_false`).
* The scene of a timepoint of the processing view keeps the plane and the axes it was last told; going back to it after the plane of
  the structure view changed shows the items of another plane, and a timepoint made next is told axes that are not shown (`C128_false`).
* The action Fit is enabled without a document, and `get_current_state` throws `std::out_of_range` (`C129_false`).
* The name of a primitive is written between quotes into the PlantUML text as it is; with a quote in it the line no longer declares the
  polygon (`C130_false`).
* The progress of fixed policies ends at one more than its maximum, that of diagonal angles short of it with polygons of more than three edges
  (`C131_false`). The bar of the window counts the second number of a tick from 0 where that of the terminal counts it from 1, so it is one
  ahead, and ignores the last tick (`C132_false`).
* A colinear conflict is drawn in both planes of its axis, but its coordinate is taken from the first point of its first edge as if that edge
  were of the plane drawn, so in the other plane it is at a coordinate of another axis (`C134_false`).
* The lines drawn around a policy use the distance its last interval left, which need not be the cell of the other side (`C135_false`).
* Lines selected in the processing view while hidden in a plane are not selected there when shown (`C136_false`); hiding selected lines in a plane
  unselects what is selected in other planes only (`C137_false`).
* Lines of the old mesh to keep are compared with an absolute tolerance, so a unit of length that is large enough merges lines that are
  far apart in terms of cells (`C149_false`).
* A symmetric structure may get a mesh that is not symmetric: intervals of the same size are solved one after the other
  (`C150_false`), and of policies equally near the first ones are merged (`C150_merged_false`).
* The mesh lines of the structure view cover the policies, the intervals and the conflicts, though the constructor of the scene puts
  them below: clearing a scene before it is populated puts them on top (`C154_false`).
* A polygon that is deselected while the pointer is over it is no longer raised (`C155_false`).
* The title of the window goes on naming the input after a save to another file, and the former file after a file that is refused
  (`C156_false`).
* `run_openemsh` with `-o` another file returns the structure without its mesh (`C157_false`).
* `ensure_sim_path` takes a file for the directory (`C158_false`).
* A hovered edge is painted the same selected or not, as is a hovered polygon in the colours of its material (`C159_false`).
* With the colours of the CSX properties asked for, a polygon has them only while it is selected or hovered (`C160_false`).
* A selected zone of diagonals becomes opaque when hovered (`C162_false`).
* The node of a policy gives six digits of its distance only (`C166_false`).
* The constructors of nodes test for a missing entity, and then read through the null pointer (`C167_false`).

## Code that is modelled

Every definition of `Verif/Model` and the lines of the code its comment cites.

* `Verif/Model/Api.lean`:
  `Args` (src/ui/cli/cli.cpp:133-142); `Args.params` (src/ui/cli/cli.cpp:129-142, 215-218); `runOpenemsh`; `Entry`; `Entry.exists`; `Entry.rmtree`; `Entry.mkdir`; `ensureSimPath`.
* `Verif/Model/App.lean`:
  `Step` (src/app/steps.hpp:16-32); `next` (src/app/openemsh.cpp:23-58); `fallthroughCases` (src/app/openemsh.cpp:66-80); `thatAndAfter` (src/app/openemsh.cpp:61-85); `index` (src/app/steps.hpp:36-57); `indexMax` (src/app/steps.hpp:60-62); `handled` (src/app/openemsh.cpp:169-183); `all` (src/app/openemsh.cpp:190-206); `Work` (src/app/openemsh.cpp:169-183); `handleAll` (src/app/openemsh.cpp:161-166, 169-183); `run` (src/app/openemsh.cpp:160-186); `runAllSteps` (src/app/openemsh.cpp:189-207); `runFromStep` (src/app/openemsh.cpp:223-225); `runNextStep` (src/app/openemsh.cpp:210-220); `goBefore` (src/app/openemsh.cpp:228-235); `goBeforePreviousStep` (src/app/openemsh.cpp:238-241); `canRunANextStep` (src/app/openemsh.cpp:244-251); `canGoBefore` (src/app/openemsh.cpp:254-256); `getCurrentStep` (src/app/openemsh.cpp:259-266); `parse` (src/app/openemsh.cpp:118-127); `handleEditionFrom` (src/ui/qt/main_window.cpp:650-654, 636-640).
* `Verif/Model/Build.lean`:
  `Part` (src/domain/geometrics/polygon.cpp:27-42); `makePart` (src/domain/board.cpp:102-120, src/domain/geometrics/polygon.cpp:27-42); `makeParts` (src/domain/board.cpp:102-120); `fixedLines` (src/domain/board.cpp:81-99); `makeEdge` (src/domain/geometrics/edge.hpp:39-45, src/domain/geometrics/edge.cpp:21-45); `firstEdge` (src/domain/geometrics/polygon.cpp:48-59); `asPolygon` (src/domain/geometrics/polygon.hpp:52-76); `asArea` (src/domain/geometrics/polygon.hpp:52-76); `Design` (src/domain/board.hpp:38-102); `assemble` (src/domain/board.cpp:65-72, src/domain/board.cpp:123-133); `buildDesign` (src/domain/board.cpp:65-133); `setReverse` (src/domain/board.cpp:241-243); `adjustPolygon` (src/domain/board.cpp:219-247); `adjustPlane` (src/domain/board.cpp:212-250); `adjustAll` (src/domain/board.cpp:623-626); `runDesign` (src/app/openemsh.cpp:169-207).
* `Verif/Model/Caretaker.lean`:
  `Fault` (src/utils/state_management.hpp:1-312, src/utils/tree_node.cpp:1-143); `Originator` (src/utils/state_management.hpp:109-146, src/domain/meshline_policy_manager.cpp:50-71, src/domain/board.cpp:91-97); `make` (src/utils/state_management.hpp:165-172); `searchRecorded` (src/utils/state_management.hpp:228-234); `actuallyGo` (src/utils/state_management.hpp:222-237); `go` (src/utils/state_management.hpp:212-214); `stateAt` (src/utils/state_management.hpp:206); `getCurrentState` (src/utils/state_management.hpp:204-207); `isErasable` (src/utils/state_management.hpp:244-249); `erase` (src/utils/state_management.hpp:240-257); `setState` (src/utils/state_management.hpp:278-292); `getAvailableStates` (src/utils/state_management.hpp:260-267); `Caretaker` (src/utils/state_management.hpp:43-93); `World` (src/utils/state_management.hpp:48); `fresh` (src/utils/state_management.cpp:22-27); `setObj` (src/utils/state_management.hpp:48); `keepOf` (src/utils/state_management.cpp:43-48); `eraseAll` (src/utils/state_management.cpp:63-66); `garbageCollector` (src/utils/state_management.cpp:40-80); `reset` (src/utils/state_management.cpp:30-37); `stopBrowsing` (src/utils/state_management.cpp:83-92); `makeNextTimepoint` (src/utils/state_management.cpp:110-114); `takeCareOf` (src/utils/state_management.cpp:117-124); `goAll` (src/utils/state_management.cpp:216-219); `goWithoutRemembering` (src/utils/state_management.cpp:213-224); `canUndo` (src/utils/state_management.cpp:161-174); `canRedo` (src/utils/state_management.cpp:177-187); `arriveAt` (src/utils/state_management.cpp:138-143, 152-157); `undo` (src/utils/state_management.cpp:127-144); `redo` (src/utils/state_management.cpp:147-158); `unpin` (src/utils/state_management.cpp:190-194); `pinCurrent` (src/utils/state_management.cpp:197-204); `rememberCurrent` (src/utils/state_management.cpp:207-210); `goAndRemember` (src/utils/state_management.cpp:227-232); `annotateCurrent` (src/utils/state_management.cpp:235-237); `getAnnotation` (src/utils/state_management.cpp:240-245); `findFirstAncestorWithAnnotationThat` (src/utils/state_management.hpp:156-162); `findFirstAncestorWithAnnotation` (src/utils/state_management.cpp:248-252); `setAutoGc` (src/utils/state_management.cpp:260-262); `create` (src/utils/state_management.hpp:165-172); `destroy` (src/utils/state_management.hpp:48); `setState` (src/utils/state_management.hpp:278-292); `setNextState` (src/utils/state_management.hpp:271-273, 295-298); `getCurrentState` (src/utils/state_management.hpp:204-207).
* `Verif/Model/Conflict.lean`:
  `BEdge` (src/domain/geometrics/edge.hpp:40-90); `BEdge.axis` (src/domain/geometrics/edge.cpp:24); `BEdge.normal` (src/domain/conflicts/conflict_colinear_edges.cpp:44-46, src/domain/board.cpp:501-503); `Colinear` (src/domain/conflict_manager.hpp:38, src/domain/conflicts/conflict_colinear_edges.hpp:20-22); `registered` (src/domain/conflict_manager.cpp:46-56); `addColinearLoop` (src/domain/conflict_manager.cpp:42-79); `addPair` (src/domain/conflict_manager.cpp:41-95); `addColinear` (src/domain/conflict_manager.cpp:35-97); `detectColinearInner` (src/domain/board.cpp:468-483); `detectColinear` (src/domain/board.cpp:453-487); `countFacing` (src/domain/conflicts/conflict_colinear_edges.cpp:40-68); `solveColinear` (src/domain/conflicts/conflict_colinear_edges.cpp:33-106); `Overlap` (src/domain/conflicts/conflict_edge_in_polygon.hpp:27-32); `overlapKey` (src/domain/conflicts/conflict_edge_in_polygon.cpp:23-62); `sortOverlaps` (src/domain/conflicts/conflict_edge_in_polygon.cpp:23-62); `joinRanges` (src/domain/conflicts/conflict_edge_in_polygon.cpp:86-96); `solveInPolygon` (src/domain/conflicts/conflict_edge_in_polygon.cpp:80-106); `castNormal` (src/domain/mesh/meshline_policy.cpp:49-64); `individual` (src/domain/board.cpp:498-521); `accepted` (src/domain/meshline_policy_manager.cpp:59-61); `edgePolicies` (src/domain/conflict_manager.cpp:280-290, src/domain/board.cpp:490-523); `MaterialKind` (src/domain/material.hpp:19-26); `MaterialKind.cmp` (src/domain/material.cpp:39-75); `deduceType` (src/domain/material.cpp:17-22, src/domain/material.hpp:44-46); `BPolygon` (src/domain/geometrics/polygon.hpp:52-76); `ambientMatch` (src/domain/board.cpp:188-193); `ambientLess` (src/domain/board.cpp:196-202); `findAmbient` (src/domain/board.cpp:184-209); `outside` (src/domain/board.cpp:222-236); `adjustEdge` (src/domain/board.cpp:218-247).
* `Verif/Model/Csx.lean`:
  `Point3` (src/infra/parsers/csxcad_layer/point_3d.hpp:14-22); `Flags` (src/infra/parsers/parser_from_csx.hpp:27-33); `Added` (src/domain/board.cpp:81-120); `toAxis` (src/infra/parsers/parser_from_csx.cpp:37-44); `toPlane` (src/infra/parsers/parser_from_csx.cpp:47-54); `sizeMax` (src/infra/parsers/parser_from_csx.cpp:69); `parsePriority` (src/infra/parsers/parser_from_csx.cpp:67-71); `addBox` (src/domain/board.cpp:112-120); `Shape` (src/infra/parsers/parser_from_csx.cpp:261-294); `parseBox` (src/infra/parsers/parser_from_csx.cpp:298-317); `parseMultibox` (src/infra/parsers/parser_from_csx.cpp:320-338); `parseLinpoly` (src/infra/parsers/parser_from_csx.cpp:341-420); `parsePolygon` (src/infra/parsers/parser_from_csx.cpp:423-442); `circlePoints` (src/domain/geometrics/polygon.cpp:215-231); `parseSphere` (src/infra/parsers/parser_from_csx.cpp:445-461); `parseCylinder` (src/infra/parsers/parser_from_csx.cpp:464-527); `parsePoint` (src/infra/parsers/parser_from_csx.cpp:530-553); `smallest` (src/infra/parsers/parser_from_csx.cpp:571); `backAndForth` (src/infra/parsers/parser_from_csx.cpp:573-581); `curveOn` (src/infra/parsers/parser_from_csx.cpp:567-584); `guarded` (src/infra/parsers/parser_from_csx.cpp:567); `parseCurve` (src/infra/parsers/parser_from_csx.cpp:556-621); `Primitive` (src/infra/parsers/parser_from_csx.cpp:255); `parsePrimitive` (src/infra/parsers/parser_from_csx.cpp:250-295); `PropertyKind` (src/infra/parsers/parser_from_csx.cpp:187-247); `parseProperty` (src/infra/parsers/parser_from_csx.cpp:187-247); `Property` (src/infra/parsers/parser_from_csx.cpp:714-724); `parsePrimitives` (src/infra/parsers/parser_from_csx.cpp:718-722); `parseProperties` (src/infra/parsers/parser_from_csx.cpp:714-724).
* `Verif/Model/Decode.lean`:
  `number` (src/infra/parsers/parser_from_csx.cpp:204-207); `natural` (src/infra/parsers/parser_from_csx.cpp:70); `point3` (src/infra/parsers/parser_from_csx.cpp:302-309); `point2` (src/infra/parsers/parser_from_csx.cpp:353-355); `childrenNamed` (src/infra/parsers/parser_from_csx.cpp:322); `decodeShape` (src/infra/parsers/parser_from_csx.cpp:261-294); `isTransformed` (src/infra/parsers/parser_from_csx.cpp:255); `decodePrimitive` (src/infra/parsers/parser_from_csx.cpp:67-71); `decodeMaterial` (src/infra/parsers/parser_from_csx.cpp:202-209, src/domain/material.hpp:44-46); `decodeKind` (src/infra/parsers/parser_from_csx.cpp:211-246); `decodeProperty` (src/infra/parsers/parser_from_csx.cpp:714-722); `rooted` (src/infra/parsers/parser_from_csx.cpp:676-689); `readProperties` (src/infra/parsers/parser_from_csx.cpp:713-714); `readBackground` (src/infra/parsers/parser_from_csx.cpp:696); `addLines` (src/infra/parsers/parser_from_csx.cpp:140-148); `addAllLines` (src/infra/parsers/parser_from_csx.cpp:140-148); `readSaved` (src/infra/parsers/parser_from_csx.cpp:133-149); `Reading` (src/infra/parsers/parser_from_csx.cpp:74-83); `readDocument` (src/infra/parsers/parser_from_csx.cpp:663-748).
* `Verif/Model/Delegate.lean`:
  `allNormal` (src/ui/qt/edit/edit_delegate.cpp:36-40); `allPolicy` (src/ui/qt/edit/edit_delegate.cpp:43-47); `normalText` (src/infra/utils/to_string.cpp:41-48); `policyText` (src/infra/utils/to_string.cpp:51-58); `key` (src/ui/qt/edit/edit_delegate.cpp:65-71); `Column` (src/ui/qt/edit/edit_model.hpp:32); `Item` (src/ui/qt/edit/edit_model.hpp:54-57); `makeRow` (src/ui/qt/edit/edit_model.hpp:77-97); `Editor` (src/ui/qt/edit/edit_delegate.cpp:93-137); `Sheet` (src/ui/qt/edit/edit_delegate.hpp:28-29); `Sheet.made` (src/ui/qt/edit/edit_model_meshline_policy.cpp:27-46, src/ui/qt/edit/edit_delegate.cpp:86-90); `setItem` (src/ui/qt/edit/edit_delegate.cpp:163-181); `Sheet.paintPolicy` (src/ui/qt/edit/edit_delegate.cpp:200-220); `Sheet.paintNormal` (src/ui/qt/edit/edit_delegate.cpp:200-220); `Sheet.normalChoices` (src/ui/qt/edit/edit_delegate.cpp:104-126); `showText` (src/ui/qt/edit/edit_delegate.cpp:154); `Sheet.openPolicy` (src/ui/qt/edit/edit_delegate.cpp:93-155); `Sheet.openNormal` (src/ui/qt/edit/edit_delegate.cpp:93-155); `Sheet.choose` (src/ui/qt/edit/edit_delegate.cpp:96-126); `Sheet.enforce` (src/ui/qt/edit/edit_delegate.cpp:167-187); `Sheet.close` (src/ui/qt/edit/edit_delegate.cpp:158-197); `Happening` (src/ui/qt/edit/edit_delegate.cpp:93-241); `Sheet.step` (src/ui/qt/edit/edit_delegate.cpp:93-241); `Sheet.steps` (src/ui/qt/edit/edit_delegate.cpp:93-241); `Sheet.rows` (src/ui/qt/edit/edit_model_meshline_policy.cpp:73-80); `Sheet.accept` (src/ui/qt/edit/edit_dialog.cpp:37-42).
* `Verif/Model/Diagonal.lean`:
  `Ang` (src/domain/geometrics/angle.cpp:14-21); `cornerLoop` (src/domain/board.cpp:265-273); `cornerAngles` (src/domain/board.cpp:264-276); `crossingAngle` (src/domain/board.cpp:288-301); `crossingAngles` (src/domain/board.cpp:280-306); `detectAngles` (src/domain/board.cpp:253-310); `BAngle` (src/domain/geometrics/angle.hpp:32-48); `neighbours` (src/domain/board.cpp:575-577); `underEdge` (src/domain/board.cpp:579-583, 587); `unique` (src/domain/board.cpp:595-596); `zoneAngles` (src/domain/board.cpp:571-605); `Zone` (src/domain/conflicts/conflict_diagonal_or_circular_zone.hpp:23-52); `ZoneParams` (src/domain/global.hpp:19-31); `Zones` (src/domain/conflict_manager.hpp:36-42); `addZone` (src/domain/conflict_manager.cpp:207-236, src/domain/conflicts/conflict_diagonal_or_circular_zone.cpp:20-29); `detectZonesOn` (src/domain/board.cpp:570-606); `detectZones` (src/domain/board.cpp:546-608); `detectAllZones` (src/domain/board.cpp:635-638); `ToMesh` (src/domain/geometrics/angle.hpp:23-27); `setToMesh` (src/domain/conflicts/conflict_diagonal_or_circular_zone.cpp:64-69, 74-79); `Zone.solveAngles` (src/domain/conflicts/conflict_diagonal_or_circular_zone.cpp:59-81); `solveAllAngles` (src/domain/conflict_manager.cpp:239-250); `solveZonesAngles` (src/domain/board.cpp:641-644); `anglePolicies` (src/domain/board.cpp:523-539, src/domain/conflict_manager.cpp); `Zone.bounding` (src/domain/conflicts/conflict_diagonal_or_circular_zone.cpp:40-51); `inZone` (src/domain/meshline_policy_manager.cpp:172-178); `detectPerZones` (src/domain/meshline_policy_manager.cpp:164-188); `intervalConflicts` (src/domain/meshline_policy_manager.cpp:179-181, src/utils/state_management.hpp:278-292); `Zone.solveIntervals` (src/domain/conflicts/conflict_diagonal_or_circular_zone.cpp:84-95); `solveAllIntervals` (src/domain/conflict_manager.cpp:253-264).
* `Verif/Model/Dialog.lean`:
  `sixDigitsOf` (src/ui/qt/edit/edit_model_global.cpp:29-42); `stripZeros` (src/ui/qt/edit/edit_model_global.cpp:29-42); `padded` (src/ui/qt/edit/edit_model_global.cpp:29-42); `withDot` (src/ui/qt/edit/edit_model_global.cpp:29-42); `exponentText` (src/ui/qt/edit/edit_model_global.cpp:29-42); `magnitudeText` (src/ui/qt/edit/edit_model_global.cpp:29-42); `number` (src/ui/qt/edit/edit_model_global.cpp:29-42); `digitsOf` (src/ui/qt/edit/edit_model.cpp:27-42); `exponentOf` (src/ui/qt/edit/edit_model.cpp:27-33); `unsignedOf` (src/ui/qt/edit/edit_model.cpp:27-33); `trimmed` (src/ui/qt/edit/edit_model.cpp:27-42); `toDouble` (src/ui/qt/edit/edit_model.cpp:27-33); `toULong` (src/ui/qt/edit/edit_model.cpp:36-42); `CheckState` (src/ui/qt/edit/edit_model.cpp:45-60); `toBool` (src/ui/qt/edit/edit_model.cpp:45-60); `ofBool` (src/ui/qt/edit/edit_model.hpp:65-69); `GlobalRows` (src/ui/qt/edit/edit_model_global.cpp:22-43); `GlobalRows.shown` (src/ui/qt/edit/edit_model_global.cpp:22-43); `GlobalRows.commit` (src/ui/qt/edit/edit_model_global.cpp:46-64); `IntervalRows` (src/ui/qt/edit/edit_model_interval.cpp:18-39); `IntervalRows.shown` (src/ui/qt/edit/edit_model_interval.cpp:18-39); `IntervalRows.commit` (src/ui/qt/edit/edit_model_interval.cpp:42-58); `PolicyRows` (src/ui/qt/edit/edit_model_meshline_policy.cpp:27-46); `PolicyRows.shown` (src/ui/qt/edit/edit_model_meshline_policy.cpp:27-46); `compatible` (src/ui/qt/edit/edit_model_meshline_policy.cpp:52-71); `PolicyRows.commit` (src/ui/qt/edit/edit_model_meshline_policy.cpp:49-87); `ZoneRows` (src/ui/qt/edit/edit_model_conflict_diagonal_or_circular_zone.cpp:18-31); `ZoneRows.shown` (src/ui/qt/edit/edit_model_conflict_diagonal_or_circular_zone.cpp:18-31); `ZoneRows.commit` (src/ui/qt/edit/edit_model_conflict_diagonal_or_circular_zone.cpp:34-50); `commitEdge` (src/ui/qt/edit/edit_model_edge.cpp:30-43); `commitAngle` (src/ui/qt/edit/edit_model_angle.cpp:30-43); `commitTooClose` (src/ui/qt/edit/edit_model_conflict_too_close_meshline_policies.cpp:29-41); `tooCloseMade` (src/utils/state_management.hpp:175-182, src/domain/conflicts/conflict_too_close_meshline_policies.hpp:18-20, src/domain/conflicts/conflict_too_close_meshline_policies.cpp:68-81); `tooCloseShown` (src/ui/qt/edit/edit_model_conflict_too_close_meshline_policies.cpp:22-25).
* `Verif/Model/Document.lean`:
  `Node` (src/infra/serializers/serializer_to_csx.cpp:60-131, src/infra/parsers/parser_from_csx.cpp:663-748); `name` (src/infra/parsers/parser_from_csx.cpp:256); `attrs` (src/infra/parsers/parser_from_csx.cpp:127-134); `text` (src/infra/parsers/parser_from_csx.cpp:136-141); `children` (src/infra/serializers/serializer_to_csx.cpp:60-73); `attr?` (src/infra/parsers/parser_from_csx.cpp:127-134); `child` (src/infra/serializers/serializer_to_csx.cpp:60-73); `onAppended` (src/infra/serializers/serializer_to_csx.cpp:68-73); `onPrepended` (src/infra/serializers/serializer_to_csx.cpp:60-65); `Node.onChild` (src/infra/serializers/serializer_to_csx.cpp:60-73); `Params` (src/domain/global.hpp:19-31); `Codec` (src/infra/serializers/serializer_to_csx.cpp:117-126, src/infra/parsers/parser_from_csx.cpp:127-131); `Output` (src/infra/serializers/serializer_to_csx.hpp:21-28); `linesNode` (src/infra/serializers/serializer_to_csx.cpp:107); `writeGridNode` (src/infra/serializers/serializer_to_csx.cpp:92-115); `writeStructure` (src/infra/serializers/serializer_to_csx.cpp:85-93); `savedAttrs` (src/infra/serializers/serializer_to_csx.cpp:121-125); `setAttrs` (src/infra/serializers/serializer_to_csx.cpp:121-125); `removeFirst` (src/infra/serializers/serializer_to_csx.cpp:76-131); `writeDocument` (src/infra/serializers/serializer_to_csx.cpp:76-131); `select` (src/infra/parsers/parser_from_csx.cpp:663-748); `readStructure` (src/infra/parsers/parser_from_csx.cpp:676-695); `gridNode` (src/infra/parsers/parser_from_csx.cpp:154-164); `readAttrs` (src/infra/parsers/parser_from_csx.cpp:127-131); `readParams` (src/infra/parsers/parser_from_csx.cpp:671-674); `Override` (src/ui/cli/cli.cpp:155-201); `Override.apply` (src/ui/cli/cli.cpp:99-107); `runParams` (src/ui/cli/cli.cpp:230-233, src/infra/parsers/parser_from_csx.cpp:636-644).
* `Verif/Model/EdgeInPolygon.lean`:
  `Outcome` (src/domain/board.cpp:315-450); `Outcome.bind` (src/domain/board.cpp:315-450); `Outcome.map` (src/domain/board.cpp:315-450); `Outcome.fold` (src/domain/board.cpp:320-450); `Found` (src/domain/conflicts/conflict_edge_in_polygon.hpp:27-32); `Found.overlap` (src/domain/conflicts/conflict_edge_in_polygon.cpp:87-88); `InPolygon` (src/domain/conflict_manager.hpp:37); `Found.isIn` (src/domain/conflict_manager.cpp:122-130); `addInPolygon` (src/domain/conflict_manager.cpp:106-169); `meet` (src/domain/board.cpp:355-377); `pointBefore` (src/domain/board.cpp:27-62); `WeakOrderOn` (src/domain/board.cpp:27-62); `OrderSorter` (src/domain/board.cpp:31-61); `sortPoints` (src/domain/board.cpp:27-62); `uniqueAfter` (src/domain/board.cpp:392); `uniquePoints` (src/domain/board.cpp:392-393); `between` (src/domain/board.cpp:404-405); `midPoint` (src/domain/geometrics/segment.cpp:172-174, src/domain/geometrics/point.cpp:43-45); `pointRelation` (src/domain/geometrics/polygon.cpp:159-205); `endRange` (src/domain/board.cpp:396-398, src/domain/board.cpp:399-401); `endRanges` (src/domain/board.cpp:396-401); `middlesIn` (src/domain/board.cpp:418-422); `detectEdge` (src/domain/board.cpp:334-432); `PPolygon` (src/domain/geometrics/polygon.hpp:52-76); `concerns` (src/domain/board.cpp:324-332); `detectOne` (src/domain/board.cpp:334-433); `detectInPolygons` (src/domain/board.cpp:315-450).
* `Verif/Model/Editing.lean`:
  `Labels` (src/ui/qt/processing_view/processing_edge.cpp:115, src/ui/qt/processing_view/processing_polygon.cpp:80); `typeIndex` (src/ui/qt/processing_view/processing_scene.cpp:485-493); `typeText` (src/ui/qt/processing_view/processing_angle.cpp:133); `makeTitle` (src/ui/qt/processing_view/processing_scene.cpp:499-504); `Form` (src/ui/qt/edit/edit_model.cpp:63-81); `Form.make` (src/ui/qt/edit/edit_model.cpp:63-81); `Entry` (src/ui/qt/processing_view/processing_scene.cpp:525-533); `Comes` (src/ui/qt/processing_view/processing_scene.cpp:506-516, 518-535); `editNode` (src/ui/qt/processing_view/processing_scene.cpp:506-516); `edit` (src/ui/qt/processing_view/processing_scene.cpp:484-537, src/ui/qt/main_window.cpp:538-544, 623-625); `Entry.trigger` (src/ui/qt/processing_view/processing_scene.cpp:530-532); `editSelected` (src/ui/qt/processing_view/processing_scene.cpp:479-481, src/ui/qt/main_window.cpp:530-534); `doubleClick` (src/ui/qt/processing_view/processing_scene.cpp:473-476).
* `Verif/Model/Files.lean`:
  `Format` (src/app/openemsh.hpp:38-42); `Params` (src/app/openemsh.hpp:28-45); `WriteOutcome` (src/app/openemsh.cpp:147, src/infra/serializers/serializer_to_csx.cpp:130); `Disk` (src/app/openemsh.cpp:147, src/infra/serializers/serializer_to_csx.cpp:130); `Env` (src/infra/serializers/serializer_to_csx.cpp:76-128); `finalCallback` (src/ui/cli/cli.cpp:215-218); `Env.save` (src/app/openemsh.cpp:147, src/infra/serializers/serializer_to_csx.cpp:130); `isAboutOverwriting` (src/app/openemsh.cpp:130-137); `write` (src/app/openemsh.cpp:140-157, src/infra/serializers/serializer_to_csx.cpp:76-131); `main` (src/main.cpp:35-73, 89); `UserAction` (src/utils/logger.hpp:27); `Window` (src/ui/qt/main_window.hpp:28-33); `answer` (src/ui/qt/logger.cpp:19-29); `saveCsxFile` (src/ui/qt/main_window.cpp:380-419); `onSave` (src/ui/qt/main_window.cpp:422-443); `closeEvent` (src/ui/qt/main_window.cpp:743-759).
* `Verif/Model/Fixed.lean`:
  `Axis.addFixed` (src/domain/board.cpp:82-98); `Axis.addAllFixed` (src/domain/board.cpp:609-620).
* `Verif/Model/Geometry.lean`:
  `coordEq` (src/domain/geometrics/coord.cpp:28-30, src/domain/geometrics/coord.cpp:38-55); `mid` (src/domain/geometrics/coord.cpp:78-80); `Point` (src/domain/geometrics/point.hpp:18); `Point.sub` (src/domain/geometrics/point.cpp:20-22); `Point.advance` (src/domain/geometrics/point.cpp:25-27); `Point.eq` (src/domain/geometrics/point.cpp:30-33); `Bounding` (src/domain/geometrics/bounding.hpp:19); `overlap1D` (src/domain/geometrics/bounding.cpp:24-26, src/domain/geometrics/polygon.cpp:209-211); `contains1D` (src/domain/geometrics/bounding.cpp:18-20); `Bounding.overlap` (src/domain/geometrics/bounding.cpp:30-33); `Bounding.overlapStrict` (src/domain/geometrics/bounding.cpp:37-40); `Axis` (src/domain/geometrics/space.hpp:16); `Plane` (src/domain/geometrics/space.hpp:19); `ViewAxis` (src/domain/geometrics/space.hpp:22); `axes` (src/domain/geometrics/space.hpp:25-29); `transposeAxis` (src/domain/geometrics/space.cpp:24-50); `transposeView` (src/domain/geometrics/space.cpp:53-72); `ViewAxis.reverse` (src/domain/geometrics/space.cpp:75-81); `SegAxis` (src/domain/geometrics/segment.hpp:24-29); `transposeSeg` (src/domain/geometrics/segment.cpp:219-238); `SegAxis.toView` (src/domain/geometrics/segment.cpp:241-247); `ViewAxis.toSeg` (src/domain/geometrics/segment.cpp:250-256); `Point.coord` (src/domain/geometrics/point.cpp:51-57); `segCoord` (src/domain/geometrics/segment.cpp:262-268); `Bounding.cast` (src/domain/geometrics/bounding.cpp:43-49); `Normal` (src/domain/geometrics/normal.hpp:14); `Normal.reverse` (src/domain/geometrics/normal.cpp:14-25); `Segment` (src/domain/geometrics/segment.hpp:21-39, src/domain/geometrics/edge.cpp:24); `vectorAxis` (src/domain/geometrics/segment.cpp:80-85); `Segment.axis` (src/domain/geometrics/segment.cpp:75-77); `Rotation` (src/domain/geometrics/polygon.hpp:45); `successors` (src/domain/geometrics/polygon.cpp:74); `area` (src/domain/geometrics/polygon.cpp:70-79); `detectRotation` (src/domain/geometrics/polygon.cpp:68-89); `Segment.bounding` (src/domain/geometrics/segment.cpp:88-95); `SegmentRel` (src/domain/geometrics/relation.hpp:14-19); `touching` (src/domain/geometrics/segment.cpp:50-53); `Segment.relationTo` (src/domain/geometrics/segment.cpp:35-62); `Segment.hasPoint` (src/domain/geometrics/segment.cpp:65-72); `slopesEq` (src/domain/geometrics/segment.cpp:24); `areParallel` (src/domain/geometrics/segment.cpp:19-25); `intersection` (src/domain/geometrics/segment.cpp:105-129); `pick` (src/domain/geometrics/segment.cpp:185-197, 199-211); `overlap` (src/domain/geometrics/segment.cpp:180-216); `merge` (src/domain/geometrics/segment.cpp:133-169); `Segment.eq` (src/domain/geometrics/range.cpp:31-33); `Direction` (src/domain/geometrics/edge.hpp:74); `edgeDirection` (src/domain/geometrics/edge.cpp:33-45); `edgeNormal` (src/domain/geometrics/polygon.cpp:125-151); `detectEdges.loop` (src/domain/geometrics/polygon.cpp:51-55); `detectEdges` (src/domain/geometrics/polygon.cpp:48-59); `Edge` (src/domain/geometrics/edge.hpp:49-101); `polygonEdges` (src/domain/geometrics/polygon.cpp:27-42); `detectBounding.loop` (src/domain/geometrics/polygon.cpp:103-108); `detectBounding` (src/domain/geometrics/polygon.cpp:96-111); `rangeZ` (src/domain/geometrics/polygon.cpp:21-24); `boxPoints` (src/domain/board.cpp:112-120); `PolygonRel` (src/domain/geometrics/relation.hpp:38-42); `rayEnd` (src/domain/geometrics/polygon.cpp:160-166, 175-177); `Scan` (src/domain/geometrics/polygon.cpp:180-187); `scanVertices` (src/domain/geometrics/polygon.cpp:180-187); `countCrossings` (src/domain/geometrics/polygon.cpp:191-198); `relationToPoint.loop` (src/domain/geometrics/polygon.cpp:172-204); `relationToPoint` (src/domain/geometrics/polygon.cpp:159-205).
* `Verif/Model/Graph.lean`:
  `Entity` (src/ui/qt/user_types.hpp:25-36); `Port` (src/ui/qt/utils/nodegraph/node.hpp:76-77); `Wire` (src/ui/qt/utils/nodegraph/wire.hpp); `Sockets` (src/ui/qt/data_keys.hpp:26-53); `Board`; `castOrigin` (src/ui/qt/processing_view/processing_meshline_policy.cpp:61-66); `eachPort` (src/ui/qt/processing_view/processing_meshline_policy.cpp:52-68); `sockets` (src/ui/qt/processing_view/processing_polygon.cpp:37); `Board.shown` (src/ui/qt/processing_view/processing_view.cpp:147-191); `Board.nodes` (src/ui/qt/processing_view/processing_scene.cpp:142-168); `Wire.traverse` (src/ui/qt/utils/nodegraph/wire.cpp:110-117); `wiresOf` (src/ui/qt/utils/nodegraph/wire.cpp:31-36); `isWiredTo` (src/ui/qt/utils/nodegraph/port.cpp:131-135); `portNodes` (src/ui/qt/utils/nodegraph/port.cpp:149-169); `inputNodes` (src/ui/qt/utils/nodegraph/node.cpp:195-215); `outputNodes` (src/ui/qt/utils/nodegraph/node.cpp:195-210, 218-220); `wireAll` (src/ui/qt/processing_view/processing_scene.cpp:312-323); `Board.toWire` (src/ui/qt/processing_view/processing_view.cpp:192-217); `populate` (src/ui/qt/processing_view/processing_view.cpp:146-220); `traverse` (src/ui/qt/utils/nodegraph/node.cpp:166-183); `chain` (src/ui/qt/utils/nodegraph/node.cpp:186-192); `Looks` (src/ui/qt/utils/nodegraph/highlightable.hpp:24-25); `Looks.fresh` (src/ui/qt/utils/nodegraph/highlightable.hpp:24); `put` (src/ui/qt/utils/nodegraph/highlightable.hpp:24-25); `setHighlighted` (src/ui/qt/utils/nodegraph/node.cpp:241-246); `highlightAll` (src/ui/qt/utils/nodegraph/node.cpp:74-76, 91-93); `setSelected` (src/ui/qt/utils/nodegraph/node.cpp:68-78); `deselectAll` (src/ui/qt/utils/nodegraph/node.cpp:84); `release` (src/ui/qt/utils/nodegraph/node.cpp:83-95); `Event` (src/ui/qt/processing_view/processing_scene.cpp:458-470, src/ui/qt/utils/nodegraph/node.cpp:83-95); `Event.run` (src/ui/qt/utils/nodegraph/node.cpp:57-95); `runEvents` (src/ui/qt/utils/nodegraph/node.cpp:57-95); `wireLit` (src/ui/qt/utils/nodegraph/wire.cpp:138).
* `Verif/Model/Interval.lean`:
  `Kind` (src/domain/mesh/meshline_policy.hpp:48-54); `Facing` (src/domain/mesh/meshline_policy.hpp:56-60); `Policy` (src/domain/mesh/meshline_policy.hpp:37-89); `Policies` (src/domain/mesh/interval.hpp:48-57); `Policies.setD` (src/domain/mesh/interval.cpp:28-30); `tolerance` (src/domain/global.hpp:40); `Side` (src/domain/mesh/interval.hpp:48-57); `Interval` (src/domain/mesh/interval.hpp:38-91); `dInitBefore` (src/domain/mesh/interval.cpp:48-63); `dInitAfter` (src/domain/mesh/interval.cpp:64-79); `Policy.make` (src/domain/mesh/meshline_policy.cpp:18-37); `Policy.mesh` (src/domain/mesh/meshline_policy.cpp:40-46); `calcH` (src/domain/mesh/interval.cpp:40-42); `Side.make` (src/domain/mesh/interval.cpp:21-32); `Interval.make` (src/domain/mesh/interval.cpp:45-87); `findLs.loop` (src/domain/mesh/interval.cpp:141-151); `findLs` (src/domain/mesh/interval.cpp:137-154); `isLsValid.loop` (src/domain/mesh/interval.cpp:179-183); `isLsValid` (src/domain/mesh/interval.cpp:163-186); `findDmaxSide` (src/domain/mesh/interval.cpp:189-204); `findDmax` (src/domain/mesh/interval.cpp:209-211); `Side.updateLs` (src/domain/mesh/interval.cpp:220-222, src/domain/mesh/interval.cpp:90-97); `adjustD.loop` (src/domain/mesh/interval.cpp:233-241); `adjustD` (src/domain/mesh/interval.cpp:225-243); `adjustSmoothness.loop` (src/domain/mesh/interval.cpp:327-345); `adjustSmoothness` (src/domain/mesh/interval.cpp:300-360); `Interval.autoSolveD` (src/domain/mesh/interval.cpp:363-383); `Interval.autoSolveSmoothness` (src/domain/mesh/interval.cpp:386-396); `Interval.mesh` (src/domain/mesh/interval.cpp:399-434); `Interval.solveAndMesh` (src/domain/meshline_policy_manager.cpp:212-214).
* `Verif/Model/Layers.lean`:
  `Layer` (src/ui/qt/structure_view/structure_scene.cpp:65-73); `stackBefore` (src/ui/qt/structure_view/structure_scene.cpp:90-102, 275-278, 292-293, 308); `lists` (src/ui/qt/structure_view/structure_scene.cpp:80-87, 93-100); `Scene` (src/ui/qt/structure_view/structure_scene.hpp:98-114); `firstOrder` (src/ui/qt/structure_view/structure_scene.cpp:77-102); `made` (src/ui/qt/structure_view/structure_scene.cpp:62-107); `add` (src/ui/qt/structure_view/structure_scene.cpp:117-262); `renew` (src/ui/qt/structure_view/structure_scene.cpp:266-273, 283-290, 299-306); `clearEdges` (src/ui/qt/structure_view/structure_scene.cpp:265-279); `clearPolygons` (src/ui/qt/structure_view/structure_scene.cpp:282-294); `clearMeshlinesOf` (src/ui/qt/structure_view/structure_scene.cpp:298-309); `clearMeshlines` (src/ui/qt/structure_view/structure_scene.cpp:297-310); `clearAll` (src/ui/qt/structure_view/structure_scene.cpp:313-318); `populate` (src/ui/qt/structure_view/structure_view.cpp:224-262); `Event` (src/ui/qt/structure_view/structure_scene.cpp:117-318); `Scene.on` (src/ui/qt/structure_view/structure_scene.cpp:117-318); `Shape` (src/ui/qt/structure_view/structure_polygon.cpp:35-120); `Touch` (src/ui/qt/structure_view/structure_polygon.cpp:58-80); `made` (src/ui/qt/structure_view/structure_polygon.cpp:35-51); `enter` (src/ui/qt/structure_view/structure_polygon.cpp:58-62); `leave` (src/ui/qt/structure_view/structure_polygon.cpp:65-69); `select` (src/ui/qt/structure_view/structure_polygon.cpp:72-80); `on` (src/ui/qt/structure_view/structure_polygon.cpp:58-80).
* `Verif/Model/Layout.lean`:
  `Box` (src/ui/qt/utils/nodegraph/container.cpp:82-89); `Column` (src/ui/qt/utils/nodegraph/container.cpp:66-73); `Columns` (src/ui/qt/utils/nodegraph/container.cpp:77); `set` (src/ui/qt/utils/nodegraph/container.cpp:84, 87); `Columns.reach` (src/ui/qt/utils/nodegraph/container.cpp:83-84); `sizes` (src/ui/qt/utils/nodegraph/container.cpp:81-91); `places` (src/ui/qt/utils/nodegraph/container.cpp:94-103); `width` (src/ui/qt/utils/nodegraph/container.cpp:106-108); `height` (src/ui/qt/utils/nodegraph/container.cpp:109-111); `Spacement` (src/ui/qt/utils/nodegraph/container.hpp:22); `Columns.each` (src/ui/qt/utils/nodegraph/container.cpp:127-129, 136-140, 148-152); `keep` (src/ui/qt/utils/nodegraph/node.cpp:57-67); `stack` (src/ui/qt/utils/nodegraph/container.cpp:141-145, 153-157); `Zone` (src/ui/qt/utils/nodegraph/container.hpp:38); `fit` (src/ui/qt/utils/nodegraph/container.cpp:62-163); `pile` (src/ui/qt/processing_view/processing_scene.cpp:96-102, src/ui/qt/utils/nodegraph/node.cpp:58); `fitScene` (src/ui/qt/processing_view/processing_scene.cpp:90-114); `Rect` (src/ui/qt/processing_view/processing_scene.cpp:126); `Rect.isNull` (src/ui/qt/processing_view/processing_scene.cpp:129); `Rect.union` (src/ui/qt/processing_view/processing_scene.cpp:129); `boundingRect` (src/ui/qt/processing_view/processing_scene.cpp:125-139); `sceneRect` (src/ui/qt/processing_view/processing_scene.cpp:116-122); `isPolicy` (src/ui/qt/processing_view/processing_meshline_policy.cpp:168); `isTcmlp` (src/ui/qt/processing_view/processing_meshline_policy.cpp:155); `deepnessOf` (src/ui/qt/processing_view/processing_meshline_policy.cpp:163-176); `deepness` (src/ui/qt/processing_view/processing_meshline_policy.cpp:163-176); `sizeMax` (src/ui/qt/processing_view/processing_axis.cpp:32-34); `column` (src/ui/qt/processing_view/processing_axis.cpp:24-37).
* `Verif/Model/Manager.lean`:
  `Sorter` (src/domain/meshline_policy_manager.cpp:83); `MeshParams` (src/domain/global.hpp:19-31); `Axis` (src/domain/meshline_policy_manager.hpp:29-33, src/domain/conflict_manager.hpp:39); `Axis.get` (src/domain/meshline_policy_manager.cpp:75-240); `Axis.pointers` (src/utils/vector_utils.hpp:17-26); `Axis.enabledPointers` (src/domain/meshline_policy_manager.cpp:78-81, 135-138); `Axis.set` (src/utils/state_management.hpp:278-292); `Axis.addPolicy` (src/domain/meshline_policy_manager.cpp:50-71); `closestLoop` (src/domain/meshline_policy_manager.cpp:91-97); `Axis.detectClosest` (src/domain/meshline_policy_manager.cpp:74-103); `Axis.addTooClose` (src/domain/conflict_manager.cpp:170-203); `mergeChoice` (src/domain/conflicts/conflict_too_close_meshline_policies.cpp:39-66); `Axis.solveConflict` (src/domain/conflicts/conflict_too_close_meshline_policies.cpp:33-82); `Axis.solveTooClose` (src/domain/meshline_policy_manager.cpp:106-127); `makeIntervals` (src/domain/meshline_policy_manager.cpp:151-157); `Axis.withPolicies` (src/domain/meshline_policy_manager.cpp:215-240); `Axis.detectIntervals` (src/domain/meshline_policy_manager.cpp:130-161); `solveAllD` (src/domain/meshline_policy_manager.cpp:205-206); `meshAll` (src/domain/meshline_policy_manager.cpp:211-218); `Axis.mesh` (src/domain/meshline_policy_manager.cpp:191-242); `Axis.policyLines` (src/domain/meshline_policy_manager.cpp:250-256); `Axis.outputLines` (src/infra/serializers/serializer_to_csx.cpp:95-102); `cellNumber` (src/domain/meshline_policy_manager.cpp:269-274); `Axis.editPolicy` (src/ui/qt/edit/edit_model_meshline_policy.cpp:49-87).
* `Verif/Model/NodeText.lean`:
  `EdgeFacts` (src/ui/qt/processing_view/processing_edge.cpp:23, 58-60, 81, 115); `AngleFacts` (src/ui/qt/processing_view/processing_angle.cpp:22, 77-79, 93, 112, 134); `PolicyFacts` (src/ui/qt/processing_view/processing_meshline_policy.cpp:28, 84-87, 101, 139); `IntervalFacts` (src/ui/qt/processing_view/processing_interval.cpp:23, 99-103, 156); `ZoneFacts` (src/ui/qt/processing_view/processing_conflict_diagonal_or_circular_zone.cpp:20, 63-65, 100); `ColinearFacts` (src/ui/qt/processing_view/processing_conflict_colinear_edges.cpp:20, 41-45, 70); `Written` (src/ui/qt/utils/nodegraph/node.hpp); `titleText` (src/ui/qt/processing_view/processing_edge.cpp:23); `stateWords` (src/ui/qt/processing_view/processing_edge.cpp:80-93); `writeEdge` (src/ui/qt/processing_view/processing_edge.cpp:22-119); `writeAngle` (src/ui/qt/processing_view/processing_angle.cpp:21-138); `writePolicy` (src/ui/qt/processing_view/processing_meshline_policy.cpp:27-143); `writeInterval` (src/ui/qt/processing_view/processing_interval.cpp:22-160); `writeZone` (src/ui/qt/processing_view/processing_conflict_diagonal_or_circular_zone.cpp:19-104); `writeColinear` (src/ui/qt/processing_view/processing_conflict_colinear_edges.cpp:19-74); `MeshlineFacts` (src/ui/qt/processing_view/processing_meshline.cpp:23, 62, 81); `PolygonFacts` (src/ui/qt/processing_view/processing_polygon.cpp:21, 47-50, 79); `materialText` (src/infra/utils/to_string.cpp:102-110); `writeMeshline` (src/ui/qt/processing_view/processing_meshline.cpp:22-85); `writePolygon` (src/ui/qt/processing_view/processing_polygon.cpp:20-83).
* `Verif/Model/Orient.lean`:
  `Transform` (src/ui/qt/structure_view/structure_view.cpp:87); `identity` (src/ui/qt/structure_view/structure_view.cpp:87); `unit` (src/ui/qt/structure_view/structure_view.cpp:88-89, src/ui/qt/structure_view/structure_view.cpp:55, 90, 125, 127, src/ui/qt/structure_view/structure_view.cpp:91, 176, src/ui/qt/structure_view/structure_view.cpp:94, 98-99, src/ui/qt/structure_view/structure_view.cpp:147, src/ui/qt/structure_view/structure_view.cpp:21); `fmod` (src/ui/qt/structure_view/structure_view.cpp:175); `View` (src/ui/qt/structure_view/structure_view.hpp:70-77); `Wheel` (src/ui/qt/structure_view/structure_view.cpp:121-142); `setPlane` (src/ui/qt/structure_view/structure_view.cpp:44-57, src/ui/qt/structure_view/structure_view.cpp:55, 125, 127, src/ui/qt/structure_view/structure_view.cpp:174-177, src/ui/qt/structure_view/structure_view.cpp:169-171, src/ui/qt/structure_view/structure_view.cpp:121-143, src/ui/qt/structure_view/structure_view.cpp:147, src/ui/qt/structure_view/structure_view.cpp:146-148, src/ui/qt/main_window.cpp:243-244, src/ui/qt/structure_view/structure_view.cpp:162-166); `letterX` (src/ui/qt/structure_view/structure_view.cpp:87-91, src/ui/qt/structure_view/structure_view.cpp:102-109); `letterY` (src/ui/qt/structure_view/structure_view.cpp:110-117); `Corner` (src/ui/qt/structure_view/structure_view.cpp:24-41, 94-117); `Event` (src/ui/qt/structure_view/structure_view.cpp:78-118, src/ui/qt/structure_view/structure_view.cpp:121-177, src/ui/qt/main_window.cpp:237-245).
* `Verif/Model/Paint.lean`:
  `Color` (src/ui/qt/structure_view/structure_style.hpp:26-149, src/ui/qt/structure_view/structure_polygon.cpp:90-91); `white` (src/ui/qt/structure_view/structure_style.hpp:26); `black` (src/ui/qt/structure_view/structure_style.hpp:56); `red` (src/ui/qt/structure_view/structure_style.hpp:35); `green` (src/ui/qt/structure_view/structure_style.hpp:46); `cyan` (src/ui/qt/structure_view/structure_style.hpp:61); `yellow` (src/ui/qt/structure_view/structure_style.hpp:71); `magenta` (src/ui/qt/style.cpp:294); `darkGreen` (src/ui/qt/structure_view/structure_style.hpp:91); `darkYellow` (src/ui/qt/style.cpp:307); `transparent` (src/ui/qt/structure_view/structure_style.hpp:34); `openemsBlue` (src/ui/qt/style.hpp:19); `StructureStyle` (src/ui/qt/structure_view/structure_style.hpp:25-150); `main` (src/ui/qt/style.cpp:113-193); `second` (src/ui/qt/style.cpp:293-371); `availableStyles` (src/ui/qt/style.cpp:14-373); `findStyle` (src/ui/qt/style.cpp:376-385); `Pen` (src/ui/qt/structure_view/structure_style.cpp:97-315); `Four` (src/ui/qt/structure_view/structure_edge.hpp:27-32); `AngleParams` (src/ui/qt/structure_view/structure_angle.hpp:28-42, src/ui/qt/structure_view/structure_style.cpp:97-166); `PolygonParams` (src/ui/qt/structure_view/structure_style.cpp:179-232); `PolicyParams` (src/ui/qt/structure_view/structure_style.cpp:245-270); `TcmlpParams` (src/ui/qt/structure_view/structure_style.cpp:303-314); `makeAngleHvEnabled` (src/ui/qt/structure_view/structure_style.cpp:97-112); `makeAngleHEnabled` (src/ui/qt/structure_view/structure_style.cpp:115-130); `makeAngleVEnabled` (src/ui/qt/structure_view/structure_style.cpp:133-148); `makeAngleHvDisabled` (src/ui/qt/structure_view/structure_style.cpp:151-166); `makeEdge` (src/ui/qt/structure_view/structure_style.cpp:169-176); `makePolygonShape` (src/ui/qt/structure_view/structure_style.cpp:179-190); `makePolygonPort` (src/ui/qt/structure_view/structure_style.cpp:193-204); `makePolygonGround` (src/ui/qt/structure_view/structure_style.cpp:207-218); `makePolygonSubstrate` (src/ui/qt/structure_view/structure_style.cpp:221-232); `makeMeshline` (src/ui/qt/structure_view/structure_style.cpp:235-242); `makeMeshlinePolicyEnabled` (src/ui/qt/structure_view/structure_style.cpp:245-256); `makeMeshlinePolicyDisabled` (src/ui/qt/structure_view/structure_style.cpp:259-270); `makeInterval` (src/ui/qt/structure_view/structure_style.cpp:273-280); `makeConflictCe` (src/ui/qt/structure_view/structure_style.cpp:283-290); `makeConflictDocz` (src/ui/qt/structure_view/structure_style.cpp:293-300); `makeConflictTcmlp` (src/ui/qt/structure_view/structure_style.cpp:303-314); `State` (src/ui/qt/structure_view/structure_edge.cpp:43-44); `Four.choose` (src/ui/qt/structure_view/structure_edge.cpp:43-53); `Drawn` (src/ui/qt/structure_view/structure_angle.cpp:74, 88, 103); `Item` (src/ui/qt/structure_view/structure_scene.cpp:117-262); `angleParams` (src/ui/qt/structure_view/structure_scene.cpp:120-139); `paintPolygon` (src/ui/qt/structure_view/structure_polygon.cpp:83-119, src/ui/qt/structure_view/structure_scene.cpp:186-188); `paint` (src/ui/qt/structure_view/structure_scene.cpp:117-262); `chosen` (src/ui/qt/main_window.cpp:110-118, src/ui/qt/main_window.cpp:204-208, 185-190).
* `Verif/Model/PaintGraph.lean`:
  `Color.darkRed` (src/ui/qt/processing_view/processing_style.hpp:105); `Color.darkMagenta` (src/ui/qt/style.cpp:238); `Shades` (src/ui/qt/processing_view/processing_style.hpp:38-40); `ProcessingStyle` (src/ui/qt/processing_view/processing_style.hpp:31-149); `mainGraph` (src/ui/qt/style.cpp:17-112); `secondGraph` (src/ui/qt/style.cpp:197-292); `Six` (src/ui/qt/utils/nodegraph/text.hpp:26-33, src/ui/qt/processing_view/processing_style.cpp:231-240); `PortParams` (src/ui/qt/processing_view/processing_style.cpp:113-185); `NodeParams` (src/ui/qt/processing_view/processing_style.cpp:188-204); `makeWire` (src/ui/qt/processing_view/processing_style.cpp:101-110); `makePortNormal` (src/ui/qt/processing_view/processing_style.cpp:113-135); `makePortEnabled` (src/ui/qt/processing_view/processing_style.cpp:138-160); `makePortDisabled` (src/ui/qt/processing_view/processing_style.cpp:163-185); `makeNode` (src/ui/qt/processing_view/processing_style.cpp:188-204); `makeTitle` (src/ui/qt/processing_view/processing_style.cpp:231-240); `makeTextNormal` (src/ui/qt/processing_view/processing_style.cpp:243-252); `makeTextEnabled` (src/ui/qt/processing_view/processing_style.cpp:255-264); `makeTextEnabledForSure` (src/ui/qt/processing_view/processing_style.cpp:267-276); `makeTextDisabled` (src/ui/qt/processing_view/processing_style.cpp:279-288); `Mark` (src/ui/qt/utils/nodegraph/text.cpp:41-46); `Six.choose` (src/ui/qt/utils/nodegraph/text.cpp:41-56); `paintNode` (src/ui/qt/utils/nodegraph/node.cpp:103-149); `paintWire` (src/ui/qt/utils/nodegraph/wire.cpp:129-152); `Words` (src/ui/qt/processing_view/processing_style.cpp:291-417); `paintText` (src/ui/qt/utils/nodegraph/text.cpp:38-59, src/ui/qt/processing_view/processing_style.cpp:291-417); `chosenGraph` (src/ui/qt/main_window.cpp:110-118, 185-190, 204-208, src/ui/qt/processing_view/processing_style.cpp:67-81).
* `Verif/Model/Plantuml.lean`:
  `EdgeRec` (src/infra/serializers/serializer_to_plantuml.cpp:100-108); `PolygonRec` (src/infra/serializers/serializer_to_plantuml.cpp:111-123); `PolicyRec` (src/infra/serializers/serializer_to_plantuml.cpp:193-212); `ColinearRec` (src/infra/serializers/serializer_to_plantuml.cpp:126-149); `InPolygonRec` (src/infra/serializers/serializer_to_plantuml.cpp:152-171); `TooCloseRec` (src/infra/serializers/serializer_to_plantuml.cpp:174-190); `IntervalRec` (src/infra/serializers/serializer_to_plantuml.cpp:215-231); `MeshlineRec` (src/infra/serializers/serializer_to_plantuml.cpp:234-247); `Board` (src/infra/serializers/serializer_to_plantuml.cpp:43-97); `normalText` (src/infra/utils/to_string.cpp:27-38); `facingText` (src/infra/utils/to_string.cpp:41-48); `kindText` (src/infra/utils/to_string.cpp:51-58); `rotationText` (src/infra/utils/to_string.cpp:61-68); `axisText` (src/infra/utils/to_string.cpp:82-89); `planeText` (src/infra/utils/to_string.cpp:92-99); `double` (src/infra/serializers/serializer_to_plantuml.cpp:206, 223-227, 239); `yesNo` (src/infra/serializers/serializer_to_plantuml.cpp:106, 204); `opening` (src/infra/serializers/serializer_to_plantuml.cpp:51, 66, 104, 115, 131, 156, 179, 200, 219, 238); `pin` (src/infra/serializers/serializer_to_plantuml.cpp:116, 132-133, 157, 163, 180-181, 201-202); `field` (src/infra/serializers/serializer_to_plantuml.cpp:105-106, 117, 137, 143-144, 203-206, 223-227, 239); `arrow` (src/infra/serializers/serializer_to_plantuml.cpp:138, 145, 158-159, 164, 166, 184, 187, 209, 228-229, 242); `closing` (src/infra/serializers/serializer_to_plantuml.cpp:61, 93, 107, 122, 148, 170, 189, 211, 230, 246); `inPin` (src/infra/serializers/serializer_to_plantuml.cpp:132, 180, 201); `outPin` (src/infra/serializers/serializer_to_plantuml.cpp:116, 133, 157, 181, 202, 222); `visitEdge` (src/infra/serializers/serializer_to_plantuml.cpp:100-108); `visitPolygon` (src/infra/serializers/serializer_to_plantuml.cpp:111-123); `visitColinear` (src/infra/serializers/serializer_to_plantuml.cpp:126-149); `visitOverlaps` (src/infra/serializers/serializer_to_plantuml.cpp:161-168); `visitInPolygon` (src/infra/serializers/serializer_to_plantuml.cpp:152-171); `visitTooClose` (src/infra/serializers/serializer_to_plantuml.cpp:174-190); `visitPolicy` (src/infra/serializers/serializer_to_plantuml.cpp:193-212); `visitInterval` (src/infra/serializers/serializer_to_plantuml.cpp:215-231); `visitMeshline` (src/infra/serializers/serializer_to_plantuml.cpp:234-247); `visitPlane` (src/infra/serializers/serializer_to_plantuml.cpp:50-62); `visitAxis` (src/infra/serializers/serializer_to_plantuml.cpp:65-94); `visitBoard` (src/infra/serializers/serializer_to_plantuml.cpp:43-97); `run` (src/infra/serializers/serializer_to_plantuml.cpp:26-35).
* `Verif/Model/Pretty.lean`:
  `EdgeRec` (src/infra/serializers/serializer_to_prettyprint.cpp:92-94); `PolygonRec` (src/infra/serializers/serializer_to_prettyprint.cpp:97-106); `RangeRec` (src/infra/serializers/serializer_to_prettyprint.cpp:46-48); `ColinearRec` (src/infra/serializers/serializer_to_prettyprint.cpp:109-125); `OverlapRec` (src/domain/conflicts/conflict_edge_in_polygon.hpp:28); `InPolygonRec` (src/infra/serializers/serializer_to_prettyprint.cpp:128-155); `Board` (src/infra/serializers/serializer_to_prettyprint.cpp:58-89); `reset` (src/utils/color.hpp:13); `bold` (src/utils/color.hpp:14); `darkRed` (src/utils/color.hpp:24); `darkGreen` (src/utils/color.hpp:25); `orange` (src/utils/color.hpp:26); `cyan` (src/utils/color.hpp:37); `directionText` (src/infra/utils/to_string.cpp:15-24); `segAxisText` (src/infra/utils/to_string.cpp:71-79); `indent` (src/infra/serializers/serializer_to_prettyprint.cpp:27-33); `pointText` (src/infra/serializers/serializer_to_prettyprint.cpp:36-43); `rangeText` (src/infra/serializers/serializer_to_prettyprint.cpp:46-48); `visitEdge` (src/infra/serializers/serializer_to_prettyprint.cpp:92-94); `visitPolygon` (src/infra/serializers/serializer_to_prettyprint.cpp:97-106); `visitColinear` (src/infra/serializers/serializer_to_prettyprint.cpp:109-125); `visitOverlap` (src/infra/serializers/serializer_to_prettyprint.cpp:137-147); `visitInPolygon` (src/infra/serializers/serializer_to_prettyprint.cpp:128-155); `visitPolicy` (src/domain/utils/entity_visitor.hpp:33-36, src/infra/serializers/serializer_to_prettyprint.cpp:74, 77, 88); `sectionText` (src/infra/serializers/serializer_to_prettyprint.cpp:60, 80, 85); `visitBoard` (src/infra/serializers/serializer_to_prettyprint.cpp:58-89); `run` (src/infra/serializers/serializer_to_prettyprint.cpp:51-55, 157-159).
* `Verif/Model/Program.lean`:
  `meshParams` (src/domain/global.hpp:19-31); `zoneParams` (src/domain/global.hpp:19-31); `Options` (src/app/openemsh.hpp:28-45, src/ui/cli/cli.cpp:110-236, src/infra/parsers/parser_from_csx.hpp:27-33, src/infra/serializers/serializer_to_csx.hpp:21-28); `accepts` (src/ui/cli/cli.cpp:50-71); `World` (src/main.cpp:20-90); `override` (src/infra/parsers/parser_from_csx.cpp:636-644); `meshReading` (src/app/openemsh.cpp:169-207); `linesText` (src/infra/serializers/serializer_to_csx.cpp:95-108); `render` (src/infra/serializers/serializer_to_csx.cpp:76-131); `finalOptions` (src/ui/cli/cli.cpp:215-218); `program` (src/main.cpp:20-90).
* `Verif/Model/Progress.lean`:
  `Call` (src/utils/progress.hpp:24-25); `Call.terminal` (src/ui/cli/progress.cpp:47-61); `Call.postfix` (src/ui/cli/progress.cpp:48,56); `Call.window` (src/ui/qt/progress.cpp:37-44); `setValue` (src/ui/qt/progress.cpp:23,38,43); `windowShows` (src/ui/qt/progress.cpp:18-44); `barWidth` (src/ui/cli/progress.cpp:19-23); `prefixText` (src/main.cpp:24-29); `adjustPolygon` (src/domain/board.cpp:218-247); `adjustFrom` (src/domain/board.cpp:217-248); `adjustCalls` (src/domain/board.cpp:212-250); `anglesFrom` (src/domain/board.cpp:264-275); `crossPolygon` (src/domain/board.cpp:281-305); `crossFrom` (src/domain/board.cpp:280-306); `anglesCalls` (src/domain/board.cpp:253-310); `inPolygonsRow` (src/domain/board.cpp:322-446); `inPolygonsFrom` (src/domain/board.cpp:321-448); `inPolygonsCalls` (src/domain/board.cpp:315-450); `colinearFrom` (src/domain/board.cpp:460-485); `colinearCalls` (src/domain/board.cpp:453-487); `eachFrom` (src/domain/board.cpp:498-541, src/infra/parsers/parser_from_csx.cpp:718-722); `individualCalls` (src/domain/board.cpp:490-543); `parseFrom` (src/infra/parsers/parser_from_csx.cpp:714-724); `parseCalls` (src/infra/parsers/parser_from_csx.cpp:698-725); `zoneRanges` (src/domain/board.cpp:576-585); `zonesCalls` (src/domain/board.cpp:546-606); `fixedCalls` (src/domain/board.cpp:609-620); `tooCloseFrom` (src/domain/meshline_policy_manager.cpp:112-125); `tooCloseCalls` (src/domain/meshline_policy_manager.cpp:106-127); `intervalsCalls` (src/domain/meshline_policy_manager.cpp:130-161); `perZoneRow` (src/domain/meshline_policy_manager.cpp:174-183); `perZoneFrom` (src/domain/meshline_policy_manager.cpp:171-186); `perZoneCalls` (src/domain/meshline_policy_manager.cpp:164-188); `meshCalls` (src/domain/meshline_policy_manager.cpp:191-242); `solveCalls` (src/domain/conflict_manager.cpp:239-290); `messages` (src/domain/board.cpp:215,259,318,458,496,553,612, src/domain/meshline_policy_manager.cpp:110,144,169,198, src/domain/conflict_manager.cpp:242,256,270,283, src/infra/parsers/parser_from_csx.cpp:711).
* `Verif/Model/Run.lean`:
  `Outcome.orUb` (src/app/openemsh.cpp:169-183); `Outcome.orDiverges` (src/app/openemsh.cpp:169-183); `Input` (src/domain/board.hpp:38-62, src/domain/geometrics/angle.cpp:14-21); `Input.edges` (src/domain/board.cpp:123-133); `allPlanes` (src/domain/geometrics/space.hpp:19); `detectAllAngles` (src/domain/board.cpp:253-310, 629-632); `angleAt` (src/domain/geometrics/angle.hpp:32-48); `anglesOf` (src/domain/board.hpp:38-46); `detectAllInPolygons` (src/domain/board.cpp:653-656); `detectAllColinear` (src/domain/board.cpp:659-662); `setMesh` (src/domain/conflicts/conflict_edge_in_polygon.cpp:98-105); `solveAllInPolygon` (src/domain/conflict_manager.cpp:267-277); `boardPolicies` (src/domain/conflict_manager.cpp:280-290, src/domain/board.cpp:490-539, 665-668); `emptyAxis` (src/domain/meshline_policy_manager.cpp:21-34); `axisPolicies` (src/domain/board.cpp:671-674); `Sorters` (src/domain/board.cpp:31-61, src/domain/conflicts/conflict_edge_in_polygon.cpp:23-62, src/domain/meshline_policy_manager.cpp:75-240); `zoneIntervals` (src/domain/board.cpp:647-650, 701-704); `finishAxis` (src/domain/board.cpp:689-710); `diagonalSteps` (src/app/openemsh.cpp:170-172, src/domain/geometrics/angle.hpp:23-27); `runSteps` (src/app/openemsh.cpp:189-207, src/app/openemsh.cpp:169-183); `_root_.Verif.Csx.Params.mesh` (src/domain/global.hpp:21-24); `_root_.Verif.Csx.Params.zones` (src/domain/global.hpp:23-28); `runFromZones` (src/app/openemsh.cpp:171-183, src/ui/qt/main_window.cpp:650-654, src/ui/qt/edit/edit_model_global.cpp:60-62, src/domain/board.cpp:270, 299); `runFromConflicts` (src/app/openemsh.cpp:169-183, src/ui/qt/main_window.cpp:650-654, src/ui/qt/edit/edit_model_edge.cpp:39, src/domain/conflict_manager.cpp:232-235); `Input.withEdge` (src/ui/qt/main_window.cpp:650-654, src/ui/qt/edit/edit_model_edge.cpp:39-41); `runToIntervals` (src/app/openemsh.cpp:169-179); `runFromIntervals` (src/app/openemsh.cpp:180-183, src/ui/qt/main_window.cpp:650-654, src/ui/qt/edit/edit_model_meshline_policy.cpp:83); `runToMesh` (src/app/openemsh.cpp:169-182); `runFromMesh` (src/app/openemsh.cpp:183, src/ui/qt/main_window.cpp:650-654, src/ui/qt/edit/edit_model_interval.cpp:54); `_root_.Verif.Mesh.Axis.setInterval` (src/ui/qt/main_window.cpp:650-654, src/ui/qt/edit/edit_model_interval.cpp:54-56); `runToZoneIntervals` (src/app/openemsh.cpp:169-181); `runFromZoneIntervals` (src/app/openemsh.cpp:182-183, src/ui/qt/main_window.cpp:650-654, src/ui/qt/edit/edit_model_conflict_diagonal_or_circular_zone.cpp:43-48); `Zone.bare` (src/domain/conflicts/conflict_diagonal_or_circular_zone.hpp:23-29); `runFromZonesAngles` (src/app/openemsh.cpp:172-183, src/ui/qt/main_window.cpp:650-654, src/ui/qt/edit/edit_model_conflict_diagonal_or_circular_zone.cpp:43-48); `runFromAngles` (src/app/openemsh.cpp:170-183, src/domain/board.cpp:144-149, 168-173, src/domain/board.cpp:270, 299, 308); `runFromPerZones` (src/app/openemsh.cpp:181-183, src/domain/conflicts/conflict_diagonal_or_circular_zone.cpp:32-36); `runFromTooClose` (src/app/openemsh.cpp:179-183, src/ui/qt/main_window.cpp:650-654, src/ui/qt/edit/edit_model_conflict_too_close_meshline_policies.cpp:36-40, src/domain/meshline_policy_manager.cpp:112-123, src/domain/conflict_manager.cpp:170-203).
* `Verif/Model/Session.lean`:
  `Session` (src/ui/qt/main_window.hpp:28-33, src/app/openemsh.hpp:28-60, src/ui/qt/main_window.cpp:657-685); `window` (src/ui/qt/main_window.hpp:28-33); `became` (src/ui/qt/main_window.hpp:28-33); `made` (src/ui/qt/main_window.cpp:56-123); `parseAndDisplay` (src/ui/qt/main_window.cpp:129-157, src/app/openemsh.cpp:118-127, src/ui/qt/main_window.cpp:643-647); `started` (src/main.cpp:83-85); `opens` (src/ui/qt/main_window.cpp:368-377); `changes` (src/ui/qt/main_window.cpp:587-595, 636-654); `saves` (src/ui/qt/main_window.cpp:422-443, src/app/openemsh.cpp:143); `savesAs` (src/ui/qt/main_window.cpp:446-462); `exports` (src/ui/qt/main_window.cpp:465-523); `closes` (src/ui/qt/main_window.cpp:743-759); `Act` (src/ui/qt/main_window.cpp:361-654); `Act.run` (src/ui/qt/main_window.cpp:361-654, 743-759).
* `Verif/Model/Show.lean`:
  `WireStyle` (src/ui/qt/utils/nodegraph/wire.hpp); `ProcessingLook` (src/ui/qt/processing_view/processing_scene.hpp:138-140); `ProcessingLook.made` (src/ui/qt/processing_view/processing_scene.cpp:45-69); `Checked`; `Checked.made` (src/ui/qt/main_window.ui:109, 206, 420, 592); `Panel` (src/ui/qt/structure_view/structure_view.hpp:52-77, src/ui/qt/processing_view/processing_view.hpp:34-57, src/ui/qt/main_window.hpp:28-33); `Panel.made` (src/ui/qt/structure_view/structure_view.cpp:43-50, src/ui/qt/processing_view/processing_view.cpp:19-26, src/ui/qt/main_window.cpp:71); `structureScene` (src/ui/qt/structure_view/structure_view.cpp:164, 215); `processingScene` (src/ui/qt/processing_view/processing_view.cpp:137); `alter` (src/ui/qt/structure_view/structure_view.cpp:186, src/ui/qt/processing_view/processing_view.cpp:105); `setMeshVisibility` (src/ui/qt/structure_view/structure_view.cpp:156-159); `setStructurePlane` (src/ui/qt/structure_view/structure_view.cpp:162-166); `onProcessing` (src/ui/qt/processing_view/processing_view.cpp:80-94); `setMode` (src/ui/qt/processing_view/processing_view.cpp:80-82); `setFlags` (src/ui/qt/processing_view/processing_view.cpp:85-88); `setProcessingPlane` (src/ui/qt/processing_view/processing_view.cpp:91-94); `setWires` (src/ui/qt/processing_view/processing_view.cpp:97-101); `fit` (src/ui/qt/processing_view/processing_view.cpp:69-72); `emplace` (src/ui/qt/structure_view/structure_view.cpp:204, src/ui/qt/processing_view/processing_view.cpp:127); `makeStructure` (src/ui/qt/structure_view/structure_view.cpp:190-207); `makeProcessing` (src/ui/qt/processing_view/processing_view.cpp:110-129); `updateShowButtons` (src/ui/qt/main_window.cpp:696-711, src/ui/qt/structure_view/structure_view.cpp:151-153, src/ui/qt/processing_view/processing_view.cpp:75-77); `makeCurrentStateView` (src/ui/qt/main_window.cpp:608-633); `goToCurrentState` (src/ui/qt/main_window.cpp:598-605, src/ui/qt/structure_view/structure_view.cpp:210-221, src/ui/qt/processing_view/processing_view.cpp:132-143); `goToOrMakeCurrentState` (src/ui/qt/main_window.cpp:587-595); `clear` (src/ui/qt/main_window.cpp:177-182, src/ui/qt/structure_view/structure_view.cpp:68-75, src/ui/qt/processing_view/processing_view.cpp:41-47); `press`; `clickPlane` (src/ui/qt/main_window.cpp:211-226); `clickMesh` (src/ui/qt/main_window.cpp:272-297); `clickMode` (src/ui/qt/main_window.cpp:300-315); `clickWires` (src/ui/qt/main_window.cpp:318-325); `planeUp` (src/ui/qt/main_window.cpp:715-723); `planeDown` (src/ui/qt/main_window.cpp:724-732); `clickFit` (src/ui/qt/main_window.cpp:238-245); `openFile` (src/ui/qt/main_window.cpp:371-377, 129-157); `Deed` (src/ui/qt/main_window.cpp:211-377, 546-654, 714-741); `Deed.run` (src/ui/qt/main_window.cpp:657-685); `runDeeds`.
* `Verif/Model/Sight.lean`:
  `Board.parent` (src/ui/qt/utils/nodegraph/node.cpp:223-228, src/ui/qt/processing_view/processing_view.cpp:151-187); `isVisible` (src/ui/qt/utils/nodegraph/node.cpp:232); `showAfterParents` (src/ui/qt/utils/nodegraph/node.cpp:231-238); `Mode` (src/ui/qt/processing_view/processing_scene.hpp:58-62); `Sight` (src/ui/qt/processing_view/processing_scene.hpp:104, 138-140); `hide` (src/ui/qt/processing_view/processing_scene.cpp:352); `hideAll` (src/ui/qt/processing_view/processing_scene.cpp:347-354); `clearSelection` (src/ui/qt/processing_view/processing_scene.cpp:425, 460); `showAll` (src/ui/qt/processing_view/processing_scene.cpp:347-354, 427-430); `selectAll` (src/ui/qt/processing_view/processing_scene.cpp:432-434); `selectedNodes` (src/ui/qt/processing_view/processing_scene.cpp:326-333); `highlightedNodes` (src/ui/qt/processing_view/processing_scene.cpp:336-343); `displaySelectedChain` (src/ui/qt/processing_view/processing_scene.cpp:421-438); `notify` (src/ui/qt/processing_view/processing_scene.cpp:441-455); `selectChild` (src/ui/qt/utils/nodegraph/node.cpp:71-73, 88-90); `select` (src/ui/qt/utils/nodegraph/node.cpp:68-78); `selectEach` (src/ui/qt/processing_view/processing_scene.cpp:432-434); `hideTelling` (src/ui/qt/processing_view/processing_scene.cpp:352, 402, 409, 412); `hideEach` (src/ui/qt/processing_view/processing_scene.cpp:347-354, 399-414); `clearTelling` (src/ui/qt/processing_view/processing_scene.cpp:425, 460); `displayAsked` (src/ui/qt/processing_view/processing_scene.cpp:421-438); `otherPlanes` (src/ui/qt/processing_view/processing_scene.cpp:399-403); `axisShown` (src/ui/qt/processing_view/processing_scene.cpp:405-414); `displayStructureView` (src/ui/qt/processing_view/processing_scene.cpp:396-418); `setMode` (src/ui/qt/processing_view/processing_scene.cpp:371-388); `setPlane` (src/ui/qt/processing_view/processing_scene.cpp:364-368); `setFlags` (src/ui/qt/processing_view/processing_scene.cpp:357-361); `press` (src/ui/qt/utils/nodegraph/node.cpp:29); `click` (src/ui/qt/utils/nodegraph/node.cpp:83-95); `selectShowing` (src/ui/qt/processing_view/processing_scene.cpp:461-468); `counterparts` (src/ui/qt/processing_view/processing_scene.cpp:458-470); `Action` (src/ui/qt/processing_view/processing_scene.hpp:95-97, 132); `Action.run` (src/ui/qt/processing_view/processing_scene.cpp:357-388, 458-470); `runActions` (src/ui/qt/processing_view/processing_scene.cpp:357-388, 458-470); `Sight.made` (src/ui/qt/processing_view/processing_scene.cpp:45-52); `opened` (src/ui/qt/processing_view/processing_scene.cpp:67-69); `MeshVisibility` (src/ui/qt/structure_view/structure_scene.hpp); `MeshVisibility.group` (src/ui/qt/structure_view/structure_scene.cpp:321-343); `MeshVisibility.flags` (src/ui/qt/main_window.cpp:272-296); `lineGroup` (src/ui/qt/structure_view/structure_view.cpp:240-243).
* `Verif/Model/Sinks.lean`:
  `Level` (src/utils/logger.hpp:19-24); `Event` (src/utils/logger.hpp:38-46); `levelText` (src/ui/cli/logger.cpp:21-29); `emoji` (src/ui/cli/logger.cpp:32-46); `letter` (src/ui/cli/logger.cpp:49-59); `fromLetter` (src/ui/cli/logger.cpp:71-78); `slashed` (src/ui/cli/logger.cpp:66); `choices` (src/ui/cli/logger.cpp:62-68); `isWritten` (src/ui/cli/logger.cpp:87, 108); `printed` (src/ui/cli/logger.cpp:88-94); `ask` (src/ui/cli/logger.cpp:99-106); `cliLog` (src/ui/cli/logger.cpp:86-112); `Button` (src/ui/qt/logger.cpp:20-28, 83); `fromQt` (src/ui/qt/logger.cpp:19-29); `toQt` (src/ui/qt/logger.cpp:32-42); `Shown` (src/ui/qt/logger.cpp:71-87); `buttons` (src/ui/qt/logger.cpp:45-50); `qtLog` (src/ui/qt/logger.cpp:70-89); `number` (src/utils/logger.hpp:27-34); `programLogger` (src/main.cpp:33, src/ui/qt/main_window.cpp:108, src/utils/logger.cpp:14-16); `Outcome` (src/utils/logger.cpp:52-64); `programLog` (src/utils/logger.cpp:52-64, src/main.cpp:33).
* `Verif/Model/Structure.lean`:
  `Rect` (src/ui/qt/structure_view/structure_view.cpp:238); `Rect.enlarged` (src/ui/qt/structure_view/structure_meshline.cpp:21-22); `Shape` (src/ui/qt/structure_view/structure_meshline.hpp:24); `lineAt` (src/ui/qt/structure_view/structure_meshline.cpp:20-36); `bandAt` (src/ui/qt/structure_view/structure_interval.cpp:21-43); `offsets` (src/ui/qt/structure_view/structure_meshline_policy.cpp:44-60); `policyLines` (src/ui/qt/structure_view/structure_meshline_policy.cpp:40-84); `colinearLine` (src/ui/qt/structure_view/structure_conflict_colinear_edges.cpp:21-37); `polygonShape` (src/ui/qt/structure_view/structure_polygon.cpp:24-31); `diameter` (src/ui/qt/structure_view/structure_angle.cpp:19); `angleShapes` (src/ui/qt/structure_view/structure_angle.cpp:22-36); `TooClose` (src/domain/conflicts/conflict_too_close_meshline_policies.hpp:18-34); `Content` (src/ui/qt/structure_view/structure_view.cpp:228-258); `Entity` (src/ui/qt/structure_view/structure_scene.cpp:119, 146, 156, 196, 207, 218, 229, 240, 251); `Item` (src/ui/qt/structure_view/structure_scene.cpp:117-263); `polygonItems` (src/ui/qt/structure_view/structure_view.cpp:228-233); `angleItems` (src/ui/qt/structure_view/structure_view.cpp:235-236); `meshlineItem` (src/ui/qt/structure_view/structure_scene.cpp:237-245); `policyItem` (src/ui/qt/structure_view/structure_scene.cpp:248-263); `intervalItem` (src/ui/qt/structure_view/structure_scene.cpp:226-234); `colinearItem` (src/ui/qt/structure_view/structure_scene.cpp:193-201); `zoneItem` (src/ui/qt/structure_view/structure_scene.cpp:204-212); `tooCloseItem` (src/ui/qt/structure_view/structure_scene.cpp:215-223); `axisItems` (src/ui/qt/structure_view/structure_view.cpp:241-259); `inTurn` (src/ui/qt/structure_view/structure_view.cpp:224-262); `populate` (src/ui/qt/structure_view/structure_view.cpp:224-262).
* `Verif/Model/Sync.lean`:
  `Scenes` (src/ui/qt/processing_view/processing_scene.hpp:121, src/ui/qt/structure_view/structure_scene.hpp:98); `State` (src/ui/qt/processing_view/processing_scene.hpp:135-138, src/ui/qt/structure_view/structure_scene.hpp:107); `put` (src/ui/qt/main_window.cpp:616); `change` (src/ui/qt/structure_view/structure_scene.cpp:413, src/ui/qt/processing_view/processing_scene.cpp:466); `itemsChanged` (src/ui/qt/structure_view/structure_scene.cpp:399-404); `itemsCounterparts` (src/ui/qt/structure_view/structure_scene.cpp:407-417); `setItem` (src/ui/qt/structure_view/structure_scene.cpp:380, 391, 413); `clearItems` (src/ui/qt/structure_view/structure_scene.cpp:378, 409); `nodesChanged` (src/ui/qt/processing_view/processing_scene.cpp:441-455); `nodesCounterparts` (src/ui/qt/processing_view/processing_scene.cpp:458-470); `setNode` (src/ui/qt/processing_view/processing_scene.cpp:434, 466); `clearNodes` (src/ui/qt/processing_view/processing_scene.cpp:425, 460); `Action` (src/ui/qt/structure_view/structure_scene.cpp:377-396); `Action.run` (src/ui/qt/structure_view/structure_scene.cpp:321-343, 346-396, src/ui/qt/processing_view/processing_scene.cpp:371-388); `runActions` (src/ui/qt/main_window.cpp:613-621); `State.made` (src/ui/qt/processing_view/processing_scene.cpp:45-52, src/ui/qt/structure_view/structure_scene.hpp:107).
* `Verif/Model/Text.lean`:
  `Signed` (src/infra/serializers/serializer_to_csx.cpp:99); `Signed.value` (src/infra/serializers/serializer_to_csx.cpp:99); `digitChar` (src/infra/serializers/serializer_to_csx.cpp:99); `decimal` (src/infra/serializers/serializer_to_csx.cpp:99); `sixDigits` (src/infra/serializers/serializer_to_csx.cpp:99); `roundEven` (src/infra/serializers/serializer_to_csx.cpp:99); `toString6` (src/infra/serializers/serializer_to_csx.cpp:99,102); `writeLines` (src/infra/serializers/serializer_to_csx.cpp:95-108); `readDigits` (src/infra/parsers/parser_from_csx.cpp:57-64); `Read` (src/infra/parsers/parser_from_csx.cpp:57-64); `readExponent` (src/infra/parsers/parser_from_csx.cpp:57-64); `readUnsigned` (src/infra/parsers/parser_from_csx.cpp:57-64); `strToDouble` (src/infra/parsers/parser_from_csx.cpp:57-64); `splitAll` (src/infra/parsers/parser_from_csx.cpp:141); `split` (src/infra/parsers/parser_from_csx.cpp:141,169); `readParts` (src/infra/parsers/parser_from_csx.cpp:141-147,169-175); `readLines` (src/infra/parsers/parser_from_csx.cpp:141-147,169-175); `asUint` (src/infra/parsers/parser_from_csx.cpp:70); `GridNode` (src/infra/parsers/parser_from_csx.cpp:153-184); `scale` (src/infra/parsers/parser_from_csx.cpp:144,172); `parseGrid` (src/infra/parsers/parser_from_csx.cpp:153-184); `writeGrid` (src/infra/serializers/serializer_to_csx.cpp:92-115).
* `Verif/Model/Title.lean`:
  `Titled` (src/ui/qt/main_window.cpp:169-174); `updateTitle` (src/ui/qt/main_window.cpp:169-174); `parseAndDisplay` (src/ui/qt/main_window.cpp:129-157); `started` (src/main.cpp:83-85); `opens` (src/ui/qt/main_window.cpp:368-377); `savesAs` (src/ui/qt/main_window.cpp:446-462); `run` (src/ui/qt/main_window.cpp:361-654, 743-759).
* `Verif/Model/Toolbar.lean`:
  `Buttons` (src/ui/qt/main_window.cpp:661-664); `Buttons.off` (src/ui/qt/main_window.cpp:657-685); `navigation` (src/ui/qt/main_window.cpp:688-693); `Shell`; `refresh` (src/ui/qt/main_window.cpp:601, 631); `trigger`; `meshPrev` (src/ui/qt/main_window.cpp:548-553); `meshNext` (src/ui/qt/main_window.cpp:557-562); `undo` (src/ui/qt/main_window.cpp:565-570); `redo` (src/ui/qt/main_window.cpp:573-578); `handleEditionFrom` (src/ui/qt/main_window.cpp:650-654); `openFile` (src/ui/qt/main_window.cpp:368-377).
* `Verif/Model/Tree.lean`:
  `Addr` (src/utils/state_management.hpp:24); `TreeNode` (src/utils/tree_node.hpp, src/utils/tree_node.cpp:21-24); `addr` (src/utils/tree_node.hpp:22-28); `children` (src/utils/tree_node.hpp:28); `clusterSelf` (src/utils/tree_node.cpp:92-102); `clusterList` (src/utils/tree_node.cpp:98-99); `cluster` (src/utils/tree_node.cpp:92-102); `leafsSelf` (src/utils/tree_node.cpp:65-78); `leafsList` (src/utils/tree_node.cpp:73-74); `leafs` (src/utils/tree_node.cpp:65-78); `chain` (src/utils/tree_node.cpp:43-48, 51-61, 120-128); `chainList` (src/utils/tree_node.hpp:28); `ancestors` (src/utils/tree_node.cpp:51-61); `parent` (src/utils/tree_node.cpp:38-40); `root` (src/utils/tree_node.cpp:43-48); `isDescendantOf` (src/utils/tree_node.cpp:120-128); `isAncestorOf` (src/utils/tree_node.cpp:131-133); `isRoot` (src/utils/tree_node.cpp:136-138); `commonAncestor` (src/utils/tree_node.cpp:105-112); `addChild` (src/utils/tree_node.cpp:27-29); `addChildList` (src/utils/tree_node.hpp:28); `eraseFromDescendants` (src/utils/tree_node.cpp:81-88); `eraseList` (src/utils/tree_node.cpp:82-87).
* `Verif/Model/Utils.lean`:
  `matchesLoop` (src/utils/vector_utils.hpp:60-72); `findConsecutiveMatches` (src/utils/vector_utils.hpp:55-75); `Sink` (src/utils/logger.hpp:48-57); `Logger` (src/utils/logger.hpp:70-71); `Logger.contains` (src/utils/logger.cpp:35); `Logger.choose` (src/utils/logger.cpp:30-42); `Logger.register` (src/utils/logger.cpp:45-49, src/utils/logger.hpp:60); `logLoop` (src/utils/logger.cpp:57-61); `Logger.log` (src/utils/logger.cpp:52-64); `Action` (src/utils/logger.hpp:63-67); `Action.apply` (src/utils/logger.hpp:63-67); `Logger.after` (src/utils/logger.cpp:24-27).
* `Verif/Model/Warnings.lean`:
  `emplace` (src/infra/parsers/parser_from_csx.cpp:115-116, 121-122); `Warned` (src/infra/parsers/parser_from_csx.cpp:80-83); `Warned.property` (src/infra/parsers/parser_from_csx.cpp:114-117); `Warned.primitive` (src/infra/parsers/parser_from_csx.cpp:120-123); `nameOf` (src/infra/parsers/parser_from_csx.cpp:188, 252); `allPrimitives` (src/infra/parsers/parser_from_csx.cpp:701-703); `ownPrimitives` (src/infra/parsers/parser_from_csx.cpp:717-718); `numbered` (src/infra/parsers/parser_from_csx.cpp:698-707); `warnProperty` (src/infra/parsers/parser_from_csx.cpp:238-243); `warnPrimitive` (src/infra/parsers/parser_from_csx.cpp:250-295); `warnPrimitives` (src/infra/parsers/parser_from_csx.cpp:718-722); `warnProperties` (src/infra/parsers/parser_from_csx.cpp:714-724); `Warning` (src/utils/logger.hpp:38-46); `joined` (src/infra/parsers/parser_from_csx.cpp:734-735, 743-744); `warning` (src/infra/parsers/parser_from_csx.cpp:728-736, 737-745); `Warned.log` (src/infra/parsers/parser_from_csx.cpp:728-745); `propertyNodes` (src/infra/parsers/parser_from_csx.cpp:713-714); `warned` (src/infra/parsers/parser_from_csx.cpp:698-724).
* `Verif/Model/Window.lean`:
  `Scene` (src/ui/qt/processing_view/processing_view.cpp:146-220, src/ui/qt/structure_view/structure_view.cpp:224-262); `drawScene` (src/ui/qt/structure_view/structure_view.cpp:199, src/ui/qt/processing_view/processing_view.cpp:119); `View` (src/ui/qt/structure_view/structure_view.hpp:52, src/ui/qt/processing_view/processing_view.hpp:34); `init` (src/ui/qt/structure_view/structure_view.cpp:63-65, src/ui/qt/processing_view/processing_view.cpp:36-38); `clear` (src/ui/qt/structure_view/structure_view.cpp:68-75, src/ui/qt/processing_view/processing_view.cpp:41-47); `contains` (src/ui/qt/main_window.cpp:589-590); `emplace` (src/ui/qt/structure_view/structure_view.cpp:204, src/ui/qt/processing_view/processing_view.cpp:127); `makeCurrentState` (src/ui/qt/structure_view/structure_view.cpp:190-207, src/ui/qt/processing_view/processing_view.cpp:110-129); `goToCurrentState` (src/ui/qt/structure_view/structure_view.cpp:210-221, src/ui/qt/processing_view/processing_view.cpp:132-143); `displayed` (src/ui/qt/structure_view/structure_view.cpp:215, src/ui/qt/processing_view/processing_view.cpp:137); `Window` (src/ui/qt/main_window.hpp:25-102); `makeCurrentStateView` (src/ui/qt/main_window.cpp:608-633); `goToCurrentState` (src/ui/qt/main_window.cpp:598-605); `goToOrMakeCurrentState` (src/ui/qt/main_window.cpp:587-595); `meshPrev` (src/ui/qt/main_window.cpp:548-553); `meshNext` (src/ui/qt/main_window.cpp:557-562); `undo` (src/ui/qt/main_window.cpp:565-570); `redo` (src/ui/qt/main_window.cpp:573-578); `handleEditionFrom` (src/ui/qt/main_window.cpp:650-654); `clear` (src/ui/qt/main_window.cpp:177-182); `openFile` (src/ui/qt/main_window.cpp:368-377).
* `Verif/Model/Wires.lean`:
  `Pt` (src/ui/qt/utils/nodegraph/wire.cpp:48-49); `Rect` (src/ui/qt/utils/nodegraph/port.cpp:107-111); `Anchor` (src/ui/qt/utils/nodegraph/port.hpp:29); `Style` (src/ui/qt/utils/nodegraph/wire.hpp:23); `Place` (src/ui/qt/utils/nodegraph/port.cpp:107-111); `attachPos` (src/ui/qt/utils/nodegraph/port.cpp:105-120); `Path` (src/ui/qt/utils/nodegraph/wire.cpp:50, 80, 88); `control` (src/ui/qt/utils/nodegraph/wire.cpp:65-71, 72-78); `makePath` (src/ui/qt/utils/nodegraph/wire.cpp:48-91); `Port` (src/ui/qt/utils/nodegraph/port.hpp:76-77); `Wire` (src/ui/qt/utils/nodegraph/wire.hpp:23, 48-49); `Scene` (src/ui/qt/processing_view/processing_scene.hpp:60-140); `Scene.port` (src/ui/qt/utils/nodegraph/wire.hpp:48-49); `Scene.wire` (src/ui/qt/utils/nodegraph/port.hpp:77); `Scene.setPort` (src/ui/qt/utils/nodegraph/wire.cpp:45-95); `Scene.updatePath` (src/ui/qt/utils/nodegraph/wire.cpp:45-95); `Scene.setWireVisible` (src/ui/qt/utils/nodegraph/wire.cpp:120-126); `each` (src/ui/qt/utils/nodegraph/port.cpp:174-181); `Scene.setPortVisible` (src/ui/qt/utils/nodegraph/port.cpp:177-181); `Scene.told` (src/ui/qt/utils/nodegraph/port.cpp:173-176); `Scene.move` (src/ui/qt/utils/nodegraph/port.cpp:43-47, 172-183); `Scene.addPort` (src/ui/qt/utils/nodegraph/port.cpp:23-32); `Scene.plug` (src/ui/qt/utils/nodegraph/wire.cpp:32-37); `Scene.addWire` (src/ui/qt/utils/nodegraph/wire.cpp:22-39, src/ui/qt/processing_view/processing_scene.cpp:301-309); `Scene.styleWire` (src/ui/qt/processing_view/processing_scene.cpp:73-76); `Scene.setStyle` (src/ui/qt/processing_view/processing_scene.cpp:72-77); `Scene.drawn` (src/ui/qt/utils/nodegraph/wire.cpp:129-153); `Scene.unplug` (src/ui/qt/utils/nodegraph/wire.cpp:103, 105); `Scene.unwire` (src/ui/qt/utils/nodegraph/port.cpp:38, src/ui/qt/utils/nodegraph/wire.cpp:99-107); `Scene.unwireNext` (src/ui/qt/utils/nodegraph/port.cpp:36-38); `Scene.deletePort` (src/ui/qt/utils/nodegraph/port.cpp:35-39); `Scene.deleteWire` (src/ui/qt/utils/nodegraph/wire.hpp:17-49, src/ui/qt/utils/nodegraph/wire.cpp:100-101); `Scene.delete` (src/ui/qt/processing_view/processing_view.cpp:41-45).

## Axioms

Output of `#print axioms` for every theorem of the manifest. No other axiom is used.

* depends on axioms: [propext, Classical.choice, Quot.sound] (378): `Props.C01_linear_history`, `Props.C02_undo_then_redo`, `Props.C02_redo_then_undo`, `Props.C02_undo_from_draft`, `Props.C03_gc_frees_exactly`, `Props.C04_no_dangling_partial`, `Props.C05_reads_nearest`, `Props.C05_go_restores`, `Props.C05_same_as_when_last_current`, `Props.C06_set_then_read_partial`, `Props.C07_gc_invisible`, `Props.C08_edit_discards_future`, `Props.C09_remembered_stays_partial`, `Props.C10_registered_follows_undo_partial`, `Props.C12_pins_are_a_set`, `Props.C14_run_next_step_partial`, `Props.C14_false`, `Props.C15_go_before_partial`, `Props.C15_edition_partial`, `Props.C16_clean_after_parse_partial`, `Props.C16_false`, `Props.C20_half_interval`, `Props.C20_closed_form`, `Props.C20_zero_d_diverges`, `Props.C20_small_smoothness_diverges`, `Props.C21_interval_mesh`, `Props.C21_policies`, `Props.C22_auto_solve_d`, `Props.C22_first_accepted`, `Props.C22_constructor`, `Props.C22_zero_length_diverges`, `Props.C23_auto_solve_smoothness`, `Mesh.C24_axis_mesh`, `Mesh.C25_gaps`, `Mesh.C25_whole_axis`, `Mesh.C26_terminates_and_separates`, `Mesh.C26_conflicting_diverges`, `Mesh.C27_merge`, `Mesh.C27_extent`, `Mesh.C28_intervals_tile`, `Mesh.C29_created_iff`, `Mesh.C29_always_coherent`, `Board.C30_false`, `Board.C30_partial`, `Board.C31_policy`, `Board.C31_order`, `Board.C32_covered`, `Geom.C33_tight`, `Geom.C33_edges`, `Geom.C34_sense`, `Geom.C34_start_vertex`, `Geom.C34_position`, `Geom.C34_reverse`, `Geom.C34_scale`, `Geom.C34_box`, `Geom.C35_cycle`, `Geom.C35_direction`, `Geom.C35_outward`, `Geom.C35_flat`, `Geom.C35_box`, `Geom.C36_false`, `Geom.C36_partial`, `Geom.C36_across`, `Geom.C37_symmetric`, `Geom.C37_orientation`, `Geom.C38_reverse`, `Geom.C39_false`, `Geom.C39_partial`, `Board.C40_order`, `Board.C40_ambient`, `Geom.C41_partial`, `Geom.C41_border`, `Geom.C41_border_only`, `Geom.C41_false`, `Csx.C42_lines`, `Csx.C42_order`, `Csx.C42_grid`, `Csx.C43_false`, `Csx.C43_partial`, `Csx.C44_false`, `Csx.C44_partial`, `Csx.C45_box`, `Csx.C45_linpoly`, `Csx.C45_polygon`, `Csx.C45_sphere`, `Csx.C45_sphere_tight`, `Csx.C45_false`, `Csx.C45_cylinder_partial`, `Csx.C45_curve_partial`, `Csx.C46_precedence`, `Csx.C47_false`, `Csx.C47_partial`, `Csx.C47_false_large`, `Mesh.C48_fixed`, `Utils.C49_elements`, `Geom.C51_crossing`, `Geom.C51_intersection_partial`, `Geom.C51_false`, `Geom.C52_box_partial`, `Geom.C52_polygon_partial`, `Geom.C52_false`, `Board.C53_false`, `Board.C53_partial`, `Board.C53_solved_partial`, `Board.C54_reversed`, `Board.C55_false`, `Board.C55_partial`, `Board.C55_whole`, `Board.C56_false`, `Board.C56_partial`, `Board.C56_only`, `Csx.C57_false`, `Csx.C57_partial`, `Csx.C57_uniform`, `Csx.C58_false`, `Csx.C58_partial`, `Csx.C59_priority`, `Csx.C61_partial`, `Csx.C62_partial`, `Csx.C62_lines`, `Csx.C63_partial`, `Props.C64_edition_undone`, `Props.C64_undone_reads`, `Board.C65_defined`, `Board.C65_corners`, `Board.C65_ends`, `Board.C66_sound`, `Board.C66_complete_partial`, `Board.C66_false`, `Board.C67_zones`, `Board.C67_all`, `Board.C68_tidy`, `Board.C68_false`, `Board.C69_dmax_partial`, `Board.C69_lines`, `Board.C69_false`, `Board.C70_first_partial`, `Board.C70_false`, `Mesh.C71_sides_partial`, `Mesh.C71_cells`, `Mesh.C71_false`, `Mesh.C71_left_partial`, `Props.C72_buttons_partial`, `Props.C72_previous_undoes_partial`, `Props.C73_progress_partial`, `Mesh.C74_false`, `Mesh.C74_points_partial`, `Mesh.C75_false`, `Mesh.C75_default_partial`, `Board.C76_registered`, `Board.C77_box`, `Board.C77_inside`, `Board.C78_partial`, `Board.C78_border`, `Board.C78_false`, `Board.C78_index_false`, `Board.C79_conflicts`, `Board.C79_boxes`, `Board.C79_engulfed`, `Mesh.C80_partial`, `Mesh.C80_false`, `Board.C81_boxes`, `Board.C82_ends`, `Board.C82_slanted`, `Board.C82_run`, `Board.C83_near`, `Board.C83_zones`, `Board.C84_boxes`, `Board.C85_sided`, `Board.C85_plan`, `Board.C86_adjust`, `Mesh.C87_kind`, `Mesh.C87_others`, `Board.C88_kind`, `Board.C88_lines`, `Board.C89_thirds`, `Props.C90_available`, `Dialog.C91_shown`, `Dialog.C91_unchanged_partial`, `Dialog.C91_interval_partial`, `Dialog.C91_false`, `Dialog.C91_accepted`, `Board.C92_unchanged`, `Board.C92_kept_partial`, `Board.C92_decided`, `Board.C92_boxes`, `Board.C92_false`, `Board.C93_edited_partial`, `Board.C93_unchanged_partial`, `Board.C93_false`, `Board.C94_edited_partial`, `Board.C94_unchanged_partial`, `Board.C94_false`, `Board.C95_edited_partial`, `Board.C95_unchanged_partial`, `Board.C95_false`, `Board.C96_edited_partial`, `Board.C96_unchanged_partial`, `Board.C96_false`, `Props.C97_nothing_freed`, `Props.C98_shown`, `Props.C98_drawn`, `Props.C98_again`, `Props.C99_connected_once`, `Csx.C100_read`, `Csx.C100_accepted_partial`, `Csx.C100_false`, `Csx.C100_grid`, `Board.C101_partial`, `Board.C101_false`, `Board.C102_partial`, `Board.C102_false`, `Board.C103_edited_partial`, `Board.C103_false`, `Board.C104_partial`, `Board.C104_false`, `Geom.C105_evenodd_partial`, `Geom.C105_beyond_partial`, `Geom.C105_false`, `Geom.C106_same_partial`, `Geom.C106_false`, `Board.C107_rectilinear`, `Board.C107_inside`, `Board.C107_point`, `Board.C108_covered`, `Board.C108_engulfed`, `Board.C109_board`, `Board.C109_plan`, `Board.C109_file`, `Csx.C110_shape`, `Csx.C110_property`, `Csx.C110_document`, `Csx.C110_refused`, `Board.C111_files`, `Board.C111_kept`, `Board.C111_squared`, `Board.C112_partial`, `Board.C112_false`, `Board.C113_partial`, `Board.C113_false`, `Props.C114_partial`, `Props.C114_false`, `Props.C115_steps`, `Props.C115_partial`, `Props.C115_false`, `Dialog.C116_partial`, `Dialog.C116_repainted`, `Dialog.C116_false`, `Dialog.C117_partial`, `Dialog.C117_false`, `Dialog.C118_dialog`, `Dialog.C118_given`, `Dialog.C118_left`, `Mesh.C119_merging`, `Board.C119_policy`, `Board.C119_lines`, `Board.C119_added`, `Board.C119_partial`, `Board.C119_false`, `Graph.C120_wires`, `Graph.C120_ports`, `Graph.C121_chain`, `Graph.C122_highlighted`, `Graph.C123_visible`, `Graph.C123_selection`, `Graph.C123_structure`, `Graph.C124_partial`, `Graph.C124_lost`, `Graph.C124_false`, `Props.C126_false`, `Props.Show.C127_partial`, `Props.Show.C127_keys`, `Props.Show.C127_false`, `Props.Show.C128_partial`, `Props.Show.C129_partial`, `Props.Show.C129_false`, `Uml.C130_partial`, `Uml.C130_false`, `Bar.C131_partial`, `Bar.C131_angles`, `Bar.C131_false`, `Bar.C132_ahead`, `Bar.C132_false`, `Bar.C133_partial`, `Bar.C133_false`, `Structure.C134_defined`, `Structure.C134_present`, `Structure.C134_once`, `Structure.C134_places_partial`, `Structure.C134_false`, `Structure.C135_around_partial`, `Structure.C135_false`, `Sync.C136_ends`, `Sync.C136_follow_partial`, `Sync.C136_false`, `Sync.C137_hide_partial`, `Sync.C137_false`, `Layout.C138_tidy`, `Layout.C138_least`, `Layout.C138_spread`, `Layout.C138_hidden`, `Layout.C139_apart`, `Layout.C139_places`, `Layout.C139_view`, `Layout.C140_columns`, `Layout.C140_right`, `Csx.C141_left`, `Csx.C141_names`, `Csx.C141_partial`, `Csx.C141_found`, `Csx.C141_false`, `Log.C142_answers`, `Log.C143_partial`, `Log.C143_false`, `Log.C144_partial`, `Log.C144_false`, `Graph.C145_kind`, `Graph.C145_partial`, `Graph.C145_asked`, `Graph.C145_colinear`, `Graph.C145_false`, `Pretty.C146_colinear_partial`, `Pretty.C146_in_polygons_partial`, `Pretty.C146_untold`, `Pretty.C146_false`, `Moved.C147_added`, `Moved.C147_parsed`, `Moved.C147`, `Asked.C148`, `Asked.C148_run`, `Asked.C148_near`, `Scaled.C149_partial`, `Scaled.C149_false`, `Mirror.C150_partial`, `Mirror.C150_false`, `Mirror.C150_merged_false`, `Wires.C151`, `Wires.C151_unique`, `Wires.C151_style`, `Wires.C151_resized`, `Wires.C152`, `Wires.C152_order`, `Wires.C152_loop`, `Orient.C153`, `Orient.C153_turned`, `Orient.C153_fitted`, `Orient.C153_zoom`, `Orient.C153_plane`, `Layers.C154_false`, `Layers.C154_partial`, `Layers.C154_populated`, `Props.C156_saved`, `Props.C157_partial`, `Paint.C159_style`, `Paint.C159_partial`, `Paint.C159_false`, `Paint.C160_partial`, `Paint.C160_false`, `Paint.C161`, `Paint.C161_selected`, `Paint.C162_partial`, `Paint.C162_false`, `Paint.C163`, `Paint.C163_wire`, `Paint.C164`, `Paint.C164_told`, `Paint.C164_style`, `Paint.C165`, `Paint.C165_angle`, `Paint.C165_policy`, `Paint.C165_ports`, `Paint.C165_values`, `Paint.C165_polygon`, `Paint.C165_meshline`, `Paint.C166_false`, `Paint.C166_partial`, `Paint.C167_false`, `Paint.C167_partial`.
* depends on axioms: [propext, Quot.sound] (41): `Props.C04_false`, `Props.C06_false`, `Props.C09_false`, `Props.C10_false_unregistered`, `Props.C10_false_address_reuse`, `Props.C11_ancestors`, `Props.C11_queries`, `Props.C11_cluster_and_leafs`, `Props.C11_common_ancestor`, `Props.C11_add_child`, `Props.C11_erase`, `Props.C15_false`, `Props.C18_success_means_saved_partial`, `Props.C19_close_partial`, `Utils.C49_runs`, `Utils.C50_one`, `Utils.C50_answer`, `Utils.C50_destination`, `Utils.C50_last`, `Csx.C60_preserved`, `Csx.C61_false`, `Csx.C62_false`, `Csx.C63_false`, `Board.C68_solved_partial`, `Board.C68_policies`, `Props.C72_false`, `Props.C73_false`, `Props.C115_refused`, `Dialog.C116_chosen`, `Graph.C123_mesh`, `Props.C125_partial`, `Props.C125_written`, `Props.C125_chosen`, `Props.C126_partial`, `Bar.C132_partial`, `Bar.C132_loops_partial`, `Layers.C154_angles`, `Layers.C154_cleared`, `Props.C156_partial`, `Props.C157_output`, `Props.C158_partial`.
* depends on axioms: [propext] (19): `Props.C01_edits_undo_redo_in_scope`, `Props.C02_refused_move_changes_nothing`, `Props.C13_same_order`, `Props.C13_run_executes`, `Props.C17_no_overwrite_partial`, `Props.C17_false`, `Props.C17_written`, `Props.C17_window`, `Props.C18_false`, `Props.C19_false`, `Geom.C33_defined`, `Geom.C38_segment`, `Csx.C45_point`, `Props.C125_false`, `Props.Show.C128_false`, `Log.C143_offered`, `Props.C156_false`, `Props.C157_false`, `Props.C158_false`.
* does not depend on any axioms (5): `Geom.C38_view`, `Csx.C45_multibox`, `Csx.C60_grid_attrs`, `Layers.C155_false`, `Layers.C155_partial`.
