import Verif.Lemmas.Pretty
import Verif.Lemmas.ManagerMesh

/-!
# C146: the text of the conflicts

The text shown by a terminal tells each conflict of colinear edges and each conflict of an edge in polygons, in order, with its
place, its edges and what came of it. It tells nothing of the conflicts of too close policies, but for the title.
-/

namespace Verif.Pretty
open Spec
open Verif.Uml.Spec (linesOf after)
open Verif.Mesh (Kind Sorter)
open Verif.Geom (Plane Axis Normal Rotation Point SegAxis Direction)

theorem after_self (s x : List Char) : after s (s ++ x) = some x := by simp [after]

theorem reports_append (t : List Char) {A B : List (List Char)} (h : B.head?.any tabbed = false) :
    reports t (A ++ B) = reports t A ++ reports t B := by
  induction A with
  | nil => rfl
  | cons l A ih =>
    have h1 : (A ++ B).takeWhile tabbed = A.takeWhile tabbed := by
      rw [List.takeWhile_append]
      split
      · have : B.takeWhile tabbed = [] := by
          cases B with
          | nil => rfl
          | cons b B => simp at h; simp [h]
        rw [this, List.append_nil]
        rename_i h2
        exact ((List.takeWhile_prefix tabbed).eq_of_length h2).symm
      · rfl
    rw [List.cons_append, reports, reports, h1, ih]
    split <;> rfl

theorem reports_flatMap {α : Type} (t : List Char) {f : α → List (List Char)} {l : List α} {B : List (List Char)}
    (h : ∀ x ∈ l, (f x).head?.any tabbed = false ∧ f x ≠ []) (hB : B.head?.any tabbed = false) :
    reports t (l.flatMap f ++ B) = l.flatMap (fun x => reports t (f x)) ++ reports t B ∧
      (l.flatMap f ++ B).head?.any tabbed = false := by
  induction l with
  | nil => exact ⟨rfl, hB⟩
  | cons x l ih =>
    obtain ⟨h1, h2⟩ := ih fun y hy => h y (by simp [hy])
    obtain ⟨g1, g2⟩ := h x (by simp)
    rw [List.flatMap_cons, List.append_assoc, reports_append t h2, h1]
    refine ⟨by simp, ?_⟩
    cases hf : f x with
    | nil => exact absurd hf g2
    | cons a A => rw [hf] at g1; exact g1

theorem reports_tabbed (t : List Char) (ht : tabbed t = false) {A : List (List Char)} (h : ∀ l ∈ A, tabbed l = true) :
    reports t A = [] := by
  induction A with
  | nil => rfl
  | cons l A ih =>
    rw [reports, if_neg, ih fun y hy => h y (by simp [hy])]
    rintro rfl
    simp [ht] at h

theorem tabbed_tab (w : List Char) : tabbed ('\t' :: w) = true := rfl

theorem takeWhile_all {A : List (List Char)} (h : ∀ l ∈ A, tabbed l = true) : A.takeWhile tabbed = A := by
  induction A with
  | nil => rfl
  | cons a A ih => rw [List.takeWhile_cons, if_pos (h a (by simp)), ih fun y hy => h y (by simp [hy])]

/-- The lines of a report: those set to the right, then perhaps an empty one. -/
theorem reports_block (t t' : List Char) (ht : tabbed t = false) (hne : t ≠ []) {A : List (List Char)}
    (h : ∀ l ∈ A, tabbed l = true) (e : List Char) (he : e = [] ∨ tabbed e = true) :
    reports t (t' :: (A ++ [e])) = if t' = t then [A ++ if tabbed e then [e] else []] else [] := by
  have h1 : reports t (A ++ [e]) = [] := by
    rcases he with rfl | he
    · rw [reports_append t (by rfl), reports_tabbed t ht h]
      simp [reports, hne.symm]
    · exact reports_tabbed t ht fun l hl => by
        rcases List.mem_append.mp hl with hl | hl
        · exact h l hl
        · rw [List.mem_singleton.mp hl]; exact he
  have h2 : (A ++ [e]).takeWhile tabbed = A ++ if tabbed e then [e] else [] := by
    rw [List.takeWhile_append, takeWhile_all h, if_pos rfl]
    rcases he with rfl | he
    · rfl
    · simp [he]
  rw [reports, h1, h2]

/-- The lines under the title of a conflict of colinear edges, but for the outcome; and the outcome. -/
def colinearBody (c : ColinearRec) : List (List Char) :=
  ("\tAxis: ".toList ++ (axisWord c.axis).toList) :: c.edges.map (fun e => "\tEdge: {".toList ++ edgeTold e)
@[inherit_doc colinearBody] def colinearEnd (c : ColinearRec) : List Char :=
  match c.solution with
  | some k => "\tSolution: ".toList ++ (kindWord k).toList
  | none => []

theorem colinearLines_eq (c : ColinearRec) :
    colinearLines c = "Conflict ColinearEdges between:".toList :: (colinearBody c ++ [colinearEnd c]) := rfl

theorem tabbed_append {s w : List Char} (h : tabbed s = true) : tabbed (s ++ w) = true := by
  cases s with
  | nil => cases h
  | cons c s => exact h

theorem colinearBody_tabbed (c : ColinearRec) : ∀ l ∈ colinearBody c, tabbed l = true := by
  intro l hl
  rcases List.mem_cons.mp hl with rfl | hl
  · exact tabbed_append (by decide)
  · obtain ⟨e, -, rfl⟩ := List.mem_map.mp hl
    exact tabbed_append (by decide)

theorem colinearEnd_tabbed (c : ColinearRec) : colinearEnd c = [] ∨ tabbed (colinearEnd c) = true := by
  unfold colinearEnd
  split
  · exact .inr (tabbed_append (by decide))
  · exact .inl rfl

@[inherit_doc colinearBody] def inPolygonBody (c : InPolygonRec) : List (List Char) :=
  ("\tPlane: ".toList ++ (planeWord c.plane).toList) :: ("\tEdge: {".toList ++ edgeTold c.edge) :: c.overlaps.flatMap overlapLines
@[inherit_doc colinearBody] def inPolygonEnd (c : InPolygonRec) : List Char :=
  if c.solved then "\tSolution: ".toList ++ (if c.edge.toMesh then "to mesh".toList else "don't mesh".toList) else []

theorem inPolygonLines_eq (c : InPolygonRec) :
    inPolygonLines c = "Conflict EdgeInPolygon between:".toList :: (inPolygonBody c ++ [inPolygonEnd c]) := rfl

theorem overlap_tabbed (o : OverlapRec) : ∀ l ∈ overlapLines o, tabbed l = true := by
  intro l hl
  simp only [overlapLines, polygonLines, List.mem_cons, List.mem_append, List.mem_map, List.not_mem_nil, or_false] at hl
  rcases hl with (rfl | ⟨e, -, rfl⟩ | rfl) | ⟨e, -, rfl⟩ | rfl
  · exact tabbed_append (by decide)
  · exact tabbed_append (by decide)
  · decide
  · exact tabbed_append (by decide)
  · exact tabbed_append (by decide)

theorem inPolygonBody_tabbed (c : InPolygonRec) : ∀ l ∈ inPolygonBody c, tabbed l = true := by
  intro l hl
  rcases List.mem_cons.mp hl with rfl | hl
  · exact tabbed_append (by decide)
  rcases List.mem_cons.mp hl with rfl | hl
  · exact tabbed_append (by decide)
  · obtain ⟨o, -, hl⟩ := List.mem_flatMap.mp hl
    exact overlap_tabbed o l hl

theorem inPolygonEnd_tabbed (c : InPolygonRec) : inPolygonEnd c = [] ∨ tabbed (inPolygonEnd c) = true := by
  unfold inPolygonEnd
  split
  · exact .inr (tabbed_append (by decide))
  · exact .inl rfl

/-- The title of a report. -/
abbrev colinearTitle : List Char := "Conflict ColinearEdges between:".toList
@[inherit_doc colinearTitle] abbrev inPolygonTitle : List Char := "Conflict EdgeInPolygon between:".toList

theorem reports_section (t : List Char) (title : List Char) (ht : t ≠ []) (h : t ≠ "CONFLICT: ".toList ++ title) :
    reports t (sectionLines title) = [] := by
  rw [sectionLines, reports, if_neg (Ne.symm ht), reports, if_neg (Ne.symm h), reports, if_neg (Ne.symm ht), reports]

theorem reports_board (t : List Char) (ht : tabbed t = false) (hne : t ≠ []) (h : ("CONFLICT: ".toList).isPrefixOf t = false)
    (b : Board) : reports t (boardLines b ++ [[]]) =
      ([Plane.yz, .zx, .xy].flatMap fun p => (b.inPolygons p).flatMap fun c => reports t (inPolygonLines c)) ++
      ([Axis.x, .y, .z].flatMap fun a => (b.colinears a).flatMap fun c => reports t (colinearLines c)) := by
  have hs : ∀ title, reports t (sectionLines title) = [] := fun title => reports_section t title hne (by
    rintro rfl
    rw [List.isPrefixOf_iff_prefix.mpr (List.prefix_append ..)] at h
    cases h)
  have hh : ∀ title, (sectionLines title).head?.any tabbed = false := fun _ => rfl
  have hsh : ∀ title (B : List (List Char)), (sectionLines title ++ B).head?.any tabbed = false := fun _ _ => rfl
  have he : reports t [[]] = [] := by simp [reports, hne.symm]
  have e1 : ([Plane.yz, .zx, .xy].flatMap fun p => (b.inPolygons p).flatMap inPolygonLines) =
      ([Plane.yz, .zx, .xy].flatMap fun p => b.inPolygons p).flatMap inPolygonLines := by rw [List.flatMap_assoc]
  have e2 : ([Axis.x, .y, .z].flatMap fun a => (b.colinears a).flatMap colinearLines) =
      ([Axis.x, .y, .z].flatMap fun a => b.colinears a).flatMap colinearLines := by rw [List.flatMap_assoc]
  have a3 : reports t (sectionLines "TOO CLOSE MESHLINE POLICIES".toList ++ [[]]) = [] := by
    rw [reports_append t rfl, hs, he]; rfl
  obtain ⟨a4, a5⟩ := reports_flatMap t (f := colinearLines) (l := [Axis.x, .y, .z].flatMap fun a => b.colinears a)
    (B := sectionLines "TOO CLOSE MESHLINE POLICIES".toList ++ [[]]) (fun c _ => ⟨rfl, List.cons_ne_nil _ _⟩) (hsh _ _)
  obtain ⟨a6, a7⟩ := reports_flatMap t (f := inPolygonLines) (l := [Plane.yz, .zx, .xy].flatMap fun p => b.inPolygons p)
    (B := sectionLines "COLINEAR EDGES".toList ++ (([Axis.x, .y, .z].flatMap fun a => b.colinears a).flatMap colinearLines ++
      (sectionLines "TOO CLOSE MESHLINE POLICIES".toList ++ [[]]))) (fun c _ => ⟨rfl, List.cons_ne_nil _ _⟩) (hsh _ _)
  rw [boardLines, e1, e2]
  rw [List.append_assoc, List.append_assoc, List.append_assoc, List.append_assoc, reports_append t a7, a6, reports_append t a5, a4, a3, hs, hs]
  simp only [List.nil_append, List.append_nil, List.flatMap_assoc]

theorem under_append (s : String) (a b : List (List Char)) : under s (a ++ b) = under s a ++ under s b := List.filterMap_append ..

theorem under_none (s : String) {l : List (List Char)} (h : ∀ x ∈ l, after s.toList x = none) : under s l = [] :=
  List.filterMap_eq_nil_iff.mpr h

theorem under_map {α : Type} (s : String) (f : α → List Char) (l : List α) : under s (l.map fun x => s.toList ++ f x) = l.map f := by
  rw [under, List.filterMap_map, ← List.filterMap_eq_map]
  congr 1
  funext x
  exact after_self _ _

theorem under_one (s : String) (x : List Char) : under s [s.toList ++ x] = [x] := by simp [under, after_self]

theorem after_other {s w : List Char} (h : ∀ x, s.isPrefixOf (w ++ x) = false) (x : List Char) : after s (w ++ x) = none := by
  rw [after, h x]; rfl

theorem under_others {α : Type} (s : String) {w : List Char} (h : ∀ x, s.toList.isPrefixOf (w ++ x) = false) (f : α → List Char)
    (l : List α) : under s (l.map fun x => w ++ f x) = [] :=
  under_none s fun x hx => by
    obtain ⟨y, -, rfl⟩ := List.mem_map.mp hx
    exact after_other h _

theorem under_other (s : String) {w : List Char} (h : ∀ x, s.toList.isPrefixOf (w ++ x) = false) (x : List Char) :
    under s [w ++ x] = [] := under_others s h (fun _ : Unit => x) [()]

theorem under_cons (s : String) (a : List Char) (b : List (List Char)) : under s (a :: b) = under s [a] ++ under s b :=
  under_append s [a] b

theorem read_colinear (c : ColinearRec) :
    ToldColinear.read (colinearBody c ++ if tabbed (colinearEnd c) then [colinearEnd c] else []) = .of c := by
  have h1 : ∀ s : String, under s (if tabbed (colinearEnd c) then [colinearEnd c] else []) =
      c.solution.toList.flatMap fun k => under s ["\tSolution: ".toList ++ (kindWord k).toList] := by
    intro s
    unfold colinearEnd
    cases c.solution with
    | none => rfl
    | some k => simp [tabbed, under]
  have h2 : ∀ s : String, under s (colinearBody c) = under s ["\tAxis: ".toList ++ (axisWord c.axis).toList] ++
      under s (c.edges.map fun e => "\tEdge: {".toList ++ edgeTold e) := fun s => by rw [colinearBody, under_cons]
  have g1 : under "\tAxis: " (colinearBody c) = [(axisWord c.axis).toList] := by
    rw [h2, under_one, under_others _ (by simp [List.isPrefixOf])]; rfl
  have g2 : under "\tEdge: {" (colinearBody c) = c.edges.map edgeTold := by
    rw [h2, under_other _ (by simp [List.isPrefixOf]), under_map]; rfl
  have g3 : under "\tSolution: " (colinearBody c) = [] := by
    rw [h2, under_other _ (by simp [List.isPrefixOf]), under_others _ (by simp [List.isPrefixOf])]; rfl
  unfold ToldColinear.read ToldColinear.of
  rw [under_append, under_append, under_append, h1, h1, h1, g1, g2, g3]
  cases c.solution with
  | none => simp
  | some k =>
    simp only [Option.toList_some, List.flatMap_cons, List.flatMap_nil, List.map_cons, List.map_nil]
    rw [under_other "\tAxis: " (by simp [List.isPrefixOf]), under_other "\tEdge: {" (by simp [List.isPrefixOf]), under_one]
    simp

theorem under_overlaps (s : String) (l : List OverlapRec) :
    under s (l.flatMap overlapLines) = l.flatMap fun o => under s (overlapLines o) := by
  rw [under, List.filterMap_flatMap]
  rfl

theorem under_overlap (s : String) (o : OverlapRec) : under s (overlapLines o) =
    under s ["\tPolygon: ".toList ++ (o.polygon.name ++ [' '] ++ (rotationWord o.polygon.rotation).toList ++ [' ', '{'])] ++
    (under s (o.polygon.edges.map fun e => "\t\t{".toList ++ edgeTold e) ++ under s ["\t\t}".toList ++ []]) ++
    (under s (o.edge.toList.map fun e => "\t\tby edge: {".toList ++ edgeTold e) ++
      under s ["\t\ton range: {".toList ++ (ends o.range.p0 o.range.p1 ++ [' '] ++ (segWord o.range.axis).toList)]) := by
  rw [overlapLines, polygonLines, under_append, under_cons, under_append, under_append, List.append_nil]

theorem read_inPolygon (c : InPolygonRec) :
    ToldInPolygon.read (inPolygonBody c ++ if tabbed (inPolygonEnd c) then [inPolygonEnd c] else []) = .of c := by
  have h1 : ∀ s : String, under s (if tabbed (inPolygonEnd c) then [inPolygonEnd c] else []) =
      if c.solved then under s ["\tSolution: ".toList ++ (if c.edge.toMesh then "to mesh".toList else "don't mesh".toList)]
      else [] := by
    intro s
    unfold inPolygonEnd
    generalize (if c.edge.toMesh then "to mesh".toList else "don't mesh".toList) = v
    cases c.solved with
    | false => rfl
    | true => simp [tabbed, under]
  have h2 : ∀ s : String, under s (inPolygonBody c) = under s ["\tPlane: ".toList ++ (planeWord c.plane).toList] ++
      (under s ["\tEdge: {".toList ++ edgeTold c.edge] ++ c.overlaps.flatMap fun o => under s (overlapLines o)) := fun s => by
    rw [inPolygonBody, under_cons, under_cons s (_ ++ edgeTold c.edge), under_overlaps]
  have g1 : ∀ o, under "\tPlane: " (overlapLines o) = [] := fun o => by
    rw [under_overlap, under_other _ (by simp [List.isPrefixOf]), under_others _ (by simp [List.isPrefixOf]), under_other _ (by simp [List.isPrefixOf]), under_others _ (by simp [List.isPrefixOf]),
      under_other _ (by simp [List.isPrefixOf])]; rfl
  have g2 : ∀ o, under "\tEdge: {" (overlapLines o) = [] := fun o => by
    rw [under_overlap, under_other _ (by simp [List.isPrefixOf]), under_others _ (by simp [List.isPrefixOf]), under_other _ (by simp [List.isPrefixOf]), under_others _ (by simp [List.isPrefixOf]),
      under_other _ (by simp [List.isPrefixOf])]; rfl
  have g3 : ∀ o, under "\tPolygon: " (overlapLines o) =
      [o.polygon.name ++ [' '] ++ (rotationWord o.polygon.rotation).toList ++ [' ', '{']] := fun o => by
    rw [under_overlap, under_one, under_others _ (by simp [List.isPrefixOf]), under_other _ (by simp [List.isPrefixOf]), under_others _ (by simp [List.isPrefixOf]),
      under_other _ (by simp [List.isPrefixOf])]; rfl
  have g4 : ∀ o, under "\t\t{" (overlapLines o) = o.polygon.edges.map edgeTold := fun o => by
    rw [under_overlap, under_other _ (by simp [List.isPrefixOf]), under_map, under_other _ (by simp [List.isPrefixOf]), under_others _ (by simp [List.isPrefixOf]),
      under_other _ (by simp [List.isPrefixOf])]; simp
  have g5 : ∀ o, under "\t\tby edge: {" (overlapLines o) = o.edge.toList.map edgeTold := fun o => by
    rw [under_overlap, under_other _ (by simp [List.isPrefixOf]), under_others _ (by simp [List.isPrefixOf]), under_other _ (by simp [List.isPrefixOf]), under_map,
      under_other _ (by simp [List.isPrefixOf])]; simp
  have g6 : ∀ o, under "\t\ton range: {" (overlapLines o) =
      [ends o.range.p0 o.range.p1 ++ [' '] ++ (segWord o.range.axis).toList] := fun o => by
    rw [under_overlap, under_other _ (by simp [List.isPrefixOf]), under_others _ (by simp [List.isPrefixOf]), under_other _ (by simp [List.isPrefixOf]), under_others _ (by simp [List.isPrefixOf]),
      under_one]; rfl
  have g7 : ∀ o, under "\tSolution: " (overlapLines o) = [] := fun o => by
    rw [under_overlap, under_other _ (by simp [List.isPrefixOf]), under_others _ (by simp [List.isPrefixOf]), under_other _ (by simp [List.isPrefixOf]), under_others _ (by simp [List.isPrefixOf]),
      under_other _ (by simp [List.isPrefixOf])]; rfl
  unfold ToldInPolygon.read ToldInPolygon.of
  simp only [under_append, h1, h2, g1, g2, g3, g4, g5, g6, g7]
  generalize (if c.edge.toMesh then "to mesh".toList else "don't mesh".toList) = v
  rw [under_one, under_one, under_one]
  rw [under_other "\tPlane: " (by simp [List.isPrefixOf]), under_other "\tPlane: " (by simp [List.isPrefixOf]), under_other "\tEdge: {" (by simp [List.isPrefixOf]),
    under_other "\tEdge: {" (by simp [List.isPrefixOf]), under_other "\tPolygon: " (by simp [List.isPrefixOf]), under_other "\tPolygon: " (by simp [List.isPrefixOf]),
    under_other "\tPolygon: " (by simp [List.isPrefixOf]), under_other "\t\t{" (by simp [List.isPrefixOf]), under_other "\t\t{" (by simp [List.isPrefixOf]), under_other "\t\t{" (by simp [List.isPrefixOf]),
    under_other "\t\tby edge: {" (by simp [List.isPrefixOf]), under_other "\t\tby edge: {" (by simp [List.isPrefixOf]), under_other "\t\tby edge: {" (by simp [List.isPrefixOf]),
    under_other "\t\ton range: {" (by simp [List.isPrefixOf]), under_other "\t\ton range: {" (by simp [List.isPrefixOf]), under_other "\t\ton range: {" (by simp [List.isPrefixOf]),
    under_other "\tSolution: " (by simp [List.isPrefixOf]), under_other "\tSolution: " (by simp [List.isPrefixOf])]
  have f0 : c.overlaps.flatMap (fun _ => ([] : List (List Char))) = [] := by simp
  simp only [ite_self, List.append_nil, List.nil_append, f0, List.map_eq_flatMap]

/-- C146: each conflict of colinear edges is told, in order, with its axis, its edges and what came of it, and nothing else is. -/
theorem C146_colinear_partial (S : Sorter (ℚ × Nat)) (b : Board) (h : PlainNames b) :
    (reports "Conflict ColinearEdges between:".toList (shownLines (run S b))).map ToldColinear.read =
      [Axis.x, .y, .z].flatMap fun a => (b.colinears a).map .of := by
  rw [shownLines_run S h, reports_board _ (by decide) (by decide) (by decide)]
  have h1 : ∀ c, reports colinearTitle (inPolygonLines c) = [] := fun c => by
    rw [inPolygonLines_eq, reports_block _ _ (by decide) (by decide) (inPolygonBody_tabbed c) _ (inPolygonEnd_tabbed c),
      if_neg (by decide)]
  have h2 : ∀ c, (reports colinearTitle (colinearLines c)).map ToldColinear.read = [.of c] := fun c => by
    rw [colinearLines_eq, reports_block _ _ (by decide) (by decide) (colinearBody_tabbed c) _ (colinearEnd_tabbed c),
      if_pos rfl, List.map_singleton, read_colinear]
  rw [List.map_append]
  simp only [h1, List.map_flatMap, h2]
  have f0 : ∀ l : List InPolygonRec, l.flatMap (fun _ => ([] : List ToldColinear)) = [] := by simp
  simp only [List.map_eq_flatMap, List.flatMap_nil, f0]
  rfl

/-- C146: each conflict of an edge in polygons is told, in order, with its plane, its edge, the polygons, what it lies along, and
what came of it, and nothing else is. -/
theorem C146_in_polygons_partial (S : Sorter (ℚ × Nat)) (b : Board) (h : PlainNames b) :
    (reports "Conflict EdgeInPolygon between:".toList (shownLines (run S b))).map ToldInPolygon.read =
      [Plane.yz, .zx, .xy].flatMap fun p => (b.inPolygons p).map .of := by
  rw [shownLines_run S h, reports_board _ (by decide) (by decide) (by decide)]
  have h1 : ∀ c, reports inPolygonTitle (colinearLines c) = [] := fun c => by
    rw [colinearLines_eq, reports_block _ _ (by decide) (by decide) (colinearBody_tabbed c) _ (colinearEnd_tabbed c),
      if_neg (by decide)]
  have h2 : ∀ c, (reports inPolygonTitle (inPolygonLines c)).map ToldInPolygon.read = [.of c] := fun c => by
    rw [inPolygonLines_eq, reports_block _ _ (by decide) (by decide) (inPolygonBody_tabbed c) _ (inPolygonEnd_tabbed c),
      if_pos rfl, List.map_singleton, read_inPolygon]
  rw [List.map_append]
  simp only [h1, List.map_flatMap, h2]
  simp [List.map_eq_flatMap]

/-- C146: nothing of the policies, the intervals and the conflicts of too close policies is told: the text is that of the board
without them, and its last chapter is empty. -/
theorem C146_untold (S : Sorter (ℚ × Nat)) (b : Board) (policies : Axis → List (ℚ × Nat)) (intervals tooCloses : Axis → List Nat) :
    run S { b with policies := policies, intervals := intervals, tooCloses := tooCloses } = run S b := by
  have h1 : ∀ c : Board, [Axis.x, .y, .z].flatMap (fun a =>
      (S.sort (·.1) (c.policies a)).flatMap visitPolicy ++ (c.intervals a).flatMap visitInterval) = [] := fun c => by
    simp [visitPolicy, visitInterval]
  have h2 : ∀ c : Board, [Axis.x, .y, .z].flatMap (fun a => (c.tooCloses a).flatMap visitTooClose) = [] := fun c => by
    simp [visitTooClose]
  unfold run visitBoard
  rw [h1, h1, h2, h2]

/-- A board with a conflict of each kind. -/
def sample : Board where
  inPolygons := fun p => if p = .xy then [⟨.xy, ⟨⟨0, 0⟩, ⟨2, 0⟩, .h, .xmax, .ymin, false⟩,
    [⟨⟨"plate".toList, .cw, [⟨⟨0, 0⟩, ⟨3, 0⟩, .h, .xmax, .ymax, true⟩]⟩, ⟨⟨0, 0⟩, ⟨2, 0⟩, .h⟩, none⟩], true⟩] else []
  policies := fun a => if a = .x then [(1, 0), (2, 1)] else []
  intervals := fun _ => []
  colinears := fun a => if a = .y then [⟨.y, [⟨⟨0, 0⟩, ⟨2, 0⟩, .h, .xmax, .ymin, true⟩, ⟨⟨5, 0⟩, ⟨3, 0⟩, .h, .xmin, .ymin, true⟩],
    some .thirds⟩] else []
  tooCloses := fun a => if a = .x then [7] else []

theorem sample_plain : PlainNames sample := by
  intro p c hc o ho
  simp only [sample] at hc
  split at hc
  · rw [List.mem_singleton.mp hc] at ho
    rw [List.mem_singleton.mp ho]
    decide
  · cases hc

/-- C146_colinear_partial, C146_in_polygons_partial: the board above has one report of each. -/
example (S : Sorter (ℚ × Nat)) : PlainNames sample ∧
    (reports "Conflict ColinearEdges between:".toList (shownLines (run S sample))).length = 1 ∧
    (reports "Conflict EdgeInPolygon between:".toList (shownLines (run S sample))).length = 1 := by
  refine ⟨sample_plain, ?_, ?_⟩
  · have := congrArg List.length (C146_colinear_partial S sample sample_plain)
    rw [List.length_map] at this
    rw [this]
    rfl
  · have := congrArg List.length (C146_in_polygons_partial S sample sample_plain)
    rw [List.length_map] at this
    rw [this]
    rfl

/-- C146_untold: there are such conflicts and policies. -/
example : sample.tooCloses .x = [7] ∧ sample.policies .x ≠ [] := ⟨rfl, by simp [sample]⟩

/-- C146 is false of the conflicts of too close policies: under their title nothing is written, though there is one. -/
theorem C146_false : ¬ ∀ (S : Sorter (ℚ × Nat)) (b : Board), PlainNames b → (∃ a, b.tooCloses a ≠ []) →
    ∃ l ∈ chapter "TOO CLOSE MESHLINE POLICIES" (shownLines (run S b)), l ≠ [] := by
  intro h
  obtain ⟨l, h1, h2⟩ := h (Mesh.Sorter.insertion _) { sample with inPolygons := fun _ => [], colinears := fun _ => [] }
    (fun p c hc => by cases hc) ⟨.x, by simp [sample]⟩
  rw [shownLines_run _ (fun p c hc => by cases hc)] at h1
  revert h1 h2
  have : chapter "TOO CLOSE MESHLINE POLICIES" (boardLines { sample with inPolygons := fun _ => [], colinears := fun _ => [] } ++
    [[]]) = [[], []] := by decide +kernel
  rw [this]
  simp

end Verif.Pretty
