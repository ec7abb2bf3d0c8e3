import Verif.Spec.Pretty
import Verif.Lemmas.Plantuml
import Verif.Lemmas.Dialog

/-! # The lines of the text of the conflicts -/

namespace Verif.Pretty
open Spec
open Verif.Csx (decimal toString6 sixDigits roundEven)
open Verif.Uml (normalText rotationText kindText axisText planeText double)
open Verif.Uml.Spec (linesOf after)
open Verif.Mesh (Kind Sorter)
open Verif.Geom (Plane Axis Normal Rotation Point SegAxis Direction)

/-- No escape character, and no end of line. -/
def Free (w : List Char) : Prop := ∀ c ∈ w, c ≠ '\x1b' ∧ c ≠ '\n'

instance (w : List Char) : Decidable (Free w) := inferInstanceAs (Decidable (∀ c ∈ w, _))

theorem Free.append {a b : List Char} (ha : Free a) (hb : Free b) : Free (a ++ b) := by
  intro c hc
  rcases List.mem_append.mp hc with hc | hc
  · exact ha c hc
  · exact hb c hc

theorem free_nil : Free [] := by simp [Free]
theorem free_cons {c : Char} {w : List Char} (h : c ≠ '\x1b' ∧ c ≠ '\n') (hw : Free w) : Free (c :: w) := by
  intro d hd
  rcases List.mem_cons.mp hd with rfl | hd
  · exact h
  · exact hw d hd

theorem free_digit {c : Char} (h : c.isDigit = true) : c ≠ '\x1b' ∧ c ≠ '\n' := by
  constructor <;> (rintro rfl; revert h; decide)

theorem free_double (x : ℚ) : Free (double x) := by
  intro c hc
  unfold double toString6 at hc
  simp only [List.mem_append, List.mem_singleton] at hc
  rcases hc with ((hc | hc) | rfl) | hc
  · split at hc
    · simp only [List.mem_singleton] at hc; subst hc; decide
    · cases hc
  · exact free_digit (Dialog.decimal_isDigit _ c hc)
  · decide
  · simp only [sixDigits, List.mem_map] at hc
    obtain ⟨m, hm, rfl⟩ := hc
    have hlt : m < 10 := by
      set n := roundEven (|x| * 1000000) % 1000000 with hn
      have : n < 1000000 := Nat.mod_lt _ (by omega)
      simp only [List.mem_cons, List.not_mem_nil, or_false] at hm
      omega
    exact free_digit (Csx.digitChar_isDigit hlt)

theorem free_ends (p q : Point) : Free (ends p q) := by
  unfold ends
  refine ((((((((Free.append ?_ (free_double _)).append ?_).append (free_double _)).append ?_).append (free_double _)).append
    ?_).append (free_double _)).append ?_) <;> decide

theorem free_seg (a : SegAxis) : Free (segWord a).toList := by cases a <;> decide
theorem free_direction (a : Direction) : Free (directionWord a).toList := by cases a <;> decide
theorem free_normal (a : Normal) : Free (normalWord a).toList := by cases a <;> decide
theorem free_rotation (a : Rotation) : Free (rotationWord a).toList := by cases a <;> decide
theorem free_kind (a : Kind) : Free (kindWord a).toList := by cases a <;> decide
theorem free_axis (a : Axis) : Free (axisWord a).toList := by cases a <;> decide
theorem free_plane (a : Plane) : Free (planeWord a).toList := by cases a <;> decide

theorem free_edge (e : EdgeRec) : Free (edgeTold e) := by
  unfold edgeTold
  refine ((((((Free.append (free_ends _ _) ?_).append (free_seg _)).append ?_).append (free_direction _)).append ?_).append
    (free_normal _)).append ?_
  · decide
  · decide
  · decide
  · split <;> decide

/-! ## What a terminal shows of a text -/

/-- The text `t` shows as `u`. -/
def Bare (t u : List Char) : Prop := ∀ rest, shownFrom false (t ++ rest) = u ++ shownFrom false rest

theorem Bare.append {a b u v : List Char} (ha : Bare a u) (hb : Bare b v) : Bare (a ++ b) (u ++ v) := fun rest => by
  rw [List.append_assoc, ha, hb, List.append_assoc]

theorem Bare.nil : Bare [] [] := fun _ => rfl

theorem Bare.flatMap {α : Type} {f g : α → List Char} {l : List α} (h : ∀ x ∈ l, Bare (f x) (g x)) :
    Bare (l.flatMap f) (l.flatMap g) := by
  induction l with
  | nil => exact .nil
  | cons x l ih =>
    rw [List.flatMap_cons, List.flatMap_cons]
    exact (h x (by simp)).append (ih fun y hy => h y (by simp [hy]))

theorem Bare.self {w : List Char} (h : ∀ c ∈ w, c ≠ '\x1b') : Bare w w := by
  intro rest
  induction w with
  | nil => rfl
  | cons c w ih =>
    rw [List.cons_append, shownFrom, if_neg (h c (by simp)), ih fun d hd => h d (by simp [hd])]
    rfl

theorem Bare.free {w : List Char} (h : Free w) : Bare w w := .self fun c hc => (h c hc).1

theorem bare_reset : Bare reset [] := fun rest => by simp [reset, shownFrom]
theorem bare_bold : Bare bold [] := fun rest => by simp [bold, shownFrom]
theorem bare_red : Bare darkRed [] := fun rest => by simp [darkRed, shownFrom]
theorem bare_green : Bare darkGreen [] := fun rest => by simp [darkGreen, shownFrom]
theorem bare_orange : Bare orange [] := fun rest => by simp [orange, shownFrom]
theorem bare_cyan : Bare cyan [] := fun rest => by simp [cyan, shownFrom]

/-- Lines put together. -/
def unlines (ls : List (List Char)) : List Char := ls.flatMap fun l => l ++ ['\n']

theorem unlines_append (a b : List (List Char)) : unlines (a ++ b) = unlines a ++ unlines b := List.flatMap_append ..

theorem unlines_cons (l : List Char) (ls : List (List Char)) : unlines (l :: ls) = l ++ '\n' :: unlines ls := by
  simp [unlines]

theorem unlines_flatMap {α : Type} (f : α → List (List Char)) (l : List α) :
    unlines (l.flatMap f) = l.flatMap fun x => unlines (f x) := by
  simp [unlines, List.flatMap_assoc]

theorem pointText_eq (p q : Point) : pointText p ++ " -> ".toList ++ pointText q = '{' :: ends p q := by
  simp [pointText, ends]

theorem visitEdge_eq (e : EdgeRec) : visitEdge e = '{' :: edgeTold e ++ ['\n'] := by
  rw [visitEdge, pointText_eq, edgeTold]
  have h1 : segAxisText e.axis = (segWord e.axis).toList := by cases e.axis <;> rfl
  have h2 : directionText e.direction = (directionWord e.direction).toList := by cases e.direction <;> rfl
  have h3 : normalText e.normal = (normalWord e.normal).toList := by cases e.normal <;> rfl
  rw [h1, h2, h3]
  cases e.toMesh <;> simp

theorem rangeText_eq (r : RangeRec) : rangeText r = '{' :: ends r.p0 r.p1 ++ [' '] ++ (segWord r.axis).toList := by
  rw [rangeText, pointText_eq]
  have h1 : segAxisText r.axis = (segWord r.axis).toList := by cases r.axis <;> rfl
  rw [h1]
  simp

/-- The lines of each visit. -/
def colinearLines (c : ColinearRec) : List (List Char) :=
  "Conflict ColinearEdges between:".toList :: ("\tAxis: ".toList ++ (axisWord c.axis).toList) ::
    (c.edges.map (fun e => "\tEdge: {".toList ++ edgeTold e) ++
      [match c.solution with
        | some k => "\tSolution: ".toList ++ (kindWord k).toList
        | none => []])
@[inherit_doc colinearLines] def polygonLines (p : PolygonRec) : List (List Char) :=
  ("\tPolygon: ".toList ++ (p.name ++ [' '] ++ (rotationWord p.rotation).toList ++ [' ', '{'])) ::
    (p.edges.map (fun e => "\t\t{".toList ++ edgeTold e) ++ ["\t\t}".toList])
@[inherit_doc colinearLines] def overlapLines (o : OverlapRec) : List (List Char) :=
  polygonLines o.polygon ++ (o.edge.toList.map (fun e => "\t\tby edge: {".toList ++ edgeTold e) ++
    ["\t\ton range: {".toList ++ (ends o.range.p0 o.range.p1 ++ [' '] ++ (segWord o.range.axis).toList)])
@[inherit_doc colinearLines] def inPolygonLines (c : InPolygonRec) : List (List Char) :=
  "Conflict EdgeInPolygon between:".toList :: ("\tPlane: ".toList ++ (planeWord c.plane).toList) ::
    ("\tEdge: {".toList ++ edgeTold c.edge) :: (c.overlaps.flatMap overlapLines ++
      [if c.solved then "\tSolution: ".toList ++ (if c.edge.toMesh then "to mesh".toList else "don't mesh".toList) else []])
@[inherit_doc colinearLines] def sectionLines (title : List Char) : List (List Char) :=
  [[], "CONFLICT: ".toList ++ title, []]

theorem bare_edge (e : EdgeRec) : Bare (visitEdge e) ('{' :: edgeTold e ++ ['\n']) := by
  rw [visitEdge_eq]
  refine .self fun c hc => ?_
  simp only [List.cons_append, List.mem_cons, List.mem_append, List.not_mem_nil, or_false] at hc
  rcases hc with rfl | hc | rfl
  · decide
  · exact (free_edge e c hc).1
  · decide

theorem Bare.eq {t u v : List Char} (h : Bare t u) (e : u = v) : Bare t v := e ▸ h

theorem bare_colinear (c : ColinearRec) : Bare (visitColinear c) (unlines (colinearLines c)) := by
  have hk : ∀ k : Kind, kindText k = (kindWord k).toList := fun k => by cases k <;> rfl
  have ha : axisText c.axis = (axisWord c.axis).toList := by cases c.axis <;> rfl
  have h1 : Bare (match c.solution with
      | some k => "\tSolution: ".toList ++ darkGreen ++ kindText k ++ reset
      | none => []) (match c.solution with
        | some k => "\tSolution: ".toList ++ (kindWord k).toList
        | none => []) := by
    cases c.solution with
    | none => exact .nil
    | some k =>
      simp only [hk]
      exact ((((Bare.free (by decide)).append bare_green).append (.free (free_kind k))).append bare_reset).eq (by simp)
  unfold visitColinear
  rw [ha]
  refine (((((((bare_orange.append (.self (by decide))).append bare_reset).append (.free (by decide))).append
    (.free (free_axis _))).append (.self (by decide))).append
    (.flatMap (g := fun e => "\tEdge: ".toList ++ ('{' :: edgeTold e ++ ['\n'])) fun e _ =>
      (Bare.free (by decide)).append (bare_edge e))).append h1).append (.self (by decide)) |>.eq ?_
  rw [colinearLines, unlines_cons, unlines_cons, unlines_append, List.map_eq_flatMap, unlines_flatMap]
  simp [unlines]

theorem bare_indent (n : Nat) : Bare (indent n) (indent n) := .self fun c hc => by
  rw [List.eq_of_mem_replicate hc]; decide

theorem bare_overlap (o : OverlapRec) (h : Free o.polygon.name) : Bare (visitOverlap 2 o) (unlines (overlapLines o)) := by
  have hr : rotationText o.polygon.rotation = (rotationWord o.polygon.rotation).toList := by cases o.polygon.rotation <;> rfl
  have h1 : Bare (match o.edge with
      | some e => indent 2 ++ "by edge: ".toList ++ visitEdge e
      | none => []) (o.edge.toList.flatMap fun e => indent 2 ++ "by edge: ".toList ++ ('{' :: edgeTold e ++ ['\n'])) := by
    cases o.edge with
    | none => exact .nil
    | some e => exact (((bare_indent 2).append (.free (by decide))).append (bare_edge e)).eq (by simp)
  have h2 : Bare (visitPolygon 2 o.polygon) (o.polygon.name ++ [' '] ++ (rotationWord o.polygon.rotation).toList ++ [' ', '{', '\n'] ++
      o.polygon.edges.flatMap (fun e => indent 2 ++ ('{' :: edgeTold e ++ ['\n'])) ++ indent 2 ++ ['}', '\n']) := by
    unfold visitPolygon
    rw [hr]
    exact ((((((((bare_cyan.append (.free h)).append bare_reset).append (.free (by decide))).append
      (.free (free_rotation _))).append (.self (by decide))).append (.flatMap fun e _ =>
        (bare_indent 2).append (bare_edge e))).append (bare_indent 2)).append (.self (by decide))).eq (by simp)
  have h3 : Bare (rangeText o.range) ('{' :: ends o.range.p0 o.range.p1 ++ [' '] ++ (segWord o.range.axis).toList) := by
    rw [rangeText_eq]
    exact .free (((free_cons (by decide) (free_ends _ _)).append (by decide)).append (free_seg _))
  unfold visitOverlap
  refine (((((((Bare.free (by decide)).append h2).append h1).append (bare_indent 2)).append (.free (by decide))).append
    h3).append (.self (by decide))).eq ?_
  rw [overlapLines, polygonLines, unlines_append, unlines_cons, unlines_append, unlines_append, List.map_eq_flatMap,
    List.map_eq_flatMap, unlines_flatMap, unlines_flatMap]
  simp [unlines, indent]

theorem bare_solution (solved toMesh : Bool) : Bare (if solved then "\tSolution: ".toList ++
      (if toMesh then darkGreen ++ "to mesh".toList else darkRed ++ "don't mesh".toList) ++ reset else [])
      (if solved then "\tSolution: ".toList ++ (if toMesh then "to mesh".toList else "don't mesh".toList) else []) := by
  cases solved
  · exact .nil
  · cases toMesh
    · intro rest; simp [darkRed, reset, shownFrom]
    · intro rest; simp [darkGreen, reset, shownFrom]

theorem bare_inPolygon (c : InPolygonRec) (h : ∀ o ∈ c.overlaps, Free o.polygon.name) :
    Bare (visitInPolygon c) (unlines (inPolygonLines c)) := by
  have ha : planeText c.plane = (planeWord c.plane).toList := by cases c.plane <;> rfl
  have h1 := bare_solution c.solved c.edge.toMesh
  have h2 : Bare (c.overlaps.flatMap (visitOverlap 2)) (unlines (c.overlaps.flatMap overlapLines)) := by
    rw [unlines_flatMap]
    exact .flatMap fun o ho => bare_overlap o (h o ho)
  have h3 : Bare (orange ++ "Conflict EdgeInPolygon between:\n".toList ++ reset ++ "\tPlane: ".toList)
      ("Conflict EdgeInPolygon between:\n\tPlane: ".toList) :=
    (((bare_orange.append (.self (by decide))).append bare_reset).append (.free (by decide))).eq (by simp)
  have h4 := ((((h3.append (.free (free_plane c.plane))).append (.self (w := "\n\tEdge: ".toList) (by decide))).append
    (bare_edge c.edge)).append h2).append h1 |>.append (.self (w := "\n".toList) (by decide))
  unfold visitInPolygon inPolygonLines
  rw [ha]
  refine h4.eq ?_
  rw [unlines_cons, unlines_cons, unlines_cons, unlines_append]
  generalize (if c.solved = true then _ else _ : List Char) = sol
  generalize unlines (c.overlaps.flatMap overlapLines) = ov
  simp [unlines]

theorem bare_section {title : List Char} (h : Free title) : Bare (sectionText title) (unlines (sectionLines title)) := by
  unfold sectionText
  exact (((((bare_orange.append bare_bold).append (.self (by decide))).append (.free h)).append (.self (by decide))).append
    bare_reset).eq (by simp [unlines, sectionLines])

/-- The lines of a board. -/
def boardLines (b : Board) : List (List Char) :=
  sectionLines "EDGE IN POLYGONS".toList ++
    ([Plane.yz, .zx, .xy].flatMap fun p => (b.inPolygons p).flatMap inPolygonLines) ++
  sectionLines "COLINEAR EDGES".toList ++ ([Axis.x, .y, .z].flatMap fun a => (b.colinears a).flatMap colinearLines) ++
  sectionLines "TOO CLOSE MESHLINE POLICIES".toList

theorem bare_board (S : Sorter (ℚ × Nat)) {b : Board} (h : PlainNames b) : Bare (run S b) (unlines (boardLines b)) := by
  have h1 : [Axis.x, .y, .z].flatMap (fun a =>
      (S.sort (·.1) (b.policies a)).flatMap visitPolicy ++ (b.intervals a).flatMap visitInterval) = [] := by
    simp [visitPolicy, visitInterval]
  have h2 : [Axis.x, .y, .z].flatMap (fun a => (b.tooCloses a).flatMap visitTooClose) = [] := by
    simp [visitTooClose]
  unfold run visitBoard
  rw [h1, h2]
  refine ((((((bare_section (by decide)).append (.flatMap fun p _ => .flatMap fun c hc =>
    bare_inPolygon c (h p c hc))).append .nil).append (bare_section (by decide))).append (.flatMap fun a _ => .flatMap fun c _ =>
    bare_colinear c)).append (bare_section (by decide))).append .nil |>.eq ?_
  simp only [boardLines, unlines_append, unlines_flatMap, List.append_nil]

/-! ## No end of line in a line -/

theorem noNl {w : List Char} (h : Free w) : '\n' ∉ w := fun hn => (h _ hn).2 rfl

theorem free_colinear (c : ColinearRec) : ∀ l ∈ colinearLines c, Free l := by
  intro l hl
  simp only [colinearLines, List.mem_cons, List.mem_append, List.mem_map, List.not_mem_nil, or_false] at hl
  rcases hl with rfl | rfl | ⟨e, -, rfl⟩ | rfl
  · decide
  · exact Free.append (by decide) (free_axis _)
  · exact Free.append (by decide) (free_edge _)
  · split
    · exact Free.append (by decide) (free_kind _)
    · exact free_nil

theorem free_overlap (o : OverlapRec) (h : Free o.polygon.name) : ∀ l ∈ overlapLines o, Free l := by
  intro l hl
  simp only [overlapLines, polygonLines, List.mem_cons, List.mem_append, List.mem_map, List.not_mem_nil, or_false] at hl
  rcases hl with (rfl | ⟨e, -, rfl⟩ | rfl) | ⟨e, -, rfl⟩ | rfl
  · exact Free.append (by decide) (((h.append (by decide)).append (free_rotation _)).append (by decide))
  · exact Free.append (by decide) (free_edge _)
  · decide
  · exact Free.append (by decide) (free_edge _)
  · exact Free.append (by decide) (((free_ends _ _).append (by decide)).append (free_seg _))

theorem free_inPolygon (c : InPolygonRec) (h : ∀ o ∈ c.overlaps, Free o.polygon.name) : ∀ l ∈ inPolygonLines c, Free l := by
  intro l hl
  simp only [inPolygonLines, List.mem_cons, List.mem_append, List.mem_flatMap, List.not_mem_nil, or_false] at hl
  rcases hl with rfl | rfl | rfl | ⟨o, ho, hl⟩ | rfl
  · decide
  · exact Free.append (by decide) (free_plane _)
  · exact Free.append (by decide) (free_edge _)
  · exact free_overlap o (h o ho) l hl
  · split
    · split <;> decide
    · exact free_nil

theorem free_section {title : List Char} (h : Free title) : ∀ l ∈ sectionLines title, Free l := by
  intro l hl
  simp only [sectionLines, List.mem_cons, List.not_mem_nil, or_false] at hl
  rcases hl with rfl | rfl | rfl
  · exact free_nil
  · exact Free.append (by decide) h
  · exact free_nil

theorem free_board {b : Board} (h : PlainNames b) : ∀ l ∈ boardLines b, Free l := by
  intro l hl
  simp only [boardLines, List.mem_append, List.mem_flatMap] at hl
  rcases hl with (((hl | ⟨p, -, c, hc, hl⟩) | hl) | ⟨a, -, c, hc, hl⟩) | hl
  · exact free_section (by decide) l hl
  · exact free_inPolygon c (h p c hc) l hl
  · exact free_section (by decide) l hl
  · exact free_colinear c l hl
  · exact free_section (by decide) l hl

theorem shownLines_run (S : Sorter (ℚ × Nat)) {b : Board} (h : PlainNames b) : shownLines (run S b) = boardLines b ++ [[]] := by
  have h1 := bare_board S h []
  rw [List.append_nil] at h1
  rw [shownLines, h1, shownFrom, List.append_nil]
  exact Uml.linesOf_lines fun l hl => noNl (free_board h l hl)

end Verif.Pretty
