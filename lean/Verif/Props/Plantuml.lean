import Verif.Lemmas.Plantuml
import Verif.Lemmas.ManagerMesh

/-!
# C130: the state diagram

Each object of the board is declared once under its number, with its pins, each arrow joins what the board joins, and every end of
an arrow is declared, when the names of the polygons have neither quotes nor ends of lines.
-/

namespace Verif.Uml
open Spec
open Verif.Csx (decimal toString6 Signed digitChar sixDigits roundEven)
open Verif.Mesh (Kind Facing Sorter)
open Verif.Geom (Plane Axis Normal Rotation)

/-! ## The texts of the fields -/

/-- A text that a field may have. -/
def Plain (w : List Char) : Prop := (∀ c ∈ w, c ≠ '\n' ∧ c ≠ '{') ∧ w ≠ []

instance (w : List Char) : Decidable (Plain w) := inferInstanceAs (Decidable (_ ∧ _))

theorem plain_normal (n : Normal) : Plain (normalText n) := by cases n <;> decide
theorem plain_facing (n : Facing) : Plain (facingText n) := by cases n <;> decide
theorem plain_kind (n : Kind) : Plain (kindText n) := by cases n <;> decide
theorem plain_rotation (n : Rotation) : Plain (rotationText n) := by cases n <;> decide
theorem plain_yesNo (b : Bool) : Plain (yesNo b) := by cases b <;> decide

theorem plain_decimal (n : Nat) : Plain (decimal n) :=
  ⟨fun c hc => let h := digit_ne (Dialog.decimal_isDigit n c hc); ⟨h.2.2.1, h.2.2.2.2.2.2.1⟩, (Csx.decimal_digits n).1⟩

theorem plain_double (x : ℚ) : Plain (double x) := by
  refine ⟨fun c hc => ?_, Csx.toString6_ne_nil _⟩
  unfold double toString6 at hc
  simp only [List.mem_append, List.mem_singleton] at hc
  rcases hc with ((hc | hc) | rfl) | hc
  · split at hc
    · simp only [List.mem_singleton] at hc; subst hc; decide
    · cases hc
  · exact (plain_decimal _).1 c hc
  · decide
  · simp only [sixDigits, List.mem_map] at hc
    obtain ⟨m, hm, rfl⟩ := hc
    have hlt : m < 10 := by
      set n := roundEven (|x| * 1000000) % 1000000 with hn
      have : n < 1000000 := Nat.mod_lt _ (by omega)
      simp only [List.mem_cons, List.not_mem_nil, or_false] at hm
      omega
    have := digit_ne (Csx.digitChar_isDigit hlt)
    exact ⟨this.2.2.1, this.2.2.2.2.2.2.1⟩

theorem plain_append {a b : List Char} (ha : Plain a) (hb : Plain b) : Plain (a ++ b) := by
  refine ⟨fun c hc => ?_, by simp [ha.2]⟩
  rcases List.mem_append.mp hc with hc | hc
  · exact ha.1 c hc
  · exact hb.1 c hc

/-! ## What is read of each object -/

theorem no_brace (n : Nat) : ∀ c ∈ decimal n, c ≠ '{' := fun c hc => ((plain_decimal n).1 c hc).2

theorem no_brace_append {a b : List Char} (ha : ∀ c ∈ a, c ≠ '{') (hb : ∀ c ∈ b, c ≠ '{') : ∀ c ∈ a ++ b, c ≠ '{' := by
  intro c hc
  rcases List.mem_append.mp hc with hc | hc
  · exact ha c hc
  · exact hb c hc

theorem no_brace_in (n : Nat) : ∀ c ∈ inPin n, c ≠ '{' := no_brace_append (no_brace n) (by decide)

theorem block_arrow {a b s t : List Char} (ha : Word a) (hb : Word b) (hb' : ∀ c ∈ b, c ≠ '{')
    (hs : ∀ c ∈ s, c ≠ ' ' ∧ c ≠ '\n') (ht : t = [] ∨ t = [' ']) : Block [arrow a s b t] [] [(a, b)] :=
  block_line (reads_arrow ha hb hb' hs ht)

theorem block_field {n l v : List Char} (hn : Word n) (hl : '\n' ∉ l) (hv : Plain v) : Block [field n l v] [] [] :=
  block_line (reads_field hn hl hv.1 hv.2)

theorem block_pin {n k : List Char} (hn : Word n) (hk : '\n' ∉ k) : Block [pin n k] [n] [] := block_line (reads_pin hn.2 hk)

theorem block_edge (e : EdgeRec) : Block (visitEdge e) [decimal e.id] [] := by
  refine block_state (reads_opening (by decide) (word_decimal _).2 ?_)
    (block_append (block_field (word_decimal _) (by decide) (plain_normal _))
      (block_field (word_decimal _) (by decide) (plain_yesNo _)))
  split
  · split
    · exact .inr (.inl rfl)
    · exact .inr (.inr (.inr rfl))
  · exact .inr (.inr (.inl rfl))

theorem block_polygon {p : PolygonRec} (h : ∀ c ∈ p.name, c ≠ '"' ∧ c ≠ '\n') :
    Block (visitPolygon p) (decimal p.id :: outPin p.id :: p.edges.map fun e => decimal e.id) [] := by
  have h1 : ∀ c ∈ "Polygon ".toList ++ p.name, c ≠ '"' ∧ c ≠ '\n' := by
    intro c hc
    rcases List.mem_append.mp hc with hc | hc
    · exact (by decide : ∀ c ∈ "Polygon ".toList, c ≠ '"' ∧ c ≠ '\n') c hc
    · exact h c hc
  have h2 := block_state (reads_opening h1 (word_decimal p.id).2 (.inl rfl))
    (block_append (block_append (block_pin (k := "outputPin".toList) (word_out p.id) (by decide))
      (block_field (l := "rotation".toList) (word_decimal p.id) (by decide) (plain_rotation p.rotation)))
      (block_flatMap (l := p.edges) fun e _ => block_edge e))
  have e1 : p.edges.flatMap (fun e => [decimal e.id]) = p.edges.map fun e => decimal e.id := (List.map_eq_flatMap ..).symm
  have e2 : p.edges.flatMap (fun _ => ([] : List (List Char × List Char))) = [] := by simp
  rw [e1, e2] at h2
  exact h2

/-- The arrows of a conflict of colinear edges. -/
def colinearArrows (c : ColinearRec) : List (List Char × List Char) :=
  c.edges.map (fun e => (decimal e.id, inPin c.id)) ++
    match c.solution with
    | some p => [(outPin c.id, inPin p.id)]
    | none => []

theorem block_colinear (c : ColinearRec) :
    Block (visitColinear c) [decimal c.id, inPin c.id, outPin c.id] (colinearArrows c) := by
  have h1 : Block (c.edges.flatMap (fun e => [field (decimal c.id) "Normal".toList
      (normalText e.normal ++ if e.toMesh then " enabled".toList else " disabled".toList),
      arrow (decimal e.id) [] (inPin c.id) " ".toList])) (c.edges.flatMap fun _ => [])
      (c.edges.flatMap fun e => [(decimal e.id, inPin c.id)]) := by
    refine block_flatMap fun e _ => block_append (block_field (word_decimal _) (by decide) (plain_append (plain_normal _) ?_))
      (block_arrow (word_decimal _) (word_in _) (no_brace_in _) (by simp) (.inr rfl))
    split <;> decide
  have h2 : Block (match c.solution with
      | some p => [field (decimal c.id) "Solution.policy".toList (kindText p.kind),
        field (decimal c.id) "Solution.normal".toList (facingText p.normal), arrow (outPin c.id) [] (inPin p.id)]
      | none => []) [] (match c.solution with
      | some p => [(outPin c.id, inPin p.id)]
      | none => []) := by
    split
    · exact block_append (block_field (word_decimal _) (by decide) (plain_kind _))
        (block_append (block_field (word_decimal _) (by decide) (plain_facing _))
          (block_arrow (word_out _) (word_in _) (no_brace_in _) (by simp) (.inl rfl)))
    · exact block_nil
  have h3 := block_state (reads_opening (title := "Conflict ColinearEdges".toList) (colour := []) (by decide)
    (word_decimal c.id).2 (.inl rfl)) (block_append (block_append (block_append
      (block_pin (k := "inputPin".toList) (word_in c.id) (by decide))
      (block_pin (k := "outputPin".toList) (word_out c.id) (by decide))) h1) h2)
  have e1 : c.edges.flatMap (fun e => [(decimal e.id, inPin c.id)]) = c.edges.map fun e => (decimal e.id, inPin c.id) :=
    (List.map_eq_flatMap ..).symm
  have e2 : c.edges.flatMap (fun _ => ([] : List (List Char))) = [] := by simp
  rw [e1, e2] at h3
  exact h3

/-- The arrows of the overlaps, from the one of rank `i` on. -/
def overlapArrows (id : Nat) : Nat → List (Nat × Option Nat) → List (List Char × List Char)
  | _, [] => []
  | i, (p, e) :: rest => [(outPin p, inPin id ++ decimal i)] ++
    (match e with
      | some e => [(decimal e, inPin id ++ decimal i)]
      | none => []) ++ overlapArrows id (i + 1) rest

theorem block_overlaps (id : Nat) : ∀ i l, Block (visitOverlaps id i l)
    ((List.range' i l.length).map fun k => inPin id ++ decimal k) (overlapArrows id i l)
  | _, [] => block_nil
  | i, (p, e) :: rest => by
    have h2 : Block (match e with
        | some e => [arrow (decimal e) [] (inPin id ++ decimal i)]
        | none => []) [] (match e with
        | some e => [(decimal e, inPin id ++ decimal i)]
        | none => []) := by
      split
      · exact block_arrow (word_decimal _) (word_ink _ _) (no_brace_append (no_brace_in _) (no_brace _)) (by simp) (.inl rfl)
      · exact block_nil
    exact block_append (block_append (block_append (block_pin (k := "inputPin".toList) (word_ink id i) (by decide))
      (block_arrow (word_out p) (word_ink id i) (no_brace_append (no_brace_in _) (no_brace _)) (by simp) (.inl rfl))) h2)
      (block_overlaps id (i + 1) rest)

/-- The arrows of a conflict of an edge in polygons. -/
def inPolygonArrows (c : InPolygonRec) : List (List Char × List Char) :=
  [(decimal c.edge.id, decimal c.id), (outPin c.id, decimal c.edge.id)] ++ overlapArrows c.id 0 c.overlaps

theorem block_inPolygon (c : InPolygonRec) : Block (visitInPolygon c)
    (decimal c.id :: outPin c.id :: (List.range' 0 c.overlaps.length).map fun k => inPin c.id ++ decimal k)
    (inPolygonArrows c) := by
  have h3 := block_state (reads_opening (title := "Conflict EdgeInPolygon".toList)
    (colour := if c.edge.toMesh then " #green".toList else " #red".toList) (by decide) (word_decimal c.id).2 (by
      split
      · exact .inr (.inl rfl)
      · exact .inr (.inr (.inl rfl)))) (block_append (block_append (block_append
      (block_pin (k := "outputPin".toList) (word_out c.id) (by decide))
      (block_arrow (word_decimal c.edge.id) (word_decimal c.id) (no_brace _) (s := []) (t := []) (by simp) (.inl rfl)))
      (block_arrow (word_out c.id) (word_decimal c.edge.id) (no_brace _)
        (s := "[bold,".toList ++ (if c.edge.toMesh then "#green".toList else "#red".toList) ++ "]".toList) (t := [])
        (by split <;> decide) (.inl rfl))) (block_overlaps c.id 0 c.overlaps))
  exact h3

/-- The arrows of a conflict of too close policies. -/
def tooCloseArrows (c : TooCloseRec) : List (List Char × List Char) :=
  [(outPin c.policies.1, inPin c.id), (outPin c.policies.2, inPin c.id)] ++
    match c.solution with
    | some p => [(outPin c.id, inPin p)]
    | none => []

theorem block_tooClose (c : TooCloseRec) :
    Block (visitTooClose c) [decimal c.id, inPin c.id, outPin c.id] (tooCloseArrows c) := by
  have h2 : Block (match c.solution with
      | some p => [arrow (outPin c.id) "[#green]".toList (inPin p)]
      | none => []) [] (match c.solution with
      | some p => [(outPin c.id, inPin p)]
      | none => []) := by
    split
    · exact block_arrow (word_out _) (word_in _) (no_brace_in _) (by decide) (.inl rfl)
    · exact block_nil
  exact block_state (reads_opening (title := "Conflict TooCloseMeshlinePolicies".toList) (colour := []) (by decide)
    (word_decimal c.id).2 (.inl rfl)) (block_append (block_append (block_append (block_append
      (block_pin (k := "inputPin".toList) (word_in c.id) (by decide))
      (block_pin (k := "outputPin".toList) (word_out c.id) (by decide)))
      (block_arrow (word_out c.policies.1) (word_in c.id) (no_brace_in _) (s := "[#red]".toList) (t := " ".toList)
        (by decide) (.inr rfl)))
      (block_arrow (word_out c.policies.2) (word_in c.id) (no_brace_in _) (s := "[#red]".toList) (t := " ".toList)
        (by decide) (.inr rfl))) h2)

/-- The arrow to a policy. -/
def policyArrows (p : PolicyRec) : List (List Char × List Char) :=
  match p.origins with
  | [some e] => [(decimal e, inPin p.id)]
  | _ => []

theorem block_policy (p : PolicyRec) :
    Block (visitPolicy p) [decimal p.id, inPin p.id, outPin p.id] (policyArrows p) := by
  have h2 : Block (match (match p.origins with
        | [e] => e
        | _ => none) with
      | some e => [arrow (decimal e) "[#chartreuse]".toList (inPin p.id)]
      | none => []) [] (policyArrows p) := by
    unfold policyArrows
    match p.origins with
    | [some e] => exact block_arrow (word_decimal _) (word_in _) (no_brace_in _) (by decide) (.inl rfl)
    | [none] => exact block_nil
    | [] => exact block_nil
    | none :: _ :: _ => exact block_nil
    | some _ :: _ :: _ => exact block_nil
  exact block_state (reads_opening (title := "MeshlinePolicy".toList)
    (colour := if p.enabled then " #green".toList else " #red".toList) (by decide) (word_decimal p.id).2 (by
      split
      · exact .inr (.inl rfl)
      · exact .inr (.inr (.inl rfl)))) (block_append (block_append (block_append (block_append (block_append (block_append
      (block_pin (k := "inputPin".toList) (word_in p.id) (by decide))
      (block_pin (k := "outputPin".toList) (word_out p.id) (by decide)))
      (block_field (l := "Normal".toList) (word_decimal p.id) (by decide) (plain_facing p.normal)))
      (block_field (l := "Is enabled".toList) (word_decimal p.id) (by decide) (plain_yesNo p.enabled)))
      (block_field (l := "Policy".toList) (word_decimal p.id) (by decide) (plain_kind p.kind)))
      (block_field (l := "d".toList) (word_decimal p.id) (by decide) (plain_double p.d))) h2)

theorem block_interval (i : IntervalRec) :
    Block (visitInterval i) [decimal i.id, inPin i.id ++ "1".toList, inPin i.id ++ "2".toList, outPin i.id]
      [(outPin i.before, inPin i.id ++ "1".toList), (outPin i.after, inPin i.id ++ "2".toList)] :=
  block_state (reads_opening (title := "Interval".toList) (colour := []) (by decide) (word_decimal i.id).2 (.inl rfl))
    (block_append (block_pin (word_in1 i.id) (by decide)) (block_append (block_pin (word_in2 i.id) (by decide))
    (block_append (block_pin (word_out i.id) (by decide))
    (block_append (block_field (word_decimal i.id) (by decide) (plain_double i.dmax))
    (block_append (block_field (word_decimal i.id) (by decide) (plain_decimal i.lminBefore))
    (block_append (block_field (word_decimal i.id) (by decide) (plain_double i.smoothnessBefore))
    (block_append (block_field (word_decimal i.id) (by decide) (plain_decimal i.lminAfter))
    (block_append (block_field (word_decimal i.id) (by decide) (plain_double i.smoothnessAfter))
    (block_append (block_arrow (word_out i.before) (word_in1 i.id) (no_brace_append (no_brace_in _) (by decide)) (by simp)
      (.inr rfl)) (block_arrow (word_out i.after) (word_in2 i.id) (no_brace_append (no_brace_in _) (by decide)) (by simp)
      (.inr rfl)))))))))))

/-- The arrows to a meshline. -/
def meshlineArrows (l : MeshlineRec) : List (List Char × List Char) :=
  (match l.interval with
    | some i => [(outPin i, decimal l.id)]
    | none => []) ++
  match l.policy with
    | some p => [(outPin p, decimal l.id)]
    | none => []

theorem block_meshline (l : MeshlineRec) : Block (visitMeshline l) [decimal l.id] (meshlineArrows l) := by
  have h1 : Block (match l.interval with
      | some i => [arrow (outPin i) [] (decimal l.id)]
      | none => []) [] (match l.interval with
      | some i => [(outPin i, decimal l.id)]
      | none => []) := by
    split
    · exact block_arrow (word_out _) (word_decimal _) (no_brace _) (by simp) (.inl rfl)
    · exact block_nil
  have h2 : Block (match l.policy with
      | some p => [arrow (outPin p) [] (decimal l.id)]
      | none => []) [] (match l.policy with
      | some p => [(outPin p, decimal l.id)]
      | none => []) := by
    split
    · exact block_arrow (word_out _) (word_decimal _) (no_brace _) (by simp) (.inl rfl)
    · exact block_nil
  have h3 := block_state (reads_opening (title := "Meshline".toList) (colour := []) (by decide) (word_decimal l.id).2 (.inl rfl))
    (block_append (block_append (block_field (l := "Coord".toList) (word_decimal l.id) (by decide) (plain_double l.coord)) h1) h2)
  exact h3

/-! ## Objects and their names -/

/-- An object: the text of its number, and the names it declares. -/
abbrev Obj := List Char × List (List Char)

/-- The object of each part of a board. -/
def oEdge (e : EdgeRec) : Obj := (decimal e.id, [decimal e.id])
@[inherit_doc oEdge] def oPolygon (p : PolygonRec) : Obj := (decimal p.id, [decimal p.id, outPin p.id])
@[inherit_doc oEdge] def oInPolygon (c : InPolygonRec) : Obj := (decimal c.id,
  decimal c.id :: outPin c.id :: (List.range' 0 c.overlaps.length).map fun k => inPin c.id ++ decimal k)
@[inherit_doc oEdge] def oPolicy (p : PolicyRec) : Obj := (decimal p.id, [decimal p.id, inPin p.id, outPin p.id])
@[inherit_doc oEdge] def oInterval (i : IntervalRec) : Obj :=
  (decimal i.id, [decimal i.id, inPin i.id ++ "1".toList, inPin i.id ++ "2".toList, outPin i.id])
@[inherit_doc oEdge] def oMeshline (l : MeshlineRec) : Obj := (decimal l.id, [decimal l.id])
@[inherit_doc oEdge] def oColinear (c : ColinearRec) : Obj := (decimal c.id, [decimal c.id, inPin c.id, outPin c.id])
@[inherit_doc oEdge] def oTooClose (c : TooCloseRec) : Obj := (decimal c.id, [decimal c.id, inPin c.id, outPin c.id])

/-- The objects of a plane. -/
def oPlane (b : Board) (p : Plane) : List Obj :=
  (planeText p, [planeText p]) :: ((b.polygons p).flatMap (fun q => oPolygon q :: q.edges.map oEdge) ++
    (b.inPolygons p).map oInPolygon)

/-- The objects of an axis. -/
def oAxis (S : Sorter PolicyRec) (b : Board) (a : Axis) : List Obj :=
  (axisText a, [axisText a]) :: ((S.sort (·.coord) (b.policies a)).map oPolicy ++ (b.intervals a).map oInterval ++
    (b.meshlines a).map oMeshline ++ (b.colinears a).map oColinear ++ (b.tooCloses a).map oTooClose)

/-- The objects of a board. -/
def oBoard (S : Sorter PolicyRec) (b : Board) : List Obj :=
  [Plane.yz, .zx, .xy].flatMap (oPlane b) ++ [Axis.x, .y, .z].flatMap (oAxis S b)

/-- The arrows of a plane, an axis, and a board. -/
def planeArrows (b : Board) (p : Plane) : List (List Char × List Char) := (b.inPolygons p).flatMap inPolygonArrows
@[inherit_doc planeArrows] def axisArrows (S : Sorter PolicyRec) (b : Board) (a : Axis) : List (List Char × List Char) :=
  (S.sort (·.coord) (b.policies a)).flatMap policyArrows ++ (b.intervals a).flatMap (fun i =>
    [(outPin i.before, inPin i.id ++ "1".toList), (outPin i.after, inPin i.id ++ "2".toList)]) ++
    (b.meshlines a).flatMap meshlineArrows ++ (b.colinears a).flatMap colinearArrows ++ (b.tooCloses a).flatMap tooCloseArrows
@[inherit_doc planeArrows] def boardArrows (S : Sorter PolicyRec) (b : Board) : List (List Char × List Char) :=
  [Plane.yz, .zx, .xy].flatMap (planeArrows b) ++ [Axis.x, .y, .z].flatMap (axisArrows S b)

theorem block_eq {ls d d' a a'} (h : Block ls d a) (hd : d = d') (ha : a = a') : Block ls d' a' := hd ▸ ha ▸ h

theorem block_plane {b : Board} (h : PlainNames b) (p : Plane) :
    Block (visitPlane b p) ((oPlane b p).flatMap (·.2)) (planeArrows b p) := by
  have h1 := block_state (reads_opening (title := "Plane ".toList ++ planeText p) (name := planeText p) (colour := [])
    (by cases p <;> decide) (by cases p <;> decide) (.inl rfl)) (block_append
      (block_flatMap (l := b.polygons p) fun q hq => block_polygon (h p q hq))
      (block_flatMap (l := b.inPolygons p) fun c _ => block_inPolygon c))
  have h2 : visitPlane b p = [opening ("Plane ".toList ++ planeText p) (planeText p) []] ++
      ((b.polygons p).flatMap visitPolygon ++ (b.inPolygons p).flatMap visitInPolygon) ++ [closing] := by
    rw [visitPlane, List.append_assoc [_]]
  rw [h2]
  refine block_eq h1 ?_ ?_
  · simp [oPlane, oPolygon, oEdge, oInPolygon, List.flatMap_append, List.flatMap_assoc,
      List.map_eq_flatMap]
  · simp [planeArrows]

theorem block_axis (S : Sorter PolicyRec) (b : Board) (a : Axis) :
    Block (visitAxis S b a) ((oAxis S b a).flatMap (·.2)) (axisArrows S b a) := by
  have h1 := block_state (reads_opening (title := "Axis ".toList ++ axisText a) (name := axisText a) (colour := [])
    (by cases a <;> decide) (by cases a <;> decide) (.inl rfl)) (block_append (block_append (block_append (block_append
      (block_flatMap (l := S.sort (·.coord) (b.policies a)) fun q _ => block_policy q)
      (block_flatMap (l := b.intervals a) fun c _ => block_interval c))
      (block_flatMap (l := b.meshlines a) fun c _ => block_meshline c))
      (block_flatMap (l := b.colinears a) fun c _ => block_colinear c))
      (block_flatMap (l := b.tooCloses a) fun c _ => block_tooClose c))
  have h2 : visitAxis S b a = [opening ("Axis ".toList ++ axisText a) (axisText a) []] ++
      ((S.sort (·.coord) (b.policies a)).flatMap visitPolicy ++ (b.intervals a).flatMap visitInterval ++
        (b.meshlines a).flatMap visitMeshline ++ (b.colinears a).flatMap visitColinear ++
        (b.tooCloses a).flatMap visitTooClose) ++ [closing] := by
    unfold visitAxis
    generalize [opening ("Axis ".toList ++ axisText a) (axisText a) []] = o
    simp only [List.append_assoc]
  rw [h2]
  refine block_eq h1 ?_ rfl
  simp [oAxis, oPolicy, oInterval, oMeshline, oColinear, oTooClose, List.flatMap_append, List.flatMap_map]

theorem block_board (S : Sorter PolicyRec) {b : Board} (h : PlainNames b) :
    Block (visitBoard S b) ((oBoard S b).flatMap (·.2)) (boardArrows S b) := by
  have h1 := block_append (block_append (block_append (block_line reads_start)
    (block_flatMap (l := [Plane.yz, .zx, .xy]) fun p _ => block_plane h p))
    (block_flatMap (l := [Axis.x, .y, .z]) fun a _ => block_axis S b a)) (block_line reads_end)
  refine block_eq h1 ?_ ?_
  · simp [oBoard, List.flatMap_append]
  · simp [boardArrows]

theorem lines_run (S : Sorter PolicyRec) {b : Board} (h : PlainNames b) : linesOf (run S b) = visitBoard S b ++ [[]] :=
  linesOf_lines (block_board S h).line

theorem declared_run (S : Sorter PolicyRec) {b : Board} (h : PlainNames b) :
    declared (run S b) = (oBoard S b).flatMap (·.2) := by
  rw [declared, lines_run S h, List.filterMap_append, (block_board S h).declares]
  exact List.append_nil _

theorem drawn_run (S : Sorter PolicyRec) {b : Board} (h : PlainNames b) : drawn (run S b) = boardArrows S b := by
  rw [drawn, lines_run S h, List.filterMap_append, (block_board S h).draws]
  exact List.append_nil _

theorem matched_run (S : Sorter PolicyRec) {b : Board} (h : PlainNames b) : Matched 0 (linesOf (run S b)) := by
  rw [lines_run S h, (block_board S h).matched]
  rfl

/-! ## No name twice -/

theorem decimal_injective : Function.Injective decimal := fun n m h => by
  rw [← Csx.decimal_value n 0, ← Csx.decimal_value m 0, h]

/-- The text of the number a name begins with, or else the name. -/
def key (w : List Char) : List Char := if (w.head?.any Char.isDigit) then w.takeWhile Char.isDigit else w

theorem takeWhile_digits {d s : List Char} (hd : ∀ c ∈ d, c.isDigit = true) (hs : s.head?.any Char.isDigit = false) :
    (d ++ s).takeWhile Char.isDigit = d := by
  induction d with
  | nil =>
    cases s with
    | nil => rfl
    | cons c s => simp only [List.head?_cons, Option.any_some] at hs; simp [hs]
  | cons c d ih =>
    rw [List.cons_append, List.takeWhile_cons_of_pos (hd c (by simp)), ih fun x hx => hd x (by simp [hx])]

theorem key_decimal (n : Nat) {s : List Char} (hs : s.head?.any Char.isDigit = false) : key (decimal n ++ s) = decimal n := by
  have : ((decimal n ++ s).head?.any Char.isDigit) = true := by
    obtain ⟨⟨c, r, h, hc⟩, -⟩ := word_decimal n
    rw [h]; simpa using hc
  rw [key, if_pos this, takeWhile_digits (Dialog.decimal_isDigit n) hs]

theorem key_self (n : Nat) : key (decimal n) = decimal n := by simpa using key_decimal n (s := []) rfl
theorem key_in (n : Nat) : key (inPin n) = decimal n := key_decimal n (by decide)
theorem key_out (n : Nat) : key (outPin n) = decimal n := key_decimal n (by decide)
theorem key_ink (n : Nat) (s : List Char) : key (inPin n ++ s) = decimal n := by
  rw [inPin, List.append_assoc]; exact key_decimal n rfl

/-- An object with names of its own. -/
structure Own (o : Obj) : Prop where
  nodup : o.2.Nodup
  key : ∀ w ∈ o.2, key w = o.1

theorem decimal_ne_append (n : Nat) {s : List Char} (h : s ≠ []) : decimal n ≠ decimal n ++ s := by
  intro e
  have := congrArg List.length e
  rw [List.length_append] at this
  have : s.length = 0 := by omega
  exact h (List.length_eq_zero_iff.mp this)

theorem pins_nodup (n : Nat) : [decimal n, inPin n, outPin n].Nodup := by
  have h1 : decimal n ≠ inPin n := decimal_ne_append n (by decide)
  have h2 : decimal n ≠ outPin n := decimal_ne_append n (by decide)
  have h3 : inPin n ≠ outPin n := fun e => absurd (List.append_cancel_left e) (by decide)
  simp [h1, h2, h3]

theorem own_pins (n : Nat) : Own (decimal n, [decimal n, inPin n, outPin n]) := by
  refine ⟨pins_nodup n, fun w hw => ?_⟩
  simp only [List.mem_cons, List.not_mem_nil, or_false] at hw
  rcases hw with rfl | rfl | rfl
  · exact key_self n
  · exact key_in n
  · exact key_out n

theorem own_single (n : Nat) : Own (decimal n, [decimal n]) :=
  ⟨by simp, fun w hw => by rw [List.mem_singleton.mp hw]; exact key_self n⟩

theorem own_polygon (p : PolygonRec) : Own (oPolygon p) := by
  refine ⟨?_, fun w hw => ?_⟩
  · have := pins_nodup p.id
    simp only [oPolygon, List.nodup_cons, List.mem_cons, List.not_mem_nil, or_false, not_or] at this ⊢
    exact ⟨this.1.2, this.2.2⟩
  · simp only [oPolygon, List.mem_cons, List.not_mem_nil, or_false] at hw
    rcases hw with rfl | rfl
    · exact key_self _
    · exact key_out _

theorem own_interval (i : IntervalRec) : Own (oInterval i) := by
  refine ⟨?_, fun w hw => ?_⟩
  · have h1 : decimal i.id ≠ inPin i.id ++ "1".toList := by rw [inPin, List.append_assoc]; exact decimal_ne_append _ (by decide)
    have h2 : decimal i.id ≠ inPin i.id ++ "2".toList := by rw [inPin, List.append_assoc]; exact decimal_ne_append _ (by decide)
    have h3 : decimal i.id ≠ outPin i.id := decimal_ne_append _ (by decide)
    have h4 : inPin i.id ++ "1".toList ≠ inPin i.id ++ "2".toList := fun e => absurd (List.append_cancel_left e) (by decide)
    have h5 : inPin i.id ++ "1".toList ≠ outPin i.id := by
      rw [inPin, List.append_assoc]; exact fun e => absurd (List.append_cancel_left e) (by decide)
    have h6 : inPin i.id ++ "2".toList ≠ outPin i.id := by
      rw [inPin, List.append_assoc]; exact fun e => absurd (List.append_cancel_left e) (by decide)
    simp only [oInterval, List.nodup_cons, List.mem_cons, List.not_mem_nil, or_false, not_or, not_false_iff, List.nodup_nil,
      and_true]
    exact ⟨⟨h1, h2, h3⟩, ⟨h4, h5⟩, h6⟩
  · simp only [oInterval, List.mem_cons, List.not_mem_nil, or_false] at hw
    rcases hw with rfl | rfl | rfl | rfl
    · exact key_self _
    · exact key_ink _ _
    · exact key_ink _ _
    · exact key_out _

theorem own_inPolygon (c : InPolygonRec) : Own (oInPolygon c) := by
  refine ⟨?_, fun w hw => ?_⟩
  · simp only [oInPolygon, List.nodup_cons, List.mem_cons, List.mem_map, not_or, not_exists, not_and]
    refine ⟨⟨decimal_ne_append _ (by decide), fun k _ e => ?_⟩, fun k _ e => ?_, ?_⟩
    · rw [inPin, List.append_assoc] at e; exact decimal_ne_append _ (by simp) e.symm
    · rw [inPin, List.append_assoc] at e
      have := List.append_cancel_left e
      simp at this
    · exact List.Nodup.map (fun k k' e => decimal_injective (List.append_cancel_left e)) List.nodup_range'
  · simp only [oInPolygon, List.mem_cons, List.mem_map] at hw
    rcases hw with rfl | rfl | ⟨k, -, rfl⟩
    · exact key_self _
    · exact key_out _
    · exact key_ink _ _

theorem own_board (S : Sorter PolicyRec) (b : Board) : ∀ o ∈ oBoard S b, Own o := by
  intro o ho
  have hp : ∀ p : Plane, Own (planeText p, [planeText p]) := fun p =>
    ⟨by simp, fun w hw => by rw [List.mem_singleton.mp hw]; cases p <;> decide⟩
  have ha : ∀ a : Axis, Own (axisText a, [axisText a]) := fun a =>
    ⟨by simp, fun w hw => by rw [List.mem_singleton.mp hw]; cases a <;> decide⟩
  simp only [oBoard, List.mem_append, List.mem_flatMap, oPlane, oAxis, List.mem_cons, List.mem_map] at ho
  rcases ho with ⟨p, -, rfl | ⟨q, -, rfl | ⟨e, -, rfl⟩⟩ | ⟨c, -, rfl⟩⟩ |
    ⟨a, -, rfl | ((((⟨c, -, rfl⟩ | ⟨c, -, rfl⟩) | ⟨c, -, rfl⟩) | ⟨c, -, rfl⟩) | ⟨c, -, rfl⟩)⟩
  · exact hp p
  · exact own_polygon q
  · exact own_single _
  · exact own_inPolygon c
  · exact ha a
  · exact own_pins _
  · exact own_interval c
  · exact own_single _
  · exact own_pins _
  · exact own_pins _

theorem count_flatMap_cons {α β : Type} [BEq β] (w : β) (l : List α) (f : α → β) (g : α → List β) :
    (l.flatMap fun q => f q :: g q).count w = (l.map f).count w + (l.flatMap g).count w := by
  induction l with
  | nil => rfl
  | cons x l ih => simp only [List.flatMap_cons, List.count_append, List.count_cons, List.map_cons, ih]; omega

/-- The texts that are not numbers. -/
def fixedTexts : List (List Char) := ["YZ", "ZX", "XY", "X", "Y", "Z"].map (·.toList)

theorem keys_perm (S : Sorter PolicyRec) (b : Board) :
    ((oBoard S b).map (·.1)).Perm (fixedTexts ++ (ids b).map decimal) := by
  rw [List.perm_iff_count]
  intro w
  have hs : ∀ a, ((S.sort (·.coord) (b.policies a)).map fun p => decimal p.id).count w =
      ((b.policies a).map fun p => decimal p.id).count w := fun a => ((S.perm _ _).map _).count_eq w
  simp only [oBoard, oPlane, oAxis, List.map_append, List.flatMap_cons, List.flatMap_nil, List.append_nil, List.map_cons,
    List.map_flatMap, List.map_map, Function.comp_def, oPolygon, oEdge, oInPolygon, oPolicy, oInterval, oMeshline, oColinear,
    oTooClose, List.count_append, List.count_cons, count_flatMap_cons, hs, fixedTexts, List.map_nil, List.count_nil, ids, edgeIds,
    polygonIds, inPolygonIds, policyIds, intervalIds, meshlineIds, colinearIds, tooCloseIds, planeText, axisText]
  omega

theorem keys_nodup (S : Sorter PolicyRec) {b : Board} (h : (ids b).Nodup) : ((oBoard S b).map (·.1)).Nodup := by
  rw [(keys_perm S b).nodup_iff]
  refine List.nodup_append'.mpr ⟨by decide, h.map decimal_injective, ?_⟩
  intro w hw hw'
  obtain ⟨n, -, rfl⟩ := List.mem_map.mp hw'
  obtain ⟨⟨c, r, hc, hd⟩, -⟩ := word_decimal n
  rw [hc] at hw
  have : ∀ w ∈ fixedTexts, w.head?.any Char.isDigit = false := by decide
  have := this _ hw
  simp [hd] at this

theorem names_nodup {l : List Obj} (h : ∀ o ∈ l, Own o) (hk : (l.map (·.1)).Nodup) : (l.flatMap (·.2)).Nodup := by
  rw [List.nodup_flatMap]
  refine ⟨fun o ho => (h o ho).nodup, ?_⟩
  have := List.pairwise_map.mp hk
  refine List.Pairwise.imp_of_mem (fun {x y} hx hy hne => ?_) this
  intro w hw hw'
  exact hne (((h x hx).key w hw).symm.trans ((h y hy).key w hw'))

/-! ## What is declared -/

theorem all_planes (p : Plane) : p ∈ [Plane.yz, .zx, .xy] := by cases p <;> decide
theorem all_axes (a : Axis) : a ∈ [Axis.x, .y, .z] := by cases a <;> decide

theorem mem_edgeIds {b : Board} {i : Nat} : i ∈ edgeIds b ↔ ∃ p, ∃ q ∈ b.polygons p, ∃ e ∈ q.edges, e.id = i := by
  simp only [edgeIds, List.mem_flatMap, List.mem_map]
  exact ⟨fun ⟨p, _, q, hq, e⟩ => ⟨p, q, hq, e⟩, fun ⟨p, q, hq, e⟩ => ⟨p, all_planes p, q, hq, e⟩⟩

theorem mem_planeIds {α : Type} {l : Plane → List α} {f : α → Nat} {i : Nat} :
    i ∈ ([Plane.yz, .zx, .xy].flatMap fun p => (l p).map f) ↔ ∃ p, ∃ q ∈ l p, f q = i := by
  simp only [List.mem_flatMap, List.mem_map]
  exact ⟨fun ⟨p, _, e⟩ => ⟨p, e⟩, fun ⟨p, e⟩ => ⟨p, all_planes p, e⟩⟩

theorem mem_axisIds {α : Type} {l : Axis → List α} {f : α → Nat} {i : Nat} :
    i ∈ ([Axis.x, .y, .z].flatMap fun p => (l p).map f) ↔ ∃ p, ∃ q ∈ l p, f q = i := by
  simp only [List.mem_flatMap, List.mem_map]
  exact ⟨fun ⟨p, _, e⟩ => ⟨p, e⟩, fun ⟨p, e⟩ => ⟨p, all_axes p, e⟩⟩

/-- The objects of a board, one by one. -/
theorem mem_oBoard {S : Sorter PolicyRec} {b : Board} {o : Obj} : o ∈ oBoard S b ↔
    (∃ p, o = (planeText p, [planeText p])) ∨ (∃ p, ∃ q ∈ b.polygons p, o = oPolygon q) ∨
    (∃ p, ∃ q ∈ b.polygons p, ∃ e ∈ q.edges, o = oEdge e) ∨ (∃ p, ∃ c ∈ b.inPolygons p, o = oInPolygon c) ∨
    (∃ a, o = (axisText a, [axisText a])) ∨ (∃ a, ∃ c ∈ b.policies a, o = oPolicy c) ∨
    (∃ a, ∃ c ∈ b.intervals a, o = oInterval c) ∨ (∃ a, ∃ c ∈ b.meshlines a, o = oMeshline c) ∨
    (∃ a, ∃ c ∈ b.colinears a, o = oColinear c) ∨ ∃ a, ∃ c ∈ b.tooCloses a, o = oTooClose c := by
  constructor
  · intro ho
    simp only [oBoard, List.mem_append, List.mem_flatMap, oPlane, oAxis, List.mem_cons, List.mem_map, (S.perm _ _).mem_iff] at ho
    rcases ho with ⟨p, -, rfl | ⟨q, hq, rfl | ⟨e, he, rfl⟩⟩ | ⟨c, hc, rfl⟩⟩ |
      ⟨a, -, rfl | ((((⟨c, hc, rfl⟩ | ⟨c, hc, rfl⟩) | ⟨c, hc, rfl⟩) | ⟨c, hc, rfl⟩) | ⟨c, hc, rfl⟩)⟩
    · exact .inl ⟨p, rfl⟩
    · exact .inr (.inl ⟨p, q, hq, rfl⟩)
    · exact .inr (.inr (.inl ⟨p, q, hq, e, he, rfl⟩))
    · exact .inr (.inr (.inr (.inl ⟨p, c, hc, rfl⟩)))
    · exact .inr (.inr (.inr (.inr (.inl ⟨a, rfl⟩))))
    · exact .inr (.inr (.inr (.inr (.inr (.inl ⟨a, c, hc, rfl⟩)))))
    · exact .inr (.inr (.inr (.inr (.inr (.inr (.inl ⟨a, c, hc, rfl⟩))))))
    · exact .inr (.inr (.inr (.inr (.inr (.inr (.inr (.inl ⟨a, c, hc, rfl⟩)))))))
    · exact .inr (.inr (.inr (.inr (.inr (.inr (.inr (.inr (.inl ⟨a, c, hc, rfl⟩))))))))
    · exact .inr (.inr (.inr (.inr (.inr (.inr (.inr (.inr (.inr ⟨a, c, hc, rfl⟩))))))))
  · have hp : ∀ p, o ∈ oPlane b p → o ∈ oBoard S b := fun p h =>
      List.mem_append_left _ (List.mem_flatMap.mpr ⟨p, all_planes p, h⟩)
    have ha : ∀ a, o ∈ oAxis S b a → o ∈ oBoard S b := fun a h =>
      List.mem_append_right _ (List.mem_flatMap.mpr ⟨a, all_axes a, h⟩)
    simp only [oPlane, oAxis, List.mem_append, List.mem_flatMap, List.mem_cons, List.mem_map, (S.perm _ _).mem_iff] at hp ha
    rintro (⟨p, rfl⟩ | ⟨p, q, hq, rfl⟩ | ⟨p, q, hq, e, he, rfl⟩ | ⟨p, c, hc, rfl⟩ | ⟨a, rfl⟩ | ⟨a, c, hc, rfl⟩ | ⟨a, c, hc, rfl⟩ |
      ⟨a, c, hc, rfl⟩ | ⟨a, c, hc, rfl⟩ | ⟨a, c, hc, rfl⟩)
    · exact hp p (.inl rfl)
    · exact hp p (.inr (.inl ⟨q, hq, .inl rfl⟩))
    · exact hp p (.inr (.inl ⟨q, hq, .inr ⟨e, he, rfl⟩⟩))
    · exact hp p (.inr (.inr ⟨c, hc, rfl⟩))
    · exact ha a (.inl rfl)
    · exact ha a (.inr (.inl (.inl (.inl (.inl ⟨c, hc, rfl⟩)))))
    · exact ha a (.inr (.inl (.inl (.inl (.inr ⟨c, hc, rfl⟩)))))
    · exact ha a (.inr (.inl (.inl (.inr ⟨c, hc, rfl⟩))))
    · exact ha a (.inr (.inl (.inr ⟨c, hc, rfl⟩)))
    · exact ha a (.inr (.inr ⟨c, hc, rfl⟩))

theorem mem_names (S : Sorter PolicyRec) (b : Board) (w : List Char) : w ∈ (oBoard S b).flatMap (·.2) ↔ Declared b w := by
  constructor
  · intro hw
    obtain ⟨o, ho, hw⟩ := List.mem_flatMap.mp hw
    have hi : ∀ {l : List Nat} {i : Nat}, i ∈ l → (∀ j, j ∈ l → j ∈ ids b) → Declared b (decimal i) :=
      fun h h' => .object (h' _ h)
    rcases mem_oBoard.mp ho with ⟨p, rfl⟩ | ⟨p, q, hq, rfl⟩ | ⟨p, q, hq, e, he, rfl⟩ | ⟨p, c, hc, rfl⟩ | ⟨a, rfl⟩ |
      ⟨a, c, hc, rfl⟩ | ⟨a, c, hc, rfl⟩ | ⟨a, c, hc, rfl⟩ | ⟨a, c, hc, rfl⟩ | ⟨a, c, hc, rfl⟩
    · rw [List.mem_singleton.mp hw]
      cases p
      · exact .plane "YZ" (by decide)
      · exact .plane "ZX" (by decide)
      · exact .plane "XY" (by decide)
    · have h : q.id ∈ polygonIds b := mem_planeIds.mpr ⟨p, q, hq, rfl⟩
      simp only [oPolygon, List.mem_cons, List.not_mem_nil, or_false] at hw
      rcases hw with rfl | rfl
      · exact .object (by simp [ids, h])
      · exact .output (by simp [h])
    · have h : e.id ∈ edgeIds b := mem_edgeIds.mpr ⟨p, q, hq, e, he, rfl⟩
      rw [List.mem_singleton.mp hw]
      exact .object (by simp [ids, h])
    · have h : c.id ∈ inPolygonIds b := mem_planeIds.mpr ⟨p, c, hc, rfl⟩
      simp only [oInPolygon, List.mem_cons, List.mem_map] at hw
      rcases hw with rfl | rfl | ⟨k, hk, rfl⟩
      · exact .object (by simp [ids, h])
      · exact .output (by simp [h])
      · exact .overlap hc (by simpa using hk)
    · rw [List.mem_singleton.mp hw]
      cases a
      · exact .axis "X" (by decide)
      · exact .axis "Y" (by decide)
      · exact .axis "Z" (by decide)
    · have h : c.id ∈ policyIds b := mem_axisIds.mpr ⟨a, c, hc, rfl⟩
      simp only [oPolicy, List.mem_cons, List.not_mem_nil, or_false] at hw
      rcases hw with rfl | rfl | rfl
      · exact .object (by simp [ids, h])
      · exact .input (by simp [h])
      · exact .output (by simp [h])
    · have h : c.id ∈ intervalIds b := mem_axisIds.mpr ⟨a, c, hc, rfl⟩
      simp only [oInterval, List.mem_cons, List.not_mem_nil, or_false] at hw
      rcases hw with rfl | rfl | rfl | rfl
      · exact .object (by simp [ids, h])
      · rw [inPin, List.append_assoc]; exact .first h
      · rw [inPin, List.append_assoc]; exact .second h
      · exact .output (by simp [h])
    · have h : c.id ∈ meshlineIds b := mem_axisIds.mpr ⟨a, c, hc, rfl⟩
      rw [List.mem_singleton.mp hw]
      exact .object (by simp [ids, h])
    · have h : c.id ∈ colinearIds b := mem_axisIds.mpr ⟨a, c, hc, rfl⟩
      simp only [oColinear, List.mem_cons, List.not_mem_nil, or_false] at hw
      rcases hw with rfl | rfl | rfl
      · exact .object (by simp [ids, h])
      · exact .input (by simp [h])
      · exact .output (by simp [h])
    · have h : c.id ∈ tooCloseIds b := mem_axisIds.mpr ⟨a, c, hc, rfl⟩
      simp only [oTooClose, List.mem_cons, List.not_mem_nil, or_false] at hw
      rcases hw with rfl | rfl | rfl
      · exact .object (by simp [ids, h])
      · exact .input (by simp [h])
      · exact .output (by simp [h])
  · have hm : ∀ o, o ∈ oBoard S b → ∀ w ∈ o.2, w ∈ (oBoard S b).flatMap (·.2) := fun o ho w hw => List.mem_flatMap.mpr ⟨o, ho, hw⟩
    have m0 : ∀ p, planeText p ∈ (oBoard S b).flatMap (·.2) := fun p =>
      hm _ (mem_oBoard.mpr (.inl ⟨p, rfl⟩)) _ (by simp)
    have m4 : ∀ a, axisText a ∈ (oBoard S b).flatMap (·.2) := fun a =>
      hm _ (mem_oBoard.mpr (.inr (.inr (.inr (.inr (.inl ⟨a, rfl⟩)))))) _ (by simp)
    have m1 : ∀ i ∈ polygonIds b, decimal i ∈ (oBoard S b).flatMap (·.2) ∧ outPin i ∈ (oBoard S b).flatMap (·.2) := by
      intro i hi
      obtain ⟨p, q, hq, rfl⟩ := mem_planeIds.mp hi
      have := hm _ (mem_oBoard.mpr (.inr (.inl ⟨p, q, hq, rfl⟩)))
      exact ⟨this _ (by simp [oPolygon]), this _ (by simp [oPolygon])⟩
    have m2 : ∀ i ∈ edgeIds b, decimal i ∈ (oBoard S b).flatMap (·.2) := by
      intro i hi
      obtain ⟨p, q, hq, e, he, rfl⟩ := mem_edgeIds.mp hi
      exact hm _ (mem_oBoard.mpr (.inr (.inr (.inl ⟨p, q, hq, e, he, rfl⟩)))) _ (by simp [oEdge])
    have m3 : ∀ p, ∀ c ∈ b.inPolygons p, ∀ w ∈ (oInPolygon c).2, w ∈ (oBoard S b).flatMap (·.2) := fun p c hc =>
      hm _ (mem_oBoard.mpr (.inr (.inr (.inr (.inl ⟨p, c, hc, rfl⟩)))))
    have m3' : ∀ i ∈ inPolygonIds b, decimal i ∈ (oBoard S b).flatMap (·.2) ∧ outPin i ∈ (oBoard S b).flatMap (·.2) := by
      intro i hi
      obtain ⟨p, c, hc, rfl⟩ := mem_planeIds.mp hi
      exact ⟨m3 p c hc _ (by simp [oInPolygon]), m3 p c hc _ (by simp [oInPolygon])⟩
    have m5 : ∀ i ∈ policyIds b, ∀ w ∈ [decimal i, inPin i, outPin i], w ∈ (oBoard S b).flatMap (·.2) := by
      intro i hi
      obtain ⟨a, c, hc, rfl⟩ := mem_axisIds.mp hi
      exact hm _ (mem_oBoard.mpr (.inr (.inr (.inr (.inr (.inr (.inl ⟨a, c, hc, rfl⟩)))))))
    have m6 : ∀ i ∈ intervalIds b, ∀ w ∈ [decimal i, inPin i ++ "1".toList, inPin i ++ "2".toList, outPin i],
        w ∈ (oBoard S b).flatMap (·.2) := by
      intro i hi
      obtain ⟨a, c, hc, rfl⟩ := mem_axisIds.mp hi
      exact hm _ (mem_oBoard.mpr (.inr (.inr (.inr (.inr (.inr (.inr (.inl ⟨a, c, hc, rfl⟩))))))))
    have m7 : ∀ i ∈ meshlineIds b, decimal i ∈ (oBoard S b).flatMap (·.2) := by
      intro i hi
      obtain ⟨a, c, hc, rfl⟩ := mem_axisIds.mp hi
      exact hm _ (mem_oBoard.mpr (.inr (.inr (.inr (.inr (.inr (.inr (.inr (.inl ⟨a, c, hc, rfl⟩))))))))) _ (by simp [oMeshline])
    have m8 : ∀ i ∈ colinearIds b, ∀ w ∈ [decimal i, inPin i, outPin i], w ∈ (oBoard S b).flatMap (·.2) := by
      intro i hi
      obtain ⟨a, c, hc, rfl⟩ := mem_axisIds.mp hi
      exact hm _ (mem_oBoard.mpr (.inr (.inr (.inr (.inr (.inr (.inr (.inr (.inr (.inl ⟨a, c, hc, rfl⟩))))))))))
    have m9 : ∀ i ∈ tooCloseIds b, ∀ w ∈ [decimal i, inPin i, outPin i], w ∈ (oBoard S b).flatMap (·.2) := by
      intro i hi
      obtain ⟨a, c, hc, rfl⟩ := mem_axisIds.mp hi
      exact hm _ (mem_oBoard.mpr (.inr (.inr (.inr (.inr (.inr (.inr (.inr (.inr (.inr ⟨a, c, hc, rfl⟩))))))))))
    intro hw
    cases hw with
    | plane s hs =>
      simp only [List.mem_cons, List.not_mem_nil, or_false] at hs
      rcases hs with rfl | rfl | rfl
      · exact m0 .yz
      · exact m0 .zx
      · exact m0 .xy
    | axis s hs =>
      simp only [List.mem_cons, List.not_mem_nil, or_false] at hs
      rcases hs with rfl | rfl | rfl
      · exact m4 .x
      · exact m4 .y
      · exact m4 .z
    | object hi =>
      simp only [ids, List.mem_append] at hi
      rcases hi with ((((((hi | hi) | hi) | hi) | hi) | hi) | hi) | hi
      · exact m2 _ hi
      · exact (m1 _ hi).1
      · exact (m3' _ hi).1
      · exact m5 _ hi _ (by simp)
      · exact m6 _ hi _ (by simp)
      · exact m7 _ hi
      · exact m8 _ hi _ (by simp)
      · exact m9 _ hi _ (by simp)
    | output hi =>
      simp only [List.mem_append] at hi
      rcases hi with ((((hi | hi) | hi) | hi) | hi) | hi
      · exact (m1 _ hi).2
      · exact (m3' _ hi).2
      · exact m5 _ hi _ (by simp [outPin, pinned])
      · exact m6 _ hi _ (by simp [outPin, pinned])
      · exact m8 _ hi _ (by simp [outPin, pinned])
      · exact m9 _ hi _ (by simp [outPin, pinned])
    | input hi =>
      simp only [List.mem_append] at hi
      rcases hi with (hi | hi) | hi
      · exact m5 _ hi _ (by simp [inPin, pinned])
      · exact m8 _ hi _ (by simp [inPin, pinned])
      · exact m9 _ hi _ (by simp [inPin, pinned])
    | first hi => exact m6 _ hi _ (by simp [inPin, pinned])
    | second hi => exact m6 _ hi _ (by simp [inPin, pinned])
    | overlap hc hk =>
      refine m3 _ _ hc _ ?_
      simp only [oInPolygon, List.mem_cons, List.mem_map]
      exact .inr (.inr ⟨_, by simpa using hk, rfl⟩)

/-! ## What is drawn -/

theorem overlapArrows_cons (id i p : Nat) (e : Option Nat) (rest : List (Nat × Option Nat)) :
    overlapArrows id i ((p, e) :: rest) = [(outPin p, inPin id ++ decimal i)] ++
      (match e with
        | some e => [(decimal e, inPin id ++ decimal i)]
        | none => []) ++ overlapArrows id (i + 1) rest := by cases e <;> rfl

theorem mem_overlapArrows (id : Nat) (x : List Char × List Char) : ∀ (l : List (Nat × Option Nat)) (i : Nat),
    x ∈ overlapArrows id i l ↔ ∃ k o, l[k]? = some o ∧ (x = (outPin o.1, inPin id ++ decimal (i + k)) ∨
      ∃ e, o.2 = some e ∧ x = (decimal e, inPin id ++ decimal (i + k)))
  | [], i => by simp [overlapArrows]
  | (p, e) :: rest, i => by
    rw [overlapArrows_cons, List.mem_append, mem_overlapArrows id x rest (i + 1)]
    constructor
    · rintro (h | ⟨k, o, hk, h⟩)
      · refine ⟨0, (p, e), rfl, ?_⟩
        rcases List.mem_append.mp h with h | h
        · exact .inl (List.mem_singleton.mp h)
        · cases e with
          | none => cases h
          | some e => exact .inr ⟨e, rfl, List.mem_singleton.mp h⟩
      · exact ⟨k + 1, o, hk, by rwa [show i + (k + 1) = i + 1 + k by omega]⟩
    · rintro ⟨k, o, hk, h⟩
      cases k with
      | zero =>
        simp only [List.getElem?_cons_zero, Option.some.injEq] at hk
        subst hk
        left
        rcases h with rfl | ⟨e', he, rfl⟩
        · simp
        · simp only at he; subst he; simp
      | succ k => exact .inr ⟨k, o, hk, by rwa [show i + 1 + k = i + (k + 1) by omega]⟩

theorem mem_arrows (S : Sorter PolicyRec) (b : Board) (x y : List Char) : (x, y) ∈ boardArrows S b ↔ Joined b x y := by
  have i1 : ∀ n, inPin n ++ "1".toList = pinned n "_in1" := fun n => by rw [inPin, List.append_assoc]; rfl
  have i2 : ∀ n, inPin n ++ "2".toList = pinned n "_in2" := fun n => by rw [inPin, List.append_assoc]; rfl
  constructor
  · intro h
    simp only [boardArrows, planeArrows, axisArrows, List.mem_append, List.mem_flatMap, (S.perm _ _).mem_iff] at h
    rcases h with ⟨p, -, c, hc, h⟩ | ⟨a, -, ((((⟨c, hc, h⟩ | ⟨c, hc, h⟩) | ⟨c, hc, h⟩) | ⟨c, hc, h⟩) | ⟨c, hc, h⟩)⟩
    · simp only [inPolygonArrows, List.mem_append, mem_overlapArrows, List.mem_cons, List.not_mem_nil, or_false,
        Prod.mk.injEq, Nat.zero_add] at h
      rcases h with (⟨rfl, rfl⟩ | ⟨rfl, rfl⟩) | ⟨k, o, hk, ⟨rfl, rfl⟩ | ⟨e, he, rfl, rfl⟩⟩
      · exact .edgeIn hc
      · exact .backTo hc
      · exact .polygon hc hk
      · exact .overlapping hc (q := o.1) (by rw [hk, ← he])
    · unfold policyArrows at h
      split at h
      · rename_i e he
        simp only [List.mem_singleton, Prod.mk.injEq] at h
        obtain ⟨rfl, rfl⟩ := h
        exact .origin hc he
      · cases h
    · simp only [List.mem_cons, List.not_mem_nil, or_false, Prod.mk.injEq, i1, i2] at h
      rcases h with ⟨rfl, rfl⟩ | ⟨rfl, rfl⟩
      · exact .before hc
      · exact .after hc
    · unfold meshlineArrows at h
      rcases List.mem_append.mp h with h | h
      · split at h
        · rename_i i hi
          simp only [List.mem_singleton, Prod.mk.injEq] at h
          obtain ⟨rfl, rfl⟩ := h
          exact .lineOfInterval hc hi
        · cases h
      · split at h
        · rename_i i hi
          simp only [List.mem_singleton, Prod.mk.injEq] at h
          obtain ⟨rfl, rfl⟩ := h
          exact .lineOfPolicy hc hi
        · cases h
    · unfold colinearArrows at h
      rcases List.mem_append.mp h with h | h
      · obtain ⟨e, he, h⟩ := List.mem_map.mp h
        simp only [Prod.mk.injEq] at h
        obtain ⟨rfl, rfl⟩ := h
        exact .colinear hc he
      · split at h
        · rename_i i hi
          simp only [List.mem_singleton, Prod.mk.injEq] at h
          obtain ⟨rfl, rfl⟩ := h
          exact .solved hc hi
        · cases h
    · unfold tooCloseArrows at h
      rcases List.mem_append.mp h with h | h
      · simp only [List.mem_cons, List.not_mem_nil, or_false, Prod.mk.injEq] at h
        rcases h with ⟨rfl, rfl⟩ | ⟨rfl, rfl⟩
        · exact .tooClose hc (.inl rfl)
        · exact .tooClose hc (.inr rfl)
      · split at h
        · rename_i i hi
          simp only [List.mem_singleton, Prod.mk.injEq] at h
          obtain ⟨rfl, rfl⟩ := h
          exact .merged hc hi
        · cases h
  · have hp : ∀ {p : Plane} {c : InPolygonRec} {x}, c ∈ b.inPolygons p → x ∈ inPolygonArrows c → x ∈ boardArrows S b :=
      fun {p} {c} {_} hc hx => List.mem_append_left _ (List.mem_flatMap.mpr ⟨p, all_planes p, List.mem_flatMap.mpr ⟨c, hc, hx⟩⟩)
    have ha : ∀ {x} (a : Axis), x ∈ axisArrows S b a → x ∈ boardArrows S b :=
      fun a h => List.mem_append_right _ (List.mem_flatMap.mpr ⟨a, all_axes a, h⟩)
    simp only [axisArrows, List.mem_append, List.mem_flatMap, (S.perm _ _).mem_iff] at ha
    intro h
    cases h with
    | edgeIn hc => exact hp hc (by simp [inPolygonArrows])
    | backTo hc => exact hp hc (List.mem_append_left _ (.tail _ (.head _)))
    | polygon hc hk =>
      exact hp hc (List.mem_append_right _ ((mem_overlapArrows _ _ _ _).mpr ⟨_, _, hk, .inl (by rw [Nat.zero_add]; rfl)⟩))
    | overlapping hc hk =>
      exact hp hc (List.mem_append_right _ ((mem_overlapArrows _ _ _ _).mpr
        ⟨_, _, hk, .inr ⟨_, rfl, by rw [Nat.zero_add]; rfl⟩⟩))
    | @colinear a c e hc he =>
      exact ha a (.inl (.inr ⟨c, hc, List.mem_append_left _ (List.mem_map.mpr ⟨e, he, rfl⟩)⟩))
    | @solved a c p hc h =>
      refine ha a (.inl (.inr ⟨c, hc, List.mem_append_right _ ?_⟩))
      rw [h]; exact .head _
    | @tooClose a c p hc h =>
      refine ha a (.inr ⟨c, hc, List.mem_append_left _ ?_⟩)
      rcases h with rfl | rfl
      · exact .head _
      · exact .tail _ (.head _)
    | @merged a c p hc h =>
      refine ha a (.inr ⟨c, hc, List.mem_append_right _ ?_⟩)
      rw [h]; exact .head _
    | @origin a p e hc h =>
      refine ha a (.inl (.inl (.inl (.inl ⟨p, hc, ?_⟩))))
      rw [policyArrows, h]; exact .head _
    | @before a i hc => exact ha a (.inl (.inl (.inl (.inr ⟨i, hc, by rw [← i1]; exact .head _⟩))))
    | @after a i hc => exact ha a (.inl (.inl (.inl (.inr ⟨i, hc, by rw [← i2]; exact .tail _ (.head _)⟩))))
    | @lineOfInterval a l i hc h =>
      refine ha a (.inl (.inl (.inr ⟨l, hc, List.mem_append_left _ ?_⟩)))
      rw [h]; exact .head _
    | @lineOfPolicy a l i hc h =>
      refine ha a (.inl (.inl (.inr ⟨l, hc, List.mem_append_right _ ?_⟩)))
      rw [h]; exact .head _

theorem joined_declared {b : Board} (h : Linked b) {x y : List Char} (hj : Joined b x y) : Declared b x ∧ Declared b y := by
  have object : ∀ {l : List Nat} {i : Nat}, i ∈ l → (∀ j, j ∈ l → j ∈ ids b) → Declared b (decimal i) :=
    fun h h' => .object (h' _ h)
  have hE : ∀ {i}, i ∈ edgeIds b → Declared b (decimal i) := fun h => .object (by simp [ids, h])
  have hC : ∀ {p} {c : InPolygonRec}, c ∈ b.inPolygons p → c.id ∈ inPolygonIds b := fun {p} {c} h => mem_planeIds.mpr ⟨p, c, h, rfl⟩
  cases hj with
  | edgeIn hc => exact ⟨hE (h.inPolygon _ _ hc).1, .object (by simp [ids, hC hc])⟩
  | backTo hc => exact ⟨.output (by simp [hC hc]), hE (h.inPolygon _ _ hc).1⟩
  | polygon hc hk =>
    have ho := (h.inPolygon _ _ hc).2 _ (List.mem_of_getElem? hk)
    exact ⟨.output (by simp [ho.1]), .overlap hc (List.getElem?_eq_some_iff.mp hk).1⟩
  | overlapping hc hk =>
    have ho := (h.inPolygon _ _ hc).2 _ (List.mem_of_getElem? hk)
    exact ⟨hE (ho.2 _ rfl), .overlap hc (List.getElem?_eq_some_iff.mp hk).1⟩
  | @colinear a c e hc he =>
    have : c.id ∈ colinearIds b := mem_axisIds.mpr ⟨a, c, hc, rfl⟩
    exact ⟨hE ((h.colinear _ _ hc).1 _ he), .input (by simp [this])⟩
  | @solved a c p hc hs =>
    have h1 : c.id ∈ colinearIds b := mem_axisIds.mpr ⟨a, c, hc, rfl⟩
    have h2 := (h.colinear _ _ hc).2 _ hs
    exact ⟨.output (by simp [h1]), .input (by simp [h2])⟩
  | @tooClose a c p hc hs =>
    have h1 : c.id ∈ tooCloseIds b := mem_axisIds.mpr ⟨a, c, hc, rfl⟩
    have h2 : p ∈ policyIds b := by
      rcases hs with rfl | rfl
      · exact (h.tooClose _ _ hc).1
      · exact (h.tooClose _ _ hc).2.1
    exact ⟨.output (by simp [h2]), .input (by simp [h1])⟩
  | @merged a c p hc hs =>
    have h1 : c.id ∈ tooCloseIds b := mem_axisIds.mpr ⟨a, c, hc, rfl⟩
    have h2 := (h.tooClose _ _ hc).2.2 _ hs
    exact ⟨.output (by simp [h1]), .input (by simp [h2])⟩
  | @origin a p e hc hs =>
    have h1 : p.id ∈ policyIds b := mem_axisIds.mpr ⟨a, p, hc, rfl⟩
    exact ⟨hE (h.policy _ _ hc e (by rw [hs]; exact .head _)), .input (by simp [h1])⟩
  | @before a i hc =>
    have h1 : i.id ∈ intervalIds b := mem_axisIds.mpr ⟨a, i, hc, rfl⟩
    exact ⟨.output (by simp [(h.interval _ _ hc).1]), .first h1⟩
  | @after a i hc =>
    have h1 : i.id ∈ intervalIds b := mem_axisIds.mpr ⟨a, i, hc, rfl⟩
    exact ⟨.output (by simp [(h.interval _ _ hc).2]), .second h1⟩
  | @lineOfInterval a l i hc hs =>
    have h1 : l.id ∈ meshlineIds b := mem_axisIds.mpr ⟨a, l, hc, rfl⟩
    exact ⟨.output (by simp [(h.meshline _ _ hc).1 _ hs]), .object (by simp [ids, h1])⟩
  | @lineOfPolicy a l i hc hs =>
    have h1 : l.id ∈ meshlineIds b := mem_axisIds.mpr ⟨a, l, hc, rfl⟩
    exact ⟨.output (by simp [(h.meshline _ _ hc).2 _ hs]), .object (by simp [ids, h1])⟩

/-! ## The diagram -/

/-- Of a board whose objects have each a number of their own, whose pointers are to its objects, and whose polygons have names with
neither quotes nor ends of lines: no name is declared twice; the names declared are those of the planes, of the axes, of the objects
and of their pins; an arrow is drawn where the board joins two of them, and only there; each end of an arrow is declared; the text
begins and ends as a diagram does, and its braces match. Missing: names of polygons with quotes or ends of lines. -/
theorem C130_partial (S : Sorter PolicyRec) (b : Board) (hi : (ids b).Nodup) (hl : Linked b) (hn : PlainNames b) :
    (declared (run S b)).Nodup ∧ (∀ x, x ∈ declared (run S b) ↔ Declared b x) ∧
    (∀ x y, (x, y) ∈ drawn (run S b) ↔ Joined b x y) ∧
    (∀ x y, (x, y) ∈ drawn (run S b) → x ∈ declared (run S b) ∧ y ∈ declared (run S b)) ∧
    Matched 0 (linesOf (run S b)) ∧
    ∃ ls, linesOf (run S b) = ["@startuml".toList] ++ ls ++ ["@enduml".toList, []] := by
  have h2 : ∀ x, x ∈ declared (run S b) ↔ Declared b x := fun x => by rw [declared_run S hn]; exact mem_names S b x
  have h3 : ∀ x y, (x, y) ∈ drawn (run S b) ↔ Joined b x y := fun x y => by rw [drawn_run S hn]; exact mem_arrows S b x y
  refine ⟨?_, h2, h3, fun x y h => ?_, matched_run S hn, ?_⟩
  · rw [declared_run S hn]; exact names_nodup (own_board S b) (keys_nodup S hi)
  · have := joined_declared hl ((h3 x y).mp h)
    exact ⟨(h2 x).mpr this.1, (h2 y).mpr this.2⟩
  · refine ⟨[Plane.yz, .zx, .xy].flatMap (visitPlane b) ++ [Axis.x, .y, .z].flatMap (visitAxis S b), ?_⟩
    rw [lines_run S hn, visitBoard, List.append_assoc (_ ++ _), List.append_assoc ["@startuml".toList]]
    rfl

/-- The edges, the first policy and the whole of a board with an object of each kind, the polygon being named at will. -/
def sampleEdge (n : Nat) : EdgeRec := ⟨n, .xmin, true, n = 0⟩
@[inherit_doc sampleEdge] def samplePolicy : PolicyRec := ⟨4, 1, .halfs, .max, true, 1 / 2, [some 0]⟩
@[inherit_doc sampleEdge] def sampleBoard (name : String) : Board where
  polygons | .xy => [⟨3, name.toList, .ccw, [sampleEdge 0, sampleEdge 1, sampleEdge 2]⟩] | _ => []
  inPolygons | .xy => [⟨9, sampleEdge 0, [(3, none), (3, some 1)]⟩] | _ => []
  policies | .x => [samplePolicy, ⟨5, 3, .oneline, .none, false, 1, [none]⟩] | _ => []
  intervals | .x => [⟨6, 1 / 4, 10, 2, 10, 2, 4, 5⟩] | _ => []
  meshlines | .x => [⟨7, 1, none, some 4⟩, ⟨8, 2, some 6, none⟩] | _ => []
  colinears | .x => [⟨10, [sampleEdge 0, sampleEdge 1], some samplePolicy⟩] | _ => []
  tooCloses | .x => [⟨11, (4, 5), some 4⟩] | _ => []

theorem sample_linked (name : String) : Linked (sampleBoard name) where
  inPolygon p c hc := by
    cases p <;> simp only [sampleBoard, List.mem_cons, List.not_mem_nil, or_false] at hc
    subst hc
    simp [edgeIds, polygonIds, sampleBoard, sampleEdge]
  colinear a c hc := by
    cases a <;> simp only [sampleBoard, List.mem_cons, List.not_mem_nil, or_false] at hc
    subst hc
    simp [edgeIds, policyIds, sampleBoard, sampleEdge, samplePolicy]
  tooClose a c hc := by
    cases a <;> simp only [sampleBoard, List.mem_cons, List.not_mem_nil, or_false] at hc
    subst hc
    simp [policyIds, sampleBoard, samplePolicy]
  policy a c hc := by
    cases a <;> simp only [sampleBoard, List.mem_cons, List.not_mem_nil, or_false] at hc
    rcases hc with rfl | rfl <;> simp [edgeIds, sampleBoard, samplePolicy, sampleEdge]
  interval a c hc := by
    cases a <;> simp only [sampleBoard, List.mem_cons, List.not_mem_nil, or_false] at hc
    subst hc
    simp [policyIds, sampleBoard, samplePolicy]
  meshline a c hc := by
    cases a <;> simp only [sampleBoard, List.mem_cons, List.not_mem_nil, or_false] at hc
    rcases hc with rfl | rfl <;> simp [policyIds, intervalIds, sampleBoard, samplePolicy]

theorem sample_ids (name : String) : (ids (sampleBoard name)).Nodup := by
  simp [ids, edgeIds, polygonIds, inPolygonIds, policyIds, intervalIds, meshlineIds, colinearIds, tooCloseIds, sampleBoard,
    sampleEdge, samplePolicy]

/-- A board with an object of each kind: 12 objects, 33 names, 16 arrows. -/
example : (ids (sampleBoard "box::0")).Nodup ∧ Linked (sampleBoard "box::0") ∧ PlainNames (sampleBoard "box::0") ∧
    (declared (run (.insertion PolicyRec) (sampleBoard "box::0"))).length = 33 ∧
    (drawn (run (.insertion PolicyRec) (sampleBoard "box::0"))).length = 16 := by
  refine ⟨sample_ids _, sample_linked _, ?_, by decide +kernel, by decide +kernel⟩
  intro p q hq
  cases p <;> simp only [sampleBoard, List.mem_cons, List.not_mem_nil, or_false] at hq
  subst hq
  decide

/-- With a quote in its name, which the file may give, a polygon is not declared. -/
theorem C130_false : ¬ ∀ (S : Sorter PolicyRec) (b : Board), (ids b).Nodup → Linked b →
    ∀ x, x ∈ declared (run S b) ↔ Declared b x := by
  intro h
  have h1 := (h (.insertion PolicyRec) (sampleBoard "5\" line::0") (sample_ids _) (sample_linked _) (decimal 3)).mpr
    (.object (by simp [ids, polygonIds, sampleBoard]))
  exact absurd h1 (by decide +kernel)

end Verif.Uml
