import Verif.Props.RunKinds
import Verif.Model.Dialog

/-!
# C92: editing an edge
-/

namespace Verif.Board
open Verif.Mesh Verif.Mesh.Spec Verif.Geom Spec

/-- Solving again from edges some of which are already as they end. -/
theorem solveAll_again (S : Sorter Overlap) (s : InPolygon) : ∀ X X' Y : Nat → BEdge, solveAllInPolygon S X s = some Y →
    SameEdges X X' → (∀ k, X' k = X k ∨ X' k = Y k) → solveAllInPolygon S X' s = some Y := by
  induction s with
  | nil =>
    intro X X' Y h _ hk
    obtain rfl := Option.some.inj h
    have : X' = X := funext fun k => (hk k).elim id id
    rw [this]; exact h
  | cons c s ih =>
    intro X X' Y h hs hk
    obtain ⟨m, os⟩ := c
    unfold solveAllInPolygon at h ⊢
    rw [hs.solve]
    cases hb : solveInPolygon S (X m) (os.map (Found.overlap X)) with
    | none => rw [hb] at h; cases h
    | some b =>
      rw [hb] at h
      refine ih _ _ _ h (fun k => ?_) fun k => ?_
      · obtain ⟨b', hb'⟩ := hs k
        unfold setMesh
        by_cases hkm : k = m
        · rw [if_pos hkm, if_pos hkm, hb']; exact ⟨b, rfl⟩
        · rw [if_neg hkm, if_neg hkm]; exact ⟨b', hb'⟩
      · obtain ⟨b', hb'⟩ := hs k
        unfold setMesh
        by_cases hkm : k = m
        · left; rw [if_pos hkm, if_pos hkm, hb']
        · rw [if_neg hkm, if_neg hkm]; exact hk k

theorem colinear_same {E E' : Nat → BEdge} (h : SameEdges E E') (plane : Plane) (s : Colinear) (es : List Nat) :
    detectColinear E' plane s es = detectColinear E plane s es := by
  have hseg : ∀ k, (E' k).seg = (E k).seg ∧ (E' k).axis = (E k).axis ∧ (E' k).plane = (E k).plane := by
    intro k
    obtain ⟨b, hb⟩ := h k
    rw [hb]
    exact ⟨rfl, rfl, rfl⟩
  have hadd : ∀ s i j, addColinear E' s i j = addColinear E s i j := by
    intro s i j
    unfold addColinear
    simp only [(hseg i).1, (hseg j).1, (hseg i).2.1, (hseg j).2.1, (hseg i).2.2, (hseg j).2.2]
  have hin : ∀ i es s, detectColinearInner E' plane i s es = detectColinearInner E plane i s es := by
    intro i es
    induction es with
    | nil => intro s; rfl
    | cons j es ih =>
      intro s
      unfold detectColinearInner
      simp only [(hseg i).1, (hseg j).1, (hseg i).2.1, (hseg j).2.1, hadd, ih]
  induction es generalizing s with
  | nil => rfl
  | cons i es ih =>
    unfold detectColinear
    simp only [(hseg i).2.1, hin, ih]

/-- Accepting the dialog of an edge unchanged, after a run: the steps run again from there give the same edges and the same
axis. The state read by the dialog is the one at the end of the run, whether the edge is to mesh included. -/
theorem C92_unchanged {S : Sorters} {g : MeshParams} {gz : ZoneParams} {B : Input} {axis : Geom.Axis} {E : Nat → BEdge}
    {a : Mesh.Axis} (h : runSteps S g gz B axis = .ok (E, a)) (n : Nat) {e : BEdge}
    (he : Dialog.commitEdge (Dialog.ofBool (E n).toMesh) (Dialog.ofBool (E n).toReverse) (E n) = some (.detectConflictEip, e)) :
    ∃ d, diagonalSteps S.pointers gz B = some d ∧ runFromConflicts S g (B.withEdge n e) d axis = .ok (E, a) := by
  obtain ⟨-, -, -, hE, -⟩ := run_parts h
  have hb : ∀ b, Dialog.toBool (Dialog.ofBool b) = some b := by decide
  have hen : e = E n := by
    simp only [Dialog.commitEdge, hb, Option.bind_some, Option.map_some, Option.some.injEq, Prod.mk.injEq, true_and] at he
    exact he.symm
  subst hen
  unfold runSteps at h
  obtain ⟨d, hd, h⟩ := outcome_bind_ok h
  refine ⟨d, orUb_ok hd, ?_⟩
  obtain ⟨conflicts, hc, h⟩ := outcome_bind_ok h
  obtain ⟨E', hE', h⟩ := outcome_bind_ok h
  obtain ⟨asked, hasked, h⟩ := outcome_bind_ok h
  obtain ⟨a', ha, h⟩ := outcome_bind_ok h
  obtain ⟨rfl, rfl⟩ := Prod.mk.inj (Outcome.ok.inj h)
  have hsame : SameEdges B.E (B.withEdge n (E' n)).E := by
    intro k
    unfold Input.withEdge
    by_cases hk : k = n
    · subst hk; simpa using hE k
    · exact ⟨(B.E k).toMesh, by simp [hk]⟩
  have hdet : ∀ planes, detectAllInPolygons S.points (B.withEdge n (E' n)) planes = detectAllInPolygons S.points B planes := by
    intro planes
    induction planes with
    | nil => rfl
    | cons p rest ih => unfold detectAllInPolygons; rw [ih]; rfl
  have hsolve : conflicts.foldlM (solveAllInPolygon S.overlaps) (B.withEdge n (E' n)).E = some E' := by
    have h1 := orUb_ok hE'
    rw [solve_planes] at h1 ⊢
    refine solveAll_again _ _ _ _ _ h1 hsame fun k => ?_
    unfold Input.withEdge
    by_cases hk : k = n
    · right; simp [hk]
    · left; simp [hk]
  have hcol : detectAllColinear (B.withEdge n (E' n)) = detectAllColinear B := by
    unfold detectAllColinear
    congr 1
    funext s plane
    exact colinear_same hsame plane s _
  have bind_of : ∀ {α β : Type} {o : Outcome α} {x : α} (f : α → Outcome β), o = .ok x → o.bind f = f x := by
    intro α β o x f h; rw [h]; rfl
  unfold runFromConflicts
  rw [bind_of _ ((hdet allPlanes).trans hc), bind_of _ (by rw [hsolve]; rfl), hcol]
  have hboard : boardPolicies (B.withEdge n (E' n)) E' d.1 d.2.2 (detectAllColinear B) axis =
      boardPolicies B E' d.1 d.2.2 (detectAllColinear B) axis := rfl
  rw [hboard, bind_of _ hasked]
  show (finishAxis S g (angleAt d.1) (d.2.1 axis) (axisPolicies g (B.fixed axis) asked)).map _ = _
  rw [ha]
  rfl

/-- An edge whose polygon is hidden by no other keeps what it was given: it is meshed after the steps if it was to be
meshed before. -/
theorem C92_kept_partial {S : Sorters} {g : MeshParams} {B : Input} (hB : Built B) {d : List BAngle × Zones × ToMesh}
    {axis : Geom.Axis} {E : Nat → BEdge} {a : Mesh.Axis} (h : runFromConflicts S g B d axis = .ok (E, a)) {p : Plane} {n : Nat}
    (hn : n ∈ B.polygons p) (hh : ∀ b ∈ B.polygons p, ¬ Hides B.P b n) {e : Nat × Segment} (he : e ∈ (B.P n).edges) :
    E e.1 = B.E e.1 := by
  unfold runFromConflicts at h
  obtain ⟨conflicts, hc, h⟩ := outcome_bind_ok h
  obtain ⟨E', hE', h⟩ := outcome_bind_ok h
  obtain ⟨asked, hasked, h⟩ := outcome_bind_ok h
  obtain ⟨a', ha, h⟩ := outcome_bind_ok h
  obtain ⟨rfl, rfl⟩ := Prod.mk.inj (Outcome.ok.inj h)
  have hmem : ∀ planes l, detectAllInPolygons S.points B planes = .ok l → ∀ s ∈ l,
      ∃ q, detectInPolygons S.points B.P (B.polygons q) [] = .ok s := by
    intro planes
    induction planes with
    | nil => intro l hl s hs; obtain rfl := Outcome.ok.inj hl; cases hs
    | cons q planes ih =>
      intro l hl s hs
      unfold detectAllInPolygons at hl
      obtain ⟨s', hs', hl⟩ := outcome_bind_ok hl
      obtain ⟨l', hl', hl⟩ := outcome_bind_ok hl
      obtain rfl := Outcome.ok.inj hl
      rcases List.mem_cons.1 hs with rfl | hs
      · exact ⟨q, hs'⟩
      · exact ih l' hl' s hs
  -- no conflict is about the edge
  have hno : ∀ s ∈ conflicts, ∀ os, (e.1, os) ∉ s := by
    intro s hs os hm
    obtain ⟨q, hq⟩ := hmem _ _ hc s hs
    obtain ⟨hne, hf⟩ := (C79_conflicts (hB.thick q) hq e.1).1 os (detect_lookup hq hm)
    obtain ⟨f, hf'⟩ := List.exists_mem_of_ne_nil os hne
    obtain ⟨a2, ha2, b2, hb2, hhid, seg, hseg, -⟩ := hf f hf'
    have hpq : q = p := (hB.edge q a2 ha2 _ hseg).2.symm.trans (hB.edge p n hn e he).2
    subst hpq
    obtain rfl := edge_owner (hB.own q) ha2 hn hseg he rfl
    exact hh b2 hb2 hhid
  have hkeep : ∀ (s : InPolygon) (X Y : Nat → BEdge), (∀ os, (e.1, os) ∉ s) → solveAllInPolygon S.overlaps X s = some Y →
      Y e.1 = X e.1 := by
    intro s
    induction s with
    | nil => intro X Y _ h; rw [Option.some.inj h]
    | cons c s ih =>
      intro X Y hno h
      obtain ⟨m, os⟩ := c
      unfold solveAllInPolygon at h
      cases hb : solveInPolygon S.overlaps (X m) (os.map (Found.overlap X)) with
      | none => rw [hb] at h; cases h
      | some b =>
        rw [hb] at h
        rw [ih _ _ (fun os h => hno os (by simp [h])) h]
        have : e.1 ≠ m := by rintro rfl; exact hno os (by simp)
        simp [setMesh, this]
  have h1 := orUb_ok hE'
  rw [solve_planes] at h1
  refine hkeep _ _ _ (fun os h => ?_) h1
  obtain ⟨s, hs, hm⟩ := List.mem_flatten.1 h
  exact hno s hs os hm

/-- Turning an edge on or off changes no other edge; and after the steps it is as it was given both times, or the same
both times, whatever it was given. -/
theorem C92_decided {S : Sorters} {g : MeshParams} {B : Input} {d : List BAngle × Zones × ToMesh}
    {axis : Geom.Axis} {n : Nat} {e : BEdge} (he : ∃ b, e = { B.E n with toMesh := b }) {E E' : Nat → BEdge} {a a' : Mesh.Axis}
    (h : runFromConflicts S g B d axis = .ok (E, a)) (h' : runFromConflicts S g (B.withEdge n e) d axis = .ok (E', a')) :
    (∀ m, m ≠ n → E' m = E m) ∧ (E' n = E n ∨ E n = B.E n ∧ E' n = e) := by
  have bind_of : ∀ {α β : Type} {o : Outcome α} {x : α} (f : α → Outcome β), o = .ok x → o.bind f = f x := by
    intro α β o x f h; rw [h]; rfl
  have hdet : ∀ planes, detectAllInPolygons S.points (B.withEdge n e) planes = detectAllInPolygons S.points B planes := by
    intro planes
    induction planes with
    | nil => rfl
    | cons p rest ih => unfold detectAllInPolygons; rw [ih]; rfl
  unfold runFromConflicts at h h'
  rw [hdet] at h'
  obtain ⟨conflicts, hc, h⟩ := outcome_bind_ok h
  rw [bind_of _ hc] at h'
  obtain ⟨E1, hE1, h⟩ := outcome_bind_ok h
  obtain ⟨E2, hE2, h'⟩ := outcome_bind_ok h'
  obtain ⟨asked, -, h⟩ := outcome_bind_ok h
  obtain ⟨a1, -, h⟩ := outcome_bind_ok h
  obtain ⟨rfl, rfl⟩ := Prod.mk.inj (Outcome.ok.inj h)
  obtain ⟨asked', -, h'⟩ := outcome_bind_ok h'
  obtain ⟨a2, -, h'⟩ := outcome_bind_ok h'
  obtain ⟨rfl, rfl⟩ := Prod.mk.inj (Outcome.ok.inj h')
  have h1 := orUb_ok hE1
  have h2 := orUb_ok hE2
  rw [solve_planes] at h1 h2
  have main : ∀ (s : InPolygon) (X X' Y Y' : Nat → BEdge), SameEdges X X' → (∀ m, m ≠ n → X' m = X m) →
      solveAllInPolygon S.overlaps X s = some Y → solveAllInPolygon S.overlaps X' s = some Y' →
      (∀ m, m ≠ n → Y' m = Y m) ∧ (Y' n = Y n ∨ Y n = X n ∧ Y' n = X' n) := by
    intro s
    induction s with
    | nil =>
      intro X X' Y Y' _ hm h h'
      obtain rfl := Option.some.inj h
      obtain rfl := Option.some.inj h'
      exact ⟨hm, Or.inr ⟨rfl, rfl⟩⟩
    | cons c s ih =>
      intro X X' Y Y' hs hm h h'
      obtain ⟨m, os⟩ := c
      unfold solveAllInPolygon at h h'
      rw [hs.solve] at h'
      cases hb : solveInPolygon S.overlaps (X m) (os.map (Found.overlap X)) with
      | none => rw [hb] at h; cases h
      | some b =>
        rw [hb] at h h'
        obtain ⟨i1, i2⟩ := ih _ _ _ _ (fun k => by
          obtain ⟨b', hb'⟩ := hs k
          unfold setMesh
          by_cases hkm : k = m
          · rw [if_pos hkm, if_pos hkm, hb']; exact ⟨b, rfl⟩
          · rw [if_neg hkm, if_neg hkm]; exact ⟨b', hb'⟩) (fun k hk => by
          unfold setMesh
          rw [hm k hk]) h h'
        refine ⟨i1, ?_⟩
        by_cases hnm : n = m
        · left
          subst hnm
          rcases i2 with h | ⟨h3, h4⟩
          · exact h
          · obtain ⟨b', hb'⟩ := hs n
            rw [h3, h4]
            simp only [setMesh, if_true]
            rw [hb']
        · simpa [setMesh, hnm] using i2
  have hsame : SameEdges B.E (B.withEdge n e).E := by
    intro k
    unfold Input.withEdge
    by_cases hk : k = n
    · subst hk; simpa using he
    · exact ⟨(B.E k).toMesh, by simp [hk]⟩
  have := main _ _ _ _ _ hsame (fun m hm => by simp [Input.withEdge, hm]) h1 h2
  simpa [Input.withEdge] using this

/-- A box, and another of higher priority over the middle of one of its sides. -/
def bittenBoard : Input where
  polygons
    | .xy => [0, 1]
    | _ => []
  P n := if n = 0 then ⟨boxPoints ⟨0, 0⟩ ⟨6, 4⟩, [(0, ⟨⟨6, 0⟩, ⟨0, 0⟩⟩), (1, ⟨⟨0, 0⟩, ⟨0, 4⟩⟩), (2, ⟨⟨0, 4⟩, ⟨6, 4⟩⟩),
      (3, ⟨⟨6, 4⟩, ⟨6, 0⟩⟩)], 0, 1, 1⟩
    else ⟨boxPoints ⟨4, 1⟩ ⟨9, 3⟩, [(4, ⟨⟨9, 1⟩, ⟨4, 1⟩⟩), (5, ⟨⟨4, 1⟩, ⟨4, 3⟩⟩), (6, ⟨⟨4, 3⟩, ⟨9, 3⟩⟩),
      (7, ⟨⟨9, 3⟩, ⟨9, 1⟩⟩)], 0, 1, 2⟩
  E n := (([(0, ⟨.xy, ⟨⟨6, 0⟩, ⟨0, 0⟩⟩, .ymin, true, false⟩), (1, ⟨.xy, ⟨⟨0, 0⟩, ⟨0, 4⟩⟩, .xmin, true, false⟩),
    (2, ⟨.xy, ⟨⟨0, 4⟩, ⟨6, 4⟩⟩, .ymax, true, false⟩), (3, ⟨.xy, ⟨⟨6, 4⟩, ⟨6, 0⟩⟩, .xmax, true, false⟩),
    (4, ⟨.xy, ⟨⟨9, 1⟩, ⟨4, 1⟩⟩, .ymin, true, false⟩), (5, ⟨.xy, ⟨⟨4, 1⟩, ⟨4, 3⟩⟩, .xmin, true, false⟩),
    (6, ⟨.xy, ⟨⟨4, 3⟩, ⟨9, 3⟩⟩, .ymax, true, false⟩), (7, ⟨.xy, ⟨⟨9, 3⟩, ⟨9, 1⟩⟩, .xmax, true, false⟩)] :
    List (Nat × BEdge)).lookup n).getD ⟨.yz, ⟨⟨0, 0⟩, ⟨0, 0⟩⟩, .none, true, false⟩
  fixed _ := []
  angle _ := 0

/-- The edge bitten, turned off. -/
def bittenEdge : BEdge := ⟨.xy, ⟨⟨6, 4⟩, ⟨6, 0⟩⟩, .xmax, false, false⟩

theorem bitten_built : Built bittenBoard ∧ LinesApart bittenBoard := by
  refine ⟨⟨?_, ?_, ?_, ?_, ?_⟩, ⟨?_, ?_⟩⟩
  · intro p; cases p <;> decide +kernel
  · intro p; cases p <;> decide +kernel
  · intro p; cases p <;> decide +kernel
  · intro p; unfold SameLine Horizontal Vertical; cases p <;> decide +kernel
  · intro p; cases p <;> decide +kernel
  · intro p; unfold Horizontal; cases p <;> decide +kernel
  · intro p; unfold Vertical; cases p <;> decide +kernel

theorem bitten_off_built : Built (bittenBoard.withEdge 3 bittenEdge) ∧ LinesApart (bittenBoard.withEdge 3 bittenEdge) := by
  refine ⟨⟨?_, ?_, ?_, ?_, ?_⟩, ⟨?_, ?_⟩⟩
  · intro p; cases p <;> decide +kernel
  · intro p; cases p <;> decide +kernel
  · intro p; cases p <;> decide +kernel
  · intro p; unfold SameLine Horizontal Vertical; cases p <;> decide +kernel
  · intro p; cases p <;> decide +kernel
  · intro p; unfold Horizontal; cases p <;> decide +kernel
  · intro p; unfold Vertical; cases p <;> decide +kernel

theorem bitten_slanted : ∀ p, slantedOf bittenBoard p = [] ∧ slantedOf (bittenBoard.withEdge 3 bittenEdge) p = [] := by
  intro p; cases p <;> decide +kernel

/-- Among boxes, whatever edges are given: an edge that is in part, but not in whole, in boxes that hide its own is meshed
after the steps, even when it was turned off. An edge that has no two points in a box that hides its own keeps what it was
given. -/
theorem C92_boxes (S : Sorters) (g : MeshParams) (hg : g.InRange) (hl : 0 ≤ g.proximityLimit) (gz : ZoneParams) {B : Input}
    {c1 c3 : Nat → Point} (hB : Built B) (hA : LinesApart B) (hs : ∀ p, slantedOf B p = [])
    (hboxes : ∀ p, Boxes B.P c1 c3 (B.polygons p)) (axis : Geom.Axis) :
    ∃ E a, runSteps S g gz B axis = .ok (E, a) ∧ ∀ p, ∀ n ∈ B.polygons p, ∀ e ∈ (B.P n).edges,
      (∀ b ∈ B.polygons p, Hides B.P b n →
        (∃ q q', q ≠ q' ∧ On e.2 q ∧ On e.2 q' ∧ WithinBox (c1 b) (c3 b) q ∧ WithinBox (c1 b) (c3 b) q') →
        ¬ Covered B c1 c3 p n e.2 → (E e.1).toMesh = true) ∧
      ((∀ b ∈ B.polygons p, Hides B.P b n → ¬ ∃ q q', q ≠ q' ∧ On e.2 q ∧ On e.2 q' ∧ WithinBox (c1 b) (c3 b) q ∧
        WithinBox (c1 b) (c3 b) q') → (E e.1).toMesh = (B.E e.1).toMesh) := by
  have hE : ∀ p, ∀ a ∈ B.polygons p, ∀ e ∈ (B.P a).edges, (B.E e.1).seg = e.2 := fun p a ha e he => (hB.edge p a ha e he).1
  have hown := fun p a ha a' ha' e he e' he' h => edge_owner (hB.own p) (a := a) (a' := a') (e := e) (e' := e') ha ha' he he' h
  have hc79 := fun p => C79_boxes S.points S.overlaps (hboxes p) B.E (hE p) (hown p)
  obtain ⟨L, zones, m, new, E, a, lim, hrun, -, hE3, -⟩ :=
    run_drawn S g hg hl (gz := gz) (Or.inr hs) hB hA (fun p => ⟨_, (hc79 p).choose_spec.1⟩) axis
  refine ⟨E, a, hrun, ?_⟩
  intro p n hn e he
  obtain ⟨s, hs, hfalse⟩ := hc79 p
  refine ⟨?_, fun hnone => ?_⟩
  rotate_left
  · rcases hE3 p s hs e.1 (mem_edges.2 ⟨n, hn, e, he, rfl⟩) with ⟨-, h⟩ | ⟨os, hos, -⟩
    · exact h
    exfalso
    obtain ⟨hne, hf⟩ := (C79_conflicts (hB.thick p) hs e.1).1 os hos
    obtain ⟨f, hf'⟩ := List.exists_mem_of_ne_nil os hne
    obtain ⟨n', hn', b, hb, hhid, seg, hseg, l, hl, hfl⟩ := hf f hf'
    obtain rfl := edge_owner (hB.own p) hn' hn hseg he rfl
    obtain ⟨l', hl', hiff⟩ := boxes_found S.points (hboxes p) hn' hb hseg
    rw [hl] at hl'
    obtain rfl := Outcome.ok.inj hl'
    have hsg : seg = e.2 := (hB.edge p n' hn' _ hseg).1.symm.trans (hB.edge p n' hn' e he).1
    obtain ⟨h1, h2, q', h3, h4, h5⟩ := (hiff f.range.p0).1 ⟨f, hfl, 0, by norm_num, by norm_num, by ring, by ring⟩
    simp only [hsg] at h1 h4
    exact hnone b hb hhid ⟨_, q', h3.symm, h1, h4, h2, h5⟩
  rintro b hb hhid ⟨q, q', hqq, hq, hq', hw, hw'⟩ hcov
  obtain ⟨l, hl, hiff⟩ := boxes_found S.points (hboxes p) hn hb he
  obtain ⟨f, hf, -⟩ := (hiff q).2 ⟨hq, hw, q', hqq.symm, hq', hw'⟩
  obtain ⟨l', hl', hlook⟩ := (C79_conflicts (hB.thick p) hs e.1).2 n hn b hb hhid e.2 he
  rw [hl] at hl'
  obtain rfl := Outcome.ok.inj hl'
  obtain ⟨os, hos, -⟩ := hlook f hf
  rcases hE3 p s hs e.1 (mem_edges.2 ⟨n, hn, e, he, rfl⟩) with ⟨h, -⟩ | ⟨os', hos', h⟩
  · rw [hos] at h; cases h
  · by_contra hne
    have hm : (E e.1).toMesh = false := by simpa using hne
    rw [hm] at h
    exact hcov (hfalse n hn e he os' hos' h)

/-- Lower corners. -/
def bitten1 (n : Nat) : Point := if n = 0 then ⟨0, 0⟩ else ⟨4, 1⟩

/-- Upper corners. -/
def bitten3 (n : Nat) : Point := if n = 0 then ⟨6, 4⟩ else ⟨9, 3⟩

theorem bitten_boxes : ∀ p, Boxes bittenBoard.P bitten1 bitten3 (bittenBoard.polygons p) := by
  refine fun p => ⟨fun a ha => ?_, ?_, ?_⟩
  · cases p <;> simp only [bittenBoard, List.mem_cons, List.not_mem_nil, or_false] at ha
    rcases ha with rfl | rfl <;> exact ⟨rfl, rfl, by decide +kernel, by decide +kernel, by decide +kernel⟩
  · unfold Clear; cases p <;> decide +kernel
  · unfold Clear; cases p <;> decide +kernel

/-- An edge turned off by its dialog may be meshed after the steps are run again. -/
theorem C92_false (S : Sorters) (axis : Geom.Axis) : ∃ (B : Input) (g : MeshParams) (gz : ZoneParams)
    (d : List BAngle × Zones × ToMesh) (n : Nat) (e : BEdge) (E E' : Nat → BEdge) (a a' : Mesh.Axis),
    runSteps S g gz B axis = .ok (E, a) ∧ diagonalSteps S.pointers gz B = some d ∧
    Dialog.commitEdge .unchecked (Dialog.ofBool (E n).toReverse) (E n) = some (.detectConflictEip, e) ∧ e.toMesh = false ∧
    runFromConflicts S g (B.withEdge n e) d axis = .ok (E', a') ∧ (E' n).toMesh = true := by
  have hg : (⟨1 / 2, 2, 1, 1⟩ : MeshParams).InRange := ⟨by norm_num, by norm_num⟩
  obtain ⟨E, a, hrun, -⟩ := C92_boxes S ⟨1 / 2, 2, 1, 1⟩ hg (by norm_num) ⟨1, 1, 1, 1⟩ bitten_built.1 bitten_built.2
    (fun p => (bitten_slanted p).1) bitten_boxes axis
  obtain ⟨E', a', hrun', hon⟩ := C92_boxes S ⟨1 / 2, 2, 1, 1⟩ hg (by norm_num) ⟨1, 1, 1, 1⟩ bitten_off_built.1
    bitten_off_built.2 (fun p => (bitten_slanted p).2) (B := bittenBoard.withEdge 3 bittenEdge) (c1 := bitten1) (c3 := bitten3)
    bitten_boxes axis
  obtain ⟨d, -, hd, hE, -⟩ := run_parts hrun
  obtain ⟨b, hb⟩ := hE 3
  have hd' : diagonalSteps S.pointers ⟨1, 1, 1, 1⟩ (bittenBoard.withEdge 3 bittenEdge) = some d := by
    rw [← hd]
    have hz : ∀ A p es es' angles zones, (es.filter fun e : BEdge => e.toMesh && decide (e.axis = .diagonal)).map BEdge.seg =
        (es'.filter fun e => e.toMesh && decide (e.axis = .diagonal)).map BEdge.seg →
        detectZones S.pointers A ⟨1, 1, 1, 1⟩ p es angles zones = detectZones S.pointers A ⟨1, 1, 1, 1⟩ p es' angles zones := by
      intro A p es es' angles zones h
      unfold detectZones
      simp only [h]
    have hd : ∀ p, (((bittenBoard.withEdge 3 bittenEdge).edges p).map (bittenBoard.withEdge 3 bittenEdge).E |>.filter
          fun e => e.toMesh && decide (e.axis = .diagonal)).map BEdge.seg =
        ((bittenBoard.edges p).map bittenBoard.E |>.filter fun e => e.toMesh && decide (e.axis = .diagonal)).map BEdge.seg := by
      intro p; cases p <;> decide +kernel
    unfold diagonalSteps detectAllZones
    simp only [hz _ _ _ _ _ _ (hd _)]
    rfl
  refine ⟨bittenBoard, ⟨1 / 2, 2, 1, 1⟩, ⟨1, 1, 1, 1⟩, d, 3, bittenEdge, E, E', a, a', hrun, hd, ?_, rfl, ?_, ?_⟩
  · rw [hb]
    cases b <;> decide +kernel
  · unfold runSteps at hrun'
    rw [hd'] at hrun'
    exact hrun'
  · refine (hon .xy 0 (by decide) (3, ⟨⟨6, 4⟩, ⟨6, 0⟩⟩) (by decide +kernel)).1 1 (by decide)
      ⟨by decide, by decide +kernel, 0, by decide +kernel, by decide +kernel, by decide +kernel, by decide +kernel⟩
      ⟨⟨6, 1⟩, ⟨6, 2⟩, by decide, ?_, ?_, ?_, ?_⟩ ?_
    · exact ⟨3 / 4, by norm_num, by norm_num, by norm_num, by norm_num⟩
    · exact ⟨1 / 2, by norm_num, by norm_num, by norm_num, by norm_num⟩
    · unfold WithinBox; decide +kernel
    · unfold WithinBox; decide +kernel
    · intro hc
      obtain ⟨b, hb, hhid, hw⟩ := hc ⟨6, 4⟩ ⟨0, by norm_num, by norm_num, by norm_num, by norm_num⟩
      have hb : b = 0 ∨ b = 1 := by simpa [Input.withEdge, bittenBoard] using hb
      rcases hb with rfl | rfl
      · exact hhid.1 rfl
      · revert hw; unfold WithinBox; decide +kernel

/-- The hypotheses of the theorems above: a run that ends, an edge hidden by nothing that keeps what it was given, and the
dialog accepted unchanged. -/
example (S : Sorters) (axis : Geom.Axis) : ∃ E a d, runSteps S ⟨1 / 2, 2, 1, 1⟩ ⟨1, 1, 1, 1⟩ bittenBoard axis = .ok (E, a) ∧
    (∀ n, runFromConflicts S ⟨1 / 2, 2, 1, 1⟩ (bittenBoard.withEdge n (E n)) d axis = .ok (E, a)) ∧
    (E 7).toMesh = true ∧ (∀ b ∈ bittenBoard.polygons .xy, ¬ Hides bittenBoard.P b 1) := by
  obtain ⟨E, a, hrun, -⟩ := C92_boxes S ⟨1 / 2, 2, 1, 1⟩ ⟨by norm_num, by norm_num⟩ (by norm_num) ⟨1, 1, 1, 1⟩ bitten_built.1
    bitten_built.2 (fun p => (bitten_slanted p).1) bitten_boxes axis
  obtain ⟨d, -, hd, -, -⟩ := run_parts hrun
  have hhid : ∀ b ∈ bittenBoard.polygons .xy, ¬ Hides bittenBoard.P b 1 := by
    intro b hb
    have hb : b = 0 ∨ b = 1 := by simpa [bittenBoard] using hb
    rcases hb with rfl | rfl
    · rintro ⟨-, h, -⟩; revert h; decide +kernel
    · rintro ⟨h, -⟩; exact h rfl
  refine ⟨E, a, d, hrun, fun n => ?_, ?_, hhid⟩
  · have hb : ∀ b, Dialog.toBool (Dialog.ofBool b) = some b := by decide
    obtain ⟨d', hd', h⟩ := C92_unchanged hrun n (e := E n) (by
      simp only [Dialog.commitEdge, hb, Option.bind_some, Option.map_some])
    rw [hd] at hd'
    rw [Option.some.inj hd']
    exact h
  · have hfrom : runFromConflicts S ⟨1 / 2, 2, 1, 1⟩ bittenBoard d axis = .ok (E, a) := by
      unfold runSteps at hrun
      rw [hd] at hrun
      exact hrun
    rw [C92_kept_partial bitten_built.1 hfrom (p := .xy) (n := 1) (by decide) hhid (e := (7, ⟨⟨9, 3⟩, ⟨9, 1⟩⟩))
      (by decide +kernel)]
    decide +kernel

end Verif.Board
