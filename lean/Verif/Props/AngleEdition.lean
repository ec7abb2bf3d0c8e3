import Verif.Props.ZoneEdition
import Verif.Props.History
import Verif.Lemmas.FuelRun

/-!
# C103: editing an angle
-/

namespace Verif.Board
open Verif.Mesh Verif.Geom
open Verif.Mesh.Spec (Increasing GapsAtMost)
open Spec Verif.Spec

/-- What is to mesh, with an angle set: `set_next_state` after `go_before` (`src/ui/qt/edit/edit_model_angle.cpp:39-41`,
`src/ui/qt/main_window.cpp:650-654`). -/
def withAngle (m : ToMesh) (n : Nat) (t : ViewAxis → Bool) : ToMesh := fun k va => if k = n then t va else m k va

/-- The run from the conflicts on reads of the angles to mesh only those along the axis. -/
theorem from_conflicts_congr (S : Sorters) (g : MeshParams) (B : Input) (L : List BAngle) (zones : Zones) {m m' : ToMesh}
    {axis : Geom.Axis} (h : ∀ k < L.length, ∀ va, spaceAxis (angleAt L k).plane va = axis → m' k va = m k va) :
    runFromConflicts S g B (L, zones, m') axis = runFromConflicts S g B (L, zones, m) axis := by
  have hp : ∀ plane, ((anglePolicies (angleAt L) plane m' (anglesOf L plane)).filterMap fun p => if p.1 = axis then some p.2 else none) =
      (anglePolicies (angleAt L) plane m (anglesOf L plane)).filterMap fun p => if p.1 = axis then some p.2 else none := by
    intro plane
    unfold anglePolicies
    rw [List.filterMap_flatMap, List.filterMap_flatMap]
    apply List.flatMap_congr
    intro k hk
    obtain ⟨hk1, hk2⟩ := mem_anglesOf.1 hk
    have e : ∀ va, axes plane va = axis → m' k va = m k va := by
      intro va hva
      refine h k hk1 va ?_
      rw [hk2]
      rw [← hva]
      cases plane <;> cases va <;> rfl
    simp only [List.map_cons, List.map_nil, List.filterMap_cons, List.filterMap_nil]
    by_cases h1 : axes plane .h = axis <;> by_cases h2 : axes plane .v = axis <;> simp [h1, h2, e]
  have hb : ∀ E, boardPolicies B E L m' (detectAllColinear B) axis = boardPolicies B E L m (detectAllColinear B) axis := by
    intro E
    unfold boardPolicies
    simp only [hp]
  unfold runFromConflicts
  simp only [hb]

/-- The steps from the conflicts on, with angles to mesh other than those a run chose. -/
theorem from_conflicts_spec (S : Sorters) {g : MeshParams} (hg : g.InRange) (hl : 0 ≤ g.proximityLimit) {gz : ZoneParams}
    {B : Input} (hz : 0 < gz.diagonalDmax ∨ ∀ p, slantedOf B p = []) (hB : Built B) (hA : LinesApart B) {axis : Geom.Axis}
    {E : Nat → BEdge} {a : Mesh.Axis} (h : runSteps S g gz B axis = .ok (E, a)) {L : List BAngle} {zones : Zones} {m₀ : ToMesh}
    (hd : diagonalSteps S.pointers gz B = some (L, zones, m₀)) (m : ToMesh) :
    ∃ c, runFromConflicts S g B (L, zones, m) axis = .ok (E, c) ∧ Increasing c.meshlines ∧
      GapsAtMost (max g.dmax gz.diagonalDmax) c.meshlines ∧
      (∀ y ∈ c.meshlines, ∃ lo hi, lo ≤ y ∧ y ≤ hi ∧ ∀ x, x = lo ∨ x = hi → Wanted B E axis x ∨
        ∃ n < L.length, ∃ va, spaceAxis (angleAt L n).plane va = axis ∧ m n va = true ∧ along va (angleAt L n).p = x) ∧
      (c.conflicts = [] → ∀ k, c.Enabled k → Wanted B E axis (c.get k).coord ∨
        ∃ n < L.length, ∃ va, spaceAxis (angleAt L n).plane va = axis ∧ m n va = true ∧ along va (angleAt L n).p = (c.get k).coord) ∧
      (∀ x, Wanted B E axis x → ∃ k, c.Enabled k ∧
        |(c.get k).coord - x| < tolerance + (c.conflicts.length : ℚ) * g.proximityLimit ∧
        ((∃ j, j ≠ k ∧ c.Enabled j) → ∃ y ∈ c.meshlines, |y - (c.get k).coord| ≤ max g.dmax gz.diagonalDmax)) ∧
      ∀ n < L.length, ∀ va, spaceAxis (angleAt L n).plane va = axis → m n va = true → ∃ k, c.Enabled k ∧
        |(c.get k).coord - along va (angleAt L n).p| ≤ (c.conflicts.length : ℚ) * g.proximityLimit ∧
        ((∃ j, j ≠ k ∧ c.Enabled j) → ∃ y ∈ c.meshlines, |y - (c.get k).coord| ≤ max g.dmax gz.diagonalDmax) := by
  classical
  obtain ⟨-, -, -, hsame, -⟩ := run_parts h
  obtain ⟨L1, zones1, m1, new, h1, d1, d2, d3, -, -⟩ := diagonal_spec hB S.pointers gz
  rw [hd] at h1
  obtain ⟨rfl, rfl, rfl⟩ : L = L1 ∧ zones = zones1 ∧ m₀ = m1 := by simpa using h1
  set lim : ℚ → ℚ := fun x => if ∃ z ∈ zones axis, Covers (angleAt L) z x then gz.diagonalDmax else g.dmax with hlim
  have hin : ∀ x, (∃ z ∈ zones axis, Covers (angleAt L) z x) → lim x = gz.diagonalDmax := fun x hx => by
    rw [hlim]; exact if_pos hx
  have hout : ∀ x, (¬ ∃ z ∈ zones axis, Covers (angleAt L) z x) → lim x = g.dmax := fun x hx => by
    rw [hlim]; exact if_neg hx
  have hpos : ∀ x, 0 < lim x ∧ lim x ≤ max g.dmax gz.diagonalDmax := by
    intro x
    by_cases hx : ∃ z ∈ zones axis, Covers (angleAt L) z x
    · rw [hin x hx]
      refine ⟨?_, le_max_right _ _⟩
      rcases hz with hz | hz
      · exact hz
      · obtain ⟨z, hzm, -⟩ := hx
        obtain ⟨p, va, -, hzm⟩ := (d2 _ _).1 hzm
        obtain ⟨lo, hi, -, hlt, hu⟩ := (d1 p va).spans z hzm
        obtain ⟨s, hs, -⟩ := hu lo le_rfl hlt.le
        rw [hz p] at hs
        cases hs
    · rw [hout x hx]; exact ⟨hg.dmax_pos, le_max_left _ _⟩
  clear_value lim
  have hE : ∀ p, ∀ a ∈ B.polygons p, ∀ e ∈ (B.P a).edges, (B.E e.1).seg = e.2 := fun p a ha e he => (hB.edge p a ha e he).1
  obtain ⟨asked, ha1, ha2, ha3, ha4, ha5⟩ := board_policies (planar hB hA) hsame L m axis
  obtain ⟨hf1, hf2, hf3, hf4⟩ := axis_policies g (B.fixed axis) asked ha2
  obtain ⟨b, c, hb, hc, hdm, h1, h2, h3, h4, -, h6, -⟩ :=
    finish_axis S.pointers S.intervals S.lines g _ hg hl hf1 lim hpos
  have hwant : ∀ q ∈ (axisPolicies g (B.fixed axis) asked).policies, q.enabled = true → Wanted B E axis q.coord ∨
      ∃ n < L.length, ∃ va, spaceAxis (angleAt L n).plane va = axis ∧ m n va = true ∧ along va (angleAt L n).p = q.coord := by
    intro q hq hen
    rcases hf2 q hq hen with h | ⟨q', hq', hen', e⟩
    · exact Or.inl (Or.inl h)
    · rw [← e]
      rcases ha3 q' hq' hen' with ⟨p, i, hi, hfi, j, hj, hm, coord, hfj, hnear⟩ | h
      · have heq := fixed_apart hA hi hj hfi hfj hnear
        rw [← heq] at hfj
        obtain ⟨a, ha, e, he, rfl⟩ := mem_edges.1 hj
        rw [hE p a ha e he] at hfj
        exact Or.inl (Or.inr ⟨p, a, ha, e, he, hm, hfj⟩)
      · exact Or.inr h
  have hget : ∀ {q}, q ∈ (axisPolicies g (B.fixed axis) asked).policies → q.enabled = true →
      ∃ i, (axisPolicies g (B.fixed axis) asked).Enabled i ∧ (axisPolicies g (B.fixed axis) asked).get i = q := by
    intro q hq hen
    obtain ⟨i, hi, rfl⟩ := List.getElem_of_mem hq
    have e : (axisPolicies g (B.fixed axis) asked).get i = (axisPolicies g (B.fixed axis) asked).policies[i] := by
      simp [Mesh.Axis.get, hi]
    exact ⟨i, ⟨_, List.getElem?_eq_getElem hi, hen⟩, e⟩
  have hat : ∀ {i}, (axisPolicies g (B.fixed axis) asked).Enabled i →
      ((axisPolicies g (B.fixed axis) asked).get i).enabled = true := by
    rintro i ⟨q, hq, hen⟩
    simp [Mesh.Axis.get, hq, hen]
  have hreach : ∀ z ∈ zones axis, (∃ lo hi, Reaches (angleAt L) z lo hi) ∧ z.intervals = [] ∧ z.dmax = gz.diagonalDmax := by
    intro z hz
    obtain ⟨p, va, hw, hz'⟩ := (d2 _ _).1 hz
    obtain ⟨e1, e2, e3, e4⟩ := d3 p va z hz'
    obtain ⟨lo, hi, hsp, -⟩ := (d1 p va).spans z hz'
    exact ⟨⟨lo, hi, p, va, fun a ha => (e4 a ha).2, e3.symm, hsp⟩, e2, e1⟩
  refine ⟨c, ?_, h1, h2, ?_, ?_, ?_, ?_⟩
  · have bind_of : ∀ {α β : Type} {o : Outcome α} {x : α} (f : α → Outcome β), o = .ok x → o.bind f = f x := by
      intro α β o x f h; rw [h]; rfl
    unfold runSteps at h
    obtain ⟨d, -, h⟩ := outcome_bind_ok h
    obtain ⟨conflicts, hcf, h⟩ := outcome_bind_ok h
    obtain ⟨E', hE', h⟩ := outcome_bind_ok h
    obtain ⟨asked', -, h⟩ := outcome_bind_ok h
    obtain ⟨a', -, h⟩ := outcome_bind_ok h
    obtain ⟨rfl, rfl⟩ := Prod.mk.inj (Outcome.ok.inj h)
    unfold runFromConflicts
    rw [bind_of _ hcf, bind_of _ hE']
    simp only
    rw [ha1]
    simp only [finishAxis, Outcome.orUb, Outcome.bind]
    rw [hb]
    simp only [Outcome.orDiverges, Outcome.bind]
    rw [zoneIntervals_spec _ hreach hdm hin hout]
    simp only
    rw [hc]
    rfl
  · intro y hy
    obtain ⟨i, j, hi, hj, h6, h7⟩ := h3 y hy
    refine ⟨_, _, h6, h7, ?_⟩
    rintro x (rfl | rfl)
    · exact hwant _ (Mesh.get_mem hi.lt) (hat hi)
    · exact hwant _ (Mesh.get_mem hj.lt) (hat hj)
  · intro hno k hk
    obtain ⟨e1, e2⟩ := h6 hno k
    rw [e2]
    exact hwant _ (Mesh.get_mem (e1.1 hk).lt) (hat (e1.1 hk))
  · intro x hx
    have hpol : ∃ q ∈ (axisPolicies g (B.fixed axis) asked).policies, q.enabled = true ∧ |q.coord - x| < tolerance := by
      rcases hx with hx | ⟨p, a, ha, e, he, hm, hfix⟩
      · exact hf4 x hx
      · have hmem : e.1 ∈ B.edges p := mem_edges.2 ⟨a, ha, e, he, rfl⟩
        have hside := hB.side p a ha e he (by cases hfix <;> tauto)
        rw [← hE p a ha e he] at hfix
        obtain ⟨q, hq, hen, -, -, -, hn⟩ := ha4 p e.1 hmem hm hside x hfix
        obtain ⟨q', hq', hen', e'⟩ := hf3 q hq hen
        exact ⟨q', hq', hen', by rw [e']; exact hn⟩
    obtain ⟨q, hq, hen, hn⟩ := hpol
    obtain ⟨i, hi, rfl⟩ := hget hq hen
    obtain ⟨k, hk, h5, h6⟩ := h4 i hi
    refine ⟨k, hk, ?_, h6⟩
    have := abs_sub_le (c.get k).coord ((axisPolicies g (B.fixed axis) asked).get i).coord x
    linarith
  · intro n hn va hva hm
    obtain ⟨q, hq, hen, e⟩ := ha5 n hn va hva hm
    obtain ⟨q', hq', hen', e'⟩ := hf3 q hq hen
    obtain ⟨i, hi, rfl⟩ := hget hq' hen'
    obtain ⟨k, hk, h5, h6⟩ := h4 i hi
    rw [e', e] at h5
    exact ⟨k, hk, h5, h6⟩

/-- C103: after a run, the dialog of an angle accepted with its two boxes ticked or not. The steps run again end with the same
edges. Along this axis

* if the box of the axis is as the run left it, or the angle is of a plane that has no such axis, the mesh is the same;
* lines increase, gaps are within the limits;
* if it is ticked, a policy is at the angle, up to merging, and a line near it;
* what else was wanted, and the other angles chosen, still have theirs;
* lines are between places wanted or angles chosen, this one only if it is ticked; and if no policies were merged, every policy is
at such a place.

What is missing: that undoing takes the angle back, see `C103_false`. -/
theorem C103_edited_partial (S : Sorters) {g : MeshParams} (hg : g.InRange) (hl : 0 ≤ g.proximityLimit) {gz : ZoneParams}
    {B : Input} (hz : 0 < gz.diagonalDmax ∨ ∀ p, slantedOf B p = []) (hB : Built B) (hA : LinesApart B) {axis : Geom.Axis}
    {E : Nat → BEdge} {a : Mesh.Axis} (h : runSteps S g gz B axis = .ok (E, a)) :
    ∃ L zones m, diagonalSteps S.pointers gz B = some (L, zones, m) ∧ ∀ n < L.length, ∀ bh bv : Bool, ∃ t c,
      Dialog.commitAngle (if bh then .checked else .unchecked) (if bv then .checked else .unchecked) = some (.detectConflictEip, t) ∧
      t .h = bh ∧ t .v = bv ∧ runFromConflicts S g B (L, zones, withAngle m n t) axis = .ok (E, c) ∧
      ((∀ va, spaceAxis (angleAt L n).plane va = axis → t va = m n va) → c = a) ∧
      Increasing c.meshlines ∧ GapsAtMost (max g.dmax gz.diagonalDmax) c.meshlines ∧
      (∀ va, spaceAxis (angleAt L n).plane va = axis → t va = true → ∃ k, c.Enabled k ∧
        |(c.get k).coord - along va (angleAt L n).p| ≤ (c.conflicts.length : ℚ) * g.proximityLimit ∧
        ((∃ j, j ≠ k ∧ c.Enabled j) → ∃ y ∈ c.meshlines, |y - (c.get k).coord| ≤ max g.dmax gz.diagonalDmax)) ∧
      (∀ x, (Wanted B E axis x ∨ ∃ n' < L.length, n' ≠ n ∧ ∃ va, spaceAxis (angleAt L n').plane va = axis ∧ m n' va = true ∧
        along va (angleAt L n').p = x) → ∃ k, c.Enabled k ∧
        |(c.get k).coord - x| < tolerance + (c.conflicts.length : ℚ) * g.proximityLimit) ∧
      (∀ y ∈ c.meshlines, ∃ lo hi, lo ≤ y ∧ y ≤ hi ∧ ∀ x, x = lo ∨ x = hi → Wanted B E axis x ∨
        ∃ n' < L.length, ∃ va, spaceAxis (angleAt L n').plane va = axis ∧ (n' ≠ n ∧ m n' va = true ∨ n' = n ∧ t va = true) ∧
          along va (angleAt L n').p = x) ∧
      (c.conflicts = [] → ∀ k, c.Enabled k → Wanted B E axis (c.get k).coord ∨
        ∃ n' < L.length, ∃ va, spaceAxis (angleAt L n').plane va = axis ∧ (n' ≠ n ∧ m n' va = true ∨ n' = n ∧ t va = true) ∧
          along va (angleAt L n').p = (c.get k).coord) := by
  obtain ⟨⟨L, zones, m⟩, asked, b, hd, -⟩ := run_split h
  refine ⟨L, zones, m, hd, fun n hn bh bv => ?_⟩
  set t : ViewAxis → Bool := fun va => match va with | .h => bh | .v => bv with ht
  have hboth : ∀ {n' va}, withAngle m n t n' va = true → n' ≠ n ∧ m n' va = true ∨ n' = n ∧ t va = true := by
    intro n' va hm
    unfold withAngle at hm
    by_cases e : n' = n
    · rw [if_pos e] at hm; exact Or.inr ⟨e, hm⟩
    · rw [if_neg e] at hm; exact Or.inl ⟨e, hm⟩
  obtain ⟨c, c1, c2, c3, c4, c5, c6, c7⟩ := from_conflicts_spec S hg hl hz hB hA h hd (withAngle m n t)
  obtain ⟨c0, e0, -⟩ := from_conflicts_spec S hg hl hz hB hA h hd m
  refine ⟨t, c, ?_, rfl, rfl, c1, ?_, c2, c3, ?_, ?_, ?_, ?_⟩
  · cases bh <;> cases bv <;> rfl
  · intro hsame
    rw [from_conflicts_congr S g B L zones (m := m) (fun k _ va hva => ?_)] at c1
    · unfold runSteps at h
      obtain ⟨d, hd', h⟩ := outcome_bind_ok h
      have hd' := orUb_ok hd'
      rw [hd] at hd'
      obtain rfl := Option.some.inj hd'
      have : runFromConflicts S g B (L, zones, m) axis = .ok (E, a) := h
      rw [c1] at this
      exact (Prod.mk.inj (Outcome.ok.inj this)).2
    · unfold withAngle
      by_cases e : k = n
      · subst e; rw [if_pos rfl, hsame va hva]
      · rw [if_neg e]
  · intro va hva hm
    exact c7 n hn va hva (by unfold withAngle; rw [if_pos rfl]; exact hm)
  · rintro x (hx | ⟨n', hn', hne, va, hva, hm, rfl⟩)
    · obtain ⟨k, k1, k2, -⟩ := c6 x hx
      exact ⟨k, k1, k2⟩
    · obtain ⟨k, k1, k2, -⟩ := c7 n' hn' va hva (by unfold withAngle; rw [if_neg hne]; exact hm)
      exact ⟨k, k1, lt_of_le_of_lt k2 (by norm_num [tolerance])⟩
  · intro y hy
    obtain ⟨lo, hi, l1, l2, hx⟩ := c4 y hy
    refine ⟨lo, hi, l1, l2, fun x e => ?_⟩
    rcases hx x e with h | ⟨n', hn', va, hva, hm, e⟩
    · exact Or.inl h
    · exact Or.inr ⟨n', hn', va, hva, hboth hm, e⟩
  · intro hno k hk
    rcases c5 hno k hk with h | ⟨n', hn', va, hva, hm, e⟩
    · exact Or.inl h
    · exact Or.inr ⟨n', hn', va, hva, hboth hm, e⟩

/-- The shape of `roofBoard` meshed, and meshed again with its angle at (6, 2) not taken along x. -/
theorem roof_angle : ∃ L zones m E a c, diagonalSteps plainSorters.pointers roofZones roofBoard = some (L, zones, m) ∧
    runSteps plainSorters roofParams roofZones roofBoard .x = .ok (E, a) ∧ L.length = 3 ∧ angleAt L 0 = ⟨.xy, ⟨6, 2⟩, 45⟩ ∧
    m 0 .h = true ∧ m 0 .v = true ∧
    runFromConflicts plainSorters roofParams roofBoard (L, zones, withAngle m 0 fun | .h => false | .v => true) .x = .ok (E, c) ∧
    a.enabledPointers.map (fun k => (a.get k).coord) = [6, 10, 0] ∧
    c.enabledPointers.map (fun k => (c.get k).coord) = [10, 0] ∧ (3 : ℚ) ∈ a.meshlines ∧ (3 : ℚ) ∉ c.meshlines := by
  have key : ((runToIntervalsFF 9 plainSorters roofParams roofZones roofBoard .x).bind fun r =>
      (runFromIntervalsF 60 plainSorters roofParams (angleAt r.1.1) (r.1.2.1 .x) r.2.2).bind fun a =>
      (runFromConflictsF 9 60 plainSorters roofParams roofBoard
        (r.1.1, r.1.2.1, withAngle r.1.2.2 0 fun | .h => false | .v => true) .x).map fun r' =>
        decide (r.1.1.length = 3 ∧ angleAt r.1.1 0 = ⟨.xy, ⟨6, 2⟩, 45⟩ ∧ r.1.2.2 0 .h = true ∧ r.1.2.2 0 .v = true ∧
          a.enabledPointers.map (fun k => (a.get k).coord) = [6, 10, 0] ∧
          r'.2.enabledPointers.map (fun k => (r'.2.get k).coord) = [10, 0] ∧ (3 : ℚ) ∈ a.meshlines ∧
          (3 : ℚ) ∉ r'.2.meshlines)) = .ok true := by
    decide +kernel
  obtain ⟨⟨⟨L, zones, m⟩, E, b⟩, h1, key⟩ := outcome_bind_ok key
  obtain ⟨a, h2, key⟩ := outcome_bind_ok key
  obtain ⟨⟨E', c⟩, h3, key⟩ := outcome_map_ok key
  obtain ⟨e1, e2, e3, e4, e5, e6, e7, e8⟩ := of_decide_eq_true key
  have h1 := runToIntervalsFF_computed h1
  have h3 := (runFromConflictsF_within ..).eq _ h3
  have hrun := run_join h1 (from_computed h2)
  obtain ⟨d', asked, b', hd, -, -, -, h1', -⟩ := run_split hrun
  rw [h1] at h1'
  have := Outcome.ok.inj h1'
  simp only [Prod.mk.injEq, true_and] at this
  obtain ⟨rfl, rfl⟩ := this
  obtain ⟨c', hc', -⟩ := from_conflicts_spec plainSorters (g := roofParams) ⟨by norm_num [roofParams], by norm_num [roofParams]⟩
    (by norm_num [roofParams]) (gz := roofZones) (Or.inl (by norm_num [roofZones])) roof_built.1 roof_built.2 hrun hd
    (withAngle m 0 fun | .h => false | .v => true)
  rw [h3] at hc'
  obtain ⟨rfl, rfl⟩ := Prod.mk.inj (Outcome.ok.inj hc')
  exact ⟨L, zones, m, E', a, c, hd, hrun, e1, e2, e3, e4, h3, e5, e6, e7, e8⟩

/-- A case of `C103_edited_partial`: the box of x unticked for an angle meshed along both axes. -/
example : ∃ L zones m E a, diagonalSteps plainSorters.pointers roofZones roofBoard = some (L, zones, m) ∧
    runSteps plainSorters roofParams roofZones roofBoard .x = .ok (E, a) ∧ roofParams.InRange ∧ 0 ≤ roofParams.proximityLimit ∧
    0 < roofZones.diagonalDmax ∧ Built roofBoard ∧ LinesApart roofBoard ∧ 0 < L.length ∧ m 0 .h ≠ false := by
  obtain ⟨L, zones, m, E, a, c, h1, h2, h3, -, h4, -⟩ := roof_angle
  exact ⟨L, zones, m, E, a, h1, h2, ⟨by norm_num [roofParams], by norm_num [roofParams]⟩, by norm_num [roofParams],
    by norm_num [roofZones], roof_built.1, roof_built.2, by omega, by rw [h4]; decide⟩

/-- Undoing the edit of an angle does not take it back. After a run, the angle at (6, 2) is set not to be meshed along x, and that
is undone: the angle, which is not registered, still reads what was undone, where the timepoint shows the state before. So the
steps run again from the conflicts on, nothing else being edited, give another mesh than the run. -/
theorem C103_false : ∃ (S : Sorters) (g : MeshParams) (gz : ZoneParams) (B : Input) (axis : Geom.Axis), g.InRange ∧
    0 ≤ g.proximityLimit ∧ 0 < gz.diagonalDmax ∧ Built B ∧ LinesApart B ∧ ∃ L zones m E a,
      diagonalSteps S.pointers gz B = some (L, zones, m) ∧ runSteps S g gz B axis = .ok (E, a) ∧ ∃ n < L.length,
      ∃ (w w' : World (Bool × Bool) String) (o : Originator (Bool × Bool)) (s : Bool × Bool), Reachable w ∧
        w.canUndo 1 = .ok true ∧ w.undo 1 = .ok w' ∧ w'.objs 0 = some o ∧
        shownAt w' o w'.care.current = some (m n .h, m n .v) ∧ reads w' 0 = .ok s ∧
        ∃ c, runFromConflicts S g B (L, zones, withAngle m n fun | .h => s.1 | .v => s.2) axis = .ok (E, c) ∧
          c.meshlines ≠ a.meshlines := by
  obtain ⟨L, zones, m, E, a, c, h1, h2, h3, -, h4, h5, h6, -, -, h7, h8⟩ := roof_angle
  let ops : List (Op (Bool × Bool) String) := [.createUnregistered 0 true (some 0) (true, true), .setNext 0 1 (false, true), .remember]
  have h : (legalRun? (World.fresh 0) ops).any (fun w => decide (w.canUndo 1 = .ok true) &&
      match w.undo 1 with
      | .ok w' => (w'.objs 0).any fun o => decide (shownAt w' o w'.care.current = some (true, true) ∧ reads w' 0 = .ok (false, true))
      | .error _ => false) = true := by decide +kernel
  obtain ⟨w, hw, hp⟩ := (Option.any_eq_true _ _).mp h
  simp only [Bool.and_eq_true, decide_eq_true_eq] at hp
  obtain ⟨hc, hp⟩ := hp
  split at hp
  · rename_i w' hu
    obtain ⟨o, ho, hp⟩ := (Option.any_eq_true _ _).mp hp
    simp only [decide_eq_true_eq] at hp
    refine ⟨plainSorters, roofParams, roofZones, roofBoard, .x, ⟨by norm_num [roofParams], by norm_num [roofParams]⟩,
      by norm_num [roofParams], by norm_num [roofZones], roof_built.1, roof_built.2, L, zones, m, E, a, h1, h2, 0, by omega,
      w, w', o, (false, true), (legalRun?_sound hw).reachable (.fresh 0), hc, hu, ho, by rw [h4, h5]; exact hp.1, hp.2, c, h6, ?_⟩
    intro e
    rw [e] at h8
    exact h8 h7
  · cases hp

end Verif.Board
