import Verif.Props.RunKinds
import Verif.Props.Dialog
import Verif.Lemmas.Hang
import Verif.Lemmas.Fuel

/-!
# C93: editing a policy
-/

namespace Verif.Mesh
open Spec

/-- Two enabled policies at the same place, sorted: two consecutive ones are at the same place. -/
theorem same_consecutive {key : Nat → ℚ} : ∀ (o : List Nat), o.Pairwise (fun i j => key i ≤ key j) → ∀ i ∈ o, ∀ j ∈ o, i ≠ j →
    key i = key j → ∃ x y, (x, y) ∈ consecutive o ∧ key x = key y := by
  intro o
  induction o with
  | nil => intro _ i hi; cases hi
  | cons x o ih =>
    intro hp i hi j hj hne he
    cases o with
    | nil =>
      rw [List.mem_singleton] at hi hj
      exact absurd (hi.trans hj.symm) hne
    | cons y o =>
      obtain ⟨h1, h2⟩ := List.pairwise_cons.1 hp
      have hy : ∀ k ∈ y :: o, key y ≤ key k := by
        intro k hk
        rcases List.mem_cons.1 hk with rfl | hk
        · exact le_rfl
        · exact (List.pairwise_cons.1 h2).1 k hk
      have hin : (x, y) ∈ consecutive (x :: y :: o) := by simp [consecutive]
      have first : ∀ k ∈ y :: o, key x = key k → key x = key y := fun k hk e =>
        le_antisymm (h1 y (by simp)) (e ▸ hy k hk)
      rcases List.mem_cons.1 hi with rfl | hi'
      · rcases List.mem_cons.1 hj with rfl | hj'
        · exact absurd rfl hne
        · exact ⟨_, _, hin, first j hj' he⟩
      · rcases List.mem_cons.1 hj with rfl | hj'
        · exact ⟨_, _, hin, first i hi' he.symm⟩
        · obtain ⟨u, w, hu, e⟩ := ih h2 i hi' j hj' hne he
          exact ⟨u, w, by simp only [consecutive, List.tail_cons, List.zip_cons_cons, List.mem_cons] at hu ⊢; exact Or.inr hu, e⟩

theorem mem_consecutive {o : List Nat} {k j : Nat} (hk : k ∈ o) (hj : j ∈ o) (hne : k ≠ j) :
    ∃ p ∈ consecutive o, k = p.1 ∨ k = p.2 := by
  induction o with
  | nil => cases hk
  | cons x o ih =>
    cases o with
    | nil =>
      rw [List.mem_singleton] at hk hj
      exact absurd (hk.trans hj.symm) hne
    | cons y o =>
      have hin : (x, y) ∈ consecutive (x :: y :: o) := by simp [consecutive]
      rcases List.mem_cons.1 hk with rfl | hk'
      · exact ⟨_, hin, Or.inl rfl⟩
      · by_cases hky : k = y
        · exact ⟨_, hin, Or.inr hky⟩
        · have hjo : j ∈ y :: o ∨ j = x := (List.mem_cons.1 hj).symm
          have hk'' : k ∈ o := (List.mem_cons.1 hk').resolve_left hky
          rcases Classical.em (j ∈ y :: o) with hjo | hjo
          · obtain ⟨p, hp, e⟩ := ih hk' hjo
            exact ⟨p, by simp only [consecutive, List.tail_cons, List.zip_cons_cons, List.mem_cons] at hp ⊢; exact Or.inr hp, e⟩
          · clear ih hjo hj
            obtain ⟨n, hn, rfl⟩ := List.getElem_of_mem hk''
            refine ⟨((y :: o)[n]'(by simp; omega), o[n]), ?_, Or.inr rfl⟩
            rw [show consecutive (x :: y :: o) = (x, y) :: consecutive (y :: o) from rfl]
            refine List.mem_cons_of_mem _ ?_
            rw [show consecutive (y :: o) = (y :: o).zip o from rfl]
            exact List.mem_of_getElem (i := n) (h := by simp; omega) (by simp)

/-- An enabled policy, not alone, with no positive `d` or at the place of another one: the meshing does not end. -/
theorem mesh_stuck (S : Sorter Nat) (S' : Sorter Interval) (T : Sorter ℚ) {g : MeshParams} (hg : g.InRange) {a : Axis}
    (hi : a.intervals = []) {lim : ℚ → ℚ} (hlim : ∀ m, 0 < lim m) {k j : Nat} (hk : a.Enabled k) (hj : a.Enabled j) (hne : k ≠ j)
    (h : (a.get k).d ≤ 0 ∨ (a.get k).coord = (a.get j).coord) :
    Axis.mesh S' T { a.detectIntervals S g with
      intervals := (a.detectIntervals S g).intervals.map fun i => { i with dmax := lim i.m } } = none := by
  set o := S.sort (fun i => (a.get i).coord) a.enabledPointers with ho
  have hp := S.perm (fun i => (a.get i).coord) a.enabledPointers
  have hsort := S.sorted (fun i => (a.get i).coord) a.enabledPointers
  rw [← ho] at hp hsort
  have hko : ∀ {n}, a.Enabled n → n ∈ o := fun h => hp.mem_iff.2 (mem_enabledPointers.2 h)
  obtain ⟨hle, hsame⟩ := makeIntervals_le g o a.get
  obtain ⟨hpairs, hpar⟩ := makeIntervals_pairs g o a.get
  have hint : (a.detectIntervals S g).intervals = (makeIntervals g a.get o).2 := by
    simp only [Axis.detectIntervals, hi, List.nil_append, ← ho]
  have hget : ∀ n, n < a.policies.length → (a.detectIntervals S g).get n = (makeIntervals g a.get o).1 n := by
    intro n hn
    have : (a.detectIntervals S g).get n = (a.withPolicies (makeIntervals g a.get o).1).get n := rfl
    rw [this, withPolicies_get hn]
  have main : ∃ n, a.Enabled n ∧ ((makeIntervals g a.get o).1 n).d ≤ 0 ∧ ∃ m, a.Enabled m ∧ n ≠ m := by
    rcases h with h | h
    · exact ⟨k, hk, (hle k).trans h, j, hj, hne⟩
    · obtain ⟨x, y, hxy, e⟩ := same_consecutive o hsort k (hko hk) j (hko hj) hne h
      have hx : x ∈ o := (List.of_mem_zip hxy).1
      have hxe : a.Enabled x := mem_enabledPointers.1 (hp.mem_iff.1 hx)
      refine ⟨x, hxe, hsame x y hxy e, ?_⟩
      by_cases hxk : x = k
      · exact ⟨j, hj, hxk ▸ hne⟩
      · exact ⟨k, hk, hxk⟩
  obtain ⟨n, hn, hd, m, hm, hnm⟩ := main
  obtain ⟨q, hq, hqn⟩ := mem_consecutive (hko hn) (hko hm) hnm
  rw [← hpairs, List.mem_map] at hq
  obtain ⟨i, hi', rfl⟩ := hq
  refine mesh_hang S' T ?_ (k := n) ?_ ⟨{ i with dmax := lim i.m }, ?_, hqn⟩
  · intro i hi
    obtain ⟨i0, hi0, rfl⟩ := List.mem_map.1 hi
    rw [hint] at hi0
    obtain ⟨-, -, -, h1, h2⟩ := hpar i0 hi0
    have := hg.smoothness
    exact ⟨(hlim _).le, by simp only; rw [h1]; linarith, by simp only; rw [h2]; linarith⟩
  · have : ({ a.detectIntervals S g with
      intervals := (a.detectIntervals S g).intervals.map fun i => { i with dmax := lim i.m } } : Axis).get n =
        (a.detectIntervals S g).get n := rfl
    rw [this, hget n hn.lt]
    exact hd
  · simp only [hint]
    exact List.mem_map_of_mem hi'

/-- The lines of an axis the policies of which are apart and have a positive `d`. -/
theorem mesh_lines (S : Sorter Nat) (S' : Sorter Interval) (T : Sorter ℚ) {g : MeshParams} (hg : g.InRange) {b : Axis}
    (hbc : b.Coherent) (hsep : b.Separated) (hbd : b.PositiveD) (hbi : b.intervals = []) (hbm : b.meshlines = []) {D : ℚ}
    (lim : ℚ → ℚ) (hlim : ∀ m, 0 < lim m ∧ lim m ≤ D) :
    ∃ c, (Axis.mesh S' T { b.detectIntervals S g with
        intervals := (b.detectIntervals S g).intervals.map fun i => { i with dmax := lim i.m } }) = some c ∧
      Increasing c.meshlines ∧ GapsAtMost D c.meshlines ∧
      (∀ k, (c.Enabled k ↔ b.Enabled k) ∧ ∃ d, c.get k = { b.get k with d := d }) ∧
      (∀ k, b.Enabled k → (b.get k).kind = .oneline → (b.get k).coord ∈ c.meshlines) ∧
      (∀ k, b.Enabled k → (b.get k).kind ≠ .oneline → (b.get k).coord ∉ c.meshlines ∧
        ((∃ j, b.Enabled j ∧ (b.get k).coord < (b.get j).coord) → ∃ d, 0 < d ∧ d ≤ D ∧ d ≤ (b.get k).d ∧
          NextAbove c.meshlines (b.get k).coord ((1 - (b.get k).lowShare) * d)) ∧
        ((∃ j, b.Enabled j ∧ (b.get j).coord < (b.get k).coord) → ∃ d, 0 < d ∧ d ≤ D ∧ d ≤ (b.get k).d ∧
          NextBelow c.meshlines (b.get k).coord ((b.get k).lowShare * d))) ∧
      ∀ y ∈ c.meshlines, (∃ k, b.Enabled k ∧ (b.get k).kind = .oneline ∧ y = (b.get k).coord) ∨
        ∃ i j, b.Neighbours i j ∧ (b.get i).coord ≤ y ∧ y ≤ (b.get j).coord := by
  have hD : 0 < D := lt_of_lt_of_le (hlim 0).1 (hlim 0).2
  obtain ⟨o, c, ls, hperm, hchain, hc, hf2, hw, hst, honly, -⟩ := mesh_zoned S S' T g b hg hbc hsep hbd
    hbi hbm hD (ivs := (b.detectIntervals S g).intervals.map fun i => { i with dmax := lim i.m }) (by
      unfold Relimited
      refine List.forall₂_map_right_iff.2 (List.forall₂_same.2 fun i _ => ⟨lim i.m, rfl, hlim i.m⟩))
  have hlc : c.policies.length = b.policies.length := by
    obtain ⟨ps, -, e⟩ := mesh_onlyD hc
    rw [e]
    simp [Axis.withPolicies, Axis.detectIntervals, Axis.pointers]
  refine ⟨c, hc, hst.imp fun _ _ h => h.1, hst.imp fun _ _ h => h.2, ?_, woven_oneline hperm hf2 hw, ?_, ?_⟩
  · intro k
    obtain ⟨d, e⟩ := honly k
    refine ⟨?_, d, e⟩
    rw [enabled_iff, enabled_iff, hlc, e]
  · exact woven_around hbc hperm hchain hf2 hw
  · intro y hy
    rcases woven_between hperm hchain hf2 hw y hy with h | ⟨i, j, hi, hj, h1, h2, h3, h4⟩
    · exact Or.inl h
    · exact Or.inr ⟨i, j, ⟨hi, hj, h1, h2⟩, h3, h4⟩

/-- What merging leaves on an axis with the policies asked for. -/
theorem merged_ready (S : Sorter Nat) {g : MeshParams} (hg : g.InRange) (hl : 0 ≤ g.proximityLimit) {a b : Axis} (hf : Fresh g a)
    (h : a.solveTooClose S g = some b) :
    b.Coherent ∧ b.Separated ∧ b.PositiveD ∧ b.intervals = [] ∧ b.meshlines = [] := by
  let P : Axis → Prop := fun x => x.PositiveD ∧ x.Coherent ∧ x.intervals = [] ∧ x.meshlines = []
  have hstep : ∀ x i j y, x.Unmerged → P x → x.detectClosest S g.proximityLimit = some (i, j) →
      x.addTooClose i j = some y → P (y.solveConflict g i j) := by
    intro x i j y _ ⟨h1, h2, h3, h4⟩ hdc hy
    obtain ⟨hi, hj, -, -⟩ := detectClosest_some hdc
    obtain ⟨-, -, -, e1, e2⟩ := addTooClose_some hi hj hy
    refine ⟨d_step hg.dmax_pos hi hj h1 hy, coherent_step h2 hy, ?_, ?_⟩
    · rcases solveConflict_cases g y i j with he | ⟨_, _, _, _, he⟩ <;> rw [he] <;> exact e1.trans h3
    · rcases solveConflict_cases g y i j with he | ⟨_, _, _, _, he⟩ <;> rw [he] <;> exact e2.trans h4
  obtain ⟨b', hb, -, ⟨hbd, hbc, hbi, hbm⟩, hnone⟩ := solveTooClose_induct S g P hstep _ a le_rfl hf.unmerged
    ⟨hf.positive hg, hf.coherent, hf.intervals, hf.meshlines⟩
  rw [h] at hb
  obtain rfl := Option.some.inj hb
  refine ⟨hbc, ?_, hbd, hbi, hbm⟩
  intro i j hi hj hne h
  have := detectClosest_none hnone i j hi hj hne
  rw [h, sub_self, abs_zero] at this
  linarith

theorem set_enabled {a : Axis} {k j : Nat} {p : Policy} (hk : k < a.policies.length) :
    (a.set k p).Enabled j ↔ if j = k then p.enabled = true else a.Enabled j := by
  rw [enabled_iff, get_set hk, enabled_iff]
  have : (a.set k p).policies.length = a.policies.length := by simp [Axis.set]
  rw [this]
  split_ifs with e
  · subst e; simp [hk]
  · rfl

end Verif.Mesh

namespace Verif.Board
open Verif.Mesh Verif.Mesh.Spec Verif.Geom Spec Verif.Dialog

/-- A run in two parts. -/
theorem run_split {S : Sorters} {g : MeshParams} {gz : ZoneParams} {B : Input} {axis : Geom.Axis} {E : Nat → BEdge}
    {a : Mesh.Axis} (h : runSteps S g gz B axis = .ok (E, a)) :
    ∃ d asked b, diagonalSteps S.pointers gz B = some d ∧ SameEdges B.E E ∧
      boardPolicies B E d.1 d.2.2 (detectAllColinear B) axis = some asked ∧
      (axisPolicies g (B.fixed axis) asked).solveTooClose S.pointers g = some b ∧
      runToIntervals S g gz B axis = .ok (d, E, b) ∧ runFromIntervals S g (angleAt d.1) (d.2.1 axis) b = .ok a := by
  have bind_of : ∀ {α β : Type} {o : Outcome α} {x : α} (f : α → Outcome β), o = .ok x → o.bind f = f x := by
    intro α β o x f h; rw [h]; rfl
  obtain ⟨d', asked', hd', hE, hb', -⟩ := run_parts h
  unfold runSteps at h
  obtain ⟨d, hd, h⟩ := outcome_bind_ok h
  obtain ⟨conflicts, hc, h⟩ := outcome_bind_ok h
  obtain ⟨E', hE', h⟩ := outcome_bind_ok h
  obtain ⟨asked, hasked, h⟩ := outcome_bind_ok h
  obtain ⟨a', ha, h⟩ := outcome_bind_ok h
  obtain ⟨rfl, rfl⟩ := Prod.mk.inj (Outcome.ok.inj h)
  unfold finishAxis at ha
  obtain ⟨b, hb, ha⟩ := outcome_bind_ok ha
  refine ⟨d, asked, b, orUb_ok hd, hE, orUb_ok hasked, orDiverges_ok hb, ?_, ha⟩
  unfold runToIntervals
  rw [bind_of _ hd, bind_of _ hc, bind_of _ hE', bind_of _ hasked, Outcome.map, bind_of _ hb]

/-- What a run leaves before the intervals are looked for, and the intervals found from an axis with other policies. -/
theorem run_zoned (S : Sorters) {g : MeshParams} (hg : g.InRange) (hl : 0 ≤ g.proximityLimit) {gz : ZoneParams} {B : Input}
    (hz : 0 < gz.diagonalDmax ∨ ∀ p, slantedOf B p = []) (hB : Built B) (hA : LinesApart B) {axis : Geom.Axis} {E : Nat → BEdge}
    {a : Mesh.Axis} (h : runSteps S g gz B axis = .ok (E, a)) :
    ∃ d b, ∃ lim : ℚ → ℚ, runToIntervals S g gz B axis = .ok (d, E, b) ∧
      runFromIntervals S g (angleAt d.1) (d.2.1 axis) b = .ok a ∧
      (b.Coherent ∧ b.Separated ∧ b.PositiveD ∧ b.intervals = [] ∧ b.meshlines = []) ∧
      (∀ m, 0 < lim m ∧ (lim m = g.dmax ∨ lim m = gz.diagonalDmax ∧ ∃ p, slantedOf B p ≠ [])) ∧
      ∀ x : Mesh.Axis, x.intervals = [] → zoneIntervals (angleAt d.1) (d.2.1 axis) (x.detectIntervals S.pointers g) =
        some { x.detectIntervals S.pointers g with
          intervals := (x.detectIntervals S.pointers g).intervals.map fun i => { i with dmax := lim i.m } } := by
  classical
  obtain ⟨d, asked, b, hd, hE, hasked, hb, h1, h2⟩ := run_split h
  obtain ⟨L, zones, m, new, hdiag, d1, d2, d3, d4, d5⟩ := diagonal_spec hB S.pointers gz
  rw [hd] at hdiag
  obtain rfl := Option.some.inj hdiag
  obtain ⟨asked', ha1, ha2, -⟩ := board_policies (planar hB hA) hE L m axis
  rw [hasked] at ha1
  obtain rfl := Option.some.inj ha1
  obtain ⟨hf, -⟩ := axis_policies g (B.fixed axis) asked ha2
  set lim : ℚ → ℚ := fun x => if ∃ z ∈ zones axis, Covers (angleAt L) z x then gz.diagonalDmax else g.dmax with hlim
  have hin : ∀ x, (∃ z ∈ zones axis, Covers (angleAt L) z x) → lim x = gz.diagonalDmax := fun x hx => by
    rw [hlim]; exact if_pos hx
  have hout : ∀ x, (¬ ∃ z ∈ zones axis, Covers (angleAt L) z x) → lim x = g.dmax := fun x hx => by
    rw [hlim]; exact if_neg hx
  have hsl : ∀ z ∈ zones axis, ∃ p, slantedOf B p ≠ [] := by
    intro z hzm
    obtain ⟨p, va, -, hzm⟩ := (d2 _ _).1 hzm
    obtain ⟨lo, hi, -, hlt, hu⟩ := (d1 p va).spans z hzm
    obtain ⟨s, hs, -⟩ := hu lo le_rfl hlt.le
    refine ⟨p, fun e => ?_⟩
    rw [e] at hs
    cases hs
  have hreach : ∀ z ∈ zones axis, (∃ lo hi, Reaches (angleAt L) z lo hi) ∧ z.intervals = [] ∧ z.dmax = gz.diagonalDmax := by
    intro z hz
    obtain ⟨p, va, hw, hz'⟩ := (d2 _ _).1 hz
    obtain ⟨e1, e2, e3, e4⟩ := d3 p va z hz'
    obtain ⟨lo, hi, hsp, -⟩ := (d1 p va).spans z hz'
    exact ⟨⟨lo, hi, p, va, fun a ha => (e4 a ha).2, e3.symm, hsp⟩, e2, e1⟩
  refine ⟨_, b, lim, h1, h2, merged_ready S.pointers hg hl hf hb, ?_, ?_⟩
  · intro x
    by_cases hx : ∃ z ∈ zones axis, Covers (angleAt L) z x
    · rw [hin x hx]
      obtain ⟨z, hzm, -⟩ := hx
      obtain ⟨p, hp⟩ := hsl z hzm
      exact ⟨hz.resolve_right fun h => hp (h p), Or.inr ⟨rfl, p, hp⟩⟩
    · rw [hout x hx]; exact ⟨hg.dmax_pos, Or.inl rfl⟩
  · intro x hx
    have hdm : ∀ i ∈ (x.detectIntervals S.pointers g).intervals, i.dmax = g.dmax := by
      intro i hi
      simp only [Mesh.Axis.detectIntervals, hx, List.nil_append] at hi
      exact ((makeIntervals_pairs g _ _).2 i hi).1
    exact zoneIntervals_spec _ hreach hdm hin hout

/-- What a run leaves before the intervals are looked for, and how it goes on from an axis with other policies. -/
theorem run_ready (S : Sorters) {g : MeshParams} (hg : g.InRange) (hl : 0 ≤ g.proximityLimit) {gz : ZoneParams} {B : Input}
    (hz : 0 < gz.diagonalDmax ∨ ∀ p, slantedOf B p = []) (hB : Built B) (hA : LinesApart B) {axis : Geom.Axis} {E : Nat → BEdge}
    {a : Mesh.Axis} (h : runSteps S g gz B axis = .ok (E, a)) :
    ∃ d b, ∃ lim : ℚ → ℚ, runToIntervals S g gz B axis = .ok (d, E, b) ∧
      runFromIntervals S g (angleAt d.1) (d.2.1 axis) b = .ok a ∧
      (b.Coherent ∧ b.Separated ∧ b.PositiveD ∧ b.intervals = [] ∧ b.meshlines = []) ∧
      (∀ m, 0 < lim m ∧ (lim m = g.dmax ∨ lim m = gz.diagonalDmax ∧ ∃ p, slantedOf B p ≠ [])) ∧
      ∀ x : Mesh.Axis, x.intervals = [] → runFromIntervals S g (angleAt d.1) (d.2.1 axis) x =
        Outcome.orDiverges (Mesh.Axis.mesh S.intervals S.lines { x.detectIntervals S.pointers g with
          intervals := (x.detectIntervals S.pointers g).intervals.map fun i => { i with dmax := lim i.m } }) := by
  obtain ⟨d, b, lim, h1, h2, h3, h4, h5⟩ := run_zoned S hg hl hz hB hA h
  refine ⟨d, b, lim, h1, h2, h3, h4, fun x hx => ?_⟩
  unfold runFromIntervals
  rw [h5 x hx]
  rfl

/-- After a run, the dialog of a policy accepted with a number as distance, a box that is checked or not, and a kind that goes
with the normal. The steps from the detection of intervals on are run again.

They never end when the policy is enabled, not alone, and its distance is not positive or another enabled policy is at the
same place. They end when it is disabled, or its distance positive and no other enabled policy at the same place: the other
policies are as before but for their distances, this one is as asked for, lines increase with no gap above the limits, those
that ask for one line have it, and the edited one has its lines at its share of cells not larger than the distance asked for. -/
theorem C93_edited_partial (S : Sorters) {g : MeshParams} (hg : g.InRange) (hl : 0 ≤ g.proximityLimit) {gz : ZoneParams}
    {B : Input} (hz : 0 < gz.diagonalDmax ∨ ∀ p, slantedOf B p = []) (hB : Built B) (hA : LinesApart B) {axis : Geom.Axis}
    {E : Nat → BEdge} {a : Mesh.Axis} (h : runSteps S g gz B axis = .ok (E, a)) :
    ∃ d b, runToIntervals S g gz B axis = .ok (d, E, b) ∧ ∀ k < b.policies.length, ∀ (r : PolicyRows) (x : ℚ),
      Spec.Number r.d x → r.enabled ≠ .partially → (r.kind = .thirds ↔ r.normal ≠ .none) →
      ∃ p, r.commit (a.get k) = some (.detectIntervals, p) ∧
      (r.enabled = .checked → (∃ j, j ≠ k ∧ b.Enabled j) →
        (x ≤ 0 ∨ ∃ j, j ≠ k ∧ b.Enabled j ∧ (b.get j).coord = (b.get k).coord) →
        runFromIntervals S g (angleAt d.1) (d.2.1 axis) (b.set k p) = .diverges) ∧
      (r.enabled = .unchecked ∨ 0 < x ∧ (∀ j, j ≠ k → b.Enabled j → (b.get j).coord ≠ (b.get k).coord) →
        ∃ c, runFromIntervals S g (angleAt d.1) (d.2.1 axis) (b.set k p) = .ok c ∧ Increasing c.meshlines ∧
          (∀ D, g.dmax ≤ D → ((∀ p, slantedOf B p = []) ∨ gz.diagonalDmax ≤ D) → GapsAtMost D c.meshlines) ∧
          (∀ j, j ≠ k → (c.Enabled j ↔ b.Enabled j) ∧ ∃ d, c.get j = { b.get j with d := d }) ∧
          (c.Enabled k ↔ r.enabled = .checked) ∧
          ((c.get k).coord = (b.get k).coord ∧ (c.get k).kind = r.kind ∧ (c.get k).normal = r.normal) ∧
          (∀ j, c.Enabled j → (c.get j).kind = .oneline → (c.get j).coord ∈ c.meshlines) ∧
          (∀ y ∈ c.meshlines, (∃ j, c.Enabled j ∧ (c.get j).kind = .oneline ∧ y = (c.get j).coord) ∨
            ∃ i j, c.Neighbours i j ∧ (c.get i).coord ≤ y ∧ y ≤ (c.get j).coord) ∧
          (r.enabled = .checked → r.kind ≠ .oneline → (c.get k).coord ∉ c.meshlines ∧
            ((∃ j, c.Enabled j ∧ (c.get k).coord < (c.get j).coord) → ∃ d, 0 < d ∧ d ≤ x ∧
              NextAbove c.meshlines (c.get k).coord ((1 - (c.get k).lowShare) * d)) ∧
            ((∃ j, c.Enabled j ∧ (c.get j).coord < (c.get k).coord) → ∃ d, 0 < d ∧ d ≤ x ∧
              NextBelow c.meshlines (c.get k).coord ((c.get k).lowShare * d)))) := by
  obtain ⟨d, b, lim, h1, h2, ⟨hbc, hbs, hbd, hbi, hbm⟩, hlim, hrun⟩ := run_ready S hg hl hz hB hA h
  refine ⟨d, b, h1, ?_⟩
  intro k hk r x hx hr hkn
  -- the state of the policy at the end of the run
  have hcoord : (a.get k).coord = (b.get k).coord := by
    obtain ⟨b', asked', b'', -, -, -, -, h1', h2'⟩ := run_split h
    rw [h1] at h1'
    obtain ⟨rfl, -, rfl⟩ : d = b' ∧ E = E ∧ b = b'' := by
      have := Outcome.ok.inj h1'
      simp only [Prod.mk.injEq] at this
      exact ⟨this.1, rfl, this.2.2⟩
    rw [hrun b hbi] at h2
    obtain ⟨ps, honly, hpol⟩ := Mesh.mesh_onlyD (orDiverges_ok h2)
    obtain ⟨-, d1, g1⟩ := withPolicies_same honly hpol k
    obtain ⟨-, d2, g2⟩ := withPolicies_same (makeIntervals_onlyD g (S.pointers.sort (fun i => (b.get i).coord) b.enabledPointers)
      b.get) (x := b.detectIntervals S.pointers g) rfl k
    rw [g1]
    show ((b.detectIntervals S.pointers g).get k).coord = _
    rw [g2]
  set p : Mesh.Policy := { a.get k with kind := r.kind, normal := r.normal, enabled := decide (r.enabled = .checked), d := x } with hp
  have hcommit : r.commit (a.get k) = some (.detectIntervals, p) := by
    refine ((C91_accepted.2.2.1) r (a.get k) _ p).2 ⟨rfl, rfl, rfl, hkn, ?_, hx, rfl⟩
    rw [hp]
    cases hre : r.enabled
    · simp
    · exact absurd hre hr
    · simp
  have hpen : p.enabled = true ↔ r.enabled = .checked := by rw [hp]; simp
  have hpc : p.coord = (b.get k).coord := hcoord
  have hpd : p.d = x := rfl
  have hpk : p.kind = r.kind := rfl
  have hpn : p.normal = r.normal := rfl
  clear_value p
  refine ⟨p, hcommit, ?_, ?_⟩
  · rintro hch ⟨j0, hj0, hj0e⟩ hbad
    rw [hrun (b.set k p) hbi]
    have hen : (b.set k p).Enabled k := by rw [set_enabled hk, if_pos rfl]; exact hpen.2 hch
    have hoth : ∀ {j}, j ≠ k → b.Enabled j → (b.set k p).Enabled j := fun hj he => by rw [set_enabled hk, if_neg hj]; exact he
    have hgk : (b.set k p).get k = p := by rw [get_set hk, if_pos rfl]
    have hgj : ∀ {j}, j ≠ k → (b.set k p).get j = b.get j := fun hj => by rw [get_set hk, if_neg hj]
    have : Mesh.Axis.mesh S.intervals S.lines { (b.set k p).detectIntervals S.pointers g with
          intervals := ((b.set k p).detectIntervals S.pointers g).intervals.map fun i => { i with dmax := lim i.m } } = none := by
      rcases hbad with hbad | ⟨j, hj, hje, hjc⟩
      · exact mesh_stuck S.pointers S.intervals S.lines hg (a := b.set k p) hbi (fun m => (hlim m).1) hen (hoth hj0 hj0e) hj0.symm
          (Or.inl (by rw [hgk, hpd]; exact hbad))
      · exact mesh_stuck S.pointers S.intervals S.lines hg (a := b.set k p) hbi (fun m => (hlim m).1) hen (hoth hj hje) hj.symm
          (Or.inr (by rw [hgk, hgj hj, hpc, hjc]))
    rw [this]
    rfl
  · intro hgood
    have hen : ∀ j, (b.set k p).Enabled j ↔ if j = k then r.enabled = .checked else b.Enabled j := fun j => by
      rw [set_enabled hk, hpen]
    have hgk : (b.set k p).get k = p := by rw [get_set hk, if_pos rfl]
    have hgj : ∀ {j}, j ≠ k → (b.set k p).get j = b.get j := fun hj => by rw [get_set hk, if_neg hj]
    have hpcoh : p.Coherent := by unfold Policy.Coherent; rw [hpk, hpn]; exact hkn
    have hpos : (b.set k p).PositiveD := by
      intro j hj
      rw [hen] at hj
      by_cases hjk : j = k
      · subst hjk
        rw [if_pos rfl] at hj
        rw [hgk, hpd]
        rcases hgood with h | h
        · rw [hj] at h; cases h
        · exact h.1
      · rw [if_neg hjk] at hj
        rw [hgj hjk]; exact hbd j hj
    have hsep : (b.set k p).Separated := by
      intro i j hi hj hne
      rw [hen] at hi hj
      by_cases hik : i = k
      · subst hik
        rw [if_pos rfl] at hi
        rw [if_neg hne.symm] at hj
        rw [hgk, hgj hne.symm, hpc]
        rcases hgood with h | h
        · rw [hi] at h; cases h
        · exact (h.2 j hne.symm hj).symm
      · by_cases hjk : j = k
        · subst hjk
          rw [if_pos rfl] at hj
          rw [if_neg hne] at hi
          rw [hgk, hgj hne, hpc]
          rcases hgood with h | h
          · rw [hj] at h; cases h
          · exact h.2 i hne hi
        · rw [if_neg hik] at hi
          rw [if_neg hjk] at hj
          rw [hgj hik, hgj hjk]
          exact hbs i j hi hj hne
    have hmax : ∀ m, 0 < lim m ∧ lim m ≤ max g.dmax gz.diagonalDmax := fun m =>
      ⟨(hlim m).1, by rcases (hlim m).2 with e | ⟨e, -⟩ <;> rw [e] <;> [exact le_max_left _ _; exact le_max_right _ _]⟩
    obtain ⟨c, hc, hinc, -, hsame, hone, haround, hbetween⟩ := mesh_lines S.pointers S.intervals S.lines hg (b := b.set k p) (coherent_set hbc hpcoh)
      hsep hpos hbi hbm lim hmax
    have hcc : ∀ j, (c.get j).coord = ((b.set k p).get j).coord ∧ (c.get j).kind = ((b.set k p).get j).kind ∧
        (c.get j).normal = ((b.set k p).get j).normal ∧ (c.get j).lowShare = ((b.set k p).get j).lowShare := by
      intro j
      obtain ⟨-, d, e⟩ := hsame j
      rw [e]
      exact ⟨rfl, rfl, rfl, rfl⟩
    refine ⟨c, by rw [hrun (b.set k p) hbi, hc]; rfl, hinc, ?_, ?_, ?_, ⟨?_, ?_, ?_⟩, ?_, ?_, ?_⟩
    · intro D hD1 hD2
      obtain ⟨c', hc', -, hgap, -⟩ := mesh_lines S.pointers S.intervals S.lines hg (b := b.set k p) (coherent_set hbc hpcoh) hsep hpos hbi hbm (D := D)
        lim fun m => ⟨(hlim m).1, by
          rcases (hlim m).2 with e | ⟨e, q, hq⟩
          · rw [e]; exact hD1
          · rw [e]; exact hD2.resolve_left fun h => hq (h q)⟩
      rw [hc] at hc'
      obtain rfl := Option.some.inj hc'
      exact hgap
    · intro j hj
      obtain ⟨h1, d, e⟩ := hsame j
      refine ⟨?_, d, ?_⟩
      · rw [h1, hen, if_neg hj]
      · rw [e, hgj hj]
    · rw [(hsame k).1, hen, if_pos rfl]
    · rw [(hcc k).1, hgk, hpc]
    · rw [(hcc k).2.1, hgk, hpk]
    · rw [(hcc k).2.2.1, hgk, hpn]
    · intro j hj hk1
      rw [(hcc j).1]
      exact hone j ((hsame j).1.1 hj) (by rw [← (hcc j).2.1]; exact hk1)
    · intro y hy
      rcases hbetween y hy with ⟨j, h1, h2, h3⟩ | ⟨i, j, ⟨h1, h2, h3, h4⟩, h5, h6⟩
      · exact Or.inl ⟨j, (hsame j).1.2 h1, by rw [(hcc j).2.1]; exact h2, by rw [(hcc j).1]; exact h3⟩
      · refine Or.inr ⟨i, j, ⟨(hsame i).1.2 h1, (hsame j).1.2 h2, by rw [(hcc i).1, (hcc j).1]; exact h3, ?_⟩, ?_, ?_⟩
        · intro n hn
          rw [(hcc i).1, (hcc j).1, (hcc n).1]
          exact h4 n ((hsame n).1.1 hn)
        · rw [(hcc i).1]; exact h5
        · rw [(hcc j).1]; exact h6
    · intro hch hk1
      have hek : (b.set k p).Enabled k := by rw [hen, if_pos rfl]; exact hch
      obtain ⟨a1, a2, a3⟩ := haround k hek (by rw [hgk, hpk]; exact hk1)
      rw [(hcc k).1, (hcc k).2.2.2]
      have hdk : ((b.set k p).get k).d = x := by rw [hgk, hpd]
      rw [hdk] at a2 a3
      refine ⟨a1, ?_, ?_⟩
      · rintro ⟨j, hj, hlt⟩
        obtain ⟨d, h1, -, h2, h3⟩ := a2 ⟨j, (hsame j).1.1 hj, by rw [← (hcc j).1]; exact hlt⟩
        exact ⟨d, h1, h2, h3⟩
      · rintro ⟨j, hj, hlt⟩
        obtain ⟨d, h1, -, h2, h3⟩ := a3 ⟨j, (hsame j).1.1 hj, by rw [← (hcc j).1]; exact hlt⟩
        exact ⟨d, h1, h2, h3⟩

/-- The dialog of a policy accepted unchanged leaves the mesh unchanged when the meshing did not lower the distance of this
policy, and this distance has six digits at most. -/
theorem C93_unchanged_partial {S : Sorters} {g : MeshParams} {gz : ZoneParams} {B : Input} {axis : Geom.Axis} {E : Nat → BEdge}
    {a : Mesh.Axis} (h : runSteps S g gz B axis = .ok (E, a)) :
    ∃ d b, runToIntervals S g gz B axis = .ok (d, E, b) ∧ ∀ k < b.policies.length, Spec.SixDigits (a.get k).d →
      ((a.get k).kind = .thirds ↔ (a.get k).normal ≠ .none) → (a.get k).d = (b.get k).d →
      ∃ p, (PolicyRows.shown (a.get k)).commit (a.get k) = some (.detectIntervals, p) ∧
        runFromIntervals S g (angleAt d.1) (d.2.1 axis) (b.set k p) = .ok a := by
  obtain ⟨d, asked, b, -, -, -, hb, h1, h2⟩ := run_split h
  refine ⟨d, b, h1, fun k hk h6 hkn hd => ⟨a.get k, C91_unchanged_partial.2.1 _ h6 hkn, ?_⟩⟩
  have hfin : finishAxis S g (angleAt d.1) (d.2.1 axis) (axisPolicies g (B.fixed axis) asked) = .ok a := by
    unfold finishAxis
    rw [hb]
    exact h2
  obtain ⟨b', hb', hsame⟩ := finish_same hfin
  rw [hb] at hb'
  obtain rfl := Option.some.inj hb'
  obtain ⟨-, d', e⟩ := hsame k
  have hak : a.get k = b.get k := by
    rw [e] at hd ⊢
    simp only at hd
    rw [hd]
  have : b.set k (a.get k) = b := by
    rw [hak]
    unfold Mesh.Axis.set
    have : b.get k = b.policies[k] := by simp [Mesh.Axis.get, hk]
    rw [this, List.set_getElem_self]
  rw [this]
  exact h2

/-! ## Runs computed

The loops with an explicit bound on the number of turns: what they give is what the loops give. -/

/-- `runToIntervals`, at most `n` policies merged. -/
def runToIntervalsF (n : Nat) (S : Sorters) (g : MeshParams) (gz : ZoneParams) (B : Input) (axis : Geom.Axis) :
    Outcome ((List BAngle × Zones × ToMesh) × (Nat → BEdge) × Mesh.Axis) :=
  (Outcome.orUb (diagonalSteps S.pointers gz B)).bind fun d =>
  (detectAllInPolygons S.points B allPlanes).bind fun conflicts =>
  (Outcome.orUb (conflicts.foldlM (solveAllInPolygon S.overlaps) B.E)).bind fun E =>
  (Outcome.orUb (boardPolicies B E d.1 d.2.2 (detectAllColinear B) axis)).bind fun asked =>
  (Outcome.orDiverges ((axisPolicies g (B.fixed axis) asked).solveTooCloseF S.pointers g n)).map fun b => (d, E, b)

/-- `runFromIntervals`, each loop at most `n` turns. -/
def runFromIntervalsF (n : Nat) (S : Sorters) (g : MeshParams) (A : Nat → BAngle) (zones : List Zone) (b : Mesh.Axis) :
    Outcome Mesh.Axis :=
  (Outcome.orUb (zoneIntervals A zones (b.detectIntervals S.pointers g))).bind fun c =>
  Outcome.orDiverges (c.meshF n S.intervals S.lines)

theorem to_computed {n : Nat} {S : Sorters} {g : MeshParams} {gz : ZoneParams} {B : Input} {axis : Geom.Axis}
    {d : List BAngle × Zones × ToMesh} {E : Nat → BEdge} {b : Mesh.Axis}
    (h : runToIntervalsF n S g gz B axis = .ok (d, E, b)) : runToIntervals S g gz B axis = .ok (d, E, b) := by
  unfold runToIntervalsF at h
  unfold runToIntervals
  obtain ⟨d', hd, h⟩ := outcome_bind_ok h
  obtain ⟨conflicts, hc, h⟩ := outcome_bind_ok h
  obtain ⟨E', hE', h⟩ := outcome_bind_ok h
  obtain ⟨asked, hasked, h⟩ := outcome_bind_ok h
  obtain ⟨b', hb, h⟩ := outcome_bind_ok h
  rw [hd]; simp only [Outcome.bind]
  rw [hc]; simp only
  rw [hE']; simp only
  rw [hasked]; simp only
  rw [(solveTooCloseF_below ..).eq _ (orDiverges_ok hb)]
  exact h

theorem from_computed {n : Nat} {S : Sorters} {g : MeshParams} {A : Nat → BAngle} {zones : List Zone} {b a : Mesh.Axis}
    (h : runFromIntervalsF n S g A zones b = .ok a) : runFromIntervals S g A zones b = .ok a := by
  unfold runFromIntervalsF at h
  unfold runFromIntervals
  obtain ⟨c, hc, h⟩ := outcome_bind_ok h
  rw [hc]; simp only [Outcome.bind]
  rw [(meshF_below ..).eq _ (orDiverges_ok h)]
  rfl

/-- The run is the steps before the detection of intervals, then those from there on. -/
theorem run_join {S : Sorters} {g : MeshParams} {gz : ZoneParams} {B : Input} {axis : Geom.Axis}
    {d : List BAngle × Zones × ToMesh} {E : Nat → BEdge} {a b : Mesh.Axis} (h1 : runToIntervals S g gz B axis = .ok (d, E, b))
    (h2 : runFromIntervals S g (angleAt d.1) (d.2.1 axis) b = .ok a) : runSteps S g gz B axis = .ok (E, a) := by
  unfold runToIntervals at h1
  unfold runSteps
  obtain ⟨d', hd, h⟩ := outcome_bind_ok h1
  obtain ⟨conflicts, hc, h⟩ := outcome_bind_ok h
  obtain ⟨E', hE', h⟩ := outcome_bind_ok h
  obtain ⟨asked, hasked, h⟩ := outcome_bind_ok h
  obtain ⟨b', hb, h⟩ := outcome_bind_ok h
  have h := Outcome.ok.inj h
  simp only [Prod.mk.injEq] at h
  obtain ⟨rfl, rfl, rfl⟩ := h
  rw [hd]; simp only [Outcome.bind]
  rw [hc]; simp only
  rw [hE']; simp only
  rw [hasked]; simp only
  unfold finishAxis
  rw [hb]; simp only [Outcome.bind, Outcome.map]
  unfold runFromIntervals at h2
  simp only [Outcome.bind] at h2
  rw [h2]

/-- Sorting by insertion everywhere. -/
def plainSorters : Sorters := ⟨OrderSorter.insertion Point, Sorter.insertion Overlap, Sorter.insertion Nat,
  Sorter.insertion Interval, Sorter.insertion ℚ⟩

/-- A box of metal of 6 by 4 by 2, seen in the three planes. -/
def oneBox : Input where
  polygons
    | .xy => [0]
    | .zx => [1]
    | .yz => [2]
  P n := if n = 0 then ⟨boxPoints ⟨0, 0⟩ ⟨6, 4⟩, [(0, ⟨⟨6, 0⟩, ⟨0, 0⟩⟩), (1, ⟨⟨0, 0⟩, ⟨0, 4⟩⟩), (2, ⟨⟨0, 4⟩, ⟨6, 4⟩⟩),
      (3, ⟨⟨6, 4⟩, ⟨6, 0⟩⟩)], 0, 2, 1⟩
    else if n = 1 then ⟨boxPoints ⟨0, 0⟩ ⟨2, 6⟩, [(4, ⟨⟨2, 0⟩, ⟨0, 0⟩⟩), (5, ⟨⟨0, 0⟩, ⟨0, 6⟩⟩), (6, ⟨⟨0, 6⟩, ⟨2, 6⟩⟩),
      (7, ⟨⟨2, 6⟩, ⟨2, 0⟩⟩)], 0, 4, 1⟩
    else ⟨boxPoints ⟨0, 0⟩ ⟨4, 2⟩, [(8, ⟨⟨4, 0⟩, ⟨0, 0⟩⟩), (9, ⟨⟨0, 0⟩, ⟨0, 2⟩⟩), (10, ⟨⟨0, 2⟩, ⟨4, 2⟩⟩),
      (11, ⟨⟨4, 2⟩, ⟨4, 0⟩⟩)], 0, 6, 1⟩
  E n := (([(0, ⟨.xy, ⟨⟨6, 0⟩, ⟨0, 0⟩⟩, .ymin, true, false⟩), (1, ⟨.xy, ⟨⟨0, 0⟩, ⟨0, 4⟩⟩, .xmin, true, false⟩),
    (2, ⟨.xy, ⟨⟨0, 4⟩, ⟨6, 4⟩⟩, .ymax, true, false⟩), (3, ⟨.xy, ⟨⟨6, 4⟩, ⟨6, 0⟩⟩, .xmax, true, false⟩),
    (4, ⟨.zx, ⟨⟨2, 0⟩, ⟨0, 0⟩⟩, .ymin, true, false⟩), (5, ⟨.zx, ⟨⟨0, 0⟩, ⟨0, 6⟩⟩, .xmin, true, false⟩),
    (6, ⟨.zx, ⟨⟨0, 6⟩, ⟨2, 6⟩⟩, .ymax, true, false⟩), (7, ⟨.zx, ⟨⟨2, 6⟩, ⟨2, 0⟩⟩, .xmax, true, false⟩),
    (8, ⟨.yz, ⟨⟨4, 0⟩, ⟨0, 0⟩⟩, .ymin, true, false⟩), (9, ⟨.yz, ⟨⟨0, 0⟩, ⟨0, 2⟩⟩, .xmin, true, false⟩),
    (10, ⟨.yz, ⟨⟨0, 2⟩, ⟨4, 2⟩⟩, .ymax, true, false⟩), (11, ⟨.yz, ⟨⟨4, 2⟩, ⟨4, 0⟩⟩, .xmax, true, false⟩)] :
    List (Nat × BEdge)).lookup n).getD ⟨.yz, ⟨⟨0, 0⟩, ⟨0, 0⟩⟩, .none, true, false⟩
  fixed _ := []
  angle _ := 0

/-- No polygon, and fixed lines. -/
def linesBoard : Input where
  polygons _ := []
  P _ := ⟨[], [], 0, 0, 0⟩
  E _ := ⟨.yz, ⟨⟨0, 0⟩, ⟨0, 0⟩⟩, .none, true, false⟩
  fixed _ := [0, 7, 17, 18]
  angle _ := 0

theorem oneBox_built : Built oneBox ∧ LinesApart oneBox ∧ ∀ p, slantedOf oneBox p = [] := by
  refine ⟨⟨?_, ?_, ?_, ?_, ?_⟩, ⟨?_, ?_⟩, ?_⟩
  · intro p; cases p <;> decide +kernel
  · intro p; cases p <;> decide +kernel
  · intro p; cases p <;> decide +kernel
  · intro p; unfold SameLine Horizontal Vertical; cases p <;> decide +kernel
  · intro p; cases p <;> decide +kernel
  · intro p; unfold Horizontal; cases p <;> decide +kernel
  · intro p; unfold Vertical; cases p <;> decide +kernel
  · intro p; cases p <;> decide +kernel

theorem linesBoard_built : Built linesBoard ∧ LinesApart linesBoard ∧ ∀ p, slantedOf linesBoard p = [] := by
  refine ⟨⟨?_, ?_, ?_, ?_, ?_⟩, ⟨?_, ?_⟩, ?_⟩
  · intro p a h; cases h
  · intro p a h; cases h
  · intro p; exact List.nodup_nil
  · intro p a h; cases h
  · intro p a h; cases h
  · intro p i h; cases h
  · intro p i h; cases h
  · intro p; cases p <;> decide +kernel

/-- What a computation that ended gave. -/
theorem outcome_map_ok {α β : Type} {o : Outcome α} {f : α → β} {b : β} (h : o.map f = .ok b) : ∃ a, o = .ok a ∧ f a = b := by
  obtain ⟨a, h1, h2⟩ := outcome_bind_ok h
  exact ⟨a, h1, Outcome.ok.inj h2⟩

/-- The box along x: two policies at each end, from two planes, off, and the two that took their place, on. -/
theorem oneBox_run : ∃ d E b a, runToIntervals plainSorters evenParams ⟨1, 1, 1, 1⟩ oneBox .x = .ok (d, E, b) ∧
    runFromIntervals plainSorters evenParams (angleAt d.1) (d.2.1 .x) b = .ok a ∧
    b.policies.map (fun p => (p.coord, p.kind, p.normal, p.enabled)) =
      [(0, .thirds, .min, false), (6, .thirds, .max, false), (0, .thirds, .min, false), (6, .thirds, .max, false),
        (0, .thirds, .min, true), (6, .thirds, .max, true)] ∧
    (a.get 0).d = 5 / 2 ∧ (a.get 0).kind = .thirds ∧ (a.get 0).normal = .min ∧
    (a.get 4).kind = .thirds ∧ (a.get 4).normal = .min ∧ (a.get 4).enabled = true := by
  have h : ((runToIntervalsF 9 plainSorters evenParams ⟨1, 1, 1, 1⟩ oneBox .x).bind fun r =>
      (runFromIntervalsF 40 plainSorters evenParams (angleAt r.1.1) (r.1.2.1 .x) r.2.2).map fun a =>
      (r.2.2.policies.map (fun p => (p.coord, p.kind, p.normal, p.enabled)),
        decide ((a.get 0).d = 5 / 2 ∧ (a.get 0).kind = .thirds ∧ (a.get 0).normal = .min ∧
          (a.get 4).kind = .thirds ∧ (a.get 4).normal = .min ∧ (a.get 4).enabled = true))) =
      .ok ([(0, .thirds, .min, false), (6, .thirds, .max, false), (0, .thirds, .min, false), (6, .thirds, .max, false),
        (0, .thirds, .min, true), (6, .thirds, .max, true)], true) := by decide +kernel
  obtain ⟨⟨d, E, b⟩, h1, h⟩ := outcome_bind_ok h
  obtain ⟨a, h2, h⟩ := outcome_map_ok h
  obtain ⟨ha, h⟩ := Prod.mk.inj h
  exact ⟨d, E, b, a, to_computed h1, from_computed h2, ha, of_decide_eq_true h⟩

/-- Not so in general: with the box above, along x, the run never ends once the distance of a policy is set to 0, nor once a
policy that was merged is checked again. With the fixed lines 0, 7, 17 and 18, accepting the dialog of the one at 7 as it was
shown makes 36 intervals of the 26 there were. -/
theorem C93_false :
    (∃ (S : Sorters) (g : MeshParams) (gz : ZoneParams) (B : Input) (axis : Geom.Axis), g.InRange ∧ 0 ≤ g.proximityLimit ∧
      0 < gz.diagonalDmax ∧ Built B ∧ LinesApart B ∧ ∃ d E b a, runSteps S g gz B axis = .ok (E, a) ∧
        runToIntervals S g gz B axis = .ok (d, E, b) ∧
        (∃ k p, k < b.policies.length ∧
          PolicyRows.commit { PolicyRows.shown (a.get k) with d := ['0'] } (a.get k) = some (.detectIntervals, p) ∧
          runFromIntervals S g (angleAt d.1) (d.2.1 axis) (b.set k p) = .diverges) ∧
        ∃ k p, k < b.policies.length ∧ 0 < (a.get k).d ∧
          PolicyRows.commit { PolicyRows.shown (a.get k) with enabled := .checked } (a.get k) = some (.detectIntervals, p) ∧
          runFromIntervals S g (angleAt d.1) (d.2.1 axis) (b.set k p) = .diverges) ∧
    ∃ (S : Sorters) (g : MeshParams) (gz : ZoneParams) (B : Input) (axis : Geom.Axis), g.InRange ∧ 0 ≤ g.proximityLimit ∧
      0 < gz.diagonalDmax ∧ Built B ∧ LinesApart B ∧ ∃ d E b a c k, runSteps S g gz B axis = .ok (E, a) ∧
        runToIntervals S g gz B axis = .ok (d, E, b) ∧ k < b.policies.length ∧
        (PolicyRows.shown (a.get k)).commit (a.get k) = some (.detectIntervals, a.get k) ∧
        runFromIntervals S g (angleAt d.1) (d.2.1 axis) (b.set k (a.get k)) = .ok c ∧
        a.meshlines.length = 27 ∧ c.meshlines.length = 37 := by
  refine ⟨⟨plainSorters, evenParams, ⟨1, 1, 1, 1⟩, oneBox, .x, ⟨by norm_num [evenParams], by norm_num [evenParams]⟩,
    by norm_num [evenParams], by norm_num, oneBox_built.1, oneBox_built.2.1, ?_⟩, ⟨plainSorters, evenParams, ⟨1, 1, 1, 1⟩,
    linesBoard, .x, ⟨by norm_num [evenParams], by norm_num [evenParams]⟩, by norm_num [evenParams], by norm_num,
    linesBoard_built.1, linesBoard_built.2.1, ?_⟩⟩
  · obtain ⟨d, E, b, a, h1, h2, hb, hd0, hk0, hn0, hk4, hn4, hen4⟩ := oneBox_run
    have hrun := run_join h1 h2
    refine ⟨d, E, b, a, hrun, h1, ?_⟩
    obtain ⟨d', b', h1', hed⟩ := C93_edited_partial plainSorters (g := evenParams) (gz := ⟨1, 1, 1, 1⟩)
      ⟨by norm_num [evenParams], by norm_num [evenParams]⟩ (by norm_num [evenParams]) (Or.inl (by norm_num)) oneBox_built.1
      oneBox_built.2.1 hrun
    rw [h1] at h1'
    have := Outcome.ok.inj h1'
    simp only [Prod.mk.injEq, true_and] at this
    obtain ⟨rfl, rfl⟩ := this
    have hlen : b.policies.length = 6 := by rw [← List.length_map, hb]; rfl
    have hget : ∀ (k : Nat) (v : ℚ × Kind × Mesh.Facing × Bool), (b.policies.map fun p => (p.coord, p.kind, p.normal,
        p.enabled))[k]? = some v → (b.get k).coord = v.1 ∧ (b.get k).enabled = v.2.2.2 := by
      intro k v h
      rw [List.getElem?_map, Option.map_eq_some_iff] at h
      obtain ⟨p, hp, rfl⟩ := h
      have : b.get k = p := by simp [Mesh.Axis.get, hp]
      rw [this]
      exact ⟨rfl, rfl⟩
    have g0 := hget 0 _ (by rw [hb]; rfl)
    have g4 := hget 4 _ (by rw [hb]; rfl)
    have g5 := hget 5 _ (by rw [hb]; rfl)
    have hen : ∀ k, b.Enabled k ↔ k < 6 ∧ (b.get k).enabled = true := by
      intro k; rw [enabled_iff, hlen]
    have e4 : b.Enabled 4 := (hen 4).2 ⟨by norm_num, g4.2⟩
    have e5 : b.Enabled 5 := (hen 5).2 ⟨by norm_num, g5.2⟩
    have hzero : Spec.Number ['0'] 0 := (toDouble_iff _ _).1 (by decide +kernel)
    constructor
    · obtain ⟨p, hp, hdiv, -⟩ := hed 4 (by omega) { PolicyRows.shown (a.get 4) with d := ['0'] } 0 hzero
        (by simp [PolicyRows.shown, hen4, ofBool]) (by simp [PolicyRows.shown, hk4, hn4])
      exact ⟨4, p, by omega, hp, hdiv (by simp [PolicyRows.shown, hen4, ofBool]) ⟨5, by norm_num, e5⟩ (Or.inl le_rfl)⟩
    · obtain ⟨p, hp, hdiv, -⟩ := hed 0 (by omega) { PolicyRows.shown (a.get 0) with enabled := .checked } (5 / 2)
        ((toDouble_iff _ _).1 (by simp only [PolicyRows.shown]; rw [hd0]; decide +kernel))
        (by simp) (by simp [PolicyRows.shown, hk0, hn0])
      exact ⟨0, p, by omega, by rw [hd0]; norm_num, hp, hdiv rfl ⟨4, by norm_num, e4⟩ (Or.inr ⟨4, by norm_num, e4,
        g4.1.trans g0.1.symm⟩)⟩
  · have h : ((runToIntervalsF 9 plainSorters evenParams ⟨1, 1, 1, 1⟩ linesBoard .x).bind fun r =>
        (runFromIntervalsF 60 plainSorters evenParams (angleAt r.1.1) (r.1.2.1 .x) r.2.2).bind fun a =>
        (runFromIntervalsF 60 plainSorters evenParams (angleAt r.1.1) (r.1.2.1 .x) (r.2.2.set 1 (a.get 1))).map fun c =>
          (r.2.2.policies.length, ((a.get 1).d, (a.get 1).kind, (a.get 1).normal), a.meshlines.length, c.meshlines.length)) =
        .ok (4, (1 / 2, .oneline, .none), 27, 37) := by decide +kernel
    obtain ⟨⟨d, E, b⟩, h1, h⟩ := outcome_bind_ok h
    obtain ⟨a, h2, h⟩ := outcome_bind_ok h
    obtain ⟨c, h3, h⟩ := outcome_map_ok h
    simp only [Prod.mk.injEq] at h
    obtain ⟨hl, ⟨hd, hk, hn⟩, ha, hc⟩ := h
    refine ⟨d, E, b, a, c, 1, run_join (to_computed h1) (from_computed h2), to_computed h1, by omega, ?_, from_computed h3, ha, hc⟩
    refine C91_unchanged_partial.2.1 _ ?_ (by simp [hk, hn])
    rw [hd]
    exact ⟨5, by norm_num, -1, by norm_num [abs_of_pos]⟩

/-- The box above: the policy at 0 along x set to HALFS with a distance of 1 is a run that ends, and has its lines at half of
cells not larger than 1. -/
example : ∃ d E b a p c, runToIntervals plainSorters evenParams ⟨1, 1, 1, 1⟩ oneBox .x = .ok (d, E, b) ∧
    runSteps plainSorters evenParams ⟨1, 1, 1, 1⟩ oneBox .x = .ok (E, a) ∧
    PolicyRows.commit ⟨.halfs, .none, .checked, "1.0".toList⟩ (a.get 4) = some (.detectIntervals, p) ∧
    runFromIntervals plainSorters evenParams (angleAt d.1) (d.2.1 .x) (b.set 4 p) = .ok c ∧ (c.get 4).coord = 0 ∧
    ∃ x, 0 < x ∧ x ≤ 1 ∧ NextAbove c.meshlines 0 (1 / 2 * x) := by
  obtain ⟨d, E, b, a, h1, h2, hb, -⟩ := oneBox_run
  have hrun := run_join h1 h2
  obtain ⟨d', b', h1', hed⟩ := C93_edited_partial plainSorters (g := evenParams) (gz := ⟨1, 1, 1, 1⟩)
    ⟨by norm_num [evenParams], by norm_num [evenParams]⟩ (by norm_num [evenParams]) (Or.inl (by norm_num)) oneBox_built.1
    oneBox_built.2.1 hrun
  rw [h1] at h1'
  have := Outcome.ok.inj h1'
  simp only [Prod.mk.injEq, true_and] at this
  obtain ⟨rfl, rfl⟩ := this
  have hlen : b.policies.length = 6 := by rw [← List.length_map, hb]; rfl
  have hget : ∀ (k : Nat) (v : ℚ × Kind × Mesh.Facing × Bool), (b.policies.map fun p => (p.coord, p.kind, p.normal,
      p.enabled))[k]? = some v → (b.get k).coord = v.1 ∧ (b.get k).enabled = v.2.2.2 := by
    intro k v h
    rw [List.getElem?_map, Option.map_eq_some_iff] at h
    obtain ⟨p, hp, rfl⟩ := h
    have : b.get k = p := by simp [Mesh.Axis.get, hp]
    rw [this]
    exact ⟨rfl, rfl⟩
  have g4 := hget 4 _ (by rw [hb]; rfl)
  have g5 := hget 5 _ (by rw [hb]; rfl)
  have hnum : Spec.Number "1.0".toList 1 := (toDouble_iff _ _).1 (by decide +kernel)
  obtain ⟨p, hp, -, hok⟩ := hed 4 (by omega) ⟨.halfs, .none, .checked, "1.0".toList⟩ 1 hnum (by simp) (by simp)
  obtain ⟨c, hc, -, -, hoth, -, hk, -, -, hshare⟩ := hok (Or.inr ⟨by norm_num, by
    intro j hj he
    rw [enabled_iff, hlen] at he
    obtain ⟨hlt, he⟩ := he
    have hcase : j = 0 ∨ j = 1 ∨ j = 2 ∨ j = 3 ∨ j = 5 := by omega
    rcases hcase with rfl | rfl | rfl | rfl | rfl
    · rw [(hget 0 _ (by rw [hb]; rfl)).2] at he; cases he
    · rw [(hget 1 _ (by rw [hb]; rfl)).2] at he; cases he
    · rw [(hget 2 _ (by rw [hb]; rfl)).2] at he; cases he
    · rw [(hget 3 _ (by rw [hb]; rfl)).2] at he; cases he
    · rw [g5.1, g4.1]; norm_num⟩)
  have hc4 : (c.get 4).coord = 0 := hk.1.trans g4.1
  have hc5 : c.Enabled 5 ∧ (c.get 5).coord = 6 := by
    obtain ⟨h1, x, h2⟩ := hoth 5 (by norm_num)
    refine ⟨h1.2 ?_, by rw [h2]; exact g5.1⟩
    rw [enabled_iff, hlen]
    exact ⟨by norm_num, g5.2⟩
  obtain ⟨-, hup, -⟩ := hshare rfl (by simp)
  obtain ⟨x, hx0, hx1, hnext⟩ := hup ⟨5, hc5.1, by rw [hc4, hc5.2]; norm_num⟩
  refine ⟨d, E, b, a, p, c, h1, hrun, hp, hc, hc4, x, hx0, hx1, ?_⟩
  rw [hc4] at hnext
  have : (c.get 4).lowShare = 1 / 2 := by simp [Policy.lowShare, hk.2.1]
  rw [this] at hnext
  norm_num at hnext ⊢
  exact hnext

/-- With the fixed lines above, accepting the dialog of the one at 0 as it was shown changes nothing. -/
example : ∃ d E b a, runToIntervals plainSorters evenParams ⟨1, 1, 1, 1⟩ linesBoard .x = .ok (d, E, b) ∧
    runSteps plainSorters evenParams ⟨1, 1, 1, 1⟩ linesBoard .x = .ok (E, a) ∧ a.meshlines.length = 27 ∧
    ∃ p, (PolicyRows.shown (a.get 0)).commit (a.get 0) = some (.detectIntervals, p) ∧
      runFromIntervals plainSorters evenParams (angleAt d.1) (d.2.1 .x) (b.set 0 p) = .ok a := by
  have h : ((runToIntervalsF 9 plainSorters evenParams ⟨1, 1, 1, 1⟩ linesBoard .x).bind fun r =>
      (runFromIntervalsF 60 plainSorters evenParams (angleAt r.1.1) (r.1.2.1 .x) r.2.2).map fun a =>
        (r.2.2.policies.length, (r.2.2.get 0).d, ((a.get 0).d, (a.get 0).kind, (a.get 0).normal), a.meshlines.length)) =
      .ok (4, 5 / 2, (5 / 2, .oneline, .none), 27) := by decide +kernel
  obtain ⟨⟨d, E, b⟩, h1, h⟩ := outcome_bind_ok h
  obtain ⟨a, h2, h⟩ := outcome_map_ok h
  simp only [Prod.mk.injEq] at h
  obtain ⟨hl, hbd, ⟨hd, hk, hn⟩, ha⟩ := h
  have hrun := run_join (to_computed h1) (from_computed h2)
  obtain ⟨d', b', h1', hun⟩ := C93_unchanged_partial hrun
  rw [to_computed h1] at h1'
  have := Outcome.ok.inj h1'
  simp only [Prod.mk.injEq, true_and] at this
  obtain ⟨rfl, rfl⟩ := this
  exact ⟨d, E, b, a, to_computed h1, hrun, ha, hun 0 (by omega) (by rw [hd]; exact ⟨25, by norm_num, -1, by norm_num [abs_of_pos]⟩)
    (by simp [hk, hn]) (by rw [hd, hbd])⟩

end Verif.Board
