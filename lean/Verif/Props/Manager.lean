import Verif.Lemmas.ManagerMesh
import Mathlib.Tactic.IntervalCases

/-! # Policies, intervals and mesh of an axis: C24 to C29 -/

namespace Verif.Mesh
open Spec List

/-! ## C26, C27: merging too-close policies -/

/-- C26. Merging too-close policies ends, and leaves every two enabled policies more than the limit apart, whatever
the limit and however the sort orders policies at the same coordinate. -/
theorem C26_terminates_and_separates (S : Sorter Nat) (g : MeshParams) (a : Axis) (h : a.Unmerged) :
    ∃ b, a.solveTooClose S g = some b ∧
      ∀ i j, b.Enabled i → b.Enabled j → i ≠ j → g.proximityLimit < |(b.get i).coord - (b.get j).coord| := by
  obtain ⟨b, hb, -, -, hd⟩ := solveTooClose_induct S g (fun _ => True) (fun _ _ _ _ _ _ _ _ => trivial) _ a le_rfl h trivial
  exact ⟨b, hb, detectClosest_none hd⟩

/-- Without the hypothesis the loop may not end: when the closest pair holds a policy that is already in a conflict,
no conflict is created and the same pair is found again. -/
theorem C26_conflicting_diverges (S : Sorter Nat) (g : MeshParams) (a : Axis) (i j : Nat)
    (h1 : a.detectClosest S g.proximityLimit = some (i, j)) (h2 : a.addTooClose i j = none) :
    a.solveTooClose S g = none := by
  cases hr : a.solveTooClose S g with
  | none => rfl
  | some r =>
    exfalso
    refine Axis.solveTooClose.partial_correctness S g (fun a' _ => a' = a → False) ?_ a r hr rfl
    intro f hf a' r' hr' ha
    subst ha
    rw [h1] at hr'
    simp only [h2] at hr'
    exact hf a' r' hr' rfl

/-- C27, one merge. The merged policy lies between the two; it does not depend on their order; a ONELINE merged
with another kind stays where it is; two policies that are allowed to exist always merge into a third one that is. -/
theorem C27_merge (p q : Policy) :
    (∀ kind normal coord, mergeChoice p q = some (kind, normal, coord) →
      min p.coord q.coord ≤ coord ∧ coord ≤ max p.coord q.coord ∧
      (p.kind = .oneline ∨ q.kind = .oneline → kind = .oneline) ∧
      (p.kind = .oneline → q.kind ≠ .oneline → coord = p.coord) ∧
      (q.kind = .oneline → p.kind ≠ .oneline → coord = q.coord) ∧
      (p.Coherent → q.Coherent → (kind = .thirds ↔ normal ≠ .none))) ∧
    mergeChoice p q = mergeChoice q p ∧
    (p.Coherent → q.Coherent → mergeChoice p q ≠ none) := by
  refine ⟨?_, ?_, ?_⟩
  · intro kind normal coord h
    refine ⟨(mergeChoice_between h).1, (mergeChoice_between h).2, ?_, ?_, ?_, ?_⟩
    · unfold mergeChoice at h
      rintro (hp | hp) <;> rw [hp] at h <;> [cases hq : q.kind; cases hq : p.kind] <;> simp [hq] at h <;> exact h.1.symm
    · intro hp hq
      rcases mergeChoice_mid h with ⟨_, h2⟩ | ⟨h2, _⟩ | ⟨_, _, h2⟩
      · exact absurd (h2.mp hp) hq
      · exact h2
      · exact absurd hp h2
    · intro hq hp
      rcases mergeChoice_mid h with ⟨_, h2⟩ | ⟨_, _, h2⟩ | ⟨h2, _⟩
      · exact absurd (h2.mpr hq) hp
      · exact absurd hq h2
      · exact h2
    · intro _ _
      unfold mergeChoice at h
      cases hp : p.kind <;> cases hq : q.kind <;> simp only [hp, hq] at h
      case thirds.thirds =>
        by_cases hn : p.normal = q.normal
        · simp only [hn, ne_eq, not_true_eq_false, if_false] at h
          cases hq : q.normal <;> simp [hq] at h <;> simp [← h.1, ← h.2.1]
        · simp [hn] at h; simp [← h.1, ← h.2.1]
      all_goals (simp at h; simp [← h.1, ← h.2.1])
  · unfold mergeChoice
    have e : (p.coord + q.coord) / 2 = (q.coord + p.coord) / 2 := by ring
    cases hp : p.kind <;> cases hq : q.kind <;> simp only [e]
    by_cases hn : p.normal = q.normal
    · simp [hn]
    · simp [hn, Ne.symm hn]
  · intro hp _
    unfold mergeChoice
    unfold Policy.Coherent at hp
    cases hpk : p.kind <;> cases hqk : q.kind <;> simp only <;> try simp
    by_cases hn : p.normal = q.normal
    · simp only [hn, ne_eq, not_true_eq_false, if_false]
      rw [hn] at hp
      cases hq : q.normal <;> simp_all
    · simp [hn]

theorem coherent_append {a : Axis} (h : a.Coherent) {p : Policy} (hp : p.Coherent) :
    Axis.Coherent { a with policies := a.policies ++ [p] } := by
  intro q hq
  rcases List.mem_append.mp hq with hq | hq
  · exact h q hq
  · rw [List.mem_singleton.mp hq]; exact hp

theorem coherent_set {a : Axis} (h : a.Coherent) {i : Nat} {p : Policy} (hp : p.Coherent) : (a.set i p).Coherent := by
  intro q hq
  rcases List.mem_or_eq_of_mem_set hq with hq | rfl
  · exact h q hq
  · exact hp

theorem coherent_get {a : Axis} (h : a.Coherent) (k : Nat) : (a.get k).Coherent := by
  by_cases hk : k < a.policies.length
  · exact h _ (get_mem hk)
  · have : a.get k = ⟨0, .oneline, .none, false, 0⟩ := by simp [Axis.get, hk]
    rw [this]; simp [Policy.Coherent]

theorem coherent_step {g : MeshParams} {a b : Axis} {i j : Nat} (ha : a.Coherent) (h : a.addTooClose i j = some b) :
    (b.solveConflict g i j).Coherent := by
  have hb : b.Coherent := by
    unfold Axis.addTooClose at h
    split at h
    · cases h
    · cases h
      have hc := fun k => coherent_get ha k
      refine coherent_set (coherent_set ?_ ?_) ?_
      · exact ha
      · exact hc i
      · exact hc j
  rcases solveConflict_cases g b i j with he | ⟨kind, normal, coord, hm, he⟩ <;> rw [he]
  · exact hb
  · refine coherent_append hb ?_
    exact ((C27_merge (b.get i) (b.get j)).1 _ _ _ hm).2.2.2.2.2 (coherent_get hb i) (coherent_get hb j)

/-- C27, the whole loop. Every enabled policy lies between two that were enabled before, and an axis with an
enabled policy keeps one. -/
theorem C27_extent (S : Sorter Nat) (g : MeshParams) (a b : Axis) (hu : a.Unmerged) (hc : a.Coherent)
    (h : a.solveTooClose S g = some b) :
    (∀ k, b.Enabled k → ∃ i j, a.Enabled i ∧ a.Enabled j ∧
      (a.get i).coord ≤ (b.get k).coord ∧ (b.get k).coord ≤ (a.get j).coord) ∧
    ((∃ k, a.Enabled k) → ∃ k, b.Enabled k) := by
  let P : Axis → Prop := fun x => (∀ k, x.Enabled k → ∃ i j, a.Enabled i ∧ a.Enabled j ∧
      (a.get i).coord ≤ (x.get k).coord ∧ (x.get k).coord ≤ (a.get j).coord) ∧
      ((∃ k, a.Enabled k) → ∃ k, x.Enabled k) ∧ x.Coherent
  have hstep : ∀ x i j y, x.Unmerged → P x → x.detectClosest S g.proximityLimit = some (i, j) →
      x.addTooClose i j = some y → P (y.solveConflict g i j) := by
    intro x i j y hux ⟨hx1, hx2, hx3⟩ hd hy
    obtain ⟨hi, hj, hne, -⟩ := detectClosest_some hd
    obtain ⟨hlen, -, hget, -, -⟩ := addTooClose_some hi hj hy
    have gi : (y.get i).coord = (x.get i).coord := by rw [hget, if_pos (Or.inl rfl)]
    have gj : (y.get j).coord = (x.get j).coord := by rw [hget, if_pos (Or.inr rfl)]
    refine ⟨?_, ?_, coherent_step hx3 hy⟩
    · intro k hk
      rcases enabled_step hi hj hy k hk with ⟨h1, -, -, h4⟩ | ⟨-, kind, normal, coord, hm, h4⟩
      · rw [h4]; exact hx1 k h1
      · rw [h4]
        obtain ⟨hlo, hhi⟩ := mergeChoice_between hm
        rw [gi, gj] at hlo hhi
        obtain ⟨i1, i2, e1, e2, e3, e4⟩ := hx1 i hi
        obtain ⟨j1, j2, f1, f2, f3, f4⟩ := hx1 j hj
        show ∃ i j, a.Enabled i ∧ a.Enabled j ∧ (a.get i).coord ≤ coord ∧ coord ≤ (a.get j).coord
        rcases le_total (x.get i).coord (x.get j).coord with hle | hle
        · rw [min_eq_left hle] at hlo; rw [max_eq_right hle] at hhi
          exact ⟨i1, j2, e1, f2, e3.trans hlo, hhi.trans f4⟩
        · rw [min_eq_right hle] at hlo; rw [max_eq_left hle] at hhi
          exact ⟨j1, i2, f1, e2, f3.trans hlo, hhi.trans e4⟩
    · intro _
      refine ⟨y.policies.length, ?_⟩
      have hy' : y.Coherent := by
        intro q hq
        obtain ⟨n, hn, rfl⟩ := List.getElem_of_mem hq
        have := hget n
        have e : y.get n = y.policies[n] := by simp [Axis.get, hn]
        rw [e] at this
        rw [this]
        have hcn := coherent_get hx3 n
        split
        · exact hcn
        · exact hcn
      rcases solveConflict_cases g y i j with he | ⟨kind, normal, coord, hm, he⟩
      · exfalso
        have hne2 := (C27_merge (y.get i) (y.get j)).2.2 (coherent_get hy' i) (coherent_get hy' j)
        obtain ⟨⟨kind, normal, coord⟩, hm⟩ := Option.ne_none_iff_exists'.mp hne2
        have hcoh := ((C27_merge (y.get i) (y.get j)).1 _ _ _ hm).2.2.2.2.2 (coherent_get hy' i) (coherent_get hy' j)
        have e2 := congrArg (fun z => z.policies.length) he
        simp only [Axis.solveConflict, hm, Axis.addPolicy] at e2
        have hno : ¬ ((kind = .thirds ∧ normal = .none) ∨ (kind ≠ .thirds ∧ normal ≠ .none)) := by tauto
        rw [if_neg hno] at e2
        simp at e2
      · rw [he, enabled_iff]
        refine ⟨by simp, ?_⟩
        rw [get_append, if_pos rfl]
        rfl
  obtain ⟨b', hb', -, ⟨h1, h2, -⟩, -⟩ := solveTooClose_induct S g P hstep _ a le_rfl hu
    ⟨fun k hk => ⟨k, k, hk, hk, le_rfl, le_rfl⟩, id, hc⟩
  rw [h] at hb'
  cases hb'
  exact ⟨h1, h2⟩

/-! ## C29: coherent policies -/

/-- C29, creation. A policy is created exactly when its kind and its normal agree; then it is the last one and the
others are unchanged; otherwise nothing changes. -/
theorem C29_created_iff (g : MeshParams) (a : Axis) (kind : Kind) (normal : Facing) (coord : ℚ) (enabled : Bool) :
    ((a.addPolicy g kind normal coord enabled).2 = true ↔ (kind = .thirds ↔ normal ≠ .none)) ∧
    ((a.addPolicy g kind normal coord enabled).2 = true →
      ∃ p, (a.addPolicy g kind normal coord enabled).1 = { a with policies := a.policies ++ [p] } ∧
        p.kind = kind ∧ p.normal = normal ∧ p.coord = coord ∧ p.enabled = enabled) ∧
    ((a.addPolicy g kind normal coord enabled).2 = false → (a.addPolicy g kind normal coord enabled).1 = a) := by
  unfold Axis.addPolicy
  cases kind <;> cases normal <;> simp [Policy.make]

/-- C29, the invariant. Whatever sequence of creations, merges, edits, interval detections and meshings is run, all
policies of the axis stay coherent. -/
theorem C29_always_coherent (ops : List AxisOp) : ∀ (a b : Axis), a.Coherent →
    ops.foldlM AxisOp.run a = some b → b.Coherent := by
  have hlow : ∀ (a : Axis) (ps : Policies), a.Coherent → (∀ j, ∃ d, ps j = { a.get j with d := d }) →
      (a.withPolicies ps).Coherent := by
    intro a ps ha hps q hq
    simp only [Axis.withPolicies, List.mem_map] at hq
    obtain ⟨k, -, rfl⟩ := hq
    obtain ⟨d, hd⟩ := hps k
    rw [hd]
    exact coherent_get ha k
  have hop : ∀ op (a b : Axis), a.Coherent → AxisOp.run a op = some b → b.Coherent := by
    intro op a b ha h
    cases op with
    | create g kind normal coord enabled =>
      simp only [AxisOp.run, Option.some.injEq] at h
      subst h
      obtain ⟨h1, h2, h3⟩ := C29_created_iff g a kind normal coord enabled
      cases hc : (a.addPolicy g kind normal coord enabled).2 with
      | false => rw [h3 hc]; exact ha
      | true =>
        obtain ⟨p, hp, hk, hn, -⟩ := h2 hc
        rw [hp]
        refine coherent_append ha ?_
        unfold Policy.Coherent
        rw [hk, hn]; exact h1.mp hc
    | merge S g =>
      simp only [AxisOp.run] at h
      refine Axis.solveTooClose.partial_correctness S g (fun a' r => a'.Coherent → r.Coherent) ?_ a b h ha
      intro f hf a' r hr ha'
      split at hr
      · cases hr; exact ha'
      · split at hr
        · exact hf _ _ hr ha'
        · rename_i c hc
          exact hf _ _ hr (coherent_step ha' hc)
    | edit i kind normal enabled d =>
      simp only [AxisOp.run, Option.some.injEq] at h
      subst h
      unfold Axis.editPolicy
      cases kind <;> cases normal <;> simp <;> first | exact ha | exact coherent_set ha (by simp [Policy.Coherent])
    | detect S g =>
      simp only [AxisOp.run, Option.some.injEq] at h
      subst h
      exact hlow a _ ha (makeIntervals_coords g _ a.get).1
    | mesh S T =>
      obtain ⟨ps, h1, h2⟩ := mesh_onlyD h
      have := hlow a ps ha h1
      intro q hq
      exact this q (h2 ▸ hq)
  induction ops with
  | nil => intro a b ha h; cases h; exact ha
  | cons op ops ih =>
    intro a b ha h
    rw [List.foldlM_cons] at h
    cases hc : AxisOp.run a op with
    | none => rw [hc] at h; cases h
    | some c =>
      rw [hc] at h
      exact ih c b (hop op a c ha hc) h

/-! ## C28: intervals -/

/-- C28. On an axis without intervals, the detected ones are the consecutive pairs of the enabled policies in
coordinate order, with the global parameters: there is one fewer than enabled policies, each starts at the policy
where the previous one ends, and disabled policies bound none. -/
theorem C28_intervals_tile (S : Sorter Nat) (g : MeshParams) (a : Axis) (hi : a.intervals = []) :
    ∃ o : List Nat, o.Nodup ∧ (∀ k, k ∈ o ↔ a.Enabled k) ∧ o.Pairwise (fun i j => (a.get i).coord ≤ (a.get j).coord) ∧
      ((a.detectIntervals S g).intervals.map fun i => i.before.policy) = o.dropLast ∧
      ((a.detectIntervals S g).intervals.map fun i => i.after.policy) = o.tail ∧
      (a.detectIntervals S g).intervals.length = a.enabledPointers.length - 1 ∧
      (∀ i ∈ (a.detectIntervals S g).intervals,
        i.h = ((a.get i.after.policy).coord - (a.get i.before.policy).coord) / 2 ∧
        i.m = ((a.get i.before.policy).coord + (a.get i.after.policy).coord) / 2 ∧
        i.dmax = g.dmax ∧ i.before.lmin = g.lmin ∧ i.after.lmin = g.lmin ∧
        i.before.smoothness = g.smoothness ∧ i.after.smoothness = g.smoothness) ∧
      ∀ k, ∃ d, (a.detectIntervals S g).get k = { a.get k with d := d } := by
  set o := S.sort (fun i => (a.get i).coord) a.enabledPointers with ho
  have hp := S.perm (fun i => (a.get i).coord) a.enabledPointers
  rw [← ho] at hp
  have hs := S.sorted (fun i => (a.get i).coord) a.enabledPointers
  rw [← ho] at hs
  have e : a.detectIntervals S g =
      { a.withPolicies (makeIntervals g a.get o).1 with intervals := (makeIntervals g a.get o).2 } := by
    simp only [Axis.detectIntervals, hi, List.nil_append]
    rw [← ho]
  obtain ⟨h1, h2⟩ := makeIntervals_pairs g o a.get
  obtain ⟨h3, h4⟩ := makeIntervals_coords g o a.get
  have hb : ((makeIntervals g a.get o).2.map fun i => i.before.policy) = o.dropLast := by
    have := congrArg (List.map Prod.fst) h1
    rw [List.map_map] at this
    refine this.trans ?_
    unfold consecutive
    clear_value o
    cases o with
    | nil => rfl
    | cons x o =>
      rw [List.tail_cons]
      clear * -
      induction o generalizing x with
      | nil => rfl
      | cons y o ih => simp [ih]
  have hf : ((makeIntervals g a.get o).2.map fun i => i.after.policy) = o.tail := by
    have := congrArg (List.map Prod.snd) h1
    rw [List.map_map] at this
    refine this.trans ?_
    unfold consecutive
    rw [List.map_snd_zip]
    simp
  refine ⟨o, hp.nodup_iff.mpr (nodup_enabledPointers a), fun k => hp.mem_iff.trans mem_enabledPointers, hs,
    by rw [e]; exact hb, by rw [e]; exact hf, ?_, ?_, ?_⟩
  · rw [e]
    have := congrArg List.length hf
    rw [List.length_map, List.length_tail, hp.length_eq] at this
    exact this
  · rw [e]
    intro i hi
    obtain ⟨p1, p2, p3, p4, p5⟩ := h2 i hi
    obtain ⟨q1, q2⟩ := h4 i hi
    refine ⟨?_, q2, p1, p2, p3, p4, p5⟩
    rw [q1]
    have hmem : (i.before.policy, i.after.policy) ∈ consecutive o := by
      rw [← h1]; exact List.mem_map.mpr ⟨i, hi, rfl⟩
    have : (a.get i.before.policy).coord ≤ (a.get i.after.policy).coord := by
      obtain ⟨n, hn, hnn⟩ := List.getElem_of_mem hmem
      simp only [consecutive, List.getElem_zip, Prod.mk.injEq, List.getElem_tail] at hnn
      have hlen : n + 1 < o.length := by
        simp only [consecutive, List.length_zip, List.length_tail] at hn
        omega
      have := List.pairwise_iff_getElem.mp hs n (n + 1) (by omega) hlen (by omega)
      rw [hnn.1, hnn.2] at this
      exact this
    rw [abs_sub_comm, abs_of_nonneg (by linarith)]
  · intro k
    rw [e]
    by_cases hk : k < a.policies.length
    · obtain ⟨d, hd⟩ := h3 k
      exact ⟨d, (withPolicies_get hk).trans hd⟩
    · refine ⟨(a.get k).d, ?_⟩
      have : ∀ x : Axis, x.policies.length = a.policies.length → x.get k = a.get k := by
        intro x hx; simp [Axis.get, hk, hx]
      rw [this _ (by simp [Axis.withPolicies, Axis.pointers])]

/-! ## C24, C25: the mesh of an axis -/

/-- Intervals whose spacing limit was changed to one that is positive and at most `D`. -/
def Relimited (D : ℚ) (l l' : List Interval) : Prop :=
  Forall₂ (fun i j => ∃ d, j = { i with dmax := d } ∧ 0 < d ∧ d ≤ D) l l'

/-- The common part of C24, C25 and C83: the mesh of an axis, with other spacing limits. -/
theorem mesh_zoned (S : Sorter Nat) (S' : Sorter Interval) (T : Sorter ℚ) (g : MeshParams) (a : Axis)
    (hg : g.InRange) (hc : a.Coherent) (hs : a.Separated) (hd : a.PositiveD) (hi : a.intervals = [])
    (hm : a.meshlines = []) {D : ℚ} (hD : 0 < D) {ivs : List Interval}
    (hz : Relimited D (a.detectIntervals S g).intervals ivs) :
    ∃ (o : List Nat) (b : Axis) (ls : List (List ℚ)), o.Perm a.enabledPointers ∧ o.IsChain (fun i j => (a.get i).coord < (a.get j).coord) ∧
      ({ a.detectIntervals S g with intervals := ivs }).mesh S' T = some b ∧
      Forall₂ (fun pq l => LinesBetween D pq.1 pq.2 l) (consecutive (o.map a.get)) ls ∧
      b.meshlines = weave (o.map a.get) ls ∧ b.meshlines.IsChain (Step D) ∧ OnlyD a.get b.get ∧
      ivs.map (fun i => (i.before.policy, i.after.policy)) = consecutive o ∧ b.conflicts = a.conflicts ∧
      (∀ i ∈ ivs, i.m = ((a.get i.before.policy).coord + (a.get i.after.policy).coord) / 2) ∧
      Forall₂ (fun i l => LinesBetween i.dmax (a.get i.before.policy) (a.get i.after.policy) l) ivs ls := by
  obtain ⟨ps, hlow, hpol, hcf, hml, hok, hpairs⟩ := detectIntervals_spec (S := S) hg hs hd hi
  have hperm := S.perm (fun i => (a.get i).coord) a.enabledPointers
  have hchain := sorted_chain (S := S) hs
  have hpairs' : ivs.map (fun i => (i.before.policy, i.after.policy)) =
      consecutive (S.sort (fun i => (a.get i).coord) a.enabledPointers) := by
    rw [← hpairs]
    unfold Relimited at hz
    clear hpairs hok
    revert hz
    generalize (a.detectIntervals S g).intervals = l
    intro hz
    induction hz with
    | nil => rfl
    | cons h _ ih =>
      obtain ⟨d, rfl, -⟩ := h
      rw [List.map_cons, List.map_cons, ih]
  set x := a.detectIntervals S g with hx
  have hok' : ∀ i ∈ ivs, i.Ok x.get ∧ i.dmax ≤ D := by
    intro j hj
    obtain ⟨n, hn, rfl⟩ := List.getElem_of_mem hj
    obtain ⟨hlen, hall⟩ := List.forall₂_iff_get.mp hz
    obtain ⟨d, e, h1, h2⟩ := hall n (by omega) hn
    simp only [List.get_eq_getElem] at e
    obtain ⟨h, -⟩ := hok _ (List.getElem_mem (by omega : n < x.intervals.length))
    rw [e]
    exact ⟨⟨h1, h.distinct, h.coord_lt, h.h_eq, h.m_eq, h.smooth_b, h.smooth_a, h.d_b, h.d_a⟩, h2⟩
  have hlen : x.policies.length = a.policies.length := by
    rw [hpol]; simp [Axis.withPolicies, Axis.pointers]
  have hget : ∀ k, k < a.policies.length → x.get k = ps k := by
    intro k hk
    have : x.get k = (a.withPolicies ps).get k := by unfold Axis.get; rw [hpol]
    rw [this, withPolicies_get hk]
  have honly : OnlyD a.get x.get := by
    intro k
    by_cases hk : k < a.policies.length
    · exact ⟨(ps k).d, by rw [hget k hk]; exact hlow.same k⟩
    · refine ⟨(a.get k).d, ?_⟩
      simp [Axis.get, hk, hlen]
  have hpe : x.enabledPointers = a.enabledPointers := by
    unfold Axis.enabledPointers Axis.pointers
    rw [hlen]
    refine List.filter_congr fun k _ => ?_
    obtain ⟨d, hd⟩ := honly k
    rw [hd]
  obtain ⟨b, ps2, ls, h1, h2, h3, hbc, h4, h5, h6⟩ := axisMesh_spec (S := S') (T := T) (a := { x with intervals := ivs })
    (D := D) hD (o := S.sort (fun i => (a.get i).coord) a.enabledPointers)
    (by
      have : ({ x with intervals := ivs } : Axis).enabledPointers = x.enabledPointers := rfl
      rw [this, hpe]; exact hperm)
    (hchain.imp fun i j h => by
      obtain ⟨d, hd⟩ := honly i
      obtain ⟨d', hd'⟩ := honly j
      show (x.get i).coord < (x.get j).coord
      rw [hd, hd']; exact h.2)
    hpairs' hok'
    (by
      intro i hi
      obtain ⟨d, hd⟩ := honly i
      show ¬ ((x.get i).kind = .thirds ∧ (x.get i).normal = .none)
      rw [hd]
      have := coherent_get hc i
      unfold Policy.Coherent at this
      tauto) (hml.trans hm)
  have hp : ∀ k, oneLine (x.get k) = oneLine (a.get k) ∧ kBefore (x.get k) = kBefore (a.get k) ∧
      kAfter (x.get k) = kAfter (a.get k) ∧ (x.get k).coord = (a.get k).coord := by
    intro k
    obtain ⟨d, hd⟩ := honly k
    rw [hd]
    exact ⟨rfl, rfl, rfl, rfl⟩
  have h4' : Forall₂ (fun i l => LinesBetween i.dmax (a.get i.before.policy) (a.get i.after.policy) l) ivs ls := by
    refine h4.imp fun i l h => ?_
    change LinesBetween i.dmax (x.get i.before.policy) (x.get i.after.policy) l at h
    unfold LinesBetween at h ⊢
    simp only [(hp _).1, (hp _).2.1, (hp _).2.2.1, (hp _).2.2.2] at h
    have le : ∀ k, (x.get k).d ≤ (a.get k).d := by
      intro k
      by_cases hk : k < a.policies.length
      · rw [hget k hk]; exact hlow.le k
      · simp [Axis.get, hk, hlen]
    obtain ⟨dp, dq, mid, h1, h2, h3, h4, h5, h6, h7, h8⟩ := h
    exact ⟨dp, dq, mid, h1, h2, h3, h4, h5, h6, h7.trans (le _), h8.trans (le _)⟩
  have hcons : Forall₂ (fun pq l => LinesBetween D pq.1 pq.2 l)
      (consecutive ((S.sort (fun i => (a.get i).coord) a.enabledPointers).map a.get)) ls := by
    rw [consecutive_map, ← hpairs', List.map_map]
    refine forall₂_map_left ?_
    rw [List.forall₂_iff_get] at h4' ⊢
    exact ⟨h4'.1, fun n hn hn' => (h4'.2 n hn hn').mono (hok' _ (List.get_mem _ _)).2⟩
  have hweave : weave ((S.sort (fun i => (a.get i).coord) a.enabledPointers).map a.get) ls =
      weave ((S.sort (fun i => (a.get i).coord) a.enabledPointers).map x.get) ls := by
    generalize S.sort (fun i => (a.get i).coord) a.enabledPointers = o
    clear h4 h4' h5 hcons
    induction o generalizing ls with
    | nil => rfl
    | cons x o ih =>
      cases o with
      | nil => simp [weave, (hp x).1]
      | cons y o =>
        cases ls with
        | nil => rfl
        | cons l ls =>
          have := ih ls
          simp only [List.map_cons, weave] at this ⊢
          rw [this, (hp x).1]
  refine ⟨_, b, ls, hperm, hchain.imp fun _ _ h => h.2, h1, hcons, h5.trans hweave.symm, h6, honly.trans ?_, hpairs',
    hbc.trans hcf, ?_, h4'⟩
  · intro k
    by_cases hk : k < x.policies.length
    · refine ⟨(ps2 k).d, ?_⟩
      have : b.get k = (x.withPolicies ps2).get k := by unfold Axis.get; rw [h3]; rfl
      rw [this, withPolicies_get hk]
      exact h2.same k
    · refine ⟨(x.get k).d, ?_⟩
      have : b.policies.length = x.policies.length := by
        rw [h3]; simp [Axis.withPolicies, Axis.pointers]
      simp [Axis.get, hk, this]
  · intro i hi
    have := (hok' i hi).1.m_eq
    rw [(hp _).2.2.2, (hp _).2.2.2] at this
    exact this

/-- The common part of C24 and C25. -/
theorem mesh_fresh (S : Sorter Nat) (S' : Sorter Interval) (T : Sorter ℚ) (g : MeshParams) (a : Axis)
    (hg : g.InRange) (hc : a.Coherent) (hs : a.Separated) (hd : a.PositiveD) (hi : a.intervals = [])
    (hm : a.meshlines = []) :
    ∃ (o : List Nat) (b : Axis) (ls : List (List ℚ)), o.Perm a.enabledPointers ∧ o.IsChain (fun i j => (a.get i).coord < (a.get j).coord) ∧
      (a.detectIntervals S g).mesh S' T = some b ∧
      Forall₂ (fun pq l => LinesBetween g.dmax pq.1 pq.2 l) (consecutive (o.map a.get)) ls ∧
      b.meshlines = weave (o.map a.get) ls ∧ b.meshlines.IsChain (Step g.dmax) ∧ OnlyD a.get b.get := by
  obtain ⟨-, -, -, -, -, hok, -⟩ := detectIntervals_spec (S := S) hg hs hd hi
  obtain ⟨o, b, ls, h1, h2, h3, h4, h5, h6, h7, -⟩ := mesh_zoned S S' T g a hg hc hs hd hi hm hg.dmax_pos
    (ivs := (a.detectIntervals S g).intervals) (by
      unfold Relimited
      rw [List.forall₂_same]
      intro i hi
      exact ⟨i.dmax, rfl, (hok i hi).1.dmax_pos, (hok i hi).2.le⟩)
  exact ⟨o, b, ls, h1, h2, h3, h4, h5, h6, h7⟩

/-- Lines woven from those of the intervals are those of ONELINE policies or between two consecutive policies. -/
theorem woven_between {a : Axis} {D : ℚ} {o : List Nat} {lines : List ℚ} {ls : List (List ℚ)} (hperm : o.Perm a.enabledPointers)
    (hchain : o.IsChain fun i j => (a.get i).coord < (a.get j).coord)
    (hf : Forall₂ (fun pq l => LinesBetween D pq.1 pq.2 l) (consecutive (o.map a.get)) ls) (hw : lines = weave (o.map a.get) ls) :
    ∀ y ∈ lines, (∃ k, a.Enabled k ∧ (a.get k).kind = .oneline ∧ y = (a.get k).coord) ∨
      ∃ i j, a.Enabled i ∧ a.Enabled j ∧ (a.get i).coord < (a.get j).coord ∧
        (∀ k, a.Enabled k → ¬ ((a.get i).coord < (a.get k).coord ∧ (a.get k).coord < (a.get j).coord)) ∧
        (a.get i).coord ≤ y ∧ y ≤ (a.get j).coord := by
  have hmem : ∀ k, k ∈ o ↔ a.Enabled k := fun k => hperm.mem_iff.trans mem_enabledPointers
  intro y hy
  rw [hw] at hy
  cases o with
  | nil => simp [weave] at hy
  | cons x o =>
    rcases weave_mem _ _ _ hf y hy with ⟨q, hq, h1, h2⟩ | ⟨q, r, hqr, h1, h2⟩
    · rw [← List.map_cons, List.mem_map] at hq
      obtain ⟨k, hk, rfl⟩ := hq
      exact Or.inl ⟨k, (hmem k).mp hk, h1, h2⟩
    · right
      rw [← List.map_cons, consecutive_map, List.mem_map] at hqr
      obtain ⟨⟨i, j⟩, hij, he⟩ := hqr
      simp only [Prod.mk.injEq] at he
      obtain ⟨rfl, rfl⟩ := he
      have hpw : (x :: o).Pairwise fun i j => (a.get i).coord < (a.get j).coord := by
        have : IsTrans Nat fun i j => (a.get i).coord < (a.get j).coord := ⟨fun _ _ _ => lt_trans⟩
        exact List.isChain_iff_pairwise.mp hchain
      obtain ⟨n, hn, hnn⟩ := List.getElem_of_mem hij
      simp only [consecutive, List.getElem_zip, Prod.mk.injEq, List.tail_cons] at hnn
      have hn' : n < o.length := by simpa [consecutive] using hn
      have hi0 : i ∈ x :: o := by rw [← hnn.1]; exact List.getElem_mem _
      have hj0 : j ∈ x :: o := by rw [← hnn.2]; exact List.mem_cons_of_mem _ (List.getElem_mem _)
      have hj1 : (x :: o)[n + 1]'(by simp; exact hn') = j := by simpa using hnn.2
      rw [List.pairwise_iff_getElem] at hpw
      refine ⟨i, j, (hmem i).mp hi0, (hmem j).mp hj0, ?_, ?_, h1, h2⟩
      · have := hpw n (n + 1) (by simp; omega) (by simp; exact hn') (by omega)
        rw [hj1] at this
        rw [← hnn.1]; exact this
      · intro k hk ⟨hk1, hk2⟩
        obtain ⟨m, hm, hmk⟩ := List.getElem_of_mem ((hmem k).mpr hk)
        rcases Nat.lt_trichotomy m n with h | h | h
        · have := hpw m n hm (by simp; omega) h
          rw [hmk, hnn.1] at this
          linarith
        · subst h; rw [hmk] at hnn; rw [hnn.1] at hk1; exact lt_irrefl _ hk1
        · rcases Nat.lt_or_ge (n + 1) m with h' | h'
          · have := hpw (n + 1) m (by simp; exact hn') hm h'
            rw [hj1, hmk] at this
            linarith
          · have : m = n + 1 := by omega
            subst this
            rw [hj1] at hmk; rw [hmk] at hk2; exact lt_irrefl _ hk2

/-- Near every policy that is ONELINE or not alone there is a line. -/
theorem woven_near {a : Axis} {D : ℚ} (hD : 0 < D) {o : List Nat} {lines : List ℚ} {ls : List (List ℚ)}
    (hperm : o.Perm a.enabledPointers)
    (hf : Forall₂ (fun pq l => LinesBetween D pq.1 pq.2 l) (consecutive (o.map a.get)) ls) (hw : lines = weave (o.map a.get) ls) :
    ∀ k, a.Enabled k → ((a.get k).kind = .oneline ∨ ∃ j, j ≠ k ∧ a.Enabled j) →
        ∃ y ∈ lines, |y - (a.get k).coord| ≤ D := by
  have hmem : ∀ k, k ∈ o ↔ a.Enabled k := fun k => hperm.mem_iff.trans mem_enabledPointers
  intro k hk hor
  cases o with
  | nil => exact absurd ((hmem k).mpr hk) (by simp)
  | cons x o =>
    have hlen : ls.length = (o.map a.get).length := by
      have := hf.length_eq
      simp [consecutive] at this
      simpa using this.symm
    by_cases hone : (a.get k).kind = .oneline
    · refine ⟨(a.get k).coord, ?_, by simpa using hD.le⟩
      rw [hw]
      exact weave_oneline_mem _ _ _ hlen _ (List.mem_map.mpr ⟨k, (hmem k).mpr hk, rfl⟩) hone
    · obtain ⟨j, hjk, hj⟩ := hor.resolve_left hone
      have hlo : 0 < o.length := by
        by_contra h
        have : o = [] := List.length_eq_zero_iff.mp (by omega)
        subst this
        have h1 := (hmem k).mpr hk
        have h2 := (hmem j).mpr hj
        simp at h1 h2
        exact hjk (h2.trans h1.symm)
      obtain ⟨n, hn, hnk⟩ := List.getElem_of_mem ((hmem k).mpr hk)
      rw [List.length_map] at hlen
      have hfn := (List.forall₂_iff_get.mp hf).2
      cases n with
      | zero =>
        have := hfn 0 (by simp [consecutive]; exact hlo) (by omega)
        simp only [List.get_eq_getElem, consecutive, List.getElem_zip, List.map_cons, List.getElem_cons_zero] at this
        have hx : x = k := by simpa using hnk
        rw [hx] at this
        obtain ⟨y, hy, hyd⟩ := (linesBetween_near this).1 hone
        refine ⟨y, ?_, hyd⟩
        rw [hw]
        exact weave_interval_mem _ _ _ (by simpa using hlen) 0 (by omega) y hy
      | succ n =>
        have hn' : n < o.length := by simpa using hn
        have := hfn n (by simp [consecutive]; exact hn') (by omega)
        simp only [List.get_eq_getElem, consecutive, List.getElem_zip, List.map_cons, List.tail_cons,
          List.getElem_map] at this
        have hx : o[n] = k := by simpa using hnk
        rw [hx] at this
        obtain ⟨y, hy, hyd⟩ := (linesBetween_near this).2 hone
        refine ⟨y, ?_, hyd⟩
        rw [hw]
        exact weave_interval_mem _ _ _ (by simpa using hlen) n (by omega) y hy

/-- The lines of ONELINE policies are among the woven ones. -/
theorem woven_oneline {a : Axis} {D : ℚ} {o : List Nat} {lines : List ℚ} {ls : List (List ℚ)} (hperm : o.Perm a.enabledPointers)
    (hf : Forall₂ (fun pq l => LinesBetween D pq.1 pq.2 l) (consecutive (o.map a.get)) ls) (hw : lines = weave (o.map a.get) ls)
    (k : Nat) (hk : a.Enabled k) (hk1 : (a.get k).kind = .oneline) : (a.get k).coord ∈ lines := by
  have hmem : ∀ k, k ∈ o ↔ a.Enabled k := fun k => hperm.mem_iff.trans mem_enabledPointers
  rw [hw]
  cases o with
  | nil => exact absurd ((hmem k).mpr hk) (by simp)
  | cons x o =>
    refine weave_oneline_mem _ _ _ ?_ _ (List.mem_map.mpr ⟨k, (hmem k).mpr hk, rfl⟩) hk1
    have := hf.length_eq
    simp [consecutive] at this
    simpa using this.symm

/-- C24. Detecting the intervals of an axis and meshing it ends, for any set of separated coherent policies. The
lines are in strictly increasing order (so sorted, without duplicates), every enabled ONELINE policy has a line at
its coordinate, and every other line lies between two consecutive enabled policies: none comes from a disabled
policy and none is outside the extent of the enabled ones. -/
theorem C24_axis_mesh (S : Sorter Nat) (S' : Sorter Interval) (T : Sorter ℚ) (g : MeshParams) (a : Axis)
    (hg : g.InRange) (hc : a.Coherent) (hs : a.Separated) (hd : a.PositiveD) (hi : a.intervals = [])
    (hm : a.meshlines = []) :
    ∃ b, (a.detectIntervals S g).mesh S' T = some b ∧ Increasing b.meshlines ∧
      (∀ k, a.Enabled k → (a.get k).kind = .oneline → (a.get k).coord ∈ b.meshlines) ∧
      (∀ y ∈ b.meshlines, (∃ k, a.Enabled k ∧ (a.get k).kind = .oneline ∧ y = (a.get k).coord) ∨
        ∃ i j, a.Enabled i ∧ a.Enabled j ∧ (a.get i).coord < (a.get j).coord ∧
          (∀ k, a.Enabled k → ¬ ((a.get i).coord < (a.get k).coord ∧ (a.get k).coord < (a.get j).coord)) ∧
          (a.get i).coord ≤ y ∧ y ≤ (a.get j).coord) ∧
      ∀ k, ∃ d, b.get k = { a.get k with d := d } := by
  obtain ⟨o, b, ls, hperm, hchain, hb, hf, hw, hst, honly⟩ := mesh_fresh S S' T g a hg hc hs hd hi hm
  have hmem : ∀ k, k ∈ o ↔ a.Enabled k := fun k => hperm.mem_iff.trans mem_enabledPointers
  refine ⟨b, hb, hst.imp fun _ _ h => h.1, ?_, ?_, honly⟩
  · exact woven_oneline hperm hf hw
  · exact woven_between hperm hchain hf hw

/-- C25. No gap between consecutive lines exceeds `dmax`; and near every enabled policy that is ONELINE or not
alone there is a line, at most `dmax` away, so that the ends of the axis are not left out. -/
theorem C25_gaps (S : Sorter Nat) (S' : Sorter Interval) (T : Sorter ℚ) (g : MeshParams) (a : Axis)
    (hg : g.InRange) (hc : a.Coherent) (hs : a.Separated) (hd : a.PositiveD) (hi : a.intervals = [])
    (hm : a.meshlines = []) :
    ∃ b, (a.detectIntervals S g).mesh S' T = some b ∧ GapsAtMost g.dmax b.meshlines ∧
      ∀ k, a.Enabled k → ((a.get k).kind = .oneline ∨ ∃ j, j ≠ k ∧ a.Enabled j) →
        ∃ y ∈ b.meshlines, |y - (a.get k).coord| ≤ g.dmax := by
  obtain ⟨o, b, ls, hperm, hchain, hb, hf, hw, hst, honly⟩ := mesh_fresh S S' T g a hg hc hs hd hi hm
  have hmem : ∀ k, k ∈ o ↔ a.Enabled k := fun k => hperm.mem_iff.trans mem_enabledPointers
  refine ⟨b, hb, hst.imp fun _ _ h => h.2, ?_⟩
  exact woven_near hg.dmax_pos hperm hf hw

theorem d_step {g : MeshParams} {a b : Axis} {i j : Nat} (hg : 0 < g.dmax) (hi : a.Enabled i) (hj : a.Enabled j)
    (hd : a.PositiveD) (h : a.addTooClose i j = some b) : (b.solveConflict g i j).PositiveD := by
  intro k hk
  rcases enabled_step hi hj h k hk with ⟨h1, -, -, h4⟩ | ⟨-, kind, normal, coord, -, h4⟩
  · rw [h4]; exact hd k h1
  · rw [h4]; simp only [Policy.make]; linarith

/-- C24 and C25 from any set of policies. Whatever the coherent policies of a fresh axis, merging the too-close ones
with a limit that is not negative, detecting the intervals and meshing ends, with lines in strictly increasing
order, no gap above `dmax`, all within the extent of the policies enabled at the start. -/
theorem C25_whole_axis (S : Sorter Nat) (S' : Sorter Interval) (T : Sorter ℚ) (g : MeshParams) (a : Axis)
    (hg : g.InRange) (hl : 0 ≤ g.proximityLimit) (hu : a.Unmerged) (hc : a.Coherent) (hd : a.PositiveD)
    (hi : a.intervals = []) (hm : a.meshlines = []) :
    ∃ b c, a.solveTooClose S g = some b ∧ (b.detectIntervals S g).mesh S' T = some c ∧
      Increasing c.meshlines ∧ GapsAtMost g.dmax c.meshlines ∧
      ∀ y ∈ c.meshlines, ∃ i j, a.Enabled i ∧ a.Enabled j ∧ (a.get i).coord ≤ y ∧ y ≤ (a.get j).coord := by
  let P : Axis → Prop := fun x => x.PositiveD ∧ x.Coherent ∧ x.intervals = [] ∧ x.meshlines = []
  have hstep : ∀ x i j y, x.Unmerged → P x → x.detectClosest S g.proximityLimit = some (i, j) →
      x.addTooClose i j = some y → P (y.solveConflict g i j) := by
    intro x i j y _ ⟨h1, h2, h3, h4⟩ hdc hy
    obtain ⟨hi, hj, -, -⟩ := detectClosest_some hdc
    obtain ⟨-, -, -, e1, e2⟩ := addTooClose_some hi hj hy
    refine ⟨d_step hg.dmax_pos hi hj h1 hy, coherent_step h2 hy, ?_, ?_⟩
    · rcases solveConflict_cases g y i j with he | ⟨_, _, _, _, he⟩ <;> rw [he] <;> exact e1.trans h3
    · rcases solveConflict_cases g y i j with he | ⟨_, _, _, _, he⟩ <;> rw [he] <;> exact e2.trans h4
  obtain ⟨b, hb, -, ⟨hbd, hbc, hbi, hbm⟩, hnone⟩ := solveTooClose_induct S g P hstep _ a le_rfl hu ⟨hd, hc, hi, hm⟩
  have hsep : b.Separated := by
    intro i j hi hj hne h
    have := detectClosest_none hnone i j hi hj hne
    rw [h, sub_self, abs_zero] at this
    linarith
  obtain ⟨c, hcm, hinc, -, hwhere, -⟩ := C24_axis_mesh S S' T g b hg hbc hsep hbd hbi hbm
  obtain ⟨c', hcm', hgap, -⟩ := C25_gaps S S' T g b hg hbc hsep hbd hbi hbm
  rw [hcm] at hcm'
  cases hcm'
  refine ⟨b, c, hb, hcm, hinc, hgap, ?_⟩
  have hext := (C27_extent S g a b hu hc hb).1
  intro y hy
  rcases hwhere y hy with ⟨k, hk, -, rfl⟩ | ⟨i, j, hi, hj, -, -, h1, h2⟩
  · exact hext k hk
  · obtain ⟨i1, -, e1, -, e2, -⟩ := hext i hi
    obtain ⟨-, j1, -, e3, -, e4⟩ := hext j hj
    exact ⟨i1, j1, e1, e3, e2.trans h1, h2.trans e4⟩

/-! ## Examples -/

/-- Four policies, two of them too close. -/
def sampleAxis : Axis where
  policies := [Policy.make 2 10 .halfs .none true, Policy.make 2 0 .oneline .none true,
    Policy.make 2 (1 / 2) .thirds .max true, Policy.make 2 5 .thirds .min false]
  conflicts := []
  intervals := []
  meshlines := []

/-- Parameters of the examples. -/
def sampleParams : MeshParams := ⟨1, 3 / 2, 2, 2⟩

theorem sampleParams_ok : sampleParams.InRange := ⟨by norm_num [sampleParams], by norm_num [sampleParams]⟩
theorem sampleAxis_unmerged : sampleAxis.Unmerged := by intro c hc; simp [sampleAxis] at hc
theorem sampleAxis_coherent : sampleAxis.Coherent := by
  intro p hp
  simp only [sampleAxis, List.mem_cons, List.not_mem_nil, or_false] at hp
  rcases hp with rfl | rfl | rfl | rfl <;> simp [Policy.Coherent, Policy.make]
theorem sampleAxis_enabled (k : Nat) : sampleAxis.Enabled k ↔ k < 3 := by
  unfold Axis.Enabled
  match k with
  | 0 => simp [sampleAxis, Policy.make]
  | 1 => simp [sampleAxis, Policy.make]
  | 2 => simp [sampleAxis, Policy.make]
  | 3 => simp [sampleAxis, Policy.make]
  | k + 4 => simp [sampleAxis]
theorem sampleAxis_d : sampleAxis.PositiveD := by
  intro k hk
  rw [sampleAxis_enabled] at hk
  interval_cases k <;> simp [sampleAxis, Axis.get, Policy.make]
theorem sampleAxis_separated : sampleAxis.Separated := by
  intro i j hi hj
  rw [sampleAxis_enabled] at hi hj
  interval_cases i <;> interval_cases j <;> norm_num [sampleAxis, Axis.get, Policy.make]

/-- The two policies at distance 1/2 are found, and merged. -/
example : sampleAxis.detectClosest (Sorter.insertion Nat) sampleParams.proximityLimit = some (1, 2) := by decide +kernel
example : ∃ b, sampleAxis.solveTooClose (Sorter.insertion Nat) sampleParams = some b ∧
    ∀ i j, b.Enabled i → b.Enabled j → i ≠ j → 1 < |(b.get i).coord - (b.get j).coord| :=
  C26_terminates_and_separates _ sampleParams _ sampleAxis_unmerged

/-- An enabled policy in a conflict makes the loop endless. -/
example : ({ sampleAxis with conflicts := [(3, 1)] } : Axis).solveTooClose (Sorter.insertion Nat) sampleParams = none :=
  C26_conflicting_diverges _ _ _ 1 2 (by decide +kernel) rfl

example : mergeChoice (Policy.make 2 0 .oneline .none true) (Policy.make 2 (1 / 2) .thirds .max true) =
    some (.oneline, .none, 0) := by decide +kernel

example (b : Axis) (h : sampleAxis.solveTooClose (Sorter.insertion Nat) sampleParams = some b) : ∃ k, b.Enabled k :=
  (C27_extent _ _ _ _ sampleAxis_unmerged sampleAxis_coherent h).2 ⟨0, (sampleAxis_enabled 0).mpr (by norm_num)⟩

/-- Three enabled policies make two intervals, from 0 to 1/2 and from 1/2 to 10. -/
example : (sampleAxis.detectIntervals (Sorter.insertion Nat) sampleParams).intervals.map
    (fun i => (i.before.policy, i.after.policy, i.h)) = [(1, 2, 1 / 4), (2, 0, 19 / 4)] := by decide +kernel
example := C28_intervals_tile (Sorter.insertion Nat) sampleParams sampleAxis rfl

example : (sampleAxis.addPolicy sampleParams .thirds .none 7 true).2 = false := by decide +kernel
example : (sampleAxis.addPolicy sampleParams .thirds .max 7 true).2 = true := by decide +kernel
example (b : Axis) (h : [AxisOp.create sampleParams .thirds .max 7 true, .merge (Sorter.insertion Nat) sampleParams,
    .edit 0 .thirds .none true 3, .detect (Sorter.insertion Nat) sampleParams,
    .mesh (Sorter.insertion Interval) (Sorter.insertion ℚ)].foldlM AxisOp.run sampleAxis = some b) : b.Coherent :=
  C29_always_coherent _ _ _ sampleAxis_coherent h

example : ∃ b, (sampleAxis.detectIntervals (Sorter.merge Nat) sampleParams).mesh (Sorter.merge Interval)
    (Sorter.merge ℚ) = some b ∧ (0 : ℚ) ∈ b.meshlines := by
  obtain ⟨b, hb, -, h, -⟩ := C24_axis_mesh (Sorter.merge Nat) (Sorter.merge Interval) (Sorter.merge ℚ) sampleParams
    sampleAxis sampleParams_ok sampleAxis_coherent sampleAxis_separated sampleAxis_d rfl rfl
  exact ⟨b, hb, h 1 ((sampleAxis_enabled 1).mpr (by norm_num)) rfl⟩
example := C25_gaps (Sorter.merge Nat) (Sorter.merge Interval) (Sorter.merge ℚ) sampleParams
    sampleAxis sampleParams_ok sampleAxis_coherent sampleAxis_separated sampleAxis_d rfl rfl
example := C25_whole_axis (Sorter.merge Nat) (Sorter.merge Interval) (Sorter.merge ℚ) sampleParams
    sampleAxis sampleParams_ok (by norm_num [sampleParams]) sampleAxis_unmerged sampleAxis_coherent sampleAxis_d rfl rfl

end Verif.Mesh
