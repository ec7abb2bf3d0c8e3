import Verif.Props.Around

/-! # The `d` a policy is left with, and the lines next to it -/

namespace Verif.Mesh
open Spec List

/-- The lines of an interval start and end at the shares of `dp` and `dq`. -/
def Lined (ps : Policies) (i : Interval) (l : List ℚ) (dp dq : ℚ) : Prop :=
  ((ps i.before.policy).kind ≠ .oneline → (ps i.before.policy).coord + kBefore (ps i.before.policy) * dp ∈ l) ∧
  ((ps i.after.policy).kind ≠ .oneline → (ps i.after.policy).coord - kAfter (ps i.after.policy) * dq ∈ l) ∧
  ∀ y ∈ l, (ps i.before.policy).coord + kBefore (ps i.before.policy) * dp ≤ y ∧
    y ≤ (ps i.after.policy).coord - kAfter (ps i.after.policy) * dq

theorem lined_mesh {i : Interval} {ps : Policies} {D : ℚ} (h : (i.extended ps).IsChain (Step D)) :
    Lined ps i (i.mesh ps) (ps i.before.policy).d (ps i.after.policy).d := by
  have eb := congrFun (dInitBefore_eq (ps i.before.policy)) (ps i.before.policy).d
  have ea := congrFun (dInitAfter_eq (ps i.after.policy)) (ps i.after.policy).d
  refine ⟨fun hb => ?_, fun ha => ?_, fun y hy => ?_⟩
  · rw [← eb]; unfold Interval.mesh; simp [hb]
  · obtain ⟨l, hl⟩ := mesh_last i ps ha
    rw [hl, ← ea]; simp
  · obtain ⟨l, hl⟩ := extended_shape i ps
    rw [hl] at h
    have := chain_bounds h y (hl ▸ (mesh_infix i ps).subset hy)
    rw [eb, ea] at this
    exact this

theorem Lined.lowered {ps ps' : Policies} (h : Lowered ps ps') {i : Interval} {l : List ℚ} {dp dq : ℚ}
    (hl : Lined ps' i l dp dq) : Lined ps i l dp dq := by
  unfold Lined at hl ⊢
  rw [kBefore_congr (h.kind _) (h.normal _), kAfter_congr (h.kind _) (h.normal _), h.coord, h.coord, h.kind, h.kind] at hl
  exact hl

theorem Lined.same {ps : Policies} {i j : Interval} (h : SameInterval i j) {l : List ℚ} {dp dq : ℚ} (hl : Lined ps j l dp dq) :
    Lined ps i l dp dq := by
  unfold Lined at hl ⊢
  rw [h.pb, h.pa] at hl
  exact hl

/-- An interval has a policy at one of its ends. -/
def Touches (i : Interval) (k : Nat) : Prop := i.before.policy = k ∨ i.after.policy = k

/-- The second loop of `mesh`: the lines around a policy are at the shares of at least the `d` it is left with, and of this
very `d` in the last interval that was meshed at it. -/
theorem meshAll_final (ivs : List Interval) : ∀ (ps : Policies), (∀ i ∈ ivs, i.Ok ps) →
    ∃ ps' ivs' ls, meshAll ps ivs = some (ps', ivs', ls) ∧ Lowered ps ps' ∧
      Forall₂ (fun i l => ∃ dp dq, (ps' i.before.policy).d ≤ dp ∧ (ps' i.after.policy).d ≤ dq ∧ Lined ps i l dp dq) ivs ls ∧
      (∀ k, (∃ i ∈ ivs, Touches i k) → ∃ i l, (i, l) ∈ ivs.zip ls ∧
        ((i.before.policy = k ∧ ∃ dq, Lined ps i l (ps' k).d dq) ∨ (i.after.policy = k ∧ ∃ dp, Lined ps i l dp (ps' k).d))) ∧
      ∀ k, (∀ i ∈ ivs, ¬ Touches i k) → ps' k = ps k := by
  induction ivs with
  | nil => intro ps _; exact ⟨ps, [], [], rfl, Lowered.refl ps, Forall₂.nil, by simp, by simp⟩
  | cons i ivs ih =>
    intro ps hok
    have hi := hok i (by simp)
    obtain ⟨ps1, i1, h1, hok1, hs, hlow, hoth, hdb, hda, -, -, -, hchain, -⟩ := solveAndMesh_spec hi
    obtain ⟨ps2, ivs2, ls2, h2, hlow2, hall, htouch, hnot⟩ := ih ps1 fun k hk => (hok k (by simp [hk])).lowered hlow
    have hlined : Lined ps i (i1.mesh ps1) (ps1 i.before.policy).d (ps1 i.after.policy).d := by
      have := lined_mesh hchain
      rw [hs.pb, hs.pa] at this
      exact (this.same hs).lowered hlow
    refine ⟨ps2, i1 :: ivs2, i1.mesh ps1 :: ls2, ?_, hlow.trans hlow2, Forall₂.cons ?_ ?_, ?_, ?_⟩
    · simp [meshAll, h1, h2]
    · exact ⟨_, _, hlow2.le _, hlow2.le _, hlined⟩
    · exact hall.imp fun _ _ ⟨dp, dq, a, b, c⟩ => ⟨dp, dq, a, b, c.lowered hlow⟩
    · rintro k ⟨j, hj, hjk⟩
      by_cases hr : ∃ j ∈ ivs, Touches j k
      · obtain ⟨j, l, hjl, h⟩ := htouch k hr
        refine ⟨j, l, by simp [hjl], ?_⟩
        rcases h with ⟨e, dq, h⟩ | ⟨e, dp, h⟩
        · exact .inl ⟨e, dq, h.lowered hlow⟩
        · exact .inr ⟨e, dp, h.lowered hlow⟩
      · have he : ps2 k = ps1 k := hnot k fun j hj h => hr ⟨j, hj, h⟩
        have hj : j = i := by
          rcases List.mem_cons.1 hj with h | h
          · exact h
          · exact absurd ⟨j, h, hjk⟩ hr
        subst hj
        refine ⟨j, i1.mesh ps1, by simp, ?_⟩
        rcases hjk with rfl | rfl
        · exact .inl ⟨rfl, _, by rw [he]; exact hlined⟩
        · exact .inr ⟨rfl, _, by rw [he]; exact hlined⟩
    · intro k hk
      rw [hnot k fun j hj => hk j (by simp [hj])]
      have := hk i (by simp)
      unfold Touches at this
      push Not at this
      exact hoth k (Ne.symm this.1) (Ne.symm this.2)

/-! ## Neighbours in a sorted list -/

theorem consecutive_gap {f : Nat → ℚ} {o : List Nat} (ho : o.IsChain fun i j => f i < f j) {x y : Nat}
    (h : (x, y) ∈ consecutive o) : x ∈ o ∧ y ∈ o ∧ (∀ k ∈ o, f k < f y → f k ≤ f x) ∧ ∀ k ∈ o, f x < f k → f y ≤ f k := by
  have hp : ∀ i j (hi : i < o.length) (hj : j < o.length), i < j → f o[i] < f o[j] := by
    have := (List.isChain_map (R := (· < ·)) f).2 ho
    have := List.pairwise_map.1 (List.isChain_iff_pairwise.1 this)
    intro i j hi hj h
    exact List.pairwise_iff_getElem.1 this i j hi hj h
  unfold consecutive at h
  obtain ⟨n, hn, e⟩ := List.getElem_of_mem h
  rw [List.getElem_zip, Prod.mk.injEq, List.getElem_tail] at e
  rw [List.length_zip, List.length_tail] at hn
  obtain ⟨rfl, rfl⟩ := e
  refine ⟨List.getElem_mem _, List.getElem_mem _, ?_, ?_⟩
  · intro k hk hlt
    obtain ⟨m, hm, rfl⟩ := List.getElem_of_mem hk
    by_contra hcon
    push Not at hcon
    rcases lt_trichotomy m n with h | rfl | h
    · linarith [hp m n hm (by omega) h]
    · exact lt_irrefl _ hcon
    · rcases Nat.lt_or_eq_of_le (show n + 1 ≤ m by omega) with h' | rfl
      · linarith [hp (n + 1) m (by omega) hm h']
      · exact lt_irrefl _ hlt
  · intro k hk hlt
    obtain ⟨m, hm, rfl⟩ := List.getElem_of_mem hk
    rcases lt_trichotomy m n with h | rfl | h
    · linarith [hp m n hm (by omega) h]
    · exact absurd hlt (lt_irrefl _)
    · rcases Nat.lt_or_eq_of_le (show n + 1 ≤ m by omega) with h' | rfl
      · exact (hp (n + 1) m (by omega) hm h').le
      · exact le_rfl

theorem consecutive_above {f : Nat → ℚ} {o : List Nat} (ho : o.IsChain fun i j => f i < f j) {k j : Nat} (hk : k ∈ o)
    (hj : j ∈ o) (h : f k < f j) : ∃ y, (k, y) ∈ consecutive o := by
  have hp : ∀ i j (hi : i < o.length) (hj : j < o.length), i < j → f o[i] < f o[j] := by
    have := (List.isChain_map (R := (· < ·)) f).2 ho
    have := List.pairwise_map.1 (List.isChain_iff_pairwise.1 this)
    intro i j hi hj h
    exact List.pairwise_iff_getElem.1 this i j hi hj h
  obtain ⟨n, hn, rfl⟩ := List.getElem_of_mem hk
  obtain ⟨m, hm, rfl⟩ := List.getElem_of_mem hj
  have hnm : n < m := by
    by_contra hcon
    rcases Nat.lt_or_eq_of_le (show m ≤ n by omega) with h' | rfl
    · linarith [hp m n hm hn h']
    · exact lt_irrefl _ h
  refine ⟨o[n + 1], ?_⟩
  unfold consecutive
  have hl : n < (o.zip o.tail).length := by rw [List.length_zip, List.length_tail]; omega
  have : (o.zip o.tail)[n] = (o[n], o[n + 1]) := by rw [List.getElem_zip, List.getElem_tail]
  rw [← this]
  exact List.getElem_mem hl

theorem consecutive_below {f : Nat → ℚ} {o : List Nat} (ho : o.IsChain fun i j => f i < f j) {k j : Nat} (hk : k ∈ o)
    (hj : j ∈ o) (h : f j < f k) : ∃ x, (x, k) ∈ consecutive o := by
  have hp : ∀ i j (hi : i < o.length) (hj : j < o.length), i < j → f o[i] < f o[j] := by
    have := (List.isChain_map (R := (· < ·)) f).2 ho
    have := List.pairwise_map.1 (List.isChain_iff_pairwise.1 this)
    intro i j hi hj h
    exact List.pairwise_iff_getElem.1 this i j hi hj h
  obtain ⟨n, hn, rfl⟩ := List.getElem_of_mem hk
  obtain ⟨m, hm, rfl⟩ := List.getElem_of_mem hj
  have hnm : m < n := by
    by_contra hcon
    rcases Nat.lt_or_eq_of_le (show n ≤ m by omega) with h' | rfl
    · linarith [hp n m hn hm h']
    · exact lt_irrefl _ h
  refine ⟨o[n - 1], ?_⟩
  unfold consecutive
  have hl : n - 1 < (o.zip o.tail).length := by rw [List.length_zip, List.length_tail]; omega
  have : (o.zip o.tail)[n - 1] = (o[n - 1], o[n]) := by
    rw [List.getElem_zip, List.getElem_tail]
    congr 2
    congr 1
    omega
  rw [← this]
  exact List.getElem_mem hl

/-- The lines of a mesh next to its policies, whatever the order of the intervals. -/
theorem mesh_final {S : Sorter Interval} {T : Sorter ℚ} {x b : Axis} {o : List Nat}
    (hperm : o.Perm x.enabledPointers) (hchain : o.IsChain fun i j => (x.get i).coord < (x.get j).coord)
    (hpairs : x.intervals.map (fun i => (i.before.policy, i.after.policy)) = consecutive o)
    (hok : ∀ i ∈ x.intervals, i.Ok x.get) (hml : x.meshlines = []) (hb : x.mesh S T = some b) (k : Nat) (hk : x.Enabled k)
    (hone : (x.get k).kind ≠ .oneline) :
    (0 < (x.get k).d → 0 < (b.get k).d) ∧ (∀ y ∈ b.meshlines, (x.get k).coord < y → (∃ j, x.Enabled j ∧ (x.get k).coord < (x.get j).coord) →
      (x.get k).coord + kBefore (x.get k) * (b.get k).d ≤ y) ∧
    (∀ y ∈ b.meshlines, y < (x.get k).coord → (∃ j, x.Enabled j ∧ (x.get j).coord < (x.get k).coord) →
      y ≤ (x.get k).coord - kAfter (x.get k) * (b.get k).d) ∧
    ((∃ j, x.Enabled j ∧ (x.get j).coord ≠ (x.get k).coord) →
      (x.get k).coord + kBefore (x.get k) * (b.get k).d ∈ b.meshlines ∨
      (x.get k).coord - kAfter (x.get k) * (b.get k).d ∈ b.meshlines) := by
  have hsp := S.perm Interval.h x.intervals
  obtain ⟨ps1, iv1, h1, low1, f1⟩ := solveAllD_spec (S.sort Interval.h x.intervals) x.get
    fun i hi => hok i (hsp.mem_iff.mp hi)
  have ok1 : ∀ i ∈ iv1, i.Ok ps1 := by
    intro i hi
    obtain ⟨n, hn, rfl⟩ := List.getElem_of_mem hi
    have hlen := f1.length_eq
    have := (List.forall₂_iff_get.mp f1).2 n (by omega) hn
    simp only [List.get_eq_getElem] at this
    exact this.2.1
  obtain ⟨ps2, iv2, ls, h2, low2, f2, htouch, -⟩ := meshAll_final iv1 ps1 ok1
  have low := low1.trans low2
  have hmesh : x.mesh S T = some { x.withPolicies ps2 with
      intervals := iv2
      meshlines := T.sort id (x.meshlines ++ ls.flatten ++ (x.withPolicies ps2).policies.filterMap Policy.mesh) } := by
    simp only [Axis.mesh, h1, h2, Option.bind_eq_bind, Option.bind_some]
    rfl
  rw [hmesh] at hb
  cases hb
  have hlen : k < x.policies.length := (enabled_iff.1 hk).1
  have hget : (({ x.withPolicies ps2 with intervals := iv2, meshlines := T.sort id (x.meshlines ++ ls.flatten ++
      (x.withPolicies ps2).policies.filterMap Policy.mesh) } : Axis).get k).d = (ps2 k).d := by
    show ((x.withPolicies ps2).get k).d = _
    rw [withPolicies_get hlen]
  rw [hget]
  have hmem : ∀ k, k ∈ o ↔ x.Enabled k := fun k => hperm.mem_iff.trans mem_enabledPointers
  -- intervals of the second loop are those of the axis
  have hiv : ∀ i ∈ iv1, (i.before.policy, i.after.policy) ∈ consecutive o := by
    intro i hi
    obtain ⟨n, hn, rfl⟩ := List.getElem_of_mem hi
    have hlen := f1.length_eq
    have hs := ((List.forall₂_iff_get.mp f1).2 n (by omega) hn).1
    simp only [List.get_eq_getElem] at hs
    rw [← hpairs, hs.pb, hs.pa]
    exact List.mem_map.2 ⟨_, hsp.mem_iff.1 (List.getElem_mem _), rfl⟩
  have hiv' : ∀ p ∈ consecutive o, ∃ i ∈ iv1, (i.before.policy, i.after.policy) = p := by
    intro p hp
    rw [← hpairs] at hp
    obtain ⟨i, hi, rfl⟩ := List.mem_map.1 hp
    obtain ⟨n, hn, rfl⟩ := List.getElem_of_mem (hsp.mem_iff.2 hi)
    have hlen := f1.length_eq
    have hs := ((List.forall₂_iff_get.mp f1).2 n hn (by omega)).1
    simp only [List.get_eq_getElem] at hs
    exact ⟨iv1[n], List.getElem_mem _, by rw [hs.pb, hs.pa]⟩
  have hlines : ∀ i l, (i, l) ∈ iv1.zip ls → i ∈ iv1 ∧ l ∈ ls ∧
      ∃ dp dq, (ps2 i.before.policy).d ≤ dp ∧ (ps2 i.after.policy).d ≤ dq ∧ Lined x.get i l dp dq := by
    intro i l h
    obtain ⟨dp, dq, a1, a2, a3⟩ := (List.forall₂_iff_zip.1 f2).2 h
    exact ⟨(List.of_mem_zip h).1, (List.of_mem_zip h).2, dp, dq, a1, a2, a3.lowered low1⟩
  have hzip : ∀ i ∈ iv1, ∃ l, (i, l) ∈ iv1.zip ls := by
    intro i hi
    obtain ⟨n, hn, rfl⟩ := List.getElem_of_mem hi
    have hlen := f2.length_eq
    refine ⟨ls[n], ?_⟩
    have hl : n < (iv1.zip ls).length := by rw [List.length_zip]; omega
    have : (iv1.zip ls)[n] = (iv1[n], ls[n]) := List.getElem_zip
    rw [← this]; exact List.getElem_mem hl
  have hy : ∀ y, y ∈ T.sort id (x.meshlines ++ ls.flatten ++ (x.withPolicies ps2).policies.filterMap Policy.mesh) ↔
      (∃ i l, (i, l) ∈ iv1.zip ls ∧ y ∈ l) ∨ ∃ j, x.Enabled j ∧ y = (x.get j).coord ∧ (x.get j).kind = .oneline := by
    intro y
    rw [(T.perm _ _).mem_iff, hml, List.nil_append, List.mem_append, (flatMap_oneLine low).mem_iff]
    refine or_congr ?_ ?_
    · rw [List.mem_flatten]
      constructor
      · rintro ⟨l, hl, hyl⟩
        obtain ⟨n, hn, rfl⟩ := List.getElem_of_mem hl
        have hlen := f2.length_eq
        refine ⟨iv1[n], ls[n], ?_, hyl⟩
        have hl : n < (iv1.zip ls).length := by rw [List.length_zip]; omega
        have : (iv1.zip ls)[n] = (iv1[n], ls[n]) := List.getElem_zip
        rw [← this]; exact List.getElem_mem hl
      · rintro ⟨i, l, h, hyl⟩
        exact ⟨l, (List.of_mem_zip h).2, hyl⟩
    · rw [List.mem_flatMap]
      constructor
      · rintro ⟨j, hj, h⟩
        unfold oneLine at h
        split at h
        · rename_i hk'
          exact ⟨j, mem_enabledPointers.1 hj, List.mem_singleton.1 h, hk'⟩
        · cases h
      · rintro ⟨j, hj, rfl, hk'⟩
        exact ⟨j, mem_enabledPointers.2 hj, by simp [oneLine, hk']⟩
  have hd0 : ∀ j, x.Enabled j → (∃ i ∈ iv1, Touches i j) → 0 < (ps2 j).d := by
    rintro j - ⟨i, hi, rfl | rfl⟩
    · exact low2.pos _ (ok1 i hi).d_b
    · exact low2.pos _ (ok1 i hi).d_a
  have hbnd : ∀ i l, (i, l) ∈ iv1.zip ls → ∀ y ∈ l, (x.get i.before.policy).coord ≤ y ∧ y ≤ (x.get i.after.policy).coord := by
    intro i l h y hyl
    obtain ⟨hi, -, dp, dq, a1, a2, a3⟩ := hlines i l h
    have := a3.2.2 y hyl
    have e1 := mul_nonneg (kBefore_nonneg (x.get i.before.policy)) ((low2.pos _ (ok1 i hi).d_b).le.trans a1)
    have e2 := mul_nonneg (kAfter_nonneg (x.get i.after.policy)) ((low2.pos _ (ok1 i hi).d_a).le.trans a2)
    constructor <;> linarith
  refine ⟨low.pos k, ?_, ?_, ?_⟩
  · rintro y hyl hlt ⟨j, hj, hkj⟩
    obtain ⟨t, ht⟩ := consecutive_above hchain ((hmem k).2 hk) ((hmem j).2 hj) hkj
    obtain ⟨i, hi, hie⟩ := hiv' _ ht
    obtain ⟨l, hil⟩ := hzip i hi
    obtain ⟨-, -, dp, dq, a1, a2, a3⟩ := hlines i l hil
    rw [Prod.mk.injEq] at hie
    rw [hie.1] at a1
    have a4 := a3.1
    have a5 := (hbnd i l hil _ (a4 (by rw [hie.1]; exact hone))).2
    rw [hie.1, hie.2] at a5
    have a6 : kBefore (x.get k) * (ps2 k).d ≤ kBefore (x.get k) * dp := mul_le_mul_of_nonneg_left a1 (kBefore_nonneg _)
    obtain ⟨-, ht2, -, ht4⟩ := consecutive_gap hchain ht
    rcases (hy y).1 hyl with ⟨i', l', h', hy'⟩ | ⟨m, hm, rfl, -⟩
    · obtain ⟨hi', -, dp', dq', b1, b2, b3⟩ := hlines i' l' h'
      obtain ⟨g1, g2, g3, g4⟩ := consecutive_gap hchain (hiv i' hi')
      have c1 := (hbnd i' l' h' y hy').2
      have c2 := g3 k ((hmem k).2 hk) (lt_of_lt_of_le hlt c1)
      rcases eq_or_lt_of_le c2 with c2 | c2
      · have hbk : i'.before.policy = k := by
          by_contra hne
          have hn : o.Pairwise fun i j => (x.get i).coord < (x.get j).coord := by
            have := (List.isChain_map (R := (· < ·)) fun i => (x.get i).coord).2 hchain
            exact List.pairwise_map.1 (List.isChain_iff_pairwise.1 this)
          have hk' := (hmem k).2 hk
          obtain ⟨n1, hn1, e1⟩ := List.getElem_of_mem hk'
          obtain ⟨n2, hn2, e2⟩ := List.getElem_of_mem g1
          rcases lt_trichotomy n1 n2 with h | h | h
          · have := List.pairwise_iff_getElem.1 hn n1 n2 hn1 hn2 h
            rw [e1, e2] at this; linarith
          · subst h; exact hne (e2.symm.trans e1)
          · have := List.pairwise_iff_getElem.1 hn n2 n1 hn2 hn1 h
            rw [e1, e2] at this; linarith
        have := (b3.2.2 y hy').1
        rw [hbk] at this b1
        have := mul_le_mul_of_nonneg_left b1 (kBefore_nonneg (x.get k))
        linarith
      · have := ht4 _ g1 c2
        have := (hbnd i' l' h' y hy').1
        linarith
    · have := ht4 m ((hmem m).2 hm) hlt
      linarith
  · rintro y hyl hlt ⟨j, hj, hkj⟩
    obtain ⟨t, ht⟩ := consecutive_below hchain ((hmem k).2 hk) ((hmem j).2 hj) hkj
    obtain ⟨i, hi, hie⟩ := hiv' _ ht
    obtain ⟨l, hil⟩ := hzip i hi
    obtain ⟨-, -, dp, dq, a1, a2, a3⟩ := hlines i l hil
    rw [Prod.mk.injEq] at hie
    rw [hie.2] at a2
    have a4 := a3.2.1
    have a5 := (hbnd i l hil _ (a4 (by rw [hie.2]; exact hone))).1
    rw [hie.1, hie.2] at a5
    have a6 : kAfter (x.get k) * (ps2 k).d ≤ kAfter (x.get k) * dq := mul_le_mul_of_nonneg_left a2 (kAfter_nonneg _)
    obtain ⟨-, ht2, ht3, -⟩ := consecutive_gap hchain ht
    rcases (hy y).1 hyl with ⟨i', l', h', hy'⟩ | ⟨m, hm, rfl, -⟩
    · obtain ⟨hi', -, dp', dq', b1, b2, b3⟩ := hlines i' l' h'
      obtain ⟨g1, g2, g3, g4⟩ := consecutive_gap hchain (hiv i' hi')
      have c1 := (hbnd i' l' h' y hy').1
      have c2 := g4 k ((hmem k).2 hk) (lt_of_le_of_lt c1 hlt)
      rcases eq_or_lt_of_le c2 with c2 | c2
      · have hbk : i'.after.policy = k := by
          by_contra hne
          have hn : o.Pairwise fun i j => (x.get i).coord < (x.get j).coord := by
            have := (List.isChain_map (R := (· < ·)) fun i => (x.get i).coord).2 hchain
            exact List.pairwise_map.1 (List.isChain_iff_pairwise.1 this)
          have hk' := (hmem k).2 hk
          obtain ⟨n1, hn1, e1⟩ := List.getElem_of_mem hk'
          obtain ⟨n2, hn2, e2⟩ := List.getElem_of_mem g2
          rcases lt_trichotomy n1 n2 with h | h | h
          · have := List.pairwise_iff_getElem.1 hn n1 n2 hn1 hn2 h
            rw [e1, e2] at this; linarith
          · subst h; exact hne (e2.symm.trans e1)
          · have := List.pairwise_iff_getElem.1 hn n2 n1 hn2 hn1 h
            rw [e1, e2] at this; linarith
        have := (b3.2.2 y hy').2
        rw [hbk] at this b2
        have := mul_le_mul_of_nonneg_left b2 (kAfter_nonneg (x.get k))
        linarith
      · have := ht3 _ g2 c2
        have := (hbnd i' l' h' y hy').2
        linarith
    · have := ht3 m ((hmem m).2 hm) hlt
      linarith
  · rintro ⟨j, hj, hne⟩
    have : ∃ i ∈ iv1, Touches i k := by
      rcases lt_or_gt_of_ne hne with h | h
      · obtain ⟨t, ht⟩ := consecutive_below hchain ((hmem k).2 hk) ((hmem j).2 hj) h
        obtain ⟨i, hi, hie⟩ := hiv' _ ht
        exact ⟨i, hi, .inr (congrArg Prod.snd hie)⟩
      · obtain ⟨t, ht⟩ := consecutive_above hchain ((hmem k).2 hk) ((hmem j).2 hj) h
        obtain ⟨i, hi, hie⟩ := hiv' _ ht
        exact ⟨i, hi, .inl (congrArg Prod.fst hie)⟩
    obtain ⟨i, l, hil, h⟩ := htouch k this
    rcases h with ⟨rfl, dq, h⟩ | ⟨rfl, dp, h⟩
    · left
      rw [hy]
      exact .inl ⟨i, l, hil, (h.lowered low1).1 hone⟩
    · right
      rw [hy]
      exact .inl ⟨i, l, hil, (h.lowered low1).2.1 hone⟩

end Verif.Mesh
