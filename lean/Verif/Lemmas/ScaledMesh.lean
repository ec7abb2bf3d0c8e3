import Verif.Lemmas.Scaled
import Verif.Lemmas.Run
import Verif.Lemmas.MovedRun

/-! # Meshing an axis, when all lengths are multiplied -/

namespace Verif.Scaled
open Verif.Mesh
open Verif.Moved (Compares sorted_lt updateLs_policy)

variable {k : ℚ}

/-! ## Making intervals -/

theorem alike_setD {n : Nat} {ps qs : Policies} (h : Alike k n ps qs) (i : Nat) (d : ℚ) :
    Alike k n (ps.setD i d) (qs.setD i (k * d)) := by
  intro j hj
  unfold Policies.setD
  split
  · rename_i e
    subst e
    rw [h j hj]
    rfl
  · exact h j hj

theorem sideMake_alike (hk : 0 < k) {n : Nat} {ps qs : Policies} (h : Alike k n ps qs) {i : Nat} (hi : i < n) (lmin : Nat) (s hh : ℚ) :
    Alike k n (Side.make ps i lmin s hh).1 (Side.make qs i lmin s (k * hh)).1 ∧
      (Side.make qs i lmin s (k * hh)).2 = side k (Side.make ps i lmin s hh).2 := by
  refine ⟨?_, rfl⟩
  have e : (qs i).d = k * (ps i).d := by rw [h i hi]; rfl
  simp only [Side.make, e, gt_iff_lt, mul_lt_mul_iff_right₀ hk]
  split
  · exact alike_setD h i hh
  · exact h

theorem make_alike (hk : 0 < k) {n : Nat} {ps qs : Policies} (h : Alike k n ps qs) {i j : Nat} (hi : i < n) (hj : j < n) (lmin : Nat)
    (s dmax : ℚ) :
    Alike k n (Interval.make ps i j lmin s dmax).1 (Interval.make qs i j lmin s (k * dmax)).1 ∧
      (Interval.make qs i j lmin s (k * dmax)).2 = interval k (Interval.make ps i j lmin s dmax).2 := by
  have e : calcH (qs i).coord (qs j).coord = k * calcH (ps i).coord (ps j).coord := by
    rw [h i hi, h j hj]
    simp only [policy, calcH]
    rw [← mul_sub, abs_mul, abs_of_pos hk, mul_div_assoc]
  have h1 := sideMake_alike hk h hi lmin s (calcH (ps i).coord (ps j).coord)
  have h2 := sideMake_alike hk h1.1 hj lmin s (calcH (ps i).coord (ps j).coord)
  simp only [Interval.make, e]
  refine ⟨h2.1, ?_⟩
  rw [h2.1 i hi, h2.1 j hj]
  simp only [interval, policy, h1.2, h2.2, Interval.mk.injEq, true_and]
  ring

theorem makeIntervals_alike (hk : 0 < k) (g : MeshParams) {n : Nat} : ∀ (l : List Nat) {ps qs : Policies}, Alike k n ps qs →
    (∀ i ∈ l, i < n) → Alike k n (makeIntervals g ps l).1 (makeIntervals (params k g) qs l).1 ∧
      (makeIntervals (params k g) qs l).2 = (makeIntervals g ps l).2.map (interval k)
  | [], _, _, h, _ => ⟨h, rfl⟩
  | [_], _, _, h, _ => ⟨h, rfl⟩
  | i :: j :: rest, ps, qs, h, hl => by
    have h1 := make_alike hk h (hl i (by simp)) (hl j (by simp)) g.lmin g.smoothness g.dmax
    have h2 := makeIntervals_alike hk g (j :: rest) h1.1 fun k hk => hl k (List.mem_cons_of_mem _ hk)
    simp only [makeIntervals, List.map_cons]
    have e : (params k g).dmax = k * g.dmax ∧ (params k g).lmin = g.lmin ∧ (params k g).smoothness = g.smoothness := ⟨rfl, rfl, rfl⟩
    rw [e.1, e.2.1, e.2.2]
    exact ⟨h2.1, by rw [h1.2, h2.2]⟩

theorem withPolicies_axis (a : Axis) {ps qs : Policies} (h : Alike k a.policies.length ps qs) :
    (axis k a).withPolicies qs = axis k (a.withPolicies ps) := by
  unfold Axis.withPolicies
  rw [pointers_axis]
  have : a.pointers.map qs = (a.pointers.map ps).map (policy k) := by
    rw [List.map_map]
    exact List.map_congr_left fun i hi => h i (by simpa [Axis.pointers] using hi)
  rw [this]
  rfl

theorem detectIntervals_axis (hk : 0 < k) {S : Sorter Nat} (hS : Compares S) (g : MeshParams) (a : Axis) :
    (axis k a).detectIntervals S (params k g) = axis k (a.detectIntervals S g) := by
  unfold Axis.detectIntervals
  rw [sort_axis hk hS]
  have h := makeIntervals_alike hk g (S.sort (fun i => (a.get i).coord) a.enabledPointers) (alike_get (k := k) a) (sorted_lt _ a)
  simp only [h.2]
  rw [withPolicies_axis a h.1]
  simp [axis]

/-- An interval between two of the policies, to be meshed with a smoothness that is not below 1. -/
def Good (n : Nat) (i : Interval) : Prop :=
  (i.before.policy < n ∧ i.after.policy < n ∧ i.before.policy ≠ i.after.policy) ∧ 1 ≤ i.before.smoothness ∧ 1 ≤ i.after.smoothness

theorem Good.scaled {n : Nat} {i : Interval} (h : Good n i) : Good n (interval k i) := h

theorem makeIntervals_good (g : MeshParams) (hg : 1 ≤ g.smoothness) {n : Nat} : ∀ (l : List Nat) {ps : Policies}, (∀ i ∈ l, i < n) →
    l.Nodup → ∀ i ∈ (makeIntervals g ps l).2, Good n i
  | [], _, _, _ => by simp [makeIntervals]
  | [_], _, _, _ => by simp [makeIntervals]
  | i :: j :: rest, ps, hl, hn => by
    have := makeIntervals_good g hg (j :: rest) (ps := (Interval.make ps i j g.lmin g.smoothness g.dmax).1)
      (fun k hk => hl k (List.mem_cons_of_mem _ hk)) (List.nodup_cons.1 hn).2
    simp only [makeIntervals]
    intro k hk
    rcases List.mem_cons.mp hk with e | hk
    · subst e
      refine ⟨⟨hl i (by simp), hl j (by simp), ?_⟩, hg, hg⟩
      show i ≠ j
      rintro rfl
      simp at hn
    · exact this k hk

theorem detectIntervals_good {S : Sorter Nat} (g : MeshParams) (hg : 1 ≤ g.smoothness) (a : Axis) (h : a.intervals = []) :
    ∀ i ∈ (a.detectIntervals S g).intervals, Good (a.detectIntervals S g).policies.length i := by
  have hl : (a.detectIntervals S g).policies.length = a.policies.length := by
    simp [Axis.detectIntervals, Axis.withPolicies, Axis.pointers]
  rw [hl]
  have := makeIntervals_good g hg (ps := a.get) _ (sorted_lt (S := S) (fun i => (a.get i).coord) a)
    ((S.perm _ _).nodup_iff.2 (nodup_enabledPointers a))
  simpa [Axis.detectIntervals, h] using this

/-! ## Solving a side -/

/-- A distance that is multiplied with the cell. -/
def Follows (k : ℚ) (dInit : Policy → ℚ → ℚ) : Prop := ∀ p d, dInit (policy k p) (k * d) = k * dInit p d

theorem dInitBefore_follows : Follows k dInitBefore := by
  intro p d
  cases p with
  | mk coord kind normal enabled e =>
    cases kind <;> cases normal <;> simp [dInitBefore, policy] <;> ring

theorem dInitAfter_follows : Follows k dInitAfter := by
  intro p d
  cases p with
  | mk coord kind normal enabled e =>
    cases kind <;> cases normal <;> simp [dInitAfter, policy] <;> ring

theorem findLs_min (d σ dmax s : ℚ) : findLs (min d dmax) σ dmax s = findLs d σ dmax s := by
  unfold findLs
  rw [min_assoc, min_self]

section
variable {n : Nat} {ps qs : Policies} {dInit : Policy → ℚ → ℚ} {a b : Side} {dmax hh : ℚ}

theorem updateLs_alike (hk : 0 < k) (h : Alike k n ps qs) (hd : Follows k dInit) (hs : a.policy < n)
    (hu : a.updateLs dInit dmax hh ps = some b) :
    (side k a).updateLs dInit (k * dmax) (k * hh) qs = some (side k b) := by
  unfold Side.updateLs at hu ⊢
  simp only [Option.bind_eq_bind, Option.bind_eq_some_iff] at hu
  obtain ⟨ls, h1, hu⟩ := hu
  cases hu
  have e : qs (side k a).policy = policy k (ps a.policy) := h _ hs
  have e1 : (policy k (ps a.policy)).d = k * (ps a.policy).d := rfl
  have e2 : (side k a).smoothness = a.smoothness := rfl
  rw [e]
  dsimp only
  rw [e1, hd, ← mul_sub, e2, findLs_some hk h1]
  rfl

theorem updateLs_found (hu : a.updateLs dInit dmax hh ps = some b) :
    b.smoothness = a.smoothness ∧ ∃ s, findLs (min (ps b.policy).d dmax) b.smoothness dmax s = some b.ls := by
  unfold Side.updateLs at hu
  simp only [Option.bind_eq_bind, Option.bind_eq_some_iff] at hu
  obtain ⟨ls, h1, hu⟩ := hu
  cases hu
  exact ⟨rfl, _, by rw [findLs_min]; exact h1⟩

theorem adjustDLoop_some (hk : 0 < k) {f f' : ℚ → ℚ} (hf : ∀ d, f' (k * d) = k * f d) {σ dmax hh : ℚ} (hσ : 1 ≤ σ) {lmin : Nat} :
    ∀ cd ls r, adjustD.loop f σ dmax hh lmin cd ls = some r → (∃ s, findLs cd σ dmax s = some ls) →
      adjustD.loop f' σ (k * dmax) (k * hh) lmin (k * cd) (ls.map (k * ·)) = some (k * r) := by
  apply adjustD.loop.partial_correctness
  intro loop ih cd ls r h hl
  obtain ⟨s, hs⟩ := hl
  rw [adjustD.loop, valid_scaled hk hσ hs]
  split at h
  · rename_i hv
    rw [if_pos hv]
    cases h
    rfl
  · rename_i hv
    rw [if_neg hv]
    simp only [Option.bind_eq_bind, Option.bind_eq_some_iff] at h
    obtain ⟨ls', h1, h⟩ := h
    have e : k * cd - k * cd / 1000 = k * (cd - cd / 1000) := by ring
    dsimp only
    rw [e, hf, ← mul_sub, findLs_some hk h1]
    exact ih _ _ _ h ⟨_, h1⟩

theorem adjustD_alike (hk : 0 < k) (h : Alike k n ps qs) (hd : Follows k dInit) (hs : a.policy < n) (hσ : 1 ≤ a.smoothness)
    (hf : ∃ s, findLs (min (ps a.policy).d dmax) a.smoothness dmax s = some a.ls) {r : ℚ}
    (hu : adjustD a dInit dmax hh ps = some r) : adjustD (side k a) dInit (k * dmax) (k * hh) qs = some (k * r) := by
  unfold adjustD at hu ⊢
  have e : qs (side k a).policy = policy k (ps a.policy) := h _ hs
  rw [e]
  have e1 : min (policy k (ps a.policy)).d (k * dmax) = k * min (ps a.policy).d dmax := by
    rw [mul_min_of_nonneg _ _ hk.le]; rfl
  dsimp only
  rw [e1]
  exact adjustDLoop_some hk (hd _) hσ _ _ _ hu hf

theorem adjustSmoothnessLoop_some (hk : 0 < k) {d dmax s : ℚ} {nlines : Nat} : ∀ c r, adjustSmoothness.loop d dmax s nlines c = some r →
    adjustSmoothness.loop (k * d) (k * dmax) (k * s) nlines c = some r := by
  apply adjustSmoothness.loop.partial_correctness
  intro loop ih c r h
  rw [adjustSmoothness.loop]
  dsimp only at h ⊢
  generalize (if c - c / 10000 < 1 then 1 else c - c / 10000) = next at h ⊢
  simp only [Option.bind_eq_bind, Option.bind_eq_some_iff] at h ⊢
  obtain ⟨ls, h1, h⟩ := h
  refine ⟨_, findLs_some hk h1, ?_⟩
  simp only [List.length_map]
  split at h
  · rename_i hl
    rw [if_pos hl]
    exact h
  · rename_i hl
    rw [if_neg hl]
    split at h
    · rename_i hn
      rw [if_pos hn]
      exact h
    · rename_i hn
      rw [if_neg hn]
      exact ih _ _ h

theorem adjustSmoothness_alike (hk : 0 < k) (h : Alike k n ps qs) (hd : Follows k dInit) (hs : a.policy < n) {r : ℚ}
    (hu : adjustSmoothness a dInit dmax hh ps = some r) :
    adjustSmoothness (side k a) dInit (k * dmax) (k * hh) qs = some r := by
  unfold adjustSmoothness at hu ⊢
  have e : qs (side k a).policy = policy k (ps a.policy) := h _ hs
  rw [e]
  have := adjustSmoothnessLoop_some hk _ _ hu
  have e1 : (policy k (ps a.policy)).d = k * (ps a.policy).d := rfl
  dsimp only
  rw [e1, hd, ← mul_sub]
  simpa [side] using this

theorem findDmaxSide_scaled (hk : 0 < k) (a : Side) (dmax : ℚ) : findDmaxSide (side k a) (k * dmax) = k * findDmaxSide a dmax := by
  have e : (side k a).ls.reverse = a.ls.reverse.map (k * ·) := by simp [side]
  have e2 : (side k a).smoothness = a.smoothness := rfl
  unfold findDmaxSide
  rw [e, e2]
  rcases a.ls.reverse with _ | ⟨l, _ | ⟨p, rest⟩⟩
  · rfl
  · simp only [List.map_cons, List.map_nil]
    rw [mul_min_of_nonneg _ _ hk.le]
    congr 1
    ring
  · simp only [List.map_cons]
    rw [mul_min_of_nonneg _ _ hk.le]
    congr 1
    ring

theorem findDmax_scaled (hk : 0 < k) (a b : Side) (dmax : ℚ) : findDmax (side k a) (side k b) (k * dmax) = k * findDmax a b dmax := by
  unfold findDmax
  rw [findDmaxSide_scaled hk, findDmaxSide_scaled hk, mul_min_of_nonneg _ _ hk.le]
end

/-! ## Solving an interval -/

section
variable {n : Nat} {ps qs : Policies}

theorem autoSolveD_alike (hk : 0 < k) (h : Alike k n ps qs) {i j : Interval} {ps' : Policies} (hg : Good n i)
    (he : i.autoSolveD ps = some (ps', j)) :
    (∃ qs', (interval k i).autoSolveD qs = some (qs', interval k j) ∧ Alike k n ps' qs') ∧ Good n j := by
  unfold Interval.autoSolveD at he
  simp only [Option.bind_eq_bind, Option.bind_eq_some_iff] at he
  obtain ⟨b1, hb1, a1, ha1, b2, hb2, a2, ha2, db, hdb, b3, hb3, da, hda, a3, ha3, he⟩ := he
  cases he
  obtain ⟨⟨hb, ha, hne⟩, sb, sa⟩ := hg
  have pb1 := updateLs_policy hb1
  have pa1 := updateLs_policy ha1
  have pb2 := (updateLs_policy hb2).trans pb1
  have pa2 := (updateLs_policy ha2).trans pa1
  have pb3 := (updateLs_policy hb3).trans pb2
  have pa3 := (updateLs_policy ha3).trans pa2
  have mb1 : b1.policy < n := pb1 ▸ hb
  have ma1 : a1.policy < n := pa1 ▸ ha
  have mb2 : b2.policy < n := pb2 ▸ hb
  have ma2 : a2.policy < n := pa2 ▸ ha
  obtain ⟨sb1, -⟩ := updateLs_found hb1
  obtain ⟨sa1, -⟩ := updateLs_found ha1
  obtain ⟨sb2, fb⟩ := updateLs_found hb2
  obtain ⟨sa2, fa⟩ := updateLs_found ha2
  obtain ⟨sb3, -⟩ := updateLs_found hb3
  obtain ⟨sa3, -⟩ := updateLs_found ha3
  have tb2 : 1 ≤ b2.smoothness := by rw [sb2, sb1]; exact sb
  have ta2 : 1 ≤ a2.smoothness := by rw [sa2, sa1]; exact sa
  have h1 := alike_setD h b2.policy db
  have h2 := alike_setD h1 a2.policy da
  have fa' : ∃ s, findLs (min ((ps.setD b2.policy db) a2.policy).d i.dmax) a2.smoothness i.dmax s = some a2.ls := by
    have : (ps.setD b2.policy db) a2.policy = ps a2.policy := by
      unfold Policies.setD
      rw [if_neg]
      rw [pa2, pb2]
      exact fun e => hne e.symm
    rw [this]
    exact fa
  refine ⟨⟨_, ?_, h2⟩, ⟨by rw [pb3]; exact hb, by rw [pa3]; exact ha, by rw [pb3, pa3]; exact hne⟩,
    by rw [sb3]; exact tb2, by rw [sa3]; exact ta2⟩
  unfold Interval.autoSolveD
  have eb1 := updateLs_alike hk h dInitBefore_follows hb hb1
  have ea1 := updateLs_alike hk h dInitAfter_follows ha ha1
  have eb2 := updateLs_alike hk h dInitBefore_follows mb1 hb2
  have ea2 := updateLs_alike hk h dInitAfter_follows ma1 ha2
  have edb := adjustD_alike hk h dInitBefore_follows mb2 tb2 fb hdb
  have eb3 := updateLs_alike hk h1 dInitBefore_follows mb2 hb3
  have eda := adjustD_alike hk h1 dInitAfter_follows ma2 ta2 fa' hda
  have ea3 := updateLs_alike hk h2 dInitAfter_follows ma2 ha3
  have pb : (side k b2).policy = b2.policy := rfl
  have pa : (side k a2).policy = a2.policy := rfl
  simp only [interval, eb1, ea1, eb2, ea2, edb, pb, eb3, eda, pa, ea3, Option.bind_eq_bind, Option.bind_some, findDmax_scaled hk]
  rfl

theorem autoSolveSmoothness_alike (hk : 0 < k) (h : Alike k n ps qs) {i j : Interval} (hb : i.before.policy < n)
    (ha : i.after.policy < n) (he : i.autoSolveSmoothness ps = some j) :
    (interval k i).autoSolveSmoothness qs = some (interval k j) ∧
      j.before.policy = i.before.policy ∧ j.after.policy = i.after.policy := by
  unfold Interval.autoSolveSmoothness at he
  simp only [Option.bind_eq_bind, Option.bind_eq_some_iff] at he
  obtain ⟨b1, hb1, a1, ha1, sb, hsb, sa, hsa, b2, hb2, a2, ha2, he⟩ := he
  cases he
  have pb1 := updateLs_policy hb1
  have pa1 := updateLs_policy ha1
  have pb2 := (updateLs_policy hb2).trans pb1
  have pa2 := (updateLs_policy ha2).trans pa1
  have mb1 : b1.policy < n := pb1 ▸ hb
  have ma1 : a1.policy < n := pa1 ▸ ha
  refine ⟨?_, pb2, pa2⟩
  unfold Interval.autoSolveSmoothness
  have eb1 := updateLs_alike hk h dInitBefore_follows hb hb1
  have ea1 := updateLs_alike hk h dInitAfter_follows ha ha1
  have esb := adjustSmoothness_alike hk h dInitBefore_follows mb1 hsb
  have esa := adjustSmoothness_alike hk h dInitAfter_follows ma1 hsa
  have eb2 : Side.updateLs { side k b1 with smoothness := sb } dInitBefore (k * i.dmax) (k * i.h) qs = some (side k b2) :=
    updateLs_alike (a := { b1 with smoothness := sb }) hk h dInitBefore_follows mb1 hb2
  have ea2 : Side.updateLs { side k a1 with smoothness := sa } dInitAfter (k * i.dmax) (k * i.h) qs = some (side k a2) :=
    updateLs_alike (a := { a1 with smoothness := sa }) hk h dInitAfter_follows ma1 ha2
  simp only [interval, eb1, ea1, esb, esa, eb2, ea2, Option.bind_eq_bind, Option.bind_some]
  rfl

theorem mesh_interval (h : Alike k n ps qs) (i : Interval) (hb : i.before.policy < n) (ha : i.after.policy < n) :
    (interval k i).mesh qs = (i.mesh ps).map (k * ·) := by
  have hb' : qs (interval k i).before.policy = policy k (ps i.before.policy) := h _ hb
  have ha' : qs (interval k i).after.policy = policy k (ps i.after.policy) := h _ ha
  have db := dInitBefore_follows (k := k) (ps i.before.policy) (ps i.before.policy).d
  have da := dInitAfter_follows (k := k) (ps i.after.policy) (ps i.after.policy).d
  have eb : dInitBefore (policy k (ps i.before.policy)) (policy k (ps i.before.policy)).d =
    k * dInitBefore (ps i.before.policy) (ps i.before.policy).d := db
  have ea : dInitAfter (policy k (ps i.after.policy)) (policy k (ps i.after.policy)).d =
    k * dInitAfter (ps i.after.policy) (ps i.after.policy).d := da
  unfold Interval.mesh
  simp only [hb', ha', eb, ea]
  generalize dInitBefore (ps i.before.policy) (ps i.before.policy).d = x
  generalize dInitAfter (ps i.after.policy) (ps i.after.policy).d = y
  simp only [interval, side, List.map_append, List.map_cons, List.map_nil, ← List.map_dropLast, ← List.map_reverse, List.map_map,
    Function.comp_def]
  simp only [policy, mul_add, mul_sub]
  congr 1
  · congr 1
    congr 1
    congr 1
    by_cases e : (ps i.before.policy).kind = .oneline <;> simp [e, mul_add]
  · by_cases e : (ps i.after.policy).kind = .oneline <;> simp [e, mul_sub]

theorem solveAndMesh_alike (hk : 0 < k) (h : Alike k n ps qs) {i j : Interval} {ps' : Policies} {ls : List ℚ} (hg : Good n i)
    (he : i.solveAndMesh ps = some (ps', j, ls)) :
    ∃ qs', (interval k i).solveAndMesh qs = some (qs', interval k j, ls.map (k * ·)) ∧ Alike k n ps' qs' := by
  unfold Interval.solveAndMesh at he
  simp only [Option.bind_eq_bind, Option.bind_eq_some_iff] at he
  obtain ⟨⟨ps1, i1⟩, h1, i2, h2, he⟩ := he
  cases he
  obtain ⟨⟨qs1, e1, h3⟩, ⟨hb, ha, -⟩, -⟩ := autoSolveD_alike hk h hg h1
  obtain ⟨e2, p3, p4⟩ := autoSolveSmoothness_alike hk h3 hb ha h2
  refine ⟨qs1, ?_, h3⟩
  unfold Interval.solveAndMesh
  simp only [e1, e2, Option.bind_eq_bind, Option.bind_some]
  rw [mesh_interval h3 _ (by simpa [p3] using hb) (by simpa [p4] using ha)]
  rfl
end

theorem solveAllD_alike (hk : 0 < k) {n : Nat} : ∀ (l : List Interval) {ps qs ps' : Policies} {l' : List Interval}, Alike k n ps qs →
    (∀ i ∈ l, Good n i) → solveAllD ps l = some (ps', l') →
    (∃ qs', solveAllD qs (l.map (interval k)) = some (qs', l'.map (interval k)) ∧ Alike k n ps' qs') ∧ ∀ i ∈ l', Good n i
  | [], ps, qs, ps', l', h, hw, he => by
    cases he
    exact ⟨⟨qs, rfl, h⟩, hw⟩
  | i :: rest, ps, qs, ps', l', h, hw, he => by
    simp only [solveAllD, Option.bind_eq_bind, Option.bind_eq_some_iff] at he
    obtain ⟨⟨ps1, j⟩, h1, ⟨ps2, r⟩, h2, he⟩ := he
    cases he
    obtain ⟨⟨qs1, e1, h3⟩, hj⟩ := autoSolveD_alike hk h (hw i (by simp)) h1
    obtain ⟨⟨qs2, e2, h4⟩, hw2⟩ := solveAllD_alike hk rest h3 (fun k hk => hw k (List.mem_cons_of_mem _ hk)) h2
    refine ⟨⟨qs2, ?_, h4⟩, ?_⟩
    · simp only [solveAllD, List.map_cons, e1, e2, Option.bind_eq_bind, Option.bind_some]
      rfl
    · intro k hk
      rcases List.mem_cons.mp hk with e | hk
      · exact e ▸ hj
      · exact hw2 k hk

theorem meshAll_alike (hk : 0 < k) {n : Nat} : ∀ (l : List Interval) {ps qs ps' : Policies} {l' : List Interval} {ls : List (List ℚ)},
    Alike k n ps qs → (∀ i ∈ l, Good n i) → meshAll ps l = some (ps', l', ls) →
    ∃ qs', meshAll qs (l.map (interval k)) = some (qs', l'.map (interval k), ls.map fun l => l.map (k * ·)) ∧ Alike k n ps' qs'
  | [], ps, qs, ps', l', ls, h, hw, he => by
    cases he
    exact ⟨qs, rfl, h⟩
  | i :: rest, ps, qs, ps', l', ls, h, hw, he => by
    simp only [meshAll, Option.bind_eq_bind, Option.bind_eq_some_iff] at he
    obtain ⟨⟨ps1, j, lines⟩, h1, ⟨ps2, r, others⟩, h2, he⟩ := he
    cases he
    obtain ⟨qs1, e1, h3⟩ := solveAndMesh_alike hk h (hw i (by simp)) h1
    obtain ⟨qs2, e2, h4⟩ := meshAll_alike hk rest h3 (fun k hk => hw k (List.mem_cons_of_mem _ hk)) h2
    refine ⟨qs2, ?_, h4⟩
    simp only [meshAll, List.map_cons, e1, e2, Option.bind_eq_bind, Option.bind_some]
    rfl

theorem onelines_axis (l : List Policy) : (l.map (policy k)).filterMap Policy.mesh = (l.filterMap Policy.mesh).map (k * ·) := by
  rw [List.filterMap_map, List.map_filterMap]
  congr 1
  funext p
  cases p with
  | mk coord kind normal enabled d => cases enabled <;> cases kind <;> rfl

theorem mesh_some (hk : 0 < k) {S : Sorter Interval} {T : Sorter ℚ} (hS : Compares S) (hT : Compares T) {a b : Axis}
    (hw : ∀ i ∈ a.intervals, Good a.policies.length i) (h : a.mesh S T = some b) : (axis k a).mesh S T = some (axis k b) := by
  unfold Axis.mesh at h
  simp only [Option.bind_eq_bind, Option.bind_eq_some_iff] at h
  obtain ⟨⟨ps1, l1⟩, h1, ⟨ps2, l2, ls⟩, h2, he⟩ := h
  cases he
  have hs : S.sort Interval.h (axis k a).intervals = (S.sort Interval.h a.intervals).map (interval k) :=
    hS (interval k) Interval.h Interval.h a.intervals fun i _ j _ => by simp [interval, hk]
  have hw1 : ∀ i ∈ S.sort Interval.h a.intervals, Good a.policies.length i := fun i hi => hw i ((S.perm _ _).mem_iff.mp hi)
  obtain ⟨⟨qs1, e1, h3⟩, hw2⟩ := solveAllD_alike hk _ (alike_get (k := k) a) hw1 h1
  obtain ⟨qs2, e2, h4⟩ := meshAll_alike hk _ h3 hw2 h2
  unfold Axis.mesh
  simp only [hs, e1, e2, Option.bind_eq_bind, Option.bind_some]
  rw [withPolicies_axis a h4]
  have e4 : ∀ (x : Axis), (axis k x).policies = x.policies.map (policy k) := fun _ => rfl
  have e5 : ∀ (x : Axis), (axis k x).meshlines = x.meshlines.map (k * ·) := fun _ => rfl
  have e6 : T.sort id ((axis k (a.withPolicies ps2)).meshlines ++ (ls.map fun l => l.map (k * ·)).flatten ++
      (axis k (a.withPolicies ps2)).policies.filterMap Policy.mesh) =
      (T.sort id ((a.withPolicies ps2).meshlines ++ ls.flatten ++ (a.withPolicies ps2).policies.filterMap Policy.mesh)).map
        (k * ·) := by
    rw [e4, e5, onelines_axis, ← List.map_flatten, ← List.map_append, ← List.map_append,
      hT (k * ·) id id _ fun a _ b _ => by simp [hk]]
  rw [e6]
  rfl

theorem mesh_axis (hk : 0 < k) {S : Sorter Interval} {T : Sorter ℚ} (hS : Compares S) (hT : Compares T) {a : Axis}
    (hw : ∀ i ∈ a.intervals, Good a.policies.length i) : (axis k a).mesh S T = (a.mesh S T).map (axis k) := by
  cases ha : a.mesh S T with
  | some b => exact mesh_some hk hS hT hw ha
  | none =>
    cases hb : (axis k a).mesh S T with
    | none => rfl
    | some b =>
      have hw' : ∀ i ∈ (axis k a).intervals, Good (axis k a).policies.length i := by
        intro i hi
        simp only [axis, List.mem_map, List.length_map] at hi ⊢
        obtain ⟨j, hj, e⟩ := hi
        subst e
        exact (hw j hj).scaled
      have := mesh_some (inv_pos.2 hk) hS hT hw' hb
      rw [axis_inv hk, ha] at this
      cases this

/-! ## Zones -/

open Verif.Board (BAngle Zone Sorters inZone detectPerZones solveAllIntervals zoneIntervals finishAxis axisPolicies emptyAxis Outcome)
open Verif.Geom (contains1D transposeAxis ViewAxis)
open Verif.Moved (AllCompare orDiverges_map orUb_map obind_map omap_bind obind_congr mapM_moved solveTooClose_intervals
  axisPolicies_intervals)

theorem bounding_scaled (A : Nat → BAngle) (z : Zone) :
    (zone k z).bounding (fun n => angle k (A n)) = (z.bounding A).map fun b => (k * b.1, k * b.2) := by
  have e : ∀ (p : Geom.Point) (va : ViewAxis), (⟨k * p.x, k * p.y⟩ : Geom.Point).coord va = k * p.coord va := by
    intro p va
    cases va <;> rfl
  unfold Zone.bounding
  simp only [zone, angle, e]
  cases z.angles.head? with
  | none => rfl
  | some first =>
    cases z.angles.getLast? with
    | none => rfl
    | some last =>
      simp only [Option.bind_some]
      cases transposeAxis (A first).plane z.axis with
      | none => rfl
      | some va =>
        simp only [Option.bind_some]
        cases transposeAxis (A last).plane z.axis <;> rfl

theorem inZone_scaled (hk : 0 < k) (b : ℚ × ℚ) (l : List Interval) : inZone (k * b.1, k * b.2) (l.map (interval k)) = inZone b l := by
  unfold inZone
  rw [List.length_map]
  refine List.filter_congr fun i _ => ?_
  rw [List.getElem?_map]
  cases l[i]? with
  | none => rfl
  | some x =>
    simp [interval, contains1D, mul_le_mul_iff_right₀ hk]

theorem solveAllIntervals_scaled : ∀ (zones : List Zone) (l : List Interval),
    solveAllIntervals (zones.map (zone k)) (l.map (interval k)) = (solveAllIntervals zones l).map (interval k) := by
  have e1 : ∀ (d : ℚ) (n : Nat) (l : List Interval), (l.map (interval k)).modify n (fun i => { i with dmax := k * d }) =
      (l.modify n fun i => { i with dmax := d }).map (interval k) := by
    intro d n l
    induction l generalizing n with
    | nil => cases n <;> rfl
    | cons i rest ih =>
      cases n with
      | zero => rfl
      | succ n =>
        simp only [List.map_cons, List.modify_succ_cons, ih]
  have e2 : ∀ (d : ℚ) (ns : List Nat) (l : List Interval),
      ns.foldl (fun l i => l.modify i fun i => { i with dmax := k * d }) (l.map (interval k)) =
      (ns.foldl (fun l i => l.modify i fun i => { i with dmax := d }) l).map (interval k) := by
    intro d ns
    induction ns with
    | nil => exact fun _ => rfl
    | cons n rest ih => intro l; simp only [List.foldl_cons, e1, ih]
  intro zones
  induction zones with
  | nil => exact fun _ => rfl
  | cons z rest ih =>
    intro l
    unfold solveAllIntervals at ih ⊢
    rw [List.map_cons, List.foldl_cons, List.foldl_cons, ← ih]
    congr 1
    exact e2 z.dmax z.intervals l

theorem solveAllIntervals_good {n : Nat} : ∀ (zones : List Zone) (l : List Interval), (∀ i ∈ l, Good n i) →
    ∀ i ∈ solveAllIntervals zones l, Good n i := by
  have e1 : ∀ (d : ℚ) (m : Nat) (l : List Interval), (∀ i ∈ l, Good n i) →
      ∀ i ∈ l.modify m fun i => { i with dmax := d }, Good n i := by
    intro d m l h
    induction l generalizing m with
    | nil => cases m <;> exact h
    | cons i rest ih =>
      have hr : ∀ i ∈ rest, Good n i := fun j hj => h j (List.mem_cons_of_mem _ hj)
      have hi := h i List.mem_cons_self
      cases m with
      | zero =>
        intro j hj
        rcases List.mem_cons.1 hj with rfl | hj
        · exact hi
        · exact hr j hj
      | succ m =>
        intro j hj
        rw [List.modify_succ_cons] at hj
        rcases List.mem_cons.1 hj with rfl | hj
        · exact hi
        · exact ih m hr j hj
  have e2 : ∀ (d : ℚ) (ns : List Nat) (l : List Interval), (∀ i ∈ l, Good n i) →
      ∀ i ∈ ns.foldl (fun l i => l.modify i fun i => { i with dmax := d }) l, Good n i := by
    intro d ns
    induction ns with
    | nil => exact fun _ h => h
    | cons m rest ih => exact fun l h => ih _ (e1 d m l h)
  intro zones
  induction zones with
  | nil => exact fun _ h => h
  | cons z rest ih => exact fun l h => ih _ (e2 z.dmax z.intervals l h)

theorem zoneIntervals_scaled (hk : 0 < k) (A : Nat → BAngle) (zones : List Zone) (x : Axis) :
    zoneIntervals (fun n => angle k (A n)) (zones.map (zone k)) (axis k x) = (zoneIntervals A zones x).map (axis k) := by
  unfold zoneIntervals
  have e : detectPerZones (fun n => angle k (A n)) (axis k x).intervals (zones.map (zone k)) =
      (detectPerZones A x.intervals zones).map fun zs => zs.map (zone k) := by
    unfold detectPerZones
    refine mapM_moved (m := zone k) zones fun z _ => ?_
    rw [bounding_scaled, Option.map_map, Option.map_map]
    congr 1
    funext b
    simp only [Function.comp_apply]
    rw [show (axis k x).intervals = x.intervals.map (interval k) from rfl, inZone_scaled hk]
    rfl
  rw [e, Option.map_map, Option.map_map]
  congr 1
  funext zs
  simp only [Function.comp_apply, axis, solveAllIntervals_scaled]

/-! ## From the policies to the lines -/

theorem finishAxis_scaled (hk : 0 < k) {S : Sorters} (hS : AllCompare S) (g : MeshParams) (hg : 1 ≤ g.smoothness) (A : Nat → BAngle)
    (zones : List Zone) {x : Axis} (hx : x.intervals = []) :
    finishAxis S (params k g) (fun n => angle k (A n)) (zones.map (zone k)) (axis k x) = (finishAxis S g A zones x).map (axis k) := by
  unfold finishAxis
  rw [solveTooClose_axis hk hS.pointers, orDiverges_map, obind_map, omap_bind]
  refine obind_congr _ fun b hb => ?_
  rw [detectIntervals_axis hk hS.pointers, zoneIntervals_scaled hk, orUb_map, obind_map, omap_bind]
  refine obind_congr _ fun d hd => ?_
  have hb' : x.solveTooClose S.pointers g = some b := by
    cases hc : x.solveTooClose S.pointers g with
    | none => rw [hc] at hb; cases hb
    | some y => rw [hc] at hb; cases hb; rfl
  have hd' : zoneIntervals A zones (b.detectIntervals S.pointers g) = some d := by
    cases hc : zoneIntervals A zones (b.detectIntervals S.pointers g) with
    | none => rw [hc] at hd; cases hd
    | some y => rw [hc] at hd; cases hd; rfl
  have hi : b.intervals = [] := (solveTooClose_intervals g _ _ hb').trans hx
  have hw := detectIntervals_good (S := S.pointers) g hg b hi
  have hw' : ∀ i ∈ d.intervals, Good d.policies.length i := by
    unfold zoneIntervals at hd'
    obtain ⟨zs, -, rfl⟩ := Option.map_eq_some_iff.1 hd'
    exact solveAllIntervals_good zs _ hw
  rw [mesh_axis hk hS.intervals hS.lines hw', orDiverges_map]

theorem addAllFixed_scaled (g : MeshParams) {all : List ℚ} (hn : NearAlike k all) : ∀ (l : List ℚ) (a : Axis),
    (∀ c ∈ l, c ∈ all) → (∀ p ∈ a.policies, p.coord ∈ all) →
    (axis k a).addAllFixed (params k g) (l.map (k * ·)) = axis k (a.addAllFixed g l)
  | [], _, _, _ => rfl
  | c :: rest, a, hl, ha => by
    have e : (axis k a).addFixed (params k g) (k * c) = axis k (a.addFixed g c) := by
      have hany : (axis k a).policies.any (fun p => decide (p.kind = .oneline) && decide (p.normal = .none) &&
            decide (|p.coord - k * c| < tolerance)) =
          a.policies.any fun p => decide (p.kind = .oneline) && decide (p.normal = .none) && decide (|p.coord - c| < tolerance) := by
        simp only [axis, List.any_map]
        rw [Bool.eq_iff_iff]
        simp only [List.any_eq_true, Function.comp_apply]
        constructor
        · rintro ⟨p, hp, h⟩
          refine ⟨p, hp, ?_⟩
          rw [Bool.and_eq_true] at h ⊢
          exact ⟨h.1, decide_eq_true ((hn _ (ha p hp) c (hl c (by simp))).2 (of_decide_eq_true h.2))⟩
        · rintro ⟨p, hp, h⟩
          refine ⟨p, hp, ?_⟩
          rw [Bool.and_eq_true] at h ⊢
          exact ⟨h.1, decide_eq_true ((hn _ (ha p hp) c (hl c (by simp))).1 (of_decide_eq_true h.2))⟩
      unfold Axis.addFixed
      rw [hany]
      split
      · rfl
      · exact addPolicy_axis g a _ _ _ _
    simp only [List.map_cons, Axis.addAllFixed, e]
    refine addAllFixed_scaled g hn rest _ (fun d hd => hl d (List.mem_cons_of_mem _ hd)) fun p hp => ?_
    unfold Axis.addFixed at hp
    split at hp
    · exact ha p hp
    · rw [show (a.addPolicy g .oneline .none c true).1.policies = a.policies ++ [Policy.make g.dmax c .oneline .none true] from rfl,
        List.mem_append, List.mem_singleton] at hp
      rcases hp with hp | rfl
      · exact ha p hp
      · exact hl c (by simp)

theorem axisPolicies_scaled (g : MeshParams) {fixed : List ℚ} (hn : NearAlike k fixed) (l : List (Kind × Facing × ℚ × Bool)) :
    axisPolicies (params k g) (fixed.map (k * ·)) (l.map (asked k)) = axis k (axisPolicies g fixed l) := by
  unfold axisPolicies
  rw [show emptyAxis.addAllFixed (params k g) (fixed.map (k * ·)) = axis k (emptyAxis.addAllFixed g fixed) from
    addAllFixed_scaled g hn fixed emptyAxis (fun _ h => h) fun p hp => by cases hp]
  generalize emptyAxis.addAllFixed g fixed = a
  induction l generalizing a with
  | nil => rfl
  | cons p rest ih =>
    simp only [List.map_cons, List.foldl_cons]
    rw [show ((axis k a).addPolicy (params k g) (asked k p).1 (asked k p).2.1 (asked k p).2.2.1 (asked k p).2.2.2).1 =
      axis k (a.addPolicy g p.1 p.2.1 p.2.2.1 p.2.2.2).1 from addPolicy_axis g a _ _ _ _]
    exact ih _

end Verif.Scaled
