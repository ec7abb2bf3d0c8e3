import Verif.Spec.Scaled
import Verif.Lemmas.MovedAxis
import Verif.Lemmas.Interval
import Mathlib.Tactic.FieldSimp

/-! # What is done on an axis, when all lengths are multiplied -/

namespace Verif.Scaled
open Verif.Mesh
open Verif.Moved (Compares enabled_lt sorted_lt closest_mem detectClosest_lt addTooClose_get map_of_some updateLs_policy)

variable {k : ℚ}

/-- Multiplied by `k`: a policy, a side, an interval, an axis. -/
def policy (k : ℚ) (p : Policy) : Policy := { p with coord := k * p.coord, d := k * p.d }
@[inherit_doc policy] def side (k : ℚ) (s : Side) : Side := { s with ls := s.ls.map (k * ·) }
@[inherit_doc policy] def interval (k : ℚ) (i : Interval) : Interval :=
  ⟨k * i.dmax, side k i.before, side k i.after, k * i.h, k * i.m⟩
@[inherit_doc policy] def axis (k : ℚ) (a : Axis) : Axis :=
  ⟨a.policies.map (policy k), a.conflicts, a.intervals.map (interval k), a.meshlines.map (k * ·)⟩

theorem inv_mul (hk : 0 < k) (x : ℚ) : k⁻¹ * (k * x) = x := by field_simp

theorem lines_inv (hk : 0 < k) (l : List ℚ) : (l.map (k * ·)).map (k⁻¹ * ·) = l := by
  simp [Function.comp_def, inv_mul hk]

theorem axis_inv (hk : 0 < k) (a : Axis) : axis k⁻¹ (axis k a) = a := by
  cases a
  simp [axis, policy, interval, side, Function.comp_def, inv_mul hk]

theorem params_inv (hk : 0 < k) (g : MeshParams) : params k⁻¹ (params k g) = g := by
  cases g
  simp [params, inv_mul hk]

/-! ## Merges -/

/-- The policies of two axes of which the second is multiplied, as far as there are policies. -/
def Alike (k : ℚ) (n : Nat) (ps qs : Policies) : Prop := ∀ i < n, qs i = policy k (ps i)

theorem alike_get (a : Axis) : Alike k a.policies.length a.get (axis k a).get := by
  intro i h
  simp [Axis.get, axis, h]

theorem pointers_axis (a : Axis) : (axis k a).pointers = a.pointers := by simp [Axis.pointers, axis]

theorem enabled_axis (a : Axis) : (axis k a).enabledPointers = a.enabledPointers := by
  unfold Axis.enabledPointers
  rw [pointers_axis]
  refine List.filter_congr fun i hi => ?_
  rw [alike_get a i (by simpa [Axis.pointers] using hi)]
  rfl

theorem sort_axis (hk : 0 < k) {S : Sorter Nat} (hS : Compares S) (a : Axis) :
    S.sort (fun i => ((axis k a).get i).coord) (axis k a).enabledPointers =
      S.sort (fun i => (a.get i).coord) a.enabledPointers := by
  rw [enabled_axis]
  have := hS id (fun i => ((axis k a).get i).coord) (fun i => (a.get i).coord) a.enabledPointers fun i hi j hj => by
    simp only [id]
    rw [alike_get a i (enabled_lt a i hi), alike_get a j (enabled_lt a j hj)]
    simp [policy, hk]
  simpa using this

/-- A space found, multiplied. -/
def best (k : ℚ) (b : Option (ℚ × Nat × Nat)) : Option (ℚ × Nat × Nat) := b.map fun r => (k * r.1, r.2)

theorem closest_alike (hk : 0 < k) {n : Nat} {ps qs : Policies} (h : Alike k n ps qs) : ∀ (l : List Nat) (b : Option (ℚ × Nat × Nat)),
    (∀ i ∈ l, i < n) → closestLoop qs (best k b) l = best k (closestLoop ps b l)
  | [], b, _ => by cases b <;> rfl
  | [i], b, _ => by cases b <;> rfl
  | i :: j :: rest, b, hl => by
    have h1 : |(qs i).coord - (qs j).coord| = k * |(ps i).coord - (ps j).coord| := by
      rw [h i (hl i (by simp)), h j (hl j (by simp))]
      simp only [policy]
      rw [← mul_sub, abs_mul, abs_of_pos hk]
    have ih := fun b => closest_alike hk h (j :: rest) b fun k hk => hl k (List.mem_cons_of_mem _ hk)
    cases b with
    | none =>
      show closestLoop qs (some (|(qs i).coord - (qs j).coord|, i, j)) (j :: rest) =
        best k (closestLoop ps (some (|(ps i).coord - (ps j).coord|, i, j)) (j :: rest))
      rw [h1, ← ih]
      rfl
    | some r =>
      obtain ⟨s, p⟩ := r
      show closestLoop qs (if |(qs i).coord - (qs j).coord| < k * s then some (|(qs i).coord - (qs j).coord|, i, j)
          else some (k * s, p)) (j :: rest) =
        best k (closestLoop ps (if |(ps i).coord - (ps j).coord| < s then some (|(ps i).coord - (ps j).coord|, i, j)
          else some (s, p)) (j :: rest))
      rw [h1, ← ih]
      generalize |(ps i).coord - (ps j).coord| = x
      by_cases hx : x < s
      · rw [if_pos hx, if_pos (by gcongr)]
        rfl
      · rw [if_neg hx, if_neg (by rw [not_lt] at hx ⊢; gcongr)]
        rfl

theorem detectClosest_axis (hk : 0 < k) {S : Sorter Nat} (hS : Compares S) (a : Axis) (limit : ℚ) :
    (axis k a).detectClosest S (k * limit) = a.detectClosest S limit := by
  unfold Axis.detectClosest
  have := closest_alike hk (alike_get (k := k) a) (S.sort (fun i => (a.get i).coord) a.enabledPointers) none (sorted_lt _ a)
  rw [sort_axis hk hS]
  rw [show best k none = none from rfl] at this
  rw [this]
  cases closestLoop a.get none (S.sort (fun i => (a.get i).coord) a.enabledPointers) with
  | none => rfl
  | some r => simp [best, hk]

theorem set_axis (a : Axis) (i : Nat) (p : Policy) : (axis k a).set i (policy k p) = axis k (a.set i p) := by
  simp [Axis.set, axis, List.map_set]

theorem addTooClose_axis (a : Axis) {i j : Nat} (hi : i < a.policies.length) (hj : j < a.policies.length) :
    (axis k a).addTooClose i j = (a.addTooClose i j).map (axis k) := by
  unfold Axis.addTooClose
  have hc : (axis k a).conflicts = a.conflicts := rfl
  rw [hc]
  split
  · rfl
  · simp only [Option.map_some, Option.some.injEq]
    have e : ({ axis k a with conflicts := a.conflicts ++ [(i, j)] } : Axis) =
      axis k { a with conflicts := a.conflicts ++ [(i, j)] } := rfl
    simp only [e]
    generalize hb : ({ a with conflicts := a.conflicts ++ [(i, j)] } : Axis) = b
    have hlen : b.policies.length = a.policies.length := by rw [← hb]
    rw [alike_get b i (by omega), alike_get b j (by omega)]
    rw [← set_axis, ← set_axis]
    rfl

theorem addPolicy_axis (g : MeshParams) (a : Axis) (kind : Kind) (normal : Facing) (coord : ℚ) (enabled : Bool) :
    ((axis k a).addPolicy (params k g) kind normal (k * coord) enabled).1 = axis k (a.addPolicy g kind normal coord enabled).1 := by
  unfold Axis.addPolicy
  split <;> simp [axis, policy, Policy.make, params, mul_div_assoc]

theorem mergeChoice_policy (p q : Policy) : mergeChoice (policy k p) (policy k q) =
    (mergeChoice p q).map fun r => (r.1, r.2.1, k * r.2.2) := by
  have h : (k * p.coord + k * q.coord) / 2 = k * ((p.coord + q.coord) / 2) := by ring
  cases p with
  | mk pc pk pn pe pd =>
  cases q with
  | mk qc qk qn qe qd =>
  simp only [policy] at h ⊢
  unfold mergeChoice
  cases pk <;> cases qk <;> cases pn <;> cases qn <;> simp [h]

theorem solveConflict_axis (g : MeshParams) (a : Axis) {i j : Nat} (hi : i < a.policies.length) (hj : j < a.policies.length) :
    (axis k a).solveConflict (params k g) i j = axis k (a.solveConflict g i j) := by
  unfold Axis.solveConflict
  rw [alike_get a i hi, alike_get a j hj, mergeChoice_policy]
  cases h : mergeChoice (a.get i) (a.get j) with
  | none => rfl
  | some r => exact addPolicy_axis g a _ _ _ _

theorem solveTooClose_some (hk : 0 < k) {S : Sorter Nat} (hS : Compares S) (g : MeshParams) :
    ∀ a b : Axis, a.solveTooClose S g = some b → (axis k a).solveTooClose S (params k g) = some (axis k b) := by
  apply Axis.solveTooClose.partial_correctness
  intro f ih a b h
  rw [Axis.solveTooClose]
  have hd := detectClosest_axis hk hS a g.proximityLimit
  change (axis k a).detectClosest S (params k g).proximityLimit = _ at hd
  rw [hd]
  split at h
  · rename_i hd
    cases h
    simp only [hd]
  · rename_i i j hd
    obtain ⟨hi, hj⟩ := detectClosest_lt hd
    simp only [hd, addTooClose_axis a hi hj]
    split at h
    · rename_i hn
      simp only [hn, Option.map_none]
      exact ih _ _ h
    · rename_i b' hb
      simp only [hb, Option.map_some]
      have hl := addTooClose_get hb
      rw [solveConflict_axis g b' (by omega) (by omega)]
      exact ih _ _ h

theorem solveTooClose_axis (hk : 0 < k) {S : Sorter Nat} (hS : Compares S) (g : MeshParams) (a : Axis) :
    (axis k a).solveTooClose S (params k g) = (a.solveTooClose S g).map (axis k) := by
  cases ha : a.solveTooClose S g with
  | some b => exact solveTooClose_some hk hS g a b ha
  | none =>
    cases hb : (axis k a).solveTooClose S (params k g) with
    | none => rfl
    | some b =>
      have := solveTooClose_some (inv_pos.2 hk) hS _ _ _ hb
      rw [axis_inv hk, params_inv hk, ha] at this
      cases this

/-! ## Lines from a side -/

theorem findLsLoop_some (hk : 0 < k) (σ dmax s : ℚ) : ∀ cd cs ls, findLs.loop σ dmax s cd cs = some ls →
    findLs.loop σ (k * dmax) (k * s) (k * cd) (k * cs) = some (ls.map (k * ·)) := by
  intro cd cs ls
  revert cd cs ls
  have key : ∀ cd cs ls, findLs.loop σ dmax s cd cs = some ls →
      findLs.loop σ (k * dmax) (k * s) (k * cd) (k * cs) = some (ls.map (k * ·)) := by
    apply findLs.loop.partial_correctness
    intro f ih cd cs ls h
    rw [findLs.loop]
    simp only [mul_lt_mul_iff_right₀ hk]
    split at h
    · rename_i hs
      rw [if_pos hs]
      simp only [Option.bind_eq_bind, Option.bind_eq_some_iff] at h
      obtain ⟨rest, hr, he⟩ := h
      have hr' := ih _ _ _ hr
      cases he
      have e : (if cd < dmax then if k * cd * σ > k * dmax then k * dmax else k * cd * σ else k * cd) =
          k * (if cd < dmax then if cd * σ > dmax then dmax else cd * σ else cd) := by
        simp only [mul_assoc, gt_iff_lt, mul_lt_mul_iff_right₀ hk]
        split
        · split <;> rfl
        · rfl
      rw [e, ← mul_add, hr']
      rfl
    · rename_i hs
      rw [if_neg hs]
      cases h
      rfl
  exact key

theorem findLs_some (hk : 0 < k) {d σ dmax s : ℚ} {ls : List ℚ} (h : findLs d σ dmax s = some ls) :
    findLs (k * d) σ (k * dmax) (k * s) = some (ls.map (k * ·)) := by
  unfold findLs at h ⊢
  have := findLsLoop_some hk _ _ _ _ _ _ h
  rw [mul_zero] at this
  rwa [← mul_min_of_nonneg _ _ hk.le]

/-- Lines are only found from something above 0. -/
theorem findLsLoop_pos {σ dmax s : ℚ} (hσ : 1 ≤ σ) : ∀ cd cs ls, findLs.loop σ dmax s cd cs = some ls → cs < s → 0 < cd := by
  apply findLs.loop.partial_correctness
  intro f ih cd cs ls h hs
  by_contra hc
  rw [not_lt] at hc
  rw [if_pos hs] at h
  simp only [Option.bind_eq_bind, Option.bind_eq_some_iff] at h
  obtain ⟨rest, hr, -⟩ := h
  have hd : (if cd < dmax then if cd * σ > dmax then dmax else cd * σ else cd) ≤ 0 := by
    split
    · split
      · rename_i h1 h2
        nlinarith
      · nlinarith
    · exact hc
  exact absurd (ih _ _ _ hr (by linarith)) (not_lt.2 hd)

/-- What is found is accepted when it is enough: the tolerance counts for nothing. -/
theorem valid_found {x σ dmax s : ℚ} (hσ : 1 ≤ σ) {ls : List ℚ} (h : findLs x σ dmax s = some ls) (lmin : Nat) :
    isLsValid ls x σ dmax lmin = decide (x ≤ dmax ∧ lmin ≤ ls.length ∧ ls ≠ []) := by
  by_cases hv : x ≤ dmax ∧ lmin ≤ ls.length ∧ ls ≠ []
  · rw [decide_eq_true hv]
    have hs : 0 < s := by
      by_contra hs
      unfold findLs at h
      rw [findLs.loop, if_neg hs] at h
      cases h
      exact hv.2.2 rfl
    have hp := findLsLoop_pos hσ _ _ _ h hs
    have hx : 0 < x := lt_of_lt_of_le hp (min_le_left _ _)
    have hm : 0 < dmax := lt_of_lt_of_le hp (min_le_right _ _)
    have e := findLs_lines hx hm hσ s
    rw [h] at e
    injection e with e
    subst e
    rw [length_lines] at hv
    exact valid_lines hx hm hσ hv.1 hv.2.1 (by
      by_contra h0
      have : lineCount hx hm hσ s = 0 := by omega
      exact hv.2.2 (List.eq_nil_of_length_eq_zero (by rw [length_lines, this])))
  · rw [decide_eq_false hv]
    by_contra hc
    exact hv (valid_imp (by simpa using hc))

theorem valid_scaled (hk : 0 < k) {x σ dmax s : ℚ} (hσ : 1 ≤ σ) {ls : List ℚ} (h : findLs x σ dmax s = some ls) (lmin : Nat) :
    isLsValid (ls.map (k * ·)) (k * x) σ (k * dmax) lmin = isLsValid ls x σ dmax lmin := by
  rw [valid_found hσ h, valid_found hσ (findLs_some hk h)]
  simp [hk]

end Verif.Scaled
