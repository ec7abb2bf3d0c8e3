import Verif.Props.Manager
import Verif.Lemmas.Fuel

/-!
# C80: merging does not move policies far
-/

namespace Verif.Mesh

/-- What a merge does to the enabled policies: the two are replaced by one between them, the others stay. -/
theorem step_keeps {g : MeshParams} {x y : Axis} {i j : Nat} (hi : x.Enabled i) (hj : x.Enabled j) (hx : x.Coherent)
    (hy : x.addTooClose i j = some y) :
    (∀ k, k ≠ i → k ≠ j → x.Enabled k → (y.solveConflict g i j).Enabled k ∧
      (y.solveConflict g i j).get k = x.get k) ∧
    ∃ k, (y.solveConflict g i j).Enabled k ∧
      min (x.get i).coord (x.get j).coord ≤ ((y.solveConflict g i j).get k).coord ∧
      ((y.solveConflict g i j).get k).coord ≤ max (x.get i).coord (x.get j).coord := by
  obtain ⟨hlen, -, hget, -, -⟩ := addTooClose_some hi hj hy
  have gi : (y.get i).coord = (x.get i).coord := by rw [hget, if_pos (Or.inl rfl)]
  have gj : (y.get j).coord = (x.get j).coord := by rw [hget, if_pos (Or.inr rfl)]
  have hy' : y.Coherent := by
    intro q hq
    obtain ⟨n, hn, rfl⟩ := List.getElem_of_mem hq
    have := hget n
    have e : y.get n = y.policies[n] := by simp [Axis.get, hn]
    rw [e] at this
    rw [this]
    have hcn := coherent_get hx n
    split
    · exact hcn
    · exact hcn
  obtain ⟨⟨kind, normal, coord⟩, hm⟩ := Option.ne_none_iff_exists'.mp
    ((C27_merge (y.get i) (y.get j)).2.2 (coherent_get hy' i) (coherent_get hy' j))
  have hcoh := ((C27_merge (y.get i) (y.get j)).1 _ _ _ hm).2.2.2.2.2 (coherent_get hy' i) (coherent_get hy' j)
  have hno : ¬ ((kind = .thirds ∧ normal = .none) ∨ (kind ≠ .thirds ∧ normal ≠ .none)) := by tauto
  have he : y.solveConflict g i j = { y with policies := y.policies ++ [Policy.make g.dmax coord kind normal true] } := by
    simp only [Axis.solveConflict, hm, Axis.addPolicy]
    rw [if_neg hno]
  rw [he]
  constructor
  · intro k hki hkj hk
    have hlt := hk.lt
    have e : ({ y with policies := y.policies ++ [Policy.make g.dmax coord kind normal true] } : Axis).get k = x.get k := by
      rw [get_append, if_neg (by omega), hget, if_neg (by tauto)]
    refine ⟨?_, e⟩
    rw [enabled_iff, e]
    exact ⟨by simp; omega, (enabled_iff.1 hk).2⟩
  · refine ⟨y.policies.length, ?_, ?_⟩
    · rw [enabled_iff]
      refine ⟨by simp, ?_⟩
      rw [get_append, if_pos rfl]
      rfl
    · rw [get_append, if_pos rfl]
      obtain ⟨hlo, hhi⟩ := mergeChoice_between hm
      rw [gi, gj] at hlo hhi
      exact ⟨hlo, hhi⟩

/-- After merging, for every policy that was enabled there is an enabled one no further from it than the limit times the
number of merges; each merge takes away at least one enabled policy. -/
theorem drift_merges (S : Sorter Nat) (g : MeshParams) (a b : Axis) (hu : a.Unmerged) (hc : a.Coherent)
    (hl : 0 ≤ g.proximityLimit) (h : a.solveTooClose S g = some b) :
    b.enabledPointers.length + b.conflicts.length ≤ a.enabledPointers.length + a.conflicts.length ∧
    a.conflicts.length ≤ b.conflicts.length ∧
    ∀ i, a.Enabled i → ∃ k, b.Enabled k ∧
      |(b.get k).coord - (a.get i).coord| ≤ ((b.conflicts.length - a.conflicts.length : Nat) : ℚ) * g.proximityLimit := by
  let P : Axis → Prop := fun x => x.Coherent ∧
    x.enabledPointers.length + x.conflicts.length ≤ a.enabledPointers.length + a.conflicts.length ∧
    a.conflicts.length ≤ x.conflicts.length ∧
    ∀ i, a.Enabled i → ∃ k, x.Enabled k ∧ |(x.get k).coord - (a.get i).coord| ≤
      ((x.conflicts.length - a.conflicts.length : Nat) : ℚ) * g.proximityLimit
  have hstep : ∀ x i j y, x.Unmerged → P x → x.detectClosest S g.proximityLimit = some (i, j) →
      x.addTooClose i j = some y → P (y.solveConflict g i j) := by
    intro x i j y _ ⟨hx1, hx2, hx4, hx3⟩ hd hy
    obtain ⟨hi, hj, hne, hclose⟩ := detectClosest_some hd
    have hcount := count_step (g := g) hi hj hne hy
    have hconf : (y.solveConflict g i j).conflicts.length = x.conflicts.length + 1 := by
      obtain ⟨-, ec, -⟩ := addTooClose_some hi hj hy
      rcases solveConflict_cases g y i j with he | ⟨_, _, _, _, he⟩ <;> rw [he] <;> simp [ec]
    obtain ⟨hkeep, new, hnew, hlo, hhi⟩ := step_keeps (g := g) hi hj hx1 hy
    refine ⟨coherent_step hx1 hy, by omega, by omega, fun n hn => ?_⟩
    obtain ⟨k, hk, hdist⟩ := hx3 n hn
    have hmore : ((x.conflicts.length - a.conflicts.length : Nat) : ℚ) + 1 ≤
        (((y.solveConflict g i j).conflicts.length - a.conflicts.length : Nat) : ℚ) := by
      have : x.conflicts.length - a.conflicts.length + 1 ≤ (y.solveConflict g i j).conflicts.length - a.conflicts.length := by
        omega
      exact_mod_cast this
    have hmul := mul_le_mul_of_nonneg_right hmore hl
    rw [add_mul, one_mul] at hmul
    by_cases hki : k = i ∨ k = j
    · refine ⟨new, hnew, le_trans ?_ hmul⟩
      have hm : |((y.solveConflict g i j).get new).coord - (x.get k).coord| ≤ g.proximityLimit := by
        refine le_trans ?_ hclose
        rcases le_total (x.get i).coord (x.get j).coord with hle | hle
        · rw [min_eq_left hle] at hlo
          rw [max_eq_right hle] at hhi
          rw [abs_sub_comm (x.get i).coord, abs_of_nonneg (sub_nonneg.2 hle)]
          rcases hki with rfl | rfl
          · rw [abs_of_nonneg (by linarith)]; linarith
          · rw [abs_of_nonpos (by linarith)]; linarith
        · rw [min_eq_right hle] at hlo
          rw [max_eq_left hle] at hhi
          rw [abs_of_nonneg (sub_nonneg.2 hle)]
          rcases hki with rfl | rfl
          · rw [abs_of_nonpos (by linarith)]; linarith
          · rw [abs_of_nonneg (by linarith)]; linarith
      have := abs_sub_le ((y.solveConflict g i j).get new).coord (x.get k).coord (a.get n).coord
      linarith
    · push Not at hki
      obtain ⟨h1, h2⟩ := hkeep k hki.1 hki.2 hk
      refine ⟨k, h1, ?_⟩
      rw [h2]
      linarith
  obtain ⟨b', hb', -, ⟨-, h1, h3, h2⟩, -⟩ := solveTooClose_induct S g P hstep _ a le_rfl hu
    ⟨hc, le_rfl, le_rfl, fun i hi => ⟨i, hi, by simp⟩⟩
  rw [h] at hb'
  cases hb'
  exact ⟨h1, h3, h2⟩

/-- C80. After merging, for every policy that was enabled there is an enabled one no further from it than the limit times
the number of policies that went. -/
theorem C80_partial (S : Sorter Nat) (g : MeshParams) (a b : Axis) (hu : a.Unmerged) (hc : a.Coherent)
    (hl : 0 ≤ g.proximityLimit) (h : a.solveTooClose S g = some b) :
    b.enabledPointers.length ≤ a.enabledPointers.length ∧
    ∀ i, a.Enabled i → ∃ k, b.Enabled k ∧
      |(b.get k).coord - (a.get i).coord| ≤
        ((a.enabledPointers.length - b.enabledPointers.length : Nat) : ℚ) * g.proximityLimit := by
  obtain ⟨h1, h3, h2⟩ := drift_merges S g a b hu hc hl h
  refine ⟨by omega, fun i hi => ?_⟩
  obtain ⟨k, hk, hd⟩ := h2 i hi
  refine ⟨k, hk, hd.trans (mul_le_mul_of_nonneg_right ?_ hl)⟩
  have : b.conflicts.length - a.conflicts.length ≤ a.enabledPointers.length - b.enabledPointers.length := by omega
  exact_mod_cast this

/-- Four lines one apart: of the merges, the second moves a line that was moved already. -/
def crowd : Axis := ⟨[0, 1, 7 / 4, 9].map fun x => ⟨x, .halfs, .none, true, 2⟩, [], [], []⟩

example : crowd.Unmerged ∧ crowd.Coherent ∧ ∃ b, crowd.solveTooClose (Sorter.insertion Nat) ⟨2, 1, 1, 5⟩ = some b ∧
    crowd.enabledPointers.length - b.enabledPointers.length = 2 ∧ b.policyLines = [9, 11 / 16] := by
  have h : (crowd.solveTooCloseF (Sorter.insertion Nat) ⟨2, 1, 1, 5⟩ 5).any (fun b =>
      decide (crowd.enabledPointers.length - b.enabledPointers.length = 2 ∧ b.policyLines = [9, 11 / 16])) = true := by
    decide +kernel
  obtain ⟨b, hb, h⟩ := (Option.any_eq_true _ _).1 h
  refine ⟨by intro c hc; simp [crowd] at hc, ?_, b, (solveTooCloseF_below ..).eq _ hb, by simpa only [decide_eq_true_eq] using h⟩
  intro p hp
  simp only [crowd, List.map_cons, List.map_nil, List.mem_cons, List.not_mem_nil, or_false] at hp
  rcases hp with rfl | rfl | rfl | rfl <;> simp [Policy.Coherent]

/-- Lines each a bit further than the former ones. -/
def row : Axis := ⟨[0, 40, 81, 285 / 2].map fun x => ⟨x, .halfs, .none, true, 200⟩, [], [], []⟩

/-- C80, the bound cannot be the limit alone: after three merges, the policy at 0 has none within the limit. -/
theorem C80_false : ∃ (S : Sorter Nat) (g : MeshParams) (a b : Axis), a.Unmerged ∧ a.Coherent ∧ 0 ≤ g.proximityLimit ∧
    a.solveTooClose S g = some b ∧
    ∃ i, a.Enabled i ∧ ∀ k, b.Enabled k → g.proximityLimit < |(b.get k).coord - (a.get i).coord| := by
  have h : (row.solveTooCloseF (Sorter.insertion Nat) ⟨92, 1, 1, 200⟩ 5).any (fun b =>
      decide (∀ k < b.policies.length, (b.get k).enabled = true → 92 < |(b.get k).coord - (row.get 0).coord|)) = true := by
    decide +kernel
  obtain ⟨b, hb, h⟩ := (Option.any_eq_true _ _).1 h
  rw [decide_eq_true_eq] at h
  refine ⟨Sorter.insertion Nat, ⟨92, 1, 1, 200⟩, row, b, by intro c hc; simp [row] at hc, ?_, ?_,
    (solveTooCloseF_below ..).eq _ hb, 0, ?_, fun k hk => h k hk.lt (enabled_iff.1 hk).2⟩
  · intro p hp
    simp only [row, List.map_cons, List.map_nil, List.mem_cons, List.not_mem_nil, or_false] at hp
    rcases hp with rfl | rfl | rfl | rfl <;> simp [Policy.Coherent]
  · norm_num
  · rw [enabled_iff]; decide +kernel

end Verif.Mesh
