import Verif.Lemmas.MirrorRun
import Verif.Props.Scaled

/-! # C150: a structure and its reflection -/

namespace Verif.Mirror
open Verif.Mesh (Kind Facing MeshParams)
open Verif.Board (BAngle axisPolicies finishAxis Sorters Outcome)
open Verif.Moved (bySwaps AllCompare insertion_compares insertion_comparesOrder)
open Verif.Scaled (finish_computed)

/-- Seen in a mirror, what is asked for on an axis without zones – the lines to keep, the policies – leaves the lines seen in a
mirror, and the steps end or not as before. Missing: policies close enough to be merged, and gaps of the same size between
policies; also zones. -/
theorem C150_partial (S : Sorters) (g : MeshParams) (h0 : 0 ≤ g.proximityLimit) (A : Nat → BAngle) (fixed : List ℚ)
    (l : List (Kind × Facing × ℚ × Bool))
    (hs : Spread g.proximityLimit (((axisPolicies g fixed l).policies.filter (·.enabled)).map (·.coord)))
    (hu : Uneven (((axisPolicies g fixed l).policies.filter (·.enabled)).map (·.coord))) :
    (finishAxis S g A [] (axisPolicies g (fixed.map fun x => -x) (l.map asked))).map (fun a => a.meshlines) =
      (finishAxis S g A [] (axisPolicies g fixed l)).map fun a => lines a.meshlines := by
  rw [axisPolicies_mirror]
  exact finish_mirror S g A h0 (Verif.Moved.axisPolicies_intervals g fixed l) (axisPolicies_meshlines g fixed l) hs hu

/-- Not so when gaps are of the same size: lines to keep at 0, ±5, ±10 and ±11, all further apart than the limit, with cells of at
most 16 that do not grow. What is given is its own reflection, but cells are of 0.5 from -5 to 0 and of 2.5 from 0 to 5. -/
theorem C150_false : ∃ (S : Sorters) (g : MeshParams) (A : Nat → BAngle) (fixed : List ℚ), AllCompare S ∧ 0 ≤ g.proximityLimit ∧
    1 ≤ g.smoothness ∧ Spread g.proximityLimit fixed ∧ lines fixed = fixed ∧
    ∃ ls, (finishAxis S g A [] (axisPolicies g fixed [])).map (fun a => a.meshlines) = .ok ls ∧
      (-5 / 2 ∈ ls ∧ -2 ∈ ls) ∧ (5 / 2 ∈ ls ∧ 2 ∉ ls) ∧ lines ls ≠ ls := by
  refine ⟨bySwaps, ⟨0, 1, 1, 16⟩, fun _ => ⟨.xy, ⟨0, 0⟩, 0⟩, [-11, -10, -5, 0, 5, 10, 11],
    ⟨insertion_comparesOrder _, insertion_compares _, insertion_compares _, insertion_compares _, insertion_compares _⟩,
    by norm_num, by norm_num, by unfold Spread; decide +kernel, by decide +kernel,
    [-11, -21/2, -10, -19/2, -9, -17/2, -8, -15/2, -7, -13/2, -6, -11/2, -5, -9/2, -4, -7/2, -3, -5/2, -2, -3/2, -1, -1/2, 0,
      5/2, 5, 11/2, 6, 13/2, 7, 15/2, 8, 17/2, 9, 19/2, 10, 21/2, 11],
    finish_computed (n := 40) (by decide +kernel), by decide +kernel, by decide +kernel, by decide +kernel⟩

/-- Nor when policies are merged: lines to keep at -4, 0 and 4, with a limit of 4 and cells of at most 1, leave lines from -2 to 4. -/
theorem C150_merged_false : ∃ (S : Sorters) (g : MeshParams) (A : Nat → BAngle) (fixed : List ℚ), AllCompare S ∧
    1 ≤ g.smoothness ∧ lines fixed = fixed ∧
    (finishAxis S g A [] (axisPolicies g fixed [])).map (fun a => a.meshlines) = .ok [-2, -1, 0, 1, 2, 3, 4] := by
  refine ⟨bySwaps, ⟨4, 2, 1, 1⟩, fun _ => ⟨.xy, ⟨0, 0⟩, 0⟩, [-4, 0, 4],
    ⟨insertion_comparesOrder _, insertion_compares _, insertion_compares _, insertion_compares _, insertion_compares _⟩,
    by norm_num, by decide +kernel, finish_computed (n := 40) (by decide +kernel)⟩

/-- The example of C150: lines to keep at 0, 1 and 4, a policy for thirds at 10 that faces up. -/
example : Spread 0 (((axisPolicies ⟨0, 2, 1, 2⟩ [0, 1, 4] [(.thirds, .max, 10, true)]).policies.filter (·.enabled)).map (·.coord)) ∧
    Uneven (((axisPolicies ⟨0, 2, 1, 2⟩ [0, 1, 4] [(.thirds, .max, 10, true)]).policies.filter (·.enabled)).map (·.coord)) := by
  have e : ((axisPolicies ⟨0, 2, 1, 2⟩ [0, 1, 4] [(.thirds, .max, 10, true)]).policies.filter (·.enabled)).map (·.coord) =
    [0, 1, 4, 10] := by decide +kernel
  rw [e]
  refine ⟨by unfold Spread; decide +kernel, ?_⟩
  have u : ∀ c ∈ ([0, 1, 4, 10] : List ℚ), ∀ d ∈ ([0, 1, 4, 10] : List ℚ), c < d → (∀ e ∈ ([0, 1, 4, 10] : List ℚ), ¬ (c < e ∧ e < d)) →
      ∀ c' ∈ ([0, 1, 4, 10] : List ℚ), ∀ d' ∈ ([0, 1, 4, 10] : List ℚ), c' < d' →
        (∀ e ∈ ([0, 1, 4, 10] : List ℚ), ¬ (c' < e ∧ e < d')) → d - c = d' - c' → c = c' := by decide +kernel
  intro c d c' d' h h'
  exact u c h.1 d h.2.1 h.2.2.1 h.2.2.2 c' h'.1 d' h'.2.1 h'.2.2.1 h'.2.2.2

end Verif.Mirror
