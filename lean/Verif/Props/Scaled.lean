import Verif.Lemmas.ScaledMesh
import Verif.Lemmas.Fuel
import Verif.Props.Moved

/-! # C149: the unit of length -/

namespace Verif.Scaled
open Verif.Mesh
open Verif.Board (BAngle Zone Sorters zoneIntervals finishAxis axisPolicies Outcome)
open Verif.Moved (AllCompare bySwaps insertion_compares insertion_comparesOrder axisPolicies_intervals)

/-- C149, as far as it holds: when all lengths are multiplied by `k` – the coordinates of the lines to keep and of the policies asked
for, the limits on cells and on closeness, the angles and the limits of the zones – so are the lines of the axis, and the steps end
or not as before. Missing: lines to keep that are nearly the same in one of the units only, and a limit on the ratio of cells
below 1. -/
theorem C149_partial {k : ℚ} (hk : 0 < k) {S : Sorters} (hS : AllCompare S) (g : MeshParams) (hg : 1 ≤ g.smoothness) (A : Nat → BAngle)
    (zones : List Zone) {fixed : List ℚ} (hf : NearAlike k fixed) (l : List (Kind × Facing × ℚ × Bool)) :
    (finishAxis S (params k g) (fun n => angle k (A n)) (zones.map (zone k))
        (axisPolicies (params k g) (fixed.map (k * ·)) (l.map (asked k)))).map (fun a => a.meshlines) =
      (finishAxis S g A zones (axisPolicies g fixed l)).map fun a => a.meshlines.map (k * ·) := by
  rw [axisPolicies_scaled g hf, finishAxis_scaled hk hS g hg A zones (axisPolicies_intervals g fixed l)]
  cases finishAxis S g A zones (axisPolicies g fixed l) <;> rfl

/-- The end of the steps, with at most `n` rounds of each loop. -/
def finishAxisF (n : Nat) (S : Sorters) (g : MeshParams) (A : Nat → BAngle) (zones : List Zone) (a : Axis) : Outcome Axis :=
  (Outcome.orDiverges (a.solveTooCloseF S.pointers g n)).bind fun b =>
  (Outcome.orUb (zoneIntervals A zones (b.detectIntervals S.pointers g))).bind fun c =>
  Outcome.orDiverges (c.meshF n S.intervals S.lines)

theorem finish_computed {n : Nat} {S : Sorters} {g : MeshParams} {A : Nat → BAngle} {zones : List Zone} {a : Axis} {ls : List ℚ}
    (h : (finishAxisF n S g A zones a).map (fun a => a.meshlines) = .ok ls) :
    (finishAxis S g A zones a).map (fun a => a.meshlines) = .ok ls := by
  unfold finishAxisF at h
  unfold finishAxis
  cases h1 : a.solveTooCloseF S.pointers g n with
  | none => rw [h1] at h; cases h
  | some b =>
    rw [h1] at h
    rw [(solveTooCloseF_below S.pointers g n a).eq _ h1]
    simp only [Outcome.orDiverges, Outcome.bind] at h ⊢
    cases h2 : zoneIntervals A zones (b.detectIntervals S.pointers g) with
    | none => rw [h2] at h; cases h
    | some c =>
      rw [h2] at h
      simp only [Outcome.orUb, Outcome.bind] at h ⊢
      cases h3 : c.meshF n S.intervals S.lines with
      | none => rw [h3] at h; cases h
      | some d =>
        rw [h3] at h
        rw [(meshF_below n S.intervals S.lines c).eq _ h3]
        exact h

/-- Not so in general: lines to keep at 0 and 4 with cells of at most 1 leave five lines; in a unit that is 1,000,000,000 times
longer, a single one. -/
theorem C149_false : ∃ (k : ℚ) (S : Sorters) (g : MeshParams) (A : Nat → BAngle) (fixed : List ℚ), 0 < k ∧ AllCompare S ∧
    1 ≤ g.smoothness ∧
    (finishAxis S g A [] (axisPolicies g fixed [])).map (fun a => a.meshlines) = .ok [0, 1, 2, 3, 4] ∧
    (finishAxis S (params k g) (fun n => angle k (A n)) [] (axisPolicies (params k g) (fixed.map (k * ·)) [])).map
      (fun a => a.meshlines) = .ok [0] := by
  refine ⟨1 / 1000000000, bySwaps, ⟨0, 2, 1, 1⟩, fun _ => ⟨.xy, ⟨0, 0⟩, 0⟩, [0, 4], by norm_num,
    ⟨insertion_comparesOrder _, insertion_compares _, insertion_compares _, insertion_compares _, insertion_compares _⟩,
    by norm_num, finish_computed (n := 20) (by decide +kernel), finish_computed (n := 20) (by decide +kernel)⟩

/-- The example of C149: millimetres for metres. -/
example : NearAlike 1000 [0, 8 / 1000, 12 / 1000] ∧
    (finishAxis bySwaps ⟨0, 2, 1, 2 / 1000⟩ (fun _ => ⟨.xy, ⟨0, 0⟩, 0⟩) [] (axisPolicies ⟨0, 2, 1, 2 / 1000⟩ [0, 8 / 1000, 12 / 1000] [])).map
      (fun a => a.meshlines) = .ok [0, 2 / 1000, 4 / 1000, 6 / 1000, 8 / 1000, 10 / 1000, 12 / 1000] := by
  refine ⟨?_, finish_computed (n := 20) (by decide +kernel)⟩
  unfold NearAlike tolerance
  decide +kernel

end Verif.Scaled
