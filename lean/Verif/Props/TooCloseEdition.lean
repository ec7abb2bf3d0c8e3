import Verif.Props.Again

/-!
# C104: editing a conflict between policies too close
-/

namespace Verif.Board
open Verif.Mesh Verif.Geom
open Spec

/-- C104: after a run, the dialog of a conflict accepted, its box ticked or not: the steps run again give the same axis. So nothing
is lost by accepting it unchanged. What is missing: that the box says whether the conflict is taken into account, and that
unticking it keeps its policies, see `C104_false`. -/
theorem C104_partial {S : Sorters} {g : MeshParams} {gz : ZoneParams} {B : Input} {axis : Geom.Axis}
    {E : Nat → BEdge} {a : Mesh.Axis} (h : runSteps S g gz B axis = .ok (E, a)) :
    ∃ d asked, diagonalSteps S.pointers gz B = some d ∧ boardPolicies B E d.1 d.2.2 (detectAllColinear B) axis = some asked ∧
      ∀ i < a.conflicts.length, ∀ b : Bool,
        Dialog.commitTooClose (if b then .checked else .unchecked) = some (.detectAndSolveTcmlp, b) ∧
        runFromTooClose S g (angleAt d.1) (d.2.1 axis) (axisPolicies g (B.fixed axis) asked) (i, b) = .ok a := by
  obtain ⟨d, asked, h1, -, h2, h3⟩ := run_parts h
  exact ⟨d, asked, h1, h2, fun i _ b => ⟨by cases b <;> rfl, h3⟩⟩

/-- The triangle of `slopeBoard`, with corners half a unit apart along x, meshed with a limit of one unit. -/
theorem slope_run : ∃ E a, runSteps plainSorters ⟨1, 1, 1, 2⟩ ⟨1, 2, 1, 20⟩ slopeBoard .x = .ok (E, a) ∧ ∃ i j,
    a.conflicts = [(i, j)] ∧ i ≠ j ∧ (a.get i).enabled = false ∧ (a.get j).enabled = false := by
  have key : ((runToIntervalsFF 9 plainSorters ⟨1, 1, 1, 2⟩ ⟨1, 2, 1, 20⟩ slopeBoard .x).bind fun r =>
      (runFromIntervalsF 60 plainSorters ⟨1, 1, 1, 2⟩ (angleAt r.1.1) (r.1.2.1 .x) r.2.2).map fun a =>
        decide (a.conflicts.length = 1 ∧ ∀ p ∈ a.conflicts, p.1 ≠ p.2 ∧ (a.get p.1).enabled = false ∧
          (a.get p.2).enabled = false)) = .ok true := by
    decide +kernel
  obtain ⟨⟨d, E, b⟩, h1, key⟩ := outcome_bind_ok key
  obtain ⟨a, h2, key⟩ := outcome_map_ok key
  obtain ⟨e1, e2⟩ := of_decide_eq_true key
  obtain ⟨p, hp⟩ := List.length_eq_one_iff.1 e1
  obtain ⟨h3, h4, h5⟩ := e2 p (by rw [hp]; simp)
  exact ⟨E, a, run_join (runToIntervalsFF_computed h1) (from_computed h2), p.1, p.2, hp, h3, h4, h5⟩

/-- A case of `C104_partial`: a run with a conflict. -/
example : ∃ E a, runSteps plainSorters ⟨1, 1, 1, 2⟩ ⟨1, 2, 1, 20⟩ slopeBoard .x = .ok (E, a) ∧ 0 < a.conflicts.length := by
  obtain ⟨E, a, h, i, j, e, -⟩ := slope_run
  exact ⟨E, a, h, by rw [e]; simp⟩

/-- The box of a conflict says nothing and does nothing. Here a conflict is solved, its two policies being replaced by another one,
and the dialog shows it as not taken into account; accepted so, the two policies are still replaced in the run that follows. -/
theorem C104_false : ∃ (S : Sorters) (g : MeshParams) (gz : ZoneParams) (B : Input) (axis : Geom.Axis), g.InRange ∧
    0 ≤ g.proximityLimit ∧ 0 < gz.diagonalDmax ∧ Built B ∧ LinesApart B ∧ ∃ d asked E a i j,
      diagonalSteps S.pointers gz B = some d ∧ boardPolicies B E d.1 d.2.2 (detectAllColinear B) axis = some asked ∧
      runSteps S g gz B axis = .ok (E, a) ∧ a.conflicts = [(i, j)] ∧ i ≠ j ∧ (a.get i).enabled = false ∧ (a.get j).enabled = false ∧
      Dialog.tooCloseShown Dialog.tooCloseMade = .unchecked ∧ ∃ b, Dialog.commitTooClose .unchecked = some (.detectAndSolveTcmlp, b) ∧
      ∃ c, runFromTooClose S g (angleAt d.1) (d.2.1 axis) (axisPolicies g (B.fixed axis) asked) (0, b) = .ok c ∧
        c.conflicts = [(i, j)] ∧ (c.get i).enabled = false ∧ (c.get j).enabled = false := by
  obtain ⟨E, a, h, i, j, e1, e2, e3, e4⟩ := slope_run
  obtain ⟨d, asked, h1, h2, h3⟩ := C104_partial h
  obtain ⟨h4, h5⟩ := h3 0 (by rw [e1]; simp) false
  exact ⟨plainSorters, ⟨1, 1, 1, 2⟩, ⟨1, 2, 1, 20⟩, slopeBoard, .x, ⟨by norm_num, by norm_num⟩, by norm_num, by norm_num,
    slope_built.1, slope_built.2, d, asked, E, a, i, j, h1, h2, h, e1, e2, e3, e4, rfl, false, h4, a, h5, e1, e3, e4⟩

end Verif.Board
