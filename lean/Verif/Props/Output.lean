import Verif.Props.Manager
import Verif.Lemmas.Fuel
import Mathlib.Data.List.ProdSigma

/-!
# C74, C75: the number of cells shown, the lines written
-/

namespace Verif.Mesh
open Spec List

/-- The spaces between the lines of an axis. -/
def spaces (l : List ℚ) : List (ℚ × ℚ) := l.zip l.tail

/-- The cells of a mesh: a space of each axis. -/
def cells (x y z : List ℚ) : List ((ℚ × ℚ) × (ℚ × ℚ) × (ℚ × ℚ)) := spaces x ×ˢ spaces y ×ˢ spaces z

theorem cellNumber_eq (x y z : List ℚ) : cellNumber x y z = x.length * y.length * z.length % 2 ^ 64 := by
  simp [cellNumber, Nat.mul_mod]

theorem cells_length (x y z : List ℚ) : (cells x y z).length = (x.length - 1) * ((y.length - 1) * (z.length - 1)) := by
  simp [cells, spaces, List.length_product]

/-- The number of cells shown is not the number of cells: two lines per axis make one cell, eight are shown. -/
theorem C74_false : ∃ x y z : List ℚ, Increasing x ∧ Increasing y ∧ Increasing z ∧ (cells x y z).length = 1 ∧
    cellNumber x y z = 8 := by
  refine ⟨[0, 1], [0, 1], [0, 1], ?_, ?_, ?_, by decide +kernel, by decide +kernel⟩ <;> simp [Increasing]

/-- It is always too large, unless some axis has no line, or there are 2^64 points or more. What is shown is then the number
of points where lines of the three axes meet. -/
theorem C74_points_partial (x y z : List ℚ) (h : x.length * y.length * z.length < 2 ^ 64) :
    cellNumber x y z = (x ×ˢ y ×ˢ z).length ∧
      (x ≠ [] → y ≠ [] → z ≠ [] → (cells x y z).length < cellNumber x y z) := by
  rw [cellNumber_eq, Nat.mod_eq_of_lt h, cells_length]
  refine ⟨by simp [List.length_product, Nat.mul_assoc], fun hx hy hz => ?_⟩
  have h1 := List.length_pos_iff.2 hx
  have h2 := List.length_pos_iff.2 hy
  have h3 := List.length_pos_iff.2 hz
  rw [Nat.mul_assoc]
  calc (x.length - 1) * ((y.length - 1) * (z.length - 1)) ≤ (x.length - 1) * (y.length * z.length) :=
        Nat.mul_le_mul_left _ (Nat.mul_le_mul (by omega) (by omega))
    _ < x.length * (y.length * z.length) := Nat.mul_lt_mul_of_pos_right (by omega) (Nat.mul_pos h2 h3)

example : ([0, 1, 2] : List ℚ).length * ([0, 1] : List ℚ).length * ([0, 5, 7, 9] : List ℚ).length < 2 ^ 64 ∧
    cellNumber [0, 1, 2] [0, 1] [0, 5, 7, 9] = 24 ∧ (cells [0, 1, 2] [0, 1] [0, 5, 7, 9]).length = 6 := by decide +kernel

/-! ## C75 -/

/-- An axis from 0 to 4, the policy at 4 made first. -/
def twoEnds : Axis := ⟨[⟨4, .oneline, .none, true, 1⟩, ⟨0, .oneline, .none, true, 1⟩], [], [], []⟩

theorem twoEnds_enabled (k : Nat) : twoEnds.Enabled k ↔ k < 2 := by
  match k with
  | 0 => simp [Axis.Enabled, twoEnds]
  | 1 => simp [Axis.Enabled, twoEnds]
  | k + 2 => simp [Axis.Enabled, twoEnds]

theorem twoEnds_ok : twoEnds.Coherent ∧ twoEnds.Separated ∧ twoEnds.PositiveD := by
  refine ⟨?_, ?_, ?_⟩
  · simp [Axis.Coherent, twoEnds, Policy.Coherent]
  · intro i j hi hj hne
    rw [twoEnds_enabled] at hi hj
    interval_cases i <;> interval_cases j <;> first | exact absurd rfl hne | norm_num [Axis.get, twoEnds]
  · intro i hi
    rw [twoEnds_enabled] at hi
    interval_cases i <;> norm_num [Axis.get, twoEnds]

/-- With both kinds of lines in the output, a line is written twice, and the lines are not in order; they are not either with
the lines of the policies only. -/
theorem C75_false : ∃ (S : Sorter Nat) (S' : Sorter Interval) (T : Sorter ℚ) (g : MeshParams) (a b : Axis), g.InRange ∧
    a.Coherent ∧ a.Separated ∧ a.PositiveD ∧ a.intervals = [] ∧ a.meshlines = [] ∧
    (a.detectIntervals S g).mesh S' T = some b ∧ ¬ (b.outputLines true true).Nodup ∧
    ¬ (b.outputLines true true).Pairwise (· ≤ ·) ∧ ¬ (b.outputLines false true).Pairwise (· ≤ ·) := by
  have h : ((twoEnds.detectIntervals (Sorter.insertion Nat) ⟨0, 1, 1, 5⟩).meshF 30 (Sorter.insertion Interval)
      (Sorter.insertion ℚ)).any fun b => decide (¬ (b.outputLines true true).Nodup ∧
    ¬ (b.outputLines true true).Pairwise (· ≤ ·) ∧ ¬ (b.outputLines false true).Pairwise (· ≤ ·)) := by decide +kernel
  obtain ⟨b, hb, h⟩ := (Option.any_eq_true _ _).1 h
  exact ⟨_, _, _, _, twoEnds, b, ⟨by norm_num, by norm_num⟩, twoEnds_ok.1, twoEnds_ok.2.1, twoEnds_ok.2.2, rfl, rfl,
    (meshF_below ..).eq _ hb, by simpa only [decide_eq_true_eq] using h⟩

theorem enabled_iff_get {a : Axis} {k : Nat} : a.Enabled k ↔ (a.get k).enabled = true := by
  unfold Axis.Enabled Axis.get
  cases h : a.policies[k]? <;> simp

theorem policyLines_eq (a : Axis) : a.policyLines = a.enabledPointers.map fun k => (a.get k).coord := by
  have h : a.policies = a.pointers.map a.get := by
    apply List.ext_getElem
    · simp [Axis.pointers]
    · intro i h1 h2
      simp [Axis.pointers, Axis.get, h1]
  unfold Axis.policyLines Axis.enabledPointers
  conv_lhs => rw [h]
  rw [List.filter_map, List.map_map]
  rfl

/-- The lines of the mesh, and only them, are written by default: they are in order and each is there once, those of the
ONELINE policies among them. With the lines of the policies only, each enabled policy has one line, at its coordinate. What
is missing: the order with the lines of the policies, see `C75_false`. -/
theorem C75_default_partial (S : Sorter Nat) (S' : Sorter Interval) (T : Sorter ℚ) (g : MeshParams) (a : Axis)
    (hg : g.InRange) (hc : a.Coherent) (hs : a.Separated) (hd : a.PositiveD) (hi : a.intervals = [])
    (hm : a.meshlines = []) :
    ∃ b, (a.detectIntervals S g).mesh S' T = some b ∧ Increasing (b.outputLines true false) ∧
      (b.outputLines true false).Nodup ∧
      (∀ k, a.Enabled k → (a.get k).kind = .oneline → (a.get k).coord ∈ b.outputLines true false) ∧
      (∀ x, x ∈ b.outputLines false true ↔ ∃ k, a.Enabled k ∧ x = (a.get k).coord) ∧ (b.outputLines false true).Nodup := by
  obtain ⟨b, hb, hinc, hone, -, honly⟩ := C24_axis_mesh S S' T g a hg hc hs hd hi hm
  have hen : ∀ k, b.Enabled k ↔ a.Enabled k := fun k => by
    obtain ⟨d, h⟩ := honly k
    rw [enabled_iff_get, enabled_iff_get, h]
  have hco : ∀ k, (b.get k).coord = (a.get k).coord := fun k => by
    obtain ⟨d, h⟩ := honly k
    rw [h]
  have e1 : b.outputLines true false = b.meshlines := by simp [Axis.outputLines]
  have e2 : b.outputLines false true = b.policyLines := by simp [Axis.outputLines]
  refine ⟨b, hb, ?_⟩
  rw [e1, e2, policyLines_eq]
  refine ⟨hinc, ?_, hone, fun x => ?_, ?_⟩
  · exact (List.isChain_iff_pairwise.1 hinc).imp fun h => h.ne
  · simp only [List.mem_map, mem_enabledPointers, hen, hco]
    exact ⟨fun ⟨k, h1, h2⟩ => ⟨k, h1, h2.symm⟩, fun ⟨k, h1, h2⟩ => ⟨k, h1, h2.symm⟩⟩
  · refine List.Nodup.map_on ?_ ?_
    · intro i hi j hj h
      rw [mem_enabledPointers, hen] at hi hj
      rw [hco, hco] at h
      by_contra hne
      exact hs i j hi hj hne h
    · exact (List.nodup_range).filter _

example := C75_default_partial (Sorter.merge Nat) (Sorter.merge Interval) (Sorter.merge ℚ) ⟨0, 1, 1, 5⟩ twoEnds
    ⟨by norm_num, by norm_num⟩ twoEnds_ok.1 twoEnds_ok.2.1 twoEnds_ok.2.2 rfl rfl

end Verif.Mesh
