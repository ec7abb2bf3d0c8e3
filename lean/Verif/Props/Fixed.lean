import Verif.Model.Fixed
import Mathlib.Tactic.Ring
import Mathlib.Tactic.Linarith

/-!
# Theorems about the fixed line policies
-/

namespace Verif.Mesh

/-! ## C48 -/

/-- A policy that gives one line at its coordinate. -/
def FixedAt (p : Policy) : Prop := p.kind = .oneline ∧ p.normal = .none

/-- Adding fixed lines adds one policy for each coordinate without one: the policies already there are kept as they are,
the new ones are enabled, give one line at a wanted coordinate, and are away from one another and from those already
there; each wanted coordinate has one in the end. -/
theorem C48_fixed (g : MeshParams) (a : Axis) (coords : List ℚ) :
    ∃ new, a.addAllFixed g coords = { a with policies := a.policies ++ new } ∧
      (∀ p ∈ new, FixedAt p ∧ p.enabled = true ∧ p.coord ∈ coords) ∧
      (∀ p ∈ new, ∀ q ∈ a.policies, FixedAt q → tolerance ≤ |q.coord - p.coord|) ∧
      new.Pairwise (fun p q => tolerance ≤ |p.coord - q.coord|) ∧
      ∀ c ∈ coords, ∃ p ∈ a.policies ++ new, FixedAt p ∧ |p.coord - c| < tolerance := by
  induction coords generalizing a with
  | nil => exact ⟨[], by simp [Axis.addAllFixed], by simp, by simp, by simp, by simp⟩
  | cons c rest ih =>
    unfold Axis.addAllFixed
    by_cases h : (a.policies.any fun p =>
        decide (p.kind = .oneline) && decide (p.normal = .none) && decide (|p.coord - c| < tolerance)) = true
    · have e : a.addFixed g c = a := by unfold Axis.addFixed; rw [if_pos h]
      rw [e]
      obtain ⟨new, i1, i2, i3, i4, i5⟩ := ih a
      refine ⟨new, i1, fun p hp => ?_, i3, i4, ?_⟩
      · obtain ⟨h1, h2, h3⟩ := i2 p hp
        exact ⟨h1, h2, by simp [h3]⟩
      · intro x hx
        rcases List.mem_cons.1 hx with rfl | hx
        · obtain ⟨p, hp, hq⟩ := List.any_eq_true.1 h
          simp only [Bool.and_eq_true, decide_eq_true_eq] at hq
          exact ⟨p, List.mem_append_left _ hp, ⟨hq.1.1, hq.1.2⟩, hq.2⟩
        · exact i5 x hx
    · have e : a.addFixed g c = { a with policies := a.policies ++ [Policy.make g.dmax c .oneline .none true] } := by
        unfold Axis.addFixed Axis.addPolicy
        rw [if_neg h]
        simp
      have hm : ∃ p, Policy.make g.dmax c .oneline .none true = p ∧ FixedAt p ∧ p.enabled = true ∧ p.coord = c :=
        ⟨_, rfl, ⟨rfl, rfl⟩, rfl, rfl⟩
      obtain ⟨m, hm0, hm1, hm2, hm3⟩ := hm
      rw [hm0] at e
      rw [e]
      obtain ⟨new, i1, i2, i3, i4, i5⟩ := ih { a with policies := a.policies ++ [m] }
      refine ⟨m :: new, ?_, ?_, ?_, ?_, ?_⟩
      · rw [i1]
        simp
      · intro p hp
        rcases List.mem_cons.1 hp with rfl | hp
        · exact ⟨hm1, hm2, by simp [hm3]⟩
        · obtain ⟨h1, h2, h3⟩ := i2 p hp
          exact ⟨h1, h2, by simp [h3]⟩
      · intro p hp q hq hfix
        rcases List.mem_cons.1 hp with rfl | hp
        · by_contra hlt
          refine h (List.any_eq_true.2 ⟨q, hq, ?_⟩)
          simp only [Bool.and_eq_true, decide_eq_true_eq]
          exact ⟨⟨hfix.1, hfix.2⟩, by rw [← hm3]; exact lt_of_not_ge hlt⟩
        · exact i3 p hp q (List.mem_append_left _ hq) hfix
      · refine List.pairwise_cons.2 ⟨fun q hq => i3 q hq m (by simp) hm1, i4⟩
      · intro x hx
        rcases List.mem_cons.1 hx with rfl | hx
        · exact ⟨m, by simp, hm1, by rw [hm3]; simp [tolerance]⟩
        · obtain ⟨p, hp, hq⟩ := i5 x hx
          exact ⟨p, by simpa [List.append_assoc] using hp, hq⟩

/-- The lines 0, 5, 0, 7 with a policy of one line at 5 and one of two lines at 7. -/
example : ((Axis.addAllFixed ⟨1, 2, 2, 5⟩ ⟨[⟨5, .oneline, .none, true, 1⟩, ⟨7, .halfs, .none, true, 1⟩], [], [], []⟩
    [0, 5, 0, 7]).policies.map fun p => (p.coord, p.kind))
      = [(5, .oneline), (7, .halfs), (0, .oneline), (7, .oneline)] := by decide +kernel

end Verif.Mesh
