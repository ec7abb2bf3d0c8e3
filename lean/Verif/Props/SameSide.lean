import Verif.Lemmas.Run
import Verif.Props.InPolygon

/-!
# C53: the overlaps found, with edges of the same side
-/

namespace Verif.Board
open Verif.Geom Verif.Geom.Spec
open Verif.Mesh (tolerance Sorter)
open Spec

/-- All the conflicts solved: an edge found along edges with the same side only, of whatever polygons, is left as it was
or is meshed, unless one of the ranges has the ends of the edge by itself. What is missing is that one, see `C53_false`. -/
theorem C53_solved_partial (S : Sorter Overlap) {s : InPolygon} {E : Nat → BEdge} (hne : ∀ c ∈ s, c.2 ≠ []) {n : Nat}
    (hall : ∀ os, (n, os) ∈ s → ∀ f ∈ os, (∃ m, f.other = some m ∧ (E m).side = (E n).side) ∧ ¬ SameEnds f.range (E n).seg) :
    ∃ E', solveAllInPolygon S E s = some E' ∧ ((E n).toMesh = true → (E' n).toMesh = true) ∧
      (n ∈ s.map (·.1) → (E' n).toMesh = true) := by
  obtain ⟨E', h1, -, h2⟩ := solveAll_spec S s E hne
  refine ⟨E', h1, ?_⟩
  rcases h2 n with ⟨h3, h4⟩ | ⟨os, h3, h4⟩
  · exact ⟨fun h => h4 ▸ h, fun h => absurd h h3⟩
  · have : (E' n).toMesh = true := by
      by_contra hc
      rw [Bool.not_eq_true] at hc
      rw [hc] at h4
      obtain ⟨ov, hov, he⟩ := C53_partial S (fun ov hov => by
        obtain ⟨f, hf, rfl⟩ := List.mem_map.1 hov
        obtain ⟨⟨m, hm, hs⟩, -⟩ := hall os h3 f hf
        simp [Found.overlap, hm, hs]) h4
      obtain ⟨f, hf, rfl⟩ := List.mem_map.1 hov
      exact (hall os h3 f hf).2 he
    exact ⟨fun _ => this, fun _ => this⟩

/-- Edge 0 along edges 1 and 2 of the same side, which cover it together: it is meshed, though it was not. -/
example : (∀ c ∈ ([(0, [⟨1, ⟨⟨0, 0⟩, ⟨2, 0⟩⟩, some 1⟩, ⟨2, ⟨⟨2, 0⟩, ⟨4, 0⟩⟩, some 2⟩])] : InPolygon), c.2 ≠ []) ∧
    (∀ os, (0, os) ∈ ([(0, [⟨1, ⟨⟨0, 0⟩, ⟨2, 0⟩⟩, some 1⟩, ⟨2, ⟨⟨2, 0⟩, ⟨4, 0⟩⟩, some 2⟩])] : InPolygon) → ∀ f ∈ os,
      (∃ m, f.other = some m ∧ ((fun _ => ⟨.xy, ⟨⟨0, 0⟩, ⟨4, 0⟩⟩, .ymin, false, false⟩ : Nat → BEdge) m).side =
        ((fun _ => ⟨.xy, ⟨⟨0, 0⟩, ⟨4, 0⟩⟩, .ymin, false, false⟩ : Nat → BEdge) 0).side) ∧
      ¬ SameEnds f.range ((fun _ => ⟨.xy, ⟨⟨0, 0⟩, ⟨4, 0⟩⟩, .ymin, false, false⟩ : Nat → BEdge) 0).seg) := by
  refine ⟨by simp, fun os hos f hf => ?_⟩
  simp only [List.mem_cons, Prod.mk.injEq, true_and, List.not_mem_nil, or_false] at hos
  subst hos
  simp only [List.mem_cons, List.not_mem_nil, or_false] at hf
  unfold SameEnds Near
  rcases hf with rfl | rfl
  · exact ⟨⟨1, rfl, rfl⟩, by decide +kernel⟩
  · exact ⟨⟨2, rfl, rfl⟩, by decide +kernel⟩

end Verif.Board
