import Verif.Spec.EvenOdd

/-!
# The inside of a closed line
-/

namespace Verif.Geom.Spec
open Verif.Geom Verif.Mesh

/-- A point off the closed line from which a ray meets an odd number of its edges. -/
def Inside (points : List Point) (q : Point) : Prop := ¬ OnLine points q ∧ ∃ u, Usable points q u ∧ Odd (crossings points q u)

/-- A point inside a closed line or on it. -/
def Within (points : List Point) (q : Point) : Prop := OnLine points q ∨ Inside points q

/-- The closed line only goes along the axes. Points next to each other may be the same. -/
def Rectilinear (points : List Point) : Prop :=
  ∀ e ∈ ring points, e.p0.x = e.p1.x ∨ e.p0.y = e.p1.y

/-- A multiple of `1 / 2500`. -/
def Coarse (x : ℚ) : Prop := ∃ i : ℤ, x = i / 2500

/-- Coordinates are multiples of `1 / 2500`. -/
def OnCoarse (p : Point) : Prop := ∃ i j : ℤ, p.x = i / 2500 ∧ p.y = j / 2500

end Verif.Geom.Spec
