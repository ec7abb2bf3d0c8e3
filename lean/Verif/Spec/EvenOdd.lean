import Verif.Spec.Geometry

/-!
# The even-odd rule

What is inside a closed line and what is outside.
-/

namespace Verif.Geom.Spec
open Verif.Geom Verif.Mesh

/-- The edges of a closed line: each point with the one after it, the last with the first. -/
def ring (points : List Point) : List Segment := List.zipWith Segment.mk points (points.tail ++ points.head?.toList)

/-- A point of the closed line. -/
def OnLine (points : List Point) (q : Point) : Prop := ∃ e ∈ ring points, On e q

/-- `p` is on the ray from `q` along `u`. -/
def OnRay (q u p : Point) : Prop := ∃ t : ℚ, 0 ≤ t ∧ At q u t p

/-- The edge has a point on the ray. -/
def Meets (q u : Point) (e : Segment) : Prop := ∃ p, On e p ∧ OnRay q u p

open Classical in
/-- How many edges of the closed line the ray meets. -/
noncomputable def crossings (points : List Point) (q u : Point) : Nat := (ring points).countP fun e => decide (Meets q u e)

/-- A ray can be used to tell the inside of a closed line from its outside: it goes somewhere, and through no point where two edges
join. -/
def Usable (points : List Point) (q u : Point) : Prop := (u.x ≠ 0 ∨ u.y ≠ 0) ∧ ∀ p ∈ points, ¬ OnRay q u p

/-- Coordinates are multiples of a five-thousandth. -/
def OnGrid (p : Point) : Prop := ∃ i j : ℤ, p.x = i / 5000 ∧ p.y = j / 5000

end Verif.Geom.Spec
