import Verif.Model.Run

/-! # The same structure in another unit of length -/

namespace Verif.Scaled
open Verif.Mesh (Kind Facing MeshParams tolerance)
open Verif.Board (BAngle Zone)

/-- The parameters that are lengths, multiplied by `k`. -/
def params (k : ℚ) (g : MeshParams) : MeshParams :=
  { g with proximityLimit := k * g.proximityLimit, dmax := k * g.dmax }

/-- A policy asked for, a zone and an angle, multiplied by `k`. -/
def asked (k : ℚ) (p : Kind × Facing × ℚ × Bool) : Kind × Facing × ℚ × Bool := (p.1, p.2.1, k * p.2.2.1, p.2.2.2)
@[inherit_doc asked] def zone (k : ℚ) (z : Zone) : Zone := { z with dmax := k * z.dmax }
@[inherit_doc asked] def angle (k : ℚ) (a : BAngle) : BAngle := { a with p := ⟨k * a.p.x, k * a.p.y⟩ }

/-- Two of these lines are nearly the same in both units, or in none. -/
def NearAlike (k : ℚ) (l : List ℚ) : Prop := ∀ c ∈ l, ∀ d ∈ l, |c - d| < tolerance ↔ |k * c - k * d| < tolerance

end Verif.Scaled
