import Verif.Model.Csx

/-!
# What shapes are made of

The points of a shape, and what it means for a projection to enclose a point.
-/

namespace Verif.Csx.Spec
open Verif.Geom

/-- Projection of a point on a plane. -/
def proj : Plane → Point3 → Point
  | .yz, p => ⟨p.y, p.z⟩
  | .zx, p => ⟨p.z, p.x⟩
  | .xy, p => ⟨p.x, p.y⟩

/-- Coordinate of a point along the normal of a plane. -/
def depth : Plane → Point3 → ℚ
  | .yz, p => p.x
  | .zx, p => p.y
  | .xy, p => p.z

/-- The axis the normal of a plane follows. -/
def normalAxis : Plane → Geom.Axis
  | .yz => .x
  | .zx => .y
  | .xy => .z

/-- `a` is between `b` and `c`, in any order. -/
def Amid (a b c : ℚ) : Prop := (b ≤ a ∧ a ≤ c) ∨ (c ≤ a ∧ a ≤ b)

/-- A point of the convex hull of some points: it is beyond all of them in no direction. -/
def InHull (vertices : List Point) (q : Point) : Prop :=
  ∀ a b : ℚ, ∃ v ∈ vertices, a * q.x + b * q.y ≤ a * v.x + b * v.y

/-- The plane of a flat shape from the number of its normal direction. -/
def FlatOn (normdir : Nat) (plane : Plane) : Prop :=
  (normdir = 0 ∧ plane = .yz) ∨ (normdir = 1 ∧ plane = .zx) ∨ (normdir = 2 ∧ plane = .xy)

/-- The points of a box. -/
def InBox (p1 p2 p : Point3) : Prop := Amid p.x p1.x p2.x ∧ Amid p.y p1.y p2.y ∧ Amid p.z p1.z p2.z

/-- The points of a polygon stretched along its normal, or more: those of its hull. -/
def InLinpoly (plane : Plane) (elevation length : ℚ) (vertices : List Point) (p : Point3) : Prop :=
  InHull vertices (proj plane p) ∧ Amid (depth plane p) elevation (elevation + length)

/-- The points of a ball. -/
def InBall (c : Point3) (r : ℚ) (p : Point3) : Prop :=
  (p.x - c.x) * (p.x - c.x) + (p.y - c.y) * (p.y - c.y) + (p.z - c.z) * (p.z - c.z) ≤ r * r

/-- The points of a cylinder along the normal of a plane. -/
def InCylinder (plane : Plane) (p1 p2 : Point3) (r : ℚ) (p : Point3) : Prop :=
  Amid (depth plane p) (depth plane p1) (depth plane p2) ∧
    ((proj plane p).x - (proj plane p1).x) * ((proj plane p).x - (proj plane p1).x) +
      ((proj plane p).y - (proj plane p1).y) * ((proj plane p).y - (proj plane p1).y) ≤ r * r

/-- The smallest box with some points contains `q`. -/
def BoxHas (points : List Point) (q : Point) : Prop :=
  (∃ v ∈ points, v.x ≤ q.x) ∧ (∃ v ∈ points, q.x ≤ v.x) ∧ (∃ v ∈ points, v.y ≤ q.y) ∧ (∃ v ∈ points, q.y ≤ v.y)

/-- What is added encloses a point: a polygon on a plane, with its range along the normal. -/
def Encloses (a : Added) (p : Point3) : Prop :=
  match a with
  | .polygon plane _ _ z points => BoxHas points (proj plane p) ∧ z.1 ≤ depth plane p ∧ depth plane p ≤ z.2
  | .line _ _ => True

/-- What is added is not larger than a shape: each side of the box and each end of the range touches a point of it. -/
def Touches (a : Added) (S : Point3 → Prop) : Prop :=
  match a with
  | .polygon plane _ _ z points =>
    (∀ v ∈ points, (∃ p, S p ∧ (proj plane p).x = v.x) ∧ ∃ p, S p ∧ (proj plane p).y = v.y) ∧
      (∃ p, S p ∧ depth plane p = z.1) ∧ ∃ p, S p ∧ depth plane p = z.2
  | .line _ _ => True

/-- The plane of a polygon. -/
def onPlane : Added → Option Plane
  | .polygon plane _ _ _ _ => some plane
  | .line _ _ => none

/-- Whether a plane is enabled. -/
def enabled (f : Flags) : Plane → Bool
  | .yz => f.yz
  | .zx => f.zx
  | .xy => f.xy

/-- Coordinate of a point along an axis. -/
def along : Geom.Axis → Point3 → ℚ
  | .x, p => p.x
  | .y, p => p.y
  | .z, p => p.z

open Verif.Board (MaterialKind) in
/-- What a property is made of. -/
inductive MadeOf : PropertyKind → MaterialKind → Prop
  | air : MadeOf (.material 1 1 0) .air
  | conducting {kappa : ℚ} (h : 0 < kappa) : MadeOf (.material 1 1 kappa) .conductor
  | dielectric {epsilon mue kappa : ℚ} (h : epsilon ≠ 1 ∨ mue ≠ 1 ∨ kappa < 0) : MadeOf (.material epsilon mue kappa) .dielectric
  | metal : MadeOf .metal .conductor
  | sheet : MadeOf .conductingSheet .conductor
  | element : MadeOf .lumpedElement .port
  | excitation : MadeOf .excitation .port
  | probe : MadeOf .probeBox .port

end Verif.Csx.Spec
