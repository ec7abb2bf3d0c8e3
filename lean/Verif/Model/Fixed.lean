import Verif.Model.Manager

/-!
# Model of the fixed line policies

`src/domain/board.cpp:81-99` and `:609-620`.
-/

namespace Verif.Mesh

/-- The function kept by `Board::Builder::add_fixed_meshline_policy` (`src/domain/board.cpp:82-98`): a policy is added
unless one with the same kind and the same coordinate, up to the tolerance, is there. -/
def Axis.addFixed (g : MeshParams) (a : Axis) (coord : ℚ) : Axis :=
  if a.policies.any fun p => decide (p.kind = .oneline) && decide (p.normal = .none) && decide (|p.coord - coord| < tolerance)
  then a
  else (a.addPolicy g .oneline .none coord true).1

/-- `Board::add_fixed_meshline_policies` for an axis (`src/domain/board.cpp:609-620`): the functions in order. -/
def Axis.addAllFixed (g : MeshParams) : Axis → List ℚ → Axis
  | a, [] => a
  | a, c :: rest => Axis.addAllFixed g (a.addFixed g c) rest

end Verif.Mesh
