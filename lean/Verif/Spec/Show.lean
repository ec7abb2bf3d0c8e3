import Verif.Model.Show

/-! # What the buttons are to say and the two views are to agree on -/

namespace Verif.Show.Spec
open Verif.Show
open Verif.Graph (Mode MeshVisibility)
open Verif.Geom (Plane ViewAxis)

/-- The two scenes on display: of one timepoint, the mesh of the structures per plane and the scene of the processing. -/
def OnDisplay (p : Panel) (v : Plane → MeshVisibility) (l : ProcessingLook) : Prop :=
  ∃ t, p.structureCurrent = some t ∧ p.processingCurrent = some t ∧ p.structures.lookup t = some v ∧
    p.processings.lookup t = some l

/-- The window since it opened. -/
inductive Reached : Panel → Prop where
  | made : Reached .made
  | did {p p' : Panel} {d : Deed} : Reached p → d.run p = .ok p' → Reached p'

/-- The button of the mesh that is checked is what each plane of the structure view shows. -/
def MeshSaid (p : Panel) : Prop := ∀ v l, OnDisplay p v l → ∀ pl, v pl = p.checked.mesh

/-- The button of the display mode that is checked is the mode of the processing view. -/
def ModeSaid (p : Panel) : Prop := ∀ v l, OnDisplay p v l → l.mode = p.checked.mode

/-- The processing view was told the plane of the structure view. -/
def PlaneShared (p : Panel) : Prop := ∀ v l, OnDisplay p v l → l.plane = p.displayedPlane

/-- The axes the processing view was told to show are those of the lines the structure view shows, and so are the ones a new
scene will be told. -/
def AxesShared (p : Panel) : Prop := ∀ v l, OnDisplay p v l → ∀ pl a, l.flags a = (v pl).group a ∧ p.flags a = (v pl).group a

/-- The timepoint has no scene yet. -/
def Unseen (p : Panel) (t : Addr) : Prop := p.structures.lookup t = none ∧ p.processings.lookup t = none

/-- An edition makes a timepoint that has no scene; a file is not opened. -/
def Working (p : Panel) : Deed → Prop
  | .edited t => Unseen p t
  | .file _ => False
  | _ => True

/-- The same, and a timepoint already seen is not gone back to. -/
def Forward (p : Panel) : Deed → Prop
  | .edited t => Unseen p t
  | .navigated t => Unseen p t
  | .file _ => False
  | _ => True

end Verif.Show.Spec
