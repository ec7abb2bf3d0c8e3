import Verif.Model.Dialog

/-!
# Model of the cells of the dialog of a meshline policy

`src/ui/qt/edit/edit_delegate.{hpp,cpp}`, with the rows made by `src/ui/qt/edit/edit_model.hpp` and
`src/ui/qt/edit/edit_model_meshline_policy.cpp`. The table has a column of old values and a column of new ones, both made of
items of the same types. `none` stands for undefined behaviour (`unreachable()`, an access outside of an array). Qt is
modelled from its documentation: one editor is open at most, opening another one is `close` then `openEditor`, and items are
painted in any order, as what is under the mouse, selected or changed is painted alone.
-/

namespace Verif.Dialog
open Verif.Mesh (Kind Facing)

/-- `AllNormal` (`src/ui/qt/edit/edit_delegate.cpp:36-40`). -/
def allNormal : List Facing := [.none, .min, .max]

/-- `AllPolicy` (`src/ui/qt/edit/edit_delegate.cpp:43-47`). -/
def allPolicy : List Kind := [.oneline, .halfs, .thirds]

/-- `to_string(MeshlinePolicy::Normal)` (`src/infra/utils/to_string.cpp:41-48`). -/
def normalText : Facing → String
  | .none => "NONE"
  | .min => "MIN"
  | .max => "MAX"

/-- `to_string(MeshlinePolicy::Policy)` (`src/infra/utils/to_string.cpp:51-58`). -/
def policyText : Kind → String
  | .oneline => "ONELINE"
  | .halfs => "HALFS"
  | .thirds => "THIRDS"

/-- `key` (`src/ui/qt/edit/edit_delegate.cpp:65-71`), `none` where it is `unreachable`. -/
def key {E : Type} [DecidableEq E] (e : E) (all : List E) : Option Nat := all.findIdx? (· = e)

/-- The columns that hold values, the old one and the new one (`src/ui/qt/edit/edit_model.hpp:32`, `:77-97`). -/
inductive Column where
  | old | new
  deriving DecidableEq, Repr

/-- An item that holds an enumeration: its data of role `Qt::UserRole + 1`, its text if any, and whether it is editable
(`src/ui/qt/edit/edit_model.hpp:54-57`, `:77-97`). Its type never changes, as what is stored in it is always of the type it
has. The text is the same for the roles `Qt::DisplayRole` and `Qt::EditRole` of a `QStandardItem`. -/
structure Item (E : Type) where
  data : E
  text : Option String
  editable : Bool
  deriving DecidableEq, Repr

/-- What `make_row` makes (`src/ui/qt/edit/edit_model.hpp:77-97`): the item of the old column is uneditable, that of the new
one is not. -/
def makeRow {E : Type} (value : E) : Column → Item E
  | .old => ⟨value, none, false⟩
  | .new => ⟨value, none, true⟩

/-- The `QComboBox` that edits an item: the row and column of the item, the index shown and, for each choice, whether it is
enabled (`src/ui/qt/edit/edit_delegate.cpp:93-137`). -/
inductive Editor where
  | policy (column : Column) (current : Nat)
  | normal (column : Column) (current : Nat) (enabled : List Bool)
  deriving DecidableEq, Repr

/-- The dialog: the items of the rows "Policy" and "Normal", the contents of the rows "Enabled" and "d" in the new column,
the columns of `normal_index` and `policy_index` (`src/ui/qt/edit/edit_delegate.hpp:28-29`; their rows are those of the type)
and the editor open. -/
structure Sheet where
  policy : Column → Item Kind
  normal : Column → Item Facing
  enabled : CheckState
  d : List Char
  normalIndex : Option Column
  policyIndex : Option Column
  editor : Option Editor

/-- The dialog when it is made (`src/ui/qt/edit/edit_model_meshline_policy.cpp:27-46`,
`src/ui/qt/edit/edit_delegate.cpp:86-90`). -/
def Sheet.made (p : Mesh.Policy) : Sheet :=
  ⟨makeRow p.kind, makeRow p.normal, ofBool p.enabled, number p.d, none, none, none⟩

/-- Another item in a column (`src/ui/qt/edit/edit_delegate.cpp:163-181`, `:205-208`). -/
def setItem {E : Type} (items : Column → Item E) (c : Column) (item : Item E) : Column → Item E :=
  fun c' => if c' = c then item else items c'

/-- `EditDelegate::paint` of an item of the row "Policy" (`src/ui/qt/edit/edit_delegate.cpp:200-220`). -/
def Sheet.paintPolicy (s : Sheet) (c : Column) : Sheet :=
  { s with
    policy := setItem s.policy c { s.policy c with text := some (policyText (s.policy c).data) }
    policyIndex := some c }

/-- `EditDelegate::paint` of an item of the row "Normal" (`src/ui/qt/edit/edit_delegate.cpp:200-220`). -/
def Sheet.paintNormal (s : Sheet) (c : Column) : Sheet :=
  { s with
    normal := setItem s.normal c { s.normal c with text := some (normalText (s.normal c).data) }
    normalIndex := some c }

/-- `bound_normal_choice_by_current_policy` (`src/ui/qt/edit/edit_delegate.cpp:104-126`): which choices are enabled. They are
set by `key`, each to a place of its own. -/
def Sheet.normalChoices (s : Sheet) : List Bool :=
  match s.policyIndex with
  | none => allNormal.map fun _ => true
  | some c =>
    match (s.policy c).data with
    | .oneline | .halfs => allNormal.map fun n => n = .none
    | .thirds => allNormal.map fun n => n ≠ .none

/-- `QStyledItemDelegate::setEditorData` on a `QComboBox` (`src/ui/qt/edit/edit_delegate.cpp:154`): shows the choice that has
the text of the item, if there is one. -/
def showText (choices : List String) (text : Option String) (current : Nat) : Nat :=
  match text with
  | none => current
  | some t => (choices.findIdx? (· = t)).getD current

/-- `EditDelegate::createEditor` then `EditDelegate::setEditorData` for the row "Policy"
(`src/ui/qt/edit/edit_delegate.cpp:93-155`), done by the view on an editable item only. -/
def Sheet.openPolicy (s : Sheet) (c : Column) : Option Sheet :=
  if s.editor = none ∧ (s.policy c).editable then
    (key (s.policy c).data allPolicy).map fun current =>
      { s with editor := some (.policy c (showText (allPolicy.map policyText) (s.policy c).text current)) }
  else some s

/-- `EditDelegate::createEditor` then `EditDelegate::setEditorData` for the row "Normal"
(`src/ui/qt/edit/edit_delegate.cpp:93-155`), done by the view on an editable item only. -/
def Sheet.openNormal (s : Sheet) (c : Column) : Option Sheet :=
  if s.editor = none ∧ (s.normal c).editable then
    (key (s.normal c).data allNormal).map fun current =>
      { s with editor := some (.normal c (showText (allNormal.map normalText) (s.normal c).text current) s.normalChoices) }
  else some s

/-- The user takes a choice of the `QComboBox`, which has to be there and enabled
(`src/ui/qt/edit/edit_delegate.cpp:96-126`). -/
def Sheet.choose (s : Sheet) (i : Nat) : Sheet :=
  match s.editor with
  | some (.policy c _) => if i < allPolicy.length then { s with editor := some (.policy c i) } else s
  | some (.normal c _ enabled) =>
    if enabled[i]? = some true then { s with editor := some (.normal c i enabled) } else s
  | none => s

/-- `enforce_coherent_normal_regarding_current_policy` (`src/ui/qt/edit/edit_delegate.cpp:167-187`). -/
def Sheet.enforce (s : Sheet) (policy : Kind) : Sheet :=
  match s.normalIndex with
  | none => s
  | some c =>
    match policy with
    | .oneline | .halfs =>
      { s with normal := setItem s.normal c { s.normal c with data := .none, editable := false } }
    | .thirds =>
      if (s.normal c).data = .none then
        { s with normal := setItem s.normal c { s.normal c with data := .min, editable := true } }
      else s

/-- `EditDelegate::setModelData` (`src/ui/qt/edit/edit_delegate.cpp:158-197`), when the editor is left or validated
(`:223-241`). What `QStyledItemDelegate::setModelData` does last is already done by `handle_enum`. -/
def Sheet.close (s : Sheet) : Option Sheet :=
  match s.editor with
  | none => some s
  | some (.policy c current) =>
    (allPolicy[current]?).map fun k =>
      ({ s with policy := setItem s.policy c { s.policy c with data := k, text := some (policyText k) } }.enforce k) |>
        fun s => { s with editor := none }
  | some (.normal c current _) =>
    (allNormal[current]?).map fun n =>
      { s with
        normal := setItem s.normal c { s.normal c with data := n, text := some (normalText n) }
        editor := none }

/-- What happens to the dialog: an item painted, an editor opened, a choice taken, the editor left or abandoned (`Escape`),
the box "Enabled" clicked, the number "d" typed (`src/ui/qt/edit/edit_delegate.cpp:93-241`). -/
inductive Happening where
  | paintPolicy (c : Column) | paintNormal (c : Column)
  | openPolicy (c : Column) | openNormal (c : Column)
  | choose (i : Nat) | close | abandon
  | check (state : CheckState) | type (text : List Char)
  deriving DecidableEq

/-- One thing happens (`src/ui/qt/edit/edit_delegate.cpp:93-241`). -/
def Sheet.step (s : Sheet) : Happening → Option Sheet
  | .paintPolicy c => some (s.paintPolicy c)
  | .paintNormal c => some (s.paintNormal c)
  | .openPolicy c => s.openPolicy c
  | .openNormal c => s.openNormal c
  | .choose i => some (s.choose i)
  | .close => s.close
  | .abandon => some { s with editor := none }
  | .check state => some { s with enabled := state }
  | .type text => some { s with d := text }

/-- Several things happen (`src/ui/qt/edit/edit_delegate.cpp:93-241`). -/
def Sheet.steps (s : Sheet) : List Happening → Option Sheet
  | [] => some s
  | e :: es => (s.step e).bind fun s => s.steps es

/-- The rows read by `commit` (`src/ui/qt/edit/edit_model_meshline_policy.cpp:73-80`). -/
def Sheet.rows (s : Sheet) : PolicyRows := ⟨(s.policy .new).data, (s.normal .new).data, s.enabled, s.d⟩

/-- `EditDialog::on_dbb_ok_accepted` (`src/ui/qt/edit/edit_dialog.cpp:37-42`): the button takes the focus, which leaves the
editor, then `commit`. The outer option is undefined behaviour, the inner one what is emitted. -/
def Sheet.accept (s : Sheet) (p : Mesh.Policy) : Option (Option (Step × Mesh.Policy)) :=
  s.close.map fun s => s.rows.commit p

end Verif.Dialog
