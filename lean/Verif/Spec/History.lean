import Verif.Model.Caretaker
import Mathlib.Logic.Function.Iterate

/-!
# What a client of the history can do, and what it should observe

Independent of the way the history is implemented: operations of the public interface, the conditions
under which a client may call them, and the observations the properties speak about.
-/

namespace Verif.Spec
open Verif

variable {σ α : Type}

/-- One call of the public interface (`src/utils/state_management.hpp:56-146`). -/
inductive Op (σ α : Type) where
  | makeNext (new : Addr)
  | undo (k : Nat)
  | redo (k : Nat)
  | goWithoutRemembering (t : Option Addr)
  | goAndRemember (t : Option Addr)
  | remember
  | pin
  | unpin (t : Option Addr)
  | annotate (a : α)
  | gc
  | setAutoGc (b : Bool)
  | reset
  /-- build an object and register it -/
  | create (i : Nat) (isConst : Bool) (init : Addr) (s : σ)
  /-- build an object and do not register it -/
  | createUnregistered (i : Nat) (isConst : Bool) (init : Option Addr) (s : σ)
  | destroy (i : Nat)
  | setState (i : Nat) (t : Option Addr) (s : σ)
  | setNext (i : Nat) (new : Addr) (s : σ)
  | read (i : Nat)

/-- Effect of one call. -/
def exec (w : World σ α) : Op σ α → Except Fault (World σ α)
  | .makeNext new => w.makeNextTimepoint new
  | .undo k => w.undo k
  | .redo k => w.redo k
  | .goWithoutRemembering t => (w.goWithoutRemembering t).map (·.2)
  | .goAndRemember t => (w.goAndRemember t).map (·.2)
  | .remember => w.rememberCurrent
  | .pin => .ok w.pinCurrent
  | .unpin t => w.unpin t
  | .annotate a => .ok (w.annotateCurrent a)
  | .gc => w.garbageCollector
  | .setAutoGc b => .ok (w.setAutoGc b)
  | .reset => w.reset
  | .create i c t s => (w.create i c (some t) s).takeCareOf i
  | .createUnregistered i c t s => .ok (w.create i c t s)
  | .destroy i => .ok (w.destroy i)
  | .setState i t s => w.setState i t s
  | .setNext i new s => w.setNextState i new s
  | .read i => (w.getCurrentState i).map (·.2)

/-- A sequence of calls. -/
def execAll (w : World σ α) : List (Op σ α) → Except Fault (World σ α)
  | [] => .ok w
  | op :: ops => match exec w op with
    | .error e => .error e
    | .ok w' => execAll w' ops

/-- `a` is a live timepoint. -/
def Live (w : World σ α) (a : Addr) : Prop := a ∈ w.care.tree.cluster true

/-- `a` is `b` or an ancestor of `b`. -/
def AncOrSelf (w : World σ α) (a b : Addr) : Prop :=
  ∃ l, w.care.tree.ancestors b true = some l ∧ a ∈ l

/-- `a` must not be freed by a garbage collection: the history can still return to `a` or to one of its
descendants. -/
def Needed (w : World σ α) (a : Addr) : Prop :=
  ∃ t, (t ∈ w.care.pinned ∨ t ∈ w.care.history ∨ t = w.care.current) ∧ AncOrSelf w a t

/-- Object `i` is alive and registered. -/
def Registered (w : World σ α) (i : Nat) (o : Originator σ) : Prop :=
  i ∈ w.care.originators ∧ w.objs i = some o

/-- The timepoints of creation of the registered objects are all still needed. -/
def BirthsNeeded (w : World σ α) : Prop :=
  ∀ i o, Registered w i o → ∀ a, o.init = some a → Needed w a

/-- The world in which a new edit made while browsing collects garbage: later history forgotten. -/
def forgetFuture (w : World σ α) : World σ α :=
  match w.care.browser with
  | none => w
  | some i => { w with care := { w.care with history := w.care.history.take (i + 1), browser := none } }

/-- When a new timepoint is about to be made. -/
def EditLegal (w : World σ α) (new : Addr) : Prop :=
  (w.care.browser ≠ none → w.care.autoGc = true → BirthsNeeded (forgetFuture w)) ∧
  (∀ w', w.stopBrowsing = .ok w' → ¬ Live w' new)

/-- Where a state may be set: the object exists; if it is registered, the timepoint is the current one or
one of its ancestors, and it is not older than a timepoint where the object already has a state (unless
it is itself such a timepoint). -/
def SetLegal (w : World σ α) (i : Nat) (t : Option Addr) : Prop :=
  ∃ o, w.objs i = some o ∧
    (i ∈ w.care.originators → ∃ a, t = some a ∧ AncOrSelf w a w.care.current ∧
      (some a ∈ o.ordered ∨ ∀ b, some b ∈ o.ordered → ¬ AncOrSelf w a b))

/-- The precondition of each call. Timepoints given are null or live; a new node is not put at the address
of a live one; object identities are not reused; when garbage is collected, registered objects created at
a timepoint that is going to be freed have been released. -/
def Legal (w : World σ α) : Op σ α → Prop
  | .makeNext new => EditLegal w new
  | .goWithoutRemembering t => ∀ a, t = some a → Live w a
  | .goAndRemember t => ∀ a, t = some a → Live w a
  | .unpin t => w.care.autoGc = true →
      BirthsNeeded { w with care := { w.care with pinned := w.care.pinned.filter fun p => some p ≠ t } }
  | .gc => BirthsNeeded w
  | .create i _ t _ => w.objs i = none ∧ i ∉ w.care.originators ∧ Live w t
  | .createUnregistered i _ _ _ => w.objs i = none ∧ i ∉ w.care.originators
  | .setState i t _ => SetLegal w i t
  | .setNext i new _ => EditLegal w new ∧ ∃ o, w.objs i = some o
  | .read i => ∃ o, Registered w i o
  | _ => True

/-- What is asked of a caller that only takes care of the timepoints it passes: they are null or live, the
objects named exist, and the allocator does not return live memory. Weaker than `Legal`. -/
def CallerLegal (w : World σ α) : Op σ α → Prop
  | .makeNext new => ∀ w', w.stopBrowsing = .ok w' → ¬ Live w' new
  | .setNext i new _ => (∀ w', w.stopBrowsing = .ok w' → ¬ Live w' new) ∧ ∃ o, w.objs i = some o
  | .goWithoutRemembering t => ∀ a, t = some a → Live w a
  | .goAndRemember t => ∀ a, t = some a → Live w a
  | .create i _ t _ => w.objs i = none ∧ Live w t
  | .createUnregistered i _ t _ => w.objs i = none ∧ ∀ a, t = some a → Live w a
  | .setState i t _ => (∃ o, w.objs i = some o) ∧ ∀ a, t = some a → Live w a
  | .read i => ∃ o, w.objs i = some o
  | _ => True

/-- Worlds reachable by legal calls from a new history. -/
inductive Reachable : World σ α → Prop
  | fresh (root : Addr) : Reachable (World.fresh root)
  | step {w w' : World σ α} (op : Op σ α) :
      Reachable w → Legal w op → exec w op = .ok w' → Reachable w'

/-- The timepoint whose state an object must show at timepoint `t`: the nearest ancestor-or-self of `t`
where the object has a state, else the object's initial timepoint. -/
def nearest (w : World σ α) (o : Originator σ) (t : Addr) : Option Addr :=
  match w.care.tree.ancestors t true with
  | none => o.init
  | some l => match l.find? (fun a => o.ordered.contains (some a)) with
    | some a => some a
    | none => o.init

/-- The state an object must show at timepoint `t`. -/
def shownAt (w : World σ α) (o : Originator σ) (t : Addr) : Option σ :=
  o.states.lookup (nearest w o t)

/-- What reading object `i` returns. -/
def reads (w : World σ α) (i : Nat) : Except Fault σ := (w.getCurrentState i).map (·.1)

/-- Legal calls in sequence. -/
inductive LegalRun : World σ α → List (Op σ α) → World σ α → Prop
  | nil (w : World σ α) : LegalRun w [] w
  | cons {w w1 w2 : World σ α} {op : Op σ α} {ops : List (Op σ α)} :
      Legal w op → exec w op = .ok w1 → LegalRun w1 ops w2 → LegalRun w (op :: ops) w2

/-- Calls in sequence by a caller that takes care of the timepoints it passes. -/
inductive CallerRun : World σ α → List (Op σ α) → World σ α → Prop
  | nil (w : World σ α) : CallerRun w [] w
  | cons {w w1 w2 : World σ α} {op : Op σ α} {ops : List (Op σ α)} :
      CallerLegal w op → exec w op = .ok w1 → CallerRun w1 ops w2 → CallerRun w (op :: ops) w2

/-- Does the call build a new timepoint at address `t`? -/
def Allocates : Op σ α → Addr → Prop
  | .makeNext new, t => new = t
  | .setNext _ new _, t => new = t
  | _, _ => False

/-- Does the call set a state of object `i` that can show at timepoint `t`: at `t`, at one of its
ancestors, or at the creation of the object (an object shows its first state at the timepoints where it did
not exist yet)? -/
def SetsFor (w : World σ α) (i : Nat) (t : Addr) : Op σ α → Prop
  | .setState j (some a) _ =>
    j = i ∧ (AncOrSelf w a t ∨ ∃ o, w.objs i = some o ∧ o.init = some a)
  | _ => False

/-- Legal calls during which the registered object `i` and the timepoint `t` stay alive, and which set no
state of `i` that shows at `t`. -/
inductive Undisturbed (i : Nat) (t : Addr) : World σ α → List (Op σ α) → World σ α → Prop
  | nil (w : World σ α) : Undisturbed i t w [] w
  | cons {w w1 w2 : World σ α} {op : Op σ α} {ops : List (Op σ α)} :
      Legal w op → exec w op = .ok w1 →
      (∃ o, Registered w1 i o) → Live w1 t → ¬ Allocates op t → ¬ SetsFor w i t op →
      Undisturbed i t w1 ops w2 → Undisturbed i t w (op :: ops) w2

/-- The user stands on the `p`-th remembered timepoint (counted from the first): it is the current one,
and either the browsing position or the last one. -/
def StandsOn (w : World σ α) (p : Nat) : Prop :=
  w.care.history[p]? = some w.care.current ∧
    (w.care.browser = some p ∨ (w.care.browser = none ∧ p + 1 = w.care.history.length))

/-! ## A plain linear editing history

What a user of an editor expects: the remembered timepoints before the current one, most recent first, the
remembered timepoint one stands on, those that can be redone, nearest first, and, when work was done since
the last remembered timepoint, the timepoint reached (`draft`). -/

/-- A linear editing history. -/
structure Timeline where
  past : List Addr
  place : Addr
  future : List Addr
  draft : Option Addr
  deriving DecidableEq

namespace Timeline

/-- The history of a new document. -/
def start (root : Addr) : Timeline := ⟨[], root, [], none⟩

/-- Where the user is. -/
def present (z : Timeline) : Addr := z.draft.getD z.place

/-- How many times one can undo. -/
def undoDepth (z : Timeline) : Nat := z.past.length + if z.draft.isSome then 1 else 0

/-- One step back. -/
def back (z : Timeline) : Timeline :=
  match z.draft, z.past with
  | some _, _ => { z with draft := none }
  | none, [] => z
  | none, t :: p => ⟨p, t, z.place :: z.future, none⟩

/-- One step forward. -/
def forth (z : Timeline) : Timeline :=
  match z.future with
  | [] => z
  | t :: f => ⟨z.place :: z.past, t, f, none⟩

/-- Moving somewhere without recording it. -/
def move (z : Timeline) (t : Addr) : Timeline := { z with draft := if t = z.place then none else some t }

/-- Recording where one is. -/
def record (z : Timeline) : Timeline :=
  match z.draft with
  | none => z
  | some t => ⟨z.place :: z.past, t, z.future, none⟩

/-- The first remembered timepoint. -/
def origin (z : Timeline) : Addr := (z.past.getLast?).getD z.place

/-- What a call of the interface must do to the linear history. `none`: a jump or a record made while
undone edits could still be redone, for which a linear history prescribes nothing. -/
def step (z : Timeline) : Op σ α → Option Timeline
  | .makeNext new => some { z with future := [], draft := some new }
  | .setNext _ new _ => some { z with future := [], draft := some new }
  | .undo k => some (if k ≤ z.undoDepth then back^[k] z else z)
  | .redo k => some (if k ≤ z.future.length then forth^[k] z else z)
  | .goWithoutRemembering none => some z
  | .goWithoutRemembering (some t) => if z.future = [] then some (z.move t) else none
  | .goAndRemember none => some z
  | .goAndRemember (some t) => if z.future = [] then some (z.move t).record else none
  | .remember => if z.future = [] then some z.record else none
  | .reset => some (start z.origin)
  | _ => some z

/-- A sequence of calls. -/
def run (z : Timeline) : List (Op σ α) → Option Timeline
  | [] => some z
  | op :: ops => match step z op with
    | none => none
    | some z' => run z' ops

end Timeline

end Verif.Spec
