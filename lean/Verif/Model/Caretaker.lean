import Verif.Model.Tree

/-!
# State management: `Originator` and `Caretaker`

Model of `src/utils/state_management.hpp` and `src/utils/state_management.cpp`.

Simplifications.
* All originators of a history share one state type `σ` (in C++ each class has its own).
* Annotations have an arbitrary type `α` and are compared by the timepoint they are attached to.
* `execution::unseq` loops are read as sequential loops.
* The destruction of an object (`shared_ptr` count reaching zero) is a separate operation of the client;
  a destroyed object has no entry in `World.objs`, which is what `weak_ptr::lock` failing means.
* `get_caretaker() == this` (`state_management.cpp:120`) always holds: there is one caretaker.
-/

namespace Verif

/-- Ways in which the C++ of `src/utils/state_management.hpp:1-312` and `src/utils/tree_node.cpp:1-143` leaves defined
behaviour or terminates. -/
inductive Fault where
  /-- a timepoint that is not (or no longer) a node of the tree, or a null one, is dereferenced -/
  | useAfterFree
  /-- `std::map::at` throws inside a `noexcept` function: `std::terminate` -/
  | outOfRange
  /-- `front`/`back`/`*rbegin` of an empty list -/
  | emptyHistory
  /-- not a behaviour of the program: the address chosen for the allocation is that of a live node -/
  | allocatorLied
  /-- not a behaviour of the program: the object named by the operation does not exist -/
  | noSuchObject
  deriving DecidableEq, Repr

/-- `class Originator` (`src/utils/state_management.hpp:109-146`).
`states` is the map from timepoint to state, `ordered` the timepoints in insertion order. A timepoint
pointer is an `Option Addr`, `none` being `nullptr`: an object can be built with a null initial timepoint
(`src/domain/meshline_policy_manager.cpp:50-71` called by `src/domain/board.cpp:91-97`). `isConst` says
whether the C++ `State` type is const (`if constexpr`, hpp:286). `lazyGo` is `std::optional<Timepoint*>`
(hpp:115). -/
structure Originator (σ : Type) where
  isConst : Bool
  init : Option Addr
  current : Option Addr
  lazyGo : Option (Option Addr)
  states : List (Option Addr × σ)
  ordered : List (Option Addr)

namespace Originator
variable {σ : Type}

/-- Constructor (`src/utils/state_management.hpp:165-172`). -/
def make (isConst : Bool) (init : Option Addr) (s : σ) : Originator σ :=
  { isConst, init, current := init, lazyGo := none, states := [(init, s)], ordered := [init] }

/-- The loop of `actually_go` (`src/utils/state_management.hpp:228-234`) over the timepoints, last
inserted first: the first one that is the common ancestor of itself and `t`. -/
def searchRecorded (tree : TreeNode) (t : Addr) : List (Option Addr) → Except Fault (Option Addr)
  | [] => .ok none
  | none :: _ => .error .useAfterFree
  | some it :: rest =>
    match tree.commonAncestor it t true with
    | none => .error .useAfterFree
    | some ca => if ca = some it then .ok (some it) else searchRecorded tree t rest

/-- `Originator::actually_go` (`src/utils/state_management.hpp:222-237`). -/
def actuallyGo (tree : TreeNode) (o : Originator σ) : Except Fault (Originator σ) :=
  match o.lazyGo with
  | none => .ok o
  | some none => .ok { o with lazyGo := none, current := o.init }
  | some (some t) =>
    match searchRecorded tree t o.ordered.reverse with
    | .error e => .error e
    | .ok (some it) => .ok { o with lazyGo := none, current := some it }
    | .ok none => .ok { o with lazyGo := none, current := o.init }

/-- `Originator::go` (`src/utils/state_management.hpp:212-214`). -/
def go (o : Originator σ) (t : Option Addr) : Originator σ := { o with lazyGo := some t }

/-- `std::map::at` on `states` (`src/utils/state_management.hpp:206`). -/
def stateAt (o : Originator σ) (t : Option Addr) : Except Fault σ :=
  match o.states.lookup t with
  | some s => .ok s
  | none => .error .outOfRange

/-- `Originator::get_current_state` (`src/utils/state_management.hpp:204-207`), with the object as left
by the lazy `actually_go` of `get_current_timepoint` (197-201). -/
def getCurrentState (tree : TreeNode) (o : Originator σ) : Except Fault (σ × Originator σ) :=
  match actuallyGo tree o with
  | .error e => .error e
  | .ok o' => match o'.stateAt o'.current with
    | .error e => .error e
    | .ok s => .ok (s, o')

/-- `is_erasable` (`src/utils/state_management.hpp:244-249`). -/
def isErasable (o : Originator σ) (dead : List Addr) (t : Option Addr) : Bool :=
  if t = o.init ∨ t = o.current then false
  else match t with
    | none => false
    | some a => dead.contains a

/-- `Originator::erase` (`src/utils/state_management.hpp:240-257`). -/
def erase (tree : TreeNode) (dead : List Addr) (o : Originator σ) : Except Fault (Originator σ) :=
  match actuallyGo tree o with
  | .error e => .error e
  | .ok o => .ok { o with
      states := o.states.filter fun p => !o.isErasable dead p.1
      ordered := o.ordered.filter fun t => !o.isErasable dead t }

/-- `Originator::set_state` (`src/utils/state_management.hpp:278-292`). -/
def setState (o : Originator σ) (t : Option Addr) (s : σ) : Originator σ :=
  if o.ordered.all (· ≠ t) then
    { o with
      lazyGo := none
      -- `map::emplace` keeps an existing entry
      states := if (o.states.lookup t).isSome then o.states else o.states ++ [(t, s)]
      ordered := o.ordered ++ [t]
      current := t }
  else if o.isConst then o
  else { o with states := o.states.filter (fun p => p.1 ≠ t) ++ [(t, s)] }

/-- `Originator::get_available_states` (`src/utils/state_management.hpp:260-267`). -/
def getAvailableStates (o : Originator σ) : Except Fault (List (Option Addr × σ)) :=
  o.ordered.mapM fun t => match o.stateAt t with
    | .ok s => .ok (t, s)
    | .error e => .error e

end Originator

/-- `class Caretaker` (`src/utils/state_management.hpp:43-93`). The `user_history_browser` reverse
iterator is the position, counted from the front, of the element it designates. -/
structure Caretaker (α : Type) where
  autoGc : Bool
  tree : TreeNode
  current : Addr
  /-- the weak pointers, as object identities -/
  originators : List Nat
  pinned : List Addr
  history : List Addr
  browser : Option Nat
  annotations : List (Addr × α)

/-- The caretaker together with the objects it may refer to. `objs i = none`: object `i` does not exist
(not yet built, or destroyed, i.e. the `weak_ptr` of `src/utils/state_management.hpp:48` expired). -/
structure World (σ α : Type) where
  care : Caretaker α
  objs : Nat → Option (Originator σ)

namespace World
variable {σ α : Type}

/-- `Caretaker::Caretaker` (`src/utils/state_management.cpp:22-27`): the history root is allocated at
`root`. No object exists yet. -/
def fresh (root : Addr) : World σ α :=
  { care :=
      { autoGc := true, tree := .mk root [], current := root, originators := [], pinned := [],
        history := [root], browser := none, annotations := [] }
    objs := fun _ => none }

/-- Update of one object, through the pointers of `src/utils/state_management.hpp:48`. -/
def setObj (w : World σ α) (i : Nat) (o : Option (Originator σ)) : World σ α :=
  { w with objs := fun j => if j = i then o else w.objs j }

/-- The `keep` lambda of `garbage_collector` (`src/utils/state_management.cpp:43-48`) applied to a list:
all ancestors-or-self of all the elements. -/
def keepOf (tree : TreeNode) : List Addr → Except Fault (List Addr)
  | [] => .ok []
  | t :: ts => match tree.ancestors t true with
    | none => .error .useAfterFree
    | some l => match keepOf tree ts with
      | .error e => .error e
      | .ok r => .ok (l ++ r)

/-- Step 3 of `garbage_collector` (`src/utils/state_management.cpp:63-66`). -/
def eraseAll (tree : TreeNode) (dead : List Addr) (objs : Nat → Option (Originator σ)) :
    List Nat → Except Fault (Nat → Option (Originator σ))
  | [] => .ok objs
  | i :: is => match objs i with
    | none => eraseAll tree dead objs is
    | some o => match o.erase tree dead with
      | .error e => .error e
      | .ok o' => eraseAll tree dead (fun j => if j = i then some o' else objs j) is

/-- `Caretaker::garbage_collector` (`src/utils/state_management.cpp:40-80`). The sets are lists here; only
membership is used. -/
def garbageCollector (w : World σ α) : Except Fault (World σ α) :=
  let c := w.care
  match keepOf c.tree (c.pinned ++ c.history ++ [c.current]) with
  | .error e => .error e
  | .ok toKeep =>
    let toRemove := (c.tree.cluster false).filter fun t => !toKeep.contains t
    match eraseAll c.tree toRemove w.objs c.originators with
    | .error e => .error e
    | .ok objs => .ok
        { care := { c with
            annotations := c.annotations.filter fun p => !toRemove.contains p.1
            tree := c.tree.eraseFromDescendants toRemove
            originators := c.originators.filter fun i => (objs i).isSome }
          objs }

/-- `Caretaker::reset` (`src/utils/state_management.cpp:30-37`). `next(begin(user_history))` needs a
non-empty list. -/
def reset (w : World σ α) : Except Fault (World σ α) :=
  match w.care.history with
  | [] => .error .emptyHistory
  | h :: _ => garbageCollector { w with care := { w.care with
      current := w.care.tree.addr
      pinned := []
      history := [h]
      browser := none
      originators := [] } }

/-- `Caretaker::stop_browsing_user_history` (`src/utils/state_management.cpp:83-92`): the `base()` of the
reverse iterator at front position `i` is the element at `i + 1`. -/
def stopBrowsing (w : World σ α) : Except Fault (World σ α) :=
  match w.care.browser with
  | none => .ok w
  | some i =>
    let w' := { w with care := { w.care with history := w.care.history.take (i + 1), browser := none } }
    if w.care.autoGc then garbageCollector w' else .ok w'

/-- `Caretaker::make_next_timepoint` (`src/utils/state_management.cpp:110-114`). `new` is the address the
allocator gives to the new node: any address that is not the one of a live node. -/
def makeNextTimepoint (w : World σ α) (new : Addr) : Except Fault (World σ α) :=
  match stopBrowsing w with
  | .error e => .error e
  | .ok w =>
    if (w.care.tree.cluster true).contains new then .error .allocatorLied
    else if (w.care.tree.cluster true).contains w.care.current then
      .ok { w with care := { w.care with
        tree := w.care.tree.addChild w.care.current new
        current := new } }
    else .error .useAfterFree

/-- `Caretaker::take_care_of` (`src/utils/state_management.cpp:117-124`). -/
def takeCareOf (w : World σ α) (i : Nat) : Except Fault (World σ α) :=
  match w.objs i with
  | none => .ok w
  | some o => match o.init with
    | none => .ok w
    | some t => match w.care.tree.root t with
      | none => .error .useAfterFree
      | some r =>
        if r = w.care.tree.addr then
          .ok { w with care := { w.care with originators := w.care.originators ++ [i] } }
        else .ok w

/-- The `for_each` of `go_without_remembering` (`src/utils/state_management.cpp:216-219`). -/
def goAll (objs : Nat → Option (Originator σ)) (t : Addr) : List Nat → Nat → Option (Originator σ)
  | [] => objs
  | i :: is => match objs i with
    | none => goAll objs t is
    | some o => goAll (fun j => if j = i then some (o.go (some t)) else objs j) t is

/-- `Caretaker::go_without_remembering` (`src/utils/state_management.cpp:213-224`). -/
def goWithoutRemembering (w : World σ α) (t : Option Addr) : Except Fault (Bool × World σ α) :=
  match t with
  | none => .ok (false, w)
  | some t => match w.care.tree.root t with
    | none => .error .useAfterFree
    | some r =>
      if r = w.care.tree.addr then
        .ok (true, { care := { w.care with current := t }, objs := goAll w.objs t w.care.originators })
      else .ok (false, w)

/-- `Caretaker::can_undo` (`src/utils/state_management.cpp:161-174`). `back()` of an empty list is
undefined. -/
def canUndo (w : World σ α) (k : Nat) : Except Fault Bool :=
  if k = 0 then .ok false
  else match w.care.browser with
    | some i => .ok (k < i + 1)
    | none => match w.care.history.getLast? with
      | none => .error .emptyHistory
      | some b =>
        .ok (k ≤ if b = w.care.current then w.care.history.length - 1 else w.care.history.length)

/-- `Caretaker::can_redo` (`src/utils/state_management.cpp:177-187`). -/
def canRedo (w : World σ α) (k : Nat) : Bool :=
  if k = 0 then false
  else match w.care.browser with
    | some i => k ≤ w.care.history.length - 1 - i
    | none => false

/-- End of `undo` and `redo` (`src/utils/state_management.cpp:138-143, 152-157`) once the browser is at
front position `i`. -/
def arriveAt (w : World σ α) (i : Nat) : Except Fault (World σ α) :=
  match w.care.history[i]? with
  | none => .error .emptyHistory
  | some t =>
    let w' := { w with care := { w.care with
      current := t
      browser := if i + 1 = w.care.history.length then none else some i } }
    match goWithoutRemembering w' (some t) with
    | .error e => .error e
    | .ok (_, w'') => .ok w''

/-- `Caretaker::undo` (`src/utils/state_management.cpp:127-144`). Moving a reverse iterator forward by
`k`, bounded by `prev(rend())`, is truncated subtraction on the front position. -/
def undo (w : World σ α) (k : Nat) : Except Fault (World σ α) :=
  if k = 0 then .ok w
  else match canUndo w k with
    | .error e => .error e
    | .ok false => .ok w
    | .ok true => match w.care.browser with
      | some i => arriveAt w (i - k)
      | none => match w.care.history.getLast? with
        | none => .error .emptyHistory
        | some b =>
          let k := if b ≠ w.care.current then k - 1 else k
          arriveAt w (w.care.history.length - 1 - k)

/-- `Caretaker::redo` (`src/utils/state_management.cpp:147-158`), the move being bounded by `rbegin()`. -/
def redo (w : World σ α) (k : Nat) : Except Fault (World σ α) :=
  if k = 0 ∨ canRedo w k = false then .ok w
  else match w.care.browser with
    | none => .ok w
    | some i => arriveAt w (min (i + k) (w.care.history.length - 1))

/-- `Caretaker::unpin` (`src/utils/state_management.cpp:190-194`). -/
def unpin (w : World σ α) (t : Option Addr) : Except Fault (World σ α) :=
  let w' := { w with care := { w.care with pinned := w.care.pinned.filter fun p => some p ≠ t } }
  if w.care.autoGc then garbageCollector w' else .ok w'

/-- `Caretaker::pin_current_timepoint` (`src/utils/state_management.cpp:197-204`). -/
def pinCurrent (w : World σ α) : World σ α :=
  if w.care.pinned.all (· ≠ w.care.current) then
    { w with care := { w.care with pinned := w.care.pinned ++ [w.care.current] } }
  else w

/-- `Caretaker::remember_current_timepoint` (`src/utils/state_management.cpp:207-210`). -/
def rememberCurrent (w : World σ α) : Except Fault (World σ α) :=
  match w.care.history.getLast? with
  | none => .error .emptyHistory
  | some b =>
    if b ≠ w.care.current then
      .ok { w with care := { w.care with history := w.care.history ++ [w.care.current] } }
    else .ok w

/-- `Caretaker::go_and_remember` (`src/utils/state_management.cpp:227-232`). -/
def goAndRemember (w : World σ α) (t : Option Addr) : Except Fault (Bool × World σ α) :=
  match goWithoutRemembering w t with
  | .error e => .error e
  | .ok (false, w) => .ok (false, w)
  | .ok (true, w) => match rememberCurrent w with
    | .error e => .error e
    | .ok w => .ok (true, w)

/-- `Caretaker::annotate_current_timepoint` (`src/utils/state_management.cpp:235-237`):
`map::emplace` keeps an existing annotation. -/
def annotateCurrent (w : World σ α) (a : α) : World σ α :=
  if (w.care.annotations.lookup w.care.current).isSome then w
  else { w with care := { w.care with annotations := w.care.annotations ++ [(w.care.current, a)] } }

/-- `Caretaker::get_annotation` (`src/utils/state_management.cpp:240-245`). -/
def getAnnotation (w : World σ α) (t : Option Addr) : Option α :=
  match t with
  | none => none
  | some t => w.care.annotations.lookup t

/-- `Caretaker::find_first_ancestor_with_annotation_that`
(`src/utils/state_management.hpp:156-162`). -/
def findFirstAncestorWithAnnotationThat (w : World σ α) (p : α → Bool) (includeItself : Bool) :
    Except Fault (Option Addr) :=
  match w.care.tree.ancestors w.care.current includeItself with
  | none => .error .useAfterFree
  | some l => .ok (l.find? fun t => match w.care.annotations.lookup t with
    | some a => p a
    | none => false)

/-- `Caretaker::find_first_ancestor_with_annotation` (`src/utils/state_management.cpp:248-252`). -/
def findFirstAncestorWithAnnotation (w : World σ α) (includeItself : Bool) : Except Fault (Option Addr) :=
  w.findFirstAncestorWithAnnotationThat (fun _ => true) includeItself

/-- `Caretaker::set_auto_gc` (`src/utils/state_management.cpp:260-262`). -/
def setAutoGc (w : World σ α) (b : Bool) : World σ α :=
  { w with care := { w.care with autoGc := b } }

/-! ## Objects -/

/-- Construction of an object, not yet registered (`src/utils/state_management.hpp:165-172`). -/
def create (w : World σ α) (i : Nat) (isConst : Bool) (init : Option Addr) (s : σ) : World σ α :=
  w.setObj i (some (.make isConst init s))

/-- Destruction of an object: last `shared_ptr` released, the `weak_ptr` of `src/utils/state_management.hpp:48`
expires. -/
def destroy (w : World σ α) (i : Nat) : World σ α := w.setObj i none

/-- `Originator::set_state` on object `i` (`src/utils/state_management.hpp:278-292`). -/
def setState (w : World σ α) (i : Nat) (t : Option Addr) (s : σ) : Except Fault (World σ α) :=
  match w.objs i with
  | none => .error .noSuchObject
  | some o => .ok (w.setObj i (some (o.setState t s)))

/-- `Originator::set_next_state` on object `i` (`src/utils/state_management.hpp:271-273, 295-298`). -/
def setNextState (w : World σ α) (i : Nat) (new : Addr) (s : σ) : Except Fault (World σ α) :=
  match w.makeNextTimepoint new with
  | .error e => .error e
  | .ok w => w.setState i (some new) s

/-- `Originator::get_current_state` on object `i` (`src/utils/state_management.hpp:204-207`). -/
def getCurrentState (w : World σ α) (i : Nat) : Except Fault (σ × World σ α) :=
  match w.objs i with
  | none => .error .noSuchObject
  | some o => match o.getCurrentState w.care.tree with
    | .error e => .error e
    | .ok (s, o') => .ok (s, w.setObj i (some o'))

end World
end Verif
