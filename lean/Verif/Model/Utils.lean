/-!
# Models of the list helper and of the logger

`src/utils/vector_utils.hpp` and `src/utils/logger.cpp`.
-/

namespace Verif.Utils

/-- The loop of `find_consecutive_matches` (`src/utils/vector_utils.hpp:60-72`): `result` with its last list first and each
list reversed, `prev` is `does_prev_matched`. `result.back()` of an empty vector is undefined behaviour: `none`. -/
def matchesLoop {α : Type} (p : α → Bool) : List α → List (List α) → Bool → Option (List (List α))
  | [], result, _ => some result
  | a :: rest, result, prev =>
    if p a then
      if prev then
        match result with
        | [] => none
        | last :: others => matchesLoop p rest ((a :: last) :: others) true
      else matchesLoop p rest ([a] :: result) true
    else matchesLoop p rest result false

/-- `find_consecutive_matches` (`src/utils/vector_utils.hpp:55-75`). -/
def findConsecutiveMatches {α : Type} (l : List α) (p : α → Bool) : Option (List (List α)) :=
  (matchesLoop p l [] false).map fun r => (r.map List.reverse).reverse

/-- What a sink is to the logger (`src/utils/logger.hpp:48-57`): which one it is and whether it is interactive. -/
structure Sink where
  name : Nat
  interactive : Bool
deriving DecidableEq, Repr

/-- The logger (`src/utils/logger.hpp:70-71`): `std::map` from identifier to sink as a list of pairs, at most one per
identifier; its order, which is that of the identifiers, is left out, except for the order in which sinks are called.
`current` is `interactive_sink`, given by the identifier of the sink: sinks are never removed, so the pointer stays
that of the sink with this identifier. -/
structure Logger where
  sinks : List (Nat × Sink) := []
  current : Option Nat := none
deriving DecidableEq, Repr

/-- `std::map::contains` (`src/utils/logger.cpp:35`). -/
def Logger.contains (l : Logger) (id : Nat) : Bool := l.sinks.any fun s => s.1 = id

/-- `Logger::set_as_the_interactive` (`src/utils/logger.cpp:30-42`). -/
def Logger.choose (l : Logger) (id : Nat) : Logger :=
  if id = 0 then ⟨l.sinks.map fun s => (s.1, { s.2 with interactive := false }), none⟩
  else if l.contains id then
    ⟨l.sinks.map fun s => (s.1, { s.2 with interactive := decide (s.1 = id) }), some id⟩
  else l

/-- `Logger::register_sink` (`src/utils/logger.cpp:45-49`): `std::map::emplace` keeps the sink already there. A new sink
is not interactive (`src/utils/logger.hpp:60`). -/
def Logger.register (l : Logger) (id name : Nat) (chosen : Bool) : Logger :=
  let l' : Logger := if l.contains id then l else { l with sinks := l.sinks ++ [(id, ⟨name, false⟩)] }
  if chosen then l'.choose id else l'

/-- The loop of `Logger::log` over all sinks (`src/utils/logger.cpp:57-61`): `answer` gives the answer of a sink, the
result is the list of sinks called with the value of `ret`. -/
def logLoop (answer : Sink → Nat) (current : Option Nat) : List (Nat × Sink) → List Nat → Nat → List Nat × Nat
  | [], called, ret => (called, ret)
  | s :: rest, called, ret =>
    logLoop answer current rest (called ++ [s.2.name]) (if current = some s.1 then answer s.2 else ret)

/-- `Logger::log` (`src/utils/logger.cpp:52-64`): the sinks called in order, and the answer; 0 is `NOTHING`. -/
def Logger.log (l : Logger) (answer : Sink → Nat) (destination : Nat) : List Nat × Nat :=
  if destination ≠ 0 ∧ l.contains destination = true then
    match l.sinks.find? fun s => s.1 = destination with
    | some s => ([s.2.name], answer s.2)
    | none => ([], 0)
  else logLoop answer l.current l.sinks [] 0

/-- What can be done to the logger (`src/utils/logger.hpp:63-67`). -/
inductive Action
  | register (id name : Nat) (chosen : Bool)
  | choose (id : Nat)
deriving Repr

/-- One action (`src/utils/logger.hpp:63-67`). -/
def Action.apply : Action → Logger → Logger
  | .register id name chosen, l => l.register id name chosen
  | .choose id, l => l.choose id

/-- A logger after some actions, from the start of the program (`src/utils/logger.cpp:24-27`). -/
def Logger.after (actions : List Action) : Logger := actions.foldl (fun l a => a.apply l) {}

end Verif.Utils
