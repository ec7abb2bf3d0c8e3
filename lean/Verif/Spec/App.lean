import Verif.Model.App
import Verif.Spec.History

/-! What is assumed of the board's functions, and what a run should do. -/

namespace Verif.Spec
open Verif

variable {σ : Type}

/-- The fifteen steps in the order they are meant to be executed. -/
def order : List Step :=
  [.adjustEdgeToMaterial, .detectDiagAngles, .detectDiagZones, .solveDiagZonesAngles, .detectConflictEip,
   .detectConflictCe, .addFixedMlp, .solveAllEip, .solveAllCe, .detectIndividualEdges, .detectAndSolveTcmlp,
   .detectIntervals, .detectIntervalsPerDiagZones, .solveDiagZonesIntervals, .mesh]

/-- The calls that the code of the domain makes on the history: it edits, builds, releases and reads objects;
it never moves in the history, annotates, pins or remembers. -/
def BoardOp {α : Type} : Op σ α → Prop
  | .makeNext _ | .setNext _ _ _ | .setState _ _ _ | .create _ _ _ _ | .createUnregistered _ _ _ _
  | .destroy _ | .read _ => True
  | _ => False

/-- Does the call make a timepoint? -/
def Edits {α : Type} : Op σ α → Prop
  | .makeNext _ | .setNext _ _ _ => True
  | _ => False

/-- The work of each step is a sequence of legal calls of the domain. -/
def DomainWork (work : App.Work σ) : Prop :=
  ∀ s w w', Reachable w → work s w = .ok w' →
    ∃ ops, LegalRun w ops w' ∧ ∀ op ∈ ops, BoardOp op

/-- As `DomainWork`, and each step makes at least one timepoint. -/
def ProgressingWork (work : App.Work σ) : Prop :=
  ∀ s w w', Reachable w → work s w = .ok w' →
    ∃ ops, LegalRun w ops w' ∧ (∀ op ∈ ops, BoardOp op) ∧ ∃ op ∈ ops, Edits op

/-- Is every state set by these calls set at one of the timepoints `made`, or at a timepoint these calls made before?
The domain always makes a timepoint, then sets states there. -/
def SetsAtMade : List Addr → List (Op σ Step) → Prop
  | _, [] => True
  | made, .setState _ t _ :: ops => (∃ a ∈ made, t = some a) ∧ SetsAtMade made ops
  | made, .makeNext new :: ops => SetsAtMade (new :: made) ops
  | made, .setNext _ new _ :: ops => SetsAtMade (new :: made) ops
  | made, _ :: ops => SetsAtMade made ops

/-- The work of each step is a sequence of legal calls of the domain, which sets states only at timepoints it makes and
does not destroy object `i`. -/
def SparingWork (i : Nat) (work : App.Work σ) : Prop :=
  ∀ s w w', Reachable w → work s w = .ok w' →
    ∃ ops, LegalRun w ops w' ∧ (∀ op ∈ ops, BoardOp op) ∧ SetsAtMade [] ops ∧ .destroy i ∉ ops

/-- What an edition does: calls of the domain, at least one of which makes a timepoint, and which set states only at
timepoints they make (`set_next_state`, `src/ui/qt/edit/edit_model_*.cpp`). -/
def EditionWork (edit : World σ Step → Except Fault (World σ Step)) : Prop :=
  ∀ w w', Reachable w → edit w = .ok w' →
    ∃ ops, LegalRun w ops w' ∧ (∀ op ∈ ops, BoardOp op) ∧ (∃ op ∈ ops, Edits op) ∧ SetsAtMade [] ops ∧
      ∀ i, .destroy i ∉ ops

/-- Calling `run_next_step` `n` times: the steps each call executed. -/
def runNextSteps (work : App.Work σ) : Nat → World σ Step → Except Fault (List (List Step) × World σ Step)
  | 0, w => .ok ([], w)
  | n + 1, w => match App.runNextStep work w with
    | .error e => .error e
    | .ok (log, w1) => match runNextSteps work n w1 with
      | .error e => .error e
      | .ok (logs, w2) => .ok (log.map (·.1) :: logs, w2)

/-- What the successive calls of `run_next_step` should execute: the fifteen steps one by one, then
nothing. -/
def oneByOne (n : Nat) : List (List Step) :=
  (List.range n).map fun k => match order[k]? with
    | some s => [s]
    | none => []

/-- No timepoint on the way from the root to the current one, included, is annotated: no step was run. -/
def NoStepRun (w : World σ Step) : Prop :=
  ∀ a, AncOrSelf w a w.care.current → w.care.annotations.lookup a = none

/-- The buttons that move in the steps (`on_a_mesh_next_triggered`, `on_a_mesh_prev_triggered`). -/
inductive Press where
  | next
  | prev
  deriving DecidableEq, Repr

/-- What a press executes, and the world after. -/
def press (work : App.Work σ) : Press → World σ Step → Except Fault (List Step × World σ Step)
  | .next, w => (App.runNextStep work w).map fun r => (r.1.map Prod.fst, r.2)
  | .prev, w => (App.goBeforePreviousStep w).map fun w => ([], w)

/-- What each of many presses executes, and the world after. -/
def presses (work : App.Work σ) : List Press → World σ Step → Except Fault (List (List Step) × World σ Step)
  | [], w => .ok ([], w)
  | b :: rest, w => match press work b w with
    | .error e => .error e
    | .ok (log, w) => (presses work rest w).map fun r => (log :: r.1, r.2)

/-- What the presses should execute when `k` steps are done, and how many are done after them: a cursor that moves in the
fifteen steps. -/
def cursor : Nat → List Press → List (List Step) × Nat
  | k, [] => ([], k)
  | k, .next :: rest =>
    if k < order.length then ((order[k]?).toList :: (cursor (k + 1) rest).1, (cursor (k + 1) rest).2)
    else ([] :: (cursor k rest).1, (cursor k rest).2)
  | k, .prev :: rest => ([] :: (cursor (k - 1) rest).1, (cursor (k - 1) rest).2)

/-- `Enters work steps rest w s ws`: handling `rest` from `w` starts step `s` in the world `ws`, annotated. -/
inductive Enters (work : App.Work σ) (steps : List Step) : List Step → World σ Step → Step → World σ Step → Prop
  | here {s rest w} : s ∈ steps → Enters work steps (s :: rest) w s (w.annotateCurrent s)
  | later {s rest w w1 s' w'} : s ∈ steps → work s (w.annotateCurrent s) = .ok w1 → Enters work steps rest w1 s' w' →
      Enters work steps (s :: rest) w s' w'
  | skip {s rest w s' w'} : s ∉ steps → Enters work steps rest w s' w' → Enters work steps (s :: rest) w s' w'

end Verif.Spec
