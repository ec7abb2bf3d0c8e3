import Verif.Model.Caretaker

/-!
# The steps of a run, and the application's use of the history

Model of `src/app/steps.hpp` and of the history part of `src/app/openemsh.cpp`. The work of one step (the
call of the `Board` member function) is a parameter `work`: a function of the step and of the world. What
is assumed of it is said in each theorem.
-/

namespace Verif

/-- `enum class Step` (`src/app/steps.hpp:16-32`). -/
inductive Step where
  | adjustEdgeToMaterial
  | detectDiagAngles
  | detectDiagZones
  | solveDiagZonesAngles
  | detectConflictEip
  | detectConflictCe
  | addFixedMlp
  | solveAllEip
  | solveAllCe
  | detectIndividualEdges
  | detectAndSolveTcmlp
  | detectIntervals
  | detectIntervalsPerDiagZones
  | solveDiagZonesIntervals
  | mesh
  deriving DecidableEq, Repr

namespace Step

/-- `next` (`src/app/openemsh.cpp:23-58`). -/
def next : Step → Option Step
  | adjustEdgeToMaterial => some detectDiagAngles
  | detectDiagAngles => some detectDiagZones
  | detectDiagZones => some solveDiagZonesAngles
  | solveDiagZonesAngles => some detectConflictEip
  | detectConflictEip => some detectConflictCe
  | detectConflictCe => some addFixedMlp
  | addFixedMlp => some solveAllEip
  | solveAllEip => some solveAllCe
  | solveAllCe => some detectIndividualEdges
  | detectIndividualEdges => some detectAndSolveTcmlp
  | detectAndSolveTcmlp => some detectIntervals
  | detectIntervals => some detectIntervalsPerDiagZones
  | detectIntervalsPerDiagZones => some solveDiagZonesIntervals
  | solveDiagZonesIntervals => some mesh
  | mesh => none

/-- The cases of the `switch` of `that_and_after`, from top to bottom, with what each emplaces before
falling through (`src/app/openemsh.cpp:66-80`). -/
def fallthroughCases : List (Step × Step) :=
  [ (adjustEdgeToMaterial, adjustEdgeToMaterial), (detectDiagAngles, detectDiagAngles),
    (detectDiagZones, detectDiagZones), (solveDiagZonesAngles, solveDiagZonesAngles),
    (detectConflictEip, detectConflictEip), (detectConflictCe, detectConflictCe),
    (addFixedMlp, addFixedMlp), (solveAllEip, solveAllEip), (solveAllCe, solveAllCe),
    (detectIndividualEdges, detectIndividualEdges), (detectAndSolveTcmlp, detectAndSolveTcmlp),
    (detectIntervals, detectIntervals), (detectIntervalsPerDiagZones, detectIntervalsPerDiagZones),
    (solveDiagZonesIntervals, solveDiagZonesIntervals), (mesh, mesh) ]

/-- `that_and_after` (`src/app/openemsh.cpp:61-85`): jump to the case, then fall through. -/
def thatAndAfter (s : Step) : List Step :=
  (fallthroughCases.dropWhile fun c => c.1 ≠ s).map (·.2)

/-- `index` (`src/app/steps.hpp:36-57`). -/
def index : Option Step → Nat
  | none => 0
  | some adjustEdgeToMaterial => 1
  | some detectDiagAngles => 2
  | some detectDiagZones => 3
  | some solveDiagZonesAngles => 4
  | some detectConflictEip => 5
  | some detectConflictCe => 6
  | some addFixedMlp => 7
  | some solveAllEip => 8
  | some solveAllCe => 9
  | some detectIndividualEdges => 10
  | some detectAndSolveTcmlp => 11
  | some detectIntervals => 12
  | some detectIntervalsPerDiagZones => 13
  | some solveDiagZonesIntervals => 14
  | some mesh => 15

/-- `index_max` (`src/app/steps.hpp:60-62`). -/
def indexMax : Nat := index (some mesh)

/-- The calls of `handle` in `OpenEMSH::run`, from top to bottom (`src/app/openemsh.cpp:169-183`). -/
def handled : List Step :=
  [ adjustEdgeToMaterial, detectDiagAngles, detectDiagZones, solveDiagZonesAngles, detectConflictEip,
    detectConflictCe, addFixedMlp, solveAllEip, solveAllCe, detectIndividualEdges, detectAndSolveTcmlp,
    detectIntervals, detectIntervalsPerDiagZones, solveDiagZonesIntervals, mesh ]

/-- The set given by `run_all_steps` (`src/app/openemsh.cpp:190-206`). -/
def all : List Step :=
  [ adjustEdgeToMaterial, detectDiagAngles, detectDiagZones, solveDiagZonesAngles, detectConflictEip,
    detectConflictCe, addFixedMlp, solveAllEip, solveAllCe, detectIndividualEdges, detectAndSolveTcmlp,
    detectIntervals, detectIntervalsPerDiagZones, solveDiagZonesIntervals, mesh ]

end Step

namespace App
variable {σ : Type}

/-- What the `Board` member function called for a step does to the history and to the objects
(`src/app/openemsh.cpp:169-183`). -/
abbrev Work (σ : Type) := Step → World σ Step → Except Fault (World σ Step)

/-- The calls of `handle` (`src/app/openemsh.cpp:161-166, 169-183`), also returning the steps executed, each
with the timepoint that was current when it started. -/
def handleAll (work : Work σ) (steps : List Step) :
    List Step → World σ Step → Except Fault (List (Step × Addr) × World σ Step)
  | [], w => .ok ([], w)
  | s :: rest, w =>
    if steps.contains s then
      match work s (w.annotateCurrent s) with
      | .error e => .error e
      | .ok w1 => match handleAll work steps rest w1 with
        | .error e => .error e
        | .ok (log, w2) => .ok ((s, w.care.current) :: log, w2)
    else handleAll work steps rest w

/-- `OpenEMSH::run` (`src/app/openemsh.cpp:160-186`), also returning what was executed. -/
def run (work : Work σ) (steps : List Step) (w : World σ Step) :
    Except Fault (List (Step × Addr) × World σ Step) :=
  match handleAll work steps Step.handled w with
  | .error e => .error e
  | .ok (log, w1) => match w1.rememberCurrent with
    | .error e => .error e
    | .ok w2 => .ok (log, w2)

/-- `OpenEMSH::run_all_steps` (`src/app/openemsh.cpp:189-207`). -/
def runAllSteps (work : Work σ) (w : World σ Step) := run work Step.all w

/-- `OpenEMSH::run_from_step` (`src/app/openemsh.cpp:223-225`). -/
def runFromStep (work : Work σ) (s : Step) (w : World σ Step) := run work s.thatAndAfter w

/-- `OpenEMSH::run_next_step` (`src/app/openemsh.cpp:210-220`). -/
def runNextStep (work : Work σ) (w : World σ Step) : Except Fault (List (Step × Addr) × World σ Step) :=
  match w.findFirstAncestorWithAnnotation false with
  | .error e => .error e
  | .ok t => match w.getAnnotation t with
    | some s => match s.next with
      | some n => run work [n] w
      | none => .ok ([], w)
    | none => run work [.adjustEdgeToMaterial] w

/-- `OpenEMSH::go_before` (`src/app/openemsh.cpp:228-235`). -/
def goBefore (s : Step) (w : World σ Step) : Except Fault (World σ Step) :=
  match w.findFirstAncestorWithAnnotationThat (fun a => a = s) false with
  | .error e => .error e
  | .ok t => match w.goWithoutRemembering t with
    | .error e => .error e
    | .ok (_, w1) => .ok w1

/-- `OpenEMSH::go_before_previous_step` (`src/app/openemsh.cpp:238-241`). -/
def goBeforePreviousStep (w : World σ Step) : Except Fault (World σ Step) :=
  match w.findFirstAncestorWithAnnotation false with
  | .error e => .error e
  | .ok t => match w.goAndRemember t with
    | .error e => .error e
    | .ok (_, w1) => .ok w1

/-- `OpenEMSH::can_run_a_next_step` (`src/app/openemsh.cpp:244-251`). -/
def canRunANextStep (w : World σ Step) : Except Fault Bool :=
  match w.findFirstAncestorWithAnnotation false with
  | .error e => .error e
  | .ok t => match w.getAnnotation t with
    | some s => .ok s.next.isSome
    | none => .ok true

/-- `OpenEMSH::can_go_before` (`src/app/openemsh.cpp:254-256`). -/
def canGoBefore (w : World σ Step) : Except Fault Bool :=
  match w.findFirstAncestorWithAnnotation false with
  | .error e => .error e
  | .ok t => .ok t.isSome

/-- `OpenEMSH::get_current_step` (`src/app/openemsh.cpp:259-266`). -/
def getCurrentStep (w : World σ Step) : Except Fault (Option Step) :=
  match w.findFirstAncestorWithAnnotation true with
  | .error e => .error e
  | .ok t => .ok (w.getAnnotation t)

/-- `OpenEMSH::parse` (`src/app/openemsh.cpp:118-127`). `parser` is what `ParserFromCsx::run` does: `none` is
a refused file. The result says whether `parse` succeeded. -/
def parse (parser : World σ Step → Except Fault (Option (World σ Step))) (w : World σ Step) :
    Except Fault (Bool × World σ Step) :=
  match w.reset with
  | .error e => .error e
  | .ok w1 => match parser w1 with
    | .error e => .error e
    | .ok none => .ok (false, w1)
    | .ok (some w2) => match w2.rememberCurrent with
      | .error e => .error e
      | .ok w3 => .ok (true, w3)

/-- `MainWindow::handle_edition_from` (`src/ui/qt/main_window.cpp:650-654, 636-640`) without the views:
`edit` is the edition, applied between going before the step and running from it; the timepoint reached is
then pinned (`make_current_state_view`, 609). -/
def handleEditionFrom (work : Work σ) (s : Step) (edit : World σ Step → Except Fault (World σ Step))
    (w : World σ Step) : Except Fault (List (Step × Addr) × World σ Step) :=
  match goBefore s w with
  | .error e => .error e
  | .ok w1 => match edit w1 with
    | .error e => .error e
    | .ok w2 => match runFromStep work s w2 with
      | .error e => .error e
      | .ok (log, w3) => .ok (log, w3.pinCurrent)

end App
end Verif
