import Verif.Lemmas.ManagerMesh

/-!
# Running the meshing of an axis

The loops of the model are partial functions, which the kernel does not run. Here are their versions that stop after a
number of turns, and the proof that when these give a result the model gives it too. They are only used to check
concrete cases.
-/

namespace Verif.Mesh

/-- `y` gives what `x` gives. -/
structure Below {α : Type} (x y : Option α) : Prop where
  eq : ∀ r, x = some r → y = some r

theorem Below.refl {α : Type} (x : Option α) : Below x x := ⟨fun _ h => h⟩

theorem Below.bind {α β : Type} {x y : Option α} {f g : α → Option β} (h : Below x y) (hf : ∀ a, Below (f a) (g a)) :
    Below (x >>= f) (y >>= g) := by
  refine ⟨fun r hr => ?_⟩
  cases hx : x with
  | none => rw [hx] at hr; cases hr
  | some a =>
    rw [hx] at hr
    rw [h.eq a hx]
    exact (hf a).eq r hr

/-- `findLs.loop`, at most `n` turns. -/
def findLsLoopF (smoothness dmax s : ℚ) : Nat → ℚ → ℚ → Option (List ℚ)
  | 0, _, _ => none
  | n + 1, currentD, currentS =>
    if currentS < s then do
      let d :=
        if currentD < dmax then
          if currentD * smoothness > dmax then dmax else currentD * smoothness
        else currentD
      let rest ← findLsLoopF smoothness dmax s n d (currentS + d)
      return (currentS + d) :: rest
    else some []

theorem findLsLoopF_below (smoothness dmax s : ℚ) (n : Nat) : ∀ currentD currentS,
    Below (findLsLoopF smoothness dmax s n currentD currentS) (findLs.loop smoothness dmax s currentD currentS) := by
  induction n with
  | zero => exact fun _ _ => ⟨fun _ h => by cases h⟩
  | succ n ih =>
    intro d s
    rw [findLsLoopF, findLs.loop]
    split
    · exact (ih _ _).bind fun _ => Below.refl _
    · exact Below.refl _

/-- `findLs`, at most `n` turns. -/
def findLsF (n : Nat) (d smoothness dmax s : ℚ) : Option (List ℚ) := findLsLoopF smoothness dmax s n (min d dmax) 0

theorem findLsF_below (n : Nat) (d smoothness dmax s : ℚ) : Below (findLsF n d smoothness dmax s) (findLs d smoothness dmax s) :=
  findLsLoopF_below ..

/-- `Side.updateLs`, at most `n` turns. -/
def Side.updateLsF (n : Nat) (side : Side) (dInit : Policy → ℚ → ℚ) (dmax h : ℚ) (ps : Policies) : Option Side := do
  let p := ps side.policy
  let ls ← findLsF n p.d side.smoothness dmax (h - dInit p p.d)
  return { side with ls := ls }

theorem updateLsF_below (n : Nat) (side : Side) (dInit : Policy → ℚ → ℚ) (dmax h : ℚ) (ps : Policies) :
    Below (side.updateLsF n dInit dmax h ps) (side.updateLs dInit dmax h ps) :=
  (findLsF_below ..).bind fun _ => Below.refl _

/-- `adjustD.loop`, at most `n` turns. -/
def adjustDLoopF (k : Nat) (dInit : ℚ → ℚ) (smoothness dmax h : ℚ) (lmin : Nat) : Nat → ℚ → List ℚ → Option ℚ
  | 0, _, _ => none
  | n + 1, currentD, currentLs =>
    if isLsValid currentLs currentD smoothness dmax lmin then some currentD
    else do
      let d := currentD - currentD / 1000
      let ls ← findLsF k d smoothness dmax (h - dInit d)
      adjustDLoopF k dInit smoothness dmax h lmin n d ls

theorem adjustDLoopF_below (k : Nat) (dInit : ℚ → ℚ) (smoothness dmax h : ℚ) (lmin n : Nat) : ∀ currentD currentLs,
    Below (adjustDLoopF k dInit smoothness dmax h lmin n currentD currentLs)
      (adjustD.loop dInit smoothness dmax h lmin currentD currentLs) := by
  induction n with
  | zero => exact fun _ _ => ⟨fun _ h => by cases h⟩
  | succ n ih =>
    intro d ls
    rw [adjustDLoopF, adjustD.loop]
    split
    · exact Below.refl _
    · exact (findLsF_below ..).bind fun _ => ih _ _

/-- `adjustD`, at most `n` turns. -/
def adjustDF (n : Nat) (side : Side) (dInit : Policy → ℚ → ℚ) (dmax h : ℚ) (ps : Policies) : Option ℚ :=
  let p := ps side.policy
  adjustDLoopF n (dInit p) side.smoothness dmax h side.lmin n (min p.d dmax) side.ls

/-- `adjustSmoothness.loop`, at most `n` turns. -/
def adjustSmoothnessLoopF (k : Nat) (d dmax s : ℚ) (nlines : Nat) : Nat → ℚ → Option ℚ
  | 0, _ => none
  | n + 1, current => do
    let next := if current - current / 10000 < 1 then 1 else current - current / 10000
    let ls ← findLsF k d next dmax s
    if ls.length > nlines then return current
    else if next = 1 then return next
    else adjustSmoothnessLoopF k d dmax s nlines n next

theorem adjustSmoothnessLoopF_below (k : Nat) (d dmax s : ℚ) (nlines n : Nat) : ∀ current,
    Below (adjustSmoothnessLoopF k d dmax s nlines n current) (adjustSmoothness.loop d dmax s nlines current) := by
  induction n with
  | zero => exact fun _ => ⟨fun _ h => by cases h⟩
  | succ n ih =>
    intro c
    rw [adjustSmoothnessLoopF, adjustSmoothness.loop]
    refine (findLsF_below ..).bind fun ls => ?_
    split_ifs
    all_goals first | exact Below.refl _ | exact ih _

/-- `adjustSmoothness`, at most `n` turns. -/
def adjustSmoothnessF (n : Nat) (side : Side) (dInit : Policy → ℚ → ℚ) (dmax h : ℚ) (ps : Policies) : Option ℚ :=
  let p := ps side.policy
  adjustSmoothnessLoopF n p.d dmax (h - dInit p p.d) side.ls.length n side.smoothness

/-- `Interval.autoSolveD`, loops of at most `n` turns. -/
def Interval.autoSolveDF (n : Nat) (i : Interval) (ps : Policies) : Option (Policies × Interval) := do
  let before ← i.before.updateLsF n dInitBefore i.dmax i.h ps
  let after ← i.after.updateLsF n dInitAfter i.dmax i.h ps
  let dmax := findDmax before after i.dmax
  let before ← before.updateLsF n dInitBefore i.dmax i.h ps
  let after ← after.updateLsF n dInitAfter i.dmax i.h ps
  let db ← adjustDF n before dInitBefore i.dmax i.h ps
  let ps := ps.setD before.policy db
  let before ← before.updateLsF n dInitBefore i.dmax i.h ps
  let da ← adjustDF n after dInitAfter i.dmax i.h ps
  let ps := ps.setD after.policy da
  let after ← after.updateLsF n dInitAfter i.dmax i.h ps
  return (ps, { i with dmax := dmax, before := before, after := after })

theorem autoSolveDF_below (n : Nat) (i : Interval) (ps : Policies) : Below (i.autoSolveDF n ps) (i.autoSolveD ps) := by
  refine (updateLsF_below ..).bind fun _ => (updateLsF_below ..).bind fun _ => ?_
  refine (updateLsF_below ..).bind fun _ => (updateLsF_below ..).bind fun _ => ?_
  refine (adjustDLoopF_below ..).bind fun _ => (updateLsF_below ..).bind fun _ => ?_
  exact (adjustDLoopF_below ..).bind fun _ => (updateLsF_below ..).bind fun _ => Below.refl _

/-- `Interval.autoSolveSmoothness`, loops of at most `n` turns. -/
def Interval.autoSolveSmoothnessF (n : Nat) (i : Interval) (ps : Policies) : Option Interval := do
  let before ← i.before.updateLsF n dInitBefore i.dmax i.h ps
  let after ← i.after.updateLsF n dInitAfter i.dmax i.h ps
  let sb ← adjustSmoothnessF n before dInitBefore i.dmax i.h ps
  let sa ← adjustSmoothnessF n after dInitAfter i.dmax i.h ps
  let before ← Side.updateLsF n { before with smoothness := sb } dInitBefore i.dmax i.h ps
  let after ← Side.updateLsF n { after with smoothness := sa } dInitAfter i.dmax i.h ps
  return { i with before := before, after := after }

theorem autoSolveSmoothnessF_below (n : Nat) (i : Interval) (ps : Policies) :
    Below (i.autoSolveSmoothnessF n ps) (i.autoSolveSmoothness ps) := by
  refine (updateLsF_below ..).bind fun _ => (updateLsF_below ..).bind fun _ => ?_
  refine (adjustSmoothnessLoopF_below ..).bind fun _ => (adjustSmoothnessLoopF_below ..).bind fun _ => ?_
  exact (updateLsF_below ..).bind fun _ => (updateLsF_below ..).bind fun _ => Below.refl _

/-- `Interval.solveAndMesh`, loops of at most `n` turns. -/
def Interval.solveAndMeshF (n : Nat) (i : Interval) (ps : Policies) : Option (Policies × Interval × List ℚ) := do
  let (ps, i) ← i.autoSolveDF n ps
  let i ← i.autoSolveSmoothnessF n ps
  return (ps, i, i.mesh ps)

theorem solveAndMeshF_below (n : Nat) (i : Interval) (ps : Policies) : Below (i.solveAndMeshF n ps) (i.solveAndMesh ps) :=
  (autoSolveDF_below ..).bind fun _ => (autoSolveSmoothnessF_below ..).bind fun _ => Below.refl _

/-- `solveAllD`, loops of at most `n` turns. -/
def solveAllDF (n : Nat) (ps : Policies) : List Interval → Option (Policies × List Interval)
  | [] => some (ps, [])
  | i :: rest => do
    let (ps, i) ← i.autoSolveDF n ps
    let (ps, rest) ← solveAllDF n ps rest
    return (ps, i :: rest)

theorem solveAllDF_below (n : Nat) (l : List Interval) : ∀ ps, Below (solveAllDF n ps l) (solveAllD ps l) := by
  induction l with
  | nil => exact fun _ => Below.refl _
  | cons i l ih => exact fun ps => (autoSolveDF_below ..).bind fun _ => (ih _).bind fun _ => Below.refl _

/-- `meshAll`, loops of at most `n` turns. -/
def meshAllF (n : Nat) (ps : Policies) : List Interval → Option (Policies × List Interval × List (List ℚ))
  | [] => some (ps, [], [])
  | i :: rest => do
    let (ps, i, lines) ← i.solveAndMeshF n ps
    let (ps, rest, ls) ← meshAllF n ps rest
    return (ps, i :: rest, lines :: ls)

theorem meshAllF_below (n : Nat) (l : List Interval) : ∀ ps, Below (meshAllF n ps l) (meshAll ps l) := by
  induction l with
  | nil => exact fun _ => Below.refl _
  | cons i l ih => exact fun ps => (solveAndMeshF_below ..).bind fun _ => (ih _).bind fun _ => Below.refl _

/-- `Axis.mesh`, loops of at most `n` turns. -/
def Axis.meshF (n : Nat) (S : Sorter Interval) (T : Sorter ℚ) (a : Axis) : Option Axis := do
  let order := S.sort Interval.h a.intervals
  let (ps, order) ← solveAllDF n a.get order
  let (ps, order, lines) ← meshAllF n ps order
  let a := { a.withPolicies ps with intervals := order }
  let oneline := a.policies.filterMap Policy.mesh
  return { a with meshlines := T.sort id (a.meshlines ++ lines.flatten ++ oneline) }

theorem meshF_below (n : Nat) (S : Sorter Interval) (T : Sorter ℚ) (a : Axis) : Below (a.meshF n S T) (a.mesh S T) :=
  (solveAllDF_below ..).bind fun _ => (meshAllF_below ..).bind fun _ => Below.refl _

/-- `Axis.solveTooClose`, at most `n` turns. -/
def Axis.solveTooCloseF (S : Sorter Nat) (g : MeshParams) : Nat → Axis → Option Axis
  | 0, _ => none
  | n + 1, a => match a.detectClosest S g.proximityLimit with
    | none => some a
    | some (i, j) => match a.addTooClose i j with
      | none => Axis.solveTooCloseF S g n a
      | some b => Axis.solveTooCloseF S g n (b.solveConflict g i j)

theorem solveTooCloseF_below (S : Sorter Nat) (g : MeshParams) (n : Nat) :
    ∀ a : Axis, Below (a.solveTooCloseF S g n) (a.solveTooClose S g) := by
  induction n with
  | zero => exact fun _ => ⟨fun _ h => by cases h⟩
  | succ n ih =>
    intro a
    rw [Axis.solveTooCloseF, Axis.solveTooClose]
    cases a.detectClosest S g.proximityLimit with
    | none => exact Below.refl _
    | some x =>
      simp only
      cases a.addTooClose x.1 x.2 with
      | none => exact ih _
      | some b => exact ih _

end Verif.Mesh
