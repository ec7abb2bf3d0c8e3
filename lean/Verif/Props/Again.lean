import Verif.Lemmas.FuelRun
import Verif.Props.ZoneEdition

/-!
# C102: going back over steps and running them again
-/

namespace Verif.Board
open Verif.Mesh Verif.Geom
open Spec

/-- The first run is the one from the angles on, with no angle yet. -/
theorem run_first (S : Sorters) (g : MeshParams) (gz : ZoneParams) (B : Input) (axis : Geom.Axis) :
    ((runFromAngles S g gz B [] (fun _ _ => false) axis).map fun r => r.2) = runSteps S g gz B axis := by
  unfold runFromAngles runSteps diagonalSteps runFromZones
  cases h : detectAllAngles B with
  | none => rfl
  | some L =>
    simp only [Outcome.orUb, Outcome.bind, List.nil_append, Bool.and_false, Option.bind_some]
    cases h2 : detectAllZones S.pointers (angleAt L) gz (fun plane => (B.edges plane).map B.E) (anglesOf L) with
    | none => rfl
    | some zones =>
      simp only [Option.bind_some]
      cases h3 : solveZonesAngles (angleAt L) gz.minimalAngle zones fun _ _ => false with
      | none => rfl
      | some m =>
        simp only [Option.map_some]
        cases h4 : detectAllInPolygons S.points B allPlanes with
        | ub => rfl
        | diverges => rfl
        | ok conflicts =>
          simp only
          cases h5 : conflicts.foldlM (solveAllInPolygon S.overlaps) B.E with
          | none => rfl
          | some E =>
            simp only
            cases h6 : boardPolicies B E L m (detectAllColinear B) axis with
            | none => rfl
            | some asked =>
              simp only
              cases h7 : finishAxis S g (angleAt L) (zones axis) (axisPolicies g (B.fixed axis) asked) <;> rfl

theorem setDmax_get (d : ℚ) (is : List Nat) : ∀ (l : List Interval) (n : Nat),
    (is.foldl (fun l i => l.modify i fun interval => { interval with dmax := d }) l)[n]? =
      if n ∈ is then l[n]?.map fun i => { i with dmax := d } else l[n]? := by
  induction is with
  | nil => intro l n; simp
  | cons i is ih =>
    intro l n
    rw [List.foldl_cons, ih, List.getElem?_modify]
    by_cases h : i = n
    · subst h
      by_cases h' : i ∈ is <;> cases l[i]? <;> simp [h']
    · by_cases h' : n ∈ is <;> cases l[n]? <;> simp [h, h', Ne.symm h]

/-- A zone that holds its intervals several times solves them as one that holds them once. -/
theorem solveIntervals_same {z z' : Zone} (hd : z'.dmax = z.dmax) (hi : ∀ i, i ∈ z'.intervals ↔ i ∈ z.intervals) (l : List Interval) :
    z'.solveIntervals l = z.solveIntervals l := by
  apply List.ext_getElem?
  intro n
  unfold Zone.solveIntervals
  rw [setDmax_get, setDmax_get, hd]
  simp only [hi n]

theorem solveAll_same : ∀ {zs zs' : List Zone}, List.Forall₂ (fun z z' => z'.dmax = z.dmax ∧ ∀ i, i ∈ z'.intervals ↔ i ∈ z.intervals) zs zs' →
    ∀ l, solveAllIntervals zs' l = solveAllIntervals zs l := by
  intro zs zs' h
  induction h with
  | nil => intro l; rfl
  | cons h _ ih =>
    intro l
    unfold solveAllIntervals at ih ⊢
    rw [List.foldl_cons, List.foldl_cons, solveIntervals_same h.1 h.2, ih]

/-- The zones with nothing but their intervals changed, which are among those found. -/
def Kept (z z' : Zone) : Prop :=
  z'.axis = z.axis ∧ z'.dmax = z.dmax ∧ z'.angles = z.angles ∧ ∀ i ∈ z'.intervals, i ∈ z.intervals

theorem perZones_kept {A : Nat → BAngle} {ivs : List Interval} : ∀ {zones zs zs' : List Zone}, (∀ z ∈ zones, z.intervals = []) →
    detectPerZones A ivs zones = some zs → List.Forall₂ Kept zs zs' →
    ∃ r, detectPerZones A ivs zs' = some r ∧
      List.Forall₂ (fun z z' => z'.dmax = z.dmax ∧ ∀ i, i ∈ z'.intervals ↔ i ∈ z.intervals) zs r := by
  intro zones
  induction zones with
  | nil =>
    intro zs zs' _ h hk
    obtain rfl : [] = zs := by simpa [detectPerZones] using h
    cases hk
    exact ⟨[], rfl, .nil⟩
  | cons z zones ih =>
    intro zs zs' h0 h hk
    unfold detectPerZones at h
    rw [List.mapM_cons] at h
    obtain ⟨y, hy, h⟩ := Option.bind_eq_some_iff.1 h
    obtain ⟨ys, hys, h⟩ := Option.bind_eq_some_iff.1 h
    obtain rfl := Option.some.inj h
    obtain ⟨b, hb, rfl⟩ := Option.map_eq_some_iff.1 hy
    cases hk with
    | cons hk1 hk2 =>
      rename_i z' rest
      obtain ⟨r, hr, hr'⟩ := ih (fun w hw => h0 w (List.mem_cons_of_mem _ hw)) hys hk2
      obtain ⟨k1, k2, k3, k4⟩ := hk1
      have hb' : z'.bounding A = some b := by
        rw [← hb]
        unfold Zone.bounding
        simp only at k1 k3
        rw [k1, k3]
      refine ⟨{ z' with intervals := z'.intervals ++ inZone b ivs } :: r, ?_, .cons ⟨k2, fun i => ?_⟩ hr'⟩
      · unfold detectPerZones
        rw [List.mapM_cons, hb']
        show Option.bind (List.mapM _ rest) _ = _
        unfold detectPerZones at hr
        rw [hr]
        rfl
      · have e0 : z.intervals = [] := h0 z (List.mem_cons_self ..)
        simp only [e0, List.nil_append, List.mem_append]
        simp only [e0, List.nil_append] at k4
        exact ⟨fun h => h.elim (k4 i) id, Or.inr⟩

/-- C102: after a run, going back before a step that reads what is not registered, and running from there with what is left of
the run, gives the same edges and the same axis: for the detection of zones, the choice of the angles to mesh, the detection of
edges in polygons, the detection of the intervals of zones, any number of times, and the solving of those intervals; and for the
detection of angles if there is none. What is missing: the detection of angles if there are some, see `C102_false`. -/
theorem C102_partial (S : Sorters) {g : MeshParams} {gz : ZoneParams} {B : Input} (hB : Built B) {axis : Geom.Axis}
    {E : Nat → BEdge} {a : Mesh.Axis} (h : runSteps S g gz B axis = .ok (E, a)) :
    ∃ d x zs, runToZoneIntervals S g gz B axis = .ok (d, E, x, zs) ∧
      runFromZones S g gz B d.1 d.2.2 axis = .ok (E, a) ∧
      (∀ zones : Zones, (∀ w, (zones w).map Zone.bare = d.2.1 w) → runFromZonesAngles S g gz B d.1 zones d.2.2 axis = .ok (E, a)) ∧
      runFromConflicts S g B d axis = .ok (E, a) ∧
      (∀ zs', List.Forall₂ Kept zs zs' → runFromPerZones S (angleAt d.1) zs' x = .ok a) ∧
      runFromZoneIntervals S zs x = .ok a ∧
      (d.1 = [] → runFromAngles S g gz B d.1 d.2.2 axis = .ok ([], E, a)) := by
  obtain ⟨⟨L, zones, m⟩, asked, b, hd, hE, hasked, hb, e1, e2⟩ := run_split h
  obtain ⟨L1, zones1, m1, new1, h1, d1, d2, d3, -, d5⟩ := diagonal_spec hB S.pointers gz
  rw [hd] at h1
  obtain ⟨rfl, rfl, rfl⟩ : L = L1 ∧ zones = zones1 ∧ m = m1 := by simpa using h1
  have hempty : ∀ w, ∀ z ∈ zones w, z.intervals = [] := by
    intro w z hz
    obtain ⟨p, va, hw, hz'⟩ := (d2 _ _).1 hz
    exact (d3 p va z hz').2.1
  obtain ⟨zs, hzs⟩ : ∃ zs, detectPerZones (angleAt L) (b.detectIntervals S.pointers g).intervals (zones axis) = some zs := by
    unfold runFromIntervals zoneIntervals at e2
    cases hper : detectPerZones (angleAt L) (b.detectIntervals S.pointers g).intervals (zones axis) with
    | none => rw [hper] at e2; cases e2
    | some zs => exact ⟨zs, rfl⟩
  have e3 : runFromZoneIntervals S zs (b.detectIntervals S.pointers g) = .ok a := by
    unfold runFromIntervals zoneIntervals at e2
    rw [hzs] at e2
    exact e2
  have hzones := from_zones hB hd g gz axis
  have hconf : runFromConflicts S g B (L, zones, m) axis = .ok (E, a) := by
    rw [← h]
    unfold runSteps runFromConflicts
    rw [hd]
    rfl
  refine ⟨(L, zones, m), b.detectIntervals S.pointers g, zs, ?_, hzones.trans h, ?_, hconf, ?_, e3, ?_⟩
  · unfold runToZoneIntervals
    rw [e1]
    simp only [Outcome.bind]
    rw [hzs]
    rfl
  · intro zones' hz
    have hsolve : solveZonesAngles (angleAt L) gz.minimalAngle zones' m = some m := by
      rw [← zones_again hB hd]
      refine solveZonesAngles_congr _ _ _ fun w => ?_
      have hz : (zones' w).map Zone.bare = zones w := hz w
      rw [← hz, List.map_map]
      rfl
    rw [← hconf]
    unfold runFromZonesAngles runFromConflicts
    rw [hsolve, hz axis]
    rfl
  · intro zs' hk
    obtain ⟨r, hr, hr'⟩ := perZones_kept (hempty axis) hzs hk
    rw [← e3]
    unfold runFromPerZones runFromZoneIntervals zoneIntervals
    rw [hr, ← solveAll_same hr']
    rfl
  · intro hL
    simp only at hL
    subst hL
    have hdet : detectAllAngles B = some [] := by
      unfold diagonalSteps at hd
      obtain ⟨L', e1, hd⟩ := Option.bind_eq_some_iff.1 hd
      obtain ⟨z', e2, hd⟩ := Option.bind_eq_some_iff.1 hd
      obtain ⟨m', e3, hd⟩ := Option.map_eq_some_iff.1 hd
      rw [e1, (Prod.mk.inj hd).1]
    have := run_first S g gz B axis
    unfold runFromAngles at this ⊢
    rw [hdet] at this ⊢
    simp only [Outcome.orUb, Outcome.bind, List.nil_append, List.length_nil, Nat.not_lt_zero, decide_false, Bool.false_and] at this ⊢
    rw [h] at this
    obtain ⟨r, hr, hr'⟩ := outcome_map_ok this
    obtain ⟨r', hr0, rfl⟩ := outcome_map_ok hr
    rw [hr0]
    simp only at hr'
    subst hr'
    rfl

/-- A triangle with a corner half a unit after another along x. -/
def slopeBoard : Input where
  polygons
    | .xy => [0]
    | _ => []
  P _ := ⟨[⟨0, 0⟩, ⟨10, 0⟩, ⟨1 / 2, 6⟩], [(0, ⟨⟨1 / 2, 6⟩, ⟨0, 0⟩⟩), (1, ⟨⟨0, 0⟩, ⟨10, 0⟩⟩), (2, ⟨⟨10, 0⟩, ⟨1 / 2, 6⟩⟩)], 0, 1, 1⟩
  E n := (([(0, ⟨.xy, ⟨⟨1 / 2, 6⟩, ⟨0, 0⟩⟩, .none, true, false⟩), (1, ⟨.xy, ⟨⟨0, 0⟩, ⟨10, 0⟩⟩, .ymin, true, false⟩),
    (2, ⟨.xy, ⟨⟨10, 0⟩, ⟨1 / 2, 6⟩⟩, .none, true, false⟩)] : List (Nat × BEdge)).lookup n).getD
    ⟨.yz, ⟨⟨0, 0⟩, ⟨0, 0⟩⟩, .none, true, false⟩
  fixed _ := []
  angle _ := 45

theorem slope_built : Built slopeBoard ∧ LinesApart slopeBoard := by
  refine ⟨⟨?_, ?_, ?_, ?_, ?_⟩, ⟨?_, ?_⟩⟩
  · intro p; cases p <;> decide +kernel
  · intro p; cases p <;> decide +kernel
  · intro p; cases p <;> decide +kernel
  · intro p; unfold SameLine Horizontal Vertical; cases p <;> decide +kernel
  · intro p; cases p <;> decide +kernel
  · intro p; unfold Horizontal; cases p <;> decide +kernel
  · intro p; unfold Vertical; cases p <;> decide +kernel

/-- With angles, going back before their detection and running again leaves more than before: the board keeps its angles and
finds them again. Here the three angles of a triangle become six, and there are four times as many policies too close to one
another along x. -/
theorem C102_false : ∃ (S : Sorters) (g : MeshParams) (gz : ZoneParams) (B : Input) (axis : Geom.Axis), g.InRange ∧
    0 ≤ g.proximityLimit ∧ 0 < gz.diagonalDmax ∧ Built B ∧ LinesApart B ∧ ∃ d E a E' a',
      diagonalSteps S.pointers gz B = some d ∧ runSteps S g gz B axis = .ok (E, a) ∧
      runFromAngles S g gz B d.1 d.2.2 axis = .ok (d.1 ++ d.1, E', a') ∧ d.1.length = 3 ∧
      a.conflicts.length = 1 ∧ a'.conflicts.length = 4 := by
  have key : ((runToIntervalsFF 9 plainSorters ⟨1, 1, 1, 2⟩ ⟨1, 2, 1, 20⟩ slopeBoard .x).bind fun r =>
      (runFromIntervalsF 60 plainSorters ⟨1, 1, 1, 2⟩ (angleAt r.1.1) (r.1.2.1 .x) r.2.2).bind fun a =>
      (runFromZonesF 19 60 plainSorters ⟨1, 1, 1, 2⟩ ⟨1, 2, 1, 20⟩ slopeBoard (r.1.1 ++ r.1.1)
        (fun n va => decide (n < r.1.1.length) && r.1.2.2 n va) .x).map fun r' =>
        decide (detectAllAngles slopeBoard = some r.1.1 ∧ r.1.1.length = 3 ∧ a.conflicts.length = 1 ∧
          r'.2.conflicts.length = 4)) = .ok true := by
    decide +kernel
  obtain ⟨⟨d, E, b⟩, h1, key⟩ := outcome_bind_ok key
  obtain ⟨a, h2, key⟩ := outcome_bind_ok key
  obtain ⟨⟨E', a'⟩, h3, key⟩ := outcome_map_ok key
  obtain ⟨e0, e1, e2, e3⟩ := of_decide_eq_true key
  have h1 := runToIntervalsFF_computed h1
  have h3 := (runFromZonesF_within ..).eq _ h3
  have hrun := run_join h1 (from_computed h2)
  obtain ⟨d', asked, b', hd, -, -, -, h1', -⟩ := run_split hrun
  rw [h1] at h1'
  have := Outcome.ok.inj h1'
  simp only [Prod.mk.injEq, true_and] at this
  obtain ⟨rfl, rfl⟩ := this
  refine ⟨plainSorters, ⟨1, 1, 1, 2⟩, ⟨1, 2, 1, 20⟩, slopeBoard, .x, ⟨by norm_num, by norm_num⟩, by norm_num, by norm_num,
    slope_built.1, slope_built.2, d, E, a, E', a', hd, hrun, ?_, e1, e2, e3⟩
  unfold runFromAngles
  rw [e0]
  show Outcome.map _ (runFromZones plainSorters _ _ slopeBoard (d.1 ++ d.1) _ .x) = _
  rw [h3]
  rfl

/-- The shape with two slanted sides: its run ends, and has a zone along x. -/
example : ∃ E a d x, Built roofBoard ∧ runSteps plainSorters roofParams roofZones roofBoard .x = .ok (E, a) ∧
    runToZoneIntervals plainSorters roofParams roofZones roofBoard .x = .ok (d, E, x, [roofZone]) ∧
    List.Forall₂ Kept [roofZone] [{ roofZone with intervals := [0, 1, 0, 1] }] := by
  obtain ⟨d, E, x, a, h1, h2, -⟩ := roof_run
  refine ⟨E, a, d, x, roof_built.1, h2, h1, .cons ⟨rfl, rfl, rfl, ?_⟩ .nil⟩
  decide

end Verif.Board
