import Verif.Lemmas.MovedAxis
import Verif.Lemmas.MovedConflicts

/-! # The whole run, when everything is moved -/

namespace Verif.Moved
open Verif.Geom
open Verif.Board
open Verif.Csx (Added)
open Verif.Mesh (Sorter tolerance Kind Facing MeshParams Interval)

variable {v : Point} {t : Shift}

/-! ## Policies -/

theorem coord_along (t : Shift) (plane : Plane) (va : ViewAxis) : (t.inPlane plane).coord va = t.along (axes plane va) := by
  cases plane <;> cases va <;> rfl

theorem coord_transpose {plane : Plane} {w : Geom.Axis} {va : ViewAxis} (h : transposeAxis plane w = some va) :
    (t.inPlane plane).coord va = t.along w := by
  cases plane <;> cases w <;> cases va <;> first | rfl | cases h

theorem segCoord_moved {plane : Plane} {ax : SegAxis} {w : Geom.Axis} (h : transposeSeg plane ax = some w) (p : Point) :
    segCoord (point (t.inPlane plane) p) ax = (segCoord p ax).map (· + t.along w) := by
  cases plane <;> cases ax <;> cases h <;> rfl

/-- A policy asked for, moved. -/
def asked (c : ℚ) (p : Kind × Facing × ℚ × Bool) : Kind × Facing × ℚ × Bool := (p.1, p.2.1, p.2.2.1 + c, p.2.2.2)

theorem countFacing_moved : ∀ (l : List BEdge) (m n : Nat), countFacing (l.map (bedge t)) m n = countFacing l m n
  | [], _, _ => rfl
  | e :: rest, m, n => by
    have hn : (bedge t e).normal = e.normal := rfl
    have hm : (bedge t e).toMesh = e.toMesh := rfl
    simp only [List.map_cons, countFacing, hn, hm, countFacing_moved rest]

theorem solveColinear_moved {w : Geom.Axis} {l : List BEdge} (h : ∀ e ∈ l, transposeSeg e.plane e.axis = some w) :
    solveColinear (l.map (bedge t)) = (solveColinear l).map fun r => r.map fun p => (p.1, p.2.1, p.2.2 + t.along w) := by
  cases l with
  | nil => rfl
  | cons front rest =>
    have hc := countFacing_moved (t := t) (front :: rest) 0 0
    simp only [List.map_cons] at hc
    have hs : segCoord (bedge t front).seg.p0 (bedge t front).axis = (segCoord front.seg.p0 front.axis).map (· + t.along w) := by
      rw [axis_bedge]
      exact segCoord_moved (h front List.mem_cons_self) _
    simp only [List.map_cons, solveColinear, hs, hc]
    cases segCoord front.seg.p0 front.axis with
    | none => rfl
    | some coord =>
      simp only [Option.map_some]
      generalize countFacing (front :: rest) 0 0 = r
      obtain ⟨b, m, n⟩ := r
      cases b with
      | true => rfl
      | false =>
        dsimp only
        split_ifs <;> rfl

theorem mapM_moved {α β γ : Type} {f : α → Option β} {f' : γ → Option β} {g : α → γ} {m : β → β} : ∀ l : List α,
    (∀ a ∈ l, f' (g a) = (f a).map m) → (l.map g).mapM f' = (l.mapM f).map fun r => r.map m
  | [], _ => rfl
  | a :: rest, h => by
    simp only [List.map_cons, List.mapM_cons, h a List.mem_cons_self, mapM_moved rest fun a ha => h a (List.mem_cons_of_mem _ ha)]
    cases f a with
    | none => rfl
    | some b => cases rest.mapM f <;> rfl

theorem individual_moved (plane : Plane) (b : Bool) {e : BEdge} (h : e.plane = plane) :
    individual plane b (bedge t e) = (individual plane b e).map fun r => (r.1, r.2.1, r.2.2.1, r.2.2.2 + t.along r.1) := by
  unfold individual
  rw [axis_bedge]
  cases ht : transposeSeg plane e.axis with
  | none =>
    cases segCoord e.seg.p0 e.axis <;> cases segCoord (bedge t e).seg.p0 e.axis <;> rfl
  | some w =>
    have hs : segCoord (bedge t e).seg.p0 e.axis = (segCoord e.seg.p0 e.axis).map (· + t.along w) := by
      simp only [bedge, segment, h]
      exact segCoord_moved ht _
    rw [hs]
    have hn : (bedge t e).normal = e.normal := rfl
    have hm : (bedge t e).toMesh = e.toMesh := rfl
    cases segCoord e.seg.p0 e.axis with
    | none => rfl
    | some coord =>
      simp only [Option.map_some, hn, hm]
      split <;> rfl

theorem boardPolicies_moved {B B' : Input} (h : MovedInput t B B') {E E' : Nat → BEdge} (hE : MovedEdges t B E E')
    (hs : ∀ n, (E n).seg = (B.E n).seg ∧ (E n).plane = (B.E n).plane) (L : List BAngle) (m : ToMesh) (w : Geom.Axis) :
    boardPolicies B' E' (L.map (bangle t)) m (detectAllColinear B') w =
      (boardPolicies B E L m (detectAllColinear B) w).map fun l => l.map (asked (t.along w)) := by
  have hon := detectAllColinear_on h.plane
  unfold boardPolicies
  rw [detectAllColinear_moved h]
  have e1 : ((detectAllColinear B w).mapM fun c => solveColinear (c.map E')) =
      ((detectAllColinear B w).mapM fun c => solveColinear (c.map E)).map fun r =>
        r.map fun o => o.map fun p => (p.1, p.2.1, p.2.2 + t.along w) := by
    have := mapM_moved (f := fun c => solveColinear (c.map E)) (f' := fun c => solveColinear (c.map E')) (g := id)
      (m := fun o => o.map fun p => (p.1, p.2.1, p.2.2 + t.along w)) (detectAllColinear B w) (by
        intro c hc
        have e2 : (id c).map E' = (c.map E).map (bedge t) := by
          rw [List.map_map]
          refine List.map_congr_left fun x hx => ?_
          obtain ⟨plane, hx, -⟩ := hon w c hc x hx
          exact (hE.2 plane x hx).2
        rw [e2]
        refine solveColinear_moved fun e he => ?_
        obtain ⟨x, hx, rfl⟩ := List.mem_map.1 he
        obtain ⟨plane, -, hp, ht⟩ := hon w c hc x hx
        rw [(hs x).2, hp]
        simpa only [BEdge.axis, (hs x).1] using ht)
    rwa [List.map_id] at this
  rw [e1]
  generalize ((detectAllColinear B w).mapM fun c => solveColinear (c.map E)) = solved
  cases solved with
  | none => rfl
  | some solved =>
    simp only [Option.map_some, Option.some.injEq]
    have e3 : ∀ l : List (Kind × Facing × ℚ × Bool), (l.map (asked (t.along w))).filter (fun p => accepted p.1 p.2.1) =
        (l.filter fun p => accepted p.1 p.2.1).map (asked (t.along w)) := fun l => by
      rw [List.filter_map]
      rfl
    rw [← e3]
    congr 1
    rw [List.map_append]
    congr 1
    · rw [List.filterMap_map, List.map_map]
      have e4 : (id ∘ fun o : Option (Kind × Facing × ℚ) => o.map fun p => (p.1, p.2.1, p.2.2 + t.along w)) =
          fun o => (id o).map fun p => (p.1, p.2.1, p.2.2 + t.along w) := rfl
      rw [e4, ← List.map_filterMap, List.map_map]
      rfl
    · rw [List.map_flatMap]
      congr 1
      funext plane
      rw [List.map_append, edges_moved h]
      congr 1
      · rw [List.map_filterMap]
        refine List.filterMap_congr fun i hi => ?_
        obtain ⟨h1, h2⟩ := hE.2 plane i hi
        rw [h2, individual_moved plane _ h1]
        cases individual plane (([Geom.Axis.x, .y, .z].any fun w => (detectAllColinear B w).any fun c => c.contains i)) (E i) with
        | none => rfl
        | some r =>
          obtain ⟨x, kind, side, coord⟩ := r
          simp only [Option.map_some]
          by_cases hx : x = w
          · subst hx
            simp [asked]
          · simp [hx]
      · rw [anglesOf_map]
        unfold anglePolicies
        rw [List.filterMap_flatMap, List.filterMap_flatMap, List.map_flatMap]
        refine List.flatMap_congr fun a ha => ?_
        obtain ⟨ha1, ha2⟩ := anglesOf_mem ha
        rw [List.filterMap_map, List.filterMap_map, List.map_filterMap]
        congr 1
        funext va
        have hp : (angleAt (L.map (bangle t)) a).p.coord va = (angleAt L a).p.coord va + t.along (axes plane va) := by
          rw [angleAt_map ha1, ← coord_along, ← ha2]
          exact coord_point _ _
        simp only [Function.comp_apply, hp]
        by_cases hx : axes plane va = w
        · subst hx
          simp [asked]
        · simp [hx]

/-! ## One axis -/

theorem addFixed_axis (g : MeshParams) {c : ℚ} (a : Mesh.Axis) (x : ℚ) : (axis c a).addFixed g (x + c) = axis c (a.addFixed g x) := by
  unfold Mesh.Axis.addFixed
  have e : ((axis c a).policies.any fun p =>
      decide (p.kind = .oneline) && decide (p.normal = .none) && decide (|p.coord - (x + c)| < tolerance)) =
      a.policies.any fun p => decide (p.kind = .oneline) && decide (p.normal = .none) && decide (|p.coord - x| < tolerance) := by
    simp only [axis, List.any_map, Function.comp_def, policy, add_sub_add_right_eq_sub]
    rfl
  rw [e]
  split
  · rfl
  · exact addPolicy_axis g a _ _ _ _

theorem addAllFixed_axis (g : MeshParams) {c : ℚ} : ∀ (l : List ℚ) (a : Mesh.Axis),
    (axis c a).addAllFixed g (l.map (· + c)) = axis c (a.addAllFixed g l)
  | [], _ => rfl
  | x :: rest, a => by
    simp only [List.map_cons, Mesh.Axis.addAllFixed, addFixed_axis]
    exact addAllFixed_axis g rest _

theorem axisPolicies_moved (g : MeshParams) {c : ℚ} (fixed : List ℚ) (l : List (Kind × Facing × ℚ × Bool)) :
    axisPolicies g (fixed.map (· + c)) (l.map (asked c)) = axis c (axisPolicies g fixed l) := by
  unfold axisPolicies
  rw [show emptyAxis.addAllFixed g (fixed.map (· + c)) = axis c (emptyAxis.addAllFixed g fixed) from addAllFixed_axis g fixed emptyAxis]
  generalize emptyAxis.addAllFixed g fixed = a
  induction l generalizing a with
  | nil => rfl
  | cons p rest ih =>
    simp only [List.map_cons, List.foldl_cons, asked, addPolicy_axis]
    exact ih _

theorem bounding_moved {L : List BAngle} {z : Zone} (h : ∀ a ∈ z.angles, a < L.length) :
    z.bounding (angleAt (L.map (bangle t))) = (z.bounding (angleAt L)).map fun b => (b.1 + t.along z.axis, b.2 + t.along z.axis) := by
  unfold Zone.bounding
  cases h1 : z.angles.head? with
  | none => rfl
  | some first =>
    cases h2 : z.angles.getLast? with
    | none => rfl
    | some last =>
      have m1 := h first (List.mem_of_mem_head? h1)
      have m2 := h last (List.mem_of_getLast? h2)
      simp only [Option.bind_some, angleAt_map m1, angleAt_map m2]
      show ((transposeAxis (angleAt L first).plane z.axis).bind fun va => _) = _
      cases h3 : transposeAxis (angleAt L first).plane z.axis with
      | none => rfl
      | some va =>
        simp only [Option.bind_some]
        show ((transposeAxis (angleAt L last).plane z.axis).map fun w => _) = _
        cases h4 : transposeAxis (angleAt L last).plane z.axis with
        | none => rfl
        | some w =>
          simp only [Option.map_some, bangle, coord_point, coord_transpose h3, coord_transpose h4]

theorem inZone_moved {c : ℚ} (b : ℚ × ℚ) (l : List Interval) : inZone (b.1 + c, b.2 + c) (l.map (interval c)) = inZone b l := by
  unfold inZone
  rw [List.length_map]
  refine List.filter_congr fun i _ => ?_
  rw [List.getElem?_map]
  cases l[i]? with
  | none => rfl
  | some x =>
    simp only [Option.map_some, Option.getD_some, interval]
    exact contains1D_add _ _ _ _

theorem solveAllIntervals_moved {c : ℚ} : ∀ (zones : List Zone) (l : List Interval),
    solveAllIntervals zones (l.map (interval c)) = (solveAllIntervals zones l).map (interval c) := by
  have e1 : ∀ (d : ℚ) (n : Nat) (l : List Interval), (l.map (interval c)).modify n (fun i => { i with dmax := d }) =
      (l.modify n fun i => { i with dmax := d }).map (interval c) := by
    intro d n l
    induction l generalizing n with
    | nil => cases n <;> rfl
    | cons i rest ih =>
      cases n with
      | zero => rfl
      | succ n =>
        simp only [List.map_cons, List.modify_succ_cons, ih]
  have e2 : ∀ (d : ℚ) (ns : List Nat) (l : List Interval), ns.foldl (fun l i => l.modify i fun i => { i with dmax := d }) (l.map (interval c)) =
      (ns.foldl (fun l i => l.modify i fun i => { i with dmax := d }) l).map (interval c) := by
    intro d ns
    induction ns with
    | nil => exact fun _ => rfl
    | cons n rest ih => intro l; simp only [List.foldl_cons, e1, ih]
  intro zones
  induction zones with
  | nil => exact fun _ => rfl
  | cons z rest ih =>
    intro l
    unfold solveAllIntervals at ih ⊢
    rw [List.foldl_cons, List.foldl_cons, ← ih]
    congr 1
    exact e2 z.dmax z.intervals l

theorem solveAllIntervals_within {n : Nat} : ∀ (zones : List Zone) (l : List Interval), Within n l → Within n (solveAllIntervals zones l) := by
  have e1 : ∀ (d : ℚ) (k : Nat) (l : List Interval), Within n l → Within n (l.modify k fun i => { i with dmax := d }) := by
    intro d k l h
    induction l generalizing k with
    | nil => cases k <;> exact h
    | cons i rest ih =>
      have hr : Within n rest := fun j hj => h j (List.mem_cons_of_mem _ hj)
      have hi := h i List.mem_cons_self
      cases k with
      | zero =>
        intro j hj
        rcases List.mem_cons.1 hj with rfl | hj
        · exact hi
        · exact hr j hj
      | succ k =>
        intro j hj
        rw [List.modify_succ_cons] at hj
        rcases List.mem_cons.1 hj with rfl | hj
        · exact hi
        · exact ih k hr j hj
  have e2 : ∀ (d : ℚ) (ns : List Nat) (l : List Interval), Within n l →
      Within n (ns.foldl (fun l i => l.modify i fun i => { i with dmax := d }) l) := by
    intro d ns
    induction ns with
    | nil => exact fun _ h => h
    | cons k rest ih => exact fun l h => ih _ (e1 d k l h)
  intro zones
  induction zones with
  | nil => exact fun _ h => h
  | cons z rest ih => exact fun l h => ih _ (e2 z.dmax z.intervals l h)

theorem zoneIntervals_moved {L : List BAngle} {zones : List Zone} {w : Geom.Axis}
    (h : ∀ z ∈ zones, z.axis = w ∧ ∀ a ∈ z.angles, a < L.length) (x : Mesh.Axis) :
    zoneIntervals (angleAt (L.map (bangle t))) zones (axis (t.along w) x) =
      (zoneIntervals (angleAt L) zones x).map (axis (t.along w)) := by
  unfold zoneIntervals
  have e : detectPerZones (angleAt (L.map (bangle t))) (axis (t.along w) x).intervals zones =
      detectPerZones (angleAt L) x.intervals zones := by
    unfold detectPerZones
    have : ∀ z ∈ zones, ((z.bounding (angleAt (L.map (bangle t)))).map fun b =>
        ({ z with intervals := z.intervals ++ inZone b (axis (t.along w) x).intervals } : Zone)) =
        (z.bounding (angleAt L)).map fun b => { z with intervals := z.intervals ++ inZone b x.intervals } := by
      intro z hz
      rw [bounding_moved (h z hz).2, Option.map_map, (h z hz).1]
      congr 1
      funext b
      simp only [Function.comp_apply]
      rw [show (axis (t.along w) x).intervals = x.intervals.map (interval (t.along w)) from rfl, inZone_moved]
    have m := mapM_moved (f := fun z : Zone => (z.bounding (angleAt L)).map fun b => { z with intervals := z.intervals ++ inZone b x.intervals })
      (f' := fun z : Zone => ((z.bounding (angleAt (L.map (bangle t)))).map fun b =>
        ({ z with intervals := z.intervals ++ inZone b (axis (t.along w) x).intervals } : Zone))) (g := id) (m := id) zones
      (fun z hz => by rw [id, this z hz, Option.map_id]; rfl)
    rw [List.map_id] at m
    rw [m]
    cases zones.mapM fun z : Zone => (z.bounding (angleAt L)).map fun b => { z with intervals := z.intervals ++ inZone b x.intervals } with
    | none => rfl
    | some _ => simp
  rw [e, Option.map_map]
  congr 1
  funext zs
  simp only [Function.comp_apply, axis, solveAllIntervals_moved]

theorem orUb_map {α β : Type} (f : α → β) (o : Option α) : Outcome.orUb (o.map f) = (Outcome.orUb o).map f := by
  cases o <;> rfl

theorem orDiverges_map {α β : Type} (f : α → β) (o : Option α) : Outcome.orDiverges (o.map f) = (Outcome.orDiverges o).map f := by
  cases o <;> rfl

theorem addPolicy_intervals (g : MeshParams) (a : Mesh.Axis) (k : Kind) (n : Facing) (c : ℚ) (b : Bool) :
    (a.addPolicy g k n c b).1.intervals = a.intervals := by
  unfold Mesh.Axis.addPolicy
  split <;> rfl

theorem axisPolicies_intervals (g : MeshParams) (fixed : List ℚ) (l : List (Kind × Facing × ℚ × Bool)) :
    (axisPolicies g fixed l).intervals = [] := by
  have h1 : ∀ (l : List ℚ) (a : Mesh.Axis), a.intervals = [] → (a.addAllFixed g l).intervals = [] := by
    intro l
    induction l with
    | nil => exact fun _ h => h
    | cons x rest ih =>
      intro a h
      refine ih _ ?_
      unfold Mesh.Axis.addFixed
      split
      · exact h
      · rw [addPolicy_intervals, h]
  unfold axisPolicies
  have h2 := h1 fixed emptyAxis rfl
  generalize emptyAxis.addAllFixed g fixed = a at h2
  induction l generalizing a with
  | nil => exact h2
  | cons p rest ih =>
    rw [List.foldl_cons]
    exact ih _ (by rw [addPolicy_intervals, h2])

theorem solveTooClose_intervals {S : Sorter Nat} (g : MeshParams) :
    ∀ a b : Mesh.Axis, a.solveTooClose S g = some b → b.intervals = a.intervals := by
  apply Mesh.Axis.solveTooClose.partial_correctness
  intro f ih a b h
  split at h
  · cases h
    rfl
  · split at h
    · exact ih _ _ h
    · rename_i i j hd b' hb
      rw [ih _ _ h]
      have e1 : b'.intervals = a.intervals := by
        unfold Mesh.Axis.addTooClose at hb
        split at hb
        · cases hb
        · cases hb
          rfl
      rw [← e1]
      unfold Mesh.Axis.solveConflict
      split
      · exact addPolicy_intervals _ _ _ _ _ _
      · rfl

theorem finishAxis_moved {S : Sorters} (hS : AllCompare S) (g : MeshParams) {L : List BAngle} {zones : List Zone} {w : Geom.Axis}
    (h : ∀ z ∈ zones, z.axis = w ∧ ∀ a ∈ z.angles, a < L.length) {x : Mesh.Axis} (hx : x.intervals = []) :
    finishAxis S g (angleAt (L.map (bangle t))) zones (axis (t.along w) x) =
      (finishAxis S g (angleAt L) zones x).map (axis (t.along w)) := by
  unfold finishAxis
  rw [solveTooClose_axis hS.pointers, orDiverges_map, obind_map, omap_bind]
  refine obind_congr _ fun b hb => ?_
  rw [detectIntervals_axis hS.pointers, zoneIntervals_moved h, orUb_map, obind_map, omap_bind]
  refine obind_congr _ fun d hd => ?_
  have hb' : x.solveTooClose S.pointers g = some b := by
    cases hc : x.solveTooClose S.pointers g with
    | none => rw [hc] at hb; cases hb
    | some y => rw [hc] at hb; cases hb; rfl
  have hd' : zoneIntervals (angleAt L) zones (b.detectIntervals S.pointers g) = some d := by
    cases hc : zoneIntervals (angleAt L) zones (b.detectIntervals S.pointers g) with
    | none => rw [hc] at hd; cases hd
    | some y => rw [hc] at hd; cases hd; rfl
  have hi : b.intervals = [] := (solveTooClose_intervals g _ _ hb').trans hx
  have hw := detectIntervals_within (S := S.pointers) g b hi
  have hw' : Within d.policies.length d.intervals := by
    unfold zoneIntervals at hd'
    obtain ⟨zs, -, rfl⟩ := Option.map_eq_some_iff.1 hd'
    exact solveAllIntervals_within zs _ hw
  rw [mesh_axis hS.intervals hS.lines hw', orDiverges_map]

/-! ## The steps -/

theorem solveAllInPolygon_seg {S : Sorter Overlap} : ∀ (s : InPolygon) (E F : Nat → BEdge), solveAllInPolygon S E s = some F →
    ∀ n, (F n).seg = (E n).seg ∧ (F n).plane = (E n).plane
  | [], E, F, h, n => by
    cases h
    exact ⟨rfl, rfl⟩
  | (k, os) :: rest, E, F, h, n => by
    unfold solveAllInPolygon at h
    split at h
    · cases h
    · rename_i b hb
      have := solveAllInPolygon_seg rest _ F h n
      unfold setMesh at this
      split at this <;> exact this

theorem solveConflicts_seg {S : Sorter Overlap} : ∀ (l : List InPolygon) (E F : Nat → BEdge), l.foldlM (solveAllInPolygon S) E = some F →
    ∀ n, (F n).seg = (E n).seg ∧ (F n).plane = (E n).plane
  | [], E, F, h, n => by
    cases h
    exact ⟨rfl, rfl⟩
  | s :: rest, E, F, h, n => by
    rw [List.foldlM_cons] at h
    obtain ⟨G, hG, h⟩ := Option.bind_eq_some_iff.1 h
    have h1 := solveAllInPolygon_seg s E G hG n
    have h2 := solveConflicts_seg rest G F h n
    exact ⟨h2.1.trans h1.1, h2.2.trans h1.2⟩

/-- The run of a moved board: the axis is moved, and the edges to be meshed are the same. -/
theorem runSteps_moved {S : Sorters} (hS : AllCompare S) (g : MeshParams) (gz : ZoneParams) {B B' : Input} (h : MovedInput t B B')
    (hE : MovedEdges t B B.E B'.E) (w : Geom.Axis) :
    (runSteps S g gz B' w).map Prod.snd = (runSteps S g gz B w).map fun r => axis (t.along w) r.2 := by
  unfold runSteps
  rw [diagonalSteps_moved hS.pointers h, orUb_map, obind_map, omap_bind, omap_bind]
  refine obind_congr _ fun d hd => ?_
  have hd' : diagonalSteps S.pointers gz B = some d := by
    cases hc : diagonalSteps S.pointers gz B with
    | none => rw [hc] at hd; cases hd
    | some y => rw [hc] at hd; cases hd; rfl
  have hz : ∀ z ∈ d.2.1 w, z.axis = w ∧ ∀ a ∈ z.angles, a < d.1.length := fun z hz =>
    ⟨(diagonalSteps_mem hd' w z hz).1.1, (diagonalSteps_mem hd' w z hz).2⟩
  rw [detectAllInPolygons_moved hS.points h, obind_map, omap_bind, omap_bind]
  refine obind_congr _ fun cs hcs => ?_
  have hr := solveConflicts_moved (S := S.points) (T := S.overlaps) hS.overlaps (B := B) allPlanes cs B.E B'.E hcs hE
  revert hr
  cases hF : cs.foldlM (solveAllInPolygon S.overlaps) B.E with
  | none =>
    cases (allConflicts t allPlanes cs).foldlM (solveAllInPolygon S.overlaps) B'.E with
    | none => exact fun _ => rfl
    | some _ => exact fun h => by cases h
  | some F =>
    cases (allConflicts t allPlanes cs).foldlM (solveAllInPolygon S.overlaps) B'.E with
    | none => exact fun h => by cases h
    | some F' =>
      intro hr
      cases hr with
      | some hr =>
        simp only [Outcome.orUb, Outcome.bind]
        rw [boardPolicies_moved h hr (solveConflicts_seg cs B.E F hF)]
        cases boardPolicies B F d.1 d.2.2 (detectAllColinear B) w with
        | none => rfl
        | some l =>
          simp only [Option.map_some, Outcome.bind]
          rw [h.fixed, axisPolicies_moved, finishAxis_moved hS g hz (axisPolicies_intervals g _ _), omap_map, omap_map, omap_map]

end Verif.Moved
