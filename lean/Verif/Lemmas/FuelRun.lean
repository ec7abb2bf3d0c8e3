import Verif.Props.PolicyEdition

/-!
# Running all the steps on several polygons

The versions of the detection of edges in polygons that stop after a number of turns, as in `Lemmas/Fuel`. They are only
used to check concrete cases.
-/

namespace Verif.Geom

/-- `relationToPoint.loop`, at most `k` turns. -/
def relationLoopF (points : List Point) (edges : List Segment) (b : Bounding) (point : Point) : Nat → Nat → Option PolygonRel
  | 0, _ => none
  | k + 1, n =>
    match scanVertices point ⟨point, rayEnd b point n⟩ points with
    | .on => some .on
    | .retry => relationLoopF points edges b point k (n + 1)
    | .clear => match countCrossings point ⟨point, rayEnd b point n⟩ edges with
      | none => some .on
      | some count => some (if count % 2 = 1 then .inside else .outside)

theorem relationLoopF_below (points : List Point) (edges : List Segment) (b : Bounding) (point : Point) (k : Nat) : ∀ n r,
    relationLoopF points edges b point k n = some r → relationToPoint.loop points edges b point n = some r := by
  induction k with
  | zero => intro n r h; simp [relationLoopF] at h
  | succ k ih =>
    intro n r h
    rw [relationLoopF] at h
    rw [relationToPoint.loop]
    split at h
    · rename_i e; rw [e]; exact h
    · rename_i e; rw [e]; exact ih _ _ h
    · rename_i e; rw [e]; exact h

end Verif.Geom

namespace Verif.Board
open Verif.Mesh Verif.Geom

/-- `pointRelation`, at most `k` turns. -/
def pointRelationF (k : Nat) (points : List Point) (q : Point) : Outcome PolygonRel :=
  match points, ((detectEdges points).bind fun edges => (detectBounding points).bind fun b => relationLoopF points edges b q k 0) with
  | [], _ => .ub
  | _, none => .diverges
  | _, some r => .ok r

/-- The second ends as the first, if the first ends. -/
structure Within {α : Type} (x y : Outcome α) : Prop where
  eq : ∀ r, x = .ok r → y = .ok r

theorem Within.refl {α : Type} (x : Outcome α) : Within x x := ⟨fun _ h => h⟩

theorem Within.bind {α β : Type} {x y : Outcome α} {f g : α → Outcome β} (h : Within x y) (hf : ∀ a, Within (f a) (g a)) :
    Within (x.bind f) (y.bind g) := by
  refine ⟨fun r hr => ?_⟩
  obtain ⟨a, ha, hr⟩ := outcome_bind_ok hr
  rw [h.eq a ha]
  exact (hf a).eq r hr

theorem Within.map {α β : Type} {x y : Outcome α} (h : Within x y) (f : α → β) : Within (x.map f) (y.map f) :=
  h.bind fun _ => .refl _

theorem Within.fold {α β : Type} {f g : β → α → Outcome β} (h : ∀ b a, Within (f b a) (g b a)) (l : List α) :
    ∀ b, Within (Outcome.fold f b l) (Outcome.fold g b l) := by
  induction l with
  | nil => exact fun _ => .refl _
  | cons a l ih => exact fun b => (h b a).bind fun b => ih b

theorem pointRelationF_within (k : Nat) (points : List Point) (q : Point) : Within (pointRelationF k points q) (pointRelation points q) := by
  refine ⟨fun r h => ?_⟩
  cases points with
  | nil => simp [pointRelationF] at h
  | cons p ps =>
    unfold pointRelationF at h
    split at h
    · rename_i e; cases e
    · simp at h
    · rename_i s e' _
      obtain ⟨edges, h1, e'⟩ := Option.bind_eq_some_iff.1 e'
      obtain ⟨b, h2, e'⟩ := Option.bind_eq_some_iff.1 e'
      have : relationToPoint (p :: ps) q = some s := by
        unfold relationToPoint
        rw [h1, h2]
        exact relationLoopF_below _ _ _ _ _ _ _ e'
      unfold pointRelation
      rw [this]
      exact h

/-- `middlesIn`, at most `k` turns. -/
def middlesInF (k : Nat) (points : List Point) : List Segment → Outcome (List Segment)
  | [] => .ok []
  | r :: rest => (pointRelationF k points (midPoint r)).bind fun rel =>
    (middlesInF k points rest).map fun l => if rel = .inside then r :: l else l

theorem middlesInF_within (k : Nat) (points : List Point) (l : List Segment) :
    Within (middlesInF k points l) (middlesIn points l) := by
  induction l with
  | nil => exact .refl _
  | cons r l ih => exact (pointRelationF_within ..).bind fun _ => ih.map _

/-- `detectEdge`, at most `k` turns. -/
def detectEdgeF (k : Nat) (S : OrderSorter Point) (b : Nat) (points : List Point) (edges : List (Nat × Segment)) (a : Segment) :
    Outcome (List Found) :=
  let hits := edges.flatMap fun e => (meet a e.2).1
  let ons := edges.filterMap fun e => (meet a e.2).2.map fun r => (⟨b, r, some e.1⟩ : Found)
  (pointRelationF k points a.p0).bind fun rel0 =>
  (pointRelationF k points a.p1).bind fun rel1 =>
  if hits = [] then
    .ok (ons ++ if rel0 = .inside ∧ rel1 = .inside then [⟨b, a, none⟩] else [])
  else
    (sortPoints S (a.p1.sub a.p0) (hits ++ [a.p0, a.p1])).bind fun sorted =>
    (endRanges (uniquePoints sorted) rel0 rel1).bind fun ends =>
    let known := ons.map (·.range) ++ ends.map (·.1)
    (middlesInF k points ((between (uniquePoints sorted)).filter fun r => !known.any fun k => k.eq r)).map fun mids =>
    ons ++ ((ends.filter fun e => decide (e.2 = .inside)).map fun e => ⟨b, e.1, none⟩) ++ mids.map fun r => ⟨b, r, none⟩

theorem detectEdgeF_within (k : Nat) (S : OrderSorter Point) (b : Nat) (points : List Point) (edges : List (Nat × Segment))
    (a : Segment) : Within (detectEdgeF k S b points edges a) (detectEdge S b points edges a) := by
  unfold detectEdgeF detectEdge
  refine (pointRelationF_within ..).bind fun _ => (pointRelationF_within ..).bind fun _ => ?_
  split
  · exact .refl _
  · exact (Within.refl _).bind fun _ => (Within.refl _).bind fun _ => (middlesInF_within ..).map _

/-- `detectInPolygons`, at most `k` turns. -/
def detectInPolygonsF (k : Nat) (S : OrderSorter Point) (P : Nat → PPolygon) (polygons : List Nat) (s : InPolygon) :
    Outcome InPolygon :=
  Outcome.fold (fun s a => Outcome.fold (fun s b =>
    if concerns P a b then Outcome.fold (fun s e => (detectEdgeF k S b (P b).points (P b).edges e.2).map fun l =>
      l.foldl (fun s f => addInPolygon e.1 f s) s) s (P a).edges else .ok s) s polygons) s polygons

theorem detectInPolygonsF_within (k : Nat) (S : OrderSorter Point) (P : Nat → PPolygon) (polygons : List Nat) (s : InPolygon) :
    Within (detectInPolygonsF k S P polygons s) (detectInPolygons S P polygons s) := by
  unfold detectInPolygonsF detectInPolygons
  refine Within.fold (fun _ _ => Within.fold (fun _ _ => ?_) _ _) _ _
  split
  · exact Within.fold (fun _ _ => (detectEdgeF_within ..).map _) _ _
  · exact .refl _

/-- `detectAllInPolygons`, at most `k` turns. -/
def detectAllInPolygonsF (k : Nat) (S : OrderSorter Point) (B : Input) : List Plane → Outcome (List InPolygon)
  | [] => .ok []
  | plane :: rest =>
    (detectInPolygonsF k S B.P (B.polygons plane) []).bind fun s =>
    (detectAllInPolygonsF k S B rest).map fun l => s :: l

theorem detectAllInPolygonsF_within (k : Nat) (S : OrderSorter Point) (B : Input) (l : List Plane) :
    Within (detectAllInPolygonsF k S B l) (detectAllInPolygons S B l) := by
  induction l with
  | nil => exact .refl _
  | cons p l ih => exact (detectInPolygonsF_within ..).bind fun _ => ih.map _

/-- `runToIntervals`, each loop at most `n` turns. -/
def runToIntervalsFF (n : Nat) (S : Sorters) (g : MeshParams) (gz : ZoneParams) (B : Input) (axis : Geom.Axis) :
    Outcome ((List BAngle × Zones × ToMesh) × (Nat → BEdge) × Mesh.Axis) :=
  (Outcome.orUb (diagonalSteps S.pointers gz B)).bind fun d =>
  (detectAllInPolygonsF n S.points B allPlanes).bind fun conflicts =>
  (Outcome.orUb (conflicts.foldlM (solveAllInPolygon S.overlaps) B.E)).bind fun E =>
  (Outcome.orUb (boardPolicies B E d.1 d.2.2 (detectAllColinear B) axis)).bind fun asked =>
  (Outcome.orDiverges ((axisPolicies g (B.fixed axis) asked).solveTooCloseF S.pointers g n)).map fun b => (d, E, b)

theorem runToIntervalsFF_computed {n : Nat} {S : Sorters} {g : MeshParams} {gz : ZoneParams} {B : Input} {axis : Geom.Axis}
    {r : (List BAngle × Zones × ToMesh) × (Nat → BEdge) × Mesh.Axis} (h : runToIntervalsFF n S g gz B axis = .ok r) :
    runToIntervals S g gz B axis = .ok r := by
  refine to_computed (n := n) (d := r.1) (E := r.2.1) (b := r.2.2) ?_
  refine Within.eq ?_ _ h
  exact (Within.refl _).bind fun _ => (detectAllInPolygonsF_within ..).bind fun _ => .refl _

theorem Within.diverges {α : Type} {x y : Option α} (h : Below x y) : Within (Outcome.orDiverges x) (Outcome.orDiverges y) := by
  refine ⟨fun r hr => ?_⟩
  rw [h.eq r (orDiverges_ok hr)]
  rfl

/-- `runFromZones`, the first loops at most `n` turns each, the last ones at most `k`. -/
def runFromZonesF (n k : Nat) (S : Sorters) (g : MeshParams) (gz : ZoneParams) (B : Input) (L : List BAngle) (m : ToMesh)
    (axis : Geom.Axis) : Outcome ((Nat → BEdge) × Mesh.Axis) :=
  (Outcome.orUb ((detectAllZones S.pointers (angleAt L) gz (fun plane => (B.edges plane).map B.E) (anglesOf L)).bind fun zones =>
    (solveZonesAngles (angleAt L) gz.minimalAngle zones m).map fun m => (zones, m))).bind fun d =>
  (detectAllInPolygonsF n S.points B allPlanes).bind fun conflicts =>
  (Outcome.orUb (conflicts.foldlM (solveAllInPolygon S.overlaps) B.E)).bind fun E =>
  (Outcome.orUb (boardPolicies B E L d.2 (detectAllColinear B) axis)).bind fun asked =>
  ((Outcome.orDiverges ((axisPolicies g (B.fixed axis) asked).solveTooCloseF S.pointers g n)).bind fun b =>
    runFromIntervalsF k S g (angleAt L) (d.1 axis) b).map fun a => (E, a)

theorem runFromZonesF_within (n k : Nat) (S : Sorters) (g : MeshParams) (gz : ZoneParams) (B : Input) (L : List BAngle)
    (m : ToMesh) (axis : Geom.Axis) : Within (runFromZonesF n k S g gz B L m axis) (runFromZones S g gz B L m axis) :=
  (Within.refl _).bind fun _ => (detectAllInPolygonsF_within ..).bind fun _ => (Within.refl _).bind fun _ =>
    (Within.refl _).bind fun _ =>
      (((Within.diverges (solveTooCloseF_below ..)).bind fun _ => ⟨fun _ h => from_computed h⟩).map _)

/-- `runFromConflicts`, the first loops at most `n` turns each, the last ones at most `k`. -/
def runFromConflictsF (n k : Nat) (S : Sorters) (g : MeshParams) (B : Input) (d : List BAngle × Zones × ToMesh)
    (axis : Geom.Axis) : Outcome ((Nat → BEdge) × Mesh.Axis) :=
  (detectAllInPolygonsF n S.points B allPlanes).bind fun conflicts =>
  (Outcome.orUb (conflicts.foldlM (solveAllInPolygon S.overlaps) B.E)).bind fun E =>
  (Outcome.orUb (boardPolicies B E d.1 d.2.2 (detectAllColinear B) axis)).bind fun asked =>
  ((Outcome.orDiverges ((axisPolicies g (B.fixed axis) asked).solveTooCloseF S.pointers g n)).bind fun b =>
    runFromIntervalsF k S g (angleAt d.1) (d.2.1 axis) b).map fun a => (E, a)

theorem runFromConflictsF_within (n k : Nat) (S : Sorters) (g : MeshParams) (B : Input) (d : List BAngle × Zones × ToMesh)
    (axis : Geom.Axis) : Within (runFromConflictsF n k S g B d axis) (runFromConflicts S g B d axis) :=
  (detectAllInPolygonsF_within ..).bind fun _ => (Within.refl _).bind fun _ => (Within.refl _).bind fun _ =>
    (((Within.diverges (solveTooCloseF_below ..)).bind fun _ => ⟨fun _ h => from_computed h⟩).map _)

end Verif.Board
