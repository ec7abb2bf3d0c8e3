import Verif.Lemmas.MovedGeom

/-! # Angles and zones, when everything is moved -/

namespace Verif.Moved
open Verif.Geom
open Verif.Board
open Verif.Mesh (Sorter tolerance)

variable {v : Point} {t : Shift}

/-- An edge of a board moved; an angle of a board; a polygon as the search for edges in polygons reads it. -/
def bedge (t : Shift) (e : BEdge) : BEdge := { e with seg := segment (t.inPlane e.plane) e.seg }
@[inherit_doc bedge] def bangle (t : Shift) (a : BAngle) : BAngle := { a with p := point (t.inPlane a.plane) a.p }
@[inherit_doc bedge] def ppolygon (t : Shift) (plane : Plane) (p : PPolygon) : PPolygon :=
  ⟨p.points.map (point (t.inPlane plane)), p.edges.map fun e => (e.1, segment (t.inPlane plane) e.2), p.zmin + t.across plane,
    p.zmax + t.across plane, p.priority⟩

/-- A board moved. Numbers that stand for no polygon or edge are left out. -/
structure MovedInput (t : Shift) (B B' : Input) : Prop where
  polygons : B'.polygons = B.polygons
  P : ∀ plane, ∀ a ∈ B.polygons plane, B'.P a = ppolygon t plane (B.P a)
  plane : ∀ plane, ∀ e ∈ B.edges plane, (B.E e).plane = plane
  E : ∀ plane, ∀ e ∈ B.edges plane, B'.E e = bedge t (B.E e)
  fixed : ∀ axis, B'.fixed axis = (B.fixed axis).map (· + t.along axis)
  angle : B'.angle = B.angle
  placeless : Placeless B.angle

/-! ## Angles -/

theorem cornerLoop_points : ∀ (l : List (Point × Segment)) (q : Point × Segment),
    cornerLoop (point v q.1, segment v q.2) (l.map fun e => (point v e.1, segment v e.2)) = (cornerLoop q l).map (corner v)
  | [], _ => rfl
  | (r, f) :: rest, (q, e) => by
    simp only [List.map_cons, cornerLoop, axis_segment]
    have ih := cornerLoop_points rest (r, f)
    dsimp only at ih
    rw [ih]
    split <;> rfl

theorem cornerAngles_points (points : List Point) (edges : List Segment) :
    cornerAngles (points.map (point v)) (edges.map (segment v)) = (cornerAngles points edges).map (corner v) := by
  unfold cornerAngles
  rw [List.zip_map, List.getLast?_map]
  cases (points.zip edges).getLast? with
  | none => rfl
  | some last => exact cornerLoop_points (points.zip edges) last

theorem crossingAngle_segment (a b : Segment) :
    crossingAngle (segment v a) (segment v b) = (crossingAngle a b).map (corner v) := by
  unfold crossingAngle
  simp only [axis_segment, bounding_segment, overlapStrict_bounding, relationTo_segment, intersection_segment]
  split
  · rfl
  · split
    · rfl
    · split
      · cases intersection a b <;> rfl
      · rfl

theorem crossingAngles_segments : ∀ l : List (List Segment),
    crossingAngles (l.map fun es => es.map (segment v)) = (crossingAngles l).map (corner v)
  | [] => rfl
  | polygon :: rest => by
    simp only [List.map_cons, crossingAngles, List.map_append, crossingAngles_segments rest]
    congr 1
    simp only [List.flatMap_map, List.map_flatMap, List.filterMap_map, List.map_filterMap, Function.comp_def, crossingAngle_segment]

theorem mapM_edges : ∀ l : List (List Point), (l.map fun p => p.map (point v)).mapM detectEdges =
    (l.mapM detectEdges).map fun r => r.map fun es => es.map (segment v)
  | [] => rfl
  | p :: rest => by
    simp only [List.map_cons, List.mapM_cons, detectEdges_points, mapM_edges rest]
    cases detectEdges p with
    | none => rfl
    | some es => cases rest.mapM detectEdges <;> rfl

theorem zipWith_corner : ∀ (l : List (List Point)) (m : List (List Segment)),
    List.zipWith cornerAngles (l.map fun p => p.map (point v)) (m.map fun es => es.map (segment v)) =
      (List.zipWith cornerAngles l m).map fun r => r.map (corner v)
  | [], _ => by simp
  | _ :: _, [] => by simp
  | p :: l, es :: m => by simp only [List.map_cons, List.zipWith_cons_cons, cornerAngles_points, zipWith_corner l m]

theorem detectAngles_points (l : List (List Point)) :
    detectAngles (l.map fun p => p.map (point v)) = (detectAngles l).map fun r => r.map (corner v) := by
  unfold detectAngles
  rw [mapM_edges]
  cases l.mapM detectEdges with
  | none => rfl
  | some edges =>
    simp only [Option.map_some, zipWith_corner, crossingAngles_segments, List.map_append, List.map_flatten]

theorem detectAllAngles_moved {B B' : Input} (h : MovedInput t B B') :
    detectAllAngles B' = (detectAllAngles B).map fun L => L.map (bangle t) := by
  have e : ∀ plane, ((detectAngles ((B'.polygons plane).map fun a => (B'.P a).points)).map fun found =>
      found.map fun x => (⟨plane, x.p, B'.angle x⟩ : BAngle)) =
      ((detectAngles ((B.polygons plane).map fun a => (B.P a).points)).map fun found =>
        found.map fun x => (⟨plane, x.p, B.angle x⟩ : BAngle)).map fun l => l.map (bangle t) := by
    intro plane
    have e1 : ((B'.polygons plane).map fun a => (B'.P a).points) =
        (((B.polygons plane).map fun a => (B.P a).points).map fun p => p.map (point (t.inPlane plane))) := by
      rw [h.polygons, List.map_map]
      refine List.map_congr_left fun a ha => ?_
      rw [h.P plane a ha]
      rfl
    rw [e1, detectAngles_points, h.angle]
    cases detectAngles ((B.polygons plane).map fun a => (B.P a).points) with
    | none => rfl
    | some found =>
      simp only [Option.map_some, List.map_map, Option.some.injEq]
      refine List.map_congr_left fun x _ => ?_
      show (⟨plane, point (t.inPlane plane) x.p, B.angle (corner (t.inPlane plane) x)⟩ : BAngle) = _
      rw [h.placeless]
      rfl
  unfold detectAllAngles
  simp only [allPlanes, List.mapM_cons, List.mapM_nil, e]
  generalize (detectAngles ((B.polygons .yz).map fun a => (B.P a).points)).map _ = a
  generalize (detectAngles ((B.polygons .zx).map fun a => (B.P a).points)).map _ = b
  generalize (detectAngles ((B.polygons .xy).map fun a => (B.P a).points)).map _ = d
  cases a <;> cases b <;> cases d <;> simp

theorem angleAt_map {L : List BAngle} {n : Nat} (h : n < L.length) : angleAt (L.map (bangle t)) n = bangle t (angleAt L n) := by
  simp [angleAt, List.getD_eq_getElem?_getD, h]

theorem angleAt_plane (L : List BAngle) (n : Nat) : (angleAt (L.map (bangle t)) n).plane = (angleAt L n).plane := by
  by_cases h : n < L.length
  · rw [angleAt_map h]
    rfl
  · simp [angleAt, List.getD_eq_getElem?_getD, h]

theorem angleAt_angle (L : List BAngle) (n : Nat) : (angleAt (L.map (bangle t)) n).angle = (angleAt L n).angle := by
  by_cases h : n < L.length
  · rw [angleAt_map h]
    rfl
  · simp [angleAt, List.getD_eq_getElem?_getD, h]

theorem anglesOf_map (L : List BAngle) (plane : Plane) : anglesOf (L.map (bangle t)) plane = anglesOf L plane := by
  unfold anglesOf
  simp only [List.length_map, angleAt_plane]

theorem anglesOf_mem {L : List BAngle} {plane : Plane} {n : Nat} (h : n ∈ anglesOf L plane) :
    n < L.length ∧ (angleAt L n).plane = plane := by
  simpa [anglesOf] using h

/-! ## Zones -/

theorem matchesLoop_congr {α : Type} {p q : α → Bool} : ∀ (l : List α) (r : List (List α)) (b : Bool), (∀ a ∈ l, p a = q a) →
    Utils.matchesLoop p l r b = Utils.matchesLoop q l r b
  | [], _, _, _ => rfl
  | a :: rest, r, b, h => by
    have ih := fun r b => matchesLoop_congr rest r b fun x hx => h x (List.mem_cons_of_mem _ hx)
    simp only [Utils.matchesLoop, h a List.mem_cons_self, ih]

theorem matchesLoop_mem {α : Type} {p : α → Bool} : ∀ (l : List α) (r : List (List α)) (b : Bool) (s : List (List α)),
    Utils.matchesLoop p l r b = some s → ∀ x ∈ s, ∀ a ∈ x, a ∈ l ∨ ∃ y ∈ r, a ∈ y
  | [], r, b, s, h => by
    cases Option.some.inj h
    exact fun x hx a ha => Or.inr ⟨x, hx, ha⟩
  | c :: rest, r, b, s, h => by
    unfold Utils.matchesLoop at h
    intro x hx a ha
    split at h
    · split at h
      · split at h
        · cases h
        · rename_i last others
          rcases matchesLoop_mem rest _ _ s h x hx a ha with h1 | ⟨y, hy, hay⟩
          · exact Or.inl (List.mem_cons_of_mem _ h1)
          · rcases List.mem_cons.1 hy with rfl | hy
            · rcases List.mem_cons.1 hay with rfl | hay
              · exact Or.inl List.mem_cons_self
              · exact Or.inr ⟨last, List.mem_cons_self, hay⟩
            · exact Or.inr ⟨y, List.mem_cons_of_mem _ hy, hay⟩
      · rcases matchesLoop_mem rest _ _ s h x hx a ha with h1 | ⟨y, hy, hay⟩
        · exact Or.inl (List.mem_cons_of_mem _ h1)
        · rcases List.mem_cons.1 hy with rfl | hy
          · exact Or.inl (by simp at hay; simp [hay])
          · exact Or.inr ⟨y, hy, hay⟩
    · rcases matchesLoop_mem rest _ _ s h x hx a ha with h1 | h1
      · exact Or.inl (List.mem_cons_of_mem _ h1)
      · exact Or.inr h1

theorem neighbours_mem : ∀ (l : List Nat) (r : Nat × Nat), r ∈ neighbours l → r.1 ∈ l ∧ r.2 ∈ l
  | [], _, h => by cases h
  | [_], _, h => by cases h
  | a :: b :: rest, r, h => by
    simp only [neighbours, List.mem_cons] at h
    rcases h with rfl | h
    · simp
    · have := neighbours_mem (b :: rest) r h
      exact ⟨List.mem_cons_of_mem _ this.1, List.mem_cons_of_mem _ this.2⟩

theorem unique_mem : ∀ (l : List Nat) (a : Nat), a ∈ unique l → a ∈ l
  | [], _, h => h
  | [_], _, h => h
  | x :: y :: rest, a, h => by
    unfold unique at h
    split at h
    · exact List.mem_cons_of_mem _ (unique_mem (y :: rest) a h)
    · rcases List.mem_cons.1 h with rfl | h
      · exact List.mem_cons_self
      · exact List.mem_cons_of_mem _ (unique_mem (y :: rest) a h)

/-- Angles of a plane, moved. -/
def MovedAngles (t : Shift) (plane : Plane) (A A' : Nat → BAngle) (angles : List Nat) : Prop :=
  ∀ a ∈ angles, (A a).plane = plane ∧ A' a = bangle t (A a)

theorem MovedAngles.coord {plane : Plane} {A A' : Nat → BAngle} {angles : List Nat} (h : MovedAngles t plane A A' angles) {a : Nat}
    (ha : a ∈ angles) (va : ViewAxis) : (A' a).p.coord va = (A a).p.coord va + (t.inPlane plane).coord va := by
  rw [(h a ha).2, bangle, (h a ha).1]
  exact coord_point _ _

theorem MovedAngles.sub {plane : Plane} {A A' : Nat → BAngle} {l m : List Nat} (h : MovedAngles t plane A A' m) (hs : ∀ a ∈ l, a ∈ m) :
    MovedAngles t plane A A' l := fun a ha => h a (hs a ha)

theorem sort_moved {S : Sorter Nat} (hS : Compares S) {plane : Plane} {A A' : Nat → BAngle} {angles : List Nat}
    (h : MovedAngles t plane A A' angles) (va : ViewAxis) :
    S.sort (fun a => (A' a).p.coord va) angles = S.sort (fun a => (A a).p.coord va) angles := by
  have := hS id (fun a => (A' a).p.coord va) (fun a => (A a).p.coord va) angles (fun a ha b hb => by
    simp only [id, h.coord ha, h.coord hb, add_lt_add_iff_right])
  simpa using this

theorem zoneAngles_moved {plane : Plane} {A A' : Nat → BAngle} {sorted : List Nat} (h : MovedAngles t plane A A' sorted)
    (D : List Segment) (va : ViewAxis) :
    zoneAngles A' (D.map (segment (t.inPlane plane))) va sorted = zoneAngles A D va sorted := by
  unfold zoneAngles Utils.findConsecutiveMatches
  rw [matchesLoop_congr (p := underEdge A' (D.map (segment (t.inPlane plane))) va) (q := underEdge A D va)]
  intro r hr
  obtain ⟨h1, h2⟩ := neighbours_mem _ r hr
  unfold underEdge
  simp only [List.any_map, Function.comp_def, bounding_segment, cast_bounding, h.coord h1, h.coord h2, mid_add, contains1D_add]

theorem zoneAngles_mem {A : Nat → BAngle} {sorted : List Nat} {D : List Segment} {va : ViewAxis} {found : List (List Nat)}
    (h : zoneAngles A D va sorted = some found) : ∀ l ∈ found, ∀ a ∈ l, a ∈ sorted := by
  unfold zoneAngles Utils.findConsecutiveMatches at h
  rw [Option.map_map] at h
  obtain ⟨s, hs, rfl⟩ := Option.map_eq_some_iff.1 h
  intro l hl a ha
  simp only [Function.comp_apply, List.mem_map, List.mem_reverse] at hl
  obtain ⟨x, ⟨y, hy, rfl⟩, rfl⟩ := hl
  have := unique_mem _ _ ha
  simp only [List.mem_flatMap, List.mem_reverse] at this
  obtain ⟨r, hr, har⟩ := this
  rcases matchesLoop_mem _ _ _ s hs y hy r hr with h1 | ⟨z, hz, -⟩
  · obtain ⟨m1, m2⟩ := neighbours_mem _ r h1
    simp only [List.mem_cons, List.not_mem_nil, or_false] at har
    rcases har with rfl | rfl <;> assumption
  · cases hz

theorem addZone_moved {S : Sorter Nat} (hS : Compares S) {plane : Plane} {A A' : Nat → BAngle} {angles : List Nat}
    (h : MovedAngles t plane A A' angles) (g : ZoneParams) (zones : Zones) (w : Geom.Axis) :
    addZone S A' g zones w angles = addZone S A g zones w angles := by
  have hp : ∀ a ∈ angles, (A' a).plane = (A a).plane := fun a ha => by rw [(h a ha).2]; rfl
  unfold addZone
  cases angles with
  | nil => rfl
  | cons first rest =>
    have e1 : ((first :: rest).all fun a => decide ((A' a).plane = (A first).plane)) =
        (first :: rest).all fun a => decide ((A a).plane = (A first).plane) := by
      rw [Bool.eq_iff_iff]
      simp only [List.all_eq_true, decide_eq_true_eq]
      refine forall₂_congr fun a ha => ?_
      rw [hp a ha]
    simp only [hp first List.mem_cons_self, e1, sort_moved hS h]

theorem addZone_mem {S : Sorter Nat} {A : Nat → BAngle} {angles : List Nat} {g : ZoneParams} {zones : Zones} {x w : Geom.Axis} {z : Zone}
    (h : z ∈ addZone S A g zones x angles w) :
    z ∈ zones w ∨ (z.axis = w ∧ z.intervals = []) ∧ ∀ a ∈ z.angles, a ∈ angles := by
  unfold addZone at h
  split at h
  · exact Or.inl h
  · rename_i first rest
    split at h
    · cases hv : transposeAxis (A first).plane x with
      | none =>
        simp only [hv] at h
        exact Or.inl h
      | some va =>
        simp only [hv] at h
        split at h
        · rename_i hw
          rcases List.mem_append.1 h with h | h
          · exact Or.inl h
          · rw [List.mem_singleton] at h
            subst h
            exact Or.inr ⟨⟨hw.symm, rfl⟩, fun a ha => (S.perm _ _).subset ha⟩
        · exact Or.inl h
    · exact Or.inl h

theorem foldl_addZone_moved {S : Sorter Nat} (hS : Compares S) {plane : Plane} {A A' : Nat → BAngle} (g : ZoneParams)
    (w : Geom.Axis) : ∀ (found : List (List Nat)) (zones : Zones), (∀ l ∈ found, MovedAngles t plane A A' l) →
    found.foldl (fun zones angles => addZone S A' g zones w angles) zones =
      found.foldl (fun zones angles => addZone S A g zones w angles) zones
  | [], _, _ => rfl
  | l :: rest, zones, h => by
    simp only [List.foldl_cons]
    rw [addZone_moved hS (h l List.mem_cons_self)]
    exact foldl_addZone_moved hS g w rest _ fun l hl => h l (List.mem_cons_of_mem _ hl)

theorem foldl_addZone_mem {S : Sorter Nat} {A : Nat → BAngle} {g : ZoneParams} {angles : List Nat}
    {x w : Geom.Axis} {z : Zone} : ∀ (found : List (List Nat)) (zones : Zones), (∀ l ∈ found, ∀ a ∈ l, a ∈ angles) →
    z ∈ found.foldl (fun zones angles => addZone S A g zones x angles) zones w →
      z ∈ zones w ∨ (z.axis = w ∧ z.intervals = []) ∧ ∀ a ∈ z.angles, a ∈ angles
  | [], _, _, h => Or.inl h
  | l :: rest, zones, hl, h => by
    rcases foldl_addZone_mem rest _ (fun l hm => hl l (List.mem_cons_of_mem _ hm)) h with h | h
    · rcases addZone_mem h with h | h
      · exact Or.inl h
      · exact Or.inr ⟨h.1, fun a ha => hl l List.mem_cons_self a (h.2 a ha)⟩
    · exact Or.inr h

theorem detectZonesOn_moved {S : Sorter Nat} (hS : Compares S) {plane : Plane} {A A' : Nat → BAngle} {angles : List Nat}
    (h : MovedAngles t plane A A' angles) (g : ZoneParams) (D : List Segment) (va : ViewAxis) (zones : Zones) :
    detectZonesOn S A' g plane (D.map (segment (t.inPlane plane))) va angles zones = detectZonesOn S A g plane D va angles zones := by
  unfold detectZonesOn
  rw [sort_moved hS h]
  have hs : MovedAngles t plane A A' (S.sort (fun a => (A a).p.coord va) angles) := h.sub fun a ha => (S.perm _ _).subset ha
  dsimp only
  rw [zoneAngles_moved hs]
  cases hz : zoneAngles A D va (S.sort (fun a => (A a).p.coord va) angles) with
  | none => rfl
  | some found =>
    simp only [Option.map_some, Option.some.injEq, Prod.mk.injEq, true_and]
    exact foldl_addZone_moved hS g _ found zones fun l hl => hs.sub (zoneAngles_mem hz l hl)

theorem detectZonesOn_mem {S : Sorter Nat} {A : Nat → BAngle} {g : ZoneParams} {plane : Plane} {D : List Segment} {va : ViewAxis}
    {angles : List Nat} {zones : Zones} {r : List Nat × Zones} (h : detectZonesOn S A g plane D va angles zones = some r) :
    (∀ a ∈ r.1, a ∈ angles) ∧ ∀ w, ∀ z ∈ r.2 w, z ∈ zones w ∨ (z.axis = w ∧ z.intervals = []) ∧ ∀ a ∈ z.angles, a ∈ angles := by
  unfold detectZonesOn at h
  obtain ⟨found, hf, rfl⟩ := Option.map_eq_some_iff.1 h
  refine ⟨fun a ha => (S.perm _ _).subset ha, fun w z hz => ?_⟩
  exact foldl_addZone_mem found zones (fun l hl a ha => (S.perm _ _).subset (zoneAngles_mem hf l hl a ha)) hz

theorem detectZones_moved {S : Sorter Nat} (hS : Compares S) {plane : Plane} {A A' : Nat → BAngle} {angles : List Nat}
    (h : MovedAngles t plane A A' angles) (g : ZoneParams) {edges : List BEdge} (he : ∀ e ∈ edges, e.plane = plane) (zones : Zones) :
    detectZones S A' g plane (edges.map (bedge t)) angles zones = detectZones S A g plane edges angles zones := by
  have e1 : (((edges.map (bedge t)).filter fun e => e.toMesh && decide (e.axis = .diagonal)).map BEdge.seg) =
      (((edges.filter fun e => e.toMesh && decide (e.axis = .diagonal)).map BEdge.seg).map (segment (t.inPlane plane))) := by
    rw [List.filter_map, List.map_map, List.map_map]
    have e2 : ((fun e : BEdge => e.toMesh && decide (e.axis = .diagonal)) ∘ bedge t) = fun e => e.toMesh && decide (e.axis = .diagonal) := by
      funext e
      simp only [Function.comp_apply, BEdge.axis, bedge, axis_segment]
      rfl
    rw [e2]
    refine List.map_congr_left fun e hm => ?_
    simp only [Function.comp_apply, bedge, he e (List.mem_of_mem_filter hm)]
  unfold detectZones
  rw [e1]
  dsimp only
  rw [detectZonesOn_moved hS h]
  cases hz : detectZonesOn S A g plane ((edges.filter fun e => e.toMesh && decide (e.axis = .diagonal)).map BEdge.seg) .h angles zones with
  | none => rfl
  | some r =>
    simp only [Option.bind_some]
    rw [detectZonesOn_moved hS (h.sub (detectZonesOn_mem hz).1)]

theorem detectZones_mem {S : Sorter Nat} {A : Nat → BAngle} {g : ZoneParams} {plane : Plane} {edges : List BEdge}
    {angles : List Nat} {zones r : Zones} (h : detectZones S A g plane edges angles zones = some r) :
    ∀ w, ∀ z ∈ r w, z ∈ zones w ∨ (z.axis = w ∧ z.intervals = []) ∧ ∀ a ∈ z.angles, a ∈ angles := by
  unfold detectZones at h
  dsimp only at h
  obtain ⟨r1, h1, h⟩ := Option.bind_eq_some_iff.1 h
  obtain ⟨r2, h2, rfl⟩ := Option.map_eq_some_iff.1 h
  intro w z hz
  rcases (detectZonesOn_mem h2).2 w z hz with hz | hz
  · rcases (detectZonesOn_mem h1).2 w z hz with hz | hz
    · exact Or.inl hz
    · exact Or.inr hz
  · exact Or.inr ⟨hz.1, fun a ha => (detectZonesOn_mem h1).1 a (hz.2 a ha)⟩

theorem detectAllZones_moved {S : Sorter Nat} (hS : Compares S) {B B' : Input} (h : MovedInput t B B') (g : ZoneParams) (L : List BAngle) :
    detectAllZones S (angleAt (L.map (bangle t))) g (fun plane => (B'.edges plane).map B'.E) (anglesOf (L.map (bangle t))) =
      detectAllZones S (angleAt L) g (fun plane => (B.edges plane).map B.E) (anglesOf L) := by
  have hA : ∀ plane, MovedAngles t plane (angleAt L) (angleAt (L.map (bangle t))) (anglesOf L plane) := fun plane a ha =>
    ⟨(anglesOf_mem ha).2, angleAt_map (anglesOf_mem ha).1⟩
  have hedges : ∀ plane, B'.edges plane = B.edges plane := by
    intro plane
    unfold Input.edges
    rw [h.polygons]
    refine List.flatMap_congr fun a ha => ?_
    rw [h.P plane a ha]
    simp [ppolygon, Function.comp_def]
  have hE : ∀ plane, (B'.edges plane).map B'.E = ((B.edges plane).map B.E).map (bedge t) := by
    intro plane
    rw [hedges, List.map_map]
    exact List.map_congr_left fun e he => h.E plane e he
  have hp : ∀ plane, ∀ e ∈ (B.edges plane).map B.E, e.plane = plane := by
    intro plane e he
    obtain ⟨n, hn, rfl⟩ := List.mem_map.1 he
    exact h.plane plane n hn
  unfold detectAllZones
  simp only [hE, anglesOf_map, detectZones_moved hS (hA _) g (hp _)]

theorem detectAllZones_mem {S : Sorter Nat} {L : List BAngle} {g : ZoneParams} {edges : Plane → List BEdge} {zones : Zones}
    (h : detectAllZones S (angleAt L) g edges (anglesOf L) = some zones) :
    ∀ w, ∀ z ∈ zones w, (z.axis = w ∧ z.intervals = []) ∧ ∀ a ∈ z.angles, a < L.length := by
  unfold detectAllZones at h
  obtain ⟨r1, h1, h⟩ := Option.bind_eq_some_iff.1 h
  obtain ⟨r2, h2, h3⟩ := Option.bind_eq_some_iff.1 h
  intro w z hz
  rcases detectZones_mem h3 w z hz with hz | hz
  · rcases detectZones_mem h2 w z hz with hz | hz
    · rcases detectZones_mem h1 w z hz with hz | hz
      · cases hz
      · exact ⟨hz.1, fun a ha => (anglesOf_mem (hz.2 a ha)).1⟩
    · exact ⟨hz.1, fun a ha => (anglesOf_mem (hz.2 a ha)).1⟩
  · exact ⟨hz.1, fun a ha => (anglesOf_mem (hz.2 a ha)).1⟩

/-! ## Solving -/

theorem setToMesh_congr {A A' : Nat → BAngle} (hp : ∀ n, (A' n).plane = (A n).plane) (w : Geom.Axis) (b : Bool) (m : ToMesh) (a : Nat) :
    setToMesh A' w b m a = setToMesh A w b m a := by
  unfold setToMesh
  rw [hp a]

theorem solveZonesAngles_congr {A A' : Nat → BAngle} (hp : ∀ n, (A' n).plane = (A n).plane) (ha : ∀ n, (A' n).angle = (A n).angle)
    (k : ℚ) (zones : Zones) (m : ToMesh) : solveZonesAngles A' k zones m = solveZonesAngles A k zones m := by
  have e1 : ∀ (z : Zone) (m : ToMesh), z.solveAngles A' k m = z.solveAngles A k m := by
    intro z m
    unfold Zone.solveAngles
    simp only [setToMesh_congr hp, ha]
  have e2 : ∀ (l : List Zone) (m : ToMesh), solveAllAngles A' k l m = solveAllAngles A k l m := by
    intro l
    induction l with
    | nil => exact fun _ => rfl
    | cons z rest ih => intro m; simp only [solveAllAngles, e1, ih]
  unfold solveZonesAngles
  simp only [e2]

theorem diagonalSteps_moved {S : Sorter Nat} (hS : Compares S) {B B' : Input} (h : MovedInput t B B') (gz : ZoneParams) :
    diagonalSteps S gz B' = (diagonalSteps S gz B).map fun d => (d.1.map (bangle t), d.2) := by
  unfold diagonalSteps
  rw [detectAllAngles_moved h]
  cases detectAllAngles B with
  | none => rfl
  | some L =>
    simp only [Option.map_some, Option.bind_some]
    rw [detectAllZones_moved hS h]
    cases detectAllZones S (angleAt L) gz (fun plane => (B.edges plane).map B.E) (anglesOf L) with
    | none => rfl
    | some zones =>
      simp only [Option.bind_some, solveZonesAngles_congr (angleAt_plane L) (angleAt_angle L), Option.map_map]
      rfl

theorem diagonalSteps_mem {S : Sorter Nat} {B : Input} {gz : ZoneParams} {d : List BAngle × Zones × ToMesh}
    (h : diagonalSteps S gz B = some d) : ∀ w, ∀ z ∈ d.2.1 w, (z.axis = w ∧ z.intervals = []) ∧ ∀ a ∈ z.angles, a < d.1.length := by
  unfold diagonalSteps at h
  obtain ⟨L, -, h⟩ := Option.bind_eq_some_iff.1 h
  obtain ⟨zones, hz, h⟩ := Option.bind_eq_some_iff.1 h
  obtain ⟨m, -, rfl⟩ := Option.map_eq_some_iff.1 h
  exact detectAllZones_mem hz

end Verif.Moved
