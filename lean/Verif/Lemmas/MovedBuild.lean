import Verif.Lemmas.MovedRun
import Verif.Lemmas.Build

/-! # From the shapes to the run, when everything is moved -/

namespace Verif.Moved
open Verif.Geom
open Verif.Board
open Verif.Csx
open Verif.Mesh (Sorter tolerance MeshParams)

variable {v : Point} {t : Shift}

/-! ## Making the board -/

/-- A polygon when it was made, moved; as the search for materials reads it. -/
def part (t : Shift) (p : Part) : Part :=
  ⟨p.plane, p.material, p.priority, (p.z.1 + t.across p.plane, p.z.2 + t.across p.plane), p.points.map (point (t.inPlane p.plane)),
    bounding (t.inPlane p.plane) p.bounding, p.edges.map (edge (t.inPlane p.plane))⟩
@[inherit_doc part] def area (t : Shift) (plane : Plane) (p : BPolygon) : BPolygon :=
  ⟨p.points.map (point (t.inPlane plane)), bounding (t.inPlane plane) p.bounding, p.zmin + t.across plane, p.zmax + t.across plane,
    p.priority, p.material⟩

theorem makePart_moved (plane : Plane) (m : MaterialKind) (priority : Nat) (z : ℚ × ℚ) (points : List Point) :
    makePart plane m priority (z.1 + t.across plane, z.2 + t.across plane) (points.map (point (t.inPlane plane))) =
      (makePart plane m priority z points).map (part t) := by
  unfold makePart
  rw [detectBounding_points, polygonEdges_points]
  cases detectBounding points with
  | none => rfl
  | some b => cases polygonEdges points <;> rfl

theorem makeParts_moved : ∀ l : List Added, makeParts (l.map (added t)) = (makeParts l).map fun ps => ps.map (part t)
  | [] => rfl
  | .polygon plane m priority z points :: rest => by
    simp only [List.map_cons, added, makeParts, makePart_moved, makeParts_moved rest]
    cases makePart plane m priority z points with
    | none => rfl
    | some p => cases makeParts rest <;> rfl
  | .line _ _ :: rest => by
    simp only [List.map_cons, added, makeParts, makeParts_moved rest]

theorem fixedLines_moved (l : List Added) (w : Geom.Axis) :
    fixedLines (l.map (added t)) w = (fixedLines l w).map (· + t.along w) := by
  unfold fixedLines
  rw [List.filterMap_map, List.map_filterMap]
  congr 1
  funext a
  cases a with
  | polygon => rfl
  | line x coord =>
    simp only [Function.comp_apply, added]
    by_cases h : x = w
    · subst h; simp
    · simp [h]

section
variable {angle : Ang → ℚ} {background : Option MaterialKind} {l : List Added} {parts : List Part}

theorem firstEdge_moved (parts : List Part) (n : Nat) : firstEdge (parts.map (part t)) n = firstEdge parts n := by
  unfold firstEdge
  rw [← List.map_take, List.map_map]
  congr 2
  funext p
  simp [part]

theorem zipIdx_edges (v : Point) : ∀ (es : List Edge) (k : Nat), ((es.map (edge v)).zipIdx k).map (fun e => (e.2, e.1.seg)) =
    ((es.zipIdx k).map fun e => (e.2, e.1.seg)).map fun e => (e.1, segment v e.2)
  | [], _ => rfl
  | e :: es, k => by
    simp only [List.map_cons, List.zipIdx_cons, zipIdx_edges v es (k + 1)]
    rfl

theorem polygons_moved (plane : Plane) : (assemble angle background (l.map (added t)) (parts.map (part t))).input.polygons plane =
    (assemble angle background l parts).input.polygons plane := by
  simp only [assemble, List.length_map]
  refine List.filter_congr fun n _ => ?_
  rw [List.getElem?_map]
  cases parts[n]? <;> rfl

theorem flat_moved : ((parts.map (part t)).flatMap fun p => p.edges.map (makeEdge p.plane)) =
    (parts.flatMap fun p => p.edges.map (makeEdge p.plane)).map (bedge t) := by
  rw [List.flatMap_map, List.map_flatMap]
  congr 1
  funext p
  simp only [part, List.map_map]
  rfl

theorem mem_edges {plane : Plane} {n : Nat} (h : n ∈ (assemble angle background l parts).input.edges plane) :
    ∃ k i q x, parts[k]? = some q ∧ q.plane = plane ∧ q.edges[i]? = some x ∧ n = firstEdge parts k + i := by
  obtain ⟨k, hk, h⟩ := List.mem_flatMap.1 h
  obtain ⟨q, hq, hp⟩ := mem_polygons.1 hk
  obtain ⟨e, he, rfl⟩ := List.mem_map.1 h
  obtain ⟨i, x, hi, rfl⟩ := (mem_polygon_edges hq).1 he
  exact ⟨k, i, q, x, hq, hp, hi, rfl⟩

theorem assemble_edges : MovedEdges t (assemble angle background l parts).input (assemble angle background l parts).input.E
    (assemble angle background (l.map (added t)) (parts.map (part t))).input.E := by
  refine ⟨fun n => ?_, fun plane n hn => ?_⟩
  · simp only [assemble, flat_moved, List.getD_eq_getElem?_getD, List.getElem?_map]
    cases (parts.flatMap fun p => p.edges.map (makeEdge p.plane))[n]? <;> rfl
  · obtain ⟨k, i, q, x, hq, hp, hi, rfl⟩ := mem_edges hn
    rw [edge_eq hq hi]
    refine ⟨hp, ?_⟩
    simp only [assemble, flat_moved, List.getD_eq_getElem?_getD, List.getElem?_map]
    rw [flat_edges parts hq hi]
    rfl

theorem assemble_polygon (plane : Plane) (n : Nat) (h : n ∈ (assemble angle background l parts).input.polygons plane) :
    (assemble angle background (l.map (added t)) (parts.map (part t))).input.P n =
      ppolygon t plane ((assemble angle background l parts).input.P n) := by
  obtain ⟨q, hq, rfl⟩ := mem_polygons.1 h
  have hq' : (parts.map (part t))[n]? = some (part t q) := by rw [List.getElem?_map, hq]; rfl
  rw [polygon_eq hq, polygon_eq hq', firstEdge_moved]
  simp only [part, ppolygon, zipIdx_edges]

theorem assemble_area (plane : Plane) (n : Nat) (h : n ∈ (assemble angle background l parts).input.polygons plane) :
    (assemble angle background (l.map (added t)) (parts.map (part t))).areas n =
      area t plane ((assemble angle background l parts).areas n) := by
  obtain ⟨q, hq, rfl⟩ := mem_polygons.1 h
  simp only [assemble, asArea, List.getElem?_map, hq]
  rfl

/-! ## Materials -/

theorem ambientMatch_moved {P P' : Nat → BPolygon} {plane : Plane} {polygons : List Nat} (h : ∀ n ∈ polygons, P' n = area t plane (P n))
    (box : Bounding) {c : Nat} (hc : c ∈ polygons) {i : Nat} (hi : i ∈ polygons) :
    ambientMatch P' (bounding (t.inPlane plane) box) (some c) i = ambientMatch P box (some c) i := by
  unfold ambientMatch
  simp only [h i hi, h c hc, area, overlap1D_add, overlap_bounding]

theorem findAmbient_moved (sort : List (MaterialKind × Nat) → List (MaterialKind × Nat)) {P P' : Nat → BPolygon} {plane : Plane}
    {polygons : List Nat} (h : ∀ n ∈ polygons, P' n = area t plane (P n)) (bg : Option MaterialKind) (box : Bounding) {c : Nat}
    (hc : c ∈ polygons) :
    findAmbient sort P' polygons bg (bounding (t.inPlane plane) box) (some c) = findAmbient sort P polygons bg box (some c) := by
  unfold findAmbient
  rw [List.filterMap_congr fun i hi => ambientMatch_moved h box hc hi]

theorem outside_moved (e : BEdge) : outside (bedge t e) = (outside e).map (segment (t.inPlane e.plane)) := by
  obtain ⟨plane, seg, side, m, r⟩ := e
  cases side <;> simp only [outside, bedge, segment, point, Option.map_some, Option.map_none] <;>
    (congr 3 <;> ring_nf)

theorem adjustEdge_moved (sort : List (MaterialKind × Nat) → List (MaterialKind × Nat)) {P P' : Nat → BPolygon}
    {polygons : List Nat} (bg : Option MaterialKind) {c : Nat}
    (hc : c ∈ polygons) (e : BEdge) (h : ∀ n ∈ polygons, P' n = area t e.plane (P n)) :
    adjustEdge sort P' polygons bg c (bedge t e) = adjustEdge sort P polygons bg c e := by
  unfold adjustEdge
  rw [outside_moved]
  cases outside e with
  | none => rfl
  | some s =>
    simp only [Option.map_some, bounding_segment, findAmbient_moved sort h bg _ hc, h c hc]
    rfl

theorem setReverse_moved {B : Input} {E E' : Nat → BEdge} (h : MovedEdges t B E E') (n : Nat) (b : Bool) :
    MovedEdges t B (setReverse E n b) (setReverse E' n b) := by
  refine ⟨fun m => ?_, fun plane m hm => ?_⟩
  · unfold setReverse
    split <;> exact h.1 m
  · obtain ⟨h1, h2⟩ := h.2 plane m hm
    unfold setReverse
    split
    · exact ⟨h1, by rw [h2]; rfl⟩
    · exact ⟨h1, h2⟩

theorem foldlM_rel {α β : Type} {f f' : β → α → Option β} {g : α → α} {R : β → β → Prop} : ∀ (l : List α) (b b' : β),
    (∀ a ∈ l, ∀ b b', R b b' → Option.Rel R (f b a) (f' b' (g a))) → R b b' →
      Option.Rel R (l.foldlM f b) ((l.map g).foldlM f' b')
  | [], _, _, _, h => .some h
  | a :: l, b, b', hf, h => by
    rw [List.map_cons, List.foldlM_cons, List.foldlM_cons]
    have := hf a List.mem_cons_self b b' h
    revert this
    cases f b a with
    | none =>
      cases f' b' (g a) with
      | none => exact fun _ => .none
      | some _ => exact fun h => by cases h
    | some x =>
      cases f' b' (g a) with
      | none => exact fun h => by cases h
      | some x' =>
        intro h
        cases h with
        | some h => exact foldlM_rel l x x' (fun a ha => hf a (List.mem_cons_of_mem _ ha)) h

theorem adjustAll_moved (sort : List (MaterialKind × Nat) → List (MaterialKind × Nat)) :
    Option.Rel (MovedEdges t (assemble angle background l parts).input) (adjustAll sort (assemble angle background l parts))
      (adjustAll sort (assemble angle background (l.map (added t)) (parts.map (part t)))) := by
  unfold adjustAll
  have := foldlM_rel (R := MovedEdges t (assemble angle background l parts).input)
    (f := adjustPlane sort (assemble angle background l parts))
    (f' := adjustPlane sort (assemble angle background (l.map (added t)) (parts.map (part t)))) (g := id) allPlanes
    (assemble angle background l parts).input.E (assemble angle background (l.map (added t)) (parts.map (part t))).input.E ?_ assemble_edges
  · rwa [List.map_id] at this
  intro plane _ E E' hE
  unfold adjustPlane
  rw [id, polygons_moved]
  have := foldlM_rel (R := MovedEdges t (assemble angle background l parts).input)
    (f := fun E c => adjustPolygon sort (assemble angle background l parts) ((assemble angle background l parts).input.polygons plane) c E)
    (f' := fun E c => adjustPolygon sort (assemble angle background (l.map (added t)) (parts.map (part t)))
      ((assemble angle background l parts).input.polygons plane) c E) (g := id)
    ((assemble angle background l parts).input.polygons plane) E E' ?_ hE
  · rwa [List.map_id] at this
  intro c hc E E' hE
  unfold adjustPolygon
  rw [id, assemble_polygon plane c hc]
  refine foldlM_rel _ E E' ?_ hE
  intro e he E E' hE
  have hm : e.1 ∈ (assemble angle background l parts).input.edges plane := List.mem_flatMap.2 ⟨c, hc, List.mem_map.2 ⟨e, he, rfl⟩⟩
  obtain ⟨h1, h2⟩ := hE.2 plane e.1 hm
  have := adjustEdge_moved (t := t) sort (P := (assemble angle background l parts).areas)
    (P' := (assemble angle background (l.map (added t)) (parts.map (part t))).areas) background hc (E e.1)
    (by rw [h1]; exact fun n hn => assemble_area plane n hn)
  dsimp only
  rw [h2]
  show Option.Rel _ ((adjustEdge sort (assemble angle background l parts).areas _ background c (E e.1)).map _)
    ((adjustEdge sort (assemble angle background (l.map (added t)) (parts.map (part t))).areas _ background c (bedge t (E e.1))).map _)
  rw [this]
  cases adjustEdge sort (assemble angle background l parts).areas ((assemble angle background l parts).input.polygons plane) background c
    (E e.1) with
  | none => exact .none
  | some b => exact .some (setReverse_moved hE e.1 b)

theorem runDesign_moved {S : Sorters} (hS : AllCompare S) (sort : List (MaterialKind × Nat) → List (MaterialKind × Nat)) (g : MeshParams)
    (gz : ZoneParams) (ha : Placeless angle) (w : Geom.Axis) :
    (runDesign S sort g gz (assemble angle background (l.map (added t)) (parts.map (part t))) w).map Prod.snd =
      (runDesign S sort g gz (assemble angle background l parts) w).map fun r => axis (t.along w) r.2 := by
  unfold runDesign
  have hr := adjustAll_moved (t := t) (angle := angle) (background := background) (l := l) (parts := parts) sort
  revert hr
  cases adjustAll sort (assemble angle background l parts) with
  | none =>
    cases adjustAll sort (assemble angle background (l.map (added t)) (parts.map (part t))) with
    | none => exact fun _ => rfl
    | some _ => exact fun h => by cases h
  | some E =>
    cases adjustAll sort (assemble angle background (l.map (added t)) (parts.map (part t))) with
    | none => exact fun h => by cases h
    | some E' =>
      intro hr
      cases hr with
      | some hr =>
        simp only [Outcome.orUb, Outcome.bind]
        refine runSteps_moved hS g gz ?_ hr w
        exact
          { polygons := funext fun plane => polygons_moved (angle := angle) (background := background) (l := l) plane
            P := assemble_polygon (angle := angle) (background := background) (l := l)
            plane := fun plane e he => (hr.2 plane e he).1
            E := fun plane e he => (hr.2 plane e he).2
            fixed := fixedLines_moved l
            angle := rfl
            placeless := ha }

end

/-! ## The parser -/

theorem addBox_moved (plane : Plane) (m : MaterialKind) (priority : Nat) (z0 z1 : ℚ) (p1 p3 : Point) :
    addBox plane m priority (z0 + t.across plane) (z1 + t.across plane) (point (t.inPlane plane) p1) (point (t.inPlane plane) p3) =
      added t (addBox plane m priority z0 z1 p1 p3) := by
  unfold addBox
  rw [rangeZ_add, boxPoints_point]
  rfl

theorem circlePoints_moved (dirs : List Point) (c : Point) (r : ℚ) : circlePoints dirs (point v c) r = (circlePoints dirs c r).map (point v) := by
  unfold circlePoints
  rw [List.map_map]
  refine List.map_congr_left fun d _ => ?_
  simp only [Function.comp_apply, point, Point.mk.injEq]
  constructor <;> ring

theorem ite_map (b : Bool) (a : Added) : (if b then [added t a] else []) = (if b then [a] else []).map (added t) := by
  cases b <;> rfl

theorem parseBox_moved (f : Flags) (m : MaterialKind) (priority : Nat) (p q : Point3) :
    parseBox f m priority (point3 t p) (point3 t q) = (parseBox f m priority p q).map (added t) := by
  unfold parseBox
  simp only [List.map_append, ← ite_map, ← addBox_moved]
  rfl

theorem parseMultibox_moved (f : Flags) (m : MaterialKind) (priority : Nat) (l k : List Point3) :
    parseMultibox f m priority (l.map (point3 t)) (k.map (point3 t)) = (parseMultibox f m priority l k).map (added t) := by
  unfold parseMultibox
  rw [List.zip_map, List.flatMap_map, List.map_flatMap]
  congr 1
  funext s
  exact parseBox_moved f m priority s.1 s.2

theorem polygon_moved (plane : Plane) (m : MaterialKind) (priority : Nat) (z0 z1 : ℚ) (points : List Point) :
    Added.polygon plane m priority (rangeZ (z0 + t.across plane) (z1 + t.across plane)) (points.map (point (t.inPlane plane))) =
      added t (.polygon plane m priority (rangeZ z0 z1) points) := by
  rw [rangeZ_add]
  rfl

theorem add_shuffle (e l s : ℚ) : e + s + l = e + l + s := by ring

theorem parseLinpoly_moved (f : Flags) (m : MaterialKind) (priority n : Nat) (e len : ℚ) (vs : List Point) :
    parsePrimitive f [] m ⟨false, priority, shape t (.linpoly n e len vs)⟩ =
      (parsePrimitive f [] m ⟨false, priority, .linpoly n e len vs⟩).map fun l => l.map (added t) := by
  have key : ∀ (n : Nat) (plane : Plane), toPlane n = some plane →
      parseLinpoly f m (parsePriority m priority) n (e + t.across plane) len (vs.map (point (t.inPlane plane))) =
        (parseLinpoly f m (parsePriority m priority) n e len vs).map fun l => l.map (added t) := by
    intro n plane hn
    unfold parseLinpoly
    simp only [hn, detectBounding_points]
    cases detectBounding vs with
    | none => rfl
    | some b =>
      simp only [Option.map_some, Option.some.injEq, List.map_cons, ← polygon_moved, add_shuffle]
      congr 1
      by_cases h0 : len = 0
      · simp [h0]
      · simp only [h0, if_false]
        cases plane <;> simp only [List.map_append, ← ite_map, ← addBox_moved] <;> rfl
  match n with
  | 0 => exact key 0 .yz rfl
  | 1 => exact key 1 .zx rfl
  | 2 => exact key 2 .xy rfl
  | n + 3 => rfl

theorem parsePolygon_moved (f : Flags) (m : MaterialKind) (priority n : Nat) (e : ℚ) (vs : List Point) :
    parsePrimitive f [] m ⟨false, priority, shape t (.polygon n e vs)⟩ =
      (parsePrimitive f [] m ⟨false, priority, .polygon n e vs⟩).map fun l => l.map (added t) := by
  have key : ∀ (n : Nat) (plane : Plane) (w : Geom.Axis), toPlane n = some plane → toAxis n = some w → t.along w = t.across plane →
      parsePolygon m (parsePriority m priority) n (e + t.across plane) (vs.map (point (t.inPlane plane))) =
        (parsePolygon m (parsePriority m priority) n e vs).map fun l => l.map (added t) := by
    intro n plane w hn hw hc
    unfold parsePolygon
    simp only [hn, hw, detectBounding_points]
    cases detectBounding vs with
    | none => rfl
    | some b =>
      simp only [Option.map_some, List.map_cons, List.map_nil, ← polygon_moved, ← hc]
      rfl
  match n with
  | 0 => exact key 0 .yz .x rfl rfl rfl
  | 1 => exact key 1 .zx .y rfl rfl rfl
  | 2 => exact key 2 .xy .z rfl rfl rfl
  | n + 3 => rfl

theorem parseSphere_moved (f : Flags) (dirs : List Point) (m : MaterialKind) (priority : Nat) (c : Point3) (r : ℚ) :
    parseSphere f dirs m priority (point3 t c) r = (parseSphere f dirs m priority c r).map (added t) := by
  have e1 : ∀ x s : ℚ, x + s - r = x - r + s := fun x s => by ring
  have e2 : ∀ x s : ℚ, x + s + r = x + r + s := fun x s => by ring
  unfold parseSphere
  simp only [List.map_append, ← ite_map, ← polygon_moved, ← circlePoints_moved, point3, e1, e2]
  rfl

theorem parseCylinder_moved (f : Flags) (dirs : List Point) (m : MaterialKind) (priority : Nat) (p q : Point3) (r : ℚ) :
    parseCylinder f dirs m priority (point3 t p) (point3 t q) r = (parseCylinder f dirs m priority p q r).map (added t) := by
  have e1 : ∀ x s : ℚ, x + s - r / 2 = x - r / 2 + s := fun x s => by ring
  have e2 : ∀ x s : ℚ, x + s + r / 2 = x + r / 2 + s := fun x s => by ring
  unfold parseCylinder
  simp only [point3, coordEq_add, e1, e2]
  split
  · simp only [List.map_append, ← ite_map, ← polygon_moved, ← circlePoints_moved, ← addBox_moved]
    rfl
  · split
    · simp only [List.map_append, ← ite_map, ← polygon_moved, ← circlePoints_moved, ← addBox_moved]
      rfl
    · split
      · simp only [List.map_append, ← ite_map, ← polygon_moved, ← circlePoints_moved, ← addBox_moved]
        rfl
      · rfl

theorem parsePoint_moved (f : Flags) (p : Point3) : parsePoint f (point3 t p) = (parsePoint f p).map (added t) := by
  unfold parsePoint
  cases f.yz <;> cases f.zx <;> cases f.xy <;> rfl

theorem smallest_add (s : ℚ) : ∀ l : List ℚ, smallest (l.map (· + s)) = (smallest l).map (· + s)
  | [] => rfl
  | c :: rest => by
    simp only [List.map_cons, smallest, Option.map_some, Option.some.injEq]
    induction rest generalizing c with
    | nil => rfl
    | cons d rest ih =>
      simp only [List.map_cons, List.foldl_cons, add_lt_add_iff_right]
      rw [← ih]
      congr 1
      split <;> rfl

theorem backAndForth_map {α β : Type} (f : α → β) (l : List α) : backAndForth (l.map f) = (backAndForth l).map f := by
  simp [backAndForth, List.map_reverse, List.map_drop]

theorem curveOn_moved (plane : Plane) (m : MaterialKind) (depth : Point3 → ℚ) (proj : Point3 → Point) (vs : List Point3)
    (hd : ∀ p, depth (point3 t p) = depth p + t.across plane) (hp : ∀ p, proj (point3 t p) = point (t.inPlane plane) (proj p)) :
    curveOn plane m depth proj (vs.map (point3 t)) = (curveOn plane m depth proj vs).map (added t) := by
  unfold curveOn
  have e1 : (vs.map (point3 t)).map depth = (vs.map depth).map (· + t.across plane) := by
    simp only [List.map_map, Function.comp_def, hd]
  have e2 : (vs.map (point3 t)).map proj = (vs.map proj).map (point (t.inPlane plane)) := by
    simp only [List.map_map, Function.comp_def, hp]
  rw [e1, e2, smallest_add, backAndForth_map, Option.map_map, Option.map_map]
  congr 1
  funext z
  simp only [Function.comp_apply, polygon_moved]

theorem guarded_moved (b : Bool) (a : Option Added) : guarded b (a.map (added t)) = (guarded b a).map fun l => l.map (added t) := by
  cases b <;> cases a <;> rfl

theorem parseCurve_moved (f : Flags) (m : MaterialKind) (vs : List Point3) :
    parseCurve f m (vs.map (point3 t)) = (parseCurve f m vs).map fun l => l.map (added t) := by
  unfold parseCurve
  rw [curveOn_moved .yz m (·.x) (fun p => ⟨p.y, p.z⟩) vs (fun _ => rfl) fun _ => rfl,
    curveOn_moved .zx m (·.y) (fun p => ⟨p.z, p.x⟩) vs (fun _ => rfl) fun _ => rfl,
    curveOn_moved .xy m (·.z) (fun p => ⟨p.x, p.y⟩) vs (fun _ => rfl) fun _ => rfl]
  simp only [guarded_moved]
  cases guarded f.yz (curveOn .yz m (·.x) (fun p => ⟨p.y, p.z⟩) vs) with
  | none => rfl
  | some a =>
    cases guarded f.zx (curveOn .zx m (·.y) (fun p => ⟨p.z, p.x⟩) vs) with
    | none => rfl
    | some b =>
      cases guarded f.xy (curveOn .xy m (·.z) (fun p => ⟨p.x, p.y⟩) vs) with
      | none => rfl
      | some d => simp

theorem parsePrimitive_moved (f : Flags) (dirs : List Point) (m : MaterialKind) (p : Primitive) :
    parsePrimitive f dirs m { p with shape := shape t p.shape } = (parsePrimitive f dirs m p).map fun l => l.map (added t) := by
  obtain ⟨b, priority, s⟩ := p
  cases b with
  | true => rfl
  | false =>
    cases s with
    | box p q => exact congrArg some (parseBox_moved f m _ p q)
    | multibox l k => exact congrArg some (parseMultibox_moved f m _ l k)
    | linpoly n e l v =>
      have := parseLinpoly_moved (t := t) f m priority n e l v
      match n with
      | 0 => exact this
      | 1 => exact this
      | 2 => exact this
      | n + 3 => exact this
    | polygon n e v =>
      have := parsePolygon_moved (t := t) f m priority n e v
      match n with
      | 0 => exact this
      | 1 => exact this
      | 2 => exact this
      | n + 3 => exact this
    | sphere c r => exact congrArg some (parseSphere_moved f dirs m _ c r)
    | cylinder p q r => exact congrArg some (parseCylinder_moved f dirs m _ p q r)
    | point p => exact congrArg some (parsePoint_moved f p)
    | curve v => exact parseCurve_moved f m v
    | other => rfl

theorem parsePrimitives_moved (f : Flags) (dirs : List Point) (m : Option MaterialKind) : ∀ l : List Primitive,
    parsePrimitives f dirs m (l.map fun q => { q with shape := shape t q.shape }) =
      (parsePrimitives f dirs m l).map fun r => r.map (added t)
  | [] => rfl
  | p :: rest => by
    simp only [List.map_cons, parsePrimitives, parsePrimitives_moved f dirs m rest]
    cases m with
    | none =>
      cases parsePrimitives f dirs none rest <;> simp
    | some m =>
      simp only [Option.elim, parsePrimitive_moved]
      cases parsePrimitive f dirs m p with
      | none => rfl
      | some a => cases parsePrimitives f dirs (some m) rest <;> simp

theorem parseProperties_moved (f : Flags) (dirs : List Point) : ∀ l : List Property,
    parseProperties f dirs (l.map (property t)) = (parseProperties f dirs l).map fun r => r.map (added t)
  | [] => rfl
  | p :: rest => by
    simp only [List.map_cons, parseProperties, parseProperties_moved f dirs rest, property, parsePrimitives_moved]
    cases parsePrimitives f dirs (parseProperty p.kind) p.primitives with
    | none => rfl
    | some a => cases parseProperties f dirs rest <;> simp

end Verif.Moved
