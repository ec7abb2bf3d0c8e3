import Verif.Lemmas.Diagonal
import Verif.Lemmas.ManagerMesh
import Verif.Props.Interval

/-!
# Theorems on diagonal zones
-/

namespace Verif.Board
open Verif.Geom Verif.Board.Spec
open Verif.Geom.Spec (On orient)
open Verif.Mesh (Sorter Kind Facing Interval Policies)

/-! ## C65, C66 -/

theorem detectAngles_inv {polygons : List (List Point)} {L : List Ang} (h : detectAngles polygons = some L) :
    ∃ E, List.Forall₂ (fun points edges => detectEdges points = some edges) polygons E ∧
      L = (List.zipWith cornerAngles polygons E).flatten ++ crossingAngles E := by
  rw [detectAngles, Option.map_eq_some_iff] at h
  obtain ⟨E, hE, rfl⟩ := h
  refine ⟨E, ?_, rfl⟩
  induction polygons generalizing E with
  | nil =>
    simp at hE
    subst hE
    exact .nil
  | cons p ps ih =>
    rw [List.mapM_cons] at hE
    cases hp : detectEdges p with
    | none => simp [hp] at hE
    | some e =>
      cases hps : ps.mapM detectEdges with
      | none => simp [hp, hps] at hE
      | some es =>
        simp [hp, hps] at hE
        subst hE
        exact .cons hp (ih es hps)

/-- The detection of angles is defined as soon as every polygon has points. -/
theorem C65_defined {polygons : List (List Point)} (h : ∀ p ∈ polygons, p ≠ []) : (detectAngles polygons).isSome := by
  have : (polygons.mapM detectEdges).isSome := by
    induction polygons with
    | nil => rfl
    | cons p ps ih =>
      have hp := h p (List.mem_cons_self ..)
      have ih := ih fun q hq => h q (List.mem_cons_of_mem _ hq)
      obtain ⟨es, hes⟩ := Option.isSome_iff_exists.1 ih
      rw [List.mapM_cons, detectEdges, List.getLast?_eq_some_getLast hp]
      simp [hes]
  obtain ⟨E, hE⟩ := Option.isSome_iff_exists.1 this
  rw [detectAngles, hE]
  rfl

/-- The angles are: for every polygon, one at each vertex with a slanted side, between the side arriving there and the one
leaving; then those between edges of two different polygons. -/
theorem C65_corners {polygons : List (List Point)} {L : List Ang} (h : detectAngles polygons = some L) :
    ∃ corners crossings, L = corners ++ crossings ∧
      corners.Perm (polygons.flatMap fun points => (List.range points.length).filterMap (cornerAt points)) ∧
      ∀ x ∈ crossings, ∃ i j : Nat, i < j ∧ ∃ P Q E F, polygons[i]? = some P ∧ polygons[j]? = some Q ∧
        detectEdges P = some E ∧ detectEdges Q = some F ∧ x.e0 ∈ E ∧ x.e1 ∈ F := by
  obtain ⟨E, hE, rfl⟩ := detectAngles_inv h
  refine ⟨_, _, rfl, ?_, ?_⟩
  · clear h
    induction hE with
    | nil => simp
    | @cons p e ps es hp _ ih =>
      rw [List.zipWith_cons_cons, List.flatten_cons, List.flatMap_cons]
      refine List.Perm.append ?_ ih
      obtain ⟨m, hm⟩ : ∃ m, p.length = m + 1 := by
        cases p with
        | nil => simp [detectEdges] at hp
        | cons a p => exact ⟨p.length, rfl⟩
      rw [cornerAngles_eq hp hm, hm, List.range_succ]
      exact (List.perm_append_singleton m (List.range m)).symm.filterMap _
  · intro x hx
    obtain ⟨i, j, hij, P, hP, Q, hQ, a, ha, b, hb, hc⟩ := mem_crossingAngles hx
    obtain ⟨h1, h2, -⟩ := crossingAngle_sound hc
    have get : ∀ {k : Nat} {R : List Segment}, E[k]? = some R → ∃ p, polygons[k]? = some p ∧ detectEdges p = some R := by
      intro k R hR
      obtain ⟨hk, rfl⟩ := List.getElem?_eq_some_iff.1 hR
      have hk' : k < polygons.length := by rw [hE.length_eq]; exact hk
      exact ⟨polygons[k], List.getElem?_eq_getElem hk', List.forall₂_iff_get.1 hE |>.2 k hk' hk⟩
    obtain ⟨p, hp, hpe⟩ := get hP
    obtain ⟨q, hq, hqe⟩ := get hQ
    exact ⟨i, j, hij, p, q, P, Q, hp, hq, hpe, hqe, h1 ▸ ha, h2 ▸ hb⟩

/-- Every slanted side of every polygon has an angle at both of its ends. -/
theorem C65_ends {polygons : List (List Point)} {L : List Ang} (h : detectAngles polygons = some L)
    {points : List Point} {edges : List Segment} (hp : points ∈ polygons) (he : detectEdges points = some edges)
    {e : Segment} (hmem : e ∈ edges) (hs : Slanted e) : (∃ x ∈ L, x.p = e.p0) ∧ ∃ x ∈ L, x.p = e.p1 := by
  obtain ⟨E, hE, rfl⟩ := detectAngles_inv h
  have key : ∀ x ∈ cornerAngles points edges,
      x ∈ (List.zipWith cornerAngles polygons E).flatten ++ crossingAngles E := by
    intro x hx
    refine List.mem_append_left _ (List.mem_flatten.2 ⟨_, ?_, hx⟩)
    obtain ⟨i, hi, rfl⟩ := List.getElem_of_mem hp
    have hi' : i < E.length := by rw [← hE.length_eq]; exact hi
    have := List.forall₂_iff_get.1 hE |>.2 i hi hi'
    simp only [List.get_eq_getElem] at this
    rw [he, Option.some.injEq] at this
    subst this
    rw [List.mem_iff_getElem]
    exact ⟨i, by simp; omega, by simp⟩
  obtain ⟨⟨x, hx, h1⟩, y, hy, h2⟩ := cornerAngles_ends he hmem hs
  exact ⟨⟨x, key x hx, h1⟩, y, key y hy, h2⟩

/-- A triangle with one slanted side. -/
def demoTriangle : List Point := [⟨0, 0⟩, ⟨4, 0⟩, ⟨0, 3⟩]

example : (∀ p ∈ [demoTriangle], p ≠ []) ∧ (detectAngles [demoTriangle]).map (·.map Ang.p) = some [⟨0, 3⟩, ⟨4, 0⟩] ∧
    ∃ es, detectEdges demoTriangle = some es ∧ ⟨⟨4, 0⟩, ⟨0, 3⟩⟩ ∈ es := by
  refine ⟨by simp [demoTriangle], by decide +kernel, _, rfl, by decide +kernel⟩

/-- An angle between two polygons is a point of one edge and on the line of the other, one of them being slanted; when the
edges clearly cross it is a point of both. -/
theorem C66_sound {polygons : List (List Point)} {L : List Ang} (h : detectAngles polygons = some L) :
    ∃ corners crossings, L = corners ++ crossings ∧ ∀ x ∈ crossings, (Slanted x.e0 ∨ Slanted x.e1) ∧
      On x.e1 x.p ∧ orient x.e0.p0 x.e0.p1 x.p = 0 ∧ (ClearlyCross x.e0 x.e1 → On x.e0 x.p) := by
  obtain ⟨E, hE, rfl⟩ := detectAngles_inv h
  refine ⟨_, _, rfl, fun x hx => ?_⟩
  obtain ⟨i, j, hij, P, hP, Q, hQ, a, ha, b, hb, hc⟩ := mem_crossingAngles hx
  obtain ⟨rfl, rfl, h1, h2, h3⟩ := crossingAngle_sound hc
  refine ⟨h1, h2, h3, fun hcl => ?_⟩
  have hr := clearly_crossing hcl
  obtain ⟨s1, s2, o1, o2, o3, o4⟩ := hcl
  obtain ⟨c, ⟨hca, hcb⟩, -⟩ := C51_crossing hr (rotation_ne_colinear o1) (rotation_ne_colinear o2)
    (rotation_ne_colinear o3) (rotation_ne_colinear o4)
  have hi := (C51_intersection_partial hr (rotation_ne_colinear o1) (rotation_ne_colinear o2)
    (rotation_ne_colinear o3) (rotation_ne_colinear o4) hca hcb).1 (by rwa [diagonal_iff, diagonal_iff])
  unfold crossingAngle at hc
  split_ifs at hc
  rw [hi, Option.map_some, Option.some.injEq] at hc
  rw [← congrArg Ang.p hc]
  exact hca

/-- Two slanted edges of different polygons that clearly cross get an angle at a common point. What is missing is a
slanted edge crossing a horizontal or a vertical one: see `C66_false`. -/
theorem C66_complete_partial {polygons : List (List Point)} {L : List Ang} (h : detectAngles polygons = some L) {i j : Nat}
    (hij : i < j) {P Q : List Point} {E F : List Segment} (hP : polygons[i]? = some P) (hQ : polygons[j]? = some Q)
    (hE : detectEdges P = some E) (hF : detectEdges Q = some F) {a b : Segment} (ha : a ∈ E) (hb : b ∈ F)
    (hsa : Slanted a) (hsb : Slanted b) (hc : ClearlyCross a b) : ∃ c, (⟨c, a, b⟩ : Ang) ∈ L ∧ On a c ∧ On b c := by
  obtain ⟨G, hG, rfl⟩ := detectAngles_inv h
  obtain ⟨c, hx, h1, h2⟩ := crossingAngle_complete hc hsa hsb
  have get : ∀ {k : Nat} {p : List Point} {R : List Segment}, polygons[k]? = some p → detectEdges p = some R →
      G[k]? = some R := by
    intro k p R hp hR
    obtain ⟨hk, rfl⟩ := List.getElem?_eq_some_iff.1 hp
    have hk' : k < G.length := by rw [← hG.length_eq]; exact hk
    have := List.forall₂_iff_get.1 hG |>.2 k hk hk'
    simp only [List.get_eq_getElem] at this
    rw [hR, Option.some.injEq] at this
    rw [List.getElem?_eq_getElem hk', this]
  exact ⟨c, List.mem_append_right _ (crossingAngles_mem hij (get hP hE) (get hQ hF) ha hb hx), h1, h2⟩

/-- Two triangles whose slanted sides cross at `(2, 2)`. -/
def demoCrossing : List (List Point) := [[⟨0, 0⟩, ⟨4, 4⟩, ⟨4, 0⟩], [⟨4, 0⟩, ⟨0, 4⟩, ⟨0, 0⟩]]

example : ∃ L E F, detectAngles demoCrossing = some L ∧ detectEdges [⟨0, 0⟩, ⟨4, 4⟩, ⟨4, 0⟩] = some E ∧
    detectEdges [⟨4, 0⟩, ⟨0, 4⟩, ⟨0, 0⟩] = some F ∧ ⟨⟨0, 0⟩, ⟨4, 4⟩⟩ ∈ E ∧ ⟨⟨4, 0⟩, ⟨0, 4⟩⟩ ∈ F ∧
    Slanted ⟨⟨0, 0⟩, ⟨4, 4⟩⟩ ∧ Slanted ⟨⟨4, 0⟩, ⟨0, 4⟩⟩ ∧ ClearlyCross ⟨⟨0, 0⟩, ⟨4, 4⟩⟩ ⟨⟨4, 0⟩, ⟨0, 4⟩⟩ ∧
    ⟨⟨2, 2⟩, ⟨⟨0, 0⟩, ⟨4, 4⟩⟩, ⟨⟨4, 0⟩, ⟨0, 4⟩⟩⟩ ∈ L := by
  refine ⟨_, _, _, rfl, rfl, rfl, by decide +kernel, by decide +kernel, by decide +kernel, by decide +kernel, ?_,
    by decide +kernel⟩
  norm_num [ClearlyCross, Geom.Spec.Separated, orient, Mesh.tolerance]

/-- A slanted edge that clearly crosses a horizontal one, of another polygon, gets no angle: their bounding boxes do not
overlap strictly, since one is flat. -/
theorem C66_false : ∃ (P Q : List Point) (E F : List Segment) (a b : Segment) (L : List Ang),
    detectEdges P = some E ∧ detectEdges Q = some F ∧ a ∈ E ∧ b ∈ F ∧ Slanted a ∧ ClearlyCross a b ∧
    detectAngles [P, Q] = some L ∧ ∀ x ∈ L, ¬ On b x.p ∨ ¬ On a x.p := by
  refine ⟨[⟨0, 0⟩, ⟨4, 4⟩, ⟨4, 0⟩], [⟨0, 1⟩, ⟨5, 1⟩, ⟨5, 9⟩, ⟨0, 9⟩], _, _, ⟨⟨0, 0⟩, ⟨4, 4⟩⟩, ⟨⟨0, 1⟩, ⟨5, 1⟩⟩, _, rfl, rfl,
    by decide +kernel, by decide +kernel, by decide +kernel, ?_, rfl, ?_⟩
  · norm_num [ClearlyCross, Geom.Spec.Separated, orient, Mesh.tolerance]
  · have : ∀ x ∈ (detectAngles [[⟨0, 0⟩, ⟨4, 4⟩, ⟨4, 0⟩], [⟨0, 1⟩, ⟨5, 1⟩, ⟨5, 9⟩, ⟨0, 9⟩]]).getD [], x.p.y ≠ 1 := by
      decide +kernel
    intro x hx
    refine .inl fun ⟨t, _, _, _, hy⟩ => this x hx ?_
    rw [hy]
    norm_num

/-! ## C67 -/

/-- The zones found on each axis of a plane are the connected pieces of what is under the slanted edges to be meshed:
each such edge is over a single zone, every point of a zone is under such an edge, and the zones do not touch. The zones
already there are kept, the other axis is left alone, and no angle is in two of the zones added. -/
theorem C67_zones {polygons : List (List Point)} {L : List Ang} (hL : detectAngles polygons = some L)
    {S : Sorter Nat} {A : Nat → BAngle} {g : ZoneParams} {plane : Plane} {angles : List Nat} (hn : angles.Nodup)
    (hA : angles.map (fun k => (A k).p) = L.map Ang.p) (hp : ∀ a ∈ angles, (A a).plane = plane)
    {edges : List BEdge}
    (he : ∀ e ∈ edges, ∃ P ∈ polygons, ∃ sides, detectEdges P = some sides ∧ e.seg ∈ sides) (zones : Zones) :
    let segments := (edges.filter fun e => decide (e.toMesh = true ∧ Slanted e.seg)).map BEdge.seg
    ∃ newH newV, detectZones S A g plane edges angles zones = some (fun w => zones w ++
        if w = spaceAxis plane .h then newH else if w = spaceAxis plane .v then newV else []) ∧
      Pieces A .h segments newH ∧ Pieces A .v segments newV ∧
      (newH.flatMap Zone.angles).Nodup ∧ (newV.flatMap Zone.angles).Nodup ∧
      ∀ z ∈ newH ++ newV, z.dmax = g.diagonalDmax ∧ z.intervals = [] ∧ ∀ a ∈ z.angles, a ∈ angles := by
  intro segments
  have hpt : ∀ x ∈ L, ∃ a ∈ angles, (A a).p = x.p := by
    intro x hx
    have : x.p ∈ angles.map fun k => (A k).p := hA ▸ List.mem_map_of_mem hx
    obtain ⟨a, ha, h⟩ := List.mem_map.1 this
    exact ⟨a, ha, h⟩
  obtain ⟨newH, newV, h1, h2, h3⟩ := detectZones_spec (S := S) (g := g) (edges := edges) hn hp (fun e hmem hs => by
    obtain ⟨P, hP, sides, hd, hside⟩ := he e hmem
    obtain ⟨⟨x, hx, e0⟩, y, hy, e1⟩ := C65_ends hL hP hd hside hs
    obtain ⟨a, ha, ea⟩ := hpt x hx
    obtain ⟨b, hb, eb⟩ := hpt y hy
    exact ⟨⟨a, ha, ea.trans e0⟩, b, hb, eb.trans e1⟩) zones
  refine ⟨newH, newV, h1, h2.pieces, h3.pieces, h2.once, h3.once, fun z hz => ?_⟩
  rcases List.mem_append.1 hz with hz | hz
  · exact ⟨by rw [h2.made z hz], by rw [h2.made z hz], h2.sub z hz⟩
  · exact ⟨by rw [h3.made z hz], by rw [h3.made z hz], h3.sub z hz⟩

/-- On all planes: the zones of an axis are the pieces under the slanted edges of each of the two planes that show it. They
are made of angles of the plane, with the limit for zones, and no interval yet. -/
theorem C67_all {polygons : Plane → List (List Point)} {L : Plane → List Ang}
    (hL : ∀ plane, detectAngles (polygons plane) = some (L plane)) {S : Sorter Nat} {A : Nat → BAngle} {g : ZoneParams}
    {angles : Plane → List Nat} (hn : ∀ plane, (angles plane).Nodup)
    (hA : ∀ plane, (angles plane).map (fun k => (A k).p) = (L plane).map Ang.p)
    (hp : ∀ plane, ∀ a ∈ angles plane, (A a).plane = plane) {edges : Plane → List BEdge}
    (he : ∀ plane, ∀ e ∈ edges plane, ∃ P ∈ polygons plane, ∃ sides, detectEdges P = some sides ∧ e.seg ∈ sides) :
    ∃ (zones : Zones) (new : Plane → ViewAxis → List Zone), detectAllZones S A g edges angles = some zones ∧
      (∀ plane va, Pieces A va (((edges plane).filter fun e => decide (e.toMesh = true ∧ Slanted e.seg)).map BEdge.seg)
        (new plane va)) ∧
      zones .x = new .zx .v ++ new .xy .h ∧ zones .y = new .yz .h ++ new .xy .v ∧ zones .z = new .yz .v ++ new .zx .h ∧
      ∀ plane va, ∀ z ∈ new plane va, z.dmax = g.diagonalDmax ∧ z.intervals = [] ∧ ∀ a ∈ z.angles, a ∈ angles plane := by
  obtain ⟨h1, v1, e1, p1, q1, -, -, m1⟩ := C67_zones (hL .yz) (S := S) (g := g) (hn .yz) (hA .yz) (hp .yz) (he .yz) fun _ => []
  obtain ⟨h2, v2, e2, p2, q2, -, -, m2⟩ := C67_zones (hL .zx) (S := S) (g := g) (hn .zx) (hA .zx) (hp .zx) (he .zx)
    (fun w => [] ++ if w = spaceAxis .yz .h then h1 else if w = spaceAxis .yz .v then v1 else [])
  obtain ⟨h3, v3, e3, p3, q3, -, -, m3⟩ := C67_zones (hL .xy) (S := S) (g := g) (hn .xy) (hA .xy) (hp .xy) (he .xy)
    (fun w => ([] ++ if w = spaceAxis .yz .h then h1 else if w = spaceAxis .yz .v then v1 else []) ++
      if w = spaceAxis .zx .h then h2 else if w = spaceAxis .zx .v then v2 else [])
  refine ⟨fun w => (([] ++ if w = spaceAxis .yz .h then h1 else if w = spaceAxis .yz .v then v1 else []) ++
      if w = spaceAxis .zx .h then h2 else if w = spaceAxis .zx .v then v2 else []) ++
      if w = spaceAxis .xy .h then h3 else if w = spaceAxis .xy .v then v3 else [], fun plane va => match plane, va with
    | .yz, .h => h1 | .yz, .v => v1 | .zx, .h => h2 | .zx, .v => v2 | .xy, .h => h3 | .xy, .v => v3, ?_, ?_, ?_, ?_, ?_, ?_⟩
  · unfold detectAllZones
    rw [e1, Option.bind_some, e2, Option.bind_some, e3]
  · intro plane va
    cases plane <;> cases va <;> assumption
  iterate 3 simp [spaceAxis]
  intro plane va z hz
  cases plane <;> cases va <;>
    first
    | exact m1 z (by simp only [List.mem_append]; tauto)
    | exact m2 z (by simp only [List.mem_append]; tauto)
    | exact m3 z (by simp only [List.mem_append]; tauto)

/-- Two triangles apart from each other, and their angles. -/
def demoPlane : List (List Point) := [demoTriangle, [⟨10, 0⟩, ⟨12, 0⟩, ⟨10, 1⟩]]

/-- The angles of `demoPlane`. -/
def demoAngle (k : Nat) : BAngle :=
  ⟨.xy, [(⟨0, 3⟩ : Point), ⟨4, 0⟩, ⟨10, 1⟩, ⟨12, 0⟩].getD k ⟨0, 0⟩, 90⟩

/-- The slanted edges of `demoPlane`. -/
def demoEdges : List BEdge :=
  [⟨.xy, ⟨⟨4, 0⟩, ⟨0, 3⟩⟩, .none, true, false⟩, ⟨.xy, ⟨⟨12, 0⟩, ⟨10, 1⟩⟩, .none, true, false⟩]

example : ∃ L, detectAngles demoPlane = some L ∧ [0, 1, 2, 3].map (fun k => (demoAngle k).p) = L.map Ang.p ∧
    (∀ a ∈ [0, 1, 2, 3], (demoAngle a).plane = .xy) ∧
    (∀ e ∈ demoEdges, ∃ P ∈ demoPlane, ∃ sides, detectEdges P = some sides ∧ e.seg ∈ sides) ∧
    ((detectZones (Sorter.insertion Nat) demoAngle ⟨2, 2, 1 / 5, 20⟩ .xy demoEdges [0, 1, 2, 3] fun _ => []).map fun z =>
      ((z .x).map Zone.angles, (z .y).map Zone.angles, (z .z).length)) = some ([[0, 1], [2, 3]], [[1, 3, 2, 0]], 0) := by
  refine ⟨_, rfl, by decide +kernel, by decide, ?_, by decide +kernel⟩
  intro e he
  simp only [demoEdges, List.mem_cons, List.not_mem_nil, or_false] at he
  rcases he with rfl | rfl
  · exact ⟨_, List.mem_cons_self .., _, rfl, by decide +kernel⟩
  · exact ⟨_, List.mem_cons_of_mem _ (List.mem_cons_self ..), _, rfl, by decide +kernel⟩

/-! ## C68 -/

/-- The zones found on all planes are tidy, so that `C68_solved_partial` applies to them. -/
theorem C68_tidy {polygons : Plane → List (List Point)} {L : Plane → List Ang}
    (hL : ∀ plane, detectAngles (polygons plane) = some (L plane)) {S : Sorter Nat} {A : Nat → BAngle} {g : ZoneParams}
    {angles : Plane → List Nat} (hn : ∀ plane, (angles plane).Nodup)
    (hA : ∀ plane, (angles plane).map (fun k => (A k).p) = (L plane).map Ang.p)
    (hp : ∀ plane, ∀ a ∈ angles plane, (A a).plane = plane) {edges : Plane → List BEdge}
    (he : ∀ plane, ∀ e ∈ edges plane, ∃ P ∈ polygons plane, ∃ sides, detectEdges P = some sides ∧ e.seg ∈ sides) :
    ∃ zones, detectAllZones S A g edges angles = some zones ∧ Tidy zones := by
  have hends : ∀ plane, ∀ e ∈ edges plane, Slanted e.seg → (∃ a ∈ angles plane, (A a).p = e.seg.p0) ∧
      ∃ a ∈ angles plane, (A a).p = e.seg.p1 := by
    intro plane e hmem hs
    have hpt : ∀ x ∈ L plane, ∃ a ∈ angles plane, (A a).p = x.p := by
      intro x hx
      have : x.p ∈ (angles plane).map fun k => (A k).p := hA plane ▸ List.mem_map_of_mem hx
      obtain ⟨a, ha, h⟩ := List.mem_map.1 this
      exact ⟨a, ha, h⟩
    obtain ⟨P, hP, sides, hd, hside⟩ := he plane e hmem
    obtain ⟨⟨x, hx, e0⟩, y, hy, e1⟩ := C65_ends (hL plane) hP hd hside hs
    obtain ⟨a, ha, ea⟩ := hpt x hx
    obtain ⟨b, hb, eb⟩ := hpt y hy
    exact ⟨⟨a, ha, ea.trans e0⟩, b, hb, eb.trans e1⟩
  have plane_of : ∀ {plane : Plane} {va : ViewAxis} {D : List Segment} {new : List Zone},
      Added A g plane va D (angles plane) new → ∀ z ∈ new, ∀ a ∈ z.angles, (A a).plane = plane :=
    fun hadd z hz a ha => hp _ a (hadd.sub z hz a ha)
  obtain ⟨H1, V1, e1, h1, v1⟩ := detectZones_spec (S := S) (g := g) (hn .yz) (hp .yz) (hends .yz) fun _ => []
  have ok0 : ZonesOk fun _ => [] := ⟨by simp, by simp⟩
  have ok1 := ok0.add (hp .yz) (by simp) h1 v1
  obtain ⟨H2, V2, e2, h2, v2⟩ := detectZones_spec (S := S) (g := g) (hn .zx) (hp .zx) (hends .zx)
    (fun w => [] ++ if w = spaceAxis .yz .h then H1 else if w = spaceAxis .yz .v then V1 else [])
  have p1 : ∀ w, ∀ z ∈ ([] ++ if w = spaceAxis .yz .h then H1 else if w = spaceAxis .yz .v then V1 else []),
      ∀ a ∈ z.angles, (A a).plane = .yz := by
    intro w z hz a ha
    rw [List.nil_append] at hz
    split_ifs at hz
    · exact plane_of h1 z hz a ha
    · exact plane_of v1 z hz a ha
    · simp at hz
  have ok2 := ok1.add (hp .zx) (fun w z hz a ha => by rw [p1 w z hz a ha]; decide) h2 v2
  obtain ⟨H3, V3, e3, h3, v3⟩ := detectZones_spec (S := S) (g := g) (hn .xy) (hp .xy) (hends .xy)
    (fun w => ([] ++ if w = spaceAxis .yz .h then H1 else if w = spaceAxis .yz .v then V1 else []) ++
      if w = spaceAxis .zx .h then H2 else if w = spaceAxis .zx .v then V2 else [])
  have ok3 := ok2.add (hp .xy) (fun w z hz a ha => by
    rcases List.mem_append.1 hz with hz | hz
    · rw [p1 w z hz a ha]; decide
    · split_ifs at hz
      · rw [plane_of h2 z hz a ha]; decide
      · rw [plane_of v2 z hz a ha]; decide
      · simp at hz) h3 v3
  refine ⟨_, ?_, ⟨ok3.once, ok3.some⟩⟩
  rw [detectAllZones, e1, Option.bind_some, e2, Option.bind_some, e3]

/-- After the angles of the zones are solved, an angle in a zone of an axis is to be meshed along that axis exactly when it
is the first or the last of the zone, or is at least the global minimal angle; other angles are left as they were. What
is missing is the minimal angle of the zone itself: see `C68_false`. -/
theorem C68_solved_partial {A : Nat → BAngle} {minimal : ℚ} {zones : Zones} (h : Tidy zones) (m : ToMesh) :
    ∃ m', solveZonesAngles A minimal zones m = some m' ∧
      (∀ w, ∀ z ∈ zones w, ∀ a ∈ z.angles, ∀ va, spaceAxis (A a).plane va = w →
        (m' a va = true ↔ z.angles.head? = some a ∨ z.angles.getLast? = some a ∨ minimal ≤ (A a).angle)) ∧
      ∀ a va, (∀ z ∈ zones (spaceAxis (A a).plane va), a ∉ z.angles) → m' a va = m a va := by
  obtain ⟨m', h1, h2, h3⟩ := solveZonesAngles_eq (A := A) (t := minimal) ⟨h.once, h.some⟩ m
  refine ⟨m', h1, fun w z hz a ha va hva => ?_, h3⟩
  rw [h2 w z hz a ha va hva, decide_eq_true_eq]

/-- Both ends of every zone get an enabled policy, and no angle is forgotten: it has one policy along each axis of its
plane, at its place, enabled when it is to be meshed along that axis. -/
theorem C68_policies {A : Nat → BAngle} {minimal : ℚ} {zones : Zones} (h : Tidy zones) {m m' : ToMesh}
    (hs : solveZonesAngles A minimal zones m = some m') {plane : Plane} {angles : List Nat}
    (hp : ∀ a ∈ angles, (A a).plane = plane) :
    (∀ a ∈ angles, ∀ va, (spaceAxis plane va, Kind.halfs, Facing.none, along va (A a).p, m' a va) ∈
      anglePolicies A plane m' angles) ∧
    (∀ va, ∀ z ∈ zones (spaceAxis plane va), (∀ a ∈ z.angles, a ∈ angles) → ∀ lo hi, Spans A va z.angles lo hi →
      (spaceAxis plane va, Kind.halfs, Facing.none, lo, true) ∈ anglePolicies A plane m' angles ∧
      (spaceAxis plane va, Kind.halfs, Facing.none, hi, true) ∈ anglePolicies A plane m' angles) ∧
    (anglePolicies A plane m' angles).length = 2 * angles.length := by
  have hmem : ∀ a ∈ angles, ∀ va, (spaceAxis plane va, Kind.halfs, Facing.none, along va (A a).p, m' a va) ∈
      anglePolicies A plane m' angles := by
    intro a ha va
    refine List.mem_flatMap.2 ⟨a, ha, List.mem_map.2 ⟨va, by cases va <;> simp, ?_⟩⟩
    rw [axes_space, coord_along]
  refine ⟨hmem, fun va z hz hsub lo hi hspan => ?_, ?_⟩
  · obtain ⟨m'', h1, h2, -⟩ := C68_solved_partial (A := A) (minimal := minimal) h m
    rw [hs, Option.some.injEq] at h1
    subst h1
    obtain ⟨⟨a, ha, hlo⟩, ⟨b, hb, hhi⟩, -⟩ := hspan
    have am := List.mem_of_head? ha
    have bm := List.mem_of_getLast? hb
    have pa := hp a (hsub a am)
    have pb := hp b (hsub b bm)
    have ha' := hmem a (hsub a am) va
    have hb' := hmem b (hsub b bm) va
    rw [hlo, (h2 _ z hz a am va (by rw [pa])).2 (.inl ha)] at ha'
    rw [hhi, (h2 _ z hz b bm va (by rw [pb])).2 (.inr (.inl hb))] at hb'
    exact ⟨ha', hb'⟩
  · unfold anglePolicies
    clear hs hp hmem h
    induction angles with
    | nil => rfl
    | cons a l ih => rw [List.flatMap_cons, List.length_append, ih]; simp; omega

/-- Three angles of a zone along `x`, the middle one of 45 degrees; the minimal angle of the zone was set to 90. -/
def demoZone : Zone := ⟨.x, 1 / 5, 2, 90, [0, 1, 2], []⟩

/-- The angles of `demoZone`. -/
def demoBend (k : Nat) : BAngle := ⟨.xy, ⟨k, k⟩, 45⟩

example : Tidy (fun w => if w = .x then [demoZone] else []) ∧ (∀ a ∈ [0, 1, 2], (demoBend a).plane = .xy) ∧
    Spans demoBend .h demoZone.angles 0 2 ∧ (∀ a ∈ demoZone.angles, a ∈ [0, 1, 2]) ∧
    (solveZonesAngles demoBend 60 (fun w => if w = .x then [demoZone] else []) fun _ _ => false).map
      (fun m => [0, 1, 2].map fun a => (m a .h, m a .v)) = some [(true, false), (false, false), (true, false)] := by
  refine ⟨⟨fun w => ?_, fun w z hz => ?_⟩, by decide, ⟨⟨0, rfl, by norm_num [along, demoBend]⟩,
    ⟨2, rfl, by norm_num [along, demoBend]⟩, ?_⟩, by decide, by decide +kernel⟩
  · cases w <;> decide
  · by_cases hw : w = .x
    · simp [hw] at hz
      subst hz
      simp [demoZone, hw]
    · simp [hw] at hz
  · intro a ha
    simp only [demoZone, List.mem_cons, List.not_mem_nil, or_false] at ha
    rcases ha with rfl | rfl | rfl <;> norm_num [along, demoBend]

/-- The minimal angle of a zone, which the user can edit, is not used: the inner angle of 45 degrees stays to be meshed
after the minimal angle of its zone was set to 90, as the global one is 20. -/
theorem C68_false : ∃ (A : Nat → BAngle) (zones : Zones) (z : Zone) (a : Nat) (m m' : ToMesh), Tidy zones ∧
    z ∈ zones .x ∧ a ∈ z.angles ∧ z.angles.head? ≠ some a ∧ z.angles.getLast? ≠ some a ∧ (A a).angle < z.minimalAngle ∧
    spaceAxis (A a).plane .h = .x ∧ solveZonesAngles A 20 zones m = some m' ∧ m' a .h = true := by
  have ht : Tidy (fun w => if w = .x then [demoZone] else []) := ⟨fun w => by cases w <;> decide, fun w z hz => by
    by_cases hw : w = .x
    · simp [hw] at hz
      subst hz
      simp [demoZone, hw]
    · simp [hw] at hz⟩
  obtain ⟨m', h1, h2, -⟩ := C68_solved_partial (A := demoBend) (minimal := 20) ht fun _ _ => false
  refine ⟨demoBend, _, demoZone, 1, _, m', ht, by simp, by decide, by decide, by decide, by norm_num [demoBend, demoZone],
    rfl, h1, (h2 .x demoZone (by simp) 1 (by decide) .h rfl).2 (.inr (.inr (by norm_num [demoBend])))⟩

/-! ## C69 -/

/-- After the zones of an axis are given their intervals and solved, an interval whose middle is in no zone is unchanged,
and one whose middle is in a zone only gets the spacing limit of that zone, the last one if there are several. What is
missing is the smallest of the limits: see `C69_false`. -/
theorem C69_dmax_partial {A : Nat → BAngle} {zones : List Zone} {intervals : List Interval}
    (h : ∀ z ∈ zones, (∃ lo hi, Reaches A z lo hi) ∧ z.intervals = []) :
    ∃ zones', detectPerZones A intervals zones = some zones' ∧
      (solveAllIntervals zones' intervals).length = intervals.length ∧
      ∀ i : Nat, ∀ x : Interval, intervals[i]? = some x → ∃ y, (solveAllIntervals zones' intervals)[i]? = some y ∧
        ((∀ z ∈ zones, ¬ Covers A z x.m) → y = x) ∧
        ∀ before z after, zones = before ++ z :: after → Covers A z x.m → (∀ w ∈ after, ¬ Covers A w x.m) →
          y = { x with dmax := z.dmax } := by
  obtain ⟨h1, h2⟩ := solveAllIntervals_eq zones h intervals rfl
  refine ⟨_, detectPerZones_eq fun z hz => (h z hz).1, ?_, h2⟩
  simpa using congrArg List.length h1

/-- The lines of an interval whose middle is in a zone, and in no later one, are at most the limit of the zone apart. -/
theorem C69_lines {A : Nat → BAngle} {zones zones' : List Zone} {intervals : List Interval}
    (h : ∀ z ∈ zones, (∃ lo hi, Reaches A z lo hi) ∧ z.intervals = [])
    (hd : detectPerZones A intervals zones = some zones') {i : Nat} {x : Interval} (hx : intervals[i]? = some x)
    {before after : List Zone} {z : Zone} (hz : zones = before ++ z :: after) (hc : Covers A z x.m)
    (ha : ∀ w ∈ after, ¬ Covers A w x.m) {ps : Policies} (hok : x.Ok ps) (hpos : 0 < z.dmax) :
    ∃ y ps' y' ls, (solveAllIntervals zones' intervals)[i]? = some y ∧ y.solveAndMesh ps = some (ps', y', ls) ∧
      Mesh.Spec.Increasing ls ∧ Mesh.Spec.GapsAtMost z.dmax ls ∧ x.m ∈ ls := by
  obtain ⟨zs, h1, -, h2⟩ := C69_dmax_partial h
  rw [hd, Option.some.injEq] at h1
  subst h1
  obtain ⟨y, hy, -, hlast⟩ := h2 i x hx
  obtain rfl := hlast before z after hz hc ha
  have hok' : Interval.Ok { x with dmax := z.dmax } ps := ⟨hpos, hok.distinct, hok.coord_lt, hok.h_eq, hok.m_eq,
    hok.smooth_b, hok.smooth_a, hok.d_b, hok.d_a⟩
  obtain ⟨ps', y', ls, hm, hi, -, hmem, hg, -⟩ := Props.C21_interval_mesh hok'
  exact ⟨_, ps', y', ls, hy, hm, hi, hg, hmem⟩

/-- Two zones along `x`, from different planes: one asks for lines 0.1 apart, the other for lines 5 apart. -/
def demoZones : List Zone := [⟨.x, 1 / 10, 2, 20, [0, 2], []⟩, ⟨.x, 5, 2, 20, [3, 4], []⟩]

/-- The angles of `demoZones`. -/
def demoAngles2 (k : Nat) : BAngle := if k < 3 then ⟨.xy, ⟨k, k⟩, 45⟩ else ⟨.zx, ⟨0, k - 3⟩, 45⟩

theorem demoZones_reach : ∀ z ∈ demoZones, (∃ lo hi, Reaches demoAngles2 z lo hi) ∧ z.intervals = [] := by
  intro z hz
  simp only [demoZones, List.mem_cons, List.not_mem_nil, or_false] at hz
  rcases hz with rfl | rfl
  · refine ⟨⟨0, 2, .xy, .h, by simp [demoAngles2], rfl, ⟨0, rfl, by norm_num [along, demoAngles2]⟩,
      ⟨2, rfl, by norm_num [along, demoAngles2]⟩, ?_⟩, rfl⟩
    intro a ha
    simp only [List.mem_cons, List.not_mem_nil, or_false] at ha
    rcases ha with rfl | rfl <;> norm_num [along, demoAngles2]
  · refine ⟨⟨0, 1, .zx, .v, by simp [demoAngles2], rfl, ⟨3, rfl, by norm_num [along, demoAngles2]⟩,
      ⟨4, rfl, by norm_num [along, demoAngles2]⟩, ?_⟩, rfl⟩
    intro a ha
    simp only [List.mem_cons, List.not_mem_nil, or_false] at ha
    rcases ha with rfl | rfl <;> norm_num [along, demoAngles2]

theorem demoZones_cover : Covers demoAngles2 ⟨.x, 1 / 10, 2, 20, [0, 2], []⟩ 1 ∧
    Covers demoAngles2 ⟨.x, 5, 2, 20, [3, 4], []⟩ 1 := by
  refine ⟨⟨0, 2, ⟨.xy, .h, by simp [demoAngles2], rfl, ⟨0, rfl, by norm_num [along, demoAngles2]⟩,
      ⟨2, rfl, by norm_num [along, demoAngles2]⟩, ?_⟩, by norm_num, by norm_num⟩,
    ⟨0, 1, ⟨.zx, .v, by simp [demoAngles2], rfl, ⟨3, rfl, by norm_num [along, demoAngles2]⟩,
      ⟨4, rfl, by norm_num [along, demoAngles2]⟩, ?_⟩, by norm_num, by norm_num⟩⟩
  · intro a ha
    simp only [List.mem_cons, List.not_mem_nil, or_false] at ha
    rcases ha with rfl | rfl <;> norm_num [along, demoAngles2]
  · intro a ha
    simp only [List.mem_cons, List.not_mem_nil, or_false] at ha
    rcases ha with rfl | rfl <;> norm_num [along, demoAngles2]

/-- An interval around 1, in both zones of `demoZones`, whose limit was the global one, 2.5. -/
def demoInterval : Interval := ⟨5 / 2, ⟨0, 2, 2, []⟩, ⟨1, 2, 2, []⟩, 1, 1⟩

/-- The policies on both sides of `demoInterval`. -/
def demoSides (k : Nat) : Mesh.Policy := ⟨if k = 0 then 0 else 2, .oneline, .none, true, 5 / 2⟩

example : (∀ z ∈ demoZones, (∃ lo hi, Reaches demoAngles2 z lo hi) ∧ z.intervals = []) ∧ demoInterval.Ok demoSides ∧
    demoZones = [⟨.x, 1 / 10, 2, 20, [0, 2], []⟩] ++ ⟨.x, 5, 2, 20, [3, 4], []⟩ :: [] ∧
    Covers demoAngles2 ⟨.x, 5, 2, 20, [3, 4], []⟩ demoInterval.m :=
  ⟨demoZones_reach, by constructor <;> norm_num [demoInterval, demoSides], rfl, demoZones_cover.2⟩

/-- An interval in two zones gets the limit of the last one, even when another zone it is in, and the limit it had, ask for
closer lines. -/
theorem C69_false : ∃ (A : Nat → BAngle) (zones zones' : List Zone) (z : Zone) (x y : Interval),
    (∀ z ∈ zones, (∃ lo hi, Reaches A z lo hi) ∧ z.intervals = []) ∧ z ∈ zones ∧ Covers A z x.m ∧
    detectPerZones A [x] zones = some zones' ∧ solveAllIntervals zones' [x] = [y] ∧ z.dmax < y.dmax ∧ x.dmax < y.dmax := by
  obtain ⟨zs, h1, h2, h3⟩ := C69_dmax_partial (intervals := [demoInterval]) demoZones_reach
  obtain ⟨y, hy, -, hlast⟩ := h3 0 demoInterval rfl
  have he := hlast [_] _ [] rfl demoZones_cover.2 (by simp)
  refine ⟨demoAngles2, demoZones, zs, ⟨.x, 1 / 10, 2, 20, [0, 2], []⟩, demoInterval, y, demoZones_reach, by simp [demoZones],
    demoZones_cover.1, h1, ?_, by rw [he]; norm_num, by rw [he]; norm_num [demoInterval]⟩
  match hl : solveAllIntervals zs [demoInterval], h2, hy with
  | [x], _, hy => simpa using hy

/-! ## C70 -/

/-- An interval whose middle is in a zone gets this zone among its conflicts, the first one if there are several, and one
whose middle is in no zone gets none. What is missing is the other zones: see `C70_false`. -/
theorem C70_first_partial {A : Nat → BAngle} {zones : List Zone} (h : ∀ z ∈ zones, ∃ lo hi, Reaches A z lo hi) (m : ℚ)
    (conflicts : List Nat) : ∃ r, intervalConflicts A m 0 false conflicts zones = some r ∧
      ((∀ z ∈ zones, ¬ Covers A z m) → r = conflicts) ∧
      ∀ before z after, zones = before ++ z :: after → Covers A z m → (∀ w ∈ before, ¬ Covers A w m) →
        r = conflicts ++ [before.length] := by
  obtain ⟨r, h1, h2, h3⟩ := intervalConflicts_eq zones h 0 conflicts
  exact ⟨r, h1, h2, fun before z after hz hc hb => by rw [h3 before z after hz hc hb, Nat.zero_add]⟩

example : (∀ z ∈ demoZones, ∃ lo hi, Reaches demoAngles2 z lo hi) ∧
    demoZones = [] ++ ⟨.x, 1 / 10, 2, 20, [0, 2], []⟩ :: [⟨.x, 5, 2, 20, [3, 4], []⟩] ∧
    Covers demoAngles2 ⟨.x, 1 / 10, 2, 20, [0, 2], []⟩ 1 :=
  ⟨fun z hz => (demoZones_reach z hz).1, rfl, demoZones_cover.1⟩

/-- An interval in two zones only knows the first: both are written at one timepoint, where a constant state is set once. -/
theorem C70_false : ∃ (A : Nat → BAngle) (y z : Zone) (m : ℚ), (∀ w ∈ [y, z], ∃ lo hi, Reaches A w lo hi) ∧
    Covers A y m ∧ Covers A z m ∧ intervalConflicts A m 0 false [] [y, z] = some [0] := by
  refine ⟨demoAngles2, _, _, 1, fun w hw => (demoZones_reach w hw).1, demoZones_cover.1, demoZones_cover.2, ?_⟩
  obtain ⟨r, h1, -, h3⟩ := C70_first_partial (fun w hw => (demoZones_reach w hw).1) 1 []
  have := h3 [] _ _ rfl demoZones_cover.1 (by simp)
  rw [this] at h1
  exact h1

end Verif.Board
