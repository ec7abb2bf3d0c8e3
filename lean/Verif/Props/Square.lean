import Verif.Props.Rectilinear
import Verif.Props.Plan

/-!
# C109: boards of polygons of any shape along the axes
-/

namespace Verif.Board
open Verif.Geom Verif.Geom.Spec
open Verif.Mesh (Sorter MeshParams Kind Policy FixedAt tolerance finish_axis)
open Verif.Mesh.Spec (Increasing GapsAtMost)
open Spec

/-- The whole of a segment lies in polygons that hide the polygon it belongs to. -/
def CoveredBy (B : Input) (p : Plane) (a : Nat) (s : Segment) : Prop :=
  ∀ q, On s q → ∃ b ∈ B.polygons p, Hides B.P b a ∧ Within (B.P b).points q

/-- A segment strictly inside a polygon that hides its own, and strictly inside or away from each other one. -/
def SunkIn (B : Input) (p : Plane) (a : Nat) (s : Segment) : Prop :=
  (∃ b ∈ B.polygons p, Hides B.P b a ∧ ∀ q, On s q → Inside (B.P b).points q) ∧
  ∀ b ∈ B.polygons p, Hides B.P b a → (∀ q, On s q → Inside (B.P b).points q) ∨ ∀ q, On s q → ¬ Within (B.P b).points q

theorem coarse_same {u v : ℚ} (hu : Coarse u) (hv : Coarse v) (h : |u - v| < tolerance) : u = v := by
  have ht : tolerance = 1 / 100000000 := rfl
  refine (coarse_apart hu hv).resolve_right fun h' => ?_
  rw [ht] at h
  linarith

/-- Lines of such polygons are apart. -/
theorem outlines_apart {B : Input} (hB : Built B) (hO : ∀ p, Outlines B.P (B.polygons p)) : LinesApart B := by
  have hc : ∀ p, ∀ i ∈ B.edges p, Coarse (B.E i).seg.p0.x ∧ Coarse (B.E i).seg.p0.y := by
    intro p i hi
    obtain ⟨a, ha, e, he, rfl⟩ := mem_edges.1 hi
    rw [(hB.edge p a ha e he).1]
    exact (coarse_pt true).1 (outlines_edge (hO p) ha he).2.1
  exact ⟨fun p i hi j hj _ _ => coarse_same (hc p i hi).2 (hc p j hj).2, fun p i hi j hj _ _ => coarse_same (hc p i hi).1 (hc p j hj).1⟩

/-- None of their edges is slanted. -/
theorem outlines_slanted {B : Input} (hB : Built B) (hO : ∀ p, Outlines B.P (B.polygons p)) (p : Plane) : slantedOf B p = [] := by
  unfold slantedOf
  rw [List.map_eq_nil_iff, List.filter_eq_nil_iff]
  intro e he
  obtain ⟨i, hi, rfl⟩ := List.mem_map.1 he
  obtain ⟨a, ha, e, he', rfl⟩ := mem_edges.1 hi
  have ht : tolerance = 1 / 100000000 := rfl
  rw [(hB.edge p a ha e he').1]
  simp only [decide_eq_true_eq, not_and]
  rintro - ⟨h1, h2⟩
  rcases (outlines_edge (hO p) ha he').1 with h | h
  · rw [h, sub_self, abs_zero] at h1
    linarith
  · rw [h, sub_self, abs_zero] at h2
    linarith

/-- C109. On a board of polygons of any shape along the axes, on a grid of `1 / 2500`, the run ends without undefined behaviour. On every
axis, the lines increase, none is further than `dmax` from the next, and all are between wanted coordinates; the policies left are apart,
and the lines stand around them as `Drawn` tells. An edge left unmeshed is covered by polygons that hide it, and one sunk in them is left
unmeshed. Each edge to mesh and each fixed line has a policy no further from it than the proximity limit times the number of merges, and a
line within `dmax` of that one unless it is the only policy. -/
theorem C109_board (S : Sorters) (g : MeshParams) (hg : g.InRange) (hl : 0 ≤ g.proximityLimit) (gz : ZoneParams) {B : Input}
    (hB : Built B) (hO : ∀ p, Outlines B.P (B.polygons p))
    (hmesh : ∀ p, ∀ a ∈ B.polygons p, ∀ e ∈ (B.P a).edges, (B.E e.1).toMesh = true) (axis : Geom.Axis) :
    ∃ E a, runSteps S g gz B axis = .ok (E, a) ∧ Increasing a.meshlines ∧ GapsAtMost g.dmax a.meshlines ∧
      a.Drawn g.proximityLimit (g.dmax / 2) ∧
      (∀ y ∈ a.meshlines, ∃ lo hi, Wanted B E axis lo ∧ Wanted B E axis hi ∧ lo ≤ y ∧ y ≤ hi) ∧
      (∀ p, ∀ n ∈ B.polygons p, ∀ e ∈ (B.P n).edges, ((E e.1).toMesh = false → CoveredBy B p n e.2) ∧
        (e.2.p0 ≠ e.2.p1 → SunkIn B p n e.2 → (E e.1).toMesh = false)) ∧
      ∀ x, Wanted B E axis x → ∃ k, a.Enabled k ∧
        |(a.get k).coord - x| < tolerance + (a.conflicts.length : ℚ) * g.proximityLimit ∧
        ((∃ j, j ≠ k ∧ a.Enabled j) → ∃ y ∈ a.meshlines, |y - (a.get k).coord| ≤ g.dmax) := by
  have hE : ∀ p, ∀ a ∈ B.polygons p, ∀ e ∈ (B.P a).edges, (B.E e.1).seg = e.2 := fun p a ha e he => (hB.edge p a ha e he).1
  have hown := fun p a ha a' ha' e he e' he' h => edge_owner (hB.own p) (a := a) (a' := a') (e := e) (e' := e') ha ha' he he' h
  have hboxes := fun p => C108_covered S.points S.overlaps (hO p) B.E (hE p) (hown p)
  obtain ⟨L, zones, m, new, E, a, lim, hrun, ⟨d1, d2, -, -, d5, -, hout⟩, hE3, h1, h3, h4, -⟩ :=
    run_drawn S g hg hl (gz := gz) (Or.inr (outlines_slanted hB hO)) hB (outlines_apart hB hO) (fun p => ⟨_, (hboxes p).choose_spec.1⟩) axis
  have hempty : ∀ w z, z ∉ zones w := by
    intro w z hz
    obtain ⟨p, va, -, hz⟩ := (d2 _ _).1 hz
    obtain ⟨lo, hi, -, hlt, hu⟩ := (d1 p va).spans z hz
    obtain ⟨s, hs, -⟩ := hu lo le_rfl hlt.le
    rw [outlines_slanted hB hO p] at hs
    cases hs
  have hm : ∀ n va, m n va = false := fun n va => d5 n va fun z hz => absurd hz (hempty _ _)
  have hlim : ∀ x, lim x ≤ g.dmax := fun x => (hout x fun ⟨z, hz, _⟩ => hempty _ _ hz).le
  obtain ⟨h2, h8, h4, -⟩ := h4 g.dmax hlim
  refine ⟨E, a, hrun, h1, h2, h8.mono (min_le_right _ _), ?_, ?_, h4⟩
  · intro y hy
    obtain ⟨lo, hi, h5, h6, hw⟩ := h3 y hy
    have hw' : ∀ x, x = lo ∨ x = hi → Wanted B E axis x := by
      intro x hx
      rcases hw x hx with h | ⟨n, -, va, -, hm', -⟩
      · exact h
      · rw [hm] at hm'
        cases hm'
    exact ⟨lo, hi, hw' _ (Or.inl rfl), hw' _ (Or.inr rfl), h5, h6⟩
  · intro p n hn e he
    obtain ⟨s, hs, hcov⟩ := hboxes p
    have hmem : e.1 ∈ B.edges p := mem_edges.2 ⟨n, hn, e, he, rfl⟩
    constructor
    · intro hm
      rcases hE3 p s hs e.1 hmem with ⟨-, h⟩ | ⟨os, hlook, h⟩
      · rw [hmesh p n hn e he, hm] at h
        cases h
      · rw [hm] at h
        exact hcov n hn e he os hlook h
    · intro hne hg
      obtain ⟨os, hlook, hsol⟩ := C108_engulfed S.overlaps (hO p) B.E (hE p) (hown p) hs hn he hne hg.1 hg.2
      rcases hE3 p s hs e.1 hmem with ⟨hno, -⟩ | ⟨os', hlook', h⟩
      · rw [hlook] at hno
        cases hno
      · rw [hlook] at hlook'
        obtain rfl := Option.some.inj hlook'
        rw [hsol] at h
        exact (Option.some.inj h).symm

/-! ## From the polygons to the lines -/

/-- Polygons with sides, all along the axes, on the grid; heights in order. -/
structure Squared (l : List Piece) : Prop where
  sided : ∀ x ∈ l, Sided x.points
  thick : ∀ x ∈ l, x.z.1 ≤ x.z.2
  coarse : ∀ x ∈ l, ∀ p ∈ x.points, OnCoarse p
  along : ∀ x ∈ l, Rectilinear x.points

/-- Each point of the segment, a side of the polygon of this number, is in another polygon that may hide it. -/
def HiddenBy (l : List Piece) (i : Nat) (x : Piece) (s : Segment) : Prop :=
  ∀ q, On s q → ∃ (j : Nat) (y : Piece), l[j]? = some y ∧ i ≠ j ∧ y.Over x ∧ Within y.points q

/-- The segment, a side of the polygon of this number, is strictly inside another polygon that may hide it, and strictly inside or away from
each such polygon. -/
def SunkBy (l : List Piece) (i : Nat) (x : Piece) (s : Segment) : Prop :=
  (∃ (j : Nat) (y : Piece), l[j]? = some y ∧ i ≠ j ∧ y.Over x ∧ ∀ q, On s q → Inside y.points q) ∧
  ∀ (j : Nat) (y : Piece), l[j]? = some y → i ≠ j → y.Over x → (∀ q, On s q → Inside y.points q) ∨ ∀ q, On s q → ¬ Within y.points q

/-- A coordinate asked for by what was added: a line, or a flat or upright side that is not sunk in other polygons. -/
def StandsOut (added : List Csx.Added) (axis : Geom.Axis) (c : ℚ) : Prop :=
  .line axis c ∈ added ∨ ∃ (i : Nat) (x : Piece), (pieces added)[i]? = some x ∧ ∃ k < x.points.length,
    StandsAt x.plane (sideAt x.points k) axis c ∧ ¬ SunkBy (pieces added) i x (sideAt x.points k)

theorem vertex_mem {points : List Point} (h : points ≠ []) (j : Nat) : vertex points j ∈ points := by
  unfold vertex
  have hj : j % points.length < points.length := Nat.mod_lt _ (List.length_pos_of_ne_nil h)
  rw [List.getElem?_eq_getElem hj]
  exact List.getElem_mem hj

theorem sideAt_mem {points : List Point} {k : Nat} (hk : k < points.length) :
    (sideAt points k).p0 ∈ points ∧ (sideAt points k).p1 ∈ points := by
  unfold sideAt
  exact ⟨vertex_mem (List.ne_nil_of_length_pos (by omega)) _, vertex_mem (List.ne_nil_of_length_pos (by omega)) _⟩

theorem squared_plan {l : List Piece} (h : Squared l) : Plan l where
  sided := h.sided
  thick := h.thick
  flat := fun x hx y hy _ i hi j hj _ _ => coarse_same ((coarse_pt true).1 (h.coarse x hx _ (sideAt_mem hi).1)).2
    ((coarse_pt true).1 (h.coarse y hy _ (sideAt_mem hj).1)).2
  upright := fun x hx y hy _ i hi j hj _ _ => coarse_same ((coarse_pt true).1 (h.coarse x hx _ (sideAt_mem hi).1)).1
    ((coarse_pt true).1 (h.coarse y hy _ (sideAt_mem hj).1)).1

theorem same_refl (E : Nat → BEdge) : SameButReverse E E := fun i => ⟨(E i).toReverse, rfl⟩

/-- The polygons made of such pieces are outlines. -/
theorem squared_outlines {angle : Ang → ℚ} {background : Option MaterialKind} {added : List Csx.Added} (hsq : Squared (pieces added))
    {parts : List Part} (hpieces : parts.map Part.piece = pieces added) (hparts : ∀ q ∈ parts, polygonEdges q.points = some q.edges) (p : Plane) :
    Outlines (assemble angle background added parts).input.P ((assemble angle background added parts).input.polygons p) := by
  have hmem : ∀ {i : Nat} {q : Part}, parts[i]? = some q → q.piece ∈ pieces added := fun h =>
    hpieces ▸ List.mem_map.2 ⟨_, List.mem_of_getElem? h, rfl⟩
  have hB := (plan_built (angle := angle) (background := background) (added := added) hparts (hpieces ▸ squared_plan hsq)
    (same_refl _)).1
  refine ⟨hB.sides p, ?_, ?_, hB.thick p⟩
  · intro a ha
    obtain ⟨q, hq, -⟩ := mem_polygons.1 ha
    rw [polygon_eq hq]
    exact hsq.coarse _ (hmem hq)
  · intro a ha
    obtain ⟨q, hq, -⟩ := mem_polygons.1 ha
    rw [polygon_eq hq]
    exact hsq.along _ (hmem hq)

/-- Each of their edges is to mesh. -/
theorem squared_mesh {angle : Ang → ℚ} {background : Option MaterialKind} {added : List Csx.Added} {parts : List Part}
    (hparts : ∀ q ∈ parts, polygonEdges q.points = some q.edges) {E : Nat → BEdge}
    (hE : SameButReverse (assemble angle background added parts).input.E E) :
    ∀ p, ∀ n ∈ (assemble angle background added parts).input.polygons p, ∀ e ∈ ((assemble angle background added parts).input.P n).edges,
      (E e.1).toMesh = true := by
  intro p n hn e he
  obtain ⟨q, hq, -⟩ := mem_polygons.1 hn
  obtain ⟨k, x, hx, rfl⟩ := (mem_polygon_edges hq).1 he
  obtain ⟨hk, -, -⟩ := (part_edges (hparts q (List.mem_of_getElem? hq))).2.2 k x hx
  obtain ⟨b, hb⟩ := hE (firstEdge parts n + k)
  show (E (firstEdge parts n + k)).toMesh = true
  rw [hb, edge_part hparts hq hk]

/-- C109. From polygons of any shape along the axes, on a grid of `1 / 2500`, of any material, the board is made and all the steps end,
without undefined behaviour. On every axis the lines increase, none is further than `dmax` from the next, and all are between coordinates
of added lines and of sides that are not sunk in polygons that may hide them; the policies left are apart, and the lines stand around them
as `Drawn` tells. Each line added has a policy near, and each side has one or is, all of it, in polygons that may hide it. -/
theorem C109_plan (S : Sorters) (sort : List (MaterialKind × Nat) → List (MaterialKind × Nat)) (g : MeshParams)
    (hg : g.InRange) (hl : 0 ≤ g.proximityLimit) (gz : ZoneParams) (angle : Ang → ℚ)
    (background : Option MaterialKind) {added : List Csx.Added} (hsq : Squared (pieces added)) (axis : Geom.Axis) :
    ∃ D E a, buildDesign angle background added = some D ∧ runDesign S sort g gz D axis = .ok (E, a) ∧
      Increasing a.meshlines ∧ GapsAtMost g.dmax a.meshlines ∧ a.Drawn g.proximityLimit (g.dmax / 2) ∧
      (∀ y ∈ a.meshlines, ∃ lo hi, StandsOut added axis lo ∧ StandsOut added axis hi ∧ lo ≤ y ∧ y ≤ hi) ∧
      (∀ c, .line axis c ∈ added → Reached g a c) ∧
      ∀ (i : Nat) (x : Piece), (pieces added)[i]? = some x → ∀ k < x.points.length, ∀ c, StandsAt x.plane (sideAt x.points k) axis c →
        Reached g a c ∨ HiddenBy (pieces added) i x (sideAt x.points k) := by
  obtain ⟨parts, hmake, hpieces, hparts⟩ := makeParts_pieces added fun x hx => (hsq.sided x hx).1
  set D := assemble angle background added parts with hD
  have hmp := @mem_polygons angle background added parts
  rw [← hD] at hmp
  obtain ⟨E0, hadj, hsame⟩ := adjustAll_same sort (D := D) fun p c hc => area_material hc
  obtain ⟨hB, -⟩ := plan_built hparts (hpieces ▸ squared_plan hsq) hsame
  have hrun : runDesign S sort g gz D axis = runSteps S g gz { D.input with E := E0 } axis := by
    unfold runDesign
    rw [hadj]
    rfl
  rw [← hD] at hB
  have hpiece : ∀ {i : Nat} {q : Part}, parts[i]? = some q → (pieces added)[i]? = some q.piece := by
    intro i q h
    rw [← hpieces, List.getElem?_map, h]
    rfl
  have hmem : ∀ {i : Nat} {q : Part}, parts[i]? = some q → q.piece ∈ pieces added := fun h => List.mem_of_getElem? (hpiece h)
  have hpoints : ∀ {i : Nat} {q : Part}, parts[i]? = some q → (D.input.P i).points = q.points := by
    intro i q h
    rw [polygon_eq h]
  have hhide : ∀ {i j : Nat} {q r : Part}, parts[i]? = some q → parts[j]? = some r → q.plane = r.plane →
      (Hides D.input.P j i ↔ i ≠ j ∧ r.piece.Over q.piece) := by
    intro i j q r hi hj hp
    unfold Hides
    rw [polygon_eq hi, polygon_eq hj]
    constructor
    · rintro ⟨h1, h2, h3⟩
      exact ⟨h1.symm, hp.symm, h2, h3⟩
    · rintro ⟨h1, -, h2, h3⟩
      exact ⟨h1.symm, h2, h3⟩
  have hin : ∀ {n : Nat} {e : Nat × Segment} {q : Part}, parts[n]? = some q → e ∈ (D.input.P n).edges →
      ∃ k < q.points.length, e = (firstEdge parts n + k, sideAt q.points k) := by
    intro n e q hq he
    obtain ⟨k, x, hx, rfl⟩ := (mem_polygon_edges hq).1 he
    obtain ⟨h1, h2, -⟩ := (part_edges (hparts q (List.mem_of_getElem? hq))).2.2 k x hx
    exact ⟨k, h1, by rw [h2]⟩
  have hto : ∀ {i k : Nat} {q : Part}, parts[i]? = some q → k < q.points.length →
      (firstEdge parts i + k, sideAt q.points k) ∈ (D.input.P i).edges := by
    intro i k q hq hk
    obtain ⟨-, hlen, hget⟩ := part_edges (hparts q (List.mem_of_getElem? hq))
    have hx : q.edges[k]? = some (q.edges[k]'(hlen ▸ hk)) := List.getElem?_eq_getElem _
    exact (mem_polygon_edges hq).2 ⟨k, _, hx, by rw [(hget k _ hx).2.1]⟩
  have hO := squared_outlines hsq hpieces hparts (angle := angle) (background := background)
  obtain ⟨E, a, hr, h1, h2, h3, h4, h5, h6⟩ := C109_board S g hg hl gz hB hO
    (squared_mesh hparts hsame) axis
  refine ⟨D, E, a, by unfold buildDesign; rw [hmake]; rfl, hrun.trans hr, h1, h2, h3, ?_, fun c hc => h6 c (Or.inl (mem_fixedLines.2 hc)), ?_⟩
  · have hw : ∀ x, Wanted { D.input with E := E0 } E axis x → StandsOut added axis x := by
      rintro x (hx | ⟨p, n, hn, e, he, hm, hfix⟩)
      · exact Or.inl (mem_fixedLines.1 hx)
      · obtain ⟨q, hq, rfl⟩ := hmp.1 hn
        obtain ⟨k, hk, rfl⟩ := hin hq he
        have hst := stands_of_fixed.1 hfix
        refine Or.inr ⟨n, _, hpiece hq, k, hk, hst, fun hsunk => ?_⟩
        have hlong : (sideAt q.points k).p0 ≠ (sideAt q.points k).p1 := by
          have ht : (0 : ℚ) < tolerance := by norm_num [tolerance]
          intro h
          rcases hst with ⟨h', -⟩ | ⟨h', -⟩
          · have := h'.2
            rw [h, sub_self, abs_zero] at this
            linarith
          · have := h'.2
            rw [h, sub_self, abs_zero] at this
            linarith
        rw [(h5 q.plane n hn _ he).2 hlong ?_] at hm
        · cases hm
        · obtain ⟨⟨j, y, hy, hij, hov, hi⟩, hall⟩ := hsunk
          rw [← hpieces, List.getElem?_map] at hy
          obtain ⟨r, hr, rfl⟩ := Option.map_eq_some_iff.1 hy
          constructor
          · refine ⟨j, hmp.2 ⟨r, hr, hov.1⟩, (hhide hq hr hov.1.symm).2 ⟨hij, hov⟩, ?_⟩
            show ∀ p, _ → Inside (D.input.P j).points p
            rw [hpoints hr]
            exact hi
          · intro b hb hh
            obtain ⟨r', hr', hp'⟩ := hmp.1 hb
            obtain ⟨h7, h8⟩ := (hhide hq hr' hp'.symm).1 hh
            show (∀ p, _ → Inside (D.input.P b).points p) ∨ ∀ p, _ → ¬ Within (D.input.P b).points p
            rw [hpoints hr']
            exact hall b _ (hpiece hr') h7 h8
    intro y hy
    obtain ⟨lo, hi, g1, g2, g3, g4⟩ := h4 y hy
    exact ⟨lo, hi, hw lo g1, hw hi g2, g3, g4⟩
  · intro i x hx k hk c hst
    rw [← hpieces, List.getElem?_map] at hx
    obtain ⟨q, hq, rfl⟩ := Option.map_eq_some_iff.1 hx
    have hn : i ∈ D.input.polygons q.plane := hmp.2 ⟨q, hq, rfl⟩
    have he := hto hq hk
    cases hm : (E (firstEdge parts i + k)).toMesh with
    | true => exact Or.inl (h6 c (Or.inr ⟨q.plane, i, hn, _, he, hm, stands_of_fixed.2 hst⟩))
    | false =>
      right
      intro p hp
      obtain ⟨b, hb, hh, hw⟩ := (h5 q.plane i hn _ he).1 hm p hp
      obtain ⟨r, hr, hp'⟩ := hmp.1 hb
      obtain ⟨h7, h8⟩ := (hhide hq hr hp'.symm).1 hh
      refine ⟨b, _, hpiece hr, h7, h8, ?_⟩
      have : Within (D.input.P b).points p := hw
      rwa [hpoints hr] at this

/-! ## From the file -/

/-- Coordinates are multiples of `1 / 2500`. -/
def OnCoarse3 (p : Csx.Point3) : Prop := Coarse p.x ∧ Coarse p.y ∧ Coarse p.z

/-- From one point to the other along one axis, or staying there. -/
def OneAxis (a b : Csx.Point3) : Prop := (a.y = b.y ∧ a.z = b.z) ∨ (a.z = b.z ∧ a.x = b.x) ∨ (a.x = b.x ∧ a.y = b.y)

/-- A shape seen as polygons along the axes, on the grid: boxes, as flat as one likes; polygons and prisms of such polygons that enclose
an area; wires along the axes; points. -/
def Tidy : Csx.Shape → Prop
  | .box a b => OnCoarse3 a ∧ OnCoarse3 b
  | .multibox starts ends => ∀ c ∈ starts.zip ends, OnCoarse3 c.1 ∧ OnCoarse3 c.2
  | .linpoly _ elevation length vertices =>
    signedArea vertices ≠ 0 ∧ (∀ p ∈ vertices, OnCoarse p) ∧ Rectilinear vertices ∧ Coarse elevation ∧ Coarse length
  | .polygon _ _ vertices => signedArea vertices ≠ 0 ∧ (∀ p ∈ vertices, OnCoarse p) ∧ Rectilinear vertices
  | .curve vertices => vertices ≠ [] ∧ (∀ p ∈ vertices, OnCoarse3 p) ∧ vertices.IsChain OneAxis
  | .point _ => True
  | .other => True
  | .sphere _ _ => False
  | .cylinder _ _ _ => False

theorem coarse_add {u v : ℚ} (hu : Coarse u) (hv : Coarse v) : Coarse (u + v) := by
  obtain ⟨i, rfl⟩ := hu
  obtain ⟨j, rfl⟩ := hv
  exact ⟨i + j, by push_cast; ring⟩

theorem coarse_mk {u v : ℚ} (hu : Coarse u) (hv : Coarse v) : OnCoarse ⟨u, v⟩ := by
  obtain ⟨i, rfl⟩ := hu
  obtain ⟨j, rfl⟩ := hv
  exact ⟨i, j, rfl, rfl⟩

theorem coarse_fan {o : Point} (ho : OnCoarse o) : ∀ {l : List Point}, (∀ p ∈ l, OnCoarse p) → ∃ n : ℤ, fan o l = n / 6250000
  | [], _ => ⟨0, by simp [fan]⟩
  | [_], _ => ⟨0, by simp [fan]⟩
  | a :: b :: rest, h => by
    obtain ⟨n, hn⟩ := coarse_fan ho (l := b :: rest) fun p hp => h p (List.mem_cons_of_mem _ hp)
    obtain ⟨i, j, h1, h2⟩ := ho
    obtain ⟨i', j', h3, h4⟩ := h a (by simp)
    obtain ⟨i'', j'', h5, h6⟩ := h b (by simp)
    refine ⟨(i' - i) * (j'' - j) - (j' - j) * (i'' - i) + n, ?_⟩
    rw [fan, hn]
    unfold orient
    rw [h1, h2, h3, h4, h5, h6]
    push_cast
    ring

theorem coarse_area {l : List Point} (h : ∀ p ∈ l, OnCoarse p) (ha : signedArea l ≠ 0) : 2 * tolerance ≤ |signedArea l| := by
  cases l with
  | nil => exact absurd rfl ha
  | cons a rest =>
    obtain ⟨n, hn⟩ := coarse_fan (h a (by simp)) (l := rest) fun p hp => h p (List.mem_cons_of_mem _ hp)
    have e : signedArea (a :: rest) = n / 6250000 := hn
    rw [e] at ha ⊢
    have hn0 : n ≠ 0 := fun h => ha (by rw [h]; simp)
    have h1 : (1 : ℚ) ≤ |(n : ℚ)| := by exact_mod_cast Int.one_le_abs hn0
    rw [abs_div, abs_of_pos (by norm_num : (0 : ℚ) < 6250000)]
    have ht : tolerance = 1 / 100000000 := rfl
    rw [ht, le_div_iff₀ (by norm_num)]
    linarith

theorem fan_flat {o : Point} {f : Point → ℚ} (hf : f = (·.x) ∨ f = (·.y)) : ∀ {l : List Point}, (∀ p ∈ l, f p = f o) → fan o l = 0
  | [], _ => rfl
  | [_], _ => rfl
  | a :: b :: rest, h => by
    rw [fan, fan_flat hf (l := b :: rest) fun p hp => h p (List.mem_cons_of_mem _ hp)]
    have h1 := h a (by simp)
    have h2 := h b (by simp)
    unfold orient
    rcases hf with rfl | rfl <;> dsimp only at h1 h2 <;> rw [h1, h2] <;> ring

/-- A closed line on the grid that encloses an area is wide. -/
theorem coarse_wide {l : List Point} (h : ∀ p ∈ l, OnCoarse p) (ha : signedArea l ≠ 0) {f : Point → ℚ} (hf : f = (·.x) ∨ f = (·.y)) :
    ∃ u ∈ l, ∃ w ∈ l, 1 / 5000 ≤ |f u - f w| := by
  cases l with
  | nil => exact absurd rfl ha
  | cons a rest =>
    by_contra hno
    push Not at hno
    refine ha (fan_flat hf fun p hp => ?_)
    have h1 := hno p (List.mem_cons_of_mem _ hp) a (by simp)
    have hc : ∀ q ∈ a :: rest, Coarse (f q) := by
      intro q hq
      obtain ⟨i, j, e1, e2⟩ := h q hq
      rcases hf with rfl | rfl
      · exact ⟨i, e1⟩
      · exact ⟨j, e2⟩
    exact (coarse_apart (hc p (List.mem_cons_of_mem _ hp)) (hc a (by simp))).resolve_right (not_le.2 h1)

theorem coarse_spread {a b : Point} (ha : OnCoarse a) (hb : OnCoarse b) : Spread a b := by
  have ht : (0 : ℚ) < tolerance := by norm_num [tolerance]
  obtain ⟨h1, h2⟩ := (coarse_pt true).1 ha
  obtain ⟨h3, h4⟩ := (coarse_pt true).1 hb
  rcases coarse_apart h3 h1 with h | h
  · refine Or.inl ?_
    change b.x = a.x at h
    rw [h, sub_self, abs_zero]
    exact ht
  rcases coarse_apart h4 h2 with h' | h'
  · refine Or.inr (Or.inl ?_)
    change b.y = a.y at h'
    rw [h', sub_self, abs_zero]
    exact ht
  · exact spread_of (le_trans (by norm_num) h) (le_trans (by norm_num) h')

theorem tidy_sizable {dirs : List Point} {s : Csx.Shape} (h : Tidy s) : Sizable dirs s := by
  have hbox : ∀ {a b : Csx.Point3}, OnCoarse3 a → OnCoarse3 b → SpreadBox a b := by
    rintro a b ⟨h1, h2, h3⟩ ⟨h4, h5, h6⟩
    exact ⟨coarse_spread (coarse_mk h2 h3) (coarse_mk h5 h6), coarse_spread (coarse_mk h3 h1) (coarse_mk h6 h4),
      coarse_spread (coarse_mk h1 h2) (coarse_mk h4 h5)⟩
  cases s with
  | box a b => exact hbox h.1 h.2
  | multibox ss es => exact fun c hc => hbox (h c hc).1 (h c hc).2
  | linpoly d e l v =>
    obtain ⟨h1, h2, -, -, h3⟩ := h
    refine ⟨coarse_area h2 h1, coarse_wide h2 h1 (Or.inl rfl), coarse_wide h2 h1 (Or.inr rfl), ?_⟩
    have := coarse_apart h3 (b := 0) ⟨0, by simp⟩
    simpa [Apart] using this
  | polygon d e v => exact coarse_area h.2.1 h.1
  | curve v => exact h.1
  | point p => trivial
  | other => trivial
  | sphere c r => exact h.elim
  | cylinder a b r => exact h.elim

/-- A closed line is along the axes when each point is along an axis from the one before. -/
theorem rectilinear_chain {l : List Point} (h : (l ++ l.head?.toList).IsChain fun a b => a.x = b.x ∨ a.y = b.y) : Rectilinear l := by
  cases l with
  | nil => intro e he; simp [ring] at he
  | cons a rest =>
    have key : ∀ (rest : List Point) (a o : Point), (a :: rest ++ [o]).IsChain (fun a b => a.x = b.x ∨ a.y = b.y) →
        ∀ e ∈ List.zipWith Segment.mk (a :: rest) (rest ++ [o]), e.p0.x = e.p1.x ∨ e.p0.y = e.p1.y := by
      intro rest
      induction rest with
      | nil =>
        intro a o hc e he
        simp only [List.nil_append, List.zipWith_cons_cons, List.zipWith_nil_left, List.mem_singleton] at he
        subst he
        simpa using hc
      | cons b rest ih =>
        intro a o hc e he
        simp only [List.cons_append, List.isChain_cons_cons] at hc
        rw [List.cons_append, List.zipWith_cons_cons, List.mem_cons] at he
        rcases he with rfl | he
        · exact hc.1
        · exact ih b o hc.2 e he
    exact key rest a a h

theorem rectilinear_box (a b : Point) : Rectilinear (boxPoints a b) :=
  rectilinear_chain (by simp [boxPoints])

theorem rectilinear_back {v : List Point} (h : v.IsChain fun a b => a.x = b.x ∨ a.y = b.y) : Rectilinear (Csx.backAndForth v) := by
  refine rectilinear_chain ?_
  cases v with
  | nil => simp [Csx.backAndForth]
  | cons a t =>
    rcases List.eq_nil_or_concat t with rfl | ⟨t', z, rfl⟩
    · simp [Csx.backAndForth]
    · have e : Csx.backAndForth (a :: t'.concat z) ++ (Csx.backAndForth (a :: t'.concat z)).head?.toList = (a :: t') ++ z :: (a :: t').reverse := by
        simp [Csx.backAndForth]
      rw [e, List.isChain_split]
      have h' : ((a :: t') ++ [z]).IsChain fun a b => a.x = b.x ∨ a.y = b.y := by simpa using h
      refine ⟨h', ?_⟩
      have h2 : (((a :: t') ++ [z]).reverse).IsChain fun a b => a.x = b.x ∨ a.y = b.y :=
        List.isChain_reverse.2 (h'.imp fun _ _ h => h.imp Eq.symm Eq.symm)
      simpa using h2

/-- What a polygon added needs. -/
def Neat : Csx.Added → Prop
  | .polygon _ _ _ _ points => (∀ p ∈ points, OnCoarse p) ∧ Rectilinear points
  | .line _ _ => True

theorem neat_box {plane : Plane} {m : MaterialKind} {n : Nat} {z0 z1 : ℚ} {a b : Point} (ha : OnCoarse a) (hb : OnCoarse b) :
    Neat (Csx.addBox plane m n z0 z1 a b) := by
  refine ⟨?_, rectilinear_box _ _⟩
  obtain ⟨h1, h2⟩ := (coarse_pt true).1 ha
  obtain ⟨h3, h4⟩ := (coarse_pt true).1 hb
  intro p hp
  simp only [boxPoints, List.mem_cons, List.not_mem_nil, or_false] at hp
  rcases hp with rfl | rfl | rfl | rfl
  · exact coarse_mk h1 h2
  · exact coarse_mk h1 h4
  · exact coarse_mk h3 h4
  · exact coarse_mk h3 h2

theorem neat_parseBox {f : Csx.Flags} {m : MaterialKind} {n : Nat} {a b : Csx.Point3} (ha : OnCoarse3 a) (hb : OnCoarse3 b) :
    ∀ x ∈ Csx.parseBox f m n a b, Neat x := by
  obtain ⟨h1, h2, h3⟩ := ha
  obtain ⟨h4, h5, h6⟩ := hb
  intro x hx
  unfold Csx.parseBox at hx
  simp only [List.mem_append] at hx
  rcases hx with (hx | hx) | hx <;> rw [mem_when hx]
  · exact neat_box (coarse_mk h2 h3) (coarse_mk h5 h6)
  · exact neat_box (coarse_mk h3 h1) (coarse_mk h6 h4)
  · exact neat_box (coarse_mk h1 h2) (coarse_mk h4 h5)

theorem coarse_bounding {v : List Point} (h : ∀ p ∈ v, OnCoarse p) {b : Bounding} (hb : detectBounding v = some b) :
    Coarse b.xmin ∧ Coarse b.xmax ∧ Coarse b.ymin ∧ Coarse b.ymax := by
  have hx : ∀ p ∈ v, Coarse p.x ∧ Coarse p.y := fun p hp => (coarse_pt true).1 (h p hp)
  unfold detectBounding at hb
  obtain ⟨p, hp, rfl⟩ := Option.map_eq_some_iff.1 hb
  have hpv : p ∈ v := List.mem_of_mem_head? hp
  obtain ⟨-, -, h1, h2, h3, h4⟩ := detectBounding_spec ⟨p.x, p.x, p.y, p.y⟩ ⟨le_rfl, le_rfl⟩ v
  refine ⟨?_, ?_, ?_, ?_⟩
  · rcases h1 with h | ⟨q, hq, h⟩
    · rw [h]; exact (hx p hpv).1
    · rw [← h]; exact (hx q hq).1
  · rcases h2 with h | ⟨q, hq, h⟩
    · rw [h]; exact (hx p hpv).1
    · rw [← h]; exact (hx q hq).1
  · rcases h3 with h | ⟨q, hq, h⟩
    · rw [h]; exact (hx p hpv).2
    · rw [← h]; exact (hx q hq).2
  · rcases h4 with h | ⟨q, hq, h⟩
    · rw [h]; exact (hx p hpv).2
    · rw [← h]; exact (hx q hq).2

theorem coarse_back {v : List Point} (h : ∀ p ∈ v, OnCoarse p) : ∀ p ∈ Csx.backAndForth v, OnCoarse p := by
  intro p hp
  unfold Csx.backAndForth at hp
  rcases List.mem_append.1 hp with hp | hp
  · exact h p hp
  · exact h p (List.mem_of_mem_drop (List.mem_reverse.1 (List.mem_of_mem_drop hp)))

theorem neat_primitive {f : Csx.Flags} {dirs : List Point} {m : MaterialKind} {q : Csx.Primitive} {added : List Csx.Added}
    (hs : q.transformed = false → Tidy q.shape) (h : Csx.parsePrimitive f dirs m q = some added) : ∀ x ∈ added, Neat x := by
  unfold Csx.parsePrimitive at h
  split_ifs at h with ht
  · obtain rfl := Option.some.inj h
    simp
  replace hs := hs (by simpa using ht)
  generalize hn : Csx.parsePriority m q.priority = n at h
  cases hq : q.shape with
  | box a b =>
    rw [hq] at hs h
    obtain rfl := Option.some.inj h
    exact neat_parseBox hs.1 hs.2
  | multibox ss es =>
    rw [hq] at hs h
    obtain rfl := Option.some.inj h
    intro x hx
    unfold Csx.parseMultibox at hx
    obtain ⟨c, hc, hx⟩ := List.mem_flatMap.1 hx
    exact neat_parseBox (hs c hc).1 (hs c hc).2 x hx
  | linpoly d e l v =>
    rw [hq] at hs h
    obtain ⟨-, h1, h2, h3, h4⟩ := hs
    dsimp only at h
    unfold Csx.parseLinpoly at h
    cases hd : Csx.toPlane d with
    | none =>
      rw [hd] at h
      obtain rfl := Option.some.inj h
      simp
    | some plane =>
      rw [hd] at h
      obtain ⟨b, hb, rfl⟩ := Option.map_eq_some_iff.1 h
      obtain ⟨b1, b2, b3, b4⟩ := coarse_bounding h1 hb
      have h5 := coarse_add h3 h4
      intro x hx
      rcases List.mem_cons.1 hx with rfl | hx
      · exact ⟨h1, h2⟩
      · by_cases hl : l = 0
        · rw [if_pos hl] at hx
          simp at hx
        rw [if_neg hl] at hx
        cases plane <;> simp only [List.mem_append] at hx <;> rcases hx with hx | hx <;> rw [mem_when hx] <;>
          first | exact neat_box (coarse_mk b3 h3) (coarse_mk b4 h5) | exact neat_box (coarse_mk h3 b1) (coarse_mk h5 b2)
  | polygon d e v =>
    rw [hq] at hs h
    dsimp only at h
    unfold Csx.parsePolygon at h
    split at h
    · obtain ⟨b, hb, rfl⟩ := Option.map_eq_some_iff.1 h
      intro x hx
      simp only [List.mem_cons, List.not_mem_nil, or_false] at hx
      rcases hx with rfl | rfl
      · exact ⟨hs.2.1, hs.2.2⟩
      · trivial
    · obtain rfl := Option.some.inj h
      simp
  | sphere c r =>
    rw [hq] at hs
    exact hs.elim
  | cylinder a b r =>
    rw [hq] at hs
    exact hs.elim
  | point p =>
    rw [hq] at h
    obtain rfl := Option.some.inj h
    intro x hx
    unfold Csx.parsePoint at hx
    simp only [List.mem_append] at hx
    rcases hx with (hx | hx) | hx <;> split_ifs at hx <;> simp only [List.mem_cons, List.not_mem_nil, or_false] at hx <;>
      rcases hx with rfl | rfl <;> trivial
  | curve v =>
    rw [hq] at hs h
    obtain ⟨-, h1, h2⟩ := hs
    dsimp only at h
    unfold Csx.parseCurve at h
    have hg : ∀ {flag : Bool} {o : Option Csx.Added} {l : List Csx.Added}, Csx.guarded flag o = some l → (∀ y, o = some y → Neat y) →
        ∀ x ∈ l, Neat x := by
      intro flag o l h ho x hx
      unfold Csx.guarded at h
      split_ifs at h
      · obtain ⟨y, hy, rfl⟩ := Option.map_eq_some_iff.1 h
        rw [List.mem_singleton.1 hx]
        exact ho y hy
      · obtain rfl := Option.some.inj h
        simp at hx
    have hc : ∀ (plane : Plane) (depth : Csx.Point3 → ℚ) (proj : Csx.Point3 → Point) (y : Csx.Added),
        (∀ p, OnCoarse3 p → OnCoarse (proj p)) → (∀ p p', OneAxis p p' → (proj p).x = (proj p').x ∨ (proj p).y = (proj p').y) →
        Csx.curveOn plane m depth proj v = some y → Neat y := by
      intro plane depth proj y hp1 hp2 hy
      unfold Csx.curveOn at hy
      obtain ⟨z, -, rfl⟩ := Option.map_eq_some_iff.1 hy
      refine ⟨coarse_back ?_, rectilinear_back ?_⟩
      · intro p hp
        obtain ⟨p', hp', rfl⟩ := List.mem_map.1 hp
        exact hp1 p' (h1 p' hp')
      · rw [List.isChain_map]
        exact h2.imp hp2
    simp only [Option.bind_eq_some_iff, Option.map_eq_some_iff] at h
    obtain ⟨l1, e1, l2, e2, l3, e3, rfl⟩ := h
    intro x hx
    rcases List.mem_append.1 hx with hx | hx
    · rcases List.mem_append.1 hx with hx | hx
      · exact hg e1 (fun y => hc _ _ _ y (fun p h => coarse_mk h.2.1 h.2.2) fun p p' h => by
          rcases h with h | h | h
          · exact Or.inl h.1
          · exact Or.inr h.1
          · exact Or.inl h.2) x hx
      · exact hg e2 (fun y => hc _ _ _ y (fun p h => coarse_mk h.2.2 h.1) fun p p' h => by
          rcases h with h | h | h
          · exact Or.inl h.2
          · exact Or.inl h.1
          · exact Or.inr h.1) x hx
    · exact hg e3 (fun y => hc _ _ _ y (fun p h => coarse_mk h.1 h.2.1) fun p p' h => by
          rcases h with h | h | h
          · exact Or.inr h.1
          · exact Or.inl h.2
          · exact Or.inl h.1) x hx
  | other =>
    rw [hq] at h
    obtain rfl := Option.some.inj h
    simp

/-- C109, from the file. The shapes of a file that are along the axes, on the grid, make polygons as `C109_plan` wants them. -/
theorem C109_file {f : Csx.Flags} {dirs : List Point} {props : List Csx.Property} {added : List Csx.Added}
    (h : Csx.parseProperties f dirs props = some added)
    (hs : ∀ p ∈ props, Csx.parseProperty p.kind ≠ none → ∀ q ∈ p.primitives, q.transformed = false → Tidy q.shape) :
    Squared (pieces added) := by
  have hsided := C85_sided h fun p hp hk q hq ht => tidy_sizable (hs p hp hk q hq ht)
  have hneat : ∀ x ∈ pieces added, (∀ p ∈ x.points, OnCoarse p) ∧ Rectilinear x.points := by
    intro x hx
    unfold pieces at hx
    obtain ⟨y, hy, hxy⟩ := List.mem_filterMap.1 hx
    obtain ⟨p, hp, k, hk, q, hq, l, hl, hyl⟩ := Csx.parseProperties_mem h hy
    have := neat_primitive (hs p hp (by rw [hk]; simp) q hq) hl y hyl
    cases y with
    | line => simp at hxy
    | polygon plane m n z points =>
      obtain rfl := Option.some.inj hxy
      exact this
  exact ⟨fun x hx => (hsided x hx).1, fun x hx => (hsided x hx).2, fun x hx => (hneat x hx).1, fun x hx => (hneat x hx).2⟩

/-- A small box in a bracket, a sheet, a wire, and a point. -/
def squaredFile : List Csx.Property :=
  [⟨.material 4 1 0, [⟨false, 0, .box ⟨1 / 4, 1 / 4, 1 / 4⟩ ⟨1 / 2, 1 / 2, 1 / 2⟩⟩]⟩,
    ⟨.metal, [⟨false, 5, .linpoly 2 0 1 bracket⟩, ⟨false, 5, .box ⟨4, 0, 1⟩ ⟨6, 2, 1⟩⟩, ⟨true, 0, .sphere ⟨0, 0, 0⟩ 1⟩]⟩,
    ⟨.probeBox, [⟨false, 0, .curve [⟨8, 0, 0⟩, ⟨8, 0, 2⟩, ⟨8, 3, 2⟩]⟩, ⟨false, 0, .point ⟨5, 5, 5⟩⟩]⟩]

/-- What is made of it. -/
def squaredAdded : List Csx.Added := (Csx.parseProperties {} [] squaredFile).getD []

theorem squaredFile_tidy : ∀ p ∈ squaredFile, Csx.parseProperty p.kind ≠ none → ∀ q ∈ p.primitives, q.transformed = false → Tidy q.shape := by
  have c : ∀ n : ℤ, Coarse n := fun n => ⟨2500 * n, by push_cast; ring⟩
  have c4 : Coarse (1 / 4) := ⟨625, by norm_num⟩
  have c2 : Coarse (1 / 2) := ⟨1250, by norm_num⟩
  have n0 : Coarse 0 := by exact_mod_cast c 0
  have n1 : Coarse 1 := by exact_mod_cast c 1
  have n2 : Coarse 2 := by exact_mod_cast c 2
  have n3 : Coarse 3 := by exact_mod_cast c 3
  have n4 : Coarse 4 := by exact_mod_cast c 4
  have n6 : Coarse 6 := by exact_mod_cast c 6
  have n8 : Coarse 8 := by exact_mod_cast c 8
  intro p hp _ q hq ht
  fin_cases hp <;> fin_cases hq
  · exact ⟨⟨c4, c4, c4⟩, ⟨c2, c2, c2⟩⟩
  · exact ⟨by decide +kernel, bracket_coarse, bracket_along, n0, n1⟩
  · exact ⟨⟨n4, n0, n1⟩, ⟨n6, n2, n1⟩⟩
  · simp at ht
  · refine ⟨by simp, ?_, ?_⟩
    · intro p hp
      simp only [List.mem_cons, List.not_mem_nil, or_false] at hp
      rcases hp with rfl | rfl | rfl
      · exact ⟨n8, n0, n0⟩
      · exact ⟨n8, n0, n2⟩
      · exact ⟨n8, n3, n2⟩
    · simp [OneAxis]
  · trivial

/-- The shapes of the file are along the axes; a side of the small box is sunk in the bracket, a side of the sheet stands out. -/
example : Csx.parseProperties {} [] squaredFile = some squaredAdded ∧ (⟨1 / 2, 2, 1, 1⟩ : MeshParams).InRange ∧
    (∀ p ∈ squaredFile, Csx.parseProperty p.kind ≠ none → ∀ q ∈ p.primitives, q.transformed = false → Tidy q.shape) ∧
    (∃ x, (pieces squaredAdded)[2]? = some x ∧ StandsAt x.plane (sideAt x.points 1) .x (1 / 4) ∧
      SunkBy (pieces squaredAdded) 2 x (sideAt x.points 1)) ∧
    StandsOut squaredAdded .x 4 ∧ .line .x 5 ∈ squaredAdded := by
  have hlen : (pieces squaredAdded).length = 12 := by decide +kernel
  have hin : ∀ q, On (sideAt (boxPoints ⟨1 / 4, 1 / 4⟩ ⟨1 / 2, 1 / 2⟩) 1) q → Inside bracket q := by
    rintro q ⟨t, t0, t1, hx, hy⟩
    have e : sideAt (boxPoints ⟨1 / 4, 1 / 4⟩ ⟨1 / 2, 1 / 2⟩) 1 = ⟨⟨1 / 4, 1 / 4⟩, ⟨1 / 4, 1 / 2⟩⟩ := by decide +kernel
    rw [e] at hx hy
    simp only at hx hy
    exact bracket_low q (by linarith) (by linarith) (by linarith) (by linarith)
  refine ⟨by decide +kernel, ⟨by norm_num, by norm_num⟩, squaredFile_tidy,
    ⟨⟨.xy, 0, (1 / 4, 1 / 2), boxPoints ⟨1 / 4, 1 / 4⟩ ⟨1 / 2, 1 / 2⟩⟩, by decide +kernel, Or.inl (by decide +kernel), ?_, ?_⟩, ?_, by decide +kernel⟩
  · exact ⟨3, ⟨.xy, 5, (0, 1), bracket⟩, by decide +kernel, by decide, ⟨rfl, by decide, 1 / 4, by decide +kernel⟩, hin⟩
  · intro j y hy hij ⟨h1, h2, z, h3, h4, h5, h6⟩
    have hall : ∀ j < 12, 2 ≠ j → ∀ y ∈ (pieces squaredAdded)[j]?.toList,
        decide (y.plane = .xy ∧ y.z.1 ≤ 1 / 2 ∧ 1 / 4 ≤ y.z.2 → y.points = bracket) = true := by decide +kernel
    have := of_decide_eq_true (hall j (hlen ▸ (List.getElem?_eq_some_iff.1 hy).1) hij y (by simp [hy])) ⟨h1, h5.trans h4, h3.trans h6⟩
    left
    rw [this]
    exact hin
  · refine Or.inr ⟨8, ⟨.xy, 5, (1, 1), boxPoints ⟨4, 0⟩ ⟨6, 2⟩⟩, by decide +kernel, 1, by decide, Or.inl (by decide +kernel), ?_⟩
    rintro ⟨⟨j, y, hy, hij, ⟨h1, h2, z, h3, h4, h5, h6⟩, hall'⟩, -⟩
    have hall : ∀ j < 12, 8 ≠ j → ∀ y ∈ (pieces squaredAdded)[j]?.toList,
        decide (y.plane = .xy ∧ y.z.1 ≤ 1 ∧ 1 ≤ y.z.2 ∧ 5 ≤ y.priority → y.points = bracket) = true := by decide +kernel
    have := of_decide_eq_true (hall j (hlen ▸ (List.getElem?_eq_some_iff.1 hy).1) hij y (by simp [hy])) ⟨h1, h5.trans h4, h3.trans h6, h2⟩
    rw [this] at hall'
    have h7 := hall' ⟨4, 1 / 2⟩ ⟨1 / 4, by norm_num, by norm_num, by decide +kernel, by decide +kernel⟩
    have h8 : ¬ Inside bracket ⟨4, 1 / 2⟩ := fun h => by
      have := (bracket_relation (q := ⟨4, 1 / 2⟩) (r := .outside) ⟨20000, 2500, by norm_num, by norm_num⟩ rfl rfl
        (by rw [relationToPoint.loop]; decide +kernel)).2.2 h
      cases this
    exact h8 h7

/-- A board of such polygons. -/
example : ∃ parts : List Part, makeParts squaredAdded = some parts ∧
    ∀ B, B = (assemble (fun _ => 0) none squaredAdded parts).input → Built B ∧ (∀ p, Outlines B.P (B.polygons p)) ∧
      ∀ p, ∀ a ∈ B.polygons p, ∀ e ∈ (B.P a).edges, (B.E e.1).toMesh = true := by
  have hsq : Squared (pieces squaredAdded) := C109_file (f := {}) (dirs := []) (props := squaredFile) (by decide +kernel) squaredFile_tidy
  obtain ⟨parts, hmake, hpieces, hparts⟩ := makeParts_pieces squaredAdded fun x hx => (hsq.sided x hx).1
  refine ⟨parts, hmake, ?_⟩
  rintro B rfl
  exact ⟨(plan_built (E := (assemble (fun _ => 0) none squaredAdded parts).input.E) hparts (hpieces ▸ squared_plan hsq) (same_refl _)).1, squared_outlines hsq hpieces hparts,
    squared_mesh hparts (same_refl _)⟩

end Verif.Board
