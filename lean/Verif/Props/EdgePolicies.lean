import Verif.Lemmas.EdgePolicies
import Verif.Props.Conflict

/-!
# Theorems about the policies made for edges
-/

namespace Verif.Board
open Verif.Geom
open Verif.Mesh (Kind Facing Sorter tolerance)
open Spec

/-! ## C54 -/

/-- The segment moved by twice the tolerance to the side. -/
def shifted (e : BEdge) : Segment :=
  ⟨⟨e.seg.p0.x + 2 * tolerance * (Geom.Spec.unit e.side).x, e.seg.p0.y + 2 * tolerance * (Geom.Spec.unit e.side).y⟩,
    ⟨e.seg.p1.x + 2 * tolerance * (Geom.Spec.unit e.side).x, e.seg.p1.y + 2 * tolerance * (Geom.Spec.unit e.side).y⟩⟩

/-- The smallest box with the segment. -/
def boxOf (s : Segment) : Bounding :=
  ⟨min s.p0.x s.p1.x, max s.p0.x s.p1.x, min s.p0.y s.p1.y, max s.p0.y s.p1.y⟩

/-- An edge of a polygon with a material is reversed when the material found just outside has a higher kind: that of a
polygon of highest priority, and highest kind among those, or the background. -/
theorem C54_reversed {sort : List (MaterialKind × Nat) → List (MaterialKind × Nat)}
    (hperm : ∀ l, (sort l).Perm l) (hsorted : ∀ l, (sort l).Pairwise fun a b => ambientLess b a = false)
    (P : Nat → BPolygon) (polygons : List Nat) (background : Option MaterialKind) {c : Nat} {e : BEdge}
    {inner : MaterialKind} (hin : (P c).material = some inner)
    (hside : e.side = .xmin ∨ e.side = .xmax ∨ e.side = .ymin ∨ e.side = .ymax) :
    ∃ b, adjustEdge sort P polygons background c e = some b ∧
      ((¬ ∃ i ∈ polygons, Around P (boxOf (shifted e)) (some c) i) →
        (b = true ↔ e.toReverse = true ∨ ∃ m, background = some m ∧ rank inner < rank m)) ∧
      ((∃ i ∈ polygons, Around P (boxOf (shifted e)) (some c) i) →
        ∃ i ∈ polygons, ∃ m, Around P (boxOf (shifted e)) (some c) i ∧ (P i).material = some m ∧
          (b = true ↔ e.toReverse = true ∨ rank inner < rank m) ∧
          ∀ j ∈ polygons, ∀ n, Around P (boxOf (shifted e)) (some c) j → (P j).material = some n →
            (P j).priority < (P i).priority ∨ ((P j).priority = (P i).priority ∧ rank n ≤ rank m)) := by
  have hout : outside e = some (shifted e) := by
    unfold outside shifted
    rcases hside with h | h | h | h <;> rw [h] <;> simp [Geom.Spec.unit, sub_eq_add_neg]
  have hbox : (shifted e).bounding = boxOf (shifted e) := segment_bounding_min_max _
  obtain ⟨a1, a2⟩ := C40_ambient hperm hsorted P polygons background (boxOf (shifted e)) (some c)
  unfold adjustEdge
  rw [hout]
  simp only [hbox, hin]
  by_cases h : ∃ i ∈ polygons, Around P (boxOf (shifted e)) (some c) i
  · obtain ⟨i, hi, m, g1, g2, g3, g4⟩ := a2 h
    rw [g3]
    refine ⟨_, rfl, fun h' => absurd h h', fun _ => ⟨i, hi, m, g1, g2, ?_, g4⟩⟩
    split_ifs with hr
    · simp [(cmp_gt_iff _ _).1 hr]
    · simp [mt (cmp_gt_iff _ _).2 hr]
  · rw [a1 h]
    cases background with
    | none => exact ⟨_, rfl, fun _ => by simp, fun h' => absurd h' h⟩
    | some m =>
      refine ⟨_, rfl, fun _ => ?_, fun h' => absurd h' h⟩
      split_ifs with hr
      · simp [(cmp_gt_iff _ _).1 hr]
      · simp [mt (cmp_gt_iff _ _).2 hr]

/-- A dielectric beside a conductor: the edge facing it is reversed, the others are not. -/
example : ∃ P : Nat → BPolygon,
    (P 0).material = some .dielectric ∧
    (let sort := List.insertionSort (fun a b => ambientLess b a = false);
      adjustEdge sort P [0, 1] (some .air) 0 ⟨.xy, ⟨⟨1, 0⟩, ⟨1, 1⟩⟩, .xmax, true, false⟩ = some true ∧
      adjustEdge sort P [0, 1] (some .air) 0 ⟨.xy, ⟨⟨0, 0⟩, ⟨0, 1⟩⟩, .xmin, true, false⟩ = some false) :=
  ⟨fun i => if i = 0 then ⟨[], ⟨0, 1, 0, 1⟩, 0, 1, 0, some .dielectric⟩ else ⟨[], ⟨1, 2, 0, 1⟩, 0, 1, 0, some .conductor⟩,
    by decide +kernel⟩

/-! ## C56 -/

/-- The edges of a box, by number. -/
def boxEdges (p1 p3 : Point) : Nat → BEdge := fun i =>
  match (polygonEdges (boxPoints p1 p3)).bind (·[i]?) with
  | some e => ⟨.xy, e.seg, e.normal.getD .none, true, false⟩
  | none => ⟨.xy, ⟨p1, p1⟩, .none, true, false⟩

/-- The side of an edge is found from an area compared with the tolerance: a box of a tenth of a millimetre by 35
micrometres, in metres, has edges without side, and gets no policy at all. -/
theorem C56_false : ∃ p1 p3 : Point,
    (∀ i ∈ [0, 1, 2, 3], (boxEdges p1 p3 i).toMesh = true ∧
      (Horizontal (boxEdges p1 p3 i).seg ∨ Vertical (boxEdges p1 p3 i).seg)) ∧
    ∀ axis, edgePolicies (boxEdges p1 p3) .xy (detectColinear (boxEdges p1 p3) .xy (fun _ => []) [0, 1, 2, 3])
      [0, 1, 2, 3] axis = some [] := by
  refine ⟨⟨0, 0⟩, ⟨1 / 10000, 35 / 1000000⟩, ?_, ?_⟩
  · unfold Horizontal Vertical
    decide +kernel
  · intro axis
    cases axis <;> decide +kernel

/-- The axis whose coordinate is fixed along an edge, and that coordinate. -/
inductive Fixed : Plane → Segment → Geom.Axis → ℚ → Prop
  | h_yz {s} (h : Horizontal s) : Fixed .yz s .z s.p0.y
  | v_yz {s} (h : Vertical s) : Fixed .yz s .y s.p0.x
  | h_zx {s} (h : Horizontal s) : Fixed .zx s .x s.p0.y
  | v_zx {s} (h : Vertical s) : Fixed .zx s .z s.p0.x
  | h_xy {s} (h : Horizontal s) : Fixed .xy s .y s.p0.y
  | v_xy {s} (h : Vertical s) : Fixed .xy s .x s.p0.x

theorem Fixed.model {plane : Plane} {e : BEdge} {axis : Geom.Axis} {coord : ℚ} (h : Fixed plane e.seg axis coord) :
    transposeSeg plane e.axis = some axis ∧ segCoord e.seg.p0 e.axis = some coord := by
  generalize hs : e.seg = s at h
  have hax : e.axis = s.axis := by unfold BEdge.axis; rw [hs]
  rw [hax]
  cases h with
  | h_yz h => rw [horizontal_iff.1 h]; exact ⟨rfl, rfl⟩
  | v_yz h => rw [vertical_iff.1 h]; exact ⟨rfl, rfl⟩
  | h_zx h => rw [horizontal_iff.1 h]; exact ⟨rfl, rfl⟩
  | v_zx h => rw [vertical_iff.1 h]; exact ⟨rfl, rfl⟩
  | h_xy h => rw [horizontal_iff.1 h]; exact ⟨rfl, rfl⟩
  | v_xy h => rw [vertical_iff.1 h]; exact ⟨rfl, rfl⟩

/-- Once colinear edges and the remaining edges of a plane are handled, each edge to mesh has a policy on the axis it
fixes, at its coordinate up to the tolerance, if it has a side or shares its line with another edge. What is missing:
edges alone on their line without side (see `C56_false`), and edges so close that the tolerance is not transitive. -/
theorem C56_partial {E : Nat → BEdge} {plane : Plane} {edges : List Nat} {s : Colinear}
    (hplane : ∀ j ∈ edges, (E j).plane = plane) (hnd : edges.Nodup)
    (hnew : ∀ axis, ∀ c ∈ s axis, ∀ x ∈ c, x ∉ edges) (hs : ∀ axis, ∀ c ∈ s axis, c ≠ [])
    (htrans : ∀ a ∈ edges, ∀ b ∈ edges, ∀ c ∈ edges, SameLine (E a).seg (E b).seg → SameLine (E b).seg (E c).seg →
      SameLine (E a).seg (E c).seg)
    {i : Nat} (hi : i ∈ edges) (hmesh : (E i).toMesh = true) {axis : Geom.Axis} {coord : ℚ}
    (hfix : Fixed plane (E i).seg axis coord)
    (hside : (E i).side ≠ .none ∨ ∃ j ∈ edges, j ≠ i ∧ SameLine (E i).seg (E j).seg) :
    ∃ policies, edgePolicies E plane (detectColinear E plane s edges) edges axis = some policies ∧
      ∃ p ∈ policies, |p.2.2 - coord| < tolerance := by
  obtain ⟨hta, htc⟩ := hfix.model
  have g := fun w => detectColinear_grouped w (s := s) hplane hnd (hnew w) htrans
  obtain ⟨hshare, -, -⟩ := C30_partial hplane hnd hnew htrans
  have hne : ∀ w, ∀ c ∈ detectColinear E plane s edges w, c ≠ [] := by
    intro w
    rw [detectColinear_axis w edges s hplane]
    exact pairsAll_ne_nil edges _ (hs w) hnd
  obtain ⟨solved, hsolved, hall⟩ := mapM_some (fun c => solveColinear (c.map E)) (detectColinear E plane s edges axis)
    (fun c hc => solveColinear_defined (by simpa using hne axis c hc))
  unfold edgePolicies
  rw [hsolved]
  refine ⟨_, rfl, ?_⟩
  by_cases hj : ∃ w, ∃ c ∈ detectColinear E plane s edges w, i ∈ c
  · -- the edge is in a conflict
    obtain ⟨w, c, hc, hic⟩ := hj
    have hin : (∀ x ∈ c, x ∈ edges) ∧ ∀ x ∈ c, ∀ y ∈ c, handed E plane w x y = true := by
      rcases (g w).inside c hc with h' | ⟨h1, -, h2, -⟩
      · exact absurd hi (h' i hic)
      · exact ⟨h1, h2⟩
    have hw : w = axis := by
      have := (handed_iff.1 (hin.2 i hic i hic)).1
      rw [hta] at this
      exact (Option.some.inj this).symm
    subst hw
    cases c with
    | nil => simp at hic
    | cons f rest =>
      have hfi := (handed_iff.1 (hin.2 f (by simp) i hic)).2
      have hfc : ∃ cf, segCoord (E f).seg.p0 (E f).axis = some cf ∧ |cf - coord| < tolerance := by
        rcases hfi with ⟨h1, h2, h3⟩ | ⟨h1, h2, h3⟩
        · have e1 : (E f).axis = .h := horizontal_iff.1 h1
          have e2 : (E i).axis = .h := horizontal_iff.1 h2
          rw [e2] at htc
          rw [e1]
          exact ⟨_, rfl, by rw [← Option.some.inj htc]; exact h3⟩
        · have e1 : (E f).axis = .v := vertical_iff.1 h1
          have e2 : (E i).axis = .v := vertical_iff.1 h2
          rw [e2] at htc
          rw [e1]
          exact ⟨_, rfl, by rw [← Option.some.inj htc]; exact h3⟩
      obtain ⟨cf, hcf, hnear⟩ := hfc
      obtain ⟨kind, side, hsol, hacc⟩ := solveColinear_accepted (rest := rest.map E) hcf
        ⟨E i, by rw [← List.map_cons]; exact List.mem_map_of_mem hic, hmesh⟩
      obtain ⟨b, hb, e⟩ := hall _ hc
      rw [List.map_cons, hsol] at e
      obtain rfl := Option.some.inj e
      refine ⟨(kind, side, cf), ?_, hnear⟩
      rw [List.mem_filter]
      exact ⟨List.mem_append_left _ (List.mem_filterMap.2 ⟨_, hb, rfl⟩), hacc⟩
  · -- the edge is alone
    have hnone : ([Geom.Axis.x, .y, .z].any fun w => (detectColinear E plane s edges w).any fun c => c.contains i)
        = false := by
      rw [← Bool.not_eq_true]
      intro h
      obtain ⟨w, -, h⟩ := List.any_eq_true.1 h
      obtain ⟨c, hc, h⟩ := List.any_eq_true.1 h
      exact hj ⟨w, c, hc, by simpa using h⟩
    have hsd : (E i).side ≠ .none := by
      rcases hside with h | ⟨j, hj', hji, hl⟩
      · exact h
      · obtain ⟨w, c, hc, h1, -⟩ := (hshare i hi j hj' (Ne.symm hji)).2 hl
        exact absurd ⟨w, c, hc, h1⟩ hj
    refine ⟨(.thirds, castNormal (E i).normal, coord), ?_, by simp [tolerance_pos]⟩
    rw [List.mem_filter]
    constructor
    · refine List.mem_append_right _ (List.mem_filterMap.2 ⟨i, hi, ?_⟩)
      unfold individual
      rw [htc, hta]
      simp only [hnone, hmesh, and_self, if_true]
    · rw [castNormal_eq]
      unfold BEdge.normal
      revert hsd
      cases (E i).side <;> cases (E i).toReverse <;> simp [accepted, facing, Normal.reverse]

/-- A box sharing a line with another edge. -/
example : (let E : Nat → BEdge := fun i => if i = 4 then ⟨.xy, ⟨⟨0, 5⟩, ⟨9, 5⟩⟩, .ymin, true, false⟩ else boxEdges ⟨0, 0⟩ ⟨3, 5⟩ i;
    edgePolicies E .xy (detectColinear E .xy (fun _ => []) [0, 1, 2, 3, 4]) [0, 1, 2, 3, 4] .y
      = some [(.halfs, .none, 5), (.thirds, .min, 0)] ∧
    Horizontal (E 4).seg ∧ Vertical (E 1).seg ∧ (∀ a ∈ [0, 1, 2, 3, 4], ∀ b ∈ [0, 1, 2, 3, 4], ∀ c ∈ [0, 1, 2, 3, 4],
      SameLine (E a).seg (E b).seg → SameLine (E b).seg (E c).seg → SameLine (E a).seg (E c).seg)) := by
  unfold SameLine Horizontal Vertical
  decide +kernel

theorem countFacing_unmeshed : ∀ (l : List BEdge) (min max : Nat), (∀ e ∈ l, e.toMesh = false) →
    countFacing l min max = (false, min, max)
  | [], _, _, _ => rfl
  | e :: rest, min, max, h => by
    rw [countFacing, if_neg (by simp [h e (by simp)])]
    exact countFacing_unmeshed rest min max fun e he => h e (by simp [he])

theorem solveColinear_source {l : List BEdge} {p : Kind × Facing × ℚ} (h : solveColinear l = some (some p)) :
    (∃ front ∈ l, segCoord front.seg.p0 front.axis = some p.2.2) ∧ ∃ e ∈ l, e.toMesh = true := by
  cases l with
  | nil => simp [solveColinear] at h
  | cons front rest =>
    rw [solveColinear] at h
    simp only [Option.some.injEq] at h
    cases hc : segCoord front.seg.p0 front.axis with
    | none => rw [hc] at h; simp at h
    | some coord =>
      rw [hc] at h
      dsimp only at h
      refine ⟨⟨front, by simp, ?_⟩, ?_⟩
      · rw [hc]
        split at h
        · rw [← Option.some.inj h]
        · split_ifs at h <;> rw [← Option.some.inj h]
      · by_contra hn
        have : ∀ e ∈ front :: rest, e.toMesh = false := fun e he => by
          rw [← Bool.not_eq_true]; exact fun h => hn ⟨e, he, h⟩
        rw [countFacing_unmeshed _ 0 0 this] at h
        simp at h

theorem Fixed.of_model {plane : Plane} {e : BEdge} {axis : Geom.Axis} {coord : ℚ}
    (h1 : transposeSeg plane e.axis = some axis) (h2 : segCoord e.seg.p0 e.axis = some coord) :
    Fixed plane e.seg axis coord := by
  unfold BEdge.axis at h1 h2
  cases ha : e.seg.axis with
  | point => rw [ha] at h2; simp [segCoord, SegAxis.toView] at h2
  | diagonal => rw [ha] at h2; simp [segCoord, SegAxis.toView] at h2
  | h =>
    rw [ha] at h1 h2
    obtain rfl := Option.some.inj h2
    have hh := horizontal_iff.2 ha
    cases plane <;> obtain rfl := Option.some.inj h1
    · exact .h_yz hh
    · exact .h_zx hh
    · exact .h_xy hh
  | v =>
    rw [ha] at h1 h2
    obtain rfl := Option.some.inj h2
    have hh := vertical_iff.2 ha
    cases plane <;> obtain rfl := Option.some.inj h1
    · exact .v_yz hh
    · exact .v_zx hh
    · exact .v_xy hh

/-- Every policy made for the edges of a plane is at the coordinate of an edge to mesh, up to the tolerance, on the axis
this edge fixes. -/
theorem C56_only {E : Nat → BEdge} {plane : Plane} {edges : List Nat}
    (hplane : ∀ j ∈ edges, (E j).plane = plane) (hnd : edges.Nodup)
    (htrans : ∀ a ∈ edges, ∀ b ∈ edges, ∀ c ∈ edges, SameLine (E a).seg (E b).seg → SameLine (E b).seg (E c).seg →
      SameLine (E a).seg (E c).seg)
    {axis : Geom.Axis} {policies : List (Kind × Facing × ℚ)}
    (h : edgePolicies E plane (detectColinear E plane (fun _ => []) edges) edges axis = some policies) :
    ∀ p ∈ policies, ∃ i ∈ edges, (E i).toMesh = true ∧ ∃ coord, Fixed plane (E i).seg axis coord ∧
      |p.2.2 - coord| < tolerance := by
  intro p hp
  have g := detectColinear_grouped axis (s := fun _ => []) hplane hnd (by simp) htrans
  unfold edgePolicies at h
  simp only [Option.bind_eq_bind, Option.bind_eq_some_iff] at h
  obtain ⟨solved, hs, hr⟩ := h
  obtain rfl := Option.some.inj hr
  obtain ⟨hp, -⟩ := List.mem_filter.1 hp
  rcases List.mem_append.1 hp with hp | hp
  · obtain ⟨r, hr, e⟩ := List.mem_filterMap.1 hp
    simp only [id_eq] at e
    subst e
    obtain ⟨c, hc, hsol⟩ := mapM_mem _ _ hs hr
    obtain ⟨⟨front, hf, hcf⟩, e, he, hm⟩ := solveColinear_source hsol
    obtain ⟨f, hfc, rfl⟩ := List.mem_map.1 hf
    obtain ⟨i, hi, rfl⟩ := List.mem_map.1 he
    have hmem : ∀ x ∈ c, x ∈ edges := by
      rw [detectColinear_axis axis edges _ hplane] at hc
      exact pairsAll_members edges [] (by simp) hnd (fun _ h => h) c hc
    have hin : (∀ x ∈ c, x ∈ edges) ∧ ∀ x ∈ c, ∀ y ∈ c, handed E plane axis x y = true := by
      rcases g.inside c hc with h' | ⟨h1, -, h2, -⟩
      · exact absurd (hmem i hi) (h' i hi)
      · exact ⟨h1, h2⟩
    refine ⟨i, hin.1 i hi, hm, ?_⟩
    have hta := (handed_iff.1 (hin.2 i hi i hi)).1
    rcases (handed_iff.1 (hin.2 f hfc i hi)).2 with ⟨h1, h2, h3⟩ | ⟨h1, h2, h3⟩
    · have e1 : (E f).axis = .h := horizontal_iff.1 h1
      have e2 : (E i).axis = .h := horizontal_iff.1 h2
      rw [e1] at hcf
      refine ⟨(E i).seg.p0.y, Fixed.of_model hta (by rw [e2]; rfl), ?_⟩
      rw [← Option.some.inj hcf]
      exact h3
    · have e1 : (E f).axis = .v := vertical_iff.1 h1
      have e2 : (E i).axis = .v := vertical_iff.1 h2
      rw [e1] at hcf
      refine ⟨(E i).seg.p0.x, Fixed.of_model hta (by rw [e2]; rfl), ?_⟩
      rw [← Option.some.inj hcf]
      exact h3
  · obtain ⟨i, hi, e⟩ := List.mem_filterMap.1 hp
    unfold individual at e
    cases h1 : segCoord (E i).seg.p0 (E i).axis with
    | none => rw [h1] at e; simp at e
    | some coord =>
      cases h2 : transposeSeg plane (E i).axis with
      | none => rw [h1, h2] at e; simp at e
      | some w =>
        rw [h1, h2] at e
        dsimp only at e
        split_ifs at e with h3
        · dsimp only at e
          split_ifs at e with h4
          subst h4
          obtain rfl := Option.some.inj e
          exact ⟨i, hi, h3.2, coord, Fixed.of_model h2 h1, by simp [tolerance_pos]⟩

/-- An edge not to mesh, alone on its line. -/
example : (let E : Nat → BEdge := fun i => if i = 4 then ⟨.xy, ⟨⟨0, 7⟩, ⟨9, 7⟩⟩, .ymin, false, false⟩ else boxEdges ⟨0, 0⟩ ⟨3, 5⟩ i;
    edgePolicies E .xy (detectColinear E .xy (fun _ => []) [0, 1, 2, 3, 4]) [0, 1, 2, 3, 4] .y
      = some [(.thirds, .min, 0), (.thirds, .max, 5)] ∧
    (∀ a ∈ [0, 1, 2, 3, 4], ∀ b ∈ [0, 1, 2, 3, 4], ∀ c ∈ [0, 1, 2, 3, 4],
      SameLine (E a).seg (E b).seg → SameLine (E b).seg (E c).seg → SameLine (E a).seg (E c).seg)) := by
  unfold SameLine Horizontal Vertical
  decide +kernel

end Verif.Board
