import Verif.Lemmas.Whole

/-!
# C84: from a file of boxes to the lines
-/

namespace Verif.Board
open Verif.Geom
open Verif.Csx (Flags Point3 Property Primitive parseProperties)
open Verif.Csx.Spec (Solid coordOf solids PointAt BoxFile Hidden proj depth normalAxis Amid)
open Verif.Mesh (MeshParams tolerance)
open Verif.Mesh.Spec (Increasing GapsAtMost)
open Spec

/-- A policy is no further from the coordinate than the proximity limit times the number of merges, and a line is within `dmax`
of that policy unless it is the only one. -/
def Reached (g : MeshParams) (a : Mesh.Axis) (c : ℚ) : Prop :=
  ∃ k, a.Enabled k ∧ |(a.get k).coord - c| < tolerance + (a.conflicts.length : ℚ) * g.proximityLimit ∧
    ((∃ j, j ≠ k ∧ a.Enabled j) → ∃ y ∈ a.meshlines, |y - (a.get k).coord| ≤ g.dmax)

/-- A coordinate asked for by the file: a side of a box, a point, or a line that was there. -/
def Asked (old : List Csx.Added) (props : List Property) (axis : Geom.Axis) (c : ℚ) : Prop :=
  (∃ s ∈ solids props, c = coordOf axis s.p1 ∨ c = coordOf axis s.p2) ∨ PointAt props axis c ∨ .line axis c ∈ old

theorem mem_fixedLines {added : List Csx.Added} {axis : Geom.Axis} {c : ℚ} :
    c ∈ fixedLines added axis ↔ .line axis c ∈ added := by
  unfold fixedLines
  rw [List.mem_filterMap]
  constructor
  · rintro ⟨x, hx, h⟩
    cases x with
    | polygon => simp at h
    | line w d =>
      simp only [Option.ite_none_right_eq_some, Option.some.injEq] at h
      obtain ⟨rfl, rfl⟩ := h
      exact hx
  · intro h
    exact ⟨_, h, by simp⟩

theorem amid_iff {a b c : ℚ} : Amid a b c ↔ min b c ≤ a ∧ a ≤ max b c := by
  unfold Amid
  rw [min_le_iff, le_max_iff]
  constructor
  · rintro (⟨h1, h2⟩ | ⟨h1, h2⟩)
    · exact ⟨Or.inl h1, Or.inr h2⟩
    · exact ⟨Or.inr h1, Or.inl h2⟩
  · rintro ⟨h1 | h1, h2 | h2⟩
    · rcases le_total a c with h | h
      · exact Or.inl ⟨h1, h⟩
      · exact Or.inr ⟨h, h2⟩
    · exact Or.inl ⟨h1, h2⟩
    · exact Or.inr ⟨h1, h2⟩
    · rcases le_total a b with h | h
      · exact Or.inr ⟨h1, h⟩
      · exact Or.inl ⟨h, h2⟩

theorem rangeZ_amid {a b z : ℚ} : (rangeZ a b).1 ≤ z ∧ z ≤ (rangeZ a b).2 ↔ Amid z a b := by
  rw [amid_iff]
  unfold rangeZ
  dsimp only
  rcases lt_trichotomy a b with h | rfl | h
  · rw [if_pos h, if_neg (by linarith), min_eq_left h.le, max_eq_right h.le]
  · simp
  · rw [if_neg (by linarith), if_pos h, min_eq_right h.le, max_eq_left h.le]

/-- Three different axes are those of a plane, in some order, and its normal. -/
theorem plane_of {axis u v : Geom.Axis} (h1 : u ≠ axis) (h2 : v ≠ axis) (h3 : u ≠ v) : ∃ p,
    normalAxis p = v ∧ ((spaceAxis p .h = axis ∧ spaceAxis p .v = u) ∨ (spaceAxis p .v = axis ∧ spaceAxis p .h = u)) := by
  cases axis <;> cases u <;> cases v <;> first | contradiction | skip
  · exact ⟨.xy, rfl, Or.inl ⟨rfl, rfl⟩⟩
  · exact ⟨.zx, rfl, Or.inr ⟨rfl, rfl⟩⟩
  · exact ⟨.xy, rfl, Or.inr ⟨rfl, rfl⟩⟩
  · exact ⟨.yz, rfl, Or.inl ⟨rfl, rfl⟩⟩
  · exact ⟨.zx, rfl, Or.inl ⟨rfl, rfl⟩⟩
  · exact ⟨.yz, rfl, Or.inr ⟨rfl, rfl⟩⟩

theorem fixed_of {p : Plane} {s : Segment} : (Vertical s → Fixed p s (spaceAxis p .h) s.p0.x) ∧
    (Horizontal s → Fixed p s (spaceAxis p .v) s.p0.y) := by
  cases p
  · exact ⟨.v_yz, .h_yz⟩
  · exact ⟨.v_zx, .h_zx⟩
  · exact ⟨.v_xy, .h_xy⟩

theorem of_fixed {p : Plane} {s : Segment} {axis : Geom.Axis} {c : ℚ} (h : Fixed p s axis c) :
    (axis = spaceAxis p .h ∧ c = s.p0.x) ∨ (axis = spaceAxis p .v ∧ c = s.p0.y) := by
  cases h <;> first | exact Or.inl ⟨rfl, rfl⟩ | exact Or.inr ⟨rfl, rfl⟩

/-- What the board of a file of boxes asks for is asked for by the file. -/
theorem wanted_asked {props : List Property} {ms : List (MaterialKind × Solid)} (hms : ms.map Prod.snd = solids props)
    (angle : Ang → ℚ) (background : Option MaterialKind) {old added : List Csx.Added}
    (hlines : ∀ axis c, .line axis c ∈ added ↔ PointAt props axis c) {E0 E : Nat → BEdge} {axis : Geom.Axis} :
    ∀ x, Wanted { (assemble angle background (old ++ added) (ms.flatMap boxParts)).input with E := E0 } E axis x →
      Asked old props axis x := by
  set D := assemble angle background (old ++ added) (ms.flatMap boxParts) with hD
  rintro x (hx | ⟨p, n, hn, e, he, -, hfix⟩)
  · rcases List.mem_append.1 (mem_fixedLines.1 hx) with hx | hx
    · exact Or.inr (Or.inr hx)
    · exact Or.inr (Or.inl ((hlines _ _).1 hx))
  · left
    have hn : n ∈ D.input.polygons p := hn
    obtain ⟨q, hq, rfl⟩ := mem_polygons.1 hn
    obtain ⟨i, x', hx', -, e'⟩ := box_of_part hq
    refine ⟨x'.2, hms ▸ List.mem_map_of_mem (List.mem_of_getElem? hx'), ?_⟩
    rw [e'] at hq
    have hmem : e.2 ∈ Geom.boxEdges (proj q.plane x'.2.p1) (proj q.plane x'.2.p2) := by
      rw [← boxPart_segments x'.1 x'.2 q.plane,
        ← polygon_segments (angle := angle) (background := background) (added := old ++ added) hq]
      exact List.mem_map_of_mem he
    obtain ⟨ax1, ay1, -⟩ := proj_coord q.plane x'.2.p1
    obtain ⟨ax2, ay2, -⟩ := proj_coord q.plane x'.2.p2
    simp only [Geom.boxEdges, List.mem_cons, List.not_mem_nil, or_false] at hmem
    rcases of_fixed hfix with ⟨rfl, rfl⟩ | ⟨rfl, rfl⟩
    · rw [← ax1, ← ax2]
      rcases hmem with h | h | h | h <;> rw [h] <;> simp
    · rw [← ay1, ← ay2]
      rcases hmem with h | h | h | h <;> rw [h] <;> simp

/-- Each side of a box, seen along each other axis, has an edge to mesh or is within other boxes. -/
theorem side_found {props : List Property} (hb : BoxFile props) {ms : List (MaterialKind × Solid)}
    (hms : ms.map Prod.snd = solids props) (angle : Ang → ℚ) (background : Option MaterialKind) (added : List Csx.Added)
    {D : Design} (hD : D = assemble angle background added (ms.flatMap boxParts)) {E0 E : Nat → BEdge}
    (h4 : ∀ p, ∀ n ∈ D.input.polygons p, ∀ e ∈ (D.input.P n).edges, (E e.1).toMesh = false →
      Covered { D.input with E := E0 } (corner D 0) (corner D 2) p n e.2)
    {i : Nat} {s : Solid} (hi : (solids props)[i]? = some s) {axis : Geom.Axis} {c : ℚ}
    (hc : c ∈ [coordOf axis s.p1, coordOf axis s.p2]) {u v : Geom.Axis} (hu : u ≠ axis) (hv : v ≠ axis) (huv : u ≠ v) :
    (∃ p, 3 * i + place p ∈ D.input.polygons p ∧ ∃ e ∈ (D.input.P (3 * i + place p)).edges, (E e.1).toMesh = true ∧
      Fixed p e.2 axis c) ∨ Hidden (solids props) i s axis u v c := by
  subst hD
  set D := assemble angle background added (ms.flatMap boxParts) with hD
  obtain ⟨p, hv', hpu⟩ := plane_of hu hv huv
  obtain ⟨x, hx, rfl⟩ : ∃ x, ms[i]? = some x ∧ x.2 = s := by
    rw [← hms, List.getElem?_map] at hi
    exact Option.map_eq_some_iff.1 hi
  have hq := part_of_box hx p
  have hn : 3 * i + place p ∈ D.input.polygons p := mem_polygons.2 ⟨_, hq, rfl⟩
  have hxs : x.2 ∈ solids props := hms ▸ List.mem_map_of_mem (List.mem_of_getElem? hx)
  have ht : tolerance = 1 / 100000000 := rfl
  have hbig : ∀ w, tolerance ≤ |coordOf w x.2.p2 - coordOf w x.2.p1| := by
    intro w
    rcases hb.clear _ hxs _ hxs w _ (List.mem_cons_self ..) _ (List.mem_cons_of_mem _ (List.mem_cons_self ..)) with h | h
    · exact absurd h (hb.thick _ hxs w)
    · rw [abs_sub_comm, ht]; linarith
  obtain ⟨ax1, ay1, az1⟩ := proj_coord p x.2.p1
  obtain ⟨ax2, ay2, az2⟩ := proj_coord p x.2.p2
  have hedge : ∀ sg ∈ Geom.boxEdges (proj p x.2.p1) (proj p x.2.p2), ∃ k, (k, sg) ∈ (D.input.P (3 * i + place p)).edges := by
    intro sg hsg
    rw [← boxPart_segments x.1 x.2 p,
      ← polygon_segments (angle := angle) (background := background) (added := added) hq] at hsg
    obtain ⟨e, he, rfl⟩ := List.mem_map.1 hsg
    exact ⟨e.1, he⟩
  -- a side of the box on the plane, and the points of it
  have hside : ∃ sg ∈ Geom.boxEdges (proj p x.2.p1) (proj p x.2.p2), Fixed p sg axis c ∧
      ∀ t, x.2.Has u t → ∃ q, On sg q ∧ ∀ o : Solid, WithinBox (proj p o.p1) (proj p o.p2) q → o.Has axis c ∧ o.Has u t := by
    have along : ∀ {s0 s1 t : ℚ}, Amid t s0 s1 → ∃ k : ℚ, 0 ≤ k ∧ k ≤ 1 ∧ t = s0 + k * (s1 - s0) := by
      intro s0 s1 t h
      rcases eq_or_ne s0 s1 with rfl | hne
      · exact ⟨0, le_refl _, by norm_num, by rcases h with h | h <;> linarith⟩
      · refine ⟨(t - s0) / (s1 - s0), ?_, ?_, by rw [div_mul_cancel₀ _ (sub_ne_zero.2 hne.symm)]; ring⟩
        · rcases h with h | h
          · exact div_nonneg (by linarith) (by linarith)
          · exact div_nonneg_of_nonpos (by linarith) (by linarith)
        · rcases h with h | h
          · exact (div_le_one (lt_of_le_of_ne (by linarith) (sub_ne_zero.2 hne.symm).symm)).2 (by linarith)
          · exact (div_le_one_of_neg (lt_of_le_of_ne (by linarith) (sub_ne_zero.2 hne.symm))).2 (by linarith)
    have amid_symm : ∀ {t a b : ℚ}, Amid t a b → Amid t b a := fun h => Or.symm h
    rcases hpu with ⟨rfl, rfl⟩ | ⟨rfl, rfl⟩
    · have vert : ∀ y0 y1 : ℚ, |y1 - y0| = |coordOf (spaceAxis p .v) x.2.p2 - coordOf (spaceAxis p .v) x.2.p1| →
          Vertical ⟨⟨c, y0⟩, ⟨c, y1⟩⟩ := by
        intro y0 y1 h
        refine ⟨by simp [ht], ?_⟩
        dsimp only
        rw [h]
        exact hbig _
      have fin : ∀ {y0 y1 t : ℚ}, Amid t y0 y1 → ∃ q, On ⟨⟨c, y0⟩, ⟨c, y1⟩⟩ q ∧ ∀ o : Solid,
          WithinBox (proj p o.p1) (proj p o.p2) q → o.Has (spaceAxis p .h) c ∧ o.Has (spaceAxis p .v) t := by
        intro y0 y1 t h
        obtain ⟨k, hk0, hk1, rfl⟩ := along h
        refine ⟨⟨c, y0 + k * (y1 - y0)⟩, ⟨k, hk0, hk1, by simp, rfl⟩, fun o ⟨w1, w2, w3, w4⟩ => ?_⟩
        obtain ⟨ox1, oy1, -⟩ := proj_coord p o.p1
        obtain ⟨ox2, oy2, -⟩ := proj_coord p o.p2
        unfold Solid.Has
        rw [amid_iff, amid_iff, ← ox1, ← ox2, ← oy1, ← oy2]
        exact ⟨⟨w1, w2⟩, w3, w4⟩
      simp only [List.mem_cons, List.not_mem_nil, or_false] at hc
      rcases hc with rfl | rfl
      · refine ⟨⟨⟨(proj p x.2.p1).x, (proj p x.2.p1).y⟩, ⟨(proj p x.2.p1).x, (proj p x.2.p2).y⟩⟩, by simp [Geom.boxEdges], ?_, ?_⟩
        · rw [ax1, ay1, ay2]
          exact fixed_of.1 (vert _ _ rfl)
        · intro t h
          rw [ax1, ay1, ay2]
          exact fin h
      · refine ⟨⟨⟨(proj p x.2.p2).x, (proj p x.2.p2).y⟩, ⟨(proj p x.2.p2).x, (proj p x.2.p1).y⟩⟩, by simp [Geom.boxEdges], ?_, ?_⟩
        · rw [ax2, ay1, ay2]
          exact fixed_of.1 (vert _ _ (abs_sub_comm _ _))
        · intro t h
          rw [ax2, ay1, ay2]
          exact fin (amid_symm h)
    · have hori : ∀ y0 y1 : ℚ, |y1 - y0| = |coordOf (spaceAxis p .h) x.2.p2 - coordOf (spaceAxis p .h) x.2.p1| →
          Horizontal ⟨⟨y0, c⟩, ⟨y1, c⟩⟩ := by
        intro y0 y1 h
        refine ⟨by simp [ht], ?_⟩
        dsimp only
        rw [h]
        exact hbig _
      have fin : ∀ {y0 y1 t : ℚ}, Amid t y0 y1 → ∃ q, On ⟨⟨y0, c⟩, ⟨y1, c⟩⟩ q ∧ ∀ o : Solid,
          WithinBox (proj p o.p1) (proj p o.p2) q → o.Has (spaceAxis p .v) c ∧ o.Has (spaceAxis p .h) t := by
        intro y0 y1 t h
        obtain ⟨k, hk0, hk1, rfl⟩ := along h
        refine ⟨⟨y0 + k * (y1 - y0), c⟩, ⟨k, hk0, hk1, rfl, by simp⟩, fun o ⟨w1, w2, w3, w4⟩ => ?_⟩
        obtain ⟨ox1, oy1, -⟩ := proj_coord p o.p1
        obtain ⟨ox2, oy2, -⟩ := proj_coord p o.p2
        unfold Solid.Has
        rw [amid_iff, amid_iff, ← ox1, ← ox2, ← oy1, ← oy2]
        exact ⟨⟨w3, w4⟩, w1, w2⟩
      simp only [List.mem_cons, List.not_mem_nil, or_false] at hc
      rcases hc with rfl | rfl
      · refine ⟨⟨⟨(proj p x.2.p2).x, (proj p x.2.p1).y⟩, ⟨(proj p x.2.p1).x, (proj p x.2.p1).y⟩⟩, by simp [Geom.boxEdges], ?_, ?_⟩
        · rw [ax1, ax2, ay1]
          exact fixed_of.2 (hori _ _ (abs_sub_comm _ _))
        · intro t h
          rw [ax1, ax2, ay1]
          exact fin (amid_symm h)
      · refine ⟨⟨⟨(proj p x.2.p1).x, (proj p x.2.p2).y⟩, ⟨(proj p x.2.p2).x, (proj p x.2.p2).y⟩⟩, by simp [Geom.boxEdges], ?_, ?_⟩
        · rw [ax1, ax2, ay2]
          exact fixed_of.2 (hori _ _ rfl)
        · intro t h
          rw [ax1, ax2, ay2]
          exact fin h
  obtain ⟨sg, hsg, hfix, hpts⟩ := hside
  obtain ⟨k, hk⟩ := hedge sg hsg
  cases hm : (E k).toMesh with
  | true => exact Or.inl ⟨p, hn, _, hk, hm, hfix⟩
  | false =>
    right
    intro t ht'
    obtain ⟨q, hq', hhas⟩ := hpts t ht'
    obtain ⟨b, hbp, ⟨hne, hpr, z, z1, z2, z3, z4⟩, hw⟩ := h4 p _ hn _ hk hm q hq'
    have hbp : b ∈ D.input.polygons p := hbp
    obtain ⟨qb, hqb, hpl⟩ := mem_polygons.1 hbp
    obtain ⟨j, o, ho, hbj, e⟩ := box_of_part hqb
    rw [hpl] at hbj e
    rw [e] at hqb
    dsimp only at hpr z1 z2 z3 z4
    rw [polygon_eq hq] at hpr z1 z2
    rw [polygon_eq hqb] at hpr z3 z4
    have hc1 : corner D 0 b = proj p o.2.p1 := by
      unfold corner
      rw [polygon_eq hqb]
      rfl
    have hc2 : corner D 2 b = proj p o.2.p2 := by
      unfold corner
      rw [polygon_eq hqb]
      rfl
    rw [hc1, hc2] at hw
    obtain ⟨w1, w2⟩ := hhas o.2 hw
    refine ⟨j, o.2, ?_, ?_, hpr, ⟨z, ?_, ?_⟩, w1, w2⟩
    · rintro rfl
      exact hne hbj
    · rw [← hms, List.getElem?_map, ho]
      rfl
    · unfold Solid.Has
      rw [← hv', ← az1, ← az2]
      exact rangeZ_amid.1 ⟨z1, z2⟩
    · unfold Solid.Has
      rw [← hv', ← (proj_coord p o.2.p1).2.2, ← (proj_coord p o.2.p2).2.2]
      exact rangeZ_amid.1 ⟨z3, z4⟩

/-- C84. From a file of boxes the board is made and all the steps end, without undefined behaviour. On every axis, the lines
increase, none is further than `dmax` from the next, and all are between coordinates asked for; the policies left are apart, and
the lines stand around them as `Drawn` tells. For each side of each box, seen
along each of the two other axes, a line policy is near it, or it is within boxes of at least the same priority. For each point,
and each line that was there, a policy is near. -/
theorem C84_boxes (S : Sorters) (sort : List (MaterialKind × Nat) → List (MaterialKind × Nat)) (g : MeshParams)
    (hg : g.InRange) (hl : 0 ≤ g.proximityLimit) (gz : ZoneParams) (angle : Ang → ℚ) (background : Option MaterialKind)
    {old : List Csx.Added} (hold : ∀ x ∈ old, ∃ axis c, x = .line axis c) {f : Flags}
    (hf : f.yz = true ∧ f.zx = true ∧ f.xy = true) (dirs : List Point) {props : List Property} (hb : BoxFile props)
    (axis : Geom.Axis) :
    ∃ added D E a, parseProperties f dirs props = some added ∧ buildDesign angle background (old ++ added) = some D ∧
      runDesign S sort g gz D axis = .ok (E, a) ∧ Increasing a.meshlines ∧ GapsAtMost g.dmax a.meshlines ∧
      a.Drawn g.proximityLimit (g.dmax / 2) ∧
      (∀ y ∈ a.meshlines, ∃ lo hi, Asked old props axis lo ∧ Asked old props axis hi ∧ lo ≤ y ∧ y ≤ hi) ∧
      (∀ i s, (solids props)[i]? = some s → ∀ c ∈ [coordOf axis s.p1, coordOf axis s.p2], ∀ u v, u ≠ axis → v ≠ axis → u ≠ v →
        Reached g a c ∨ Hidden (solids props) i s axis u v c) ∧
      (∀ c, PointAt props axis c ∨ .line axis c ∈ old → Reached g a c) := by
  obtain ⟨added, ms, hparse, hms, hparts, hlines, -⟩ := file_boxes hf dirs hb.only
  set D := assemble angle background (old ++ added) (ms.flatMap boxParts) with hD
  have hbuild : buildDesign angle background (old ++ added) = some D := by
    unfold buildDesign
    rw [makeParts_append, makeParts_lines hold, hparts]
    rfl
  obtain ⟨E0, hadj, hsame⟩ := adjustAll_same sort (D := D) fun p c hc => area_material hc
  have hB := file_board hb hms angle background (old ++ added) hsame
  obtain ⟨E, a, hrun, h1, h2, h8, h3, h4, h5⟩ := C81_boxes S g hg hl gz hB axis
  rw [← hD] at hrun h3 h4 h5
  refine ⟨added, D, E, a, hparse, hbuild, ?_, h1, h2, h8, ?_, ?_, ?_⟩
  · unfold runDesign
    rw [hadj]
    exact hrun
  · have hw : ∀ x, Wanted { D.input with E := E0 } E axis x → Asked old props axis x :=
      wanted_asked hms angle background hlines
    intro y hy
    obtain ⟨lo, hi, g1, g2, g3, g4⟩ := h3 y hy
    exact ⟨lo, hi, hw lo g1, hw hi g2, g3, g4⟩
  · intro i s hi c hc u v hu hv huv
    rcases side_found hb hms angle background (old ++ added) hD (fun p n hn e he => (h4 p n hn e he).1) hi hc hu hv huv with
      ⟨p, hn, e, he, hm, hfix⟩ | h
    · exact Or.inl (h5 c (Or.inr ⟨p, _, hn, e, he, hm, hfix⟩))
    · exact Or.inr h
  · intro c hc
    refine h5 c (Or.inl (mem_fixedLines.2 (List.mem_append.2 ?_)))
    rcases hc with h | h
    · exact Or.inr ((hlines _ _).2 h)
    · exact Or.inl h

/-- A substrate, a strip on it with a via hidden in a pad, a port, a point, and what is left out: a transformed sphere and a
shape that is unknown. -/
def stripFile : List Property :=
  [⟨.material 4 1 0, [⟨false, 0, .box ⟨0, 0, 0⟩ ⟨20, 10, 1⟩⟩, ⟨true, 0, .sphere ⟨0, 0, 0⟩ 1⟩]⟩,
    ⟨.metal, [⟨false, 5, .multibox [⟨2, 4, 1⟩, ⟨15, 3, 1⟩] [⟨15, 6, 3 / 2⟩, ⟨19, 7, 2⟩]⟩,
      ⟨false, 5, .box ⟨18, 6, 1⟩ ⟨16, 4, 2⟩⟩, ⟨false, 0, .other⟩]⟩,
    ⟨.lumpedElement, [⟨false, 1, .box ⟨2, 4, 0⟩ ⟨3, 6, 1⟩⟩, ⟨false, 0, .point ⟨10, 5, 3⟩⟩]⟩,
    ⟨.other, [⟨false, 0, .box ⟨0, 0, 0⟩ ⟨0, 0, 0⟩⟩]⟩]

instance (a b : ℚ) : Decidable (Clear a b) := by unfold Clear; infer_instance

instance (s : Solid) (axis : Geom.Axis) (c : ℚ) : Decidable (s.Has axis c) := by
  unfold Solid.Has Amid; infer_instance

/-- A file that meets the hypotheses, with a side that is hidden: the via, third of the boxes after the substrate, is in the
pad. -/
example : BoxFile stripFile ∧ (⟨1 / 2, 2, 1, 1⟩ : MeshParams).InRange ∧ (solids stripFile).length = 5 ∧
    (∃ s, (solids stripFile)[3]? = some s ∧ Hidden (solids stripFile) 3 s .x .y .z 16) ∧
    ∃ s, (solids stripFile)[0]? = some s ∧ ¬ Hidden (solids stripFile) 0 s .x .y .z 0 := by
  refine ⟨⟨?_, ?_, ?_⟩, ⟨by norm_num, by norm_num⟩, by decide +kernel, ⟨⟨5, ⟨18, 6, 1⟩, ⟨16, 4, 2⟩⟩, rfl, ?_⟩,
    ⟨⟨0, ⟨0, 0, 0⟩, ⟨20, 10, 1⟩⟩, rfl, ?_⟩⟩
  · intro P hP q hq
    fin_cases hP <;> fin_cases hq <;> simp
  · intro s hs t ht axis
    have h : ∀ axis ∈ [Geom.Axis.x, .y, .z], ∀ s ∈ solids stripFile, ∀ t ∈ solids stripFile,
        ∀ a ∈ [coordOf axis s.p1, coordOf axis s.p2], ∀ b ∈ [coordOf axis t.p1, coordOf axis t.p2], Clear a b := by
      decide +kernel
    exact h axis (by cases axis <;> simp) s hs t ht
  · intro s hs axis
    have h : ∀ axis ∈ [Geom.Axis.x, .y, .z], ∀ s ∈ solids stripFile, coordOf axis s.p1 ≠ coordOf axis s.p2 := by
      decide +kernel
    exact h axis (by cases axis <;> simp) s hs
  · intro t ht
    refine ⟨2, ⟨5, ⟨15, 3, 1⟩, ⟨19, 7, 2⟩⟩, by decide, rfl, le_refl _, ⟨1, by decide +kernel, by decide +kernel⟩,
      by decide +kernel, ?_⟩
    unfold Solid.Has at ht ⊢
    rw [amid_iff] at ht ⊢
    simp only [coordOf] at ht ⊢
    norm_num at ht ⊢
    constructor <;> linarith [ht.1, ht.2]
  · intro h
    obtain ⟨j, o, hj, ho, -, -, h1, -⟩ := h 5 (by decide +kernel)
    have hall : ∀ j < 5, j ≠ 0 → ∀ o ∈ (solids stripFile)[j]?, ¬ o.Has .x 0 := by decide +kernel
    have hlen : (solids stripFile).length = 5 := by decide +kernel
    obtain ⟨hlt, -⟩ := List.getElem?_eq_some_iff.1 ho
    exact hall j (hlen ▸ hlt) hj o ho h1

end Verif.Board
