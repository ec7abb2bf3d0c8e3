import Verif.Lemmas.RunDiagonal

/-!
# C81, C82, C83: from the edges to the lines
-/

namespace Verif.Board
open Verif.Geom
open Verif.Mesh (Sorter MeshParams Kind Policy FixedAt tolerance finish_axis)
open Verif.Mesh.Spec (Increasing GapsAtMost)
open Spec

/-- A board on which every polygon is a box: coordinates of a plane are the same or clearly apart, edges have their own
numbers, a side, and are to be meshed. -/
structure BoxBoard (B : Input) (c1 c3 : Nat → Point) : Prop where
  boxes : ∀ p, Boxes B.P c1 c3 (B.polygons p)
  own : ∀ p, (B.edges p).Nodup
  edge : ∀ p, ∀ a ∈ B.polygons p, ∀ e ∈ (B.P a).edges, (B.E e.1).seg = e.2 ∧ (B.E e.1).plane = p ∧
    (B.E e.1).side ≠ .none ∧ (B.E e.1).toMesh = true

/-- The whole of a segment lies in boxes that hide the polygon it belongs to. -/
def Covered (B : Input) (c1 c3 : Nat → Point) (p : Plane) (a : Nat) (s : Segment) : Prop :=
  ∀ q, On s q → ∃ b ∈ B.polygons p, Hides B.P b a ∧ WithinBox (c1 b) (c3 b) q

theorem clear_eq {a b : ℚ} (h : Clear a b) (h' : |a - b| < tolerance) : a = b := by
  have ht : tolerance = 1 / 100000000 := rfl
  rcases h with h | h
  · exact h
  · rw [ht] at h'
    linarith

/-- Edges of boxes that share a line have the same coordinate. -/
theorem BoxBoard.same {B : Input} {c1 c3 : Nat → Point} (hB : BoxBoard B c1 c3) {p : Plane} {i j : Nat} (hi : i ∈ B.edges p)
    (hj : j ∈ B.edges p) :
    (|(B.E i).seg.p0.x - (B.E j).seg.p0.x| < tolerance → (B.E i).seg.p0.x = (B.E j).seg.p0.x) ∧
    (|(B.E i).seg.p0.y - (B.E j).seg.p0.y| < tolerance → (B.E i).seg.p0.y = (B.E j).seg.p0.y) := by
  obtain ⟨a, ha, e, he, rfl⟩ := mem_edges.1 hi
  obtain ⟨b, hb, f, hf, rfl⟩ := mem_edges.1 hj
  rw [(hB.edge p a ha e he).1, (hB.edge p b hb f hf).1]
  obtain ⟨-, -, ex, ey⟩ := box_edge ((hB.boxes p).box a ha) he
  obtain ⟨-, -, fx, fy⟩ := box_edge ((hB.boxes p).box b hb) hf
  exact ⟨clear_eq ((hB.boxes p).xs a ha b hb _ (ex _ (by simp)) _ (fx _ (by simp))),
    clear_eq ((hB.boxes p).ys a ha b hb _ (ey _ (by simp)) _ (fy _ (by simp)))⟩

theorem BoxBoard.level {B : Input} {c1 c3 : Nat → Point} (hB : BoxBoard B c1 c3) {p : Plane} {i : Nat} (hi : i ∈ B.edges p) :
    ¬ Slanted (B.E i).seg := by
  obtain ⟨a, ha, e, he, rfl⟩ := mem_edges.1 hi
  rw [(hB.edge p a ha e he).1]
  have ht : tolerance = 1 / 100000000 := rfl
  rintro ⟨h1, h2⟩
  rcases (box_edge ((hB.boxes p).box a ha) he).1 with h | h
  · rw [h, sub_self, abs_zero] at h1
    linarith
  · rw [h, sub_self, abs_zero] at h2
    linarith

theorem BoxBoard.slanted {B : Input} {c1 c3 : Nat → Point} (hB : BoxBoard B c1 c3) (p : Plane) : slantedOf B p = [] := by
  unfold slantedOf
  rw [List.map_eq_nil_iff, List.filter_eq_nil_iff]
  intro e he
  obtain ⟨i, hi, rfl⟩ := List.mem_map.1 he
  simp [hB.level hi]

theorem BoxBoard.built {B : Input} {c1 c3 : Nat → Point} (hB : BoxBoard B c1 c3) : Built B where
  sides := fun p a ha => ((hB.boxes p).box a ha).edges
  edge := fun p a ha e he => ⟨(hB.edge p a ha e he).1, (hB.edge p a ha e he).2.1⟩
  own := hB.own
  side := fun p a ha e he _ => Or.inl (hB.edge p a ha e he).2.2.1
  thick := fun p a ha => ((hB.boxes p).box a ha).thick

theorem BoxBoard.apart {B : Input} {c1 c3 : Nat → Point} (hB : BoxBoard B c1 c3) : LinesApart B where
  flat := fun _ _ hi _ hj _ _ => (hB.same hi hj).2
  upright := fun _ _ hi _ hj _ _ => (hB.same hi hj).1

/-- An edge is in one polygon of its plane. -/
theorem edge_owner {B : Input} {p : Plane} (hnd : (B.edges p).Nodup) {a a' : Nat} (ha : a ∈ B.polygons p)
    (ha' : a' ∈ B.polygons p) {e e' : Nat × Segment} (he : e ∈ (B.P a).edges) (he' : e' ∈ (B.P a').edges) (h : e.1 = e'.1) :
    a = a' := by
  obtain ⟨-, hd⟩ := List.nodup_flatMap.1 hnd
  by_contra hne
  have hsym : Std.Symm fun a a' => Function.onFun List.Disjoint (fun a => (B.P a).edges.map (·.1)) a a' :=
    ⟨fun _ _ h => List.Disjoint.symm h⟩
  exact hd.forall ha ha' hne (List.mem_map_of_mem he) (h ▸ List.mem_map_of_mem he')

/-- C81. On a board of boxes the run ends without undefined behaviour. On every axis, the lines increase, none is further
than `dmax` from the next, and all are between wanted coordinates; the policies left are apart, and the lines stand around
them as `Drawn` tells. Each edge is covered by boxes that hide it, or has a policy no further from it than the proximity limit
times the number of merges, and a line within `dmax` of that one unless it is the only policy. Each fixed line has a policy as
near. An edge that is engulfed by boxes that hide it is left unmeshed. -/
theorem C81_boxes (S : Sorters) (g : MeshParams) (hg : g.InRange) (hl : 0 ≤ g.proximityLimit) (gz : ZoneParams) {B : Input}
    {c1 c3 : Nat → Point} (hB : BoxBoard B c1 c3) (axis : Geom.Axis) :
    ∃ E a, runSteps S g gz B axis = .ok (E, a) ∧ Increasing a.meshlines ∧ GapsAtMost g.dmax a.meshlines ∧
      a.Drawn g.proximityLimit (g.dmax / 2) ∧
      (∀ y ∈ a.meshlines, ∃ lo hi, Wanted B E axis lo ∧ Wanted B E axis hi ∧ lo ≤ y ∧ y ≤ hi) ∧
      (∀ p, ∀ n ∈ B.polygons p, ∀ e ∈ (B.P n).edges, ((E e.1).toMesh = false → Covered B c1 c3 p n e.2) ∧
        (Engulfed B.P c1 c3 (B.polygons p) n e.2 → (E e.1).toMesh = false)) ∧
      ∀ x, Wanted B E axis x → ∃ k, a.Enabled k ∧
        |(a.get k).coord - x| < tolerance + (a.conflicts.length : ℚ) * g.proximityLimit ∧
        ((∃ j, j ≠ k ∧ a.Enabled j) → ∃ y ∈ a.meshlines, |y - (a.get k).coord| ≤ g.dmax) := by
  have hE : ∀ p, ∀ a ∈ B.polygons p, ∀ e ∈ (B.P a).edges, (B.E e.1).seg = e.2 := fun p a ha e he => (hB.edge p a ha e he).1
  have hown := fun p a ha a' ha' e he e' he' h => edge_owner (hB.own p) (a := a) (a' := a') (e := e) (e' := e') ha ha' he he' h
  have hboxes := fun p => C79_boxes S.points S.overlaps (hB.boxes p) B.E (hE p) (hown p)
  have hthick := hB.built.thick
  obtain ⟨L, zones, m, new, E, a, lim, hrun, ⟨d1, d2, -, -, d5, -, hout⟩, hE3, h1, h3, h4, -⟩ :=
    run_drawn S g hg hl (gz := gz) (Or.inr hB.slanted) hB.built hB.apart (fun p => ⟨_, (hboxes p).choose_spec.1⟩) axis
  have hempty : ∀ w z, z ∉ zones w := by
    intro w z hz
    obtain ⟨p, va, -, hz⟩ := (d2 _ _).1 hz
    obtain ⟨lo, hi, -, hlt, hu⟩ := (d1 p va).spans z hz
    obtain ⟨s, hs, -⟩ := hu lo le_rfl hlt.le
    rw [hB.slanted p] at hs
    cases hs
  have hm : ∀ n va, m n va = false := fun n va => d5 n va fun z hz => absurd hz (hempty _ _)
  have hlim : ∀ x, lim x ≤ g.dmax := fun x => (hout x fun ⟨z, hz, _⟩ => hempty _ _ hz).le
  obtain ⟨h2, h8, h4, -⟩ := h4 g.dmax hlim
  refine ⟨E, a, hrun, h1, h2, h8.mono (min_le_right _ _), ?_, ?_, h4⟩
  · intro y hy
    obtain ⟨lo, hi, h5, h6, hw⟩ := h3 y hy
    have hw' : ∀ x, x = lo ∨ x = hi → Wanted B E axis x := by
      intro x hx
      rcases hw x hx with h | ⟨n, -, va, -, hm', -⟩
      · exact h
      · rw [hm] at hm'
        cases hm'
    exact ⟨lo, hi, hw' _ (Or.inl rfl), hw' _ (Or.inr rfl), h5, h6⟩
  · intro p n hn e he
    obtain ⟨s, hs, hcov⟩ := hboxes p
    have hmem : e.1 ∈ B.edges p := mem_edges.2 ⟨n, hn, e, he, rfl⟩
    constructor
    · intro hm
      rcases hE3 p s hs e.1 hmem with ⟨-, h⟩ | ⟨os, hlook, h⟩
      · rw [(hB.edge p n hn e he).2.2.2, hm] at h
        cases h
      · rw [hm] at h
        exact hcov n hn e he os hlook h
    · intro hg
      obtain ⟨os, hlook, hsol⟩ := C79_engulfed S.overlaps (hB.boxes p) B.E (hE p) (hown p) hs hn he hg
      rcases hE3 p s hs e.1 hmem with ⟨hno, -⟩ | ⟨os', hlook', h⟩
      · rw [hlook] at hno
        cases hno
      · rw [hlook] at hlook'
        obtain rfl := Option.some.inj hlook'
        rw [hsol] at h
        exact (Option.some.inj h).symm

/-- The two boxes of `nested` on the plane xy, a third one in the plane zx, and a fixed line. -/
def nestedBoard : Input where
  polygons
    | .xy => [0, 1]
    | .zx => [2]
    | .yz => []
  P n := if n = 2 then ⟨boxPoints ⟨1, 0⟩ ⟨3, 9⟩, [(8, ⟨⟨3, 0⟩, ⟨1, 0⟩⟩), (9, ⟨⟨1, 0⟩, ⟨1, 9⟩⟩), (10, ⟨⟨1, 9⟩, ⟨3, 9⟩⟩),
    (11, ⟨⟨3, 9⟩, ⟨3, 0⟩⟩)], 0, 6, 2⟩ else nested n
  E n := (([(0, ⟨.xy, ⟨⟨5, 1⟩, ⟨2, 1⟩⟩, .ymin, true, false⟩), (1, ⟨.xy, ⟨⟨2, 1⟩, ⟨2, 3⟩⟩, .xmin, true, false⟩),
    (2, ⟨.xy, ⟨⟨2, 3⟩, ⟨5, 3⟩⟩, .ymax, true, false⟩), (3, ⟨.xy, ⟨⟨5, 3⟩, ⟨5, 1⟩⟩, .xmax, true, false⟩),
    (4, ⟨.xy, ⟨⟨9, 0⟩, ⟨0, 0⟩⟩, .ymin, true, false⟩), (5, ⟨.xy, ⟨⟨0, 0⟩, ⟨0, 6⟩⟩, .xmin, true, true⟩),
    (6, ⟨.xy, ⟨⟨0, 6⟩, ⟨9, 6⟩⟩, .ymax, true, false⟩), (7, ⟨.xy, ⟨⟨9, 6⟩, ⟨9, 0⟩⟩, .xmax, true, false⟩),
    (8, ⟨.zx, ⟨⟨3, 0⟩, ⟨1, 0⟩⟩, .ymin, true, false⟩), (9, ⟨.zx, ⟨⟨1, 0⟩, ⟨1, 9⟩⟩, .xmin, true, false⟩),
    (10, ⟨.zx, ⟨⟨1, 9⟩, ⟨3, 9⟩⟩, .ymax, true, false⟩), (11, ⟨.zx, ⟨⟨3, 9⟩, ⟨3, 0⟩⟩, .xmax, true, false⟩)] :
    List (Nat × BEdge)).lookup n).getD ⟨.yz, ⟨⟨0, 0⟩, ⟨0, 0⟩⟩, .none, true, false⟩
  fixed
    | .x => [-3]
    | _ => []
  angle _ := 0

/-- Lower corners. -/
def nestedBoard1 (n : Nat) : Point := if n = 2 then ⟨1, 0⟩ else nested1 n

/-- Upper corners. -/
def nestedBoard3 (n : Nat) : Point := if n = 2 then ⟨3, 9⟩ else nested3 n

theorem nestedBoard_boxes : BoxBoard nestedBoard nestedBoard1 nestedBoard3 := by
  refine ⟨fun p => ⟨fun a ha => ?_, ?_, ?_⟩, ?_, ?_⟩
  · cases p <;> simp only [nestedBoard, List.mem_cons, List.not_mem_nil, or_false] at ha
    · subst ha
      exact ⟨rfl, rfl, by decide +kernel, by decide +kernel, by decide +kernel⟩
    · rcases ha with rfl | rfl <;> exact ⟨rfl, rfl, by decide +kernel, by decide +kernel, by decide +kernel⟩
  · unfold Clear; cases p <;> decide +kernel
  · unfold Clear; cases p <;> decide +kernel
  · intro p; cases p <;> decide +kernel
  · intro p; cases p <;> decide +kernel

example : BoxBoard nestedBoard nestedBoard1 nestedBoard3 ∧ (⟨1 / 2, 2, 1, 1⟩ : MeshParams).InRange ∧
    Wanted nestedBoard nestedBoard.E .x (-3) ∧ Wanted nestedBoard nestedBoard.E .z 3 ∧
    Engulfed nestedBoard.P nestedBoard1 nestedBoard3 (nestedBoard.polygons .xy) 0 ⟨⟨5, 3⟩, ⟨5, 1⟩⟩ := by
  refine ⟨nestedBoard_boxes, ⟨by norm_num, by norm_num⟩, Or.inl (by simp [nestedBoard]), ?_, ?_⟩
  · refine Or.inr ⟨.zx, 2, by decide, (11, ⟨⟨3, 9⟩, ⟨3, 0⟩⟩), by decide +kernel, by decide +kernel, ?_⟩
    exact .v_zx (by unfold Vertical; decide +kernel)
  · have hi : InsideBox (nestedBoard1 1) (nestedBoard3 1) ⟨5, 3⟩ ∧ InsideBox (nestedBoard1 1) (nestedBoard3 1) ⟨5, 1⟩ := by
      unfold InsideBox
      decide +kernel
    refine ⟨⟨1, by decide, ⟨by decide, by decide, 1, by decide +kernel⟩, hi⟩, fun b hb hh => Or.inl ?_⟩
    simp only [nestedBoard, List.mem_cons, List.not_mem_nil, or_false] at hb
    rcases hb with rfl | rfl
    · exact absurd rfl hh.1
    · exact hi

/-! ## Any polygons -/

/-- When the run ends, so did the detection of the edges in polygons. -/
theorem detect_of_run {S : Sorters} {g : MeshParams} {gz : ZoneParams} {B : Input} {axis : Geom.Axis}
    {r : (Nat → BEdge) × Mesh.Axis} (h : runSteps S g gz B axis = .ok r) (p : Plane) :
    ∃ s, detectInPolygons S.points B.P (B.polygons p) [] = .ok s := by
  have bind_ok : ∀ {α β : Type} {o : Outcome α} {f : α → Outcome β} {b : β}, o.bind f = .ok b → ∃ a, o = .ok a ∧ f a = .ok b := by
    intro α β o f b h
    cases o with
    | ok a => exact ⟨a, rfl, h⟩
    | ub => cases h
    | diverges => cases h
  have all : ∀ planes l, detectAllInPolygons S.points B planes = .ok l → ∀ p ∈ planes,
      ∃ s, detectInPolygons S.points B.P (B.polygons p) [] = .ok s := by
    intro planes
    induction planes with
    | nil => intro l _ p hp; cases hp
    | cons q planes ih =>
      intro l hl p hp
      obtain ⟨s, hs, hl⟩ := bind_ok hl
      obtain ⟨l', hl', -⟩ := bind_ok hl
      rcases List.mem_cons.1 hp with rfl | hp
      · exact ⟨s, hs⟩
      · exact ih l' hl' p hp
  obtain ⟨d, -, h⟩ := bind_ok h
  obtain ⟨l, hl, -⟩ := bind_ok h
  exact all _ l hl p (by cases p <;> simp [allPlanes])

/-- C82, the run ends: when in no plane a polygon hides another, there is no undefined behaviour and no endless loop. -/
theorem C82_ends (S : Sorters) (g : MeshParams) (hg : g.InRange) (hl : 0 ≤ g.proximityLimit) {gz : ZoneParams}
    (hz : 0 < gz.diagonalDmax) {B : Input} (hB : Built B) (hA : LinesApart B)
    (hh : ∀ p, ∀ a ∈ B.polygons p, ∀ b ∈ B.polygons p, ¬ Hides B.P b a) (axis : Geom.Axis) :
    ∃ E a, runSteps S g gz B axis = .ok (E, a) := by
  have hs : ∀ p, ∃ s, detectInPolygons S.points B.P (B.polygons p) [] = .ok s := by
    intro p
    unfold detectInPolygons
    refine fold_ok _ (fun s a ha => fold_ok _ (fun s b hb => ?_) s) []
    rw [if_neg]
    · exact ⟨s, rfl⟩
    · rw [concerns_iff (hB.thick p a ha) (hB.thick p b hb)]
      exact hh p a ha b hb
  obtain ⟨L, zones, m, new, E, a, lim, hrun, -⟩ := run_drawn S g hg hl (gz := gz) (Or.inl hz) hB hA hs axis
  exact ⟨E, a, hrun⟩

theorem spaceAxis_inj {p : Plane} {va va' : ViewAxis} (h : spaceAxis p va = spaceAxis p va') : va = va' := by
  revert h
  cases p <;> cases va <;> cases va' <;> decide

/-- A coordinate under a slanted edge to mesh, seen along an axis. -/
def UnderSlanted (B : Input) (axis : Geom.Axis) (x : ℚ) : Prop :=
  ∃ p va, spaceAxis p va = axis ∧ ∃ s ∈ slantedOf B p, Under va s x

/-- A coordinate where slanted edges to mesh of a plane start or stop, seen along an axis. -/
def SlantedEnd (B : Input) (axis : Geom.Axis) (x : ℚ) : Prop :=
  ∃ p va, spaceAxis p va = axis ∧ EndOf va (slantedOf B p) x

/-- C82, slanted edges: each place where slanted edges start or stop has a policy no further from it than the proximity
limit times the number of merges, and a line within the greater of `dmax` and the `dmax` of zones of that one unless it is the
only policy. -/
theorem C82_slanted (S : Sorters) (g : MeshParams) (hg : g.InRange) (hl : 0 ≤ g.proximityLimit) {gz : ZoneParams}
    (hz : 0 < gz.diagonalDmax) {B : Input} (hB : Built B) (hA : LinesApart B) {axis : Geom.Axis} {E : Nat → BEdge}
    {a : Mesh.Axis} (h : runSteps S g gz B axis = .ok (E, a)) (x : ℚ) (hx : SlantedEnd B axis x) :
    ∃ k, a.Enabled k ∧ |(a.get k).coord - x| ≤ (a.conflicts.length : ℚ) * g.proximityLimit ∧
      ((∃ j, j ≠ k ∧ a.Enabled j) → ∃ y ∈ a.meshlines, |y - (a.get k).coord| ≤ max g.dmax gz.diagonalDmax) := by
  obtain ⟨L, zones, m, new, E', a', lim, hrun, ⟨d1, d2, d3, d4, d5, hin, hout⟩, -, h1, h3, h4, -⟩ :=
    run_drawn S g hg hl (gz := gz) (Or.inl hz) hB hA (detect_of_run h) axis
  rw [h] at hrun
  obtain ⟨rfl, rfl⟩ := Prod.mk.inj (Outcome.ok.inj hrun)
  have hlim : ∀ x, lim x ≤ max g.dmax gz.diagonalDmax := by
    intro x
    by_cases hx : ∃ z ∈ zones axis, Covers (angleAt L) z x
    · rw [hin x hx]; exact le_max_right _ _
    · rw [hout x hx]; exact le_max_left _ _
  obtain ⟨-, -, -, h5⟩ := h4 _ hlim
  obtain ⟨p, va, hva, hend⟩ := hx
  obtain ⟨z, hz, n, hn, hend, rfl⟩ := pieces_end (d1 p va) hend
  obtain ⟨-, -, -, hpl⟩ := d3 p va z hz
  obtain ⟨hlt, hp⟩ := hpl n hn
  exact h5 n hlt va (by rw [hp]; exact hva)
    ((d4 axis z ((d2 _ _).2 ⟨p, va, hva, hz⟩) n hn va (by rw [hp]; exact hva)).2 (by tauto))

/-- C82. On a board of any polygons, when the run ends the lines increase, none is further than the greater of `dmax` and the
`dmax` of zones from the next, and all are between wanted coordinates and coordinates under slanted edges; the policies left are
apart, and the lines stand around them as `Drawn` tells. The edges of a polygon that none hides are meshed or not as at the
start. Each flat or upright edge to mesh, each fixed line, and each place where slanted edges start or stop has a policy no further from it than
the proximity limit times the number of merges, and a line within those `dmax` of that one unless it is the only policy. -/
theorem C82_run (S : Sorters) (g : MeshParams) (hg : g.InRange) (hl : 0 ≤ g.proximityLimit) {gz : ZoneParams}
    (hz : 0 < gz.diagonalDmax) {B : Input} (hB : Built B) (hA : LinesApart B) {axis : Geom.Axis} {E : Nat → BEdge}
    {a : Mesh.Axis} (h : runSteps S g gz B axis = .ok (E, a)) :
    Increasing a.meshlines ∧ GapsAtMost (max g.dmax gz.diagonalDmax) a.meshlines ∧
      a.Drawn g.proximityLimit (g.dmax / 2) ∧
      (∀ p, ∀ n ∈ B.polygons p, (∀ b ∈ B.polygons p, ¬ Hides B.P b n) → ∀ e ∈ (B.P n).edges,
        (E e.1).toMesh = (B.E e.1).toMesh) ∧
      (∀ y ∈ a.meshlines, ∃ lo hi, lo ≤ y ∧ y ≤ hi ∧ (Wanted B E axis lo ∨ UnderSlanted B axis lo) ∧
        (Wanted B E axis hi ∨ UnderSlanted B axis hi)) ∧
      ∀ x, Wanted B E axis x ∨ SlantedEnd B axis x → ∃ k, a.Enabled k ∧
        |(a.get k).coord - x| < tolerance + (a.conflicts.length : ℚ) * g.proximityLimit ∧
        ((∃ j, j ≠ k ∧ a.Enabled j) → ∃ y ∈ a.meshlines, |y - (a.get k).coord| ≤ max g.dmax gz.diagonalDmax) := by
  obtain ⟨L, zones, m, new, E', a', lim, hrun, ⟨d1, d2, d3, d4, d5, hin, hout⟩, hE3, h1, h3, h4, -⟩ :=
    run_drawn S g hg hl (gz := gz) (Or.inl hz) hB hA (detect_of_run h) axis
  rw [h] at hrun
  obtain ⟨rfl, rfl⟩ := Prod.mk.inj (Outcome.ok.inj hrun)
  have hlim : ∀ x, lim x ≤ max g.dmax gz.diagonalDmax := by
    intro x
    by_cases hx : ∃ z ∈ zones axis, Covers (angleAt L) z x
    · rw [hin x hx]; exact le_max_right _ _
    · rw [hout x hx]; exact le_max_left _ _
  obtain ⟨h2, h8, h4, h5⟩ := h4 _ hlim
  refine ⟨h1, h2, h8.mono (min_le_right _ _), ?_, ?_, ?_⟩
  · intro p n hn hfree e he
    obtain ⟨s, hs⟩ := detect_of_run h p
    rcases hE3 p s hs e.1 (mem_edges.2 ⟨n, hn, e, he, rfl⟩) with ⟨-, h⟩ | ⟨os, hlook, -⟩
    · exact h
    · obtain ⟨hne, hfrom⟩ := (C79_conflicts (hB.thick p) hs e.1).1 os hlook
      obtain ⟨f, hf⟩ := List.exists_mem_of_ne_nil _ hne
      obtain ⟨a', ha', b, hb, hh, seg, hseg, -⟩ := hfrom f hf
      have : a' = n := edge_owner (hB.own p) ha' hn hseg he rfl
      subst this
      exact absurd hh (hfree b hb)
  · have hw : ∀ x, (∃ n < L.length, ∃ va, spaceAxis (angleAt L n).plane va = axis ∧ m n va = true ∧
        along va (angleAt L n).p = x) → UnderSlanted B axis x := by
      rintro x ⟨n, hn, va, hva, hm, rfl⟩
      have hzone : ∃ z ∈ zones axis, n ∈ z.angles := by
        by_contra hc
        have := d5 n va (by rw [hva]; exact fun z hz hmem => hc ⟨z, hz, hmem⟩)
        rw [hm] at this
        cases this
      obtain ⟨z, hz, hmem⟩ := hzone
      obtain ⟨p, va', hw, hz'⟩ := (d2 _ _).1 hz
      obtain ⟨-, -, -, hpl⟩ := d3 p va' z hz'
      have hp := (hpl n hmem).2
      have hvv : va' = va := by
        rw [hp, ← hw] at hva
        exact spaceAxis_inj hva.symm
      subst hvv
      obtain ⟨lo, hi, hsp, -, hu⟩ := (d1 p va').spans z hz'
      exact ⟨p, va', hw, hu _ (hsp.2.2 n hmem).1 (hsp.2.2 n hmem).2⟩
    intro y hy
    obtain ⟨lo, hi, h6, h7, h8⟩ := h3 y hy
    exact ⟨lo, hi, h6, h7, (h8 lo (Or.inl rfl)).imp id (hw lo), (h8 hi (Or.inr rfl)).imp id (hw hi)⟩
  · rintro x (hx | hx)
    · exact h4 x hx
    · obtain ⟨k, hk, h6, h7⟩ := C82_slanted S g hg hl hz hB hA h x hx
      have ht : tolerance = 1 / 100000000 := rfl
      exact ⟨k, hk, by rw [ht]; linarith, h7⟩

/-- C83. When each place where slanted edges to mesh start or stop has a policy within `δ`, two lines next to each other are no
further apart than the `dmax` of zones if from `δ` below the first to `δ` above the second there are slanted edges to mesh of
one plane all along. -/
theorem C83_near (S : Sorters) (g : MeshParams) (hg : g.InRange) (hl : 0 ≤ g.proximityLimit) {gz : ZoneParams}
    (hz : 0 < gz.diagonalDmax) {B : Input} (hB : Built B) (hA : LinesApart B) {axis : Geom.Axis} {E : Nat → BEdge}
    {a : Mesh.Axis} (h : runSteps S g gz B axis = .ok (E, a)) {δ : ℚ} (h0 : 0 ≤ δ)
    (hδ : ∀ x, SlantedEnd B axis x → ∃ k, a.Enabled k ∧ |(a.get k).coord - x| ≤ δ) :
    a.meshlines.IsChain fun y y' => ∀ p va, spaceAxis p va = axis →
      (∀ x, y - δ ≤ x → x ≤ y' + δ → ∃ s ∈ slantedOf B p, Under va s x) → y' - y ≤ gz.diagonalDmax := by
  obtain ⟨L, zones, m, new, E', a', lim, hrun, ⟨d1, d2, d3, -, -, hin, -⟩, -, h1, -, -, hch⟩ :=
    run_drawn S g hg hl (gz := gz) (Or.inl hz) hB hA (detect_of_run h) axis
  rw [h] at hrun
  obtain ⟨rfl, rfl⟩ := Prod.mk.inj (Outcome.ok.inj hrun)
  refine hch.imp fun y y' hyy p va hva hu => ?_
  rcases lt_or_ge (y' + δ) (y - δ) with hlt | hle
  · linarith
  refine hyy _ fun i j hij hi hj => ?_
  obtain ⟨z, hzm, lo, hi', hsp, hlo, hhi⟩ := pieces_whole (d1 p va) hle hu
  obtain ⟨e1, e2⟩ := pieces_ends (d1 p va) hzm hsp
  obtain ⟨k, hk, ek⟩ := hδ lo ⟨p, va, hva, e1⟩
  obtain ⟨k', hk', ek'⟩ := hδ hi' ⟨p, va, hva, e2⟩
  rw [abs_le] at ek ek'
  obtain ⟨-, -, hlt, hno⟩ := hij
  have h6 : (a.get k).coord ≤ (a.get i).coord := by
    by_contra hc
    exact hno k hk ⟨not_le.1 hc, by linarith⟩
  have h7 : (a.get j).coord ≤ (a.get k').coord := by
    by_contra hc
    exact hno k' hk' ⟨by linarith, not_le.1 hc⟩
  obtain ⟨-, -, e3, hpl⟩ := d3 p va z hzm
  refine (hin _ ⟨z, (d2 _ _).2 ⟨p, va, hva, hzm⟩, _, _, ⟨p, va, fun n hn => (hpl n hn).2, e3.symm, hsp⟩, ?_, ?_⟩).le <;> linarith

/-- C83, on any board: with the drift of C82 for `δ`, which is 0 when nothing was merged on the axis. -/
theorem C83_zones (S : Sorters) (g : MeshParams) (hg : g.InRange) (hl : 0 ≤ g.proximityLimit) {gz : ZoneParams}
    (hz : 0 < gz.diagonalDmax) {B : Input} (hB : Built B) (hA : LinesApart B) {axis : Geom.Axis} {E : Nat → BEdge}
    {a : Mesh.Axis} (h : runSteps S g gz B axis = .ok (E, a)) :
    a.meshlines.IsChain fun y y' => ∀ p va, spaceAxis p va = axis →
      (∀ x, y - (a.conflicts.length : ℚ) * g.proximityLimit ≤ x → x ≤ y' + (a.conflicts.length : ℚ) * g.proximityLimit →
        ∃ s ∈ slantedOf B p, Under va s x) → y' - y ≤ gz.diagonalDmax := by
  refine C83_near S g hg hl hz hB hA h (mul_nonneg (Nat.cast_nonneg _) hl) fun x hx => ?_
  obtain ⟨k, hk, h1, -⟩ := C82_slanted S g hg hl hz hB hA h x hx
  exact ⟨k, hk, h1⟩

/-- A triangle on the plane xy, under it a box of a lower priority, below in height, and a sheet on the plane zx. -/
def triangleBoard : Input where
  polygons
    | .xy => [0, 1]
    | .zx => [2]
    | .yz => []
  P n := if n = 0 then ⟨[⟨0, 0⟩, ⟨8, 0⟩, ⟨3, 6⟩], [(0, ⟨⟨3, 6⟩, ⟨0, 0⟩⟩), (1, ⟨⟨0, 0⟩, ⟨8, 0⟩⟩), (2, ⟨⟨8, 0⟩, ⟨3, 6⟩⟩)], 1, 2, 5⟩
    else if n = 1 then ⟨boxPoints ⟨-4, -4⟩ ⟨20, 9⟩, [(3, ⟨⟨20, -4⟩, ⟨-4, -4⟩⟩), (4, ⟨⟨-4, -4⟩, ⟨-4, 9⟩⟩),
      (5, ⟨⟨-4, 9⟩, ⟨20, 9⟩⟩), (6, ⟨⟨20, 9⟩, ⟨20, -4⟩⟩)], -3, 0, 2⟩
    else ⟨boxPoints ⟨1, 0⟩ ⟨1, 8⟩, [(7, ⟨⟨1, 0⟩, ⟨1, 0⟩⟩), (8, ⟨⟨1, 0⟩, ⟨1, 8⟩⟩), (9, ⟨⟨1, 8⟩, ⟨1, 8⟩⟩),
      (10, ⟨⟨1, 8⟩, ⟨1, 0⟩⟩)], 0, 6, 2⟩
  E n := (([(0, ⟨.xy, ⟨⟨3, 6⟩, ⟨0, 0⟩⟩, .none, true, false⟩), (1, ⟨.xy, ⟨⟨0, 0⟩, ⟨8, 0⟩⟩, .ymin, true, false⟩),
    (2, ⟨.xy, ⟨⟨8, 0⟩, ⟨3, 6⟩⟩, .none, true, false⟩), (3, ⟨.xy, ⟨⟨20, -4⟩, ⟨-4, -4⟩⟩, .ymin, true, false⟩),
    (4, ⟨.xy, ⟨⟨-4, -4⟩, ⟨-4, 9⟩⟩, .xmin, true, false⟩), (5, ⟨.xy, ⟨⟨-4, 9⟩, ⟨20, 9⟩⟩, .ymax, true, false⟩),
    (6, ⟨.xy, ⟨⟨20, 9⟩, ⟨20, -4⟩⟩, .xmax, true, false⟩), (7, ⟨.zx, ⟨⟨1, 0⟩, ⟨1, 0⟩⟩, .none, true, false⟩),
    (8, ⟨.zx, ⟨⟨1, 0⟩, ⟨1, 8⟩⟩, .none, true, false⟩), (9, ⟨.zx, ⟨⟨1, 8⟩, ⟨1, 8⟩⟩, .none, true, false⟩),
    (10, ⟨.zx, ⟨⟨1, 8⟩, ⟨1, 0⟩⟩, .none, true, false⟩)] : List (Nat × BEdge)).lookup n).getD
      ⟨.xy, ⟨⟨0, 0⟩, ⟨0, 0⟩⟩, .none, true, false⟩
  fixed _ := []
  angle _ := 30

theorem triangle_slanted : slantedOf triangleBoard .xy = [⟨⟨3, 6⟩, ⟨0, 0⟩⟩, ⟨⟨8, 0⟩, ⟨3, 6⟩⟩] := by decide +kernel

example : Built triangleBoard ∧ LinesApart triangleBoard ∧
    (∀ p, ∀ a ∈ triangleBoard.polygons p, ∀ b ∈ triangleBoard.polygons p, ¬ Hides triangleBoard.P b a) ∧
    SlantedEnd triangleBoard .x 0 ∧ SlantedEnd triangleBoard .x 8 ∧
    (∀ x : ℚ, 2 ≤ x → x ≤ 4 → ∃ s ∈ slantedOf triangleBoard .xy, Under .h s x) ∧
    Wanted triangleBoard triangleBoard.E .x 20 := by
  refine ⟨⟨?_, ?_, ?_, ?_, ?_⟩, ⟨?_, ?_⟩, ?_, ?_, ?_, ?_, ?_⟩
  · intro p; cases p <;> decide +kernel
  · intro p; cases p <;> decide +kernel
  · intro p; cases p <;> decide +kernel
  · intro p; unfold SameLine Horizontal Vertical; cases p <;> decide +kernel
  · intro p; cases p <;> decide +kernel
  · intro p; unfold Horizontal; cases p <;> decide +kernel
  · intro p; unfold Vertical; cases p <;> decide +kernel
  · intro p a ha b hb
    cases p <;> simp only [triangleBoard, List.mem_cons, List.not_mem_nil, or_false] at ha hb
    · rintro ⟨h1, -⟩
      exact h1 (hb.trans ha.symm)
    rintro ⟨h1, h2, z, h3, h4, h5, h6⟩
    rcases ha with rfl | rfl <;> rcases hb with rfl | rfl
    · exact h1 rfl
    · exact absurd h2 (by decide)
    · have e1 : z ≤ 0 := h4
      have e2 : 1 ≤ z := h5
      linarith
    · exact h1 rfl
  · refine ⟨.xy, .h, rfl, Or.inl ?_⟩
    rw [triangle_slanted]; unfold low high; decide +kernel
  · refine ⟨.xy, .h, rfl, Or.inr ?_⟩
    rw [triangle_slanted]; unfold low high; decide +kernel
  · intro x h1 h2
    rw [triangle_slanted]
    rcases le_or_gt x 3 with h | h
    · exact ⟨_, List.mem_cons_self .., by unfold Under; norm_num [along]; constructor <;> linarith⟩
    · exact ⟨_, List.mem_cons_of_mem _ (List.mem_cons_self ..), by unfold Under; norm_num [along]; constructor <;> linarith⟩
  · refine Or.inr ⟨.xy, 1, by decide, (6, ⟨⟨20, 9⟩, ⟨20, -4⟩⟩), by decide +kernel, by decide +kernel, ?_⟩
    exact .v_xy (by unfold Vertical; decide +kernel)

end Verif.Board
