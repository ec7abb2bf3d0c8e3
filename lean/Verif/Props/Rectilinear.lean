import Verif.Lemmas.Rectilinear
import Verif.Props.Covered

/-!
# Points on the same side of a closed line, and edges in polygons along the axes
-/

namespace Verif.Geom
open Verif.Mesh Spec

/-- C106. Two points of the grid joined by a segment that does not meet the closed line get the same answer, whatever the shape of the
line. What is missing is the points off the grid (see `C106_false`). -/
theorem C106_same_partial {points : List Point} {q q' : Point} (hp : ∀ p ∈ points, OnGrid p) (hq : OnGrid q) (hq' : OnGrid q')
    (h : ∀ p, On ⟨q, q'⟩ p → ¬ OnLine points p) : relationToPoint points q = relationToPoint points q' := by
  by_cases hne : points = []
  · subst hne
    simp [relationToPoint, detectEdges]
  obtain ⟨r, hr, hon, hoff⟩ := C105_evenodd_partial hne hp hq
  obtain ⟨r', hr', hon', hoff'⟩ := C105_evenodd_partial hne hp hq'
  have n : ¬ OnLine points q := h q ⟨0, by simp⟩
  have n' : ¬ OnLine points q' := h q' ⟨1, by simp⟩
  obtain ⟨⟨u, hu⟩, hi⟩ := hoff n
  obtain ⟨⟨u', hu'⟩, hi'⟩ := hoff' n'
  rw [hr, hr']
  have hs := same_side h
  rw [inside_iff n hu, inside_iff n' hu', ← (hi u hu).1, ← (hi' u' hu').1] at hs
  rw [← hon] at n
  rw [← hon'] at n'
  congr 1
  revert n n' hs
  cases r <;> cases r' <;> simp

/-- Two points of a bracket, joined inside it: both inside, and the next to a corner. -/
example : (∀ p ∈ bracket, OnGrid p) ∧ OnGrid ⟨1 / 2, 1⟩ ∧ OnGrid ⟨3 / 4, 5 / 4⟩ ∧
    (∀ p, On ⟨⟨1 / 2, 1⟩, ⟨3 / 4, 5 / 4⟩⟩ p → ¬ OnLine bracket p) := by
  refine ⟨fun p hp => ?_, ⟨2500, 5000, by norm_num, by norm_num⟩, ⟨3750, 6250, by norm_num, by norm_num⟩, ?_⟩
  · simp only [bracket, List.mem_cons, List.not_mem_nil, or_false] at hp
    rcases hp with rfl | rfl | rfl | rfl | rfl | rfl
    · exact ⟨0, 0, by norm_num, by norm_num⟩
    · exact ⟨10000, 0, by norm_num, by norm_num⟩
    · exact ⟨10000, 5000, by norm_num, by norm_num⟩
    · exact ⟨5000, 5000, by norm_num, by norm_num⟩
    · exact ⟨5000, 10000, by norm_num, by norm_num⟩
    · exact ⟨0, 10000, by norm_num, by norm_num⟩
  · rintro p ⟨t, t0, t1, hx, hy⟩ ⟨e, he, s, s0, s1, ex, ey⟩
    simp only [ring, bracket, List.head?_cons, Option.toList_some, List.tail_cons, List.cons_append, List.nil_append,
      List.zipWith_cons_cons, List.zipWith_nil_left, List.mem_cons, List.not_mem_nil, or_false] at he
    rcases he with rfl | rfl | rfl | rfl | rfl | rfl <;> simp only at hx hy ex ey <;> linarith

/-- Two points in a box a thousandth thick, joined by a segment that does not meet its border. One is answered inside, the other
outside. -/
theorem C106_false : ∃ points q q', (∀ p, On ⟨q, q'⟩ p → ¬ OnLine points p) ∧
    relationToPoint points q = some .inside ∧ relationToPoint points q' = some .outside := by
  refine ⟨boxPoints ⟨0, 0⟩ ⟨1, 1 / 1000⟩, ⟨1 / 2, 1 / 2000⟩, ⟨1 - 1 / 1000000, 1 / 2000⟩, ?_, ?_, ?_⟩
  · rintro p ⟨t, t0, t1, hx, hy⟩ ⟨e, he, s, s0, s1, ex, ey⟩
    simp only [ring, boxPoints, List.head?_cons, Option.toList_some, List.tail_cons, List.cons_append, List.nil_append,
      List.zipWith_cons_cons, List.zipWith_nil_left, List.mem_cons, List.not_mem_nil, or_false] at he
    rcases he with rfl | rfl | rfl | rfl <;> simp only at hx hy ex ey <;> linarith
  · rw [relationToPoint_box, relationToPoint.loop]
    decide +kernel
  · rw [relationToPoint_box, relationToPoint.loop]
    decide +kernel

end Verif.Geom

namespace Verif.Board
open Verif.Geom Verif.Geom.Spec
open Verif.Mesh (Sorter tolerance)
open Spec

/-- A horizontal or vertical edge on the grid, along a lane. -/
theorem coarse_lane {a : Segment} (ha : a.p0.x = a.p1.x ∨ a.p0.y = a.p1.y) (hne : a.p0 ≠ a.p1) (ha0 : OnCoarse a.p0) (ha1 : OnCoarse a.p1) :
    ∃ (o : Bool) (σ y s0 s1 : ℚ), (σ = 1 ∨ σ = -1) ∧ s0 < s1 ∧ Coarse s0 ∧ Coarse s1 ∧ Coarse y ∧ a = ⟨pt o (σ * s0) y, pt o (σ * s1) y⟩ := by
  obtain ⟨o, hac, hal⟩ : ∃ o, ac o a.p0 = ac o a.p1 ∧ al o a.p0 ≠ al o a.p1 := by
    rcases ha with h | h
    · exact ⟨false, h, fun h' => hne (congrArg₂ Point.mk h h')⟩
    · exact ⟨true, h, fun h' => hne (congrArg₂ Point.mk h' h)⟩
  obtain ⟨σ, hσ, hlt⟩ : ∃ σ : ℚ, (σ = 1 ∨ σ = -1) ∧ σ * al o a.p0 < σ * al o a.p1 := by
    rcases lt_or_gt_of_ne hal with h | h
    · exact ⟨1, Or.inl rfl, by linarith⟩
    · exact ⟨-1, Or.inr rfl, by linarith⟩
  have hsq : σ * σ = 1 := by rcases hσ with rfl | rfl <;> norm_num
  have hs2 : ∀ x : ℚ, σ * (σ * x) = x := fun x => by rw [← mul_assoc, hsq, one_mul]
  obtain ⟨c0, cy⟩ := (coarse_pt o).1 ha0
  obtain ⟨c1, -⟩ := (coarse_pt o).1 ha1
  refine ⟨o, σ, ac o a.p0, _, _, hσ, hlt, coarse_sign hσ c0, coarse_sign hσ c1, cy, ?_⟩
  rw [hs2, hs2, pt_al]
  conv_rhs => rw [hac, pt_al]

/-- C107. A horizontal or vertical edge against a polygon of any shape along the axes, all on a grid of `1 / 2500`: the detection ends,
and the ranges found together are exactly the parts of the edge in the polygon, border included: all the points that are on a part of the
edge, longer than a point, of which each point is inside the polygon or on its line. A range ends at an end of the edge or on the line of
the polygon. A range found inside is inside but for its ends; a range found along an edge of the polygon is part of that edge. -/
theorem C107_rectilinear (S : OrderSorter Point) (b : Nat) {points : List Point} {edges : List (Nat × Segment)} {a : Segment}
    (hedges : detectEdges points = some (edges.map (·.2))) (hp : ∀ p ∈ points, OnCoarse p) (hrect : Rectilinear points)
    (ha : a.p0.x = a.p1.x ∨ a.p0.y = a.p1.y) (hne : a.p0 ≠ a.p1) (ha0 : OnCoarse a.p0) (ha1 : OnCoarse a.p1) :
    ∃ founds, detectEdge S b points edges a = .ok founds ∧
      (∀ q, (∃ f ∈ founds, On f.range q) ↔
        ∃ s : Segment, s.p0 ≠ s.p1 ∧ On a s.p0 ∧ On a s.p1 ∧ On s q ∧ ∀ p, On s p → Within points p) ∧
      ∀ f ∈ founds, f.polygon = b ∧ f.range.p0 ≠ f.range.p1 ∧
        (∀ p ∈ [f.range.p0, f.range.p1], OnCoarse p ∧ (p = a.p0 ∨ p = a.p1 ∨ OnLine points p)) ∧
        (∀ q, On f.range q → On a q ∧ Within points q) ∧
        (f.other = none → ∀ q, On f.range q → q ≠ f.range.p0 → q ≠ f.range.p1 → Inside points q) ∧
        ∀ n, f.other = some n → ∃ e, (n, e) ∈ edges ∧ ∀ q, On f.range q → On e q := by
  by_cases hmany : ∃ p ∈ points, ∃ p' ∈ points, p ≠ p'
  swap
  · have hone : ∀ p ∈ points, ∀ p' ∈ points, p = p' := by
      intro p h p' h'
      by_contra hc
      exact hmany ⟨p, h, p', h', hc⟩
    have hpne : points ≠ [] := by rintro rfl; simp [detectEdges] at hedges
    have hpoint : ∀ e ∈ ring points, e.p0 = e.p1 := fun e he => hone _ (ring_ends he).1 _ (ring_ends he).2
    have hout : ∀ q, ¬ Inside points q := by
      rintro q ⟨hq, u, hu, hodd⟩
      have : crossings points q u = 0 := by
        unfold crossings
        rw [List.countP_eq_zero]
        intro e he hm
        replace hm := @of_decide_eq_true _ (Classical.propDecidable _) hm
        obtain ⟨p, ⟨t, -, -, hx, hy⟩, hr⟩ := hm
        have hpe : p = e.p0 := by
          rw [← hpoint e he] at hx hy
          exact congrArg₂ Point.mk (by rw [hx]; ring) (by rw [hy]; ring)
        exact hu.2 e.p0 (ring_ends he).1 (hpe ▸ hr)
      rw [this] at hodd
      exact absurd hodd (by decide)
    obtain ⟨founds, hd, -, hnil⟩ := detect_bare S b (a := a) (edges := edges) (fun e he => meet_point (Or.inr
      (hpoint _ ((ring_perm hedges).mem_iff.1 (List.mem_map_of_mem he))))) hpne (fun p h => onGrid_of_coarse (hp p h)) (onGrid_of_coarse ha0)
      (onGrid_of_coarse ha1)
    obtain rfl := hnil fun h => hout _ h.1
    refine ⟨[], hd, fun q => ⟨fun ⟨f, hf, _⟩ => by simp at hf, ?_⟩, by simp⟩
    rintro ⟨s, sne, -, -, -, hin⟩
    have hpin : ∀ q, Within points q → ∀ p ∈ points, q = p := by
      rintro q (⟨e, he, t, -, -, hx, hy⟩ | h) p hp'
      · rw [← hone _ (ring_ends he).1 _ hp']
        rw [← hpoint e he] at hx hy
        exact congrArg₂ Point.mk (by rw [hx]; ring) (by rw [hy]; ring)
      · exact absurd h (hout q)
    obtain ⟨p, hp'⟩ := List.exists_mem_of_ne_nil _ hpne
    exact absurd ((hpin _ (hin s.p0 ⟨0, by simp⟩) p hp').trans (hpin _ (hin s.p1 ⟨1, by simp⟩) p hp').symm) sne
  obtain ⟨o, σ, y, s0, s1, hσ, hlt, c0, c1, cy, rfl⟩ := coarse_lane ha hne ha0 ha1
  have hsq : σ * σ = 1 := by rcases hσ with rfl | rfl <;> norm_num
  have hs2 : ∀ x : ℚ, σ * (σ * x) = x := fun x => by rw [← mul_assoc, hsq, one_mul]
  obtain ⟨founds, hd, h1, h2⟩ := detect_rect S b o hσ hlt c0 c1 cy hedges hp hrect hmany
  have hona : ∀ q, On ⟨pt o (σ * s0) y, pt o (σ * s1) y⟩ q ↔ ac o q = y ∧ s0 ≤ σ * al o q ∧ σ * al o q ≤ s1 := fun q => on_lane o hσ hlt
  have hruns : ∀ {r : Segment} {u v : ℚ}, u ≤ v → Runs (fun t => pt o (σ * t) y) r u v → ∀ q, On r q ↔ ac o q = y ∧ u ≤ σ * al o q ∧ σ * al o q ≤ v := by
    have : ∀ {u v : ℚ}, u ≤ v → ∀ q, On ⟨pt o (σ * u) y, pt o (σ * v) y⟩ q ↔ ac o q = y ∧ u ≤ σ * al o q ∧ σ * al o q ≤ v := by
      intro u v huv q
      rcases huv.lt_or_eq with h | rfl
      · exact on_lane o hσ h
      · rw [on_flat, min_self, max_self]
        have inj : σ * al o q = u ↔ al o q = σ * u := by
          constructor
          · intro h; rw [← h, hs2]
          · intro h; rw [h, hs2]
        constructor
        · rintro ⟨e1, e2, e3⟩
          have := inj.2 (le_antisymm e3 e2)
          exact ⟨e1, this.ge, this.le⟩
        · rintro ⟨e1, e2, e3⟩
          have := inj.1 (le_antisymm e3 e2)
          exact ⟨e1, this.ge, this.le⟩
    rintro r u v huv (rfl | rfl) q
    · exact this huv q
    · rw [on_swap]; exact this huv q
  have hpoint : ∀ q : Point, ac o q = y → q = pt o (σ * (σ * al o q)) y := by
    intro q hq; rw [hs2, ← hq, pt_al]
  have hwithin : ∀ f ∈ founds, ∀ q, On f.range q → On ⟨pt o (σ * s0) y, pt o (σ * s1) y⟩ q ∧ Within points q := by
    intro f hf q hq
    obtain ⟨-, u, v, huv, hr, -, -, c3, c4, hcase⟩ := h1 f hf
    obtain ⟨q1, q2, q3⟩ := (hruns huv.le hr q).1 hq
    refine ⟨(hona q).2 ⟨q1, c3.trans q2, q3.trans c4⟩, ?_⟩
    rw [hpoint q q1]
    rcases hcase with ⟨-, -, h⟩ | ⟨e, he, -, h⟩
    · exact h _ q2 q3
    · exact Or.inl ((onLine_edges hedges _).2 ⟨e, he, h _ q2 q3⟩)
  have hends : ∀ f ∈ founds, f.range.p0 ≠ f.range.p1 ∧ ∀ p ∈ [f.range.p0, f.range.p1], OnCoarse p ∧
      (p = pt o (σ * s0) y ∨ p = pt o (σ * s1) y ∨ OnLine points p) := by
    intro f hf
    obtain ⟨-, u, v, huv, hr, ⟨cu, cv⟩, ⟨lu, lv⟩, -⟩ := h1 f hf
    have cp : ∀ t, Coarse t → OnCoarse (pt o (σ * t) y) := fun t ht =>
      (coarse_pt o).2 (by rw [al_pt, ac_pt]; exact ⟨coarse_sign hσ ht, cy⟩)
    have ne : pt o (σ * u) y ≠ pt o (σ * v) y := fun h => huv.ne ((lane_pt o hσ y).inj u v h)
    have eu : OnCoarse (pt o (σ * u) y) ∧ (pt o (σ * u) y = pt o (σ * s0) y ∨ pt o (σ * u) y = pt o (σ * s1) y ∨ OnLine points (pt o (σ * u) y)) :=
      ⟨cp u cu, lu.imp (fun h => by rw [h]) Or.inr⟩
    have ev : OnCoarse (pt o (σ * v) y) ∧ (pt o (σ * v) y = pt o (σ * s0) y ∨ pt o (σ * v) y = pt o (σ * s1) y ∨ OnLine points (pt o (σ * v) y)) :=
      ⟨cp v cv, Or.inr (lv.imp (fun h => by rw [h]) id)⟩
    rcases hr with hr | hr <;> rw [hr] <;> simp only [List.mem_cons, List.not_mem_nil, or_false]
    · exact ⟨ne, by rintro p (rfl | rfl); exacts [eu, ev]⟩
    · exact ⟨Ne.symm ne, by rintro p (rfl | rfl); exacts [ev, eu]⟩
  refine ⟨founds, hd, fun q => ⟨?_, ?_⟩, ?_⟩
  · rintro ⟨f, hf, hq⟩
    exact ⟨f.range, (hends f hf).1, (hwithin f hf _ ⟨0, by simp⟩).1, (hwithin f hf _ ⟨1, by simp⟩).1, hq, fun p hp => (hwithin f hf p hp).2⟩
  · rintro ⟨s, sne, s0a, s1a, hq, hin⟩
    obtain ⟨x0, x1, x2⟩ := (hona _).1 s0a
    obtain ⟨z0, z1, z2⟩ := (hona _).1 s1a
    obtain ⟨u, v, huv, hr, hu, hv⟩ : ∃ u v, u < v ∧ Runs (fun t => pt o (σ * t) y) s u v ∧ s0 ≤ u ∧ v ≤ s1 := by
      have hsx : s = ⟨pt o (σ * (σ * al o s.p0)) y, pt o (σ * (σ * al o s.p1)) y⟩ := by
        rw [← hpoint _ x0, ← hpoint _ z0]
      have hne' : σ * al o s.p0 ≠ σ * al o s.p1 := by
        intro h
        apply sne
        rw [hpoint _ x0, hpoint _ z0, h]
      rcases lt_or_gt_of_ne hne' with h | h
      · exact ⟨_, _, h, Or.inl hsx, x1, z2⟩
      · exact ⟨_, _, h, Or.inr hsx, z1, x2⟩
    obtain ⟨q1, q2, q3⟩ := (hruns huv.le hr q).1 hq
    obtain ⟨g, hg, u', v', hr', g1, g2⟩ := h2 u v hu huv hv (fun t t1 t2 => hin _ ((hruns huv.le hr _).2
      (by rw [al_pt, ac_pt, hs2]; exact ⟨rfl, t1.le, t2.le⟩))) _ q2 q3
    exact ⟨g, hg, (hruns (g1.trans g2) hr' q).2 ⟨q1, g1, g2⟩⟩
  · intro f hf
    obtain ⟨e1, e2⟩ := hends f hf
    refine ⟨(h1 f hf).1, e1, e2, hwithin f hf, ?_, ?_⟩
    · intro hn q hq n0 n1
      obtain ⟨-, u, v, huv, hr, -, -, -, -, hcase⟩ := h1 f hf
      obtain ⟨q1, q2, q3⟩ := (hruns huv.le hr q).1 hq
      rcases hcase with ⟨-, h, -⟩ | ⟨e, he, hs, -⟩
      · rw [hpoint q q1]
        have nn : ∀ t, q = pt o (σ * t) y → q = f.range.p0 ∨ q = f.range.p1 ∨ (t ≠ u ∧ t ≠ v) := by
          intro t ht
          by_cases hu : t = u
          · rcases hr with hr | hr
            · exact Or.inl (by rw [hr, ht, hu])
            · exact Or.inr (Or.inl (by rw [hr, ht, hu]))
          · by_cases hv : t = v
            · rcases hr with hr | hr
              · exact Or.inr (Or.inl (by rw [hr, ht, hv]))
              · exact Or.inl (by rw [hr, ht, hv])
            · exact Or.inr (Or.inr ⟨hu, hv⟩)
        obtain ⟨m0, m1⟩ := ((nn _ (hpoint q q1)).resolve_left n0).resolve_left n1
        exact h _ (lt_of_le_of_ne q2 (Ne.symm m0)) (lt_of_le_of_ne q3 m1)
      · rw [hn] at hs; cases hs
    · intro n hn
      obtain ⟨-, u, v, huv, hr, -, -, -, -, hcase⟩ := h1 f hf
      rcases hcase with ⟨hs, -⟩ | ⟨e, he, hs, h⟩
      · rw [hn] at hs; cases hs
      · rw [hn, Option.some.injEq] at hs
        subst hs
        refine ⟨e.2, he, fun q hq => ?_⟩
        obtain ⟨q1, q2, q3⟩ := (hruns huv.le hr q).1 hq
        rw [hpoint q q1]
        exact h _ q2 q3

/-- C107. An edge with each of its points strictly inside is found once, whole. -/
theorem C107_inside (S : OrderSorter Point) (b : Nat) {points : List Point} {edges : List (Nat × Segment)} {a : Segment}
    (hedges : detectEdges points = some (edges.map (·.2))) (hp : ∀ p ∈ points, OnCoarse p) (hrect : Rectilinear points)
    (ha : a.p0.x = a.p1.x ∨ a.p0.y = a.p1.y) (hne : a.p0 ≠ a.p1) (ha0 : OnCoarse a.p0) (ha1 : OnCoarse a.p1)
    (hin : ∀ q, On a q → Inside points q) : detectEdge S b points edges a = .ok [⟨b, a, none⟩] := by
  obtain ⟨o, σ, y, s0, s1, hσ, hlt, c0, c1, cy, rfl⟩ := coarse_lane ha hne ha0 ha1
  have hsq : σ * σ = 1 := by rcases hσ with rfl | rfl <;> norm_num
  refine detect_inner S b o hσ hlt c0 c1 cy hedges hp hrect fun t t0 t1 => hin _ ((on_lane o hσ hlt).2 ?_)
  rw [al_pt, ac_pt, ← mul_assoc, hsq, one_mul]
  exact ⟨rfl, t0, t1⟩

/-- C107. An edge that is a point is found once when it is strictly inside, else not at all. -/
theorem C107_point (S : OrderSorter Point) (b : Nat) {points : List Point} {edges : List (Nat × Segment)} {a : Segment}
    (hedges : detectEdges points = some (edges.map (·.2))) (hp : ∀ p ∈ points, OnCoarse p) (hpt : a.p0 = a.p1) (ha : OnCoarse a.p0) :
    ∃ founds, detectEdge S b points edges a = .ok founds ∧ (Inside points a.p0 → founds = [⟨b, a, none⟩]) ∧
      (¬ Inside points a.p0 → founds = []) := by
  have hpne : points ≠ [] := by rintro rfl; simp [detectEdges] at hedges
  have ha' := onGrid_of_coarse ha
  obtain ⟨founds, hd, h1, h2⟩ := detect_bare S b (a := a) (edges := edges) (fun e _ => meet_point (Or.inl hpt)) hpne
    (fun p h => onGrid_of_coarse (hp p h)) ha' (hpt ▸ ha')
  rw [← hpt, and_self] at h1 h2
  exact ⟨founds, hd, h1, h2⟩

theorem bracket_coarse : ∀ p ∈ bracket, OnCoarse p := by
  intro p hp
  simp only [bracket, List.mem_cons, List.not_mem_nil, or_false] at hp
  rcases hp with rfl | rfl | rfl | rfl | rfl | rfl
  · exact ⟨0, 0, by norm_num, by norm_num⟩
  · exact ⟨5000, 0, by norm_num, by norm_num⟩
  · exact ⟨5000, 2500, by norm_num, by norm_num⟩
  · exact ⟨2500, 2500, by norm_num, by norm_num⟩
  · exact ⟨2500, 5000, by norm_num, by norm_num⟩
  · exact ⟨0, 5000, by norm_num, by norm_num⟩

theorem bracket_along : Rectilinear bracket := by
  intro e he
  simp only [ring, bracket, List.head?_cons, Option.toList_some, List.tail_cons, List.cons_append, List.nil_append,
    List.zipWith_cons_cons, List.zipWith_nil_left, List.mem_cons, List.not_mem_nil, or_false] at he
  rcases he with rfl | rfl | rfl | rfl | rfl | rfl <;> norm_num

theorem bracket_relation {q : Point} {edges b r} (hq : OnGrid q) (h1 : detectEdges bracket = some edges) (h2 : detectBounding bracket = some b)
    (h3 : relationToPoint.loop bracket edges b q 0 = some r) : (r = .on ↔ OnLine bracket q) ∧ (r = .inside ↔ Inside bracket q) := by
  obtain ⟨r', h, h'⟩ := relation_grid (by simp [bracket]) (fun p h => onGrid_of_coarse (bracket_coarse p h)) hq
  have : relationToPoint bracket q = some r := by rw [relationToPoint, h1, h2]; exact h3
  simp only [pointRelation, this] at h
  cases h
  exact h'

/-- A vertical edge through a bracket, out of it at the end: hypotheses, a part in the bracket, and a point outside. -/
example : (detectEdges bracket = some (([⟨0, ⟨⟨0, 2⟩, ⟨0, 0⟩⟩⟩, ⟨1, ⟨⟨0, 0⟩, ⟨2, 0⟩⟩⟩, ⟨2, ⟨⟨2, 0⟩, ⟨2, 1⟩⟩⟩, ⟨3, ⟨⟨2, 1⟩, ⟨1, 1⟩⟩⟩,
      ⟨4, ⟨⟨1, 1⟩, ⟨1, 2⟩⟩⟩, ⟨5, ⟨⟨1, 2⟩, ⟨0, 2⟩⟩⟩] : List (Nat × Segment)).map (·.2))) ∧
    (∀ p ∈ bracket, OnCoarse p) ∧ Rectilinear bracket ∧ OnCoarse ⟨1, -1⟩ ∧ OnCoarse ⟨1, 3⟩ ∧
    (∀ p, On ⟨⟨1, 0⟩, ⟨1, 1⟩⟩ p → Within bracket p) ∧ ¬ Within bracket ⟨1, 3⟩ := by
  refine ⟨rfl, bracket_coarse, bracket_along, ⟨2500, -2500, by norm_num, by norm_num⟩, ⟨2500, 7500, by norm_num, by norm_num⟩, ?_, ?_⟩
  · have hmid : Inside bracket ⟨1, 1 / 2⟩ := (bracket_relation (r := .inside) ⟨5000, 2500, by norm_num, by norm_num⟩ rfl rfl
      (by rw [relationToPoint.loop]; decide +kernel)).2.1 rfl
    rintro ⟨x, y⟩ ⟨t, t0, t1, hx, hy⟩
    simp only at hx hy
    have hx' : x = 1 := by linarith
    subst hx'
    have hyt : y = t := by linarith
    subst hyt
    rcases eq_or_lt_of_le t0 with rfl | t0
    · exact Or.inl ⟨⟨⟨0, 0⟩, ⟨2, 0⟩⟩, by simp [ring, bracket], 1 / 2, by norm_num, by norm_num, by norm_num, by norm_num⟩
    rcases eq_or_lt_of_le t1 with rfl | t1
    · exact Or.inl ⟨⟨⟨2, 1⟩, ⟨1, 1⟩⟩, by simp [ring, bracket], 1, by norm_num, by norm_num, by norm_num, by norm_num⟩
    right
    refine (same_side ?_).1 hmid
    rintro p ⟨s, s0, s1, ex, ey⟩ ⟨e, he, k, k0, k1, kx, ky⟩
    simp only at ex ey
    have y0 : 0 < p.y := by nlinarith
    have y1 : p.y < 1 := by nlinarith
    simp only [ring, bracket, List.head?_cons, Option.toList_some, List.tail_cons, List.cons_append, List.nil_append,
      List.zipWith_cons_cons, List.zipWith_nil_left, List.mem_cons, List.not_mem_nil, or_false] at he
    rcases he with rfl | rfl | rfl | rfl | rfl | rfl <;> simp only at kx ky <;> linarith
  · have h := bracket_relation (q := ⟨1, 3⟩) (r := .outside) ⟨5000, 15000, by norm_num, by norm_num⟩ rfl rfl
      (by rw [relationToPoint.loop]; decide +kernel)
    rintro (h' | h')
    · exact absurd (h.1.2 h') (by decide)
    · exact absurd (h.2.2 h') (by decide)

/-- Polygons of any shape along the axes, on the grid. -/
structure Outlines (P : Nat → PPolygon) (polygons : List Nat) : Prop where
  edges : ∀ a ∈ polygons, detectEdges (P a).points = some ((P a).edges.map (·.2))
  coarse : ∀ a ∈ polygons, ∀ p ∈ (P a).points, OnCoarse p
  along : ∀ a ∈ polygons, Rectilinear (P a).points
  thick : ∀ a ∈ polygons, (P a).zmin ≤ (P a).zmax

/-- What there is to know of an edge of such a polygon. -/
theorem outlines_edge {P : Nat → PPolygon} {polygons : List Nat} (hO : Outlines P polygons) {a : Nat} (ha : a ∈ polygons) {e : Nat × Segment}
    (he : e ∈ (P a).edges) :
    (e.2.p0.x = e.2.p1.x ∨ e.2.p0.y = e.2.p1.y) ∧ OnCoarse e.2.p0 ∧ OnCoarse e.2.p1 := by
  have hr := (ring_perm (hO.edges a ha)).mem_iff.1 (List.mem_map_of_mem he)
  obtain ⟨h0, h1⟩ := ring_ends hr
  exact ⟨hO.along a ha _ hr, hO.coarse a ha _ h0, hO.coarse a ha _ h1⟩

/-- The detection among such polygons ends. -/
theorem outlines_detect (S : OrderSorter Point) {P : Nat → PPolygon} {polygons : List Nat} (hO : Outlines P polygons) :
    ∃ s, detectInPolygons S P polygons [] = .ok s := by
  unfold detectInPolygons
  refine fold_ok _ (fun s a ha => fold_ok _ (fun s b hb => ?_) s) []
  split_ifs with hc
  · refine fold_ok _ (fun s e he => ?_) s
    obtain ⟨h1, h3, h4⟩ := outlines_edge hO ha he
    obtain ⟨l, hl⟩ : ∃ l, detectEdge S b (P b).points (P b).edges e.2 = .ok l := by
      by_cases hpt : e.2.p0 = e.2.p1
      · obtain ⟨l, hl, -⟩ := C107_point S b (hO.edges b hb) (hO.coarse b hb) hpt h3
        exact ⟨l, hl⟩
      · obtain ⟨l, hl, -⟩ := C107_rectilinear S b (hO.edges b hb) (hO.coarse b hb) (hO.along b hb) h1 hpt h3 h4
        exact ⟨l, hl⟩
    unfold detectOne
    rw [hl]
    exact ⟨_, rfl⟩
  · exact ⟨s, rfl⟩

/-- Ranges with ends on the grid that cover a segment with nearly the ends of an edge cover the edge. -/
theorem coarsely_covered {a r : Segment} (ha : a.p0.x = a.p1.x ∨ a.p0.y = a.p1.y) (hne : a.p0 ≠ a.p1) (ha0 : OnCoarse a.p0)
    (ha1 : OnCoarse a.p1) (hr : SameEnds r a) {Q : Segment → Prop}
    (hQ : ∀ f, Q f → OnCoarse f.p0 ∧ OnCoarse f.p1 ∧ On a f.p0 ∧ On a f.p1) (h : ∀ q, On r q → ∃ f, Q f ∧ On f q) :
    ∀ q, On a q → ∃ f, Q f ∧ On f q := by
  obtain ⟨o, σ, y, s0, s1, hσ, hlt, c0, c1, cy, rfl⟩ := coarse_lane ha hne ha0 ha1
  have hsq : σ * σ = 1 := by rcases hσ with rfl | rfl <;> norm_num
  have hs2 : ∀ x : ℚ, σ * (σ * x) = x := fun x => by rw [← mul_assoc, hsq, one_mul]
  have tol : tolerance = 1 / 100000000 := rfl
  have hpoint : ∀ q : Point, ac o q = y → q = pt o (σ * (σ * al o q)) y := by
    intro q hq; rw [hs2, ← hq, pt_al]
  have hrange : ∀ f, Q f → ∃ u v, u ≤ v ∧ Coarse u ∧ Coarse v ∧ s0 ≤ u ∧ v ≤ s1 ∧
      ∀ q, On f q ↔ ac o q = y ∧ u ≤ σ * al o q ∧ σ * al o q ≤ v := by
    intro f hf
    obtain ⟨k0, k1, n0, n1⟩ := hQ f hf
    obtain ⟨x0, x1, x2⟩ := (on_lane o hσ hlt).1 n0
    obtain ⟨z0, z1, z2⟩ := (on_lane o hσ hlt).1 n1
    have cu := coarse_sign hσ ((coarse_pt o).1 k0).1
    have cv := coarse_sign hσ ((coarse_pt o).1 k1).1
    have hf' : f = ⟨pt o (σ * (σ * al o f.p0)) y, pt o (σ * (σ * al o f.p1)) y⟩ := by
      rw [← hpoint _ x0, ← hpoint _ z0]
    rcases lt_trichotomy (σ * al o f.p0) (σ * al o f.p1) with hl | hl | hl
    · refine ⟨_, _, hl.le, cu, cv, x1, z2, fun q => ?_⟩
      conv_lhs => rw [hf']
      exact on_lane o hσ hl
    · refine ⟨_, _, hl.le, cu, cv, x1, z2, fun q => ?_⟩
      conv_lhs => rw [hf', ← hl]
      rw [on_flat, min_self, max_self, ← hl]
      have inj : σ * al o q = σ * al o f.p0 ↔ al o q = σ * (σ * al o f.p0) := by
        rw [hs2]
        constructor
        · intro h; rw [← hs2 (al o q), h, hs2]
        · intro h; rw [h]
      constructor
      · rintro ⟨e1, e2, e3⟩
        have := inj.2 (le_antisymm e3 e2)
        exact ⟨e1, this.ge, this.le⟩
      · rintro ⟨e1, e2, e3⟩
        have := inj.1 (le_antisymm e3 e2)
        exact ⟨e1, this.ge, this.le⟩
    · refine ⟨_, _, hl.le, cv, cu, z1, x2, fun q => ?_⟩
      conv_lhs => rw [hf']
      rw [on_swap]
      exact on_lane o hσ hl
  have near : ∀ {p : Point} {s : ℚ}, Near p (pt o (σ * s) y) → |σ * al o p - s| < tolerance := by
    intro p s hn
    have h1 : |al o p - σ * s| < tolerance := by
      cases o
      · exact hn.2
      · exact hn.1
    rcases hσ with rfl | rfl
    · simpa using h1
    · rw [show -1 * al o p - s = -(al o p - -1 * s) by ring, abs_neg]; exact h1
  have same : ∀ {u v : ℚ}, Coarse u → Coarse v → |u - v| < tolerance → u = v := by
    intro u v hu hv huv
    refine (coarse_apart hu hv).resolve_right fun h => ?_
    rw [tol] at huv
    linarith
  have main : ∀ r : Segment, Near r.p0 (pt o (σ * s0) y) → Near r.p1 (pt o (σ * s1) y) → (∀ q, On r q → ∃ f, Q f ∧ On f q) →
      ∀ q, On ⟨pt o (σ * s0) y, pt o (σ * s1) y⟩ q → ∃ f, Q f ∧ On f q := by
    intro r hn0 hn1 h q hq
    obtain ⟨q1, q2, q3⟩ := (on_lane o hσ hlt).1 hq
    have n0 := near hn0
    have n1 := near hn1
    obtain ⟨f0, hf0, hon0⟩ := h r.p0 ⟨0, by simp⟩
    obtain ⟨f1, hf1, hon1⟩ := h r.p1 ⟨1, by simp⟩
    obtain ⟨u0, v0, -, cu0, -, a0, b0, hr0⟩ := hrange f0 hf0
    obtain ⟨u1, v1, -, -, cv1, a1, b1, hr1⟩ := hrange f1 hf1
    obtain ⟨y0, l0, g0⟩ := (hr0 _).1 hon0
    obtain ⟨y1, l1, g1⟩ := (hr1 _).1 hon1
    rw [abs_lt] at n0 n1
    have e0 : u0 = s0 := same cu0 c0 (by rw [abs_lt]; constructor <;> linarith)
    have e1 : v1 = s1 := same cv1 c1 (by rw [abs_lt]; constructor <;> linarith)
    by_cases hlo : σ * al o q ≤ σ * al o r.p0
    · exact ⟨f0, hf0, (hr0 q).2 ⟨q1, by linarith, by linarith⟩⟩
    by_cases hhi : σ * al o r.p1 ≤ σ * al o q
    · exact ⟨f1, hf1, (hr1 q).2 ⟨q1, by linarith, by linarith⟩⟩
    rw [not_le] at hlo hhi
    apply h
    have hr' : r = ⟨pt o (σ * (σ * al o r.p0)) y, pt o (σ * (σ * al o r.p1)) y⟩ := by
      rw [← hpoint _ y0, ← hpoint _ y1]
    rw [hr']
    exact (on_lane o hσ (hlo.trans hhi)).2 ⟨q1, hlo.le, hhi.le⟩
  rcases hr with ⟨hn0, hn1⟩ | ⟨hn0, hn1⟩
  · exact main r hn0 hn1 h
  · exact main ⟨r.p1, r.p0⟩ hn1 hn0 fun q hq => h q (by rw [on_swap] at hq; exact hq)

/-- C108. Among polygons of any shape along the axes, on a grid of `1 / 2500`, the detection ends, and an edge that is then left
unmeshed is covered, from end to end, by polygons of at least the priority of its own, at a common height. -/
theorem C108_covered (S : OrderSorter Point) (S' : Sorter Overlap) {P : Nat → PPolygon} {polygons : List Nat} (hO : Outlines P polygons)
    (E : Nat → BEdge) (hE : ∀ a ∈ polygons, ∀ e ∈ (P a).edges, (E e.1).seg = e.2)
    (hown : ∀ a ∈ polygons, ∀ a' ∈ polygons, ∀ e ∈ (P a).edges, ∀ e' ∈ (P a').edges, e.1 = e'.1 → a = a') :
    ∃ s, detectInPolygons S P polygons [] = .ok s ∧
      ∀ a ∈ polygons, ∀ e ∈ (P a).edges, ∀ os, s.lookup e.1 = some os →
        solveInPolygon S' (E e.1) (os.map (Found.overlap E)) = some false →
        ∀ q, On e.2 q → ∃ b ∈ polygons, Hides P b a ∧ Within (P b).points q := by
  obtain ⟨s, hs⟩ := outlines_detect S hO
  refine ⟨s, hs, fun a ha e he os ho hsolve => ?_⟩
  obtain ⟨hd, k0, k1⟩ := outlines_edge hO ha he
  obtain ⟨hos, hfrom⟩ := (C79_conflicts hO.thick hs e.1).1 os ho
  by_cases hne : e.2.p0 = e.2.p1
  · obtain ⟨f, hf⟩ := List.exists_mem_of_ne_nil _ hos
    obtain ⟨a', ha', b, hb, hh, seg, hseg, l, hl, hfl⟩ := hfrom f hf
    obtain rfl := hown a ha a' ha' e he _ hseg rfl
    have h3 : seg = e.2 := (hE a ha _ hseg).symm.trans (hE a ha e he)
    subst h3
    obtain ⟨l', hl', -, hno⟩ := C107_point S b (hO.edges b hb) (hO.coarse b hb) hne k0
    rw [hl] at hl'
    obtain rfl := Outcome.ok.inj hl'
    rintro q ⟨t, -, -, hx, hy⟩
    have hq : q = e.2.p0 := by
      rw [← hne] at hx hy
      exact congrArg₂ Point.mk (by rw [hx]; ring) (by rw [hy]; ring)
    refine ⟨b, hb, hh, Or.inr ?_⟩
    rw [hq]
    by_contra hc
    rw [hno hc] at hfl
    simp at hfl
  have hcov : ∀ f ∈ os, ∃ b ∈ polygons, Hides P b a ∧ (OnCoarse f.range.p0 ∧ OnCoarse f.range.p1) ∧
      ∀ q, On f.range q → On e.2 q ∧ Within (P b).points q := by
    intro f hf
    obtain ⟨a', ha', b, hb, hh, seg, hseg, l, hl, hfl⟩ := hfrom f hf
    obtain rfl := hown a ha a' ha' e he _ hseg rfl
    have h3 : seg = e.2 := (hE a ha _ hseg).symm.trans (hE a ha e he)
    subst h3
    obtain ⟨l', hl', -, hall⟩ := C107_rectilinear S b (hO.edges b hb) (hO.coarse b hb) (hO.along b hb) hd hne k0 k1
    rw [hl] at hl'
    obtain rfl := Outcome.ok.inj hl'
    obtain ⟨-, -, hc, hw, -⟩ := hall f hfl
    exact ⟨b, hb, hh, ⟨(hc _ (by simp)).1, (hc _ (by simp)).1⟩, hw⟩
  have hon0 : ∀ r : Segment, On r r.p0 := fun r => ⟨0, le_refl _, by norm_num, by ring, by ring⟩
  have hon1 : ∀ r : Segment, On r r.p1 := fun r => ⟨1, by norm_num, le_refl _, by ring, by ring⟩
  have main : ∃ v : Point, (v.x ≠ 0 ∨ v.y ≠ 0) ∧ (0 ≤ v.x ∧ 0 ≤ v.y) ∧ ∀ q, On e.2 q → ∃ t, At e.2.p0 v t q := by
    rcases hd with h | h
    · refine ⟨⟨0, 1⟩, by simp, by norm_num, fun q ⟨t, _, _, hx, hy⟩ => ⟨q.y - e.2.p0.y, ?_, by simp⟩⟩
      rw [hx, h]; simp
    · refine ⟨⟨1, 0⟩, by simp, by norm_num, fun q ⟨t, _, _, hx, hy⟩ => ⟨q.x - e.2.p0.x, by simp, ?_⟩⟩
      rw [hy, h]; simp
  obtain ⟨v, hv, hpos, hat⟩ := main
  obtain ⟨r, hr, first, hfirst, hq⟩ := covered_up S' (o := e.2.p0) (v := v) hv (by
    intro ov hov
    obtain ⟨f, hf, rfl⟩ := List.mem_map.1 hov
    obtain ⟨b, -, -, -, hon⟩ := hcov f hf
    obtain ⟨t0, h0⟩ := hat _ (hon _ (hon0 _)).1
    obtain ⟨t1, h1⟩ := hat _ (hon _ (hon1 _)).1
    exact ⟨t0, t1, h0, h1⟩) (Or.inl hpos) hsolve
  rw [hE a ha e he] at hr
  have hall := coarsely_covered hd hne k0 k1 hr (Q := fun g => ∃ f ∈ os, f.range = g) (by
    rintro _ ⟨f, hf, rfl⟩
    obtain ⟨b, -, -, hc, hon⟩ := hcov f hf
    exact ⟨hc.1, hc.2, (hon _ (hon0 _)).1, (hon _ (hon1 _)).1⟩) (by
    intro q hqr
    have fin : ∀ ov ∈ os.map (Found.overlap E), On ov.range q → ∃ g, (∃ f ∈ os, f.range = g) ∧ On g q := by
      intro ov hov hon
      obtain ⟨f, hf, rfl⟩ := List.mem_map.1 hov
      exact ⟨_, ⟨f, hf, rfl⟩, hon⟩
    rcases hq q hqr with h | ⟨ov, hov, -, h⟩
    · exact fin _ hfirst h
    · exact fin _ hov h)
  intro q hqe
  obtain ⟨_, ⟨f, hf, rfl⟩, hon⟩ := hall q hqe
  obtain ⟨b, hb, hh, -, hw⟩ := hcov f hf
  exact ⟨b, hb, hh, (hw q hon).2⟩

/-- C108. Among such polygons, an edge strictly inside a polygon of at least its priority, and strictly inside or away from each other
such polygon, is left unmeshed. -/
theorem C108_engulfed {S : OrderSorter Point} (S' : Sorter Overlap) {P : Nat → PPolygon} {polygons : List Nat} (hO : Outlines P polygons)
    (E : Nat → BEdge) (hE : ∀ a ∈ polygons, ∀ e ∈ (P a).edges, (E e.1).seg = e.2)
    (hown : ∀ a ∈ polygons, ∀ a' ∈ polygons, ∀ e ∈ (P a).edges, ∀ e' ∈ (P a').edges, e.1 = e'.1 → a = a')
    {s : InPolygon} (hs : detectInPolygons S P polygons [] = .ok s) {a : Nat} (ha : a ∈ polygons) {e : Nat × Segment} (he : e ∈ (P a).edges)
    (hne : e.2.p0 ≠ e.2.p1) (hin : ∃ b ∈ polygons, Hides P b a ∧ ∀ q, On e.2 q → Inside (P b).points q)
    (hall : ∀ b ∈ polygons, Hides P b a → (∀ q, On e.2 q → Inside (P b).points q) ∨ ∀ q, On e.2 q → ¬ Within (P b).points q) :
    ∃ os, s.lookup e.1 = some os ∧ solveInPolygon S' (E e.1) (os.map (Found.overlap E)) = some false := by
  obtain ⟨hd, k0, k1⟩ := outlines_edge hO ha he
  obtain ⟨b, hb, hh, hi⟩ := hin
  obtain ⟨l, hl, hstand⟩ := (C79_conflicts hO.thick hs e.1).2 a ha b hb hh e.2 he
  rw [C107_inside S b (hO.edges b hb) (hO.coarse b hb) (hO.along b hb) hd hne k0 k1 hi] at hl
  obtain rfl := Outcome.ok.inj hl
  obtain ⟨os, ho, g, hgo, -⟩ := hstand _ (List.mem_cons_self ..)
  refine ⟨os, ho, C55_whole S' ?_ (by simpa using List.ne_nil_of_mem hgo) ?_⟩
  · rw [hE a ha e he]
    have far : ∀ {u v : ℚ}, Coarse u → Coarse v → u ≠ v → tolerance ≤ |u - v| := by
      intro u v hu hv huv
      exact le_trans (by norm_num [tolerance]) ((coarse_apart hu hv).resolve_left huv)
    obtain ⟨x0, y0⟩ := (coarse_pt true).1 k0
    obtain ⟨x1, y1⟩ := (coarse_pt true).1 k1
    rcases hd with h | h
    · have hy : e.2.p1.y ≠ e.2.p0.y := fun h' => hne (congrArg₂ Point.mk h h'.symm)
      exact Or.inr ⟨axis_of_v (far y1 y0 hy) h.symm, h⟩
    · have hx : e.2.p1.x ≠ e.2.p0.x := fun h' => hne (congrArg₂ Point.mk h'.symm h)
      exact Or.inl ⟨axis_of_h (far x1 x0 hx) h.symm, h⟩
  · intro ov hov
    obtain ⟨f, hf, rfl⟩ := List.mem_map.1 hov
    obtain ⟨a', ha', b, hb, hh, seg, hseg, l, hl, hfl⟩ := ((C79_conflicts hO.thick hs e.1).1 os ho).2 f hf
    obtain rfl := hown a ha a' ha' e he _ hseg rfl
    have h3 : seg = e.2 := (hE a ha _ hseg).symm.trans (hE a ha e he)
    subst h3
    rcases hall b hb hh with hi | hout
    · rw [C107_inside S b (hO.edges b hb) (hO.coarse b hb) (hO.along b hb) hd hne k0 k1 hi] at hl
      obtain rfl := Outcome.ok.inj hl
      obtain rfl := List.mem_singleton.1 hfl
      exact ⟨(hE a ha e he).symm, by simp [Found.overlap]⟩
    · obtain ⟨l', hl', -, hall'⟩ := C107_rectilinear S b (hO.edges b hb) (hO.coarse b hb) (hO.along b hb) hd hne k0 k1
      rw [hl] at hl'
      obtain rfl := Outcome.ok.inj hl'
      obtain ⟨-, -, -, hw, -⟩ := hall' f hfl
      obtain ⟨g1, g2⟩ := hw f.range.p0 ⟨0, le_refl _, by norm_num, by ring, by ring⟩
      exact absurd g2 (hout _ g1)

/-- The lower part of the bracket is inside. -/
theorem bracket_low : ∀ q : Point, 0 < q.x → 0 < q.y → q.x < 2 → q.y < 1 → Inside bracket q := by
  have hmid : Inside bracket ⟨1 / 2, 1 / 2⟩ := (bracket_relation (r := .inside) ⟨2500, 2500, by norm_num, by norm_num⟩ rfl rfl
    (by rw [relationToPoint.loop]; decide +kernel)).2.1 rfl
  intro q a1 a2 a3 a4
  refine (same_side ?_).1 hmid
  rintro p ⟨s, s0, s1, ex, ey⟩ ⟨e, he, k, k0, k1, kx, ky⟩
  simp only at ex ey
  have x0 : 0 < p.x := by nlinarith
  have x1 : p.x < 2 := by nlinarith
  have y0 : 0 < p.y := by nlinarith
  have y1 : p.y < 1 := by nlinarith
  simp only [ring, bracket, List.head?_cons, Option.toList_some, List.tail_cons, List.cons_append, List.nil_append,
    List.zipWith_cons_cons, List.zipWith_nil_left, List.mem_cons, List.not_mem_nil, or_false] at he
  rcases he with rfl | rfl | rfl | rfl | rfl | rfl <;> simp only at kx ky <;> linarith

/-- A point strictly inside the bracket, on the grid. -/
example : OnCoarse ⟨1 / 2, 1 / 2⟩ ∧ Inside bracket ⟨1 / 2, 1 / 2⟩ :=
  ⟨⟨1250, 1250, by norm_num, by norm_num⟩, bracket_low _ (by norm_num) (by norm_num) (by norm_num) (by norm_num)⟩

/-- A small bracket in a large one of more priority. -/
def nestedBrackets : Nat → PPolygon
  | 0 => ⟨[⟨1 / 4, 1 / 4⟩, ⟨5 / 4, 1 / 4⟩, ⟨5 / 4, 3 / 4⟩, ⟨3 / 4, 3 / 4⟩, ⟨3 / 4, 5 / 4⟩, ⟨1 / 4, 5 / 4⟩],
      [(0, ⟨⟨1 / 4, 5 / 4⟩, ⟨1 / 4, 1 / 4⟩⟩), (1, ⟨⟨1 / 4, 1 / 4⟩, ⟨5 / 4, 1 / 4⟩⟩), (2, ⟨⟨5 / 4, 1 / 4⟩, ⟨5 / 4, 3 / 4⟩⟩),
        (3, ⟨⟨5 / 4, 3 / 4⟩, ⟨3 / 4, 3 / 4⟩⟩), (4, ⟨⟨3 / 4, 3 / 4⟩, ⟨3 / 4, 5 / 4⟩⟩), (5, ⟨⟨3 / 4, 5 / 4⟩, ⟨1 / 4, 5 / 4⟩⟩)], 0, 1, 1⟩
  | _ => ⟨bracket, [(6, ⟨⟨0, 2⟩, ⟨0, 0⟩⟩), (7, ⟨⟨0, 0⟩, ⟨2, 0⟩⟩), (8, ⟨⟨2, 0⟩, ⟨2, 1⟩⟩), (9, ⟨⟨2, 1⟩, ⟨1, 1⟩⟩), (10, ⟨⟨1, 1⟩, ⟨1, 2⟩⟩),
      (11, ⟨⟨1, 2⟩, ⟨0, 2⟩⟩)], 1, 2, 3⟩

/-- Every edge of the small bracket is inside the large one, and is found there; those of the large one are not looked at. -/
example : Outlines nestedBrackets [0, 1] ∧ Hides nestedBrackets 1 0 ∧ ¬ Hides nestedBrackets 0 1 ∧
    (∀ a ∈ [0, 1], ∀ a' ∈ [0, 1], ∀ e ∈ (nestedBrackets a).edges, ∀ e' ∈ (nestedBrackets a').edges, e.1 = e'.1 → a = a') ∧
    (∀ e ∈ (nestedBrackets 0).edges, ∀ q, On e.2 q → Inside (nestedBrackets 1).points q) := by
  refine ⟨⟨?_, ?_, ?_, ?_⟩, ⟨by decide, by decide, 1, by decide +kernel⟩, fun h => absurd h.2.1 (by decide), by decide +kernel, ?_⟩
  · intro a ha
    simp only [List.mem_cons, List.not_mem_nil, or_false] at ha
    rcases ha with rfl | rfl <;> rfl
  · intro a ha
    simp only [List.mem_cons, List.not_mem_nil, or_false] at ha
    rcases ha with rfl | rfl
    · intro p hp
      simp only [nestedBrackets, List.mem_cons, List.not_mem_nil, or_false] at hp
      rcases hp with rfl | rfl | rfl | rfl | rfl | rfl
      · exact ⟨625, 625, by norm_num, by norm_num⟩
      · exact ⟨3125, 625, by norm_num, by norm_num⟩
      · exact ⟨3125, 1875, by norm_num, by norm_num⟩
      · exact ⟨1875, 1875, by norm_num, by norm_num⟩
      · exact ⟨1875, 3125, by norm_num, by norm_num⟩
      · exact ⟨625, 3125, by norm_num, by norm_num⟩
    · exact bracket_coarse
  · intro a ha
    simp only [List.mem_cons, List.not_mem_nil, or_false] at ha
    rcases ha with rfl | rfl
    · intro e he
      simp only [ring, nestedBrackets, List.head?_cons, Option.toList_some, List.tail_cons, List.cons_append, List.nil_append,
        List.zipWith_cons_cons, List.zipWith_nil_left, List.mem_cons, List.not_mem_nil, or_false] at he
      rcases he with rfl | rfl | rfl | rfl | rfl | rfl <;> norm_num
    · exact bracket_along
  · decide +kernel
  · have hmid := bracket_low ⟨1 / 2, 1 / 2⟩ (by norm_num) (by norm_num) (by norm_num) (by norm_num)
    have left : ∀ q : Point, 0 < q.x → 0 < q.y → q.x < 1 → q.y < 2 → Inside bracket q := by
      intro q a1 a2 a3 a4
      refine (same_side ?_).1 hmid
      rintro p ⟨s, s0, s1, ex, ey⟩ ⟨e, he, k, k0, k1, kx, ky⟩
      simp only at ex ey
      have x0 : 0 < p.x := by nlinarith
      have x1 : p.x < 1 := by nlinarith
      have y0 : 0 < p.y := by nlinarith
      have y1 : p.y < 2 := by nlinarith
      simp only [ring, bracket, List.head?_cons, Option.toList_some, List.tail_cons, List.cons_append, List.nil_append,
        List.zipWith_cons_cons, List.zipWith_nil_left, List.mem_cons, List.not_mem_nil, or_false] at he
      rcases he with rfl | rfl | rfl | rfl | rfl | rfl <;> simp only at kx ky <;> linarith
    intro e he q ⟨t, t0, t1, hx, hy⟩
    simp only [nestedBrackets, List.mem_cons, List.not_mem_nil, or_false] at he
    rcases he with rfl | rfl | rfl | rfl | rfl | rfl <;> simp only at hx hy <;>
      first
      | exact bracket_low q (by linarith) (by linarith) (by linarith) (by linarith)
      | exact left q (by linarith) (by linarith) (by linarith) (by linarith)

end Verif.Board
