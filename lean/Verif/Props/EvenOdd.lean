import Verif.Lemmas.EvenOdd

/-!
# The even-odd rule

C105: a point is on the line of a polygon, inside or outside of it.
-/

namespace Verif.Geom
open Verif.Mesh Spec

/-! ## The rays that are tried -/

/-- The end of each ray is beyond the polygon. -/
theorem ray_far {points : List Point} {b : Bounding} (hb : detectBounding points = some b) (q : Point) (n : Nat) :
    ∃ α β m : ℚ, (α ≠ 0 ∨ β ≠ 0) ∧ (∀ p ∈ points, α * p.x + β * p.y ≤ m) ∧
      m < α * (rayEnd b q n).x + β * (rayEnd b q n).y := by
  obtain ⟨hm, -⟩ := C33_tight hb
  match n with
  | 0 => exact ⟨-1, 0, -b.xmin, Or.inl (by norm_num), fun p hp => by have := hm p hp; linarith [this.1], by simp only [rayEnd]; linarith⟩
  | 1 => exact ⟨1, 0, b.xmax, Or.inl (by norm_num), fun p hp => by have := hm p hp; linarith [this.2.1], by simp only [rayEnd]; linarith⟩
  | 2 => exact ⟨0, -1, -b.ymin, Or.inr (by norm_num), fun p hp => by have := hm p hp; linarith [this.2.2.1], by simp only [rayEnd]; linarith⟩
  | 3 => exact ⟨0, 1, b.ymax, Or.inr (by norm_num), fun p hp => by have := hm p hp; linarith [this.2.2.2], by simp only [rayEnd]; linarith⟩
  | n + 4 => exact ⟨1, 0, b.xmax, Or.inl (by norm_num), fun p hp => by have := hm p hp; linarith [this.2.1], by simp only [rayEnd]; linarith⟩

theorem ray_grid {points : List Point} {b : Bounding} (hb : detectBounding points = some b) {q : Point} (hp : ∀ p ∈ points, OnGrid p)
    (hq : OnGrid q) (n : Nat) : OnGrid (rayEnd b q n) := by
  obtain ⟨-, ⟨p1, m1, h1⟩, ⟨p2, m2, h2⟩, ⟨p3, m3, h3⟩, ⟨p4, m4, h4⟩⟩ := C33_tight hb
  obtain ⟨a1, -, e1, -⟩ := hp p1 m1
  obtain ⟨a2, -, e2, -⟩ := hp p2 m2
  obtain ⟨-, a3, -, e3⟩ := hp p3 m3
  obtain ⟨-, a4, -, e4⟩ := hp p4 m4
  obtain ⟨i, j, hx, hy⟩ := hq
  match n with
  | 0 => exact ⟨a1 - 5000, j, by simp only [rayEnd]; rw [← h1, e1]; push_cast; ring, hy⟩
  | 1 => exact ⟨a2 + 5000, j, by simp only [rayEnd]; rw [← h2, e2]; push_cast; ring, hy⟩
  | 2 => exact ⟨i, a3 - 5000, hx, by simp only [rayEnd]; rw [← h3, e3]; push_cast; ring⟩
  | 3 => exact ⟨i, a4 + 5000, hx, by simp only [rayEnd]; rw [← h4, e4]; push_cast; ring⟩
  | n + 4 => exact ⟨a2 + 5000, j + 5000 * (n + 4), by simp only [rayEnd]; rw [← h2, e2]; push_cast; ring,
      by simp only [rayEnd]; rw [hy]; push_cast; ring⟩

theorem scan_clear {q : Point} {ray : Segment} {pts : List Point} (h : scanVertices q ray pts = .clear) :
    ∀ p ∈ pts, p.eq q = false ∧ ray.hasPoint p = false := by
  induction pts with
  | nil => simp
  | cons p pts ih =>
    rw [scanVertices] at h
    split_ifs at h with h1 h2
    intro p' hp'
    rcases List.mem_cons.1 hp' with rfl | hp'
    · exact ⟨by simpa using h1, by simpa using h2⟩
    · exact ih h p' hp'

/-- How the loop on the rays ends. -/
theorem loop_answer {points : List Point} {edges : List Segment} {b : Bounding} {q : Point} {n : Nat} {r : PolygonRel}
    (h : relationToPoint.loop points edges b q n = some r) :
    (∃ m, scanVertices q ⟨q, rayEnd b q m⟩ points = .on ∧ r = .on) ∨
    ∃ m, scanVertices q ⟨q, rayEnd b q m⟩ points = .clear ∧
      ((countCrossings q ⟨q, rayEnd b q m⟩ edges = none ∧ r = .on) ∨
        ∃ c, countCrossings q ⟨q, rayEnd b q m⟩ edges = some c ∧ r = if c % 2 = 1 then .inside else .outside) := by
  refine relationToPoint.loop.partial_correctness points edges b q (fun _ r =>
    (∃ m, scanVertices q ⟨q, rayEnd b q m⟩ points = .on ∧ r = .on) ∨
    ∃ m, scanVertices q ⟨q, rayEnd b q m⟩ points = .clear ∧
      ((countCrossings q ⟨q, rayEnd b q m⟩ edges = none ∧ r = .on) ∨
        ∃ c, countCrossings q ⟨q, rayEnd b q m⟩ edges = some c ∧ r = if c % 2 = 1 then .inside else .outside)) ?_ n r h
  intro loop ih n r hr
  simp only at hr
  split at hr
  · rename_i hs
    exact Or.inl ⟨n, hs, (Option.some.inj hr).symm⟩
  · exact ih _ _ hr
  · rename_i hs
    refine Or.inr ⟨n, hs, ?_⟩
    split at hr
    · rename_i hc
      exact Or.inl ⟨hc, (Option.some.inj hr).symm⟩
    · rename_i c hc
      exact Or.inr ⟨c, hc, (Option.some.inj hr).symm⟩

open Classical in
/-- A ray through no vertex counts right. -/
theorem count_parity {points : List Point} {edges : List Segment} {b : Bounding} (he : detectEdges points = some edges)
    (hb : detectBounding points = some b) {q : Point} (hp : ∀ p ∈ points, OnGrid p) (hq : OnGrid q) {m : Nat}
    (hs : scanVertices q ⟨q, rayEnd b q m⟩ points = .clear) (hoff : ¬ OnLine points q) :
    ∃ c, countCrossings q ⟨q, rayEnd b q m⟩ edges = some c ∧ ∃ v, Usable points q v ∧ (Even c ↔ Even (crossings points q v)) := by
  have hperm := ring_perm he
  have hmem : ∀ e ∈ edges, e.p0 ∈ points ∧ e.p1 ∈ points ∧ ¬ On e q := by
    intro e h
    have h := hperm.mem_iff.1 h
    obtain ⟨h0, h1⟩ := ring_ends h
    exact ⟨h0, h1, fun h' => hoff ⟨e, h, h'⟩⟩
  have hr := ray_grid hb hp hq m
  have hno : ∀ e ∈ edges, e.hasPoint q = false := by
    intro e h
    obtain ⟨h0, h1, h2⟩ := hmem e h
    rw [← Bool.not_eq_true, grid_hasPoint (hp _ h0) (hp _ h1) hq]
    exact h2
  refine ⟨_, countCrossings_some hno, ?_⟩
  obtain ⟨α, β, M, hne, hf, hfr⟩ := ray_far hb q m
  generalize rayEnd b q m = r at *
  rcases le_or_gt (α * q.x + β * q.y) M with hfq | hfq
  · have hclear : ∀ p ∈ points, ¬ OnRay q ⟨r.x - q.x, r.y - q.y⟩ p := by
      rintro p h ⟨t, t0, tx, ty⟩
      simp only at tx ty
      have h2 := (scan_clear hs p h).2
      rw [← Bool.not_eq_true, grid_hasPoint hq hr (hp p h)] at h2
      by_cases ht : t ≤ 1
      · exact h2 ⟨t, t0, ht, tx, ty⟩
      · have h3 := hf p h
        rw [tx, ty] at h3
        nlinarith [not_le.1 ht]
    refine ⟨⟨r.x - q.x, r.y - q.y⟩, ⟨?_, hclear⟩, ?_⟩
    · by_contra h
      simp only [not_or, not_not] at h
      have h1 : r.x = q.x := by linarith
      have h2 : r.y = q.y := by linarith
      rw [h1, h2] at hfr; linarith
    · have : edges.countP (fun e => decide (e.relationTo ⟨q, r⟩ = .crossing)) = crossings points q ⟨r.x - q.x, r.y - q.y⟩ := by
        rw [crossings, ← hperm.countP_eq]
        refine List.countP_congr fun e h => ?_
        obtain ⟨h0, h1, h2⟩ := hmem e h
        simp only [decide_eq_true_eq]
        exact crossing_through (hp _ h0) (hp _ h1) hq hr (hf _ h0) (hf _ h1) hfq hfr h2 (hclear _ h0) (hclear _ h1)
      rw [this]
  · obtain ⟨-, h⟩ := beyond hf hfq
    obtain ⟨h1, h2⟩ := h hne
    refine ⟨_, h1, ?_⟩
    have : edges.countP (fun e => decide (e.relationTo ⟨q, r⟩ = .crossing)) = 0 := by
      rw [List.countP_eq_zero]
      intro e h
      obtain ⟨h0, h1, h2⟩ := hmem e h
      simp only [decide_eq_true_eq]
      exact crossing_beyond (hp _ h0) (hp _ h1) hq hr (hf _ h0) (hf _ h1) hfq hfr
    rw [this, h2]

/-- For any closed line with corners on a grid of a five-thousandth, whatever its shape, and any point of the grid, the question is
answered. The answer is "on" for the points of the line. For the others, there is a ray that goes through no corner, and the answer is
"inside" when such rays meet an odd number of edges, and "outside" when they meet an even number: all of them agree. What is missing is
the points off the grid (see `C105_false`). -/
theorem C105_evenodd_partial {points : List Point} {q : Point} (hne : points ≠ []) (hp : ∀ p ∈ points, OnGrid p) (hq : OnGrid q) :
    ∃ r, relationToPoint points q = some r ∧ (r = .on ↔ OnLine points q) ∧
      (¬ OnLine points q → (∃ u, Usable points q u) ∧ ∀ u, Usable points q u →
        (r = .inside ↔ Odd (crossings points q u)) ∧ (r = .outside ↔ Even (crossings points q u))) := by
  obtain ⟨b, hb⟩ := Option.isSome_iff_exists.1 ((C33_defined points).2 hne)
  have hsome : (relationToPoint points q).isSome := by
    refine C52_polygon_partial q hb fun p h hx hpq => ?_
    obtain ⟨hm, -⟩ := C33_tight hb
    have h1 : 1 ≤ b.xmax + 1 - q.x := by have := (hm p h).2.1; rw [hx] at this; linarith
    have h2 : 2 * tolerance ≤ |p.y - q.y| := by
      by_contra h3
      obtain ⟨i, j, e1, e2⟩ := hp p h
      obtain ⟨k, l, e3, e4⟩ := hq
      have e : p.y - q.y = ((j - l) * 5000 : ℤ) / 25000000 := by rw [e2, e4]; push_cast; ring
      have := grid_product e (by rw [abs_div, abs_two]; linarith [not_le.1 h3])
      have hy : p.y = q.y := by linarith
      simp [Point.eq, hx, hy, coordEq_refl] at hpq
    rw [abs_of_pos (by linarith)]
    nlinarith [abs_nonneg (p.y - q.y)]
  obtain ⟨r, hr⟩ := Option.isSome_iff_exists.1 hsome
  refine ⟨r, hr, ?_⟩
  have hed : ∃ edges, detectEdges points = some edges := by
    cases points with
    | nil => exact absurd rfl hne
    | cons p l => exact ⟨_, by rw [detectEdges, List.getLast?_cons]; rfl⟩
  obtain ⟨edges, he⟩ := hed
  have hloop : relationToPoint.loop points edges b q 0 = some r := by
    rw [relationToPoint, he, hb] at hr
    exact hr
  have hperm := ring_perm he
  rcases loop_answer hloop with ⟨m, hs, rfl⟩ | ⟨m, hs, ⟨hc, rfl⟩ | ⟨c, hc, hrc⟩⟩
  · obtain ⟨p, h1, h2⟩ := scan_on hs
    have h3 := grid_eq (hp p h1) hq h2
    subst h3
    have : OnLine points p := by
      cases points with
      | nil => exact absurd rfl hne
      | cons a l =>
        have : ∃ e ∈ ring (a :: l), e.p1 = p := by
          have hl : ∀ (prev : Point) (l : List Point), p ∈ l → ∃ e ∈ detectEdges.loop prev l, e.p1 = p := by
            intro prev l
            induction l generalizing prev with
            | nil => simp
            | cons x l ih =>
              intro h
              rw [detectEdges.loop]
              rcases List.mem_cons.1 h with rfl | h
              · exact ⟨_, List.mem_cons_self, rfl⟩
              · obtain ⟨e, he, h'⟩ := ih x h
                exact ⟨e, List.mem_cons_of_mem _ he, h'⟩
          rw [ring_cons]
          apply hl
          simp only [List.mem_cons, List.mem_append] at h1 ⊢
          simp only [List.not_mem_nil, or_false]
          tauto
        obtain ⟨e, h4, h5⟩ := this
        exact ⟨e, h4, 1, zero_le_one, le_refl _, by rw [h5]; ring, by rw [h5]; ring⟩
    exact ⟨iff_of_true rfl this, fun h => absurd this h⟩
  · obtain ⟨e, h1, h2⟩ := countCrossings_none.1 hc
    have h1 := hperm.mem_iff.1 h1
    obtain ⟨h3, h4⟩ := ring_ends h1
    have : OnLine points q := ⟨e, h1, (grid_hasPoint (hp _ h3) (hp _ h4) hq).1 h2⟩
    exact ⟨iff_of_true rfl this, fun h => absurd this h⟩
  · have hoff : ¬ OnLine points q := by
      rintro ⟨e, h1, h2⟩
      obtain ⟨h3, h4⟩ := ring_ends h1
      rw [countCrossings_none.2 ⟨e, hperm.mem_iff.2 h1, (grid_hasPoint (hp _ h3) (hp _ h4) hq).2 h2⟩] at hc
      cases hc
    obtain ⟨c', hc', v, hv, hpar⟩ := count_parity he hb hp hq hs hoff
    rw [hc] at hc'
    obtain rfl := Option.some.inj hc'
    refine ⟨iff_of_false (by rw [hrc]; split_ifs <;> simp) hoff, fun _ => ⟨⟨v, hv⟩, fun u hu => ?_⟩⟩
    have h1 := crossings_parity hoff hu hv
    rw [← hpar] at h1
    rw [← Nat.not_even_iff_odd, h1, hrc]
    by_cases h2 : Even c
    · have : c % 2 = 0 := Nat.even_iff.1 h2
      simp [h2, this]
    · have : c % 2 = 1 := Nat.odd_iff.1 (Nat.not_even_iff_odd.1 h2)
      simp [h2, this]

/-- A point beyond a line that has all the polygon on its other side is outside. -/
theorem C105_beyond_partial {points : List Point} {q : Point} (hne : points ≠ []) (hp : ∀ p ∈ points, OnGrid p) (hq : OnGrid q)
    {α β m : ℚ} (hm : ∀ p ∈ points, α * p.x + β * p.y ≤ m) (hqm : m < α * q.x + β * q.y) :
    relationToPoint points q = some .outside := by
  obtain ⟨r, hr, -, h⟩ := C105_evenodd_partial hne hp hq
  obtain ⟨hoff, h2⟩ := beyond hm hqm
  have hab : α ≠ 0 ∨ β ≠ 0 := by
    by_contra hc
    simp only [not_or, not_not] at hc
    obtain ⟨p, l, rfl⟩ := List.exists_cons_of_ne_nil hne
    have := hm p (by simp)
    rw [hc.1, hc.2] at this hqm
    linarith
  obtain ⟨hu, hc⟩ := h2 hab
  have := ((h hoff).2 _ hu).2.2 (by rw [hc]; exact Even.zero)
  rw [hr, this]

/-- A box with a corner bitten off. -/
def bracket : List Point := [⟨0, 0⟩, ⟨2, 0⟩, ⟨2, 1⟩, ⟨1, 1⟩, ⟨1, 2⟩, ⟨0, 2⟩]

/-- A line that crosses itself. -/
def bowTie : List Point := [⟨0, 0⟩, ⟨2, 2⟩, ⟨2, 0⟩, ⟨0, 2⟩]

/-- A bracket, and a line that crosses itself: points inside and outside. -/
example : (bracket ≠ [] ∧ (∀ p ∈ bracket, OnGrid p) ∧ OnGrid ⟨1 / 2, 1⟩ ∧ relationToPoint bracket ⟨1 / 2, 1⟩ = some .inside) ∧
    (∀ p ∈ bracket, 1 * p.x + 1 * p.y ≤ 3) ∧ (3 : ℚ) < 1 * 5 / 2 + 1 * 1 ∧
    (bowTie ≠ [] ∧ (∀ p ∈ bowTie, OnGrid p) ∧ OnGrid ⟨1, 1 / 2⟩ ∧ OnGrid ⟨1 / 2, 1⟩ ∧
      relationToPoint bowTie ⟨1, 1 / 2⟩ = some .outside ∧ relationToPoint bowTie ⟨1 / 2, 1⟩ = some .inside ∧
      relationToPoint bowTie ⟨1, 1⟩ = some .on) := by
  have run : ∀ {pts : List Point} {q : Point} {edges b r}, detectEdges pts = some edges → detectBounding pts = some b →
      relationToPoint.loop pts edges b q 0 = some r → relationToPoint pts q = some r := by
    intro pts q edges b r h1 h2 h3
    rw [relationToPoint, h1, h2]; exact h3
  refine ⟨⟨by simp [bracket], ?_, ⟨2500, 5000, by norm_num, by norm_num⟩, ?_⟩, by decide +kernel, by norm_num, by simp [bowTie], ?_,
    ⟨5000, 2500, by norm_num, by norm_num⟩, ⟨2500, 5000, by norm_num, by norm_num⟩, ?_, ?_, ?_⟩
  · intro p hp
    simp only [bracket, List.mem_cons, List.not_mem_nil, or_false] at hp
    rcases hp with rfl | rfl | rfl | rfl | rfl | rfl
    · exact ⟨0, 0, by norm_num, by norm_num⟩
    · exact ⟨10000, 0, by norm_num, by norm_num⟩
    · exact ⟨10000, 5000, by norm_num, by norm_num⟩
    · exact ⟨5000, 5000, by norm_num, by norm_num⟩
    · exact ⟨5000, 10000, by norm_num, by norm_num⟩
    · exact ⟨0, 10000, by norm_num, by norm_num⟩
  · refine run rfl rfl ?_
    rw [relationToPoint.loop]; decide +kernel
  · intro p hp
    simp only [bowTie, List.mem_cons, List.not_mem_nil, or_false] at hp
    rcases hp with rfl | rfl | rfl | rfl
    · exact ⟨0, 0, by norm_num, by norm_num⟩
    · exact ⟨10000, 10000, by norm_num, by norm_num⟩
    · exact ⟨10000, 0, by norm_num, by norm_num⟩
    · exact ⟨0, 10000, by norm_num, by norm_num⟩
  all_goals
    refine run rfl rfl ?_
    rw [relationToPoint.loop]
    try decide +kernel

/-- A point inside a box a thousandth thick, a hundred times the tolerance away from its border. The ray upwards meets one edge. The
answer is "outside". -/
theorem C105_false : ∃ points q u, Usable points q u ∧ ¬ OnLine points q ∧ Odd (crossings points q u) ∧
    (∀ p ∈ points, 100 * tolerance ≤ |p.x - q.x| ∧ 100 * tolerance ≤ |p.y - q.y|) ∧
    relationToPoint points q = some .outside := by
  refine ⟨boxPoints ⟨0, 0⟩ ⟨1, 1 / 1000⟩, ⟨1 - 1 / 1000000, 1 / 2000⟩, ⟨0, 1⟩, ⟨Or.inr one_ne_zero, ?_⟩, ?_, ?_, by decide +kernel, ?_⟩
  · simp only [boxPoints, List.mem_cons, List.not_mem_nil, or_false]
    rintro p (rfl | rfl | rfl | rfl) ⟨t, -, hx, -⟩ <;> norm_num at hx
  · rintro ⟨e, he, t, h0, h1, hx, hy⟩
    simp only [ring, boxPoints, List.head?_cons, Option.toList_some, List.tail_cons, List.cons_append, List.nil_append,
      List.zipWith_cons_cons, List.zipWith_nil_left, List.mem_cons, List.not_mem_nil, or_false] at he
    rcases he with rfl | rfl | rfl | rfl <;> first | (norm_num at hx; done) | (norm_num at hy; done)
  · have m : ∀ x0 y0 x1 y1 : ℚ, Meets ⟨1 - 1 / 1000000, 1 / 2000⟩ ⟨0, 1⟩ ⟨⟨x0, y0⟩, ⟨x1, y1⟩⟩ ↔
        ∃ t : ℚ, 0 ≤ t ∧ t ≤ 1 ∧ 1 - 1 / 1000000 = x0 + t * (x1 - x0) ∧ 1 / 2000 ≤ y0 + t * (y1 - y0) := by
      intro x0 y0 x1 y1
      constructor
      · rintro ⟨p, ⟨t, h0, h1, hx, hy⟩, ⟨s, hs, sx, sy⟩⟩
        simp only at hx hy sx sy
        exact ⟨t, h0, h1, by linarith, by linarith⟩
      · rintro ⟨t, h0, h1, hx, hy⟩
        refine ⟨⟨x0 + t * (x1 - x0), y0 + t * (y1 - y0)⟩, ⟨t, h0, h1, rfl, rfl⟩, ⟨y0 + t * (y1 - y0) - 1 / 2000, by linarith, ?_, ?_⟩⟩
        · simp only; linarith
        · simp only; ring
    have m1 : ¬ Meets ⟨1 - 1 / 1000000, 1 / 2000⟩ ⟨0, 1⟩ ⟨⟨0, 0⟩, ⟨0, 1 / 1000⟩⟩ := by
      rw [m]; rintro ⟨t, -, -, h, -⟩; norm_num at h
    have m2 : Meets ⟨1 - 1 / 1000000, 1 / 2000⟩ ⟨0, 1⟩ ⟨⟨0, 1 / 1000⟩, ⟨1, 1 / 1000⟩⟩ := by
      rw [m]; exact ⟨1 - 1 / 1000000, by norm_num, by norm_num, by norm_num, by norm_num⟩
    have m3 : ¬ Meets ⟨1 - 1 / 1000000, 1 / 2000⟩ ⟨0, 1⟩ ⟨⟨1, 1 / 1000⟩, ⟨1, 0⟩⟩ := by
      rw [m]; rintro ⟨t, -, -, h, -⟩; norm_num at h
    have m4 : ¬ Meets ⟨1 - 1 / 1000000, 1 / 2000⟩ ⟨0, 1⟩ ⟨⟨1, 0⟩, ⟨0, 0⟩⟩ := by
      rw [m]; rintro ⟨t, -, -, -, h⟩; norm_num at h
    have : crossings (boxPoints ⟨0, 0⟩ ⟨1, 1 / 1000⟩) ⟨1 - 1 / 1000000, 1 / 2000⟩ ⟨0, 1⟩ = 1 := by
      simp only [crossings, ring, boxPoints, List.head?_cons, Option.toList_some, List.tail_cons, List.cons_append, List.nil_append,
        List.zipWith_cons_cons, List.zipWith_nil_left, List.countP_cons, List.countP_nil, m1, m2, m3, m4]
      simp
    rw [this]; exact odd_one
  · rw [relationToPoint_box, relationToPoint.loop]
    decide +kernel

end Verif.Geom
