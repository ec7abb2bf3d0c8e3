import Verif.Props.Detection
import Verif.Props.InPolygonAdd
import Verif.Props.InPolygon

/-!
# C79: from the detection to the edges left unmeshed
-/

namespace Verif.Board
open Verif.Geom Verif.Geom.Spec
open Verif.Mesh (tolerance Sorter)
open Spec

/-- The edges of polygon `a` are looked for in polygon `b`: another polygon, of at least the same priority, at a common
height. -/
def Hides (P : Nat → PPolygon) (b a : Nat) : Prop :=
  b ≠ a ∧ (P a).priority ≤ (P b).priority ∧ ∃ z, (P a).zmin ≤ z ∧ z ≤ (P a).zmax ∧ (P b).zmin ≤ z ∧ z ≤ (P b).zmax

theorem concerns_iff {P : Nat → PPolygon} {a b : Nat} (ha : (P a).zmin ≤ (P a).zmax) (hb : (P b).zmin ≤ (P b).zmax) :
    concerns P a b = true ↔ Hides P b a := by
  unfold concerns Hides overlap1D
  simp only [Bool.and_eq_true, Bool.not_eq_true', decide_eq_false_iff_not, decide_eq_true_eq, ge_iff_le, not_lt,
    max_le_iff, le_min_iff, gt_iff_lt, and_assoc]
  refine and_congr_right fun _ => and_congr_right fun _ => ?_
  constructor
  · rintro ⟨-, h2, h3, -⟩
    refine ⟨max (P a).zmin (P b).zmin, le_max_left _ _, max_le ha h3, le_max_right _ _, max_le h2 hb⟩
  · rintro ⟨z, h1, h2, h3, h4⟩
    exact ⟨hb, by linarith, by linarith, ha⟩

theorem adds_append (l m : List (Nat × Found)) (s : InPolygon) : adds (l ++ m) s = adds m (adds l s) := by
  simp [adds, List.foldl_append]

/-- A loop of which each round registers the reports of `Q`. -/
theorem fold_adds {α : Type} {g : InPolygon → α → Outcome InPolygon} {Q : α → Nat × Found → Prop}
    (hg : ∀ s a s', g s a = .ok s' → ∃ L, s' = adds L s ∧ ∀ x, x ∈ L ↔ Q a x) (l : List α) :
    ∀ s s', Outcome.fold g s l = .ok s' → ∃ L, s' = adds L s ∧ ∀ x, x ∈ L ↔ ∃ a ∈ l, Q a x := by
  induction l with
  | nil =>
    intro s s' h
    rw [Outcome.fold] at h
    obtain rfl := Outcome.ok.inj h
    exact ⟨[], rfl, by simp⟩
  | cons a l ih =>
    intro s s' h
    rw [Outcome.fold] at h
    cases hs : g s a with
    | ub => rw [hs] at h; simp [Outcome.bind] at h
    | diverges => rw [hs] at h; simp [Outcome.bind] at h
    | ok s1 =>
      rw [hs] at h
      obtain ⟨L1, rfl, h1⟩ := hg s a s1 hs
      obtain ⟨L2, rfl, h2⟩ := ih _ s' h
      exact ⟨L1 ++ L2, (adds_append L1 L2 s).symm, fun x => by simp [h1, h2]⟩

/-- A loop of which each round ends. -/
theorem fold_ok {α : Type} {g : InPolygon → α → Outcome InPolygon} (l : List α)
    (hg : ∀ s, ∀ a ∈ l, ∃ s', g s a = .ok s') : ∀ s, ∃ s', Outcome.fold g s l = .ok s' := by
  induction l with
  | nil => exact fun s => ⟨s, rfl⟩
  | cons a l ih =>
    intro s
    obtain ⟨s1, h1⟩ := hg s a (by simp)
    obtain ⟨s2, h2⟩ := ih (fun s a ha => hg s a (by simp [ha])) s1
    exact ⟨s2, by rw [Outcome.fold, h1]; exact h2⟩

/-- When a loop ends, so did each round. -/
theorem fold_each {α : Type} {g : InPolygon → α → Outcome InPolygon} (l : List α) :
    ∀ s s', Outcome.fold g s l = .ok s' → ∀ a ∈ l, ∃ s1 s2, g s1 a = .ok s2 := by
  induction l with
  | nil => simp
  | cons a l ih =>
    intro s s' h
    rw [Outcome.fold] at h
    cases hs : g s a with
    | ub => rw [hs] at h; simp [Outcome.bind] at h
    | diverges => rw [hs] at h; simp [Outcome.bind] at h
    | ok s1 =>
      rw [hs] at h
      rintro a' (_ | ⟨_, ha⟩)
      · exact ⟨s, s1, hs⟩
      · exact ih _ _ h a' ha

theorem detect_each {S : OrderSorter Point} {P : Nat → PPolygon} {polygons : List Nat} {s s' : InPolygon}
    (h : detectInPolygons S P polygons s = .ok s') {a b : Nat} (ha : a ∈ polygons) (hb : b ∈ polygons)
    (hc : concerns P a b = true) {e : Nat × Segment} (he : e ∈ (P a).edges) :
    ∃ l, detectEdge S b (P b).points (P b).edges e.2 = .ok l := by
  unfold detectInPolygons at h
  obtain ⟨s1, s2, h1⟩ := fold_each _ _ _ h a ha
  obtain ⟨s3, s4, h2⟩ := fold_each _ _ _ h1 b hb
  rw [if_pos hc] at h2
  obtain ⟨s5, s6, h3⟩ := fold_each _ _ _ h2 e he
  unfold detectOne at h3
  cases hd : detectEdge S b (P b).points (P b).edges e.2 with
  | ub => rw [hd] at h3; simp [Outcome.map, Outcome.bind] at h3
  | diverges => rw [hd] at h3; simp [Outcome.map, Outcome.bind] at h3
  | ok l => exact ⟨l, rfl⟩

/-- What the detection reports, as a whole. -/
def Reported (S : OrderSorter Point) (P : Nat → PPolygon) (polygons : List Nat) (x : Nat × Found) : Prop :=
  ∃ a ∈ polygons, ∃ b ∈ polygons, concerns P a b = true ∧ ∃ e ∈ (P a).edges, e.1 = x.1 ∧
    ∃ l, detectEdge S b (P b).points (P b).edges e.2 = .ok l ∧ x.2 ∈ l

theorem detect_reports {S : OrderSorter Point} {P : Nat → PPolygon} {polygons : List Nat} {s s' : InPolygon}
    (h : detectInPolygons S P polygons s = .ok s') :
    ∃ L, s' = adds L s ∧ ∀ x, x ∈ L ↔ Reported S P polygons x := by
  unfold detectInPolygons at h
  refine fold_adds (Q := fun a x => ∃ b ∈ polygons, concerns P a b = true ∧ ∃ e ∈ (P a).edges, e.1 = x.1 ∧
    ∃ l, detectEdge S b (P b).points (P b).edges e.2 = .ok l ∧ x.2 ∈ l) ?_ polygons s s' h
  intro s a s' h
  refine fold_adds (Q := fun b x => concerns P a b = true ∧ ∃ e ∈ (P a).edges, e.1 = x.1 ∧
    ∃ l, detectEdge S b (P b).points (P b).edges e.2 = .ok l ∧ x.2 ∈ l) ?_ polygons s s' h
  intro s b s' h
  split_ifs at h with hc
  · have := fold_adds (Q := fun e x => e.1 = x.1 ∧
      ∃ l, detectEdge S b (P b).points (P b).edges e.2 = .ok l ∧ x.2 ∈ l) ?_ (P a).edges s s' h
    · simpa [hc] using this
    · intro s e s' h
      unfold detectOne at h
      cases hd : detectEdge S b (P b).points (P b).edges e.2 with
      | ub => rw [hd] at h; simp [Outcome.map, Outcome.bind] at h
      | diverges => rw [hd] at h; simp [Outcome.map, Outcome.bind] at h
      | ok l =>
        rw [hd] at h
        simp only [Outcome.map, Outcome.bind, Outcome.ok.injEq] at h
        refine ⟨l.map fun f => (e.1, f), ?_, ?_⟩
        · rw [← h]
          simp [adds, List.foldl_map]
        · rintro ⟨n, f⟩
          simp only [List.mem_map, Prod.mk.injEq, Outcome.ok.injEq]
          constructor
          · rintro ⟨f', hf', rfl, rfl⟩
            exact ⟨rfl, l, rfl, hf'⟩
          · rintro ⟨rfl, l', rfl, hf⟩
            exact ⟨f, hf, rfl, rfl⟩
  · obtain rfl := Outcome.ok.inj h
    exact ⟨[], rfl, by simp [hc]⟩

/-- C79. After the detection, the conflict of an edge is made of overlaps found between that edge and a polygon that hides
its own, and one stands for each that was found; an edge for which none was found has no conflict. -/
theorem C79_conflicts {S : OrderSorter Point} {P : Nat → PPolygon} {polygons : List Nat} {s : InPolygon}
    (hz : ∀ a ∈ polygons, (P a).zmin ≤ (P a).zmax) (h : detectInPolygons S P polygons [] = .ok s) (n : Nat) :
    (∀ os, s.lookup n = some os → os ≠ [] ∧ ∀ f ∈ os, ∃ a ∈ polygons, ∃ b ∈ polygons, Hides P b a ∧
      ∃ seg, (n, seg) ∈ (P a).edges ∧ ∃ l, detectEdge S b (P b).points (P b).edges seg = .ok l ∧ f ∈ l) ∧
    ∀ a ∈ polygons, ∀ b ∈ polygons, Hides P b a → ∀ seg, (n, seg) ∈ (P a).edges →
      ∃ l, detectEdge S b (P b).points (P b).edges seg = .ok l ∧
        ∀ f ∈ l, ∃ os, s.lookup n = some os ∧ ∃ g ∈ os, StandsFor g f := by
  obtain ⟨L, rfl, hL⟩ := detect_reports h
  obtain ⟨-, hkeys, hlook⟩ := C76_registered L
  have hrep : ∀ f, f ∈ reportedFor n L ↔ (n, f) ∈ L := by
    intro f
    unfold reportedFor
    simp only [List.mem_map, List.mem_filter, decide_eq_true_eq]
    constructor
    · rintro ⟨⟨m, g⟩, ⟨h1, h2⟩, rfl⟩
      simp only at h2
      exact h2 ▸ h1
    · exact fun h => ⟨(n, f), ⟨h, rfl⟩, rfl⟩
  constructor
  · intro os ho
    obtain ⟨h1, h2, h3⟩ := hlook n os ho
    constructor
    · rintro rfl
      have hm : n ∈ (adds L []).map (·.1) := by
        by_contra hm
        have : (adds L []).lookup n = none := by
          rw [List.lookup_eq_none_iff]
          intro p hp
          by_contra hc
          have : n = p.1 := by simpa using hc
          exact hm (this ▸ List.mem_map_of_mem hp)
        rw [this] at ho
        simp at ho
      rw [hkeys] at hm
      obtain ⟨⟨m, f⟩, hf, rfl⟩ := List.mem_map.1 hm
      obtain ⟨g, hg, -⟩ := h3 f ((hrep f).2 hf)
      simp at hg
    · intro f hf
      obtain ⟨a, ha, b, hb, hc, ⟨m, seg⟩, he, rfl, l, hl, hfl⟩ := (hL _).1 ((hrep f).1 (h1.subset hf))
      exact ⟨a, ha, b, hb, (concerns_iff (hz a ha) (hz b hb)).1 hc, seg, he, l, hl, hfl⟩
  · intro a ha b hb hh seg he
    obtain ⟨l, hl⟩ : ∃ l, detectEdge S b (P b).points (P b).edges seg = .ok l := by
      exact detect_each h ha hb ((concerns_iff (hz a ha) (hz b hb)).2 hh) he
    refine ⟨l, hl, fun f hf => ?_⟩
    have hin : (n, f) ∈ L := (hL _).2 ⟨a, ha, b, hb, (concerns_iff (hz a ha) (hz b hb)).2 hh, (n, seg), he, rfl, l, hl, hf⟩
    have hm : n ∈ (adds L []).map (·.1) := (hkeys n).2 (List.mem_map.2 ⟨_, hin, rfl⟩)
    cases ho : (adds L []).lookup n with
    | none =>
      rw [List.lookup_eq_none_iff] at ho
      obtain ⟨p, hp, rfl⟩ := List.mem_map.1 hm
      have := ho p hp
      simp at this
    | some os => exact ⟨os, rfl, (hlook n os ho).2.2 f ((hrep f).2 hin)⟩

/-- The polygon is a box with these corners, not flat. -/
structure IsBox (p : PPolygon) (p1 p3 : Point) : Prop where
  points : p.points = boxPoints p1 p3
  edges : detectEdges p.points = some (p.edges.map (·.2))
  wide : p1.x ≠ p3.x
  high : p1.y ≠ p3.y
  thick : p.zmin ≤ p.zmax

/-- Boxes of which any two coordinates are the same or clearly apart. -/
structure Boxes (P : Nat → PPolygon) (c1 c3 : Nat → Point) (polygons : List Nat) : Prop where
  box : ∀ a ∈ polygons, IsBox (P a) (c1 a) (c3 a)
  xs : ∀ a ∈ polygons, ∀ b ∈ polygons, ∀ u ∈ [(c1 a).x, (c3 a).x], ∀ v ∈ [(c1 b).x, (c3 b).x], Clear u v
  ys : ∀ a ∈ polygons, ∀ b ∈ polygons, ∀ u ∈ [(c1 a).y, (c3 a).y], ∀ v ∈ [(c1 b).y, (c3 b).y], Clear u v

/-- An edge of a box is horizontal or vertical, and goes from corner to corner. -/
theorem box_edge {p : PPolygon} {p1 p3 : Point} (hb : IsBox p p1 p3) {e : Nat × Segment} (he : e ∈ p.edges) :
    (e.2.p0.x = e.2.p1.x ∨ e.2.p0.y = e.2.p1.y) ∧ e.2.p0 ≠ e.2.p1 ∧
    (∀ u ∈ [e.2.p0.x, e.2.p1.x], u ∈ [p1.x, p3.x]) ∧ ∀ u ∈ [e.2.p0.y, e.2.p1.y], u ∈ [p1.y, p3.y] := by
  have h1 := hb.edges
  rw [hb.points] at h1
  have h2 : p.edges.map (·.2) = Geom.boxEdges p1 p3 := (Option.some.inj h1).symm
  have h3 : e.2 ∈ Geom.boxEdges p1 p3 := h2 ▸ List.mem_map_of_mem he
  have hw := hb.wide
  have hh := hb.high
  simp only [Geom.boxEdges, List.mem_cons, List.not_mem_nil, or_false] at h3
  rcases h3 with h | h | h | h <;> rw [h] <;> simp [hw, hh, hw.symm, hh.symm]

/-- The coordinates of an edge of a box and of another box are clear. -/
theorem boxes_clear {c1 c3 : Nat → Point} {polygons : List Nat} {a b : Nat} (ha : a ∈ polygons) (hb : b ∈ polygons)
    (s t : ℚ) (F : Point → ℚ) (hs : ∀ u ∈ [s, t], u ∈ [F (c1 a), F (c3 a)])
    (hc : ∀ a ∈ polygons, ∀ b ∈ polygons, ∀ u ∈ [F (c1 a), F (c3 a)], ∀ v ∈ [F (c1 b), F (c3 b)], Clear u v) :
    ∀ u ∈ [s, t, F (c1 b), F (c3 b)], ∀ v ∈ [s, t, F (c1 b), F (c3 b)], Clear u v := by
  intro u hu v hv
  have fix : ∀ u ∈ [s, t, F (c1 b), F (c3 b)], ∃ d ∈ polygons, u ∈ [F (c1 d), F (c3 d)] := by
    intro u hu
    rw [show [s, t, F (c1 b), F (c3 b)] = [s, t] ++ [F (c1 b), F (c3 b)] from rfl, List.mem_append] at hu
    rcases hu with hu | hu
    · exact ⟨a, ha, hs u hu⟩
    · exact ⟨b, hb, hu⟩
  obtain ⟨d, hd, hu⟩ := fix u hu
  obtain ⟨d', hd', hv⟩ := fix v hv
  exact hc d hd d' hd' u hu v hv

/-- Each edge of the boxes, against another box. -/
theorem boxes_found (S : OrderSorter Point) {P : Nat → PPolygon} {c1 c3 : Nat → Point} {polygons : List Nat}
    (hB : Boxes P c1 c3 polygons) {a b : Nat} (ha : a ∈ polygons) (hb : b ∈ polygons) {e : Nat × Segment}
    (he : e ∈ (P a).edges) :
    ∃ founds, detectEdge S b (P b).points (P b).edges e.2 = .ok founds ∧
      ∀ q, (∃ f ∈ founds, On f.range q) ↔
        On e.2 q ∧ WithinBox (c1 b) (c3 b) q ∧ ∃ q', q' ≠ q ∧ On e.2 q' ∧ WithinBox (c1 b) (c3 b) q' := by
  obtain ⟨h1, h2, h3, h4⟩ := box_edge (hB.box a ha) he
  have hbb := hB.box b hb
  have hed := hbb.edges
  rw [hbb.points] at hed ⊢
  obtain ⟨founds, hd, hex, -⟩ := C77_box S b hed h1 h2 hbb.wide hbb.high (boxes_clear ha hb _ _ (fun p => p.x) h3 hB.xs)
    (boxes_clear ha hb _ _ (fun p => p.y) h4 hB.ys)
  exact ⟨founds, hd, hex⟩

/-- What is over the nearest coordinate of a range with nearly the same ends is over the coordinate, when clear of the
ends. -/
theorem nearest_along {u0 u1 r0 r1 t : ℚ} (hu : 1 / 5000 ≤ u1 - u0) (h0 : |r0 - u0| < tolerance) (h1 : |r1 - u1| < tolerance)
    (ht0 : u0 ≤ t) (ht1 : t ≤ u1) : ∃ k : ℚ, 0 ≤ k ∧ k ≤ 1 ∧ ∀ l, Clear u0 l → Clear u1 l →
      (l ≤ r0 + k * (r1 - r0) → l ≤ t) ∧ (r0 + k * (r1 - r0) ≤ l → t ≤ l) := by
  have ht : tolerance = 1 / 100000000 := rfl
  rw [ht, abs_lt] at h0 h1
  rcases lt_or_ge t r0 with h | h
  · refine ⟨0, le_refl _, by norm_num, fun l hl _ => ⟨fun hle => ?_, fun hle => by linarith⟩⟩
    rcases hl with rfl | hl
    · exact ht0
    · rcases abs_cases (u0 - l) with ⟨e, -⟩ | ⟨e, -⟩ <;> rw [e] at hl <;> linarith
  rcases lt_or_ge r1 t with h' | h'
  · refine ⟨1, by norm_num, le_refl _, fun l _ hl => ⟨fun hle => by linarith, fun hle => ?_⟩⟩
    rcases hl with rfl | hl
    · exact ht1
    · rcases abs_cases (u1 - l) with ⟨e, -⟩ | ⟨e, -⟩ <;> rw [e] at hl <;> linarith
  have hr : 0 < r1 - r0 := by linarith
  have e : r0 + (t - r0) / (r1 - r0) * (r1 - r0) = t := by rw [div_mul_cancel₀ _ hr.ne']; ring
  exact ⟨(t - r0) / (r1 - r0), div_nonneg (by linarith) hr.le, (div_le_one hr).2 (by linarith), fun l _ _ => by rw [e]; simp⟩

theorem nearest_across {c x0 x1 k : ℚ} (h0 : |x0 - c| < tolerance) (h1 : |x1 - c| < tolerance) (hk0 : 0 ≤ k) (hk1 : k ≤ 1) {l : ℚ}
    (hl : Clear c l) : (l ≤ x0 + k * (x1 - x0) → l ≤ c) ∧ (x0 + k * (x1 - x0) ≤ l → c ≤ l) := by
  have ht : tolerance = 1 / 100000000 := rfl
  rw [ht, abs_lt] at h0 h1
  have e1 : x0 + k * (x1 - x0) < c + 1 / 5000 := by nlinarith
  have e2 : c - 1 / 5000 < x0 + k * (x1 - x0) := by nlinarith
  rcases hl with rfl | hl
  · exact ⟨fun _ => le_refl _, fun _ => le_refl _⟩
  · constructor <;> intro h <;> rcases abs_cases (c - l) with ⟨e, -⟩ | ⟨e, -⟩ <;> rw [e] at hl <;> linarith

theorem within_of {p1 p3 q q' : Point} (hx : ∀ l ∈ [p1.x, p3.x], (l ≤ q'.x → l ≤ q.x) ∧ (q'.x ≤ l → q.x ≤ l))
    (hy : ∀ l ∈ [p1.y, p3.y], (l ≤ q'.y → l ≤ q.y) ∧ (q'.y ≤ l → q.y ≤ l)) (h : WithinBox p1 p3 q') : WithinBox p1 p3 q := by
  obtain ⟨h1, h2, h3, h4⟩ := h
  have hx1 := hx p1.x (by simp)
  have hx3 := hx p3.x (by simp)
  have hy1 := hy p1.y (by simp)
  have hy3 := hy p3.y (by simp)
  rw [min_le_iff] at h1 h3
  rw [le_max_iff] at h2 h4
  refine ⟨?_, ?_, ?_, ?_⟩
  · rw [min_le_iff]; exact h1.imp hx1.1 hx3.1
  · rw [le_max_iff]; exact h2.imp hx1.2 hx3.2
  · rw [min_le_iff]; exact h3.imp hy1.1 hy3.1
  · rw [le_max_iff]; exact h4.imp hy1.2 hy3.2

/-- A segment between clear coordinates, flat or upright, of which a copy with nearly the same ends is in boxes, is in them. -/
theorem exactly_covered {s r : Segment} (hs : (s.p0.x = s.p1.x ∧ s.p0.y ≠ s.p1.y) ∨ (s.p0.y = s.p1.y ∧ s.p0.x ≠ s.p1.x))
    (hr : SameEnds r s) {Q : Nat → Prop} {c1 c3 : Nat → Point} (hsx : Clear s.p1.x s.p0.x) (hsy : Clear s.p1.y s.p0.y)
    (hx : ∀ b, Q b → ∀ u ∈ [s.p0.x, s.p1.x], ∀ l ∈ [(c1 b).x, (c3 b).x], Clear u l)
    (hy : ∀ b, Q b → ∀ u ∈ [s.p0.y, s.p1.y], ∀ l ∈ [(c1 b).y, (c3 b).y], Clear u l)
    (h : ∀ q, On r q → ∃ b, Q b ∧ WithinBox (c1 b) (c3 b) q) : ∀ q, On s q → ∃ b, Q b ∧ WithinBox (c1 b) (c3 b) q := by
  have swap : ∀ (a : Segment) q, On a q → On ⟨a.p1, a.p0⟩ q := by
    rintro a q ⟨t, h0, h1, ex, ey⟩
    exact ⟨1 - t, by linarith, by linarith, by rw [ex]; ring, by rw [ey]; ring⟩
  have main : ∀ (p0 p1 : Point) (r : Segment), Near r.p0 p0 → Near r.p1 p1 →
      ((p0.x = p1.x ∧ p0.y < p1.y) ∨ (p0.y = p1.y ∧ p0.x < p1.x)) → Clear p1.x p0.x → Clear p1.y p0.y →
      (∀ b, Q b → ∀ u ∈ [p0.x, p1.x], ∀ l ∈ [(c1 b).x, (c3 b).x], Clear u l) →
      (∀ b, Q b → ∀ u ∈ [p0.y, p1.y], ∀ l ∈ [(c1 b).y, (c3 b).y], Clear u l) →
      (∀ q, On r q → ∃ b, Q b ∧ WithinBox (c1 b) (c3 b) q) → ∀ q, On ⟨p0, p1⟩ q → ∃ b, Q b ∧ WithinBox (c1 b) (c3 b) q := by
    rintro p0 p1 r hn0 hn1 hd hcx hcy hx hy h q ⟨t, ht0, ht1, ex, ey⟩
    dsimp only at ex ey
    have gap : ∀ {a b : ℚ}, Clear b a → a < b → 1 / 5000 ≤ b - a := by
      rintro a b (rfl | h) hlt
      · exact absurd hlt (lt_irrefl _)
      · rwa [abs_of_pos (by linarith)] at h
    rcases hd with ⟨e, hlt⟩ | ⟨e, hlt⟩
    · have g1 := mul_nonneg ht0 (sub_nonneg.2 hlt.le)
      have g2 := mul_nonneg (sub_nonneg.2 ht1) (sub_nonneg.2 hlt.le)
      obtain ⟨k, hk0, hk1, hk⟩ := nearest_along (gap hcy hlt) hn0.2 hn1.2 (t := q.y) (by linarith) (by linarith)
      obtain ⟨b, hb, hw⟩ := h ⟨r.p0.x + k * (r.p1.x - r.p0.x), r.p0.y + k * (r.p1.y - r.p0.y)⟩ ⟨k, hk0, hk1, rfl, rfl⟩
      refine ⟨b, hb, within_of (fun l hl => ?_) (fun l hl => hk l (hy b hb _ (by simp) l hl) (hy b hb _ (by simp) l hl)) hw⟩
      have e' : q.x = p0.x := by rw [ex, e]; ring
      rw [e']
      exact nearest_across hn0.1 (by rw [e]; exact hn1.1) hk0 hk1 (hx b hb _ (by simp) l hl)
    · have g1 := mul_nonneg ht0 (sub_nonneg.2 hlt.le)
      have g2 := mul_nonneg (sub_nonneg.2 ht1) (sub_nonneg.2 hlt.le)
      obtain ⟨k, hk0, hk1, hk⟩ := nearest_along (gap hcx hlt) hn0.1 hn1.1 (t := q.x) (by linarith) (by linarith)
      obtain ⟨b, hb, hw⟩ := h ⟨r.p0.x + k * (r.p1.x - r.p0.x), r.p0.y + k * (r.p1.y - r.p0.y)⟩ ⟨k, hk0, hk1, rfl, rfl⟩
      refine ⟨b, hb, within_of (fun l hl => hk l (hx b hb _ (by simp) l hl) (hx b hb _ (by simp) l hl)) (fun l hl => ?_) hw⟩
      have e' : q.y = p0.y := by rw [ey, e]; ring
      rw [e']
      exact nearest_across hn0.2 (by rw [e]; exact hn1.2) hk0 hk1 (hy b hb _ (by simp) l hl)
  have csymm : ∀ {a b : ℚ}, Clear a b → Clear b a := by
    rintro a b (rfl | h)
    · exact Or.inl rfl
    · exact Or.inr (by rwa [abs_sub_comm])
  have both : ∀ r : Segment, Near r.p0 s.p0 → Near r.p1 s.p1 → (∀ q, On r q → ∃ b, Q b ∧ WithinBox (c1 b) (c3 b) q) →
      ∀ q, On s q → ∃ b, Q b ∧ WithinBox (c1 b) (c3 b) q := by
    intro r hn0 hn1 h q hq
    have dir : ((s.p0.x = s.p1.x ∧ s.p0.y < s.p1.y) ∨ (s.p0.y = s.p1.y ∧ s.p0.x < s.p1.x)) ∨
        ((s.p1.x = s.p0.x ∧ s.p1.y < s.p0.y) ∨ (s.p1.y = s.p0.y ∧ s.p1.x < s.p0.x)) := by
      rcases hs with ⟨e, hne⟩ | ⟨e, hne⟩
      · rcases lt_or_gt_of_ne hne with h | h
        · exact Or.inl (Or.inl ⟨e, h⟩)
        · exact Or.inr (Or.inl ⟨e.symm, h⟩)
      · rcases lt_or_gt_of_ne hne with h | h
        · exact Or.inl (Or.inr ⟨e, h⟩)
        · exact Or.inr (Or.inr ⟨e.symm, h⟩)
    rcases dir with hd | hd
    · exact main s.p0 s.p1 r hn0 hn1 hd hsx hsy hx hy h q hq
    · refine main s.p1 s.p0 ⟨r.p1, r.p0⟩ hn1 hn0 hd (csymm hsx) (csymm hsy) (fun b hb u hu => hx b hb u (by simp at hu ⊢; tauto))
        (fun b hb u hu => hy b hb u (by simp at hu ⊢; tauto)) (fun q hq => h q (swap _ q hq)) q (swap _ q hq)
  rcases hr with ⟨hn0, hn1⟩ | ⟨hn0, hn1⟩
  · exact both r hn0 hn1 h
  · exact both ⟨r.p1, r.p0⟩ hn1 hn0 fun q hq => h q (swap _ q hq)

/-- C79. Among boxes, the detection ends, and an edge that is then left unmeshed is covered, from end to end, by boxes of at
least the priority of its own, at a common height. -/
theorem C79_boxes (S : OrderSorter Point) (S' : Sorter Overlap) {P : Nat → PPolygon} {c1 c3 : Nat → Point}
    {polygons : List Nat} (hB : Boxes P c1 c3 polygons) (E : Nat → BEdge)
    (hE : ∀ a ∈ polygons, ∀ e ∈ (P a).edges, (E e.1).seg = e.2)
    (hown : ∀ a ∈ polygons, ∀ a' ∈ polygons, ∀ e ∈ (P a).edges, ∀ e' ∈ (P a').edges, e.1 = e'.1 → a = a') :
    ∃ s, detectInPolygons S P polygons [] = .ok s ∧
      ∀ a ∈ polygons, ∀ e ∈ (P a).edges, ∀ os, s.lookup e.1 = some os →
        solveInPolygon S' (E e.1) (os.map (Found.overlap E)) = some false →
        ∀ q, On e.2 q → ∃ b ∈ polygons, Hides P b a ∧ WithinBox (c1 b) (c3 b) q := by
  have hends : ∃ s, detectInPolygons S P polygons [] = .ok s := by
    unfold detectInPolygons
    refine fold_ok _ (fun s a ha => fold_ok _ (fun s b hb => ?_) s) []
    split_ifs with hc
    · refine fold_ok _ (fun s e he => ?_) s
      obtain ⟨l, hl, -⟩ := boxes_found S hB ha hb he
      unfold detectOne
      rw [hl]
      exact ⟨_, rfl⟩
    · exact ⟨s, rfl⟩
  obtain ⟨s, hs⟩ := hends
  refine ⟨s, hs, fun a ha e he os ho hsolve => ?_⟩
  obtain ⟨-, hfrom⟩ := (C79_conflicts (fun a ha => (hB.box a ha).thick) hs e.1).1 os ho
  have hcov : ∀ f ∈ os, ∃ b ∈ polygons, Hides P b a ∧ ∀ q, On f.range q → On e.2 q ∧ WithinBox (c1 b) (c3 b) q := by
    intro f hf
    obtain ⟨a', ha', b, hb, hh, seg, hseg, l, hl, hfl⟩ := hfrom f hf
    obtain rfl := hown a ha a' ha' e he _ hseg rfl
    have h1 := hE a ha e he
    have h2 := hE a ha _ hseg
    have h3 : seg = e.2 := h2.symm.trans h1
    subst h3
    obtain ⟨l', hl', hex⟩ := boxes_found S hB ha hb he
    rw [hl] at hl'
    obtain rfl := Outcome.ok.inj hl'
    refine ⟨b, hb, hh, fun q hq => ?_⟩
    obtain ⟨h1, h2, -⟩ := (hex q).1 ⟨f, hfl, hq⟩
    exact ⟨h1, h2⟩
  have hon0 : ∀ r : Segment, On r r.p0 := fun r => ⟨0, le_refl _, by norm_num, by ring, by ring⟩
  have hon1 : ∀ r : Segment, On r r.p1 := fun r => ⟨1, by norm_num, le_refl _, by ring, by ring⟩
  have main : ∃ v : Point, (v.x ≠ 0 ∨ v.y ≠ 0) ∧ (0 ≤ v.x ∧ 0 ≤ v.y) ∧ ∀ q, On e.2 q → ∃ t, At e.2.p0 v t q := by
    rcases (box_edge (hB.box a ha) he).1 with h | h
    · refine ⟨⟨0, 1⟩, by simp, by norm_num, fun q ⟨t, _, _, hx, hy⟩ => ⟨q.y - e.2.p0.y, ?_, by simp⟩⟩
      rw [hx, h]; simp
    · refine ⟨⟨1, 0⟩, by simp, by norm_num, fun q ⟨t, _, _, hx, hy⟩ => ⟨q.x - e.2.p0.x, by simp, ?_⟩⟩
      rw [hy, h]; simp
  obtain ⟨v, hv, hpos, hat⟩ := main
  obtain ⟨r, hr, first, hfirst, hq⟩ := covered_up S' (o := e.2.p0) (v := v) hv (by
    intro ov hov
    obtain ⟨f, hf, rfl⟩ := List.mem_map.1 hov
    obtain ⟨b, -, -, hon⟩ := hcov f hf
    obtain ⟨t0, h0⟩ := hat _ (hon _ (hon0 _)).1
    obtain ⟨t1, h1⟩ := hat _ (hon _ (hon1 _)).1
    exact ⟨t0, t1, h0, h1⟩) (Or.inl hpos) hsolve
  rw [hE a ha e he] at hr
  suffices hall : ∀ q, On r q → ∃ b, (b ∈ polygons ∧ Hides P b a) ∧ WithinBox (c1 b) (c3 b) q by
    obtain ⟨hd, hne, mx, my⟩ := box_edge (hB.box a ha) he
    have ext : ∀ a b : Point, a.x = b.x → a.y = b.y → a = b := by
      rintro ⟨_, _⟩ ⟨_, _⟩ h h'
      exact congrArg₂ Point.mk h h'
    have hs : (e.2.p0.x = e.2.p1.x ∧ e.2.p0.y ≠ e.2.p1.y) ∨ (e.2.p0.y = e.2.p1.y ∧ e.2.p0.x ≠ e.2.p1.x) := by
      rcases hd with h | h
      · exact Or.inl ⟨h, fun h' => hne (ext _ _ h h')⟩
      · exact Or.inr ⟨h, fun h' => hne (ext _ _ h' h)⟩
    intro q hq
    obtain ⟨b, ⟨hb, hh⟩, hw⟩ := exactly_covered hs hr (hB.xs a ha a ha _ (mx _ (by simp)) _ (mx _ (by simp)))
      (hB.ys a ha a ha _ (my _ (by simp)) _ (my _ (by simp)))
      (fun b hb u hu l hl => hB.xs a ha b hb.1 u (mx u hu) l hl) (fun b hb u hu l hl => hB.ys a ha b hb.1 u (my u hu) l hl)
      hall q hq
    exact ⟨b, hb, hh, hw⟩
  intro q hqr
  have fin : ∀ ov ∈ os.map (Found.overlap E), On ov.range q → ∃ b, (b ∈ polygons ∧ Hides P b a) ∧ WithinBox (c1 b) (c3 b) q := by
    intro ov hov hon
    obtain ⟨f, hf, rfl⟩ := List.mem_map.1 hov
    obtain ⟨b, hb, hh, hw⟩ := hcov f hf
    exact ⟨b, ⟨hb, hh⟩, (hw q hon).2⟩
  rcases hq q hqr with h | ⟨ov, hov, -, h⟩
  · exact fin _ hfirst h
  · exact fin _ hov h

/-- An edge of a box, within no common point or strictly inside each box that hides it, and inside one at least. -/
def Engulfed (P : Nat → PPolygon) (c1 c3 : Nat → Point) (polygons : List Nat) (a : Nat) (e : Segment) : Prop :=
  (∃ b ∈ polygons, Hides P b a ∧ InsideBox (c1 b) (c3 b) e.p0 ∧ InsideBox (c1 b) (c3 b) e.p1) ∧
  ∀ b ∈ polygons, Hides P b a → (InsideBox (c1 b) (c3 b) e.p0 ∧ InsideBox (c1 b) (c3 b) e.p1) ∨
    ∀ q, On e q → ¬ WithinBox (c1 b) (c3 b) q

/-- C79. Among boxes, an edge with a box of at least its priority all around it, and no other such box in contact with it, is left
unmeshed. -/
theorem C79_engulfed {S : OrderSorter Point} (S' : Sorter Overlap) {P : Nat → PPolygon} {c1 c3 : Nat → Point}
    {polygons : List Nat} (hB : Boxes P c1 c3 polygons) (E : Nat → BEdge)
    (hE : ∀ a ∈ polygons, ∀ e ∈ (P a).edges, (E e.1).seg = e.2)
    (hown : ∀ a ∈ polygons, ∀ a' ∈ polygons, ∀ e ∈ (P a).edges, ∀ e' ∈ (P a').edges, e.1 = e'.1 → a = a')
    {s : InPolygon} (hs : detectInPolygons S P polygons [] = .ok s) {a : Nat} (ha : a ∈ polygons) {e : Nat × Segment}
    (he : e ∈ (P a).edges) (hg : Engulfed P c1 c3 polygons a e.2) :
    ∃ os, s.lookup e.1 = some os ∧ solveInPolygon S' (E e.1) (os.map (Found.overlap E)) = some false := by
  obtain ⟨hd, hne, mx, my⟩ := box_edge (hB.box a ha) he
  have hin : ∀ b ∈ polygons, InsideBox (c1 b) (c3 b) e.2.p0 → InsideBox (c1 b) (c3 b) e.2.p1 →
      detectEdge S b (P b).points (P b).edges e.2 = .ok [⟨b, e.2, none⟩] := by
    intro b hb h0 h1
    have hbb := hB.box b hb
    have hed := hbb.edges
    rw [hbb.points] at hed ⊢
    exact C77_inside S b hed hd hne hbb.wide hbb.high (boxes_clear ha hb _ _ (fun p => p.x) mx hB.xs)
      (boxes_clear ha hb _ _ (fun p => p.y) my hB.ys) h0 h1
  obtain ⟨⟨b, hb, hh, h0, h1⟩, hall⟩ := hg
  obtain ⟨l, hl, hstand⟩ := (C79_conflicts (fun a ha => (hB.box a ha).thick) hs e.1).2 a ha b hb hh e.2 he
  rw [hin b hb h0 h1] at hl
  obtain rfl := Outcome.ok.inj hl
  obtain ⟨os, ho, g, hgo, -⟩ := hstand _ (List.mem_cons_self ..)
  refine ⟨os, ho, C55_whole S' ?_ (by simpa using List.ne_nil_of_mem hgo) ?_⟩
  · rw [hE a ha e he]
    have far : ∀ {u v : ℚ}, Clear u v → u ≠ v → tolerance ≤ |u - v| := by
      rintro u v (h | h) hne
      · exact absurd h hne
      · exact le_trans (by norm_num [tolerance]) h
    rcases hd with h | h
    · have hy : e.2.p1.y ≠ e.2.p0.y := fun h' => hne (congrArg₂ Point.mk h h'.symm)
      exact Or.inr ⟨axis_of_v (far (hB.ys a ha a ha _ (my _ (by simp)) _ (my _ (by simp))) hy) h.symm, h⟩
    · have hx : e.2.p1.x ≠ e.2.p0.x := fun h' => hne (congrArg₂ Point.mk h'.symm h)
      exact Or.inl ⟨axis_of_h (far (hB.xs a ha a ha _ (mx _ (by simp)) _ (mx _ (by simp))) hx) h.symm, h⟩
  · intro ov hov
    obtain ⟨f, hf, rfl⟩ := List.mem_map.1 hov
    obtain ⟨a', ha', b, hb, hh, seg, hseg, l, hl, hfl⟩ := ((C79_conflicts (fun a ha => (hB.box a ha).thick) hs e.1).1 os ho).2 f hf
    obtain rfl := hown a ha a' ha' e he _ hseg rfl
    have h3 : seg = e.2 := (hE a ha _ hseg).symm.trans (hE a ha e he)
    subst h3
    rcases hall b hb hh with ⟨h0, h1⟩ | hout
    · rw [hin b hb h0 h1] at hl
      obtain rfl := Outcome.ok.inj hl
      obtain rfl := List.mem_singleton.1 hfl
      exact ⟨(hE a ha e he).symm, by simp [Found.overlap]⟩
    · obtain ⟨l', hl', hex⟩ := boxes_found S hB ha hb he
      rw [hl] at hl'
      obtain rfl := Outcome.ok.inj hl'
      obtain ⟨g1, g2, -⟩ := (hex f.range.p0).1 ⟨f, hfl, 0, le_refl _, by norm_num, by ring, by ring⟩
      exact absurd g2 (hout _ g1)

/-- A small box in a large one of more priority. -/
def nested : Nat → PPolygon
  | 0 => ⟨boxPoints ⟨2, 1⟩ ⟨5, 3⟩, [(0, ⟨⟨5, 1⟩, ⟨2, 1⟩⟩), (1, ⟨⟨2, 1⟩, ⟨2, 3⟩⟩), (2, ⟨⟨2, 3⟩, ⟨5, 3⟩⟩), (3, ⟨⟨5, 3⟩, ⟨5, 1⟩⟩)],
      0, 1, 1⟩
  | _ => ⟨boxPoints ⟨0, 0⟩ ⟨9, 6⟩, [(4, ⟨⟨9, 0⟩, ⟨0, 0⟩⟩), (5, ⟨⟨0, 0⟩, ⟨0, 6⟩⟩), (6, ⟨⟨0, 6⟩, ⟨9, 6⟩⟩), (7, ⟨⟨9, 6⟩, ⟨9, 0⟩⟩)],
      1, 2, 3⟩

/-- Lower corners. -/
def nested1 : Nat → Point
  | 0 => ⟨2, 1⟩
  | _ => ⟨0, 0⟩

/-- Upper corners. -/
def nested3 : Nat → Point
  | 0 => ⟨5, 3⟩
  | _ => ⟨9, 6⟩

example : Boxes nested nested1 nested3 [0, 1] ∧ Hides nested 1 0 ∧ ¬ Hides nested 0 1 ∧
    (∀ a ∈ [0, 1], ∀ a' ∈ [0, 1], ∀ e ∈ (nested a).edges, ∀ e' ∈ (nested a').edges, e.1 = e'.1 → a = a') ∧
    ∃ s os, detectInPolygons (OrderSorter.insertion Point) nested [0, 1] [] = .ok s ∧ s.lookup 2 = some os ∧ os ≠ [] ∧
      s.lookup 4 = none := by
  have hB : Boxes nested nested1 nested3 [0, 1] := by
    refine ⟨fun a ha => ?_, by unfold Clear; decide +kernel, by unfold Clear; decide +kernel⟩
    simp only [List.mem_cons, List.not_mem_nil, or_false] at ha
    rcases ha with rfl | rfl <;> exact ⟨rfl, rfl, by decide +kernel, by decide +kernel, by decide +kernel⟩
  have hz : ∀ a ∈ [0, 1], (nested a).zmin ≤ (nested a).zmax := fun a ha => (hB.box a ha).thick
  have hown : ∀ a ∈ [0, 1], ∀ a' ∈ [0, 1], ∀ e ∈ (nested a).edges, ∀ e' ∈ (nested a').edges, e.1 = e'.1 → a = a' := by
    decide +kernel
  have h10 : Hides nested 1 0 := ⟨by decide, by decide, 1, by norm_num [nested], by norm_num [nested],
    by norm_num [nested], by norm_num [nested]⟩
  have h01 : ¬ Hides nested 0 1 := fun h => absurd h.2.1 (by decide)
  let seg : Nat → Segment := fun n => (((nested 0).edges ++ (nested 1).edges).lookup n).getD ⟨⟨0, 0⟩, ⟨0, 0⟩⟩
  obtain ⟨s, hs, -⟩ := C79_boxes (OrderSorter.insertion Point) (Mesh.Sorter.insertion Overlap) hB
    (fun n => ⟨.xy, seg n, .none, true, false⟩) (by decide +kernel) hown
  refine ⟨hB, h10, h01, hown, s, ?_⟩
  obtain ⟨l, hl, hall⟩ := (C79_conflicts hz hs 2).2 0 (by simp) 1 (by simp) h10 ⟨⟨2, 3⟩, ⟨5, 3⟩⟩ (by decide +kernel)
  obtain ⟨l', hl', hex⟩ := boxes_found (OrderSorter.insertion Point) hB (a := 0) (b := 1) (by simp) (by simp)
    (e := (2, ⟨⟨2, 3⟩, ⟨5, 3⟩⟩)) (by decide +kernel)
  rw [hl] at hl'
  obtain rfl := Outcome.ok.inj hl'
  obtain ⟨f, hf, -⟩ := (hex ⟨2, 3⟩).2 ⟨⟨0, by norm_num⟩, by norm_num [WithinBox, nested1, nested3], ⟨5, 3⟩, by norm_num,
    ⟨1, by norm_num⟩, by norm_num [WithinBox, nested1, nested3]⟩
  obtain ⟨os, ho, g, hg, -⟩ := hall f hf
  refine ⟨os, hs, ho, List.ne_nil_of_mem hg, ?_⟩
  cases h4 : s.lookup 4 with
  | none => rfl
  | some os' =>
    obtain ⟨hne, hfrom⟩ := (C79_conflicts hz hs 4).1 os' h4
    obtain ⟨f, hf⟩ := List.exists_mem_of_ne_nil _ hne
    obtain ⟨a, ha, b, hb, hh, seg, hseg, -⟩ := hfrom f hf
    simp only [List.mem_cons, List.not_mem_nil, or_false] at ha hb
    rcases ha with rfl | rfl
    · simp [nested] at hseg
    · rcases hb with rfl | rfl
      · exact absurd hh h01
      · exact absurd rfl hh.1

/-- Each edge of the small box is engulfed. -/
example : ∀ e ∈ (nested 0).edges, Engulfed nested nested1 nested3 [0, 1] 0 e.2 := by
  intro e he
  have hi : InsideBox (nested1 1) (nested3 1) e.2.p0 ∧ InsideBox (nested1 1) (nested3 1) e.2.p1 := by
    revert e
    unfold InsideBox
    decide +kernel
  refine ⟨⟨1, by simp, ⟨by decide, by decide, 1, by norm_num [nested], by norm_num [nested], by norm_num [nested],
    by norm_num [nested]⟩, hi⟩, fun b hb hh => Or.inl ?_⟩
  simp only [List.mem_cons, List.not_mem_nil, or_false] at hb
  rcases hb with rfl | rfl
  · exact absurd rfl hh.1
  · exact hi

end Verif.Board
