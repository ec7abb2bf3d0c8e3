import Verif.Spec.Csx
import Verif.Props.Geometry
import Mathlib.Tactic.Ring
import Mathlib.Tactic.Linarith

/-!
# Theorems about the parser
-/

namespace Verif.Csx
open Verif.Geom
open Verif.Board (MaterialKind)
open Spec

/-! ## C44 -/

/-- Polygons, stretched or not, are added to their plane even when it is disabled. -/
theorem C44_false : ∃ s1 s2 : Shape, ∀ dirs,
    (parsePrimitive ⟨false, false, false, true, false⟩ dirs .conductor ⟨false, 0, s1⟩).map (·.map onPlane)
      = some [some .xy] ∧
    (parsePrimitive ⟨false, false, false, true, false⟩ dirs .conductor ⟨false, 0, s2⟩).map (·.map onPlane)
      = some [some .xy, none] :=
  ⟨.linpoly 2 0 1 [⟨0, 0⟩, ⟨1, 0⟩, ⟨1, 1⟩], .polygon 2 0 [⟨0, 0⟩, ⟨1, 0⟩, ⟨1, 1⟩], fun dirs => by
    simp only [parsePrimitive]
    decide +kernel⟩

theorem parseBox_planes {f : Flags} {m : MaterialKind} {n : Nat} {p1 p2 : Point3} {a : Added}
    (h : a ∈ parseBox f m n p1 p2) : ∃ plane, onPlane a = some plane ∧ enabled f plane = true := by
  unfold parseBox addBox at h
  simp only [List.mem_append] at h
  rcases h with (h | h) | h <;> split_ifs at h with hf <;>
    first | (rw [List.mem_singleton.1 h]; exact ⟨_, rfl, hf⟩) | simp at h

/-- What a cylinder adds: polygons of its material and priority, on enabled planes. -/
theorem parseCylinder_mem {f : Flags} {dirs : List Point} {m : MaterialKind} {n : Nat} {p1 p2 : Point3} {r : ℚ} {a : Added}
    (ha : a ∈ parseCylinder f dirs m n p1 p2 r) :
    ∃ plane z points, enabled f plane = true ∧ a = .polygon plane m n z points := by
  unfold parseCylinder addBox at ha
  split at ha
  · simp only [List.mem_append, List.mem_ite_nil_right, List.mem_singleton] at ha
    rcases ha with (⟨hf, rfl⟩ | ⟨hf, rfl⟩) | ⟨hf, rfl⟩
    · exact ⟨.yz, _, _, hf, rfl⟩
    · exact ⟨.zx, _, _, hf, rfl⟩
    · exact ⟨.xy, _, _, hf, rfl⟩
  split at ha
  · simp only [List.mem_append, List.mem_ite_nil_right, List.mem_singleton] at ha
    rcases ha with (⟨hf, rfl⟩ | ⟨hf, rfl⟩) | ⟨hf, rfl⟩
    · exact ⟨.zx, _, _, hf, rfl⟩
    · exact ⟨.xy, _, _, hf, rfl⟩
    · exact ⟨.yz, _, _, hf, rfl⟩
  split at ha
  · simp only [List.mem_append, List.mem_ite_nil_right, List.mem_singleton] at ha
    rcases ha with (⟨hf, rfl⟩ | ⟨hf, rfl⟩) | ⟨hf, rfl⟩
    · exact ⟨.xy, _, _, hf, rfl⟩
    · exact ⟨.yz, _, _, hf, rfl⟩
    · exact ⟨.zx, _, _, hf, rfl⟩
  · simp at ha

theorem guarded_mem {flag : Bool} {o : Option Added} {l : List Added} {a : Added} (h : guarded flag o = some l) (ha : a ∈ l) :
    flag = true ∧ o = some a := by
  unfold guarded at h
  split_ifs at h with hf
  · rw [Option.map_eq_some_iff] at h
    obtain ⟨x, hx, rfl⟩ := h
    rw [List.mem_singleton.1 ha]
    exact ⟨hf, hx⟩
  · obtain rfl := Option.some.inj h
    simp at ha

/-- What a curve adds: polygons of its material and of the highest priority, on enabled planes. -/
theorem parseCurve_mem {f : Flags} {m : MaterialKind} {v : List Point3} {l : List Added} {a : Added}
    (h : parseCurve f m v = some l) (ha : a ∈ l) :
    ∃ plane z points, enabled f plane = true ∧ a = .polygon plane m sizeMax z points := by
  simp only [parseCurve, Option.bind_eq_some_iff, Option.map_eq_some_iff] at h
  obtain ⟨y, hy, z, hz, x, hx, rfl⟩ := h
  have on : ∀ {plane : Plane} {d pr}, curveOn plane m d pr v = some a → ∃ z points, a = .polygon plane m sizeMax z points := by
    intro plane d pr h
    simp only [curveOn, Option.map_eq_some_iff] at h
    obtain ⟨w, -, rfl⟩ := h
    exact ⟨_, _, rfl⟩
  simp only [List.mem_append] at ha
  rcases ha with (ha | ha) | ha
  · obtain ⟨hf, h⟩ := guarded_mem hy ha
    obtain ⟨z, p, e⟩ := on h
    exact ⟨.yz, z, p, hf, e⟩
  · obtain ⟨hf, h⟩ := guarded_mem hz ha
    obtain ⟨z, p, e⟩ := on h
    exact ⟨.zx, z, p, hf, e⟩
  · obtain ⟨hf, h⟩ := guarded_mem hx ha
    obtain ⟨z, p, e⟩ := on h
    exact ⟨.xy, z, p, hf, e⟩

theorem parsePrimitive_planes {f : Flags} {dirs : List Point} {m : MaterialKind} {p : Primitive} {added : List Added}
    (h1 : ∀ n e l v, p.shape ≠ .linpoly n e l v) (h2 : ∀ n e v, p.shape ≠ .polygon n e v)
    (h : parsePrimitive f dirs m p = some added) {a : Added} (ha : a ∈ added) {plane : Plane}
    (hp : onPlane a = some plane) : enabled f plane = true := by
  unfold parsePrimitive at h
  split_ifs at h with ht
  · obtain rfl := Option.some.inj h
    simp at ha
  have pick : (∃ plane, onPlane a = some plane ∧ enabled f plane = true) → enabled f plane = true := by
    rintro ⟨q, e1, e2⟩
    rw [hp] at e1
    rw [Option.some.inj e1]
    exact e2
  cases hs : p.shape with
  | box p1 p2 =>
    simp only [hs] at h
    obtain rfl := Option.some.inj h
    exact pick (parseBox_planes ha)
  | multibox ss es =>
    simp only [hs] at h
    obtain rfl := Option.some.inj h
    unfold parseMultibox at ha
    obtain ⟨x, -, hx⟩ := List.mem_flatMap.1 ha
    exact pick (parseBox_planes hx)
  | linpoly n e l v => exact absurd hs (h1 n e l v)
  | polygon n e v => exact absurd hs (h2 n e v)
  | sphere c r =>
    simp only [hs] at h
    obtain rfl := Option.some.inj h
    unfold parseSphere at ha
    simp only [List.mem_append] at ha
    rcases ha with (ha | ha) | ha <;> split_ifs at ha with hf <;>
      first | (rw [List.mem_singleton.1 ha] at hp; rw [← Option.some.inj hp]; exact hf) | simp at ha
  | cylinder p1 p2 r =>
    simp only [hs] at h
    obtain rfl := Option.some.inj h
    obtain ⟨q, z, pts, hf, rfl⟩ := parseCylinder_mem ha
    rw [← Option.some.inj hp]
    exact hf
  | point q =>
    simp only [hs] at h
    obtain rfl := Option.some.inj h
    unfold parsePoint at ha
    simp only [List.mem_append] at ha
    rcases ha with (ha | ha) | ha <;> split_ifs at ha with hf <;>
      simp only [List.mem_cons, List.not_mem_nil, or_false] at ha <;> rcases ha with rfl | rfl <;> simp [onPlane] at hp
  | curve v =>
    simp only [hs] at h
    obtain ⟨q, z, pts, hf, rfl⟩ := parseCurve_mem h ha
    rw [← Option.some.inj hp]
    exact hf
  | other =>
    simp only [hs] at h
    obtain rfl := Option.some.inj h
    simp at ha

theorem parsePrimitives_mem {f : Flags} {dirs : List Point} {m : Option MaterialKind} {ps : List Primitive}
    {added : List Added} (h : parsePrimitives f dirs m ps = some added) {a : Added} (ha : a ∈ added) :
    ∃ k, m = some k ∧ ∃ p ∈ ps, ∃ l, parsePrimitive f dirs k p = some l ∧ a ∈ l := by
  induction ps generalizing added with
  | nil =>
    simp only [parsePrimitives, Option.some.injEq] at h
    subst h
    simp at ha
  | cons p rest ih =>
    simp only [parsePrimitives, Option.bind_eq_some_iff, Option.map_eq_some_iff] at h
    obtain ⟨l, hl, others, ho, rfl⟩ := h
    rcases List.mem_append.1 ha with ha | ha
    · cases m with
      | none =>
        obtain rfl := Option.some.inj hl
        simp at ha
      | some k => exact ⟨k, rfl, p, by simp, l, hl, ha⟩
    · obtain ⟨k, hk, q, hq, r⟩ := ih ho ha
      exact ⟨k, hk, q, by simp [hq], r⟩

theorem parseProperties_mem {f : Flags} {dirs : List Point} {ps : List Property}
    {added : List Added} (h : parseProperties f dirs ps = some added) {a : Added} (ha : a ∈ added) :
    ∃ p ∈ ps, ∃ k, parseProperty p.kind = some k ∧ ∃ q ∈ p.primitives, ∃ l, parsePrimitive f dirs k q = some l ∧ a ∈ l := by
  induction ps generalizing added with
  | nil =>
    simp only [parseProperties, Option.some.injEq] at h
    subst h
    simp at ha
  | cons p rest ih =>
    simp only [parseProperties, Option.bind_eq_some_iff, Option.map_eq_some_iff] at h
    obtain ⟨l, hl, others, ho, rfl⟩ := h
    rcases List.mem_append.1 ha with ha | ha
    · obtain ⟨k, hk, q, hq, r⟩ := parsePrimitives_mem hl ha
      exact ⟨p, by simp, k, hk, q, hq, r⟩
    · obtain ⟨q, hq, r⟩ := ih ho ha
      exact ⟨q, by simp [hq], r⟩

/-- In a file without polygons, stretched or not, nothing is added on a disabled plane. What is missing: polygons (see
`C44_false`). -/
theorem C44_partial {f : Flags} {dirs : List Point} {properties : List Property} {added : List Added}
    (h : parseProperties f dirs properties = some added)
    (h1 : ∀ p ∈ properties, ∀ q ∈ p.primitives, ∀ n e l v, q.shape ≠ .linpoly n e l v)
    (h2 : ∀ p ∈ properties, ∀ q ∈ p.primitives, ∀ n e v, q.shape ≠ .polygon n e v) {plane : Plane}
    (hp : enabled f plane = false) : ∀ a ∈ added, onPlane a ≠ some plane := by
  intro a ha e
  obtain ⟨p, hp', k, -, q, hq, l, hl, hal⟩ := parseProperties_mem h ha
  have := parsePrimitive_planes (h1 p hp' q hq) (h2 p hp' q hq) hl hal e
  rw [hp] at this
  exact absurd this (by simp)

/-- A box, a ball and a cylinder with one plane disabled. -/
example : (parseProperties { zx := false } [⟨1, 0⟩, ⟨0, 1⟩, ⟨-1, 0⟩, ⟨0, -1⟩]
    [⟨.metal, [⟨false, 3, .box ⟨0, 0, 0⟩ ⟨1, 2, 3⟩⟩]⟩, ⟨.material 4 1 0, [⟨false, 1, .sphere ⟨0, 0, 0⟩ 2⟩]⟩,
      ⟨.excitation, [⟨false, 1, .cylinder ⟨0, 0, 0⟩ ⟨0, 0, 9⟩ 2⟩]⟩]).map (·.map onPlane)
    = some [some .yz, some .xy, some .yz, some .xy, some .xy, some .yz] := by decide +kernel

/-! ## C45 -/

theorem amid_rangeZ {a b c : ℚ} (h : Amid a b c) : (rangeZ b c).1 ≤ a ∧ a ≤ (rangeZ b c).2 := by
  unfold rangeZ
  rcases h with ⟨h1, h2⟩ | ⟨h1, h2⟩ <;> dsimp only <;> constructor <;> split_ifs <;> linarith

theorem rangeZ_ends (b c : ℚ) : ((rangeZ b c).1 = b ∨ (rangeZ b c).1 = c) ∧ ((rangeZ b c).2 = b ∨ (rangeZ b c).2 = c) := by
  unfold rangeZ
  dsimp only
  constructor <;> split_ifs <;> simp

theorem amid_left (b c : ℚ) : Amid b b c := by
  rcases le_total b c with h | h
  · exact Or.inl ⟨le_refl _, h⟩
  · exact Or.inr ⟨h, le_refl _⟩

theorem amid_right (b c : ℚ) : Amid c b c := by
  rcases le_total b c with h | h
  · exact Or.inl ⟨h, le_refl _⟩
  · exact Or.inr ⟨le_refl _, h⟩

theorem amid_points {a b c : ℚ} (h : Amid a b c) : (b ≤ a ∨ c ≤ a) ∧ (a ≤ b ∨ a ≤ c) := by
  rcases h with ⟨h1, h2⟩ | ⟨h1, h2⟩
  · exact ⟨Or.inl h1, Or.inr h2⟩
  · exact ⟨Or.inr h1, Or.inl h2⟩

theorem boxHas_box {p1 p3 q : Point} (h1 : Amid q.x p1.x p3.x) (h2 : Amid q.y p1.y p3.y) : BoxHas (boxPoints p1 p3) q := by
  obtain ⟨a1, a2⟩ := amid_points h1
  obtain ⟨b1, b2⟩ := amid_points h2
  unfold boxPoints
  refine ⟨?_, ?_, ?_, ?_⟩
  · rcases a1 with h | h
    · exact ⟨⟨p1.x, p1.y⟩, by simp, h⟩
    · exact ⟨⟨p3.x, p3.y⟩, by simp, h⟩
  · rcases a2 with h | h
    · exact ⟨⟨p1.x, p1.y⟩, by simp, h⟩
    · exact ⟨⟨p3.x, p3.y⟩, by simp, h⟩
  · rcases b1 with h | h
    · exact ⟨⟨p1.x, p1.y⟩, by simp, h⟩
    · exact ⟨⟨p3.x, p3.y⟩, by simp, h⟩
  · rcases b2 with h | h
    · exact ⟨⟨p1.x, p1.y⟩, by simp, h⟩
    · exact ⟨⟨p3.x, p3.y⟩, by simp, h⟩

theorem encloses_addBox {plane : Plane} {m : MaterialKind} {n : Nat} {z0 z1 : ℚ} {p1 p3 : Point} {p : Point3}
    (hz : Amid (depth plane p) z0 z1) (hx : Amid (proj plane p).x p1.x p3.x) (hy : Amid (proj plane p).y p1.y p3.y) :
    Encloses (addBox plane m n z0 z1 p1 p3) p := by
  unfold addBox Encloses
  exact ⟨boxHas_box hx hy, amid_rangeZ hz⟩

theorem boxPoints_coords {p1 p3 v : Point} (h : v ∈ boxPoints p1 p3) : (v.x = p1.x ∨ v.x = p3.x) ∧ (v.y = p1.y ∨ v.y = p3.y) := by
  unfold boxPoints at h
  simp only [List.mem_cons, List.not_mem_nil, or_false] at h
  rcases h with rfl | rfl | rfl | rfl <;> simp

theorem touches_addBox {plane : Plane} {m : MaterialKind} {n : Nat} {z0 z1 : ℚ} {p1 p3 : Point} {S : Point3 → Prop}
    (h0 : ∃ p, S p ∧ depth plane p = z0) (h1 : ∃ p, S p ∧ depth plane p = z1)
    (hx1 : ∃ p, S p ∧ (proj plane p).x = p1.x) (hx3 : ∃ p, S p ∧ (proj plane p).x = p3.x)
    (hy1 : ∃ p, S p ∧ (proj plane p).y = p1.y) (hy3 : ∃ p, S p ∧ (proj plane p).y = p3.y) :
    Touches (addBox plane m n z0 z1 p1 p3) S := by
  unfold addBox Touches
  obtain ⟨e1, e2⟩ := rangeZ_ends z0 z1
  refine ⟨fun v hv => ?_, ?_, ?_⟩
  · obtain ⟨c1, c2⟩ := boxPoints_coords hv
    constructor
    · rcases c1 with h | h <;> rw [h]
      · exact hx1
      · exact hx3
    · rcases c2 with h | h <;> rw [h]
      · exact hy1
      · exact hy3
  · rcases e1 with h | h <;> rw [h]
    · exact h0
    · exact h1
  · rcases e2 with h | h <;> rw [h]
    · exact h0
    · exact h1

/-- A box is added once on each enabled plane, with its exact extent. -/
theorem C45_box {f : Flags} (m : MaterialKind) (n : Nat) (p1 p2 : Point3) :
    (∀ a ∈ parseBox f m n p1 p2, (∀ p, InBox p1 p2 p → Encloses a p) ∧ Touches a (InBox p1 p2)) ∧
    (parseBox f m n p1 p2).filterMap onPlane
      = [Plane.yz, .zx, .xy].filter (enabled f) := by
  have c1 : InBox p1 p2 p1 := ⟨amid_left _ _, amid_left _ _, amid_left _ _⟩
  have c2 : InBox p1 p2 p2 := ⟨amid_right _ _, amid_right _ _, amid_right _ _⟩
  constructor
  · intro a ha
    unfold parseBox at ha
    simp only [List.mem_append] at ha
    rcases ha with (ha | ha) | ha <;> split_ifs at ha with hf <;> simp only [List.mem_singleton, List.not_mem_nil] at ha <;>
      subst ha <;> refine ⟨fun p hp => encloses_addBox ?_ ?_ ?_,
        touches_addBox ⟨p1, c1, rfl⟩ ⟨p2, c2, rfl⟩ ⟨p1, c1, rfl⟩ ⟨p2, c2, rfl⟩ ⟨p1, c1, rfl⟩ ⟨p2, c2, rfl⟩⟩
    · exact hp.1
    · exact hp.2.1
    · exact hp.2.2
    · exact hp.2.1
    · exact hp.2.2
    · exact hp.1
    · exact hp.2.2
    · exact hp.1
    · exact hp.2.1
  · unfold parseBox addBox
    cases h1 : f.yz <;> cases h2 : f.zx <;> cases h3 : f.xy <;> simp [onPlane, enabled, h1, h2, h3]

/-- Each box of a set of boxes is handled as a box. -/
theorem C45_multibox {f : Flags} (m : MaterialKind) (n : Nat) (starts ends : List Point3) :
    parseMultibox f m n starts ends = ((starts.zip ends).map fun s => parseBox f m n s.1 s.2).flatten := by
  unfold parseMultibox
  rw [List.flatMap_def]

theorem inHull_box {vertices : List Point} {q : Point} (h : InHull vertices q) : BoxHas vertices q := by
  refine ⟨?_, ?_, ?_, ?_⟩
  · obtain ⟨v, hv, e⟩ := h (-1) 0
    exact ⟨v, hv, by linarith⟩
  · obtain ⟨v, hv, e⟩ := h 1 0
    exact ⟨v, hv, by linarith⟩
  · obtain ⟨v, hv, e⟩ := h 0 (-1)
    exact ⟨v, hv, by linarith⟩
  · obtain ⟨v, hv, e⟩ := h 0 1
    exact ⟨v, hv, by linarith⟩

theorem boxHas_amid {vertices : List Point} {q : Point} {b : Bounding} (hb : detectBounding vertices = some b)
    (h : BoxHas vertices q) : Amid q.x b.xmin b.xmax ∧ Amid q.y b.ymin b.ymax := by
  obtain ⟨hm, -⟩ := C33_tight hb
  obtain ⟨⟨v1, m1, h1⟩, ⟨v2, m2, h2⟩, ⟨v3, m3, h3⟩, v4, m4, h4⟩ := h
  exact ⟨Or.inl ⟨(hm v1 m1).1.trans h1, h2.trans (hm v2 m2).2.1⟩, Or.inl ⟨(hm v3 m3).2.2.1.trans h3, h4.trans (hm v4 m4).2.2.2⟩⟩

theorem toPlane_iff {n : Nat} {plane : Plane} : toPlane n = some plane ↔ FlatOn n plane := by
  unfold toPlane FlatOn
  match n with
  | 0 => simp [eq_comm]
  | 1 => simp [eq_comm]
  | 2 => simp [eq_comm]
  | n + 3 => simp

/-- The point over a vertex at some depth. -/
def lift : Plane → Point → ℚ → Point3
  | .yz, v, d => ⟨d, v.x, v.y⟩
  | .zx, v, d => ⟨v.y, d, v.x⟩
  | .xy, v, d => ⟨v.x, v.y, d⟩

theorem proj_lift (plane : Plane) (v : Point) (d : ℚ) : proj plane (lift plane v d) = v := by cases plane <;> rfl
theorem depth_lift (plane : Plane) (v : Point) (d : ℚ) : depth plane (lift plane v d) = d := by cases plane <;> rfl

theorem inHull_vertex {vertices : List Point} {v : Point} (h : v ∈ vertices) : InHull vertices v :=
  fun _ _ => ⟨v, h, le_refl _⟩

/-- A stretched polygon is added on its own plane, and on the other enabled planes if it has a thickness, with its exact
extent. -/
theorem C45_linpoly {f : Flags} (m : MaterialKind) (n : Nat) {normdir : Nat} {plane : Plane} (hn : FlatOn normdir plane)
    (elevation length : ℚ) {vertices : List Point} (hv : vertices ≠ []) :
    ∃ added, parseLinpoly f m n normdir elevation length vertices = some added ∧
      (∀ a ∈ added, (∀ p, InLinpoly plane elevation length vertices p → Encloses a p) ∧
        Touches a (InLinpoly plane elevation length vertices)) ∧
      ∀ q, (added.filterMap onPlane).count q = if q = plane ∨ (length ≠ 0 ∧ enabled f q = true) then 1 else 0 := by
  obtain ⟨b, hb⟩ := Option.isSome_iff_exists.1 ((C33_defined vertices).2 hv)
  obtain ⟨hm, ⟨v1, m1, e1⟩, ⟨v2, m2, e2⟩, ⟨v3, m3, e3⟩, v4, m4, e4⟩ := C33_tight hb
  have hS : ∀ v ∈ vertices, InLinpoly plane elevation length vertices (lift plane v elevation) ∧
      InLinpoly plane elevation length vertices (lift plane v (elevation + length)) := by
    intro v hv'
    unfold InLinpoly
    rw [proj_lift, proj_lift, depth_lift, depth_lift]
    exact ⟨⟨inHull_vertex hv', amid_left _ _⟩, inHull_vertex hv', amid_right _ _⟩
  obtain ⟨s1, t1⟩ := hS v1 m1
  obtain ⟨s2, t2⟩ := hS v2 m2
  obtain ⟨s3, t3⟩ := hS v3 m3
  obtain ⟨s4, t4⟩ := hS v4 m4
  have own : (∀ p, InLinpoly plane elevation length vertices p →
        Encloses (.polygon plane m n (rangeZ elevation (elevation + length)) vertices) p) ∧
      Touches (.polygon plane m n (rangeZ elevation (elevation + length)) vertices)
        (InLinpoly plane elevation length vertices) := by
    refine ⟨fun p hp => ⟨inHull_box hp.1, amid_rangeZ hp.2⟩, fun v hv' => ?_, ?_, ?_⟩
    · exact ⟨⟨_, (hS v hv').1, by rw [proj_lift]⟩, ⟨_, (hS v hv').1, by rw [proj_lift]⟩⟩
    · rcases (rangeZ_ends elevation (elevation + length)).1 with h | h <;> rw [h]
      · exact ⟨_, s1, depth_lift _ _ _⟩
      · exact ⟨_, t1, depth_lift _ _ _⟩
    · rcases (rangeZ_ends elevation (elevation + length)).2 with h | h <;> rw [h]
      · exact ⟨_, s1, depth_lift _ _ _⟩
      · exact ⟨_, t1, depth_lift _ _ _⟩
  unfold parseLinpoly
  rw [toPlane_iff.2 hn]
  simp only [hb, Option.map_some]
  refine ⟨_, rfl, ?_, ?_⟩
  · intro a ha
    rcases List.mem_cons.1 ha with rfl | ha
    · exact own
    · split at ha
      · simp at ha
      · have enc : ∀ p, InLinpoly plane elevation length vertices p → Amid (proj plane p).x b.xmin b.xmax ∧
            Amid (proj plane p).y b.ymin b.ymax ∧ Amid (depth plane p) elevation (elevation + length) := fun p hp =>
          ⟨(boxHas_amid hb (inHull_box hp.1)).1, (boxHas_amid hb (inHull_box hp.1)).2, hp.2⟩
        have x0 : ∃ p, InLinpoly plane elevation length vertices p ∧ (proj plane p).x = b.xmin :=
          ⟨_, s1, by rw [proj_lift]; exact e1⟩
        have x1 : ∃ p, InLinpoly plane elevation length vertices p ∧ (proj plane p).x = b.xmax :=
          ⟨_, s2, by rw [proj_lift]; exact e2⟩
        have y0 : ∃ p, InLinpoly plane elevation length vertices p ∧ (proj plane p).y = b.ymin :=
          ⟨_, s3, by rw [proj_lift]; exact e3⟩
        have y1 : ∃ p, InLinpoly plane elevation length vertices p ∧ (proj plane p).y = b.ymax :=
          ⟨_, s4, by rw [proj_lift]; exact e4⟩
        have d0 : ∃ p, InLinpoly plane elevation length vertices p ∧ depth plane p = elevation :=
          ⟨_, s1, depth_lift _ _ _⟩
        have d1 : ∃ p, InLinpoly plane elevation length vertices p ∧ depth plane p = elevation + length :=
          ⟨_, t1, depth_lift _ _ _⟩
        clear own hS s1 s2 s3 s4 t1 t2 t3 t4
        cases plane
        · simp only [List.mem_append, List.mem_ite_nil_right, List.mem_singleton] at ha
          rcases ha with ⟨hf, rfl⟩ | ⟨hf, rfl⟩
          · exact ⟨fun p hp => encloses_addBox (enc p hp).1 (enc p hp).2.1 (enc p hp).2.2,
              touches_addBox x0 x1 y0 y1 d0 d1⟩
          · exact ⟨fun p hp => encloses_addBox (enc p hp).2.1 (enc p hp).2.2 (enc p hp).1,
              touches_addBox y0 y1 d0 d1 x0 x1⟩
        · simp only [List.mem_append, List.mem_ite_nil_right, List.mem_singleton] at ha
          rcases ha with ⟨hf, rfl⟩ | ⟨hf, rfl⟩
          · exact ⟨fun p hp => encloses_addBox (enc p hp).1 (enc p hp).2.1 (enc p hp).2.2,
              touches_addBox x0 x1 y0 y1 d0 d1⟩
          · exact ⟨fun p hp => encloses_addBox (enc p hp).2.1 (enc p hp).2.2 (enc p hp).1,
              touches_addBox y0 y1 d0 d1 x0 x1⟩
        · simp only [List.mem_append, List.mem_ite_nil_right, List.mem_singleton] at ha
          rcases ha with ⟨hf, rfl⟩ | ⟨hf, rfl⟩
          · exact ⟨fun p hp => encloses_addBox (enc p hp).1 (enc p hp).2.1 (enc p hp).2.2,
              touches_addBox x0 x1 y0 y1 d0 d1⟩
          · exact ⟨fun p hp => encloses_addBox (enc p hp).2.1 (enc p hp).2.2 (enc p hp).1,
              touches_addBox y0 y1 d0 d1 x0 x1⟩
  · intro q
    by_cases hl : length = 0
    · cases plane <;> cases q <;> simp [hl, onPlane]
    · cases plane <;> cases q <;> cases h1 : f.yz <;> cases h2 : f.zx <;> cases h3 : f.xy <;>
        simp [hl, onPlane, addBox, enabled, h1, h2, h3]

/-- A polygon is added on its own plane with its exact extent, with a line at its elevation. -/
theorem C45_polygon (m : MaterialKind) (n : Nat) {normdir : Nat} {plane : Plane} (hn : FlatOn normdir plane)
    (elevation : ℚ) {vertices : List Point} (hv : vertices ≠ []) :
    ∃ a, parsePolygon m n normdir elevation vertices = some [a, .line (normalAxis plane) elevation] ∧
      onPlane a = some plane ∧ (∀ p, InLinpoly plane elevation 0 vertices p → Encloses a p) ∧
      Touches a (InLinpoly plane elevation 0 vertices) := by
  obtain ⟨b, hb⟩ := Option.isSome_iff_exists.1 ((C33_defined vertices).2 hv)
  have hS : ∀ v ∈ vertices, InLinpoly plane elevation 0 vertices (lift plane v elevation) := by
    intro v hv'
    unfold InLinpoly
    rw [proj_lift, depth_lift]
    exact ⟨inHull_vertex hv', amid_left _ _⟩
  refine ⟨.polygon plane m n (rangeZ elevation elevation) vertices, ?_, rfl, fun p hp => ⟨inHull_box hp.1, ?_⟩,
    fun v hv' => ⟨⟨_, hS v hv', by rw [proj_lift]⟩, ⟨_, hS v hv', by rw [proj_lift]⟩⟩, ?_, ?_⟩
  · unfold parsePolygon
    rw [toPlane_iff.2 hn]
    have : toAxis normdir = some (normalAxis plane) := by
      rcases hn with ⟨rfl, rfl⟩ | ⟨rfl, rfl⟩ | ⟨rfl, rfl⟩ <;> rfl
    rw [this]
    simp [hb]
  · have := hp.2
    rw [add_zero] at this
    exact amid_rangeZ this
  · cases vertices with
    | nil => exact absurd rfl hv
    | cons v rest =>
      refine ⟨_, hS v (by simp), ?_⟩
      rw [depth_lift]
      rcases (rangeZ_ends elevation elevation).1 with h | h <;> rw [h]
  · cases vertices with
    | nil => exact absurd rfl hv
    | cons v rest =>
      refine ⟨_, hS v (by simp), ?_⟩
      rw [depth_lift]
      rcases (rangeZ_ends elevation elevation).2 with h | h <;> rw [h]

/-- What is used of the cosines and sines: those of the four right angles are exact. -/
def RightAngles (dirs : List Point) : Prop :=
  (⟨1, 0⟩ : Point) ∈ dirs ∧ (⟨0, 1⟩ : Point) ∈ dirs ∧ (⟨-1, 0⟩ : Point) ∈ dirs ∧ (⟨0, -1⟩ : Point) ∈ dirs

theorem circle_has {dirs : List Point} (hd : RightAngles dirs) {c q : Point} {r : ℚ} (hr : 0 ≤ r)
    (h : (q.x - c.x) * (q.x - c.x) + (q.y - c.y) * (q.y - c.y) ≤ r * r) : BoxHas (circlePoints dirs c r) q := by
  have hx : (q.x - c.x) * (q.x - c.x) ≤ r * r := by nlinarith [mul_self_nonneg (q.y - c.y)]
  have hy : (q.y - c.y) * (q.y - c.y) ≤ r * r := by nlinarith [mul_self_nonneg (q.x - c.x)]
  have ax := abs_le.1 (abs_le_of_sq_le_sq (by simpa only [sq] using hx) hr)
  have ay := abs_le.1 (abs_le_of_sq_le_sq (by simpa only [sq] using hy) hr)
  obtain ⟨d1, d2, d3, d4⟩ := hd
  unfold circlePoints
  refine ⟨⟨_, List.mem_map_of_mem d3, ?_⟩, ⟨_, List.mem_map_of_mem d1, ?_⟩, ⟨_, List.mem_map_of_mem d4, ?_⟩,
    ⟨_, List.mem_map_of_mem d2, ?_⟩⟩ <;> dsimp only <;> linarith [ax.1, ax.2, ay.1, ay.2]

/-- A ball is added on each enabled plane, within boxes that enclose it. -/
theorem C45_sphere {f : Flags} {dirs : List Point} (hd : RightAngles dirs) (m : MaterialKind) (n : Nat) (c : Point3)
    {r : ℚ} (hr : 0 ≤ r) :
    (∀ a ∈ parseSphere f dirs m n c r, ∀ p, InBall c r p → Encloses a p) ∧
    (parseSphere f dirs m n c r).filterMap onPlane = [Plane.yz, .zx, .xy].filter (enabled f) := by
  constructor
  · intro a ha p hp
    unfold InBall at hp
    have sx := mul_self_nonneg (p.x - c.x)
    have sy := mul_self_nonneg (p.y - c.y)
    have sz := mul_self_nonneg (p.z - c.z)
    have bound : ∀ {u : ℚ}, u * u ≤ r * r → -r ≤ u ∧ u ≤ r := fun h =>
      abs_le.1 (abs_le_of_sq_le_sq (by simpa only [sq] using h) hr)
    have hz : ∀ {u c0 : ℚ}, (u - c0) * (u - c0) ≤ r * r → Amid u (c0 - r) (c0 + r) := fun h =>
      Or.inl ⟨by linarith [(bound h).1], by linarith [(bound h).2]⟩
    unfold parseSphere at ha
    simp only [List.mem_append] at ha
    rcases ha with (ha | ha) | ha <;> split_ifs at ha with hf <;> simp only [List.mem_singleton, List.not_mem_nil] at ha <;>
      subst ha <;> refine ⟨circle_has hd hr ?_, amid_rangeZ (hz ?_)⟩ <;> simp only [proj, depth] <;> linarith
  · unfold parseSphere
    cases h1 : f.yz <;> cases h2 : f.zx <;> cases h3 : f.xy <;> simp [onPlane, enabled, h1, h2, h3]

/-- What is added for a ball is not larger than it: the cosines and sines are at most one. -/
theorem C45_sphere_tight {f : Flags} {dirs : List Point} (hd : ∀ d ∈ dirs, |d.x| ≤ 1 ∧ |d.y| ≤ 1) (m : MaterialKind) (n : Nat)
    (c : Point3) (r : ℚ) : ∀ a ∈ parseSphere f dirs m n c r, Touches a (InBall c r) := by
  have sq1 : ∀ {u : ℚ}, |u| ≤ 1 → (r * u) * (r * u) ≤ r * r := by
    intro u hu
    have h1 : u * u ≤ 1 := by
      have := abs_le.1 hu
      nlinarith [this.1, this.2]
    nlinarith [mul_self_nonneg r, mul_le_mul_of_nonneg_left h1 (mul_self_nonneg r)]
  have px : ∀ u : ℚ, |u| ≤ 1 → InBall c r ⟨c.x + r * u, c.y, c.z⟩ := fun u hu => by
    unfold InBall; dsimp only; linarith [sq1 hu]
  have py : ∀ u : ℚ, |u| ≤ 1 → InBall c r ⟨c.x, c.y + r * u, c.z⟩ := fun u hu => by
    unfold InBall; dsimp only; linarith [sq1 hu]
  have pz : ∀ u : ℚ, |u| ≤ 1 → InBall c r ⟨c.x, c.y, c.z + r * u⟩ := fun u hu => by
    unfold InBall; dsimp only; linarith [sq1 hu]
  have one : |(1 : ℚ)| ≤ 1 := by norm_num
  have none : |(-1 : ℚ)| ≤ 1 := by norm_num
  have ends : ∀ {c0 z : ℚ}, z = c0 - r ∨ z = c0 + r → ∃ u : ℚ, |u| ≤ 1 ∧ c0 + r * u = z := by
    rintro c0 z (rfl | rfl)
    · exact ⟨-1, none, by ring⟩
    · exact ⟨1, one, by ring⟩
  intro a ha
  unfold parseSphere at ha
  simp only [List.mem_append, List.mem_ite_nil_right, List.mem_singleton] at ha
  rcases ha with (⟨-, rfl⟩ | ⟨-, rfl⟩) | ⟨-, rfl⟩
  · obtain ⟨u, hu, e⟩ := ends (rangeZ_ends (c.x - r) (c.x + r)).1
    obtain ⟨w, hw, e'⟩ := ends (rangeZ_ends (c.x - r) (c.x + r)).2
    refine ⟨fun v hv => ?_, ⟨_, px u hu, e⟩, ⟨_, px w hw, e'⟩⟩
    obtain ⟨d, hdm, rfl⟩ := List.mem_map.1 hv
    exact ⟨⟨_, py _ (hd d hdm).1, rfl⟩, ⟨_, pz _ (hd d hdm).2, rfl⟩⟩
  · obtain ⟨u, hu, e⟩ := ends (rangeZ_ends (c.y - r) (c.y + r)).1
    obtain ⟨w, hw, e'⟩ := ends (rangeZ_ends (c.y - r) (c.y + r)).2
    refine ⟨fun v hv => ?_, ⟨_, py u hu, e⟩, ⟨_, py w hw, e'⟩⟩
    obtain ⟨d, hdm, rfl⟩ := List.mem_map.1 hv
    exact ⟨⟨_, pz _ (hd d hdm).1, rfl⟩, ⟨_, px _ (hd d hdm).2, rfl⟩⟩
  · obtain ⟨u, hu, e⟩ := ends (rangeZ_ends (c.z - r) (c.z + r)).1
    obtain ⟨w, hw, e'⟩ := ends (rangeZ_ends (c.z - r) (c.z + r)).2
    refine ⟨fun v hv => ?_, ⟨_, pz u hu, e⟩, ⟨_, pz w hw, e'⟩⟩
    obtain ⟨d, hdm, rfl⟩ := List.mem_map.1 hv
    exact ⟨⟨_, px _ (hd d hdm).1, rfl⟩, ⟨_, py _ (hd d hdm).2, rfl⟩⟩

/-- A point is one line at its coordinate along each of the two axes of each enabled plane. -/
theorem C45_point (f : Flags) (p : Point3) :
    (∀ a ∈ parsePoint f p, ∃ axis, a = .line axis (along axis p)) ∧
    ∀ axis, .line axis (along axis p) ∈ parsePoint f p ↔ ∃ plane, enabled f plane = true ∧ axis ≠ normalAxis plane := by
  constructor
  · intro a ha
    unfold parsePoint at ha
    simp only [List.mem_append] at ha
    rcases ha with (ha | ha) | ha <;> split_ifs at ha <;>
      simp only [List.mem_cons, List.not_mem_nil, or_false] at ha <;> rcases ha with rfl | rfl <;>
      first
      | exact ⟨.x, rfl⟩
      | exact ⟨.y, rfl⟩
      | exact ⟨.z, rfl⟩
  · have planes : ∀ P : Plane → Prop, (∃ q, P q) ↔ P .yz ∨ P .zx ∨ P .xy := fun P =>
      ⟨fun ⟨q, hq⟩ => by cases q <;> simp [hq], by rintro (h | h | h) <;> exact ⟨_, h⟩⟩
    intro axis
    rw [planes]
    unfold parsePoint
    cases axis <;> cases h1 : f.yz <;> cases h2 : f.zx <;> cases h3 : f.xy <;>
      simp [along, enabled, normalAxis, h1, h2, h3]

example : parsePoint { xy := false } ⟨1, 2, 3⟩ = [.line .y 2, .line .z 3, .line .z 3, .line .x 1] := by decide +kernel

/-- The sides of a cylinder are taken at half its radius, with no extent along the other direction, and the range of a
curve along the normal of each plane is reduced to its smallest end. -/
theorem C45_false : ∃ p1 p2 : Point3, ∃ r : ℚ, ∃ p : Point3, ∃ v : List Point3,
    InCylinder .xy p1 p2 r p ∧ (∀ dirs, ∃ a ∈ parseCylinder {} dirs .conductor 0 p1 p2 r, ¬ Encloses a p) ∧
    ∃ q ∈ v, ∃ added, parseCurve {} .conductor v = some added ∧ ∃ a ∈ added, ¬ Encloses a q := by
  refine ⟨⟨0, 0, 0⟩, ⟨0, 0, 9⟩, 2, ⟨2, 0, 1⟩, [⟨0, 0, 0⟩, ⟨0, 0, 5⟩], ?_, ?_, ⟨0, 0, 5⟩, by simp, _, rfl, ?_⟩
  · unfold InCylinder Amid
    decide +kernel
  · intro dirs
    refine ⟨addBox .yz .conductor 0 0 0 ⟨0 - 2 / 2, 0⟩ ⟨0 + 2 / 2, 9⟩, ?_, ?_⟩
    · unfold parseCylinder
      have h1 : coordEq (0 : ℚ) 9 = false := by decide +kernel
      have h2 : coordEq (0 : ℚ) 0 = true := by decide +kernel
      simp [h1, h2]
    · unfold Encloses addBox
      simp only [depth]
      rintro ⟨-, -, h⟩
      revert h
      decide +kernel
  · refine ⟨.polygon .xy .conductor sizeMax (rangeZ 0 0) (backAndForth [⟨0, 0⟩, ⟨0, 0⟩]), ?_, ?_⟩
    · decide +kernel
    · unfold Encloses
      simp only [depth]
      rintro ⟨-, -, h⟩
      revert h
      decide +kernel

/-- The circle of a cylinder along an axis encloses it on the plane across. What is missing: the sides of cylinders and
the range of curves (see `C45_false`). -/
theorem C45_cylinder_partial {f : Flags} {dirs : List Point} (hd : RightAngles dirs) (m : MaterialKind) (n : Nat)
    {p1 p2 : Point3} {r : ℚ} (hr : 0 ≤ r) {plane : Plane} (hf : enabled f plane = true)
    (ha : proj plane p1 = proj plane p2) (hne : Mesh.tolerance ≤ |depth plane p1 - depth plane p2|) :
    ∃ a ∈ parseCylinder f dirs m n p1 p2 r, onPlane a = some plane ∧ ∀ p, InCylinder plane p1 p2 r p → Encloses a p := by
  have t : ∀ a : ℚ, coordEq a a = true := fun a => by simp [coordEq, Mesh.tolerance]
  have nt : ∀ {a b : ℚ}, Mesh.tolerance ≤ |a - b| → ¬ coordEq a b = true := fun h => by
    simp only [coordEq, decide_eq_true_eq, not_lt]; exact h
  have key : ∀ z0 z1 : ℚ, ∀ c : Point, c = proj plane p1 → z0 = depth plane p1 → z1 = depth plane p2 →
      ∀ p, InCylinder plane p1 p2 r p → Encloses (.polygon plane m n (rangeZ z0 z1) (circlePoints dirs c r)) p := by
    rintro z0 z1 c rfl rfl rfl p ⟨hp1, hp2⟩
    exact ⟨circle_has hd hr hp2, amid_rangeZ hp1⟩
  cases plane with
  | yz =>
    simp only [proj, Point.mk.injEq] at ha
    refine ⟨.polygon .yz m n (rangeZ p1.x p2.x) (circlePoints dirs ⟨p1.y, p1.z⟩ r), ?_, rfl, key _ _ _ rfl rfl rfl⟩
    unfold parseCylinder
    rw [if_pos ⟨by rw [ha.1]; exact t _, by rw [ha.2]; exact t _⟩, if_pos (show f.yz = true from hf)]
    simp
  | zx =>
    simp only [proj, Point.mk.injEq] at ha
    refine ⟨.polygon .zx m n (rangeZ p1.y p2.y) (circlePoints dirs ⟨p1.z, p1.x⟩ r), ?_, rfl, key _ _ _ rfl rfl rfl⟩
    unfold parseCylinder
    rw [if_neg fun h => nt hne h.1, if_pos ⟨by rw [ha.1]; exact t _, by rw [ha.2]; exact t _⟩, if_pos (show f.zx = true from hf)]
    simp
  | xy =>
    simp only [proj, Point.mk.injEq] at ha
    refine ⟨.polygon .xy m n (rangeZ p1.z p2.z) (circlePoints dirs ⟨p1.x, p1.y⟩ r), ?_, rfl, key _ _ _ rfl rfl rfl⟩
    unfold parseCylinder
    rw [if_neg fun h => nt hne h.2, if_neg fun h => nt hne h.1,
      if_pos ⟨by rw [ha.1]; exact t _, by rw [ha.2]; exact t _⟩, if_pos (show f.xy = true from hf)]
    simp

theorem mem_backAndForth {α : Type} {l : List α} {a : α} : a ∈ backAndForth l ↔ a ∈ l := by
  unfold backAndForth
  constructor
  · intro h
    rcases List.mem_append.1 h with h | h
    · exact h
    · exact List.mem_of_mem_drop (List.mem_reverse.1 (List.mem_of_mem_drop h))
  · exact fun h => List.mem_append.2 (Or.inl h)

/-- A curve is added on each enabled plane, through all its vertices, at its lowest point along the normal. What is
missing: the rest of the range along the normal (see `C45_false`). -/
theorem C45_curve_partial {f : Flags} (m : MaterialKind) {vertices : List Point3} {added : List Added}
    (h : parseCurve f m vertices = some added) :
    added.filterMap onPlane = [Plane.yz, .zx, .xy].filter (enabled f) ∧
    ∀ a ∈ added, ∃ plane z points, a = .polygon plane m sizeMax (z, z) points ∧
      (∀ q, q ∈ points ↔ ∃ v ∈ vertices, proj plane v = q) ∧ (∃ v ∈ vertices, depth plane v = z) ∧
      ∀ v ∈ vertices, z ≤ depth plane v := by
  have small : ∀ {l : List ℚ} {z : ℚ}, smallest l = some z → z ∈ l ∧ ∀ x ∈ l, z ≤ x := by
    intro l
    cases l with
    | nil => intro z hz; simp [smallest] at hz
    | cons a l =>
      intro z hz
      simp only [smallest, Option.some.injEq] at hz
      subst hz
      have main : ∀ (l : List ℚ) (a : ℚ), (l.foldl (fun m z => if z < m then z else m) a = a ∨
          l.foldl (fun m z => if z < m then z else m) a ∈ l) ∧ l.foldl (fun m z => if z < m then z else m) a ≤ a ∧
          ∀ x ∈ l, l.foldl (fun m z => if z < m then z else m) a ≤ x := by
        intro l
        induction l with
        | nil => intro a; simp
        | cons b l ih =>
          intro a
          simp only [List.foldl_cons]
          obtain ⟨h1, h2, h3⟩ := ih (if b < a then b else a)
          refine ⟨?_, ?_, ?_⟩
          · rcases h1 with h1 | h1
            · split_ifs at h1 ⊢ with hb
              · right; rw [h1]; simp
              · left; exact h1
            · right; exact List.mem_cons_of_mem _ h1
          · refine h2.trans ?_
            split_ifs with hb
            · exact hb.le
            · exact le_refl _
          · intro x hx
            rcases List.mem_cons.1 hx with rfl | hx
            · refine h2.trans ?_
              split_ifs with hb
              · exact le_refl _
              · exact not_lt.1 hb
            · exact h3 x hx
      obtain ⟨h1, h2, h3⟩ := main l a
      refine ⟨?_, ?_⟩
      · rcases h1 with h1 | h1
        · rw [h1]; simp
        · exact List.mem_cons_of_mem _ h1
      · intro x hx
        rcases List.mem_cons.1 hx with rfl | hx
        · exact h2
        · exact h3 x hx
  have on : ∀ {plane : Plane} {a : Added}, curveOn plane m (depth plane) (proj plane) vertices = some a →
      ∃ plane z points, a = .polygon plane m sizeMax (z, z) points ∧
      (∀ q, q ∈ points ↔ ∃ v ∈ vertices, proj plane v = q) ∧ (∃ v ∈ vertices, depth plane v = z) ∧
      ∀ v ∈ vertices, z ≤ depth plane v := by
    intro plane a ha
    simp only [curveOn, Option.map_eq_some_iff] at ha
    obtain ⟨z, hz, rfl⟩ := ha
    obtain ⟨h1, h2⟩ := small hz
    refine ⟨plane, z, backAndForth (vertices.map (proj plane)), ?_, fun q => ?_, List.mem_map.1 h1, fun v hv => h2 _ (List.mem_map_of_mem hv)⟩
    · have : rangeZ z z = (z, z) := by unfold rangeZ; simp
      rw [this]
    · rw [mem_backAndForth, List.mem_map]
  simp only [parseCurve, Option.bind_eq_some_iff, Option.map_eq_some_iff] at h
  obtain ⟨y, hy, z, hz, x, hx, rfl⟩ := h
  constructor
  · have part : ∀ {fl : Bool} {plane : Plane} {d pr} {l : List Added},
        guarded fl (curveOn plane m d pr vertices) = some l → l.filterMap onPlane = if fl then [plane] else [] := by
      intro fl plane d pr l hl
      unfold guarded at hl
      split_ifs at hl with hfl
      · simp only [curveOn, Option.map_map, Option.map_eq_some_iff] at hl
        obtain ⟨w, -, rfl⟩ := hl
        rw [if_pos hfl]
        rfl
      · obtain rfl := Option.some.inj hl
        rw [if_neg hfl]
        rfl
    rw [List.filterMap_append, List.filterMap_append, part hy, part hz, part hx]
    cases h1 : f.yz <;> cases h2 : f.zx <;> cases h3 : f.xy <;> simp [enabled, h1, h2, h3]
  · intro a ha
    simp only [List.mem_append] at ha
    rcases ha with (ha | ha) | ha
    · exact on (plane := .yz) (guarded_mem hy ha).2
    · exact on (plane := .zx) (guarded_mem hz ha).2
    · exact on (plane := .xy) (guarded_mem hx ha).2

/-- The square of the right angles, a box, a stretched triangle. -/
example : RightAngles [⟨1, 0⟩, ⟨0, 1⟩, ⟨-1, 0⟩, ⟨0, -1⟩] ∧ InBox ⟨3, 0, 0⟩ ⟨1, 1, 1⟩ ⟨2, 1, 0⟩ ∧
    InBall ⟨0, 0, 0⟩ 3 ⟨2, 2, 1⟩ ∧ FlatOn 1 .zx ∧
    parseLinpoly {} .dielectric 4 1 5 (-2) [⟨0, 0⟩, ⟨3, 0⟩, ⟨3, 7⟩] = some
      [.polygon .zx .dielectric 4 (3, 5) [⟨0, 0⟩, ⟨3, 0⟩, ⟨3, 7⟩],
        .polygon .xy .dielectric 4 (0, 3) [⟨0, 5⟩, ⟨0, 3⟩, ⟨7, 3⟩, ⟨7, 5⟩],
        .polygon .yz .dielectric 4 (0, 7) [⟨5, 0⟩, ⟨5, 3⟩, ⟨3, 3⟩, ⟨3, 0⟩]] := by
  unfold RightAngles InBox Amid InBall FlatOn
  decide +kernel

/-! ## C58 -/

/-- A polygon or a curve without vertices makes the parser read outside a list. -/
theorem C58_false : ∃ s1 s2 s3 : Shape, ∀ dirs,
    parsePrimitive {} dirs .conductor ⟨false, 0, s1⟩ = none ∧ parsePrimitive {} dirs .conductor ⟨false, 0, s2⟩ = none ∧
    parsePrimitive {} dirs .conductor ⟨false, 0, s3⟩ = none :=
  ⟨.linpoly 2 0 1 [], .polygon 2 0 [], .curve [], fun _ => ⟨rfl, rfl, rfl⟩⟩

/-- A shape with at least one vertex where it has a list of them. -/
def HasVertices : Shape → Prop
  | .linpoly _ _ _ v => v ≠ []
  | .polygon _ _ v => v ≠ []
  | .curve v => v ≠ []
  | _ => True

theorem parsePrimitive_defined {f : Flags} {dirs : List Point} {m : MaterialKind} {p : Primitive} (h : HasVertices p.shape) :
    ∃ added, parsePrimitive f dirs m p = some added := by
  unfold parsePrimitive
  split_ifs
  · exact ⟨_, rfl⟩
  cases hs : p.shape with
  | linpoly n e l v =>
    rw [hs] at h
    obtain ⟨b, hb⟩ := Option.isSome_iff_exists.1 ((C33_defined v).2 h)
    simp only [parseLinpoly, hb]
    cases toPlane n <;> exact ⟨_, rfl⟩
  | polygon n e v =>
    rw [hs] at h
    obtain ⟨b, hb⟩ := Option.isSome_iff_exists.1 ((C33_defined v).2 h)
    simp only [parsePolygon, hb]
    cases toPlane n <;> cases toAxis n <;> exact ⟨_, rfl⟩
  | curve v =>
    rw [hs] at h
    cases v with
    | nil => exact absurd rfl h
    | cons a v =>
      simp only [parseCurve, curveOn, List.map_cons, smallest, Option.map_some, guarded]
      cases f.yz <;> cases f.zx <;> cases f.xy <;> exact ⟨_, rfl⟩
  | _ => exact ⟨_, rfl⟩

/-- A file in which polygons, stretched or not, and curves have vertices is read without undefined behaviour. What is
missing: those without vertices (see `C58_false`). -/
theorem C58_partial (f : Flags) (dirs : List Point) (properties : List Property)
    (h : ∀ p ∈ properties, ∀ q ∈ p.primitives, HasVertices q.shape) :
    ∃ added, parseProperties f dirs properties = some added := by
  have prims : ∀ m ps, (∀ q ∈ ps, HasVertices q.shape) → ∃ added, parsePrimitives f dirs m ps = some added := by
    intro m ps
    induction ps with
    | nil => exact fun _ => ⟨_, rfl⟩
    | cons p rest ih =>
      intro hps
      obtain ⟨others, ho⟩ := ih fun q hq => hps q (by simp [hq])
      cases m with
      | none => exact ⟨_, by simp only [parsePrimitives, ho, Option.elim, Option.bind_some]; rfl⟩
      | some k =>
        obtain ⟨l, hl⟩ := parsePrimitive_defined (f := f) (dirs := dirs) (m := k) (hps p (by simp))
        exact ⟨_, by simp only [parsePrimitives, ho, hl, Option.elim, Option.bind_some]; rfl⟩
  induction properties with
  | nil => exact ⟨_, rfl⟩
  | cons p rest ih =>
    obtain ⟨others, ho⟩ := ih fun q hq => h q (by simp [hq])
    obtain ⟨l, hl⟩ := prims (parseProperty p.kind) p.primitives (h p (by simp))
    exact ⟨_, by simp only [parseProperties, ho, hl, Option.bind_some]; rfl⟩

example : HasVertices (.polygon 0 1 [⟨0, 0⟩]) ∧ HasVertices (.curve [⟨0, 0, 1⟩, ⟨1, 0, 1⟩]) := by
  simp [HasVertices]

/-! ## C59 -/

/-- The material and priority of a polygon. -/
def ofPolygon : Added → Option (MaterialKind × Nat)
  | .polygon _ m n _ _ => some (m, n)
  | .line _ _ => none

theorem parsePrimitive_priority {f : Flags} {dirs : List Point} {m : MaterialKind} {p : Primitive} {added : List Added}
    (h : parsePrimitive f dirs m p = some added) {a : Added} (ha : a ∈ added) {r : MaterialKind × Nat}
    (hr : ofPolygon a = some r) :
    r.1 = m ∧ (r.2 = parsePriority m p.priority ∨ ((∃ v, p.shape = .curve v) ∧ r.2 = sizeMax)) ∧
      ((∃ v, p.shape = .curve v) → r.2 = sizeMax) := by
  have box : ∀ {n : Nat} {p1 p2 : Point3}, a ∈ parseBox f m n p1 p2 → r.1 = m ∧ r.2 = n := by
    intro n p1 p2 h
    unfold parseBox addBox at h
    simp only [List.mem_append] at h
    rcases h with (h | h) | h <;> split_ifs at h <;> simp only [List.mem_singleton, List.not_mem_nil] at h <;>
      (rw [h] at hr; rw [← Option.some.inj hr]; exact ⟨rfl, rfl⟩)
  unfold parsePrimitive at h
  split_ifs at h with ht
  · obtain rfl := Option.some.inj h
    simp at ha
  cases hs : p.shape with
  | box p1 p2 =>
    simp only [hs] at h
    obtain rfl := Option.some.inj h
    obtain ⟨h1, h2⟩ := box ha
    exact ⟨h1, Or.inl h2, by simp⟩
  | multibox ss es =>
    simp only [hs] at h
    obtain rfl := Option.some.inj h
    unfold parseMultibox at ha
    obtain ⟨x, -, hx⟩ := List.mem_flatMap.1 ha
    obtain ⟨h1, h2⟩ := box hx
    exact ⟨h1, Or.inl h2, by simp⟩
  | linpoly n e l v =>
    simp only [hs, parseLinpoly] at h
    cases hn : toPlane n with
    | none => rw [hn] at h; obtain rfl := Option.some.inj h; simp at ha
    | some plane =>
      simp only [hn, Option.map_eq_some_iff] at h
      obtain ⟨b, -, rfl⟩ := h
      have : r.1 = m ∧ r.2 = parsePriority m p.priority := by
        rcases List.mem_cons.1 ha with rfl | ha
        · rw [← Option.some.inj hr]; exact ⟨rfl, rfl⟩
        · unfold addBox at ha
          split at ha
          · simp at ha
          · cases plane <;> simp only [List.mem_append, List.mem_ite_nil_right, List.mem_singleton] at ha <;>
              rcases ha with ⟨hf, rfl⟩ | ⟨hf, rfl⟩ <;> (rw [← Option.some.inj hr]; exact ⟨rfl, rfl⟩)
      exact ⟨this.1, Or.inl this.2, by simp⟩
  | polygon n e v =>
    simp only [hs, parsePolygon] at h
    cases hn : toPlane n <;> cases hx : toAxis n <;> simp only [hn, hx] at h
    · obtain rfl := Option.some.inj h; simp at ha
    · obtain rfl := Option.some.inj h; simp at ha
    · obtain rfl := Option.some.inj h; simp at ha
    · rw [Option.map_eq_some_iff] at h
      obtain ⟨b, -, rfl⟩ := h
      simp only [List.mem_cons, List.not_mem_nil, or_false] at ha
      rcases ha with rfl | rfl
      · rw [← Option.some.inj hr]; exact ⟨rfl, Or.inl rfl, by simp⟩
      · simp [ofPolygon] at hr
  | sphere c r' =>
    simp only [hs] at h
    obtain rfl := Option.some.inj h
    unfold parseSphere at ha
    simp only [List.mem_append] at ha
    rcases ha with (ha | ha) | ha <;> split_ifs at ha <;> simp only [List.mem_singleton, List.not_mem_nil] at ha <;>
      (rw [ha] at hr; rw [← Option.some.inj hr]; exact ⟨rfl, Or.inl rfl, by simp⟩)
  | cylinder p1 p2 r' =>
    simp only [hs] at h
    obtain rfl := Option.some.inj h
    obtain ⟨q, z, pts, -, rfl⟩ := parseCylinder_mem ha
    rw [← Option.some.inj hr]
    exact ⟨rfl, Or.inl rfl, by simp⟩
  | point q =>
    simp only [hs] at h
    obtain rfl := Option.some.inj h
    unfold parsePoint at ha
    simp only [List.mem_append] at ha
    rcases ha with (ha | ha) | ha <;> split_ifs at ha <;>
      simp only [List.mem_cons, List.not_mem_nil, or_false] at ha <;> rcases ha with rfl | rfl <;> simp [ofPolygon] at hr
  | curve v =>
    simp only [hs] at h
    obtain ⟨q, z, pts, -, rfl⟩ := parseCurve_mem h ha
    rw [← Option.some.inj hr]
    exact ⟨rfl, Or.inr ⟨⟨v, rfl⟩, rfl⟩, fun _ => rfl⟩
  | other =>
    simp only [hs] at h
    obtain rfl := Option.some.inj h
    simp at ha

theorem madeOf_of {k : PropertyKind} {m : MaterialKind} (h : parseProperty k = some m) : MadeOf k m := by
  cases k with
  | material epsilon mue kappa =>
    obtain rfl := Option.some.inj h
    unfold Board.deduceType
    split_ifs with h1 h2 h3
    · obtain ⟨rfl, rfl, rfl⟩ := h1; exact .air
    · exact .dielectric (Or.inl (ne_of_gt h2.1))
    · obtain ⟨rfl, rfl, h3⟩ := h3; exact .conducting h3
    · refine .dielectric ?_
      by_contra hc
      simp only [not_or, not_not, not_lt] at hc
      obtain ⟨h4, h5, h6⟩ := hc
      rcases h6.lt_or_eq with h6 | h6
      · exact h3 ⟨h4, h5, h6⟩
      · exact h1 ⟨h4, h5, h6.symm⟩
  | metal => obtain rfl := Option.some.inj h; exact .metal
  | conductingSheet => obtain rfl := Option.some.inj h; exact .sheet
  | lumpedElement => obtain rfl := Option.some.inj h; exact .element
  | excitation => obtain rfl := Option.some.inj h; exact .excitation
  | probeBox => obtain rfl := Option.some.inj h; exact .probe
  | other => simp [parseProperty] at h

/-- Every polygon of a file has the material of a property of the file that has one, and the priority of one of its
primitives, except that ports and curves have the highest priority there is. -/
theorem C59_priority {f : Flags} {dirs : List Point} {properties : List Property} {added : List Added}
    (h : parseProperties f dirs properties = some added) {plane : Plane} {m : MaterialKind} {n : Nat} {z : ℚ × ℚ}
    {points : List Point} (ha : .polygon plane m n z points ∈ added) :
    ∃ p ∈ properties, ∃ q ∈ p.primitives, MadeOf p.kind m ∧ q.transformed = false ∧
      (n = q.priority ∨ n = 2 ^ 64 - 1) ∧
      (m = .port ∨ (∃ v, q.shape = .curve v) → n = 2 ^ 64 - 1) ∧
      (m ≠ .port → (∀ v, q.shape ≠ .curve v) → n = q.priority) := by
  obtain ⟨p, hp, k, hk, q, hq, l, hl, hal⟩ := parseProperties_mem h ha
  obtain ⟨h1, h2, h3⟩ := parsePrimitive_priority hl hal rfl
  dsimp only at h1 h2 h3
  subst h1
  refine ⟨p, hp, q, hq, madeOf_of hk, ?_, ?_, ?_, ?_⟩
  · by_contra ht
    unfold parsePrimitive at hl
    rw [if_pos (by simpa using ht)] at hl
    obtain rfl := Option.some.inj hl
    simp at hal
  · rcases h2 with h2 | ⟨-, h2⟩
    · rw [h2]
      unfold parsePriority
      split_ifs
      · exact Or.inr rfl
      · exact Or.inl rfl
    · exact Or.inr h2
  · rintro (hm | hc)
    · rcases h2 with h2 | ⟨-, h2⟩
      · rw [h2]; unfold parsePriority; rw [if_pos hm]; rfl
      · exact h2
    · exact h3 hc
  · intro hm hc
    rcases h2 with h2 | ⟨⟨v, hv⟩, -⟩
    · rw [h2]; unfold parsePriority; rw [if_neg hm]
    · exact absurd hv (hc v)

/-- A metal box, a port, a box without material and a transformed box. -/
example : parseProperties { zx := false, xy := false } []
    [⟨.metal, [⟨false, 3, .box ⟨0, 0, 0⟩ ⟨1, 2, 3⟩⟩, ⟨true, 3, .box ⟨0, 0, 0⟩ ⟨1, 2, 3⟩⟩]⟩,
      ⟨.other, [⟨false, 3, .box ⟨0, 0, 0⟩ ⟨1, 2, 3⟩⟩]⟩, ⟨.probeBox, [⟨false, 3, .box ⟨0, 0, 0⟩ ⟨1, 1, 1⟩⟩]⟩]
    = some [.polygon .yz .conductor 3 (0, 1) [⟨0, 0⟩, ⟨0, 3⟩, ⟨2, 3⟩, ⟨2, 0⟩],
      .polygon .yz .port (2 ^ 64 - 1) (0, 1) [⟨0, 0⟩, ⟨0, 1⟩, ⟨1, 1⟩, ⟨1, 0⟩]] := by decide +kernel

end Verif.Csx
