import Verif.Lemmas.Build
import Verif.Spec.Whole

/-!
# Lemmas about the board of a file of boxes
-/

namespace Verif.Board
open Verif.Geom
open Verif.Csx (Flags Point3 Property Primitive PropertyKind parsePriority parsePrimitive parsePrimitives parseProperties parseProperty
  parseBox addBox)
open Verif.Csx.Spec (Solid coordOf port corners solids PointAt BoxFile Hidden proj depth normalAxis Amid)
open Verif.Mesh (tolerance)
open Spec

/-- The polygon of a box on a plane. -/
def boxPart (m : MaterialKind) (s : Solid) (p : Plane) : Part where
  plane := p
  material := m
  priority := s.priority
  z := rangeZ (depth p s.p1) (depth p s.p2)
  points := boxPoints (proj p s.p1) (proj p s.p2)
  bounding := (detectBounding (boxPoints (proj p s.p1) (proj p s.p2))).getD ⟨0, 0, 0, 0⟩
  edges := (polygonEdges (boxPoints (proj p s.p1) (proj p s.p2))).getD []

/-- The three polygons of a box. -/
def boxParts (x : MaterialKind × Solid) : List Part := [Plane.yz, .zx, .xy].map (boxPart x.1 x.2)

theorem makeParts_append (a b : List Csx.Added) :
    makeParts (a ++ b) = (makeParts a).bind fun x => (makeParts b).map fun y => x ++ y := by
  induction a with
  | nil => simp [makeParts]
  | cons x a ih =>
    cases x with
    | line axis c => simpa [makeParts] using ih
    | polygon plane m n z points =>
      simp only [List.cons_append, makeParts, ih]
      cases makePart plane m n z points <;> cases makeParts a <;> cases makeParts b <;> rfl

theorem makeParts_lines {l : List Csx.Added} (h : ∀ x ∈ l, ∃ axis c, x = .line axis c) : makeParts l = some [] := by
  induction l with
  | nil => rfl
  | cons x l ih =>
    obtain ⟨axis, c, rfl⟩ := h x (by simp)
    simpa [makeParts] using ih fun y hy => h y (by simp [hy])

theorem makeParts_box {f : Flags} (hf : f.yz = true ∧ f.zx = true ∧ f.xy = true) (m : MaterialKind) (n : Nat) (p1 p2 : Point3) :
    makeParts (parseBox f m n p1 p2) = some (boxParts (m, ⟨n, p1, p2⟩)) ∧
      ∀ axis c, .line axis c ∉ parseBox f m n p1 p2 := by
  unfold parseBox
  rw [hf.1, hf.2.1, hf.2.2]
  refine ⟨rfl, fun axis c h => ?_⟩
  simp [addBox] at h

theorem makeParts_multibox {f : Flags} (hf : f.yz = true ∧ f.zx = true ∧ f.xy = true) (m : MaterialKind) (n : Nat)
    (l : List (Point3 × Point3)) :
    makeParts (l.flatMap fun s => parseBox f m n s.1 s.2) =
      some ((l.map fun s => (m, (⟨n, s.1, s.2⟩ : Solid))).flatMap boxParts) ∧
      ∀ axis c, .line axis c ∉ l.flatMap fun s => parseBox f m n s.1 s.2 := by
  induction l with
  | nil => exact ⟨rfl, by simp⟩
  | cons x l ih =>
    obtain ⟨h1, h2⟩ := makeParts_box hf m n x.1 x.2
    refine ⟨?_, fun axis c h => ?_⟩
    · rw [List.flatMap_cons, makeParts_append, h1, ih.1, List.map_cons, List.flatMap_cons]
      rfl
    · rw [List.flatMap_cons, List.mem_append] at h
      exact h.elim (h2 axis c) (ih.2 axis c)

/-- What a primitive of a file of boxes adds. -/
theorem primitive_boxes {f : Flags} (hf : f.yz = true ∧ f.zx = true ∧ f.xy = true) (dirs : List Point) (m : MaterialKind)
    {q : Primitive} (h : q.transformed = true ∨ (∃ p1 p2, q.shape = .box p1 p2) ∨
    (∃ starts ends, q.shape = .multibox starts ends) ∨ (∃ p, q.shape = .point p) ∨ q.shape = .other) :
    ∃ l, parsePrimitive f dirs m q = some l ∧
      makeParts l = some (((corners q).map fun c => (m, (⟨parsePriority m q.priority, c.1, c.2⟩ : Solid))).flatMap boxParts) ∧
      ∀ axis c, .line axis c ∈ l ↔ q.transformed = false ∧ ∃ p, q.shape = .point p ∧ coordOf axis p = c := by
  obtain ⟨t, n, shape⟩ := q
  unfold parsePrimitive corners
  dsimp only at h ⊢
  cases t with
  | true => exact ⟨[], rfl, rfl, by simp⟩
  | false =>
    simp only [Bool.false_eq_true, false_or, if_false] at h ⊢
    rcases h with ⟨p1, p2, rfl⟩ | ⟨starts, ends, rfl⟩ | ⟨p, rfl⟩ | rfl
    · obtain ⟨h1, h2⟩ := makeParts_box hf m (parsePriority m n) p1 p2
      exact ⟨_, rfl, h1, by simpa using h2⟩
    · obtain ⟨h1, h2⟩ := makeParts_multibox hf m (parsePriority m n) (starts.zip ends)
      exact ⟨_, rfl, h1, by simpa [Csx.parseMultibox] using h2⟩
    · refine ⟨_, rfl, makeParts_lines ?_, ?_⟩
      · unfold Csx.parsePoint
        rw [hf.1, hf.2.1, hf.2.2]
        simp
      · unfold Csx.parsePoint
        rw [hf.1, hf.2.1, hf.2.2]
        intro axis c
        cases axis <;> simp [coordOf, eq_comm]
    · exact ⟨[], rfl, rfl, by simp⟩

theorem primitives_boxes {f : Flags} (hf : f.yz = true ∧ f.zx = true ∧ f.xy = true) (dirs : List Point) (m : MaterialKind)
    {qs : List Primitive} (h : ∀ q ∈ qs, q.transformed = true ∨ (∃ p1 p2, q.shape = .box p1 p2) ∨
    (∃ starts ends, q.shape = .multibox starts ends) ∨ (∃ p, q.shape = .point p) ∨ q.shape = .other) :
    ∃ l, parsePrimitives f dirs (some m) qs = some l ∧
      makeParts l = some ((qs.flatMap fun q => (corners q).map fun c =>
        (m, (⟨parsePriority m q.priority, c.1, c.2⟩ : Solid))).flatMap boxParts) ∧
      ∀ axis c, .line axis c ∈ l ↔ ∃ q ∈ qs, q.transformed = false ∧ ∃ p, q.shape = .point p ∧ coordOf axis p = c := by
  induction qs with
  | nil => exact ⟨[], rfl, rfl, by simp⟩
  | cons q qs ih =>
    obtain ⟨l, h1, h2, h3⟩ := primitive_boxes hf dirs m (h q (by simp))
    obtain ⟨l', h1', h2', h3'⟩ := ih fun q hq => h q (by simp [hq])
    refine ⟨l ++ l', ?_, ?_, ?_⟩
    · unfold parsePrimitives
      simp [h1, h1']
    · rw [makeParts_append, h2, h2', List.flatMap_cons, List.flatMap_append]
      rfl
    · intro axis c
      rw [List.mem_append, h3, h3']
      simp only [List.mem_cons, exists_eq_or_imp]

theorem parsePrimitives_none (f : Flags) (dirs : List Point) (qs : List Primitive) : parsePrimitives f dirs none qs = some [] := by
  induction qs with
  | nil => rfl
  | cons q qs ih => unfold parsePrimitives; simp [ih]

theorem port_read (k : PropertyKind) : (port k = none ∧ parseProperty k = none) ∨
    ∃ b m, port k = some b ∧ parseProperty k = some m ∧
      ∀ n, parsePriority m n = if b then 18446744073709551615 else n := by
  cases k with
  | material e mu ka =>
    refine Or.inr ⟨false, _, rfl, rfl, fun n => ?_⟩
    unfold parsePriority deduceType
    split_ifs <;> simp_all
  | other => exact Or.inl ⟨rfl, rfl⟩
  | metal => exact Or.inr ⟨_, _, rfl, rfl, fun n => rfl⟩
  | conductingSheet => exact Or.inr ⟨_, _, rfl, rfl, fun n => rfl⟩
  | lumpedElement => exact Or.inr ⟨_, _, rfl, rfl, fun n => rfl⟩
  | excitation => exact Or.inr ⟨_, _, rfl, rfl, fun n => rfl⟩
  | probeBox => exact Or.inr ⟨_, _, rfl, rfl, fun n => rfl⟩

/-- What a file of boxes adds: for each box its polygon on each plane, in order; for each point its lines. -/
theorem file_boxes {f : Flags} (hf : f.yz = true ∧ f.zx = true ∧ f.xy = true) (dirs : List Point) {props : List Property}
    (h : ∀ P ∈ props, ∀ q ∈ P.primitives, q.transformed = true ∨ (∃ p1 p2, q.shape = .box p1 p2) ∨
    (∃ starts ends, q.shape = .multibox starts ends) ∨ (∃ p, q.shape = .point p) ∨ q.shape = .other) :
    ∃ added, ∃ ms : List (MaterialKind × Solid), parseProperties f dirs props = some added ∧ ms.map Prod.snd = solids props ∧
      makeParts added = some (ms.flatMap boxParts) ∧ (∀ axis c, .line axis c ∈ added ↔ PointAt props axis c) ∧
      ∀ x ∈ ms, ∃ P ∈ props, parseProperty P.kind = some x.1 := by
  induction props with
  | nil => exact ⟨[], [], rfl, rfl, rfl, by simp [PointAt], by simp⟩
  | cons P props ih =>
    obtain ⟨added, ms, h1, h2, h3, h4, h5⟩ := ih fun P hP => h P (by simp [hP])
    rcases port_read P.kind with ⟨e1, e2⟩ | ⟨b, m, e1, e2, e3⟩
    · refine ⟨added, ms, ?_, ?_, h3, ?_, fun x hx => ?_⟩
      · unfold parseProperties
        rw [e2, parsePrimitives_none, h1]
        rfl
      · rw [h2]
        simp [solids, e1]
      · intro axis c
        rw [h4]
        unfold PointAt
        simp [e1]
      · obtain ⟨Q, hQ, e⟩ := h5 x hx
        exact ⟨Q, List.mem_cons_of_mem _ hQ, e⟩
    · obtain ⟨l, g1, g2, g3⟩ := primitives_boxes hf dirs m (h P (by simp))
      refine ⟨l ++ added, (P.primitives.flatMap fun q => (corners q).map fun c =>
        (m, (⟨parsePriority m q.priority, c.1, c.2⟩ : Solid))) ++ ms, ?_, ?_, ?_, ?_, fun x hx => ?_⟩
      · unfold parseProperties
        rw [e2, g1, h1]
        rfl
      · rw [List.map_append, h2, List.map_flatMap]
        simp only [solids, List.flatMap_cons, e1, Option.elim_some, e3, List.map_map]
        rfl
      · rw [makeParts_append, g2, h3, List.flatMap_append]
        rfl
      · intro axis c
        rw [List.mem_append, g3, h4]
        unfold PointAt
        simp [e1]
      · rcases List.mem_append.1 hx with hx | hx
        · obtain ⟨q, -, hx⟩ := List.mem_flatMap.1 hx
          obtain ⟨c, -, rfl⟩ := List.mem_map.1 hx
          exact ⟨P, List.mem_cons_self .., e2⟩
        · obtain ⟨Q, hQ, e⟩ := h5 x hx
          exact ⟨Q, List.mem_cons_of_mem _ hQ, e⟩

/-! ## The polygons of the boxes -/

/-- The place of the polygon of a plane among the three of a box. -/
def place : Plane → Nat
  | .yz => 0
  | .zx => 1
  | .xy => 2

theorem boxParts_place (x : MaterialKind × Solid) (p : Plane) : (boxParts x)[place p]? = some (boxPart x.1 x.2 p) := by
  cases p <;> rfl

theorem triple_get (ms : List (MaterialKind × Solid)) : ∀ (i k : Nat), k < 3 →
    (ms.flatMap boxParts)[3 * i + k]? = ms[i]?.bind fun x => (boxParts x)[k]? := by
  induction ms with
  | nil => intro i k _; simp
  | cons x ms ih =>
    intro i k hk
    have hlen : (boxParts x).length = 3 := rfl
    rw [List.flatMap_cons]
    cases i with
    | zero =>
      rw [List.getElem?_append_left (by omega)]
      simp
    | succ i =>
      rw [List.getElem?_append_right (by omega), hlen, show 3 * (i + 1) + k - 3 = 3 * i + k by omega, ih i k hk]
      simp

/-- The polygon on a plane of each box. -/
theorem part_of_box {ms : List (MaterialKind × Solid)} {i : Nat} {x : MaterialKind × Solid} (h : ms[i]? = some x) (p : Plane) :
    (ms.flatMap boxParts)[3 * i + place p]? = some (boxPart x.1 x.2 p) := by
  rw [triple_get ms i (place p) (by cases p <;> decide), h]
  exact boxParts_place x p

/-- The box of each polygon. -/
theorem box_of_part {ms : List (MaterialKind × Solid)} {n : Nat} {q : Part} (h : (ms.flatMap boxParts)[n]? = some q) :
    ∃ i x, ms[i]? = some x ∧ n = 3 * i + place q.plane ∧ q = boxPart x.1 x.2 q.plane := by
  have e : n = 3 * (n / 3) + n % 3 := by omega
  rw [e, triple_get ms _ _ (Nat.mod_lt _ (by norm_num))] at h
  obtain ⟨x, hx, hq⟩ := Option.bind_eq_some_iff.1 h
  refine ⟨n / 3, x, hx, ?_⟩
  have h3 := Nat.mod_lt n (show 0 < 3 by norm_num)
  generalize n % 3 = k at *
  have hk : k = 0 ∨ k = 1 ∨ k = 2 := by omega
  rcases hk with rfl | rfl | rfl <;> obtain rfl := Option.some.inj hq <;> exact ⟨e, rfl⟩

theorem proj_coord (p : Plane) (a : Point3) :
    (proj p a).x = coordOf (spaceAxis p .h) a ∧ (proj p a).y = coordOf (spaceAxis p .v) a ∧
      depth p a = coordOf (normalAxis p) a := by
  cases p <;> exact ⟨rfl, rfl, rfl⟩

theorem boxPart_edges (m : MaterialKind) (s : Solid) (p : Plane) :
    polygonEdges (boxPart m s p).points = some (boxPart m s p).edges := rfl

theorem boxPart_segments (m : MaterialKind) (s : Solid) (p : Plane) :
    (boxPart m s p).edges.map Edge.seg = Geom.boxEdges (proj p s.p1) (proj p s.p2) := rfl

/-- A corner of the polygon. -/
def corner (D : Design) (k n : Nat) : Point := (D.input.P n).points.getD k ⟨0, 0⟩

theorem rangeZ_le (a b : ℚ) : (rangeZ a b).1 ≤ (rangeZ a b).2 := by
  unfold rangeZ
  dsimp only
  split_ifs <;> linarith

/-- The board of a file of boxes. -/
theorem file_board {props : List Property} (hb : BoxFile props) {ms : List (MaterialKind × Solid)}
    (hms : ms.map Prod.snd = solids props) (angle : Ang → ℚ) (background : Option MaterialKind) (added : List Csx.Added)
    {E : Nat → BEdge} (hE : SameButReverse (assemble angle background added (ms.flatMap boxParts)).input.E E) :
    BoxBoard { (assemble angle background added (ms.flatMap boxParts)).input with E := E }
      (corner (assemble angle background added (ms.flatMap boxParts)) 0)
      (corner (assemble angle background added (ms.flatMap boxParts)) 2) := by
  have hin : ∀ {p : Plane} {n : Nat}, n ∈ (assemble angle background added (ms.flatMap boxParts)).input.polygons p →
      ∃ x : MaterialKind × Solid, x.2 ∈ solids props ∧ (ms.flatMap boxParts)[n]? = some (boxPart x.1 x.2 p) ∧
        corner (assemble angle background added (ms.flatMap boxParts)) 0 n = proj p x.2.p1 ∧
        corner (assemble angle background added (ms.flatMap boxParts)) 2 n = proj p x.2.p2 := by
    intro p n hn
    obtain ⟨q, hq, rfl⟩ := mem_polygons.1 hn
    obtain ⟨i, x, hx, -, e⟩ := box_of_part hq
    rw [e] at hq
    refine ⟨x, hms ▸ List.mem_map_of_mem (List.mem_of_getElem? hx), hq, ?_, ?_⟩ <;>
    · unfold corner
      rw [polygon_eq hq]
      rfl
  have hclear : ∀ {a b : ℚ}, Clear a b → a ≠ b → 1 / 5000 ≤ |b - a| := by
    rintro a b (h | h) hne
    · exact absurd h hne
    · rwa [abs_sub_comm]
  have hsame : ∀ p, ∀ n ∈ (assemble angle background added (ms.flatMap boxParts)).input.polygons p,
      ∀ e ∈ ((assemble angle background added (ms.flatMap boxParts)).input.P n).edges,
      ∃ x : MaterialKind × Solid, x.2 ∈ solids props ∧ ∃ ed ∈ (boxPart x.1 x.2 p).edges,
        ed.seg = e.2 ∧ ∃ b, E e.1 = { makeEdge p ed with toReverse := b } := by
    intro p n hn e he
    obtain ⟨x, hx, hq, -, -⟩ := hin hn
    obtain ⟨i, ed, hi, rfl⟩ := (mem_polygon_edges hq).1 he
    refine ⟨x, hx, ed, List.mem_of_getElem? hi, rfl, ?_⟩
    obtain ⟨b, hb⟩ := hE (firstEdge (ms.flatMap boxParts) n + i)
    refine ⟨b, ?_⟩
    rw [hb, edge_eq hq hi]
    rfl
  refine ⟨fun p => ⟨fun n hn => ?_, fun n hn k hk => ?_, fun n hn k hk => ?_⟩, fun p => edges_own (angle := angle) (background := background) (added := added) p,
    fun p n hn e he => ?_⟩
  · obtain ⟨x, hx, hq, e1, e2⟩ := hin hn
    obtain ⟨hx1, hy1, -⟩ := proj_coord p x.2.p1
    obtain ⟨hx2, hy2, -⟩ := proj_coord p x.2.p2
    refine ⟨?_, ?_, ?_, ?_, ?_⟩
    · rw [e1, e2, polygon_eq hq]; rfl
    · have hseg := polygon_segments (angle := angle) (background := background) (added := added) hq
      dsimp only
      rw [hseg, polygon_eq hq]
      rfl
    · rw [e1, e2, hx1, hx2]; exact hb.thick _ hx _
    · rw [e1, e2, hy1, hy2]; exact hb.thick _ hx _
    · dsimp only
      rw [polygon_eq hq]
      exact rangeZ_le _ _
  · obtain ⟨x, hx, -, e1, e2⟩ := hin hn
    obtain ⟨y, hy, -, e3, e4⟩ := hin hk
    rw [e1, e2, e3, e4, (proj_coord p x.2.p1).1, (proj_coord p x.2.p2).1, (proj_coord p y.2.p1).1, (proj_coord p y.2.p2).1]
    exact hb.clear _ hx _ hy _
  · obtain ⟨x, hx, -, e1, e2⟩ := hin hn
    obtain ⟨y, hy, -, e3, e4⟩ := hin hk
    rw [e1, e2, e3, e4, (proj_coord p x.2.p1).2.1, (proj_coord p x.2.p2).2.1, (proj_coord p y.2.p1).2.1,
      (proj_coord p y.2.p2).2.1]
    exact hb.clear _ hx _ hy _
  · obtain ⟨x, hx, ed, hed, hseg, b, hEe⟩ := hsame p n hn e he
    have ht : tolerance = 1 / 100000000 := rfl
    obtain ⟨hx1, hy1, -⟩ := proj_coord p x.2.p1
    obtain ⟨hx2, hy2, -⟩ := proj_coord p x.2.p2
    have hw : 1 / 5000 ≤ |(proj p x.2.p2).x - (proj p x.2.p1).x| := by
      rw [hx1, hx2]
      exact hclear (hb.clear _ hx _ hx _ _ (List.mem_cons_self ..) _ (List.mem_cons_of_mem _ (List.mem_cons_self ..)))
        (hb.thick _ hx _)
    have hh : 1 / 5000 ≤ |(proj p x.2.p2).y - (proj p x.2.p1).y| := by
      rw [hy1, hy2]
      exact hclear (hb.clear _ hx _ hx _ _ (List.mem_cons_self ..) _ (List.mem_cons_of_mem _ (List.mem_cons_self ..)))
        (hb.thick _ hx _)
    obtain ⟨edges, h1, -, h2⟩ := C35_box (p1 := proj p x.2.p1) (p3 := proj p x.2.p2) (by rw [ht]; linarith)
      (by rw [ht]; linarith) (by rw [ht, abs_mul]; nlinarith)
    have he' : edges = (boxPart x.1 x.2 p).edges := (Option.some.inj ((boxPart_edges x.1 x.2 p).symm.trans h1)).symm
    obtain ⟨nn, hn1, hn2⟩ := h2 ed (he' ▸ hed)
    dsimp only
    rw [hEe]
    refine ⟨hseg, rfl, ?_, rfl⟩
    unfold makeEdge
    rw [hn1]
    rintro rfl
    have hon : On ed.seg ed.seg.p0 := ⟨0, le_refl _, by norm_num, by ring, by ring⟩
    obtain ⟨g1, g2⟩ := hn2 _ hon
    refine g2 1 one_pos ?_
    convert g1 using 1
    simp [Point.advance, unit]

end Verif.Board
