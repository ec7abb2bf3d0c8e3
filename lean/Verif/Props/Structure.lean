import Verif.Spec.Structure
import Verif.Props.Conflict
import Mathlib.Tactic.FinCases
import Mathlib.Tactic.Linarith
import Mathlib.Tactic.NormNum

/-! # What the structure view draws: C134 -/

namespace Verif.Structure
open Verif.Geom (Plane ViewAxis Point Segment axes transposeAxis)
open Verif.Board (BEdge BAngle Zone Outcome Colinear Zones)
open Verif.Mesh (Policy Policies Interval)
open Spec

/-! ## The items, one after the other -/

theorem inTurn_ok (l : List (Outcome Item)) : ∀ items, inTurn l = .ok items ↔ l = items.map Outcome.ok := by
  induction l with
  | nil => intro items; cases items <;> simp [inTurn]
  | cons o l ih =>
    intro items
    unfold inTurn
    match o with
    | .ub => cases items <;> simp [Outcome.bind]
    | .diverges => cases items <;> simp [Outcome.bind]
    | .ok i =>
      simp only [Outcome.bind, Outcome.map]
      cases h : inTurn l with
      | ub =>
        cases items with
        | nil => simp
        | cons j items =>
          simp only [reduceCtorEq, List.map_cons, List.cons.injEq, false_iff, not_and]
          intro _ h'
          have := (ih items).2 h'
          rw [h] at this; cases this
      | diverges =>
        cases items with
        | nil => simp
        | cons j items =>
          simp only [reduceCtorEq, List.map_cons, List.cons.injEq, false_iff, not_and]
          intro _ h'
          have := (ih items).2 h'
          rw [h] at this; cases this
      | ok l' =>
        have h1 := (ih l').1 h
        cases items with
        | nil => simp
        | cons j items =>
          simp only [Outcome.ok.injEq, List.cons.injEq, List.map_cons]
          constructor
          · rintro ⟨rfl, rfl⟩; exact ⟨rfl, h1⟩
          · rintro ⟨rfl, h2⟩
            refine ⟨rfl, ?_⟩
            have := (ih items).2 h2
            rw [h] at this
            exact Outcome.ok.inj this

theorem inTurn_iff (l : List (Outcome Item)) : (∃ items, inTurn l = .ok items) ↔ ∀ o ∈ l, ∃ i, o = .ok i := by
  simp only [inTurn_ok]
  constructor
  · rintro ⟨items, rfl⟩ o ho
    obtain ⟨i, -, rfl⟩ := List.mem_map.1 ho
    exact ⟨i, rfl⟩
  · intro h
    induction l with
    | nil => exact ⟨[], rfl⟩
    | cons o l ih =>
      obtain ⟨i, rfl⟩ := h o (by simp)
      obtain ⟨items, rfl⟩ := ih fun o ho => h o (by simp [ho])
      exact ⟨i :: items, rfl⟩

theorem mem_of_inTurn {l : List (Outcome Item)} {items : List Item} (h : inTurn l = .ok items) (i : Item) :
    i ∈ items ↔ Outcome.ok i ∈ l := by
  rw [(inTurn_ok l items).1 h]
  simp

/-! ## The axes of a plane -/

theorem axes_h (plane : Plane) : axes plane .h = horizontal plane := by cases plane <;> rfl
theorem axes_v (plane : Plane) : axes plane .v = vertical plane := by cases plane <;> rfl
theorem transpose_h (plane : Plane) : transposeAxis plane (horizontal plane) = some .h := by cases plane <;> rfl
theorem transpose_v (plane : Plane) : transposeAxis plane (vertical plane) = some .v := by cases plane <;> rfl
theorem horizontal_ne (plane : Plane) : horizontal plane ≠ vertical plane := by cases plane <;> decide

/-- The list given to `inTurn`. -/
theorem populate_eq (c : Content) (r : Rect) (plane : Plane) : populate c r plane =
    inTurn (polygonItems (c.polygons plane) ++ angleItems (c.angles plane) ++
      (axisItems c r (horizontal plane) .h ++ axisItems c r (vertical plane) .v)) := by
  unfold populate
  simp only [axes_h, axes_v, List.flatMap_cons, List.flatMap_nil, transpose_h, transpose_v, List.append_nil]

/-- The direction of an axis in a picture. -/
def dir (plane : Plane) (a : Geom.Axis) : ViewAxis := if horizontal plane = a then .h else .v

theorem mem_axes (c : Content) (r : Rect) (plane : Plane) (o : Outcome Item) :
    o ∈ axisItems c r (horizontal plane) .h ++ axisItems c r (vertical plane) .v ↔
      ∃ a, Holds plane a ∧ o ∈ axisItems c r a (dir plane a) := by
  rw [List.mem_append]
  constructor
  · rintro (h | h)
    · exact ⟨_, .inl rfl, by simpa [dir] using h⟩
    · exact ⟨_, .inr rfl, by simpa [dir, horizontal_ne] using h⟩
  · rintro ⟨a, rfl | rfl, h⟩
    · left; simpa [dir] using h
    · right; simpa [dir, horizontal_ne] using h

/-! ## Where shapes are -/

theorem reverse_dir (plane : Plane) (a : Geom.Axis) : (dir plane a).reverse = groupOf plane a := by
  unfold dir groupOf; split <;> rfl

/-- Rectangles of scenes are the right way up. -/
def Rect.Valid (r : Rect) : Prop := r.left ≤ r.right ∧ r.top ≤ r.bottom

theorem enlarged_past {r : Rect} (hr : r.Valid) : r.enlarged.left ≤ r.left ∧ r.right ≤ r.enlarged.right ∧
    r.enlarged.top ≤ r.top ∧ r.bottom ≤ r.enlarged.bottom := by
  have h1 : r.right - r.left ≤ max (r.right - r.left) (r.bottom - r.top) := le_max_left _ _
  have h2 : 0 ≤ max (r.right - r.left) (r.bottom - r.top) := le_trans (by linarith [hr.1]) h1
  unfold Rect.enlarged
  dsimp only
  refine ⟨?_, ?_, ?_, ?_⟩ <;> linarith

theorem lineAt_across {r : Rect} (hr : r.Valid) {plane : Plane} {a : Geom.Axis} (h : Holds plane a) (x : ℚ) :
    LineAcross plane a r x (lineAt r (groupOf plane a) x) := by
  obtain ⟨h1, h2, h3, h4⟩ := enlarged_past hr
  unfold groupOf lineAt
  by_cases h0 : horizontal plane = a
  · simp only [h0, if_true, LineAcross, along, Past]
    exact ⟨trivial, trivial, (min_le_right _ _).trans h3, h4.trans (le_max_left _ _)⟩
  · have hv : vertical plane = a := h.resolve_left h0
    simp only [h0, if_false, LineAcross, along, Past, hv, if_true]
    exact ⟨trivial, trivial, (min_le_left _ _).trans h1, h2.trans (le_max_right _ _)⟩

theorem bandAt_across {r : Rect} (hr : r.Valid) {plane : Plane} {a : Geom.Axis} (h : Holds plane a) (x y : ℚ) :
    StripAcross plane a r x y (bandAt r (groupOf plane a) x y) := by
  obtain ⟨h1, h2, h3, h4⟩ := enlarged_past hr
  unfold groupOf bandAt
  by_cases h0 : horizontal plane = a
  · simp only [h0, if_true, StripAcross, along, Past]
    exact ⟨trivial, trivial, (min_le_right _ _).trans h3, h4.trans (le_max_left _ _)⟩
  · have hv : vertical plane = a := h.resolve_left h0
    simp only [h0, if_false, StripAcross, along, Past, hv, if_true]
    exact ⟨trivial, trivial, (min_le_left _ _).trans h1, h2.trans (le_max_right _ _)⟩

theorem along_transpose (plane : Plane) (a : Geom.Axis) (p : Point) :
    along plane a p = (transposeAxis plane a).map p.coord := by
  cases plane <;> cases a <;> rfl

theorem holds_transpose (plane : Plane) (a : Geom.Axis) : Holds plane a ↔ ∃ va, transposeAxis plane a = some va := by
  cases plane <;> cases a <;> simp [Holds, horizontal, vertical, transposeAxis]

theorem bounding_iff (A : Nat → BAngle) (z : Zone) (x y : ℚ) : z.bounding A = some (x, y) ↔
    ∃ k l, z.angles.head? = some k ∧ z.angles.getLast? = some l ∧ along (A k).plane z.axis (A k).p = some x ∧
      along (A l).plane z.axis (A l).p = some y := by
  unfold Zone.bounding
  simp only [along_transpose, Option.bind_eq_some_iff, Option.map_eq_some_iff, Prod.mk.injEq]
  constructor
  · rintro ⟨k, hk, l, hl, va, hva, w, hw, h1, h2⟩
    exact ⟨k, l, hk, hl, ⟨va, hva, h1⟩, w, hw, h2⟩
  · rintro ⟨k, l, hk, hl, ⟨va, hva, h1⟩, w, hw, h2⟩
    exact ⟨k, hk, l, hl, va, hva, w, hw, h1, h2⟩

/-! ## What is in the lists -/

theorem mem_axisItems {c : Content} {r : Rect} {a : Geom.Axis} {va : ViewAxis} {o : Outcome Item} :
    o ∈ axisItems c r a va ↔
      (∃ n x, (c.axis a).meshlines[n]? = some x ∧ o = .ok (meshlineItem r a va n x)) ∨
      (∃ n p, (c.axis a).policies[n]? = some p ∧ o = .ok (policyItem r a va n p)) ∨
      (∃ n i, (c.axis a).intervals[n]? = some i ∧ o = .ok (intervalItem (c.axis a).get r a va n i)) ∨
      (∃ n k, (c.colinear a)[n]? = some k ∧ o = colinearItem c.edge r a va n k) ∨
      (∃ n z, (c.zones a)[n]? = some z ∧ o = zoneItem c.angle r a va n z) ∨
      ∃ n k, (c.tooClose a)[n]? = some k ∧ o = tooCloseItem (c.axis a).get r a va n k := by
  unfold axisItems
  simp only [List.mem_append, List.mem_map, Prod.exists, List.mem_zipIdx_iff_getElem?, or_assoc, eq_comm (b := o)]
  constructor
  · rintro (⟨x, n, h⟩ | ⟨x, n, h⟩ | ⟨x, n, h⟩ | ⟨x, n, h⟩ | ⟨x, n, h⟩ | ⟨x, n, h⟩)
    · exact .inl ⟨n, x, h.1, h.2⟩
    · exact .inr (.inl ⟨n, x, h.1, h.2⟩)
    · exact .inr (.inr (.inl ⟨n, x, h.1, h.2⟩))
    · exact .inr (.inr (.inr (.inl ⟨n, x, h.1, h.2⟩)))
    · exact .inr (.inr (.inr (.inr (.inl ⟨n, x, h.1, h.2⟩))))
    · exact .inr (.inr (.inr (.inr (.inr ⟨n, x, h.1, h.2⟩))))
  · rintro (⟨n, x, h⟩ | ⟨n, x, h⟩ | ⟨n, x, h⟩ | ⟨n, x, h⟩ | ⟨n, x, h⟩ | ⟨n, x, h⟩)
    · exact .inl ⟨x, n, h.1, h.2⟩
    · exact .inr (.inl ⟨x, n, h.1, h.2⟩)
    · exact .inr (.inr (.inl ⟨x, n, h.1, h.2⟩))
    · exact .inr (.inr (.inr (.inl ⟨x, n, h.1, h.2⟩)))
    · exact .inr (.inr (.inr (.inr (.inl ⟨x, n, h.1, h.2⟩))))
    · exact .inr (.inr (.inr (.inr (.inr ⟨x, n, h.1, h.2⟩))))

theorem mem_polygonItems {l : List (List Point × List Segment)} {o : Outcome Item} : o ∈ polygonItems l ↔
    ∃ n p, l[n]? = some p ∧ (o = (polygonShape p.1).map (fun s => (⟨.polygon n, none, [s]⟩ : Item)) ∨
      ∃ m e, p.2[m]? = some e ∧ o = .ok ⟨.edge n m, none, [.line e.p0 e.p1]⟩) := by
  unfold polygonItems
  simp only [List.mem_flatten, List.mem_map, Prod.exists, List.mem_zipIdx_iff_getElem?]
  constructor
  · rintro ⟨k, ⟨pts, es, n, h, rfl⟩, ho⟩
    refine ⟨n, pts, es, h, ?_⟩
    simp only [List.mem_cons, List.mem_map, Prod.exists, List.mem_zipIdx_iff_getElem?] at ho
    rcases ho with ho | ⟨e, m, he, ho⟩
    · exact .inl ho
    · exact .inr ⟨m, e, he, ho.symm⟩
  · rintro ⟨n, pts, es, h, ho⟩
    refine ⟨_, ⟨pts, es, n, h, rfl⟩, ?_⟩
    simp only [List.mem_cons, List.mem_map, Prod.exists, List.mem_zipIdx_iff_getElem?]
    rcases ho with ho | ⟨m, e, he, ho⟩
    · exact .inl ho
    · exact .inr ⟨e, m, he, ho.symm⟩

theorem mem_angleItems {l : List Point} {o : Outcome Item} : o ∈ angleItems l ↔
    ∃ n p, l[n]? = some p ∧ o = .ok ⟨.angle n, none, angleShapes p⟩ := by
  unfold angleItems
  simp only [List.mem_map, Prod.exists, List.mem_zipIdx_iff_getElem?]
  constructor
  · rintro ⟨p, n, h, rfl⟩; exact ⟨n, p, h, rfl⟩
  · rintro ⟨n, p, h, rfl⟩; exact ⟨p, n, h, rfl⟩

theorem polygonShape_ok {points : List Point} {s : Shape} : polygonShape points = .ok s ↔
    ∃ p rest, points = p :: rest ∧ s = .polygon (p :: rest ++ [p]) := by
  cases points with
  | nil => simp [polygonShape]
  | cons p rest =>
    simp only [polygonShape, Outcome.ok.injEq, List.cons.injEq]
    constructor
    · rintro rfl; exact ⟨p, rest, ⟨rfl, rfl⟩, rfl⟩
    · rintro ⟨_, _, ⟨rfl, rfl⟩, rfl⟩; rfl

theorem outcome_map_iff {α β : Type} {o : Outcome α} {f : α → β} {b : β} :
    o.map f = .ok b ↔ ∃ a, o = .ok a ∧ f a = b := by
  cases o <;> simp [Outcome.map, Outcome.bind]

theorem colinearItem_ok {E : Nat → BEdge} {r : Rect} {a : Geom.Axis} {va : ViewAxis} {n : Nat} {k : List Nat} {i : Item} :
    colinearItem E r a va n k = .ok i ↔ ∃ e l, k = e :: l ∧
      i = ⟨.colinear a n, some va.reverse, [lineAt r va.reverse ((E e).seg.p0.coord va)]⟩ := by
  unfold colinearItem
  rw [outcome_map_iff]
  cases k with
  | nil => simp [colinearLine]
  | cons e l =>
    simp only [colinearLine, Outcome.ok.injEq, List.cons.injEq]
    constructor
    · rintro ⟨s, rfl, rfl⟩
      exact ⟨e, l, ⟨rfl, rfl⟩, by cases va <;> rfl⟩
    · rintro ⟨_, _, ⟨rfl, rfl⟩, rfl⟩
      exact ⟨_, rfl, by cases va <;> rfl⟩

theorem zoneItem_ok {A : Nat → BAngle} {r : Rect} {a : Geom.Axis} {va : ViewAxis} {n : Nat} {z : Zone} {i : Item} :
    zoneItem A r a va n z = .ok i ↔ ∃ x y, z.bounding A = some (x, y) ∧
      i = ⟨.zone a n, some va.reverse, [bandAt r va.reverse x y]⟩ := by
  unfold zoneItem
  cases h : z.bounding A with
  | none => simp
  | some b =>
    simp only [Outcome.ok.injEq, Option.some.injEq]
    constructor
    · rintro rfl; exact ⟨b.1, b.2, rfl, rfl⟩
    · rintro ⟨x, y, rfl, rfl⟩; rfl

theorem tooCloseItem_ok {ps : Policies} {r : Rect} {a : Geom.Axis} {va : ViewAxis} {n : Nat} {k : TooClose} {i : Item} :
    tooCloseItem ps r a va n k = .ok i ↔ ∃ s, k.solution = some s ∧ i = ⟨.tooClose a n, some va.reverse,
      [lineAt r va.reverse (ps s).coord, lineAt r va.reverse (ps k.first).coord,
        lineAt r va.reverse (ps k.second).coord]⟩ := by
  unfold tooCloseItem
  cases k.solution with
  | none => simp
  | some b =>
    simp only [Outcome.ok.injEq, Option.some.injEq]
    constructor
    · rintro rfl; exact ⟨b, rfl, rfl⟩
    · rintro ⟨_, rfl, rfl⟩; rfl

theorem getElem?_lt {α : Type} {l : List α} {n : Nat} : (∃ x, l[n]? = some x) ↔ n < l.length := by
  constructor
  · rintro ⟨x, h⟩; exact (List.getElem?_eq_some_iff.1 h).1
  · exact fun h => ⟨_, List.getElem?_eq_getElem h⟩

theorem mem_populate {c : Content} {r : Rect} {plane : Plane} {items : List Item} (h : populate c r plane = .ok items)
    (i : Item) : i ∈ items ↔ Outcome.ok i ∈ polygonItems (c.polygons plane) ∨ Outcome.ok i ∈ angleItems (c.angles plane) ∨
      ∃ a, Holds plane a ∧ Outcome.ok i ∈ axisItems c r a (dir plane a) := by
  rw [populate_eq] at h
  rw [mem_of_inTurn h, List.mem_append, List.mem_append, mem_axes, or_assoc]

/-! ## C134 -/

/-- C134, when the drawing is defined: it is exactly when polygons have points, conflicts have edges, zones have angles
in planes that hold their axis, and too close policies have been merged. -/
theorem C134_defined (c : Content) (r : Rect) (plane : Plane) :
    (∃ items, populate c r plane = .ok items) ↔ Drawable c plane := by
  rw [populate_eq, inTurn_iff]
  simp only [List.mem_append (s := polygonItems _ ++ _), mem_axes, List.mem_append (s := polygonItems _), or_imp,
    forall_and]
  constructor
  · rintro ⟨⟨h1, -⟩, h2⟩
    refine ⟨?_, ?_⟩
    · intro p hp
      obtain ⟨n, hn⟩ := List.getElem?_of_mem hp
      obtain ⟨i, hi⟩ := h1 _ (mem_polygonItems.2 ⟨n, p, hn, .inl rfl⟩)
      obtain ⟨s, hs, -⟩ := outcome_map_iff.1 hi
      obtain ⟨q, rest, hq, -⟩ := polygonShape_ok.1 hs
      rw [hq]; exact List.cons_ne_nil _ _
    · intro a ha
      refine ⟨?_, ?_, ?_⟩
      · intro k hk
        obtain ⟨n, hn⟩ := List.getElem?_of_mem hk
        obtain ⟨i, hi⟩ := h2 _ ⟨a, ha, mem_axisItems.2 (.inr (.inr (.inr (.inl ⟨n, k, hn, rfl⟩))))⟩
        obtain ⟨e, l, rfl, -⟩ := colinearItem_ok.1 hi
        exact List.cons_ne_nil _ _
      · intro k hk
        obtain ⟨n, hn⟩ := List.getElem?_of_mem hk
        obtain ⟨i, hi⟩ := h2 _ ⟨a, ha, mem_axisItems.2 (.inr (.inr (.inr (.inr (.inr ⟨n, k, hn, rfl⟩)))))⟩
        obtain ⟨s, hs, -⟩ := tooCloseItem_ok.1 hi
        rw [hs]; exact Option.some_ne_none _
      · intro z hz
        obtain ⟨n, hn⟩ := List.getElem?_of_mem hz
        obtain ⟨i, hi⟩ := h2 _ ⟨a, ha, mem_axisItems.2 (.inr (.inr (.inr (.inr (.inl ⟨n, z, hn, rfl⟩)))))⟩
        obtain ⟨x, y, hb, -⟩ := zoneItem_ok.1 hi
        obtain ⟨k, l, hk, hl, h3, h4⟩ := (bounding_iff ..).1 hb
        refine ⟨k, l, hk, hl, ?_, ?_⟩
        · rw [along_transpose, Option.map_eq_some_iff] at h3
          exact (holds_transpose ..).2 (h3.imp fun _ h => h.1)
        · rw [along_transpose, Option.map_eq_some_iff] at h4
          exact (holds_transpose ..).2 (h4.imp fun _ h => h.1)
  · rintro ⟨hp, ha⟩
    refine ⟨⟨?_, ?_⟩, ?_⟩
    · intro o ho
      obtain ⟨n, p, hn, rfl | ⟨m, e, -, rfl⟩⟩ := mem_polygonItems.1 ho
      · have := hp p (List.mem_of_getElem? hn)
        obtain ⟨q, rest, hq⟩ := List.exists_cons_of_ne_nil this
        exact ⟨_, outcome_map_iff.2 ⟨_, polygonShape_ok.2 ⟨q, rest, hq, rfl⟩, rfl⟩⟩
      · exact ⟨_, rfl⟩
    · intro o ho
      obtain ⟨n, p, -, rfl⟩ := mem_angleItems.1 ho
      exact ⟨_, rfl⟩
    · rintro o ⟨a, haa, ho⟩
      obtain ⟨h1, h2, h3⟩ := ha a haa
      rcases mem_axisItems.1 ho with ⟨n, x, -, rfl⟩ | ⟨n, x, -, rfl⟩ | ⟨n, x, -, rfl⟩ | ⟨n, k, hk, rfl⟩ | ⟨n, z, hz, rfl⟩ |
        ⟨n, k, hk, rfl⟩
      · exact ⟨_, rfl⟩
      · exact ⟨_, rfl⟩
      · exact ⟨_, rfl⟩
      · obtain ⟨e, l, he⟩ := List.exists_cons_of_ne_nil (h1 k (List.mem_of_getElem? hk))
        exact ⟨_, colinearItem_ok.2 ⟨e, l, he, rfl⟩⟩
      · obtain ⟨k, l, hk, hl, h4, h5⟩ := h3 z (List.mem_of_getElem? hz)
        obtain ⟨va, h4⟩ := (holds_transpose ..).1 h4
        obtain ⟨wa, h5⟩ := (holds_transpose ..).1 h5
        exact ⟨_, zoneItem_ok.2 ⟨_, _, (bounding_iff ..).2 ⟨k, l, hk, hl, by rw [along_transpose, h4]; rfl,
          by rw [along_transpose, h5]; rfl⟩, rfl⟩⟩
      · obtain ⟨s, hs⟩ := Option.ne_none_iff_exists'.1 (h2 k (List.mem_of_getElem? hk))
        exact ⟨_, tooCloseItem_ok.2 ⟨s, hs, rfl⟩⟩

/-- C134, what is drawn: the picture of a plane has an item for exactly the objects of this plane and of its two axes. -/
theorem C134_present (c : Content) (r : Rect) (plane : Plane) (items : List Item) (h : populate c r plane = .ok items)
    (e : Entity) : (∃ i ∈ items, i.entity = e) ↔ Present c plane e := by
  have hd := (C134_defined c r plane).1 ⟨items, h⟩
  simp only [mem_populate h]
  constructor
  · rintro ⟨i, hi, rfl⟩
    rcases hi with hi | hi | ⟨a, ha, hi⟩
    · obtain ⟨n, p, hn, hp | ⟨m, e, he, hp⟩⟩ := mem_polygonItems.1 hi
      · obtain ⟨s, -, rfl⟩ := outcome_map_iff.1 hp.symm
        exact getElem?_lt.1 ⟨p, hn⟩
      · cases hp
        exact ⟨p, hn, getElem?_lt.1 ⟨e, he⟩⟩
    · obtain ⟨n, p, hn, hp⟩ := mem_angleItems.1 hi
      cases hp
      exact getElem?_lt.1 ⟨p, hn⟩
    · rcases mem_axisItems.1 hi with ⟨n, x, hn, hx⟩ | ⟨n, x, hn, hx⟩ | ⟨n, x, hn, hx⟩ | ⟨n, x, hn, hx⟩ | ⟨n, x, hn, hx⟩ |
        ⟨n, x, hn, hx⟩
      · cases hx; exact ⟨ha, getElem?_lt.1 ⟨x, hn⟩⟩
      · cases hx; exact ⟨ha, getElem?_lt.1 ⟨x, hn⟩⟩
      · cases hx; exact ⟨ha, getElem?_lt.1 ⟨x, hn⟩⟩
      · obtain ⟨_, _, _, rfl⟩ := colinearItem_ok.1 hx.symm; exact ⟨ha, getElem?_lt.1 ⟨x, hn⟩⟩
      · obtain ⟨_, _, _, rfl⟩ := zoneItem_ok.1 hx.symm; exact ⟨ha, getElem?_lt.1 ⟨x, hn⟩⟩
      · obtain ⟨_, _, rfl⟩ := tooCloseItem_ok.1 hx.symm; exact ⟨ha, getElem?_lt.1 ⟨x, hn⟩⟩
  · intro he
    cases e with
    | polygon n =>
      obtain ⟨p, hp⟩ := getElem?_lt.2 he
      obtain ⟨q, rest, hq⟩ := List.exists_cons_of_ne_nil (hd.1 p (List.mem_of_getElem? hp))
      have hx : (polygonShape p.1).map (fun s => (⟨.polygon n, none, [s]⟩ : Item)) =
          .ok ⟨.polygon n, none, [.polygon (q :: rest ++ [q])]⟩ :=
        outcome_map_iff.2 ⟨_, polygonShape_ok.2 ⟨q, rest, hq, rfl⟩, rfl⟩
      exact ⟨_, .inl (mem_polygonItems.2 ⟨n, p, hp, .inl hx.symm⟩), rfl⟩
    | edge m n =>
      obtain ⟨p, hp, he⟩ := he
      obtain ⟨e, he⟩ := getElem?_lt.2 he
      exact ⟨_, .inl (mem_polygonItems.2 ⟨m, p, hp, .inr ⟨n, e, he, rfl⟩⟩), rfl⟩
    | angle n =>
      obtain ⟨p, hp⟩ := getElem?_lt.2 he
      exact ⟨_, .inr (.inl (mem_angleItems.2 ⟨n, p, hp, rfl⟩)), rfl⟩
    | meshline a n =>
      obtain ⟨ha, he⟩ := he
      obtain ⟨p, hp⟩ := getElem?_lt.2 he
      exact ⟨_, .inr (.inr ⟨a, ha, mem_axisItems.2 (.inl ⟨n, p, hp, rfl⟩)⟩), rfl⟩
    | policy a n =>
      obtain ⟨ha, he⟩ := he
      obtain ⟨p, hp⟩ := getElem?_lt.2 he
      exact ⟨_, .inr (.inr ⟨a, ha, mem_axisItems.2 (.inr (.inl ⟨n, p, hp, rfl⟩))⟩), rfl⟩
    | interval a n =>
      obtain ⟨ha, he⟩ := he
      obtain ⟨p, hp⟩ := getElem?_lt.2 he
      exact ⟨_, .inr (.inr ⟨a, ha, mem_axisItems.2 (.inr (.inr (.inl ⟨n, p, hp, rfl⟩)))⟩), rfl⟩
    | colinear a n =>
      obtain ⟨ha, he⟩ := he
      obtain ⟨k, hk⟩ := getElem?_lt.2 he
      obtain ⟨e, l, hkl⟩ := List.exists_cons_of_ne_nil ((hd.2 a ha).1 k (List.mem_of_getElem? hk))
      exact ⟨_, .inr (.inr ⟨a, ha, mem_axisItems.2 (.inr (.inr (.inr (.inl ⟨n, k, hk,
        (colinearItem_ok.2 ⟨e, l, hkl, rfl⟩).symm⟩))))⟩), rfl⟩
    | zone a n =>
      obtain ⟨ha, he⟩ := he
      obtain ⟨z, hz⟩ := getElem?_lt.2 he
      obtain ⟨k, l, hk, hl, h4, h5⟩ := (hd.2 a ha).2.2 z (List.mem_of_getElem? hz)
      obtain ⟨va, h4⟩ := (holds_transpose ..).1 h4
      obtain ⟨wa, h5⟩ := (holds_transpose ..).1 h5
      exact ⟨_, .inr (.inr ⟨a, ha, mem_axisItems.2 (.inr (.inr (.inr (.inr (.inl ⟨n, z, hz,
        (zoneItem_ok.2 ⟨_, _, (bounding_iff ..).2 ⟨k, l, hk, hl, by rw [along_transpose, h4]; rfl,
          by rw [along_transpose, h5]; rfl⟩, rfl⟩).symm⟩)))))⟩), rfl⟩
    | tooClose a n =>
      obtain ⟨ha, he⟩ := he
      obtain ⟨k, hk⟩ := getElem?_lt.2 he
      obtain ⟨s, hs⟩ := Option.ne_none_iff_exists'.1 ((hd.2 a ha).2.1 k (List.mem_of_getElem? hk))
      exact ⟨_, .inr (.inr ⟨a, ha, mem_axisItems.2 (.inr (.inr (.inr (.inr (.inr ⟨n, k, hk,
        (tooCloseItem_ok.2 ⟨s, hs, rfl⟩).symm⟩)))))⟩), rfl⟩

/-- Two outcomes that are not items of the same object. -/
def Apart (o o' : Outcome Item) : Prop := ∀ i j, o = .ok i → o' = .ok j → i.entity ≠ j.entity

theorem pairwise_zipIdx {α : Type} {f : α × Nat → Outcome Item} (l : List α)
    (h : ∀ x n y m, n ≠ m → Apart (f (x, n)) (f (y, m))) : (l.zipIdx.map f).Pairwise Apart := by
  rw [List.pairwise_map, List.pairwise_iff_getElem]
  intro i j hi hj hij
  rw [List.getElem_zipIdx, List.getElem_zipIdx]
  exact h _ _ _ _ (by omega)

theorem axisItems_entity {c : Content} {r : Rect} {a : Geom.Axis} {va : ViewAxis} {i : Item}
    (h : Outcome.ok i ∈ axisItems c r a va) : ∃ n, i.entity = .meshline a n ∨ i.entity = .policy a n ∨
      i.entity = .interval a n ∨ i.entity = .colinear a n ∨ i.entity = .zone a n ∨ i.entity = .tooClose a n := by
  rcases mem_axisItems.1 h with ⟨n, x, hn, hx⟩ | ⟨n, x, hn, hx⟩ | ⟨n, x, hn, hx⟩ | ⟨n, x, hn, hx⟩ | ⟨n, x, hn, hx⟩ |
    ⟨n, x, hn, hx⟩
  · cases hx; exact ⟨n, .inl rfl⟩
  · cases hx; exact ⟨n, .inr (.inl rfl)⟩
  · cases hx; exact ⟨n, .inr (.inr (.inl rfl))⟩
  · obtain ⟨_, _, _, rfl⟩ := colinearItem_ok.1 hx.symm; exact ⟨n, .inr (.inr (.inr (.inl rfl)))⟩
  · obtain ⟨_, _, _, rfl⟩ := zoneItem_ok.1 hx.symm; exact ⟨n, .inr (.inr (.inr (.inr (.inl rfl))))⟩
  · obtain ⟨_, _, rfl⟩ := tooCloseItem_ok.1 hx.symm; exact ⟨n, .inr (.inr (.inr (.inr (.inr rfl))))⟩

theorem axisItems_apart (c : Content) (r : Rect) (a : Geom.Axis) (va : ViewAxis) :
    (axisItems c r a va).Pairwise Apart := by
  have hm : ∀ x n, ∀ i, Outcome.ok (meshlineItem r a va n x) = .ok i → i.entity = .meshline a n := by
    intro x n i h; cases h; rfl
  have hp : ∀ x n, ∀ i, Outcome.ok (policyItem r a va n x) = .ok i → i.entity = .policy a n := by
    intro x n i h; cases h; rfl
  have hi : ∀ x n, ∀ i, Outcome.ok (intervalItem (c.axis a).get r a va n x) = .ok i → i.entity = .interval a n := by
    intro x n i h; cases h; rfl
  have hc : ∀ x n, ∀ i, colinearItem c.edge r a va n x = .ok i → i.entity = .colinear a n := by
    intro x n i h; obtain ⟨_, _, _, rfl⟩ := colinearItem_ok.1 h; rfl
  have hz : ∀ x n, ∀ i, zoneItem c.angle r a va n x = .ok i → i.entity = .zone a n := by
    intro x n i h; obtain ⟨_, _, _, rfl⟩ := zoneItem_ok.1 h; rfl
  have ht : ∀ x n, ∀ i, tooCloseItem (c.axis a).get r a va n x = .ok i → i.entity = .tooClose a n := by
    intro x n i h; obtain ⟨_, _, rfl⟩ := tooCloseItem_ok.1 h; rfl
  unfold axisItems
  simp only [List.pairwise_append, List.mem_append, List.mem_map, Prod.exists]
  refine ⟨⟨⟨⟨⟨?_, ?_, ?_⟩, ?_, ?_⟩, ?_, ?_⟩, ?_, ?_⟩, ?_, ?_⟩
  · refine pairwise_zipIdx _ fun x n y m hnm i j h1 h2 => ?_
    rw [hm _ _ _ h1, hm _ _ _ h2]; simpa using hnm
  · refine pairwise_zipIdx _ fun x n y m hnm i j h1 h2 => ?_
    rw [hp _ _ _ h1, hp _ _ _ h2]; simpa using hnm
  · rintro _ ⟨x, n, -, rfl⟩ _ ⟨y, m, -, rfl⟩ i j h1 h2
    rw [hm _ _ _ h1, hp _ _ _ h2]; simp
  · refine pairwise_zipIdx _ fun x n y m hnm i j h1 h2 => ?_
    rw [hi _ _ _ h1, hi _ _ _ h2]; simpa using hnm
  · rintro _ (⟨x, n, -, rfl⟩ | ⟨x, n, -, rfl⟩) _ ⟨y, m, -, rfl⟩ i j h1 h2
    · rw [hm _ _ _ h1, hi _ _ _ h2]; simp
    · rw [hp _ _ _ h1, hi _ _ _ h2]; simp
  · refine pairwise_zipIdx _ fun x n y m hnm i j h1 h2 => ?_
    rw [hc _ _ _ h1, hc _ _ _ h2]; simpa using hnm
  · rintro _ ((⟨x, n, -, rfl⟩ | ⟨x, n, -, rfl⟩) | ⟨x, n, -, rfl⟩) _ ⟨y, m, -, rfl⟩ i j h1 h2
    · rw [hm _ _ _ h1, hc _ _ _ h2]; simp
    · rw [hp _ _ _ h1, hc _ _ _ h2]; simp
    · rw [hi _ _ _ h1, hc _ _ _ h2]; simp
  · refine pairwise_zipIdx _ fun x n y m hnm i j h1 h2 => ?_
    rw [hz _ _ _ h1, hz _ _ _ h2]; simpa using hnm
  · rintro _ (((⟨x, n, -, rfl⟩ | ⟨x, n, -, rfl⟩) | ⟨x, n, -, rfl⟩) | ⟨x, n, -, rfl⟩) _ ⟨y, m, -, rfl⟩ i j h1 h2
    · rw [hm _ _ _ h1, hz _ _ _ h2]; simp
    · rw [hp _ _ _ h1, hz _ _ _ h2]; simp
    · rw [hi _ _ _ h1, hz _ _ _ h2]; simp
    · rw [hc _ _ _ h1, hz _ _ _ h2]; simp
  · refine pairwise_zipIdx _ fun x n y m hnm i j h1 h2 => ?_
    rw [ht _ _ _ h1, ht _ _ _ h2]; simpa using hnm
  · rintro _ ((((⟨x, n, -, rfl⟩ | ⟨x, n, -, rfl⟩) | ⟨x, n, -, rfl⟩) | ⟨x, n, -, rfl⟩) | ⟨x, n, -, rfl⟩) _ ⟨y, m, -, rfl⟩ i j
      h1 h2
    · rw [hm _ _ _ h1, ht _ _ _ h2]; simp
    · rw [hp _ _ _ h1, ht _ _ _ h2]; simp
    · rw [hi _ _ _ h1, ht _ _ _ h2]; simp
    · rw [hc _ _ _ h1, ht _ _ _ h2]; simp
    · rw [hz _ _ _ h1, ht _ _ _ h2]; simp

theorem polygonItems_apart (l : List (List Point × List Segment)) : (polygonItems l).Pairwise Apart := by
  unfold polygonItems
  rw [List.pairwise_flatten]
  constructor
  · intro k hk
    simp only [List.mem_map, Prod.exists] at hk
    obtain ⟨pts, es, n, -, rfl⟩ := hk
    rw [List.pairwise_cons]
    constructor
    · intro o ho i j h1 h2
      obtain ⟨s, -, rfl⟩ := outcome_map_iff.1 h1
      simp only [List.mem_map, Prod.exists] at ho
      obtain ⟨e, m, -, rfl⟩ := ho
      cases h2
      simp
    · refine pairwise_zipIdx _ fun x n y m hnm i j h1 h2 => ?_
      cases h1; cases h2
      simpa using hnm
  · rw [List.pairwise_map, List.pairwise_iff_getElem]
    intro n m hn hm hnm o ho o' ho' i j h1 h2
    rw [List.getElem_zipIdx] at ho ho'
    simp only [List.mem_cons, List.mem_map, Prod.exists] at ho ho'
    rcases ho with rfl | ⟨e, k, -, rfl⟩ <;> rcases ho' with rfl | ⟨e', k', -, rfl⟩
    · obtain ⟨s, -, rfl⟩ := outcome_map_iff.1 h1
      obtain ⟨s, -, rfl⟩ := outcome_map_iff.1 h2
      simp only [ne_eq, Entity.polygon.injEq]; omega
    · obtain ⟨s, -, rfl⟩ := outcome_map_iff.1 h1
      cases h2; simp
    · obtain ⟨s, -, rfl⟩ := outcome_map_iff.1 h2
      cases h1; simp
    · cases h1; cases h2
      simp only [ne_eq, Entity.edge.injEq]; omega

/-- C134, once: no object is drawn twice. -/
theorem C134_once (c : Content) (r : Rect) (plane : Plane) (items : List Item) (h : populate c r plane = .ok items) :
    (items.map (·.entity)).Nodup := by
  rw [populate_eq, inTurn_ok] at h
  have hpw : (items.map Outcome.ok).Pairwise Apart := by
    rw [← h, List.pairwise_append, List.pairwise_append, List.pairwise_append]
    have hpoly : ∀ i, Outcome.ok i ∈ polygonItems (c.polygons plane) →
        (∃ n, i.entity = .polygon n) ∨ ∃ n m, i.entity = .edge n m := by
      intro i hi
      obtain ⟨n, p, hn, hp | ⟨m, e, he, hp⟩⟩ := mem_polygonItems.1 hi
      · obtain ⟨s, -, rfl⟩ := outcome_map_iff.1 hp.symm; exact .inl ⟨n, rfl⟩
      · cases hp; exact .inr ⟨n, m, rfl⟩
    have hang : ∀ i, Outcome.ok i ∈ angleItems (c.angles plane) → ∃ n, i.entity = .angle n := by
      intro i hi
      obtain ⟨n, p, hn, hp⟩ := mem_angleItems.1 hi
      cases hp; exact ⟨n, rfl⟩
    refine ⟨⟨polygonItems_apart _, ?_, ?_⟩, ⟨axisItems_apart .., axisItems_apart .., ?_⟩, ?_⟩
    · refine pairwise_zipIdx _ fun x n y m hnm i j h1 h2 => ?_
      cases h1; cases h2
      simpa using hnm
    · rintro _ ho _ ho' i j rfl rfl
      obtain ⟨m, hm⟩ := hang _ ho'
      rcases hpoly _ ho with ⟨n, hn⟩ | ⟨n, k, hn⟩ <;> rw [hn, hm] <;> simp
    · rintro _ ho _ ho' i j rfl rfl
      obtain ⟨n, hn⟩ := axisItems_entity ho
      obtain ⟨m, hm⟩ := axisItems_entity ho'
      have := horizontal_ne plane
      rcases hn with hn | hn | hn | hn | hn | hn <;> rcases hm with hm | hm | hm | hm | hm | hm <;> rw [hn, hm] <;>
        simp [this]
    · rintro _ ho _ ho' i j rfl rfl
      have h1 : (∃ n, i.entity = .polygon n) ∨ (∃ n m, i.entity = .edge n m) ∨ ∃ n, i.entity = .angle n := by
        rcases List.mem_append.1 ho with h | h
        · rcases hpoly _ h with h | h
          · exact .inl h
          · exact .inr (.inl h)
        · exact .inr (.inr (hang _ h))
      have h2 : ∃ a n, j.entity = .meshline a n ∨ j.entity = .policy a n ∨
          j.entity = .interval a n ∨ j.entity = .colinear a n ∨ j.entity = .zone a n ∨ j.entity = .tooClose a n := by
        rcases List.mem_append.1 ho' with h | h
        · exact ⟨_, axisItems_entity h⟩
        · exact ⟨_, axisItems_entity h⟩
      obtain ⟨a, n, h2⟩ := h2
      rcases h1 with ⟨m, h1⟩ | ⟨m, k, h1⟩ | ⟨m, h1⟩ <;> rcases h2 with h2 | h2 | h2 | h2 | h2 | h2 <;> rw [h1, h2] <;> simp
  rw [List.pairwise_map] at hpw
  unfold List.Nodup
  rw [List.pairwise_map]
  exact hpw.imp fun h => h _ _ rfl rfl

/-- C134, where. In the picture of a plane, everything is drawn at its place: the lines, policies, intervals, zones and
conflicts of an axis at their coordinates along this axis and across the whole picture. Missing: the colinear conflicts
whose edges are in the other plane that holds the axis. -/
theorem C134_places_partial (c : Content) (r : Rect) (plane : Plane) (items : List Item) (hr : r.Valid)
    (hz : ∀ a, ∀ z ∈ c.zones a, z.axis = a) (h : populate c r plane = .ok items) (i : Item) (hi : i ∈ items)
    (ho : OwnPlane c plane i.entity) : Right c plane r i := by
  rcases (mem_populate h i).1 hi with hi | hi | ⟨a, ha, hi⟩
  · obtain ⟨n, p, hn, hp | ⟨m, e, he, hp⟩⟩ := mem_polygonItems.1 hi
    · obtain ⟨s, hs, rfl⟩ := outcome_map_iff.1 hp.symm
      obtain ⟨q, rest, hq, rfl⟩ := polygonShape_ok.1 hs
      refine ⟨p.1, p.2, _, hn, rfl, ?_, ?_⟩
      · rw [hq]; exact List.dropLast_concat
      · rw [hq]; exact List.getLast?_concat
    · cases hp
      exact ⟨p.1, p.2, e, hn, he, rfl⟩
  · obtain ⟨n, p, hn, hp⟩ := mem_angleItems.1 hi
    cases hp
    refine ⟨p, _, _, hn, rfl, ?_, ?_⟩
    · constructor <;> simp
    · intro t ht
      simp only [List.mem_cons, List.not_mem_nil, or_false] at ht
      rcases ht with rfl | rfl <;> constructor <;> simp only <;> ring
  · have hg : some (dir plane a).reverse = some (groupOf plane a) := by rw [reverse_dir]
    rcases mem_axisItems.1 hi with ⟨n, x, hn, hx⟩ | ⟨n, x, hn, hx⟩ | ⟨n, x, hn, hx⟩ | ⟨n, x, hn, hx⟩ | ⟨n, x, hn, hx⟩ |
      ⟨n, x, hn, hx⟩
    · cases hx
      refine ⟨hg, x, _, hn, rfl, ?_⟩
      rw [reverse_dir]; exact lineAt_across hr ha x
    · cases hx
      refine ⟨hg, x, _, _, _, hn, rfl, ?_⟩
      rw [reverse_dir]; exact lineAt_across hr ha _
    · cases hx
      refine ⟨hg, x, _, hn, rfl, ?_⟩
      rw [reverse_dir]; exact bandAt_across hr ha _ _
    · obtain ⟨e, l, rfl, rfl⟩ := colinearItem_ok.1 hx.symm
      have hpl := ho e l hn
      refine ⟨hg, e, l, (c.edge e).seg.p0.coord (dir plane a), _, hn, rfl, ?_, ?_⟩
      · rw [hpl]
        unfold along dir
        by_cases h0 : horizontal plane = a
        · simp only [h0, if_true]; rfl
        · simp only [h0, if_false, ha.resolve_left h0, if_true]; rfl
      · rw [reverse_dir]; exact lineAt_across hr ha _
    · obtain ⟨x', y, hb, rfl⟩ := zoneItem_ok.1 hx.symm
      obtain ⟨k, l, hk, hl, h1, h2⟩ := (bounding_iff ..).1 hb
      rw [hz a x (List.mem_of_getElem? hn)] at h1 h2
      refine ⟨hg, x, k, l, x', y, _, hn, hk, hl, rfl, h1, h2, ?_⟩
      rw [reverse_dir]; exact bandAt_across hr ha _ _
    · obtain ⟨s, hs, rfl⟩ := tooCloseItem_ok.1 hx.symm
      refine ⟨hg, x, s, _, _, _, hn, hs, rfl, ?_, ?_, ?_⟩ <;> rw [reverse_dir] <;> exact lineAt_across hr ha _

/-- The edges of two metal plates of the plane XY, on the line `x = 1`. -/
def plateEdges : Nat → BEdge
  | 0 => ⟨.xy, ⟨⟨1, 3⟩, ⟨1, 5⟩⟩, .xmax, true, false⟩
  | _ => ⟨.xy, ⟨⟨1, 6⟩, ⟨1, 8⟩⟩, .xmax, true, false⟩

/-- A board with these two edges in conflict, the policies and lines of the axis X, and a slanted corner. -/
def plates : Content where
  polygons
    | .xy => [([⟨0, 3⟩, ⟨1, 3⟩, ⟨1, 5⟩], [⟨⟨0, 3⟩, ⟨1, 3⟩⟩, ⟨⟨1, 3⟩, ⟨1, 5⟩⟩, ⟨⟨1, 5⟩, ⟨0, 3⟩⟩])]
    | _ => []
  angles
    | .xy => [⟨0, 3⟩, ⟨1, 5⟩]
    | _ => []
  axis
    | .x => { policies := [⟨0, .halfs, .none, true, 1 / 2⟩, ⟨1, .thirds, .max, true, 1 / 2⟩], conflicts := []
              intervals := [⟨1, ⟨0, 1, 1, []⟩, ⟨1, 1, 1, []⟩, 1 / 2, 1 / 2⟩], meshlines := [1 / 4, 1 / 2, 5 / 6] }
    | _ => { policies := [], conflicts := [], intervals := [], meshlines := [] }
  colinear := Board.detectColinear plateEdges .xy (fun _ => []) [0, 1]
  zones
    | .x => [⟨.x, 1, 2, 0, [0, 1], []⟩]
    | _ => []
  tooClose := fun _ => []
  edge := plateEdges
  angle
    | 0 => ⟨.xy, ⟨0, 3⟩, 0⟩
    | _ => ⟨.xy, ⟨1, 5⟩, 0⟩

/-- The rectangle of the scene. -/
def plateRect : Rect := ⟨-1, 2, 2, 9⟩

theorem plates_colinear : plates.colinear .x = [[0, 1]] := by decide +kernel

/-- C134 is false of colinear conflicts in the other plane of their axis: two edges of the plane XY at `x = 1` are drawn
in the picture of ZX at `x = 3`, which is the `y` of their end. The conflict is one the detection makes. -/
theorem C134_false : ∃ (c : Content) (r : Rect) (items : List Item) (i : Item), r.Valid ∧
    c.colinear = Board.detectColinear c.edge .xy (fun _ => []) [0, 1] ∧ populate c r .zx = .ok items ∧ i ∈ items ∧
    i.entity = .colinear .x 0 ∧ along (c.edge 0).plane .x (c.edge 0).seg.p0 = some 1 ∧
    (∃ s, i.shapes = [s] ∧ LineAcross .zx .x r 3 s) ∧ ¬ Right c .zx r i := by
  have hr : plateRect.Valid := ⟨by norm_num [plateRect], by norm_num [plateRect]⟩
  have hp : ∃ items, populate plates plateRect .zx = .ok items := by
    rw [C134_defined]
    refine ⟨(by intro p hp; cases hp), ?_⟩
    rintro a (rfl | rfl)
    · refine ⟨?_, (by intro k hk; cases hk), (by intro k hk; cases hk)⟩
      have : plates.colinear (horizontal .zx) = [] := by decide +kernel
      rw [this]; intro k hk; cases hk
    · refine ⟨?_, (by intro k hk; cases hk), ?_⟩
      · have : plates.colinear (vertical .zx) = [[0, 1]] := plates_colinear
        rw [this]; intro k hk; rw [List.mem_singleton] at hk; rw [hk]; simp
      · intro z hz
        rw [List.mem_singleton.1 hz]
        exact ⟨0, 1, rfl, rfl, by decide, by decide⟩
  obtain ⟨items, hi⟩ := hp
  obtain ⟨i, him, hie⟩ := (C134_present plates plateRect .zx items hi (.colinear .x 0)).2
    ⟨by decide, by rw [plates_colinear]; decide⟩
  have hshape : i.shapes = [lineAt plateRect .h 3] := by
    rcases (mem_populate hi i).1 him with h | h | ⟨a, ha, h⟩
    · obtain ⟨n, p, hn, -⟩ := mem_polygonItems.1 h; cases hn
    · obtain ⟨n, p, hn, -⟩ := mem_angleItems.1 h; cases hn
    · rcases mem_axisItems.1 h with ⟨n, x, hn, hx⟩ | ⟨n, x, hn, hx⟩ | ⟨n, x, hn, hx⟩ | ⟨n, x, hn, hx⟩ | ⟨n, x, hn, hx⟩ |
        ⟨n, x, hn, hx⟩
      · cases hx; cases hie
      · cases hx; cases hie
      · cases hx; cases hie
      · obtain ⟨e, l, rfl, rfl⟩ := colinearItem_ok.1 hx.symm
        cases hie
        rw [plates_colinear] at hn
        cases hn
        rfl
      · obtain ⟨_, _, _, rfl⟩ := zoneItem_ok.1 hx.symm; cases hie
      · obtain ⟨_, _, rfl⟩ := tooCloseItem_ok.1 hx.symm; cases hie
  refine ⟨plates, plateRect, items, i, hr, rfl, hi, him, hie, rfl, ⟨_, hshape, ?_⟩, ?_⟩
  · exact lineAt_across (plane := .zx) (a := .x) hr (by decide) 3
  · unfold Right
    rw [hie, hshape]
    rintro ⟨-, e, l, x, s, h1, h2, h3, h4⟩
    rw [plates_colinear] at h1
    cases h1; cases h2; cases h3
    have := h4.1
    exact absurd this (by decide +kernel)

/-- The picture of XY is drawn, and everything in it is in place. -/
example : ∃ items, populate plates plateRect .xy = .ok items ∧ items.length = 14 ∧ ∀ i ∈ items, Right plates .xy plateRect i := by
  have h : (match populate plates plateRect .xy with | .ok l => l.length | _ => 0) = 14 := by decide +kernel
  cases hp : populate plates plateRect .xy with
  | ub => rw [hp] at h; cases h
  | diverges => rw [hp] at h; cases h
  | ok items =>
    rw [hp] at h
    refine ⟨items, rfl, h, fun i hi => ?_⟩
    refine C134_places_partial plates plateRect .xy items ⟨by norm_num [plateRect], by norm_num [plateRect]⟩ ?_ hp i hi ?_
    · intro a z hz
      cases a
      · rw [List.mem_singleton.1 hz]
      · cases hz
      · cases hz
    · cases hie : i.entity with
      | colinear a n =>
        intro e l hel
        cases a
        · rw [plates_colinear] at hel
          match n with
          | 0 => cases hel; rfl
          | n + 1 => cases hel
        · have : plates.colinear .y = [] := by decide +kernel
          rw [this] at hel; cases hel
        · have : plates.colinear .z = [] := by decide +kernel
          rw [this] at hel; cases hel
      | _ => trivial

example (items : List Item) (h : populate plates plateRect .xy = .ok items) :
    (∃ i ∈ items, i.entity = .zone .x 0) ∧ (¬ ∃ i ∈ items, i.entity = .zone .y 0) ∧ (items.map (·.entity)).Nodup :=
  ⟨(C134_present _ _ _ _ h _).2 ⟨by decide, by decide⟩, fun hc => absurd ((C134_present _ _ _ _ h _).1 hc).2 (by decide),
    C134_once _ _ _ _ h⟩

end Verif.Structure
