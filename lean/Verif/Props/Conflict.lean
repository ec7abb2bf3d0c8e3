import Verif.Lemmas.Conflict
import Mathlib.Data.List.Sort

/-!
# Theorems about conflicts between edges
-/

namespace Verif.Board
open Verif.Geom
open Verif.Mesh (Kind Facing Sorter tolerance)
open Spec

/-! ## C30 -/

/-- Horizontal edges of a given height, for the examples. -/
def flat (y : ℚ) : BEdge := ⟨.xy, ⟨⟨0, y⟩, ⟨1, y⟩⟩, .ymin, true, false⟩

/-- Four horizontal edges, each within the tolerance of the next in height. -/
def chain : Nat → BEdge := fun i => flat (([0, 18, 6, 12][i]?.getD 0) / 1000000000)

/-- The tolerance is not transitive: two edges not on the same line share a conflict, and an edge is in two. -/
theorem C30_false : ∃ (E : Nat → BEdge) (edges : List Nat), edges.Nodup ∧ (∀ i ∈ edges, (E i).plane = .xy) ∧
    (∃ a ∈ edges, ∃ b ∈ edges, a ≠ b ∧ Together (detectColinear E .xy (fun _ => []) edges) a b ∧
      ¬ SameLine (E a).seg (E b).seg) ∧
    (∃ a, ∃ axis, ∃ c ∈ detectColinear E .xy (fun _ => []) edges axis,
      ∃ c' ∈ detectColinear E .xy (fun _ => []) edges axis, c ≠ c' ∧ a ∈ c ∧ a ∈ c') := by
  have hd : detectColinear chain .xy (fun _ => []) [0, 1, 2, 3] .y = [[0, 2, 3], [1, 3]] := by decide +kernel
  refine ⟨chain, [0, 1, 2, 3], by decide, by decide +kernel, ⟨0, by decide, 3, by decide, by decide, ⟨.y, ?_⟩, ?_⟩,
    3, .y, ?_⟩
  · rw [hd]; exact ⟨[0, 2, 3], by simp, by simp, by simp⟩
  · rintro (⟨-, -, h⟩ | ⟨⟨-, h⟩, -⟩)
    · revert h; decide +kernel
    · revert h; decide +kernel
  · rw [hd]; exact ⟨[0, 2, 3], by simp, [1, 3], by simp, by decide, by simp, by simp⟩

/-- When being on the same line is transitive among the edges of a plane, which are in no conflict yet: two of them
share a conflict exactly when they are on the same line; each is in one place of one conflict at most; and the conflicts
made before are kept. What is missing is edges so close that the tolerance is not transitive. -/
theorem C30_partial {E : Nat → BEdge} {plane : Plane} {edges : List Nat} {s : Colinear}
    (hplane : ∀ j ∈ edges, (E j).plane = plane) (hnd : edges.Nodup)
    (hnew : ∀ axis, ∀ c ∈ s axis, ∀ x ∈ c, x ∉ edges)
    (htrans : ∀ a ∈ edges, ∀ b ∈ edges, ∀ c ∈ edges, SameLine (E a).seg (E b).seg → SameLine (E b).seg (E c).seg →
      SameLine (E a).seg (E c).seg) :
    (∀ a ∈ edges, ∀ b ∈ edges, a ≠ b →
      (Together (detectColinear E plane s edges) a b ↔ SameLine (E a).seg (E b).seg)) ∧
    (∀ a ∈ edges, ∀ axis axis' (i i' : Nat) (c c' : List Nat), (detectColinear E plane s edges axis)[i]? = some c →
      (detectColinear E plane s edges axis')[i']? = some c' → a ∈ c → a ∈ c' → axis = axis' ∧ i = i' ∧ c.count a = 1) ∧
    (∀ axis, ∀ c ∈ s axis, c ∈ detectColinear E plane s edges axis) := by
  have g := fun axis => detectColinear_grouped axis (s := s) hplane hnd (hnew axis) htrans
  refine ⟨?_, ?_, ?_⟩
  · intro a ha b hb hab
    constructor
    · rintro ⟨axis, c, hc, hac, hbc⟩
      rcases (g axis).inside c hc with h | ⟨-, -, h, -⟩
      · exact absurd ha (h a hac)
      · exact (handed_iff.1 (h a hac b hbc)).2
    · intro h
      have hax : ∃ axis, transposeSeg plane (E a).axis = some axis := by
        rcases h with ⟨h, -⟩ | ⟨h, -⟩
        · rw [show (E a).axis = .h from horizontal_iff.1 h]
          cases plane <;> exact ⟨_, rfl⟩
        · rw [show (E a).axis = .v from vertical_iff.1 h]
          cases plane <;> exact ⟨_, rfl⟩
      obtain ⟨axis, hax⟩ := hax
      obtain ⟨l1, l2, rfl⟩ := List.append_of_mem ha
      rcases List.mem_append.1 hb with hb' | hb'
      · obtain ⟨m1, m2, rfl⟩ := List.append_of_mem hb'
        obtain ⟨c, hc, h1, h2⟩ := (g axis).seen b a ⟨m1, m2 ++ a :: l2, by simp, by simp⟩
          (handed_iff.2 ⟨by rw [← hax]; unfold BEdge.axis; rw [sameLine_axis h], sameLine_symm h⟩)
        exact ⟨axis, c, hc, h2, h1⟩
      · rcases List.mem_cons.1 hb' with rfl | hb'
        · exact absurd rfl hab
        · obtain ⟨c, hc, h1, h2⟩ := (g axis).seen a b ⟨l1, l2, rfl, hb'⟩ (handed_iff.2 ⟨hax, h⟩)
          exact ⟨axis, c, hc, h1, h2⟩
  · intro a ha axis axis' i i' c c' hi hi' hac hac'
    have hc := List.mem_of_getElem? hi
    have hc' := List.mem_of_getElem? hi'
    have hR : ∀ w, ∀ d ∈ detectColinear E plane s edges w, a ∈ d → handed E plane w a a = true ∧ d.Nodup := by
      intro w d hd had
      rcases (g w).inside d hd with h | ⟨-, h', h, -⟩
      · exact absurd ha (h a had)
      · exact ⟨h a had a had, h'⟩
    have h1 := hR axis c hc hac
    have h2 := hR axis' c' hc' hac'
    have haxis : axis = axis' := by
      have e1 := (handed_iff.1 h1.1).1
      have e2 := (handed_iff.1 h2.1).1
      rw [e1] at e2
      exact Option.some.inj e2
    subst haxis
    refine ⟨rfl, ?_, List.count_eq_one_of_mem h1.2 hac⟩
    by_contra hne
    have hlt := List.getElem?_eq_some_iff.1 hi
    have hlt' := List.getElem?_eq_some_iff.1 hi'
    obtain ⟨l1, e1⟩ := hlt
    obtain ⟨l2, e2⟩ := hlt'
    rcases Nat.lt_or_gt_of_ne hne with hlt | hlt
    · have := (List.pairwise_iff_getElem.1 (g axis).apart) i i' l1 l2 hlt a (e1 ▸ hac) a (e2 ▸ hac') ha ha
      rw [h1.1] at this
      exact Bool.noConfusion this
    · have := (List.pairwise_iff_getElem.1 (g axis).apart) i' i l2 l1 hlt a (e2 ▸ hac') a (e1 ▸ hac) ha ha
      rw [h1.1] at this
      exact Bool.noConfusion this
  · intro axis c hc
    rw [detectColinear_axis axis edges s hplane]
    exact pairsAll_old edges _ hc hnd fun j hj hjc => hnew axis c hc j hjc hj

/-- Edges at heights 0, 1, 0, 1, 2 and a vertical one. -/
example : ∃ E : Nat → BEdge, (∀ j ∈ [0, 1, 2, 3, 4, 5], (E j).plane = .xy) ∧
    (∀ a ∈ [0, 1, 2, 3, 4, 5], ∀ b ∈ [0, 1, 2, 3, 4, 5], ∀ c ∈ [0, 1, 2, 3, 4, 5], SameLine (E a).seg (E b).seg →
      SameLine (E b).seg (E c).seg → SameLine (E a).seg (E c).seg) ∧
    detectColinear E .xy (fun _ => [[8, 9]]) [0, 1, 2, 3, 4, 5] .y = [[8, 9], [0, 2], [1, 3]] := by
  refine ⟨fun i => if i = 5 then ⟨.xy, ⟨⟨0, 0⟩, ⟨0, 1⟩⟩, .xmin, true, false⟩ else flat ([0, 1, 0, 1, 2][i]?.getD 0), ?_⟩
  unfold SameLine Horizontal Vertical
  decide +kernel

/-! ## C31 -/

/-- The policy for a conflict between horizontal edges, or between vertical edges. Edges not to mesh do not count. -/
theorem C31_policy {front : BEdge} {rest : List BEdge} {coord : ℚ}
    (hfront : (Horizontal front.seg ∧ coord = front.seg.p0.y) ∨ (Vertical front.seg ∧ coord = front.seg.p0.x)) :
    ((∃ e ∈ front :: rest, Faces .none e) → solveColinear (front :: rest) = some (some (.oneline, .none, coord))) ∧
    ((¬ ∃ e ∈ front :: rest, Faces .none e) → (∃ e ∈ front :: rest, Faces .min e) →
      (∃ e ∈ front :: rest, Faces .max e) → solveColinear (front :: rest) = some (some (.halfs, .none, coord))) ∧
    ((¬ ∃ e ∈ front :: rest, Faces .none e) → (∃ e ∈ front :: rest, Faces .min e) →
      (¬ ∃ e ∈ front :: rest, Faces .max e) → solveColinear (front :: rest) = some (some (.thirds, .min, coord))) ∧
    ((¬ ∃ e ∈ front :: rest, Faces .none e) → (¬ ∃ e ∈ front :: rest, Faces .min e) →
      (∃ e ∈ front :: rest, Faces .max e) → solveColinear (front :: rest) = some (some (.thirds, .max, coord))) ∧
    ((∀ e ∈ front :: rest, e.toMesh = false) → solveColinear (front :: rest) = some none) := by
  have hcoord : segCoord front.seg.p0 front.axis = some coord := by
    rcases hfront with ⟨h, rfl⟩ | ⟨h, rfl⟩
    · rw [show front.axis = .h from horizontal_iff.1 h]; rfl
    · rw [show front.axis = .v from vertical_iff.1 h]; rfl
  have hs := solveColinear_eq (rest := rest) hcoord
  obtain ⟨c1, c2⟩ := countFacing_spec (front :: rest) 0 0
  refine ⟨?_, ?_, ?_, ?_, ?_⟩
  · intro h
    rw [hs, if_pos (c1.2 h)]
  · intro h0 h1 h2
    obtain ⟨d1, d2⟩ := c2 h0
    rw [hs, if_neg (mt c1.1 h0), if_pos ⟨d1.2 (Or.inr h1), d2.2 (Or.inr h2)⟩]
  · intro h0 h1 h2
    obtain ⟨d1, d2⟩ := c2 h0
    rw [hs, if_neg (mt c1.1 h0), if_neg fun g => h2 ((d2.1 g.2).resolve_left (by simp)), if_pos (d1.2 (Or.inr h1))]
  · intro h0 h1 h2
    obtain ⟨d1, d2⟩ := c2 h0
    rw [hs, if_neg (mt c1.1 h0), if_neg fun g => h1 ((d1.1 g.1).resolve_left (by simp)), if_neg fun g => h1 ((d1.1 g).resolve_left (by simp)),
      if_pos (d2.2 (Or.inr h2))]
  · intro h
    have hn : ∀ f, ¬ ∃ e ∈ front :: rest, Faces f e := by
      rintro f ⟨e, he, hf, -⟩
      rw [h e he] at hf
      exact Bool.noConfusion hf
    obtain ⟨d1, d2⟩ := c2 (hn _)
    rw [hs, if_neg (mt c1.1 (hn _)), if_neg fun g => hn _ ((d1.1 g.1).resolve_left (by simp)), if_neg fun g => hn _ ((d1.1 g).resolve_left (by simp)),
      if_neg fun g => hn _ ((d2.1 g).resolve_left (by simp))]

/-- The kind and side do not depend on the order of the edges. -/
theorem C31_order {l l' : List BEdge} (hp : l.Perm l')
    (h : (∀ e ∈ l, Horizontal e.seg) ∨ (∀ e ∈ l, Vertical e.seg)) :
    (solveColinear l).map (·.map fun p => (p.1, p.2.1)) = (solveColinear l').map (·.map fun p => (p.1, p.2.1)) := by
  have hcoord : ∀ e ∈ l, ∃ coord, segCoord e.seg.p0 e.axis = some coord := by
    intro e he
    rcases h with h | h
    · rw [show e.axis = .h from horizontal_iff.1 (h e he)]; exact ⟨_, rfl⟩
    · rw [show e.axis = .v from vertical_iff.1 (h e he)]; exact ⟨_, rfl⟩
  cases l with
  | nil => rw [List.nil_perm.1 hp]
  | cons a l =>
    cases l' with
    | nil => exact absurd hp.length_eq (by simp)
    | cons b l' =>
      obtain ⟨c, hc⟩ := hcoord a (by simp)
      obtain ⟨c', hc'⟩ := hcoord b (hp.mem_iff.2 (by simp))
      rw [solveColinear_eq hc, solveColinear_eq hc']
      obtain ⟨u1, u2⟩ := countFacing_spec (a :: l) 0 0
      obtain ⟨v1, v2⟩ := countFacing_spec (b :: l') 0 0
      have hex : ∀ f, (∃ e ∈ a :: l, Faces f e) ↔ ∃ e ∈ b :: l', Faces f e := by
        intro f
        constructor
        · rintro ⟨e, he, hf⟩; exact ⟨e, hp.mem_iff.1 he, hf⟩
        · rintro ⟨e, he, hf⟩; exact ⟨e, hp.mem_iff.2 he, hf⟩
      by_cases h0 : ∃ e ∈ a :: l, Faces .none e
      · rw [if_pos (u1.2 h0), if_pos (v1.2 ((hex _).1 h0))]; rfl
      · have h0' := mt (hex _).2 h0
        rw [if_neg (mt u1.1 h0), if_neg (mt v1.1 h0')]
        obtain ⟨p1, p2⟩ := u2 h0
        obtain ⟨q1, q2⟩ := v2 h0'
        have e1 : (countFacing (a :: l) 0 0).2.1 ≠ 0 ↔ (countFacing (b :: l') 0 0).2.1 ≠ 0 := by
          rw [p1, q1, hex]
        have e2 : (countFacing (a :: l) 0 0).2.2 ≠ 0 ↔ (countFacing (b :: l') 0 0).2.2 ≠ 0 := by
          rw [p2, q2, hex]
        by_cases g1 : (countFacing (a :: l) 0 0).2.1 ≠ 0 <;> by_cases g2 : (countFacing (a :: l) 0 0).2.2 ≠ 0 <;>
          have g1' := g1 <;> have g2' := g2 <;> rw [e1] at g1' <;> rw [e2] at g2' <;>
          simp [g1, g2, g1', g2']

/-- One edge facing up, one facing down but reversed, one facing down but not to mesh. -/
example : solveColinear [⟨.xy, ⟨⟨0, 3⟩, ⟨1, 3⟩⟩, .ymax, true, false⟩, ⟨.xy, ⟨⟨0, 3⟩, ⟨1, 3⟩⟩, .ymin, true, true⟩,
    ⟨.xy, ⟨⟨0, 3⟩, ⟨1, 3⟩⟩, .ymin, false, false⟩] = some (some (.thirds, .max, 3)) ∧
    Horizontal ⟨⟨0, 3⟩, ⟨1, 3⟩⟩ ∧ Faces .max ⟨.xy, ⟨⟨0, 3⟩, ⟨1, 3⟩⟩, .ymin, true, true⟩ := by
  unfold Horizontal Faces
  decide +kernel

/-! ## C40 -/

/-- A polygon whose material may be the one around: it has one, its box meets the other box, and, when looking from a
polygon, it is another one that meets it in height. -/
def Around (P : Nat → BPolygon) (box : Bounding) (current : Option Nat) (i : Nat) : Prop :=
  (∃ m, (P i).material = some m) ∧
  (∀ c, current = some c → i ≠ c ∧ ∃ z, (P i).zmin ≤ z ∧ z ≤ (P i).zmax ∧ (P c).zmin ≤ z ∧ z ≤ (P c).zmax) ∧
  BoxesMeet (P i).bounding box

/-- The comparator given to the sort is a strict weak order, as the sort requires. -/
theorem C40_order : (∀ a, ambientLess a a = false) ∧
    (∀ a b c, ambientLess a b = true → ambientLess b c = true → ambientLess a c = true) ∧
    (∀ a b c, ambientLess a b = false → ambientLess b a = false → ambientLess b c = false → ambientLess c b = false →
      ambientLess a c = false ∧ ambientLess c a = false) := by
  refine ⟨?_, ?_, ?_⟩
  · intro a
    rw [← Bool.not_eq_true, ambientLess_iff]
    omega
  · intro a b c
    rw [ambientLess_iff, ambientLess_iff, ambientLess_iff]
    omega
  · intro a b c
    simp only [← Bool.not_eq_true, ambientLess_iff]
    omega

/-- The material around has the highest priority, and among those the highest kind; else it is the background. -/
theorem C40_ambient {sort : List (MaterialKind × Nat) → List (MaterialKind × Nat)}
    (hperm : ∀ l, (sort l).Perm l) (hsorted : ∀ l, (sort l).Pairwise fun a b => ambientLess b a = false)
    (P : Nat → BPolygon) (polygons : List Nat) (background : Option MaterialKind) (box : Bounding)
    (current : Option Nat) :
    ((¬ ∃ i ∈ polygons, Around P box current i) →
      findAmbient sort P polygons background box current = (background, 0)) ∧
    ((∃ i ∈ polygons, Around P box current i) → ∃ i ∈ polygons, ∃ m, Around P box current i ∧ (P i).material = some m ∧
      findAmbient sort P polygons background box current = (some m, (P i).priority) ∧
      ∀ j ∈ polygons, ∀ n, Around P box current j → (P j).material = some n →
        (P j).priority < (P i).priority ∨ ((P j).priority = (P i).priority ∧ rank n ≤ rank m)) := by
  have hm : ∀ i m p, ambientMatch P box current i = some (m, p) ↔
      Around P box current i ∧ (P i).material = some m ∧ p = (P i).priority := by
    intro i m p
    exact ambientMatch_iff
  constructor
  · intro h
    have : polygons.filterMap (ambientMatch P box current) = [] := by
      rw [List.filterMap_eq_nil_iff]
      intro i hi
      by_contra hne
      obtain ⟨⟨m, p⟩, hmp⟩ := Option.ne_none_iff_exists'.1 hne
      exact h ⟨i, hi, ((hm i m p).1 hmp).1⟩
    unfold findAmbient
    rw [this, List.Perm.eq_nil (hperm [])]
    rfl
  · rintro ⟨i, hi, ha⟩
    obtain ⟨m, hmat⟩ := ha.1
    have hmem : (m, (P i).priority) ∈ polygons.filterMap (ambientMatch P box current) :=
      List.mem_filterMap.2 ⟨i, hi, (hm i m _).2 ⟨ha, hmat, rfl⟩⟩
    have hne : sort (polygons.filterMap (ambientMatch P box current)) ≠ [] := by
      intro h
      have := (hperm (polygons.filterMap (ambientMatch P box current))).mem_iff.2 hmem
      rw [h] at this
      simp at this
    obtain ⟨n, q, hlast⟩ : ∃ n q, (sort (polygons.filterMap (ambientMatch P box current))).getLast? = some (n, q) :=
      ⟨_, _, List.getLast?_eq_some_getLast hne⟩
    obtain ⟨init, hinit⟩ := List.getLast?_eq_some_iff.1 hlast
    have hin : (n, q) ∈ polygons.filterMap (ambientMatch P box current) :=
      (hperm _).mem_iff.1 (by rw [hinit]; simp)
    obtain ⟨k, hk, hkm⟩ := List.mem_filterMap.1 hin
    obtain ⟨h1, h2, rfl⟩ := (hm k n q).1 hkm
    refine ⟨k, hk, n, h1, h2, ?_, ?_⟩
    · unfold findAmbient
      rw [hlast]
    · intro j hj r hja hjr
      have hjm : (r, (P j).priority) ∈ sort (polygons.filterMap (ambientMatch P box current)) :=
        (hperm _).mem_iff.2 (List.mem_filterMap.2 ⟨j, hj, (hm j r _).2 ⟨hja, hjr, rfl⟩⟩)
      have hs := hsorted (polygons.filterMap (ambientMatch P box current))
      rw [hinit] at hjm hs
      have key : ambientLess (n, (P k).priority) (r, (P j).priority) = false := by
        rcases List.mem_append.1 hjm with h | h
        · exact (List.pairwise_append.1 hs).2.2 _ h _ (by simp)
        · rw [List.mem_singleton] at h
          rw [h]
          exact C40_order.1 _
      rw [← Bool.not_eq_true, ambientLess_iff] at key
      simp only at key
      omega

example : ∃ P : Nat → BPolygon, findAmbient (List.insertionSort fun a b => ambientLess b a = false) P [0, 1, 2, 3] (some .air)
    ⟨0, 1, 0, 0⟩ (some 0) = (some .conductor, 5) ∧ (P 3).priority = 9 ∧ (P 1).priority = 5 :=
  ⟨fun i => ⟨[], ⟨0, 1, 0, 1⟩, if i = 3 then 9 else 0, if i = 3 then 10 else 8, [9, 5, 5, 9][i]?.getD 0,
    some ([MaterialKind.port, .dielectric, .conductor, .port][i]?.getD .air)⟩, by decide +kernel⟩

end Verif.Board
