import Verif.Lemmas.Plan
import Verif.Props.EdgePolicies

/-!
# C86: edges adjusted to materials on the whole board
-/

namespace Verif.Board
open Verif.Geom
open Verif.Mesh (tolerance)
open Spec

/-- Folding over things that each change what is at their keys, no key being met twice. -/
theorem foldlM_keys {α : Type} {f : (Nat → BEdge) → α → Option (Nat → BEdge)} (R : Nat → BEdge → BEdge → Prop) (key : α → List Nat)
    (l : List α) (hf : ∀ x ∈ l, ∀ E E', f E x = some E' → (∀ n ∈ key x, R n (E n) (E' n)) ∧ ∀ n, n ∉ key x → E' n = E n)
    (hl : l.Pairwise fun x y => ∀ n ∈ key x, n ∉ key y) : ∀ E E', l.foldlM f E = some E' →
      (∀ n ∈ l.flatMap key, R n (E n) (E' n)) ∧ ∀ n, n ∉ l.flatMap key → E' n = E n := by
  induction l with
  | nil =>
    intro E E' h
    obtain rfl := Option.some.inj h
    exact ⟨by simp, fun _ _ => rfl⟩
  | cons x l ih =>
    intro E E' h
    rw [List.foldlM_cons] at h
    obtain ⟨E1, h1, h2⟩ := Option.bind_eq_some_iff.1 h
    obtain ⟨f1, f2⟩ := hf x (by simp) E E1 h1
    obtain ⟨hx, hl⟩ := List.pairwise_cons.1 hl
    obtain ⟨g1, g2⟩ := ih (fun y hy => hf y (by simp [hy])) hl E1 E' h2
    simp only [List.flatMap_cons, List.mem_append]
    refine ⟨?_, ?_⟩
    · intro n hn
      by_cases hnx : n ∈ key x
      · have : n ∉ l.flatMap key := by
          intro hc
          obtain ⟨y, hy, hny⟩ := List.mem_flatMap.1 hc
          exact hx y hy n hnx hny
        rw [g2 n this]
        exact f1 n hnx
      · rw [← f2 n hnx]
        exact g1 n (hn.resolve_left hnx)
    · intro n hn
      rw [g2 n fun hc => hn (Or.inr hc), f2 n fun hc => hn (Or.inl hc)]

section
variable {angle : Ang → ℚ} {background : Option MaterialKind} {added : List Csx.Added} {parts : List Part}

/-- An edge is of one polygon, on one plane. -/
theorem edge_once {p p' : Plane} {c c' : Nat} (hc : c ∈ (assemble angle background added parts).input.polygons p)
    (hc' : c' ∈ (assemble angle background added parts).input.polygons p') {e e' : Nat × Segment}
    (he : e ∈ ((assemble angle background added parts).input.P c).edges)
    (he' : e' ∈ ((assemble angle background added parts).input.P c').edges) (h : e.1 = e'.1) : p = p' ∧ c = c' := by
  obtain ⟨q, hq, rfl⟩ := mem_polygons.1 hc
  obtain ⟨r, hr, rfl⟩ := mem_polygons.1 hc'
  obtain ⟨k, x, hx, rfl⟩ := (mem_polygon_edges hq).1 he
  obtain ⟨j, y, hy, rfl⟩ := (mem_polygon_edges hr).1 he'
  have hk := (List.getElem?_eq_some_iff.1 hx).1
  have hj := (List.getElem?_eq_some_iff.1 hy).1
  dsimp only at h
  have : c = c' := by
    rcases lt_trichotomy c c' with hlt | rfl | hlt
    · have := firstEdge_mono parts hq hlt
      omega
    · rfl
    · have := firstEdge_mono parts hr hlt
      omega
  subst this
  rw [hq] at hr
  obtain rfl := Option.some.inj hr
  exact ⟨rfl, rfl⟩

theorem adjustAll_edge {sort : List (MaterialKind × Nat) → List (MaterialKind × Nat)} {E : Nat → BEdge}
    (h : adjustAll sort (assemble angle background added parts) = some E) {p : Plane} {c : Nat}
    (hc : c ∈ (assemble angle background added parts).input.polygons p) {e : Nat × Segment}
    (he : e ∈ ((assemble angle background added parts).input.P c).edges) :
    ∃ b, adjustEdge sort (assemble angle background added parts).areas ((assemble angle background added parts).input.polygons p)
      background c ((assemble angle background added parts).input.E e.1) = some b ∧
      E e.1 = { (assemble angle background added parts).input.E e.1 with toReverse := b } := by
  have honce := @edge_once angle background added parts
  have hbg : (assemble angle background added parts).background = background := rfl
  generalize hD : assemble angle background added parts = D at *
  have hown : ∀ p, (D.input.edges p).Nodup := fun p => hD ▸ edges_own (angle := angle) (background := background) p
  let R : Nat → BEdge → BEdge → Prop := fun n x y => ∀ p c, c ∈ D.input.polygons p → ∀ e ∈ (D.input.P c).edges, e.1 = n →
    ∃ b, adjustEdge sort D.areas (D.input.polygons p) background c x = some b ∧ y = { x with toReverse := b }
  have hpoly : ∀ p, ∀ c ∈ D.input.polygons p, ∀ E E', adjustPolygon sort D (D.input.polygons p) c E = some E' →
      (∀ n ∈ (D.input.P c).edges.map (·.1), R n (E n) (E' n)) ∧ ∀ n, n ∉ (D.input.P c).edges.map (·.1) → E' n = E n := by
    intro p c hc E E' h
    have hnd := (List.nodup_flatMap.1 (hown p)).1 c hc
    have := foldlM_keys R (fun e : Nat × Segment => [e.1]) (D.input.P c).edges ?_ ?_ E E' h
    · rwa [← List.map_eq_flatMap] at this
    · intro e he E E' h
      obtain ⟨b, hb, rfl⟩ := Option.map_eq_some_iff.1 h
      refine ⟨?_, ?_⟩
      · intro n hn p' c' hc' e' he' hee
        obtain rfl := List.mem_singleton.1 hn
        obtain ⟨rfl, rfl⟩ := honce hc hc' he he' hee.symm
        rw [hbg] at hb
        exact ⟨b, hb, by simp [setReverse]⟩
      · intro n hn
        simp only [List.mem_singleton] at hn
        simp [setReverse, hn]
    · rw [List.nodup_iff_pairwise_ne, List.pairwise_map] at hnd
      exact hnd.imp fun h n hn hn' => by
        rw [List.mem_singleton] at hn hn'
        exact h (hn.symm.trans hn')
  have hplane : ∀ p E E', adjustPlane sort D E p = some E' →
      (∀ n ∈ D.input.edges p, R n (E n) (E' n)) ∧ ∀ n, n ∉ D.input.edges p → E' n = E n := by
    intro p E E' h
    refine foldlM_keys R _ (D.input.polygons p) (fun c hc E E' h => hpoly p c hc E E' h) ?_ E E' h
    exact (List.nodup_flatMap.1 (hown p)).2.imp fun h n hn hn' => h hn hn'
  have hall := (foldlM_keys R D.input.edges allPlanes (fun p _ E E' h => hplane p E E' h) ?_ _ _ h).1 e.1 ?_
  · exact hall p c hc e he rfl
  · have hmem : ∀ {p n}, n ∈ D.input.edges p → ∃ c ∈ D.input.polygons p, ∃ e ∈ (D.input.P c).edges, e.1 = n := by
      intro p n hn
      obtain ⟨c, hc, hn⟩ := List.mem_flatMap.1 hn
      obtain ⟨e, he, rfl⟩ := List.mem_map.1 hn
      exact ⟨c, hc, e, he, rfl⟩
    have hdis : ∀ p p', p ≠ p' → ∀ n ∈ D.input.edges p, n ∉ D.input.edges p' := by
      intro p p' hne n hn hn'
      obtain ⟨c, hc, e, he, rfl⟩ := hmem hn
      obtain ⟨c', hc', e', he', hee⟩ := hmem hn'
      exact hne (honce hc hc' he he' hee.symm).1
    exact (show allPlanes.Nodup by decide).imp fun h => hdis _ _ h
  · exact List.mem_flatMap.2 ⟨p, by cases p <;> simp [allPlanes], List.mem_flatMap.2 ⟨c, hc, List.mem_map_of_mem he⟩⟩

end

/-- The material found just outside an edge of polygon `c`: that of a polygon of highest priority, and highest kind among those,
or the background. -/
def OuterKind (P : Nat → BPolygon) (polygons : List Nat) (background : Option MaterialKind) (c : Nat) (e : BEdge)
    (m : MaterialKind) : Prop :=
  ((¬ ∃ i ∈ polygons, Around P (boxOf (shifted e)) (some c) i) ∧ background = some m) ∨
  ∃ i ∈ polygons, Around P (boxOf (shifted e)) (some c) i ∧ (P i).material = some m ∧
    ∀ j ∈ polygons, ∀ n, Around P (boxOf (shifted e)) (some c) j → (P j).material = some n →
      (P j).priority < (P i).priority ∨ ((P j).priority = (P i).priority ∧ rank n ≤ rank m)

theorem adjustEdge_outer {sort : List (MaterialKind × Nat) → List (MaterialKind × Nat)}
    (hperm : ∀ l, (sort l).Perm l) (hsorted : ∀ l, (sort l).Pairwise fun a b => ambientLess b a = false)
    {P : Nat → BPolygon} {polygons : List Nat} {background : Option MaterialKind} {c : Nat} {e : BEdge} {inner : MaterialKind}
    (hin : (P c).material = some inner) (hnot : e.toReverse = false)
    (hside : e.side = .xmin ∨ e.side = .xmax ∨ e.side = .ymin ∨ e.side = .ymax) {b : Bool}
    (hb : adjustEdge sort P polygons background c e = some b) :
    b = true ↔ ∃ m, OuterKind P polygons background c e m ∧ rank inner < rank m := by
  obtain ⟨b', hb', h1, h2⟩ := C54_reversed hperm hsorted P polygons background hin hside
  rw [hb] at hb'
  obtain rfl := Option.some.inj hb'
  unfold OuterKind
  by_cases h : ∃ i ∈ polygons, Around P (boxOf (shifted e)) (some c) i
  · obtain ⟨i, hi, m, ha, hm, hr, hbest⟩ := h2 h
    rw [hr, hnot]
    constructor
    · rintro (h' | h')
      · exact absurd h' (by simp)
      · exact ⟨m, Or.inr ⟨i, hi, ha, hm, hbest⟩, h'⟩
    · rintro ⟨m', ⟨hno, -⟩ | ⟨j, hj, ha', hm', hbest'⟩, hlt⟩
      · exact absurd h hno
      · right
        have g1 := hbest j hj m' ha' hm'
        have g2 := hbest' i hi m ha hm
        omega
  · rw [h1 h, hnot]
    constructor
    · rintro (h' | ⟨m, hm, hlt⟩)
      · exact absurd h' (by simp)
      · exact ⟨m, Or.inl ⟨h, hm⟩, hlt⟩
    · rintro ⟨m, ⟨-, hm⟩ | ⟨j, hj, ha', -⟩, hlt⟩
      · exact Or.inr ⟨m, hm, hlt⟩
      · exact absurd ⟨j, hj, ha'⟩ h

/-- C86. Adjusting the edges of a board to materials is defined, and changes nothing but whether edges are reversed: an edge with
a side is, exactly when the material found just outside is of a higher kind than that of its polygon; an edge without side is
not. -/
theorem C86_adjust {sort : List (MaterialKind × Nat) → List (MaterialKind × Nat)}
    (hperm : ∀ l, (sort l).Perm l) (hsorted : ∀ l, (sort l).Pairwise fun a b => ambientLess b a = false)
    {angle : Ang → ℚ} {background : Option MaterialKind} {added : List Csx.Added} {D : Design}
    (h : buildDesign angle background added = some D) :
    ∃ E, adjustAll sort D = some E ∧ SameButReverse D.input.E E ∧
      ∀ p, ∀ c ∈ D.input.polygons p, ∀ e ∈ (D.input.P c).edges, ∃ inner, (D.areas c).material = some inner ∧
        ((E e.1).side = .none → (E e.1).toReverse = false) ∧
        ((E e.1).side = .xmin ∨ (E e.1).side = .xmax ∨ (E e.1).side = .ymin ∨ (E e.1).side = .ymax →
          ((E e.1).toReverse = true ↔
            ∃ m, OuterKind D.areas (D.input.polygons p) background c (E e.1) m ∧ rank inner < rank m)) := by
  unfold buildDesign at h
  obtain ⟨parts, hparts, rfl⟩ := Option.map_eq_some_iff.1 h
  obtain ⟨E, hE, hsame⟩ := adjustAll_same sort (D := assemble angle background added parts) fun p c hc => area_material hc
  refine ⟨E, hE, hsame, fun p c hc e he => ?_⟩
  obtain ⟨inner, hin⟩ := Option.ne_none_iff_exists'.1 (area_material hc)
  obtain ⟨b, hb, he'⟩ := adjustAll_edge hE hc he
  have hnot : ((assemble angle background added parts).input.E e.1).toReverse = false := by
    obtain ⟨q, hq, -⟩ := mem_polygons.1 hc
    obtain ⟨i, x, hx, rfl⟩ := (mem_polygon_edges hq).1 he
    rw [edge_eq hq hx]
    rfl
  refine ⟨inner, hin, ?_⟩
  rw [he']
  refine ⟨fun hs => ?_, fun hs => adjustEdge_outer hperm hsorted hin hnot hs hb⟩
  have hs : ((assemble angle background added parts).input.E e.1).side = .none := hs
  unfold adjustEdge outside at hb
  rw [hs, hnot] at hb
  exact (Option.some.inj hb).symm

/-- A sort as `std::ranges::sort` with that order may be. -/
def ambientSort : List (MaterialKind × Nat) → List (MaterialKind × Nat) := List.insertionSort fun a b => ambientLess b a = false

theorem ambientSort_perm (l) : (ambientSort l).Perm l := List.perm_insertionSort _ l

theorem ambientSort_sorted (l) : (ambientSort l).Pairwise fun a b => ambientLess b a = false := by
  have key : ∀ a b : MaterialKind × Nat, ambientLess b a = false ↔ ¬ (b.2 < a.2 ∨ (b.2 = a.2 ∧ rank b.1 < rank a.1)) := by
    intro a b
    rw [← Bool.not_eq_true, ambientLess_iff]
  have : Std.Total fun a b : MaterialKind × Nat => ambientLess b a = false := ⟨by intro a b; rw [key, key]; omega⟩
  have : IsTrans (MaterialKind × Nat) fun a b => ambientLess b a = false := ⟨by intro a b c; rw [key, key, key]; omega⟩
  exact List.pairwise_insertionSort _ l

/-- A block of dielectric with a block of metal against one side. -/
def blocksAdded : List Csx.Added :=
  (Csx.parseProperties {} [] [⟨.material 4 1 0, [⟨false, 0, .box ⟨0, 0, 0⟩ ⟨4, 4, 4⟩⟩]⟩,
    ⟨.metal, [⟨false, 0, .box ⟨4, 0, 0⟩ ⟨8, 4, 4⟩⟩]⟩]).getD []

/-- Of the dielectric, the side against the metal is turned, the other sides are not; none is of the metal. -/
example : (∀ l, (ambientSort l).Perm l) ∧ (∀ l, (ambientSort l).Pairwise fun a b => ambientLess b a = false) ∧
    ∃ D, buildDesign (fun _ => 0) (some .air) blocksAdded = some D ∧ ∃ E, adjustAll ambientSort D = some E ∧
      ((List.range 24).filter fun n => (E n).toReverse).map (fun n => ((E n).plane, (E n).seg)) =
        [(.zx, ⟨⟨0, 4⟩, ⟨4, 4⟩⟩), (.xy, ⟨⟨4, 4⟩, ⟨4, 0⟩⟩)] := by
  refine ⟨ambientSort_perm, ambientSort_sorted, ?_⟩
  have h : ((buildDesign (fun _ => 0) (some .air) blocksAdded).any fun D => (adjustAll ambientSort D).any fun E =>
      decide (((List.range 24).filter fun n => (E n).toReverse).map (fun n => ((E n).plane, (E n).seg)) =
        [(.zx, ⟨⟨0, 4⟩, ⟨4, 4⟩⟩), (.xy, ⟨⟨4, 4⟩, ⟨4, 0⟩⟩)])) = true := by
    decide +kernel
  obtain ⟨D, hD, h⟩ := (Option.any_eq_true _ _).1 h
  obtain ⟨E, hE, h⟩ := (Option.any_eq_true _ _).1 h
  exact ⟨D, hD, E, hE, of_decide_eq_true h⟩

end Verif.Board
