import Verif.Model.Build
import Verif.Props.Run
import Verif.Props.Csx

/-!
# Lemmas about the board made of what was added
-/

namespace Verif.Board
open Verif.Geom
open Spec

/-! ## Numbers of edges -/

theorem firstEdge_cons (p : Part) (parts : List Part) (n : Nat) :
    firstEdge (p :: parts) (n + 1) = p.edges.length + firstEdge parts n := by
  simp [firstEdge]

/-- The edge of each number. -/
theorem flat_edges (parts : List Part) : ∀ {n i : Nat} {p : Part} {e : Edge}, parts[n]? = some p → p.edges[i]? = some e →
    (parts.flatMap fun p => p.edges.map (makeEdge p.plane))[firstEdge parts n + i]? = some (makeEdge p.plane e) := by
  induction parts with
  | nil => intro n i p e h; simp at h
  | cons q parts ih =>
    intro n i p e h hi
    cases n with
    | zero =>
      simp only [List.getElem?_cons_zero, Option.some.injEq] at h
      subst h
      have hlt : i < (q.edges.map (makeEdge q.plane)).length := by
        rw [List.length_map]
        exact (List.getElem?_eq_some_iff.1 hi).1
      rw [show firstEdge (q :: parts) 0 + i = i by simp [firstEdge], List.flatMap_cons, List.getElem?_append_left hlt,
        List.getElem?_map, hi]
      rfl
    | succ n =>
      rw [List.getElem?_cons_succ] at h
      rw [firstEdge_cons, List.flatMap_cons, List.getElem?_append_right (by rw [List.length_map]; omega), List.length_map,
        show q.edges.length + firstEdge parts n + i - q.edges.length = firstEdge parts n + i by omega]
      exact ih h hi

/-- Polygons made later have edges of greater numbers. -/
theorem firstEdge_mono (parts : List Part) : ∀ {n m : Nat} {p : Part}, parts[n]? = some p → n < m →
    firstEdge parts n + p.edges.length ≤ firstEdge parts m := by
  induction parts with
  | nil => intro n m p h; simp at h
  | cons q parts ih =>
    intro n m p h hlt
    obtain ⟨m, rfl⟩ : ∃ k, m = k + 1 := ⟨m - 1, by omega⟩
    cases n with
    | zero =>
      simp only [List.getElem?_cons_zero, Option.some.injEq] at h
      subst h
      rw [firstEdge_cons]
      simp [firstEdge]
    | succ n =>
      rw [List.getElem?_cons_succ] at h
      have := ih h (by omega : n < m)
      rw [firstEdge_cons, firstEdge_cons]
      omega

section
variable {angle : Ang → ℚ} {background : Option MaterialKind} {added : List Csx.Added} {parts : List Part}

theorem mem_polygons {p : Plane} {n : Nat} :
    n ∈ (assemble angle background added parts).input.polygons p ↔ ∃ q, parts[n]? = some q ∧ q.plane = p := by
  simp only [assemble, List.mem_filter, List.mem_range, beq_iff_eq, Option.map_eq_some_iff]
  constructor
  · exact fun h => h.2
  · rintro ⟨q, h, hp⟩
    exact ⟨(List.getElem?_eq_some_iff.1 h).1, q, h, hp⟩

theorem polygon_eq {n : Nat} {q : Part} (h : parts[n]? = some q) : (assemble angle background added parts).input.P n =
    ⟨q.points, (q.edges.zipIdx (firstEdge parts n)).map fun e => (e.2, e.1.seg), q.z.1, q.z.2, q.priority⟩ := by
  simp only [assemble, asPolygon]
  rw [h]

theorem polygon_segments {n : Nat} {q : Part} (h : parts[n]? = some q) :
    ((assemble angle background added parts).input.P n).edges.map (·.2) = q.edges.map Edge.seg := by
  rw [polygon_eq h]
  simp only [List.map_map]
  conv_rhs => rw [← List.zipIdx_map_fst (firstEdge parts n) q.edges, List.map_map]
  rfl

theorem mem_polygon_edges {n : Nat} {q : Part} (h : parts[n]? = some q) {e : Nat × Segment} :
    e ∈ ((assemble angle background added parts).input.P n).edges ↔
      ∃ i x, q.edges[i]? = some x ∧ e = (firstEdge parts n + i, x.seg) := by
  rw [polygon_eq h]
  simp only [List.mem_map, Prod.exists]
  constructor
  · rintro ⟨x, k, hx, rfl⟩
    obtain ⟨h1, h2⟩ := List.mk_mem_zipIdx_iff_le_and_getElem?_sub.1 hx
    exact ⟨k - firstEdge parts n, x, h2, by rw [Nat.add_sub_cancel' h1]⟩
  · rintro ⟨i, x, hi, rfl⟩
    refine ⟨x, firstEdge parts n + i, List.mk_mem_zipIdx_iff_le_and_getElem?_sub.2 ⟨by omega, ?_⟩, rfl⟩
    rw [Nat.add_sub_cancel_left]
    exact hi

theorem edge_eq {n i : Nat} {q : Part} {x : Edge} (h : parts[n]? = some q) (hi : q.edges[i]? = some x) :
    (assemble angle background added parts).input.E (firstEdge parts n + i) = makeEdge q.plane x := by
  simp only [assemble, List.getD_eq_getElem?_getD]
  rw [flat_edges parts h hi]
  rfl

theorem edges_own (p : Plane) : ((assemble angle background added parts).input.edges p).Nodup := by
  unfold Input.edges
  rw [List.nodup_flatMap]
  constructor
  · intro n hn
    obtain ⟨q, h, -⟩ := mem_polygons.1 hn
    rw [polygon_eq h]
    simp only [List.map_map]
    rw [show ((fun e : Nat × Segment => e.1) ∘ fun e : Edge × Nat => (e.2, e.1.seg)) = Prod.snd from rfl, List.zipIdx_map_snd]
    exact List.nodup_range'
  · have hnd : ((assemble angle background added parts).input.polygons p).Pairwise (· < ·) := by
      simp only [assemble]
      exact List.pairwise_lt_range.filter _
    refine hnd.imp_of_mem fun {n m} hn hm hlt => ?_
    obtain ⟨q, h, -⟩ := mem_polygons.1 hn
    obtain ⟨r, h', -⟩ := mem_polygons.1 hm
    intro k hk hk'
    obtain ⟨e, he, rfl⟩ := List.mem_map.1 hk
    obtain ⟨e', he', hee⟩ := List.mem_map.1 hk'
    obtain ⟨i, x, hi, rfl⟩ := (mem_polygon_edges h).1 he
    obtain ⟨j, y, hj, rfl⟩ := (mem_polygon_edges h').1 he'
    have := firstEdge_mono parts h hlt
    have hi' := (List.getElem?_eq_some_iff.1 hi).1
    dsimp only at hee
    omega

end

/-! ## Reversing edges -/

/-- The same edges, but for being reversed. -/
def SameButReverse (E E' : Nat → BEdge) : Prop := ∀ n, ∃ b, E' n = { E n with toReverse := b }

theorem SameButReverse.refl (E : Nat → BEdge) : SameButReverse E E := fun n => ⟨(E n).toReverse, rfl⟩

theorem SameButReverse.trans {E E' E'' : Nat → BEdge} (h : SameButReverse E E') (h' : SameButReverse E' E'') :
    SameButReverse E E'' := fun n => by
  obtain ⟨b, hb⟩ := h n
  obtain ⟨b', hb'⟩ := h' n
  exact ⟨b', by rw [hb', hb]⟩

theorem setReverse_same (E : Nat → BEdge) (n : Nat) (b : Bool) : SameButReverse E (setReverse E n b) := fun m => by
  unfold setReverse
  split_ifs
  · exact ⟨b, rfl⟩
  · exact ⟨(E m).toReverse, rfl⟩

theorem foldlM_same {α : Type} {f : (Nat → BEdge) → α → Option (Nat → BEdge)} (l : List α)
    (h : ∀ E, ∀ x ∈ l, ∃ E', f E x = some E' ∧ SameButReverse E E') :
    ∀ E, ∃ E', l.foldlM f E = some E' ∧ SameButReverse E E' := by
  induction l with
  | nil => exact fun E => ⟨E, rfl, .refl E⟩
  | cons x l ih =>
    intro E
    obtain ⟨E1, h1, s1⟩ := h E x (by simp)
    obtain ⟨E2, h2, s2⟩ := ih (fun E y hy => h E y (by simp [hy])) E1
    exact ⟨E2, by rw [List.foldlM_cons, h1]; exact h2, s1.trans s2⟩

theorem adjustEdge_defined (sort : List (MaterialKind × Nat) → List (MaterialKind × Nat)) {P : Nat → BPolygon}
    (polygons : List Nat) (background : Option MaterialKind) {c : Nat} (h : (P c).material ≠ none) (e : BEdge) :
    ∃ b, adjustEdge sort P polygons background c e = some b := by
  unfold adjustEdge
  cases outside e with
  | none => exact ⟨_, rfl⟩
  | some s =>
    dsimp only
    cases hm : (P c).material with
    | none => exact absurd hm h
    | some m =>
      cases (findAmbient sort P polygons background s.bounding (some c)).1 with
      | none => exact ⟨_, rfl⟩
      | some o => exact ⟨_, rfl⟩

/-- When all polygons have a material, adjusting edges only reverses some. -/
theorem adjustAll_same (sort : List (MaterialKind × Nat) → List (MaterialKind × Nat)) {D : Design}
    (h : ∀ p, ∀ c ∈ D.input.polygons p, (D.areas c).material ≠ none) :
    ∃ E, adjustAll sort D = some E ∧ SameButReverse D.input.E E :=
  foldlM_same _ (fun _ p _ => foldlM_same _ (fun _ c hc => foldlM_same _ (fun E e _ => by
    obtain ⟨b, hb⟩ := adjustEdge_defined sort (D.input.polygons p) D.background (h p c hc) (E e.1)
    exact ⟨_, by rw [hb]; rfl, setReverse_same E e.1 b⟩) _) _) _

theorem area_material {angle : Ang → ℚ} {background : Option MaterialKind} {added : List Csx.Added} {parts : List Part} {p : Plane}
    {c : Nat} (hc : c ∈ (assemble angle background added parts).input.polygons p) :
    ((assemble angle background added parts).areas c).material ≠ none := by
  obtain ⟨q, h, -⟩ := mem_polygons.1 hc
  simp only [assemble, asArea]
  rw [h]
  simp

end Verif.Board
