import Verif.Spec.Layers
import Mathlib.Data.List.Basic
import Mathlib.Data.List.Nodup
import Mathlib.Tactic.Tauto

/-! Lemmas for C154 and C155. -/

namespace Verif.Layers

open Verif.Geom

/-- The order after mesh lines were cleared. -/
def clearedOrder : List Layer := Scene.made.clearMeshlines.order

/-- The order after mesh lines and then edges were cleared. -/
def secondOrder : List Layer := Scene.made.clearMeshlines.clearEdges.order

/-- All orders that occur. -/
def Known (l : List Layer) : Prop := l = Scene.firstOrder ∨ l = clearedOrder ∨ l = secondOrder

theorem order_edges {s t : Scene} (h : s.order = t.order) : s.clearEdges.order = t.clearEdges.order := by
  simp only [Scene.clearEdges, Scene.renew, h]

theorem order_polygons {s t : Scene} (h : s.order = t.order) : s.clearPolygons.order = t.clearPolygons.order := by
  simp only [Scene.clearPolygons, Scene.renew, h]

theorem order_meshlines {s t : Scene} (h : s.order = t.order) : s.clearMeshlines.order = t.clearMeshlines.order := by
  simp only [Scene.clearMeshlines, Scene.clearMeshlinesOf, Scene.renew, h]

/-- A scene with an order and nothing else. -/
def bare (l : List Layer) : Scene := ⟨l, [], [], 0⟩

theorem known_edges {s : Scene} (h : Known s.order) : Known s.clearEdges.order := by
  rw [order_edges (s := s) (t := bare s.order) rfl]
  rcases h with h | h | h <;> rw [h] <;> unfold Known <;> decide +kernel

theorem known_polygons {s : Scene} (h : Known s.order) : Known s.clearPolygons.order := by
  rw [order_polygons (s := s) (t := bare s.order) rfl]
  rcases h with h | h | h <;> rw [h] <;> unfold Known <;> decide +kernel

theorem known_meshlines {s : Scene} (h : Known s.order) : Known s.clearMeshlines.order := by
  rw [order_meshlines (s := s) (t := bare s.order) rfl]
  rcases h with h | h | h <;> rw [h] <;> unfold Known <;> decide +kernel

/-- The index gives items that are there. -/
def Scene.Alive (s : Scene) : Prop :=
  (∀ e ∈ s.index, ∃ g, (e.2, g) ∈ s.items) ∧ (∀ i ∈ s.items, i.1 < s.next)

theorem alive_renew {s : Scene} (h : s.Alive) (g : Layer) : (s.renew g).Alive := by
  refine ⟨fun e he => ?_, fun i hi => h.2 i (List.mem_of_mem_filter hi)⟩
  simp only [Scene.renew, List.mem_filter, decide_eq_true_eq] at he
  obtain ⟨g', hg'⟩ := h.1 e he.1
  refine ⟨g', ?_⟩
  simp only [Scene.renew, List.mem_filter, decide_eq_true_eq]
  refine ⟨hg', fun hc => he.2 ?_⟩
  rw [List.mem_map]
  exact ⟨(e.2, g'), List.mem_filter.mpr ⟨hg', by simpa using hc⟩, rfl⟩

theorem alive_order {s : Scene} (h : s.Alive) (l : List Layer) : Scene.Alive { s with order := l } := h

theorem alive_edges {s : Scene} (h : s.Alive) : s.clearEdges.Alive := alive_order (alive_renew h _) _

theorem alive_polygons {s : Scene} (h : s.Alive) : s.clearPolygons.Alive := alive_order (alive_renew h _) _

theorem alive_meshlines {s : Scene} (h : s.Alive) : s.clearMeshlines.Alive :=
  alive_order (alive_renew (alive_order (alive_renew h _) _) _) _

theorem alive_add {s : Scene} (h : s.Alive) (g : Layer) (e : Nat) : (s.add g e).Alive := by
  refine ⟨fun x hx => ?_, fun i hi => ?_⟩
  · simp only [Scene.add, List.mem_append, List.mem_singleton] at hx ⊢
    rcases hx with hx | hx
    · obtain ⟨g', hg'⟩ := h.1 x (List.mem_of_mem_filter hx)
      exact ⟨g', .inl hg'⟩
    · exact ⟨g, .inr (by rw [hx])⟩
  · simp only [Scene.add, List.mem_append, List.mem_singleton] at hi ⊢
    rcases hi with hi | hi
    · exact Nat.lt_succ_of_lt (h.2 i hi)
    · rw [hi]
      exact Nat.lt_succ_self _

theorem alive_unindexed {s : Scene} (h : s.Alive) : Scene.Alive { s with index := [] } :=
  ⟨fun _ he => absurd he (List.not_mem_nil), h.2⟩

theorem reach_kept {s : Scene} (h : Reach s) : Known s.order ∧ s.Alive := by
  induction h with
  | made => exact ⟨.inl rfl, fun _ he => absurd he (List.not_mem_nil), fun _ he => absurd he (List.not_mem_nil)⟩
  | @on s e _ ih =>
    cases e with
    | add g e => exact ⟨ih.1, alive_add ih.2 g e⟩
    | clearEdges => exact ⟨known_edges ih.1, alive_edges ih.2⟩
    | clearPolygons => exact ⟨known_polygons ih.1, alive_polygons ih.2⟩
    | clearMeshlines => exact ⟨known_meshlines ih.1, alive_meshlines ih.2⟩
    | clearAll =>
      exact ⟨known_meshlines (known_polygons (known_edges (s := { s with index := [] }) ih.1)),
        alive_meshlines (alive_polygons (alive_edges (alive_unindexed ih.2)))⟩

/-- What was added is what is there, and what the index gives. -/
theorem populate_run (l : List (Layer × Nat)) (s : Scene) (hn : (s.index.map (·.1) ++ l.map (·.2)).Nodup) :
    (l.foldl (fun s x => s.add x.1 x.2) s).order = s.order ∧
    (l.foldl (fun s x => s.add x.1 x.2) s).items = s.items ++ (l.zipIdx s.next).map (fun x => (x.2, x.1.1)) ∧
    (l.foldl (fun s x => s.add x.1 x.2) s).index = s.index ++ (l.zipIdx s.next).map (fun x => (x.1.2, x.2)) := by
  induction l generalizing s with
  | nil => simp
  | cons x l ih =>
    have hf : s.index.filter (·.1 ≠ x.2) = s.index := by
      rw [List.filter_eq_self]
      intro e he
      have h1 := (List.nodup_append.mp hn).2.2 e.1 (List.mem_map_of_mem he) x.2 (by simp)
      simpa using h1
    have hi : (s.add x.1 x.2).index = s.index ++ [(x.2, s.next)] := by
      simp only [Scene.add, hf]
    have hn' : ((s.add x.1 x.2).index.map (·.1) ++ l.map (·.2)).Nodup := by
      rw [hi]
      simpa using hn
    obtain ⟨h1, h2, h3⟩ := ih (s.add x.1 x.2) hn'
    refine ⟨h1, ?_, ?_⟩
    · rw [List.foldl_cons, h2]
      simp [Scene.add, List.zipIdx_cons]
    · rw [List.foldl_cons, h3, hi]
      simp [Scene.add, List.zipIdx_cons]

end Verif.Layers
