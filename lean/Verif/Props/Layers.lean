import Verif.Lemmas.Layers

/-! # C154, C155: what covers what in the structure view -/

namespace Verif.Layers

open Verif.Geom

instance (l : List Layer) (x y : Layer) : Decidable (Under l x y) := inferInstanceAs (Decidable ([x, y].Sublist l))

/-- The layers are not kept in the order in which the constructor puts them: in each scene that is populated, the mesh lines cover
the policies, the intervals and the conflicts, which cover them in a new scene. -/
theorem C154_false : ¬ ∀ s, Reach s → ∀ x y, Under Scene.made.order x y → Under s.order x y := by
  intro h
  have h1 := h (Scene.made.on .clearAll) (.on .clearAll .made) (.meshlines .h) (.policies .h) (by decide +kernel)
  revert h1
  decide +kernel

/-- What holds of the order: no layer is lost or doubled, polygons are under angles, angles under edges, edges under mesh lines, and
the layers of what was found about the mesh keep their order among themselves and cover polygons and angles. The index never gives an
item that was deleted. What is missing: mesh lines do not stay under what was found, nor do edges. -/
theorem C154_partial {s : Scene} (h : Reach s) :
    s.order.Perm Scene.made.order ∧
    Under s.order .polygons .angles ∧ Under s.order .angles .edges ∧ (∀ a, Under s.order .edges (.meshlines a)) ∧
    (∀ x y, Found x → Found y → Under Scene.made.order x y → Under s.order x y) ∧
    (∀ x, Found x → Under s.order .polygons x ∧ Under s.order .angles x) ∧
    (∀ entity item, s.find entity = some item → ∃ g, (item, g) ∈ s.items) := by
  obtain ⟨h1, h2⟩ := reach_kept h
  have hx : ∀ l, Known l → l.Perm Scene.made.order ∧
      Under l .polygons .angles ∧ Under l .angles .edges ∧ (∀ a, Under l .edges (.meshlines a)) ∧
      (∀ x y, Found x → Found y → Under Scene.made.order x y → Under l x y) ∧
      (∀ x, Found x → Under l .polygons x ∧ Under l .angles x) := by
    intro l hl
    have ha : ∀ a : ViewAxis, a = .h ∨ a = .v := by
      intro a
      cases a
      · exact .inl rfl
      · exact .inr rfl
    refine ⟨?_, ?_, ?_, ?_, ?_, ?_⟩
    · rcases hl with rfl | rfl | rfl <;> decide +kernel
    · rcases hl with rfl | rfl | rfl <;> decide +kernel
    · rcases hl with rfl | rfl | rfl <;> decide +kernel
    · intro a
      rcases ha a with rfl | rfl <;> rcases hl with rfl | rfl | rfl <;> decide +kernel
    · intro x y hx hy
      cases x <;> first | exact hx.elim | skip
      all_goals
        cases y <;> first | exact hy.elim | skip
        all_goals
          rename_i a b
          rcases ha a with rfl | rfl <;> rcases ha b with rfl | rfl <;> rcases hl with rfl | rfl | rfl <;> decide +kernel
    · intro x hx
      cases x <;> first | exact hx.elim | skip
      all_goals
        rename_i a
        rcases ha a with rfl | rfl <;> rcases hl with rfl | rfl | rfl <;> decide +kernel
  obtain ⟨a1, a2, a3, a4, a5, a6⟩ := hx _ h1
  refine ⟨a1, a2, a3, a4, a5, a6, fun entity item hf => ?_⟩
  have hm : (entity, item) ∈ s.index := by
    obtain ⟨a, b, hab, -⟩ := List.lookup_eq_some_iff.mp hf
    rw [hab]
    simp
  exact h2.1 _ hm

/-- What is seen of a scene that is made for a timepoint: the items are those added, the index gives each of them for its entity and
nothing else, and from the bottom to the top there are the polygons, the angles, the edges, the layers of what was found about the
mesh, and the mesh lines. -/
theorem C154_populated (l : List (Layer × Nat)) (hn : (l.map (·.2)).Nodup) :
    (Scene.made.populate l).items.map (·.2) = l.map (·.1) ∧
    (∀ i (hi : i < l.length), ∃ item, (Scene.made.populate l).find (l[i]).2 = some item ∧
      (Scene.made.populate l).items[i]? = some (item, (l[i]).1)) ∧
    (∀ entity item, (Scene.made.populate l).find entity = some item → ∃ g, (g, entity) ∈ l) ∧
    (∀ x a, Found x → Under (Scene.made.populate l).order .edges x ∧ Under (Scene.made.populate l).order x (.meshlines a)) := by
  have he : Scene.made.clearAll.index = [] ∧ Scene.made.clearAll.items = [] ∧ Scene.made.clearAll.next = 0 := by decide +kernel
  obtain ⟨h1, h2, h3⟩ := populate_run l Scene.made.clearAll (by rw [he.1]; simpa using hn)
  rw [he.2.1, he.2.2, List.nil_append] at h2
  rw [he.1, he.2.2, List.nil_append] at h3
  have hi' : (Scene.made.populate l).items = _ := h2
  have hx' : (Scene.made.populate l).index = _ := h3
  have ho' : (Scene.made.populate l).order = _ := h1
  refine ⟨?_, fun i hi => ⟨i, ?_, ?_⟩, fun entity item hf => ?_, ?_⟩
  · rw [hi', List.map_map]
    have : ((fun x : Nat × Layer => x.2) ∘ fun x : (Layer × Nat) × Nat => (x.2, x.1.1)) = (fun x => x.1) ∘ Prod.fst := rfl
    rw [this, ← List.map_map, List.zipIdx_map_fst]
  · unfold Scene.find
    rw [hx', List.lookup_eq_some_iff]
    refine ⟨((l.take i).zipIdx 0).map fun x => (x.1.2, x.2), ((l.drop (i + 1)).zipIdx (i + 1)).map fun x => (x.1.2, x.2), ?_, ?_⟩
    · conv_lhs => rw [← List.take_append_drop i l, List.drop_eq_getElem_cons hi]
      rw [List.zipIdx_append, List.zipIdx_cons]
      simp [List.length_take, Nat.min_eq_left hi.le]
    · intro p hp
      rw [List.mem_map] at hp
      obtain ⟨x, hx, rfl⟩ := hp
      have hx1 : x.1 ∈ l.take i := List.fst_mem_of_mem_zipIdx hx
      obtain ⟨j, hj, hjx⟩ := List.getElem_of_mem hx1
      rw [List.length_take] at hj
      simp only [beq_eq_false_iff_ne, ne_eq, bne_iff_ne, Bool.not_eq_true', beq_iff_eq]
      intro hc
      rw [← hjx, List.getElem_take] at hc
      have := (List.nodup_iff_injective_getElem.mp hn) (a₁ := ⟨j, by simp; omega⟩) (a₂ := ⟨i, by simpa using hi⟩) (by simpa using hc.symm)
      simp at this
      omega
  · rw [hi', List.getElem?_map, List.getElem?_zipIdx]
    simp [hi]
  · have hm : (entity, item) ∈ (Scene.made.populate l).index := by
      obtain ⟨a, b, hab, -⟩ := List.lookup_eq_some_iff.mp hf
      rw [hab]
      simp
    rw [hx', List.mem_map] at hm
    obtain ⟨x, hx, hxe⟩ := hm
    refine ⟨x.1.1, ?_⟩
    have h4 := List.fst_mem_of_mem_zipIdx hx
    have h5 : x.1.2 = entity := congrArg Prod.fst hxe
    rw [← h5]
    exact h4
  · intro x a hx
    rw [ho']
    cases x <;> first | exact hx.elim | skip
    all_goals
      rename_i b
      cases a <;> cases b <;> decide +kernel

/-- `clear_all` forgets the angles in the index without deleting them: used on a scene that is not new, it leaves angles that the
index does not give. -/
theorem C154_angles : ∃ s, Reach s ∧ (∃ item, (item, Layer.angles) ∈ s.items) ∧ ∀ entity, s.find entity = none := by
  refine ⟨_, .on .clearAll (.on (.add .angles 7) .made), ⟨0, by decide +kernel⟩, fun entity => ?_⟩
  have h : ((Scene.made.on (.add .angles 7)).on .clearAll).index = [] := by decide +kernel
  unfold Scene.find
  rw [h]
  rfl

/-- Clearing everything leaves no polygon, no edge and no mesh line, the other items, and an empty index. -/
theorem C154_cleared (s : Scene) :
    (∀ i, i ∈ (s.on .clearAll).items ↔ i ∈ s.items ∧ i.2 ≠ .polygons ∧ i.2 ≠ .edges ∧ ∀ a, i.2 ≠ .meshlines a) ∧
    ∀ entity, (s.on .clearAll).find entity = none := by
  refine ⟨fun i => ?_, fun entity => ?_⟩
  · have ha : (∀ a, i.2 ≠ .meshlines a) ↔ i.2 ≠ .meshlines .h ∧ i.2 ≠ .meshlines .v :=
      ⟨fun h => ⟨h _, h _⟩, fun h a => by cases a <;> first | exact h.1 | exact h.2⟩
    rw [ha]
    simp only [Scene.on, Scene.clearAll, Scene.clearEdges, Scene.clearPolygons, Scene.clearMeshlines, Scene.clearMeshlinesOf,
      Scene.renew, List.mem_filter, decide_eq_true_eq]
    tauto
  · simp [Scene.find, Scene.on, Scene.clearAll, Scene.clearEdges, Scene.clearPolygons, Scene.clearMeshlines, Scene.clearMeshlinesOf,
      Scene.renew]

/-- A scene with a polygon, two edges and a mesh line. -/
example : (Scene.made.populate [(.polygons, 10), (.edges, 11), (.edges, 12), (.meshlines .v, 13)]).find 12 = some 2 ∧
    ([10, 11, 12, 13] : List Nat).Nodup := by decide +kernel

/-- A scene that was cleared and filled again. -/
example : ∃ s, Reach s ∧ s.find 4 = some 2 ∧ s.find 3 = none ∧ s.items.length = 1 :=
  ⟨_, .on (.add .edges 4) (.on .clearAll (.on (.add (.meshlines .h) 3) (.on (.add .edges 4) .made))), by decide +kernel⟩

/-- A polygon that was deselected while the pointer is over it is not raised although the pointer is over it. -/
theorem C155_false : ¬ ∀ p, Touched p → (p.raised = true ↔ p.selected = true ∨ p.hovered = true) := by
  intro h
  have h1 := h _ (.on (.select false) (.on (.select true) (.on .enter .made)))
  revert h1
  decide

/-- A polygon that is selected is raised, and one that is neither selected nor under the pointer is not. When it is not deselected
while the pointer is over it, it is raised exactly when it is selected or under the pointer. What is missing: after it is, until the
pointer leaves. -/
theorem C155_partial {p : Shape} :
    (Touched p → (p.selected = true → p.raised = true) ∧ (p.selected = false ∧ p.hovered = false → p.raised = false)) ∧
    (Gently p → (p.raised = true ↔ p.selected = true ∨ p.hovered = true)) := by
  constructor
  · intro h
    induction h with
    | made => decide
    | @on p t _ ih =>
      revert ih
      rcases p with ⟨_ | _, _ | _, _ | _⟩ <;> rcases t with _ | _ | (_ | _) <;> decide
  · intro h
    induction h with
    | made => decide
    | @on p t _ ht ih =>
      revert ht ih
      rcases p with ⟨_ | _, _ | _, _ | _⟩ <;> rcases t with _ | _ | (_ | _) <;> decide

/-- A polygon is entered, selected, left, and deselected. -/
example : ∃ p, Gently p ∧ p.raised = false :=
  ⟨_, .on (.select false) (.on .leave (.on (.select true) (.on .enter .made (by decide)) (by decide)) (by decide)) (by decide), by
    decide⟩

end Verif.Layers
