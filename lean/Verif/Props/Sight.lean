import Verif.Spec.Sight
import Verif.Props.Chain

/-! C123, C124: what the processing view shows in each display mode. -/

namespace Verif.Graph
open Spec
open Verif.Geom (Plane Axis ViewAxis transposeAxis)

/-- The node and those around it. -/
def lineage (b : Board) (e : Entity) : List Entity :=
  e :: match b.parent e with
    | none => []
    | some p => p :: match b.parent p with
      | none => []
      | some q => [q]

theorem isVisible_iff (b : Board) (hidden : Entity → Bool) (e : Entity) :
    isVisible b hidden e = true ↔ ∀ m ∈ lineage b e, hidden m = false := by
  simp only [isVisible, lineage]
  cases hp : b.parent e with
  | none => simp
  | some p => cases hq : b.parent p <;> simp [hq]

theorem parent_edge {b : Board} {i : Nat} {q : Entity} (h : b.parent (.edge i) = some q) :
    ∃ p es, (p, es) ∈ b.polygons ∧ i ∈ es ∧ q = .polygon p := by
  simp only [Board.parent, Option.map_eq_some_iff] at h
  obtain ⟨⟨p, es⟩, h1, rfl⟩ := h
  exact ⟨p, es, List.mem_of_find?_eq_some h1, by simpa using List.find?_some h1, rfl⟩

theorem parent_holds {b : Board} {e p : Entity} (h : b.parent e = some p) : Holds b p e := by
  cases e with
  | edge i =>
    obtain ⟨p, es, h1, h2, rfl⟩ := parent_edge h
    exact .edge h1 h2
  | plane p => simp [Board.parent] at h
  | axis a => simp [Board.parent] at h
  | _ => simp only [Board.parent, Option.some.injEq] at h; subst h; constructor

theorem holds_parent {b : Board} (ho : Own b) {e p : Entity} (h : Holds b p e) : b.parent e = some p := by
  cases h with
  | @edge p es i h1 h2 =>
    simp only [Board.parent, Option.map_eq_some_iff]
    cases hf : b.polygons.find? (fun p => decide (i ∈ p.2)) with
    | none => exact absurd h2 (by simpa using List.find?_eq_none.mp hf _ h1)
    | some q =>
      obtain ⟨q, fs⟩ := q
      exact ⟨_, rfl, by rw [ho _ _ _ _ i h1 (List.mem_of_find?_eq_some hf) h2 (by simpa using List.find?_some hf)]⟩
  | _ => rfl

/-- Three levels at most. -/
theorem parent_parent {b : Board} {e p q : Entity} (h : b.parent e = some p) (h' : b.parent p = some q) :
    (∃ i, p = .polygon i) ∧ b.parent q = none := by
  cases e with
  | edge i =>
    obtain ⟨p, es, -, -, rfl⟩ := parent_edge h
    simp only [Board.parent, Option.some.injEq] at h'
    subst h'
    exact ⟨⟨_, rfl⟩, rfl⟩
  | plane p => simp [Board.parent] at h
  | axis a => simp [Board.parent] at h
  | _ => simp only [Board.parent, Option.some.injEq] at h; subst h; simp [Board.parent] at h'

theorem lineage_parent {b : Board} {e p : Entity} (h : b.parent e = some p) : lineage b e = e :: lineage b p := by
  simp only [lineage, h]
  cases hq : b.parent p with
  | none => rfl
  | some q => simp [parent_parent h hq]

theorem lineage_top {b : Board} {e : Entity} (h : b.parent e = none) : lineage b e = [e] := by simp [lineage, h]

theorem mem_lineage_self (b : Board) (e : Entity) : e ∈ lineage b e := by simp [lineage]

theorem mem_lineage {b : Board} (ho : Own b) {e m : Entity} : m ∈ lineage b e ↔ Around b m e := by
  constructor
  · intro h
    simp only [lineage, List.mem_cons] at h
    rcases h with rfl | h
    · exact .refl
    · cases hp : b.parent e with
      | none => simp [hp] at h
      | some p =>
        simp only [hp, List.mem_cons] at h
        rcases h with rfl | h
        · exact .single (parent_holds hp)
        · cases hq : b.parent p with
          | none => simp [hq] at h
          | some q =>
            simp only [hq, List.mem_singleton] at h
            subst h
            exact .tail (.single (parent_holds hq)) (parent_holds hp)
  · intro h
    induction h with
    | refl => exact mem_lineage_self b m
    | tail _ h ih =>
      rw [lineage_parent (holds_parent ho h)]
      exact List.mem_cons_of_mem _ ih

theorem lineage_trans {b : Board} (ho : Own b) {x y z : Entity} (h : x ∈ lineage b y) (h' : y ∈ lineage b z) :
    x ∈ lineage b z := by
  rw [mem_lineage ho] at *
  exact h.trans h'

theorem lineage_nodes {b : Board} {e m : Entity} (he : e ∈ b.nodes) (h : m ∈ lineage b e) : m ∈ b.nodes := by
  have one : ∀ {e p : Entity}, e ∈ b.nodes → b.parent e = some p → p ∈ b.nodes := by
    intro e p he hp
    rw [mem_nodes] at he ⊢
    cases e with
    | edge i =>
      obtain ⟨p, es, h1, h2, rfl⟩ := parent_edge hp
      exact ⟨es, h1⟩
    | plane p => simp [Board.parent] at hp
    | axis a => simp [Board.parent] at hp
    | _ => simp only [Board.parent, Option.some.injEq] at hp; subst hp; trivial
  simp only [lineage, List.mem_cons] at h
  rcases h with rfl | h
  · exact he
  · cases hp : b.parent e with
    | none => simp [hp] at h
    | some p =>
      simp only [hp, List.mem_cons] at h
      rcases h with rfl | h
      · exact one he hp
      · cases hq : b.parent p with
        | none => simp [hq] at h
        | some q =>
          simp only [hq, List.mem_singleton] at h
          subst h
          exact one (one he hp) hq

/-- `showAfterParents` shows the node and what is around it. -/
theorem showAfterParents_eq (b : Board) (hidden : Entity → Bool) (e m : Entity) :
    showAfterParents b hidden 2 e m = if m ∈ lineage b e then false else hidden m := by
  have key : ∀ (k : Nat) (e : Entity), (lineage b e).length ≤ k + 1 → ∀ m,
      showAfterParents b hidden k e m = if m ∈ lineage b e then false else hidden m := by
    intro k
    induction k with
    | zero =>
      intro e hl m
      have : b.parent e = none := by
        cases hp : b.parent e with
        | none => rfl
        | some p => rw [lineage_parent hp] at hl; simp [lineage] at hl
      rw [lineage_top this]
      by_cases h : m = e <;> simp [showAfterParents, put, h]
    | succ k ih =>
      intro e hl m
      rw [showAfterParents]
      split
      · rename_i hv
        rw [isVisible_iff] at hv
        split
        · rename_i h; exact hv m h
        · rfl
      · cases hp : b.parent e with
        | none =>
          rw [lineage_top hp]
          by_cases h : m = e <;> simp [put, h]
        | some p =>
          rw [lineage_parent hp] at hl ⊢
          have := ih p (by simpa using hl) m
          by_cases h : m = e
          · simp [put, h]
          · simp [put, h, this]
  apply key
  simp only [lineage, List.length_cons]
  split <;> simp
  split <;> simp

theorem showAll_eq (b : Board) (l : List Entity) (hidden : Entity → Bool) (m : Entity) :
    showAll b hidden l m = true ↔ hidden m = true ∧ ∀ x ∈ l, m ∉ lineage b x := by
  induction l generalizing hidden with
  | nil => simp [showAll]
  | cons x l ih =>
    have : showAll b hidden (x :: l) = showAll b (showAfterParents b hidden 2 x) l := rfl
    rw [this, ih, showAfterParents_eq]
    by_cases h : m ∈ lineage b x <;> simp [h]

/-! ### The flags, whatever the ones of the children -/

/-- Who highlights whom is who is selected and has it in its chain. -/
def Nearly (c : Entity → List Entity) (s : Looks) : Prop :=
  (∀ m n, n ∈ s.by_ m ↔ s.selected n = true ∧ m ∈ c n) ∧ Lit s

theorem Consistent.nearly {c : Entity → List Entity} {s : Looks} (h : Consistent c s) : Nearly c s := ⟨h.1, h.2.1, h.2.2.1⟩

theorem Nearly.consistent {c : Entity → List Entity} {s : Looks} (h : Nearly c s)
    (hc : ∀ m, s.childSelected m = s.selected m) : Consistent c s := ⟨h.1, h.2.1, h.2.2, hc⟩

theorem Nearly.child {c : Entity → List Entity} {s : Looks} (h : Nearly c s) (f : Entity → Bool) :
    Nearly c { s with childSelected := f } := h

theorem lit_iff {c : Entity → List Entity} {s : Looks} (h : Nearly c s) (m : Entity) :
    s.lit m = true ↔ ∃ n, s.selected n = true ∧ m ∈ c n := by
  rw [h.2.1]
  constructor
  · intro h'
    obtain ⟨n, hn⟩ := List.exists_mem_of_ne_nil _ h'
    exact ⟨n, (h.1 m n).mp hn⟩
  · rintro ⟨n, hn⟩
    exact List.ne_nil_of_mem ((h.1 m n).mpr hn)

theorem unlight_nearly {c : Entity → List Entity} {s : Looks} (h : Nearly c s) {n : Entity} (hn : s.selected n = false) :
    Nearly c (setHighlighted s n false n) := by
  refine ⟨fun m' n' => ?_, setHighlighted_lit h.2 ..⟩
  rw [setHighlighted_by]
  show _ ↔ s.selected n' = true ∧ _
  split
  · rename_i hmn
    obtain ⟨rfl, rfl⟩ := hmn
    simp [hn]
  · exact h.1 m' n'

theorem light_nearly {c : Entity → List Entity} {s : Looks} (h : Nearly c s) (n : Entity) (v : Bool) :
    Nearly c { highlightAll v n s (c n) with selected := put s.selected n v }
      ∧ (highlightAll v n s (c n)).childSelected = s.childSelected
      ∧ (highlightAll v n s (c n)).selected = s.selected := by
  obtain ⟨k1, k2, k3, k4⟩ := highlightAll_spec v n (c n) s h.2
  refine ⟨⟨fun m' n' => ?_, k1⟩, k3, k2⟩
  show n' ∈ (highlightAll v n s (c n)).by_ m' ↔ put s.selected n v n' = true ∧ _
  rw [k4, h.1]
  by_cases hn : n' = n
  · subst hn
    by_cases hm : m' ∈ c n' <;> simp [hm, put]
  · simp [hn, put]

theorem setSelected_nearly {b : Board} {ws : List Wire} {c : Entity → List Entity}
    (hc : ∀ n, chain b ws n = some (c n)) {s : Looks} (hs : Nearly c s) (n : Entity) (v : Bool) :
    ∃ s', setSelected b ws s n v = some s' ∧ Nearly c s' ∧ s'.selected = put s.selected n v
      ∧ s'.childSelected = if s.selected n = v then s.childSelected else put s.childSelected n v := by
  by_cases hv : s.selected n = v
  · refine ⟨s, by rw [setSelected, if_pos hv], hs, ?_, by rw [if_pos hv]⟩
    funext m
    by_cases hm : m = n
    · subst hm; simp [put, hv]
    · simp [put, hm]
  · simp only [setSelected, if_neg hv, hc]
    generalize hs0 : (if v = true then setHighlighted s n false n else s) = s0
    have n0 : Nearly c s0 ∧ s0.selected = s.selected ∧ s0.childSelected = s.childSelected := by
      subst hs0
      split
      · rename_i hvt
        exact ⟨unlight_nearly hs (by simpa [hvt] using hv), rfl, rfl⟩
      · exact ⟨hs, rfl, rfl⟩
    obtain ⟨n1, n2, n3⟩ := n0
    obtain ⟨k1, k2, k3⟩ := light_nearly (n1.child (put s0.childSelected n v)) n v
    refine ⟨_, rfl, ?_, ?_, ?_⟩
    · rw [k3]; exact k1
    · show put _ n v = _
      rw [k3, ← n2]
    · show (highlightAll v n _ (c n)).childSelected = _
      rw [k2, ← n3]

theorem deselectAll_nearly {b : Board} {ws : List Wire} {c : Entity → List Entity}
    (hc : ∀ n, chain b ws n = some (c n)) (l : List Entity) {s : Looks} (hs : Nearly c s) :
    ∃ s', deselectAll b ws s l = some s' ∧ Nearly c s'
      ∧ ∀ m, s'.selected m = if m ∈ l then false else s.selected m := by
  induction l generalizing s with
  | nil => exact ⟨s, rfl, hs, by simp⟩
  | cons n l ih =>
    obtain ⟨s1, h1, h2, h3, -⟩ := setSelected_nearly hc hs n false
    obtain ⟨s2, k1, k2, k3⟩ := ih h2
    refine ⟨s2, by simp [deselectAll, h1, k1], k2, fun m => ?_⟩
    rw [k3, h3]
    by_cases hm : m ∈ l
    · simp [hm]
    · by_cases hn : m = n <;> simp [hm, hn, put]

theorem clearSelection_ok {b : Board} {ws : List Wire} {c : Entity → List Entity}
    (hc : ∀ n, chain b ws n = some (c n)) {s : Looks} (hs : Nearly c s) (hb : ∀ m, s.selected m = true → m ∈ b.nodes) :
    ∃ s', clearSelection b ws s = some s' ∧ Consistent c s' ∧ ∀ m, s'.selected m = false := by
  obtain ⟨s1, h1, h2, h3⟩ := deselectAll_nearly hc b.nodes hs
  have h4 : ∀ m, s1.selected m = false := by
    intro m
    rw [h3]
    split
    · rfl
    · rename_i h; by_contra h'; exact h (hb m (by simpa using h'))
  exact ⟨{ s1 with childSelected := fun _ => false }, by simp [clearSelection, h1],
    (h2.child _).consistent (fun m => (h4 m).symm), h4⟩

/-- The display settings are the same. -/
def Same (s s' : Sight) : Prop := s'.mode = s.mode ∧ s'.plane = s.plane ∧ s'.flags = s.flags

theorem Same.refl (s : Sight) : Same s s := ⟨rfl, rfl, rfl⟩

theorem Same.trans {s t u : Sight} (h : Same s t) (h' : Same t u) : Same s u :=
  ⟨h'.1.trans h.1, h'.2.1.trans h.2.1, h'.2.2.trans h.2.2⟩

theorem hideAll_nearly {b : Board} {ws : List Wire} {c : Entity → List Entity}
    (hc : ∀ n, chain b ws n = some (c n)) (l : List Entity) {s : Sight} (hs : Nearly c s.looks) :
    ∃ s', hideAll b ws s l = some s' ∧ Nearly c s'.looks ∧ Same s s'
      ∧ (∀ m, s'.looks.selected m = true → s.looks.selected m = true)
      ∧ ∀ m, s'.hidden m = true ↔ m ∈ l ∨ s.hidden m = true := by
  induction l generalizing s with
  | nil => exact ⟨s, rfl, hs, .refl s, fun m h => h, by simp⟩
  | cons n l ih =>
    obtain ⟨s1, h1, h2, h3⟩ := deselectAll_nearly hc (b.nodes.filter fun m => !isVisible b (put s.hidden n true) m) hs
    have ⟨f, hf⟩ : ∃ f : Entity → Bool, f = fun m =>
      !decide (m ∈ b.nodes.filter fun m => !isVisible b (put s.hidden n true) m) && s1.childSelected m := ⟨_, rfl⟩
    obtain ⟨s2, k1, k2, k3, k4, k5⟩ := ih (s := { s with
      looks := { s1 with childSelected := f }, hidden := put s.hidden n true }) (h2.child _)
    refine ⟨s2, ?_, k2, k3, fun m hm => ?_, fun m => ?_⟩
    · simp only [hideAll, hide, h1, Option.bind_eq_bind, Option.bind_some]
      rw [← hf]
      exact k1
    · have := k4 m hm
      rw [h3] at this
      split at this
      · cases this
      · exact this
    · rw [k5]
      by_cases h : m = n <;> simp [put, h]

theorem selectAll_ok {b : Board} {ws : List Wire} {c : Entity → List Entity}
    (hc : ∀ n, chain b ws n = some (c n)) {hidden : Entity → Bool} (l : List Entity) (hl : ∀ x ∈ l, isVisible b hidden x = true)
    {s : Looks} (hs : Consistent c s) :
    ∃ s', selectAll b ws hidden s l = some s' ∧ Consistent c s'
      ∧ ∀ m, s'.selected m = true ↔ m ∈ l ∨ s.selected m = true := by
  induction l generalizing s with
  | nil => exact ⟨s, rfl, hs, by simp⟩
  | cons n l ih =>
    obtain ⟨s1, h1, h2, h3⟩ := setSelected_consistent hc hs n true
    obtain ⟨s2, k1, k2, k3⟩ := ih (fun x hx => hl x (List.mem_cons_of_mem _ hx)) h2
    refine ⟨s2, by simp [selectAll, hl n (by simp), h1, k1], k2, fun m => ?_⟩
    rw [k3, h3]
    by_cases hm : m = n <;> simp [hm, put]

/-- What is visible is what is selected or highlighted, and what is around it. -/
def Shown (b : Board) (s : Sight) : Prop :=
  ∀ m ∈ b.nodes, isVisible b s.hidden m = true ↔
    ∃ x ∈ b.nodes, (s.looks.selected x = true ∨ s.looks.lit x = true) ∧ m ∈ lineage b x

theorem Shown.selected {b : Board} {s : Sight} (h : Shown b s) {m : Entity} (hm : m ∈ b.nodes)
    (hs : s.looks.selected m = true) : isVisible b s.hidden m = true :=
  (h m hm).mpr ⟨m, hm, .inl hs, mem_lineage_self b m⟩

theorem displaySelectedChain_ok {b : Board} (ho : Own b) {ws : List Wire} {c : Entity → List Entity}
    (hc : ∀ n, chain b ws n = some (c n)) {s : Sight} (hs : Nearly c s.looks)
    (hb : ∀ m, s.looks.selected m = true → m ∈ b.nodes) :
    ∃ s', displaySelectedChain b ws s = some s' ∧ Consistent c s'.looks ∧ s'.looks.selected = s.looks.selected
      ∧ Same s s' ∧ Shown b s' := by
  obtain ⟨s1, h1, h2, h3, h4, h5⟩ := hideAll_nearly hc b.nodes hs
  obtain ⟨l1, g1, g2, g3⟩ := clearSelection_ok hc h2 (fun m h => hb m (h4 m h))
  have hh : ∀ m, showAll b s1.hidden (selectedNodes b s ++ highlightedNodes b s) m = true ↔
      (m ∈ b.nodes ∨ s.hidden m = true)
        ∧ ∀ x ∈ b.nodes, (s.looks.selected x = true ∨ s.looks.lit x = true) → m ∉ lineage b x := by
    intro m
    rw [showAll_eq, h5]
    simp only [selectedNodes, highlightedNodes, List.mem_append, List.mem_filter]
    constructor
    · rintro ⟨a, h⟩
      exact ⟨a, fun x hx h' => h x (h'.elim (fun h => .inl ⟨hx, h⟩) fun h => .inr ⟨hx, h⟩)⟩
    · rintro ⟨a, h⟩
      exact ⟨a, fun x hx => hx.elim (fun h' => h x h'.1 (.inl h'.2)) fun h' => h x h'.1 (.inr h'.2)⟩
  have hv : ∀ m ∈ b.nodes, isVisible b (showAll b s1.hidden (selectedNodes b s ++ highlightedNodes b s)) m = true ↔
      ∃ x ∈ b.nodes, (s.looks.selected x = true ∨ s.looks.lit x = true) ∧ m ∈ lineage b x := by
    intro m hm
    rw [isVisible_iff]
    constructor
    · intro h
      by_contra hno
      have := h m (mem_lineage_self b m)
      rw [Bool.eq_false_iff] at this
      exact this ((hh m).mpr ⟨.inl hm, fun x hx h' hl => hno ⟨x, hx, h', hl⟩⟩)
    · rintro ⟨x, hx, h', hl⟩ y hy
      rw [Bool.eq_false_iff]
      intro h
      exact ((hh y).mp h).2 x hx h' (lineage_trans ho hy hl)
  obtain ⟨l2, j1, j2, j3⟩ := selectAll_ok hc (selectedNodes b s)
    (hidden := showAll b s1.hidden (selectedNodes b s ++ highlightedNodes b s))
    (fun x hx => by
      obtain ⟨hx, h'⟩ := List.mem_filter.mp hx
      exact (hv x hx).mpr ⟨x, hx, .inl h', mem_lineage_self b x⟩) g2
  have hsel : l2.selected = s.looks.selected := by
    funext m
    rw [Bool.eq_iff_iff, j3]
    simp only [selectedNodes, List.mem_filter, g3, Bool.false_eq_true, or_false]
    exact ⟨fun h => h.2, fun h => ⟨hb m h, h⟩⟩
  refine ⟨{ s1 with looks := l2, hidden := showAll b s1.hidden (selectedNodes b s ++ highlightedNodes b s) }, ?_, j2, hsel, h3,
    fun m hm => ?_⟩
  · simp [displaySelectedChain, h1, g1, j1]
  · rw [hv m hm]
    have : ∀ x, l2.lit x = true ↔ s.looks.lit x = true := fun x => by rw [lit_iff j2.nearly, lit_iff hs, hsel]
    simp only [hsel, this]

end Verif.Graph
