import Verif.Props.Graph

/-!
# C121: the chain of a node is exactly what it comes from and what comes from it

# C122: what is highlighted is exactly what is related to something selected
-/

namespace Verif.Graph
open Spec

/-! ## The traversals -/

theorem traverse_nil (next : Entity → List Entity) (out : List Entity) : traverse next out [] = some out := by
  rw [traverse]

theorem traverse_cons (next : Entity → List Entity) (out : List Entity) (m : Entity) (rest : List Entity) :
    traverse next out (m :: rest) = if m ∈ out then traverse next out rest
      else (traverse next (m :: out) (next m)).bind fun out => traverse next out rest := by
  rw [traverse]; rfl

/-- How many of the nodes are still to be visited. -/
def unseen (all out : List Entity) : Nat := (all.filter fun x => decide (x ∉ out)).length

theorem unseen_mono {all out out' : List Entity} (h : ∀ x ∈ out, x ∈ out') : unseen all out' ≤ unseen all out := by
  induction all with
  | nil => simp [unseen]
  | cons a all ih =>
    simp only [unseen, List.filter_cons] at ih ⊢
    by_cases h1 : a ∈ out
    · simpa [h1, h a h1] using ih
    · by_cases h2 : a ∈ out'
      · simp [h1, h2] at ih ⊢; omega
      · simpa [h1, h2] using ih

theorem unseen_lt {all out : List Entity} {m : Entity} (hm : m ∈ all) (h : m ∉ out) :
    unseen all (m :: out) < unseen all out := by
  induction all with
  | nil => cases hm
  | cons a all ih =>
    have mono := unseen_mono (all := all) (out := out) (out' := m :: out) fun x hx => List.mem_cons_of_mem _ hx
    simp only [unseen, List.filter_cons] at ih mono ⊢
    rcases List.mem_cons.mp hm with rfl | hm
    · simp [h] at mono ⊢; omega
    · by_cases h1 : a ∈ out
      · simpa [h1] using ih hm
      · by_cases h2 : a = m
        · subst h2; simp [h] at mono ⊢; omega
        · have := ih hm
          simp [h1, h2] at this ⊢; omega

theorem traverse_ends {next : Entity → List Entity} {all : List Entity} (ha : ∀ x ∈ all, ∀ y ∈ next x, y ∈ all) :
    ∀ (k : Nat) (out todo : List Entity), unseen all out ≤ k → (∀ x ∈ todo, x ∈ all) →
      ∃ out', traverse next out todo = some out' ∧ (∀ x ∈ out, x ∈ out') ∧ (∀ x ∈ todo, x ∈ out')
        ∧ (∀ x ∈ out', x ∉ out → ∀ y ∈ next x, y ∈ out')
        ∧ ∀ x ∈ out', x ∈ out ∨ ∃ y ∈ todo, Relation.ReflTransGen (fun a c => c ∈ next a) y x := by
  intro k
  induction k with
  | zero =>
    intro out todo hk ht
    induction todo with
    | nil => exact ⟨out, traverse_nil .., fun _ h => h, by simp, fun x h h' => absurd h h', fun x h => Or.inl h⟩
    | cons m rest ih =>
      have hm : m ∈ out := by
        by_contra h
        have := unseen_lt (ht m (List.mem_cons_self ..)) h
        omega
      obtain ⟨out', h1, h2, h3, h4, h5⟩ := ih fun x hx => ht x (List.mem_cons_of_mem _ hx)
      refine ⟨out', by rw [traverse_cons, if_pos hm]; exact h1, h2, ?_, h4, ?_⟩
      · intro x hx
        rcases List.mem_cons.mp hx with rfl | hx
        exacts [h2 _ hm, h3 x hx]
      · intro x hx
        rcases h5 x hx with h | ⟨y, hy, h⟩
        exacts [Or.inl h, Or.inr ⟨y, List.mem_cons_of_mem _ hy, h⟩]
  | succ k ihk =>
    intro out todo hk ht
    induction todo with
    | nil => exact ⟨out, traverse_nil .., fun _ h => h, by simp, fun x h h' => absurd h h', fun x h => Or.inl h⟩
    | cons m rest ih =>
      have ht' : ∀ x ∈ rest, x ∈ all := fun x hx => ht x (List.mem_cons_of_mem _ hx)
      by_cases hm : m ∈ out
      · obtain ⟨out', h1, h2, h3, h4, h5⟩ := ih ht'
        refine ⟨out', by rw [traverse_cons, if_pos hm]; exact h1, h2, ?_, h4, ?_⟩
        · intro x hx
          rcases List.mem_cons.mp hx with rfl | hx
          exacts [h2 _ hm, h3 x hx]
        · intro x hx
          rcases h5 x hx with h | ⟨y, hy, h⟩
          exacts [Or.inl h, Or.inr ⟨y, List.mem_cons_of_mem _ hy, h⟩]
      · have hma := ht m (List.mem_cons_self ..)
        have lt := unseen_lt hma hm
        obtain ⟨o1, g1, g2, g3, g4, g5⟩ := ihk (m :: out) (next m) (by omega) (ha m hma)
        have mono := unseen_mono (all := all) g2
        obtain ⟨o2, k1, k2, k3, k4, k5⟩ := ihk o1 rest (by omega) ht'
        refine ⟨o2, ?_, ?_, ?_, ?_, ?_⟩
        · rw [traverse_cons, if_neg hm, g1]; exact k1
        · exact fun x hx => k2 x (g2 x (List.mem_cons_of_mem _ hx))
        · intro x hx
          rcases List.mem_cons.mp hx with rfl | hx
          exacts [k2 _ (g2 _ (List.mem_cons_self ..)), k3 x hx]
        · intro x hx hxo y hy
          by_cases h1 : x ∈ o1
          · by_cases h2 : x = m
            · subst h2; exact k2 y (g3 y hy)
            · exact k2 y (g4 x h1 (by simp [h2, hxo]) y hy)
          · exact k4 x hx h1 y hy
        · intro x hx
          rcases k5 x hx with h | ⟨y, hy, h⟩
          · rcases g5 x h with h | ⟨y, hy, h⟩
            · rcases List.mem_cons.mp h with rfl | h
              exacts [Or.inr ⟨_, List.mem_cons_self .., .refl⟩, Or.inl h]
            · exact Or.inr ⟨m, List.mem_cons_self .., .head hy h⟩
          · exact Or.inr ⟨y, List.mem_cons_of_mem _ hy, h⟩

/-- From nothing visited, the traversal ends and gives exactly what can be reached. -/
theorem traverse_reaches {next : Entity → List Entity} {all : List Entity} (ha : ∀ x, ∀ y ∈ next x, y ∈ all) (n : Entity) :
    ∃ out, traverse next [] (next n) = some out
      ∧ ∀ x, x ∈ out ↔ Relation.TransGen (fun a c => c ∈ next a) n x := by
  obtain ⟨out, h1, -, h3, h4, h5⟩ := traverse_ends (fun x _ => ha x) _ [] (next n) (Nat.le_refl _) (ha n)
  refine ⟨out, h1, fun x => ⟨fun h => ?_, fun h => ?_⟩⟩
  · rcases h5 x h with h | ⟨y, hy, h⟩
    · cases h
    · exact Relation.TransGen.head' hy h
  · induction h with
    | single h => exact h3 _ h
    | tail _ h ih => exact h4 _ ih (by simp) _ h

theorem transGen_iff {r s : Entity → Entity → Prop} (h : ∀ a c, r a c ↔ s a c) (x y : Entity) :
    Relation.TransGen r x y ↔ Relation.TransGen s x y := by
  have : r = s := by funext a c; exact propext (h a c)
  rw [this]

/-- **C121.** Whatever the board, cycles or not, the search for the chain of a node ends, and the chain is exactly the objects
of the board it comes from, directly or not, together with those that come from it. -/
theorem C121_chain (b : Board) (hb : Meant b) :
    ∃ ws, populate b = .ok ws ∧ ∀ n, ∃ c, chain b ws n = some c ∧ ∀ m, m ∈ c ↔ Related b n m := by
  obtain ⟨ws, h1, -, -, -, hin, hout⟩ := C120_wires b hb
  refine ⟨ws, h1, fun n => ?_⟩
  obtain ⟨up, u1, u2⟩ := traverse_reaches (next := inputNodes b ws) (all := b.shown)
    (fun x y hy => mem_shown.mpr ((hin y x).mp hy).1) n
  obtain ⟨down, d1, d2⟩ := traverse_reaches (next := outputNodes b ws) (all := b.shown)
    (fun x y hy => mem_shown.mpr ((hout x y).mp hy).2.1) n
  refine ⟨up.union down, by simp [chain, u1, d1], fun m => ?_⟩
  have hu : Relation.TransGen (fun a c => c ∈ inputNodes b ws a) n m ↔ Relation.TransGen (Linked b) m n := by
    rw [transGen_iff (s := Function.swap (Linked b)) (fun a c => hin c a)]
    exact Relation.transGen_swap
  have hd : Relation.TransGen (fun a c => c ∈ outputNodes b ws a) n m ↔ Relation.TransGen (Linked b) n m :=
    transGen_iff (fun a c => hout a c) n m
  show m ∈ up ∪ down ↔ _
  rw [List.mem_union_iff, u2, d2, hu, hd]
  rfl

/-- The line of `tiny` comes from the polygon 1, through the conflict, the edge, the policy and the merge. -/
theorem tiny_related : Related tiny (.meshline 0) (.polygon 1) := by
  refine Or.inl (.head (b := .eip 0) ?_ (.head (b := .edge 0) ?_ (.head (b := .policy 0) ?_ (.head (b := .tcmlp 0) ?_
    (.head (b := .policy 2) ?_ (.single ?_))))))
  · exact ⟨by simp [OnBoard, tiny], by simp [OnBoard, tiny], .covered (by simp [tiny])⟩
  · exact ⟨by simp [OnBoard, tiny], ⟨0, [0, 1], by simp [tiny], by simp⟩, .settled (by simp [tiny])⟩
  · exact ⟨⟨0, [0, 1], by simp [tiny], by simp⟩, by simp [OnBoard, tiny], .asked (by simp [tiny])⟩
  · exact ⟨by simp [OnBoard, tiny], by simp [OnBoard, tiny], .left 0⟩
  · exact ⟨by simp [OnBoard, tiny], by simp [OnBoard, tiny], .asked (by simp [tiny])⟩
  · exact ⟨by simp [OnBoard, tiny], by simp [OnBoard, tiny], .at_ (by simp [tiny])⟩

example : ∃ ws, populate tiny = .ok ws ∧ ∃ c, chain tiny ws (.meshline 0) = some c ∧ .polygon 1 ∈ c := by
  obtain ⟨ws, h1, h2⟩ := C121_chain tiny tiny_meant
  obtain ⟨c, h3, h4⟩ := h2 (.meshline 0)
  exact ⟨ws, h1, c, h3, (h4 _).mpr tiny_related⟩

/-! ## Highlighting -/

/-- What the flags of the nodes say when the chain of each node is `c`: a node remembers exactly the selected nodes whose chain
it is in, is lit when there is one, and its children follow it. -/
def Consistent (c : Entity → List Entity) (s : Looks) : Prop :=
  (∀ m n, n ∈ s.by_ m ↔ s.selected n = true ∧ m ∈ c n) ∧ (∀ m, s.lit m = true ↔ s.by_ m ≠ [])
    ∧ (∀ m, s.childLit m = s.lit m) ∧ ∀ m, s.childSelected m = s.selected m

theorem setHighlighted_by (s : Looks) (m : Entity) (v : Bool) (n m' n' : Entity) :
    n' ∈ (setHighlighted s m v n).by_ m' ↔
      if m' = m ∧ n' = n then v = true else n' ∈ s.by_ m' := by
  simp only [setHighlighted, put]
  by_cases h : m' = m
  · subst h
    by_cases h' : n' = n <;> cases v <;> simp [h']
  · simp [h]

/-- What of the flags does not depend on what is selected. -/
def Lit (s : Looks) : Prop := (∀ m, s.lit m = true ↔ s.by_ m ≠ []) ∧ ∀ m, s.childLit m = s.lit m

theorem setHighlighted_lit {s : Looks} (h : Lit s) (m : Entity) (v : Bool) (n : Entity) : Lit (setHighlighted s m v n) := by
  obtain ⟨h1, h2⟩ := h
  constructor
  · intro m'
    simp only [setHighlighted, put]
    by_cases hm : m' = m
    · subst hm
      cases v
      · by_cases he : (s.by_ m').filter (· ≠ n) = []
        · simp only [Bool.false_eq_true, if_false, if_true, if_pos he, he, ne_eq, not_true_eq_false]
        · have : s.by_ m' ≠ [] := fun h => he (by simp [h])
          simp only [ite_true, Bool.false_eq_true, if_false, if_neg he, ne_eq, he, not_false_eq_true, iff_true]
          exact (h1 m').mpr this
      · simp
    · simp [hm, h1]
  · intro m'
    simp only [setHighlighted, put]
    by_cases hm : m' = m <;> simp [hm, h2]

theorem highlightAll_spec (v : Bool) (n : Entity) (ms : List Entity) (s : Looks) (h : Lit s) :
    Lit (highlightAll v n s ms) ∧ (highlightAll v n s ms).selected = s.selected
      ∧ (highlightAll v n s ms).childSelected = s.childSelected
      ∧ ∀ m' n', n' ∈ (highlightAll v n s ms).by_ m' ↔ if m' ∈ ms ∧ n' = n then v = true else n' ∈ s.by_ m' := by
  induction ms generalizing s with
  | nil => exact ⟨h, rfl, rfl, by simp [highlightAll]⟩
  | cons m ms ih =>
    obtain ⟨h1, h2, h3, h4⟩ := ih (setHighlighted s m v n) (setHighlighted_lit h m v n)
    refine ⟨h1, h2, h3, fun m' n' => ?_⟩
    have := h4 m' n'
    show n' ∈ (highlightAll v n (setHighlighted s m v n) ms).by_ m' ↔ _
    rw [this]
    by_cases hn : n' = n
    · subst hn
      by_cases hm : m' ∈ ms
      · simp [hm]
      · simp only [hm, false_and, if_false, setHighlighted_by, List.mem_cons, or_false]
    · simp [hn, setHighlighted_by]

theorem consistent_fresh (c : Entity → List Entity) : Consistent c Looks.fresh := by
  simp [Consistent, Looks.fresh]

theorem setSelected_consistent {b : Board} {ws : List Wire} {c : Entity → List Entity}
    (hc : ∀ n, chain b ws n = some (c n)) {s : Looks} (hs : Consistent c s) (n : Entity) (v : Bool) :
    ∃ s', setSelected b ws s n v = some s' ∧ Consistent c s' ∧ s'.selected = put s.selected n v := by
  obtain ⟨h1, h2, h3, h4⟩ := hs
  by_cases hv : s.selected n = v
  · refine ⟨s, by rw [setSelected, if_pos hv], ⟨h1, h2, h3, h4⟩, ?_⟩
    funext m
    by_cases hm : m = n
    · subst hm; simp [put, hv]
    · simp [put, hm]
  · simp only [setSelected, if_neg hv, hc]
    refine ⟨_, rfl, ?_, ?_⟩
    · -- the state before the loop
      generalize hs0 : (if v = true then setHighlighted s n false n else s) = s0
      have l0 : Lit s0 := by
        subst hs0; split
        · exact setHighlighted_lit ⟨h2, h3⟩ ..
        · exact ⟨h2, h3⟩
      have b0 : ∀ m' n', n' ∈ s0.by_ m' ↔ n' ∈ s.by_ m' := by
        intro m' n'
        subst hs0
        split
        · rename_i hvt
          rw [setHighlighted_by]
          split
          · rename_i hmn
            obtain ⟨rfl, rfl⟩ := hmn
            simp only [Bool.false_eq_true, false_iff, h1]
            rintro ⟨hsel, -⟩
            exact hv (by rw [hsel, hvt])
          · rfl
        · rfl
      have sel0 : s0.selected = s.selected := by subst hs0; split <;> rfl
      have ch0 : s0.childSelected = s.childSelected := by subst hs0; split <;> rfl
      obtain ⟨k1, k2, k3, k4⟩ := highlightAll_spec v n (c n)
        { s0 with childSelected := put s0.childSelected n v } l0
      refine ⟨fun m' n' => ?_, k1.1, k1.2, fun m' => ?_⟩
      · show n' ∈ (highlightAll v n _ (c n)).by_ m' ↔ put _ n v n' = true ∧ _
        rw [k4]
        simp only [b0, h1, k2, put]
        by_cases hn : n' = n
        · subst hn
          by_cases hm : m' ∈ c n'
          · simp [hm]
          · simp [hm]
        · simp [hn, sel0]
      · show (highlightAll v n _ (c n)).childSelected m' = put _ n v m'
        rw [k3, k2]
        show put s0.childSelected n v m' = put s0.selected n v m'
        rw [ch0, sel0]
        by_cases hm : m' = n <;> simp [put, hm, h4]
    · generalize hs0 : (if v = true then setHighlighted s n false n else s) = s0
      have l0 : Lit s0 := by
        subst hs0; split
        · exact setHighlighted_lit ⟨h2, h3⟩ ..
        · exact ⟨h2, h3⟩
      have sel0 : s0.selected = s.selected := by subst hs0; split <;> rfl
      obtain ⟨-, k2, -, -⟩ := highlightAll_spec v n (c n)
        { s0 with childSelected := put s0.childSelected n v } l0
      show put _ n v = _
      rw [k2]
      show put s0.selected n v = _
      rw [sel0]

theorem deselectAll_consistent {b : Board} {ws : List Wire} {c : Entity → List Entity}
    (hc : ∀ n, chain b ws n = some (c n)) (l : List Entity) {s : Looks} (hs : Consistent c s) :
    ∃ s', deselectAll b ws s l = some s' ∧ Consistent c s'
      ∧ ∀ m, s'.selected m = if m ∈ l then false else s.selected m := by
  induction l generalizing s with
  | nil => exact ⟨s, rfl, hs, by simp⟩
  | cons n l ih =>
    obtain ⟨s1, h1, h2, h3⟩ := setSelected_consistent hc hs n false
    obtain ⟨s2, k1, k2, k3⟩ := ih h2
    refine ⟨s2, by simp [deselectAll, h1, k1], k2, fun m => ?_⟩
    rw [k3, h3]
    by_cases hm : m ∈ l
    · simp [hm]
    · by_cases hn : m = n <;> simp [hm, hn, put]

/-- The loop after a click, when the node is selected. -/
theorem propagate_consistent {c : Entity → List Entity} {s : Looks} (n : Entity) (hn : s.selected n = true)
    (h1 : ∀ m n, n ∈ s.by_ m ↔ s.selected n = true ∧ m ∈ c n) (hl : Lit s)
    (h4 : ∀ m, m ≠ n → s.childSelected m = s.selected m) :
    Consistent c (highlightAll true n { s with childSelected := put s.childSelected n true } (c n)) := by
  obtain ⟨k1, k2, k3, k4⟩ := highlightAll_spec true n (c n) { s with childSelected := put s.childSelected n true } hl
  refine ⟨fun m' n' => ?_, k1.1, k1.2, fun m' => ?_⟩
  · rw [k4, k2]
    show _ ↔ s.selected n' = true ∧ _
    split
    · rename_i h; obtain ⟨h, rfl⟩ := h; simp [hn, h]
    · exact h1 m' n'
  · rw [k3, k2]
    show put s.childSelected n true m' = s.selected m'
    by_cases hm : m' = n
    · subst hm; simp [put, hn]
    · simp [put, hm, h4 m' hm]

theorem release_consistent {b : Board} {ws : List Wire} {c : Entity → List Entity}
    (hc : ∀ n, chain b ws n = some (c n)) {s : Looks} (hs : Consistent c s) (hb : ∀ m, s.selected m = true → m ∈ b.nodes)
    (n : Entity) (control : Bool) :
    ∃ s', release b ws s n control = some s' ∧ Consistent c s'
      ∧ ∀ m, s'.selected m = if m = n then (!control || !s.selected n) else (control && s.selected m) := by
  cases control
  · obtain ⟨s1, h1, h2, h3⟩ := deselectAll_consistent hc (b.nodes.filter (· ≠ n)) hs
    -- the children were unselected too: only their flag is behind
    have hd : ∀ m, m ≠ n → s1.selected m = false := by
      intro m hm
      rw [h3]
      split
      · rfl
      · rename_i h
        by_contra hsel
        exact h (by simpa [hm] using hb m (by simpa using hsel))
    by_cases hn : s1.selected n = true
    · have e2 : setSelected b ws { s1 with childSelected := fun _ => false } n true
          = some { s1 with childSelected := fun _ => false } := by
        rw [setSelected, if_pos hn]
      refine ⟨_, ?_, propagate_consistent (s := { s1 with childSelected := fun _ => false }) n hn h2.1 ⟨h2.2.1, h2.2.2.1⟩ ?_, ?_⟩
      · simp only [release, h1, Bool.false_eq_true, if_false, Option.bind_eq_bind, Option.bind_some, e2, hn, if_true, hc]
        rfl
      · intro m hm; exact (hd m hm).symm
      · intro m
        obtain ⟨-, k2, -, -⟩ := highlightAll_spec true n (c n)
          { s1 with childSelected := put (fun _ => false) n true } ⟨h2.2.1, h2.2.2.1⟩
        rw [k2]
        by_cases hm : m = n
        · subst hm; simpa using hn
        · simpa [hm] using hd m hm
    · -- nothing is selected: the children are as they were
      have hn : s1.selected n = false := by simpa using hn
      have e1 : ({ s1 with childSelected := fun _ => false } : Looks) = s1 := by
        have : s1.childSelected = fun _ => false := by
          funext m
          rw [h2.2.2.2 m]
          by_cases hm : m = n
          · rw [hm]; exact hn
          · exact hd m hm
        rw [← this]
      obtain ⟨s2, k1, k2, k3⟩ := setSelected_consistent hc h2 n true
      have hn2 : s2.selected n = true := by rw [k3]; simp [put]
      refine ⟨_, ?_, propagate_consistent n hn2 k2.1 ⟨k2.2.1, k2.2.2.1⟩ (fun m _ => k2.2.2.2 m), ?_⟩
      · simp only [release, h1, Bool.false_eq_true, if_false, Option.bind_eq_bind, Option.bind_some, e1, k1, hn2, if_true, hc]
        rfl
      · intro m
        obtain ⟨-, j2, -, -⟩ := highlightAll_spec true n (c n)
          { s2 with childSelected := put s2.childSelected n true } ⟨k2.2.1, k2.2.2.1⟩
        rw [j2]
        show s2.selected m = _
        rw [k3]
        by_cases hm : m = n
        · simp [put, hm]
        · simpa [put, hm] using hd m hm
  · obtain ⟨s1, h1, h2, h3⟩ := setSelected_consistent hc hs n (!s.selected n)
    by_cases hn : s1.selected n = true
    · refine ⟨_, ?_, propagate_consistent n hn h2.1 ⟨h2.2.1, h2.2.2.1⟩ (fun m _ => h2.2.2.2 m), ?_⟩
      · simp only [release, h1, if_true, Option.bind_eq_bind, Option.bind_some, hn, hc]
        rfl
      · intro m
        obtain ⟨-, j2, -, -⟩ := highlightAll_spec true n (c n)
          { s1 with childSelected := put s1.childSelected n true } ⟨h2.2.1, h2.2.2.1⟩
        rw [j2]
        show s1.selected m = _
        rw [h3]
        by_cases hm : m = n <;> simp [put, hm]
    · refine ⟨s1, ?_, h2, ?_⟩
      · simp only [release, h1, if_true, Option.bind_eq_bind, Option.bind_some, hn]
        rfl
      · intro m
        rw [h3]
        by_cases hm : m = n <;> simp [put, hm]

theorem runEvents_consistent {b : Board} {ws : List Wire} {c : Entity → List Entity}
    (hc : ∀ n, chain b ws n = some (c n)) (es : List Event) (he : ∀ e ∈ es, e.On b) {s : Looks} (hs : Consistent c s)
    (hb : ∀ m, s.selected m = true → m ∈ b.nodes) :
    ∃ s', runEvents b ws s es = some s' ∧ Consistent c s'
      ∧ ∀ m, s'.selected m = true ↔ selection (fun m => s.selected m = true) es m := by
  induction es generalizing s with
  | nil => exact ⟨s, rfl, hs, fun m => Iff.rfl⟩
  | cons e es ih =>
    have step : ∃ s1, e.run b ws s = some s1 ∧ Consistent c s1 ∧ (∀ m, s1.selected m = true → m ∈ b.nodes)
        ∧ ∀ m, s1.selected m = true ↔ e.selects (fun m => s.selected m = true) m := by
      have hon := he e (List.mem_cons_self ..)
      cases e with
      | select n v =>
        obtain ⟨s1, h1, h2, h3⟩ := setSelected_consistent hc hs n v
        refine ⟨s1, h1, h2, fun m hm => ?_, fun m => ?_⟩
        · by_cases hmn : m = n
          · subst hmn; exact mem_nodes.mpr hon
          · rw [h3] at hm; simp [put, hmn] at hm; exact hb m hm
        · rw [h3]
          by_cases hmn : m = n <;> simp [put, hmn, Event.selects]
      | click n control =>
        obtain ⟨s1, h1, h2, h3⟩ := release_consistent hc hs hb n control
        refine ⟨s1, h1, h2, fun m hm => ?_, fun m => ?_⟩
        · by_cases hmn : m = n
          · subst hmn; exact mem_nodes.mpr hon
          · rw [h3] at hm; simp [hmn] at hm; exact hb m hm.2
        · rw [h3]
          by_cases hmn : m = n <;> cases control <;> simp [hmn, Event.selects]
    obtain ⟨s1, h1, h2, h3, h4⟩ := step
    obtain ⟨s2, k1, k2, k3⟩ := ih (fun e he' => he e (List.mem_cons_of_mem _ he')) h2 h3
    refine ⟨s2, by simp [runEvents, h1, k1], k2, fun m => ?_⟩
    rw [k3]
    have : (fun m => s1.selected m = true) = e.selects (fun m => s.selected m = true) := by
      funext m; exact propext (h4 m)
    rw [this]; rfl

/-- **C122.** Whatever is selected and unselected in a processing view, in whatever order and however often, by clicks with or
without the control key, by the rubber band or from another view: no search goes on forever; the nodes that are selected are
those the last events leave selected; a node is highlighted exactly when it comes from a selected one, directly or not, or a
selected one comes from it; the ports and texts of a node look as it does; and a wire is highlighted exactly when each of its
two ends is selected or highlighted. -/
theorem C122_highlighted (b : Board) (hb : Meant b) (es : List Event) (he : ∀ e ∈ es, e.On b) :
    ∃ ws s, populate b = .ok ws ∧ runEvents b ws .fresh es = some s
      ∧ (∀ m, s.selected m = true ↔ selection (fun _ => False) es m)
      ∧ (∀ m, s.lit m = true ↔ ∃ n, s.selected n = true ∧ Related b n m)
      ∧ (∀ m, s.childLit m = s.lit m ∧ s.childSelected m = s.selected m)
      ∧ ∀ w ∈ ws, wireLit s w = true ↔
          (s.selected w.first.node = true ∨ s.lit w.first.node = true) ∧ (s.selected w.last.node = true ∨ s.lit w.last.node = true) := by
  obtain ⟨ws, h1, h2⟩ := C121_chain b hb
  choose c hc hr using h2
  obtain ⟨s, k1, k2, k3⟩ := runEvents_consistent hc es he (consistent_fresh c) (by simp [Looks.fresh])
  obtain ⟨j1, j2, j3, j4⟩ := k2
  refine ⟨ws, s, h1, k1, fun m => ?_, fun m => ?_, fun m => ⟨j3 m, j4 m⟩, fun w _ => ?_⟩
  · rw [k3]
    have : (fun m => Looks.fresh.selected m = true) = fun _ => False := by funext m; simp [Looks.fresh]
    rw [this]
  · rw [j2]
    constructor
    · intro h
      obtain ⟨n, hn⟩ := List.exists_mem_of_ne_nil _ h
      obtain ⟨h, h'⟩ := (j1 m n).mp hn
      exact ⟨n, h, (hr n m).mp h'⟩
    · rintro ⟨n, h, h'⟩
      exact List.ne_nil_of_mem ((j1 m n).mpr ⟨h, (hr n m).mpr h'⟩)
  · simp only [wireLit, j3, j4, Bool.and_eq_true, Bool.or_eq_true]
    tauto

/-- Clicking the line, then adding the interval with the control key, then clicking the line again with it: only the interval is
left selected, and the policy 2 is highlighted. -/
example : ∃ ws s, populate tiny = .ok ws
    ∧ runEvents tiny ws .fresh [.click (.meshline 0) false, .click (.interval 0) true, .click (.meshline 0) true] = some s
    ∧ s.selected (.interval 0) = true ∧ ¬ s.selected (.meshline 0) = true ∧ s.lit (.policy 2) = true := by
  obtain ⟨ws, s, h1, h2, h3, h4, -⟩ := C122_highlighted tiny tiny_meant
    [.click (.meshline 0) false, .click (.interval 0) true, .click (.meshline 0) true]
    (by intro e he; simp at he; rcases he with rfl | rfl | rfl <;> simp [Event.On, InScene, OnBoard, tiny])
  have hi : s.selected (.interval 0) = true := by rw [h3]; simp [selection, Event.selects]
  refine ⟨ws, s, h1, h2, hi, ?_, ?_⟩
  · rw [h3]; simp [selection, Event.selects]
  · rw [h4]
    exact ⟨.interval 0, hi, Or.inl (.single ⟨by simp [OnBoard, tiny], by simp [OnBoard, tiny], .before (by simp [tiny])⟩)⟩

end Verif.Graph
