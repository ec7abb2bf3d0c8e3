import Verif.Lemmas.Conflict

/-!
# Lemmas about the policies made for edges
-/

namespace Verif.Board
open Verif.Geom
open Verif.Mesh (Kind Facing Sorter tolerance)
open Spec

theorem addPair_ne_nil {a b : Nat} (hab : a ≠ b) {l : List (List Nat)} (h : ∀ c ∈ l, c ≠ []) :
    ∀ c ∈ addPair a b l, c ≠ [] := by
  rcases addPair_cases hab l with ⟨l1, d, l2, rfl, hd, e⟩ | ⟨-, e⟩
  · rw [e]
    intro c hc
    rcases List.mem_append.1 hc with hc | hc
    · exact h c (by simp [hc])
    · rcases List.mem_cons.1 hc with rfl | hc
      · exact List.ne_nil_of_mem ((mem_joined (x := a) hd).2 (by simp))
      · exact h c (by simp [hc])
  · rw [e]
    intro c hc
    rcases List.mem_append.1 hc with hc | hc
    · exact h c hc
    · rw [List.mem_singleton.1 hc]; simp

theorem pairsInner_ne_nil {R : Nat → Nat → Bool} {i : Nat} (rest : List Nat) :
    ∀ l : List (List Nat), (∀ c ∈ l, c ≠ []) → (∀ j ∈ rest, i ≠ j) → ∀ c ∈ pairsInner R i l rest, c ≠ [] := by
  induction rest with
  | nil => intro l h _; exact h
  | cons j rest ih =>
    intro l h hr
    unfold pairsInner
    refine ih _ ?_ fun k hk => hr k (by simp [hk])
    split_ifs
    · exact addPair_ne_nil (hr j (by simp)) h
    · exact h

theorem pairsAll_ne_nil {R : Nat → Nat → Bool} (edges : List Nat) :
    ∀ l : List (List Nat), (∀ c ∈ l, c ≠ []) → edges.Nodup → ∀ c ∈ pairsAll R l edges, c ≠ [] := by
  induction edges with
  | nil => intro l h _; exact h
  | cons i rest ih =>
    intro l h hnd
    unfold pairsAll
    obtain ⟨h1, h2⟩ := List.nodup_cons.1 hnd
    exact ih _ (pairsInner_ne_nil rest l h fun k hk => by rintro rfl; exact h1 hk) h2

theorem addPair_members {P : Nat → Prop} {a b : Nat} (hab : a ≠ b) (ha : P a) (hb : P b) {l : List (List Nat)}
    (h : ∀ c ∈ l, ∀ x ∈ c, P x) : ∀ c ∈ addPair a b l, ∀ x ∈ c, P x := by
  rcases addPair_cases hab l with ⟨l1, d, l2, rfl, hd, e⟩ | ⟨-, e⟩
  · rw [e]
    intro c hc
    rcases List.mem_append.1 hc with hc | hc
    · exact h c (by simp [hc])
    · rcases List.mem_cons.1 hc with rfl | hc
      · intro x hx
        rcases (mem_joined hd).1 hx with hx | rfl | rfl
        · exact h d (by simp) x hx
        · exact ha
        · exact hb
      · exact h c (by simp [hc])
  · rw [e]
    intro c hc
    rcases List.mem_append.1 hc with hc | hc
    · exact h c hc
    · rw [List.mem_singleton.1 hc]
      intro x hx
      simp only [List.mem_cons, List.not_mem_nil, or_false] at hx
      rcases hx with rfl | rfl <;> assumption

theorem pairsInner_members {P : Nat → Prop} {R : Nat → Nat → Bool} {i : Nat} (hi : P i) (rest : List Nat) :
    ∀ l : List (List Nat), (∀ c ∈ l, ∀ x ∈ c, P x) → (∀ j ∈ rest, i ≠ j ∧ P j) →
      ∀ c ∈ pairsInner R i l rest, ∀ x ∈ c, P x := by
  induction rest with
  | nil => intro l h _; exact h
  | cons j rest ih =>
    intro l h hr
    unfold pairsInner
    refine ih _ ?_ fun k hk => hr k (by simp [hk])
    split_ifs
    · exact addPair_members (hr j (by simp)).1 hi (hr j (by simp)).2 h
    · exact h

theorem pairsAll_members {P : Nat → Prop} {R : Nat → Nat → Bool} (edges : List Nat) :
    ∀ l : List (List Nat), (∀ c ∈ l, ∀ x ∈ c, P x) → edges.Nodup → (∀ j ∈ edges, P j) →
      ∀ c ∈ pairsAll R l edges, ∀ x ∈ c, P x := by
  induction edges with
  | nil => intro l h _ _; exact h
  | cons i rest ih =>
    intro l h hnd hr
    unfold pairsAll
    obtain ⟨h1, h2⟩ := List.nodup_cons.1 hnd
    exact ih _ (pairsInner_members (hr i (by simp)) rest l h fun k hk => ⟨by rintro rfl; exact h1 hk, hr k (by simp [hk])⟩)
      h2 fun k hk => hr k (by simp [hk])

theorem mapM_mem {α β : Type} (f : α → Option β) (l : List α) {bs : List β} (h : l.mapM f = some bs) {b : β} (hb : b ∈ bs) :
    ∃ a ∈ l, f a = some b := by
  induction l generalizing bs with
  | nil =>
    simp only [List.mapM_nil] at h
    obtain rfl := Option.some.inj h
    simp at hb
  | cons a l ih =>
    simp only [List.mapM_cons, Option.bind_eq_bind, Option.bind_eq_some_iff] at h
    obtain ⟨b', hb', bs', hbs, e⟩ := h
    obtain rfl := Option.some.inj e
    rcases List.mem_cons.1 hb with rfl | hb
    · exact ⟨a, by simp, hb'⟩
    · obtain ⟨c, hc, h'⟩ := ih hbs hb
      exact ⟨c, by simp [hc], h'⟩

theorem mapM_some {α β : Type} (f : α → Option β) (l : List α) (h : ∀ a ∈ l, ∃ b, f a = some b) :
    ∃ bs, l.mapM f = some bs ∧ ∀ a ∈ l, ∃ b ∈ bs, f a = some b := by
  induction l with
  | nil => exact ⟨[], rfl, by simp⟩
  | cons a rest ih =>
    obtain ⟨b, hb⟩ := h a (by simp)
    obtain ⟨bs, hbs, hall⟩ := ih fun x hx => h x (by simp [hx])
    refine ⟨b :: bs, by simp [List.mapM_cons, hb, hbs], ?_⟩
    intro x hx
    rcases List.mem_cons.1 hx with rfl | hx
    · exact ⟨b, by simp, hb⟩
    · obtain ⟨y, hy, e⟩ := hall x hx
      exact ⟨y, by simp [hy], e⟩

theorem solveColinear_defined {l : List BEdge} (h : l ≠ []) : ∃ r, solveColinear l = some r := by
  cases l with
  | nil => exact absurd rfl h
  | cons a rest => exact ⟨_, rfl⟩

/-- A conflict with an edge to mesh gives a policy that is accepted, at the coordinate of its first edge. -/
theorem solveColinear_accepted {front : BEdge} {rest : List BEdge} {coord : ℚ}
    (h : segCoord front.seg.p0 front.axis = some coord) (hm : ∃ e ∈ front :: rest, e.toMesh = true) :
    ∃ kind side, solveColinear (front :: rest) = some (some (kind, side, coord)) ∧ accepted kind side = true := by
  rw [solveColinear_eq h]
  obtain ⟨c1, c2⟩ := countFacing_spec (front :: rest) 0 0
  by_cases h0 : ∃ e ∈ front :: rest, Faces .none e
  · rw [if_pos (c1.2 h0)]; exact ⟨_, _, rfl, rfl⟩
  · rw [if_neg (mt c1.1 h0)]
    obtain ⟨d1, d2⟩ := c2 h0
    by_cases h1 : (countFacing (front :: rest) 0 0).2.1 ≠ 0 ∧ (countFacing (front :: rest) 0 0).2.2 ≠ 0
    · rw [if_pos h1]; exact ⟨_, _, rfl, rfl⟩
    rw [if_neg h1]
    by_cases h2 : (countFacing (front :: rest) 0 0).2.1 ≠ 0
    · rw [if_pos h2]; exact ⟨_, _, rfl, rfl⟩
    rw [if_neg h2]
    by_cases h3 : (countFacing (front :: rest) 0 0).2.2 ≠ 0
    · rw [if_pos h3]; exact ⟨_, _, rfl, rfl⟩
    exfalso
    obtain ⟨e, he, hem⟩ := hm
    cases hf : facing e.normal
    · exact h0 ⟨e, he, (normal_faces _ e).2 ⟨hem, hf⟩⟩
    · exact h2 (d1.2 (Or.inr ⟨e, he, (normal_faces _ e).2 ⟨hem, hf⟩⟩))
    · exact h3 (d2.2 (Or.inr ⟨e, he, (normal_faces _ e).2 ⟨hem, hf⟩⟩))

theorem castNormal_eq (n : Normal) : castNormal n = facing n := by cases n <;> rfl

end Verif.Board
