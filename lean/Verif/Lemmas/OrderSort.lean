import Verif.Model.EdgeInPolygon

/-!
# A sort that meets the contract of `std::ranges::sort`
-/

namespace Verif.Board

/-- Insertion before the first element not less. -/
def insertBy {α : Type} (lt : α → α → Bool) (a : α) : List α → List α
  | [] => [a]
  | b :: l => if lt b a then b :: insertBy lt a l else a :: b :: l

theorem insertBy_perm {α : Type} (lt : α → α → Bool) (a : α) (l : List α) : (insertBy lt a l).Perm (a :: l) := by
  induction l with
  | nil => exact List.Perm.refl _
  | cons b l ih =>
    rw [insertBy]
    split_ifs
    · exact (ih.cons b).trans (List.Perm.swap _ _ _)
    · exact List.Perm.refl _

theorem weak_trans {α : Type} {lt : α → α → Bool} {L : List α} (h : WeakOrderOn lt L) {a b c : α} (ha : a ∈ L) (hb : b ∈ L)
    (hc : c ∈ L) (h1 : lt b a = false) (h2 : lt c b = false) : lt c a = false := by
  obtain ⟨-, ht, hi⟩ := h
  by_contra hn
  rw [Bool.not_eq_false] at hn
  have hab : lt a b = false := by
    by_contra h'
    rw [Bool.not_eq_false] at h'
    rw [ht c hc a ha b hb hn h'] at h2
    exact Bool.noConfusion h2
  have hbc : lt b c = false := by
    by_contra h'
    rw [Bool.not_eq_false] at h'
    rw [ht b hb c hc a ha h' hn] at h1
    exact Bool.noConfusion h1
  rw [hi c hc b hb a ha h2 hbc h1 hab] at hn
  exact Bool.noConfusion hn

theorem insertBy_sorted {α : Type} {lt : α → α → Bool} {L : List α} (h : WeakOrderOn lt L) (a : α) (ha : a ∈ L) (l : List α)
    (hl : ∀ b ∈ l, b ∈ L) (hs : l.Pairwise fun a b => lt b a = false) :
    (insertBy lt a l).Pairwise fun a b => lt b a = false := by
  induction l with
  | nil => simp [insertBy]
  | cons b l ih =>
    obtain ⟨h1, h2⟩ := List.pairwise_cons.1 hs
    have hb : b ∈ L := hl b (by simp)
    rw [insertBy]
    split_ifs with hlt
    · refine List.pairwise_cons.2 ⟨fun c hc => ?_, ih (fun c hc => hl c (by simp [hc])) h2⟩
      rcases List.mem_cons.1 ((insertBy_perm lt a l).mem_iff.1 hc) with rfl | hc
      · by_contra hn
        rw [Bool.not_eq_false] at hn
        have := h.1 b hb
        rw [h.2.1 b hb c ha b hb hlt hn] at this
        exact Bool.noConfusion this
      · exact h1 c hc
    · rw [Bool.not_eq_true] at hlt
      refine List.pairwise_cons.2 ⟨fun c hc => ?_, hs⟩
      rcases List.mem_cons.1 hc with rfl | hc
      · exact hlt
      · exact weak_trans h ha hb (hl c (by simp [hc])) hlt (h1 c hc)

/-- Insertion sort meets the contract. -/
def OrderSorter.insertion (α : Type) : OrderSorter α where
  sort lt l := l.foldr (insertBy lt) []
  perm lt l := by
    induction l with
    | nil => exact List.Perm.refl _
    | cons a l ih => exact (insertBy_perm lt a _).trans (ih.cons a)
  sorted lt l h := by
    have : ∀ m : List α, (∀ a ∈ m, a ∈ l) → (∀ b ∈ m.foldr (insertBy lt) [], b ∈ l) ∧
        (m.foldr (insertBy lt) []).Pairwise fun a b => lt b a = false := by
      intro m
      induction m with
      | nil => simp
      | cons a m ih =>
        intro hm
        obtain ⟨i1, i2⟩ := ih fun b hb => hm b (by simp [hb])
        refine ⟨fun b hb => ?_, insertBy_sorted h a (hm a (by simp)) _ i1 i2⟩
        rcases List.mem_cons.1 ((insertBy_perm lt a _).mem_iff.1 hb) with rfl | hb
        · exact hm b (by simp)
        · exact i1 b hb
    exact (this l fun _ h => h).2

end Verif.Board
