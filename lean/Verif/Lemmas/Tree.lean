import Verif.Model.Tree

/-! Helper lemmas about the timepoint tree. -/

namespace Verif.TreeNode

mutual
theorem chain_isSome (t : TreeNode) (x : Addr) : (chain t x).isSome ↔ x ∈ clusterSelf t := by
  cases t with
  | mk a cs =>
    simp only [chain, clusterSelf, List.mem_cons]
    have := chainList_isSome cs x
    split <;> simp_all
theorem chainList_isSome (ts : List TreeNode) (x : Addr) :
    (chainList ts x).isSome ↔ x ∈ clusterList ts := by
  cases ts with
  | nil => simp [chainList, clusterList]
  | cons c cs =>
    have h1 := chain_isSome c x
    have h2 := chainList_isSome cs x
    simp only [chainList, clusterList, List.mem_append]
    cases h : chain c x <;> simp_all
end

theorem chain_eq_none {t : TreeNode} {x : Addr} : chain t x = none ↔ x ∉ clusterSelf t := by
  rw [← chain_isSome]; simp

theorem chainList_eq_none {ts : List TreeNode} {x : Addr} : chainList ts x = none ↔ x ∉ clusterList ts := by
  rw [← chainList_isSome]; simp

theorem mem_of_chain {t : TreeNode} {x : Addr} {l} (h : chain t x = some l) : x ∈ clusterSelf t := by
  rw [← chain_isSome, h]; rfl

theorem chain_of_mem {t : TreeNode} {x : Addr} (h : x ∈ clusterSelf t) : ∃ l, chain t x = some l := by
  rw [← chain_isSome] at h; exact Option.isSome_iff_exists.mp h

mutual
theorem chain_head (t : TreeNode) (x : Addr) (l : List Addr) (h : chain t x = some l) :
    l.head? = some x := by
  cases t with
  | mk a cs =>
    simp only [chain] at h
    split at h
    · simp_all [← Option.some.inj h]
    · simp only [Option.map_eq_some_iff] at h
      obtain ⟨l', h1, rfl⟩ := h
      have := chainList_head cs x l' h1
      simp [this]
theorem chainList_head (ts : List TreeNode) (x : Addr) (l : List Addr) (h : chainList ts x = some l) :
    l.head? = some x := by
  cases ts with
  | nil => simp [chainList] at h
  | cons c cs =>
    simp only [chainList] at h
    split at h
    · rename_i l' h'
      have := chain_head c x l' h'
      simp_all
    · exact chainList_head cs x l h
end

theorem chain_cons {t : TreeNode} {x : Addr} {l : List Addr} (h : chain t x = some l) :
    ∃ r, l = x :: r := by
  have := chain_head t x l h
  cases l <;> simp_all

theorem chain_last {t : TreeNode} {x : Addr} {l : List Addr} (h : chain t x = some l) :
    l.getLast? = some t.addr := by
  cases t with
  | mk a cs =>
    simp only [chain] at h
    split at h
    · simp_all [← Option.some.inj h, addr]
    · simp only [Option.map_eq_some_iff] at h
      obtain ⟨l', h1, rfl⟩ := h
      simp [addr]

theorem chain_root (t : TreeNode) : chain t t.addr = some [t.addr] := by
  cases t; simp [chain, addr]

theorem addr_mem (t : TreeNode) : t.addr ∈ clusterSelf t := by
  cases t; simp [clusterSelf, addr]

mutual
theorem chain_subset (t : TreeNode) (x : Addr) (l : List Addr) (h : chain t x = some l) :
    ∀ y ∈ l, y ∈ clusterSelf t := by
  cases t with
  | mk a cs =>
    simp only [chain] at h
    split at h
    · simp_all [← Option.some.inj h, clusterSelf]
    · simp only [Option.map_eq_some_iff] at h
      obtain ⟨l', h1, rfl⟩ := h
      have := chainList_subset cs x l' h1
      intro y hy
      simp only [List.mem_append, List.mem_singleton] at hy
      simp only [clusterSelf, List.mem_cons]
      rcases hy with hy | hy
      · exact Or.inr (this y hy)
      · exact Or.inl hy
theorem chainList_subset (ts : List TreeNode) (x : Addr) (l : List Addr) (h : chainList ts x = some l) :
    ∀ y ∈ l, y ∈ clusterList ts := by
  cases ts with
  | nil => simp [chainList] at h
  | cons c cs =>
    simp only [chainList] at h
    intro y hy
    simp only [clusterList, List.mem_append]
    split at h
    · rename_i l' h'
      cases h
      exact Or.inl (chain_subset c x _ h' y hy)
    · exact Or.inr (chainList_subset cs x l h y hy)
end

mutual
/-- In a tree without duplicate addresses, the chain of an ancestor is a suffix of the chain. -/
theorem chain_suffix (t : TreeNode) (x : Addr) (l : List Addr) (hn : (clusterSelf t).Nodup)
    (h : chain t x = some l) : ∀ y ∈ l, ∃ p r, l = p ++ r ∧ chain t y = some r := by
  cases t with
  | mk a cs =>
    simp only [clusterSelf, List.nodup_cons] at hn
    simp only [chain] at h
    split at h
    · cases h
      intro y hy
      simp only [List.mem_singleton] at hy
      exact ⟨[], [a], by simp [chain, hy]⟩
    · simp only [Option.map_eq_some_iff] at h
      obtain ⟨l', h1, rfl⟩ := h
      intro y hy
      simp only [List.mem_append, List.mem_singleton] at hy
      rcases hy with hy | hy
      · obtain ⟨p, r, rfl, hr⟩ := chainList_suffix cs x l' hn.2 h1 y hy
        refine ⟨p, r ++ [a], by simp, ?_⟩
        have hya : y ≠ a := by
          rintro rfl
          exact hn.1 (chainList_subset cs x _ h1 y hy)
        simp [chain, hya, hr]
      · exact ⟨l', [a], by simp [chain, hy]⟩
theorem chainList_suffix (ts : List TreeNode) (x : Addr) (l : List Addr) (hn : (clusterList ts).Nodup)
    (h : chainList ts x = some l) : ∀ y ∈ l, ∃ p r, l = p ++ r ∧ chainList ts y = some r := by
  cases ts with
  | nil => simp [chainList] at h
  | cons c cs =>
    simp only [clusterList, List.nodup_append] at hn
    simp only [chainList] at h
    intro y hy
    split at h
    · rename_i l' h'
      cases h
      obtain ⟨p, r, rfl, hr⟩ := chain_suffix c x _ hn.1 h' y hy
      exact ⟨p, r, rfl, by simp [chainList, hr]⟩
    · rename_i h'
      obtain ⟨p, r, rfl, hr⟩ := chainList_suffix cs x l hn.2.1 h y hy
      refine ⟨p, r, rfl, ?_⟩
      have : chain c y = none := by
        rw [chain_eq_none]
        intro hc
        exact hn.2.2 y hc y (chainList_subset cs x _ h y hy) rfl
      simp [chainList, this, hr]
end

mutual
theorem chain_nodup (t : TreeNode) (x : Addr) (l : List Addr) (hn : (clusterSelf t).Nodup)
    (h : chain t x = some l) : l.Nodup := by
  cases t with
  | mk a cs =>
    simp only [clusterSelf, List.nodup_cons] at hn
    simp only [chain] at h
    split at h
    · cases h; simp
    · simp only [Option.map_eq_some_iff] at h
      obtain ⟨l', h1, rfl⟩ := h
      have := chainList_nodup cs x l' hn.2 h1
      simp only [List.nodup_append, this, true_and, List.nodup_cons, List.not_mem_nil,
        not_false_eq_true, List.nodup_nil, and_self, List.mem_singleton]
      rintro y hy b rfl rfl
      exact hn.1 (chainList_subset cs x _ h1 _ hy)
theorem chainList_nodup (ts : List TreeNode) (x : Addr) (l : List Addr) (hn : (clusterList ts).Nodup)
    (h : chainList ts x = some l) : l.Nodup := by
  cases ts with
  | nil => simp [chainList] at h
  | cons c cs =>
    simp only [clusterList, List.nodup_append] at hn
    simp only [chainList] at h
    split at h
    · rename_i l' h'
      cases h
      exact chain_nodup c x _ hn.1 h'
    · exact chainList_nodup cs x l hn.2.1 h
end

/-! ## add_child -/

@[simp] theorem addChild_addr (t : TreeNode) (x new : Addr) : (addChild t x new).addr = t.addr := by
  cases t; simp only [addChild]; split <;> rfl

@[simp] theorem clusterList_append (a b : List TreeNode) :
    clusterList (a ++ b) = clusterList a ++ clusterList b := by
  induction a with
  | nil => rfl
  | cons c cs ih => simp [clusterList, ih]

mutual
theorem mem_addChild (t : TreeNode) (x new y : Addr) :
    y ∈ clusterSelf (addChild t x new) ↔ y ∈ clusterSelf t ∨ (y = new ∧ x ∈ clusterSelf t) := by
  cases t with
  | mk a cs =>
    simp only [addChild]
    split
    · subst_vars
      simp [clusterSelf, clusterList, or_assoc]
    · have := mem_addChildList cs x new y
      simp_all [clusterSelf, or_assoc, eq_comm]
theorem mem_addChildList (ts : List TreeNode) (x new y : Addr) :
    y ∈ clusterList (addChildList ts x new) ↔ y ∈ clusterList ts ∨ (y = new ∧ x ∈ clusterList ts) := by
  cases ts with
  | nil => simp [addChildList, clusterList]
  | cons c cs =>
    have h1 := mem_addChild c x new y
    have h2 := mem_addChildList cs x new y
    simp only [addChildList, clusterList, List.mem_append, h1, h2]
    constructor
    · rintro ((h | ⟨h, h'⟩) | (h | ⟨h, h'⟩)) <;> simp_all
    · rintro ((h | h) | ⟨h, (h' | h')⟩) <;> simp_all
end

mutual
theorem addChild_of_not_mem (t : TreeNode) (x new : Addr) (h : x ∉ clusterSelf t) :
    addChild t x new = t := by
  cases t with
  | mk a cs =>
    simp only [clusterSelf, List.mem_cons, not_or] at h
    have := addChildList_of_not_mem cs x new h.2
    simp [addChild, this, Ne.symm h.1]
theorem addChildList_of_not_mem (ts : List TreeNode) (x new : Addr) (h : x ∉ clusterList ts) :
    addChildList ts x new = ts := by
  cases ts with
  | nil => rfl
  | cons c cs =>
    simp only [clusterList, List.mem_append, not_or] at h
    simp [addChildList, addChild_of_not_mem c x new h.1, addChildList_of_not_mem cs x new h.2]
end

mutual
theorem nodup_addChild (t : TreeNode) (x new : Addr) (hn : (clusterSelf t).Nodup)
    (hnew : new ∉ clusterSelf t) : (clusterSelf (addChild t x new)).Nodup := by
  cases t with
  | mk a cs =>
    simp only [clusterSelf, List.nodup_cons, List.mem_cons, not_or] at hn hnew
    simp only [addChild]
    split
    · simp only [clusterSelf, clusterList_append, clusterList, List.append_nil, List.nodup_cons,
        List.mem_append, List.mem_singleton, not_or, List.nodup_append]
      refine ⟨⟨hn.1, Ne.symm hnew.1⟩, hn.2, by simp, ?_⟩
      rintro y hy b rfl rfl
      exact hnew.2 hy
    · have h1 := nodup_addChildList cs x new hn.2 hnew.2
      simp only [clusterSelf, List.nodup_cons, h1, and_true, mem_addChildList]
      rintro (h | ⟨h, _⟩)
      · exact hn.1 h
      · exact hnew.1 h.symm
theorem nodup_addChildList (ts : List TreeNode) (x new : Addr) (hn : (clusterList ts).Nodup)
    (hnew : new ∉ clusterList ts) : (clusterList (addChildList ts x new)).Nodup := by
  cases ts with
  | nil => simp [addChildList, clusterList]
  | cons c cs =>
    simp only [clusterList, List.nodup_append, List.mem_append, not_or] at hn hnew
    have h1 := nodup_addChild c x new hn.1 hnew.1
    have h2 := nodup_addChildList cs x new hn.2.1 hnew.2
    simp only [addChildList, clusterList, List.nodup_append, h1, h2, true_and]
    intro y hy b hb hyb
    subst hyb
    rw [mem_addChild] at hy
    rw [mem_addChildList] at hb
    rcases hy with hy | ⟨rfl, hy⟩ <;> rcases hb with hb | ⟨hb', hb⟩
    · exact hn.2.2 _ hy _ hb rfl
    · subst hb'; exact hnew.1 hy
    · exact hnew.2 hb
    · exact hn.2.2 _ hy _ hb rfl
end

theorem chainList_append (a b : List TreeNode) (x : Addr) :
    chainList (a ++ b) x = (chainList a x).or (chainList b x) := by
  induction a with
  | nil => simp [chainList]
  | cons c cs ih =>
    simp only [List.cons_append, chainList]
    split <;> simp_all

mutual
theorem chain_addChild_other (t : TreeNode) (x new y : Addr) (hy : y ≠ new) :
    chain (addChild t x new) y = chain t y := by
  cases t with
  | mk a cs =>
    simp only [addChild]
    split
    · simp only [chain, chainList_append]
      have : chainList [mk new []] y = none := by simp [chainList, chain, hy]
      simp [this]
    · simp [chain, chainList_addChild_other cs x new y hy]
theorem chainList_addChild_other (ts : List TreeNode) (x new y : Addr) (hy : y ≠ new) :
    chainList (addChildList ts x new) y = chainList ts y := by
  cases ts with
  | nil => rfl
  | cons c cs =>
    simp [addChildList, chainList, chain_addChild_other c x new y hy,
      chainList_addChild_other cs x new y hy]
end

mutual
theorem chain_addChild_new (t : TreeNode) (x new : Addr) (l : List Addr) (hn : (clusterSelf t).Nodup)
    (hnew : new ∉ clusterSelf t) (h : chain t x = some l) :
    chain (addChild t x new) new = some (new :: l) := by
  cases t with
  | mk a cs =>
    simp only [clusterSelf, List.nodup_cons, List.mem_cons, not_or] at hn hnew
    simp only [chain] at h
    simp only [addChild]
    split
    · subst_vars
      simp only [if_true, Option.some.injEq] at h
      subst h
      have : chainList cs new = none := chainList_eq_none.mpr hnew.2
      simp [chain, chainList_append, this, chainList, hnew.1]
    · rename_i hax
      rw [if_neg (Ne.symm hax)] at h
      simp only [Option.map_eq_some_iff] at h
      obtain ⟨l', h1, rfl⟩ := h
      have := chainList_addChild_new cs x new l' hn.2 hnew.2 h1
      simp [chain, hnew.1, this]
theorem chainList_addChild_new (ts : List TreeNode) (x new : Addr) (l : List Addr)
    (hn : (clusterList ts).Nodup) (hnew : new ∉ clusterList ts) (h : chainList ts x = some l) :
    chainList (addChildList ts x new) new = some (new :: l) := by
  cases ts with
  | nil => simp [chainList] at h
  | cons c cs =>
    simp only [clusterList, List.nodup_append, List.mem_append, not_or] at hn hnew
    simp only [chainList] at h
    simp only [addChildList, chainList]
    split at h
    · rename_i l' h'
      cases h
      simp [chain_addChild_new c x new _ hn.1 hnew.1 h']
    · rename_i h'
      have hxc : x ∉ clusterSelf c := chain_eq_none.mp h'
      rw [addChild_of_not_mem c x new hxc, chain_eq_none.mpr hnew.1]
      exact chainList_addChild_new cs x new l hn.2.1 hnew.2 h
end

/-! ## erase_from_descendants -/

@[simp] theorem erase_addr (dead : List Addr) (t : TreeNode) : (eraseFromDescendants dead t).addr = t.addr := by
  cases t; simp [eraseFromDescendants, addr]

mutual
theorem erase_sub (dead : List Addr) (t : TreeNode) :
    (clusterSelf (eraseFromDescendants dead t)).Sublist (clusterSelf t) := by
  cases t with
  | mk a cs => simpa [eraseFromDescendants, clusterSelf] using eraseList_sub dead cs
theorem eraseList_sub (dead : List Addr) (ts : List TreeNode) :
    (clusterList (eraseList dead ts)).Sublist (clusterList ts) := by
  cases ts with
  | nil => simp [eraseList]
  | cons c cs =>
    simp only [eraseList]
    split
    · simp only [clusterList]
      exact (eraseList_sub dead cs).trans (List.sublist_append_right _ _)
    · simp only [clusterList]
      exact (erase_sub dead c).append (eraseList_sub dead cs)
end

theorem erase_nodup (dead : List Addr) (t : TreeNode) (hn : (clusterSelf t).Nodup) :
    (clusterSelf (eraseFromDescendants dead t)).Nodup := (erase_sub dead t).nodup hn

/-- Is every node of a chain, except its last (the root), outside `dead`? -/
def Safe (dead : List Addr) (l : List Addr) : Prop := ∀ y ∈ l.dropLast, y ∉ dead

mutual
theorem chain_erase_self (dead : List Addr) (t : TreeNode) (x : Addr) (l : List Addr)
    (h : chain t x = some l) (hn : (clusterSelf t).Nodup) (hs : ∀ y ∈ l.dropLast, y ∉ dead) :
    chain (eraseFromDescendants dead t) x = some l := by
  cases t with
  | mk a cs =>
    simp only [clusterSelf, List.nodup_cons] at hn
    simp only [chain] at h
    simp only [eraseFromDescendants, chain]
    split at h
    · simp_all
    · rename_i hxa
      simp only [Option.map_eq_some_iff] at h
      obtain ⟨l', h1, rfl⟩ := h
      simp only [List.dropLast_concat] at hs
      simp [hxa, chainList_erase_self dead cs x l' h1 hn.2 hs]
theorem chainList_erase_self (dead : List Addr) (ts : List TreeNode) (x : Addr) (l : List Addr)
    (h : chainList ts x = some l) (hn : (clusterList ts).Nodup) (hs : ∀ y ∈ l, y ∉ dead) :
    chainList (eraseList dead ts) x = some l := by
  cases ts with
  | nil => simp [chainList] at h
  | cons c cs =>
    simp only [clusterList, List.nodup_append] at hn
    simp only [chainList] at h
    simp only [eraseList]
    split at h
    · rename_i l' h'
      cases h
      have hlast := chain_last h'
      have hc : c.addr ∈ l := List.mem_of_getLast? hlast
      have hcd : dead.contains c.addr = false := by simpa using hs _ hc
      simp only [hcd, Bool.false_eq_true, if_false, chainList]
      rw [chain_erase_self dead c x l h' hn.1 (fun y hy => hs y (List.dropLast_subset _ hy))]
    · rename_i h'
      have hr := chainList_erase_self dead cs x l h hn.2.1 hs
      split
      · exact hr
      · simp only [chainList]
        have : chain (eraseFromDescendants dead c) x = none := by
          rw [chain_eq_none]
          intro hx
          exact chain_eq_none.mp h' ((erase_sub dead c).subset hx)
        rw [this]; exact hr
end

mutual
theorem erase_mem_safe (dead : List Addr) (t : TreeNode) (x : Addr) (hn : (clusterSelf t).Nodup)
    (h : x ∈ clusterSelf (eraseFromDescendants dead t)) :
    ∃ l, chain t x = some l ∧ ∀ y ∈ l.dropLast, y ∉ dead := by
  cases t with
  | mk a cs =>
    simp only [clusterSelf, List.nodup_cons] at hn
    simp only [eraseFromDescendants, clusterSelf, List.mem_cons] at h
    simp only [chain]
    by_cases hxa : x = a
    · exact ⟨[a], by simp [hxa]⟩
    · have h' := h.resolve_left hxa
      obtain ⟨l, h1, h2⟩ := eraseList_mem_safe dead cs x hn.2 h'
      exact ⟨l ++ [a], by simp [hxa, h1], by simpa using h2⟩
theorem eraseList_mem_safe (dead : List Addr) (ts : List TreeNode) (x : Addr)
    (hn : (clusterList ts).Nodup) (h : x ∈ clusterList (eraseList dead ts)) :
    ∃ l, chainList ts x = some l ∧ ∀ y ∈ l, y ∉ dead := by
  cases ts with
  | nil => simp [eraseList, clusterList] at h
  | cons c cs =>
    simp only [clusterList, List.nodup_append] at hn
    simp only [eraseList] at h
    have key : x ∈ clusterList (eraseList dead cs) → ∃ l, chainList (c :: cs) x = some l ∧ ∀ y ∈ l, y ∉ dead := by
      intro hx
      obtain ⟨l, h1, h2⟩ := eraseList_mem_safe dead cs x hn.2.1 hx
      refine ⟨l, ?_, h2⟩
      have : chain c x = none := by
        rw [chain_eq_none]
        intro hc
        exact hn.2.2 x hc x ((eraseList_sub dead cs).subset hx) rfl
      simp [chainList, this, h1]
    split at h
    · exact key h
    · rename_i hcd
      simp only [clusterList, List.mem_append] at h
      rcases h with h | h
      · obtain ⟨l, h1, h2⟩ := erase_mem_safe dead c x hn.1 h
        refine ⟨l, by simp [chainList, h1], ?_⟩
        intro y hy
        have hlast := chain_last h1
        have hne : l ≠ [] := by intro h0; simp [h0] at hlast
        rw [← List.dropLast_concat_getLast hne, List.mem_append, List.mem_singleton] at hy
        rcases hy with hy | hy
        · exact h2 y hy
        · rw [List.getLast?_eq_some_getLast hne] at hlast
          rw [hy, Option.some.inj hlast]
          simpa using hcd
      · exact key h
end

theorem erase_mem_iff (dead : List Addr) (t : TreeNode) (x : Addr) (hn : (clusterSelf t).Nodup) :
    x ∈ clusterSelf (eraseFromDescendants dead t) ↔
      ∃ l, chain t x = some l ∧ ∀ y ∈ l.dropLast, y ∉ dead := by
  constructor
  · exact erase_mem_safe dead t x hn
  · rintro ⟨l, h1, h2⟩
    exact mem_of_chain (chain_erase_self dead t x l h1 hn h2)

/-- The chain of a survivor is unchanged. -/
theorem chain_erase_of_mem (dead : List Addr) (t : TreeNode) (x : Addr) (hn : (clusterSelf t).Nodup)
    (h : x ∈ clusterSelf (eraseFromDescendants dead t)) :
    chain (eraseFromDescendants dead t) x = chain t x := by
  obtain ⟨l, h1, h2⟩ := erase_mem_safe dead t x hn h
  rw [h1]
  exact chain_erase_self dead t x l h1 hn h2

end Verif.TreeNode
