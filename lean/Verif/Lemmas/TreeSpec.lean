import Mathlib.Data.List.Chain
import Verif.Lemmas.Tree
import Verif.Spec.Tree

/-! The relations of `Verif.Spec.Tree` in terms of `chain`. -/

namespace Verif
open Spec TreeNode

theorem mem_clusterList {ts : List TreeNode} {x : Addr} :
    x ∈ clusterList ts ↔ ∃ c ∈ ts, x ∈ clusterSelf c := by
  induction ts with
  | nil => simp [clusterList]
  | cons c cs ih => simp [clusterList, ih]

theorem sub_cluster {s t : TreeNode} (h : Sub s t) : ∀ x ∈ clusterSelf s, x ∈ clusterSelf t := by
  induction h with
  | refl => exact fun _ h => h
  | @child c t hc _ ih =>
    intro x hx
    cases t with
    | mk a cs => exact List.mem_cons_of_mem _ (mem_clusterList.mpr ⟨c, hc, ih x hx⟩)

mutual
theorem isNode_of_mem (t : TreeNode) (x : Addr) (h : x ∈ clusterSelf t) : IsNode t x := by
  cases t with
  | mk a cs =>
    simp only [clusterSelf, List.mem_cons] at h
    rcases h with rfl | h
    · exact ⟨_, .refl _, rfl⟩
    · obtain ⟨c, hc, s, hs, hx⟩ := isNode_of_memList cs x h
      exact ⟨s, .child hc hs, hx⟩
theorem isNode_of_memList (ts : List TreeNode) (x : Addr) (h : x ∈ clusterList ts) :
    ∃ c ∈ ts, IsNode c x := by
  cases ts with
  | nil => simp [clusterList] at h
  | cons c cs =>
    simp only [clusterList, List.mem_append] at h
    rcases h with h | h
    · exact ⟨c, by simp, isNode_of_mem c x h⟩
    · obtain ⟨d, hd, hx⟩ := isNode_of_memList cs x h
      exact ⟨d, by simp [hd], hx⟩
end

theorem isNode_iff {t : TreeNode} {x : Addr} : IsNode t x ↔ x ∈ clusterSelf t := by
  constructor
  · rintro ⟨s, hs, rfl⟩
    exact sub_cluster hs _ (addr_mem s)
  · exact isNode_of_mem t x

theorem built_nodup {t : TreeNode} (h : Built t) : (clusterSelf t).Nodup := by
  induction h with
  | root => simp [clusterSelf, clusterList]
  | add _ _ hn ih => exact nodup_addChild _ _ _ ih (fun h => hn (isNode_iff.mpr h))
  | erase dead _ ih => exact erase_nodup dead _ ih

theorem chainList_mem {ts : List TreeNode} {x : Addr} {l} (h : chainList ts x = some l) :
    ∃ c ∈ ts, chain c x = some l := by
  induction ts with
  | nil => simp [chainList] at h
  | cons c cs ih =>
    simp only [chainList] at h
    split at h
    · cases h; exact ⟨c, by simp, by assumption⟩
    · obtain ⟨d, hd, hx⟩ := ih h
      exact ⟨d, by simp [hd], hx⟩

theorem clusterList_nodup_of_mem {ts : List TreeNode} (hn : (clusterList ts).Nodup) {c} (hc : c ∈ ts) :
    (clusterSelf c).Nodup := by
  induction ts with
  | nil => cases hc
  | cons d ds ih =>
    simp only [clusterList, List.nodup_append] at hn
    rcases List.mem_cons.mp hc with rfl | hc
    · exact hn.1
    · exact ih hn.2.1 hc

theorem sub_nodup {s t : TreeNode} (h : Sub s t) (hn : (clusterSelf t).Nodup) : (clusterSelf s).Nodup := by
  induction h with
  | refl => exact hn
  | @child c t hc _ ih =>
    cases t with
    | mk a cs =>
      simp only [clusterSelf, List.nodup_cons] at hn
      exact ih (clusterList_nodup_of_mem hn.2 hc)

theorem chainList_of_mem {ts : List TreeNode} {x : Addr} {l c} (hn : (clusterList ts).Nodup) (hc : c ∈ ts)
    (h : chain c x = some l) : chainList ts x = some l := by
  induction ts with
  | nil => cases hc
  | cons d ds ih =>
    simp only [clusterList, List.nodup_append] at hn
    rcases List.mem_cons.mp hc with rfl | hc
    · simp [chainList, h]
    · have : chain d x = none := chain_eq_none.mpr fun hh =>
        hn.2.2 x hh x (mem_clusterList.mpr ⟨c, hc, mem_of_chain h⟩) rfl
      simp [chainList, this, ih hn.2.1 hc]

theorem chain_of_child {a : Addr} {cs : List TreeNode} {c : TreeNode} (hn : (clusterSelf (.mk a cs)).Nodup)
    (hc : c ∈ cs) {x l} (h : chain c x = some l) : chain (.mk a cs) x = some (l ++ [a]) := by
  simp only [clusterSelf, List.nodup_cons] at hn
  have hx : x ≠ a := by
    rintro rfl; exact hn.1 (mem_clusterList.mpr ⟨c, hc, mem_of_chain h⟩)
  simp [chain, hx, chainList_of_mem hn.2 hc h]

/-- The chain of a node continues the chain inside a subtree. -/
theorem chain_sub {s t : TreeNode} (h : Sub s t) (hn : (clusterSelf t).Nodup) :
    ∃ r, chain t s.addr = some (s.addr :: r) ∧ ∀ x l, chain s x = some l → chain t x = some (l ++ r) := by
  induction h with
  | refl => exact ⟨[], chain_root _, by simp⟩
  | @child c t hc hs ih =>
    cases t with
    | mk a cs =>
      have hn' := hn
      simp only [clusterSelf, List.nodup_cons] at hn'
      obtain ⟨r, h1, h2⟩ := ih (clusterList_nodup_of_mem hn'.2 hc)
      refine ⟨r ++ [a], ?_, ?_⟩
      · rw [chain_of_child hn hc h1]; simp
      · intro x l hl
        rw [chain_of_child hn hc (h2 x l hl)]; simp

mutual
theorem childOf_of_chain (t : TreeNode) (x p : Addr) (r : List Addr) (h : chain t x = some (x :: p :: r)) :
    ChildOf t x p := by
  cases t with
  | mk a cs =>
    simp only [chain] at h
    split at h
    · simp at h
    · simp only [Option.map_eq_some_iff] at h
      obtain ⟨l, hl, he⟩ := h
      cases l with
      | nil =>
        simp at he
      | cons y l =>
        simp only [List.cons_append, List.cons.injEq] at he
        obtain ⟨rfl, he⟩ := he
        cases l with
        | nil =>
          simp only [List.nil_append, List.cons.injEq] at he
          obtain ⟨c, hc, hcl⟩ := chainList_mem hl
          have := chain_last hcl
          simp only [List.getLast?_singleton, Option.some.injEq] at this
          exact ⟨.mk a cs, .refl _, he.1, c, hc, this.symm⟩
        | cons q l =>
          simp only [List.cons_append, List.cons.injEq] at he
          obtain ⟨rfl, _⟩ := he
          obtain ⟨c, hc, s, hs, hrest⟩ := childOf_of_chainList cs y q l hl
          exact ⟨s, .child hc hs, hrest⟩
theorem childOf_of_chainList (ts : List TreeNode) (x p : Addr) (r : List Addr)
    (h : chainList ts x = some (x :: p :: r)) : ∃ c ∈ ts, ChildOf c x p := by
  cases ts with
  | nil => simp [chainList] at h
  | cons c cs =>
    simp only [chainList] at h
    split at h
    · cases h
      exact ⟨c, by simp, childOf_of_chain c x p r (by assumption)⟩
    · obtain ⟨d, hd, hx⟩ := childOf_of_chainList cs x p r h
      exact ⟨d, by simp [hd], hx⟩
end

theorem childOf_iff {t : TreeNode} (hn : (clusterSelf t).Nodup) {x p : Addr} :
    ChildOf t x p ↔ ∃ r, chain t x = some (x :: p :: r) := by
  constructor
  · rintro ⟨s, hs, rfl, c, hc, rfl⟩
    obtain ⟨r, _, h⟩ := chain_sub hs hn
    cases s with
    | mk a cs =>
      refine ⟨r, ?_⟩
      rw [h c.addr _ (chain_of_child (sub_nodup hs hn) hc (chain_root c))]
      simp [addr]
  · rintro ⟨r, h⟩
    exact childOf_of_chain t x p r h

theorem chain_tail {t : TreeNode} (hn : (clusterSelf t).Nodup) {x p : Addr} {r}
    (h : chain t x = some (x :: p :: r)) : chain t p = some (p :: r) := by
  obtain ⟨pre, suf, h1, h2⟩ := chain_suffix t x _ hn h p (by simp)
  have hd := chain_nodup t x _ hn h
  obtain ⟨r', rfl⟩ := chain_cons h2
  cases pre with
  | nil =>
    simp only [List.nil_append, List.cons.injEq] at h1
    simp [h1.1] at hd
  | cons y pre =>
    simp only [List.cons_append, List.cons.injEq] at h1
    cases pre with
    | nil => simp only [List.nil_append, List.cons.injEq] at h1; rw [h2, h1.2.2]
    | cons z pre =>
      simp only [List.cons_append, List.cons.injEq] at h1
      obtain ⟨rfl, rfl, rfl⟩ := h1
      simp at hd

theorem descends_of_chain {t : TreeNode} (hn : (clusterSelf t).Nodup) {y : Addr} (l : List Addr) :
    ∀ x, chain t x = some (x :: l) → y ∈ l → Descends t x y := by
  induction l with
  | nil => intro x _ h; cases h
  | cons p r ih =>
    intro x hx hy
    have hc := childOf_of_chain t x p r hx
    rcases List.mem_cons.mp hy with rfl | hy
    · exact .child hc
    · exact .step hc (ih p (chain_tail hn hx) hy)

theorem descends_iff {t : TreeNode} (hn : (clusterSelf t).Nodup) {x y : Addr} :
    Descends t x y ↔ ∃ l, chain t x = some (x :: l) ∧ y ∈ l := by
  constructor
  · intro h
    induction h with
    | child h =>
      obtain ⟨r, hr⟩ := (childOf_iff hn).mp h
      exact ⟨_, hr, by simp⟩
    | step h _ ih =>
      obtain ⟨r, hr⟩ := (childOf_iff hn).mp h
      obtain ⟨l, hl, hy⟩ := ih
      rw [chain_tail hn hr] at hl
      cases hl
      exact ⟨_, hr, by simp [hy]⟩
  · rintro ⟨l, hl, hy⟩
    exact descends_of_chain hn l x hl hy

theorem chain_isChain {t : TreeNode} (l : List Addr) (hn : (clusterSelf t).Nodup) :
    ∀ x, chain t x = some (x :: l) → List.IsChain (ChildOf t) (x :: l) := by
  induction l with
  | nil => intro x _; simp
  | cons p r ih =>
    intro x hx
    exact List.IsChain.cons_cons (childOf_of_chain t x p r hx) (ih p (chain_tail hn hx))

theorem same_subtree {ts : List TreeNode} (hn : (clusterList ts).Nodup) {c d : TreeNode} (hc : c ∈ ts)
    (hd : d ∈ ts) {x : Addr} (hxc : x ∈ clusterSelf c) (hxd : x ∈ clusterSelf d) : c = d := by
  induction ts with
  | nil => cases hc
  | cons e es ih =>
    simp only [clusterList, List.nodup_append] at hn
    rcases List.mem_cons.mp hc with rfl | hc' <;> rcases List.mem_cons.mp hd with rfl | hd'
    · rfl
    · exact absurd rfl (hn.2.2 x hxc x (mem_clusterList.mpr ⟨d, hd', hxd⟩))
    · exact absurd rfl (hn.2.2 x hxd x (mem_clusterList.mpr ⟨c, hc', hxc⟩))
    · exact ih hn.2.1 hc' hd'

theorem mem_sub_of_chain {s t : TreeNode} (h : Sub s t) (hn : (clusterSelf t).Nodup) {x : Addr} {l}
    (hl : chain t x = some l) (hs : s.addr ∈ l) : x ∈ clusterSelf s := by
  induction h generalizing l with
  | refl => exact mem_of_chain hl
  | @child c t hc hsub ih =>
    cases t with
    | mk a cs =>
      simp only [clusterSelf, List.nodup_cons] at hn
      have hsc : s.addr ∈ clusterSelf c := sub_cluster hsub _ (addr_mem s)
      have hsa : s.addr ≠ a := by
        intro hh; exact hn.1 (mem_clusterList.mpr ⟨c, hc, hh ▸ hsc⟩)
      simp only [chain] at hl
      split at hl
      · cases hl
        simp [hsa] at hs
      · simp only [Option.map_eq_some_iff] at hl
        obtain ⟨l', hl', rfl⟩ := hl
        simp only [List.mem_append, List.mem_singleton, hsa, or_false] at hs
        obtain ⟨d, hd, hdl⟩ := chainList_mem hl'
        have := same_subtree hn.2 hd hc (chain_subset d x _ hdl _ hs) hsc
        subst this
        exact ih (clusterList_nodup_of_mem hn.2 hd) hdl hs

theorem mem_sub_iff {s t : TreeNode} (h : Sub s t) (hn : (clusterSelf t).Nodup) {x : Addr} :
    x ∈ clusterList s.children ↔ Descends t x s.addr := by
  obtain ⟨r, h1, h2⟩ := chain_sub h hn
  have hs := sub_nodup h hn
  rw [descends_iff hn]
  cases s with
  | mk a cs =>
  simp only [clusterSelf, List.nodup_cons] at hs
  constructor
  · intro hx
    have hx' : x ∈ clusterSelf (.mk a cs) := List.mem_cons_of_mem _ hx
    have hne : x ≠ a := by rintro rfl; exact hs.1 hx
    obtain ⟨l, hl⟩ := chain_of_mem hx'
    have hlast := chain_last hl
    obtain ⟨l', rfl⟩ := chain_cons hl
    refine ⟨l' ++ r, h2 x _ hl, ?_⟩
    cases l' with
    | nil => simp [addr] at hlast; exact absurd hlast hne
    | cons b l' =>
      rw [List.getLast?_cons_cons] at hlast
      exact List.mem_append_left _ (List.mem_of_getLast? hlast)
  · rintro ⟨l, hl, ha⟩
    have hx : x ∈ clusterSelf (.mk a cs) := mem_sub_of_chain h hn hl (List.mem_cons_of_mem _ ha)
    simp only [clusterSelf, List.mem_cons] at hx
    rcases hx with rfl | hx
    · exact absurd ha (by simpa [addr] using (List.nodup_cons.mp (chain_nodup t x _ hn hl)).1)
    · exact hx

theorem sub_trans {a b c : TreeNode} (h1 : Sub a b) (h2 : Sub b c) : Sub a c := by
  induction h2 with
  | refl => exact h1
  | child hc _ ih => exact .child hc ih

mutual
theorem mem_leafsSelf (t : TreeNode) (x : Addr) :
    x ∈ leafsSelf t ↔ ∃ s, Sub s t ∧ s.addr = x ∧ s.children = [] := by
  cases t with
  | mk a cs =>
    cases cs with
    | nil =>
      simp only [leafsSelf, List.mem_singleton]
      constructor
      · rintro rfl; exact ⟨_, .refl _, rfl, rfl⟩
      · rintro ⟨s, hs, rfl, _⟩
        cases hs with
        | refl => rfl
        | child hc _ => simp [children] at hc
    | cons c cs =>
      rw [leafsSelf, List.mem_append, mem_leafsSelf c, mem_leafsList cs]
      constructor
      · rintro (⟨s, hs, h⟩ | ⟨d, hd, s, hs, h⟩)
        · exact ⟨s, .child (by simp [children]) hs, h⟩
        · exact ⟨s, .child (c := d) (by simp [children, hd]) hs, h⟩
      · rintro ⟨s, hs, h1, h2⟩
        cases hs with
        | refl => simp [children] at h2
        | @child d _ hc hs =>
          simp only [children, List.mem_cons] at hc
          rcases hc with rfl | hc
          · exact Or.inl ⟨s, hs, h1, h2⟩
          · exact Or.inr ⟨d, hc, s, hs, h1, h2⟩
theorem mem_leafsList (ts : List TreeNode) (x : Addr) :
    x ∈ leafsList ts ↔ ∃ c ∈ ts, ∃ s, Sub s c ∧ s.addr = x ∧ s.children = [] := by
  cases ts with
  | nil => simp [leafsList]
  | cons c cs =>
    rw [leafsList, List.mem_append, mem_leafsSelf c, mem_leafsList cs]
    simp
end

/-- Childless in the subtree is having no child in the tree. -/
theorem childless_iff {s t : TreeNode} (h : Sub s t) (hn : (clusterSelf t).Nodup) :
    s.children = [] ↔ ∀ y, ¬ ChildOf t y s.addr := by
  constructor
  · intro hs y hy
    have := (mem_sub_iff h hn).mpr (.child hy)
    rw [hs] at this
    simp [clusterList] at this
  · intro hy
    cases hc : s.children with
    | nil => rfl
    | cons c cs => exact absurd ⟨s, h, rfl, c, by simp [hc], rfl⟩ (hy c.addr)

end Verif
