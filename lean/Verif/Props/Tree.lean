import Verif.Lemmas.TreeSpec

/-! # C11: the timepoint tree -/

namespace Verif.Props

open Verif Spec TreeNode

/-- A tree of six nodes: 0 has children 1 and 2, 1 has children 3 and 4, 4 has child 5. -/
def sampleTree : TreeNode :=
  (((((TreeNode.mk 0 []).addChild 0 1).addChild 0 2).addChild 1 3).addChild 1 4).addChild 4 5

theorem sampleTree_built : Built sampleTree := by
  have n : ∀ t x, x ∈ clusterSelf t → IsNode t x := fun t x h => isNode_iff.mpr h
  have n' : ∀ t x, x ∉ clusterSelf t → ¬ IsNode t x := fun t x h h' => h (isNode_iff.mp h')
  refine .add (.add (.add (.add (.add (.root 0) ?_ ?_) ?_ ?_) ?_ ?_) ?_ ?_) ?_ ?_
  all_goals first | exact n _ _ (by decide +kernel) | exact n' _ _ (by decide +kernel)

/-- C11. `ancestors` lists exactly the nodes a node descends from, from its parent up to the root, each the
child of the next; with `include_itself` the node comes first. -/
theorem C11_ancestors (t : TreeNode) (ht : Built t) (x : Addr) (hx : IsNode t x) :
    ∃ l, ancestors t x false = some l ∧ ancestors t x true = some (x :: l) ∧
      (∀ y, y ∈ l ↔ Descends t x y) ∧ (x :: l).Nodup ∧ List.IsChain (ChildOf t) (x :: l) ∧
      (x :: l).getLast? = some t.addr := by
  have hn := built_nodup ht
  obtain ⟨l, hl⟩ := chain_of_mem (isNode_iff.mp hx)
  obtain ⟨r, rfl⟩ := chain_cons hl
  refine ⟨r, by simp [ancestors, hl], by simp [ancestors, hl], ?_, chain_nodup t x _ hn hl,
    chain_isChain r hn x hl, chain_last hl⟩
  intro y
  rw [descends_iff hn]
  constructor
  · exact fun h => ⟨r, hl, h⟩
  · rintro ⟨l, h1, h2⟩
    rw [hl] at h1; cases h1; exact h2

/-- C11. `parent`, `is_root`, `root`, `is_descendant_of` and `is_ancestor_of` say what they say of the shape
of the tree. -/
theorem C11_queries (t : TreeNode) (ht : Built t) (x y : Addr) (hx : IsNode t x) (hy : IsNode t y) :
    (∀ p, parent t x = some (some p) ↔ ChildOf t x p) ∧ (parent t x = some none ↔ x = t.addr) ∧
    (isRoot t x = some true ↔ ∀ p, ¬ ChildOf t x p) ∧ root t x = some t.addr ∧
    (isDescendantOf t x y).isSome ∧ (isDescendantOf t x y = some true ↔ Descends t x y) ∧
    (isAncestorOf t y x = some true ↔ Descends t x y) := by
  have hn := built_nodup ht
  obtain ⟨l, hl⟩ := chain_of_mem (isNode_iff.mp hx)
  obtain ⟨r, rfl⟩ := chain_cons hl
  have hlast := chain_last hl
  have hdesc : isDescendantOf t x y = some true ↔ Descends t x y := by
    rw [descends_iff hn]
    simp only [isDescendantOf, hl, Option.map_some, List.tail_cons, Option.some.injEq, List.contains_eq_mem]
    constructor
    · exact fun h => ⟨r, rfl, of_decide_eq_true h⟩
    · rintro ⟨l, h1, h2⟩
      simp only [List.cons.injEq, true_and] at h1
      subst h1
      exact decide_eq_true h2
  have hpar : ∀ p, parent t x = some (some p) ↔ ChildOf t x p := by
    intro p
    rw [childOf_iff hn]
    simp only [parent, hl, Option.map_some, List.tail_cons, Option.some.injEq, List.cons.injEq, true_and]
    cases r with
    | nil => simp
    | cons q r => simp
  refine ⟨hpar, ?_, ?_, by simp [root, hl, hlast], by simp [isDescendantOf, hl], hdesc, hdesc⟩
  · simp only [parent, hl, Option.map_some, List.tail_cons, Option.some.injEq, List.head?_eq_none_iff]
    constructor
    · rintro rfl; simpa using hlast
    · rintro rfl
      rw [chain_root] at hl
      simp only [Option.some.injEq, List.cons.injEq, true_and] at hl
      exact hl.symm
  · have hp : parent t x = some r.head? := by simp only [parent, hl, Option.map_some, List.tail_cons]
    simp only [isRoot, hp, Option.map_some, Option.some.injEq, Option.isNone_iff_eq_none]
    constructor
    · intro h p hc
      rw [← hpar, hp, h] at hc
      cases hc
    · intro h
      cases hr : r.head? with
      | none => rfl
      | some p => exact absurd ((hpar p).mp (by rw [hp, hr])) (h p)

/-- C11. A node is in the cluster of another iff it descends from it; no node is listed twice; the leafs are
the childless nodes of the cluster. -/
theorem C11_cluster_and_leafs (t : TreeNode) (ht : Built t) (s : TreeNode) (hs : Sub s t) (x : Addr) :
    (x ∈ cluster s false ↔ Descends t x s.addr) ∧
    (x ∈ cluster s true ↔ x = s.addr ∨ Descends t x s.addr) ∧
    (cluster s true).Nodup ∧
    (x ∈ leafs s true ↔ x ∈ cluster s true ∧ ∀ y, ¬ ChildOf t y x) ∧
    (x ∈ leafs s false ↔ x ∈ cluster s false ∧ ∀ y, ¬ ChildOf t y x) := by
  have hn := built_nodup ht
  have hc := mem_sub_iff hs hn (x := x)
  have hmem : x ∈ cluster s true ↔ x = s.addr ∨ Descends t x s.addr := by
    rw [← hc]
    cases s with
    | mk a cs => simp [cluster, clusterSelf, addr, children]
  have hleaf : ∀ u, Sub u s → u.children = [] → ∀ y, ¬ ChildOf t y u.addr := fun u hu h =>
    (childless_iff (sub_trans hu hs) hn).mp h
  refine ⟨by simpa [cluster] using hc, hmem, by simpa [cluster] using sub_nodup hs hn, ?_, ?_⟩
  · have h1 : x ∈ leafs s true ↔ ∃ u, Sub u s ∧ u.addr = x ∧ u.children = [] := by
      rw [← mem_leafsSelf]
      cases s with
      | mk a cs =>
        cases cs with
        | nil => simp [leafs, leafsSelf, children, addr]
        | cons c cs => simp [leafs, leafsSelf, leafsList, children]
    rw [h1]
    constructor
    · rintro ⟨u, hu, rfl, h⟩
      exact ⟨by simpa [cluster] using sub_cluster hu _ (addr_mem u), hleaf u hu h⟩
    · rintro ⟨h2, h3⟩
      simp only [cluster, if_true] at h2
      obtain ⟨u, hu, rfl⟩ := isNode_iff.mpr h2
      exact ⟨u, hu, rfl, (childless_iff (sub_trans hu hs) hn).mpr h3⟩
  · have h1 : x ∈ leafs s false ↔ ∃ c ∈ s.children, ∃ u, Sub u c ∧ u.addr = x ∧ u.children = [] := by
      rw [← mem_leafsList]
      cases s with
      | mk a cs => cases cs <;> simp [leafs, leafsList, children]
    rw [h1]
    constructor
    · rintro ⟨c, hcs, u, hu, rfl, h⟩
      refine ⟨?_, hleaf u (.child hcs hu) h⟩
      simp only [cluster, Bool.false_eq_true, if_false]
      exact mem_clusterList.mpr ⟨c, hcs, sub_cluster hu _ (addr_mem u)⟩
    · rintro ⟨h2, h3⟩
      simp only [cluster, Bool.false_eq_true, if_false] at h2
      obtain ⟨c, hcs, h2⟩ := mem_clusterList.mp h2
      obtain ⟨u, hu, rfl⟩ := isNode_iff.mpr h2
      exact ⟨c, hcs, u, hu, rfl, (childless_iff (sub_trans (.child hcs hu) hs) hn).mpr h3⟩

/-- C11. `common_ancestor` returns a common ancestor such that every other common ancestor is an ancestor of
it, and `nullptr` exactly when there is none. -/
theorem C11_common_ancestor (t : TreeNode) (ht : Built t) (x y : Addr) (hx : IsNode t x) (hy : IsNode t y)
    (self : Bool) :
    let above := fun z c => (self = true ∧ z = c) ∨ Descends t z c
    ∃ r, commonAncestor t x y self = some r ∧
      (∀ c, r = some c → above x c ∧ above y c ∧ ∀ d, above x d → above y d → d = c ∨ Descends t c d) ∧
      (r = none → ∀ c, ¬ (above x c ∧ above y c)) ∧ (self = true → r ≠ none) := by
  intro above
  have hn := built_nodup ht
  have habove : ∀ z, IsNode t z → ∃ l, ancestors t z self = some l ∧ (∀ c, c ∈ l ↔ above z c) ∧
      (∀ c d, c ∈ l → d ∈ l → d = c ∨ Descends t c d ∨ Descends t d c) ∧
      (∀ p c q, l = p ++ c :: q → ∀ d, d ∈ q ↔ Descends t c d) := by
    intro z hz
    obtain ⟨l, hl⟩ := chain_of_mem (isNode_iff.mp hz)
    obtain ⟨r, rfl⟩ := chain_cons hl
    have hd : ∀ c, Descends t z c ↔ c ∈ r := by
      intro c
      rw [descends_iff hn]
      constructor
      · rintro ⟨l, h1, h2⟩
        rw [hl] at h1; cases h1; exact h2
      · exact fun h => ⟨r, hl, h⟩
    have hsplit : ∀ p c q, z :: r = p ++ c :: q → ∀ d, d ∈ q ↔ Descends t c d := by
      intro p c q he d
      obtain ⟨p', q', h1, h2⟩ := chain_suffix t z _ hn hl c (by rw [he]; simp)
      have hnd := chain_nodup t z _ hn hl
      obtain ⟨q'', rfl⟩ := chain_cons h2
      have : q = q'' := by
        rw [he] at h1 hnd
        have := List.append_eq_append_iff.mp h1
        rcases this with ⟨a, ha, hb⟩ | ⟨a, ha, hb⟩
        · cases a with
          | nil => simp at hb; exact hb
          | cons e a =>
            exfalso
            simp only [List.cons_append, List.cons.injEq] at hb
            rw [hb.2] at hnd
            simp [List.nodup_append] at hnd
        · cases a with
          | nil => simp at hb; exact hb.symm
          | cons e a =>
            exfalso
            simp only [List.cons_append, List.cons.injEq] at hb
            rw [ha] at hnd
            simp only [List.nodup_append] at hnd
            obtain ⟨-, -, h3⟩ := hnd
            exact h3 c (by simp [hb.1]) c (by simp) rfl
      subst this
      rw [descends_iff hn]
      constructor
      · exact fun h => ⟨_, h2, h⟩
      · rintro ⟨l, h3, h4⟩
        rw [h2] at h3; cases h3; exact h4
    have hcomp : ∀ l, (∃ p, z :: r = p ++ l) → ∀ c d, c ∈ l → d ∈ l → d = c ∨ Descends t c d ∨ Descends t d c := by
      rintro l ⟨p, hp⟩ c d hc hd
      obtain ⟨a, b, rfl⟩ := List.append_of_mem hc
      have h1 := hsplit (p ++ a) c b (by rw [hp]; simp) d
      simp only [List.mem_append, List.mem_cons] at hd
      rcases hd with hd | rfl | hd
      · obtain ⟨a1, a2, rfl⟩ := List.append_of_mem hd
        exact Or.inr (Or.inr ((hsplit (p ++ a1) d (a2 ++ c :: b) (by rw [hp]; simp) c).mp (by simp)))
      · exact Or.inl rfl
      · exact Or.inr (Or.inl (h1.mp hd))
    cases self with
    | true =>
      refine ⟨z :: r, by simp [ancestors, hl], ?_, hcomp _ ⟨[], rfl⟩, hsplit⟩
      intro c
      simp only [above, true_and, hd, List.mem_cons]
      exact or_congr eq_comm Iff.rfl
    | false =>
      refine ⟨r, by simp [ancestors, hl], ?_, hcomp _ ⟨[z], rfl⟩, ?_⟩
      · intro c
        simp [above, hd]
      · intro p c q he
        exact hsplit (z :: p) c q (by rw [he]; simp)
  obtain ⟨lx, hlx, hmx, hcx, hsx⟩ := habove x hx
  obtain ⟨ly, hly, hmy, _, _⟩ := habove y hy
  refine ⟨lx.find? (ly.contains ·), by simp [commonAncestor, hlx, hly], ?_, ?_, ?_⟩
  · intro c hc
    obtain ⟨hc1, p, q, rfl, hp⟩ := List.find?_eq_some_iff_append.mp hc
    simp only [List.contains_eq_mem, decide_eq_true_eq] at hc1
    refine ⟨(hmx c).mp (by simp), (hmy c).mp hc1, ?_⟩
    intro d hd1 hd2
    have hdl := (hmx d).mpr hd1
    simp only [List.mem_append, List.mem_cons] at hdl
    rcases hdl with hdl | rfl | hdl
    · have := hp d hdl
      simp only [List.contains_eq_mem, Bool.not_eq_eq_eq_not, Bool.not_true, decide_eq_false_iff_not] at this
      exact absurd ((hmy d).mpr hd2) this
    · exact Or.inl rfl
    · exact Or.inr ((hsx p c q rfl d).mp hdl)
  · intro h c ⟨h1, h2⟩
    have := List.find?_eq_none.mp h c ((hmx c).mpr h1)
    simp only [List.contains_eq_mem, decide_eq_true_eq] at this
    exact this ((hmy c).mpr h2)
  · rintro rfl h
    have hroot : ∀ z, IsNode t z → above z t.addr := by
      intro z hz
      obtain ⟨l, h1, h2, h3, -, -, h6⟩ := C11_ancestors t ht z hz
      have := List.mem_of_getLast? h6
      simp only [List.mem_cons] at this
      rcases this with h7 | h7
      · exact Or.inl ⟨rfl, h7.symm⟩
      · exact Or.inr ((h3 _).mp h7)
    have := List.find?_eq_none.mp h t.addr ((hmx _).mpr (hroot x hx))
    simp only [List.contains_eq_mem, decide_eq_true_eq] at this
    exact this ((hmy _).mpr (hroot y hy))

/-- C11. Adding a child adds one node and one parent-child pair, and changes no other node's ancestry. -/
theorem C11_add_child (t : TreeNode) (ht : Built t) (x new : Addr) (hx : IsNode t x) (hnew : ¬ IsNode t new) :
    (∀ y, IsNode (t.addChild x new) y ↔ IsNode t y ∨ y = new) ∧
    (∀ y p, ChildOf (t.addChild x new) y p ↔ ChildOf t y p ∨ (y = new ∧ p = x)) ∧
    (∀ y b, y ≠ new → ancestors (t.addChild x new) y b = ancestors t y b) ∧
    ancestors (t.addChild x new) new false = ancestors t x true := by
  have hn := built_nodup ht
  have hx' := isNode_iff.mp hx
  have hnew' : new ∉ clusterSelf t := fun h => hnew (isNode_iff.mpr h)
  have hn' := nodup_addChild t x new hn hnew'
  obtain ⟨l, hl⟩ := chain_of_mem hx'
  have hchain := chain_addChild_new t x new l hn hnew' hl
  refine ⟨?_, ?_, ?_, ?_⟩
  · intro y
    rw [isNode_iff, isNode_iff, mem_addChild]
    simp [hx']
  · intro y p
    rw [childOf_iff hn', childOf_iff hn]
    by_cases hy : y = new
    · subst hy
      have hno : ∀ r, ¬ chain t y = some (y :: p :: r) := fun r h => hnew' (mem_of_chain h)
      obtain ⟨r, rfl⟩ := chain_cons hl
      rw [hchain]
      simp only [Option.some.injEq, List.cons.injEq, true_and, hno, exists_const, false_or]
      constructor
      · rintro ⟨r', h, _⟩; exact h.symm
      · rintro rfl; exact ⟨r, rfl, rfl⟩
    · simp [chain_addChild_other t x new y hy, hy]
  · intro y b hy
    simp [ancestors, chain_addChild_other t x new y hy]
  · simp [ancestors, hchain, hl]

/-- C11. Erasing nodes keeps exactly the nodes which are the root or are outside the erased set with all
their ancestors but the root, and changes the ancestry of none of them. -/
theorem C11_erase (t : TreeNode) (ht : Built t) (dead : List Addr) (x : Addr) :
    (IsNode (t.eraseFromDescendants dead) x ↔ IsNode t x ∧
      ∀ y, (y = x ∨ Descends t x y) → y ≠ t.addr → y ∉ dead) ∧
    (IsNode (t.eraseFromDescendants dead) x → ∀ b,
      ancestors (t.eraseFromDescendants dead) x b = ancestors t x b) := by
  have hn := built_nodup ht
  constructor
  · rw [isNode_iff, isNode_iff, erase_mem_iff dead t x hn]
    have hdl : ∀ l, chain t x = some l → ∀ y, y ∈ l.dropLast ↔ (y = x ∨ Descends t x y) ∧ y ≠ t.addr := by
      intro l hl y
      have hnd := chain_nodup t x l hn hl
      have hlast := chain_last hl
      obtain ⟨r, rfl⟩ := chain_cons hl
      have hmem : (y = x ∨ Descends t x y) ↔ y ∈ x :: r := by
        rw [List.mem_cons, descends_iff hn]
        apply or_congr Iff.rfl
        constructor
        · rintro ⟨l, h1, h2⟩
          rw [hl] at h1; cases h1; exact h2
        · exact fun h => ⟨r, hl, h⟩
      rw [hmem]
      have hsplit : x :: r = (x :: r).dropLast ++ [t.addr] := by
        have h1 := List.dropLast_append_getLast (List.cons_ne_nil x r)
        have h2 := List.getLast?_eq_some_getLast (List.cons_ne_nil x r)
        rw [hlast] at h2
        simp only [Option.some.injEq] at h2
        rw [h2]; exact h1.symm
      rw [hsplit] at hnd
      rw [List.nodup_append] at hnd
      constructor
      · intro h
        exact ⟨List.dropLast_subset _ h, hnd.2.2 y h _ (by simp)⟩
      · rintro ⟨h1, h2⟩
        rw [hsplit] at h1
        simpa [h2] using h1
    constructor
    · rintro ⟨l, h1, h2⟩
      exact ⟨mem_of_chain h1, fun y hy hne => h2 y ((hdl l h1 y).mpr ⟨hy, hne⟩)⟩
    · rintro ⟨h1, h2⟩
      obtain ⟨l, hl⟩ := chain_of_mem h1
      exact ⟨l, hl, fun y hy => h2 y ((hdl l hl y).mp hy).1 ((hdl l hl y).mp hy).2⟩
  · intro h b
    simp [ancestors, chain_erase_of_mem dead t x hn (isNode_iff.mp h)]

example : Built sampleTree ∧ IsNode sampleTree 5 ∧ IsNode sampleTree 3 ∧ ¬ IsNode sampleTree 9 ∧
    ancestors sampleTree 5 false = some [4, 1, 0] ∧ commonAncestor sampleTree 5 3 true = some (some 1) ∧
    leafs sampleTree true = [3, 5, 2] ∧ isDescendantOf sampleTree 5 2 = some false :=
  ⟨sampleTree_built, isNode_iff.mpr (by decide +kernel), isNode_iff.mpr (by decide +kernel),
    fun h => absurd (isNode_iff.mp h) (by decide +kernel), by decide +kernel, by decide +kernel,
    by decide +kernel, by decide +kernel⟩

example : Built (sampleTree.eraseFromDescendants [4, 2]) ∧
    (sampleTree.eraseFromDescendants [4, 2]).clusterSelf = [0, 1, 3] :=
  ⟨.erase _ sampleTree_built, by decide +kernel⟩

end Verif.Props
