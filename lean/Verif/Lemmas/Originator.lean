import Verif.Model.Caretaker
import Verif.Lemmas.Tree

/-! Helper lemmas about one object and the tree. -/

namespace Verif
open TreeNode

variable {σ : Type}

theorem except_ok_inj {ε α} {a b : α} (h : (Except.ok a : Except ε α) = .ok b) : a = b := by
  cases h; rfl

namespace Originator

/-- Nearest recorded timepoint of a chain. -/
def near (as : List Addr) (d : Addr) (l : List Addr) : Addr := (l.find? (as.contains ·)).getD d

theorem commonAncestor_eq {t : TreeNode} {x y : Addr} {lx ly : List Addr}
    (hx : chain t x = some lx) (hy : chain t y = some ly) :
    t.commonAncestor x y true = some (lx.find? (ly.contains ·)) := by
  simp [commonAncestor, ancestors, hx, hy]

theorem searchRecorded_eq {tree : TreeNode} {t : Addr} {l : List Addr} (ht : chain tree t = some l)
    (as : List Addr) (has : ∀ a ∈ as, a ∈ clusterSelf tree) :
    searchRecorded tree t (as.map some) = .ok (as.find? (l.contains ·)) := by
  induction as with
  | nil => rfl
  | cons a as ih =>
    simp only [List.mem_cons, forall_eq_or_imp] at has
    obtain ⟨la, hla⟩ := chain_of_mem has.1
    obtain ⟨r, rfl⟩ := chain_cons hla
    simp only [List.map_cons, searchRecorded, commonAncestor_eq hla ht]
    by_cases h : l.contains a = true
    · have : ((a :: r).find? (l.contains ·)) = some a := by simp only [List.find?, h]
      rw [this, if_pos rfl]
      simp only [List.find?, h]
    · have h' : l.contains a = false := by simpa using h
      have : ((a :: r).find? (l.contains ·)) ≠ some a := by
        intro hf
        have := List.find?_some hf
        simp_all
      simp only [this, if_false]
      rw [ih has.2]
      simp only [List.find?, h']

/-- Later recorded timepoints are never ancestors of earlier ones. -/
def Ordered (tree : TreeNode) (as : List Addr) : Prop :=
  as.Pairwise fun a b => ∀ l, chain tree a = some l → b ∉ l

/-- Last recorded on the chain = nearest recorded on the chain. -/
theorem find_reverse_eq {tree : TreeNode} (hn : (clusterSelf tree).Nodup) {t : Addr} {l : List Addr}
    (ht : chain tree t = some l) {as : List Addr} (ho : Ordered tree as) :
    as.reverse.find? (l.contains ·) = l.find? (as.contains ·) := by
  cases hf : l.find? (as.contains ·) with
  | none =>
    rw [List.find?_eq_none] at hf ⊢
    intro x hx hc
    simp only [List.mem_reverse] at hx
    exact hf x (by simpa using hc) (by simpa using hx)
  | some n =>
    rw [List.find?_eq_some_iff_append] at hf
    obtain ⟨hna, l1, l2, rfl, hl1⟩ := hf
    have hna' : n ∈ as := by simpa using hna
    rw [List.find?_eq_some_iff_append]
    refine ⟨by simp, ?_⟩
    obtain ⟨a1, a2, rfl⟩ := List.append_of_mem hna'
    refine ⟨a2.reverse, a1.reverse, by simp, ?_⟩
    intro b hb
    simp only [List.mem_reverse] at hb
    -- b was recorded after n
    have hnb : ∀ l, chain tree n = some l → b ∉ l := by
      have ho' := ho
      simp only [Ordered, List.pairwise_append, List.pairwise_cons] at ho'
      exact ho'.2.1.1 b hb
    obtain ⟨p, r, hpr, hr⟩ := chain_suffix tree t _ hn ht n (by simp)
    obtain ⟨r', rfl⟩ := chain_cons hr
    have hnd := chain_nodup tree t _ hn ht
    -- the suffix starting at n is n :: l2
    have hl : r' = l2 := by
      have h1 : n ∉ l1 := by
        intro h
        rw [List.nodup_append] at hnd
        exact hnd.2.2 n h n (by simp) rfl
      have h2 : n ∉ p := by
        rw [hpr, List.nodup_append] at hnd
        intro h
        exact hnd.2.2 n h n (by simp) rfl
      have := List.append_eq_append_iff.mp hpr
      rcases this with ⟨as, rfl, h⟩ | ⟨as, rfl, h⟩
      · cases as with
        | nil => simp_all
        | cons x xs => simp_all
      · cases as with
        | nil => simp_all
        | cons x xs => simp_all
    subst hl
    have := hnb _ hr
    simp only [List.contains_eq_mem, List.mem_append, decide_eq_true_eq, Bool.not_eq_eq_eq_not, Bool.not_true,
      decide_eq_false_iff_not]
    rintro (h | h)
    · have := hl1 b h
      simp only [List.contains_eq_mem, Bool.not_eq_eq_eq_not, Bool.not_true, decide_eq_false_iff_not] at this
      exact this (by simp [hb])
    · exact this h

/-- Invariant of a registered object, the caretaker being at `cur`. -/
structure Inv (tree : TreeNode) (cur : Addr) (as : List Addr) (d : Addr) (o : Originator σ) : Prop where
  ordered : o.ordered = as.map some
  init : o.init = some d
  first : as.head? = some d
  nodup : as.Nodup
  live : ∀ a ∈ as, a ∈ clusterSelf tree
  order : Ordered tree as
  states : ∀ t, (o.states.lookup t).isSome ↔ t ∈ o.ordered
  located : ∃ l, chain tree cur = some l ∧
    match o.lazyGo with
    | none => o.current = some (near as d l)
    | some none => False
    | some (some t) => ∃ lt, chain tree t = some lt ∧ near as d lt = near as d l

theorem Inv.mem_init {tree : TreeNode} {cur as d} {o : Originator σ} (h : Inv tree cur as d o) : d ∈ as := by
  have := h.first
  cases as <;> simp_all

theorem near_mem {as : List Addr} {d : Addr} (hd : d ∈ as) (l : List Addr) : near as d l ∈ as := by
  unfold near
  cases h : l.find? (as.contains ·) with
  | none => simpa
  | some n =>
    have := List.find?_some h
    simpa using this

/-- What `actually_go` does to an object satisfying the invariant. -/
theorem Inv.actuallyGo {tree : TreeNode} (hn : (clusterSelf tree).Nodup) {cur as d} {o : Originator σ}
    (h : Inv tree cur as d o) {l : List Addr} (hl : chain tree cur = some l) :
    o.actuallyGo tree = .ok { o with lazyGo := none, current := some (near as d l) } := by
  obtain ⟨l', hl', hloc⟩ := h.located
  rw [hl] at hl'; cases hl'
  unfold Originator.actuallyGo
  cases hz : o.lazyGo with
  | none =>
    rw [hz] at hloc
    simp only at hloc
    cases o; simp_all
  | some t =>
    rw [hz] at hloc
    cases t with
    | none => exact hloc.elim
    | some t =>
      obtain ⟨lt, hlt, hnear⟩ := hloc
      simp only
      rw [h.ordered, ← List.map_reverse,
        searchRecorded_eq hlt _ (fun a ha => h.live a (by simpa using ha)),
        find_reverse_eq hn hlt h.order]
      rw [← hnear]
      unfold near
      cases hf : lt.find? (as.contains ·) with
      | none => simp [h.init]
      | some n => simp

theorem Inv.settled {tree : TreeNode} {cur as d} {o : Originator σ}
    (h : Inv tree cur as d o) {l : List Addr} (hl : chain tree cur = some l) :
    Inv tree cur as d { o with lazyGo := none, current := some (near as d l) } :=
  { ordered := h.ordered, init := h.init, first := h.first, nodup := h.nodup, live := h.live,
    order := h.order, states := h.states, located := ⟨l, hl, rfl⟩ }

/-- Reading an object. -/
theorem Inv.getCurrentState {tree : TreeNode} (hn : (clusterSelf tree).Nodup) {cur as d} {o : Originator σ}
    (h : Inv tree cur as d o) {l : List Addr} (hl : chain tree cur = some l) :
    ∃ s, o.states.lookup (some (near as d l)) = some s ∧
      o.getCurrentState tree = .ok (s, { o with lazyGo := none, current := some (near as d l) }) := by
  have hs : (o.states.lookup (some (near as d l))).isSome := by
    rw [h.states, h.ordered]
    simpa using near_mem h.mem_init l
  obtain ⟨s, hs⟩ := Option.isSome_iff_exists.mp hs
  refine ⟨s, hs, ?_⟩
  simp only [Originator.getCurrentState, h.actuallyGo hn hl, stateAt, hs]

theorem Inv.goTo {tree : TreeNode} {cur as d} {o : Originator σ} (h : Inv tree cur as d o)
    {t : Addr} (ht : t ∈ clusterSelf tree) : Inv tree t as d (o.go (some t)) := by
  obtain ⟨lt, hlt⟩ := chain_of_mem ht
  exact
  { ordered := h.ordered, init := h.init, first := h.first, nodup := h.nodup, live := h.live,
    order := h.order, states := h.states, located := ⟨lt, hlt, lt, hlt, rfl⟩ }

theorem near_cons_of_not_mem {as : List Addr} {d x : Addr} {l : List Addr} (hx : x ∉ as) :
    near as d (x :: l) = near as d l := by
  simp [near, List.find?, hx]

/-- The tree grows by a new node, which becomes current. -/
theorem Inv.addChild {tree : TreeNode} (hn : (clusterSelf tree).Nodup) {cur as d} {o : Originator σ}
    (h : Inv tree cur as d o) {new : Addr} (hnew : new ∉ clusterSelf tree) :
    Inv (tree.addChild cur new) new as d o := by
  obtain ⟨l, hl, hloc⟩ := h.located
  have hnas : new ∉ as := fun hh => hnew (h.live _ hh)
  have hne : ∀ a ∈ clusterSelf tree, a ≠ new := fun a ha hh => hnew (hh ▸ ha)
  refine { ordered := h.ordered, init := h.init, first := h.first, nodup := h.nodup, live := ?_,
           order := ?_, states := h.states, located := ?_ }
  · intro a ha
    rw [mem_addChild]; exact Or.inl (h.live a ha)
  · refine List.Pairwise.imp_of_mem ?_ h.order
    intro a b ha _ hab l' hl'
    rw [chain_addChild_other _ _ _ _ (hne a (h.live a ha))] at hl'
    exact hab l' hl'
  · refine ⟨new :: l, chain_addChild_new tree cur new l hn hnew hl, ?_⟩
    rw [near_cons_of_not_mem hnas]
    cases hz : o.lazyGo with
    | none => rw [hz] at hloc; exact hloc
    | some t =>
      rw [hz] at hloc
      cases t with
      | none => exact hloc
      | some t =>
        obtain ⟨lt, hlt, hh⟩ := hloc
        refine ⟨lt, ?_, hh⟩
        rw [chain_addChild_other _ _ _ _ (hne t (mem_of_chain hlt))]
        exact hlt

theorem lookup_filter {β : Type} (p : Option Addr → Bool) (l : List (Option Addr × β)) (t : Option Addr) :
    (l.filter fun x => p x.1).lookup t = if p t then l.lookup t else none := by
  induction l with
  | nil => simp
  | cons x xs ih =>
    obtain ⟨k, v⟩ := x
    by_cases hk : t = k
    · subst hk
      by_cases hp : p t
      · simp [List.filter, hp]
      · have hp' : p t = false := by simpa using hp
        simp only [List.filter, hp', Bool.false_eq_true, if_false] at ih ⊢
        exact ih
    · have hk' : (t == k) = false := by simpa using hk
      by_cases hp : p k
      · simp [List.filter, hp, List.lookup, hk', ih]
      · have hp' : p k = false := by simpa using hp
        simp only [List.filter, hp', ih, List.lookup, hk']

/-- `erase`, no timepoint of the current chain being removed: the recorded timepoints removed are those
in `dead`, the initial one excepted. -/
theorem Inv.erase {tree : TreeNode} (hn : (clusterSelf tree).Nodup) {cur as d} {o : Originator σ}
    (h : Inv tree cur as d o) {dead : List Addr}
    {l : List Addr} (hl : chain tree cur = some l) (hcur : ∀ a ∈ l, a ∉ dead) :
    ∃ o', o.erase tree dead = .ok o' ∧
      Inv tree cur (as.filter fun a => !dead.contains a || a == d) d o' ∧ o'.lazyGo = none ∧
      o'.isConst = o.isConst ∧
      (∀ a, a ∉ dead → o'.states.lookup (some a) = o.states.lookup (some a)) := by
  have hcuras : near as d l ∉ dead ∨ near as d l = d := by
    unfold near
    cases hf : l.find? (as.contains ·) with
    | none => simp
    | some n => exact Or.inl (hcur n (List.mem_of_find?_eq_some hf))
  -- simplification of is_erasable
  have hier : ∀ ord a, isErasable
      ({ o with lazyGo := none, current := some (near as d l), ordered := ord } : Originator σ) dead (some a)
      = !(!dead.contains a || a == d) := by
    intro ord a
    unfold isErasable
    split
    · rename_i hc
      simp only [h.init, Option.some.injEq] at hc
      rcases hc with rfl | rfl
      · simp
      · rcases hcuras with hc | hc
        · simp [hc]
        · rw [hc]; simp
    · rename_i hc
      simp only [h.init, Option.some.injEq, not_or] at hc
      have : (a == d) = false := by simpa using hc.1
      simp [this]
  have herase := fun o1 (h1 : o.actuallyGo tree = .ok o1) =>
    show o.erase tree dead = .ok { o1 with
      states := o1.states.filter fun p => !o1.isErasable dead p.1
      ordered := o1.ordered.filter fun t => !o1.isErasable dead t } by
    simp only [Originator.erase, h1]
  refine ⟨_, herase _ (h.actuallyGo hn hl), ?_, rfl, rfl, ?_⟩
  · refine { ordered := ?_, init := h.init, first := ?_, nodup := h.nodup.filter _, live := ?_,
             order := ?_, states := ?_, located := ?_ }
    · simp only [h.ordered, List.filter_map]
      congr 1
      apply List.filter_congr
      intro a _
      simp only [Function.comp]
      rw [hier, Bool.not_not]
    · have := h.first
      cases as with
      | nil => simp at this
      | cons a as =>
        simp only [List.head?_cons, Option.some.injEq] at this
        subst this
        simp [List.filter]
    · intro a ha
      exact h.live a (List.mem_filter.mp ha).1
    · exact List.Pairwise.filter _ h.order
    · intro t
      simp only
      rw [lookup_filter (fun t => !isErasable ({ o with lazyGo := none, current := some (near as d l) } : Originator σ) dead t)]
      rw [List.mem_filter, ← h.states]
      split
      · rename_i hp; simp [hp]
      · rename_i hp; simp [hp]
    · refine ⟨l, hl, ?_⟩
      simp only [near]
      congr 2
      have : ∀ l : List Addr, (∀ a ∈ l, a ∉ dead) → l.find? (as.contains ·) =
          l.find? ((as.filter fun a => !dead.contains a || a == d).contains ·) := by
        intro l
        induction l with
        | nil => simp
        | cons x xs ih =>
          intro hx
          simp only [List.mem_cons, forall_eq_or_imp] at hx
          have hxc : as.contains x = (as.filter fun a => !dead.contains a || a == d).contains x := by
            simp [List.contains_eq_mem, hx.1]
          simp only [List.find?]
          rw [← hxc, ih hx.2]
      exact this l hcur
  · intro a ha
    simp only
    rw [lookup_filter (fun t => !isErasable ({ o with lazyGo := none, current := some (near as d l) } : Originator σ) dead t)]
    rw [hier]
    simp [ha]

/-- Once all recorded timepoints survive, the invariant holds in the pruned tree. -/
theorem Inv.prune {tree : TreeNode} (hn : (clusterSelf tree).Nodup) {cur as d} {o : Originator σ}
    (h : Inv tree cur as d o) (hz : o.lazyGo = none) {dead : List Addr}
    (hsurv : ∀ a ∈ as, a ∈ clusterSelf (tree.eraseFromDescendants dead))
    (hcur : cur ∈ clusterSelf (tree.eraseFromDescendants dead)) :
    Inv (tree.eraseFromDescendants dead) cur as d o := by
  refine { ordered := h.ordered, init := h.init, first := h.first, nodup := h.nodup, live := hsurv,
           order := ?_, states := h.states, located := ?_ }
  · refine List.Pairwise.imp_of_mem ?_ h.order
    intro a b ha _ hab l' hl'
    rw [chain_erase_of_mem _ _ _ hn (hsurv a ha)] at hl'
    exact hab l' hl'
  · obtain ⟨l, hl, hloc⟩ := h.located
    rw [hz] at hloc
    refine ⟨l, ?_, ?_⟩
    · rw [chain_erase_of_mem _ _ _ hn hcur]; exact hl
    · rw [hz]; exact hloc

theorem lookup_append_of_none {β : Type} (l : List (Option Addr × β)) (t u : Option Addr) (s : β)
    (h : l.lookup u = none) :
    (l ++ [(u, s)]).lookup t = if t = u then some s else l.lookup t := by
  induction l with
  | nil =>
    by_cases htu : t = u
    · simp [List.lookup, htu]
    · have : (t == u) = false := by simpa using htu
      simp [List.lookup, htu, this]
  | cons x xs ih =>
    obtain ⟨k, v⟩ := x
    simp only [List.lookup] at h
    by_cases huk : u = k
    · subst huk; simp at h
    · have huk' : (u == k) = false := by simpa using huk
      rw [huk'] at h
      simp only [List.cons_append, List.lookup]
      by_cases htk : t = k
      · subst htk
        simp only [BEq.rfl]
        rw [if_neg (Ne.symm huk)]
      · have htk' : (t == k) = false := by simpa using htk
        simp only [htk']
        exact ih h

theorem setState_eq_new {o : Originator σ} {t : Option Addr} (h : t ∉ o.ordered) (s : σ) :
    o.setState t s = { o with
      lazyGo := none
      states := if (o.states.lookup t).isSome then o.states else o.states ++ [(t, s)]
      ordered := o.ordered ++ [t]
      current := t } := by
  have : o.ordered.all (· ≠ t) = true := by
    simp only [List.all_eq_true, ne_eq, decide_eq_true_eq]
    rintro x hx rfl; exact h hx
  simp only [setState, this, if_true]

theorem setState_eq_old {o : Originator σ} {t : Option Addr} (h : t ∈ o.ordered) (s : σ) :
    o.setState t s = if o.isConst then o
      else { o with states := o.states.filter (fun p => p.1 ≠ t) ++ [(t, s)] } := by
  have : o.ordered.all (· ≠ t) = false := by
    simp only [List.all_eq_false]
    exact ⟨t, h, by simp⟩
  simp only [setState, this, Bool.false_eq_true, if_false]

/-- Setting a state at an unrecorded timepoint of the current chain. -/
theorem Inv.setState_new {tree : TreeNode} (hn : (clusterSelf tree).Nodup) {cur as d} {o : Originator σ}
    (h : Inv tree cur as d o) {l : List Addr} (hl : chain tree cur = some l) {a : Addr} (ha : a ∈ l)
    (hnew : a ∉ as) (hanc : ∀ b ∈ as, ∀ lb, chain tree b = some lb → a ∉ lb) (s : σ) :
    Inv tree cur (as ++ [a]) d (o.setState (some a) s) ∧
    (∀ t, (o.setState (some a) s).states.lookup t = if t = some a then some s else o.states.lookup t) ∧
    near (as ++ [a]) d l = a := by
  have hall : some a ∉ o.ordered := by
    rw [h.ordered]; simpa using hnew
  have hnone : o.states.lookup (some a) = none := by
    rw [← Option.not_isSome_iff_eq_none, h.states]
    exact hall
  have hlk : ∀ t, (o.setState (some a) s).states.lookup t = if t = some a then some s else o.states.lookup t := by
    intro t
    simp only [setState_eq_new hall, hnone, Option.isSome_none, Bool.false_eq_true, if_false]
    exact lookup_append_of_none _ _ _ _ hnone
  have hnear : near (as ++ [a]) d l = a := by
    -- the nearest in the chain
    unfold near
    obtain ⟨l1, l2, rfl⟩ := List.append_of_mem ha
    have : (l1 ++ a :: l2).find? ((as ++ [a]).contains ·) = some a := by
      rw [List.find?_eq_some_iff_append]
      refine ⟨by simp, ?_⟩
      have hnd := chain_nodup tree cur _ hn hl
      refine ⟨l1, l2, rfl, ?_⟩
      intro b hb
      have hba : b ≠ a := by
        rintro rfl
        rw [List.nodup_append] at hnd
        exact hnd.2.2 b hb b (by simp) rfl
      simp only [List.contains_eq_mem, List.mem_append, List.mem_singleton, hba, or_false,
        Bool.not_eq_eq_eq_not, Bool.not_true, decide_eq_false_iff_not]
      intro hbas
      obtain ⟨p, r, hpr, hr⟩ := chain_suffix tree cur _ hn hl b (by simp [hb])
      refine hanc b hbas r hr ?_
      obtain ⟨r', rfl⟩ := chain_cons hr
      obtain ⟨b1, b2, rfl⟩ := List.append_of_mem hb
      have hbp : b ∉ p := by
        rw [hpr, List.nodup_append] at hnd
        intro h
        exact hnd.2.2 b h b (by simp) rfl
      have hb1 : b ∉ b1 := by
        intro h
        simp only [List.append_assoc, List.nodup_append] at hnd
        exact hnd.2.2 b h b (by simp) rfl
      have hx : b1 ++ (b :: (b2 ++ a :: l2)) = p ++ b :: r' := by simpa using hpr
      have hrr : r' = b2 ++ a :: l2 := by
        have := List.append_eq_append_iff.mp hx
        rcases this with ⟨as, rfl, h⟩ | ⟨as, rfl, h⟩
        · cases as with
          | nil => simpa using h.symm
          | cons x xs => simp_all
        · cases as with
          | nil => simpa using h
          | cons x xs => simp_all
      simp [hrr]
    rw [this]; rfl
  refine ⟨?_, hlk, hnear⟩
  have hlive : a ∈ clusterSelf tree := chain_subset tree cur l hl a ha
  refine { ordered := ?_, init := ?_, first := ?_, nodup := ?_, live := ?_, order := ?_, states := ?_, located := ?_ }
  · simp [setState_eq_new hall, h.ordered]
  · simp [setState_eq_new hall, h.init]
  · have := h.first
    cases as <;> simp_all
  · rw [List.nodup_append]
    refine ⟨h.nodup, by simp, ?_⟩
    intro x hx y hy hxy
    simp only [List.mem_singleton] at hy
    subst hy; subst hxy
    exact hnew hx
  · intro x hx
    simp only [List.mem_append, List.mem_singleton] at hx
    rcases hx with hx | rfl
    · exact h.live x hx
    · exact hlive
  · simp only [Ordered, List.pairwise_append, List.pairwise_cons, List.Pairwise.nil, List.not_mem_nil,
      false_implies, implies_true, and_self, List.mem_singleton, true_and]
    refine ⟨h.order, ?_⟩
    rintro x hx y rfl lx hlx
    exact hanc x hx lx hlx
  · intro t
    rw [hlk]
    have : (o.setState (some a) s).ordered = o.ordered ++ [some a] := by
      simp [setState_eq_new hall]
    rw [this, List.mem_append, List.mem_singleton, ← h.states]
    split <;> simp_all
  · refine ⟨l, hl, ?_⟩
    have : (o.setState (some a) s).lazyGo = none ∧ (o.setState (some a) s).current = some a := by
      simp [setState_eq_new hall]
    rw [this.1, this.2, hnear]

/-- Setting a state at a recorded timepoint. -/
theorem Inv.setState_old {tree : TreeNode} {cur as d} {o : Originator σ}
    (h : Inv tree cur as d o) {a : Addr} (ha : a ∈ as) (s : σ) :
    Inv tree cur as d (o.setState (some a) s) ∧
    (∀ t, (o.setState (some a) s).states.lookup t =
      if t = some a ∧ o.isConst = false then some s else o.states.lookup t) := by
  have hall : some a ∈ o.ordered := by
    rw [h.ordered]; simpa using ha
  by_cases hc : o.isConst = true
  · have : o.setState (some a) s = o := by simp [setState_eq_old hall, hc]
    rw [this]
    exact ⟨h, by simp [hc]⟩
  · have hc' : o.isConst = false := by simpa using hc
    have hs : o.setState (some a) s =
        { o with states := o.states.filter (fun p => p.1 ≠ some a) ++ [(some a, s)] } := by
      simp [setState_eq_old hall, hc']
    have hnone : (o.states.filter (fun p => p.1 ≠ some a)).lookup (some a) = none := by
      rw [lookup_filter (fun t => decide (t ≠ some a))]
      simp
    have hlk : ∀ t, (o.setState (some a) s).states.lookup t =
        if t = some a ∧ o.isConst = false then some s else o.states.lookup t := by
      intro t
      rw [hs]
      simp only
      rw [lookup_append_of_none _ _ _ _ hnone, lookup_filter (fun t => decide (t ≠ some a))]
      by_cases ht : t = some a <;> simp [ht, hc']
    refine ⟨?_, hlk⟩
    refine { ordered := ?_, init := ?_, first := h.first, nodup := h.nodup, live := h.live, order := h.order,
             states := ?_, located := ?_ }
    · rw [hs]; exact h.ordered
    · rw [hs]; exact h.init
    · intro t
      rw [hlk]
      have ho : (o.setState (some a) s).ordered = o.ordered := by rw [hs]
      rw [ho, ← h.states]
      split
      · rename_i ht
        have := (h.states (some a)).mpr (by rw [h.ordered]; simpa using ha)
        simp [ht.1, this]
      · rfl
    · rw [hs]; exact h.located

theorem Inv.make {tree : TreeNode} {cur d : Addr} (hd : d ∈ clusterSelf tree)
    (hcur : cur ∈ clusterSelf tree) (c : Bool) (s : σ) :
    Inv tree cur [d] d (Originator.make c (some d) s) := by
  obtain ⟨l, hl⟩ := chain_of_mem hcur
  refine { ordered := rfl, init := rfl, first := rfl, nodup := by simp, live := by simpa using hd,
           order := by simp [Ordered], states := ?_, located := ⟨l, hl, ?_⟩ }
  · intro t
    simp only [Originator.make, List.mem_singleton]
    by_cases h : t = some d
    · simp [List.lookup, h]
    · have : (t == some d) = false := by simpa using h
      simp [List.lookup, h, this]
  · simp only [Originator.make]
    have := near_mem (as := [d]) (d := d) (by simp) l
    simp only [List.mem_singleton] at this
    rw [this]

end Originator
end Verif
