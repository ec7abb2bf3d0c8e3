import Verif.Spec.History
import Verif.Lemmas.Originator

/-! Helper lemmas about the caretaker: the invariant kept by every legal call. -/

namespace Verif
open TreeNode Spec

variable {σ α : Type}

/-- Invariant of the caretaker and of the registered objects. -/
structure WInv (w : World σ α) : Prop where
  nodup : (clusterSelf w.care.tree).Nodup
  current : w.care.current ∈ clusterSelf w.care.tree
  pinned : ∀ t ∈ w.care.pinned, t ∈ clusterSelf w.care.tree
  pinnedNodup : w.care.pinned.Nodup
  historyHead : w.care.history.head? = some w.care.tree.addr
  history : ∀ t ∈ w.care.history, t ∈ clusterSelf w.care.tree
  browser : ∀ i, w.care.browser = some i → i + 1 < w.care.history.length
  annotations : ∀ p ∈ w.care.annotations, p.1 ∈ clusterSelf w.care.tree
  objs : ∀ i ∈ w.care.originators, ∀ o, w.objs i = some o →
    ∃ as d, Originator.Inv w.care.tree w.care.current as d o

theorem live_iff {w : World σ α} {a : Addr} : Live w a ↔ a ∈ clusterSelf w.care.tree := by
  simp [Live, cluster]

theorem ancOrSelf_iff {w : World σ α} {a b : Addr} :
    AncOrSelf w a b ↔ ∃ l, chain w.care.tree b = some l ∧ a ∈ l := by
  simp [AncOrSelf, ancestors]

theorem WInv.history_ne {w : World σ α} (h : WInv w) : w.care.history ≠ [] := by
  have := h.historyHead
  intro hh
  simp [hh] at this

theorem WInv.getLast {w : World σ α} (h : WInv w) : ∃ b, w.care.history.getLast? = some b ∧ b ∈ w.care.history := by
  refine ⟨w.care.history.getLast h.history_ne, List.getLast?_eq_some_getLast h.history_ne, List.getLast_mem _⟩

theorem fresh_inv (root : Addr) : WInv (World.fresh root : World σ α) := by
  constructor <;> simp [World.fresh, clusterSelf, clusterList, addr]

/-! ## Garbage collection -/

theorem keepOf_spec (tree : TreeNode) (ts : List Addr) (h : ∀ t ∈ ts, t ∈ clusterSelf tree) :
    ∃ r, World.keepOf tree ts = .ok r ∧ ∀ x, x ∈ r ↔ ∃ t ∈ ts, ∃ l, chain tree t = some l ∧ x ∈ l := by
  induction ts with
  | nil => exact ⟨[], rfl, by simp⟩
  | cons t ts ih =>
    simp only [List.mem_cons, forall_eq_or_imp] at h
    obtain ⟨l, hl⟩ := chain_of_mem h.1
    obtain ⟨r, hr, hr'⟩ := ih h.2
    refine ⟨l ++ r, ?_, ?_⟩
    · simp only [World.keepOf, ancestors, hl, Option.map_some, if_true, hr]
    · intro x
      simp [hr', hl]

theorem eraseAll_spec (tree : TreeNode) (dead : List Addr) (P Q : Originator σ → Prop)
    (R : Originator σ → Originator σ → Prop) (hQP : ∀ o, Q o → P o)
    (hR : ∀ a b c, R a b → R b c → R a c)
    (hstep : ∀ o, P o → ∃ o', o.erase tree dead = .ok o' ∧ Q o' ∧ R o o')
    (is : List Nat) (objs : Nat → Option (Originator σ))
    (h : ∀ i ∈ is, ∀ o, objs i = some o → P o) :
    ∃ objs', World.eraseAll tree dead objs is = .ok objs' ∧
      (∀ i, i ∉ is → objs' i = objs i) ∧
      (∀ i, objs i = none → objs' i = none) ∧
      (∀ i ∈ is, ∀ o, objs i = some o → ∃ o', objs' i = some o' ∧ Q o' ∧ R o o') := by
  induction is generalizing objs with
  | nil => exact ⟨objs, rfl, by simp, by simp, by simp⟩
  | cons i is ih =>
    simp only [List.mem_cons, forall_eq_or_imp] at h
    cases ho : objs i with
    | none =>
      obtain ⟨objs', h1, h2, h3, h4⟩ := ih objs h.2
      refine ⟨objs', by simp only [World.eraseAll, ho, h1], ?_, h3, ?_⟩
      · intro j hj
        simp only [List.mem_cons, not_or] at hj
        exact h2 j hj.2
      · intro j hj o hjo
        rcases List.mem_cons.mp hj with rfl | hj
        · rw [ho] at hjo; cases hjo
        · exact h4 j hj o hjo
    | some o =>
      obtain ⟨o', ho', hq, hr⟩ := hstep o (h.1 o ho)
      obtain ⟨objs', h1, h2, h3, h4⟩ := ih (fun j => if j = i then some o' else objs j) (by
        intro j hj o2 hjo
        by_cases hji : j = i
        · simp only [hji, if_true, Option.some.injEq] at hjo
          subst hjo; exact hQP _ hq
        · simp only [hji, if_false] at hjo
          exact h.2 j hj o2 hjo)
      refine ⟨objs', by simp only [World.eraseAll, ho, ho', h1], ?_, ?_, ?_⟩
      · intro j hj
        simp only [List.mem_cons, not_or] at hj
        rw [h2 j hj.2]; simp [hj.1]
      · intro j hj
        apply h3
        by_cases hji : j = i
        · subst hji; rw [ho] at hj; cases hj
        · simp [hji, hj]
      · intro j hj o2 hjo
        by_cases hji : j = i
        · subst hji
          rw [ho] at hjo; cases hjo
          by_cases hjis : j ∈ is
          · obtain ⟨o3, ho3, hq3, hr3⟩ := h4 j hjis o' (by simp)
            exact ⟨o3, ho3, hq3, hR _ _ _ hr hr3⟩
          · refine ⟨o', ?_, hq, hr⟩
            rw [h2 j hjis]; simp
        · rcases List.mem_cons.mp hj with rfl | hj
          · exact absurd rfl hji
          · exact h4 j hj o2 (by simp [hji, hjo])

/-- What one garbage collection does to an object, `keep` being the timepoints kept. -/
structure Kept (keep : Addr → Prop) (o o' : Originator σ) : Prop where
  init : o'.init = o.init
  isConst : o'.isConst = o.isConst
  lookup : ∀ a, keep a → o'.states.lookup (some a) = o.states.lookup (some a)
  ordered : ∀ a, keep a → (some a ∈ o'.ordered ↔ some a ∈ o.ordered)

theorem Kept.trans {keep : Addr → Prop} {a b c : Originator σ} (h : Kept keep a b) (h' : Kept keep b c) :
    Kept keep a c :=
  ⟨h'.init.trans h.init, h'.isConst.trans h.isConst, fun x hx => (h'.lookup x hx).trans (h.lookup x hx),
    fun x hx => (h'.ordered x hx).trans (h.ordered x hx)⟩

theorem needed_of_history {w : World σ α} (h : WInv w) {t : Addr}
    (ht : t ∈ w.care.pinned ∨ t ∈ w.care.history ∨ t = w.care.current) : Needed w t := by
  have hl : t ∈ clusterSelf w.care.tree := by
    rcases ht with ht | ht | rfl
    · exact h.pinned t ht
    · exact h.history t ht
    · exact h.current
  obtain ⟨l, hl⟩ := chain_of_mem hl
  obtain ⟨r, rfl⟩ := chain_cons hl
  exact ⟨t, ht, ancOrSelf_iff.mpr ⟨_, hl, by simp⟩⟩

theorem Needed.anc {w : World σ α} (h : WInv w) {a b : Addr} (hb : Needed w b) (hab : AncOrSelf w a b) :
    Needed w a := by
  obtain ⟨t, ht, hbt⟩ := hb
  obtain ⟨l, hl, hbl⟩ := ancOrSelf_iff.mp hbt
  obtain ⟨lb, hlb, hab⟩ := ancOrSelf_iff.mp hab
  obtain ⟨p, r, rfl, hr⟩ := chain_suffix _ _ _ h.nodup hl b hbl
  rw [hlb] at hr; cases hr
  exact ⟨t, ht, ancOrSelf_iff.mpr ⟨_, hl, by simp [hab]⟩⟩

theorem Needed.live {w : World σ α} {a : Addr} (hb : Needed w a) : a ∈ clusterSelf w.care.tree := by
  obtain ⟨t, ht, hbt⟩ := hb
  obtain ⟨l, hl, hbl⟩ := ancOrSelf_iff.mp hbt
  exact chain_subset _ _ _ hl a hbl

theorem needed_root {w : World σ α} (h : WInv w) : Needed w w.care.tree.addr := by
  apply needed_of_history h
  have := h.historyHead
  right; left
  cases hh : w.care.history with
  | nil => simp [hh] at this
  | cons x xs => simp_all

/-- Effect of a garbage collection. -/
structure GcPost (w w' : World σ α) : Prop where
  nodup : (clusterSelf w'.care.tree).Nodup
  live : ∀ x, x ∈ clusterSelf w'.care.tree ↔ Needed w x
  chain : ∀ x, Needed w x → chain w'.care.tree x = chain w.care.tree x
  addr : w'.care.tree.addr = w.care.tree.addr
  current : w'.care.current = w.care.current
  pinned : w'.care.pinned = w.care.pinned
  history : w'.care.history = w.care.history
  browser : w'.care.browser = w.care.browser
  autoGc : w'.care.autoGc = w.care.autoGc
  annotations : ∀ p, p ∈ w'.care.annotations ↔ p ∈ w.care.annotations ∧ (p.1 ∈ clusterSelf w.care.tree → Needed w p.1)
  lookup : ∀ x, Needed w x → w'.care.annotations.lookup x = w.care.annotations.lookup x
  originators : ∀ i, i ∈ w'.care.originators ↔ i ∈ w.care.originators ∧ (w.objs i).isSome
  none : ∀ i, w.objs i = none → w'.objs i = none
  other : ∀ i, i ∉ w.care.originators → w'.objs i = w.objs i
  objs : ∀ i ∈ w.care.originators, ∀ o, w.objs i = some o → ∃ o', w'.objs i = some o' ∧ Kept (Needed w) o o' ∧
    ∃ as d, Originator.Inv w.care.tree w.care.current as d o' ∧ o'.lazyGo = Option.none ∧ ∀ a ∈ as, Needed w a ∨ a = d

theorem lookup_filter_fst {β : Type} (p : Addr → Bool) (l : List (Addr × β)) (t : Addr) :
    (l.filter fun x => p x.1).lookup t = if p t then l.lookup t else none := by
  induction l with
  | nil => simp
  | cons x xs ih =>
    obtain ⟨k, v⟩ := x
    by_cases hk : t = k
    · subst hk
      by_cases hp : p t
      · simp [List.filter, hp]
      · have hp' : p t = false := by simpa using hp
        simp only [List.filter, hp', Bool.false_eq_true, if_false] at ih ⊢
        exact ih
    · have hk' : (t == k) = false := by simpa using hk
      by_cases hp : p k
      · simp [List.filter, hp, List.lookup, hk', ih]
      · have hp' : p k = false := by simpa using hp
        simp only [List.filter, hp', ih, List.lookup, hk']

theorem gc_spec {w : World σ α} (h : WInv w) : ∃ w', w.garbageCollector = .ok w' ∧ GcPost w w' := by
  obtain ⟨keep, hk, hkeep⟩ := keepOf_spec w.care.tree (w.care.pinned ++ w.care.history ++ [w.care.current]) (by
    intro t ht
    simp only [List.mem_append, List.mem_singleton] at ht
    rcases ht with (ht | ht) | rfl
    · exact h.pinned t ht
    · exact h.history t ht
    · exact h.current)
  have hneed : ∀ x, x ∈ keep ↔ Needed w x := by
    intro x
    rw [hkeep]
    constructor
    · rintro ⟨t, ht, l, hl, hx⟩
      exact ⟨t, by simpa [or_assoc] using ht, ancOrSelf_iff.mpr ⟨l, hl, hx⟩⟩
    · rintro ⟨t, ht, hx⟩
      obtain ⟨l, hl, hx⟩ := ancOrSelf_iff.mp hx
      exact ⟨t, by simpa [or_assoc] using ht, l, hl, hx⟩
  -- the removed ones
  have hdead : ∀ x, x ∈ (w.care.tree.cluster false).filter (fun t => !keep.contains t) ↔
      x ∈ clusterSelf w.care.tree ∧ ¬ Needed w x := by
    intro x
    simp only [List.mem_filter, List.contains_eq_mem, Bool.not_eq_eq_eq_not, Bool.not_true,
      decide_eq_false_iff_not, hneed]
    have hroot := needed_root h
    cases ht : w.care.tree with
    | mk a cs =>
      simp only [ht, TreeNode.addr] at hroot
      simp only [cluster, Bool.false_eq_true, if_false, children, clusterSelf, List.mem_cons]
      constructor
      · rintro ⟨h1, h2⟩; exact ⟨Or.inr h1, h2⟩
      · rintro ⟨rfl | h1, h2⟩
        · exact absurd hroot h2
        · exact ⟨h1, h2⟩
  generalize hD : (w.care.tree.cluster false).filter (fun t => !keep.contains t) = dead at hdead
  obtain ⟨lc, hlc⟩ := chain_of_mem h.current
  have hcurneeded : ∀ a ∈ lc, Needed w a := by
    intro a ha
    exact Needed.anc h (needed_of_history h (Or.inr (Or.inr rfl))) (ancOrSelf_iff.mpr ⟨lc, hlc, ha⟩)
  have hcurdead : ∀ a ∈ lc, a ∉ dead := by
    intro a ha hd
    exact ((hdead a).mp hd).2 (hcurneeded a ha)
  obtain ⟨objs', he, ho1, ho2, ho3⟩ := eraseAll_spec w.care.tree dead
    (fun o => ∃ as d, Originator.Inv w.care.tree w.care.current as d o)
    (fun o => ∃ as d, Originator.Inv w.care.tree w.care.current as d o ∧ o.lazyGo = none ∧
      ∀ a ∈ as, Needed w a ∨ a = d)
    (fun o o' => Kept (Needed w) o o')
    (by rintro o ⟨as, d, ho, _⟩; exact ⟨as, d, ho⟩)
    (fun _ _ _ => Kept.trans)
    (by
      rintro o ⟨as, d, ho⟩
      obtain ⟨o', he, hi, hz, hc, hs⟩ := ho.erase h.nodup (dead := dead) hlc hcurdead
      refine ⟨o', he, ⟨_, d, hi, hz, ?_⟩, ?_⟩
      · intro a ha
        obtain ⟨ha, hp⟩ := List.mem_filter.mp ha
        simp only [List.contains_eq_mem, Bool.or_eq_true, Bool.not_eq_eq_eq_not, Bool.not_true,
          decide_eq_false_iff_not, beq_iff_eq] at hp
        rcases hp with hp | hp
        · left
          rw [hdead] at hp
          by_cases hnd : Needed w a
          · exact hnd
          · exact absurd ⟨ho.live a ha, hnd⟩ hp
        · exact Or.inr hp
      · have hnd : ∀ a, Needed w a → a ∉ dead := by
          intro a ha hd; exact ((hdead a).mp hd).2 ha
        refine ⟨hi.init.trans ho.init.symm, hc, fun a ha => hs a (hnd a ha), ?_⟩
        intro a ha
        rw [hi.ordered, ho.ordered]
        simp only [List.mem_map, Option.some.injEq, exists_eq_right, List.mem_filter]
        simp [hnd a ha])
    w.care.originators w.objs h.objs
  refine ⟨{ care := { w.care with
            annotations := w.care.annotations.filter fun p => !dead.contains p.1
            tree := w.care.tree.eraseFromDescendants dead
            originators := w.care.originators.filter fun i => (objs' i).isSome }
            objs := objs' }, ?_, ?_⟩
  · simp only [World.garbageCollector, hk, hD, he]
  · have hlive : ∀ x, x ∈ clusterSelf (w.care.tree.eraseFromDescendants dead) ↔ Needed w x := by
      intro x
      rw [erase_mem_iff _ _ _ h.nodup]
      constructor
      · rintro ⟨l, hl, hs⟩
        obtain ⟨r, rfl⟩ := chain_cons hl
        cases r with
        | nil =>
          have := chain_last hl
          simp only [List.getLast?_singleton, Option.some.injEq] at this
          rw [this]; exact needed_root h
        | cons y ys =>
          have := hs x (by simp)
          rw [hdead] at this
          by_cases hnd : Needed w x
          · exact hnd
          · exact absurd ⟨mem_of_chain hl, hnd⟩ this
      · intro hx
        obtain ⟨l, hl⟩ := chain_of_mem (Needed.live hx)
        refine ⟨l, hl, ?_⟩
        intro y hy hyd
        exact ((hdead y).mp hyd).2 (Needed.anc h hx (ancOrSelf_iff.mpr ⟨l, hl, List.dropLast_subset _ hy⟩))
    constructor
    · exact erase_nodup _ _ h.nodup
    · exact hlive
    · intro x hx
      exact chain_erase_of_mem _ _ _ h.nodup ((hlive x).mpr hx)
    · cases w.care.tree; rfl
    · rfl
    · rfl
    · rfl
    · rfl
    · rfl
    · intro p
      simp only [List.mem_filter, List.contains_eq_mem, Bool.not_eq_eq_eq_not, Bool.not_true,
        decide_eq_false_iff_not, hdead, not_and, Classical.not_not]
    · intro x hx
      simp only
      rw [lookup_filter_fst (fun x => !dead.contains x)]
      have : x ∉ dead := fun hd => ((hdead x).mp hd).2 hx
      simp [this]
    · intro i
      simp only [List.mem_filter]
      constructor
      · rintro ⟨hi, hs⟩
        refine ⟨hi, ?_⟩
        cases ho : w.objs i with
        | none => rw [ho2 i ho] at hs; cases hs
        | some o => rfl
      · rintro ⟨hi, hs⟩
        refine ⟨hi, ?_⟩
        obtain ⟨o, ho⟩ := Option.isSome_iff_exists.mp hs
        obtain ⟨o', ho', _⟩ := ho3 i hi o ho
        simp [ho']
    · exact ho2
    · exact ho1
    · intro i hi o ho
      obtain ⟨o', ho', h1, h2⟩ := ho3 i hi o ho
      exact ⟨o', ho', h2, h1⟩

/-- A garbage collection keeps the invariant when no registered object is born at a freed timepoint. -/
theorem GcPost.inv {w w' : World σ α} (h : WInv w) (hb : BirthsNeeded w) (hg : GcPost w w') : WInv w' := by
  constructor
  · exact hg.nodup
  · rw [hg.live, hg.current]
    exact needed_of_history h (Or.inr (Or.inr rfl))
  · intro t ht
    rw [hg.pinned] at ht
    rw [hg.live]
    exact needed_of_history h (Or.inl ht)
  · rw [hg.pinned]; exact h.pinnedNodup
  · rw [hg.history, hg.addr]; exact h.historyHead
  · intro t ht
    rw [hg.history] at ht
    rw [hg.live]
    exact needed_of_history h (Or.inr (Or.inl ht))
  · intro i hi
    rw [hg.browser] at hi
    rw [hg.history]
    exact h.browser i hi
  · intro p hp
    rw [hg.annotations] at hp
    rw [hg.live]
    exact hp.2 (h.annotations p hp.1)
  · intro i hi o' ho'
    rw [hg.originators] at hi
    obtain ⟨o, ho⟩ := Option.isSome_iff_exists.mp hi.2
    obtain ⟨o'', ho'', hk, as, d, hinv, hz, has⟩ := hg.objs i hi.1 o ho
    rw [ho'] at ho''; cases ho''
    have hdn : Needed w d := by
      apply hb i o ⟨hi.1, ho⟩
      rw [← hk.init, hinv.init]
    refine ⟨as, d, ?_⟩
    have hasn : ∀ a ∈ as, Needed w a := by
      intro a ha
      rcases has a ha with h1 | rfl
      · exact h1
      · exact hdn
    refine { ordered := hinv.ordered, init := hinv.init, first := hinv.first, nodup := hinv.nodup,
             live := ?_, order := ?_, states := hinv.states, located := ?_ }
    · intro a ha
      rw [hg.live]; exact hasn a ha
    · refine List.Pairwise.imp_of_mem ?_ hinv.order
      intro a b ha _ hab l' hl'
      rw [hg.chain a (hasn a ha)] at hl'
      exact hab l' hl'
    · obtain ⟨l, hl, hloc⟩ := hinv.located
      rw [hz] at hloc
      refine ⟨l, ?_, ?_⟩
      · rw [hg.current, hg.chain _ (needed_of_history h (Or.inr (Or.inr rfl)))]
        exact hl
      · rw [hz]; exact hloc

theorem gc_inv {w : World σ α} (h : WInv w) (hb : BirthsNeeded w) :
    ∃ w', w.garbageCollector = .ok w' ∧ WInv w' ∧ GcPost w w' := by
  obtain ⟨w', h1, h2⟩ := gc_spec h
  exact ⟨w', h1, h2.inv h hb, h2⟩

/-! ## The calls -/

theorem WInv.forgetFuture {w : World σ α} (h : WInv w) : WInv (Spec.forgetFuture w) := by
  unfold Spec.forgetFuture
  cases hb : w.care.browser with
  | none => simpa using h
  | some i =>
    simp only
    constructor
    · exact h.nodup
    · exact h.current
    · exact h.pinned
    · exact h.pinnedNodup
    · have := h.historyHead
      cases hh : w.care.history <;> simp_all
    · intro t ht; exact h.history t (List.mem_of_mem_take ht)
    · simp
    · exact h.annotations
    · exact h.objs

/-- The outcome of `stop_browsing_user_history`. -/
theorem stopBrowsing_spec {w : World σ α} (h : WInv w)
    (hb : w.care.browser ≠ none → w.care.autoGc = true → BirthsNeeded (forgetFuture w)) :
    ∃ w', w.stopBrowsing = .ok w' ∧ WInv w' ∧ (w' = forgetFuture w ∨ GcPost (forgetFuture w) w') := by
  unfold World.stopBrowsing
  have hf := h.forgetFuture
  cases hbr : w.care.browser with
  | none =>
    refine ⟨w, rfl, h, Or.inl ?_⟩
    simp [Spec.forgetFuture, hbr]
  | some i =>
    have he : Spec.forgetFuture w =
        { w with care := { w.care with history := w.care.history.take (i + 1), browser := none } } := by
      simp [Spec.forgetFuture, hbr]
    show ∃ w', (if w.care.autoGc = true then World.garbageCollector
      { w with care := { w.care with history := w.care.history.take (i + 1), browser := none } } else .ok _) = _ ∧ _
    rw [← he]
    by_cases ha : w.care.autoGc = true
    · obtain ⟨w', h1, h2, h3⟩ := gc_inv hf (hb (by simp [hbr]) ha)
      rw [if_pos ha]
      exact ⟨w', h1, h2, Or.inr h3⟩
    · rw [if_neg ha]
      exact ⟨_, rfl, hf, Or.inl rfl⟩

theorem makeNext_inv {w : World σ α} (h : WInv w) {new : Addr} (hnew : new ∉ clusterSelf w.care.tree) :
    WInv { w with care := { w.care with tree := w.care.tree.addChild w.care.current new, current := new } } := by
  have hmem : ∀ x ∈ clusterSelf w.care.tree, x ∈ clusterSelf (w.care.tree.addChild w.care.current new) := by
    intro x hx; rw [mem_addChild]; exact Or.inl hx
  constructor
  · exact nodup_addChild _ _ _ h.nodup hnew
  · simp only; rw [mem_addChild]; exact Or.inr ⟨rfl, h.current⟩
  · intro t ht; exact hmem t (h.pinned t ht)
  · exact h.pinnedNodup
  · simp only [addChild_addr]; exact h.historyHead
  · intro t ht; exact hmem t (h.history t ht)
  · exact h.browser
  · intro p hp; exact hmem _ (h.annotations p hp)
  · intro i hi o ho
    obtain ⟨as, d, hinv⟩ := h.objs i hi o ho
    exact ⟨as, d, hinv.addChild h.nodup hnew⟩

theorem makeNextTimepoint_spec {w : World σ α} (h : WInv w) {new : Addr} (hl : EditLegal w new) :
    ∃ w1 w', w.stopBrowsing = .ok w1 ∧ w.makeNextTimepoint new = .ok w' ∧ WInv w1 ∧ WInv w' ∧
      (w1 = forgetFuture w ∨ GcPost (forgetFuture w) w1) ∧ new ∉ clusterSelf w1.care.tree ∧
      w' = { w1 with care := { w1.care with tree := w1.care.tree.addChild w1.care.current new, current := new } } := by
  obtain ⟨w1, h1, h2, h3⟩ := stopBrowsing_spec h hl.1
  have hnew : new ∉ clusterSelf w1.care.tree := by
    have := hl.2 w1 h1
    rwa [live_iff] at this
  refine ⟨w1, _, h1, ?_, h2, makeNext_inv h2 hnew, h3, hnew, rfl⟩
  have hc := h2.current
  simp only [World.makeNextTimepoint, h1, cluster, if_true]
  rw [if_neg (by simpa using hnew), if_pos (by simpa using hc)]

theorem goAll_eq (objs : Nat → Option (Originator σ)) (t : Addr) (is : List Nat) (i : Nat) :
    World.goAll objs t is i = if i ∈ is then (objs i).map (·.go (some t)) else objs i := by
  induction is generalizing objs with
  | nil => simp [World.goAll]
  | cons j is ih =>
    simp only [World.goAll]
    cases hj : objs j with
    | none =>
      simp only [ih]
      by_cases hij : i = j
      · subst hij; simp [hj]
      · simp [hij]
    | some o =>
      simp only [ih]
      by_cases hij : i = j
      · subst hij; simp [hj, Originator.go]
      · simp [hij]

theorem root_eq {tree : TreeNode} {t : Addr} (ht : t ∈ clusterSelf tree) : tree.root t = some tree.addr := by
  obtain ⟨l, hl⟩ := chain_of_mem ht
  simp [root, hl, chain_last hl]

theorem goWithoutRemembering_eq {w : World σ α} {t : Addr} (ht : t ∈ clusterSelf w.care.tree) :
    w.goWithoutRemembering (some t) = .ok (true,
      { care := { w.care with current := t }, objs := World.goAll w.objs t w.care.originators }) := by
  simp [World.goWithoutRemembering, root_eq ht]

theorem go_inv {w : World σ α} (h : WInv w) {t : Addr} (ht : t ∈ clusterSelf w.care.tree) :
    WInv { care := { w.care with current := t }, objs := World.goAll w.objs t w.care.originators } := by
  constructor
  · exact h.nodup
  · exact ht
  · exact h.pinned
  · exact h.pinnedNodup
  · exact h.historyHead
  · exact h.history
  · exact h.browser
  · exact h.annotations
  · intro i hi o ho
    simp only at hi ho
    rw [goAll_eq, if_pos hi] at ho
    cases hoi : w.objs i with
    | none => simp [hoi] at ho
    | some o1 =>
      simp only [hoi, Option.map_some, Option.some.injEq] at ho
      subst ho
      obtain ⟨as, d, hinv⟩ := h.objs i hi o1 hoi
      exact ⟨as, d, hinv.goTo ht⟩

theorem arriveAt_spec {w : World σ α} (h : WInv w) {i : Nat} {t : Addr} (hi : w.care.history[i]? = some t) :
    w.arriveAt i = .ok
      { care := { w.care with current := t, browser := if i + 1 = w.care.history.length then none else some i }, objs := World.goAll w.objs t w.care.originators } := by
  have ht : t ∈ clusterSelf w.care.tree := h.history t (List.mem_of_getElem? hi)
  simp only [World.arriveAt, hi]
  rw [goWithoutRemembering_eq (w := { w with care := { w.care with
    current := t, browser := if i + 1 = w.care.history.length then none else some i } }) ht]

theorem arriveAt_inv {w : World σ α} (h : WInv w) {i : Nat} {t : Addr} (hi : w.care.history[i]? = some t) :
    WInv { care := { w.care with current := t, browser := if i + 1 = w.care.history.length then none else some i }, objs := World.goAll w.objs t w.care.originators } := by
  have ht : t ∈ clusterSelf w.care.tree := h.history t (List.mem_of_getElem? hi)
  have hg := go_inv h ht
  have hlt : i < w.care.history.length := by
    rw [List.getElem?_eq_some_iff] at hi
    exact hi.1
  refine { nodup := hg.nodup, current := hg.current, pinned := hg.pinned, pinnedNodup := hg.pinnedNodup,
           historyHead := hg.historyHead, history := hg.history, browser := ?_, annotations := hg.annotations,
           objs := hg.objs }
  intro j hj
  simp only at hj ⊢
  split at hj
  · cases hj
  · cases hj; omega

/-- Where `undo` arrives. -/
theorem undo_spec {w : World σ α} (h : WInv w) (k : Nat) :
    w.undo k = .ok w ∨ ∃ i t, w.care.history[i]? = some t ∧ w.undo k = w.arriveAt i ∧
      (∃ w', w.undo k = .ok w' ∧ WInv w') := by
  obtain ⟨b, hb, _⟩ := h.getLast
  have hlen : 0 < w.care.history.length := List.length_pos_iff.mpr h.history_ne
  unfold World.undo
  by_cases hk : k = 0
  · simp [hk]
  · simp only [hk, if_false]
    have : ∃ c, w.canUndo k = .ok c := by
      simp only [World.canUndo, hk, if_false, hb]
      split <;> exact ⟨_, rfl⟩
    obtain ⟨c, hc⟩ := this
    cases c with
    | false => left; simp [hc]
    | true =>
      right
      simp only [hc]
      have key : ∀ i, i < w.care.history.length → ∃ i' t, w.care.history[i']? = some t ∧
          w.arriveAt i = w.arriveAt i' ∧ ∃ w', w.arriveAt i = .ok w' ∧ WInv w' := by
        intro i hi
        have ht : w.care.history[i]? = some w.care.history[i] := List.getElem?_eq_getElem hi
        exact ⟨i, _, ht, rfl, _, arriveAt_spec h ht, arriveAt_inv h ht⟩
      cases hbr : w.care.browser with
      | some i =>
        have := h.browser i hbr
        exact key (i - k) (by omega)
      | none =>
        simp only [hb]
        exact key _ (by omega)

theorem redo_spec {w : World σ α} (h : WInv w) (k : Nat) :
    w.redo k = .ok w ∨ ∃ i t, w.care.history[i]? = some t ∧ w.redo k = w.arriveAt i ∧
      (∃ w', w.redo k = .ok w' ∧ WInv w') := by
  have hlen : 0 < w.care.history.length := List.length_pos_iff.mpr h.history_ne
  unfold World.redo
  by_cases hk : k = 0 ∨ w.canRedo k = false
  · simp [hk]
  · simp only [hk, if_false]
    cases hbr : w.care.browser with
    | none => left; rfl
    | some i =>
      right
      have := h.browser i hbr
      have hi : min (i + k) (w.care.history.length - 1) < w.care.history.length := by omega
      have ht := List.getElem?_eq_getElem hi
      exact ⟨_, _, ht, rfl, _, arriveAt_spec h ht, arriveAt_inv h ht⟩

theorem rememberCurrent_spec {w : World σ α} (h : WInv w) :
    ∃ w', w.rememberCurrent = .ok w' ∧ WInv w' := by
  obtain ⟨b, hb, _⟩ := h.getLast
  unfold World.rememberCurrent
  simp only [hb]
  by_cases hc : b ≠ w.care.current
  · rw [if_pos hc]
    refine ⟨_, rfl, ?_⟩
    refine { nodup := h.nodup, current := h.current, pinned := h.pinned, pinnedNodup := h.pinnedNodup,
             historyHead := ?_, history := ?_, browser := ?_, annotations := h.annotations, objs := h.objs }
    · have := h.historyHead
      cases hh : w.care.history with
      | nil => simp [hh] at this
      | cons x xs => simp_all
    · intro t ht
      simp only [List.mem_append, List.mem_singleton] at ht
      rcases ht with ht | rfl
      · exact h.history t ht
      · exact h.current
    · intro i hi
      have := h.browser i hi
      simp only [List.length_append, List.length_singleton]
      omega
  · rw [if_neg hc]
    exact ⟨w, rfl, h⟩

/-- Replacing one object. -/
theorem setObj_inv {w : World σ α} (h : WInv w) {i : Nat} {x : Option (Originator σ)}
    (hx : i ∈ w.care.originators → ∀ o, x = some o → ∃ as d, Originator.Inv w.care.tree w.care.current as d o) :
    WInv (w.setObj i x) := by
  refine { nodup := h.nodup, current := h.current, pinned := h.pinned, pinnedNodup := h.pinnedNodup,
           historyHead := h.historyHead, history := h.history, browser := h.browser,
           annotations := h.annotations, objs := ?_ }
  intro j hj o ho
  simp only [World.setObj] at ho
  by_cases hji : j = i
  · subst hji
    simp only [if_true] at ho
    exact hx hj o ho
  · simp only [hji, if_false] at ho
    exact h.objs j hj o ho

theorem setState_inv {w : World σ α} (h : WInv w) {i : Nat} {t : Option Addr} (hl : SetLegal w i t) (s : σ) :
    ∃ w', w.setState i t s = .ok w' ∧ WInv w' := by
  obtain ⟨o, ho, hreg⟩ := hl
  refine ⟨_, by simp only [World.setState, ho]; rfl, setObj_inv h ?_⟩
  intro hi o2 ho2
  cases ho2
  obtain ⟨a, rfl, hac, hcase⟩ := hreg hi
  obtain ⟨as, d, hinv⟩ := h.objs i hi o ho
  obtain ⟨l, hl, hal⟩ := ancOrSelf_iff.mp hac
  by_cases ha : a ∈ as
  · exact ⟨as, d, (hinv.setState_old ha s).1⟩
  · have hcase' : ∀ b, some b ∈ o.ordered → ¬ AncOrSelf w a b := by
      rcases hcase with hc | hc
      · rw [hinv.ordered] at hc
        exact absurd (by simpa using hc) ha
      · exact hc
    refine ⟨as ++ [a], d, (hinv.setState_new h.nodup hl hal ha ?_ s).1⟩
    intro b hb lb hlb hab
    refine hcase' b ?_ (ancOrSelf_iff.mpr ⟨lb, hlb, hab⟩)
    rw [hinv.ordered]; simpa using hb

/-- At a new timepoint, a state may be set. -/
theorem setLegal_new {w1 : World σ α} (h : WInv w1) {new : Addr} (hnew : new ∉ clusterSelf w1.care.tree)
    {i : Nat} {o : Originator σ} (ho : w1.objs i = some o) :
    SetLegal { w1 with care := { w1.care with tree := w1.care.tree.addChild w1.care.current new, current := new } }
      i (some new) := by
  obtain ⟨l, hl⟩ := chain_of_mem h.current
  refine ⟨o, ho, fun hi => ⟨new, rfl, ?_, Or.inr ?_⟩⟩
  · rw [ancOrSelf_iff]
    exact ⟨_, chain_addChild_new _ _ _ _ h.nodup hnew hl, by simp⟩
  · intro b hb hanc
    obtain ⟨as, d, hinv⟩ := h.objs i hi o ho
    rw [hinv.ordered] at hb
    have hb : b ∈ as := by simpa using hb
    have hlive := hinv.live b hb
    have hne : b ≠ new := fun hh => hnew (hh ▸ hlive)
    obtain ⟨lb, hlb, hm⟩ := ancOrSelf_iff.mp hanc
    simp only [chain_addChild_other _ _ _ _ hne] at hlb
    exact hnew (chain_subset _ _ _ hlb _ hm)

theorem stop_objs {w w1 : World σ α} {i : Nat}
    (hp : w1 = forgetFuture w ∨ GcPost (forgetFuture w) w1) (hi : (w.objs i).isSome) : (w1.objs i).isSome := by
  have hf : (forgetFuture w).objs = w.objs := by
    unfold forgetFuture; split <;> rfl
  rcases hp with rfl | hp
  · rw [hf]; exact hi
  · by_cases hreg : i ∈ (forgetFuture w).care.originators
    · rw [← hf] at hi
      obtain ⟨o, ho⟩ := Option.isSome_iff_exists.mp hi
      obtain ⟨o', ho', _⟩ := hp.objs i hreg o ho
      simp [ho']
    · rw [hp.other i hreg, hf]; exact hi

theorem reset_pre_inv {w : World σ α} (h : WInv w) {x : Addr} {xs : List Addr}
    (hh : w.care.history = x :: xs) :
    WInv { w with care := { w.care with current := w.care.tree.addr, pinned := [], history := [x], browser := none, originators := [] } } := by
  have hx := h.historyHead
  rw [hh] at hx
  simp only [List.head?_cons, Option.some.injEq] at hx
  refine { nodup := h.nodup, current := addr_mem _, pinned := by simp, pinnedNodup := by simp,
           historyHead := by simp [hx], history := ?_, browser := by simp,
           annotations := h.annotations, objs := by simp }
  intro t ht
  simp only [List.mem_singleton] at ht
  rw [ht, hx]; exact addr_mem _

theorem reset_spec {w : World σ α} (h : WInv w) : ∃ x xs w', w.care.history = x :: xs ∧ w.reset = .ok w' ∧
    WInv w' ∧ GcPost { w with care := { w.care with current := w.care.tree.addr, pinned := [], history := [x], browser := none, originators := [] } } w' := by
  cases hh : w.care.history with
  | nil => exact absurd hh h.history_ne
  | cons x xs =>
    obtain ⟨w', h1, h2, h3⟩ := gc_inv (reset_pre_inv h hh) (by
      intro i o hr; exact absurd hr.1 (by simp))
    refine ⟨x, xs, w', rfl, ?_, h2, h3⟩
    simp only [World.reset, hh]
    exact h1

/-- Every legal call succeeds and keeps the invariant. -/
theorem exec_inv {w : World σ α} (h : WInv w) (op : Op σ α) (hl : Legal w op) :
    ∃ w', exec w op = .ok w' ∧ WInv w' := by
  cases op with
  | makeNext new =>
    obtain ⟨w1, w', h1, h2, h3, h4, _⟩ := makeNextTimepoint_spec h hl
    exact ⟨w', h2, h4⟩
  | undo k =>
    rcases undo_spec h k with h1 | ⟨_, _, _, _, w', h1, h2⟩
    · exact ⟨w, h1, h⟩
    · exact ⟨w', h1, h2⟩
  | redo k =>
    rcases redo_spec h k with h1 | ⟨_, _, _, _, w', h1, h2⟩
    · exact ⟨w, h1, h⟩
    · exact ⟨w', h1, h2⟩
  | goWithoutRemembering t =>
    cases t with
    | none => exact ⟨w, rfl, h⟩
    | some t =>
      have ht := live_iff.mp (hl t rfl)
      exact ⟨_, by simp only [exec, goWithoutRemembering_eq ht]; rfl, go_inv h ht⟩
  | goAndRemember t =>
    cases t with
    | none => exact ⟨w, rfl, h⟩
    | some t =>
      have ht := live_iff.mp (hl t rfl)
      obtain ⟨w', h1, h2⟩ := rememberCurrent_spec (go_inv h ht)
      refine ⟨w', ?_, h2⟩
      simp only [exec, World.goAndRemember, goWithoutRemembering_eq ht, h1]
      rfl
  | remember => exact rememberCurrent_spec h
  | pin =>
    refine ⟨_, rfl, ?_⟩
    unfold World.pinCurrent
    split
    · rename_i hall
      refine { nodup := h.nodup, current := h.current, pinned := ?_, pinnedNodup := ?_,
               historyHead := h.historyHead, history := h.history, browser := h.browser,
               annotations := h.annotations, objs := h.objs }
      · intro t ht
        simp only [List.mem_append, List.mem_singleton] at ht
        rcases ht with ht | rfl
        · exact h.pinned t ht
        · exact h.current
      · simp only [List.nodup_append]
        refine ⟨h.pinnedNodup, by simp, ?_⟩
        intro a ha b hb
        simp only [List.mem_singleton] at hb
        subst hb
        have := List.all_eq_true.mp hall a ha
        simpa using this
    · exact h
  | unpin t =>
    have hw : WInv { w with care := { w.care with pinned := w.care.pinned.filter fun p => some p ≠ t } } :=
      { nodup := h.nodup, current := h.current,
        pinned := fun x hx => h.pinned x (List.mem_filter.mp hx).1
        pinnedNodup := h.pinnedNodup.filter _,
        historyHead := h.historyHead, history := h.history, browser := h.browser,
        annotations := h.annotations, objs := h.objs }
    simp only [exec, World.unpin]
    split
    · rename_i ha
      obtain ⟨w', h1, h2, _⟩ := gc_inv hw (hl ha)
      exact ⟨w', h1, h2⟩
    · exact ⟨_, rfl, hw⟩
  | annotate a =>
    refine ⟨_, rfl, ?_⟩
    unfold World.annotateCurrent
    split
    · exact h
    · refine { nodup := h.nodup, current := h.current, pinned := h.pinned, pinnedNodup := h.pinnedNodup,
               historyHead := h.historyHead, history := h.history, browser := h.browser,
               annotations := ?_, objs := h.objs }
      intro p hp
      simp only [List.mem_append, List.mem_singleton] at hp
      rcases hp with hp | rfl
      · exact h.annotations p hp
      · exact h.current
  | gc =>
    obtain ⟨w', h1, h2, _⟩ := gc_inv h hl
    exact ⟨w', h1, h2⟩
  | setAutoGc b =>
    exact ⟨_, rfl, ⟨h.nodup, h.current, h.pinned, h.pinnedNodup, h.historyHead, h.history, h.browser,
      h.annotations, h.objs⟩⟩
  | reset =>
    obtain ⟨_, _, w', _, h1, h2, _⟩ := reset_spec h
    exact ⟨w', h1, h2⟩
  | create i c t s =>
    obtain ⟨hnone, hreg, ht⟩ := hl
    rw [live_iff] at ht
    have hw : WInv (w.create i c (some t) s) := setObj_inv h (fun hi => absurd hi hreg)
    have hoi : (w.create i c (some t) s).objs i = some (Originator.make c (some t) s) := by
      simp [World.create, World.setObj]
    refine ⟨{ w.create i c (some t) s with
      care := { (w.create i c (some t) s).care with originators := w.care.originators ++ [i] } }, ?_, ?_⟩
    · simp only [exec, World.takeCareOf, hoi, Originator.make]
      have : (w.create i c (some t) s).care = w.care := rfl
      simp only [this, root_eq ht, if_true]
    · refine { nodup := h.nodup, current := h.current, pinned := h.pinned, pinnedNodup := h.pinnedNodup,
               historyHead := h.historyHead, history := h.history, browser := h.browser,
               annotations := h.annotations, objs := ?_ }
      intro j hj o ho
      simp only [List.mem_append, List.mem_singleton] at hj
      by_cases hji : j = i
      · subst hji
        rw [hoi] at ho
        cases ho
        exact ⟨[t], t, Originator.Inv.make ht h.current c s⟩
      · rcases hj with hj | hj
        · exact hw.objs j hj o ho
        · exact absurd hj hji
  | createUnregistered i c t s =>
    exact ⟨_, rfl, setObj_inv h (fun hi => absurd hi hl.2)⟩
  | destroy i =>
    exact ⟨_, rfl, setObj_inv h (fun _ o ho => by cases ho)⟩
  | setState i t s => exact setState_inv h hl s
  | setNext i new s =>
    obtain ⟨he, o, ho⟩ := hl
    obtain ⟨w1, w', h1, h2, h3, h4, h5, h6, rfl⟩ := makeNextTimepoint_spec h he
    obtain ⟨o1, ho1⟩ := Option.isSome_iff_exists.mp (stop_objs (i := i) h5 (by simp [ho]))
    obtain ⟨w', h7, h8⟩ := setState_inv h4 (setLegal_new h3 h6 ho1) s
    refine ⟨w', ?_, h8⟩
    simp only [exec, World.setNextState, h2]
    exact h7
  | read i =>
    obtain ⟨o, hi, ho⟩ := hl
    obtain ⟨as, d, hinv⟩ := h.objs i hi o ho
    obtain ⟨l, hl⟩ := chain_of_mem h.current
    obtain ⟨s, hs, hg⟩ := hinv.getCurrentState h.nodup hl
    refine ⟨_, by simp only [exec, World.getCurrentState, ho, hg]; rfl, setObj_inv h ?_⟩
    intro _ o2 ho2
    cases ho2
    exact ⟨as, d, hinv.settled hl⟩

theorem reachable_inv {w : World σ α} (h : Reachable w) : WInv w := by
  induction h with
  | fresh root => exact fresh_inv root
  | step op _ hl he ih =>
    obtain ⟨w', h1, h2⟩ := exec_inv ih op hl
    rw [he] at h1
    cases h1
    exact h2

end Verif
