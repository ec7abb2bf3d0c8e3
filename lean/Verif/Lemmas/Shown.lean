import Verif.Lemmas.Timeline

/-! Helper lemmas: what objects show. -/

namespace Verif
open TreeNode Spec

variable {σ α : Type}

theorem contains_some (as : List Addr) (a : Addr) : (as.map some).contains (some a) = as.contains a := by
  simp

theorem nearest_eq {w : World σ α} {cur as d} {o : Originator σ}
    (hi : Originator.Inv w.care.tree cur as d o) {t : Addr} {l : List Addr} (hl : chain w.care.tree t = some l) :
    nearest w o t = some (Originator.near as d l) := by
  unfold nearest
  simp only [ancestors, hl, Option.map_some, if_true, hi.ordered, contains_some]
  unfold Originator.near
  cases hf : l.find? (as.contains ·) with
  | none => simp [hi.init]
  | some a => simp

/-- Reading a registered object gives the state of the nearest recorded ancestor of the current timepoint. -/
theorem reads_eq {w : World σ α} (h : WInv w) {i : Nat} {o : Originator σ} (hr : Registered w i o) :
    ∃ s, shownAt w o w.care.current = some s ∧ reads w i = .ok s := by
  obtain ⟨as, d, hinv⟩ := h.objs i hr.1 o hr.2
  obtain ⟨l, hl⟩ := chain_of_mem h.current
  obtain ⟨s, hs, hg⟩ := hinv.getCurrentState h.nodup hl
  refine ⟨s, ?_, ?_⟩
  · unfold shownAt
    rw [nearest_eq hinv hl]; exact hs
  · simp only [reads, World.getCurrentState, hr.2, hg]; rfl

theorem shown_isSome {w : World σ α} (h : WInv w) {i : Nat} {o : Originator σ} (hr : Registered w i o)
    {t : Addr} (ht : Live w t) : ∃ s, shownAt w o t = some s := by
  obtain ⟨as, d, hinv⟩ := h.objs i hr.1 o hr.2
  obtain ⟨l, hl⟩ := chain_of_mem (live_iff.mp ht)
  unfold shownAt
  rw [nearest_eq hinv hl]
  have : (o.states.lookup (some (Originator.near as d l))).isSome := by
    rw [hinv.states, hinv.ordered]
    simpa using Originator.near_mem hinv.mem_init l
  exact Option.isSome_iff_exists.mp this

theorem find_congr {l : List Addr} {p q : Addr → Bool} (h : ∀ a ∈ l, p a = q a) : l.find? p = l.find? q := by
  induction l with
  | nil => rfl
  | cons x xs ih =>
    simp only [List.mem_cons, forall_eq_or_imp] at h
    simp only [List.find?, h.1, ih h.2]

theorem shownAt_congr {w w' : World σ α} {o o' : Originator σ} {t : Addr} {l : List Addr}
    (hl : chain w.care.tree t = some l) (hl' : chain w'.care.tree t = some l)
    (hord : ∀ a ∈ l, (some a ∈ o'.ordered ↔ some a ∈ o.ordered))
    (hlk : ∀ a ∈ l, o'.states.lookup (some a) = o.states.lookup (some a))
    (hinit : o'.init = o.init) (hlki : o'.states.lookup o.init = o.states.lookup o.init) :
    shownAt w' o' t = shownAt w o t := by
  unfold shownAt nearest
  simp only [ancestors, hl, hl', Option.map_some, if_true]
  have hc : l.find? (fun a => o'.ordered.contains (some a)) = l.find? (fun a => o.ordered.contains (some a)) := by
    apply find_congr
    intro a ha
    have := hord a ha
    rw [Bool.eq_iff_iff]
    simpa using this
  rw [hc]
  cases hf : l.find? (fun a => o.ordered.contains (some a)) with
  | none => simpa [hinit] using hlki
  | some a => exact hlk a (List.mem_of_find?_eq_some hf)

/-- A garbage collection changes nothing that a registered object shows at a timepoint that stays. -/
theorem GcPost.shown {w w' : World σ α} (h : WInv w) (hg : GcPost w w') {i : Nat} {o o' : Originator σ}
    (hr : Registered w i o) (ho' : w'.objs i = some o') (hb : ∀ a, o.init = some a → Needed w a)
    {t : Addr} (ht : Needed w t) : shownAt w' o' t = shownAt w o t := by
  obtain ⟨o2, ho2, hk, _⟩ := hg.objs i hr.1 o hr.2
  rw [ho'] at ho2; cases ho2
  obtain ⟨as, d, hinv⟩ := h.objs i hr.1 o hr.2
  obtain ⟨l, hl⟩ := chain_of_mem (Needed.live ht)
  have hneed : ∀ a ∈ l, Needed w a := fun a ha => Needed.anc h ht (ancOrSelf_iff.mpr ⟨l, hl, ha⟩)
  refine shownAt_congr hl (by rw [hg.chain t ht]; exact hl) (fun a ha => hk.ordered a (hneed a ha))
    (fun a ha => hk.lookup a (hneed a ha)) hk.init ?_
  rw [hinv.init]
  exact hk.lookup d (hb d hinv.init)

theorem forgetFuture_care (w : World σ α) : (forgetFuture w).care.tree = w.care.tree ∧
    (forgetFuture w).care.originators = w.care.originators ∧ (forgetFuture w).objs = w.objs ∧
    (forgetFuture w).care.current = w.care.current ∧ (forgetFuture w).care.pinned = w.care.pinned ∧
    (forgetFuture w).care.annotations = w.care.annotations := by
  unfold forgetFuture
  split <;> simp

theorem shownAt_tree {w w' : World σ α} (h : w'.care.tree = w.care.tree) (o : Originator σ) (t : Addr) :
    shownAt w' o t = shownAt w o t := by
  simp only [shownAt, nearest, h]

theorem registered_forget {w : World σ α} {i : Nat} {o : Originator σ} :
    Registered (forgetFuture w) i o ↔ Registered w i o := by
  unfold Registered
  rw [(forgetFuture_care w).2.1, (forgetFuture_care w).2.2.1]

/-- `stop_browsing_user_history` changes nothing that shows at a surviving timepoint. -/
theorem stop_shown {w w1 : World σ α} (h : WInv w) {new : Addr} (hl : EditLegal w new)
    (hs : w.stopBrowsing = .ok w1) (hp : w1 = forgetFuture w ∨ GcPost (forgetFuture w) w1)
    {i : Nat} {o o1 : Originator σ} (hr : Registered w i o) (ho1 : w1.objs i = some o1) {t : Addr}
    (ht : t ∈ clusterSelf w1.care.tree) : shownAt w1 o1 t = shownAt w o t := by
  have hf := h.forgetFuture
  rcases hp with rfl | hp
  · rw [(forgetFuture_care w).2.2.1, hr.2] at ho1
    cases ho1
    exact shownAt_tree (forgetFuture_care w).1 o t
  · rw [hp.live] at ht
    by_cases hb : w.care.browser = none
    · -- then nothing was collected
      have : w1 = w := by
        simp only [World.stopBrowsing, hb] at hs
        exact (except_ok_inj hs).symm
      subst this
      rw [hr.2] at ho1
      cases ho1
      rfl
    · by_cases ha : w.care.autoGc = true
      · rw [hp.shown hf (registered_forget.mpr hr) ho1
          (fun a ha' => hl.1 hb ha i o (registered_forget.mpr hr) a ha') ht]
        exact shownAt_tree (forgetFuture_care w).1 o t
      · -- no collection either
        obtain ⟨j, hj⟩ := Option.ne_none_iff_exists'.mp hb
        have : w1 = forgetFuture w := by
          simp only [World.stopBrowsing, hj] at hs
          rw [if_neg ha] at hs
          rw [← except_ok_inj hs]
          simp [forgetFuture, hj]
        subst this
        rw [(forgetFuture_care w).2.2.1, hr.2] at ho1
        cases ho1
        exact shownAt_tree (forgetFuture_care w).1 o t

theorem makeNext_shown {w w' : World σ α} (h : WInv w) {new : Addr} (hl : EditLegal w new)
    (he : w.makeNextTimepoint new = .ok w') {i : Nat} {o o' : Originator σ} (hr : Registered w i o)
    (ho' : w'.objs i = some o') {t : Addr} (ht : Live w' t) (hne : new ≠ t) :
    shownAt w' o' t = shownAt w o t := by
  obtain ⟨w1, w2, h1, h2, h3, h4, h5, h6, rfl⟩ := makeNextTimepoint_spec h hl
  rw [he] at h2; cases h2
  rw [live_iff] at ht
  simp only [mem_addChild] at ht
  have ht1 : t ∈ clusterSelf w1.care.tree := by
    rcases ht with ht | ht
    · exact ht
    · exact absurd ht.1.symm hne
  rw [← stop_shown h hl h1 h5 hr ho' ht1]
  simp only [shownAt, nearest, ancestors, chain_addChild_other _ _ _ _ (Ne.symm hne)]

theorem goAll_shown {w : World σ α} {t u : Addr} {i : Nat} {o o' : Originator σ} (ho : w.objs i = some o)
    (ho' : World.goAll w.objs t w.care.originators i = some o') :
    o'.states = o.states ∧ o'.ordered = o.ordered ∧ o'.init = o.init ∧ o'.isConst = o.isConst := by
  rw [goAll_eq, ho] at ho'
  split at ho' <;> cases ho' <;> simp [Originator.go]

theorem shownAt_same {w w' : World σ α} {o o' : Originator σ} {t : Addr} (h : w'.care.tree = w.care.tree)
    (h1 : o'.states = o.states) (h2 : o'.ordered = o.ordered) (h3 : o'.init = o.init) :
    shownAt w' o' t = shownAt w o t := by
  simp only [shownAt, nearest, h, h1, h2, h3]

theorem setObj_objs {w : World σ α} {i j : Nat} {x : Option (Originator σ)} :
    (w.setObj i x).objs j = if j = i then x else w.objs j := rfl

/-- Setting a state that is not on the chain of `t` changes nothing that shows at `t`. -/
theorem setState_shown {w w' : World σ α} (h : WInv w) {j : Nat} {u : Option Addr} {s : σ} (hl : SetLegal w j u)
    (he : w.setState j u s = .ok w') {i : Nat} {o o' : Originator σ} (hr : Registered w i o)
    (ho' : w'.objs i = some o') {t : Addr} (ht : Live w t)
    (hns : j = i → ∀ a, u = some a → ¬ AncOrSelf w a t ∧ o.init ≠ some a) : shownAt w' o' t = shownAt w o t := by
  obtain ⟨oj, hoj, hreg⟩ := hl
  simp only [World.setState, hoj] at he
  have he := except_ok_inj he
  subst he
  rw [setObj_objs] at ho'
  by_cases hij : i = j
  · subst hij
    simp only [if_true, Option.some.injEq] at ho'
    rw [hr.2] at hoj; cases hoj
    subst ho'
    obtain ⟨a, rfl, hac, hcase⟩ := hreg hr.1
    obtain ⟨as, d, hinv⟩ := h.objs i hr.1 o hr.2
    obtain ⟨l, hl⟩ := chain_of_mem (live_iff.mp ht)
    have hal : a ∉ l := fun hh => (hns rfl a rfl).1 (ancOrSelf_iff.mpr ⟨l, hl, hh⟩)
    have hne : ∀ b ∈ l, b ≠ a := fun b hb hh => hal (hh ▸ hb)
    obtain ⟨lc, hlc, hac'⟩ := ancOrSelf_iff.mp hac
    by_cases haas : a ∈ as
    · -- a recorded timepoint off the chain
      obtain ⟨h1, h2⟩ := hinv.setState_old haas s
      have hx : nearest w o t = some (Originator.near as d l) := nearest_eq hinv hl
      have hx' : nearest (w.setObj i (some (o.setState (some a) s))) (o.setState (some a) s) t
          = some (Originator.near as d l) :=
        nearest_eq (w := w.setObj i (some (o.setState (some a) s))) (cur := w.care.current) h1 hl
      unfold shownAt
      rw [hx, hx', h2]
      by_cases hna : Originator.near as d l = a
      · exfalso
        unfold Originator.near at hna
        cases hf : l.find? (as.contains ·) with
        | some n =>
          rw [hf] at hna
          exact hne n (List.mem_of_find?_eq_some hf) hna
        | none =>
          rw [hf] at hna
          simp only [Option.getD_none] at hna
          subst hna
          exact (hns rfl d rfl).2 hinv.init
      · simp [hna]
    · have hcase' : ∀ b ∈ as, ∀ lb, chain w.care.tree b = some lb → a ∉ lb := by
        intro b hb lb hlb hab
        rcases hcase with hc | hc
        · rw [hinv.ordered] at hc
          exact absurd (by simpa using hc) haas
        · exact hc b (by rw [hinv.ordered]; simpa using hb) (ancOrSelf_iff.mpr ⟨lb, hlb, hab⟩)
      obtain ⟨h1, h2, _⟩ := hinv.setState_new h.nodup hlc hac' haas hcase' s
      refine shownAt_congr hl hl ?_ ?_ ?_ ?_
      · intro b hb
        rw [h1.ordered, hinv.ordered]
        simp [hne b hb]
      · intro b hb
        rw [h2]
        simp [hne b hb]
      · rw [h1.init, hinv.init]
      · rw [h2, hinv.init]
        have : d ≠ a := fun hh => haas (hh ▸ hinv.mem_init)
        simp [this]
  · simp only [hij, if_false] at ho'
    rw [hr.2] at ho'; cases ho'
    rfl

/-- One call leaves what an object shows at a timepoint unchanged. -/
theorem step_shown {w w' : World σ α} (h : WInv w) {op : Op σ α} (hl : Legal w op) (he : exec w op = .ok w')
    {i : Nat} {o o' : Originator σ} (hr : Registered w i o) (hr' : Registered w' i o') {t : Addr}
    (ht : Live w t) (ht' : Live w' t) (hna : ¬ Allocates op t) (hns : ¬ SetsFor w i t op) :
    shownAt w' o' t = shownAt w o t := by
  have harr : ∀ {k}, (∃ u, w.care.history[k]? = some u) → w.arriveAt k = .ok w' →
      shownAt w' o' t = shownAt w o t := by
    rintro k ⟨u, hk⟩ he
    rw [arriveAt_spec h hk] at he
    have he := except_ok_inj he
    subst he
    obtain ⟨h1, h2, h3, _⟩ := goAll_shown (u := u) hr.2 hr'.2
    exact shownAt_same rfl h1 h2 h3
  cases op with
  | makeNext new => exact makeNext_shown h hl he hr hr'.2 ht' hna
  | undo k =>
    rcases undo_spec h k with h1 | ⟨j, u, h1, h2, _⟩
    · simp only [exec, h1] at he; cases he
      cases hr.2.symm.trans hr'.2; rfl
    · simp only [exec, h2] at he
      exact harr ⟨u, h1⟩ he
  | redo k =>
    rcases redo_spec h k with h1 | ⟨j, u, h1, h2, _⟩
    · simp only [exec, h1] at he; cases he
      cases hr.2.symm.trans hr'.2; rfl
    · simp only [exec, h2] at he
      exact harr ⟨u, h1⟩ he
  | goWithoutRemembering u =>
    cases u with
    | none => cases he; cases hr.2.symm.trans hr'.2; rfl
    | some u =>
      simp only [exec, goWithoutRemembering_eq (live_iff.mp (hl u rfl))] at he
      cases he
      obtain ⟨h1, h2, h3, _⟩ := goAll_shown (u := u) hr.2 hr'.2
      exact shownAt_same rfl h1 h2 h3
  | goAndRemember u =>
    cases u with
    | none => cases he; cases hr.2.symm.trans hr'.2; rfl
    | some u =>
      simp only [exec, World.goAndRemember, goWithoutRemembering_eq (live_iff.mp (hl u rfl)),
        World.rememberCurrent] at he
      split at he
      · cases he
      · rename_i heq
        split at heq
        · cases heq
        · split at heq
          · cases heq; cases he
            obtain ⟨h1, h2, h3, _⟩ := goAll_shown (u := u) hr.2 hr'.2
            exact shownAt_same rfl h1 h2 h3
          · cases heq; cases he
            obtain ⟨h1, h2, h3, _⟩ := goAll_shown (u := u) hr.2 hr'.2
            exact shownAt_same rfl h1 h2 h3
  | remember =>
    simp only [exec, World.rememberCurrent] at he
    split at he
    · cases he
    · split at he <;> cases he <;> cases hr.2.symm.trans hr'.2 <;> rfl
  | pin =>
    cases he
    have h1 : w.pinCurrent.care.tree = w.care.tree ∧ w.pinCurrent.objs = w.objs := by
      unfold World.pinCurrent; split <;> simp
    have h2 := hr'.2
    rw [h1.2] at h2
    cases hr.2.symm.trans h2
    exact shownAt_tree h1.1 _ _
  | unpin u =>
    simp only [exec, World.unpin] at he
    split at he
    · rename_i ha
      have hw : WInv { w with care := { w.care with pinned := w.care.pinned.filter fun p => some p ≠ u } } :=
        { nodup := h.nodup, current := h.current,
          pinned := fun x hx => h.pinned x (List.mem_filter.mp hx).1
          pinnedNodup := h.pinnedNodup.filter _,
          historyHead := h.historyHead, history := h.history, browser := h.browser,
          annotations := h.annotations, objs := h.objs }
      obtain ⟨w'', h1, h2⟩ := gc_spec hw
      rw [h1] at he
      cases he
      rw [live_iff, h2.live] at ht'
      rw [h2.shown hw (i := i) hr hr'.2 (fun a ha' => hl ha i o hr a ha') ht']
      rfl
    · cases he; cases hr.2.symm.trans hr'.2; rfl
  | annotate a =>
    cases he
    have h1 : (w.annotateCurrent a).care.tree = w.care.tree ∧ (w.annotateCurrent a).objs = w.objs := by
      unfold World.annotateCurrent; split <;> simp
    have h2 := hr'.2
    rw [h1.2] at h2
    cases hr.2.symm.trans h2
    exact shownAt_tree h1.1 _ _
  | gc =>
    obtain ⟨w'', h1, h2⟩ := gc_spec h
    simp only [exec, h1] at he
    cases he
    rw [live_iff, h2.live] at ht'
    exact h2.shown h hr hr'.2 (fun a ha' => hl i o hr a ha') ht'
  | setAutoGc b => cases he; cases hr.2.symm.trans hr'.2; rfl
  | reset =>
    obtain ⟨x, xs, w'', hh, h1, h2, h3⟩ := reset_spec h
    simp only [exec, h1] at he
    cases he
    have := (h3.originators i).mp hr'.1
    simp at this
  | create j c u s =>
    have hij : i ≠ j := by
      rintro rfl
      have := hl.1
      rw [hr.2] at this; cases this
    have key : ∀ wx : World σ α, wx.care.tree = w.care.tree → wx.objs = (w.create j c (some u) s).objs →
        Registered wx i o' → shownAt wx o' t = shownAt w o t := by
      intro wx h1 h2 h3
      have h4 := h3.2
      rw [h2] at h4
      simp only [World.create, setObj_objs, hij, if_false, hr.2, Option.some.injEq] at h4
      subst h4
      exact shownAt_same h1 rfl rfl rfl
    simp only [exec, World.takeCareOf] at he
    split at he
    · cases he; exact key _ rfl rfl hr'
    · split at he
      · cases he; exact key _ rfl rfl hr'
      · split at he
        · cases he
        · split at he <;> cases he <;> exact key _ rfl rfl hr'
  | createUnregistered j c u s =>
    cases he
    have hij : i ≠ j := by
      rintro rfl
      have := hl.1
      rw [hr.2] at this; cases this
    have h4 := hr'.2
    simp only [World.create, setObj_objs, hij, if_false, hr.2, Option.some.injEq] at h4
    subst h4
    rfl
  | destroy j =>
    cases he
    have h4 := hr'.2
    simp only [World.destroy, setObj_objs] at h4
    split at h4
    · cases h4
    · cases hr.2.symm.trans h4; rfl
  | setState j u s =>
    refine setState_shown h hl he hr hr'.2 ht ?_
    rintro rfl a rfl
    constructor
    · intro hh; exact hns ⟨rfl, Or.inl hh⟩
    · intro hh; exact hns ⟨rfl, Or.inr ⟨o, hr.2, hh⟩⟩
  | setNext j new s =>
    obtain ⟨hle, oj, hoj⟩ := hl
    obtain ⟨w1, w2, h1, h2, h3, h4, h5, h6, rfl⟩ := makeNextTimepoint_spec h hle
    simp only [exec, World.setNextState, h2] at he
    obtain ⟨oj1, hoj1⟩ := Option.isSome_iff_exists.mp (stop_objs (i := j) h5 (by simp [hoj]))
    have hsl := setLegal_new h3 h6 hoj1
    obtain ⟨oi1, hoi1⟩ := Option.isSome_iff_exists.mp (stop_objs (i := i) h5 (by simp [hr.2]))
    have htree : w'.care = ({ w1 with care := { w1.care with tree := w1.care.tree.addChild w1.care.current new, current := new } } : World σ α).care := by
      simp only [World.setState, hoj1] at he
      cases he; rfl
    have ht2 : Live ({ w1 with care := { w1.care with tree := w1.care.tree.addChild w1.care.current new, current := new } } : World σ α) t := by
      simpa only [Live, htree] using ht'
    have hreg2 : Registered ({ w1 with care := { w1.care with tree := w1.care.tree.addChild w1.care.current new, current := new } } : World σ α) i oi1 := by
      refine ⟨?_, hoi1⟩
      have := hr'.1
      rw [htree] at this
      exact this
    have hne : new ≠ t := hna
    rw [setState_shown h4 hsl he hreg2 hr'.2 ht2 ?_]
    · exact makeNext_shown h hle h2 hr hoi1 ht2 hne
    · rintro rfl a ha
      cases ha
      obtain ⟨as, d, hinv⟩ := h3.objs j hreg2.1 oi1 hoi1
      constructor
      · intro hh
        obtain ⟨l, hl, hm⟩ := ancOrSelf_iff.mp hh
        simp only [chain_addChild_other _ _ _ _ (Ne.symm hne)] at hl
        exact h6 (chain_subset _ _ _ hl _ hm)
      · rw [hinv.init]
        intro hh
        simp only [Option.some.injEq] at hh
        exact h6 (hh ▸ hinv.live d hinv.mem_init)
  | read j =>
    obtain ⟨oj, hrj, hoj⟩ := hl
    obtain ⟨as, d, hinv⟩ := h.objs j hrj oj hoj
    obtain ⟨l, hl⟩ := chain_of_mem h.current
    obtain ⟨s, hs, hg⟩ := hinv.getCurrentState h.nodup hl
    simp only [exec, World.getCurrentState, hoj, hg] at he
    cases he
    have h4 := hr'.2
    rw [setObj_objs] at h4
    split at h4
    · rename_i hij
      subst hij
      cases h4
      cases hr.2.symm.trans hoj
      exact shownAt_same rfl rfl rfl rfl
    · cases hr.2.symm.trans h4; rfl

theorem undisturbed_shown {i : Nat} {t : Addr} {w w' : World σ α} {ops : List (Op σ α)}
    (hu : Undisturbed i t w ops w') : ∀ {o : Originator σ}, WInv w → Registered w i o → Live w t →
    WInv w' ∧ ∃ o', Registered w' i o' ∧ Live w' t ∧ shownAt w' o' t = shownAt w o t := by
  induction hu with
  | nil => intro o h hr ht; exact ⟨h, o, hr, ht, rfl⟩
  | cons hl he hr1 ht1 hna hns _ ih =>
    intro o h hr ht
    obtain ⟨o1, hr1⟩ := hr1
    obtain ⟨w1, h1, h2⟩ := exec_inv h _ hl
    rw [he] at h1; cases h1
    obtain ⟨h3, o', h4, h5, h6⟩ := ih h2 hr1 ht1
    exact ⟨h3, o', h4, h5, h6.trans (step_shown h hl he hr hr1 ht ht1 hna hns)⟩

end Verif
