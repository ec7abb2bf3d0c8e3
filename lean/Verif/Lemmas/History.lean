import Verif.Lemmas.Demo

/-! Helper lemmas for the properties of the history. -/

namespace Verif
open Spec

variable {σ α : Type}

theorem standsOn_arrive {w : World σ α} (h : WInv w) {p : Nat} {t : Addr} (hp : w.care.history[p]? = some t) :
    ∃ w', w.arriveAt p = .ok w' ∧ StandsOn w' p ∧ WInv w' ∧ w'.care.history = w.care.history ∧
      w'.care.tree = w.care.tree ∧ w'.care.originators = w.care.originators ∧ w'.care.current = t ∧
      ∀ i, w'.objs i = if i ∈ w.care.originators then (w.objs i).map (·.go (some t)) else w.objs i := by
  refine ⟨_, arriveAt_spec h hp, ⟨?_, ?_⟩, arriveAt_inv h hp, rfl, rfl, rfl, rfl, fun i => goAll_eq _ _ _ _⟩
  · exact hp
  · simp only
    split
    · rename_i he; exact Or.inr ⟨rfl, he⟩
    · exact Or.inl rfl

theorem canUndo_standsOn {w : World σ α} {p : Nat} (hs : StandsOn w p) (k : Nat) :
    w.canUndo k = .ok (decide (1 ≤ k ∧ k ≤ p)) := by
  unfold World.canUndo
  by_cases hk : k = 0
  · simp [hk]
  · simp only [hk, if_false]
    obtain ⟨h1, h2 | ⟨h2, h3⟩⟩ := hs
    · rw [h2]
      simp only
      congr 1
      rw [decide_eq_decide]; omega
    · rw [h2]
      have hl : w.care.history.getLast? = some w.care.current := by
        rw [List.getLast?_eq_getElem?, ← h3]; simpa using h1
      rw [hl]
      simp only [if_true]
      congr 1
      rw [decide_eq_decide]; omega

theorem canRedo_standsOn {w : World σ α} {p : Nat} (hs : StandsOn w p) (k : Nat) :
    w.canRedo k = decide (1 ≤ k ∧ p + k < w.care.history.length) := by
  unfold World.canRedo
  have hlt : p < w.care.history.length := (List.getElem?_eq_some_iff.mp hs.1).1
  by_cases hk : k = 0
  · simp [hk]
  · simp only [hk, if_false]
    obtain ⟨h1, h2 | ⟨h2, h3⟩⟩ := hs
    · rw [h2]
      simp only [decide_eq_decide]; omega
    · rw [h2]
      symm
      simp only [decide_eq_false_iff_not]; omega

theorem undo_standsOn {w : World σ α} {p k : Nat} (hs : StandsOn w p) (hk : 1 ≤ k) (hkp : k ≤ p) :
    w.undo k = w.arriveAt (p - k) := by
  unfold World.undo
  rw [if_neg (by omega), canUndo_standsOn hs]
  have : decide (1 ≤ k ∧ k ≤ p) = true := by simp; omega
  rw [this]
  obtain ⟨h1, h2 | ⟨h2, h3⟩⟩ := hs
  · rw [h2]
  · have hl : w.care.history.getLast? = some w.care.current := by
      rw [List.getLast?_eq_getElem?, ← h3]; simpa using h1
    simp only [h2, hl, ne_eq, not_true_eq_false, if_false]
    congr 1
    omega

theorem redo_standsOn {w : World σ α} {p k : Nat} (hs : StandsOn w p) (hk : 1 ≤ k)
    (hkp : p + k < w.care.history.length) : w.redo k = w.arriveAt (p + k) := by
  unfold World.redo
  rw [canRedo_standsOn hs]
  have : decide (1 ≤ k ∧ p + k < w.care.history.length) = true := by simp; omega
  rw [this, if_neg (by simp; omega)]
  obtain ⟨h1, h2 | ⟨h2, h3⟩⟩ := hs
  · rw [h2]
    simp only
    congr 1
    omega
  · omega

theorem reads_after_go {w w' : World σ α} (h : WInv w) (h' : WInv w') {i : Nat} {o o' : Originator σ}
    (hr : Registered w i o) (hr' : Registered w' i o') (htree : w'.care.tree = w.care.tree)
    (h1 : o'.states = o.states) (h2 : o'.ordered = o.ordered) (h3 : o'.init = o.init)
    (hc : w'.care.current = w.care.current) : reads w' i = reads w i := by
  obtain ⟨s, hs, hs'⟩ := reads_eq h hr
  obtain ⟨s2, hs2, hs2'⟩ := reads_eq h' hr'
  rw [hs', hs2']
  rw [hc, shownAt_same htree h1 h2 h3, hs] at hs2
  cases hs2; rfl

instance (w : World σ α) (p : Nat) : Decidable (StandsOn w p) :=
  inferInstanceAs (Decidable (_ ∧ (_ ∨ (_ ∧ _))))

/-- What objects read after a new timepoint was made: the same. -/
theorem makeNext_reads {w w' : World σ α} (h : WInv w) {new : Addr} (hl : EditLegal w new)
    (he : w.makeNextTimepoint new = .ok w') {i : Nat} {o : Originator σ} (hr : Registered w i o) :
    ∃ o', Registered w' i o' ∧ WInv w' ∧ reads w' i = reads w i ∧ w'.care.current = new ∧
      some new ∉ o'.ordered ∧ o'.isConst = o.isConst := by
  obtain ⟨w1, w2, h1, h2, h3, h4, h5, h6, rfl⟩ := makeNextTimepoint_spec h hl
  rw [he] at h2; cases h2
  obtain ⟨o1, ho1⟩ := Option.isSome_iff_exists.mp (stop_objs (i := i) h5 (by simp [hr.2]))
  have hcur : w1.care.current = w.care.current := by
    rcases h5 with rfl | hp
    · exact (forgetFuture_care w).2.2.2.1
    · rw [hp.current]; exact (forgetFuture_care w).2.2.2.1
  have hreg : i ∈ w1.care.originators := by
    rcases h5 with rfl | hp
    · rw [(forgetFuture_care w).2.1]; exact hr.1
    · rw [hp.originators, (forgetFuture_care w).2.1, (forgetFuture_care w).2.2.1]
      exact ⟨hr.1, by simp [hr.2]⟩
  have hconst : o1.isConst = o.isConst := by
    rcases h5 with rfl | hp
    · rw [(forgetFuture_care w).2.2.1, hr.2] at ho1; cases ho1; rfl
    · obtain ⟨o2, ho2, hk, _⟩ := hp.objs i (registered_forget.mpr hr).1 o (registered_forget.mpr hr).2
      cases ho2.symm.trans ho1
      exact hk.isConst
  have hr2 : Registered ({ w1 with care := { w1.care with tree := w1.care.tree.addChild w1.care.current new, current := new } } : World σ α) i o1 := ⟨hreg, ho1⟩
  obtain ⟨as, d, hinv⟩ := h3.objs i hreg o1 ho1
  have hnas : new ∉ as := fun hh => h6 (hinv.live new hh)
  refine ⟨o1, hr2, h4, ?_, rfl, ?_, hconst⟩
  · obtain ⟨s, hs, hs'⟩ := reads_eq h hr
    obtain ⟨s2, hs2, hs2'⟩ := reads_eq h4 hr2
    rw [hs', hs2']
    obtain ⟨l, hlc⟩ := TreeNode.chain_of_mem h3.current
    have hsame : shownAt w1 o1 w1.care.current = shownAt w o w1.care.current :=
      stop_shown h hl h1 h5 hr ho1 h3.current
    rw [hcur] at hsame
    have hn1 : nearest w1 o1 w1.care.current = some (Originator.near as d l) := nearest_eq hinv hlc
    have hn2 := nearest_eq
      (w := { w1 with care := { w1.care with tree := w1.care.tree.addChild w1.care.current new, current := new } })
      (hinv.addChild h3.nodup h6) (TreeNode.chain_addChild_new _ _ _ _ h3.nodup h6 hlc)
    rw [Originator.near_cons_of_not_mem hnas] at hn2
    unfold shownAt at hs2 hsame
    simp only [hn2] at hs2
    rw [← hcur, hn1, hs2, hcur] at hsame
    have : some s2 = some s := by rw [← hs]; exact hsame
    cases this; rfl
  · rw [hinv.ordered]; simpa using hnas

/-- Setting a state makes it readable. -/
theorem setState_reads {w : World σ α} (h : WInv w) {i : Nat} {a : Addr} {o : Originator σ}
    (hr : Registered w i o) (hl : SetLegal w i (some a)) (s : σ)
    (hc : some a ∉ o.ordered ∨ (o.isConst = false ∧ nearest w o w.care.current = some a)) :
    ∃ w', w.setState i (some a) s = .ok w' ∧ reads w' i = .ok s := by
  obtain ⟨w', h1, h2⟩ := setState_inv h hl s
  refine ⟨w', h1, ?_⟩
  have hl' := hl
  obtain ⟨o2, ho2, hreg⟩ := hl'
  cases hr.2.symm.trans ho2
  obtain ⟨a', ha', hac, hcase⟩ := hreg hr.1
  cases ha'
  have he : w' = w.setObj i (some (o.setState (some a) s)) := by
    simp only [World.setState, hr.2] at h1
    exact (except_ok_inj h1).symm
  subst he
  have hr' : Registered (w.setObj i (some (o.setState (some a) s))) i (o.setState (some a) s) :=
    ⟨hr.1, by simp [World.setObj]⟩
  obtain ⟨s', hs', hs''⟩ := reads_eq h2 hr'
  rw [hs'']
  obtain ⟨as, d, hinv⟩ := h.objs i hr.1 o hr.2
  obtain ⟨l, hlc, hal⟩ := ancOrSelf_iff.mp hac
  have : s' = s := by
    rcases hc with hc | ⟨hc, hn⟩
    · have hnas : a ∉ as := by
        intro hh; apply hc; rw [hinv.ordered]; simpa using hh
      have hanc : ∀ b ∈ as, ∀ lb, TreeNode.chain w.care.tree b = some lb → a ∉ lb := by
        intro b hb lb hlb hab
        rcases hcase with hc' | hc'
        · exact hc hc'
        · exact hc' b (by rw [hinv.ordered]; simpa using hb) (ancOrSelf_iff.mpr ⟨lb, hlb, hab⟩)
      obtain ⟨k1, k2, k3⟩ := hinv.setState_new h.nodup hlc hal hnas hanc s
      have hnn := nearest_eq (w := w.setObj i (some (o.setState (some a) s))) k1 (t := w.care.current) hlc
      rw [k3] at hnn
      unfold shownAt at hs'
      have hcur : (w.setObj i (some (o.setState (some a) s))).care.current = w.care.current := rfl
      rw [hcur, hnn, k2] at hs'
      simpa using hs'.symm
    · have hmem : a ∈ as := by
        rw [nearest_eq hinv hlc] at hn
        cases hn
        exact Originator.near_mem hinv.mem_init l
      obtain ⟨k1, k2⟩ := hinv.setState_old hmem s
      have hnn := nearest_eq (w := w.setObj i (some (o.setState (some a) s))) k1 (t := w.care.current) hlc
      rw [nearest_eq hinv hlc] at hn
      rw [Option.some.inj hn] at hnn
      unfold shownAt at hs'
      have hcur : (w.setObj i (some (o.setState (some a) s))).care.current = w.care.current := rfl
      rw [hcur, hnn, k2] at hs'
      simpa [hc] using hs'.symm
  rw [this]

/-- Another object reads the same after a state is set. -/
theorem setState_reads_other {w w' : World σ α} {i j : Nat} {t : Option Addr} {s : σ} (hij : j ≠ i)
    (he : w.setState i t s = .ok w') : reads w' j = reads w j := by
  simp only [World.setState] at he
  split at he
  · cases he
  · have := except_ok_inj he
    subst this
    simp only [reads, World.getCurrentState, setObj_objs, hij, if_false]
    cases w.objs j with
    | none => rfl
    | some o =>
      simp only
      rename_i o2 _
      have : (w.setObj i (some (Originator.setState o2 t s))).care = w.care := rfl
      rw [this]
      cases o.getCurrentState w.care.tree <;> rfl

theorem pinned_unpin {w w' : World σ α} (h : WInv w) {t : Option Addr} (he : w.unpin t = .ok w') :
    w'.care.pinned = w.care.pinned.filter (fun p => decide (some p ≠ t)) := by
  simp only [World.unpin] at he
  split at he
  · have hw : WInv { w with care := { w.care with pinned := w.care.pinned.filter fun p => some p ≠ t } } :=
      { nodup := h.nodup, current := h.current,
        pinned := fun x hx => h.pinned x (List.mem_filter.mp hx).1
        pinnedNodup := h.pinnedNodup.filter _,
        historyHead := h.historyHead, history := h.history, browser := h.browser,
        annotations := h.annotations, objs := h.objs }
    obtain ⟨w'', h1, h2⟩ := gc_spec hw
    rw [h1] at he
    cases he
    exact h2.pinned
  · cases he; rfl

theorem pinned_makeNext {w w' : World σ α} (h : WInv w) {new : Addr} (hl : EditLegal w new)
    (he : w.makeNextTimepoint new = .ok w') : w'.care.pinned = w.care.pinned := by
  obtain ⟨w1, w2, h1, h2, h3, h4, h5, h6, rfl⟩ := makeNextTimepoint_spec h hl
  rw [he] at h2; cases h2
  rcases h5 with rfl | hp
  · exact (forgetFuture_care w).2.2.2.2.1
  · simp only [hp.pinned]; exact (forgetFuture_care w).2.2.2.2.1

theorem pinned_remember {w w' : World σ α} (he : w.rememberCurrent = .ok w') :
    w'.care.pinned = w.care.pinned := by
  simp only [World.rememberCurrent] at he
  split at he
  · cases he
  · split at he <;> cases he <;> rfl

theorem pinned_other {w w' : World σ α} (h : WInv w) {op : Op σ α} (hl : Legal w op) (he : exec w op = .ok w')
    (h1 : op ≠ .pin) (h2 : ∀ t, op ≠ .unpin t) (h3 : op ≠ .reset) : w'.care.pinned = w.care.pinned := by
  cases op with
  | makeNext new => exact pinned_makeNext h hl he
  | undo k =>
    rcases undo_spec h k with h4 | ⟨j, u, h4, h5, _⟩
    · simp only [exec, h4] at he; cases he; rfl
    · simp only [exec, h5, arriveAt_spec h h4] at he; cases he; rfl
  | redo k =>
    rcases redo_spec h k with h4 | ⟨j, u, h4, h5, _⟩
    · simp only [exec, h4] at he; cases he; rfl
    · simp only [exec, h5, arriveAt_spec h h4] at he; cases he; rfl
  | goWithoutRemembering t =>
    cases t with
    | none => cases he; rfl
    | some t =>
      simp only [exec, goWithoutRemembering_eq (live_iff.mp (hl t rfl))] at he
      cases he; rfl
  | goAndRemember t =>
    cases t with
    | none => cases he; rfl
    | some t =>
      simp only [exec, World.goAndRemember, goWithoutRemembering_eq (live_iff.mp (hl t rfl))] at he
      split at he
      · cases he
      · rename_i heq
        cases he
        exact (pinned_remember heq).trans rfl
  | remember => exact pinned_remember he
  | pin => exact absurd rfl h1
  | unpin t => exact absurd rfl (h2 t)
  | annotate a =>
    cases he
    unfold World.annotateCurrent
    split <;> rfl
  | gc =>
    obtain ⟨w'', h4, h5⟩ := gc_spec h
    simp only [exec, h4] at he
    cases he; exact h5.pinned
  | setAutoGc b => cases he; rfl
  | reset => exact absurd rfl h3
  | create i c t s =>
    simp only [exec, World.takeCareOf] at he
    split at he
    · cases he; rfl
    · split at he
      · cases he; rfl
      · split at he
        · cases he
        · split at he <;> cases he <;> rfl
  | createUnregistered i c t s => cases he; rfl
  | destroy i => cases he; rfl
  | setState i t s =>
    simp only [exec, World.setState] at he
    split at he <;> cases he
    rfl
  | setNext i new s =>
    obtain ⟨w1, w2, k1, k2, _⟩ := makeNextTimepoint_spec h hl.1
    simp only [exec, World.setNextState, k2, World.setState] at he
    split at he <;> cases he
    have := pinned_makeNext h hl.1 k2
    exact this
  | read i =>
    simp only [exec, World.getCurrentState] at he
    split at he
    · cases he
    · split at he <;> cases he
      rfl

end Verif
