import Verif.Lemmas.Caretaker

/-! Helper lemmas: the caretaker implements a linear history. -/

namespace Verif
open TreeNode Spec

variable {σ α : Type}

/-- All the remembered timepoints in order. -/
def Spec.Timeline.full (z : Timeline) : List Addr := z.past.reverse ++ z.place :: z.future

/-- The caretaker represents a linear history. -/
structure Rel (w : World σ α) (z : Timeline) : Prop where
  history : w.care.history = z.full
  current : w.care.current = z.present
  browser : w.care.browser = if z.future = [] then none else some z.past.length
  noDraft : z.future ≠ [] → z.draft = none
  draftNe : z.draft ≠ some z.place

namespace Spec.Timeline

theorem full_length (z : Timeline) : z.full.length = z.past.length + 1 + z.future.length := by
  simp [full]; omega

theorem full_place (z : Timeline) : z.full[z.past.length]? = some z.place := by
  simp [full]

theorem back_full {z : Timeline} : z.back.full = z.full := by
  unfold back full
  rcases hd : z.draft with _ | d <;> rcases hp : z.past with _ | ⟨t, p⟩ <;> simp [hp]

theorem back_nodraft {z : Timeline} : (z.back).draft = none := by
  unfold back
  rcases hd : z.draft with _ | d <;> rcases hp : z.past with _ | ⟨t, p⟩ <;> simp [hd]

theorem backN (k : Nat) (z : Timeline) (hk : 0 < k) (h : k ≤ z.undoDepth) :
    (back^[k] z).full = z.full ∧ (back^[k] z).draft = none ∧
      (back^[k] z).past.length = z.undoDepth - k := by
  induction k generalizing z with
  | zero => omega
  | succ k ih =>
    simp only [Function.iterate_succ, Function.comp]
    have hb : z.back.undoDepth = z.undoDepth - 1 := by
      simp only [undoDepth, back_nodraft]
      unfold back
      rcases hd : z.draft with _ | d <;> rcases hp : z.past with _ | ⟨t, p⟩ <;> simp [hp]
    by_cases hk0 : k = 0
    · subst hk0
      simp only [Function.iterate_zero, id]
      refine ⟨back_full, back_nodraft, ?_⟩
      rw [← hb]
      simp [undoDepth, back_nodraft]
    · obtain ⟨h1, h2, h3⟩ := ih z.back (by omega) (by omega)
      refine ⟨h1.trans back_full, h2, ?_⟩
      omega

theorem forthN (k : Nat) (z : Timeline) (hk : 0 < k) (h : k ≤ z.future.length) :
    (forth^[k] z).full = z.full ∧ (forth^[k] z).draft = none ∧
      (forth^[k] z).past.length = z.past.length + k := by
  induction k generalizing z with
  | zero => omega
  | succ k ih =>
    simp only [Function.iterate_succ, Function.comp]
    have hz : (forth z).full = z.full ∧ (forth z).draft = none ∧ (forth z).past.length = z.past.length + 1 ∧
        (forth z).future.length = z.future.length - 1 := by
      unfold forth full
      rcases hf : z.future with _ | ⟨t, f⟩
      · simp [hf] at h
      · simp
    by_cases hk0 : k = 0
    · subst hk0
      exact ⟨hz.1, hz.2.1, hz.2.2.1⟩
    · obtain ⟨h1, h2, h3⟩ := ih z.forth (by omega) (by omega)
      exact ⟨h1.trans hz.1, h2, by omega⟩

end Spec.Timeline

open Spec.Timeline

theorem Rel.last {w : World σ α} {z : Timeline} (hr : Rel w z) (hf : z.future = []) :
    w.care.history.getLast? = some z.place := by
  rw [hr.history]
  simp [full, hf]

theorem Rel.cur_eq {w : World σ α} {z : Timeline} (hr : Rel w z) :
    z.place = w.care.current ↔ z.draft = none := by
  rw [hr.current, present]
  have := hr.draftNe
  cases hd : z.draft with
  | none => simp
  | some d =>
    simp only [Option.getD_some, reduceCtorEq, iff_false]
    rintro rfl
    exact this hd

theorem Rel.canUndo {w : World σ α} {z : Timeline} (hr : Rel w z) (k : Nat) :
    w.canUndo k = .ok (decide (1 ≤ k ∧ k ≤ z.undoDepth)) := by
  unfold World.canUndo
  by_cases hk : k = 0
  · simp [hk]
  · simp only [hk, if_false]
    rw [hr.browser]
    by_cases hf : z.future = []
    · simp only [hf, if_true]
      rw [hr.last hf]
      simp only [hr.cur_eq, hr.history, full_length, hf, List.length_nil]
      congr 1
      rw [decide_eq_decide]
      cases hd : z.draft with
      | none => simp [undoDepth, hd]; omega
      | some d => simp [undoDepth, hd]; omega
    · simp only [hf, if_false]
      have hd := hr.noDraft hf
      congr 1
      rw [decide_eq_decide]
      simp [undoDepth, hd]
      omega

theorem Rel.canRedo {w : World σ α} {z : Timeline} (hr : Rel w z) (k : Nat) :
    w.canRedo k = decide (1 ≤ k ∧ k ≤ z.future.length) := by
  unfold World.canRedo
  by_cases hk : k = 0
  · simp [hk]
  · simp only [hk, if_false]
    rw [hr.browser]
    by_cases hf : z.future = []
    · simp [hf]; omega
    · simp only [hf, if_false]
      rw [decide_eq_decide, hr.history, full_length]
      omega

/-- Arriving at the place of a timeline with the same remembered timepoints. -/
theorem Rel.arrive {w : World σ α} (h : WInv w) {z z' : Timeline} (hr : Rel w z) (hfull : z'.full = z.full)
    (hd : z'.draft = none) : ∃ w', w.arriveAt z'.past.length = .ok w' ∧ Rel w' z' := by
  have hi : w.care.history[z'.past.length]? = some z'.place := by
    rw [hr.history, ← hfull, full_place]
  refine ⟨_, arriveAt_spec h hi, ?_⟩
  refine ⟨?_, ?_, ?_, ?_, ?_⟩
  · simp only; rw [hr.history, hfull]
  · simp [present, hd]
  · simp only [hr.history, ← hfull, full_length]
    cases hf : z'.future with
    | nil => simp
    | cons x xs => simp
  · intro _; exact hd
  · simp [hd]

theorem Rel.undo {w : World σ α} (h : WInv w) {z : Timeline} (hr : Rel w z) (k : Nat) :
    ∃ w', w.undo k = .ok w' ∧ Rel w' (if k ≤ z.undoDepth then back^[k] z else z) := by
  unfold World.undo
  by_cases hk : k = 0
  · subst hk
    exact ⟨w, by simp, by simpa using hr⟩
  · simp only [hk, if_false, hr.canUndo]
    by_cases hle : k ≤ z.undoDepth
    · have : decide (1 ≤ k ∧ k ≤ z.undoDepth) = true := by simp; omega
      rw [this, if_pos hle]
      obtain ⟨h1, h2, h3⟩ := backN k z (by omega) hle
      obtain ⟨w', ha, hr'⟩ := hr.arrive h h1 h2
      refine ⟨w', ?_, hr'⟩
      rw [← ha, h3, hr.browser]
      by_cases hf : z.future = []
      · simp only [hf, if_true]
        rw [hr.last hf]
        simp only [ne_eq, hr.cur_eq, hr.history, full_length, hf, List.length_nil]
        congr 1
        cases hd : z.draft with
        | none => simp [undoDepth, hd]
        | some d =>
          simp [undoDepth, hd]
          simp [undoDepth, hd] at hle
          omega
      · simp only [hf, if_false]
        congr 1
        simp [undoDepth, hr.noDraft hf]
    · have : decide (1 ≤ k ∧ k ≤ z.undoDepth) = false := by simp; omega
      rw [this, if_neg hle]
      exact ⟨w, rfl, hr⟩

theorem Rel.redo {w : World σ α} (h : WInv w) {z : Timeline} (hr : Rel w z) (k : Nat) :
    ∃ w', w.redo k = .ok w' ∧ Rel w' (if k ≤ z.future.length then forth^[k] z else z) := by
  unfold World.redo
  by_cases hk : k = 0
  · subst hk
    exact ⟨w, by simp, by simpa using hr⟩
  · simp only [hk, false_or, hr.canRedo]
    by_cases hle : k ≤ z.future.length
    · have : decide (1 ≤ k ∧ k ≤ z.future.length) = true := by simp; omega
      rw [this, if_pos hle]
      obtain ⟨h1, h2, h3⟩ := forthN k z (by omega) hle
      obtain ⟨w', ha, hr'⟩ := hr.arrive h h1 h2
      have hf : z.future ≠ [] := by
        intro hf; simp [hf] at hle; omega
      refine ⟨w', ?_, hr'⟩
      rw [← ha, h3, hr.browser]
      simp only [Bool.true_eq_false, if_false, hf]
      congr 1
      rw [hr.history, full_length]
      omega
    · have : decide (1 ≤ k ∧ k ≤ z.future.length) = false := by simp; omega
      rw [this, if_neg hle]
      exact ⟨w, rfl, hr⟩

theorem Rel.forget {w : World σ α} {z : Timeline} (hr : Rel w z) :
    Rel (forgetFuture w) { z with future := [] } ∧ (forgetFuture w).care.current = w.care.current := by
  unfold forgetFuture
  have hb := hr.browser
  by_cases hf : z.future = []
  · rw [if_pos hf] at hb
    simp only [hb]
    have : { z with future := [] } = z := by cases z; simp_all
    rw [this]
    exact ⟨hr, trivial⟩
  · rw [if_neg hf] at hb
    simp only [hb]
    refine ⟨⟨?_, ?_, ?_, ?_, ?_⟩, trivial⟩
    · simp only [hr.history, full]
      rw [List.take_append]
      simp [List.take_of_length_le]
    · exact hr.current
    · simp
    · simp
    · exact hr.draftNe

theorem Rel.stop {w w1 : World σ α} {z : Timeline} (hr : Rel w z)
    (hp : w1 = forgetFuture w ∨ GcPost (forgetFuture w) w1) : Rel w1 { z with future := [] } := by
  have hf := hr.forget.1
  rcases hp with rfl | hp
  · exact hf
  · exact ⟨hp.history.trans hf.history, hp.current.trans hf.current, hp.browser.trans hf.browser,
      hf.noDraft, hf.draftNe⟩

theorem Rel.makeNext {w : World σ α} (h : WInv w) {z : Timeline} (hr : Rel w z) {new : Addr}
    (hl : EditLegal w new) : ∃ w', w.makeNextTimepoint new = .ok w' ∧
      Rel w' { z with future := [], draft := some new } := by
  obtain ⟨w1, w', h1, h2, h3, h4, h5, h6, rfl⟩ := makeNextTimepoint_spec h hl
  have hs := hr.stop h5
  refine ⟨_, h2, ?_⟩
  refine ⟨hs.history, ?_, hs.browser, ?_, ?_⟩
  · simp [present]
  · simp
  · simp only [ne_eq, Option.some.injEq]
    rintro rfl
    apply h6
    apply h3.history
    rw [hs.history]
    simp [full]

theorem Rel.go {w : World σ α} {z : Timeline} (hr : Rel w z) (hf : z.future = []) {t : Addr} :
    Rel { care := { w.care with current := t }, objs := World.goAll w.objs t w.care.originators }
      (z.move t) := by
  refine ⟨hr.history, ?_, hr.browser, ?_, ?_⟩
  · simp only [present, move]
    split <;> simp_all
  · intro hh; exact absurd hf hh
  · simp only [move]
    split
    · simp
    · rename_i hh; simpa using hh

theorem Rel.remember {w : World σ α} {z : Timeline} (hr : Rel w z) (hf : z.future = []) :
    ∃ w', w.rememberCurrent = .ok w' ∧ Rel w' z.record := by
  unfold World.rememberCurrent
  rw [hr.last hf]
  simp only [ne_eq, hr.cur_eq, record]
  cases hd : z.draft with
  | none =>
    simp only [not_true_eq_false, if_false]
    exact ⟨w, rfl, hr⟩
  | some t =>
    simp only [reduceCtorEq, not_false_eq_true, if_true]
    refine ⟨_, rfl, ?_⟩
    refine ⟨?_, ?_, ?_, ?_, ?_⟩
    · simp [hr.history, full, hf, hr.current, present, hd]
    · simp [hr.current, present, hd]
    · simp only [hr.browser, hf, if_true]
    · simp
    · simp

theorem Rel.keep {w w' : World σ α} {z : Timeline} (hr : Rel w z)
    (h1 : w'.care.history = w.care.history) (h2 : w'.care.current = w.care.current)
    (h3 : w'.care.browser = w.care.browser) : Rel w' z :=
  ⟨h1.trans hr.history, h2.trans hr.current, h3.trans hr.browser, hr.noDraft, hr.draftNe⟩

/-- Each call does to the represented timeline what the specification says. -/
theorem Rel.step {w w' : World σ α} (h : WInv w) {z z' : Timeline} (hr : Rel w z) {op : Op σ α}
    (hl : Legal w op) (he : exec w op = .ok w') (hz : z.step op = some z') : Rel w' z' := by
  cases op with
  | makeNext new =>
    obtain ⟨w'', h1, h2⟩ := hr.makeNext h hl
    simp only [Timeline.step, Option.some.injEq] at hz
    simp only [exec, h1] at he
    cases he; subst hz
    exact h2
  | undo k =>
    obtain ⟨w'', h1, h2⟩ := hr.undo h k
    simp only [Timeline.step, Option.some.injEq] at hz
    simp only [exec, h1] at he
    cases he; subst hz
    exact h2
  | redo k =>
    obtain ⟨w'', h1, h2⟩ := hr.redo h k
    simp only [Timeline.step, Option.some.injEq] at hz
    simp only [exec, h1] at he
    cases he; subst hz
    exact h2
  | goWithoutRemembering t =>
    cases t with
    | none => cases he; cases hz; exact hr
    | some t =>
      simp only [Timeline.step] at hz
      split at hz
      · rename_i hf
        cases hz
        simp only [exec, goWithoutRemembering_eq (live_iff.mp (hl t rfl))] at he
        cases he
        exact hr.go hf
      · cases hz
  | goAndRemember t =>
    cases t with
    | none => cases he; cases hz; exact hr
    | some t =>
      simp only [Timeline.step] at hz
      split at hz
      · rename_i hf
        cases hz
        obtain ⟨w'', h1, h2⟩ := (hr.go hf (t := t)).remember (by simp [move, hf])
        simp only [exec, World.goAndRemember, goWithoutRemembering_eq (live_iff.mp (hl t rfl)), h1] at he
        cases he
        exact h2
      · cases hz
  | remember =>
    simp only [Timeline.step] at hz
    split at hz
    · rename_i hf
      cases hz
      obtain ⟨w'', h1, h2⟩ := hr.remember hf
      simp only [exec, h1] at he
      cases he
      exact h2
    · cases hz
  | pin =>
    cases he; cases hz
    unfold World.pinCurrent
    split <;> exact hr.keep rfl rfl rfl
  | unpin t =>
    cases hz
    simp only [exec, World.unpin] at he
    split at he
    · rename_i ha
      have hw : WInv { w with care := { w.care with pinned := w.care.pinned.filter fun p => some p ≠ t } } :=
        { nodup := h.nodup, current := h.current,
          pinned := fun x hx => h.pinned x (List.mem_filter.mp hx).1
          pinnedNodup := h.pinnedNodup.filter _,
          historyHead := h.historyHead, history := h.history, browser := h.browser,
          annotations := h.annotations, objs := h.objs }
      obtain ⟨w'', h1, h2⟩ := gc_spec hw
      rw [h1] at he
      cases he
      exact hr.keep h2.history h2.current h2.browser
    · cases he; exact hr.keep rfl rfl rfl
  | annotate a =>
    cases he; cases hz
    unfold World.annotateCurrent
    split <;> exact hr.keep rfl rfl rfl
  | gc =>
    cases hz
    obtain ⟨w'', h1, h2⟩ := gc_spec h
    simp only [exec, h1] at he
    cases he
    exact hr.keep h2.history h2.current h2.browser
  | setAutoGc b => cases he; cases hz; exact hr.keep rfl rfl rfl
  | reset =>
    simp only [Timeline.step, Option.some.injEq] at hz
    subst hz
    obtain ⟨x, xs, w'', hh, h1, h2, h3⟩ := reset_spec h
    simp only [exec, h1] at he
    cases he
    have hx : z.origin = x := by
      have h4 : w.care.history.head? = some x := by rw [hh]; rfl
      rw [hr.history] at h4
      unfold origin
      cases hp : z.past.getLast? with
      | none =>
        have : z.past = [] := by simpa using hp
        simpa [full, this] using h4
      | some y =>
        have : z.past.reverse.head? = some y := by simpa using hp
        cases hpr : z.past.reverse with
        | nil => simp [hpr] at this
        | cons a as => simp_all [full]
    have hroot : x = w.care.tree.addr := by
      have := h.historyHead
      rw [hh] at this
      simpa using this
    rw [hx]
    refine ⟨?_, ?_, ?_, ?_, ?_⟩
    · rw [h3.history]; simp [full, start]
    · rw [h3.current]; simp [present, start, hroot]
    · rw [h3.browser]; simp [start]
    · simp [start]
    · simp [start]
  | create i c t s =>
    cases hz
    simp only [exec, World.takeCareOf] at he
    have hc : (w.create i c (some t) s).care = w.care := rfl
    split at he
    · cases he; exact hr.keep rfl rfl rfl
    · split at he
      · cases he; exact hr.keep rfl rfl rfl
      · split at he
        · cases he
        · split at he <;> cases he <;> exact hr.keep rfl rfl rfl
  | createUnregistered i c t s => cases he; cases hz; exact hr.keep rfl rfl rfl
  | destroy i => cases he; cases hz; exact hr.keep rfl rfl rfl
  | setState i t s =>
    cases hz
    simp only [exec, World.setState] at he
    split at he
    · cases he
    · cases he; exact hr.keep rfl rfl rfl
  | setNext i new s =>
    obtain ⟨w'', h1, h2⟩ := hr.makeNext h hl.1
    simp only [Timeline.step, Option.some.injEq] at hz
    subst hz
    simp only [exec, World.setNextState, h1, World.setState] at he
    split at he
    · cases he
    · cases he; exact h2.keep rfl rfl rfl
  | read i =>
    cases hz
    simp only [exec, World.getCurrentState] at he
    split at he
    · cases he
    · split at he
      · cases he
      · cases he; exact hr.keep rfl rfl rfl

theorem fresh_rel (root : Addr) : Rel (World.fresh root : World σ α) (start root) := by
  constructor <;> simp [World.fresh, start, full, present]

theorem LegalRun.inv {w w' : World σ α} {ops : List (Op σ α)} (h : WInv w) (hr : LegalRun w ops w') : WInv w' := by
  induction hr with
  | nil => exact h
  | cons hl he _ ih =>
    obtain ⟨w', h1, h2⟩ := exec_inv h _ hl
    rw [he] at h1; cases h1
    exact ih h2

theorem Rel.run {w w' : World σ α} {ops : List (Op σ α)} (hrun : LegalRun w ops w') :
    ∀ {z z' : Timeline}, WInv w → Rel w z → z.run ops = some z' → Rel w' z' := by
  induction hrun with
  | nil => intro z z' _ hr hz; cases hz; exact hr
  | cons hl he _ ih =>
    intro z z' h hr hz
    simp only [Timeline.run] at hz
    split at hz
    · cases hz
    · rename_i z1 hz1
      obtain ⟨w', h1, h2⟩ := exec_inv h _ hl
      rw [he] at h1; cases h1
      exact ih h2 (hr.step h hl he hz1) hz

end Verif
