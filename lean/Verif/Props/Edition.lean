import Verif.Lemmas.Edition
import Verif.Props.App

/-! # C15, C64: editions from the window -/

namespace Verif.Props
open Verif Spec

variable {σ : Type}

/-- C15, partial. After a run which executed `s`, an edition from `s` is applied at the timepoint where `s` started,
all registered objects reading their states there; then exactly `s` and the steps after it are executed, in order, `s`
starting from what the edition left; the timepoint reached is pinned.
Missing: as in `C15_go_before_partial`. -/
theorem C15_edition_partial (work : App.Work σ) (hwork : ProgressingWork work) (w w' : World σ Step)
    (hw : Reachable w) (steps : List Step) (log : List (Step × Addr)) (h : App.run work steps w = .ok (log, w'))
    (hstart : ∀ a, w.care.annotations.lookup w.care.current = some a → (log.map (·.1)).head? = some a)
    (s : Step) (t : Addr) (hs : (s, t) ∈ log)
    (edit : World σ Step → Except Fault (World σ Step)) (log2 : List (Step × Addr)) (w2 : World σ Step)
    (he : App.handleEditionFrom work s edit w' = .ok (log2, w2)) :
    ∃ w1 we, w1.care.current = t ∧
      (∀ i o, Registered w' i o → ∃ v, shownAt w' o t = some v ∧ reads w1 i = .ok v) ∧
      edit w1 = .ok we ∧ log2.map (·.1) = order.drop (Step.index (some s) - 1) ∧
      log2.head? = some (s, we.care.current) ∧ w2.care.current ∈ w2.care.pinned := by
  obtain ⟨w1, g1, g2, g3⟩ := C15_go_before_partial work hwork w w' hw steps log h hstart s t hs
  simp only [App.handleEditionFrom, g1] at he
  split at he
  · cases he
  · rename_i we hwe
    split at he
    · cases he
    · rename_i l3 w3 hr
      cases he
      have hlog := (C13_run_executes work we w3 log2).2.2 s hr
      refine ⟨w1, we, g2, g3, hwe, hlog, ?_, ?_⟩
      · have hhead : (order.drop (Step.index (some s) - 1)).head? = some s := by cases s <;> rfl
        cases log2 with
        | nil => rw [← hlog] at hhead; simp at hhead
        | cons e l =>
          obtain ⟨s', t'⟩ := e
          rw [← hlog] at hhead
          simp only [List.map_cons, List.head?_cons, Option.some.injEq] at hhead
          subst hhead
          simp [run_head hr]
      · simp only [World.pinCurrent]
        split
        · simp
        · rename_i hc
          simp only [ne_eq, List.all_eq_true, decide_eq_true_eq] at hc
          push Not at hc
          obtain ⟨x, hx, hxe⟩ := hc
          rw [← hxe]; exact hx

/-- C64. From a remembered place of the history, an edition, from whatever step, drops what could be redone, adds one
remembered timepoint, the one reached, and undoing once goes back to where the user was; redoing once returns to the
edited board. -/
theorem C64_edition_undone (work : App.Work σ) (hwork : DomainWork work) (w w2 : World σ Step) (hw : Reachable w)
    (p : Nat) (hp : StandsOn w p) (s : Step) (edit : World σ Step → Except Fault (World σ Step))
    (hedit : EditionWork edit) (log : List (Step × Addr))
    (h : App.handleEditionFrom work s edit w = .ok (log, w2)) :
    w2.care.history = w.care.history.take (p + 1) ++ [w2.care.current] ∧ StandsOn w2 (p + 1) ∧
    w2.canUndo 1 = .ok true ∧ (∀ k, w2.canRedo k = false) ∧
    ∃ w3 w4, w2.undo 1 = .ok w3 ∧ w3.care.current = w.care.current ∧
      w3.redo 1 = .ok w4 ∧ w4.care.current = w2.care.current := by
  have hinv := reachable_inv hw
  have hH := StandsOn.keeps hp
  have hlt : p < w.care.history.length := (List.getElem?_eq_some_iff.mp hp.1).1
  have hlast : (w.care.history.take (p + 1)).getLast? = some w.care.current := by
    rw [List.getLast?_eq_getElem?, List.length_take, Nat.min_eq_left (by omega)]
    simpa using hp.1
  -- going before the step keeps the history
  simp only [App.handleEditionFrom] at h
  split at h
  · cases h
  · rename_i w1 hg
    have hw1 : Reachable w1 ∧ Keeps (w.care.history.take (p + 1)) w1 := by
      rcases goBefore_spec hg with rfl | ⟨u, hl, he, hk⟩
      · exact ⟨hw, hH⟩
      · exact ⟨.step _ hw hl he, hk _ hH⟩
    split at h
    · cases h
    · rename_i we hwe
      obtain ⟨ops, hr, hb, hed, _⟩ := hedit _ _ hw1.1 hwe
      have hbe := (boardRun_keeps hr (reachable_inv hw1.1) hb).2.2 hw1.2 hed
      have hre := hr.reachable hw1.1
      split at h
      · cases h
      · rename_i log' w3 hrun
        cases h
        simp only [App.runFromStep, App.run] at hrun
        split at hrun
        · cases hrun
        · rename_i l5 w5 hall
          have hb5 := handleAll_beyond hwork hre hbe hall
          have hr5 := handleAll_reachable hwork hre hall
          split at hrun
          · cases hrun
          · rename_i w6 hrem
            cases hrun
            have hw3 : w3.care.history = w.care.history.take (p + 1) ++ [w5.care.current] ∧
                w3.care.current = w5.care.current ∧ w3.care.browser = none := by
              have hl5 : w5.care.history.getLast? = some w.care.current := by rw [hb5.1]; exact hlast
              simp only [World.rememberCurrent, hl5] at hrem
              rw [if_pos (hb5.2.2 _ hlast)] at hrem
              cases hrem
              exact ⟨by rw [← hb5.1], rfl, hb5.2.1⟩
            have hr3 : Reachable w3 := .step .remember hr5 trivial hrem
            have hcare : (w3.pinCurrent).care.history = w3.care.history ∧
                (w3.pinCurrent).care.current = w3.care.current ∧
                (w3.pinCurrent).care.browser = w3.care.browser := by
              unfold World.pinCurrent
              split <;> exact ⟨rfl, rfl, rfl⟩
            have hr2 : Reachable w3.pinCurrent := .step .pin hr3 trivial rfl
            have hhist : (w3.pinCurrent).care.history = w.care.history.take (p + 1) ++ [(w3.pinCurrent).care.current] := by
              rw [hcare.1, hw3.1, hcare.2.1, hw3.2.1]
            have hlen : (w3.pinCurrent).care.history.length = p + 2 := by
              rw [hhist]; simp; omega
            have hst : StandsOn w3.pinCurrent (p + 1) := by
              refine ⟨?_, Or.inr ⟨hcare.2.2.trans hw3.2.2, by omega⟩⟩
              rw [hhist, List.getElem?_append_right (by simp)]
              simp [Nat.min_eq_left (by omega : p + 1 ≤ w.care.history.length)]
            have hu := canUndo_standsOn hst 1
            have hu1 : w3.pinCurrent.canUndo 1 = .ok true := by rw [hu]; simp
            obtain ⟨_, hur⟩ := C02_undo_then_redo w3.pinCurrent hr2 (p + 1) 1 hst
            obtain ⟨w7, u1, u2, u3, u4, w8, u5, u6, u7, u8, _⟩ := hur hu1
            refine ⟨hhist, hst, hu1, ?_, w7, w8, u1, ?_, u5, u8⟩
            · intro k
              simp only [World.canRedo, hcare.2.2, hw3.2.2]
              split <;> rfl
            · have hc7 := u2.1
              rw [u3, hhist] at hc7
              have : p + 1 - 1 = p := by omega
              rw [this, List.getElem?_append_left (by simp; omega), List.getElem?_take_of_lt (by omega), hp.1] at hc7
              exact (Option.some.inj hc7).symm

/-- C64. And every registered object which the steps do not destroy reads, once the edition is undone, what it read
before the edition; once redone, what it read after. -/
theorem C64_undone_reads (work : App.Work σ) (w w2 w3 : World σ Step) (hw : Reachable w)
    (p : Nat) (hp : StandsOn w p) (i : Nat) (o : Originator σ) (hi : Registered w i o) (hwork : SparingWork i work)
    (s : Step) (edit : World σ Step → Except Fault (World σ Step))
    (hedit : EditionWork edit) (log : List (Step × Addr))
    (h : App.handleEditionFrom work s edit w = .ok (log, w2)) (hu : w2.undo 1 = .ok w3) :
    reads w3 i = reads w i ∧ ∃ w4, w3.redo 1 = .ok w4 ∧ reads w4 i = reads w2 i := by
  have hwork' : DomainWork work := fun s w w' hw h => by
    obtain ⟨ops, h1, h2, _⟩ := hwork s w w' hw h
    exact ⟨ops, h1, h2⟩
  obtain ⟨_, hp2, hcan, _, w3', w4, hu', hcur, hre, _⟩ := C64_edition_undone work hwork' w w2 hw p hp s edit hedit log h
  rw [hu] at hu'; cases hu'
  have hH := StandsOn.keeps hp
  have hm : w.care.current ∈ w.care.history.take (p + 1) := by
    have := hp.1
    rw [List.mem_take_iff_getElem]
    obtain ⟨hlt, he⟩ := List.getElem?_eq_some_iff.mp this
    exact ⟨p, by omega, he⟩
  obtain ⟨v, hv, hvr⟩ := C05_reads_nearest w hw i o hi
  have T : Track (w.care.history.take (p + 1)) i w.care.current (some v) [] w :=
    ⟨reachable_inv hw, hH, ⟨o, hi, hv, by simp⟩, by simp⟩
  obtain ⟨hr2, hinv2, o2, hi2, hv2⟩ := Track.edition hwork hw T hm hedit h
  obtain ⟨_, hur⟩ := C02_undo_then_redo w2 hr2 (p + 1) 1 hp2
  obtain ⟨w7, u1, u2, u3, u4, w8, u5, u6, u7, u8, u9⟩ := hur hcan
  rw [hu] at u1; cases u1
  refine ⟨?_, w8, u5, u9 i o2 hi2⟩
  have hr3 : Reachable w3 := .step (.undo 1) hr2 trivial hu
  have hk : ∃ o3, Registered w3 i o3 ∧ shownAt w3 o3 w.care.current = shownAt w2 o2 w.care.current := by
    rcases undo_spec hinv2 1 with h1 | ⟨j, u, h1, h2, _⟩
    · rw [hu] at h1; cases h1
      exact ⟨o2, hi2, rfl⟩
    · rw [hu, arriveAt_spec hinv2 h1] at h2
      cases h2
      refine ⟨o2.go (some u), ⟨hi2.1, ?_⟩, shownAt_same rfl rfl rfl rfl⟩
      simp only
      rw [goAll_eq, if_pos hi2.1, hi2.2]; rfl
  obtain ⟨o3, hi3, hs3⟩ := hk
  obtain ⟨v3, hv3, hvr3⟩ := C05_reads_nearest w3 hr3 i o3 hi3
  rw [hcur, hs3, hv2] at hv3
  cases hv3
  rw [hvr3, hvr]

/-- An edition for the example: object 0 gets the state 42 at a new timepoint. -/
def sampleEdit : World Nat Step → Except Fault (World Nat Step) := fun w =>
  if Legal w (.setNext 0 99 42) then exec w (.setNext 0 99 42) else .error .noSuchObject

theorem sampleEdit_edition : EditionWork sampleEdit := by
  intro w w' _ he
  simp only [sampleEdit] at he
  split at he
  · rename_i h
    exact ⟨[.setNext 0 99 42], .cons h he (.nil _), by simp [BoardOp], by simp [Edits], by simp [SetsAtMade], by simp⟩
  · cases he

theorem sampleWork_sparing (i : Nat) (busy : List Step) : SparingWork i (sampleWork (σ := σ) busy) := by
  intro s w w' _ he
  by_cases hs : s ∈ busy
  · obtain ⟨new, h1, h2⟩ := sampleWork_legal hs he
    exact ⟨[.makeNext new], .cons h1 h2 (.nil _), by simp [BoardOp], by simp [SetsAtMade], by simp⟩
  · simp only [sampleWork, if_neg hs] at he
    cases he
    exact ⟨[], .nil _, by simp, by simp [SetsAtMade], by simp⟩

/-- A history with one object, which reads 10. -/
def editedStart : World Nat Step :=
  ((World.fresh 0).create 0 false (some 0) 10).takeCareOf 0 |>.toOption.getD (World.fresh 0)

theorem editedStart_reachable : Reachable editedStart :=
  .step (.create 0 false 0 10) (.fresh 0) (by decide +kernel) (by rfl)

/-- The hypotheses of C15 and C64 together: all steps run, then an edition from the detection of the intervals. The
object reads 10 before, 42 after, 10 again once the edition is undone. -/
example : ∃ log w' log2 w2 w3, Reachable editedStart ∧
    App.run (sampleWork Step.all) Step.all editedStart = .ok (log, w') ∧
    (Step.detectIntervals, 11) ∈ log ∧ StandsOn w' 1 ∧ (∃ o, Registered w' 0 o) ∧
    App.handleEditionFrom (sampleWork Step.all) .detectIntervals sampleEdit w' = .ok (log2, w2) ∧
    log2.head? = some (Step.detectIntervals, 99) ∧ w2.undo 1 = .ok w3 ∧
    reads w' 0 = .ok 10 ∧ reads w2 0 = .ok 42 ∧ reads w3 0 = .ok 10 := by
  have h : (App.run (sampleWork Step.all) Step.all editedStart).toOption.any
    (fun r => decide ((Step.detectIntervals, 11) ∈ r.1 ∧ r.2.care.history[1]? = some r.2.care.current ∧
        r.2.care.browser = none ∧ r.2.care.history.length = 2 ∧ (∃ o, Registered r.2 0 o) ∧ reads r.2 0 = .ok 10) &&
      (App.handleEditionFrom (sampleWork Step.all) .detectIntervals sampleEdit r.2).toOption.any
        (fun x => decide (x.1.head? = some (Step.detectIntervals, 99) ∧ reads x.2 0 = .ok 42) &&
          (x.2.undo 1).toOption.any (fun w3 => decide (reads w3 0 = .ok 10)))) = true := by decide +kernel
  obtain ⟨⟨log, w'⟩, h1, h2⟩ := (Option.any_eq_true _ _).mp h
  cases hr : App.run (sampleWork Step.all) Step.all editedStart with
  | error e => rw [hr] at h1; simp [Except.toOption] at h1
  | ok r =>
    rw [hr] at h1
    simp only [Except.toOption, Option.some.injEq] at h1
    subst h1
    simp only [Bool.and_eq_true, decide_eq_true_eq] at h2
    obtain ⟨⟨h3, h4, h5, h6, hreg, hrd⟩, h7⟩ := h2
    obtain ⟨⟨log2, w2⟩, h8, h9⟩ := (Option.any_eq_true _ _).mp h7
    cases hg : App.handleEditionFrom (sampleWork Step.all) .detectIntervals sampleEdit w' with
    | error e => rw [hg] at h8; simp [Except.toOption] at h8
    | ok v =>
      rw [hg] at h8
      simp only [Except.toOption, Option.some.injEq] at h8
      subst h8
      simp only [Bool.and_eq_true, decide_eq_true_eq] at h9
      obtain ⟨w3, hu, h10⟩ := (Option.any_eq_true _ _).mp h9.2
      cases hu2 : w2.undo 1 with
      | error e => rw [hu2] at hu; simp [Except.toOption] at hu
      | ok w4 =>
        rw [hu2] at hu
        simp only [Except.toOption, Option.some.injEq] at hu
        subst hu
        exact ⟨log, w', log2, w2, w4, editedStart_reachable, rfl, h3, ⟨h4, Or.inr ⟨h5, h6.symm⟩⟩, hreg, hg, h9.1.1,
          hu2, hrd, h9.1.2, by simpa using h10⟩

end Verif.Props
