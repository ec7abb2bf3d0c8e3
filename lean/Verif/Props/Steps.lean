import Verif.Props.App
import Verif.Props.Edition

/-!
# C72, C73: moving in the steps
-/

namespace Verif.Props
open Verif Spec TreeNode

variable {σ : Type}

/-- `k` steps are behind the current timepoint, in order, the last one first; the next one may already have been started
here before. -/
structure At (w : World σ Step) (k : Nat) : Prop where
  reach : Reachable w
  le : k ≤ order.length
  behind : ∃ l, chain w.care.tree w.care.current = some (w.care.current :: l) ∧
    l.filterMap (ann w) = (order.take k).reverse
  here : ann w w.care.current = none ∨ ann w w.care.current = order[k]?

theorem at_zero {w : World σ Step} (hw : Reachable w) (h : NoStepRun w) : At w 0 := by
  obtain ⟨l, hl⟩ := chain_of_mem (reachable_inv hw).current
  obtain ⟨r, rfl⟩ := chain_cons hl
  have hnone : ∀ a ∈ w.care.current :: r, ann w a = none := fun a ha => h a (ancOrSelf_iff.mpr ⟨_, hl, ha⟩)
  refine ⟨hw, Nat.zero_le _, ⟨r, hl, ?_⟩, .inl (hnone _ (by simp))⟩
  simp only [List.take_zero, List.reverse_nil, List.filterMap_eq_nil_iff]
  exact fun a ha => hnone a (by simp [ha])

/-- The search when some step is behind. -/
theorem At.find {w : World σ Step} {k : Nat} (h : At w (k + 1)) :
    ∃ t l, w.findFirstAncestorWithAnnotation false = .ok (some t) ∧ ann w t = order[k]? ∧
      chain w.care.tree t = some (t :: l) ∧ l.filterMap (ann w) = (order.take k).reverse ∧ Live w t := by
  obtain ⟨hw, hle, ⟨l, hl, hb⟩, -⟩ := h
  have hk : k < order.length := hle
  rw [List.take_succ_eq_append_getElem hk, List.reverse_append] at hb
  simp only [List.reverse_cons, List.reverse_nil, List.nil_append, List.singleton_append] at hb
  obtain ⟨l1, t, l2, rfl, hn, ht, hr⟩ := List.filterMap_eq_cons_iff.1 hb
  have hinv := reachable_inv hw
  have hmem : t ∈ w.care.current :: (l1 ++ t :: l2) := by simp
  refine ⟨t, l2, ?_, by rw [ht, List.getElem?_eq_getElem hk], ?_, hr, live_iff.mpr (chain_subset _ _ _ hl t hmem)⟩
  · simp only [World.findFirstAncestorWithAnnotation, World.findFirstAncestorWithAnnotationThat, ancestors, hl,
      Option.map_some, Bool.false_eq_true, if_false, List.tail_cons]
    congr 1
    rw [List.find?_append, List.find?_eq_none.mpr]
    · simp only [ann] at ht
      simp [ht]
    · intro a ha
      simp [hn a ha]
  · obtain ⟨p, r, he, hc⟩ := chain_suffix _ _ _ hinv.nodup hl t hmem
    obtain ⟨r, rfl⟩ := chain_cons hc
    have hnd := chain_nodup _ _ _ hinv.nodup hl
    rw [← List.cons_append] at he hnd
    have h1 := List.nodup_append.1 hnd
    have h2 := hnd
    rw [he] at h2
    have h3 := List.nodup_append.1 h2
    have := (List.append_cons_inj_of_notMem (fun hm => h1.2.2 t hm t (by simp) rfl)
      (List.nodup_cons.1 h1.2.1).1).1 he
    rw [hc, this.2.2]

theorem At.find_zero {w : World σ Step} (h : At w 0) : w.findFirstAncestorWithAnnotation false = .ok none := by
  obtain ⟨hw, -, ⟨l, hl, hb⟩, -⟩ := h
  simp only [World.findFirstAncestorWithAnnotation, World.findFirstAncestorWithAnnotationThat, ancestors, hl,
    Option.map_some, Bool.false_eq_true, if_false, List.tail_cons]
  congr 1
  rw [List.find?_eq_none]
  simp only [List.take_zero, List.reverse_nil, List.filterMap_eq_nil_iff] at hb
  intro a ha
  simp [hb a ha]

/-- Running a step. -/
theorem At.run {work : App.Work σ} (hwork : ProgressingWork work) {w w' : World σ Step} {k : Nat} {s : Step} {log}
    (h : At w k) (hs : order[k]? = some s) (hr : App.run work [s] w = .ok (log, w')) :
    log.map Prod.fst = [s] ∧ At w' (k + 1) := by
  have hlog := run_log hr
  have hf : Step.handled.filter (fun x => decide (x ∈ [s])) = [s] := by cases s <;> decide
  rw [hf] at hlog
  obtain ⟨p, l, hran⟩ := run_ran hwork h.reach (by rw [hf]; simpa [hs] using h.here) hr
  obtain ⟨⟨s', t⟩, rfl⟩ : ∃ e, log = [e] := by
    match log, hlog with
    | [e], _ => exact ⟨e, rfl⟩
  simp only [List.map_cons, List.map_nil, List.cons.injEq, and_true] at hlog
  subst hlog
  have hk : k < order.length := (List.getElem?_eq_some_iff.1 hs).1
  have hpn : ∀ a ∈ p, ann w' a = none := by
    intro a ha
    cases hx : ann w' a with
    | none => rfl
    | some x => exact absurd (hran.below a ha x hx) (by simp)
  obtain ⟨l', hl', hb⟩ := h.behind
  have : l = w.care.current :: l' := by rw [hran.before] at hl'; exact Option.some.inj hl'
  subst this
  have hst : ann w' w.care.current = some s' := by simpa using hran.start
  have hold : l'.filterMap (ann w') = l'.filterMap (ann w) :=
    List.filterMap_congr fun a ha => hran.older a (by simpa using ha)
  have hafter := hran.after
  obtain ⟨r, hr'⟩ := chain_cons hafter
  match p, hran.moved (by simp), hpn, hafter, hr' with
  | x :: p, _, hpn, hafter, hr' =>
    simp only [List.cons_append, List.cons.injEq] at hr'
    obtain ⟨rfl, -⟩ := hr'
    refine ⟨rfl, run_reachable (domain_of_progressing hwork) h.reach hr, hk, ⟨p ++ w.care.current :: l', hafter, ?_⟩,
      .inl (hpn _ (by simp))⟩
    rw [List.filterMap_append, List.filterMap_cons, hst, hold, hb, List.take_succ_eq_append_getElem hk,
      List.filterMap_eq_nil_iff.2 fun a ha => hpn a (by simp [ha])]
    have : order[k] = s' := by
      rw [List.getElem?_eq_getElem hk] at hs
      exact Option.some.inj hs
    simp [this]

/-- What `next` of a step is, by places in the order. -/
theorem next_order {k : Nat} {s : Step} (h : order[k]? = some s) : s.next = order[k + 1]? := by
  have hk : k < 15 := (List.getElem?_eq_some_iff.1 h).1
  have : ∀ k < 15, (order[k]?).bind Step.next = order[k + 1]? := by decide
  rw [← this k hk, h]
  rfl

/-- What the next step runs. -/
theorem At.next_run {work : App.Work σ} {w w' : World σ Step} {k : Nat} {log} (h : At w k)
    (hr : App.runNextStep work w = .ok (log, w')) :
    (k < order.length → ∃ s, order[k]? = some s ∧ App.run work [s] w = .ok (log, w')) ∧
    (¬ k < order.length → log = [] ∧ w' = w) := by
  unfold App.runNextStep at hr
  cases k with
  | zero =>
    rw [h.find_zero] at hr
    simp only [World.getAnnotation] at hr
    exact ⟨fun _ => ⟨_, rfl, hr⟩, fun hn => absurd (by decide) hn⟩
  | succ k =>
    obtain ⟨t, l, hf, ha, -⟩ := h.find
    have hk : k < order.length := h.le
    have hs : order[k]? = some order[k] := List.getElem?_eq_getElem hk
    have hnext := next_order hs
    rw [hs] at ha
    rw [hf] at hr
    simp only [World.getAnnotation, show w.care.annotations.lookup t = _ from ha] at hr
    refine ⟨fun hlt => ?_, fun hn => ?_⟩
    · have hs' : order[k + 1]? = some order[k + 1] := List.getElem?_eq_getElem hlt
      rw [hnext, hs'] at hr
      exact ⟨_, hs', hr⟩
    · rw [hnext, List.getElem?_eq_none (by omega)] at hr
      simp only at hr
      cases hr
      exact ⟨rfl, rfl⟩

/-- The next step. -/
theorem At.next {work : App.Work σ} (hwork : ProgressingWork work) {w w' : World σ Step} {k : Nat} {log}
    (h : At w k) (hr : App.runNextStep work w = .ok (log, w')) :
    (k < order.length → log.map Prod.fst = (order[k]?).toList ∧ At w' (k + 1)) ∧
    (¬ k < order.length → log = [] ∧ w' = w) := by
  refine ⟨fun hk => ?_, (h.next_run hr).2⟩
  obtain ⟨s, hs, hr⟩ := (h.next_run hr).1 hk
  rw [hs]
  exact h.run hwork hs hr

/-- Running one step, then looking for the previous one, finds where it started. -/
theorem At.run_find {work : App.Work σ} (hwork : ProgressingWork work) {w w' : World σ Step} {k : Nat} {s : Step} {log}
    (h : At w k) (hs : order[k]? = some s) (hr : App.run work [s] w = .ok (log, w')) :
    w'.findFirstAncestorWithAnnotation false = .ok (some w.care.current) ∧ Live w' w.care.current := by
  have hf : Step.handled.filter (fun x => decide (x ∈ [s])) = [s] := by cases s <;> decide
  have hlog := run_log hr
  rw [hf] at hlog
  obtain ⟨p, l, hran⟩ := run_ran hwork h.reach (by rw [hf]; simpa [hs] using h.here) hr
  obtain ⟨⟨s', t⟩, rfl⟩ : ∃ e, log = [e] := by
    match log, hlog with
    | [e], _ => exact ⟨e, rfl⟩
  obtain ⟨l', hl', -⟩ := h.behind
  have : l = w.care.current :: l' := by rw [hran.before] at hl'; exact Option.some.inj hl'
  subst this
  refine ⟨findFirst_eq (hran.moved (by simp)) hran.after (by simpa using hran.start) rfl ?_,
    live_iff.mpr (chain_subset _ _ _ hran.after _ (by simp))⟩
  intro a ha x hx
  exact absurd (hran.below a ha x hx) (by simp)

/-- The previous step. -/
theorem At.prev {w : World σ Step} {k : Nat} (h : At w k) : ∃ w', App.goBeforePreviousStep w = .ok w' ∧ At w' (k - 1) ∧
    (k = 0 → w' = w) := by
  unfold App.goBeforePreviousStep
  cases k with
  | zero =>
    rw [h.find_zero]
    exact ⟨w, by simp [World.goAndRemember, World.goWithoutRemembering], h, fun _ => rfl⟩
  | succ k =>
    obtain ⟨t, l, hf, ha, hc, hb, hlive⟩ := h.find
    rw [hf]
    have hl : Legal w (.goAndRemember (some t)) := fun a ha => by cases ha; exact hlive
    obtain ⟨w', he, -⟩ := exec_inv (reachable_inv h.reach) _ hl
    have hre : Reachable w' := .step _ h.reach hl he
    have ht := live_iff.mp hlive
    obtain ⟨w1, h1, h2⟩ := rememberCurrent_spec (go_inv (reachable_inv h.reach) ht)
    have hgo : w.goAndRemember (some t) = .ok (true, w1) := by
      simp only [World.goAndRemember, goWithoutRemembering_eq ht, h1]
    have : w' = w1 := by
      simp only [exec, hgo, Except.map] at he
      cases he
      rfl
    subst this
    obtain ⟨r1, r2, r3⟩ := remember_same h1
    simp only at r1 r2 r3
    have hann : ann w' = ann w := by funext a; simp [ann, r3]
    refine ⟨w', by simp only [hgo], ⟨hre, ?_, ⟨l, by rw [r1, r2]; exact hc, by rw [hann]; exact hb⟩, .inr ?_⟩, fun hz => by omega⟩
    · have := h.le; omega
    · rw [hann, r2]; exact ha

/-- The cursor follows the presses. -/
theorem At.presses {work : App.Work σ} (hwork : ProgressingWork work) {w' : World σ Step} : ∀ (l : List Press) (k : Nat)
    (w : World σ Step) (logs : List (List Step)), At w k → presses work l w = .ok (logs, w') →
    logs = (cursor k l).1 ∧ At w' (cursor k l).2 := by
  intro l
  induction l with
  | nil =>
    intro k w logs ha h
    simp only [Spec.presses] at h
    cases h
    exact ⟨rfl, ha⟩
  | cons b l ih =>
    intro k w logs ha h
    simp only [Spec.presses] at h
    split at h
    · cases h
    rename_i log w1 hp
    obtain ⟨⟨logs', w2⟩, hrest, he⟩ := except_map_ok h
    cases he
    cases b with
    | next =>
      simp only [press] at hp
      obtain ⟨⟨log', w3⟩, hn, he⟩ := except_map_ok hp
      cases he
      obtain ⟨h1, h2⟩ := ha.next hwork hn
      by_cases hk : k < order.length
      · obtain ⟨e, ha'⟩ := h1 hk
        obtain ⟨e1, e2⟩ := ih _ _ _ ha' hrest
        simp only [cursor, if_pos hk]
        exact ⟨by rw [e1, e], e2⟩
      · obtain ⟨e, rfl⟩ := h2 hk
        obtain ⟨e1, e2⟩ := ih _ _ _ ha hrest
        simp only [cursor, if_neg hk]
        exact ⟨by rw [e1, e]; rfl, e2⟩
    | prev =>
      simp only [press] at hp
      obtain ⟨w3, hn, he⟩ := except_map_ok hp
      cases he
      obtain ⟨w4, hg, ha', -⟩ := ha.prev
      rw [hn] at hg
      cases hg
      obtain ⟨e1, e2⟩ := ih _ _ _ ha' hrest
      simp only [cursor]
      exact ⟨by rw [e1], e2⟩

/-- C72, partial. Whatever the presses of the buttons for the next and the previous step, from a board on which no step was
run, each executes what a cursor in the fifteen steps says; the buttons are enabled when there is a step on that side.
Missing: steps that make no timepoint; then it is false, as C14. -/
theorem C72_buttons_partial (work : App.Work σ) (hwork : ProgressingWork work) (w w' : World σ Step) (hw : Reachable w)
    (hfresh : NoStepRun w) (l : List Press) (logs : List (List Step)) (h : presses work l w = .ok (logs, w')) :
    logs = (cursor 0 l).1 ∧ App.canRunANextStep w' = .ok (decide ((cursor 0 l).2 < order.length)) ∧
      App.canGoBefore w' = .ok (decide (0 < (cursor 0 l).2)) := by
  obtain ⟨h1, h2⟩ := At.presses hwork l 0 w logs (at_zero hw hfresh) h
  refine ⟨h1, ?_⟩
  generalize (cursor 0 l).2 = k at h2
  unfold App.canRunANextStep App.canGoBefore
  cases k with
  | zero => rw [h2.find_zero]; exact ⟨rfl, rfl⟩
  | succ k =>
    obtain ⟨t, l, hf, ha, -⟩ := h2.find
    have hk : k < order.length := h2.le
    have hs : order[k]? = some order[k] := List.getElem?_eq_getElem hk
    rw [hs] at ha
    rw [hf]
    simp only [World.getAnnotation, show w'.care.annotations.lookup t = _ from ha, next_order hs]
    refine ⟨?_, rfl⟩
    by_cases hlt : k + 1 < order.length
    · rw [List.getElem?_eq_getElem hlt]; simp [hlt]
    · rw [List.getElem?_eq_none (by omega)]; simp [hlt]

example : ∃ logs w', presses (sampleWork (σ := Nat) Step.all) [.next, .next, .prev, .next, .prev, .prev, .prev, .next]
    (World.fresh 0) = .ok (logs, w') ∧ logs = [[.adjustEdgeToMaterial], [.detectDiagAngles], [], [.detectDiagAngles], [], [],
      [], [.adjustEdgeToMaterial]] := by
  have h : (presses (σ := Nat) (sampleWork Step.all) [.next, .next, .prev, .next, .prev, .prev, .prev, .next]
    (World.fresh 0)).toOption.isSome = true := by decide +kernel
  cases hr : presses (σ := Nat) (sampleWork Step.all) [.next, .next, .prev, .next, .prev, .prev, .prev, .next]
    (World.fresh 0) with
  | error e => rw [hr] at h; simp [Except.toOption] at h
  | ok r =>
    refine ⟨r.1, r.2, rfl, ?_⟩
    rw [(C72_buttons_partial _ (sampleWork_progressing (by intro s; cases s <;> decide)) _ r.2 (.fresh 0)
      (by intro a _; simp [World.fresh]) _ r.1 hr).1]
    decide

/-- C72, partial. The button for the previous step undoes the one for the next step: after any presses, at a remembered
timepoint, pressing one then the other returns to the same timepoint, where every registered object that the step does not
destroy reads as before. Missing: as above. -/
theorem C72_previous_undoes_partial (work : App.Work σ) (hwork : ProgressingWork work) (w0 w w1 : World σ Step)
    (hw : Reachable w0) (hfresh : NoStepRun w0) (l : List Press) (logs : List (List Step))
    (h0 : presses work l w0 = .ok (logs, w)) (p : Nat) (hp : StandsOn w p) (log : List Step) (hne : log ≠ [])
    (h : press work .next w = .ok (log, w1)) :
    ∃ w2, press work .prev w1 = .ok ([], w2) ∧ w2.care.current = w.care.current ∧
      ∀ i o, Registered w i o → SparingWork i work → reads w2 i = reads w i := by
  obtain ⟨-, hat⟩ := At.presses hwork l 0 w0 logs (at_zero hw hfresh) h0
  generalize (cursor 0 l).2 = k at hat
  simp only [press] at h
  obtain ⟨⟨log', w1'⟩, hn, he⟩ := except_map_ok h
  simp only [Prod.mk.injEq] at he
  obtain ⟨rfl, rfl⟩ := he
  have hk : k < order.length := by
    by_contra hk
    rw [((hat.next_run hn).2 hk).1] at hne
    exact hne rfl
  obtain ⟨s, hs, hr⟩ := (hat.next_run hn).1 hk
  obtain ⟨hf, hlive⟩ := hat.run_find hwork hs hr
  have hat1 := (hat.run hwork hs hr).2
  have ht := live_iff.mp hlive
  obtain ⟨w2, h1, -⟩ := rememberCurrent_spec (go_inv (reachable_inv hat1.reach) ht)
  have hgo : w1'.goAndRemember (some w.care.current) = .ok (true, w2) := by
    simp only [World.goAndRemember, goWithoutRemembering_eq ht, h1]
  have hcare : w2.care.tree = w1'.care.tree ∧ w2.care.current = w.care.current ∧
      w2.objs = World.goAll w1'.objs w.care.current w1'.care.originators ∧ w2.care.originators = w1'.care.originators := by
    simp only [World.rememberCurrent] at h1
    split at h1
    · cases h1
    · split at h1 <;> cases h1 <;> exact ⟨rfl, rfl, rfl, rfl⟩
  have hre : Reachable w2 := .step (.goAndRemember (some w.care.current)) hat1.reach
    (fun a ha => by cases ha; exact hlive) (by simp only [exec, hgo]; rfl)
  refine ⟨w2, by simp only [press, App.goBeforePreviousStep, hf, hgo]; rfl, hcare.2.1, fun i o hi hwork' => ?_⟩
  obtain ⟨v, hv, hvr⟩ := C05_reads_nearest w hat.reach i o hi
  have hm : w.care.current ∈ w.care.history.take (p + 1) := by
    rw [List.mem_take_iff_getElem]
    obtain ⟨hlt, he⟩ := List.getElem?_eq_some_iff.mp hp.1
    exact ⟨p, by omega, he⟩
  have T : Track (w.care.history.take (p + 1)) i w.care.current (some v) [] w :=
    ⟨reachable_inv hat.reach, StandsOn.keeps hp, ⟨o, hi, hv, by simp⟩, by simp⟩
  simp only [App.run] at hr
  split at hr
  · cases hr
  rename_i l5 w5 hall
  obtain ⟨o5, ho5, hs5, -⟩ := (Track.handleAll hwork' hat.reach T hm hall).reg
  split at hr
  · cases hr
  rename_i w6 hrem
  cases hr
  have hc : w1'.care.tree = w5.care.tree ∧ w1'.objs = w5.objs ∧ w1'.care.originators = w5.care.originators := by
    simp only [World.rememberCurrent] at hrem
    split at hrem
    · cases hrem
    · split at hrem <;> cases hrem <;> exact ⟨rfl, rfl, rfl⟩
  have hi2 : Registered w2 i (o5.go (some w.care.current)) := by
    refine ⟨by rw [hcare.2.2.2, hc.2.2]; exact ho5.1, ?_⟩
    rw [hcare.2.2.1, goAll_eq, if_pos (by rw [hc.2.2]; exact ho5.1), hc.2.1, ho5.2]
    rfl
  obtain ⟨v2, hv2, hvr2⟩ := C05_reads_nearest w2 hre i _ hi2
  have : shownAt w2 (o5.go (some w.care.current)) w.care.current = shownAt w5 o5 w.care.current :=
    shownAt_same (by rw [hcare.1, hc.1]) rfl rfl rfl
  rw [hcare.2.1, this, hs5] at hv2
  cases hv2
  rw [hvr2, hvr]

theorem ok_of_any {ε α : Type} {x : Except ε α} {q : α → Bool} (h : x.toOption.any q = true) : ∃ a, x = .ok a ∧ q a = true := by
  cases x with
  | error e => simp [Except.toOption] at h
  | ok a => exact ⟨a, rfl, by simpa [Except.toOption] using h⟩

/-- Two steps done, the third is done then undone: the object reads 10 again. -/
example : ∃ logs w log w1, presses (sampleWork Step.all) [.next, .next] editedStart = .ok (logs, w) ∧ StandsOn w 2 ∧
    press (sampleWork Step.all) .next w = .ok (log, w1) ∧ log ≠ [] ∧ (∃ o, Registered w 0 o) ∧ reads w 0 = .ok 10 ∧
    NoStepRun editedStart := by
  have h : (presses (sampleWork Step.all) [.next, .next] editedStart).toOption.any
      (fun r => decide (r.2.care.history[2]? = some r.2.care.current ∧ r.2.care.browser = none ∧
        r.2.care.history.length = 3 ∧ (∃ o, Registered r.2 0 o) ∧ reads r.2 0 = .ok 10) &&
        (press (sampleWork Step.all) .next r.2).toOption.any fun x => decide (x.1 ≠ [])) = true := by decide +kernel
  obtain ⟨⟨logs, w⟩, h1, h2⟩ := ok_of_any h
  simp only [Bool.and_eq_true, decide_eq_true_eq] at h2
  obtain ⟨⟨a1, a2, a3, a4, a5⟩, h2⟩ := h2
  obtain ⟨⟨log, w1⟩, h3, h4⟩ := ok_of_any h2
  have ha : editedStart.care.annotations = [] := by rfl
  exact ⟨logs, w, log, w1, h1, ⟨a1, .inr ⟨a2, a3.symm⟩⟩, h3, by simpa using h4, a4, a5, fun a _ => by rw [ha]; rfl⟩

/-- C72 is false: a step that makes no timepoint is run again by the button for the next one, and the button for the
previous one stays disabled. -/
theorem C72_false : ∃ (work : App.Work Nat) (w : World Nat Step) (logs : List (List Step)), DomainWork work ∧
    presses work [.next, .next] (World.fresh 0) = .ok (logs, w) ∧ logs ≠ (cursor 0 [.next, .next]).1 ∧
    App.canGoBefore w = .ok false := by
  have h : (presses (σ := Nat) (sampleWork (Step.all.filter (· ≠ .adjustEdgeToMaterial))) [.next, .next]
      (World.fresh 0)).toOption.any (fun r => decide (r.1 ≠ (cursor 0 [.next, .next]).1) &&
        (App.canGoBefore r.2).toOption.any fun b => !b) = true := by decide +kernel
  obtain ⟨⟨logs, w⟩, h1, h2⟩ := ok_of_any h
  simp only [Bool.and_eq_true, decide_eq_true_eq] at h2
  obtain ⟨b, h3, h4⟩ := ok_of_any h2.2
  refine ⟨_, w, logs, sampleWork_domain _, h1, h2.1, ?_⟩
  rw [h3]
  simpa using h4

/-! ## C73 -/

/-- Where a step starts is annotated with it. -/
theorem enters_annotated {work : App.Work σ} (hwork : ProgressingWork work) {steps rest : List Step} {w ws : World σ Step}
    {s : Step} (hw : Reachable w) (hst : ∀ a, ann w w.care.current = some a →
      (rest.filter fun s => decide (s ∈ steps)).head? = some a) (he : Enters work steps rest w s ws) :
    Reachable ws ∧ ann ws ws.care.current = some s := by
  induction he with
  | @here s rest w hs =>
    refine ⟨.step (.annotate s) hw trivial rfl, ?_⟩
    simp only [List.filter_cons, hs, decide_true, if_true, List.head?_cons] at hst
    unfold World.annotateCurrent
    cases ha : ann w w.care.current with
    | none =>
      simp only [ann] at ha
      simp only [ha, Option.isSome_none, Bool.false_eq_true, if_false, ann]
      rw [List.lookup_append, ha]; simp
    | some a =>
      have := hst a ha
      simp only [ann] at ha
      simp only [ha, Option.isSome_some, if_true, ann]
      exact this.symm
  | @later s rest w w1 s' w' hs hwk he ih =>
    have hwa : Reachable (w.annotateCurrent s) := .step (.annotate s) hw trivial rfl
    obtain ⟨ops, hr, hb, hed⟩ := hwork s _ _ hwa hwk
    obtain ⟨q, ⟨l, u1, u2, u3, u4⟩, hq⟩ := boardRun_under hr (reachable_inv hwa) hb
    refine ih (hr.reachable hwa) ?_ 
    intro a ha
    obtain ⟨r', hr'⟩ := chain_cons u2
    cases q with
    | nil => exact absurd rfl (hq hed)
    | cons x q' =>
      simp only [List.cons_append, List.cons.injEq] at hr'
      rw [u4 _ (by rw [← hr'.1]; simp)] at ha
      cases ha
  | @skip s rest w s' w' hs he ih =>
    refine ih hw ?_
    simpa [List.filter_cons, hs] using hst

/-- C73, partial. At any moment of the execution of a step, `get_current_step`, from which the progress bar takes its
number, gives this step. Missing: a step that comes after one that made no timepoint, see `C73_false`. -/
theorem C73_progress_partial (work : App.Work σ) (hwork : ProgressingWork work) (steps : List Step) (w ws w1 : World σ Step)
    (hw : Reachable w) (hstart : ∀ a, w.care.annotations.lookup w.care.current = some a →
      (Step.handled.filter fun s => decide (s ∈ steps)).head? = some a)
    (s : Step) (he : Enters work steps Step.handled w s ws) (ops : List (Op σ Step)) (hr : LegalRun ws ops w1)
    (hb : ∀ op ∈ ops, BoardOp op) : App.getCurrentStep w1 = .ok (some s) := by
  obtain ⟨hws, ha⟩ := enters_annotated hwork hw hstart he
  obtain ⟨q, ⟨l, u1, u2, u3, u4⟩, -⟩ := boardRun_under hr (reachable_inv hws) hb
  obtain ⟨r, rfl⟩ := chain_cons u1
  have hfind : w1.findFirstAncestorWithAnnotation true = .ok (some ws.care.current) := by
    simp only [World.findFirstAncestorWithAnnotation, World.findFirstAncestorWithAnnotationThat, ancestors, u2, if_true, Option.map_some]
    congr 1
    have hx := u3 ws.care.current (by simp)
    rw [ha] at hx
    simp only [ann] at hx
    rw [List.find?_append, List.find?_eq_none.mpr]
    · simp [hx]
    · intro a ha
      have := u4 a ha
      simp only [ann] at this
      simp [this]
  unfold App.getCurrentStep
  rw [hfind]
  have hx := u3 ws.care.current (by simp)
  rw [ha] at hx
  simp only [World.getAnnotation]
  exact congrArg Except.ok hx

example : ∃ (w1 : World Nat Step), Enters (sampleWork Step.all) [.adjustEdgeToMaterial, .detectDiagAngles] Step.handled
    (World.fresh 0) .detectDiagAngles (w1.annotateCurrent .detectDiagAngles) := by
  have h : (sampleWork (σ := Nat) Step.all .adjustEdgeToMaterial
    ((World.fresh 0).annotateCurrent .adjustEdgeToMaterial)).toOption.any (fun _ => true) = true := by decide +kernel
  obtain ⟨w1, h1, -⟩ := ok_of_any h
  exact ⟨w1, .later (by simp) h1 (.here (by simp))⟩

/-- C73 is false: when the first step made no timepoint, the first is still shown during the second. -/
theorem C73_false : ∃ (work : App.Work Nat) (w w1 : World Nat Step), DomainWork work ∧
    Enters work [.adjustEdgeToMaterial, .detectDiagAngles] Step.handled (World.fresh 0) .detectDiagAngles w ∧
    work .detectDiagAngles w = .ok w1 ∧ App.getCurrentStep w = .ok (some .adjustEdgeToMaterial) ∧
    App.getCurrentStep w1 = .ok (some .adjustEdgeToMaterial) := by
  have h : (sampleWork (σ := Nat) [.detectDiagAngles] .adjustEdgeToMaterial
    ((World.fresh 0).annotateCurrent .adjustEdgeToMaterial)).toOption.any (fun w =>
      decide (App.getCurrentStep (w.annotateCurrent .detectDiagAngles) = .ok (some .adjustEdgeToMaterial)) &&
      (sampleWork (σ := Nat) [.detectDiagAngles] .detectDiagAngles (w.annotateCurrent .detectDiagAngles)).toOption.any
        fun w => decide (App.getCurrentStep w = .ok (some .adjustEdgeToMaterial))) = true := by decide +kernel
  obtain ⟨w, h1, h2⟩ := ok_of_any h
  simp only [Bool.and_eq_true, decide_eq_true_eq] at h2
  obtain ⟨w1, h3, h4⟩ := ok_of_any h2.2
  exact ⟨_, _, w1, sampleWork_domain _, .later (by simp) h1 (.here (by simp)), h3, h2.1, by simpa using h4⟩

end Verif.Props
