import Verif.Lemmas.App
import Verif.Props.History
import Mathlib.Data.List.Sort

/-! # C13-C16: steps and runs -/

namespace Verif.Props
open Verif Spec

variable {σ : Type}

/-! ## C13 -/

/-- C13. The displayed index numbers the fifteen steps from 1 in execution order (0 is "no step", the maximum
is the index of the last step), `next` goes to the following one, `that_and_after` is the step and those
following it, in order. -/
theorem C13_same_order (s s' : Step) :
    order[Step.index (some s) - 1]? = some s ∧ 1 ≤ Step.index (some s) ∧ Step.index none = 0 ∧
    Step.indexMax = order.length ∧ order.Nodup ∧
    (s.next = some s' ↔ Step.index (some s') = Step.index (some s) + 1) ∧
    (s.next = none ↔ Step.index (some s) = Step.indexMax) ∧
    (s' ∈ s.thatAndAfter ↔ Step.index (some s) ≤ Step.index (some s')) ∧
    s.thatAndAfter = order.drop (Step.index (some s) - 1) := by
  refine ⟨?_, ?_, rfl, rfl, by decide, ?_, ?_, ?_, ?_⟩
  · cases s <;> rfl
  · cases s <;> decide
  · revert s s'; intro s s'; cases s <;> cases s' <;> decide
  · cases s <;> decide
  · cases s <;> cases s' <;> decide
  · cases s <;> rfl

/-- C13. A run executes exactly the requested steps, each once, in the order of the index; `run_all_steps`
executes the fifteen of them and `run_from_step(s)` executes `s` and everything after it. -/
theorem C13_run_executes (work : App.Work σ) (w w' : World σ Step) (log : List (Step × Addr)) :
    (∀ steps, App.run work steps w = .ok (log, w') →
      (∀ s, s ∈ log.map (·.1) ↔ s ∈ steps) ∧
      (log.map (·.1)).Pairwise (fun a b => Step.index (some a) < Step.index (some b))) ∧
    (App.runAllSteps work w = .ok (log, w') → log.map (·.1) = order) ∧
    (∀ s, App.runFromStep work s w = .ok (log, w') → log.map (·.1) = order.drop (Step.index (some s) - 1)) := by
  have hpw : order.Pairwise (fun a b => Step.index (some a) < Step.index (some b)) := by decide
  refine ⟨?_, ?_, ?_⟩
  · intro steps h
    rw [run_log h]
    constructor
    · intro s
      have : s ∈ Step.handled := by cases s <;> decide
      simp [List.mem_filter, this]
    · exact List.Pairwise.sublist List.filter_sublist hpw
  · intro h
    rw [run_log h]
    decide
  · intro s h
    rw [run_log h]
    cases s <;> decide

example : ∃ w' log, App.run (σ := Nat) (sampleWork Step.all) [.mesh, .detectDiagAngles] (World.fresh 0) = .ok (log, w') ∧
    log.map (·.1) = [.detectDiagAngles, .mesh] := by
  have h : (App.run (σ := Nat) (sampleWork Step.all) [.mesh, .detectDiagAngles] (World.fresh 0)).toOption.any
    (fun r => decide (r.1.map (·.1) = [Step.detectDiagAngles, Step.mesh])) = true := by decide +kernel
  obtain ⟨⟨log, w'⟩, h1, h2⟩ := (Option.any_eq_true _ _).mp h
  cases hr : App.run (σ := Nat) (sampleWork Step.all) [.mesh, .detectDiagAngles] (World.fresh 0) with
  | error e => rw [hr] at h1; simp [Except.toOption] at h1
  | ok r =>
    rw [hr] at h1
    simp only [Except.toOption, Option.some.injEq] at h1
    subst h1
    exact ⟨w', log, rfl, by simpa using h2⟩

/-! ## C14 -/

theorem runNextSteps_after (work : App.Work σ) (hwork : ProgressingWork work) (n k : Nat) (s : Step)
    (hk : order[k]? = some s) (w w' : World σ Step) (hw : Reachable w) (ha : AfterStep w s)
    (logs : List (List Step)) (h : runNextSteps work n w = .ok (logs, w')) :
    logs = (List.range' (k + 1) n).map fun j => match order[j]? with | some s => [s] | none => [] := by
  induction n generalizing k s w logs with
  | zero => simp only [runNextSteps] at h; cases h; rfl
  | succ n ih =>
    simp only [runNextSteps] at h
    obtain ⟨t, ht, hts⟩ := ha.find
    have hidx : k = Step.index (some s) - 1 := by
      have h1 := (C13_same_order s s).1
      have hlt : k < order.length := by
        rw [List.getElem?_eq_some_iff] at hk; exact hk.1
      exact (List.getElem?_inj hlt (by decide)).mp (hk.trans h1.symm)
    have hpos := (C13_same_order s s).2.1
    simp only [App.runNextStep, ht, hts] at h
    rw [List.range'_succ, List.map_cons]
    cases hn : s.next with
    | none =>
      simp only [hn] at h
      split at h
      · cases h
      · rename_i logs' w2 hh
        have hlast : Step.index (some s) = 15 := ((C13_same_order s s).2.2.2.2.2.2.1).mp hn
        cases h
        -- the state does not change and nothing is executed any more
        have hrep : ∀ n (logs : List (List Step)) (w2 : World σ Step), runNextSteps work n w = .ok (logs, w2) →
            logs = List.replicate n [] := by
          intro n
          induction n with
          | zero => intro logs w2 h; simp only [runNextSteps] at h; cases h; rfl
          | succ n ih2 =>
            intro logs w2 h
            simp only [runNextSteps, App.runNextStep, ht, hts, hn] at h
            split at h
            · cases h
            · rename_i l2 w3 h3
              cases h
              rw [ih2 _ _ h3]; rfl
        rw [hrep _ _ _ hh]
        have hnone : ∀ j, 15 ≤ j → order[j]? = none := by
          intro j hj; exact List.getElem?_eq_none (by simpa [order] using hj)
        have hk14 : k = 14 := by omega
        subst hk14
        rw [hnone 15 (by omega)]
        simp only [List.map_nil, List.cons.injEq, true_and]
        symm
        rw [List.eq_replicate_iff]
        refine ⟨by simp, ?_⟩
        intro x hx
        obtain ⟨j, hj, rfl⟩ := List.mem_map.mp hx
        rw [List.mem_range'_1] at hj
        rw [hnone j (by omega)]
    | some s' =>
      simp only [hn] at h
      split at h
      · cases h
      · rename_i log w1 hr
        split at h
        · cases h
        · rename_i logs' w2 hh
          cases h
          obtain ⟨h1, h2, h3⟩ := run_one hwork hw ha.1 hr
          have hidx' : Step.index (some s') = Step.index (some s) + 1 := ((C13_same_order s s').2.2.2.2.2.1).mp hn
          have hk' : order[k + 1]? = some s' := by
            have := (C13_same_order s' s').1
            rw [hidx'] at this
            have e : Step.index (some s) + 1 - 1 = k + 1 := by omega
            rwa [e] at this
          rw [hk', h1, ih (k + 1) s' hk' w1 h2 h3 _ hh]

/-- C14, partial. From a board on which no step was run, calling `run_next_step` again and again executes the
fifteen steps in order, one by one, and then nothing, provided each step makes at least one timepoint.
Missing: steps that make no timepoint, which exist; then it is false, see `C14_false`. -/
theorem C14_run_next_step_partial (work : App.Work σ) (hwork : ProgressingWork work) (w w' : World σ Step)
    (hw : Reachable w) (hfresh : NoStepRun w) (n : Nat) (logs : List (List Step))
    (h : runNextSteps work n w = .ok (logs, w')) : logs = oneByOne n := by
  cases n with
  | zero => simp only [runNextSteps] at h; cases h; rfl
  | succ n =>
    simp only [runNextSteps] at h
    have hinv := reachable_inv hw
    obtain ⟨l, hl⟩ := TreeNode.chain_of_mem hinv.current
    have hnone : ∀ a ∈ l, w.care.annotations.lookup a = none := fun a ha =>
      hfresh a (ancOrSelf_iff.mpr ⟨l, hl, ha⟩)
    have hfind : w.findFirstAncestorWithAnnotation false = .ok none := by
      simp only [World.findFirstAncestorWithAnnotation, World.findFirstAncestorWithAnnotationThat,
        TreeNode.ancestors, hl, Option.map_some, Bool.false_eq_true, if_false]
      congr 1
      rw [List.find?_eq_none]
      intro a ha
      simp [hnone a (List.mem_of_mem_tail ha)]
    obtain ⟨r, rfl⟩ := TreeNode.chain_cons hl
    simp only [App.runNextStep, hfind, World.getAnnotation] at h
    split at h
    · cases h
    · rename_i log w1 hr
      split at h
      · cases h
      · rename_i logs' w2 hh
        cases h
        obtain ⟨h1, h2, h3⟩ := run_one hwork hw (hnone _ (by simp)) hr
        rw [h1, runNextSteps_after work hwork n 0 _ rfl w1 w' h2 h3 _ hh]
        simp only [oneByOne]
        rw [List.range_eq_range', List.range'_succ, List.map_cons]
        rfl

example : ProgressingWork (sampleWork (σ := Nat) Step.all) ∧ Reachable (World.fresh 0 : World Nat Step) ∧
    NoStepRun (World.fresh 0 : World Nat Step) ∧
    (runNextSteps (sampleWork (σ := Nat) Step.all) 17 (World.fresh 0)).toOption.isSome :=
  ⟨sampleWork_progressing (by intro s; cases s <;> decide), .fresh 0,
    by intro a _; simp [World.fresh], by decide +kernel⟩

/-- C14 is false: when the first step makes no timepoint (a board whose edges have nothing to adjust), every
call of `run_next_step` executes the first step again; the following ones are never reached. -/
theorem C14_false : ∃ work : App.Work Nat, DomainWork work ∧
    (∀ s, s ≠ .adjustEdgeToMaterial → ∀ w w', work s w = .ok w' → w'.care.current ≠ w.care.current ∨ ¬ Reachable w) ∧
    ∀ n, ∃ w', runNextSteps work n (World.fresh 0) = .ok (List.replicate n [.adjustEdgeToMaterial], w') := by
  refine ⟨sampleWork (Step.all.filter (· ≠ .adjustEdgeToMaterial)), sampleWork_domain _, ?_, ?_⟩
  · intro s hs w w' he
    by_cases hw : Reachable w
    · left
      have hmem : s ∈ Step.all.filter (· ≠ .adjustEdgeToMaterial) := by
        cases s <;> first | decide | exact absurd rfl hs
      obtain ⟨new, h1, h2⟩ := sampleWork_legal hmem he
      obtain ⟨l, u1, u2, _⟩ := makeNext_under (reachable_inv hw) h1 h2
      obtain ⟨r, hr⟩ := TreeNode.chain_cons u2
      obtain ⟨w1, w2, k1, k2, k3, k4, k5, k6, k7⟩ := makeNextTimepoint_spec (reachable_inv hw) h1
      simp only [exec] at h2
      rw [h2] at k2; cases k2
      intro hcon
      simp only [List.cons_append, List.nil_append, List.cons.injEq] at hr
      obtain ⟨r', rfl⟩ := TreeNode.chain_cons u1
      have hn := TreeNode.chain_nodup _ _ _ k4.nodup u2
      simp [hr.1, hcon] at hn
    · exact Or.inr hw
  · let u : World Nat Step := { (World.fresh 0 : World Nat Step) with
      care := { (World.fresh 0 : World Nat Step).care with annotations := [(0, .adjustEdgeToMaterial)] } }
    have h0 : App.runNextStep (sampleWork (Step.all.filter (· ≠ .adjustEdgeToMaterial))) (World.fresh 0 : World Nat Step) =
        .ok ([(.adjustEdgeToMaterial, 0)], u) := rfl
    have h1 : App.runNextStep (sampleWork (Step.all.filter (· ≠ .adjustEdgeToMaterial))) u =
        .ok ([(.adjustEdgeToMaterial, 0)], u) := rfl
    have h2 : ∀ n, runNextSteps (sampleWork (Step.all.filter (· ≠ .adjustEdgeToMaterial))) n u =
        .ok (List.replicate n [.adjustEdgeToMaterial], u) := by
      intro n
      induction n with
      | zero => rfl
      | succ n ih => simp only [runNextSteps, h1, ih]; rfl
    intro n
    cases n with
    | zero => exact ⟨_, rfl⟩
    | succ n => exact ⟨u, by simp only [runNextSteps, h0, h2]; rfl⟩

/-! ## C15 -/

/-- C15, partial. After a run, `go_before(s)` for any step `s` it executed makes current the timepoint at which
`s` started, and every registered object reads its state there, provided each step makes a timepoint and the
run started at a timepoint that carried no annotation (or the one of the first step executed).
Missing: steps that make no timepoint; then it is false, see `C15_false`. -/
theorem C15_go_before_partial (work : App.Work σ) (hwork : ProgressingWork work) (w w' : World σ Step)
    (hw : Reachable w) (steps : List Step) (log : List (Step × Addr)) (h : App.run work steps w = .ok (log, w'))
    (hstart : ∀ a, w.care.annotations.lookup w.care.current = some a → (log.map (·.1)).head? = some a)
    (s : Step) (t : Addr) (hs : (s, t) ∈ log) :
    ∃ w'', App.goBefore s w' = .ok w'' ∧ w''.care.current = t ∧
      ∀ i o, Registered w' i o → ∃ v, shownAt w' o t = some v ∧ reads w'' i = .ok v := by
  have hst : ann w w.care.current = none ∨
      ann w w.care.current = (Step.handled.filter (fun s => decide (s ∈ steps))).head? := by
    rw [← run_log h]
    cases hx : ann w w.care.current with
    | none => exact Or.inl rfl
    | some a => exact Or.inr (hstart a hx).symm
  obtain ⟨p, l, hran⟩ := run_ran hwork hw hst h
  obtain ⟨h1, p1, l1, h2, h3, h4⟩ := hran.starts s t hs
  have hfind : w'.findFirstAncestorWithAnnotationThat (fun a => decide (a = s)) false = .ok (some t) :=
    findFirst_eq h3 (by rw [← h2]; exact hran.after) h1 (by simp) (by
      intro a ha x hx
      have := h4 a ha
      rw [hx] at this
      simpa using this)
  have hw' := run_reachable (domain_of_progressing hwork) hw h
  have hlive : Live w' t := by
    rw [live_iff]
    exact TreeNode.chain_subset _ _ _ hran.after t (by rw [h2]; simp)
  obtain ⟨w'', g1, g2, _, g4⟩ := C05_go_restores w' hw' t hlive
  refine ⟨w'', by simp only [App.goBefore, hfind, g1], g2, g4⟩

example : ∃ log w', App.run (sampleWork (σ := Nat) Step.all) Step.all (World.fresh 0) = .ok (log, w') ∧
    (Step.detectIntervals, 11) ∈ log := by
  have h : (App.run (σ := Nat) (sampleWork Step.all) Step.all (World.fresh 0)).toOption.any
    (fun r => decide ((Step.detectIntervals, 11) ∈ r.1)) = true := by decide +kernel
  obtain ⟨⟨log, w'⟩, h1, h2⟩ := (Option.any_eq_true _ _).mp h
  cases hr : App.run (σ := Nat) (sampleWork Step.all) Step.all (World.fresh 0) with
  | error e => rw [hr] at h1; simp [Except.toOption] at h1
  | ok r =>
    rw [hr] at h1
    simp only [Except.toOption, Option.some.injEq] at h1
    subst h1
    exact ⟨log, w', rfl, by simpa using h2⟩

/-- C15 is false: when a step makes no timepoint, the following step starts at a timepoint already annotated;
its own annotation is dropped, and going before it goes nowhere. -/
theorem C15_false : ∃ (work : App.Work Nat) (w' w'' : World Nat Step) (log : List (Step × Addr)) (t : Addr),
    DomainWork work ∧
    App.run work [.adjustEdgeToMaterial, .detectDiagAngles] (World.fresh 0) = .ok (log, w') ∧
    (Step.detectDiagAngles, t) ∈ log ∧ w'.care.current ≠ t ∧
    App.goBefore .detectDiagAngles w' = .ok w'' ∧ w''.care.current ≠ t := by
  let work : App.Work Nat := sampleWork [.detectDiagAngles]
  have h : (App.run work [.adjustEdgeToMaterial, .detectDiagAngles] (World.fresh 0)).toOption.any
    (fun r => decide ((Step.detectDiagAngles, 0) ∈ r.1 ∧ r.2.care.current ≠ 0) &&
      (App.goBefore .detectDiagAngles r.2).toOption.any (fun w'' => decide (w''.care.current ≠ 0))) = true := by
    decide +kernel
  obtain ⟨⟨log, w'⟩, h1, h2⟩ := (Option.any_eq_true _ _).mp h
  cases hr : App.run work [.adjustEdgeToMaterial, .detectDiagAngles] (World.fresh 0) with
  | error e => rw [hr] at h1; simp [Except.toOption] at h1
  | ok r =>
    rw [hr] at h1
    simp only [Except.toOption, Option.some.injEq] at h1
    subst h1
    simp only [Bool.and_eq_true, decide_eq_true_eq] at h2
    obtain ⟨⟨h3, h4⟩, h5⟩ := h2
    obtain ⟨w'', h6, h7⟩ := (Option.any_eq_true _ _).mp h5
    cases hg : App.goBefore .detectDiagAngles w' with
    | error e => rw [hg] at h6; simp [Except.toOption] at h6
    | ok v =>
      rw [hg] at h6
      simp only [Except.toOption, Option.some.injEq] at h6
      subst h6
      exact ⟨work, w', v, log, 0, sampleWork_domain _, hr, h3, h4, hg, by simpa using h7⟩

/-! ## C16 -/

/-- What the parser does to the history: it builds objects and makes no timepoint. -/
def ParserWork (parser : World σ Step → Except Fault (Option (World σ Step))) : Prop :=
  ∀ w w', Reachable w → parser w = .ok (some w') →
    ∃ ops, LegalRun w ops w' ∧ ∀ op ∈ ops, BoardOp op ∧ ¬ Edits op

/-- C16, partial. After a successful parse there is one timepoint, the root, nothing can be undone or redone,
nothing is pinned, one cannot go before a step; and no step is current, if the root carried no annotation.
Missing: a root annotated by a run before the parse stays annotated, see `C16_false`. -/
theorem C16_clean_after_parse_partial (parser : World σ Step → Except Fault (Option (World σ Step)))
    (hp : ParserWork parser) (w w' : World σ Step) (hw : Reachable w) (h : App.parse parser w = .ok (true, w')) :
    (∀ a, Live w' a ↔ a = w'.care.tree.addr) ∧ w'.care.tree.addr = w.care.tree.addr ∧
    w'.care.current = w'.care.tree.addr ∧ w'.care.history = [w'.care.tree.addr] ∧
    (∀ k, w'.canUndo k = .ok false) ∧ (∀ k, w'.canRedo k = false) ∧ w'.care.pinned = [] ∧
    App.canGoBefore w' = .ok false ∧ App.canRunANextStep w' = .ok true ∧
    App.getCurrentStep w' = .ok (w.care.annotations.lookup w.care.tree.addr) := by
  have hinv := reachable_inv hw
  obtain ⟨x, xs, w1, h1, h2, h3, h4⟩ := reset_spec hinv
  have hx : x = w.care.tree.addr := by
    have := hinv.historyHead
    rw [h1] at this
    simpa using this
  subst hx
  simp only [App.parse, h2] at h
  split at h
  · cases h
  · cases h
  · rename_i w2 hpw
    split at h
    · cases h
    · rename_i w3 hr
      cases h
      have hw1 : Reachable w1 := .step .reset hw trivial h2
      obtain ⟨ops, hrun, hops⟩ := hp w1 w2 hw1 hpw
      obtain ⟨l, hcare⟩ := quietRun_same hrun hops
      have hroot : Needed { w with care := { w.care with current := w.care.tree.addr, pinned := [], history := [w.care.tree.addr], browser := none, originators := [] } } w.care.tree.addr :=
        ⟨w.care.tree.addr, by simp, ancOrSelf_iff.mpr ⟨_, TreeNode.chain_root _, by simp⟩⟩
      have hneed : ∀ a, Needed { w with care := { w.care with current := w.care.tree.addr, pinned := [], history := [w.care.tree.addr], browser := none, originators := [] } } a ↔ a = w.care.tree.addr := by
        intro a
        constructor
        · rintro ⟨t, ht, ha⟩
          have ht : t = w.care.tree.addr := by simpa using ht
          obtain ⟨l, hl, hal⟩ := ancOrSelf_iff.mp ha
          subst ht
          have : l = [w.care.tree.addr] := by
            have := TreeNode.chain_root w.care.tree
            simp only at hl
            rw [this] at hl
            exact (Option.some.inj hl).symm
          subst this
          simpa using hal
        · rintro rfl; exact hroot
      have hcur : w2.care.current = w.care.tree.addr := by rw [hcare]; exact h4.current
      have hhist : w2.care.history = [w.care.tree.addr] := by rw [hcare]; exact h4.history
      have hw3 : w' = w2 := by
        simp only [World.rememberCurrent, hhist, hcur] at hr
        simp only [List.getLast?_singleton, ne_eq, not_true_eq_false, if_false] at hr
        exact (except_ok_inj hr).symm
      subst hw3
      have htree : w'.care.tree = w1.care.tree := by rw [hcare]
      have haddr : w'.care.tree.addr = w.care.tree.addr := by rw [htree]; exact h4.addr
      have hbr : w'.care.browser = none := by rw [hcare]; exact h4.browser
      have hchain : w'.care.tree.chain w'.care.current = some [w.care.tree.addr] := by
        rw [htree, hcur, ← haddr, htree]; exact TreeNode.chain_root _
      have hann : w'.care.annotations.lookup w.care.tree.addr = w.care.annotations.lookup w.care.tree.addr := by
        rw [hcare]
        exact h4.lookup _ hroot
      refine ⟨?_, haddr, by rw [haddr, hcur], by rw [haddr, hhist], ?_, ?_, ?_, ?_, ?_, ?_⟩
      · intro a
        rw [live_iff, htree, h4.live, hneed, ← htree, haddr]
      · intro k
        by_cases hk : k = 0
        · simp [World.canUndo, hk]
        · simp [World.canUndo, hk, hbr, hhist, hcur]
      · intro k
        simp [World.canRedo, hbr]
      · rw [hcare]; exact h4.pinned
      · simp [App.canGoBefore, World.findFirstAncestorWithAnnotation, World.findFirstAncestorWithAnnotationThat,
          TreeNode.ancestors, hchain]
      · simp [App.canRunANextStep, World.findFirstAncestorWithAnnotation, World.findFirstAncestorWithAnnotationThat,
          TreeNode.ancestors, hchain, World.getAnnotation]
      · simp only [App.getCurrentStep, World.findFirstAncestorWithAnnotation,
          World.findFirstAncestorWithAnnotationThat, TreeNode.ancestors, hchain, Option.map_some, if_true]
        rw [← hann]
        cases hl2 : w'.care.annotations.lookup w.care.tree.addr with
        | none => simp [hl2, World.getAnnotation]
        | some a => simp [hl2, World.getAnnotation]

/-- A parser that builds one registered object. -/
def sampleParser : World Nat Step → Except Fault (Option (World Nat Step)) := fun w =>
  if w.objs 0 = none ∧ 0 ∉ w.care.originators then
    match (w.create 0 false (some w.care.current) 7).takeCareOf 0 with
    | .error e => .error e
    | .ok w => .ok (some w)
  else .ok (some w)

theorem sampleParser_work : ParserWork sampleParser := by
  intro w w' hw h
  simp only [sampleParser] at h
  split at h
  · rename_i hc
    split at h
    · cases h
    · rename_i w1 h1
      cases h
      exact ⟨[.create 0 false w.care.current 7],
        .cons ⟨hc.1, hc.2, live_iff.mpr (reachable_inv hw).current⟩ h1 (.nil _), by simp [BoardOp, Edits]⟩
  · cases h
    exact ⟨[], .nil _, by simp⟩

example : ∃ w w' : World Nat Step, Reachable w ∧ w.care.current ≠ w.care.tree.addr ∧
    App.parse sampleParser w = .ok (true, w') := by
  have hl : (legalRun? (World.fresh 0) ([.makeNext 1, .pin, .remember] : List (Op Nat Step))).any (fun w =>
    decide (w.care.current ≠ w.care.tree.addr) && (App.parse sampleParser w).toOption.any (fun r => r.1)) = true := by
    decide +kernel
  obtain ⟨w, hw, hp⟩ := (Option.any_eq_true _ _).mp hl
  simp only [Bool.and_eq_true, decide_eq_true_eq] at hp
  obtain ⟨h1, h2⟩ := hp
  cases hq : App.parse sampleParser w with
  | error e => rw [hq] at h2; simp [Except.toOption] at h2
  | ok r =>
    obtain ⟨b, v⟩ := r
    rw [hq] at h2
    simp only [Except.toOption, Option.any_some] at h2
    subst h2
    exact ⟨w, v, (legalRun?_sound hw).reachable (.fresh 0), h1, hq⟩

/-- C16 is false: after a run and a second parse, the current step is the first step of the previous run,
although no step was run on the new board. -/
theorem C16_false : ∃ (work : App.Work Nat) (w1 w2 w3 : World Nat Step) (log : List (Step × Addr)),
    DomainWork work ∧ ParserWork sampleParser ∧ App.parse sampleParser (World.fresh 0) = .ok (true, w1) ∧
    App.runAllSteps work w1 = .ok (log, w2) ∧ App.parse sampleParser w2 = .ok (true, w3) ∧
    App.getCurrentStep w3 = .ok (some .adjustEdgeToMaterial) := by
  have key : ∀ {ε β : Type} (x : Except ε β) (p : β → Bool), x.toOption.any p = true → ∃ b, x = .ok b ∧ p b = true := by
    intro ε β x p h
    cases x with
    | error e => simp [Except.toOption] at h
    | ok b => exact ⟨b, rfl, by simpa [Except.toOption] using h⟩
  let work : App.Work Nat := sampleWork Step.all
  have h : (App.parse sampleParser (World.fresh 0)).toOption.any (fun r1 => r1.1 &&
    (App.runAllSteps work r1.2).toOption.any (fun r2 => (App.parse sampleParser r2.2).toOption.any (fun r3 => r3.1 &&
      decide (App.getCurrentStep r3.2 = .ok (some .adjustEdgeToMaterial))))) = true := by decide +kernel
  obtain ⟨⟨b1, w1⟩, e1, h⟩ := key _ _ h
  simp only [Bool.and_eq_true] at h
  obtain ⟨rfl, h⟩ := h
  obtain ⟨⟨log, w2⟩, e2, h⟩ := key _ _ h
  obtain ⟨⟨b3, w3⟩, e3, h⟩ := key _ _ h
  simp only [Bool.and_eq_true, decide_eq_true_eq] at h
  obtain ⟨rfl, h⟩ := h
  exact ⟨work, w1, w2, w3, log, sampleWork_domain _, sampleParser_work, e1, e2, e3, h⟩

end Verif.Props
