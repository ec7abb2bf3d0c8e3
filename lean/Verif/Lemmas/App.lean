import Verif.Lemmas.History
import Verif.Spec.App

/-! Lemmas on runs of steps over the history. -/

namespace Verif
open Spec TreeNode

variable {σ α : Type}

/-- Shorthand: the annotation of a timepoint. -/
abbrev ann (w : World σ α) (a : Addr) : Option α := w.care.annotations.lookup a

/-- `w'` is reached from `w` by going down: the way from the root to the current timepoint of `w` is still
there with its annotations, and `p` are the unannotated timepoints below it, current first. -/
def Under (w w' : World σ α) (p : List Addr) : Prop :=
  ∃ l, chain w.care.tree w.care.current = some l ∧ chain w'.care.tree w'.care.current = some (p ++ l) ∧
    (∀ a ∈ l, ann w' a = ann w a) ∧ ∀ a ∈ p, ann w' a = none

theorem Under.refl {w : World σ α} (h : WInv w) : Under w w [] := by
  obtain ⟨l, hl⟩ := chain_of_mem h.current
  exact ⟨l, hl, by simpa using hl, fun _ _ => rfl, by simp⟩

theorem Under.trans {w0 w1 w2 : World σ α} {p q : List Addr} (h1 : Under w0 w1 p) (h2 : Under w1 w2 q) :
    Under w0 w2 (q ++ p) := by
  obtain ⟨l, a1, a2, a3, a4⟩ := h1
  obtain ⟨m, b1, b2, b3, b4⟩ := h2
  rw [a2] at b1
  cases b1
  refine ⟨l, a1, by simpa using b2, ?_, ?_⟩
  · intro a ha
    rw [b3 a (by simp [ha]), a3 a ha]
  · intro a ha
    rcases List.mem_append.mp ha with ha | ha
    · exact b4 a ha
    · rw [b3 a (by simp [ha]), a4 a ha]

theorem Under.of_same {w w' : World σ α} (h : WInv w) (h1 : w'.care.tree = w.care.tree)
    (h2 : w'.care.current = w.care.current) (h3 : w'.care.annotations = w.care.annotations) :
    Under w w' [] := by
  obtain ⟨l, hl⟩ := chain_of_mem h.current
  exact ⟨l, hl, by simpa [h1, h2] using hl, fun _ _ => by simp [ann, h3], by simp⟩

theorem ann_of_not_live {w : World σ α} (h : WInv w) {a : Addr} (ha : a ∉ clusterSelf w.care.tree) :
    ann w a = none := by
  cases hh : ann w a with
  | none => rfl
  | some x =>
    obtain ⟨l1, l2, he, _⟩ := List.lookup_eq_some_iff.mp hh
    exact absurd (h.annotations (a, x) (by rw [he]; simp)) ha

theorem makeNext_under {w w' : World σ α} (h : WInv w) {new : Addr} (hl : EditLegal w new)
    (he : w.makeNextTimepoint new = .ok w') : Under w w' [new] := by
  obtain ⟨w1, w2, h1, h2, h3, h4, h5, h6, hw2⟩ := makeNextTimepoint_spec h hl
  rw [he] at h2; cases h2
  obtain ⟨l, hlc⟩ := chain_of_mem h.current
  obtain ⟨f1, f2, f3, f4, f5, f6⟩ := forgetFuture_care w
  have hkey : w1.care.current = w.care.current ∧ chain w1.care.tree w.care.current = some l ∧
      ∀ a ∈ l, ann w1 a = ann w a := by
    rcases h5 with rfl | hp
    · exact ⟨f4, by rw [f1]; exact hlc, fun a _ => by simp [ann, f6]⟩
    · have hn : ∀ a ∈ l, Needed (forgetFuture w) a := by
        intro a ha
        refine ⟨w.care.current, by simp [f4], ancOrSelf_iff.mpr ⟨l, by rw [f1]; exact hlc, ha⟩⟩
      refine ⟨hp.current.trans f4, ?_, ?_⟩
      · obtain ⟨r, rfl⟩ := chain_cons hlc
        rw [hp.chain _ (hn _ (by simp)), f1]; exact hlc
      · intro a ha
        simp only [ann]
        rw [hp.lookup a (hn a ha), f6]
  obtain ⟨k1, k2, k3⟩ := hkey
  have hc := chain_addChild_new w1.care.tree w1.care.current new l h3.nodup h6 (by rw [k1]; exact k2)
  refine ⟨l, hlc, ?_, ?_, ?_⟩
  · rw [hw2]; exact hc
  · intro a ha
    rw [hw2]; exact k3 a ha
  · intro a ha
    simp only [List.mem_singleton] at ha
    subst ha
    rw [hw2]; exact ann_of_not_live h3 h6

theorem boardOp_under {w w' : World σ α} (h : WInv w) {op : Op σ α} (hl : Legal w op) (hb : BoardOp op)
    (he : exec w op = .ok w') : ∃ p, Under w w' p ∧ (Edits op → p ≠ []) := by
  cases op with
  | makeNext new => exact ⟨_, makeNext_under h hl he, by simp⟩
  | setNext i new s =>
    obtain ⟨w1, w2, k1, k2, _⟩ := makeNextTimepoint_spec h hl.1
    simp only [exec, World.setNextState, k2, World.setState] at he
    split at he <;> cases he
    obtain ⟨l, u1, u2, u3, u4⟩ := makeNext_under h hl.1 k2
    exact ⟨[new], ⟨l, u1, u2, u3, u4⟩, by simp⟩
  | setState i t s =>
    simp only [exec, World.setState] at he
    split at he <;> cases he
    exact ⟨[], Under.of_same h rfl rfl rfl, by simp [Edits]⟩
  | create i c t s =>
    refine ⟨[], ?_, by simp [Edits]⟩
    simp only [exec, World.takeCareOf] at he
    split at he
    · cases he; exact Under.of_same h rfl rfl rfl
    · split at he
      · cases he; exact Under.of_same h rfl rfl rfl
      · split at he
        · cases he
        · split at he <;> cases he <;> exact Under.of_same h rfl rfl rfl
  | createUnregistered i c t s => cases he; exact ⟨[], Under.of_same h rfl rfl rfl, by simp [Edits]⟩
  | destroy i => cases he; exact ⟨[], Under.of_same h rfl rfl rfl, by simp [Edits]⟩
  | read i =>
    simp only [exec, World.getCurrentState] at he
    split at he
    · cases he
    · split at he <;> cases he
      exact ⟨[], Under.of_same h rfl rfl rfl, by simp [Edits]⟩
  | _ => exact absurd hb (by simp [BoardOp])

theorem boardRun_under {w w' : World σ α} {ops : List (Op σ α)} (hr : LegalRun w ops w') (h : WInv w)
    (hb : ∀ op ∈ ops, BoardOp op) : ∃ p, Under w w' p ∧ ((∃ op ∈ ops, Edits op) → p ≠ []) := by
  induction hr with
  | nil => exact ⟨[], Under.refl h, by simp⟩
  | @cons w w1 w2 op ops hl he hr ih =>
    obtain ⟨p, hp, hpe⟩ := boardOp_under h hl (hb op (by simp)) he
    obtain ⟨w1', e1, e2⟩ := exec_inv h op hl
    rw [he] at e1; cases e1
    obtain ⟨q, hq, hqe⟩ := ih e2 (fun o ho => hb o (by simp [ho]))
    refine ⟨q ++ p, hp.trans hq, ?_⟩
    rintro ⟨o, ho, hoe⟩
    rcases List.mem_cons.mp ho with rfl | ho
    · have := hpe hoe; simp [this]
    · have := hqe ⟨o, ho, hoe⟩; simp [this]

/-! ## Runs -/

theorem handleAll_log {work : App.Work σ} {steps rest : List Step} {w w' : World σ Step} {log}
    (h : App.handleAll work steps rest w = .ok (log, w')) :
    log.map (·.1) = rest.filter (fun s => decide (s ∈ steps)) := by
  induction rest generalizing w log with
  | nil => simp only [App.handleAll] at h; cases h; rfl
  | cons s rest ih =>
    simp only [App.handleAll] at h
    split at h
    · rename_i hc
      split at h
      · cases h
      · rename_i w1 hw
        split at h
        · cases h
        · rename_i log' w2 hh
          cases h
          have : s ∈ steps := by simpa using hc
          simp [ih hh, this]
    · rename_i hc
      have : s ∉ steps := by simpa using hc
      simp [ih h, this]

theorem run_log {work : App.Work σ} {steps : List Step} {w w' : World σ Step} {log}
    (h : App.run work steps w = .ok (log, w')) :
    log.map (·.1) = Step.handled.filter (fun s => decide (s ∈ steps)) := by
  simp only [App.run] at h
  split at h
  · cases h
  · rename_i log' w1 hh
    split at h <;> cases h
    exact handleAll_log hh

theorem handleAll_reachable {work : App.Work σ} (hwork : DomainWork work) {steps rest : List Step}
    {w w' : World σ Step} {log} (hw : Reachable w) (h : App.handleAll work steps rest w = .ok (log, w')) :
    Reachable w' := by
  induction rest generalizing w log with
  | nil => simp only [App.handleAll] at h; cases h; exact hw
  | cons s rest ih =>
    simp only [App.handleAll] at h
    split at h
    · split at h
      · cases h
      · rename_i w1 hw1
        split at h
        · cases h
        · rename_i log' w2 hh
          cases h
          have hwa : Reachable (w.annotateCurrent s) := .step (.annotate s) hw trivial rfl
          obtain ⟨ops, hr, _⟩ := hwork s _ _ hwa hw1
          exact ih (hr.reachable hwa) hh
    · exact ih hw h

/-- What a run of progressing steps leaves in the history. -/
structure Ran (w w' : World σ Step) (log : List (Step × Addr)) (p l : List Addr) : Prop where
  before : chain w.care.tree w.care.current = some l
  after : chain w'.care.tree w'.care.current = some (p ++ l)
  older : ∀ a ∈ l.tail, ann w' a = ann w a
  start : ann w' w.care.current = match log with
    | [] => ann w w.care.current
    | (s, _) :: _ => some s
  below : ∀ a ∈ p, ∀ s, ann w' a = some s → s ∈ log.tail.map (·.1)
  starts : ∀ s t, (s, t) ∈ log → ann w' t = some s ∧
    ∃ p1 l1, p ++ l = p1 ++ t :: l1 ∧ p1 ≠ [] ∧ ∀ a ∈ p1, ann w' a ≠ some s
  moved : log ≠ [] → p ≠ []

theorem handleAll_ran {work : App.Work σ} (hwork : ProgressingWork work) {steps : List Step} {rest : List Step}
    (hn : rest.Nodup) {w w' : World σ Step} {log} (hw : Reachable w)
    (hs : ann w w.care.current = none ∨
      ann w w.care.current = (rest.filter (fun s => decide (s ∈ steps))).head?)
    (h : App.handleAll work steps rest w = .ok (log, w')) : ∃ p l, Ran w w' log p l := by
  induction rest generalizing w log with
  | nil =>
    simp only [App.handleAll] at h; cases h
    obtain ⟨l, hl⟩ := chain_of_mem (reachable_inv hw).current
    exact ⟨[], l, hl, by simpa using hl, fun _ _ => rfl, rfl, by simp, by simp, by simp⟩
  | cons s rest ih =>
    simp only [App.handleAll] at h
    by_cases hc : s ∈ steps
    · have hc' : steps.contains s = true := by simpa using hc
      rw [if_pos hc'] at h
      split at h
      · cases h
      · rename_i w1 hw1
        split at h
        · cases h
        · rename_i log' w2 hh
          cases h
          have hwa : Reachable (w.annotateCurrent s) := .step (.annotate s) hw trivial rfl
          have hann : ann (w.annotateCurrent s) w.care.current = some s ∧
              (∀ a, a ≠ w.care.current → ann (w.annotateCurrent s) a = ann w a) ∧
              (w.annotateCurrent s).care.tree = w.care.tree ∧
              (w.annotateCurrent s).care.current = w.care.current := by
            simp only [List.filter_cons, hc, decide_true, if_true, List.head?_cons] at hs
            unfold World.annotateCurrent
            rcases hs with hs | hs
            · simp only [ann] at hs
              simp only [hs, Option.isSome_none, Bool.false_eq_true, if_false]
              refine ⟨?_, ?_, by trivial⟩
              · simp only [ann]
                rw [List.lookup_append, hs]; simp
              · intro a ha
                simp only [ann]
                rw [List.lookup_append]
                cases hla : w.care.annotations.lookup a with
                | some x => simp
                | none =>
                  simp only [Option.none_or, List.lookup]
                  have : (a == w.care.current) = false := by simpa using ha
                  simp [this]
            · simp only [ann] at hs
              simp only [hs, Option.isSome_some, if_true]
              exact ⟨by simp [ann, hs], by simp⟩
          obtain ⟨ha1, ha2, ha3, ha4⟩ := hann
          obtain ⟨ops, hr, hb, hed⟩ := hwork s _ _ hwa hw1
          obtain ⟨q, ⟨l, u1, u2, u3, u4⟩, hq⟩ := boardRun_under hr (reachable_inv hwa) hb
          have hq := hq hed
          rw [ha3, ha4] at u1
          have hcl : ∃ r, l = w.care.current :: r := chain_cons u1
          obtain ⟨r, hlr⟩ := hcl
          have hq1 : ∃ q', q = w1.care.current :: q' := by
            obtain ⟨r', hr'⟩ := chain_cons u2
            cases q with
            | nil => exact absurd rfl hq
            | cons x q' =>
              simp only [List.cons_append, List.cons.injEq] at hr'
              exact ⟨q', by rw [hr'.1]⟩
          obtain ⟨q', hq'⟩ := hq1
          have hcur1 : ann w1 w1.care.current = none := u4 _ (by rw [hq']; simp)
          obtain ⟨p, l', hran⟩ := ih (List.nodup_cons.mp hn).2 (hr.reachable hwa) (Or.inl hcur1) hh
          have hl' : l' = q ++ l := by
            have := hran.before
            rw [u2] at this
            exact (Option.some.inj this).symm
          subst hl'
          have hlog := handleAll_log hh
          have hsub : ∀ s', s' ∈ log'.map (·.1) → s' ≠ s := by
            intro s' hs' heq
            rw [hlog, heq] at hs'
            exact (List.nodup_cons.mp hn).1 (List.mem_filter.mp hs').1
          have htail : (q ++ l).tail = q' ++ l := by rw [hq']; rfl
          have hold : ∀ a ∈ l, ann w' a = ann (w.annotateCurrent s) a := by
            intro a ha
            rw [hran.older a (by rw [htail]; simp [ha]), u3 a ha]
          have hnd := chain_nodup _ _ _ (reachable_inv hw).nodup u1
          rw [hlr] at hnd
          have hbelow : ∀ a ∈ p ++ q, ∀ s', ann w' a = some s' → s' ∈ log'.map (·.1) := by
            intro a ha s' hs'
            rcases List.mem_append.mp ha with ha | ha
            · exact List.mem_of_mem_tail (by simpa using hran.below a ha s' hs')
            · rw [hq', List.mem_cons] at ha
              rcases ha with rfl | ha
              · have := hran.start
                rw [hs'] at this
                cases hlc : log' with
                | nil => rw [hlc] at this; simp only [hcur1] at this; cases this
                | cons e log'' =>
                  rw [hlc] at this
                  obtain ⟨s'', t''⟩ := e
                  simp only [Option.some.injEq] at this
                  simp [this]
              · have h1 := hran.older a (by rw [htail]; simp [ha])
                rw [h1, u4 a (by rw [hq']; simp [ha])] at hs'
                cases hs'
          refine ⟨p ++ q, l, ?_⟩
          refine { before := u1, after := by rw [List.append_assoc]; exact hran.after, older := ?_, start := ?_,
                   below := by simpa using hbelow, starts := ?_, moved := by simp [hq'] }
          · intro a ha
            have hne : a ≠ w.care.current := by
              rintro rfl
              rw [hlr] at ha
              simp only [List.tail_cons] at ha
              exact (List.nodup_cons.mp hnd).1 ha
            rw [hold a (List.mem_of_mem_tail ha), ha2 a hne]
          · simp only
            rw [hold _ (by rw [hlr]; simp), ha1]
          · intro s' t' hm
            rcases List.mem_cons.mp hm with he | hm
            · cases he
              refine ⟨by rw [hold _ (by rw [hlr]; simp), ha1], p ++ q, r, by rw [hlr], by simp [hq'], ?_⟩
              intro a ha hcon
              exact hsub s (hbelow a ha s hcon) rfl
            · obtain ⟨h1, p1, l1, h2, h3, h4⟩ := hran.starts s' t' hm
              exact ⟨h1, p1, l1, by rw [List.append_assoc]; exact h2, h3, h4⟩
    · have hc' : ¬ steps.contains s = true := by simpa using hc
      rw [if_neg hc'] at h
      refine ih (List.nodup_cons.mp hn).2 hw ?_ h
      simpa [List.filter_cons, hc] using hs

theorem handled_nodup : Step.handled.Nodup := by decide

theorem remember_same {w w' : World σ α} (h : w.rememberCurrent = .ok w') : w'.care.tree = w.care.tree ∧
    w'.care.current = w.care.current ∧ w'.care.annotations = w.care.annotations := by
  simp only [World.rememberCurrent] at h
  split at h
  · cases h
  · split at h <;> cases h <;> simp

theorem domain_of_progressing {work : App.Work σ} (h : ProgressingWork work) : DomainWork work := by
  intro s w w' hw he
  obtain ⟨ops, h1, h2, _⟩ := h s w w' hw he
  exact ⟨ops, h1, h2⟩

theorem run_reachable {work : App.Work σ} (hwork : DomainWork work) {steps : List Step}
    {w w' : World σ Step} {log} (hw : Reachable w) (h : App.run work steps w = .ok (log, w')) :
    Reachable w' := by
  simp only [App.run] at h
  split at h
  · cases h
  · rename_i log' w1 hh
    split at h
    · cases h
    · rename_i w2 hr
      cases h
      exact .step .remember (handleAll_reachable hwork hw hh) trivial hr

theorem run_ran {work : App.Work σ} (hwork : ProgressingWork work) {steps : List Step} {w w' : World σ Step} {log}
    (hw : Reachable w)
    (hs : ann w w.care.current = none ∨
      ann w w.care.current = (Step.handled.filter (fun s => decide (s ∈ steps))).head?)
    (h : App.run work steps w = .ok (log, w')) : ∃ p l, Ran w w' log p l := by
  simp only [App.run] at h
  split at h
  · cases h
  · rename_i log' w1 hh
    split at h
    · cases h
    · rename_i w2 hr
      cases h
      obtain ⟨p, l, hran⟩ := handleAll_ran hwork handled_nodup hw hs hh
      obtain ⟨r1, r2, r3⟩ := remember_same hr
      have hann : ∀ a, ann w' a = ann w1 a := fun a => by simp [ann, r3]
      refine ⟨p, l, hran.before, by rw [r1, r2]; exact hran.after, fun a ha => by rw [hann]; exact hran.older a ha,
        by rw [hann]; exact hran.start, fun a ha s => by rw [hann]; exact hran.below a ha s, ?_, hran.moved⟩
      intro s t hm
      obtain ⟨h1, p1, l1, h2, h3, h4⟩ := hran.starts s t hm
      exact ⟨by rw [hann]; exact h1, p1, l1, h2, h3, fun a ha => by rw [hann]; exact h4 a ha⟩

/-- Search among the strict ancestors. -/
theorem findFirst_eq {w : World σ α} {q : α → Bool} {p1 l1 : List Addr} {t : Addr} {s : α} (hne : p1 ≠ [])
    (hc : chain w.care.tree w.care.current = some (p1 ++ t :: l1)) (ht : ann w t = some s) (hq : q s = true)
    (hb : ∀ a ∈ p1, ∀ x, ann w a = some x → q x = false) :
    w.findFirstAncestorWithAnnotationThat q false = .ok (some t) := by
  cases p1 with
  | nil => exact absurd rfl hne
  | cons a p1 =>
    simp only [World.findFirstAncestorWithAnnotationThat, ancestors, hc, Option.map_some, Bool.false_eq_true,
      if_false, List.cons_append, List.tail_cons]
    congr 1
    rw [List.find?_append, List.find?_eq_none.mpr]
    · simp only [ann] at ht
      simp [ht, hq]
    · intro b hbm
      simp only [ann] at hb
      cases hx : w.care.annotations.lookup b with
      | none => simp
      | some x => simp [hb b (by simp [hbm]) x hx]

/-- The last step run is `s`, and the current timepoint is strictly below the one where it started. -/
def AfterStep (w : World σ Step) (s : Step) : Prop :=
  ann w w.care.current = none ∧ ∃ p t l, chain w.care.tree w.care.current = some (p ++ t :: l) ∧ p ≠ [] ∧
    (∀ a ∈ p, ann w a = none) ∧ ann w t = some s

theorem AfterStep.find {w : World σ Step} {s : Step} (h : AfterStep w s) :
    ∃ t, w.findFirstAncestorWithAnnotation false = .ok (some t) ∧ w.getAnnotation (some t) = some s := by
  obtain ⟨_, p, t, l, h1, h2, h3, h4⟩ := h
  exact ⟨t, findFirst_eq h2 h1 h4 rfl (fun a ha x hx => by rw [h3 a ha] at hx; cases hx), h4⟩

theorem run_one {work : App.Work σ} (hwork : ProgressingWork work) {s : Step} {w w' : World σ Step} {log}
    (hw : Reachable w) (hc : ann w w.care.current = none) (h : App.run work [s] w = .ok (log, w')) :
    log.map (·.1) = [s] ∧ Reachable w' ∧ AfterStep w' s := by
  have hlog := run_log h
  have hs : Step.handled.filter (fun x => decide (x ∈ [s])) = [s] := by
    cases s <;> decide
  rw [hs] at hlog
  obtain ⟨p, l, hran⟩ := run_ran hwork hw (Or.inl hc) h
  obtain ⟨⟨s', t⟩, hl⟩ : ∃ e, log = [e] := by
    cases log with
    | nil => simp at hlog
    | cons e log =>
      cases log with
      | nil => exact ⟨e, rfl⟩
      | cons => simp at hlog
  subst hl
  simp only [List.map_cons, List.map_nil, List.cons.injEq, and_true] at hlog
  subst hlog
  have hp : p ≠ [] := hran.moved (by simp)
  have hpn : ∀ a ∈ p, ann w' a = none := by
    intro a ha
    cases hx : ann w' a with
    | none => rfl
    | some x => exact absurd (hran.below a ha x hx) (by simp)
  obtain ⟨r, hr⟩ := chain_cons hran.before
  refine ⟨rfl, run_reachable (domain_of_progressing hwork) hw h, ?_, p, w.care.current, r, by rw [← hr]; exact hran.after, hp, hpn, ?_⟩
  · obtain ⟨r', hr'⟩ := chain_cons hran.after
    cases p with
    | nil => exact absurd rfl hp
    | cons x p =>
      simp only [List.cons_append, List.cons.injEq] at hr'
      rw [← hr'.1]
      exact hpn x (by simp)
  · have := hran.start
    simpa using this

end Verif

namespace Verif
open Spec TreeNode
variable {σ α : Type}

/-- A call of the domain that makes no timepoint changes nothing of the history but the registered objects. -/
theorem quietOp_same {w w' : World σ α} {op : Op σ α} (hb : BoardOp op ∧ ¬ Edits op) (he : exec w op = .ok w') :
    ∃ l, w'.care = { w.care with originators := l } := by
  cases op with
  | setState i t s =>
    simp only [exec, World.setState] at he
    split at he <;> cases he
    exact ⟨_, rfl⟩
  | create i c t s =>
    simp only [exec, World.takeCareOf] at he
    split at he
    · cases he; exact ⟨_, rfl⟩
    · split at he
      · cases he; exact ⟨_, rfl⟩
      · split at he
        · cases he
        · split at he <;> cases he <;> exact ⟨_, rfl⟩
  | createUnregistered i c t s => cases he; exact ⟨_, rfl⟩
  | destroy i => cases he; exact ⟨_, rfl⟩
  | read i =>
    simp only [exec, World.getCurrentState] at he
    split at he
    · cases he
    · split at he <;> cases he
      exact ⟨_, rfl⟩
  | makeNext new => exact absurd trivial hb.2
  | setNext i new s => exact absurd trivial hb.2
  | _ => exact absurd hb.1 (by simp [BoardOp])

theorem quietRun_same {w w' : World σ α} {ops : List (Op σ α)} (hr : LegalRun w ops w')
    (hb : ∀ op ∈ ops, BoardOp op ∧ ¬ Edits op) : ∃ l, w'.care = { w.care with originators := l } := by
  induction hr with
  | nil w => exact ⟨w.care.originators, rfl⟩
  | @cons w w1 w2 op ops hl he hr ih =>
    obtain ⟨l, h1⟩ := quietOp_same (hb op (by simp)) he
    obtain ⟨l', h2⟩ := ih (fun o ho => hb o (by simp [ho]))
    exact ⟨l', by rw [h2, h1]⟩

/-- A work that makes one timepoint for each step of a set and refuses to run while undone edits could be
redone. Used in examples. -/
def sampleWork (busy : List Step) : App.Work σ := fun s w =>
  if s ∈ busy then
    match w.care.browser with
    | none => w.makeNextTimepoint ((w.care.tree.cluster true).foldr max 0 + 1)
    | some _ => .error .noSuchObject
  else .ok w

theorem le_foldr_max (l : List Nat) : ∀ a ∈ l, a ≤ l.foldr max 0 := by
  induction l with
  | nil => simp
  | cons x xs ih =>
    intro a ha
    simp only [List.foldr_cons]
    rcases List.mem_cons.mp ha with rfl | ha
    · omega
    · have := ih a ha; omega

theorem sampleWork_legal {busy : List Step} {s : Step} (hs : s ∈ busy) {w w' : World σ Step}
    (he : sampleWork busy s w = .ok w') : ∃ new, Legal w (.makeNext new : Op σ Step) ∧
      exec w (.makeNext new) = .ok w' := by
  simp only [sampleWork, if_pos hs] at he
  split at he
  · rename_i hb
    refine ⟨_, ⟨fun h => absurd hb h, ?_⟩, he⟩
    intro w1 h1 hl
    simp only [World.stopBrowsing, hb] at h1
    cases h1
    have := le_foldr_max _ _ hl
    omega
  · cases he

theorem sampleWork_domain (busy : List Step) : DomainWork (sampleWork (σ := σ) busy) := by
  intro s w w' _ he
  by_cases hs : s ∈ busy
  · obtain ⟨new, h1, h2⟩ := sampleWork_legal hs he
    exact ⟨[.makeNext new], .cons h1 h2 (.nil _), by simp [BoardOp]⟩
  · simp only [sampleWork, if_neg hs] at he
    cases he
    exact ⟨[], .nil _, by simp⟩

theorem sampleWork_progressing {busy : List Step} (h : ∀ s, s ∈ busy) : ProgressingWork (sampleWork (σ := σ) busy) := by
  intro s w w' _ he
  obtain ⟨new, h1, h2⟩ := sampleWork_legal (h s) he
  exact ⟨[.makeNext new], .cons h1 h2 (.nil _), by simp [BoardOp], by simp [Edits]⟩

end Verif
