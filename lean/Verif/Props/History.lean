import Verif.Lemmas.History

/-!
# Properties of the history (C01 to C10, C12)

Specification vocabulary: `Verif/Spec/History.lean`. The examples run concrete calls through the model.
-/

namespace Verif.Props
open Verif Spec

variable {σ α : Type}

/-- Calls used by the examples: an object, three remembered edits, one undo. -/
def sampleOps : List (Op Nat String) :=
  [.create 0 false 0 10, .setNext 0 1 11, .remember, .setNext 0 2 12, .annotate "two", .remember,
   .makeNext 3, .setNext 0 4 14, .remember, .undo 1]

theorem sample_legal : (legalRun? (World.fresh 0) sampleOps).isSome = true := by decide +kernel

/-- The history reached by `sampleOps`. -/
def sample : World Nat String := demo sampleOps sample_legal

theorem sample_reachable : Reachable sample := demo_reachable _ _

/-! ## C01 -/

/-- C01. Whatever the calls, as long as jumps and records are not made while undone edits could still be
redone (`Timeline.run` is then defined), the current timepoint and what can be undone and redone are those
of a linear editing history. -/
theorem C01_linear_history (root : Addr) (ops : List (Op σ α)) (w : World σ α) (z : Timeline)
    (hrun : LegalRun (World.fresh root) ops w) (hz : (Timeline.start root).run ops = some z) :
    w.care.current = z.present ∧
    (∀ k, w.canUndo k = .ok (decide (1 ≤ k ∧ k ≤ z.undoDepth))) ∧
    (∀ k, w.canRedo k = decide (1 ≤ k ∧ k ≤ z.future.length)) := by
  have hr := Rel.run hrun (fresh_inv root) (fresh_rel root) hz
  exact ⟨hr.current, hr.canUndo, hr.canRedo⟩

/-- C01 is about something: in the sample history two steps can be undone and one redone. -/
example : LegalRun (World.fresh 0) sampleOps sample ∧
    (Timeline.start 0).run sampleOps = some ⟨[1, 0], 2, [4], none⟩ ∧ sample.care.current = 2 ∧
    sample.canUndo 2 = .ok true ∧ sample.canUndo 3 = .ok false ∧
    sample.canRedo 1 = true ∧ sample.canRedo 2 = false :=
  ⟨demo_run _ _, by decide +kernel, by decide +kernel, by decide +kernel, by decide +kernel,
    by decide +kernel, by decide +kernel⟩

/-- C01, no jump at all: edits, undo and redo always fall in the scope of `C01_linear_history`. Each edit is
one or more new timepoints followed by `remember`. -/
theorem C01_edits_undo_redo_in_scope (z : Timeline) (news : List Addr) (hn : news ≠ []) :
    (∀ k, ∃ z', z.step (.undo k : Op σ α) = some z') ∧ (∀ k, ∃ z', z.step (.redo k : Op σ α) = some z') ∧
    z.run (news.map (fun n => (.makeNext n : Op σ α)) ++ [.remember]) =
      some ⟨z.place :: z.past, news.getLast hn, [], none⟩ := by
  refine ⟨fun k => ⟨_, rfl⟩, fun k => ⟨_, rfl⟩, ?_⟩
  induction news generalizing z with
  | nil => exact absurd rfl hn
  | cons n ns ih =>
    simp only [List.map_cons, List.cons_append, Timeline.run, Timeline.step]
    cases ns with
    | nil => simp [Timeline.run, Timeline.step, Timeline.record]
    | cons m ms =>
      have := ih { z with future := [], draft := some n } (by simp)
      rw [this]
      simp

example : (Timeline.start 0).run ([1, 2].map (fun n => (.makeNext n : Op Nat String)) ++ [.remember]) =
    some ⟨[0], 2, [], none⟩ :=
  (C01_edits_undo_redo_in_scope (Timeline.start 0) [1, 2] (by simp)).2.2

/-! ## C02 -/

/-- C02. A refused undo or redo changes nothing at all. -/
theorem C02_refused_move_changes_nothing (w : World σ α) (k : Nat) :
    (w.canUndo k = .ok false → w.undo k = .ok w) ∧ (w.canRedo k = false → w.redo k = .ok w) := by
  constructor
  · intro h
    unfold World.undo
    split
    · rfl
    · rw [h]
  · intro h
    unfold World.redo
    rw [if_pos (Or.inr h)]

example : sample.canUndo 3 = .ok false ∧ sample.canRedo 2 = false :=
  ⟨by decide +kernel, by decide +kernel⟩

/-- C02. From a remembered place, `can_undo(k)` says exactly whether there are `k` remembered timepoints
before; if there are, `undo(k)` goes exactly to the `k`-th one before, `redo(k)` is then possible and returns
to the starting point, where every registered object reads as before. -/
theorem C02_undo_then_redo (w : World σ α) (hw : Reachable w) (p k : Nat) (hs : StandsOn w p) :
    w.canUndo k = .ok (decide (1 ≤ k ∧ k ≤ p)) ∧
    (w.canUndo k = .ok true → ∃ w1, w.undo k = .ok w1 ∧ StandsOn w1 (p - k) ∧
      w1.care.history = w.care.history ∧ w1.canRedo k = true ∧
      ∃ w2, w1.redo k = .ok w2 ∧ StandsOn w2 p ∧ w2.care.history = w.care.history ∧
        w2.care.current = w.care.current ∧ ∀ i o, Registered w i o → reads w2 i = reads w i) := by
  have h := reachable_inv hw
  refine ⟨canUndo_standsOn hs k, fun hc => ?_⟩
  rw [canUndo_standsOn hs] at hc
  obtain ⟨hk, hkp⟩ : 1 ≤ k ∧ k ≤ p := by simpa using except_ok_inj hc
  have hlt : p < w.care.history.length := (List.getElem?_eq_some_iff.mp hs.1).1
  have hp := List.getElem?_eq_getElem (l := w.care.history) (i := p - k) (by omega)
  obtain ⟨w1, ha1, hs1, hi1, hh1, ht1, ho1, hc1, hobj1⟩ := standsOn_arrive h hp
  have hp1 : w1.care.history[p - k + k]? = some w.care.current := by
    rw [hh1, show p - k + k = p by omega]; exact hs.1
  obtain ⟨w2, ha2, hs2, hi2, hh2, ht2, ho2, hc2, hobj2⟩ := standsOn_arrive hi1 hp1
  refine ⟨w1, by rw [undo_standsOn hs hk hkp, ha1], hs1, hh1, ?_, w2, ?_, ?_, hh2.trans hh1, hc2, ?_⟩
  · rw [canRedo_standsOn hs1, hh1]; simp; omega
  · rw [redo_standsOn hs1 hk (by rw [hh1]; omega), ha2]
  · rw [show p - k + k = p by omega] at hs2; exact hs2
  · intro i o hr
    have e1 := hobj1 i
    rw [if_pos hr.1, hr.2] at e1
    have e2 := hobj2 i
    rw [ho1, if_pos hr.1, e1] at e2
    exact reads_after_go h hi2 hr ⟨by rw [ho2, ho1]; exact hr.1, e2⟩ (ht2.trans ht1) rfl rfl rfl hc2

/-- C02, symmetric. -/
theorem C02_redo_then_undo (w : World σ α) (hw : Reachable w) (p k : Nat) (hs : StandsOn w p) :
    w.canRedo k = decide (1 ≤ k ∧ p + k < w.care.history.length) ∧
    (w.canRedo k = true → ∃ w1, w.redo k = .ok w1 ∧ StandsOn w1 (p + k) ∧
      w1.care.history = w.care.history ∧ w1.canUndo k = .ok true ∧
      ∃ w2, w1.undo k = .ok w2 ∧ StandsOn w2 p ∧ w2.care.history = w.care.history ∧
        w2.care.current = w.care.current ∧ ∀ i o, Registered w i o → reads w2 i = reads w i) := by
  have h := reachable_inv hw
  refine ⟨canRedo_standsOn hs k, fun hc => ?_⟩
  rw [canRedo_standsOn hs] at hc
  obtain ⟨hk, hkp⟩ : 1 ≤ k ∧ p + k < w.care.history.length := by simpa using hc
  have hp := List.getElem?_eq_getElem (l := w.care.history) (i := p + k) hkp
  obtain ⟨w1, ha1, hs1, hi1, hh1, ht1, ho1, hc1, hobj1⟩ := standsOn_arrive h hp
  have hp1 : w1.care.history[p + k - k]? = some w.care.current := by
    rw [hh1, show p + k - k = p by omega]; exact hs.1
  obtain ⟨w2, ha2, hs2, hi2, hh2, ht2, ho2, hc2, hobj2⟩ := standsOn_arrive hi1 hp1
  refine ⟨w1, by rw [redo_standsOn hs hk hkp, ha1], hs1, hh1, ?_, w2, ?_, ?_, hh2.trans hh1, hc2, ?_⟩
  · rw [canUndo_standsOn hs1]; simp; omega
  · rw [undo_standsOn hs1 hk (by omega), ha2]
  · rw [show p + k - k = p by omega] at hs2; exact hs2
  · intro i o hr
    have e1 := hobj1 i
    rw [if_pos hr.1, hr.2] at e1
    have e2 := hobj2 i
    rw [ho1, if_pos hr.1, e1] at e2
    exact reads_after_go h hi2 hr ⟨by rw [ho2, ho1]; exact hr.1, e2⟩ (ht2.trans ht1) rfl rfl rfl hc2

example : Reachable sample ∧ StandsOn sample 2 ∧ sample.canUndo 2 = .ok true ∧ sample.canRedo 1 = true :=
  ⟨sample_reachable, by decide +kernel, by decide +kernel, by decide +kernel⟩

/-- C02. Work done since the last remembered timepoint: the first undo step goes back to that one. -/
theorem C02_undo_from_draft (w : World σ α) (hw : Reachable w) (k : Nat) (b : Addr)
    (hb : w.care.browser = none) (hl : w.care.history.getLast? = some b) (hne : b ≠ w.care.current) :
    w.canUndo k = .ok (decide (1 ≤ k ∧ k ≤ w.care.history.length)) ∧
    (w.canUndo k = .ok true → ∃ w1, w.undo k = .ok w1 ∧ StandsOn w1 (w.care.history.length - k) ∧
      w1.care.history = w.care.history) := by
  have h := reachable_inv hw
  have hcan : w.canUndo k = .ok (decide (1 ≤ k ∧ k ≤ w.care.history.length)) := by
    unfold World.canUndo
    by_cases hk : k = 0
    · simp [hk]
    · simp only [hk, if_false, hb, hl, hne]
      congr 1
      rw [decide_eq_decide]; omega
  refine ⟨hcan, fun hc => ?_⟩
  have hc' := hc
  rw [hcan] at hc
  obtain ⟨hk, hkp⟩ : 1 ≤ k ∧ k ≤ w.care.history.length := by simpa using except_ok_inj hc
  have hp := List.getElem?_eq_getElem (l := w.care.history) (i := w.care.history.length - k) (by omega)
  obtain ⟨w1, ha1, hs1, _, hh1, _⟩ := standsOn_arrive h hp
  refine ⟨w1, ?_, hs1, hh1⟩
  rw [← ha1]
  unfold World.undo
  rw [if_neg (by omega), hc']
  simp only [hb, hl, ne_eq, hne, not_false_eq_true, if_true]
  congr 1
  omega

/-- An unremembered edit after the sample's first one. -/
def draftOps : List (Op Nat String) := [.create 0 false 0 10, .setNext 0 1 11, .remember, .setNext 0 2 12]

theorem draft_legal : (legalRun? (World.fresh 0) draftOps).isSome = true := by decide +kernel

example : Reachable (demo draftOps draft_legal) ∧ (demo draftOps draft_legal).care.browser = none ∧
    (demo draftOps draft_legal).care.history.getLast? = some 1 ∧
    1 ≠ (demo draftOps draft_legal).care.current ∧ (demo draftOps draft_legal).canUndo 2 = .ok true :=
  ⟨demo_reachable _ _, by decide +kernel, by decide +kernel, by decide +kernel, by decide +kernel⟩

/-! ## C03 -/

/-- C03. After a garbage collection the live timepoints are exactly those that the history can still return
to, i.e. the ancestors-or-self of the current, pinned and remembered timepoints (the root is always
remembered); the ancestry of the survivors is unchanged; annotations and recorded states of freed timepoints
are dropped, all others are kept. -/
theorem C03_gc_frees_exactly (w : World σ α) (hw : Reachable w) :
    ∃ w', w.garbageCollector = .ok w' ∧
      (∀ a, Live w' a ↔ Needed w a) ∧ Needed w w.care.tree.addr ∧
      (∀ a, Live w' a → w'.care.tree.ancestors a true = w.care.tree.ancestors a true) ∧
      (∀ a, w'.getAnnotation (some a) = if Live w' a then w.getAnnotation (some a) else none) ∧
      (∀ i o, Registered w i o → ∃ o', Registered w' i o' ∧
        ∀ a, o.init ≠ some a → (some a ∈ o'.ordered ↔ some a ∈ o.ordered ∧ Live w' a)) := by
  have h := reachable_inv hw
  obtain ⟨w', h1, hg⟩ := gc_spec h
  have hlive : ∀ a, Live w' a ↔ Needed w a := fun a => by rw [live_iff, hg.live]
  refine ⟨w', h1, hlive, needed_root h, ?_, ?_, ?_⟩
  · intro a ha
    simp only [TreeNode.ancestors, hg.chain a ((hlive a).mp ha)]
  · intro a
    simp only [World.getAnnotation]
    split
    · rename_i ha; exact hg.lookup a ((hlive a).mp ha)
    · rename_i ha
      rw [List.lookup_eq_none_iff]
      intro p hp
      have h2 := (hg.annotations p).mp hp
      have h3 := h2.2 (h.annotations p h2.1)
      simp only [bne_iff_ne, ne_eq]
      intro hh
      subst hh
      exact ha ((hlive _).mpr h3)
  · intro i o hr
    obtain ⟨o', ho', hk, as, d, hinv, _, has⟩ := hg.objs i hr.1 o hr.2
    refine ⟨o', ⟨(hg.originators i).mpr ⟨hr.1, by simp [hr.2]⟩, ho'⟩, ?_⟩
    intro a ha
    rw [hlive]
    constructor
    · intro hm
      have hm' := hm
      rw [hinv.ordered] at hm'
      have hn : Needed w a := by
        rcases has a (by simpa using hm') with h3 | rfl
        · exact h3
        · exact absurd (hk.init ▸ hinv.init) ha
      exact ⟨(hk.ordered a hn).mp hm, hn⟩
    · rintro ⟨hm, hn⟩
      exact (hk.ordered a hn).mpr hm

/-- A history where a collection frees something: the timepoint 4 was reached by a jump and left. -/
def garbageOps : List (Op Nat String) :=
  [.create 0 false 0 10, .setNext 0 1 11, .remember, .setNext 0 2 12, .annotate "two",
   .goWithoutRemembering (some 1), .setNext 0 3 13, .remember]

theorem garbage_legal : (legalRun? (World.fresh 0) garbageOps).isSome = true := by decide +kernel

example : Reachable (demo garbageOps garbage_legal) ∧ Live (demo garbageOps garbage_legal) 2 ∧
    ¬ Needed (demo garbageOps garbage_legal) 2 ∧ Needed (demo garbageOps garbage_legal) 3 :=
  ⟨demo_reachable _ _, by decide +kernel, by decide +kernel, by decide +kernel⟩

/-! ## C04 -/

/-- Everything the history holds is live. -/
structure NothingDangles (w : World σ α) : Prop where
  current : Live w w.care.current
  pinned : ∀ t ∈ w.care.pinned, Live w t
  history : ∀ t ∈ w.care.history, Live w t
  annotations : ∀ p ∈ w.care.annotations, Live w p.1
  browser : ∀ i, w.care.browser = some i → i < w.care.history.length
  objects : ∀ i o, Registered w i o →
    (∃ a, o.init = some a ∧ Live w a) ∧
    (∀ t ∈ o.ordered, ∃ a, t = some a ∧ Live w a) ∧ (∀ t, o.lazyGo = some t → ∃ a, t = some a ∧ Live w a)

/-- C04, partial. After any sequence of legal calls nothing dangles, and the next legal call does not read
freed memory nor fail in any other way. Missing: `Legal` also asks, when garbage is collected, that the
registered objects created at a timepoint about to be freed have been released before (`BirthsNeeded`);
without it the property is false, see `C04_false`. -/
theorem C04_no_dangling_partial (w : World σ α) (hw : Reachable w) :
    NothingDangles w ∧ ∀ op, Legal w op → ∃ w', exec w op = .ok w' ∧ Reachable w' := by
  have h := reachable_inv hw
  constructor
  · refine ⟨live_iff.mpr h.current, fun t ht => live_iff.mpr (h.pinned t ht),
      fun t ht => live_iff.mpr (h.history t ht), fun p hp => live_iff.mpr (h.annotations p hp), ?_, ?_⟩
    · intro i hi; have := h.browser i hi; omega
    · intro i o hr
      obtain ⟨as, d, hinv⟩ := h.objs i hr.1 o hr.2
      refine ⟨⟨d, hinv.init, live_iff.mpr (hinv.live d hinv.mem_init)⟩, ?_, ?_⟩
      · intro t ht
        rw [hinv.ordered] at ht
        simp only [List.mem_map] at ht
        obtain ⟨a, ha, rfl⟩ := ht
        exact ⟨a, rfl, live_iff.mpr (hinv.live a ha)⟩
      · intro t ht
        obtain ⟨l, hl, hloc⟩ := hinv.located
        rw [ht] at hloc
        cases t with
        | none => exact hloc.elim
        | some t =>
          obtain ⟨lt, hlt, _⟩ := hloc
          exact ⟨t, rfl, live_iff.mpr (TreeNode.mem_of_chain hlt)⟩
  · intro op hl
    obtain ⟨w', h1, _⟩ := exec_inv h op hl
    exact ⟨w', h1, .step op hw hl h1⟩

example : Reachable sample ∧ Legal sample (.setNext 0 9 90) ∧ Legal sample .gc ∧
    (∃ o, Registered sample 0 o) :=
  ⟨sample_reachable, by decide +kernel, by decide +kernel, by decide +kernel⟩

/-- C04 is false for callers that only take care of the timepoints they pass: an object registered at a
timepoint that is undone and freed by the next edit, and that something still holds, is then read through a
freed timepoint. -/
theorem C04_false : ∃ (ops : List (Op Nat String)) (w : World Nat String),
    CallerRun (World.fresh 0) ops w ∧ CallerLegal w (.read 0) ∧ exec w (.read 0) = .error .useAfterFree := by
  let ops : List (Op Nat String) :=
    [.makeNext 1, .remember, .create 0 false 1 10, .undo 1, .makeNext 2, .goWithoutRemembering (some 2)]
  have h : (callerRun? (World.fresh 0) ops).any (fun w => decide (CallerLegal w (.read 0) ∧
      (match exec w (.read 0) with | .error e => some e | .ok _ => none) = some Fault.useAfterFree)) = true := by
    decide +kernel
  obtain ⟨w, hw, hp⟩ := (Option.any_eq_true _ _).mp h
  simp only [decide_eq_true_eq] at hp
  refine ⟨ops, w, callerRun?_sound hw, hp.1, ?_⟩
  have := hp.2
  revert this
  cases exec w (.read 0) <;> simp

/-! ## C05 -/

/-- C05. In every reachable history a registered object reads as the state recorded at the nearest
ancestor-or-self of the current timepoint (`shownAt`), in particular after an undo or a redo. -/
theorem C05_reads_nearest (w : World σ α) (hw : Reachable w) (i : Nat) (o : Originator σ)
    (hr : Registered w i o) : ∃ s, shownAt w o w.care.current = some s ∧ reads w i = .ok s :=
  reads_eq (reachable_inv hw) hr

/-- C05. Going to any live timepoint succeeds, makes it current, and every registered object then reads as
the state recorded at the nearest ancestor-or-self of that timepoint. -/
theorem C05_go_restores (w : World σ α) (hw : Reachable w) (t : Addr) (ht : Live w t) :
    ∃ w', w.goWithoutRemembering (some t) = .ok (true, w') ∧ w'.care.current = t ∧ Reachable w' ∧
      ∀ i o, Registered w i o → ∃ s, shownAt w o t = some s ∧ reads w' i = .ok s := by
  have h := reachable_inv hw
  have ht' := live_iff.mp ht
  have he := goWithoutRemembering_eq ht'
  refine ⟨_, he, rfl, .step (.goWithoutRemembering (some t)) hw (fun a ha => by cases ha; exact ht)
    (by simp only [exec, he]; rfl), ?_⟩
  intro i o hr
  have ho' : World.goAll w.objs t w.care.originators i = some (o.go (some t)) := by
    rw [goAll_eq, if_pos hr.1, hr.2]; rfl
  obtain ⟨s, hs, hs'⟩ := reads_eq (go_inv h ht') (i := i) (o := o.go (some t)) ⟨hr.1, ho'⟩
  refine ⟨s, ?_, hs'⟩
  rw [← hs]
  exact (shownAt_same (w := w) (o := o) rfl rfl rfl rfl).symm

/-- C05. Whatever happens in between — edits, undos, redos, jumps, garbage collections, reads, and even
reuse of the addresses of other freed timepoints — as long as the object stays registered, the timepoint
stays alive and nothing sets a state of the object that shows there, going back to the timepoint makes the
object read what it read when the timepoint was current. -/
theorem C05_same_as_when_last_current (w w' : World σ α) (hw : Reachable w) (i : Nat) (o : Originator σ)
    (hr : Registered w i o) (ops : List (Op σ α)) (hu : Undisturbed i w.care.current w ops w') :
    ∃ w'', w'.goWithoutRemembering (some w.care.current) = .ok (true, w'') ∧ reads w'' i = reads w i := by
  have h := reachable_inv hw
  obtain ⟨h', o', hr', ht', hsh⟩ := undisturbed_shown hu h hr (live_iff.mpr h.current)
  have htm := live_iff.mp ht'
  refine ⟨_, goWithoutRemembering_eq htm, ?_⟩
  obtain ⟨s, hs, hs'⟩ := reads_eq h hr
  have ho' : World.goAll w'.objs w.care.current w'.care.originators i = some (o'.go (some w.care.current)) := by
    rw [goAll_eq, if_pos hr'.1, hr'.2]; rfl
  obtain ⟨s2, hs2, hs2'⟩ := reads_eq (go_inv h' htm) (i := i) (o := o'.go (some w.care.current)) ⟨hr'.1, ho'⟩
  rw [hs', hs2']
  have hs3 : shownAt w' o' w.care.current = some s2 := by
    rw [← hs2]
    exact (shownAt_same (w := w') (o := o') rfl rfl rfl rfl).symm
  rw [hsh, hs] at hs3
  cases hs3
  rfl

/-- In between: an undo, an edit that frees the undone timepoints 2, 3 and 4, a reuse of their addresses,
a jump back and a collection; the object reads 11 at timepoint 1. -/
def betweenOps : List (Op Nat String) :=
  [.setNext 0 2 12, .remember, .setNext 0 3 13, .remember, .undo 2, .setNext 0 4 14, .setNext 0 2 22,
   .remember, .goWithoutRemembering (some 0), .gc]

/-- The timepoint 1 is current. -/
def beforeOps : List (Op Nat String) := [.create 0 false 0 10, .setNext 0 1 11, .remember]

theorem before_legal : (legalRun? (World.fresh 0) beforeOps).isSome = true := by decide +kernel

example : Reachable (demo beforeOps before_legal) ∧ (∃ o, Registered (demo beforeOps before_legal) 0 o) ∧
    (demo beforeOps before_legal).care.current = 1 ∧ reads (demo beforeOps before_legal) 0 = .ok 11 ∧
    ∃ w', Undisturbed 0 1 (demo beforeOps before_legal) betweenOps w' := by
  refine ⟨demo_reachable _ _, by decide +kernel, by decide +kernel, by decide +kernel, ?_⟩
  have h : (undisturbed? 0 1 (demo beforeOps before_legal) betweenOps).isSome = true := by decide +kernel
  exact ⟨_, undisturbed?_sound (Option.some_get h).symm⟩

/-! ## C06 -/

/-- C06, partial. Setting the next state of a registered object makes a new current timepoint at which the
object reads the value just set, and every other registered object reads what it read before.
Setting a state at a given timepoint makes the object read the value just set, provided the object has no
state at that timepoint yet, or its state type is not const and that timepoint is the one it shows.
Missing: a second state set at the same timepoint for a const state type, see `C06_false`. -/
theorem C06_set_then_read_partial (w : World σ α) (hw : Reachable w) (i : Nat) (o : Originator σ)
    (hr : Registered w i o) (s : σ) :
    (∀ new, Legal w (.setNext i new s) → ∃ w', w.setNextState i new s = .ok w' ∧ w'.care.current = new ∧
      reads w' i = .ok s ∧ ∀ j oj, j ≠ i → Registered w j oj → reads w' j = reads w j) ∧
    (∀ t, Legal w (.setState i (some t) s) →
      (some t ∉ o.ordered ∨ (o.isConst = false ∧ nearest w o w.care.current = some t)) →
      ∃ w', w.setState i (some t) s = .ok w' ∧ reads w' i = .ok s ∧
        ∀ j, j ≠ i → reads w' j = reads w j) := by
  have h := reachable_inv hw
  constructor
  · rintro new ⟨hle, _⟩
    obtain ⟨w1, w2, _, h2, h3, h4, h5, h6, hw2⟩ := makeNextTimepoint_spec h hle
    obtain ⟨o', hr', _, _, hcur, hnew, _⟩ := makeNext_reads h hle h2 hr
    have hsl : SetLegal w2 i (some new) := by
      rw [hw2]
      rw [hw2] at hr'
      exact setLegal_new h3 h6 hr'.2
    obtain ⟨w3, h7, h8⟩ := setState_reads h4 hr' hsl s (Or.inl hnew)
    refine ⟨w3, by simp only [World.setNextState, h2, h7], ?_, h8, ?_⟩
    · simp only [World.setState, hr'.2] at h7
      rw [← except_ok_inj h7]; exact hcur
    · intro j oj hji hrj
      obtain ⟨_, _, _, hj, _⟩ := makeNext_reads h hle h2 hrj
      rw [setState_reads_other hji h7, hj]
  · intro t hl hc
    obtain ⟨w', h1, h2⟩ := setState_reads h hr hl s hc
    exact ⟨w', h1, h2, fun j hji => setState_reads_other hji h1⟩

example : Reachable sample ∧ (∃ o, Registered sample 0 o ∧ o.isConst = false ∧
      nearest sample o sample.care.current = some 2) ∧
    Legal sample (.setNext 0 9 90) ∧ Legal sample (.setState 0 (some 2) 90) := by
  refine ⟨sample_reachable, ?_, by decide +kernel, by decide +kernel⟩
  have h : (sample.objs 0).any (fun o => decide (0 ∈ sample.care.originators ∧ o.isConst = false ∧
    nearest sample o sample.care.current = some 2)) = true := by decide +kernel
  obtain ⟨o, ho, hp⟩ := (Option.any_eq_true _ _).mp h
  simp only [decide_eq_true_eq] at hp
  exact ⟨o, ⟨hp.1, ho⟩, hp.2⟩

/-- C06 is false: for an object whose state type is const, a second state set at the current timepoint is
silently dropped. -/
theorem C06_false : ∃ (w w' : World Nat String), Reachable w ∧
    (∃ o, Registered w 0 o) ∧ Legal w (.setState 0 (some w.care.current) 12) ∧
    w.setState 0 (some w.care.current) 12 = .ok w' ∧ reads w' 0 = .ok 11 := by
  let ops : List (Op Nat String) := [.create 0 true 0 10, .setNext 0 1 11]
  have h : (legalRun? (World.fresh 0) ops).any (fun w => decide ((∃ o, Registered w 0 o) ∧
      Legal w (.setState 0 (some w.care.current) 12) ∧
      (match w.setState 0 (some w.care.current) 12 with
        | .error _ => none
        | .ok w' => some (reads w' 0)) = some (.ok 11))) = true := by decide +kernel
  obtain ⟨w, hw, hp⟩ := (Option.any_eq_true _ _).mp h
  simp only [decide_eq_true_eq] at hp
  obtain ⟨h1, h2, h3⟩ := hp
  cases he : w.setState 0 (some w.care.current) 12 with
  | error e => simp [he] at h3
  | ok w' =>
    rw [he] at h3
    exact ⟨w, w', (legalRun?_sound hw).reachable (.fresh 0), h1, h2, he, by simpa using h3⟩

/-! ## C07 -/

/-- C07. A garbage collection (of a history whose registered objects were all created at timepoints that
stay) changes neither the timepoint one is at, nor what can be undone or redone, nor the remembered and
pinned timepoints, nor the annotations of the timepoints that stay, nor what any registered object reads now,
nor what it would read after going to any timepoint that stays. -/
theorem C07_gc_invisible (w : World σ α) (hw : Reachable w) (hl : Legal w .gc) :
    ∃ w', w.garbageCollector = .ok w' ∧ Reachable w' ∧
      w'.care.current = w.care.current ∧ w'.care.history = w.care.history ∧
      w'.care.pinned = w.care.pinned ∧ (∀ k, w'.canUndo k = w.canUndo k) ∧
      (∀ k, w'.canRedo k = w.canRedo k) ∧
      (∀ i o, Registered w i o → (∃ o', Registered w' i o') ∧ reads w' i = reads w i ∧
        ∀ t, Live w' t → ∃ v v' : World σ α, w.goWithoutRemembering (some t) = .ok (true, v) ∧
          w'.goWithoutRemembering (some t) = .ok (true, v') ∧ reads v' i = reads v i) := by
  have h := reachable_inv hw
  obtain ⟨w', h1, h2, hg⟩ := gc_inv h hl
  have hw' : Reachable w' := .step .gc hw hl h1
  refine ⟨w', h1, hw', hg.current, hg.history, hg.pinned, ?_, ?_, ?_⟩
  · intro k; simp only [World.canUndo, hg.current, hg.history, hg.browser]
  · intro k; simp only [World.canRedo, hg.history, hg.browser]
  · intro i o hr
    obtain ⟨o', ho', _⟩ := hg.objs i hr.1 o hr.2
    have hr' : Registered w' i o' := ⟨(hg.originators i).mpr ⟨hr.1, by simp [hr.2]⟩, ho'⟩
    have hsh : ∀ t, Live w' t → shownAt w' o' t = shownAt w o t := by
      intro t ht
      exact hg.shown h hr ho' (fun a ha => hl i o hr a ha) ((hg.live t).mp (live_iff.mp ht))
    refine ⟨⟨o', hr'⟩, ?_, ?_⟩
    · obtain ⟨s, hs, hs'⟩ := reads_eq h hr
      obtain ⟨s2, hs2, hs2'⟩ := reads_eq h2 hr'
      rw [hs', hs2']
      rw [hsh _ (live_iff.mpr h2.current), hg.current, hs] at hs2
      cases hs2; rfl
    · intro t ht
      have htw : Live w t := live_iff.mpr (Needed.live ((hg.live t).mp (live_iff.mp ht)))
      obtain ⟨v, hv, _, _, hv2⟩ := C05_go_restores w hw t htw
      obtain ⟨v', hv', _, _, hv2'⟩ := C05_go_restores w' hw' t ht
      refine ⟨v, v', hv, hv', ?_⟩
      obtain ⟨s, hs, hs'⟩ := hv2 i o hr
      obtain ⟨s2, hs2, hs2'⟩ := hv2' i o' hr'
      rw [hs', hs2']
      rw [hsh t ht, hs] at hs2
      cases hs2; rfl

example : Reachable (demo garbageOps garbage_legal) ∧ Legal (demo garbageOps garbage_legal) .gc ∧
    (∃ o, Registered (demo garbageOps garbage_legal) 0 o) :=
  ⟨demo_reachable _ _, by decide +kernel, by decide +kernel⟩

/-! ## C08 -/

/-- C08. Making a new timepoint while standing at the `p`-th remembered one with later ones to redo: nothing
can be redone any more, the remembered timepoints are exactly the first ones up to the `p`-th, in order, and,
if garbage is collected automatically, the live timepoints are exactly the new one and the ancestors-or-self
of what is still remembered, pinned or was current. -/
theorem C08_edit_discards_future (w : World σ α) (hw : Reachable w) (p : Nat)
    (hb : w.care.browser = some p) (new : Addr) (hl : Legal w (.makeNext new)) :
    ∃ w', w.makeNextTimepoint new = .ok w' ∧ w'.care.current = new ∧ (∀ k, w'.canRedo k = false) ∧
      w'.care.history = w.care.history.take (p + 1) ∧ p + 1 < w.care.history.length ∧
      w'.care.pinned = w.care.pinned ∧
      (w.care.autoGc = true → ∀ a, Live w' a ↔ a = new ∨
        ∃ t, (t ∈ w.care.pinned ∨ t ∈ w.care.history.take (p + 1) ∨ t = w.care.current) ∧ AncOrSelf w a t) := by
  have h := reachable_inv hw
  obtain ⟨w1, w2, h1, h2, h3, h4, h5, h6, hw2⟩ := makeNextTimepoint_spec h hl
  have hff : forgetFuture w =
      { w with care := { w.care with history := w.care.history.take (p + 1), browser := none } } := by
    simp [forgetFuture, hb]
  have hstop : w1.care.history = w.care.history.take (p + 1) ∧ w1.care.browser = none ∧
      w1.care.pinned = w.care.pinned := by
    rcases h5 with rfl | hp
    · rw [hff]; simp
    · rw [hp.history, hp.browser, hp.pinned, hff]; simp
  refine ⟨w2, h2, by rw [hw2], ?_, by rw [hw2]; exact hstop.1, h.browser p hb, by rw [hw2]; exact hstop.2.2, ?_⟩
  · intro k
    rw [hw2]
    simp [World.canRedo, hstop.2.1]
  · intro ha a
    have hgc : GcPost (forgetFuture w) w1 := by
      obtain ⟨w1', h1', hg⟩ := gc_spec h.forgetFuture
      simp only [World.stopBrowsing, hb] at h1
      rw [if_pos ha, ← hff, h1'] at h1
      cases h1
      exact hg
    rw [live_iff, hw2]
    simp only [TreeNode.mem_addChild, hgc.live]
    have hcur : w1.care.current ∈ TreeNode.clusterSelf w1.care.tree := h3.current
    rw [hgc.live] at hcur
    simp only [hcur, and_true]
    rw [or_comm]
    apply or_congr Iff.rfl
    unfold Needed AncOrSelf
    rw [hff]

example : Reachable sample ∧ sample.care.browser = some 2 ∧ Legal sample (.makeNext 4) ∧
    sample.care.autoGc = true ∧ ¬ Legal sample (.makeNext 2) :=
  ⟨sample_reachable, by decide +kernel, by decide +kernel, by decide +kernel, by decide +kernel⟩

/-! ## C09 -/

/-- C09, partial. When nothing can be redone, a timepoint that one goes to and remembers is the last
remembered one, and stays remembered after the next edit, which can be undone to come back to it.
Missing: the case where undone edits could still be redone, see `C09_false`. -/
theorem C09_remembered_stays_partial (w : World σ α) (hw : Reachable w) (hb : w.care.browser = none)
    (t : Addr) (ht : Live w t) (new : Addr) :
    ∃ w1, w.goAndRemember (some t) = .ok (true, w1) ∧ w1.care.history.getLast? = some t ∧
      (Legal w1 (.makeNext new) → ∃ w2 w3, w1.makeNextTimepoint new = .ok w2 ∧ t ∈ w2.care.history ∧
        w2.canUndo 1 = .ok true ∧ w2.undo 1 = .ok w3 ∧ w3.care.current = t) := by
  have h := reachable_inv hw
  have htm := live_iff.mp ht
  have hg := go_inv h htm
  obtain ⟨w1, h1, h2⟩ := rememberCurrent_spec hg
  have hw1 : w1.care.history.getLast? = some t ∧ w1.care.browser = none := by
    simp only [World.rememberCurrent] at h1
    split at h1
    · cases h1
    · rename_i b hb2
      split at h1
      · cases h1; simp [hb]
      · rename_i hh
        cases h1
        simp only [ne_eq, Classical.not_not] at hh
        exact ⟨hb2.trans (by rw [hh]), hb⟩
  refine ⟨w1, by simp only [World.goAndRemember, goWithoutRemembering_eq htm, h1], hw1.1, ?_⟩
  intro hl
  obtain ⟨w1', w2, h3, h4, h5, h6, h7, h8, hw2⟩ := makeNextTimepoint_spec h2 hl
  have : w1' = w1 := by
    simp only [World.stopBrowsing, hw1.2] at h3
    exact (except_ok_inj h3).symm
  subst this
  have hne : t ≠ new := by
    rintro rfl
    exact h8 (h2.history t (List.mem_of_getLast? hw1.1))
  have hhist : w2.care.history = w1'.care.history := by rw [hw2]
  have hreach : w2.care.history.getLast? = some t := by rw [hhist]; exact hw1.1
  have hcur2 : w2.care.current = new := by rw [hw2]
  have hlen : 0 < w2.care.history.length := by
    cases hh : w2.care.history with
    | nil => simp [hh] at hreach
    | cons => simp
  have hb2 : w2.care.browser = none := by rw [hw2]; exact hw1.2
  have hcan : w2.canUndo 1 = .ok true := by
    simp only [World.canUndo, hb2, hreach, hcur2, hne, Nat.one_ne_zero, if_false]
    simp only [Except.ok.injEq, decide_eq_true_eq]
    omega
  have hidx : w2.care.history[w2.care.history.length - 1]? = some t := by
    rw [← List.getLast?_eq_getElem?]; exact hreach
  refine ⟨w2, { care := { w2.care with current := t, browser := none }, objs := World.goAll w2.objs t w2.care.originators },
    h4, List.mem_of_getLast? hreach, hcan, ?_, ?_⟩
  · simp only [World.undo, hcan, hb2, hreach, hcur2, ne_eq, hne, not_false_eq_true, if_true, Nat.one_ne_zero,
      if_false, Nat.sub_self, Nat.sub_zero]
    rw [arriveAt_spec h6 hidx, if_pos (by omega)]
  · rfl

example : ∃ w : World Nat String, Reachable w ∧ w.care.browser = none ∧ Live w 1 ∧ 1 ≠ w.care.current :=
  ⟨demo draftOps draft_legal, demo_reachable _ _, by decide +kernel, by decide +kernel, by decide +kernel⟩

/-- C09 is false: going to timepoint 0 and remembering it while an undone edit could still be redone; the
next edit forgets it, so that undoing goes elsewhere. -/
theorem C09_false : ∃ (w w1 w2 : World Nat String) (t new : Addr), Reachable w ∧ Live w t ∧
    w.goAndRemember (some t) = .ok (true, w1) ∧ w1.care.current = t ∧ Legal w1 (.makeNext new) ∧
    w1.makeNextTimepoint new = .ok w2 ∧ t ∉ w2.care.history := by
  let ops : List (Op Nat String) :=
    [.makeNext 1, .remember, .makeNext 2, .makeNext 3, .remember, .goWithoutRemembering (some 1), .undo 1,
     .undo 1]
  have h : (legalRun? (World.fresh 0) ops).any (fun w => match w.goAndRemember (some 2) with
      | .ok (true, w1) => decide (w1.care.current = 2 ∧ Legal w1 (.makeNext 9)) &&
        (match w1.makeNextTimepoint 9 with
        | .ok w2 => decide (2 ∉ w2.care.history)
        | .error _ => false) && decide (Live w 2)
      | _ => false) = true := by decide +kernel
  obtain ⟨w, hw, hp⟩ := (Option.any_eq_true _ _).mp h
  split at hp
  · rename_i w1 h1
    simp only [Bool.and_eq_true, decide_eq_true_eq] at hp
    obtain ⟨⟨⟨ha, hb⟩, hc⟩, hd⟩ := hp
    split at hc
    · rename_i w2 h2
      exact ⟨w, w1, w2, 2, 9, (legalRun?_sound hw).reachable (.fresh 0), hd, h1, ha, hb, h2, by simpa using hc⟩
    · cases hc
  · cases hp

/-! ## C10 -/

/-- C10, partial. An object that is registered follows undo: if from some point on it is left undisturbed at
the current timepoint `t`, then whenever an undo arrives at `t` the object reads what it read then.
Missing: objects that are never registered, see `C10_false_unregistered`. The board, its angles, its diagonal
zones and its fixed line policies are such objects (see DESIGN.md). -/
theorem C10_registered_follows_undo_partial (w v v' : World σ α) (hw : Reachable w) (i : Nat) (o : Originator σ)
    (hr : Registered w i o) (ops : List (Op σ α)) (k : Nat)
    (hu : Undisturbed i w.care.current w ops v) (hundo : v.undo k = .ok v')
    (harr : v'.care.current = w.care.current) : reads v' i = reads w i := by
  have h := reachable_inv hw
  obtain ⟨hv, o1, hr1, ht1, hsh⟩ := undisturbed_shown hu h hr (live_iff.mpr h.current)
  obtain ⟨v2, h2, hinv2⟩ := exec_inv hv (.undo k) trivial
  simp only [exec, hundo] at h2
  cases h2
  have hkey : ∃ o', Registered v' i o' ∧ o'.states = o1.states ∧ o'.ordered = o1.ordered ∧ o'.init = o1.init ∧
      v'.care.tree = v.care.tree := by
    rcases undo_spec hv k with h1 | ⟨j, u, h1, h2, _⟩
    · rw [hundo] at h1; cases h1
      exact ⟨o1, hr1, rfl, rfl, rfl, rfl⟩
    · rw [hundo, arriveAt_spec hv h1] at h2
      cases h2
      refine ⟨o1.go (some u), ⟨hr1.1, ?_⟩, rfl, rfl, rfl, rfl⟩
      simp only
      rw [goAll_eq, if_pos hr1.1, hr1.2]; rfl
  obtain ⟨o', hr', e1, e2, e3, e4⟩ := hkey
  obtain ⟨s, hs, hs'⟩ := reads_eq h hr
  obtain ⟨s2, hs2, hs2'⟩ := reads_eq hinv2 hr'
  rw [hs', hs2']
  rw [harr, shownAt_same e4 e1 e2 e3, hsh, hs] at hs2
  cases hs2; rfl

example : ∃ (w v v' : World Nat String), Reachable w ∧ (∃ o, Registered w 0 o) ∧
    Undisturbed 0 w.care.current w [.setNext 0 2 12, .remember, .setNext 0 3 13] v ∧
    v.undo 2 = .ok v' ∧ v'.care.current = w.care.current := by
  have h : (undisturbed? 0 1 (demo beforeOps before_legal) [.setNext 0 2 12, .remember, .setNext 0 3 13]).any
      (fun v => match v.undo 2 with | .ok v' => decide (v'.care.current = 1) | .error _ => false) = true := by
    decide +kernel
  have h1 : (demo beforeOps before_legal).care.current = 1 := by decide +kernel
  obtain ⟨v, hv, hp⟩ := (Option.any_eq_true _ _).mp h
  split at hp
  · rename_i v' hv'
    exact ⟨demo beforeOps before_legal, v, v', demo_reachable _ _, by decide +kernel, by rw [h1]; exact undisturbed?_sound hv, hv',
      by rw [h1]; simpa using hp⟩
  · cases hp

/-- C10 is false for objects that are not registered: after a successful undo to a timepoint, such an object
still reads the state that was undone. -/
theorem C10_false_unregistered : ∃ (w w' : World Nat String) (o : Originator Nat) (s s' : Nat), Reachable w ∧
    w.canUndo 1 = .ok true ∧ w.undo 1 = .ok w' ∧ w'.objs 0 = some o ∧
    shownAt w' o w'.care.current = some s ∧ reads w' 0 = .ok s' ∧ s ≠ s' := by
  let ops : List (Op Nat String) := [.createUnregistered 0 true (some 0) 10, .setNext 0 1 11, .remember]
  have h : (legalRun? (World.fresh 0) ops).any (fun w => decide (w.canUndo 1 = .ok true) &&
      match w.undo 1 with
      | .ok w' => (w'.objs 0).any fun o => decide (shownAt w' o w'.care.current = some 10 ∧ reads w' 0 = .ok 11)
      | .error _ => false) = true := by decide +kernel
  obtain ⟨w, hw, hp⟩ := (Option.any_eq_true _ _).mp h
  simp only [Bool.and_eq_true, decide_eq_true_eq] at hp
  obtain ⟨hc, hp⟩ := hp
  split at hp
  · rename_i w' hu
    obtain ⟨o, ho, hp⟩ := (Option.any_eq_true _ _).mp hp
    simp only [decide_eq_true_eq] at hp
    exact ⟨w, w', o, 10, 11, (legalRun?_sound hw).reachable (.fresh 0), hc, hu, ho, hp.1, hp.2, by decide⟩
  · cases hp

/-- C10, worse: when the allocator reuses the address of a timepoint that was undone and freed, a state set at
the new timepoint on an unregistered object with a const state type is silently dropped; the object reads the
undone state. -/
theorem C10_false_address_reuse : ∃ (w w' : World Nat String), Reachable w ∧ Legal w (.setNext 0 1 12) ∧
    w.setNextState 0 1 12 = .ok w' ∧ reads w' 0 = .ok 11 := by
  let ops : List (Op Nat String) :=
    [.createUnregistered 0 true (some 0) 10, .setNext 0 1 11, .remember, .undo 1, .makeNext 2]
  have h : (legalRun? (World.fresh 0) ops).any (fun w => decide (Legal w (.setNext 0 1 12)) &&
      match w.setNextState 0 1 12 with
      | .ok w' => decide (reads w' 0 = .ok 11)
      | .error _ => false) = true := by decide +kernel
  obtain ⟨w, hw, hp⟩ := (Option.any_eq_true _ _).mp h
  simp only [Bool.and_eq_true, decide_eq_true_eq] at hp
  obtain ⟨hc, hp⟩ := hp
  split at hp
  · rename_i w' hu
    exact ⟨w, w', (legalRun?_sound hw).reachable (.fresh 0), hc, hu, by simpa using hp⟩
  · cases hp

/-! ## C12 -/

/-- C12. The pinned timepoints never contain a duplicate and are all live; `pin` adds the current timepoint
if it is not there and changes nothing else; after `unpin t`, `t` is not pinned and the others are, in the
same order; `reset` unpins everything; no other call changes the pins. -/
theorem C12_pins_are_a_set (w : World σ α) (hw : Reachable w) :
    w.care.pinned.Nodup ∧ (∀ t ∈ w.care.pinned, Live w t) ∧
    (w.pinCurrent.care.pinned = if w.care.current ∈ w.care.pinned then w.care.pinned
      else w.care.pinned ++ [w.care.current]) ∧
    (∀ t w', Legal w (.unpin (some t)) → w.unpin (some t) = .ok w' → w'.care.pinned = w.care.pinned.erase t) ∧
    (∀ w', w.reset = .ok w' → w'.care.pinned = []) ∧
    (∀ op w', Legal w op → exec w op = .ok w' → op ≠ .pin → (∀ t, op ≠ .unpin t) → op ≠ .reset →
      w'.care.pinned = w.care.pinned) := by
  have h := reachable_inv hw
  refine ⟨h.pinnedNodup, fun t ht => live_iff.mpr (h.pinned t ht), ?_, ?_, ?_, ?_⟩
  · unfold World.pinCurrent
    by_cases hm : w.care.current ∈ w.care.pinned
    · rw [if_neg, if_pos hm]
      simp only [List.all_eq_true, not_forall]
      exact ⟨w.care.current, hm, by simp⟩
    · rw [if_pos, if_neg hm]
      simp only [List.all_eq_true]
      intro x hx
      simp only [decide_eq_true_eq]
      rintro rfl; exact hm hx
  · intro t w' hl he
    have hfil : w.care.pinned.filter (fun p => decide (some p ≠ some t)) = w.care.pinned.erase t := by
      rw [h.pinnedNodup.erase_eq_filter]
      apply List.filter_congr
      intro x _
      by_cases hx : x = t <;> simp [hx]
    have hp := pinned_unpin h he
    rw [hp, hfil]
  · intro w' he
    obtain ⟨x, xs, w2, hh, h1, h2, h3⟩ := reset_spec h
    rw [he] at h1; cases h1
    rw [h3.pinned]
  · intro op w' hl he h1 h2 h3
    exact pinned_other h hl he h1 h2 h3

def pinOps : List (Op Nat String) := [.makeNext 1, .pin, .makeNext 3, .pin, .pin]

theorem pin_legal : (legalRun? (World.fresh 0) pinOps).isSome = true := by decide +kernel

example : ∃ w : World Nat String, Reachable w ∧ w.care.pinned = [1, 3] ∧ Legal w (.unpin (some 1)) ∧
    Legal w .gc :=
  ⟨demo pinOps pin_legal, demo_reachable _ _, by decide +kernel, by decide +kernel, by decide +kernel⟩

end Verif.Props
