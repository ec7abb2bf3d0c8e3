import Verif.Spec.Sinks
import Mathlib.Data.List.Basic
import Mathlib.Tactic

/-!
# C142 to C144: messages and their answers
-/

namespace Verif.Log
open Verif.Files (UserAction)

theorem from_to (a : UserAction) : fromQt (toQt a) = a := by cases a <;> rfl

theorem number_injective : Function.Injective number := fun a b h => by cases a <;> cases b <;> simp_all [number]

theorem logger_cli (cli qt : Nat) : programLogger false cli qt = ⟨[(cli, ⟨0, false⟩)], none⟩ := rfl

theorem logger_gui {cli qt : Nat} (hq : qt ≠ 0) (h : cli ≠ qt) :
    programLogger true cli qt = ⟨[(cli, ⟨0, false⟩), (qt, ⟨1, true⟩)], some qt⟩ := by
  simp [programLogger, Utils.Logger.after, Utils.Action.apply, Utils.Logger.register, Utils.Logger.contains, Utils.Logger.choose, hq, h]

theorem cliLog_quiet (verbose : Bool) (e : Event) (lines : List (List Char)) :
    cliLog verbose false e lines = some (.nothing, if isWritten verbose e then printed e ++ ['\n'] else [], lines) := by
  unfold cliLog
  cases isWritten verbose e <;> rfl

/-- What comes of a message without the window. -/
theorem programLog_cli (verbose : Bool) {cli qt : Nat} (hc : cli ≠ 0) (e : Event) (exec : Shown → Button) :
    programLog false verbose cli qt e exec =
      ⟨0, if isWritten verbose e then printed e ++ ['\n'] else [], none⟩ := by
  unfold programLog
  rw [logger_cli]
  simp only [Utils.Logger.log, Utils.Logger.contains, Utils.logLoop, cliLog_quiet, List.any_cons, List.any_nil, Bool.or_false,
    decide_eq_true_eq]
  by_cases h : e.destination ≠ 0 ∧ cli = e.destination
  · simp [h.1, h.2, cliLog_quiet, number]
  · simp [h]

/-- What comes of a message with the window. -/
theorem programLog_gui (verbose : Bool) {cli qt : Nat} (hc : cli ≠ 0) (hq : qt ≠ 0) (hcq : cli ≠ qt) (e : Event) (exec : Shown → Button) :
    programLog true verbose cli qt e exec =
      if e.destination = cli then ⟨0, if isWritten verbose e then printed e ++ ['\n'] else [], none⟩
      else if e.destination = qt then ⟨number (qtLog true e exec).1, [], some (qtLog true e exec).2⟩
      else ⟨number (qtLog true e exec).1, if isWritten verbose e then printed e ++ ['\n'] else [], some (qtLog true e exec).2⟩ := by
  unfold programLog
  rw [logger_gui hq hcq]
  simp only [Utils.Logger.log, Utils.Logger.contains, Utils.logLoop, cliLog_quiet, List.any_cons, List.any_nil, Bool.or_false,
    decide_eq_true_eq, Bool.or_eq_true]
  by_cases h1 : e.destination = cli
  · simp [h1, hc, cliLog_quiet, number]
  · by_cases h2 : e.destination = qt
    · simp [h2, hq, hcq, Ne.symm hcq, hc]
    · simp [h1, h2, Ne.symm h1, Ne.symm h2, Ne.symm hcq, hcq, hq]

theorem qtLog_box {e : Event} (h : Asks e) (exec : Shown → Button) :
    qtLog true e exec = (fromQt (exec (.box e.message e.informative e.details e.level (buttons true e.actions) (e.default.map toQt))),
      .box e.message e.informative e.details e.level (buttons true e.actions) (e.default.map toQt)) := by
  unfold qtLog
  have : ¬ (e.level ≠ .question ∧ (e.actions.isEmpty = true ∨ .nothing ∈ e.actions)) := by
    rw [List.isEmpty_iff]
    unfold Asks at h
    tauto
  rw [if_neg this]

theorem mem_buttons {actions : List UserAction} (h : ∃ a ∈ actions, a ≠ .nothing) (b : Button) :
    b ∈ buttons true actions ↔ ∃ a ∈ actions, a ≠ .nothing ∧ toQt a = b := by
  have hne : (actions.map toQt).filter (· ≠ .noButton) ≠ [] := by
    obtain ⟨a, ha, hn⟩ := h
    apply List.ne_nil_of_mem (a := toQt a)
    rw [List.mem_filter]
    exact ⟨List.mem_map_of_mem ha, by cases a <;> simp_all [toQt]⟩
  unfold buttons
  simp only [if_true, List.isEmpty_iff, hne, if_false, List.mem_filter, List.mem_map, decide_eq_true_eq]
  constructor
  · rintro ⟨⟨a, ha, rfl⟩, hb⟩; exact ⟨a, ha, fun x => hb (by rw [x]; rfl), rfl⟩
  · rintro ⟨a, ha, hn, rfl⟩; exact ⟨⟨a, ha, rfl⟩, by cases a <;> simp_all [toQt]⟩

/-- With the window, a message with something to answer is shown in a box, whose buttons are the answers offered; the answer is one of
them, whatever button the user takes, and any of them can be given. A message with nothing to answer gets none, nor does any without the
window. -/
theorem C142_answers (verbose : Bool) {cli qt : Nat} (hc : cli ≠ 0) (hq : qt ≠ 0) (hcq : cli ≠ qt) (e : Event) :
    (∀ exec, (programLog false verbose cli qt e exec).answer = number .nothing ∧ (programLog false verbose cli qt e exec).shown = none) ∧
    (e.destination ≠ cli → Asks e → (∃ a ∈ e.actions, a ≠ .nothing) →
      (∀ exec, ∃ bs, (programLog true verbose cli qt e exec).shown =
          some (.box e.message e.informative e.details e.level bs (e.default.map toQt)) ∧
        (∀ b, b ∈ bs ↔ ∃ a ∈ e.actions, a ≠ .nothing ∧ toQt a = b) ∧
        (Taken exec → ∃ a ∈ e.actions, a ≠ .nothing ∧ (programLog true verbose cli qt e exec).answer = number a)) ∧
      ∀ a ∈ e.actions, a ≠ .nothing → ∃ exec, Taken exec ∧ (programLog true verbose cli qt e exec).answer = number a) ∧
    (¬ Asks e → ∀ exec, (programLog true verbose cli qt e exec).answer = number .nothing ∧
      ((programLog true verbose cli qt e exec).shown = none ∨
        (programLog true verbose cli qt e exec).shown = some (.status e.message))) := by
  refine ⟨fun exec => ?_, fun hd ha hs => ⟨fun exec => ?_, fun a hm hn => ?_⟩, fun ha exec => ?_⟩
  · rw [programLog_cli verbose hc]; exact ⟨rfl, rfl⟩
  · have hb := mem_buttons hs
    refine ⟨buttons true e.actions, ?_, hb, fun ht => ?_⟩
    · rw [programLog_gui verbose hc hq hcq, if_neg hd, qtLog_box ha]
      split <;> rfl
    · have hne : buttons true e.actions ≠ [] := by
        obtain ⟨a, ha, hn⟩ := hs
        exact List.ne_nil_of_mem ((hb _).mpr ⟨a, ha, hn, rfl⟩)
      obtain ⟨a, hm, hn, he⟩ := (hb _).mp (ht e.message e.informative e.details e.level _ (e.default.map toQt) hne)
      refine ⟨a, hm, hn, ?_⟩
      rw [programLog_gui verbose hc hq hcq, if_neg hd, qtLog_box ha, ← he, from_to]
      split <;> rfl
  · classical
    refine ⟨fun s => match s with
      | .box _ _ _ _ bs _ => if toQt a ∈ bs then toQt a else bs.headD .noButton
      | .status _ => .noButton, ?_, ?_⟩
    · intro t i d l bs df hne
      show (if toQt a ∈ bs then toQt a else bs.headD .noButton) ∈ bs
      split
      · assumption
      · cases bs with
        | nil => exact absurd rfl hne
        | cons b bs => simp
    · rw [programLog_gui verbose hc hq hcq, if_neg hd, qtLog_box ha]
      have : toQt a ∈ buttons true e.actions := (mem_buttons hs _).mpr ⟨a, hm, hn, rfl⟩
      simp only [this, if_true, from_to]
      split <;> rfl
  · have hq' : qtLog true e exec = (.nothing, .status e.message) := by
      unfold qtLog
      rw [if_pos]
      unfold Asks at ha
      rw [List.isEmpty_iff]
      push Not at ha
      exact ⟨ha.1, (em (e.actions = [])).imp id ha.2⟩
    rw [programLog_gui verbose hc hq hcq, hq']
    split
    · exact ⟨rfl, Or.inl rfl⟩
    · split <;> exact ⟨rfl, Or.inr rfl⟩

/-- The question asked before an unsaved document is closed. -/
def closing : Event := { level := .question, actions := [.cancel, .save, .close], message := "You are about closing".toList }

example : Asks closing ∧ (∃ a ∈ closing.actions, a ≠ .nothing) ∧ closing.destination ≠ 7 ∧
    (programLog true false 7 9 closing (fun _ => .close)).answer = number .close ∧ ¬ Asks { closing with level := .info, actions := [] } := by
  refine ⟨Or.inl rfl, ⟨.cancel, by decide, by decide⟩, by decide, by decide +kernel, ?_⟩
  simp [Asks]

/-! ## The terminal -/

theorem fromLetter_nothing (line : List Char) : fromLetter line = .nothing ↔ NoAnswer line := by
  unfold fromLetter NoAnswer
  constructor
  · intro h hm
    simp only [List.mem_cons, List.not_mem_nil, or_false] at hm
    rcases hm with rfl | rfl | rfl | rfl | rfl <;> simp at h
  · intro h
    simp only [List.mem_cons, List.not_mem_nil, or_false, not_or] at h
    simp [h]

theorem fromLetter_stands {line : List Char} {a : UserAction} (h : Stands line a) : fromLetter line = a := by
  cases h <;> rfl

/-- What is printed each time an answer is asked for. -/
def prompt (actions : List UserAction) : List Char := [' '] ++ choices actions ++ " ? ".toList

theorem ask_lines (actions : List UserAction) (pre : List (List Char)) : ∀ (line : List Char) (rest : List (List Char)) (out : List Char)
    (a : UserAction), (∀ l ∈ pre, NoAnswer l) → Stands line a →
    ask actions (pre ++ line :: rest) out = some (a, out ++ (List.replicate (pre.length + 1) (prompt actions)).flatten, rest) := by
  induction pre with
  | nil =>
    intro line rest out a _ hs
    have hn : fromLetter line ≠ .nothing := by rw [fromLetter_stands hs]; cases hs <;> decide
    simp [ask, fromLetter_stands hs, prompt]
    rw [fromLetter_stands hs] at hn
    exact fun x => absurd x hn
  | cons l pre ih =>
    intro line rest out a hp hs
    have hl : fromLetter l = .nothing := (fromLetter_nothing l).mpr (hp l (by simp))
    rw [List.cons_append, ask]
    simp only [hl, if_true]
    rw [ih line rest _ a (fun x hx => hp x (by simp [hx])) hs]
    simp [prompt, List.replicate_succ]

theorem ask_end (actions : List UserAction) (pre : List (List Char)) : ∀ out, (∀ l ∈ pre, NoAnswer l) → ask actions pre out = none := by
  induction pre with
  | nil => intro out _; rfl
  | cons l pre ih =>
    intro out hp
    rw [ask]
    simp only [(fromLetter_nothing l).mpr (hp l (by simp)), if_true]
    exact ih _ fun x hx => hp x (by simp [hx])

/-- On the terminal: nothing is read nor answered but of a question with answers, asked by the interactive sink. Then the first line that
stands for an action is the answer, the lines before it are read for nothing, the question being repeated, and those after it are left. If
that line stands for an action offered, the answer is one offered. -/
theorem C143_partial (verbose interactive : Bool) (e : Event) (lines : List (List Char)) :
    ((interactive = false ∨ e.level ≠ .question ∨ e.actions = []) →
      ∃ out, cliLog verbose interactive e lines = some (.nothing, out, lines)) ∧
    (interactive = true → e.level = .question → e.actions ≠ [] → ∀ pre line rest a, lines = pre ++ line :: rest →
      (∀ l ∈ pre, NoAnswer l) → Stands line a →
      ∃ out, cliLog verbose interactive e lines = some (a, out, rest) ∧
        out = printed e ++ (List.replicate (pre.length + 1) (prompt e.actions)).flatten) := by
  refine ⟨fun h => ?_, fun h1 h2 h3 pre line rest a hl hp hs => ?_⟩
  · unfold cliLog
    have : (interactive && e.level == .question && !e.actions.isEmpty) = false := by
      rcases h with h | h | h
      · simp [h]
      · simp [h]
      · simp [h]
    simp only [this, Bool.false_eq_true, if_false]
    exact ⟨_, rfl⟩
  · unfold cliLog
    have h4 : (interactive && e.level == .question && !e.actions.isEmpty) = true := by
      simp [h1, h2, h3]
    have h5 : isWritten verbose e = true := by simp [isWritten, h2]
    simp only [h4, h5, if_true, hl]
    exact ⟨_, ask_lines e.actions pre line rest _ a hp hs, rfl⟩

/-- How the answers offered are written: their letters. -/
theorem C143_offered (actions : List UserAction) (h : .nothing ∉ actions) :
    ∃ ls, ls.length = actions.length ∧ (∀ (i : Nat) (a : UserAction), actions[i]? = some a → ∃ l, ls[i]? = some l ∧ Stands l a) ∧
      choices actions = ['['] ++ ['/'].intercalate ls ++ [']'] := by
  refine ⟨actions.map letter, by simp, ?_, ?_⟩
  · intro i a hi
    refine ⟨letter a, by simp [hi], ?_⟩
    have : a ≠ .nothing := fun x => h (x ▸ List.mem_of_getElem? hi)
    cases a
    · exact absurd rfl this
    all_goals constructor
  · have : ∀ l : List (List Char), slashed l = ['/'].intercalate l := by
      intro l
      induction l with
      | nil => rfl
      | cons a l ih =>
        cases l with
        | nil => simp [slashed, List.intercalate]
        | cons b l => simp only [slashed, ih, List.intercalate]; simp
    rw [choices, this]

example : (∀ l ∈ [['x'], []], NoAnswer l) ∧ Stands ['s'] .save ∧ UserAction.nothing ∉ closing.actions ∧
    choices closing.actions = "[n/s/c]".toList := by
  refine ⟨?_, .s, by decide, by decide⟩
  unfold NoAnswer
  decide

/-- A question on the terminal can be answered by what it does not offer; and at the end of the input it is repeated forever. -/
theorem C143_false :
    (∃ (e : Event) (out : List Char), .abort ∉ e.actions ∧ cliLog true true e [['a']] = some (.abort, out, [])) ∧
    ∃ e : Event, e.level = .question ∧ e.actions ≠ [] ∧ ∀ pre : List (List Char), (∀ l ∈ pre, NoAnswer l) → cliLog true true e pre = none := by
  refine ⟨⟨closing, printed closing ++ prompt closing.actions, by decide, by decide +kernel⟩, closing, rfl, by decide, fun pre hp => ?_⟩
  have : cliLog true true closing pre = ask closing.actions pre (printed closing) := rfl
  rw [this]
  exact ask_end _ pre _ hp

/-! ## Nothing is lost -/

theorem infix_printed (e : Event) :
    e.message <:+: printed e ∧ e.informative <:+: printed e ∧ e.details <:+: printed e ∧
      ∃ w, Word e.level w ∧ w ++ ':' :: ' ' :: e.message <:+: printed e := by
  have h1 : e.informative <:+: (if e.informative.isEmpty then [] else ' ' :: e.informative) := by
    split
    · rename_i h; rw [List.isEmpty_iff] at h; rw [h]
    · exact ⟨[' '], [], by simp⟩
  have h2 : e.details <:+: (if e.details.isEmpty then [] else '\n' :: e.details) := by
    split
    · rename_i h; rw [List.isEmpty_iff] at h; rw [h]
    · exact ⟨['\n'], [], by simp⟩
  unfold printed
  refine ⟨?_, ?_, ?_, ?_⟩
  · exact ((List.infix_append _ _ _).trans (List.prefix_append _ _).isInfix)
  · exact h1.trans (((List.suffix_append _ _).isInfix).trans (List.prefix_append _ _).isInfix)
  · exact h2.trans (List.suffix_append _ _).isInfix
  · refine ⟨levelText e.level, ?_, ?_⟩
    · cases e.level <;> constructor
    · have := List.infix_append (emoji e.level ++ [' ']) (levelText e.level ++ ':' :: ' ' :: e.message)
        ((if e.informative.isEmpty then [] else ' ' :: e.informative) ++ (if e.details.isEmpty then [] else '\n' :: e.details))
      simpa [List.append_assoc] using this

/-- With or without the window: a message that is no information, or that is while the program is verbose, is written whole on the terminal,
on lines of its own, after the word for its level; with the window, a message with something to answer is shown whole, with its level. -/
theorem C144_partial (gui verbose : Bool) {cli qt : Nat} (hc : cli ≠ 0) (hq : qt ≠ 0) (hcq : cli ≠ qt) (e : Event) (exec : Shown → Button)
    (hd : gui = true → e.destination ≠ qt) :
    ((e.level ≠ .info ∨ verbose = true) → ∃ t, (programLog gui verbose cli qt e exec).written = t ++ ['\n'] ∧
      e.message <:+: t ∧ e.informative <:+: t ∧ e.details <:+: t ∧
      ∃ w, Word e.level w ∧ w ++ ':' :: ' ' :: e.message <:+: t) ∧
    (e.level = .info → verbose = false → (programLog gui verbose cli qt e exec).written = []) ∧
    (gui = true → e.destination ≠ cli → Asks e → ∃ bs d, (programLog gui verbose cli qt e exec).shown =
      some (.box e.message e.informative e.details e.level bs d)) ∧
    (gui = true → e.destination ≠ cli → ∀ s, (programLog gui verbose cli qt e exec).shown = some (.status s) → s = e.message) := by
  have hw : (programLog gui verbose cli qt e exec).written = if isWritten verbose e then printed e ++ ['\n'] else [] := by
    cases gui
    · rw [programLog_cli verbose hc]
    · rw [programLog_gui verbose hc hq hcq, if_neg (hd rfl)]
      split <;> rfl
  refine ⟨fun h => ?_, fun h1 h2 => ?_, fun hg hd' ha => ?_, fun hg hd' s hs => ?_⟩
  · rw [hw]
    have : isWritten verbose e = true := by
      rcases h with h | h
      · simp [isWritten, h]
      · simp [isWritten, h]
    exact ⟨printed e, by simp [this], infix_printed e⟩
  · rw [hw]
    simp [isWritten, h1, h2]
  · subst hg
    rw [programLog_gui verbose hc hq hcq, if_neg hd', if_neg (hd rfl), qtLog_box ha]
    exact ⟨_, _, rfl⟩
  · subst hg
    rw [programLog_gui verbose hc hq hcq, if_neg hd', if_neg (hd rfl)] at hs
    simp only [qtLog, Option.some.injEq] at hs
    split at hs
    · simpa using hs.symm
    · simp at hs

/-- The status bar shows the message alone; and a message meant for the window is not written, nor is information when the program is not
verbose. -/
theorem C144_false : ∃ e : Event, e.informative ≠ [] ∧ e.details ≠ [] ∧
    (∀ exec, (programLog true true 7 9 e exec).shown = some (.status e.message)) ∧
    (∀ exec, (programLog true false 7 9 e exec).written = []) ∧ ¬ e.informative <:+: e.message := by
  refine ⟨{ level := .info, message := ['m'], informative := ['i'], details := ['d'] }, by decide, by decide, fun exec => rfl, fun exec => rfl,
    by decide⟩

example : (programLog true false 7 9 closing (fun _ => .save)).written = "❓ Question: You are about closing\n".toList ∧
    (closing.level ≠ .info) := by decide +kernel

end Verif.Log
