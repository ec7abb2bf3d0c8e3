import Verif.Spec.Title
import Verif.Props.Session

/-! # C156: the title of the window -/

namespace Verif.Props
open Verif Files
open Verif.Files.Spec

variable {β : Type}

/-- A title is kept beside the session, which does what it does without it. -/
theorem titled_session {e : Env β} {t : Titled β} {a : Act β} :
    (t.run e a).map (·.session) = a.run e t.session := by
  cases a with
  | opens path =>
    simp only [Titled.run, Titled.opens, Act.run, Session.opens, Option.map_some, Option.some.injEq]
    unfold Titled.parseAndDisplay Session.parseAndDisplay
    by_cases h : path = ""
    · simp only [h, if_true]
    · simp only [h, if_false]
      cases (t.session.disk path).bind e.parse <;> rfl
  | savesAs path answers =>
    simp only [Titled.run, Titled.savesAs, Act.run]
    by_cases h : t.session.enabled = true
    · simp only [h, if_true, Option.map_map]
      exact Option.map_id'
    · simp only [h, Session.savesAs, Bool.false_eq_true, if_false, Option.map_some]
  | changes f => rfl
  | saves answers => simp only [Titled.run, Option.map_map]; exact Option.map_id'
  | exports path => simp only [Titled.run, Option.map_map]; exact Option.map_id'
  | asksClosing answers => simp only [Titled.run, Option.map_map]; exact Option.map_id'
  | others d => rfl

/-- The file the window has after a save. -/
theorem onSave_title (e : Env β) (w : Files.Window β) (answers : List UserAction) :
    (onSave e w answers).1.csxFile =
      if w.params.output ≠ "" ∧ w.params.output ≠ w.csxFile ∧ answers.head? = some .save then w.params.output else w.csxFile := by
  unfold onSave
  by_cases h1 : w.params.output = ""
  · rw [if_pos h1, (saveCsxFile_names e _ _).1, if_neg (by simp [h1])]
  · rw [if_neg h1]
    by_cases h2 : w.csxFile = w.params.output
    · rw [if_neg (by simp [h2]), (saveCsxFile_names e _ _).1, if_neg (by simp [h2])]
    · rw [if_pos h2]
      have h2' : w.params.output ≠ w.csxFile := fun h => h2 h.symm
      rcases answers with _ | ⟨a, as⟩
      · simp [answer]
      · cases a <;> simp [answer, h1, h2', (saveCsxFile_names e _ _).1]

theorem closes_names (e : Env β) (s s' : Session β) (answers : List UserAction) (h : s.closes e answers = some (false, s')) :
    s'.csxFile = s.csxFile := by
  unfold Session.closes at h
  cases hb : s.board with
  | none =>
    rw [hb] at h
    by_cases hu : s.isUnsaved = true <;> simp [hu] at h
  | some b =>
    rw [hb] at h
    simp only [Option.some.injEq, Prod.mk.injEq] at h
    obtain ⟨h1, rfl⟩ := h
    unfold closeEvent at h1 ⊢
    split at h1
    · rename_i hu
      rw [if_pos hu]
      split at h1
      · rename_i heq
        simp only [heq]
        rfl
      · cases h1
      · cases h1
    · cases h1

/-- What the title says after an action: it names the file that the window has when a document was opened or saved under a name, and
it goes on naming it unless a file was refused or a save went to another file. What is missing: the title is not updated then. -/
theorem C156_partial {e : Env β} {t t' : Titled β} {a : Act β} (hp : Possible t.session a) (hr : t.run e a = some t') :
    (Named e t.session a → Agrees t') ∧
    (Agrees t → ¬ Refused e t.session a → ¬ Redirected t.session a → Agrees t') ∧
    (t'.title = t.title ∨ t'.title = t'.session.csxFile) := by
  cases a with
  | opens path =>
    have hne : path ≠ "" := hp
    simp only [Titled.run, Option.some.injEq] at hr
    subst hr
    unfold Named Refused Redirected Agrees opened
    simp only [Titled.opens, Titled.parseAndDisplay, Session.parseAndDisplay, Titled.updateTitle, hne, if_false]
    cases hb : (t.session.disk path).bind e.parse with
    | none =>
      refine ⟨fun h => absurd rfl h, fun _ h => absurd rfl h, Or.inl ?_⟩
      simp [hne]
    | some b =>
      simp [hne]
  | savesAs path answers =>
    have hne : path ≠ "" := hp
    by_cases he : t.session.enabled = true
    · simp only [Titled.run, Titled.savesAs, he, if_true, Titled.updateTitle, Session.savesAs] at hr
      cases hb : t.session.board with
      | none => rw [hb] at hr; cases hr
      | some b =>
        rw [hb] at hr
        simp only [Option.map_some, Option.some.injEq] at hr
        subst hr
        have hn := saveCsxFile_names e
          { t.session.window b with csxFile := path, params := { t.session.params with output := path } } answers
        have ha : Agrees (⟨t.session.became (saveCsxFile e
          { t.session.window b with csxFile := path, params := { t.session.params with output := path } } answers).1, path⟩ : Titled β) :=
          hn.1.symm
        simp only [hne, ne_eq, not_false_eq_true, if_true]
        exact ⟨fun _ => ha, fun _ _ _ => ha, Or.inr ha⟩
    · simp only [Titled.run, Titled.savesAs, he, Bool.false_eq_true, if_false, Option.some.injEq] at hr
      subst hr
      exact ⟨fun h => absurd h he, fun h _ _ => h, Or.inl rfl⟩
  | changes f =>
    simp only [Titled.run, Act.run, Option.map_some, Option.some.injEq] at hr
    subst hr
    refine ⟨fun h => h.elim, fun h _ _ => ?_, Or.inl rfl⟩
    unfold Agrees Session.changes at *
    split <;> exact h
  | saves answers =>
    simp only [Titled.run, Act.run, Session.saves] at hr
    by_cases he : t.session.enabled = true
    · simp only [he, if_true] at hr
      cases hb : t.session.board with
      | none => rw [hb] at hr; cases hr
      | some b =>
        rw [hb] at hr
        simp only [Option.map_some, Option.some.injEq] at hr
        subst hr
        refine ⟨fun h => h.elim, fun h _ hd => ?_, Or.inl rfl⟩
        have hn := onSave_title e (t.session.window b) answers
        have hd' : ¬ ((t.session.window b).params.output ≠ "" ∧ (t.session.window b).params.output ≠ (t.session.window b).csxFile ∧
            answers.head? = some .save) := fun hc => hd ⟨he, hc⟩
        rw [if_neg hd'] at hn
        exact h.trans hn.symm
    · simp only [he, Bool.false_eq_true, if_false, Option.map_some, Option.some.injEq] at hr
      subst hr
      exact ⟨fun h => h.elim, fun h _ _ => h, Or.inl rfl⟩
  | exports path =>
    simp only [Titled.run, Act.run, Session.exports] at hr
    by_cases he : t.session.enabled = true
    · simp only [he, if_true] at hr
      cases hb : t.session.board with
      | none => rw [hb] at hr; cases hr
      | some b =>
        rw [hb] at hr
        simp only [Option.map_some, Option.some.injEq] at hr
        subst hr
        exact ⟨fun h => h.elim, fun h _ _ => h, Or.inl rfl⟩
    · simp only [he, Bool.false_eq_true, if_false, Option.map_some, Option.some.injEq] at hr
      subst hr
      exact ⟨fun h => h.elim, fun h _ _ => h, Or.inl rfl⟩
  | asksClosing answers =>
    simp only [Titled.run, Act.run] at hr
    cases hc : t.session.closes e answers with
    | none => rw [hc] at hr; cases hr
    | some x =>
      obtain ⟨c, s'⟩ := x
      rw [hc] at hr
      cases c with
      | true => cases hr
      | false =>
        simp only [Option.map_some, Option.some.injEq] at hr
        subst hr
        exact ⟨fun h => h.elim, fun h _ _ => h.trans (closes_names e _ _ _ hc).symm, Or.inl rfl⟩
  | others d =>
    simp only [Titled.run, Act.run, Option.map_some, Option.some.injEq] at hr
    subst hr
    exact ⟨fun h => h.elim, fun h _ _ => h, Or.inl rfl⟩

theorem saveCsxFile_writes (e : Env β) (w : Files.Window β) (answers : List UserAction) (h : w.csxFile = w.params.output) :
    (∀ q, (saveCsxFile e w answers).1.disk q ≠ w.disk q → q = (saveCsxFile e w answers).1.csxFile) ∧
    (saveCsxFile e w answers).1.csxFile = (saveCsxFile e w answers).1.params.output := by
  obtain ⟨h1, h2⟩ := saveCsxFile_names e w answers
  obtain ⟨-, -, h3⟩ := saveCsxFile_did e w answers
  refine ⟨fun q hq => ?_, by rw [h1, h2, h]⟩
  rw [h1, h]
  rcases h3 with ⟨h3, -⟩ | ⟨text, -, h3, -⟩
  · rw [h3] at hq
    exact absurd rfl hq
  · rw [h3] at hq
    exact Classical.byContradiction fun hc => hq (by simp only [Env.save, hc, if_false])

/-- The file that the window has, and names when it says that a file was saved, is the file that was written: no other file changed. -/
theorem C156_saved (e : Env β) (s : Session β) (b : β) (answers : List UserAction) :
    (∀ q, (onSave e (s.window b) answers).1.disk q ≠ s.disk q → q = (onSave e (s.window b) answers).1.csxFile) ∧
    ((onSave e (s.window b) answers).1.isUnsaved ≠ s.isUnsaved →
      (onSave e (s.window b) answers).1.csxFile = (onSave e (s.window b) answers).1.params.output) := by
  unfold onSave
  by_cases h1 : (s.window b).params.output = ""
  · rw [if_pos h1]
    have h2 := saveCsxFile_writes e
      { s.window b with params := { (s.window b).params with output := (s.window b).csxFile } } answers rfl
    exact ⟨h2.1, fun _ => h2.2⟩
  · rw [if_neg h1]
    by_cases h3 : (s.window b).csxFile = (s.window b).params.output
    · rw [if_neg (by simp [h3])]
      have h2 := saveCsxFile_writes e (s.window b) answers h3
      exact ⟨h2.1, fun _ => h2.2⟩
    · rw [if_pos h3]
      split
      · rename_i rest _
        have h2 := saveCsxFile_writes e { s.window b with csxFile := (s.window b).params.output } rest rfl
        exact ⟨h2.1, fun _ => h2.2⟩
      · exact ⟨fun q hq => absurd rfl hq, fun hu => absurd rfl hu⟩

/-- C156 is false: the program is started with an input and an output, the document is saved, and the window has the output from then
on while its title still names the input. A file that is refused leaves the title, too. -/
theorem C156_false :
    (∃ t : Titled String, TitleReached textEnv ⟨"a", "d", false, .csx⟩ twoFiles t ∧ t.session.enabled = true ∧
      t.session.isUnsaved = false ∧ t.session.csxFile = "d" ∧ t.title = "a") ∧
    (∃ t : Titled String, TitleReached textEnv bare twoFiles t ∧ t.session.csxFile = "b" ∧ t.title = "a") := by
  constructor
  · exact ⟨_, .did (a := .saves [.save]) .started trivial rfl, rfl, rfl, rfl, rfl⟩
  · exact ⟨_, .did (a := .opens "b") (.did (a := .opens "a") .started (show _ ≠ _ by decide) rfl) (show _ ≠ _ by decide) rfl, rfl, rfl⟩

/-- Of `C156_partial`: a document is opened, edited, and saved under a name; the title follows. -/
example : ∃ t : Titled String, TitleReached textEnv bare twoFiles t ∧ t.session.csxFile = "e" ∧ t.title = "e" ∧
    t.session.disk "e" = some "edited in A" :=
  ⟨_, .did (a := .savesAs "e" []) (.did (a := .changes fun _ => "edited") (.did (a := .opens "a") .started
    (show _ ≠ _ by decide) rfl) trivial rfl) (show _ ≠ _ by decide) rfl, rfl, rfl, rfl⟩

/-- Of `C156_saved`: a save that changes a file. -/
example : ∃ s : Session String, ∃ b, (onSave textEnv (s.window b) [.save]).1.disk "a" ≠ s.disk "a" ∧ s.isUnsaved = true :=
  ⟨(Session.started textEnv given twoFiles), "A'", by decide +kernel, rfl⟩

end Verif.Props
