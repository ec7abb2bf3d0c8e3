import Verif.Spec.Session
import Verif.Props.Files

/-! # C125, C126: the files of a session of the window -/

namespace Verif.Props
open Verif Files
open Verif.Files.Spec

variable {β : Type}

/-! ## What a save does -/

/-- Either nothing was written, or the output holds the board. -/
def SavedTo (e : Env β) (w w' : Files.Window β) (out : String) : Prop :=
  (w'.disk = w.disk ∧ w'.isUnsaved = w.isUnsaved) ∨
  (∃ text, w.disk w.params.input = some text ∧ w'.disk = e.save w.disk out (e.renderCsx w.board text) ∧ w'.isUnsaved = false)

theorem saveCsxFile_did (e : Env β) (w : Files.Window β) (answers : List UserAction) :
    (saveCsxFile e w answers).1.board = w.board ∧ (saveCsxFile e w answers).1.params.input = w.params.input ∧
    SavedTo e w (saveCsxFile e w answers).1 w.params.output := by
  have hw : ∀ as : List UserAction,
      ∀ r, r = (match write e { w.params with format := .csx } w.board w.disk with
        | (true, d) => ({ w with params := { w.params with format := .csx }, disk := d, isUnsaved := false }, as)
        | (false, d) => ({ w with params := { w.params with format := .csx }, disk := d }, (answer as).2)) →
      r.1.board = w.board ∧ r.1.params.input = w.params.input ∧ SavedTo e w r.1 w.params.output := by
    rintro as r rfl
    unfold write SavedTo
    simp only
    cases hd : w.disk w.params.input with
    | none => exact ⟨rfl, rfl, Or.inl ⟨rfl, rfl⟩⟩
    | some text =>
      by_cases hl : e.loads text = true
      · simp only; rw [if_pos hl]
        exact ⟨rfl, rfl, Or.inr ⟨text, rfl, rfl, rfl⟩⟩
      · simp only; rw [if_neg hl]
        exact ⟨rfl, rfl, Or.inl ⟨rfl, rfl⟩⟩
  unfold saveCsxFile
  simp only
  split
  · split
    · exact hw _ _ rfl
    · exact ⟨rfl, rfl, Or.inl ⟨rfl, rfl⟩⟩
  · exact hw _ _ rfl

theorem onSave_did (e : Env β) (s : Session β) (b : β) (answers : List UserAction) :
    ∃ out, Target s out ∧ (onSave e (s.window b) answers).1.params.input = s.params.input ∧
      SavedTo e (s.window b) (onSave e (s.window b) answers).1 out := by
  unfold onSave
  by_cases h1 : (s.window b).params.output = ""
  · obtain ⟨-, h, h'⟩ := saveCsxFile_did e { s.window b with params := { s.params with output := s.csxFile } } answers
    refine ⟨s.csxFile, Or.inr ⟨h1, rfl⟩, ?_, ?_⟩
    · rw [if_pos h1]; exact h
    · rw [if_pos h1]; exact h'
  · refine ⟨s.params.output, Or.inl ⟨h1, rfl⟩, ?_⟩
    rw [if_neg h1]
    split
    · split
      · obtain ⟨-, h, h'⟩ := saveCsxFile_did e { s.window b with csxFile := s.params.output } (answer answers).2
        rename_i rest heq
        have : (answer answers).2 = rest := by rw [heq]
        rw [this] at h h'
        exact ⟨h, h'⟩
      · exact ⟨rfl, Or.inl ⟨rfl, rfl⟩⟩
    · obtain ⟨-, h, h'⟩ := saveCsxFile_did e (s.window b) answers
      exact ⟨h, h'⟩

theorem closeEvent_did (e : Env β) (s : Session β) (b : β) (answers : List UserAction) :
    ∃ out, Target s out ∧ (closeEvent e (s.window b) answers).2.params.input = s.params.input ∧
      SavedTo e (s.window b) (closeEvent e (s.window b) answers).2 out ∧
      ((closeEvent e (s.window b) answers).1 = false → (closeEvent e (s.window b) answers).2 = s.window b) := by
  obtain ⟨out0, ht, -⟩ := onSave_did e s b answers
  unfold closeEvent
  split
  · split
    · exact ⟨out0, ht, rfl, Or.inl ⟨rfl, rfl⟩, fun _ => rfl⟩
    · rename_i rest heq
      obtain ⟨out, ht, h, h'⟩ := onSave_did e s b rest
      exact ⟨out, ht, h, h', fun h => by cases h⟩
    · exact ⟨out0, ht, rfl, Or.inl ⟨rfl, rfl⟩, fun h => by cases h⟩
  · exact ⟨out0, ht, rfl, Or.inl ⟨rfl, rfl⟩, fun _ => rfl⟩

/-! ## The invariant -/

/-- The buttons are enabled when a document is shown, and the board and the input are those of this document. -/
def Shows (s : Session β) (doc : Option (β × String)) : Prop :=
  (s.isUnsaved = true → s.board.isSome) ∧
  match doc with
  | none => s.enabled = false
  | some (b, path) => s.enabled = true ∧ s.board = some b ∧ s.params.input = path

theorem parseAndDisplay_shows (e : Env β) (s : Session β) (h0 : s.csxFile ≠ "")
    (h : s.isUnsaved = true → s.board.isSome) : Shows (s.parseAndDisplay e) (opened e s.disk s.params.input) := by
  unfold Session.parseAndDisplay opened
  rw [if_neg h0]
  cases hp : (s.disk s.params.input).bind e.parse with
  | none => exact ⟨h, rfl⟩
  | some b => exact ⟨fun _ => rfl, rfl, rfl, rfl⟩

theorem became_shows {s : Session β} {b : β} {path : String} (h : Shows s (some (b, path))) {w : Files.Window β}
    (hw : w.params.input = s.params.input) : Shows (s.became w) (some (b, path)) := by
  obtain ⟨-, h1, h2, h3⟩ := h
  exact ⟨fun _ => by rw [Session.became]; simp [h2], h1, h2, hw.trans h3⟩

theorem act_shows {e : Env β} {s s' : Session β} {doc : Option (β × String)} {a : Act β} (h : Shows s doc) (hp : Possible s a)
    (hr : a.run e s = some s') : Shows s' (shownAfter e s.disk doc a) := by
  cases a with
  | opens path =>
    simp only [Act.run, Option.some.injEq] at hr
    subst hr
    exact parseAndDisplay_shows e { s with csxFile := path, params := { s.params with input := path } } hp h.1
  | changes f =>
    simp only [Act.run, Option.some.injEq] at hr
    subst hr
    cases doc with
    | none =>
      have := h.2
      simp only at this
      simpa [Session.changes, this, shownAfter] using h
    | some x =>
      obtain ⟨-, h1, h2, h3⟩ := h
      simp only [Session.changes, h1, if_true, shownAfter, Option.map_some]
      exact ⟨fun _ => by simp [h2], rfl, by simp [h2], h3⟩
  | saves answers =>
    cases doc with
    | none =>
      have := h.2
      simp only at this
      simp only [Act.run, Session.saves, this, Bool.false_eq_true, if_false, Option.some.injEq] at hr
      exact hr ▸ h
    | some x =>
      obtain ⟨h0, h1, h2, h3⟩ := h
      simp only [Act.run, Session.saves, h1, if_true, h2, Option.map_some, Option.some.injEq] at hr
      obtain ⟨out, -, hi, -⟩ := onSave_did e s x.1 answers
      exact hr ▸ became_shows ⟨h0, h1, h2, h3⟩ hi
  | savesAs path answers =>
    cases doc with
    | none =>
      have := h.2
      simp only at this
      simp only [Act.run, Session.savesAs, this, Bool.false_eq_true, if_false, Option.some.injEq] at hr
      exact hr ▸ h
    | some x =>
      obtain ⟨h0, h1, h2, h3⟩ := h
      simp only [Act.run, Session.savesAs, h1, if_true, h2, Option.map_some, Option.some.injEq] at hr
      obtain ⟨-, hi, -⟩ := saveCsxFile_did e
        { s.window x.1 with csxFile := path, params := { s.params with output := path } } answers
      exact hr ▸ became_shows ⟨h0, h1, h2, h3⟩ hi
  | exports path =>
    cases doc with
    | none =>
      have := h.2
      simp only at this
      simp only [Act.run, Session.exports, this, Bool.false_eq_true, if_false, Option.some.injEq] at hr
      exact hr ▸ h
    | some x =>
      obtain ⟨h0, h1, h2, h3⟩ := h
      simp only [Act.run, Session.exports, h1, if_true, h2, Option.map_some, Option.some.injEq] at hr
      subst hr
      exact ⟨fun _ => rfl, rfl, rfl, h3⟩
  | asksClosing answers =>
    simp only [Act.run] at hr
    split at hr
    · rename_i s1 hc
      cases hr
      unfold Session.closes at hc
      split at hc
      · rename_i b hb
        simp only [Option.some.injEq, Prod.mk.injEq] at hc
        obtain ⟨hc1, hc2⟩ := hc
        obtain ⟨out, -, -, -, hk⟩ := closeEvent_did e s b answers
        rw [hk hc1] at hc2
        subst hc2
        exact h
      · split at hc
        · cases hc
        · cases hc
    · cases hr
  | others d =>
    simp only [Act.run, Option.some.injEq] at hr
    subst hr
    exact h

theorem reached_shows {e : Env β} {alone : Bool} {p : Params} {d : Disk} {s : Session β} {doc : Option (β × String)}
    (h : Reached e alone p d s doc) : Shows s doc := by
  induction h with
  | started =>
    by_cases h0 : p.input = ""
    · rw [if_pos h0]
      have : Session.started e p d = Session.made p d := if_pos h0
      rw [this]
      exact ⟨fun h => (by cases h), rfl⟩
    · rw [if_neg h0]
      exact parseAndDisplay_shows e (Session.made p d) h0 (fun h => (by cases h))
  | did _ hp _ hr ih => exact act_shows ih hp hr

/-! ## C125 -/

theorem savedTo_onlyMeshed {e : Env β} (he : Exact e) {s : Session β} {b : β} {w : Files.Window β} {out path : String}
    (hi : s.params.input = path) (h : SavedTo e (s.window b) w out) : OnlyMeshed e b path out s.disk w.disk := by
  intro q hq
  rcases h with ⟨hd, -⟩ | ⟨text, ht, hd, -⟩
  · exact absurd (congrFun hd q) hq
  · rw [hd] at hq ⊢
    by_cases hqo : q = out
    · refine ⟨hqo, text, hi ▸ ht, ?_⟩
      simp [Env.save, hqo, he out]; rfl
    · simp [Env.save, hqo] at hq
      exact absurd rfl hq

/-- C125, partial. While a document is shown: opening a file and changing the board write nothing; what a save, or answering
save when closing, writes goes to one file, the output chosen last, or else the file opened, and that file then holds the
document shown, that is the text of the file it was opened from with the board shown; a save under a name goes to that name, and
a temporary file is the only one another program is given. While none is shown, changing and saving do nothing. No action
reads a board that is not there. Missing: that closing writes nothing when no document is shown, see `C125_false`. -/
theorem C125_partial {e : Env β} (he : Exact e) {alone : Bool} {p : Params} {d : Disk} {s : Session β}
    {doc : Option (β × String)} (h : Reached e alone p d s doc) :
    (∀ answers, (s.closes e answers).isSome ∧ (s.saves e answers).isSome ∧
      ∀ path, (s.savesAs e path answers).isSome ∧ (s.exports e path).isSome) ∧
    (∀ path, (s.opens e path).disk = s.disk) ∧ (∀ f, (s.changes f).disk = s.disk) ∧
    (∀ b path, doc = some (b, path) →
      (∀ answers s', s.saves e answers = some s' → ∃ out, Target s out ∧ OnlyMeshed e b path out s.disk s'.disk) ∧
      (∀ answers c s', s.closes e answers = some (c, s') → ∃ out, Target s out ∧ OnlyMeshed e b path out s.disk s'.disk) ∧
      (∀ name answers s', s.savesAs e name answers = some s' → OnlyMeshed e b path name s.disk s'.disk) ∧
      (∀ name s', s.exports e name = some s' → ∀ q, q ≠ name → s'.disk q = s.disk q)) ∧
    (doc = none → ∀ f answers path, s.changes f = s ∧ s.saves e answers = some s ∧ s.savesAs e path answers = some s ∧
      s.exports e path = some s) := by
  have hs := reached_shows h
  refine ⟨?_, ?_, ?_, ?_, ?_⟩
  · intro answers
    refine ⟨?_, ?_, fun path => ⟨?_, ?_⟩⟩
    · unfold Session.closes
      cases hb : s.board with
      | some b => rfl
      | none =>
        have := hs.1
        cases hu : s.isUnsaved with
        | true => simpa [hb] using this hu
        | false => rfl
    all_goals
      cases doc with
      | none =>
        have := hs.2
        simp only at this
        simp [Session.saves, Session.savesAs, Session.exports, this]
      | some x =>
        obtain ⟨-, h1, h2, -⟩ := hs
        simp [Session.saves, Session.savesAs, Session.exports, h1, h2]
  · intro path
    unfold Session.opens Session.parseAndDisplay
    split
    · rfl
    · split <;> rfl
  · intro f
    unfold Session.changes
    split <;> rfl
  · rintro b path rfl
    obtain ⟨-, h1, h2, h3⟩ := hs
    refine ⟨?_, ?_, ?_, ?_⟩
    · intro answers s' hr
      simp only [Session.saves, h1, if_true, h2, Option.map_some, Option.some.injEq] at hr
      obtain ⟨out, ht, -, hsv⟩ := onSave_did e s b answers
      exact ⟨out, ht, hr ▸ savedTo_onlyMeshed he h3 hsv⟩
    · intro answers c s' hr
      simp only [Session.closes, h2, Option.some.injEq, Prod.mk.injEq] at hr
      obtain ⟨out, ht, -, hsv, -⟩ := closeEvent_did e s b answers
      exact ⟨out, ht, hr.2 ▸ savedTo_onlyMeshed he h3 hsv⟩
    · intro name answers s' hr
      simp only [Session.savesAs, h1, if_true, h2, Option.map_some, Option.some.injEq] at hr
      obtain ⟨-, -, hsv⟩ := saveCsxFile_did e
        { s.window b with csxFile := name, params := { s.params with output := name } } answers
      have := savedTo_onlyMeshed (s := { s with csxFile := name, params := { s.params with output := name } }) he
        (show _ = path from h3) hsv
      exact hr ▸ this
    · intro name s' hr q hq
      simp only [Session.exports, h1, if_true, h2, Option.map_some, Option.some.injEq] at hr
      subst hr
      unfold write
      simp only
      split
      · simp [hq]
      · split
        · dsimp only
          rw [save_other e _ hq]; simp [hq]
        · simp [hq]
  · rintro rfl f answers path
    have := hs.2
    simp only at this
    simp [Session.changes, Session.saves, Session.savesAs, Session.exports, this]

/-- And saving does write, when the user agrees to what is asked: the file holds the document shown, and is the one named by
the window from then on. -/
theorem C125_written {e : Env β} (he : Exact e) {alone : Bool} {p : Params} {d : Disk} {s : Session β} {b : β} {path text : String}
    (h : Reached e alone p d s (some (b, path))) (ht : s.disk path = some text) (hl : e.loads text = true) :
    ∃ s' out, s.saves e [.save, .save] = some s' ∧ Target s out ∧ s'.disk out = some (e.renderCsx b text) ∧
      s'.csxFile = out ∧ s'.params.output = out ∧ s'.isUnsaved = false ∧
      Reached e alone p d s' (some (b, path)) := by
  obtain ⟨-, h1, h2, h3⟩ := reached_shows h
  have hsv : s.saves e [.save, .save] = some (s.became (onSave e (s.window b) [.save, .save]).1) := by
    simp [Session.saves, h1, h2]
  have hr : Reached e alone p d (s.became (onSave e (s.window b) [.save, .save]).1) (some (b, path)) :=
    Reached.did (a := .saves [.save, .save]) h trivial (fun _ _ hc => by cases hc) hsv
  have hi : s.disk s.params.input = some text := h3 ▸ ht
  -- what writing gives, whatever the name
  have hwr : ∀ (w : Files.Window β) (as : List UserAction), w.disk = s.disk → w.board = b → w.params.input = s.params.input →
      (as = [.save] ∨ as = [.save, .save]) → (saveCsxFile e w as).1.disk w.params.output = some (e.renderCsx b text) ∧
        (saveCsxFile e w as).1.csxFile = w.csxFile ∧ (saveCsxFile e w as).1.params.output = w.params.output ∧
        (saveCsxFile e w as).1.isUnsaved = false := by
    intro w as hd hb hin has
    have hw : write e { w.params with format := .csx } w.board w.disk =
        (true, e.save w.disk w.params.output (e.renderCsx b text)) := by
      simp [write, hd, hb, hin, hi, hl]
    unfold saveCsxFile
    simp only [hw]
    rcases has with rfl | rfl <;>
      by_cases ho : isAboutOverwriting e { w.params with format := .csx } (some w.board) w.disk = true <;>
      simp [ho, answer, Env.save, he w.params.output]
  by_cases ho : (s.window b).params.output = ""
  · obtain ⟨k1, k2, k3, k4⟩ := hwr { s.window b with params := { s.params with output := s.csxFile } } [.save, .save]
      rfl rfl rfl (Or.inr rfl)
    have : (onSave e (s.window b) [.save, .save]).1 =
        (saveCsxFile e { s.window b with params := { s.params with output := s.csxFile } } [.save, .save]).1 := by
      unfold onSave; rw [if_pos ho]; rfl
    exact ⟨_, s.csxFile, hsv, Or.inr ⟨ho, rfl⟩, by rw [this]; exact k1, by rw [this]; exact k2, by rw [this]; exact k3,
      by rw [this]; exact k4, hr⟩
  · by_cases hc : (s.window b).csxFile = (s.window b).params.output
    · obtain ⟨k1, k2, k3, k4⟩ := hwr (s.window b) [.save, .save] rfl rfl rfl (Or.inr rfl)
      have : (onSave e (s.window b) [.save, .save]).1 = (saveCsxFile e (s.window b) [.save, .save]).1 := by
        unfold onSave; rw [if_neg ho, if_neg (not_not_intro hc)]
      exact ⟨_, s.params.output, hsv, Or.inl ⟨ho, rfl⟩, by rw [this]; exact k1, by rw [this]; exact k2.trans hc,
        by rw [this]; exact k3, by rw [this]; exact k4, hr⟩
    · obtain ⟨k1, k2, k3, k4⟩ := hwr { s.window b with csxFile := s.params.output } [.save] rfl rfl rfl (Or.inl rfl)
      have : (onSave e (s.window b) [.save, .save]).1 =
          (saveCsxFile e { s.window b with csxFile := s.params.output } [.save]).1 := by
        unfold onSave; rw [if_neg ho, if_pos hc]; rfl
      exact ⟨_, s.params.output, hsv, Or.inl ⟨ho, rfl⟩, by rw [this]; exact k1, by rw [this]; exact k2,
        by rw [this]; exact k3, by rw [this]; exact k4, hr⟩

/-- Boards are texts; the text "bad" is no document (a document with cylindrical coordinates), and meshing adds a prime. -/
def textEnv : Env String :=
  { parse := fun t => if t = "bad" then none else some t, mesh := fun b => b ++ "'", hasGrid := fun _ => false
    loads := fun _ => true, renderCsx := fun b t => b ++ " in " ++ t, renderPlantuml := id, onWrite := fun _ => .written }

theorem textEnv_exact : Exact textEnv := fun _ => rfl

/-- Two files, the second of which is no document for the program. -/
def twoFiles : Disk := fun q => if q = "a" then some "A" else if q = "b" then some "bad" else if q = "c" then some "C" else none

/-- The program started without a file, then with one. -/
def bare : Params := ⟨"", "", false, .csx⟩
@[inherit_doc bare] def given : Params := ⟨"a", "a", false, .csx⟩

theorem bare_reached : Reached textEnv true bare twoFiles (Session.started textEnv bare twoFiles |>.opens textEnv "a")
    (some ("A'", "a")) :=
  Reached.did (a := .opens "a") Reached.started (show _ ≠ _ by decide) (fun _ _ h => by cases h) rfl

/-- Of `C125_partial` and `C125_written`: a document is shown, its file can be loaded, and saving it replaces that file. -/
example : ∃ s : Session String, Reached textEnv true bare twoFiles s (some ("A'", "a")) ∧ s.disk "a" = some "A" ∧
    textEnv.loads "A" = true ∧ (s.saves textEnv [.save]).map (fun s => s.disk "a") = some (some "A' in A") ∧
    (s.saves textEnv [.cancel]).map (fun s => s.disk "a") = some (some "A") :=
  ⟨_, bare_reached, by decide, rfl, by decide, by decide⟩

theorem saveCsxFile_names (e : Env β) (w : Files.Window β) (answers : List UserAction) :
    (saveCsxFile e w answers).1.csxFile = w.csxFile ∧ (saveCsxFile e w answers).1.params.output = w.params.output := by
  unfold saveCsxFile
  dsimp only
  split
  · split
    · split <;> exact ⟨rfl, rfl⟩
    · exact ⟨rfl, rfl⟩
  · split <;> exact ⟨rfl, rfl⟩

theorem onSave_target (e : Env β) (s : Session β) (b : β) (answers : List UserAction) (out : String) :
    Target (s.became (onSave e (s.window b) answers).1) out ↔ Target s out := by
  unfold onSave
  split
  · rename_i h
    have h : s.params.output = "" := h
    obtain ⟨h1, h2⟩ := saveCsxFile_names e { s.window b with params := { (s.window b).params with output := (s.window b).csxFile } } answers
    have h1 : _ = s.csxFile := h1
    have h2 : _ = s.csxFile := h2
    simp only [Target, Session.became, h1, h2, h, ne_eq, not_true_eq_false, false_and, true_and, false_or]
    by_cases hc : s.csxFile = "" <;> simp [hc]
  · rename_i h
    split
    · split
      · obtain ⟨h1, h2⟩ := saveCsxFile_names e { s.window b with csxFile := (s.window b).params.output } (by assumption)
        simp only [Target, Session.became, h1, h2]
        have h : s.params.output ≠ "" := h
        simp [Session.window, h]
      · rfl
    · obtain ⟨h1, h2⟩ := saveCsxFile_names e (s.window b) answers
      simp only [Target, Session.became, h1, h2]
      rfl

/-- Which file the next save goes to: the output of the command line, or the one chosen with save as since, else the file opened. A
save, a change, and the document given to another program leave it as it was, and so does an attempt at closing. -/
theorem C125_chosen (e : Env β) (s : Session β) (out : String) :
    (∀ path, Target (s.opens e path) out ↔
      (s.params.output ≠ "" ∧ out = s.params.output) ∨ (s.params.output = "" ∧ out = path)) ∧
    (∀ f, Target (s.changes f) out ↔ Target s out) ∧
    (∀ answers s', s.saves e answers = some s' → (Target s' out ↔ Target s out)) ∧
    (∀ path answers s', path ≠ "" → s.enabled = true → s.savesAs e path answers = some s' → (Target s' out ↔ out = path)) ∧
    (∀ path s', s.exports e path = some s' → (Target s' out ↔ Target s out)) ∧
    ∀ answers c s', s.closes e answers = some (c, s') → (Target s' out ↔ Target s out) := by
  refine ⟨fun path => ?_, fun f => ?_, fun answers s' h => ?_, fun path answers s' hp he h => ?_, fun path s' h => ?_,
    fun answers c s' h => ?_⟩
  · unfold Session.opens Session.parseAndDisplay
    dsimp only
    split
    · rename_i h; subst h; rfl
    · split <;> rfl
  · unfold Session.changes
    split <;> rfl
  · unfold Session.saves at h
    split at h
    · obtain ⟨b, -, rfl⟩ := Option.map_eq_some_iff.mp h
      exact onSave_target e s b answers out
    · cases h; rfl
  · unfold Session.savesAs at h
    rw [if_pos he] at h
    obtain ⟨b, -, rfl⟩ := Option.map_eq_some_iff.mp h
    obtain ⟨h1, h2⟩ := saveCsxFile_names e { s.window b with csxFile := path, params := { s.params with output := path } } answers
    simp only [Target, Session.became, h1, h2]
    simp [hp]
  · unfold Session.exports at h
    split at h
    · obtain ⟨b, -, rfl⟩ := Option.map_eq_some_iff.mp h
      rfl
    · cases h; rfl
  · unfold Session.closes at h
    split at h
    · cases h
      unfold closeEvent
      split
      · split
        · rfl
        · exact onSave_target e s _ _ out
        · rfl
      · rfl
    · split at h
      · cases h
      · cases h; rfl

/-- A file is opened, saved under another name and given to another program: the next save goes to that name. -/
example : ∃ s' s'' : Session String,
    ((Session.started textEnv bare twoFiles).opens textEnv "a").savesAs textEnv "new" [] = some s' ∧
    s'.exports textEnv "tmp" = some s'' ∧ Target s'' "new" :=
  ⟨_, _, rfl, rfl, Or.inl ⟨by decide, rfl⟩⟩

/-- C125 is false. A document is open, then a file is opened that the program refuses: it shows nothing, but still asks whether
to save when it is closed. If the user agrees, the mesh of the first document is written into the file refused. Started with
the first document on the command line, it is this document that is replaced, by the file refused with that mesh. -/
theorem C125_false :
    (∃ s : Session String, Reached textEnv true bare twoFiles s none ∧ s.disk "b" = some "bad" ∧
      ∃ s', s.closes textEnv [.save, .save] = some (true, s') ∧ s'.disk "b" = some "A' in bad") ∧
    (∃ s : Session String, Reached textEnv true given twoFiles s none ∧ s.disk "a" = some "A" ∧
      ∃ s', s.closes textEnv [.save, .save, .save] = some (true, s') ∧ s'.disk "a" = some "A' in bad") := by
  constructor
  · refine ⟨_, Reached.did (a := .opens "b") bare_reached (show _ ≠ _ by decide) (fun _ _ h => by cases h) rfl, by decide, _, rfl,
      by decide⟩
  · refine ⟨_, Reached.did (a := .opens "b") (Reached.started (e := textEnv) (p := given) (d := twoFiles)) (show _ ≠ _ by decide)
      (fun _ _ h => by cases h) rfl, by decide, _, rfl, by decide⟩

/-! ## C126 -/

theorem kept_save {e : Env β} (he : Exact e) {b : β} {d : Disk} (h : Kept e b d) (out text : String) :
    Kept e b (e.save d out (e.renderCsx b text)) := by
  obtain ⟨q, t, hq⟩ := h
  by_cases hqo : q = out
  · exact ⟨out, text, by simp [Env.save, he out]⟩
  · exact ⟨q, t, by rw [save_other e d hqo]; exact hq⟩

theorem savedTo_kept {e : Env β} (he : Exact e) {w w' : Files.Window β} {out : String} (h : SavedTo e w w' out)
    (hk : w.isUnsaved = false → Kept e w.board w.disk) (hu : w'.isUnsaved = false) : Kept e w.board w'.disk := by
  rcases h with ⟨hd, hu'⟩ | ⟨text, -, hd, -⟩
  · rw [hd]; exact hk (hu' ▸ hu)
  · exact ⟨out, text, by rw [hd]; simp [Env.save, he out]⟩

theorem reached_kept {e : Env β} (he : Exact e) {p : Params} {d : Disk} {s : Session β} {doc : Option (β × String)}
    (h : Reached e true p d s doc) : ∀ b path, doc = some (b, path) → s.isUnsaved = false → Kept e b s.disk := by
  have hopen : ∀ (s : Session β) (b : β) (path : String), s.csxFile ≠ "" →
      opened e s.disk s.params.input = some (b, path) → (s.parseAndDisplay e).isUnsaved = false → False := by
    intro s b path h0 hd hu
    unfold Session.parseAndDisplay at hu
    rw [if_neg h0] at hu
    unfold opened at hd
    cases hp : (s.disk s.params.input).bind e.parse with
    | none => rw [hp] at hd; cases hd
    | some b => rw [hp] at hu; cases hu
  induction h with
  | started =>
    intro b path hd hu
    by_cases h0 : p.input = ""
    · rw [if_pos h0] at hd; cases hd
    · rw [if_neg h0] at hd
      exact (hopen (Session.made p d) b path h0 hd hu).elim
  | @did s s' doc a h hp ha hr ih =>
    intro b path hd hu
    have hs := reached_shows h
    cases a with
    | opens name =>
      simp only [Act.run, Option.some.injEq] at hr
      subst hr
      exact (hopen { s with csxFile := name, params := { s.params with input := name } } b path hp hd hu).elim
    | changes f =>
      simp only [Act.run, Option.some.injEq] at hr
      subst hr
      cases doc with
      | none => cases hd
      | some x =>
        rw [Session.changes, if_pos hs.2.1] at hu
        cases hu
    | saves answers =>
      obtain rfl : doc = some (b, path) := hd
      obtain ⟨-, h1, h2, h3⟩ := hs
      simp only [Act.run, Session.saves, h1, if_true, h2, Option.map_some, Option.some.injEq] at hr
      subst hr
      obtain ⟨out, -, -, hsv⟩ := onSave_did e s b answers
      exact savedTo_kept he hsv (ih b path rfl) hu
    | savesAs name answers =>
      obtain rfl : doc = some (b, path) := hd
      obtain ⟨-, h1, h2, h3⟩ := hs
      simp only [Act.run, Session.savesAs, h1, if_true, h2, Option.map_some, Option.some.injEq] at hr
      subst hr
      obtain ⟨-, -, hsv⟩ := saveCsxFile_did e
        { s.window b with csxFile := name, params := { s.params with output := name } } answers
      exact savedTo_kept he hsv (ih b path rfl) hu
    | exports name =>
      obtain rfl : doc = some (b, path) := hd
      obtain ⟨-, h1, h2, h3⟩ := hs
      simp only [Act.run, Session.exports, h1, if_true, h2, Option.map_some, Option.some.injEq] at hr
      subst hr
      obtain ⟨q, t, hq⟩ := ih b path rfl hu
      have hne : q ≠ name := by
        rintro rfl
        rw [show s.disk q = none from hp] at hq
        cases hq
      refine ⟨q, t, ?_⟩
      unfold write
      simp only
      split
      · simpa [hne] using hq
      · split
        · dsimp only
          rw [save_other e _ hne]; simpa [hne] using hq
        · simpa [hne] using hq
    | asksClosing answers =>
      obtain rfl : doc = some (b, path) := hd
      simp only [Act.run] at hr
      split at hr
      · rename_i s1 hc
        cases hr
        unfold Session.closes at hc
        rw [hs.2.2.1] at hc
        simp only [Option.some.injEq, Prod.mk.injEq] at hc
        obtain ⟨hc1, hc2⟩ := hc
        obtain ⟨out, -, -, -, hk⟩ := closeEvent_did e s b answers
        rw [hk hc1] at hc2
        subst hc2
        exact ih b path rfl hu
      · cases hr
    | others d' => exact absurd rfl (ha rfl d')

/-- C126, partial. When no other program writes files, a document that the window does not consider as unsaved is in some
file with its board as shown, and closing then asks nothing and changes nothing; when it is unsaved the window asks before
closing, and cancelling keeps everything; a document just opened or changed is unsaved. Missing: that the file is the one
the window names, and that opening another file asks too, see `C126_false`. -/
theorem C126_partial {e : Env β} (he : Exact e) {p : Params} {d : Disk} {s : Session β} {b : β} {path : String}
    (h : Reached e true p d s (some (b, path))) :
    (s.isUnsaved = false → Kept e b s.disk ∧ ∀ answers, s.closes e answers = some (true, s)) ∧
    (s.isUnsaved = true → ∀ answers, s.closes e (.cancel :: answers) = some (false, s)) ∧
    (∀ f, (s.changes f).isUnsaved = true) ∧
    (∀ name, name ≠ "" → (opened e s.disk name).isSome → (s.opens e name).isUnsaved = true) := by
  obtain ⟨-, h1, h2, h3⟩ := reached_shows h
  refine ⟨fun hu => ⟨reached_kept he h b path rfl hu, fun answers => ?_⟩, fun hu answers => ?_, fun f => ?_, fun name hn hd => ?_⟩
  · simp [Session.closes, h2, closeEvent, Session.window, hu, Session.became]
    cases s; simp_all
  · simp [Session.closes, h2, closeEvent, Session.window, hu, Session.became, answer]
    cases s; simp_all
  · simp [Session.changes, h1]
  · unfold opened at hd
    unfold Session.opens Session.parseAndDisplay
    rw [if_neg hn]
    cases hp : (s.disk name).bind e.parse with
    | none => rw [hp] at hd; cases hd
    | some b => simp only [hp]

/-- The window after a file was opened and saved over itself. -/
theorem saved_reached : ∃ s, Reached textEnv true bare twoFiles s (some ("A'", "a")) ∧ s.isUnsaved = false ∧
    s.disk "a" = some "A' in A" ∧ s.disk "c" = some "C" ∧ s.params = ⟨"a", "a", false, .csx⟩ ∧ s.enabled = true ∧
    s.board = some "A'" :=
  ⟨_, Reached.did (a := .saves [.save]) bare_reached trivial (fun _ _ h => by cases h) rfl, by decide, by decide, by decide,
    rfl, rfl, rfl⟩

/-- Of `C126_partial`: a document that is saved, and one that is not. -/
example : (∃ s, Reached textEnv true bare twoFiles s (some ("A'", "a")) ∧ s.isUnsaved = false) ∧
    (∃ s, Reached textEnv true bare twoFiles s (some ("A'", "a")) ∧ s.isUnsaved = true) :=
  ⟨(let ⟨s, h, hu, _⟩ := saved_reached; ⟨s, h, hu⟩), ⟨_, bare_reached, rfl⟩⟩

/-- C126 is false. A document is edited, and another file opened: nothing is asked, no file holds the edited document, and it is
no longer shown. A document is saved, then saved under the name of another file, which the user declines to overwrite: the
window names this file from then on and closes without a question, though the file does not hold the document. -/
theorem C126_false :
    (∃ s : Session String, Reached textEnv true bare twoFiles s (some ("edited", "a")) ∧ s.isUnsaved = true ∧
      Reached textEnv true bare twoFiles (s.opens textEnv "c") (some ("C'", "c")) ∧
      ¬ Kept textEnv "edited" (s.opens textEnv "c").disk) ∧
    (∃ s : Session String, Reached textEnv true bare twoFiles s (some ("A'", "a")) ∧ s.csxFile = "c" ∧ s.params.output = "c" ∧
      s.disk "c" = some "C" ∧ s.closes textEnv [] = some (true, s)) := by
  constructor
  · have h1 := Reached.did (a := .changes fun _ => "edited") bare_reached trivial (fun _ _ h => by cases h) rfl
    refine ⟨_, h1, rfl, Reached.did (a := .opens "c") h1 (show _ ≠ _ by decide) (fun _ _ h => by cases h) rfl, ?_⟩
    rintro ⟨q, t, hq⟩
    have hlen : ∀ c, twoFiles q = some c → c.length ≤ 3 := by
      intro c hc
      unfold twoFiles at hc
      split_ifs at hc <;> cases hc <;> decide
    have := hlen _ hq
    have h4 : ("edited" : String).length = 6 := by decide
    simp only [textEnv, String.length_append] at this
    omega
  · obtain ⟨s, h, hu, ha, hc, hp, he, hb⟩ := saved_reached
    obtain ⟨csx, uns, p, bd, en, dk⟩ := s
    simp only at hu ha hc hp he hb
    subst hu hp he hb
    have hd : (dk "c").isSome = true := by rw [hc]; rfl
    have hr : (Act.savesAs "c" [.cancel]).run textEnv ⟨csx, false, ⟨"a", "a", false, .csx⟩, some "A'", true, dk⟩ =
        some ⟨"c", false, ⟨"a", "c", false, .csx⟩, some "A'", true, dk⟩ := by
      simp [Act.run, Session.savesAs, Session.window, Session.became, saveCsxFile, isAboutOverwriting, hd, answer]
    exact ⟨_, Reached.did (a := .savesAs "c" [.cancel]) h (show "c" ≠ "" by decide) (fun _ _ h => by cases h) hr, rfl, rfl, hc, rfl⟩

end Verif.Props
