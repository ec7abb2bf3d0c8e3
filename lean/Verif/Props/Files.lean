import Verif.Model.Files
import Mathlib.Tactic.SplitIfs

/-! # C17-C19: files -/

namespace Verif.Props
open Verif Files

variable {β : Type}

theorem save_other (e : Env β) (d : Disk) {path q text : String} (h : q ≠ path) : e.save d path text q = d q := by
  simp [Env.save, h]

/-! ## C17 -/

/-- C17, partial. Without `--force`, the command line program changes no file that existed, unless the output
format is PLANTUML. Missing: that format, see `C17_false`. -/
theorem C17_no_overwrite_partial (e : Env β) (p : Params) (d : Disk) (hforce : p.force = false)
    (hformat : p.format ≠ .plantuml) (path content : String) (h : d path = some content) :
    (main e p d).2 path = some content := by
  unfold main
  split
  · exact h
  · rename_i board hb
    split
    · exact h
    · rename_i ho
      unfold write
      split
      · rename_i hf
        split
        · exact h
        · split
          · simp only [isAboutOverwriting, hforce, hf, Bool.not_false, beq_self_eq_true, Bool.true_and,
              Bool.or_eq_true, not_or] at ho
            have : path ≠ p.output := by
              rintro rfl
              simp [h] at ho
            simp only
            rw [save_other e d this]; exact h
          · exact h
      · rename_i hf; exact absurd hf hformat
      · exact h

/-- Everything works: parsing always succeeds, rendering gives "mesh", writing succeeds. -/
def goodEnv : Env Unit :=
  { parse := fun _ => some (), mesh := id, hasGrid := fun _ => false, loads := fun _ => true
    renderCsx := fun _ t => t ++ "+mesh", renderPlantuml := fun _ => "plantuml", onWrite := fun _ => .written }

/-- A disk with an input file and another file. -/
def sampleDisk : Disk := fun p => if p = "in" then some "csx" else if p = "old" then some "precious" else none

example : (main goodEnv ⟨"in", "out", false, .csx⟩ sampleDisk).1 = true ∧
    (main goodEnv ⟨"in", "out", false, .csx⟩ sampleDisk).2 "old" = some "precious" ∧
    (main goodEnv ⟨"in", "out", false, .csx⟩ sampleDisk).2 "out" = some "csx+mesh" ∧
    (main goodEnv ⟨"in", "old", false, .csx⟩ sampleDisk).1 = false := by decide

/-- C17 is false: with the PLANTUML format and no output given, the input file is replaced by a diagram,
without `--force`. -/
theorem C17_false : ∃ (e : Env Unit) (p : Params) (d : Disk), p.force = false ∧ p.output = "" ∧
    (main e (finalCallback p) d).1 = true ∧ d p.input = some "csx" ∧
    (main e (finalCallback p) d).2 p.input = some "plantuml" :=
  ⟨goodEnv, ⟨"in", "", false, .plantuml⟩, sampleDisk, rfl, rfl, by decide, by decide, by decide⟩

/-- With `--force`, or when there is no such file yet, the program does write its output: consent is not asked for when
it was given, or when nothing would be lost. -/
theorem C17_written (e : Env β) (p : Params) (d : Disk) {text : String} {board : β} (hi : d p.input = some text)
    (hp : e.parse text = some board) (hl : e.loads text = true) (hf : p.format = .csx)
    (hc : p.force = true ∨ d p.output = none) (hw : e.onWrite p.output = .written) :
    (main e p d).1 = true ∧ (main e p d).2 p.output = some (e.renderCsx (e.mesh board) text) := by
  have ho : isAboutOverwriting e p (some board) d = false := by
    rcases hc with hc | hc
    · simp [isAboutOverwriting, hc]
    · have : p.input ≠ p.output := fun h => by rw [h, hc] at hi; cases hi
      simp [isAboutOverwriting, hc, this]
  simp [main, hi, hp, ho, write, hf, hl, Env.save, hw]

example : sampleDisk "in" = some "csx" ∧ goodEnv.parse "csx" = some () ∧ goodEnv.loads "csx" = true ∧
    (main goodEnv ⟨"in", "old", true, .csx⟩ sampleDisk).2 "old" = some "csx+mesh" := by decide

theorem saveCsxFile_keeps (e : Env β) (w : Window β) (answers : List UserAction) (hforce : w.params.force = false)
    (ha : UserAction.save ∉ answers) {path content : String} (h : w.disk path = some content) :
    (saveCsxFile e w answers).1.disk path = some content := by
  unfold saveCsxFile
  simp only
  split
  · cases answers with
    | nil => exact h
    | cons a as =>
      cases a <;> first | exact absurd (List.mem_cons_self ..) ha | exact h
  · rename_i ho
    have hne : path ≠ w.params.output := by
      rintro rfl
      simp [isAboutOverwriting, hforce, h] at ho
    cases ht : w.disk w.params.input with
    | none => simpa [write, ht] using h
    | some text =>
      by_cases hl : e.loads text = true
      · simp only [write, ht, hl, if_true]
        rw [save_other e _ hne]
        exact h
      · simpa [write, ht, hl] using h

/-- In the window too, a file that existed only changes if the user answered "save" to a question, unless the program was
started with `--force`. -/
theorem C17_window (e : Env β) (w : Window β) (answers : List UserAction) (hforce : w.params.force = false)
    (ha : UserAction.save ∉ answers) {path content : String} (h : w.disk path = some content) :
    (onSave e w answers).1.disk path = some content ∧ (closeEvent e w answers).2.disk path = some content := by
  constructor
  · unfold onSave
    split_ifs
    · exact saveCsxFile_keeps e { w with params := { w.params with output := w.csxFile } } answers hforce ha h
    · cases answers with
      | nil => exact h
      | cons a as => cases a <;> first | exact absurd (List.mem_cons_self ..) ha | exact h
    · exact saveCsxFile_keeps e w answers hforce ha h
  · unfold closeEvent
    split_ifs
    · cases answers with
      | nil => exact h
      | cons a as => cases a <;> first | exact absurd (List.mem_cons_self ..) ha | exact h
    · exact h

example : UserAction.save ∉ [UserAction.cancel] ∧ sampleDisk "in" = some "csx" ∧
    (onSave goodEnv ⟨"in", true, ⟨"in", "in", false, .csx⟩, (), sampleDisk⟩ [.save]).1.disk "in" = some "csx+mesh" := by
  decide

/-! ## C18 -/

/-- C18, partial. When the program exits with success and the disk accepts the whole text, the output file
holds the rendered board. When the input cannot be parsed or loaded again, it does not exit with success and
changes nothing. Missing: a disk that does not accept the text, see `C18_false`. -/
theorem C18_success_means_saved_partial (e : Env β) (p : Params) (d : Disk) :
    ((main e p d).1 = true → e.onWrite p.output = .written →
      (∃ text board, d p.input = some text ∧ e.parse text = some board ∧
        (p.format = .csx → (main e p d).2 p.output = some (e.renderCsx (e.mesh board) text)) ∧
        (p.format = .plantuml → (main e p d).2 p.output = some (e.renderPlantuml (e.mesh board))))) ∧
    ((main e p d).1 = false → (main e p d).2 = d) := by
  constructor
  · intro hs hw
    unfold main at hs ⊢
    split at hs
    · cases hs
    · rename_i board hb
      obtain ⟨text, ht, hp⟩ := Option.bind_eq_some_iff.mp hb
      refine ⟨text, board, ht, hp, ?_, ?_⟩
      · intro hf
        split at hs
        · cases hs
        · rename_i ho
          simp only [write, hf, ht] at hs ⊢
          by_cases hl : e.loads text = true
          · simp [ho, hl, Env.save, hw]
          · simp [hl] at hs
      · intro hf
        split at hs
        · cases hs
        · rename_i ho
          simp only [write, hf] at hs ⊢
          simp [ho, Env.save, hw]
  · intro hs
    unfold main at hs ⊢
    split
    · rfl
    · rename_i board hb
      obtain ⟨text, ht, hp⟩ := Option.bind_eq_some_iff.mp hb
      simp only [hb] at hs
      split
      · rfl
      · rename_i ho
        simp only [ho] at hs
        unfold write at hs ⊢
        simp only [ht] at hs ⊢
        cases hf : p.format <;> simp only [hf] at hs ⊢
        · by_cases hl : e.loads text = true
          · simp [hl] at hs
          · simp [hl]
        · simp at hs

example : (main goodEnv ⟨"in", "out", false, .csx⟩ sampleDisk).1 = true ∧ goodEnv.onWrite "out" = .written :=
  ⟨by decide, rfl⟩

/-- C18 is false: with a disk that refuses to open the output, or is full, the program exits with success
and the output file does not hold the board. -/
theorem C18_false : ∀ o : WriteOutcome, o = .notOpened ∨ o = .truncated "" →
    ∃ (e : Env Unit) (p : Params) (d : Disk), (main e p d).1 = true ∧ p.format = .csx ∧ e.onWrite p.output = o ∧
      (main e p d).2 p.output ≠ some (e.renderCsx () "csx") := by
  rintro o (rfl | rfl)
  · exact ⟨{ goodEnv with onWrite := fun _ => .notOpened }, ⟨"in", "out", false, .csx⟩, sampleDisk,
      by decide, rfl, rfl, by decide⟩
  · exact ⟨{ goodEnv with onWrite := fun _ => .truncated "" }, ⟨"in", "out", false, .csx⟩, sampleDisk,
      by decide, rfl, rfl, by decide⟩

/-! ## C19 -/

/-- Saving from the window ended with the document marked as saved: it is on the disk. -/
theorem saveCsxFile_spec (e : Env β) (w : Window β) (answers : List UserAction) (hu : w.isUnsaved = true)
    (hw : e.onWrite w.params.output = .written) (hs : (saveCsxFile e w answers).1.isUnsaved = false) :
    (saveCsxFile e w answers).1.params.output = w.params.output ∧
    ∃ text, w.disk w.params.input = some text ∧
      (saveCsxFile e w answers).1.disk w.params.output = some (e.renderCsx w.board text) := by
  unfold saveCsxFile at hs ⊢
  cases ht : w.disk w.params.input with
  | none =>
    exfalso
    simp only [write, ht] at hs
    split at hs
    · split at hs <;> simp [hu] at hs
    · simp [hu] at hs
  | some text =>
    by_cases hl : e.loads text = true
    · simp only [write, ht, hl, if_true] at hs ⊢
      split
      · rename_i ho
        rw [if_pos ho] at hs
        split
        · exact ⟨rfl, text, rfl, by simp [Env.save, hw]⟩
        · rename_i a rest hna heq
          simp only [heq] at hs
          simp [hu] at hs
      · exact ⟨rfl, text, rfl, by simp [Env.save, hw]⟩
    · exfalso
      simp only [write, ht, hl] at hs
      split at hs
      · split at hs <;> simp [hu] at hs
      · simp [hu] at hs

/-- C19, partial. Answering "cancel" keeps the window open with nothing changed; a document without unsaved
change closes without a question; answering "save" closes the window, and if the window then considers the
document as saved (no cancelled question, no reported error) and the disk accepts the text, the output file
holds the rendered board. Missing: closing only if saved, which is false, see `C19_false`. -/
theorem C19_close_partial (e : Env β) (w : Window β) (answers : List UserAction) :
    (w.isUnsaved = false → closeEvent e w answers = (true, w)) ∧
    (w.isUnsaved = true → answers.head? = some .cancel → closeEvent e w answers = (false, w)) ∧
    (w.isUnsaved = true → answers.head? = some .save → (closeEvent e w answers).2.isUnsaved = false →
      (∀ p, e.onWrite p = .written) → ∃ text out, w.disk w.params.input = some text ∧
        (out = w.params.output ∨ (w.params.output = "" ∧ out = w.csxFile)) ∧
        (closeEvent e w answers).2.disk out = some (e.renderCsx w.board text)) := by
  refine ⟨fun h => by simp [closeEvent, h], ?_, ?_⟩
  · intro h ha
    cases answers with
    | nil => cases ha
    | cons a as =>
      simp only [List.head?_cons, Option.some.injEq] at ha
      subst ha
      simp [closeEvent, h, answer]
  · intro h ha hs hw
    cases answers with
    | nil => cases ha
    | cons a as =>
      simp only [List.head?_cons, Option.some.injEq] at ha
      subst ha
      rw [closeEvent, if_pos h] at hs ⊢
      simp only [answer, onSave] at hs ⊢
      by_cases h1 : w.params.output = ""
      · rw [if_pos h1] at hs ⊢
        obtain ⟨_, text, h2, h3⟩ := saveCsxFile_spec e
          { w with params := { w.params with output := w.csxFile } } as h (hw _) hs
        exact ⟨text, w.csxFile, h2, Or.inr ⟨h1, rfl⟩, h3⟩
      · rw [if_neg h1] at hs ⊢
        by_cases h2 : w.csxFile = w.params.output
        · rw [if_neg (not_not_intro h2)] at hs ⊢
          obtain ⟨_, text, h3, h4⟩ := saveCsxFile_spec e w as h (hw _) hs
          exact ⟨text, w.params.output, h3, Or.inl rfl, h4⟩
        · rw [if_pos h2] at hs ⊢
          cases as with
          | nil => simp [h] at hs
          | cons a as =>
            by_cases ha : a = .save
            · subst ha
              simp only at hs ⊢
              obtain ⟨_, text, h3, h4⟩ := saveCsxFile_spec e { w with csxFile := w.params.output } as h (hw _) hs
              exact ⟨text, w.params.output, h3, Or.inl rfl, h4⟩
            · exfalso
              cases a <;> simp [h] at hs ha

/-- A window with unsaved work on a file that exists. -/
def sampleWindow : Window Unit := ⟨"in", true, ⟨"in", "in", false, .csx⟩, (), sampleDisk⟩

example : sampleWindow.isUnsaved = true ∧ (closeEvent goodEnv sampleWindow [.save, .save]).2.isUnsaved = false ∧
    (closeEvent goodEnv sampleWindow [.save, .save]).2.disk "in" = some "csx+mesh" := by decide

/-- C19 is false: the user asks to save before closing, declines to overwrite the existing file, and the window
closes: the work is lost. -/
theorem C19_false : ∃ (e : Env Unit) (w : Window Unit), w.isUnsaved = true ∧
    (closeEvent e w [.save, .cancel]).1 = true ∧ (closeEvent e w [.save, .cancel]).2.isUnsaved = true ∧
    (closeEvent e w [.save, .cancel]).2.disk = w.disk :=
  ⟨goodEnv, sampleWindow, rfl, rfl, rfl, rfl⟩

end Verif.Props
