import Verif.Model.Api
import Verif.Spec.Session

/-! # C157, C158: the Python interface -/

namespace Verif.Props
open Verif Files
open Verif.Files.Spec

variable {β : Type}

/-- Run without an output of its own, `run_openemsh` reads back what was meshed: when it returns, the text is that of the structure
with the mesh of its board, it is what the file holds, and no other file changed. It raises when the structure is no document, and
unless `--force` is given; the file then holds the structure as it was. What is missing: an output of its own, `C157_output`. -/
theorem C157_partial {e : Env β} (he : Exact e) {xml csxFile : String} {force written : Bool} {d d' : Disk} {r : Option String}
    (hr : runOpenemsh e xml written csxFile ⟨"", force, .csx⟩ d = (r, d')) :
    (∀ text, r = some text → ∃ b, e.parse xml = some b ∧ text = e.renderCsx (e.mesh b) xml ∧ d' csxFile = some text) ∧
    (∀ q, q ≠ csxFile → d' q = d q) ∧ (written = true → r = none → d' csxFile = some xml) ∧
    (r ≠ none ↔ written = true ∧ force = true ∧ (∃ b, e.parse xml = some b) ∧ e.loads xml = true) := by
  unfold runOpenemsh at hr
  cases written with
  | false =>
    simp only [Bool.false_eq_true, if_false, Prod.mk.injEq] at hr
    obtain ⟨rfl, rfl⟩ := hr
    exact ⟨fun _ h => (nomatch h), fun _ _ => rfl, by simp, by simp⟩
  | true =>
    simp only [if_true, Args.params, finalCallback, main, Option.bind_some] at hr
    cases hp : e.parse xml with
    | none =>
      simp only [hp, Prod.mk.injEq] at hr
      obtain ⟨rfl, rfl⟩ := hr
      exact ⟨fun _ h => (nomatch h), fun q hq => by simp [hq], by simp, by simp⟩
    | some b =>
      simp only [hp] at hr
      cases force with
      | false =>
        simp [isAboutOverwriting] at hr
        obtain ⟨rfl, rfl⟩ := hr
        exact ⟨fun _ h => (nomatch h), fun q hq => by simp [hq], by simp, by simp⟩
      | true =>
        simp only [isAboutOverwriting, Bool.not_true, Bool.false_and, Bool.false_eq_true, if_false, write, if_true] at hr
        by_cases hl : e.loads xml = true
        · simp only [hl, if_true, Prod.mk.injEq] at hr
          obtain ⟨rfl, rfl⟩ := hr
          simp only [Env.save, he csxFile, if_true]
          refine ⟨fun text h => ⟨b, rfl, (Option.some.inj h).symm, h⟩, fun q hq => by simp [hq], by simp, by simp [hl]⟩
        · simp only [hl, Bool.false_eq_true, if_false, Prod.mk.injEq] at hr
          obtain ⟨rfl, rfl⟩ := hr
          exact ⟨fun _ h => (nomatch h), fun q hq => by simp [hq], by simp, by simp [hl]⟩

/-- Run with another output, it returns the structure as it was, without its mesh. -/
theorem C157_output {e : Env β} {xml csxFile out text : String} {force written : Bool} {f : Format} {d d' : Disk}
    (ho : out ≠ "") (hne : out ≠ csxFile) (hr : runOpenemsh e xml written csxFile ⟨out, force, f⟩ d = (some text, d')) :
    text = xml ∧ d' csxFile = some xml := by
  have hs : ∀ (d : Disk) (t : String), e.save d out t csxFile = d csxFile := fun d t => by simp [Env.save, hne.symm]
  unfold runOpenemsh at hr
  cases written with
  | false => simp at hr
  | true =>
    simp only [if_true, Args.params, finalCallback, ho, if_false, main, Option.bind_some] at hr
    cases hp : e.parse xml with
    | none => simp [hp] at hr
    | some b =>
      simp only [hp] at hr
      split at hr
      · rename_i d2 hm
        split at hm
        · cases hm
        · have hd : d2 csxFile = some xml := by
            cases f with
            | csx =>
              simp only [write, if_true] at hm
              split at hm
              · cases hm
                rw [hs, if_pos rfl]
              · cases hm
            | plantuml =>
              simp only [write] at hm
              cases hm
              rw [hs, if_pos rfl]
            | prettyprint =>
              simp only [write] at hm
              cases hm
              exact if_pos rfl
          simp only [hd, Prod.mk.injEq, Option.some.injEq] at hr
          obtain ⟨h1, rfl⟩ := hr
          exact ⟨h1.symm, hd⟩
      · cases hr

/-- Documents that are their own text, and a mesh that shows. -/
def apiEnv : Env String :=
  { parse := fun t => if t = "bad" then none else some t, mesh := fun b => b ++ "'", hasGrid := fun _ => false
    loads := fun _ => true, renderCsx := fun b _ => b, renderPlantuml := id, onWrite := fun _ => .written }

/-- C157 is false: with an output of its own, the structure is read back without its mesh, and nothing is raised. -/
theorem C157_false : ∃ (d : Disk) (xml text : String) (a : Args) (d' : Disk),
    runOpenemsh apiEnv xml true "s.csx" a d = (some text, d') ∧ apiEnv.parse xml = some xml ∧
    text ≠ apiEnv.renderCsx (apiEnv.mesh xml) xml :=
  ⟨fun _ => none, "S", "S", ⟨"m.csx", true, .csx⟩, _, rfl, rfl, by decide⟩

/-- Of `C157_partial`: a structure is meshed and read back. -/
example : (runOpenemsh apiEnv "S" true "s.csx" ⟨"", true, .csx⟩ fun _ => none).1 = some "S'" := by decide +kernel

/-- Of `C157_partial`: without `--force` it raises. -/
example : (runOpenemsh apiEnv "S" true "s.csx" ⟨"", false, .csx⟩ fun _ => none).1 = none := by decide +kernel

/-- Of `C157_output`: the mesh is in the other file. -/
example : let r := runOpenemsh apiEnv "S" true "s.csx" ⟨"m.csx", false, .csx⟩ fun _ => none
    r.1 = some "S" ∧ r.2 "m.csx" = some "S'" := by decide +kernel

/-- When `ensure_sim_path` returns there is something at the path: with `cleanup` an empty directory, or a new one; without, what there
was, or a new directory. It returns if directories can be made and, with `cleanup`, if a directory that is there can be removed. What
is missing: without `cleanup`, what there was may be a file. -/
theorem C158_partial (cleanup possible : Bool) (left : Option (List String)) (p : Entry) :
    (∀ p', ensureSimPath cleanup left possible p = some p' →
      p' ≠ .absent ∧ (cleanup = true → p' = .dir []) ∧ (cleanup = false → p' = p ∨ (p = .absent ∧ p' = .dir []))) ∧
    (possible = true → left = none → (p ≠ .file ∨ cleanup = false) → ensureSimPath cleanup left possible p ≠ none) := by
  cases cleanup <;> cases possible <;> cases p <;> cases left <;>
    simp [ensureSimPath, Entry.exists, Entry.mkdir, Entry.rmtree]

/-- C158 is false: a file at the path is taken for the directory. -/
theorem C158_false : ∃ p p', ensureSimPath false none true p = some p' ∧ ∀ names, p' ≠ .dir names :=
  ⟨.file, .file, by decide, fun _ h => by cases h⟩

/-- A directory with old results is emptied. -/
example : ensureSimPath true none true (.dir ["port_ut1", "et"]) = some (.dir []) := by decide

end Verif.Props
