import Verif.Lemmas.Shown

/-! Decision procedures for the legality of calls, used to exhibit concrete reachable histories. -/

namespace Verif
open TreeNode Spec

variable {σ α : Type}

deriving instance DecidableEq for Except

instance (w : World σ α) (a : Addr) : Decidable (Live w a) := inferInstanceAs (Decidable (_ ∈ _))

instance (w : World σ α) (a b : Addr) : Decidable (AncOrSelf w a b) :=
  match h : w.care.tree.ancestors b true with
  | none => .isFalse (by rintro ⟨l, hl, _⟩; simp [hl] at h)
  | some l => if hm : a ∈ l then .isTrue ⟨l, h, hm⟩
    else .isFalse (by rintro ⟨l', hl, hm'⟩; rw [h] at hl; cases hl; exact hm hm')

instance (w : World σ α) (a : Addr) : Decidable (Needed w a) :=
  decidable_of_iff (∃ t ∈ w.care.pinned ++ w.care.history ++ [w.care.current], AncOrSelf w a t) (by
    simp only [Needed, List.mem_append, List.mem_singleton, or_assoc])

instance (w : World σ α) : Decidable (BirthsNeeded w) :=
  decidable_of_iff (∀ i ∈ w.care.originators, ∀ o ∈ (w.objs i).toList, ∀ a ∈ o.init.toList, Needed w a) (by
    unfold BirthsNeeded Registered
    constructor
    · intro h i o hr a ha
      exact h i hr.1 o (by simp [hr.2]) a (by simp [ha])
    · intro h i hi o ho a ha
      exact h i o ⟨hi, by simpa using ho⟩ a (by simpa using ha))

instance (w : World σ α) (new : Addr) : Decidable (EditLegal w new) := by
  unfold EditLegal
  have : Decidable (∀ w', w.stopBrowsing = .ok w' → ¬ Live w' new) :=
    match h : w.stopBrowsing with
    | .error e => .isTrue (by intro w' hw; cases hw)
    | .ok w1 => if hl : Live w1 new then .isFalse (fun hh => hh w1 rfl hl)
      else .isTrue (by intro w' hw; cases hw; exact hl)
  have : Decidable (w.care.browser ≠ none → w.care.autoGc = true → BirthsNeeded (forgetFuture w)) :=
    inferInstance
  infer_instance

instance (w : World σ α) (i : Nat) (t : Option Addr) : Decidable (SetLegal w i t) :=
  match h : w.objs i with
  | none => .isFalse (by rintro ⟨o, ho, _⟩; rw [h] at ho; cases ho)
  | some o =>
    if hi : i ∈ w.care.originators then
      match t with
      | none => .isFalse (by rintro ⟨o', _, hh⟩; obtain ⟨a, ha, _⟩ := hh hi; cases ha)
      | some a =>
        if hc : AncOrSelf w a w.care.current ∧
            (some a ∈ o.ordered ∨ ∀ b ∈ o.ordered, ∀ b' ∈ b.toList, ¬ AncOrSelf w a b') then
          .isTrue ⟨o, h, fun _ => ⟨a, rfl, hc.1, hc.2.imp id (fun hh b hb => hh (some b) hb b (by simp))⟩⟩
        else .isFalse (by
          rintro ⟨o', ho', hh⟩
          rw [h] at ho'; cases ho'
          obtain ⟨a', ha', h1, h2⟩ := hh hi
          cases ha'
          refine hc ⟨h1, h2.imp id (fun hh b hb b' hb' => ?_)⟩
          simp only [Option.mem_toList, Option.mem_def] at hb'
          subst hb'
          exact hh b' hb)
    else .isTrue ⟨o, h, fun hh => absurd hh hi⟩

instance (t : Option Addr) (w : World σ α) : Decidable (∀ a, t = some a → Live w a) :=
  match t with
  | none => .isTrue (by simp)
  | some a => decidable_of_iff (Live w a) (by simp)

instance (w : World σ α) (i : Nat) : Decidable (∃ o, w.objs i = some o) :=
  decidable_of_iff ((w.objs i).isSome) Option.isSome_iff_exists

instance (w : World σ α) (i : Nat) : Decidable (∃ o, Registered w i o) :=
  decidable_of_iff (i ∈ w.care.originators ∧ (w.objs i).isSome) (by
    rw [Option.isSome_iff_exists]
    simp [Registered])

instance (w : World σ α) (i : Nat) : Decidable (w.objs i = none) :=
  decidable_of_iff ((w.objs i).isNone) (by simp)

instance (w : World σ α) (op : Op σ α) : Decidable (Legal w op) := by
  cases op <;> unfold Legal <;> infer_instance

instance (w : World σ α) (new : Addr) : Decidable (∀ w', w.stopBrowsing = .ok w' → ¬ Live w' new) :=
  match h : w.stopBrowsing with
  | .error e => .isTrue (by intro w' hw; cases hw)
  | .ok w1 => if hl : Live w1 new then .isFalse (fun hh => hh w1 rfl hl)
    else .isTrue (by intro w' hw; cases hw; exact hl)

instance (w : World σ α) (op : Op σ α) : Decidable (CallerLegal w op) := by
  cases op <;> unfold CallerLegal <;> infer_instance

/-- Run a list of calls, checking that each is `CallerLegal`. -/
def callerRun? (w : World σ α) : List (Op σ α) → Option (World σ α)
  | [] => some w
  | op :: ops => if CallerLegal w op then
      match exec w op with
      | .ok w1 => callerRun? w1 ops
      | .error _ => none
    else none

theorem callerRun?_sound {w w' : World σ α} {ops : List (Op σ α)} (h : callerRun? w ops = some w') :
    CallerRun w ops w' := by
  induction ops generalizing w with
  | nil => simp only [callerRun?, Option.some.injEq] at h; subst h; exact .nil w
  | cons op ops ih =>
    simp only [callerRun?] at h
    split at h
    · rename_i hl
      split at h
      · rename_i w1 he
        exact .cons hl he (ih h)
      · cases h
    · cases h

/-- Run a list of calls, checking that each is legal. -/
def legalRun? (w : World σ α) : List (Op σ α) → Option (World σ α)
  | [] => some w
  | op :: ops => if Legal w op then
      match exec w op with
      | .ok w1 => legalRun? w1 ops
      | .error _ => none
    else none

theorem legalRun?_sound {w w' : World σ α} {ops : List (Op σ α)} (h : legalRun? w ops = some w') :
    LegalRun w ops w' := by
  induction ops generalizing w with
  | nil => simp only [legalRun?, Option.some.injEq] at h; subst h; exact .nil w
  | cons op ops ih =>
    simp only [legalRun?] at h
    split at h
    · rename_i hl
      split at h
      · rename_i w1 he
        exact .cons hl he (ih h)
      · cases h
    · cases h

theorem Spec.LegalRun.reachable {w w' : World σ α} {ops : List (Op σ α)} (h : Reachable w) (hr : LegalRun w ops w') :
    Reachable w' := by
  induction hr with
  | nil => exact h
  | cons hl he _ ih => exact ih (.step _ h hl he)

instance (op : Op σ α) (t : Addr) : Decidable (Allocates op t) := by
  cases op <;> unfold Allocates <;> infer_instance

instance (w : World σ α) (i : Nat) (a : Addr) : Decidable (∃ o, w.objs i = some o ∧ o.init = some a) :=
  match h : w.objs i with
  | none => .isFalse (by rintro ⟨o, ho, _⟩; cases ho)
  | some o => if hi : o.init = some a then .isTrue ⟨o, rfl, hi⟩
    else .isFalse (by rintro ⟨o, ho, h2⟩; cases ho; exact hi h2)

instance (w : World σ α) (i : Nat) (t : Addr) (op : Op σ α) : Decidable (SetsFor w i t op) := by
  cases op with
  | setState j u s => cases u <;> unfold SetsFor <;> infer_instance
  | _ => unfold SetsFor; infer_instance

/-- Run a list of calls, checking that they leave object `i` at timepoint `t` undisturbed. -/
def undisturbed? (i : Nat) (t : Addr) (w : World σ α) : List (Op σ α) → Option (World σ α)
  | [] => some w
  | op :: ops =>
    if Legal w op ∧ ¬ Allocates op t ∧ ¬ SetsFor w i t op then
      match exec w op with
      | .ok w1 => if (∃ o, Registered w1 i o) ∧ Live w1 t then undisturbed? i t w1 ops else none
      | .error _ => none
    else none

theorem undisturbed?_sound {i : Nat} {t : Addr} {w w' : World σ α} {ops : List (Op σ α)}
    (h : undisturbed? i t w ops = some w') : Undisturbed i t w ops w' := by
  induction ops generalizing w with
  | nil => simp only [undisturbed?, Option.some.injEq] at h; subst h; exact .nil w
  | cons op ops ih =>
    simp only [undisturbed?] at h
    split at h
    · rename_i hl
      split at h
      · rename_i w1 he
        split at h
        · rename_i h1
          exact .cons hl.1 he h1.1 h1.2 hl.2.1 hl.2.2 (ih h)
        · cases h
      · cases h
    · cases h

/-- The history reached by a list of legal calls from a new one whose root is at address 0. -/
def demo (ops : List (Op Nat String)) (h : (legalRun? (World.fresh 0) ops).isSome = true) : World Nat String :=
  (legalRun? (World.fresh 0) ops).get h

theorem demo_run (ops : List (Op Nat String)) (h) : LegalRun (World.fresh 0) ops (demo ops h) :=
  legalRun?_sound (by simp [demo])

theorem demo_reachable (ops : List (Op Nat String)) (h) : Reachable (demo ops h) :=
  (demo_run ops h).reachable (.fresh 0)

end Verif
