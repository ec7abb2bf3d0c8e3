import Verif.Spec.Delegate
import Verif.Spec.Dialog
import Verif.Props.Dialog
import Mathlib.Tactic.Tauto

/-!
# C116, C117, C118: the cells of the dialog of a meshline policy
-/

namespace Verif.Dialog
open Spec
open Verif.Mesh (Kind Facing)

/-! ## No undefined behaviour -/

/-- The editor open, if any, shows one of its choices. -/
def EditorIn (s : Sheet) : Prop :=
  match s.editor with
  | none => True
  | some (.policy _ i) => i < 3
  | some (.normal _ i enabled) => i < 3 ∧ enabled.length = 3

theorem enforce_editor (s : Sheet) (k : Kind) : (s.enforce k).editor = s.editor := by
  unfold Sheet.enforce; split
  · rfl
  · split
    · rfl
    · rfl
    · split <;> rfl

theorem findIdx_lt {α : Type} (q : α → Bool) (l : List α) (i : Nat) (h : l.findIdx? q = some i) : i < l.length := by
  rw [List.findIdx?_eq_some_iff_getElem] at h
  exact h.1

theorem showText_lt (choices : List String) (t : Option String) (i : Nat) (h : i < choices.length) :
    showText choices t i < choices.length := by
  unfold showText; split
  · exact h
  · cases hf : choices.findIdx? (fun x => decide (x = _)) with
    | none => simpa [hf] using h
    | some j => simpa [hf] using findIdx_lt _ _ _ hf

theorem key_policy (k : Kind) : ∃ i, key k allPolicy = some i ∧ i < 3 ∧ allPolicy[i]? = some k := by
  cases k
  · exact ⟨0, by decide, by decide, by decide⟩
  · exact ⟨1, by decide, by decide, by decide⟩
  · exact ⟨2, by decide, by decide, by decide⟩

theorem key_normal (n : Facing) : ∃ i, key n allNormal = some i ∧ i < 3 ∧ allNormal[i]? = some n := by
  cases n
  · exact ⟨0, by decide, by decide, by decide⟩
  · exact ⟨1, by decide, by decide, by decide⟩
  · exact ⟨2, by decide, by decide, by decide⟩

theorem normalChoices_length (s : Sheet) : s.normalChoices.length = 3 := by
  unfold Sheet.normalChoices; split
  · rfl
  · split <;> rfl

theorem step_editorIn (s : Sheet) (e : Happening) (h : EditorIn s) : ∃ s', s.step e = some s' ∧ EditorIn s' := by
  cases e with
  | paintPolicy c => exact ⟨_, rfl, h⟩
  | paintNormal c => exact ⟨_, rfl, h⟩
  | check b => exact ⟨_, rfl, h⟩
  | type t => exact ⟨_, rfl, h⟩
  | abandon => exact ⟨_, rfl, trivial⟩
  | openPolicy c =>
    obtain ⟨i, h1, h2, -⟩ := key_policy (s.policy c).data
    simp only [Sheet.step, Sheet.openPolicy]
    split
    · rw [h1]
      exact ⟨_, rfl, showText_lt (allPolicy.map policyText) _ _ h2⟩
    · exact ⟨_, rfl, h⟩
  | openNormal c =>
    obtain ⟨i, h1, h2, -⟩ := key_normal (s.normal c).data
    simp only [Sheet.step, Sheet.openNormal]
    split
    · rw [h1]
      exact ⟨_, rfl, showText_lt (allNormal.map normalText) _ _ h2, normalChoices_length s⟩
    · exact ⟨_, rfl, h⟩
  | choose i =>
    refine ⟨_, rfl, ?_⟩
    unfold Sheet.choose
    split
    · split
      · rename_i hi
        exact hi
      · exact h
    · rename_i c cur en he
      split
      · rename_i hi
        simp only [EditorIn, he] at h
        have : i < en.length := by
          by_contra hc
          rw [List.getElem?_eq_none (by omega)] at hi
          simp at hi
        exact ⟨by omega, h.2⟩
      · exact h
    · exact h
  | close =>
    simp only [Sheet.step, Sheet.close]
    split
    · exact ⟨_, rfl, h⟩
    · rename_i c i he
      simp only [EditorIn, he] at h
      have : ∃ k, allPolicy[i]? = some k := ⟨allPolicy[i], List.getElem?_eq_getElem h⟩
      obtain ⟨k, hk⟩ := this
      rw [hk]
      exact ⟨_, rfl, trivial⟩
    · rename_i c i en he
      simp only [EditorIn, he] at h
      have : ∃ k, allNormal[i]? = some k := ⟨allNormal[i]'h.1, List.getElem?_eq_getElem h.1⟩
      obtain ⟨k, hk⟩ := this
      rw [hk]
      exact ⟨_, rfl, trivial⟩

theorem steps_editorIn (es : List Happening) (s : Sheet) (h : EditorIn s) : ∃ s', s.steps es = some s' ∧ EditorIn s' := by
  induction es generalizing s with
  | nil => exact ⟨s, rfl, h⟩
  | cons e es ih =>
    obtain ⟨s1, h1, h2⟩ := step_editorIn s e h
    obtain ⟨s2, h3, h4⟩ := ih s1 h2
    exact ⟨s2, by simp [Sheet.steps, h1, h3], h4⟩

/-- Whatever happens to the dialog, in whatever order, it meets no undefined behaviour, nor does accepting it; what is
emitted then is a policy whose kind and normal go together, elsewhere as before. -/
theorem C118_dialog (p : Mesh.Policy) (es : List Happening) :
    ∃ s out, (Sheet.made p).steps es = some s ∧ s.accept p = some out ∧
      ∀ step q, out = some (step, q) →
        step = .detectIntervals ∧ Together q.kind q.normal ∧ q.coord = p.coord := by
  obtain ⟨s, h1, h2⟩ := steps_editorIn es (Sheet.made p) trivial
  obtain ⟨s', h3, -⟩ := step_editorIn s .close h2
  have h3 : s.close = some s' := h3
  refine ⟨s, s'.rows.commit p, h1, by simp [Sheet.accept, h3], ?_⟩
  intro step q hq
  unfold PolicyRows.commit at hq
  split at hq
  · rename_i hc
    simp only [Option.bind_eq_some_iff, Option.map_eq_some_iff, Prod.mk.injEq] at hq
    obtain ⟨b, -, d, -, rfl, rfl⟩ := hq
    refine ⟨rfl, ?_, rfl⟩
    revert hc
    unfold Together
    generalize s'.rows.kind = k
    generalize s'.rows.normal = n
    cases k <;> cases n <;> simp [compatible]
  · simp at hq

/-! ## The normal follows the policy -/

/-- What is kept as things happen with the screen up to date. -/
structure Kept (p : Mesh.Policy) (s : Sheet) : Prop where
  together : Together (s.policy .new).data (s.normal .new).data
  policyEditable : (s.policy .new).editable = true
  editable : (s.policy .new).data = .thirds → (s.normal .new).editable = true
  old : OldKept p s
  open_ : ∀ ed, s.editor = some ed →
    (∃ i, ed = .policy .new i ∧ i < 3) ∨
    (∃ i en n, ed = .normal .new i en ∧ allNormal[i]? = some n ∧ Together (s.policy .new).data n ∧
      ∀ j : Nat, en[j]? = some true → ∃ m, allNormal[j]? = some m ∧ Together (s.policy .new).data m)

theorem made_kept (p : Mesh.Policy) (h : Together p.kind p.normal) : Kept p (Sheet.made p) :=
  ⟨h, rfl, fun _ => rfl, ⟨rfl, rfl, rfl, rfl⟩, fun _ he => by simp [Sheet.made] at he⟩

theorem setItem_same {E : Type} (f : Column → Item E) (c : Column) (x : Item E) : setItem f c x c = x := by simp [setItem]

theorem setItem_other {E : Type} (f : Column → Item E) (c c' : Column) (x : Item E) (h : c' ≠ c) :
    setItem f c x c' = f c' := by simp [setItem, h]

theorem paintPolicy_data (s : Sheet) (c c' : Column) : ((s.paintPolicy c).policy c').data = (s.policy c').data ∧
    ((s.paintPolicy c).policy c').editable = (s.policy c').editable := by
  unfold Sheet.paintPolicy setItem
  by_cases h : c' = c
  · subst h; simp
  · simp [h]

theorem paintNormal_data (s : Sheet) (c c' : Column) : ((s.paintNormal c).normal c').data = (s.normal c').data ∧
    ((s.paintNormal c).normal c').editable = (s.normal c').editable := by
  unfold Sheet.paintNormal setItem
  by_cases h : c' = c
  · subst h; simp
  · simp [h]

theorem showText_policy (k : Kind) (i : Nat) (h : key k allPolicy = some i) :
    showText (allPolicy.map policyText) (some (policyText k)) i = i := by
  cases k <;> (obtain rfl : _ = i := Option.some.inj h) <;> decide

theorem showText_normal (n : Facing) (i : Nat) (h : key n allNormal = some i) :
    showText (allNormal.map normalText) (some (normalText n)) i = i := by
  cases n <;> (obtain rfl : _ = i := Option.some.inj h) <;> decide

theorem choices_together (s : Sheet) (h : s.policyIndex = some .new) (j : Nat) (hj : s.normalChoices[j]? = some true) :
    ∃ m, allNormal[j]? = some m ∧ Together (s.policy .new).data m := by
  unfold Sheet.normalChoices at hj
  rw [h] at hj
  unfold Together
  have main : ∀ k : Kind, ∀ j : Nat, (match k with
      | .oneline | .halfs => allNormal.map fun n => decide (n = Facing.none)
      | .thirds => allNormal.map fun n => decide (n ≠ Facing.none))[j]? = some true →
      ∃ m, allNormal[j]? = some m ∧ (k = .thirds ↔ m ≠ .none) := by
    intro k j hj
    match j with
    | 0 => refine ⟨.none, rfl, ?_⟩; cases k <;> simp_all [allNormal]
    | 1 => refine ⟨.min, rfl, ?_⟩; cases k <;> simp_all [allNormal]
    | 2 => refine ⟨.max, rfl, ?_⟩; cases k <;> simp_all [allNormal]
    | j + 3 => exfalso; cases k <;> simp [allNormal] at hj
  refine main (s.policy .new).data j ?_
  rw [← hj]
  generalize hk : (s.policy .new).data = k
  cases k <;> simp [hk]

theorem step_kept (p : Mesh.Policy) (s : Sheet) (e : Happening) (h : Kept p s)
    (hu : e.opensOrCloses = true → UpToDate s) : ∃ s', s.step e = some s' ∧ Kept p s' := by
  obtain ⟨ht, hpe, he, ⟨o1, o2, o3, o4⟩, ho⟩ := h
  cases e with
  | paintPolicy c =>
    refine ⟨_, rfl, ?_, ?_, ?_, ⟨?_, ?_, o3, o4⟩, ?_⟩
    · rw [(paintPolicy_data s c _).1]; exact ht
    · rw [(paintPolicy_data s c _).2]; exact hpe
    · rw [(paintPolicy_data s c _).1]; exact he
    · rw [(paintPolicy_data s c _).1]; exact o1
    · rw [(paintPolicy_data s c _).2]; exact o2
    · rw [(paintPolicy_data s c _).1]; exact ho
  | paintNormal c =>
    refine ⟨_, rfl, ?_, hpe, ?_, ⟨o1, o2, ?_, ?_⟩, ho⟩
    · rw [(paintNormal_data s c _).1]; exact ht
    · rw [(paintNormal_data s c _).2]; exact he
    · rw [(paintNormal_data s c _).1]; exact o3
    · rw [(paintNormal_data s c _).2]; exact o4
  | check b => exact ⟨_, rfl, ht, hpe, he, ⟨o1, o2, o3, o4⟩, ho⟩
  | type t => exact ⟨_, rfl, ht, hpe, he, ⟨o1, o2, o3, o4⟩, ho⟩
  | abandon => exact ⟨_, rfl, ht, hpe, he, ⟨o1, o2, o3, o4⟩, fun _ hx => by simp at hx⟩
  | openPolicy c =>
    obtain ⟨u1, u2, u3, u4⟩ := hu rfl
    simp only [Sheet.step, Sheet.openPolicy]
    split
    · rename_i hc
      have : c = .new := by
        cases c
        · rw [o2] at hc; simp at hc
        · rfl
      subst this
      obtain ⟨i, k1, k2, k3⟩ := key_policy (s.policy .new).data
      rw [k1, u3]
      refine ⟨_, rfl, ht, hpe, he, ⟨o1, o2, o3, o4⟩, ?_⟩
      intro ed hed
      simp only [Option.some.injEq] at hed
      rw [showText_policy _ _ k1] at hed
      exact .inl ⟨i, hed.symm, k2⟩
    · exact ⟨_, rfl, ht, hpe, he, ⟨o1, o2, o3, o4⟩, ho⟩
  | openNormal c =>
    obtain ⟨u1, u2, u3, u4⟩ := hu rfl
    simp only [Sheet.step, Sheet.openNormal]
    split
    · rename_i hc
      have : c = .new := by
        cases c
        · rw [o4] at hc; simp at hc
        · rfl
      subst this
      obtain ⟨i, k1, k2, k3⟩ := key_normal (s.normal .new).data
      rw [k1, u4]
      refine ⟨_, rfl, ht, hpe, he, ⟨o1, o2, o3, o4⟩, ?_⟩
      intro ed hed
      simp only [Option.some.injEq] at hed
      rw [showText_normal _ _ k1] at hed
      exact .inr ⟨i, _, _, hed.symm, k3, ht, fun j hj => choices_together s u1 j hj⟩
    · exact ⟨_, rfl, ht, hpe, he, ⟨o1, o2, o3, o4⟩, ho⟩
  | choose i =>
    refine ⟨_, rfl, ?_⟩
    unfold Sheet.choose
    split
    · rename_i c j hed
      rcases ho _ hed with ⟨j', hj, -⟩ | ⟨_, _, _, hj, -⟩
      · obtain ⟨rfl, rfl⟩ : c = .new ∧ j = j' := by simpa using hj
        split
        · rename_i hi
          refine ⟨ht, hpe, he, ⟨o1, o2, o3, o4⟩, ?_⟩
          intro ed hx
          simp only [Option.some.injEq] at hx
          exact .inl ⟨i, hx.symm, hi⟩
        · exact ⟨ht, hpe, he, ⟨o1, o2, o3, o4⟩, ho⟩
      · simp at hj
    · rename_i c j en hed
      rcases ho _ hed with ⟨_, hj, -⟩ | ⟨j', en', n, hj, g1, g2, g3⟩
      · simp at hj
      · obtain ⟨rfl, rfl, rfl⟩ : c = .new ∧ j = j' ∧ en = en' := by simpa using hj
        split
        · rename_i hi
          obtain ⟨m, m1, m2⟩ := g3 i hi
          refine ⟨ht, hpe, he, ⟨o1, o2, o3, o4⟩, ?_⟩
          intro ed hx
          simp only [Option.some.injEq] at hx
          exact .inr ⟨i, en, m, hx.symm, m1, m2, g3⟩
        · exact ⟨ht, hpe, he, ⟨o1, o2, o3, o4⟩, ho⟩
    · exact ⟨ht, hpe, he, ⟨o1, o2, o3, o4⟩, ho⟩
  | close =>
    obtain ⟨u1, u2, u3, u4⟩ := hu rfl
    simp only [Sheet.step, Sheet.close]
    split
    · exact ⟨_, rfl, ht, hpe, he, ⟨o1, o2, o3, o4⟩, ho⟩
    · rename_i c j hed
      rcases ho _ hed with ⟨j', hj, hlt⟩ | ⟨_, _, _, hj, -⟩
      · obtain ⟨rfl, rfl⟩ : c = .new ∧ j = j' := by simpa using hj
        have hk : allPolicy[j]? = some allPolicy[j] := List.getElem?_eq_getElem hlt
        rw [hk]
        refine ⟨_, rfl, ?_⟩
        generalize allPolicy[j] = k
        simp only [Sheet.enforce, u2]
        cases k with
        | oneline =>
          exact ⟨by simp [setItem, Together], by simpa [setItem] using hpe, by simp [setItem],
            ⟨by simpa [setItem] using o1, by simpa [setItem] using o2, by simpa [setItem] using o3,
              by simpa [setItem] using o4⟩, by simp⟩
        | halfs =>
          exact ⟨by simp [setItem, Together], by simpa [setItem] using hpe, by simp [setItem],
            ⟨by simpa [setItem] using o1, by simpa [setItem] using o2, by simpa [setItem] using o3,
              by simpa [setItem] using o4⟩, by simp⟩
        | thirds =>
          by_cases hn : (s.normal .new).data = .none
          · simp only [hn, if_true]
            exact ⟨by simp [setItem, Together], by simpa [setItem] using hpe, by simp [setItem],
              ⟨by simpa [setItem] using o1, by simpa [setItem] using o2, by simpa [setItem] using o3,
                by simpa [setItem] using o4⟩, by simp⟩
          · simp only [hn, if_false]
            have : (s.policy .new).data = .thirds := ht.2 hn
            exact ⟨by simp [setItem, Together, hn], by simpa [setItem] using hpe, fun _ => he this,
              ⟨by simpa [setItem] using o1, by simpa [setItem] using o2, o3, o4⟩, by simp⟩
      · simp at hj
    · rename_i c j en hed
      rcases ho _ hed with ⟨_, hj, -⟩ | ⟨j', en', n, hj, g1, g2, g3⟩
      · simp at hj
      · obtain ⟨rfl, rfl, rfl⟩ : c = .new ∧ j = j' ∧ en = en' := by simpa using hj
        rw [g1]
        refine ⟨_, rfl, ?_⟩
        exact ⟨by simpa [setItem] using g2, hpe, by simpa [setItem] using he,
          ⟨o1, o2, by simpa [setItem] using o3, by simpa [setItem] using o4⟩, by simp⟩

theorem steps_kept (p : Mesh.Policy) (es : List Happening) (s : Sheet) (h : Kept p s) (hw : Watched s es) :
    ∃ s', s.steps es = some s' ∧ Kept p s' := by
  induction es generalizing s with
  | nil => exact ⟨s, rfl, h⟩
  | cons e es ih =>
    obtain ⟨s1, h1, h2⟩ := step_kept p s e h hw.1
    obtain ⟨s2, h3, h4⟩ := ih s1 h2 (hw.2 s1 h1)
    exact ⟨s2, by simp [Sheet.steps, h1, h3], h4⟩

/-- The dialog of a policy whose kind and normal go together, editors being opened and left with the screen up to date:
whatever happens, the new kind and normal go together, and the normal can be edited when it matters. What is missing: the
screen may be up to date without the new column being painted last. -/
theorem C116_partial (p : Mesh.Policy) (es : List Happening) (h : Together p.kind p.normal)
    (hw : Watched (Sheet.made p) es) :
    ∃ s, (Sheet.made p).steps es = some s ∧ Together (s.policy .new).data (s.normal .new).data ∧
      ((s.policy .new).data = .thirds → (s.normal .new).editable = true) ∧ (s.policy .new).editable = true := by
  obtain ⟨s, h1, h2⟩ := steps_kept p es _ (made_kept p h) hw
  exact ⟨s, h1, h2.together, h2.editable, h2.policyEditable⟩

/-- As `C116_partial`, for the column of old values: it shows the policy as it is and cannot be edited. -/
theorem C117_partial (p : Mesh.Policy) (es : List Happening) (h : Together p.kind p.normal)
    (hw : Watched (Sheet.made p) es) :
    ∃ s, (Sheet.made p).steps es = some s ∧ OldKept p s := by
  obtain ⟨s, h1, h2⟩ := steps_kept p es _ (made_kept p h) hw
  exact ⟨s, h1, h2.old⟩

theorem steps_append (es fs : List Happening) (s : Sheet) :
    s.steps (es ++ fs) = (s.steps es).bind fun s => s.steps fs := by
  induction es generalizing s with
  | nil => rfl
  | cons e es ih =>
    simp only [List.cons_append, Sheet.steps]
    cases s.step e with
    | none => rfl
    | some s' => exact ih s'

theorem watched_append (es fs : List Happening) (s : Sheet) (h1 : Watched s es)
    (h2 : ∀ s', s.steps es = some s' → Watched s' fs) : Watched s (es ++ fs) := by
  induction es generalizing s with
  | nil => exact h2 s rfl
  | cons e es ih =>
    refine ⟨h1.1, fun s' hs => ih s' (h1.2 s' hs) fun s'' hs' => h2 s'' ?_⟩
    simp [Sheet.steps, hs, hs']

theorem wholeTable_upToDate (s s' : Sheet) (h : s.steps wholeTable = some s') : UpToDate s' := by
  obtain rfl : _ = s' := Option.some.inj h
  exact ⟨rfl, rfl, rfl, rfl⟩

theorem wholeTable_watched (s : Sheet) : Watched s wholeTable := by
  simp [wholeTable, Watched, Happening.opensOrCloses]

/-- Painting the whole table after everything that happens keeps the screen up to date. -/
theorem repainted_watched (s : Sheet) (es : List Happening) : Watched s (repainted es) := by
  refine watched_append _ _ _ (wholeTable_watched s) fun s' hs => ?_
  have hu := wholeTable_upToDate _ _ hs
  clear hs
  induction es generalizing s' with
  | nil => trivial
  | cons e es ih =>
    rw [List.flatMap_cons]
    refine ⟨fun _ => hu, fun s1 h1 => ?_⟩
    exact watched_append _ _ _ (wholeTable_watched s1) fun s2 h2 => ih s2 (wholeTable_upToDate _ _ h2)

/-- With the whole table painted after everything that happens: the new kind and normal go together whatever happens, and
each kind and normal that go together can be had, from any others. -/
theorem C116_repainted (p : Mesh.Policy) (h : Together p.kind p.normal) :
    (∀ es, ∃ s, (Sheet.made p).steps (repainted es) = some s ∧
      Together (s.policy .new).data (s.normal .new).data ∧ OldKept p s) ∧
    (∀ k n, Together k n → ∃ es s, (Sheet.made p).steps (repainted es) = some s ∧
      (s.policy .new).data = k ∧ (s.normal .new).data = n ∧ s.editor = none) := by
  constructor
  · intro es
    obtain ⟨s, h1, h2⟩ := steps_kept p (repainted es) _ (made_kept p h) (repainted_watched _ _)
    exact ⟨s, h1, h2.together, h2.old⟩
  · intro k n hkn
    obtain ⟨coord, k0, n0, en, d⟩ := p
    obtain ⟨i, hi, -, -⟩ := key_policy k
    obtain ⟨j, hj, -, -⟩ := key_normal n
    refine ⟨[.openPolicy .new, .choose i, .close, .openNormal .new, .choose j, .close], ?_⟩
    cases k <;> cases n <;> first
      | exact absurd hkn (by decide)
      | (obtain rfl : _ = i := Option.some.inj hi
         obtain rfl : _ = j := Option.some.inj hj
         cases k0 <;> cases n0 <;> first
          | exact absurd h (by decide)
          | exact ⟨_, rfl, rfl, rfl, rfl⟩)

/-- A policy of one line, at 1, with a distance of 1. -/
def oneLineAt : Mesh.Policy := ⟨1, .oneline, .none, true, 1⟩

/-- With the screen up to date, a kind chosen in the new column: one line or halves leave no normal, and none to edit; thirds leave
the normal as it was, or `MIN`, editable, when there was none. The old column, the box and the number are left alone. -/
theorem C116_chosen (s : Sheet) (k : Kind) (hu : UpToDate s) (he : (s.policy .new).editable = true) (h0 : s.editor = none) :
    ∃ i s', s.steps [.openPolicy .new, .choose i, .close] = some s' ∧ (s'.policy .new).data = k ∧ s'.editor = none ∧
      (k ≠ .thirds → (s'.normal .new).data = .none ∧ (s'.normal .new).editable = false) ∧
      (k = .thirds → (s.normal .new).data = .none → (s'.normal .new).data = .min ∧ (s'.normal .new).editable = true) ∧
      (k = .thirds → (s.normal .new).data ≠ .none → s'.normal .new = s.normal .new) ∧
      s'.policy .old = s.policy .old ∧ s'.normal .old = s.normal .old ∧ s'.enabled = s.enabled ∧ s'.d = s.d := by
  obtain ⟨i, hi, hi3, hk⟩ := key_policy k
  obtain ⟨j, hj, -, -⟩ := key_policy (s.policy .new).data
  obtain ⟨-, hn, -, -⟩ := hu
  have hlen : i < allPolicy.length := by rw [List.getElem?_eq_some_iff] at hk; exact hk.1
  refine ⟨i, ?_⟩
  simp only [Sheet.steps, Sheet.step, Sheet.openPolicy, h0, he, and_self, if_true, hj, Option.map_some, Option.bind_some,
    Sheet.choose, hlen, Sheet.close, hk, Sheet.enforce, hn]
  refine ⟨_, rfl, ?_⟩
  cases k <;> by_cases hd : (s.normal .new).data = .none <;> simp [setItem, hd]

/-- What `C116_chosen` asks for. -/
example : ∃ s, (Sheet.made oneLineAt).steps wholeTable = some s ∧ UpToDate s ∧ (s.policy .new).editable = true ∧
    s.editor = none := ⟨_, rfl, by decide, rfl, rfl⟩

/-- The old value of the row "Normal" is painted last, as when the mouse goes over it, then the policy `THIRDS` is chosen. -/
def overOldNormal : List Happening :=
  wholeTable ++ [.paintNormal .old, .openPolicy .new, .choose 2, .close] ++ [.paintPolicy .new, .paintNormal .old]

/-- The policy `THIRDS` is chosen, the old value of the row "Policy" is painted last, then the only normal offered is
chosen. -/
def overOldPolicy : List Happening :=
  repainted [.openPolicy .new, .choose 2, .close] ++ [.paintPolicy .old, .openNormal .new, .choose 1, .choose 2, .choose 0,
    .close]

/-- The dialog of a policy of one line left with `THIRDS` and no normal, in two ways: accepting it does nothing. In the first
one the normal did not follow the policy, in the second one the only normal offered is the one that does not go with it. -/
theorem C116_false : Together oneLineAt.kind oneLineAt.normal ∧
    ∀ es ∈ [overOldNormal, overOldPolicy], ∃ s, (Sheet.made oneLineAt).steps es = some s ∧
      (s.policy .new).data = .thirds ∧ (s.normal .new).data = .none ∧ s.editor = none ∧
      s.accept oneLineAt = some none := by
  refine ⟨by decide, ?_⟩
  intro es hes
  simp only [List.mem_cons, List.not_mem_nil, or_false] at hes
  rcases hes with rfl | rfl
  · exact ⟨_, rfl, rfl, rfl, rfl, rfl⟩
  · exact ⟨_, rfl, rfl, rfl, rfl, rfl⟩

/-- The first way of `C116_false` writes in the column of old values, and makes it editable. -/
theorem C117_false : Together oneLineAt.kind oneLineAt.normal ∧
    ∃ s, (Sheet.made oneLineAt).steps overOldNormal = some s ∧ (s.normal .old).data = .min ∧
      (s.normal .old).editable = true ∧ ¬ OldKept oneLineAt s := by
  refine ⟨by decide, _, rfl, rfl, rfl, ?_⟩
  intro h
  exact absurd h.2.2.2 (by decide)

/-- What `C116_partial`, `C117_partial` and `C116_repainted` ask for, on a policy turned to `THIRDS` and to its other side,
with items of the old column painted in between; the dialog then gives that policy. -/
example : Together oneLineAt.kind oneLineAt.normal ∧
    Watched (Sheet.made oneLineAt) (repainted [.openPolicy .new, .choose 2, .paintNormal .old, .close, .openNormal .new,
      .choose 2, .close]) ∧
    ∃ s q, (Sheet.made oneLineAt).steps (repainted [.openPolicy .new, .choose 2, .paintNormal .old, .close, .openNormal .new,
      .choose 2, .close, .type "2.5".toList]) = some s ∧ s.accept oneLineAt = some (some (.detectIntervals, q)) ∧
      q = ⟨1, .thirds, .max, true, 5 / 2⟩ :=
  ⟨by decide, repainted_watched _ _, _, _, rfl, by decide +kernel, rfl⟩

/-- What `C118_dialog` is about: an item that cannot be edited, a choice that is not there, nothing painted, and a policy
given in the end. -/
example : ∃ s q, (Sheet.made oneLineAt).steps [.openPolicy .old, .openPolicy .new, .choose 7, .choose 1] = some s ∧
    s.accept oneLineAt = some (some (.detectIntervals, q)) ∧ q = ⟨1, .halfs, .none, true, 1⟩ :=
  ⟨_, _, rfl, by decide +kernel, rfl⟩

/-- With no editor open: accepting gives the policy that the new column holds, if its kind and normal go together and its number can be
read, and nothing else. -/
theorem C118_given (p : Mesh.Policy) (s : Sheet) (h0 : s.editor = none) (q : Mesh.Policy) :
    s.accept p = some (some (.detectIntervals, q)) ↔
      Together (s.policy .new).data (s.normal .new).data ∧ q.kind = (s.policy .new).data ∧ q.normal = (s.normal .new).data ∧
      ((s.enabled = .checked ∧ q.enabled = true) ∨ (s.enabled = .unchecked ∧ q.enabled = false)) ∧ toDouble s.d = some q.d ∧
      q.coord = p.coord := by
  have hc : compatible (s.policy .new).data (s.normal .new).data = true ↔ Together (s.policy .new).data (s.normal .new).data := by
    generalize (s.policy .new).data = k
    generalize (s.normal .new).data = n
    unfold Together
    cases k <;> cases n <;> simp [compatible]
  obtain ⟨qc, qk, qn, qe, qd⟩ := q
  simp only [Sheet.accept, Sheet.close, h0, Option.map_some, PolicyRows.commit, Sheet.rows, Option.some.injEq]
  by_cases h : compatible (s.policy .new).data (s.normal .new).data = true
  · have h' := hc.mp h
    cases s.enabled <;> cases toDouble s.d <;> simp [toBool, h, h'] <;> tauto
  · have h' := fun x => h (hc.mpr x)
    simp only [h, if_false, Bool.false_eq_true, reduceCtorEq, false_iff]
    exact fun x => h' x.1

/-- Of a policy whose kind and normal go together, accepting at once gives the same policy, but for the digits of its number; an editor opened
and left changes nothing; a normal can be chosen, on the new column only. -/
theorem C118_left (p : Mesh.Policy) (h : Together p.kind p.normal) :
    (∃ d, (Sheet.made p).accept p = some (some (.detectIntervals, { p with d := d })) ∧ toDouble (number p.d) = some d) ∧
    (∀ s : Sheet, UpToDate s → s.editor = none →
      (∃ s', s.steps [.openNormal .new, .close] = some s' ∧ (s'.normal .new).data = (s.normal .new).data ∧ s'.policy = s.policy) ∧
      (∃ s', s.steps [.openPolicy .new, .close] = some s' ∧ (s'.policy .new).data = (s.policy .new).data ∧
        s'.policy .old = s.policy .old)) ∧
    (∀ (s : Sheet) (n : Facing), UpToDate s → s.editor = none → (s.policy .new).data = .thirds → (s.normal .new).editable = true →
      n ≠ .none → ∃ i s', s.steps [.openNormal .new, .choose i, .close] = some s' ∧ (s'.normal .new).data = n ∧
        s'.policy = s.policy ∧ s'.normal .old = s.normal .old) := by
  refine ⟨?_, fun s hu h0 => ⟨?_, ?_⟩, fun s n hu h0 hk he hn => ?_⟩
  · obtain ⟨d, hd⟩ : ∃ d, toDouble (number p.d) = some d := ⟨_, toDouble_number p.d⟩
    refine ⟨d, (C118_given p _ rfl _).mpr ⟨h, rfl, rfl, ?_, hd, rfl⟩, hd⟩
    show (ofBool p.enabled = _ ∧ p.enabled = true) ∨ (ofBool p.enabled = _ ∧ p.enabled = false)
    cases p.enabled <;> simp [ofBool]
  · obtain ⟨j, hj, -, -⟩ := key_normal (s.normal .new).data
    obtain ⟨-, -, -, ht⟩ := hu
    by_cases he : (s.normal .new).editable = true
    · simp only [Sheet.steps, Sheet.step, Sheet.openNormal, h0, he, and_self, if_true, hj, Option.map_some, Option.bind_some, ht,
        showText, Sheet.close]
      cases hd : (s.normal .new).data <;> exact ⟨_, rfl, by simp [setItem], rfl⟩
    · simp only [Sheet.steps, Sheet.step, Sheet.openNormal, he, and_false, if_false, Option.bind_some, Sheet.close, h0]
      exact ⟨s, by simp [h0], rfl, rfl⟩
  · obtain ⟨j, hj, -, -⟩ := key_policy (s.policy .new).data
    obtain ⟨-, hi, ht, -⟩ := hu
    by_cases he : (s.policy .new).editable = true
    · simp only [Sheet.steps, Sheet.step, Sheet.openPolicy, h0, he, and_self, if_true, hj, Option.map_some, Option.bind_some, ht,
        showText, Sheet.close, Sheet.enforce, hi]
      cases hd : (s.policy .new).data
      · exact ⟨_, rfl, by simp [setItem], by simp [setItem]⟩
      · exact ⟨_, rfl, by simp [setItem], by simp [setItem]⟩
      · refine ⟨_, rfl, ?_, ?_⟩ <;> split <;> simp [setItem]
    · simp only [Sheet.steps, Sheet.step, Sheet.openPolicy, he, and_false, if_false, Option.bind_some, Sheet.close, h0]
      exact ⟨s, by simp [h0], rfl, rfl⟩
  · obtain ⟨i, hi, hi3, hk'⟩ := key_normal n
    obtain ⟨j, hj, -, -⟩ := key_normal (s.normal .new).data
    obtain ⟨hp, -, -, -⟩ := hu
    have hen : (s.normalChoices)[i]? = some true := by
      simp only [Sheet.normalChoices, hp, hk, List.getElem?_map, hk', Option.map_some]
      simp [hn]
    refine ⟨i, ?_⟩
    simp only [Sheet.steps, Sheet.step, Sheet.openNormal, h0, he, and_self, if_true, hj, Option.map_some, Option.bind_some,
      Sheet.choose, hen, Sheet.close, hk']
    exact ⟨_, rfl, by simp [setItem], rfl, by simp [setItem]⟩

/-- What `C118_left` asks for: a policy of thirds, turned to its other side. -/
example : ∃ s, (Sheet.made ⟨1, .thirds, .min, true, 1⟩).steps wholeTable = some s ∧ UpToDate s ∧ s.editor = none ∧
    (s.policy .new).data = .thirds ∧ (s.normal .new).editable = true ∧
    ∃ s', s.steps [.openNormal .new, .choose 2, .close] = some s' ∧ (s'.normal .new).data = .max :=
  ⟨_, rfl, by decide, rfl, rfl, rfl, _, rfl, rfl⟩

end Verif.Dialog
