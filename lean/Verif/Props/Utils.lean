import Verif.Model.Utils
import Verif.Spec.Utils
import Mathlib.Data.List.Nodup

/-!
# Theorems about the list helper and the logger
-/

namespace Verif.Utils
open Spec

/-! ## C49 -/

theorem Spec.Runs.gap {α : Type} {p : α → Prop} {a : α} (ha : ¬ p a) {l : List α} {rs : List (List α)}
    (h : Runs p l rs) : Runs p (a :: l) rs := by
  cases h with
  | stop hgap =>
    exact .stop fun x hx => by
      rcases List.mem_cons.1 hx with rfl | hx
      · exact ha
      · exact hgap x hx
  | @last gap run hgap hne hrun =>
    have := Runs.last (p := p) (gap := a :: gap) (run := run) (fun x hx => by
      rcases List.mem_cons.1 hx with rfl | hx
      · exact ha
      · exact hgap x hx) hne hrun
    simpa using this
  | @next gap run rest x runs hgap hne hrun hx h =>
    have := Runs.next (p := p) (gap := a :: gap) (run := run) (fun x hx => by
      rcases List.mem_cons.1 hx with rfl | hx
      · exact ha
      · exact hgap x hx) hne hrun hx h
    simpa using this

theorem matchesLoop_spec {α : Type} (p : α → Bool) (l : List α) :
    (∀ result, ∃ rs, matchesLoop p l result false = some (rs ++ result) ∧
      Runs (fun a => p a = true) l (rs.map List.reverse).reverse) ∧
    (∀ last others, ∃ rs run rest, l = run ++ rest ∧ (∀ a ∈ run, p a = true) ∧ (∀ a ∈ rest.head?, p a = false) ∧
      matchesLoop p l (last :: others) true = some (rs ++ (run.reverse ++ last) :: others) ∧
      Runs (fun a => p a = true) rest (rs.map List.reverse).reverse) := by
  induction l with
  | nil =>
    refine ⟨fun result => ⟨[], rfl, .stop (by simp)⟩, fun last others => ⟨[], [], [], rfl, by simp, by simp, rfl, .stop (by simp)⟩⟩
  | cons a l ih =>
    obtain ⟨ih1, ih2⟩ := ih
    have hopen : ∀ result, p a = true → ∃ rs, matchesLoop p l ([a] :: result) true = some (rs ++ result) ∧
        Runs (fun a => p a = true) (a :: l) (rs.map List.reverse).reverse := by
      intro result ha
      obtain ⟨rs, run, rest, rfl, hrun, hhead, he, hr⟩ := ih2 [a] result
      refine ⟨rs ++ [run.reverse ++ [a]], by simpa using he, ?_⟩
      have hall : ∀ x ∈ a :: run, p x = true := by
        intro x hx
        rcases List.mem_cons.1 hx with rfl | hx
        · exact ha
        · exact hrun x hx
      cases rest with
      | nil =>
        have h0 : (rs.map List.reverse).reverse = [] := by
          generalize (rs.map List.reverse).reverse = q at hr
          generalize hz : ([] : List α) = z at hr
          cases hr with
          | stop => rfl
          | last _ hne _ => simp [hne] at hz
          | next _ hne _ _ _ => simp [hne] at hz
        have := Runs.last (p := fun a => p a = true) (gap := []) (by simp) (by simp) hall
        simpa [h0] using this
      | cons x rest =>
        have hx : ¬ p x = true := by simpa using hhead x (by simp)
        have hr' : Runs (fun a => p a = true) rest (rs.map List.reverse).reverse := by
          generalize (rs.map List.reverse).reverse = q at hr
          generalize hz : x :: rest = z at hr
          cases hr with
          | @stop gap hgap =>
            subst hz
            exact .stop fun y hy => hgap y (by simp [hy])
          | @last gap run' hgap hne hrun' =>
            cases gap with
            | nil =>
              simp only [List.nil_append] at hz
              subst hz
              exact absurd (hrun' x (by simp)) hx
            | cons y gap =>
              simp only [List.cons_append, List.cons.injEq] at hz
              rw [hz.2]
              exact .last (fun y hy => hgap y (by simp [hy])) hne hrun'
          | @next gap run' rest' w runs hgap hne hrun' hw h =>
            cases gap with
            | nil =>
              cases run' with
              | nil => exact absurd rfl hne
              | cons y run' =>
                simp only [List.nil_append, List.cons_append, List.cons.injEq] at hz
                exact absurd (hrun' x (by simp [hz.1])) hx
            | cons y gap =>
              simp only [List.cons_append, List.cons.injEq] at hz
              rw [hz.2]
              exact .next (fun y hy => hgap y (by simp [hy])) hne hrun' hw h
        have := Runs.next (p := fun a => p a = true) (gap := []) (by simp) (by simp) hall hx hr'
        simpa using this
    constructor
    · intro result
      cases ha : p a
      · obtain ⟨rs, h1, h2⟩ := ih1 result
        exact ⟨rs, by simp [matchesLoop, ha, h1], h2.gap (by simp [ha])⟩
      · obtain ⟨rs, h1, h2⟩ := hopen result ha
        exact ⟨rs, by simp [matchesLoop, ha, h1], h2⟩
    · intro last others
      cases ha : p a
      · obtain ⟨rs, h1, h2⟩ := ih1 (last :: others)
        exact ⟨rs, [], a :: l, rfl, by simp, by simp [ha], by simp [matchesLoop, ha, h1], h2.gap (by simp [ha])⟩
      · obtain ⟨rs, run, rest, rfl, hrun, hhead, he, hr⟩ := ih2 (a :: last) others
        refine ⟨rs, a :: run, rest, rfl, ?_, hhead, by simp [matchesLoop, ha, he], hr⟩
        intro x hx
        rcases List.mem_cons.1 hx with rfl | hx
        · exact ha
        · exact hrun x hx

/-- The lists returned are the longest runs of matching elements, in order. -/
theorem C49_runs {α : Type} (l : List α) (p : α → Bool) :
    ∃ runs, findConsecutiveMatches l p = some runs ∧ Runs (fun a => p a = true) l runs := by
  obtain ⟨rs, h1, h2⟩ := (matchesLoop_spec p l).1 []
  exact ⟨_, by simp [findConsecutiveMatches, h1], h2⟩

theorem Spec.Runs.flatten {α : Type} {p : α → Bool} {l : List α} {runs : List (List α)}
    (h : Runs (fun a => p a = true) l runs) : runs.flatten = l.filter p := by
  have hg : ∀ gap : List α, (∀ a ∈ gap, ¬ p a = true) → gap.filter p = [] := fun gap h =>
    List.filter_eq_nil_iff.2 h
  induction h with
  | stop hgap => simp [hg _ hgap]
  | last hgap hne hrun => simp [hg _ hgap, List.filter_eq_self.2 hrun]
  | next hgap hne hrun hx h ih => simp [hg _ hgap, List.filter_eq_self.2 hrun, hx, ih]

/-- Together they hold exactly the matching elements, in order, and none is empty. -/
theorem C49_elements {α : Type} (l : List α) (p : α → Bool) :
    ∃ runs, findConsecutiveMatches l p = some runs ∧ runs.flatten = l.filter p ∧ ∀ r ∈ runs, r ≠ [] := by
  obtain ⟨runs, h1, h2⟩ := C49_runs l p
  refine ⟨runs, h1, h2.flatten, ?_⟩
  clear h1
  induction h2 with
  | stop => simp
  | last _ hne _ => simpa using hne
  | next _ hne _ _ _ ih =>
    intro r hr
    rcases List.mem_cons.1 hr with rfl | hr
    · exact hne
    · exact ih r hr

example : findConsecutiveMatches [1, 2, 4, 5, 6, 7, 8, 10] (fun n => n % 2 = 0) = some [[2, 4], [6], [8, 10]] := by decide

/-! ## C50 -/

/-- The sinks marked as interactive are the chosen one, when there is one, and no other; identifiers are distinct. -/
structure Marked (l : Logger) : Prop where
  distinct : (l.sinks.map (·.1)).Nodup
  marked : ∀ s ∈ l.sinks, (s.2.interactive = true ↔ l.current = some s.1)
  known : ∀ i, l.current = some i → ∃ s ∈ l.sinks, s.1 = i

theorem contains_iff (l : Logger) (id : Nat) : l.contains id = true ↔ ∃ s ∈ l.sinks, s.1 = id := by
  unfold Logger.contains
  simp [List.any_eq_true]

theorem choose_marked {l : Logger} (h : Marked l) (id : Nat) : Marked (l.choose id) := by
  unfold Logger.choose
  split_ifs with h1 h2
  · refine ⟨?_, ?_, ?_⟩
    · have := h.distinct
      simpa [List.map_map, Function.comp_def] using this
    · intro s hs
      obtain ⟨x, hx, rfl⟩ := List.mem_map.1 hs
      simp
    · simp
  · refine ⟨?_, ?_, ?_⟩
    · have := h.distinct
      simpa [List.map_map, Function.comp_def] using this
    · intro s hs
      obtain ⟨x, hx, rfl⟩ := List.mem_map.1 hs
      simp [eq_comm]
    · intro i hi
      obtain rfl := Option.some.inj hi
      obtain ⟨s, hs, e⟩ := (contains_iff l id).1 h2
      exact ⟨_, List.mem_map_of_mem hs, e⟩
  · exact h

theorem register_marked {l : Logger} (h : Marked l) (id name : Nat) (chosen : Bool) :
    Marked (l.register id name chosen) := by
  have hl : Marked (if l.contains id then l else { l with sinks := l.sinks ++ [(id, ⟨name, false⟩)] }) := by
    split_ifs with hc
    · exact h
    · have hnew : ∀ s ∈ l.sinks, s.1 ≠ id := fun s hs e => hc ((contains_iff l id).2 ⟨s, hs, e⟩)
      refine ⟨?_, ?_, ?_⟩
      · simp only [List.map_append, List.map_cons, List.map_nil]
        refine List.nodup_append.2 ⟨h.distinct, by simp, ?_⟩
        intro a ha b hb
        obtain ⟨s, hs, rfl⟩ := List.mem_map.1 ha
        rw [List.mem_singleton.1 hb]
        exact hnew s hs
      · intro s hs
        rcases List.mem_append.1 hs with hs | hs
        · exact h.marked s hs
        · rw [List.mem_singleton.1 hs]
          simp only [Bool.false_eq_true, false_iff]
          intro e
          obtain ⟨x, hx, e'⟩ := h.known _ e
          exact hnew x hx e'
      · intro i hi
        obtain ⟨s, hs, e⟩ := h.known i hi
        exact ⟨s, List.mem_append_left _ hs, e⟩
  unfold Logger.register
  cases chosen
  · exact hl
  · exact choose_marked hl id

theorem after_marked (actions : List Action) : Marked (Logger.after actions) := by
  unfold Logger.after
  have : ∀ l, Marked l → Marked (actions.foldl (fun l a => a.apply l) l) := by
    induction actions with
    | nil => exact fun l h => h
    | cons a rest ih =>
      intro l h
      refine ih _ ?_
      cases a
      · exact register_marked h _ _ _
      · exact choose_marked h _
  exact this {} ⟨by simp, by simp, by simp⟩

/-- At most one sink is interactive, whatever was registered and chosen. -/
theorem C50_one (actions : List Action) {a b : Nat × Sink} (ha : a ∈ (Logger.after actions).sinks)
    (hb : b ∈ (Logger.after actions).sinks) (h1 : a.2.interactive = true) (h2 : b.2.interactive = true) : a = b := by
  obtain ⟨hd, hm, -⟩ := after_marked actions
  have e := ((hm a ha).1 h1).symm.trans ((hm b hb).1 h2)
  exact List.inj_on_of_nodup_map hd ha hb (Option.some.inj e)

theorem logLoop_spec (answer : Sink → Nat) (current : Option Nat) (sinks : List (Nat × Sink)) :
    ∀ called ret, (sinks.map (·.1)).Nodup →
      (logLoop answer current sinks called ret).1 = called ++ sinks.map (·.2.name) ∧
      (∀ s ∈ sinks, current = some s.1 → (logLoop answer current sinks called ret).2 = answer s.2) ∧
      ((∀ s ∈ sinks, current ≠ some s.1) → (logLoop answer current sinks called ret).2 = ret) := by
  induction sinks with
  | nil => intro called ret _; simp [logLoop]
  | cons s rest ih =>
    intro called ret hd
    obtain ⟨hd1, hd2⟩ := List.nodup_cons.1 hd
    obtain ⟨i1, i2, i3⟩ := ih (called ++ [s.2.name]) (if current = some s.1 then answer s.2 else ret) hd2
    refine ⟨by simp [logLoop, i1], ?_, ?_⟩
    · intro x hx hc
      rcases List.mem_cons.1 hx with rfl | hx
      · rw [logLoop, i3, if_pos hc]
        intro y hy e
        rw [hc] at e
        exact hd1 (List.mem_map.2 ⟨y, hy, (Option.some.inj e).symm⟩)
      · exact i2 x hx hc
    · intro hn
      rw [logLoop, i3 fun y hy => hn y (by simp [hy]), if_neg (hn s (by simp))]

/-- A message without known destination is given to every sink once, and the answer is that of the interactive sink, or
nothing when there is none. -/
theorem C50_answer (actions : List Action) (answer : Sink → Nat) {destination : Nat}
    (hd : destination = 0 ∨ ∀ s ∈ (Logger.after actions).sinks, s.1 ≠ destination) :
    ((Logger.after actions).log answer destination).1 = (Logger.after actions).sinks.map (·.2.name) ∧
    (∀ s ∈ (Logger.after actions).sinks, s.2.interactive = true →
      ((Logger.after actions).log answer destination).2 = answer s.2) ∧
    ((∀ s ∈ (Logger.after actions).sinks, s.2.interactive = false) →
      ((Logger.after actions).log answer destination).2 = 0) := by
  obtain ⟨hn, hm, -⟩ := after_marked actions
  have hc : ¬ (destination ≠ 0 ∧ (Logger.after actions).contains destination = true) := by
    rintro ⟨h0, h1⟩
    obtain ⟨s, hs, e⟩ := (contains_iff _ _).1 h1
    rcases hd with hd | hd
    · exact h0 hd
    · exact hd s hs e
  unfold Logger.log
  rw [if_neg hc]
  obtain ⟨i1, i2, i3⟩ := logLoop_spec answer (Logger.after actions).current (Logger.after actions).sinks [] 0 hn
  refine ⟨by simpa using i1, fun s hs h => i2 s hs ((hm s hs).1 h), fun h => i3 fun s hs e => ?_⟩
  have := (hm s hs).2 e
  rw [h s hs] at this
  exact absurd this (by simp)

/-- A message for a known sink is given to this sink only, and answered by it. -/
theorem C50_destination (actions : List Action) (answer : Sink → Nat) {s : Nat × Sink}
    (hs : s ∈ (Logger.after actions).sinks) (h0 : s.1 ≠ 0) :
    (Logger.after actions).log answer s.1 = ([s.2.name], answer s.2) := by
  obtain ⟨hn, -, -⟩ := after_marked actions
  unfold Logger.log
  rw [if_pos ⟨h0, (contains_iff _ _).2 ⟨s, hs, rfl⟩⟩]
  have : (Logger.after actions).sinks.find? (fun x => decide (x.1 = s.1)) = some s := by
    generalize (Logger.after actions).sinks = l at hs hn
    induction l with
    | nil => simp at hs
    | cons x rest ih =>
      obtain ⟨hd1, hd2⟩ := List.nodup_cons.1 hn
      rcases List.mem_cons.1 hs with rfl | hs
      · simp
      · have hne : x.1 ≠ s.1 := fun e => hd1 (List.mem_map.2 ⟨s, hs, e.symm⟩)
        rw [List.find?_cons_of_neg (by simpa using hne)]
        exact ih hs hd2
  rw [this]

/-- The sink chosen last answers. -/
theorem C50_last (actions : List Action) {s : Nat × Sink} (hs : s ∈ (Logger.after actions).sinks) (h0 : s.1 ≠ 0) :
    ∃ s' ∈ (Logger.after (actions ++ [.choose s.1])).sinks, s'.1 = s.1 ∧ s'.2.name = s.2.name ∧
      s'.2.interactive = true := by
  have e : Logger.after (actions ++ [.choose s.1]) = (Logger.after actions).choose s.1 := by
    simp [Logger.after, Action.apply]
  rw [e]
  unfold Logger.choose
  rw [if_neg h0, if_pos ((contains_iff _ _).2 ⟨s, hs, rfl⟩)]
  exact ⟨_, List.mem_map_of_mem hs, by simp⟩

/-- Two sinks, the second chosen at registration, then the first; the identifier 7 is registered twice. -/
example : Logger.after [.register 7 1 false, .register 9 2 true, .register 7 3 false, .choose 7]
    = ⟨[(7, ⟨1, true⟩), (9, ⟨2, false⟩)], some 7⟩ ∧
    (Logger.after [.register 7 1 false, .register 9 2 true]).log (fun s => s.name) 0 = ([1, 2], 2) := by decide

end Verif.Utils
