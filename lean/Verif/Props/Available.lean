import Verif.Props.History

/-!
# The states an object has (C90)
-/

namespace Verif.Props
open Verif Spec TreeNode

variable {σ α : Type}

theorem nearest_self {w : World σ α} {o : Originator σ} {a : Addr}
    (ha : a ∈ clusterSelf w.care.tree) (ho : some a ∈ o.ordered) : nearest w o a = some a := by
  obtain ⟨l, hl⟩ := chain_of_mem ha
  have hhead : l.head? = some a := chain_head _ _ _ hl
  unfold nearest
  simp only [ancestors, hl, Option.map_some, if_true]
  cases l with
  | nil => simp at hhead
  | cons b rest =>
    simp only [List.head?_cons, Option.some.injEq] at hhead
    subst hhead
    rw [List.find?_cons_of_pos (by simpa using ho)]

/-- C90. The list of the states of a registered object is given, for every reachable history: each timepoint once, all
alive, none after a descendant of it. Going to a timepoint of the list makes the object read the state listed there, and
going to any live timepoint makes it read one of the states listed. -/
theorem C90_available (w : World σ α) (hw : Reachable w) (i : Nat) (o : Originator σ) (hr : Registered w i o) :
    ∃ l : List (Addr × σ), o.getAvailableStates = .ok (l.map fun p => (some p.1, p.2)) ∧
      (l.map (·.1)).Nodup ∧ (∀ p ∈ l, Live w p.1) ∧ (l.map (·.1)).Pairwise (fun a b => ¬ AncOrSelf w b a) ∧
      (∀ p ∈ l, ∃ w', w.goWithoutRemembering (some p.1) = .ok (true, w') ∧ reads w' i = .ok p.2) ∧
      ∀ t, Live w t → ∃ w', w.goWithoutRemembering (some t) = .ok (true, w') ∧ ∃ p ∈ l, reads w' i = .ok p.2 := by
  have h := reachable_inv hw
  obtain ⟨as, d, hi⟩ := h.objs i hr.1 o hr.2
  have hsome : ∀ a ∈ as, ∃ s, o.states.lookup (some a) = some s := fun a ha =>
    Option.isSome_iff_exists.1 ((hi.states (some a)).2 (by rw [hi.ordered]; simpa using ha))
  have hstates : ∃ l : List (Addr × σ), l.map (·.1) = as ∧ ∀ p ∈ l, o.states.lookup (some p.1) = some p.2 := by
    clear hi
    induction as with
    | nil => exact ⟨[], rfl, by simp⟩
    | cons a rest ih =>
      obtain ⟨s, hs⟩ := hsome a (by simp)
      obtain ⟨l, h1, h2⟩ := ih fun b hb => hsome b (by simp [hb])
      exact ⟨(a, s) :: l, by simp [h1], by simpa using ⟨hs, fun a' s' hp => h2 (a', s') hp⟩⟩
  obtain ⟨l, hl, hlk⟩ := hstates
  have hmem : ∀ p ∈ l, p.1 ∈ as := fun p hp => by rw [← hl]; exact List.mem_map_of_mem hp
  have hgo : ∀ t, Live w t → ∃ w', w.goWithoutRemembering (some t) = .ok (true, w') ∧
      ∃ s, shownAt w o t = some s ∧ reads w' i = .ok s := fun t ht => by
    obtain ⟨w', h1, -, -, h2⟩ := C05_go_restores w hw t ht
    exact ⟨w', h1, h2 i o hr⟩
  refine ⟨l, ?_, hl ▸ hi.nodup, fun p hp => live_iff.2 (hi.live _ (hmem p hp)), ?_, ?_, ?_⟩
  · unfold Originator.getAvailableStates
    rw [hi.ordered, ← hl]
    have : ∀ m : List (Addr × σ), (∀ p ∈ m, o.states.lookup (some p.1) = some p.2) →
        ((m.map (·.1)).map some).mapM (fun t => match o.stateAt t with
          | .ok s => Except.ok (ε := Fault) (t, s)
          | .error e => .error e) = .ok (m.map fun p => (some p.1, p.2)) := by
      intro m
      induction m with
      | nil => intro _; rfl
      | cons p rest ih =>
        intro hm
        rw [List.map_cons, List.map_cons, List.mapM_cons, ih fun q hq => hm q (by simp [hq])]
        simp only [Originator.stateAt, hm p (by simp)]
        rfl
    exact this l hlk
  · rw [hl]
    refine hi.order.imp fun hab hc => ?_
    obtain ⟨m, hm, hb⟩ := ancOrSelf_iff.1 hc
    exact hab m hm hb
  · intro p hp
    obtain ⟨w', h1, s, h2, h3⟩ := hgo p.1 (live_iff.2 (hi.live _ (hmem p hp)))
    refine ⟨w', h1, ?_⟩
    rw [shownAt, nearest_self (hi.live _ (hmem p hp)) (by rw [hi.ordered]; simpa using hmem p hp), hlk p hp] at h2
    rw [h3, Option.some.inj h2]
  · intro t ht
    obtain ⟨w', h1, s, h2, h3⟩ := hgo t ht
    refine ⟨w', h1, ?_⟩
    have hn : ∃ a ∈ as, nearest w o t = some a := by
      obtain ⟨c, hc⟩ := chain_of_mem (live_iff.1 ht)
      exact ⟨_, Originator.near_mem hi.mem_init c, nearest_eq hi hc⟩
    obtain ⟨a, ha, hna⟩ := hn
    rw [← hl, List.mem_map] at ha
    obtain ⟨p, hp, rfl⟩ := ha
    rw [shownAt, hna, hlk p hp] at h2
    exact ⟨p, hp, by rw [h3, Option.some.inj h2]⟩

/-- An object with four states, on two branches. -/
example : Reachable sample ∧ (∃ o, Registered sample 0 o ∧
    o.getAvailableStates = .ok [(some 0, 10), (some 1, 11), (some 2, 12), (some 4, 14)]) := by
  refine ⟨sample_reachable, ?_⟩
  have h : (sample.objs 0).any (fun o => decide (0 ∈ sample.care.originators) &&
    (match o.getAvailableStates with
      | .ok l => decide (l = [(some 0, 10), (some 1, 11), (some 2, 12), (some 4, 14)])
      | .error _ => false)) = true := by decide +kernel
  obtain ⟨o, ho, hp⟩ := (Option.any_eq_true _ _).mp h
  simp only [Bool.and_eq_true, decide_eq_true_eq] at hp
  refine ⟨o, ⟨hp.1, ho⟩, ?_⟩
  have := hp.2
  revert this
  cases o.getAvailableStates <;> simp

end Verif.Props
