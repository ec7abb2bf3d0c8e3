import Verif.Spec.Graph
import Mathlib.Tactic.Common

/-!
# C120: the wires of the processing view are exactly what comes from what

# C121: the chain of a node is exactly what it comes from and what comes from it
-/

namespace Verif.Graph
open Spec

/-! ## Wires -/

theorem mem_shown {b : Board} {e : Entity} : e ∈ b.shown ↔ OnBoard b e := by
  cases e <;> simp [Board.shown, OnBoard]
  all_goals aesop

theorem mem_nodes {b : Board} {e : Entity} : e ∈ b.nodes ↔ InScene b e := by
  simp only [Board.nodes, List.mem_append, mem_shown]
  cases e with
  | plane p => cases p <;> simp [InScene, OnBoard]
  | axis a => cases a <;> simp [InScene, OnBoard]
  | _ => simp [InScene, OnBoard]

theorem mem_toWire {b : Board} {e : Entity} : e ∈ b.toWire ↔ OnBoard b e ∧ ∀ i, e ≠ .polygon i := by
  cases e <;> simp [Board.toWire, OnBoard]
  all_goals aesop

theorem mem_eachPort {l : List (Option Entity)} {k : Nat} {e : Entity} {r : Nat} :
    (e, r) ∈ eachPort k l ↔ ∃ i, l[i]? = some (some e) ∧ r = k + i := by
  induction l generalizing k with
  | nil => simp [eachPort]
  | cons o l ih =>
    have shift : (∃ i, (o :: l)[i]? = some (some e) ∧ r = k + i)
        ↔ (o = some e ∧ r = k) ∨ ∃ i, l[i]? = some (some e) ∧ r = k + 1 + i := by
      constructor
      · rintro ⟨i, h, rfl⟩
        cases i with
        | zero => simp at h; exact Or.inl ⟨h, rfl⟩
        | succ i => exact Or.inr ⟨i, by simpa using h, by omega⟩
      · rintro (⟨h, rfl⟩ | ⟨i, h, rfl⟩)
        · exact ⟨0, by simp [h], rfl⟩
        · exact ⟨i + 1, by simpa using h, by omega⟩
    rw [shift]
    cases o with
    | none => simp [eachPort, ih]
    | some x => simp [eachPort, ih, Prod.ext_iff, eq_comm]

theorem eachPort_exists {l : List (Option Entity)} {k : Nat} {e : Entity} :
    (∃ r, (e, r) ∈ eachPort k l) ↔ some e ∈ l := by
  simp only [mem_eachPort]
  constructor
  · rintro ⟨_, i, h, -⟩
    exact List.mem_of_getElem? h
  · intro h
    obtain ⟨i, h⟩ := List.mem_iff_getElem?.mp h
    exact ⟨k + i, i, h, rfl⟩

theorem eachPort_bound {l : List (Option Entity)} {k : Nat} {e : Entity} {r : Nat} (h : (e, r) ∈ eachPort k l) :
    r < k + l.length := by
  obtain ⟨i, hi, rfl⟩ := mem_eachPort.mp h
  have := (List.getElem?_eq_some_iff.mp hi).1
  omega

theorem castOrigin_of {o : Entity} (h : MakesPolicies o) : castOrigin o = some o := by
  cases o <;> first | rfl | exact h.elim

theorem castOrigin_some {o e : Entity} (h : castOrigin o = some e) : o = e := by
  cases o <;> simp_all [castOrigin]

/-- What is to be wired is what the object comes from. -/
theorem toWire_comesFrom {b : Board} (hb : Meant b) (o e : Entity) :
    (∃ k, (o, k) ∈ (sockets b e).toWire) ↔ ComesFrom b o e := by
  cases e with
  | plane i => simp [sockets]; intro h; cases h
  | axis i => simp [sockets]; intro h; cases h
  | polygon i => simp [sockets]; intro h; cases h
  | edge i =>
    cases hc : b.edgeConflict i with
    | none => simp [sockets, hc]; intro h; cases h; simp_all
    | some c =>
      simp [sockets, hc]
      exact ⟨fun h => h ▸ .settled hc, fun h => by cases h; simp_all⟩
  | angle i =>
    simp [sockets]
    constructor
    · rintro ⟨k, ⟨rfl, -⟩ | ⟨rfl, -⟩⟩
      exacts [.firstSide i, .secondSide i]
    · intro h
      cases h
      exacts [⟨0, Or.inl ⟨rfl, rfl⟩⟩, ⟨1, Or.inr ⟨rfl, rfl⟩⟩]
  | ce i =>
    simp only [sockets, eachPort_exists, List.mem_map, Option.some.injEq]
    constructor
    · rintro ⟨e, h, rfl⟩; exact .aligned h
    · intro h; cases h with | aligned h => exact ⟨_, h, rfl⟩
  | eip i =>
    simp only [sockets, List.mem_cons, exists_or, eachPort_exists, List.mem_map, Option.some.injEq, Prod.mk.injEq]
    constructor
    · rintro (⟨k, rfl, -⟩ | ⟨p, h, rfl⟩)
      exacts [.inside i, .covered h]
    · intro h
      cases h with
      | inside => exact Or.inl ⟨0, rfl, rfl⟩
      | covered h => exact Or.inr ⟨_, h, rfl⟩
  | docz i =>
    simp only [sockets, List.mem_map, Prod.mk.injEq]
    constructor
    · rintro ⟨k, a, h, rfl, -⟩; exact .slanted h
    · intro h; cases h with | slanted h => exact ⟨0, _, h, rfl, rfl⟩
  | tcmlp i =>
    simp only [sockets, eachPort_exists, List.mem_cons, Option.some.injEq, List.not_mem_nil, or_false]
    constructor
    · rintro (rfl | rfl)
      exacts [.left i, .right i]
    · intro h; cases h
      exacts [Or.inl rfl, Or.inr rfl]
  | policy i =>
    simp only [sockets, eachPort_exists, List.mem_map]
    constructor
    · rintro ⟨o', h, hc⟩; exact castOrigin_some hc ▸ .asked h
    · intro h; cases h with | asked h => exact ⟨_, h, castOrigin_of (hb i _ h)⟩
  | interval i =>
    constructor
    · rintro ⟨k, h⟩
      simp only [sockets, List.mem_append, List.mem_map, Prod.mk.injEq] at h
      rcases h with (⟨z, h, rfl, -⟩ | h) | h
      · exact .zone h
      · cases hq : b.intervalBefore i with
        | none => simp [hq] at h
        | some p => simp [hq] at h; exact h.1 ▸ .before hq
      · cases hq : b.intervalAfter i with
        | none => simp [hq] at h
        | some p => simp [hq] at h; exact h.1 ▸ .after hq
    · intro h
      simp only [sockets, List.mem_append, List.mem_map, Prod.mk.injEq]
      cases h with
      | zone h => exact ⟨1, Or.inl (Or.inl ⟨_, h, rfl, rfl⟩)⟩
      | before h => exact ⟨0, Or.inl (Or.inr (by simp [h]))⟩
      | after h => exact ⟨_, Or.inr (by simp only [h, List.mem_singleton, Prod.mk.injEq, true_and]; rfl)⟩
  | meshline i =>
    constructor
    · rintro ⟨k, h⟩
      simp only [sockets, List.mem_append] at h
      rcases h with h | h
      · cases hq : b.meshlineInterval i with
        | none => simp [hq] at h
        | some p => simp [hq] at h; exact h.1 ▸ .between hq
      · cases hq : b.meshlinePolicy i with
        | none => simp [hq] at h
        | some p => simp [hq] at h; exact h.1 ▸ .at_ hq
    · intro h
      simp only [sockets, List.mem_append]
      cases h with
      | between h => exact ⟨0, Or.inl (by simp [h])⟩
      | at_ h => exact ⟨1, Or.inr (by simp [h])⟩

/-- Every port meant exists. -/
theorem toWire_bound {b : Board} {o e : Entity} {k : Nat} (h : (o, k) ∈ (sockets b e).toWire) :
    k < (sockets b e).inputs := by
  cases e with
  | plane i => simp [sockets] at h
  | axis i => simp [sockets] at h
  | polygon i => simp [sockets] at h
  | edge i => simp only [sockets] at h ⊢; split at h <;> simp_all
  | angle i => simp [sockets] at h ⊢; omega
  | ce i => simpa [sockets] using eachPort_bound h
  | eip i =>
    simp only [sockets, List.mem_cons, Prod.mk.injEq] at h ⊢
    rcases h with h | h
    · omega
    · simpa using eachPort_bound h
  | docz i => simp [sockets] at h ⊢; omega
  | tcmlp i => simpa [sockets] using eachPort_bound h
  | policy i => simpa [sockets] using eachPort_bound h
  | interval i =>
    simp only [sockets, List.mem_append, List.mem_map, Prod.mk.injEq] at h ⊢
    rcases h with (⟨z, h, -, rfl⟩ | h) | h
    · have : b.intervalZones i ≠ [] := List.ne_nil_of_mem h
      simp [this]
    · split at h <;> simp_all
    · split at h <;> simp_all
  | meshline i =>
    simp only [sockets, List.mem_append] at h ⊢
    rcases h with h | h <;> split at h <;> simp_all

/-- Nothing comes from a line. -/
theorem toWire_outputs {b : Board} {o e : Entity} {k : Nat} (hb : Meant b) (h : (o, k) ∈ (sockets b e).toWire) :
    (sockets b o).outputs ≠ 0 := by
  have h' := (toWire_comesFrom hb o e).mp ⟨k, h⟩
  cases h' with
  | asked h' => have := hb _ _ h'; cases o <;> simp_all [sockets, MakesPolicies]
  | _ => simp [sockets]

/-- The wires go from the first output port of a node to an input port of another. -/
def Forward (ws : List Wire) : Prop := ∀ w ∈ ws, w.first.out = true ∧ w.first.rank = 0 ∧ w.last.out = false

theorem isWiredTo_iff {ws : List Wire} (hf : Forward ws) (n e : Entity) (k : Nat) :
    isWiredTo ws ⟨n, false, k⟩ ⟨e, true, 0⟩ = true ↔ (⟨⟨e, true, 0⟩, ⟨n, false, k⟩⟩ : Wire) ∈ ws := by
  simp only [isWiredTo, wiresOf, List.any_eq_true, List.mem_filter, decide_eq_true_eq]
  constructor
  · rintro ⟨w, ⟨hw, h⟩, ht⟩
    obtain ⟨h1, -, h3⟩ := hf w hw
    have h : w.last = ⟨n, false, k⟩ := by
      rcases h with h | h
      · rw [← h] at h1; cases h1
      · exact h.symm
    have ht : w.first = ⟨e, true, 0⟩ := by
      simp only [Wire.traverse] at ht
      split at ht
      · rename_i h'; exact h'.symm
      · split at ht
        · rename_i h'; rw [← h'] at h3; cases h3
        · simp at ht
    rw [← h, ← ht]; exact hw
  · intro h
    exact ⟨_, ⟨h, Or.inr rfl⟩, by simp [Wire.traverse]⟩

theorem wireAll_ok {b : Board} {n : Entity} (l : List (Entity × Nat)) (ws : List Wire)
    (ho : ∀ x ∈ l, (sockets b x.1).outputs ≠ 0) (hf : Forward ws) (hn : ws.Nodup) :
    ∃ ws', wireAll b n l ws = .ok ws' ∧ Forward ws' ∧ ws'.Nodup
      ∧ ∀ w, w ∈ ws' ↔ w ∈ ws ∨ ∃ e k, (e, k) ∈ l ∧ e ∈ b.shown ∧ w = ⟨⟨e, true, 0⟩, ⟨n, false, k⟩⟩ := by
  induction l generalizing ws with
  | nil => exact ⟨ws, rfl, hf, hn, by simp⟩
  | cons x l ih =>
    obtain ⟨e, k⟩ := x
    have ho' : ∀ x ∈ l, (sockets b x.1).outputs ≠ 0 := fun x hx => ho x (List.mem_cons_of_mem _ hx)
    have he := ho (e, k) (List.mem_cons_self ..)
    simp only [wireAll]
    by_cases hs : e ∈ b.shown
    · rw [if_pos hs, if_neg he]
      by_cases hw : isWiredTo ws ⟨n, false, k⟩ ⟨e, true, 0⟩ = true
      · rw [if_pos hw]
        obtain ⟨ws', h1, h2, h3, h4⟩ := ih ws ho' hf hn
        refine ⟨ws', h1, h2, h3, fun w => ?_⟩
        rw [h4]
        have hw := (isWiredTo_iff hf n e k).mp hw
        constructor
        · rintro (h | ⟨e', k', h, h', rfl⟩)
          · exact Or.inl h
          · exact Or.inr ⟨e', k', List.mem_cons_of_mem _ h, h', rfl⟩
        · rintro (h | ⟨e', k', h, h', rfl⟩)
          · exact Or.inl h
          · rcases List.mem_cons.mp h with h | h
            · cases h; exact Or.inl hw
            · exact Or.inr ⟨e', k', h, h', rfl⟩
      · rw [if_neg hw]
        have hw := mt (isWiredTo_iff hf n e k).mpr hw
        obtain ⟨ws', h1, h2, h3, h4⟩ := ih (ws ++ [⟨⟨e, true, 0⟩, ⟨n, false, k⟩⟩]) ho'
          (by
            intro w h
            rcases List.mem_append.mp h with h | h
            · exact hf w h
            · rw [List.mem_singleton.mp h]; exact ⟨rfl, rfl, rfl⟩)
          (by
            rw [List.nodup_append]
            refine ⟨hn, by simp, ?_⟩
            rintro a ha c hc rfl
            rw [List.mem_singleton] at hc
            exact hw (hc ▸ ha))
        refine ⟨ws', h1, h2, h3, fun w => ?_⟩
        rw [h4]
        constructor
        · rintro (h | ⟨e', k', h, h', rfl⟩)
          · rcases List.mem_append.mp h with h | h
            · exact Or.inl h
            · exact Or.inr ⟨e, k, List.mem_cons_self .., hs, List.mem_singleton.mp h⟩
          · exact Or.inr ⟨e', k', List.mem_cons_of_mem _ h, h', rfl⟩
        · rintro (h | ⟨e', k', h, h', rfl⟩)
          · exact Or.inl (List.mem_append_left _ h)
          · rcases List.mem_cons.mp h with h | h
            · cases h; exact Or.inl (by simp)
            · exact Or.inr ⟨e', k', h, h', rfl⟩
    · rw [if_neg hs]
      obtain ⟨ws', h1, h2, h3, h4⟩ := ih ws ho' hf hn
      refine ⟨ws', h1, h2, h3, fun w => ?_⟩
      rw [h4]
      constructor
      · rintro (h | ⟨e', k', h, h', rfl⟩)
        · exact Or.inl h
        · exact Or.inr ⟨e', k', List.mem_cons_of_mem _ h, h', rfl⟩
      · rintro (h | ⟨e', k', h, h', rfl⟩)
        · exact Or.inl h
        · rcases List.mem_cons.mp h with h | h
          · cases h; exact absurd h' hs
          · exact Or.inr ⟨e', k', h, h', rfl⟩

theorem populate_ok {b : Board} (hb : Meant b) :
    ∃ ws, populate b = .ok ws ∧ Forward ws ∧ ws.Nodup
      ∧ ∀ w, w ∈ ws ↔ ∃ n e k, OnBoard b n ∧ OnBoard b e ∧ (e, k) ∈ (sockets b n).toWire
        ∧ w = ⟨⟨e, true, 0⟩, ⟨n, false, k⟩⟩ := by
  have go : ∀ (l : List Entity) (ws : List Wire), Forward ws → ws.Nodup →
      ∃ ws', Board.Outcome.fold (fun ws n => wireAll b n (sockets b n).toWire ws) ws l = .ok ws' ∧ Forward ws' ∧ ws'.Nodup
        ∧ ∀ w, w ∈ ws' ↔ w ∈ ws ∨ ∃ n e k, n ∈ l ∧ e ∈ b.shown ∧ (e, k) ∈ (sockets b n).toWire
          ∧ w = ⟨⟨e, true, 0⟩, ⟨n, false, k⟩⟩ := by
    intro l
    induction l with
    | nil => exact fun ws hf hn => ⟨ws, rfl, hf, hn, by simp⟩
    | cons n l ih =>
      intro ws hf hn
      obtain ⟨ws1, h1, h2, h3, h4⟩ := wireAll_ok (n := n) (sockets b n).toWire ws
        (fun x hx => toWire_outputs hb (k := x.2) hx) hf hn
      obtain ⟨ws2, g1, g2, g3, g4⟩ := ih ws1 h2 h3
      refine ⟨ws2, by simp only [Board.Outcome.fold, h1, Board.Outcome.bind]; exact g1, g2, g3, fun w => ?_⟩
      rw [g4, h4]
      constructor
      · rintro ((h | ⟨e, k, h, h', rfl⟩) | ⟨n', e, k, h, h', h'', rfl⟩)
        · exact Or.inl h
        · exact Or.inr ⟨n, e, k, List.mem_cons_self .., h', h, rfl⟩
        · exact Or.inr ⟨n', e, k, List.mem_cons_of_mem _ h, h', h'', rfl⟩
      · rintro (h | ⟨n', e, k, h, h', h'', rfl⟩)
        · exact Or.inl (Or.inl h)
        · rcases List.mem_cons.mp h with h | h
          · subst h; exact Or.inl (Or.inr ⟨e, k, h'', h', rfl⟩)
          · exact Or.inr ⟨n', e, k, h, h', h'', rfl⟩
  obtain ⟨ws, h1, h2, h3, h4⟩ := go b.toWire [] (by intro w h; cases h) List.nodup_nil
  refine ⟨ws, h1, h2, h3, fun w => ?_⟩
  rw [h4]
  simp only [List.not_mem_nil, false_or]
  constructor
  · rintro ⟨n, e, k, h, h', h'', rfl⟩
    exact ⟨n, e, k, (mem_toWire.mp h).1, mem_shown.mp h', h'', rfl⟩
  · rintro ⟨n, e, k, h, h', h'', rfl⟩
    refine ⟨n, e, k, mem_toWire.mpr ⟨h, ?_⟩, mem_shown.mpr h', h'', rfl⟩
    rintro i rfl
    simp [sockets] at h''

theorem mem_portNodes {ws : List Wire} {p : Port} {m : Entity} :
    m ∈ portNodes ws p ↔ ∃ w ∈ ws, ∃ q, w.traverse p = some q ∧ q.node = m := by
  simp only [portNodes, wiresOf, List.mem_map, List.mem_filterMap, List.mem_filter, decide_eq_true_eq]
  constructor
  · rintro ⟨q, ⟨w, ⟨hw, -⟩, ht⟩, rfl⟩
    exact ⟨w, hw, q, ht, rfl⟩
  · rintro ⟨w, hw, q, ht, rfl⟩
    refine ⟨q, ⟨w, ⟨hw, ?_⟩, ht⟩, rfl⟩
    simp only [Wire.traverse] at ht
    split at ht
    · exact Or.inl ‹_›
    · split at ht
      · exact Or.inr ‹_›
      · cases ht

/-- **C120.** Drawing a board in the processing view never reads a port that does not exist, and afterwards, whatever the
board: no two wires join the same two ports; a wire leaves the output port of an object and enters an input port of another
exactly when both are on the board and the second comes from the first, each at a port that exists; and the nodes before a
node, and after it, are exactly what it comes from, and what comes from it. -/
theorem C120_wires (b : Board) (hb : Meant b) :
    ∃ ws, populate b = .ok ws ∧ ws.Nodup
      ∧ (∀ w ∈ ws, w.first.out = true ∧ w.last.out = false
          ∧ w.first.rank < (sockets b w.first.node).outputs ∧ w.last.rank < (sockets b w.last.node).inputs
          ∧ Linked b w.first.node w.last.node)
      ∧ (∀ o e, Linked b o e → ∃ w ∈ ws, w.first.node = o ∧ w.last.node = e)
      ∧ (∀ o e, o ∈ inputNodes b ws e ↔ Linked b o e)
      ∧ ∀ o e, e ∈ outputNodes b ws o ↔ Linked b o e := by
  obtain ⟨ws, h1, hf, hn, hm⟩ := populate_ok hb
  have hl : ∀ w ∈ ws, w.first.out = true ∧ w.last.out = false
      ∧ w.first.rank < (sockets b w.first.node).outputs ∧ w.last.rank < (sockets b w.last.node).inputs
      ∧ Linked b w.first.node w.last.node := by
    intro w hw
    obtain ⟨n, e, k, hn', he, hk, rfl⟩ := (hm w).mp hw
    exact ⟨rfl, rfl, Nat.pos_of_ne_zero (toWire_outputs hb hk), toWire_bound hk, he, hn',
      (toWire_comesFrom hb e n).mp ⟨k, hk⟩⟩
  have hl' : ∀ o e, Linked b o e → ∃ k, k < (sockets b e).inputs ∧ (⟨⟨o, true, 0⟩, ⟨e, false, k⟩⟩ : Wire) ∈ ws := by
    rintro o e ⟨ho, he, h⟩
    obtain ⟨k, hk⟩ := (toWire_comesFrom hb o e).mpr h
    exact ⟨k, toWire_bound hk, (hm _).mpr ⟨e, o, k, he, ho, hk, rfl⟩⟩
  refine ⟨ws, h1, hn, hl, ?_, ?_, ?_⟩
  · intro o e h
    obtain ⟨k, -, hk⟩ := hl' o e h
    exact ⟨_, hk, rfl, rfl⟩
  · intro o e
    simp only [inputNodes, List.mem_flatMap, List.mem_range, mem_portNodes]
    constructor
    · rintro ⟨k, hk, w, hw, q, ht, rfl⟩
      obtain ⟨a1, a2, -, -, a5⟩ := hl w hw
      simp only [Wire.traverse] at ht
      split at ht
      · rename_i h'; rw [← h'] at a1; cases a1
      · split at ht
        · rename_i h'
          cases ht
          have : w.last.node = e := by rw [← h']
          rw [this] at a5; exact a5
        · cases ht
    · intro h
      obtain ⟨k, hk, hw⟩ := hl' o e h
      exact ⟨k, hk, _, hw, ⟨o, true, 0⟩, by simp [Wire.traverse], rfl⟩
  · intro o e
    simp only [outputNodes, List.mem_flatMap, List.mem_range, mem_portNodes]
    constructor
    · rintro ⟨k, hk, w, hw, q, ht, rfl⟩
      obtain ⟨a1, a2, -, -, a5⟩ := hl w hw
      simp only [Wire.traverse] at ht
      split at ht
      · rename_i h'
        cases ht
        have : w.first.node = o := by rw [← h']
        rw [this] at a5; exact a5
      · split at ht
        · rename_i h'; rw [← h'] at a2; cases a2
        · cases ht
    · intro h
      obtain ⟨k, hk, hw⟩ := hl' o e h
      refine ⟨0, ?_, _, hw, ⟨e, false, k⟩, by simp [Wire.traverse], rfl⟩
      exact (hl _ hw).2.2.1

theorem toWire_port {b : Board} {n o o' : Entity} {k : Nat} (h : (o, k) ∈ (sockets b n).toWire)
    (h' : (o', k) ∈ (sockets b n).toWire) :
    o = o' ∨ (∃ z a a', n = .docz z ∧ o = .angle a ∧ o' = .angle a') ∨ ∃ v z z', n = .interval v ∧ o = .docz z ∧ o' = .docz z' := by
  have each : ∀ {j : Nat} {l : List (Option Entity)}, (o, k) ∈ eachPort j l → (o', k) ∈ eachPort j l → o = o' := by
    intro j l h h'
    obtain ⟨i, hi, hr⟩ := mem_eachPort.mp h
    obtain ⟨i', hi', hr'⟩ := mem_eachPort.mp h'
    obtain rfl : i = i' := by omega
    rw [hi] at hi'
    exact Option.some.inj (Option.some.inj hi')
  cases n with
  | plane p => cases h
  | axis a => cases h
  | polygon i => cases h
  | edge i =>
    left
    simp only [sockets] at h h'
    split at h <;> simp_all
  | angle i =>
    left
    simp only [sockets, List.mem_cons, Prod.mk.injEq, List.not_mem_nil, or_false] at h h'
    rcases h with ⟨rfl, rfl⟩ | ⟨rfl, rfl⟩ <;> rcases h' with ⟨rfl, h'⟩ | ⟨rfl, h'⟩ <;> first | rfl | cases h'
  | ce i => exact .inl (each h h')
  | eip i =>
    left
    simp only [sockets, List.mem_cons, Prod.mk.injEq] at h h'
    rcases h with ⟨rfl, rfl⟩ | h <;> rcases h' with ⟨rfl, h'⟩ | h'
    · rfl
    · obtain ⟨i, -, hr⟩ := mem_eachPort.mp h'; omega
    · subst h'; obtain ⟨i, -, hr⟩ := mem_eachPort.mp h; omega
    · exact each h h'
  | docz i =>
    simp only [sockets, List.mem_map, Prod.mk.injEq] at h h'
    obtain ⟨a, -, rfl, -⟩ := h
    obtain ⟨a', -, rfl, -⟩ := h'
    exact .inr (.inl ⟨_, _, _, rfl, rfl, rfl⟩)
  | tcmlp i => exact .inl (each h h')
  | policy i => exact .inl (each h h')
  | interval i =>
    have one : ∀ {o : Entity}, (o, k) ∈ (sockets b (.interval i)).toWire → (k = 1 ∧ b.intervalZones i ≠ [] ∧ ∃ z, o = .docz z) ∨
        (k = 0 ∧ (b.intervalBefore i).map Entity.policy = some o) ∨
        (k = (if b.intervalZones i = [] then 1 else 2) ∧ (b.intervalAfter i).map Entity.policy = some o) := by
      intro o h
      simp only [sockets, List.mem_append, List.mem_map, Prod.mk.injEq] at h
      rcases h with (⟨z, hz, rfl, rfl⟩ | h) | h
      · exact .inl ⟨rfl, List.ne_nil_of_mem hz, z, rfl⟩
      · right; left
        split at h
        · rename_i p hp
          simp only [List.mem_singleton, Prod.mk.injEq] at h
          exact ⟨h.2, by rw [hp, h.1]; rfl⟩
        · cases h
      · right; right
        split at h
        · rename_i p hp
          simp only [List.mem_singleton, Prod.mk.injEq] at h
          exact ⟨h.2, by rw [hp, h.1]; rfl⟩
        · cases h
    have h1 : (if b.intervalZones i = [] then 1 else 2) ≠ 0 := by split <;> omega
    have h2 : b.intervalZones i ≠ [] → (if b.intervalZones i = [] then 1 else 2) = 2 := fun h => if_neg h
    rcases one h with ⟨rfl, hz, z, rfl⟩ | ⟨rfl, h3⟩ | ⟨hk, h3⟩ <;> rcases one h' with ⟨h4, hz', z', rfl⟩ | ⟨h4, h5⟩ | ⟨h4, h5⟩
    · exact .inr (.inr ⟨_, _, _, rfl, rfl, rfl⟩)
    · cases h4
    · rw [h2 hz] at h4; cases h4
    · cases h4
    · rw [h3] at h5; exact .inl (Option.some.inj h5)
    · exact absurd h4.symm h1
    · rw [h2 hz', h4] at hk; cases hk
    · rw [h4] at hk; exact absurd hk.symm h1
    · rw [h3] at h5; exact .inl (Option.some.inj h5)
  | meshline i =>
    left
    simp only [sockets, List.mem_append] at h h'
    rcases h with h | h <;> rcases h' with h' | h' <;> split at h <;> split at h' <;> simp_all

/-- **C120.** Two objects enter a node at the same port only if they are angles of the same zone or zones of the same interval. -/
theorem C120_ports (b : Board) (hb : Meant b) (ws : List Wire) (h : populate b = .ok ws) (w w' : Wire) (hw : w ∈ ws)
    (hw' : w' ∈ ws) (hl : w.last = w'.last) : w = w' ∨
      (∃ z a a', w.last.node = .docz z ∧ w.first.node = .angle a ∧ w'.first.node = .angle a') ∨
      ∃ v z z', w.last.node = .interval v ∧ w.first.node = .docz z ∧ w'.first.node = .docz z' := by
  obtain ⟨ws', h1, -, -, hm⟩ := populate_ok hb
  rw [h] at h1
  cases h1
  obtain ⟨n, e, k, -, -, hk, rfl⟩ := (hm w).1 hw
  obtain ⟨n', e', k', -, -, hk', rfl⟩ := (hm w').1 hw'
  cases hl
  rcases toWire_port hk hk' with rfl | h | h
  · exact .inl rfl
  · exact .inr (.inl h)
  · exact .inr (.inr h)

/-- Two polygons, the edge 0 of the first inside the second and settled by the conflict 0; the policies 0 and 1 made from the
edges 0 and 1 are too close and merged into the policy 2, which gives the line 0; the policy 3 comes from an edge that is no
longer on the board, and the interval 0 lies between the policies 2 and 3. -/
def tiny : Board where
  polygons := [(0, [0, 1]), (1, [2])]
  eips := [0]
  angles := []
  ces := []
  tcmlps := [0]
  policies := [0, 1, 2, 3]
  doczs := []
  intervals := [0]
  meshlines := [0]
  edgeConflict := fun i => if i = 0 then some 0 else none
  angleEdges := fun _ => (0, 0)
  ceEdges := fun _ => []
  eipEdge := fun _ => 0
  eipPolygons := fun _ => [1, 1]
  tcmlpPolicies := fun _ => (0, 1)
  doczAngles := fun _ => []
  policyOrigins := fun i => if i = 2 then [.tcmlp 0] else if i = 3 then [.edge 7] else [.edge i]
  intervalZones := fun _ => []
  intervalBefore := fun _ => some 2
  intervalAfter := fun _ => some 3
  meshlineInterval := fun _ => none
  meshlinePolicy := fun _ => some 2
  planeOf := fun _ => .xy
  axisOf := fun _ => .x

theorem tiny_meant : Meant tiny := by
  intro i o h
  simp only [tiny] at h
  split at h
  · simp_all [MakesPolicies]
  · split at h <;> simp_all [MakesPolicies]

example : populate tiny = .ok
    [⟨⟨.eip 0, true, 0⟩, ⟨.edge 0, false, 0⟩⟩, ⟨⟨.policy 0, true, 0⟩, ⟨.tcmlp 0, false, 0⟩⟩,
     ⟨⟨.policy 1, true, 0⟩, ⟨.tcmlp 0, false, 1⟩⟩, ⟨⟨.edge 0, true, 0⟩, ⟨.eip 0, false, 0⟩⟩,
     ⟨⟨.polygon 1, true, 0⟩, ⟨.eip 0, false, 1⟩⟩, ⟨⟨.polygon 1, true, 0⟩, ⟨.eip 0, false, 2⟩⟩,
     ⟨⟨.edge 0, true, 0⟩, ⟨.policy 0, false, 0⟩⟩, ⟨⟨.edge 1, true, 0⟩, ⟨.policy 1, false, 0⟩⟩,
     ⟨⟨.tcmlp 0, true, 0⟩, ⟨.policy 2, false, 0⟩⟩, ⟨⟨.policy 2, true, 0⟩, ⟨.meshline 0, false, 1⟩⟩,
     ⟨⟨.policy 2, true, 0⟩, ⟨.interval 0, false, 0⟩⟩, ⟨⟨.policy 3, true, 0⟩, ⟨.interval 0, false, 1⟩⟩] := by
  decide +kernel

example : ∃ ws, populate tiny = .ok ws ∧ ∃ w ∈ ws, w.first.node = .tcmlp 0 ∧ w.last.node = .policy 2 := by
  obtain ⟨ws, h1, -, -, h4, -⟩ := C120_wires tiny tiny_meant
  exact ⟨ws, h1, h4 _ _ ⟨by simp [OnBoard, tiny], by simp [OnBoard, tiny], .asked (by simp [tiny])⟩⟩

example : ∃ ws, populate tiny = .ok ws ∧ (⟨⟨.policy 2, true, 0⟩, ⟨.interval 0, false, 0⟩⟩ : Wire) ∈ ws ∧
    (⟨⟨.policy 3, true, 0⟩, ⟨.interval 0, false, 1⟩⟩ : Wire) ∈ ws := by
  obtain ⟨ws, h1, -, -, hm⟩ := populate_ok tiny_meant
  exact ⟨ws, h1, (hm _).2 ⟨_, _, _, by simp [OnBoard, tiny], by simp [OnBoard, tiny], by simp [sockets, tiny], rfl⟩,
    (hm _).2 ⟨_, _, _, by simp [OnBoard, tiny], by simp [OnBoard, tiny], by simp [sockets, tiny], rfl⟩⟩

end Verif.Graph
