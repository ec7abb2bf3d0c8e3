import Verif.Lemmas.Run
import Verif.Lemmas.MovedAxis

/-! # The merges do not depend on the order of the policies, nor on how often each is there -/

namespace Verif.Asked
open Verif.Mesh

/-- What a policy brings: something on its low side, something on its high side, a line. -/
def brings : Kind → Facing → Fin 3 → Bool
  | .oneline, _, _ => true
  | .halfs, _, b => b != 2
  | .thirds, .min, b => b == 0
  | .thirds, .max, b => b == 1
  | .thirds, .none, _ => false

/-- What the enabled policies of an axis bring at a coordinate. -/
def Brought (a : Axis) (c : ℚ) (b : Fin 3) : Prop := ∃ k, a.Enabled k ∧ (a.get k).coord = c ∧ brings (a.get k).kind (a.get k).normal b = true

/-- The enabled policies of an axis. -/
def Has (a : Axis) (p : Policy) : Prop := ∃ k, a.Enabled k ∧ a.get k = p

/-- An axis on which nothing but merges was done. -/
structure Plain (g : MeshParams) (a : Axis) : Prop where
  unmerged : a.Unmerged
  coherent : a.Coherent
  half : ∀ k, a.Enabled k → (a.get k).d = g.dmax / 2
  intervals : a.intervals = []
  meshlines : a.meshlines = []

theorem brings_some {p : Policy} (h : p.Coherent) : ∃ b, brings p.kind p.normal b = true := by
  unfold Policy.Coherent at h
  cases hk : p.kind <;> cases hn : p.normal <;> simp [hk, hn] at h
  · exact ⟨0, rfl⟩
  · exact ⟨0, rfl⟩
  · exact ⟨0, rfl⟩
  · exact ⟨1, rfl⟩

theorem brings_inj {p q : Policy} (hp : p.Coherent) (hq : q.Coherent)
    (h : ∀ b, brings p.kind p.normal b = true ↔ brings q.kind q.normal b = true) : p.kind = q.kind ∧ p.normal = q.normal := by
  unfold Policy.Coherent at hp hq
  have h0 := h 0
  have h1 := h 1
  have h2 := h 2
  cases hk : p.kind <;> cases hn : p.normal <;> simp [hk, hn] at hp <;>
  cases hk' : q.kind <;> cases hn' : q.normal <;> simp [hk', hn'] at hq <;>
  simp [hk, hn, hk', hn', brings] at h0 h1 h2 ⊢

theorem mergeChoice_brings {p q : Policy} (hp : p.Coherent) (hq : q.Coherent) :
    ∃ kind normal coord, mergeChoice p q = some (kind, normal, coord) ∧ (kind = .thirds ↔ normal ≠ .none) ∧
      ∀ b, brings kind normal b = true ↔ brings p.kind p.normal b = true ∨ brings q.kind q.normal b = true := by
  obtain ⟨c, k, n, e, d⟩ := p
  obtain ⟨c', k', n', e', d'⟩ := q
  unfold Policy.Coherent at hp hq
  cases k <;> cases n <;> simp at hp <;> cases k' <;> cases n' <;> simp at hq <;>
    refine ⟨_, _, _, rfl, by simp, ?_⟩ <;> simp [brings] <;> decide

/-- One merge. -/
theorem step_eq {g : MeshParams} {a b : Axis} {i j : Nat} (h : Plain g a) (hi : a.Enabled i) (hj : a.Enabled j)
    (hb : a.addTooClose i j = some b) : ∃ kind normal coord, mergeChoice (a.get i) (a.get j) = some (kind, normal, coord) ∧
      (kind = .thirds ↔ normal ≠ .none) ∧
      b.solveConflict g i j = { b with policies := b.policies ++ [Policy.make g.dmax coord kind normal true] } := by
  obtain ⟨kind, normal, coord, h1, h2, -⟩ := mergeChoice_brings (coherent_get h.coherent i) (coherent_get h.coherent j)
  obtain ⟨-, -, hget, -, -⟩ := addTooClose_some hi hj hb
  refine ⟨kind, normal, coord, h1, h2, ?_⟩
  unfold Axis.solveConflict
  have e : mergeChoice (b.get i) (b.get j) = mergeChoice (a.get i) (a.get j) := by
    rw [hget, hget]
    simp only [true_or, or_true, if_true]
    rfl
  rw [e, h1]
  simp only [Axis.addPolicy]
  rw [if_neg]
  rintro (⟨rfl, h⟩ | ⟨h, h'⟩)
  · exact (h2.1 rfl) h
  · exact h (h2.2 h')

theorem step_enabled {g : MeshParams} {a b : Axis} {i j : Nat} (h : Plain g a) (hi : a.Enabled i) (hj : a.Enabled j)
    (hb : a.addTooClose i j = some b) {kind normal coord} (hm : mergeChoice (a.get i) (a.get j) = some (kind, normal, coord)) (k : Nat) :
    ((b.solveConflict g i j).Enabled k ↔ (a.Enabled k ∧ k ≠ i ∧ k ≠ j) ∨ k = a.policies.length) ∧
    (a.Enabled k ∧ k ≠ i ∧ k ≠ j → (b.solveConflict g i j).get k = a.get k) ∧
    (k = a.policies.length → (b.solveConflict g i j).get k = Policy.make g.dmax coord kind normal true) := by
  obtain ⟨kind', normal', coord', hm', -, he⟩ := step_eq h hi hj hb
  rw [hm] at hm'
  cases hm'
  obtain ⟨hlen, -, hget, -, -⟩ := addTooClose_some hi hj hb
  rw [he]
  have hg : ∀ k, Axis.get { b with policies := b.policies ++ [Policy.make g.dmax coord kind normal true] } k =
      if k = a.policies.length then Policy.make g.dmax coord kind normal true else b.get k := by
    intro k; rw [get_append, hlen]
  refine ⟨?_, ?_, ?_⟩
  · rw [enabled_iff, hg]
    simp only [List.length_append, List.length_singleton, hlen]
    by_cases hk : k = a.policies.length
    · simp [hk, Policy.make]
    · simp only [hk, if_false, or_false, hget]
      rw [enabled_iff]
      by_cases h1 : k = i
      · simp [h1]
      · by_cases h2 : k = j
        · simp [h2]
        · simp only [h1, h2, or_self, if_false, ne_eq, not_false_eq_true, and_true]
          constructor
          · rintro ⟨h3, h4⟩; exact ⟨by omega, h4⟩
          · rintro ⟨h3, h4⟩; exact ⟨by omega, h4⟩
  · rintro ⟨h1, h2, h3⟩
    have := h1.lt
    rw [hg, if_neg (by omega), hget, if_neg (by tauto)]
  · rintro rfl
    rw [hg, if_pos rfl]

theorem step_plain {g : MeshParams} {a b : Axis} {i j : Nat} (h : Plain g a) (hi : a.Enabled i) (hj : a.Enabled j)
    (hb : a.addTooClose i j = some b) : Plain g (b.solveConflict g i j) := by
  obtain ⟨kind, normal, coord, hm, hk, he⟩ := step_eq h hi hj hb
  obtain ⟨-, -, -, e1, e2⟩ := addTooClose_some hi hj hb
  refine ⟨unmerged_step h.unmerged hi hj hb, coherent_step h.coherent hb, fun k hk => ?_, ?_, ?_⟩
  · obtain ⟨h1, h2, h3⟩ := step_enabled h hi hj hb hm k
    rcases h1.1 hk with h4 | h4
    · rw [h2 h4]; exact h.half k h4.1
    · rw [h3 h4]; rfl
  · rw [he]; exact e1.trans h.intervals
  · rw [he]; exact e2.trans h.meshlines

/-- What is brought after a merge. -/
theorem step_brought {g : MeshParams} {a b : Axis} {i j : Nat} (h : Plain g a) (hi : a.Enabled i) (hj : a.Enabled j)
    (hb : a.addTooClose i j = some b) {kind normal coord} (hm : mergeChoice (a.get i) (a.get j) = some (kind, normal, coord))
    (c : ℚ) (β : Fin 3) : Brought (b.solveConflict g i j) c β ↔
      (∃ k, (a.Enabled k ∧ k ≠ i ∧ k ≠ j) ∧ (a.get k).coord = c ∧ brings (a.get k).kind (a.get k).normal β = true) ∨
      (coord = c ∧ brings kind normal β = true) := by
  have hs := fun k => step_enabled h hi hj hb hm k
  constructor
  · rintro ⟨k, h1, h2, h3⟩
    rcases (hs k).1.1 h1 with h4 | h4
    · rw [(hs k).2.1 h4] at h2 h3
      exact Or.inl ⟨k, h4, h2, h3⟩
    · rw [(hs k).2.2 h4] at h2 h3
      exact Or.inr ⟨h2, h3⟩
  · rintro (⟨k, h4, h2, h3⟩ | ⟨h2, h3⟩)
    · refine ⟨k, (hs k).1.2 (Or.inl h4), ?_⟩
      rw [(hs k).2.1 h4]
      exact ⟨h2, h3⟩
    · refine ⟨a.policies.length, (hs _).1.2 (Or.inr rfl), ?_⟩
      rw [(hs _).2.2 rfl]
      exact ⟨h2, h3⟩

/-- A merge at one place changes nothing of what is brought. -/
theorem step_zero {g : MeshParams} {a b : Axis} {i j : Nat} (h : Plain g a) (hi : a.Enabled i) (hj : a.Enabled j)
    (hb : a.addTooClose i j = some b) (hz : (a.get i).coord = (a.get j).coord) (c : ℚ) (β : Fin 3) :
    Brought (b.solveConflict g i j) c β ↔ Brought a c β := by
  obtain ⟨kind, normal, coord, hm, -, hbr⟩ := mergeChoice_brings (coherent_get h.coherent i) (coherent_get h.coherent j)
  have hc : coord = (a.get i).coord := by
    have := mergeChoice_between hm
    rw [← hz, min_self, max_self] at this
    exact le_antisymm this.2 this.1
  rw [step_brought h hi hj hb hm, hbr]
  constructor
  · rintro (⟨k, ⟨h1, -⟩, h2⟩ | ⟨rfl, h2 | h2⟩)
    · exact ⟨k, h1, h2⟩
    · exact ⟨i, hi, hc.symm, h2⟩
    · exact ⟨j, hj, hz.symm.trans hc.symm, h2⟩
  · rintro ⟨k, h1, h2, h3⟩
    by_cases hki : k = i
    · subst hki; exact Or.inr ⟨hc.trans h2, Or.inl h3⟩
    · by_cases hkj : k = j
      · subst hkj; exact Or.inr ⟨(hc.trans hz).trans h2, Or.inr h3⟩
      · exact Or.inl ⟨k, ⟨h1, hki, hkj⟩, h2, h3⟩

/-- On axes without two enabled policies at one place, what is brought tells the policies. -/
theorem has_of_brought {g : MeshParams} {a b : Axis} (ha : Plain g a) (hb : Plain g b) (sa : a.Separated) (sb : b.Separated)
    (h : ∀ c β, Brought a c β ↔ Brought b c β) {p : Policy} (hp : Has a p) : Has b p := by
  obtain ⟨k, hk, rfl⟩ := hp
  have one : ∀ {x : Axis} (_ : x.Separated) {k : Nat} (_ : x.Enabled k) (β : Fin 3),
      Brought x (x.get k).coord β ↔ brings (x.get k).kind (x.get k).normal β = true := by
    intro x sx k hk β
    constructor
    · rintro ⟨l, h1, h2, h3⟩
      have : l = k := by
        by_contra hne
        exact sx l k h1 hk hne h2
      rw [← this]; exact h3
    · exact fun h => ⟨k, hk, rfl, h⟩
  obtain ⟨β, hβ⟩ := brings_some (coherent_get ha.coherent k)
  obtain ⟨l, hl, hc, -⟩ := (h _ β).1 ((one sa hk β).2 hβ)
  refine ⟨l, hl, ?_⟩
  have : (b.get l).kind = (a.get k).kind ∧ (b.get l).normal = (a.get k).normal := by
    refine brings_inj (coherent_get hb.coherent l) (coherent_get ha.coherent k) fun γ => ?_
    rw [← one sb hl γ, ← one sa hk γ, hc]
    exact (h _ γ).symm
  have e1 := hl.enabled
  have e2 := hk.enabled
  have e3 := hb.half l hl
  have e4 := ha.half k hk
  generalize b.get l = q at *
  generalize a.get k = p at *
  cases p; cases q
  simp only at *
  obtain ⟨rfl, rfl⟩ := this
  simp [hc, e1, e2, e3, e4]

/-- The enabled policies in order. -/
def inOrder (S : Sorter Nat) (a : Axis) : List Policy := (S.sort (fun i => (a.get i).coord) a.enabledPointers).map a.get

theorem inOrder_mem (S : Sorter Nat) (a : Axis) (p : Policy) : p ∈ inOrder S a ↔ Has a p := by
  unfold inOrder Has
  rw [List.mem_map]
  constructor
  · rintro ⟨k, hk, rfl⟩
    exact ⟨k, mem_enabledPointers.1 ((S.perm _ _).mem_iff.1 hk), rfl⟩
  · rintro ⟨k, hk, rfl⟩
    exact ⟨k, (S.perm _ _).mem_iff.2 (mem_enabledPointers.2 hk), rfl⟩

theorem inOrder_sorted (S : Sorter Nat) {a : Axis} (h : a.Separated) : (inOrder S a).Pairwise fun p q => p.coord < q.coord := by
  unfold inOrder
  rw [List.pairwise_map]
  have h1 := S.sorted (fun i => (a.get i).coord) a.enabledPointers
  have h2 : (S.sort (fun i => (a.get i).coord) a.enabledPointers).Nodup := (S.perm _ _).nodup_iff.2 (nodup_enabledPointers a)
  have h3 : ∀ k ∈ S.sort (fun i => (a.get i).coord) a.enabledPointers, a.Enabled k := fun k hk =>
    mem_enabledPointers.1 ((S.perm _ _).mem_iff.1 hk)
  refine (h1.and h2).imp_of_mem fun {x y} hx hy hh => ?_
  exact lt_of_le_of_ne hh.1 (h x y (h3 x hx) (h3 y hy) hh.2)

theorem sorted_unique {l m : List Policy} (hl : l.Pairwise fun p q => p.coord < q.coord) (hm : m.Pairwise fun p q => p.coord < q.coord)
    (h : ∀ p, p ∈ l ↔ p ∈ m) : l = m := by
  have nl : l.Nodup := hl.imp fun {x y} hh e => by subst e; exact lt_irrefl _ hh
  have nm : m.Nodup := hm.imp fun {x y} hh e => by subst e; exact lt_irrefl _ hh
  refine ((List.perm_ext_iff_of_nodup nl nm).2 h).eq_of_pairwise ?_ hl hm
  intro a b _ _ h1 h2
  exact absurd (h1.trans h2) (lt_irrefl _)

theorem inOrder_eq (S : Sorter Nat) {g : MeshParams} {a b : Axis} (ha : Plain g a) (hb : Plain g b) (sa : a.Separated)
    (sb : b.Separated) (h : ∀ c β, Brought a c β ↔ Brought b c β) : inOrder S a = inOrder S b := by
  refine sorted_unique (inOrder_sorted S sa) (inOrder_sorted S sb) fun p => ?_
  rw [inOrder_mem, inOrder_mem]
  exact ⟨has_of_brought ha hb sa sb h, has_of_brought hb ha sb sa fun c β => (h c β).symm⟩

/-- The closer of two pairs of policies. -/
def closer (best : Option (ℚ × Policy × Policy)) (space : ℚ) (p q : Policy) : Option (ℚ × Policy × Policy) :=
  match best with
  | none => some (space, p, q)
  | some (s, b) => if space < s then some (space, p, q) else some (s, b)

/-- The search of the closest policies, on policies. -/
def closest : Option (ℚ × Policy × Policy) → List Policy → Option (ℚ × Policy × Policy)
  | best, i :: j :: rest => closest (closer best |i.coord - j.coord| i j) (j :: rest)
  | best, [_] => best
  | best, [] => best

theorem closest_eq (ps : Policies) : ∀ (l : List Nat) (best : Option (ℚ × Nat × Nat)),
    (closestLoop ps best l).map (fun r => (r.1, ps r.2.1, ps r.2.2)) = closest (best.map fun r => (r.1, ps r.2.1, ps r.2.2)) (l.map ps)
  | [], best => by rw [closestLoop_nil, List.map_nil, closest]
  | [x], best => by rw [closestLoop_one, List.map_cons, List.map_nil, closest]
  | x :: y :: rest, best => by
    rw [closestLoop_cons, closest_eq ps (y :: rest)]
    simp only [List.map_cons, closest]
    generalize |(ps x).coord - (ps y).coord| = space
    congr 1
    cases best with
    | none => rfl
    | some r =>
      simp only [better, closer, Option.map_some]
      split <;> rfl

theorem detectClosest_inOrder (S : Sorter Nat) (a : Axis) (limit : ℚ) :
    (a.detectClosest S limit).map (fun r => (a.get r.1, a.get r.2)) =
      match closest none (inOrder S a) with
      | none => none
      | some (s, p) => if s ≤ limit then some p else none := by
  unfold Axis.detectClosest inOrder
  have := closest_eq a.get (S.sort (fun i => (a.get i).coord) a.enabledPointers) none
  simp only [Option.map_none] at this
  rw [← this]
  cases closestLoop a.get none (S.sort (fun i => (a.get i).coord) a.enabledPointers) with
  | none => rfl
  | some r =>
    obtain ⟨s, i, j⟩ := r
    simp only [Option.map_some]
    split <;> rfl

/-- If the closest policies are apart, no two are at one place. -/
theorem separated_of_apart {S : Sorter Nat} {a : Axis} {limit : ℚ} {i j : Nat} (h : a.detectClosest S limit = some (i, j))
    (hne : (a.get i).coord ≠ (a.get j).coord) : a.Separated := by
  have hspec := closestLoop_spec a.get (S.sort (fun i => (a.get i).coord) a.enabledPointers) none
  have hp := S.perm (fun i => (a.get i).coord) a.enabledPointers
  have hsorted := S.sorted (fun i => (a.get i).coord) a.enabledPointers
  unfold Axis.detectClosest at h
  split at h
  · cases h
  · rename_i s p heq
    split at h
    · cases h
      obtain ⟨h1, -, h3⟩ := hspec.2 _ _ _ heq
      have hs : 0 < s := by
        rcases h1 with h1 | ⟨-, h1⟩
        · cases h1
        · rw [h1]; exact abs_pos.2 (sub_ne_zero.2 hne)
      have key := sorted_gap hsorted h3
      intro x y hx hy hxy he
      have hx' := hp.mem_iff.mpr (mem_enabledPointers.mpr hx)
      have hy' := hp.mem_iff.mpr (mem_enabledPointers.mpr hy)
      have : Std.Symm fun i j => s ≤ |(a.get i).coord - (a.get j).coord| :=
        ⟨fun x y h => by rw [abs_sub_comm]; exact h⟩
      have := key.forall hx' hy' hxy
      rw [he, sub_self, abs_zero] at this
      linarith
    · cases h

theorem separated_of_none {S : Sorter Nat} {a : Axis} {limit : ℚ} (hl : 0 ≤ limit) (h : a.detectClosest S limit = none) :
    a.Separated := by
  intro i j hi hj hne e
  have := detectClosest_none h i j hi hj hne
  rw [e, sub_self, abs_zero] at this
  linarith

/-- The merges of two axes that bring the same end, and bring the same. -/
theorem merges_alike (S : Sorter Nat) (g : MeshParams) (hl : 0 ≤ g.proximityLimit) : ∀ (n : Nat) (a b : Axis), Plain g a → Plain g b →
    (∀ c β, Brought a c β ↔ Brought b c β) → a.enabledPointers.length + b.enabledPointers.length ≤ n →
    ∃ a' b', a.solveTooClose S g = some a' ∧ b.solveTooClose S g = some b' ∧ Plain g a' ∧ Plain g b' ∧
      a'.Separated ∧ b'.Separated ∧ inOrder S a' = inOrder S b' := by
  intro n
  induction n using Nat.strong_induction_on with
  | _ n ih =>
  intro a b ha hb h hn
  -- one merge of `x`, at one place
  have zero : ∀ {x : Axis} {i j : Nat}, Plain g x → x.detectClosest S g.proximityLimit = some (i, j) →
      ∃ y, x.solveTooClose S g = y.solveTooClose S g ∧ Plain g y ∧ y.enabledPointers.length < x.enabledPointers.length ∧
        (∀ kind normal coord, mergeChoice (x.get i) (x.get j) = some (kind, normal, coord) → ∀ c β, Brought y c β ↔
          (∃ k, (x.Enabled k ∧ k ≠ i ∧ k ≠ j) ∧ (x.get k).coord = c ∧ brings (x.get k).kind (x.get k).normal β = true) ∨
          (coord = c ∧ brings kind normal β = true)) ∧
        ((x.get i).coord = (x.get j).coord → ∀ c β, Brought y c β ↔ Brought x c β) := by
    intro x i j hx hd
    obtain ⟨hi, hj, hne, -⟩ := detectClosest_some hd
    obtain ⟨y, hy⟩ := addTooClose_ne_none hx.unmerged hi hj
    refine ⟨y.solveConflict g i j, ?_, step_plain hx hi hj hy, count_step hi hj hne hy, fun kind normal coord hm => step_brought hx hi hj hy hm, step_zero hx hi hj hy⟩
    rw [Axis.solveTooClose, hd]
    simp only [hy]
  have stop : ∀ {x : Axis}, x.detectClosest S g.proximityLimit = none → x.solveTooClose S g = some x := by
    intro x hd
    rw [Axis.solveTooClose, hd]
  have inA : ∀ {i j}, a.detectClosest S g.proximityLimit = some (i, j) → (a.get i).coord = (a.get j).coord →
      ∃ a' b', a.solveTooClose S g = some a' ∧ b.solveTooClose S g = some b' ∧ Plain g a' ∧ Plain g b' ∧
        a'.Separated ∧ b'.Separated ∧ inOrder S a' = inOrder S b' := by
    intro i j hd hz
    obtain ⟨y, e, hy, hlt, -, hbr⟩ := zero ha hd
    rw [e]
    exact ih (y.enabledPointers.length + b.enabledPointers.length) (by omega) y b hy hb (fun c β => (hbr hz c β).trans (h c β)) le_rfl
  have inB : ∀ {i j}, b.detectClosest S g.proximityLimit = some (i, j) → (b.get i).coord = (b.get j).coord →
      ∃ a' b', a.solveTooClose S g = some a' ∧ b.solveTooClose S g = some b' ∧ Plain g a' ∧ Plain g b' ∧
        a'.Separated ∧ b'.Separated ∧ inOrder S a' = inOrder S b' := by
    intro i j hd hz
    obtain ⟨y, e, hy, hlt, -, hbr⟩ := zero hb hd
    rw [e]
    exact ih (a.enabledPointers.length + y.enabledPointers.length) (by omega) a y ha hy (fun c β => (h c β).trans (hbr hz c β).symm) le_rfl
  have both : a.Separated → b.Separated →
      (a.detectClosest S g.proximityLimit).map (fun r => (a.get r.1, a.get r.2)) =
      (b.detectClosest S g.proximityLimit).map (fun r => (b.get r.1, b.get r.2)) := by
    intro sa sb
    rw [detectClosest_inOrder, detectClosest_inOrder, inOrder_eq S ha hb sa sb h]
  cases hda : a.detectClosest S g.proximityLimit with
  | none =>
    have sa := separated_of_none hl hda
    cases hdb : b.detectClosest S g.proximityLimit with
    | none =>
      have sb := separated_of_none hl hdb
      exact ⟨a, b, stop hda, stop hdb, ha, hb, sa, sb, inOrder_eq S ha hb sa sb h⟩
    | some r =>
      obtain ⟨i, j⟩ := r
      by_cases hz : (b.get i).coord = (b.get j).coord
      · exact inB hdb hz
      · have := both sa (separated_of_apart hdb hz)
        rw [hda, hdb] at this
        simp at this
  | some r =>
    obtain ⟨i, j⟩ := r
    by_cases hz : (a.get i).coord = (a.get j).coord
    · exact inA hda hz
    · have sa := separated_of_apart hda hz
      cases hdb : b.detectClosest S g.proximityLimit with
      | none =>
        have := both sa (separated_of_none hl hdb)
        rw [hda, hdb] at this
        simp at this
      | some r =>
        obtain ⟨i', j'⟩ := r
        by_cases hz' : (b.get i').coord = (b.get j').coord
        · exact inB hdb hz'
        · have sb := separated_of_apart hdb hz'
          have hsame := both sa sb
          rw [hda, hdb] at hsame
          simp only [Option.map_some, Option.some.injEq, Prod.mk.injEq] at hsame
          obtain ⟨x, ex, hx, hxl, hxb, -⟩ := zero ha hda
          obtain ⟨y, ey, hy, hyl, hyb, -⟩ := zero hb hdb
          obtain ⟨hi, hj, -, -⟩ := detectClosest_some hda
          obtain ⟨hi', hj', -, -⟩ := detectClosest_some hdb
          obtain ⟨kind, normal, coord, hm, -, -⟩ := mergeChoice_brings (coherent_get ha.coherent i) (coherent_get ha.coherent j)
          rw [ex, ey]
          refine ih (x.enabledPointers.length + y.enabledPointers.length) (by omega) x y hx hy (fun c β => ?_) le_rfl
          rw [hxb kind normal coord hm, hyb kind normal coord (by rw [← hsame.1, ← hsame.2]; exact hm)]
          have other : ∀ {x y : Axis}, Plain g x → Plain g y → x.Separated → y.Separated → (∀ c β, Brought x c β ↔ Brought y c β) →
              ∀ {i j i' j' : Nat}, y.Enabled i' → y.Enabled j' → x.Enabled i → x.Enabled j → x.get i = y.get i' → x.get j = y.get j' →
              (∃ k, (x.Enabled k ∧ k ≠ i ∧ k ≠ j) ∧ (x.get k).coord = c ∧ brings (x.get k).kind (x.get k).normal β = true) →
              ∃ k, (y.Enabled k ∧ k ≠ i' ∧ k ≠ j') ∧ (y.get k).coord = c ∧ brings (y.get k).kind (y.get k).normal β = true := by
            rintro x y px py sx sy hxy i j i' j' hi' hj' hi hj e1 e2 ⟨k, ⟨hk, h1, h2⟩, h3, h4⟩
            obtain ⟨l, hl, e⟩ := has_of_brought px py sx sy hxy ⟨k, hk, rfl⟩
            refine ⟨l, ⟨hl, ?_, ?_⟩, by rw [e]; exact h3, by rw [e]; exact h4⟩
            · rintro rfl
              exact sx k i hk hi h1 (by rw [e1, e])
            · rintro rfl
              exact sx k j hk hj h2 (by rw [e2, e])
          constructor
          · rintro (h1 | h1)
            · exact Or.inl (other ha hb sa sb h hi' hj' hi hj hsame.1 hsame.2 h1)
            · exact Or.inr h1
          · rintro (h1 | h1)
            · exact Or.inl (other hb ha sb sa (fun c β => (h c β).symm) hi hj hi' hj' hsame.1.symm hsame.2.symm h1)
            · exact Or.inr h1

end Verif.Asked
