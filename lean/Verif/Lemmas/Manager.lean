import Verif.Spec.Manager
import Verif.Lemmas.IntervalSolve
import Mathlib.Data.List.Perm.Subperm
import Mathlib.Data.List.Sort
import Mathlib.Data.List.Infix

/-! # Lemmas about the policies of an axis -/

namespace Verif.Mesh

/-- `std::stable_sort`, as an instance of a sort. -/
def Sorter.merge (α : Type) : Sorter α where
  sort key l := l.mergeSort fun a b => decide (key a ≤ key b)
  perm key l := List.mergeSort_perm l _
  sorted key l := by
    have := List.pairwise_mergeSort (le := fun a b => decide (key a ≤ key b))
      (fun a b c h1 h2 => by simp only [decide_eq_true_eq] at *; exact h1.trans h2)
      (fun a b => by simp only [Bool.or_eq_true, decide_eq_true_eq]; exact le_total _ _) l
    exact this.imp fun h => by simpa using h

theorem mem_enabledPointers {a : Axis} {k : Nat} : k ∈ a.enabledPointers ↔ a.Enabled k := by
  unfold Axis.enabledPointers Axis.pointers Axis.Enabled Axis.get
  rw [List.mem_filter, List.mem_range]
  constructor
  · rintro ⟨h1, h2⟩
    refine ⟨a.policies[k], by simp [h1], ?_⟩
    simpa [h1] using h2
  · rintro ⟨p, h1, h2⟩
    have hlt : k < a.policies.length := (List.getElem?_eq_some_iff.mp h1).1
    refine ⟨hlt, ?_⟩
    rw [h1]; exact h2

theorem nodup_enabledPointers (a : Axis) : a.enabledPointers.Nodup := List.nodup_range.filter _

theorem Axis.Enabled.lt {a : Axis} {k : Nat} (h : a.Enabled k) : k < a.policies.length := by
  obtain ⟨p, h1, _⟩ := h
  exact (List.getElem?_eq_some_iff.mp h1).1

theorem Axis.Enabled.get {a : Axis} {k : Nat} (h : a.Enabled k) : a.policies[k]? = some (a.get k) := by
  obtain ⟨p, h1, _⟩ := h
  simp [Axis.get, h1]

theorem Axis.Enabled.enabled {a : Axis} {k : Nat} (h : a.Enabled k) : (a.get k).enabled = true := by
  obtain ⟨p, h1, h2⟩ := h
  simp [Axis.get, h1, h2]

theorem enabled_iff {a : Axis} {k : Nat} : a.Enabled k ↔ k < a.policies.length ∧ (a.get k).enabled = true := by
  constructor
  · exact fun h => ⟨h.lt, h.enabled⟩
  · rintro ⟨h1, h2⟩
    exact ⟨a.policies[k], by simp [h1], by simpa [Axis.get, h1] using h2⟩

theorem get_mem {a : Axis} {k : Nat} (h : k < a.policies.length) : a.get k ∈ a.policies := by
  have : a.get k = a.policies[k] := by simp [Axis.get, h]
  rw [this]; exact List.getElem_mem h

theorem get_set {a : Axis} {i k : Nat} {p : Policy} (h : i < a.policies.length) :
    (a.set i p).get k = if k = i then p else a.get k := by
  unfold Axis.get Axis.set
  simp only [List.getElem?_set]
  by_cases hk : k = i
  · subst hk; simp [h]
  · simp [hk, Ne.symm hk]

@[simp] theorem length_set {a : Axis} {i : Nat} {p : Policy} : (a.set i p).policies.length = a.policies.length := by
  simp [Axis.set]

@[simp] theorem conflicts_set {a : Axis} {i : Nat} {p : Policy} : (a.set i p).conflicts = a.conflicts := rfl

theorem get_append {a : Axis} {p : Policy} {k : Nat} :
    (Axis.get { a with policies := a.policies ++ [p] }) k = if k = a.policies.length then p else a.get k := by
  unfold Axis.get
  simp only
  by_cases h : k < a.policies.length
  · rw [List.getElem?_append_left h, if_neg (by omega)]
  · rw [List.getElem?_append_right (by omega)]
    by_cases h2 : k = a.policies.length
    · subst h2; simp
    · rw [if_neg h2, List.getElem?_eq_none (by simp; omega), List.getElem?_eq_none (by omega)]

/-! ## The closest pair -/

theorem closestLoop_nil (ps : Policies) (best : Option (ℚ × Nat × Nat)) : closestLoop ps best [] = best := rfl

theorem closestLoop_one (ps : Policies) (best : Option (ℚ × Nat × Nat)) (x : Nat) :
    closestLoop ps best [x] = best := rfl

/-- The better of the best pair so far and the next one. -/
def better (best : Option (ℚ × Nat × Nat)) (space : ℚ) (x y : Nat) : Option (ℚ × Nat × Nat) :=
  match best with
  | none => some (space, x, y)
  | some (s, b) => if space < s then some (space, x, y) else some (s, b)

theorem closestLoop_cons (ps : Policies) (best : Option (ℚ × Nat × Nat)) (x y : Nat) (rest : List Nat) :
    closestLoop ps best (x :: y :: rest) =
      closestLoop ps (better best |(ps x).coord - (ps y).coord| x y) (y :: rest) := rfl

theorem closestLoop_spec (ps : Policies) : ∀ (l : List Nat) (best : Option (ℚ × Nat × Nat)),
    (closestLoop ps best l = none ↔ best = none ∧ ∀ i j, ¬ [i, j] <:+: l) ∧
    ∀ s i j, closestLoop ps best l = some (s, i, j) →
      (best = some (s, i, j) ∨ ([i, j] <:+: l ∧ s = |(ps i).coord - (ps j).coord|)) ∧
      (∀ s' b, best = some (s', b) → s ≤ s') ∧
      ∀ i' j', [i', j'] <:+: l → s ≤ |(ps i').coord - (ps j').coord| := by
  intro l
  induction l with
  | nil =>
    intro best
    refine ⟨?_, ?_⟩
    · rw [closestLoop_nil]
      constructor
      · intro h
        refine ⟨h, fun i j h2 => ?_⟩
        have := h2.length_le
        simp at this
      · exact fun h => h.1
    · intro s i j h
      rw [closestLoop_nil] at h
      refine ⟨Or.inl h, ?_, ?_⟩
      · intro s' b hb; rw [h] at hb; cases hb; exact le_rfl
      · intro i' j' h'; have := h'.length_le; simp at this
  | cons x l ih =>
    intro best
    cases l with
    | nil =>
      refine ⟨?_, ?_⟩
      · rw [closestLoop_one]
        constructor
        · intro h
          refine ⟨h, fun i j h2 => ?_⟩
          have := h2.length_le
          simp at this
        · exact fun h => h.1
      · intro s i j h
        rw [closestLoop_one] at h
        refine ⟨Or.inl h, ?_, ?_⟩
        · intro s' b hb; rw [h] at hb; cases hb; exact le_rfl
        · intro i' j' h'; have := h'.length_le; simp at this
    | cons y rest =>
      have hinf : ∀ i j, [i, j] <:+: x :: y :: rest ↔ (i = x ∧ j = y) ∨ [i, j] <:+: y :: rest := by
        intro i j
        rw [List.infix_cons_iff]
        constructor
        · rintro (h | h)
          · left
            obtain ⟨t, ht⟩ := h
            simp only [List.cons_append, List.nil_append, List.cons.injEq] at ht
            exact ⟨ht.1, ht.2.1⟩
          · exact Or.inr h
        · rintro (⟨rfl, rfl⟩ | h)
          · exact Or.inl ⟨rest, rfl⟩
          · exact Or.inr h
      rw [closestLoop_cons]
      obtain ⟨best', hb'⟩ : ∃ b, b = better best |(ps x).coord - (ps y).coord| x y := ⟨_, rfl⟩
      rw [← hb']
      obtain ⟨ih1, ih2⟩ := ih best'
      have hsome : ∃ s b, best' = some (s, b) ∧ s ≤ |(ps x).coord - (ps y).coord| ∧
          (∀ s' b', best = some (s', b') → s ≤ s') ∧
          (best = some (s, b) ∨ (b = (x, y) ∧ s = |(ps x).coord - (ps y).coord|)) := by
        rw [hb']
        unfold better
        rcases best with _ | ⟨s, b⟩
        · exact ⟨_, _, rfl, le_rfl, fun _ _ h => by simp at h, Or.inr ⟨rfl, rfl⟩⟩
        · by_cases h : |(ps x).coord - (ps y).coord| < s
          · simp only [h, if_true]
            exact ⟨_, _, rfl, le_rfl, fun s' b' h' => by cases h'; exact h.le, Or.inr ⟨rfl, rfl⟩⟩
          · simp only [h, if_false]
            exact ⟨_, _, rfl, not_lt.mp h, fun s' b' h' => by cases h'; exact le_rfl, Or.inl rfl⟩
      obtain ⟨s0, b0, e0, le0, le1, or0⟩ := hsome
      constructor
      · rw [ih1]
        constructor
        · rintro ⟨h, _⟩; rw [e0] at h; cases h
        · rintro ⟨_, h⟩; exact absurd ((hinf x y).mpr (Or.inl ⟨rfl, rfl⟩)) (h x y)
      · intro s i j h
        obtain ⟨h1, h2, h3⟩ := ih2 s i j h
        have hs0 := h2 s0 b0 e0
        refine ⟨?_, ?_, ?_⟩
        · rcases h1 with h1 | ⟨h1, h1'⟩
          · rw [e0] at h1
            cases h1
            rcases or0 with h | ⟨h, h'⟩
            · exact Or.inl h
            · cases h
              exact Or.inr ⟨(hinf _ _).mpr (Or.inl ⟨rfl, rfl⟩), h'⟩
          · exact Or.inr ⟨(hinf _ _).mpr (Or.inr h1), h1'⟩
        · intro s' b' hb
          exact hs0.trans (le1 s' b' hb)
        · intro i' j' h'
          rcases (hinf i' j').mp h' with ⟨rfl, rfl⟩ | h'
          · exact hs0.trans le0
          · exact h3 i' j' h'

/-- In a sorted list, the distance of any two elements is at least that of some two consecutive ones. -/
theorem sorted_gap {key : Nat → ℚ} {l : List Nat} (hs : l.Pairwise fun a b => key a ≤ key b) {s : ℚ}
    (h : ∀ i j, [i, j] <:+: l → s ≤ |key i - key j|) :
    l.Pairwise fun a b => s ≤ |key a - key b| := by
  induction l with
  | nil => exact List.Pairwise.nil
  | cons x l ih =>
    rw [List.pairwise_cons] at hs ⊢
    refine ⟨?_, ih hs.2 fun i j h' => h i j (List.infix_cons_iff.mpr (Or.inr h'))⟩
    intro y hy
    cases l with
    | nil => cases hy
    | cons z l =>
      have h1 := h x z ⟨[], l, rfl⟩
      have h2 : key z ≤ key y := by
        rcases List.mem_cons.mp hy with rfl | hy
        · exact le_rfl
        · exact (List.pairwise_cons.mp hs.2).1 y hy
      have h3 := hs.1 z (by simp)
      rw [abs_sub_comm, abs_of_nonneg (by linarith)] at h1 ⊢
      linarith

theorem infix_mem {i j : Nat} {l : List Nat} (h : [i, j] <:+: l) : i ∈ l ∧ j ∈ l :=
  ⟨h.subset (by simp), h.subset (by simp)⟩

theorem infix_ne {i j : Nat} {l : List Nat} (h : [i, j] <:+: l) (hn : l.Nodup) : i ≠ j := by
  have := hn.sublist h.sublist
  simp at this
  exact this

/-- What `detect_closest` finds. -/
theorem detectClosest_some {S : Sorter Nat} {a : Axis} {limit : ℚ} {i j : Nat}
    (h : a.detectClosest S limit = some (i, j)) :
    a.Enabled i ∧ a.Enabled j ∧ i ≠ j ∧ |(a.get i).coord - (a.get j).coord| ≤ limit := by
  unfold Axis.detectClosest at h
  have hspec := closestLoop_spec a.get (S.sort (fun i => (a.get i).coord) a.enabledPointers) none
  split at h
  · cases h
  · rename_i s p heq
    split at h
    · rename_i hle
      cases h
      obtain ⟨h1, -, -⟩ := hspec.2 _ _ _ heq
      rcases h1 with h1 | ⟨h1, h2⟩
      · cases h1
      · have hp := S.perm (fun i => (a.get i).coord) a.enabledPointers
        refine ⟨mem_enabledPointers.mp (hp.mem_iff.mp (infix_mem h1).1),
          mem_enabledPointers.mp (hp.mem_iff.mp (infix_mem h1).2),
          infix_ne h1 (hp.nodup_iff.mpr (nodup_enabledPointers a)), ?_⟩
        rw [← h2]; exact hle
    · cases h

/-- When it finds nothing, all enabled policies are farther apart than the limit. -/
theorem detectClosest_none {S : Sorter Nat} {a : Axis} {limit : ℚ} (h : a.detectClosest S limit = none) :
    ∀ i j, a.Enabled i → a.Enabled j → i ≠ j → limit < |(a.get i).coord - (a.get j).coord| := by
  have hspec := closestLoop_spec a.get (S.sort (fun i => (a.get i).coord) a.enabledPointers) none
  have hp := S.perm (fun i => (a.get i).coord) a.enabledPointers
  have hsorted := S.sorted (fun i => (a.get i).coord) a.enabledPointers
  set l := S.sort (fun i => (a.get i).coord) a.enabledPointers with hl
  have key : l.Pairwise fun i j => limit < |(a.get i).coord - (a.get j).coord| := by
    unfold Axis.detectClosest at h
    rw [← hl] at h
    split at h
    · rename_i heq
      have hno := (hspec.1.mp heq).2
      match l with
      | [] => exact List.Pairwise.nil
      | [_] => exact List.pairwise_singleton _ _
      | x :: y :: r => exact absurd ⟨[], r, rfl⟩ (hno x y)
    · rename_i s p heq
      split at h
      · cases h
      · rename_i hle
        obtain ⟨-, -, h3⟩ := hspec.2 _ _ _ heq
        exact (sorted_gap hsorted h3).imp fun h => lt_of_lt_of_le (not_le.mp hle) h
  intro i j hi hj hne
  have hi' := hp.mem_iff.mpr (mem_enabledPointers.mpr hi)
  have hj' := hp.mem_iff.mpr (mem_enabledPointers.mpr hj)
  have : Std.Symm fun i j => limit < |(a.get i).coord - (a.get j).coord| :=
    ⟨fun x y h => by rw [abs_sub_comm]; exact h⟩
  exact key.forall hi' hj' hne

/-! ## One merge -/

theorem addTooClose_some {a b : Axis} {i j : Nat} (hi : a.Enabled i) (hj : a.Enabled j)
    (h : a.addTooClose i j = some b) :
    b.policies.length = a.policies.length ∧ b.conflicts = a.conflicts ++ [(i, j)] ∧
      (∀ k, b.get k = if k = i ∨ k = j then { a.get k with enabled := false } else a.get k) ∧
      b.intervals = a.intervals ∧ b.meshlines = a.meshlines := by
  unfold Axis.addTooClose at h
  split at h
  · cases h
  · cases h
    refine ⟨by simp, by simp, ?_, rfl, rfl⟩
    intro k
    rw [get_set (by simp; exact hj.lt), get_set (by simpa using hi.lt)]
    have e : ∀ k, (Axis.get { a with conflicts := a.conflicts ++ [(i, j)] }) k = a.get k := fun _ => rfl
    simp only [e]
    by_cases h1 : k = j
    · subst h1; simp
    · by_cases h2 : k = i
      · subst h2; simp [h1]
      · simp [h1, h2]

theorem addTooClose_ne_none {a : Axis} {i j : Nat} (hinv : a.Unmerged) (hi : a.Enabled i) (hj : a.Enabled j) :
    ∃ b, a.addTooClose i j = some b := by
  unfold Axis.addTooClose
  rw [if_neg]
  · exact ⟨_, rfl⟩
  · simp only [List.any_eq_true, Bool.or_eq_true, beq_iff_eq, not_exists, not_and]
    intro c hc h
    obtain ⟨_, h1, h2⟩ := hinv c hc
    rcases h with ((h | h) | h) | h
    · exact h1 (h ▸ hi)
    · exact h1 (h ▸ hj)
    · exact h2 (h ▸ hi)
    · exact h2 (h ▸ hj)

/-- The merged policy, as a policy. -/
theorem solveConflict_cases (g : MeshParams) (b : Axis) (i j : Nat) :
    (b.solveConflict g i j = b) ∨
    ∃ kind normal coord, mergeChoice (b.get i) (b.get j) = some (kind, normal, coord) ∧
      b.solveConflict g i j = { b with policies := b.policies ++ [Policy.make g.dmax coord kind normal true] } := by
  unfold Axis.solveConflict
  cases h : mergeChoice (b.get i) (b.get j) with
  | none => exact Or.inl rfl
  | some r =>
    obtain ⟨kind, normal, coord⟩ := r
    simp only [Axis.addPolicy]
    split
    · exact Or.inl rfl
    · exact Or.inr ⟨kind, normal, coord, rfl, rfl⟩

theorem mergeChoice_mid {p q : Policy} {kind : Kind} {normal : Facing} {coord : ℚ}
    (h : mergeChoice p q = some (kind, normal, coord)) :
    (coord = (p.coord + q.coord) / 2 ∧ ((p.kind = .oneline) ↔ (q.kind = .oneline))) ∨
    (coord = p.coord ∧ p.kind = .oneline ∧ q.kind ≠ .oneline) ∨
    (coord = q.coord ∧ q.kind = .oneline ∧ p.kind ≠ .oneline) := by
  unfold mergeChoice at h
  cases hp : p.kind <;> cases hq : q.kind <;> simp only [hp, hq] at h
  case thirds.thirds =>
    left
    by_cases hn : p.normal = q.normal
    · simp only [hn, ne_eq, not_true_eq_false, if_false] at h
      cases hq : q.normal <;> simp [hq] at h <;> exact ⟨h.2.2.symm, by simp⟩
    · simp [hn] at h; exact ⟨h.2.2.symm, by simp⟩
  all_goals simp at h
  · exact Or.inl ⟨h.2.2.symm, by simp⟩
  · exact Or.inr (Or.inl ⟨h.2.2.symm, by simp⟩)
  · exact Or.inr (Or.inl ⟨h.2.2.symm, by simp⟩)
  · exact Or.inr (Or.inr ⟨h.2.2.symm, by simp⟩)
  · exact Or.inl ⟨h.2.2.symm, by simp⟩
  · exact Or.inl ⟨h.2.2.symm, by simp⟩
  · exact Or.inr (Or.inr ⟨h.2.2.symm, by simp⟩)
  · exact Or.inl ⟨h.2.2.symm, by simp⟩

theorem mergeChoice_between {p q : Policy} {kind : Kind} {normal : Facing} {coord : ℚ}
    (h : mergeChoice p q = some (kind, normal, coord)) :
    min p.coord q.coord ≤ coord ∧ coord ≤ max p.coord q.coord := by
  have h1 := min_le_left p.coord q.coord
  have h2 := min_le_right p.coord q.coord
  have h3 := le_max_left p.coord q.coord
  have h4 := le_max_right p.coord q.coord
  rcases mergeChoice_mid h with ⟨rfl, _⟩ | ⟨rfl, _⟩ | ⟨rfl, _⟩
  · constructor <;> linarith
  · exact ⟨h1, h3⟩
  · exact ⟨h2, h4⟩

theorem enabled_step {g : MeshParams} {a b : Axis} {i j : Nat} (hi : a.Enabled i) (hj : a.Enabled j)
    (h : a.addTooClose i j = some b) (k : Nat) :
    (b.solveConflict g i j).Enabled k → (a.Enabled k ∧ k ≠ i ∧ k ≠ j ∧ (b.solveConflict g i j).get k = a.get k) ∨
      (k = a.policies.length ∧ ∃ kind normal coord, mergeChoice (b.get i) (b.get j) = some (kind, normal, coord) ∧
        (b.solveConflict g i j).get k = Policy.make g.dmax coord kind normal true) := by
  obtain ⟨hlen, -, hget, -, -⟩ := addTooClose_some hi hj h
  intro hk
  have base : ∀ k, b.Enabled k → a.Enabled k ∧ k ≠ i ∧ k ≠ j ∧ b.get k = a.get k := by
    intro k hk
    rw [enabled_iff, hget, hlen] at hk
    by_cases hkij : k = i ∨ k = j
    · simp [hkij] at hk
    · rw [if_neg hkij] at hk
      refine ⟨enabled_iff.mpr hk, fun h => hkij (Or.inl h), fun h => hkij (Or.inr h), ?_⟩
      rw [hget, if_neg hkij]
  rcases solveConflict_cases g b i j with he | ⟨kind, normal, coord, hm, he⟩
  · rw [he] at hk ⊢
    exact Or.inl (base k hk)
  · rw [he] at hk ⊢
    by_cases hkl : k = a.policies.length
    · refine Or.inr ⟨hkl, kind, normal, coord, hm, ?_⟩
      rw [get_append, hlen, if_pos hkl]
    · left
      have hk2 : b.Enabled k := by
        have := hk.lt
        simp only [List.length_append, List.length_cons, List.length_nil, hlen] at this
        have h3 := hk.enabled
        rw [get_append, hlen, if_neg hkl] at h3
        exact enabled_iff.mpr ⟨by omega, h3⟩
      rw [get_append, hlen, if_neg hkl]
      exact base k hk2

theorem unmerged_step {g : MeshParams} {a b : Axis} {i j : Nat} (hinv : a.Unmerged) (hi : a.Enabled i)
    (hj : a.Enabled j) (h : a.addTooClose i j = some b) : (b.solveConflict g i j).Unmerged := by
  obtain ⟨hlen, hconf, hget, -, -⟩ := addTooClose_some hi hj h
  have hle : a.policies.length ≤ (b.solveConflict g i j).policies.length := by
    rcases solveConflict_cases g b i j with he | ⟨_, _, _, _, he⟩ <;> rw [he]
    · omega
    · simp [hlen]
  have hconf' : (b.solveConflict g i j).conflicts = a.conflicts ++ [(i, j)] := by
    rcases solveConflict_cases g b i j with he | ⟨_, _, _, _, he⟩ <;> rw [he] <;> exact hconf
  intro c hc
  rw [hconf', List.mem_append, List.mem_singleton] at hc
  rcases hc with hc | rfl
  · obtain ⟨⟨h1, h2⟩, h3, h4⟩ := hinv c hc
    refine ⟨⟨by omega, by omega⟩, ?_, ?_⟩
    · intro hk
      rcases enabled_step hi hj h _ hk with ⟨hk, _⟩ | ⟨hk, _⟩
      · exact h3 hk
      · omega
    · intro hk
      rcases enabled_step hi hj h _ hk with ⟨hk, _⟩ | ⟨hk, _⟩
      · exact h4 hk
      · omega
  · have := hi.lt
    have := hj.lt
    refine ⟨⟨by omega, by omega⟩, ?_, ?_⟩
    · intro hk
      rcases enabled_step hi hj h _ hk with ⟨_, hk, _⟩ | ⟨hk, _⟩
      · exact hk rfl
      · omega
    · intro hk
      rcases enabled_step hi hj h _ hk with ⟨_, _, hk, _⟩ | ⟨hk, _⟩
      · exact hk rfl
      · omega

theorem count_step {g : MeshParams} {a b : Axis} {i j : Nat} (hi : a.Enabled i) (hj : a.Enabled j) (hne : i ≠ j)
    (h : a.addTooClose i j = some b) :
    (b.solveConflict g i j).enabledPointers.length < a.enabledPointers.length := by
  have hsub : (b.solveConflict g i j).enabledPointers ⊆ a.policies.length :: (a.enabledPointers.erase i).erase j := by
    intro k hk
    rcases enabled_step hi hj h _ (mem_enabledPointers.mp hk) with ⟨h1, h2, h3, _⟩ | ⟨h1, _⟩
    · refine List.mem_cons_of_mem _ ?_
      rw [List.mem_erase_of_ne h3, List.mem_erase_of_ne h2]
      exact mem_enabledPointers.mpr h1
    · rw [h1]; simp
  have hlen := (List.subperm_of_subset (nodup_enabledPointers _) hsub).length_le
  have hi' := mem_enabledPointers.mpr hi
  have hj' : j ∈ a.enabledPointers.erase i :=
    (List.mem_erase_of_ne (Ne.symm hne)).mpr (mem_enabledPointers.mpr hj)
  rw [List.length_cons, List.length_erase_of_mem hj', List.length_erase_of_mem hi'] at hlen
  have h2 := List.length_pos_of_mem hj'
  rw [List.length_erase_of_mem hi'] at h2
  omega

/-- The merging loop ends, and keeps any invariant of a merge. -/
theorem solveTooClose_induct (S : Sorter Nat) (g : MeshParams) (P : Axis → Prop)
    (hstep : ∀ a i j b, a.Unmerged → P a → a.detectClosest S g.proximityLimit = some (i, j) →
      a.addTooClose i j = some b → P (b.solveConflict g i j)) (n : Nat) :
    ∀ a, a.enabledPointers.length ≤ n → a.Unmerged → P a →
      ∃ b, a.solveTooClose S g = some b ∧ b.Unmerged ∧ P b ∧ b.detectClosest S g.proximityLimit = none := by
  induction n with
  | zero =>
    intro a hn hinv hP
    cases hd : a.detectClosest S g.proximityLimit with
    | none =>
      refine ⟨a, ?_, hinv, hP, hd⟩
      rw [Axis.solveTooClose, hd]
    | some p =>
      obtain ⟨i, j⟩ := p
      have := mem_enabledPointers.mpr (detectClosest_some hd).1
      have := List.length_pos_of_mem this
      omega
  | succ n ih =>
    intro a hn hinv hP
    cases hd : a.detectClosest S g.proximityLimit with
    | none =>
      refine ⟨a, ?_, hinv, hP, hd⟩
      rw [Axis.solveTooClose, hd]
    | some p =>
      obtain ⟨i, j⟩ := p
      obtain ⟨hi, hj, hne, _⟩ := detectClosest_some hd
      obtain ⟨b, hb⟩ := addTooClose_ne_none hinv hi hj
      have := count_step (g := g) hi hj hne hb
      obtain ⟨c, hc, h1, h2, h3⟩ := ih (b.solveConflict g i j) (by omega) (unmerged_step hinv hi hj hb)
        (hstep a i j b hinv hP hd hb)
      refine ⟨c, ?_, h1, h2, h3⟩
      rw [Axis.solveTooClose, hd]
      simp only [hb]
      exact hc

end Verif.Mesh
