import Verif.Props.Drift

/-!
# C87: the kind of the policy left where others were merged
-/

namespace Verif.Mesh
open Spec

/-- An enabled policy is as told. -/
def Axis.Holds (a : Axis) (R : ℚ → Kind → Facing → Prop) : Prop :=
  ∃ k, a.Enabled k ∧ R (a.get k).coord (a.get k).kind (a.get k).normal

/-- One merge: the two are disabled, a new one is enabled, the others are the same. -/
theorem step_exact {g : MeshParams} {x y : Axis} {i j : Nat} (hi : x.Enabled i) (hj : x.Enabled j) (hx : x.Coherent)
    (hy : x.addTooClose i j = some y) :
    ∃ kind normal coord, mergeChoice (x.get i) (x.get j) = some (kind, normal, coord) ∧
      ∀ R, (y.solveConflict g i j).Holds R ↔
        (∃ k, k ≠ i ∧ k ≠ j ∧ x.Enabled k ∧ R (x.get k).coord (x.get k).kind (x.get k).normal) ∨ R coord kind normal := by
  obtain ⟨hlen, -, hget, -, -⟩ := addTooClose_some hi hj hy
  have hsame : mergeChoice (y.get i) (y.get j) = mergeChoice (x.get i) (x.get j) := by
    rw [hget, hget, if_pos (Or.inl rfl), if_pos (Or.inr rfl)]
    rfl
  obtain ⟨⟨kind, normal, coord⟩, hm⟩ := Option.ne_none_iff_exists'.mp
    ((C27_merge (x.get i) (x.get j)).2.2 (coherent_get hx i) (coherent_get hx j))
  have hcoh := ((C27_merge (x.get i) (x.get j)).1 _ _ _ hm).2.2.2.2.2 (coherent_get hx i) (coherent_get hx j)
  have hno : ¬ ((kind = .thirds ∧ normal = .none) ∨ (kind ≠ .thirds ∧ normal ≠ .none)) := by tauto
  have he : y.solveConflict g i j = { y with policies := y.policies ++ [Policy.make g.dmax coord kind normal true] } := by
    simp only [Axis.solveConflict, hsame, hm, Axis.addPolicy]
    rw [if_neg hno]
  refine ⟨kind, normal, coord, hm, fun R => ?_⟩
  constructor
  · rintro ⟨k, hk, hR⟩
    rcases enabled_step hi hj hy k hk with ⟨h1, h2, h3, h4⟩ | ⟨-, kind', normal', coord', hm', h4⟩
    · rw [h4] at hR
      exact Or.inl ⟨k, h2, h3, h1, hR⟩
    · rw [hsame, hm] at hm'
      obtain ⟨rfl, rfl, rfl⟩ : kind = kind' ∧ normal = normal' ∧ coord = coord' := by simpa using hm'
      rw [h4] at hR
      exact Or.inr hR
  · rintro (⟨k, hki, hkj, hk, hR⟩ | hR)
    · obtain ⟨h1, h2⟩ := (step_keeps (g := g) hi hj hx hy).1 k hki hkj hk
      exact ⟨k, h1, by rw [h2]; exact hR⟩
    · refine ⟨y.policies.length, ?_, ?_⟩
      · rw [he, enabled_iff]
        refine ⟨by simp, ?_⟩
        rw [get_append, if_pos rfl]
        rfl
      · rw [he, get_append, if_pos rfl]
        exact hR

/-- Taking two out of the enabled policies. -/
theorem holds_split {x : Axis} {i j : Nat} (hi : x.Enabled i) (hj : x.Enabled j) (R : ℚ → Kind → Facing → Prop) :
    x.Holds R ↔ (∃ k, k ≠ i ∧ k ≠ j ∧ x.Enabled k ∧ R (x.get k).coord (x.get k).kind (x.get k).normal) ∨
      R (x.get i).coord (x.get i).kind (x.get i).normal ∨ R (x.get j).coord (x.get j).kind (x.get j).normal := by
  constructor
  · rintro ⟨k, hk, hR⟩
    by_cases h1 : k = i
    · subst h1
      exact Or.inr (Or.inl hR)
    by_cases h2 : k = j
    · subst h2
      exact Or.inr (Or.inr hR)
    exact Or.inl ⟨k, h1, h2, hk, hR⟩
  · rintro (⟨k, -, -, hk, hR⟩ | hR | hR)
    · exact ⟨k, hk, hR⟩
    · exact ⟨i, hi, hR⟩
    · exact ⟨j, hj, hR⟩

/-- The kinds two policies may have together, and that of what they are merged into. -/
inductive Merge : Kind → Facing → Kind → Facing → Kind → Facing → Prop
  | left (k n) : Merge .oneline .none k n .oneline .none
  | right (k n) : Merge k n .oneline .none .oneline .none
  | halfs : Merge .halfs .none .halfs .none .halfs .none
  | halfsThirds (n) (h : n ≠ .none) : Merge .halfs .none .thirds n .halfs .none
  | thirdsHalfs (n) (h : n ≠ .none) : Merge .thirds n .halfs .none .halfs .none
  | apart : Merge .thirds .min .thirds .max .halfs .none
  | apart' : Merge .thirds .max .thirds .min .halfs .none
  | same (n) (h : n ≠ .none) : Merge .thirds n .thirds n .thirds n

theorem merge_kinds {p q : Policy} (hp : p.Coherent) (hq : q.Coherent) {kind : Kind} {normal : Facing} {coord : ℚ}
    (h : mergeChoice p q = some (kind, normal, coord)) : Merge p.kind p.normal q.kind q.normal kind normal := by
  unfold Policy.Coherent at hp hq
  unfold mergeChoice at h
  generalize p.kind = pk at *
  generalize p.normal = pn at *
  generalize q.kind = qk at *
  generalize q.normal = qn at *
  cases pk <;> cases qk <;> cases pn <;> cases qn <;> simp at hp hq h <;> obtain ⟨rfl, rfl, -⟩ := h <;>
    first | exact .left _ _ | exact .right _ _ | exact .halfs | exact .halfsThirds _ (by simp) | exact .thirdsHalfs _ (by simp) |
      exact .apart | exact .apart' | exact .same _ (by simp)

/-- What the policies ask for together does not change in a merge. -/
theorem votes {O H : Prop} {T : Facing → Prop} {O' H' : Prop} {T' : Facing → Prop} {ki kj k : Kind} {ni nj n : Facing}
    (hm : Merge ki ni kj nj k n) (h4 : (O ∨ ki = .oneline ∨ kj = .oneline) ↔ O')
    (h5 : ¬ O' → (((H ∨ ki = .halfs ∨ kj = .halfs) ∨ ((T .min ∨ (ki = .thirds ∧ ni = .min) ∨ (kj = .thirds ∧ nj = .min)) ∧
      (T .max ∨ (ki = .thirds ∧ ni = .max) ∨ (kj = .thirds ∧ nj = .max)))) ↔ (H' ∨ (T' .min ∧ T' .max))))
    (h6 : ∀ m, (T m ∨ (ki = .thirds ∧ ni = m) ∨ (kj = .thirds ∧ nj = m)) → T' m) :
    ((O ∨ k = .oneline) ↔ O') ∧
    (¬ O' → (((H ∨ k = .halfs) ∨ ((T .min ∨ (k = .thirds ∧ n = .min)) ∧ (T .max ∨ (k = .thirds ∧ n = .max)))) ↔
      (H' ∨ (T' .min ∧ T' .max)))) ∧
    ∀ m, (T m ∨ (k = .thirds ∧ n = m)) → T' m := by
  cases hm with
  | left => simp at h4 h5 h6 ⊢; exact ⟨h4, fun h => absurd h4 h, fun m hm => h6 m (Or.inl hm)⟩
  | right => simp at h4 h5 h6 ⊢; exact ⟨h4, fun h => absurd h4 h, fun m hm => h6 m (Or.inl hm)⟩
  | halfs => simp at h4 h5 h6 ⊢; exact ⟨h4, h5, h6⟩
  | halfsThirds => simp at h4 h5 h6 ⊢; exact ⟨h4, h5, fun m hm => h6 m (Or.inl hm)⟩
  | thirdsHalfs => simp at h4 h5 h6 ⊢; exact ⟨h4, h5, fun m hm => h6 m (Or.inl hm)⟩
  | apart => simp at h4 h5 h6 ⊢; exact ⟨h4, h5, fun m hm => h6 m (Or.inl hm)⟩
  | apart' => simp at h4 h5 h6 ⊢; exact ⟨h4, h5, fun m hm => h6 m (Or.inl hm)⟩
  | same => simp at h4 h5 h6 ⊢; exact ⟨h4, h5, h6⟩

/-- Some of the policies at `c` ask for one line, for halves, or face this way. -/
def Axis.One (a : Axis) (c : ℚ) : Prop := a.Holds fun coord kind _ => coord = c ∧ kind = .oneline
@[inherit_doc Axis.One] def Axis.Half (a : Axis) (c : ℚ) : Prop := a.Holds fun coord kind _ => coord = c ∧ kind = .halfs
@[inherit_doc Axis.One] def Axis.Third (a : Axis) (c : ℚ) (n : Facing) : Prop :=
  a.Holds fun coord kind normal => coord = c ∧ kind = .thirds ∧ normal = n

/-- C87. Where enabled policies stand at a coordinate, and all others further than the proximity limit from it, merging leaves
exactly one there: it asks for one line when one of them did; else for halves when one of them did or when they faced both ways;
else it is one of thirds that faces the way they all did. -/
theorem C87_kind (S : Sorter Nat) (g : MeshParams) (a b : Axis) (hu : a.Unmerged) (hc : a.Coherent)
    (hl : 0 ≤ g.proximityLimit) (h : a.solveTooClose S g = some b) {c : ℚ} (hat : ∃ k, a.Enabled k ∧ (a.get k).coord = c)
    (hfar : ∀ k, a.Enabled k → (a.get k).coord = c ∨ g.proximityLimit < |(a.get k).coord - c|) :
    ∃ k, b.Enabled k ∧ (b.get k).coord = c ∧ (∀ j, b.Enabled j → j ≠ k → g.proximityLimit < |(b.get j).coord - c|) ∧
      (a.One c → (b.get k).kind = .oneline ∧ (b.get k).normal = .none) ∧
      (¬ a.One c → a.Half c ∨ (a.Third c .min ∧ a.Third c .max) → (b.get k).kind = .halfs ∧ (b.get k).normal = .none) ∧
      (¬ a.One c → ¬ a.Half c → ¬ (a.Third c .min ∧ a.Third c .max) →
        (b.get k).kind = .thirds ∧ (b.get k).normal ≠ .none ∧ a.Third c (b.get k).normal) := by
  let P : Axis → Prop := fun x => x.Coherent ∧ (x.Holds fun coord _ _ => coord = c) ∧
    (¬ x.Holds fun coord _ _ => ¬ (coord = c ∨ g.proximityLimit < |coord - c|)) ∧ (x.One c ↔ a.One c) ∧
    (¬ a.One c → ((x.Half c ∨ (x.Third c .min ∧ x.Third c .max)) ↔ (a.Half c ∨ (a.Third c .min ∧ a.Third c .max)))) ∧
    ∀ n, x.Third c n → a.Third c n
  have hstep : ∀ x i j y, x.Unmerged → P x → x.detectClosest S g.proximityLimit = some (i, j) →
      x.addTooClose i j = some y → P (y.solveConflict g i j) := by
    intro x i j y _ ⟨hx1, hx2, hx3, hx4, hx5, hx6⟩ hd hy
    obtain ⟨hi, hj, hne, hclose⟩ := detectClosest_some hd
    obtain ⟨kind, normal, coord, hm, hold⟩ := step_exact (g := g) hi hj hx1 hy
    have ci := coherent_get hx1 i
    have cj := coherent_get hx1 j
    have fi : (x.get i).coord = c ∨ g.proximityLimit < |(x.get i).coord - c| := by
      by_contra hn
      exact hx3 ⟨i, hi, hn⟩
    have fj : (x.get j).coord = c ∨ g.proximityLimit < |(x.get j).coord - c| := by
      by_contra hn
      exact hx3 ⟨j, hj, hn⟩
    obtain ⟨hlo, hhi⟩ := mergeChoice_between hm
    -- both are at the coordinate, or on one side of it
    have hcase : ((x.get i).coord = c ∧ (x.get j).coord = c ∧ coord = c) ∨
        ((x.get i).coord ≠ c ∧ (x.get j).coord ≠ c ∧ coord ≠ c ∧ g.proximityLimit < |coord - c|) := by
      have away : ∀ {u w : ℚ}, |u - w| ≤ g.proximityLimit → g.proximityLimit < |u - c| → g.proximityLimit < |w - c| →
          min u w ≤ coord → coord ≤ max u w → g.proximityLimit < |coord - c| := by
        intro u w h1 h2 h3 h4 h5
        rw [abs_le] at h1
        rw [lt_abs] at h2 h3 ⊢
        rcases le_total u w with hle | hle
        · rw [min_eq_left hle] at h4
          rw [max_eq_right hle] at h5
          rcases h2 with h2 | h2 <;> rcases h3 with h3 | h3
          · left; linarith
          · left; linarith
          · linarith
          · right; linarith
        · rw [min_eq_right hle] at h4
          rw [max_eq_left hle] at h5
          rcases h2 with h2 | h2 <;> rcases h3 with h3 | h3
          · left; linarith
          · linarith
          · left; linarith
          · right; linarith
      rcases fi with e | fi <;> rcases fj with e' | fj
      · left
        rw [e, e', min_self] at hlo
        rw [e, e', max_self] at hhi
        exact ⟨e, e', le_antisymm hhi hlo⟩
      · rw [e, abs_sub_comm] at hclose
        linarith
      · rw [e'] at hclose
        linarith
      · right
        have h1 := away hclose fi fj hlo hhi
        refine ⟨?_, ?_, ?_, h1⟩ <;> intro e
        · rw [e, sub_self, abs_zero] at fi; linarith
        · rw [e, sub_self, abs_zero] at fj; linarith
        · rw [e, sub_self, abs_zero] at h1; linarith
    refine ⟨coherent_step hx1 hy, ?_⟩
    rcases hcase with ⟨e1, e2, e3⟩ | ⟨e1, e2, e3, e4⟩
    · have hin := fun R => holds_split hi hj (x := x) R
      simp only [Axis.One, Axis.Half, Axis.Third] at hx4 hx5 hx6 ⊢
      simp only [hold]
      simp only [hin, e1, e2, true_and] at hx2 hx3 hx4 hx5 hx6
      simp only [e3, true_and, or_true, true_or]
      refine ⟨?_, ?_⟩
      · rintro (hn | hn)
        · exact hx3 (Or.inl hn)
        · exact hn trivial
      · exact votes (merge_kinds ci cj hm) hx4 hx5 hx6
    · simp only [Axis.One, Axis.Half, Axis.Third] at hx4 hx5 hx6 ⊢
      simp only [hold]
      simp only [holds_split hi hj, e1, e2, false_and, or_false] at hx2 hx3 hx4 hx5 hx6
      simp only [e3, false_and, or_false]
      refine ⟨hx2, ?_, hx4, hx5, hx6⟩
      rintro (hn | hn)
      · exact hx3 (Or.inl hn)
      · exact hn (Or.inr e4)
  have hhold : a.Holds fun coord _ _ => coord = c := hat
  obtain ⟨b', hb', -, ⟨h1, h2, h3, h4, h5, h6⟩, hnone⟩ := solveTooClose_induct S g P hstep _ a le_rfl hu
    ⟨hc, hhold, fun ⟨k, hk, hn⟩ => hn (hfar k hk), Iff.rfl, fun _ => Iff.rfl, fun _ => id⟩
  rw [h] at hb'
  cases hb'
  obtain ⟨k, hk, hkc⟩ := h2
  have hother : ∀ j, b.Enabled j → j ≠ k → g.proximityLimit < |(b.get j).coord - c| := by
    intro j hj hjk
    have := detectClosest_none hnone j k hj hk hjk
    rwa [hkc] at this
  have honly : ∀ j, b.Enabled j → (b.get j).coord = c → j = k := by
    intro j hj hjc
    by_contra hjk
    have := hother j hj hjk
    rw [hjc, sub_self, abs_zero] at this
    linarith
  have hck := coherent_get h1 k
  unfold Policy.Coherent at hck
  have hO : b.One c ↔ (b.get k).kind = .oneline :=
    ⟨fun ⟨j, hj, hjc, hkind⟩ => honly j hj hjc ▸ hkind, fun hkind => ⟨k, hk, hkc, hkind⟩⟩
  have hH : b.Half c ↔ (b.get k).kind = .halfs :=
    ⟨fun ⟨j, hj, hjc, hkind⟩ => honly j hj hjc ▸ hkind, fun hkind => ⟨k, hk, hkc, hkind⟩⟩
  have hT : ∀ n, b.Third c n ↔ (b.get k).kind = .thirds ∧ (b.get k).normal = n := fun n =>
    ⟨fun ⟨j, hj, hjc, hkind⟩ => honly j hj hjc ▸ hkind, fun hkind => ⟨k, hk, hkc, hkind⟩⟩
  rw [hO] at h4
  rw [hH, hT, hT] at h5
  refine ⟨k, hk, hkc, hother, fun ho => ?_, fun hno hh => ?_, fun hno hnh hnt => ?_⟩
  · have := h4.2 ho
    rw [this] at hck
    exact ⟨this, by simpa using hck⟩
  · rcases (h5 hno).2 hh with hk | ⟨⟨-, hk⟩, -, hk'⟩
    · rw [hk] at hck
      exact ⟨hk, by simpa using hck⟩
    · rw [hk] at hk'
      cases hk'
  · have hthirds : (b.get k).kind = .thirds := by
      cases hkind : (b.get k).kind with
      | oneline => exact absurd (h4.1 hkind) hno
      | halfs => exact absurd ((h5 hno).1 (Or.inl hkind)) (by tauto)
      | thirds => rfl
    exact ⟨hthirds, hck.1 hthirds, h6 _ ((hT _).2 ⟨hthirds, rfl⟩)⟩

/-- C87, the others: in the same case, when there are policies above the coordinate there are some left, and the same below. -/
theorem C87_others (S : Sorter Nat) (g : MeshParams) (a b : Axis) (hu : a.Unmerged) (hc : a.Coherent)
    (hl : 0 ≤ g.proximityLimit) (h : a.solveTooClose S g = some b) {c : ℚ}
    (hfar : ∀ k, a.Enabled k → (a.get k).coord = c ∨ g.proximityLimit < |(a.get k).coord - c|) :
    ((∃ k, a.Enabled k ∧ c < (a.get k).coord) → ∃ k, b.Enabled k ∧ c < (b.get k).coord) ∧
    ((∃ k, a.Enabled k ∧ (a.get k).coord < c) → ∃ k, b.Enabled k ∧ (b.get k).coord < c) := by
  let P : Axis → Prop := fun x => x.Coherent ∧
    (¬ x.Holds fun coord _ _ => ¬ (coord = c ∨ g.proximityLimit < |coord - c|)) ∧
    ((a.Holds fun coord _ _ => c < coord) → x.Holds fun coord _ _ => c < coord) ∧
    ((a.Holds fun coord _ _ => coord < c) → x.Holds fun coord _ _ => coord < c)
  have hstep : ∀ x i j y, x.Unmerged → P x → x.detectClosest S g.proximityLimit = some (i, j) →
      x.addTooClose i j = some y → P (y.solveConflict g i j) := by
    intro x i j y _ ⟨hx1, hx3, hx4, hx5⟩ hd hy
    obtain ⟨hi, hj, hne, hclose⟩ := detectClosest_some hd
    obtain ⟨kind, normal, coord, hm, hold⟩ := step_exact (g := g) hi hj hx1 hy
    have fi : (x.get i).coord = c ∨ g.proximityLimit < |(x.get i).coord - c| := by
      by_contra hn
      exact hx3 ⟨i, hi, hn⟩
    have fj : (x.get j).coord = c ∨ g.proximityLimit < |(x.get j).coord - c| := by
      by_contra hn
      exact hx3 ⟨j, hj, hn⟩
    obtain ⟨hlo, hhi⟩ := mergeChoice_between hm
    simp only [P, hold]
    simp only [holds_split hi hj] at hx3 hx4 hx5
    generalize (x.get i).coord = u at *
    generalize (x.get j).coord = w at *
    have hcase : (u = c ∧ w = c ∧ coord = c) ∨ (c < u ∧ c < w ∧ c < coord ∧ g.proximityLimit < |coord - c|) ∨
        (u < c ∧ w < c ∧ coord < c ∧ g.proximityLimit < |coord - c|) := by
      rw [abs_le] at hclose
      rw [lt_abs] at fi fj ⊢
      rcases fi with fi | fi | fi <;> rcases fj with fj | fj | fj
      · left
        rw [fi, fj, min_self] at hlo
        rw [fi, fj, max_self] at hhi
        exact ⟨fi, fj, le_antisymm hhi hlo⟩
      all_goals first
        | (exfalso; linarith)
        | (right; left
           have : c + g.proximityLimit < coord := lt_of_lt_of_le (lt_min (by linarith) (by linarith)) hlo
           exact ⟨by linarith, by linarith, by linarith, Or.inl (by linarith)⟩)
        | (right; right
           have : coord < c - g.proximityLimit := lt_of_le_of_lt hhi (max_lt (by linarith) (by linarith))
           exact ⟨by linarith, by linarith, by linarith, Or.inr (by linarith)⟩)
    refine ⟨coherent_step hx1 hy, ?_, fun ha => ?_, fun ha => ?_⟩
    · rintro (hn | hn)
      · exact hx3 (Or.inl hn)
      · rcases hcase with ⟨-, -, e⟩ | ⟨-, -, -, e⟩ | ⟨-, -, -, e⟩
        · exact hn (Or.inl e)
        · exact hn (Or.inr e)
        · exact hn (Or.inr e)
    · rcases hx4 ha with hn | hn | hn
      · exact Or.inl hn
      all_goals
        right
        rcases hcase with ⟨e1, e2, e⟩ | ⟨-, -, e, -⟩ | ⟨e1, e2, -, -⟩
        · linarith
        · exact e
        · linarith
    · rcases hx5 ha with hn | hn | hn
      · exact Or.inl hn
      all_goals
        right
        rcases hcase with ⟨e1, e2, e⟩ | ⟨e1, e2, -, -⟩ | ⟨-, -, e, -⟩
        · linarith
        · linarith
        · exact e
  obtain ⟨b', hb', -, ⟨-, -, h4, h5⟩, -⟩ := solveTooClose_induct S g P hstep _ a le_rfl hu
    ⟨hc, fun ⟨k, hk, hn⟩ => hn (hfar k hk), id, id⟩
  rw [h] at hb'
  cases hb'
  exact ⟨h4, h5⟩

/-- Two policies at one coordinate facing both ways, two facing the same way at another, and one line with halves at a third. -/
def mixed : Axis :=
  ⟨[⟨0, .thirds, .min, true, 2⟩, ⟨0, .thirds, .max, true, 2⟩, ⟨10, .thirds, .min, true, 2⟩, ⟨10, .thirds, .min, true, 2⟩,
    ⟨20, .oneline, .none, true, 2⟩, ⟨20, .halfs, .none, true, 2⟩], [], [], []⟩

example : mixed.Unmerged ∧ mixed.Coherent ∧ ∃ b, mixed.solveTooClose (Sorter.insertion Nat) ⟨2, 1, 1, 5⟩ = some b ∧
    (b.policies.filter Policy.enabled).map (fun p => (p.coord, p.kind, p.normal)) =
      [(0, .halfs, .none), (10, .thirds, .min), (20, .oneline, .none)] ∧
    ∀ c ∈ [(0 : ℚ), 10, 20], (∃ k, mixed.Enabled k ∧ (mixed.get k).coord = c) ∧
      ∀ k, mixed.Enabled k → (mixed.get k).coord = c ∨ 2 < |(mixed.get k).coord - c| := by
  have h : (mixed.solveTooCloseF (Sorter.insertion Nat) ⟨2, 1, 1, 5⟩ 9).any (fun b =>
      decide ((b.policies.filter Policy.enabled).map (fun p => (p.coord, p.kind, p.normal)) =
        [(0, .halfs, .none), (10, .thirds, .min), (20, .oneline, .none)])) = true := by
    decide +kernel
  obtain ⟨b, hb, h⟩ := (Option.any_eq_true _ _).1 h
  refine ⟨by intro c hc; simp [mixed] at hc, ?_, b, (solveTooCloseF_below ..).eq _ hb, of_decide_eq_true h, ?_⟩
  · intro p hp
    simp only [mixed, List.mem_cons, List.not_mem_nil, or_false] at hp
    rcases hp with rfl | rfl | rfl | rfl | rfl | rfl <;> simp [Policy.Coherent]
  · have hall : ∀ c ∈ [(0 : ℚ), 10, 20], (∃ k < 6, mixed.policies[k]?.any (fun p => p.enabled) = true ∧ (mixed.get k).coord = c) ∧
        ∀ k < 6, (mixed.get k).coord = c ∨ 2 < |(mixed.get k).coord - c| := by decide +kernel
    intro c hc
    obtain ⟨⟨k, -, h1, h2⟩, h3⟩ := hall c hc
    obtain ⟨p, hp, he⟩ := (Option.any_eq_true _ _).1 h1
    refine ⟨⟨k, ⟨p, hp, he⟩, h2⟩, fun k hk => h3 k ?_⟩
    obtain ⟨p, hp, -⟩ := hk
    exact (List.getElem?_eq_some_iff.1 hp).1

end Verif.Mesh
