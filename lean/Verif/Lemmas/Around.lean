import Verif.Lemmas.ManagerMesh

/-! # The lines next to a policy -/

namespace Verif.Mesh
open Spec List

theorem kAfter_pos {p : Policy} (h : p.kind ≠ .oneline) : 0 < kAfter p := by
  unfold kAfter
  cases hk : p.kind <;> cases p.normal <;> simp_all

/-- The lines of an interval stay within it, and begin and end beside policies that have no line of their own. -/
theorem linesBetween_ends {D : ℚ} {p q : Policy} {l : List ℚ} (h : LinesBetween D p q l) :
    (∀ y ∈ l, p.coord ≤ y ∧ y ≤ q.coord) ∧
    (p.kind ≠ .oneline → ∃ d, 0 < d ∧ d ≤ D ∧ d ≤ p.d ∧ p.coord + kBefore p * d ∈ l ∧
      p.coord + kBefore p * d ≤ q.coord ∧ ∀ y ∈ l, p.coord + kBefore p * d ≤ y) ∧
    (q.kind ≠ .oneline → ∃ d, 0 < d ∧ d ≤ D ∧ d ≤ q.d ∧ q.coord - kAfter q * d ∈ l ∧
      p.coord ≤ q.coord - kAfter q * d ∧ ∀ y ∈ l, y ≤ q.coord - kAfter q * d) := by
  obtain ⟨dp, dq, mid, h1, h2, h3, h4, he, hc, h5, h6⟩ := h
  have hb : ∀ y ∈ oneLine p ++ l ++ oneLine q, p.coord + kBefore p * dp ≤ y ∧ y ≤ q.coord - kAfter q * dq := by
    intro y hy
    exact chain_bounds (he ▸ hc) y (by rw [← he]; exact hy)
  have hp0 := mul_nonneg (kBefore_nonneg p) h1.le
  have hq0 := mul_nonneg (kAfter_nonneg q) h3.le
  have hin : ∀ y ∈ l, y ∈ oneLine p ++ l ++ oneLine q := fun y hy => by simp [hy]
  refine ⟨fun y hy => ⟨by linarith [(hb y (hin y hy)).1], by linarith [(hb y (hin y hy)).2]⟩, fun hp => ?_, fun hq => ?_⟩
  · have e : oneLine p = [] := by simp [oneLine, hp]
    refine ⟨dp, h1, h2, h5, ?_, ?_, fun y hy => (hb y (hin y hy)).1⟩
    · rw [e, List.nil_append] at he
      cases l with
      | cons y l =>
        simp only [List.cons_append, List.cons.injEq] at he
        rw [← he.1]
        exact List.mem_cons_self ..
      | nil =>
        have := congrArg List.length he
        unfold oneLine at this
        split at this <;> simp at this
    · have := (hb (q.coord - kAfter q * dq) (by rw [he]; simp)).1
      linarith
  · have e : oneLine q = [] := by simp [oneLine, hq]
    refine ⟨dq, h3, h4, h6, ?_, ?_, fun y hy => (hb y (hin y hy)).2⟩
    · rw [e, List.append_nil] at he
      rcases List.eq_nil_or_concat l with rfl | ⟨l, y, rfl⟩
      · have := congrArg List.length he
        unfold oneLine at this
        split at this <;> simp at this
      · rw [List.concat_eq_append, ← List.append_assoc] at he
        have := (List.append_inj' he rfl).2
        simp only [List.cons.injEq, and_true] at this
        rw [← this]
        simp
    · have := (hb (p.coord + kBefore p * dp) (by rw [he]; simp)).2
      linarith

/-- What is next to a policy without a line of its own, among the lines of the axis. -/
theorem weave_around {D : ℚ} {P : List Policy} {ls : List (List ℚ)}
    (hf : Forall₂ (fun pq l => LinesBetween D pq.1 pq.2 l) (consecutive P) ls)
    (hch : P.IsChain fun p q => p.coord < q.coord) {n : Nat} (hn : n < P.length) (hk : P[n].kind ≠ .oneline) :
    P[n].coord ∉ weave P ls ∧
    (n + 1 < P.length → ∃ d, 0 < d ∧ d ≤ D ∧ d ≤ P[n].d ∧ NextAbove (weave P ls) P[n].coord (kBefore P[n] * d)) ∧
    (0 < n → ∃ d, 0 < d ∧ d ≤ D ∧ d ≤ P[n].d ∧ NextBelow (weave P ls) P[n].coord (kAfter P[n] * d)) := by
  have hlen : ls.length = P.length - 1 := by
    have := hf.length_eq
    simp [consecutive] at this
    omega
  have hlt : ∀ i j (hi : i < P.length) (hj : j < P.length), i < j → P[i].coord < P[j].coord := by
    have : P.Pairwise fun p q => p.coord < q.coord := by
      have := (List.isChain_map (R := (· < ·)) Policy.coord).2 hch
      exact List.pairwise_map.1 (List.isChain_iff_pairwise.1 this)
    intro i j hi hj h
    exact List.pairwise_iff_getElem.1 this i j hi hj h
  have hle : ∀ i j (hi : i < P.length) (hj : j < P.length), i ≤ j → P[i].coord ≤ P[j].coord := by
    intro i j hi hj h
    rcases Nat.lt_or_eq_of_le h with h | rfl
    · exact (hlt i j hi hj h).le
    · exact le_rfl
  have hget : ∀ m (hm : m + 1 < P.length), LinesBetween D P[m] P[m + 1] (ls[m]'(by omega)) := by
    intro m hm
    have := (List.forall₂_iff_get.1 hf).2 m (by simp [consecutive]; omega) (by omega)
    simpa [consecutive] using this
  have hperm : (weave P ls).Perm (ls.flatten ++ P.flatMap oneLine) := by
    cases P with
    | nil => simp at hn
    | cons p rest => exact weave_perm rest p ls (by simpa using hlen)
  have hmem : ∀ y, y ∈ weave P ls ↔ (∃ m, ∃ hm : m + 1 < P.length, y ∈ ls[m]'(by omega)) ∨
      ∃ m, ∃ hm : m < P.length, P[m].kind = .oneline ∧ y = P[m].coord := by
    intro y
    rw [hperm.mem_iff, List.mem_append, List.mem_flatten, List.mem_flatMap]
    refine or_congr ⟨?_, ?_⟩ ⟨?_, ?_⟩
    · rintro ⟨l, hl, hy⟩
      obtain ⟨m, hm, rfl⟩ := List.getElem_of_mem hl
      exact ⟨m, by omega, hy⟩
    · rintro ⟨m, hm, hy⟩
      exact ⟨_, List.getElem_mem _, hy⟩
    · rintro ⟨p, hp, hy⟩
      obtain ⟨m, hm, rfl⟩ := List.getElem_of_mem hp
      unfold oneLine at hy
      split at hy
      · exact ⟨m, hm, by assumption, by simpa using hy⟩
      · simp at hy
    · rintro ⟨m, hm, ho, rfl⟩
      exact ⟨_, List.getElem_mem hm, by simp [oneLine, ho]⟩
  refine ⟨fun hy => ?_, fun hn' => ?_, fun hn' => ?_⟩
  · rcases (hmem _).1 hy with ⟨m, hm, hy⟩ | ⟨m, hm, ho, hy⟩
    · obtain ⟨h1, h2, h3⟩ := linesBetween_ends (hget m hm)
      rcases lt_trichotomy m n with h | rfl | h
      · rcases Nat.lt_or_eq_of_le h with h | h
        · have := hlt (m + 1) n hm hn h
          linarith [(h1 _ hy).2]
        · subst h
          obtain ⟨d, hd, -, -, -, -, h⟩ := h3 hk
          have := mul_pos (kAfter_pos hk) hd
          linarith [h _ hy]
      · obtain ⟨d, hd, -, -, -, -, h⟩ := h2 hk
        have := mul_pos (kBefore_pos hk) hd
        linarith [h _ hy]
      · have := hlt n m hn (by omega) h
        linarith [(h1 _ hy).1]
    · rcases lt_trichotomy m n with h | rfl | h
      · linarith [hlt m n hm hn h]
      · exact hk ho
      · linarith [hlt n m hn hm h]
  · obtain ⟨-, h2, -⟩ := linesBetween_ends (hget n hn')
    obtain ⟨d, hd, hD, hd', hin, hq, hmin⟩ := h2 hk
    refine ⟨d, hd, hD, hd', mul_pos (kBefore_pos hk) hd, (hmem _).2 (.inl ⟨n, hn', hin⟩), fun y hy hlty => ?_⟩
    rcases (hmem _).1 hy with ⟨m, hm, hy⟩ | ⟨m, hm, ho, rfl⟩
    · obtain ⟨h1, -, -⟩ := linesBetween_ends (hget m hm)
      rcases lt_trichotomy m n with h | rfl | h
      · have := hle (m + 1) n hm hn h
        linarith [(h1 _ hy).2]
      · exact hmin y hy
      · have := hle (n + 1) m hn' (by omega) h
        linarith [(h1 _ hy).1]
    · have h : n < m := by
        by_contra h
        linarith [hle m n hm hn (by omega)]
      have := hle (n + 1) m hn' hm h
      linarith
  · obtain ⟨n, rfl⟩ : ∃ k, n = k + 1 := ⟨n - 1, by omega⟩
    obtain ⟨-, -, h2⟩ := linesBetween_ends (hget n hn)
    obtain ⟨d, hd, hD, hd', hin, hq, hmax⟩ := h2 hk
    refine ⟨d, hd, hD, hd', mul_pos (kAfter_pos hk) hd, (hmem _).2 (.inl ⟨n, hn, hin⟩), fun y hy hlty => ?_⟩
    rcases (hmem _).1 hy with ⟨m, hm, hy⟩ | ⟨m, hm, ho, rfl⟩
    · obtain ⟨h1, -, -⟩ := linesBetween_ends (hget m hm)
      rcases lt_trichotomy m n with h | rfl | h
      · have := hle (m + 1) n hm (by omega) h
        linarith [(h1 _ hy).2]
      · exact hmax y hy
      · have := hle (n + 1) m hn (by omega) h
        linarith [(h1 _ hy).1]
    · have h : m ≤ n := by
        by_contra h
        linarith [hle (n + 1) m hn hm (by omega)]
      have := hle m n hm (by omega) h
      linarith

theorem kAfter_share {p : Policy} (h : p.Coherent) (hk : p.kind ≠ .oneline) : kAfter p = p.lowShare := by
  unfold Policy.Coherent at h
  unfold kAfter Policy.lowShare
  cases hp : p.kind <;> cases hq : p.normal <;> simp_all

theorem kBefore_share {p : Policy} (h : p.Coherent) (hk : p.kind ≠ .oneline) : kBefore p = 1 - p.lowShare := by
  unfold Policy.Coherent at h
  unfold kBefore Policy.lowShare
  cases hp : p.kind <;> cases hq : p.normal <;> simp_all <;> norm_num

end Verif.Mesh
