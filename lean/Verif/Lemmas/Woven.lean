import Verif.Lemmas.ManagerMesh

/-! # Gaps between the lines of an axis whose intervals have different spacing limits -/

namespace Verif.Mesh
open Spec List

/-- Two lines are no further apart than the limits of the stretches they touch. A stretch is two policies and a limit. -/
def Local (ts : List (Policy × Policy × ℚ)) (y y' : ℚ) : Prop :=
  ∀ D, (∀ t ∈ ts, t.1.coord < y' → y < t.2.1.coord → t.2.2 ≤ D) → y' - y ≤ D

theorem Local.cons {t : Policy × Policy × ℚ} {ts : List (Policy × Policy × ℚ)} {y y' : ℚ} (h : Local ts y y') :
    Local (t :: ts) y y' := fun D hD => h D fun u hu => hD u (by simp [hu])

/-- A chain whose members are all between two bounds. -/
theorem chain_within {R : ℚ → ℚ → Prop} {lo hi : ℚ} {l : List ℚ} (h : l.IsChain R) (hl : ∀ y ∈ l, lo ≤ y ∧ y ≤ hi) :
    l.IsChain fun y y' => R y y' ∧ lo ≤ y ∧ y' ≤ hi := by
  rw [List.isChain_iff_getElem] at h ⊢
  intro n hn
  exact ⟨h n hn, (hl _ (List.getElem_mem _)).1, (hl _ (List.getElem_mem _)).2⟩

theorem weave_local (rest : List Policy) : ∀ (p : Policy) (ls : List (List ℚ)) (ts : List (Policy × Policy × ℚ)),
    (∀ q ∈ p :: rest, ¬ (q.kind = .thirds ∧ q.normal = .none)) →
    (p :: rest).IsChain (fun q r => q.coord < r.coord) →
    ts.map (fun t => (t.1, t.2.1)) = consecutive (p :: rest) →
    Forall₂ (fun t l => LinesBetween t.2.2 t.1 t.2.1 l) ts ls →
    (weave (p :: rest) ls).IsChain (Local ts) ∧
      ((p.kind = .oneline ∧ ∃ tl, weave (p :: rest) ls = p.coord :: tl) ∨
        (∃ t ∈ ts, t.1 = p ∧ p.coord < t.2.1.coord ∧ ∃ d tl, 0 < d ∧ d ≤ t.2.2 ∧
          weave (p :: rest) ls = (p.coord + kBefore p * d) :: tl) ∨ (p.kind ≠ .oneline ∧ weave (p :: rest) ls = [])) := by
  induction rest with
  | nil =>
    intro p ls ts _ _ _ _
    simp only [weave]
    unfold oneLine
    split
    · rename_i h
      exact ⟨List.isChain_singleton _, Or.inl ⟨h, [], rfl⟩⟩
    · rename_i h
      exact ⟨List.isChain_nil, Or.inr (Or.inr ⟨h, rfl⟩)⟩
  | cons q rest ih =>
    intro p ls ts hk hch hts hf
    cases hf with
    | nil => simp [consecutive] at hts
    | @cons t l ts ls h1 h2 =>
      have hcc : consecutive (p :: q :: rest) = (p, q) :: consecutive (q :: rest) := by simp [consecutive]
      rw [hcc, List.map_cons, List.cons.injEq, Prod.mk.injEq] at hts
      obtain ⟨⟨htp, htq⟩, hts⟩ := hts
      obtain ⟨p', q', D0⟩ := t
      simp only at htp htq h1
      subst htp htq
      rw [List.isChain_cons_cons] at hch
      obtain ⟨hpq, hch⟩ := hch
      obtain ⟨hw, hst⟩ := ih q' ls ts (fun r hr => hk r (by simp [List.mem_cons.mp hr])) hch hts h2
      obtain ⟨dp, dq, mid, hdp, hdp', hdq, hdq', he, hc, -⟩ := h1
      have hbnd : ∀ y ∈ oneLine p' ++ l ++ oneLine q', p'.coord ≤ y ∧ y ≤ q'.coord := by
        intro y hy
        have hb := chain_bounds (he ▸ hc) y (by rw [← he]; exact hy)
        have h3 := mul_nonneg (kBefore_nonneg p') hdp.le
        have h4 := mul_nonneg (kAfter_nonneg q') hdq.le
        exact ⟨by linarith [hb.1], by linarith [hb.2]⟩
      have hc' : (oneLine p' ++ l ++ oneLine q').IsChain (Local ((p', q', D0) :: ts)) := by
        refine (chain_within hc hbnd).imp fun y y' ⟨hs, hlo, hhi⟩ D hD => ?_
        refine hs.2.trans (hD (p', q', D0) (by simp) ?_ ?_)
        · exact lt_of_le_of_lt hlo hs.1
        · exact lt_of_lt_of_le hs.1 hhi
      have hw' : (weave (q' :: rest) ls).IsChain (Local ((p', q', D0) :: ts)) := hw.imp fun _ _ h => h.cons
      simp only [weave]
      set w := weave (q' :: rest) ls with hwdef
      have hkq := hk q' (by simp)
      by_cases ho : q'.kind = .oneline
      · have hone : oneLine q' = [q'.coord] := by simp [oneLine, ho]
        have hhead : ∃ tl, w = q'.coord :: tl := by
          rcases hst with ⟨-, tl, h⟩ | ⟨t, -, -, -, d, tl, -, -, h⟩ | ⟨h, -⟩
          · exact ⟨tl, h⟩
          · exact ⟨tl, by rw [h, kBefore_oneline ho]; simp⟩
          · exact absurd ho h
        obtain ⟨tl, htl⟩ := hhead
        rw [kAfter_oneline ho] at he
        simp only [zero_mul, sub_zero] at he
        have e : oneLine p' ++ l ++ w = (p'.coord + kBefore p' * dp) :: mid ++ [q'.coord] ++ tl := by
          rw [← he, hone, htl]; simp
        constructor
        · rw [e]
          refine isChain_append_join (l := (p'.coord + kBefore p' * dp) :: mid) ?_ ?_
          · rw [← he]; exact hc'
          · rw [htl] at hw'; exact hw'
        · right; left
          exact ⟨_, List.mem_cons_self, rfl, hpq, dp, mid ++ [q'.coord] ++ tl, hdp, hdp', by rw [e]; simp⟩
      · have hone : oneLine q' = [] := by simp [oneLine, ho]
        rw [hone, List.append_nil] at he hc'
        rw [he] at hc' ⊢
        refine ⟨List.IsChain.append hc' hw' ?_, Or.inr (Or.inl
          ⟨_, List.mem_cons_self, rfl, hpq, dp, mid ++ [q'.coord - kAfter q' * dq] ++ w, hdp, hdp', by simp⟩)⟩
        intro x hx y hy
        simp only [List.getLast?_concat, Option.mem_def, Option.some.injEq] at hx
        subst hx
        rcases hst with ⟨h, -⟩ | ⟨t, ht, htq, hlt, d, tl, hd, hd', h⟩ | ⟨_, h⟩
        · exact absurd h ho
        · rw [h] at hy
          simp only [List.head?_cons, Option.mem_def, Option.some.injEq] at hy
          subst hy
          intro D hD
          have h1 := kBefore_pos ho
          have h2 := kAfter_nonneg q'
          have h3 := k_sum_le q' hkq
          have h4 := mul_pos h1 hd
          have h5 := mul_nonneg h2 hdq.le
          have hDt : t.2.2 ≤ D := hD t (by simp [ht]) (by rw [htq]; linarith) (by linarith)
          have hdD : d ≤ D := hd'.trans hDt
          rcases eq_or_lt_of_le h2 with h0 | h0
          · have := kBefore_le_one q'
            have h6 := mul_le_mul_of_nonneg_right this hd.le
            rw [← h0]
            linarith
          · have hD0 : D0 ≤ D := hD (p', q', D0) (by simp) (by simp only; linarith)
              (by have := mul_pos h0 hdq; simp only; linarith)
            have h6 := mul_le_mul_of_nonneg_left hdD h1.le
            have h7 := mul_le_mul_of_nonneg_left (hdq'.trans hD0) h2
            have h8 := mul_le_mul_of_nonneg_right h3 (hd.le.trans hdD)
            linarith
        · rw [h] at hy; simp at hy

end Verif.Mesh
