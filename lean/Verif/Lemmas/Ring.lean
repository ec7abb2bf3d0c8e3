import Verif.Lemmas.Lane

/-!
# Detection against a closed line

The edge goes from `f s0` to `f s1`. `on t` says that `f t` is on the closed line, `inn t` that it is inside.
-/

namespace Verif.Board
open Verif.Geom Verif.Geom.Spec
open Verif.Mesh (tolerance)

/-- A range, in one sense or the other. -/
def Runs (f : ℚ → Point) (r : Segment) (u v : ℚ) : Prop := r = ⟨f u, f v⟩ ∨ r = ⟨f v, f u⟩

theorem runs_eq {f : ℚ → Point} (hf : Lane f) {r : Segment} {a b u v : ℚ} (hr : Runs f r a b) (hab : a < b) (huv : u < v)
    (hc : ∀ x ∈ [a, b, u, v], ∀ y ∈ [a, b, u, v], x = y ∨ tolerance ≤ |x - y|) (h : r.eq ⟨f u, f v⟩ = true) : a = u ∧ b = v := by
  rw [← range_eq hf hab huv hc]
  rcases hr with rfl | rfl
  · exact h
  · unfold Segment.eq at h ⊢
    simp only [Bool.or_eq_true, Bool.and_eq_true] at h ⊢
    tauto

/-- The detection along the lane, for any closed line. -/
theorem detect_ring (S : OrderSorter Point) {f : ℚ → Point} (hf : Lane f) {s0 s1 : ℚ} (h01 : s0 < s1) {points : List Point}
    {edges : List (Nat × Segment)} (b : Nat) {on inn : ℚ → Prop} (T : List ℚ)
    (hc : ∀ x ∈ T ++ [s0, s1], ∀ y ∈ T ++ [s0, s1], x = y ∨ tolerance ≤ |x - y|)
    (hhits : (edges.flatMap fun e => (meet ⟨f s0, f s1⟩ e.2).1) = T.map f)
    (hT : ∀ t ∈ T, s0 ≤ t ∧ t ≤ s1)
    (hons : ∀ e ∈ edges, ∀ r, (meet ⟨f s0, f s1⟩ e.2).2 = some r → ∃ u v, u < v ∧ u ∈ T ∧ v ∈ T ∧ Runs f r u v ∧
      ∀ t, u ≤ t → t ≤ v → On e.2 (f t) ∧ on t)
    (hall : ∀ t, s0 ≤ t → t ≤ s1 → on t → t ∈ T ∨ ∃ e ∈ edges, ∃ r u v, (meet ⟨f s0, f s1⟩ e.2).2 = some r ∧ u < v ∧ u ∈ T ∧ v ∈ T ∧
      Runs f r u v ∧ u ≤ t ∧ t ≤ v)
    (hrel : ∀ t, (t = s0 ∨ t = s1 ∨ ∃ u ∈ T ++ [s0, s1], ∃ v ∈ T ++ [s0, s1], u < v ∧ t = (u + v) / 2) →
      ∃ r, pointRelation points (f t) = .ok r ∧ (r = .on ↔ on t) ∧ (r = .inside ↔ inn t))
    (hsame : ∀ t t', s0 ≤ t → t < t' → t' ≤ s1 → (∀ x, t ≤ x → x ≤ t' → ¬ on x) → (inn t ↔ inn t')) (hoff : ∀ t, inn t → ¬ on t) :
    ∃ founds, detectEdge S b points edges ⟨f s0, f s1⟩ = .ok founds ∧
      (∀ g ∈ founds, g.polygon = b ∧ ∃ u v, u < v ∧ Runs f g.range u v ∧ (u ∈ T ++ [s0, s1] ∧ v ∈ T ++ [s0, s1]) ∧ s0 ≤ u ∧ v ≤ s1 ∧
        ((g.other = none ∧ (∀ t, u < t → t < v → inn t) ∧ ∀ t, u ≤ t → t ≤ v → on t ∨ inn t) ∨ ∃ e ∈ edges, g.other = some e.1 ∧ ∀ t, u ≤ t → t ≤ v → On e.2 (f t))) ∧
      ∀ u v, s0 ≤ u → u < v → v ≤ s1 → (∀ t, u < t → t < v → on t ∨ inn t) → ∀ t, u ≤ t → t ≤ v →
        ∃ g ∈ founds, ∃ u v, Runs f g.range u v ∧ u ≤ t ∧ t ≤ v := by
  obtain ⟨r0, hr0, hr0on, hr0in⟩ := hrel s0 (Or.inl rfl)
  obtain ⟨r1, hr1, hr1on, hr1in⟩ := hrel s1 (Or.inr (Or.inl rfl))
  set ons := edges.filterMap fun e => (meet ⟨f s0, f s1⟩ e.2).2.map fun r => (⟨b, r, some e.1⟩ : Found) with honsdef
  have hmons : ∀ g, g ∈ ons → ∃ e ∈ edges, ∃ r, (meet ⟨f s0, f s1⟩ e.2).2 = some r ∧ g = ⟨b, r, some e.1⟩ := by
    intro g hg
    obtain ⟨e, he, hge⟩ := List.mem_filterMap.1 hg
    rcases hm : (meet ⟨f s0, f s1⟩ e.2).2 with _ | r
    · rw [hm] at hge; simp at hge
    · rw [hm] at hge
      exact ⟨e, he, r, hm, by simpa using hge.symm⟩
  have hons1 : ∀ g ∈ ons, g.polygon = b ∧ ∃ u v, u < v ∧ Runs f g.range u v ∧ (u ∈ T ++ [s0, s1] ∧ v ∈ T ++ [s0, s1]) ∧ s0 ≤ u ∧ v ≤ s1 ∧
        ((g.other = none ∧ (∀ t, u < t → t < v → inn t) ∧ ∀ t, u ≤ t → t ≤ v → on t ∨ inn t) ∨ ∃ e ∈ edges, g.other = some e.1 ∧ ∀ t, u ≤ t → t ≤ v → On e.2 (f t)) := by
    intro g hg
    obtain ⟨e, he, r, hm, rfl⟩ := hmons g hg
    obtain ⟨u, v, huv, hu, hv, hr, ho⟩ := hons e he r hm
    exact ⟨rfl, u, v, huv, hr, ⟨List.mem_append_left _ hu, List.mem_append_left _ hv⟩, (hT u hu).1, (hT v hv).2, Or.inr ⟨e, he, rfl, fun t h1 h2 => (ho t h1 h2).1⟩⟩
  have hons2 : ∀ e ∈ edges, ∀ r, (meet ⟨f s0, f s1⟩ e.2).2 = some r → ⟨b, r, some e.1⟩ ∈ ons := by
    intro e he r hm
    exact List.mem_filterMap.2 ⟨e, he, by rw [hm]; rfl⟩
  unfold detectEdge
  simp only [hhits, hr0, hr1, Outcome.bind, ← honsdef]
  by_cases hTn : T = []
  · -- No intersection.
    subst hTn
    have hno : ∀ t, s0 ≤ t → t ≤ s1 → ¬ on t := by
      intro t h1 h2 h
      rcases hall t h1 h2 h with h | ⟨e, he, r, u, v, -, -, hu, -⟩
      · simp at h
      · simp at hu
    have hsame' : ∀ t, s0 ≤ t → t ≤ s1 → (inn s0 ↔ inn t) := by
      intro t h1 h2
      rcases h1.lt_or_eq with h | rfl
      · exact hsame s0 t le_rfl h h2 fun x h3 h4 => hno x h3 (h4.trans h2)
      · rfl
    rw [List.map_nil, if_pos rfl]
    refine ⟨_, rfl, ?_, ?_⟩
    · intro g hg
      rcases List.mem_append.1 hg with hg | hg
      · exact hons1 g hg
      · split_ifs at hg with h
        · simp only [List.mem_singleton] at hg
          subst hg
          exact ⟨rfl, s0, s1, h01, Or.inl rfl, by simp, le_rfl, le_rfl, Or.inl ⟨rfl, fun t h1 h2 => (hsame' t h1.le h2.le).1 (hr0in.1 h.1),
            fun t h1 h2 => Or.inr ((hsame' t h1 h2).1 (hr0in.1 h.1))⟩⟩
        · simp at hg
    · intro u v h1 h2 h3 hin t h4 h5
      have hm : inn ((u + v) / 2) := (hin _ (by linarith) (by linarith)).resolve_left (hno _ (by linarith) (by linarith))
      have i0 : inn s0 := (hsame' _ (by linarith) (by linarith)).2 hm
      have i1 : inn s1 := (hsame' s1 h01.le le_rfl).1 i0
      exact ⟨⟨b, ⟨f s0, f s1⟩, none⟩, by simp [hr0in.2 i0, hr1in.2 i1], s0, s1, Or.inl rfl, by linarith, by linarith⟩
  · have hmapne : T.map f ≠ [] := by simpa using hTn
    rw [if_neg hmapne]
    have happ : T.map f ++ [f s0, f s1] = (T ++ [s0, s1]).map f := by simp
    obtain ⟨L, k, hL, hu, hk, hmem⟩ := sorted_lane S hf h01 (T ++ [s0, s1]) hc
    rw [happ, hL]
    simp only [hu]
    have hk0 : s0 ∈ k := (hmem s0).2 (by simp)
    have hk1 : s1 ∈ k := (hmem s1).2 (by simp)
    have hkT : ∀ t ∈ T, t ∈ k := fun t ht => (hmem t).2 (List.mem_append_left _ ht)
    have hkc : ∀ x ∈ k, ∀ y ∈ k, x = y ∨ tolerance ≤ |x - y| := fun x hx y hy => hc x ((hmem x).1 hx) y ((hmem y).1 hy)
    have hkr : ∀ t ∈ k, s0 ≤ t ∧ t ≤ s1 := by
      intro t ht
      rcases List.mem_append.1 ((hmem t).1 ht) with h | h
      · exact hT t h
      · simp only [List.mem_cons, List.not_mem_nil, or_false] at h
        rcases h with rfl | rfl
        · exact ⟨le_rfl, h01.le⟩
        · exact ⟨h01.le, le_rfl⟩
    obtain ⟨⟨v1, q1, e1, hp1⟩, u1, q2, e2, hp2⟩ := ends_of hk hk0 hk1 h01 (fun t ht => (hkr t ht).1) fun t ht => (hkr t ht).2
    -- A range is along the line all over, or nowhere but at its ends.
    have hgap : ∀ u v, (u, v) ∈ pairs k → (∃ g ∈ ons, ∃ u' v', Runs f g.range u' v' ∧ u' ≤ u ∧ v ≤ v' ∧ ∀ t, u ≤ t → t ≤ v → on t) ∨
        ∀ t, u < t → t < v → ¬ on t := by
      intro u v huv
      obtain ⟨a1, a2, a3, a4⟩ := pairs_mem hk huv
      by_cases h : ∀ t, u < t → t < v → ¬ on t
      · exact Or.inr h
      · left
        push Not at h
        obtain ⟨t, t1, t2, ht⟩ := h
        rcases hall t ((hkr u a1).1.trans t1.le) (t2.le.trans (hkr v a2).2) ht with h | ⟨e, he, r, u', v', hm, -, hu', hv', hr, b1, b2⟩
        · rcases a4 t (hkT t h) with h | h <;> linarith
        · have c1 := (a4 u' (hkT u' hu')).resolve_right (by linarith)
          have c2 := (a4 v' (hkT v' hv')).resolve_left (by linarith)
          obtain ⟨u2, v2, z, -, -, hr2, ho⟩ := hons e he r hm
          have hrr : u2 = u' ∧ v2 = v' := by
            have huv' : u' < v' := by linarith
            rcases hr with rfl | rfl <;> rcases hr2 with hr2 | hr2 <;> rw [Segment.mk.injEq] at hr2
            · exact ⟨(hf.inj _ _ hr2.1).symm, (hf.inj _ _ hr2.2).symm⟩
            · have := hf.inj _ _ hr2.1; have := hf.inj _ _ hr2.2; linarith
            · have := hf.inj _ _ hr2.1; have := hf.inj _ _ hr2.2; linarith
            · exact ⟨(hf.inj _ _ hr2.2).symm, (hf.inj _ _ hr2.1).symm⟩
          obtain ⟨rfl, rfl⟩ := hrr
          exact ⟨_, hons2 e he r hm, u2, v2, hr2, c1, c2, fun x h1 h2 => (ho x (c1.trans h1) (h2.trans c2)).2⟩
    -- Where it is nowhere on the line, it is inside all over or nowhere.
    have hside : ∀ u v, (u, v) ∈ pairs k → (∀ t, u < t → t < v → ¬ on t) → ∀ t t', u < t → t < v → u < t' → t' < v → (inn t ↔ inn t') := by
      intro u v huv hn
      obtain ⟨a1, a2, a3, a4⟩ := pairs_mem hk huv
      have hs0 := (hkr u a1).1
      have hs1 := (hkr v a2).2
      intro t t' t1 t2 t3 t4
      rcases lt_trichotomy t t' with h | rfl | h
      · exact hsame t t' (by linarith) h (by linarith) fun x h1 h2 => hn x (by linarith) (by linarith)
      · rfl
      · exact (hsame t' t (by linarith) h (by linarith) fun x h1 h2 => hn x (by linarith) (by linarith)).symm
    have hside0 : ∀ t, ¬ on s0 → s0 < t → t < v1 → (inn s0 ↔ inn t) := by
      intro t hn0 t1 t2
      obtain ⟨a1, a2, a3, a4⟩ := pairs_mem hk hp1
      rcases hgap s0 v1 hp1 with ⟨g, -, u', v', -, -, -, ho⟩ | hn
      · exact absurd (ho s0 le_rfl a3.le) hn0
      · refine hsame s0 t le_rfl t1 (by linarith [(hkr v1 a2).2]) fun x h1 h2 => ?_
        rcases h1.lt_or_eq with h | rfl
        · exact hn x h (by linarith)
        · exact hn0
    have hside1 : ∀ t, ¬ on s1 → u1 < t → t < s1 → (inn s1 ↔ inn t) := by
      intro t hn0 t1 t2
      obtain ⟨a1, a2, a3, a4⟩ := pairs_mem hk hp2
      rcases hgap u1 s1 hp2 with ⟨g, -, u', v', -, -, -, ho⟩ | hn
      · exact absurd (ho s1 a3.le le_rfl) hn0
      · refine (hsame t s1 (by linarith [(hkr u1 a1).1]) t2 le_rfl fun x h1 h2 => ?_).symm
        rcases h2.lt_or_eq with h | rfl
        · exact hn x (by linarith) h
        · exact hn0
    have hends : endRanges (k.map f) r0 r1 = .ok
        ((if r0 = .on then [] else [(⟨f s0, f v1⟩, r0)]) ++ if r1 = .on then [] else [(⟨f u1, f s1⟩, r1)]) := by
      unfold endRanges
      rw [← List.map_reverse, e2, e1]
      simp only [List.map_cons, endRange, Outcome.bind, Outcome.map]
      congr 2
      split_ifs <;> rfl
    rw [hends]
    simp only
    set ends : List (Segment × PolygonRel) :=
      (if r0 = .on then [] else [(⟨f s0, f v1⟩, r0)]) ++ if r1 = .on then [] else [(⟨f u1, f s1⟩, r1)]
      with hendsdef
    have hmends : ∀ e, e ∈ ends ↔ (r0 ≠ .on ∧ e = (⟨f s0, f v1⟩, r0)) ∨ (r1 ≠ .on ∧ e = (⟨f u1, f s1⟩, r1)) := by
      intro e
      rw [hendsdef, List.mem_append]
      by_cases h0 : r0 = .on <;> by_cases h1 : r1 = .on <;> simp [h0, h1]
    rw [between_map]
    have hmid : ∀ u v, (u, v) ∈ pairs k → ∃ r, pointRelation points (f ((u + v) / 2)) = .ok r ∧ (r = .on ↔ on ((u + v) / 2)) ∧
        (r = .inside ↔ inn ((u + v) / 2)) := by
      intro u v huv
      obtain ⟨a1, a2, a3, a4⟩ := pairs_mem hk huv
      exact hrel _ (Or.inr (Or.inr ⟨u, (hmem u).1 a1, v, (hmem v).1 a2, a3, rfl⟩))
    obtain ⟨rr, hrr⟩ : ∃ rr : Segment → PolygonRel, ∀ r ∈ ((pairs k).map fun p => (⟨f p.1, f p.2⟩ : Segment)),
        pointRelation points (midPoint r) = .ok (rr r) := by
      refine ⟨fun r => match pointRelation points (midPoint r) with | .ok x => x | _ => .on, ?_⟩
      intro r hr
      obtain ⟨p, hp, rfl⟩ := List.mem_map.1 hr
      obtain ⟨x, hx, -⟩ := hmid p.1 p.2 hp
      simp only [hf.mid, hx]
    rw [middlesIn_eq rr fun r hr => hrr r (List.mem_of_mem_filter hr)]
    simp only [Outcome.map, Outcome.bind]
    refine ⟨_, rfl, ?_, ?_⟩
    · intro g hg
      have good : ∀ u v, (u, v) ∈ pairs k → (∀ t, u < t → t < v → inn t) → ∃ u' v', u' < v' ∧ Runs f ⟨f u, f v⟩ u' v' ∧
          (u' ∈ T ++ [s0, s1] ∧ v' ∈ T ++ [s0, s1]) ∧ s0 ≤ u' ∧ v' ≤ s1 ∧ (∀ t, u' < t → t < v' → inn t) ∧ ∀ t, u' ≤ t → t ≤ v' → on t ∨ inn t := by
        intro u v huv h1
        obtain ⟨a1, a2, a3, a4⟩ := pairs_mem hk huv
        have hs0 := (hkr u a1).1
        have hs1 := (hkr v a2).2
        refine ⟨u, v, a3, Or.inl rfl, ⟨(hmem u).1 a1, (hmem v).1 a2⟩, hs0, hs1, h1, fun t t1 t2 => ?_⟩
        by_cases ht : on t
        · exact Or.inl ht
        · right
          rcases t1.lt_or_eq with t1 | rfl
          · rcases t2.lt_or_eq with t2 | rfl
            · exact h1 t t1 t2
            · refine (hsame ((u + t) / 2) t (by linarith) (by linarith) hs1 fun x x1 x2 => ?_).1 (h1 _ (by linarith) (by linarith))
              rcases x2.lt_or_eq with x2 | rfl
              · exact hoff x (h1 x (by linarith) x2)
              · exact ht
          · refine (hsame u ((u + v) / 2) hs0 (by linarith) (by linarith) fun x x1 x2 => ?_).2 (h1 _ (by linarith) (by linarith))
            rcases x1.lt_or_eq with x1 | rfl
            · exact hoff x (h1 x x1 (by linarith))
            · exact ht
      rw [List.append_assoc] at hg
      rcases List.mem_append.1 hg with hg | hg
      · exact hons1 g hg
      rcases List.mem_append.1 hg with hg | hg
      · obtain ⟨e, he, rfl⟩ := List.mem_map.1 hg
        obtain ⟨he, hin⟩ := List.mem_filter.1 he
        simp only [decide_eq_true_eq] at hin
        refine ⟨rfl, ?_⟩
        rcases (hmends e).1 he with ⟨-, rfl⟩ | ⟨-, rfl⟩
        · have i0 := hr0in.1 hin
          obtain ⟨u', v', c1, c2, c3', c3, c4, c5⟩ := good s0 v1 hp1 fun t t1 t2 => (hside0 t (hoff _ i0) t1 t2).1 i0
          exact ⟨u', v', c1, c2, c3', c3, c4, Or.inl ⟨rfl, c5⟩⟩
        · have i1 := hr1in.1 hin
          obtain ⟨u', v', c1, c2, c3', c3, c4, c5⟩ := good u1 s1 hp2 fun t t1 t2 => (hside1 t (hoff _ i1) t1 t2).1 i1
          exact ⟨u', v', c1, c2, c3', c3, c4, Or.inl ⟨rfl, c5⟩⟩
      · obtain ⟨r, hr, rfl⟩ := List.mem_map.1 hg
        obtain ⟨hr, hin⟩ := List.mem_filter.1 hr
        obtain ⟨hr, -⟩ := List.mem_filter.1 hr
        simp only [decide_eq_true_eq] at hin
        refine ⟨rfl, ?_⟩
        have hx := hrr r hr
        obtain ⟨p, hp, rfl⟩ := List.mem_map.1 hr
        obtain ⟨x, hx', -, hxin⟩ := hmid p.1 p.2 hp
        rw [hf.mid, hx', hin] at hx
        simp only [Outcome.ok.injEq] at hx
        have hin' := hxin.1 hx
        obtain ⟨a1, a2, a3, a4⟩ := pairs_mem hk hp
        obtain ⟨u', v', c1, c2, c3', c3, c4, c5⟩ := good p.1 p.2 hp fun t t1 t2 => by
          rcases hgap p.1 p.2 hp with ⟨g, -, u', v', -, -, -, ho⟩ | hn
          · exact absurd (ho ((p.1 + p.2) / 2) (by linarith) (by linarith)) (hoff _ hin')
          · exact (hside p.1 p.2 hp hn _ _ (by linarith) (by linarith) t1 t2).1 hin'
        exact ⟨u', v', c1, c2, c3', c3, c4, Or.inl ⟨rfl, c5⟩⟩
    · intro u0 v0 hu0 huv0 hv0 hin t h1 h2
      -- A range with the point, and more of the part.
      obtain ⟨u, v, huv, b1, b2, b3, b4⟩ : ∃ u v, (u, v) ∈ pairs k ∧ u ≤ t ∧ t ≤ v ∧ u < v0 ∧ u0 < v := by
        rcases h2.lt_or_eq with hlt | heq
        · obtain ⟨u, v, huv, c1, c2⟩ := pairs_left hk hk0 hk1 (hu0.trans h1) (hlt.trans_le hv0)
          exact ⟨u, v, huv, c1, c2.le, by linarith, by linarith⟩
        · obtain ⟨u, v, huv, c1, c2⟩ := pairs_right hk hk0 hk1 (show s0 < t by linarith) (h2.trans hv0)
          exact ⟨u, v, huv, c1.le, c2, by linarith, by linarith⟩
      obtain ⟨a1, a2, a3, a4⟩ := pairs_mem hk huv
      have fin : ∀ g ∈ ons, ∀ u' v', Runs f g.range u' v' → u' ≤ u → v ≤ v' → ∃ g ∈ ons ++
          (ends.filter fun e => decide (e.2 = .inside)).map (fun e => (⟨b, e.1, none⟩ : Found)) ++
          (((((pairs k).map fun p => (⟨f p.1, f p.2⟩ : Segment)).filter fun r => !(ons.map (·.range) ++ ends.map (·.1)).any fun k' => k'.eq r).filter
            fun r => decide (rr r = .inside)).map fun r => (⟨b, r, none⟩ : Found)),
          ∃ u v, Runs f g.range u v ∧ u ≤ t ∧ t ≤ v := fun g hg u' v' h3 h4 h5 =>
        ⟨g, List.mem_append_left _ (List.mem_append_left _ hg), u', v', h3, by linarith, by linarith⟩
      rcases hgap u v huv with ⟨g, hg, u', v', hr, c1, c2, -⟩ | hn
      · exact fin g hg u' v' hr c1 c2
      · have hall : ∀ t, u < t → t < v → inn t := by
          have m1 : max u u0 < min v v0 := max_lt (lt_min a3 b3) (lt_min b4 huv0)
          have m2 := le_max_left u u0
          have m3 := le_max_right u u0
          have m4 := min_le_left v v0
          have m5 := min_le_right v v0
          have hx : inn ((max u u0 + min v v0) / 2) := (hin _ (by linarith) (by linarith)).resolve_left (hn _ (by linarith) (by linarith))
          exact fun t t1 t2 => (hside u v huv hn _ _ (by linarith) (by linarith) t1 t2).1 hx
        have hmi : inn ((u + v) / 2) := hall _ (by linarith) (by linarith)
        by_cases hkn : ((ons.map (·.range) ++ ends.map (·.1)).any fun k' => k'.eq ⟨f u, f v⟩) = true
        · rw [List.any_eq_true] at hkn
          obtain ⟨r, hr, hre⟩ := hkn
          have hcc : ∀ a ∈ k, ∀ b ∈ k, ∀ x ∈ [a, b, u, v], ∀ y ∈ [a, b, u, v], x = y ∨ tolerance ≤ |x - y| := by
            intro a ha b hb x hx y hy
            have : ∀ z ∈ [a, b, u, v], z ∈ k := by
              intro z hz
              simp only [List.mem_cons, List.not_mem_nil, or_false] at hz
              rcases hz with rfl | rfl | rfl | rfl <;> assumption
            exact hkc x (this x hx) y (this y hy)
          rcases List.mem_append.1 hr with hr | hr
          · -- It is the range along an edge.
            obtain ⟨g, hg, rfl⟩ := List.mem_map.1 hr
            obtain ⟨e, he, r, hm, rfl⟩ := hmons g hg
            obtain ⟨u', v', huv', hu', hv', hrun, -⟩ := hons e he r hm
            obtain ⟨rfl, rfl⟩ := runs_eq hf hrun huv' a3 (hcc u' (hkT u' hu') v' (hkT v' hv')) hre
            exact fin _ hg u' v' hrun le_rfl le_rfl
          · -- It is the range of an end.
            obtain ⟨e, he, rfl⟩ := List.mem_map.1 hr
            refine ⟨⟨b, ⟨f u, f v⟩, none⟩, List.mem_append_left _ (List.mem_append_right _ ?_), u, v, Or.inl rfl, b1, b2⟩
            rcases (hmends e).1 he with ⟨hne', rfl⟩ | ⟨hne', rfl⟩
            · obtain ⟨d1, d2, d3, -⟩ := pairs_mem hk hp1
              obtain ⟨rfl, rfl⟩ := (range_eq hf d3 a3 (hcc s0 d1 v1 d2)).1 hre
              refine List.mem_map.2 ⟨_, List.mem_filter.2 ⟨he, ?_⟩, rfl⟩
              simp only [decide_eq_true_eq]
              exact hr0in.2 ((hside0 _ (fun h => hne' (hr0on.2 h)) (by linarith) (by linarith)).2 hmi)
            · obtain ⟨d1, d2, d3, -⟩ := pairs_mem hk hp2
              obtain ⟨rfl, rfl⟩ := (range_eq hf d3 a3 (hcc u1 d1 s1 d2)).1 hre
              refine List.mem_map.2 ⟨_, List.mem_filter.2 ⟨he, ?_⟩, rfl⟩
              simp only [decide_eq_true_eq]
              exact hr1in.2 ((hside1 _ (fun h => hne' (hr1on.2 h)) (by linarith) (by linarith)).2 hmi)
        · -- Its middle is inside.
          refine ⟨⟨b, ⟨f u, f v⟩, none⟩, List.mem_append_right _ (List.mem_map.2 ⟨⟨f u, f v⟩, ?_, rfl⟩), u, v, Or.inl rfl, b1, b2⟩
          have hr : (⟨f u, f v⟩ : Segment) ∈ (pairs k).map fun p => (⟨f p.1, f p.2⟩ : Segment) := List.mem_map.2 ⟨(u, v), huv, rfl⟩
          have hx := hrr _ hr
          obtain ⟨x, hx', -, hxin⟩ := hmid u v huv
          rw [hf.mid, hx', hxin.2 hmi] at hx
          simp only [Outcome.ok.injEq] at hx
          refine List.mem_filter.2 ⟨List.mem_filter.2 ⟨hr, ?_⟩, by simp [← hx]⟩
          rw [Bool.not_eq_true] at hkn
          rw [hkn]; rfl

end Verif.Board
