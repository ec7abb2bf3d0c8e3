import Verif.Lemmas.Interval

/-! # Solving an interval -/

namespace Verif.Mesh
open Spec

/-- Share of `d` on the side of the interval that follows the policy. -/
def kBefore (p : Policy) : ℚ :=
  match p.kind with
  | .oneline => 0
  | .halfs => 1 / 2
  | .thirds => match p.normal with
    | .max => 2 / 3
    | .min => 1 / 3
    | .none => 1

/-- Share of `d` on the side of the interval that precedes the policy. -/
def kAfter (p : Policy) : ℚ :=
  match p.kind with
  | .oneline => 0
  | .halfs => 1 / 2
  | .thirds => match p.normal with
    | .max => 1 / 3
    | .min => 2 / 3
    | .none => 1

theorem dInitBefore_eq (p : Policy) : dInitBefore p = fun d => kBefore p * d := by
  funext d; unfold dInitBefore kBefore
  cases p.kind <;> simp only
  · ring
  · ring
  · cases p.normal <;> simp

theorem dInitAfter_eq (p : Policy) : dInitAfter p = fun d => kAfter p * d := by
  funext d; unfold dInitAfter kAfter
  cases p.kind <;> simp only
  · ring
  · ring
  · cases p.normal <;> simp

theorem kBefore_nonneg (p : Policy) : 0 ≤ kBefore p := by
  unfold kBefore; cases p.kind <;> cases p.normal <;> norm_num

theorem kAfter_nonneg (p : Policy) : 0 ≤ kAfter p := by
  unfold kAfter; cases p.kind <;> cases p.normal <;> norm_num

theorem kBefore_le_one (p : Policy) : kBefore p ≤ 1 := by
  unfold kBefore; cases p.kind <;> cases p.normal <;> norm_num

theorem kAfter_le_one (p : Policy) : kAfter p ≤ 1 := by
  unfold kAfter; cases p.kind <;> cases p.normal <;> norm_num

/-- The two shares of a policy that was allowed to be created make up at most `d`. -/
theorem k_sum_le (p : Policy) (h : ¬ (p.kind = .thirds ∧ p.normal = .none)) : kAfter p + kBefore p ≤ 1 := by
  unfold kAfter kBefore
  cases hk : p.kind <;> cases hn : p.normal <;> simp_all <;> norm_num

/-- A share of the distance: what both `d_init` functions are. -/
def Linear (dInit : Policy → ℚ → ℚ) : Prop := ∀ p, ∃ K, 0 ≤ K ∧ dInit p = fun d => K * d

theorem linear_before : Linear dInitBefore := fun p => ⟨_, kBefore_nonneg p, dInitBefore_eq p⟩
theorem linear_after : Linear dInitAfter := fun p => ⟨_, kAfter_nonneg p, dInitAfter_eq p⟩

theorem findLs_some {d σ dmax : ℚ} (hd : 0 < d) (hm : 0 < dmax) (hσ : 1 ≤ σ) (s : ℚ) :
    ∃ ls, findLs d σ dmax s = some ls ∧ (ls ≠ [] ↔ 0 < s) :=
  ⟨_, findLs_lines hd hm hσ s, lines_ne_nil_iff hd hm hσ⟩

theorem findLs_length_mono {d σ dmax s d' σ' dmax' s' : ℚ} {ls ls' : List ℚ} (hd : 0 < d) (hm : 0 < dmax)
    (hσ : 1 ≤ σ) (hd' : 0 < d') (hm' : 0 < dmax') (hσ' : 1 ≤ σ') (hdd : min d dmax ≤ min d' dmax') (hσσ : σ ≤ σ')
    (hmm : dmax ≤ dmax') (hs : s' ≤ s) (h : findLs d σ dmax s = some ls) (h' : findLs d' σ' dmax' s' = some ls') :
    ls'.length ≤ ls.length := by
  rw [findLs_lines hd hm hσ] at h
  rw [findLs_lines hd' hm' hσ'] at h'
  cases h; cases h'
  simpa using lineCount_mono hd hm hσ hd' hm' hσ' hdd hσσ hmm hs

/-- `adjust_d` ends, does not raise `d`, and its result gives enough lines. -/
theorem adjustD_spec {dInit : Policy → ℚ → ℚ} (hlin : Linear dInit) {ps : Policies} {side : Side} {dmax h : ℚ}
    (hd : 0 < (ps side.policy).d) (hm : 0 < dmax) (hσ : 1 ≤ side.smoothness) (hh : 0 < h)
    (hls : findLs (ps side.policy).d side.smoothness dmax
      (h - dInit (ps side.policy) (ps side.policy).d) = some side.ls) :
    ∃ r, adjustD side dInit dmax h ps = some r ∧ 0 < r ∧ r ≤ (ps side.policy).d ∧ r ≤ dmax ∧
      ∃ ls, findLs r side.smoothness dmax (h - dInit (ps side.policy) r) = some ls ∧
        side.lmin ≤ ls.length ∧ ls ≠ [] := by
  obtain ⟨K, hK, hdi⟩ := hlin (ps side.policy)
  have hc : 0 < min (ps side.policy).d dmax := lt_min hd hm
  obtain ⟨n, hn⟩ := accepts_small hm hσ hh hK side.lmin hc (min_le_right _ _)
  rw [← hdi] at hn
  obtain ⟨k, hk, hk2⟩ := adjustD_loop (dInit := dInit (ps side.policy)) (h := h) (lmin := side.lmin) hm hσ n
    (min (ps side.policy).d dmax) side.ls hc (Or.inr hn)
  refine ⟨_, hk, by positivity, ?_, ?_, ?_⟩
  · have : (999 / 1000 : ℚ) ^ k ≤ 1 := pow_le_one₀ (by norm_num) (by norm_num)
    have h2 : min (ps side.policy).d dmax * (999 / 1000) ^ k ≤ min (ps side.policy).d dmax := by nlinarith
    exact h2.trans (min_le_left _ _)
  · have : (999 / 1000 : ℚ) ^ k ≤ 1 := pow_le_one₀ (by norm_num) (by norm_num)
    have h2 : min (ps side.policy).d dmax * (999 / 1000) ^ k ≤ min (ps side.policy).d dmax := by nlinarith
    exact h2.trans (min_le_right _ _)
  · rcases hk2 with ⟨rfl, hv⟩ | ⟨_, _, ⟨ls, h1, h2⟩, _⟩
    · rw [pow_zero, mul_one]
      obtain ⟨_, h2, h3⟩ := valid_imp hv
      obtain ⟨ls, h4, h5⟩ := findLs_some hc hm hσ (h - dInit (ps side.policy) (min (ps side.policy).d dmax))
      have hs : h - dInit (ps side.policy) (ps side.policy).d ≤
          h - dInit (ps side.policy) (min (ps side.policy).d dmax) := by
        rw [hdi]
        have := mul_le_mul_of_nonneg_left (min_le_left (ps side.policy).d dmax) hK
        simp only; linarith
      have hlen := findLs_length_mono hc hm hσ hd hm hσ (min_le_left _ _) le_rfl le_rfl hs h4 hls
      refine ⟨ls, h4, h2.trans hlen, ?_⟩
      intro h0
      rw [h0] at hlen
      exact h3 (List.length_eq_zero_iff.mp (Nat.le_zero.mp hlen))
    · exact ⟨ls, h1, (valid_imp h2).2⟩

theorem Interval.Ok.h_pos {i : Interval} {ps : Policies} (h : i.Ok ps) : 0 < i.h := by
  rw [h.h_eq]; have := h.coord_lt; linarith

/-- Same interval, up to what solving changes. -/
structure SameInterval (i j : Interval) : Prop where
  pb : j.before.policy = i.before.policy
  pa : j.after.policy = i.after.policy
  lb : j.before.lmin = i.before.lmin
  la : j.after.lmin = i.after.lmin
  h : j.h = i.h
  m : j.m = i.m

theorem SameInterval.refl (i : Interval) : SameInterval i i := ⟨rfl, rfl, rfl, rfl, rfl, rfl⟩
theorem SameInterval.trans {i j k : Interval} (a : SameInterval i j) (b : SameInterval j k) : SameInterval i k :=
  ⟨b.pb.trans a.pb, b.pa.trans a.pa, b.lb.trans a.lb, b.la.trans a.la, b.h.trans a.h, b.m.trans a.m⟩

/-- Only the `d` of policies changed, downwards and staying positive. -/
structure Lowered (ps ps' : Policies) : Prop where
  same : ∀ j, ps' j = { ps j with d := (ps' j).d }
  le : ∀ j, (ps' j).d ≤ (ps j).d
  pos : ∀ j, 0 < (ps j).d → 0 < (ps' j).d

theorem Lowered.refl (ps : Policies) : Lowered ps ps := ⟨fun _ => rfl, fun _ => le_rfl, fun _ h => h⟩
theorem Lowered.trans {a b c : Policies} (h : Lowered a b) (h' : Lowered b c) : Lowered a c :=
  ⟨fun j => by rw [h'.same j]; conv_lhs => rw [h.same j], fun j => (h'.le j).trans (h.le j),
    fun j hj => h'.pos j (h.pos j hj)⟩

theorem Lowered.coord {a b : Policies} (h : Lowered a b) (j : Nat) : (b j).coord = (a j).coord := by rw [h.same j]
theorem Lowered.kind {a b : Policies} (h : Lowered a b) (j : Nat) : (b j).kind = (a j).kind := by rw [h.same j]
theorem Lowered.normal {a b : Policies} (h : Lowered a b) (j : Nat) : (b j).normal = (a j).normal := by rw [h.same j]
theorem Lowered.enabled {a b : Policies} (h : Lowered a b) (j : Nat) : (b j).enabled = (a j).enabled := by
  rw [h.same j]

theorem lowered_setD {ps : Policies} {i : Nat} {d : ℚ} (hle : d ≤ (ps i).d) (hpos : 0 < d) :
    Lowered ps (ps.setD i d) := by
  refine ⟨?_, ?_, ?_⟩
  · intro j
    simp only [Policies.setD]
    split
    · rename_i h; subst h; rfl
    · rfl
  · intro j
    simp only [Policies.setD]
    split
    · rename_i h; subst h; exact hle
    · exact le_rfl
  · intro j hj
    simp only [Policies.setD]
    split
    · exact hpos
    · exact hj

theorem Interval.Ok.lowered {i : Interval} {ps ps' : Policies} (h : i.Ok ps) (hl : Lowered ps ps') : i.Ok ps' where
  dmax_pos := h.dmax_pos
  distinct := h.distinct
  coord_lt := by rw [hl.coord, hl.coord]; exact h.coord_lt
  h_eq := by rw [hl.coord, hl.coord]; exact h.h_eq
  m_eq := by rw [hl.coord, hl.coord]; exact h.m_eq
  smooth_b := h.smooth_b
  smooth_a := h.smooth_a
  d_b := hl.pos _ h.d_b
  d_a := hl.pos _ h.d_a

@[simp] theorem setD_self (ps : Policies) (i : Nat) (d : ℚ) : ps.setD i d i = { ps i with d := d } := by
  simp [Policies.setD]

theorem setD_other (ps : Policies) {i j : Nat} (d : ℚ) (h : j ≠ i) : ps.setD i d j = ps j := by
  simp [Policies.setD, h]

theorem dInit_setD (dInit : Policy → ℚ → ℚ) (h : ∀ p x, dInit { p with d := x } = dInit p) (p : Policy) (x y : ℚ) :
    dInit { p with d := x } y = dInit p y := by rw [h]

theorem findDmaxSide_pos {side : Side} {d dmax s : ℚ} (hd : 0 < d) (hm : 0 < dmax) (hσ : 1 ≤ side.smoothness)
    (h : findLs d side.smoothness dmax s = some side.ls) : 0 < findDmaxSide side dmax := by
  rw [findLs_lines hd hm hσ] at h
  have h' : side.ls = lines hd hm hσ s := (Option.some.inj h).symm
  have hc := lines_increasing hd hm hσ s
  rw [← h'] at hc
  have hp := lines_pos hd hm hσ s
  rw [← h'] at hp
  unfold findDmaxSide
  cases hr : side.ls.reverse with
  | nil => exact hm
  | cons a t =>
    have hrev : side.ls = t.reverse ++ [a] := by
      have := congrArg List.reverse hr
      simpa using this
    cases t with
    | nil =>
      have := hp a (by rw [hrev]; simp)
      exact lt_min hm (mul_pos (by linarith) this)
    | cons b t =>
      have : b < a := by
        rw [hrev] at hc
        have hc2 : List.IsChain (· < ·) (([0] ++ t.reverse) ++ [b, a]) := by simpa using hc
        have := hc2.right_of_append
        simpa using this
      exact lt_min hm (mul_pos (by linarith) (by linarith))

theorem findDmaxSide_le (side : Side) (dmax : ℚ) : findDmaxSide side dmax ≤ dmax := by
  unfold findDmaxSide
  split
  · exact min_le_left _ _
  · exact min_le_left _ _
  · exact le_rfl

/-- A side after `auto_solve_d`. -/
structure SolvedSide (side : Side) (dInit : Policy → ℚ → ℚ) (dmax h : ℚ) (ps : Policies) : Prop where
  ls_eq : findLs (ps side.policy).d side.smoothness dmax (h - dInit (ps side.policy) (ps side.policy).d) =
    some side.ls
  enough : side.lmin ≤ side.ls.length
  nonempty : side.ls ≠ []

/-- `auto_solve_d` ends; it only lowers the `d` of the two policies, to at most `dmax`; each side gets at least
`lmin` lines. -/
theorem autoSolveD_spec {i : Interval} {ps : Policies} (hok : i.Ok ps) :
    ∃ ps' i', i.autoSolveD ps = some (ps', i') ∧ i'.Ok ps' ∧ SameInterval i i' ∧ Lowered ps ps' ∧
      (∀ j, j ≠ i.before.policy → j ≠ i.after.policy → ps' j = ps j) ∧
      (ps' i.before.policy).d ≤ i.dmax ∧ (ps' i.after.policy).d ≤ i.dmax ∧
      0 < i'.dmax ∧ i'.dmax ≤ i.dmax ∧
      i'.before.smoothness = i.before.smoothness ∧ i'.after.smoothness = i.after.smoothness ∧
      SolvedSide i'.before dInitBefore i.dmax i.h ps' ∧ SolvedSide i'.after dInitAfter i.dmax i.h ps' := by
  have hh := hok.h_pos
  obtain ⟨lb, hlb, _⟩ := findLs_some hok.d_b hok.dmax_pos hok.smooth_b
    (i.h - dInitBefore (ps i.before.policy) (ps i.before.policy).d)
  obtain ⟨la, hla, _⟩ := findLs_some hok.d_a hok.dmax_pos hok.smooth_a
    (i.h - dInitAfter (ps i.after.policy) (ps i.after.policy).d)
  obtain ⟨db, hdb, hdb0, hdb1, hdb2, lb', hlb', hlb1, hlb2⟩ := adjustD_spec linear_before
    (side := { i.before with ls := lb }) hok.d_b hok.dmax_pos hok.smooth_b hh hlb
  simp only at hdb hdb1 hlb' hlb1
  have hL1 : Lowered ps (ps.setD i.before.policy db) := lowered_setD hdb1 hdb0
  have ea : ps.setD i.before.policy db i.after.policy = ps i.after.policy :=
    setD_other _ _ (Ne.symm hok.distinct)
  have hla2 : findLs (ps.setD i.before.policy db i.after.policy).d i.after.smoothness i.dmax
      (i.h - dInitAfter (ps.setD i.before.policy db i.after.policy) (ps.setD i.before.policy db i.after.policy).d)
      = some la := by rw [ea]; exact hla
  obtain ⟨da, hda, hda0, hda1, hda2, la', hla', hla1, hla2'⟩ := adjustD_spec linear_after
    (side := { i.after with ls := la }) (ps := ps.setD i.before.policy db)
    (by simp only; rw [ea]; exact hok.d_a) hok.dmax_pos hok.smooth_a hh hla2
  simp only at hda hda1 hla' hla1
  have hL2 : Lowered (ps.setD i.before.policy db) ((ps.setD i.before.policy db).setD i.after.policy da) :=
    lowered_setD hda1 hda0
  have eb : ((ps.setD i.before.policy db).setD i.after.policy da) i.before.policy =
      { ps i.before.policy with d := db } := by
    rw [setD_other _ _ hok.distinct, setD_self]
  have ea2 : ((ps.setD i.before.policy db).setD i.after.policy da) i.after.policy =
      { ps i.after.policy with d := da } := by
    rw [setD_self, ea]
  have dib : ∀ x y, dInitBefore { ps i.before.policy with d := x } y = dInitBefore (ps i.before.policy) y :=
    fun _ _ => rfl
  have dia : ∀ x y, dInitAfter { ps i.after.policy with d := x } y = dInitAfter (ps i.after.policy) y :=
    fun _ _ => rfl
  rw [ea] at hla'
  refine ⟨(ps.setD i.before.policy db).setD i.after.policy da,
    { i with
      dmax := findDmax { i.before with ls := lb } { i.after with ls := la } i.dmax
      before := { i.before with ls := lb' }, after := { i.after with ls := la' } }, ?_, ?_, ?_, hL1.trans hL2,
    ?_, ?_, ?_, ?_, ?_, rfl, rfl, ?_, ?_⟩
  · unfold Interval.autoSolveD Side.updateLs
    simp only [hlb, hla, Option.bind_eq_bind, Option.bind_some, Option.pure_def, hdb, setD_self, dib, hlb', hda,
      ea, dia, hla']
  · have := hok.lowered (hL1.trans hL2)
    refine ⟨?_, this.distinct, this.coord_lt, this.h_eq, this.m_eq, this.smooth_b, this.smooth_a, this.d_b, this.d_a⟩
    exact lt_min (findDmaxSide_pos (side := { i.before with ls := lb }) hok.d_b hok.dmax_pos hok.smooth_b hlb)
      (findDmaxSide_pos (side := { i.after with ls := la }) hok.d_a hok.dmax_pos hok.smooth_a hla)
  · exact ⟨rfl, rfl, rfl, rfl, rfl, rfl⟩
  · intro j h1 h2
    rw [setD_other _ _ h2, setD_other _ _ h1]
  · rw [eb]; exact hdb2
  · rw [ea2]; exact hda2
  · exact lt_min (findDmaxSide_pos (side := { i.before with ls := lb }) hok.d_b hok.dmax_pos hok.smooth_b hlb)
      (findDmaxSide_pos (side := { i.after with ls := la }) hok.d_a hok.dmax_pos hok.smooth_a hla)
  · exact (min_le_left _ _).trans (findDmaxSide_le _ _)
  · refine ⟨?_, hlb1, hlb2⟩
    simp only [eb, dib]; exact hlb'
  · refine ⟨?_, hla1, hla2'⟩
    simp only [ea2, dia]; exact hla'

/-! ## Smoothness -/

theorem adjustSmoothness_loop {d dmax s : ℚ} (hd : 0 < d) (hm : 0 < dmax) (nlines : Nat) (n : Nat) :
    ∀ c : ℚ, 1 ≤ c → c * (9999 / 10000) ^ (n + 1) ≤ 1 →
      (∀ ls, findLs d c dmax s = some ls → ls.length = nlines) →
      ∃ r, adjustSmoothness.loop d dmax s nlines c = some r ∧ 1 ≤ r ∧ r ≤ c ∧
        ∀ ls, findLs d r dmax s = some ls → ls.length = nlines := by
  induction n with
  | zero =>
    intro c hc hn hlen
    have e : c - c / 10000 = c * (9999 / 10000) := by ring
    have hnext : (if c - c / 10000 < 1 then 1 else c - c / 10000) = 1 := by
      rw [e]
      split
      · rfl
      · rename_i h
        simp only [zero_add, pow_one] at hn
        linarith
    rw [adjustSmoothness.loop]
    simp only [hnext]
    obtain ⟨ls, h1, _⟩ := findLs_some hd hm (le_refl (1 : ℚ)) s
    obtain ⟨lc, h2, _⟩ := findLs_some hd hm hc s
    simp only [h1, Option.bind_eq_bind, Option.bind_some, Option.pure_def, if_true]
    by_cases h : ls.length > nlines
    · rw [if_pos h]; exact ⟨c, rfl, hc, le_rfl, hlen⟩
    · rw [if_neg h]
      refine ⟨1, rfl, le_rfl, hc, ?_⟩
      intro ls' hls'
      rw [h1] at hls'; cases hls'
      have := findLs_length_mono hd hm le_rfl hd hm hc le_rfl hc le_rfl le_rfl h1 h2
      have := hlen lc h2
      omega
  | succ n ih =>
    intro c hc hn hlen
    have e : c - c / 10000 = c * (9999 / 10000) := by ring
    rw [adjustSmoothness.loop]
    obtain ⟨lc, h2, _⟩ := findLs_some hd hm hc s
    by_cases h1 : c - c / 10000 < 1
    · simp only [h1, if_true]
      obtain ⟨ls, h3, _⟩ := findLs_some hd hm (le_refl (1 : ℚ)) s
      simp only [h3, Option.bind_eq_bind, Option.bind_some, Option.pure_def]
      by_cases h : ls.length > nlines
      · rw [if_pos h]; exact ⟨c, rfl, hc, le_rfl, hlen⟩
      · rw [if_neg h]
        refine ⟨1, rfl, le_rfl, hc, ?_⟩
        intro ls' hls'
        rw [h3] at hls'; cases hls'
        have := findLs_length_mono hd hm le_rfl hd hm hc le_rfl hc le_rfl le_rfl h3 h2
        have := hlen lc h2
        omega
    · simp only [h1, if_false]
      have hc' : 1 ≤ c - c / 10000 := not_lt.mp h1
      have hcc : c - c / 10000 ≤ c := by linarith
      obtain ⟨ls, h3, _⟩ := findLs_some hd hm hc' s
      simp only [h3, Option.bind_eq_bind, Option.bind_some, Option.pure_def]
      by_cases h : ls.length > nlines
      · rw [if_pos h]; exact ⟨c, rfl, hc, le_rfl, hlen⟩
      · rw [if_neg h]
        have hlen' : ∀ ls', findLs d (c - c / 10000) dmax s = some ls' → ls'.length = nlines := by
          intro ls' hls'
          rw [h3] at hls'; cases hls'
          have := findLs_length_mono hd hm hc' hd hm hc le_rfl hcc le_rfl le_rfl h3 h2
          have := hlen lc h2
          omega
        by_cases h4 : c - c / 10000 = 1
        · rw [if_pos h4]; exact ⟨_, rfl, hc', hcc, hlen'⟩
        · rw [if_neg h4]
          obtain ⟨r, hr, hr1, hr2, hr3⟩ := ih _ hc' (by rw [e, mul_assoc, ← pow_succ']; exact hn) hlen'
          exact ⟨r, hr, hr1, hr2.trans hcc, hr3⟩

theorem adjustSmoothness_spec {dInit : Policy → ℚ → ℚ} {ps : Policies} {side : Side} {dmax h : ℚ}
    (hd : 0 < (ps side.policy).d) (hm : 0 < dmax) (hσ : 1 ≤ side.smoothness)
    (hls : findLs (ps side.policy).d side.smoothness dmax
      (h - dInit (ps side.policy) (ps side.policy).d) = some side.ls) :
    ∃ r, adjustSmoothness side dInit dmax h ps = some r ∧ 1 ≤ r ∧ r ≤ side.smoothness ∧
      ∃ ls, findLs (ps side.policy).d r dmax (h - dInit (ps side.policy) (ps side.policy).d) = some ls ∧
        ls.length = side.ls.length := by
  have hpos : 0 < side.smoothness := by linarith
  obtain ⟨n, hn⟩ := exists_pow_lt_of_lt_one (show (0 : ℚ) < 1 / side.smoothness by positivity)
    (show (9999 / 10000 : ℚ) < 1 by norm_num)
  have hn' : side.smoothness * (9999 / 10000) ^ (n + 1) ≤ 1 := by
    have h1 : (9999 / 10000 : ℚ) ^ (n + 1) ≤ (9999 / 10000) ^ n :=
      pow_le_pow_of_le_one (by norm_num) (by norm_num) (by omega)
    have h2 := lt_of_le_of_lt h1 hn
    rw [lt_div_iff₀ hpos] at h2
    linarith
  obtain ⟨r, h1, h2, h3, h4⟩ := adjustSmoothness_loop (s := h - dInit (ps side.policy) (ps side.policy).d)
    hd hm side.ls.length n side.smoothness hσ hn' (fun ls hl => by rw [hls] at hl; cases hl; rfl)
  obtain ⟨ls, h5, _⟩ := findLs_some hd hm h2 (h - dInit (ps side.policy) (ps side.policy).d)
  exact ⟨r, h1, h2, h3, ls, h5, h4 ls h5⟩

/-- `auto_solve_smoothness` ends; it only lowers the smoothness, not below 1, and the number of lines of each
side stays the one found with the smoothness it started from. -/
theorem autoSolveSmoothness_spec {i : Interval} {ps : Policies} (hok : i.Ok ps) :
    ∃ i', i.autoSolveSmoothness ps = some i' ∧ i'.Ok ps ∧ SameInterval i i' ∧ i'.dmax = i.dmax ∧
      i'.before.smoothness ≤ i.before.smoothness ∧ i'.after.smoothness ≤ i.after.smoothness ∧
      findLs (ps i.before.policy).d i'.before.smoothness i.dmax
        (i.h - dInitBefore (ps i.before.policy) (ps i.before.policy).d) = some i'.before.ls ∧
      findLs (ps i.after.policy).d i'.after.smoothness i.dmax
        (i.h - dInitAfter (ps i.after.policy) (ps i.after.policy).d) = some i'.after.ls ∧
      (∀ ls, findLs (ps i.before.policy).d i.before.smoothness i.dmax
        (i.h - dInitBefore (ps i.before.policy) (ps i.before.policy).d) = some ls →
          i'.before.ls.length = ls.length) ∧
      (∀ ls, findLs (ps i.after.policy).d i.after.smoothness i.dmax
        (i.h - dInitAfter (ps i.after.policy) (ps i.after.policy).d) = some ls →
          i'.after.ls.length = ls.length) := by
  obtain ⟨lb, hlb, _⟩ := findLs_some hok.d_b hok.dmax_pos hok.smooth_b
    (i.h - dInitBefore (ps i.before.policy) (ps i.before.policy).d)
  obtain ⟨la, hla, _⟩ := findLs_some hok.d_a hok.dmax_pos hok.smooth_a
    (i.h - dInitAfter (ps i.after.policy) (ps i.after.policy).d)
  obtain ⟨sb, hsb, hsb1, hsb2, lb', hlb', hlb2⟩ := adjustSmoothness_spec (dInit := dInitBefore)
    (side := { i.before with ls := lb }) hok.d_b hok.dmax_pos hok.smooth_b hlb
  obtain ⟨sa, hsa, hsa1, hsa2, la', hla', hla2⟩ := adjustSmoothness_spec (dInit := dInitAfter)
    (side := { i.after with ls := la }) hok.d_a hok.dmax_pos hok.smooth_a hla
  simp only at hlb' hlb2 hla' hla2 hsb2 hsa2
  refine ⟨{ i with before := { i.before with smoothness := sb, ls := lb' }
                   after := { i.after with smoothness := sa, ls := la' } }, ?_, ?_,
    ⟨rfl, rfl, rfl, rfl, rfl, rfl⟩, rfl, hsb2, hsa2, hlb', hla', ?_, ?_⟩
  · unfold Interval.autoSolveSmoothness Side.updateLs
    simp only [hlb, hla, Option.bind_eq_bind, Option.bind_some, Option.pure_def, hsb, hsa, hlb', hla']
  · exact ⟨hok.dmax_pos, hok.distinct, hok.coord_lt, hok.h_eq, hok.m_eq, hsb1, hsa1, hok.d_b, hok.d_a⟩
  · intro ls h; rw [hlb] at h; cases h; exact hlb2
  · intro ls h; rw [hla] at h; cases h; exact hla2

/-! ## The lines of an interval -/

/-- The lines of the mesh of an interval, with the line nearest to each policy (or on it). -/
def Interval.extended (i : Interval) (ps : Policies) : List ℚ :=
  let b := ps i.before.policy
  let a := ps i.after.policy
  (b.coord + dInitBefore b b.d) :: (i.before.ls.dropLast.map fun l => b.coord + dInitBefore b b.d + l) ++ [i.m] ++
  (i.after.ls.dropLast.reverse.map fun l => a.coord - dInitAfter a a.d - l) ++ [a.coord - dInitAfter a a.d]

/-- Strictly increasing with bounded gaps. -/
def Step (g x y : ℚ) : Prop := x < y ∧ y - x ≤ g

theorem half_chain {d σ dmax s : ℚ} {ls : List ℚ} (hd : 0 < d) (hm : 0 < dmax) (hσ : 1 ≤ σ)
    (h : findLs d σ dmax s = some ls) (hs : 0 < s) : (0 :: ls.dropLast ++ [s]).IsChain (Step dmax) := by
  rw [findLs_lines hd hm hσ] at h
  cases h
  have hc := lineCount_pos hd hm hσ hs
  obtain ⟨n, hn⟩ : ∃ n, lineCount hd hm hσ s = n + 1 := ⟨lineCount hd hm hσ s - 1, by omega⟩
  have e : 0 :: (lines hd hm hσ s).dropLast = (List.range (n + 1)).map (position d σ dmax) := by
    conv_rhs => rw [List.range_succ_eq_map, List.map_cons, List.map_map]
    rw [lines, hn, List.range_succ (n := n), List.map_append, List.map_cons, List.map_nil, List.dropLast_concat]
    rfl
  have hstep : ∀ i, Step dmax (position d σ dmax i) (position d σ dmax (i + 1)) := fun i => by
    refine ⟨position_lt_succ hd hm hσ i, ?_⟩
    have := spacing_le (d := d) (σ := σ) (dmax := dmax) i
    simp only [position]; linarith
  rw [e]
  refine List.IsChain.append (isChain_map_range _ _ hstep _) (List.isChain_singleton _) ?_
  intro x hx y hy
  simp only [List.head?_cons, Option.mem_def, Option.some.injEq] at hy
  subst hy
  rw [List.range_succ, List.map_append] at hx
  simp only [List.map_cons, List.map_nil, List.getLast?_concat, Option.mem_def, Option.some.injEq] at hx
  subst hx
  refine ⟨lt_of_lt_lineCount hd hm hσ (by omega), ?_⟩
  have h1 := lineCount_spec hd hm hσ s
  rw [hn] at h1
  have := (hstep n).2
  linarith

theorem isChain_append_join {α : Type} {R : α → α → Prop} {l r : List α} {x : α}
    (h1 : (l ++ [x]).IsChain R) (h2 : (x :: r).IsChain R) : (l ++ [x] ++ r).IsChain R := by
  refine List.IsChain.append h1 ?_ ?_
  · cases r with
    | nil => exact List.isChain_nil
    | cons y r => exact (List.isChain_cons_cons.mp h2).2
  · intro a ha b hb
    simp only [List.getLast?_concat, Option.mem_def, Option.some.injEq] at ha
    subst ha
    cases r with
    | nil => simp at hb
    | cons y r =>
      simp only [List.head?_cons, Option.mem_def, Option.some.injEq] at hb
      subst hb
      exact (List.isChain_cons_cons.mp h2).1

/-- Lines of both halves found for positive lengths: the extended mesh has increasing lines and gaps at most
`dmax`. -/
theorem extended_chain {i : Interval} {ps : Policies} (hok : i.Ok ps)
    (hb : findLs (ps i.before.policy).d i.before.smoothness i.dmax
        (i.h - dInitBefore (ps i.before.policy) (ps i.before.policy).d) = some i.before.ls)
    (ha : findLs (ps i.after.policy).d i.after.smoothness i.dmax
        (i.h - dInitAfter (ps i.after.policy) (ps i.after.policy).d) = some i.after.ls)
    (sb : 0 < i.h - dInitBefore (ps i.before.policy) (ps i.before.policy).d)
    (sa : 0 < i.h - dInitAfter (ps i.after.policy) (ps i.after.policy).d) :
    (i.extended ps).IsChain (Step i.dmax) := by
  have cb := half_chain hok.d_b hok.dmax_pos hok.smooth_b hb sb
  have ca := half_chain hok.d_a hok.dmax_pos hok.smooth_a ha sa
  set b := ps i.before.policy with hbdef
  set a := ps i.after.policy with hadef
  have m1 : i.m = b.coord + dInitBefore b b.d + (i.h - dInitBefore b b.d) := by
    rw [hok.m_eq, hok.h_eq]; ring
  have m2 : i.m = a.coord - dInitAfter a a.d - (i.h - dInitAfter a a.d) := by
    rw [hok.m_eq, hok.h_eq]; ring
  have c1 : ((b.coord + dInitBefore b b.d) :: (i.before.ls.dropLast.map fun l => b.coord + dInitBefore b b.d + l) ++
      [i.m]).IsChain (Step i.dmax) := by
    have := (List.isChain_map (R := Step i.dmax) (fun l : ℚ => b.coord + dInitBefore b b.d + l)).mpr
      (cb.imp fun x y (h : Step i.dmax x y) => show Step i.dmax _ _ from ⟨by linarith [h.1], by linarith [h.2]⟩)
    simp only [List.map_append, List.map_cons, List.map_nil, add_zero] at this
    rw [m1]; exact this
  have c2 : (i.m :: ((i.after.ls.dropLast.reverse.map fun l => a.coord - dInitAfter a a.d - l) ++
      [a.coord - dInitAfter a a.d])).IsChain (Step i.dmax) := by
    have h0 := List.isChain_reverse.mpr (ca.imp fun x y (h : Step i.dmax x y) => show flip (flip (Step i.dmax)) x y from h)
    have := (List.isChain_map (R := Step i.dmax) (fun l : ℚ => a.coord - dInitAfter a a.d - l)).mpr
      (h0.imp fun x y (h : Step i.dmax y x) => show Step i.dmax _ _ from ⟨by linarith [h.1], by linarith [h.2]⟩)
    simp only [List.reverse_append, List.reverse_cons, List.reverse_nil, List.nil_append, List.map_append,
      List.map_cons, List.map_nil, sub_zero, List.cons_append] at this
    rw [m2]
    exact this
  have := isChain_append_join c1 c2
  simpa [Interval.extended] using this

theorem dInitBefore_nonneg (p : Policy) {d : ℚ} (h : 0 ≤ d) : 0 ≤ dInitBefore p d := by
  rw [dInitBefore_eq]; exact mul_nonneg (kBefore_nonneg p) h

theorem dInitAfter_nonneg (p : Policy) {d : ℚ} (h : 0 ≤ d) : 0 ≤ dInitAfter p d := by
  rw [dInitAfter_eq]; exact mul_nonneg (kAfter_nonneg p) h

/-- The mesh is the extended mesh without the lines that belong to ONELINE policies. -/
theorem extended_eq (i : Interval) (ps : Policies) :
    i.extended ps =
      (if (ps i.before.policy).kind = .oneline then [(ps i.before.policy).coord] else []) ++ i.mesh ps ++
      (if (ps i.after.policy).kind = .oneline then [(ps i.after.policy).coord] else []) := by
  unfold Interval.extended Interval.mesh
  by_cases hb : (ps i.before.policy).kind = .oneline <;> by_cases ha : (ps i.after.policy).kind = .oneline <;>
    simp [hb, ha, dInitBefore, dInitAfter]

theorem extended_shape (i : Interval) (ps : Policies) : ∃ l, i.extended ps =
    ((ps i.before.policy).coord + dInitBefore (ps i.before.policy) (ps i.before.policy).d) :: l ++
      [(ps i.after.policy).coord - dInitAfter (ps i.after.policy) (ps i.after.policy).d] :=
  ⟨(i.before.ls.dropLast.map fun l =>
      (ps i.before.policy).coord + dInitBefore (ps i.before.policy) (ps i.before.policy).d + l) ++ [i.m] ++
    (i.after.ls.dropLast.reverse.map fun l =>
      (ps i.after.policy).coord - dInitAfter (ps i.after.policy) (ps i.after.policy).d - l),
    by simp only [Interval.extended, List.append_assoc, List.cons_append]⟩

theorem mesh_last (i : Interval) (ps : Policies) (h : (ps i.after.policy).kind ≠ .oneline) :
    ∃ l, i.mesh ps = l ++ [(ps i.after.policy).coord - dInitAfter (ps i.after.policy) (ps i.after.policy).d] := by
  unfold Interval.mesh
  simp only [if_pos h]
  exact ⟨_, rfl⟩

theorem mesh_infix (i : Interval) (ps : Policies) : i.mesh ps <:+: i.extended ps :=
  ⟨_, _, (extended_eq i ps).symm⟩

theorem chain_bounds {g : ℚ} {l : List ℚ} {x z : ℚ} (h : (x :: l ++ [z]).IsChain (Step g)) :
    ∀ y ∈ x :: l ++ [z], x ≤ y ∧ y ≤ z := by
  have h1 : (x :: l ++ [z]).Pairwise (· < ·) :=
    List.isChain_iff_pairwise.mp (h.imp fun _ _ h => h.1)
  intro y hy
  constructor
  · rw [List.cons_append, List.pairwise_cons] at h1
    rw [List.cons_append, List.mem_cons] at hy
    rcases hy with rfl | hy
    · exact le_rfl
    · exact (h1.1 y hy).le
  · rw [List.pairwise_append] at h1
    rw [List.mem_append] at hy
    rcases hy with hy | hy
    · exact (h1.2.2 y hy z (by simp)).le
    · simp at hy; exact hy.le

theorem _root_.List.IsChain.right_of_append_two {R : ℚ → ℚ → Prop} {l r : List ℚ} {z x : ℚ}
    (h : (l ++ r ++ [z]).IsChain R) (hx : x ∈ r.getLast?) : R x z := by
  have h1 := List.isChain_append.mp h
  refine h1.2.2 x ?_ z (by simp)
  rw [List.getLast?_append, Option.mem_def.mp hx]
  rfl

/-- Solving and meshing an interval: everything at once. -/
theorem solveAndMesh_spec {i : Interval} {ps : Policies} (hok : i.Ok ps) :
    ∃ ps' i', i.solveAndMesh ps = some (ps', i', i'.mesh ps') ∧ i'.Ok ps' ∧ SameInterval i i' ∧ Lowered ps ps' ∧
      (∀ j, j ≠ i.before.policy → j ≠ i.after.policy → ps' j = ps j) ∧
      (ps' i.before.policy).d ≤ i.dmax ∧ (ps' i.after.policy).d ≤ i.dmax ∧ i'.dmax ≤ i.dmax ∧
      i'.before.smoothness ≤ i.before.smoothness ∧ i'.after.smoothness ≤ i.after.smoothness ∧
      (i'.extended ps').IsChain (Step i.dmax) ∧
      max 1 i.before.lmin ≤ i'.before.ls.length ∧ max 1 i.after.lmin ≤ i'.after.ls.length := by
  obtain ⟨ps1, i1, h1, hok1, hs1, hl1, ho1, db, da, hm0, hm1, eb, ea, sb, sa⟩ := autoSolveD_spec hok
  obtain ⟨i2, h2, hok2, hs2, em, sb2, sa2, fb, fa, nb, na⟩ := autoSolveSmoothness_spec hok1
  have spb : 0 < i1.h - dInitBefore (ps1 i1.before.policy) (ps1 i1.before.policy).d := by
    have := sb.ls_eq
    rw [findLs_lines hok1.d_b hok.dmax_pos hok1.smooth_b] at this
    have h3 := sb.nonempty
    rw [← Option.some.inj this, lines_ne_nil_iff] at h3
    rw [hs1.h]; exact h3
  have spa : 0 < i1.h - dInitAfter (ps1 i1.after.policy) (ps1 i1.after.policy).d := by
    have := sa.ls_eq
    rw [findLs_lines hok1.d_a hok.dmax_pos hok1.smooth_a] at this
    have h3 := sa.nonempty
    rw [← Option.some.inj this, lines_ne_nil_iff] at h3
    rw [hs1.h]; exact h3
  have hch : (i2.extended ps1).IsChain (Step i2.dmax) := by
    refine extended_chain hok2 ?_ ?_ ?_ ?_
    · rw [hs2.pb, hs2.h, em]; exact fb
    · rw [hs2.pa, hs2.h, em]; exact fa
    · rw [hs2.pb, hs2.h]; exact spb
    · rw [hs2.pa, hs2.h]; exact spa
  refine ⟨ps1, i2, ?_, hok2, hs1.trans hs2, hl1, ho1, db, da, by rw [em]; exact hm1, by rw [← eb]; exact sb2,
    by rw [← ea]; exact sa2, ?_, ?_, ?_⟩
  · unfold Interval.solveAndMesh
    simp only [h1, h2, Option.bind_eq_bind, Option.bind_some, Option.pure_def]
  · rw [em] at hch
    exact hch.imp fun x y (h : Step _ x y) => ⟨h.1, h.2.trans hm1⟩
  · obtain ⟨ls, hls, _⟩ := findLs_some hok1.d_b hok1.dmax_pos hok1.smooth_b
      (i1.h - dInitBefore (ps1 i1.before.policy) (ps1 i1.before.policy).d)
    have e := nb ls hls
    have := sb.ls_eq
    rw [← hs1.h] at this
    have h3 := findLs_length_mono hok1.d_b hok1.dmax_pos hok1.smooth_b hok1.d_b hok.dmax_pos hok1.smooth_b
      (min_le_min le_rfl hm1) le_rfl hm1 le_rfl hls this
    have := sb.enough
    have := List.length_pos_iff.mpr sb.nonempty
    rw [← hs1.lb]; omega
  · obtain ⟨ls, hls, _⟩ := findLs_some hok1.d_a hok1.dmax_pos hok1.smooth_a
      (i1.h - dInitAfter (ps1 i1.after.policy) (ps1 i1.after.policy).d)
    have e := na ls hls
    have := sa.ls_eq
    rw [← hs1.h] at this
    have h3 := findLs_length_mono hok1.d_a hok1.dmax_pos hok1.smooth_a hok1.d_a hok.dmax_pos hok1.smooth_a
      (min_le_min le_rfl hm1) le_rfl hm1 le_rfl hls this
    have := sa.enough
    have := List.length_pos_iff.mpr sa.nonempty
    rw [← hs1.la]; omega

/-- The constructor gives such an interval. -/
theorem make_ok {ps : Policies} {b a lmin : Nat} {σ dmax : ℚ} (hm : 0 < dmax) (hσ : 1 ≤ σ) (hne : b ≠ a)
    (hlt : (ps b).coord < (ps a).coord) (hdb : 0 < (ps b).d) (hda : 0 < (ps a).d) :
    (Interval.make ps b a lmin σ dmax).2.Ok (Interval.make ps b a lmin σ dmax).1 ∧
      Lowered ps (Interval.make ps b a lmin σ dmax).1 ∧ (Interval.make ps b a lmin σ dmax).2.dmax = dmax ∧
      (Interval.make ps b a lmin σ dmax).2.before = ⟨b, lmin, σ, []⟩ ∧
      (Interval.make ps b a lmin σ dmax).2.after = ⟨a, lmin, σ, []⟩ := by
  have hh : calcH (ps b).coord (ps a).coord = ((ps a).coord - (ps b).coord) / 2 := by
    unfold calcH
    rw [abs_sub_comm, abs_of_pos (by linarith)]
  have hpos : 0 < calcH (ps b).coord (ps a).coord := by rw [hh]; linarith
  have low : ∀ (q : Policies) (j : Nat), Lowered ps q → Lowered ps
      (if (q j).d > calcH (ps b).coord (ps a).coord then q.setD j (calcH (ps b).coord (ps a).coord) else q) := by
    intro q j hq
    split
    · rename_i h; exact hq.trans (lowered_setD h.le hpos)
    · exact hq
  have hL : Lowered ps (Interval.make ps b a lmin σ dmax).1 := low _ a (low _ b (Lowered.refl ps))
  refine ⟨?_, hL, rfl, rfl, rfl⟩
  refine ⟨hm, hne, ?_, ?_, ?_, hσ, hσ, hL.pos _ hdb, hL.pos _ hda⟩
  · rw [hL.coord, hL.coord]; exact hlt
  · rw [hL.coord, hL.coord]; exact hh
  · rfl

end Verif.Mesh
