import Verif.Lemmas.IntervalSolve

/-! # C20-C23: intervals -/

namespace Verif.Props
open Verif Mesh Mesh.Spec

/-! ## C20 -/

/-- C20. For positive `d` and `dmax` and a smoothness of at least 1, `find_ls` ends, and its lines are strictly
increasing from 0; all but the last are before the end, the last is at or after it, and there is one if the
length is positive; each spacing is at most `dmax`, at least the previous one and at most `smoothness` times the
previous one, the first being compared with `d` (or `dmax` if `d` is larger). -/
theorem C20_half_interval {d σ dmax : ℚ} (hd : 0 < d) (hm : 0 < dmax) (hσ : 1 ≤ σ) (s : ℚ) :
    ∃ ls, findLs d σ dmax s = some ls ∧ Increasing (0 :: ls) ∧ (∀ x ∈ ls.dropLast, x < s) ∧
      (∀ h : ls ≠ [], s ≤ ls.getLast h) ∧ (0 < s → ls ≠ []) ∧ (s ≤ 0 → ls = []) ∧
      (∀ g ∈ gapsFrom 0 ls, g ≤ dmax) ∧ (min d dmax :: gapsFrom 0 ls).IsChain fun a b => a ≤ b ∧ b ≤ σ * a := by
  refine ⟨lines hd hm hσ s, findLs_lines hd hm hσ s, lines_increasing hd hm hσ s, lines_dropLast_lt hd hm hσ s,
    lines_getLast_ge hd hm hσ, (lines_ne_nil_iff hd hm hσ).mpr, lines_nil hd hm hσ, ?_, ?_⟩
  · intro g hg
    rw [gaps_lines] at hg
    obtain ⟨i, _, rfl⟩ := List.mem_map.mp hg
    exact spacing_le i
  · rw [gaps_lines]
    cases hn : lineCount hd hm hσ s with
    | zero => exact List.isChain_singleton _
    | succ n =>
      rw [List.range_succ_eq_map, List.map_cons, List.isChain_cons_cons]
      refine ⟨⟨le_spacing_zero hd hm hσ, spacing_zero_le⟩, ?_⟩
      have := isChain_map_range (spacing d σ dmax) (fun a b => a ≤ b ∧ b ≤ σ * a)
        (fun i => ⟨spacing_mono hd hm hσ i, spacing_succ_le hm hσ i⟩) (n + 1)
      rw [List.range_succ_eq_map, List.map_cons] at this
      exact this

/-- C20, what the lines are: the `i`-th spacing is `min (d * smoothness^(i+1)) dmax` (with `d` cut to `dmax`),
and the number of lines is the least that reaches the end. -/
theorem C20_closed_form {d σ dmax : ℚ} (hd : 0 < d) (hm : 0 < dmax) (hσ : 1 ≤ σ) (s : ℚ) :
    ∃ n, findLs d σ dmax s = some ((List.range n).map fun i => position d σ dmax (i + 1)) ∧
      s ≤ position d σ dmax n ∧ ∀ k < n, position d σ dmax k < s :=
  ⟨lineCount hd hm hσ s, findLs_eq hd hm hσ s, lineCount_spec hd hm hσ s,
    fun _ hk => lt_of_lt_lineCount hd hm hσ hk⟩

/-- Four lines: spacings 2, 4, 5, 5. -/
example : findLs 1 2 5 14 = some [2, 6, 11, 16] := by
  unfold findLs
  iterate 5 (rw [findLs.loop]; norm_num)

example : (0 : ℚ) < 1 ∧ (0 : ℚ) < 5 ∧ (1 : ℚ) ≤ 2 := by norm_num

/-- Outside the range of C20 the loop may not end: with `d = 0` no line is ever reached. -/
theorem C20_zero_d_diverges (σ dmax s : ℚ) (hm : 0 < dmax) (hs : 0 < s) : findLs 0 σ dmax s = none := by
  cases h : findLs 0 σ dmax s with
  | none => rfl
  | some ls =>
    exfalso
    have key := findLs.loop.partial_correctness σ dmax s (fun cd cs _ => cd = 0 → ¬ cs < s) (by
      intro loop ih cd cs r hr hcd hcs
      subst hcd
      rw [if_pos hcs] at hr
      simp only [zero_mul, hm, if_true, not_lt.mpr hm.le, if_false, add_zero, gt_iff_lt] at hr
      cases h2 : loop 0 cs with
      | none => rw [h2] at hr; simp at hr
      | some r2 => exact ih _ _ _ h2 rfl hcs) (min 0 dmax) 0 ls h
    exact key (min_eq_left hm.le) hs

example : (0 : ℚ) < 5 ∧ (0 : ℚ) < 14 := by norm_num

/-- Outside the range of C20: with a smoothness below 1 the spacings shrink and the end may never be reached. -/
theorem C20_small_smoothness_diverges (d σ dmax s : ℚ) (hd : 0 < d) (hdm : d < dmax) (hσ0 : 0 < σ) (hσ : σ < 1)
    (hs : d * σ / (1 - σ) ≤ s) : findLs d σ dmax s = none := by
  have h1 : 0 < 1 - σ := by linarith
  cases h : findLs d σ dmax s with
  | none => rfl
  | some ls =>
    exfalso
    have key := findLs.loop.partial_correctness σ dmax s
      (fun cd cs _ => 0 < cd → cd < dmax → cs * (1 - σ) + cd * σ ≤ s * (1 - σ) → False) (by
      intro loop ih cd cs r hr hcd hcm hle
      have hpos : 0 < cd * σ := mul_pos hcd hσ0
      have hcs : cs < s := by nlinarith
      have hlt : cd * σ < cd := by nlinarith
      rw [if_pos hcs] at hr
      simp only [hcm, if_true, gt_iff_lt, not_lt.mpr (hlt.le.trans hcm.le), if_false, Option.bind_eq_bind] at hr
      cases h2 : loop (cd * σ) (cs + cd * σ) with
      | none => rw [h2] at hr; simp at hr
      | some r2 =>
        refine ih _ _ _ h2 hpos (by linarith) ?_
        nlinarith) (min d dmax) 0 ls h (by rw [min_eq_left hdm.le]; exact hd) (by rw [min_eq_left hdm.le]; exact hdm)
    refine key ?_
    rw [min_eq_left hdm.le, zero_mul, zero_add]
    rwa [div_le_iff₀ h1] at hs

example : (0 : ℚ) < 1 ∧ (1 : ℚ) < 5 ∧ (0 : ℚ) < 1 / 2 ∧ (1 / 2 : ℚ) < 1 ∧ 1 * (1 / 2) / (1 - 1 / 2) ≤ (14 : ℚ) := by norm_num

/-! ## C22 -/

/-- C22. Solving `d` ends, for every interval of positive length with parameters in range and every `lmin`; no
policy's `d` is raised, those of the two policies stay positive and end at most `dmax`, no other policy is
changed, and each half gets at least `lmin` lines and at least one, which are the lines of `find_ls` for the
new `d`. -/
theorem C22_auto_solve_d {i : Interval} {ps : Policies} (hok : i.Ok ps) :
    ∃ ps' i', i.autoSolveD ps = some (ps', i') ∧
      (∀ j, (ps' j).d ≤ (ps j).d ∧ ps' j = { ps j with d := (ps' j).d }) ∧
      (∀ j, j ≠ i.before.policy → j ≠ i.after.policy → ps' j = ps j) ∧
      (0 < (ps' i.before.policy).d ∧ (ps' i.before.policy).d ≤ i.dmax) ∧
      (0 < (ps' i.after.policy).d ∧ (ps' i.after.policy).d ≤ i.dmax) ∧
      findLs (ps' i.before.policy).d i.before.smoothness i.dmax
        (i.h - dInitBefore (ps' i.before.policy) (ps' i.before.policy).d) = some i'.before.ls ∧
      findLs (ps' i.after.policy).d i.after.smoothness i.dmax
        (i.h - dInitAfter (ps' i.after.policy) (ps' i.after.policy).d) = some i'.after.ls ∧
      max 1 i.before.lmin ≤ i'.before.ls.length ∧ max 1 i.after.lmin ≤ i'.after.ls.length := by
  obtain ⟨ps', i', h, hok', hs, hl, ho, db, da, _, _, eb, ea, sb, sa⟩ := autoSolveD_spec hok
  have b1 := sb.ls_eq
  have a1 := sa.ls_eq
  rw [hs.pb, eb] at b1
  rw [hs.pa, ea] at a1
  have b2 := sb.enough
  have a2 := sa.enough
  rw [hs.lb] at b2
  rw [hs.la] at a2
  have b3 := List.length_pos_iff.mpr sb.nonempty
  have a3 := List.length_pos_iff.mpr sa.nonempty
  exact ⟨ps', i', h, fun j => ⟨hl.le j, hl.same j⟩, ho, ⟨hl.pos _ hok.d_b, db⟩, ⟨hl.pos _ hok.d_a, da⟩, b1, a1,
    max_le b3 b2, max_le a3 a2⟩

/-- C22, the search for `d`: it tries `d`, `d * 0.999`, `d * 0.999^2`... (cut to `dmax`) and keeps the first
accepted one. -/
theorem C22_first_accepted {dInit : Policy → ℚ → ℚ} (hlin : ∀ p, ∃ K, 0 ≤ K ∧ dInit p = fun d => K * d)
    {ps : Policies} {side : Side} {dmax h : ℚ} (hd : 0 < (ps side.policy).d) (hm : 0 < dmax)
    (hσ : 1 ≤ side.smoothness) (hh : 0 < h) :
    ∃ k, adjustD side dInit dmax h ps = some (min (ps side.policy).d dmax * (999 / 1000) ^ k) ∧
      (k = 0 → isLsValid side.ls (min (ps side.policy).d dmax) side.smoothness dmax side.lmin = true) ∧
      ∀ j, 0 < j → j ≤ k →
        ∃ ls, findLs (min (ps side.policy).d dmax * (999 / 1000) ^ j) side.smoothness dmax
            (h - dInit (ps side.policy) (min (ps side.policy).d dmax * (999 / 1000) ^ j)) = some ls ∧
          (isLsValid ls (min (ps side.policy).d dmax * (999 / 1000) ^ j) side.smoothness dmax side.lmin = true ↔
            j = k) := by
  obtain ⟨K, hK, hdi⟩ := hlin (ps side.policy)
  have hc : 0 < min (ps side.policy).d dmax := lt_min hd hm
  obtain ⟨n, hn⟩ := accepts_small hm hσ hh hK side.lmin hc (min_le_right _ _)
  rw [← hdi] at hn
  obtain ⟨k, hk, hk2⟩ := adjustD_loop (dInit := dInit (ps side.policy)) (h := h) (lmin := side.lmin) hm hσ n
    (min (ps side.policy).d dmax) side.ls hc (Or.inr hn)
  refine ⟨k, hk, ?_, ?_⟩
  · rintro rfl
    rcases hk2 with ⟨_, h1⟩ | ⟨h1, _⟩
    · exact h1
    · omega
  · intro j hj hjk
    rcases hk2 with ⟨rfl, _⟩ | ⟨_, _, ⟨ls, h2, h3⟩, h4⟩
    · omega
    · by_cases hjk' : j = k
      · subst hjk'
        exact ⟨ls, h2, by simp [h3]⟩
      · obtain ⟨ls', h5, _⟩ := findLs_some (d := min (ps side.policy).d dmax * (999 / 1000) ^ j) (by positivity) hm hσ
          (h - dInit (ps side.policy) (min (ps side.policy).d dmax * (999 / 1000) ^ j))
        refine ⟨ls', h5, ?_⟩
        simp only [hjk', iff_false]
        intro h6
        exact h4 j hj (by omega) ⟨ls', h5, h6⟩

/-- Two HALFS policies 8 apart. -/
def samplePolicies : Policies := fun j =>
  if j = 0 then ⟨0, .halfs, .none, true, 2⟩ else ⟨8, .thirds, .max, true, 2⟩

/-- The interval between them. -/
def sampleInterval : Interval := ⟨4, ⟨0, 2, 2, []⟩, ⟨1, 2, 2, []⟩, 4, 4⟩

theorem sample_ok : sampleInterval.Ok samplePolicies := by
  constructor <;> norm_num [sampleInterval, samplePolicies]

example : ∃ (i : Interval) (ps : Policies), i.Ok ps ∧ 2 ≤ i.before.lmin := ⟨_, _, sample_ok, by decide⟩

example : (∀ p, ∃ K, 0 ≤ K ∧ dInitBefore p = fun d => K * d) ∧ 0 < (samplePolicies 0).d ∧ (0 : ℚ) < 4 ∧
    1 ≤ sampleInterval.before.smoothness :=
  ⟨linear_before, by norm_num [samplePolicies], by norm_num, by norm_num [sampleInterval]⟩

/-- The constructor of `Interval` makes intervals that C21, C22 and C23 apply to, lowering the `d` of its
policies to the half length if needed. -/
theorem C22_constructor {ps : Policies} {b a lmin : Nat} {σ dmax : ℚ} (hm : 0 < dmax) (hσ : 1 ≤ σ) (hne : b ≠ a)
    (hlt : (ps b).coord < (ps a).coord) (hdb : 0 < (ps b).d) (hda : 0 < (ps a).d) :
    (Interval.make ps b a lmin σ dmax).2.Ok (Interval.make ps b a lmin σ dmax).1 ∧
      (∀ j, ((Interval.make ps b a lmin σ dmax).1 j).d ≤ (ps j).d) ∧
      ((Interval.make ps b a lmin σ dmax).1 b).d ≤ ((ps a).coord - (ps b).coord) / 2 ∧
      ((Interval.make ps b a lmin σ dmax).1 a).d ≤ ((ps a).coord - (ps b).coord) / 2 := by
  have h := make_ok (lmin := lmin) hm hσ hne hlt hdb hda
  have hh : calcH (ps b).coord (ps a).coord = ((ps a).coord - (ps b).coord) / 2 := by
    unfold calcH
    rw [abs_sub_comm, abs_of_pos (by linarith)]
  refine ⟨h.1, h.2.1.le, ?_, ?_⟩
  · rw [← hh]
    by_cases h1 : calcH (ps b).coord (ps a).coord < (ps b).d <;>
      by_cases h2 : calcH (ps b).coord (ps a).coord < (ps a).d <;>
      simp [Interval.make, Side.make, h1, h2, setD_other, hne, Ne.symm hne, not_lt.mp, le_of_lt]
    all_goals exact not_lt.mp h1
  · rw [← hh]
    by_cases h1 : calcH (ps b).coord (ps a).coord < (ps b).d <;>
      by_cases h2 : calcH (ps b).coord (ps a).coord < (ps a).d <;>
      simp [Interval.make, Side.make, h1, h2, setD_other, hne, Ne.symm hne, not_lt.mp, le_of_lt]
    all_goals exact not_lt.mp h2

example : (0 : ℚ) < 4 ∧ (1 : ℚ) ≤ 2 ∧ (samplePolicies 0).coord < (samplePolicies 1).coord := by
  norm_num [samplePolicies]

/-- Outside the range of C22: on an interval of length zero the search for `d` never ends. -/
theorem C22_zero_length_diverges {dInit : Policy → ℚ → ℚ} (hlin : ∀ p, ∃ K, 0 ≤ K ∧ dInit p = fun d => K * d)
    {ps : Policies} {side : Side} {dmax : ℚ} (hd : 0 < (ps side.policy).d) (hm : 0 < dmax)
    (hσ : 1 ≤ side.smoothness) (hls : side.ls = []) : adjustD side dInit dmax 0 ps = none := by
  cases h : adjustD side dInit dmax 0 ps with
  | none => rfl
  | some r =>
    exfalso
    obtain ⟨K, hK, hdi⟩ := hlin (ps side.policy)
    have key := adjustD.loop.partial_correctness (dInit (ps side.policy)) side.smoothness dmax 0 side.lmin
      (fun cd ls _ => 0 < cd → ls ≠ []) (by
        intro loop ih cd ls r hr hcd hnil
        subst hnil
        have hv : isLsValid [] cd side.smoothness dmax side.lmin = false := by simp [isLsValid]
        rw [hv] at hr
        simp only [Bool.false_eq_true, if_false] at hr
        have hcd' : 0 < cd - cd / 1000 := by linarith
        have hl : findLs (cd - cd / 1000) side.smoothness dmax (0 - dInit (ps side.policy) (cd - cd / 1000)) =
            some [] := by
          rw [findLs_lines hcd' hm hσ, lines_nil]
          rw [hdi]
          have := mul_nonneg hK hcd'.le
          simp only; linarith
        rw [hl] at hr
        simp only [Option.bind_eq_bind, Option.bind_some] at hr
        exact ih _ _ _ hr hcd' rfl) (min (ps side.policy).d dmax) side.ls r h (lt_min hd hm)
    exact key hls

example : ∃ side : Side, side.ls = [] ∧ 1 ≤ side.smoothness := ⟨⟨0, 2, 2, []⟩, rfl, by norm_num⟩

/-! ## C23 -/

/-- C23. Relaxing the smoothness ends, never raises it, never makes it smaller than 1, changes nothing but the
smoothness and the lines, and keeps the number of lines of each half. -/
theorem C23_auto_solve_smoothness {i : Interval} {ps : Policies} (hok : i.Ok ps) :
    ∃ i', i.autoSolveSmoothness ps = some i' ∧
      i' = { i with before := { i.before with smoothness := i'.before.smoothness, ls := i'.before.ls }
                    after := { i.after with smoothness := i'.after.smoothness, ls := i'.after.ls } } ∧
      1 ≤ i'.before.smoothness ∧ i'.before.smoothness ≤ i.before.smoothness ∧
      1 ≤ i'.after.smoothness ∧ i'.after.smoothness ≤ i.after.smoothness ∧
      findLs (ps i.before.policy).d i'.before.smoothness i.dmax
        (i.h - dInitBefore (ps i.before.policy) (ps i.before.policy).d) = some i'.before.ls ∧
      findLs (ps i.after.policy).d i'.after.smoothness i.dmax
        (i.h - dInitAfter (ps i.after.policy) (ps i.after.policy).d) = some i'.after.ls ∧
      (∀ ls, findLs (ps i.before.policy).d i.before.smoothness i.dmax
        (i.h - dInitBefore (ps i.before.policy) (ps i.before.policy).d) = some ls →
          i'.before.ls.length = ls.length) ∧
      (∀ ls, findLs (ps i.after.policy).d i.after.smoothness i.dmax
        (i.h - dInitAfter (ps i.after.policy) (ps i.after.policy).d) = some ls →
          i'.after.ls.length = ls.length) := by
  obtain ⟨i', h, hok', hs, em, sb, sa, fb, fa, nb, na⟩ := autoSolveSmoothness_spec hok
  refine ⟨i', h, ?_, hok'.smooth_b, sb, hok'.smooth_a, sa, fb, fa, nb, na⟩
  obtain ⟨d1, b1, a1, h1, m1⟩ := i'
  obtain ⟨pb1, lb1, sb1, lsb1⟩ := b1
  obtain ⟨pa1, la1, sa1, lsa1⟩ := a1
  obtain ⟨e1, e2, e3, e4, e5, e6⟩ := hs
  simp only at *
  subst e1 e2 e3 e4 e5 e6 em
  rfl

example : ∃ (i : Interval) (ps : Policies), i.Ok ps ∧ 1 < i.before.smoothness :=
  ⟨_, _, sample_ok, by norm_num [sampleInterval]⟩

/-! ## C21 -/

/-- C21. Solving and meshing an interval ends. Its lines are strictly increasing, within the coordinates of the
two policies, contain the middle, and no two consecutive ones are more than `dmax` apart; the first and last
lines are at most `dmax` from the policies. Each half has at least `lmin` lines, and the policies' other members
and the other policies do not change. -/
theorem C21_interval_mesh {i : Interval} {ps : Policies} (hok : i.Ok ps) :
    ∃ ps' i' ls, i.solveAndMesh ps = some (ps', i', ls) ∧ Increasing ls ∧
      (∀ x ∈ ls, (ps i.before.policy).coord ≤ x ∧ x ≤ (ps i.after.policy).coord) ∧ i.m ∈ ls ∧
      GapsAtMost i.dmax ls ∧ (∀ x ∈ ls.head?, x - (ps i.before.policy).coord ≤ i.dmax) ∧
      (∀ x ∈ ls.getLast?, (ps i.after.policy).coord - x ≤ i.dmax) ∧
      max 1 i.before.lmin ≤ i'.before.ls.length ∧ max 1 i.after.lmin ≤ i'.after.ls.length ∧
      (∀ j, ps' j = { ps j with d := (ps' j).d }) := by
  obtain ⟨ps', i', h, hok', hs, hl, _, db, da, hm, _, _, hch, lb, la⟩ := solveAndMesh_spec hok
  have cb : (ps' i'.before.policy).coord = (ps i.before.policy).coord := by rw [hs.pb, hl.coord]
  have ca : (ps' i'.after.policy).coord = (ps i.after.policy).coord := by rw [hs.pa, hl.coord]
  rw [← hs.pb] at db
  rw [← hs.pa] at da
  have hsub := mesh_infix i' ps'
  obtain ⟨l, hshape⟩ := extended_shape i' ps'
  have hbnd := chain_bounds (hshape ▸ hch)
  have hmem : ∀ x ∈ i'.mesh ps', (ps i.before.policy).coord ≤ x ∧ x ≤ (ps i.after.policy).coord := by
    intro x hx
    have hx' := hsub.subset hx
    have := hbnd x (hshape ▸ hx')
    have h1 := dInitBefore_nonneg (ps' i'.before.policy) hok'.d_b.le
    have h2 := dInitAfter_nonneg (ps' i'.after.policy) hok'.d_a.le
    rw [cb, ca] at this
    constructor <;> linarith [this.1, this.2]
  refine ⟨ps', i', i'.mesh ps', h, (hch.infix hsub).imp fun _ _ h => h.1, hmem, ?_,
    (hch.infix hsub).imp fun _ _ h => h.2, ?_, ?_, lb, la, hl.same⟩
  · rw [← hs.m]; simp [Interval.mesh]
  · intro x hx
    by_cases hk : (ps' i'.before.policy).kind = .oneline
    · rw [extended_eq, if_pos hk] at hch
      cases hmesh : i'.mesh ps' with
      | nil => rw [hmesh] at hx; cases hx
      | cons y t =>
        rw [hmesh] at hch hx
        cases hx
        simp only [List.cons_append, List.nil_append] at hch
        rw [← cb]; exact (List.isChain_cons_cons.mp hch).1.2
    · have : x = (ps' i'.before.policy).coord + dInitBefore (ps' i'.before.policy) (ps' i'.before.policy).d := by
        simp [Interval.mesh, hk] at hx
        exact hx.symm
      rw [this, cb, dInitBefore_eq]
      have h1 := kBefore_le_one (ps' i'.before.policy)
      have h2 := hok'.d_b
      simp only
      nlinarith
  · intro x hx
    by_cases hk : (ps' i'.after.policy).kind = .oneline
    · rw [extended_eq, if_pos hk] at hch
      have hch2 := hch.right_of_append_two hx
      rw [← ca]; exact hch2.2
    · have : x = (ps' i'.after.policy).coord - dInitAfter (ps' i'.after.policy) (ps' i'.after.policy).d := by
        obtain ⟨l, hl⟩ := mesh_last i' ps' hk
        rw [hl, List.getLast?_concat] at hx
        exact (Option.some.inj hx).symm
      rw [this, ca, dInitAfter_eq]
      have h1 := kAfter_le_one (ps' i'.after.policy)
      have h2 := hok'.d_a
      simp only
      nlinarith

example : ∃ (i : Interval) (ps : Policies), i.Ok ps ∧ (ps i.before.policy).coord + 8 = (ps i.after.policy).coord :=
  ⟨_, _, sample_ok, by norm_num [sampleInterval, samplePolicies]⟩

/-- From two policies to lines: the interval that the constructor makes between them, once solved, has increasing lines
between their coordinates, through the middle of the two, at most `dmax` apart and from the policies, and at least `lmin`
of them in each half. -/
theorem C21_policies {ps : Policies} {b a lmin : Nat} {σ dmax : ℚ} (hm : 0 < dmax) (hσ : 1 ≤ σ) (hne : b ≠ a)
    (hlt : (ps b).coord < (ps a).coord) (hdb : 0 < (ps b).d) (hda : 0 < (ps a).d) :
    ∃ ps' i' ls, (Interval.make ps b a lmin σ dmax).2.solveAndMesh (Interval.make ps b a lmin σ dmax).1 =
        some (ps', i', ls) ∧ Increasing ls ∧ (∀ x ∈ ls, (ps b).coord ≤ x ∧ x ≤ (ps a).coord) ∧
      ((ps b).coord + (ps a).coord) / 2 ∈ ls ∧ GapsAtMost dmax ls ∧ (∀ x ∈ ls.head?, x - (ps b).coord ≤ dmax) ∧
      (∀ x ∈ ls.getLast?, (ps a).coord - x ≤ dmax) ∧ max 1 lmin ≤ i'.before.ls.length ∧
      max 1 lmin ≤ i'.after.ls.length := by
  obtain ⟨hok, hl, hd, hb, ha⟩ := make_ok (lmin := lmin) hm hσ hne hlt hdb hda
  obtain ⟨ps', i', ls, h1, h2, h3, h4, h5, h6, h7, h8, h9, -⟩ := C21_interval_mesh hok
  rw [hok.m_eq] at h4
  rw [hd] at h5 h6 h7
  rw [hb] at h3 h4 h6 h8
  rw [ha] at h3 h4 h7 h9
  simp only [hl.coord] at h3 h4 h6 h7
  exact ⟨ps', i', ls, h1, h2, h3, h4, h5, h6, h7, h8, h9⟩

example : (0 : ℚ) < 4 ∧ (1 : ℚ) ≤ 2 ∧ (samplePolicies 0).coord < (samplePolicies 1).coord ∧ 0 < (samplePolicies 0).d ∧
    0 < (samplePolicies 1).d := by
  norm_num [samplePolicies]

end Verif.Props
