import Verif.Lemmas.ManagerMesh

/-!
# When the meshing of an axis does not end

A policy whose `d` is not positive, or two policies at the same place: the loops on the intervals around never end.
-/

namespace Verif.Mesh

theorem findLs_loop_hang {sm dmax s : ℚ} (hsm : 0 ≤ sm) (hd : 0 ≤ dmax) {d c : ℚ} (h : d ≤ 0) (hc : c ≤ 0) (hs : 0 < s) :
    findLs.loop sm dmax s d c = none := by
  cases hr : findLs.loop sm dmax s d c with
  | none => rfl
  | some r =>
    exfalso
    refine findLs.loop.partial_correctness sm dmax s (fun d c _ => d ≤ 0 → c ≤ 0 → False) ?_ d c r hr h hc
    intro f hf d c r hr h hc
    rw [if_pos (by linarith)] at hr
    obtain ⟨rest, hrest, -⟩ := Option.bind_eq_some_iff.1 hr
    have h0 : d * sm ≤ 0 := mul_nonpos_of_nonpos_of_nonneg h hsm
    rw [if_neg (show ¬ d * sm > dmax by intro h'; linarith)] at hrest
    refine hf _ _ _ hrest ?_ ?_ <;> split_ifs <;> linarith

/-- The lines of a side with no positive `d`. -/
theorem findLs_hang {d sm dmax : ℚ} (h : d ≤ 0) (hsm : 0 ≤ sm) (hd : 0 ≤ dmax) (s : ℚ) :
    findLs d sm dmax s = none ∨ findLs d sm dmax s = some [] := by
  unfold findLs
  by_cases hs : 0 < s
  · exact Or.inl (findLs_loop_hang hsm hd ((min_le_left _ _).trans h) le_rfl hs)
  · right
    rw [findLs.loop, if_neg hs]

theorem adjustD_loop_hang {dInit : ℚ → ℚ} {sm dmax h : ℚ} (hsm : 0 ≤ sm) (hd : 0 ≤ dmax) (lmin : Nat) {d : ℚ} (hd0 : d ≤ 0) :
    adjustD.loop dInit sm dmax h lmin d [] = none := by
  cases hr : adjustD.loop dInit sm dmax h lmin d [] with
  | none => rfl
  | some r =>
    exfalso
    refine adjustD.loop.partial_correctness dInit sm dmax h lmin (fun d ls _ => d ≤ 0 → ls = [] → False) ?_ d [] r hr hd0 rfl
    intro f hf d ls r hr h0 hls
    subst hls
    have hv : isLsValid [] d sm dmax lmin = false := by
      unfold isLsValid; split_ifs <;> rfl
    rw [hv] at hr
    simp only [Bool.false_eq_true, if_false] at hr
    obtain ⟨ls, hls, hr⟩ := Option.bind_eq_some_iff.1 hr
    have h1 : d - d / 1000 ≤ 0 := by linarith
    rcases findLs_hang h1 hsm hd (h - dInit (d - d / 1000)) with e | e
    · rw [e] at hls; cases hls
    · rw [e] at hls
      exact hf _ _ _ hr h1 (Option.some.inj hls).symm

/-- What an interval needs for the lemmas below: nothing about its policies. -/
structure Interval.Sane (i : Interval) : Prop where
  dmax : 0 ≤ i.dmax
  before : 0 ≤ i.before.smoothness
  after : 0 ≤ i.after.smoothness

/-- An interval one policy of which has no positive `d` is not solved. -/
theorem autoSolveD_hang {i : Interval} {ps : Policies} (hi : i.Sane)
    (h : (ps i.before.policy).d ≤ 0 ∨ (ps i.after.policy).d ≤ 0) : i.autoSolveD ps = none := by
  cases hr : i.autoSolveD ps with
  | none => rfl
  | some r =>
    exfalso
    simp only [Interval.autoSolveD, Side.updateLs, adjustD, Option.bind_eq_bind, Option.bind_eq_some_iff, Option.pure_def,
      Option.some.injEq] at hr
    obtain ⟨b1, ⟨lb, hlb, rfl⟩, a1, ⟨la, hla, rfl⟩, b2, ⟨lb', hlb', rfl⟩, a2, ⟨la', hla', rfl⟩, db, hdb, b3, ⟨lb'', hlb'', rfl⟩, da,
      hda, a3, ⟨la'', hla'', rfl⟩, -⟩ := hr
    simp only at *
    have key : ∀ {lb d}, (ps i.before.policy).d ≤ 0 → findLs (ps i.before.policy).d i.before.smoothness i.dmax
        (i.h - dInitBefore (ps i.before.policy) (ps i.before.policy).d) = some lb →
        adjustD.loop (dInitBefore (ps i.before.policy)) i.before.smoothness i.dmax i.h i.before.lmin
          (min (ps i.before.policy).d i.dmax) lb = some d → False := by
      intro lb d h0 h1 h2
      rcases findLs_hang h0 hi.before hi.dmax (i.h - dInitBefore (ps i.before.policy) (ps i.before.policy).d) with e | e
      · rw [e] at h1; cases h1
      · rw [e] at h1
        rw [← Option.some.inj h1, adjustD_loop_hang hi.before hi.dmax _ ((min_le_left _ _).trans h0)] at h2
        cases h2
    by_cases hb : (ps i.before.policy).d ≤ 0
    · exact key hb hlb' hdb
    · have ha := h.resolve_left hb
      have hne : i.after.policy ≠ i.before.policy := fun e => hb (e ▸ ha)
      have hset : ps.setD i.before.policy db i.after.policy = ps i.after.policy := by
        unfold Policies.setD; rw [if_neg hne]
      rw [hset] at hda
      rcases findLs_hang ha hi.after hi.dmax (i.h - dInitAfter (ps i.after.policy) (ps i.after.policy).d) with e | e
      · rw [e] at hla'; cases hla'
      · rw [e] at hla'
        rw [← Option.some.inj hla', adjustD_loop_hang hi.after hi.dmax _ ((min_le_left _ _).trans ha)] at hda
        cases hda

theorem autoSolveD_others {i i' : Interval} {ps ps' : Policies} (h : i.autoSolveD ps = some (ps', i')) {k : Nat}
    (hb : k ≠ i.before.policy) (ha : k ≠ i.after.policy) : ps' k = ps k := by
  simp only [Interval.autoSolveD, Side.updateLs, Option.bind_eq_bind, Option.bind_eq_some_iff, Option.pure_def,
      Option.some.injEq, Prod.mk.injEq] at h
  obtain ⟨_, ⟨_, -, rfl⟩, _, ⟨_, -, rfl⟩, _, ⟨_, -, rfl⟩, _, ⟨_, -, rfl⟩, _, -, _, ⟨_, -, rfl⟩, _, -, _, ⟨_, -, rfl⟩, rfl, -⟩ := h
  simp only [Policies.setD, if_neg ha, if_neg hb]

/-- Intervals one of which has a policy with no positive `d` are not solved, in any order. -/
theorem solveAllD_hang (ivs : List Interval) : ∀ {ps : Policies} {k : Nat}, (∀ i ∈ ivs, i.Sane) → (ps k).d ≤ 0 →
    (∃ i ∈ ivs, k = i.before.policy ∨ k = i.after.policy) → solveAllD ps ivs = none := by
  induction ivs with
  | nil => rintro ps k - - ⟨i, hi, -⟩; cases hi
  | cons i ivs ih =>
    intro ps k hs hk he
    unfold solveAllD
    by_cases hik : k = i.before.policy ∨ k = i.after.policy
    · rw [autoSolveD_hang (hs i (by simp)) (by rcases hik with rfl | rfl <;> [left; right] <;> exact hk)]
      rfl
    · cases hr : i.autoSolveD ps with
      | none => rfl
      | some r =>
        obtain ⟨ps', i'⟩ := r
        obtain ⟨h1, h2⟩ := not_or.1 hik
        obtain ⟨j, hj, hjk⟩ := he
        rcases List.mem_cons.1 hj with rfl | hj
        · exact absurd hjk hik
        · have := ih (ps := ps') (k := k) (fun i hi => hs i (by simp [hi])) (by rw [autoSolveD_others hr h1 h2]; exact hk) ⟨j, hj, hjk⟩
          simp [this]

/-- An axis, one of the intervals of which has a policy with no positive `d`, is not meshed. -/
theorem mesh_hang (S : Sorter Interval) (T : Sorter ℚ) {a : Axis} (hs : ∀ i ∈ a.intervals, i.Sane) {k : Nat}
    (hk : (a.get k).d ≤ 0) (he : ∃ i ∈ a.intervals, k = i.before.policy ∨ k = i.after.policy) : a.mesh S T = none := by
  obtain ⟨i, hi, hik⟩ := he
  have hp := S.perm Interval.h a.intervals
  simp only [Axis.mesh, solveAllD_hang _ (fun i hi => hs i (hp.mem_iff.1 hi)) hk ⟨i, hp.mem_iff.2 hi, hik⟩]
  rfl

/-! ## The intervals made -/

theorem sideMake_le (ps : Policies) (i lmin : Nat) (s h : ℚ) (k : Nat) :
    ((Side.make ps i lmin s h).1 k).d ≤ (ps k).d ∧ ((Side.make ps i lmin s h).1 i).d ≤ h := by
  unfold Side.make
  simp only
  split_ifs with hd
  · refine ⟨?_, by simp [Policies.setD]⟩
    unfold Policies.setD
    split_ifs with e
    · subst e; exact hd.le
    · exact le_rfl
  · exact ⟨le_rfl, by linarith⟩

theorem sideMake_coord (ps : Policies) (i lmin : Nat) (s h : ℚ) (k : Nat) :
    ((Side.make ps i lmin s h).1 k).coord = (ps k).coord := by
  unfold Side.make
  simp only
  split_ifs with hd
  · unfold Policies.setD
    split_ifs with e
    · subst e; rfl
    · rfl
  · rfl

/-- Making intervals only lowers the `d` of policies; two consecutive policies at the same place lose it. -/
theorem makeIntervals_le (g : MeshParams) (l : List Nat) : ∀ ps : Policies,
    (∀ k, ((makeIntervals g ps l).1 k).d ≤ (ps k).d) ∧
    ∀ i j, (i, j) ∈ consecutive l → (ps i).coord = (ps j).coord → ((makeIntervals g ps l).1 i).d ≤ 0 := by
  induction l with
  | nil => exact fun ps => ⟨fun k => le_rfl, fun i j h => by simp [consecutive] at h⟩
  | cons x l ih =>
    intro ps
    cases l with
    | nil => exact ⟨fun k => le_rfl, fun i j h => by simp [consecutive] at h⟩
    | cons y l =>
      set h := calcH (ps x).coord (ps y).coord with hh
      have e : (Interval.make ps x y g.lmin g.smoothness g.dmax).1 =
          (Side.make (Side.make ps x g.lmin g.smoothness h).1 y g.lmin g.smoothness h).1 := rfl
      obtain ⟨h1, h2⟩ := ih (Interval.make ps x y g.lmin g.smoothness g.dmax).1
      rw [e] at h1 h2
      have hle : ∀ k, ((Side.make (Side.make ps x g.lmin g.smoothness h).1 y g.lmin g.smoothness h).1 k).d ≤
          ((Side.make ps x g.lmin g.smoothness h).1 k).d := fun k => (sideMake_le _ _ _ _ _ k).1
      refine ⟨fun k => (h1 k).trans ((hle k).trans (sideMake_le ps x g.lmin g.smoothness h k).1), ?_⟩
      intro i j hij hc
      have hij : (i, j) = (x, y) ∨ (i, j) ∈ consecutive (y :: l) := by
        simpa [consecutive] using hij
      rcases hij with hij | hij
      · obtain ⟨rfl, rfl⟩ := Prod.mk.inj hij
        refine (h1 i).trans ((hle i).trans ((sideMake_le ps i g.lmin g.smoothness h i).2.trans ?_))
        rw [hh, calcH, hc]
        simp
      · refine h2 i j hij ?_
        rw [sideMake_coord, sideMake_coord, sideMake_coord, sideMake_coord]
        exact hc

end Verif.Mesh
