import Verif.Lemmas.DialogRead

/-!
# C91: accepting a dialog
-/

namespace Verif.Dialog
open Spec

/-- What is read of the text shown for a number. -/
theorem read_shown (x : ℚ) : ∃ y, toDouble (number x) = some y ∧ Near x y ∧ (SixDigits x → y = x) := by
  refine ⟨_, toDouble_number x, ?_⟩
  have main : ∀ y : ℚ, 0 < y → |shownValue y - y| ≤ y / 200000 ∧ (SixDigits y → shownValue y = y) := by
    intro y hy
    refine ⟨by have := shownValue_near hy; linarith, ?_⟩
    rintro ⟨k, hk, e, he⟩
    rw [abs_of_pos hy] at he
    exact shownValue_exact hy hk he
  unfold Near
  rcases lt_trichotomy x 0 with hx | rfl | hx
  · obtain ⟨h1, h2⟩ := main (-x) (by linarith)
    rw [if_neg hx.ne, if_pos hx, abs_of_neg hx]
    refine ⟨?_, fun h => ?_⟩
    · rw [show -shownValue (-x) - x = -(shownValue (-x) - -x) by ring, abs_neg]; exact h1
    · rw [h2 (by unfold SixDigits at h ⊢; rwa [abs_neg])]; ring
  · simp
  · obtain ⟨h1, h2⟩ := main x hx
    rw [if_neg hx.ne', if_neg (by linarith), abs_of_pos hx]
    exact ⟨h1, h2⟩

theorem read_exact {x : ℚ} (h : SixDigits x) : toDouble (number x) = some x := by
  obtain ⟨y, hy, -, he⟩ := read_shown x
  rw [hy, he h]

/-- The text shown for a number is a number in decimal notation, the same up to half of the sixth digit, and the same when
it has six digits at most. -/
theorem C91_shown (x : ℚ) : ∃ y, Number (number x) y ∧ Near x y ∧ (SixDigits x → y = x) := by
  obtain ⟨y, h1, h2⟩ := read_shown x
  exact ⟨y, (toDouble_iff _ _).1 h1, h2⟩

example : SixDigits (5 / 4) ∧ number (5 / 4) = "1.25".toList ∧ number (1 / 3) = "0.333333".toList :=
  ⟨⟨125, by norm_num, -2, by norm_num [abs_of_pos]⟩, by decide +kernel, by decide +kernel⟩

/-- Accepting a dialog unchanged, when numbers have six digits at most: the same state. The dialog of intervals is left out:
there the smoothness changes. The parameters lose what was read of the grid of the input. -/
theorem C91_unchanged_partial :
    (∀ p : Csx.Params, SixDigits p.proximityLimit → SixDigits p.smoothness → SixDigits p.dmax → SixDigits p.minimalAngle →
      SixDigits p.diagonalDmax → p.lmin < 2 ^ 64 → p.diagonalLmin < 2 ^ 64 →
      (GlobalRows.shown p).commit = some (.detectDiagZones, { p with hasGridAlready := false, fixed := [] })) ∧
    (∀ p : Mesh.Policy, SixDigits p.d → ((p.kind = .thirds) ↔ (p.normal ≠ .none)) →
      (PolicyRows.shown p).commit p = some (.detectIntervals, p)) ∧
    (∀ z : Board.Zone, SixDigits z.dmax → SixDigits z.minimalAngle → z.lmin < 2 ^ 64 →
      (ZoneRows.shown z).commit z = some (.solveDiagZonesIntervals, z)) ∧
    (∀ e : Board.BEdge, commitEdge (ofBool e.toMesh) (ofBool e.toReverse) e = some (.detectConflictEip, e)) ∧
    (∀ f : Geom.ViewAxis → Bool, commitAngle (ofBool (f .h)) (ofBool (f .v)) = some (.detectConflictEip, f)) ∧
    (∀ b, commitTooClose (ofBool b) = some (.detectAndSolveTcmlp, b)) := by
  have hb : ∀ b, toBool (ofBool b) = some b := by decide
  refine ⟨?_, ?_, ?_, ?_, ?_, ?_⟩
  · intro p h1 h2 h3 h4 h5 h6 h7
    unfold GlobalRows.commit GlobalRows.shown
    simp only [read_exact h1, read_exact h2, read_exact h3, read_exact h4, read_exact h5, toULong_decimal h6,
      toULong_decimal h7, Option.bind_some, Option.map_some]
  · intro p h1 h2
    unfold PolicyRows.commit PolicyRows.shown
    have hc : compatible p.kind p.normal = true := by
      revert h2
      generalize p.kind = k
      generalize p.normal = n
      cases k <;> cases n <;> simp [compatible]
    simp only [hc, if_true, hb, read_exact h1, Option.bind_some, Option.map_some]
  · intro z h1 h2 h3
    unfold ZoneRows.commit ZoneRows.shown
    simp only [read_exact h1, read_exact h2, toULong_decimal h3, Option.bind_some, Option.map_some, ne_eq, not_true,
      if_false]
  · intro e
    simp only [commitEdge, hb, Option.bind_some, Option.map_some]
  · intro f
    simp only [commitAngle, hb, Option.bind_some, Option.map_some, Option.some.injEq, Prod.mk.injEq, true_and]
    funext a
    cases a <;> rfl
  · intro b
    simp only [commitTooClose, hb, Option.map_some]

example : (GlobalRows.shown { dmax := 5 / 4, minimalAngle := 1 / 1000000, fixed := [(.x, 3)] }).commit =
    some (.detectDiagZones, { dmax := 5 / 4, minimalAngle := 1 / 1000000 }) := by
  decide +kernel

/-- Accepting the dialog of an interval unchanged: only the smoothness changes, to 2 on both sides. -/
theorem C91_interval_partial (i : Mesh.Interval) (h : SixDigits i.dmax) (hb : i.before.lmin < 2 ^ 64)
    (ha : i.after.lmin < 2 ^ 64) :
    (IntervalRows.shown i).commit i = some (.mesh, { i with
      before := { i.before with smoothness := 2 }, after := { i.after with smoothness := 2 } }) := by
  have h2 : toDouble ['2'] = some 2 := by decide +kernel
  unfold IntervalRows.commit IntervalRows.shown
  simp only [read_exact h, h2, toULong_decimal hb, toULong_decimal ha, Option.bind_some, Option.map_some]

/-- Accepting a dialog unchanged may change the state: a smoothness, or a number of more than six digits. -/
theorem C91_false :
    (∃ i : Mesh.Interval, SixDigits i.dmax ∧ SixDigits i.before.smoothness ∧
      ∃ j, (IntervalRows.shown i).commit i = some (.mesh, j) ∧ j.before.smoothness ≠ i.before.smoothness) ∧
    (∃ p : Csx.Params, ∃ q, (GlobalRows.shown p).commit = some (.detectDiagZones, q) ∧ q.dmax ≠ p.dmax) ∧
    (∃ z : Board.Zone, ∃ y, (ZoneRows.shown z).commit z = some (.solveDiagZonesAngles, y) ∧
      y.minimalAngle ≠ z.minimalAngle) := by
  refine ⟨⟨⟨5 / 2, ⟨0, 2, 3 / 2, []⟩, ⟨1, 2, 3 / 2, []⟩, 5, 5⟩, ⟨25, by norm_num, -1, by norm_num [abs_of_pos]⟩,
    ⟨15, by norm_num, -1, by norm_num [abs_of_pos]⟩,
    ⟨5 / 2, ⟨0, 2, 2, []⟩, ⟨1, 2, 2, []⟩, 5, 5⟩, by decide +kernel, by norm_num⟩,
    ⟨{ dmax := 12345678 / 10000000 }, { dmax := 123457 / 100000 }, by decide +kernel, by norm_num⟩,
    ⟨⟨.x, 1, 2, 1 / 3, [], []⟩, ⟨.x, 1, 2, 333333 / 1000000, [], []⟩, by decide +kernel, by norm_num⟩⟩

/-- What accepting a dialog gives: the numbers written in its texts when each is one, and otherwise no edition. -/
theorem C91_accepted :
    (∀ (r : GlobalRows) (s : Step) (q : Csx.Params), r.commit = some (s, q) ↔
      s = .detectDiagZones ∧ Number r.proximityLimit q.proximityLimit ∧ Number r.smoothness q.smoothness ∧
        Natural r.lmin q.lmin ∧ Number r.dmax q.dmax ∧ Number r.minimalAngle q.minimalAngle ∧
        Number r.diagonalDmax q.diagonalDmax ∧ Natural r.diagonalLmin q.diagonalLmin ∧
        q.hasGridAlready = false ∧ q.fixed = []) ∧
    (∀ (r : IntervalRows) (i : Mesh.Interval) (s : Step) (j : Mesh.Interval), r.commit i = some (s, j) ↔
      s = .mesh ∧ Number r.dmax j.dmax ∧ Natural r.beforeLmin j.before.lmin ∧
        Number r.beforeSmoothness j.before.smoothness ∧ Natural r.afterLmin j.after.lmin ∧
        Number r.afterSmoothness j.after.smoothness ∧ j.before.policy = i.before.policy ∧ j.before.ls = i.before.ls ∧
        j.after.policy = i.after.policy ∧ j.after.ls = i.after.ls ∧ j.h = i.h ∧ j.m = i.m) ∧
    (∀ (r : PolicyRows) (p : Mesh.Policy) (s : Step) (q : Mesh.Policy), r.commit p = some (s, q) ↔
      s = .detectIntervals ∧ q.kind = r.kind ∧ q.normal = r.normal ∧ (q.kind = .thirds ↔ q.normal ≠ .none) ∧
        r.enabled = (if q.enabled then .checked else .unchecked) ∧ Number r.d q.d ∧ q.coord = p.coord) ∧
    (∀ (r : ZoneRows) (z : Board.Zone) (s : Step) (y : Board.Zone), r.commit z = some (s, y) ↔
      (s = if y.minimalAngle = z.minimalAngle then .solveDiagZonesIntervals else .solveDiagZonesAngles) ∧
        Natural r.lmin y.lmin ∧ Number r.dmax y.dmax ∧ Number r.minimalAngle y.minimalAngle ∧ y.axis = z.axis ∧
        y.angles = z.angles ∧ y.intervals = z.intervals) := by
  refine ⟨?_, ?_, ?_, ?_⟩
  · intro r s q
    simp only [← toDouble_iff, ← toULong_iff, GlobalRows.commit, Option.bind_eq_some_iff, Option.map_eq_some_iff,
      Prod.mk.injEq]
    constructor
    · rintro ⟨_, h1, _, h2, _, h3, _, h4, _, h5, _, h6, _, h7, rfl, rfl⟩
      exact ⟨rfl, h1, h2, h3, h4, h5, h6, h7, rfl, rfl⟩
    · rintro ⟨rfl, h1, h2, h3, h4, h5, h6, h7, h8, h9⟩
      refine ⟨_, h1, _, h2, _, h3, _, h4, _, h5, _, h6, _, h7, rfl, ?_⟩
      rw [← h8, ← h9]
  · intro r i s j
    simp only [← toDouble_iff, ← toULong_iff, IntervalRows.commit, Option.bind_eq_some_iff, Option.map_eq_some_iff,
      Prod.mk.injEq]
    constructor
    · rintro ⟨_, h1, _, h2, _, h3, _, h4, _, h5, rfl, rfl⟩
      exact ⟨rfl, h1, h2, h3, h4, h5, rfl, rfl, rfl, rfl, rfl, rfl⟩
    · rintro ⟨rfl, h1, h2, h3, h4, h5, h6, h7, h8, h9, h10, h11⟩
      refine ⟨_, h1, _, h2, _, h3, _, h4, _, h5, rfl, ?_⟩
      rw [← h6, ← h7, ← h8, ← h9, ← h10, ← h11]
  · intro r p s q
    have hc : compatible r.kind r.normal = true ↔ (r.kind = .thirds ↔ r.normal ≠ .none) := by
      generalize r.kind = k
      generalize r.normal = n
      cases k <;> cases n <;> simp [compatible]
    have hb : ∀ b, toBool r.enabled = some b ↔ r.enabled = (if b then .checked else .unchecked) := by
      intro b
      generalize r.enabled = c
      cases b <;> cases c <;> simp [toBool]
    unfold PolicyRows.commit
    constructor
    · intro h
      by_cases hk : compatible r.kind r.normal = true
      · rw [if_pos hk] at h
        simp only [Option.bind_eq_some_iff, Option.map_eq_some_iff, Prod.mk.injEq] at h
        obtain ⟨b, h1, d, h2, rfl, rfl⟩ := h
        exact ⟨rfl, rfl, rfl, hc.1 hk, (hb b).1 h1, (toDouble_iff _ _).1 h2, rfl⟩
      · rw [if_neg hk] at h; simp at h
    · rintro ⟨rfl, h1, h2, h3, h4, h5, h6⟩
      rw [h1, h2] at h3
      rw [if_pos (hc.2 h3)]
      simp only [Option.bind_eq_some_iff, Option.map_eq_some_iff, Prod.mk.injEq]
      refine ⟨_, (hb _).2 h4, _, (toDouble_iff _ _).2 h5, trivial, ?_⟩
      rw [← h1, ← h2, ← h6]
  · intro r z s y
    simp only [← toDouble_iff, ← toULong_iff, ZoneRows.commit, Option.bind_eq_some_iff, Option.map_eq_some_iff,
      Prod.mk.injEq, ne_eq, ite_not]
    constructor
    · rintro ⟨_, h1, _, h2, _, h3, rfl, rfl⟩
      exact ⟨rfl, h1, h2, h3, rfl, rfl, rfl⟩
    · rintro ⟨rfl, h1, h2, h3, h4, h5, h6⟩
      refine ⟨_, h1, _, h2, _, h3, rfl, ?_⟩
      rw [← h4, ← h5, ← h6]

example : (∃ q, (GlobalRows.commit ⟨" 1.5".toList, "2".toList, "+3".toList, "1e-2".toList, "20".toList, ".5".toList,
      "2 ".toList⟩) = some (.detectDiagZones, q) ∧ q.dmax = 1 / 100) ∧
    GlobalRows.commit ⟨"1.5".toList, "2".toList, "-3".toList, "1".toList, "20".toList, "5".toList, "2".toList⟩ = none ∧
    (PolicyRows.commit ⟨.halfs, .max, .checked, "1".toList⟩ ⟨0, .halfs, .none, true, 1⟩) = none :=
  ⟨⟨⟨false, 3 / 2, 2, 3, 1 / 100, 2, 1 / 2, 20, []⟩, by decide +kernel, rfl⟩, by decide +kernel, by decide +kernel⟩

end Verif.Dialog
