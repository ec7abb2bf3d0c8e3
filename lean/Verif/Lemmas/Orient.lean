import Verif.Spec.Orient
import Mathlib.Tactic.Linarith
import Mathlib.Tactic.Ring
import Mathlib.Tactic.FieldSimp
import Mathlib.Tactic.Positivity

/-! Lemmas for C153: a view is a positive factor, a turn by `rotation` and the reflection that makes `y` go up. -/

namespace Verif.Orient

open Verif.Geom

/-- A factor, a turn and the reflection. -/
def Transform.Is (t : Transform) (k a : ℝ) : Prop :=
  t.m11 = k * Real.cos a ∧ t.m12 = - (k * Real.sin a) ∧ t.m21 = - (k * Real.sin a) ∧ t.m22 = - (k * Real.cos a)

theorem Transform.Is.scale {t : Transform} {k a : ℝ} (h : t.Is k a) (r : ℝ) : (t.scale r r).Is (k * r) a := by
  obtain ⟨h1, h2, h3, h4⟩ := h
  refine ⟨?_, ?_, ?_, ?_⟩ <;> simp only [Transform.scale, h1, h2, h3, h4] <;> ring

theorem Transform.Is.rotate {t : Transform} {k a : ℝ} (h : t.Is k a) (b : ℚ) :
    (t.rotate b).Is k (a + Transform.radians b) := by
  obtain ⟨h1, h2, h3, h4⟩ := h
  refine ⟨?_, ?_, ?_, ?_⟩ <;> simp only [Transform.rotate, h1, h2, h3, h4, Real.cos_add, Real.sin_add] <;> ring

theorem fmod_turns (a : ℚ) : ∃ n : ℤ, fmod a 360 = a - 360 * n := by
  unfold fmod
  split
  · exact ⟨_, rfl⟩
  · exact ⟨_, rfl⟩

theorem fmod_lt (a : ℚ) : |fmod a 360| < 360 := by
  unfold fmod
  rw [abs_lt]
  split
  · have h1 := Int.floor_le (a / 360)
    have h2 := Int.lt_floor_add_one (a / 360)
    constructor <;> linarith
  · have h1 := Int.le_ceil (a / 360)
    have h2 := Int.ceil_lt_add_one (a / 360)
    constructor <;> linarith

theorem radians_turns (a : ℚ) (n : ℤ) :
    Transform.radians (a - 360 * n) = Transform.radians a - n * (2 * Real.pi) := by
  unfold Transform.radians
  push_cast
  ring

theorem Transform.Is.turns {t : Transform} {k a : ℝ} (h : t.Is k a) (n : ℤ) : t.Is k (a - n * (2 * Real.pi)) := by
  obtain ⟨h1, h2, h3, h4⟩ := h
  refine ⟨?_, ?_, ?_, ?_⟩ <;> simpa only [Real.cos_sub_int_mul_two_pi, Real.sin_sub_int_mul_two_pi]

/-- What holds of every view. -/
def View.Kept (v : View) : Prop := |v.rotation| < 360 ∧ ∃ k : ℝ, 0 < k ∧ v.matrix.Is k (Transform.radians v.rotation)

theorem kept_made : View.made.Kept := by
  refine ⟨by simp [View.made], 1, one_pos, ?_, ?_, ?_, ?_⟩ <;>
    simp [View.made, Transform.identity, Transform.scale, Transform.radians]

theorem View.Kept.scale {v : View} (h : v.Kept) {r : ℝ} (hr : 0 < r) : (v.scale r r).Kept := by
  obtain ⟨h0, k, hk, h1⟩ := h
  exact ⟨h0, k * r, mul_pos hk hr, h1.scale r⟩

theorem View.Kept.rotateView {v : View} (h : v.Kept) (a : ℚ) : (v.rotateView a).Kept := by
  obtain ⟨h0, k, hk, h1⟩ := h
  refine ⟨fmod_lt _, k, hk, ?_⟩
  obtain ⟨n, hn⟩ := fmod_turns (v.rotation + a)
  have h2 := (h1.rotate a).turns n
  have h3 : Transform.radians v.rotation + Transform.radians a - n * (2 * Real.pi)
      = Transform.radians (fmod (v.rotation + a) 360) := by
    rw [hn, radians_turns]
    unfold Transform.radians
    push_cast
    ring
  rw [h3] at h2
  exact h2

theorem reset_rotation (v : View) : v.resetRotation.rotation = 0 := by
  simp [View.resetRotation, View.rotateView, fmod]

theorem abs_sides {k a : ℝ} (hk : 0 < k) : 0 < |k * Real.cos a| + |k * Real.sin a| := by
  have h := Real.sin_sq_add_cos_sq a
  by_contra hc
  have h1 := abs_nonneg (k * Real.cos a)
  have h2 := abs_nonneg (k * Real.sin a)
  have h3 : k * Real.cos a = 0 := abs_eq_zero.mp (by linarith)
  have h4 : k * Real.sin a = 0 := abs_eq_zero.mp (by linarith)
  have h5 : Real.cos a = 0 := (mul_eq_zero.mp h3).resolve_left hk.ne'
  have h6 : Real.sin a = 0 := (mul_eq_zero.mp h4).resolve_left hk.ne'
  rw [h5, h6] at h
  norm_num at h

/-- The bounding rectangle of a turned square is a square. -/
theorem one_size {t : Transform} {k a : ℝ} (h : t.Is k a) :
    t.mapSize 1 1 = (|k * Real.cos a| + |k * Real.sin a|, |k * Real.cos a| + |k * Real.sin a|) := by
  obtain ⟨h1, h2, h3, h4⟩ := h
  simp only [Transform.mapSize, h1, h2, h3, h4, abs_neg, mul_one]
  rw [add_comm |k * Real.sin a|]

theorem View.Kept.fitInView {v : View} (h : v.Kept) (w h' vw vh : ℝ) : (v.fitInView w h' vw vh).Kept := by
  obtain ⟨-, k, hk, h1⟩ := id h
  have hp := abs_sides (a := Transform.radians v.rotation) hk
  have hs := h.scale (one_div_pos.mpr hp)
  unfold View.fitInView
  dsimp only
  rw [one_size h1]
  split_ifs with h2 h3 h4
  · exact h
  · exact hs
  · exact hs
  · push Not at h3 h4
    exact hs.scale (lt_min (div_pos h3.1 h4.1) (div_pos h3.2 h4.2))

theorem View.Kept.wheel {v : View} (h : v.Kept) (e : Wheel) : (v.wheel e).Kept := by
  unfold View.wheel
  split_ifs
  · exact h.scale (by norm_num)
  · exact h.scale (by norm_num)
  · exact h.rotateView 5
  · exact h.rotateView (-5)
  · exact h

theorem View.Kept.on {v : View} (h : v.Kept) (e : Event) : (v.on e).Kept := by
  cases e with
  | wheel e => exact h.wheel e
  | fit w h' vw vh => exact (h.rotateView (- v.rotation)).fitInView _ _ _ _
  | plane p => exact h

theorem reach_kept {v : View} (h : Reach v) : v.Kept := by
  induction h with
  | made => exact kept_made
  | on e _ ih => exact ih.on e

theorem turned_reach {v : View} {a : ℚ} (h : Turned v a) : Reach v := by
  induction h with
  | made => exact .made
  | wheel e _ ih => exact .on _ ih
  | fit w h vw vh _ ih => exact .on _ ih
  | plane p _ ih => exact .on _ ih

theorem fitInView_rotation (v : View) (w h vw vh : ℝ) : (v.fitInView w h vw vh).rotation = v.rotation := by
  unfold View.fitInView
  dsimp only
  split_ifs <;> rfl

theorem fit_rotation (v : View) (w h vw vh : ℝ) : (v.on (.fit w h vw vh)).rotation = 0 := by
  show (v.resetRotation.fit w h vw vh).rotation = 0
  unfold View.fit
  rw [fitInView_rotation, reset_rotation]

theorem wheel_rotation (v : View) (e : Wheel) : ∃ n : ℤ, (v.on (.wheel e)).rotation = v.rotation + turn e - 360 * n := by
  show ∃ n : ℤ, (v.wheel e).rotation = _
  unfold View.wheel turn
  rcases e with ⟨c, a, x, y⟩
  cases c <;> cases a <;> dsimp only
  · exact ⟨0, by simp⟩
  · by_cases hx : x > 0
    · simp only [hx, if_true, Bool.false_eq_true, if_false]
      exact fmod_turns _
    · simp only [hx, if_true, Bool.false_eq_true, if_false, show ¬ (0 < x) from hx]
      exact fmod_turns _
  · refine ⟨0, ?_⟩
    simp only [if_true]
    split <;> simp [View.scale]
  · refine ⟨0, ?_⟩
    simp only [if_true]
    split <;> simp [View.scale]

theorem turned_rotation {v : View} {a : ℚ} (h : Turned v a) : ∃ n : ℤ, v.rotation = a - 360 * n := by
  induction h with
  | made => exact ⟨0, by simp [View.made]⟩
  | wheel e _ ih =>
    obtain ⟨n, hn⟩ := ih
    obtain ⟨n', hn'⟩ := wheel_rotation _ e
    refine ⟨n + n', ?_⟩
    rw [hn', hn]
    push_cast
    ring
  | fit w h vw vh _ ih => exact ⟨0, by rw [fit_rotation]; simp⟩
  | plane p _ ih => exact ih

end Verif.Orient
