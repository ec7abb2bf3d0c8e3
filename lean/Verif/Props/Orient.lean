import Verif.Lemmas.Orient

/-! # C153: the axes in the corner, and how the view turns, zooms and fits -/

namespace Verif.Orient

open Verif.Geom

/-- However the view was turned, zoomed and fitted, what is shown is neither distorted nor mirrored, the two arrows in the corner
point the way the axes of the scene go on the screen, each letter stands beyond the end of its arrow, and it is the name of the axis
of the plane that goes that way. -/
theorem C153 {v : View} (h : Reach v) (vh : ℝ) :
    Faithful v.matrix ∧
    SameWay ((v.foreground vh).tipX - (v.foreground vh).origin) (v.matrix.step .h) ∧
    SameWay ((v.foreground vh).tipY - (v.foreground vh).origin) (v.matrix.step .v) ∧
    SameWay ((v.foreground vh).textX.2 - (v.foreground vh).tipX) (v.matrix.step .h) ∧
    SameWay ((v.foreground vh).textY.2 - (v.foreground vh).tipY) (v.matrix.step .v) ∧
    (v.foreground vh).textX.1 = name (axes v.plane .h) ∧ (v.foreground vh).textY.1 = name (axes v.plane .v) := by
  obtain ⟨-, k, hk, h1, h2, h3, h4⟩ := reach_kept h
  have hu : (unit : ℝ) = 33 := by norm_num [unit]
  have hk' : (k : ℝ) ≠ 0 := hk.ne'
  refine ⟨⟨?_, ?_⟩, ⟨33 / k, by positivity, ?_, ?_⟩, ⟨33 / k, by positivity, ?_, ?_⟩, ⟨33 / 2 / k, by positivity, ?_, ?_⟩,
    ⟨33 / 2 / k, by positivity, ?_, ?_⟩, ?_, ?_⟩
  · intro hc
    simp only [Transform.step, h1, h2, Prod.mk.injEq, neg_eq_zero] at hc
    have := abs_sides (a := Transform.radians v.rotation) hk
    rw [hc.1, hc.2] at this
    norm_num at this
  · simp only [Transform.step, h1, h2, h3, h4]
  all_goals
    first
    | (simp only [View.foreground, View.corner, Transform.identity, Transform.translate, Transform.scale, Transform.rotate,
        Transform.map, Transform.step, Prod.fst_sub, Prod.snd_sub, h1, h2, h3, h4, hu]
       field_simp
       ring)
    | (simp only [View.foreground, View.letterX, View.letterY]
       cases v.plane <;> rfl)

/-- The first axis is seen at the angle by which the wheel turned the view since it was made or fitted: five degrees for each turn of
the wheel. What the view remembers differs from it by whole turns, and is less than one. -/
theorem C153_turned {v : View} {a : ℚ} (h : Turned v a) :
    Heading v.matrix a ∧ |v.rotation| < 360 ∧ ∃ n : ℤ, v.rotation = a - 360 * n := by
  obtain ⟨h0, k, hk, h1⟩ := reach_kept (turned_reach h)
  obtain ⟨n, hn⟩ := turned_rotation h
  refine ⟨⟨k, hk, ?_⟩, h0, n, hn⟩
  have h2 := h1.turns (-n)
  rw [hn, radians_turns] at h2
  have h3 : Transform.radians a - n * (2 * Real.pi) - ((-n : ℤ) : ℝ) * (2 * Real.pi) = a * Real.pi / 180 := by
    unfold Transform.radians
    push_cast
    ring
  rw [h3] at h2
  simp only [Transform.step, h2.1, h2.2.1]

/-- When the view is fitted, the first axis goes to the right and the second one up, what bounds the polygons is seen with five around
it in the viewport without its border of two, and it cannot be larger there. -/
theorem C153_fitted {v : View} (hr : Reach v) {w h vw vh : ℝ} (hw : 0 ≤ w) (hh : 0 ≤ h) (hvw : 4 < vw) (hvh : 4 < vh) :
    ∃ k : ℝ, 0 < k ∧ (v.on (.fit w h vw vh)).matrix.step .h = (k, 0) ∧ (v.on (.fit w h vw vh)).matrix.step .v = (0, -k) ∧
      k * (w + 10) ≤ vw - 4 ∧ k * (h + 10) ≤ vh - 4 ∧ (k * (w + 10) = vw - 4 ∨ k * (h + 10) = vh - 4) := by
  obtain ⟨-, k, hk, h1⟩ := (reach_kept hr).rotateView (- v.rotation)
  have h0 := reset_rotation v
  unfold View.resetRotation at h0
  rw [h0] at h1
  have hz : Transform.radians 0 = 0 := by simp [Transform.radians]
  rw [hz] at h1
  have hone := one_size h1
  obtain ⟨h11, h12, h21, h22⟩ := h1
  simp only [Real.cos_zero, Real.sin_zero, mul_one, mul_zero, neg_zero, abs_zero, add_zero, abs_of_pos hk] at h11 h12 h21 h22 hone
  have e1 : k * (1 / k) = 1 := by field_simp
  have hsz : ((v.rotateView (- v.rotation)).scale (1 / k) (1 / k)).matrix.mapSize (5 + w + 5) (5 + h + 5)
      = (5 + w + 5, 5 + h + 5) := by
    simp only [View.scale, Transform.scale, Transform.mapSize, h11, h12, h21, h22, neg_mul, e1, zero_mul, abs_neg, abs_one, abs_zero,
      one_mul, add_zero, zero_add]
  have hm : (v.on (.fit w h vw vh)) =
      ((v.rotateView (- v.rotation)).scale (1 / k) (1 / k)).scale (min ((vw - 4) / (5 + w + 5)) ((vh - 4) / (5 + h + 5)))
        (min ((vw - 4) / (5 + w + 5)) ((vh - 4) / (5 + h + 5))) := by
    show ((v.rotateView (- v.rotation)).fitInView (5 + w + 5) (5 + h + 5) vw vh) = _
    unfold View.fitInView
    dsimp only
    rw [hone]
    dsimp only
    rw [if_neg (by push Not; exact ⟨hk, hk⟩), if_neg (by push Not; constructor <;> linarith), hsz]
    dsimp only
    rw [if_neg (by push Not; constructor <;> linarith)]
  have pw : 0 < 5 + w + 5 := by linarith
  have ph : 0 < 5 + h + 5 := by linarith
  have aw : w + 10 = 5 + w + 5 := by ring
  have ah : h + 10 = 5 + h + 5 := by ring
  rw [hm, aw, ah]
  generalize hmin : min ((vw - 4) / (5 + w + 5)) ((vh - 4) / (5 + h + 5)) = r
  have hr0 : 0 < r := by
    rw [← hmin]
    exact lt_min (div_pos (by linarith) pw) (div_pos (by linarith) ph)
  have h2 : r ≤ (vw - 4) / (5 + w + 5) := hmin ▸ min_le_left _ _
  have h3 : r ≤ (vh - 4) / (5 + h + 5) := hmin ▸ min_le_right _ _
  refine ⟨r, hr0, ?_, ?_, (le_div_iff₀ pw).mp h2, (le_div_iff₀ ph).mp h3, ?_⟩
  · simp only [View.scale, Transform.scale, Transform.step, h11, h12, e1, one_mul, zero_mul]
  · simp only [View.scale, Transform.scale, Transform.step, h21, h22, neg_mul, e1, one_mul, zero_mul]
  · rcases min_choice ((vw - 4) / (5 + w + 5)) ((vh - 4) / (5 + h + 5)) with hc | hc
    · left
      rw [← hmin, hc, div_mul_cancel₀ _ pw.ne']
    · right
      rw [← hmin, hc, div_mul_cancel₀ _ ph.ne']

/-- Zooming is by a tenth and does not turn: after a turn of the wheel and one back, all is as it was. -/
theorem C153_zoom (v : View) {e e' : Wheel} (he : e.ctrl = true) (he' : e'.ctrl = true) (hu : 0 < e.dy) (hd : e'.dy < 0) :
    (v.on (.wheel e)).on (.wheel e') = v ∧ (v.on (.wheel e')).on (.wheel e) = v ∧
    (∀ a, (v.on (.wheel e)).matrix.step a = (11 / 10 : ℝ) • v.matrix.step a) := by
  have hu' : e.dy > 0 := hu
  have hd' : ¬ e'.dy > 0 := by omega
  refine ⟨?_, ?_, fun a => ?_⟩
  · rcases v with ⟨⟨a, b, c, d, x, y⟩, r, p⟩
    simp only [View.on, View.wheel, he, he', hu', hd', if_true, if_false, View.scale, Transform.scale]
    congr 2 <;> ring
  · rcases v with ⟨⟨a, b, c, d, x, y⟩, r, p⟩
    simp only [View.on, View.wheel, he, he', hu', hd', if_true, if_false, View.scale, Transform.scale]
    congr 2 <;> ring
  · cases a <;>
      simp only [View.on, View.wheel, he, hu', if_true, View.scale, Transform.scale, Transform.step, Prod.smul_mk, smul_eq_mul] <;>
      congr 1 <;> ring

/-- The letters in the corner are those of the plane that was chosen last, in the order of its name: `yz` is seen with `y` to the
right and `z` up. Choosing a plane does not turn or zoom. -/
theorem C153_plane {v : View} {p : Plane} (h : Chosen v p) (vh : ℝ) :
    ((v.foreground vh).textX.1, (v.foreground vh).textY.1) =
      (match p with | .yz => ('y', 'z') | .zx => ('z', 'x') | .xy => ('x', 'y')) ∧
    ∀ q, (v.on (.plane q)).matrix = v.matrix ∧ (v.on (.plane q)).rotation = v.rotation := by
  have hp : v.plane = p := by
    induction h with
    | made => rfl
    | wheel e _ ih =>
      simp only [View.on, View.wheel]
      split_ifs <;> exact ih
    | fit w h vw vh _ ih =>
      simp only [View.on, View.fitAction, View.fit, View.fitInView]
      split_ifs <;> exact ih
    | plane => rfl
  refine ⟨?_, fun q => ⟨rfl, rfl⟩⟩
  simp only [View.foreground, View.letterX, View.letterY, hp]
  cases p <;> rfl

/-- Of `C153_plane`: a plane is chosen, and another one after a turn. -/
example : ∃ v, Chosen v .zx := ⟨_, .plane .zx (.wheel ⟨false, true, 120, 0⟩ (.plane .yz .made))⟩

/-- A view that is zoomed, turned three times – twice one way, once the other way –, and shown in another plane. -/
example : ∃ v a, Turned v a ∧ a = 5 ∧ v.plane = .zx ∧ v.rotation = 5 ∧
    (v.foreground 400).textX.1 = 'z' ∧ (v.foreground 400).textY.1 = 'x' := by
  refine ⟨_, _, Turned.plane .zx (.wheel ⟨false, true, -120, 0⟩ (.wheel ⟨false, true, 120, 0⟩ (.wheel ⟨false, true, 120, 0⟩
    (.wheel ⟨true, false, 0, 120⟩ .made)))), by norm_num [turn], rfl, ?_, rfl, rfl⟩
  norm_num [View.on, View.wheel, View.setPlane, View.rotateView, View.scale, View.made, fmod]

/-- A view that is turned and then fitted. -/
example : ∃ v a, Turned v a ∧ a = 0 ∧ ∃ k : ℝ, v.matrix.step .h = (k, 0) ∧ k * 40 = 396 := by
  have h1 : Turned _ _ := .wheel ⟨false, true, 120, 0⟩ .made
  refine ⟨_, _, .fit 30 20 400 400 h1, rfl, ?_⟩
  obtain ⟨k, hk, h2, -, h4, h5, h6⟩ := C153_fitted (turned_reach h1) (w := 30) (h := 20) (vw := 400) (vh := 400) (by norm_num)
    (by norm_num) (by norm_num) (by norm_num)
  refine ⟨k, h2, ?_⟩
  rcases h6 with h | h <;> linarith

end Verif.Orient
