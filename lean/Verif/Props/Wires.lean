import Verif.Lemmas.WiresRun

/-! # C151, C152: where wires are drawn, and how they end -/

namespace Verif.Wires

/-- Whatever happened – ports and wires made, ports shown, hidden and moved, the style changed –, a wire is drawn exactly when both
its ports are visible, and what is drawn joins in its style the borders of the nodes where they are now. Nothing that may happen
next uses a deleted object. -/
theorem C151 {s : Scene} (h : Reach s) :
    (∀ e, s.Allows e → s.on e ≠ none) ∧
    ∀ w x, s.wire w = some x → ∃ b e, s.port x.first = some b ∧ s.port x.last = some e ∧
      (b.visible = true ∧ e.visible = true → ∃ path, s.drawn w = some path ∧ Joins x.style b e path) ∧
      (¬ (b.visible = true ∧ e.visible = true) → s.drawn w = none) := by
  obtain ⟨hs, hc⟩ := reach_kept h
  refine ⟨fun e ha => ?_, fun w x hx => ?_⟩
  · obtain ⟨s', h1, -⟩ := on_kept hs hc e ha
    rw [h1]
    exact Option.some_ne_none s'
  · obtain ⟨-, ⟨b, hb, -⟩, ⟨e, he, -⟩⟩ := hs.ends w x hx
    refine ⟨b, e, hb, he, fun hv => ?_, fun hv => ?_⟩
    · have hxv := hc.seen w x b e hx hb he hv.1 hv.2
      refine ⟨fresh x.style b e, ?_, joins_fresh _ _ _⟩
      unfold Scene.drawn
      rw [hx]
      simp only [hb, he, hxv, hv.1, hv.2, Bool.and_self, if_true]
      exact hc.path w x b e hx hb he hxv
    · unfold Scene.drawn
      rw [hx]
      simp only [hb, he]
      rw [if_neg]
      rw [Bool.and_eq_true, Bool.and_eq_true]
      exact fun hc => hv hc.2

/-- A path that joins two ports in a style is the only one. -/
theorem C151_unique {st : Style} {b e : Port} {p q : Path} (hp : Joins st b e p) (hq : Joins st b e q) : p = q := by
  have greater : ∀ {d d' u v : ℚ}, Greater d u v → Greater d' u v → d = d' := by
    intro d d' u v h h'
    rcases h.2.2 with e | e <;> rcases h'.2.2 with e' | e' <;> linarith [h.1, h.2.1, h'.1, h'.2.1]
  have handle : ∀ {a : Anchor} {p c c' q : Pt}, Handle a p c q → Handle a p c' q → c = c' := by
    intro a p c c' q h h'
    cases c; cases c'
    cases a <;> simp only [Handle] at h h' <;> have := greater h.2 h'.2 <;> simp only [Pt.mk.injEq] <;> constructor <;>
      linarith [h.1, h'.1]
  obtain ⟨p1, p2, t1, t2, hp⟩ := hp
  obtain ⟨q1, q2, t1', t2', hq⟩ := hq
  have e1 := touches_unique t1 t1'
  have e2 := touches_unique t2 t2'
  subst e1
  subst e2
  cases st with
  | direct => exact hp.trans hq.symm
  | curved =>
    obtain ⟨c1, c2, rfl, h1, h2⟩ := hp
    obtain ⟨d1, d2, rfl, h1', h2'⟩ := hq
    rw [handle h1 h1', handle h2 h2']

/-- The style that is set is that of all wires. -/
theorem C151_style {s : Scene} (h : Reach s) (st : Style) :
    ∃ s', s.on (.style st) = some s' ∧ ∀ w x, s'.wire w = some x → x.style = st := by
  obtain ⟨hs, hc⟩ := reach_kept h
  obtain ⟨s', h1, -, -, h4⟩ := style_kept hs hc st
  exact ⟨s', h1, h4⟩

/-- Two nodes, 40 wide and 20 high, at a distance of 160: a port on the right of the first, a port on the left of the second. -/
def here : Nat → Place
  | 0 => ⟨⟨30, 5, 38, 15⟩, some ⟨0, 0, 40, 20⟩⟩
  | _ => ⟨⟨202, 5, 210, 15⟩, some ⟨200, 0, 240, 20⟩⟩

/-- The same, the second moved by 100 to the right and down. -/
def there : Nat → Place
  | 0 => ⟨⟨30, 5, 38, 15⟩, some ⟨0, 0, 40, 20⟩⟩
  | _ => ⟨⟨302, 105, 310, 115⟩, some ⟨300, 100, 340, 120⟩⟩

/-- The scene with these and a wire. -/
def wired (g : Nat → Place) (v : Bool) (x : Wire) : Scene := ⟨[some ⟨.right, g 0, true, [0]⟩, some ⟨.left, g 1, v, [0]⟩], [some x]⟩

theorem reach_wired : Reach (wired here true ⟨0, 1, .curved, true, some (.cubic ⟨40, 10⟩ ⟨120, 10⟩ ⟨120, 10⟩ ⟨200, 10⟩)⟩) := by
  refine Reach.step (s := ⟨[some ⟨.right, here 0, true, []⟩, some ⟨.left, here 1, true, []⟩], []⟩) (.addWire 0 1) ?_ ?_ ?_
  · refine Reach.step (s := ⟨[some ⟨.right, here 0, true, []⟩], []⟩) (.addPort .left (here 1) true) ?_ trivial rfl
    exact Reach.step (.addPort .right (here 0) true) Reach.start trivial rfl
  · exact ⟨by decide, by decide, by decide⟩
  · dsimp only [Scene.on]
    decide +kernel

/-- The example of C151: the port on the left is hidden, moved, and shown again. -/
example : Reach (wired there true ⟨0, 1, .curved, true, some (.cubic ⟨40, 10⟩ ⟨170, 10⟩ ⟨170, 110⟩ ⟨300, 110⟩)⟩) := by
  refine Reach.step (s := wired there false ⟨0, 1, .curved, false, some (.cubic ⟨40, 10⟩ ⟨120, 10⟩ ⟨120, 10⟩ ⟨200, 10⟩)⟩) (.show 1 true) ?_
    (by show Scene.port _ 1 ≠ none; decide) (by dsimp only [Scene.on]; decide +kernel)
  refine Reach.step (s := wired here false ⟨0, 1, .curved, false, some (.cubic ⟨40, 10⟩ ⟨120, 10⟩ ⟨120, 10⟩ ⟨200, 10⟩)⟩) (.move there) ?_
    ?_ (by dsimp only [Scene.on]; decide +kernel)
  · exact Reach.step (.show 1 false) reach_wired (by show Scene.port _ 1 ≠ none; decide)
      (by dsimp only [Scene.on]; decide +kernel)
  · intro p x hx hl ht pt hpt
    match p with
    | 0 =>
      cases hx
      exact hpt
    | 1 =>
      cases hx
      exact absurd hl (by decide +kernel)
    | n + 2 => cases hx

/-- That nodes do not change size around ports that stay is needed: here the first node grows by 10 to the right, its port stays,
and the wire goes on from where the border was. -/
theorem C151_resized : ∃ (s s' : Scene) (places : Nat → Place), Reach s ∧ s.on (.move places) = some s' ∧
    ∃ x b e path, s'.wire 0 = some x ∧ s'.port x.first = some b ∧ s'.port x.last = some e ∧ b.visible = true ∧ e.visible = true ∧
      s'.drawn 0 = some path ∧ ¬ Joins x.style b e path := by
  let wide : Nat → Place := fun p => match p with
    | 0 => ⟨⟨30, 5, 38, 15⟩, some ⟨0, 0, 50, 20⟩⟩
    | n + 1 => here (n + 1)
  refine ⟨_, wired wide true ⟨0, 1, .curved, true, some (.cubic ⟨40, 10⟩ ⟨120, 10⟩ ⟨120, 10⟩ ⟨200, 10⟩)⟩, wide, reach_wired,
    by dsimp only [Scene.on]; decide +kernel, _, _, _, _, rfl, rfl, rfl, rfl, rfl, rfl, ?_⟩
  rintro ⟨p1, p2, h1, -, h⟩
  obtain ⟨c1, c2, e, -⟩ := h
  cases e
  have : (40 : ℚ) = 50 := h1.2
  norm_num at this

/-- When a scene is deleted, with the ports of its nodes in whatever order, each wire is deleted once, by a port, and no deleted
port or wire is used. -/
theorem C152 {s : Scene} (h : Reach s) {order : List Nat} (hn : order.Nodup) (ho : ∀ p, p ∈ order ↔ s.port p ≠ none) :
    ∃ s', each Scene.deletePort order s = some s' ∧ s.delete order = some s' ∧ (∀ p, s'.port p = none) ∧ ∀ w, s'.wire w = none := by
  obtain ⟨hs, -⟩ := reach_kept h
  obtain ⟨s', e', hs', hp, -⟩ := deletePorts_sound order hs hn fun p hp => (ho p).1 hp
  have ports : ∀ p, s'.port p = none := by
    intro p
    rw [hp, ho]
    exact (em (s.port p = none)).symm
  have wires : ∀ w, s'.wire w = none := by
    intro w
    cases hw : s'.wire w with
    | none => rfl
    | some x =>
      obtain ⟨-, ⟨b, hb, -⟩, -⟩ := hs'.ends w x hw
      rw [ports] at hb
      cases hb
  refine ⟨s', e', ?_, ports, wires⟩
  unfold Scene.delete
  rw [e']
  exact deleteWires_none wires _

/-- That ports are deleted before wires is needed: the port of a wire deleted first uses it. -/
theorem C152_order : ∃ s, Reach s ∧ (s.deleteWire 0).bind (fun s => s.deletePort 0) = none := by
  refine ⟨_, reach_wired, by decide +kernel⟩

/-- That wires join different ports is needed: a port wired to itself deletes the wire twice. -/
theorem C152_loop : ∃ s, (Scene.addWire ⟨[some ⟨.right, here 0, true, []⟩], []⟩ 0 0) = some s ∧ s.deletePort 0 = none := by
  refine ⟨⟨[some ⟨.right, here 0, true, [0, 0]⟩], [some ⟨0, 0, .curved, true, some (.cubic ⟨40, 10⟩ ⟨90, 10⟩ ⟨90, 10⟩ ⟨40, 10⟩)⟩]⟩,
    by decide +kernel, by decide +kernel⟩

/-- The example of C152: two ports and a wire, the last port first. -/
example : ∃ s, Reach s ∧ [1, 0].Nodup ∧ (∀ p, p ∈ [1, 0] ↔ s.port p ≠ none) ∧ s.delete [1, 0] = some ⟨[none, none], [none]⟩ := by
  refine ⟨_, reach_wired, by decide, fun p => ?_, by decide +kernel⟩
  match p with
  | 0 => simp [wired, Scene.port]
  | 1 => simp [wired, Scene.port]
  | n + 2 => simp [wired, Scene.port]

end Verif.Wires
