import Verif.Spec.Wires
import Mathlib.Tactic.Linarith
import Mathlib.Tactic.Ring

/-! # Lemmas about the wires of the processing view -/

namespace Verif.Wires

/-! ## Points -/

theorem greater_max (a b : ℚ) : Greater (max a b) a b :=
  ⟨le_max_left _ _, le_max_right _ _, max_choice a b⟩

theorem touches_attach (anchor : Anchor) (g : Place) : Touches anchor g (attachPos anchor g) := by
  cases anchor <;> simp only [Touches, attachPos] <;> exact ⟨by ring, trivial⟩

theorem touches_unique {anchor : Anchor} {g : Place} {p q : Pt} (hp : Touches anchor g p) (hq : Touches anchor g q) : p = q := by
  cases p; cases q
  cases anchor <;> simp only [Touches] at hp hq <;> simp only [Pt.mk.injEq] <;> constructor <;> linarith [hp.1, hp.2, hq.1, hq.2]

theorem handle_control (anchor : Anchor) (p q : Pt) :
    Handle anchor p (control anchor (max 50 (|p.x - q.x| * (1 / 2))) (max 50 (|p.y - q.y| * (1 / 2))) p) q := by
  have h1 := greater_max 50 (|p.x - q.x| * (1 / 2))
  have h2 := greater_max 50 (|p.y - q.y| * (1 / 2))
  have e1 : |p.x - q.x| * (1 / 2) = |p.x - q.x| / 2 := by ring
  have e2 : |p.y - q.y| * (1 / 2) = |p.y - q.y| / 2 := by ring
  rw [e1] at h1 ⊢
  rw [e2] at h2 ⊢
  cases anchor <;> simp only [Handle, control] <;> refine ⟨trivial, ?_⟩
  · simpa using h2
  · simpa using h2
  · simpa using h1
  · simpa using h1

/-- The path that `update_path` makes. -/
def fresh (style : Style) (b e : Port) : Path :=
  makePath style b.anchor e.anchor (attachPos b.anchor b.place) (attachPos e.anchor e.place)

theorem joins_fresh (style : Style) (b e : Port) : Joins style b e (fresh style b e) := by
  refine ⟨_, _, touches_attach _ _, touches_attach _ _, ?_⟩
  cases style with
  | direct => rfl
  | curved =>
    refine ⟨_, _, rfl, handle_control _ _ _, ?_⟩
    have := handle_control e.anchor (attachPos e.anchor e.place) (attachPos b.anchor b.place)
    rwa [abs_sub_comm (attachPos e.anchor e.place).x, abs_sub_comm (attachPos e.anchor e.place).y] at this

/-! ## Ports and wires -/

theorem join_set {α : Type} (l : List (Option α)) (i j : Nat) (x : Option α) (h : l[i]?.join ≠ none) :
    (l.set i x)[j]?.join = if j = i then x else l[j]?.join := by
  have hi : i < l.length := by
    by_contra hc
    rw [List.getElem?_eq_none (by omega)] at h
    exact h rfl
  by_cases e : j = i
  · subst e
    simp [hi]
  · rw [if_neg e, List.getElem?_set_ne (fun h => e h.symm)]

theorem wire_setWire {s : Scene} {w : Nat} {x : Wire} (h : s.wire w = some x) (y : Option Wire) (v : Nat) :
    (s.setWire w y).wire v = if v = w then y else s.wire v :=
  join_set s.wires w v y (by rw [show s.wires[w]?.join = some x from h]; exact Option.some_ne_none x)

theorem port_setPort {s : Scene} {p : Nat} {x : Port} (h : s.port p = some x) (y : Option Port) (q : Nat) :
    (s.setPort p y).port q = if q = p then y else s.port q :=
  join_set s.ports p q y (by rw [show s.ports[p]?.join = some x from h]; exact Option.some_ne_none x)

theorem port_setWire (s : Scene) (w : Nat) (y : Option Wire) (p : Nat) : (s.setWire w y).port p = s.port p := rfl
theorem wire_setPort (s : Scene) (p : Nat) (y : Option Port) (w : Nat) : (s.setPort p y).wire w = s.wire w := rfl

/-- A wire once its path is updated. -/
def refresh (s : Scene) (x : Wire) : Wire :=
  match s.port x.first, s.port x.last with
  | some b, some e => if x.visible then { x with path := some (fresh x.style b e) } else x
  | _, _ => x

/-- Both ends are there. -/
def Ended (s : Scene) (x : Wire) : Prop := s.port x.first ≠ none ∧ s.port x.last ≠ none

theorem updatePath_eq {s : Scene} {w : Nat} {x : Wire} (h : s.wire w = some x) (he : Ended s x) :
    s.updatePath w = some (s.setWire w (some (refresh s x))) ∨ (s.updatePath w = some s ∧ refresh s x = x) := by
  obtain ⟨b, hb⟩ := Option.ne_none_iff_exists'.1 he.1
  obtain ⟨e, he⟩ := Option.ne_none_iff_exists'.1 he.2
  unfold Scene.updatePath refresh
  rw [h]
  simp only [Option.bind_some, hb, he]
  split
  · left
    rfl
  · right
    exact ⟨rfl, rfl⟩

/-- Two scenes with the same ports whose wires differ by `h`, on those of a list only. -/
structure Changed (h : Wire → Wire) (on : Nat → Prop) (s s' : Scene) : Prop where
  ports : s'.ports = s.ports
  length : s'.wires.length = s.wires.length
  wires : ∀ w x, s.wire w = some x → (on w → s'.wire w = some (h x)) ∧ (¬ on w → s'.wire w = some x)
  gone : ∀ w, s.wire w = none → s'.wire w = none

theorem changed_set {h : Wire → Wire} {s : Scene} {w : Nat} {x : Wire} (hx : s.wire w = some x) :
    Changed h (· = w) s (s.setWire w (some (h x))) := by
  refine ⟨rfl, by simp [Scene.setWire], fun v y hy => ⟨fun e => ?_, fun e => ?_⟩, fun v hv => ?_⟩
  · subst e
    rw [hx] at hy
    cases hy
    rw [wire_setWire hx, if_pos rfl]
  · rw [wire_setWire hx, if_neg e, hy]
  · rw [wire_setWire hx, if_neg (fun e => by subst e; rw [hx] at hv; cases hv), hv]

theorem changed_same {h : Wire → Wire} {s : Scene} {w : Nat} {x : Wire} (hx : s.wire w = some x) (e : h x = x) :
    Changed h (· = w) s s := by
  refine ⟨rfl, rfl, fun v y hy => ⟨fun ev => ?_, fun _ => hy⟩, fun v hv => hv⟩
  subst ev
  rw [hx] at hy
  cases hy
  rw [hx, e]

theorem updatePath_changed {s : Scene} {w : Nat} {x : Wire} (h : s.wire w = some x) (he : Ended s x) :
    ∃ s', s.updatePath w = some s' ∧ Changed (refresh s) (· = w) s s' := by
  rcases updatePath_eq h he with h1 | ⟨h1, h2⟩
  · exact ⟨_, h1, changed_set h⟩
  · exact ⟨_, h1, changed_same h h2⟩

/-- A change that keeps the ends, and is the same done twice. -/
structure Mild (h : Wire → Wire) : Prop where
  first : ∀ x, (h x).first = x.first
  last : ∀ x, (h x).last = x.last
  twice : ∀ x, h (h x) = h x

theorem refresh_first (s : Scene) (x : Wire) : (refresh s x).first = x.first := by
  unfold refresh
  split
  · split <;> rfl
  · rfl

theorem refresh_last (s : Scene) (x : Wire) : (refresh s x).last = x.last := by
  unfold refresh
  split
  · split <;> rfl
  · rfl

theorem refresh_style (s : Scene) (x : Wire) : (refresh s x).style = x.style := by
  unfold refresh
  split
  · split <;> rfl
  · rfl

theorem refresh_visible (s : Scene) (x : Wire) : (refresh s x).visible = x.visible := by
  unfold refresh
  split
  · split <;> rfl
  · rfl

theorem refresh_fresh {s : Scene} {x : Wire} {b e : Port} (hb : s.port x.first = some b) (he : s.port x.last = some e)
    (hv : x.visible = true) : (refresh s x).path = some (fresh x.style b e) := by
  unfold refresh
  rw [hb, he]
  simp [hv]

theorem refresh_ports {s s' : Scene} (h : s'.ports = s.ports) : refresh s' = refresh s := by
  funext x
  unfold refresh Scene.port
  rw [h]

theorem refresh_twice (s : Scene) (x : Wire) : refresh s (refresh s x) = refresh s x := by
  cases hb : s.port x.first with
  | none => simp [refresh, hb]
  | some b =>
    cases he : s.port x.last with
    | none => simp [refresh, hb, he]
    | some e =>
      by_cases hv : x.visible = true
      · simp [refresh, hb, he, hv]
      · simp [refresh, hb, he, hv]

theorem refresh_mild (s : Scene) : Mild (refresh s) := ⟨refresh_first s, refresh_last s, refresh_twice s⟩

theorem Changed.trans {h : Wire → Wire} (hm : Mild h) {on on' : Nat → Prop} {s s' s'' : Scene} (h1 : Changed h on s s')
    (h2 : Changed h on' s' s'') : Changed h (fun w => on w ∨ on' w) s s'' := by
  refine ⟨h2.ports.trans h1.ports, h2.length.trans h1.length, fun w x hx => ⟨fun hw => ?_, fun hw => ?_⟩, fun w hw => h2.gone w (h1.gone w hw)⟩
  · by_cases ho : on w
    · have e := (h1.wires w x hx).1 ho
      by_cases ho' : on' w
      · rw [(h2.wires w _ e).1 ho', hm.twice]
      · rw [(h2.wires w _ e).2 ho']
    · have e := (h1.wires w x hx).2 ho
      exact (h2.wires w _ e).1 (hw.resolve_left ho)
  · have e := (h1.wires w x hx).2 fun h => hw (Or.inl h)
    exact (h2.wires w _ e).2 fun h => hw (Or.inr h)

theorem Changed.congr {h : Wire → Wire} {on on' : Nat → Prop} {s s' : Scene} (hc : Changed h on s s') (e : ∀ w, on w ↔ on' w) :
    Changed h on' s s' :=
  ⟨hc.ports, hc.length, fun w x hx => ⟨fun h => (hc.wires w x hx).1 ((e w).2 h), fun h => (hc.wires w x hx).2 fun h' => h ((e w).1 h')⟩, hc.gone⟩

/-- There, with both ends there. -/
def There (s : Scene) (w : Nat) : Prop := ∃ x, s.wire w = some x ∧ Ended s x

theorem Changed.there {h : Wire → Wire} (hm : Mild h) {on : Nat → Prop} {s s' : Scene} (hc : Changed h on s s') {w : Nat}
    (ht : There s w) : There s' w := by
  obtain ⟨x, hx, h1, h2⟩ := ht
  have e : ∀ p, s'.port p = s.port p := fun p => by unfold Scene.port; rw [hc.ports]
  by_cases ho : on w
  · exact ⟨_, (hc.wires w x hx).1 ho, by rw [hm.first, e]; exact h1, by rw [hm.last, e]; exact h2⟩
  · exact ⟨_, (hc.wires w x hx).2 ho, by rw [e]; exact h1, by rw [e]; exact h2⟩

/-- Doing something to each of a list. -/
theorem each_changed {f : Scene → Nat → Option Scene} {h : Wire → Wire} (hm : Mild h) {P : List (Option Port)}
    (hf : ∀ s w, s.ports = P → There s w → ∃ s', f s w = some s' ∧ Changed h (· = w) s s') :
    ∀ (ws : List Nat) (s : Scene), s.ports = P → (∀ w ∈ ws, There s w) → ∃ s', each f ws s = some s' ∧ Changed h (· ∈ ws) s s'
  | [], s, _, _ => ⟨s, rfl, ⟨rfl, rfl, fun w x hx => ⟨fun hw => by simp at hw, fun _ => hx⟩, fun _ hw => hw⟩⟩
  | w :: rest, s, hs, ht => by
    obtain ⟨s1, e1, c1⟩ := hf s w hs (ht w (by simp))
    obtain ⟨s2, e2, c2⟩ := each_changed hm hf rest s1 (c1.ports.trans hs)
      fun v hv => c1.there hm (ht v (by simp [hv]))
    refine ⟨s2, by rw [each, e1]; exact e2, (c1.trans hm c2).congr fun v => by simp⟩

theorem each_updatePath {s : Scene} {ws : List Nat} (ht : ∀ w ∈ ws, There s w) :
    ∃ s', each Scene.updatePath ws s = some s' ∧ Changed (refresh s) (· ∈ ws) s s' := by
  refine each_changed (refresh_mild s) (P := s.ports) ?_ ws s rfl ht
  rintro s1 w hs ⟨x, hx, he⟩
  obtain ⟨s2, e, c⟩ := updatePath_changed hx he
  rw [refresh_ports hs] at c
  exact ⟨s2, e, c⟩

/-- A wire once its visibility is set. -/
def seen (s : Scene) (v : Bool) (x : Wire) : Wire :=
  if x.visible = v then x else if v then refresh s { x with visible := v } else { x with visible := v }

theorem seen_visible (s : Scene) (v : Bool) (x : Wire) : (seen s v x).visible = v := by
  unfold seen
  split
  · assumption
  · split
    · rw [refresh_visible]
    · rfl

theorem seen_style (s : Scene) (v : Bool) (x : Wire) : (seen s v x).style = x.style := by
  unfold seen
  split
  · rfl
  · split
    · rw [refresh_style]
    · rfl

theorem seen_mild (s : Scene) (v : Bool) : Mild (seen s v) := by
  refine ⟨fun x => ?_, fun x => ?_, fun x => ?_⟩
  · unfold seen
    split
    · rfl
    · split
      · rw [refresh_first]
      · rfl
  · unfold seen
    split
    · rfl
    · split
      · rw [refresh_last]
      · rfl
  · conv_lhs => rw [seen]
    rw [if_pos (seen_visible s v x)]

theorem each_seen {s : Scene} {ws : List Nat} (v : Bool) (ht : ∀ w ∈ ws, There s w) :
    ∃ s', each (fun s w => s.setWireVisible v w) ws s = some s' ∧ Changed (seen s v) (· ∈ ws) s s' := by
  refine each_changed (seen_mild s v) (P := s.ports) ?_ ws s rfl ht
  rintro s1 w hs ⟨x, hx, he⟩
  unfold Scene.setWireVisible
  rw [hx]
  simp only [Option.bind_some]
  by_cases hv : x.visible = v
  · rw [if_pos hv]
    exact ⟨s1, rfl, changed_same hx (by rw [seen, if_pos hv])⟩
  · rw [if_neg hv]
    have hx' : (s1.setWire w (some { x with visible := v })).wire w = some { x with visible := v } := by
      rw [wire_setWire hx, if_pos rfl]
    have c1 : Changed (fun x => { x with visible := v }) (· = w) s1 (s1.setWire w (some { x with visible := v })) :=
      changed_set (h := fun x => { x with visible := v }) hx
    by_cases hv' : v = true
    · rw [if_pos hv']
      obtain ⟨s2, e, c⟩ := updatePath_changed hx' he
      refine ⟨s2, e, c.ports.trans c1.ports, c.length.trans c1.length, fun u y hy => ⟨fun eu => ?_, fun eu => ?_⟩,
        fun u hu => c.gone u (c1.gone u hu)⟩
      · subst eu
        rw [hx] at hy
        cases hy
        rw [(c.wires u _ hx').1 rfl, seen, if_neg hv, if_pos hv', refresh_ports (s := s) (by exact hs)]
      · exact (c.wires u y ((c1.wires u y hy).2 eu)).2 eu
    · rw [if_neg hv']
      refine ⟨_, rfl, c1.ports, c1.length, fun u y hy => ⟨fun eu => ?_, fun eu => (c1.wires u y hy).2 eu⟩, c1.gone⟩
      subst eu
      rw [hx] at hy
      cases hy
      rw [hx', seen, if_neg hv, if_neg hv']

/-- A wire once its style is set. -/
def styled (s : Scene) (st : Style) (x : Wire) : Wire := refresh s { x with style := st }

theorem styled_mild (s : Scene) (st : Style) : Mild (styled s st) := by
  refine ⟨fun x => by rw [styled, refresh_first], fun x => by rw [styled, refresh_last], fun x => ?_⟩
  unfold styled
  have e : ({ refresh s { x with style := st } with style := st } : Wire) = refresh s { x with style := st } := by
    have := refresh_style s { x with style := st }
    generalize refresh s { x with style := st } = y at this ⊢
    cases y
    simp only at this
    rw [this]
  rw [e, refresh_twice]

theorem each_styled {s : Scene} {ws : List Nat} (st : Style) (ht : ∀ w ∈ ws, There s w) :
    ∃ s', each (Scene.styleWire st) ws s = some s' ∧ Changed (styled s st) (· ∈ ws) s s' := by
  refine each_changed (styled_mild s st) (P := s.ports) ?_ ws s rfl ht
  rintro s1 w hs ⟨x, hx, he⟩
  unfold Scene.styleWire
  rw [hx]
  simp only [Option.bind_some]
  have hx' : (s1.setWire w (some { x with style := st })).wire w = some { x with style := st } := by
    rw [wire_setWire hx, if_pos rfl]
  have c1 : Changed (fun x => { x with style := st }) (· = w) s1 (s1.setWire w (some { x with style := st })) :=
    changed_set (h := fun x => { x with style := st }) hx
  obtain ⟨s2, e, c⟩ := updatePath_changed hx' he
  refine ⟨s2, e, c.ports.trans c1.ports, c.length.trans c1.length, fun u y hy => ⟨fun eu => ?_, fun eu => ?_⟩,
    fun u hu => c.gone u (c1.gone u hu)⟩
  · subst eu
    rw [hx] at hy
    cases hy
    rw [(c.wires u _ hx').1 rfl, styled, refresh_ports (s := s) (by exact hs)]
  · exact (c.wires u y ((c1.wires u y hy).2 eu)).2 eu

end Verif.Wires
