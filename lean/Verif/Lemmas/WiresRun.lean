import Verif.Lemmas.Wires

/-! # What holds of the wires of the processing view at any time -/

namespace Verif.Wires

/-- Wires and ports know each other. -/
structure Sound (s : Scene) : Prop where
  ends : ∀ w x, s.wire w = some x → x.first ≠ x.last ∧ (∃ b, s.port x.first = some b ∧ w ∈ b.wires) ∧
    ∃ e, s.port x.last = some e ∧ w ∈ e.wires
  plugged : ∀ p b, s.port p = some b → b.wires.Nodup ∧ ∀ w ∈ b.wires, ∃ x, s.wire w = some x ∧ (x.first = p ∨ x.last = p)

/-- Wires are where they are to be, and visible when they are to be. -/
structure Current (s : Scene) : Prop where
  all : ∀ w < s.wires.length, s.wire w ≠ none
  seen : ∀ w x b e, s.wire w = some x → s.port x.first = some b → s.port x.last = some e → b.visible = true → e.visible = true →
    x.visible = true
  path : ∀ w x b e, s.wire w = some x → s.port x.first = some b → s.port x.last = some e → x.visible = true →
    x.path = some (fresh x.style b e)

theorem Sound.there {s : Scene} (h : Sound s) {w : Nat} {x : Wire} (hx : s.wire w = some x) : There s w := by
  obtain ⟨-, ⟨b, hb, -⟩, ⟨e, he, -⟩⟩ := h.ends w x hx
  exact ⟨x, hx, by rw [hb]; exact Option.some_ne_none b, by rw [he]; exact Option.some_ne_none e⟩

theorem Sound.there' {s : Scene} (h : Sound s) {p w : Nat} {b : Port} (hb : s.port p = some b) (hw : w ∈ b.wires) : There s w := by
  obtain ⟨x, hx, -⟩ := (h.plugged p b hb).2 w hw
  exact h.there hx

theorem Changed.back {h : Wire → Wire} {on : Nat → Prop} {s s' : Scene} (hc : Changed h on s s') {w : Nat} {y : Wire}
    (hy : s'.wire w = some y) : ∃ x, s.wire w = some x ∧ (on w → y = h x) ∧ (¬ on w → y = x) := by
  cases hx : s.wire w with
  | none =>
    rw [hc.gone w hx] at hy
    cases hy
  | some x =>
    refine ⟨x, rfl, fun ho => ?_, fun ho => ?_⟩
    · rw [(hc.wires w x hx).1 ho] at hy
      cases hy
      rfl
    · rw [(hc.wires w x hx).2 ho] at hy
      cases hy
      rfl

theorem Changed.port {h : Wire → Wire} {on : Nat → Prop} {s s' : Scene} (hc : Changed h on s s') (p : Nat) : s'.port p = s.port p := by
  unfold Scene.port
  rw [hc.ports]

theorem Changed.forth {h : Wire → Wire} (hm : Mild h) {on : Nat → Prop} {s s' : Scene} (hc : Changed h on s s') {w : Nat} {x : Wire}
    (hx : s.wire w = some x) : ∃ y, s'.wire w = some y ∧ y.first = x.first ∧ y.last = x.last := by
  by_cases ho : on w
  · exact ⟨_, (hc.wires w x hx).1 ho, hm.first x, hm.last x⟩
  · exact ⟨_, (hc.wires w x hx).2 ho, rfl, rfl⟩

theorem Changed.sound {h : Wire → Wire} (hm : Mild h) {on : Nat → Prop} {s s' : Scene} (hc : Changed h on s s') (hs : Sound s) :
    Sound s' := by
  constructor
  · intro w y hy
    obtain ⟨x, hx, h1, h2⟩ := hc.back hy
    have e : y.first = x.first ∧ y.last = x.last := by
      by_cases ho : on w
      · rw [h1 ho]
        exact ⟨hm.first x, hm.last x⟩
      · rw [h2 ho]
        exact ⟨rfl, rfl⟩
    rw [e.1, e.2, hc.port, hc.port]
    exact hs.ends w x hx
  · intro p b hb
    rw [hc.port] at hb
    refine ⟨(hs.plugged p b hb).1, fun w hw => ?_⟩
    obtain ⟨x, hx, hp⟩ := (hs.plugged p b hb).2 w hw
    obtain ⟨y, hy, e1, e2⟩ := hc.forth hm hx
    exact ⟨y, hy, by rw [e1, e2]; exact hp⟩

theorem Changed.all {h : Wire → Wire} (hm : Mild h) {on : Nat → Prop} {s s' : Scene} (hc : Changed h on s s')
    (hs : ∀ w < s.wires.length, s.wire w ≠ none) : ∀ w < s'.wires.length, s'.wire w ≠ none := by
  intro w hw
  rw [hc.length] at hw
  obtain ⟨x, hx⟩ := Option.ne_none_iff_exists'.1 (hs w hw)
  obtain ⟨y, hy, -⟩ := hc.forth hm hx
  rw [hy]
  exact Option.some_ne_none y

/-! ## A port is made -/

theorem port_addPort (s : Scene) (a : Anchor) (g : Place) (v : Bool) (p : Nat) :
    (s.addPort a g v).port p = if p = s.ports.length then some ⟨a, g, v, []⟩ else s.port p := by
  unfold Scene.port Scene.addPort
  by_cases h : p = s.ports.length
  · subst h
    simp
  · rw [if_neg h]
    by_cases h' : p < s.ports.length
    · simp [List.getElem?_append_left h']
    · rw [List.getElem?_eq_none (by simp; omega), List.getElem?_eq_none (by omega)]

theorem port_lt {s : Scene} {p : Nat} {b : Port} (h : s.port p = some b) : p < s.ports.length := by
  by_contra hc
  unfold Scene.port at h
  rw [List.getElem?_eq_none (by omega)] at h
  cases h

theorem wire_lt {s : Scene} {w : Nat} {x : Wire} (h : s.wire w = some x) : w < s.wires.length := by
  by_contra hc
  unfold Scene.wire at h
  rw [List.getElem?_eq_none (by omega)] at h
  cases h

theorem addPort_kept {s : Scene} (hs : Sound s) (hc : Current s) (a : Anchor) (g : Place) (v : Bool) :
    Sound (s.addPort a g v) ∧ Current (s.addPort a g v) := by
  have old : ∀ {p b}, s.port p = some b → (s.addPort a g v).port p = some b := by
    intro p b hb
    rw [port_addPort, if_neg (by have := port_lt hb; omega), hb]
  refine ⟨⟨?_, ?_⟩, ⟨hc.all, ?_, ?_⟩⟩
  · intro w x hx
    obtain ⟨h1, ⟨b, hb, wb⟩, ⟨e, he, we⟩⟩ := hs.ends w x hx
    exact ⟨h1, ⟨b, old hb, wb⟩, ⟨e, old he, we⟩⟩
  · intro p b hb
    rw [port_addPort] at hb
    split at hb
    · cases hb
      exact ⟨List.nodup_nil, fun w hw => by cases hw⟩
    · exact hs.plugged p b hb
  · intro w x b e hx hb he
    obtain ⟨-, ⟨b', hb', -⟩, ⟨e', he', -⟩⟩ := hs.ends w x hx
    rw [old hb'] at hb
    rw [old he'] at he
    cases hb
    cases he
    exact hc.seen w x _ _ hx hb' he'
  · intro w x b e hx hb he
    obtain ⟨-, ⟨b', hb', -⟩, ⟨e', he', -⟩⟩ := hs.ends w x hx
    rw [old hb'] at hb
    rw [old he'] at he
    cases hb
    cases he
    exact hc.path w x _ _ hx hb' he'

/-! ## A port is shown or hidden -/

theorem show_kept {s : Scene} (hs : Sound s) (hc : Current s) {p : Nat} (hp : s.port p ≠ none) (v : Bool) :
    ∃ s', s.setPortVisible v p = some s' ∧ Sound s' ∧ Current s' := by
  obtain ⟨P, hP⟩ := Option.ne_none_iff_exists'.1 hp
  unfold Scene.setPortVisible
  rw [hP]
  simp only [Option.bind_some]
  by_cases hv : P.visible = v
  · rw [if_pos hv]
    exact ⟨s, rfl, hs, hc⟩
  rw [if_neg hv]
  generalize ht : s.setPort p (some { P with visible := v }) = t
  have port : ∀ q, t.port q = if q = p then some { P with visible := v } else s.port q := fun q => by
    rw [← ht]
    exact port_setPort hP _ q
  have wire : ∀ w, t.wire w = s.wire w := fun w => by rw [← ht]; rfl
  have len : t.wires = s.wires := by rw [← ht]; rfl
  have forth : ∀ {q b}, s.port q = some b → ∃ b', t.port q = some b' ∧ b'.wires = b.wires ∧ b'.anchor = b.anchor ∧ b'.place = b.place := by
    intro q b hb
    rw [port]
    by_cases e : q = p
    · subst e
      rw [hP] at hb
      cases hb
      exact ⟨{ P with visible := v }, if_pos rfl, rfl, rfl, rfl⟩
    · exact ⟨b, by rw [if_neg e, hb], rfl, rfl, rfl⟩
  have back : ∀ {q b'}, t.port q = some b' → ∃ b, s.port q = some b ∧ b'.wires = b.wires ∧ b'.anchor = b.anchor ∧ b'.place = b.place := by
    intro q b' hb
    rw [port] at hb
    by_cases e : q = p
    · rw [if_pos e] at hb
      cases hb
      exact ⟨P, by rw [e, hP], rfl, rfl, rfl⟩
    · rw [if_neg e] at hb
      exact ⟨b', hb, rfl, rfl, rfl⟩
  have st : Sound t := by
    constructor
    · intro w x hx
      rw [wire] at hx
      obtain ⟨h1, ⟨b, hb, wb⟩, ⟨e, he, we⟩⟩ := hs.ends w x hx
      obtain ⟨b', hb', wb', -⟩ := forth hb
      obtain ⟨e', he', we', -⟩ := forth he
      exact ⟨h1, ⟨b', hb', wb' ▸ wb⟩, ⟨e', he', we' ▸ we⟩⟩
    · intro q b' hb'
      obtain ⟨b, hb, e, -⟩ := back hb'
      rw [e]
      simp only [wire]
      exact hs.plugged q b hb
  obtain ⟨s', e', ch⟩ := each_seen (s := t) (ws := P.wires) v fun w hw => by
    obtain ⟨x, hx, -⟩ := (hs.plugged p P hP).2 w hw
    rw [← wire] at hx
    exact st.there hx
  refine ⟨s', e', ch.sound (seen_mild t v) st, ch.all (seen_mild t v) (by rw [len]; simp only [wire]; exact hc.all), ?_, ?_⟩
  · intro w y b e hy hb he vb ve
    obtain ⟨x, hx, h1, h2⟩ := ch.back hy
    rw [ch.port] at hb he
    rw [wire] at hx
    by_cases ho : w ∈ P.wires
    · rw [h1 ho, seen_visible]
      cases hvt : v with
      | true => rfl
      | false =>
        exfalso
        obtain ⟨x', hx', hend⟩ := (hs.plugged p P hP).2 w ho
        rw [hx] at hx'
        cases hx'
        rw [h1 ho, (seen_mild t v).first] at hb
        rw [h1 ho, (seen_mild t v).last] at he
        rcases hend with hend | hend
        · rw [port, if_pos hend] at hb
          cases hb
          rw [hvt] at vb
          cases vb
        · rw [port, if_pos hend] at he
          cases he
          rw [hvt] at ve
          cases ve
    · rw [h2 ho] at hb he ⊢
      obtain ⟨-, ⟨b0, hb0, wb⟩, ⟨e0, he0, we⟩⟩ := hs.ends w x hx
      have n1 : x.first ≠ p := fun h => by rw [h, hP] at hb0; cases hb0; exact ho wb
      have n2 : x.last ≠ p := fun h => by rw [h, hP] at he0; cases he0; exact ho we
      rw [port, if_neg n1] at hb
      rw [port, if_neg n2] at he
      exact hc.seen w x b e hx hb he vb ve
  · intro w y b e hy hb he vy
    obtain ⟨x, hx, h1, h2⟩ := ch.back hy
    rw [ch.port] at hb he
    rw [wire] at hx
    have key : ∀ z : Wire, z.first = x.first → z.last = x.last → t.port z.first = some b → t.port z.last = some e → x.visible = true →
        x.path = some (fresh x.style b e) := by
      intro z z1 z2 hb he vx
      rw [z1] at hb
      rw [z2] at he
      obtain ⟨b0, hb0, -, a1, a2⟩ := back hb
      obtain ⟨e0, he0, -, a3, a4⟩ := back he
      rw [hc.path w x b0 e0 hx hb0 he0 vx]
      unfold fresh
      rw [a1, a2, a3, a4]
    by_cases ho : w ∈ P.wires
    · have hv1 : v = true := by rw [← seen_visible t v x, ← h1 ho]; exact vy
      rw [h1 ho, seen_style]
      by_cases hx1 : x.visible = v
      · rw [seen, if_pos hx1]
        exact key y (by rw [h1 ho, (seen_mild t v).first]) (by rw [h1 ho, (seen_mild t v).last]) hb he (hx1.trans hv1)
      · rw [seen, if_neg hx1, if_pos hv1]
        rw [h1 ho, (seen_mild t v).first] at hb
        rw [h1 ho, (seen_mild t v).last] at he
        rw [refresh_fresh (x := { x with visible := v }) hb he hv1]
    · have e2 := h2 ho
      subst e2
      exact key y rfl rfl hb he vy

/-! ## Ports are moved -/

theorem each_told : ∀ (ps : List Nat) (s : Scene), Sound s → (∀ p ∈ ps, s.port p ≠ none) → ∃ s', each Scene.told ps s = some s' ∧
    Changed (refresh s) (fun w => ∃ p ∈ ps, ∃ x, s.port p = some x ∧ w ∈ x.wires) s s'
  | [], s, _, _ => ⟨s, rfl, ⟨rfl, rfl, fun w x hx => ⟨fun hw => by simp at hw, fun _ => hx⟩, fun _ hw => hw⟩⟩
  | p :: rest, s, hs, hp => by
    obtain ⟨P, hP⟩ := Option.ne_none_iff_exists'.1 (hp p (by simp))
    obtain ⟨s1, e1, c1⟩ := each_updatePath (s := s) (ws := P.wires) fun w hw => hs.there' hP hw
    obtain ⟨s2, e2, c2⟩ := each_told rest s1 (c1.sound (refresh_mild s) hs) fun q hq => by
      rw [c1.port]
      exact hp q (by simp [hq])
    rw [refresh_ports c1.ports] at c2
    refine ⟨s2, ?_, (c1.trans (refresh_mild s) c2).congr fun w => ?_⟩
    · rw [each]
      unfold Scene.told
      rw [hP]
      simp only [Option.bind_some, e1]
      exact e2
    · simp only [c1.port]
      constructor
      · rintro (h | ⟨q, hq, x, hx, hw⟩)
        · exact ⟨p, by simp, P, hP, h⟩
        · exact ⟨q, by simp [hq], x, hx, hw⟩
      · rintro ⟨q, hq, x, hx, hw⟩
        rcases List.mem_cons.1 hq with rfl | hq
        · rw [hP] at hx
          cases hx
          exact Or.inl hw
        · exact Or.inr ⟨q, hq, x, hx, hw⟩

theorem move_kept {s : Scene} (hs : Sound s) (hc : Current s) {places : Nat → Place} (ha : s.Allows (.move places)) :
    ∃ s', s.move places = some s' ∧ Sound s' ∧ Current s' := by
  unfold Scene.move
  dsimp only
  generalize ht : ({ s with ports := s.ports.mapIdx fun p x => x.map fun x => { x with place := places p } } : Scene) = t
  generalize hm : ((List.range s.ports.length).filter fun p =>
    match s.port p with
    | none => false
    | some x => decide (x.place.rect.left ≠ (places p).rect.left ∨ x.place.rect.top ≠ (places p).rect.top)) = moved
  have port : ∀ q, t.port q = (s.port q).map fun x => { x with place := places q } := by
    intro q
    rw [← ht]
    unfold Scene.port
    simp only [List.getElem?_mapIdx]
    cases h : s.ports[q]? with
    | none => rfl
    | some x => rfl
  have wire : ∀ w, t.wire w = s.wire w := fun w => by rw [← ht]; rfl
  have len : t.wires = s.wires := by rw [← ht]
  have inMoved : ∀ p x, s.port p = some x → (p ∈ moved ↔ x.place.rect.left ≠ (places p).rect.left ∨ x.place.rect.top ≠ (places p).rect.top) := by
    intro p x hx
    rw [← hm, List.mem_filter, hx]
    simp only [List.mem_range, decide_eq_true_eq]
    exact ⟨fun h => h.2, fun h => ⟨port_lt hx, h⟩⟩
  have live : ∀ p ∈ moved, t.port p ≠ none := by
    intro p hp
    rw [port]
    rw [← hm, List.mem_filter] at hp
    cases hx : s.port p with
    | none =>
      rw [hx] at hp
      cases hp.2
    | some x => exact Option.some_ne_none _
  have st : Sound t := by
    constructor
    · intro w x hx
      rw [wire] at hx
      obtain ⟨h1, ⟨b, hb, wb⟩, ⟨e, he, we⟩⟩ := hs.ends w x hx
      exact ⟨h1, ⟨{ b with place := places x.first }, by rw [port, hb]; rfl, wb⟩, ⟨{ e with place := places x.last }, by rw [port, he]; rfl, we⟩⟩
    · intro q b' hb'
      rw [port] at hb'
      obtain ⟨b, hb, rfl⟩ := Option.map_eq_some_iff.1 hb'
      simp only [wire]
      exact hs.plugged q b hb
  obtain ⟨s', e', ch⟩ := each_told moved t st live
  refine ⟨s', e', ch.sound (refresh_mild t) st, ch.all (refresh_mild t) (by rw [len]; simp only [wire]; exact hc.all), ?_, ?_⟩
  · intro w y b e hy hb he vb ve
    obtain ⟨x, hx, h1, h2⟩ := ch.back hy
    rw [ch.port] at hb he
    rw [wire] at hx
    have e : y.first = x.first ∧ y.last = x.last ∧ y.visible = x.visible := by
      by_cases ho : ∃ p ∈ moved, ∃ x, t.port p = some x ∧ w ∈ x.wires
      · rw [h1 ho]
        exact ⟨refresh_first t x, refresh_last t x, refresh_visible t x⟩
      · rw [h2 ho]
        exact ⟨rfl, rfl, rfl⟩
    rw [e.1, port] at hb
    rw [e.2.1, port] at he
    obtain ⟨b0, hb0, rfl⟩ := Option.map_eq_some_iff.1 hb
    obtain ⟨e0, he0, rfl⟩ := Option.map_eq_some_iff.1 he
    rw [e.2.2]
    exact hc.seen w x b0 e0 hx hb0 he0 vb ve
  · intro w y b e hy hb he vy
    obtain ⟨x, hx, h1, h2⟩ := ch.back hy
    rw [ch.port] at hb he
    rw [wire] at hx
    by_cases ho : ∃ p ∈ moved, ∃ x, t.port p = some x ∧ w ∈ x.wires
    · have ey := h1 ho
      rw [ey, refresh_first] at hb
      rw [ey, refresh_last] at he
      rw [ey, refresh_visible] at vy
      rw [ey, refresh_style]
      exact refresh_fresh hb he vy
    · have ey := h2 ho
      subst ey
      rw [port] at hb he
      obtain ⟨b0, hb0, rfl⟩ := Option.map_eq_some_iff.1 hb
      obtain ⟨e0, he0, rfl⟩ := Option.map_eq_some_iff.1 he
      rw [hc.path w y b0 e0 hx hb0 he0 vy]
      obtain ⟨-, ⟨b1, hb1, wb⟩, ⟨e1, he1, we⟩⟩ := hs.ends w y hx
      have stay : ∀ q c, s.port q = some c → w ∈ c.wires → attachPos c.anchor c.place = attachPos c.anchor (places q) := by
        intro q c hq hw
        have hn : q ∉ moved := fun h => ho ⟨q, h, { c with place := places q }, by rw [port, hq]; rfl, hw⟩
        rw [inMoved q c hq, not_or, not_not, not_not] at hn
        exact touches_unique (ha q c hq hn.1 hn.2 _ (touches_attach _ _)) (touches_attach _ _)
      rw [hb0] at hb1
      rw [he0] at he1
      cases hb1
      cases he1
      unfold fresh
      rw [stay _ _ hb0 wb, stay _ _ he0 we]

/-! ## The style is set -/

theorem style_kept {s : Scene} (hs : Sound s) (hc : Current s) (st : Style) :
    ∃ s', s.setStyle st = some s' ∧ Sound s' ∧ Current s' ∧ ∀ w x, s'.wire w = some x → x.style = st := by
  have there : ∀ w ∈ List.range s.wires.length, There s w := by
    intro w hw
    obtain ⟨x, hx⟩ := Option.ne_none_iff_exists'.1 (hc.all w (List.mem_range.1 hw))
    exact hs.there hx
  obtain ⟨s', e', ch⟩ := each_styled st there
  have form : ∀ w y, s'.wire w = some y → ∃ x, s.wire w = some x ∧ y = styled s st x := by
    intro w y hy
    obtain ⟨x, hx, h1, -⟩ := ch.back hy
    exact ⟨x, hx, h1 (List.mem_range.2 (wire_lt hx))⟩
  refine ⟨s', e', ch.sound (styled_mild s st) hs, ⟨ch.all (styled_mild s st) hc.all, ?_, ?_⟩, ?_⟩
  · intro w y b e hy hb he vb ve
    obtain ⟨x, hx, rfl⟩ := form w y hy
    rw [ch.port] at hb he
    rw [(styled_mild s st).first] at hb
    rw [(styled_mild s st).last] at he
    rw [styled, refresh_visible]
    exact hc.seen w x b e hx hb he vb ve
  · intro w y b e hy hb he vy
    obtain ⟨x, hx, rfl⟩ := form w y hy
    rw [ch.port] at hb he
    rw [(styled_mild s st).first] at hb
    rw [(styled_mild s st).last] at he
    rw [styled, refresh_visible] at vy
    rw [styled, refresh_style]
    exact refresh_fresh (x := { x with style := st }) hb he vy
  · intro w y hy
    obtain ⟨x, hx, rfl⟩ := form w y hy
    rw [styled, refresh_style]

/-! ## A wire is made -/

theorem addWire_kept {s : Scene} (hs : Sound s) (hc : Current s) {b e : Nat} (hne : b ≠ e) (hb : s.port b ≠ none) (he : s.port e ≠ none) :
    ∃ s', s.addWire b e = some s' ∧ Sound s' ∧ Current s' := by
  obtain ⟨B, hB⟩ := Option.ne_none_iff_exists'.1 hb
  obtain ⟨E, hE⟩ := Option.ne_none_iff_exists'.1 he
  generalize hw : s.wires.length = w
  generalize hW : (⟨b, e, .curved, true, none⟩ : Wire) = W
  generalize h0 : ({ s with wires := s.wires ++ [some W] } : Scene) = s0
  have port0 : ∀ q, s0.port q = s.port q := fun q => by rw [← h0]; rfl
  have wire0 : ∀ v, s0.wire v = if v = w then some W else s.wire v := by
    intro v
    rw [← h0, ← hw]
    unfold Scene.wire
    by_cases h : v = s.wires.length
    · subst h
      simp
    · rw [if_neg h]
      by_cases h' : v < s.wires.length
      · simp [List.getElem?_append_left h']
      · rw [List.getElem?_eq_none (by simp; omega), List.getElem?_eq_none (by omega)]
  have len0 : s0.wires.length = w + 1 := by rw [← h0, ← hw]; simp
  have hB0 : s0.port b = some B := by rw [port0, hB]
  generalize h1 : s0.setPort b (some { B with wires := B.wires ++ [w] }) = s1
  have port1 : ∀ q, s1.port q = if q = b then some { B with wires := B.wires ++ [w] } else s.port q := by
    intro q
    rw [← h1, port_setPort hB0, port0]
  have hE1 : s1.port e = some E := by rw [port1, if_neg hne.symm, hE]
  generalize h2 : s1.setPort e (some { E with wires := E.wires ++ [w] }) = s2
  have port2 : ∀ q, s2.port q = if q = e then some { E with wires := E.wires ++ [w] } else
      if q = b then some { B with wires := B.wires ++ [w] } else s.port q := by
    intro q
    rw [← h2, port_setPort hE1, port1]
  have wire2 : ∀ v, s2.wire v = if v = w then some W else s.wire v := by
    intro v
    rw [← h2, ← h1]
    exact wire0 v
  have len2 : s2.wires.length = w + 1 := by
    rw [← h2, ← h1]
    exact len0
  have old : ∀ {v x}, s.wire v = some x → v ≠ w := by
    intro v x hx h
    have := wire_lt hx
    omega
  have forth : ∀ {q c}, s.port q = some c → ∃ c', s2.port q = some c' ∧ (∀ v ∈ c.wires, v ∈ c'.wires) ∧ c'.anchor = c.anchor ∧
      c'.place = c.place ∧ c'.visible = c.visible := by
    intro q c hq
    rw [port2]
    by_cases h : q = e
    · rw [if_pos h]
      rw [h, hE] at hq
      cases hq
      exact ⟨_, rfl, fun v hv => List.mem_append_left _ hv, rfl, rfl, rfl⟩
    · rw [if_neg h]
      by_cases h' : q = b
      · rw [if_pos h']
        rw [h', hB] at hq
        cases hq
        exact ⟨_, rfl, fun v hv => List.mem_append_left _ hv, rfl, rfl, rfl⟩
      · rw [if_neg h']
        exact ⟨c, hq, fun v hv => hv, rfl, rfl, rfl⟩
  have plug : ∀ {q c}, s.port q = some c → (q = W.first ∨ q = W.last) →
      (c.wires ++ [w]).Nodup ∧ ∀ v ∈ c.wires ++ [w], ∃ x, s2.wire v = some x ∧ (x.first = q ∨ x.last = q) := by
    intro q c hq hqw
    obtain ⟨p1, p2⟩ := hs.plugged q c hq
    refine ⟨List.nodup_append.2 ⟨p1, by simp, fun a ha a' ha' => ?_⟩, fun v hv => ?_⟩
    · obtain ⟨x, hx, -⟩ := p2 a ha
      rw [List.mem_singleton] at ha'
      rw [ha']
      exact old hx
    · rw [wire2]
      by_cases h : v = w
      · rw [if_pos h]
        exact ⟨W, rfl, hqw.imp Eq.symm Eq.symm⟩
      · rw [if_neg h]
        rcases List.mem_append.1 hv with hv | hv
        · exact p2 v hv
        · exact absurd (List.mem_singleton.1 hv) h
  have first : W.first = b := by rw [← hW]
  have last : W.last = e := by rw [← hW]
  have s2s : Sound s2 := by
    constructor
    · intro v x hx
      rw [wire2] at hx
      by_cases h : v = w
      · rw [if_pos h] at hx
        cases hx
        rw [first, last, h]
        refine ⟨hne, ⟨_, by rw [port2, if_neg hne, if_pos rfl], by simp⟩, ⟨_, by rw [port2, if_pos rfl], by simp⟩⟩
      · rw [if_neg h] at hx
        obtain ⟨h1, ⟨b', hb', wb⟩, ⟨e', he', we⟩⟩ := hs.ends v x hx
        obtain ⟨b2, hb2, m1, -⟩ := forth hb'
        obtain ⟨e2, he2, m2, -⟩ := forth he'
        exact ⟨h1, ⟨b2, hb2, m1 v wb⟩, ⟨e2, he2, m2 v we⟩⟩
    · intro q c hq
      rw [port2] at hq
      by_cases h : q = e
      · rw [if_pos h] at hq
        cases hq
        rw [h]
        exact plug hE (Or.inr last.symm)
      · rw [if_neg h] at hq
        by_cases h' : q = b
        · rw [if_pos h'] at hq
          cases hq
          rw [h']
          exact plug hB (Or.inl first.symm)
        · rw [if_neg h'] at hq
          obtain ⟨p1, p2⟩ := hs.plugged q c hq
          refine ⟨p1, fun v hv => ?_⟩
          obtain ⟨x, hx, hend⟩ := p2 v hv
          exact ⟨x, by rw [wire2, if_neg (old hx), hx], hend⟩
  have hww : s2.wire w = some W := by rw [wire2, if_pos rfl]
  obtain ⟨x', hx', hended⟩ := s2s.there hww
  rw [hww] at hx'
  cases hx'
  obtain ⟨s3, e3, ch⟩ := updatePath_changed hww hended
  have run : s.addWire b e = some s3 := by
    unfold Scene.addWire Scene.plug
    dsimp only
    rw [hw, hW, h0, hB0]
    simp only [Option.map_some, Option.bind_some]
    rw [h1, hE1]
    simp only [Option.map_some, Option.bind_some]
    rw [h2]
    exact e3
  have same : ∀ {q c c'}, s.port q = some c → s2.port q = some c' → c'.anchor = c.anchor ∧ c'.place = c.place ∧ c'.visible = c.visible := by
    intro q c c' h h'
    obtain ⟨c2, hc2, -, r⟩ := forth h
    rw [h'] at hc2
    cases hc2
    exact r
  refine ⟨s3, run, ch.sound (refresh_mild s2) s2s, ⟨ch.all (refresh_mild s2) fun v hv => ?_, ?_, ?_⟩⟩
  · rw [wire2]
    by_cases h : v = w
    · rw [if_pos h]
      exact Option.some_ne_none W
    · rw [if_neg h]
      exact hc.all v (by omega)
  · intro v y c d hy hc' hd vc vd
    obtain ⟨x, hx, r1, r2⟩ := ch.back hy
    rw [ch.port] at hc' hd
    rw [wire2] at hx
    by_cases h : v = w
    · rw [if_pos h] at hx
      cases hx
      rw [r1 h, refresh_visible, ← hW]
    · rw [if_neg h] at hx
      have e2 := r2 h
      subst e2
      obtain ⟨-, ⟨b', hb', -⟩, ⟨e', he', -⟩⟩ := hs.ends v y hx
      refine hc.seen v y b' e' hx hb' he' ?_ ?_
      · rw [← (same hb' hc').2.2]
        exact vc
      · rw [← (same he' hd).2.2]
        exact vd
  · intro v y c d hy hc' hd vy
    obtain ⟨x, hx, r1, r2⟩ := ch.back hy
    rw [ch.port] at hc' hd
    rw [wire2] at hx
    by_cases h : v = w
    · rw [if_pos h] at hx
      cases hx
      have ey := r1 h
      rw [ey, refresh_first] at hc'
      rw [ey, refresh_last] at hd
      rw [ey, refresh_visible] at vy
      rw [ey, refresh_style]
      exact refresh_fresh hc' hd vy
    · rw [if_neg h] at hx
      have e2 := r2 h
      subst e2
      obtain ⟨-, ⟨b', hb', -⟩, ⟨e', he', -⟩⟩ := hs.ends v y hx
      rw [hc.path v y b' e' hx hb' he' vy]
      obtain ⟨a1, a2, -⟩ := same hb' hc'
      obtain ⟨a3, a4, -⟩ := same he' hd
      unfold fresh
      rw [a1, a2, a3, a4]

/-! ## At any time -/

theorem on_kept {s : Scene} (hs : Sound s) (hc : Current s) (e : Event) (ha : s.Allows e) : ∃ s', s.on e = some s' ∧ Sound s' ∧ Current s' := by
  cases e with
  | addPort a g v => exact ⟨_, rfl, addPort_kept hs hc a g v⟩
  | addWire b e => exact addWire_kept hs hc ha.1 ha.2.1 ha.2.2
  | «show» p v => exact show_kept hs hc ha v
  | move places => exact move_kept hs hc ha
  | style st =>
    obtain ⟨s', h1, h2, h3, -⟩ := style_kept hs hc st
    exact ⟨s', h1, h2, h3⟩

theorem reach_kept {s : Scene} (h : Reach s) : Sound s ∧ Current s := by
  induction h with
  | start =>
    have e : ∀ w, (⟨[], []⟩ : Scene).wire w = none := fun w => rfl
    have e' : ∀ p, (⟨[], []⟩ : Scene).port p = none := fun p => rfl
    refine ⟨⟨fun w x hx => ?_, fun p b hb => ?_⟩, ⟨fun w hw => absurd hw (by simp), fun w x b e' hx => ?_, fun w x b e' hx => ?_⟩⟩
    · rw [e] at hx; cases hx
    · rw [e'] at hb; cases hb
    · rw [e] at hx; cases hx
    · rw [e] at hx; cases hx
  | step e _ ha h ih =>
    obtain ⟨s', h1, h2⟩ := on_kept ih.1 ih.2 e ha
    rw [h] at h1
    cases h1
    exact h2

/-! ## The end -/

/-- As `Sound`, while port `p` is deleted and its wires of the list are not yet. -/
structure Ending (p : Nat) (ws : List Nat) (s : Scene) : Prop where
  here : s.port p ≠ none
  ends : ∀ w x, s.wire w = some x → x.first ≠ x.last ∧
    (∃ b, s.port x.first = some b ∧ (x.first ≠ p → w ∈ b.wires)) ∧ (∃ e, s.port x.last = some e ∧ (x.last ≠ p → w ∈ e.wires)) ∧
    (x.first = p ∨ x.last = p → w ∈ ws)
  plugged : ∀ q b, q ≠ p → s.port q = some b → b.wires.Nodup ∧ ∀ w ∈ b.wires, ∃ x, s.wire w = some x ∧ (x.first = q ∨ x.last = q)
  left : ws.Nodup ∧ ∀ w ∈ ws, ∃ x, s.wire w = some x ∧ (x.first = p ∨ x.last = p)

/-- A wire is deleted by one of its ends, `q` being the other. -/
theorem unwire_ending {p w : Nat} {ws : List Nat} {s : Scene} (h : Ending p (w :: ws) s) :
    ∃ s', Scene.unwireNext p s w = some s' ∧ Ending p ws s' ∧ (∀ q, s'.port q = none ↔ s.port q = none) ∧
      (∀ v, s'.wire v = if v = w then none else s.wire v) ∧ s'.ports.length = s.ports.length ∧ s'.wires.length = s.wires.length := by
  obtain ⟨x, hx, hp⟩ := h.left.2 w (by simp)
  obtain ⟨hne, ⟨b, hb, mb⟩, ⟨e, he, me⟩, -⟩ := h.ends w x hx
  -- the other end
  obtain ⟨q, Q, hq, hQ, hqp, hends, run⟩ : ∃ q Q, q ≠ p ∧ s.port q = some Q ∧ w ∈ Q.wires ∧
      ((x.first = p ∧ x.last = q) ∨ (x.first = q ∧ x.last = p)) ∧
      s.unwire p w = some ((s.setPort q (some { Q with wires := Q.wires.filter (· ≠ w) })).setWire w none) := by
    rcases hp with hp | hp
    · have hq : x.last ≠ p := fun h => hne (hp.trans h.symm)
      refine ⟨x.last, e, hq, he, me hq, Or.inl ⟨hp, rfl⟩, ?_⟩
      unfold Scene.unwire
      rw [hx]
      simp only [Option.bind_some]
      rw [if_neg (by simpa using hp.symm)]
      simp only [Option.bind_some]
      rw [if_pos hq.symm]
      unfold Scene.unplug
      rw [he]
      rfl
    · have hq : x.first ≠ p := fun h => hne (h.trans hp.symm)
      refine ⟨x.first, b, hq, hb, mb hq, Or.inr ⟨rfl, hp⟩, ?_⟩
      unfold Scene.unwire
      rw [hx]
      simp only [Option.bind_some]
      rw [if_pos hq.symm]
      unfold Scene.unplug
      rw [hb]
      simp only [Option.map_some, Option.bind_some]
      rw [if_neg (by simpa using hp.symm)]
      rfl
  have next : Scene.unwireNext p s w = some ((s.setPort q (some { Q with wires := Q.wires.filter (· ≠ w) })).setWire w none) := by
    unfold Scene.unwireNext
    rw [run]
    simp only [Option.bind_some]
    rw [if_pos]
    rw [port_setWire, port_setPort hQ, if_neg hq.symm]
  refine ⟨_, next, ?_, ?_, ?_, by simp [Scene.setPort, Scene.setWire], by simp [Scene.setPort, Scene.setWire]⟩
  all_goals
    generalize ht : (s.setPort q (some { Q with wires := Q.wires.filter (· ≠ w) })).setWire w none = t
    have port : ∀ r, t.port r = if r = q then some { Q with wires := Q.wires.filter (· ≠ w) } else s.port r := fun r => by
      rw [← ht, port_setWire, port_setPort hQ]
    have wire : ∀ v, t.wire v = if v = w then none else s.wire v := fun v => by
      rw [← ht]
      exact wire_setWire (s := s.setPort q _) (x := x) hx none v
  · have forth : ∀ {r c v}, s.port r = some c → v ≠ w → ∃ c', t.port r = some c' ∧ ((r ≠ p → v ∈ c.wires) → r ≠ p → v ∈ c'.wires) := by
      intro r c v hr hv
      rw [port]
      by_cases h : r = q
      · rw [if_pos h]
        rw [h, hQ] at hr
        cases hr
        exact ⟨_, rfl, fun m hp => List.mem_filter.2 ⟨m hp, by simpa using hv⟩⟩
      · rw [if_neg h]
        exact ⟨c, hr, fun m => m⟩
    refine ⟨?_, ?_, ?_, ?_⟩
    · rw [port, if_neg hq.symm]
      exact h.here
    · intro v y hy
      rw [wire] at hy
      by_cases hv : v = w
      · rw [if_pos hv] at hy
        cases hy
      · rw [if_neg hv] at hy
        obtain ⟨h1, ⟨b', hb', mb'⟩, ⟨e', he', me'⟩, hl⟩ := h.ends v y hy
        obtain ⟨c1, hc1, m1⟩ := forth hb' hv
        obtain ⟨c2, hc2, m2⟩ := forth he' hv
        refine ⟨h1, ⟨c1, hc1, m1 mb'⟩, ⟨c2, hc2, m2 me'⟩, fun hend => ?_⟩
        exact (List.mem_cons.1 (hl hend)).resolve_left hv
    · intro r c hr hc
      rw [port] at hc
      by_cases hrq : r = q
      · rw [if_pos hrq] at hc
        cases hc
        obtain ⟨p1, p2⟩ := h.plugged q Q hq hQ
        refine ⟨p1.filter _, fun v hv => ?_⟩
        obtain ⟨hv1, hv2⟩ := List.mem_filter.1 hv
        obtain ⟨y, hy, hend⟩ := p2 v hv1
        exact ⟨y, by rw [wire, if_neg (by simpa using hv2), hy], by rw [hrq]; exact hend⟩
      · rw [if_neg hrq] at hc
        obtain ⟨p1, p2⟩ := h.plugged r c hr hc
        refine ⟨p1, fun v hv => ?_⟩
        obtain ⟨y, hy, hend⟩ := p2 v hv
        refine ⟨y, ?_, hend⟩
        rw [wire, if_neg, hy]
        rintro rfl
        rw [hx] at hy
        cases hy
        rcases hends with ⟨e1, e2⟩ | ⟨e1, e2⟩ <;> rcases hend with hend | hend
        · exact hr (hend.symm.trans e1)
        · exact hrq (hend.symm.trans e2)
        · exact hrq (hend.symm.trans e1)
        · exact hr (hend.symm.trans e2)
    · refine ⟨(List.nodup_cons.1 h.left.1).2, fun v hv => ?_⟩
      obtain ⟨y, hy, hend⟩ := h.left.2 v (by simp [hv])
      refine ⟨y, ?_, hend⟩
      rw [wire, if_neg, hy]
      rintro rfl
      exact (List.nodup_cons.1 h.left.1).1 hv
  · intro r
    rw [port]
    by_cases hrq : r = q
    · rw [if_pos hrq, hrq, hQ]
      simp
    · rw [if_neg hrq]
  · exact wire

theorem unwire_all {p : Nat} : ∀ {ws : List Nat} {s : Scene}, Ending p ws s → ∃ s', each (Scene.unwireNext p) ws s = some s' ∧ Ending p [] s' ∧
    (∀ q, s'.port q = none ↔ s.port q = none) ∧ (∀ v, s.wire v = none → s'.wire v = none) ∧ s'.ports.length = s.ports.length ∧
      s'.wires.length = s.wires.length
  | [], s, h => ⟨s, rfl, h, fun _ => Iff.rfl, fun _ h => h, rfl, rfl⟩
  | w :: ws, s, h => by
    obtain ⟨s1, e1, h1, p1, w1, l1, k1⟩ := unwire_ending h
    obtain ⟨s2, e2, h2, p2, w2, l2, k2⟩ := unwire_all h1
    refine ⟨s2, by rw [each, e1]; exact e2, h2, fun q => (p2 q).trans (p1 q), fun v hv => w2 v ?_, l2.trans l1, k2.trans k1⟩
    rw [w1]
    split
    · rfl
    · exact hv

theorem deletePort_sound {p : Nat} {s : Scene} (h : Sound s) (hp : s.port p ≠ none) : ∃ s', s.deletePort p = some s' ∧ Sound s' ∧
    (∀ q, s'.port q = none ↔ q = p ∨ s.port q = none) ∧ (∀ v, s.wire v = none → s'.wire v = none) ∧ s'.wires.length = s.wires.length := by
  obtain ⟨P, hP⟩ := Option.ne_none_iff_exists'.1 hp
  obtain ⟨s1, e1, h1, p1, w1, -, k1⟩ := unwire_all (p := p) (ws := P.wires) (s := s) (by
    refine ⟨hp, fun w x hx => ?_, fun q b _ hb => h.plugged q b hb, h.plugged p P hP⟩
    obtain ⟨a1, ⟨b, hb, mb⟩, ⟨e, he, me⟩⟩ := h.ends w x hx
    refine ⟨a1, ⟨b, hb, fun _ => mb⟩, ⟨e, he, fun _ => me⟩, ?_⟩
    rintro (hf | hf)
    · rw [hf, hP] at hb
      cases hb
      exact mb
    · rw [hf, hP] at he
      cases he
      exact me)
  obtain ⟨P1, hP1⟩ := Option.ne_none_iff_exists'.1 h1.here
  refine ⟨s1.setPort p none, by unfold Scene.deletePort; rw [hP]; simp only [Option.bind_some, e1, Option.map_some], ⟨?_, ?_⟩, ?_, ?_, k1⟩
  · intro w x hx
    obtain ⟨a1, ⟨b, hb, mb⟩, ⟨e, he, me⟩, hl⟩ := h1.ends w x hx
    have n1 : x.first ≠ p := fun hf => by cases hl (Or.inl hf)
    have n2 : x.last ≠ p := fun hf => by cases hl (Or.inr hf)
    exact ⟨a1, ⟨b, by rw [port_setPort hP1, if_neg n1, hb], mb n1⟩, ⟨e, by rw [port_setPort hP1, if_neg n2, he], me n2⟩⟩
  · intro q b hb
    rw [port_setPort hP1] at hb
    split at hb
    · cases hb
    · rename_i hq
      exact h1.plugged q b hq hb
  · intro q
    rw [port_setPort hP1]
    by_cases hq : q = p
    · simp [hq]
    · simp [hq, p1]
  · exact w1

theorem deletePorts_sound : ∀ (order : List Nat) {s : Scene}, Sound s → order.Nodup → (∀ p ∈ order, s.port p ≠ none) →
    ∃ s', each Scene.deletePort order s = some s' ∧ Sound s' ∧ (∀ q, s'.port q = none ↔ q ∈ order ∨ s.port q = none) ∧
      (∀ v, s.wire v = none → s'.wire v = none)
  | [], s, h, _, _ => ⟨s, rfl, h, fun q => by simp, fun _ h => h⟩
  | p :: rest, s, h, hn, hl => by
    obtain ⟨s1, e1, h1, p1, w1, -⟩ := deletePort_sound h (hl p (by simp))
    have hn' := List.nodup_cons.1 hn
    obtain ⟨s2, e2, h2, p2, w2⟩ := deletePorts_sound rest h1 hn'.2 fun q hq => by
      rw [Ne, p1, not_or]
      exact ⟨fun e => hn'.1 (e ▸ hq), hl q (by simp [hq])⟩
    refine ⟨s2, by rw [each, e1]; exact e2, h2, fun q => ?_, fun v hv => w2 v (w1 v hv)⟩
    rw [p2, p1, List.mem_cons]
    tauto

theorem deleteWires_none {s : Scene} (h : ∀ w, s.wire w = none) : ∀ ws : List Nat, each Scene.deleteWire ws s = some s
  | [] => rfl
  | w :: rest => by
    rw [each]
    unfold Scene.deleteWire
    rw [h w]
    exact deleteWires_none h rest

end Verif.Wires
