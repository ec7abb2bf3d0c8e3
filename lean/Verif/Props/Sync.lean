import Verif.Lemmas.Sync

namespace Verif.Sync
open Verif.Geom (Plane)
open Spec
variable {α : Type} [DecidableEq α]

/-- The scenes between two actions. -/
structure Sound (w : Scenes α) (s : State α) : Prop where
  opened : Open s
  sub : ∀ p x, x ∈ s.items p → x ∈ s.nodes ∧ w.drawn p x = true ∧ s.visible p x = true

/-- The other scenes after a structure scene told its selection. -/
structure Spread (w : Scenes α) (p : Plane) (s t : State α) : Prop where
  opened : Open t
  chain : t.chain = s.chain
  visible : t.visible = s.visible
  items : t.items p = s.items p
  nodes : ∀ x, x ∈ t.nodes ↔ x ∈ s.items p ∧ w.node x = true
  others : ∀ q, q ≠ p → ∀ x, x ∈ t.items q ↔ x ∈ t.nodes ∧ w.drawn q x = true ∧ t.visible q x = true

theorem itemsChanged_spread {w : Scenes α} {s : State α} {p : Plane} (ho : Open s)
    (hs : ∀ q, q ≠ p → ∀ x ∈ s.items q, x ∈ s.nodes) : ∃ t, itemsChanged w s p = some t ∧ Spread w p s t := by
  obtain ⟨h1, h2, h3⟩ := ho
  have hw := works w s.chain
  obtain ⟨t, a1, a2, a3, a4⟩ := clearNodes_works hw (s := { s with locks := put s.locks p true }) h1 rfl h3 (by
    intro hn q hq x
    have hqp : q ≠ p := by rintro rfl; simp at hq
    have hn' : s.nodes = [] := hn
    have hi : x ∉ s.items q := fun h => by have := hs q hqp x h; rw [hn'] at this; cases this
    simp [hi, hn'])
  obtain ⟨u, b1, b2, b3, b4⟩ := selectNodes_works hw w.node (s.items p) (a2.1.trans h1) a2.2.2.1 (a2.2.2.2.1.trans h3) a3
  obtain ⟨c1, c2, c3, c4, c5, c6⟩ := a2.trans b2
  refine ⟨{ u with locks := put u.locks p false }, ?_, ⟨c1.trans h1, fun q => ?_, c4.trans h3⟩, c3, c5, ?_, ?_, ?_⟩
  · rw [itemsChanged, nodesCounterparts]
    simp only [h1, Bool.false_eq_true, if_false]
    have e : ({ s with lock := false, locks := put s.locks p true } : State α) =
      { s with locks := put s.locks p true } := by rw [← h1]
    simp only [Option.bind_eq_bind]
    simp only [e, a1, Option.bind_some, b1, Option.pure_def]
  · show put u.locks p false q = false
    unfold put
    split
    · rfl
    · rename_i hq
      rw [c2]
      show put s.locks p true q = false
      rw [put_ne _ _ hq]
      exact h2 q
  · exact c6 p (put_self ..)
  · intro x
    show x ∈ u.nodes ↔ _
    rw [b4]
    simp [a4]
  · intro q hq x
    refine b3 q ?_ x
    rw [c2]
    show put s.locks p true q = false
    rw [put_ne _ _ hq]
    exact h2 q

theorem Spread.agree {w : Scenes α} {s t : State α} {p : Plane} (hc : Complete w) (h : Spread w p s t)
    (hp : ∀ x ∈ s.items p, w.drawn p x = true ∧ s.visible p x = true) :
    Agree w t ∧ ∀ x, x ∈ t.nodes ↔ x ∈ s.items p := by
  have hn : ∀ x, x ∈ t.nodes ↔ x ∈ s.items p := fun x => by
    rw [h.nodes]
    exact ⟨And.left, fun hx => ⟨hx, hc p x (hp x hx).1⟩⟩
  refine ⟨fun q x => ?_, hn⟩
  by_cases hq : q = p
  · subst hq
    rw [h.items, hn, h.visible]
    exact ⟨fun hx => ⟨hx, hp x hx⟩, And.left⟩
  · exact h.others q hq x

theorem agree_sound {w : Scenes α} {s : State α} (ho : Open s) (h : Agree w s) : Sound w s :=
  ⟨ho, fun p x hx => (h p x).1 hx⟩

theorem setItem_off {w : Scenes α} {s : State α} {p : Plane} (e : α) : setItem w s p e false =
    if e ∈ s.items p then itemsChanged w { s with items := put s.items p (change (s.items p) e false) } p else some s := by
  rw [setItem]
  by_cases h : e ∈ s.items p <;> simp [h]

/-- Unselecting some items in turn. -/
theorem unselect_spread {w : Scenes α} {p : Plane} (l : List α) : ∀ {s : State α}, Open s →
    (∀ q, q ≠ p → ∀ x ∈ s.items q, x ∈ s.nodes) →
    ∃ t, l.foldlM (fun s e => setItem w s p e false) s = some t ∧
      ((t = s ∧ ∀ x ∈ l, x ∉ s.items p) ∨
        ((∃ x ∈ l, x ∈ s.items p) ∧ ∃ k, (∀ x, x ∈ k ↔ x ∈ s.items p ∧ x ∉ l) ∧
          Spread w p { s with items := put s.items p k } t)) := by
  induction l with
  | nil => intro s _ _; exact ⟨s, rfl, .inl ⟨rfl, by simp⟩⟩
  | cons e rest ih =>
    intro s ho hs
    rw [List.foldlM_cons, setItem_off]
    by_cases he : e ∈ s.items p
    · rw [if_pos he]
      obtain ⟨t, h1, h2⟩ := itemsChanged_spread (w := w) (p := p)
        (s := { s with items := put s.items p (change (s.items p) e false) }) ho (by
          intro q hq x hx
          have hx' : x ∈ put s.items p (change (s.items p) e false) q := hx
          rw [put_ne _ _ hq] at hx'
          exact hs q hq x hx')
      have hti : t.items p = change (s.items p) e false := h2.items.trans (put_self ..)
      obtain ⟨u, g1, g2⟩ := ih (s := t) h2.opened (fun q hq x hx => ((h2.others q hq x).1 hx).1)
      refine ⟨u, by rw [h1]; exact g1, .inr ⟨⟨e, by simp, he⟩, ?_⟩⟩
      rcases g2 with ⟨rfl, hn⟩ | ⟨-, k, hk, hsp⟩
      · refine ⟨_, fun x => ?_, h2⟩
        rw [hti] at hn
        rw [mem_change]
        simp only [Bool.false_eq_true, false_and, false_or, List.mem_cons, not_or]
        constructor
        · rintro ⟨hx, hne⟩
          exact ⟨hx, hne, fun hr => hn x hr (mem_change.2 (.inr ⟨hx, .inr hne⟩))⟩
        · rintro ⟨hx, hne, -⟩
          exact ⟨hx, hne⟩
      · refine ⟨k, fun x => ?_, ⟨hsp.opened, hsp.chain.trans h2.chain, hsp.visible.trans h2.visible, ?_, ?_, hsp.others⟩⟩
        · rw [hk, hti, mem_change]
          simp only [Bool.false_eq_true, false_and, false_or, List.mem_cons, not_or]
          tauto
        · rw [hsp.items]; simp
        · intro x; rw [hsp.nodes]; simp
    · rw [if_neg he]
      obtain ⟨u, g1, g2⟩ := ih ho hs
      refine ⟨u, g1, ?_⟩
      rcases g2 with ⟨rfl, hn⟩ | ⟨⟨y, hy, hy'⟩, k, hk, hsp⟩
      · exact .inl ⟨rfl, fun x hx => by
          rcases List.mem_cons.1 hx with rfl | hx
          · exact he
          · exact hn x hx⟩
      · refine .inr ⟨⟨y, List.mem_cons_of_mem _ hy, hy'⟩, k, fun x => ?_, hsp⟩
        rw [hk, List.mem_cons, not_or]
        constructor
        · rintro ⟨hx, hn⟩; exact ⟨hx, fun h => he (h ▸ hx), hn⟩
        · rintro ⟨hx, -, hn⟩; exact ⟨hx, hn⟩

/-- One action. -/
theorem run_action {w : Scenes α} (hc : Complete w) {s : State α} (h : Sound w s) (a : Action α) :
    ∃ t, a.run w s = some t ∧ Sound w t ∧ (∀ p x, t.visible p x = true ↔ a.sees s p x) ∧ (a.Acts w s → Agree w t ∧ ∀ x, x ∈ t.nodes ↔ a.asks s x) ∧
      (¬ a.Acts w s → t.nodes = s.nodes ∧ t.items = s.items) := by
  have hsub : ∀ p k q, q ≠ p → ∀ x ∈ put s.items p k q, x ∈ s.nodes := by
    intro p k q hq x hx
    rw [put_ne _ _ hq] at hx
    exact (h.sub q x hx).1
  cases a with
  | press p e =>
    show ∃ t, (if w.drawn p e && s.visible p e then setItem w s p e true else some s) = some t ∧ _
    by_cases hd : (w.drawn p e && s.visible p e) = true
    · rw [if_pos hd]
      rw [Bool.and_eq_true] at hd
      rw [setItem]
      by_cases he : e ∈ s.items p
      · simp only [he, hd.2, decide_true, Bool.and_self, if_true]
        exact ⟨s, rfl, h, fun _ _ => Iff.rfl, fun ha => absurd he ha.2.2, fun _ => ⟨rfl, rfl⟩⟩
      · simp only [he, hd.2, decide_false, Bool.and_self, Bool.false_eq_true, if_false]
        obtain ⟨t, h1, h2⟩ := itemsChanged_spread (w := w) (p := p)
          (s := { s with items := put s.items p (change (s.items p) e true) }) h.opened (hsub p _)
        have hm : ∀ x, x ∈ put s.items p (change (s.items p) e true) p ↔ x = e ∨ x ∈ s.items p := fun x => by
          rw [put_self, mem_change]; simp
        obtain ⟨h3, h4⟩ := h2.agree hc (by
          intro x hx
          rcases (hm x).1 hx with rfl | hx
          · exact hd
          · exact (h.sub p x hx).2)
        exact ⟨t, h1, agree_sound h2.opened h3, fun _ _ => by rw [h2.visible]; rfl, fun _ => ⟨h3, fun x => (h4 x).trans (hm x)⟩, fun hn => absurd ⟨hd.1, hd.2, he⟩ hn⟩
    · rw [if_neg hd]
      rw [Bool.and_eq_true] at hd
      exact ⟨s, rfl, h, fun _ _ => Iff.rfl, fun ha => absurd ⟨ha.1, ha.2.1⟩ hd, fun _ => ⟨rfl, rfl⟩⟩
  | away p =>
    show ∃ t, clearItems w s p = some t ∧ _
    rw [clearItems]
    by_cases he : s.items p = []
    · rw [if_pos he]
      exact ⟨s, rfl, h, fun _ _ => Iff.rfl, fun ha => absurd he ha, fun _ => ⟨rfl, rfl⟩⟩
    · rw [if_neg he]
      obtain ⟨t, h1, h2⟩ := itemsChanged_spread (w := w) (p := p) (s := { s with items := put s.items p [] }) h.opened
        (hsub p _)
      obtain ⟨h3, h4⟩ := h2.agree hc (by simp)
      exact ⟨t, h1, agree_sound h2.opened h3, fun _ _ => by rw [h2.visible]; rfl, fun _ => ⟨h3, fun x => (h4 x).trans (by simp [Action.asks])⟩, fun hn => absurd he hn⟩
  | select l =>
    show ∃ t, (if l = s.nodes then some s else nodesChanged w { s with nodes := l }) = some t ∧ _
    by_cases he : l = s.nodes
    · rw [if_pos he]
      exact ⟨s, rfl, h, fun _ _ => Iff.rfl, fun ha => absurd he ha, fun _ => ⟨rfl, rfl⟩⟩
    · rw [if_neg he]
      obtain ⟨o1, o2, o3⟩ := h.opened
      obtain ⟨t, h1, ⟨c1, c2, c3, c4, c5, -⟩, h3, h4⟩ := works w s.chain { s with nodes := l } o1 rfl o3
      have ha : Agree w t := fun p => h4 p (by rw [c2]; exact o2 p)
      exact ⟨t, h1, agree_sound ⟨c1.trans o1, fun p => by rw [c2]; exact o2 p, c4.trans o3⟩ ha, fun _ _ => by rw [c5]; rfl, fun _ => ⟨ha, h3⟩,
        fun hn => absurd he hn⟩
  | mode c => exact ⟨{ s with chain := c }, rfl, ⟨h.opened, h.sub⟩, fun _ _ => Iff.rfl, fun ha => ha.elim, fun _ => ⟨rfl, rfl⟩⟩
  | sight p f =>
    obtain ⟨t, h1, h2⟩ := unselect_spread (w := w) (p := p) ((s.items p).filter fun e => !f e)
      (s := { s with visible := put s.visible p f }) h.opened (fun q _ x hx => (h.sub q x hx).1)
    have hm : ∀ x, x ∈ (s.items p).filter (fun e => !f e) ↔ x ∈ s.items p ∧ f x = false := by simp
    have hput : ∀ q x, put s.visible p f q x = true ↔ (Action.sight p f).sees s q x := by
      intro q x
      show _ ↔ (q = p ∧ f x = true) ∨ (q ≠ p ∧ s.visible q x = true)
      by_cases hq : q = p
      · subst hq; simp
      · simp [put_ne _ _ hq, hq]
    refine ⟨t, h1, ?_⟩
    rcases h2 with ⟨rfl, hn⟩ | ⟨⟨y, hy, -⟩, k, hk, hsp⟩
    · have hv : ∀ x ∈ s.items p, f x = true := fun x hx => by
        by_contra hf
        exact hn x ((hm x).2 ⟨hx, by simpa using hf⟩) hx
      refine ⟨⟨h.opened, fun q x hx => ?_⟩, hput, ?_, fun _ => ⟨rfl, rfl⟩⟩
      · obtain ⟨h1, h2, h3⟩ := h.sub q x hx
        refine ⟨h1, h2, ?_⟩
        show put s.visible p f q x = true
        by_cases hq : q = p
        · subst hq; rw [put_self]; exact hv x hx
        · rw [put_ne _ _ hq]; exact h3
      · rintro ⟨e, he, hf⟩
        rw [hv e he] at hf
        cases hf
    · have hk' : ∀ x, x ∈ k ↔ x ∈ s.items p ∧ f x = true := fun x => by
        rw [hk, hm]
        cases f x <;> simp
      obtain ⟨h3, h4⟩ := hsp.agree hc (by
        intro x hx
        have hx' : x ∈ put s.items p k p := hx
        rw [put_self, hk'] at hx'
        exact ⟨(h.sub p x hx'.1).2.1, by show put s.visible p f p x = true; rw [put_self]; exact hx'.2⟩)
      refine ⟨agree_sound hsp.opened h3, fun q x => by rw [hsp.visible]; exact hput q x, fun _ => ⟨h3, fun x => (h4 x).trans ?_⟩, fun hn => absurd ?_ hn⟩
      · show x ∈ put s.items p k p ↔ _
        rw [put_self, hk']
        rfl
      · exact ⟨y, (hm y).1 hy⟩

theorem run_actions {w : Scenes α} (hc : Complete w) (as : List (Action α)) : ∀ {s : State α}, Sound w s →
    ∃ t, runActions w s as = some t ∧ Sound w t := by
  induction as with
  | nil => intro s h; exact ⟨s, rfl, h⟩
  | cons a rest ih =>
    intro s h
    obtain ⟨t, h1, h2, -⟩ := run_action hc h a
    obtain ⟨u, h3, h4⟩ := ih h2
    exact ⟨u, by rw [runActions, h1]; exact h3, h4⟩

theorem made_sound (w : Scenes α) (visible : Plane → α → Bool) : Sound w (State.made visible) :=
  ⟨⟨rfl, fun _ => rfl, rfl⟩, fun _ _ h => by cases h⟩

theorem reached_sound {w : Scenes α} (hc : Complete w) {s : State α} (h : Reached w s) : Sound w s := by
  obtain ⟨visible, as, h⟩ := h
  obtain ⟨t, h1, h2⟩ := run_actions hc as (made_sound w visible)
  rw [h] at h1
  cases h1
  exact h2

/-- C136: whatever is done to the scenes, they stop telling each other, and none is left refusing to be told. -/
theorem C136_ends (w : Scenes α) (hc : Complete w) (visible : Plane → α → Bool) (as : List (Action α)) :
    ∃ s, runActions w (State.made visible) as = some s ∧ Open s := by
  obtain ⟨s, h1, h2⟩ := run_actions hc as (made_sound w visible)
  exact ⟨s, h1, h2.opened⟩

/-- C136 (partial): after an action that changes the selection of the view it is done in, the selection of that view is that of
the processing view, and the views agree; any other action changes no selection. Missing: the views agree at any time, see
`C136_false`. -/
theorem C136_follow_partial (w : Scenes α) (hc : Complete w) (s t : State α) (h : Reached w s) (a : Action α)
    (ht : a.run w s = some t) : (∀ p x, t.visible p x = true ↔ a.sees s p x) ∧
      (a.Acts w s → Agree w t ∧ ∀ x, x ∈ t.nodes ↔ a.asks s x) ∧
      (¬ a.Acts w s → t.nodes = s.nodes ∧ t.items = s.items) := by
  obtain ⟨t', h1, -, h2, h3, h4⟩ := run_action hc (reached_sound hc h) a
  rw [ht] at h1
  cases h1
  exact ⟨h2, h3, h4⟩

/-- Three lines: 0 of axis X, 1 of axis Y, 2 of axis Z, and an edge 3 of the plane XY. -/
def threeLines : Scenes Nat where
  node := fun n => decide (n < 4)
  drawn := fun
    | .xy, n => decide (n = 0 ∨ n = 1 ∨ n = 3)
    | .yz, n => decide (n = 1 ∨ n = 2)
    | .zx, n => decide (n = 2 ∨ n = 0)

theorem threeLines_complete : Complete threeLines := by
  rintro (_ | _ | _) e h <;> simp [threeLines] at h ⊢ <;> omega

example : ∃ s t, Reached threeLines s ∧ (Action.press Plane.yz 1).Acts threeLines s ∧ 2 ∈ s.items .yz ∧
    (Action.press Plane.yz 1).run threeLines s = some t ∧ 2 ∈ t.items .zx ∧ 1 ∈ t.items .xy ∧ 0 ∉ t.nodes := by
  obtain ⟨t, g1, g2, gv, g3, -⟩ := run_action threeLines_complete (made_sound threeLines fun _ _ => true) (.select [0, 2])
  obtain ⟨g3, g4⟩ := g3 (by simp [Action.Acts, State.made])
  have hvis : ∀ p x, t.visible p x = true := fun p x => (gv p x).2 rfl
  have ha : (Action.press Plane.yz 1).Acts threeLines t := by
    refine ⟨by decide, hvis _ _, fun h => ?_⟩
    have := (g4 1).1 ((g3 _ _).1 h).1
    simp [Action.asks] at this
  obtain ⟨u, e1, e2, ev, e3, -⟩ := run_action threeLines_complete g2 (.press .yz 1)
  obtain ⟨e3, e4⟩ := e3 ha
  have h2t : 2 ∈ t.items .yz := (g3 _ _).2 ⟨(g4 2).2 (by simp [Action.asks]), by decide, hvis _ _⟩
  refine ⟨t, u, ⟨_, [.select [0, 2]], by rw [runActions, g1]; rfl⟩, ha, h2t, e1, ?_, ?_, ?_⟩
  · exact (e3 _ _).2 ⟨(e4 2).2 (.inr h2t), by decide, (ev _ _).2 (hvis _ _)⟩
  · exact (e3 _ _).2 ⟨(e4 1).2 (.inl rfl), by decide, (ev _ _).2 (hvis _ _)⟩
  · intro h
    rcases (e4 0).1 h with h | h
    · cases h
    · exact absurd (g2.sub _ _ h).2.1 (by decide)

/-- C136 is false of lines shown after they were selected in another view: line 0 is hidden in the plane XY, selected in the
processing view, then shown, and is not selected in the plane XY. -/
theorem C136_false : ∃ (w : Scenes Nat) (s : State Nat), Complete w ∧ Reached w s ∧ ¬ Agree w s := by
  obtain ⟨t, g1, g2, gv, g3, -⟩ := run_action threeLines_complete (made_sound threeLines fun _ _ => false) (.select [0])
  obtain ⟨g3, g4⟩ := g3 (by simp [Action.Acts, State.made])
  have h0 : ∀ x, x ∉ t.items .xy := fun x hx => by
    have := (gv .xy x).1 ((g3 _ _).1 hx).2.2
    cases this
  obtain ⟨u, e1, e2, ev, -, e3⟩ := run_action threeLines_complete g2 (.sight .xy fun _ => true)
  obtain ⟨e3, e4⟩ := e3 (by rintro ⟨e, he, -⟩; exact h0 e he)
  refine ⟨threeLines, u, threeLines_complete, ⟨fun _ _ => false, [.select [0], .sight .xy fun _ => true], ?_⟩, fun h => ?_⟩
  · simp only [runActions, g1, e1, Option.bind_eq_bind, Option.bind_some]
  · have := (h .xy 0).2 ⟨by rw [e3]; exact (g4 0).2 (by simp [Action.asks]), by decide, (ev _ _).2 (.inl ⟨rfl, rfl⟩)⟩
    rw [e4] at this
    exact h0 0 this

/-- C137 (partial): other items being visible in a view, if no item selected there is hidden then no selection changes; and if
all that is selected is seen in the view, exactly what it hides is unselected, everywhere. Missing: what is selected and not to
be seen in the view, see `C137_false`. -/
theorem C137_hide_partial (w : Scenes α) (hc : Complete w) (s t : State α) (h : Reached w s) (p : Plane) (f : α → Bool)
    (ht : (Action.sight p f).run w s = some t) :
    ((∀ e ∈ s.items p, f e = true) → t.nodes = s.nodes ∧ t.items = s.items) ∧
    ((∀ e ∈ s.nodes, e ∈ s.items p) → (∃ e ∈ s.items p, f e = false) →
      (∀ x, x ∈ t.nodes ↔ x ∈ s.nodes ∧ f x = true) ∧
      (∀ x, x ∈ t.items p ↔ x ∈ s.items p ∧ f x = true) ∧
      ∀ q x, q ≠ p → (x ∈ t.items q ↔ x ∈ s.nodes ∧ f x = true ∧ w.drawn q x = true ∧ s.visible q x = true)) := by
  obtain ⟨hv, h1, h2⟩ := C136_follow_partial w hc s t h _ ht
  refine ⟨fun hf => h2 ?_, fun hall hex => ?_⟩
  · rintro ⟨e, he, hfe⟩
    rw [hf e he] at hfe
    cases hfe
  · obtain ⟨ha, hn⟩ := h1 hex
    have hs := reached_sound hc h
    have hn' : ∀ x, x ∈ t.nodes ↔ x ∈ s.items p ∧ f x = true := hn
    have hin : ∀ x, x ∈ s.items p ↔ x ∈ s.nodes := fun x => ⟨fun hx => (hs.sub p x hx).1, hall x⟩
    refine ⟨fun x => by rw [hn', hin], fun x => ?_, fun q x hq => ?_⟩
    · rw [ha p x, hn', hv]
      constructor
      · exact And.left
      · intro hx; exact ⟨hx, (hs.sub p x hx.1).2.1, .inl ⟨rfl, hx.2⟩⟩
    · rw [ha q x, hn', hv, hin]
      show (_ ∧ _ ∧ ((q = p ∧ _) ∨ (q ≠ p ∧ _))) ↔ _
      tauto

/-- C137 is false of what the view does not show: lines 0 of axis X and 2 of axis Z are selected; hiding the lines of axis X in
the plane XY, which has no line of axis Z, unselects both. -/
theorem C137_false : ∃ (w : Scenes Nat) (s t : State Nat) (f : Nat → Bool), Complete w ∧ Reached w s ∧ Agree w s ∧
    (Action.sight .xy f).run w s = some t ∧ f 2 = true ∧ 2 ∈ s.nodes ∧ w.drawn .xy 2 = false ∧ 2 ∈ s.items .yz ∧
    2 ∉ t.nodes ∧ 2 ∉ t.items .yz := by
  obtain ⟨t, g1, g2, gv, g3, -⟩ := run_action threeLines_complete (made_sound threeLines fun _ _ => true) (.select [0, 2])
  obtain ⟨g3, g4⟩ := g3 (by simp [Action.Acts, State.made])
  have hvis : ∀ p x, t.visible p x = true := fun p x => (gv p x).2 rfl
  have h2 : 2 ∈ t.nodes := (g4 2).2 (by simp [Action.asks])
  have h0 : 0 ∈ t.items .xy := (g3 _ _).2 ⟨(g4 0).2 (by simp [Action.asks]), by decide, hvis _ _⟩
  obtain ⟨u, e1, e2, ev, e3, -⟩ := run_action threeLines_complete g2 (.sight .xy fun n => decide (n ≠ 0))
  obtain ⟨e3, e4⟩ := e3 ⟨0, h0, rfl⟩
  have hn : 2 ∉ u.nodes := fun h => by
    have : 2 ∈ t.items .xy := ((e4 2).1 h).1
    exact absurd ((g3 _ _).1 this).2.1 (by decide)
  exact ⟨threeLines, t, u, _, threeLines_complete, ⟨_, [.select [0, 2]], by rw [runActions, g1]; rfl⟩, g3, e1, rfl, h2, rfl,
    (g3 _ _).2 ⟨h2, by decide, hvis _ _⟩, hn, fun h => hn (e2.sub _ _ h).1⟩

example : ∃ s : State Nat, Reached threeLines s ∧ (∀ e ∈ s.nodes, e ∈ s.items .xy) ∧ 0 ∈ s.items .xy ∧ 3 ∈ s.items .xy := by
  obtain ⟨t, g1, g2, gv, g3, -⟩ := run_action threeLines_complete (made_sound threeLines fun _ _ => true) (.select [0, 3])
  obtain ⟨g3, g4⟩ := g3 (by simp [Action.Acts, State.made])
  have hvis : ∀ p x, t.visible p x = true := fun p x => (gv p x).2 rfl
  have key : ∀ x, x = 0 ∨ x = 3 → x ∈ t.items .xy := by
    rintro x (rfl | rfl)
    · exact (g3 _ _).2 ⟨(g4 0).2 (by simp [Action.asks]), by decide, hvis _ _⟩
    · exact (g3 _ _).2 ⟨(g4 3).2 (by simp [Action.asks]), by decide, hvis _ _⟩
  refine ⟨t, ⟨_, [.select [0, 3]], by rw [runActions, g1]; rfl⟩, fun e he => key e ?_, key 0 (.inl rfl), key 3 (.inr rfl)⟩
  simpa [Action.asks] using (g4 e).1 he

end Verif.Sync
