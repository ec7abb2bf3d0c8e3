import Verif.Spec.Sync

namespace Verif.Sync
open Verif.Geom (Plane)
open Spec
variable {α : Type} [DecidableEq α]

@[simp] theorem put_self {β : Type} (f : Plane → β) (p : Plane) (v : β) : put f p v p = v := by simp [put]

theorem put_ne {β : Type} (f : Plane → β) {p q : Plane} (v : β) (h : q ≠ p) : put f p v q = f q := by simp [put, h]

theorem put_eq {β : Type} {f : Plane → β} {p : Plane} {v : β} (h : f p = v) : put f p v = f := by
  funext q; unfold put; split
  · rename_i e; rw [e, h]
  · rfl

theorem put_put {β : Type} (f : Plane → β) (p : Plane) (u v : β) : put (put f p u) p v = put f p v := by
  funext q; unfold put; split <;> rfl

theorem mem_change {l : List α} {e : α} {v : Bool} {x : α} :
    x ∈ change l e v ↔ (v = true ∧ x = e) ∨ (x ∈ l ∧ (v = true ∨ x ≠ e)) := by
  cases v <;> simp [change] <;> tauto

/-! While the processing scene is locked, the structure scenes do not tell it anything. -/

theorem itemsChanged_locked {w : Scenes α} {s : State α} {p : Plane} (h : s.lock = true) (hp : s.locks p = false) :
    itemsChanged w s p = some s := by
  obtain ⟨n, i, l, ls, c, k, v⟩ := s
  obtain rfl : l = true := h
  rw [itemsChanged, nodesCounterparts]
  simp only [if_true, Option.bind_eq_bind, Option.bind_some, Option.pure_def, put_put]
  rw [put_eq hp]

theorem setItem_locked {w : Scenes α} {s : State α} {p : Plane} (e : α) (h : s.lock = true) (hp : s.locks p = false)
    (hv : ∀ x ∈ s.items p, s.visible p x = true) :
    ∃ l, setItem w s p e true = some { s with items := put s.items p l } ∧
      ∀ x, x ∈ l ↔ x ∈ s.items p ∨ (x = e ∧ s.visible p e = true) := by
  rw [setItem]
  split
  · rename_i hd
    refine ⟨s.items p, by rw [put_eq rfl], fun x => ⟨Or.inl, ?_⟩⟩
    rintro (h | ⟨rfl, h⟩)
    · exact h
    · simpa [h] using hd
  · rename_i hd
    refine ⟨_, itemsChanged_locked h hp, fun x => ?_⟩
    rw [mem_change]
    by_cases he : s.visible p e = true
    · simp [he]; tauto
    · have hne : e ∉ s.items p := fun h => he (hv e h)
      simp [he, hne] at hd

theorem clearItems_locked {w : Scenes α} {s : State α} {p : Plane} (h : s.lock = true) (hp : s.locks p = false) :
    clearItems w s p = some { s with items := put s.items p [] } := by
  rw [clearItems]
  split
  · rename_i he; rw [put_eq he]
  · exact itemsChanged_locked h hp

theorem foldItems_locked {w : Scenes α} {p : Plane} (l : List α) : ∀ {s : State α}, s.lock = true → s.locks p = false →
    (∀ x ∈ s.items p, s.visible p x = true) →
    ∃ k, l.foldlM (fun s e => if w.drawn p e then setItem w s p e true else some s) s =
        some { s with items := put s.items p k } ∧
      ∀ x, x ∈ k ↔ x ∈ s.items p ∨ (x ∈ l ∧ w.drawn p x = true ∧ s.visible p x = true) := by
  induction l with
  | nil => intro s _ _ _; exact ⟨s.items p, by rw [put_eq rfl]; rfl, by simp⟩
  | cons e rest ih =>
    intro s h hp hv
    rw [List.foldlM_cons]
    by_cases hd : w.drawn p e = true
    · obtain ⟨k, hk, hm⟩ := setItem_locked (w := w) e h hp hv
      simp only [hd, if_true, hk, Option.bind_eq_bind, Option.bind_some]
      obtain ⟨k', hk', hm'⟩ := ih (s := { s with items := put s.items p k }) h hp (by
        intro x hx
        simp only [put_self, hm] at hx
        rcases hx with hx | ⟨rfl, hx⟩
        · exact hv x hx
        · exact hx)
      refine ⟨k', by rw [hk']; simp only [put_put], fun x => ?_⟩
      rw [hm']
      simp only [put_self, hm, List.mem_cons]
      constructor
      · rintro ((hx | ⟨rfl, hx⟩) | ⟨h1, h2⟩)
        · exact .inl hx
        · exact .inr ⟨.inl rfl, hd, hx⟩
        · exact .inr ⟨.inr h1, h2⟩
      · rintro (hx | ⟨rfl | h1, h2, h3⟩)
        · exact .inl (.inl hx)
        · exact .inl (.inr ⟨rfl, h3⟩)
        · exact .inr ⟨h1, h2, h3⟩
    · simp only [hd, Bool.false_eq_true, if_false, Option.bind_eq_bind, Option.bind_some]
      obtain ⟨k', hk', hm'⟩ := ih h hp hv
      refine ⟨k', hk', fun x => ?_⟩
      rw [hm', List.mem_cons]
      constructor
      · rintro (hx | ⟨h1, h2⟩)
        · exact .inl hx
        · exact .inr ⟨.inr h1, h2⟩
      · rintro (hx | ⟨rfl | h1, h2, h3⟩)
        · exact .inl hx
        · exact absurd h2 hd
        · exact .inr ⟨h1, h2, h3⟩

/-- What a structure scene has after it was told of a selection. -/
def Heard (w : Scenes α) (s : State α) (p : Plane) (l k : List α) : Prop :=
  if s.locks p = true then k = s.items p else ∀ x, x ∈ k ↔ x ∈ l ∧ w.drawn p x = true ∧ s.visible p x = true

theorem itemsCounterparts_locked {w : Scenes α} {s : State α} (p : Plane) (l : List α) (h : s.lock = true) :
    ∃ k, itemsCounterparts w s p l = some { s with items := put s.items p k } ∧ Heard w s p l k := by
  rw [itemsCounterparts]
  by_cases hp : s.locks p = true
  · exact ⟨s.items p, by rw [put_eq rfl, if_pos hp], by rw [Heard, if_pos hp]⟩
  · have hp' : s.locks p = false := by simpa using hp
    rw [if_neg hp, clearItems_locked h hp']
    simp only [Option.bind_eq_bind, Option.bind_some]
    obtain ⟨k, hk, hm⟩ := foldItems_locked (w := w) (p := p) l (s := { s with items := put s.items p [] }) h hp' (by simp)
    refine ⟨k, by rw [hk]; simp only [put_put], ?_⟩
    rw [Heard, if_neg hp]
    intro x
    rw [hm]
    simp

theorem emit_locked {w : Scenes α} {s : State α} (l : List α) (h : s.lock = true) :
    ∃ f, [Plane.yz, Plane.zx, Plane.xy].foldlM (fun s p => itemsCounterparts w s p l) s = some { s with items := f } ∧
      ∀ p, Heard w s p l (f p) := by
  obtain ⟨a, ha, ha'⟩ := itemsCounterparts_locked (w := w) (s := s) .yz l h
  obtain ⟨b, hb, hb'⟩ := itemsCounterparts_locked (w := w) (s := { s with items := put s.items .yz a }) .zx l h
  obtain ⟨c, hc, hc'⟩ := itemsCounterparts_locked (w := w)
    (s := { s with items := put (put s.items .yz a) .zx b }) .xy l h
  refine ⟨put (put (put s.items .yz a) .zx b) .xy c, ?_, ?_⟩
  · simp only [List.foldlM_cons, List.foldlM_nil, ha, hb, hc, Option.bind_eq_bind, Option.bind_some, Option.pure_def]
  · simp only [Heard] at *
    rintro (_ | _ | _) <;> simp_all [put]

/-- What stays while the scenes tell each other. -/
def Same (s t : State α) : Prop :=
  t.lock = s.lock ∧ t.locks = s.locks ∧ t.chain = s.chain ∧ t.chainLock = s.chainLock ∧ t.visible = s.visible ∧
    ∀ p, s.locks p = true → t.items p = s.items p

theorem Same.refl (s : State α) : Same s s := ⟨rfl, rfl, rfl, rfl, rfl, fun _ _ => rfl⟩

theorem Same.trans {s t u : State α} (h : Same s t) (g : Same t u) : Same s u := by
  obtain ⟨h1, h2, h3, h4, h5, h6⟩ := h
  obtain ⟨g1, g2, g3, g4, g5, g6⟩ := g
  exact ⟨g1.trans h1, g2.trans h2, g3.trans h3, g4.trans h4, g5.trans h5,
    fun p hp => (g6 p (by rw [h2]; exact hp)).trans (h6 p hp)⟩

/-- The structure scenes that listen have what the processing scene has. -/
def Told (w : Scenes α) (s : State α) : Prop :=
  ∀ p, s.locks p = false → ∀ x, x ∈ s.items p ↔ x ∈ s.nodes ∧ w.drawn p x = true ∧ s.visible p x = true

/-- `nodesChanged` tells the other scenes, in this mode. -/
def Works (w : Scenes α) (c k : Bool) : Prop :=
  ∀ s : State α, s.lock = false → s.chain = c → s.chainLock = k →
    ∃ t, nodesChanged w s = some t ∧ Same s t ∧ (∀ x, x ∈ t.nodes ↔ x ∈ s.nodes) ∧ Told w t

theorem emit_told {w : Scenes α} {s : State α} (h : s.lock = false) :
    ∃ f, [Plane.yz, Plane.zx, Plane.xy].foldlM (fun t p => itemsCounterparts w t p s.nodes) { s with lock := true } =
        some { s with lock := true, items := f } ∧ Same s { s with items := f } ∧ Told w { s with items := f } := by
  obtain ⟨f, hf, hh⟩ := emit_locked (w := w) (s := { s with lock := true }) s.nodes rfl
  refine ⟨f, hf, ⟨rfl, rfl, rfl, rfl, rfl, fun p hp => ?_⟩, fun p hp => ?_⟩
  · have := hh p
    simp only [Heard, hp, if_true] at this
    exact this
  · have := hh p
    have hp' : s.locks p = false := hp
    simp only [Heard, hp', Bool.false_eq_true, if_false] at this
    exact this

theorem works_quiet (w : Scenes α) {c k : Bool} (hck : (c && !k) = false) : Works w c k := by
  rintro s h rfl rfl
  obtain ⟨f, hf, h1, h2⟩ := emit_told (w := w) h
  refine ⟨{ s with items := f }, ?_, h1, fun _ => Iff.rfl, h2⟩
  rw [nodesChanged]
  simp only [Option.bind_eq_bind, hf, Option.bind_some, hck, Bool.false_eq_true, if_false, Option.pure_def]
  rw [← h]

theorem setNode_works {w : Scenes α} {c k : Bool} (hw : Works w c k) {s : State α} (h : s.lock = false) (hc : s.chain = c)
    (hk : s.chainLock = k) (ht : Told w s) (e : α) (v : Bool) :
    ∃ t, setNode w s e v = some t ∧ Same s t ∧ Told w t ∧
      ∀ x, x ∈ t.nodes ↔ (v = true ∧ x = e) ∨ (x ∈ s.nodes ∧ (v = true ∨ x ≠ e)) := by
  rw [setNode]
  split
  · rename_i hd
    refine ⟨s, rfl, .refl s, ht, fun x => ?_⟩
    cases v
    · simp only [decide_eq_false_iff_not] at hd
      constructor
      · intro hx; exact .inr ⟨hx, .inr fun e => hd (e ▸ hx)⟩
      · rintro (⟨h, -⟩ | ⟨h, -⟩)
        · cases h
        · exact h
    · simp only [decide_eq_true_eq] at hd
      constructor
      · intro hx; exact .inr ⟨hx, .inl rfl⟩
      · rintro (⟨-, rfl⟩ | ⟨h, -⟩)
        · exact hd
        · exact h
  · obtain ⟨t, h1, h2, h3, h4⟩ := hw { s with nodes := change s.nodes e v } h hc hk
    exact ⟨t, h1, h2, h4, fun x => by rw [h3, mem_change]⟩

theorem clearNodes_works {w : Scenes α} {c k : Bool} (hw : Works w c k) {s : State α} (h : s.lock = false) (hc : s.chain = c)
    (hk : s.chainLock = k) (ht : s.nodes = [] → Told w s) :
    ∃ t, clearNodes w s = some t ∧ Same s t ∧ Told w t ∧ ∀ x, x ∉ t.nodes := by
  rw [clearNodes]
  split
  · rename_i hd
    exact ⟨s, rfl, .refl s, ht hd, by simp [hd]⟩
  · obtain ⟨t, h1, h2, h3, h4⟩ := hw { s with nodes := [] } h hc hk
    exact ⟨t, h1, h2, h4, fun x => by rw [h3]; simp⟩

theorem unselect_works {w : Scenes α} {c k : Bool} (hw : Works w c k) (l : List α) : ∀ {s : State α}, s.lock = false →
    s.chain = c → s.chainLock = k → Told w s →
    ∃ t, l.foldlM (fun s e => setNode w s e false) s = some t ∧ Same s t ∧ Told w t := by
  induction l with
  | nil => intro s _ _ _ ht; exact ⟨s, rfl, .refl s, ht⟩
  | cons e rest ih =>
    intro s h hc hk ht
    obtain ⟨t, h1, h2, h3, -⟩ := setNode_works hw h hc hk ht e false
    obtain ⟨u, g1, g2, g3⟩ := ih (h2.1.trans h) (h2.2.2.1.trans hc) (h2.2.2.2.1.trans hk) h3
    exact ⟨u, by rw [List.foldlM_cons, h1]; exact g1, h2.trans g2, g3⟩

theorem selectNodes_works {w : Scenes α} {c k : Bool} (hw : Works w c k) (g : α → Bool) (l : List α) :
    ∀ {s : State α}, s.lock = false → s.chain = c → s.chainLock = k → Told w s →
    ∃ t, l.foldlM (fun s e => if g e then setNode w s e true else some s) s = some t ∧ Same s t ∧ Told w t ∧
      ∀ x, x ∈ t.nodes ↔ x ∈ s.nodes ∨ (x ∈ l ∧ g x = true) := by
  induction l with
  | nil => intro s _ _ _ ht; exact ⟨s, rfl, .refl s, ht, by simp⟩
  | cons e rest ih =>
    intro s h hc hk ht
    by_cases hg : g e = true
    · obtain ⟨t, h1, h2, h3, h4⟩ := setNode_works hw h hc hk ht e true
      obtain ⟨u, g1, g2, g3, g4⟩ := ih (h2.1.trans h) (h2.2.2.1.trans hc) (h2.2.2.2.1.trans hk) h3
      refine ⟨u, by rw [List.foldlM_cons, if_pos hg, h1]; exact g1, h2.trans g2, g3, fun x => ?_⟩
      rw [g4, h4, List.mem_cons]
      constructor
      · rintro ((⟨-, rfl⟩ | ⟨hx, -⟩) | ⟨h1, h2⟩)
        · exact .inr ⟨.inl rfl, hg⟩
        · exact .inl hx
        · exact .inr ⟨.inr h1, h2⟩
      · rintro (hx | ⟨rfl | h1, h2⟩)
        · exact .inl (.inr ⟨hx, .inl rfl⟩)
        · exact .inl (.inl ⟨rfl, rfl⟩)
        · exact .inr ⟨h1, h2⟩
    · obtain ⟨u, g1, g2, g3, g4⟩ := ih h hc hk ht
      refine ⟨u, by rw [List.foldlM_cons, if_neg hg]; exact g1, g2, g3, fun x => ?_⟩
      rw [g4, List.mem_cons]
      constructor
      · rintro (hx | ⟨h1, h2⟩)
        · exact .inl hx
        · exact .inr ⟨.inr h1, h2⟩
      · rintro (hx | ⟨rfl | h1, h2⟩)
        · exact .inl hx
        · exact absurd h2 hg
        · exact .inr ⟨h1, h2⟩

theorem works (w : Scenes α) (c : Bool) : Works w c false := by
  cases c
  · exact works_quiet w rfl
  rintro ⟨n, i, l, ls, ch, ck, vi⟩ h hc hk
  obtain rfl : l = false := h
  obtain rfl : ch = true := hc
  obtain rfl : ck = false := hk
  generalize hs : (⟨n, i, false, ls, true, false, vi⟩ : State α) = s
  have h : s.lock = false := by rw [← hs]
  have hc : s.chain = true := by rw [← hs]
  have hk : s.chainLock = false := by rw [← hs]
  have hq : Works w true true := works_quiet w rfl
  obtain ⟨f, hf, h1, h2⟩ := emit_told (w := w) h
  obtain ⟨t, a1, a2, a3⟩ := unselect_works hq s.nodes (s := { s with items := f, chainLock := true }) h hc rfl h2
  obtain ⟨u, b1, b2, b3, b4⟩ := clearNodes_works hq (s := t) (a2.1.trans h) (a2.2.2.1.trans hc) a2.2.2.2.1 (fun _ => a3)
  obtain ⟨v, c1, c2, c3, c4⟩ := selectNodes_works hq (fun _ => true) s.nodes (s := u) (b2.1.trans (a2.1.trans h))
    (b2.2.2.1.trans (a2.2.2.1.trans hc)) (b2.2.2.2.1.trans a2.2.2.2.1) b3
  have hz := (a2.trans b2).trans c2
  refine ⟨{ v with chainLock := false }, ?_, ?_, ?_, c3⟩
  · rw [nodesChanged]
    simp only [if_true] at c1
    subst hs
    simp only [Option.bind_eq_bind] at hf ⊢
    simp only [hf, Option.bind_some, Bool.not_false, Bool.and_self, if_true, Option.pure_def, a1, b1, c1]
  · exact ⟨hz.1, hz.2.1, hz.2.2.1, hk.symm, hz.2.2.2.2.1, fun p hp => (hz.2.2.2.2.2 p hp).trans (h1.2.2.2.2.2 p hp)⟩
  · intro x
    show x ∈ v.nodes ↔ _
    rw [c4]
    simp [b4]

end Verif.Sync
