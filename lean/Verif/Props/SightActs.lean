import Verif.Props.Sight

/-! C123, C124: the actions on the processing view. -/

namespace Verif.Graph
open Spec
open Verif.Geom (Plane Axis ViewAxis transposeAxis)

variable {b : Board} {ws : List Wire} {c : Entity → List Entity}

theorem shown_congr {s s' : Sight} (hs : Nearly c s.looks) (hs' : Nearly c s'.looks) (hh : s'.hidden = s.hidden)
    (hsel : s'.looks.selected = s.looks.selected) (h : Shown b s) : Shown b s' := by
  intro m hm
  have : ∀ x, s'.looks.lit x = true ↔ s.looks.lit x = true := fun x => by rw [lit_iff hs', lit_iff hs, hsel]
  rw [hh, h m hm, hsel]
  simp only [this]

theorem notify_ok (ho : Own b) (hc : ∀ n, chain b ws n = some (c n)) {s : Sight} (hs : Nearly c s.looks)
    (hb : ∀ m, s.looks.selected m = true → m ∈ b.nodes) :
    ∃ s', notify b ws s = some s' ∧ Nearly c s'.looks ∧ s'.looks.selected = s.looks.selected ∧ Same s s'
      ∧ (s.mode = .selectedChain → Consistent c s'.looks ∧ Shown b s') ∧ (s.mode ≠ .selectedChain → s' = s) := by
  by_cases hm : s.mode = .selectedChain
  · obtain ⟨s', h1, h2, h3, h4, h5⟩ := displaySelectedChain_ok ho hc hs hb
    exact ⟨s', by rw [notify, if_pos hm, h1], h2.nearly, h3, h4, fun _ => ⟨h2, h5⟩, fun h => absurd hm h⟩
  · exact ⟨s, by rw [notify, if_neg hm], hs, rfl, .refl s, fun h => absurd h hm, fun _ => rfl⟩

theorem selectChild_ok (ho : Own b) (hc : ∀ n, chain b ws n = some (c n)) {s : Sight} (hs : Nearly c s.looks)
    (hb : ∀ m, s.looks.selected m = true → m ∈ b.nodes) (n : Entity) (v : Bool) :
    ∃ s', selectChild b ws s n v = some s' ∧ Nearly c s'.looks ∧ s'.looks.selected = s.looks.selected ∧ Same s s'
      ∧ (s.mode ≠ .selectedChain → s'.hidden = s.hidden ∧ s'.looks.childSelected = put s.looks.childSelected n v)
      ∧ (s.mode = .selectedChain → s' = s ∨ Consistent c s'.looks ∧ Shown b s') := by
  by_cases h : s.looks.childSelected n = v
  · refine ⟨s, by rw [selectChild, if_pos h], hs, rfl, .refl s, fun _ => ⟨rfl, ?_⟩, fun _ => .inl rfl⟩
    funext m
    by_cases hm : m = n
    · subst hm; simp [put, h]
    · simp [put, hm]
  · obtain ⟨s', h1, h2, h3, h4, h5, h6⟩ := notify_ok ho hc
      (s := { s with looks := { s.looks with childSelected := put s.looks.childSelected n v } }) (hs.child _) hb
    refine ⟨s', by rw [selectChild, if_neg h, h1], h2, h3, h4, fun hm => ?_, fun hm => .inr (h5 hm)⟩
    rw [h6 hm]
    exact ⟨rfl, rfl⟩

theorem put_self {α : Type} (f : Entity → α) {n : Entity} {v : α} (h : f n = v) : put f n v = f := by
  funext m
  by_cases hm : m = n
  · subst hm; simp [put, h]
  · simp [put, hm]

theorem select_ok (ho : Own b) (hc : ∀ n, chain b ws n = some (c n)) {s : Sight} (hs : Consistent c s.looks)
    (hb : ∀ m, s.looks.selected m = true → m ∈ b.nodes) (n : Entity) (v : Bool) (hn : v = true → n ∈ b.nodes) :
    ∃ s', select b ws s n v = some s' ∧ Consistent c s'.looks ∧ Same s s'
      ∧ s'.looks.selected = put s.looks.selected n (v && isVisible b s.hidden n)
      ∧ (s.looks.selected n = (v && isVisible b s.hidden n) → s' = s)
      ∧ (s.mode ≠ .selectedChain → s'.hidden = s.hidden)
      ∧ (s.mode = .selectedChain → s.looks.selected n ≠ (v && isVisible b s.hidden n) → Shown b s') := by
  simp only [select]
  have hn' : (v && isVisible b s.hidden n) = true → n ∈ b.nodes := fun h => hn (by simp at h; exact h.1)
  generalize (v && isVisible b s.hidden n) = w at *
  by_cases hv : s.looks.selected n = w
  · rw [if_pos hv]
    exact ⟨s, rfl, hs, .refl s, (put_self _ hv).symm, fun _ => rfl, fun _ => rfl, fun _ h => absurd hv h⟩
  · rw [if_neg hv]
    generalize hs0 : (if w = true then setHighlighted s.looks n false n else s.looks) = l0
    have n0 : Nearly c l0 ∧ l0.selected = s.looks.selected ∧ l0.childSelected = s.looks.childSelected := by
      subst hs0
      split
      · rename_i hvt
        exact ⟨unlight_nearly hs.nearly (by simpa [hvt] using hv), rfl, rfl⟩
      · exact ⟨hs.nearly, rfl, rfl⟩
    obtain ⟨n1, n2, n3⟩ := n0
    obtain ⟨s1, h1, h2, h3, h4, h5, -⟩ := selectChild_ok ho hc (s := { s with looks := l0 }) n1 (by simpa [n2] using hb) n w
    obtain ⟨k1, k2, k3⟩ := light_nearly h2 n w
    have hsel1 : s1.looks.selected = s.looks.selected := h3.trans n2
    obtain ⟨s2, j1, j2, j3, j4, j5, j6⟩ := notify_ok ho hc (s := { s1 with
        looks := { highlightAll w n s1.looks (c n) with selected := put (highlightAll w n s1.looks (c n)).selected n w } })
      (by rw [k3]; exact k1)
      (by
        intro m hm
        have hm : put (highlightAll w n s1.looks (c n)).selected n w m = true := hm
        rw [k3, hsel1] at hm
        by_cases h : m = n
        · subst h; exact hn' (by simpa [put] using hm)
        · exact hb m (by simpa [put, h] using hm))
    have hsame : Same s s2 := Same.trans (t := s1) h4 j4
    refine ⟨s2, ?_, ?_, hsame, ?_, fun h => absurd h hv, fun hm => ?_, fun hm _ => (j5 (h4.1.trans hm)).2⟩
    · simp only [h1, hc, Option.bind_eq_bind, Option.bind_some]
      rw [if_neg (by rw [k3, hsel1]; exact hv)]
      exact j1
    · by_cases hm : s.mode = .selectedChain
      · exact (j5 (h4.1.trans hm)).1
      · have := j6 (fun h => hm (h4.1.symm.trans h))
        subst this
        refine j2.consistent fun m => ?_
        show (highlightAll w n s1.looks (c n)).childSelected m = put (highlightAll w n s1.looks (c n)).selected n w m
        rw [k2, (h5 hm).2, k3, hsel1]
        show put l0.childSelected n w m = _
        rw [n3]
        by_cases h : m = n
        · simp [put, h]
        · simp [put, h, hs.2.2.2 m]
    · rw [j3]
      show put (highlightAll w n s1.looks (c n)).selected n w = _
      rw [k3, hsel1]
    · have := j6 (fun h => hm (h4.1.symm.trans h))
      subst this
      exact (h5 hm).1

theorem deselectEach_ok (ho : Own b) (hc : ∀ n, chain b ws n = some (c n)) (l : List Entity) {s : Sight}
    (hs : Consistent c s.looks) (hb : ∀ m, s.looks.selected m = true → m ∈ b.nodes) :
    ∃ s', selectEach b ws false s l = some s' ∧ Consistent c s'.looks ∧ Same s s'
      ∧ (∀ m, s'.looks.selected m = true ↔ s.looks.selected m = true ∧ m ∉ l)
      ∧ (s.mode ≠ .selectedChain → s'.hidden = s.hidden)
      ∧ (s.mode = .selectedChain → s' = s ∨ Shown b s') := by
  induction l generalizing s with
  | nil => exact ⟨s, rfl, hs, .refl s, by simp, fun _ => rfl, fun _ => .inl rfl⟩
  | cons n l ih =>
    obtain ⟨s1, h1, h2, h3, h4, h5, h6, h7⟩ := select_ok ho hc hs hb n false (by simp)
    simp only [Bool.false_and] at h4 h5 h7
    obtain ⟨s2, k1, k2, k3, k4, k5, k6⟩ := ih h2 (fun m hm => by
      rw [h4] at hm
      by_cases h : m = n
      · simp [put, h] at hm
      · exact hb m (by simpa [put, h] using hm))
    refine ⟨s2, by simp [selectEach, h1, k1], k2, h3.trans k3, fun m => ?_, fun hm => ?_, fun hm => ?_⟩
    · rw [k4, h4]
      by_cases h : m = n <;> simp [put, h]
    · rw [k5 (by rw [h3.1]; exact hm), h6 hm]
    · rcases k6 (by rw [h3.1]; exact hm) with h | h
      · subst h
        by_cases hsel : s.looks.selected n = false
        · exact .inl (h5 hsel)
        · exact .inr (h7 hm hsel)
      · exact .inr h

theorem hideTelling_ok (ho : Own b) (hc : ∀ n, chain b ws n = some (c n)) {s : Sight}
    (hs : Consistent c s.looks) (hb : ∀ m, s.looks.selected m = true → m ∈ b.nodes) (n : Entity) :
    ∃ s', hideTelling b ws s n = some s' ∧ Consistent c s'.looks ∧ Same s s'
      ∧ (∀ m, s'.looks.selected m = true ↔ s.looks.selected m = true ∧ isVisible b (put s.hidden n true) m = true)
      ∧ (s.mode ≠ .selectedChain → s'.hidden = put s.hidden n true)
      ∧ (s.mode = .selectedChain → s' = { s with hidden := put s.hidden n true } ∨ Shown b s') := by
  obtain ⟨s', h1, h2, h3, h4, h5, h6⟩ := deselectEach_ok ho hc
    (b.nodes.filter fun m => !isVisible b (put s.hidden n true) m) (s := { s with hidden := put s.hidden n true }) hs hb
  refine ⟨s', h1, h2, h3, fun m => ?_, h5, h6⟩
  rw [h4]
  constructor
  · rintro ⟨a, h⟩
    refine ⟨a, ?_⟩
    by_contra hv
    exact h (List.mem_filter.mpr ⟨hb m a, by simpa using hv⟩)
  · rintro ⟨a, h⟩
    exact ⟨a, fun h' => by simp [h] at h'⟩

theorem visible_self {hidden : Entity → Bool} {m : Entity} (h : isVisible b hidden m = true) : hidden m = false :=
  (isVisible_iff b hidden m).mp h m (mem_lineage_self b m)

theorem visible_mono {h h' : Entity → Bool} (hh : ∀ m, h' m = true → h m = true) {m : Entity}
    (hv : isVisible b h m = true) : isVisible b h' m = true := by
  rw [isVisible_iff] at *
  intro x hx
  rw [Bool.eq_false_iff]
  intro h1
  exact absurd (hh x h1) (by rw [hv x hx]; simp)

/-- Outside the selected chain: the nodes are hidden, and unselected if so no longer visible. -/
theorem hideEach_plain (ho : Own b) (hc : ∀ n, chain b ws n = some (c n)) (l : List Entity) {s : Sight}
    (hm : s.mode ≠ .selectedChain)
    (hs : Consistent c s.looks) (hb : ∀ m, s.looks.selected m = true → m ∈ b.nodes) :
    ∃ s', hideEach b ws s l = some s' ∧ Consistent c s'.looks ∧ Same s s'
      ∧ (∀ m, s'.hidden m = true ↔ m ∈ l ∨ s.hidden m = true)
      ∧ ((∀ m, s.looks.selected m = true → isVisible b s.hidden m = true) →
          ∀ m, s'.looks.selected m = true ↔ s.looks.selected m = true ∧ isVisible b s'.hidden m = true) := by
  induction l generalizing s with
  | nil => exact ⟨s, rfl, hs, .refl s, by simp, fun h m => ⟨fun h' => ⟨h', h m h'⟩, fun h' => h'.1⟩⟩
  | cons n l ih =>
    obtain ⟨s1, h1, h2, h3, h4, h5, -⟩ := hideTelling_ok ho hc hs hb n
    obtain ⟨s2, k1, k2, k3, k4, k5⟩ := ih (by rw [h3.1]; exact hm) h2 (fun m h => hb m ((h4 m).mp h).1)
    refine ⟨s2, by simp [hideEach, h1, k1], k2, h3.trans k3, fun m => ?_, fun hv m => ?_⟩
    · rw [k4, h5 hm]
      by_cases h : m = n <;> simp [put, h]
    · rw [k5 (fun m h => by rw [h5 hm]; exact ((h4 m).mp h).2), h4]
      constructor
      · rintro ⟨⟨a, -⟩, h⟩; exact ⟨a, h⟩
      · rintro ⟨a, h⟩
        refine ⟨⟨a, visible_mono (fun x hx => ?_) h⟩, h⟩
        rw [k4, h5 hm]
        exact .inr hx

/-- In the selected chain: all ends hidden and unselected. -/
theorem hideEach_chain (ho : Own b) (hc : ∀ n, chain b ws n = some (c n)) (l : List Entity) {s : Sight}
    (hm : s.mode = .selectedChain) (hs : Consistent c s.looks) (hb : ∀ m, s.looks.selected m = true → m ∈ b.nodes)
    (hl : ∀ m, s.looks.selected m = true → m ∈ l)
    (hj : ∀ m ∈ b.nodes, isVisible b s.hidden m = true →
      m ∈ l ∨ ∃ x ∈ b.nodes, (s.looks.selected x = true ∨ s.looks.lit x = true) ∧ m ∈ lineage b x) :
    ∃ s', hideEach b ws s l = some s' ∧ Consistent c s'.looks ∧ Same s s'
      ∧ (∀ m, s'.looks.selected m = false) ∧ ∀ m ∈ b.nodes, isVisible b s'.hidden m = false := by
  induction l generalizing s with
  | nil =>
    have h0 : ∀ m, s.looks.selected m = false := fun m => by
      rw [Bool.eq_false_iff]; intro h; exact absurd (hl m h) (by simp)
    refine ⟨s, rfl, hs, .refl s, h0, fun m hm => ?_⟩
    rw [Bool.eq_false_iff]
    intro h
    rcases hj m hm h with h | ⟨x, -, h, -⟩
    · simp at h
    · rw [lit_iff hs.nearly] at h
      simp [h0] at h
  | cons n l ih =>
    obtain ⟨s1, h1, h2, h3, h4, -, h6⟩ := hideTelling_ok ho hc hs hb n
    have hn : isVisible b (put s.hidden n true) n = false := by
      rw [Bool.eq_false_iff]
      intro h
      have := visible_self h
      simp [put] at this
    obtain ⟨s2, k1, k2, k3, k4⟩ := ih (by rw [h3.1]; exact hm) h2 (fun m h => hb m ((h4 m).mp h).1)
      (fun m h => by
        rcases List.mem_cons.mp (hl m ((h4 m).mp h).1) with rfl | h'
        · exact absurd ((h4 m).mp h).2 (by rw [hn]; simp)
        · exact h')
      (fun m hmn hv => by
        rcases h6 hm with rfl | h6
        · have hv' : isVisible b s.hidden m = true := visible_mono (fun x hx => by
            by_cases h : x = n <;> simp [put, h, hx]) hv
          rcases hj m hmn hv' with h | h
          · rcases List.mem_cons.mp h with rfl | h
            · rw [show isVisible b _ m = _ from hn] at hv; cases hv
            · exact .inl h
          · exact .inr h
        · exact .inr ((h6 m hmn).mp hv))
    exact ⟨s2, by simp [hideEach, h1, k1], k2, h3.trans k3, k4⟩

theorem clearTelling_ok (ho : Own b) (hc : ∀ n, chain b ws n = some (c n)) {s : Sight}
    (hs : Consistent c s.looks) (hb : ∀ m, s.looks.selected m = true → m ∈ b.nodes) :
    ∃ s', clearTelling b ws s = some s' ∧ Consistent c s'.looks ∧ Same s s' ∧ (∀ m, s'.looks.selected m = false)
      ∧ (s.mode ≠ .selectedChain → s'.hidden = s.hidden)
      ∧ (s.mode = .selectedChain → Shown b s → Shown b s')
      ∧ ((∀ m, s.looks.selected m = false) → s'.hidden = s.hidden) := by
  obtain ⟨l, h1, h2, h3⟩ := clearSelection_ok hc hs.nearly hb
  by_cases ha : b.nodes.any (fun n => s.looks.selected n || s.looks.childSelected n) = true
  · obtain ⟨s', k1, k2, k3, k4, k5, k6⟩ := notify_ok ho hc (s := { s with looks := l }) h2.nearly (by simp [h3])
    have hsel : ∀ m, s'.looks.selected m = false := by rw [k3]; exact h3
    refine ⟨s', by simp only [clearTelling, h1, Option.bind_eq_bind, Option.bind_some, if_pos ha, k1], ?_, k4, hsel,
      fun hm => by rw [k6 hm], fun hm _ => (k5 hm).2, fun h0 => ?_⟩
    · by_cases hm : s.mode = .selectedChain
      · exact (k5 hm).1
      · rw [k6 hm]; exact h2
    · obtain ⟨n, -, hn⟩ := List.any_eq_true.mp ha
      rw [hs.2.2.2 n, h0 n] at hn
      simp at hn
  · have h0 : ∀ m, s.looks.selected m = false := by
      intro m
      rw [Bool.eq_false_iff]
      intro h
      exact ha (List.any_eq_true.mpr ⟨m, hb m h, by simp [h]⟩)
    refine ⟨{ s with looks := l }, by simp only [clearTelling, h1, Option.bind_eq_bind, Option.bind_some, if_neg ha], h2,
      .refl _, h3, fun _ => rfl, fun _ h => ?_, fun _ => rfl⟩
    exact shown_congr hs.nearly h2.nearly rfl (by funext m; rw [h0 m]; exact h3 m) h

/-- `y` is visible once `x` is selected. -/
def Follows (b : Board) (c : Entity → List Entity) (x y : Entity) : Prop := ∃ z, (z = x ∨ z ∈ c x) ∧ y ∈ lineage b z

theorem selectEach_shown (ho : Own b) (hc : ∀ n, chain b ws n = some (c n)) (hcn : ∀ n, ∀ m ∈ c n, m ∈ b.nodes)
    (l : List Entity) {s : Sight} (hm : s.mode = .selectedChain)
    (hs : Consistent c s.looks) (hb : ∀ m, s.looks.selected m = true → m ∈ b.nodes) (hl : ∀ x ∈ l, x ∈ b.nodes)
    (hsh : Shown b s) :
    ∃ s', selectEach b ws true s l = some s' ∧ Consistent c s'.looks ∧ Same s s' ∧ Shown b s'
      ∧ (∀ m, s.looks.selected m = true → s'.looks.selected m = true)
      ∧ (∀ m, s'.looks.selected m = true → s.looks.selected m = true ∨ m ∈ l)
      ∧ ((∀ y ∈ l, ∃ x, s.looks.selected x = true ∧ Follows b c x y) → ∀ m ∈ l, s'.looks.selected m = true)
      ∧ ((∀ y ∈ l, ∀ x, s.looks.selected x = true → ¬ Follows b c x y) → s' = s) := by
  induction l generalizing s with
  | nil => exact ⟨s, rfl, hs, .refl s, hsh, fun _ h => h, fun _ h => .inl h, by simp, fun _ => rfl⟩
  | cons n l ih =>
    have hv : isVisible b s.hidden n = true ↔ ∃ x, s.looks.selected x = true ∧ Follows b c x n := by
      rw [hsh n (hl n (by simp))]
      constructor
      · rintro ⟨z, -, h | h, h'⟩
        · exact ⟨z, h, z, .inl rfl, h'⟩
        · obtain ⟨x, hx, hz⟩ := (lit_iff hs.nearly z).mp h
          exact ⟨x, hx, z, .inr hz, h'⟩
      · rintro ⟨x, hx, z, rfl | hz, h'⟩
        · exact ⟨z, hb z hx, .inl hx, h'⟩
        · exact ⟨z, hcn x z hz, .inr ((lit_iff hs.nearly z).mpr ⟨x, hx, hz⟩), h'⟩
    obtain ⟨s1, h1, h2, h3, h4, h5, -, h7⟩ := select_ok ho hc hs hb n true (fun _ => hl n (by simp))
    simp only [Bool.true_and] at h4 h5 h7
    have hsh1 : Shown b s1 := by
      by_cases h : s.looks.selected n = isVisible b s.hidden n
      · rw [h5 h]; exact hsh
      · exact h7 hm h
    have hkeep : ∀ m, s.looks.selected m = true → s1.looks.selected m = true := by
      intro m h
      rw [h4]
      by_cases hmn : m = n
      · subst hmn; simp [put, hsh.selected (hb m h) h]
      · simp [put, hmn, h]
    obtain ⟨s2, k1, k2, k3, k4, k5, k6, k7, k8⟩ := ih (by rw [h3.1]; exact hm) h2 (fun m hmm => by
        rw [h4] at hmm
        by_cases h : m = n
        · subst h; exact hl m (by simp)
        · exact hb m (by simpa [put, h] using hmm)) (fun x hx => hl x (List.mem_cons_of_mem _ hx)) hsh1
    refine ⟨s2, by simp [selectEach, h1, k1], k2, h3.trans k3, k4, fun m h => k5 m (hkeep m h), fun m h => ?_, fun hf m hmm => ?_,
      fun hf => ?_⟩
    · rcases k6 m h with h | h
      · rw [h4] at h
        by_cases hmn : m = n
        · exact .inr (by simp [hmn])
        · exact .inl (by simpa [put, hmn] using h)
      · exact .inr (List.mem_cons_of_mem _ h)
    · rcases List.mem_cons.mp hmm with rfl | hmm
      · apply k5
        rw [h4]
        simp [put, hv.mpr (hf m (by simp))]
      · exact k7 (fun y hy => by
          obtain ⟨x, hx, hxy⟩ := hf y (List.mem_cons_of_mem _ hy)
          exact ⟨x, hkeep x hx, hxy⟩) m hmm
    · have hno : isVisible b s.hidden n = false := by
        rw [Bool.eq_false_iff]
        intro h
        obtain ⟨x, hx, hxy⟩ := hv.mp h
        exact hf n (by simp) x hx hxy
      have hsn : s.looks.selected n = false := by
        rw [Bool.eq_false_iff]
        intro h
        exact hf n (by simp) n h ⟨n, .inl rfl, mem_lineage_self b n⟩
      have e := h5 (by rw [hno, hsn])
      subst e
      exact k8 (fun y hy => hf y (List.mem_cons_of_mem _ hy))

theorem displayAsked_ok (ho : Own b) (hc : ∀ n, chain b ws n = some (c n)) (hcn : ∀ n, ∀ m ∈ c n, m ∈ b.nodes)
    {s : Sight} (hm : s.mode = .selectedChain) (hs : Consistent c s.looks) (hb : ∀ m, s.looks.selected m = true → m ∈ b.nodes) :
    ∃ s', displayAsked b ws s = some s' ∧ Consistent c s'.looks ∧ Same s s' ∧ Shown b s'
      ∧ (∀ m, s'.looks.selected m = true → s.looks.selected m = true)
      ∧ (∀ x l, selectedNodes b s = x :: l →
          s'.looks.selected x = true
            ∧ ((∀ y ∈ l, Follows b c x y) → ∀ m, s.looks.selected m = true → s'.looks.selected m = true)
            ∧ ((∀ y ∈ l, ¬ Follows b c x y) → ∀ m, s'.looks.selected m = true → m = x)) := by
  obtain ⟨s1, h1, h2, h3, h4, h5⟩ := hideEach_chain ho hc b.nodes hm hs hb hb (fun m h _ => .inl h)
  obtain ⟨s2, k1, k2, k3, k4, -, -, k7⟩ := clearTelling_ok ho hc h2 (by simp [h4])
  have hsel : ∀ m, s.looks.selected m = true ↔ m ∈ selectedNodes b s := by
    intro m
    simp only [selectedNodes, List.mem_filter]
    exact ⟨fun h => ⟨hb m h, h⟩, fun h => h.2⟩
  have hrun : displayAsked b ws s = selectEach b ws true
      { s2 with hidden := showAll b s2.hidden (selectedNodes b s ++ highlightedNodes b s) } (selectedNodes b s) := by
    simp [displayAsked, h1, k1]
  rw [hrun]
  cases hS : selectedNodes b s with
  | nil =>
    have hno : ∀ m, s.looks.selected m = false := fun m => by
      rw [Bool.eq_false_iff]; intro h; rw [hsel, hS] at h; simp at h
    have hH : highlightedNodes b s = [] := by
      simp only [highlightedNodes, List.filter_eq_nil_iff]
      intro x _ h
      rw [lit_iff hs.nearly] at h
      simp [hno] at h
    refine ⟨_, rfl, k2, h3.trans k3, fun m hmm => ?_, fun m h => absurd h (by simp [k4]), by simp⟩
    rw [hH]
    show isVisible b s2.hidden m = true ↔ _
    rw [k7 h4, h5 m hmm]
    simp only [Bool.false_eq_true, false_iff, not_exists, not_and]
    intro x _ h
    rw [lit_iff k2.nearly] at h
    simp [k4] at h
  | cons x l =>
    have hx : x ∈ selectedNodes b s := by simp [hS]
    have hxn : x ∈ b.nodes := (List.mem_filter.mp hx).1
    have hvx : isVisible b (showAll b s2.hidden (selectedNodes b s ++ highlightedNodes b s)) x = true := by
      rw [isVisible_iff]
      intro y hy
      rw [Bool.eq_false_iff]
      intro h
      exact ((showAll_eq ..).mp h).2 x (List.mem_append_left _ hx) hy
    obtain ⟨s3, g1, g2, g3, g4, -, -, g7⟩ := select_ok ho hc
      (s := { s2 with hidden := showAll b s2.hidden (selectedNodes b s ++ highlightedNodes b s) }) k2 (by simp [k4]) x true
      (fun _ => hxn)
    have hm3 : s3.mode = .selectedChain := by rw [g3.1, k3.1, h3.1, hm]
    have hsel3 : ∀ m, s3.looks.selected m = true ↔ m = x := by
      intro m
      rw [g4]
      by_cases h : m = x
      · simp [put, h, hvx]
      · simp [put, h, k4]
    obtain ⟨s4, j1, j2, j3, j4, j5, j6, j7, j8⟩ := selectEach_shown ho hc hcn l hm3 g2
      (fun m h => by rw [(hsel3 m).mp h]; exact hxn)
      (fun y hy => (List.mem_filter.mp (show y ∈ selectedNodes b s by simp [hS, hy])).1)
      (g7 (by rw [show ({ s2 with hidden := _ } : Sight).mode = s2.mode from rfl, k3.1, h3.1, hm])
        (by rw [hvx]; simp [k4]))
    refine ⟨s4, ?_, j2, (h3.trans k3).trans (Same.trans (t := s3) g3 j3), j4, fun m h => ?_, fun x' l' h => ?_⟩
    · rw [hS] at g1
      simp only [selectEach, Option.bind_eq_bind]
      rw [g1]
      exact j1
    · rw [hsel, hS]
      rcases j6 m h with h | h
      · simp [(hsel3 m).mp h]
      · simp [h]
    · obtain ⟨rfl, rfl⟩ := List.cons.inj h
      refine ⟨j5 x ((hsel3 x).mpr rfl), fun hf m hmm => ?_, fun hf m hmm => ?_⟩
      · rw [hsel, hS] at hmm
        rcases List.mem_cons.mp hmm with rfl | hmm
        · exact j5 m ((hsel3 m).mpr rfl)
        · exact j7 (fun y hy => ⟨x, (hsel3 x).mpr rfl, hf y hy⟩) m hmm
      · rw [j8 (fun y hy z hz => by rw [(hsel3 z).mp hz]; exact hf y hy)] at hmm
        exact (hsel3 m).mp hmm

end Verif.Graph
