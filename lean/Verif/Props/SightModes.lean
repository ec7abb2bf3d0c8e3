import Verif.Props.SightActs

/-! C123, C124: the actions on the processing view, composed. -/

namespace Verif.Graph
open Spec
open Verif.Geom (Plane Axis ViewAxis transposeAxis)

variable {b : Board} {ws : List Wire} {c : Entity → List Entity}

/-! ### As the structure view -/

/-- `Drawn`, on the nodes around. -/
def Rule (b : Board) (p : Plane) (f : ViewAxis → Bool) (m : Entity) : Prop :=
  ∃ t ∈ lineage b m, t = .plane p ∨ ∃ a, t = .axis a ∧ axisShown p f a = true

theorem rule_iff (ho : Own b) (p : Plane) (f : ViewAxis → Bool) (m : Entity) : Rule b p f m ↔ Drawn b p f m := by
  simp only [Rule, Drawn, mem_lineage ho]
  constructor
  · rintro ⟨t, h, rfl | ⟨a, rfl, h'⟩⟩
    · exact .inl h
    · refine .inr ⟨a, h, ?_⟩
      cases p <;> cases a <;> simpa [axisShown, transposeAxis, ViewAxis.reverse] using h'
  · rintro (h | ⟨a, h, h'⟩)
    · exact ⟨_, h, .inl rfl⟩
    · refine ⟨_, h, .inr ⟨a, rfl, ?_⟩⟩
      cases p <;> cases a <;> simpa [axisShown, transposeAxis, ViewAxis.reverse] using h'

/-- The outermost node around a node is a plane or an axis, and the only one around it. -/
theorem lineage_outer {m : Entity} (hm : m ∈ b.nodes) :
    (∃ p, .plane p ∈ lineage b m ∧ (∀ q, .plane q ∈ lineage b m → q = p) ∧ ∀ a, .axis a ∉ lineage b m)
      ∨ ∃ a, .axis a ∈ lineage b m ∧ (∀ q, .axis q ∈ lineage b m → q = a) ∧ ∀ p, .plane p ∉ lineage b m := by
  cases m with
  | edge i =>
    obtain ⟨p, es, h1, h2⟩ := mem_nodes.mp hm
    have : ∃ q, b.parent (.edge i) = some q := by
      simp only [Board.parent]
      cases hf : b.polygons.find? (fun p => decide (i ∈ p.2)) with
      | none => exact absurd h2 (by simpa using List.find?_eq_none.mp hf _ h1)
      | some q => exact ⟨_, rfl⟩
    obtain ⟨q, hq⟩ := this
    obtain ⟨p, es, -, -, rfl⟩ := parent_edge hq
    left
    refine ⟨b.planeOf (.polygon p), ?_, ?_, ?_⟩ <;> rw [lineage_parent hq] <;> simp [lineage, Board.parent]
  | plane p => left; exact ⟨p, by simp [lineage], by simp [lineage, Board.parent], by simp [lineage, Board.parent]⟩
  | axis p => right; exact ⟨p, by simp [lineage], by simp [lineage, Board.parent], by simp [lineage, Board.parent]⟩
  | polygon i =>
    left; refine ⟨b.planeOf (.polygon i), ?_, ?_, ?_⟩ <;> simp [lineage, Board.parent]
  | eip i =>
    left; refine ⟨b.planeOf (.eip i), ?_, ?_, ?_⟩ <;> simp [lineage, Board.parent]
  | angle i =>
    left; refine ⟨b.planeOf (.angle i), ?_, ?_, ?_⟩ <;> simp [lineage, Board.parent]
  | ce i => right; refine ⟨b.axisOf (.ce i), ?_, ?_, ?_⟩ <;> simp [lineage, Board.parent]
  | docz i => right; refine ⟨b.axisOf (.docz i), ?_, ?_, ?_⟩ <;> simp [lineage, Board.parent]
  | tcmlp i => right; refine ⟨b.axisOf (.tcmlp i), ?_, ?_, ?_⟩ <;> simp [lineage, Board.parent]
  | policy i => right; refine ⟨b.axisOf (.policy i), ?_, ?_, ?_⟩ <;> simp [lineage, Board.parent]
  | interval i => right; refine ⟨b.axisOf (.interval i), ?_, ?_, ?_⟩ <;> simp [lineage, Board.parent]
  | meshline i => right; refine ⟨b.axisOf (.meshline i), ?_, ?_, ?_⟩ <;> simp [lineage, Board.parent]

theorem mem_otherPlanes {p : Plane} {e : Entity} : e ∈ otherPlanes p ↔ ∃ q, q ≠ p ∧ e = .plane q := by
  simp only [otherPlanes, List.mem_map, List.mem_filter, decide_eq_true_eq]
  constructor
  · rintro ⟨q, ⟨-, h⟩, rfl⟩; exact ⟨q, h, rfl⟩
  · rintro ⟨q, h, rfl⟩; exact ⟨q, ⟨by cases q <;> simp, h⟩, rfl⟩

theorem displayStructureView_ok (ho : Own b) (hc : ∀ n, chain b ws n = some (c n)) {s : Sight} (hm : s.mode ≠ .selectedChain)
    (hs : Consistent c s.looks) (hb : ∀ m, s.looks.selected m = true → m ∈ b.nodes)
    (hv : ∀ m, s.looks.selected m = true → isVisible b s.hidden m = true) :
    ∃ s', displayStructureView b ws s = some s' ∧ Consistent c s'.looks ∧ Same s s'
      ∧ (∀ m ∈ b.nodes, isVisible b s'.hidden m = true ↔ Rule b s.plane s.flags m)
      ∧ ∀ m, s'.looks.selected m = true ↔ s.looks.selected m = true ∧ isVisible b s'.hidden m = true := by
  obtain ⟨s', h1, h2, h3, h4, h5⟩ := hideEach_plain ho hc
    (otherPlanes s.plane ++ (([.x, .y, .z].filter fun a => !axisShown s.plane s.flags a).map .axis))
    (s := { s with hidden := showAll b s.hidden b.nodes }) hm hs hb
  refine ⟨s', h1, h2, h3, fun m hmm => ?_, h5 (fun m h => visible_mono (fun x hx => ((showAll_eq ..).mp hx).1) (hv m h))⟩
  have hl : ∀ e, e ∈ otherPlanes s.plane ++ (([.x, .y, .z].filter fun a => !axisShown s.plane s.flags a).map .axis) ↔
      (∃ q, q ≠ s.plane ∧ e = .plane q) ∨ ∃ a, axisShown s.plane s.flags a = false ∧ e = .axis a := by
    intro e
    rw [List.mem_append, mem_otherPlanes, List.mem_map]
    refine or_congr Iff.rfl ⟨?_, ?_⟩
    · rintro ⟨a, h, rfl⟩; exact ⟨a, by simpa using (List.mem_filter.mp h).2, rfl⟩
    · rintro ⟨a, h, rfl⟩; exact ⟨a, List.mem_filter.mpr ⟨by cases a <;> simp, by simp [h]⟩, rfl⟩
  have hh : ∀ x ∈ lineage b m, (s'.hidden x = true ↔
      (∃ q, q ≠ s.plane ∧ x = .plane q) ∨ ∃ a, axisShown s.plane s.flags a = false ∧ x = .axis a) := by
    intro x hx
    rw [h4, hl]
    refine ⟨fun h => h.elim id fun h => ?_, .inl⟩
    exact absurd (mem_lineage_self b x) (((showAll_eq ..).mp h).2 x (lineage_nodes hmm hx))
  rw [isVisible_iff]
  constructor
  · intro h
    rcases lineage_outer hmm with ⟨p, h1, -, -⟩ | ⟨a, h1, -, -⟩
    · have := h _ h1
      refine ⟨_, h1, .inl ?_⟩
      by_contra hne
      have := (hh _ h1).mpr (.inl ⟨p, fun h => hne (by rw [h]), rfl⟩)
      simp_all
    · refine ⟨_, h1, .inr ⟨a, rfl, ?_⟩⟩
      by_contra hne
      have h2 := (hh _ h1).mpr (.inr ⟨a, by simpa using hne, rfl⟩)
      rw [h _ h1] at h2
      cases h2
  · rintro ⟨t, ht, hr⟩ x hx
    rw [Bool.eq_false_iff]
    intro hxh
    rcases lineage_outer hmm with ⟨p, h1, h2, h3⟩ | ⟨a, h1, h2, h3⟩
    · rcases (hh x hx).mp hxh with ⟨q, hq, rfl⟩ | ⟨q, -, rfl⟩
      · rcases hr with rfl | ⟨a, rfl, -⟩
        · exact hq ((h2 _ hx).trans (h2 _ ht).symm)
        · exact h3 a ht
      · exact h3 q hx
    · rcases (hh x hx).mp hxh with ⟨q, hq, rfl⟩ | ⟨q, hq, rfl⟩
      · exact h3 q hx
      · rcases hr with rfl | ⟨a', rfl, ha'⟩
        · exact h3 _ ht
        · rw [h2 _ hx] at hq
          rw [h2 _ ht, hq] at ha'
          cases ha'

/-! ### Every action -/

/-- What every action keeps. -/
structure Inv (b : Board) (c : Entity → List Entity) (s : Sight) : Prop where
  cons : Consistent c s.looks
  nodes : ∀ m, s.looks.selected m = true → m ∈ b.nodes
  vis : ∀ m, s.looks.selected m = true → isVisible b s.hidden m = true
  chain : s.mode = .selectedChain → Shown b s
  all : s.mode = .everything → ∀ m ∈ b.nodes, isVisible b s.hidden m = true
  drawn : s.mode = .structureView → ∀ m ∈ b.nodes, Rule b s.plane s.flags m → isVisible b s.hidden m = true

theorem Inv.step {s s' : Sight} (h : Inv b c s) (hsame : Same s s') (h1 : Consistent c s'.looks)
    (h2 : ∀ m, s'.looks.selected m = true → m ∈ b.nodes)
    (h3 : s.mode ≠ .selectedChain → ∀ m, s'.looks.selected m = true → isVisible b s'.hidden m = true)
    (h4 : s.mode = .selectedChain → Shown b s')
    (h5 : s.mode ≠ .selectedChain → ∀ m, s'.hidden m = true → s.hidden m = true) : Inv b c s' := by
  obtain ⟨e1, e2, e3⟩ := hsame
  refine ⟨h1, h2, fun m hm => ?_, fun hm => h4 (e1 ▸ hm), fun hm m hmm => ?_, fun hm m hmm hr => ?_⟩
  · by_cases hc : s.mode = .selectedChain
    · exact (h4 hc).selected (h2 m hm) hm
    · exact h3 hc m hm
  · rw [e1] at hm
    exact visible_mono (h5 (by simp [hm])) (h.all hm m hmm)
  · rw [e1] at hm
    rw [e2, e3] at hr
    exact visible_mono (h5 (by simp [hm])) (h.drawn hm m hmm hr)

theorem press_ok (ho : Own b) (hc : ∀ n, chain b ws n = some (c n)) {s : Sight} (h : Inv b c s) {n : Entity}
    (hn : n ∈ b.nodes) :
    ∃ s', press b ws s n = some s' ∧ Inv b c s' ∧ Same s s'
      ∧ (isVisible b s.hidden n = false → s' = s)
      ∧ (isVisible b s.hidden n = true → ∀ m, s'.looks.selected m = true ↔
          (s.looks.selected n = true ∧ s.looks.selected m = true) ∨ (¬ s.looks.selected n = true ∧ m = n)) := by
  by_cases hv : isVisible b s.hidden n = true
  · by_cases hsel : s.looks.selected n = true
    · exact ⟨s, by simp [press, hsel], h, .refl s, fun _ => rfl, fun _ m => by simp [hsel]⟩
    · obtain ⟨l, h1, h2, h3⟩ := clearSelection_ok hc h.cons.nearly h.nodes
      obtain ⟨s', k1, k2, k3, k4, -, k6, k7⟩ := select_ok ho hc (s := { s with looks := l }) h2 (by simp [h3]) n true
        (fun _ => hn)
      have hsel' : ∀ m, s'.looks.selected m = true ↔ m = n := by
        intro m
        rw [k4]
        by_cases hm : m = n
        · simp [put, hm, hv]
        · simp [put, hm, h3]
      refine ⟨s', by simp [press, hsel, hv, h1, k1], ?_, k3, fun h => by simp [hv] at h, fun _ m => ?_⟩
      · refine h.step k3 k2 (fun m hm => by rw [(hsel' m).mp hm]; exact hn) (fun hm m hmm => ?_)
          (fun hm => k7 hm (by simp [h3, hv])) (fun hm m hmm => by rw [k6 hm] at hmm; exact hmm)
        rw [k6 hm, (hsel' m).mp hmm]
        exact hv
      · rw [hsel']; simp [hsel]
  · exact ⟨s, by simp [press, hv], h, .refl s, fun _ => rfl, fun h => absurd h hv⟩

/-- The end of a click: the children and the chain of the node. -/
theorem click_end (ho : Own b) (hc : ∀ n, chain b ws n = some (c n)) {s : Sight} {n : Entity}
    (hs : Nearly c s.looks) (hb : ∀ m, s.looks.selected m = true → m ∈ b.nodes) (hn : s.looks.selected n = true)
    (hch : ∀ m, m ≠ n → s.looks.childSelected m = s.looks.selected m)
    (hsh : s.mode = .selectedChain → Consistent c s.looks ∧ Shown b s) :
    ∃ s1, selectChild b ws s n true = some s1
      ∧ Consistent c (highlightAll true n s1.looks (c n))
      ∧ (highlightAll true n s1.looks (c n)).selected = s.looks.selected
      ∧ Same s s1 ∧ (s.mode ≠ .selectedChain → s1.hidden = s.hidden)
      ∧ (s.mode = .selectedChain → Shown b { s1 with looks := highlightAll true n s1.looks (c n) }) := by
  obtain ⟨s1, h1, h2, h3, h4, h5, h6⟩ := selectChild_ok ho hc hs hb n true
  obtain ⟨k1, k2, k3⟩ := light_nearly h2 n true
  have hput : put s1.looks.selected n true = (highlightAll true n s1.looks (c n)).selected := by
    rw [k3, put_self _ (by rw [h3]; exact hn)]
  rw [hput] at k1
  have hnear : Nearly c (highlightAll true n s1.looks (c n)) := k1
  have hch1 : ∀ m, s1.looks.childSelected m = s1.looks.selected m := by
    intro m
    by_cases hm : s.mode = .selectedChain
    · rcases h6 hm with rfl | h6
      · exact (hsh hm).1.2.2.2 m
      · exact h6.1.2.2.2 m
    · rw [(h5 hm).2, h3]
      by_cases h : m = n
      · simp [put, h, hn]
      · simp [put, h, hch m h]
  refine ⟨s1, h1, hnear.consistent (fun m => by rw [k2, k3, hch1 m]), by rw [k3, h3], h4, fun hm => (h5 hm).1, fun hm => ?_⟩
  have : Shown b s1 := by
    rcases h6 hm with rfl | h6
    · exact (hsh hm).2
    · exact h6.2
  exact shown_congr h2 hnear rfl k3 this

theorem click_ok (ho : Own b) (hc : ∀ n, chain b ws n = some (c n)) {s : Sight} (h : Inv b c s) {n : Entity}
    (hn : n ∈ b.nodes) (control : Bool) :
    ∃ s', click b ws s n control = some s' ∧ Inv b c s' ∧ Same s s'
      ∧ (isVisible b s.hidden n = false → s' = s)
      ∧ (isVisible b s.hidden n = true → ∀ m, s'.looks.selected m = true ↔
          if control then (m = n ∧ ¬ s.looks.selected n = true) ∨ (m ≠ n ∧ s.looks.selected m = true) else m = n) := by
  by_cases hv : isVisible b s.hidden n = true
  swap
  · exact ⟨s, by simp [click, hv], h, .refl s, fun _ => rfl, fun h => absurd h hv⟩
  cases control
  · obtain ⟨l1, h1, h2, h3⟩ := deselectAll_nearly hc (b.nodes.filter (· ≠ n)) h.cons.nearly
    obtain ⟨l2, g1, g2, g3, g4⟩ := setSelected_nearly hc (h2.child fun _ => false) n true
    have hsel2 : ∀ m, l2.selected m = true ↔ m = n := by
      intro m
      rw [g3]
      by_cases hm : m = n
      · simp [put, hm]
      · simp only [put, hm, if_false, iff_false]
        show ¬ l1.selected m = true
        rw [h3]
        split
        · simp
        · rename_i hf
          intro hsm
          exact hf (List.mem_filter.mpr ⟨h.nodes m hsm, by simpa using hm⟩)
    obtain ⟨s2, k1, k2, k3, k4, k5, k6⟩ := notify_ok ho hc (s := { s with looks := l2 }) g2
      (fun m hm => by rw [(hsel2 m).mp hm]; exact hn)
    have hs2 : ∀ m, s2.looks.selected m = true ↔ m = n := by rw [k3]; exact hsel2
    obtain ⟨s3, j1, j2, j3, j4, j5, j6⟩ := click_end ho hc k2 (fun m hm => by rw [(hs2 m).mp hm]; exact hn) ((hs2 n).mpr rfl)
      (fun m hm => by
        by_cases hmode : s.mode = .selectedChain
        · exact (k5 hmode).1.2.2.2 m
        · rw [k6 hmode]
          show l2.childSelected m = l2.selected m
          rw [Bool.eq_false_iff.mpr (fun h => hm ((hsel2 m).mp h)), g4]
          split <;> simp [put, hm])
      (fun hmode => k5 (k4.1.symm.trans hmode))
    refine ⟨{ s3 with looks := highlightAll true n s3.looks (c n) }, ?_, ?_, Same.trans (t := s2) k4 j4,
      fun h => by simp [hv] at h, fun _ m => ?_⟩
    · have e : deselectAll b ws s.looks (b.nodes.filter fun x => !decide (x = n)) = some l1 := by
        rw [← h1]; congr 2; funext x; simp
      simp [click, hv, e, g1, k1, (hs2 n).mpr rfl, j1, hc]
    · refine h.step (Same.trans (t := s2) k4 j4) j2 (fun m hm => ?_) (fun hmode m hm => ?_)
        (fun hmode => j6 (k4.1.trans hmode)) (fun hmode m hm => ?_)
      · have hm : (highlightAll true n s3.looks (c n)).selected m = true := hm
        rw [j3] at hm
        rw [(hs2 m).mp hm]; exact hn
      · have hm : (highlightAll true n s3.looks (c n)).selected m = true := hm
        rw [j3] at hm
        rw [(hs2 m).mp hm]
        show isVisible b s3.hidden n = true
        rw [j5 (fun e => hmode (k4.1.symm.trans e)), k6 hmode]
        exact hv
      · have hm : s3.hidden m = true := hm
        rw [j5 (fun e => hmode (k4.1.symm.trans e)), k6 hmode] at hm
        exact hm
    · show (highlightAll true n s3.looks (c n)).selected m = true ↔ _
      rw [j3, hs2]
      simp
  · obtain ⟨s2, k1, k2, k3, k4, -, k6, k7⟩ := select_ok ho hc h.cons h.nodes n (!s.looks.selected n) (fun _ => hn)
    rw [hv, Bool.and_true] at k4 k7
    have hs2 : ∀ m, s2.looks.selected m = true ↔ (m = n ∧ ¬ s.looks.selected n = true) ∨ (m ≠ n ∧ s.looks.selected m = true) := by
      intro m
      rw [k4]
      by_cases hm : m = n
      · subst hm; simp [put]
      · simp [put, hm]
    have hb2 : ∀ m, s2.looks.selected m = true → m ∈ b.nodes := by
      intro m hm
      rcases (hs2 m).mp hm with ⟨rfl, -⟩ | ⟨-, h'⟩
      · exact hn
      · exact h.nodes m h'
    have hshown : s.mode = .selectedChain → Shown b s2 := fun hm => k7 hm (by simp)
    by_cases hsel : s2.looks.selected n = true
    · obtain ⟨s3, j1, j2, j3, j4, j5, j6⟩ := click_end ho hc k2.nearly hb2 hsel (fun m _ => k2.2.2.2 m)
        (fun hmode => ⟨k2, hshown (k3.1.symm.trans hmode)⟩)
      refine ⟨{ s3 with looks := highlightAll true n s3.looks (c n) }, ?_, ?_, Same.trans (t := s2) k3 j4,
        fun h => by simp [hv] at h, fun _ m => ?_⟩
      · simp [click, hv, k1, hsel, j1, hc]
      · refine h.step (Same.trans (t := s2) k3 j4) j2 (fun m hm => ?_) (fun hmode m hm => ?_)
          (fun hmode => j6 (k3.1.trans hmode)) (fun hmode m hm => ?_)
        · have hm : (highlightAll true n s3.looks (c n)).selected m = true := hm
          rw [j3] at hm
          exact hb2 m hm
        · have hm : (highlightAll true n s3.looks (c n)).selected m = true := hm
          rw [j3, hs2] at hm
          show isVisible b s3.hidden m = true
          rw [j5 (fun e => hmode (k3.1.symm.trans e)), k6 hmode]
          rcases hm with ⟨rfl, -⟩ | ⟨-, h'⟩
          · exact hv
          · exact h.vis m h'
        · have hm : s3.hidden m = true := hm
          rw [j5 (fun e => hmode (k3.1.symm.trans e)), k6 hmode] at hm
          exact hm
      · show (highlightAll true n s3.looks (c n)).selected m = true ↔ _
        rw [j3, hs2]
        simp
    · refine ⟨s2, ?_, ?_, k3, fun h => by simp [hv] at h, fun _ m => by rw [hs2]; simp⟩
      · simp [click, hv, k1, hsel]
      · refine h.step k3 k2 hb2 (fun hmode m hm => ?_) hshown (fun hmode m hm => by rw [k6 hmode] at hm; exact hm)
        rw [k6 hmode]
        rcases (hs2 m).mp hm with ⟨rfl, -⟩ | ⟨-, h'⟩
        · exact hv
        · exact h.vis m h'

theorem selectShowing_ok (ho : Own b) (hc : ∀ n, chain b ws n = some (c n)) (l : List Entity) {s : Sight} (h : Inv b c s) :
    ∃ s', selectShowing b ws s l = some s' ∧ Inv b c s' ∧ Same s s'
      ∧ ∀ m, s'.looks.selected m = true ↔ s.looks.selected m = true ∨ (m ∈ b.shown ∧ m ∈ l) := by
  induction l generalizing s with
  | nil => exact ⟨s, rfl, h, .refl s, by simp⟩
  | cons n l ih =>
    by_cases hn : n ∈ b.shown
    · have hnn : n ∈ b.nodes := by simp [Board.nodes, hn]
      have hv : isVisible b (showAfterParents b s.hidden 2 n) n = true := by
        rw [isVisible_iff]
        intro m hm
        rw [showAfterParents_eq, if_pos hm]
      have hless : ∀ m, showAfterParents b s.hidden 2 n m = true → s.hidden m = true := by
        intro m hm
        rw [showAfterParents_eq] at hm
        split at hm
        · cases hm
        · exact hm
      obtain ⟨s1, k1, k2, k3, k4, k5, k6, k7⟩ := select_ok ho hc
        (s := { s with hidden := showAfterParents b s.hidden 2 n }) h.cons h.nodes n true (fun _ => hnn)
      simp only [hv, Bool.and_true] at k4 k5 k7
      have hsel1 : ∀ m, s1.looks.selected m = true ↔ m = n ∨ s.looks.selected m = true := by
        intro m
        rw [k4]
        by_cases hm : m = n <;> simp [put, hm]
      have h1 : Inv b c s1 := by
        refine h.step k3 k2 (fun m hm => ?_) (fun hmode m hm => ?_) (fun hmode => ?_) (fun hmode m hm => ?_)
        · rcases (hsel1 m).mp hm with rfl | hm
          · exact hnn
          · exact h.nodes m hm
        · rw [k6 hmode]
          rcases (hsel1 m).mp hm with rfl | hm
          · exact hv
          · exact visible_mono hless (h.vis m hm)
        · by_cases hsel : s.looks.selected n = true
          · have he : showAfterParents b s.hidden 2 n = s.hidden := by
              rw [showAfterParents, if_pos (h.vis n hsel)]
            rw [k5 hsel, he]
            exact h.chain hmode
          · exact k7 hmode hsel
        · rw [k6 hmode] at hm
          exact hless m hm
      obtain ⟨s2, j1, j2, j3, j4⟩ := ih h1
      refine ⟨s2, by simp [selectShowing, hn, k1, j1], j2, Same.trans (t := s1) k3 j3, fun m => ?_⟩
      rw [j4, hsel1]
      by_cases hm : m = n
      · subst hm; simp [hn]
      · simp [hm]
    · obtain ⟨s2, j1, j2, j3, j4⟩ := ih h
      refine ⟨s2, by simp [selectShowing, hn, j1], j2, j3, fun m => ?_⟩
      rw [j4]
      by_cases hm : m = n
      · subst hm; simp [hn]
      · simp [hm]

theorem counterparts_ok (ho : Own b) (hc : ∀ n, chain b ws n = some (c n)) (l : List Entity) {s : Sight} (h : Inv b c s) :
    ∃ s', counterparts b ws s l = some s' ∧ Inv b c s' ∧ Same s s'
      ∧ ∀ m, s'.looks.selected m = true ↔ m ∈ b.shown ∧ m ∈ l := by
  obtain ⟨s1, k1, k2, k3, k4, k5, k6, -⟩ := clearTelling_ok ho hc h.cons h.nodes
  obtain ⟨s2, j1, j2, j3, j4⟩ := selectShowing_ok ho hc l
    (h.step k3 k2 (by simp [k4]) (by simp [k4]) (fun hm => k6 hm (h.chain hm)) (fun hm m hmm => by rw [k5 hm] at hmm; exact hmm))
  exact ⟨s2, by simp [counterparts, k1, j1], j2, k3.trans j3, fun m => by rw [j4, k4]; simp⟩

theorem showAll_nodes {hidden : Entity → Bool} {m : Entity} (hm : m ∈ b.nodes) :
    isVisible b (showAll b hidden b.nodes) m = true := by
  rw [isVisible_iff]
  intro x hx
  rw [Bool.eq_false_iff]
  intro h
  exact ((showAll_eq ..).mp h).2 m hm hx

theorem setMode_ok (ho : Own b) (hc : ∀ n, chain b ws n = some (c n)) (hcn : ∀ n, ∀ m ∈ c n, m ∈ b.nodes) {s : Sight}
    (h1 : Consistent c s.looks) (h2 : ∀ m, s.looks.selected m = true → m ∈ b.nodes)
    (h3 : ∀ m, s.looks.selected m = true → isVisible b s.hidden m = true) (md : Mode) :
    ∃ s', setMode b ws s md = some s' ∧ Inv b c s' ∧ s'.mode = md ∧ s'.plane = s.plane ∧ s'.flags = s.flags
      ∧ (md = .everything → s'.looks = s.looks)
      ∧ (md = .structureView → (∀ m ∈ b.nodes, isVisible b s'.hidden m = true ↔ Rule b s.plane s.flags m)
          ∧ ∀ m, s'.looks.selected m = true ↔ s.looks.selected m = true ∧ isVisible b s'.hidden m = true)
      ∧ (md = .selectedChain → (∀ m, s'.looks.selected m = true → s.looks.selected m = true)
          ∧ (∀ x l, selectedNodes b s = x :: l →
            s'.looks.selected x = true
              ∧ ((∀ y ∈ l, Follows b c x y) → ∀ m, s.looks.selected m = true → s'.looks.selected m = true)
              ∧ ((∀ y ∈ l, ¬ Follows b c x y) → ∀ m, s'.looks.selected m = true → m = x))) := by
  cases md with
  | everything =>
    have hv : ∀ m ∈ b.nodes, isVisible b (showAll b s.hidden b.nodes) m = true := fun m hm => showAll_nodes hm
    refine ⟨{ s with mode := .everything, hidden := showAll b s.hidden b.nodes }, rfl, ?_, rfl, rfl, rfl, fun _ => rfl,
      fun h => (by cases h), fun h => (by cases h)⟩
    refine ⟨h1, h2, fun m hm => hv m (h2 m hm), fun h => (by cases h), fun _ => hv, fun h => (by cases h)⟩
  | structureView =>
    obtain ⟨s', k1, k2, k3, k4, k5⟩ := displayStructureView_ok ho hc (s := { s with mode := .structureView }) (by simp) h1 h2 h3
    refine ⟨s', k1, ⟨k2, fun m hm => h2 m ((k5 m).mp hm).1, fun m hm => ((k5 m).mp hm).2, fun h => ?_, fun h => ?_,
      fun _ m hm hr => (k4 m hm).mpr ?_⟩, k3.1, k3.2.1, k3.2.2, fun h => (by cases h), fun _ => ⟨k4, k5⟩, fun h => (by cases h)⟩
    · rw [k3.1] at h; cases h
    · rw [k3.1] at h; cases h
    · rw [k3.2.1, k3.2.2] at hr; exact hr
  | selectedChain =>
    obtain ⟨s', k1, k2, k3, k4, k5, k6⟩ := displayAsked_ok ho hc hcn (s := { s with mode := .selectedChain }) rfl h1 h2
    refine ⟨s', k1, ⟨k2, fun m hm => h2 m (k5 m hm), fun m hm => k4.selected (h2 m (k5 m hm)) hm, fun _ => k4, fun h => ?_, fun h => ?_⟩,
      k3.1, k3.2.1, k3.2.2, fun h => (by cases h), fun h => (by cases h), fun _ => ⟨k5, k6⟩⟩
    · rw [k3.1] at h; cases h
    · rw [k3.1] at h; cases h

theorem redisplay_ok (ho : Own b) (hc : ∀ n, chain b ws n = some (c n)) {s s0 : Sight} (h : Inv b c s)
    (hl : s0.looks = s.looks) (hh : s0.hidden = s.hidden) (hmode : s0.mode = s.mode) :
    ∃ s', (if s0.mode = .structureView then displayStructureView b ws s0 else some s0) = some s' ∧ Inv b c s' ∧ Same s0 s'
      ∧ (s.mode ≠ .structureView → s' = s0)
      ∧ (s.mode = .structureView → (∀ m ∈ b.nodes, isVisible b s'.hidden m = true ↔ Rule b s0.plane s0.flags m)
          ∧ ∀ m, s'.looks.selected m = true ↔ s.looks.selected m = true ∧ isVisible b s'.hidden m = true) := by
  by_cases hm : s.mode = .structureView
  · obtain ⟨s', k1, k2, k3, k4, k5⟩ := displayStructureView_ok ho hc (s := s0) (by simp [hmode, hm]) (hl ▸ h.cons)
      (by rw [hl]; exact h.nodes) (by rw [hl, hh]; exact h.vis)
    rw [hl] at k5
    refine ⟨s', by rw [if_pos (by rw [hmode, hm]), k1], ⟨k2, fun m hm => h.nodes m ((k5 m).mp hm).1, fun m hm => ((k5 m).mp hm).2,
      fun e => ?_, fun e => ?_, fun _ m hm hr => (k4 m hm).mpr ?_⟩, k3, fun h => absurd hm h, fun _ => ⟨k4, k5⟩⟩
    · rw [k3.1, hmode, hm] at e; cases e
    · rw [k3.1, hmode, hm] at e; cases e
    · rw [k3.2.1, k3.2.2] at hr; exact hr
  · refine ⟨s0, by rw [if_neg (by rw [hmode]; exact hm)], ⟨hl ▸ h.cons, by rw [hl]; exact h.nodes, by rw [hl, hh]; exact h.vis,
      fun e => ?_, fun e => ?_, fun e => absurd (hmode ▸ e) hm⟩, .refl s0, fun _ => rfl, fun h => absurd h hm⟩
    · have := h.chain (hmode ▸ e)
      intro m hmm
      rw [hh, hl]
      exact this m hmm
    · rw [hh]; exact h.all (hmode ▸ e)

end Verif.Graph
