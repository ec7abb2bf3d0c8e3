import Verif.Spec.Conflict
import Verif.Lemmas.Segment
import Mathlib.Data.List.Nodup
import Mathlib.Tactic.Linarith

/-!
# Lemmas about conflicts
-/

namespace Verif.Board
open Verif.Geom
open Verif.Mesh (Kind Facing Sorter tolerance)
open Spec

/-! ## Registration of colinear edges -/

theorem registered_eq {a b : Nat} (hab : a ≠ b) (c : List Nat) : ∀ p q,
    registered a b p q c = (p || decide (a ∈ c), q || decide (b ∈ c)) := by
  induction c with
  | nil => intro p q; simp [registered]
  | cons e rest ih =>
    intro p q
    unfold registered
    by_cases h1 : e = a
    · subst h1
      cases q <;> simp [ih, Ne.symm hab]
    · by_cases h2 : e = b
      · subst h2
        cases p <;> simp [ih, hab, h1]
      · simp [ih, h1, h2, Ne.symm h1, Ne.symm h2]

theorem addColinearLoop_none {a b : Nat} (hab : a ≠ b) {l : List (List Nat)} (h : ∀ c ∈ l, a ∉ c ∧ b ∉ c) :
    addColinearLoop a b l = (l, false) := by
  induction l with
  | nil => rfl
  | cons c rest ih =>
    unfold addColinearLoop
    obtain ⟨h1, h2⟩ := h c (by simp)
    rw [registered_eq hab, ih fun d hd => h d (by simp [hd])]
    simp [h1, h2]

/-- The conflict once both edges are in it. -/
def joined (a b : Nat) (c : List Nat) : List Nat :=
  if a ∈ c then (if b ∈ c then c else c ++ [b]) else c ++ [a]

theorem addColinearLoop_some {a b : Nat} (hab : a ≠ b) {l1 l2 : List (List Nat)} {c : List Nat}
    (h : ∀ d ∈ l1, a ∉ d ∧ b ∉ d) (hc : a ∈ c ∨ b ∈ c) :
    addColinearLoop a b (l1 ++ c :: l2) = (l1 ++ joined a b c :: l2, true) := by
  induction l1 with
  | nil =>
    simp only [List.nil_append]
    unfold addColinearLoop
    rw [registered_eq hab]
    unfold joined
    by_cases h1 : a ∈ c <;> by_cases h2 : b ∈ c <;> simp_all
  | cons d rest ih =>
    simp only [List.cons_append]
    obtain ⟨h1, h2⟩ := h d (by simp)
    unfold addColinearLoop
    rw [registered_eq hab, ih fun e he => h e (by simp [he])]
    simp [h1, h2]

theorem first_split {l : List (List Nat)} {p : List Nat → Prop} [DecidablePred p] (h : ∃ c ∈ l, p c) :
    ∃ l1 c l2, l = l1 ++ c :: l2 ∧ p c ∧ ∀ d ∈ l1, ¬ p d := by
  induction l with
  | nil => simp at h
  | cons d rest ih =>
    by_cases hd : p d
    · exact ⟨[], d, rest, rfl, hd, by simp⟩
    · obtain ⟨c, hc, hp⟩ := h
      rcases List.mem_cons.1 hc with rfl | hc
      · exact absurd hp hd
      · obtain ⟨l1, c, l2, rfl, h1, h2⟩ := ih ⟨c, hc, hp⟩
        refine ⟨d :: l1, c, l2, rfl, h1, ?_⟩
        intro e he
        rcases List.mem_cons.1 he with rfl | he
        · exact hd
        · exact h2 e he

theorem addPair_cases {a b : Nat} (hab : a ≠ b) (l : List (List Nat)) :
    (∃ l1 c l2, l = l1 ++ c :: l2 ∧ (a ∈ c ∨ b ∈ c) ∧ addPair a b l = l1 ++ joined a b c :: l2) ∨
    ((∀ c ∈ l, a ∉ c ∧ b ∉ c) ∧ addPair a b l = l ++ [[a, b]]) := by
  by_cases h : ∃ c ∈ l, a ∈ c ∨ b ∈ c
  · obtain ⟨l1, c, l2, rfl, h1, h2⟩ := first_split h
    refine Or.inl ⟨l1, c, l2, rfl, h1, ?_⟩
    unfold addPair
    rw [addColinearLoop_some hab (fun d hd => not_or.1 (h2 d hd)) h1]
    simp
  · push Not at h
    refine Or.inr ⟨h, ?_⟩
    unfold addPair
    rw [addColinearLoop_none hab h]
    simp

/-! ## Detection of colinear edges, on the conflicts of one axis -/

/-- The inner loop, on one axis. -/
def pairsInner (R : Nat → Nat → Bool) (i : Nat) : List (List Nat) → List Nat → List (List Nat)
  | l, [] => l
  | l, j :: rest => pairsInner R i (if R i j then addPair i j l else l) rest

/-- The outer loop, on one axis. -/
def pairsAll (R : Nat → Nat → Bool) : List (List Nat) → List Nat → List (List Nat)
  | l, [] => l
  | l, i :: rest => pairsAll R (pairsInner R i l rest) rest

/-- What holds between the steps: `es` are all edges, `D` those whose round has begun, `T` the pairs already seen. -/
structure Grouped (R : Nat → Nat → Bool) (es : List Nat) (D : Nat → Prop) (T : Nat → Nat → Prop)
    (l : List (List Nat)) : Prop where
  inside : ∀ c ∈ l, (∀ x ∈ c, x ∉ es) ∨
    ((∀ x ∈ c, x ∈ es) ∧ c.Nodup ∧ (∀ x ∈ c, ∀ y ∈ c, R x y = true) ∧ ∃ d ∈ c, D d)
  apart : l.Pairwise fun c c' => ∀ x ∈ c, ∀ y ∈ c', x ∈ es → y ∈ es → R x y = false
  seen : ∀ a b, T a b → R a b = true → ∃ c ∈ l, a ∈ c ∧ b ∈ c

theorem mem_joined {a b x : Nat} {c : List Nat} (hc : a ∈ c ∨ b ∈ c) : x ∈ joined a b c ↔ x ∈ c ∨ x = a ∨ x = b := by
  unfold joined
  split_ifs with h1 h2
  · constructor
    · exact Or.inl
    · rintro (h | rfl | rfl) <;> assumption
  · simp only [List.mem_append, List.mem_singleton]
    constructor
    · rintro (h | rfl)
      · exact Or.inl h
      · exact Or.inr (Or.inr rfl)
    · rintro (h | rfl | rfl)
      · exact Or.inl h
      · exact Or.inl h1
      · exact Or.inr rfl
  · simp only [List.mem_append, List.mem_singleton]
    constructor
    · rintro (h | rfl)
      · exact Or.inl h
      · exact Or.inr (Or.inl rfl)
    · rintro (h | rfl | rfl)
      · exact Or.inl h
      · exact Or.inr rfl
      · exact Or.inl (hc.resolve_left h1)

theorem nodup_joined {a b : Nat} {c : List Nat} (h : c.Nodup) : (joined a b c).Nodup := by
  unfold joined
  split_ifs with h1 h2
  · exact h
  · exact List.Nodup.append h (by simp) (by simpa using h2)
  · exact List.Nodup.append h (by simp) (by simpa using h1)

variable {R : Nat → Nat → Bool} {es : List Nat} {D : Nat → Prop} {T : Nat → Nat → Prop} {l : List (List Nat)}

theorem Grouped.add (symm : ∀ a ∈ es, ∀ b ∈ es, R a b = true → R b a = true)
    (trans : ∀ a ∈ es, ∀ b ∈ es, ∀ c ∈ es, R a b = true → R b c = true → R a c = true)
    (g : Grouped R es D T l) {a b : Nat} (hab : a ≠ b) (ha : a ∈ es) (hb : b ∈ es) (hR : R a b = true) (hD : D a)
    (hT : ∀ d, D d → d ≠ a → T d a) :
    Grouped R es D (fun x y => T x y ∨ (x = a ∧ y = b)) (addPair a b l) := by
  have hRaa : R a a = true := trans a ha b hb a ha hR (symm a ha b hb hR)
  have hRbb : R b b = true := trans b hb a ha b hb (symm a ha b hb hR) hR
  rcases addPair_cases hab l with ⟨l1, c, l2, rfl, hc, h⟩ | ⟨hnone, h⟩
  · rw [h]
    have hin : (∀ x ∈ c, x ∈ es) ∧ c.Nodup ∧ (∀ x ∈ c, ∀ y ∈ c, R x y = true) ∧ ∃ d ∈ c, D d := by
      rcases g.inside c (by simp) with h' | h'
      · rcases hc with hc | hc
        · exact absurd ha (h' a hc)
        · exact absurd hb (h' b hc)
      · exact h'
    obtain ⟨i1, i2, i3, d, i4, i5⟩ := hin
    -- every edge of the class of a and b is related to those of c
    have hca : ∀ x ∈ c, R x a = true := by
      intro x hx
      rcases hc with hc | hc
      · exact i3 x hx a hc
      · exact trans x (i1 x hx) b hb a ha (i3 x hx b hc) (symm a ha b hb hR)
    have hcb : ∀ x ∈ c, R x b = true := fun x hx => trans x (i1 x hx) a ha b hb (hca x hx) hR
    have hap := List.pairwise_append.1 g.apart
    have hap2 := List.pairwise_cons.1 hap.2.1
    refine ⟨?_, ?_, ?_⟩
    · intro e he
      rcases List.mem_append.1 he with he | he
      · exact g.inside e (by simp [he])
      rcases List.mem_cons.1 he with rfl | he
      · refine Or.inr ⟨?_, nodup_joined i2, ?_, d, (mem_joined hc).2 (Or.inl i4), i5⟩
        · intro x hx
          rcases (mem_joined hc).1 hx with h1 | rfl | rfl
          · exact i1 x h1
          · exact ha
          · exact hb
        · intro x hx y hy
          rcases (mem_joined hc).1 hx with h1 | rfl | rfl <;> rcases (mem_joined hc).1 hy with h2 | rfl | rfl
          · exact i3 x h1 y h2
          · exact hca x h1
          · exact hcb x h1
          · exact symm y (i1 y h2) x ha (hca y h2)
          · exact hRaa
          · exact hR
          · exact symm y (i1 y h2) x hb (hcb y h2)
          · exact symm y ha x hb hR
          · exact hRbb
      · exact g.inside e (by simp [he])
    · refine List.pairwise_append.2 ⟨hap.1, List.pairwise_cons.2 ⟨?_, hap2.2⟩, ?_⟩
      · intro e he x hx y hy hxe hye
        by_contra hne
        rw [Bool.not_eq_false] at hne
        rcases hc with hca' | hcb'
        · have : R a y = true := by
            rcases (mem_joined (Or.inl hca')).1 hx with h1 | rfl | rfl
            · exact trans a ha x hxe y hye (symm x hxe a ha (hca x h1)) hne
            · exact hne
            · exact trans a ha x hb y hye hR hne
          rw [hap2.1 e he a hca' y hy ha hye] at this
          exact Bool.noConfusion this
        · have : R b y = true := by
            rcases (mem_joined (Or.inr hcb')).1 hx with h1 | rfl | rfl
            · exact trans b hb x hxe y hye (symm x hxe b hb (hcb x h1)) hne
            · exact trans b hb x ha y hye (symm x ha b hb hR) hne
            · exact hne
          rw [hap2.1 e he b hcb' y hy hb hye] at this
          exact Bool.noConfusion this
      · intro e he e' he' x hx y hy hxe hye
        rcases List.mem_cons.1 he' with rfl | he'
        · by_contra hne
          rw [Bool.not_eq_false] at hne
          rcases hc with hca' | hcb'
          · have : R x a = true := by
              rcases (mem_joined (Or.inl hca')).1 hy with h1 | rfl | rfl
              · exact trans x hxe y hye a ha hne (hca y h1)
              · exact hne
              · exact trans x hxe y hb a ha hne (symm a ha y hb hR)
            rw [hap.2.2 e he c (by simp) x hx a hca' hxe ha] at this
            exact Bool.noConfusion this
          · have : R x b = true := by
              rcases (mem_joined (Or.inr hcb')).1 hy with h1 | rfl | rfl
              · exact trans x hxe y hye b hb hne (hcb y h1)
              · exact trans x hxe y ha b hb hne hR
              · exact hne
            rw [hap.2.2 e he c (by simp) x hx b hcb' hxe hb] at this
            exact Bool.noConfusion this
        · exact hap.2.2 e he e' (by simp [he']) x hx y hy hxe hye
    · intro x y hxy hRxy
      rcases hxy with hxy | ⟨rfl, rfl⟩
      · obtain ⟨e, he, h1, h2⟩ := g.seen x y hxy hRxy
        rcases List.mem_append.1 he with he | he
        · exact ⟨e, by simp [he], h1, h2⟩
        rcases List.mem_cons.1 he with rfl | he
        · exact ⟨joined a b e, by simp, (mem_joined hc).2 (Or.inl h1), (mem_joined hc).2 (Or.inl h2)⟩
        · exact ⟨e, by simp [he], h1, h2⟩
      · exact ⟨joined x y c, by simp, (mem_joined hc).2 (by simp), (mem_joined hc).2 (by simp)⟩
  · rw [h]
    refine ⟨?_, ?_, ?_⟩
    · intro e he
      rcases List.mem_append.1 he with he | he
      · exact g.inside e he
      · rw [List.mem_singleton] at he
        subst he
        refine Or.inr ⟨by simp [ha, hb], by simp [hab], ?_, a, by simp, hD⟩
        simp [hRaa, hRbb, hR, symm a ha b hb hR]
    · refine List.pairwise_append.2 ⟨g.apart, by simp, ?_⟩
      intro e he e' he' x hx y hy hxe hye
      rw [List.mem_singleton] at he'
      subst he'
      by_contra hne
      rw [Bool.not_eq_false] at hne
      have hxa : R x a = true := by
        rcases List.mem_cons.1 hy with rfl | hy
        · exact hne
        · rw [List.mem_singleton] at hy
          subst hy
          exact trans x hxe y hb a ha hne (symm a ha y hb hR)
      rcases g.inside e he with h' | ⟨i1, i2, i3, d, i4, i5⟩
      · exact h' x hx hxe
      · have hda : R d a = true := trans d (i1 d i4) x hxe a ha (i3 d i4 x hx) hxa
        by_cases hd : d = a
        · subst hd
          exact (hnone e he).1 i4
        · obtain ⟨e', he', -, h2⟩ := g.seen d a (hT d i5 hd) hda
          exact (hnone e' he').1 h2
    · intro x y hxy hRxy
      rcases hxy with hxy | ⟨rfl, rfl⟩
      · obtain ⟨e, he, h1, h2⟩ := g.seen x y hxy hRxy
        exact ⟨e, by simp [he], h1, h2⟩
      · exact ⟨[x, y], by simp, by simp, by simp⟩

theorem Grouped.weaken (g : Grouped R es D T l) {D' : Nat → Prop} {T' : Nat → Nat → Prop} (hD : ∀ d, D d → D' d)
    (hT : ∀ a b, T' a b → T a b) : Grouped R es D' T' l := by
  refine ⟨?_, g.apart, fun a b h => g.seen a b (hT a b h)⟩
  intro c hc
  rcases g.inside c hc with h | ⟨h1, h2, h3, d, h4, h5⟩
  · exact Or.inl h
  · exact Or.inr ⟨h1, h2, h3, d, h4, hD d h5⟩

theorem Grouped.inner (symm : ∀ a ∈ es, ∀ b ∈ es, R a b = true → R b a = true)
    (trans : ∀ a ∈ es, ∀ b ∈ es, ∀ c ∈ es, R a b = true → R b c = true → R a c = true)
    {i : Nat} (hi : i ∈ es) (hD : D i) (rest : List Nat) :
    ∀ (T : Nat → Nat → Prop) (l : List (List Nat)), (∀ d, D d → d ≠ i → T d i) → Grouped R es D T l →
    (∀ j ∈ rest, j ∈ es ∧ i ≠ j) →
    Grouped R es D (fun x y => T x y ∨ (x = i ∧ y ∈ rest)) (pairsInner R i l rest) := by
  induction rest with
  | nil =>
    intro T l hT g _
    exact g.weaken (fun _ h => h) (by rintro a b (h | ⟨-, h⟩); exacts [h, absurd h (by simp)])
  | cons j rest ih =>
    intro T l hT g hrest
    obtain ⟨hj, hij⟩ := hrest j (by simp)
    have key : Grouped R es D (fun x y => T x y ∨ (x = i ∧ y = j)) (if R i j then addPair i j l else l) := by
      split_ifs with h
      · exact g.add symm trans hij hi hj h hD hT
      · refine ⟨g.inside, g.apart, ?_⟩
        rintro a b (hab | ⟨rfl, rfl⟩) hR
        · exact g.seen a b hab hR
        · exact absurd hR h
    have := ih _ _ (fun d h1 h2 => Or.inl (hT d h1 h2)) key (fun k hk => hrest k (by simp [hk]))
    refine this.weaken (fun _ h => h) ?_
    rintro a b (h | ⟨rfl, h⟩)
    · exact Or.inl (Or.inl h)
    · rcases List.mem_cons.1 h with rfl | h
      · exact Or.inl (Or.inr ⟨rfl, rfl⟩)
      · exact Or.inr ⟨rfl, h⟩

theorem Grouped.all (symm : ∀ a ∈ es, ∀ b ∈ es, R a b = true → R b a = true)
    (trans : ∀ a ∈ es, ∀ b ∈ es, ∀ c ∈ es, R a b = true → R b c = true → R a c = true) (todo : List Nat) :
    ∀ (done : List Nat) (l : List (List Nat)), done ++ todo = es → es.Nodup →
    Grouped R es (· ∈ done) (fun x y => ∃ l1 l2, done = l1 ++ x :: l2 ∧ y ∈ l2 ++ todo) l →
    Grouped R es (· ∈ es) (fun x y => ∃ l1 l2, es = l1 ++ x :: l2 ∧ y ∈ l2) (pairsAll R l todo) := by
  induction todo with
  | nil =>
    intro done l hes _ g
    rw [List.append_nil] at hes
    subst hes
    simpa [pairsAll] using g
  | cons i rest ih =>
    intro done l hes hnd g
    unfold pairsAll
    refine ih (done ++ [i]) _ (by simp [← hes]) hnd ?_
    have hi : i ∈ es := by simp [← hes]
    rw [← hes] at hnd
    have hnd' := List.nodup_append.1 hnd
    have hdi : ∀ d ∈ done, d ≠ i := fun d hd => hnd'.2.2 d hd i (by simp)
    have hir : i ∉ rest := (List.nodup_cons.1 hnd'.2.1).1
    have := Grouped.inner symm trans (D := fun x => x ∈ done ++ [i]) hi (by simp) rest
      (fun x y => ∃ l1 l2, done = l1 ++ x :: l2 ∧ y ∈ l2 ++ i :: rest) l
      (by
        intro d hd hne
        simp only [List.mem_append, List.mem_singleton] at hd
        obtain ⟨l1, l2, h⟩ := List.append_of_mem (hd.resolve_right hne)
        exact ⟨l1, l2, h, by simp⟩)
      (g.weaken (fun d hd => by simp [hd]) fun _ _ h => h)
      (fun j hj => ⟨by simp [← hes, hj], by rintro rfl; exact hir hj⟩)
    refine this.weaken (fun _ h => h) ?_
    rintro a b ⟨l1, l2, h1, h2⟩
    rcases List.append_eq_append_iff.1 h1 with ⟨m, h3, h4⟩ | ⟨m, h3, h4⟩
    · cases m with
      | nil =>
        simp only [List.nil_append, List.cons.injEq] at h4
        obtain ⟨rfl, rfl⟩ := h4
        exact Or.inr ⟨rfl, by simpa using h2⟩
      | cons x m =>
        simp only [List.cons_append, List.cons.injEq] at h4
        have := h4.2
        simp at this
    · cases m with
      | nil =>
        simp only [List.nil_append, List.cons.injEq] at h4
        obtain ⟨rfl, rfl⟩ := h4
        exact Or.inr ⟨rfl, by simpa using h2⟩
      | cons x m =>
        simp only [List.cons_append, List.cons.injEq] at h4
        obtain ⟨rfl, rfl⟩ := h4
        refine Or.inl ⟨l1, m, h3, ?_⟩
        simp only [List.mem_append, List.mem_cons, List.not_mem_nil, or_false] at h2 ⊢
        tauto

/-! ## The detection, axis by axis -/

theorem horizontal_iff {s : Segment} : Horizontal s ↔ s.axis = .h := by
  constructor
  · rintro ⟨h1, h2⟩
    unfold Segment.axis vectorAxis
    have e1 : ¬ coordEq (s.p1.sub s.p0).x 0 = true := by
      rw [coordEq_iff]; simp only [Point.sub, sub_zero, not_lt]; exact h2
    have e2 : coordEq (s.p1.sub s.p0).y 0 = true := by
      rw [coordEq_iff]; simp only [Point.sub, sub_zero]; exact h1
    simp [e1, e2]
  · intro h; exact ⟨(axis_h h).2, (axis_h h).1⟩

theorem vertical_iff {s : Segment} : Vertical s ↔ s.axis = .v := by
  constructor
  · rintro ⟨h1, h2⟩
    unfold Segment.axis vectorAxis
    have e1 : ¬ coordEq (s.p1.sub s.p0).y 0 = true := by
      rw [coordEq_iff]; simp only [Point.sub, sub_zero, not_lt]; exact h2
    have e2 : coordEq (s.p1.sub s.p0).x 0 = true := by
      rw [coordEq_iff]; simp only [Point.sub, sub_zero]; exact h1
    simp [e1, e2]
  · intro h; exact ⟨(axis_v h).2, (axis_v h).1⟩

/-- Whether the detection hands two edges over for conflicts of the axis. -/
def handed (E : Nat → BEdge) (plane : Plane) (axis : Geom.Axis) (i j : Nat) : Bool :=
  decide (transposeSeg plane (E i).axis = some axis ∧ (E j).axis = (E i).axis ∧
    (((E i).axis = .h ∧ coordEq (E i).seg.p0.y (E j).seg.p0.y = true) ∨
      ((E i).axis = .v ∧ coordEq (E i).seg.p0.x (E j).seg.p0.x = true)))

theorem handed_iff {E : Nat → BEdge} {plane : Plane} {axis : Geom.Axis} {i j : Nat} :
    handed E plane axis i j = true ↔
      transposeSeg plane (E i).axis = some axis ∧ SameLine (E i).seg (E j).seg := by
  unfold handed SameLine
  simp only [decide_eq_true_eq, horizontal_iff, vertical_iff, coordEq_iff, BEdge.axis]
  constructor
  · rintro ⟨h1, h2, ⟨h3, h4⟩ | ⟨h3, h4⟩⟩
    · exact ⟨h1, Or.inl ⟨h3, h2.trans h3, h4⟩⟩
    · exact ⟨h1, Or.inr ⟨h3, h2.trans h3, h4⟩⟩
  · rintro ⟨h1, ⟨h2, h3, h4⟩ | ⟨h2, h3, h4⟩⟩
    · exact ⟨h1, h3.trans h2.symm, Or.inl ⟨h2, h4⟩⟩
    · exact ⟨h1, h3.trans h2.symm, Or.inr ⟨h2, h4⟩⟩

theorem sameLine_axis {a b : Segment} (h : SameLine a b) : a.axis = b.axis := by
  rcases h with ⟨h1, h2, -⟩ | ⟨h1, h2, -⟩
  · rw [horizontal_iff.1 h1, horizontal_iff.1 h2]
  · rw [vertical_iff.1 h1, vertical_iff.1 h2]

theorem sameLine_symm {a b : Segment} (h : SameLine a b) : SameLine b a := by
  rcases h with ⟨h1, h2, h3⟩ | ⟨h1, h2, h3⟩
  · exact Or.inl ⟨h2, h1, by rwa [abs_sub_comm]⟩
  · exact Or.inr ⟨h2, h1, by rwa [abs_sub_comm]⟩

theorem addColinear_axis {E : Nat → BEdge} {plane : Plane} {a b : Nat} (ha : (E a).plane = plane)
    (hb : (E b).plane = plane) (h : SameLine (E a).seg (E b).seg) (s : Colinear) (axis : Geom.Axis) :
    addColinear E s a b axis = if handed E plane axis a b then addPair a b (s axis) else s axis := by
  unfold addColinear
  rw [if_pos ⟨ha.trans hb.symm, sameLine_axis h⟩, ha]
  have hh : handed E plane axis a b = true ↔ transposeSeg plane (E a).axis = some axis := by
    rw [handed_iff]; exact and_iff_left h
  cases ht : transposeSeg plane (E a).axis with
  | none =>
    rw [if_neg (by rw [hh, ht]; simp)]
  | some w =>
    by_cases hw : axis = w
    · subst hw
      rw [if_pos (by rw [hh, ht])]
      simp
    · rw [if_neg (by rw [hh, ht]; simpa using Ne.symm hw)]
      simp [hw]

theorem detectColinearInner_axis {E : Nat → BEdge} {plane : Plane} {i : Nat} (hi : (E i).plane = plane)
    (axis : Geom.Axis) (rest : List Nat) : ∀ s : Colinear, (∀ j ∈ rest, (E j).plane = plane) →
    detectColinearInner E plane i s rest axis = pairsInner (handed E plane axis) i (s axis) rest := by
  induction rest with
  | nil => intro s _; rfl
  | cons j rest ih =>
    intro s hr
    have hrest : ∀ k ∈ rest, (E k).plane = plane := fun k hk => hr k (by simp [hk])
    unfold detectColinearInner pairsInner
    by_cases h1 : (E j).axis ≠ (E i).axis
    · rw [if_pos h1, ih s hrest, if_neg]
      rw [handed_iff]
      exact fun h => h1 (sameLine_axis h.2).symm
    · rw [if_neg h1]
      rw [not_not] at h1
      cases ht : transposeSeg plane (E i).axis with
      | none =>
        show detectColinearInner E plane i s rest axis = _
        rw [ih s hrest, if_neg]
        rw [handed_iff, ht]; simp
      | some w =>
        show (if _ then _ else if _ then _ else _ : Colinear) axis = _
        by_cases h2 : (E i).axis = .h ∧ coordEq (E i).seg.p0.y (E j).seg.p0.y = true
        · rw [if_pos h2, ih _ hrest, addColinear_axis hi (hr j (by simp))]
          exact Or.inl ⟨horizontal_iff.2 h2.1, horizontal_iff.2 (h1.trans h2.1), coordEq_iff.1 h2.2⟩
        · rw [if_neg h2]
          by_cases h3 : (E i).axis = .v ∧ coordEq (E i).seg.p0.x (E j).seg.p0.x = true
          · rw [if_pos h3, ih _ hrest, addColinear_axis hi (hr j (by simp))]
            exact Or.inr ⟨vertical_iff.2 h3.1, vertical_iff.2 (h1.trans h3.1), coordEq_iff.1 h3.2⟩
          · rw [if_neg h3, ih s hrest, if_neg]
            rw [handed_iff]
            rintro ⟨-, ⟨g1, -, g2⟩ | ⟨g1, -, g2⟩⟩
            · exact h2 ⟨horizontal_iff.1 g1, coordEq_iff.2 g2⟩
            · exact h3 ⟨vertical_iff.1 g1, coordEq_iff.2 g2⟩

theorem pairsInner_none {R : Nat → Nat → Bool} {i : Nat} (l : List (List Nat)) (rest : List Nat)
    (h : ∀ j, R i j = false) : pairsInner R i l rest = l := by
  induction rest with
  | nil => rfl
  | cons j rest ih => unfold pairsInner; rw [h j]; simpa using ih

theorem detectColinear_axis {E : Nat → BEdge} {plane : Plane} (axis : Geom.Axis) (edges : List Nat) :
    ∀ s : Colinear, (∀ j ∈ edges, (E j).plane = plane) →
    detectColinear E plane s edges axis = pairsAll (handed E plane axis) (s axis) edges := by
  induction edges with
  | nil => intro s _; rfl
  | cons i rest ih =>
    intro s hr
    have hrest : ∀ k ∈ rest, (E k).plane = plane := fun k hk => hr k (by simp [hk])
    unfold detectColinear pairsAll
    by_cases h : (E i).axis = .diagonal
    · rw [if_pos h, ih s hrest, pairsInner_none]
      intro j
      rw [← Bool.not_eq_true, handed_iff, h]
      cases plane <;> simp [transposeSeg]
    · rw [if_neg h, ih _ hrest, detectColinearInner_axis (hr i (by simp)) axis rest s hrest]

/-- The conflicts of one axis after the detection. -/
theorem detectColinear_grouped {E : Nat → BEdge} {plane : Plane} (axis : Geom.Axis) {edges : List Nat} {s : Colinear}
    (hplane : ∀ j ∈ edges, (E j).plane = plane) (hnd : edges.Nodup)
    (hnew : ∀ c ∈ s axis, ∀ x ∈ c, x ∉ edges)
    (htrans : ∀ a ∈ edges, ∀ b ∈ edges, ∀ c ∈ edges, SameLine (E a).seg (E b).seg → SameLine (E b).seg (E c).seg →
      SameLine (E a).seg (E c).seg) :
    Grouped (handed E plane axis) edges (· ∈ edges) (fun x y => ∃ l1 l2, edges = l1 ++ x :: l2 ∧ y ∈ l2)
      (detectColinear E plane s edges axis) := by
  rw [detectColinear_axis axis edges s hplane]
  refine Grouped.all ?_ ?_ edges [] (s axis) rfl hnd ⟨?_, ?_, ?_⟩
  · intro a _ b _ h
    rw [handed_iff] at h ⊢
    exact ⟨by rw [← h.1]; unfold BEdge.axis; rw [sameLine_axis h.2], sameLine_symm h.2⟩
  · intro a ha b hb c hc h1 h2
    rw [handed_iff] at h1 h2 ⊢
    exact ⟨h1.1, htrans a ha b hb c hc h1.2 h2.2⟩
  · exact fun c hc => Or.inl (hnew c hc)
  · rw [List.pairwise_iff_forall_sublist]
    intro c c' hs x hx _ _ hxe
    exact absurd hxe (hnew c (hs.subset (by simp)) x hx)
  · rintro a b ⟨l1, l2, h, -⟩
    simp at h

/-- Conflicts made before are kept as they were. -/
theorem addPair_old {a b : Nat} (hab : a ≠ b) {l : List (List Nat)} {c : List Nat} (hc : c ∈ l) (ha : a ∉ c) (hb : b ∉ c) :
    c ∈ addPair a b l := by
  rcases addPair_cases hab l with ⟨l1, d, l2, rfl, hd, h⟩ | ⟨-, h⟩
  · rw [h]
    rcases List.mem_append.1 hc with h' | h'
    · simp [h']
    · rcases List.mem_cons.1 h' with rfl | h'
      · exact absurd hd (by simp [ha, hb])
      · simp [h']
  · rw [h]; simp [hc]

theorem pairsInner_old {R : Nat → Nat → Bool} {i : Nat} {c : List Nat} (hi : i ∉ c) (rest : List Nat) :
    ∀ l : List (List Nat), c ∈ l → (∀ j ∈ rest, j ∉ c ∧ i ≠ j) → c ∈ pairsInner R i l rest := by
  induction rest with
  | nil => intro l h _; exact h
  | cons j rest ih =>
    intro l h hr
    unfold pairsInner
    refine ih _ ?_ fun k hk => hr k (by simp [hk])
    split_ifs
    · exact addPair_old (hr j (by simp)).2 h hi (hr j (by simp)).1
    · exact h

theorem pairsAll_old {R : Nat → Nat → Bool} {c : List Nat} (edges : List Nat) :
    ∀ l : List (List Nat), c ∈ l → edges.Nodup → (∀ j ∈ edges, j ∉ c) → c ∈ pairsAll R l edges := by
  induction edges with
  | nil => intro l h _ _; exact h
  | cons i rest ih =>
    intro l h hnd hr
    unfold pairsAll
    obtain ⟨h1, h2⟩ := List.nodup_cons.1 hnd
    refine ih _ ?_ h2 fun k hk => hr k (by simp [hk])
    exact pairsInner_old (hr i (by simp)) rest l h fun k hk => ⟨hr k (by simp [hk]), by rintro rfl; exact h1 hk⟩

/-! ## Solving colinear conflicts -/

theorem normal_faces (f : Facing) (e : BEdge) : Faces f e ↔ e.toMesh = true ∧ facing e.normal = f := by
  unfold Faces BEdge.normal
  cases e.toReverse
  · simp
  · cases e.side <;> simp [Normal.reverse, facing, opposite]

theorem countFacing_spec (l : List BEdge) : ∀ m n,
    ((countFacing l m n).1 = true ↔ ∃ e ∈ l, Faces .none e) ∧
    ((¬ ∃ e ∈ l, Faces .none e) →
      ((countFacing l m n).2.1 ≠ 0 ↔ m ≠ 0 ∨ ∃ e ∈ l, Faces .min e) ∧
      ((countFacing l m n).2.2 ≠ 0 ↔ n ≠ 0 ∨ ∃ e ∈ l, Faces .max e)) := by
  induction l with
  | nil => intro m n; simp [countFacing]
  | cons e rest ih =>
    intro m n
    have hx : ∀ f, (∃ e' ∈ e :: rest, Faces f e') ↔ Faces f e ∨ ∃ e' ∈ rest, Faces f e' := by
      intro f; simp
    simp only [hx]
    have hf := fun f => normal_faces f e
    unfold countFacing
    by_cases h : e.toMesh = true
    · rw [if_pos h]
      have hmin : facing e.normal = .min → ¬ Faces .none e ∧ Faces .min e ∧ ¬ Faces .max e := by
        intro hn; simp [hf, h, hn]
      have hmax : facing e.normal = .max → ¬ Faces .none e ∧ ¬ Faces .min e ∧ Faces .max e := by
        intro hn; simp [hf, h, hn]
      have hnone : facing e.normal = .none → Faces .none e := by
        intro hn; simp [hf, h, hn]
      have cmin : facing e.normal = .min →
          ((countFacing rest (m + 1) n).1 = true ↔ Faces .none e ∨ ∃ e' ∈ rest, Faces .none e') ∧
          ((¬ (Faces .none e ∨ ∃ e' ∈ rest, Faces .none e')) →
            ((countFacing rest (m + 1) n).2.1 ≠ 0 ↔ m ≠ 0 ∨ (Faces .min e ∨ ∃ e' ∈ rest, Faces .min e')) ∧
            ((countFacing rest (m + 1) n).2.2 ≠ 0 ↔ n ≠ 0 ∨ (Faces .max e ∨ ∃ e' ∈ rest, Faces .max e'))) := by
        intro hn
        obtain ⟨g1, g2, g3⟩ := hmin hn
        obtain ⟨i1, i2⟩ := ih (m + 1) n
        refine ⟨by rw [i1]; simp [g1], fun h0 => ?_⟩
        obtain ⟨j1, j2⟩ := i2 fun h' => h0 (Or.inr h')
        rw [j1, j2]
        simp [g2, g3]
      have cmax : facing e.normal = .max →
          ((countFacing rest m (n + 1)).1 = true ↔ Faces .none e ∨ ∃ e' ∈ rest, Faces .none e') ∧
          ((¬ (Faces .none e ∨ ∃ e' ∈ rest, Faces .none e')) →
            ((countFacing rest m (n + 1)).2.1 ≠ 0 ↔ m ≠ 0 ∨ (Faces .min e ∨ ∃ e' ∈ rest, Faces .min e')) ∧
            ((countFacing rest m (n + 1)).2.2 ≠ 0 ↔ n ≠ 0 ∨ (Faces .max e ∨ ∃ e' ∈ rest, Faces .max e'))) := by
        intro hn
        obtain ⟨g1, g2, g3⟩ := hmax hn
        obtain ⟨i1, i2⟩ := ih m (n + 1)
        refine ⟨by rw [i1]; simp [g1], fun h0 => ?_⟩
        obtain ⟨j1, j2⟩ := i2 fun h' => h0 (Or.inr h')
        rw [j1, j2]
        simp [g2, g3]
      cases hn : e.normal
      case none =>
        have := hnone (by rw [hn]; rfl)
        simp [this]
      all_goals first
        | exact cmin (by rw [hn]; rfl)
        | exact cmax (by rw [hn]; rfl)
    · rw [if_neg h]
      have hno : ∀ f, ¬ Faces f e := fun f hf' => h hf'.1
      obtain ⟨i1, i2⟩ := ih m n
      refine ⟨by rw [i1]; simp [hno], fun h0 => ?_⟩
      obtain ⟨j1, j2⟩ := i2 fun h' => h0 (Or.inr h')
      rw [j1, j2]
      simp [hno]

theorem solveColinear_eq {front : BEdge} {rest : List BEdge} {coord : ℚ}
    (h : segCoord front.seg.p0 front.axis = some coord) :
    solveColinear (front :: rest) =
      if (countFacing (front :: rest) 0 0).1 = true then some (some (.oneline, .none, coord))
      else if (countFacing (front :: rest) 0 0).2.1 ≠ 0 ∧ (countFacing (front :: rest) 0 0).2.2 ≠ 0 then
        some (some (.halfs, .none, coord))
      else if (countFacing (front :: rest) 0 0).2.1 ≠ 0 then some (some (.thirds, .min, coord))
      else if (countFacing (front :: rest) 0 0).2.2 ≠ 0 then some (some (.thirds, .max, coord))
      else some none := by
  unfold solveColinear
  simp only [h]
  obtain ⟨b, m, n⟩ := countFacing (front :: rest) 0 0
  cases b
  · simp only [Bool.false_eq_true, if_false]
    split_ifs <;> rfl
  · rfl

/-! ## Materials -/

theorem cmp_lt_iff (a b : MaterialKind) : a.cmp b = .lt ↔ rank a < rank b := by
  cases a <;> cases b <;> simp [MaterialKind.cmp, rank]

theorem cmp_gt_iff (a b : MaterialKind) : a.cmp b = .gt ↔ rank b < rank a := by
  cases a <;> cases b <;> simp [MaterialKind.cmp, rank]

theorem ambientLess_iff (a b : MaterialKind × Nat) :
    ambientLess a b = true ↔ a.2 < b.2 ∨ (a.2 = b.2 ∧ rank a.1 < rank b.1) := by
  unfold ambientLess
  split_ifs with h
  · simp [h]
  · rw [not_not] at h
    simp [h, cmp_lt_iff]

theorem overlap1D_iff (a b c d : ℚ) : overlap1D a b c d = true ↔ ∃ z, a ≤ z ∧ z ≤ b ∧ c ≤ z ∧ z ≤ d := by
  unfold overlap1D
  simp only [ge_iff_le, decide_eq_true_eq]
  constructor
  · intro h
    exact ⟨max a c, le_max_left _ _, h.trans (min_le_left _ _), le_max_right _ _, h.trans (min_le_right _ _)⟩
  · rintro ⟨z, h1, h2, h3, h4⟩
    exact (max_le h1 h3).trans (le_min h2 h4)

theorem boxesMeet_iff (a b : Bounding) : a.overlap b = true ↔ BoxesMeet a b := by
  unfold Bounding.overlap BoxesMeet
  simp only [ge_iff_le, Bool.and_eq_true, decide_eq_true_eq]
  constructor
  · rintro ⟨h1, h2⟩
    rw [max_le_iff, le_min_iff, le_min_iff] at h1 h2
    exact ⟨⟨max a.xmin b.xmin, max a.ymin b.ymin⟩, le_max_left _ _, max_le h1.1.1 h1.2.1, le_max_right _ _,
      max_le h1.1.2 h1.2.2, le_max_left _ _, max_le h2.1.1 h2.2.1, le_max_right _ _, max_le h2.1.2 h2.2.2⟩
  · rintro ⟨q, h1, h2, h3, h4, h5, h6, h7, h8⟩
    exact ⟨(max_le h1 h3).trans (le_min h2 h4), (max_le h5 h7).trans (le_min h6 h8)⟩

theorem ambientMatch_iff {P : Nat → BPolygon} {box : Bounding} {current : Option Nat} {i : Nat} {m : MaterialKind}
    {p : Nat} : ambientMatch P box current i = some (m, p) ↔
      ((∃ m, (P i).material = some m) ∧
        (∀ c, current = some c →
          i ≠ c ∧ ∃ z, (P i).zmin ≤ z ∧ z ≤ (P i).zmax ∧ (P c).zmin ≤ z ∧ z ≤ (P c).zmax) ∧
        BoxesMeet (P i).bounding box) ∧ (P i).material = some m ∧ p = (P i).priority := by
  unfold ambientMatch
  rw [← boxesMeet_iff]
  cases hmat : (P i).material with
  | none => simp
  | some n =>
    cases current with
    | none => simp; tauto
    | some c =>
      simp only [Option.some.injEq, forall_eq', ← overlap1D_iff, Bool.and_eq_true, decide_eq_true_eq,
        Option.ite_none_right_eq_some, Prod.mk.injEq, exists_eq', true_and]
      tauto

end Verif.Board
