import Verif.Props.Kinds
import Verif.Props.Run

/-!
# The lines at an edge, in the whole run
-/

namespace Verif.Board
open Verif.Geom
open Verif.Mesh (Sorter MeshParams Kind Policy Fresh FixedAt C48_fixed tolerance)
open Spec

/-! ## What is asked for at a coordinate -/

theorem solveColinear_asks {l : List BEdge} {p : Kind × Mesh.Facing × ℚ} (h : solveColinear l = some (some p)) :
    (p.1 = .oneline ∧ ∃ e ∈ l, Faces .none e) ∨
    (p.1 = .halfs ∧ (∃ e ∈ l, Faces .min e) ∧ ∃ e ∈ l, Faces .max e) ∨
    (p.1 = .thirds ∧ p.2.1 ≠ .none ∧ ∃ e ∈ l, Faces p.2.1 e) := by
  cases l with
  | nil => simp [solveColinear] at h
  | cons front rest =>
    have hc : ∃ coord, segCoord front.seg.p0 front.axis = some coord := by
      cases hc : segCoord front.seg.p0 front.axis with
      | none =>
        rw [solveColinear] at h
        simp only [Option.some.injEq] at h
        rw [hc] at h
        simp at h
      | some c => exact ⟨c, rfl⟩
    obtain ⟨coord, hc⟩ := hc
    rw [solveColinear_eq hc] at h
    obtain ⟨c1, c2⟩ := countFacing_spec (front :: rest) 0 0
    by_cases h0 : ∃ e ∈ front :: rest, Faces .none e
    · rw [if_pos (c1.2 h0)] at h
      obtain rfl := Option.some.inj (Option.some.inj h)
      exact Or.inl ⟨rfl, h0⟩
    · rw [if_neg (mt c1.1 h0)] at h
      obtain ⟨d1, d2⟩ := c2 h0
      by_cases h1 : (countFacing (front :: rest) 0 0).2.1 ≠ 0
      · have m1 := (d1.1 h1).resolve_left (by simp)
        by_cases h2 : (countFacing (front :: rest) 0 0).2.2 ≠ 0
        · have m2 := (d2.1 h2).resolve_left (by simp)
          rw [if_pos ⟨h1, h2⟩] at h
          obtain rfl := Option.some.inj (Option.some.inj h)
          exact Or.inr (Or.inl ⟨rfl, m1, m2⟩)
        · rw [if_neg fun g => h2 g.2, if_pos h1] at h
          obtain rfl := Option.some.inj (Option.some.inj h)
          exact Or.inr (Or.inr ⟨rfl, by simp, m1⟩)
      · rw [if_neg fun g => h1 g.1, if_neg h1] at h
        by_cases h2 : (countFacing (front :: rest) 0 0).2.2 ≠ 0
        · have m2 := (d2.1 h2).resolve_left (by simp)
          rw [if_pos h2] at h
          obtain rfl := Option.some.inj (Option.some.inj h)
          exact Or.inr (Or.inr ⟨rfl, by simp, m2⟩)
        · rw [if_neg h2] at h
          cases Option.some.inj h

theorem solveColinear_heeds {front : BEdge} {rest : List BEdge} {coord : ℚ} (hc : segCoord front.seg.p0 front.axis = some coord)
    {e : BEdge} (he : e ∈ front :: rest) {f : Mesh.Facing} (hf : Faces f e) :
    ∃ kind side, solveColinear (front :: rest) = some (some (kind, side, coord)) ∧ accepted kind side = true ∧
      (kind = .oneline ∨ (f ≠ .none ∧ (kind = .halfs ∨ (kind = .thirds ∧ side = f)))) := by
  rw [solveColinear_eq hc]
  obtain ⟨c1, c2⟩ := countFacing_spec (front :: rest) 0 0
  by_cases h0 : ∃ e ∈ front :: rest, Faces .none e
  · rw [if_pos (c1.2 h0)]; exact ⟨_, _, rfl, rfl, Or.inl rfl⟩
  · rw [if_neg (mt c1.1 h0)]
    obtain ⟨d1, d2⟩ := c2 h0
    have hne : f ≠ .none := by rintro rfl; exact h0 ⟨e, he, hf⟩
    by_cases h1 : (countFacing (front :: rest) 0 0).2.1 ≠ 0 ∧ (countFacing (front :: rest) 0 0).2.2 ≠ 0
    · rw [if_pos h1]; exact ⟨_, _, rfl, rfl, Or.inr ⟨hne, Or.inl rfl⟩⟩
    · rw [if_neg h1]
      cases f with
      | none => exact absurd rfl hne
      | min =>
        rw [if_pos (d1.2 (Or.inr ⟨e, he, hf⟩))]
        exact ⟨_, _, rfl, rfl, Or.inr ⟨hne, Or.inr ⟨rfl, rfl⟩⟩⟩
      | max =>
        have h2 := d2.2 (Or.inr ⟨e, he, hf⟩)
        rw [if_neg fun g => h1 ⟨g, h2⟩, if_pos h2]
        exact ⟨_, _, rfl, rfl, Or.inr ⟨hne, Or.inr ⟨rfl, rfl⟩⟩⟩

/-- There is an edge to mesh at `c`, facing that way along the axis. -/
def EdgeAt (B : Input) (E : Nat → BEdge) (axis : Geom.Axis) (c : ℚ) (f : Mesh.Facing) : Prop :=
  ∃ p, ∃ i ∈ B.edges p, Fixed p (B.E i).seg axis c ∧ Faces f (E i)

/-- There is an edge to mesh at `c` that has no side, on the line of another edge. -/
def SheetAt (B : Input) (E : Nat → BEdge) (axis : Geom.Axis) (c : ℚ) : Prop :=
  ∃ p, ∃ i ∈ B.edges p, Fixed p (B.E i).seg axis c ∧ Faces .none (E i) ∧ ∃ j ∈ B.edges p, i ≠ j ∧ SameLine (B.E i).seg (B.E j).seg

theorem faces_side {e : BEdge} {f : Mesh.Facing} (h : Faces f e) (hf : f ≠ .none) : e.side ≠ .none := by
  rintro hs
  apply hf
  rw [← h.2, hs]
  cases e.toReverse <;> rfl

theorem faces_iff (e : BEdge) (f : Mesh.Facing) : Faces f e ↔ e.toMesh = true ∧ castNormal e.normal = f := by
  unfold Faces
  rw [castNormal_eq]
  unfold BEdge.normal
  cases e.side <;> cases e.toReverse <;> simp [facing, Normal.reverse, opposite]

/-- What kinds are asked for on an axis. -/
theorem board_kinds {B : Input} (hB : Planar B) (hA : LinesApart B) {E : Nat → BEdge} (hE : SameEdges B.E E) {L : List BAngle}
    {m : ToMesh} {axis : Geom.Axis} {asked : List (Kind × Mesh.Facing × ℚ × Bool)}
    (h : boardPolicies B E L m (detectAllColinear B) axis = some asked) :
    (∀ q ∈ asked, q.2.2.2 = true →
      (∃ n < L.length, ∃ va, spaceAxis (angleAt L n).plane va = axis ∧ m n va = true ∧ along va (angleAt L n).p = q.2.2.1) ∨
      (q.1 = .oneline ∧ EdgeAt B E axis q.2.2.1 .none) ∨
      (q.1 = .halfs ∧ EdgeAt B E axis q.2.2.1 .min ∧ EdgeAt B E axis q.2.2.1 .max) ∨
      (q.1 = .thirds ∧ EdgeAt B E axis q.2.2.1 q.2.1)) ∧
    (∀ c, SheetAt B E axis c → ∃ q ∈ asked, q.2.2.2 = true ∧ q.2.2.1 = c ∧ q.1 = .oneline) ∧
    ∀ c f, f ≠ .none → EdgeAt B E axis c f → ∃ q ∈ asked, q.2.2.2 = true ∧ q.2.2.1 = c ∧
      (q.1 = .oneline ∨ q.1 = .halfs ∨ (q.1 = .thirds ∧ q.2.1 = f)) := by
  have hseg : ∀ n, (E n).seg = (B.E n).seg := fun n => by obtain ⟨b, hb⟩ := hE n; rw [hb]
  unfold boardPolicies at h
  obtain ⟨solved, hsolved, rfl⟩ := Option.map_eq_some_iff.1 h
  have hta : ∀ {w c p}, c ∈ detectAllColinear B w → (∀ x ∈ c, ∀ y ∈ c, handed B.E p w x y = true) →
      ∀ x ∈ c, transposeSeg p (E x).axis = some w := by
    intro w c p _ h2 x hx
    have := (handed_iff.1 (h2 x hx x hx)).1
    unfold BEdge.axis at this ⊢
    rw [hseg]
    exact this
  -- the edges of a conflict are at the same coordinate
  have hgroup : ∀ {w c p}, c ∈ detectAllColinear B w → (∀ x ∈ c, x ∈ B.edges p) →
      (∀ x ∈ c, ∀ y ∈ c, handed B.E p w x y = true) → ∀ f ∈ c, ∀ {cf}, segCoord (E f).seg.p0 (E f).axis = some cf →
      ∀ j ∈ c, Fixed p (B.E j).seg w cf := by
    intro w c p hc h1 h2 f hf cf hcf j hj
    obtain ⟨cj, hcj, hnear⟩ := handed_coord (E := E) (by rw [handed_same hE]; exact h2 j hj f hf) hcf
    have g1 := Fixed.of_model (hta hc h2 f hf) hcf
    have g2 := Fixed.of_model (hta hc h2 j hj) hcj
    rw [hseg] at g1 g2
    rw [← fixed_apart hA (h1 j hj) (h1 f hf) g2 g1 hnear]
    exact g2
  have hconf : ∀ {p i c f}, i ∈ B.edges p → Fixed p (B.E i).seg axis c → Faces f (E i) →
      (∃ w, ∃ l ∈ detectAllColinear B w, i ∈ l) → ∃ q ∈ ((solved.filterMap id).map (fun p => (p.1, p.2.1, p.2.2, true)) ++ allPlanes.flatMap fun plane =>
    ((B.edges plane).filterMap fun i =>
      match individual plane (([Geom.Axis.x, .y, .z].any fun w => (detectAllColinear B w).any fun c => c.contains i)) (E i) with
      | some (w, kind, side, coord) => if w = axis then some (kind, side, coord, true) else none
      | none => none) ++
    (anglePolicies (angleAt L) plane m (anglesOf L plane)).filterMap fun p => if p.1 = axis then some p.2 else none).filter
    (fun p => accepted p.1 p.2.1), q.2.2.2 = true ∧ q.2.2.1 = c ∧
        (q.1 = .oneline ∨ (f ≠ .none ∧ (q.1 = .halfs ∨ (q.1 = .thirds ∧ q.2.1 = f)))) := by
    intro p i c f hi hfix hf ⟨w, l, hl, hil⟩
    have hfix' := hfix
    rw [← hseg] at hfix'
    obtain ⟨hti, htc⟩ := hfix'.model
    obtain ⟨-, p', h1, h2⟩ := detectAllColinear_spec hB w l hl
    have hpp : p' = p := (hB.plane p' i (h1 i hil)).symm.trans (hB.plane p i hi)
    subst hpp
    have hw : w = axis := by
      have := hta hl h2 i hil
      rw [hti] at this
      exact (Option.some.inj this).symm
    subst hw
    cases l with
    | nil => simp at hil
    | cons fr rest =>
      obtain ⟨cf, hcf, -⟩ := handed_coord (E := E) (by rw [handed_same hE]; exact h2 fr (by simp) i hil) htc
      have g := hgroup hl h1 h2 fr (by simp) hcf i hil
      rw [← hseg] at g
      obtain ⟨-, g⟩ := g.model
      rw [htc] at g
      obtain rfl := Option.some.inj g
      obtain ⟨kind, side, hsol, hacc, hk⟩ := solveColinear_heeds (rest := rest.map E) hcf
        (by rw [← List.map_cons]; exact List.mem_map_of_mem hil) hf
      obtain ⟨solved', hsolved', hall⟩ := mapM_some (fun c => solveColinear (c.map E)) (detectAllColinear B w)
        (fun c hc => solveColinear_defined (by simpa using (detectAllColinear_spec hB w c hc).1))
      rw [hsolved] at hsolved'
      obtain rfl := Option.some.inj hsolved'
      obtain ⟨b, hb, e⟩ := hall _ hl
      rw [List.map_cons, hsol] at e
      obtain rfl := Option.some.inj e
      refine ⟨(kind, side, c, true), ?_, rfl, rfl, hk⟩
      rw [List.mem_filter]
      exact ⟨List.mem_append_left _ (List.mem_map.2 ⟨(kind, side, c), List.mem_filterMap.2 ⟨_, hb, rfl⟩, rfl⟩), hacc⟩
  refine ⟨?_, ?_, ?_⟩
  · intro q hq hen
    obtain ⟨hq, hacc⟩ := List.mem_filter.1 hq
    rcases List.mem_append.1 hq with hq | hq
    · right
      obtain ⟨r, hr, rfl⟩ := List.mem_map.1 hq
      obtain ⟨r', hr, e⟩ := List.mem_filterMap.1 hr
      simp only [id_eq] at e
      subst e
      obtain ⟨c, hc, hsol⟩ := mapM_mem _ _ hsolved hr
      obtain ⟨⟨front, hf, hcf⟩, -⟩ := solveColinear_source hsol
      obtain ⟨f, hfc, rfl⟩ := List.mem_map.1 hf
      obtain ⟨-, p, h1, h2⟩ := detectAllColinear_spec hB axis c hc
      have hat : ∀ {n}, (∃ e ∈ c.map E, Faces n e) → EdgeAt B E axis r.2.2 n := by
        rintro n ⟨e, he, hf⟩
        obtain ⟨j, hj, rfl⟩ := List.mem_map.1 he
        exact ⟨p, j, h1 j hj, hgroup hc h1 h2 f hfc hcf j hj, hf⟩
      rcases solveColinear_asks hsol with ⟨e, h⟩ | ⟨e, h, h'⟩ | ⟨e, -, h⟩
      · exact Or.inl ⟨e, hat h⟩
      · exact Or.inr (Or.inl ⟨e, hat h, hat h'⟩)
      · exact Or.inr (Or.inr ⟨e, hat h⟩)
    · obtain ⟨p, -, hq⟩ := List.mem_flatMap.1 hq
      rcases List.mem_append.1 hq with hq | hq
      swap
      · left
        obtain ⟨r, hr, e⟩ := List.mem_filterMap.1 hq
        split_ifs at e with hw
        obtain rfl := Option.some.inj e
        obtain ⟨n, hn, hr⟩ := List.mem_flatMap.1 hr
        obtain ⟨va, -, rfl⟩ := List.mem_map.1 hr
        obtain ⟨hn, hpl⟩ := List.mem_filter.1 hn
        refine ⟨n, List.mem_range.1 hn, va, ?_, hen, (coord_along _ _).symm⟩
        rw [of_decide_eq_true hpl, ← axes_space]
        exact hw
      right; right; right
      obtain ⟨i, hi, e⟩ := List.mem_filterMap.1 hq
      unfold individual at e
      cases h1 : segCoord (E i).seg.p0 (E i).axis with
      | none => rw [h1] at e; simp at e
      | some coord =>
        cases h2 : transposeSeg p (E i).axis with
        | none => rw [h1, h2] at e; simp at e
        | some w =>
          rw [h1, h2] at e
          dsimp only at e
          split_ifs at e with h3
          · dsimp only at e
            split_ifs at e with h4
            subst h4
            obtain rfl := Option.some.inj e
            have hfix := Fixed.of_model h2 h1
            rw [hseg] at hfix
            exact ⟨rfl, p, i, hi, hfix, (faces_iff _ _).2 ⟨h3.2, rfl⟩⟩
  · rintro c ⟨p, i, hi, hfix, hf, j, hj, hij, hs⟩
    obtain ⟨q, hq, h1, h2, h3⟩ := hconf hi hfix hf (detectAllColinear_found hB hi hj hij hs)
    exact ⟨q, hq, h1, h2, h3.resolve_right fun h => h.1 rfl⟩
  · rintro c f hne ⟨p, i, hi, hfix, hf⟩
    by_cases hj : ∃ w, ∃ c ∈ detectAllColinear B w, i ∈ c
    · obtain ⟨q, hq, h1, h2, h3⟩ := hconf hi hfix hf hj
      exact ⟨q, hq, h1, h2, h3.imp id And.right⟩
    · have hfix' := hfix
      rw [← hseg] at hfix'
      obtain ⟨hti, htc⟩ := hfix'.model
      have hnone : ([Geom.Axis.x, .y, .z].any fun w => (detectAllColinear B w).any fun c => c.contains i) = false := by
        rw [← Bool.not_eq_true]
        intro h
        obtain ⟨w, -, h⟩ := List.any_eq_true.1 h
        obtain ⟨c, hc, h⟩ := List.any_eq_true.1 h
        exact hj ⟨w, c, hc, by simpa using h⟩
      obtain ⟨hm, hn⟩ := (faces_iff _ _).1 hf
      refine ⟨(.thirds, castNormal (E i).normal, c, true), ?_, rfl, rfl, Or.inr (Or.inr ⟨rfl, hn⟩)⟩
      rw [List.mem_filter]
      constructor
      · refine List.mem_append_right _ (List.mem_flatMap.2 ⟨p, by cases p <;> simp [allPlanes],
          List.mem_append_left _ (List.mem_filterMap.2 ⟨i, hi, ?_⟩)⟩)
        unfold individual
        rw [htc, hti]
        simp only [hnone, hm, and_self, if_true]
      · rw [hn]
        cases f <;> simp_all [accepted]

/-! ## What is on the axis before the merges -/

/-- The policies enabled on an axis before the merges, with what they ask for. -/
theorem axis_holds (g : MeshParams) (fixed : List ℚ) (asked : List (Kind × Mesh.Facing × ℚ × Bool))
    (h : ∀ p ∈ asked, accepted p.1 p.2.1 = true) :
    (∀ R, (axisPolicies g fixed asked).Holds R → (∃ c ∈ fixed, R c .oneline .none) ∨
      ∃ q ∈ asked, q.2.2.2 = true ∧ R q.2.2.1 q.1 q.2.1) ∧
    (∀ q ∈ asked, q.2.2.2 = true → ∀ R : ℚ → Kind → Mesh.Facing → Prop, R q.2.2.1 q.1 q.2.1 → (axisPolicies g fixed asked).Holds R) ∧
    ∀ c ∈ fixed, ∃ c' ∈ fixed, |c' - c| < tolerance ∧
      ∀ R : ℚ → Kind → Mesh.Facing → Prop, R c' .oneline .none → (axisPolicies g fixed asked).Holds R := by
  obtain ⟨new, h1, h2, -, -, h5⟩ := C48_fixed g emptyAxis fixed
  have e : emptyAxis.policies = [] := rfl
  rw [e, List.nil_append] at h5
  have hpol : (axisPolicies g fixed asked).policies = new ++ asked.map fun p => Policy.make g.dmax p.2.2.1 p.1 p.2.1 p.2.2.2 := by
    unfold axisPolicies
    rw [fold_policies g asked _ h, h1, e, List.nil_append]
  have hhold : ∀ R : ℚ → Kind → Mesh.Facing → Prop, (axisPolicies g fixed asked).Holds R ↔
      ∃ p ∈ (axisPolicies g fixed asked).policies, p.enabled = true ∧ R p.coord p.kind p.normal := by
    intro R
    constructor
    · rintro ⟨k, ⟨p, hp, he⟩, hR⟩
      refine ⟨p, List.mem_of_getElem? hp, he, ?_⟩
      simpa [Mesh.Axis.get, hp] using hR
    · rintro ⟨p, hp, he, hR⟩
      obtain ⟨k, hk⟩ := List.getElem?_of_mem hp
      exact ⟨k, ⟨p, hk, he⟩, by simpa [Mesh.Axis.get, hk] using hR⟩
  simp only [hhold, hpol]
  refine ⟨?_, ?_, ?_⟩
  · rintro R ⟨p, hp, he, hR⟩
    rcases List.mem_append.1 hp with hp | hp
    · obtain ⟨⟨f1, f2⟩, -, f3⟩ := h2 p hp
      rw [f1, f2] at hR
      exact Or.inl ⟨_, f3, hR⟩
    · obtain ⟨q, hq, rfl⟩ := List.mem_map.1 hp
      exact Or.inr ⟨q, hq, he, hR⟩
  · intro q hq he R hR
    exact ⟨_, List.mem_append_right _ (List.mem_map_of_mem hq), he, hR⟩
  · intro c hc
    obtain ⟨p, hp, -, hnear⟩ := h5 c hc
    obtain ⟨⟨f1, f2⟩, f3, f4⟩ := h2 p hp
    refine ⟨p.coord, f4, hnear, fun R hR => ⟨p, List.mem_append_left _ hp, f3, ?_⟩⟩
    rw [f1, f2]
    exact hR

/-! ## What the steps that follow leave of it -/

theorem outcome_bind_ok {α β : Type} {o : Outcome α} {f : α → Outcome β} {b : β} (h : o.bind f = .ok b) :
    ∃ a, o = .ok a ∧ f a = .ok b := by
  cases o with
  | ok a => exact ⟨a, rfl, h⟩
  | ub => cases h
  | diverges => cases h

theorem orUb_ok {α : Type} {o : Option α} {a : α} (h : Outcome.orUb o = .ok a) : o = some a := by
  cases o with
  | none => cases h
  | some b => rw [Outcome.ok.inj h]

theorem orDiverges_ok {α : Type} {o : Option α} {a : α} (h : Outcome.orDiverges o = .ok a) : o = some a := by
  cases o with
  | none => cases h
  | some b => rw [Outcome.ok.inj h]

theorem makeIntervals_onlyD (g : MeshParams) (l : List Nat) : ∀ ps : Mesh.Policies, Mesh.OnlyD ps (Mesh.makeIntervals g ps l).1 := by
  have hside : ∀ (ps : Mesh.Policies) (i lmin : Nat) (s h : ℚ), Mesh.OnlyD ps (Mesh.Side.make ps i lmin s h).1 := by
    intro ps i lmin s h
    unfold Mesh.Side.make
    split_ifs
    · exact Mesh.OnlyD.setD _ _ _
    · exact Mesh.OnlyD.refl _
  induction l with
  | nil => exact fun ps => Mesh.OnlyD.refl ps
  | cons x l ih =>
    intro ps
    cases l with
    | nil => exact Mesh.OnlyD.refl ps
    | cons y l =>
      have h1 : Mesh.OnlyD ps (Mesh.Interval.make ps x y g.lmin g.smoothness g.dmax).1 :=
        Mesh.OnlyD.trans (hside _ _ g.lmin g.smoothness _) (hside _ _ g.lmin g.smoothness _)
      exact h1.trans (ih (Mesh.Interval.make ps x y g.lmin g.smoothness g.dmax).1)

theorem withPolicies_same {a x : Mesh.Axis} {ps : Mesh.Policies} (h : Mesh.OnlyD a.get ps)
    (hx : x.policies = (a.withPolicies ps).policies) :
    ∀ k, (x.Enabled k ↔ a.Enabled k) ∧ ∃ d, x.get k = { a.get k with d := d } := by
  intro k
  constructor
  · have := Mesh.withPolicies_enabled (a := a) (ps := ps) (fun k => by obtain ⟨d, e⟩ := h k; rw [e]) k
    rw [← this]
    unfold Mesh.Axis.Enabled
    rw [hx]
  · have e : x.get k = (a.withPolicies ps).get k := by unfold Mesh.Axis.get; rw [hx]
    rw [e]
    by_cases hk : k < a.policies.length
    · rw [Mesh.withPolicies_get hk]
      exact h k
    · refine ⟨(a.get k).d, ?_⟩
      simp [Mesh.Axis.get, Mesh.Axis.withPolicies, Mesh.Axis.pointers, hk]

/-- After the merges, only the distances of policies change. -/
theorem finish_same {S : Sorters} {g : MeshParams} {A : Nat → BAngle} {zones : List Zone} {a c : Mesh.Axis}
    (h : finishAxis S g A zones a = .ok c) :
    ∃ b, a.solveTooClose S.pointers g = some b ∧ ∀ k, (c.Enabled k ↔ b.Enabled k) ∧ ∃ d, c.get k = { b.get k with d := d } := by
  unfold finishAxis at h
  obtain ⟨b, hb, h⟩ := outcome_bind_ok h
  obtain ⟨z, hz, h⟩ := outcome_bind_ok h
  refine ⟨b, orDiverges_ok hb, ?_⟩
  have hz := orUb_ok hz
  unfold zoneIntervals at hz
  obtain ⟨zs, -, rfl⟩ := Option.map_eq_some_iff.1 hz
  obtain ⟨ps, honly, hpol⟩ := Mesh.mesh_onlyD (orDiverges_ok h)
  intro k
  obtain ⟨e1, d1, g1⟩ := withPolicies_same honly hpol k
  obtain ⟨e2, d2, g2⟩ := withPolicies_same (makeIntervals_onlyD g (S.pointers.sort (fun i => (b.get i).coord) b.enabledPointers) b.get)
    (x := b.detectIntervals S.pointers g) rfl k
  refine ⟨e1.trans e2, d1, ?_⟩
  rw [g1]
  show { (b.detectIntervals S.pointers g).get k with d := d1 } = _
  rw [g2]

/-- The parts of a run that ends. -/
theorem run_parts {S : Sorters} {g : MeshParams} {gz : ZoneParams} {B : Input} {axis : Geom.Axis} {E : Nat → BEdge}
    {a : Mesh.Axis} (h : runSteps S g gz B axis = .ok (E, a)) :
    ∃ d asked, diagonalSteps S.pointers gz B = some d ∧ SameEdges B.E E ∧
      boardPolicies B E d.1 d.2.2 (detectAllColinear B) axis = some asked ∧
      finishAxis S g (angleAt d.1) (d.2.1 axis) (axisPolicies g (B.fixed axis) asked) = .ok a := by
  unfold runSteps at h
  obtain ⟨d, hd, h⟩ := outcome_bind_ok h
  obtain ⟨conflicts, -, h⟩ := outcome_bind_ok h
  obtain ⟨E', hE, h⟩ := outcome_bind_ok h
  obtain ⟨asked, hasked, h⟩ := outcome_bind_ok h
  obtain ⟨a', ha, h⟩ := outcome_bind_ok h
  obtain ⟨rfl, rfl⟩ := Prod.mk.inj (Outcome.ok.inj h)
  refine ⟨d, asked, orUb_ok hd, ?_, orUb_ok hasked, ha⟩
  have one : ∀ (s : InPolygon) (X Y : Nat → BEdge), solveAllInPolygon S.overlaps X s = some Y → SameEdges X Y := by
    intro s
    induction s with
    | nil => intro X Y h; rw [← Option.some.inj h]; exact SameEdges.refl X
    | cons c s ih =>
      intro X Y h
      obtain ⟨n, os⟩ := c
      unfold solveAllInPolygon at h
      cases hb : solveInPolygon S.overlaps (X n) (os.map (Found.overlap X)) with
      | none => rw [hb] at h; cases h
      | some b =>
        rw [hb] at h
        have h2 := ih _ _ h
        intro k
        obtain ⟨b', hb'⟩ := h2 k
        refine ⟨b', ?_⟩
        rw [hb']
        unfold setMesh
        split_ifs <;> rfl
  have all : ∀ (l : List InPolygon) (X Y : Nat → BEdge), l.foldlM (solveAllInPolygon S.overlaps) X = some Y → SameEdges X Y := by
    intro l
    induction l with
    | nil => intro X Y h; rw [← Option.some.inj h]; exact SameEdges.refl X
    | cons s l ih =>
      intro X Y h
      rw [List.foldlM_cons] at h
      obtain ⟨Z, hZ, h⟩ := Option.bind_eq_some_iff.1 h
      intro k
      obtain ⟨b1, e1⟩ := one _ _ _ hZ k
      obtain ⟨b2, e2⟩ := ih _ _ h k
      exact ⟨b2, by rw [e2, e1]⟩
  exact all _ _ _ (orUb_ok hE)

/-- The angles to mesh are under slanted edges. -/
theorem angle_under {B : Input} (hB : Built B) {S : Sorter Nat} {gz : ZoneParams} {L : List BAngle} {zones : Zones} {m : ToMesh}
    (hd : diagonalSteps S gz B = some (L, zones, m)) {axis : Geom.Axis} {n : Nat} {va : ViewAxis}
    (hva : spaceAxis (angleAt L n).plane va = axis) (hm : m n va = true) : UnderSlanted B axis (along va (angleAt L n).p) := by
  obtain ⟨L', zones', m', new, hdiag, d1, d2, d3, -, d5⟩ := diagonal_spec hB S gz
  rw [hd] at hdiag
  obtain ⟨rfl, e⟩ := Prod.mk.inj (Option.some.inj hdiag)
  obtain ⟨rfl, rfl⟩ := Prod.mk.inj e
  have hzone : ∃ z ∈ zones axis, n ∈ z.angles := by
    by_contra hc
    have := d5 n va (by rw [hva]; exact fun z hz hmem => hc ⟨z, hz, hmem⟩)
    rw [hm] at this
    cases this
  obtain ⟨z, hz, hmem⟩ := hzone
  obtain ⟨p, va', hw, hz'⟩ := (d2 _ _).1 hz
  obtain ⟨-, -, -, hpl⟩ := d3 p va' z hz'
  have hp := (hpl n hmem).2
  have hvv : va' = va := by
    rw [hp, ← hw] at hva
    exact spaceAxis_inj hva.symm
  subst hvv
  obtain ⟨lo, hi, hsp, -, hu⟩ := (d1 p va').spans z hz'
  exact ⟨p, va', hw, hu _ (hsp.2.2 n hmem).1 (hsp.2.2 n hmem).2⟩

/-- Nothing that asks for lines is near `c` without being at it. -/
structure Alone (B : Input) (E : Nat → BEdge) (axis : Geom.Axis) (limit c : ℚ) : Prop where
  wanted : ∀ x, Wanted B E axis x → x = c ∨ (limit < |x - c| ∧ tolerance ≤ |x - c|)
  slanted : ∀ x, UnderSlanted B axis x → limit < |x - c|

/-- Lines are asked for at `c`: a fixed line, or edges to mesh with a side or on the line of another. -/
def Asks (B : Input) (E : Nat → BEdge) (axis : Geom.Axis) (c : ℚ) : Prop :=
  c ∈ B.fixed axis ∨ SheetAt B E axis c ∨ ∃ f, f ≠ .none ∧ EdgeAt B E axis c f

theorem run_kind (S : Sorters) (g : MeshParams) (hl : 0 ≤ g.proximityLimit) {gz : ZoneParams} {B : Input} (hB : Built B)
    (hA : LinesApart B) {axis : Geom.Axis} {E : Nat → BEdge} {a : Mesh.Axis} (h : runSteps S g gz B axis = .ok (E, a)) {c : ℚ}
    (hc : Alone B E axis g.proximityLimit c)
    (hat : Asks B E axis c) :
    (∃ k, a.Enabled k ∧ (a.get k).coord = c ∧ (∀ j, a.Enabled j → j ≠ k → g.proximityLimit < |(a.get j).coord - c|) ∧
      (c ∈ B.fixed axis ∨ SheetAt B E axis c → (a.get k).kind = .oneline) ∧
      (c ∉ B.fixed axis → ¬ EdgeAt B E axis c .none → EdgeAt B E axis c .min → EdgeAt B E axis c .max → (a.get k).kind = .halfs) ∧
      ∀ f, c ∉ B.fixed axis → ¬ EdgeAt B E axis c .none → f ≠ .none → EdgeAt B E axis c f →
        ¬ EdgeAt B E axis c (opposite f) → (a.get k).kind = .thirds ∧ (a.get k).normal = f) ∧
      ((∃ x, c < x ∧ Asks B E axis x) → ∃ k, a.Enabled k ∧ c < (a.get k).coord) ∧
      ((∃ x, x < c ∧ Asks B E axis x) → ∃ k, a.Enabled k ∧ (a.get k).coord < c) := by
  obtain ⟨⟨L, zones, m⟩, asked, hd, hE, hasked, hfin⟩ := run_parts h
  obtain ⟨asked', hasked', hacc, -⟩ := board_policies (planar hB hA) hE L m axis
  rw [hasked] at hasked'
  obtain rfl := Option.some.inj hasked'
  obtain ⟨b1, b2, b3⟩ := board_kinds (planar hB hA) hA hE hasked
  obtain ⟨x1, x2, x3⟩ := axis_holds g (B.fixed axis) asked hacc
  obtain ⟨hfresh, -⟩ := axis_policies g (B.fixed axis) asked hacc
  obtain ⟨b, hb, hsame⟩ := finish_same hfin
  set a0 := axisPolicies g (B.fixed axis) asked with ha0
  clear_value a0
  -- edges to mesh are wanted
  have hwant : ∀ {x f}, EdgeAt B E axis x f → Wanted B E axis x := by
    rintro x f ⟨p, i, hi, hfix, hf⟩
    obtain ⟨n, hn, e, he, rfl⟩ := mem_edges.1 hi
    rw [(hB.edge p n hn e he).1] at hfix
    exact Or.inr ⟨p, n, hn, e, he, hf.1, hfix⟩
  have hnot : ∀ {x}, UnderSlanted B axis x → x ≠ c := by
    rintro x hx rfl
    have := hc.slanted x hx
    rw [sub_self, abs_zero] at this
    linarith
  -- the votes
  have vone : a0.One c → c ∈ B.fixed axis ∨ EdgeAt B E axis c .none := by
    intro ho
    rcases x1 _ ho with ⟨c', hc', rfl, -⟩ | ⟨q, hq, hen, rfl, hk⟩
    · exact Or.inl hc'
    · rcases b1 q hq hen with ⟨n, hn, va, h1, h2, h3⟩ | ⟨-, h⟩ | ⟨h, -⟩ | ⟨h, -⟩
      · exact absurd h3 (hnot (angle_under hB hd h1 h2))
      · exact Or.inr h
      · rw [hk] at h; cases h
      · rw [hk] at h; cases h
  have vhalf : a0.Half c → EdgeAt B E axis c .min ∧ EdgeAt B E axis c .max := by
    intro ho
    rcases x1 _ ho with ⟨c', hc', rfl, hk⟩ | ⟨q, hq, hen, rfl, hk⟩
    · cases hk
    · rcases b1 q hq hen with ⟨n, hn, va, h1, h2, h3⟩ | ⟨h, -⟩ | ⟨-, h⟩ | ⟨h, -⟩
      · exact absurd h3 (hnot (angle_under hB hd h1 h2))
      · rw [hk] at h; cases h
      · exact h
      · rw [hk] at h; cases h
  have vthird : ∀ {n}, a0.Third c n → EdgeAt B E axis c n := by
    intro n ho
    rcases x1 _ ho with ⟨c', hc', rfl, hk, -⟩ | ⟨q, hq, hen, rfl, hk, rfl⟩
    · cases hk
    · rcases b1 q hq hen with ⟨n, hn, va, h1, h2, h3⟩ | ⟨h, -⟩ | ⟨h, -⟩ | ⟨-, h⟩
      · exact absurd h3 (hnot (angle_under hB hd h1 h2))
      · rw [hk] at h; cases h
      · rw [hk] at h; cases h
      · exact h
  have oneOf : c ∈ B.fixed axis ∨ SheetAt B E axis c → a0.One c := by
    rintro (hc' | hs)
    · obtain ⟨c', h1, h2, h3⟩ := x3 c hc'
      refine h3 _ ⟨?_, rfl⟩
      rcases hc.wanted c' (Or.inl h1) with h | ⟨-, h⟩
      · exact h
      · linarith
    · obtain ⟨q, hq, h1, h2, h3⟩ := b2 c hs
      exact x2 q hq h1 _ ⟨h2, h3⟩
  have edgeOf : ∀ {f}, f ≠ .none → EdgeAt B E axis c f → a0.One c ∨ a0.Half c ∨ a0.Third c f := by
    intro f hne he
    obtain ⟨q, hq, h1, h2, h3⟩ := b3 c f hne he
    rcases h3 with h3 | h3 | h3
    · exact Or.inl (x2 q hq h1 _ ⟨h2, h3⟩)
    · exact Or.inr (Or.inl (x2 q hq h1 _ ⟨h2, h3⟩))
    · exact Or.inr (Or.inr (x2 q hq h1 _ ⟨h2, h3⟩))
  have hsides : ∀ x, Asks B E axis x → ∀ R : ℚ → Prop, R x → (∀ x', Wanted B E axis x ∧ |x' - x| < tolerance → R x') →
      ∃ k, a0.Enabled k ∧ R (a0.get k).coord := by
    intro x hask R hR hnear
    rcases hask with hf | hs | ⟨f, hne, he⟩
    · obtain ⟨c', h1, h2, h3⟩ := x3 x hf
      exact h3 (fun coord _ _ => R coord) (hnear c' ⟨Or.inl hf, h2⟩)
    · obtain ⟨q, hq, h1, h2, -⟩ := b2 x hs
      exact x2 q hq h1 (fun coord _ _ => R coord) (h2 ▸ hR)
    · obtain ⟨q, hq, h1, h2, -⟩ := b3 x f hne he
      exact x2 q hq h1 (fun coord _ _ => R coord) (h2 ▸ hR)
  have hthere : ∃ k, a0.Enabled k ∧ (a0.get k).coord = c := by
    have : a0.One c ∨ a0.Half c ∨ ∃ f, a0.Third c f := by
      rcases hat with h | h | ⟨f, hne, h⟩
      · exact Or.inl (oneOf (Or.inl h))
      · exact Or.inl (oneOf (Or.inr h))
      · exact (edgeOf hne h).imp id (Or.imp id fun h => ⟨f, h⟩)
    rcases this with ⟨k, hk, h, -⟩ | ⟨k, hk, h, -⟩ | ⟨f, k, hk, h, -⟩ <;> exact ⟨k, hk, h⟩
  have hfar : ∀ k, a0.Enabled k → (a0.get k).coord = c ∨ g.proximityLimit < |(a0.get k).coord - c| := by
    intro k hk
    by_contra hn
    rcases x1 (fun coord _ _ => ¬ (coord = c ∨ g.proximityLimit < |coord - c|)) ⟨k, hk, hn⟩ with ⟨c', hc', h⟩ | ⟨q, hq, hen, h⟩
    · exact h ((hc.wanted c' (Or.inl hc')).imp id And.left)
    · apply h
      rcases b1 q hq hen with ⟨n, hn, va, h1, h2, h3⟩ | ⟨-, h⟩ | ⟨-, h, -⟩ | ⟨-, h⟩
      · rw [← h3]
        exact Or.inr (hc.slanted _ (angle_under hB hd h1 h2))
      · exact (hc.wanted _ (hwant h)).imp id And.left
      · exact (hc.wanted _ (hwant h)).imp id And.left
      · exact (hc.wanted _ (hwant h)).imp id And.left
  obtain ⟨k, hk, hkc, hothers, k1, k2, k3⟩ := Mesh.C87_kind S.pointers g a0 b hfresh.unmerged hfresh.coherent hl hb hthere hfar
  have hcoord : ∀ j, (a.get j).coord = (b.get j).coord := fun j => by obtain ⟨-, d, e⟩ := hsame j; rw [e]
  have hkind : (a.get k).kind = (b.get k).kind := by obtain ⟨-, d, e⟩ := hsame k; rw [e]
  have hnormal : (a.get k).normal = (b.get k).normal := by obtain ⟨-, d, e⟩ := hsame k; rw [e]
  refine ⟨⟨k, (hsame k).1.2 hk, (hcoord k).trans hkc, fun j hj hne => ?_, fun h => ?_, fun h1 h2 h3 h4 => ?_, fun f h1 h2 hne h3 h4 => ?_⟩, ?_, ?_⟩
  · rw [hcoord]
    exact hothers j ((hsame j).1.1 hj) hne
  · rw [hkind]
    exact (k1 (oneOf h)).1
  · have hno : ¬ a0.One c := fun h => (vone h).elim h1 h2
    rw [hkind]
    refine (k2 hno ?_).1
    rcases (edgeOf (by simp) h3).resolve_left hno with h | h
    · exact Or.inl h
    · rcases (edgeOf (by simp) h4).resolve_left hno with h' | h'
      · exact Or.inl h'
      · exact Or.inr ⟨h, h'⟩
  · have hno : ¬ a0.One c := fun h => (vone h).elim h1 h2
    have hboth : ¬ (EdgeAt B E axis c .min ∧ EdgeAt B E axis c .max) := by
      rintro ⟨g1, g2⟩
      cases f with
      | none => exact hne rfl
      | min => exact h4 g2
      | max => exact h4 g1
    obtain ⟨e1, e2, e3⟩ := k3 hno (fun h => hboth (vhalf h)) fun h => hboth ⟨vthird h.1, vthird h.2⟩
    rw [hkind, hnormal]
    refine ⟨e1, ?_⟩
    have e4 := vthird e3
    generalize (b.get k).normal = n at *
    cases f <;> cases n <;> first | rfl | exact absurd rfl hne | exact absurd rfl e2 | exact absurd e4 h4
  · rintro ⟨x, hx, hask⟩
    obtain ⟨j, hj, hjx⟩ := (Mesh.C87_others S.pointers g a0 b hfresh.unmerged hfresh.coherent hl hb hfar).1
      (hsides x hask (fun y => c < y) hx fun x' h => by
        have := abs_lt.1 h.2
        rcases hc.wanted x h.1 with e | ⟨-, e⟩
        · linarith
        · rw [abs_of_pos (by linarith)] at e
          linarith)
    exact ⟨j, (hsame j).1.2 hj, by rw [hcoord]; exact hjx⟩
  · rintro ⟨x, hx, hask⟩
    obtain ⟨j, hj, hjx⟩ := (Mesh.C87_others S.pointers g a0 b hfresh.unmerged hfresh.coherent hl hb hfar).2
      (hsides x hask (fun y => y < c) hx fun x' h => by
        have := abs_lt.1 h.2
        rcases hc.wanted x h.1 with e | ⟨-, e⟩
        · linarith
        · rw [abs_of_neg (by linarith)] at e
          linarith)
    exact ⟨j, (hsame j).1.2 hj, by rw [hcoord]; exact hjx⟩

/-- C88. When the steps end, where nothing else that asks for lines is near a coordinate with edges to mesh or a fixed line, there
is exactly one policy, at that coordinate: it asks for one line when the coordinate is fixed or an edge without side is there on
the line of another; else for halves when edges face both ways; else it is of thirds and faces the way the edges do. -/
theorem C88_kind (S : Sorters) (g : MeshParams) (hl : 0 ≤ g.proximityLimit) {gz : ZoneParams} {B : Input} (hB : Built B)
    (hA : LinesApart B) {axis : Geom.Axis} {E : Nat → BEdge} {a : Mesh.Axis} (h : runSteps S g gz B axis = .ok (E, a)) {c : ℚ}
    (hc : Alone B E axis g.proximityLimit c)
    (hat : Asks B E axis c) :
    ∃ k, a.Enabled k ∧ (a.get k).coord = c ∧ (∀ j, a.Enabled j → j ≠ k → g.proximityLimit < |(a.get j).coord - c|) ∧
      (c ∈ B.fixed axis ∨ SheetAt B E axis c → (a.get k).kind = .oneline) ∧
      (c ∉ B.fixed axis → ¬ EdgeAt B E axis c .none → EdgeAt B E axis c .min → EdgeAt B E axis c .max → (a.get k).kind = .halfs) ∧
      ∀ f, c ∉ B.fixed axis → ¬ EdgeAt B E axis c .none → f ≠ .none → EdgeAt B E axis c f →
        ¬ EdgeAt B E axis c (opposite f) → (a.get k).kind = .thirds ∧ (a.get k).normal = f :=
  (run_kind S g hl hB hA h hc hat).1

/-- Lines drawn around a coordinate that is alone. -/
theorem run_lines (S : Sorters) (g : MeshParams) (hl : 0 ≤ g.proximityLimit) {gz : ZoneParams} {B : Input} (hB : Built B) (hA : LinesApart B) {axis : Geom.Axis} {E : Nat → BEdge}
    {a : Mesh.Axis} (h : runSteps S g gz B axis = .ok (E, a)) {c : ℚ} (hc : Alone B E axis g.proximityLimit c) {D : ℚ}
    (hdrawn : a.Drawn g.proximityLimit D) :
    (c ∈ B.fixed axis ∨ SheetAt B E axis c → c ∈ a.meshlines) ∧
    (c ∉ B.fixed axis → ¬ EdgeAt B E axis c .none → EdgeAt B E axis c .min → EdgeAt B E axis c .max →
      c ∉ a.meshlines ∧
      ((∃ x, c < x ∧ Asks B E axis x) → ∃ d ≤ D, Mesh.NextAbove a.meshlines c (d / 2)) ∧
      ((∃ x, x < c ∧ Asks B E axis x) → ∃ d ≤ D, Mesh.NextBelow a.meshlines c (d / 2))) ∧
    (c ∉ B.fixed axis → ¬ EdgeAt B E axis c .none → EdgeAt B E axis c .min → ¬ EdgeAt B E axis c .max →
      c ∉ a.meshlines ∧
      ((∃ x, c < x ∧ Asks B E axis x) → ∃ d ≤ D, Mesh.NextAbove a.meshlines c (d / 3)) ∧
      ((∃ x, x < c ∧ Asks B E axis x) → ∃ d ≤ D, Mesh.NextBelow a.meshlines c (2 * d / 3))) ∧
    (c ∉ B.fixed axis → ¬ EdgeAt B E axis c .none → EdgeAt B E axis c .max → ¬ EdgeAt B E axis c .min →
      c ∉ a.meshlines ∧
      ((∃ x, c < x ∧ Asks B E axis x) → ∃ d ≤ D, Mesh.NextAbove a.meshlines c (2 * d / 3)) ∧
      ((∃ x, x < c ∧ Asks B E axis x) → ∃ d ≤ D, Mesh.NextBelow a.meshlines c (d / 3))) := by
  have around : ∀ k, a.Enabled k → (a.get k).coord = c → (a.get k).kind ≠ .oneline → ∀ u w, 1 - (a.get k).lowShare = u →
      (a.get k).lowShare = w → Asks B E axis c → c ∉ a.meshlines ∧
      ((∃ x, c < x ∧ Asks B E axis x) → ∃ d ≤ D, Mesh.NextAbove a.meshlines c (u * d)) ∧
      ((∃ x, x < c ∧ Asks B E axis x) → ∃ d ≤ D, Mesh.NextBelow a.meshlines c (w * d)) := by
    intro k hk hkc hkind u w hu hw hask
    obtain ⟨-, h1, h2⟩ := run_kind S g hl hB hA h hc hask
    have g1 := hdrawn.off k hk hkind
    have g2 := hdrawn.above k hk hkind
    have g3 := hdrawn.below k hk hkind
    rw [hkc] at g1 g2 g3
    rw [hu] at g2
    rw [hw] at g3
    exact ⟨g1, fun hx => g2 (h1 hx), fun hx => g3 (h2 hx)⟩
  refine ⟨fun h1 => ?_, fun h1 h2 h3 h4 => ?_, fun h1 h2 h3 h4 => ?_, fun h1 h2 h3 h4 => ?_⟩
  · obtain ⟨⟨k, hk, hkc, -, k1, -⟩, -⟩ := run_kind S g hl hB hA h hc (h1.imp id Or.inl)
    have := hdrawn.oneline k hk (k1 h1)
    rwa [hkc] at this
  · have hask : Asks B E axis c := Or.inr (Or.inr ⟨.min, by simp, h3⟩)
    obtain ⟨⟨k, hk, hkc, -, -, k2, -⟩, -⟩ := run_kind S g hl hB hA h hc hask
    have e := k2 h1 h2 h3 h4
    obtain ⟨r1, r2, r3⟩ := around k hk hkc (by rw [e]; simp) (1 / 2) (1 / 2) (by unfold Policy.lowShare; rw [e, if_neg (by decide)]; norm_num)
      (by unfold Policy.lowShare; rw [e, if_neg (by decide)]) hask
    simp only [one_div_mul_eq_div] at r2 r3
    exact ⟨r1, r2, r3⟩
  · have hask : Asks B E axis c := Or.inr (Or.inr ⟨.min, by simp, h3⟩)
    obtain ⟨⟨k, hk, hkc, -, -, -, k3⟩, -⟩ := run_kind S g hl hB hA h hc hask
    obtain ⟨e, e'⟩ := k3 .min h1 h2 (by simp) h3 h4
    obtain ⟨r1, r2, r3⟩ := around k hk hkc (by rw [e]; simp) (1 / 3) (2 / 3) (by unfold Policy.lowShare; rw [e, e']; norm_num)
      (by unfold Policy.lowShare; rw [e, e']; norm_num) hask
    simp only [div_mul_eq_mul_div, one_mul] at r2 r3
    exact ⟨r1, r2, r3⟩
  · have hask : Asks B E axis c := Or.inr (Or.inr ⟨.max, by simp, h3⟩)
    obtain ⟨⟨k, hk, hkc, -, -, -, k3⟩, -⟩ := run_kind S g hl hB hA h hc hask
    obtain ⟨e, e'⟩ := k3 .max h1 h2 (by simp) h3 h4
    obtain ⟨r1, r2, r3⟩ := around k hk hkc (by rw [e]; simp) (2 / 3) (1 / 3) (by unfold Policy.lowShare; rw [e, e', if_pos rfl, if_neg (by decide)]; norm_num)
      (by unfold Policy.lowShare; rw [e, e', if_pos rfl, if_neg (by decide)]) hask
    simp only [div_mul_eq_mul_div, one_mul] at r2 r3
    exact ⟨r1, r2, r3⟩

/-- C88, the lines: where nothing else is near, there is a line at a fixed coordinate and at a sheet; there is none at edges with
sides, but one at each side, towards other asked coordinates, at half a cell when they face both ways, and else at a third of a
cell inwards and two thirds outwards. -/
theorem C88_lines (S : Sorters) (g : MeshParams) (hg : g.InRange) (hl : 0 ≤ g.proximityLimit) {gz : ZoneParams}
    (hz : 0 < gz.diagonalDmax) {B : Input} (hB : Built B) (hA : LinesApart B) {axis : Geom.Axis} {E : Nat → BEdge}
    {a : Mesh.Axis} (h : runSteps S g gz B axis = .ok (E, a)) {c : ℚ} (hc : Alone B E axis g.proximityLimit c) :
    (c ∈ B.fixed axis ∨ SheetAt B E axis c → c ∈ a.meshlines) ∧
    (c ∉ B.fixed axis → ¬ EdgeAt B E axis c .none → EdgeAt B E axis c .min → EdgeAt B E axis c .max →
      c ∉ a.meshlines ∧
      ((∃ x, c < x ∧ Asks B E axis x) → ∃ d ≤ g.dmax / 2, Mesh.NextAbove a.meshlines c (d / 2)) ∧
      ((∃ x, x < c ∧ Asks B E axis x) → ∃ d ≤ g.dmax / 2, Mesh.NextBelow a.meshlines c (d / 2))) ∧
    (c ∉ B.fixed axis → ¬ EdgeAt B E axis c .none → EdgeAt B E axis c .min → ¬ EdgeAt B E axis c .max →
      c ∉ a.meshlines ∧
      ((∃ x, c < x ∧ Asks B E axis x) → ∃ d ≤ g.dmax / 2, Mesh.NextAbove a.meshlines c (d / 3)) ∧
      ((∃ x, x < c ∧ Asks B E axis x) → ∃ d ≤ g.dmax / 2, Mesh.NextBelow a.meshlines c (2 * d / 3))) ∧
    (c ∉ B.fixed axis → ¬ EdgeAt B E axis c .none → EdgeAt B E axis c .max → ¬ EdgeAt B E axis c .min →
      c ∉ a.meshlines ∧
      ((∃ x, c < x ∧ Asks B E axis x) → ∃ d ≤ g.dmax / 2, Mesh.NextAbove a.meshlines c (2 * d / 3)) ∧
      ((∃ x, x < c ∧ Asks B E axis x) → ∃ d ≤ g.dmax / 2, Mesh.NextBelow a.meshlines c (d / 3))) := by
  obtain ⟨-, -, hdrawn, -⟩ := C82_run S g hg hl hz hB hA h
  exact run_lines S g hl hB hA h hc hdrawn

/-- On the axis z of `nestedBoard` there are the two ends of a box: no edge faces both ways, and the run ends. -/
theorem nestedBoard_third (S : Sorters) : ∃ E a, runSteps S ⟨1 / 2, 2, 1, 1⟩ ⟨1, 1, 1, 1⟩ nestedBoard .z = .ok (E, a) ∧
    Alone nestedBoard E .z (1 / 2) 3 ∧ 3 ∉ nestedBoard.fixed .z ∧ EdgeAt nestedBoard E .z 3 .max ∧
    (∀ f, EdgeAt nestedBoard E .z 3 f → f = .max) ∧ Asks nestedBoard E .z 1 := by
  obtain ⟨E, a, hrun, -, -, -, -, hcov, -⟩ := C81_boxes S ⟨1 / 2, 2, 1, 1⟩ ⟨by norm_num, by norm_num⟩ (by norm_num) ⟨1, 1, 1, 1⟩
    nestedBoard_boxes .z
  obtain ⟨d, asked, -, hE, -⟩ := run_parts hrun
  have hmesh : ∀ e ∈ (nestedBoard.P 2).edges, (E e.1).toMesh = true := by
    intro e he
    rw [← Bool.not_eq_false]
    intro hf
    obtain ⟨b, hb, hh, -⟩ := (hcov .zx 2 (by decide) e he).1 hf e.2.p0 ⟨0, by norm_num⟩
    simp only [nestedBoard, List.mem_cons, List.not_mem_nil, or_false] at hb
    exact hh.1 hb
  have hfaces : ∀ n, (E n).side = (nestedBoard.E n).side ∧ (E n).toReverse = (nestedBoard.E n).toReverse := by
    intro n
    obtain ⟨b, e⟩ := hE n
    rw [e]
    exact ⟨rfl, rfl⟩
  have hseg : ∀ n ∈ nestedBoard.edges .zx, (nestedBoard.E n).seg.p0.x ≠ (nestedBoard.E n).seg.p1.x ∨
      (n = 9 ∧ (nestedBoard.E n).seg.p0.x = 1) ∨ (n = 11 ∧ (nestedBoard.E n).seg.p0.x = 3) := by decide +kernel
  have hlen : ∀ n ∈ nestedBoard.edges .zx, (nestedBoard.E n).seg.p0.x = (nestedBoard.E n).seg.p1.x ∨
      tolerance ≤ |(nestedBoard.E n).seg.p0.x - (nestedBoard.E n).seg.p1.x| := by decide +kernel
  have hfix : ∀ p i c, i ∈ nestedBoard.edges p → Fixed p (nestedBoard.E i).seg .z c → (i = 9 ∧ c = 1) ∨ (i = 11 ∧ c = 3) := by
    intro p i c hi hf
    cases hf with
    | h_yz h => simp [Input.edges, nestedBoard] at hi
    | v_zx h =>
      rcases hseg i hi with h' | h' | h'
      · rcases hlen i hi with h'' | h''
        · exact absurd h'' h'
        · have := h.1
          rw [abs_sub_comm] at this
          linarith
      · exact Or.inl h'
      · exact Or.inr h'
  have at3 : EdgeAt nestedBoard E .z 3 .max := by
    refine ⟨.zx, 11, by decide +kernel, .v_zx (by unfold Vertical; decide +kernel), hmesh (11, ⟨⟨3, 9⟩, ⟨3, 0⟩⟩) (by decide +kernel), ?_⟩
    rw [(hfaces 11).1, (hfaces 11).2]
    decide +kernel
  have at1 : EdgeAt nestedBoard E .z 1 .min := by
    refine ⟨.zx, 9, by decide +kernel, .v_zx (by unfold Vertical; decide +kernel), hmesh (9, ⟨⟨1, 0⟩, ⟨1, 9⟩⟩) (by decide +kernel), ?_⟩
    rw [(hfaces 9).1, (hfaces 9).2]
    decide +kernel
  refine ⟨E, a, hrun, ⟨fun x hx => ?_, fun x hx => ?_⟩, by simp [nestedBoard], at3, ?_, Or.inr (Or.inr ⟨.min, by simp, at1⟩)⟩
  · rcases hx with hx | ⟨p, n, hn, e, he, -, hf⟩
    · simp [nestedBoard] at hx
    · rw [← (nestedBoard_boxes.edge p n hn e he).1] at hf
      rcases hfix p _ x (mem_edges.2 ⟨n, hn, e, he, rfl⟩) hf with ⟨-, rfl⟩ | ⟨-, rfl⟩
      · right; unfold tolerance; norm_num
      · exact Or.inl rfl
  · obtain ⟨p, va, -, s, hs, -⟩ := hx
    rw [nestedBoard_boxes.slanted] at hs
    cases hs
  · rintro f ⟨p, i, hi, hf, hfc⟩
    rcases hfix p i 3 hi hf with ⟨-, h⟩ | ⟨rfl, -⟩
    · norm_num at h
    · rw [← hfc.2, (hfaces 11).1, (hfaces 11).2]
      decide +kernel

example (S : Sorters) : ∃ E a, runSteps S ⟨1 / 2, 2, 1, 1⟩ ⟨1, 1, 1, 1⟩ nestedBoard .z = .ok (E, a) ∧ 3 ∉ a.meshlines ∧
    ∃ d ≤ 1 / 2, Mesh.NextBelow a.meshlines 3 (d / 3) := by
  obtain ⟨E, a, hrun, hal, hnf, hmax, honly, hask⟩ := nestedBoard_third S
  obtain ⟨h1, -, h2⟩ := (C88_lines S ⟨1 / 2, 2, 1, 1⟩ ⟨by norm_num, by norm_num⟩ (by norm_num) (by norm_num)
    nestedBoard_boxes.built nestedBoard_boxes.apart hrun hal).2.2.2 hnf (fun h => by cases honly _ h) hmax
    (fun h => by cases honly _ h)
  obtain ⟨d, hd, hb⟩ := h2 ⟨1, by norm_num, hask⟩
  exact ⟨E, a, hrun, h1, d, by simpa using hd, hb⟩

end Verif.Board
