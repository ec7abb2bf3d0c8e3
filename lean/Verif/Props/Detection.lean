import Verif.Lemmas.Detect
import Verif.Lemmas.OrderSort

/-!
# The edges found in polygons
-/

namespace Verif.Board
open Verif.Geom Verif.Geom.Spec
open Verif.Mesh (tolerance)
open Spec

/-- A flat or upright edge and a box, along the edge. -/
theorem facing_of (o : Bool) {p1 p3 : Point} {a : Segment} (ha : ac o a.p0 = ac o a.p1) (hne : al o a.p0 ≠ al o a.p1)
    (hal : ∀ u ∈ [al o a.p0, al o a.p1, al o p1, al o p3], ∀ v ∈ [al o a.p0, al o a.p1, al o p1, al o p3], Clear u v)
    (h1 : Clear (ac o p1) (ac o a.p0)) (h3 : Clear (ac o p3) (ac o a.p0)) (h31 : Clear (ac o p3) (ac o p1))
    (hbx : al o p1 ≠ al o p3) (hby : ac o p1 ≠ ac o p3) :
    ∃ σ w0 w1 : ℚ, Facing o σ (ac o a.p0) (σ * al o a.p0) (σ * al o a.p1) w0 w1 p1 p3 ∧
      a = ⟨pt o (σ * (σ * al o a.p0)) (ac o a.p0), pt o (σ * (σ * al o a.p1)) (ac o a.p0)⟩ := by
  obtain ⟨σ, hσ, hlt⟩ : ∃ σ : ℚ, (σ = 1 ∨ σ = -1) ∧ σ * al o a.p0 < σ * al o a.p1 := by
    rcases lt_or_gt_of_ne hne with h | h
    · exact ⟨1, Or.inl rfl, by linarith⟩
    · exact ⟨-1, Or.inr rfl, by linarith⟩
  have hsq : σ * σ = 1 := by rcases hσ with rfl | rfl <;> norm_num
  have hs2 : ∀ x : ℚ, σ * (σ * x) = x := fun x => by rw [← mul_assoc, hsq, one_mul]
  have habs : ∀ x z : ℚ, |σ * x - σ * z| = |x - z| := by
    intro x z
    rw [← mul_sub, abs_mul]
    rcases hσ with h | h <;> rw [h] <;> simp
  set w0 := min (σ * al o p1) (σ * al o p3) with hw0
  set w1 := max (σ * al o p1) (σ * al o p3) with hw1
  have hends : (w0 = σ * al o p1 ∧ w1 = σ * al o p3) ∨ (w0 = σ * al o p3 ∧ w1 = σ * al o p1) := by
    rcases le_total (σ * al o p1) (σ * al o p3) with h | h
    · exact Or.inl ⟨min_eq_left h, max_eq_right h⟩
    · exact Or.inr ⟨min_eq_right h, max_eq_left h⟩
  have hw : w0 < w1 := by
    refine lt_of_le_of_ne min_le_max fun h => hbx ?_
    have : σ * al o p1 = σ * al o p3 := by
      rcases hends with ⟨e0, e1⟩ | ⟨e0, e1⟩ <;> rw [e0, e1] at h
      · exact h
      · exact h.symm
    rw [← hs2 (al o p1), this, hs2]
  have hF : Facing o σ (ac o a.p0) (σ * al o a.p0) (σ * al o a.p1) w0 w1 p1 p3 := by
    refine ⟨hσ, hlt, hw, ?_, ?_, h1, h3, h31.resolve_left (Ne.symm hby)⟩
    · rcases hends with ⟨e0, e1⟩ | ⟨e0, e1⟩ <;> rw [e0, e1, hs2, hs2]
      · exact Or.inl ⟨rfl, rfl⟩
      · exact Or.inr ⟨rfl, rfl⟩
    · have key : ∀ u ∈ [σ * al o a.p0, σ * al o a.p1, w0, w1], ∃ u' ∈ [al o a.p0, al o a.p1, al o p1, al o p3], u = σ * u' := by
        intro u hu
        simp only [List.mem_cons, List.not_mem_nil, or_false] at hu
        rcases hu with rfl | rfl | rfl | rfl
        · exact ⟨_, by simp, rfl⟩
        · exact ⟨_, by simp, rfl⟩
        · rcases hends with ⟨e0, -⟩ | ⟨e0, -⟩ <;> rw [e0] <;> exact ⟨_, by simp, rfl⟩
        · rcases hends with ⟨-, e0⟩ | ⟨-, e0⟩ <;> rw [e0] <;> exact ⟨_, by simp, rfl⟩
      intro u hu v hv
      obtain ⟨u', hu', rfl⟩ := key u hu
      obtain ⟨v', hv', rfl⟩ := key v hv
      rcases hal u' hu' v' hv' with h | h
      · exact Or.inl (by rw [h])
      · exact Or.inr (by rw [habs]; exact h)
  have hseg : a = ⟨pt o (σ * (σ * al o a.p0)) (ac o a.p0), pt o (σ * (σ * al o a.p1)) (ac o a.p0)⟩ := by
    rw [hs2, hs2, pt_al]
    conv_rhs => rw [ha, pt_al]
  exact ⟨σ, w0, w1, hF, hseg⟩

/-- The theorem for an edge along one axis. -/
private theorem exact_of (o : Bool) (S : OrderSorter Point) (b : Nat) {edges : List (Nat × Segment)} {p1 p3 : Point}
    {a : Segment} (hedges : edges.map (·.2) = boxEdges p1 p3) (ha : ac o a.p0 = ac o a.p1) (hne : al o a.p0 ≠ al o a.p1)
    (hal : ∀ u ∈ [al o a.p0, al o a.p1, al o p1, al o p3], ∀ v ∈ [al o a.p0, al o a.p1, al o p1, al o p3], Clear u v)
    (h1 : Clear (ac o p1) (ac o a.p0)) (h3 : Clear (ac o p3) (ac o a.p0)) (h31 : Clear (ac o p3) (ac o p1))
    (hbx : al o p1 ≠ al o p3) (hby : ac o p1 ≠ ac o p3) :
    ∃ founds, detectEdge S b (boxPoints p1 p3) edges a = .ok founds ∧
      (∀ q, (∃ f ∈ founds, On f.range q) ↔
        On a q ∧ WithinBox p1 p3 q ∧ ∃ q', q' ≠ q ∧ On a q' ∧ WithinBox p1 p3 q') ∧
      ∀ f ∈ founds, f.polygon = b ∧
        (f.other = none → ∀ q, On f.range q → q ≠ f.range.p0 → q ≠ f.range.p1 → InsideBox p1 p3 q) ∧
        ∀ n, f.other = some n → ∃ e, (n, e) ∈ edges ∧ ∀ q, On f.range q → On e q := by
  obtain ⟨σ, w0, w1, hF, hseg⟩ := facing_of o ha hne hal h1 h3 h31 hbx hby
  have hσ := hF.sense
  have hlt := hF.edge
  have hw := hF.box
  have hs2 : ∀ x : ℚ, σ * (σ * x) = x := fun x => by rw [← mul_assoc, hF.sq, one_mul]
  obtain ⟨founds, hd, g1, g2⟩ := hF.detect S b hedges
  rw [← hseg] at hd
  have hona : ∀ q, On a q ↔ ac o q = ac o a.p0 ∧ σ * al o a.p0 ≤ σ * al o q ∧ σ * al o q ≤ σ * al o a.p1 := by
    intro q
    conv_lhs => rw [hseg]
    exact on_lane o hσ hlt
  have hwith : ∀ q, WithinBox p1 p3 q ↔ (w0 ≤ σ * al o q ∧ σ * al o q ≤ w1) ∧
      min (ac o p1) (ac o p3) ≤ ac o q ∧ ac o q ≤ max (ac o p1) (ac o p3) := by
    intro q
    rw [within_pt o, ← hF.al_range (σ * al o q), hs2]
  have hext : ∀ q q' : Point, al o q = al o q' → ac o q = ac o q' → q = q' := by
    intro q q' e1 e2
    rw [← pt_al o q, ← pt_al o q', e1, e2]
  have hyin : ∀ f ∈ founds, min (ac o p1) (ac o p3) ≤ ac o a.p0 ∧ ac o a.p0 ≤ max (ac o p1) (ac o p3) := by
    intro f hf
    rcases (g1 f hf).2.2 with h | ⟨h, -⟩
    · exact ⟨h.2.1.le, h.2.2.le⟩
    · rcases h with h | h <;> rw [h]
      · exact ⟨min_le_left _ _, le_max_left _ _⟩
      · exact ⟨min_le_right _ _, le_max_right _ _⟩
  refine ⟨founds, hd, fun q => ⟨?_, ?_⟩, ?_⟩
  · rintro ⟨f, hf, hq⟩
    obtain ⟨-, ⟨u, v, huv, hr, c1, c2, c3, c4⟩, -⟩ := g1 f hf
    obtain ⟨q1, q2, q3⟩ := (on_ranges o hσ huv hr).1 hq
    have point : ∀ t, u ≤ t → t ≤ v → On a (pt o (σ * t) (ac o a.p0)) ∧ WithinBox p1 p3 (pt o (σ * t) (ac o a.p0)) := by
      intro t t1 t2
      rw [hona, hwith, al_pt, ac_pt, hs2]
      exact ⟨⟨rfl, by linarith, by linarith⟩, ⟨by linarith, by linarith⟩, hyin f hf⟩
    have hqe : q = pt o (σ * (σ * al o q)) (ac o a.p0) := by rw [hs2, ← q1, pt_al]
    obtain ⟨p1', p2'⟩ := point _ q2 q3
    rw [← hqe] at p1' p2'
    refine ⟨p1', p2', ?_⟩
    by_cases hqu : σ * al o q = u
    · refine ⟨_, ?_, point v huv.le le_rfl⟩
      intro he
      have := congrArg (al o) he
      rw [al_pt] at this
      rw [← this, hs2] at hqu
      exact absurd hqu huv.ne'
    · refine ⟨_, ?_, point u le_rfl huv.le⟩
      intro he
      have := congrArg (al o) he
      rw [al_pt] at this
      rw [← this, hs2] at hqu
      exact hqu rfl
  · rintro ⟨ho, hwi, q', hne', ho', hwi'⟩
    rw [hona] at ho ho'
    rw [hwith] at hwi hwi'
    have hdiff : σ * al o q' ≠ σ * al o q := by
      intro he
      refine hne' (hext _ _ ?_ (ho'.1.trans ho.1.symm))
      rw [← hs2 (al o q'), he, hs2]
    have hlo : max (σ * al o a.p0) w0 < min (σ * al o a.p1) w1 := by
      rcases lt_or_gt_of_ne hdiff with h | h
      · exact lt_of_le_of_lt (max_le ho'.2.1 hwi'.1.1) (lt_of_lt_of_le h (le_min ho.2.2 hwi.1.2))
      · exact lt_of_le_of_lt (max_le ho.2.1 hwi.1.1) (lt_of_lt_of_le h (le_min ho'.2.2 hwi'.1.2))
    obtain ⟨g, hg, u, v, hr, t1, t2⟩ := g2 (ho.1 ▸ hwi.2.1) (ho.1 ▸ hwi.2.2) hlo (σ * al o q) (max_le ho.2.1 hwi.1.1)
      (le_min ho.2.2 hwi.1.2)
    refine ⟨g, hg, ?_⟩
    obtain ⟨-, ⟨u', v', huv', hr', -⟩, -⟩ := g1 g hg
    -- The same range.
    have hinj : ∀ s t : ℚ, pt o (σ * s) (ac o a.p0) = pt o (σ * t) (ac o a.p0) → s = t := by
      intro s t he
      have := congrArg (al o) he
      rw [al_pt, al_pt] at this
      rw [← hs2 s, this, hs2]
    have hsame : (u = u' ∧ v = v') ∨ (u = v' ∧ v = u') := by
      rcases hr with hr | hr <;> rcases hr' with hr' | hr' <;> rw [hr] at hr' <;>
        simp only [Segment.mk.injEq] at hr'
      · exact Or.inl ⟨hinj _ _ hr'.1, hinj _ _ hr'.2⟩
      · exact Or.inr ⟨hinj _ _ hr'.1, hinj _ _ hr'.2⟩
      · exact Or.inr ⟨hinj _ _ hr'.2, hinj _ _ hr'.1⟩
      · exact Or.inl ⟨hinj _ _ hr'.2, hinj _ _ hr'.1⟩
    rw [on_ranges o hσ huv' hr']
    rcases hsame with ⟨rfl, rfl⟩ | ⟨rfl, rfl⟩
    · exact ⟨ho.1, t1, t2⟩
    · exact absurd (t1.trans t2) (not_le.2 huv')
  · intro f hf
    obtain ⟨e1, ⟨u, v, huv, hr, c1, c2, c3, c4⟩, hside⟩ := g1 f hf
    refine ⟨e1, fun hnone q hq n0 n1 => ?_, fun n hn => ?_⟩
    · rcases hside with ⟨-, hy⟩ | ⟨-, n, X0, X1, hn, -⟩
      · obtain ⟨q1, q2, q3⟩ := (on_ranges o hσ huv hr).1 hq
        have hends' : ∀ t, (pt o (σ * t) (ac o a.p0) = f.range.p0 ∨ pt o (σ * t) (ac o a.p0) = f.range.p1) →
            σ * al o q ≠ t := by
          rintro t ht rfl
          rw [hs2, ← q1, pt_al] at ht
          rcases ht with ht | ht
          · exact n0 ht
          · exact n1 ht
        have hu : σ * al o q ≠ u := hends' u (by rcases hr with hr | hr <;> rw [hr] <;> simp)
        have hv : σ * al o q ≠ v := hends' v (by rcases hr with hr | hr <;> rw [hr] <;> simp)
        rw [inside_pt o]
        refine ⟨?_, by rw [q1]; exact hy⟩
        have := (hF.al_range_strict (σ * al o q)).2 ⟨c3.trans_lt (lt_of_le_of_ne q2 (Ne.symm hu)),
          (lt_of_le_of_ne q3 hv).trans_le c4⟩
        rwa [hs2] at this
      · rw [hnone] at hn; simp at hn
    · rcases hside with ⟨hnone, -⟩ | ⟨-, n', X0, X1, hn', hX, hmem⟩
      · rw [hnone] at hn; simp at hn
      · rw [hn', Option.some.injEq] at hn
        subst hn
        refine ⟨_, hmem, fun q hq => ?_⟩
        obtain ⟨q1, q2, q3⟩ := (on_ranges o hσ huv hr).1 hq
        have onbox : On ⟨pt o (σ * w0) (ac o a.p0), pt o (σ * w1) (ac o a.p0)⟩ q :=
          (on_lane o hσ hw).2 ⟨q1, c3.trans q2, q3.trans c4⟩
        have hX' : (X0 = σ * w0 ∧ X1 = σ * w1) ∨ (X0 = σ * w1 ∧ X1 = σ * w0) := by
          rcases hX with ⟨rfl, rfl⟩ | ⟨rfl, rfl⟩ <;> rcases hF.ends with ⟨z0, z1⟩ | ⟨z0, z1⟩ <;> rw [z0, z1] <;> simp
        rcases hX' with ⟨rfl, rfl⟩ | ⟨rfl, rfl⟩
        · exact onbox
        · exact on_swap.1 onbox

/-- **C77.** A horizontal or vertical edge against a box, their coordinates being the same or clearly apart: the ranges
found together are exactly the part of the edge in the box, its border included, but for an edge that only touches the box
at one point. A range found inside is inside, but for its ends; a range found along an edge of the box is part of it. -/
theorem C77_box (S : OrderSorter Point) (b : Nat) {edges : List (Nat × Segment)} {p1 p3 : Point} {a : Segment}
    (hedges : detectEdges (boxPoints p1 p3) = some (edges.map (·.2))) (ha : a.p0.x = a.p1.x ∨ a.p0.y = a.p1.y)
    (hne : a.p0 ≠ a.p1) (hbx : p1.x ≠ p3.x) (hby : p1.y ≠ p3.y)
    (hx : ∀ u ∈ [a.p0.x, a.p1.x, p1.x, p3.x], ∀ v ∈ [a.p0.x, a.p1.x, p1.x, p3.x], Clear u v)
    (hy : ∀ u ∈ [a.p0.y, a.p1.y, p1.y, p3.y], ∀ v ∈ [a.p0.y, a.p1.y, p1.y, p3.y], Clear u v) :
    ∃ founds, detectEdge S b (boxPoints p1 p3) edges a = .ok founds ∧
      (∀ q, (∃ f ∈ founds, On f.range q) ↔
        On a q ∧ WithinBox p1 p3 q ∧ ∃ q', q' ≠ q ∧ On a q' ∧ WithinBox p1 p3 q') ∧
      ∀ f ∈ founds, f.polygon = b ∧
        (f.other = none → ∀ q, On f.range q → q ≠ f.range.p0 → q ≠ f.range.p1 → InsideBox p1 p3 q) ∧
        ∀ n, f.other = some n → ∃ e, (n, e) ∈ edges ∧ ∀ q, On f.range q → On e q := by
  have hed : edges.map (·.2) = boxEdges p1 p3 := (Option.some.inj hedges).symm
  have hpne : ¬ (a.p0.x = a.p1.x ∧ a.p0.y = a.p1.y) := by
    rintro ⟨h1, h2⟩
    apply hne
    generalize a.p0 = r at h1 h2 ⊢
    generalize a.p1 = r' at h1 h2 ⊢
    cases r; cases r'; simp_all
  rcases ha with ha | ha
  · exact exact_of false S b hed ha (fun h => hpne ⟨ha, h⟩) hy (hx _ (by simp [ac]) _ (by simp [ac]))
      (hx _ (by simp [ac]) _ (by simp [ac])) (hx _ (by simp [ac]) _ (by simp [ac])) hby hbx
  · exact exact_of true S b hed ha (fun h => hpne ⟨h, ha⟩) hx (hy _ (by simp [ac]) _ (by simp [ac]))
      (hy _ (by simp [ac]) _ (by simp [ac])) (hy _ (by simp [ac]) _ (by simp [ac])) hbx hby

private theorem inside_of (o : Bool) (S : OrderSorter Point) (b : Nat) {edges : List (Nat × Segment)} {p1 p3 : Point}
    {a : Segment} (hedges : edges.map (·.2) = boxEdges p1 p3) (ha : ac o a.p0 = ac o a.p1) (hne : al o a.p0 ≠ al o a.p1)
    (hal : ∀ u ∈ [al o a.p0, al o a.p1, al o p1, al o p3], ∀ v ∈ [al o a.p0, al o a.p1, al o p1, al o p3], Clear u v)
    (h1 : Clear (ac o p1) (ac o a.p0)) (h3 : Clear (ac o p3) (ac o a.p0)) (h31 : Clear (ac o p3) (ac o p1))
    (hbx : al o p1 ≠ al o p3) (hby : ac o p1 ≠ ac o p3) (hi0 : InsideBox p1 p3 a.p0) (hi1 : InsideBox p1 p3 a.p1) :
    detectEdge S b (boxPoints p1 p3) edges a = .ok [⟨b, a, none⟩] := by
  obtain ⟨σ, w0, w1, hF, hseg⟩ := facing_of o ha hne hal h1 h3 h31 hbx hby
  have hs2 : ∀ x : ℚ, σ * (σ * x) = x := fun x => by rw [← mul_assoc, hF.sq, one_mul]
  rw [inside_pt o] at hi0 hi1
  have g0 := (hF.al_range_strict (σ * al o a.p0)).1 (by rw [hs2]; exact hi0.1)
  have g1 := (hF.al_range_strict (σ * al o a.p1)).1 (by rw [hs2]; exact hi1.1)
  have hy := hi0.2
  have hmeet : ∀ e ∈ edges, meet a e.2 = ([], none) := by
    intro e he
    have he' : e.2 ∈ boxEdges p1 p3 := hedges ▸ List.mem_map_of_mem he
    rcases sides o he' with ⟨X, k0, k1, hX, hk, e1⟩ | ⟨C, X0, X1, hC, -, e1⟩
    · obtain ⟨w, hw, rfl⟩ := (hF.al_iff X).1 hX
      rw [e1, hseg, hF.across hw hk, if_neg]
      rintro ⟨⟨h, h'⟩, -⟩
      rcases hw with rfl | rfl <;> linarith
    · rw [e1, hseg, hF.along_off hC]
      rintro rfl
      rcases hC with h | h <;> rw [h] at hy
      · rcases min_le_left (ac o p1) (ac o p3) |>.lt_or_eq with h' | h'
        · rcases le_total (ac o p1) (ac o p3) with h'' | h''
          · rw [min_eq_left h''] at h'; exact lt_irrefl _ h'
          · rw [max_eq_left h''] at hy; exact lt_irrefl _ hy.2
        · rw [h'] at hy; exact lt_irrefl _ hy.1
      · rcases le_total (ac o p1) (ac o p3) with h'' | h''
        · rw [max_eq_right h''] at hy; exact lt_irrefl _ hy.2
        · rw [min_eq_right h''] at hy; exact lt_irrefl _ hy.1
  have hrel : ∀ t, t = σ * al o a.p0 ∨ t = σ * al o a.p1 → w0 < t ∧ t < w1 →
      pointRelation (boxPoints p1 p3) (pt o (σ * t) (ac o a.p0)) = .ok .inside := by
    intro t ht hw
    obtain ⟨l0, l1⟩ := hF.looked (t := t) (by tauto)
    rw [(hF.relation l0 l1).1 hy, if_pos hw]
  have r0 : pointRelation (boxPoints p1 p3) a.p0 = .ok .inside := by
    conv_lhs => rw [hseg]
    exact hrel _ (Or.inl rfl) g0
  have r1 : pointRelation (boxPoints p1 p3) a.p1 = .ok .inside := by
    conv_lhs => rw [hseg]
    exact hrel _ (Or.inr rfl) g1
  unfold detectEdge
  simp only [r0, r1, Outcome.bind]
  have e1 : (edges.flatMap fun e => (meet a e.2).1) = [] := by
    rw [List.flatMap_eq_nil_iff]
    intro e he
    rw [hmeet e he]
  have e2 : (edges.filterMap fun e => (meet a e.2).2.map fun r => (⟨b, r, some e.1⟩ : Found)) = [] := by
    rw [List.filterMap_eq_nil_iff]
    intro e he
    rw [hmeet e he]
    rfl
  rw [e1, e2]
  simp

/-- C77, strictly inside: an edge that is inside the box, border excluded, is found once, whole. -/
theorem C77_inside (S : OrderSorter Point) (b : Nat) {edges : List (Nat × Segment)} {p1 p3 : Point} {a : Segment}
    (hedges : detectEdges (boxPoints p1 p3) = some (edges.map (·.2))) (ha : a.p0.x = a.p1.x ∨ a.p0.y = a.p1.y)
    (hne : a.p0 ≠ a.p1) (hbx : p1.x ≠ p3.x) (hby : p1.y ≠ p3.y)
    (hx : ∀ u ∈ [a.p0.x, a.p1.x, p1.x, p3.x], ∀ v ∈ [a.p0.x, a.p1.x, p1.x, p3.x], Clear u v)
    (hy : ∀ u ∈ [a.p0.y, a.p1.y, p1.y, p3.y], ∀ v ∈ [a.p0.y, a.p1.y, p1.y, p3.y], Clear u v)
    (hi0 : InsideBox p1 p3 a.p0) (hi1 : InsideBox p1 p3 a.p1) :
    detectEdge S b (boxPoints p1 p3) edges a = .ok [⟨b, a, none⟩] := by
  have hed : edges.map (·.2) = boxEdges p1 p3 := (Option.some.inj hedges).symm
  have hpne : ¬ (a.p0.x = a.p1.x ∧ a.p0.y = a.p1.y) := fun h => hne (congrArg₂ Point.mk h.1 h.2)
  rcases ha with ha | ha
  · exact inside_of false S b hed ha (fun h => hpne ⟨ha, h⟩) hy (hx _ (by simp [ac]) _ (by simp [ac]))
      (hx _ (by simp [ac]) _ (by simp [ac])) (hx _ (by simp [ac]) _ (by simp [ac])) hby hbx hi0 hi1
  · exact inside_of true S b hed ha (fun h => hpne ⟨h, ha⟩) hx (hy _ (by simp [ac]) _ (by simp [ac]))
      (hy _ (by simp [ac]) _ (by simp [ac])) (hy _ (by simp [ac]) _ (by simp [ac])) hbx hby hi0 hi1

-- An edge in a box, followed downwards.
example : detectEdges (boxPoints ⟨0, 0⟩ ⟨9, 6⟩) = some (([(0, ⟨⟨9, 0⟩, ⟨0, 0⟩⟩), (1, ⟨⟨0, 0⟩, ⟨0, 6⟩⟩), (2, ⟨⟨0, 6⟩, ⟨9, 6⟩⟩),
      (3, ⟨⟨9, 6⟩, ⟨9, 0⟩⟩)] : List (Nat × Segment)).map (·.2)) ∧
    InsideBox ⟨0, 0⟩ ⟨9, 6⟩ ⟨5, 3⟩ ∧ InsideBox ⟨0, 0⟩ ⟨9, 6⟩ ⟨5, 1⟩ ∧
    (∀ u ∈ [(3 : ℚ), 1, 0, 6], ∀ v ∈ [(3 : ℚ), 1, 0, 6], Clear u v) := by
  unfold InsideBox Clear
  exact ⟨by decide +kernel, by decide +kernel, by decide +kernel, by decide +kernel⟩

-- An edge from left to right through a box, that it enters at 2 and leaves at 5.
example : ∃ founds, detectEdge (OrderSorter.insertion Point) 7 (boxPoints ⟨2, 0⟩ ⟨5, 3⟩)
      [(0, ⟨⟨5, 0⟩, ⟨2, 0⟩⟩), (1, ⟨⟨2, 0⟩, ⟨2, 3⟩⟩), (2, ⟨⟨2, 3⟩, ⟨5, 3⟩⟩), (3, ⟨⟨5, 3⟩, ⟨5, 0⟩⟩)]
      ⟨⟨0, 1⟩, ⟨10, 1⟩⟩ = .ok founds ∧
    (∃ f ∈ founds, On f.range ⟨3, 1⟩) ∧ ¬ ∃ f ∈ founds, On f.range ⟨6, 1⟩ := by
  obtain ⟨founds, hd, hex, -⟩ := C77_box (OrderSorter.insertion Point) 7 (p1 := ⟨2, 0⟩) (p3 := ⟨5, 3⟩)
    (a := ⟨⟨0, 1⟩, ⟨10, 1⟩⟩)
    (edges := [(0, ⟨⟨5, 0⟩, ⟨2, 0⟩⟩), (1, ⟨⟨2, 0⟩, ⟨2, 3⟩⟩), (2, ⟨⟨2, 3⟩, ⟨5, 3⟩⟩), (3, ⟨⟨5, 3⟩, ⟨5, 0⟩⟩)])
    rfl (Or.inr rfl) (by simp) (by norm_num) (by norm_num)
    (by unfold Clear; decide +kernel) (by unfold Clear; decide +kernel)
  refine ⟨founds, hd, ?_, ?_⟩
  · rw [hex]
    refine ⟨⟨3 / 10, by norm_num, by norm_num, by norm_num, by norm_num⟩, by norm_num [WithinBox], ⟨4, 1⟩, by simp,
      ⟨4 / 10, by norm_num, by norm_num, by norm_num, by norm_num⟩, by norm_num [WithinBox]⟩
  · rw [hex]
    rintro ⟨-, h, -⟩
    norm_num [WithinBox] at h

/-! ## Undefined behaviour -/

theorem pointRelation_ub {points : List Point} {q : Point} (hp : points ≠ []) : pointRelation points q ≠ .ub := by
  unfold pointRelation
  intro h
  split at h
  · exact hp rfl
  · simp at h
  · simp at h

theorem middlesIn_ub {points : List Point} (hp : points ≠ []) (l : List Segment) : middlesIn points l ≠ .ub := by
  induction l with
  | nil => simp [middlesIn]
  | cons r l ih =>
    intro h
    rw [middlesIn] at h
    cases hr : pointRelation points (midPoint r) with
    | ub => exact pointRelation_ub hp hr
    | diverges => rw [hr] at h; simp [Outcome.bind] at h
    | ok rel =>
      rw [hr] at h
      cases hl : middlesIn points l with
      | ub => exact ih hl
      | diverges => rw [hl] at h; simp [Outcome.bind, Outcome.map] at h
      | ok l' => rw [hl] at h; simp [Outcome.bind, Outcome.map] at h

theorem endRanges_ok {l : List Point} (h : 2 ≤ l.length) (r0 r1 : PolygonRel) : ∃ ends, endRanges l r0 r1 = .ok ends := by
  obtain ⟨a, b, rest, e⟩ : ∃ a b rest, l = a :: b :: rest := by
    match l with
    | a :: b :: rest => exact ⟨a, b, rest, rfl⟩
  obtain ⟨c, d, rest', e'⟩ : ∃ a b rest, l.reverse = a :: b :: rest := by
    have : 2 ≤ l.reverse.length := by simpa using h
    generalize l.reverse = l' at this
    match l' with
    | a :: b :: rest => exact ⟨a, b, rest, rfl⟩
  unfold endRanges
  rw [e', e]
  exact ⟨_, rfl⟩

theorem uniqueAfter_nil {p : Point} {l : List Point} (h : uniqueAfter p l = []) : ∀ q ∈ l, p.eq q = true := by
  induction l with
  | nil => simp
  | cons q l ih =>
    rw [uniqueAfter] at h
    split_ifs at h with hq
    intro q' hq'
    rcases List.mem_cons.1 hq' with rfl | hq'
    · exact hq
    · exact ih h q' hq'

theorem uniqueAfter_all {p : Point} {l : List Point} (h : ∀ q ∈ l, p.eq q = true) : uniqueAfter p l = [] := by
  induction l with
  | nil => rfl
  | cons q l ih =>
    rw [uniqueAfter, if_pos (h q (by simp))]
    exact ih fun r hr => h r (by simp [hr])

/-- What makes the detection for an edge safe: a proper order, and ends that are kept apart. -/
theorem no_ub (S : OrderSorter Point) (b : Nat) {points : List Point} {edges : List (Nat × Segment)} {a : Segment}
    (hp : points ≠ []) {lt : Point → Point → Bool} (hb : pointBefore (a.p1.sub a.p0) = some lt)
    (hw : WeakOrderOn lt ((edges.flatMap fun e => (meet a e.2).1) ++ [a.p0, a.p1]))
    (hfirst : ∀ p ∈ (edges.flatMap fun e => (meet a e.2).1) ++ [a.p0, a.p1], lt a.p0 p = false → p.eq a.p1 = true → False) :
    detectEdge S b points edges a ≠ .ub := by
  intro h
  unfold detectEdge at h
  simp only at h
  generalize hhits : (edges.flatMap fun e => (meet a e.2).1) = hits at h hw hfirst
  cases h0 : pointRelation points a.p0 with
  | ub => exact pointRelation_ub hp h0
  | diverges => rw [h0] at h; simp [Outcome.bind] at h
  | ok rel0 =>
    cases h1 : pointRelation points a.p1 with
    | ub => exact pointRelation_ub hp h1
    | diverges => rw [h0, h1] at h; simp [Outcome.bind] at h
    | ok rel1 =>
      rw [h0, h1] at h
      simp only [Outcome.bind] at h
      split_ifs at h with hn
      have hs : sortPoints S (a.p1.sub a.p0) (hits ++ [a.p0, a.p1]) = .ok (S.sort lt (hits ++ [a.p0, a.p1])) := by
        unfold sortPoints
        rw [hb]
        simp only [hw, if_true]
      rw [hs] at h
      simp only at h
      have hperm := S.perm lt (hits ++ [a.p0, a.p1])
      have hsorted := S.sorted lt _ hw
      generalize hsrt : S.sort lt (hits ++ [a.p0, a.p1]) = srt at h hperm hsorted
      have hlen : 2 ≤ (uniquePoints srt).length := by
        by_contra hlt
        match srt, hperm, hsorted with
        | [], hperm, _ =>
          have := hperm.length_eq
          simp at this
        | p :: rest, hperm, hsorted =>
          have hnil : uniqueAfter p rest = [] := by
            rw [uniquePoints, List.length_cons] at hlt
            exact List.length_eq_zero_iff.1 (by omega)
          have hall := uniqueAfter_nil hnil
          have hpm : p ∈ hits ++ [a.p0, a.p1] := hperm.mem_iff.1 (by simp)
          have hself : p.eq p = true := by simp [Point.eq, coordEq_refl]
          have mem : ∀ q ∈ hits ++ [a.p0, a.p1], p.eq q = true := by
            intro q hq
            rcases List.mem_cons.1 (hperm.mem_iff.2 hq) with rfl | hq
            · exact hself
            · exact hall q hq
          have hle : lt a.p0 p = false := by
            rcases List.mem_cons.1 (hperm.mem_iff.2 (show a.p0 ∈ hits ++ [a.p0, a.p1] by simp)) with h' | h'
            · rw [h']; exact hw.1 p hpm
            · exact (List.pairwise_cons.1 hsorted).1 _ h'
          exact hfirst p hpm hle (mem a.p1 (by simp))
      obtain ⟨ends, he⟩ := endRanges_ok hlen rel0 rel1
      rw [he] at h
      simp only at h
      unfold Outcome.map at h
      generalize hm : middlesIn points _ = m at h
      cases m with
      | ub => exact middlesIn_ub hp _ hm
      | diverges => simp [Outcome.bind] at h
      | ok m => simp [Outcome.bind] at h

theorem weak_by (key : Point → ℚ) (l : List Point) : WeakOrderOn (fun a b => decide (key a < key b)) l := by
  refine ⟨fun a _ => by simp, fun a _ b _ c _ h1 h2 => ?_, fun a _ b _ c _ h1 h2 h3 h4 => ?_⟩
  · simp only [decide_eq_true_eq] at h1 h2 ⊢
    exact h1.trans h2
  · simp only [decide_eq_false_iff_not, not_lt] at h1 h2 h3 h4 ⊢
    exact h3.trans h1

/-- The intersection with a diagonal is on it. -/
theorem intersection_diagonal {a e : Segment} {p : Point} (ha : a.axis = .diagonal) (h : intersection a e = some p) :
    ∃ t, p = ⟨a.p0.x + t * (a.p1.x - a.p0.x), a.p0.y + t * (a.p1.y - a.p0.y)⟩ := by
  have hvx : a.p1.x - a.p0.x ≠ 0 := by
    intro h0
    unfold Segment.axis vectorAxis at ha
    simp only [Point.sub, h0, coordEq_refl] at ha
    split_ifs at ha
  unfold intersection at h
  rw [if_neg (by rw [ha]; simp), if_neg (by rw [ha]; simp), if_pos (Or.inl ha)] at h
  simp only at h
  split_ifs at h with hdiv hm
  have hp := (Option.some.inj h).symm
  refine ⟨(p.x - a.p0.x) / (a.p1.x - a.p0.x), ?_⟩
  have e1 : (p.x - a.p0.x) / (a.p1.x - a.p0.x) * (a.p1.x - a.p0.x) = p.x - a.p0.x := div_mul_cancel₀ _ hvx
  have e2 : (p.x - a.p0.x) / (a.p1.x - a.p0.x) * (a.p1.y - a.p0.y) = p.y - a.p0.y := by
    rw [div_mul_eq_mul_div, div_eq_iff hvx, hp]
    simp only [Point.advance, Point.sub] at hdiv ⊢
    set m := ((a.p1.x - a.p0.x) * a.p0.y - (a.p1.x - a.p0.x) * e.p0.y - (a.p1.y - a.p0.y) * a.p0.x +
      (a.p1.y - a.p0.y) * e.p0.x) / ((a.p1.x - a.p0.x) * (e.p1.y - e.p0.y) - (a.p1.y - a.p0.y) * (e.p1.x - e.p0.x)) with hmdef
    have hmd : m * ((a.p1.x - a.p0.x) * (e.p1.y - e.p0.y) - (a.p1.y - a.p0.y) * (e.p1.x - e.p0.x)) =
        (a.p1.x - a.p0.x) * a.p0.y - (a.p1.x - a.p0.x) * e.p0.y - (a.p1.y - a.p0.y) * a.p0.x + (a.p1.y - a.p0.y) * e.p0.x := by
      rw [hmdef, div_mul_cancel₀ _ hdiv]
    linear_combination -hmd
  rw [e1, e2]
  obtain ⟨x, y⟩ := p
  simp only [Point.mk.injEq]
  constructor <;> ring

/-- **C78.** For an edge whose ends are apart, that is horizontal, vertical, or diagonal without overlapping an edge of the
polygon, the detection has no undefined behaviour: the points are sorted by a proper order and no element is read outside
the list. What is missing is the other edges, for which it can happen: see `C78_false` and `C78_index_false`. -/
theorem C78_partial (S : OrderSorter Point) (b : Nat) {points : List Point} {edges : List (Nat × Segment)} {a : Segment}
    (hp : points ≠ []) (hends : ¬ Near a.p0 a.p1)
    (ha : a.p0.x = a.p1.x ∨ a.p0.y = a.p1.y ∨
      (tolerance ≤ |a.p1.x - a.p0.x| ∧ tolerance ≤ |a.p1.y - a.p0.y| ∧ ∀ e ∈ edges, a.relationTo e.2 ≠ .overlapping)) :
    detectEdge S b points edges a ≠ .ub := by
  have hpos := tolerance_pos
  have near0 : |(0 : ℚ)| < tolerance := by simpa using hpos
  have heq : ∀ p q : Point, p.eq q = true ↔ |p.x - q.x| < tolerance ∧ |p.y - q.y| < tolerance := by
    intro p q
    simp only [Point.eq, Bool.and_eq_true, coordEq_iff]
  rcases ha with ha | ha | ⟨hx, hy, hno⟩
  · -- Vertical.
    have hv : a.p1.sub a.p0 = ⟨0, a.p1.y - a.p0.y⟩ := by simp [Point.sub, ha]
    have hne : a.p0.y ≠ a.p1.y := fun h => hends ⟨by rw [ha, sub_self]; exact near0, by rw [h, sub_self]; exact near0⟩
    rcases lt_or_gt_of_ne hne with h | h
    · refine no_ub S b hp (by rw [hv]; exact before_up (by linarith)) (weak_by (fun p => p.y) _) ?_
      intro p _ h1 h2
      simp only [decide_eq_false_iff_not, not_lt] at h1
      have := ((heq _ _).1 h2).2
      refine hends ⟨by rw [ha, sub_self]; exact near0, ?_⟩
      rw [abs_lt] at this ⊢
      constructor <;> linarith [this.1]
    · refine no_ub S b hp (lt := fun a b => decide (a.y > b.y)) (by rw [hv]; exact before_down (by linarith)) ?_ ?_
      · have := weak_by (fun p => -p.y) ((edges.flatMap fun e => (meet a e.2).1) ++ [a.p0, a.p1])
        simpa only [neg_lt_neg_iff] using this
      intro p _ h1 h2
      simp only [decide_eq_false_iff_not, not_lt, gt_iff_lt] at h1
      have := ((heq _ _).1 h2).2
      refine hends ⟨by rw [ha, sub_self]; exact near0, ?_⟩
      rw [abs_lt] at this ⊢
      constructor <;> linarith [this.2]
  · -- Horizontal.
    have hv : a.p1.sub a.p0 = ⟨a.p1.x - a.p0.x, 0⟩ := by simp [Point.sub, ha]
    have hne : a.p0.x ≠ a.p1.x := fun h => hends ⟨by rw [h, sub_self]; exact near0, by rw [ha, sub_self]; exact near0⟩
    rcases lt_or_gt_of_ne hne with h | h
    · refine no_ub S b hp (by rw [hv]; exact before_right (by linarith)) (weak_by (fun p => p.x) _) ?_
      intro p _ h1 h2
      simp only [decide_eq_false_iff_not, not_lt] at h1
      have := ((heq _ _).1 h2).1
      refine hends ⟨?_, by rw [ha, sub_self]; exact near0⟩
      rw [abs_lt] at this ⊢
      constructor <;> linarith [this.1]
    · refine no_ub S b hp (lt := fun a b => decide (a.x > b.x)) (by rw [hv]; exact before_left (by linarith)) ?_ ?_
      · have := weak_by (fun p => -p.x) ((edges.flatMap fun e => (meet a e.2).1) ++ [a.p0, a.p1])
        simpa only [neg_lt_neg_iff] using this
      intro p _ h1 h2
      simp only [decide_eq_false_iff_not, not_lt, gt_iff_lt] at h1
      have := ((heq _ _).1 h2).1
      refine hends ⟨?_, by rw [ha, sub_self]; exact near0⟩
      rw [abs_lt] at this ⊢
      constructor <;> linarith [this.2]
  · -- Diagonal.
    have hax : a.axis = .diagonal := by
      have h1 : coordEq (a.p1.x - a.p0.x) 0 = false := by
        rw [← Bool.not_eq_true, coordEq_iff, sub_zero]; exact not_lt.2 hx
      have h2 : coordEq (a.p1.y - a.p0.y) 0 = false := by
        rw [← Bool.not_eq_true, coordEq_iff, sub_zero]; exact not_lt.2 hy
      simp [Segment.axis, vectorAxis, Point.sub, h1, h2]
    set vx := a.p1.x - a.p0.x with hvx
    set vy := a.p1.y - a.p0.y with hvy
    have hvx0 : vx ≠ 0 := fun h => by rw [h, abs_zero] at hx; linarith
    have hvy0 : vy ≠ 0 := fun h => by rw [h, abs_zero] at hy; linarith
    have hline : ∀ p ∈ (edges.flatMap fun e => (meet a e.2).1) ++ [a.p0, a.p1],
        ∃ t, p = ⟨a.p0.x + t * vx, a.p0.y + t * vy⟩ := by
      intro p hpm
      rcases List.mem_append.1 hpm with hpm | hpm
      · obtain ⟨e, he, hpe⟩ := List.mem_flatMap.1 hpm
        have hne := hno e he
        unfold meet at hpe
        cases hr : a.relationTo e.2 with
        | overlapping => exact absurd hr hne
        | apart => rw [hr] at hpe; simp at hpe
        | colinear => rw [hr] at hpe; simp at hpe
        | crossing =>
          rw [hr] at hpe
          simp only [Option.mem_toList] at hpe
          exact intersection_diagonal hax hpe
      · simp only [List.mem_cons, List.not_mem_nil, or_false] at hpm
        rcases hpm with rfl | rfl
        · exact ⟨0, by simp⟩
        · exact ⟨1, by simp [hvx, hvy]⟩
    have hmono : ∀ {v s t : ℚ}, 0 < v → ∀ c : ℚ, (c + s * v < c + t * v ↔ s < t) := by
      intro v s t hv c
      constructor
      · intro h
        by_contra hc
        have := mul_le_mul_of_nonneg_right (not_lt.1 hc) hv.le
        linarith
      · intro h
        have := mul_lt_mul_of_pos_right h hv
        linarith
    have hanti : ∀ {v s t : ℚ}, v < 0 → ∀ c : ℚ, (c + t * v < c + s * v ↔ s < t) := by
      intro v s t hv c
      have := hmono (s := s) (t := t) (v := -v) (by linarith) (-c)
      rw [← this]
      constructor <;> intro h <;> linarith
    obtain ⟨lt, hb, hlt⟩ : ∃ lt, pointBefore (a.p1.sub a.p0) = some lt ∧ ∀ s t,
        lt ⟨a.p0.x + s * vx, a.p0.y + s * vy⟩ ⟨a.p0.x + t * vx, a.p0.y + t * vy⟩ = decide (s < t) := by
      show ∃ lt, pointBefore ⟨vx, vy⟩ = some lt ∧ _
      rcases lt_or_gt_of_ne hvx0 with h1 | h1 <;> rcases lt_or_gt_of_ne hvy0 with h2 | h2
      · refine ⟨fun a b => decide (a.x > b.x) && decide (a.y > b.y), ?_, fun s t => ?_⟩
        · simp [pointBefore, h1, h2, hvx0, hvy0, not_lt.2 h1.le, not_lt.2 h2.le]
        · simp only [gt_iff_lt, hanti h1, hanti h2, Bool.and_self]
      · refine ⟨fun a b => decide (a.x > b.x) && decide (a.y < b.y), ?_, fun s t => ?_⟩
        · simp [pointBefore, h1, h2, hvx0, hvy0, not_lt.2 h1.le]
        · simp only [gt_iff_lt, hanti h1, hmono h2, Bool.and_self]
      · refine ⟨fun a b => decide (a.x < b.x) && decide (a.y > b.y), ?_, fun s t => ?_⟩
        · simp [pointBefore, h1, h2, hvx0, hvy0, not_lt.2 h1.le, not_lt.2 h2.le]
        · simp only [gt_iff_lt, hmono h1, hanti h2, Bool.and_self]
      · refine ⟨fun a b => decide (a.x < b.x) && decide (a.y < b.y), ?_, fun s t => ?_⟩
        · simp [pointBefore, h1, h2, hvx0, hvy0]
        · simp only [hmono h1, hmono h2, Bool.and_self]
    refine no_ub S b hp hb ⟨?_, ?_, ?_⟩ ?_
    · intro p hpm
      obtain ⟨t, rfl⟩ := hline p hpm
      rw [hlt]; simp
    · intro p hpm q hqm r hrm
      obtain ⟨s, rfl⟩ := hline p hpm
      obtain ⟨t, rfl⟩ := hline q hqm
      obtain ⟨u, rfl⟩ := hline r hrm
      rw [hlt, hlt, hlt]
      simp only [decide_eq_true_eq]
      exact lt_trans
    · intro p hpm q hqm r hrm
      obtain ⟨s, rfl⟩ := hline p hpm
      obtain ⟨t, rfl⟩ := hline q hqm
      obtain ⟨u, rfl⟩ := hline r hrm
      rw [hlt, hlt, hlt, hlt, hlt]
      simp only [decide_eq_false_iff_not, not_lt]
      intro h1 _ h3 _
      exact h3.trans h1
    · intro p hpm h1 h2
      obtain ⟨t, rfl⟩ := hline p hpm
      have h0 := hlt 0 t
      simp only [zero_mul, add_zero] at h0
      rw [h0] at h1
      simp only [decide_eq_false_iff_not, not_lt] at h1
      have := ((heq _ _).1 h2).1
      simp only at this
      have e1 : a.p0.x + t * vx - a.p1.x = (t - 1) * vx := by rw [hvx]; ring
      rw [e1, abs_mul, abs_of_neg (by linarith)] at this
      have h3 := mul_le_mul_of_nonneg_right (show 1 ≤ -(t - 1) by linarith) (abs_nonneg vx)
      linarith

-- A diagonal edge across a triangle, which has no edge along it.
example : (⟨⟨0, 0⟩, ⟨8, 8⟩⟩ : Segment).p0 ≠ (⟨⟨0, 0⟩, ⟨8, 8⟩⟩ : Segment).p1 ∧
    ¬ Near (⟨0, 0⟩ : Point) ⟨8, 8⟩ ∧ tolerance ≤ |(8 : ℚ) - 0| ∧
    (∀ e ∈ [(0, (⟨⟨6, 2⟩, ⟨2, 6⟩⟩ : Segment)), (1, ⟨⟨2, 6⟩, ⟨9, 9⟩⟩), (2, ⟨⟨9, 9⟩, ⟨6, 2⟩⟩)],
      (⟨⟨0, 0⟩, ⟨8, 8⟩⟩ : Segment).relationTo e.2 ≠ .overlapping) ∧
    meet ⟨⟨0, 0⟩, ⟨8, 8⟩⟩ ⟨⟨6, 2⟩, ⟨2, 6⟩⟩ = ([⟨4, 4⟩], none) := by
  refine ⟨by decide +kernel, by unfold Near; decide +kernel, by decide +kernel, by decide +kernel, by decide +kernel⟩

/-- No undefined behaviour either for a horizontal or vertical edge that has both ends on the border of the polygon, even when
they are so near that they are one point for the code: no range is then made from its ends. -/
theorem C78_border (S : OrderSorter Point) (b : Nat) {points : List Point} {edges : List (Nat × Segment)} {a : Segment}
    (hne : a.p0 ≠ a.p1) (ha : a.p0.x = a.p1.x ∨ a.p0.y = a.p1.y)
    (h0 : relationToPoint points a.p0 = some .on) (h1 : relationToPoint points a.p1 = some .on) :
    detectEdge S b points edges a ≠ .ub := by
  have hp : points ≠ [] := by
    rintro rfl
    revert h0
    simp [relationToPoint, detectEdges]
  have r : ∀ q, relationToPoint points q = some .on → pointRelation points q = .ok .on := by
    intro q hq
    unfold pointRelation
    rw [hq]
    cases points with
    | nil => exact absurd rfl hp
    | cons => rfl
  have hmid : ∀ l, middlesIn points l ≠ .ub := by
    intro l
    induction l with
    | nil => simp [middlesIn]
    | cons s rest ih =>
      unfold middlesIn
      cases hr : pointRelation points (midPoint s) with
      | ub => exact absurd hr (pointRelation_ub hp)
      | diverges => simp [Outcome.bind]
      | ok rel =>
        cases hm : middlesIn points rest with
        | ub => exact absurd hm ih
        | diverges => simp [Outcome.bind, Outcome.map]
        | ok l => simp [Outcome.bind, Outcome.map]
  obtain ⟨lt, hb, hw⟩ : ∃ lt, pointBefore (a.p1.sub a.p0) = some lt ∧
      WeakOrderOn lt ((edges.flatMap fun e => (meet a e.2).1) ++ [a.p0, a.p1]) := by
    rcases ha with ha | ha
    · have hv : a.p1.sub a.p0 = ⟨0, a.p1.y - a.p0.y⟩ := by simp [Point.sub, ha]
      have : a.p0.y ≠ a.p1.y := fun h => hne (congrArg₂ Point.mk ha h)
      rcases lt_or_gt_of_ne this with h | h
      · exact ⟨_, by rw [hv]; exact before_up (by linarith), weak_by (fun p => p.y) _⟩
      · refine ⟨fun a b => decide (a.y > b.y), by rw [hv]; exact before_down (by linarith), ?_⟩
        have := weak_by (fun p => -p.y) ((edges.flatMap fun e => (meet a e.2).1) ++ [a.p0, a.p1])
        simpa only [neg_lt_neg_iff] using this
    · have hv : a.p1.sub a.p0 = ⟨a.p1.x - a.p0.x, 0⟩ := by simp [Point.sub, ha]
      have : a.p0.x ≠ a.p1.x := fun h => hne (congrArg₂ Point.mk h ha)
      rcases lt_or_gt_of_ne this with h | h
      · exact ⟨_, by rw [hv]; exact before_right (by linarith), weak_by (fun p => p.x) _⟩
      · refine ⟨fun a b => decide (a.x > b.x), by rw [hv]; exact before_left (by linarith), ?_⟩
        have := weak_by (fun p => -p.x) ((edges.flatMap fun e => (meet a e.2).1) ++ [a.p0, a.p1])
        simpa only [neg_lt_neg_iff] using this
  unfold detectEdge
  simp only [r _ h0, r _ h1]
  generalize (edges.flatMap fun e => (meet a e.2).1) = hits at hw
  simp only [Outcome.bind]
  by_cases hn : hits = []
  · rw [if_pos hn]
    simp
  · rw [if_neg hn]
    have hs : sortPoints S (a.p1.sub a.p0) (hits ++ [a.p0, a.p1]) = .ok (S.sort lt (hits ++ [a.p0, a.p1])) := by
      unfold sortPoints
      rw [hb]
      simp only [hw, if_true]
    rw [hs]
    have hend : ∀ l, endRange .on l = .ok [] := by
      intro l
      unfold endRange
      split <;> simp
    simp only [endRanges, hend, Outcome.bind, Outcome.map]
    generalize hm : middlesIn _ _ = o
    cases o with
    | ub => exact absurd hm (hmid _)
    | diverges => simp
    | ok => simp

-- An edge of a hundredth of the tolerance on the right side of a triangle.
example : (⟨8, 3⟩ : Point) ≠ ⟨8, 3 + 1 / 10000000000⟩ ∧ Near (⟨8, 3⟩ : Point) ⟨8, 3 + 1 / 10000000000⟩ ∧
    relationToPoint [⟨0, 0⟩, ⟨8, 0⟩, ⟨8, 8⟩] ⟨8, 3⟩ = some .on ∧
    relationToPoint [⟨0, 0⟩, ⟨8, 0⟩, ⟨8, 8⟩] ⟨8, 3 + 1 / 10000000000⟩ = some .on := by
  refine ⟨by decide +kernel, by unfold Near; decide +kernel, ?_, ?_⟩ <;>
    (unfold relationToPoint
     rw [show detectBounding [⟨0, 0⟩, ⟨8, 0⟩, ⟨8, 8⟩] = some ⟨0, 8, 0, 8⟩ by decide +kernel]
     show relationToPoint.loop _ [⟨⟨8, 8⟩, ⟨0, 0⟩⟩, ⟨⟨0, 0⟩, ⟨8, 0⟩⟩, ⟨⟨8, 0⟩, ⟨8, 8⟩⟩] _ _ 0 = _
     rw [relationToPoint.loop]
     decide +kernel)

/-- C78 is false: an edge going down along part of an edge of a triangle. The overlap is given by the wrong corners of its
bounding box, which makes the comparison of the points no proper order. -/
theorem C78_false : ∃ (points : List Point) (edges : List (Nat × Segment)) (a : Segment),
    detectEdges points = some (edges.map (·.2)) ∧ detectRotation points ≠ .colinear ∧
    ∀ S b, detectEdge S b points edges a = .ub := by
  refine ⟨[⟨2, 6⟩, ⟨6, 2⟩, ⟨6, 6⟩], [(0, ⟨⟨6, 6⟩, ⟨2, 6⟩⟩), (1, ⟨⟨2, 6⟩, ⟨6, 2⟩⟩), (2, ⟨⟨6, 2⟩, ⟨6, 6⟩⟩)],
    ⟨⟨0, 8⟩, ⟨8, 0⟩⟩, rfl, by decide +kernel, ?_⟩
  intro S b
  have r0 : pointRelation [⟨2, 6⟩, ⟨6, 2⟩, ⟨6, 6⟩] ⟨0, 8⟩ = .ok .outside := by
    have : relationToPoint [⟨2, 6⟩, ⟨6, 2⟩, ⟨6, 6⟩] ⟨0, 8⟩ = some .outside := by
      unfold relationToPoint
      rw [show detectBounding [⟨2, 6⟩, ⟨6, 2⟩, ⟨6, 6⟩] = some ⟨2, 6, 2, 6⟩ by decide +kernel]
      show relationToPoint.loop _ [⟨⟨6, 6⟩, ⟨2, 6⟩⟩, ⟨⟨2, 6⟩, ⟨6, 2⟩⟩, ⟨⟨6, 2⟩, ⟨6, 6⟩⟩] _ _ 0 = _
      rw [relationToPoint.loop]
      decide +kernel
    unfold pointRelation; rw [this]
  have r1 : pointRelation [⟨2, 6⟩, ⟨6, 2⟩, ⟨6, 6⟩] ⟨8, 0⟩ = .ok .outside := by
    have : relationToPoint [⟨2, 6⟩, ⟨6, 2⟩, ⟨6, 6⟩] ⟨8, 0⟩ = some .outside := by
      unfold relationToPoint
      rw [show detectBounding [⟨2, 6⟩, ⟨6, 2⟩, ⟨6, 6⟩] = some ⟨2, 6, 2, 6⟩ by decide +kernel]
      show relationToPoint.loop _ [⟨⟨6, 6⟩, ⟨2, 6⟩⟩, ⟨⟨2, 6⟩, ⟨6, 2⟩⟩, ⟨⟨6, 2⟩, ⟨6, 6⟩⟩] _ _ 0 = _
      rw [relationToPoint.loop]
      decide +kernel
    unfold pointRelation; rw [this]
  have hh : ([(0, ⟨⟨6, 6⟩, ⟨2, 6⟩⟩), (1, ⟨⟨2, 6⟩, ⟨6, 2⟩⟩), (2, ⟨⟨6, 2⟩, ⟨6, 6⟩⟩)] : List (Nat × Segment)).flatMap
      (fun e => (meet ⟨⟨0, 8⟩, ⟨8, 0⟩⟩ e.2).1) = [⟨2, 6⟩, ⟨2, 2⟩, ⟨6, 6⟩, ⟨6, 2⟩] := by decide +kernel
  unfold detectEdge
  simp only [hh, r0, r1, Outcome.bind]
  rw [if_neg (by simp)]
  have hs : sortPoints S ((⟨8, 0⟩ : Point).sub ⟨0, 8⟩) ([⟨2, 6⟩, ⟨2, 2⟩, ⟨6, 6⟩, ⟨6, 2⟩] ++ [⟨0, 8⟩, ⟨8, 0⟩]) = .ub := by
    unfold sortPoints
    rw [show pointBefore ((⟨8, 0⟩ : Point).sub ⟨0, 8⟩) = some fun a b => decide (a.x < b.x) && decide (a.y > b.y) by
      norm_num [pointBefore, Point.sub]]
    simp only
    rw [if_neg (by decide +kernel)]
  rw [hs]

/-- C78 is false also for an edge shorter than the tolerance across the edge of a large triangle: the points are merged into
one, and the second one is read. -/
theorem C78_index_false : ∃ (points : List Point) (edges : List (Nat × Segment)) (a : Segment),
    detectEdges points = some (edges.map (·.2)) ∧ a.p0 ≠ a.p1 ∧ a.p0.y = a.p1.y ∧
    ∀ S b, detectEdge S b points edges a = .ub := by
  refine ⟨[⟨-1000, -1000⟩, ⟨1000, -1000⟩, ⟨1000, 1000⟩],
    [(0, ⟨⟨1000, 1000⟩, ⟨-1000, -1000⟩⟩), (1, ⟨⟨-1000, -1000⟩, ⟨1000, -1000⟩⟩), (2, ⟨⟨1000, -1000⟩, ⟨1000, 1000⟩⟩)],
    ⟨⟨-1 / 400000000, 0⟩, ⟨1 / 400000000, 0⟩⟩, rfl, by decide +kernel, rfl, ?_⟩
  intro S b
  have r0 : pointRelation [⟨-1000, -1000⟩, ⟨1000, -1000⟩, ⟨1000, 1000⟩] ⟨-1 / 400000000, 0⟩ = .ok .outside := by
    have : relationToPoint [⟨-1000, -1000⟩, ⟨1000, -1000⟩, ⟨1000, 1000⟩] ⟨-1 / 400000000, 0⟩ = some .outside := by
      unfold relationToPoint
      rw [show detectBounding [⟨-1000, -1000⟩, ⟨1000, -1000⟩, ⟨1000, 1000⟩] = some ⟨-1000, 1000, -1000, 1000⟩ by decide +kernel]
      show relationToPoint.loop _ [⟨⟨1000, 1000⟩, ⟨-1000, -1000⟩⟩, ⟨⟨-1000, -1000⟩, ⟨1000, -1000⟩⟩,
        ⟨⟨1000, -1000⟩, ⟨1000, 1000⟩⟩] _ _ 0 = _
      rw [relationToPoint.loop]
      decide +kernel
    unfold pointRelation; rw [this]
  have r1 : pointRelation [⟨-1000, -1000⟩, ⟨1000, -1000⟩, ⟨1000, 1000⟩] ⟨1 / 400000000, 0⟩ = .ok .inside := by
    have : relationToPoint [⟨-1000, -1000⟩, ⟨1000, -1000⟩, ⟨1000, 1000⟩] ⟨1 / 400000000, 0⟩ = some .inside := by
      unfold relationToPoint
      rw [show detectBounding [⟨-1000, -1000⟩, ⟨1000, -1000⟩, ⟨1000, 1000⟩] = some ⟨-1000, 1000, -1000, 1000⟩ by decide +kernel]
      show relationToPoint.loop _ [⟨⟨1000, 1000⟩, ⟨-1000, -1000⟩⟩, ⟨⟨-1000, -1000⟩, ⟨1000, -1000⟩⟩,
        ⟨⟨1000, -1000⟩, ⟨1000, 1000⟩⟩] _ _ 0 = _
      rw [relationToPoint.loop]
      decide +kernel
    unfold pointRelation; rw [this]
  have hh : ([(0, ⟨⟨1000, 1000⟩, ⟨-1000, -1000⟩⟩), (1, ⟨⟨-1000, -1000⟩, ⟨1000, -1000⟩⟩),
      (2, ⟨⟨1000, -1000⟩, ⟨1000, 1000⟩⟩)] : List (Nat × Segment)).flatMap
      (fun e => (meet ⟨⟨-1 / 400000000, 0⟩, ⟨1 / 400000000, 0⟩⟩ e.2).1) = [⟨0, 0⟩] := by decide +kernel
  unfold detectEdge
  simp only [hh, r0, r1, Outcome.bind]
  rw [if_neg (by simp)]
  have hw := weak_by (fun p => p.x) ([⟨0, 0⟩] ++ [⟨-1 / 400000000, 0⟩, ⟨1 / 400000000, 0⟩])
  have hs : sortPoints S ((⟨1 / 400000000, 0⟩ : Point).sub ⟨-1 / 400000000, 0⟩)
      ([⟨0, 0⟩] ++ [⟨-1 / 400000000, 0⟩, ⟨1 / 400000000, 0⟩]) =
      .ok (S.sort (fun p q => decide (p.x < q.x)) ([⟨0, 0⟩] ++ [⟨-1 / 400000000, 0⟩, ⟨1 / 400000000, 0⟩])) := by
    unfold sortPoints
    rw [show pointBefore ((⟨1 / 400000000, 0⟩ : Point).sub ⟨-1 / 400000000, 0⟩) = some fun a b => decide (a.x < b.x) by
      norm_num [pointBefore, Point.sub]]
    simp only [hw, if_true]
  rw [hs]
  have hperm := S.perm (fun p q => decide (p.x < q.x)) ([⟨0, 0⟩] ++ [⟨-1 / 400000000, 0⟩, ⟨1 / 400000000, 0⟩])
  generalize S.sort _ _ = srt at hperm
  have near : ∀ p ∈ srt, ∀ q ∈ srt, p.eq q = true := by
    have : ∀ p ∈ ([⟨0, 0⟩] ++ [⟨-1 / 400000000, 0⟩, ⟨1 / 400000000, 0⟩] : List Point),
        ∀ q ∈ ([⟨0, 0⟩] ++ [⟨-1 / 400000000, 0⟩, ⟨1 / 400000000, 0⟩] : List Point), p.eq q = true := by decide +kernel
    exact fun p hp q hq => this p (hperm.mem_iff.1 hp) q (hperm.mem_iff.1 hq)
  have one : ∃ p, uniquePoints srt = [p] := by
    match srt, hperm, near with
    | [], hperm, _ => have := hperm.length_eq; simp at this
    | p :: rest, _, near =>
      refine ⟨p, ?_⟩
      rw [uniquePoints]
      congr 1
      exact uniqueAfter_all fun q hq => near p (by simp) q (by simp [hq])
  obtain ⟨p, hp⟩ := one
  simp only [hp]
  rfl

end Verif.Board
