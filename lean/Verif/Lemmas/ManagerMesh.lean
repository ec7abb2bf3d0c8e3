import Verif.Lemmas.Manager
import Mathlib.Data.List.Perm.Basic
import Mathlib.Data.List.Forall2
import Mathlib.Data.List.Sort

/-! # The mesh of an axis -/

namespace Verif.Mesh
open Spec List

/-- The line of a ONELINE policy. -/
def oneLine (p : Policy) : List ℚ := if p.kind = .oneline then [p.coord] else []

/-- The lines of an interval between `p` and `q`, seen from outside: with the lines of ONELINE ends added, they go
from near `p` to near `q` by steps of at most `D`, with `d` not above those of `p` and `q`. -/
def LinesBetween (D : ℚ) (p q : Policy) (ls : List ℚ) : Prop :=
  ∃ dp dq mid, 0 < dp ∧ dp ≤ D ∧ 0 < dq ∧ dq ≤ D ∧
    oneLine p ++ ls ++ oneLine q = (p.coord + kBefore p * dp) :: mid ++ [q.coord - kAfter q * dq] ∧
    (oneLine p ++ ls ++ oneLine q).IsChain (Step D) ∧ dp ≤ p.d ∧ dq ≤ q.d

theorem kBefore_congr {p q : Policy} (h1 : p.kind = q.kind) (h2 : p.normal = q.normal) : kBefore p = kBefore q := by
  unfold kBefore; rw [h1, h2]

theorem kAfter_congr {p q : Policy} (h1 : p.kind = q.kind) (h2 : p.normal = q.normal) : kAfter p = kAfter q := by
  unfold kAfter; rw [h1, h2]

theorem oneLine_congr {p q : Policy} (h1 : p.kind = q.kind) (h2 : p.coord = q.coord) : oneLine p = oneLine q := by
  unfold oneLine; rw [h1, h2]

theorem LinesBetween.lowered {D : ℚ} {ps ps' : Policies} (h : Lowered ps ps') {i j : Nat} {ls : List ℚ}
    (hl : LinesBetween D (ps' i) (ps' j) ls) : LinesBetween D (ps i) (ps j) ls := by
  unfold LinesBetween at hl ⊢
  rw [kBefore_congr (h.kind i) (h.normal i), kAfter_congr (h.kind j) (h.normal j), h.coord, h.coord,
    oneLine_congr (h.kind i) (h.coord i), oneLine_congr (h.kind j) (h.coord j)] at hl
  obtain ⟨dp, dq, mid, h1, h2, h3, h4, h5, h6, h7, h8⟩ := hl
  exact ⟨dp, dq, mid, h1, h2, h3, h4, h5, h6, h7.trans (h.le i), h8.trans (h.le j)⟩

theorem Step.mono {g g' x y : ℚ} (hg : g ≤ g') (h : Step g x y) : Step g' x y := ⟨h.1, h.2.trans hg⟩

theorem LinesBetween.mono {D D' : ℚ} (hD : D ≤ D') {p q : Policy} {ls : List ℚ} (h : LinesBetween D p q ls) :
    LinesBetween D' p q ls := by
  obtain ⟨dp, dq, mid, h1, h2, h3, h4, h5, h6, h7, h8⟩ := h
  exact ⟨dp, dq, mid, h1, h2.trans hD, h3, h4.trans hD, h5, h6.imp fun _ _ h => h.mono hD, h7, h8⟩

theorem linesBetween_mesh {D : ℚ} {i : Interval} {ps : Policies}
    (hb : 0 < (ps i.before.policy).d) (hb' : (ps i.before.policy).d ≤ D)
    (ha : 0 < (ps i.after.policy).d) (ha' : (ps i.after.policy).d ≤ D)
    (hc : (i.extended ps).IsChain (Step D)) :
    LinesBetween D (ps i.before.policy) (ps i.after.policy) (i.mesh ps) := by
  obtain ⟨l, hl⟩ := extended_shape i ps
  have he : oneLine (ps i.before.policy) ++ i.mesh ps ++ oneLine (ps i.after.policy) = i.extended ps :=
    (extended_eq i ps).symm
  refine ⟨_, _, l, hb, hb', ha, ha', ?_, ?_, le_rfl, le_rfl⟩
  · rw [he, hl, dInitBefore_eq, dInitAfter_eq]
  · rw [he]; exact hc

/-! ## The two loops of `mesh` -/

theorem solveAllD_spec (ivs : List Interval) : ∀ ps : Policies, (∀ i ∈ ivs, i.Ok ps) →
    ∃ ps' ivs', solveAllD ps ivs = some (ps', ivs') ∧ Lowered ps ps' ∧
      Forall₂ (fun i i' => SameInterval i i' ∧ i'.Ok ps' ∧ i'.dmax ≤ i.dmax) ivs ivs' := by
  induction ivs with
  | nil => intro ps _; exact ⟨ps, [], rfl, Lowered.refl ps, Forall₂.nil⟩
  | cons i ivs ih =>
    intro ps hok
    obtain ⟨ps1, i1, h1, hok1, hs, hlow, -, -, -, -, hdm, -⟩ := autoSolveD_spec (hok i (by simp))
    obtain ⟨ps2, ivs2, h2, hlow2, hall⟩ := ih ps1 fun k hk => (hok k (by simp [hk])).lowered hlow
    refine ⟨ps2, i1 :: ivs2, ?_, hlow.trans hlow2, Forall₂.cons ⟨hs, hok1.lowered hlow2, hdm⟩ hall⟩
    simp [solveAllD, h1, h2]

theorem meshAll_spec (ivs : List Interval) : ∀ ps : Policies, (∀ i ∈ ivs, i.Ok ps) →
    ∃ ps' ivs' ls, meshAll ps ivs = some (ps', ivs', ls) ∧ Lowered ps ps' ∧
      Forall₂ (fun i l => LinesBetween i.dmax (ps i.before.policy) (ps i.after.policy) l) ivs ls := by
  induction ivs with
  | nil => intro ps _; exact ⟨ps, [], [], rfl, Lowered.refl ps, Forall₂.nil⟩
  | cons i ivs ih =>
    intro ps hok
    have hi := hok i (by simp)
    obtain ⟨ps1, i1, h1, hok1, hs, hlow, -, hdb, hda, -, -, -, hchain, -⟩ := solveAndMesh_spec hi
    obtain ⟨ps2, ivs2, ls2, h2, hlow2, hall⟩ := ih ps1 fun k hk => (hok k (by simp [hk])).lowered hlow
    refine ⟨ps2, i1 :: ivs2, i1.mesh ps1 :: ls2, ?_, hlow.trans hlow2, Forall₂.cons ?_ ?_⟩
    · simp [meshAll, h1, h2]
    · have hl := linesBetween_mesh (D := i.dmax) (i := i1) (ps := ps1) hok1.d_b
        (by rw [hs.pb]; exact hdb) hok1.d_a (by rw [hs.pa]; exact hda) hchain
      rw [hs.pb, hs.pa] at hl
      exact hl.lowered hlow
    · exact hall.imp fun _ _ h => h.lowered hlow

/-! ## The intervals -/

/-- The consecutive pairs of a list. -/
def consecutive {α : Type} (l : List α) : List (α × α) := l.zip l.tail

theorem makeIntervals_pairs (g : MeshParams) (l : List Nat) : ∀ ps : Policies,
    ((makeIntervals g ps l).2.map fun i => (i.before.policy, i.after.policy)) = consecutive l ∧
    (∀ i ∈ (makeIntervals g ps l).2, i.dmax = g.dmax ∧ i.before.lmin = g.lmin ∧ i.after.lmin = g.lmin ∧
      i.before.smoothness = g.smoothness ∧ i.after.smoothness = g.smoothness) := by
  induction l with
  | nil => intro ps; simp [makeIntervals, consecutive]
  | cons x l ih =>
    intro ps
    cases l with
    | nil => simp [makeIntervals, consecutive]
    | cons y l =>
      obtain ⟨h1, h2⟩ := ih (Interval.make ps x y g.lmin g.smoothness g.dmax).1
      constructor
      · simp only [makeIntervals, List.map_cons]
        rw [h1]
        rfl
      · intro i hi
        simp only [makeIntervals, List.mem_cons] at hi
        rcases hi with rfl | hi
        · exact ⟨rfl, rfl, rfl, rfl, rfl⟩
        · exact h2 i hi

theorem makeIntervals_coords (g : MeshParams) (l : List Nat) : ∀ ps : Policies,
    (∀ j, ∃ d, (makeIntervals g ps l).1 j = { ps j with d := d }) ∧
    ∀ i ∈ (makeIntervals g ps l).2, i.h = |(ps i.before.policy).coord - (ps i.after.policy).coord| / 2 ∧
      i.m = ((ps i.before.policy).coord + (ps i.after.policy).coord) / 2 := by
  have hmake : ∀ (ps : Policies) x y j, ∃ d, (Interval.make ps x y g.lmin g.smoothness g.dmax).1 j = { ps j with d := d } := by
    intro ps x y j
    have one : ∀ (q : Policies) k h, (∃ d, q j = { ps j with d := d }) →
        ∃ d, (Side.make q k g.lmin g.smoothness h).1 j = { ps j with d := d } := by
      intro q k h ⟨d, hd⟩
      unfold Side.make
      simp only
      split
      · unfold Policies.setD
        split
        · rename_i e; subst e; exact ⟨h, by rw [hd]⟩
        · exact ⟨d, hd⟩
      · exact ⟨d, hd⟩
    exact one _ _ _ (one ps x _ ⟨(ps j).d, rfl⟩)
  induction l with
  | nil => intro ps; exact ⟨fun j => ⟨(ps j).d, rfl⟩, by simp [makeIntervals]⟩
  | cons x l ih =>
    intro ps
    cases l with
    | nil => exact ⟨fun j => ⟨(ps j).d, rfl⟩, by simp [makeIntervals]⟩
    | cons y l =>
      obtain ⟨h1, h2⟩ := ih (Interval.make ps x y g.lmin g.smoothness g.dmax).1
      constructor
      · intro j
        obtain ⟨d, hd⟩ := h1 j
        obtain ⟨d', hd'⟩ := hmake ps x y j
        refine ⟨d, ?_⟩
        simp only [makeIntervals]
        rw [hd, hd']
      · intro i hi
        simp only [makeIntervals, List.mem_cons] at hi
        rcases hi with rfl | hi
        · refine ⟨rfl, ?_⟩
          obtain ⟨d1, hd1⟩ := hmake ps x y x
          obtain ⟨d2, hd2⟩ := hmake ps x y y
          have e : (Interval.make ps x y g.lmin g.smoothness g.dmax).2.m =
            (((Interval.make ps x y g.lmin g.smoothness g.dmax).1 x).coord +
              ((Interval.make ps x y g.lmin g.smoothness g.dmax).1 y).coord) / 2 := rfl
          rw [e, hd1, hd2]
          rfl
        · obtain ⟨e1, e2⟩ := h2 i hi
          obtain ⟨d1, hd1⟩ := hmake ps x y i.before.policy
          obtain ⟨d2, hd2⟩ := hmake ps x y i.after.policy
          rw [e1, e2, hd1, hd2]
          exact ⟨rfl, rfl⟩

theorem makeIntervals_ok {g : MeshParams} (hg : g.InRange) (l : List Nat) : ∀ ps : Policies,
    l.IsChain (fun i j => i ≠ j ∧ (ps i).coord < (ps j).coord) → (∀ i ∈ l, 0 < (ps i).d) →
    Lowered ps (makeIntervals g ps l).1 ∧ ∀ i ∈ (makeIntervals g ps l).2, i.Ok (makeIntervals g ps l).1 := by
  induction l with
  | nil => intro ps _ _; exact ⟨Lowered.refl ps, by simp [makeIntervals]⟩
  | cons x l ih =>
    intro ps hc hd
    cases l with
    | nil => exact ⟨Lowered.refl ps, by simp [makeIntervals]⟩
    | cons y l =>
      rw [List.isChain_cons_cons] at hc
      obtain ⟨hok, hlow, -⟩ := make_ok (ps := ps) (b := x) (a := y) (lmin := g.lmin) hg.dmax_pos hg.smoothness hc.1.1
        hc.1.2 (hd x (by simp)) (hd y (by simp))
      obtain ⟨h1, h2⟩ := ih (Interval.make ps x y g.lmin g.smoothness g.dmax).1
        (hc.2.imp fun i j h => ⟨h.1, by rw [hlow.coord, hlow.coord]; exact h.2⟩)
        fun i hi => hlow.pos i (hd i (by simp [List.mem_cons.mp hi]))
      refine ⟨hlow.trans h1, ?_⟩
      intro i hi
      simp only [makeIntervals, List.mem_cons] at hi
      rcases hi with rfl | hi
      · exact hok.lowered h1
      · exact h2 i hi

/-! ## Putting the lines of the intervals together -/

/-- The lines of the policies and of the intervals between them, in axis order. -/
def weave : List Policy → List (List ℚ) → List ℚ
  | p :: q :: rest, l :: ls => oneLine p ++ l ++ weave (q :: rest) ls
  | [p], _ => oneLine p
  | _, _ => []

theorem kBefore_pos {p : Policy} (h : p.kind ≠ .oneline) : 0 < kBefore p := by
  unfold kBefore
  cases hk : p.kind <;> cases p.normal <;> simp_all

theorem kBefore_oneline {p : Policy} (h : p.kind = .oneline) : kBefore p = 0 := by simp [kBefore, h]
theorem kAfter_oneline {p : Policy} (h : p.kind = .oneline) : kAfter p = 0 := by simp [kAfter, h]

/-- How the woven lines start. -/
def Starts (D : ℚ) (p : Policy) (l : List ℚ) : Prop :=
  (∃ d t, 0 < d ∧ d ≤ D ∧ l = (p.coord + kBefore p * d) :: t) ∨ (p.kind ≠ .oneline ∧ l = [])

theorem weave_chain {D : ℚ} (hD : 0 < D) (rest : List Policy) : ∀ (p : Policy) (ls : List (List ℚ)),
    (∀ q ∈ p :: rest, ¬ (q.kind = .thirds ∧ q.normal = .none)) →
    Forall₂ (fun pq l => LinesBetween D pq.1 pq.2 l) (consecutive (p :: rest)) ls →
    (weave (p :: rest) ls).IsChain (Step D) ∧ Starts D p (weave (p :: rest) ls) := by
  induction rest with
  | nil =>
    intro p ls _ _
    simp only [weave]
    unfold oneLine
    split
    · rename_i h
      exact ⟨List.isChain_singleton _, Or.inl ⟨D, [], hD, le_rfl, by rw [kBefore_oneline h]; simp⟩⟩
    · rename_i h
      exact ⟨List.isChain_nil, Or.inr ⟨h, rfl⟩⟩
  | cons q rest ih =>
    intro p ls hk hf
    cases hf with
    | cons h1 h2 =>
      rename_i l ls
      obtain ⟨hw, hst⟩ := ih q ls (fun r hr => hk r (by simp [List.mem_cons.mp hr])) h2
      obtain ⟨dp, dq, mid, hdp, hdp', hdq, hdq', he, hc, -⟩ := h1
      simp only at he hc
      simp only [weave]
      set w := weave (q :: rest) ls with hwdef
      have hkq := hk q (by simp)
      by_cases ho : q.kind = .oneline
      · rcases hst with ⟨d, t, -, -, ht⟩ | ⟨h, _⟩
        · rw [kBefore_oneline ho] at ht
          simp only [zero_mul, add_zero] at ht
          have hone : oneLine q = [q.coord] := by simp [oneLine, ho]
          rw [kAfter_oneline ho] at he
          simp only [zero_mul, sub_zero] at he
          have e : oneLine p ++ l ++ w = (p.coord + kBefore p * dp) :: mid ++ [q.coord] ++ t := by
            rw [← he, hone, ht]; simp
          rw [e]
          refine ⟨isChain_append_join (l := (p.coord + kBefore p * dp) :: mid) ?_ ?_, ?_⟩
          · rw [← he]; exact hc
          · rw [ht] at hw; exact hw
          · exact Or.inl ⟨dp, _, hdp, hdp', rfl⟩
        · exact absurd ho h
      · have hone : oneLine q = [] := by simp [oneLine, ho]
        rw [hone, List.append_nil] at he hc
        rw [he] at hc ⊢
        refine ⟨List.IsChain.append hc hw ?_, Or.inl ⟨dp, _, hdp, hdp', rfl⟩⟩
        intro x hx y hy
        simp only [List.getLast?_concat, Option.mem_def, Option.some.injEq] at hx
        subst hx
        rcases hst with ⟨d, t, hd, hd', ht⟩ | ⟨_, h⟩
        · rw [ht] at hy
          simp only [List.head?_cons, Option.mem_def, Option.some.injEq] at hy
          subst hy
          have h1 := kBefore_pos ho
          have h2 := kAfter_nonneg q
          have h3 := k_sum_le q hkq
          have h4 := mul_pos h1 hd
          have h5 := mul_nonneg h2 hdq.le
          have h6 := mul_le_mul_of_nonneg_left hd' h1.le
          have h7 := mul_le_mul_of_nonneg_left hdq' h2
          have h8 := mul_le_mul_of_nonneg_right h3 hD.le
          constructor
          · linarith
          · linarith
        · rw [h] at hy; simp at hy

theorem weave_mem {D : ℚ} (rest : List Policy) : ∀ (p : Policy) (ls : List (List ℚ)),
    Forall₂ (fun pq l => LinesBetween D pq.1 pq.2 l) (consecutive (p :: rest)) ls →
    ∀ y ∈ weave (p :: rest) ls, (∃ q ∈ p :: rest, q.kind = .oneline ∧ y = q.coord) ∨
      ∃ q r, (q, r) ∈ consecutive (p :: rest) ∧ q.coord ≤ y ∧ y ≤ r.coord := by
  induction rest with
  | nil =>
    intro p ls _ y hy
    simp only [weave, oneLine] at hy
    split at hy
    · exact Or.inl ⟨p, by simp, by assumption, by simpa using hy⟩
    · simp at hy
  | cons q rest ih =>
    intro p ls hf y hy
    cases hf with
    | cons h1 h2 =>
      rename_i l ls
      simp only [weave, List.mem_append] at hy
      rcases hy with (hy | hy) | hy
      · left
        unfold oneLine at hy
        split at hy
        · exact ⟨p, by simp, by assumption, by simpa using hy⟩
        · simp at hy
      · right
        obtain ⟨dp, dq, mid, hdp, -, hdq, -, he, hc, -⟩ := h1
        simp only at he hc
        have hb := chain_bounds (he ▸ hc) y (by rw [← he]; simp [hy])
        refine ⟨p, q, by simp [consecutive], ?_, ?_⟩
        · have := mul_nonneg (kBefore_nonneg p) hdp.le; linarith [hb.1]
        · have := mul_nonneg (kAfter_nonneg q) hdq.le; linarith [hb.2]
      · rcases ih q ls h2 y hy with ⟨r, hr, h⟩ | ⟨r, s, hrs, h⟩
        · exact Or.inl ⟨r, by simp [List.mem_cons.mp hr], h⟩
        · refine Or.inr ⟨r, s, ?_, h⟩
          simp only [consecutive, List.tail_cons, List.zip_cons_cons, List.mem_cons] at hrs ⊢
          exact Or.inr hrs

theorem weave_perm (rest : List Policy) : ∀ (p : Policy) (ls : List (List ℚ)),
    ls.length = rest.length → (weave (p :: rest) ls).Perm (ls.flatten ++ (p :: rest).flatMap oneLine) := by
  induction rest with
  | nil =>
    intro p ls h
    rw [List.length_nil, List.length_eq_zero_iff] at h
    subst h
    simp [weave]
  | cons q rest ih =>
    intro p ls h
    cases ls with
    | nil => simp at h
    | cons l ls =>
      have := ih q ls (by simpa using h)
      simp only [weave, List.flatten_cons]
      rw [List.flatMap_cons, List.append_assoc, List.append_assoc]
      calc oneLine p ++ (l ++ weave (q :: rest) ls)
          ~ oneLine p ++ (l ++ (ls.flatten ++ (q :: rest).flatMap oneLine)) :=
            (this.append_left _).append_left _
        _ ~ (l ++ (ls.flatten ++ (q :: rest).flatMap oneLine)) ++ oneLine p := perm_append_comm
        _ ~ l ++ (ls.flatten ++ (oneLine p ++ (q :: rest).flatMap oneLine)) := by
            rw [List.append_assoc, List.append_assoc]
            exact (perm_append_comm.append_left _).append_left _

/-! ## The whole axis -/

theorem withPolicies_get {a : Axis} {ps : Policies} {k : Nat} (h : k < a.policies.length) :
    (a.withPolicies ps).get k = ps k := by
  simp [Axis.get, Axis.withPolicies, Axis.pointers, h]

theorem lowered_default {a : Axis} {ps : Policies} (h : Lowered a.get ps) (k : Nat) (hk : ¬ k < a.policies.length) :
    (ps k).enabled = false := by
  rw [h.enabled]; simp [Axis.get, hk]

theorem withPolicies_enabled {a : Axis} {ps : Policies} (h : ∀ k, (ps k).enabled = (a.get k).enabled) (k : Nat) :
    (a.withPolicies ps).Enabled k ↔ a.Enabled k := by
  rw [enabled_iff, enabled_iff]
  have hl : (a.withPolicies ps).policies.length = a.policies.length := by
    simp [Axis.withPolicies, Axis.pointers]
  rw [hl]
  constructor
  · rintro ⟨h1, h2⟩; rw [withPolicies_get h1, h k] at h2; exact ⟨h1, h2⟩
  · rintro ⟨h1, h2⟩; refine ⟨h1, ?_⟩; rw [withPolicies_get h1, h k]; exact h2

theorem sorted_chain {S : Sorter Nat} {a : Axis} (hsep : a.Separated) :
    (S.sort (fun i => (a.get i).coord) a.enabledPointers).IsChain
      fun i j => i ≠ j ∧ (a.get i).coord < (a.get j).coord := by
  have hp := S.perm (fun i => (a.get i).coord) a.enabledPointers
  have hs := S.sorted (fun i => (a.get i).coord) a.enabledPointers
  have hn := hp.nodup_iff.mpr (nodup_enabledPointers a)
  have hmem : ∀ k ∈ S.sort (fun i => (a.get i).coord) a.enabledPointers, a.Enabled k :=
    fun k hk => mem_enabledPointers.mp (hp.mem_iff.mp hk)
  refine List.Pairwise.isChain ?_
  have := (hs.and hn)
  rw [List.pairwise_iff_getElem] at this ⊢
  intro i j hi hj hij
  obtain ⟨h1, h2⟩ := this i j hi hj hij
  exact ⟨h2, lt_of_le_of_ne h1 (hsep _ _ (hmem _ (List.getElem_mem _)) (hmem _ (List.getElem_mem _)) h2)⟩

/-- Detecting the intervals of an axis without intervals. -/
theorem detectIntervals_spec {S : Sorter Nat} {g : MeshParams} {a : Axis} (hg : g.InRange) (hsep : a.Separated)
    (hd : a.PositiveD) (hi : a.intervals = []) :
    ∃ ps, Lowered a.get ps ∧ (a.detectIntervals S g).policies = (a.withPolicies ps).policies ∧
      (a.detectIntervals S g).conflicts = a.conflicts ∧ (a.detectIntervals S g).meshlines = a.meshlines ∧
      (∀ i ∈ (a.detectIntervals S g).intervals, i.Ok (a.detectIntervals S g).get ∧ i.dmax = g.dmax) ∧
      (a.detectIntervals S g).intervals.map (fun i => (i.before.policy, i.after.policy)) =
        consecutive (S.sort (fun i => (a.get i).coord) a.enabledPointers) := by
  set o := S.sort (fun i => (a.get i).coord) a.enabledPointers with ho
  have hp := S.perm (fun i => (a.get i).coord) a.enabledPointers
  rw [← ho] at hp
  have hmem : ∀ k ∈ o, a.Enabled k := fun k hk => mem_enabledPointers.mp (hp.mem_iff.mp hk)
  obtain ⟨hlow, hok⟩ := makeIntervals_ok hg o a.get (sorted_chain hsep) fun i hi => hd i (hmem i hi)
  obtain ⟨hpairs, hpar⟩ := makeIntervals_pairs g o a.get
  have e : a.detectIntervals S g =
      { a.withPolicies (makeIntervals g a.get o).1 with intervals := (makeIntervals g a.get o).2 } := by
    simp only [Axis.detectIntervals, hi, List.nil_append]
    rw [← ho]
  have hget : ∀ k, a.Enabled k → (a.detectIntervals S g).get k = (makeIntervals g a.get o).1 k := by
    intro k hk
    rw [e]
    exact withPolicies_get hk.lt
  have hin : ∀ i ∈ (makeIntervals g a.get o).2, i.before.policy ∈ o ∧ i.after.policy ∈ o := by
    intro i hi
    have : (i.before.policy, i.after.policy) ∈ consecutive o := by
      rw [← hpairs]; exact List.mem_map.mpr ⟨i, hi, rfl⟩
    exact ⟨(List.of_mem_zip this).1, List.mem_of_mem_tail (List.of_mem_zip this).2⟩
  refine ⟨(makeIntervals g a.get o).1, hlow, by rw [e], by rw [e]; rfl, by rw [e]; rfl, ?_, by rw [e]; exact hpairs⟩
  intro i hi
  have hi' : i ∈ (makeIntervals g a.get o).2 := by rw [e] at hi; exact hi
  have h := hok i hi'
  have hb := hget _ (hmem _ (hin i hi').1)
  have ha := hget _ (hmem _ (hin i hi').2)
  refine ⟨⟨h.dmax_pos, h.distinct, ?_, ?_, ?_, h.smooth_b, h.smooth_a, ?_, ?_⟩, (hpar i hi').1⟩
  · rw [hb, ha]; exact h.coord_lt
  · rw [hb, ha]; exact h.h_eq
  · rw [hb, ha]; exact h.m_eq
  · rw [hb]; exact h.d_b
  · rw [ha]; exact h.d_a

theorem consecutive_map {α β : Type} (f : α → β) (l : List α) :
    consecutive (l.map f) = (consecutive l).map fun p => (f p.1, f p.2) := by
  unfold consecutive
  rw [← List.map_tail, List.zip_map]
  rfl

theorem forall₂_map_left {α β γ : Type} {R : β → γ → Prop} {f : α → β} : ∀ {l : List α} {u : List γ},
    Forall₂ (fun a c => R (f a) c) l u → Forall₂ R (l.map f) u
  | _, _, Forall₂.nil => Forall₂.nil
  | _, _, Forall₂.cons h t => Forall₂.cons h (forall₂_map_left t)

theorem flatMap_oneLine {a : Axis} {ps : Policies} (h : Lowered a.get ps) :
    ((a.withPolicies ps).policies.filterMap Policy.mesh).Perm (a.enabledPointers.flatMap fun k => oneLine (a.get k)) := by
  have : ∀ l : List Nat, (l.map ps).filterMap Policy.mesh =
      (l.filter fun i => (a.get i).enabled).flatMap fun k => oneLine (a.get k) := by
    intro l
    induction l with
    | nil => rfl
    | cons x l ih =>
      rw [List.map_cons, List.filterMap_cons, List.filter_cons]
      have e1 := h.enabled x
      have e2 := h.kind x
      have e3 := h.coord x
      have em : (ps x).mesh = if (a.get x).enabled = true ∧ (a.get x).kind = .oneline then some (a.get x).coord
          else none := by
        unfold Policy.mesh
        rw [e1, e2, e3]
        simp
      rw [em]
      by_cases hen : (a.get x).enabled = true
      · by_cases hk : (a.get x).kind = .oneline
        · simp only [hen, hk, and_self, if_true, List.flatMap_cons]
          rw [← ih, oneLine, if_pos hk]
          rfl
        · simp only [hen, hk, and_false, if_false, if_true, List.flatMap_cons]
          rw [← ih, oneLine, if_neg hk]
          rfl
      · rw [if_neg (fun h => hen h.1), if_neg hen]
        exact ih
  exact List.Perm.of_eq (this _)

/-- Meshing an axis whose intervals are the consecutive pairs of its enabled policies in coordinate order. -/
theorem axisMesh_spec {S : Sorter Interval} {T : Sorter ℚ} {a : Axis} {D : ℚ} (hD : 0 < D)
    {o : List Nat} (hperm : o.Perm a.enabledPointers)
    (hchain : o.IsChain fun i j => (a.get i).coord < (a.get j).coord)
    (hpairs : a.intervals.map (fun i => (i.before.policy, i.after.policy)) = consecutive o)
    (hok : ∀ i ∈ a.intervals, i.Ok a.get ∧ i.dmax ≤ D)
    (hcoh : ∀ i, a.Enabled i → ¬ ((a.get i).kind = .thirds ∧ (a.get i).normal = .none))
    (hml : a.meshlines = []) :
    ∃ b ps ls, a.mesh S T = some b ∧ Lowered a.get ps ∧ b.policies = (a.withPolicies ps).policies ∧
      b.conflicts = a.conflicts ∧
      Forall₂ (fun i l => LinesBetween i.dmax (a.get i.before.policy) (a.get i.after.policy) l) a.intervals ls ∧
      b.meshlines = weave (o.map a.get) ls ∧ b.meshlines.IsChain (Step D) := by
  have hsp := S.perm Interval.h a.intervals
  obtain ⟨ps1, iv1, h1, low1, f1⟩ := solveAllD_spec (S.sort Interval.h a.intervals) a.get
    fun i hi => (hok i (hsp.mem_iff.mp hi)).1
  have ok1 : ∀ i ∈ iv1, i.Ok ps1 := by
    intro i hi
    obtain ⟨n, hn, rfl⟩ := List.getElem_of_mem hi
    have hlen := f1.length_eq
    have := (List.forall₂_iff_get.mp f1).2 n (by omega) hn
    simp only [List.get_eq_getElem] at this
    exact this.2.1
  obtain ⟨ps2, iv2, ls, h2, low2, f2⟩ := meshAll_spec iv1 ps1 ok1
  have low := low1.trans low2
  -- lines of the intervals in the order of `mesh`, then in axis order
  have f3 : Forall₂ (fun i l => LinesBetween i.dmax (a.get i.before.policy) (a.get i.after.policy) l)
      (S.sort Interval.h a.intervals) ls := by
    rw [List.forall₂_iff_get] at f1 f2 ⊢
    refine ⟨f1.1.trans f2.1, fun n hn hn' => ?_⟩
    obtain ⟨hs, -, hd⟩ := f1.2 n hn (by have := f2.1; omega)
    have hl := f2.2 n (by have := f2.1; omega) hn'
    rw [hs.pb, hs.pa] at hl
    exact (hl.lowered low1).mono hd
  obtain ⟨ls', hf4, hpl⟩ := List.perm_comp_forall₂ hsp.symm f3
  have f5 : Forall₂ (fun pq l => LinesBetween D pq.1 pq.2 l) (consecutive (o.map a.get)) ls' := by
    have : consecutive (o.map a.get) = a.intervals.map fun i => (a.get i.before.policy, a.get i.after.policy) := by
      rw [consecutive_map, ← hpairs, List.map_map]; rfl
    rw [this]
    refine forall₂_map_left ?_
    rw [List.forall₂_iff_get] at hf4 ⊢
    exact ⟨hf4.1, fun n hn hn' => (hf4.2 n hn hn').mono (hok _ (List.get_mem _ _)).2⟩
  have hw : (weave (o.map a.get) ls').IsChain (Step D) := by
    cases o with
    | nil => exact List.isChain_nil
    | cons x o =>
      refine (weave_chain hD _ _ _ ?_ f5).1
      intro q hq
      rw [← List.map_cons, List.mem_map] at hq
      obtain ⟨k, hk, rfl⟩ := hq
      exact hcoh k (mem_enabledPointers.mp (hperm.mem_iff.mp hk))
  have hperm2 : (a.meshlines ++ ls.flatten ++ (a.withPolicies ps2).policies.filterMap Policy.mesh).Perm
      (weave (o.map a.get) ls') := by
    rw [hml, List.nil_append]
    have e1 : (a.enabledPointers.flatMap fun k => oneLine (a.get k)).Perm ((o.map a.get).flatMap oneLine) := by
      rw [List.flatMap_map]
      exact (hperm.symm.flatMap_right _)
    have e2 : (ls.flatten ++ (a.withPolicies ps2).policies.filterMap Policy.mesh).Perm
        (ls'.flatten ++ (o.map a.get).flatMap oneLine) :=
      (hpl.symm.flatten).append ((flatMap_oneLine low).trans e1)
    refine e2.trans ?_
    cases o with
    | nil =>
      have : ls' = [] := by
        have := f5.length_eq
        simp [consecutive] at this
        exact List.length_eq_zero_iff.mp this.symm
      simp [this, weave]
    | cons x o =>
      refine (weave_perm _ _ _ ?_).symm
      have := f5.length_eq
      simp [consecutive] at this
      simpa using this.symm
  have hsorted : T.sort id (a.meshlines ++ ls.flatten ++ (a.withPolicies ps2).policies.filterMap Policy.mesh) =
      weave (o.map a.get) ls' := by
    have hp := (T.perm id (a.meshlines ++ ls.flatten ++ (a.withPolicies ps2).policies.filterMap Policy.mesh)).trans hperm2
    have hs := T.sorted id (a.meshlines ++ ls.flatten ++ (a.withPolicies ps2).policies.filterMap Policy.mesh)
    have hs2 : (weave (o.map a.get) ls').Pairwise (· ≤ ·) :=
      (List.isChain_iff_pairwise.mp (hw.imp fun _ _ h => h.1)).imp fun h => le_of_lt h
    exact List.Perm.eq_of_pairwise (le := (· ≤ ·)) (fun _ _ _ _ h1 h2 => le_antisymm h1 h2) hs hs2 hp
  have hmesh : a.mesh S T = some { a.withPolicies ps2 with
      intervals := iv2
      meshlines := T.sort id (a.meshlines ++ ls.flatten ++ (a.withPolicies ps2).policies.filterMap Policy.mesh) } := by
    simp only [Axis.mesh, h1, h2, Option.bind_eq_bind, Option.bind_some]
    rfl
  refine ⟨_, ps2, ls', hmesh, low, ?_, ?_, hf4, hsorted, ?_⟩
  · rfl
  · rfl
  · simp only
    rw [hsorted]; exact hw

/-! ## Only the `d` of policies changes -/

/-- Policies that differ at most by `d`. -/
def OnlyD (ps ps' : Policies) : Prop := ∀ j, ∃ d, ps' j = { ps j with d := d }

theorem OnlyD.refl (ps : Policies) : OnlyD ps ps := fun j => ⟨(ps j).d, rfl⟩

theorem OnlyD.trans {a b c : Policies} (h : OnlyD a b) (h' : OnlyD b c) : OnlyD a c := by
  intro j
  obtain ⟨d, hd⟩ := h j
  obtain ⟨d', hd'⟩ := h' j
  exact ⟨d', by rw [hd', hd]⟩

theorem OnlyD.setD (ps : Policies) (i : Nat) (d : ℚ) : OnlyD ps (ps.setD i d) := by
  intro j
  unfold Policies.setD
  split
  · rename_i h; subst h; exact ⟨d, rfl⟩
  · exact ⟨(ps j).d, rfl⟩

theorem autoSolveD_onlyD {i i' : Interval} {ps ps' : Policies} (h : i.autoSolveD ps = some (ps', i')) : OnlyD ps ps' := by
  simp only [Interval.autoSolveD, Option.bind_eq_bind, Option.bind_eq_some_iff] at h
  obtain ⟨_, _, _, _, _, _, _, _, _, _, _, _, _, _, _, _, h⟩ := h
  simp only [Option.pure_def, Option.some.injEq, Prod.mk.injEq] at h
  rw [← h.1]
  exact (OnlyD.setD _ _ _).trans (OnlyD.setD _ _ _)

theorem solveAllD_onlyD (ivs : List Interval) : ∀ {ps ps' : Policies} {ivs' : List Interval},
    solveAllD ps ivs = some (ps', ivs') → OnlyD ps ps' := by
  induction ivs with
  | nil => intro ps ps' ivs' h; simp only [solveAllD, Option.some.injEq, Prod.mk.injEq] at h; rw [← h.1]; exact OnlyD.refl ps
  | cons i ivs ih =>
    intro ps ps' ivs' h
    simp only [solveAllD, Option.bind_eq_bind, Option.bind_eq_some_iff] at h
    obtain ⟨⟨ps1, i1⟩, h1, ⟨ps2, r⟩, h2, h3⟩ := h
    simp only [Option.pure_def, Option.some.injEq, Prod.mk.injEq] at h3
    rw [← h3.1]
    exact (autoSolveD_onlyD h1).trans (ih h2)

theorem meshAll_onlyD (ivs : List Interval) : ∀ {ps ps' : Policies} {ivs' : List Interval} {ls : List (List ℚ)},
    meshAll ps ivs = some (ps', ivs', ls) → OnlyD ps ps' := by
  induction ivs with
  | nil =>
    intro ps ps' ivs' ls h
    simp only [meshAll, Option.some.injEq, Prod.mk.injEq] at h
    rw [← h.1]; exact OnlyD.refl ps
  | cons i ivs ih =>
    intro ps ps' ivs' ls h
    simp only [meshAll, Interval.solveAndMesh, Option.bind_eq_bind, Option.bind_eq_some_iff] at h
    obtain ⟨⟨ps1, i1, l1⟩, ⟨⟨ps0, i0⟩, h0, i2, h02, h01⟩, ⟨ps2, r, ls2⟩, h2, h3⟩ := h
    simp only [Option.pure_def, Option.some.injEq, Prod.mk.injEq] at h3 h01
    rw [← h3.1]
    have := autoSolveD_onlyD h0
    rw [h01.1] at this
    exact this.trans (ih h2)

theorem mesh_onlyD {S : Sorter Interval} {T : Sorter ℚ} {a b : Axis} (h : a.mesh S T = some b) :
    ∃ ps, OnlyD a.get ps ∧ b.policies = (a.withPolicies ps).policies := by
  simp only [Axis.mesh, Option.bind_eq_bind, Option.bind_eq_some_iff] at h
  obtain ⟨⟨ps1, o1⟩, h1, ⟨ps2, o2, ls⟩, h2, h3⟩ := h
  simp only [Option.pure_def, Option.some.injEq] at h3
  refine ⟨ps2, (solveAllD_onlyD _ h1).trans (meshAll_onlyD _ h2), ?_⟩
  rw [← h3]

/-! ## Lines near each policy -/

theorem weave_interval_mem (rest : List Policy) : ∀ (p : Policy) (ls : List (List ℚ)),
    ls.length = rest.length → ∀ n (hn : n < ls.length), ∀ y ∈ ls[n], y ∈ weave (p :: rest) ls := by
  induction rest with
  | nil => intro p ls h n hn; rw [List.length_nil] at h; omega
  | cons q rest ih =>
    intro p ls h n hn y hy
    cases ls with
    | nil => simp at hn
    | cons l ls =>
      simp only [weave, List.mem_append]
      cases n with
      | zero => exact Or.inl (Or.inr hy)
      | succ n => exact Or.inr (ih q ls (by simpa using h) n (by simpa using hn) y hy)

theorem weave_oneline_mem (rest : List Policy) (p : Policy) (ls : List (List ℚ)) (h : ls.length = rest.length) :
    ∀ q ∈ p :: rest, q.kind = .oneline → q.coord ∈ weave (p :: rest) ls := by
  intro q hq hk
  refine (weave_perm rest p ls h).mem_iff.mpr ?_
  rw [List.mem_append, List.mem_flatMap]
  exact Or.inr ⟨q, hq, by simp [oneLine, hk]⟩

theorem linesBetween_near {D : ℚ} {p q : Policy} {l : List ℚ} (h : LinesBetween D p q l) :
    (p.kind ≠ .oneline → ∃ y ∈ l, |y - p.coord| ≤ D) ∧ (q.kind ≠ .oneline → ∃ y ∈ l, |y - q.coord| ≤ D) := by
  obtain ⟨dp, dq, mid, h1, h2, h3, h4, he, -⟩ := h
  constructor
  · intro hp
    have h0 : p.coord + kBefore p * dp ≤ p.coord + D := by
      have := mul_le_mul (kBefore_le_one p) h2 h1.le (by norm_num)
      linarith
    have h00 := mul_nonneg (kBefore_nonneg p) h1.le
    have e : oneLine p = [] := by simp [oneLine, hp]
    rw [e, List.nil_append] at he
    cases l with
    | cons y l =>
      simp only [List.cons_append, List.cons.injEq] at he
      refine ⟨y, by simp, ?_⟩
      rw [he.1, abs_of_nonneg] <;> linarith
    | nil =>
      have := congrArg List.length he
      unfold oneLine at this
      split at this <;> simp at this
  · intro hq
    have h0 : q.coord - D ≤ q.coord - kAfter q * dq := by
      have := mul_le_mul (kAfter_le_one q) h4 h3.le (by norm_num)
      linarith
    have h00 := mul_nonneg (kAfter_nonneg q) h3.le
    have e : oneLine q = [] := by simp [oneLine, hq]
    rw [e, List.append_nil] at he
    rcases List.eq_nil_or_concat l with rfl | ⟨l, y, rfl⟩
    · have := congrArg List.length he
      unfold oneLine at this
      split at this <;> simp at this
    · refine ⟨y, by simp, ?_⟩
      rw [List.concat_eq_append, ← List.append_assoc] at he
      have := (List.append_inj' he rfl).2
      simp only [List.cons.injEq, and_true] at this
      rw [this, abs_of_nonpos] <;> linarith

/-- A sort by insertion, which the kernel can run. -/
def Sorter.insertion (α : Type) : Sorter α where
  sort key l := l.insertionSort fun a b => key a ≤ key b
  perm key l := List.perm_insertionSort _ l
  sorted key l := by
    have : Std.Total fun a b : α => key a ≤ key b := ⟨fun a b => le_total _ _⟩
    have : IsTrans α fun a b : α => key a ≤ key b := ⟨fun a b c => le_trans⟩
    exact List.pairwise_insertionSort _ l

end Verif.Mesh
