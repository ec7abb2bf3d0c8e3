import Verif.Props.PolicyEdition
import Verif.Lemmas.HangInterval

/-! # C94: editing an interval -/

namespace Verif.Mesh
open Spec List

/-- The axis is ready for its meshing once its intervals are found. -/
theorem detect_ready (S : Sorter Nat) {g : MeshParams} (hg : g.InRange) {b : Axis} (hbc : b.Coherent) (hsep : b.Separated)
    (hbd : b.PositiveD) (hbi : b.intervals = []) (hbm : b.meshlines = []) (lim : ℚ → ℚ) (hlim : ∀ m, 0 < lim m) :
    Axis.Ready { b.detectIntervals S g with
      intervals := (b.detectIntervals S g).intervals.map fun i => { i with dmax := lim i.m } }
      (S.sort (fun i => (b.get i).coord) b.enabledPointers) := by
  obtain ⟨ps, hlow, hpol, hcf, hml, hok, hpairs⟩ := detectIntervals_spec (S := S) hg hsep hbd hbi
  have hperm := S.perm (fun i => (b.get i).coord) b.enabledPointers
  have hchain := sorted_chain (S := S) hsep
  set x := b.detectIntervals S g with hx
  have hlen : x.policies.length = b.policies.length := by
    rw [hpol]; simp [Axis.withPolicies, Axis.pointers]
  have hget : ∀ k, k < b.policies.length → x.get k = ps k := by
    intro k hk
    have : x.get k = (b.withPolicies ps).get k := by unfold Axis.get; rw [hpol]
    rw [this, withPolicies_get hk]
  have honly : ∀ k, ∃ d, x.get k = { b.get k with d := d } := by
    intro k
    by_cases hk : k < b.policies.length
    · exact ⟨(ps k).d, by rw [hget k hk]; exact hlow.same k⟩
    · refine ⟨(b.get k).d, ?_⟩
      simp [Axis.get, hk, hlen]
  refine ⟨?_, ?_, ?_, ?_, ?_, hml.trans hbm⟩
  · have : ({ x with intervals := x.intervals.map fun i => { i with dmax := lim i.m } } : Axis).enabledPointers =
        b.enabledPointers := by
      unfold Axis.enabledPointers Axis.pointers
      simp only [hlen]
      refine List.filter_congr fun k _ => ?_
      obtain ⟨d, hd⟩ := honly k
      show (x.get k).enabled = _
      rw [hd]
    rw [this]; exact hperm
  · refine hchain.imp fun i j h => ?_
    obtain ⟨d, hd⟩ := honly i
    obtain ⟨d', hd'⟩ := honly j
    show (x.get i).coord < (x.get j).coord
    rw [hd, hd']; exact h.2
  · rw [← hpairs]
    simp only [List.map_map]
    rfl
  · intro i hi
    obtain ⟨i0, hi0, rfl⟩ := List.mem_map.1 hi
    obtain ⟨h, -⟩ := hok i0 hi0
    exact ⟨hlim _, h.distinct, h.coord_lt, h.h_eq, h.m_eq, h.smooth_b, h.smooth_a, h.d_b, h.d_a⟩
  · intro i hi
    obtain ⟨d, hd⟩ := honly i
    show ¬ ((x.get i).kind = .thirds ∧ (x.get i).normal = .none)
    rw [hd]
    have := coherent_get hbc i
    unfold Policy.Coherent at this
    tauto

/-- Sorting by keys that are all different, after a change that keeps the keys. -/
theorem sort_map {α : Type} (S : Sorter α) (key : α → ℚ) (f : α → α) (l : List α) (hf : ∀ x ∈ l, key (f x) = key x)
    (hd : l.Pairwise fun x y => key x ≠ key y) : S.sort key (l.map f) = (S.sort key l).map f := by
  have hp := S.perm key l
  have hd' : (S.sort key l).Pairwise fun x y => key x ≠ key y := (hp.pairwise_iff fun h => h.symm).2 hd
  have hmemS : ∀ x ∈ S.sort key l, x ∈ l := fun x hx => hp.mem_iff.1 hx
  have hs : ((S.sort key l).map f).Pairwise fun a b => key a ≤ key b := by
    rw [List.pairwise_map]
    refine (S.sorted key l).imp_of_mem fun {x y} hx hy h => ?_
    rw [hf x (hmemS x hx), hf y (hmemS y hy)]; exact h
  refine List.Perm.eq_of_pairwise (le := fun a b => key a ≤ key b) ?_ (S.sorted key _) hs ((S.perm key _).trans (hp.symm.map f))
  intro a b ha hb h1 h2
  obtain ⟨x, hx, rfl⟩ := List.mem_map.1 ((S.perm key _).mem_iff.1 ha)
  obtain ⟨y, hy, rfl⟩ := List.mem_map.1 hb
  have hy := hmemS y hy
  have e : key x = key y := by
    rw [hf x hx, hf y hy] at h1 h2
    exact le_antisymm h1 h2
  by_cases hxy : x = y
  · rw [hxy]
  · obtain ⟨m, hm, rfl⟩ := List.getElem_of_mem hx
    obtain ⟨n, hn, rfl⟩ := List.getElem_of_mem hy
    rcases lt_trichotomy m n with hlt | rfl | hlt
    · exact absurd e (List.pairwise_iff_getElem.1 hd _ _ hm hn hlt)
    · exact absurd rfl hxy
    · exact absurd e.symm (List.pairwise_iff_getElem.1 hd _ _ hn hm hlt)

/-- The same interval but for the lines left from before. -/
def Interval.SameBut (i j : Interval) : Prop := ∃ lb la, j = { i with before := { i.before with ls := lb }, after := { i.after with ls := la } }

theorem autoSolveD_same {i j : Interval} (h : i.SameBut j) (ps : Policies) : j.autoSolveD ps = i.autoSolveD ps := by
  obtain ⟨lb, la, rfl⟩ := h
  rfl

theorem solveAllD_same {l l' : List Interval} (h : Forall₂ Interval.SameBut l l') : ∀ ps, solveAllD ps l' = solveAllD ps l := by
  induction h with
  | nil => intro ps; rfl
  | cons h _ ih =>
    intro ps
    unfold solveAllD
    rw [autoSolveD_same h]
    simp only [ih]

/-- Meshing does not read the lines left from before. -/
theorem mesh_same (S : Sorter Interval) (T : Sorter ℚ) {a : Axis} {f : Interval → Interval} (hf : ∀ i ∈ a.intervals, i.SameBut (f i))
    (hd : a.intervals.Pairwise fun i j => i.h ≠ j.h) :
    Axis.mesh S T { a with intervals := a.intervals.map f } = a.mesh S T := by
  have hs := sort_map S Interval.h f a.intervals (fun i hi => by obtain ⟨lb, la, e⟩ := hf i hi; rw [e]) hd
  have hall : Forall₂ Interval.SameBut (S.sort Interval.h a.intervals) ((S.sort Interval.h a.intervals).map f) :=
    List.forall₂_map_right_iff.2 (List.forall₂_same.2 fun i hi => hf i ((S.perm Interval.h a.intervals).mem_iff.1 hi))
  unfold Axis.mesh
  simp only [hs]
  have hg : ({ a with intervals := a.intervals.map f } : Axis).get = a.get := rfl
  rw [hg, solveAllD_same hall]
  rfl

end Verif.Mesh

namespace Verif.Board
open Verif.Mesh Verif.Mesh.Spec Verif.Geom Spec Verif.Dialog

/-- What a run leaves before the meshing. -/
theorem run_before_mesh (S : Sorters) {g : MeshParams} (hg : g.InRange) (hl : 0 ≤ g.proximityLimit) {gz : ZoneParams} {B : Input}
    (hz : 0 < gz.diagonalDmax ∨ ∀ p, slantedOf B p = []) (hB : Built B) (hA : LinesApart B) {axis : Geom.Axis} {E : Nat → BEdge}
    {a : Mesh.Axis} (h : runSteps S g gz B axis = .ok (E, a)) :
    ∃ c o, runToMesh S g gz B axis = .ok (E, c) ∧ runFromMesh S c = .ok a ∧ c.Ready o ∧
      ∀ i ∈ c.intervals, (i.dmax = g.dmax ∨ i.dmax = gz.diagonalDmax ∧ ∃ p, slantedOf B p ≠ []) ∧
        i.before.smoothness = g.smoothness ∧ i.after.smoothness = g.smoothness ∧ i.before.lmin = g.lmin ∧ i.after.lmin = g.lmin := by
  obtain ⟨d, b, lim, h1, h2, ⟨hbc, hbs, hbd, hbi, hbm⟩, hlim, hzone⟩ := run_zoned S hg hl hz hB hA h
  refine ⟨_, _, ?_, ?_, detect_ready S.pointers hg hbc hbs hbd hbi hbm lim fun m => (hlim m).1, ?_⟩
  · unfold runToMesh
    rw [h1]
    simp only [Outcome.bind]
    rw [hzone b hbi]
    rfl
  · unfold runFromIntervals at h2
    rw [hzone b hbi] at h2
    exact h2
  · intro i hi
    obtain ⟨i0, hi0, rfl⟩ := List.mem_map.1 hi
    simp only [Mesh.Axis.detectIntervals, hbi, List.nil_append] at hi0
    obtain ⟨-, e1, e2, e3, e4⟩ := (makeIntervals_pairs g _ _).2 i0 hi0
    exact ⟨(hlim _).2, e3, e4, e1, e2⟩

/-- After a run, the dialog of an interval accepted with numbers. The meshing is run again, and

* never ends when the limit is not positive, or when one smoothness is not negative, below 1 and so small that the lines on
this side, closer and closer to each other, never get to the middle;
* ends when the limit is positive and both smoothnesses are at least 1: the policies are as before but for their distances, not
above what they were, the lines increase, gaps are within the limits, and within the one typed between the policies of the
interval. -/
theorem C94_edited_partial (S : Sorters) {g : MeshParams} (hg : g.InRange) (hl : 0 ≤ g.proximityLimit) {gz : ZoneParams}
    {B : Input} (hz : 0 < gz.diagonalDmax ∨ ∀ p, slantedOf B p = []) (hB : Built B) (hA : LinesApart B) {axis : Geom.Axis}
    {E : Nat → BEdge} {a : Mesh.Axis} (h : runSteps S g gz B axis = .ok (E, a)) :
    ∃ c, runToMesh S g gz B axis = .ok (E, c) ∧ runFromMesh S c = .ok a ∧
      ∀ i ∈ a.intervals, ∀ (r : IntervalRows) (x sb sa : ℚ) (nb na : Nat), Spec.Number r.dmax x → Spec.Natural r.beforeLmin nb →
        Spec.Number r.beforeSmoothness sb → Spec.Natural r.afterLmin na → Spec.Number r.afterSmoothness sa →
      ∃ j, r.commit i = some (.mesh, j) ∧
      (x ≤ 0 ∨
          (∃ s k, (s = sb ∧ k = i.before.policy ∨ s = sa ∧ k = i.after.policy) ∧ 0 ≤ s ∧ s < 1 ∧ (c.get k).d < x ∧
            (c.get k).d < ((c.get i.after.policy).coord - (c.get i.before.policy).coord) / 2 ∧
            s * (c.get k).d ≤ (1 - s) * (((c.get i.after.policy).coord - (c.get i.before.policy).coord) / 2 - (c.get k).d)) →
        runFromMesh S (c.setInterval j) = .diverges) ∧
      (0 < x → 1 ≤ sb → 1 ≤ sa →
        ∃ b, runFromMesh S (c.setInterval j) = .ok b ∧ Increasing b.meshlines ∧
          (∀ D, g.dmax ≤ D → ((∀ p, slantedOf B p = []) ∨ gz.diagonalDmax ≤ D) → x ≤ D → GapsAtMost D b.meshlines) ∧
          (b.meshlines.IsChain fun y y' => (c.get i.before.policy).coord ≤ y → y' ≤ (c.get i.after.policy).coord → y' - y ≤ x) ∧
          (∀ k, (b.Enabled k ↔ c.Enabled k) ∧ ∃ d ≤ (c.get k).d, b.get k = { c.get k with d := d }) ∧
          ∀ k, b.Enabled k → (b.get k).kind = .oneline → (b.get k).coord ∈ b.meshlines) := by
  obtain ⟨c, o, h1, h2, hready, hpar⟩ := run_before_mesh S hg hl hz hB hA h
  refine ⟨c, h1, h2, ?_⟩
  intro i hi r x sb sa nb na hx hnb hsb hna hsa
  obtain ⟨i0, hi0, hs⟩ := hready.intervals (orDiverges_ok h2) i hi
  have hok := hready.ok i0 hi0
  set j : Interval := { i with
    dmax := x
    before := { i.before with lmin := nb, smoothness := sb }
    after := { i.after with lmin := na, smoothness := sa } } with hj
  have hcommit : r.commit i = some (.mesh, j) :=
    (C91_accepted.2.1 r i _ j).2 ⟨rfl, hx, hnb, hsb, hna, hsa, rfl, rfl, rfl, rfl, rfl, rfl⟩
  have hpb : j.before.policy = i0.before.policy := hs.pb
  have hpa : j.after.policy = i0.after.policy := hs.pa
  have hh : j.h = ((c.get i.after.policy).coord - (c.get i.before.policy).coord) / 2 := by
    rw [hs.pb, hs.pa, ← hok.h_eq]; exact hs.h
  have hmemj : j ∈ (c.setInterval j).intervals := by
    refine List.mem_map.2 ⟨i0, hi0, ?_⟩
    rw [if_pos ⟨hpb.symm, hpa.symm⟩]
  refine ⟨j, hcommit, ?_, ?_⟩
  · intro hbad
    have hstuck : j.Stuck c.get := by
      refine ⟨by rw [hpb]; exact hok.d_b, by rw [hpa]; exact hok.d_a, ?_⟩
      rcases hbad with hbad | ⟨s, k, hsk, b1, b2, b3, b4, b5⟩
      · exact Or.inl hbad
      · rw [← hh] at b4 b5
        rcases hsk with ⟨rfl, rfl⟩ | ⟨rfl, rfl⟩
        · exact Or.inr (Or.inl ⟨b1, b2, b3, b4, b5⟩)
        · exact Or.inr (Or.inr ⟨b1, b2, b3, b4, b5⟩)
    unfold runFromMesh
    rw [mesh_stuck_interval S.intervals S.lines (a := c.setInterval j) ?_ ⟨j, hmemj, hstuck⟩]
    · rfl
    · intro k hk
      obtain ⟨k0, hk0, rfl⟩ := List.mem_map.1 hk
      split_ifs
      · exact Or.inr hstuck
      · exact Or.inl (hready.ok k0 hk0)
  · intro hx0 hsb1 hsa1
    have hjok : j.Ok c.get := by
      refine ⟨hx0, ?_, ?_, ?_, ?_, hsb1, hsa1, ?_, ?_⟩
      · rw [hpb, hpa]; exact hok.distinct
      · rw [hpb, hpa]; exact hok.coord_lt
      · rw [hpb, hpa]; exact hs.h.trans hok.h_eq
      · rw [hpb, hpa]; exact hs.m.trans hok.m_eq
      · rw [hpb]; exact hok.d_b
      · rw [hpa]; exact hok.d_a
    have hr := hready.setInterval hjok
    have hle : ∀ D, g.dmax ≤ D → ((∀ p, slantedOf B p = []) ∨ gz.diagonalDmax ≤ D) → x ≤ D →
        ∀ k ∈ (c.setInterval j).intervals, k.dmax ≤ D := by
      intro D h1 h2 h3 k hk
      obtain ⟨k0, hk0, rfl⟩ := List.mem_map.1 hk
      split_ifs
      · exact h3
      · rcases (hpar k0 hk0).1 with e | ⟨e, p, hp⟩
        · rw [e]; exact h1
        · rw [e]; exact h2.resolve_left fun h => hp (h p)
    have hD0 : 0 < max g.dmax (max gz.diagonalDmax x) := lt_max_of_lt_left hg.dmax_pos
    obtain ⟨b, hb, hinc, -, hsame, hone, hgap⟩ := hr.mesh S.intervals S.lines hD0 (hle _ (le_max_left _ _)
      (Or.inr ((le_max_left _ _).trans (le_max_right _ _))) ((le_max_right _ _).trans (le_max_right _ _)))
    refine ⟨b, by unfold runFromMesh; rw [hb]; rfl, hinc, ?_, hgap j hmemj, hsame, ?_⟩
    · intro D h1 h2 h3
      obtain ⟨b', hb', -, hg', -⟩ := hr.mesh S.intervals S.lines (hg.dmax_pos.trans_le h1) (hle D h1 h2 h3)
      rw [hb] at hb'
      obtain rfl := Option.some.inj hb'
      exact hg'
    · intro k hk hk1
      obtain ⟨he, d, -, e⟩ := hsame k
      rw [e] at hk1 ⊢
      exact hone k (he.1 hk) hk1

/-- The dialog of an interval accepted with the parameters of the interval before its meshing gives the mesh again, when the
intervals are of different lengths. -/
theorem C94_unchanged_partial (S : Sorters) {g : MeshParams} (hg : g.InRange) (hl : 0 ≤ g.proximityLimit) {gz : ZoneParams}
    {B : Input} (hz : 0 < gz.diagonalDmax ∨ ∀ p, slantedOf B p = []) (hB : Built B) (hA : LinesApart B) {axis : Geom.Axis}
    {E : Nat → BEdge} {a : Mesh.Axis} (h : runSteps S g gz B axis = .ok (E, a)) :
    ∃ c, runToMesh S g gz B axis = .ok (E, c) ∧ runFromMesh S c = .ok a ∧
      (c.intervals.Pairwise (fun i j => i.h ≠ j.h) → ∀ i0 ∈ c.intervals, ∀ i ∈ a.intervals,
        i.before.policy = i0.before.policy → i.after.policy = i0.after.policy →
        ∀ (r : IntervalRows), Spec.Number r.dmax i0.dmax → Spec.Natural r.beforeLmin g.lmin →
        Spec.Number r.beforeSmoothness g.smoothness → Spec.Natural r.afterLmin g.lmin → Spec.Number r.afterSmoothness g.smoothness →
        ∃ j, r.commit i = some (.mesh, j) ∧ runFromMesh S (c.setInterval j) = .ok a) := by
  obtain ⟨c, o, h1, h2, hready, hpar⟩ := run_before_mesh S hg hl hz hB hA h
  refine ⟨c, h1, h2, ?_⟩
  intro hd i0 hi0 i hi hpb hpa r hx hnb hsb hna hsa
  obtain ⟨i1, hi1, hs⟩ := hready.intervals (orDiverges_ok h2) i hi
  have hok0 := hready.ok i0 hi0
  have e : i1 = i0 := by
    refine hready.unique hi0 hi1 ?_ ?_
    · rw [← hs.pb, hpb]; exact hok0.coord_lt
    · rw [← hs.pa, hpa]; exact hok0.coord_lt
  subst e
  obtain ⟨-, e1, e2, e3, e4⟩ := hpar i1 hi1
  set j : Interval := { i with
    dmax := i1.dmax
    before := { i.before with lmin := g.lmin, smoothness := g.smoothness }
    after := { i.after with lmin := g.lmin, smoothness := g.smoothness } } with hj
  have hcommit : r.commit i = some (.mesh, j) :=
    (C91_accepted.2.1 r i _ j).2 ⟨rfl, hx, hnb, hsb, hna, hsa, rfl, rfl, rfl, rfl, rfl, rfl⟩
  refine ⟨j, hcommit, ?_⟩
  unfold runFromMesh
  have : (c.setInterval j).mesh S.intervals S.lines = c.mesh S.intervals S.lines := by
    refine mesh_same S.intervals S.lines ?_ hd
    intro k hk
    split_ifs with e
    · have : k = i1 := by
        have hkb : k.before.policy = i1.before.policy := e.1.trans hpb
        have hka : k.after.policy = i1.after.policy := e.2.trans hpa
        refine hready.unique hi1 hk ?_ ?_
        · rw [hkb]; exact hok0.coord_lt
        · rw [hka]; exact hok0.coord_lt
      subst this
      refine ⟨i.before.ls, i.after.ls, ?_⟩
      rw [hj]
      simp only [hs.pb, hs.pa, hs.h, hs.m, e1, e2, e3, e4]
    · exact ⟨k.before.ls, k.after.ls, rfl⟩
  rw [this]
  exact h2

/-- `runToMesh`, at most `n` policies merged. -/
def runToMeshF (n : Nat) (S : Sorters) (g : MeshParams) (gz : ZoneParams) (B : Input) (axis : Geom.Axis) :
    Outcome ((Nat → BEdge) × Mesh.Axis) :=
  (runToIntervalsF n S g gz B axis).bind fun r =>
  (Outcome.orUb (zoneIntervals (angleAt r.1.1) (r.1.2.1 axis) (r.2.2.detectIntervals S.pointers g))).map fun c => (r.2.1, c)

/-- `runFromMesh`, each loop at most `n` turns. -/
def runFromMeshF (n : Nat) (S : Sorters) (c : Mesh.Axis) : Outcome Mesh.Axis :=
  Outcome.orDiverges (c.meshF n S.intervals S.lines)

theorem to_mesh_computed {n : Nat} {S : Sorters} {g : MeshParams} {gz : ZoneParams} {B : Input} {axis : Geom.Axis}
    {E : Nat → BEdge} {c : Mesh.Axis} (h : runToMeshF n S g gz B axis = .ok (E, c)) : runToMesh S g gz B axis = .ok (E, c) := by
  unfold runToMeshF at h
  unfold runToMesh
  obtain ⟨⟨d, E', b⟩, h1, h⟩ := outcome_bind_ok h
  rw [to_computed h1]
  exact h

theorem from_mesh_computed {n : Nat} {S : Sorters} {c a : Mesh.Axis} (h : runFromMeshF n S c = .ok a) : runFromMesh S c = .ok a := by
  unfold runFromMeshF at h
  unfold runFromMesh
  rw [(meshF_below ..).eq _ (orDiverges_ok h)]
  rfl

/-- The run is the steps before the meshing, then the meshing. -/
theorem run_mesh_join {S : Sorters} {g : MeshParams} {gz : ZoneParams} {B : Input} {axis : Geom.Axis} {E : Nat → BEdge}
    {a c : Mesh.Axis} (h1 : runToMesh S g gz B axis = .ok (E, c)) (h2 : runFromMesh S c = .ok a) :
    runSteps S g gz B axis = .ok (E, a) := by
  unfold runToMesh at h1
  obtain ⟨⟨d, E', b⟩, h3, h⟩ := outcome_bind_ok h1
  obtain ⟨c', h4, h⟩ := outcome_map_ok h
  obtain ⟨rfl, rfl⟩ := Prod.mk.inj h
  refine run_join h3 ?_
  unfold runFromIntervals
  rw [h4]
  exact h2

/-- No polygon, and fixed lines at 0 and 16. -/
def twoLinesBoard : Input := { linesBoard with fixed := fun _ => [0, 16] }

theorem twoLines_built : Built twoLinesBoard ∧ LinesApart twoLinesBoard ∧ ∀ p, slantedOf twoLinesBoard p = [] := by
  refine ⟨⟨?_, ?_, ?_, ?_, ?_⟩, ⟨?_, ?_⟩, ?_⟩
  · intro p a h; cases h
  · intro p a h; cases h
  · intro p; exact List.nodup_nil
  · intro p a h; cases h
  · intro p a h; cases h
  · intro p i h; cases h
  · intro p i h; cases h
  · intro p; cases p <;> decide +kernel

/-- Global parameters in range. -/
def twoLinesParams : MeshParams := ⟨0, 1169 / 1000, 1, 2⟩

theorem twoLinesParams_range : twoLinesParams.InRange ∧ 0 ≤ twoLinesParams.proximityLimit :=
  ⟨⟨by norm_num [twoLinesParams], by norm_num [twoLinesParams]⟩, by norm_num [twoLinesParams]⟩

/-- The interval with what its dialog offers. -/
def offered (i : Interval) : Interval :=
  { i with before := { i.before with smoothness := 2 }, after := { i.after with smoothness := 2 } }

/-- The run with the fixed lines 0 and 16, and what accepting the dialog of the interval as it was shown makes of it. -/
theorem twoLines_run : ∃ E c a i b, runToMesh plainSorters twoLinesParams ⟨1, 1, 1, 1⟩ twoLinesBoard .x = .ok (E, c) ∧
    runFromMesh plainSorters c = .ok a ∧ a.intervals = [i] ∧
    (i.dmax = 2 ∧ i.before.policy = 0 ∧ i.after.policy = 1 ∧ i.before.lmin = 1 ∧ i.after.lmin = 1) ∧
    ((c.get 0).coord = 0 ∧ (c.get 0).d = 1 ∧ (c.get 1).coord = 16 ∧ (c.get 1).d = 1) ∧
    runFromMesh plainSorters (c.setInterval (offered i)) = .ok b ∧
    a.meshlines.length = 11 ∧ b.meshlines = [0, 2, 4, 6, 8, 10, 12, 14, 16] ∧ c.enabledPointers = [0, 1] ∧
    ((c.get 0).kind = .oneline ∧ (c.get 1).kind = .oneline) ∧ c.intervals.length = 1 := by
  have h : ((runToMeshF 9 plainSorters twoLinesParams ⟨1, 1, 1, 1⟩ twoLinesBoard .x).bind fun r =>
      (runFromMeshF 40 plainSorters r.2).bind fun a =>
      (Outcome.orUb a.intervals.head?).bind fun i =>
      (runFromMeshF 40 plainSorters (r.2.setInterval (offered i))).map fun b => decide (a.intervals.length = 1 ∧
        (i.dmax = 2 ∧ i.before.policy = 0 ∧ i.after.policy = 1 ∧ i.before.lmin = 1 ∧ i.after.lmin = 1) ∧
        ((r.2.get 0).coord = 0 ∧ (r.2.get 0).d = 1 ∧ (r.2.get 1).coord = 16 ∧ (r.2.get 1).d = 1) ∧
        a.meshlines.length = 11 ∧ b.meshlines = [0, 2, 4, 6, 8, 10, 12, 14, 16] ∧ r.2.enabledPointers = [0, 1] ∧
        ((r.2.get 0).kind = .oneline ∧ (r.2.get 1).kind = .oneline) ∧ r.2.intervals.length = 1)) =
      .ok true := by decide +kernel
  obtain ⟨⟨E, c⟩, h1, h⟩ := outcome_bind_ok h
  obtain ⟨a, h2, h⟩ := outcome_bind_ok h
  obtain ⟨i, hi, h⟩ := outcome_bind_ok h
  obtain ⟨b, h3, h⟩ := outcome_map_ok h
  have hi := orUb_ok hi
  obtain ⟨hl, e1, e2, h⟩ := of_decide_eq_true h
  refine ⟨E, c, a, i, b, to_mesh_computed h1, from_mesh_computed h2, ?_, e1, e2, from_mesh_computed h3, h⟩
  obtain ⟨j, hj⟩ := List.length_eq_one_iff.1 hl
  rw [hj] at hi ⊢
  cases hi
  rfl

/-- Not so in general: with fixed lines at 0 and 16, a limit of 1.169 on the ratio of cells and of 2 on cells, the run never ends
once the limit of the interval is set to 0, nor once a smoothness is set to 0.5; accepting the dialog as it was shown
leaves cells of 2 only, where there were 10 cells. -/
theorem C94_false : ∃ (S : Sorters) (g : MeshParams) (gz : ZoneParams) (B : Input) (axis : Geom.Axis), g.InRange ∧
    0 ≤ g.proximityLimit ∧ 0 < gz.diagonalDmax ∧ Built B ∧ LinesApart B ∧ ∃ E c a i, runSteps S g gz B axis = .ok (E, a) ∧
      runToMesh S g gz B axis = .ok (E, c) ∧ i ∈ a.intervals ∧
      (∃ j, IntervalRows.commit { IntervalRows.shown i with dmax := ['0'] } i = some (.mesh, j) ∧
        runFromMesh S (c.setInterval j) = .diverges) ∧
      (∃ j, IntervalRows.commit { IntervalRows.shown i with beforeSmoothness := "0.5".toList } i = some (.mesh, j) ∧
        runFromMesh S (c.setInterval j) = .diverges) ∧
      (∃ j, IntervalRows.commit { IntervalRows.shown i with afterSmoothness := "0.5".toList } i = some (.mesh, j) ∧
        runFromMesh S (c.setInterval j) = .diverges) ∧
      ∃ j b, (IntervalRows.shown i).commit i = some (.mesh, j) ∧ runFromMesh S (c.setInterval j) = .ok b ∧
        a.meshlines.length = 11 ∧ b.meshlines = [0, 2, 4, 6, 8, 10, 12, 14, 16] := by
  obtain ⟨E, c, a, i, b, h1, h2, hi, ⟨ed, hpb, hpa, hlb, hla⟩, ⟨hc0, hd0, hc1, hd1⟩, h3, h4, h5, -⟩ := twoLines_run
  have hrun := run_mesh_join h1 h2
  have him : i ∈ a.intervals := by rw [hi]; simp
  obtain ⟨c', h1', -, hed⟩ := C94_edited_partial plainSorters twoLinesParams_range.1 twoLinesParams_range.2
    (gz := ⟨1, 1, 1, 1⟩) (Or.inl (by norm_num)) twoLines_built.1 twoLines_built.2.1 hrun
  rw [h1] at h1'
  have := Outcome.ok.inj h1'
  simp only [Prod.mk.injEq, true_and] at this
  obtain rfl := this
  have n0 : Spec.Number ['0'] 0 := (toDouble_iff _ _).1 (by decide +kernel)
  have n2 : Spec.Number ['2'] 2 := (toDouble_iff _ _).1 (by decide +kernel)
  have nh : Spec.Number "0.5".toList (1 / 2) := (toDouble_iff _ _).1 (by decide +kernel)
  have nd : Spec.Number (number i.dmax) 2 := by rw [ed]; exact (toDouble_iff _ _).1 (by decide +kernel)
  have l1 : Spec.Natural (Csx.decimal 1) 1 := (toULong_iff _ _).1 (by decide +kernel)
  have lb : Spec.Natural (Csx.decimal i.before.lmin) 1 := by rw [hlb]; exact l1
  have la : Spec.Natural (Csx.decimal i.after.lmin) 1 := by rw [hla]; exact l1
  refine ⟨plainSorters, twoLinesParams, ⟨1, 1, 1, 1⟩, twoLinesBoard, .x, twoLinesParams_range.1, twoLinesParams_range.2,
    by norm_num, twoLines_built.1, twoLines_built.2.1, E, c, a, i, hrun, h1, him, ?_, ?_, ?_, ?_⟩
  · obtain ⟨j, hj, hdiv, -⟩ := hed i him { IntervalRows.shown i with dmax := ['0'] } 0 2 2 1 1 n0 lb n2 la n2
    exact ⟨j, hj, hdiv (Or.inl le_rfl)⟩
  · obtain ⟨j, hj, hdiv, -⟩ := hed i him { IntervalRows.shown i with beforeSmoothness := "0.5".toList } 2 (1 / 2) 2 1 1 nd lb nh la n2
    refine ⟨j, hj, hdiv (Or.inr ⟨1 / 2, i.before.policy, Or.inl ⟨rfl, rfl⟩, by norm_num, by norm_num, ?_⟩)⟩
    rw [hpb, hpa, hc0, hc1, hd0]
    norm_num
  · obtain ⟨j, hj, hdiv, -⟩ := hed i him { IntervalRows.shown i with afterSmoothness := "0.5".toList } 2 2 (1 / 2) 1 1 nd lb n2 la nh
    refine ⟨j, hj, hdiv (Or.inr ⟨1 / 2, i.after.policy, Or.inr ⟨rfl, rfl⟩, by norm_num, by norm_num, ?_⟩)⟩
    rw [hpb, hpa, hc0, hc1, hd1]
    norm_num
  · refine ⟨offered i, b, (C91_accepted.2.1 _ i _ _).2 ⟨rfl, ?_, ?_, n2, ?_, n2, rfl, rfl, rfl, rfl, rfl, rfl⟩, h3, h4, h5⟩
    · exact ed.symm ▸ nd
    · exact hlb.symm ▸ lb
    · exact hla.symm ▸ la

/-- The interval between 0 and 16 above, set to cells of at most 1: the run ends with such cells. -/
example : ∃ E c a i j b, runSteps plainSorters twoLinesParams ⟨1, 1, 1, 1⟩ twoLinesBoard .x = .ok (E, a) ∧
    runToMesh plainSorters twoLinesParams ⟨1, 1, 1, 1⟩ twoLinesBoard .x = .ok (E, c) ∧ i ∈ a.intervals ∧
    IntervalRows.commit ⟨['1'], ['3'], ['2'], ['3'], ['2']⟩ i = some (.mesh, j) ∧
    runFromMesh plainSorters (c.setInterval j) = .ok b ∧ Increasing b.meshlines ∧ 0 ∈ b.meshlines ∧ 16 ∈ b.meshlines ∧
    b.meshlines.IsChain fun y y' => 0 ≤ y → y' ≤ 16 → y' - y ≤ 1 := by
  obtain ⟨E, c, a, i, -, h1, h2, hi, ⟨ed, hpb, hpa, hlb, hla⟩, ⟨hc0, hd0, hc1, hd1⟩, -, -, -, hen, ⟨hk0, hk1⟩, -⟩ := twoLines_run
  have hrun := run_mesh_join h1 h2
  have him : i ∈ a.intervals := by rw [hi]; simp
  obtain ⟨c', h1', -, hed⟩ := C94_edited_partial plainSorters twoLinesParams_range.1 twoLinesParams_range.2
    (gz := ⟨1, 1, 1, 1⟩) (Or.inl (by norm_num)) twoLines_built.1 twoLines_built.2.1 hrun
  rw [h1] at h1'
  have := Outcome.ok.inj h1'
  simp only [Prod.mk.injEq, true_and] at this
  obtain rfl := this
  have n1 : Spec.Number ['1'] 1 := (toDouble_iff _ _).1 (by decide +kernel)
  have n2 : Spec.Number ['2'] 2 := (toDouble_iff _ _).1 (by decide +kernel)
  have l3 : Spec.Natural ['3'] 3 := (toULong_iff _ _).1 (by decide +kernel)
  obtain ⟨j, hj, -, hok⟩ := hed i him ⟨['1'], ['3'], ['2'], ['3'], ['2']⟩ 1 2 2 3 3 n1 l3 n2 l3 n2
  obtain ⟨b, hb, hinc, -, hgap, hsame, hone⟩ := hok (by norm_num) (by norm_num) (by norm_num)
  have line : ∀ k, k ∈ c.enabledPointers → (c.get k).kind = .oneline → (c.get k).coord ∈ b.meshlines := by
    intro k hk h
    obtain ⟨h1, d, -, e⟩ := hsame k
    have := hone k (h1.2 (mem_enabledPointers.1 hk)) (by rw [e]; exact h)
    rw [e] at this
    exact this
  rw [hen] at line
  refine ⟨E, c, a, i, j, b, hrun, h1, him, hj, hb, hinc, ?_, ?_, ?_⟩
  · rw [← hc0]; exact line 0 (by simp) hk0
  · rw [← hc1]; exact line 1 (by simp) hk1
  · rw [hpb, hpa, hc0, hc1] at hgap; exact hgap

/-- The same interval accepted with what it had before its meshing: the same mesh. -/
example : ∃ E c a i j, runSteps plainSorters twoLinesParams ⟨1, 1, 1, 1⟩ twoLinesBoard .x = .ok (E, a) ∧
    runToMesh plainSorters twoLinesParams ⟨1, 1, 1, 1⟩ twoLinesBoard .x = .ok (E, c) ∧ i ∈ a.intervals ∧
    IntervalRows.commit ⟨['2'], ['1'], "1.169".toList, ['1'], "1.169".toList⟩ i = some (.mesh, j) ∧
    runFromMesh plainSorters (c.setInterval j) = .ok a ∧ a.meshlines.length = 11 := by
  obtain ⟨E, c, a, i, -, h1, h2, hi, ⟨ed, hpb, hpa, hlb, hla⟩, ⟨hc0, hd0, hc1, hd1⟩, -, hlen, -, hen, -, hone⟩ := twoLines_run
  have hrun := run_mesh_join h1 h2
  have him : i ∈ a.intervals := by rw [hi]; simp
  obtain ⟨c', h1', -, hun⟩ := C94_unchanged_partial plainSorters twoLinesParams_range.1 twoLinesParams_range.2
    (gz := ⟨1, 1, 1, 1⟩) (Or.inl (by norm_num)) twoLines_built.1 twoLines_built.2.1 hrun
  obtain ⟨c'', o, h1'', h2'', hready, hpar⟩ := run_before_mesh plainSorters twoLinesParams_range.1 twoLinesParams_range.2
    (gz := ⟨1, 1, 1, 1⟩) (Or.inl (by norm_num)) twoLines_built.1 twoLines_built.2.1 hrun
  rw [h1] at h1' h1''
  have := Outcome.ok.inj h1'
  simp only [Prod.mk.injEq, true_and] at this
  obtain rfl := this
  have := Outcome.ok.inj h1''
  simp only [Prod.mk.injEq, true_and] at this
  obtain rfl := this
  obtain ⟨i0, hi0⟩ := List.length_eq_one_iff.1 hone
  have hi0m : i0 ∈ c.intervals := by rw [hi0]; simp
  have hi1 : ∃ i1 ∈ c.intervals, SameInterval i1 i := hready.intervals (orDiverges_ok h2) i him
  obtain ⟨i1, hi1m, hs⟩ := hi1
  rw [hi0, List.mem_singleton] at hi1m
  subst hi1m
  have hdm : i1.dmax = 2 := by
    rcases (hpar i1 hi0m).1 with e | ⟨e, p, hp⟩
    · exact e
    · exact absurd (twoLines_built.2.2 p) hp
  have n2 : Spec.Number ['2'] 2 := (toDouble_iff _ _).1 (by decide +kernel)
  have ns : Spec.Number "1.169".toList (1169 / 1000) := (toDouble_iff _ _).1 (by decide +kernel)
  have l1 : Spec.Natural ['1'] 1 := (toULong_iff _ _).1 (by decide +kernel)
  obtain ⟨j, hj, hb⟩ := hun (by rw [hi0]; simp) i1 hi0m i him hs.pb hs.pa ⟨['2'], ['1'], "1.169".toList, ['1'], "1.169".toList⟩
    (by rw [hdm]; exact n2) l1 ns l1 ns
  exact ⟨E, c, a, i, j, hrun, h1, him, hj, hb, hlen⟩

end Verif.Board
