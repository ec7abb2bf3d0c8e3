import Verif.Props.IntervalEdition

/-! # C95: editing the global parameters -/

namespace Verif.Mesh
open Spec List

/-- What merging leaves on an axis with the policies asked for, whatever the parameters. -/
theorem merged_any (S : Sorter Nat) {g : MeshParams} {a : Axis} (hf : Fresh g a) :
    ∃ b, a.solveTooClose S g = some b ∧ b.Coherent ∧ (∀ k < b.policies.length, (b.get k).d = g.dmax / 2) ∧ b.intervals = [] ∧
      b.meshlines = [] ∧ ∀ i j, b.Enabled i → b.Enabled j → i ≠ j → g.proximityLimit < |(b.get i).coord - (b.get j).coord| := by
  let P : Axis → Prop := fun x => (∀ k < x.policies.length, (x.get k).d = g.dmax / 2) ∧ x.Coherent ∧ x.intervals = [] ∧
    x.meshlines = []
  have hstep : ∀ x i j y, x.Unmerged → P x → x.detectClosest S g.proximityLimit = some (i, j) →
      x.addTooClose i j = some y → P (y.solveConflict g i j) := by
    intro x i j y _ ⟨h1, h2, h3, h4⟩ hdc hy
    obtain ⟨hi, hj, -, -⟩ := detectClosest_some hdc
    obtain ⟨e0, -, eg, e1, e2⟩ := addTooClose_some hi hj hy
    have hy1 : ∀ k < y.policies.length, (y.get k).d = g.dmax / 2 := by
      intro k hk
      rw [eg]
      split_ifs <;> exact h1 k (e0 ▸ hk)
    refine ⟨?_, coherent_step h2 hy, ?_, ?_⟩
    · rcases solveConflict_cases g y i j with he | ⟨kind, normal, coord, _, he⟩ <;> rw [he]
      · exact hy1
      · intro k hk
        simp only [List.length_append, List.length_singleton] at hk
        by_cases hky : k < y.policies.length
        · have : ({ y with policies := y.policies ++ [Policy.make g.dmax coord kind normal true] } : Axis).get k = y.get k := by
            simp [Axis.get, List.getElem?_append_left hky]
          rw [this]; exact hy1 k hky
        · have : k = y.policies.length := by omega
          subst this
          simp [Axis.get, Policy.make]
    · rcases solveConflict_cases g y i j with he | ⟨_, _, _, _, he⟩ <;> rw [he] <;> exact e1.trans h3
    · rcases solveConflict_cases g y i j with he | ⟨_, _, _, _, he⟩ <;> rw [he] <;> exact e2.trans h4
  obtain ⟨b, hb, -, ⟨hbd, hbc, hbi, hbm⟩, hnone⟩ := solveTooClose_induct S g P hstep _ a le_rfl hf.unmerged
    ⟨fun k hk => by
      obtain ⟨coord, kind, normal, enabled, e, -⟩ := hf.policies _ (get_mem hk)
      rw [e]; rfl, hf.coherent, hf.intervals, hf.meshlines⟩
  exact ⟨b, hb, hbc, hbd, hbi, hbm, detectClosest_none hnone⟩

/-- Making intervals does not lower the `d` of policies below what is below 0. -/
theorem makeIntervals_ge (g : MeshParams) {c : ℚ} (hc : c ≤ 0) (l : List Nat) : ∀ ps : Policies, (∀ k, c ≤ (ps k).d) →
    ∀ k, c ≤ ((makeIntervals g ps l).1 k).d := by
  have one : ∀ (q : Policies) i lmin s h, 0 ≤ h → (∀ k, c ≤ (q k).d) → ∀ k, c ≤ ((Side.make q i lmin s h).1 k).d := by
    intro q i lmin s h h0 hq k
    unfold Side.make
    simp only
    split_ifs with hd
    · unfold Policies.setD
      split_ifs with e
      · exact hc.trans h0
      · exact hq k
    · exact hq k
  induction l with
  | nil => exact fun ps h => h
  | cons x l ih =>
    intro ps h
    cases l with
    | nil => exact h
    | cons y l =>
      have h0 : 0 ≤ calcH (ps x).coord (ps y).coord := by unfold calcH; positivity
      exact ih (Interval.make ps x y g.lmin g.smoothness g.dmax).1 (one _ y g.lmin g.smoothness _ h0 (one ps x g.lmin g.smoothness _ h0 h))

/-- Policies do not depend on the smoothness when intervals are made. -/
theorem makeIntervals_smooth (g : MeshParams) (s : ℚ) (l : List Nat) : ∀ ps : Policies,
    (makeIntervals { g with smoothness := s } ps l).1 = (makeIntervals g ps l).1 := by
  have one : ∀ (q : Policies) i lmin s s' h, (Side.make q i lmin s h).1 = (Side.make q i lmin s' h).1 := by
    intro q i lmin s s' h
    unfold Side.make
    rfl
  induction l with
  | nil => exact fun ps => rfl
  | cons x l ih =>
    intro ps
    cases l with
    | nil => rfl
    | cons y l =>
      have e : (Interval.make ps x y g.lmin s g.dmax).1 = (Interval.make ps x y g.lmin g.smoothness g.dmax).1 := by
        unfold Interval.make
        simp only
        rw [one ps x g.lmin s g.smoothness, one _ y g.lmin s g.smoothness]
      have : (makeIntervals { g with smoothness := s } ps (x :: y :: l)).1 =
          (makeIntervals { g with smoothness := s } (Interval.make ps x y g.lmin s g.dmax).1 (y :: l)).1 := rfl
      rw [this, e, ih]
      rfl

/-- The intervals found on an axis with none, from its policies in order. -/
theorem detect_parts (S : Sorter Nat) (g : MeshParams) {b : Axis} (hbi : b.intervals = []) :
    ∃ o, o.Perm b.enabledPointers ∧ (o.Pairwise fun i j => (b.get i).coord ≤ (b.get j).coord) ∧
      (b.detectIntervals S g).intervals = (makeIntervals g b.get o).2 ∧
      (∀ n < b.policies.length, (b.detectIntervals S g).get n = (makeIntervals g b.get o).1 n) ∧
      ∀ i ∈ (makeIntervals g b.get o).2, (i.before.policy, i.after.policy) ∈ consecutive o ∧ b.Enabled i.before.policy ∧
        b.Enabled i.after.policy := by
  set o := S.sort (fun i => (b.get i).coord) b.enabledPointers with ho
  have hp := S.perm (fun i => (b.get i).coord) b.enabledPointers
  rw [← ho] at hp
  have hok : ∀ {n}, n ∈ o → b.Enabled n := fun h => mem_enabledPointers.1 (hp.mem_iff.1 h)
  obtain ⟨hpairs, hpar⟩ := makeIntervals_pairs g o b.get
  refine ⟨o, hp, S.sorted _ _, ?_, ?_, ?_⟩
  · simp only [Axis.detectIntervals, hbi, List.nil_append, ← ho]
  · intro n hn
    have : (b.detectIntervals S g).get n = (b.withPolicies (makeIntervals g b.get o).1).get n := rfl
    rw [this, withPolicies_get hn]
  · intro i hi
    have : (i.before.policy, i.after.policy) ∈ consecutive o := by
      rw [← hpairs]
      exact List.mem_map_of_mem (f := fun i : Interval => (i.before.policy, i.after.policy)) hi
    exact ⟨this, hok (List.of_mem_zip this).1, hok (List.mem_of_mem_tail (List.of_mem_zip this).2)⟩

/-- Intervals none of which is solved: the meshing does not end. -/
theorem mesh_none (S' : Sorter Interval) (T : Sorter ℚ) {c : Axis} (h : ∀ i ∈ c.intervals, i.autoSolveD c.get = none)
    (hne : c.intervals ≠ []) : c.mesh S' T = none := by
  have hp := S'.perm Interval.h c.intervals
  have : solveAllD c.get (S'.sort Interval.h c.intervals) = none := by
    cases hs : S'.sort Interval.h c.intervals with
    | nil => rw [hs] at hp; exact absurd hp.symm.eq_nil hne
    | cons i l =>
      unfold solveAllD
      rw [h i (hp.mem_iff.1 (by rw [hs]; simp))]
      rfl
  simp only [Axis.mesh, this]
  rfl

/-- Two policies on an axis: intervals are found. -/
theorem detect_nonempty (S : Sorter Nat) (g : MeshParams) {b : Axis} (hbi : b.intervals = []) {i j : Nat} (hi : b.Enabled i)
    (hj : b.Enabled j) (hne : i ≠ j) : (b.detectIntervals S g).intervals ≠ [] := by
  obtain ⟨o, hp, -, hint, -⟩ := detect_parts S g hbi
  obtain ⟨hpairs, -⟩ := makeIntervals_pairs g o b.get
  obtain ⟨p, hpm, -⟩ := mem_consecutive (hp.mem_iff.2 (mem_enabledPointers.2 hi)) (hp.mem_iff.2 (mem_enabledPointers.2 hj)) hne
  intro e
  rw [hint] at e
  rw [← hpairs, e] at hpm
  cases hpm

/-- Two policies, and a limit that is not positive: the meshing does not end. -/
theorem mesh_low (S : Sorter Nat) (S' : Sorter Interval) (T : Sorter ℚ) {g : MeshParams} (hg : g.dmax ≤ 0) {b : Axis}
    (hbi : b.intervals = []) (hbd : ∀ k < b.policies.length, (b.get k).d = g.dmax / 2) {i j : Nat} (hi : b.Enabled i)
    (hj : b.Enabled j) (hne : i ≠ j) : (b.detectIntervals S g).mesh S' T = none := by
  obtain ⟨o, hp, -, hint, hget, hmem⟩ := detect_parts S g hbi
  refine mesh_none S' T ?_ (detect_nonempty S g hbi hi hj hne)
  intro i hi
  rw [hint] at hi
  have hdm := ((makeIntervals_pairs g o b.get).2 i hi).1
  refine autoSolveD_low (by rw [hdm]; exact hg) ?_
  rw [hdm, hget _ (hmem i hi).2.1.lt]
  refine makeIntervals_ge g hg o b.get (fun k => ?_) _
  by_cases hk : k < b.policies.length
  · rw [hbd k hk]; linarith
  · have : (b.get k).d = 0 := by simp [Axis.get, hk]
    rw [this]; exact hg

/-- A smoothness below 1, and policies so far from each other that lines closer and closer to each other never get half-way:
the meshing does not end. -/
theorem mesh_short (S : Sorter Nat) (S' : Sorter Interval) (T : Sorter ℚ) {g : MeshParams} (hg : 0 < g.dmax)
    (h0 : 0 ≤ g.smoothness) (h1 : g.smoothness < 1) {b : Axis}
    (hbi : b.intervals = []) (hbd : ∀ k < b.policies.length, (b.get k).d = g.dmax / 2)
    (hfar : ∀ i j, b.Enabled i → b.Enabled j → i ≠ j → g.dmax < |(b.get i).coord - (b.get j).coord| ∧
      g.smoothness * g.dmax ≤ (1 - g.smoothness) * (|(b.get i).coord - (b.get j).coord| - g.dmax))
    {i j : Nat} (hi : b.Enabled i) (hj : b.Enabled j) (hne : i ≠ j) : (b.detectIntervals S g).mesh S' T = none := by
  obtain ⟨o, hp, hsort, hint, hget, hmem⟩ := detect_parts S g hbi
  refine mesh_none S' T ?_ (detect_nonempty S g hbi hi hj hne)
  have hsep : b.Separated := by
    intro i j hi hj hne e
    obtain ⟨h, -⟩ := hfar i j hi hj hne
    rw [e, sub_self, abs_zero] at h
    linarith
  have hok : ∀ {n}, n ∈ o → b.Enabled n := fun h => mem_enabledPointers.1 (hp.mem_iff.1 h)
  have hnd : o.Nodup := hp.nodup_iff.2 (by unfold Axis.enabledPointers Axis.pointers; exact List.nodup_range.filter _)
  have hchain : o.IsChain fun i j => i ≠ j ∧ (b.get i).coord < (b.get j).coord := by
    refine List.Pairwise.isChain ?_
    refine (List.pairwise_and_iff.2 ⟨hsort, hnd⟩).imp_of_mem fun {i j} hi hj h => ⟨h.2, lt_of_le_of_ne h.1 ?_⟩
    exact hsep i j (hok hi) (hok hj) h.2
  obtain ⟨hlow, -⟩ := makeIntervals_ok (g := { g with smoothness := 1 }) ⟨hg, le_rfl⟩ o b.get hchain
    (fun i hi => by rw [hbd i (hok hi).lt]; linarith)
  rw [makeIntervals_smooth] at hlow
  intro i hi
  rw [hint] at hi
  obtain ⟨hdm, -, -, hs1, hs2⟩ := (makeIntervals_pairs g o b.get).2 i hi
  obtain ⟨hh, -⟩ := (makeIntervals_coords g o b.get).2 i hi
  obtain ⟨hcons, hbe, hae⟩ := hmem i hi
  have hne' : i.before.policy ≠ i.after.policy := by
    obtain ⟨n, hn, e⟩ := List.getElem_of_mem hcons
    have := List.isChain_iff_getElem.1 hchain
    intro e'
    have hn' : n + 1 < o.length := by
      have : n < (o.zip o.tail).length := hn
      simp at this
      omega
    have h := (this n hn').1
    have e1 : o[n] = i.before.policy := by have := congrArg Prod.fst e; simpa [consecutive] using this
    have e2 : o[n+1] = i.after.policy := by have := congrArg Prod.snd e; simpa [consecutive] using this
    rw [e1, e2] at h
    exact h e'
  obtain ⟨f1, f2⟩ := hfar _ _ hbe hae hne'
  refine autoSolveD_stuck ?_
  unfold Interval.Stuck
  rw [hget _ hbe.lt, hget _ hae.lt]
  have pos : ∀ k, b.Enabled k → 0 < (b.get k).d := fun k hk => by rw [hbd k hk.lt]; linarith
  have hs : ShortSide i.before.smoothness (b.get i.before.policy).d i.dmax i.h := by
    rw [hs1, hdm, hh, hbd _ hbe.lt]
    exact ⟨h0, h1, by linarith, by linarith, by nlinarith⟩
  exact ⟨hlow.pos _ (pos _ hbe), hlow.pos _ (pos _ hae), Or.inr (Or.inl (hs.lowered (hlow.le _)))⟩

end Verif.Mesh

namespace Verif.Board
open Verif.Mesh Verif.Mesh.Spec Verif.Geom Spec Verif.Dialog

/-- Zones of the same angles. -/
def SameAngles (zones zones' : Zones) : Prop := ∀ w, (zones w).map Zone.angles = (zones' w).map Zone.angles

theorem addZone_same (S : Sorter Nat) (A : Nat → BAngle) (g g' : ZoneParams) {zones zones' : Zones} (h : SameAngles zones zones')
    (axis : Geom.Axis) (angles : List Nat) : SameAngles (addZone S A g zones axis angles) (addZone S A g' zones' axis angles) := by
  intro w
  unfold addZone
  cases angles with
  | nil => exact h w
  | cons first rest =>
    simp only
    split_ifs
    · cases transposeAxis (A first).plane axis with
      | none => exact h w
      | some va =>
        simp only
        split_ifs
        · simp only [List.map_append, List.map_cons, List.map_nil, h w]
        · exact h w
    · exact h w

theorem foldZone_same (S : Sorter Nat) (A : Nat → BAngle) (g g' : ZoneParams) (axis : Geom.Axis) (found : List (List Nat)) :
    ∀ {zones zones' : Zones}, SameAngles zones zones' →
      SameAngles (found.foldl (fun zones angles => addZone S A g zones axis angles) zones)
        (found.foldl (fun zones angles => addZone S A g' zones axis angles) zones') := by
  induction found with
  | nil => exact fun h => h
  | cons x l ih => exact fun h => ih (addZone_same S A g g' h axis x)

theorem detectZones_same (S : Sorter Nat) (A : Nat → BAngle) (g g' : ZoneParams) (plane : Plane) (edges : List BEdge)
    (angles : List Nat) {zones zones' r r' : Zones} (h : SameAngles zones zones')
    (hr : detectZones S A g plane edges angles zones = some r) (hr' : detectZones S A g' plane edges angles zones' = some r') :
    SameAngles r r' := by
  unfold detectZones detectZonesOn at hr hr'
  obtain ⟨x, hx, hr⟩ := Option.bind_eq_some_iff.1 hr
  obtain ⟨x', hx', hr'⟩ := Option.bind_eq_some_iff.1 hr'
  obtain ⟨f, hf, rfl⟩ := Option.map_eq_some_iff.1 hx
  obtain ⟨f', hf', rfl⟩ := Option.map_eq_some_iff.1 hx'
  rw [hf] at hf'
  obtain rfl := Option.some.inj hf'
  simp only [Option.map_map, Option.map_eq_some_iff] at hr hr'
  obtain ⟨k, hk, rfl⟩ := hr
  obtain ⟨k', hk', rfl⟩ := hr'
  rw [hk] at hk'
  obtain rfl := Option.some.inj hk'
  exact foldZone_same S A g g' _ _ (foldZone_same S A g g' _ _ h)

theorem detectAllZones_same (S : Sorter Nat) (A : Nat → BAngle) (g g' : ZoneParams) (edges : Plane → List BEdge)
    (angles : Plane → List Nat) {r r' : Zones}
    (hr : detectAllZones S A g edges angles = some r) (hr' : detectAllZones S A g' edges angles = some r') : SameAngles r r' := by
  unfold detectAllZones at hr hr'
  obtain ⟨x, hx, hr⟩ := Option.bind_eq_some_iff.1 hr
  obtain ⟨x', hx', hr'⟩ := Option.bind_eq_some_iff.1 hr'
  obtain ⟨y, hy, hr⟩ := Option.bind_eq_some_iff.1 hr
  obtain ⟨y', hy', hr'⟩ := Option.bind_eq_some_iff.1 hr'
  exact detectZones_same S A g g' _ _ _ (detectZones_same S A g g' _ _ _ (detectZones_same S A g g' _ _ _ (fun _ => rfl) hx hx') hy hy')
    hr hr'

theorem diagonal_tidy {S : Sorter Nat} {gz : ZoneParams} {B : Input} (hB : Built B) {L : List BAngle} {zones : Zones} {m : ToMesh}
    (h : diagonalSteps S gz B = some (L, zones, m)) : Tidy zones := by
  unfold diagonalSteps at h
  obtain ⟨L', e1, h⟩ := Option.bind_eq_some_iff.1 h
  obtain ⟨z', e2, h⟩ := Option.bind_eq_some_iff.1 h
  obtain ⟨m', e3, h⟩ := Option.map_eq_some_iff.1 h
  obtain ⟨rfl, rfl, rfl⟩ : L' = L ∧ z' = zones ∧ m' = m := by simpa using h
  have hF : ∀ p, ∃ F, detectAngles ((B.polygons p).map fun a => (B.P a).points) = some F := by
    intro p
    refine Option.isSome_iff_exists.1 (C65_defined ?_)
    intro l hl
    obtain ⟨a, ha, rfl⟩ := List.mem_map.1 hl
    intro h0
    have := hB.sides p a ha
    rw [h0] at this
    simp [detectEdges] at this
  choose F hF using hF
  obtain ⟨L, hL, hA⟩ := detectAllAngles_spec hF
  rw [e1] at hL
  obtain rfl := Option.some.inj hL
  obtain ⟨zones, h1, ht⟩ := C68_tidy hF (S := S) (g := gz) (A := angleAt L') (angles := anglesOf L')
    (fun p => (List.nodup_range).filter _) hA
    (fun p a ha => (mem_anglesOf.1 ha).2) (edges := fun plane => (B.edges plane).map B.E) (by
      intro p e he
      obtain ⟨i, hi, rfl⟩ := List.mem_map.1 he
      simp only [Input.edges, List.mem_flatMap, List.mem_map] at hi
      obtain ⟨a, ha, q, hq, rfl⟩ := hi
      refine ⟨_, List.mem_map_of_mem ha, _, hB.sides p a ha, ?_⟩
      rw [(hB.edge p a ha q hq).1]
      exact List.mem_map_of_mem hq)
  rw [e2] at h1
  obtain rfl := Option.some.inj h1
  exact ht

/-- The steps from the detection of zones on, with the angles a run left, are the whole run. -/
theorem from_zones {S : Sorters} {gz : ZoneParams} {B : Input} (hB : Built B) {L : List BAngle} {zones : Zones} {m : ToMesh}
    (h : diagonalSteps S.pointers gz B = some (L, zones, m)) (g' : MeshParams) (gz' : ZoneParams) (axis : Geom.Axis) :
    runFromZones S g' gz' B L m axis = runSteps S g' gz' B axis := by
  obtain ⟨L1, zones1, m1, new1, h1, -, -, -, -, c1⟩ := diagonal_spec hB S.pointers gz
  obtain ⟨L2, zones2, m2, new2, h2, -, -, -, c2, c3⟩ := diagonal_spec hB S.pointers gz'
  rw [h] at h1
  obtain ⟨rfl, rfl, rfl⟩ : L = L1 ∧ zones = zones1 ∧ m = m1 := by simpa using h1
  have hparts : ∀ {gz L zones m}, diagonalSteps S.pointers gz B = some (L, zones, m) → detectAllAngles B = some L ∧
      detectAllZones S.pointers (angleAt L) gz (fun plane => (B.edges plane).map B.E) (anglesOf L) = some zones ∧
      solveZonesAngles (angleAt L) gz.minimalAngle zones (fun _ _ => false) = some m := by
    intro gz L zones m h
    unfold diagonalSteps at h
    obtain ⟨L', e1, h⟩ := Option.bind_eq_some_iff.1 h
    obtain ⟨z', e2, h⟩ := Option.bind_eq_some_iff.1 h
    obtain ⟨m', e3, h⟩ := Option.map_eq_some_iff.1 h
    obtain ⟨rfl, rfl, rfl⟩ : L' = L ∧ z' = zones ∧ m' = m := by simpa using h
    exact ⟨e1, e2, e3⟩
  obtain ⟨p1, p2, p3⟩ := hparts h
  obtain ⟨q1, q2, q3⟩ := hparts h2
  rw [p1] at q1
  obtain rfl := Option.some.inj q1
  have hsame := detectAllZones_same S.pointers (angleAt L) gz gz' _ _ p2 q2
  have hin : ∀ w a, (∀ z ∈ zones2 w, a ∉ z.angles) → ∀ z ∈ zones w, a ∉ z.angles := by
    intro w a hn z hz ha
    have : z.angles ∈ (zones2 w).map Zone.angles := by rw [← hsame w]; exact List.mem_map_of_mem hz
    obtain ⟨z', hz', e⟩ := List.mem_map.1 this
    exact hn z' hz' (e ▸ ha)
  obtain ⟨m3, e1, e2, e3⟩ := C68_solved_partial (A := angleAt L) (minimal := gz'.minimalAngle) (diagonal_tidy hB h2) m
  have hm : m3 = m2 := by
    funext a va
    by_cases ha : ∀ z ∈ zones2 (spaceAxis (angleAt L a).plane va), a ∉ z.angles
    · rw [e3 a va ha, c3 a va ha, c1 a va (hin _ _ ha)]
    · push Not at ha
      obtain ⟨z, hz, ha⟩ := ha
      rw [Bool.eq_iff_iff, e2 _ z hz a ha va rfl, c2 _ z hz a ha va rfl]
  subst hm
  unfold runFromZones runSteps
  rw [h2, q2, Option.bind_some, e1]
  rfl

/-- After a run, the same board with other parameters: the edges are left the same, the policies are merged, and what is left
depends on the intervals. -/
theorem run_other {S : Sorters} {g : MeshParams} {gz : ZoneParams} {B : Input} (hB : Built B) (hA : LinesApart B)
    {axis : Geom.Axis} {E : Nat → BEdge} {a : Mesh.Axis} (h : runSteps S g gz B axis = .ok (E, a)) (g' : MeshParams)
    (gz' : ZoneParams) :
    ∃ d b, ∃ lim : ℚ → ℚ, runToIntervals S g' gz' B axis = .ok (d, E, b) ∧
      (b.Coherent ∧ (∀ k < b.policies.length, (b.get k).d = g'.dmax / 2) ∧ b.intervals = [] ∧ b.meshlines = [] ∧
        ∀ i j, b.Enabled i → b.Enabled j → i ≠ j → g'.proximityLimit < |(b.get i).coord - (b.get j).coord|) ∧
      (∀ m, lim m = g'.dmax ∨ lim m = gz'.diagonalDmax ∧ ∃ p, slantedOf B p ≠ []) ∧
      runSteps S g' gz' B axis = (Outcome.orDiverges (Mesh.Axis.mesh S.intervals S.lines { b.detectIntervals S.pointers g' with
          intervals := (b.detectIntervals S.pointers g').intervals.map fun i => { i with dmax := lim i.m } })).map fun a => (E, a) := by
  classical
  have bind_of : ∀ {α β : Type} {o : Outcome α} {x : α} (f : α → Outcome β), o = .ok x → o.bind f = f x := by
    intro α β o x f h; rw [h]; rfl
  obtain ⟨-, -, -, hE, -, -⟩ := run_parts h
  unfold runSteps at h
  obtain ⟨d0, -, h⟩ := outcome_bind_ok h
  obtain ⟨conflicts, hc, h⟩ := outcome_bind_ok h
  obtain ⟨E', hE', h⟩ := outcome_bind_ok h
  obtain ⟨asked0, -, h⟩ := outcome_bind_ok h
  obtain ⟨a', -, h⟩ := outcome_bind_ok h
  obtain ⟨rfl, rfl⟩ := Prod.mk.inj (Outcome.ok.inj h)
  obtain ⟨L, zones, m, new, hdiag, d1, d2, d3, -, -⟩ := diagonal_spec hB S.pointers gz'
  obtain ⟨asked, hasked, ha2, -⟩ := board_policies (planar hB hA) hE L m axis
  obtain ⟨hf, -⟩ := axis_policies g' (B.fixed axis) asked ha2
  obtain ⟨b, hb, hbc, hbd, hbi, hbm, hbs⟩ := merged_any S.pointers hf
  set lim : ℚ → ℚ := fun x => if ∃ z ∈ zones axis, Covers (angleAt L) z x then gz'.diagonalDmax else g'.dmax with hlim
  have hin : ∀ x, (∃ z ∈ zones axis, Covers (angleAt L) z x) → lim x = gz'.diagonalDmax := fun x hx => by
    rw [hlim]; exact if_pos hx
  have hout : ∀ x, (¬ ∃ z ∈ zones axis, Covers (angleAt L) z x) → lim x = g'.dmax := fun x hx => by
    rw [hlim]; exact if_neg hx
  have hsl : ∀ z ∈ zones axis, ∃ p, slantedOf B p ≠ [] := by
    intro z hzm
    obtain ⟨p, va, -, hzm⟩ := (d2 _ _).1 hzm
    obtain ⟨lo, hi, -, hlt, hu⟩ := (d1 p va).spans z hzm
    obtain ⟨s, hs, -⟩ := hu lo le_rfl hlt.le
    refine ⟨p, fun e => ?_⟩
    rw [e] at hs
    cases hs
  have hreach : ∀ z ∈ zones axis, (∃ lo hi, Reaches (angleAt L) z lo hi) ∧ z.intervals = [] ∧ z.dmax = gz'.diagonalDmax := by
    intro z hz
    obtain ⟨p, va, hw, hz'⟩ := (d2 _ _).1 hz
    obtain ⟨e1, e2, e3, e4⟩ := d3 p va z hz'
    obtain ⟨lo, hi, hsp, -⟩ := (d1 p va).spans z hz'
    exact ⟨⟨lo, hi, p, va, fun a ha => (e4 a ha).2, e3.symm, hsp⟩, e2, e1⟩
  have hdm : ∀ i ∈ (b.detectIntervals S.pointers g').intervals, i.dmax = g'.dmax := by
    intro i hi
    simp only [Mesh.Axis.detectIntervals, hbi, List.nil_append] at hi
    exact ((makeIntervals_pairs g' _ _).2 i hi).1
  have hzone := zoneIntervals_spec _ hreach hdm hin hout
  have hdiag' : Outcome.orUb (diagonalSteps S.pointers gz' B) = .ok (L, zones, m) := by rw [hdiag]; rfl
  have hasked' : Outcome.orUb (boardPolicies B E' L m (detectAllColinear B) axis) = .ok asked := by rw [hasked]; rfl
  have hb' : Outcome.orDiverges ((axisPolicies g' (B.fixed axis) asked).solveTooClose S.pointers g') = .ok b := by rw [hb]; rfl
  refine ⟨(L, zones, m), b, lim, ?_, ⟨hbc, hbd, hbi, hbm, hbs⟩, ?_, ?_⟩
  · unfold runToIntervals
    rw [bind_of _ hdiag', bind_of _ hc, bind_of _ hE', bind_of _ hasked', Outcome.map, bind_of _ hb']
  · intro x
    by_cases hx : ∃ z ∈ zones axis, Covers (angleAt L) z x
    · refine Or.inr ⟨hin x hx, ?_⟩
      obtain ⟨z, hzm, -⟩ := hx
      exact hsl z hzm
    · exact Or.inl (hout x hx)
  · unfold runSteps
    rw [bind_of _ hdiag', bind_of _ hc, bind_of _ hE', bind_of _ hasked']
    unfold finishAxis
    rw [bind_of _ hb']
    simp only
    rw [hzone]
    rfl

theorem flat_limits {S : Sorter Nat} {g : MeshParams} {b : Mesh.Axis} (hbi : b.intervals = []) {lim : ℚ → ℚ}
    (h : ∀ m, lim m = g.dmax) : ({ b.detectIntervals S g with
      intervals := (b.detectIntervals S g).intervals.map fun i => { i with dmax := lim i.m } } : Mesh.Axis) =
      b.detectIntervals S g := by
  have : (b.detectIntervals S g).intervals.map (fun i => ({ i with dmax := lim i.m } : Interval)) =
      (b.detectIntervals S g).intervals := by
    conv_rhs => rw [← List.map_id (b.detectIntervals S g).intervals]
    refine List.map_congr_left fun i hi => ?_
    simp only [Mesh.Axis.detectIntervals, hbi, List.nil_append] at hi
    rw [h, ← ((makeIntervals_pairs g _ _).2 i hi).1]
    rfl
  rw [this]

/-- After a run, the dialog of the global parameters accepted with numbers. The steps from the detection of zones on are run
again, which is a whole run with the new parameters. The edges are left as they were. The run

* ends with parameters in range: lines increase, gaps are within the limits typed, lines are around the policies, policies are
near what is to be meshed, and lines near policies;
* never ends with two policies left once those that are too close are merged, no slanted edge, and a limit that is not positive;
* never ends with a negative proximity limit and two policies at the same place;
* never ends with two policies left, no slanted edge, and a smoothness, not negative, so much below 1 that lines closer and
closer to each other never get half-way. -/
theorem C95_edited_partial (S : Sorters) {g : MeshParams} {gz : ZoneParams} {B : Input} (hB : Built B) (hA : LinesApart B)
    {axis : Geom.Axis} {E : Nat → BEdge} {a : Mesh.Axis} (h : runSteps S g gz B axis = .ok (E, a)) :
    ∃ L zones m, diagonalSteps S.pointers gz B = some (L, zones, m) ∧ ∀ (r : GlobalRows) (limit smoothness dmax angle zdmax : ℚ) (lmin zlmin : Nat),
      Spec.Number r.proximityLimit limit → Spec.Number r.smoothness smoothness → Spec.Natural r.lmin lmin →
      Spec.Number r.dmax dmax → Spec.Number r.minimalAngle angle → Spec.Number r.diagonalDmax zdmax →
      Spec.Natural r.diagonalLmin zlmin →
      ∃ q d b, r.commit = some (.detectDiagZones, q) ∧ q.mesh = ⟨limit, smoothness, lmin, dmax⟩ ∧
        q.zones = ⟨lmin, zlmin, zdmax, angle⟩ ∧
        runFromZones S q.mesh q.zones B L m axis = runSteps S ⟨limit, smoothness, lmin, dmax⟩ ⟨lmin, zlmin, zdmax, angle⟩ B axis ∧
        runToIntervals S q.mesh q.zones B axis = .ok (d, E, b) ∧
      (0 ≤ limit → 1 ≤ smoothness → 0 < dmax → (0 < zdmax ∨ ∀ p, slantedOf B p = []) →
        ∃ c, runFromZones S q.mesh q.zones B L m axis = .ok (E, c) ∧ Increasing c.meshlines ∧
          ∀ D, dmax ≤ D → (zdmax ≤ D ∨ ∀ p, slantedOf B p = []) → GapsAtMost D c.meshlines ∧
            c.Drawn limit (min D (dmax / 2)) ∧
            ∀ x, Wanted B E axis x → ∃ k, c.Enabled k ∧
              |(c.get k).coord - x| < tolerance + (c.conflicts.length : ℚ) * limit ∧
              ((∃ j, j ≠ k ∧ c.Enabled j) → ∃ y ∈ c.meshlines, |y - (c.get k).coord| ≤ D)) ∧
      ((∃ i j, i ≠ j ∧ b.Enabled i ∧ b.Enabled j) → dmax ≤ 0 → (∀ p, slantedOf B p = []) →
        runFromZones S q.mesh q.zones B L m axis = .diverges) ∧
      ((∃ i j, i ≠ j ∧ b.Enabled i ∧ b.Enabled j ∧ (b.get i).coord = (b.get j).coord) → limit < 0 → 1 ≤ smoothness → 0 < dmax →
        (0 < zdmax ∨ ∀ p, slantedOf B p = []) → runFromZones S q.mesh q.zones B L m axis = .diverges) ∧
      ((∃ i j, i ≠ j ∧ b.Enabled i ∧ b.Enabled j) → 0 ≤ smoothness → smoothness < 1 → 0 < dmax → (∀ p, slantedOf B p = []) →
        (∀ i j, b.Enabled i → b.Enabled j → i ≠ j → dmax < |(b.get i).coord - (b.get j).coord| ∧
          smoothness * dmax ≤ (1 - smoothness) * (|(b.get i).coord - (b.get j).coord| - dmax)) →
        runFromZones S q.mesh q.zones B L m axis = .diverges) := by
  obtain ⟨L, zones, m, -, hL, -⟩ := diagonal_spec hB S.pointers gz
  refine ⟨L, zones, m, hL, ?_⟩
  intro r limit smoothness dmax angle zdmax lmin zlmin n1 n2 n3 n4 n5 n6 n7
  obtain ⟨d, b, lim, h1, ⟨hbc, hbd, hbi, hbm, hbs⟩, hlim, hrun⟩ := run_other hB hA h ⟨limit, smoothness, lmin, dmax⟩
    ⟨lmin, zlmin, zdmax, angle⟩
  refine ⟨⟨false, limit, smoothness, lmin, dmax, zlmin, zdmax, angle, []⟩, d, b, (C91_accepted.1 r _ _).2 ⟨rfl, n1, n2, n3, n4, n5, n6, n7, rfl, rfl⟩, rfl, rfl,
    from_zones hB hL _ _ _, h1, ?_, ?_, ?_, ?_⟩ <;>
    rw [from_zones hB hL] <;> simp only [Csx.Params.mesh, Csx.Params.zones]
  · intro r1 r2 r3 hz
    obtain ⟨L', zones, m, new, E', c, lim', hrun', ⟨d1, d2, d3, d4, d5, hin, hout⟩, -, c1, -, c4, -⟩ :=
      run_drawn S ⟨limit, smoothness, lmin, dmax⟩ ⟨r3, r2⟩ r1 (gz := ⟨lmin, zlmin, zdmax, angle⟩) hz hB hA (detect_of_run h) axis
    have hE : E' = E := by
      rw [hrun] at hrun'
      obtain ⟨_, -, e⟩ := outcome_map_ok hrun'
      exact (congrArg Prod.fst e).symm
    subst hE
    refine ⟨c, hrun', c1, ?_⟩
    intro D hD hD'
    have hle : ∀ x, lim' x ≤ D := by
      intro x
      by_cases hx : ∃ z ∈ zones axis, Covers (angleAt L') z x
      · rw [hin x hx]
        refine hD'.resolve_right fun hs => ?_
        obtain ⟨z, hzm, -⟩ := hx
        obtain ⟨p, va, -, hzm⟩ := (d2 _ _).1 hzm
        obtain ⟨lo, hi, -, hlt, hu⟩ := (d1 p va).spans z hzm
        obtain ⟨s, hs', -⟩ := hu lo le_rfl hlt.le
        rw [hs p] at hs'
        cases hs'
      · rw [hout x hx]; exact hD
    obtain ⟨e1, e2, e3, -⟩ := c4 D hle
    exact ⟨e1, e2, e3⟩
  · rintro ⟨i, j, hne, hi, hj⟩ hd hs
    have hflat : ∀ m, lim m = dmax := fun m => (hlim m).resolve_right fun ⟨_, p, hp⟩ => hp (hs p)
    rw [hrun, flat_limits hbi hflat, mesh_low _ _ _ hd hbi hbd hi hj hne]
    rfl
  · rintro ⟨i, j, hne, hi, hj, e⟩ - hs hd hz
    have hpos : ∀ m, 0 < lim m := by
      intro m
      rcases hlim m with e | ⟨e, p, hp⟩
      · rw [e]; exact hd
      · rw [e]; exact hz.resolve_right fun h => hp (h p)
    rw [hrun, mesh_stuck _ _ _ ⟨hd, hs⟩ hbi hpos hi hj hne (Or.inr e)]
    rfl
  · rintro ⟨i, j, hne, hi, hj⟩ h0 h1 hd hs hfar
    have hflat : ∀ m, lim m = dmax := fun m => (hlim m).resolve_right fun ⟨_, p, hp⟩ => hp (hs p)
    rw [hrun, flat_limits hbi hflat, mesh_short _ _ _ hd h0 h1 hbi hbd hfar hi hj hne]
    rfl

/-- After a run, the dialog of the global parameters accepted as it was shown gives the same mesh, when the parameters have no
more than six digits. -/
theorem C95_unchanged_partial (S : Sorters) {p : Csx.Params} (h1 : Spec.SixDigits p.proximityLimit) (h2 : Spec.SixDigits p.smoothness)
    (h3 : Spec.SixDigits p.dmax) (h4 : Spec.SixDigits p.minimalAngle) (h5 : Spec.SixDigits p.diagonalDmax) (h6 : p.lmin < 2 ^ 64)
    (h7 : p.diagonalLmin < 2 ^ 64) {B : Input} (hB : Built B) {axis : Geom.Axis} {r : (Nat → BEdge) × Mesh.Axis}
    (h : runSteps S p.mesh p.zones B axis = .ok r) :
    ∃ L zones m q, diagonalSteps S.pointers p.zones B = some (L, zones, m) ∧ (GlobalRows.shown p).commit = some (.detectDiagZones, q) ∧
      runFromZones S q.mesh q.zones B L m axis = .ok r := by
  obtain ⟨L, zones, m, -, hL, -⟩ := diagonal_spec hB S.pointers p.zones
  exact ⟨L, zones, m, _, hL, C91_unchanged_partial.1 p h1 h2 h3 h4 h5 h6 h7, (from_zones hB hL _ _ _).trans h⟩

/-- Parameters with a limit on cells of 2.0000004. -/
def finerParams : Csx.Params where
  proximityLimit := 0
  smoothness := 2
  lmin := 1
  dmax := 20000004 / 10000000

/-- A limit of 5 on cells. -/
def coarseParams : Csx.Params where
  proximityLimit := 0
  smoothness := 1
  lmin := 1
  dmax := 5

theorem run_computed {n m : Nat} {S : Sorters} {g : MeshParams} {gz : ZoneParams} {B : Input} {axis : Geom.Axis} {P : Mesh.Axis → Mesh.Axis → Prop}
    [∀ b a, Decidable (P b a)] (h : ((runToIntervalsF n S g gz B axis).bind fun r =>
      (runFromIntervalsF m S g (angleAt r.1.1) (r.1.2.1 axis) r.2.2).map fun a => decide (P r.2.2 a)) = .ok true) :
    ∃ d E b a, runToIntervals S g gz B axis = .ok (d, E, b) ∧ runSteps S g gz B axis = .ok (E, a) ∧ P b a := by
  obtain ⟨⟨d, E, b⟩, h1, h⟩ := outcome_bind_ok h
  obtain ⟨a, h2, h⟩ := outcome_map_ok h
  exact ⟨d, E, b, a, to_computed h1, run_join (to_computed h1) (from_computed h2), of_decide_eq_true h⟩

theorem to_intervals_computed {n : Nat} {S : Sorters} {g : MeshParams} {gz : ZoneParams} {B : Input} {axis : Geom.Axis}
    {P : Mesh.Axis → Prop} [∀ b, Decidable (P b)] (h : ((runToIntervalsF n S g gz B axis).map fun r => decide (P r.2.2)) = .ok true)
    {d E b} (hb : runToIntervals S g gz B axis = .ok (d, E, b)) : P b := by
  obtain ⟨⟨d', E', b'⟩, h1, h⟩ := outcome_map_ok h
  have := to_computed h1
  rw [hb] at this
  obtain ⟨rfl, rfl, rfl⟩ : d = d' ∧ E = E' ∧ b = b' := by simpa using this
  exact of_decide_eq_true h

theorem enabled_two {b : Mesh.Axis} (h : b.enabledPointers = [0, 1]) : b.Enabled 0 ∧ b.Enabled 1 :=
  ⟨mem_enabledPointers.1 (by rw [h]; simp), mem_enabledPointers.1 (by rw [h]; simp)⟩

/-- Not so in general: with the fixed lines 0 and 16 and a limit of 2.0000004 on cells, the run never ends once that limit is set
to 0, nor once the smoothness is set to 0.5, and accepting the dialog as it was shown gives another mesh; with a box, the run
never ends once the proximity limit is set to -1. -/
theorem C95_false :
    (∃ (S : Sorters) (p : Csx.Params) (B : Input) (axis : Geom.Axis), p.mesh.InRange ∧ 0 ≤ p.proximityLimit ∧
      0 < p.diagonalDmax ∧ Built B ∧ LinesApart B ∧ ∃ L zones m E a, diagonalSteps S.pointers p.zones B = some (L, zones, m) ∧
        runSteps S p.mesh p.zones B axis = .ok (E, a) ∧
        (∃ q, GlobalRows.commit { GlobalRows.shown p with dmax := ['0'] } = some (.detectDiagZones, q) ∧
          runFromZones S q.mesh q.zones B L m axis = .diverges) ∧
        (∃ q, GlobalRows.commit { GlobalRows.shown p with smoothness := "0.5".toList } = some (.detectDiagZones, q) ∧
          runFromZones S q.mesh q.zones B L m axis = .diverges) ∧
        ∃ q c, (GlobalRows.shown p).commit = some (.detectDiagZones, q) ∧
          runFromZones S q.mesh q.zones B L m axis = .ok (E, c) ∧ 2 ∉ a.meshlines ∧ 2 ∈ c.meshlines) ∧
    ∃ (S : Sorters) (p : Csx.Params) (B : Input) (axis : Geom.Axis), p.mesh.InRange ∧ 0 ≤ p.proximityLimit ∧
      0 < p.diagonalDmax ∧ Built B ∧ LinesApart B ∧ ∃ L zones m E a, diagonalSteps S.pointers p.zones B = some (L, zones, m) ∧
        runSteps S p.mesh p.zones B axis = .ok (E, a) ∧
        ∃ q, GlobalRows.commit { GlobalRows.shown p with proximityLimit := "-1".toList } = some (.detectDiagZones, q) ∧
          runFromZones S q.mesh q.zones B L m axis = .diverges := by
  have z0 : Spec.Number ['0'] 0 := (toDouble_iff _ _).1 (by decide +kernel)
  have zh : Spec.Number "0.5".toList (1 / 2) := (toDouble_iff _ _).1 (by decide +kernel)
  have zm : Spec.Number "-1".toList (-1) := (toDouble_iff _ _).1 (by decide +kernel)
  constructor
  · obtain ⟨-, E, b, a, -, hrun, h2⟩ := run_computed (n := 9) (m := 60) (S := plainSorters) (g := finerParams.mesh)
      (gz := finerParams.zones) (B := twoLinesBoard) (axis := .x) (P := fun _ a => (2 : ℚ) ∉ a.meshlines) (by decide +kernel)
    obtain ⟨L, zones, m, hL, hed⟩ := C95_edited_partial plainSorters twoLines_built.1 twoLines_built.2.1 hrun
    have n1 : Spec.Number (GlobalRows.shown finerParams).proximityLimit 0 := (toDouble_iff _ _).1 (by decide +kernel)
    have n2 : Spec.Number (GlobalRows.shown finerParams).smoothness 2 := (toDouble_iff _ _).1 (by decide +kernel)
    have n3 : Spec.Natural (GlobalRows.shown finerParams).lmin 1 := (toULong_iff _ _).1 (by decide +kernel)
    have n4 : Spec.Number (GlobalRows.shown finerParams).dmax 2 := (toDouble_iff _ _).1 (by decide +kernel)
    have n5 : Spec.Number (GlobalRows.shown finerParams).minimalAngle 20 := (toDouble_iff _ _).1 (by decide +kernel)
    have n6 : Spec.Number (GlobalRows.shown finerParams).diagonalDmax (1 / 5) := (toDouble_iff _ _).1 (by decide +kernel)
    have n7 : Spec.Natural (GlobalRows.shown finerParams).diagonalLmin 2 := (toULong_iff _ _).1 (by decide +kernel)
    refine ⟨plainSorters, finerParams, twoLinesBoard, .x, ⟨by norm_num [finerParams, Csx.Params.mesh],
      by norm_num [finerParams, Csx.Params.mesh]⟩, by norm_num [finerParams], by norm_num [finerParams], twoLines_built.1,
      twoLines_built.2.1, L, zones, m, E, a, hL, hrun, ?_, ?_, ?_⟩
    · obtain ⟨q, d, b, hq, e1, e2, -, hb, -, hdiv, -⟩ := hed { GlobalRows.shown finerParams with dmax := ['0'] } 0 2 0 20 (1 / 5) 1
        2 n1 n2 n3 z0 n5 n6 n7
      refine ⟨q, hq, hdiv ⟨0, 1, by decide, ?_⟩ le_rfl twoLines_built.2.2⟩
      rw [e1, e2] at hb
      exact enabled_two (to_intervals_computed (n := 9) (P := fun b => b.enabledPointers = [0, 1]) (by decide +kernel) hb)
    · obtain ⟨q, d, b, hq, e1, e2, -, hb, -, -, -, hdiv⟩ := hed { GlobalRows.shown finerParams with smoothness := "0.5".toList } 0
        (1 / 2) 2 20 (1 / 5) 1 2 n1 zh n3 n4 n5 n6 n7
      rw [e1, e2] at hb
      obtain ⟨hen, hc0, hc1⟩ := to_intervals_computed (n := 9) (P := fun b => b.enabledPointers = [0, 1] ∧ (b.get 0).coord = 0 ∧
        (b.get 1).coord = 16) (by decide +kernel) hb
      refine ⟨q, hq, hdiv ⟨0, 1, by decide, enabled_two hen⟩ (by norm_num) (by norm_num) (by norm_num) twoLines_built.2.2 ?_⟩
      intro i j hi hj hne
      have hi := mem_enabledPointers.2 hi
      have hj := mem_enabledPointers.2 hj
      rw [hen] at hi hj
      simp only [List.mem_cons, List.not_mem_nil, or_false] at hi hj
      rcases hi with rfl | rfl <;> rcases hj with rfl | rfl
      · exact absurd rfl hne
      · rw [hc0, hc1]; norm_num [abs_of_pos]
      · rw [hc0, hc1]; norm_num [abs_of_pos]
      · exact absurd rfl hne
    · obtain ⟨q, d, b, hq, e1, e2, e3, hb, hok, -⟩ := hed (GlobalRows.shown finerParams) 0 2 2 20 (1 / 5) 1 2 n1 n2 n3 n4 n5 n6 n7
      obtain ⟨c, hc, -⟩ := hok le_rfl (by norm_num) (by norm_num) (Or.inl (by norm_num))
      refine ⟨q, c, hq, hc, h2, ?_⟩
      obtain ⟨-, E', -, c', -, hrun', h3⟩ := run_computed (n := 9) (m := 60) (S := plainSorters) (g := ⟨0, 2, 1, 2⟩)
        (gz := ⟨1, 2, 1 / 5, 20⟩) (B := twoLinesBoard) (axis := .x) (P := fun _ a => (2 : ℚ) ∈ a.meshlines) (by decide +kernel)
      rw [e3, hrun'] at hc
      obtain ⟨-, rfl⟩ := Prod.mk.inj (Outcome.ok.inj hc)
      exact h3
  · obtain ⟨-, E, b, a, -, hrun, h2⟩ := run_computed (n := 9) (m := 60) (S := plainSorters) (g := coarseParams.mesh)
      (gz := coarseParams.zones) (B := oneBox) (axis := .x) (P := fun _ a => a.meshlines ≠ []) (by decide +kernel)
    obtain ⟨L, zones, m, hL, hed⟩ := C95_edited_partial plainSorters oneBox_built.1 oneBox_built.2.1 hrun
    have n2 : Spec.Number (GlobalRows.shown coarseParams).smoothness 1 := (toDouble_iff _ _).1 (by decide +kernel)
    have n3 : Spec.Natural (GlobalRows.shown coarseParams).lmin 1 := (toULong_iff _ _).1 (by decide +kernel)
    have n4 : Spec.Number (GlobalRows.shown coarseParams).dmax 5 := (toDouble_iff _ _).1 (by decide +kernel)
    have n5 : Spec.Number (GlobalRows.shown coarseParams).minimalAngle 20 := (toDouble_iff _ _).1 (by decide +kernel)
    have n6 : Spec.Number (GlobalRows.shown coarseParams).diagonalDmax (1 / 5) := (toDouble_iff _ _).1 (by decide +kernel)
    have n7 : Spec.Natural (GlobalRows.shown coarseParams).diagonalLmin 2 := (toULong_iff _ _).1 (by decide +kernel)
    refine ⟨plainSorters, coarseParams, oneBox, .x, ⟨by norm_num [coarseParams, Csx.Params.mesh],
      by norm_num [coarseParams, Csx.Params.mesh]⟩, by norm_num [coarseParams], by norm_num [coarseParams], oneBox_built.1,
      oneBox_built.2.1, L, zones, m, E, a, hL, hrun, ?_⟩
    obtain ⟨q, d, b, hq, e1, e2, -, hb, -, -, hdiv, -⟩ := hed { GlobalRows.shown coarseParams with proximityLimit := "-1".toList }
      (-1) 1 5 20 (1 / 5) 1 2 zm n2 n3 n4 n5 n6 n7
    rw [e1, e2] at hb
    obtain ⟨hen, hc⟩ := to_intervals_computed (n := 9) (P := fun b => b.enabledPointers = [0, 1, 2, 3] ∧
      (b.get 0).coord = (b.get 2).coord) (by decide +kernel) hb
    exact ⟨q, hq, hdiv ⟨0, 2, by decide, mem_enabledPointers.1 (by rw [hen]; simp), mem_enabledPointers.1 (by rw [hen]; simp), hc⟩
      (by norm_num) le_rfl (by norm_num) (Or.inl (by norm_num))⟩

/-- The box along x with cells of at most 5, then of at most 1 by the dialog: the run ends, with such cells. -/
example : ∃ L zones m E a q c, diagonalSteps plainSorters.pointers coarseParams.zones oneBox = some (L, zones, m) ∧
    runSteps plainSorters coarseParams.mesh coarseParams.zones oneBox .x = .ok (E, a) ∧
    GlobalRows.commit { GlobalRows.shown coarseParams with dmax := ['1'] } = some (.detectDiagZones, q) ∧
    runFromZones plainSorters q.mesh q.zones oneBox L m .x = .ok (E, c) ∧ Increasing c.meshlines ∧ GapsAtMost 1 c.meshlines ∧
    ¬ GapsAtMost 1 a.meshlines := by
  obtain ⟨-, E, b, a, -, hrun, h2⟩ := run_computed (n := 9) (m := 60) (S := plainSorters) (g := coarseParams.mesh)
    (gz := coarseParams.zones) (B := oneBox) (axis := .x) (P := fun _ a => ¬ GapsAtMost 1 a.meshlines) (by
      unfold GapsAtMost; decide +kernel)
  obtain ⟨L, zones, m, hL, hed⟩ := C95_edited_partial plainSorters oneBox_built.1 oneBox_built.2.1 hrun
  obtain ⟨q, d, b, hq, -, -, -, -, hok, -⟩ := hed { GlobalRows.shown coarseParams with dmax := ['1'] } 0 1 1 20 (1 / 5) 1 2
    ((toDouble_iff _ _).1 (by decide +kernel)) ((toDouble_iff _ _).1 (by decide +kernel)) ((toULong_iff _ _).1 (by decide +kernel))
    ((toDouble_iff _ _).1 (by decide +kernel)) ((toDouble_iff _ _).1 (by decide +kernel)) ((toDouble_iff _ _).1 (by decide +kernel))
    ((toULong_iff _ _).1 (by decide +kernel))
  obtain ⟨c, hc, h3, h4⟩ := hok le_rfl le_rfl (by norm_num) (Or.inl (by norm_num))
  exact ⟨L, zones, m, E, a, q, c, hL, hrun, hq, hc, h3, (h4 1 le_rfl (Or.inl (by norm_num))).1, h2⟩

/-- The same box, accepted as it was shown. -/
example : ∃ L zones m E a q, diagonalSteps plainSorters.pointers coarseParams.zones oneBox = some (L, zones, m) ∧
    runSteps plainSorters coarseParams.mesh coarseParams.zones oneBox .x = .ok (E, a) ∧ a.meshlines ≠ [] ∧
    (GlobalRows.shown coarseParams).commit = some (.detectDiagZones, q) ∧
    runFromZones plainSorters q.mesh q.zones oneBox L m .x = .ok (E, a) := by
  obtain ⟨-, E, b, a, -, hrun, h2⟩ := run_computed (n := 9) (m := 60) (S := plainSorters) (g := coarseParams.mesh)
    (gz := coarseParams.zones) (B := oneBox) (axis := .x) (P := fun _ a => a.meshlines ≠ []) (by decide +kernel)
  obtain ⟨L, zones, m, q, hL, hq, hc⟩ := C95_unchanged_partial plainSorters (p := coarseParams) ⟨0, by norm_num, 0, by norm_num [coarseParams]⟩
    ⟨1, by norm_num, 0, by norm_num [coarseParams]⟩ ⟨5, by norm_num, 0, by norm_num [coarseParams]⟩
    ⟨20, by norm_num, 0, by norm_num [coarseParams]⟩ ⟨2, by norm_num, -1, by norm_num [coarseParams, abs_of_pos]⟩
    (by norm_num [coarseParams]) (by norm_num [coarseParams]) oneBox_built.1 hrun
  exact ⟨L, zones, m, E, a, q, hL, hrun, h2, hq, hc⟩

end Verif.Board
