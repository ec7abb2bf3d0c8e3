import Verif.Props.GlobalEdition

/-! # C96: editing a zone -/

namespace Verif.Board
open Verif.Mesh Verif.Mesh.Spec Verif.Geom Spec Verif.Dialog

/-- Solving angles again changes nothing. -/
theorem zones_again {S : Sorter Nat} {gz : ZoneParams} {B : Input} (hB : Built B) {L : List BAngle} {zones : Zones} {m : ToMesh}
    (h : diagonalSteps S gz B = some (L, zones, m)) : solveZonesAngles (angleAt L) gz.minimalAngle zones m = some m := by
  obtain ⟨L1, zones1, m1, new1, h1, -, -, -, c2, c3⟩ := diagonal_spec hB S gz
  rw [h] at h1
  obtain ⟨rfl, rfl, rfl⟩ : L = L1 ∧ zones = zones1 ∧ m = m1 := by simpa using h1
  obtain ⟨m3, e1, e2, e3⟩ := C68_solved_partial (A := angleAt L) (minimal := gz.minimalAngle) (diagonal_tidy hB h) m
  have hm : m3 = m := by
    funext a va
    by_cases ha : ∀ z ∈ zones (spaceAxis (angleAt L a).plane va), a ∉ z.angles
    · rw [e3 a va ha]
    · push Not at ha
      obtain ⟨z, hz, ha⟩ := ha
      rw [Bool.eq_iff_iff, e2 _ z hz a ha va rfl, c2 _ z hz a ha va rfl]
  rw [e1, hm]

theorem solveAllAngles_congr (A : Nat → BAngle) (t : ℚ) : ∀ {l l' : List Zone} (m : ToMesh),
    l.map (fun z => (z.axis, z.angles)) = l'.map (fun z => (z.axis, z.angles)) → solveAllAngles A t l m = solveAllAngles A t l' m := by
  intro l
  induction l with
  | nil =>
    intro l' m h
    cases l' with
    | nil => rfl
    | cons => simp at h
  | cons z l ih =>
    intro l' m h
    cases l' with
    | nil => simp at h
    | cons z' l' =>
      simp only [List.map_cons, List.cons.injEq, Prod.mk.injEq] at h
      obtain ⟨⟨e1, e2⟩, h⟩ := h
      unfold solveAllAngles
      have : z.solveAngles A t m = z'.solveAngles A t m := by
        unfold Zone.solveAngles
        rw [e1, e2]
      rw [this]
      exact Option.bind_congr fun m _ => ih m h

theorem solveZonesAngles_congr (A : Nat → BAngle) (t : ℚ) {zones zones' : Zones} (m : ToMesh)
    (h : ∀ w, (zones w).map (fun z => (z.axis, z.angles)) = (zones' w).map (fun z => (z.axis, z.angles))) :
    solveZonesAngles A t zones m = solveZonesAngles A t zones' m := by
  unfold solveZonesAngles
  rw [solveAllAngles_congr A t m (h .x)]
  refine Option.bind_congr fun m _ => ?_
  rw [solveAllAngles_congr A t m (h .y)]
  exact Option.bind_congr fun m _ => solveAllAngles_congr A t m (h .z)

/-- The last zone that has the place. -/
theorem last_covering (A : Nat → BAngle) (l : List Zone) (x : ℚ) : (∀ z ∈ l, ¬ Covers A z x) ∨
    ∃ before z after, l = before ++ z :: after ∧ Covers A z x ∧ ∀ w ∈ after, ¬ Covers A w x := by
  induction l with
  | nil => exact Or.inl fun z hz => by cases hz
  | cons z l ih =>
    rcases ih with ih | ⟨b, w, c, rfl, h1, h2⟩
    · by_cases hz : Covers A z x
      · exact Or.inr ⟨[], z, l, rfl, hz, ih⟩
      · exact Or.inl (List.forall_mem_cons.2 ⟨hz, ih⟩)
    · exact Or.inr ⟨z :: b, w, c, rfl, h1, h2⟩

/-- The limit that zones set, the last one that has the place decides. -/
theorem zones_limit {A : Nat → BAngle} {zones : List Zone} {intervals : List Interval} {d : ℚ}
    (h : ∀ z ∈ zones, (∃ lo hi, Reaches A z lo hi) ∧ z.intervals = []) (hd : ∀ i ∈ intervals, i.dmax = d) :
    ∃ lim : ℚ → ℚ, solveAllIntervals (zones.map (filled A intervals)) intervals = intervals.map (fun i => { i with dmax := lim i.m }) ∧
      (∀ x, (∀ z ∈ zones, ¬ Covers A z x) → lim x = d) ∧
      (∀ before z after x, zones = before ++ z :: after → Covers A z x → (∀ w ∈ after, ¬ Covers A w x) → lim x = z.dmax) ∧
      ∀ x, lim x = d ∨ ∃ before z after, zones = before ++ z :: after ∧ Covers A z x ∧ (∀ w ∈ after, ¬ Covers A w x) ∧ lim x = z.dmax := by
  classical
  have huniq : ∀ (l : List Zone) x before z after before' z' after', l = before ++ z :: after → Covers A z x →
      (∀ w ∈ after, ¬ Covers A w x) → l = before' ++ z' :: after' → Covers A z' x → (∀ w ∈ after', ¬ Covers A w x) →
      z.dmax = z'.dmax := by
    intro l x before z after before' z' after' e hz ha e' hz' ha'
    rw [e] at e'
    rcases List.append_eq_append_iff.1 e' with ⟨c, h1, h2⟩ | ⟨c, h1, h2⟩
    · cases c with
      | nil => simp at h2; rw [h2.1]
      | cons w c =>
        simp only [List.cons_append, List.cons.injEq] at h2
        exact absurd hz' (ha z' (by rw [h2.2]; simp))
    · cases c with
      | nil => simp at h2; rw [h2.1]
      | cons w c =>
        simp only [List.cons_append, List.cons.injEq] at h2
        exact absurd hz (ha' z (by rw [h2.2]; simp))
  choose! f hf using fun x (h : ¬ ∀ z ∈ zones, ¬ Covers A z x) =>
    show ∃ v : ℚ, ∃ before z after, zones = before ++ z :: after ∧ Covers A z x ∧ (∀ w ∈ after, ¬ Covers A w x) ∧ v = z.dmax by
      obtain ⟨b, z, c, h1, h2, h3⟩ := (last_covering A zones x).resolve_left h
      exact ⟨_, b, z, c, h1, h2, h3, rfl⟩
  have hin : ∀ before z after x, zones = before ++ z :: after → Covers A z x → (∀ w ∈ after, ¬ Covers A w x) →
      (if ∀ z ∈ zones, ¬ Covers A z x then d else f x) = z.dmax := by
    intro before z after x e hz ha
    have hn : ¬ ∀ z ∈ zones, ¬ Covers A z x := fun h => h z (by rw [e]; simp) hz
    rw [if_neg hn]
    obtain ⟨b, z', c, h1, h2, h3, h4⟩ := hf x hn
    rw [h4]
    exact huniq zones x b z' c before z after h1 h2 h3 e hz ha
  obtain ⟨hlen, hget⟩ := solveAllIntervals_eq zones h intervals rfl
  refine ⟨fun x => if ∀ z ∈ zones, ¬ Covers A z x then d else f x, ?_, fun x hx => if_pos hx, hin, ?_⟩
  · apply List.ext_getElem?
    intro n
    rw [List.getElem?_map]
    cases hx : intervals[n]? with
    | none =>
      rw [Option.map_none, List.getElem?_eq_none_iff]
      have := congrArg List.length hlen
      simp only [List.length_map] at this
      rw [this]
      exact List.getElem?_eq_none_iff.1 hx
    | some i =>
      obtain ⟨y, hy, h1, h2⟩ := hget n i hx
      rw [hy, Option.map_some]
      rcases last_covering A zones i.m with hn | ⟨b, z, c, e, hz, ha⟩
      · simp only [h1 hn, if_pos hn, ← hd i (List.mem_of_getElem? hx)]
      · simp only [h2 b z c e hz ha, hin b z c i.m e hz ha]
  · intro x
    by_cases hn : ∀ z ∈ zones, ¬ Covers A z x
    · exact Or.inl (if_pos hn)
    · obtain ⟨b, z, c, h1, h2, h3, h4⟩ := hf x hn
      exact Or.inr ⟨b, z, c, h1, h2, h3, by simp only [if_neg hn]; exact h4⟩

/-- After a run, the dialog of a zone accepted with numbers. Zones are set their numbers, and the run from there on gives what
solving their intervals and meshing give, whether the minimal angle was changed or not. On other axes nothing changes. The run

* never ends when the limit is not positive, and an interval has its middle in the zone and in no zone after it;
* ends when it is positive: lines increase, gaps are within the limits, within the one of the last zone that has the middle of
the interval, and within the global one for an interval the middle of which is in no zone. -/
theorem C96_edited_partial (S : Sorters) {g : MeshParams} (hg : g.InRange) (hl : 0 ≤ g.proximityLimit) {gz : ZoneParams}
    {B : Input} (hz : 0 < gz.diagonalDmax) (hB : Built B) (hA : LinesApart B) {axis : Geom.Axis}
    {E : Nat → BEdge} {a : Mesh.Axis} (h : runSteps S g gz B axis = .ok (E, a)) :
    ∃ d x zs, runToZoneIntervals S g gz B axis = .ok (d, E, x, zs) ∧ runFromZoneIntervals S zs x = .ok a ∧
      ∀ before z after, zs = before ++ z :: after → ∀ (r : ZoneRows) (n : Nat) (D t : ℚ), Spec.Natural r.lmin n →
        Spec.Number r.dmax D → Spec.Number r.minimalAngle t →
      ∃ s y, r.commit z = some (s, y) ∧ (t = z.minimalAngle → s = .solveDiagZonesIntervals) ∧
      (t ≠ z.minimalAngle → s = .solveDiagZonesAngles ∧
        ∀ zones : Zones, zones axis = before ++ y :: after → (∀ w, w ≠ axis → (zones w).map Zone.bare = d.2.1 w) →
          runFromZonesAngles S g gz B d.1 zones d.2.2 axis =
            (runFromZoneIntervals S (before ++ y :: after) x).map (fun b => (E, b)) ∧
          ∀ w, w ≠ axis → runFromZonesAngles S g gz B d.1 zones d.2.2 w = runSteps S g gz B w) ∧
      (D ≤ 0 → (∃ i ∈ x.intervals, Covers (angleAt d.1) z i.m ∧ ∀ w ∈ after, ¬ Covers (angleAt d.1) w i.m) →
        runFromZoneIntervals S (before ++ y :: after) x = .diverges) ∧
      (0 < D → ∃ b, runFromZoneIntervals S (before ++ y :: after) x = .ok b ∧ Increasing b.meshlines ∧
        (∀ D', g.dmax ≤ D' → gz.diagonalDmax ≤ D' → D ≤ D' → GapsAtMost D' b.meshlines) ∧
        (∀ i ∈ x.intervals, ∀ M, (Covers (angleAt d.1) z i.m ∧ (∀ w ∈ after, ¬ Covers (angleAt d.1) w i.m) ∧ M = D ∨
            (∃ w ∈ after, Covers (angleAt d.1) w i.m) ∧ M = gz.diagonalDmax ∨
            ¬ Covers (angleAt d.1) z i.m ∧ (∃ w ∈ before, Covers (angleAt d.1) w i.m) ∧ M = gz.diagonalDmax ∨
            (∀ w ∈ before ++ z :: after, ¬ Covers (angleAt d.1) w i.m) ∧ M = g.dmax) →
          b.meshlines.IsChain fun v v' => (x.get i.before.policy).coord ≤ v → v' ≤ (x.get i.after.policy).coord → v' - v ≤ M) ∧
        (∀ k, (b.Enabled k ↔ x.Enabled k) ∧ ∃ d ≤ (x.get k).d, b.get k = { x.get k with d := d }) ∧
        ∀ k, b.Enabled k → (b.get k).kind = .oneline → (b.get k).coord ∈ b.meshlines) := by
  classical
  obtain ⟨d, asked, b, hd, hE, hasked, hb, h1, h2⟩ := run_split h
  obtain ⟨L, zones, m, new, hdiag, d1, d2, d3, d4, d5⟩ := diagonal_spec hB S.pointers gz
  rw [hd] at hdiag
  obtain rfl := Option.some.inj hdiag
  obtain ⟨asked', ha1, ha2, -⟩ := board_policies (planar hB hA) hE L m axis
  rw [hasked] at ha1
  obtain rfl := Option.some.inj ha1
  obtain ⟨hf, -⟩ := axis_policies g (B.fixed axis) asked ha2
  obtain ⟨hbc, hbs, hbd, hbi, hbm⟩ := merged_ready S.pointers hg hl hf hb
  have hreach : ∀ z ∈ zones axis, (∃ lo hi, Reaches (angleAt L) z lo hi) ∧ z.intervals = [] ∧ z.dmax = gz.diagonalDmax := by
    intro z hz
    obtain ⟨p, va, hw, hz'⟩ := (d2 _ _).1 hz
    obtain ⟨e1, e2, e3, e4⟩ := d3 p va z hz'
    obtain ⟨lo, hi, hsp, -⟩ := (d1 p va).spans z hz'
    exact ⟨⟨lo, hi, p, va, fun a ha => (e4 a ha).2, e3.symm, hsp⟩, e2, e1⟩
  set x := b.detectIntervals S.pointers g with hx
  have hper := detectPerZones_eq (A := angleAt L) (ivs := x.intervals) fun z hz => (hreach z hz).1
  have hxd : ∀ i ∈ x.intervals, i.dmax = g.dmax := by
    intro i hi
    rw [hx] at hi
    simp only [Mesh.Axis.detectIntervals, hbi, List.nil_append] at hi
    exact ((makeIntervals_pairs g _ _).2 i hi).1
  refine ⟨(L, zones, m), x, (zones axis).map (filled (angleAt L) x.intervals), ?_, ?_, ?_⟩
  · unfold runToZoneIntervals
    rw [h1]
    simp only [Outcome.bind]
    rw [← hx, hper]
    rfl
  · unfold runFromIntervals zoneIntervals at h2
    rw [← hx, hper] at h2
    exact h2
  intro before z after hsplit r n D t hn hD ht
  obtain ⟨before0, rest0, e0, rfl, erest⟩ := List.map_eq_append_iff.1 hsplit
  obtain ⟨z0, after0, rfl, rfl, rfl⟩ := List.map_eq_cons_iff.1 erest
  set F := filled (angleAt L) x.intervals with hF
  set y : Zone := { F z0 with lmin := n, dmax := D, minimalAngle := t } with hy
  set y0 : Zone := { z0 with lmin := n, dmax := D, minimalAngle := t } with hy0
  have hyF : y = F y0 := rfl
  have hcov : ∀ (w : Zone) v, Covers (angleAt L) (F w) v ↔ Covers (angleAt L) w v := fun w v => Iff.rfl
  have hcovy : ∀ v, Covers (angleAt L) y0 v ↔ Covers (angleAt L) z0 v := fun v => Iff.rfl
  have hlist : before0.map F ++ y :: after0.map F = (before0 ++ y0 :: after0).map F := by simp [hyF]
  have hmem : ∀ w ∈ before0 ++ y0 :: after0, w = y0 ∨ w ∈ zones axis := by
    intro w hw
    simp only [List.mem_append, List.mem_cons] at hw
    rw [e0]
    simp only [List.mem_append, List.mem_cons]
    tauto
  have hz0 : z0 ∈ zones axis := by rw [e0]; simp
  have hreach' : ∀ w ∈ before0 ++ y0 :: after0, (∃ lo hi, Reaches (angleAt L) w lo hi) ∧ w.intervals = [] := by
    intro w hw
    rcases hmem w hw with rfl | hw
    · exact ⟨(hreach z0 hz0).1, (hreach z0 hz0).2.1⟩
    · exact ⟨(hreach w hw).1, (hreach w hw).2.1⟩
  obtain ⟨lim, hl1, hl2, hl3, hl4⟩ := zones_limit hreach' hxd
  rw [← hF, ← hlist] at hl1
  refine ⟨_, y, (C91_accepted.2.2.2 r (F z0) _ y).2 ⟨rfl, hn, hD, ht, rfl, rfl, rfl⟩, fun e => if_pos e, fun hne => ⟨if_neg hne, ?_⟩, ?_, ?_⟩
  · intro zones' hz1 hz2
    have hz2 : ∀ w, w ≠ axis → (zones' w).map Zone.bare = zones w := hz2
    have hbare : ∀ w ∈ zones axis, Zone.bare (F w) = w := by
      intro w hw
      obtain ⟨-, e, -⟩ := hreach w hw
      show { w with intervals := [] } = w
      rw [← e]
    have hb1 : (zones' axis).map Zone.bare = before0 ++ y0 :: after0 := by
      rw [hz1, hlist, List.map_map]
      conv_rhs => rw [← List.map_id (before0 ++ y0 :: after0)]
      refine List.map_congr_left fun w hw => ?_
      rcases hmem w hw with rfl | hw
      · show { y0 with intervals := [] } = y0
        rw [hy0]
        simp [(hreach z0 hz0).2.1]
      · exact hbare w hw
    have hsolve : solveZonesAngles (angleAt L) gz.minimalAngle zones' m = some m := by
      rw [← zones_again hB hd]
      refine solveZonesAngles_congr _ _ _ fun w => ?_
      by_cases hw : w = axis
      · subst hw
        rw [hz1, e0]
        simp only [List.map_append, List.map_cons, List.map_map]
        rfl
      · rw [← hz2 w hw, List.map_map]
        rfl
    obtain ⟨d', hd', h'⟩ := outcome_bind_ok (show (Outcome.bind _ _) = _ from h)
    obtain rfl : (L, zones, m) = d' := Option.some.inj (hd.symm.trans (orUb_ok hd'))
    obtain ⟨conflicts, hc, h'⟩ := outcome_bind_ok h'
    obtain ⟨E', hE', h'⟩ := outcome_bind_ok h'
    have hE' := orUb_ok hE'
    obtain ⟨asked', hasked', h'⟩ := outcome_bind_ok h'
    obtain ⟨a', -, h'⟩ := outcome_map_ok h'
    obtain ⟨rfl, rfl⟩ := Prod.mk.inj h'
    have hs : ∀ w, runFromZonesAngles S g gz B L zones' m w =
        (Outcome.orUb (boardPolicies B E' L m (detectAllColinear B) w)).bind fun asked =>
          (finishAxis S g (angleAt L) ((zones' w).map Zone.bare) (axisPolicies g (B.fixed w) asked)).map fun a => (E', a) := by
      intro w
      unfold runFromZonesAngles
      rw [hsolve, hc]
      simp only [Outcome.orUb, Outcome.bind]
      rw [hE']
    refine ⟨?_, fun w hw => ?_⟩
    · rw [hs, hasked, hb1]
      simp only [Outcome.orUb, Outcome.bind]
      unfold finishAxis
      rw [hb]
      simp only [Outcome.orDiverges, Outcome.bind]
      rw [← hx]
      unfold zoneIntervals
      rw [detectPerZones_eq fun w hw => (hreach' w hw).1, ← hF, ← hlist]
      rfl
    · rw [hs, hz2 w hw]
      unfold runSteps
      rw [hd, hc]
      simp only [Outcome.orUb, Outcome.bind]
      rw [hE']
  · rintro hD0 ⟨i, hi, hc, hno⟩
    have hready := detect_ready S.pointers hg hbc hbs hbd hbi hbm (fun _ => 1) fun _ => one_pos
    rw [← hx] at hready
    have hok : ∀ i ∈ x.intervals, Interval.Ok { i with dmax := 1 } x.get := fun i hi => hready.ok _ (List.mem_map_of_mem hi)
    unfold runFromZoneIntervals runFromMesh
    rw [hl1, mesh_stuck_interval]
    · rfl
    · intro j hj
      obtain ⟨i, hi, rfl⟩ := List.mem_map.1 hj
      have o := hok i hi
      by_cases hpos : 0 < lim i.m
      · exact Or.inl ⟨hpos, o.distinct, o.coord_lt, o.h_eq, o.m_eq, o.smooth_b, o.smooth_a, o.d_b, o.d_a⟩
      · exact Or.inr ⟨o.d_b, o.d_a, Or.inl (not_lt.1 hpos)⟩
    · refine ⟨_, List.mem_map_of_mem hi, (hok i hi).d_b, (hok i hi).d_a, Or.inl ?_⟩
      show lim i.m ≤ 0
      rw [hl3 before0 y0 after0 i.m rfl ((hcovy _).2 ((hcov _ _).1 hc)) fun w hw => fun hc => hno _ (List.mem_map_of_mem hw) hc]
      exact hD0
  · intro hD0
    have hdm : ∀ w ∈ before0 ++ y0 :: after0, w.dmax = D ∨ w.dmax = gz.diagonalDmax := by
      intro w hw
      rcases hmem w hw with rfl | hw
      · exact Or.inl rfl
      · exact Or.inr (hreach w hw).2.2
    have hlim : ∀ v, lim v = g.dmax ∨ lim v = D ∨ lim v = gz.diagonalDmax := by
      intro v
      rcases hl4 v with e | ⟨b1, w, c1, e, -, -, e'⟩
      · exact Or.inl e
      · rw [e']; exact Or.inr (hdm w (by rw [e]; simp))
    have hpos : ∀ v, 0 < lim v := by
      intro v
      rcases hlim v with e | e | e <;> rw [e]
      · exact hg.dmax_pos
      · exact hD0
      · exact hz
    have hready := detect_ready S.pointers hg hbc hbs hbd hbi hbm lim hpos
    rw [← hx] at hready
    have hle : ∀ D', g.dmax ≤ D' → gz.diagonalDmax ≤ D' → D ≤ D' →
        ∀ j ∈ x.intervals.map (fun i => ({ i with dmax := lim i.m } : Interval)), j.dmax ≤ D' := by
      intro D' q1 q2 q3 j hj
      obtain ⟨i, hi, rfl⟩ := List.mem_map.1 hj
      show lim i.m ≤ D'
      rcases hlim i.m with e | e | e <;> rw [e] <;> assumption
    have hmax : 0 < max g.dmax (max gz.diagonalDmax D) := lt_max_of_lt_left hg.dmax_pos
    obtain ⟨c, hc, hinc, -, hsame, hone, hgap⟩ := hready.mesh S.intervals S.lines hmax
      (hle _ (le_max_left _ _) ((le_max_left _ _).trans (le_max_right _ _)) ((le_max_right _ _).trans (le_max_right _ _)))
    refine ⟨c, ?_, hinc, ?_, ?_, hsame, ?_⟩
    · unfold runFromZoneIntervals runFromMesh
      rw [hl1, hc]
      rfl
    · intro D' q1 q2 q3
      obtain ⟨c', hc', -, hg', -⟩ := hready.mesh S.intervals S.lines (hg.dmax_pos.trans_le q1) (hle D' q1 q2 q3)
      rw [hc] at hc'
      obtain rfl := Option.some.inj hc'
      exact hg'
    · intro i hi M hM
      have hMl : lim i.m = M := by
        have hafter : (∃ w ∈ after0, Covers (angleAt L) w i.m) → lim i.m = gz.diagonalDmax := by
          rintro ⟨w, hw, hc⟩
          rcases last_covering (angleAt L) after0 i.m with hno | ⟨b1, w1, c1, e, h1, h2⟩
          · exact absurd hc (hno w hw)
          · rw [hl3 (before0 ++ y0 :: b1) w1 c1 i.m (by rw [e]; simp) h1 h2]
            exact (hreach w1 (by rw [e0, e]; simp)).2.2
        rcases hM with ⟨q1, q2, rfl⟩ | ⟨⟨w, hw, hc⟩, rfl⟩ | ⟨q1, ⟨w, hw, hc⟩, rfl⟩ | ⟨q1, rfl⟩
        · exact hl3 before0 y0 after0 i.m rfl ((hcovy _).2 ((hcov _ _).1 q1)) fun w hw => fun hc => q2 _ (List.mem_map_of_mem hw) hc
        · obtain ⟨w0, hw0, rfl⟩ := List.mem_map.1 hw
          exact hafter ⟨w0, hw0, hc⟩
        · obtain ⟨w0, hw0, rfl⟩ := List.mem_map.1 hw
          by_cases ha : ∃ w ∈ after0, Covers (angleAt L) w i.m
          · exact hafter ha
          · push Not at ha
            rcases last_covering (angleAt L) before0 i.m with hno | ⟨b1, w1, c1, e, h1, h2⟩
            · exact absurd hc (hno w0 hw0)
            · rw [hl3 b1 w1 (c1 ++ y0 :: after0) i.m (by rw [e]; simp) h1 ?_]
              · exact (hreach w1 (by rw [e0, e]; simp)).2.2
              · intro w hw
                simp only [List.mem_append, List.mem_cons] at hw
                rcases hw with hw | rfl | hw
                · exact h2 w hw
                · exact q1
                · exact ha w hw
        · refine hl2 _ fun w hw => ?_
          have : F w ∈ (before0 ++ y0 :: after0).map F := List.mem_map_of_mem hw
          simp only [List.mem_append, List.mem_cons] at hw
          rcases hw with hw | rfl | hw
          · exact q1 (F w) (List.mem_append_left _ (List.mem_map_of_mem hw))
          · exact q1 (F z0) (by simp)
          · exact q1 (F w) (List.mem_append_right _ (List.mem_cons_of_mem _ (List.mem_map_of_mem hw)))
      rw [← hMl]
      exact hgap _ (List.mem_map_of_mem hi)
    · intro k hk hk1
      obtain ⟨he, d, -, e⟩ := hsame k
      rw [e] at hk1 ⊢
      exact hone k (he.1 hk) hk1

/-- Zones have the parameters they were made with. -/
def Parametrised (g : ZoneParams) (zones : Zones) : Prop :=
  ∀ w, ∀ z ∈ zones w, z.dmax = g.diagonalDmax ∧ z.lmin = g.lmin ∧ z.minimalAngle = g.minimalAngle

theorem addZone_params (S : Sorter Nat) (A : Nat → BAngle) (g : ZoneParams) {zones : Zones} (h : Parametrised g zones)
    (axis : Geom.Axis) (angles : List Nat) : Parametrised g (addZone S A g zones axis angles) := by
  intro w z hz
  unfold addZone at hz
  cases angles with
  | nil => exact h w z hz
  | cons first rest =>
    simp only at hz
    split_ifs at hz
    · cases hv : transposeAxis (A first).plane axis with
      | none =>
        rw [hv] at hz
        exact h w z hz
      | some va =>
        rw [hv] at hz
        simp only at hz
        split_ifs at hz
        · rcases List.mem_append.1 hz with hz | hz
          · exact h w z hz
          · rw [List.mem_singleton.1 hz]
            exact ⟨rfl, rfl, rfl⟩
        · exact h w z hz
    · exact h w z hz

theorem foldZone_params (S : Sorter Nat) (A : Nat → BAngle) (g : ZoneParams) (axis : Geom.Axis) (found : List (List Nat)) :
    ∀ {zones : Zones}, Parametrised g zones →
      Parametrised g (found.foldl (fun zones angles => addZone S A g zones axis angles) zones) := by
  induction found with
  | nil => exact fun h => h
  | cons x l ih => exact fun h => ih (addZone_params S A g h axis x)

theorem detectZones_params {S : Sorter Nat} {A : Nat → BAngle} {g : ZoneParams} {plane : Plane} {edges : List BEdge}
    {angles : List Nat} {zones r : Zones} (hr : detectZones S A g plane edges angles zones = some r) (h : Parametrised g zones) :
    Parametrised g r := by
  unfold detectZones detectZonesOn at hr
  obtain ⟨x, hx, hr⟩ := Option.bind_eq_some_iff.1 hr
  obtain ⟨f, hf, rfl⟩ := Option.map_eq_some_iff.1 hx
  simp only [Option.map_map, Option.map_eq_some_iff] at hr
  obtain ⟨k, hk, rfl⟩ := hr
  exact foldZone_params S A g _ _ (foldZone_params S A g _ _ h)

theorem detectAllZones_params {S : Sorter Nat} {A : Nat → BAngle} {g : ZoneParams} {edges : Plane → List BEdge}
    {angles : Plane → List Nat} {r : Zones} (hr : detectAllZones S A g edges angles = some r) : Parametrised g r := by
  unfold detectAllZones at hr
  obtain ⟨x, hx, hr⟩ := Option.bind_eq_some_iff.1 hr
  obtain ⟨y, hy, hr⟩ := Option.bind_eq_some_iff.1 hr
  exact detectZones_params hr (detectZones_params hy (detectZones_params hx fun w z hz => by cases hz))

theorem diagonal_params {S : Sorter Nat} {gz : ZoneParams} {B : Input} {L : List BAngle} {zones : Zones} {m : ToMesh}
    (h : diagonalSteps S gz B = some (L, zones, m)) : Parametrised gz zones := by
  unfold diagonalSteps at h
  obtain ⟨L', e1, h⟩ := Option.bind_eq_some_iff.1 h
  obtain ⟨z', e2, h⟩ := Option.bind_eq_some_iff.1 h
  obtain ⟨m', e3, h⟩ := Option.map_eq_some_iff.1 h
  obtain ⟨rfl, rfl, rfl⟩ : L' = L ∧ z' = zones ∧ m' = m := by simpa using h
  exact detectAllZones_params e2

theorem mapM_some_mem {α β : Type} {f : α → Option β} : ∀ {l : List α} {r : List β}, l.mapM f = some r → ∀ {y}, y ∈ r → ∃ x ∈ l, f x = some y := by
  intro l
  induction l with
  | nil =>
    intro r h y hy
    rw [List.mapM_nil] at h
    obtain rfl := Option.some.inj h
    cases hy
  | cons x l ih =>
    intro r h y hy
    rw [List.mapM_cons] at h
    obtain ⟨v, hv, h⟩ := Option.bind_eq_some_iff.1 h
    obtain ⟨vs, hvs, h⟩ := Option.bind_eq_some_iff.1 h
    obtain rfl := Option.some.inj h
    rcases List.mem_cons.1 hy with rfl | hy
    · exact ⟨x, List.mem_cons_self .., hv⟩
    · obtain ⟨x', hx', e⟩ := ih hvs hy
      exact ⟨x', List.mem_cons_of_mem _ hx', e⟩

/-- After a run, the dialog of a zone accepted as it was shown gives the same mesh, when the parameters of zones have no more than
six digits. -/
theorem C96_unchanged_partial (S : Sorters) {g : MeshParams} {gz : ZoneParams} (h1 : Spec.SixDigits gz.diagonalDmax)
    (h2 : Spec.SixDigits gz.minimalAngle) (h3 : gz.lmin < 2 ^ 64) {B : Input} {axis : Geom.Axis}
    {E : Nat → BEdge} {a : Mesh.Axis} (h : runSteps S g gz B axis = .ok (E, a)) :
    ∃ d x zs, runToZoneIntervals S g gz B axis = .ok (d, E, x, zs) ∧
      ∀ before z after, zs = before ++ z :: after →
        ∃ y, (ZoneRows.shown z).commit z = some (.solveDiagZonesIntervals, y) ∧
          runFromZoneIntervals S (before ++ y :: after) x = .ok a := by
  obtain ⟨⟨L, zones, m⟩, asked, b, hd, hE, hasked, hb, e1, e2⟩ := run_split h
  obtain ⟨zs, hzs⟩ : ∃ zs, detectPerZones (angleAt L) (b.detectIntervals S.pointers g).intervals (zones axis) = some zs := by
    unfold runFromIntervals zoneIntervals at e2
    cases hper : detectPerZones (angleAt L) (b.detectIntervals S.pointers g).intervals (zones axis) with
    | none => rw [hper] at e2; cases e2
    | some zs => exact ⟨zs, rfl⟩
  refine ⟨(L, zones, m), b.detectIntervals S.pointers g, zs, ?_, ?_⟩
  · unfold runToZoneIntervals
    rw [e1]
    simp only [Outcome.bind]
    rw [hzs]
    rfl
  · intro before z after hsplit
    have hp : z.dmax = gz.diagonalDmax ∧ z.lmin = gz.lmin ∧ z.minimalAngle = gz.minimalAngle := by
      obtain ⟨w, hw, hzw⟩ := mapM_some_mem hzs (show z ∈ zs by rw [hsplit]; simp)
      obtain ⟨p, -, rfl⟩ := Option.map_eq_some_iff.1 hzw
      exact diagonal_params hd axis w hw
    refine ⟨z, C91_unchanged_partial.2.2.1 z (hp.1 ▸ h1) (hp.2.2 ▸ h2) (hp.2.1 ▸ h3), ?_⟩
    rw [← hsplit]
    unfold runFromIntervals zoneIntervals at e2
    rw [hzs] at e2
    exact e2

/-- A shape with two slanted sides one after the other, bent by 45. -/
def roofBoard : Input where
  polygons
    | .xy => [0]
    | _ => []
  P _ := ⟨[⟨0, 0⟩, ⟨0, 6⟩, ⟨10, 6⟩, ⟨6, 2⟩], [(0, ⟨⟨6, 2⟩, ⟨0, 0⟩⟩), (1, ⟨⟨0, 0⟩, ⟨0, 6⟩⟩), (2, ⟨⟨0, 6⟩, ⟨10, 6⟩⟩),
      (3, ⟨⟨10, 6⟩, ⟨6, 2⟩⟩)], 0, 1, 1⟩
  E n := (([(0, ⟨.xy, ⟨⟨6, 2⟩, ⟨0, 0⟩⟩, .none, true, false⟩), (1, ⟨.xy, ⟨⟨0, 0⟩, ⟨0, 6⟩⟩, .xmin, true, false⟩),
    (2, ⟨.xy, ⟨⟨0, 6⟩, ⟨10, 6⟩⟩, .ymax, true, false⟩), (3, ⟨.xy, ⟨⟨10, 6⟩, ⟨6, 2⟩⟩, .none, true, false⟩)] :
    List (Nat × BEdge)).lookup n).getD ⟨.yz, ⟨⟨0, 0⟩, ⟨0, 0⟩⟩, .none, true, false⟩
  fixed _ := []
  angle _ := 45

theorem roof_built : Built roofBoard ∧ LinesApart roofBoard := by
  refine ⟨⟨?_, ?_, ?_, ?_, ?_⟩, ⟨?_, ?_⟩⟩
  · intro p; cases p <;> decide +kernel
  · intro p; cases p <;> decide +kernel
  · intro p; cases p <;> decide +kernel
  · intro p; unfold SameLine Horizontal Vertical; cases p <;> decide +kernel
  · intro p; cases p <;> decide +kernel
  · intro p; unfold Horizontal; cases p <;> decide +kernel
  · intro p; unfold Vertical; cases p <;> decide +kernel

/-- The limits for the run below. -/
def roofParams : MeshParams := ⟨0, 1, 1, 2⟩

/-- The limits on zones for the run below. -/
def roofZones : ZoneParams := ⟨1, 2, 1, 20⟩

/-- The zone of the shape along x, at the end of a run. -/
def roofZone : Zone := ⟨.x, 1, 1, 20, [1, 0, 2], [0, 1]⟩

theorem roof_run : ∃ d E x a, runToZoneIntervals plainSorters roofParams roofZones roofBoard .x = .ok (d, E, x, [roofZone]) ∧
    runSteps plainSorters roofParams roofZones roofBoard .x = .ok (E, a) ∧
    d.1 = [⟨.xy, ⟨6, 2⟩, 45⟩, ⟨.xy, ⟨0, 0⟩, 45⟩, ⟨.xy, ⟨10, 6⟩, 45⟩] ∧ a.enabledPointers = [1, 3, 4] ∧ (a.get 1).coord = 6 ∧
    x.intervals.map Interval.m = [3, 8] := by
  have h : ((runToIntervalsF 9 plainSorters roofParams roofZones roofBoard .x).bind fun r =>
      (Outcome.orUb (detectPerZones (angleAt r.1.1) (r.2.2.detectIntervals plainSorters.pointers roofParams).intervals
        (r.1.2.1 .x))).bind fun zs =>
      (runFromIntervalsF 60 plainSorters roofParams (angleAt r.1.1) (r.1.2.1 .x) r.2.2).map fun a =>
        decide (zs = [roofZone] ∧ r.1.1 = [⟨.xy, ⟨6, 2⟩, 45⟩, ⟨.xy, ⟨0, 0⟩, 45⟩, ⟨.xy, ⟨10, 6⟩, 45⟩] ∧
          a.enabledPointers = [1, 3, 4] ∧ (a.get 1).coord = 6 ∧
          (r.2.2.detectIntervals plainSorters.pointers roofParams).intervals.map Interval.m = [3, 8])) = .ok true := by decide +kernel
  obtain ⟨⟨d, E, b⟩, h1, h⟩ := outcome_bind_ok h
  obtain ⟨zs, h2, h⟩ := outcome_bind_ok h
  obtain ⟨a, h3, h⟩ := outcome_map_ok h
  obtain ⟨rfl, e1, e2, e3, e4⟩ := of_decide_eq_true h
  refine ⟨d, E, _, a, ?_, run_join (to_computed h1) (from_computed h3), e1, e2, e3, e4⟩
  unfold runToZoneIntervals
  rw [to_computed h1]
  simp only [Outcome.bind]
  rw [h2]
  rfl

theorem roof_covers {L : List BAngle} (h : L = [⟨.xy, ⟨6, 2⟩, 45⟩, ⟨.xy, ⟨0, 0⟩, 45⟩, ⟨.xy, ⟨10, 6⟩, 45⟩]) {x : ℚ} (h0 : 0 ≤ x)
    (h1 : x ≤ 10) : Covers (angleAt L) roofZone x := by
  subst h
  refine ⟨0, 10, ⟨.xy, .h, ?_, rfl, ⟨1, rfl, rfl⟩, ⟨2, rfl, rfl⟩, ?_⟩, h0, h1⟩
  · decide +kernel
  · decide +kernel

/-- Not so in general: with the shape above, the run never ends once the limit of the zone along x is set to 0; and the bend of
45, inside the zone, is meshed as before once the minimal angle of the zone is set to 90. -/
theorem C96_false : ∃ (S : Sorters) (g : MeshParams) (gz : ZoneParams) (B : Input) (axis : Geom.Axis), g.InRange ∧
    0 ≤ g.proximityLimit ∧ 0 < gz.diagonalDmax ∧ Built B ∧ LinesApart B ∧ ∃ d E x z a, runSteps S g gz B axis = .ok (E, a) ∧
      runToZoneIntervals S g gz B axis = .ok (d, E, x, [z]) ∧
      (∃ y, ZoneRows.commit { ZoneRows.shown z with dmax := ['0'] } z = some (.solveDiagZonesIntervals, y) ∧
        runFromZoneIntervals S [y] x = .diverges) ∧
      ∃ y q k, ZoneRows.commit { ZoneRows.shown z with minimalAngle := "90".toList } z = some (.solveDiagZonesAngles, y) ∧
        q ∈ z.angles ∧ z.angles.head? ≠ some q ∧ z.angles.getLast? ≠ some q ∧ (angleAt d.1 q).angle < y.minimalAngle ∧
        (∀ zones : Zones, zones axis = [y] → (∀ w, w ≠ axis → (zones w).map Zone.bare = d.2.1 w) →
          runFromZonesAngles S g gz B d.1 zones d.2.2 axis = .ok (E, a)) ∧
        a.Enabled k ∧ (a.get k).coord = (angleAt d.1 q).p.x := by
  obtain ⟨d, E, x, a, h1, h2, h3, h4, h5, h6⟩ := roof_run
  obtain ⟨d', x', zs', h1', h7, hed⟩ := C96_edited_partial plainSorters (g := roofParams) ⟨by norm_num [roofParams],
    by norm_num [roofParams]⟩ (by norm_num [roofParams]) (gz := roofZones) (by norm_num [roofZones]) roof_built.1 roof_built.2 h2
  rw [h1] at h1'
  have := Outcome.ok.inj h1'
  simp only [Prod.mk.injEq, true_and] at this
  obtain ⟨rfl, rfl, rfl⟩ := this
  have n1 : Spec.Natural (ZoneRows.shown roofZone).lmin 1 := (toULong_iff _ _).1 (by decide +kernel)
  have n2 : Spec.Number (ZoneRows.shown roofZone).dmax 1 := (toDouble_iff _ _).1 (by decide +kernel)
  have n3 : Spec.Number (ZoneRows.shown roofZone).minimalAngle 20 := (toDouble_iff _ _).1 (by decide +kernel)
  have z0 : Spec.Number ['0'] 0 := (toDouble_iff _ _).1 (by decide +kernel)
  have z9 : Spec.Number "90".toList 90 := (toDouble_iff _ _).1 (by decide +kernel)
  refine ⟨plainSorters, roofParams, roofZones, roofBoard, .x, ⟨by norm_num [roofParams], by norm_num [roofParams]⟩,
    by norm_num [roofParams], by norm_num [roofZones], roof_built.1, roof_built.2, d, E, x, roofZone, a, h2, h1, ?_, ?_⟩
  · obtain ⟨s, y, hs, e1, -, hdiv, -⟩ := hed [] roofZone [] rfl { ZoneRows.shown roofZone with dmax := ['0'] } 1 0 20 n1 z0 n3
    obtain rfl := e1 rfl
    refine ⟨y, hs, hdiv le_rfl ?_⟩
    have : (3 : ℚ) ∈ x.intervals.map Interval.m := by rw [h6]; simp
    obtain ⟨i, hi, e⟩ := List.mem_map.1 this
    exact ⟨i, hi, e.symm ▸ roof_covers h3 (by norm_num) (by norm_num), by simp⟩
  · obtain ⟨s, y, hs, -, e1, -, -⟩ := hed [] roofZone [] rfl { ZoneRows.shown roofZone with minimalAngle := "90".toList } 1 1 90 n1 n2
      z9
    obtain ⟨rfl, hrun⟩ := e1 (by decide +kernel)
    obtain ⟨-, -, q1, q2, q3, q4, q5⟩ := (C91_accepted.2.2.2 _ _ _ _).1 hs
    have q1 : y.dmax = 1 := Option.some.inj (((toDouble_iff _ _).2 q1).symm.trans ((toDouble_iff _ _).2 n2))
    have q2 : y.minimalAngle = 90 := Option.some.inj (((toDouble_iff _ _).2 q2).symm.trans ((toDouble_iff _ _).2 z9))
    refine ⟨y, 0, 1, hs, by decide, by decide, by decide, ?_, ?_, ?_, ?_⟩
    · rw [h3, q2]; norm_num [angleAt]
    · intro zones hz1 hz2
      rw [(hrun zones hz1 hz2).1]
      have : runFromZoneIntervals plainSorters ([] ++ y :: []) x = runFromZoneIntervals plainSorters [roofZone] x := by
        unfold runFromZoneIntervals solveAllIntervals
        simp only [List.nil_append, List.foldl_cons, List.foldl_nil, Zone.solveIntervals, q1, q5]
        rfl
      rw [this, h7]
      rfl
    · exact mem_enabledPointers.1 (by rw [h4]; simp)
    · rw [h3, h5]; rfl

/-- The zone of the shape above, set to cells of at most 0.5: the run ends with such cells from 0 to 6. -/
example : ∃ d E x a y b, runSteps plainSorters roofParams roofZones roofBoard .x = .ok (E, a) ∧
    runToZoneIntervals plainSorters roofParams roofZones roofBoard .x = .ok (d, E, x, [roofZone]) ∧
    ZoneRows.commit { ZoneRows.shown roofZone with dmax := "0.5".toList } roofZone = some (.solveDiagZonesIntervals, y) ∧
    runFromZoneIntervals plainSorters [y] x = .ok b ∧ Increasing b.meshlines ∧
    ∃ i ∈ x.intervals, i.m = 3 ∧ b.meshlines.IsChain fun v v' => (x.get i.before.policy).coord ≤ v →
      v' ≤ (x.get i.after.policy).coord → v' - v ≤ 1 / 2 := by
  obtain ⟨d, E, x, a, h1, h2, h3, h4, h5, h6⟩ := roof_run
  obtain ⟨d', x', zs', h1', h7, hed⟩ := C96_edited_partial plainSorters (g := roofParams) ⟨by norm_num [roofParams],
    by norm_num [roofParams]⟩ (by norm_num [roofParams]) (gz := roofZones) (by norm_num [roofZones]) roof_built.1 roof_built.2 h2
  rw [h1] at h1'
  have := Outcome.ok.inj h1'
  simp only [Prod.mk.injEq, true_and] at this
  obtain ⟨rfl, rfl, rfl⟩ := this
  obtain ⟨s, y, hs, e1, -, -, hok⟩ := hed [] roofZone [] rfl { ZoneRows.shown roofZone with dmax := "0.5".toList } 1 (1 / 2) 20
    ((toULong_iff _ _).1 (by decide +kernel)) ((toDouble_iff _ _).1 (by decide +kernel)) ((toDouble_iff _ _).1 (by decide +kernel))
  obtain rfl := e1 rfl
  obtain ⟨b, hb, hinc, -, hgap, -⟩ := hok (by norm_num)
  have : (3 : ℚ) ∈ x.intervals.map Interval.m := by rw [h6]; simp
  obtain ⟨i, hi, e⟩ := List.mem_map.1 this
  exact ⟨d, E, x, a, y, b, h2, h1, hs, hb, hinc, i, hi, e, hgap i hi _ (Or.inl ⟨e.symm ▸ roof_covers h3 (by norm_num) (by norm_num),
    by simp, rfl⟩)⟩

/-- The same zone, accepted as it was shown. -/
example : ∃ d E x a y, runSteps plainSorters roofParams roofZones roofBoard .x = .ok (E, a) ∧
    runToZoneIntervals plainSorters roofParams roofZones roofBoard .x = .ok (d, E, x, [roofZone]) ∧
    (ZoneRows.shown roofZone).commit roofZone = some (.solveDiagZonesIntervals, y) ∧
    runFromZoneIntervals plainSorters [y] x = .ok a := by
  obtain ⟨d, E, x, a, h1, h2, -⟩ := roof_run
  obtain ⟨d', x', zs', h1', hun⟩ := C96_unchanged_partial plainSorters (gz := roofZones) ⟨1, by norm_num, 0, by norm_num [roofZones]⟩
    ⟨20, by norm_num, 0, by norm_num [roofZones]⟩ (by norm_num [roofZones]) h2
  rw [h1] at h1'
  have := Outcome.ok.inj h1'
  simp only [Prod.mk.injEq, true_and] at this
  obtain ⟨rfl, rfl, rfl⟩ := this
  obtain ⟨y, hy, hb⟩ := hun [] roofZone [] rfl
  exact ⟨d, E, x, a, y, h2, h1, hy, hb⟩

end Verif.Board
