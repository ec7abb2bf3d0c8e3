import Verif.Lemmas.Final
import Verif.Props.Structure

/-!
# C71, C135: the `d` a policy is left with, and the lines drawn around it
-/

namespace Verif.Mesh
open Spec List

/-- What `mesh_final` gives for a fresh axis. -/
theorem fresh_final (S : Sorter Nat) (S' : Sorter Interval) (T : Sorter ℚ) (g : MeshParams) (a : Axis)
    (hg : g.InRange) (hs : a.Separated) (hd : a.PositiveD) (hi : a.intervals = [])
    (hm : a.meshlines = []) (b : Axis) (hb : (a.detectIntervals S g).mesh S' T = some b) (k : Nat) (hk : a.Enabled k)
    (hone : (a.get k).kind ≠ .oneline) :
    0 < (b.get k).d ∧ (∀ y ∈ b.meshlines, (a.get k).coord < y → (∃ j, a.Enabled j ∧ (a.get k).coord < (a.get j).coord) →
      (a.get k).coord + kBefore (a.get k) * (b.get k).d ≤ y) ∧
    (∀ y ∈ b.meshlines, y < (a.get k).coord → (∃ j, a.Enabled j ∧ (a.get j).coord < (a.get k).coord) →
      y ≤ (a.get k).coord - kAfter (a.get k) * (b.get k).d) ∧
    ((∃ j, a.Enabled j ∧ (a.get j).coord ≠ (a.get k).coord) →
      (a.get k).coord + kBefore (a.get k) * (b.get k).d ∈ b.meshlines ∨
      (a.get k).coord - kAfter (a.get k) * (b.get k).d ∈ b.meshlines) := by
  obtain ⟨ps, hlow, hpol, hcf, hml, hok, hpairs⟩ := detectIntervals_spec (S := S) hg hs hd hi
  have hperm := S.perm (fun i => (a.get i).coord) a.enabledPointers
  have hchain := sorted_chain (S := S) hs
  set x := a.detectIntervals S g with hx
  have hlen : x.policies.length = a.policies.length := by
    rw [hpol]; simp [Axis.withPolicies, Axis.pointers]
  have hget : ∀ k, k < a.policies.length → x.get k = ps k := by
    intro k hk
    have : x.get k = (a.withPolicies ps).get k := by unfold Axis.get; rw [hpol]
    rw [this, withPolicies_get hk]
  have honly : OnlyD a.get x.get := by
    intro k
    by_cases hk : k < a.policies.length
    · exact ⟨(ps k).d, by rw [hget k hk]; exact hlow.same k⟩
    · refine ⟨(a.get k).d, ?_⟩
      simp [Axis.get, hk, hlen]
  have hcoord : ∀ k, (x.get k).coord = (a.get k).coord := fun k => by obtain ⟨d, h⟩ := honly k; rw [h]
  have hkind : ∀ k, (x.get k).kind = (a.get k).kind := fun k => by obtain ⟨d, h⟩ := honly k; rw [h]
  have hnorm : ∀ k, (x.get k).normal = (a.get k).normal := fun k => by obtain ⟨d, h⟩ := honly k; rw [h]
  have hpe : x.enabledPointers = a.enabledPointers := by
    unfold Axis.enabledPointers Axis.pointers
    rw [hlen]
    refine List.filter_congr fun k _ => ?_
    obtain ⟨d, hd⟩ := honly k
    rw [hd]
  have hen : ∀ k, x.Enabled k ↔ a.Enabled k := fun k => by
    rw [← mem_enabledPointers, hpe, mem_enabledPointers]
  have := mesh_final (S := S') (T := T) (x := x) (b := b) (o := S.sort (fun i => (a.get i).coord) a.enabledPointers)
    (by rw [hpe]; exact hperm) (hchain.imp fun i j h => by rw [hcoord, hcoord]; exact h.2) hpairs (fun i hi => (hok i hi).1)
    (by rw [hml, hm]) hb k ((hen k).2 hk) (by rw [hkind]; exact hone)
  simp only [hen, hcoord, kBefore_congr (hkind k) (hnorm k), kAfter_congr (hkind k) (hnorm k)] at this
  refine ⟨this.1 ?_, this.2⟩
  rw [hget k (enabled_iff.1 hk).1]
  exact hlow.pos k (hd k hk)

/-- C71, the size of the cells. Around an enabled policy that is not ONELINE, the line next above is at its share of a cell
that is at least the `d` the policy is left with, and so is the line next below; one of the two cells is this very `d`.
Missing: the other cell can be larger, see `C71_false`. -/
theorem C71_left_partial (S : Sorter Nat) (S' : Sorter Interval) (T : Sorter ℚ) (g : MeshParams) (a : Axis)
    (hg : g.InRange) (hc : a.Coherent) (hs : a.Separated) (hd : a.PositiveD) (hi : a.intervals = [])
    (hm : a.meshlines = []) :
    ∃ b, (a.detectIntervals S g).mesh S' T = some b ∧ ∀ k, a.Enabled k → (a.get k).kind ≠ .oneline →
      ((∃ j, a.Enabled j ∧ (a.get k).coord < (a.get j).coord) → ∃ d, (b.get k).d ≤ d ∧
        NextAbove b.meshlines (a.get k).coord ((1 - (a.get k).lowShare) * d)) ∧
      ((∃ j, a.Enabled j ∧ (a.get j).coord < (a.get k).coord) → ∃ d, (b.get k).d ≤ d ∧
        NextBelow b.meshlines (a.get k).coord ((a.get k).lowShare * d)) ∧
      ((∃ j, a.Enabled j ∧ j ≠ k) →
        NextAbove b.meshlines (a.get k).coord ((1 - (a.get k).lowShare) * (b.get k).d) ∨
        NextBelow b.meshlines (a.get k).coord ((a.get k).lowShare * (b.get k).d)) := by
  obtain ⟨b, hb, h⟩ := C71_sides_partial S S' T g a hg hc hs hd hi hm
  obtain ⟨b', hb', -, -, hbetween, -⟩ := C24_axis_mesh S S' T g a hg hc hs hd hi hm
  have : b' = b := Option.some.inj (hb'.symm.trans hb)
  subst this
  refine ⟨b', hb, fun k hk hone => ?_⟩
  obtain ⟨-, h1, h2⟩ := h k hk hone
  obtain ⟨hd', f1, f2, f3⟩ := fresh_final S S' T g a hg hs hd hi hm b' hb k hk hone
  have hsb := kBefore_share (coherent_get hc k) hone
  have hsa := kAfter_share (coherent_get hc k) hone
  have hpb : 0 < 1 - (a.get k).lowShare := by rw [← hsb]; exact kBefore_pos hone
  have hpa : 0 < (a.get k).lowShare := by
    unfold Policy.lowShare; split
    · split <;> norm_num
    · norm_num
  rw [hsb] at f1 f3
  rw [hsa] at f2 f3
  have g1 : (∃ j, a.Enabled j ∧ (a.get k).coord < (a.get j).coord) → ∃ d, (b'.get k).d ≤ d ∧
      NextAbove b'.meshlines (a.get k).coord ((1 - (a.get k).lowShare) * d) := by
    intro hj
    obtain ⟨d, h0, -, -, hn⟩ := h1 hj
    refine ⟨d, ?_, hn⟩
    have := f1 _ hn.2.1 (by linarith [hn.1]) hj
    exact le_of_mul_le_mul_left (by linarith) hpb
  have g2 : (∃ j, a.Enabled j ∧ (a.get j).coord < (a.get k).coord) → ∃ d, (b'.get k).d ≤ d ∧
      NextBelow b'.meshlines (a.get k).coord ((a.get k).lowShare * d) := by
    intro hj
    obtain ⟨d, h0, -, -, hn⟩ := h2 hj
    refine ⟨d, ?_, hn⟩
    have := f2 _ hn.2.1 (by linarith [hn.1]) hj
    exact le_of_mul_le_mul_left (by linarith) hpa
  refine ⟨g1, g2, ?_⟩
  rintro ⟨j, hj, hne⟩
  have hcne := hs j k hj hk hne
  have hside : ∀ y ∈ b'.meshlines, ((a.get k).coord < y → ∃ j, a.Enabled j ∧ (a.get k).coord < (a.get j).coord) ∧
      (y < (a.get k).coord → ∃ j, a.Enabled j ∧ (a.get j).coord < (a.get k).coord) := by
    intro y hy
    rcases hbetween y hy with ⟨m, hm, -, rfl⟩ | ⟨i, m, hi, hm, -, -, h1, h2⟩
    · exact ⟨fun h => ⟨m, hm, h⟩, fun h => ⟨m, hm, h⟩⟩
    · exact ⟨fun h => ⟨m, hm, lt_of_lt_of_le h h2⟩, fun h => ⟨i, hi, lt_of_le_of_lt h1 h⟩⟩
  rcases f3 ⟨j, hj, hcne⟩ with hl | hl
  · left
    have hpos : 0 < (1 - (a.get k).lowShare) * (b'.get k).d := mul_pos hpb hd'
    exact ⟨hpos, hl, fun y hy hlt => f1 y hy hlt ((hside y hy).1 hlt)⟩
  · right
    have hpos : 0 < (a.get k).lowShare * (b'.get k).d := mul_pos hpa hd'
    exact ⟨hpos, hl, fun y hy hlt => f2 y hy hlt ((hside y hy).2 hlt)⟩

example := C71_left_partial (Sorter.merge Nat) (Sorter.merge Interval) (Sorter.merge ℚ) sampleParams
    sampleAxis sampleParams_ok sampleAxis_coherent sampleAxis_separated sampleAxis_d rfl rfl

end Verif.Mesh

namespace Verif.Structure
open Verif.Geom (Plane ViewAxis Point Segment axes transposeAxis)
open Verif.Board (Outcome)
open Verif.Mesh (Policy Sorter MeshParams Kind Facing kBefore kAfter)
open Spec

theorem offsets_eq {p : Policy} (h : p.Coherent) : offsets p = (kBefore p * p.d, -(kAfter p * p.d)) := by
  unfold Policy.Coherent at h
  unfold offsets kBefore kAfter
  cases hp : p.kind <;> cases hq : p.normal <;> simp_all <;> ring_nf <;> trivial

/-- What is drawn for a policy. -/
theorem policy_shapes {c : Content} {r : Rect} {plane : Plane} {items : List Item} (hr : r.Valid)
    (h : populate c r plane = .ok items) {i : Item} (hi : i ∈ items) {ax : Geom.Axis} {k : Nat} (he : i.entity = .policy ax k) :
    ∃ p s u v, (c.axis ax).policies[k]? = some p ∧ i.shapes = [s, u, v] ∧ LineAcross plane ax r p.coord s ∧
      LineAcross plane ax r (p.coord + (offsets p).1) u ∧ LineAcross plane ax r (p.coord + (offsets p).2) v := by
  rcases (mem_populate h i).1 hi with hi | hi | ⟨a, ha, hi⟩
  · obtain ⟨n, p, hn, hp | ⟨m, e, he', hp⟩⟩ := mem_polygonItems.1 hi
    · obtain ⟨s, -, rfl⟩ := outcome_map_iff.1 hp.symm; cases he
    · cases hp; cases he
  · obtain ⟨n, p, hn, hp⟩ := mem_angleItems.1 hi
    cases hp; cases he
  · rcases mem_axisItems.1 hi with ⟨n, x, hn, hx⟩ | ⟨n, x, hn, hx⟩ | ⟨n, x, hn, hx⟩ | ⟨n, x, hn, hx⟩ | ⟨n, x, hn, hx⟩ |
      ⟨n, x, hn, hx⟩
    · cases hx; cases he
    · cases hx; cases he
      refine ⟨x, _, _, _, hn, rfl, ?_, ?_, ?_⟩ <;> rw [reverse_dir] <;> exact lineAt_across hr ha _
    · cases hx; cases he
    · obtain ⟨_, _, _, rfl⟩ := colinearItem_ok.1 hx.symm; cases he
    · obtain ⟨_, _, _, rfl⟩ := zoneItem_ok.1 hx.symm; cases he
    · obtain ⟨_, _, rfl⟩ := tooCloseItem_ok.1 hx.symm; cases he

/-- C135. The lines drawn on both sides of an enabled policy of a meshed axis: for a policy of one line both are at this
line, which is in the mesh; for the others they are on both sides of the policy, no line of the mesh is between them, and
one of them is a line of the mesh as soon as there is another policy; at the two ends of the axis it is the inner one, and
the outer one is no line of the mesh. Missing: the other one between two policies, see `C135_false`. -/
theorem C135_around_partial (S : Sorter Nat) (S' : Sorter Mesh.Interval) (T : Sorter ℚ) (g : MeshParams) (a : Mesh.Axis)
    (hg : g.InRange) (hc : a.Coherent) (hs : a.Separated) (hd : a.PositiveD) (hi : a.intervals = [])
    (hm : a.meshlines = []) :
    ∃ b, (a.detectIntervals S g).mesh S' T = some b ∧
      ∀ (c : Content) (ax : Geom.Axis) (plane : Plane) (r : Rect) (items : List Item) (i : Item) (k : Nat), c.axis ax = b →
        r.Valid → populate c r plane = .ok items → i ∈ items → i.entity = .policy ax k → a.Enabled k →
        ∃ s u v up down, i.shapes = [s, u, v] ∧ LineAcross plane ax r up u ∧ LineAcross plane ax r down v ∧
          ((a.get k).kind = .oneline → up = (a.get k).coord ∧ down = (a.get k).coord ∧ (a.get k).coord ∈ b.meshlines) ∧
          ((a.get k).kind ≠ .oneline → down < (a.get k).coord ∧ (a.get k).coord < up ∧
            (∀ y ∈ b.meshlines, ¬ (down < y ∧ y < up)) ∧
            ((∃ j, a.Enabled j ∧ j ≠ k) → up ∈ b.meshlines ∨ down ∈ b.meshlines) ∧
            ((∀ j, a.Enabled j → (a.get j).coord ≤ (a.get k).coord) → up ∉ b.meshlines) ∧
            ((∀ j, a.Enabled j → (a.get k).coord ≤ (a.get j).coord) → down ∉ b.meshlines)) := by
  obtain ⟨b, hb, -, -, -⟩ := Mesh.C24_axis_mesh S S' T g a hg hc hs hd hi hm
  obtain ⟨b1, hb1, -, -, hbetween, honly⟩ := Mesh.C24_axis_mesh S S' T g a hg hc hs hd hi hm
  obtain ⟨b2, hb2, h71⟩ := Mesh.C71_sides_partial S S' T g a hg hc hs hd hi hm
  have e1 : b1 = b := Option.some.inj (hb1.symm.trans hb)
  have e2 : b2 = b := Option.some.inj (hb2.symm.trans hb)
  subst e1; subst e2
  refine ⟨b2, hb, ?_⟩
  rintro c ax plane r items i k hcb hr hp him hie hk
  obtain ⟨p, s, u, v, hpk, hsh, -, hu, hv⟩ := policy_shapes hr hp him hie
  rw [hcb] at hpk
  have hbk : b2.get k = p := by simp [Mesh.Axis.get, hpk]
  obtain ⟨d, hdk⟩ := honly k
  rw [hbk] at hdk
  have hcoh : p.Coherent := by rw [hdk]; exact Mesh.coherent_get hc k
  rw [offsets_eq hcoh] at hu hv
  have hkb : kBefore p = kBefore (a.get k) := Mesh.kBefore_congr (by rw [hdk]) (by rw [hdk])
  have hka : kAfter p = kAfter (a.get k) := Mesh.kAfter_congr (by rw [hdk]) (by rw [hdk])
  have hpc : p.coord = (a.get k).coord := by rw [hdk]
  have hpd : p.d = (b2.get k).d := by rw [hbk]
  rw [hkb, hpc] at hu
  rw [hka, hpc] at hv
  refine ⟨s, u, v, _, _, hsh, hu, hv, ?_, ?_⟩
  · intro h1
    simp only
    rw [Mesh.kBefore_oneline h1, Mesh.kAfter_oneline h1]
    refine ⟨by ring, by ring, ?_⟩
    obtain ⟨b3, hb3, -, hol, -⟩ := Mesh.C24_axis_mesh S S' T g a hg hc hs hd hi hm
    have e3 : b3 = b2 := Option.some.inj (hb3.symm.trans hb)
    subst e3
    exact hol k hk h1
  · intro h1
    obtain ⟨f0, f1, f2, f3⟩ := Mesh.fresh_final S S' T g a hg hs hd hi hm b2 hb k hk h1
    have hno := (h71 k hk h1).1
    have hbpos := Mesh.kBefore_pos h1
    have hapos : 0 < kAfter (a.get k) := by
      unfold kAfter
      cases hkk : (a.get k).kind <;> cases (a.get k).normal <;> simp_all
    simp only [hpd, ← sub_eq_add_neg]
    have m1 := mul_pos hbpos f0
    have m2 := mul_pos hapos f0
    have hside : ∀ y ∈ b2.meshlines, ((a.get k).coord < y → ∃ j, a.Enabled j ∧ (a.get k).coord < (a.get j).coord) ∧
        (y < (a.get k).coord → ∃ j, a.Enabled j ∧ (a.get j).coord < (a.get k).coord) := by
      intro y hy
      rcases hbetween y hy with ⟨m, hm, -, rfl⟩ | ⟨i, m, hi, hm, -, -, h1, h2⟩
      · exact ⟨fun h => ⟨m, hm, h⟩, fun h => ⟨m, hm, h⟩⟩
      · exact ⟨fun h => ⟨m, hm, lt_of_lt_of_le h h2⟩, fun h => ⟨i, hi, lt_of_le_of_lt h1 h⟩⟩
    refine ⟨by linarith, by linarith, ?_, ?_, ?_, ?_⟩
    · rintro y hy ⟨h2, h3⟩
      rcases lt_trichotomy y (a.get k).coord with h | rfl | h
      · linarith [f2 y hy h ((hside y hy).2 h)]
      · exact hno hy
      · linarith [f1 y hy h ((hside y hy).1 h)]
    · rintro ⟨j, hj, hne⟩
      exact f3 ⟨j, hj, hs j k hj hk hne⟩
    · intro hmax hy
      obtain ⟨j, hj, hlt⟩ := (hside _ hy).1 (by linarith)
      linarith [hmax j hj]
    · intro hmin hy
      obtain ⟨j, hj, hlt⟩ := (hside _ hy).2 (by linarith)
      linarith [hmin j hj]

example := C135_around_partial (Sorter.merge Nat) (Sorter.merge Mesh.Interval) (Sorter.merge ℚ) Mesh.sampleParams
    Mesh.sampleAxis Mesh.sampleParams_ok Mesh.sampleAxis_coherent Mesh.sampleAxis_separated Mesh.sampleAxis_d rfl rfl

/-- A board that only has an axis X. -/
def onlyX (b : Mesh.Axis) : Content where
  polygons := fun _ => []
  angles := fun _ => []
  axis := fun | .x => b | _ => ⟨[], [], [], []⟩
  colinear := fun _ => []
  zones := fun _ => []
  tooClose := fun _ => []
  edge := fun _ => ⟨.xy, ⟨⟨0, 0⟩, ⟨0, 0⟩⟩, .none, false, false⟩
  angle := fun _ => ⟨.xy, ⟨0, 0⟩, 0⟩

/-- C135 is false between two policies: around the edge at 7 of the policies of `C71_false`, lines are drawn at 27/4 and
29/4, and 27/4 is no line of the mesh. -/
theorem C135_false : ∃ (S : Sorter Nat) (S' : Sorter Mesh.Interval) (T : Sorter ℚ) (g : MeshParams)
    (l : List (Kind × Facing × ℚ × Bool)) (b m : Mesh.Axis) (c : Content) (r : Rect) (items : List Item) (i : Item)
    (s u v : Shape), g.InRange ∧ 0 ≤ g.proximityLimit ∧
    ((⟨[], [], [], []⟩ : Mesh.Axis).addAll g l).solveTooClose S g = some b ∧ (b.detectIntervals S g).mesh S' T = some m ∧
    c.axis .x = m ∧ r.Valid ∧ populate c r .xy = .ok items ∧ i ∈ items ∧ i.entity = .policy .x 1 ∧ b.Enabled 1 ∧
    (∃ j, b.Enabled j ∧ (b.get j).coord < (b.get 1).coord) ∧ i.shapes = [s, u, v] ∧
    LineAcross .xy .x r (27 / 4) v ∧ 27 / 4 ∉ m.meshlines := by
  have h : (((⟨[], [], [], []⟩ : Mesh.Axis).addAll Mesh.evenParams Mesh.unevenPolicies).solveTooCloseF (Sorter.insertion Nat)
      Mesh.evenParams 3).bind (fun b => ((b.detectIntervals (Sorter.insertion Nat) Mesh.evenParams).meshF 30
        (Sorter.insertion Mesh.Interval) (Sorter.insertion ℚ)).map fun m => ((b.policies[1]?.map fun p => (p.coord, p.enabled)),
          (b.policies[0]?.map fun p => (p.coord, p.enabled)), m.policies[1]?, decide (27 / 4 ∈ m.meshlines))) =
      some (some (7, true), some (0, true), some ⟨7, .halfs, .none, true, 1 / 2⟩, false) := by decide +kernel
  obtain ⟨b, hb, h⟩ := Option.bind_eq_some_iff.1 h
  obtain ⟨m, hm, h⟩ := Option.map_eq_some_iff.1 h
  simp only [Prod.mk.injEq, decide_eq_false_iff_not] at h
  obtain ⟨h1, h0, hp, hno⟩ := h
  obtain ⟨p1, hp1, h1⟩ := Option.map_eq_some_iff.1 h1
  obtain ⟨p0, hp0, h0⟩ := Option.map_eq_some_iff.1 h0
  simp only [Prod.mk.injEq] at h0 h1
  have hr : (⟨0, 0, 20, 20⟩ : Rect).Valid := ⟨by norm_num, by norm_num⟩
  obtain ⟨items, hi⟩ := (C134_defined (onlyX m) ⟨0, 0, 20, 20⟩ .xy).2
    ⟨(by intro p hp; cases hp), fun a _ => ⟨(by intro p hp; cases hp), (by intro p hp; cases hp), (by intro p hp; cases hp)⟩⟩
  obtain ⟨i, him, hie⟩ := (C134_present _ _ _ _ hi (.policy .x 1)).2 ⟨by decide, getElem?_lt.1 ⟨_, hp⟩⟩
  obtain ⟨p, s, u, v, hpk, hsh, -, hu, hv⟩ := policy_shapes hr hi him hie
  have : (onlyX m).axis .x = m := rfl
  rw [this, hp] at hpk
  cases hpk
  have hoff : (7 : ℚ) + (offsets ⟨7, .halfs, .none, true, 1 / 2⟩).2 = 27 / 4 := by norm_num [offsets]
  rw [hoff] at hv
  refine ⟨_, _, _, Mesh.evenParams, Mesh.unevenPolicies, b, m, onlyX m, _, items, i, s, u, v,
    ⟨by norm_num [Mesh.evenParams], by norm_num [Mesh.evenParams]⟩, by norm_num [Mesh.evenParams],
    (Mesh.solveTooCloseF_below ..).eq _ hb, (Mesh.meshF_below ..).eq _ hm, rfl, hr, hi, him, hie, ⟨p1, hp1, h1.2⟩,
    ⟨0, ⟨p0, hp0, h0.2⟩, ?_⟩, hsh, hv, hno⟩
  have g1 : b.get 1 = p1 := by simp [Mesh.Axis.get, hp1]
  have g0 : b.get 0 = p0 := by simp [Mesh.Axis.get, hp0]
  rw [g0, g1, h0.1, h1.1]
  norm_num

end Verif.Structure
