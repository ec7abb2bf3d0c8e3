import Verif.Model.Run
import Verif.Lemmas.Woven
import Verif.Props.Drift
import Verif.Props.Around
import Verif.Props.Fixed
import Verif.Props.EdgePolicies
import Verif.Props.Covered
import Verif.Props.Diagonal

/-!
# Lemmas about the whole run
-/

namespace Verif.Mesh
open Spec

/-- A fresh axis: policies with nothing done about them yet. -/
structure Fresh (g : MeshParams) (a : Axis) : Prop where
  conflicts : a.conflicts = []
  intervals : a.intervals = []
  meshlines : a.meshlines = []
  policies : ∀ p ∈ a.policies, ∃ coord kind normal enabled, p = Policy.make g.dmax coord kind normal enabled ∧
    (kind = .thirds ↔ normal ≠ .none)

theorem Fresh.unmerged {g : MeshParams} {a : Axis} (h : Fresh g a) : a.Unmerged := by
  intro c hc
  rw [h.conflicts] at hc
  cases hc

theorem Fresh.coherent {g : MeshParams} {a : Axis} (h : Fresh g a) : a.Coherent := by
  intro p hp
  obtain ⟨coord, kind, normal, enabled, rfl, hk⟩ := h.policies p hp
  exact hk

theorem Fresh.positive {g : MeshParams} {a : Axis} (hg : g.InRange) (h : Fresh g a) : a.PositiveD := by
  intro i hi
  obtain ⟨coord, kind, normal, enabled, e, -⟩ := h.policies _ (get_mem hi.lt)
  rw [e]
  have := hg.dmax_pos
  simp only [Policy.make]
  linarith

/-- Two enabled policies with no other between them. -/
def Axis.Neighbours (a : Axis) (i j : Nat) : Prop :=
  a.Enabled i ∧ a.Enabled j ∧ (a.get i).coord < (a.get j).coord ∧
    ∀ k, a.Enabled k → ¬ ((a.get i).coord < (a.get k).coord ∧ (a.get k).coord < (a.get j).coord)

/-- Consecutive elements of a sorted list are neighbours. -/
theorem consecutive_neighbours {a : Axis} {o : List Nat} (hperm : o.Perm a.enabledPointers)
    (hchain : o.IsChain fun i j => (a.get i).coord < (a.get j).coord) {i j : Nat} (h : (i, j) ∈ consecutive o) :
    a.Neighbours i j := by
  have hmem : ∀ k, k ∈ o ↔ a.Enabled k := fun k => hperm.mem_iff.trans mem_enabledPointers
  have hpw : o.Pairwise fun i j => (a.get i).coord < (a.get j).coord := by
    have : IsTrans Nat fun i j => (a.get i).coord < (a.get j).coord := ⟨fun _ _ _ => lt_trans⟩
    exact List.isChain_iff_pairwise.mp hchain
  rw [List.pairwise_iff_getElem] at hpw
  obtain ⟨n, hn, hnn⟩ := List.getElem_of_mem h
  simp only [consecutive, List.getElem_zip, Prod.mk.injEq, List.getElem_tail] at hnn
  obtain ⟨rfl, rfl⟩ := hnn
  have hlen : n + 1 < o.length := by
    simp only [consecutive, List.length_zip, List.length_tail] at hn
    omega
  refine ⟨(hmem _).1 (List.getElem_mem _), (hmem _).1 (List.getElem_mem _), hpw n (n + 1) (by omega) hlen (by omega), ?_⟩
  intro k hk ⟨h1, h2⟩
  obtain ⟨m, hm, rfl⟩ := List.getElem_of_mem ((hmem k).2 hk)
  rcases Nat.lt_trichotomy m n with h | h | h
  · have := hpw m n hm (by omega) h
    linarith
  · subst h
    exact lt_irrefl _ h1
  · rcases Nat.lt_or_ge (n + 1) m with h' | h'
    · have := hpw (n + 1) m hlen hm h'
      linarith
    · obtain rfl : m = n + 1 := by omega
      exact lt_irrefl _ h2

theorem Axis.Drawn.mono {limit D D' : ℚ} {a : Axis} (h : a.Drawn limit D) (hD : D ≤ D') : a.Drawn limit D' where
  apart := h.apart
  oneline := h.oneline
  off := h.off
  above := fun k hk hone hj => by obtain ⟨d, hd, h'⟩ := h.above k hk hone hj; exact ⟨d, hd.trans hD, h'⟩
  below := fun k hk hone hj => by obtain ⟨d, hd, h'⟩ := h.below k hk hone hj; exact ⟨d, hd.trans hD, h'⟩

/-- The steps on an axis after the policies are there. -/
theorem finish_axis (S : Sorter Nat) (S' : Sorter Interval) (T : Sorter ℚ) (g : MeshParams) (a : Axis)
    (hg : g.InRange) (hl : 0 ≤ g.proximityLimit) (hf : Fresh g a) {D : ℚ} (lim : ℚ → ℚ)
    (hlim : ∀ m, 0 < lim m ∧ lim m ≤ D) :
    ∃ b c, a.solveTooClose S g = some b ∧ (Axis.mesh S' T { b.detectIntervals S g with
        intervals := (b.detectIntervals S g).intervals.map fun i => { i with dmax := lim i.m } }) = some c ∧
      (∀ i ∈ (b.detectIntervals S g).intervals, i.dmax = g.dmax) ∧
      Increasing c.meshlines ∧ GapsAtMost D c.meshlines ∧
      (∀ y ∈ c.meshlines, ∃ i j, a.Enabled i ∧ a.Enabled j ∧ (a.get i).coord ≤ y ∧ y ≤ (a.get j).coord) ∧
      (∀ i, a.Enabled i → ∃ k, c.Enabled k ∧ |(c.get k).coord - (a.get i).coord| ≤ (c.conflicts.length : ℚ) * g.proximityLimit ∧
        ((∃ j, j ≠ k ∧ c.Enabled j) → ∃ y ∈ c.meshlines, |y - (c.get k).coord| ≤ D)) ∧
      (c.meshlines.IsChain fun y y' => ∀ E, (∀ i j, c.Neighbours i j → (c.get i).coord < y' → y < (c.get j).coord →
        lim (((c.get i).coord + (c.get j).coord) / 2) ≤ E) → y' - y ≤ E) ∧
      (c.conflicts = [] → ∀ k, (c.Enabled k ↔ a.Enabled k) ∧ (c.get k).coord = (a.get k).coord) ∧
      c.Drawn g.proximityLimit (min D (g.dmax / 2)) := by
  have hD : 0 < D := lt_of_lt_of_le (hlim 0).1 (hlim 0).2
  let P : Axis → Prop := fun x => x.PositiveD ∧ x.Coherent ∧ x.intervals = [] ∧ x.meshlines = [] ∧
    a.policies.length ≤ x.policies.length ∧ (x.conflicts = [] → x = a) ∧ ∀ k, x.Enabled k → (x.get k).d ≤ g.dmax / 2
  have hstep : ∀ x i j y, x.Unmerged → P x → x.detectClosest S g.proximityLimit = some (i, j) →
      x.addTooClose i j = some y → P (y.solveConflict g i j) := by
    intro x i j y _ ⟨h1, h2, h3, h4, h5, _, h6⟩ hdc hy
    obtain ⟨hi, hj, -, -⟩ := detectClosest_some hdc
    obtain ⟨e0, ec, -, e1, e2⟩ := addTooClose_some hi hj hy
    refine ⟨d_step hg.dmax_pos hi hj h1 hy, coherent_step h2 hy, ?_, ?_, ?_, ?_, fun k hk => ?_⟩
    · rcases solveConflict_cases g y i j with he | ⟨_, _, _, _, he⟩ <;> rw [he] <;> exact e1.trans h3
    · rcases solveConflict_cases g y i j with he | ⟨_, _, _, _, he⟩ <;> rw [he] <;> exact e2.trans h4
    · rcases solveConflict_cases g y i j with he | ⟨_, _, _, _, he⟩ <;> rw [he]
      · omega
      · simp only [List.length_append, List.length_singleton]; omega
    · intro h
      rcases solveConflict_cases g y i j with he | ⟨_, _, _, _, he⟩ <;> rw [he] at h <;> simp only [ec] at h <;> simp at h
    · rcases enabled_step hi hj hy k hk with ⟨h, -, -, e⟩ | ⟨-, _, _, _, -, e⟩
      · rw [e]; exact h6 k h
      · rw [e]; exact le_rfl
  have hhalf : ∀ k, a.Enabled k → (a.get k).d ≤ g.dmax / 2 := by
    intro k hk
    obtain ⟨coord, kind, normal, enabled, e, -⟩ := hf.policies _ (get_mem hk.lt)
    rw [e]
    exact le_rfl
  obtain ⟨b, hb, -, ⟨hbd, hbc, hbi, hbm, hlen, hsame, hbhalf⟩, hnone⟩ := solveTooClose_induct S g P hstep _ a le_rfl hf.unmerged
    ⟨hf.positive hg, hf.coherent, hf.intervals, hf.meshlines, le_rfl, fun _ => rfl, hhalf⟩
  obtain ⟨-, -, hdrift⟩ := drift_merges S g a b hf.unmerged hf.coherent hl hb
  rw [hf.conflicts, List.length_nil, Nat.sub_zero] at hdrift
  obtain ⟨hext, -⟩ := C27_extent S g a b hf.unmerged hf.coherent hb
  have hsep : b.Separated := by
    intro i j hi hj hne h
    have := detectClosest_none hnone i j hi hj hne
    rw [h, sub_self, abs_zero] at this
    linarith
  obtain ⟨-, -, -, -, -, hok, -⟩ := detectIntervals_spec (S := S) hg hsep hbd hbi
  set ivs := (b.detectIntervals S g).intervals.map fun i => { i with dmax := lim i.m } with hivs
  obtain ⟨o, c, ls, hperm, hchain, hc, hf2, hw, hst, honly, hpairs, hcc, hmid, hlb⟩ := mesh_zoned S S' T g b hg hbc hsep hbd
    hbi hbm hD (ivs := ivs) (by
      unfold Relimited
      rw [hivs]
      refine List.forall₂_map_right_iff.2 (List.forall₂_same.2 fun i _ => ⟨lim i.m, rfl, hlim i.m⟩))
  have hlc : c.policies.length = b.policies.length := by
    obtain ⟨ps, -, e⟩ := mesh_onlyD hc
    rw [e]
    simp [Axis.withPolicies, Axis.detectIntervals, Axis.pointers]
  have hen : ∀ k, c.Enabled k ↔ b.Enabled k := by
    intro k
    obtain ⟨d, e⟩ := honly k
    rw [enabled_iff, enabled_iff, hlc, e]
  have hcoord : ∀ k, (c.get k).coord = (b.get k).coord := by
    intro k
    obtain ⟨d, e⟩ := honly k
    rw [e]
  have hkind : ∀ k, (c.get k).kind = (b.get k).kind := by
    intro k
    obtain ⟨d, e⟩ := honly k
    rw [e]
  have hshare : ∀ k, (c.get k).lowShare = (b.get k).lowShare := by
    intro k
    obtain ⟨d, e⟩ := honly k
    rw [e]
    rfl
  refine ⟨b, c, hb, hc, fun i hi => (hok i hi).2, hst.imp fun _ _ h => h.1, hst.imp fun _ _ h => h.2, ?_, ?_, ?_, ?_, ?_⟩
  · intro y hy
    rcases woven_between hperm hchain hf2 hw y hy with ⟨k, hk, -, rfl⟩ | ⟨i, j, hi, hj, -, -, h1, h2⟩
    · obtain ⟨i, j, hi, hj, h1, h2⟩ := hext k hk
      exact ⟨i, j, hi, hj, h1, h2⟩
    · obtain ⟨i', -, hi', -, h3, -⟩ := hext i hi
      obtain ⟨-, j', -, hj', -, h4⟩ := hext j hj
      exact ⟨i', j', hi', hj', h3.trans h1, h2.trans h4⟩
  · intro i hi
    obtain ⟨k, hk, hd⟩ := hdrift i hi
    refine ⟨k, (hen k).2 hk, ?_, ?_⟩
    · rw [hcoord]
      rw [hcc]
      exact hd
    · rintro ⟨j, hj, hje⟩
      rw [hcoord]
      exact woven_near hD hperm hf2 hw k hk (Or.inr ⟨j, hj, (hen j).1 hje⟩)
  · have hneigh : ∀ i j, (i, j) ∈ consecutive o → c.Neighbours i j := by
      intro i j h
      obtain ⟨h1, h2, h3, h4⟩ := consecutive_neighbours hperm hchain h
      unfold Axis.Neighbours
      simp only [hen, hcoord]
      exact ⟨h1, h2, h3, h4⟩
    have hloc : c.meshlines.IsChain (Local (ivs.map fun i => (b.get i.before.policy, b.get i.after.policy, i.dmax))) := by
      rw [hw]
      cases o with
      | nil => exact List.isChain_nil
      | cons x o =>
        refine (weave_local _ _ _ _ ?_ ?_ ?_ ?_).1
        · intro q hq
          rw [← List.map_cons, List.mem_map] at hq
          obtain ⟨k, hk, rfl⟩ := hq
          have := coherent_get hbc k
          unfold Policy.Coherent at this
          tauto
        · rw [← List.map_cons]
          exact (List.isChain_map (R := fun p q : Policy => p.coord < q.coord) b.get).2 hchain
        · rw [← List.map_cons, consecutive_map, ← hpairs]
          clear_value ivs
          rw [List.map_map, List.map_map]
          rfl
        · exact List.forall₂_map_left_iff.2 hlb
    refine hloc.imp fun y y' h E hE => h E ?_
    intro t ht
    obtain ⟨i, hi, rfl⟩ := List.mem_map.1 ht
    intro h1 h2
    simp only at h1 h2 ⊢
    have hp : (i.before.policy, i.after.policy) ∈ consecutive o := by
      rw [← hpairs]
      exact List.mem_map_of_mem (f := fun i : Interval => (i.before.policy, i.after.policy)) hi
    have := hE _ _ (hneigh _ _ hp) (by rw [hcoord]; exact h1) (by rw [hcoord]; exact h2)
    rw [hcoord, hcoord, ← hmid i hi] at this
    rw [hivs] at hi
    obtain ⟨i0, hi0, rfl⟩ := List.mem_map.1 hi
    exact this
  · intro h k
    rw [hcc] at h
    obtain rfl := hsame h
    exact ⟨hen k, hcoord k⟩
  · have haround := woven_around hbc hperm hchain hf2 hw
    constructor <;> simp only [hen, hcoord, hkind, hshare]
    · exact detectClosest_none hnone
    · intro k hk hone
      exact woven_oneline hperm hf2 hw k hk hone
    · exact fun k hk hone => (haround k hk hone).1
    · intro k hk hone h
      obtain ⟨d, -, h1, h3, h2⟩ := (haround k hk hone).2.1 h
      exact ⟨d, le_min h1 (h3.trans (hbhalf k hk)), h2⟩
    · intro k hk hone h
      obtain ⟨d, -, h1, h3, h2⟩ := (haround k hk hone).2.2 h
      exact ⟨d, le_min h1 (h3.trans (hbhalf k hk)), h2⟩

end Verif.Mesh

namespace Verif.Board
open Verif.Geom
open Verif.Mesh (Sorter MeshParams Kind Policy Fresh FixedAt C48_fixed tolerance)
open Spec

/-! ## The policies of an axis -/

theorem accepted_iff {kind : Kind} {side : Mesh.Facing} : accepted kind side = true ↔ (kind = .thirds ↔ side ≠ .none) := by
  cases kind <;> cases side <;> decide

theorem fold_policies (g : MeshParams) (asked : List (Kind × Mesh.Facing × ℚ × Bool)) :
    ∀ a : Mesh.Axis, (∀ p ∈ asked, accepted p.1 p.2.1 = true) →
    asked.foldl (fun a p => (a.addPolicy g p.1 p.2.1 p.2.2.1 p.2.2.2).1) a =
      { a with policies := a.policies ++ asked.map fun p => Policy.make g.dmax p.2.2.1 p.1 p.2.1 p.2.2.2 } := by
  induction asked with
  | nil => intro a _; simp
  | cons p rest ih =>
    intro a h
    have hp := accepted_iff.1 (h p (by simp))
    rw [List.foldl_cons]
    have e : (a.addPolicy g p.1 p.2.1 p.2.2.1 p.2.2.2).1 =
        { a with policies := a.policies ++ [Policy.make g.dmax p.2.2.1 p.1 p.2.1 p.2.2.2] } := by
      unfold Mesh.Axis.addPolicy
      rw [if_neg (by tauto)]
    rw [e, ih _ fun q hq => h q (by simp [hq])]
    simp

/-- What there is on an axis before the merges: the fixed lines and the policies asked for, and nothing else. -/
theorem axis_policies (g : MeshParams) (fixed : List ℚ) (asked : List (Kind × Mesh.Facing × ℚ × Bool))
    (h : ∀ p ∈ asked, accepted p.1 p.2.1 = true) :
    Fresh g (axisPolicies g fixed asked) ∧
    (∀ p ∈ (axisPolicies g fixed asked).policies, p.enabled = true →
      p.coord ∈ fixed ∨ ∃ q ∈ asked, q.2.2.2 = true ∧ q.2.2.1 = p.coord) ∧
    (∀ q ∈ asked, q.2.2.2 = true → ∃ p ∈ (axisPolicies g fixed asked).policies, p.enabled = true ∧ p.coord = q.2.2.1) ∧
    ∀ c ∈ fixed, ∃ p ∈ (axisPolicies g fixed asked).policies, p.enabled = true ∧ |p.coord - c| < tolerance := by
  obtain ⟨new, h1, h2, -, -, h5⟩ := C48_fixed g emptyAxis fixed
  have hmk : ∀ (l : List ℚ) (a : Mesh.Axis), (∀ p ∈ a.policies, ∃ c kind normal, p = Policy.make g.dmax c kind normal true ∧
      (kind = .thirds ↔ normal ≠ .none)) → ∀ p ∈ (a.addAllFixed g l).policies, ∃ c kind normal,
      p = Policy.make g.dmax c kind normal true ∧ (kind = .thirds ↔ normal ≠ .none) := by
    intro l
    induction l with
    | nil => exact fun a ha => ha
    | cons c l ih =>
      intro a ha
      refine ih _ fun p hp => ?_
      unfold Mesh.Axis.addFixed Mesh.Axis.addPolicy at hp
      split_ifs at hp
      · exact ha p hp
      · exact ha p hp
      · rcases List.mem_append.1 hp with hp | hp
        · exact ha p hp
        · obtain rfl := List.mem_singleton.1 hp
          exact ⟨_, _, _, rfl, by simp⟩
  have hn := hmk fixed emptyAxis (by simp [emptyAxis])
  unfold axisPolicies
  rw [fold_policies g asked _ h]
  rw [h1] at hn ⊢
  have e : emptyAxis.policies = [] := rfl
  simp only [e, List.nil_append] at *
  refine ⟨⟨rfl, rfl, rfl, fun p hp => ?_⟩, fun p hp hen => ?_, fun q hq hen => ?_, fun c hc => ?_⟩
  · rcases List.mem_append.1 hp with hp | hp
    · obtain ⟨c, kind, normal, hh⟩ := hn p hp
      exact ⟨c, kind, normal, true, hh⟩
    · obtain ⟨q, hq, rfl⟩ := List.mem_map.1 hp
      exact ⟨_, _, _, _, rfl, accepted_iff.1 (h q hq)⟩
  · rcases List.mem_append.1 hp with hp | hp
    · exact Or.inl (h2 p hp).2.2
    · obtain ⟨q, hq, rfl⟩ := List.mem_map.1 hp
      exact Or.inr ⟨q, hq, hen, rfl⟩
  · exact ⟨_, List.mem_append_right _ (List.mem_map_of_mem hq), hen, rfl⟩
  · obtain ⟨p, hp, -, hq⟩ := h5 c hc
    refine ⟨p, List.mem_append_left _ hp, ?_, hq⟩
    obtain ⟨_, _, _, rfl, -⟩ := hn p hp
    rfl

/-! ## Solving the conflicts of edges in polygons -/

/-- The same edges, meshed or not. -/
def SameEdges (E E' : Nat → BEdge) : Prop := ∀ n, ∃ b, E' n = { E n with toMesh := b }

theorem SameEdges.refl (E : Nat → BEdge) : SameEdges E E := fun n => ⟨(E n).toMesh, rfl⟩

theorem SameEdges.trans {E E' E'' : Nat → BEdge} (h : SameEdges E E') (h' : SameEdges E' E'') : SameEdges E E'' := by
  intro n
  obtain ⟨b, hb⟩ := h n
  obtain ⟨b', hb'⟩ := h' n
  exact ⟨b', by rw [hb', hb]⟩

theorem sameEdges_set (E : Nat → BEdge) (n : Nat) (b : Bool) : SameEdges E (setMesh E n b) := by
  intro m
  unfold setMesh
  split_ifs
  · exact ⟨b, rfl⟩
  · exact ⟨(E m).toMesh, rfl⟩

/-- What the solver of a conflict reads of the edges does not change. -/
theorem SameEdges.solve {E E' : Nat → BEdge} (h : SameEdges E E') (S : Sorter Overlap) (n : Nat) (os : List Found) :
    solveInPolygon S (E' n) (os.map (Found.overlap E')) = solveInPolygon S (E n) (os.map (Found.overlap E)) := by
  obtain ⟨b, hb⟩ := h n
  have : Found.overlap E' = Found.overlap E := by
    funext f
    unfold Found.overlap
    congr 2
    funext e
    obtain ⟨b, hb⟩ := h e
    rw [hb]
  rw [this, hb]
  rfl

theorem solveInPolygon_defined (S : Sorter Overlap) (e : BEdge) {os : List Overlap} (h : os ≠ []) :
    ∃ b, solveInPolygon S e os = some b := by
  unfold solveInPolygon
  cases hs : sortOverlaps S (e.seg.p1.sub e.seg.p0) os with
  | nil =>
    have := sortOverlaps_perm S (e.seg.p1.sub e.seg.p0) os
    rw [hs] at this
    exact absurd this.symm.eq_nil h
  | cons f rest => exact ⟨_, rfl⟩

/-- All the conflicts of a plane solved: each edge is as its conflict decides, or as it was. -/
theorem solveAll_spec (S : Sorter Overlap) (s : InPolygon) : ∀ E : Nat → BEdge, (∀ c ∈ s, c.2 ≠ []) →
    ∃ E', solveAllInPolygon S E s = some E' ∧ SameEdges E E' ∧
      ∀ n, (n ∉ s.map (·.1) ∧ (E' n).toMesh = (E n).toMesh) ∨
        ∃ os, (n, os) ∈ s ∧ solveInPolygon S (E n) (os.map (Found.overlap E)) = some (E' n).toMesh := by
  induction s with
  | nil => intro E _; exact ⟨E, rfl, .refl E, fun n => Or.inl ⟨by simp, rfl⟩⟩
  | cons c rest ih =>
    intro E h
    obtain ⟨m, os⟩ := c
    obtain ⟨b, hb⟩ := solveInPolygon_defined S (E m) (os := os.map (Found.overlap E)) (by simpa using h (m, os) (by simp))
    obtain ⟨E', h1, h2, h3⟩ := ih (setMesh E m b) fun c hc => h c (by simp [hc])
    have hset := sameEdges_set E m b
    refine ⟨E', ?_, hset.trans h2, fun n => ?_⟩
    · rw [solveAllInPolygon, hb]
      exact h1
    · rcases h3 n with ⟨h4, h5⟩ | ⟨os', h4, h5⟩
      · by_cases hn : n = m
        · subst hn
          right
          refine ⟨os, by simp, ?_⟩
          rw [h5, hb]
          simp [setMesh]
        · left
          refine ⟨by simpa [hn] using h4, ?_⟩
          rw [h5]
          simp [setMesh, hn]
      · right
        refine ⟨os', by simp [h4], ?_⟩
        rw [← h5, hset.solve]

theorem solveAll_append (S : Sorter Overlap) (s t : InPolygon) : ∀ E : Nat → BEdge,
    solveAllInPolygon S E (s ++ t) = (solveAllInPolygon S E s).bind fun E => solveAllInPolygon S E t := by
  induction s with
  | nil => intro E; rfl
  | cons c rest ih =>
    intro E
    obtain ⟨m, os⟩ := c
    rw [List.cons_append, solveAllInPolygon, solveAllInPolygon]
    cases solveInPolygon S (E m) (os.map (Found.overlap E)) with
    | none => rfl
    | some b => exact ih _

theorem solve_planes (S : Sorter Overlap) (l : List InPolygon) : ∀ E : Nat → BEdge,
    l.foldlM (solveAllInPolygon S) E = solveAllInPolygon S E l.flatten := by
  induction l with
  | nil => intro E; rfl
  | cons s rest ih =>
    intro E
    rw [List.foldlM_cons, List.flatten_cons, solveAll_append]
    cases h : solveAllInPolygon S E s with
    | none => rfl
    | some E' => exact ih E'

/-- The planes one after the other. -/
theorem detect_planes (S : OrderSorter Point) (B : Input) (planes : List Plane)
    (h : ∀ p ∈ planes, ∃ s, detectInPolygons S B.P (B.polygons p) [] = .ok s) :
    ∃ l, detectAllInPolygons S B planes = .ok l ∧
      List.Forall₂ (fun p s => detectInPolygons S B.P (B.polygons p) [] = .ok s) planes l := by
  induction planes with
  | nil => exact ⟨[], rfl, .nil⟩
  | cons p rest ih =>
    obtain ⟨s, hs⟩ := h p (by simp)
    obtain ⟨l, h1, h2⟩ := ih fun q hq => h q (by simp [hq])
    refine ⟨s :: l, ?_, .cons hs h2⟩
    rw [detectAllInPolygons, hs]
    simp only [Outcome.bind]
    rw [h1]
    rfl

theorem forall₂_left {α β : Type} {R : α → β → Prop} {l : List α} {m : List β} (h : List.Forall₂ R l m) {b : β} (hb : b ∈ m) :
    ∃ a ∈ l, R a b := by
  induction h with
  | nil => cases hb
  | cons h1 _ ih =>
    rcases List.mem_cons.1 hb with rfl | hb
    · exact ⟨_, by simp, h1⟩
    · obtain ⟨a, ha, h⟩ := ih hb
      exact ⟨a, by simp [ha], h⟩

theorem forall₂_right {α β : Type} {R : α → β → Prop} {l : List α} {m : List β} (h : List.Forall₂ R l m) {a : α} (ha : a ∈ l) :
    ∃ b ∈ m, R a b := by
  induction h with
  | nil => cases ha
  | cons h1 _ ih =>
    rcases List.mem_cons.1 ha with rfl | ha
    · exact ⟨_, by simp, h1⟩
    · obtain ⟨b, hb, h⟩ := ih ha
      exact ⟨b, by simp [hb], h⟩

/-- Conflicts after a detection: those in the list are those that are found by the edge. -/
theorem detect_lookup {S : OrderSorter Point} {P : Nat → PPolygon} {polygons : List Nat} {s : InPolygon}
    (h : detectInPolygons S P polygons [] = .ok s) {n : Nat} {os : List Found} (hm : (n, os) ∈ s) : s.lookup n = some os := by
  obtain ⟨L, rfl, -⟩ := detect_reports h
  obtain ⟨hnd, -, -⟩ := C76_registered L
  revert hm hnd
  generalize adds L [] = t
  intro hm hnd
  induction t with
  | nil => cases hm
  | cons c rest ih =>
    obtain ⟨k, v⟩ := c
    simp only [List.map_cons, List.nodup_cons] at hnd
    rcases List.mem_cons.1 hm with h | h
    · cases h
      simp [List.lookup]
    · have hk : n ≠ k := by
        rintro rfl
        exact hnd.1 (List.mem_map.2 ⟨_, h, rfl⟩)
      have : (n == k) = false := by simpa using hk
      rw [List.lookup_cons, this]
      exact ih h hnd.2

/-! ## Colinear edges of all planes -/

theorem addPair_from {a b : Nat} (hab : a ≠ b) {l : List (List Nat)} {c : List Nat} (h : c ∈ addPair a b l) :
    c ∈ l ∨ a ∈ c ∨ b ∈ c := by
  rcases addPair_cases hab l with ⟨l1, d, l2, rfl, hd, e⟩ | ⟨-, e⟩
  · rw [e] at h
    simp only [List.mem_append, List.mem_cons] at h
    rcases h with h | rfl | h
    · exact Or.inl (by simp [h])
    · right; left
      exact (mem_joined hd).2 (Or.inr (Or.inl rfl))
    · exact Or.inl (by simp [h])
  · rw [e] at h
    simp only [List.mem_append, List.mem_singleton] at h
    rcases h with h | rfl
    · exact Or.inl h
    · right; left; simp

theorem pairsInner_from {R : Nat → Nat → Bool} {i : Nat} {c : List Nat} (rest : List Nat) :
    ∀ l : List (List Nat), i ∉ rest → c ∈ pairsInner R i l rest → c ∈ l ∨ ∃ x ∈ c, x ∈ i :: rest := by
  induction rest with
  | nil => intro l _ h; exact Or.inl h
  | cons j rest ih =>
    intro l hi h
    simp only [List.mem_cons, not_or] at hi
    unfold pairsInner at h
    rcases ih _ hi.2 h with h | ⟨x, hx, h⟩
    · split_ifs at h
      · rcases addPair_from hi.1 h with h | h | h
        · exact Or.inl h
        · exact Or.inr ⟨i, h, by simp⟩
        · exact Or.inr ⟨j, h, by simp⟩
      · exact Or.inl h
    · right
      refine ⟨x, hx, ?_⟩
      simp only [List.mem_cons] at h ⊢
      tauto

theorem pairsAll_from {R : Nat → Nat → Bool} {c : List Nat} (edges : List Nat) :
    ∀ l : List (List Nat), edges.Nodup → c ∈ pairsAll R l edges → c ∈ l ∨ ∃ x ∈ c, x ∈ edges := by
  induction edges with
  | nil => intro l _ h; exact Or.inl h
  | cons i rest ih =>
    intro l hnd h
    obtain ⟨h1, h2⟩ := List.nodup_cons.1 hnd
    unfold pairsAll at h
    rcases ih _ h2 h with h | ⟨x, hx, h⟩
    · exact pairsInner_from rest l h1 h
    · exact Or.inr ⟨x, hx, by simp [h]⟩

/-- Edges that belong to their planes, each there once, on lines clearly apart. -/
structure Planar (B : Input) : Prop where
  plane : ∀ p, ∀ j ∈ B.edges p, (B.E j).plane = p
  nodup : ∀ p, (B.edges p).Nodup
  trans : ∀ p, ∀ a ∈ B.edges p, ∀ b ∈ B.edges p, ∀ c ∈ B.edges p, SameLine (B.E a).seg (B.E b).seg →
    SameLine (B.E b).seg (B.E c).seg → SameLine (B.E a).seg (B.E c).seg

/-- Each conflict is about edges of one plane that share a line fixed on its axis. -/
theorem colinear_all {B : Input} (hB : Planar B) (planes : List Plane) (hp : planes.Nodup) : ∀ (s : Colinear) (done : List Plane),
    (∀ p ∈ planes, p ∉ done) →
    (∀ w, ∀ c ∈ s w, c ≠ [] ∧ ∃ p ∈ done, (∀ x ∈ c, x ∈ B.edges p) ∧ ∀ x ∈ c, ∀ y ∈ c, handed B.E p w x y = true) →
    ∀ w, ∀ c ∈ planes.foldl (fun s plane => detectColinear B.E plane s (B.edges plane)) s w,
      c ≠ [] ∧ ∃ p, (∀ x ∈ c, x ∈ B.edges p) ∧ ∀ x ∈ c, ∀ y ∈ c, handed B.E p w x y = true := by
  induction planes with
  | nil =>
    intro s done _ h w c hc
    obtain ⟨h1, p, -, h2⟩ := h w c hc
    exact ⟨h1, p, h2⟩
  | cons p rest ih =>
    intro s done hd h w c hc
    obtain ⟨hp1, hp2⟩ := List.nodup_cons.1 hp
    rw [List.foldl_cons] at hc
    refine ih hp2 _ (p :: done) ?_ ?_ w c hc
    · intro q hq
      simp only [List.mem_cons, not_or]
      exact ⟨by rintro rfl; exact hp1 hq, hd q (by simp [hq])⟩
    · intro w c hc
      have hnew : ∀ c ∈ s w, ∀ x ∈ c, x ∉ B.edges p := by
        intro c hc x hx hxe
        obtain ⟨-, q, hq, h2, -⟩ := h w c hc
        have e1 := hB.plane q x (h2 x hx)
        have e2 := hB.plane p x hxe
        exact hd p (by simp) (e2 ▸ e1 ▸ hq)
      have hg := detectColinear_grouped w (s := s) (hB.plane p) (hB.nodup p) hnew (hB.trans p)
      have hne : c ≠ [] := by
        rw [detectColinear_axis w _ s (hB.plane p)] at hc
        exact pairsAll_ne_nil _ _ (fun c hc => (h w c hc).1) (hB.nodup p) c hc
      refine ⟨hne, ?_⟩
      rcases hg.inside c hc with h' | ⟨h1, -, h2, -⟩
      · rw [detectColinear_axis w _ s (hB.plane p)] at hc
        rcases pairsAll_from _ _ (hB.nodup p) hc with hc | ⟨x, hx, hxe⟩
        · obtain ⟨-, q, hq, h2⟩ := h w c hc
          exact ⟨q, by simp [hq], h2⟩
        · exact absurd hxe (h' x hx)
      · exact ⟨p, by simp, h1, h2⟩

theorem detectAllColinear_spec {B : Input} (hB : Planar B) (w : Geom.Axis) : ∀ c ∈ detectAllColinear B w,
      c ≠ [] ∧ ∃ p, (∀ x ∈ c, x ∈ B.edges p) ∧ ∀ x ∈ c, ∀ y ∈ c, handed B.E p w x y = true :=
  colinear_all hB allPlanes (by decide) _ [] (by simp) (by simp) w

/-- Edges of a plane that share a line are in a conflict. -/
theorem colinear_found {B : Input} (hB : Planar B) (planes : List Plane) (hp : planes.Nodup) : ∀ (s : Colinear) (done : List Plane),
    (∀ p ∈ planes, p ∉ done) →
    (∀ w, ∀ c ∈ s w, ∃ p ∈ done, ∀ x ∈ c, x ∈ B.edges p) →
    (∀ w, ∀ c ∈ s w, c ∈ planes.foldl (fun s plane => detectColinear B.E plane s (B.edges plane)) s w) ∧
    ∀ p ∈ planes, ∀ i ∈ B.edges p, ∀ j ∈ B.edges p, i ≠ j → SameLine (B.E i).seg (B.E j).seg →
      ∃ w, ∃ c ∈ planes.foldl (fun s plane => detectColinear B.E plane s (B.edges plane)) s w, i ∈ c := by
  induction planes with
  | nil => exact fun s done _ _ => ⟨fun w c hc => hc, fun p hp => absurd hp List.not_mem_nil⟩
  | cons p rest ih =>
    intro s done hd h
    obtain ⟨hp1, hp2⟩ := List.nodup_cons.1 hp
    rw [List.foldl_cons]
    have hnew : ∀ w, ∀ c ∈ s w, ∀ x ∈ c, x ∉ B.edges p := by
      intro w c hc x hx hxe
      obtain ⟨q, hq, h2⟩ := h w c hc
      have e1 := hB.plane q x (h2 x hx)
      have e2 := hB.plane p x hxe
      exact hd p (by simp) (e2 ▸ e1 ▸ hq)
    obtain ⟨hshare, -, hold⟩ := C30_partial (s := s) (hB.plane p) (hB.nodup p) hnew (hB.trans p)
    obtain ⟨hkeep, hrest⟩ := ih hp2 (detectColinear B.E p s (B.edges p)) (p :: done)
      (fun q hq => by
        simp only [List.mem_cons, not_or]
        exact ⟨by rintro rfl; exact hp1 hq, hd q (by simp [hq])⟩)
      (fun w c hc => by
        rcases (detectColinear_grouped w (s := s) (hB.plane p) (hB.nodup p) (hnew w) (hB.trans p)).inside c hc with
          h' | ⟨h1, -⟩
        · rw [detectColinear_axis w _ s (hB.plane p)] at hc
          rcases pairsAll_from _ _ (hB.nodup p) hc with hc | ⟨x, hx, hxe⟩
          · obtain ⟨q, hq, h2⟩ := h w c hc
            exact ⟨q, by simp [hq], h2⟩
          · exact absurd hxe (h' x hx)
        · exact ⟨p, by simp, h1⟩)
    refine ⟨fun w c hc => hkeep w c (hold w c hc), fun q hq i hi j hj hij hl => ?_⟩
    rcases List.mem_cons.1 hq with rfl | hq
    · obtain ⟨w, c, hc, hic, -⟩ := (hshare i hi j hj hij).2 hl
      exact ⟨w, c, hkeep w c hc, hic⟩
    · exact hrest q hq i hi j hj hij hl

theorem detectAllColinear_found {B : Input} (hB : Planar B) {p : Plane} {i j : Nat} (hi : i ∈ B.edges p) (hj : j ∈ B.edges p)
    (hij : i ≠ j) (h : SameLine (B.E i).seg (B.E j).seg) : ∃ w, ∃ c ∈ detectAllColinear B w, i ∈ c :=
  (colinear_found hB allPlanes (by decide) _ [] (by simp) (by simp)).2 p (by cases p <;> simp [allPlanes]) i hi j hj hij h

theorem handed_same {E E' : Nat → BEdge} (h : SameEdges E E') (p : Plane) (w : Geom.Axis) (x y : Nat) :
    handed E' p w x y = handed E p w x y := by
  obtain ⟨b, hb⟩ := h x
  obtain ⟨b', hb'⟩ := h y
  unfold handed BEdge.axis
  rw [hb, hb']

/-- What two edges handed together have in common. -/
theorem handed_coord {E : Nat → BEdge} {p : Plane} {w : Geom.Axis} {x y : Nat} (h : handed E p w x y = true)
    {coord : ℚ} (hc : segCoord (E y).seg.p0 (E y).axis = some coord) :
    ∃ cf, segCoord (E x).seg.p0 (E x).axis = some cf ∧ |cf - coord| < tolerance := by
  rcases (handed_iff.1 h).2 with ⟨h1, h2, h3⟩ | ⟨h1, h2, h3⟩
  · have e1 : (E x).axis = .h := horizontal_iff.1 h1
    have e2 : (E y).axis = .h := horizontal_iff.1 h2
    rw [e2] at hc
    rw [e1]
    exact ⟨_, rfl, by rw [← Option.some.inj hc]; exact h3⟩
  · have e1 : (E x).axis = .v := vertical_iff.1 h1
    have e2 : (E y).axis = .v := vertical_iff.1 h2
    rw [e2] at hc
    rw [e1]
    exact ⟨_, rfl, by rw [← Option.some.inj hc]; exact h3⟩

/-- The policies asked for on an axis: all accepted, those enabled at the coordinates of edges to mesh and of angles to mesh;
one for each edge to mesh that has a side or shares its line, and for each angle to mesh. -/
theorem board_policies {B : Input} (hB : Planar B) {E : Nat → BEdge} (hE : SameEdges B.E E) (L : List BAngle) (m : ToMesh)
    (axis : Geom.Axis) :
    ∃ asked, boardPolicies B E L m (detectAllColinear B) axis = some asked ∧
      (∀ q ∈ asked, accepted q.1 q.2.1 = true) ∧
      (∀ q ∈ asked, q.2.2.2 = true → (∃ p, ∃ i ∈ B.edges p, Fixed p (B.E i).seg axis q.2.2.1 ∧
        ∃ j ∈ B.edges p, (E j).toMesh = true ∧ ∃ coord, Fixed p (B.E j).seg axis coord ∧ |q.2.2.1 - coord| < tolerance) ∨
        ∃ n < L.length, ∃ va, spaceAxis (angleAt L n).plane va = axis ∧ m n va = true ∧ along va (angleAt L n).p = q.2.2.1) ∧
      (∀ p, ∀ i ∈ B.edges p, (E i).toMesh = true →
        ((B.E i).side ≠ .none ∨ ∃ j ∈ B.edges p, i ≠ j ∧ SameLine (B.E i).seg (B.E j).seg) → ∀ coord, Fixed p (B.E i).seg axis coord →
        ∃ q ∈ asked, q.2.2.2 = true ∧ ∃ j ∈ B.edges p, Fixed p (B.E j).seg axis q.2.2.1 ∧ |q.2.2.1 - coord| < tolerance) ∧
      ∀ n < L.length, ∀ va, spaceAxis (angleAt L n).plane va = axis → m n va = true →
        ∃ q ∈ asked, q.2.2.2 = true ∧ q.2.2.1 = along va (angleAt L n).p := by
  obtain ⟨solved, hsolved, hall⟩ := mapM_some (fun c => solveColinear (c.map E)) (detectAllColinear B axis)
    (fun c hc => solveColinear_defined (by simpa using (detectAllColinear_spec hB axis c hc).1))
  have hseg : ∀ n, (E n).seg = (B.E n).seg := fun n => by obtain ⟨b, hb⟩ := hE n; rw [hb]
  have hside : ∀ n, (E n).side = (B.E n).side := fun n => by obtain ⟨b, hb⟩ := hE n; rw [hb]
  unfold boardPolicies
  rw [hsolved]
  refine ⟨_, rfl, fun q hq => (List.mem_filter.1 hq).2, ?_, ?_, ?_⟩
  · intro q hq hen
    obtain ⟨hq, hacc⟩ := List.mem_filter.1 hq
    rcases List.mem_append.1 hq with hq | hq
    · left
      obtain ⟨r, hr, rfl⟩ := List.mem_map.1 hq
      obtain ⟨r', hr, e⟩ := List.mem_filterMap.1 hr
      simp only [id_eq] at e
      subst e
      obtain ⟨c, hc, hsol⟩ := mapM_mem _ _ hsolved hr
      obtain ⟨⟨front, hf, hcf⟩, e, he, hm⟩ := solveColinear_source hsol
      obtain ⟨f, hfc, rfl⟩ := List.mem_map.1 hf
      obtain ⟨j, hj, rfl⟩ := List.mem_map.1 he
      obtain ⟨-, p, h1, h2⟩ := detectAllColinear_spec hB axis c hc
      have hta : ∀ x ∈ c, transposeSeg p (E x).axis = some axis := by
        intro x hx
        have := (handed_iff.1 (h2 x hx x hx)).1
        unfold BEdge.axis at this ⊢
        rw [hseg]
        exact this
      obtain ⟨cj, hcj, hnear⟩ := handed_coord (E := E) (by rw [handed_same hE]; exact h2 j hj f hfc) hcf
      refine ⟨p, f, h1 f hfc, ?_, j, h1 j hj, hm, cj, ?_, ?_⟩
      · rw [← hseg]
        exact Fixed.of_model (hta f hfc) hcf
      · rw [← hseg]
        exact Fixed.of_model (hta j hj) hcj
      · rw [abs_sub_comm]
        exact hnear
    · obtain ⟨p, -, hq⟩ := List.mem_flatMap.1 hq
      rcases List.mem_append.1 hq with hq | hq
      swap
      · right
        obtain ⟨r, hr, e⟩ := List.mem_filterMap.1 hq
        split_ifs at e with hw
        obtain rfl := Option.some.inj e
        obtain ⟨n, hn, hr⟩ := List.mem_flatMap.1 hr
        obtain ⟨va, -, rfl⟩ := List.mem_map.1 hr
        obtain ⟨hn, hpl⟩ := List.mem_filter.1 hn
        refine ⟨n, List.mem_range.1 hn, va, ?_, hen, (coord_along _ _).symm⟩
        rw [of_decide_eq_true hpl, ← axes_space]
        exact hw
      left
      obtain ⟨i, hi, e⟩ := List.mem_filterMap.1 hq
      unfold individual at e
      cases h1 : segCoord (E i).seg.p0 (E i).axis with
      | none => rw [h1] at e; simp at e
      | some coord =>
        cases h2 : transposeSeg p (E i).axis with
        | none => rw [h1, h2] at e; simp at e
        | some w =>
          rw [h1, h2] at e
          dsimp only at e
          split_ifs at e with h3
          · dsimp only at e
            split_ifs at e with h4
            subst h4
            obtain rfl := Option.some.inj e
            have hfix := Fixed.of_model h2 h1
            rw [hseg] at hfix
            exact ⟨p, i, hi, hfix, i, hi, h3.2, coord, hfix, by simp [tolerance_pos]⟩
  · intro p i hi hmesh hsd coord hfix
    have hfix' := hfix
    rw [← hseg] at hfix'
    obtain ⟨hta, htc⟩ := hfix'.model
    by_cases hj : ∃ w, ∃ c ∈ detectAllColinear B w, i ∈ c
    · obtain ⟨w, c, hc, hic⟩ := hj
      obtain ⟨-, p', h1, h2⟩ := detectAllColinear_spec hB w c hc
      have hpp : p' = p := (hB.plane p' i (h1 i hic)).symm.trans (hB.plane p i hi)
      subst hpp
      have hta' : ∀ x ∈ c, transposeSeg p' (E x).axis = some w := by
        intro x hx
        have := (handed_iff.1 (h2 x hx x hx)).1
        unfold BEdge.axis at this ⊢
        rw [hseg]
        exact this
      have hw : w = axis := by
        have := hta' i hic
        rw [hta] at this
        exact (Option.some.inj this).symm
      subst hw
      cases c with
      | nil => simp at hic
      | cons f rest =>
        obtain ⟨cf, hcf, hnear⟩ := handed_coord (E := E) (by rw [handed_same hE]; exact h2 f (by simp) i hic) htc
        obtain ⟨kind, side, hsol, hacc⟩ := solveColinear_accepted (rest := rest.map E) hcf
          ⟨E i, by rw [← List.map_cons]; exact List.mem_map_of_mem hic, hmesh⟩
        obtain ⟨b, hb, e⟩ := hall _ hc
        rw [List.map_cons, hsol] at e
        obtain rfl := Option.some.inj e
        refine ⟨(kind, side, cf, true), ?_, rfl, f, h1 f (by simp), ?_, hnear⟩
        · rw [List.mem_filter]
          exact ⟨List.mem_append_left _ (List.mem_map.2 ⟨(kind, side, cf), List.mem_filterMap.2 ⟨_, hb, rfl⟩, rfl⟩), hacc⟩
        · rw [← hseg]
          exact Fixed.of_model (hta' f (by simp)) hcf
    · have hnone : ([Geom.Axis.x, .y, .z].any fun w => (detectAllColinear B w).any fun c => c.contains i) = false := by
        rw [← Bool.not_eq_true]
        intro h
        obtain ⟨w, -, h⟩ := List.any_eq_true.1 h
        obtain ⟨c, hc, h⟩ := List.any_eq_true.1 h
        exact hj ⟨w, c, hc, by simpa using h⟩
      refine ⟨(.thirds, castNormal (E i).normal, coord, true), ?_, rfl, i, hi, hfix, by simp [tolerance_pos]⟩
      rw [List.mem_filter]
      constructor
      · refine List.mem_append_right _ (List.mem_flatMap.2 ⟨p, by cases p <;> simp [allPlanes],
          List.mem_append_left _ (List.mem_filterMap.2 ⟨i, hi, ?_⟩)⟩)
        unfold individual
        rw [htc, hta]
        simp only [hnone, hmesh, and_self, if_true]
      · rw [castNormal_eq]
        unfold BEdge.normal
        have hsd : (E i).side ≠ .none := by
          rw [hside]
          rcases hsd with h | ⟨j, hj', hij, h⟩
          · exact h
          · exact absurd (detectAllColinear_found hB hi hj' hij h) hj
        revert hsd
        cases (E i).side <;> cases (E i).toReverse <;> simp [accepted, facing, Normal.reverse]
  · intro n hn va hw hm
    refine ⟨(.halfs, .none, along va (angleAt L n).p, true), ?_, rfl, rfl⟩
    rw [List.mem_filter]
    refine ⟨List.mem_append_right _ (List.mem_flatMap.2 ⟨(angleAt L n).plane, ?_, List.mem_append_right _
      (List.mem_filterMap.2 ⟨(axis, .halfs, .none, along va (angleAt L n).p, true), List.mem_flatMap.2 ⟨n, ?_, ?_⟩, ?_⟩)⟩), rfl⟩
    · cases (angleAt L n).plane <;> simp [allPlanes]
    · exact List.mem_filter.2 ⟨List.mem_range.2 hn, by simp⟩
    · refine List.mem_map.2 ⟨va, by cases va <;> simp, ?_⟩
      rw [axes_space, coord_along, hw, hm]
    · simp

end Verif.Board
