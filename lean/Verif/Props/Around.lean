import Verif.Lemmas.Around
import Verif.Lemmas.Fuel
import Verif.Props.Manager

/-!
# C71: halves and thirds
-/

namespace Verif.Mesh
open Spec List

/-- Around a policy that is not ONELINE, in lines woven from those of the intervals. -/
theorem woven_around {a : Axis} {D : ℚ} {o : List Nat} {lines : List ℚ} {ls : List (List ℚ)} (hc : a.Coherent)
    (hperm : o.Perm a.enabledPointers) (hchain : o.IsChain fun i j => (a.get i).coord < (a.get j).coord)
    (hf : Forall₂ (fun pq l => LinesBetween D pq.1 pq.2 l) (consecutive (o.map a.get)) ls)
    (hw : lines = weave (o.map a.get) ls) (k : Nat) (hk : a.Enabled k) (hone : (a.get k).kind ≠ .oneline) :
    (a.get k).coord ∉ lines ∧
      ((∃ j, a.Enabled j ∧ (a.get k).coord < (a.get j).coord) → ∃ d, 0 < d ∧ d ≤ D ∧ d ≤ (a.get k).d ∧
        NextAbove lines (a.get k).coord ((1 - (a.get k).lowShare) * d)) ∧
      ((∃ j, a.Enabled j ∧ (a.get j).coord < (a.get k).coord) → ∃ d, 0 < d ∧ d ≤ D ∧ d ≤ (a.get k).d ∧
        NextBelow lines (a.get k).coord ((a.get k).lowShare * d)) := by
  have hmem : ∀ k, k ∈ o ↔ a.Enabled k := fun k => hperm.mem_iff.trans mem_enabledPointers
  obtain ⟨n, hn, rfl⟩ := List.getElem_of_mem ((hmem k).2 hk)
  have hlt : ∀ i j (hi : i < o.length) (hj : j < o.length), i < j → (a.get o[i]).coord < (a.get o[j]).coord := by
    have := (List.isChain_map (R := (· < ·)) fun i => (a.get i).coord).2 hchain
    have := List.pairwise_map.1 (List.isChain_iff_pairwise.1 this)
    intro i j hi hj h
    exact List.pairwise_iff_getElem.1 this i j hi hj h
  have key := weave_around hf ((List.isChain_map (R := fun p q => p.coord < q.coord) a.get).2 hchain) (n := n)
    (by simpa using hn) (by simpa using hone)
  simp only [List.getElem_map, List.length_map] at key
  rw [← hw, kAfter_share (coherent_get hc _) hone, kBefore_share (coherent_get hc _) hone] at key
  refine ⟨key.1, ?_, ?_⟩
  · rintro ⟨j, hj, h⟩
    obtain ⟨m, hm, rfl⟩ := List.getElem_of_mem ((hmem j).2 hj)
    refine key.2.1 ?_
    by_contra hcon
    rcases Nat.lt_or_eq_of_le (show m ≤ n by omega) with h' | rfl
    · linarith [hlt m n hm hn h']
    · exact lt_irrefl _ h
  · rintro ⟨j, hj, h⟩
    obtain ⟨m, hm, rfl⟩ := List.getElem_of_mem ((hmem j).2 hj)
    refine key.2.2 ?_
    by_contra hcon
    rcases Nat.lt_or_eq_of_le (show n ≤ m by omega) with h' | rfl
    · linarith [hlt n m hn hm h']
    · exact lt_irrefl _ h

/-- After meshing, an enabled policy that is not ONELINE has no line at its coordinate; when there is an enabled policy
above, the next line above is at its share of a cell, and the same below. The cells are not larger than `dmax` nor than the
`d` of the policy. What is missing is that both cells are the same: see `C71_false`. -/
theorem C71_sides_partial (S : Sorter Nat) (S' : Sorter Interval) (T : Sorter ℚ) (g : MeshParams) (a : Axis)
    (hg : g.InRange) (hc : a.Coherent) (hs : a.Separated) (hd : a.PositiveD) (hi : a.intervals = [])
    (hm : a.meshlines = []) :
    ∃ b, (a.detectIntervals S g).mesh S' T = some b ∧ ∀ k, a.Enabled k → (a.get k).kind ≠ .oneline →
      (a.get k).coord ∉ b.meshlines ∧
      ((∃ j, a.Enabled j ∧ (a.get k).coord < (a.get j).coord) → ∃ d, 0 < d ∧ d ≤ g.dmax ∧ d ≤ (a.get k).d ∧
        NextAbove b.meshlines (a.get k).coord ((1 - (a.get k).lowShare) * d)) ∧
      ((∃ j, a.Enabled j ∧ (a.get j).coord < (a.get k).coord) → ∃ d, 0 < d ∧ d ≤ g.dmax ∧ d ≤ (a.get k).d ∧
        NextBelow b.meshlines (a.get k).coord ((a.get k).lowShare * d)) := by
  obtain ⟨o, b, ls, hperm, hchain, hb, hf, hw, -⟩ := mesh_fresh S S' T g a hg hc hs hd hi hm
  exact ⟨b, hb, woven_around hc hperm hchain hf hw⟩

example := C71_sides_partial (Sorter.merge Nat) (Sorter.merge Interval) (Sorter.merge ℚ) sampleParams
    sampleAxis sampleParams_ok sampleAxis_coherent sampleAxis_separated sampleAxis_d rfl rfl

/-- Adds policies to an axis. -/
def Axis.addAll (g : MeshParams) (a : Axis) (l : List (Kind × Facing × ℚ × Bool)) : Axis :=
  l.foldl (fun a p => (a.addPolicy g p.1 p.2.1 p.2.2.1 p.2.2.2).1) a

/-- From the policies asked for to the lines: whatever policies are added to an empty axis, merging those that are too
close and meshing ends, and around every enabled policy that is not ONELINE, the cells are at most half of `dmax`. -/
theorem C71_cells (S : Sorter Nat) (S' : Sorter Interval) (T : Sorter ℚ) (g : MeshParams) (hg : g.InRange)
    (hl : 0 ≤ g.proximityLimit) (l : List (Kind × Facing × ℚ × Bool)) :
    ∃ b c, ((⟨[], [], [], []⟩ : Axis).addAll g l).solveTooClose S g = some b ∧ (b.detectIntervals S g).mesh S' T = some c ∧
      ∀ k, b.Enabled k → (b.get k).kind ≠ .oneline → (b.get k).coord ∉ c.meshlines ∧
        ((∃ j, b.Enabled j ∧ (b.get k).coord < (b.get j).coord) → ∃ d, d ≤ g.dmax / 2 ∧
          NextAbove c.meshlines (b.get k).coord ((1 - (b.get k).lowShare) * d)) ∧
        ((∃ j, b.Enabled j ∧ (b.get j).coord < (b.get k).coord) → ∃ d, d ≤ g.dmax / 2 ∧
          NextBelow c.meshlines (b.get k).coord ((b.get k).lowShare * d)) := by
  let P : Axis → Prop := fun x => x.PositiveD ∧ x.Coherent ∧ x.intervals = [] ∧ x.meshlines = [] ∧
    ∀ k, x.Enabled k → (x.get k).d ≤ g.dmax / 2
  have hadd : ∀ (l : List (Kind × Facing × ℚ × Bool)) (a : Axis), P a → a.conflicts = [] →
      P (a.addAll g l) ∧ (a.addAll g l).conflicts = [] := by
    intro l
    induction l with
    | nil => exact fun a ha h => ⟨ha, h⟩
    | cons p l ih =>
      intro a ha h
      refine ih _ ?_ ?_
      · unfold Axis.addPolicy
        dsimp only
        split
        · exact ha
        · rename_i hco
          obtain ⟨h1, h2, h3, h4, h5⟩ := ha
          have hp : ∀ k, ({ a with policies := a.policies ++ [Policy.make g.dmax p.2.2.1 p.1 p.2.1 p.2.2.2] } : Axis).Enabled k →
              (a.Enabled k ∧ ({ a with policies := a.policies ++ [Policy.make g.dmax p.2.2.1 p.1 p.2.1 p.2.2.2] } : Axis).get k = a.get k) ∨
              (({ a with policies := a.policies ++ [Policy.make g.dmax p.2.2.1 p.1 p.2.1 p.2.2.2] } : Axis).get k).d = g.dmax / 2 := by
            rintro k ⟨q, hq, he⟩
            simp only at hq
            rcases Nat.lt_or_ge k a.policies.length with hk | hk
            · rw [List.getElem?_append_left hk] at hq
              exact .inl ⟨⟨q, hq, he⟩, by simp [Axis.get, List.getElem?_append_left hk]⟩
            · rw [List.getElem?_append_right hk] at hq
              right
              simp only [Axis.get, List.getElem?_append_right hk]
              rw [hq]
              have : q = Policy.make g.dmax p.2.2.1 p.1 p.2.1 p.2.2.2 := by
                have := List.mem_of_getElem? hq
                simpa using this
              rw [this]
              rfl
          refine ⟨fun k hk => ?_, ?_, h3, h4, fun k hk => ?_⟩
          · rcases hp k hk with ⟨h, e⟩ | e
            · rw [e]; exact h1 k h
            · rw [e]; have := hg.dmax_pos; linarith
          · intro q hq
            simp only [List.mem_append, List.mem_singleton] at hq
            rcases hq with hq | rfl
            · exact h2 q hq
            · unfold Policy.Coherent
              simp only [Policy.make]
              tauto
          · rcases hp k hk with ⟨h, e⟩ | e
            · rw [e]; exact h5 k h
            · rw [e]
      · unfold Axis.addPolicy
        dsimp only
        split
        · exact h
        · exact h
  obtain ⟨hP, hconf⟩ := hadd l ⟨[], [], [], []⟩
    ⟨fun k ⟨p, hp, _⟩ => by simp at hp, fun p hp => by simp at hp, rfl, rfl, fun k ⟨p, hp, _⟩ => by simp at hp⟩ rfl
  have hstep : ∀ x i j y, x.Unmerged → P x → x.detectClosest S g.proximityLimit = some (i, j) →
      x.addTooClose i j = some y → P (y.solveConflict g i j) := by
    intro x i j y _ ⟨h1, h2, h3, h4, h5⟩ hdc hy
    obtain ⟨hi, hj, -, -⟩ := detectClosest_some hdc
    obtain ⟨-, -, -, e1, e2⟩ := addTooClose_some hi hj hy
    refine ⟨d_step hg.dmax_pos hi hj h1 hy, coherent_step h2 hy, ?_, ?_, fun k hk => ?_⟩
    · rcases solveConflict_cases g y i j with he | ⟨_, _, _, _, he⟩ <;> rw [he] <;> exact e1.trans h3
    · rcases solveConflict_cases g y i j with he | ⟨_, _, _, _, he⟩ <;> rw [he] <;> exact e2.trans h4
    · rcases enabled_step hi hj hy k hk with ⟨h, -, -, e⟩ | ⟨-, _, _, _, -, e⟩
      · rw [e]; exact h5 k h
      · rw [e]; exact le_rfl
  obtain ⟨b, hb, -, ⟨hbd, hbc, hbi, hbm, hbl⟩, hnone⟩ := solveTooClose_induct S g P hstep _ _ le_rfl
    (fun c hc => by rw [hconf] at hc; simp at hc) hP
  have hsep : b.Separated := by
    intro i j hi hj hne h
    have := detectClosest_none hnone i j hi hj hne
    rw [h, sub_self, abs_zero] at this
    linarith
  obtain ⟨c, hcm, h⟩ := C71_sides_partial S S' T g b hg hbc hsep hbd hbi hbm
  refine ⟨b, c, hb, hcm, fun k hk hone => ?_⟩
  obtain ⟨h1, h2, h3⟩ := h k hk hone
  refine ⟨h1, fun hj => ?_, fun hj => ?_⟩
  · obtain ⟨d, -, -, hd, h⟩ := h2 hj
    exact ⟨d, hd.trans (hbl k hk), h⟩
  · obtain ⟨d, -, -, hd, h⟩ := h3 hj
    exact ⟨d, hd.trans (hbl k hk), h⟩

/-- Parameters that ask for no growth of the cells. -/
def evenParams : MeshParams := ⟨0, 1, 1, 5⟩

/-- Two fixed lines, 17 and 18, close to each other, and an edge at 7 between 0 and 17. -/
def unevenPolicies : List (Kind × Facing × ℚ × Bool) :=
  [(.oneline, .none, 0, true), (.halfs, .none, 7, true), (.oneline, .none, 17, true), (.oneline, .none, 18, true)]

example : evenParams.InRange ∧ 0 ≤ evenParams.proximityLimit ∧
    ((⟨[], [], [], []⟩ : Axis).addAll evenParams unevenPolicies).policies.length = 4 := by
  refine ⟨⟨by norm_num [evenParams], by norm_num [evenParams]⟩, by norm_num [evenParams], by decide +kernel⟩

/-- The cells on both sides of an edge are not the same: the next line below the edge at 7 is at 5/4 and the next one above
at 1/4, though it asks for halves. The interval above lowered the `d` of the edge after the one below was meshed. -/
theorem C71_false : ∃ (S : Sorter Nat) (S' : Sorter Interval) (T : Sorter ℚ) (g : MeshParams)
    (l : List (Kind × Facing × ℚ × Bool)) (b c : Axis) (k : Nat), g.InRange ∧ 0 ≤ g.proximityLimit ∧
    ((⟨[], [], [], []⟩ : Axis).addAll g l).solveTooClose S g = some b ∧ (b.detectIntervals S g).mesh S' T = some c ∧
    b.Enabled k ∧ (b.get k).kind = .halfs ∧ NextBelow c.meshlines (b.get k).coord (5 / 4) ∧
    NextAbove c.meshlines (b.get k).coord (1 / 4) := by
  have h : (((⟨[], [], [], []⟩ : Axis).addAll evenParams unevenPolicies).solveTooCloseF (Sorter.insertion Nat) evenParams
      3).bind (fun b => ((b.detectIntervals (Sorter.insertion Nat) evenParams).meshF 30 (Sorter.insertion Interval)
        (Sorter.insertion ℚ)).map fun c => (b.policies[1]?.map fun p => (p.coord, p.kind, p.enabled),
          decide (7 - 5 / 4 ∈ c.meshlines ∧ ∀ y ∈ c.meshlines, y < 7 → y ≤ 7 - 5 / 4),
          decide (7 + 1 / 4 ∈ c.meshlines ∧ ∀ y ∈ c.meshlines, 7 < y → 7 + 1 / 4 ≤ y))) =
      some (some (7, .halfs, true), true, true) := by decide +kernel
  obtain ⟨b, hb, h⟩ := Option.bind_eq_some_iff.1 h
  obtain ⟨c, hc, h⟩ := Option.map_eq_some_iff.1 h
  simp only [Prod.mk.injEq, decide_eq_true_eq] at h
  obtain ⟨h, hlow, hhigh⟩ := h
  obtain ⟨p, hp, h⟩ := Option.map_eq_some_iff.1 h
  simp only [Prod.mk.injEq] at h
  have hget : b.get 1 = p := by simp [Axis.get, hp]
  refine ⟨_, _, _, evenParams, unevenPolicies, b, c, 1, ⟨by norm_num [evenParams], by norm_num [evenParams]⟩,
    by norm_num [evenParams], (solveTooCloseF_below ..).eq _ hb, (meshF_below ..).eq _ hc,
    ⟨p, hp, h.2.2⟩, ?_⟩
  rw [hget, h.1]
  exact ⟨h.2.1, ⟨by norm_num, hlow.1, hlow.2⟩, ⟨by norm_num, hhigh.1, hhigh.2⟩⟩

end Verif.Mesh
