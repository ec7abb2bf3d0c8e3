import Verif.Props.RunKinds

/-!
# C119: a line asked for stays where it is
-/

namespace Verif.Mesh
open Spec

/-- Where one line is asked for and no other is within the proximity limit, merging leaves a policy of one line at that very
coordinate, whatever policies of other kinds are around. -/
theorem C119_merging (S : Sorter Nat) (g : MeshParams) (a b : Axis) (hu : a.Unmerged) (hc : a.Coherent)
    (hl : 0 ≤ g.proximityLimit) (h : a.solveTooClose S g = some b) {c : ℚ} (hat : a.One c)
    (hfar : ∀ k, a.Enabled k → (a.get k).kind = .oneline → (a.get k).coord = c ∨ g.proximityLimit < |(a.get k).coord - c|) :
    b.One c := by
  let P : Axis → Prop := fun x => x.Coherent ∧ x.One c ∧
    ¬ x.Holds fun coord kind _ => kind = .oneline ∧ ¬ (coord = c ∨ g.proximityLimit < |coord - c|)
  have hstep : ∀ x i j y, x.Unmerged → P x → x.detectClosest S g.proximityLimit = some (i, j) →
      x.addTooClose i j = some y → P (y.solveConflict g i j) := by
    intro x i j y _ ⟨hx1, hx2, hx3⟩ hd hy
    obtain ⟨hi, hj, hne, hclose⟩ := detectClosest_some hd
    obtain ⟨kind, normal, coord, hm, hold⟩ := step_exact (g := g) hi hj hx1 hy
    have far : ∀ k, x.Enabled k → (x.get k).kind = .oneline → (x.get k).coord = c ∨ g.proximityLimit < |(x.get k).coord - c| := by
      intro k hk hkind
      by_contra hn
      exact hx3 ⟨k, hk, hkind, hn⟩
    have fi := far i hi
    have fj := far j hj
    -- what the two are merged into
    have hmid : ∀ {u w : ℚ}, |u - w| ≤ g.proximityLimit → (u = c ∨ g.proximityLimit < |u - c|) →
        (w = c ∨ g.proximityLimit < |w - c|) → (u = c ∧ w = c ∧ (u + w) / 2 = c) ∨
          (u ≠ c ∧ w ≠ c ∧ g.proximityLimit < |(u + w) / 2 - c|) := by
      intro u w h1 h2 h3
      rcases h2 with rfl | h2 <;> rcases h3 with e | h3
      · subst e; left; simp
      · rw [abs_sub_comm] at h1; linarith
      · subst e; linarith
      · right
        refine ⟨fun e => ?_, fun e => ?_, ?_⟩
        · rw [e, sub_self, abs_zero] at h2; linarith
        · rw [e, sub_self, abs_zero] at h3; linarith
        · rw [abs_le] at h1
          rw [lt_abs] at h2 h3 ⊢
          rcases h2 with h2 | h2 <;> rcases h3 with h3 | h3
          · left; linarith
          · linarith
          · linarith
          · right; linarith
    have key : ((((x.get i).coord = c ∧ (x.get i).kind = .oneline) ∨ ((x.get j).coord = c ∧ (x.get j).kind = .oneline)) →
          coord = c ∧ kind = .oneline) ∧
        (kind = .oneline → coord = c ∨ g.proximityLimit < |coord - c|) := by
      unfold mergeChoice at hm
      cases ki : (x.get i).kind <;> cases kj : (x.get j).kind <;> rw [ki, kj] at hm
      · obtain ⟨rfl, -, rfl⟩ : Kind.oneline = kind ∧ _ ∧ _ = coord := by simpa using hm
        rcases hmid hclose (fi ki) (fj kj) with ⟨e1, e2, e3⟩ | ⟨e1, e2, e3⟩
        · exact ⟨fun _ => ⟨e3, rfl⟩, fun _ => Or.inl e3⟩
        · refine ⟨?_, fun _ => Or.inr e3⟩
          rintro (⟨e, -⟩ | ⟨e, -⟩)
          · exact absurd e e1
          · exact absurd e e2
      all_goals first
        | (obtain ⟨rfl, -, rfl⟩ : Kind.oneline = kind ∧ Facing.none = normal ∧ (x.get i).coord = coord := by simpa using hm
           refine ⟨?_, fun _ => fi ki⟩
           rintro (⟨e, -⟩ | ⟨-, h⟩)
           · exact ⟨e, rfl⟩
           · cases h)
        | (obtain ⟨rfl, -, rfl⟩ : Kind.oneline = kind ∧ Facing.none = normal ∧ (x.get j).coord = coord := by simpa using hm
           refine ⟨?_, fun _ => fj kj⟩
           rintro (⟨-, h⟩ | ⟨e, -⟩)
           · cases h
           · exact ⟨e, rfl⟩)
        | (have hk : kind ≠ .oneline := by
             rintro rfl
             revert hm
             simp only
             first
               | simp; done
               | (split
                  · simp
                  · split <;> simp)
           refine ⟨?_, fun h => absurd h hk⟩
           rintro (⟨-, h⟩ | ⟨-, h⟩) <;> cases h)
    refine ⟨coherent_step hx1 hy, ?_, ?_⟩
    · show (y.solveConflict g i j).Holds _
      rw [hold]
      rcases (holds_split hi hj _).1 hx2 with h | h
      · exact Or.inl h
      · exact Or.inr (key.1 h)
    · rw [hold]
      rintro (⟨k, -, -, hk, hR⟩ | ⟨h1, h2⟩)
      · exact hx3 ⟨k, hk, hR⟩
      · exact h2 (key.2 h1)
  obtain ⟨b', hb', -, ⟨-, h1, -⟩, -⟩ := solveTooClose_induct S g P hstep _ a le_rfl hu
    ⟨hc, hat, by rintro ⟨k, hk, h1, h2⟩; exact h2 (hfar k hk h1)⟩
  rw [h] at hb'
  cases hb'
  exact h1

end Verif.Mesh

namespace Verif.Board
open Spec
open Verif.Geom
open Verif.Mesh (MeshParams Kind tolerance)

/-- Nothing that asks for one line is near `c` without being at it: no other fixed line, no other edge without a side, no
slanted side. -/
structure OnlyLine (B : Input) (E : Nat → BEdge) (axis : Geom.Axis) (limit c : ℚ) : Prop where
  fixed : ∀ x ∈ B.fixed axis, x = c ∨ (limit < |x - c| ∧ tolerance ≤ |x - c|)
  sheet : ∀ x, EdgeAt B E axis x .none → x = c ∨ limit < |x - c|
  slanted : ∀ x, UnderSlanted B axis x → limit < |x - c|

/-- C119. When the steps end, a fixed line or a sheet that no other thing asking for one line is near has a policy of one line at its
very coordinate, however near the edges with sides are. -/
theorem C119_policy (S : Sorters) (g : MeshParams) (hl : 0 ≤ g.proximityLimit) {gz : ZoneParams} {B : Input} (hB : Built B)
    (hA : LinesApart B) {axis : Geom.Axis} {E : Nat → BEdge} {a : Mesh.Axis} (h : runSteps S g gz B axis = .ok (E, a)) {c : ℚ}
    (hc : OnlyLine B E axis g.proximityLimit c) (hat : c ∈ B.fixed axis ∨ SheetAt B E axis c) :
    ∃ k, a.Enabled k ∧ (a.get k).coord = c ∧ (a.get k).kind = .oneline := by
  obtain ⟨⟨L, zones, m⟩, asked, hd, hE, hasked, hfin⟩ := run_parts h
  obtain ⟨asked', hasked', hacc, -⟩ := board_policies (planar hB hA) hE L m axis
  rw [hasked] at hasked'
  obtain rfl := Option.some.inj hasked'
  obtain ⟨b1, b2, -⟩ := board_kinds (planar hB hA) hA hE hasked
  obtain ⟨x1, x2, x3⟩ := axis_holds g (B.fixed axis) asked hacc
  obtain ⟨hfresh, -⟩ := axis_policies g (B.fixed axis) asked hacc
  obtain ⟨b, hb, hsame⟩ := finish_same hfin
  have hone : (axisPolicies g (B.fixed axis) asked).One c := by
    rcases hat with hc' | hs
    · obtain ⟨c', h1, h2, h3⟩ := x3 c hc'
      refine h3 _ ⟨?_, rfl⟩
      rcases hc.fixed c' h1 with h | ⟨-, h⟩
      · exact h
      · linarith
    · obtain ⟨q, hq, h1, h2, h3⟩ := b2 c hs
      exact x2 q hq h1 _ ⟨h2, h3⟩
  obtain ⟨k, hk, h1, h2⟩ := Mesh.C119_merging S.pointers g _ b hfresh.unmerged hfresh.coherent hl hb hone (by
    intro k hk hkind
    by_contra hn
    rcases x1 (fun coord kind _ => kind = .oneline ∧ ¬ (coord = c ∨ g.proximityLimit < |coord - c|)) ⟨k, hk, hkind, hn⟩ with
      ⟨c', hc', -, h2⟩ | ⟨q, hq, hen, hk, h2⟩
    · exact h2 ((hc.fixed c' hc').imp id And.left)
    · rcases b1 q hq hen with ⟨n, hn, va, e1, e2, e3⟩ | ⟨-, h⟩ | ⟨h, -⟩ | ⟨h, -⟩
      · exact h2 (Or.inr (e3 ▸ hc.slanted _ (angle_under hB hd e1 e2)))
      · exact h2 (hc.sheet _ h)
      · rw [hk] at h; cases h
      · rw [hk] at h; cases h)
  obtain ⟨he, d, hget⟩ := hsame k
  refine ⟨k, he.2 hk, ?_, ?_⟩ <;> rw [hget] <;> assumption

/-- C119, the lines: such a line is in the mesh, at its very coordinate. -/
theorem C119_lines (S : Sorters) (g : MeshParams) (hg : g.InRange) (hl : 0 ≤ g.proximityLimit) {gz : ZoneParams}
    (hz : 0 < gz.diagonalDmax) {B : Input} (hB : Built B) (hA : LinesApart B) {axis : Geom.Axis} {E : Nat → BEdge}
    {a : Mesh.Axis} (h : runSteps S g gz B axis = .ok (E, a)) {c : ℚ} (hc : OnlyLine B E axis g.proximityLimit c)
    (hat : c ∈ B.fixed axis ∨ SheetAt B E axis c) : c ∈ a.meshlines := by
  obtain ⟨-, -, hdrawn, -⟩ := C82_run S g hg hl hz hB hA h
  obtain ⟨k, hk, rfl, h2⟩ := C119_policy S g hl hB hA h hc hat
  exact hdrawn.oneline k hk h2

end Verif.Board
