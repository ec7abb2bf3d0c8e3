import Verif.Lemmas.Asked
import Verif.Lemmas.MovedRun
import Verif.Props.RunKinds
import Mathlib.Data.List.GetD

/-! # Meshing does not depend on the numbers of the policies -/

namespace Verif.Asked
open Verif.Mesh
open Verif.Moved (Compares updateLs_policy)

variable {ρ : Nat → Nat} {L : List Nat}

/-- A side, an interval, with the policies under other numbers. -/
def renameSide (ρ : Nat → Nat) (s : Side) : Side := { s with policy := ρ s.policy }
@[inherit_doc renameSide] def rename (ρ : Nat → Nat) (i : Interval) : Interval :=
  { i with before := renameSide ρ i.before, after := renameSide ρ i.after }

/-- The policies of `L`, in `qs` under other numbers. -/
structure Renamed (ρ : Nat → Nat) (L : List Nat) (ps qs : Policies) : Prop where
  same : ∀ i ∈ L, qs (ρ i) = ps i
  inj : ∀ i ∈ L, ∀ j ∈ L, ρ i = ρ j → i = j

/-- The policies of the intervals are among `L`. -/
def Among (L : List Nat) (l : List Interval) : Prop := ∀ i ∈ l, i.before.policy ∈ L ∧ i.after.policy ∈ L

theorem Renamed.setD {ps qs : Policies} (h : Renamed ρ L ps qs) {i : Nat} (hi : i ∈ L) (d : ℚ) :
    Renamed ρ L (ps.setD i d) (qs.setD (ρ i) d) := by
  refine ⟨fun j hj => ?_, h.inj⟩
  unfold Policies.setD
  by_cases e : j = i
  · subst e; simp [h.same j hj]
  · rw [if_neg e, if_neg fun e' => e (h.inj j hj i hi e'), h.same j hj]

theorem sideMake_renamed {ps qs : Policies} (h : Renamed ρ L ps qs) {i : Nat} (hi : i ∈ L) (lmin : Nat) (s hh : ℚ) :
    Renamed ρ L (Side.make ps i lmin s hh).1 (Side.make qs (ρ i) lmin s hh).1 ∧
      (Side.make qs (ρ i) lmin s hh).2 = renameSide ρ (Side.make ps i lmin s hh).2 := by
  refine ⟨?_, rfl⟩
  simp only [Side.make, h.same i hi]
  split
  · exact h.setD hi hh
  · exact h

theorem make_renamed {ps qs : Policies} (h : Renamed ρ L ps qs) {i j : Nat} (hi : i ∈ L) (hj : j ∈ L) (lmin : Nat) (s dmax : ℚ) :
    Renamed ρ L (Interval.make ps i j lmin s dmax).1 (Interval.make qs (ρ i) (ρ j) lmin s dmax).1 ∧
      (Interval.make qs (ρ i) (ρ j) lmin s dmax).2 = rename ρ (Interval.make ps i j lmin s dmax).2 := by
  have h1 := sideMake_renamed h hi lmin s (calcH (ps i).coord (ps j).coord)
  have h2 := sideMake_renamed h1.1 hj lmin s (calcH (ps i).coord (ps j).coord)
  simp only [Interval.make, h.same i hi, h.same j hj]
  refine ⟨h2.1, ?_⟩
  rw [h2.1.same i hi, h2.1.same j hj]
  rfl

theorem makeIntervals_renamed (g : MeshParams) : ∀ (l : List Nat) {ps qs : Policies}, Renamed ρ L ps qs → (∀ i ∈ l, i ∈ L) →
    Renamed ρ L (makeIntervals g ps l).1 (makeIntervals g qs (l.map ρ)).1 ∧
      (makeIntervals g qs (l.map ρ)).2 = (makeIntervals g ps l).2.map (rename ρ)
  | [], _, _, h, _ => ⟨h, rfl⟩
  | [_], _, _, h, _ => ⟨h, rfl⟩
  | i :: j :: rest, ps, qs, h, hl => by
    have h1 := make_renamed h (hl i (by simp)) (hl j (by simp)) g.lmin g.smoothness g.dmax
    have h2 := makeIntervals_renamed g (j :: rest) h1.1 fun k hk => hl k (List.mem_cons_of_mem _ hk)
    simp only [makeIntervals, List.map_cons]
    rw [List.map_cons] at h2
    exact ⟨h2.1, by rw [h1.2, h2.2]⟩

theorem makeIntervals_among (g : MeshParams) : ∀ (l : List Nat) {ps : Policies}, (∀ i ∈ l, i ∈ L) → Among L (makeIntervals g ps l).2
  | [], _, _ => by simp [makeIntervals, Among]
  | [_], _, _ => by simp [makeIntervals, Among]
  | i :: j :: rest, ps, hl => by
    have := makeIntervals_among g (j :: rest) (ps := (Interval.make ps i j g.lmin g.smoothness g.dmax).1)
      fun k hk => hl k (List.mem_cons_of_mem _ hk)
    simp only [makeIntervals]
    intro k hk
    rcases List.mem_cons.mp hk with e | hk
    · subst e
      exact ⟨hl i (by simp), hl j (by simp)⟩
    · exact this k hk

section
variable {ps qs : Policies} {dInit : Policy → ℚ → ℚ} {side side' : Side} {dmax hh : ℚ}

theorem updateLs_renamed (h : Renamed ρ L ps qs) (hs : side.policy ∈ L) :
    (renameSide ρ side).updateLs dInit dmax hh qs = (side.updateLs dInit dmax hh ps).map (renameSide ρ) := by
  unfold Side.updateLs
  have e : qs (renameSide ρ side).policy = ps side.policy := h.same _ hs
  rw [e]
  simp only [Option.bind_eq_bind]
  have e2 : (renameSide ρ side).smoothness = side.smoothness := rfl
  rw [e2]
  cases findLs (ps side.policy).d side.smoothness dmax (hh - dInit (ps side.policy) (ps side.policy).d) <;> rfl

theorem updateLs_renamed_some (h : Renamed ρ L ps qs) (hs : side.policy ∈ L) (hu : side.updateLs dInit dmax hh ps = some side') :
    (renameSide ρ side).updateLs dInit dmax hh qs = some (renameSide ρ side') := by
  rw [updateLs_renamed h hs, hu]; rfl

theorem adjustD_renamed (h : Renamed ρ L ps qs) (hs : side.policy ∈ L) :
    adjustD (renameSide ρ side) dInit dmax hh qs = adjustD side dInit dmax hh ps := by
  unfold adjustD
  have e : qs (renameSide ρ side).policy = ps side.policy := h.same _ hs
  rw [e]
  rfl

theorem adjustSmoothness_renamed (h : Renamed ρ L ps qs) (hs : side.policy ∈ L) :
    adjustSmoothness (renameSide ρ side) dInit dmax hh qs = adjustSmoothness side dInit dmax hh ps := by
  unfold adjustSmoothness
  have e : qs (renameSide ρ side).policy = ps side.policy := h.same _ hs
  rw [e]
  rfl
end

section
variable {ps qs : Policies}

theorem autoSolveD_renamed (h : Renamed ρ L ps qs) {i j : Interval} {ps' : Policies} (hb : i.before.policy ∈ L)
    (ha : i.after.policy ∈ L) (he : i.autoSolveD ps = some (ps', j)) :
    (∃ qs', (rename ρ i).autoSolveD qs = some (qs', rename ρ j) ∧ Renamed ρ L ps' qs') ∧
      j.before.policy = i.before.policy ∧ j.after.policy = i.after.policy := by
  unfold Interval.autoSolveD at he
  simp only [Option.bind_eq_bind, Option.bind_eq_some_iff] at he
  obtain ⟨b1, hb1, a1, ha1, b2, hb2, a2, ha2, db, hdb, b3, hb3, da, hda, a3, ha3, he⟩ := he
  cases he
  have pb1 := updateLs_policy hb1
  have pa1 := updateLs_policy ha1
  have pb2 := (updateLs_policy hb2).trans pb1
  have pa2 := (updateLs_policy ha2).trans pa1
  have pb3 := (updateLs_policy hb3).trans pb2
  have pa3 := (updateLs_policy ha3).trans pa2
  have mb1 : b1.policy ∈ L := pb1 ▸ hb
  have ma1 : a1.policy ∈ L := pa1 ▸ ha
  have mb2 : b2.policy ∈ L := pb2 ▸ hb
  have ma2 : a2.policy ∈ L := pa2 ▸ ha
  have h1 := h.setD mb2 db
  have h2 := h1.setD ma2 da
  refine ⟨⟨_, ?_, h2⟩, pb3, pa3⟩
  unfold Interval.autoSolveD
  have eb1 := updateLs_renamed_some h hb hb1
  have ea1 := updateLs_renamed_some h ha ha1
  have eb2 := updateLs_renamed_some h mb1 hb2
  have ea2 := updateLs_renamed_some h ma1 ha2
  have edb := (adjustD_renamed h mb2).trans hdb
  have eb3 := updateLs_renamed_some h1 mb2 hb3
  have eda := (adjustD_renamed h1 ma2).trans hda
  have ea3 := updateLs_renamed_some h2 ma2 ha3
  have pb : (renameSide ρ b2).policy = ρ b2.policy := rfl
  have pa : (renameSide ρ a2).policy = ρ a2.policy := rfl
  simp only [rename, eb1, ea1, eb2, ea2, edb, pb, eb3, eda, pa, ea3, Option.bind_eq_bind, Option.bind_some]
  rfl

theorem autoSolveSmoothness_renamed (h : Renamed ρ L ps qs) {i j : Interval} (hb : i.before.policy ∈ L)
    (ha : i.after.policy ∈ L) (he : i.autoSolveSmoothness ps = some j) :
    (rename ρ i).autoSolveSmoothness qs = some (rename ρ j) ∧
      j.before.policy = i.before.policy ∧ j.after.policy = i.after.policy := by
  unfold Interval.autoSolveSmoothness at he
  simp only [Option.bind_eq_bind, Option.bind_eq_some_iff] at he
  obtain ⟨b1, hb1, a1, ha1, sb, hsb, sa, hsa, b2, hb2, a2, ha2, he⟩ := he
  cases he
  have pb1 := updateLs_policy hb1
  have pa1 := updateLs_policy ha1
  have pb2 := (updateLs_policy hb2).trans pb1
  have pa2 := (updateLs_policy ha2).trans pa1
  have mb1 : b1.policy ∈ L := pb1 ▸ hb
  have ma1 : a1.policy ∈ L := pa1 ▸ ha
  refine ⟨?_, pb2, pa2⟩
  unfold Interval.autoSolveSmoothness
  have eb1 := updateLs_renamed_some h hb hb1
  have ea1 := updateLs_renamed_some h ha ha1
  have esb := (adjustSmoothness_renamed h mb1).trans hsb
  have esa := (adjustSmoothness_renamed h ma1).trans hsa
  have eb2 : Side.updateLs { renameSide ρ b1 with smoothness := sb } dInitBefore i.dmax i.h qs = some (renameSide ρ b2) :=
    updateLs_renamed_some (side := { b1 with smoothness := sb }) h mb1 hb2
  have ea2 : Side.updateLs { renameSide ρ a1 with smoothness := sa } dInitAfter i.dmax i.h qs = some (renameSide ρ a2) :=
    updateLs_renamed_some (side := { a1 with smoothness := sa }) h ma1 ha2
  simp only [rename, eb1, ea1, esb, esa, eb2, ea2, Option.bind_eq_bind, Option.bind_some]
  rfl

theorem mesh_renamed (h : Renamed ρ L ps qs) (i : Interval) (hb : i.before.policy ∈ L) (ha : i.after.policy ∈ L) :
    (rename ρ i).mesh qs = i.mesh ps := by
  unfold Interval.mesh
  have hb' : qs (rename ρ i).before.policy = ps i.before.policy := h.same _ hb
  have ha' : qs (rename ρ i).after.policy = ps i.after.policy := h.same _ ha
  simp only [hb', ha']
  rfl

theorem solveAndMesh_renamed (h : Renamed ρ L ps qs) {i j : Interval} {ps' : Policies} {ls : List ℚ} (hb : i.before.policy ∈ L)
    (ha : i.after.policy ∈ L) (he : i.solveAndMesh ps = some (ps', j, ls)) :
    (∃ qs', (rename ρ i).solveAndMesh qs = some (qs', rename ρ j, ls) ∧ Renamed ρ L ps' qs') ∧
      j.before.policy = i.before.policy ∧ j.after.policy = i.after.policy := by
  unfold Interval.solveAndMesh at he
  simp only [Option.bind_eq_bind, Option.bind_eq_some_iff] at he
  obtain ⟨⟨ps1, i1⟩, h1, i2, h2, he⟩ := he
  cases he
  obtain ⟨⟨qs1, e1, h3⟩, p1, p2⟩ := autoSolveD_renamed h hb ha h1
  obtain ⟨e2, p3, p4⟩ := autoSolveSmoothness_renamed h3 (by simpa [p1] using hb) (by simpa [p2] using ha) h2
  refine ⟨⟨qs1, ?_, h3⟩, p3.trans p1, p4.trans p2⟩
  unfold Interval.solveAndMesh
  simp only [e1, e2, Option.bind_eq_bind, Option.bind_some]
  rw [mesh_renamed h3 _ (by simpa [p3, p1] using hb) (by simpa [p4, p2] using ha)]
  rfl
end

theorem solveAllD_renamed : ∀ (l : List Interval) {ps qs ps' : Policies} {l' : List Interval}, Renamed ρ L ps qs →
    Among L l → solveAllD ps l = some (ps', l') →
    (∃ qs', solveAllD qs (l.map (rename ρ)) = some (qs', l'.map (rename ρ)) ∧ Renamed ρ L ps' qs') ∧ Among L l'
  | [], ps, qs, ps', l', h, hw, he => by
    cases he
    exact ⟨⟨qs, rfl, h⟩, hw⟩
  | i :: rest, ps, qs, ps', l', h, hw, he => by
    simp only [solveAllD, Option.bind_eq_bind, Option.bind_eq_some_iff] at he
    obtain ⟨⟨ps1, j⟩, h1, ⟨ps2, r⟩, h2, he⟩ := he
    cases he
    obtain ⟨hb, ha⟩ := hw i (by simp)
    obtain ⟨⟨qs1, e1, h3⟩, p1, p2⟩ := autoSolveD_renamed h hb ha h1
    obtain ⟨⟨qs2, e2, h4⟩, hw2⟩ := solveAllD_renamed rest h3 (fun k hk => hw k (List.mem_cons_of_mem _ hk)) h2
    refine ⟨⟨qs2, ?_, h4⟩, ?_⟩
    · simp only [solveAllD, List.map_cons, e1, e2, Option.bind_eq_bind, Option.bind_some]
      rfl
    · intro k hk
      rcases List.mem_cons.mp hk with e | hk
      · subst e
        rw [p1, p2]
        exact ⟨hb, ha⟩
      · exact hw2 k hk

theorem meshAll_renamed : ∀ (l : List Interval) {ps qs ps' : Policies} {l' : List Interval} {ls : List (List ℚ)},
    Renamed ρ L ps qs → Among L l → meshAll ps l = some (ps', l', ls) →
    ∃ qs', meshAll qs (l.map (rename ρ)) = some (qs', l'.map (rename ρ), ls) ∧ Renamed ρ L ps' qs'
  | [], ps, qs, ps', l', ls, h, hw, he => by
    cases he
    exact ⟨qs, rfl, h⟩
  | i :: rest, ps, qs, ps', l', ls, h, hw, he => by
    simp only [meshAll, Option.bind_eq_bind, Option.bind_eq_some_iff] at he
    obtain ⟨⟨ps1, j, lines⟩, h1, ⟨ps2, r, others⟩, h2, he⟩ := he
    cases he
    obtain ⟨hb, ha⟩ := hw i (by simp)
    obtain ⟨⟨qs1, e1, h3⟩, _⟩ := solveAndMesh_renamed h hb ha h1
    obtain ⟨qs2, e2, h4⟩ := meshAll_renamed rest h3 (fun k hk => hw k (List.mem_cons_of_mem _ hk)) h2
    refine ⟨qs2, ?_, h4⟩
    simp only [meshAll, List.map_cons, e1, e2, Option.bind_eq_bind, Option.bind_some]
    rfl

/-! ## The lines of the policies -/

theorem filterMap_some {α β : Type} (f : α → Option β) (p : α → Bool) : ∀ l : List α, (∀ x ∈ l, p x = false → f x = none) →
    l.filterMap f = (l.filter p).filterMap f
  | [], _ => rfl
  | x :: rest, h => by
    have ih := filterMap_some f p rest fun y hy => h y (List.mem_cons_of_mem _ hy)
    rw [List.filter_cons]
    cases hp : p x
    · rw [List.filterMap_cons_none (h x List.mem_cons_self hp), ih]
      rfl
    · simp only [if_true]
      rw [List.filterMap_cons, List.filterMap_cons, ih]

/-- The lines of the policies of an axis: those of the enabled ones. -/
theorem onelines_enabled {a : Axis} {n : Nat} {ps : Policies} (hn : n = a.policies.length) (h : OnlyD a.get ps) :
    ((List.range n).map ps).filterMap Policy.mesh = a.enabledPointers.filterMap fun i => (ps i).mesh := by
  rw [List.filterMap_map]
  unfold Axis.enabledPointers Axis.pointers
  rw [hn, filterMap_some _ fun i => (a.get i).enabled]
  · rfl
  · intro i _ hi
    obtain ⟨d, e⟩ := h i
    simp [Policy.mesh, e, hi]

/-! ## Sorting lines -/

theorem sort_perm (T : Sorter ℚ) {l m : List ℚ} (h : l.Perm m) : T.sort id l = T.sort id m := by
  refine (((T.perm id l).trans h).trans (T.perm id m).symm).eq_of_pairwise ?_ (T.sorted id l) (T.sorted id m)
  intro a b _ _ h1 h2
  exact le_antisymm h1 h2

/-! ## Zones -/

open Verif.Board in
theorem inZone_renamed (b : ℚ × ℚ) (l : List Interval) : inZone b (l.map (rename ρ)) = inZone b l := by
  unfold inZone
  rw [List.length_map]
  refine List.filter_congr fun i _ => ?_
  rw [List.getElem?_map]
  cases l[i]? <;> rfl

open Verif.Board in
theorem solveAllIntervals_renamed : ∀ (zones : List Zone) (l : List Interval),
    solveAllIntervals zones (l.map (rename ρ)) = (solveAllIntervals zones l).map (rename ρ) := by
  have e1 : ∀ (d : ℚ) (n : Nat) (l : List Interval), (l.map (rename ρ)).modify n (fun i => { i with dmax := d }) =
      (l.modify n fun i => { i with dmax := d }).map (rename ρ) := by
    intro d n l
    induction l generalizing n with
    | nil => cases n <;> rfl
    | cons i rest ih =>
      cases n with
      | zero => rfl
      | succ n =>
        simp only [List.map_cons, List.modify_succ_cons, ih]
  have e2 : ∀ (d : ℚ) (ns : List Nat) (l : List Interval), ns.foldl (fun l i => l.modify i fun i => { i with dmax := d }) (l.map (rename ρ)) =
      (ns.foldl (fun l i => l.modify i fun i => { i with dmax := d }) l).map (rename ρ) := by
    intro d ns
    induction ns with
    | nil => exact fun _ => rfl
    | cons n rest ih => intro l; simp only [List.foldl_cons, e1, ih]
  intro zones
  induction zones with
  | nil => exact fun _ => rfl
  | cons z rest ih =>
    intro l
    unfold solveAllIntervals at ih ⊢
    simp only [List.foldl_cons]
    unfold Zone.solveIntervals at ih ⊢
    rw [e2, ih]

open Verif.Board in
theorem solveAllIntervals_among : ∀ (zones : List Zone) (l : List Interval), Among L l → Among L (solveAllIntervals zones l) := by
  have e1 : ∀ (d : ℚ) (k : Nat) (l : List Interval), Among L l → Among L (l.modify k fun i => { i with dmax := d }) := by
    intro d k l h
    induction l generalizing k with
    | nil => cases k <;> exact h
    | cons i rest ih =>
      have hr : Among L rest := fun j hj => h j (List.mem_cons_of_mem _ hj)
      have hi := h i List.mem_cons_self
      cases k with
      | zero =>
        intro j hj
        rcases List.mem_cons.1 hj with rfl | hj
        · exact hi
        · exact hr j hj
      | succ k =>
        intro j hj
        rw [List.modify_succ_cons] at hj
        rcases List.mem_cons.1 hj with rfl | hj
        · exact hi
        · exact ih k hr j hj
  have e2 : ∀ (d : ℚ) (ns : List Nat) (l : List Interval), Among L l →
      Among L (ns.foldl (fun l i => l.modify i fun i => { i with dmax := d }) l) := by
    intro d ns
    induction ns with
    | nil => exact fun _ h => h
    | cons n rest ih => intro l h; exact ih _ (e1 d n l h)
  intro zones
  induction zones with
  | nil => exact fun _ h => h
  | cons z rest ih => intro l h; exact ih _ (e2 _ _ l h)

/-! ## From the merges to the mesh -/

/-- New numbers that put one list of numbers on another. -/
theorem exists_renaming {L L' : List Nat} (h : L.Nodup) (h' : L'.Nodup) (hl : L.length = L'.length) :
    ∃ ρ : Nat → Nat, L' = L.map ρ ∧ ∀ i ∈ L, ∀ j ∈ L, ρ i = ρ j → i = j := by
  have key : ∀ n (hn : n < L.length), L'.getD (L.idxOf L[n]) 0 = L'[n]'(hl ▸ hn) := by
    intro n hn
    rw [h.idxOf_getElem n hn, List.getD_eq_getElem _ _ (hl ▸ hn)]
  refine ⟨fun i => L'.getD (L.idxOf i) 0, ?_, ?_⟩
  · refine List.ext_getElem (by simp [hl]) fun n h1 h2 => ?_
    rw [List.getElem_map, key n (hl ▸ h1)]
  · intro i hi j hj e
    obtain ⟨n, hn, rfl⟩ := List.getElem_of_mem hi
    obtain ⟨m, hm, rfl⟩ := List.getElem_of_mem hj
    simp only [key n hn, key m hm] at e
    have := (List.Nodup.getElem_inj_iff h').1 e
    subst this
    rfl

open Verif.Board in
theorem intervals_alike (S : Sorters) (g : MeshParams) {a b : Axis} (ha : Plain g a) (hb : Plain g b)
    (h : inOrder S.pointers a = inOrder S.pointers b) :
    (a.detectIntervals S.pointers g).intervals.map (·.m) = (b.detectIntervals S.pointers g).intervals.map (·.m) := by
  set L := S.pointers.sort (fun i => (a.get i).coord) a.enabledPointers with hL
  set L' := S.pointers.sort (fun i => (b.get i).coord) b.enabledPointers with hL'
  have pL : L.Perm a.enabledPointers := S.pointers.perm _ _
  have pL' : L'.Perm b.enabledPointers := S.pointers.perm _ _
  have hlt : ∀ i ∈ L, i < a.policies.length := fun i hi => (mem_enabledPointers.1 (pL.mem_iff.1 hi)).lt
  have hlt' : ∀ i ∈ L', i < b.policies.length := fun i hi => (mem_enabledPointers.1 (pL'.mem_iff.1 hi)).lt
  have hmap : L.map a.get = L'.map b.get := h
  obtain ⟨ρ, hρ, hinj⟩ := exists_renaming (pL.nodup_iff.2 (nodup_enabledPointers a)) (pL'.nodup_iff.2 (nodup_enabledPointers b))
    (by simpa using congrArg List.length hmap)
  have r0 : Renamed ρ L a.get b.get := by
    refine ⟨fun i hi => ?_, hinj⟩
    rw [hρ, List.map_map] at hmap
    exact (List.map_inj_left.1 hmap i hi).symm
  obtain ⟨r1, eiv⟩ := makeIntervals_renamed g L r0 fun _ h => h
  rw [← hρ] at r1 eiv
  have eA : (a.detectIntervals S.pointers g).intervals = (makeIntervals g a.get L).2 := by
    simp [Axis.detectIntervals, ha.intervals, hL]
  have eB : (b.detectIntervals S.pointers g).intervals = (makeIntervals g b.get L').2 := by
    simp [Axis.detectIntervals, hb.intervals, hL']
  rw [eA, eB, eiv, List.map_map]
  rfl

open Verif.Board in
theorem mesh_alike (S : Sorters) (hS : Compares S.intervals) (g : MeshParams) (zones : List Zone) {a b a' : Axis} (ha : Plain g a)
    (hb : Plain g b) (h : inOrder S.pointers a = inOrder S.pointers b)
    (hm : Axis.mesh S.intervals S.lines { a.detectIntervals S.pointers g with
      intervals := solveAllIntervals zones (a.detectIntervals S.pointers g).intervals } = some a') :
    ∃ b', Axis.mesh S.intervals S.lines { b.detectIntervals S.pointers g with
      intervals := solveAllIntervals zones (b.detectIntervals S.pointers g).intervals } = some b' ∧ b'.meshlines = a'.meshlines := by
  set L := S.pointers.sort (fun i => (a.get i).coord) a.enabledPointers with hL
  set L' := S.pointers.sort (fun i => (b.get i).coord) b.enabledPointers with hL'
  have pL : L.Perm a.enabledPointers := S.pointers.perm _ _
  have pL' : L'.Perm b.enabledPointers := S.pointers.perm _ _
  have hlt : ∀ i ∈ L, i < a.policies.length := fun i hi => (mem_enabledPointers.1 (pL.mem_iff.1 hi)).lt
  have hlt' : ∀ i ∈ L', i < b.policies.length := fun i hi => (mem_enabledPointers.1 (pL'.mem_iff.1 hi)).lt
  have hmap : L.map a.get = L'.map b.get := h
  obtain ⟨ρ, hρ, hinj⟩ := exists_renaming (pL.nodup_iff.2 (nodup_enabledPointers a)) (pL'.nodup_iff.2 (nodup_enabledPointers b))
    (by simpa using congrArg List.length hmap)
  have r0 : Renamed ρ L a.get b.get := by
    refine ⟨fun i hi => ?_, hinj⟩
    rw [hρ, List.map_map] at hmap
    exact (List.map_inj_left.1 hmap i hi).symm
  obtain ⟨r1, eiv⟩ := makeIntervals_renamed g L r0 fun _ h => h
  rw [← hρ] at r1 eiv
  have ham := makeIntervals_among g L (L := L) (ps := a.get) fun _ h => h
  have onlyA := Board.makeIntervals_onlyD g L a.get
  have onlyB := Board.makeIntervals_onlyD g L' b.get
  have eA : (a.detectIntervals S.pointers g).intervals = (makeIntervals g a.get L).2 := by
    simp [Axis.detectIntervals, ha.intervals, hL]
  have eB : (b.detectIntervals S.pointers g).intervals = (makeIntervals g b.get L').2 := by
    simp [Axis.detectIntervals, hb.intervals, hL']
  have qA : (a.detectIntervals S.pointers g).policies = (List.range a.policies.length).map (makeIntervals g a.get L).1 := rfl
  have qB : (b.detectIntervals S.pointers g).policies = (List.range b.policies.length).map (makeIntervals g b.get L').1 := rfl
  have mA : (a.detectIntervals S.pointers g).meshlines = [] := ha.meshlines
  have mB : (b.detectIntervals S.pointers g).meshlines = [] := hb.meshlines
  set X : Axis := { a.detectIntervals S.pointers g with
      intervals := solveAllIntervals zones (a.detectIntervals S.pointers g).intervals } with hX
  set Y : Axis := { b.detectIntervals S.pointers g with
      intervals := solveAllIntervals zones (b.detectIntervals S.pointers g).intervals } with hY
  have gA : ∀ i, i < a.policies.length → X.get i = (makeIntervals g a.get L).1 i := by
    intro i hi
    simp [Axis.get, hX, qA, hi]
  have gB : ∀ i, i < b.policies.length → Y.get i = (makeIntervals g b.get L').1 i := by
    intro i hi
    simp [Axis.get, hY, qB, hi]
  have r2 : Renamed ρ L X.get Y.get := by
    refine ⟨fun i hi => ?_, hinj⟩
    rw [gA i (hlt i hi), gB (ρ i) (hlt' _ (by rw [hρ]; exact List.mem_map_of_mem hi)), r1.same i hi]
  have iY : Y.intervals = X.intervals.map (rename ρ) := by
    simp only [hX, hY, eA, eB, eiv, solveAllIntervals_renamed]
  have aX : Among L X.intervals := by
    simp only [hX, eA]
    exact solveAllIntervals_among zones _ ham
  unfold Axis.mesh at hm
  simp only [Option.bind_eq_bind, Option.bind_eq_some_iff] at hm
  obtain ⟨⟨ps1, l1⟩, h1, ⟨ps2, l2, ls⟩, h2, he⟩ := hm
  cases he
  have hs : S.intervals.sort Interval.h Y.intervals = (S.intervals.sort Interval.h X.intervals).map (rename ρ) := by
    rw [iY]
    exact hS (rename ρ) Interval.h Interval.h _ fun _ _ _ _ => Iff.rfl
  have hw1 : Among L (S.intervals.sort Interval.h X.intervals) := fun i hi => aX i ((S.intervals.perm _ _).mem_iff.mp hi)
  obtain ⟨⟨qs1, e1, h3⟩, hw2⟩ := solveAllD_renamed _ r2 hw1 h1
  obtain ⟨qs2, e2, h4⟩ := meshAll_renamed _ h3 hw2 h2
  refine ⟨{ Y.withPolicies qs2 with
    intervals := l2.map (rename ρ)
    meshlines := S.lines.sort id (Y.meshlines ++ ls.flatten ++ (Y.withPolicies qs2).policies.filterMap Policy.mesh) }, ?_, ?_⟩
  · unfold Axis.mesh
    simp only [hs, e1, e2, Option.bind_eq_bind, Option.bind_some]
    rfl
  · have nA : X.policies.length = a.policies.length := by simp [hX, qA]
    have nB : Y.policies.length = b.policies.length := by simp [hY, qB]
    have oA : OnlyD X.get ps2 := (solveAllD_onlyD _ h1).trans (meshAll_onlyD _ h2)
    have oB : OnlyD Y.get qs2 := (solveAllD_onlyD _ e1).trans (meshAll_onlyD _ e2)
    have pA : X.enabledPointers = a.enabledPointers := by
      unfold Axis.enabledPointers Axis.pointers
      rw [nA]
      refine List.filter_congr fun i hi => ?_
      rw [gA i (List.mem_range.1 hi)]
      obtain ⟨d, e⟩ := onlyA i
      rw [e]
    have pB : Y.enabledPointers = b.enabledPointers := by
      unfold Axis.enabledPointers Axis.pointers
      rw [nB]
      refine List.filter_congr fun i hi => ?_
      rw [gB i (List.mem_range.1 hi)]
      obtain ⟨d, e⟩ := onlyB i
      rw [e]
    have lA : (X.withPolicies ps2).policies.filterMap Policy.mesh = a.enabledPointers.filterMap fun i => (ps2 i).mesh := by
      rw [← pA]
      exact onelines_enabled rfl oA
    have lB : (Y.withPolicies qs2).policies.filterMap Policy.mesh = b.enabledPointers.filterMap fun i => (qs2 i).mesh := by
      rw [← pB]
      exact onelines_enabled rfl oB
    show S.lines.sort id (Y.meshlines ++ ls.flatten ++ (Y.withPolicies qs2).policies.filterMap Policy.mesh) =
      S.lines.sort id (X.meshlines ++ ls.flatten ++ (X.withPolicies ps2).policies.filterMap Policy.mesh)
    refine sort_perm _ ?_
    rw [lA, lB, show X.meshlines = [] from mA, show Y.meshlines = [] from mB]
    refine List.Perm.append_left _ ?_
    have e3 : L'.filterMap (fun i => (qs2 i).mesh) = L.filterMap fun i => (ps2 i).mesh := by
      rw [hρ, List.filterMap_map]
      refine List.filterMap_congr fun i hi => ?_
      rw [Function.comp_apply, h4.same i hi]
    exact ((pL'.filterMap _).symm.trans (e3 ▸ List.Perm.refl _)).trans (pL.filterMap _)

end Verif.Asked
