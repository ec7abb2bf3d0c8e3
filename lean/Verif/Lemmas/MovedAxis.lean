import Verif.Spec.Moved
import Verif.Lemmas.ManagerMesh
import Mathlib.Tactic.Ring
import Mathlib.Tactic.Linarith

/-! # What is done on an axis, when everything on it is moved -/

namespace Verif.Moved
open Verif.Mesh

variable {c : ℚ}

/-- Moved by `c`: a policy, an interval, an axis. -/
def policy (c : ℚ) (p : Policy) : Policy := { p with coord := p.coord + c }
@[inherit_doc policy] def interval (c : ℚ) (i : Interval) : Interval := { i with m := i.m + c }
@[inherit_doc policy] def axis (c : ℚ) (a : Axis) : Axis :=
  ⟨a.policies.map (policy c), a.conflicts, a.intervals.map (interval c), a.meshlines.map (· + c)⟩

theorem axis_neg (a : Axis) : axis (-c) (axis c a) = a := by
  cases a
  simp [axis, policy, interval, Function.comp_def]

/-- The policies of two axes of which the second is moved, as far as there are policies. -/
def Alike (c : ℚ) (n : Nat) (ps qs : Policies) : Prop := ∀ i < n, qs i = policy c (ps i)

theorem alike_get (a : Axis) : Alike c a.policies.length a.get (axis c a).get := by
  intro i h
  simp [Axis.get, axis, h]

theorem pointers_axis (a : Axis) : (axis c a).pointers = a.pointers := by simp [Axis.pointers, axis]

theorem enabled_axis (a : Axis) : (axis c a).enabledPointers = a.enabledPointers := by
  unfold Axis.enabledPointers
  rw [pointers_axis]
  refine List.filter_congr fun i hi => ?_
  rw [alike_get a i (by simpa [Axis.pointers] using hi)]
  rfl

theorem enabled_lt (a : Axis) : ∀ i ∈ a.enabledPointers, i < a.policies.length := by
  intro i h
  simp only [Axis.enabledPointers, Axis.pointers, List.mem_filter, List.mem_range] at h
  exact h.1

theorem sort_axis {S : Sorter Nat} (hS : Compares S) (a : Axis) :
    S.sort (fun i => ((axis c a).get i).coord) (axis c a).enabledPointers =
      S.sort (fun i => (a.get i).coord) a.enabledPointers := by
  rw [enabled_axis]
  have := hS id (fun i => ((axis c a).get i).coord) (fun i => (a.get i).coord) a.enabledPointers fun i hi j hj => by
    simp only [id]
    rw [alike_get a i (enabled_lt a i hi), alike_get a j (enabled_lt a j hj)]
    simp [policy]
  simpa using this

theorem sorted_lt {S : Sorter Nat} (k : Nat → ℚ) (a : Axis) : ∀ i ∈ S.sort k a.enabledPointers, i < a.policies.length :=
  fun i h => enabled_lt a i ((S.perm _ _).mem_iff.mp h)

theorem closest_alike {n : Nat} {ps qs : Policies} (h : Alike c n ps qs) : ∀ (l : List Nat) (best : Option (ℚ × Nat × Nat)),
    (∀ i ∈ l, i < n) → closestLoop qs best l = closestLoop ps best l
  | [], _, _ => rfl
  | [i], _, _ => rfl
  | i :: j :: rest, best, hl => by
    have h1 : |(qs i).coord - (qs j).coord| = |(ps i).coord - (ps j).coord| := by
      rw [h i (hl i (by simp)), h j (hl j (by simp))]
      simp [policy]
    show closestLoop qs _ (j :: rest) = closestLoop ps _ (j :: rest)
    rw [h1]
    exact closest_alike h (j :: rest) _ fun k hk => hl k (List.mem_cons_of_mem _ hk)

theorem detectClosest_axis {S : Sorter Nat} (hS : Compares S) (a : Axis) (limit : ℚ) :
    (axis c a).detectClosest S limit = a.detectClosest S limit := by
  unfold Axis.detectClosest
  rw [sort_axis hS, closest_alike (alike_get a) _ _ (sorted_lt _ a)]

theorem closest_mem {ps : Policies} : ∀ (l : List Nat) (best : Option (ℚ × Nat × Nat)) {r}, closestLoop ps best l = some r →
    best = some r ∨ (r.2.1 ∈ l ∧ r.2.2 ∈ l)
  | [], best, r, h => .inl h
  | [i], best, r, h => .inl h
  | i :: j :: rest, best, r, h => by
    change closestLoop ps _ (j :: rest) = some r at h
    rcases closest_mem (j :: rest) _ h with h1 | h1
    · cases best with
      | none =>
        simp only [Option.some.injEq] at h1
        subst h1
        exact .inr (by simp)
      | some b =>
        obtain ⟨s, b⟩ := b
        simp only at h1
        split at h1
        · simp only [Option.some.injEq] at h1
          subst h1
          exact .inr (by simp)
        · exact .inl h1
    · exact .inr ⟨List.mem_cons_of_mem _ h1.1, List.mem_cons_of_mem _ h1.2⟩

theorem detectClosest_lt {S : Sorter Nat} {a : Axis} {limit : ℚ} {i j : Nat} (h : a.detectClosest S limit = some (i, j)) :
    i < a.policies.length ∧ j < a.policies.length := by
  unfold Axis.detectClosest at h
  split at h
  · cases h
  · rename_i space pair hc
    split at h
    · cases h
      rcases closest_mem _ _ hc with h1 | h1
      · cases h1
      · exact ⟨sorted_lt _ a _ h1.1, sorted_lt _ a _ h1.2⟩
    · cases h

theorem set_axis (a : Axis) (i : Nat) (p : Policy) : (axis c a).set i (policy c p) = axis c (a.set i p) := by
  simp [Axis.set, axis, List.map_set]

theorem addTooClose_axis (a : Axis) {i j : Nat} (hi : i < a.policies.length) (hj : j < a.policies.length) :
    (axis c a).addTooClose i j = (a.addTooClose i j).map (axis c) := by
  unfold Axis.addTooClose
  have hc : (axis c a).conflicts = a.conflicts := rfl
  rw [hc]
  split
  · rfl
  · simp only [Option.map_some, Option.some.injEq]
    have e : ({ axis c a with conflicts := a.conflicts ++ [(i, j)] } : Axis) =
      axis c { a with conflicts := a.conflicts ++ [(i, j)] } := rfl
    simp only [e]
    generalize hb : ({ a with conflicts := a.conflicts ++ [(i, j)] } : Axis) = b
    have hlen : b.policies.length = a.policies.length := by rw [← hb]
    rw [alike_get b i (by omega), alike_get b j (by omega)]
    rw [← set_axis, ← set_axis]
    rfl

theorem addTooClose_get {a b : Axis} {i j : Nat} (h : a.addTooClose i j = some b) : b.policies.length = a.policies.length := by
  unfold Axis.addTooClose at h
  split at h
  · cases h
  · cases h
    simp [Axis.set]

theorem addPolicy_axis (g : MeshParams) (a : Axis) (kind : Kind) (normal : Facing) (coord : ℚ) (enabled : Bool) :
    ((axis c a).addPolicy g kind normal (coord + c) enabled).1 = axis c (a.addPolicy g kind normal coord enabled).1 := by
  unfold Axis.addPolicy
  split <;> simp [axis, policy, Policy.make]

theorem mergeChoice_policy (p q : Policy) : mergeChoice (policy c p) (policy c q) =
    (mergeChoice p q).map fun r => (r.1, r.2.1, r.2.2 + c) := by
  have h : (p.coord + c + (q.coord + c)) / 2 = (p.coord + q.coord) / 2 + c := by ring
  cases p with
  | mk pc pk pn pe pd =>
  cases q with
  | mk qc qk qn qe qd =>
  simp only [policy] at h ⊢
  unfold mergeChoice
  cases pk <;> cases qk <;> cases pn <;> cases qn <;> simp [h]

theorem solveConflict_axis (g : MeshParams) (a : Axis) {i j : Nat} (hi : i < a.policies.length) (hj : j < a.policies.length) :
    (axis c a).solveConflict g i j = axis c (a.solveConflict g i j) := by
  unfold Axis.solveConflict
  rw [alike_get a i hi, alike_get a j hj, mergeChoice_policy]
  cases h : mergeChoice (a.get i) (a.get j) with
  | none => rfl
  | some r => exact addPolicy_axis g a _ _ _ _

theorem solveTooClose_some {S : Sorter Nat} (hS : Compares S) (g : MeshParams) :
    ∀ a b : Axis, a.solveTooClose S g = some b → (axis c a).solveTooClose S g = some (axis c b) := by
  apply Axis.solveTooClose.partial_correctness
  intro f ih a b h
  rw [Axis.solveTooClose, detectClosest_axis hS]
  split at h
  · rename_i hd
    cases h
    simp only [hd]
  · rename_i i j hd
    obtain ⟨hi, hj⟩ := detectClosest_lt hd
    simp only [hd, addTooClose_axis a hi hj]
    split at h
    · rename_i hn
      simp only [hn, Option.map_none]
      exact ih _ _ h
    · rename_i b' hb
      simp only [hb, Option.map_some]
      have hl := addTooClose_get hb
      rw [solveConflict_axis g b' (by omega) (by omega)]
      exact ih _ _ h

theorem map_of_some {α β : Type} (f : α → Option α) (m m' : α → α) (h : ∀ a b, f a = some b → f (m a) = some (m b))
    (h' : ∀ a b, f a = some b → f (m' a) = some (m' b)) (hm : ∀ a, m' (m a) = a) (a : α) : f (m a) = (f a).map m := by
  cases ha : f a with
  | some b => exact h a b ha
  | none =>
    cases hb : f (m a) with
    | none => rfl
    | some b =>
      have := h' _ _ hb
      rw [hm, ha] at this
      cases this

theorem solveTooClose_axis {S : Sorter Nat} (hS : Compares S) (g : MeshParams) (a : Axis) :
    (axis c a).solveTooClose S g = (a.solveTooClose S g).map (axis c) :=
  map_of_some (β := Axis) (fun a => a.solveTooClose S g) _ _ (solveTooClose_some hS g) (solveTooClose_some (c := -c) hS g) axis_neg a

/-! ## Intervals -/

theorem alike_setD {n : Nat} {ps qs : Policies} (h : Alike c n ps qs) (i : Nat) (d : ℚ) :
    Alike c n (ps.setD i d) (qs.setD i d) := by
  intro j hj
  unfold Policies.setD
  split
  · rename_i e
    subst e
    rw [h j hj]
    rfl
  · exact h j hj

theorem sideMake_alike {n : Nat} {ps qs : Policies} (h : Alike c n ps qs) {i : Nat} (hi : i < n) (lmin : Nat) (s hh : ℚ) :
    Alike c n (Side.make ps i lmin s hh).1 (Side.make qs i lmin s hh).1 ∧
      (Side.make qs i lmin s hh).2 = (Side.make ps i lmin s hh).2 := by
  refine ⟨?_, rfl⟩
  have e : (qs i).d = (ps i).d := by rw [h i hi]; rfl
  simp only [Side.make, e]
  split
  · exact alike_setD h i hh
  · exact h

theorem make_alike {n : Nat} {ps qs : Policies} (h : Alike c n ps qs) {i j : Nat} (hi : i < n) (hj : j < n) (lmin : Nat)
    (s dmax : ℚ) :
    Alike c n (Interval.make ps i j lmin s dmax).1 (Interval.make qs i j lmin s dmax).1 ∧
      (Interval.make qs i j lmin s dmax).2 = interval c (Interval.make ps i j lmin s dmax).2 := by
  have e : calcH (qs i).coord (qs j).coord = calcH (ps i).coord (ps j).coord := by
    rw [h i hi, h j hj]
    simp [policy, calcH]
  have h1 := sideMake_alike h hi lmin s (calcH (ps i).coord (ps j).coord)
  have h2 := sideMake_alike h1.1 hj lmin s (calcH (ps i).coord (ps j).coord)
  simp only [Interval.make, e]
  refine ⟨h2.1, ?_⟩
  rw [h2.1 i hi, h2.1 j hj]
  simp only [interval, policy, h1.2, h2.2, Interval.mk.injEq, true_and]
  ring

theorem makeIntervals_alike (g : MeshParams) {n : Nat} : ∀ (l : List Nat) {ps qs : Policies}, Alike c n ps qs → (∀ i ∈ l, i < n) →
    Alike c n (makeIntervals g ps l).1 (makeIntervals g qs l).1 ∧
      (makeIntervals g qs l).2 = (makeIntervals g ps l).2.map (interval c)
  | [], _, _, h, _ => ⟨h, rfl⟩
  | [_], _, _, h, _ => ⟨h, rfl⟩
  | i :: j :: rest, ps, qs, h, hl => by
    have h1 := make_alike h (hl i (by simp)) (hl j (by simp)) g.lmin g.smoothness g.dmax
    have h2 := makeIntervals_alike g (j :: rest) h1.1 fun k hk => hl k (List.mem_cons_of_mem _ hk)
    simp only [makeIntervals, List.map_cons]
    exact ⟨h2.1, by rw [h1.2, h2.2]⟩

theorem withPolicies_axis (a : Axis) {ps qs : Policies} (h : Alike c a.policies.length ps qs) :
    (axis c a).withPolicies qs = axis c (a.withPolicies ps) := by
  unfold Axis.withPolicies
  rw [pointers_axis]
  have : a.pointers.map qs = (a.pointers.map ps).map (policy c) := by
    rw [List.map_map]
    exact List.map_congr_left fun i hi => h i (by simpa [Axis.pointers] using hi)
  rw [this]
  rfl

theorem detectIntervals_axis {S : Sorter Nat} (hS : Compares S) (g : MeshParams) (a : Axis) :
    (axis c a).detectIntervals S g = axis c (a.detectIntervals S g) := by
  unfold Axis.detectIntervals
  rw [sort_axis hS]
  have h := makeIntervals_alike g (S.sort (fun i => (a.get i).coord) a.enabledPointers) (alike_get (c := c) a) (sorted_lt _ a)
  simp only [h.2]
  rw [withPolicies_axis a h.1]
  simp [axis]

/-- The policies of the intervals are there. -/
def Within (n : Nat) (l : List Interval) : Prop := ∀ i ∈ l, i.before.policy < n ∧ i.after.policy < n

theorem makeIntervals_within (g : MeshParams) {n : Nat} : ∀ (l : List Nat) {ps : Policies}, (∀ i ∈ l, i < n) →
    Within n (makeIntervals g ps l).2
  | [], _, _ => by simp [makeIntervals, Within]
  | [_], _, _ => by simp [makeIntervals, Within]
  | i :: j :: rest, ps, hl => by
    have := makeIntervals_within g (j :: rest) (ps := (Interval.make ps i j g.lmin g.smoothness g.dmax).1)
      fun k hk => hl k (List.mem_cons_of_mem _ hk)
    simp only [makeIntervals]
    intro k hk
    rcases List.mem_cons.mp hk with e | hk
    · subst e
      exact ⟨hl i (by simp), hl j (by simp)⟩
    · exact this k hk

theorem detectIntervals_within {S : Sorter Nat} (g : MeshParams) (a : Axis) (h : a.intervals = []) :
    Within (a.detectIntervals S g).policies.length (a.detectIntervals S g).intervals := by
  have hl : (a.detectIntervals S g).policies.length = a.policies.length := by
    simp [Axis.detectIntervals, Axis.withPolicies, Axis.pointers]
  rw [hl]
  have := makeIntervals_within g (ps := a.get) _ (sorted_lt (S := S) (fun i => (a.get i).coord) a)
  simpa [Axis.detectIntervals, h] using this

/-! ## Solving -/

theorem dInitBefore_policy (p : Policy) : dInitBefore (policy c p) = dInitBefore p := rfl
theorem dInitAfter_policy (p : Policy) : dInitAfter (policy c p) = dInitAfter p := rfl

section
variable {n : Nat} {ps qs : Policies} {dInit : Policy → ℚ → ℚ} {side side' : Side} {dmax hh : ℚ}

theorem updateLs_alike (h : Alike c n ps qs) (hd : ∀ p, dInit (policy c p) = dInit p) (hs : side.policy < n) :
    side.updateLs dInit dmax hh qs = side.updateLs dInit dmax hh ps := by
  unfold Side.updateLs
  rw [h _ hs]
  simp only [hd]
  rfl

theorem adjustD_alike (h : Alike c n ps qs) (hd : ∀ p, dInit (policy c p) = dInit p) (hs : side.policy < n) :
    adjustD side dInit dmax hh qs = adjustD side dInit dmax hh ps := by
  unfold adjustD
  rw [h _ hs]
  simp only [hd]
  rfl

theorem adjustSmoothness_alike (h : Alike c n ps qs) (hd : ∀ p, dInit (policy c p) = dInit p) (hs : side.policy < n) :
    adjustSmoothness side dInit dmax hh qs = adjustSmoothness side dInit dmax hh ps := by
  unfold adjustSmoothness
  rw [h _ hs]
  simp only [hd]
  rfl

theorem updateLs_policy (h : side.updateLs dInit dmax hh ps = some side') : side'.policy = side.policy := by
  unfold Side.updateLs at h
  simp only [Option.bind_eq_bind, Option.bind_eq_some_iff] at h
  obtain ⟨_, _, h⟩ := h
  cases h
  rfl
end

section
variable {n : Nat} {ps qs : Policies}

theorem autoSolveD_alike (h : Alike c n ps qs) {i j : Interval} {ps' : Policies} (hb : i.before.policy < n)
    (ha : i.after.policy < n) (he : i.autoSolveD ps = some (ps', j)) :
    (∃ qs', (interval c i).autoSolveD qs = some (qs', interval c j) ∧ Alike c n ps' qs') ∧
      j.before.policy = i.before.policy ∧ j.after.policy = i.after.policy := by
  unfold Interval.autoSolveD at he
  simp only [Option.bind_eq_bind, Option.bind_eq_some_iff] at he
  obtain ⟨b1, hb1, a1, ha1, b2, hb2, a2, ha2, db, hdb, b3, hb3, da, hda, a3, ha3, he⟩ := he
  cases he
  have pb1 := updateLs_policy hb1
  have pa1 := updateLs_policy ha1
  have pb2 := (updateLs_policy hb2).trans pb1
  have pa2 := (updateLs_policy ha2).trans pa1
  have pb3 := (updateLs_policy hb3).trans pb2
  have pa3 := (updateLs_policy ha3).trans pa2
  have h1 := alike_setD h b2.policy db
  have h2 := alike_setD h1 a2.policy da
  refine ⟨⟨_, ?_, h2⟩, pb3, pa3⟩
  unfold Interval.autoSolveD
  have eb1 := (updateLs_alike (c := c) h dInitBefore_policy hb).trans hb1
  have ea1 := (updateLs_alike (c := c) h dInitAfter_policy ha).trans ha1
  have eb2 := (updateLs_alike (c := c) h dInitBefore_policy (pb1 ▸ hb)).trans hb2
  have ea2 := (updateLs_alike (c := c) h dInitAfter_policy (pa1 ▸ ha)).trans ha2
  have edb := (adjustD_alike (c := c) h dInitBefore_policy (pb2 ▸ hb)).trans hdb
  have eb3 := (updateLs_alike (c := c) h1 dInitBefore_policy (pb2 ▸ hb)).trans hb3
  have eda := (adjustD_alike (c := c) h1 dInitAfter_policy (pa2 ▸ ha)).trans hda
  have ea3 := (updateLs_alike (c := c) h2 dInitAfter_policy (pa2 ▸ ha)).trans ha3
  simp only [interval, eb1, ea1, eb2, ea2, edb, eb3, eda, ea3, Option.bind_eq_bind, Option.bind_some]
  rfl

theorem autoSolveSmoothness_alike (h : Alike c n ps qs) {i j : Interval} (hb : i.before.policy < n)
    (ha : i.after.policy < n) (he : i.autoSolveSmoothness ps = some j) :
    (interval c i).autoSolveSmoothness qs = some (interval c j) ∧
      j.before.policy = i.before.policy ∧ j.after.policy = i.after.policy := by
  unfold Interval.autoSolveSmoothness at he
  simp only [Option.bind_eq_bind, Option.bind_eq_some_iff] at he
  obtain ⟨b1, hb1, a1, ha1, sb, hsb, sa, hsa, b2, hb2, a2, ha2, he⟩ := he
  cases he
  have pb1 := updateLs_policy hb1
  have pa1 := updateLs_policy ha1
  have pb2 := (updateLs_policy hb2).trans pb1
  have pa2 := (updateLs_policy ha2).trans pa1
  refine ⟨?_, pb2, pa2⟩
  unfold Interval.autoSolveSmoothness
  have eb1 := (updateLs_alike (c := c) h dInitBefore_policy hb).trans hb1
  have ea1 := (updateLs_alike (c := c) h dInitAfter_policy ha).trans ha1
  have esb := (adjustSmoothness_alike (c := c) h dInitBefore_policy (pb1 ▸ hb)).trans hsb
  have esa := (adjustSmoothness_alike (c := c) h dInitAfter_policy (pa1 ▸ ha)).trans hsa
  have eb2 := (updateLs_alike (c := c) h dInitBefore_policy (side := { b1 with smoothness := sb }) (pb1 ▸ hb)).trans hb2
  have ea2 := (updateLs_alike (c := c) h dInitAfter_policy (side := { a1 with smoothness := sa }) (pa1 ▸ ha)).trans ha2
  simp only [interval, eb1, ea1, esb, esa, eb2, ea2, Option.bind_eq_bind, Option.bind_some]
  rfl

theorem mesh_interval (h : Alike c n ps qs) (i : Interval) (hb : i.before.policy < n) (ha : i.after.policy < n) :
    (interval c i).mesh qs = (i.mesh ps).map (· + c) := by
  have e1 : ∀ x y l : ℚ, x + c + y + l = x + y + l + c := fun x y l => by ring
  have e2 : ∀ x y l : ℚ, x + c - y - l = x - y - l + c := fun x y l => by ring
  have e3 : ∀ x y : ℚ, x + c + y = x + y + c := fun x y => by ring
  have e4 : ∀ x y : ℚ, x + c - y = x - y + c := fun x y => by ring
  unfold Interval.mesh
  have hb' : qs (interval c i).before.policy = policy c (ps i.before.policy) := h _ hb
  have ha' : qs (interval c i).after.policy = policy c (ps i.after.policy) := h _ ha
  simp only [hb', ha']
  simp only [interval, dInitBefore_policy, dInitAfter_policy, List.map_append, List.map_map, Function.comp_def, List.map_cons, List.map_nil]
  simp only [policy, e1, e2, e3, e4]
  congr 1
  · congr 1
    congr 1
    congr 1
    split <;> rfl
  · split <;> rfl

theorem solveAndMesh_alike (h : Alike c n ps qs) {i j : Interval} {ps' : Policies} {ls : List ℚ} (hb : i.before.policy < n)
    (ha : i.after.policy < n) (he : i.solveAndMesh ps = some (ps', j, ls)) :
    (∃ qs', (interval c i).solveAndMesh qs = some (qs', interval c j, ls.map (· + c)) ∧ Alike c n ps' qs') ∧
      j.before.policy = i.before.policy ∧ j.after.policy = i.after.policy := by
  unfold Interval.solveAndMesh at he
  simp only [Option.bind_eq_bind, Option.bind_eq_some_iff] at he
  obtain ⟨⟨ps1, i1⟩, h1, i2, h2, he⟩ := he
  cases he
  obtain ⟨⟨qs1, e1, h3⟩, p1, p2⟩ := autoSolveD_alike h hb ha h1
  obtain ⟨e2, p3, p4⟩ := autoSolveSmoothness_alike h3 (by simpa [p1] using hb) (by simpa [p2] using ha) h2
  refine ⟨⟨qs1, ?_, h3⟩, p3.trans p1, p4.trans p2⟩
  unfold Interval.solveAndMesh
  simp only [e1, e2, Option.bind_eq_bind, Option.bind_some]
  rw [mesh_interval h3 _ (by simpa [p3, p1] using hb) (by simpa [p4, p2] using ha)]
  rfl
end

theorem solveAllD_alike {n : Nat} : ∀ (l : List Interval) {ps qs ps' : Policies} {l' : List Interval}, Alike c n ps qs →
    Within n l → solveAllD ps l = some (ps', l') →
    (∃ qs', solveAllD qs (l.map (interval c)) = some (qs', l'.map (interval c)) ∧ Alike c n ps' qs') ∧ Within n l'
  | [], ps, qs, ps', l', h, hw, he => by
    cases he
    exact ⟨⟨qs, rfl, h⟩, hw⟩
  | i :: rest, ps, qs, ps', l', h, hw, he => by
    simp only [solveAllD, Option.bind_eq_bind, Option.bind_eq_some_iff] at he
    obtain ⟨⟨ps1, j⟩, h1, ⟨ps2, r⟩, h2, he⟩ := he
    cases he
    obtain ⟨hb, ha⟩ := hw i (by simp)
    obtain ⟨⟨qs1, e1, h3⟩, p1, p2⟩ := autoSolveD_alike h hb ha h1
    obtain ⟨⟨qs2, e2, h4⟩, hw2⟩ := solveAllD_alike rest h3 (fun k hk => hw k (List.mem_cons_of_mem _ hk)) h2
    refine ⟨⟨qs2, ?_, h4⟩, ?_⟩
    · simp only [solveAllD, List.map_cons, e1, e2, Option.bind_eq_bind, Option.bind_some]
      rfl
    · intro k hk
      rcases List.mem_cons.mp hk with e | hk
      · subst e
        rw [p1, p2]
        exact ⟨hb, ha⟩
      · exact hw2 k hk

theorem meshAll_alike {n : Nat} : ∀ (l : List Interval) {ps qs ps' : Policies} {l' : List Interval} {ls : List (List ℚ)},
    Alike c n ps qs → Within n l → meshAll ps l = some (ps', l', ls) →
    ∃ qs', meshAll qs (l.map (interval c)) = some (qs', l'.map (interval c), ls.map fun l => l.map (· + c)) ∧ Alike c n ps' qs'
  | [], ps, qs, ps', l', ls, h, hw, he => by
    cases he
    exact ⟨qs, rfl, h⟩
  | i :: rest, ps, qs, ps', l', ls, h, hw, he => by
    simp only [meshAll, Option.bind_eq_bind, Option.bind_eq_some_iff] at he
    obtain ⟨⟨ps1, j, lines⟩, h1, ⟨ps2, r, others⟩, h2, he⟩ := he
    cases he
    obtain ⟨hb, ha⟩ := hw i (by simp)
    obtain ⟨⟨qs1, e1, h3⟩, _⟩ := solveAndMesh_alike h hb ha h1
    obtain ⟨qs2, e2, h4⟩ := meshAll_alike rest h3 (fun k hk => hw k (List.mem_cons_of_mem _ hk)) h2
    refine ⟨qs2, ?_, h4⟩
    simp only [meshAll, List.map_cons, e1, e2, Option.bind_eq_bind, Option.bind_some]
    rfl

theorem onelines_axis (l : List Policy) : (l.map (policy c)).filterMap Policy.mesh = (l.filterMap Policy.mesh).map (· + c) := by
  rw [List.filterMap_map, List.map_filterMap]
  congr 1
  funext p
  cases p with
  | mk coord kind normal enabled d => cases enabled <;> cases kind <;> rfl

theorem mesh_some {S : Sorter Interval} {T : Sorter ℚ} (hS : Compares S) (hT : Compares T) {a b : Axis}
    (hw : Within a.policies.length a.intervals) (h : a.mesh S T = some b) : (axis c a).mesh S T = some (axis c b) := by
  unfold Axis.mesh at h
  simp only [Option.bind_eq_bind, Option.bind_eq_some_iff] at h
  obtain ⟨⟨ps1, l1⟩, h1, ⟨ps2, l2, ls⟩, h2, he⟩ := h
  cases he
  have hs : S.sort Interval.h (axis c a).intervals = (S.sort Interval.h a.intervals).map (interval c) :=
    hS (interval c) Interval.h Interval.h a.intervals fun _ _ _ _ => Iff.rfl
  have hw1 : Within a.policies.length (S.sort Interval.h a.intervals) := fun i hi => hw i ((S.perm _ _).mem_iff.mp hi)
  obtain ⟨⟨qs1, e1, h3⟩, hw2⟩ := solveAllD_alike _ (alike_get (c := c) a) hw1 h1
  obtain ⟨qs2, e2, h4⟩ := meshAll_alike _ h3 hw2 h2
  unfold Axis.mesh
  simp only [hs, e1, e2, Option.bind_eq_bind, Option.bind_some]
  rw [withPolicies_axis a h4]
  have e4 : ∀ (x : Axis), (axis c x).policies = x.policies.map (policy c) := fun _ => rfl
  have e5 : ∀ (x : Axis), (axis c x).meshlines = x.meshlines.map (· + c) := fun _ => rfl
  have e6 : T.sort id ((axis c (a.withPolicies ps2)).meshlines ++ (ls.map fun l => l.map (· + c)).flatten ++
      (axis c (a.withPolicies ps2)).policies.filterMap Policy.mesh) =
      (T.sort id ((a.withPolicies ps2).meshlines ++ ls.flatten ++ (a.withPolicies ps2).policies.filterMap Policy.mesh)).map
        (· + c) := by
    rw [e4, e5, onelines_axis, ← List.map_flatten, ← List.map_append, ← List.map_append,
      hT (· + c) id id _ fun a _ b _ => by simp]
  rw [e6]
  rfl

theorem mesh_axis {S : Sorter Interval} {T : Sorter ℚ} (hS : Compares S) (hT : Compares T) {a : Axis}
    (hw : Within a.policies.length a.intervals) : (axis c a).mesh S T = (a.mesh S T).map (axis c) := by
  cases ha : a.mesh S T with
  | some b => exact mesh_some hS hT hw ha
  | none =>
    cases hb : (axis c a).mesh S T with
    | none => rfl
    | some b =>
      have hw' : Within (axis c a).policies.length (axis c a).intervals := by
        intro i hi
        simp only [axis, List.mem_map, List.length_map] at hi ⊢
        obtain ⟨j, hj, e⟩ := hi
        subst e
        exact hw j hj
      have := mesh_some (c := -c) hS hT hw' hb
      rw [axis_neg, ha] at this
      cases this

end Verif.Moved
