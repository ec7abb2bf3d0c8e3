import Verif.Spec.Mirror
import Verif.Lemmas.AskedMesh
import Verif.Lemmas.MovedRun

/-! # Meshing an axis, seen in a mirror -/

namespace Verif.Mirror
open Verif.Mesh
open Verif.Board (neighbours)
open Verif.Moved (updateLs_policy)

/-- Seen in a mirror: a policy, an interval, the policies. -/
def policy (p : Policy) : Policy := { p with coord := -p.coord, normal := flip p.normal }
@[inherit_doc policy] def interval (i : Interval) : Interval := ⟨i.dmax, i.after, i.before, i.h, -i.m⟩
@[inherit_doc policy] def mir (ps : Policies) : Policies := fun i => policy (ps i)

theorem flip_flip (f : Facing) : flip (flip f) = f := by cases f <;> rfl

theorem policy_policy (p : Policy) : policy (policy p) = p := by
  cases p
  simp [policy, flip_flip]

theorem interval_interval (i : Interval) : interval (interval i) = i := by
  cases i
  simp [interval]

theorem setD_mir (ps : Policies) (i : Nat) (d : ℚ) : (mir ps).setD i d = mir (ps.setD i d) := by
  funext j
  by_cases e : j = i
  · subst e
    simp [Policies.setD, mir, policy]
  · simp [Policies.setD, mir, e]

theorem dInitBefore_mirror (p : Policy) (d : ℚ) : dInitBefore (policy p) d = dInitAfter p d := by
  cases p with
  | mk coord kind normal enabled e => cases kind <;> cases normal <;> rfl

theorem dInitAfter_mirror (p : Policy) (d : ℚ) : dInitAfter (policy p) d = dInitBefore p d := by
  cases p with
  | mk coord kind normal enabled e => cases kind <;> cases normal <;> rfl

/-- A distance that is the other one for a policy seen in a mirror. -/
def Turned (f f' : Policy → ℚ → ℚ) : Prop := ∀ p d, f' (policy p) d = f p d

section
variable {f f' : Policy → ℚ → ℚ} (hf : Turned f f') (s : Side) (dmax hh : ℚ) (ps : Policies)
include hf

theorem updateLs_mirror : s.updateLs f' dmax hh (mir ps) = s.updateLs f dmax hh ps := by
  unfold Side.updateLs
  have e : (mir ps s.policy).d = (ps s.policy).d := rfl
  have e1 : f' (mir ps s.policy) (ps s.policy).d = f (ps s.policy) (ps s.policy).d := hf _ _
  simp only [e, e1]

theorem adjustD_mirror : adjustD s f' dmax hh (mir ps) = adjustD s f dmax hh ps := by
  unfold adjustD
  have e : (mir ps s.policy).d = (ps s.policy).d := rfl
  have e1 : f' (mir ps s.policy) = f (ps s.policy) := funext fun d => hf _ _
  simp only [e, e1]

theorem adjustSmoothness_mirror : adjustSmoothness s f' dmax hh (mir ps) = adjustSmoothness s f dmax hh ps := by
  unfold adjustSmoothness
  have e : (mir ps s.policy).d = (ps s.policy).d := rfl
  have e1 : f' (mir ps s.policy) (ps s.policy).d = f (ps s.policy) (ps s.policy).d := hf _ _
  simp only [e, e1]
end

theorem updateLs_local {f : Policy → ℚ → ℚ} (s : Side) (dmax hh : ℚ) {ps qs : Policies} (h : ps s.policy = qs s.policy) :
    s.updateLs f dmax hh ps = s.updateLs f dmax hh qs := by
  unfold Side.updateLs
  rw [h]

theorem adjustD_local {f : Policy → ℚ → ℚ} (s : Side) (dmax hh : ℚ) {ps qs : Policies} (h : ps s.policy = qs s.policy) :
    adjustD s f dmax hh ps = adjustD s f dmax hh qs := by
  unfold adjustD
  rw [h]

theorem findDmax_comm (a b : Side) (dmax : ℚ) : findDmax a b dmax = findDmax b a dmax := by
  unfold findDmax
  rw [min_comm]

theorem setD_ne (ps : Policies) {i j : Nat} (d : ℚ) (h : j ≠ i) : ps.setD i d j = ps j := by
  unfold Policies.setD
  rw [if_neg h]

theorem setD_comm (ps : Policies) {i j : Nat} (x y : ℚ) (h : i ≠ j) : (ps.setD i x).setD j y = (ps.setD j y).setD i x := by
  funext k
  unfold Policies.setD
  split <;> split <;> simp_all

/-! ## Solving an interval -/

theorem turnedA : Turned dInitAfter dInitBefore := dInitBefore_mirror
theorem turnedB : Turned dInitBefore dInitAfter := dInitAfter_mirror

theorem autoSolveD_mirror {ps ps' : Policies} {i j : Interval} (hne : i.before.policy ≠ i.after.policy)
    (he : i.autoSolveD ps = some (ps', j)) :
    (interval i).autoSolveD (mir ps) = some (mir ps', interval j) ∧ j.before.policy ≠ j.after.policy := by
  unfold Interval.autoSolveD at he
  simp only [Option.bind_eq_bind, Option.bind_eq_some_iff] at he
  obtain ⟨b1, hb1, a1, ha1, b2, hb2, a2, ha2, db, hdb, b3, hb3, da, hda, a3, ha3, he⟩ := he
  cases he
  have pb2 := (updateLs_policy hb2).trans (updateLs_policy hb1)
  have pa2 := (updateLs_policy ha2).trans (updateLs_policy ha1)
  have pb3 := (updateLs_policy hb3).trans pb2
  have pa3 := (updateLs_policy ha3).trans pa2
  have hne2 : b2.policy ≠ a2.policy := by rw [pb2, pa2]; exact hne
  refine ⟨?_, by rw [pb3, pa3]; exact hne⟩
  have hda' : adjustD a2 dInitAfter i.dmax i.h ps = some da := by
    rw [← hda]
    exact adjustD_local _ _ _ (setD_ne _ _ hne2.symm).symm
  have ha3' : a2.updateLs dInitAfter i.dmax i.h (ps.setD a2.policy da) = some a3 := by
    rw [← ha3]
    refine updateLs_local _ _ _ ?_
    rw [setD_comm _ _ _ hne2, setD_ne _ _ hne2.symm]
  have hdb' : adjustD b2 dInitBefore i.dmax i.h (ps.setD a2.policy da) = some db := by
    rw [← hdb]
    exact adjustD_local _ _ _ (setD_ne _ _ hne2)
  have hb3' : b2.updateLs dInitBefore i.dmax i.h ((ps.setD a2.policy da).setD b2.policy db) = some b3 := by
    rw [← hb3]
    refine updateLs_local _ _ _ ?_
    rw [← setD_comm _ _ _ hne2, setD_ne _ _ hne2]
  unfold Interval.autoSolveD
  simp only [interval, updateLs_mirror turnedA, updateLs_mirror turnedB, adjustD_mirror turnedA, adjustD_mirror turnedB, setD_mir,
    hb1, ha1, hb2, ha2, hda', ha3', hdb', hb3', Option.bind_eq_bind, Option.bind_some, setD_comm ps db da hne2, findDmax_comm a1 b1]
  rfl

theorem autoSolveSmoothness_mirror {ps : Policies} {i j : Interval} (he : i.autoSolveSmoothness ps = some j) :
    (interval i).autoSolveSmoothness (mir ps) = some (interval j) := by
  unfold Interval.autoSolveSmoothness at he
  simp only [Option.bind_eq_bind, Option.bind_eq_some_iff] at he
  obtain ⟨b1, hb1, a1, ha1, sb, hsb, sa, hsa, b2, hb2, a2, ha2, he⟩ := he
  cases he
  unfold Interval.autoSolveSmoothness
  simp only [interval, updateLs_mirror turnedA, updateLs_mirror turnedB, adjustSmoothness_mirror turnedA,
    adjustSmoothness_mirror turnedB, hb1, ha1, hsb, hsa, hb2, ha2, Option.bind_eq_bind, Option.bind_some]
  rfl

theorem mesh_interval (ps : Policies) (i : Interval) : (interval i).mesh (mir ps) = lines (i.mesh ps) := by
  have eb : mir ps (interval i).before.policy = policy (ps i.after.policy) := rfl
  have ea : mir ps (interval i).after.policy = policy (ps i.before.policy) := rfl
  unfold Interval.mesh lines
  simp only [eb, ea, dInitBefore_mirror, dInitAfter_mirror]
  have e1 : ∀ p : Policy, (policy p).kind = p.kind := fun _ => rfl
  have e2 : ∀ p : Policy, (policy p).d = p.d := fun _ => rfl
  have e3 : ∀ p : Policy, (policy p).coord = -p.coord := fun _ => rfl
  simp only [e1, e2, e3, interval]
  generalize dInitBefore (ps i.before.policy) (ps i.before.policy).d = x
  generalize dInitAfter (ps i.after.policy) (ps i.after.policy).d = y
  have e4 : ∀ l : ℚ, -(ps i.after.policy).coord + y + l = -((ps i.after.policy).coord - y - l) := fun l => by ring
  have e5 : ∀ l : ℚ, -(ps i.before.policy).coord - x - l = -((ps i.before.policy).coord + x + l) := fun l => by ring
  have e6 : -(ps i.after.policy).coord + y = -((ps i.after.policy).coord - y) := by ring
  have e7 : -(ps i.before.policy).coord - x = -((ps i.before.policy).coord + x) := by ring
  simp only [List.map_append, List.reverse_append, List.map_map, Function.comp_def, List.map_cons, List.map_nil, List.map_reverse,
    List.reverse_reverse, e4, e5, List.reverse_cons, List.reverse_nil, List.nil_append, List.append_assoc]
  congr 1
  · by_cases e : (ps i.after.policy).kind = .oneline <;> simp [e, e6]
  · congr 1
    congr 1
    congr 1
    by_cases e : (ps i.before.policy).kind = .oneline <;> simp [e, e7]

theorem solveAndMesh_mirror {ps ps' : Policies} {i j : Interval} {ls : List ℚ} (hne : i.before.policy ≠ i.after.policy)
    (he : i.solveAndMesh ps = some (ps', j, ls)) :
    (interval i).solveAndMesh (mir ps) = some (mir ps', interval j, lines ls) := by
  unfold Interval.solveAndMesh at he
  simp only [Option.bind_eq_bind, Option.bind_eq_some_iff] at he
  obtain ⟨⟨ps1, i1⟩, h1, i2, h2, he⟩ := he
  cases he
  have e1 := (autoSolveD_mirror hne h1).1
  have e2 := autoSolveSmoothness_mirror h2
  unfold Interval.solveAndMesh
  simp only [e1, e2, Option.bind_eq_bind, Option.bind_some, mesh_interval]
  rfl

theorem solveAllD_mirror : ∀ (l : List Interval) {ps ps' : Policies} {l' : List Interval},
    (∀ i ∈ l, i.before.policy ≠ i.after.policy) → solveAllD ps l = some (ps', l') →
    solveAllD (mir ps) (l.map interval) = some (mir ps', l'.map interval) ∧ ∀ i ∈ l', i.before.policy ≠ i.after.policy
  | [], ps, ps', l', hw, he => by
    cases he
    exact ⟨rfl, hw⟩
  | i :: rest, ps, ps', l', hw, he => by
    simp only [solveAllD, Option.bind_eq_bind, Option.bind_eq_some_iff] at he
    obtain ⟨⟨ps1, j⟩, h1, ⟨ps2, r⟩, h2, he⟩ := he
    cases he
    obtain ⟨e1, hj⟩ := autoSolveD_mirror (hw i (by simp)) h1
    obtain ⟨e2, hr⟩ := solveAllD_mirror rest (fun k hk => hw k (List.mem_cons_of_mem _ hk)) h2
    refine ⟨?_, ?_⟩
    · simp only [solveAllD, List.map_cons, e1, e2, Option.bind_eq_bind, Option.bind_some]
      rfl
    · intro k hk
      rcases List.mem_cons.mp hk with e | hk
      · exact e ▸ hj
      · exact hr k hk

theorem meshAll_mirror : ∀ (l : List Interval) {ps ps' : Policies} {l' : List Interval} {ls : List (List ℚ)},
    (∀ i ∈ l, i.before.policy ≠ i.after.policy) → meshAll ps l = some (ps', l', ls) →
    meshAll (mir ps) (l.map interval) = some (mir ps', l'.map interval, ls.map lines)
  | [], ps, ps', l', ls, hw, he => by
    cases he
    rfl
  | i :: rest, ps, ps', l', ls, hw, he => by
    simp only [meshAll, Option.bind_eq_bind, Option.bind_eq_some_iff] at he
    obtain ⟨⟨ps1, j, lines⟩, h1, ⟨ps2, r, others⟩, h2, he⟩ := he
    cases he
    have e1 := solveAndMesh_mirror (hw i (by simp)) h1
    have e2 := meshAll_mirror rest (fun k hk => hw k (List.mem_cons_of_mem _ hk)) h2
    simp only [meshAll, List.map_cons, e1, e2, Option.bind_eq_bind, Option.bind_some]
    rfl

/-! ## Meshing an axis -/

/-- The second axis is the first one seen in a mirror, its intervals in any order. -/
structure Turn (a b : Axis) : Prop where
  policies : b.policies = a.policies.map policy
  intervals : b.intervals.Perm (a.intervals.map interval)
  before : a.meshlines = []
  after : b.meshlines = []

theorem Turn.symm {a b : Axis} (h : Turn a b) : Turn b a := by
  refine ⟨?_, ?_, h.after, h.before⟩
  · rw [h.policies, List.map_map]
    simp [Function.comp_def, policy_policy]
  · have := h.intervals.symm.map interval
    rw [List.map_map] at this
    simpa [Function.comp_def, interval_interval] using this

theorem get_mir {a b : Axis} (h : b.policies = a.policies.map policy) : b.get = mir a.get := by
  funext i
  simp only [Axis.get, h, List.getElem?_map, mir]
  cases a.policies[i]? with
  | none => simp [policy, flip]
  | some p => rfl

theorem pointers_turn {a b : Axis} (h : b.policies = a.policies.map policy) : b.pointers = a.pointers := by
  simp [Axis.pointers, h]

theorem withPolicies_mir {a b : Axis} (h : b.policies = a.policies.map policy) (ps : Policies) :
    (b.withPolicies (mir ps)).policies = (a.withPolicies ps).policies.map policy := by
  unfold Axis.withPolicies
  rw [pointers_turn h]
  simp [mir, Function.comp_def]

theorem onelines_mirror (l : List Policy) : (l.map policy).filterMap Policy.mesh = (l.filterMap Policy.mesh).map fun x => -x := by
  rw [List.filterMap_map, List.map_filterMap]
  congr 1
  funext p
  cases p with
  | mk coord kind normal enabled d => cases enabled <;> cases kind <;> rfl

theorem flatten_lines (ls : List (List ℚ)) : (ls.map lines).flatten.Perm (ls.flatten.map fun x => -x) := by
  induction ls with
  | nil => rfl
  | cons l rest ih =>
    simp only [List.map_cons, List.flatten_cons, List.map_append]
    exact (List.reverse_perm _).append ih

theorem sort_lines (T : Sorter ℚ) {l m : List ℚ} (h : m.Perm (l.map fun x => -x)) : T.sort id m = lines (T.sort id l) := by
  refine List.Perm.eq_of_pairwise (le := (· ≤ ·)) (fun _ _ _ _ h1 h2 => le_antisymm h1 h2) (T.sorted id m) ?_ ?_
  · unfold lines
    rw [List.pairwise_reverse, List.pairwise_map]
    exact (T.sorted id l).imp fun h => neg_le_neg h
  · exact ((T.perm id m).trans h).trans (((T.perm id l).map _).symm.trans (List.reverse_perm _).symm)

theorem mesh_some {S : Sorter Interval} {T : Sorter ℚ} {a b a' : Axis} (h : Turn a b)
    (hne : ∀ i ∈ a.intervals, i.before.policy ≠ i.after.policy) (hh : ∀ i ∈ a.intervals, ∀ j ∈ a.intervals, i.h = j.h → i = j)
    (hm : a.mesh S T = some a') : ∃ b', b.mesh S T = some b' ∧ b'.meshlines = lines a'.meshlines := by
  unfold Axis.mesh at hm
  simp only [Option.bind_eq_bind, Option.bind_eq_some_iff] at hm
  obtain ⟨⟨ps1, l1⟩, h1, ⟨ps2, l2, ls⟩, h2, he⟩ := hm
  cases he
  have hs : S.sort Interval.h b.intervals = (S.sort Interval.h a.intervals).map interval := by
    have hp : (S.sort Interval.h b.intervals).Perm ((S.sort Interval.h a.intervals).map interval) :=
      ((S.perm _ _).trans h.intervals).trans ((S.perm Interval.h a.intervals).map interval).symm
    refine hp.eq_of_pairwise (le := fun i j => i.h ≤ j.h) ?_ (S.sorted _ _) ?_
    · intro x y hx hy hxy hyx
      have hx := hp.mem_iff.1 hx
      simp only [List.mem_map, (S.perm _ _).mem_iff] at hx hy
      obtain ⟨i, hi, rfl⟩ := hx
      obtain ⟨j, hj, rfl⟩ := hy
      rw [hh i hi j hj (le_antisymm hxy hyx)]
    · rw [List.pairwise_map]
      exact S.sorted Interval.h a.intervals
  obtain ⟨e1, hn⟩ := solveAllD_mirror _ (fun i hi => hne i ((S.perm _ _).mem_iff.1 hi)) h1
  have e2 := meshAll_mirror _ hn h2
  unfold Axis.mesh
  simp only [get_mir h.policies, hs, e1, e2, Option.bind_eq_bind, Option.bind_some]
  refine ⟨_, rfl, ?_⟩
  have ma : (a.withPolicies ps2).meshlines = [] := h.before
  have mb : (b.withPolicies (mir ps2)).meshlines = [] := h.after
  simp only [ma, mb, List.nil_append]
  refine sort_lines T ?_
  rw [withPolicies_mir h.policies, onelines_mirror, List.map_append]
  exact (flatten_lines ls).append_right _

theorem mesh_mirror {S : Sorter Interval} {T : Sorter ℚ} {a b : Axis} (h : Turn a b)
    (hne : ∀ i ∈ a.intervals, i.before.policy ≠ i.after.policy) (hh : ∀ i ∈ a.intervals, ∀ j ∈ a.intervals, i.h = j.h → i = j) :
    (b.mesh S T).map (fun x => x.meshlines) = (a.mesh S T).map fun x => lines x.meshlines := by
  cases ha : a.mesh S T with
  | some a' =>
    obtain ⟨b', hb, e⟩ := mesh_some h hne hh ha
    rw [hb]
    simp [e]
  | none =>
    cases hb : b.mesh S T with
    | none => rfl
    | some b' =>
      have h1 : ∀ i ∈ b.intervals, i.before.policy ≠ i.after.policy := by
        intro i hi
        obtain ⟨k, hk, rfl⟩ := List.mem_map.1 (h.intervals.mem_iff.1 hi)
        exact (hne k hk).symm
      have h2 : ∀ i ∈ b.intervals, ∀ j ∈ b.intervals, i.h = j.h → i = j := by
        intro i hi j hj e
        obtain ⟨x, hx, rfl⟩ := List.mem_map.1 (h.intervals.mem_iff.1 hi)
        obtain ⟨y, hy, rfl⟩ := List.mem_map.1 (h.intervals.mem_iff.1 hj)
        rw [hh x hx y hy e]
      obtain ⟨a', ha', -⟩ := mesh_some h.symm h1 h2 hb
      rw [ha'] at ha
      cases ha

/-! ## Intervals -/

theorem make_at (g : MeshParams) (ps : Policies) (i j k : Nat) : (Interval.make ps i j g.lmin g.smoothness g.dmax).1 k =
    if k = i ∨ k = j then { ps k with d := min (ps k).d (calcH (ps i).coord (ps j).coord) } else ps k := by
  have e : ∀ (x y : ℚ), ¬ y < x → min x y = x := fun x y h => min_eq_left (not_lt.1 h)
  have e' : ∀ (x y : ℚ), y < x → min x y = y := fun x y h => min_eq_right h.le
  unfold Interval.make Side.make
  dsimp only
  generalize calcH (ps i).coord (ps j).coord = c
  have step : ∀ (qs : Policies) (m : Nat), (if (qs m).d > c then qs.setD m c else qs) k =
      if k = m then { qs k with d := min (qs k).d c } else qs k := by
    intro qs m
    by_cases hk : k = m
    · subst hk
      rw [if_pos rfl]
      split
      · rename_i h
        simp [Policies.setD, e' _ _ h]
      · rename_i h
        rw [e _ _ h]
    · rw [if_neg hk]
      split
      · simp [Policies.setD, hk]
      · rfl
  rw [step, step]
  by_cases h1 : k = i
  · by_cases h2 : k = j
    · rw [if_pos h2, if_pos h1, if_pos (Or.inl h1)]
      simp only [min_assoc, min_self]
    · rw [if_neg h2, if_pos h1, if_pos (Or.inl h1)]
  · by_cases h2 : k = j
    · rw [if_pos h2, if_neg h1, if_pos (Or.inr h2)]
    · rw [if_neg h2, if_neg h1, if_neg (not_or.2 ⟨h1, h2⟩)]

/-- One turn of the loop that makes the intervals. -/
def turn (g : MeshParams) (ps : Policies) (r : Nat × Nat) : Policies := (Interval.make ps r.1 r.2 g.lmin g.smoothness g.dmax).1

theorem turn_coord (g : MeshParams) (ps : Policies) (r : Nat × Nat) (k : Nat) : (turn g ps r k).coord = (ps k).coord := by
  unfold turn
  rw [make_at]
  split <;> rfl

theorem make_interval (g : MeshParams) {ps qs : Policies} (h : ∀ k, (ps k).coord = (qs k).coord) (i j : Nat) :
    (Interval.make ps i j g.lmin g.smoothness g.dmax).2 = (Interval.make qs i j g.lmin g.smoothness g.dmax).2 := by
  have e1 := turn_coord g ps (i, j)
  have e2 := turn_coord g qs (i, j)
  unfold turn at e1 e2
  unfold Interval.make at e1 e2 ⊢
  dsimp only at e1 e2 ⊢
  rw [e1 i, e1 j, e2 i, e2 j, h i, h j]
  rfl

theorem makeIntervals_eq (g : MeshParams) : ∀ (l : List Nat) (ps : Policies),
    makeIntervals g ps l = ((neighbours l).foldl (turn g) ps,
      (neighbours l).map fun r => (Interval.make ps r.1 r.2 g.lmin g.smoothness g.dmax).2)
  | [], _ => rfl
  | [_], _ => rfl
  | i :: j :: rest, ps => by
    have ih := makeIntervals_eq g (j :: rest) (turn g ps (i, j))
    simp only [makeIntervals, neighbours, List.foldl_cons, List.map_cons]
    rw [show (Interval.make ps i j g.lmin g.smoothness g.dmax).1 = turn g ps (i, j) from rfl, ih]
    simp only [Prod.mk.injEq, true_and, List.cons.injEq]
    exact List.map_congr_left fun r _ => make_interval g (turn_coord g ps (i, j)) _ _

theorem turn_comm (g : MeshParams) (ps : Policies) (r r' : Nat × Nat) : turn g (turn g ps r) r' = turn g (turn g ps r') r := by
  funext k
  have e1 := turn_coord g ps r
  have e2 := turn_coord g ps r'
  unfold turn at e1 e2 ⊢
  rw [make_at, make_at g (Interval.make ps r'.1 r'.2 g.lmin g.smoothness g.dmax).1]
  rw [e1, e1, e2, e2, make_at, make_at]
  by_cases h1 : k = r.1 ∨ k = r.2 <;> by_cases h2 : k = r'.1 ∨ k = r'.2 <;> simp only [h1, h2, if_true, if_false]
  rw [min_right_comm]

theorem calcH_mirror (x y : ℚ) : calcH (-y) (-x) = calcH x y := by
  unfold calcH
  congr 2
  ring

theorem turn_mir (g : MeshParams) (ps : Policies) (r : Nat × Nat) : turn g (mir ps) (r.2, r.1) = mir (turn g ps r) := by
  funext k
  unfold turn mir
  rw [make_at, make_at]
  simp only [policy, calcH_mirror]
  by_cases h1 : k = r.1 <;> by_cases h2 : k = r.2 <;> simp [h1, h2]

theorem make_mirror (g : MeshParams) (ps : Policies) (i j : Nat) : (Interval.make (mir ps) j i g.lmin g.smoothness g.dmax).2 =
    interval (Interval.make ps i j g.lmin g.smoothness g.dmax).2 := by
  have e1 := turn_coord g ps (i, j)
  have e2 := turn_coord g (mir ps) (j, i)
  unfold turn at e1 e2
  unfold Interval.make at e1 e2 ⊢
  dsimp only at e1 e2 ⊢
  have e3 : ∀ k, (mir ps k).coord = -(ps k).coord := fun _ => rfl
  rw [e1 i, e1 j, e2 i, e2 j, e3, e3, calcH_mirror]
  simp only [Side.make, interval, Interval.mk.injEq, true_and]
  ring

theorem neighbours_snoc : ∀ (m : List Nat) (j i : Nat), neighbours (m ++ [j, i]) = neighbours (m ++ [j]) ++ [(j, i)]
  | [], _, _ => rfl
  | [_], _, _ => rfl
  | a :: b :: rest, j, i => by
    have := neighbours_snoc (b :: rest) j i
    simp only [List.cons_append, neighbours] at this ⊢
    rw [this]

theorem neighbours_reverse : ∀ l : List Nat, neighbours l.reverse = ((neighbours l).map Prod.swap).reverse
  | [] => rfl
  | [_] => rfl
  | i :: j :: rest => by
    have := neighbours_reverse (j :: rest)
    simp only [List.reverse_cons, List.append_assoc, List.cons_append, List.nil_append] at this ⊢
    rw [neighbours_snoc, this]
    simp [neighbours]

theorem fold_mir (g : MeshParams) : ∀ (l : List (Nat × Nat)) (ps : Policies),
    (l.map Prod.swap).foldl (turn g) (mir ps) = mir (l.foldl (turn g) ps)
  | [], _ => rfl
  | r :: rest, ps => by
    simp only [List.map_cons, List.foldl_cons]
    rw [show r.swap = (r.2, r.1) from rfl, turn_mir, fold_mir g rest]

theorem makeIntervals_mirror (g : MeshParams) (ps : Policies) (l : List Nat) :
    (makeIntervals g (mir ps) l.reverse).1 = mir (makeIntervals g ps l).1 ∧
      (makeIntervals g (mir ps) l.reverse).2 = ((makeIntervals g ps l).2.map interval).reverse := by
  rw [makeIntervals_eq, makeIntervals_eq, neighbours_reverse]
  constructor
  · dsimp only
    rw [← fold_mir]
    haveI : RightCommutative (turn g) := ⟨fun ps r r' => turn_comm g ps r r'⟩
    exact (List.reverse_perm _).foldl_eq _
  · dsimp only
    rw [List.map_reverse, List.map_map, List.map_map]
    congr 1
    exact List.map_congr_left fun r _ => make_mirror g ps r.1 r.2

end Verif.Mirror
