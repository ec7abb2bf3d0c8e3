import Verif.Lemmas.Mirror

/-! # The end of the steps on an axis, seen in a mirror -/

namespace Verif.Mirror
open Verif.Mesh
open Verif.Board (neighbours BAngle axisPolicies emptyAxis finishAxis zoneIntervals Sorters Outcome)

/-- Seen in a mirror: the axis, before intervals are made. -/
def axis (a : Axis) : Axis := { a with policies := a.policies.map policy }

theorem addPolicy_axis (g : MeshParams) (a : Axis) (kind : Kind) (normal : Facing) (c : ℚ) (enabled : Bool) :
    ((axis a).addPolicy g kind (flip normal) (-c) enabled).1 = axis (a.addPolicy g kind normal c enabled).1 := by
  have e : flip normal = .none ↔ normal = .none := by cases normal <;> decide
  unfold Axis.addPolicy
  simp only [ne_eq, e]
  split
  · rfl
  · simp [axis, Policy.make, policy]

theorem addFixed_axis (g : MeshParams) (a : Axis) (x : ℚ) : (axis a).addFixed g (-x) = axis (a.addFixed g x) := by
  unfold Axis.addFixed
  have e : ((axis a).policies.any fun p =>
      decide (p.kind = .oneline) && decide (p.normal = .none) && decide (|p.coord - (-x)| < tolerance)) =
      a.policies.any fun p => decide (p.kind = .oneline) && decide (p.normal = .none) && decide (|p.coord - x| < tolerance) := by
    simp only [axis, List.any_map, Function.comp_def]
    congr 1
    funext p
    have e1 : |(policy p).coord - -x| = |p.coord - x| := by
      rw [← abs_neg]
      congr 1
      simp only [policy]
      ring
    have e2 : ((policy p).normal = .none) = (p.normal = .none) := by
      simp only [policy]
      cases p.normal <;> simp [flip]
    have e3 : (policy p).kind = p.kind := rfl
    simp only [e1, e2, e3]
  rw [e]
  split
  · rfl
  · exact addPolicy_axis g a _ .none _ _

theorem addAllFixed_axis (g : MeshParams) : ∀ (l : List ℚ) (a : Axis),
    (axis a).addAllFixed g (l.map fun x => -x) = axis (a.addAllFixed g l)
  | [], _ => rfl
  | x :: rest, a => by
    simp only [List.map_cons, Axis.addAllFixed, addFixed_axis]
    exact addAllFixed_axis g rest _

theorem axisPolicies_mirror (g : MeshParams) (fixed : List ℚ) (l : List (Kind × Facing × ℚ × Bool)) :
    axisPolicies g (fixed.map fun x => -x) (l.map asked) = axis (axisPolicies g fixed l) := by
  unfold axisPolicies
  rw [show emptyAxis.addAllFixed g (fixed.map fun x => -x) = axis (emptyAxis.addAllFixed g fixed) from addAllFixed_axis g fixed emptyAxis]
  generalize emptyAxis.addAllFixed g fixed = a
  induction l generalizing a with
  | nil => rfl
  | cons p rest ih =>
    simp only [List.map_cons, List.foldl_cons, asked, addPolicy_axis]
    exact ih _

theorem axisPolicies_meshlines (g : MeshParams) (fixed : List ℚ) (l : List (Kind × Facing × ℚ × Bool)) :
    (axisPolicies g fixed l).meshlines = [] := by
  have h0 : ∀ (a : Axis) k n c e, (a.addPolicy g k n c e).1.meshlines = a.meshlines := by
    intro a k n c e
    unfold Axis.addPolicy
    split <;> rfl
  have h1 : ∀ (l : List ℚ) (a : Axis), (a.addAllFixed g l).meshlines = a.meshlines := by
    intro l
    induction l with
    | nil => exact fun _ => rfl
    | cons x rest ih =>
      intro a
      rw [Axis.addAllFixed, ih, Axis.addFixed]
      split
      · rfl
      · exact h0 _ _ _ _ _
  have h2 : ∀ (l : List (Kind × Facing × ℚ × Bool)) (a : Axis),
      (l.foldl (fun a p => (a.addPolicy g p.1 p.2.1 p.2.2.1 p.2.2.2).1) a).meshlines = a.meshlines := by
    intro l
    induction l with
    | nil => exact fun _ => rfl
    | cons x rest ih =>
      intro a
      rw [List.foldl_cons, ih, h0]
  unfold axisPolicies
  rw [h2, h1]
  rfl

/-- The coordinates of the enabled policies. -/
def coords (a : Axis) : List ℚ := (a.policies.filter (·.enabled)).map (·.coord)

theorem coords_eq (a : Axis) : coords a = a.enabledPointers.map fun i => (a.get i).coord := by
  have e : a.policies = (List.range a.policies.length).map a.get := by
    refine List.ext_getElem (by simp) fun n h1 h2 => ?_
    simp [Axis.get, h1]
  unfold coords Axis.enabledPointers Axis.pointers
  conv_lhs => rw [e]
  rw [List.filter_map, List.map_map]
  rfl

theorem enabledPointers_axis (a : Axis) : (axis a).enabledPointers = a.enabledPointers := by
  unfold Axis.enabledPointers
  rw [pointers_turn (a := a) (b := axis a) rfl, get_mir (a := a) (b := axis a) rfl]
  rfl

section
variable {a : Axis} {limit : ℚ} (hs : Spread limit (coords a)) (h0 : 0 ≤ limit)
include hs

theorem spread_pointers : a.enabledPointers.Pairwise fun i j => limit < |(a.get i).coord - (a.get j).coord| := by
  have := hs
  unfold Spread at this
  rw [coords_eq, List.pairwise_map] at this
  exact this

theorem spread_apart {i j : Nat} (hi : i ∈ a.enabledPointers) (hj : j ∈ a.enabledPointers) (hne : i ≠ j) :
    limit < |(a.get i).coord - (a.get j).coord| := by
  haveI : Std.Symm fun i j => limit < |(a.get i).coord - (a.get j).coord| := ⟨fun x y h => by rwa [abs_sub_comm]⟩
  exact (spread_pointers hs).forall hi hj hne

theorem closest_none (S : Sorter Nat) : a.detectClosest S limit = none := by
  cases h : a.detectClosest S limit with
  | none => rfl
  | some r =>
    obtain ⟨hi, hj, hne, hl⟩ := detectClosest_some (i := r.1) (j := r.2) h
    have mem : ∀ {i : Nat}, a.Enabled i → i ∈ a.enabledPointers := by
      rintro i ⟨p, hp, he⟩
      have hlt : i < a.policies.length := by
        by_contra hc
        rw [List.getElem?_eq_none (by omega)] at hp
        cases hp
      refine List.mem_filter.2 ⟨List.mem_range.2 hlt, ?_⟩
      simp [Axis.get, hp, he]
    exact absurd hl (not_le.2 (spread_apart hs (mem hi) (mem hj) hne))

include h0

theorem sort_strict (S : Sorter Nat) :
    (S.sort (fun i => (a.get i).coord) a.enabledPointers).Pairwise fun i j => (a.get i).coord < (a.get j).coord := by
  have h1 := S.sorted (fun i => (a.get i).coord) a.enabledPointers
  have h2 : (S.sort (fun i => (a.get i).coord) a.enabledPointers).Pairwise fun i j => limit < |(a.get i).coord - (a.get j).coord| := by
    refine ((S.perm _ _).pairwise_iff ?_).2 (spread_pointers hs)
    intro x y h
    rwa [abs_sub_comm]
  refine (h1.and h2).imp fun {i j} h => lt_of_le_of_ne h.1 fun e => ?_
  have := h.2
  rw [e, sub_self, abs_zero] at this
  exact absurd this (not_lt.2 h0)

theorem sort_axis (S : Sorter Nat) : S.sort (fun i => ((axis a).get i).coord) (axis a).enabledPointers =
    (S.sort (fun i => (a.get i).coord) a.enabledPointers).reverse := by
  have e : (axis a).get = mir a.get := get_mir rfl
  have h1 := S.sorted (fun i => ((axis a).get i).coord) (axis a).enabledPointers
  have p1 := S.perm (fun i => ((axis a).get i).coord) (axis a).enabledPointers
  have h2 := List.pairwise_reverse.2 (sort_strict hs h0 S)
  have p2 := (List.reverse_perm (S.sort (fun i => (a.get i).coord) a.enabledPointers)).trans (S.perm _ _)
  rw [enabledPointers_axis] at h1 p1 ⊢
  rw [e] at h1 p1 ⊢
  refine (p1.trans p2.symm).eq_of_pairwise ?_ h1 (h2.imp fun {i j} h => ?_)
  · intro i j hi hj hij hji
    by_contra hne
    have := spread_apart hs (p1.mem_iff.1 hi) (p2.mem_iff.1 hj) hne
    have e' : (a.get i).coord = (a.get j).coord := by
      have h3 : -(a.get i).coord ≤ -(a.get j).coord := hij
      have h4 : -(a.get j).coord ≤ -(a.get i).coord := hji
      exact le_antisymm (neg_le_neg_iff.1 h4) (neg_le_neg_iff.1 h3)
    rw [e', sub_self, abs_zero] at this
    exact absurd this (not_lt.2 h0)
  · show -(a.get i).coord ≤ -(a.get j).coord
    exact neg_le_neg h.le

end

theorem neighbours_next {key : Nat → ℚ} : ∀ {l : List Nat}, (l.Pairwise fun i j => key i < key j) → ∀ r ∈ neighbours l,
    r.1 ∈ l ∧ r.2 ∈ l ∧ key r.1 < key r.2 ∧ ∀ e ∈ l, ¬ (key r.1 < key e ∧ key e < key r.2)
  | [], _, r, hr => by cases hr
  | [_], _, r, hr => by cases hr
  | i :: j :: rest, h, r, hr => by
    rw [neighbours] at hr
    have h' := List.pairwise_cons.1 h
    have h'' := List.pairwise_cons.1 h'.2
    rcases List.mem_cons.1 hr with rfl | hr
    · refine ⟨by simp, by simp, h'.1 j (by simp), fun e he hc => ?_⟩
      rcases List.mem_cons.1 he with rfl | he
      · exact lt_irrefl _ hc.1
      · rcases List.mem_cons.1 he with rfl | he
        · exact lt_irrefl _ hc.2
        · exact lt_asymm hc.2 (h''.1 e he)
    · obtain ⟨m1, m2, m3, m4⟩ := neighbours_next h'.2 r hr
      refine ⟨List.mem_cons_of_mem _ m1, List.mem_cons_of_mem _ m2, m3, fun e he hc => ?_⟩
      rcases List.mem_cons.1 he with rfl | he
      · exact lt_asymm hc.1 (h'.1 _ m1)
      · exact m4 e he hc

theorem make_ends (g : MeshParams) (ps : Policies) (i j : Nat) :
    (Interval.make ps i j g.lmin g.smoothness g.dmax).2.before.policy = i ∧
    (Interval.make ps i j g.lmin g.smoothness g.dmax).2.after.policy = j ∧
    (Interval.make ps i j g.lmin g.smoothness g.dmax).2.h = calcH (ps i).coord (ps j).coord := ⟨rfl, rfl, rfl⟩

theorem finish_mirror (S : Sorters) (g : MeshParams) (A : Nat → BAngle) (h0 : 0 ≤ g.proximityLimit) {a : Axis} (hi : a.intervals = [])
    (hm : a.meshlines = []) (hs : Spread g.proximityLimit (coords a)) (hu : Uneven (coords a)) :
    (finishAxis S g A [] (axis a)).map (fun x => x.meshlines) = (finishAxis S g A [] a).map fun x => lines x.meshlines := by
  have hs' : Spread g.proximityLimit (coords (axis a)) := by
    unfold Spread
    rw [coords_eq, List.pairwise_map, enabledPointers_axis, get_mir (a := a) (b := axis a) rfl]
    refine (spread_pointers hs).imp fun {i j} h => ?_
    show g.proximityLimit < |-(a.get i).coord - -(a.get j).coord|
    rwa [← abs_neg, show -(-(a.get i).coord - -(a.get j).coord) = (a.get i).coord - (a.get j).coord by ring]
  have stop : ∀ {x : Axis}, Spread g.proximityLimit (coords x) → x.solveTooClose S.pointers g = some x := by
    intro x hx
    rw [Axis.solveTooClose, closest_none hx]
  have zone : ∀ x : Axis, zoneIntervals A [] x = some x := fun x => rfl
  unfold finishAxis
  rw [stop hs, stop hs']
  simp only [Outcome.orDiverges, Outcome.bind, zone, Outcome.orUb]
  have strict := sort_strict hs h0 S.pointers
  have hp := S.pointers.perm (fun i => (a.get i).coord) a.enabledPointers
  have hsort := sort_axis hs h0 S.pointers
  have hint : (a.detectIntervals S.pointers g).intervals =
      (makeIntervals g a.get (S.pointers.sort (fun i => (a.get i).coord) a.enabledPointers)).2 := by
    simp [Axis.detectIntervals, hi]
  have hint' : ((axis a).detectIntervals S.pointers g).intervals =
      ((makeIntervals g a.get (S.pointers.sort (fun i => (a.get i).coord) a.enabledPointers)).2.map interval).reverse := by
    have : (axis a).intervals = [] := hi
    simp only [Axis.detectIntervals, this, List.nil_append]
    rw [hsort, get_mir (a := a) (b := axis a) rfl, (makeIntervals_mirror g _ _).2]
  have hturn : Turn (a.detectIntervals S.pointers g) ((axis a).detectIntervals S.pointers g) := by
    refine ⟨?_, ?_, hm, hm⟩
    · have := withPolicies_mir (a := a) (b := axis a) rfl
        (makeIntervals g a.get (S.pointers.sort (fun i => (a.get i).coord) a.enabledPointers)).1
      rw [← (makeIntervals_mirror g _ _).1, ← hsort, ← get_mir (a := a) (b := axis a) rfl] at this
      exact this
    · rw [hint, hint']
      exact List.reverse_perm _
  have hmem : ∀ i ∈ (a.detectIntervals S.pointers g).intervals,
      ∃ r ∈ neighbours (S.pointers.sort (fun i => (a.get i).coord) a.enabledPointers),
        i = (Interval.make a.get r.1 r.2 g.lmin g.smoothness g.dmax).2 := by
    intro i hi
    rw [hint, makeIntervals_eq] at hi
    obtain ⟨r, hr, rfl⟩ := List.mem_map.1 hi
    exact ⟨r, hr, rfl⟩
  have hnext : ∀ r ∈ neighbours (S.pointers.sort (fun i => (a.get i).coord) a.enabledPointers),
      r.1 ∈ a.enabledPointers ∧ r.2 ∈ a.enabledPointers ∧ Next (coords a) (a.get r.1).coord (a.get r.2).coord := by
    intro r hr
    obtain ⟨m1, m2, m3, m4⟩ := neighbours_next strict r hr
    rw [hp.mem_iff] at m1 m2
    refine ⟨m1, m2, ?_⟩
    rw [coords_eq]
    refine ⟨List.mem_map_of_mem (f := fun i => (a.get i).coord) m1, List.mem_map_of_mem (f := fun i => (a.get i).coord) m2, m3, fun e he => ?_⟩
    obtain ⟨k, hk, rfl⟩ := List.mem_map.1 he
    exact m4 k (hp.mem_iff.2 hk)
  have inj : ∀ i ∈ a.enabledPointers, ∀ j ∈ a.enabledPointers, (a.get i).coord = (a.get j).coord → i = j := by
    intro i hi j hj e
    by_contra hne
    have := spread_apart hs hi hj hne
    rw [e, sub_self, abs_zero] at this
    exact absurd this (not_lt.2 h0)
  have key := mesh_mirror (S := S.intervals) (T := S.lines) hturn ?_ ?_
  · cases h1 : ((axis a).detectIntervals S.pointers g).mesh S.intervals S.lines <;>
      cases h2 : (a.detectIntervals S.pointers g).mesh S.intervals S.lines <;> rw [h1, h2] at key <;>
      simp only [Option.map_none, Option.map_some, Option.some.injEq, reduceCtorEq] at key
    · rfl
    · simp only [Outcome.map, Outcome.bind]
      rw [key]
  · intro i hi
    obtain ⟨r, hr, rfl⟩ := hmem i hi
    obtain ⟨-, -, -, -, hlt, -⟩ := hnext r hr
    intro e
    rw [show r.1 = r.2 from e] at hlt
    exact lt_irrefl _ hlt
  · intro i hi j hj e
    obtain ⟨r, hr, rfl⟩ := hmem i hi
    obtain ⟨q, hq, rfl⟩ := hmem j hj
    obtain ⟨r1, r2, rn⟩ := hnext r hr
    obtain ⟨q1, q2, qn⟩ := hnext q hq
    have e' : calcH (a.get r.1).coord (a.get r.2).coord = calcH (a.get q.1).coord (a.get q.2).coord := e
    unfold calcH at e'
    have eh : (a.get r.2).coord - (a.get r.1).coord = (a.get q.2).coord - (a.get q.1).coord := by
      have lr := rn.2.2.1
      have lq := qn.2.2.1
      rw [abs_of_neg (by linarith), abs_of_neg (by linarith)] at e'
      linarith
    have ec := hu _ _ _ _ rn qn eh
    have ed : (a.get r.2).coord = (a.get q.2).coord := by linarith
    have : r = q := Prod.ext (inj _ r1 _ q1 ec) (inj _ r2 _ q2 ed)
    rw [this]

end Verif.Mirror
