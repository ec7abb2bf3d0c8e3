import Verif.Spec.Asked
import Verif.Lemmas.AskedMesh
import Verif.Props.Moved

/-! # C148: the mesh of an axis depends only on what is asked for at each coordinate -/

namespace Verif.Asked
open Verif.Mesh
open Verif.Board (Outcome Sorters BAngle Zone axisPolicies finishAxis accepted accepted_iff inZone detectPerZones solveAllIntervals zoneIntervals)
open Verif.Moved (Compares)

/-! ## What the policies of an axis bring -/

theorem brought_iff {a : Axis} {c : ℚ} {β : Fin 3} :
    Brought a c β ↔ ∃ p ∈ a.policies, p.enabled = true ∧ p.coord = c ∧ brings p.kind p.normal β = true := by
  constructor
  · rintro ⟨k, hk, h1, h2⟩
    obtain ⟨p, hp, he⟩ := hk
    have e : a.get k = p := by simp [Axis.get, hp]
    exact ⟨p, List.mem_of_getElem? hp, he, e ▸ h1, e ▸ h2⟩
  · rintro ⟨p, hp, he, h1, h2⟩
    obtain ⟨k, hk, rfl⟩ := List.getElem_of_mem hp
    have e : a.get k = a.policies[k] := by simp [Axis.get, hk]
    exact ⟨k, ⟨_, List.getElem?_eq_getElem hk, he⟩, e ▸ h1, e ▸ h2⟩

theorem wish_brings {l : List (Kind × Facing × ℚ × Bool)} (h : ∀ p ∈ l, accepted p.1 p.2.1 = true) (c : ℚ) (β : Fin 3) :
    (∃ p ∈ l, p.2.2.2 = true ∧ p.2.2.1 = c ∧ brings p.1 p.2.1 β = true) ↔ ∃ w, wish l c = some w ∧ brings w.1 w.2 β = true := by
  have e : (∃ p ∈ l, p.2.2.2 = true ∧ p.2.2.1 = c ∧ brings p.1 p.2.1 β = true) ↔
      asksFor l c .oneline .none ∨ (asksFor l c .halfs .none ∧ β ≠ 2) ∨ (asksFor l c .thirds .min ∧ β = 0) ∨
        (asksFor l c .thirds .max ∧ β = 1) := by
    unfold asksFor
    constructor
    · rintro ⟨⟨kind, side, d, b⟩, hp, hb, hd, hr⟩
      have ha := h _ hp
      dsimp only at hb hd hr ha
      subst hb; subst hd
      cases kind <;> cases side <;> simp_all [accepted, brings]
    · rintro (h1 | ⟨h1, h2⟩ | ⟨h1, h2⟩ | ⟨h1, h2⟩)
      all_goals exact ⟨_, h1, rfl, rfl, by simp_all [brings]⟩
  rw [e]
  clear e
  unfold wish
  by_cases h1 : asksFor l c .oneline .none <;> by_cases h2 : asksFor l c .halfs .none <;>
    by_cases h3 : asksFor l c .thirds .min <;> by_cases h4 : asksFor l c .thirds .max <;>
    simp only [h1, h2, h3, h4, if_true, if_false, true_and, false_and, and_self, or_false, false_or, or_self, true_or,
      Option.some.injEq, exists_eq_left', reduceCtorEq, exists_false, and_false, or_true] <;>
    revert β <;> decide

theorem kept_fixed (g : MeshParams) {l m : List ℚ} (h : SameFixed l m) (c : ℚ) :
    (∃ p ∈ (Board.emptyAxis.addAllFixed g l).policies, p.coord = c) ↔
      ∃ p ∈ (Board.emptyAxis.addAllFixed g m).policies, p.coord = c := by
  rcases h with rfl | ⟨hl, hm⟩
  · rfl
  have key : ∀ k : List ℚ, Apart k → ((∃ p ∈ (Board.emptyAxis.addAllFixed g k).policies, p.coord = c) ↔ c ∈ k) := by
    intro k hk
    obtain ⟨new, h1, h2, -, -, h5⟩ := C48_fixed g Board.emptyAxis k
    have e : Board.emptyAxis.policies = [] := rfl
    rw [h1]
    simp only [e, List.nil_append] at *
    constructor
    · rintro ⟨p, hp, rfl⟩
      exact (h2 p hp).2.2
    · intro hc
      obtain ⟨p, hp, -, hq⟩ := h5 c hc
      refine ⟨p, hp, ?_⟩
      rcases hk _ (h2 p hp).2.2 c hc with e | e
      · exact e
      · exact absurd hq (not_lt.2 e)
  have hm' : Apart m := fun c hc d hd => hl c ((hm c).2 hc) d ((hm d).2 hd)
  rw [key l hl, key m hm', hm c]

theorem brought_axis (g : MeshParams) (fixed : List ℚ) {asked : List (Kind × Facing × ℚ × Bool)}
    (h : ∀ p ∈ asked, accepted p.1 p.2.1 = true) (c : ℚ) (β : Fin 3) :
    Brought (axisPolicies g fixed asked) c β ↔
      (∃ p ∈ (Board.emptyAxis.addAllFixed g fixed).policies, p.coord = c) ∨ ∃ w, wish asked c = some w ∧ brings w.1 w.2 β = true := by
  rw [brought_iff, ← wish_brings h]
  unfold axisPolicies
  rw [Board.fold_policies g asked _ h]
  obtain ⟨new, h1, h2, -⟩ := C48_fixed g Board.emptyAxis fixed
  have e : Board.emptyAxis.policies = [] := rfl
  rw [h1]
  simp only [e, List.nil_append, List.mem_append]
  constructor
  · rintro ⟨p, hp | hp, he, hc, hb⟩
    · exact Or.inl ⟨p, hp, hc⟩
    · obtain ⟨q, hq, rfl⟩ := List.mem_map.1 hp
      exact Or.inr ⟨q, hq, he, hc, hb⟩
  · rintro (⟨p, hp, hc⟩ | ⟨q, hq, he, hc, hb⟩)
    · refine ⟨p, Or.inl hp, (h2 p hp).2.1, hc, ?_⟩
      rw [(h2 p hp).1.1]
      rfl
    · exact ⟨_, Or.inr (List.mem_map_of_mem hq), he, hc, hb⟩

theorem plain_axis (g : MeshParams) (fixed : List ℚ) {asked : List (Kind × Facing × ℚ × Bool)}
    (h : ∀ p ∈ asked, accepted p.1 p.2.1 = true) : Plain g (axisPolicies g fixed asked) := by
  have hf := (Board.axis_policies g fixed asked h).1
  refine ⟨hf.unmerged, hf.coherent, fun k hk => ?_, hf.intervals, hf.meshlines⟩
  obtain ⟨coord, kind, normal, enabled, e, -⟩ := hf.policies _ (get_mem hk.lt)
  rw [e]
  rfl

/-! ## The end of the run -/

theorem inZone_m (b : ℚ × ℚ) {l m : List Interval} (h : l.map (·.m) = m.map (·.m)) : inZone b l = inZone b m := by
  have hl : l.length = m.length := by simpa using congrArg List.length h
  unfold inZone
  rw [hl]
  refine List.filter_congr fun i _ => ?_
  have := congrArg (fun k => k[i]?) h
  simp only [List.getElem?_map] at this
  cases h1 : l[i]? <;> cases h2 : m[i]? <;> simp_all

theorem finish_alike (S : Sorters) (hS : Compares S.intervals) (g : MeshParams) (hl : 0 ≤ g.proximityLimit) (A : Nat → BAngle)
    (zones : List Zone) {a b : Axis} (ha : Plain g a) (hb : Plain g b) (h : ∀ c β, Brought a c β ↔ Brought b c β) :
    (finishAxis S g A zones a).map (fun a => a.meshlines) = (finishAxis S g A zones b).map fun a => a.meshlines := by
  obtain ⟨a', b', h1, h2, ha', hb', -, -, ho⟩ := merges_alike S.pointers g hl _ a b ha hb h le_rfl
  have hm : ∀ zs, (Axis.mesh S.intervals S.lines { a'.detectIntervals S.pointers g with
        intervals := solveAllIntervals zs (a'.detectIntervals S.pointers g).intervals }).map (fun a => a.meshlines) =
      (Axis.mesh S.intervals S.lines { b'.detectIntervals S.pointers g with
        intervals := solveAllIntervals zs (b'.detectIntervals S.pointers g).intervals }).map fun a => a.meshlines := by
    intro zs
    cases e : Axis.mesh S.intervals S.lines { a'.detectIntervals S.pointers g with
        intervals := solveAllIntervals zs (a'.detectIntervals S.pointers g).intervals } with
    | some x =>
      obtain ⟨y, hy, hxy⟩ := mesh_alike S hS g zs ha' hb' ho e
      rw [hy]
      simp [hxy]
    | none =>
      cases e' : Axis.mesh S.intervals S.lines { b'.detectIntervals S.pointers g with
        intervals := solveAllIntervals zs (b'.detectIntervals S.pointers g).intervals } with
      | none => rfl
      | some y =>
        obtain ⟨x, hx, -⟩ := mesh_alike S hS g zs hb' ha' ho.symm e'
        rw [hx] at e
        cases e
  have hz : detectPerZones A (a'.detectIntervals S.pointers g).intervals zones =
      detectPerZones A (b'.detectIntervals S.pointers g).intervals zones := by
    unfold detectPerZones
    simp only [inZone_m _ (intervals_alike S g ha' hb' ho)]
  unfold finishAxis zoneIntervals
  rw [h1, h2]
  simp only [Board.Outcome.orDiverges, Board.Outcome.bind]
  rw [hz]
  cases detectPerZones A (b'.detectIntervals S.pointers g).intervals zones with
  | none => rfl
  | some zs =>
    have := hm zs
    simp only [Option.map_some, Outcome.orUb, Outcome.bind, Outcome.map] at this ⊢
    revert this
    cases Axis.mesh S.intervals S.lines { a'.detectIntervals S.pointers g with
        intervals := solveAllIntervals zs (a'.detectIntervals S.pointers g).intervals } <;>
      cases Axis.mesh S.intervals S.lines { b'.detectIntervals S.pointers g with
        intervals := solveAllIntervals zs (b'.detectIntervals S.pointers g).intervals } <;> simp

/-! ## C148 -/

/-- C148: the lines of an axis depend on what the policies asked for come to at each coordinate, and on nothing else: not on their
order, not on how many times each is asked for, not on those that are not enabled, nor on those that another one makes up for. -/
theorem C148 (S : Sorters) (hS : Compares S.intervals) (g : MeshParams) (hl : 0 ≤ g.proximityLimit) (A : Nat → BAngle)
    (zones : List Zone) (fixed fixed' : List ℚ) (asked asked' : List (Kind × Facing × ℚ × Bool)) (hf : SameFixed fixed fixed')
    (h : ∀ p ∈ asked, accepted p.1 p.2.1 = true) (h' : ∀ p ∈ asked', accepted p.1 p.2.1 = true)
    (hw : ∀ c, wish asked c = wish asked' c) :
    (finishAxis S g A zones (axisPolicies g fixed asked)).map (fun a => a.meshlines) =
      (finishAxis S g A zones (axisPolicies g fixed' asked')).map fun a => a.meshlines := by
  refine finish_alike S hS g hl A zones (plain_axis g fixed h) (plain_axis g fixed' h') fun c β => ?_
  rw [brought_axis g fixed h, brought_axis g fixed' h', kept_fixed g hf, hw c]

/-- The example of C148: policies in another order, one of them twice, and one line on each side of 4 for the two at once. -/
example : 0 ≤ (⟨1, 2, 10, 1⟩ : MeshParams).proximityLimit ∧ SameFixed [0, 8] [8, 0, 8] ∧
    (∀ c, wish [(.thirds, .min, 4, true), (.thirds, .max, 4, true), (.oneline, .none, 2, true), (.halfs, .none, 6, false)] c =
      wish [(.oneline, .none, 2, true), (.halfs, .none, 4, true), (.oneline, .none, 2, true), (.thirds, .max, 2, true)] c) ∧
    wish [(.thirds, .min, 4, true), (.thirds, .max, 4, true), (.oneline, .none, 2, true), (.halfs, .none, 6, false)] 4 =
      some (.halfs, .none) := by
  refine ⟨by norm_num, Or.inr ⟨?_, by simp⟩, fun c => ?_, by decide +kernel⟩
  · unfold Apart tolerance
    decide +kernel
  · by_cases h2 : c = 2
    · subst h2; decide +kernel
    by_cases h4 : c = 4
    · subst h4; decide +kernel
    simp [wish, asksFor, h2, h4]

/-- C148 for a board: the order and the number of the lines to keep change nothing in the run. -/
theorem C148_run (S : Sorters) (hS : Compares S.intervals) (g : MeshParams) (hl : 0 ≤ g.proximityLimit) (gz : Board.ZoneParams)
    (B : Board.Input) (fixed' : Geom.Axis → List ℚ) (axis : Geom.Axis) (hf : SameFixed (B.fixed axis) (fixed' axis)) :
    (Board.runSteps S g gz B axis).map (fun r => (r.1, r.2.meshlines)) =
      (Board.runSteps S g gz { B with fixed := fixed' } axis).map fun r => (r.1, r.2.meshlines) := by
  have hd : Board.diagonalSteps S.pointers gz { B with fixed := fixed' } = Board.diagonalSteps S.pointers gz B := rfl
  have hc : ∀ planes, Board.detectAllInPolygons S.points { B with fixed := fixed' } planes = Board.detectAllInPolygons S.points B planes := by
    intro planes
    induction planes with
    | nil => rfl
    | cons p rest ih => simp only [Board.detectAllInPolygons, ih]
  unfold Board.runSteps
  rw [hd, hc]
  simp only [Moved.omap_bind]
  refine Moved.obind_congr _ fun d _ => Moved.obind_congr _ fun conflicts _ => Moved.obind_congr _ fun E _ => ?_
  show Outcome.bind (Outcome.orUb (Board.boardPolicies B E d.1 d.2.2 (Board.detectAllColinear B) axis)) _ =
    Outcome.bind (Outcome.orUb (Board.boardPolicies B E d.1 d.2.2 (Board.detectAllColinear B) axis)) _
  refine Moved.obind_congr _ fun asked ha => ?_
  have hacc : ∀ p ∈ asked, accepted p.1 p.2.1 = true := by
    unfold Board.boardPolicies at ha
    cases hs : ((Board.detectAllColinear B axis).mapM fun c => Board.solveColinear (c.map E)) with
    | none => rw [hs] at ha; cases ha
    | some solved =>
      rw [hs] at ha
      injection ha with ha
      rw [← ha]
      intro p hp
      exact (List.mem_filter.1 hp).2
  have := C148 S hS g hl (Board.angleAt d.1) (d.2.1 axis) (B.fixed axis) (fixed' axis) asked asked hf hacc hacc fun _ => rfl
  have e : ∀ o : Outcome Axis, (o.map fun a => (E, a)).map (fun r => (r.1, r.2.meshlines)) = (o.map fun a => a.meshlines).map fun l => (E, l) := by
    intro o; cases o <;> rfl
  rw [e, e, this]

/-- Lines to keep that are nearly the same are another matter: the first one stands for the others, so the order counts. -/
theorem C148_near (g : MeshParams) : (axisPolicies g [0, 9 / 1000000000, 18 / 1000000000] []).policies.map (·.coord) = [0, 18 / 1000000000] ∧
    (axisPolicies g [9 / 1000000000, 0, 18 / 1000000000] []).policies.map (·.coord) = [9 / 1000000000] := by
  have h0 : |(0 : ℚ) - 9 / 1000000000| < tolerance := by norm_num [tolerance, abs_lt]
  have h1 : ¬ |(0 : ℚ) - 18 / 1000000000| < tolerance := by norm_num [tolerance, abs_lt]
  have h2 : |(9 / 1000000000 : ℚ)| < tolerance := by norm_num [tolerance, abs_lt]
  have h3 : |(9 / 1000000000 : ℚ) - 18 / 1000000000| < tolerance := by norm_num [tolerance, abs_lt]
  constructor <;>
    simp [axisPolicies, Axis.addAllFixed, Axis.addFixed, Axis.addPolicy, Board.emptyAxis, Policy.make, h0, h1, h2, h3, -zero_sub]

end Verif.Asked
