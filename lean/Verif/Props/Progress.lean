import Verif.Spec.Progress
import Verif.Lemmas.Manager
import Verif.Lemmas.ManagerMesh
import Verif.Lemmas.Text
import Verif.Props.Manager

/-! # C131, C132, C133: the progress bars -/

namespace Verif.Bar
open Spec
open Verif.Csx (decimal)
open Verif.Mesh (Axis MeshParams Sorter)

/-! ## Climbing -/

theorem climbs_append {a b c : Nat} {l l' : List Nat} (h : Climbs a b l) (h' : Climbs b c l') : Climbs a c (l ++ l') := by
  induction l generalizing a with
  | nil => cases h; exact h'
  | cons p l ih => exact ⟨h.1, ih h.2⟩

theorem climbs_le {a b : Nat} {l : List Nat} (h : Climbs a b l) : a ≤ b ∧ ∀ p ∈ l, p ≤ b := by
  induction l generalizing a with
  | nil => exact ⟨le_of_eq h, by simp⟩
  | cons p l ih =>
    have := ih h.2
    refine ⟨le_trans h.1 this.1, ?_⟩
    intro q hq
    rcases List.mem_cons.mp hq with rfl | hq
    · exact this.1
    · exact this.2 q hq

theorem climbs_last {a b : Nat} {l : List Nat} (h : Climbs a b l) (h0 : l ≠ []) : l.getLast? = some b := by
  induction l generalizing a with
  | nil => exact absurd rfl h0
  | cons p l ih =>
    cases l with
    | nil => have := h.2; simp only [Climbs] at this; simp [this]
    | cons q l => rw [List.getLast?_cons_cons]; exact ih h.2 (by simp)

theorem climbs_sorted {a b : Nat} {l : List Nat} (h : Climbs a b l) : l.Pairwise (· ≤ ·) ∧ ∀ p ∈ l, a ≤ p := by
  induction l generalizing a with
  | nil => simp
  | cons p l ih =>
    have := ih h.2
    refine ⟨List.pairwise_cons.mpr ⟨this.2, this.1⟩, ?_⟩
    intro q hq
    rcases List.mem_cons.mp hq with rfl | hq
    · exact h.1
    · exact le_trans h.1 (this.2 q hq)

theorem climbs_range (n a : Nat) (f : Nat → Nat) (hf : ∀ i j, i ≤ j → f i ≤ f j) (h : n ≠ 0) (ha : a ≤ f 0) :
    Climbs a (f (n - 1)) ((List.range n).map f) := by
  induction n generalizing a f with
  | zero => exact absurd rfl h
  | succ n ih =>
    rw [List.range_succ_eq_map, List.map_cons, List.map_map]
    refine ⟨ha, ?_⟩
    cases n with
    | zero => exact rfl
    | succ n => exact ih (f 0) (f ∘ Nat.succ) (fun i j hij => hf _ _ (by omega)) (by omega) (hf _ _ (by simp))

/-! ## The loops -/

/-- What a loop with two counters does. -/
structure Does (r : List Call × (Nat × Nat)) (s : Nat × Nat) (total steps : Nat) : Prop where
  state : r.2 = (s.1 + total, s.2 + steps)
  terminal : Climbs s.2 (s.2 + steps) (r.1.map Call.terminal)
  finds : Climbs s.1 (s.1 + total) (r.1.filterMap found)

theorem does_nil (s : Nat × Nat) : Does ([], s) s 0 0 := ⟨rfl, rfl, rfl⟩

theorem does_append {r r' : List Call × (Nat × Nat)} {s : Nat × Nat} {f n f' n' : Nat} (h : Does r s f n) (h' : Does r' r.2 f' n') :
    Does (r.1 ++ r'.1, r'.2) s (f + f') (n + n') := by
  obtain ⟨h1, h2, h3⟩ := h
  obtain ⟨g1, g2, g3⟩ := h'
  rw [h1] at g1 g2 g3
  refine ⟨by rw [g1]; simp [Nat.add_assoc], ?_, ?_⟩
  · rw [List.map_append, ← Nat.add_assoc]; exact climbs_append h2 g2
  · rw [List.filterMap_append, ← Nat.add_assoc]; exact climbs_append h3 g3

theorem does_cons {r : List Call × (Nat × Nat)} (a b : Nat) {f n f' n' : Nat} (h : Does r (a + f, b + n) f' n') :
    Does (.two (a + f) (b + n) :: r.1, r.2) (a, b) (f + f') (n + n') :=
  does_append (r := ([.two (a + f) (b + n)], (a + f, b + n)))
    ⟨rfl, ⟨Nat.le_add_right _ _, rfl⟩, ⟨Nat.le_add_right _ _, rfl⟩⟩ h

theorem does_cast {r : List Call × (Nat × Nat)} {s : Nat × Nat} {f n f' n' : Nat} (h : Does r s f n) (hf : f = f') (hn : n = n') :
    Does r s f' n' := hf ▸ hn ▸ h

theorem each_does (l : List Bool) (s : Nat × Nat) : Does (eachFrom l s) s (l.count true) l.length := by
  induction l generalizing s with
  | nil => exact does_nil s
  | cons hit l ih =>
    obtain ⟨f, i⟩ := s
    cases hit
    · have h := does_cons f i (f := 0) (n := 1) (ih (f, i + 1))
      exact does_cast h (by simp) (by simp; omega)
    · have h := does_cons f i (f := 1) (n := 1) (ih (f + 1, i + 1))
      exact does_cast h (by simp; omega) (by simp; omega)

theorem adjustPolygon_each (l : List Bool) (s : Nat × Nat) : adjustPolygon l s = eachFrom l s := by
  induction l generalizing s with
  | nil => rfl
  | cons hit l ih => obtain ⟨f, i⟩ := s; simp only [adjustPolygon, eachFrom, ih]

theorem adjust_does (l : List (List Bool)) (s : Nat × Nat) :
    Does (adjustFrom l s) s ((l.map (·.count true)).sum) ((l.map List.length).sum) := by
  induction l generalizing s with
  | nil => exact does_nil s
  | cons p l ih =>
    have h := each_does p s
    rw [← adjustPolygon_each] at h
    exact does_append h (ih _)

theorem parse_does (l : List (List Bool)) (s : Nat × Nat) : ∃ s', Does (parseFrom l s, s') s ((l.map (·.count true)).sum)
    ((l.map List.length).sum) := by
  induction l generalizing s with
  | nil => exact ⟨s, does_nil s⟩
  | cons p l ih =>
    obtain ⟨s', h'⟩ := ih (eachFrom p s).2
    exact ⟨s', does_append (each_does p s) h'⟩

theorem angles_does (l : List (Nat × Nat)) (s : Nat × Nat) : Does (anglesFrom l s) s ((l.map (·.2)).sum) ((l.map (·.1)).sum) := by
  induction l generalizing s with
  | nil => exact does_nil s
  | cons p l ih => obtain ⟨e, a⟩ := p; obtain ⟨f, k⟩ := s; exact does_cons f k (ih (f + a, k + e))

theorem crossPolygon_does (others : Nat) (l : List Nat) (s : Nat × Nat) :
    Does (crossPolygon others l s) s l.sum (l.length * others) := by
  induction l generalizing s with
  | nil => exact does_cast (does_nil s) (by simp) (by simp)
  | cons c l ih =>
    obtain ⟨f, k⟩ := s
    exact does_cast (does_cons f k (ih (f + c, k + others))) (by simp) (by simp only [List.length_cons]; ring)

/-- The pairs of edges of two polygons. -/
def pairs : List (List Nat) → Nat
  | [] => 0
  | p :: rest => p.length * (rest.map List.length).sum + pairs rest

theorem cross_does (l : List (List Nat)) (s : Nat × Nat) : Does (crossFrom l s) s ((l.map List.sum).sum) (pairs l) := by
  induction l generalizing s with
  | nil => exact does_nil s
  | cons p l ih => exact does_append (crossPolygon_does _ p s) (ih _)

theorem inPolygonsRow_does (l : List Nat) (s : Nat × Nat) : inPolygonsRow l s = (s.1 + l.sum, s.2 + l.length) := by
  induction l generalizing s with
  | nil => rfl
  | cons c l ih =>
    obtain ⟨f, k⟩ := s
    rw [inPolygonsRow, ih]
    simp only [List.sum_cons, List.length_cons, Prod.mk.injEq]
    omega

theorem inPolygons_does (polygons : List Nat) (finds : Nat → Nat → Nat) (l : List Nat) (s : Nat × Nat) :
    ∃ s', Does (inPolygonsFrom polygons finds l s, s') s ((l.map fun a => (polygons.map (finds a)).sum).sum)
      (l.length * polygons.length) := by
  induction l generalizing s with
  | nil => exact ⟨s, does_cast (does_nil s) (by simp) (by simp)⟩
  | cons a l ih =>
    obtain ⟨s', h'⟩ := ih (s.1 + (polygons.map (finds a)).sum, s.2 + polygons.length)
    refine ⟨s', ?_⟩
    rw [inPolygonsFrom, inPolygonsRow_does, List.length_map]
    exact does_cast (does_cons s.1 s.2 h') (by simp) (by simp only [List.length_cons]; ring)

theorem perZoneRow_does (l : List Bool) (s : Nat × Nat) : perZoneRow l s = (s.1 + l.count true, s.2 + l.length) := by
  induction l generalizing s with
  | nil => rfl
  | cons c l ih =>
    obtain ⟨f, k⟩ := s
    rw [perZoneRow, ih]
    cases c <;> simp only [List.count_cons, List.length_cons, Prod.mk.injEq] <;> simp <;> omega

theorem perZone_does (intervals : List Nat) (inside : Nat → Nat → Bool) (l : List Nat) (s : Nat × Nat) :
    ∃ s', Does (perZoneFrom intervals inside l s, s') s ((l.map fun z => intervals.countP (inside z)).sum)
      (l.length * intervals.length) := by
  induction l generalizing s with
  | nil => exact ⟨s, does_cast (does_nil s) (by simp) (by simp)⟩
  | cons a l ih =>
    obtain ⟨s', h'⟩ := ih (s.1 + (intervals.map (inside a)).count true, s.2 + intervals.length)
    refine ⟨s', ?_⟩
    rw [perZoneFrom, perZoneRow_does, List.length_map]
    refine does_cast (does_cons s.1 s.2 h') ?_ (by simp only [List.length_cons]; ring)
    rw [List.map_cons, List.sum_cons, List.count, List.countP_map]
    congr 2
    funext x; simp

/-- The pairs of edges. -/
theorem colinear_climbs (l : List (Option Nat)) (s : Nat × Nat) :
    Climbs s.2 (s.2 + (l.length * l.length - l.length) / 2) ((colinearFrom l s).map Call.terminal) ∧
    Climbs s.1 (s.1 + (l.map (·.getD 0)).sum) ((colinearFrom l s).filterMap found) := by
  induction l generalizing s with
  | nil => exact ⟨rfl, rfl⟩
  | cons e l ih =>
    obtain ⟨f, k⟩ := s
    have e1 : k + l.length + (l.length * l.length - l.length) / 2 = k + ((l.length + 1) * (l.length + 1) - (l.length + 1)) / 2 := by
      have : (l.length + 1) * (l.length + 1) - (l.length + 1) = (l.length * l.length - l.length) + l.length * 2 := by
        have h : l.length ≤ l.length * l.length := by
          rcases Nat.eq_zero_or_pos l.length with h | h
          · simp [h]
          · exact Nat.le_mul_of_pos_left _ h
        have h2 : (l.length + 1) * (l.length + 1) = l.length * l.length + 2 * l.length + 1 := by ring
        omega
      rw [this, Nat.add_mul_div_right _ _ (by omega)]
      omega
    cases e with
    | none =>
      have := ih (f, k + l.length)
      simp only [e1] at this
      exact ⟨⟨by simp [Call.terminal], this.1⟩, ⟨le_refl _, by simpa using this.2⟩⟩
    | some n =>
      have := ih (f + n, k + l.length)
      simp only [e1] at this
      refine ⟨⟨by simp [Call.terminal], this.1⟩, ⟨by simp, ?_⟩⟩
      simpa [Nat.add_assoc] using this.2

theorem zoneRanges_climbs (found n k : Nat) :
    Climbs k (k + n) (((zoneRanges found n k).1 ++ [Call.two found (zoneRanges found n k).2]).map Call.terminal) ∧
    (zoneRanges found n k).2 = k + n := by
  induction n generalizing k with
  | zero => exact ⟨⟨le_refl _, rfl⟩, rfl⟩
  | succ n ih =>
    have := ih (k + 1)
    rw [show k + 1 + n = k + (n + 1) by omega] at this
    refine ⟨⟨le_refl _, ?_⟩, this.2⟩
    have h := this.1
    revert h
    simp only [zoneRanges]
    generalize hl : ((zoneRanges found n (k + 1)).1 ++ [Call.two found (zoneRanges found n (k + 1)).2]).map Call.terminal = l
    cases l with
    | nil => exact fun h => by simp at hl
    | cons p l => exact fun h => ⟨Nat.le_of_succ_le h.1, h.2⟩

theorem tooClose_climbs (S : Sorter Nat) (g : MeshParams) (possible : Nat) (n : Nat) :
    ∀ (a : Axis) (f i : Nat), a.enabledPointers.length ≤ n → a.Unmerged → i + a.enabledPointers.length ≤ possible →
      ∃ calls, tooCloseFrom S g possible f i a = some calls ∧ Climbs i possible (calls.map Call.terminal) ∧
        Climbs f (f + (calls.length - 1)) (calls.filterMap found) ∧ calls ≠ [] := by
  have hend : ∀ (a : Axis) (f i : Nat), a.detectClosest S g.proximityLimit = none → i ≤ possible →
      ∃ calls, tooCloseFrom S g possible f i a = some calls ∧ Climbs i possible (calls.map Call.terminal) ∧
        Climbs f (f + (calls.length - 1)) (calls.filterMap found) ∧ calls ≠ [] := by
    intro a f i hd hi
    refine ⟨[.two f possible], ?_, ⟨hi, rfl⟩, ⟨le_refl _, rfl⟩, by simp⟩
    rw [tooCloseFrom, hd]
  induction n with
  | zero =>
    intro a f i hn hinv hi
    cases hd : a.detectClosest S g.proximityLimit with
    | none => exact hend a f i hd (by omega)
    | some p =>
      obtain ⟨p, q⟩ := p
      have := Mesh.mem_enabledPointers.mpr (Mesh.detectClosest_some hd).1
      have := List.length_pos_of_mem this
      omega
  | succ n ih =>
    intro a f i hn hinv hi
    cases hd : a.detectClosest S g.proximityLimit with
    | none => exact hend a f i hd (by omega)
    | some p =>
      obtain ⟨p, q⟩ := p
      obtain ⟨hp, hq, hne, _⟩ := Mesh.detectClosest_some hd
      obtain ⟨b, hb⟩ := Mesh.addTooClose_ne_none hinv hp hq
      have hc := Mesh.count_step (g := g) hp hq hne hb
      obtain ⟨calls, h1, h2, h3, h4⟩ := ih (b.solveConflict g p q) (f + 1) (i + 1) (by omega) (Mesh.unmerged_step hinv hp hq hb)
        (by omega)
      refine ⟨.two (f + 1) (i + 1) :: calls, ?_, ⟨Nat.le_succ i, h2⟩, ⟨Nat.le_succ f, ?_⟩, by simp⟩
      · rw [tooCloseFrom, hd]
        simp only [hb, h1]
        rfl
      · have : calls.length ≠ 0 := by simpa using h4
        rw [List.length_cons, show f + (calls.length + 1 - 1) = f + 1 + (calls.length - 1) by omega]
        exact h3

/-! ## C131: the progress of the terminal -/

theorem ends_of_does {l : List Call} {s' : Nat × Nat} {t n : Nat} (h : Does (l, s') (0, 0) t n) :
    Ends (n, l) ∧ Finds t (n, l) := by
  have h1 := h.terminal
  have h2 := h.finds
  simp only [Nat.zero_add] at h1 h2
  exact ⟨h1, h2⟩

/-- On the terminal the progress never goes down and ends at its maximum, and the number found is in the end what was found, while:
the edges are adjusted; edges in polygons, colinear edges and individual edges are detected; primitives are parsed; policies too
close are merged; intervals are looked for in diagonal zones; conflicts are solved; and, there being two angles or more, or none,
diagonal zones are detected; there being two policies or more, or none, intervals are detected; there being an interval or a policy,
they are meshed. Missing: the fixed policies and the diagonal angles, see `C131_false` and `C131_angles`. -/
theorem C131_partial :
    (∀ polygons, Ends (adjustCalls polygons) ∧ Finds (polygons.map (·.count true)).sum (adjustCalls polygons)) ∧
    (∀ polygons finds, Ends (inPolygonsCalls polygons finds) ∧
      Finds (polygons.map fun a => (polygons.map (finds a)).sum).sum (inPolygonsCalls polygons finds)) ∧
    (∀ edges, Ends (colinearCalls edges) ∧ Finds (edges.map (·.getD 0)).sum (colinearCalls edges)) ∧
    (∀ edges angles, Ends (individualCalls edges angles) ∧
      Finds (edges.count true + angles.count true) (individualCalls edges angles)) ∧
    (∀ properties, Ends (parseCalls properties) ∧ Finds (properties.map (·.count true)).sum (parseCalls properties)) ∧
    (∀ (S : Sorter Nat) (g : MeshParams) (a : Axis), a.Unmerged → ∃ calls, (tooCloseCalls S g a).2 = some calls ∧
      Ends (a.policies.length, calls) ∧ Finds (calls.length - 1) (a.policies.length, calls)) ∧
    (∀ zones intervals inside, Ends (perZoneCalls zones intervals inside) ∧
      Finds (zones.map fun z => intervals.countP (inside z)).sum (perZoneCalls zones intervals inside)) ∧
    (∀ n, Ends (solveCalls n)) ∧
    (∀ angles first second, angles ≠ 1 → Ends (zonesCalls angles first second)) ∧
    (∀ n, n ≠ 1 → Ends (intervalsCalls n)) ∧
    (∀ intervals policies, intervals + policies ≠ 0 → Ends (meshCalls intervals policies)) := by
  refine ⟨fun l => ends_of_does (adjust_does l (0, 0)), fun l f => ?_, fun l => ?_, fun e a => ?_, fun l => ?_, fun S g a ha => ?_,
    fun z i f => ?_, fun n => ?_, fun n f s hn => ?_, fun n hn => ?_, fun i p h => ?_⟩
  · obtain ⟨s', h⟩ := inPolygons_does l f l (0, 0)
    exact ends_of_does h
  · have := colinear_climbs l (0, 0)
    simp only [Nat.zero_add] at this
    exact this
  · exact ends_of_does (does_append (each_does e (0, 0)) (each_does a _))
  · obtain ⟨s', h⟩ := parse_does l (0, 0)
    exact ends_of_does h
  · have hlen : a.enabledPointers.length ≤ a.policies.length := by
      have := (List.filter_sublist (l := a.pointers) (p := fun i => (a.get i).enabled)).length_le
      simpa [Axis.enabledPointers, Axis.pointers] using this
    obtain ⟨calls, h1, h2, h3, -⟩ := tooClose_climbs S g a.policies.length _ a 0 0 le_rfl ha (by omega)
    rw [Nat.zero_add] at h3
    exact ⟨calls, h1, h2, h3⟩
  · obtain ⟨s', h⟩ := perZone_does i f z (0, 0)
    exact ends_of_does h
  · rcases Nat.eq_zero_or_pos n with rfl | h
    · exact rfl
    · have := climbs_range n 0 (· + 1) (fun i j h => by simpa using h) (by omega) (by omega)
      rw [Nat.sub_add_cancel h] at this
      simpa [Ends, solveCalls, Function.comp_def, Call.terminal] using this
  · have h1 := zoneRanges_climbs 0 (n - 1) 0
    have h2 := zoneRanges_climbs f (n - 1) (0 + (n - 1))
    have hmax : (zonesCalls n f s).1 = 0 + (n - 1) + (n - 1) := by
      simp only [zonesCalls]
      split <;> omega
    unfold Ends
    rw [hmax]
    have e1 : (zonesCalls n f s).2.map Call.terminal =
        ((zoneRanges 0 (n - 1) 0).1 ++ [Call.two 0 (zoneRanges 0 (n - 1) 0).2]).map Call.terminal ++
        ((zoneRanges f (n - 1) (0 + (n - 1))).1 ++ [Call.two f (zoneRanges f (n - 1) (0 + (n - 1))).2]).map Call.terminal := by
      simp only [zonesCalls, List.map_append, List.map_cons, List.map_nil, Call.terminal, h1.2, List.append_assoc]
    rw [e1]
    exact climbs_append h1.1 h2.1
  · rcases Nat.eq_zero_or_pos n with rfl | h
    · exact rfl
    · have := climbs_range (n - 1) 0 (· + 2) (fun i j h => by simpa using h) (by omega) (by omega)
      rw [show n - 1 - 1 + 2 = n by omega] at this
      rw [Ends, intervalsCalls, List.range'_eq_map_range, List.map_map, List.map_map]
      convert this using 2
      funext x
      simp only [Function.comp_def, Call.terminal]
      omega
  · have e1 : (meshCalls i p).2.map Call.terminal = (List.range (i + p)).map (· + 2) := by
      simp only [meshCalls, List.map_append, List.map_map, List.range_add]
      rfl
    have := climbs_range (i + p) 0 (· + 2) (fun i j h => by simpa using h) h (by omega)
    rw [show i + p - 1 + 2 = i + p + 1 by omega] at this
    rw [Ends, e1]
    exact this

/-- Polygons of two edges and of one: a reversed edge of each. -/
example : adjustCalls [[false, true], [true]] = (3, [.two 0 1, .two 1 2, .two 2 3]) := by decide
example : inPolygonsCalls [0, 1] (fun a b => if a = b then 0 else 3) = (4, [.two 3 2, .two 6 4]) := by decide
example : colinearCalls [some 1, none, some 0] = (3, [.two 1 2, .two 1 3, .two 1 3]) := by decide
example : individualCalls [true, false] [true] = (3, [.two 1 1, .two 1 2, .two 2 3]) := by decide
example : parseCalls [[true, false], [true]] = (3, [.two 1 1, .two 1 2, .two 2 3]) := by decide
example : perZoneCalls [0, 1] [0, 1, 2] (fun z i => z < i) = (6, [.two 2 3, .two 3 6]) := by decide
example : solveCalls 2 = (2, [.one 0, .one 1]) := by decide
example : zonesCalls 3 1 1 = (4, [.two 0 0, .two 0 1, .two 1 2, .two 1 2, .two 1 3, .two 2 4]) := by decide
example : intervalsCalls 3 = (3, [.one 1, .one 2]) := by decide
example : meshCalls 1 2 = (4, [.one 1, .one 2, .one 3]) := by decide
/-- Two policies too close of four: the hypothesis of the sixth part. -/
example := C131_partial.2.2.2.2.2.1 (Sorter.insertion Nat) Mesh.sampleParams Mesh.sampleAxis Mesh.sampleAxis_unmerged

theorem square_pairs (l : List (Nat × List Nat)) (h : ∀ p ∈ l, 3 ≤ p.2.length) :
    ∃ extra, (l.map fun p => p.2.length).sum * (l.map fun p => p.2.length).sum =
      3 * (l.map fun p => p.2.length).sum + 2 * pairs (l.map (·.2)) + 2 * extra ∧ (extra = 0 ↔ ∀ p ∈ l, p.2.length = 3) := by
  induction l with
  | nil => exact ⟨0, by simp [pairs], by simp⟩
  | cons p l ih =>
    obtain ⟨extra, h1, h2⟩ := ih fun q hq => h q (List.mem_cons_of_mem _ hq)
    have hp := h p List.mem_cons_self
    obtain ⟨m, hm⟩ := Nat.exists_eq_add_of_le hp
    obtain ⟨k, hk⟩ : ∃ k, m * (m + 3) = 2 * k := by
      rcases Nat.even_or_odd' m with ⟨c, rfl | rfl⟩
      · exact ⟨c * (2 * c + 3), by ring⟩
      · exact ⟨(2 * c + 1) * (c + 2), by ring⟩
    refine ⟨k + extra, ?_, ?_⟩
    · simp only [List.map_cons, List.sum_cons, pairs, List.map_map, Function.comp_def]
      generalize (l.map fun p => p.2.length).sum = e at *
      rw [hm]
      nlinarith
    · rw [List.forall_mem_cons, ← h2, hm]
      have : k = 0 ↔ m = 0 := by
        constructor
        · rintro rfl
          simpa using hk
        · rintro rfl
          omega
      omega

/-- The progress of the detection of diagonal angles: the number of edges and of pairs of edges of two polygons in the end. With
polygons of three edges or more that is at most the maximum, and is the maximum exactly when all are triangles. -/
theorem C131_angles (polygons : List (Nat × List Nat)) (h : ∀ p ∈ polygons, 3 ≤ p.2.length) :
    ∃ last, Climbs 0 last ((anglesCalls polygons).2.map Call.terminal) ∧ last ≤ (anglesCalls polygons).1 ∧
      (last = (anglesCalls polygons).1 ↔ ∀ p ∈ polygons, p.2.length = 3) ∧
      Finds ((polygons.map (·.1)).sum + (polygons.map (·.2.sum)).sum) (anglesCalls polygons) := by
  have hd := does_append (angles_does (polygons.map fun p => (p.2.length, p.1)) (0, 0))
    (cross_does (polygons.map (·.2)) _)
  have hends := ends_of_does hd
  obtain ⟨extra, h1, h2⟩ := square_pairs polygons h
  have hmax : (anglesCalls polygons).1 = (polygons.map fun p => p.2.length).sum + pairs (polygons.map (·.2)) + extra := by
    simp only [anglesCalls]
    generalize (polygons.map fun p => p.2.length).sum = e at *
    rw [h1]
    omega
  refine ⟨(polygons.map fun p => p.2.length).sum + pairs (polygons.map (·.2)), ?_, by omega, ?_, ?_⟩
  · have := hends.1
    simp only [List.map_map, Function.comp_def] at this
    exact this
  · rw [hmax, ← h2]
    omega
  · have := hends.2
    simp only [List.map_map, Function.comp_def] at this
    exact this

/-- Two triangles: nine edges of the other for each of the first polygon's, and six own edges, of fifteen pairs of edges. -/
example : anglesCalls [(1, [0, 2, 0]), (0, [0, 0, 1])] =
    (15, [.two 1 3, .two 1 6, .two 1 9, .two 3 12, .two 3 15, .two 3 15, .two 3 15, .two 4 15]) := by decide

/-- Beyond the maximum: with fixed policies, the last one is told as the one after the last. Short of it: the angles of a square end
at 4 of 6; one angle alone at 0 of 2. Nothing is told with one policy, or with nothing to mesh, of a maximum of 1. -/
theorem C131_false : (∀ n, n ≠ 0 → Climbs 0 (n + 1) ((fixedCalls n).2.map Call.terminal) ∧ ¬ Ends (fixedCalls n)) ∧
    ¬ Ends (anglesCalls [(4, [0, 0, 0, 0])]) ∧ Climbs 0 4 ((anglesCalls [(4, [0, 0, 0, 0])]).2.map Call.terminal) ∧
    ¬ Ends (zonesCalls 1 0 0) ∧ ¬ Ends (intervalsCalls 1) ∧ ¬ Ends (meshCalls 0 0) := by
  refine ⟨fun n hn => ?_, by decide, by decide, by decide, by decide, by decide⟩
  have h : Climbs 0 (n + 1) ((fixedCalls n).2.map Call.terminal) := by
    have := climbs_range n 0 (· + 2) (fun i j h => by simpa using h) hn (by omega)
    rw [show n - 1 + 2 = n + 1 by omega] at this
    simpa [fixedCalls, Function.comp_def, Call.terminal] using this
  refine ⟨h, fun h' => ?_⟩
  have h0 : (fixedCalls n).2.map Call.terminal ≠ [] := by simpa [fixedCalls] using hn
  have := (climbs_last h h0).symm.trans (climbs_last h' h0)
  simp [fixedCalls] at this

/-! ## C132: the progress of the window -/

theorem setValue_in {max value shown : Nat} (h : value ≤ max) : setValue max value shown = value := by
  unfold setValue
  split <;> omega

theorem setValue_out {max value shown : Nat} (h : max < value) (h0 : max ≠ 0) : setValue max value shown = shown := by
  unfold setValue
  split <;> omega

theorem windowShows_append (max : Nat) (l : List Call) (c : Call) :
    windowShows max (l ++ [c]) = setValue max c.window (windowShows max l) := by
  simp [windowShows, List.foldl_append]

/-- With a progress told by one number below the maximum, the window shows at each time what the terminal shows. -/
theorem C132_partial (max : Nat) (calls : List Call) (h : ∀ c ∈ calls, ∃ i, c = .one i ∧ i < max) (k : Nat) (hk : k < calls.length) :
    (calls[k]?).map Call.terminal = some (windowShows max (calls.take (k + 1))) := by
  rw [List.take_succ_eq_append_getElem hk, windowShows_append, List.getElem?_eq_getElem hk]
  obtain ⟨i, hi, hlt⟩ := h _ (List.getElem_mem hk)
  rw [hi]
  simp only [Option.map_some, Call.terminal, Call.window]
  rw [setValue_in (by omega)]

/-- So when conflicts are solved, when intervals are detected, and when the mesh is made. -/
theorem C132_loops_partial : (∀ n, ∀ c ∈ (solveCalls n).2, ∃ i, c = .one i ∧ i < (solveCalls n).1) ∧
    (∀ n, ∀ c ∈ (intervalsCalls n).2, ∃ i, c = .one i ∧ i < (intervalsCalls n).1) ∧
    (∀ i p, ∀ c ∈ (meshCalls i p).2, ∃ j, c = .one j ∧ j < (meshCalls i p).1) := by
  refine ⟨fun n c hc => ?_, fun n c hc => ?_, fun i p c hc => ?_⟩
  · simp only [solveCalls, List.mem_map, List.mem_range] at hc ⊢
    obtain ⟨a, ha, rfl⟩ := hc
    exact ⟨a, rfl, ha⟩
  · simp only [intervalsCalls, List.mem_map, List.mem_range'_1] at hc ⊢
    obtain ⟨a, ha, rfl⟩ := hc
    exact ⟨a, rfl, by omega⟩
  · simp only [meshCalls, List.mem_append, List.mem_map, List.mem_range] at hc ⊢
    rcases hc with ⟨a, ha, rfl⟩ | ⟨a, ha, rfl⟩
    · exact ⟨a + 1, rfl, by omega⟩
    · exact ⟨i + a + 1, rfl, by omega⟩

example : ∃ c ∈ (meshCalls 1 2).2, ∃ j, c = .one j ∧ j < (meshCalls 1 2).1 := ⟨.one 1, by decide, 1, rfl, by decide⟩
example : (List.range 3).map (fun k => windowShows 4 ((meshCalls 1 2).2.take (k + 1))) = [2, 3, 4] := by decide

theorem each_window (l : List Bool) (s : Nat × Nat) :
    (eachFrom l s).1.map Call.window = List.range' (s.2 + 2) l.length ∧ (eachFrom l s).2.2 = s.2 + l.length := by
  induction l generalizing s with
  | nil => exact ⟨rfl, rfl⟩
  | cons b l ih =>
    obtain ⟨f, i⟩ := s
    have := ih (if b then f + 1 else f, i + 1)
    constructor
    · rw [List.length_cons, List.range'_succ]
      simp only [eachFrom, List.map_cons, Call.window, this.1]
    · simp only [eachFrom, this.2, List.length_cons]
      omega

theorem adjust_window (l : List (List Bool)) (s : Nat × Nat) :
    (adjustFrom l s).1.map Call.window = List.range' (s.2 + 2) (l.map List.length).sum := by
  induction l generalizing s with
  | nil => rfl
  | cons p l ih =>
    have := each_window p s
    simp only [adjustFrom, adjustPolygon_each, List.map_append, this.1, ih, this.2, List.map_cons, List.sum_cons]
    rw [← List.range'_append_1]
    congr 2
    omega

theorem parse_window (l : List (List Bool)) (s : Nat × Nat) :
    (parseFrom l s).map Call.window = List.range' (s.2 + 2) (l.map List.length).sum := by
  induction l generalizing s with
  | nil => rfl
  | cons p l ih =>
    have := each_window p s
    simp only [parseFrom, List.map_append, this.1, ih, this.2, List.map_cons, List.sum_cons]
    rw [← List.range'_append_1]
    congr 2
    omega

theorem shows_ahead {n : Nat} {calls : List Call} (h : calls.map Call.window = List.range' 2 n) (h2 : 2 ≤ n) :
    ∀ k, 1 ≤ k → k ≤ n → windowShows n (calls.take k) = min (k + 1) n := by
  intro k
  induction k with
  | zero => intro h; omega
  | succ k ih =>
    intro _ hk
    have hlen : calls.length = n := by simpa using congrArg List.length h
    have hw : calls[k].window = k + 2 := by
      have : (calls.map Call.window)[k]? = (List.range' 2 n)[k]? := by rw [h]
      rw [List.getElem?_map, List.getElem?_eq_getElem (by omega), List.getElem?_range' (by omega)] at this
      simp only [Option.map_some, Option.some.injEq] at this
      omega
    rw [List.take_succ_eq_append_getElem (by omega), windowShows_append, hw]
    unfold setValue
    rcases Nat.eq_zero_or_pos k with rfl | h0
    · rw [if_neg (by omega)]; omega
    · rw [ih h0 (by omega)]
      split <;> omega

/-- What the window shows of a progress told by two numbers, with two edges or primitives or more: one more than the terminal, up to the
maximum, which it shows while one is left. -/
theorem C132_ahead : (∀ polygons, 2 ≤ (adjustCalls polygons).1 → ∀ k, 1 ≤ k → k ≤ (adjustCalls polygons).1 →
      windowShows (adjustCalls polygons).1 ((adjustCalls polygons).2.take k) = min (k + 1) (adjustCalls polygons).1) ∧
    (∀ edges angles, 2 ≤ (individualCalls edges angles).1 → ∀ k, 1 ≤ k → k ≤ (individualCalls edges angles).1 →
      windowShows (individualCalls edges angles).1 ((individualCalls edges angles).2.take k) =
        min (k + 1) (individualCalls edges angles).1) ∧
    (∀ properties, 2 ≤ (parseCalls properties).1 → ∀ k, 1 ≤ k → k ≤ (parseCalls properties).1 →
      windowShows (parseCalls properties).1 ((parseCalls properties).2.take k) = min (k + 1) (parseCalls properties).1) := by
  refine ⟨fun l => shows_ahead (adjust_window l (0, 0)), fun e a => shows_ahead ?_, fun l => shows_ahead (parse_window l (0, 0))⟩
  have h1 := each_window e (0, 0)
  have h2 := each_window a (eachFrom e (0, 0)).2
  simp only [individualCalls, List.map_append, h1.1, h2.1, h1.2]
  rw [← List.range'_append_1]
  congr 2
  omega

example : (List.range 4).map (fun k => windowShows 3 ((adjustCalls [[false, true], [true]]).2.take k)) = [0, 2, 3, 3] := by decide

theorem inPolygons_shows (polygons : List Nat) (finds : Nat → Nat → Nat) (total : Nat) :
    ∀ (l : List Nat) (s : Nat × Nat) (shown : Nat), s.2 + l.length * polygons.length = total → polygons ≠ [] → 2 ≤ l.length →
      (inPolygonsFrom polygons finds l s).foldl (fun shown c => setValue total c.window shown) shown =
        total - polygons.length + 1 := by
  intro l
  induction l with
  | nil => intro s shown _ _ h; simp at h
  | cons a l ih =>
    intro s shown hs hp hl
    have hpos : 0 < polygons.length := List.length_pos_iff.mpr hp
    simp only [inPolygonsFrom, inPolygonsRow_does, List.foldl_cons, List.length_map]
    rcases Nat.lt_or_ge l.length 2 with h | h
    · obtain ⟨b, rfl⟩ : ∃ b, l = [b] := List.length_eq_one_iff.mp (by simp only [List.length_cons] at hl; omega)
      simp only [List.length_cons, List.length_nil] at hs
      simp only [inPolygonsFrom, inPolygonsRow_does, List.foldl_cons, List.foldl_nil, List.length_map, Call.window]
      rw [setValue_out (by omega) (by omega), setValue_in (by omega)]
      omega
    · refine ih _ _ ?_ hp h
      simp only [List.length_cons] at hs
      rw [← hs]
      ring

/-- The window ends a row before the end when edges are looked for in two polygons or more; it shows nothing of a single primitive; and it
shows all the edges as adjusted when one of two is. -/
theorem C132_false : (∀ polygons finds, 2 ≤ polygons.length →
      windowShows (inPolygonsCalls polygons finds).1 (inPolygonsCalls polygons finds).2 =
        polygons.length * polygons.length - polygons.length + 1 ∧
      windowShows (inPolygonsCalls polygons finds).1 (inPolygonsCalls polygons finds).2 < (inPolygonsCalls polygons finds).1) ∧
    (windowShows 1 (parseCalls [[true]]).2 = 0 ∧ Ends (parseCalls [[true]])) ∧
    (windowShows 2 ((adjustCalls [[false, false]]).2.take 1) = 2 ∧
      ((adjustCalls [[false, false]]).2.take 1).map Call.terminal = [1]) := by
  refine ⟨fun l f h => ?_, by decide, by decide⟩
  have := inPolygons_shows l f (l.length * l.length) l (0, 0) 0 (by simp) (by rintro rfl; simp at h) h
  refine ⟨this, ?_⟩
  have h2 : windowShows (inPolygonsCalls l f).1 (inPolygonsCalls l f).2 = l.length * l.length - l.length + 1 := this
  rw [h2]
  have : 2 * l.length ≤ l.length * l.length := Nat.mul_le_mul_right _ h
  simp only [inPolygonsCalls]
  omega

/-! ## C133: the width of the bar -/

theorem decimal_length (k : Nat) : ∀ n, n < 10 ^ (k + 1) → (decimal n).length ≤ k + 1 := by
  induction k with
  | zero => intro n h; rw [decimal, dif_pos (by simpa using h)]; simp
  | succ k ih =>
    intro n h
    rw [decimal]
    split_ifs with h'
    · simp
    · have := ih (n / 10) (by rw [Nat.div_lt_iff_lt_mul (by omega)]; rw [pow_succ] at h; exact h)
      simp only [List.length_append, List.length_singleton]
      omega

theorem prefixText_length (step : Option Verif.Step) (message : String) :
    (prefixText step message).length ≤ 6 + message.toList.length := by
  have h1 : (decimal (Step.index step)).length ≤ 2 := decimal_length 1 _ (by rcases step with _ | s; decide; cases s <;> decide)
  have h2 : (decimal Step.indexMax).length ≤ 2 := decimal_length 1 _ (by decide)
  have h3 : "/".toList.length = 1 := by decide
  have h4 : " ".toList.length = 1 := by decide
  simp only [prefixText, List.length_append, h3, h4]
  omega

/-- With numbers of ten digits or fewer, the bar of each message, at each step, and the texts and signs around it are a hundred
columns. -/
theorem C133_partial (message : String × Bool) (hm : message ∈ messages) (step : Option Verif.Step) (max : Nat) (hmax : max < 10 ^ 10)
    (call : Call) (hcall : if message.2 then ∃ i j, call = .two i j ∧ i < 10 ^ 10 ∧ j < 10 ^ 10
      else ∃ i, call = .one i ∧ i + 1 < 10 ^ 10) :
    (prefixText step message.1).length + 19 + barWidth (prefixText step message.1).length (call.postfix max).length +
      (call.postfix max).length = 100 := by
  have hp := prefixText_length step message.1
  have h3 : "/".toList.length = 1 := by decide
  have hd := fun n (h : n < 10 ^ 10) => decimal_length 9 n h
  have hmsg : ∀ m ∈ messages, m.1.toList.length ≤ if m.2 then 43 else 54 := by decide +kernel
  have hl := hmsg message hm
  have hsum : (prefixText step message.1).length + (call.postfix max).length ≤ 81 := by
    by_cases h : message.2 = true
    · rw [if_pos h] at hl hcall
      obtain ⟨i, j, rfl, hi, hj⟩ := hcall
      have := hd _ hi
      have := hd _ hj
      have := hd _ hmax
      simp only [Call.postfix, List.length_append, h3]
      omega
    · rw [if_neg h] at hl hcall
      obtain ⟨i, rfl, hi⟩ := hcall
      have := hd _ hi
      have := hd _ hmax
      simp only [Call.postfix, List.length_append, h3]
      omega
  unfold barWidth
  omega

example : (prefixText (some .mesh) "[X] Meshing Intervals + Meshline Policies ").length = 48 ∧
    ((Call.one 9).postfix 120).length = 6 ∧ barWidth 48 6 = 27 := by
  refine ⟨by decide +kernel, by decide +kernel, by decide⟩

/-- With eleven digits the width goes below 0, and so is beyond all screens. -/
theorem C133_false : ("[X] Solving INTERVAL part of DIAGONAL_ZONE conflicts ", false) ∈ messages ∧
    2 ^ 63 < barWidth (prefixText (some .mesh) "[X] Solving INTERVAL part of DIAGONAL_ZONE conflicts ").length
      ((Call.one 10000000000).postfix 10000000001).length := by
  refine ⟨by decide +kernel, ?_⟩
  have h1 : (prefixText (some .mesh) "[X] Solving INTERVAL part of DIAGONAL_ZONE conflicts ").length = 59 := by decide +kernel
  have h2 : ((Call.one 10000000000).postfix 10000000001).length = 23 := by decide +kernel
  rw [h1, h2]
  decide

end Verif.Bar
