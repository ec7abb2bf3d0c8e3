import Verif.Lemmas.FuelRun
import Verif.Props.Thirds

/-!
# C101: the face between two boxes
-/

namespace Verif.Board
open Verif.Mesh Verif.Geom Verif.Csx
open Verif.Csx.Spec (Solid coordOf solids PointAt BoxFile Hidden)
open Verif.Mesh.Spec (Increasing GapsAtMost)
open Spec

/-- C101: a face of a box has a policy near if at least one of its points, on an axis along the face, is in no box of at
least the same priority. What is missing: a face wholly along boxes of the same priority, whatever their materials. -/
theorem C101_partial (S : Sorters) (sort : List (MaterialKind × Nat) → List (MaterialKind × Nat)) (g : MeshParams)
    (hg : g.InRange) (hl : 0 ≤ g.proximityLimit) (gz : ZoneParams) (angle : Ang → ℚ) (background : Option MaterialKind)
    {f : Flags} (hf : f.yz = true ∧ f.zx = true ∧ f.xy = true) (dirs : List Point) {props : List Property} (hb : BoxFile props)
    (axis : Geom.Axis) : ∃ added D E a, parseProperties f dirs props = some added ∧
      buildDesign angle background added = some D ∧ runDesign S sort g gz D axis = .ok (E, a) ∧
      ∀ (i : Nat) (s : Solid), (solids props)[i]? = some s → ∀ c ∈ [coordOf axis s.p1, coordOf axis s.p2],
        (∃ u, u ≠ axis ∧ ∃ t, s.Has u t ∧ ∀ (j : Nat) (o : Solid), j ≠ i → (solids props)[j]? = some o → s.priority ≤ o.priority →
          o.Has axis c → ¬ o.Has u t) →
        Reached g a c := by
  obtain ⟨added, D, E, a, h1, h2, h3, -, -, -, -, h4, -⟩ := C84_boxes S sort g hg hl gz angle background (old := [])
    (by simp) hf dirs hb axis
  refine ⟨added, D, E, a, h1, h2, h3, fun i s hi c hc ⟨u, hu, t, ht, hno⟩ => ?_⟩
  obtain ⟨v, hv, huv⟩ : ∃ v, v ≠ axis ∧ u ≠ v := by
    cases axis <;> cases u <;> first | exact absurd rfl hu | exact ⟨.x, by decide, by decide⟩ | exact ⟨.y, by decide, by decide⟩ |
      exact ⟨.z, by decide, by decide⟩
  rcases h4 i s hi c hc u v hu hv huv with h | h
  · exact h
  · obtain ⟨j, o, hj, ho, hp, -, hc', ht'⟩ := h t ht
    exact absurd ht' (hno j o hj ho hp hc')

/-- A block of metal on a substrate, both of the priority given. -/
def stackFile (substrate metal : Nat) : List Property :=
  [⟨.material 4 1 0, [⟨false, substrate, .box ⟨0, 0, 0⟩ ⟨10, 10, 4⟩⟩]⟩,
    ⟨.metal, [⟨false, metal, .box ⟨0, 0, 4⟩ ⟨10, 10, 10⟩⟩]⟩]

theorem stack_file (n m : Nat) : BoxFile (stackFile n m) := by
  have hs : solids (stackFile n m) = [⟨n, ⟨0, 0, 0⟩, ⟨10, 10, 4⟩⟩, ⟨m, ⟨0, 0, 4⟩, ⟨10, 10, 10⟩⟩] := rfl
  refine ⟨?_, ?_, ?_⟩
  · intro P hP q hq
    fin_cases hP <;> fin_cases hq <;> simp
  · intro s hs' t ht axis
    rw [hs] at hs' ht
    simp only [List.mem_cons, List.not_mem_nil, or_false] at hs' ht
    rcases hs' with rfl | rfl <;> rcases ht with rfl | rfl <;> cases axis <;> simp only [coordOf] <;> decide +kernel
  · intro s hs' axis
    rw [hs] at hs'
    simp only [List.mem_cons, List.not_mem_nil, or_false] at hs'
    rcases hs' with rfl | rfl <;> cases axis <;> simp only [coordOf] <;> decide +kernel

/-- Of the metal with a higher priority than the substrate, the lower face is meshed. -/
example : (solids (stackFile 0 1))[1]? = some ⟨1, ⟨0, 0, 4⟩, ⟨10, 10, 10⟩⟩ ∧
    ∃ u, u ≠ Geom.Axis.z ∧ ∃ t, (⟨1, ⟨0, 0, 4⟩, ⟨10, 10, 10⟩⟩ : Solid).Has u t ∧ ∀ j o, j ≠ 1 →
      (solids (stackFile 0 1))[j]? = some o → 1 ≤ o.priority → o.Has .z 4 → ¬ o.Has u t := by
  refine ⟨rfl, .x, by decide, 5, by decide +kernel, fun j o hj ho hp => ?_⟩
  have hlt : j < 2 := (List.getElem?_eq_some_iff.1 ho).1
  have hj0 : j = 0 := by omega
  subst hj0
  obtain rfl := Option.some.inj ho
  exact absurd hp (by decide)

/-- With the same priority, nothing is left of the face between the metal and the substrate: no policy is there, no line is
within a unit of it, though it is a face of both. -/
theorem C101_false : ∃ (S : Sorters) (sort : List (MaterialKind × Nat) → List (MaterialKind × Nat)) (g : MeshParams)
    (gz : ZoneParams) (angle : Ang → ℚ) (f : Flags) (props : List Property),
    (∀ l, (sort l).Perm l) ∧ (∀ l, (sort l).Pairwise fun a b => ambientLess b a = false) ∧
    g.InRange ∧ 0 ≤ g.proximityLimit ∧ (f.yz = true ∧ f.zx = true ∧ f.xy = true) ∧ BoxFile props ∧
    ∃ A B q r, props = [A, B] ∧ A.primitives = [q] ∧ B.primitives = [r] ∧ q.shape = .box ⟨0, 0, 0⟩ ⟨10, 10, 4⟩ ∧
      r.shape = .box ⟨0, 0, 4⟩ ⟨10, 10, 10⟩ ∧ A.kind = .material 4 1 0 ∧ B.kind = .metal ∧
    ∃ added D E a, parseProperties f [] props = some added ∧ buildDesign angle none added = some D ∧
      runDesign S sort g gz D .z = .ok (E, a) ∧ (∀ k, a.Enabled k → (a.get k).coord = 0 ∨ (a.get k).coord = 10) ∧
      (∀ y ∈ a.meshlines, 1 ≤ |y - 4|) ∧ ¬ Reached g a 4 := by
  refine ⟨plainSorters, ambientSort, ⟨1 / 2, 1, 1, 10⟩, ⟨1, 5, 1, 0⟩, fun _ => 0, {}, stackFile 0 0, ambientSort_perm,
    ambientSort_sorted, ⟨by norm_num, by norm_num⟩, by norm_num, ⟨rfl, rfl, rfl⟩, stack_file 0 0, _, _, _, _, rfl, rfl, rfl, rfl,
    rfl, rfl, rfl, ?_⟩
  have key : ((parseProperties {} [] (stackFile 0 0)).bind fun added => (buildDesign (fun _ => 0) none added).bind fun D =>
      (adjustAll ambientSort D).map fun E =>
        ((runToIntervalsFF 9 plainSorters ⟨1 / 2, 1, 1, 10⟩ ⟨1, 5, 1, 0⟩ { D.input with E := E } .z).bind fun r =>
          (runFromIntervalsF 40 plainSorters ⟨1 / 2, 1, 1, 10⟩ (angleAt r.1.1) (r.1.2.1 .z) r.2.2).map fun (a : Mesh.Axis) =>
            decide ((∀ p ∈ a.policies, p.enabled = true → p.coord = 0 ∨ p.coord = 10) ∧ (∀ y ∈ a.meshlines, 1 ≤ |y - 4|) ∧
              a.conflicts.length ≤ 6))) = some (.ok true) := by
    decide +kernel
  obtain ⟨added, h1, key⟩ := Option.bind_eq_some_iff.1 key
  obtain ⟨D, h2, key⟩ := Option.bind_eq_some_iff.1 key
  obtain ⟨E, h3, key⟩ := Option.map_eq_some_iff.1 key
  obtain ⟨⟨d, E', b⟩, h4, key⟩ := outcome_bind_ok key
  obtain ⟨a, h5, key⟩ := outcome_map_ok key
  obtain ⟨hp, hy, hc⟩ := of_decide_eq_true key
  have hrun : runDesign plainSorters ambientSort ⟨1 / 2, 1, 1, 10⟩ ⟨1, 5, 1, 0⟩ D .z = .ok (E', a) := by
    unfold runDesign
    rw [h3]
    exact run_join (runToIntervalsFF_computed h4) (from_computed h5)
  have hk : ∀ k, a.Enabled k → (a.get k).coord = 0 ∨ (a.get k).coord = 10 := by
    rintro k ⟨p, h1, h2⟩
    have : a.get k = p := by unfold Axis.get; rw [h1]; rfl
    rw [this]
    exact hp p (List.mem_of_getElem? h1) h2
  refine ⟨added, D, E', a, h1, h2, hrun, hk, hy, ?_⟩
  rintro ⟨k, he, hd, -⟩
  have hc' : (a.conflicts.length : ℚ) ≤ 6 := by exact_mod_cast hc
  simp only [tolerance] at hd
  rcases hk k he with h | h <;> rw [h] at hd <;> norm_num [abs_lt] at hd <;> linarith

end Verif.Board
