import Verif.Props.Stays
import Verif.Props.Twice
import Verif.Props.GlobalEdition

/-!
# C119, from what was added and from the file
-/

namespace Verif.Board
open Spec
open Verif.Geom Verif.Geom.Spec
open Verif.Mesh (MeshParams Kind tolerance)
open Verif.Csx (Node Property PropertyKind)
open Verif.Csx.Spec

/-- No other line was added near `c`, no side of a polygon that encloses no area is near it without being at it, and no slanted side. -/
structure LoneLine (added : List Csx.Added) (axis : Geom.Axis) (limit c : ℚ) : Prop where
  lines : ∀ x, .line axis x ∈ added → x = c ∨ (limit < |x - c| ∧ tolerance ≤ |x - c|)
  flats : ∀ y ∈ pieces added, |signedArea y.points| < 2 * tolerance → ∀ k < y.points.length, ∀ x,
    StandsAt y.plane (sideAt y.points k) axis x → x = c ∨ limit < |x - c|
  slanted : ∀ x, SlantedOver (pieces added) axis x → limit < |x - c|

/-- C119, from what was added: when the run ends, a line that was added has a policy of one line at its very coordinate, unless another
line, a side of a polygon that encloses no area, or a slanted side is near; the sides of the other polygons may be as near as one likes. -/
theorem C119_added (S : Sorters) (sort : List (MaterialKind × Nat) → List (MaterialKind × Nat)) (g : MeshParams)
    (hl : 0 ≤ g.proximityLimit) {gz : ZoneParams} (angle : Ang → ℚ)
    (background : Option MaterialKind) {added : List Csx.Added} (hplan : Plan (pieces added)) {axis : Geom.Axis}
    {D : Design} (hD : buildDesign angle background added = some D) {E : Nat → BEdge} {a : Mesh.Axis}
    (h : runDesign S sort g gz D axis = .ok (E, a)) {c : ℚ} (hc : LoneLine added axis g.proximityLimit c)
    (hat : .line axis c ∈ added) : ∃ k, a.Enabled k ∧ (a.get k).coord = c ∧ (a.get k).kind = .oneline := by
  obtain ⟨parts, hmake, hpieces, hparts⟩ := makeParts_pieces added fun x hx => (hplan.sided x hx).1
  have hDe : D = assemble angle background added parts := by
    unfold buildDesign at hD
    rw [hmake] at hD
    exact (Option.some.inj hD).symm
  obtain ⟨E0, hadj, hsame⟩ := adjustAll_same sort (D := D) fun p c hc => by
    subst hDe
    exact area_material hc
  have hrun : runSteps S g gz { D.input with E := E0 } axis = .ok (E, a) := by
    rw [← h]
    unfold runDesign
    rw [hadj]
    rfl
  subst hDe
  obtain ⟨hB, hA⟩ := plan_built hparts (hpieces ▸ hplan) hsame
  obtain ⟨-, -, -, hE, -⟩ := run_parts hrun
  refine C119_policy S g hl hB hA hrun ⟨?_, ?_, ?_⟩ (Or.inl (mem_fixedLines.2 hat))
  · intro x hx
    exact hc.lines x (mem_fixedLines.1 hx)
  · rintro x ⟨p, i, hi, hfix, hf⟩
    obtain ⟨n, q, k, hq, rfl, hk, rfl⟩ := (mem_edges_parts (angle := angle) (background := background) (added := added) hparts).1 hi
    obtain ⟨b, hb⟩ := hsame (firstEdge parts n + k)
    rw [edge_part hparts hq hk] at hb
    obtain ⟨b', hb'⟩ := hE (firstEdge parts n + k)
    have hseg : (E0 (firstEdge parts n + k)).seg = sideAt q.points k := by rw [hb]
    have hside : (E (firstEdge parts n + k)).side = ((edgeDirection (sideAt q.points k)).map (edgeNormal (detectRotation q.points))).getD .none := by
      rw [hb']
      show (E0 _).side = _
      rw [hb]
    have hst : StandsAt q.plane (sideAt q.points k) axis x := by
      have : Fixed q.plane (E0 (firstEdge parts n + k)).seg axis x := hfix
      rw [hseg] at this
      exact stands_of_fixed.1 this
    refine hc.flats q.piece (hpieces ▸ List.mem_map.2 ⟨q, List.mem_of_getElem? hq, rfl⟩) ?_ k hk x hst
    by_contra harea
    have hne := normal_of_area (points := q.points) (not_lt.1 harea) (s := sideAt q.points k) (hst.elim (fun h => Or.inr h.1) fun h => Or.inl h.1)
    rw [← hside] at hne
    have hf' := hf.2
    revert hne hf'
    cases (E (firstEdge parts n + k)).side <;> cases (E (firstEdge parts n + k)).toReverse <;> simp [facing, opposite]
  · rintro x ⟨p, va, hw, s, hs, hu⟩
    refine hc.slanted x ⟨p, va, hw, s, ?_, hu⟩
    have := (plan_slanted (angle := angle) (background := background) (added := added) hparts hsame p s).1 hs
    rwa [hpieces] at this

/-- C119, the program: given a document that describes shapes along the axes on a grid of `1 / 2500` and parameters in range, each line
that the document or the command line asks for, and that no other such line and no side of a shape that encloses no area is near, is
in the mesh at its very place, and in the grid of the document written up to half a millionth. -/
theorem C119_partial {w : World} (hw : w.Exact) {o : Options} {files : String → Option (List Node)} {doc : List Node}
    (hdoc : files o.input = some doc) (hfree : o.force = true ∨ files o.target = none) {csx : Node} {props : List Property}
    {k : Option PropertyKind} {lines : List Csx.Added} (h : Describes w.codec o.flags doc csx props k lines)
    (hshapes : ∀ p ∈ props, Csx.parseProperty p.kind ≠ none → ∀ q ∈ p.primitives, q.transformed = false → Tidy q.shape)
    (hg : (meshParams (decided w o doc).1).InRange) (hl : 0 ≤ (decided w o doc).1.proximityLimit) (hwl : o.withLines = true) :
    ∃ shapes files' doc' csx', Csx.parseProperties o.flags w.dirs props = some shapes ∧
      program w o files = .ok (true, files') ∧ files' o.target = some doc' ∧ StructureOf doc' csx' ∧
      ∀ axis, o.writes axis = true → ∃ xs, Listed csx'.children ["RectilinearGrid", linesName axis] 1 xs ∧
        ∀ c, .line axis c ∈ lines ∨ (axis, c) ∈ (decided w o doc).2 →
          LoneLine (lines ++ shapes ++ (decided w o doc).2.map fun l => .line l.1 l.2) axis (decided w o doc).1.proximityLimit c →
          ∃ x ∈ xs, |x - c| ≤ 1 / 2000000 := by
  obtain ⟨shapes, files', doc', csx', r1, r2, r3, r4, r5⟩ := program_squared hw hdoc hfree h hshapes hg hl
  refine ⟨shapes, files', doc', csx', r1, r2, r3, r4, fun axis hwr => ?_⟩
  obtain ⟨a, ⟨D, E, e1, e2, e3, hsq⟩, e4, -⟩ := r5 axis
  obtain ⟨xs, x1, x2, -⟩ := e4 hwr
  refine ⟨xs, x1, fun c hat hc => ?_⟩
  have hin : Csx.Added.line axis c ∈ lines ++ shapes ++ (decided w o doc).2.map fun l => .line l.1 l.2 := by
    rcases hat with hat | hat
    · simp [hat]
    · refine List.mem_append_right _ (List.mem_map.2 ⟨_, hat, rfl⟩)
  obtain ⟨n, n1, rfl, n2⟩ := C119_added w.sorters w.sort _ hl w.angle _ (squared_plan hsq) e1 e2 hc hin
  have hm : (a.get n).coord ∈ a.outputLines o.withLines o.withPolicies := by
    unfold Mesh.Axis.outputLines
    rw [hwl, if_pos rfl]
    exact List.mem_append_left _ (e3.oneline n n1 n2)
  obtain ⟨i, hi, he⟩ := List.mem_iff_getElem.1 hm
  refine ⟨xs[i]'(x2.length_eq ▸ hi), List.getElem_mem _, ?_⟩
  rw [← he]
  exact x2.get hi _

/-- A square, and a line half a unit off one of its sides. -/
def beside : List Csx.Added := [.polygon .xy .conductor 0 (0, 1) (boxPoints ⟨0, 0⟩ ⟨4, 4⟩), .line .x (9 / 2)]

/-- The side is within the limit of the line; the line stays. -/
example (S : Sorters) (sort : List (MaterialKind × Nat) → List (MaterialKind × Nat)) : Plan (pieces beside) ∧ LoneLine beside .x 1 (9 / 2) ∧
    SideOf (pieces beside) .x 4 ∧ ∃ D E a, buildDesign (fun _ => 0) none beside = some D ∧
      runDesign S sort ⟨1, 2, 1, 1⟩ ⟨1, 1, 1, 1⟩ D .x = .ok (E, a) ∧ 9 / 2 ∈ a.meshlines := by
  have c : ∀ n : ℤ, Coarse n := fun n => ⟨2500 * n, by push_cast; ring⟩
  have n0 : Coarse 0 := by exact_mod_cast c 0
  have n4 : Coarse 4 := by exact_mod_cast c 4
  have hp : pieces beside = [⟨.xy, 0, (0, 1), [⟨0, 0⟩, ⟨0, 4⟩, ⟨4, 4⟩, ⟨4, 0⟩]⟩] := by decide +kernel
  have harea : 2 * tolerance ≤ |signedArea [⟨0, 0⟩, ⟨0, 4⟩, ⟨4, 4⟩, ⟨4, 0⟩]| := by decide +kernel
  have hsq : Squared (pieces beside) := by
    rw [hp]
    refine ⟨?_, ?_, ?_, ?_⟩ <;> simp only [List.mem_singleton, forall_eq]
    · exact ⟨by simp, Or.inl harea⟩
    · decide +kernel
    · intro p hp
      simp only [List.mem_cons, List.not_mem_nil, or_false] at hp
      rcases hp with rfl | rfl | rfl | rfl
      · exact coarse_mk n0 n0
      · exact coarse_mk n0 n4
      · exact coarse_mk n4 n4
      · exact coarse_mk n4 n0
    · unfold Rectilinear
      decide +kernel
  have hlone : LoneLine beside .x 1 (9 / 2) := by
    refine ⟨fun x hx => ?_, fun y hy h => ?_, ?_⟩
    · left
      simpa [beside] using hx
    · rw [hp, List.mem_singleton] at hy
      subst hy
      exact absurd harea (not_le.2 h)
    · rintro x ⟨p, va, -, s, hs, -⟩
      have hno : ∀ p, slantedSides (pieces beside) p = [] := by
        intro p
        cases p <;> decide +kernel
      rw [hno] at hs
      cases hs
  obtain ⟨D, E, a, h1, h2, -, -, h3, -⟩ := C109_plan S sort ⟨1, 2, 1, 1⟩ ⟨by norm_num, by norm_num⟩ (by norm_num) ⟨1, 1, 1, 1⟩
    (fun _ => 0) none hsq .x
  refine ⟨squared_plan hsq, hlone, ⟨_, by rw [hp]; exact List.mem_singleton_self _, 3, by decide, Or.inl (by decide +kernel)⟩, D, E, a, h1, h2, ?_⟩
  obtain ⟨k, hk, hc, hkind⟩ := C119_added S sort ⟨1, 2, 1, 1⟩ (by norm_num) (fun _ => 0) none (squared_plan hsq) h1 h2 hlone
    (by decide +kernel)
  rw [← hc]
  exact h3.oneline k hk hkind

/-- Beside the two lines saved, one more near the first of them. -/
def nearOptions : Options where
  input := "in"
  output := "out"
  overrides := [.fixed [(.x, 4)], .smoothness 1, .lmin 1, .dmax 9]

/-- The board of these lines. -/
def nearBoard : Input := (assemble (fun _ => 0) none [.line .x 3, .line .x 30, .line .x 4] []).input

theorem kept_described : Describes plainWorld.codec {} keptDocument keptStructure [] none [.line .x 3, .line .x 30] := by
  refine ⟨Or.inl ⟨Csx.child_iff.1 rfl, by simp [keptDocument, keptStructure, Node.name]⟩, Csx.value_natural.2 rfl,
    ⟨_, Csx.child_iff.1 rfl, .nil⟩, Or.inr ⟨Csx.child_lacks.1 rfl, rfl⟩, [3, 30], [], [], [], [], [], ?_, ⟨rfl, rfl, rfl⟩, rfl⟩
  refine ⟨_, 1, Csx.nodeAt_two.2 rfl, Csx.value_natural.2 rfl, ⟨_, [3, 30], Csx.nodeAt_three.2 rfl, ?_, by norm_num⟩,
    ⟨_, [], Csx.nodeAt_three.2 rfl, .empty, rfl⟩, ⟨_, [], Csx.nodeAt_three.2 rfl, .empty, rfl⟩⟩
  exact NumberList.more (s := ['3']) (t := ['3', '0']) (Csx.numbers_of_digits (by decide +kernel) (by decide) (by decide +kernel))
    (by decide) (.last (Csx.numbers_of_digits (by decide +kernel) (by decide) (by decide +kernel)))

theorem near_run : ∃ d E b a, runToIntervals plainSorters ⟨1, 1, 1, 9⟩ (zoneParams {}) nearBoard .x = .ok (d, E, b) ∧
    runSteps plainSorters ⟨1, 1, 1, 9⟩ (zoneParams {}) nearBoard .x = .ok (E, a) ∧
    ((∀ y ∈ a.meshlines, 1 / 4 ≤ |y - 4| ∧ 1 / 4 ≤ |y - 3|) ∧ 30 ∈ a.meshlines) :=
  run_computed (n := 9) (m := 60) (P := fun _ a => (∀ y ∈ a.meshlines, 1 / 4 ≤ |y - 4| ∧ 1 / 4 ≤ |y - 3|) ∧ 30 ∈ a.meshlines)
    (by decide +kernel)

/-- Not so in general: of the lines 3 and 30 that the document asks for, and 4 that the command line asks for, with a proximity limit
of 1, the grid written has none near 3 and none near 4. -/
theorem C119_false : ∃ (w : World) (o : Options) (files : String → Option (List Node)) (doc : List Node) (csx : Node)
    (lines : List Csx.Added) (files' : String → Option (List Node)) (doc' : List Node) (csx' : Node) (xs : List ℚ),
    w.Exact ∧ files o.input = some doc ∧ Describes w.codec o.flags doc csx [] none lines ∧
      (meshParams (decided w o doc).1).InRange ∧ 0 ≤ (decided w o doc).1.proximityLimit ∧ o.withLines = true ∧ o.writes .x = true ∧
      .line .x 3 ∈ lines ∧ (.x, 4) ∈ (decided w o doc).2 ∧
      program w o files = .ok (true, files') ∧ files' o.target = some doc' ∧ StructureOf doc' csx' ∧
      Listed csx'.children ["RectilinearGrid", linesName .x] 1 xs ∧ ∀ x ∈ xs, 1 / 5 ≤ |x - 3| ∧ 1 / 5 ≤ |x - 4| := by
  have hpar : decided plainWorld nearOptions keptDocument = ({ smoothness := 1, lmin := 1, dmax := 9 }, [(.x, 4)]) := by
    decide +kernel
  have hin : (meshParams (decided plainWorld nearOptions keptDocument).1).InRange := by
    rw [hpar]; exact ⟨by decide +kernel, by decide +kernel⟩
  have hlim : 0 ≤ (decided plainWorld nearOptions keptDocument).1.proximityLimit := by rw [hpar]; exact zero_le_one
  obtain ⟨shapes, files', doc', csx', r1, r2, r3, r4, r5⟩ := program_squared plainWorld_exact (o := nearOptions)
    (files := keptFiles) rfl (Or.inr rfl) kept_described (by simp) hin hlim
  obtain rfl : [] = shapes := by simpa [Csx.parseProperties] using r1
  obtain ⟨a, ⟨D, E, e1, e2, -⟩, e4, -⟩ := r5 .x
  obtain ⟨xs, x1, x2, -⟩ := e4 rfl
  refine ⟨plainWorld, nearOptions, keptFiles, keptDocument, keptStructure, _, files', doc', csx', xs, plainWorld_exact, rfl, kept_described,
    hin, hlim, rfl, rfl, by simp, by rw [hpar]; simp, r2, r3, r4, x1, ?_⟩
  rw [hpar] at e1 e2
  have hD : D = assemble (fun _ => 0) none [.line .x 3, .line .x 30, .line .x 4] [] := (Option.some.inj e1).symm
  obtain ⟨-, E', -, a', -, n1, n2, -⟩ := near_run
  have hrun : runSteps plainSorters ⟨1, 1, 1, 9⟩ (zoneParams {}) nearBoard .x = .ok (E, a) := by
    rw [hD] at e2
    exact e2
  rw [n1] at hrun
  obtain ⟨-, rfl⟩ : E' = E ∧ a' = a := by simpa using hrun
  have hout : a'.outputLines nearOptions.withLines nearOptions.withPolicies = a'.meshlines := by
    simp [Mesh.Axis.outputLines, nearOptions]
  rw [hout] at x2
  intro x hx
  obtain ⟨i, hi, rfl⟩ := List.mem_iff_getElem.1 hx
  have hi' : i < a'.meshlines.length := x2.length_eq ▸ hi
  have h1 : |xs[i] - a'.meshlines[i]| ≤ 1 / 2000000 := x2.get hi' hi
  obtain ⟨h3, h2⟩ := n2 _ (List.getElem_mem hi')
  constructor
  · have := abs_sub_le a'.meshlines[i] xs[i] 3
    rw [abs_sub_comm a'.meshlines[i] xs[i]] at this
    linarith
  · have := abs_sub_le a'.meshlines[i] xs[i] 4
    rw [abs_sub_comm a'.meshlines[i] xs[i]] at this
    linarith

end Verif.Board
