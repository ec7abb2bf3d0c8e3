import Verif.Props.Twice
import Verif.Props.GlobalEdition

/-!
# C113: the options accepted by the command line, and the runs that end
-/

namespace Verif.Board
open Verif.Geom Verif.Csx.Spec
open Verif.Csx (Codec Node Signed Override Reading Property PropertyKind)
open Verif.Mesh (MeshParams tolerance)
open Spec

theorem decides_holds {α : Type} {P : α → Prop} {given : List α} {file : α → Prop} {default result : α}
    (h : Decides given file default result) (h1 : ∀ v ∈ given, P v) (h2 : ∀ v, file v → P v) (h3 : P default) : P result := by
  cases hg : given.getLast? with
  | some v =>
    rw [h.1 v hg]
    exact h1 v (List.mem_of_getLast? hg)
  | none =>
    obtain ⟨f1, f2⟩ := h.2 (List.getLast?_eq_none_iff.1 hg)
    by_cases hf : ∃ v, file v
    · obtain ⟨v, hv⟩ := hf
      rw [f1 v hv]
      exact h2 v hv
    · rw [f2 fun v hv => hf ⟨v, hv⟩]
      exact h3

/-- C113. With options the command line accepts, a positive `dmax` and a proximity limit that is not negative, given on the command line
or in the file, and a smoothness of at least 1 in the file, a run on shapes along the axes ends and writes its output. -/
theorem C113_partial {w : World} (hw : w.Exact) {o : Options} {files : String → Option (List Node)} {doc : List Node}
    (hdoc : files o.input = some doc) (hfree : o.force = true ∨ files o.target = none) {csx : Node} {props : List Property}
    {k : Option PropertyKind} {lines : List Csx.Added} (h : Describes w.codec o.flags doc csx props k lines)
    (hshapes : ∀ p ∈ props, Csx.parseProperty p.kind ≠ none → ∀ q ∈ p.primitives, q.transformed = false → Tidy q.shape)
    (hacc : o.overrides.all accepts = true) (hd : ∀ v, .dmax v ∈ o.overrides → 0 < v)
    (hl : ∀ v, .proximityLimit v ∈ o.overrides → 0 ≤ v)
    (hfile : o.flags.readParams = true → (∀ t, InFile doc "dmax" t → 0 < w.codec.read t) ∧
      (∀ t, InFile doc "ProximityLimit" t → 0 ≤ w.codec.read t) ∧ ∀ t, InFile doc "Smoothness" t → 1 ≤ w.codec.read t) :
    ∃ files', program w o files = .ok (true, files') ∧ (files' o.target).isSome := by
  obtain ⟨c1, c2, c3, -⟩ := Csx.C46_precedence w.codec o.flags.readParams doc o.overrides
  have p1 : 0 ≤ (decided w o doc).1.proximityLimit := by
    refine decides_holds (P := fun v => 0 ≤ v) c1 (fun v hv => ?_) ?_ (by norm_num)
    · obtain ⟨x, hx, e⟩ := List.mem_filterMap.1 hv
      cases x <;> simp at e
      subst e
      exact hl _ hx
    · rintro v ⟨hr, t, ht, rfl⟩
      exact (hfile hr).2.1 t ht
  have p2 : 1 ≤ (decided w o doc).1.smoothness := by
    refine decides_holds (P := fun v => 1 ≤ v) c2 (fun v hv => ?_) ?_ (by norm_num)
    · obtain ⟨x, hx, e⟩ := List.mem_filterMap.1 hv
      cases x <;> simp at e
      subst e
      have := List.all_eq_true.1 hacc _ hx
      exact (of_decide_eq_true this).1.le
    · rintro v ⟨hr, t, ht, rfl⟩
      exact (hfile hr).2.2 t ht
  have p3 : 0 < (decided w o doc).1.dmax := by
    refine decides_holds (P := fun v => 0 < v) c3 (fun v hv => ?_) ?_ (by norm_num)
    · obtain ⟨x, hx, e⟩ := List.mem_filterMap.1 hv
      cases x <;> simp at e
      subst e
      exact hd _ hx
    · rintro v ⟨hr, t, ht, rfl⟩
      exact (hfile hr).1 t ht
  obtain ⟨-, files', doc', -, -, h1, h2, -⟩ := C111_squared hw hdoc hfree h hshapes ⟨p3, p2⟩ p1
  exact ⟨files', h1, by rw [h2]; rfl⟩

example : plainOptions.overrides.all accepts = true ∧ accepts (.smoothness 2) = true ∧ accepts (.smoothness 1) = false ∧
    (∀ v, .dmax v ∈ plainOptions.overrides → 0 < v) ∧ (∀ v, .proximityLimit v ∈ plainOptions.overrides → 0 ≤ v) ∧
    InFile Csx.plainDocument "dmax" ['3'] ∧ plainWorld.codec.read ['3'] = 3 := by
  refine ⟨by decide +kernel, by decide +kernel, by decide +kernel, ?_, ?_, Csx.fileValue_iff.1 (by decide +kernel), by decide +kernel⟩
  · intro v hv
    simp [plainOptions] at hv
    rw [hv]; norm_num
  · intro v hv
    simp [plainOptions] at hv

/-- The board of two lines, at 3 and 30. -/
def keptBoard : Design := assemble (fun _ => 0) none [.line .x 3, .line .x 30] []

theorem kept_built : Built keptBoard.input ∧ LinesApart keptBoard.input ∧ ∀ p, slantedOf keptBoard.input p = [] := by
  refine ⟨⟨?_, ?_, ?_, ?_, ?_⟩, ⟨?_, ?_⟩, ?_⟩
  · intro p a h; cases h
  · intro p a h; cases h
  · intro p; exact List.nodup_nil
  · intro p a h; cases h
  · intro p a h; cases h
  · intro p i h; cases h
  · intro p i h; cases h
  · intro p; cases p <;> decide +kernel

/-- With a limit of 0 on cells, two lines apart are meshed for ever. -/
theorem kept_endless : runDesign plainSorters ambientSort ⟨1, 2, 2, 0⟩ ⟨2, 2, 1 / 5, 20⟩ keptBoard .x = .diverges := by
  obtain ⟨-, E, b, a, -, hrun, -⟩ := run_computed (n := 9) (m := 60) (S := plainSorters) (g := ⟨1, 1, 1, 9⟩)
    (gz := ⟨2, 2, 1 / 5, 20⟩) (B := keptBoard.input) (axis := .x) (P := fun _ a => a.meshlines ≠ []) (by decide +kernel)
  obtain ⟨L, zones, m, hL, hed⟩ := C95_edited_partial plainSorters kept_built.1 kept_built.2.1 hrun
  have d : ∀ t x, Dialog.toDouble t = some x → Dialog.Spec.Number t x := fun t x h => (Dialog.toDouble_iff _ _).1 h
  obtain ⟨q, d, b, hq, e1, e2, e3, hb, -, hdiv, -⟩ := hed ⟨['1'], ['2'], ['2'], ['0'], "20".toList, "0.2".toList, ['2']⟩ 1 2 0 20 (1 / 5) 2 2
    (d _ _ (by decide +kernel)) (d _ _ (by decide +kernel)) ((Dialog.toULong_iff _ _).1 (by decide +kernel)) (d _ _ (by decide +kernel))
    (d _ _ (by decide +kernel)) (d _ _ (by decide +kernel)) ((Dialog.toULong_iff _ _).1 (by decide +kernel))
  rw [e1, e2] at hb
  have hen := enabled_two (to_intervals_computed (n := 9) (P := fun b => b.enabledPointers = [0, 1]) (by decide +kernel) hb)
  have := hdiv ⟨0, 1, by decide, hen⟩ le_rfl kept_built.2.2
  rw [e3] at this
  exact this

theorem kept_program {o : Options} {doc : List Node} (hne : o.target ≠ o.input)
    (h : Describes plainWorld.codec o.flags doc keptStructure [] none [.line .x 3, .line .x 30])
    (hp : decided plainWorld o doc = ({ dmax := 0 }, [])) :
    program plainWorld o (fun path => if path = o.input then some doc else none) = .diverges := by
  obtain ⟨reading, has, e1, e2⟩ := reading_of h (shapes := []) rfl
  have e3 : meshReading plainWorld (override o.overrides reading) = .diverges := by
    rw [e2, hp]
    unfold meshReading
    have hD : buildDesign plainWorld.angle ((none : Option PropertyKind).bind Csx.parseProperty)
        ([Csx.Added.line .x 3, .line .x 30] ++ [] ++ List.map (fun l : Geom.Axis × ℚ => Csx.Added.line l.1 l.2) []) = some keptBoard := rfl
    simp only [hD, Outcome.orUb, Outcome.bind]
    have hrun : runDesign plainWorld.sorters plainWorld.sort (meshParams { dmax := 0, hasGridAlready := has })
      (zoneParams { dmax := 0, hasGridAlready := has }) keptBoard .x = .diverges := kept_endless
    rw [hrun]
  have hno : (if o.target = o.input then some doc else none) = none := if_neg hne
  unfold program
  simp only [final_options, if_true, e1, Outcome.orUb, Outcome.bind, hno]
  rw [if_neg, e3]
  · rfl
  · intro hc
    simp only [Option.isSome_none, Bool.false_or, Bool.and_eq_true, beq_iff_eq] at hc
    exact hne hc.2.1.symm

/-- C113 fails: a limit of 0 on cells is accepted, on the command line and in the file, and the program does not end. -/
theorem C113_false : ∃ (w : World) (o o' : Options) (doc doc' : List Node), w.Exact ∧ o.overrides.all accepts = true ∧ o'.overrides = [] ∧
    .dmax 0 ∈ o.overrides ∧ InFile doc' "dmax" ['0'] ∧
    program w o (fun path => if path = o.input then some doc else none) = .diverges ∧
    program w o' (fun path => if path = o'.input then some doc' else none) = .diverges := by
  have hplace : ∀ c : List Node, StructureOf [.mk "OpenEMSH" [] [] c, keptStructure] keptStructure := fun c =>
    Or.inl ⟨Csx.child_iff.1 rfl, by simp [keptStructure, Node.name]⟩
  have hsaved : ∀ c : List Node, Csx.child c "FixedMeshlines" =
        some (.mk "FixedMeshlines" [] [] [.mk "XLines" [] ['3', ',', '3', '0'] []]) →
      SavedLines [.mk "OpenEMSH" [] [] c, keptStructure] [3, 30] [] [] := by
    intro c hc
    have hn : Csx.child [.mk "OpenEMSH" [] [] c, keptStructure] "OpenEMSH" = some (.mk "OpenEMSH" [] [] c) := rfl
    refine ⟨some (.mk "FixedMeshlines" [] [] [.mk "XLines" [] ['3', ',', '3', '0'] []]), 1, Csx.nodeAt_two.2 (by rw [hn]; exact hc),
      Csx.value_natural.2 rfl, ⟨some (.mk "XLines" [] ['3', ',', '3', '0'] []), [3, 30],
        Csx.nodeAt_three.2 (by rw [hn]; simp only [Option.bind_some, Node.children, hc]; rfl), ?_, by norm_num⟩,
      ⟨none, [], Csx.nodeAt_three.2 (by rw [hn]; simp only [Option.bind_some, Node.children, hc]; rfl), .empty, rfl⟩,
      ⟨none, [], Csx.nodeAt_three.2 (by rw [hn]; simp only [Option.bind_some, Node.children, hc]; rfl), .empty, rfl⟩⟩
    exact NumberList.more (s := ['3']) (t := ['3', '0']) (Csx.numbers_of_digits (by decide +kernel) (by decide) (by decide +kernel))
      (by decide) (.last (Csx.numbers_of_digits (by decide +kernel) (by decide) (by decide +kernel)))
  refine ⟨plainWorld, { input := "in", output := "out", overrides := [.dmax 0] }, { input := "in", output := "out" }, keptDocument,
    [.mk "OpenEMSH" [] [] [.mk "FixedMeshlines" [] [] [.mk "XLines" [] ['3', ',', '3', '0'] []],
      .mk "GlobalParams" [("dmax", ['0'])] [] []], keptStructure], plainWorld_exact, rfl, rfl, by simp,
    Csx.fileValue_iff.1 (by decide +kernel), ?_, ?_⟩
  · exact kept_program (by decide) ⟨hplace _, Csx.value_natural.2 rfl, ⟨_, Csx.child_iff.1 rfl, .nil⟩, Or.inr ⟨Csx.child_lacks.1 rfl, rfl⟩,
      [3, 30], [], [], [], [], [], hsaved _ rfl, ⟨rfl, rfl, rfl⟩, rfl⟩ (by decide +kernel)
  · exact kept_program (by decide) ⟨hplace _, Csx.value_natural.2 rfl, ⟨_, Csx.child_iff.1 rfl, .nil⟩, Or.inr ⟨Csx.child_lacks.1 rfl, rfl⟩,
      [3, 30], [], [], [], [], [], hsaved _ rfl, ⟨rfl, rfl, rfl⟩, rfl⟩ (by decide +kernel)

end Verif.Board
