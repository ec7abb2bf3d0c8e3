import Verif.Model.Program
import Verif.Props.Described
import Verif.Props.Square
import Verif.Props.PolicyEdition
import Verif.Props.Adjust

/-!
# C111: the whole program, from a document and options to the document written
-/

namespace Verif.Csx
open Spec
open Verif.Geom (Point)

/-! ## The text written is a list of numbers -/

theorem toString6_number (s : Signed) : LineNumber (toString6 s) (written s).value := by
  have hlt : roundEven (s.mag * 1000000) % 1000000 < 1000000 := Nat.mod_lt _ (by norm_num)
  have hm : ∃ x, Dialog.Spec.Magnitude (decimal (roundEven (s.mag * 1000000) / 1000000) ++ '.' ::
      (sixDigits (roundEven (s.mag * 1000000) % 1000000) ++ [])) x := by
    refine ⟨_, Dialog.Spec.Magnitude.dotted ?_ ?_ ?_ .absent⟩
    · intro c hc
      obtain ⟨d, hd, rfl⟩ := (decimal_digits _).2 c hc
      exact digitChar_isDigit hd
    · intro c hc
      obtain ⟨d, hd, rfl⟩ := sixDigits_digits hlt c hc
      exact digitChar_isDigit hd
    · simp [(decimal_digits _).1]
  obtain ⟨x, hx⟩ := hm
  rw [List.append_nil] at hx
  have hl : ∃ y, LineNumber (toString6 s) y := by
    unfold toString6
    cases s.neg with
    | true => exact ⟨_, by simpa using LineNumber.negative hx⟩
    | false => exact ⟨_, by simpa using LineNumber.positive hx⟩
  obtain ⟨y, hy⟩ := hl
  obtain ⟨r, hr, rfl⟩ := strToDouble_of hy
  rw [strToDouble_toString6] at hr
  cases hr
  exact hy

theorem writeLines_list (lines : List Signed) : NumberList (writeLines lines) (lines.map fun s => (written s).value) := by
  induction lines with
  | nil => exact .empty
  | cons s rest ih =>
    cases rest with
    | nil =>
      rw [writeLines_single]
      exact .last (toString6_number s)
    | cons t rest =>
      rw [writeLines_cons_cons]
      refine .more (toString6_number s) ?_ ih
      intro h
      cases rest with
      | nil => rw [writeLines_single] at h; exact toString6_ne_nil t h
      | cons u rest =>
        rw [writeLines_cons_cons] at h
        simp at h

/-! ## The structure after writing -/

/-- The structure with the lines written. -/
theorem structure_written (codec : Codec) (o : Output) (p : Params) {doc : List Node} {csx : Node} (h : StructureOf doc csx) :
    StructureOf (writeDocument codec o p doc) (Node.onChild "RectilinearGrid" (writeGridNode o) csx) := by
  rcases h with ⟨hn, hno⟩ | ⟨hno, oe, hoe, hn⟩
  · have htop : ∃ n ∈ doc, n.name = "ContinuousStructure" := by
      obtain ⟨pre, post, rfl, h, -⟩ := hn
      exact ⟨csx, by simp, h⟩
    refine Or.inl ⟨child_iff.1 ?_, ?_⟩
    · rw [child_writeDocument (by decide)]
      unfold writeStructure
      rw [if_pos (any_name.2 htop), child_onAppended_same (onChild_name _ _), child_iff.2 hn]
      rfl
    · intro m hm hname
      have := writeDocument_mem hm (by rw [hname]; decide)
      unfold writeStructure at this
      rw [if_pos (any_name.2 htop)] at this
      rcases onAppended_mem this with h | ⟨m', -, hm', rfl⟩
      · exact hno m h hname
      · rw [onChild_name, hm'] at hname
        exact absurd hname (by decide)
  · refine Or.inr ⟨?_, Node.onChild "ContinuousStructure" (Node.onChild "RectilinearGrid" (writeGridNode o)) oe, child_iff.1 ?_,
      child_iff.1 ?_⟩
    · intro m hm hname
      have := writeDocument_mem hm (by rw [hname]; decide)
      unfold writeStructure at this
      rw [if_neg (fun h => by obtain ⟨m, hm, e⟩ := any_name.1 h; exact hno m hm e)] at this
      rcases onAppended_mem this with h | ⟨m', -, hm', rfl⟩
      · exact hno m h hname
      · rw [onChild_name, hm'] at hname
        exact absurd hname (by decide)
    · rw [child_writeDocument (by decide)]
      unfold writeStructure
      rw [if_neg (fun h => by obtain ⟨m, hm, e⟩ := any_name.1 h; exact hno m hm e),
        child_onAppended_same (onChild_name _ _), child_iff.2 hoe]
      rfl
    · rw [onChild_children, child_onAppended_same (onChild_name _ _), child_iff.2 hn]
      rfl

/-- What the structure holds beside its grid is kept. -/
theorem structure_kept (o : Output) (csx : Node) :
    (∀ name, (Node.onChild "RectilinearGrid" (writeGridNode o) csx).attr? name = csx.attr? name) ∧
    ∀ name, name ≠ "RectilinearGrid" →
      child (Node.onChild "RectilinearGrid" (writeGridNode o) csx).children name = child csx.children name := by
  refine ⟨fun name => ?_, fun name h => ?_⟩
  · unfold Node.attr?
    rw [onChild_attrs]
  · rw [onChild_children, child_onAppended_other h fun n => (C60_grid_attrs o n).2]

theorem first_congr {l l' : List Node} {name : String} (h : child l' name = child l name) (n : Node) :
    First l' name n ↔ First l name n := by
  rw [← child_iff, ← child_iff, h]

theorem properties_congr {codec : Codec} {csx csx' : Node}
    (h : child csx'.children "Properties" = child csx.children "Properties") {props : List Property} :
    PropertiesOf codec csx' props ↔ PropertiesOf codec csx props := by
  unfold PropertiesOf
  simp only [first_congr h]

theorem background_congr {codec : Codec} {csx csx' : Node}
    (h : child csx'.children "BackgroundMaterial" = child csx.children "BackgroundMaterial") {k : Option PropertyKind} :
    BackgroundOf codec csx' k ↔ BackgroundOf codec csx k := by
  unfold BackgroundOf
  simp only [first_congr h, ← child_lacks, h]

/-- The lines written are listed in the grid. -/
theorem listed_written (o : Output) (csx : Node) {name : String} {text : List Char} {lines : List Signed}
    (ht : text = writeLines lines)
    (h : child (writeGridNode o ((child csx.children "RectilinearGrid").getD (.mk "RectilinearGrid" [] [] []))).children name =
      some (linesNode name text)) :
    Listed (Node.onChild "RectilinearGrid" (writeGridNode o) csx).children ["RectilinearGrid", name] 1
      (lines.map fun s => (written s).value) := by
  refine ⟨some (linesNode name text), lines.map fun s => (written s).value, nodeAt_two.2 ?_, ?_, ?_⟩
  · rw [onChild_children, child_onAppended_same fun n => (C60_grid_attrs o n).2]
    simpa using h
  · rw [ht]
    exact writeLines_list lines
  · simp

theorem grid_child (o : Output) (g : Node) :
    child (writeGridNode o g).children "XLines" = (if o.withX then some (linesNode "XLines" o.x) else none) ∧
    child (writeGridNode o g).children "YLines" = (if o.withY then some (linesNode "YLines" o.y) else none) ∧
    child (writeGridNode o g).children "ZLines" = (if o.withZ then some (linesNode "ZLines" o.z) else none) := by
  obtain ⟨n, a, t, c⟩ := g
  obtain ⟨bx, by', bz, bp, x, y, z⟩ := o
  cases bx <;> cases by' <;> cases bz <;> exact ⟨rfl, rfl, rfl⟩

theorem foldl_hasGrid (l : List Override) (p : Params) (b : Bool) :
    l.foldl Override.apply { p with hasGridAlready := b } = { l.foldl Override.apply p with hasGridAlready := b } := by
  induction l generalizing p with
  | nil => rfl
  | cons o l ih =>
    rw [List.foldl_cons, List.foldl_cons, ← ih]
    congr 1
    cases o <;> rfl

end Verif.Csx

namespace Verif.Board
open Verif.Geom
open Verif.Csx (Codec Node Signed Override Reading Property PropertyKind asUint)
open Verif.Csx.Spec (First HasAttr StructureOf PropertiesOf BackgroundOf SavedLines GridLines Listed Value asAdded dataAt)
open Verif.Mesh (MeshParams tolerance)
open Verif.Mesh.Spec (Increasing GapsAtMost)
open Spec

/-- The node of the lines of an axis. -/
def linesName : Geom.Axis → String
  | .x => "XLines"
  | .y => "YLines"
  | .z => "ZLines"

/-- Whether the lines of an axis are written. -/
def Options.writes (o : Options) : Geom.Axis → Bool
  | .x => o.withX
  | .y => o.withY
  | .z => o.withZ

/-- The parameters decided by the options and the document (see C46), and the lines of the command line. -/
def decided (w : World) (o : Options) (doc : List Node) : Csx.Params × List (Geom.Axis × ℚ) :=
  Csx.runParams w.codec o.flags.readParams doc o.overrides

/-- What a document describes, to the options: its structure, with cartesian coordinates, its properties, its background, and the lines
that are to be kept. -/
structure Describes (codec : Codec) (f : Csx.Flags) (doc : List Node) (csx : Node) (props : List Property) (k : Option PropertyKind)
    (lines : List Csx.Added) : Prop where
  place : StructureOf doc csx
  cartesian : Value asUint (some csx) "CoordSystem" 0 0
  shapes : PropertiesOf codec csx props
  background : BackgroundOf codec csx k
  lines : ∃ sx sy sz gx gy gz, (if f.readParams then SavedLines doc sx sy sz else sx = [] ∧ sy = [] ∧ sz = []) ∧
    (if f.keepOld then GridLines csx gx gy gz else gx = [] ∧ gy = [] ∧ gz = []) ∧ lines = asAdded sx sy sz ++ asAdded gx gy gz

/-- A double is written with its sign; zero too. -/
def World.Exact (w : World) : Prop := ∀ q, (w.signed q).value = q ∧ 0 ≤ (w.signed q).mag

theorem reading_of {w : World} {o : Options} {doc : List Node} {csx : Node} {props : List Property} {k : Option PropertyKind}
    {lines : List Csx.Added} (h : Describes w.codec o.flags doc csx props k lines) {shapes : List Csx.Added}
    (hs : Csx.parseProperties o.flags w.dirs props = some shapes) :
    ∃ reading has, Csx.readDocument w.codec o.flags w.dirs doc = some (some reading) ∧
      override o.overrides reading = ⟨{ (decided w o doc).1 with hasGridAlready := has },
        lines ++ shapes ++ (decided w o doc).2.map fun l => .line l.1 l.2, k.bind Csx.parseProperty⟩ := by
  obtain ⟨sx, sy, sz, gx, gy, gz, h1, h2, rfl⟩ := h.lines
  obtain ⟨has, e⟩ := Csx.C110_document w.codec o.flags w.dirs h.place h.cartesian h.shapes h1 h2 h.background
  rw [hs] at e
  refine ⟨_, has, e, ?_⟩
  unfold override decided Csx.runParams
  simp only [Csx.foldl_hasGrid]

theorem rounded_mono {s t : Signed} (hs : 0 ≤ s.mag) (ht : 0 ≤ t.mag) (h : s.value ≤ t.value) :
    (Csx.written s).value ≤ (Csx.written t).value := by
  have mono : ∀ {x y : ℚ}, 0 ≤ x → x ≤ y →
      (Csx.roundEven (x * 1000000) : ℚ) / 1000000 ≤ (Csx.roundEven (y * 1000000) : ℚ) / 1000000 := by
    intro x y hx hxy
    apply div_le_div_of_nonneg_right _ (by norm_num)
    exact_mod_cast Csx.roundEven_mono (by linarith) (by linarith)
  have pos : ∀ x : ℚ, 0 ≤ (Csx.roundEven (x * 1000000) : ℚ) / 1000000 := fun x => by positivity
  obtain ⟨sn, sm⟩ := s
  obtain ⟨tn, tm⟩ := t
  simp only [Signed.value, Csx.written] at *
  cases sn <;> cases tn <;> simp only [if_true, if_false, Bool.false_eq_true] at h ⊢
  · exact mono hs h
  · obtain rfl : sm = 0 := by linarith
    obtain rfl : tm = 0 := by linarith
    have : Csx.roundEven ((0 : ℚ) * 1000000) = 0 := by
      rw [zero_mul]
      exact_mod_cast Csx.roundEven_nat 0
    rw [this]
    simp
  · linarith [pos sm, pos tm]
  · linarith [mono ht (show tm ≤ sm by linarith)]

/-- The lines written of an axis are listed in the grid of the document written, as they are in the mesh up to half a millionth. -/
theorem rendered {w : World} (hw : w.Exact) (o : Options) (p : Csx.Params) (m : Geom.Axis → Mesh.Axis) {doc : List Node} {csx : Node}
    (h : StructureOf doc csx) : ∃ csx', StructureOf (render w o p (m .x) (m .y) (m .z) doc) csx' ∧
      (∀ name, csx'.attr? name = csx.attr? name) ∧
      (∀ name, name ≠ "RectilinearGrid" → Csx.child csx'.children name = Csx.child csx.children name) ∧
      ∀ axis, if o.writes axis then
          ∃ xs, Listed csx'.children ["RectilinearGrid", linesName axis] 1 xs ∧
            List.Forall₂ (fun c x => |x - c| ≤ 1 / 2000000) ((m axis).outputLines o.withLines o.withPolicies) xs ∧
            (((m axis).outputLines o.withLines o.withPolicies).Pairwise (· ≤ ·) → xs.Pairwise (· ≤ ·))
        else Listed csx'.children ["RectilinearGrid", linesName axis] 1 [] := by
  set out : Csx.Output := { withX := o.withX, withY := o.withY, withZ := o.withZ, withParams := o.withParams
                            x := linesText w o (m .x), y := linesText w o (m .y), z := linesText w o (m .z) } with hout
  refine ⟨_, Csx.structure_written w.codec out p h, (Csx.structure_kept out csx).1, (Csx.structure_kept out csx).2, ?_⟩
  have near : ∀ l : List ℚ, List.Forall₂ (fun c x => |x - c| ≤ 1 / 2000000) l ((l.map w.signed).map fun s => (Csx.written s).value) := by
    intro l
    rw [List.map_map, List.forall₂_map_right_iff, List.forall₂_same]
    intro q _
    have := Csx.written_near (hw q).2
    rwa [(hw q).1] at this
  have order : ∀ l : List ℚ, l.Pairwise (· ≤ ·) → ((l.map w.signed).map fun s => (Csx.written s).value).Pairwise (· ≤ ·) := by
    intro l h
    rw [List.map_map, List.pairwise_map]
    refine h.imp fun {a b} hab => ?_
    exact rounded_mono (hw a).2 (hw b).2 (by rw [(hw a).1, (hw b).1]; exact hab)
  have absent : ∀ {name : String}, Csx.child (Csx.writeGridNode out ((Csx.child csx.children "RectilinearGrid").getD
      (.mk "RectilinearGrid" [] [] []))).children name = none →
      Listed (Node.onChild "RectilinearGrid" (Csx.writeGridNode out) csx).children ["RectilinearGrid", name] 1 [] := by
    intro name hn
    refine ⟨none, [], Csx.nodeAt_two.2 ?_, .empty, rfl⟩
    rw [Csx.onChild_children, Csx.child_onAppended_same fun n => (Csx.C60_grid_attrs out n).2]
    simpa using hn
  intro axis
  have lst := @Csx.listed_written out csx
  have gc := Csx.grid_child out ((Csx.child csx.children "RectilinearGrid").getD (.mk "RectilinearGrid" [] [] []))
  cases axis
  · by_cases ho : o.withX = true
    · rw [if_pos (show o.writes .x = true from ho)]
      exact ⟨_, lst rfl (gc.1.trans (if_pos ho)), near _, order _⟩
    · rw [if_neg (show ¬ o.writes .x = true from ho)]
      exact absent (gc.1.trans (if_neg ho))
  · by_cases ho : o.withY = true
    · rw [if_pos (show o.writes .y = true from ho)]
      exact ⟨_, lst rfl (gc.2.1.trans (if_pos ho)), near _, order _⟩
    · rw [if_neg (show ¬ o.writes .y = true from ho)]
      exact absent (gc.2.1.trans (if_neg ho))
  · by_cases ho : o.withZ = true
    · rw [if_pos (show o.writes .z = true from ho)]
      exact ⟨_, lst rfl (gc.2.2.trans (if_pos ho)), near _, order _⟩
    · rw [if_neg (show ¬ o.writes .z = true from ho)]
      exact absent (gc.2.2.trans (if_neg ho))

/-! ## The files -/

/-- The file written: the input when no output is given. -/
def Options.target (o : Options) : String := if o.output = "" then o.input else o.output

theorem final_options (o : Options) : finalOptions o = { o with output := o.target } := by
  unfold finalOptions Options.target
  split_ifs with h
  · rfl
  · rfl

/-- What a run of the program goes through. -/
theorem program_cases {w : World} {o : Options} {files files' : String → Option (List Node)} {b : Bool}
    (h : program w o files = .ok (b, files')) :
    (b = false ∧ files' = files) ∨
    ∃ doc reading m, b = true ∧ files o.input = some doc ∧
      Csx.readDocument w.codec o.flags w.dirs doc = some (some reading) ∧
      (o.force = true ∨ files o.target = none) ∧
      meshReading w (override o.overrides reading) = .ok m ∧
      files' = fun path => if path = o.target then
        some (render w o (override o.overrides reading).params m.1 m.2.1 m.2.2 doc) else files path := by
  unfold program at h
  simp only [final_options] at h
  cases hf : files o.input with
  | none =>
    rw [hf] at h
    simp only [Outcome.ok.injEq, Prod.mk.injEq] at h
    exact Or.inl ⟨h.1.symm, h.2.symm⟩
  | some doc =>
    rw [hf] at h
    obtain ⟨r, hr, h⟩ := outcome_bind_ok h
    have hr := orUb_ok hr
    cases r with
    | none =>
      simp only [Outcome.ok.injEq, Prod.mk.injEq] at h
      exact Or.inl ⟨h.1.symm, h.2.symm⟩
    | some reading =>
      simp only at h
      split_ifs at h with hc
      · simp only [Outcome.ok.injEq, Prod.mk.injEq] at h
        exact Or.inl ⟨h.1.symm, h.2.symm⟩
      · obtain ⟨m, hm, e⟩ := outcome_map_ok h
        simp only [Prod.mk.injEq] at e
        refine Or.inr ⟨doc, reading, m, e.1.symm, rfl, hr, ?_, hm, e.2.symm⟩
        by_cases hforce : o.force = true
        · exact Or.inl hforce
        · right
          simp only [Bool.not_eq_true] at hforce
          simp only [hforce, Bool.not_false, Bool.true_and, Bool.or_eq_true, not_or] at hc
          simpa using hc.1

/-- C111, the files. A run that fails changes no file; one that succeeds changes the output file only, and does not write over a file
unless told to. -/
theorem C111_files {w : World} {o : Options} {files files' : String → Option (List Node)} {b : Bool}
    (h : program w o files = .ok (b, files')) :
    (b = false → files' = files) ∧ (∀ path, path ≠ o.target → files' path = files path) ∧
      (o.force = false → ∀ path doc, files path = some doc → files' path = some doc) := by
  rcases program_cases h with ⟨rfl, rfl⟩ | ⟨doc, reading, m, rfl, h1, h2, h3, h4, rfl⟩
  · exact ⟨fun _ => rfl, fun _ _ => rfl, fun _ _ _ h => h⟩
  · refine ⟨fun h => (by cases h), fun path hp => if_neg hp, fun hf path d hd => ?_⟩
    rcases h3 with h3 | h3
    · rw [hf] at h3; cases h3
    · simp only
      rw [if_neg, hd]
      rintro rfl
      rw [h3] at hd
      cases hd

/-- C111, the document. What a run writes is the document read, but for its grid and for the parameters saved beside the structure; it has
its structure at the same place, with the same attributes and the same nodes. -/
theorem C111_kept {w : World} (hw : w.Exact) {o : Options} {files files' : String → Option (List Node)}
    (h : program w o files = .ok (true, files')) {doc : List Node} (hdoc : files o.input = some doc) {csx : Node}
    (hs : StructureOf doc csx) :
    ∃ doc' csx', files' o.target = some doc' ∧ StructureOf doc' csx' ∧ (∀ name v, HasAttr csx' name v ↔ HasAttr csx name v) ∧
      (∀ name n, name ≠ "RectilinearGrid" → (First csx'.children name n ↔ First csx.children name n)) ∧
      ∀ path, (∀ r, path ≠ "ContinuousStructure" :: "RectilinearGrid" :: r) →
        (∀ r, path ≠ "openEMS" :: "ContinuousStructure" :: "RectilinearGrid" :: r) → (∀ r, path ≠ "OpenEMSH" :: r) →
        dataAt doc' path = dataAt doc path := by
  rcases program_cases h with ⟨h, -⟩ | ⟨doc0, reading, m, -, h1, h2, h3, h4, rfl⟩
  · cases h
  · rw [hdoc] at h1
    obtain rfl := Option.some.inj h1
    obtain ⟨csx', e1, e2, e3, -⟩ := rendered hw o (override o.overrides reading).params
      (fun | .x => m.1 | .y => m.2.1 | .z => m.2.2) hs
    refine ⟨_, csx', if_pos rfl, e1, fun name v => ?_, fun name n hn => Csx.first_congr (e3 name hn) n, ?_⟩
    · rw [← Csx.attr_iff, ← Csx.attr_iff, e2]
    · intro path p1 p2 p3
      have hst : Csx.Spec.HasStructure doc := by
        rcases hs with ⟨⟨pre, post, e, hn, -⟩, -⟩ | ⟨-, o', ho, ⟨pre, post, e, hn, -⟩⟩
        · exact Or.inl ⟨csx, by rw [e]; simp, hn⟩
        · exact Or.inr ⟨o', ho, csx, by rw [e]; simp, hn⟩
      exact Csx.C60_preserved _ _ _ hst p1 p2 p3

/-! ## The lines -/

theorem pieces_lines {l : List Csx.Added} (h : ∀ x ∈ l, ∃ axis c, x = .line axis c) : pieces l = [] := by
  unfold pieces
  rw [List.filterMap_eq_nil_iff]
  intro x hx
  obtain ⟨axis, c, rfl⟩ := h x hx
  rfl

theorem asAdded_lines {x y z : List ℚ} : ∀ a ∈ asAdded x y z, ∃ axis c, a = .line axis c := by
  intro a ha
  unfold asAdded at ha
  rcases List.mem_append.1 ha with ha | ha
  · rcases List.mem_append.1 ha with ha | ha
    · obtain ⟨c, -, rfl⟩ := List.mem_map.1 ha
      exact ⟨_, _, rfl⟩
    · obtain ⟨c, -, rfl⟩ := List.mem_map.1 ha
      exact ⟨_, _, rfl⟩
  · obtain ⟨c, -, rfl⟩ := List.mem_map.1 ha
    exact ⟨_, _, rfl⟩

/-- Numbers near others in order with bounded gaps have gaps bounded a little more. -/
theorem gaps_near {l xs : List ℚ} {e d : ℚ} (h : List.Forall₂ (fun c x => |x - c| ≤ e) l xs) (hl : GapsAtMost d l) :
    GapsAtMost (d + 2 * e) xs := by
  induction h with
  | nil => exact .nil
  | @cons a x l xs h1 h2 ih =>
    cases h2 with
    | nil => exact .singleton _
    | @cons b y l' xs' h3 h4 =>
      rw [GapsAtMost, List.isChain_cons_cons] at hl ⊢
      refine ⟨?_, ih hl.2⟩
      have := abs_le.1 h1
      have := abs_le.1 h3
      linarith [hl.1]

theorem parse_tidy {f : Csx.Flags} {dirs : List Point} {props : List Property}
    (h : ∀ p ∈ props, Csx.parseProperty p.kind ≠ none → ∀ q ∈ p.primitives, q.transformed = false → Tidy q.shape) :
    ∃ added, Csx.parseProperties f dirs props = some added := by
  have one : ∀ {m : MaterialKind} {p : Csx.Primitive}, (p.transformed = false → Tidy p.shape) →
      ∃ added, Csx.parsePrimitive f dirs m p = some added := by
    intro m p hp
    cases ht : p.transformed with
    | true => exact ⟨[], by unfold Csx.parsePrimitive; rw [if_pos ht]⟩
    | false =>
      apply Csx.parsePrimitive_defined
      have := hp ht
      cases hs : p.shape <;> rw [hs] at this <;> simp only [Csx.HasVertices]
      · rintro rfl
        exact this.1 rfl
      · rintro rfl
        exact this.1 rfl
      · exact this.1
  have prims : ∀ m ps, (m ≠ none → ∀ q ∈ ps, q.transformed = false → Tidy q.shape) →
      ∃ added, Csx.parsePrimitives f dirs m ps = some added := by
    intro m ps
    induction ps with
    | nil => exact fun _ => ⟨_, rfl⟩
    | cons p rest ih =>
      intro hps
      obtain ⟨others, ho⟩ := ih fun hm q hq => hps hm q (by simp [hq])
      cases m with
      | none => exact ⟨_, by simp only [Csx.parsePrimitives, ho, Option.elim, Option.bind_some]; rfl⟩
      | some k =>
        obtain ⟨l, hl⟩ := one (m := k) (hps (by simp) p (by simp))
        exact ⟨_, by simp only [Csx.parsePrimitives, ho, hl, Option.elim, Option.bind_some]; rfl⟩
  induction props with
  | nil => exact ⟨_, rfl⟩
  | cons p rest ih =>
    obtain ⟨others, ho⟩ := ih fun q hq => h q (by simp [hq])
    obtain ⟨l, hl⟩ := prims (Csx.parseProperty p.kind) p.primitives (h p (by simp))
    exact ⟨_, by simp only [Csx.parseProperties, ho, hl, Option.bind_some]; rfl⟩

/-- What C111 tells of a document of shapes along the axes, with the run that made the lines. -/
theorem program_squared {w : World} (hw : w.Exact) {o : Options} {files : String → Option (List Node)} {doc : List Node}
    (hdoc : files o.input = some doc) (hfree : o.force = true ∨ files o.target = none) {csx : Node} {props : List Property}
    {k : Option PropertyKind} {lines : List Csx.Added} (h : Describes w.codec o.flags doc csx props k lines)
    (hshapes : ∀ p ∈ props, Csx.parseProperty p.kind ≠ none → ∀ q ∈ p.primitives, q.transformed = false → Tidy q.shape)
    (hg : (meshParams (decided w o doc).1).InRange) (hl : 0 ≤ (decided w o doc).1.proximityLimit) :
    ∃ shapes files' doc' csx', Csx.parseProperties o.flags w.dirs props = some shapes ∧
      program w o files = .ok (true, files') ∧ files' o.target = some doc' ∧ StructureOf doc' csx' ∧
      ∀ axis, ∃ a : Mesh.Axis,
        let added := lines ++ shapes ++ (decided w o doc).2.map fun l => .line l.1 l.2
        let g := meshParams (decided w o doc).1
        (∃ D E, buildDesign w.angle (k.bind Csx.parseProperty) added = some D ∧
          runDesign w.sorters w.sort g (zoneParams (decided w o doc).1) D axis = .ok (E, a) ∧ a.Drawn g.proximityLimit (g.dmax / 2) ∧
          Squared (pieces added)) ∧
        (o.writes axis = true → ∃ xs, Listed csx'.children ["RectilinearGrid", linesName axis] 1 xs ∧
          List.Forall₂ (fun c x => |x - c| ≤ 1 / 2000000) (a.outputLines o.withLines o.withPolicies) xs ∧
          (o.withLines = true → o.withPolicies = false → xs.Pairwise (· ≤ ·) ∧ GapsAtMost (g.dmax + 1 / 1000000) xs)) ∧
        Increasing a.meshlines ∧ GapsAtMost g.dmax a.meshlines ∧
        (∀ y ∈ a.meshlines, ∃ lo hi, StandsOut added axis lo ∧ StandsOut added axis hi ∧ lo ≤ y ∧ y ≤ hi) ∧
        (∀ c, .line axis c ∈ added → Reached g a c) ∧
        ∀ (i : Nat) (x : Piece), (pieces added)[i]? = some x → ∀ k < x.points.length, ∀ c, StandsAt x.plane (sideAt x.points k) axis c →
          Reached g a c ∨ HiddenBy (pieces added) i x (sideAt x.points k) := by
  obtain ⟨shapes, hsh⟩ := parse_tidy (f := o.flags) (dirs := w.dirs) hshapes
  obtain ⟨reading, has, hread, hover⟩ := reading_of h hsh
  set added := lines ++ shapes ++ (decided w o doc).2.map fun l => Csx.Added.line l.1 l.2 with hadded
  have hlines : ∀ x ∈ lines, ∃ axis c, x = .line axis c := by
    obtain ⟨sx, sy, sz, gx, gy, gz, -, -, rfl⟩ := h.lines
    intro x hx
    rcases List.mem_append.1 hx with hx | hx
    · exact asAdded_lines x hx
    · exact asAdded_lines x hx
  have hpieces : pieces added = pieces shapes := by
    have e1 := pieces_lines hlines
    have e2 : pieces ((decided w o doc).2.map fun l => Csx.Added.line l.1 l.2) = [] := by
      apply pieces_lines
      intro x hx
      obtain ⟨l, -, rfl⟩ := List.mem_map.1 hx
      exact ⟨_, _, rfl⟩
    unfold pieces at e1 e2 ⊢
    rw [hadded, List.filterMap_append, List.filterMap_append, e1, e2, List.nil_append, List.append_nil]
  have hsq : Squared (pieces added) := hpieces ▸ C109_file hsh hshapes
  have hplan := fun axis => C109_plan w.sorters w.sort (meshParams (decided w o doc).1) hg hl (zoneParams (decided w o doc).1) w.angle
    (k.bind Csx.parseProperty) hsq axis
  choose D E m hD hrun h1 h2 h3 h4 h5 h6 using hplan
  have hDeq : ∀ axis, D axis = D .x := fun axis => Option.some.inj ((hD axis).symm.trans (hD .x))
  have hmesh : meshReading w (override o.overrides reading) = .ok (m .x, m .y, m .z) := by
    rw [hover]
    unfold meshReading
    have hy := hrun .y
    have hz := hrun .z
    rw [hDeq] at hy hz
    have hx := hrun .x
    simp only
    rw [hD .x]
    simp only [Outcome.orUb, Outcome.bind, Outcome.map]
    have gm : meshParams { (decided w o doc).1 with hasGridAlready := has } = meshParams (decided w o doc).1 := rfl
    have gz : zoneParams { (decided w o doc).1 with hasGridAlready := has } = zoneParams (decided w o doc).1 := rfl
    rw [gm, gz, hx, hy, hz]
  have hprog : program w o files = .ok (true, fun path => if path = o.target then
      some (render w o (override o.overrides reading).params (m .x) (m .y) (m .z) doc) else files path) := by
    unfold program
    simp only [final_options, hdoc, hread, Outcome.orUb, Outcome.bind]
    rw [if_neg, hmesh]
    · rfl
    · intro hc
      rcases hfree with hf | hf
      · simp [hf] at hc
      · simp only [hf, Option.isSome_none, Bool.false_or, Bool.and_eq_true, beq_iff_eq] at hc
        rw [← hc.2.1, hdoc] at hf
        cases hf
  obtain ⟨csx', e1, -, -, e4⟩ := rendered hw o (override o.overrides reading).params m h.place
  refine ⟨shapes, _, _, csx', hsh, hprog, if_pos rfl, e1, fun axis => ⟨m axis, ⟨D axis, E axis, hD axis, hrun axis, h3 axis, hsq⟩, fun hwr => ?_, h1 axis, h2 axis, h4 axis, h5 axis, h6 axis⟩⟩
  have := e4 axis
  rw [if_pos hwr] at this
  obtain ⟨xs, x1, x2, x3⟩ := this
  refine ⟨xs, x1, x2, fun hwl hwp => ?_⟩
  have hout : (m axis).outputLines o.withLines o.withPolicies = (m axis).meshlines := by
    simp [Mesh.Axis.outputLines, hwl, hwp]
  rw [hout] at x2 x3
  refine ⟨x3 ?_, ?_⟩
  · exact ((h1 axis).imp fun a b hab => le_of_lt hab).pairwise
  · have := gaps_near x2 (h2 axis)
    norm_num at this ⊢
    exact this

/-- C111. The program, given a document that describes shapes along the axes on a grid of `1 / 2500` and parameters in range, ends without
undefined behaviour, and writes the output if there is no such file yet or it may be overwritten. In the document written, for every axis
that is to be written, the grid lists the lines of the mesh, each up to half a millionth, with gaps of at most `dmax` and a millionth;
the lines of the mesh increase, are between coordinates of sides that stand out and of lines that were asked for by the document or the
command line, and each such line and each side that is not hidden has a policy near it. -/
theorem C111_squared {w : World} (hw : w.Exact) {o : Options} {files : String → Option (List Node)} {doc : List Node}
    (hdoc : files o.input = some doc) (hfree : o.force = true ∨ files o.target = none) {csx : Node} {props : List Property}
    {k : Option PropertyKind} {lines : List Csx.Added} (h : Describes w.codec o.flags doc csx props k lines)
    (hshapes : ∀ p ∈ props, Csx.parseProperty p.kind ≠ none → ∀ q ∈ p.primitives, q.transformed = false → Tidy q.shape)
    (hg : (meshParams (decided w o doc).1).InRange) (hl : 0 ≤ (decided w o doc).1.proximityLimit) :
    ∃ shapes files' doc' csx', Csx.parseProperties o.flags w.dirs props = some shapes ∧
      program w o files = .ok (true, files') ∧ files' o.target = some doc' ∧ StructureOf doc' csx' ∧
      ∀ axis, ∃ a : Mesh.Axis,
        let added := lines ++ shapes ++ (decided w o doc).2.map fun l => .line l.1 l.2
        let g := meshParams (decided w o doc).1
        (o.writes axis = true → ∃ xs, Listed csx'.children ["RectilinearGrid", linesName axis] 1 xs ∧
          List.Forall₂ (fun c x => |x - c| ≤ 1 / 2000000) (a.outputLines o.withLines o.withPolicies) xs ∧
          (o.withLines = true → o.withPolicies = false → xs.Pairwise (· ≤ ·) ∧ GapsAtMost (g.dmax + 1 / 1000000) xs)) ∧
        Increasing a.meshlines ∧ GapsAtMost g.dmax a.meshlines ∧
        (∀ y ∈ a.meshlines, ∃ lo hi, StandsOut added axis lo ∧ StandsOut added axis hi ∧ lo ≤ y ∧ y ≤ hi) ∧
        (∀ c, .line axis c ∈ added → Reached g a c) ∧
        ∀ (i : Nat) (x : Piece), (pieces added)[i]? = some x → ∀ k < x.points.length, ∀ c, StandsAt x.plane (sideAt x.points k) axis c →
          Reached g a c ∨ HiddenBy (pieces added) i x (sideAt x.points k) := by
  obtain ⟨shapes, files', doc', csx', r1, r2, r3, r4, r5⟩ := program_squared hw hdoc hfree h hshapes hg hl
  refine ⟨shapes, files', doc', csx', r1, r2, r3, r4, fun axis => ?_⟩
  obtain ⟨a, -, r6⟩ := r5 axis
  exact ⟨a, r6⟩

/-- Sorting by insertion, no circle, whole numbers in attributes, and zero without sign. -/
def plainWorld : World where
  sorters := plainSorters
  sort := ambientSort
  dirs := []
  angle _ := 0
  codec := Csx.wholeCodec
  signed q := ⟨decide (q < 0), |q|⟩

theorem plainWorld_exact : plainWorld.Exact := by
  intro q
  refine ⟨?_, abs_nonneg q⟩
  by_cases h : q < 0
  · simp [plainWorld, Csx.Signed.value, h, abs_of_neg h]
  · simp [plainWorld, Csx.Signed.value, h, abs_of_nonneg (not_lt.1 h)]

/-- From one file to another, with a distance and a line of the command line, and the lines of the file. -/
def plainOptions : Options where
  input := "in"
  output := "out"
  flags := { keepOld := true }
  overrides := [.dmax 2, .fixed [(.z, 8)]]

/-- A file, and nothing else. -/
def plainFiles (path : String) : Option (List Node) := if path = "in" then some Csx.plainDocument else none

theorem plain_described : Describes plainWorld.codec plainOptions.flags Csx.plainDocument Csx.plainStructure Csx.plainProperties
    (some (.material 1 1 3)) [.line .y 14, .line .x 40, .line .x 120] :=
  ⟨Csx.plain_place, Csx.value_natural.2 rfl, Csx.plain_properties, Csx.plain_background,
    [], [14], [], [40, 120], [], [], Csx.plain_saved, Csx.plain_grid, rfl⟩

theorem plain_tidy : ∀ p ∈ Csx.plainProperties, Csx.parseProperty p.kind ≠ none → ∀ q ∈ p.primitives, q.transformed = false →
    Tidy q.shape := by
  have c : ∀ n : ℤ, Coarse n := fun n => ⟨2500 * n, by push_cast; ring⟩
  have n0 : Coarse 0 := by exact_mod_cast c 0
  have n1 : Coarse 1 := by exact_mod_cast c 1
  have n2 : Coarse 2 := by exact_mod_cast c 2
  have n3 : Coarse 3 := by exact_mod_cast c 3
  have n4 : Coarse 4 := by exact_mod_cast c 4
  have n5 : Coarse 5 := by exact_mod_cast c 5
  have n6 : Coarse 6 := by exact_mod_cast c 6
  intro p hp _ q hq ht
  fin_cases hp <;> fin_cases hq
  · refine ⟨by decide +kernel, ?_, ?_, n1, n3⟩
    · intro p hp
      simp only [List.mem_cons, List.not_mem_nil, or_false] at hp
      rcases hp with rfl | rfl | rfl | rfl
      · exact coarse_mk n0 n0
      · exact coarse_mk n4 n0
      · exact coarse_mk n4 n6
      · exact coarse_mk n0 n6
    · unfold Rectilinear
      decide +kernel
  · exact ⟨⟨n1, n2, n3⟩, ⟨n5, n6, n0⟩⟩
  · simp at ht

/-- A document, a free output, parameters in range: the program writes the other file. -/
example : plainWorld.Exact ∧ plainFiles plainOptions.input = some Csx.plainDocument ∧ plainFiles plainOptions.target = none ∧
    (meshParams (decided plainWorld plainOptions Csx.plainDocument).1).InRange ∧
    0 ≤ (decided plainWorld plainOptions Csx.plainDocument).1.proximityLimit ∧
    ∃ files', program plainWorld plainOptions plainFiles = .ok (true, files') := by
  have hp : (meshParams (decided plainWorld plainOptions Csx.plainDocument).1).InRange := ⟨by decide +kernel, by decide +kernel⟩
  have hl : 0 ≤ (decided plainWorld plainOptions Csx.plainDocument).1.proximityLimit := by decide +kernel
  refine ⟨plainWorld_exact, rfl, rfl, hp, hl, ?_⟩
  obtain ⟨-, files', -, -, -, h, -⟩ := C111_squared plainWorld_exact (o := plainOptions) (files := plainFiles) rfl (Or.inr rfl)
    plain_described plain_tidy hp hl
  exact ⟨files', h⟩

end Verif.Board
