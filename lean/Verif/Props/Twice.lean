import Verif.Props.Program

/-!
# C112: the program run again on what it wrote
-/

namespace Verif.Csx
open Spec
open Verif.Geom (Point)

/-! ## Writing twice -/

theorem onAppended_twice {name : String} {f : Node → Node} (hf : ∀ n : Node, (f n).name = n.name) (l : List Node) :
    onAppended name f (onAppended name f l) = onAppended name (fun n => f (f n)) l := by
  induction l with
  | nil =>
    have h : (f (.mk name [] [] [])).name = name := hf _
    simp [onAppended, h]
  | cons c l ih =>
    by_cases h : c.name = name
    · simp [onAppended, h, hf]
    · simp [onAppended, h, ih]

theorem onChild_twice {name : String} {f : Node → Node} (hf : ∀ n : Node, (f n).name = n.name) (n : Node) :
    Node.onChild name f (Node.onChild name f n) = Node.onChild name (fun n => f (f n)) n := by
  obtain ⟨m, a, t, c⟩ := n
  simp only [Node.onChild, onAppended_twice hf]

theorem onAppended_any {name other : String} (hne : other ≠ name) {f : Node → Node} (hf : ∀ n : Node, (f n).name = n.name)
    (l : List Node) : ((onAppended name f l).any fun c => c.name == other) = l.any fun c => c.name == other := by
  induction l with
  | nil =>
    have h : (f (.mk name [] [] [])).name = name := hf _
    simp [onAppended, h, Ne.symm hne]
  | cons c l ih =>
    by_cases h : c.name = name
    · simp [onAppended, h, hf]
    · simp only [onAppended, h, if_false, List.any_cons, ih]

theorem onAppended_any_same {name : String} {f : Node → Node} (hf : ∀ n : Node, (f n).name = n.name)
    (l : List Node) : ((onAppended name f l).any fun c => c.name == name) = true := by
  induction l with
  | nil =>
    have h : (f (.mk name [] [] [])).name = name := hf _
    simp [onAppended, h]
  | cons c l ih =>
    by_cases h : c.name = name
    · simp [onAppended, h, hf]
    · simp only [onAppended, h, if_false, List.any_cons, ih, Bool.or_true]

theorem grid_twice (o : Output) (n : Node) : writeGridNode o (writeGridNode o n) = writeGridNode o n := by cases n; rfl

theorem writeStructure_twice (o : Output) (doc : List Node) : writeStructure o (writeStructure o doc) = writeStructure o doc := by
  have hg := writeGridNode_name o
  have hc := onChild_name "RectilinearGrid" (writeGridNode o)
  have ho := onChild_name "ContinuousStructure" (Node.onChild "RectilinearGrid" (writeGridNode o))
  have key : ∀ n, Node.onChild "RectilinearGrid" (writeGridNode o) (Node.onChild "RectilinearGrid" (writeGridNode o) n) =
      Node.onChild "RectilinearGrid" (writeGridNode o) n := by
    intro n
    rw [onChild_twice hg]
    simp only [grid_twice]
    
  unfold writeStructure
  by_cases h : (doc.any fun c => c.name == "ContinuousStructure") = true
  · rw [if_pos h, if_pos (onAppended_any_same hc doc), onAppended_twice hc]
    simp only [key]
  · rw [if_neg h, if_neg (by rw [onAppended_any (by decide) ho]; exact h), onAppended_twice ho]
    simp only [onChild_twice hc, key]

theorem onAppended_comm {a b : String} (hne : a ≠ b) {f h : Node → Node} (hf : ∀ n : Node, (f n).name = n.name)
    (hh : ∀ n : Node, (h n).name = n.name) {l : List Node} (hb : (l.any fun c => c.name == b) = true) :
    onAppended a f (onAppended b h l) = onAppended b h (onAppended a f l) := by
  induction l with
  | nil => simp at hb
  | cons c l ih =>
    by_cases hca : c.name = a
    · have hcb : c.name ≠ b := fun e => hne (hca.symm.trans e)
      simp [onAppended, hca, hne, hf]
    · by_cases hcb : c.name = b
      · have : b ≠ a := Ne.symm hne
        simp [onAppended, hcb, hh, this]
      · have hb' : (l.any fun c => c.name == b) = true := by simpa [hcb] using hb
        simp [onAppended, hca, hcb, ih hb']

theorem onPrepended_comm {a b : String} (hne : a ≠ b) {f h : Node → Node} (hf : ∀ n : Node, (f n).name = n.name)
    (hh : ∀ n : Node, (h n).name = n.name) (l : List Node) :
    onAppended a f (onPrepended b h l) = onPrepended b h (onAppended a f l) := by
  unfold onPrepended
  rw [onAppended_any (Ne.symm hne) hf]
  by_cases hb : (l.any fun c => c.name == b) = true
  · rw [if_pos hb, if_pos hb, onAppended_comm hne hf hh hb]
  · rw [if_neg hb, if_neg hb]
    have : (h (.mk b [] [] [])).name = b := hh _
    have hba : b ≠ a := Ne.symm hne
    simp [onAppended, this, hba]

theorem removeFirst_comm {a b : String} (hne : a ≠ b) {f : Node → Node} (hf : ∀ n : Node, (f n).name = n.name) (l : List Node) :
    onAppended a f (removeFirst b l) = removeFirst b (onAppended a f l) := by
  induction l with
  | nil =>
    have : (f (.mk a [] [] [])).name = a := hf _
    simp [onAppended, removeFirst, this, hne]
  | cons c l ih =>
    by_cases hca : c.name = a
    · have hcb : c.name ≠ b := fun e => hne (hca.symm.trans e)
      simp [onAppended, removeFirst, hca, hne, hf]
    · by_cases hcb : c.name = b
      · have : b ≠ a := Ne.symm hne
        simp [onAppended, removeFirst, hcb, this]
      · simp [onAppended, removeFirst, hca, hcb, ih]

theorem removeFirst_any {name other : String} (hne : other ≠ name) (l : List Node) :
    ((removeFirst name l).any fun c => c.name == other) = l.any fun c => c.name == other := by
  induction l with
  | nil => rfl
  | cons c l ih =>
    by_cases h : c.name = name
    · simp [removeFirst, h, Ne.symm hne]
    · simp only [removeFirst, h, if_false, List.any_cons, ih]

theorem onPrepended_any {name other : String} (hne : other ≠ name) {f : Node → Node} (hf : ∀ n : Node, (f n).name = n.name)
    (l : List Node) : ((onPrepended name f l).any fun c => c.name == other) = l.any fun c => c.name == other := by
  unfold onPrepended
  split_ifs
  · exact onAppended_any hne hf l
  · have h : (f (.mk name [] [] [])).name = name := hf _
    simp [h, Ne.symm hne]

theorem onPrepended_twice {name : String} {f : Node → Node} (hf : ∀ n : Node, (f n).name = n.name) (hff : ∀ n, f (f n) = f n)
    (l : List Node) : onPrepended name f (onPrepended name f l) = onPrepended name f l := by
  have h : (f (.mk name [] [] [])).name = name := hf _
  unfold onPrepended
  by_cases hl : (l.any fun c => c.name == name) = true
  · rw [if_pos hl, if_pos (onAppended_any_same hf l), onAppended_twice hf]
    simp only [hff]
  · rw [if_neg hl]
    simp [onAppended, h, hff]

theorem removeFirst_lacks {l : List Node} {name : String} (h : Lacks l name) : removeFirst name l = l := by
  induction l with
  | nil => rfl
  | cons c l ih =>
    have hc : c.name ≠ name := h c (by simp)
    rw [removeFirst, if_neg hc, ih fun n hn => h n (List.mem_cons_of_mem _ hn)]

theorem atMostOne_appended {l : List Node} {a b : String} (hne : b ≠ a) {f : Node → Node} (hf : ∀ n : Node, (f n).name = n.name)
    (h : AtMostOne l b) : Lacks (removeFirst b (onAppended a f l)) b := by
  induction l with
  | nil =>
    have h : (f (.mk a [] [] [])).name = a := hf _
    intro n hn
    simp only [onAppended, removeFirst, h, if_neg (Ne.symm hne), List.mem_singleton] at hn
    rw [hn, h]; exact Ne.symm hne
  | cons c l ih =>
    have hl : AtMostOne l b := fun pre n post e => h (c :: pre) n post (by rw [e]; rfl)
    by_cases hcb : c.name = b
    · have hca : c.name ≠ a := fun e => hne (hcb.symm.trans e)
      have hlack : Lacks l b := h [] c l rfl hcb
      simp only [onAppended, if_neg hca, removeFirst, if_pos hcb]
      rw [← child_lacks, child_onAppended_other hne hf, child_lacks]
      exact hlack
    · by_cases hca : c.name = a
      · have hfa : (f c).name = a := by rw [hf, hca]
        simp only [onAppended, if_pos hca, removeFirst, hfa, if_neg (Ne.symm hne)]
        intro n hn
        rcases List.mem_cons.1 hn with rfl | hn
        · rw [hfa]; exact Ne.symm hne
        · -- the rest is not changed
          have : ∀ {l : List Node}, AtMostOne l b → Lacks (removeFirst b l) b := by
            intro l hl
            induction l with
            | nil => intro n hn; simp [removeFirst] at hn
            | cons d l ih =>
              by_cases hd : d.name = b
              · rw [removeFirst, if_pos hd]
                exact hl [] d l rfl hd
              · rw [removeFirst, if_neg hd]
                intro n hn
                rcases List.mem_cons.1 hn with rfl | hn
                · exact hd
                · exact ih (fun pre n post e => hl (d :: pre) n post (by rw [e]; rfl)) n hn
          exact this hl n hn
      · simp only [onAppended, if_neg hca, removeFirst, if_neg hcb]
        intro n hn
        rcases List.mem_cons.1 hn with rfl | hn
        · exact hcb
        · exact ih hl n hn

theorem setAttrs_twice (codec : Codec) (p : Params) (n : Node) :
    Node.onChild "GlobalParams" (setAttrs (savedAttrs codec p)) (Node.onChild "GlobalParams" (setAttrs (savedAttrs codec p)) n) =
      Node.onChild "GlobalParams" (setAttrs (savedAttrs codec p)) n := by
  rw [onChild_twice (setAttrs_name _)]
  congr 1
  funext n
  cases n
  rfl

/-- Writing the same lines and parameters a second time changes nothing. -/
theorem writeDocument_twice (codec : Codec) (o : Output) (p : Params) {doc : List Node}
    (h : o.withParams = true ∨ AtMostOne doc "OpenEMSH") :
    writeDocument codec o p (writeDocument codec o p doc) = writeDocument codec o p doc := by
  have hc := onChild_name "RectilinearGrid" (writeGridNode o)
  have ho := onChild_name "ContinuousStructure" (Node.onChild "RectilinearGrid" (writeGridNode o))
  have hp := onChild_name "GlobalParams" (setAttrs (savedAttrs codec p))
  have comm1 : ∀ l, writeStructure o (onPrepended "OpenEMSH" (Node.onChild "GlobalParams" (setAttrs (savedAttrs codec p))) l) =
      onPrepended "OpenEMSH" (Node.onChild "GlobalParams" (setAttrs (savedAttrs codec p))) (writeStructure o l) := by
    intro l
    unfold writeStructure
    rw [onPrepended_any (by decide) hp]
    split_ifs
    · exact onPrepended_comm (by decide) hc hp l
    · exact onPrepended_comm (by decide) ho hp l
  have comm2 : ∀ l, writeStructure o (removeFirst "OpenEMSH" l) = removeFirst "OpenEMSH" (writeStructure o l) := by
    intro l
    unfold writeStructure
    rw [removeFirst_any (by decide)]
    split_ifs
    · exact removeFirst_comm (by decide) hc l
    · exact removeFirst_comm (by decide) ho l
  unfold writeDocument
  by_cases hw : o.withParams = true
  · rw [if_pos hw, if_pos hw, comm1, writeStructure_twice, onPrepended_twice hp (setAttrs_twice codec p)]
  · rw [if_neg hw, if_neg hw, comm2, writeStructure_twice]
    have h := h.resolve_left hw
    refine removeFirst_lacks ?_
    unfold writeStructure
    split_ifs
    · exact atMostOne_appended (by decide) hc h
    · exact atMostOne_appended (by decide) ho h

/-! ## Reading what was written -/

theorem getD_again {α : Type} {o : Option α} {x y : α} (h : y = o.getD x ∨ y = x) : o.getD y = o.getD x := by
  cases o <;> simp_all

/-- Overrides decide the same from the parameters they decided. -/
theorem overrides_twice (l : List Override) {p q : Params}
    (h1 : q.proximityLimit = (l.foldl Override.apply p).proximityLimit ∨ q.proximityLimit = p.proximityLimit)
    (h2 : q.smoothness = (l.foldl Override.apply p).smoothness ∨ q.smoothness = p.smoothness)
    (h3 : q.dmax = (l.foldl Override.apply p).dmax ∨ q.dmax = p.dmax)
    (h4 : q.lmin = (l.foldl Override.apply p).lmin ∨ q.lmin = p.lmin)
    (h5 : q.diagonalLmin = p.diagonalLmin) (h6 : q.diagonalDmax = p.diagonalDmax) (h7 : q.minimalAngle = p.minimalAngle)
    (h8 : q.fixed = p.fixed) (b : Bool) :
    { l.foldl Override.apply q with hasGridAlready := b } = { l.foldl Override.apply p with hasGridAlready := b } := by
  have f1 := foldl_apply (·.proximityLimit) (fun | .proximityLimit v => some v | _ => none) (by intro p o; cases o <;> rfl) l
  have f2 := foldl_apply (·.smoothness) (fun | .smoothness v => some v | _ => none) (by intro p o; cases o <;> rfl) l
  have f3 := foldl_apply (·.dmax) (fun | .dmax v => some v | _ => none) (by intro p o; cases o <;> rfl) l
  have f4 := foldl_apply (·.lmin) (fun | .lmin v => some v | _ => none) (by intro p o; cases o <;> rfl) l
  have f5 := foldl_apply (·.diagonalLmin) (fun | .diagonalLmin v => some v | _ => none) (by intro p o; cases o <;> rfl) l
  have f6 := foldl_apply (·.diagonalDmax) (fun | .diagonalDmax v => some v | _ => none) (by intro p o; cases o <;> rfl) l
  have f7 := foldl_apply (·.minimalAngle) (fun | .minimalAngle v => some v | _ => none) (by intro p o; cases o <;> rfl) l
  have f8 := foldl_apply (·.fixed) (fun | .fixed v => some v | _ => none) (by intro p o; cases o <;> rfl) l
  rw [f1 p] at h1
  rw [f2 p] at h2
  rw [f3 p] at h3
  rw [f4 p] at h4
  rw [Params.mk.injEq]
  refine ⟨rfl, ?_, ?_, ?_, ?_, ?_, ?_, ?_, ?_⟩
  · rw [f1 q, f1 p, getD_again h1]
  · rw [f2 q, f2 p, getD_again h2]
  · rw [f4 q, f4 p, getD_again h4]
  · rw [f3 q, f3 p, getD_again h3]
  · rw [f5 q, f5 p, h5]
  · rw [f6 q, f6 p, h6]
  · rw [f7 q, f7 p, h7]
  · rw [f8 q, f8 p, h8]

theorem saved_kept (codec : Codec) (o : Output) (p : Params) {doc : List Node}
    (h : o.withParams = true ∨ Lacks doc "OpenEMSH") :
    readSaved (select (writeDocument codec o p doc) ["OpenEMSH"]).head? = readSaved (select doc ["OpenEMSH"]).head? := by
  have hc := onChild_name "RectilinearGrid" (writeGridNode o)
  have ho := onChild_name "ContinuousStructure" (Node.onChild "RectilinearGrid" (writeGridNode o))
  have hp := onChild_name "GlobalParams" (setAttrs (savedAttrs codec p))
  have hs : child (writeStructure o doc) "OpenEMSH" = child doc "OpenEMSH" := by
    unfold writeStructure
    split_ifs
    · exact child_onAppended_other (by decide) hc _
    · exact child_onAppended_other (by decide) ho _
  rw [select_head, select_head]
  unfold writeDocument
  by_cases hw : o.withParams = true
  · rw [if_pos hw, child_onPrepended_same hp, hs]
    have key : ∀ n : Node, child (Node.onChild "GlobalParams" (setAttrs (savedAttrs codec p)) n).children "FixedMeshlines" =
        child n.children "FixedMeshlines" := by
      intro n
      rw [onChild_children, child_onAppended_other (by decide) (setAttrs_name _)]
    unfold readSaved
    simp only [Option.bind_some, key]
    cases child doc "OpenEMSH" with
    | some n => rfl
    | none => rfl
  · have h := h.resolve_left hw
    have : child (removeFirst "OpenEMSH" (writeStructure o doc)) "OpenEMSH" = child doc "OpenEMSH" := by
      rw [removeFirst_lacks, hs]
      rw [← child_lacks, hs, child_lacks]
      exact h
    rw [if_neg hw, this]

/-- What was written is read as what it was written from, but for the parameters. -/
theorem reading_written {codec : Codec} {f : Flags} {dirs : List Point} {doc : List Node} {csx : Node} {props : List Property}
    (hs : StructureOf doc csx) (hp : PropertiesOf codec csx props) (hk : f.keepOld = false) (o : Output) (p : Params)
    (hsaved : f.readParams = true → o.withParams = true ∨ Lacks doc "OpenEMSH") {r : Reading}
    (h : readDocument codec f dirs doc = some (some r)) :
    ∃ has has', r.params = { readParams codec f.readParams doc with hasGridAlready := has } ∧
      readDocument codec f dirs (writeDocument codec o p doc) = some (some { r with
        params := { readParams codec f.readParams (writeDocument codec o p doc) with hasGridAlready := has' } }) := by
  have hs' := structure_written codec o p hs
  have hkept := structure_kept o csx
  set csx' := Node.onChild "RectilinearGrid" (writeGridNode o) csx
  have hp' : PropertiesOf codec csx' props := (properties_congr (hkept.2 _ (by decide))).2 hp
  have hb : readBackground codec csx' = readBackground codec csx := by
    unfold readBackground
    rw [hkept.2 _ (by decide)]
  have hsv : (if f.readParams then readSaved (select (writeDocument codec o p doc) ["OpenEMSH"]).head? else some []) =
      if f.readParams then readSaved (select doc ["OpenEMSH"]).head? else some [] := by
    cases hr : f.readParams with
    | false => rfl
    | true => exact saved_kept codec o p (hsaved hr)
  unfold readDocument at h ⊢
  rw [hsv]
  cases hv : (if f.readParams then readSaved (select doc ["OpenEMSH"]).head? else some []) with
  | none => rw [hv] at h; simp at h
  | some saved =>
    rw [hv] at h
    simp only [structure_read hs, hk, properties_read hs hp] at h
    simp only [structure_read hs', hk, properties_read hs' hp']
    have hco : (gridNode csx').coordSystem = (gridNode csx).coordSystem := hkept.1 _
    unfold parseGrid at h ⊢
    simp only [hco]
    by_cases hz : ((gridNode csx).coordSystem.map asUint).getD 0 = 0
    · simp only [if_pos hz, Bool.false_eq_true, if_false] at h ⊢
      cases hsh : parseProperties f dirs props with
      | none => rw [hsh] at h; simp at h
      | some shapes =>
        rw [hsh] at h
        simp only [Option.map_some, Option.some.injEq] at h ⊢
        subst h
        rw [hb]
        exact ⟨_, _, rfl, rfl⟩
    · simp [if_neg hz] at h

end Verif.Csx

namespace Verif.Board
open Verif.Geom Verif.Csx.Spec
open Verif.Csx (Codec Node Signed Override Reading Property PropertyKind)
open Verif.Mesh (MeshParams tolerance)

theorem program_done {w : World} {o : Options} {files : String → Option (List Node)} {doc : List Node}
    (hdoc : files o.input = some doc) (hfree : o.force = true ∨ files o.target = none) {reading : Reading}
    (hread : Csx.readDocument w.codec o.flags w.dirs doc = some (some reading)) {m : Mesh.Axis × Mesh.Axis × Mesh.Axis}
    (hmesh : meshReading w (override o.overrides reading) = .ok m) :
    program w o files = .ok (true, fun path => if path = o.target then
      some (render w o (override o.overrides reading).params m.1 m.2.1 m.2.2 doc) else files path) := by
  unfold program
  simp only [final_options, hdoc, hread, Outcome.orUb, Outcome.bind]
  rw [if_neg, hmesh]
  · rfl
  · intro hc
    rcases hfree with hf | hf
    · simp [hf] at hc
    · simp only [hf, Option.isSome_none, Bool.false_or, Bool.and_eq_true, beq_iff_eq] at hc
      rw [← hc.2.1, hdoc] at hf
      cases hf

/-- C112. The program run again on the document it wrote, with the same options, writes the same document, unless it keeps the lines of
the grid, or it reads saved parameters and does not save them. -/
theorem C112_partial {w : World} {o : Options} {files files' : String → Option (List Node)}
    (h : program w o files = .ok (true, files')) {doc : List Node} (hdoc : files o.input = some doc) {csx : Node}
    (hs : StructureOf doc csx) {props : List Property} (hp : PropertiesOf w.codec csx props) (hk : o.flags.keepOld = false)
    (hsave : if o.withParams then
        o.flags.readParams = true → (decided w o doc).1.lmin < 2 ^ 32 ∧
          let same (x : ℚ) := w.codec.read (w.codec.write x) = x
          same (decided w o doc).1.proximityLimit ∧ same (decided w o doc).1.smoothness ∧ same (decided w o doc).1.dmax
      else AtMostOne doc "OpenEMSH" ∧ (o.flags.readParams = true → Lacks doc "OpenEMSH"))
    {next : String} (hnext : next ≠ "") (hfree : o.force = true ∨ files' next = none) :
    ∃ files'', program w { o with input := o.target, output := next } files' = .ok (true, files'') ∧
      files'' next = files' o.target := by
  rcases program_cases h with ⟨h, -⟩ | ⟨doc0, r, m, -, h1, h2, h3, h4, rfl⟩
  · cases h
  rw [hdoc] at h1
  obtain rfl := Option.some.inj h1
  set out : Csx.Output := { withX := o.withX, withY := o.withY, withZ := o.withZ, withParams := o.withParams
                            x := linesText w o m.1, y := linesText w o m.2.1, z := linesText w o m.2.2 } with hout
  have hrender : ∀ p, render w o p m.1 m.2.1 m.2.2 doc = Csx.writeDocument w.codec out p doc := fun _ => rfl
  set p := (override o.overrides r).params with hpar
  obtain ⟨has, has', e1, e2⟩ := Csx.reading_written hs hp hk out p (fun hr => by
    by_cases hw : o.withParams = true
    · exact Or.inl hw
    · rw [if_neg hw] at hsave; exact Or.inr (hsave.2 hr)) h2
  set doc' := Csx.writeDocument w.codec out p doc with hdoc'
  -- the parameters
  have hpd : p = { (decided w o doc).1 with hasGridAlready := has } := by
    rw [hpar]
    unfold override decided Csx.runParams
    simp only [e1, Csx.foldl_hasGrid]
  have hfold : ∀ b, { o.overrides.foldl Csx.Override.apply (Csx.readParams w.codec o.flags.readParams doc') with hasGridAlready := b } =
      { o.overrides.foldl Csx.Override.apply (Csx.readParams w.codec o.flags.readParams doc) with hasGridAlready := b } := by
    intro b
    cases hr : o.flags.readParams with
    | false => rfl
    | true =>
      by_cases hw : o.withParams = true
      · rw [if_pos hw] at hsave
        obtain ⟨s1, s2, s3, s4⟩ := hsave hr
        have d : ∀ {α : Type} (get : Csx.Params → α), (∀ q b, get { q with hasGridAlready := b } = get q) →
            get p = get (decided w o doc).1 := by
          intro α get hg
          rw [hpd, hg]
        have d0 : ∀ {α : Type} (get : Csx.Params → α), (∀ q, get { q with fixed := [] } = get q) →
            get (decided w o doc).1 = get (o.overrides.foldl Csx.Override.apply (Csx.readParams w.codec true doc)) := by
          intro α get hg
          unfold decided Csx.runParams
          rw [hr]
          exact hg _
        have c := Csx.C47_partial w.codec out hw p doc (by rw [d (·.proximityLimit) fun _ _ => rfl]; exact s2)
          (by rw [d (·.smoothness) fun _ _ => rfl]; exact s3) (by rw [d (·.dmax) fun _ _ => rfl]; exact s4)
          (by rw [d (·.lmin) fun _ _ => rfl]; exact s1)
        simp only [← hdoc'] at c
        obtain ⟨c1, c2, c3, c4⟩ := c
        refine Csx.overrides_twice _ (Or.inl ?_) (Or.inl ?_) (Or.inl ?_) (Or.inl ?_) ?_ ?_ ?_ ?_ b
        · rw [c1, d (·.proximityLimit) fun _ _ => rfl, d0 (·.proximityLimit) fun _ => rfl]
        · rw [c2, d (·.smoothness) fun _ _ => rfl, d0 (·.smoothness) fun _ => rfl]
        · rw [c3, d (·.dmax) fun _ _ => rfl, d0 (·.dmax) fun _ => rfl]
        · rw [c4, d (·.lmin) fun _ _ => rfl, d0 (·.lmin) fun _ => rfl]
        all_goals simp only [Csx.readParams_eq]
      · rw [if_neg hw] at hsave
        have hl := hsave.2 hr
        have hcd : Csx.child doc "OpenEMSH" = none := Csx.child_lacks.2 hl
        have hcd' : Csx.child doc' "OpenEMSH" = none := by
          have hs0 : Csx.child (Csx.writeStructure out doc) "OpenEMSH" = none := by
            unfold Csx.writeStructure
            split_ifs
            · rw [Csx.child_onAppended_other (by decide) (Csx.onChild_name _ _), hcd]
            · rw [Csx.child_onAppended_other (by decide) (Csx.onChild_name _ _), hcd]
          rw [hdoc', Csx.writeDocument, if_neg hw, Csx.removeFirst_lacks (Csx.child_lacks.1 hs0), hs0]
        have : Csx.readParams w.codec true doc' = Csx.readParams w.codec true doc := by
          rw [Csx.readParams_eq, Csx.readParams_eq]
          unfold Csx.fileValue
          rw [hcd, hcd']
        rw [this]
  have hover : ∃ b, override o.overrides { r with
      params := { Csx.readParams w.codec o.flags.readParams doc' with hasGridAlready := has' } } =
      { override o.overrides r with params := { p with hasGridAlready := b } } := by
    refine ⟨has', ?_⟩
    have e := hfold has'
    rw [hpar]
    unfold override
    simp only [e1, Csx.foldl_hasGrid, e]
  obtain ⟨b, hover⟩ := hover
  have hmesh : meshReading w (override o.overrides { r with
      params := { Csx.readParams w.codec o.flags.readParams doc' with hasGridAlready := has' } }) = .ok m := by
    rw [hover, ← h4]
    rfl
  have ht : ({ o with input := o.target, output := next } : Options).target = next := if_neg hnext
  have hrun := program_done (w := w) (o := { o with input := o.target, output := next }) (files := fun path =>
    if path = o.target then some (render w o p m.1 m.2.1 m.2.2 doc) else files path) (doc := doc') (if_pos rfl)
    (by rw [ht]; exact hfree) e2 hmesh
  refine ⟨_, hrun, ?_⟩
  simp only [ht, if_true]
  rw [hover]
  exact congrArg some (Csx.writeDocument_twice w.codec out p (doc := doc) (by
    by_cases hw : o.withParams = true
    · exact Or.inl hw
    · rw [if_neg hw] at hsave; exact Or.inr hsave.1))

/-- As `plainOptions`, saving parameters and leaving the old grid. -/
def savingOptions : Options := { plainOptions with flags := {}, withParams := true }

/-- The document has lines and parameters saved; they are saved again. -/
example : ∃ files', program plainWorld savingOptions plainFiles = .ok (true, files') ∧ savingOptions.flags.readParams = true ∧
    (decided plainWorld savingOptions Csx.plainDocument).1.lmin < 2 ^ 32 ∧
    (∀ x ∈ [(decided plainWorld savingOptions Csx.plainDocument).1.proximityLimit,
      (decided plainWorld savingOptions Csx.plainDocument).1.smoothness,
      (decided plainWorld savingOptions Csx.plainDocument).1.dmax], plainWorld.codec.read (plainWorld.codec.write x) = x) ∧ files' "again" = none := by
  have hp : (meshParams (decided plainWorld savingOptions Csx.plainDocument).1).InRange := ⟨by decide +kernel, by decide +kernel⟩
  have hl : 0 ≤ (decided plainWorld savingOptions Csx.plainDocument).1.proximityLimit := by decide +kernel
  obtain ⟨-, files', -, -, -, h, -⟩ := C111_squared plainWorld_exact (o := savingOptions) (files := plainFiles) rfl (Or.inr rfl)
    (k := some (.material 1 1 3)) (lines := [.line .y 14]) ⟨Csx.plain_place, Csx.value_natural.2 rfl, Csx.plain_properties,
      Csx.plain_background, [], [14], [], [], [], [], Csx.plain_saved, ⟨rfl, rfl, rfl⟩, rfl⟩ plain_tidy hp hl
  refine ⟨files', h, rfl, by decide +kernel, by decide +kernel, ?_⟩
  rw [(C111_files h).2.1 "again" (by decide +kernel)]
  rfl

/-- Two lines saved, and no shape. -/
def keptStructure : Node := .mk "ContinuousStructure" [] [] [.mk "Properties" [] [] []]

/-- Its document. -/
def keptDocument : List Node :=
  [.mk "OpenEMSH" [] [] [.mk "FixedMeshlines" [] [] [.mk "XLines" [] ['3', ',', '3', '0'] []]], keptStructure]

/-- The file, and nothing else. -/
def keptFiles (path : String) : Option (List Node) := if path = "in" then some keptDocument else none

/-- No merging of lines; the rest as it is by default. -/
def keptOptions : Options where
  input := "in"
  output := "out"
  overrides := [.proximityLimit 0]

/-- C112 fails when saved lines are read and not saved again: the first run writes a grid, the second run, on what the first wrote, writes
none, as the lines saved are not there any more. -/
theorem C112_false : ∃ (w : World) (o : Options) (files files1 files2 : String → Option (List Node)) (next : String),
    w.Exact ∧ o.flags.keepOld = false ∧ next ≠ "" ∧ program w o files = .ok (true, files1) ∧
      program w { o with input := o.target, output := next } files1 = .ok (true, files2) ∧
      (∃ doc csx xs, files1 o.target = some doc ∧ StructureOf doc csx ∧ Listed csx.children ["RectilinearGrid", "XLines"] 1 xs ∧ xs ≠ []) ∧
      (∃ doc csx, files2 next = some doc ∧ StructureOf doc csx ∧ Listed csx.children ["RectilinearGrid", "XLines"] 1 []) ∧
      files2 next ≠ files1 o.target := by
  have hdesc : Describes plainWorld.codec keptOptions.flags keptDocument keptStructure [] none [.line .x 3, .line .x 30] := by
    refine ⟨Or.inl ⟨Csx.child_iff.1 rfl, by simp [keptDocument, keptStructure, Node.name]⟩, Csx.value_natural.2 rfl,
      ⟨_, Csx.child_iff.1 rfl, .nil⟩, Or.inr ⟨Csx.child_lacks.1 rfl, rfl⟩, [3, 30], [], [], [], [], [], ?_, ⟨rfl, rfl, rfl⟩, rfl⟩
    refine ⟨_, 1, Csx.nodeAt_two.2 rfl, Csx.value_natural.2 rfl, ⟨_, [3, 30], Csx.nodeAt_three.2 rfl, ?_, by norm_num⟩,
      ⟨_, [], Csx.nodeAt_three.2 rfl, .empty, rfl⟩, ⟨_, [], Csx.nodeAt_three.2 rfl, .empty, rfl⟩⟩
    exact NumberList.more (s := ['3']) (t := ['3', '0']) (Csx.numbers_of_digits (by decide +kernel) (by decide) (by decide +kernel))
      (by decide) (.last (Csx.numbers_of_digits (by decide +kernel) (by decide) (by decide +kernel)))
  have hpar : (decided plainWorld keptOptions keptDocument) = ({ proximityLimit := 0 }, []) := by decide +kernel
  obtain ⟨shapes, files1, doc1, csx1, hsh, hrun1, hdoc1, hcsx1, hax⟩ := C111_squared plainWorld_exact (o := keptOptions)
    (files := keptFiles) rfl (Or.inr rfl) hdesc (by simp) (by rw [hpar]; exact ⟨by decide +kernel, by decide +kernel⟩) (by rw [hpar])
  obtain rfl : [] = shapes := by simpa [Csx.parseProperties] using hsh
  obtain ⟨a, h1, h2, h3, h4, h5, h6⟩ := hax .x
  obtain ⟨xs, hx1, hx2, -⟩ := h1 rfl
  rw [hpar] at h5
  have hne : xs ≠ [] := by
    obtain ⟨k, hk, hk1, hk2⟩ := h5 3 (by simp)
    obtain ⟨j, hj, hj1, -⟩ := h5 30 (by simp)
    simp only [meshParams, mul_zero, add_zero] at hk1 hj1
    have hjk : j ≠ k := by
      rintro rfl
      rw [abs_lt] at hk1 hj1
      unfold tolerance at hk1 hj1
      linarith [hk1.1, hk1.2, hj1.1, hj1.2]
    obtain ⟨y, hy, -⟩ := hk2 ⟨j, hjk, hj⟩
    rintro rfl
    have := List.forall₂_nil_right_iff.1 hx2
    have e : a.outputLines keptOptions.withLines keptOptions.withPolicies = a.meshlines := by
      simp [Mesh.Axis.outputLines, keptOptions]
    rw [e] at this
    rw [this] at hy
    simp at hy
  -- the second run
  have hdesc1 : Describes plainWorld.codec keptOptions.flags doc1 csx1 [] none [] ∧ Csx.child doc1 "OpenEMSH" = none := by
    rcases program_cases hrun1 with ⟨h, -⟩ | ⟨doc0, r, m, -, g1, g2, g3, g4, rfl⟩
    · cases h
    have g1 : some keptDocument = some doc0 := g1
    obtain rfl := Option.some.inj g1
    simp only [if_true] at hdoc1
    have hdoc1 := Option.some.inj hdoc1
    have hc : csx1 = Csx.Node.onChild "RectilinearGrid" (Csx.writeGridNode (.mk true true true false
        (linesText plainWorld keptOptions m.1) (linesText plainWorld keptOptions m.2.1) (linesText plainWorld keptOptions m.2.2)))
        keptStructure := by
      have := Csx.structure_read hcsx1
      rw [← hdoc1] at this
      exact (Option.some.inj this).symm
    subst hc
    refine ⟨⟨hcsx1, Csx.value_natural.2 rfl, ⟨_, Csx.child_iff.1 rfl, .nil⟩, Or.inr ⟨Csx.child_lacks.1 rfl, rfl⟩, [], [], [], [], [], [], ?_,
      ⟨rfl, rfl, rfl⟩, rfl⟩, by rw [← hdoc1]; rfl⟩
    rw [← hdoc1]
    exact ⟨none, 1, Csx.nodeAt_two.2 rfl, Csx.value_natural.2 rfl, ⟨none, [], Csx.nodeAt_three.2 rfl, .empty, rfl⟩,
      ⟨none, [], Csx.nodeAt_three.2 rfl, .empty, rfl⟩, ⟨none, [], Csx.nodeAt_three.2 rfl, .empty, rfl⟩⟩
  obtain ⟨hdesc1, hlacks⟩ := hdesc1
  have htarget : keptOptions.target = "out" := rfl
  have hnext : ({ keptOptions with input := keptOptions.target, output := "again" } : Options).target = "again" := rfl
  have hfree : files1 "again" = none := by
    rw [(C111_files hrun1).2.1 "again" (by rw [htarget]; decide)]
    rfl
  have hpar1 : decided plainWorld { keptOptions with input := keptOptions.target, output := "again" } doc1 =
      ({ proximityLimit := 0 }, []) := by
    unfold decided Csx.runParams
    rw [Csx.readParams_eq]
    unfold Csx.fileValue
    rw [hlacks]
    decide +kernel
  obtain ⟨shapes, files2, doc2, csx2, hsh2, hrun2, hdoc2, hcsx2, hax2⟩ := C111_squared plainWorld_exact
    (o := { keptOptions with input := keptOptions.target, output := "again" }) (files := files1) hdoc1 (Or.inr hfree) hdesc1 (by simp)
    (by rw [hpar1]; exact ⟨by decide +kernel, by decide +kernel⟩) (by rw [hpar1])
  obtain rfl : [] = shapes := by simpa [Csx.parseProperties] using hsh2
  obtain ⟨a2, k1, k2, k3, k4, -, -⟩ := hax2 .x
  obtain ⟨xs2, hy1, hy2, -⟩ := k1 rfl
  rw [hpar1] at k4
  have hnil : xs2 = [] := by
    have e : a2.meshlines = [] := by
      rw [List.eq_nil_iff_forall_not_mem]
      intro y hy
      obtain ⟨lo, -, h, -⟩ := k4 y hy
      rcases h with h | ⟨i, x, h, -⟩
      · simp at h
      · simp [Spec.pieces] at h
    have e' : a2.outputLines true false = a2.meshlines := by simp [Mesh.Axis.outputLines]
    have hy2 : List.Forall₂ _ (a2.outputLines true false) xs2 := hy2
    rw [e', e] at hy2
    exact List.forall₂_nil_left_iff.1 hy2
  subst hnil
  refine ⟨plainWorld, keptOptions, keptFiles, files1, files2, "again", plainWorld_exact, rfl, by decide, hrun1, hrun2,
    ⟨doc1, csx1, xs, hdoc1, hcsx1, hx1, hne⟩, ⟨doc2, csx2, hdoc2, hcsx2, hy1⟩, ?_⟩
  intro he
  have hdoc2 : files2 "again" = some doc2 := hdoc2
  rw [hdoc1, hdoc2] at he
  obtain rfl := Option.some.inj he
  have hc := Csx.structure_read hcsx1
  rw [Csx.structure_read hcsx2] at hc
  obtain rfl := Option.some.inj hc
  obtain ⟨r1, l1, n1, t1, rfl⟩ := hx1
  obtain ⟨r2, l2, n2, t2, e2⟩ := hy1
  obtain rfl : l2 = [] := by simpa using e2.symm
  rw [Csx.nodeAt_two] at n1 n2
  rw [← n1, n2] at t1
  obtain ⟨s1, u1, v1⟩ := Csx.C100_read t1
  obtain ⟨s2, u2, v2⟩ := Csx.C100_read t2
  rw [u1] at u2
  obtain rfl := Option.some.inj u2
  rw [v2] at v1
  exact hne (by rw [← v1]; rfl)

end Verif.Board
