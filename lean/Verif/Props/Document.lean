import Verif.Spec.Document
import Verif.Props.Text

/-!
# Theorems about documents and parameters
-/

namespace Verif.Csx
open Spec
open Verif.Geom (Axis)

/-! ## Finding nodes -/

theorem find?_first {α : Type} {p : α → Bool} {l : List α} {n : α} :
    l.find? p = some n ↔ ∃ pre post, l = pre ++ n :: post ∧ p n = true ∧ ∀ m ∈ pre, p m = false := by
  rw [List.find?_eq_some_iff_append]
  constructor
  · rintro ⟨h, pre, post, e, hpre⟩
    exact ⟨pre, post, e, h, fun m hm => by simpa using hpre m hm⟩
  · rintro ⟨pre, post, e, h, hpre⟩
    exact ⟨h, pre, post, e, fun m hm => by simp [hpre m hm]⟩

theorem child_iff {l : List Node} {name : String} {n : Node} : child l name = some n ↔ First l name n := by
  unfold child First
  rw [find?_first]
  simp

theorem attr_iff {n : Node} {name : String} {v : List Char} : n.attr? name = some v ↔ HasAttr n name v := by
  unfold Node.attr? HasAttr
  simp only [Option.map_eq_some_iff, find?_first]
  constructor
  · rintro ⟨⟨k, w⟩, ⟨pre, post, e, hk, hpre⟩, rfl⟩
    simp only [beq_iff_eq] at hk
    subst hk
    exact ⟨pre, post, e, fun a ha => by simpa using hpre a ha⟩
  · rintro ⟨pre, post, e, hpre⟩
    exact ⟨(name, v), ⟨pre, post, e, by simp, fun a ha => by simpa using hpre a ha⟩, rfl⟩

theorem select_head {doc : List Node} {name : String} : (select doc [name]).head? = child doc name := by
  unfold select child
  rw [List.head?_filter]

/-- The value of a parameter of the file. -/
def fileValue (doc : List Node) (name : String) : Option (List Char) :=
  (child doc "OpenEMSH").bind fun o => (child o.children "GlobalParams").bind fun g => g.attr? name

theorem fileValue_iff {doc : List Node} {name : String} {v : List Char} :
    fileValue doc name = some v ↔ InFile doc name v := by
  unfold fileValue InFile
  simp only [Option.bind_eq_some_iff, child_iff, attr_iff]
  constructor
  · rintro ⟨o, ho, g, hg, hv⟩; exact ⟨o, g, ho, hg, hv⟩
  · rintro ⟨o, g, ho, hg, hv⟩; exact ⟨o, ho, g, hg, hv⟩

theorem readParams_eq (codec : Codec) (enabled : Bool) (doc : List Node) :
    readParams codec enabled doc =
      { proximityLimit := ((if enabled then fileValue doc "ProximityLimit" else none).map codec.read).getD 1
        smoothness := ((if enabled then fileValue doc "Smoothness" else none).map codec.read).getD 2
        dmax := ((if enabled then fileValue doc "dmax" else none).map codec.read).getD (5 / 2)
        lmin := ((if enabled then fileValue doc "lmin" else none).map asUint).getD 2 } := by
  unfold readParams fileValue
  cases enabled with
  | false => rfl
  | true =>
    simp only [if_true]
    rw [select_head]
    cases child doc "OpenEMSH" with
    | none => rfl
    | some o =>
      cases hg : child o.children "GlobalParams" with
      | none => simp [hg]
      | some g => simp [hg, readAttrs]

/-! ## C46 -/

/-- The values an option gives on the command line. -/
def given {α : Type} (f : Override → Option α) (l : List Override) : List α := l.filterMap f

theorem foldl_apply {α : Type} (get : Params → α) (f : Override → Option α)
    (h : ∀ p o, get (Override.apply p o) = (f o).getD (get p)) (l : List Override) (p : Params) :
    get (l.foldl Override.apply p) = (given f l).getLast?.getD (get p) := by
  induction l generalizing p with
  | nil => rfl
  | cons o l ih =>
    rw [List.foldl_cons, ih, h]
    unfold given
    cases ho : f o with
    | none => simp [List.filterMap_cons, ho]
    | some v =>
      rw [List.filterMap_cons_some ho, List.getLast?_cons]
      simp

theorem decides {α : Type} {g : List α} {file : α → Prop} {o : Option α} {d : α} (ho : ∀ v, o = some v ↔ file v) :
    Decides g file d (g.getLast?.getD (o.getD d)) := by
  refine ⟨fun v hv => by rw [hv]; rfl, ?_⟩
  rintro rfl
  refine ⟨fun v hv => by rw [(ho v).2 hv]; rfl, fun hn => ?_⟩
  cases o with
  | none => rfl
  | some v => exact absurd ((ho v).1 rfl) (hn v)

theorem file_iff {α : Type} (enabled : Bool) (doc : List Node) (name : String) (read : List Char → α) (v : α) :
    (if enabled then fileValue doc name else none).map read = some v ↔
      enabled = true ∧ ∃ t, InFile doc name t ∧ read t = v := by
  cases enabled with
  | false => simp
  | true => simp [fileValue_iff]

/-- Each parameter is decided by the command line, else by the file if it is to be read, else by default, whatever the
others are. -/
theorem C46_precedence (codec : Codec) (enabled : Bool) (doc : List Node) (l : List Override) :
    let p := (runParams codec enabled doc l).1
    Decides (l.filterMap fun | .proximityLimit v => some v | _ => none)
      (fun v => enabled = true ∧ ∃ t, InFile doc "ProximityLimit" t ∧ codec.read t = v) 1 p.proximityLimit ∧
    Decides (l.filterMap fun | .smoothness v => some v | _ => none)
      (fun v => enabled = true ∧ ∃ t, InFile doc "Smoothness" t ∧ codec.read t = v) 2 p.smoothness ∧
    Decides (l.filterMap fun | .dmax v => some v | _ => none)
      (fun v => enabled = true ∧ ∃ t, InFile doc "dmax" t ∧ codec.read t = v) (5 / 2) p.dmax ∧
    Decides (l.filterMap fun | .lmin v => some v | _ => none)
      (fun v => enabled = true ∧ ∃ t, InFile doc "lmin" t ∧ asUint t = v) 2 p.lmin ∧
    Decides (l.filterMap fun | .diagonalDmax v => some v | _ => none) (fun _ => False) (1 / 5) p.diagonalDmax ∧
    Decides (l.filterMap fun | .diagonalLmin v => some v | _ => none) (fun _ => False) 2 p.diagonalLmin ∧
    Decides (l.filterMap fun | .minimalAngle v => some v | _ => none) (fun _ => False) 20 p.minimalAngle ∧
    Decides (l.filterMap fun | .fixed v => some v | _ => none) (fun _ => False) [] (runParams codec enabled doc l).2 := by
  intro p
  have e : readParams codec enabled doc = _ := readParams_eq codec enabled doc
  refine ⟨?_, ?_, ?_, ?_, ?_, ?_, ?_, ?_⟩
  · have := foldl_apply (·.proximityLimit) (fun | .proximityLimit v => some v | _ => none)
      (by intro p o; cases o <;> rfl) l (readParams codec enabled doc)
    simp only [e] at this
    show Decides _ _ _ (List.foldl Override.apply (readParams codec enabled doc) l).proximityLimit
    rw [e, this]
    exact decides (file_iff enabled doc _ _)
  · have := foldl_apply (·.smoothness) (fun | .smoothness v => some v | _ => none)
      (by intro p o; cases o <;> rfl) l (readParams codec enabled doc)
    simp only [e] at this
    show Decides _ _ _ (List.foldl Override.apply (readParams codec enabled doc) l).smoothness
    rw [e, this]
    exact decides (file_iff enabled doc _ _)
  · have := foldl_apply (·.dmax) (fun | .dmax v => some v | _ => none)
      (by intro p o; cases o <;> rfl) l (readParams codec enabled doc)
    simp only [e] at this
    show Decides _ _ _ (List.foldl Override.apply (readParams codec enabled doc) l).dmax
    rw [e, this]
    exact decides (file_iff enabled doc _ _)
  · have := foldl_apply (·.lmin) (fun | .lmin v => some v | _ => none)
      (by intro p o; cases o <;> rfl) l (readParams codec enabled doc)
    simp only [e] at this
    show Decides _ _ _ (List.foldl Override.apply (readParams codec enabled doc) l).lmin
    rw [e, this]
    exact decides (file_iff enabled doc _ _)
  · have := foldl_apply (·.diagonalDmax) (fun | .diagonalDmax v => some v | _ => none)
      (by intro p o; cases o <;> rfl) l (readParams codec enabled doc)
    simp only [e] at this
    show Decides _ _ _ (List.foldl Override.apply (readParams codec enabled doc) l).diagonalDmax
    rw [e, this]
    exact decides (o := none) (by simp)
  · have := foldl_apply (·.diagonalLmin) (fun | .diagonalLmin v => some v | _ => none)
      (by intro p o; cases o <;> rfl) l (readParams codec enabled doc)
    simp only [e] at this
    show Decides _ _ _ (List.foldl Override.apply (readParams codec enabled doc) l).diagonalLmin
    rw [e, this]
    exact decides (o := none) (by simp)
  · have := foldl_apply (·.minimalAngle) (fun | .minimalAngle v => some v | _ => none)
      (by intro p o; cases o <;> rfl) l (readParams codec enabled doc)
    simp only [e] at this
    show Decides _ _ _ (List.foldl Override.apply (readParams codec enabled doc) l).minimalAngle
    rw [e, this]
    exact decides (o := none) (by simp)
  · have := foldl_apply (·.fixed) (fun | .fixed v => some v | _ => none)
      (by intro p o; cases o <;> rfl) l (readParams codec enabled doc)
    simp only [e] at this
    show Decides _ _ _ (List.foldl Override.apply (readParams codec enabled doc) l).fixed
    rw [e, this]
    exact decides (o := none) (by simp)

/-- A codec for the examples: the text of a whole number. -/
def wholeCodec : Codec := ⟨fun q => decimal q.num.toNat, fun t => ((readDigits t 0 0).1 : ℚ)⟩

/-- The file gives a distance and a number of lines, the command line another distance. -/
example :
    let doc : List Node := [.mk "OpenEMSH" [] [] [.mk "GlobalParams" [("dmax", ['7']), ("lmin", ['9'])] [] []],
      .mk "openEMS" [] [] []]
    runParams wholeCodec true doc [.dmax 3, .minimalAngle 10, .fixed [(.x, 4)]]
      = ({ dmax := 3, lmin := 9, minimalAngle := 10 }, [(.x, 4)]) ∧
    runParams wholeCodec true doc [] = ({ dmax := 7, lmin := 9 }, []) ∧
    runParams wholeCodec false doc [] = ({}, []) := by decide +kernel

/-! ## Writing a document -/

theorem child_onAppended_same {name : String} {f : Node → Node} (hf : ∀ n : Node, (f n).name = n.name) (l : List Node) :
    child (onAppended name f l) name = some (f ((child l name).getD (.mk name [] [] []))) := by
  induction l with
  | nil =>
    have h : (f (.mk name [] [] [])).name = name := hf _
    simp [onAppended, child, h]
  | cons c l ih =>
    unfold onAppended
    split_ifs with h
    · simp [child, hf, h]
    · unfold child at ih ⊢
      rw [List.find?_cons_of_neg (by simpa using h), List.find?_cons_of_neg (by simpa using h)]
      exact ih

theorem child_onAppended_other {name other : String} (hne : other ≠ name) {f : Node → Node}
    (hf : ∀ n : Node, (f n).name = n.name) (l : List Node) : child (onAppended name f l) other = child l other := by
  induction l with
  | nil =>
    have h : (f (.mk name [] [] [])).name = name := hf _
    simp [onAppended, child, h, Ne.symm hne]
  | cons c l ih =>
    unfold onAppended
    split_ifs with h
    · have h1 : ¬ ((f c).name == other) = true := by rw [hf, h]; simpa using Ne.symm hne
      have h2 : ¬ (c.name == other) = true := by rw [h]; simpa using Ne.symm hne
      unfold child
      rw [List.find?_cons_of_neg (p := fun c : Node => c.name == other) h1, List.find?_cons_of_neg (p := fun c : Node => c.name == other) h2]
    · unfold child at ih ⊢
      rw [List.find?_cons, List.find?_cons, ih]

theorem any_name {l : List Node} {name : String} : l.any (fun c => c.name == name) = true ↔ ∃ n ∈ l, n.name = name := by
  simp

theorem onChild_name (name : String) (f : Node → Node) (n : Node) : (Node.onChild name f n).name = n.name := by
  cases n; rfl

theorem onChild_attrs (name : String) (f : Node → Node) (n : Node) : (Node.onChild name f n).attrs = n.attrs := by
  cases n; rfl

theorem onChild_children (name : String) (f : Node → Node) (n : Node) :
    (Node.onChild name f n).children = onAppended name f n.children := by
  cases n; rfl

theorem setAttrs_name (a : List (String × List Char)) (n : Node) : (setAttrs a n).name = n.name := by cases n; rfl

theorem writeGridNode_name (o : Output) (n : Node) : (writeGridNode o n).name = n.name := by cases n; rfl

theorem child_none {l : List Node} {name : String} : child l name = none ↔ ∀ n ∈ l, n.name ≠ name := by
  unfold child
  simp

theorem child_onPrepended_same {name : String} {f : Node → Node} (hf : ∀ n : Node, (f n).name = n.name) (l : List Node) :
    child (onPrepended name f l) name = some (f ((child l name).getD (.mk name [] [] []))) := by
  unfold onPrepended
  split_ifs with h
  · exact child_onAppended_same hf l
  · have : child l name = none := child_none.2 fun n hn e => h (any_name.2 ⟨n, hn, e⟩)
    rw [this]
    have h' : (f (.mk name [] [] [])).name = name := hf _
    simp [child, h']

theorem child_onPrepended_other {name other : String} (hne : other ≠ name) {f : Node → Node}
    (hf : ∀ n : Node, (f n).name = n.name) (l : List Node) : child (onPrepended name f l) other = child l other := by
  unfold onPrepended
  split_ifs with h
  · exact child_onAppended_other hne hf l
  · have : ¬ ((f (.mk name [] [] [])).name == other) = true := by rw [hf]; simpa [Node.name] using Ne.symm hne
    unfold child
    rw [List.find?_cons_of_neg (p := fun c : Node => c.name == other) this]

theorem child_removeFirst_other {name other : String} (hne : other ≠ name) (l : List Node) :
    child (removeFirst name l) other = child l other := by
  induction l with
  | nil => rfl
  | cons c l ih =>
    unfold removeFirst
    split_ifs with h
    · have : ¬ (c.name == other) = true := by rw [h]; simpa using Ne.symm hne
      unfold child
      rw [List.find?_cons_of_neg (p := fun c : Node => c.name == other) this]
    · unfold child at ih ⊢
      rw [List.find?_cons, List.find?_cons, ih]

/-! ## C47 -/

theorem asUint_decimal (n : Nat) : asUint (decimal n) = min n 4294967295 := by
  obtain ⟨hne, hd⟩ := decimal_digits n
  have hv := decimal_value n 0
  cases h : decimal n with
  | nil => exact absurd h hne
  | cons c rest =>
    rw [h] at hd hv
    obtain ⟨d, hd10, rfl⟩ := hd c (by simp)
    have key : ∀ d < 10, ¬ (digitChar d = ' ' ∨ digitChar d = '\t' ∨ digitChar d = '\n' ∨ digitChar d = '\r') ∧
        digitChar d ≠ '-' ∧ digitChar d ≠ '+' := by decide
    obtain ⟨k1, k2, k3⟩ := key d hd10
    unfold asUint
    rw [List.dropWhile_cons_of_neg (by simpa using k1)]
    split
    · rename_i heq
      exact absurd (List.cons.inj heq).1 k2
    · rename_i heq
      exact absurd (List.cons.inj heq).1 k3
    · rw [hv]

theorem fileValue_written (codec : Codec) (o : Output) (p : Params) (doc : List Node) (ho : o.withParams = true)
    (name : String) : fileValue (writeDocument codec o p doc) name
      = ((savedAttrs codec p).find? fun a => a.1 == name).map (·.2) := by
  unfold fileValue writeDocument
  rw [if_pos ho, child_onPrepended_same (onChild_name _ _), Option.bind_some, onChild_children,
    child_onAppended_same (setAttrs_name _), Option.bind_some]
  generalize (child _ "GlobalParams").getD _ = g
  cases g
  rfl

/-- The parameters of diagonal zones are not saved. -/
theorem C47_false (codec : Codec) : ∃ p : Params, ∀ o : Output, ∀ doc,
    (readParams codec true (writeDocument codec o p doc)).diagonalDmax ≠ p.diagonalDmax ∧
    (readParams codec true (writeDocument codec o p doc)).diagonalLmin ≠ p.diagonalLmin ∧
    (readParams codec true (writeDocument codec o p doc)).minimalAngle ≠ p.minimalAngle := by
  refine ⟨{ diagonalDmax := 1, diagonalLmin := 7, minimalAngle := 10 }, fun o doc => ?_⟩
  rw [readParams_eq]
  dsimp only
  decide +kernel

/-- The other parameters are read back from a file written with them, provided that pugixml reads back the doubles it
writes. What is missing: the parameters of diagonal zones (see `C47_false`), and numbers of lines of more than 32 bits. -/
theorem C47_partial (codec : Codec) (o : Output) (ho : o.withParams = true) (p : Params) (doc : List Node)
    (h1 : codec.read (codec.write p.proximityLimit) = p.proximityLimit)
    (h2 : codec.read (codec.write p.smoothness) = p.smoothness) (h3 : codec.read (codec.write p.dmax) = p.dmax)
    (h4 : p.lmin < 2 ^ 32) :
    let q := readParams codec true (writeDocument codec o p doc)
    q.proximityLimit = p.proximityLimit ∧ q.smoothness = p.smoothness ∧ q.dmax = p.dmax ∧ q.lmin = p.lmin := by
  intro q
  have e : q = _ := readParams_eq codec true (writeDocument codec o p doc)
  rw [e]
  simp only [if_true, fileValue_written codec o p doc ho]
  refine ⟨?_, ?_, ?_, ?_⟩
  · simpa [savedAttrs] using h1
  · simpa [savedAttrs] using h2
  · simpa [savedAttrs] using h3
  · have : asUint (decimal p.lmin) = p.lmin := by rw [asUint_decimal]; omega
    simpa [savedAttrs] using this

/-- Larger numbers of lines are not. -/
theorem C47_false_large (codec : Codec) : ∃ p : Params, ∀ o : Output, ∀ doc, o.withParams = true →
    (readParams codec true (writeDocument codec o p doc)).lmin ≠ p.lmin := by
  refine ⟨{ lmin := 2 ^ 32 }, fun o doc ho => ?_⟩
  rw [readParams_eq]
  simp only [if_true, fileValue_written codec o _ doc ho]
  have : asUint (decimal (2 ^ 32)) = 2 ^ 32 - 1 := by rw [asUint_decimal]; rfl
  norm_num at this
  simp [savedAttrs, this]

/-- Parameters saved over others. -/
example : let p : Params := { proximityLimit := 3, smoothness := 2, dmax := 12, lmin := 40 };
    wholeCodec.read (wholeCodec.write p.proximityLimit) = p.proximityLimit ∧
    wholeCodec.read (wholeCodec.write p.smoothness) = p.smoothness ∧ wholeCodec.read (wholeCodec.write p.dmax) = p.dmax ∧
    readParams wholeCodec true (writeDocument wholeCodec { withParams := true, x := [], y := [], z := [] } p
      [.mk "openEMS" [] [] [], .mk "OpenEMSH" [] [] [.mk "GlobalParams" [("dmax", ['7']), ("lmin", ['9'])] [] []]]) = p := by
  simp only [wholeCodec]
  decide +kernel

/-! ## C60 -/

theorem dataAt_nil (path : List String) : dataAt [] path = [] := by cases path <;> rfl

theorem dataAt_cons (n : Node) (l : List Node) (path : List String) :
    dataAt (n :: l) path = dataAt [n] path ++ dataAt l path := by
  cases path with
  | nil => rfl
  | cons name rest => simp [dataAt]

theorem dataAt_other {n : Node} {name : String} {rest : List String} (h : n.name ≠ name) : dataAt [n] (name :: rest) = [] := by
  simp [dataAt, h]

/-- Changing the first node with a name changes nothing at a path, if it changes nothing at this path in this node. -/
theorem dataAt_onAppended {name : String} {f : Node → Node} (hf : ∀ n : Node, (f n).name = n.name) {l : List Node}
    {p : String} {rest : List String} (h : p = name → ∃ n, First l name n ∧ dataAt [f n] (p :: rest) = dataAt [n] (p :: rest)) :
    dataAt (onAppended name f l) (p :: rest) = dataAt l (p :: rest) := by
  induction l with
  | nil =>
    by_cases e : p = name
    · obtain ⟨n, ⟨pre, post, e', -⟩, -⟩ := h e
      simp at e'
    · unfold onAppended
      rw [dataAt_other (by rw [hf]; exact Ne.symm e), dataAt_nil]
  | cons c l ih =>
    unfold onAppended
    split_ifs with hc
    · rw [dataAt_cons, dataAt_cons c]
      congr 1
      by_cases e : p = name
      · obtain ⟨n, ⟨pre, post, e', hn, hpre⟩, hd⟩ := h e
        cases pre with
        | nil =>
          obtain rfl : c = n := (List.cons.inj e').1
          exact hd
        | cons d pre =>
          obtain rfl : c = d := (List.cons.inj e').1
          exact absurd hc (hpre c (by simp))
      · rw [dataAt_other (by rw [hf, hc]; exact Ne.symm e), dataAt_other (by rw [hc]; exact Ne.symm e)]
    · rw [dataAt_cons, dataAt_cons c l]
      congr 1
      refine ih fun e => ?_
      obtain ⟨n, ⟨pre, post, e', hn, hpre⟩, hd⟩ := h e
      cases pre with
      | nil =>
        obtain rfl : c = n := (List.cons.inj e').1
        exact absurd hn hc
      | cons d pre =>
        exact ⟨n, ⟨pre, post, (List.cons.inj e').2, hn, fun m hm => hpre m (by simp [hm])⟩, hd⟩

theorem dataAt_onChild {name : String} {f : Node → Node} {n : Node} {p : String} {rest : List String}
    (h : rest ≠ [] → dataAt (onAppended name f n.children) rest = dataAt n.children rest) :
    dataAt [Node.onChild name f n] (p :: rest) = dataAt [n] (p :: rest) := by
  obtain ⟨n, a, t, c⟩ := n
  simp only [Node.onChild, dataAt, List.flatMap_cons, List.flatMap_nil, Node.name, Node.attrs, Node.text, Node.children]
  by_cases e : rest = []
  · simp [e]
  · rw [if_neg e, if_neg e]
    have := h e
    simp only [Node.children] at this
    rw [this]

theorem first_exists {l : List Node} {name : String} (h : ∃ n ∈ l, n.name = name) : ∃ n, First l name n := by
  cases hc : child l name with
  | none =>
    obtain ⟨n, hn, e⟩ := h
    exact absurd e (child_none.1 hc n hn)
  | some n => exact ⟨n, child_iff.1 hc⟩

theorem dataAt_grid {o : Output} {n : Node} {p : String} {rest : List String}
    (h : ∀ r, rest ≠ "RectilinearGrid" :: r) :
    dataAt [Node.onChild "RectilinearGrid" (writeGridNode o) n] (p :: rest) = dataAt [n] (p :: rest) := by
  refine dataAt_onChild fun hr => ?_
  cases rest with
  | nil => exact absurd rfl hr
  | cons q r =>
    refine dataAt_onAppended (writeGridNode_name o) fun e => ?_
    exact absurd (by rw [e]) (h r)

theorem dataAt_writeStructure {o : Output} {doc : List Node} (hs : HasStructure doc) {path : List String}
    (h1 : ∀ r, path ≠ "ContinuousStructure" :: "RectilinearGrid" :: r)
    (h2 : ∀ r, path ≠ "openEMS" :: "ContinuousStructure" :: "RectilinearGrid" :: r) :
    dataAt (writeStructure o doc) path = dataAt doc path := by
  cases path with
  | nil => simp [dataAt]
  | cons p rest =>
    unfold writeStructure
    split_ifs with ht
    · refine dataAt_onAppended (onChild_name _ _) fun e => ?_
      obtain ⟨n, hn⟩ := first_exists (any_name.1 ht)
      exact ⟨n, hn, dataAt_grid fun r er => h1 r (by rw [e, er])⟩
    · refine dataAt_onAppended (onChild_name _ _) fun e => ?_
      rcases hs with hs | ⟨oe, hoe, hcs⟩
      · exact absurd (any_name.2 hs) ht
      · refine ⟨oe, hoe, dataAt_onChild fun hr => ?_⟩
        cases rest with
        | nil => exact absurd rfl hr
        | cons q r =>
          refine dataAt_onAppended (onChild_name _ _) fun e2 => ?_
          obtain ⟨n, hn⟩ := first_exists hcs
          exact ⟨n, hn, dataAt_grid fun r' er => h2 r' (by rw [e, e2, er])⟩

theorem dataAt_removeFirst {name : String} {l : List Node} {p : String} {rest : List String} (h : p ≠ name) :
    dataAt (removeFirst name l) (p :: rest) = dataAt l (p :: rest) := by
  induction l with
  | nil => rfl
  | cons c l ih =>
    unfold removeFirst
    split_ifs with hc
    · rw [dataAt_cons c, dataAt_other (by rw [hc]; exact Ne.symm h), List.nil_append]
    · rw [dataAt_cons, dataAt_cons c l, ih]

theorem dataAt_onPrepended {name : String} {f : Node → Node} (hf : ∀ n : Node, (f n).name = n.name) {l : List Node}
    {p : String} {rest : List String} (h : p ≠ name) :
    dataAt (onPrepended name f l) (p :: rest) = dataAt l (p :: rest) := by
  unfold onPrepended
  split_ifs
  · exact dataAt_onAppended hf fun e => absurd e h
  · rw [dataAt_cons, dataAt_other (by rw [hf]; exact Ne.symm h), List.nil_append]

/-- Writing a document changes nothing but the grid of the structure and the node of the parameters: at any other path the
attributes and texts are the same, in the same order. -/
theorem C60_preserved (codec : Codec) (o : Output) (p : Params) {doc : List Node} (hs : HasStructure doc)
    {path : List String} (h1 : ∀ r, path ≠ "ContinuousStructure" :: "RectilinearGrid" :: r)
    (h2 : ∀ r, path ≠ "openEMS" :: "ContinuousStructure" :: "RectilinearGrid" :: r) (h3 : ∀ r, path ≠ "OpenEMSH" :: r) :
    dataAt (writeDocument codec o p doc) path = dataAt doc path := by
  cases path with
  | nil => simp [dataAt]
  | cons q rest =>
    have hq : q ≠ "OpenEMSH" := fun e => h3 rest (by rw [e])
    rw [← dataAt_writeStructure (o := o) hs h1 h2]
    unfold writeDocument
    split_ifs
    · exact dataAt_onPrepended (onChild_name _ _) hq
    · exact dataAt_removeFirst hq

/-- The attributes of the grid itself are kept too. -/
theorem C60_grid_attrs (o : Output) (n : Node) : (writeGridNode o n).attrs = n.attrs ∧ (writeGridNode o n).name = n.name := by
  cases n; exact ⟨rfl, rfl⟩

/-- A document with a property and a comment node. -/
example : let doc : List Node := [.mk "openEMS" [] [] [.mk "FDTD" [("NumberOfTimesteps", ['9'])] [] [],
      .mk "ContinuousStructure" [("CoordSystem", ['0'])] [] [.mk "RectilinearGrid" [("DeltaUnit", ['1'])] [] [linesNode "XLines" ['4']],
        .mk "Properties" [] [] [.mk "Metal" [("Name", ['a'])] [] []]]]];
    HasStructure doc ∧
    dataAt doc ["openEMS", "ContinuousStructure", "Properties", "Metal"] = [([("Name", ['a'])], [])] ∧
    dataAt (writeDocument wholeCodec { x := ['5'], y := [], z := [] } {} doc)
      ["openEMS", "ContinuousStructure", "RectilinearGrid", "XLines"] = [([], ['5'])] := by
  intro doc
  refine ⟨Or.inr ⟨_, ⟨[], [], rfl, rfl, by simp⟩, ⟨_, List.mem_cons_of_mem _ (List.mem_cons_self ..), rfl⟩⟩, ?_⟩
  decide +kernel

/-! ## C61 -/

/-- Without the parameters, the fixed lines of the file are lost as well. -/
theorem C61_false (codec : Codec) : ∃ (doc : List Node) (o : Output), HasStructure doc ∧
    dataAt doc ["OpenEMSH", "FixedMeshlines", "XLines"] ≠ [] ∧
    ∀ p, dataAt (writeDocument codec o p doc) ["OpenEMSH", "FixedMeshlines", "XLines"] = [] := by
  refine ⟨[.mk "ContinuousStructure" [] [] [], .mk "OpenEMSH" [] [] [.mk "FixedMeshlines" [] [] [linesNode "XLines" ['3']]]],
    { x := [], y := [], z := [] }, Or.inl ⟨_, List.mem_cons_self .., rfl⟩, by decide +kernel, fun p => ?_⟩
  unfold writeDocument
  rw [if_neg (by simp)]
  decide +kernel

/-- With the parameters, they are kept. What is missing: writing without the parameters (see `C61_false`). -/
theorem C61_partial (codec : Codec) (o : Output) (ho : o.withParams = true) (p : Params) {doc : List Node}
    (hs : HasStructure doc) {rest : List String} (hr : ∀ r, rest ≠ "GlobalParams" :: r) (hr' : rest ≠ [])
    (hd : ∃ n ∈ doc, n.name = "OpenEMSH") :
    dataAt (writeDocument codec o p doc) ("OpenEMSH" :: rest) = dataAt doc ("OpenEMSH" :: rest) := by
  rw [← dataAt_writeStructure (o := o) hs (by simp) (by simp)]
  unfold writeDocument
  rw [if_pos ho]
  have hex : ∃ n, First (writeStructure o doc) "OpenEMSH" n := by
    obtain ⟨n, hn⟩ := first_exists hd
    refine ⟨n, child_iff.1 ?_⟩
    unfold writeStructure
    split_ifs
    · rw [child_onAppended_other (by decide) (onChild_name _ _)]; exact child_iff.2 hn
    · rw [child_onAppended_other (by decide) (onChild_name _ _)]; exact child_iff.2 hn
  obtain ⟨n, hn⟩ := hex
  unfold onPrepended
  have hany : (writeStructure o doc).any (fun c => c.name == "OpenEMSH") = true := by
    obtain ⟨pre, post, e, hname, -⟩ := hn
    exact any_name.2 ⟨n, by rw [e]; simp, hname⟩
  rw [if_pos hany]
  refine dataAt_onAppended (onChild_name _ _) fun _ => ⟨n, hn, dataAt_onChild fun _ => ?_⟩
  cases rest with
  | nil => exact absurd rfl hr'
  | cons q r => exact dataAt_onAppended (setAttrs_name _) fun e => absurd (by rw [e]) (hr r)

example : HasStructure [.mk "ContinuousStructure" [] [] [], .mk "OpenEMSH" [] [] [.mk "FixedMeshlines" [] [] [linesNode "XLines" ['3']]]] ∧
    ∃ n ∈ [Node.mk "ContinuousStructure" [] [] [], .mk "OpenEMSH" [] [] []], n.name = "OpenEMSH" :=
  ⟨Or.inl ⟨_, List.mem_cons_self .., rfl⟩, _, List.mem_cons_of_mem _ (List.mem_cons_self ..), rfl⟩

/-! ## C62 -/

/-- With a structure at the top and another under `openEMS`, the first is written and the second is read. -/
theorem C62_false (codec : Codec) : ∃ (doc : List Node) (o : Output), HasStructure doc ∧ o.x ≠ [] ∧
    ∀ p, ∃ csx, readStructure (writeDocument codec o p doc) = some csx ∧ (gridNode csx).x = [] := by
  refine ⟨[.mk "ContinuousStructure" [] [] [], .mk "openEMS" [] [] [.mk "ContinuousStructure" [] [] []]],
    { x := ['1'], y := [], z := [] }, Or.inl ⟨_, List.mem_cons_self .., rfl⟩, by simp, fun p => ?_⟩
  refine ⟨.mk "ContinuousStructure" [] [] [], ?_, by decide +kernel⟩
  unfold writeDocument
  rw [if_neg (by simp)]
  rfl

theorem gridNode_written (o : Output) (csx : Node) :
    gridNode (Node.onChild "RectilinearGrid" (writeGridNode o) csx) =
      { gridNode csx with
        x := if o.withX then o.x else [], y := if o.withY then o.y else [], z := if o.withZ then o.z else [] } := by
  unfold gridNode
  rw [onChild_children, child_onAppended_same (writeGridNode_name o)]
  have ha : ∀ name, (Node.onChild "RectilinearGrid" (writeGridNode o) csx).attr? name = csx.attr? name := by
    intro name
    unfold Node.attr?
    rw [onChild_attrs]
  rw [ha, ha]
  generalize (child csx.children "RectilinearGrid").getD _ = g
  obtain ⟨n, a, t, c⟩ := g
  simp only [Option.map_some, Option.getD_some, writeGridNode, Node.children]
  cases o.withX <;> cases o.withY <;> cases o.withZ <;> rfl

theorem select_two {doc : List Node} {a b : String} :
    (select doc [a, b]).head? = (doc.filter fun c => c.name == a).findSome? fun c => child c.children b := by
  have h : select doc [a, b] = (doc.filter fun c => c.name == a).flatMap fun c => c.children.filter fun d => d.name == b := rfl
  rw [h]
  induction doc.filter fun c => c.name == a with
  | nil => rfl
  | cons c l ih =>
    rw [List.flatMap_cons, List.head?_append, ih, List.findSome?_cons, List.head?_filter]
    unfold child
    cases List.find? (fun d => d.name == b) c.children <;> rfl

/-- A document with its structure at one of the two places: at the top, without any under an `openEMS` node, or in the
first `openEMS` node, without any at the top. -/
def OnePlace (doc : List Node) : Prop :=
  ((∃ n ∈ doc, n.name = "ContinuousStructure") ∧
    ∀ o ∈ doc, o.name = "openEMS" → ∀ n ∈ o.children, n.name ≠ "ContinuousStructure") ∨
  ((∀ n ∈ doc, n.name ≠ "ContinuousStructure") ∧
    ∃ o, First doc "openEMS" o ∧ ∃ n ∈ o.children, n.name = "ContinuousStructure")

theorem readStructure_first {doc : List Node} {o : Node} (ho : First doc "openEMS" o) {n : Node}
    (hn : child o.children "ContinuousStructure" = some n) : readStructure doc = some n := by
  unfold readStructure
  have : (select doc ["openEMS", "ContinuousStructure"]).head? = some n := by
    rw [select_two]
    obtain ⟨pre, post, rfl, ho1, ho2⟩ := ho
    rw [List.filter_append, List.filter_eq_nil_iff.2 (fun m hm => by simpa using ho2 m hm), List.nil_append,
      List.filter_cons_of_pos (by simpa using ho1), List.findSome?_cons, hn]
  rw [this]

theorem readStructure_top {doc : List Node}
    (h : ∀ o ∈ doc, o.name = "openEMS" → ∀ n ∈ o.children, n.name ≠ "ContinuousStructure") :
    readStructure doc = child doc "ContinuousStructure" := by
  unfold readStructure
  have : (select doc ["openEMS", "ContinuousStructure"]).head? = none := by
    rw [select_two, List.findSome?_eq_none_iff]
    intro o ho
    obtain ⟨ho1, ho2⟩ := List.mem_filter.1 ho
    exact child_none.2 (h o ho1 (by simpa using ho2))
  rw [this]
  exact select_head

theorem onAppended_mem {name : String} {f : Node → Node} {l : List Node} {n : Node} (h : n ∈ onAppended name f l) :
    n ∈ l ∨ ∃ m, (m ∈ l ∨ m = .mk name [] [] []) ∧ m.name = name ∧ n = f m := by
  induction l with
  | nil =>
    right
    exact ⟨_, Or.inr rfl, rfl, List.mem_singleton.1 h⟩
  | cons c l ih =>
    unfold onAppended at h
    split_ifs at h with hc
    · rcases List.mem_cons.1 h with rfl | h
      · exact Or.inr ⟨c, Or.inl (by simp), hc, rfl⟩
      · exact Or.inl (by simp [h])
    · rcases List.mem_cons.1 h with rfl | h
      · exact Or.inl (by simp)
      · rcases ih h with h | ⟨m, hm, r⟩
        · exact Or.inl (by simp [h])
        · refine Or.inr ⟨m, ?_, r⟩
          rcases hm with hm | hm
          · exact Or.inl (by simp [hm])
          · exact Or.inr hm

theorem removeFirst_mem {name : String} {l : List Node} {n : Node} (h : n ∈ removeFirst name l) : n ∈ l := by
  induction l with
  | nil => exact h
  | cons c l ih =>
    unfold removeFirst at h
    split_ifs at h
    · simp [h]
    · rcases List.mem_cons.1 h with rfl | h
      · simp
      · simp [ih h]

/-- What is outside the node of the parameters is not changed by saving or removing it. -/
theorem writeDocument_mem {codec : Codec} {o : Output} {p : Params} {doc : List Node} {n : Node}
    (h : n ∈ writeDocument codec o p doc) (hn : n.name ≠ "OpenEMSH") : n ∈ writeStructure o doc := by
  unfold writeDocument onPrepended at h
  split_ifs at h
  · rcases onAppended_mem h with h | ⟨m, -, hm, rfl⟩
    · exact h
    · rw [onChild_name] at hn
      exact absurd hm hn
  · rcases List.mem_cons.1 h with rfl | h
    · exact absurd (onChild_name _ _ _) hn
    · exact h
  · exact removeFirst_mem h

theorem child_writeDocument {codec : Codec} {o : Output} {p : Params} {doc : List Node} {name : String}
    (hn : name ≠ "OpenEMSH") : child (writeDocument codec o p doc) name = child (writeStructure o doc) name := by
  unfold writeDocument
  split_ifs
  · exact child_onPrepended_other hn (onChild_name _ _) _
  · exact child_removeFirst_other hn _

/-- When the document has its structure at one place, the structure read after writing is the one that was read before,
with the lines written and everything else the same. What is missing: documents with structures at both places (see
`C62_false`). -/
theorem C62_partial (codec : Codec) (o : Output) (p : Params) {doc : List Node} (h : OnePlace doc) :
    ∃ csx csx', readStructure doc = some csx ∧ readStructure (writeDocument codec o p doc) = some csx' ∧
      gridNode csx' = { gridNode csx with
        x := if o.withX then o.x else [], y := if o.withY then o.y else [], z := if o.withZ then o.z else [] } := by
  rcases h with ⟨htop, hno⟩ | ⟨htop, oe, hoe, hcs⟩
  · obtain ⟨n, hn⟩ := first_exists htop
    refine ⟨n, Node.onChild "RectilinearGrid" (writeGridNode o) n, ?_, ?_, gridNode_written o n⟩
    · rw [readStructure_top hno]; exact child_iff.2 hn
    · rw [readStructure_top, child_writeDocument (by decide)]
      · unfold writeStructure
        rw [if_pos (any_name.2 htop), child_onAppended_same (onChild_name _ _), child_iff.2 hn]
        rfl
      · intro m hm hname
        have := writeDocument_mem hm (by rw [hname]; decide)
        unfold writeStructure at this
        rw [if_pos (any_name.2 htop)] at this
        rcases onAppended_mem this with h | ⟨m', -, hm', rfl⟩
        · exact hno m h hname
        · rw [onChild_name, hm'] at hname
          exact absurd hname (by decide)
  · obtain ⟨n, hn⟩ := first_exists hcs
    refine ⟨n, Node.onChild "RectilinearGrid" (writeGridNode o) n, readStructure_first hoe (child_iff.2 hn), ?_,
      gridNode_written o n⟩
    have hc : child (writeDocument codec o p doc) "openEMS" =
        some (Node.onChild "ContinuousStructure" (Node.onChild "RectilinearGrid" (writeGridNode o)) oe) := by
      rw [child_writeDocument (by decide)]
      unfold writeStructure
      rw [if_neg (fun h => by obtain ⟨m, hm, e⟩ := any_name.1 h; exact htop m hm e),
        child_onAppended_same (onChild_name _ _), child_iff.2 hoe]
      rfl
    refine readStructure_first (child_iff.1 hc) ?_
    rw [onChild_children, child_onAppended_same (onChild_name _ _), child_iff.2 hn]
    rfl

/-- The lines of a mesh written to a file are read back from it. -/
theorem C62_lines (codec : Codec) (p : Params) (withParams : Bool) {doc : List Node} (h : OnePlace doc) (x y z : List Signed) :
    ∃ csx csx', readStructure doc = some csx ∧
      readStructure (writeDocument codec ⟨true, true, true, withParams, writeLines x, writeLines y, writeLines z⟩ p doc)
        = some csx' ∧ gridNode csx' = writeGrid (gridNode csx) true true true x y z := by
  obtain ⟨csx, csx', h1, h2, h3⟩ := C62_partial codec ⟨true, true, true, withParams, writeLines x, writeLines y, writeLines z⟩ p h
  exact ⟨csx, csx', h1, h2, h3⟩

example : OnePlace [.mk "OpenEMSH" [] [] [], .mk "openEMS" [] [] [.mk "FDTD" [] [] [], .mk "ContinuousStructure" [] [] []]] := by
  refine Or.inr ⟨by simp [Node.name], _, ⟨[.mk "OpenEMSH" [] [] []], [], rfl, rfl, by simp [Node.name]⟩, _,
    List.mem_cons_of_mem _ (List.mem_cons_self ..), rfl⟩

/-! ## C63 -/

theorem onAppended_length {name : String} {f : Node → Node} {l : List Node} (h : ∃ n ∈ l, n.name = name) :
    (onAppended name f l).length = l.length := by
  induction l with
  | nil => simp at h
  | cons c l ih =>
    unfold onAppended
    split_ifs with hc
    · simp
    · obtain ⟨n, hn, e⟩ := h
      rcases List.mem_cons.1 hn with rfl | hn
      · exact absurd e hc
      · simp [ih ⟨n, hn, e⟩]

theorem removeFirst_length (name : String) (l : List Node) : (removeFirst name l).length ≤ l.length := by
  induction l with
  | nil => simp [removeFirst]
  | cons c l ih =>
    unfold removeFirst
    split_ifs
    · simp
    · simp [ih]

/-- Saving the parameters adds a second root to a document that has one, which is no longer well-formed XML. -/
theorem C63_false (codec : Codec) : ∃ (doc : List Node) (o : Output), HasStructure doc ∧ doc.length = 1 ∧
    ∀ p, (writeDocument codec o p doc).length = 2 := by
  refine ⟨[.mk "ContinuousStructure" [] [] []], { withParams := true, x := [], y := [], z := [] },
    Or.inl ⟨_, List.mem_cons_self .., rfl⟩, rfl, fun p => ?_⟩
  unfold writeDocument
  rw [if_pos rfl]
  rfl

theorem writeStructure_length {o : Output} {doc : List Node} (hs : HasStructure doc) :
    (writeStructure o doc).length = doc.length := by
  unfold writeStructure
  split_ifs with h
  · exact onAppended_length (any_name.1 h)
  · rcases hs with hs | ⟨oe, ⟨pre, post, e, hn, -⟩, -⟩
    · exact absurd (any_name.2 hs) h
    · exact onAppended_length ⟨oe, by rw [e]; simp, hn⟩

/-- Without the parameters, or over a document that has some, no root is added. What is missing: the parameters saved for
the first time (see `C63_false`). -/
theorem C63_partial (codec : Codec) (o : Output) (p : Params) {doc : List Node} (hs : HasStructure doc)
    (h : o.withParams = false ∨ ∃ n ∈ doc, n.name = "OpenEMSH") : (writeDocument codec o p doc).length ≤ doc.length := by
  rw [← writeStructure_length (o := o) hs]
  unfold writeDocument
  split_ifs with ho
  · rcases h with h | h
    · rw [ho] at h; exact absurd h (by simp)
    · obtain ⟨n, hn⟩ := first_exists h
      have hc : child (writeStructure o doc) "OpenEMSH" = some n := by
        unfold writeStructure
        split_ifs
        · rw [child_onAppended_other (by decide) (onChild_name _ _)]; exact child_iff.2 hn
        · rw [child_onAppended_other (by decide) (onChild_name _ _)]; exact child_iff.2 hn
      have hex : ∃ m ∈ writeStructure o doc, m.name = "OpenEMSH" := by
        obtain ⟨pre, post, e, hname, -⟩ := child_iff.1 hc
        exact ⟨n, by rw [e]; simp, hname⟩
      unfold onPrepended
      rw [if_pos (any_name.2 hex), onAppended_length hex]
  · exact removeFirst_length _ _

end Verif.Csx
