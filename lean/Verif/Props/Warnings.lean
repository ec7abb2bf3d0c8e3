import Verif.Lemmas.Warnings
import Verif.Lemmas.Dialog
import Mathlib.Tactic

/-!
# C141: the parser says what it leaves out
-/

namespace Verif.Csx
open Warn
open Verif.Geom (Point)
open Verif.Board (MaterialKind)

instance (n : Node) : Decidable (Moved n) := decidable_of_iff _ (isTransformed_iff n)

/-! ## What is left out -/

theorem shape_other (codec : Codec) (n : Node) (h : n.name ∉ readShapes) : decodeShape codec n = .other := by
  unfold readShapes at h
  simp only [List.mem_cons, List.not_mem_nil, or_false, not_or] at h
  obtain ⟨a, b, c, d, e, f, g, i⟩ := h
  simp only [decodeShape, a, b, c, d, e, f, g, i, if_false]

/-- What is kept of a property. -/
def kept (codec : Codec) (p : Node) : Property :=
  ⟨decodeKind codec p,
    ((((child p.children "Primitives").map Node.children).getD []).filter
      fun n => decide (¬ Moved n ∧ n.name ∈ readShapes)).map (decodePrimitive codec)⟩

theorem parsePrimitives_kept (f : Flags) (dirs : List Point) (codec : Codec) (m : MaterialKind) (ns : List Node) :
    parsePrimitives f dirs (some m) (ns.map (decodePrimitive codec)) =
      parsePrimitives f dirs (some m) ((ns.filter fun n => decide (¬ Moved n ∧ n.name ∈ readShapes)).map (decodePrimitive codec)) := by
  induction ns with
  | nil => rfl
  | cons n ns ih =>
    rw [List.filter_cons]
    by_cases h : ¬ Moved n ∧ n.name ∈ readShapes
    · simp only [h, decide_true, if_true, List.map_cons, parsePrimitives, ih, not_false_eq_true, and_self]
    · have hp : parsePrimitive f dirs m (decodePrimitive codec n) = some [] := by
        unfold parsePrimitive decodePrimitive
        by_cases hm : Moved n
        · simp only [(isTransformed_iff n).mpr hm, if_true]
        · have hn : n.name ∉ readShapes := fun hn => h ⟨hm, hn⟩
          simp only [shape_other codec n hn]
          split <;> rfl
      simp only [h, decide_false, Bool.false_eq_true, if_false, List.map_cons, parsePrimitives, Option.elim_some, hp, Option.bind_some,
        List.nil_append, ih]
      exact Option.map_id'

theorem parsePrimitives_none (f : Flags) (dirs : List Point) (ns : List Primitive) : parsePrimitives f dirs none ns = some [] := by
  induction ns with
  | nil => rfl
  | cons n ns ih => simp [parsePrimitives, ih]

/-- The properties of a kind that gives no material, and the primitives moved or of a kind not read, might as well not be in the
document: the same is read without them. -/
theorem C141_left (codec : Codec) (f : Flags) (dirs : List Point) (doc : List Node) :
    parseProperties f dirs (readProperties codec doc) =
      parseProperties f dirs (((propertyNodes doc).filter fun p => decide (p.name ∈ readKinds)).map (kept codec)) := by
  show parseProperties f dirs ((propertyNodes doc).map (decodeProperty codec)) = _
  induction propertyNodes doc with
  | nil => rfl
  | cons p ps ih =>
    rw [List.filter_cons]
    have hg := gives_eq codec p
    unfold gives at hg
    by_cases h : p.name ∈ readKinds
    · simp only [h, decide_true, Option.isSome_iff_exists] at hg
      obtain ⟨m, hm⟩ := hg
      have e : parsePrimitives f dirs (parseProperty (decodeProperty codec p).kind) (decodeProperty codec p).primitives =
          parsePrimitives f dirs (parseProperty (kept codec p).kind) (kept codec p).primitives := by
        show parsePrimitives f dirs (parseProperty (decodeKind codec p)) _ = parsePrimitives f dirs (parseProperty (decodeKind codec p)) _
        rw [hm]
        exact parsePrimitives_kept f dirs codec m _
      simp only [h, decide_true, if_true, List.map_cons, parseProperties, ih, e]
    · simp only [h, decide_false, Option.isSome_eq_false_iff, Option.isNone_iff_eq_none] at hg
      simp only [h, decide_false, Bool.false_eq_true, if_false, List.map_cons, parseProperties, ih]
      simp only [decodeProperty, hg, parsePrimitives_none, Option.bind_some, List.nil_append]
      exact Option.map_id'

/-! ## Names -/

theorem sum_take_le (l : List Nat) {i k : Nat} (h : i ≤ k) : (l.take i).sum ≤ (l.take k).sum := by
  obtain ⟨d, rfl⟩ := Nat.exists_eq_add_of_le h
  rw [List.take_add, List.sum_append]
  omega

theorem at_lt (ps : List Node) {i j : Nat} {p n : Node} (h : At ps i j p n) (k : Nat) (hk : i < k) :
    ((ps.take i).map count).sum + j < ((ps.take k).map count).sum := by
  obtain ⟨hp, c, hc, hn⟩ := h
  have hj : j < c.children.length := (List.getElem?_eq_some_iff.mp hn).1
  have hcount : c.children.length ≤ count p := by
    unfold count
    apply List.single_le_sum (fun _ _ => Nat.zero_le _)
    apply List.mem_map_of_mem (f := fun c : Node => c.children.length)
    rw [List.mem_filter]
    have := List.find?_some hc
    exact ⟨List.mem_of_find?_eq_some hc, this⟩
  have h1 : ((ps.take (i + 1)).map count).sum = ((ps.take i).map count).sum + count p := by
    rw [List.take_succ, hp]
    simp
  have h2 := sum_take_le (ps.map count) (i := i + 1) (k := k) (by omega)
  simp only [← List.map_take] at h2
  omega

theorem append_colons {a b c d : List Char} (hc : ∀ x ∈ c, x.isDigit = true) (hd : ∀ x ∈ d, x.isDigit = true)
    (h : a ++ [':', ':'] ++ c = b ++ [':', ':'] ++ d) : c = d := by
  have h' := congrArg List.reverse h
  simp only [List.reverse_append, List.append_assoc] at h'
  have key : ∀ (s t : List Char), (∀ x ∈ s, x.isDigit = true) →
      (s ++ ([':', ':'].reverse ++ t)).takeWhile Char.isDigit = s := by
    intro s t hs
    induction s with
    | nil => rfl
    | cons x s ih => rw [List.cons_append, List.takeWhile_cons_of_pos (hs x (by simp)), ih fun y hy => hs y (by simp [hy])]
  have h2 := congrArg (List.takeWhile Char.isDigit) h'
  rw [key _ _ (by simpa using hc), key _ _ (by simpa using hd)] at h2
  exact List.reverse_injective h2

/-- No two primitives are told by the same name. -/
theorem C141_names (ps : List Node) {i j i' j' : Nat} {p n p' n' : Node} (h : At ps i j p n) (h' : At ps i' j' p' n')
    (e : told ps i j p = told ps i' j' p') : i = i' ∧ j = j' := by
  have e1 := append_colons (Dialog.decimal_isDigit _) (Dialog.decimal_isDigit _) e
  have e2 : ((ps.take i).map count).sum + j = ((ps.take i').map count).sum + j' := by
    rw [← decimal_value (((ps.take i).map count).sum + j) 0, ← decimal_value (((ps.take i').map count).sum + j') 0, e1]
  rcases lt_trichotomy i i' with hi | rfl | hi
  · have := at_lt ps h i' hi; omega
  · exact ⟨rfl, by omega⟩
  · have := at_lt ps h' i hi; omega

/-! ## The warnings -/

theorem joined_eq (l : List (List Char)) : joined l = [',', ' '].intercalate l := by
  induction l with
  | nil => rfl
  | cons a l ih =>
    cases l with
    | nil => simp [joined, List.intercalate]
    | cons b l => simp only [joined, ih, List.intercalate]; simp

theorem warnable_of_known {ps : List Node} (hk : Known ps) {i j : Nat} {p n : Node} (h : At ps i j p n) (hp : p.name ∈ readKinds) :
    warnable n = true ↔ (Moved n ∨ n.name ∉ readShapes) := by
  unfold warnable
  rw [Bool.or_eq_true, Bool.and_eq_true, isTransformed_iff, decide_eq_true_iff, decide_eq_true_iff]
  have := hk.2 i j p n h hp
  tauto

theorem kindTold_iff (n : Node) (t : List Char) : t = kindTold n ↔ ToldKind n t := by
  unfold kindTold ToldKind
  by_cases h : Moved n
  · rw [if_pos ((isTransformed_iff n).mpr h)]; tauto
  · rw [if_neg (fun x => h ((isTransformed_iff n).mp x))]; tauto

theorem mem_flat (codec : Codec) (ps : List Node) (p n : Node) (id : Nat) :
    (p, n, id) ∈ flat codec (numbered ps 0) ↔
      ∃ i j, At ps i j p n ∧ p.name ∈ readKinds ∧ warnable n = true ∧ id = ((ps.take i).map count).sum + j := by
  have := mem_numbered ps 0 p n id
  unfold flat
  rw [List.mem_flatMap]
  constructor
  · rintro ⟨x, hx, h⟩
    split at h
    · rename_i hg
      rw [gives_eq, decide_eq_true_iff] at hg
      simp only [List.mem_map, warnedOf, List.mem_filter] at h
      obtain ⟨m, ⟨hm, hw⟩, e⟩ := h
      obtain ⟨rfl, rfl⟩ := Prod.mk.inj e
      obtain ⟨i, j, ha, hid⟩ := this.mp ⟨x, hx, rfl, hm⟩
      exact ⟨i, j, ha, hg, hw, by simpa using hid⟩
    · simp at h
  · rintro ⟨i, j, ha, hp, hw, hid⟩
    obtain ⟨x, hx, rfl, hm⟩ := this.mpr ⟨i, j, ha, by simpa using hid⟩
    refine ⟨x, hx, ?_⟩
    rw [gives_eq, decide_eq_true hp, if_pos rfl]
    exact List.mem_map_of_mem (by rw [warnedOf, List.mem_filter]; exact ⟨hm, hw⟩)

theorem numbered_fst (ps : List Node) : ∀ id, (numbered ps id).map (·.1) = ps := by
  induction ps with
  | nil => intro id; rfl
  | cons p ps ih => intro id; rw [numbered, List.map_cons, ih]

theorem numbered_map {α : Type} (F : Node → List (Node × Nat) → α) (G : Node → α) (h : ∀ p id, F p ((ownPrimitives p).zipIdx id) = G p)
    (ps : List Node) : ∀ id, (numbered ps id).map (fun x => F x.1 x.2) = ps.map G := by
  induction ps with
  | nil => intro id; rfl
  | cons p ps ih => intro id; rw [numbered, List.map_cons, ih, h, List.map_cons]

theorem warning_eq (message : String) (T N : List (List Char)) (h : T = [] ↔ N = []) :
    warning message T N = if T = [] then [] else [⟨message, [',', ' '].intercalate T, [',', ' '].intercalate N⟩] := by
  unfold warning
  by_cases hT : T = []
  · simp [hT]
  · have hN : N ≠ [] := fun x => hT (h.mpr x)
    simp [hT, hN, joined_eq]

theorem nil_iff {l : List (List Char)} {P : List Char → Prop} (h : ∀ t, t ∈ l ↔ P t) : l = [] ↔ ∀ t, ¬ P t := by
  rw [List.eq_nil_iff_forall_not_mem]
  exact forall_congr' fun t => not_congr (h t)

/-- When the document has nothing of a kind never heard of, the warnings name each property and each primitive left out, with their kinds,
each once, in order; there is no other warning, and none when nothing is left out. -/
theorem C141_partial (codec : Codec) (doc : List Node) (hk : Known (propertyNodes doc)) :
    ∃ T N t n : List (List Char),
      (T.Pairwise (· < ·) ∧ ∀ s, s ∈ T ↔ ∃ p ∈ propertyNodes doc, p.name ∉ readKinds ∧ s = p.name.toList) ∧
      (N.Pairwise (· < ·) ∧ ∀ s, s ∈ N ↔ ∃ p ∈ propertyNodes doc, p.name ∉ readKinds ∧ s = (p.attr? "Name").getD []) ∧
      (t.Pairwise (· < ·) ∧ ∀ s, s ∈ t ↔ ∃ i j p x, Left (propertyNodes doc) i j p x ∧ ToldKind x s) ∧
      (n.Pairwise (· < ·) ∧ ∀ s, s ∈ n ↔ ∃ i j p x, Left (propertyNodes doc) i j p x ∧ s = told (propertyNodes doc) i j p) ∧
      (warned codec doc).log =
        (if T = [] then [] else
          [⟨"Unsupported CSXCAD Properties:", [',', ' '].intercalate T, [',', ' '].intercalate N⟩]) ++
        (if t = [] then [] else
          [⟨"Unsupported CSXCAD Primitives:", [',', ' '].intercalate t, [',', ' '].intercalate n⟩]) := by
  unfold warned
  generalize propertyNodes doc = ps at hk ⊢
  rw [warnProperties_eq]
  have hleft : ∀ p ∈ ps, (p.name ∈ leftKinds ↔ p.name ∉ readKinds) := by
    intro p hp
    have h1 := hk.1 p hp
    constructor
    · intro h h'
      exact absurd (show ∃ x ∈ leftKinds, x ∈ readKinds from ⟨_, h, h'⟩) (by decide)
    · tauto
  have hT : ∀ (F : Node → List Char) (s : List Char), s ∈ adds ((leftOf (numbered ps 0)).map F) [] ↔
      ∃ p ∈ ps, p.name ∉ readKinds ∧ s = F p := by
    intro F s
    rw [mem_adds]
    simp only [List.not_mem_nil, or_false, List.mem_map, leftOf, List.mem_filter, numbered_fst, decide_eq_true_iff]
    constructor
    · rintro ⟨p, ⟨a, b⟩, rfl⟩; exact ⟨p, a, (hleft p a).mp b, rfl⟩
    · rintro ⟨p, a, b, rfl⟩; exact ⟨p, ⟨a, (hleft p a).mpr b⟩, rfl⟩
  have ht : ∀ s, s ∈ adds ((flat codec (numbered ps 0)).map fun x => kindTold x.2.1) [] ↔
      ∃ i j p x, Left ps i j p x ∧ ToldKind x s := by
    intro s
    rw [mem_adds]
    simp only [List.not_mem_nil, or_false, List.mem_map, Prod.exists]
    constructor
    · rintro ⟨p, x, id, hm, e⟩
      obtain ⟨i, j, ha, hp, hw, -⟩ := (mem_flat codec ps p x id).mp hm
      exact ⟨i, j, p, x, ⟨ha, hp, (warnable_of_known hk ha hp).mp hw⟩, (kindTold_iff x s).mp e.symm⟩
    · rintro ⟨i, j, p, x, ⟨ha, hp, hw⟩, e⟩
      exact ⟨p, x, _, (mem_flat codec ps p x _).mpr ⟨i, j, ha, hp, (warnable_of_known hk ha hp).mpr hw, rfl⟩,
        ((kindTold_iff x s).mpr e).symm⟩
  have hn : ∀ s, s ∈ adds ((flat codec (numbered ps 0)).map fun x => nameTold x.1 x.2.2) [] ↔
      ∃ i j p x, Left ps i j p x ∧ s = told ps i j p := by
    intro s
    rw [mem_adds]
    simp only [List.not_mem_nil, or_false, List.mem_map, Prod.exists]
    constructor
    · rintro ⟨p, x, id, hm, e⟩
      obtain ⟨i, j, ha, hp, hw, rfl⟩ := (mem_flat codec ps p x id).mp hm
      exact ⟨i, j, p, x, ⟨ha, hp, (warnable_of_known hk ha hp).mp hw⟩, e.symm⟩
    · rintro ⟨i, j, p, x, ⟨ha, hp, hw⟩, e⟩
      exact ⟨p, x, _, (mem_flat codec ps p x _).mpr ⟨i, j, ha, hp, (warnable_of_known hk ha hp).mpr hw, rfl⟩, e.symm⟩
  refine ⟨_, _, _, _, ⟨sorted_adds _ _ List.Pairwise.nil, hT fun p => p.name.toList⟩, ⟨sorted_adds _ _ List.Pairwise.nil, hT nameOf⟩,
    ⟨sorted_adds _ _ List.Pairwise.nil, ht⟩, ⟨sorted_adds _ _ List.Pairwise.nil, hn⟩, ?_⟩
  unfold Warned.log
  rw [warning_eq, warning_eq]
  · rw [nil_iff ht, nil_iff hn]
    constructor
    · rintro h s ⟨i, j, p, x, hl, -⟩; exact h _ ⟨i, j, p, x, hl, (kindTold_iff x _).mp rfl⟩
    · rintro h s ⟨i, j, p, x, hl, -⟩; exact h _ ⟨i, j, p, x, hl, rfl⟩
  · rw [nil_iff (hT fun p => p.name.toList), nil_iff (hT nameOf)]
    constructor
    · rintro h s ⟨p, a, b, -⟩; exact h _ ⟨p, a, b, rfl⟩
    · rintro h s ⟨p, a, b, -⟩; exact h _ ⟨p, a, b, rfl⟩

theorem length_readable (ns : List Node) : ∀ id, ((ns.zipIdx id).filter fun n => readable n.1).length =
    ns.countP fun n => decide (¬ Moved n ∧ n.name ∈ readShapes) := by
  induction ns with
  | nil => intro id; rfl
  | cons n ns ih =>
    intro id
    have : readable n = decide (¬ Moved n ∧ n.name ∈ readShapes) := by
      rw [Bool.eq_iff_iff, readable, Bool.and_eq_true, decide_eq_true_iff, decide_eq_true_iff, Bool.not_eq_true', ← isTransformed_iff]
      simp
    rw [List.zipIdx_cons, List.filter_cons, List.countP_cons, ← this, ← ih (id + 1)]
    split <;> simp_all

/-- The progress bar counts the primitives read, and those seen. -/
theorem C141_found (codec : Codec) (doc : List Node) :
    (warned codec doc).found = ((propertyNodes doc).map fun p => if p.name ∈ readKinds then
      (((child p.children "Primitives").map Node.children).getD []).countP fun n => decide (¬ Moved n ∧ n.name ∈ readShapes)
      else 0).sum ∧
    (warned codec doc).seen = ((propertyNodes doc).map fun p =>
      (((child p.children "Primitives").map Node.children).getD []).length).sum ∧
    (warned codec doc).found ≤ (warned codec doc).seen ∧
    (warned codec doc).seen ≤ ((propertyNodes doc).map count).sum := by
  have h1 : (warned codec doc).found = ((propertyNodes doc).map fun p => if p.name ∈ readKinds then
      (((child p.children "Primitives").map Node.children).getD []).countP fun n => decide (¬ Moved n ∧ n.name ∈ readShapes)
      else 0).sum := by
    unfold warned
    rw [warnProperties_eq]
    simp only [Nat.zero_add]
    rw [numbered_map (fun p ns => if gives codec p then (ns.filter fun n => readable n.1).length else 0) (fun p => if p.name ∈ readKinds then
      (((child p.children "Primitives").map Node.children).getD []).countP fun n => decide (¬ Moved n ∧ n.name ∈ readShapes)
      else 0)]
    intro p id
    rw [length_readable, gives_eq]
    by_cases h : p.name ∈ readKinds <;> simp [h, ownPrimitives]
  have h2 : (warned codec doc).seen = ((propertyNodes doc).map fun p =>
      (((child p.children "Primitives").map Node.children).getD []).length).sum := by
    unfold warned
    rw [warnProperties_eq]
    simp only [Nat.zero_add]
    rw [numbered_map (fun _ ns => ns.length) (fun p => (((child p.children "Primitives").map Node.children).getD []).length)]
    intro p id
    simp [ownPrimitives]
  refine ⟨h1, h2, ?_, ?_⟩
  · rw [h1, h2]
    apply List.sum_le_sum
    intro p _
    split
    · exact List.countP_le_length
    · exact Nat.zero_le _
  · rw [h2]
    apply List.sum_le_sum
    intro p _
    cases hc : child p.children "Primitives" with
    | none => simp
    | some c =>
      unfold count
      apply List.single_le_sum (fun _ _ => Nat.zero_le _)
      apply List.mem_map_of_mem (f := fun c : Node => c.children.length)
      rw [List.mem_filter]
      have := List.find?_some hc
      exact ⟨List.mem_of_find?_eq_some hc, this⟩

/-! ## Cases -/

/-- A document with these properties. -/
def withProperties (ps : List Node) : List Node := [.mk "ContinuousStructure" [] [] [.mk "Properties" [] [] ps]]

/-- A property. -/
def aProperty (kind name : String) (ns : List Node) : Node := .mk kind [("Name", name.toList)] [] [.mk "Primitives" [] [] ns]

/-- A box, moved. -/
def movedBox : Node := .mk "Box" [] [] [.mk "Transformation" [] [] [.mk "Translate" [] [] []]]

/-- Some of what is read and of what is not. -/
def mixed : List Node := withProperties
  [aProperty "DumpBox" "Et" [.mk "Box" [] [] []], aProperty "Metal" "gnd" [.mk "Box" [] [] [], .mk "Wire" [] [] [], movedBox]]

theorem at_iff (ps : List Node) (i j : Nat) (p n : Node) :
    At ps i j p n ↔ ps[i]? = some p ∧ (((child p.children "Primitives").map Node.children).getD [])[j]? = some n := by
  unfold At
  cases child p.children "Primitives" <;> simp

example (codec : Codec) : (warned codec mixed).log =
    [⟨"Unsupported CSXCAD Properties:", "DumpBox".toList, "Et".toList⟩,
     ⟨"Unsupported CSXCAD Primitives:", "Transformed Box, Wire".toList, "gnd::2, gnd::3".toList⟩] ∧
    (warned codec mixed).found = 1 ∧ (warned codec mixed).seen = 4 := by
  have e : warned codec mixed = warned ⟨fun _ => [], fun _ => 0⟩ mixed := by
    unfold warned
    have hg : gives codec = gives ⟨fun _ => [], fun _ => 0⟩ := funext fun p => by rw [gives_eq, gives_eq]
    rw [warnProperties_eq, warnProperties_eq]
    simp only [flat, hg]
  rw [e]
  decide +kernel

example : Known (propertyNodes mixed) := by
  have e : propertyNodes mixed = [aProperty "DumpBox" "Et" [.mk "Box" [] [] []],
      aProperty "Metal" "gnd" [.mk "Box" [] [] [], .mk "Wire" [] [] [], movedBox]] := rfl
  rw [e]
  refine ⟨?_, ?_⟩
  · intro p hp
    simp only [List.mem_cons, List.not_mem_nil, or_false] at hp
    rcases hp with rfl | rfl
    · right; decide
    · left; decide
  · intro i j p n h hp
    rw [at_iff] at h
    obtain ⟨h1, h2⟩ := h
    match i, h1 with
    | 0, h1 =>
      cases h1
      exact absurd hp (by decide)
    | 1, h1 =>
      cases h1
      match j, h2 with
      | 0, h2 => cases h2; right; left; decide
      | 1, h2 => cases h2; right; right; decide
      | 2, h2 => cases h2; left; exact (isTransformed_iff _).mp rfl

/-- A property, or a primitive, of a kind never heard of is left out without a word. -/
theorem C141_false (codec : Codec) (f : Flags) (dirs : List Point) :
    (∃ p : Node, p.name ∉ readKinds ∧ (ownPrimitives p).length = 1 ∧
      parseProperties f dirs (readProperties codec (withProperties [p])) = some [] ∧ (warned codec (withProperties [p])).log = []) ∧
    ∃ p n : Node, p.name ∈ readKinds ∧ n.name ∉ readShapes ∧ At (propertyNodes (withProperties [p])) 0 0 p n ∧
      parseProperties f dirs (readProperties codec (withProperties [p])) = some [] ∧ (warned codec (withProperties [p])).log = [] := by
  refine ⟨⟨aProperty "AbsorbingBC" "abc" [.mk "Box" [] [] []], by decide, rfl, rfl, rfl⟩,
    aProperty "Metal" "gnd" [.mk "Cone" [] [] []], .mk "Cone" [] [] [], by decide, by decide, ?_, rfl, rfl⟩
  rw [at_iff]
  exact ⟨rfl, rfl⟩

end Verif.Csx
