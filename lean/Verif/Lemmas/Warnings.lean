import Verif.Spec.Warnings
import Verif.Lemmas.Text
import Mathlib.Data.List.Nodup

/-!
# Lemmas on the warnings of the parser
-/

namespace Verif.Csx
open Warn

/-- A set after members are added. -/
def adds (l : List (List Char)) (s : List (List Char)) : List (List Char) := l.foldl (fun s a => emplace a s) s

theorem mem_emplace (a b : List Char) (s : List (List Char)) : b ∈ emplace a s ↔ b = a ∨ b ∈ s := by
  unfold emplace
  split
  · rename_i h
    exact ⟨Or.inr, fun hb => hb.elim (fun e => e ▸ h) id⟩
  · rw [List.mem_orderedInsert]

theorem sorted_emplace (a : List Char) (s : List (List Char)) (h : s.Pairwise (· < ·)) : (emplace a s).Pairwise (· < ·) := by
  unfold emplace
  split
  · exact h
  · rename_i ha
    have h1 : s.Pairwise (· ≤ ·) := h.imp le_of_lt
    have h2 := List.Pairwise.orderedInsert (r := (· ≤ ·)) a s h1
    have h3 : (s.orderedInsert (· ≤ ·) a).Nodup := by
      rw [(List.perm_orderedInsert (· ≤ ·) a s).nodup_iff, List.nodup_cons]
      exact ⟨ha, h.imp ne_of_lt⟩
    exact (h2.and h3).imp fun ⟨p, q⟩ => lt_of_le_of_ne p q

theorem mem_adds (l : List (List Char)) : ∀ (s : List (List Char)) (b : List Char), b ∈ adds l s ↔ b ∈ l ∨ b ∈ s := by
  induction l with
  | nil => intro s b; simp [adds]
  | cons a l ih =>
    intro s b
    show b ∈ adds l (emplace a s) ↔ _
    rw [ih, mem_emplace, List.mem_cons]
    tauto

theorem sorted_adds (l : List (List Char)) : ∀ s : List (List Char), s.Pairwise (· < ·) → (adds l s).Pairwise (· < ·) := by
  induction l with
  | nil => exact fun s h => h
  | cons a l ih => exact fun s h => ih _ (sorted_emplace a s h)

theorem length_adds (l : List (List Char)) : ∀ s : List (List Char), l.Nodup → (∀ a ∈ l, a ∉ s) →
    (adds l s).length = l.length + s.length := by
  induction l with
  | nil => intro s _ _; simp [adds]
  | cons a l ih =>
    intro s hn hs
    rw [List.nodup_cons] at hn
    show (adds l (emplace a s)).length = _
    rw [ih _ hn.2]
    · have : a ∉ s := hs a (by simp)
      simp only [emplace, this, if_false, List.orderedInsert_length, List.length_cons]
      omega
    · intro b hb hm
      rw [mem_emplace] at hm
      rcases hm with rfl | hm
      · exact hn.1 hb
      · exact hs b (by simp [hb]) hm

theorem adds_append (l l' s : List (List Char)) : adds (l ++ l') s = adds l' (adds l s) := List.foldl_append

/-- Is the primitive warned of? -/
def warnable (n : Node) : Bool := isTransformed n || (decide (n.name ∉ readShapes) && decide (n.name ∈ leftShapes))

/-- Is the primitive read? -/
def readable (n : Node) : Bool := !isTransformed n && decide (n.name ∈ readShapes)

/-- The kind told of a primitive. -/
def kindTold (n : Node) : List Char := if isTransformed n then "Transformed ".toList ++ n.name.toList else n.name.toList

/-- The name told of a primitive of a number. -/
def nameTold (p : Node) (id : Nat) : List Char := nameOf p ++ "::".toList ++ decimal id

theorem warnPrimitive_eq (p n : Node) (id : Nat) (w : Warned) :
    warnPrimitive p n id w = (readable n, if warnable n then w.primitive (kindTold n) (nameTold p id) else w) := by
  unfold warnPrimitive warnable readable kindTold nameTold
  cases isTransformed n
  · by_cases h : n.name ∈ readShapes
    · have h' := h
      unfold readShapes at h'
      simp only [h, h', Bool.false_eq_true, if_false, if_true, Bool.false_or, Bool.not_false, decide_true, Bool.and_self,
        not_true_eq_false, decide_false, Bool.false_and]
    · have h' := h
      unfold readShapes at h'
      by_cases k : n.name ∈ leftShapes
      · have k' := k
        unfold leftShapes at k'
        simp only [h, h', k, k', Bool.false_eq_true, if_false, if_true, Bool.false_or, Bool.not_false, decide_true, Bool.and_self,
          not_false_eq_true, decide_false, Bool.and_false]
      · have k' := k
        unfold leftShapes at k'
        simp only [h, h', k, k', Bool.false_eq_true, if_false, Bool.false_or, Bool.not_false, decide_false, Bool.and_false]
  · rfl

/-- The primitives warned of, of a property. -/
def warnedOf (ns : List (Node × Nat)) : List (Node × Nat) := ns.filter fun n => warnable n.1

theorem warnPrimitives_true (p : Node) (ns : List (Node × Nat)) : ∀ w : Warned,
    warnPrimitives true p ns w =
      { propertyTypes := w.propertyTypes, propertyNames := w.propertyNames,
        primitiveTypes := adds ((warnedOf ns).map fun n => kindTold n.1) w.primitiveTypes,
        primitiveNames := adds ((warnedOf ns).map fun n => nameTold p n.2) w.primitiveNames,
        found := w.found + (ns.filter fun n => readable n.1).length, seen := w.seen + ns.length } := by
  induction ns with
  | nil => intro w; rfl
  | cons a ns ih =>
    intro w
    obtain ⟨n, id⟩ := a
    have hr : readable n = true → warnable n = false := by
      unfold readable warnable
      cases isTransformed n <;> simp
      intro h h'
      exact absurd h h'
    simp only [warnPrimitives, if_true, warnPrimitive_eq, ih, warnedOf, List.filter_cons, List.length_cons]
    cases h1 : warnable n <;> cases h2 : readable n <;>
      simp only [Bool.false_eq_true, if_false, if_true, Warned.primitive, List.map_cons, List.length_cons] <;>
      simp only [adds, List.foldl_cons, Warned.mk.injEq, true_and] <;> omega

theorem warnPrimitives_false (p : Node) (ns : List (Node × Nat)) : ∀ w : Warned,
    warnPrimitives false p ns w = { w with seen := w.seen + ns.length } := by
  induction ns with
  | nil => intro w; rfl
  | cons a ns ih =>
    intro w
    obtain ⟨n, id⟩ := a
    simp only [warnPrimitives, Bool.false_eq_true, if_false, ih, List.length_cons, Warned.mk.injEq, true_and]
    omega

/-- Does the property give a material? -/
def gives (codec : Codec) (p : Node) : Bool := (parseProperty (decodeKind codec p)).isSome

theorem gives_eq (codec : Codec) (p : Node) : gives codec p = decide (p.name ∈ readKinds) := by
  unfold gives decodeKind readKinds
  simp only [List.mem_cons, List.not_mem_nil, or_false]
  by_cases h1 : p.name = "BackgroundMaterial"
  · simp [h1, decodeMaterial, parseProperty]
  by_cases h2 : p.name = "Material" ∨ p.name = "DispersiveMaterial" ∨ p.name = "DebyeMaterial" ∨ p.name = "LorentzMaterial"
  · simp only [h1, h2, if_false, if_true, decodeMaterial, parseProperty, Option.isSome_some]
    symm
    rw [decide_eq_true_iff]
    tauto
  simp only [not_or] at h2
  obtain ⟨a, b, c, d⟩ := h2
  simp only [h1, a, b, c, d, if_false, false_or]
  by_cases e1 : p.name = "Metal"
  · simp [e1, parseProperty]
  by_cases e2 : p.name = "ConductingSheet"
  · simp [e2, parseProperty]
  by_cases e3 : p.name = "LumpedElement"
  · simp [e3, parseProperty]
  by_cases e4 : p.name = "Excitation"
  · simp [e4, parseProperty]
  by_cases e5 : p.name = "ProbeBox"
  · simp [e5, parseProperty]
  simp [e1, e2, e3, e4, e5, parseProperty]

/-- The primitives warned of, with their properties. -/
def flat (codec : Codec) (l : List (Node × List (Node × Nat))) : List (Node × Node × Nat) :=
  l.flatMap fun x => if gives codec x.1 then (warnedOf x.2).map fun n => (x.1, n) else []

/-- The properties warned of. -/
def leftOf (l : List (Node × List (Node × Nat))) : List Node := (l.map (·.1)).filter fun p => decide (p.name ∈ leftKinds)

theorem warnProperties_eq (codec : Codec) (l : List (Node × List (Node × Nat))) : ∀ w : Warned,
    warnProperties codec l w =
      { propertyTypes := adds ((leftOf l).map fun p => p.name.toList) w.propertyTypes,
        propertyNames := adds ((leftOf l).map nameOf) w.propertyNames,
        primitiveTypes := adds ((flat codec l).map fun x => kindTold x.2.1) w.primitiveTypes,
        primitiveNames := adds ((flat codec l).map fun x => nameTold x.1 x.2.2) w.primitiveNames,
        found := w.found + (l.map fun x => if gives codec x.1 then (x.2.filter fun n => readable n.1).length else 0).sum,
        seen := w.seen + (l.map fun x => x.2.length).sum } := by
  induction l with
  | nil => intro w; rfl
  | cons a l ih =>
    intro w
    obtain ⟨p, ns⟩ := a
    have hw : warnProperty p w = { w with
        propertyTypes := adds ((([p] : List Node).filter fun p => decide (p.name ∈ leftKinds)).map fun p => p.name.toList) w.propertyTypes,
        propertyNames := adds ((([p] : List Node).filter fun p => decide (p.name ∈ leftKinds)).map nameOf) w.propertyNames } := by
      unfold warnProperty leftKinds
      by_cases h : p.name ∈ ["DumpBox", "ResBox", "DiscMaterial", "Unknown"]
      · simp only [h, if_true, decide_true, List.filter_cons, List.filter_nil]; rfl
      · simp only [h, if_false, decide_false, Bool.false_eq_true, List.filter_cons, List.filter_nil]; rfl
    have hl : leftOf ((p, ns) :: l) = ([p].filter fun p => decide (p.name ∈ leftKinds)) ++ leftOf l := by
      unfold leftOf
      rw [List.map_cons, ← List.singleton_append, List.filter_append]
    have hf : flat codec ((p, ns) :: l) =
        (if gives codec p then (warnedOf ns).map fun n => (p, n) else []) ++ flat codec l := rfl
    rw [warnProperties, ih, hl, hf, hw]
    show _ = _
    cases hg : (parseProperty (decodeKind codec p)).isSome
    · have hg' : gives codec p = false := hg
      simp only [warnPrimitives_false, hg', Bool.false_eq_true, if_false, List.nil_append, List.map_append, adds_append, List.map_cons,
        List.sum_cons, Warned.mk.injEq, true_and]
      constructor <;> omega
    · have hg' : gives codec p = true := hg
      simp only [warnPrimitives_true, hg', if_true, List.map_append, adds_append, List.map_cons, List.map_map, Function.comp_def,
        List.sum_cons, Warned.mk.injEq, true_and]
      constructor <;> omega

theorem isTransformed_iff (n : Node) : isTransformed n = true ↔ Moved n := by
  unfold isTransformed Moved
  cases h : child n.children "Transformation" with
  | none => simp
  | some t =>
    obtain ⟨a, b, text, ch⟩ := t
    cases text <;> cases ch <;> simp [Node.text, Node.children]

theorem mem_numbered (ps : List Node) : ∀ (id0 : Nat) (p n : Node) (id : Nat),
    (∃ x ∈ numbered ps id0, x.1 = p ∧ (n, id) ∈ x.2) ↔
      ∃ i j, At ps i j p n ∧ id = id0 + (((ps.take i).map count).sum + j) := by
  induction ps with
  | nil =>
    intro id0 p n id
    simp [numbered, At]
  | cons q ps ih =>
    intro id0 p n id
    have hc : (allPrimitives q).length = count q := by
      simp [allPrimitives, count, childrenNamed, List.length_flatMap]
    have h1 : (n, id) ∈ (ownPrimitives q).zipIdx id0 ↔
        ∃ j, (∃ c, child q.children "Primitives" = some c ∧ c.children[j]? = some n) ∧ id = id0 + j := by
      rw [List.mem_zipIdx_iff_le_and_getElem?_sub]
      unfold ownPrimitives
      cases hh : child q.children "Primitives" with
      | none => simp
      | some c =>
        simp only [Option.map_some, Option.getD_some, Option.some.injEq, exists_eq_left']
        constructor
        · rintro ⟨a, b⟩; exact ⟨_, b, by omega⟩
        · rintro ⟨j, a, rfl⟩; exact ⟨by omega, by simpa using a⟩
    constructor
    · rintro ⟨x, hx, rfl, hn⟩
      rw [numbered, List.mem_cons] at hx
      rcases hx with rfl | hx
      · obtain ⟨j, hj, rfl⟩ := h1.mp hn
        exact ⟨0, j, ⟨rfl, hj⟩, by simp⟩
      · obtain ⟨i, j, ⟨ha, hb⟩, rfl⟩ := (ih _ _ _ _).mp ⟨x, hx, rfl, hn⟩
        refine ⟨i + 1, j, ⟨by simpa using ha, hb⟩, ?_⟩
        simp only [List.take_succ_cons, List.map_cons, List.sum_cons, hc]
        omega
    · rintro ⟨i, j, ⟨ha, hb⟩, rfl⟩
      cases i with
      | zero =>
        simp only [List.getElem?_cons_zero, Option.some.injEq] at ha
        subst ha
        exact ⟨_, by rw [numbered]; exact List.mem_cons_self, rfl, h1.mpr ⟨j, hb, by simp⟩⟩
      | succ i =>
        simp only [List.getElem?_cons_succ] at ha
        obtain ⟨x, hx, e, hn⟩ := (ih (id0 + (allPrimitives q).length) p n
          (id0 + (allPrimitives q).length + (((ps.take i).map count).sum + j))).mpr ⟨i, j, ⟨ha, hb⟩, rfl⟩
        refine ⟨x, by rw [numbered]; exact List.mem_cons_of_mem _ hx, e, ?_⟩
        simp only [List.take_succ_cons, List.map_cons, List.sum_cons, ← hc]
        have : id0 + ((allPrimitives q).length + ((ps.take i).map count).sum + j) =
            id0 + (allPrimitives q).length + (((ps.take i).map count).sum + j) := by omega
        rw [this]
        exact hn

end Verif.Csx
