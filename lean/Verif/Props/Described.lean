import Verif.Spec.Described
import Verif.Model.Decode
import Verif.Props.Document
import Verif.Props.Lines

/-!
# C110: a document is read as what it describes
-/

namespace Verif.Csx
open Spec
open Verif.Geom (Point)

theorem child_lacks {l : List Node} {name : String} : child l name = none ↔ Lacks l name := by
  unfold child Lacks
  simp

theorem nodeAt_one {l : List Node} {name : String} {r : Option Node} : NodeAt l [name] r ↔ child l name = r := by
  unfold NodeAt
  constructor
  · rintro (⟨n, h, rfl⟩ | ⟨h, rfl⟩)
    · exact child_iff.2 h
    · exact child_lacks.2 h
  · rintro rfl
    cases h : child l name with
    | none => exact Or.inr ⟨child_lacks.1 h, rfl⟩
    | some n => exact Or.inl ⟨n, child_iff.1 h, rfl⟩

theorem nodeAt_more {l : List Node} {name next : String} {rest : List String} {r : Option Node} :
    NodeAt l (name :: next :: rest) r ↔ (∃ n, child l name = some n ∧ NodeAt n.children (next :: rest) r) ∨
      (child l name = none ∧ r = none) := by
  rw [NodeAt]
  · simp only [child_iff, child_lacks]
  · simp

theorem nodeAt_two {l : List Node} {a b : String} {r : Option Node} :
    NodeAt l [a, b] r ↔ ((child l a).bind fun n => child n.children b) = r := by
  rw [nodeAt_more]
  cases child l a with
  | none => simp [eq_comm]
  | some n => simp [nodeAt_one]

theorem nodeAt_three {l : List Node} {a b c : String} {r : Option Node} :
    NodeAt l [a, b, c] r ↔ ((child l a).bind fun n => (child n.children b).bind fun m => child m.children c) = r := by
  rw [nodeAt_more]
  cases child l a with
  | none => simp [eq_comm]
  | some n => simp [nodeAt_two]

theorem value_iff {α : Type} {read : List Char → α} {r : Option Node} {name : String} {default v : α} :
    Value read r name default v ↔ ((r.bind fun n => n.attr? name).map read).getD default = v := by
  unfold Value
  cases r with
  | none => simp [eq_comm]
  | some n =>
    simp only [Option.bind_some, Option.some.injEq]
    cases h : n.attr? name with
    | none =>
      have hn : ∀ t, ¬ HasAttr n name t := fun t ht => by rw [attr_iff.2 ht] at h; simp at h
      constructor
      · rintro (⟨m, t, rfl, ht, -⟩ | ⟨-, rfl⟩)
        · exact absurd ht (hn t)
        · rfl
      · rintro rfl
        exact Or.inr ⟨fun m t e => e ▸ hn t, rfl⟩
    | some t =>
      constructor
      · rintro (⟨m, t', rfl, ht, rfl⟩ | ⟨hn, -⟩)
        · rw [attr_iff.2 ht] at h
          obtain rfl := Option.some.inj h
          rfl
        · exact absurd (attr_iff.1 h) (hn n t rfl)
      · rintro rfl
        exact Or.inl ⟨n, t, rfl, attr_iff.1 h, rfl⟩

theorem value_number {codec : Codec} {r : Option Node} {name : String} {default v : ℚ} :
    Value codec.read r name default v ↔ number codec r name default = v := value_iff

theorem value_natural {r : Option Node} {name : String} {default v : Nat} :
    Value asUint r name default v ↔ natural r name default = v := value_iff

theorem isPoint_iff {codec : Codec} {r : Option Node} {p : Point3} : IsPoint codec r p ↔ point3 codec r = p := by
  unfold IsPoint point3
  rw [value_number, value_number, value_number]
  cases p
  simp

theorem isVertex_iff {codec : Codec} {n : Node} {p : Point} : IsVertex codec n p ↔ point2 codec n = p := by
  unfold IsVertex point2
  rw [value_number, value_number]
  cases p
  simp

theorem picks_iff {name : String} {l ns : List Node} : Picks name l ns ↔ (l.filter fun c => c.name == name) = ns := by
  constructor
  · intro h
    induction h with
    | nil => rfl
    | take h _ ih => rw [List.filter_cons_of_pos (by simp [h]), ih]
    | skip h _ ih => rw [List.filter_cons_of_neg (by simp [h]), ih]
  · rintro rfl
    induction l with
    | nil => exact .nil
    | cons n l ih =>
      by_cases h : n.name = name
      · rw [List.filter_cons_of_pos (by simp [h])]; exact .take h ih
      · rw [List.filter_cons_of_neg (by simp [h])]; exact .skip h ih

theorem forall₂_map_iff {α β : Type} {R : α → β → Prop} {f : α → β} (h : ∀ a b, R a b ↔ f a = b) {l : List α} {m : List β} :
    List.Forall₂ R l m ↔ l.map f = m := by
  have : R = fun a b => f a = b := by
    funext a b
    exact propext (h a b)
  rw [this]
  constructor
  · intro h
    induction h with
    | nil => rfl
    | cons e _ ih => rw [List.map_cons, e, ih]
  · rintro rfl
    rw [List.forall₂_map_right_iff, List.forall₂_same]
    exact fun _ _ => rfl

theorem points_iff {codec : Codec} {n : Node} {name : String} {ps : List Point3} :
    Points codec n name ps ↔ ((childrenNamed n name).map fun c => point3 codec (some c)) = ps := by
  unfold Points childrenNamed
  simp only [picks_iff]
  rw [exists_eq_left', forall₂_map_iff (f := fun c => point3 codec (some c)) fun a b => isPoint_iff]

theorem vertices_iff {codec : Codec} {n : Node} {ps : List Point} :
    Vertices codec n ps ↔ (childrenNamed n "Vertex").map (point2 codec) = ps := by
  unfold Vertices childrenNamed
  simp only [picks_iff]
  rw [exists_eq_left', forall₂_map_iff (f := point2 codec) fun a b => isVertex_iff]

theorem corner_iff {codec : Codec} {n : Node} {name : String} {p : Point3} :
    Corner codec n name p ↔ point3 codec (child n.children name) = p := by
  unfold Corner
  simp only [nodeAt_one]
  rw [exists_eq_left', isPoint_iff]

/-- C110. A node is read as the shape it stands for; it stands for exactly one. -/
theorem C110_shape (codec : Codec) (n : Node) (s : Shape) : Draws codec n s ↔ decodeShape codec n = s := by
  constructor
  · intro h
    unfold decodeShape
    cases h with
    | box hn h1 h2 => rw [corner_iff] at h1 h2; simp [hn, h1, h2]
    | multibox hn h1 h2 => rw [points_iff] at h1 h2; simp [hn, h1, h2]
    | linpoly hn h1 h2 h3 h4 => rw [value_natural] at h1; rw [value_number] at h2 h3; rw [vertices_iff] at h4; simp [hn, h1, h2, h3, h4]
    | polygon hn h1 h2 h4 => rw [value_natural] at h1; rw [value_number] at h2; rw [vertices_iff] at h4; simp [hn, h1, h2, h4]
    | sphere hn h1 h2 => rw [corner_iff] at h1; rw [value_number] at h2; simp [hn, h1, h2]
    | cylinder hn h1 h2 h3 => rw [corner_iff] at h1 h2; rw [value_number] at h3; simp [hn, h1, h2, h3]
    | point hn h1 => rw [isPoint_iff] at h1; simp [hn, h1]
    | curve hn h1 => rw [points_iff] at h1; simp [hn, h1]
    | other hn =>
      simp only [List.mem_cons, List.not_mem_nil, or_false, not_or] at hn
      obtain ⟨h1, h2, h3, h4, h5, h6, h7, h8⟩ := hn
      simp [h1, h2, h3, h4, h5, h6, h7, h8]
  · rintro rfl
    unfold decodeShape
    split_ifs with h1 h2 h3 h4 h5 h6 h7 h8
    · exact .box h1 (corner_iff.2 rfl) (corner_iff.2 rfl)
    · exact .multibox h2 (points_iff.2 rfl) (points_iff.2 rfl)
    · exact .linpoly h3 (value_natural.2 rfl) (value_number.2 rfl) (value_number.2 rfl) (vertices_iff.2 rfl)
    · exact .polygon h4 (value_natural.2 rfl) (value_number.2 rfl) (vertices_iff.2 rfl)
    · exact .sphere h5 (corner_iff.2 rfl) (value_number.2 rfl)
    · exact .cylinder h6 (corner_iff.2 rfl) (corner_iff.2 rfl) (value_number.2 rfl)
    · exact .point h7 (isPoint_iff.2 rfl)
    · exact .curve h8 (points_iff.2 rfl)
    · exact .other (by simp [h1, h2, h3, h4, h5, h6, h7, h8])

theorem transformed_iff {n : Node} :
    isTransformed n = true ↔ ∃ t, First n.children "Transformation" t ∧ (t.text ≠ [] ∨ t.children ≠ []) := by
  unfold isTransformed
  simp only [← child_iff]
  cases child n.children "Transformation" with
  | none => simp
  | some t =>
    obtain ⟨a, b, c, d⟩ := t
    simp only [Option.some.injEq, exists_eq_left', Node.text, Node.children]
    cases c <;> cases d <;> simp

theorem isPrimitive_iff {codec : Codec} {n : Node} {p : Primitive} : IsPrimitive codec n p ↔ decodePrimitive codec n = p := by
  obtain ⟨t, pr, s⟩ := p
  unfold IsPrimitive decodePrimitive
  rw [C110_shape, value_natural, ← transformed_iff]
  simp only [Primitive.mk.injEq]
  cases isTransformed n <;> cases t <;> simp

theorem isMaterial_iff {codec : Codec} {r : Option Node} {e m k : ℚ} :
    IsMaterial codec r e m k ↔ decodeMaterial codec r = .material e m k := by
  unfold IsMaterial decodeMaterial
  rw [value_number, value_number, value_number]
  simp

theorem isKind_iff {codec : Codec} {n : Node} {k : PropertyKind} : IsKind codec n k ↔ decodeKind codec n = k := by
  constructor
  · intro h
    unfold decodeKind
    cases h with
    | background hn h => rw [if_pos hn, isMaterial_iff.1 h]
    | material hn h1 h2 =>
      rw [nodeAt_one] at h1
      subst h1
      simp only [materialNames, List.mem_cons, List.not_mem_nil, or_false] at hn
      rw [if_neg, if_pos hn, isMaterial_iff.1 h2]
      intro e
      rw [e] at hn
      revert hn
      decide
    | metal hn => simp [hn]
    | conductingSheet hn => simp [hn]
    | lumpedElement hn => simp [hn]
    | excitation hn => simp [hn]
    | probeBox hn => simp [hn]
    | other h1 h2 =>
      simp only [materialNames, List.mem_cons, List.not_mem_nil, or_false, not_or] at h1 h2
      obtain ⟨a1, a2, a3, a4⟩ := h1
      obtain ⟨b1, b2, b3, b4, b5, b6⟩ := h2
      simp [a1, a2, a3, a4, b1, b2, b3, b4, b5, b6]
  · rintro rfl
    unfold decodeKind
    split_ifs with h1 h2 h3 h4 h5 h6 h7
    · exact .background h1 (isMaterial_iff.2 rfl)
    · exact .material (by simpa [materialNames] using h2) (nodeAt_one.2 rfl) (isMaterial_iff.2 rfl)
    · exact .metal h3
    · exact .conductingSheet h4
    · exact .lumpedElement h5
    · exact .excitation h6
    · exact .probeBox h7
    · exact .other (by simpa [materialNames] using h2) (by simp [h1, h3, h4, h5, h6, h7])

/-- C110. A node is read as the property it stands for, with its primitives; it stands for exactly one. -/
theorem C110_property (codec : Codec) (n : Node) (p : Property) : IsProperty codec n p ↔ decodeProperty codec n = p := by
  obtain ⟨k, ps⟩ := p
  unfold IsProperty decodeProperty inside
  simp only [nodeAt_one]
  rw [exists_eq_left', isKind_iff, forall₂_map_iff (f := decodePrimitive codec) fun a b => isPrimitive_iff]
  simp

/-- A sheet of which the ends are in the other order, with a node that is no point, and a second `P1`. -/
example : IsProperty wholeCodec (.mk "ConductingSheet" [] [] [.mk "Primitives" [] [] [.mk "Box" [("Priority", ['1', '2'])] []
      [.mk "P2" [("X", ['1'])] [] [], .mk "P3" [] [] [], .mk "P1" [("Z", ['3'])] [] [], .mk "P1" [("Z", ['4'])] [] []]]])
    ⟨.conductingSheet, [⟨false, 12, .box ⟨0, 0, 3⟩ ⟨1, 0, 0⟩⟩]⟩ ∧
    Draws wholeCodec (.mk "MultiBox" [] [] [.mk "StartP" [("X", ['1'])] [] [], .mk "EndP" [("Y", ['2'])] [] [],
      .mk "StartP" [("Z", ['3'])] [] []]) (.multibox [⟨1, 0, 0⟩, ⟨0, 0, 3⟩] [⟨0, 2, 0⟩]) :=
  ⟨(C110_property _ _ _).2 (by rfl), (C110_shape _ _ _).2 (by rfl)⟩

theorem structure_one {doc : List Node} {csx : Node} (h : StructureOf doc csx) : OnePlace doc := by
  rcases h with ⟨⟨pre, post, rfl, hn, -⟩, h⟩ | ⟨h, o, ho, ⟨pre, post, e, hn, -⟩⟩
  · exact Or.inl ⟨⟨csx, by simp, hn⟩, h⟩
  · exact Or.inr ⟨h, o, ho, csx, by rw [e]; simp, hn⟩

theorem structure_read {doc : List Node} {csx : Node} (h : StructureOf doc csx) : readStructure doc = some csx := by
  rcases h with ⟨h, hno⟩ | ⟨h, o, ho, hc⟩
  · rw [readStructure_top hno]; exact child_iff.2 h
  · exact readStructure_first ho (child_iff.2 hc)

theorem properties_read {codec : Codec} {doc : List Node} {csx : Node} (h : StructureOf doc csx) {props : List Property}
    (hp : PropertiesOf codec csx props) : readProperties codec doc = props := by
  obtain ⟨n, hn, hps⟩ := hp
  rw [forall₂_map_iff fun a b => C110_property codec a b] at hps
  have hc := child_iff.2 hn
  have key : (select doc (rooted doc ["ContinuousStructure", "Properties"])).head? = some n := by
    rcases h with ⟨h, hno⟩ | ⟨h, o, ho, hcs⟩
    · have e : select doc ["openEMS", "ContinuousStructure"] = [] := by
        rw [List.eq_nil_iff_forall_not_mem]
        intro m hm
        simp only [select, List.mem_flatMap, List.mem_filter, beq_iff_eq] at hm
        obtain ⟨o, ⟨ho, ho'⟩, hm, hm'⟩ := hm
        exact hno o ho ho' m hm hm'
      rw [rooted, e, if_pos (by rfl), select_two]
      obtain ⟨pre, post, rfl, hname, hpre⟩ := h
      rw [List.filter_append, List.filter_cons_of_pos (by simp [hname]),
        List.filter_eq_nil_iff.2 (by intro m hm; simpa using hpre m hm)]
      simp [hc]
    · have hcs' := child_iff.2 hcs
      have e : (select doc ["openEMS", "ContinuousStructure"]).isEmpty = false := by
        have : (select doc ["openEMS", "ContinuousStructure"]).head? = some csx := by
          rw [select_two]
          obtain ⟨pre, post, rfl, hname, hpre⟩ := ho
          rw [List.filter_append, List.filter_cons_of_pos (by simp [hname]),
            List.filter_eq_nil_iff.2 (by intro m hm; simpa using hpre m hm)]
          simp [hcs']
        cases hsel : select doc ["openEMS", "ContinuousStructure"] with
        | nil => rw [hsel] at this; simp at this
        | cons a l => rfl
      rw [rooted, e, if_neg (by simp)]
      obtain ⟨pre, post, rfl, hname, hpre⟩ := ho
      obtain ⟨pre', post', hch, hname', hpre'⟩ := hcs
      have e1 : select (pre ++ o :: post) ["openEMS", "ContinuousStructure", "Properties"] =
          ((pre ++ o :: post).filter fun c => c.name == "openEMS").flatMap fun c => select c.children ["ContinuousStructure", "Properties"] := rfl
      rw [e1, List.filter_append, List.filter_cons_of_pos (by simp [hname]),
        List.filter_eq_nil_iff.2 (by intro m hm; simpa using hpre m hm), List.nil_append, List.flatMap_cons]
      have e2 : (select o.children ["ContinuousStructure", "Properties"]).head? = some n := by
        rw [select_two, hch, List.filter_append, List.filter_cons_of_pos (by simp [hname']),
          List.filter_eq_nil_iff.2 (by intro m hm; simpa using hpre' m hm)]
        simp [hc]
      rw [List.head?_append, e2]
      rfl
  rw [readProperties, key, ← hps]
  rfl

theorem listed_read {l : List Node} {path : List String} {unit : Nat} {xs : List ℚ} (h : Listed l path unit xs) {r : Option Node}
    (hr : ∀ r', NodeAt l path r' → r' = r) :
    ∃ lines, readLines ((r.map Node.text).getD []) = some lines ∧ (lines.map (scale unit)).map Signed.value = xs := by
  obtain ⟨r', ys, h1, h2, rfl⟩ := h
  obtain rfl := hr r' h1
  obtain ⟨lines, h3, rfl⟩ := C100_read h2
  refine ⟨lines, h3, ?_⟩
  rw [List.map_map, List.map_map]
  apply List.map_congr_left
  intro s _
  simp only [Function.comp, scale, Signed.value]
  by_cases hn : s.neg = true <;> simp [hn]

theorem addLines_eq {x y z : List Signed} {a b c : List ℚ} (hx : x.map Signed.value = a) (hy : y.map Signed.value = b)
    (hz : z.map Signed.value = c) : addAllLines x y z = asAdded a b c := by
  subst hx hy hz
  simp [addAllLines, addLines, asAdded, List.map_map, Function.comp_def]

theorem saved_read {doc : List Node} {x y z : List ℚ} (h : SavedLines doc x y z) :
    readSaved (select doc ["OpenEMSH"]).head? = some (asAdded x y z) := by
  obtain ⟨r, unit, hr, hu, hx, hy, hz⟩ := h
  rw [nodeAt_two] at hr
  rw [value_natural] at hu
  obtain ⟨lx, ex, vx⟩ := listed_read hx fun r' h => (nodeAt_three.1 h).symm
  obtain ⟨ly, ey, vy⟩ := listed_read hy fun r' h => (nodeAt_three.1 h).symm
  obtain ⟨lz, ez, vz⟩ := listed_read hz fun r' h => (nodeAt_three.1 h).symm
  rw [readSaved, select_head]
  simp only [hr, hu]
  have hb : ∀ name, ((child doc "OpenEMSH").bind fun n => (child n.children "FixedMeshlines").bind fun m => child m.children name) =
      r.bind fun f => child f.children name := by
    intro name
    rw [← hr, Option.bind_assoc]
  rw [hb] at ex ey ez
  rw [ex, ey, ez]
  simp only [Option.bind_eq_bind, Option.bind_some]
  rw [addLines_eq vx vy vz]

theorem grid_read {csx : Node} {x y z : List ℚ} (hc : Value asUint (some csx) "CoordSystem" 0 0) (h : GridLines csx x y z) :
    ∃ has lx ly lz, parseGrid true (gridNode csx) = some (has, lx, ly, lz) ∧ addAllLines lx ly lz = asAdded x y z := by
  obtain ⟨unit, hu, hx, hy, hz⟩ := h
  rw [value_iff] at hu hc
  simp only [Option.bind_some] at hu hc
  obtain ⟨lx, ex, vx⟩ := listed_read hx fun r' h => (nodeAt_two.1 h).symm
  obtain ⟨ly, ey, vy⟩ := listed_read hy fun r' h => (nodeAt_two.1 h).symm
  obtain ⟨lz, ez, vz⟩ := listed_read hz fun r' h => (nodeAt_two.1 h).symm
  have ht : ∀ name, ((((child csx.children "RectilinearGrid").bind fun n => child n.children name)).map Node.text).getD [] =
      ((child (((child csx.children "RectilinearGrid").map Node.children).getD []) name).map Node.text).getD [] := by
    intro name
    cases child csx.children "RectilinearGrid" <;> rfl
  rw [ht] at ex ey ez
  have hg : ∃ has, parseGrid true (gridNode csx) = some (has, lx.map (scale unit), ly.map (scale unit), lz.map (scale unit)) := by
    simp only [parseGrid, gridNode, hc, hu, if_true, ex, ey, ez]
    exact ⟨_, rfl⟩
  obtain ⟨has, hg⟩ := hg
  exact ⟨has, _, _, _, hg, addLines_eq vx vy vz⟩

theorem grid_ignored {csx : Node} (hc : Value asUint (some csx) "CoordSystem" 0 0) :
    ∃ has, parseGrid false (gridNode csx) = some (has, [], [], []) := by
  rw [value_iff] at hc
  simp only [Option.bind_some] at hc
  simp only [parseGrid, gridNode, hc, if_true]
  exact ⟨_, rfl⟩

theorem background_read {codec : Codec} {csx : Node} {k : Option PropertyKind} (h : BackgroundOf codec csx k) :
    readBackground codec csx = k.bind parseProperty := by
  unfold readBackground
  rcases h with ⟨n, kind, h1, rfl, h2⟩ | ⟨h1, rfl⟩
  · rw [child_iff.2 h1, ← isKind_iff.1 h2]; rfl
  · rw [child_lacks.2 h1]; rfl

/-- C110. A document with its structure at one place is read as what it describes: the lines saved beside the structure if
parameters are read, then the lines of its grid if the old mesh is kept, then what is made of its shapes, and its background. -/
theorem C110_document (codec : Codec) (f : Flags) (dirs : List Point) {doc : List Node} {csx : Node} (h : StructureOf doc csx)
    (hc : Value asUint (some csx) "CoordSystem" 0 0) {props : List Property} (hp : PropertiesOf codec csx props)
    {sx sy sz : List ℚ} (hs : if f.readParams then SavedLines doc sx sy sz else sx = [] ∧ sy = [] ∧ sz = [])
    {gx gy gz : List ℚ} (hg : if f.keepOld then GridLines csx gx gy gz else gx = [] ∧ gy = [] ∧ gz = [])
    {k : Option PropertyKind} (hk : BackgroundOf codec csx k) :
    ∃ has, readDocument codec f dirs doc = (parseProperties f dirs props).map fun shapes =>
      some ⟨{ readParams codec f.readParams doc with hasGridAlready := has }, asAdded sx sy sz ++ asAdded gx gy gz ++ shapes,
        k.bind parseProperty⟩ := by
  have e1 : (if f.readParams then readSaved (select doc ["OpenEMSH"]).head? else some []) = some (asAdded sx sy sz) := by
    split_ifs at hs ⊢
    · exact saved_read hs
    · obtain ⟨rfl, rfl, rfl⟩ := hs
      rfl
  have e2 : ∃ has lx ly lz, parseGrid f.keepOld (gridNode csx) = some (has, lx, ly, lz) ∧ addAllLines lx ly lz = asAdded gx gy gz := by
    cases hkeep : f.keepOld with
    | true =>
      rw [hkeep, if_pos rfl] at hg
      exact grid_read hc hg
    | false =>
      rw [hkeep, if_neg (by simp)] at hg
      obtain ⟨rfl, rfl, rfl⟩ := hg
      obtain ⟨has, e⟩ := grid_ignored hc
      exact ⟨has, [], [], [], e, rfl⟩
  obtain ⟨has, lx, ly, lz, e2, e3⟩ := e2
  refine ⟨has, ?_⟩
  rw [readDocument, e1, structure_read h]
  simp only [e2, properties_read h hp, e3, background_read hk]

theorem numbers_of_digits {ds : List Char} {x : ℚ} (h : ds.all Char.isDigit = true) (hne : ds ≠ [])
    (hx : (Dialog.Spec.digitsValue ds : ℚ) = x) : LineNumber ds x := by
  subst hx
  simpa using LineNumber.positive (Dialog.Spec.Magnitude.whole (fun c hc => List.all_eq_true.1 h c hc) hne .absent)

/-- A structure with a material of which the permittivity is given, a box of metal, and a port of which the shape is turned. -/
def plainStructure : Node := .mk "ContinuousStructure" [("CoordSystem", ['0']), ("DeltaUnit", ['1', '0'])] []
  [.mk "RectilinearGrid" [] [] [.mk "XLines" [] ['4', ',', '1', '2'] []],
    .mk "BackgroundMaterial" [("Epsilon", ['1']), ("Kappa", ['3'])] [] [],
    .mk "Properties" [] []
      [.mk "Material" [("Name", ['m'])] []
        [.mk "Primitives" [] [] [.mk "LinPoly" [("Priority", ['2']), ("NormDir", ['2']), ("Elevation", ['1']), ("Length", ['3'])] []
          [.mk "Vertex" [("X1", ['0']), ("X2", ['0'])] [] [], .mk "Note" [] [] [], .mk "Vertex" [("X1", ['4'])] [] [],
            .mk "Vertex" [("X1", ['4']), ("X2", ['6'])] [] [], .mk "Vertex" [("X2", ['6'])] [] []]],
          .mk "Property" [("Epsilon", ['4'])] [] []],
      .mk "Metal" [] [] [.mk "Primitives" [] [] [.mk "Box" [("Priority", ['7'])] []
        [.mk "P1" [("X", ['1']), ("Y", ['2']), ("Z", ['3'])] [] [], .mk "P2" [("X", ['5']), ("Y", ['6'])] [] []]]],
      .mk "LumpedElement" [] [] [.mk "Primitives" [] [] [.mk "Box" [] []
        [.mk "Transformation" [] [] [.mk "Rotate_X" [] [] []], .mk "P1" [] [] [], .mk "P2" [("X", ['9'])] [] []]]]]]

/-- What it is made of. -/
def plainProperties : List Property :=
  [⟨.material 4 1 0, [⟨false, 2, .linpoly 2 1 3 [⟨0, 0⟩, ⟨4, 0⟩, ⟨4, 6⟩, ⟨0, 6⟩]⟩]⟩,
    ⟨.metal, [⟨false, 7, .box ⟨1, 2, 3⟩ ⟨5, 6, 0⟩⟩]⟩,
    ⟨.lumpedElement, [⟨true, 0, .box ⟨0, 0, 0⟩ ⟨9, 0, 0⟩⟩]⟩]

/-- A document of this structure, with lines and a distance saved. -/
def plainDocument : List Node :=
  [.mk "OpenEMSH" [] [] [.mk "GlobalParams" [("dmax", ['3'])] [] [],
      .mk "FixedMeshlines" [("DeltaUnit", ['2'])] [] [.mk "YLines" [] ['7'] []]],
    .mk "openEMS" [] [] [.mk "FDTD" [] [] [], plainStructure]]

theorem plain_place : StructureOf plainDocument plainStructure :=
  Or.inr ⟨by unfold plainDocument Lacks; simp [Node.name], _, (child_iff (l := plainDocument) (name := "openEMS")).1 rfl, child_iff.1 rfl⟩

theorem plain_properties : PropertiesOf wholeCodec plainStructure plainProperties :=
  ⟨_, child_iff.1 rfl, (forall₂_map_iff (f := decodeProperty wholeCodec) fun a b => C110_property wholeCodec a b).2 (by rfl)⟩

theorem plain_saved : SavedLines plainDocument [] [14] [] := by
  refine ⟨_, 2, nodeAt_two.2 rfl, value_natural.2 rfl, ⟨_, [], nodeAt_three.2 rfl, .empty, rfl⟩,
    ⟨_, [7], nodeAt_three.2 rfl, .last (numbers_of_digits (by decide +kernel) (by decide) (by decide +kernel)), by norm_num⟩,
    ⟨_, [], nodeAt_three.2 rfl, .empty, rfl⟩⟩

theorem plain_grid : GridLines plainStructure [40, 120] [] [] := by
  refine ⟨10, value_natural.2 rfl, ⟨_, [4, 12], nodeAt_two.2 rfl, ?_, by norm_num⟩, ⟨_, [], nodeAt_two.2 rfl, .empty, rfl⟩,
    ⟨_, [], nodeAt_two.2 rfl, .empty, rfl⟩⟩
  exact NumberList.more (s := ['4']) (t := ['1', '2']) (numbers_of_digits (by decide +kernel) (by decide) (by decide +kernel))
    (by decide) (.last (numbers_of_digits (by decide +kernel) (by decide) (by decide +kernel)))

theorem plain_background : BackgroundOf wholeCodec plainStructure (some (.material 1 1 3)) :=
  Or.inl ⟨_, _, child_iff.1 rfl, rfl, isKind_iff.2 (by rfl)⟩

/-- The document is read with the lines saved and those of its grid. -/
example : StructureOf plainDocument plainStructure ∧ Value asUint (some plainStructure) "CoordSystem" 0 0 ∧
    PropertiesOf wholeCodec plainStructure plainProperties ∧ SavedLines plainDocument [] [14] [] ∧
    GridLines plainStructure [40, 120] [] [] ∧ BackgroundOf wholeCodec plainStructure (some (.material 1 1 3)) ∧
    ((readDocument wholeCodec { keepOld := true } [] plainDocument).map fun r => r.map fun r => (r.params.dmax, r.added.length)) =
      some (some (3, 9)) :=
  ⟨plain_place, value_natural.2 rfl, plain_properties, plain_saved, plain_grid, plain_background, by decide +kernel⟩

/-- C110, refusals. A document without a structure, or of which the structure has other coordinates, is refused. -/
theorem C110_refused (codec : Codec) (f : Flags) (dirs : List Point) {doc : List Node}
    (h : (Lacks doc "ContinuousStructure" ∧ ∀ o ∈ doc, o.name = "openEMS" → Lacks o.children "ContinuousStructure") ∨
      ∃ csx c, StructureOf doc csx ∧ Value asUint (some csx) "CoordSystem" 0 c ∧ c ≠ 0) :
    readDocument codec f dirs doc = some none := by
  unfold readDocument
  cases (if f.readParams then readSaved (select doc ["OpenEMSH"]).head? else some []) with
  | none => rfl
  | some saved =>
    rcases h with ⟨h1, h2⟩ | ⟨csx, c, h1, h2, h3⟩
    · have e : readStructure doc = none := by
        rw [readStructure_top h2]
        exact child_lacks.2 h1
      rw [e]
    · have e : parseGrid f.keepOld (gridNode csx) = none := by
        rw [value_iff] at h2
        simp only [Option.bind_some] at h2
        simp only [parseGrid, gridNode, h2]
        rw [if_neg h3]
      simp only [structure_read h1, e]

example : Lacks [.mk "openEMS" [] [] [.mk "FDTD" [] [] []]] "ContinuousStructure" ∧
    StructureOf [.mk "ContinuousStructure" [("CoordSystem", ['1'])] [] []] (.mk "ContinuousStructure" [("CoordSystem", ['1'])] [] []) ∧
    Value asUint (some (.mk "ContinuousStructure" [("CoordSystem", ['1'])] [] [])) "CoordSystem" 0 1 :=
  ⟨by unfold Lacks; simp [Node.name], Or.inl ⟨child_iff.1 rfl, by simp [Node.name]⟩, value_natural.2 rfl⟩

end Verif.Csx
