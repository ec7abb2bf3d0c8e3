import Verif.Lemmas.Text

/-!
# Theorems about lines written and read back
-/

namespace Verif.Csx

/-! ## C42 -/

theorem written_near {s : Signed} (h : 0 ≤ s.mag) : |(written s).value - s.value| ≤ 1 / 2000000 := by
  have h1 := roundEven_near (x := s.mag * 1000000) (by linarith)
  have e : |(roundEven (s.mag * 1000000) : ℚ) / 1000000 - s.mag| ≤ 1 / 2000000 := by
    rw [abs_le] at h1 ⊢
    constructor
    · rw [neg_le_sub_iff_le_add]
      have : s.mag ≤ ((roundEven (s.mag * 1000000) : ℚ) + 1 / 2) / 1000000 := by
        rw [le_div_iff₀ (by norm_num)]; linarith
      linarith
    · have : (roundEven (s.mag * 1000000) : ℚ) / 1000000 ≤ (s.mag * 1000000 + 1 / 2) / 1000000 := by
        apply div_le_div_of_nonneg_right _ (by norm_num)
        linarith
      linarith
  unfold Signed.value written
  cases s.neg
  · simpa using e
  · rw [if_pos rfl, if_pos rfl, neg_sub_neg, abs_sub_comm]
    exact e

/-- A list of lines that is written and read back has as many lines in the same order, each within half a millionth of
the line written and on the same side of zero, and is written again as the same text. -/
theorem C42_lines (lines : List Signed) (h : ∀ s ∈ lines, 0 ≤ s.mag) :
    ∃ back, readLines (writeLines lines) = some back ∧
      List.Forall₂ (fun s b => |b.value - s.value| ≤ 1 / 2000000 ∧ b.neg = s.neg) lines back ∧
      writeLines back = writeLines lines := by
  refine ⟨_, readLines_writeLines lines, ?_, writeLines_written lines⟩
  rw [List.forall₂_map_right_iff, List.forall₂_same]
  exact fun s hs => ⟨written_near (h s hs), rfl⟩

/-- Lines that are in order stay in order. -/
theorem C42_order (lines : List Signed) (h : ∀ s ∈ lines, 0 ≤ s.mag) (hs : ∀ s ∈ lines, s.neg = true → s.mag ≠ 0)
    (hord : lines.Pairwise fun s t => s.value ≤ t.value) :
    ∃ back, readLines (writeLines lines) = some back ∧ back.Pairwise fun s t => s.value ≤ t.value := by
  refine ⟨_, readLines_writeLines lines, ?_⟩
  rw [List.pairwise_map]
  refine hord.imp_of_mem fun {a b} ha hb hab => ?_
  have h1 := h a ha
  have h2 := h b hb
  have hz := hs b hb
  have hz' := hs a ha
  have mono : ∀ {x y : ℚ}, 0 ≤ x → x ≤ y →
      (roundEven (x * 1000000) : ℚ) / 1000000 ≤ (roundEven (y * 1000000) : ℚ) / 1000000 := by
    intro x y hx hxy
    apply div_le_div_of_nonneg_right _ (by norm_num)
    exact_mod_cast roundEven_mono (by linarith) (by linarith)
  have pos : ∀ x : ℚ, 0 ≤ (roundEven (x * 1000000) : ℚ) / 1000000 := fun x => by positivity
  unfold Signed.value written at *
  cases ha' : a.neg <;> cases hb' : b.neg <;> simp only [ha', hb', if_true, if_false, Bool.false_eq_true] at hab hz ⊢
  · exact mono h1 hab
  · have hb0 : b.mag ≠ 0 := hz trivial
    have hbp : 0 < b.mag := lt_of_le_of_ne h2 (Ne.symm hb0)
    linarith
  · linarith [pos a.mag, pos b.mag]
  · linarith [mono h2 (show b.mag ≤ a.mag by linarith)]

/-- Writing the grid of a file and reading it back as fixed lines, when the file has no unit or the unit 1: the lines of
the axes that are written come back, the other axes have none. -/
theorem C42_grid (node : GridNode) (withX withY withZ : Bool) (x y z : List Signed) (hx : ∀ s ∈ x, 0 ≤ s.mag)
    (hy : ∀ s ∈ y, 0 ≤ s.mag) (hz : ∀ s ∈ z, 0 ≤ s.mag) (hc : node.coordSystem = none ∨ node.coordSystem = some ['0'])
    (hu : node.deltaUnit = none ∨ node.deltaUnit = some ['1']) :
    ∃ bx by' bz, parseGrid true (writeGrid node withX withY withZ x y z)
        = some (decide ((withX = true ∧ x ≠ []) ∨ (withY = true ∧ y ≠ []) ∨ (withZ = true ∧ z ≠ [])), bx, by', bz) ∧
      (withX = true → List.Forall₂ (fun s b => |b.value - s.value| ≤ 1 / 2000000) x bx) ∧ (withX = false → bx = []) ∧
      (withY = true → List.Forall₂ (fun s b => |b.value - s.value| ≤ 1 / 2000000) y by') ∧ (withY = false → by' = []) ∧
      (withZ = true → List.Forall₂ (fun s b => |b.value - s.value| ≤ 1 / 2000000) z bz) ∧ (withZ = false → bz = []) ∧
      writeGrid node withX withY withZ bx by' bz = writeGrid node withX withY withZ x y z := by
  have hc' : (node.coordSystem.map asUint).getD 0 = 0 := by rcases hc with h | h <;> rw [h] <;> decide
  have hu' : (node.deltaUnit.map asUint).getD 1 = 1 := by rcases hu with h | h <;> rw [h] <;> decide
  have hne : ∀ l, (writeLines l = []) ↔ l = [] := by
    intro l
    constructor
    · intro h
      have := split_writeLines l
      rw [h] at this
      simpa [split] using this.symm
    · rintro rfl; rfl
  have hs : ∀ l : List Signed, l.map (scale 1) = l := by
    intro l
    rw [show scale 1 = id from funext fun s => by simp [scale], List.map_id]
  have near : ∀ l : List Signed, (∀ s ∈ l, 0 ≤ s.mag) →
      List.Forall₂ (fun s b => |b.value - s.value| ≤ 1 / 2000000) l (l.map written) := by
    intro l hl
    rw [List.forall₂_map_right_iff, List.forall₂_same]
    exact fun s hs => written_near (hl s hs)
  have nil : readLines [] = some [] := by simp [readLines, split, readParts]
  have near' : ∀ l : List Signed, (∀ s ∈ l, 0 ≤ s.mag) → ∀ w : Bool,
      (w = true → List.Forall₂ (fun s b => |b.value - s.value| ≤ 1 / 2000000) l (if w then l.map written else [])) ∧
      (w = false → (if w then l.map written else []) = []) := by
    intro l hl w
    cases w
    · simp
    · exact ⟨fun _ => by simpa using near l hl, by simp⟩
  refine ⟨if withX then x.map written else [], if withY then y.map written else [], if withZ then z.map written else [],
    ?_, (near' x hx _).1, (near' x hx _).2, (near' y hy _).1, (near' y hy _).2, (near' z hz _).1, (near' z hz _).2, ?_⟩
  · unfold parseGrid writeGrid
    simp only [hc', hu', if_true]
    cases withX <;> cases withY <;> cases withZ <;>
      simp [hne, nil, readLines_writeLines, hs, Bool.or_assoc]
  · unfold writeGrid
    cases withX <;> cases withY <;> cases withZ <;> simp [writeLines_written]

/-- Lines at -2.5, 0 and 1/3. -/
example : writeLines [⟨true, 5 / 2⟩, ⟨false, 0⟩, ⟨false, 1 / 3⟩] = "-2.500000,0.000000,0.333333".toList ∧
    readLines "-2.500000,0.000000,0.333333".toList
      = some [⟨true, 5 / 2⟩, ⟨false, 0⟩, ⟨false, 333333 / 1000000⟩] := by decide +kernel

/-! ## C43 -/

/-- Two lines the mesher holds for different are written as the same text. -/
theorem C43_false : ∃ s t : Signed, Mesh.tolerance ≤ |s.value - t.value| ∧ toString6 s = toString6 t :=
  ⟨⟨false, 0⟩, ⟨false, 1 / 10000000⟩, by decide +kernel⟩

/-- Lines more than a millionth apart are written as different texts. What is missing: lines farther apart than the
tolerance of the mesher but not than a millionth. -/
theorem C43_partial {s t : Signed} (hs : 0 ≤ s.mag) (ht : 0 ≤ t.mag) (h : 1 / 1000000 < |s.value - t.value|) :
    toString6 s ≠ toString6 t := by
  intro e
  have h1 := strToDouble_toString6 s
  rw [e, strToDouble_toString6 t] at h1
  have h2 : (written s).value = (written t).value := by
    injection h1 with h1
    rw [h1]
  have n1 := abs_le.1 (written_near hs)
  have n2 := abs_le.1 (written_near ht)
  rw [h2] at n1
  have : |s.value - t.value| ≤ 1 / 1000000 := by
    rw [abs_le]; constructor <;> linarith [n1.1, n1.2, n2.1, n2.2]
  linarith

/-- Exactly a millionth is not enough. -/
example : (1 : ℚ) / 1000000 = |Signed.value ⟨false, 3 / 2000000⟩ - Signed.value ⟨false, 5 / 2000000⟩| ∧
    toString6 ⟨false, 3 / 2000000⟩ = toString6 ⟨false, 5 / 2000000⟩ := by decide +kernel

example : (1 : ℚ) / 1000000 < |Signed.value ⟨false, 3 / 2000000⟩ - Signed.value ⟨true, 1⟩| := by decide +kernel

/-! ## C57 -/

/-- The unit is read as an integer: with a unit of a thousandth all the lines kept go to zero, and with a unit of 25 they
are moved, though the shapes are not. -/
theorem C57_false : ∃ node : GridNode, ∃ lines, readLines node.x = some lines ∧ lines.map Signed.value = [10, 20] ∧
    (parseGrid true { node with deltaUnit := some "0.001".toList }).map (fun g => g.2.1.map Signed.value)
      = some [0, 0] ∧
    (parseGrid true { node with deltaUnit := some "25".toList }).map (fun g => g.2.1.map Signed.value)
      = some [250, 500] :=
  ⟨⟨none, none, "10,20".toList, [], []⟩, [⟨false, 10⟩, ⟨false, 20⟩], by decide +kernel⟩

/-- Without a unit, or with one that is read as 1, each line of the file is kept where it is. What is missing: other
units. -/
theorem C57_partial (node : GridNode) {x y z : List Signed} (hx : readLines node.x = some x)
    (hy : readLines node.y = some y) (hz : readLines node.z = some z)
    (hc : node.coordSystem = none ∨ node.coordSystem = some ['0'])
    (hu : node.deltaUnit = none ∨ ∃ rest, node.deltaUnit = some ('1' :: rest) ∧ ∀ c ∈ rest.head?, c.isDigit = false) :
    ∃ has, parseGrid true node = some (has, x, y, z) := by
  have hc' : (node.coordSystem.map asUint).getD 0 = 0 := by rcases hc with h | h <;> rw [h] <;> decide
  have hu' : (node.deltaUnit.map asUint).getD 1 = 1 := by
    rcases hu with h | ⟨rest, h, hr⟩
    · rw [h]; rfl
    · rw [h]
      have : (readDigits ('1' :: rest) 0 0).1 = 1 := by
        rw [readDigits, if_pos (by decide)]
        cases rest with
        | nil => rfl
        | cons c rest => rw [readDigits, if_neg (by simp [hr c (by simp)])]; rfl
      have e : asUint ('1' :: rest) = min (readDigits ('1' :: rest) 0 0).1 4294967295 := by
        unfold asUint
        rw [List.dropWhile_cons_of_neg (by decide)]
        split
        · rename_i heq; simp at heq
        · rename_i heq; simp at heq
        · rfl
      simp only [Option.map_some, Option.getD_some]
      rw [e, this]
      rfl
  have hs : ∀ l : List Signed, l.map (scale 1) = l := by
    intro l
    rw [show scale 1 = id from funext fun s => by simp [scale], List.map_id]
  unfold parseGrid
  simp only [hc', hu', if_true, hx, hy, hz, Option.bind_eq_bind, Option.bind_some, hs]
  exact ⟨_, rfl⟩

/-- Whatever the unit, every comma-separated part of the three lists is kept as a line, and all three axes are multiplied
by the same number. -/
theorem C57_uniform {node : GridNode} {has : Bool} {x y z : List Signed} (h : parseGrid true node = some (has, x, y, z)) :
    x.length = (if node.x = [] then 0 else node.x.count ',' + 1) ∧
    y.length = (if node.y = [] then 0 else node.y.count ',' + 1) ∧
    z.length = (if node.z = [] then 0 else node.z.count ',' + 1) ∧
    ∃ u : ℕ, ∀ a b : List Signed, (readLines node.x = some a ∧ b = x) ∨ (readLines node.y = some a ∧ b = y) ∨
        (readLines node.z = some a ∧ b = z) →
      List.Forall₂ (fun s t => t.value = (u : ℚ) * s.value) a b := by
  have hsplit : ∀ s : List Char, (splitAll s).length = s.count ',' + 1 := by
    intro s
    induction s with
    | nil => rfl
    | cons c s ih =>
      by_cases hc : c = ','
      · subst hc
        simp [splitAll, ih]
      · have : (splitAll (c :: s)).length = (splitAll s).length := by
          rw [splitAll]
          cases h : splitAll s with
          | nil => rw [h] at ih; simp at ih
          | cons a l => simp [hc]
        rw [this, ih, List.count_cons_of_ne hc]
  have hparts : ∀ (l : List (List Char)) (a : List Signed), readParts l = some a → a.length = l.length := by
    intro l
    induction l with
    | nil => intro a h; simp only [readParts, Option.some.injEq] at h; simp [← h]
    | cons p l ih =>
      intro a h
      rw [readParts] at h
      split at h
      · obtain ⟨b, hb, rfl⟩ := Option.map_eq_some_iff.1 h
        simp [ih b hb]
      · simp at h
  have hlen : ∀ (s : List Char) (a : List Signed), readLines s = some a →
      a.length = (if s = [] then 0 else s.count ',' + 1) := by
    intro s a h
    rw [hparts _ _ h]
    unfold split
    split_ifs <;> simp [hsplit]
  unfold parseGrid at h
  by_cases hc : (node.coordSystem.map asUint).getD 0 = 0
  swap
  · rw [if_neg hc] at h; simp at h
  rw [if_pos hc] at h
  dsimp only at h
  rw [if_pos rfl] at h
  simp only [Option.bind_eq_bind, Option.bind_eq_some_iff, Option.some.injEq, Prod.mk.injEq] at h
  obtain ⟨a, ha, b, hb, c, hc, -, rfl, rfl, rfl⟩ := h
  rw [List.length_map, List.length_map, List.length_map]
  refine ⟨hlen _ _ ha, hlen _ _ hb, hlen _ _ hc, (node.deltaUnit.map asUint).getD 1, ?_⟩
  have sc : ∀ (u : ℕ) (l : List Signed), List.Forall₂ (fun s t => t.value = (u : ℚ) * s.value) l (l.map (scale u)) := by
    intro u l
    rw [List.forall₂_map_right_iff, List.forall₂_same]
    intro s _
    unfold scale Signed.value
    dsimp only
    split_ifs <;> ring
  rintro a' b' (⟨h1, rfl⟩ | ⟨h1, rfl⟩ | ⟨h1, rfl⟩)
  · rw [ha] at h1; obtain rfl := Option.some.inj h1; exact sc _ _
  · rw [hb] at h1; obtain rfl := Option.some.inj h1; exact sc _ _
  · rw [hc] at h1; obtain rfl := Option.some.inj h1; exact sc _ _

example : parseGrid true ⟨none, some "25".toList, "10,20".toList, "3".toList, "".toList⟩
    = some (true, [⟨false, 250⟩, ⟨false, 500⟩], [⟨false, 75⟩], []) ∧
    parseGrid true ⟨none, none, "10,,20".toList, [], []⟩ = none := by decide +kernel

/-- The usual way to write a millimetre happens to be read as 1. -/
example : parseGrid true ⟨some "0".toList, some "1e-3".toList, "10,20".toList, [], "-7".toList⟩
    = some (true, [⟨false, 10⟩, ⟨false, 20⟩], [], [⟨true, 7⟩]) := by decide +kernel

end Verif.Csx
