import Verif.Model.EdgeInPolygon
import Verif.Lemmas.InPolygon

/-!
# C76: the registration of the edges in polygons
-/

namespace Verif.Board
open Verif.Geom Verif.Geom.Spec
open Spec

/-- What stands for an overlap: one with the same polygon and ends, with the same other edge or with none. -/
def StandsFor (g f : Found) : Prop :=
  g.polygon = f.polygon ∧ SameEnds g.range f.range ∧ (g.other = none ∨ g.other = f.other)

/-- The overlaps reported for an edge. -/
def reportedFor (a : Nat) (l : List (Nat × Found)) : List Found := (l.filter fun p => decide (p.1 = a)).map (·.2)

theorem isIn_iff {f : Found} {l : List Found} : f.isIn l = true ↔ ∃ g ∈ l, StandsFor g f := by
  unfold Found.isIn StandsFor
  simp only [List.any_eq_true, Bool.and_eq_true, Bool.or_eq_true, decide_eq_true_eq, sameEnds_iff, Option.isNone_iff_eq_none]
  constructor
  · rintro ⟨g, h1, ⟨h2, h3⟩, h4⟩; exact ⟨g, h1, h2, h3, h4⟩
  · rintro ⟨g, h1, h2, h3, h4⟩; exact ⟨g, h1, ⟨h2, h3⟩, h4⟩

/-- The registrations of a list of reports. -/
def adds (l : List (Nat × Found)) (s : InPolygon) : InPolygon := l.foldl (fun s p => addInPolygon p.1 p.2 s) s

theorem standsFor_refl (f : Found) : StandsFor f f :=
  ⟨rfl, Or.inl ⟨by unfold Near; simp [Verif.Mesh.tolerance], by unfold Near; simp [Verif.Mesh.tolerance]⟩, Or.inr rfl⟩

/-- The overlaps of an edge: none when it has no conflict. -/
def overlapsOf (a : Nat) (s : InPolygon) : List Found := (s.lookup a).getD []

theorem add_lookup (a c : Nat) (f : Found) (s : InPolygon) : (addInPolygon a f s).lookup c =
    if c = a then some (if f.isIn (overlapsOf a s) then overlapsOf a s else overlapsOf a s ++ [f]) else s.lookup c := by
  have beq : ∀ {x y : Nat}, ¬ x = y → (x == y) = false := fun h => beq_eq_false_iff_ne.2 h
  induction s with
  | nil =>
    unfold addInPolygon overlapsOf
    by_cases h : c = a
    · simp [h, Found.isIn]
    · simp [List.lookup_cons, beq h, h]
  | cons p rest ih =>
    obtain ⟨e, l⟩ := p
    unfold addInPolygon
    by_cases he : e = a
    · subst he
      by_cases hc : c = e
      · subst hc
        by_cases hi : f.isIn l = true <;> simp [overlapsOf, hi]
      · by_cases hi : f.isIn l = true <;> simp [hi, hc, List.lookup_cons, beq hc]
    · rw [if_neg he]
      have hne : ¬ a = e := fun h => he h.symm
      have hov : overlapsOf a ((e, l) :: rest) = overlapsOf a rest := by
        simp [overlapsOf, List.lookup_cons, beq hne]
      rw [hov]
      by_cases hc : c = e
      · subst hc
        simp [he]
      · simp only [List.lookup_cons, ih, beq hc]

theorem add_keys (a : Nat) (f : Found) (s : InPolygon) : (addInPolygon a f s).map (·.1) =
    if a ∈ s.map (·.1) then s.map (·.1) else s.map (·.1) ++ [a] := by
  induction s with
  | nil => simp [addInPolygon]
  | cons p rest ih =>
    obtain ⟨e, l⟩ := p
    unfold addInPolygon
    by_cases he : e = a
    · subst he
      by_cases hi : f.isIn l = true <;> simp [hi]
    · have hne : ¬ a = e := fun h => he h.symm
      rw [if_neg he]
      simp only [List.map_cons, ih, List.mem_cons, hne, false_or]
      by_cases h : a ∈ rest.map (·.1) <;> simp [h]

theorem adds_concat (l : List (Nat × Found)) (a : Nat) (f : Found) (s : InPolygon) :
    adds (l ++ [(a, f)]) s = addInPolygon a f (adds l s) := by
  simp [adds, List.foldl_append]

/-- C76. Each edge for which something is reported has one conflict, and no other edge has; the conflict has, in order and
each once, overlaps that were reported for the edge, one standing for each. -/
theorem C76_registered (l : List (Nat × Found)) :
    ((adds l []).map (·.1)).Nodup ∧ (∀ a, a ∈ (adds l []).map (·.1) ↔ a ∈ l.map (·.1)) ∧
    ∀ a os, (adds l []).lookup a = some os →
      os.Sublist (reportedFor a l) ∧ (os.Pairwise fun g f => ¬ StandsFor g f) ∧
      ∀ f ∈ reportedFor a l, ∃ g ∈ os, StandsFor g f := by
  induction l using List.reverseRecOn with
  | nil => simp [adds]
  | append_singleton l p ih =>
    obtain ⟨b, f⟩ := p
    obtain ⟨h1, h2, h3⟩ := ih
    rw [adds_concat, add_keys]
    refine ⟨?_, ?_, ?_⟩
    · split_ifs with h
      · exact h1
      · rw [List.nodup_append]
        refine ⟨h1, by simp, ?_⟩
        intro x hx y hy
        simp only [List.mem_singleton] at hy
        rintro rfl
        exact h (hy ▸ hx)
    · intro a
      by_cases h : b ∈ (adds l []).map (·.1)
      · rw [if_pos h, h2]
        rw [h2] at h
        simp only [List.map_append, List.mem_append, List.map_cons, List.map_nil, List.mem_singleton]
        exact ⟨Or.inl, fun h' => h'.elim id fun h' => h' ▸ h⟩
      · rw [if_neg h, List.mem_append, h2]
        simp
    · intro a os ho
      rw [add_lookup] at ho
      have hrep : reportedFor a (l ++ [(b, f)]) = reportedFor a l ++ if b = a then [f] else [] := by
        unfold reportedFor
        by_cases h : b = a <;> simp [h, List.filter_append]
      rw [hrep]
      by_cases ha : a = b
      · subst ha
        simp only [if_true, Option.some.injEq] at ho ⊢
        have hold : (overlapsOf a (adds l [])).Sublist (reportedFor a l) ∧
            ((overlapsOf a (adds l [])).Pairwise fun g f => ¬ StandsFor g f) ∧
            ∀ f ∈ reportedFor a l, ∃ g ∈ overlapsOf a (adds l []), StandsFor g f := by
          unfold overlapsOf
          cases hl : (adds l []).lookup a with
          | some os => exact h3 a os hl
          | none =>
            have : a ∉ l.map (·.1) := by
              rw [← h2]
              intro hm
              rw [List.lookup_eq_none_iff] at hl
              obtain ⟨p, hp, rfl⟩ := List.mem_map.1 hm
              have := hl p hp
              simp at this
            have hnil : reportedFor a l = [] := by
              unfold reportedFor
              rw [List.map_eq_nil_iff, List.filter_eq_nil_iff]
              intro p hp hpa
              simp only [decide_eq_true_eq] at hpa
              exact this (List.mem_map.2 ⟨p, hp, hpa⟩)
            simp [hnil]
        obtain ⟨g1, g2, g3⟩ := hold
        by_cases hi : f.isIn (overlapsOf a (adds l [])) = true
        · rw [if_pos hi] at ho
          subst ho
          refine ⟨g1.trans (List.sublist_append_left _ _), g2, fun f' hf' => ?_⟩
          rcases List.mem_append.1 hf' with h | h
          · exact g3 f' h
          · simp only [List.mem_singleton] at h
            exact h ▸ isIn_iff.1 hi
        · rw [if_neg hi] at ho
          subst ho
          refine ⟨g1.append (List.Sublist.refl _), ?_, fun f' hf' => ?_⟩
          · rw [List.pairwise_append]
            refine ⟨g2, by simp, fun g hg f' hf' hs => ?_⟩
            simp only [List.mem_singleton] at hf'
            exact hi (isIn_iff.2 ⟨g, hg, hf' ▸ hs⟩)
          · rcases List.mem_append.1 hf' with h | h
            · obtain ⟨g, hg, hs⟩ := g3 f' h
              exact ⟨g, by simp [hg], hs⟩
            · simp only [List.mem_singleton] at h
              exact ⟨f', by simp [h], standsFor_refl f'⟩
      · rw [if_neg ha] at ho
        have : ¬ b = a := fun h => ha h.symm
        simp only [this, if_false, List.append_nil]
        exact h3 a os ho

/-- Two reports for one edge, one twice, and one for another. -/
example : adds [(3, ⟨1, ⟨⟨0, 0⟩, ⟨1, 0⟩⟩, none⟩), (2, ⟨1, ⟨⟨0, 0⟩, ⟨5, 0⟩⟩, some 7⟩), (3, ⟨1, ⟨⟨1, 0⟩, ⟨0, 0⟩⟩, some 7⟩),
      (3, ⟨4, ⟨⟨0, 0⟩, ⟨1, 0⟩⟩, none⟩)] [] =
    [(3, [⟨1, ⟨⟨0, 0⟩, ⟨1, 0⟩⟩, none⟩, ⟨4, ⟨⟨0, 0⟩, ⟨1, 0⟩⟩, none⟩]), (2, [⟨1, ⟨⟨0, 0⟩, ⟨5, 0⟩⟩, some 7⟩])] := by
  decide +kernel

end Verif.Board
