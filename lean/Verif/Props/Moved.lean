import Verif.Lemmas.MovedBuild
import Verif.Lemmas.OrderSort

/-! # C147: moving all the shapes of a document moves its mesh -/

namespace Verif.Moved
open Verif.Geom (Plane Point Segment)
open Verif.Board
open Verif.Csx
open Verif.Mesh (Sorter MeshParams)

/-- C147, on what the parser adds to the board: the lines of an axis. Undefined behaviour and loops without end are kept too. -/
theorem C147_added {S : Sorters} (hS : AllCompare S) (sort : List (MaterialKind × Nat) → List (MaterialKind × Nat)) (g : MeshParams)
    (gz : ZoneParams) {angle : Ang → ℚ} (ha : Placeless angle) (background : Option MaterialKind) (t : Shift) (l : List Added)
    (w : Geom.Axis) :
    lines S sort g gz angle background w (l.map (added t)) =
      (lines S sort g gz angle background w l).map fun m => m.map (· + t.along w) := by
  unfold lines buildDesign
  rw [makeParts_moved, Option.map_map]
  cases makeParts l with
  | none => rfl
  | some parts =>
    have := runDesign_moved (angle := angle) (background := background) (l := l) (parts := parts) (t := t) hS sort g gz ha w
    simp only [Option.map_some, Function.comp_apply, Outcome.orUb, Outcome.bind]
    rw [show (fun r : (Nat → BEdge) × Mesh.Axis => r.2.meshlines) = fun r => (fun a : Mesh.Axis => a.meshlines) (Prod.snd r) from rfl,
      ← omap_map, this, omap_map, omap_map]
    rfl

/-- C147, the parser: what a document moved adds is what the document adds, moved. -/
theorem C147_parsed (f : Flags) (dirs : List Point) (t : Shift) (props : List Property) :
    parseProperties f dirs (props.map (property t)) = (parseProperties f dirs props).map fun l => l.map (added t) :=
  parseProperties_moved f dirs props

/-- C147: the lines of a document of which all the shapes are moved are those of the document, moved as much. -/
theorem C147 {S : Sorters} (hS : AllCompare S) (sort : List (MaterialKind × Nat) → List (MaterialKind × Nat)) (g : MeshParams)
    (gz : ZoneParams) {angle : Ang → ℚ} (ha : Placeless angle) (background : Option MaterialKind) (f : Flags) (dirs : List Point)
    (t : Shift) (props : List Property) (w : Geom.Axis) :
    (Outcome.orUb (parseProperties f dirs (props.map (property t)))).bind (lines S sort g gz angle background w) =
      ((Outcome.orUb (parseProperties f dirs props)).bind (lines S sort g gz angle background w)).map fun m =>
        m.map (· + t.along w) := by
  rw [C147_parsed, orUb_map, obind_map, omap_bind]
  exact obind_congr _ fun l _ => C147_added hS sort g gz ha background t l w

/-! ## Concrete sorting functions and a concrete document -/

theorem insertion_compares (α : Type) : Compares (Mesh.Sorter.insertion α) := by
  intro f k k' l h
  exact (List.map_insertionSort (fun a b => k' a ≤ k' b) f l (s := fun a b => k a ≤ k b) (fun a ha b hb => by
    rw [← not_lt, ← not_lt, h b hb a ha])).symm

theorem insertion_comparesOrder (α : Type) : ComparesOrder (OrderSorter.insertion α) := by
  intro f lt lt' l h
  have ins : ∀ (a : α) (m : List α), (∀ b ∈ m, lt (f b) (f a) = lt' b a) → insertBy lt (f a) (m.map f) = (insertBy lt' a m).map f := by
    intro a m
    induction m with
    | nil => exact fun _ => rfl
    | cons b m ih =>
      intro hm
      simp only [List.map_cons, insertBy, hm b List.mem_cons_self]
      split
      · rw [ih fun c hc => hm c (List.mem_cons_of_mem _ hc)]
        rfl
      · rfl
  have : ∀ m : List α, (∀ a ∈ m, a ∈ l) → (m.map f).foldr (insertBy lt) [] = (m.foldr (insertBy lt') []).map f ∧
      ∀ b ∈ m.foldr (insertBy lt') [], b ∈ l := by
    intro m
    induction m with
    | nil => simp
    | cons a m ih =>
      intro hm
      obtain ⟨h1, h2⟩ := ih fun b hb => hm b (List.mem_cons_of_mem _ hb)
      have ha := hm a List.mem_cons_self
      refine ⟨?_, ?_⟩
      · simp only [List.map_cons, List.foldr_cons, h1]
        exact ins a _ fun b hb => h b (h2 b hb) a ha
      · intro b hb
        rcases List.mem_cons.1 ((insertBy_perm lt' a _).mem_iff.1 hb) with rfl | hb
        · exact ha
        · exact h2 b hb
  exact (this l fun _ h => h).1

/-- Sorting functions that meet the hypothesis. -/
def bySwaps : Sorters :=
  ⟨OrderSorter.insertion _, Mesh.Sorter.insertion _, Mesh.Sorter.insertion _, Mesh.Sorter.insertion _, Mesh.Sorter.insertion _⟩

/-- A measure of angles that meets the hypothesis: the sine, but for the lengths. -/
def sine (a : Ang) : ℚ :=
  (a.e0.p1.x - a.e0.p0.x) * (a.e1.p1.y - a.e1.p0.y) - (a.e0.p1.y - a.e0.p0.y) * (a.e1.p1.x - a.e1.p0.x)

/-- A document with a box, a triangle and a wire. -/
def three : List Property :=
  [⟨.metal, [⟨false, 5, .box ⟨0, 0, 0⟩ ⟨4, 3, 1⟩⟩, ⟨false, 5, .linpoly 2 0 1 [⟨6, 0⟩, ⟨8, 0⟩, ⟨7, 2⟩]⟩]⟩,
    ⟨.lumpedElement, [⟨false, 0, .curve [⟨4, 1, 0⟩, ⟨6, 1, 0⟩]⟩, ⟨false, 0, .point ⟨2, 2, 2⟩⟩]⟩]

example : AllCompare bySwaps ∧ Placeless sine ∧
    parseProperties { yz := false, zx := false } [] (three.map (property ⟨10, 20, 30⟩)) =
      some [.polygon .xy .conductor 5 (30, 31) [⟨10, 20⟩, ⟨10, 23⟩, ⟨14, 23⟩, ⟨14, 20⟩],
        .polygon .xy .conductor 5 (30, 31) [⟨16, 20⟩, ⟨18, 20⟩, ⟨17, 22⟩],
        .polygon .xy .port sizeMax (30, 30) [⟨14, 21⟩, ⟨16, 21⟩], .line .x 12, .line .y 22] :=
  ⟨⟨insertion_comparesOrder _, insertion_compares _, insertion_compares _, insertion_compares _, insertion_compares _⟩,
    fun v a => by simp [sine, corner, segment, point], by decide +kernel⟩

end Verif.Moved
