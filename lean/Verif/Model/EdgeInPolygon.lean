import Verif.Model.Conflict

/-!
# Detection of the edges in polygons

`Board::detect_edges_in_polygons` and `ConflictManager::add_edge_in_polygon`. As in `Verif.Model.Conflict`, edges and
polygons are numbers, time is left out, and so are the progress bars and the back references from edges and polygons to
conflicts.
-/

namespace Verif.Board
open Verif.Geom
open Verif.Mesh (tolerance)

/-- What a run of the detection (`src/domain/board.cpp:315-450`) comes to. -/
inductive Outcome (α : Type) where
  | ok (a : α)
  /-- Undefined behaviour. -/
  | ub
  /-- Does not end. -/
  | diverges
  deriving Repr, DecidableEq

/-- Sequence of two parts of the detection (`src/domain/board.cpp:315-450`): the second is only run if the first ends. -/
def Outcome.bind {α β : Type} : Outcome α → (α → Outcome β) → Outcome β
  | .ok a, f => f a
  | .ub, _ => .ub
  | .diverges, _ => .diverges

/-- A computation that always ends, after one that may not (`src/domain/board.cpp:315-450`). -/
def Outcome.map {α β : Type} (f : α → β) (o : Outcome α) : Outcome β := o.bind fun a => .ok (f a)

/-- A `for` loop of the detection (`src/domain/board.cpp:320-450`), in order. -/
def Outcome.fold {α β : Type} (f : β → α → Outcome β) : β → List α → Outcome β
  | b, [] => .ok b
  | b, a :: rest => (f b a).bind fun b => Outcome.fold f b rest

/-! ## Registration -/

/-- `Overlap` (`src/domain/conflicts/conflict_edge_in_polygon.hpp:27-32`) with the edge as a number, before it is handed
to the solver. -/
structure Found where
  polygon : Nat
  range : Segment
  other : Option Nat
  deriving DecidableEq, Repr

/-- What the solver reads of an overlap (`src/domain/conflicts/conflict_edge_in_polygon.cpp:87-88`): of the other edge,
only its normal. -/
def Found.overlap (E : Nat → BEdge) (f : Found) : Overlap := ⟨f.polygon, f.range, f.other.map fun e => (E e).side⟩

/-- The conflicts of a plane, each with its edge: `all_edge_in_polygons[plane]` (`src/domain/conflict_manager.hpp:37`). -/
abbrev InPolygon := List (Nat × List Found)

/-- The test that an overlap is registered already (`src/domain/conflict_manager.cpp:122-130`). -/
def Found.isIn (f : Found) (l : List Found) : Bool :=
  l.any fun g => decide (g.polygon = f.polygon) && g.range.eq f.range && (g.other.isNone || decide (g.other = f.other))

/-- `ConflictManager::add_edge_in_polygon` (`src/domain/conflict_manager.cpp:106-169`) on the conflicts of the plane of
the edge. The test on planes is left out: the detection only gives it edges and polygons of one plane. -/
def addInPolygon (a : Nat) (f : Found) : InPolygon → InPolygon
  | [] => [(a, [f])]
  | (e, l) :: rest =>
    if e = a then (if f.isIn l then (e, l) else (e, l ++ [f])) :: rest
    else (e, l) :: addInPolygon a f rest

/-! ## Detection -/

/-- What an edge of the polygon brings (`src/domain/board.cpp:355-377`): intersections, and the range when the edges
overlap on more than a point. -/
def meet (a e : Segment) : List Point × Option Segment :=
  match a.relationTo e with
  | .crossing => ((intersection a e).toList, none)
  | .overlapping =>
    match overlap a e with
    | some r => ([r.p0, r.p1], if r.axis = .point then none else some r)
    | none => ([], none)
  | _ => ([], none)

/-- The comparator chosen by `sort_points_by_vector_orientation` (`src/domain/board.cpp:27-62`); `none` for a null vector,
for which nothing is sorted. -/
def pointBefore (vec : Point) : Option (Point → Point → Bool) :=
  if vec.x > 0 ∧ vec.y = 0 then some fun a b => decide (a.x < b.x)
  else if vec.x = 0 ∧ vec.y > 0 then some fun a b => decide (a.y < b.y)
  else if vec.x < 0 ∧ vec.y = 0 then some fun a b => decide (a.x > b.x)
  else if vec.x = 0 ∧ vec.y < 0 then some fun a b => decide (a.y > b.y)
  else if vec.x > 0 ∧ vec.y > 0 then some fun a b => decide (a.x < b.x) && decide (a.y < b.y)
  else if vec.x < 0 ∧ vec.y > 0 then some fun a b => decide (a.x > b.x) && decide (a.y < b.y)
  else if vec.x < 0 ∧ vec.y < 0 then some fun a b => decide (a.x > b.x) && decide (a.y > b.y)
  else if vec.x > 0 ∧ vec.y < 0 then some fun a b => decide (a.x < b.x) && decide (a.y > b.y)
  else none

/-- What `std::ranges::sort` needs of its comparator on the elements sorted: a strict weak order. Without it the behaviour
is undefined (used for `src/domain/board.cpp:27-62`). -/
def WeakOrderOn {α : Type} (lt : α → α → Bool) (l : List α) : Prop :=
  (∀ a ∈ l, lt a a = false) ∧ (∀ a ∈ l, ∀ b ∈ l, ∀ c ∈ l, lt a b = true → lt b c = true → lt a c = true) ∧
  ∀ a ∈ l, ∀ b ∈ l, ∀ c ∈ l, lt a b = false → lt b a = false → lt b c = false → lt c b = false → lt a c = false

instance {α : Type} (lt : α → α → Bool) (l : List α) : Decidable (WeakOrderOn lt l) := by
  unfold WeakOrderOn; infer_instance

/-- `std::ranges::sort` with a comparator (`src/domain/board.cpp:31-61`): some permutation, sorted if the comparator is a
strict weak order. -/
structure OrderSorter (α : Type) where
  sort : (α → α → Bool) → List α → List α
  perm : ∀ lt l, (sort lt l).Perm l
  sorted : ∀ lt l, WeakOrderOn lt l → (sort lt l).Pairwise fun a b => lt b a = false

/-- `sort_points_by_vector_orientation` (`src/domain/board.cpp:27-62`). -/
def sortPoints (S : OrderSorter Point) (vec : Point) (l : List Point) : Outcome (List Point) :=
  match pointBefore vec with
  | none => .ok l
  | some lt => if WeakOrderOn lt l then .ok (S.sort lt l) else .ub

/-- `std::unique` after the kept element `prev` (`src/domain/board.cpp:392`). -/
def uniqueAfter (prev : Point) : List Point → List Point
  | [] => []
  | p :: rest => if prev.eq p then uniqueAfter prev rest else p :: uniqueAfter p rest

/-- `std::unique` and `erase` (`src/domain/board.cpp:392-393`). -/
def uniquePoints : List Point → List Point
  | [] => []
  | p :: rest => p :: uniqueAfter p rest

/-- The ranges between consecutive points (`src/domain/board.cpp:404-405`). -/
def between : List Point → List Segment
  | p :: q :: rest => ⟨p, q⟩ :: between (q :: rest)
  | _ => []

/-- `mid` of a range (`src/domain/geometrics/segment.cpp:172-174`, `src/domain/geometrics/point.cpp:43-45`). -/
def midPoint (r : Segment) : Point := ⟨mid r.p0.x r.p1.x, mid r.p0.y r.p1.y⟩

/-- `Polygon::relation_to` of a polygon (`src/domain/geometrics/polygon.cpp:159-205`), as an outcome: undefined for a
polygon without points. -/
def pointRelation (points : List Point) (q : Point) : Outcome PolygonRel :=
  match points, relationToPoint points q with
  | [], _ => .ub
  | _, none => .diverges
  | _, some r => .ok r

/-- The range made from the relation of an end (`src/domain/board.cpp:396-398`), for the list `intersections`, or
(`src/domain/board.cpp:399-401`) for its reverse: the two first elements are read. Reading outside is undefined behaviour. -/
def endRange (rel : PolygonRel) : List Point → Outcome (List (Segment × PolygonRel))
  | p :: q :: _ => .ok (if rel = .on then [] else [(⟨p, q⟩, rel)])
  | _ => if rel = .on then .ok [] else .ub

/-- The ranges made from the relations of the ends (`src/domain/board.cpp:396-401`). The ends of the second are given in the
other order, which nothing below tells apart but the order in which the range is stored, put right here. -/
def endRanges (l : List Point) (rel0 rel1 : PolygonRel) : Outcome (List (Segment × PolygonRel)) :=
  (endRange rel0 l).bind fun first =>
  (endRange rel1 l.reverse).map fun last => first ++ last.map fun r => (⟨r.1.p1, r.1.p0⟩, r.2)

/-- The last loop, for the ranges with a middle (`src/domain/board.cpp:418-422`): those whose middle is in the polygon. -/
def middlesIn (points : List Point) : List Segment → Outcome (List Segment)
  | [] => .ok []
  | r :: rest => (pointRelation points (midPoint r)).bind fun rel =>
    (middlesIn points rest).map fun l => if rel = .inside then r :: l else l

/-- The body of the loop over the edges of the first polygon (`src/domain/board.cpp:334-432`): the edge `a` against the
polygon `b`, given its points and its edges. The overlaps handed to `add_edge_in_polygon`, in order. -/
def detectEdge (S : OrderSorter Point) (b : Nat) (points : List Point) (edges : List (Nat × Segment)) (a : Segment) :
    Outcome (List Found) :=
  let hits := edges.flatMap fun e => (meet a e.2).1
  let ons := edges.filterMap fun e => (meet a e.2).2.map fun r => (⟨b, r, some e.1⟩ : Found)
  (pointRelation points a.p0).bind fun rel0 =>
  (pointRelation points a.p1).bind fun rel1 =>
  if hits = [] then
    .ok (ons ++ if rel0 = .inside ∧ rel1 = .inside then [⟨b, a, none⟩] else [])
  else
    (sortPoints S (a.p1.sub a.p0) (hits ++ [a.p0, a.p1])).bind fun sorted =>
    (endRanges (uniquePoints sorted) rel0 rel1).bind fun ends =>
    let known := ons.map (·.range) ++ ends.map (·.1)
    (middlesIn points ((between (uniquePoints sorted)).filter fun r => !known.any fun k => k.eq r)).map fun mids =>
    ons ++ ((ends.filter fun e => decide (e.2 = .inside)).map fun e => ⟨b, e.1, none⟩) ++ mids.map fun r => ⟨b, r, none⟩

/-- A polygon on a plane (`src/domain/geometrics/polygon.hpp:52-76`): what the detection reads of it. The edges are numbers
with their segments. -/
structure PPolygon where
  points : List Point
  edges : List (Nat × Segment)
  zmin : ℚ
  zmax : ℚ
  priority : Nat
  deriving DecidableEq, Repr

/-- Which pairs of polygons are looked at (`src/domain/board.cpp:324-332`). -/
def concerns (P : Nat → PPolygon) (a b : Nat) : Bool :=
  !(decide (b = a)) && !(decide ((P a).priority > (P b).priority)) &&
    overlap1D (P b).zmin (P b).zmax (P a).zmin (P a).zmax

/-- One edge against one polygon, with the registration (`src/domain/board.cpp:334-433`). The code registers as it goes;
nothing here reads the conflicts, so that registering at the end is the same. -/
def detectOne (S : OrderSorter Point) (P : Nat → PPolygon) (b : Nat) (s : InPolygon) (e : Nat × Segment) :
    Outcome InPolygon :=
  (detectEdge S b (P b).points (P b).edges e.2).map fun l => l.foldl (fun s f => addInPolygon e.1 f s) s

/-- `Board::detect_edges_in_polygons` (`src/domain/board.cpp:315-450`) for the polygons of a plane. -/
def detectInPolygons (S : OrderSorter Point) (P : Nat → PPolygon) (polygons : List Nat) (s : InPolygon) :
    Outcome InPolygon :=
  Outcome.fold (fun s a => Outcome.fold (fun s b =>
    if concerns P a b then Outcome.fold (detectOne S P b) s (P a).edges else .ok s) s polygons) s polygons

end Verif.Board
