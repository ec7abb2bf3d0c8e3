import Verif.Lemmas.MovedZones

/-! # Conflicts between edges, when everything is moved -/

namespace Verif.Moved
open Verif.Geom
open Verif.Board
open Verif.Mesh (Sorter tolerance Kind Facing)

variable {v : Point} {t : Shift}

theorem obind_map {α β γ : Type} (f : α → β) (g : β → Outcome γ) : ∀ o : Outcome α, (o.map f).bind g = o.bind fun a => g (f a)
  | .ok _ => rfl
  | .ub => rfl
  | .diverges => rfl

theorem omap_bind {α β γ : Type} (f : β → γ) (g : α → Outcome β) : ∀ o : Outcome α, (o.bind g).map f = o.bind fun a => (g a).map f
  | .ok _ => rfl
  | .ub => rfl
  | .diverges => rfl

theorem omap_map {α β γ : Type} (f : α → β) (g : β → γ) : ∀ o : Outcome α, (o.map f).map g = o.map fun a => g (f a)
  | .ok _ => rfl
  | .ub => rfl
  | .diverges => rfl

theorem obind_congr {α β : Type} {f g : α → Outcome β} : ∀ o : Outcome α, (∀ a, o = .ok a → f a = g a) → o.bind f = o.bind g
  | .ok a, h => h a rfl
  | .ub, _ => rfl
  | .diverges, _ => rfl

/-! ## Edges in polygons -/

/-- An overlap found, moved; the conflicts. -/
def found (v : Point) (f : Found) : Found := { f with range := segment v f.range }
@[inherit_doc found] def conflicts (v : Point) (s : InPolygon) : InPolygon := s.map fun c => (c.1, c.2.map (found v))

theorem meet_segment (a e : Segment) :
    meet (segment v a) (segment v e) = ((meet a e).1.map (point v), (meet a e).2.map (segment v)) := by
  unfold meet
  rw [relationTo_segment, intersection_segment, overlap_segment]
  cases a.relationTo e with
  | crossing => cases intersection a e <;> rfl
  | overlapping =>
    cases overlap a e with
    | none => rfl
    | some r =>
      simp only [Option.map_some, axis_segment]
      split <;> rfl
  | _ => rfl

theorem pointBefore_point {vec : Point} {lt : Point → Point → Bool} (h : pointBefore vec = some lt) (a b : Point) :
    lt (point v a) (point v b) = lt a b := by
  unfold pointBefore at h
  split_ifs at h <;> cases h <;> simp [point]

theorem weakOrder_point {vec : Point} {lt : Point → Point → Bool} (h : pointBefore vec = some lt) (l : List Point) :
    WeakOrderOn lt (l.map (point v)) ↔ WeakOrderOn lt l := by
  simp only [WeakOrderOn, List.forall_mem_map, pointBefore_point h]

theorem sortPoints_point {S : OrderSorter Point} (hS : ComparesOrder S) (vec : Point) (l : List Point) :
    sortPoints S vec (l.map (point v)) = (sortPoints S vec l).map fun r => r.map (point v) := by
  unfold sortPoints
  cases h : pointBefore vec with
  | none => rfl
  | some lt =>
    dsimp only
    by_cases hw : WeakOrderOn lt l
    · rw [if_pos hw, if_pos ((weakOrder_point h l).2 hw), hS (point v) lt lt l fun a _ b _ => pointBefore_point h a b]
      rfl
    · rw [if_neg hw, if_neg (mt (weakOrder_point h l).1 hw)]
      rfl

theorem uniqueAfter_point : ∀ (l : List Point) (p : Point), uniqueAfter (point v p) (l.map (point v)) = (uniqueAfter p l).map (point v)
  | [], _ => rfl
  | q :: rest, p => by
    simp only [List.map_cons, uniqueAfter, eq_point, uniqueAfter_point rest]
    split <;> rfl

theorem uniquePoints_point : ∀ l : List Point, uniquePoints (l.map (point v)) = (uniquePoints l).map (point v)
  | [] => rfl
  | p :: rest => by simp only [List.map_cons, uniquePoints, uniqueAfter_point]

theorem between_point : ∀ l : List Point, between (l.map (point v)) = (between l).map (segment v)
  | [] => rfl
  | [_] => rfl
  | p :: q :: rest => by
    have ih := between_point (q :: rest)
    simp only [List.map_cons] at ih
    simp only [List.map_cons, between, ih]
    rfl

theorem midPoint_segment (r : Segment) : midPoint (segment v r) = point v (midPoint r) := by
  simp [midPoint, segment, point, mid_add]

theorem pointRelation_point (points : List Point) (q : Point) :
    pointRelation (points.map (point v)) (point v q) = pointRelation points q := by
  unfold pointRelation
  rw [relationToPoint_points]
  cases points with
  | nil => rfl
  | cons a l => cases relationToPoint (a :: l) q <;> rfl

theorem endRange_point (rel : PolygonRel) : ∀ l : List Point,
    endRange rel (l.map (point v)) = (endRange rel l).map fun r => r.map fun e => (segment v e.1, e.2)
  | [] => by unfold endRange; simp only [List.map_nil]; split <;> rfl
  | [_] => by unfold endRange; simp only [List.map_cons, List.map_nil]; split <;> rfl
  | _ :: _ :: _ => by unfold endRange; simp only [List.map_cons]; split <;> rfl

theorem endRanges_point (l : List Point) (rel0 rel1 : PolygonRel) :
    endRanges (l.map (point v)) rel0 rel1 = (endRanges l rel0 rel1).map fun r => r.map fun e => (segment v e.1, e.2) := by
  unfold endRanges
  rw [endRange_point, ← List.map_reverse, endRange_point]
  cases endRange rel0 l with
  | ok a =>
    cases endRange rel1 l.reverse with
    | ok b =>
      simp only [Outcome.map, Outcome.bind, List.map_append, List.map_map, Function.comp_def]
      rfl
    | _ => rfl
  | _ => rfl

theorem middlesIn_point (points : List Point) : ∀ l : List Segment,
    middlesIn (points.map (point v)) (l.map (segment v)) = (middlesIn points l).map fun r => r.map (segment v)
  | [] => rfl
  | r :: rest => by
    simp only [List.map_cons, middlesIn, midPoint_segment, pointRelation_point, middlesIn_point points rest, omap_bind]
    refine obind_congr _ fun rel _ => ?_
    rw [omap_map, omap_map]
    congr 1
    funext l
    split <;> rfl

theorem detectEdge_moved {S : OrderSorter Point} (hS : ComparesOrder S) (b : Nat) (points : List Point) (edges : List (Nat × Segment))
    (a : Segment) : detectEdge S b (points.map (point v)) (edges.map fun e => (e.1, segment v e.2)) (segment v a) =
      (detectEdge S b points edges a).map fun l => l.map (found v) := by
  unfold detectEdge
  simp only [List.flatMap_map, List.filterMap_map, Function.comp_def, meet_segment]
  have e0 : (segment v a).p0 = point v a.p0 := rfl
  have e1 : (segment v a).p1 = point v a.p1 := rfl
  rw [e0, e1, pointRelation_point, pointRelation_point, sub_point]
  have eh : (edges.flatMap fun e => (meet a e.2).1.map (point v)) = (edges.flatMap fun e => (meet a e.2).1).map (point v) := by
    rw [List.map_flatMap]
  have eo : (edges.filterMap fun e => ((meet a e.2).2.map (segment v)).map fun r => (⟨b, r, some e.1⟩ : Found)) =
      (edges.filterMap fun e => (meet a e.2).2.map fun r => (⟨b, r, some e.1⟩ : Found)).map (found v) := by
    rw [List.map_filterMap]
    congr 1
    funext e
    cases (meet a e.2).2 <;> rfl
  rw [eh, eo]
  generalize edges.flatMap (fun e => (meet a e.2).1) = hits
  generalize edges.filterMap (fun e => (meet a e.2).2.map fun r => (⟨b, r, some e.1⟩ : Found)) = ons
  rw [omap_bind]
  refine obind_congr _ fun rel0 _ => ?_
  rw [omap_bind]
  refine obind_congr _ fun rel1 _ => ?_
  by_cases hh : hits = []
  · subst hh
    simp only [List.map_nil, if_true]
    show Outcome.ok _ = Outcome.ok (List.map _ _)
    rw [List.map_append]
    congr 2
    split <;> rfl
  · rw [if_neg hh, if_neg (by simpa using hh)]
    have e2 : hits.map (point v) ++ [point v a.p0, point v a.p1] = (hits ++ [a.p0, a.p1]).map (point v) := by simp
    rw [e2, sortPoints_point hS, obind_map, omap_bind]
    refine obind_congr _ fun sorted _ => ?_
    rw [uniquePoints_point, endRanges_point, obind_map, omap_bind]
    refine obind_congr _ fun ends _ => ?_
    rw [between_point, List.filter_map (l := between (uniquePoints sorted))]
    have e3 : ((fun r => !((ons.map (found v)).map (·.range) ++ (ends.map fun e => (segment v e.1, e.2)).map (·.1)).any fun k => k.eq r) ∘
        segment v) = fun r => !(ons.map (·.range) ++ ends.map (·.1)).any fun k => k.eq r := by
      funext r
      simp only [Function.comp_apply, List.any_append, List.any_map, Function.comp_def, found, eq_segment]
    rw [e3, middlesIn_point, omap_map, omap_map]
    congr 1
    funext mids
    simp only [List.map_append, List.map_map, List.filter_map, Function.comp_def]
    rfl

theorem isIn_found (f : Found) (l : List Found) : (found v f).isIn (l.map (found v)) = f.isIn l := by
  unfold Found.isIn
  simp only [List.any_map, Function.comp_def, found, eq_segment]
  rfl

theorem addInPolygon_moved (a : Nat) (f : Found) : ∀ s : InPolygon,
    addInPolygon a (found v f) (conflicts v s) = conflicts v (addInPolygon a f s)
  | [] => rfl
  | (e, l) :: rest => by
    have ih := addInPolygon_moved a f rest
    simp only [conflicts, List.map_cons, addInPolygon, isIn_found] at ih ⊢
    split
    · split
      · rfl
      · simp
    · rw [ih]
      rfl

theorem foldl_addInPolygon_moved (a : Nat) : ∀ (l : List Found) (s : InPolygon),
    (l.map (found v)).foldl (fun s f => addInPolygon a f s) (conflicts v s) = conflicts v (l.foldl (fun s f => addInPolygon a f s) s)
  | [], _ => rfl
  | f :: l, s => by
    simp only [List.map_cons, List.foldl_cons, addInPolygon_moved]
    exact foldl_addInPolygon_moved a l _

theorem ofold_moved {α β : Type} {f f' : β → α → Outcome β} {m : β → β} : ∀ (l : List α) (b : β),
    (∀ a ∈ l, ∀ b, f' (m b) a = (f b a).map m) → Outcome.fold f' (m b) l = (Outcome.fold f b l).map m
  | [], _, _ => rfl
  | a :: l, b, h => by
    simp only [Outcome.fold]
    rw [h a List.mem_cons_self, obind_map, omap_bind]
    exact obind_congr _ fun b _ => ofold_moved l b fun a ha => h a (List.mem_cons_of_mem _ ha)

theorem ofold_mapped {α β : Type} {f f' : β → α → Outcome β} {m : β → β} {g : α → α} (l : List α) (b : β)
    (h : ∀ a ∈ l, ∀ b, f' (m b) (g a) = (f b a).map m) : Outcome.fold f' (m b) (l.map g) = (Outcome.fold f b l).map m := by
  induction l generalizing b with
  | nil => rfl
  | cons a l ih =>
    simp only [List.map_cons, Outcome.fold]
    rw [h a List.mem_cons_self, obind_map, omap_bind]
    exact obind_congr _ fun b _ => ih b fun a ha => h a (List.mem_cons_of_mem _ ha)

theorem detectInPolygons_moved {S : OrderSorter Point} (hS : ComparesOrder S) {P P' : Nat → PPolygon} {polygons : List Nat} {plane : Plane}
    (h : ∀ a ∈ polygons, P' a = ppolygon t plane (P a)) (s : InPolygon) :
    detectInPolygons S P' polygons (conflicts (t.inPlane plane) s) =
      (detectInPolygons S P polygons s).map (conflicts (t.inPlane plane)) := by
  unfold detectInPolygons
  refine ofold_moved _ _ fun a ha s => ?_
  refine ofold_moved _ _ fun b hb s => ?_
  have ec : concerns P' a b = concerns P a b := by
    unfold concerns
    rw [h a ha, h b hb]
    simp only [ppolygon, overlap1D_add]
    rfl
  rw [ec]
  split
  · rw [h a ha]
    refine ofold_mapped _ _ fun e _ s => ?_
    unfold detectOne
    rw [h b hb]
    simp only [ppolygon, detectEdge_moved hS, omap_map, foldl_addInPolygon_moved]
  · rfl

/-- The conflicts of each plane, moved. -/
def allConflicts (t : Shift) (planes : List Plane) (l : List InPolygon) : List InPolygon :=
  List.zipWith (fun plane s => conflicts (t.inPlane plane) s) planes l

theorem detectAllInPolygons_moved {S : OrderSorter Point} (hS : ComparesOrder S) {B B' : Input} (h : MovedInput t B B') :
    ∀ planes : List Plane, detectAllInPolygons S B' planes = (detectAllInPolygons S B planes).map (allConflicts t planes)
  | [] => rfl
  | plane :: rest => by
    have e := detectInPolygons_moved hS (P := B.P) (P' := B'.P) (polygons := B.polygons plane) (plane := plane) (h.P plane) []
    unfold detectAllInPolygons
    rw [h.polygons, show ([] : InPolygon) = conflicts (t.inPlane plane) [] from rfl, e, obind_map, omap_bind]
    refine obind_congr _ fun s _ => ?_
    rw [detectAllInPolygons_moved hS h rest, omap_map, omap_map]
    rfl

/-! ### Which edges are in conflicts -/

theorem addInPolygon_key (a : Nat) (f : Found) : ∀ s : InPolygon, ∀ c ∈ addInPolygon a f s, c.1 = a ∨ ∃ d ∈ s, d.1 = c.1
  | [], c, h => by
    simp only [addInPolygon, List.mem_singleton] at h
    subst h
    exact Or.inl rfl
  | (e, l) :: rest, c, h => by
    unfold addInPolygon at h
    split at h
    · rename_i he
      rcases List.mem_cons.1 h with rfl | h
      · split <;> exact Or.inl he
      · exact Or.inr ⟨c, List.mem_cons_of_mem _ h, rfl⟩
    · rcases List.mem_cons.1 h with rfl | h
      · exact Or.inr ⟨_, List.mem_cons_self, rfl⟩
      · rcases addInPolygon_key a f rest c h with h | ⟨d, hd, he⟩
        · exact Or.inl h
        · exact Or.inr ⟨d, List.mem_cons_of_mem _ hd, he⟩

theorem foldl_addInPolygon_key {Q : Nat → Prop} {a : Nat} (ha : Q a) : ∀ (l : List Found) (s : InPolygon), (∀ c ∈ s, Q c.1) →
    ∀ c ∈ l.foldl (fun s f => addInPolygon a f s) s, Q c.1
  | [], _, h => h
  | f :: l, s, h => foldl_addInPolygon_key ha l _ fun c hc => by
    rcases addInPolygon_key a f s c hc with e | ⟨d, hd, e⟩
    · exact e ▸ ha
    · exact e ▸ h d hd

theorem ofold_inv {α β : Type} {f : β → α → Outcome β} {I : β → Prop} : ∀ (l : List α) (b r : β),
    (∀ a ∈ l, ∀ b r, I b → f b a = .ok r → I r) → I b → Outcome.fold f b l = .ok r → I r
  | [], b, r, _, hb, h => by cases h; exact hb
  | a :: l, b, r, hf, hb, h => by
    simp only [Outcome.fold] at h
    cases e : f b a with
    | ok c =>
      rw [e] at h
      exact ofold_inv l c r (fun a ha => hf a (List.mem_cons_of_mem _ ha)) (hf a List.mem_cons_self b c hb e) h
    | ub => rw [e] at h; cases h
    | diverges => rw [e] at h; cases h

theorem detectInPolygons_key {S : OrderSorter Point} {B : Input} {plane : Plane} {r : InPolygon}
    (h : detectInPolygons S B.P (B.polygons plane) [] = .ok r) : ∀ c ∈ r, c.1 ∈ B.edges plane := by
  refine ofold_inv (I := fun s : InPolygon => ∀ c ∈ s, c.1 ∈ B.edges plane) _ [] r ?_ (by simp) h
  intro a ha s r hs hr
  refine ofold_inv (I := fun s : InPolygon => ∀ c ∈ s, c.1 ∈ B.edges plane) _ s r ?_ hs hr
  intro b _ s r hs hr
  split at hr
  · refine ofold_inv (I := fun s : InPolygon => ∀ c ∈ s, c.1 ∈ B.edges plane) _ s r ?_ hs hr
    intro e he s r hs hr
    unfold detectOne at hr
    cases hd : detectEdge S b (B.P b).points (B.P b).edges e.2 with
    | ok l =>
      rw [hd] at hr
      cases hr
      refine foldl_addInPolygon_key (Q := fun n => n ∈ B.edges plane) ?_ l s hs
      exact List.mem_flatMap.2 ⟨a, ha, List.mem_map.2 ⟨e, he, rfl⟩⟩
    | ub => rw [hd] at hr; cases hr
    | diverges => rw [hd] at hr; cases hr
  · cases hr
    exact hs

/-! ### Solving -/

/-- Edges moved: those of a plane. -/
def MovedEdges (t : Shift) (B : Input) (E E' : Nat → BEdge) : Prop :=
  (∀ n, (E' n).side = (E n).side) ∧ ∀ plane, ∀ n ∈ B.edges plane, (E n).plane = plane ∧ E' n = bedge t (E n)

theorem joinRanges_moved (normal : Normal) : ∀ (l : List Overlap) (m : Segment),
    joinRanges normal (segment v m) (l.map fun o => { o with range := segment v o.range }) = segment v (joinRanges normal m l)
  | [], _ => rfl
  | o :: rest, m => by
    simp only [List.map_cons, joinRanges, merge_segment]
    split
    · cases merge o.range m with
      | none => rfl
      | some r => exact joinRanges_moved normal rest r
    · rfl

theorem sortOverlaps_moved {S : Sorter Overlap} (hS : Compares S) (vec : Point) (l : List Overlap) :
    sortOverlaps S vec (l.map fun o => { o with range := segment v o.range }) =
      (sortOverlaps S vec l).map fun o => { o with range := segment v o.range } := by
  unfold sortOverlaps
  cases h : overlapKey vec with
  | none => rfl
  | some key =>
    refine hS _ key key l fun a _ b _ => ?_
    unfold overlapKey at h
    split_ifs at h <;> cases h <;> simp only [segment, point] <;> constructor <;> intro h <;> linarith

theorem solveInPolygon_moved {S : Sorter Overlap} (hS : Compares S) (e : BEdge) (l : List Overlap) :
    solveInPolygon S (bedge t e) (l.map fun o => { o with range := segment (t.inPlane e.plane) o.range }) = solveInPolygon S e l := by
  unfold solveInPolygon
  have e1 : (bedge t e).seg = segment (t.inPlane e.plane) e.seg := rfl
  rw [e1, vector_segment, sortOverlaps_moved hS]
  cases sortOverlaps S (e.seg.p1.sub e.seg.p0) l with
  | nil => rfl
  | cons front rest =>
    have := joinRanges_moved (v := t.inPlane e.plane) e.side (front :: rest) front.range
    simp only [List.map_cons] at this ⊢
    rw [show (bedge t e).side = e.side from rfl, this, eq_segment]

theorem setMesh_moved {B : Input} {E E' : Nat → BEdge} (h : MovedEdges t B E E') (n : Nat) (b : Bool) :
    MovedEdges t B (setMesh E n b) (setMesh E' n b) := by
  refine ⟨fun m => ?_, fun plane m hm => ?_⟩
  · unfold setMesh
    split <;> exact h.1 m
  · obtain ⟨h1, h2⟩ := h.2 plane m hm
    unfold setMesh
    split
    · exact ⟨h1, by rw [h2]; rfl⟩
    · exact ⟨h1, h2⟩

theorem solveAllInPolygon_moved {S : Sorter Overlap} (hS : Compares S) {B : Input} {plane : Plane} : ∀ (s : InPolygon) (E E' : Nat → BEdge),
    MovedEdges t B E E' → (∀ c ∈ s, c.1 ∈ B.edges plane) →
      Option.Rel (MovedEdges t B) (solveAllInPolygon S E s) (solveAllInPolygon S E' (conflicts (t.inPlane plane) s))
  | [], _, _, h, _ => .some h
  | (n, os) :: rest, E, E', h, hk => by
    obtain ⟨h1, h2⟩ := h.2 plane n (hk _ List.mem_cons_self)
    have e1 : (os.map (found (t.inPlane plane))).map (Found.overlap E') =
        (os.map (Found.overlap E)).map fun o => { o with range := segment (t.inPlane (E n).plane) o.range } := by
      rw [List.map_map, List.map_map]
      refine List.map_congr_left fun f _ => ?_
      simp only [Function.comp_apply, Found.overlap, found, h.1, h1]
    show Option.Rel _ (solveAllInPolygon S E ((n, os) :: rest))
      (solveAllInPolygon S E' ((n, os.map (found (t.inPlane plane))) :: conflicts (t.inPlane plane) rest))
    unfold solveAllInPolygon
    rw [e1, h2, solveInPolygon_moved hS]
    cases solveInPolygon S (E n) (os.map (Found.overlap E)) with
    | none => exact .none
    | some b =>
      exact solveAllInPolygon_moved hS rest _ _ (setMesh_moved h n b) fun c hc => hk c (List.mem_cons_of_mem _ hc)

theorem solveConflicts_moved {S : OrderSorter Point} {T : Sorter Overlap} (hT : Compares T) {B : Input} :
    ∀ (planes : List Plane) (l : List InPolygon) (E E' : Nat → BEdge), detectAllInPolygons S B planes = .ok l → MovedEdges t B E E' →
      Option.Rel (MovedEdges t B) (l.foldlM (solveAllInPolygon T) E) ((allConflicts t planes l).foldlM (solveAllInPolygon T) E')
  | [], l, E, E', h, hE => by
    cases h
    exact .some hE
  | plane :: rest, l, E, E', h, hE => by
    unfold detectAllInPolygons at h
    cases hd : detectInPolygons S B.P (B.polygons plane) [] with
    | ub => rw [hd] at h; cases h
    | diverges => rw [hd] at h; cases h
    | ok s =>
      rw [hd] at h
      cases hr : detectAllInPolygons S B rest with
      | ub => rw [hr] at h; cases h
      | diverges => rw [hr] at h; cases h
      | ok m =>
        rw [hr] at h
        cases h
        show Option.Rel _ ((s :: m).foldlM (solveAllInPolygon T) E)
          ((conflicts (t.inPlane plane) s :: allConflicts t rest m).foldlM (solveAllInPolygon T) E')
        rw [List.foldlM_cons, List.foldlM_cons]
        have := solveAllInPolygon_moved hT s E E' hE (detectInPolygons_key hd)
        revert this
        cases solveAllInPolygon T E s with
        | none =>
          cases solveAllInPolygon T E' (conflicts (t.inPlane plane) s) with
          | none => exact fun _ => .none
          | some _ => exact fun h => by cases h
        | some F =>
          cases solveAllInPolygon T E' (conflicts (t.inPlane plane) s) with
          | none => exact fun h => by cases h
          | some F' =>
            intro h
            cases h with
            | some h => exact solveConflicts_moved hT rest m F F' hr h

/-! ## Colinear edges -/

theorem coordY_bedge {e f : BEdge} (h : e.plane = f.plane) :
    coordEq (bedge t e).seg.p0.y (bedge t f).seg.p0.y = coordEq e.seg.p0.y f.seg.p0.y := by
  simp only [bedge, segment, point, h, coordEq_add]

theorem coordX_bedge {e f : BEdge} (h : e.plane = f.plane) :
    coordEq (bedge t e).seg.p0.x (bedge t f).seg.p0.x = coordEq e.seg.p0.x f.seg.p0.x := by
  simp only [bedge, segment, point, h, coordEq_add]

theorem axis_bedge (e : BEdge) : (bedge t e).axis = e.axis := axis_segment _

theorem addColinear_moved {E E' : Nat → BEdge} {a b : Nat} (ha : E' a = bedge t (E a)) (hb : E' b = bedge t (E b)) (s : Colinear) :
    addColinear E' s a b = addColinear E s a b := by
  unfold addColinear
  rw [ha, hb]
  simp only [axis_bedge]
  rfl

theorem detectColinearInner_moved {E E' : Nat → BEdge} {plane : Plane} {i : Nat} (hi : (E i).plane = plane ∧ E' i = bedge t (E i)) :
    ∀ (l : List Nat) (s : Colinear), (∀ j ∈ l, (E j).plane = plane ∧ E' j = bedge t (E j)) →
      detectColinearInner E' plane i s l = detectColinearInner E plane i s l
  | [], _, _ => rfl
  | j :: rest, s, h => by
    obtain ⟨h1, h2⟩ := h j List.mem_cons_self
    have ih := fun s => detectColinearInner_moved hi rest s fun j hj => h j (List.mem_cons_of_mem _ hj)
    have e := hi.1.trans h1.symm
    unfold detectColinearInner
    simp only [ih, addColinear_moved hi.2 h2, h2, hi.2, axis_bedge, coordX_bedge e, coordY_bedge e]

theorem detectColinear_moved {E E' : Nat → BEdge} {plane : Plane} :
    ∀ (l : List Nat) (s : Colinear), (∀ j ∈ l, (E j).plane = plane ∧ E' j = bedge t (E j)) →
      detectColinear E' plane s l = detectColinear E plane s l
  | [], _, _ => rfl
  | i :: rest, s, h => by
    have hr := fun j hj => h j (List.mem_cons_of_mem i hj)
    have ih := fun s => detectColinear_moved rest s hr
    unfold detectColinear
    rw [detectColinearInner_moved (h i List.mem_cons_self) rest s hr]
    simp only [ih, (h i List.mem_cons_self).2, axis_bedge]

theorem edges_moved {B B' : Input} (h : MovedInput t B B') (plane : Plane) : B'.edges plane = B.edges plane := by
  unfold Input.edges
  rw [h.polygons]
  refine List.flatMap_congr fun a ha => ?_
  rw [h.P plane a ha]
  simp [ppolygon, Function.comp_def]

theorem detectAllColinear_moved {B B' : Input} (h : MovedInput t B B') : detectAllColinear B' = detectAllColinear B := by
  have e : ∀ plane s, detectColinear B'.E plane s (B'.edges plane) = detectColinear B.E plane s (B.edges plane) := fun plane s => by
    rw [edges_moved h]
    exact detectColinear_moved _ _ fun j hj => ⟨h.plane plane j hj, h.E plane j hj⟩
  unfold detectAllColinear
  simp only [e]

/-! ### Where the edges in a conflict are -/

/-- An edge of a plane, fixed on an axis. -/
def On (B : Input) (w : Geom.Axis) (x : Nat) : Prop :=
  ∃ plane, x ∈ B.edges plane ∧ (B.E x).plane = plane ∧ transposeSeg plane (B.E x).axis = some w

theorem addColinearLoop_mem {a b : Nat} : ∀ (l : List (List Nat)), ∀ c ∈ (addColinearLoop a b l).1, ∀ x ∈ c, x = a ∨ x = b ∨ ∃ d ∈ l, x ∈ d
  | [], c, h, _, _ => by cases h
  | d :: rest, c, h, x, hx => by
    have old : ∀ e : List Nat, (∃ f ∈ d :: rest, e = f) → x ∈ e → x = a ∨ x = b ∨ ∃ d' ∈ d :: rest, x ∈ d' :=
      fun e ⟨f, hf, he⟩ hx => Or.inr (Or.inr ⟨f, hf, he ▸ hx⟩)
    unfold addColinearLoop at h
    split at h
    · rcases List.mem_cons.1 h with rfl | h
      · rcases List.mem_append.1 hx with hx | hx
        · exact old d ⟨d, List.mem_cons_self, rfl⟩ hx
        · exact Or.inr (Or.inl (List.mem_singleton.1 hx))
      · exact old c ⟨c, List.mem_cons_of_mem _ h, rfl⟩ hx
    · rcases List.mem_cons.1 h with rfl | h
      · rcases List.mem_append.1 hx with hx | hx
        · exact old d ⟨d, List.mem_cons_self, rfl⟩ hx
        · exact Or.inl (List.mem_singleton.1 hx)
      · exact old c ⟨c, List.mem_cons_of_mem _ h, rfl⟩ hx
    · exact old c ⟨c, h, rfl⟩ hx
    · rcases List.mem_cons.1 h with rfl | h
      · exact old c ⟨c, List.mem_cons_self, rfl⟩ hx
      · rcases addColinearLoop_mem rest c h x hx with h | h | ⟨d', hd, hx⟩
        · exact Or.inl h
        · exact Or.inr (Or.inl h)
        · exact Or.inr (Or.inr ⟨d', List.mem_cons_of_mem _ hd, hx⟩)

theorem addPair_mem {a b : Nat} {l : List (List Nat)} {c : List Nat} (h : c ∈ addPair a b l) {x : Nat} (hx : x ∈ c) :
    x = a ∨ x = b ∨ ∃ d ∈ l, x ∈ d := by
  unfold addPair at h
  split at h
  · exact addColinearLoop_mem l c h x hx
  · rcases List.mem_append.1 h with h | h
    · exact Or.inr (Or.inr ⟨c, h, hx⟩)
    · rw [List.mem_singleton] at h
      subst h
      simp only [List.mem_cons, List.not_mem_nil, or_false] at hx
      rcases hx with rfl | rfl
      · exact Or.inl rfl
      · exact Or.inr (Or.inl rfl)

/-- All edges in conflicts are where they are to be. -/
def AllOn (B : Input) (s : Colinear) : Prop := ∀ w, ∀ c ∈ s w, ∀ x ∈ c, On B w x

theorem addColinear_on {B : Input} {plane : Plane} {s : Colinear} (hs : AllOn B s) {a b : Nat}
    (ha : a ∈ B.edges plane ∧ (B.E a).plane = plane) (hb : b ∈ B.edges plane ∧ (B.E b).plane = plane) :
    AllOn B (addColinear B.E s a b) := by
  unfold addColinear
  split
  · rename_i hh
    cases ht : transposeSeg (B.E a).plane (B.E a).axis with
    | none => exact hs
    | some axis =>
      intro w c hc x hx
      dsimp only at hc
      split at hc
      · rename_i hw
        subst hw
        rcases addPair_mem hc hx with rfl | rfl | ⟨d, hd, hx⟩
        · exact ⟨plane, ha.1, ha.2, ha.2 ▸ ht⟩
        · exact ⟨plane, hb.1, hb.2, by rw [← hh.2, ← ht, ha.2]⟩
        · exact hs w d hd x hx
      · exact hs w c hc x hx
  · exact hs

theorem detectColinearInner_on {B : Input} {plane : Plane} {i : Nat} (hi : i ∈ B.edges plane ∧ (B.E i).plane = plane) :
    ∀ (l : List Nat) (s : Colinear), AllOn B s → (∀ j ∈ l, j ∈ B.edges plane ∧ (B.E j).plane = plane) →
      AllOn B (detectColinearInner B.E plane i s l)
  | [], _, hs, _ => hs
  | j :: rest, s, hs, h => by
    have ih := fun s hs => detectColinearInner_on hi rest s hs fun j hj => h j (List.mem_cons_of_mem _ hj)
    have ha := addColinear_on hs hi (h j List.mem_cons_self)
    unfold detectColinearInner
    split
    · exact ih s hs
    · split
      · exact ih s hs
      · split
        · exact ih _ ha
        · split
          · exact ih _ ha
          · exact ih s hs

theorem detectColinear_on {B : Input} {plane : Plane} :
    ∀ (l : List Nat) (s : Colinear), AllOn B s → (∀ j ∈ l, j ∈ B.edges plane ∧ (B.E j).plane = plane) →
      AllOn B (detectColinear B.E plane s l)
  | [], _, hs, _ => hs
  | i :: rest, s, hs, h => by
    have hr := fun j hj => h j (List.mem_cons_of_mem i hj)
    unfold detectColinear
    split
    · exact detectColinear_on rest s hs hr
    · exact detectColinear_on rest _ (detectColinearInner_on (h i List.mem_cons_self) rest s hs hr) hr

theorem detectAllColinear_on {B : Input} (h : ∀ plane, ∀ e ∈ B.edges plane, (B.E e).plane = plane) : AllOn B (detectAllColinear B) := by
  unfold detectAllColinear
  simp only [allPlanes, List.foldl_cons, List.foldl_nil]
  refine detectColinear_on _ _ (detectColinear_on _ _ (detectColinear_on _ _ ?_ ?_) ?_) ?_
  · intro w c hc
    cases hc
  all_goals exact fun j hj => ⟨hj, h _ j hj⟩

end Verif.Moved
