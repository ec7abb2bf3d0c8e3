import Verif.Props.Whole
import Verif.Props.RunKinds
import Verif.Props.Adjust

/-!
# C89: the rule of thirds, from a file of metal boxes to the lines
-/

namespace Verif.Board
open Verif.Geom
open Verif.Csx (Flags Point3 Property Primitive parseProperties parseProperty)
open Verif.Csx.Spec (Solid coordOf solids PointAt BoxFile Hidden proj depth normalAxis Amid port)
open Verif.Mesh (MeshParams tolerance)
open Verif.Mesh.Spec (Increasing GapsAtMost)
open Spec

/-- The lower coordinate of a box. -/
def lowOf (axis : Geom.Axis) (s : Solid) : ℚ := min (coordOf axis s.p1) (coordOf axis s.p2)

/-- The upper coordinate of a box. -/
def highOf (axis : Geom.Axis) (s : Solid) : ℚ := max (coordOf axis s.p1) (coordOf axis s.p2)

/-- A box has at `c` the face given, which is not within other boxes seen along some axis. -/
def Shown (face : Geom.Axis → Solid → ℚ) (props : List Property) (axis : Geom.Axis) (c : ℚ) : Prop :=
  ∃ i s, (solids props)[i]? = some s ∧ face axis s = c ∧
    ∃ u v, u ≠ axis ∧ v ≠ axis ∧ u ≠ v ∧ ¬ Hidden (solids props) i s axis u v c

/-- What is shown at `c`: a face, a point or a line that was there. -/
def ShownAt (old : List Csx.Added) (props : List Property) (axis : Geom.Axis) (c : ℚ) : Prop :=
  PointAt props axis c ∨ .line axis c ∈ old ∨ Shown lowOf props axis c ∨ Shown highOf props axis c

/-- There is no line at `c`, and the next lines, towards what is shown or other lines, are at these shares of cells not larger than
`D`. -/
def Split (old : List Csx.Added) (props : List Property) (axis : Geom.Axis) (lines : List ℚ) (D c below above : ℚ) : Prop :=
  c ∉ lines ∧
  ((∃ x, c < x ∧ (ShownAt old props axis x ∨ x ∈ lines)) → ∃ d ≤ D, Mesh.NextAbove lines c (above * d)) ∧
  ((∃ x, x < c ∧ (ShownAt old props axis x ∨ x ∈ lines)) → ∃ d ≤ D, Mesh.NextBelow lines c (below * d))

theorem fixed_line {p : Plane} {s : Segment} {axis : Geom.Axis} {c : ℚ} (h : Fixed p s axis c) :
    (Vertical s ∧ axis = spaceAxis p .h ∧ c = s.p0.x) ∨ (Horizontal s ∧ axis = spaceAxis p .v ∧ c = s.p0.y) := by
  cases h with
  | h_yz h => exact Or.inr ⟨h, rfl, rfl⟩
  | v_yz h => exact Or.inl ⟨h, rfl, rfl⟩
  | h_zx h => exact Or.inr ⟨h, rfl, rfl⟩
  | v_zx h => exact Or.inl ⟨h, rfl, rfl⟩
  | h_xy h => exact Or.inr ⟨h, rfl, rfl⟩
  | v_xy h => exact Or.inl ⟨h, rfl, rfl⟩

/-- The side of an edge that leads out of a box is that of the face it is on. -/
theorem out_side {p1 p3 : Point} {s : Segment} {n : Normal}
    (h : ∀ q, On s q → WithinBox p1 p3 q ∧ ∀ ε, 0 < ε → ¬ WithinBox p1 p3 (q.advance ε (unit n))) :
    (n = .xmin ∧ s.p0.x = min p1.x p3.x ∧ s.p1.x = min p1.x p3.x) ∨ (n = .xmax ∧ s.p0.x = max p1.x p3.x ∧ s.p1.x = max p1.x p3.x) ∨
    (n = .ymin ∧ s.p0.y = min p1.y p3.y ∧ s.p1.y = min p1.y p3.y) ∨ (n = .ymax ∧ s.p0.y = max p1.y p3.y ∧ s.p1.y = max p1.y p3.y) := by
  have hon0 : On s s.p0 := ⟨0, le_refl _, by norm_num, by ring, by ring⟩
  have hon1 : On s s.p1 := ⟨1, by norm_num, le_refl _, by ring, by ring⟩
  have key : ∀ q, On s q → (n = .xmin ∧ q.x = min p1.x p3.x) ∨ (n = .xmax ∧ q.x = max p1.x p3.x) ∨
      (n = .ymin ∧ q.y = min p1.y p3.y) ∨ (n = .ymax ∧ q.y = max p1.y p3.y) := by
    intro q hq
    obtain ⟨⟨w1, w2, w3, w4⟩, hout⟩ := h q hq
    have zero : unit n = ⟨0, 0⟩ → False := fun e => hout 1 one_pos (by rw [e]; simpa [Point.advance] using ⟨w1, w2, w3, w4⟩)
    cases n with
    | xmin =>
      left
      refine ⟨rfl, (le_antisymm w1 ?_).symm⟩
      by_contra hlt
      refine hout (q.x - min p1.x p3.x) (by linarith) ⟨?_, ?_, ?_, ?_⟩ <;> simp only [Point.advance, unit] <;> linarith
    | xmax =>
      right; left
      refine ⟨rfl, le_antisymm w2 ?_⟩
      by_contra hlt
      refine hout (max p1.x p3.x - q.x) (by linarith) ⟨?_, ?_, ?_, ?_⟩ <;> simp only [Point.advance, unit] <;> linarith
    | ymin =>
      right; right; left
      refine ⟨rfl, (le_antisymm w3 ?_).symm⟩
      by_contra hlt
      refine hout (q.y - min p1.y p3.y) (by linarith) ⟨?_, ?_, ?_, ?_⟩ <;> simp only [Point.advance, unit] <;> linarith
    | ymax =>
      right; right; right
      refine ⟨rfl, le_antisymm w4 ?_⟩
      by_contra hlt
      refine hout (max p1.y p3.y - q.y) (by linarith) ⟨?_, ?_, ?_, ?_⟩ <;> simp only [Point.advance, unit] <;> linarith
    | zmin => exact absurd rfl zero
    | zmax => exact absurd rfl zero
    | none => exact absurd rfl zero
  rcases key _ hon0 with ⟨rfl, h0⟩ | ⟨rfl, h0⟩ | ⟨rfl, h0⟩ | ⟨rfl, h0⟩
  · exact Or.inl ⟨rfl, h0, by simpa using key _ hon1⟩
  · exact Or.inr (Or.inl ⟨rfl, h0, by simpa using key _ hon1⟩)
  · exact Or.inr (Or.inr (Or.inl ⟨rfl, h0, by simpa using key _ hon1⟩))
  · exact Or.inr (Or.inr (Or.inr ⟨rfl, h0, by simpa using key _ hon1⟩))

/-- An edge of a polygon of a box has a side, and it is that of the face it is on. -/
theorem box_side {props : List Property} (hb : BoxFile props) {s : Solid} (hs : s ∈ solids props) {m : MaterialKind} {p : Plane}
    {ed : Edge} (hed : ed ∈ (boxPart m s p).edges) :
    ∃ n, ed.normal = some n ∧ (n = .xmin ∨ n = .xmax ∨ n = .ymin ∨ n = .ymax) ∧
      ∀ axis c, Fixed p ed.seg axis c → (facing n = .min ∧ lowOf axis s = c) ∨ (facing n = .max ∧ highOf axis s = c) := by
  have ht : tolerance = 1 / 100000000 := rfl
  have hclear : ∀ {a b : ℚ}, Clear a b → a ≠ b → 1 / 5000 ≤ |b - a| := by
    rintro a b (h | h) hne
    · exact absurd h hne
    · rwa [abs_sub_comm]
  obtain ⟨hx1, hy1, -⟩ := proj_coord p s.p1
  obtain ⟨hx2, hy2, -⟩ := proj_coord p s.p2
  have hw : 1 / 5000 ≤ |(proj p s.p2).x - (proj p s.p1).x| := by
    rw [hx1, hx2]
    exact hclear (hb.clear _ hs _ hs _ _ (List.mem_cons_self ..) _ (List.mem_cons_of_mem _ (List.mem_cons_self ..)))
      (hb.thick _ hs _)
  have hh : 1 / 5000 ≤ |(proj p s.p2).y - (proj p s.p1).y| := by
    rw [hy1, hy2]
    exact hclear (hb.clear _ hs _ hs _ _ (List.mem_cons_self ..) _ (List.mem_cons_of_mem _ (List.mem_cons_self ..)))
      (hb.thick _ hs _)
  obtain ⟨edges, h1, -, h2⟩ := C35_box (p1 := proj p s.p1) (p3 := proj p s.p2) (by rw [ht]; linarith)
    (by rw [ht]; linarith) (by rw [ht, abs_mul]; nlinarith)
  have he' : edges = (boxPart m s p).edges := (Option.some.inj ((boxPart_edges m s p).symm.trans h1)).symm
  obtain ⟨n, hn1, hn2⟩ := h2 ed (he' ▸ hed)
  have hout := out_side hn2
  refine ⟨n, hn1, by rcases hout with h | h | h | h <;> simp [h.1], fun axis c hfix => ?_⟩
  have zero : ∀ {a b c : ℚ}, a = c → b = c → tolerance ≤ |b - a| → False := by
    rintro a b c rfl rfl h
    rw [sub_self, abs_zero, ht] at h
    norm_num at h
  unfold lowOf highOf
  rcases fixed_line hfix with ⟨hv, rfl, rfl⟩ | ⟨hv, rfl, rfl⟩
  · rw [← hx1, ← hx2]
    rcases hout with ⟨rfl, e1, e2⟩ | ⟨rfl, e1, e2⟩ | ⟨rfl, e1, e2⟩ | ⟨rfl, e1, e2⟩
    · exact Or.inl ⟨rfl, e1.symm⟩
    · exact Or.inr ⟨rfl, e1.symm⟩
    · exact (zero e1 e2 hv.2).elim
    · exact (zero e1 e2 hv.2).elim
  · rw [← hy1, ← hy2]
    rcases hout with ⟨rfl, e1, e2⟩ | ⟨rfl, e1, e2⟩ | ⟨rfl, e1, e2⟩ | ⟨rfl, e1, e2⟩
    · exact (zero e1 e2 hv.2).elim
    · exact (zero e1 e2 hv.2).elim
    · exact Or.inl ⟨rfl, e1.symm⟩
    · exact Or.inr ⟨rfl, e1.symm⟩

/-- C89. In a file of metal boxes and points, over a background that is not a port, take a coordinate of an axis such that no
other coordinate of faces, points or lines kept is within the proximity limit. A point or a line kept there has its line. Else,
where a face that is not within other boxes is there, there is no line at it, and the next lines are: at half a cell on each
side when there are lower and upper faces not within other boxes; at a third of a cell inwards and two thirds outwards when all
the boxes with a face there are on one side. The next line on a side exists when there is something else shown, or some line,
on that side; the cell is at most half of `dmax`. -/
theorem C89_thirds (S : Sorters) {sort : List (MaterialKind × Nat) → List (MaterialKind × Nat)}
    (hperm : ∀ l, (sort l).Perm l) (hsorted : ∀ l, (sort l).Pairwise fun a b => ambientLess b a = false) (g : MeshParams)
    (hg : g.InRange) (hl : 0 ≤ g.proximityLimit) (gz : ZoneParams) (angle : Ang → ℚ) {background : Option MaterialKind}
    (hback : background ≠ some .port) {old : List Csx.Added} (hold : ∀ x ∈ old, ∃ axis c, x = .line axis c) {f : Flags}
    (hf : f.yz = true ∧ f.zx = true ∧ f.xy = true) (dirs : List Point) {props : List Property} (hb : BoxFile props)
    (hmetal : ∀ P ∈ props, port P.kind ≠ none → P.kind = .metal) (axis : Geom.Axis) :
    ∃ added D E a, parseProperties f dirs props = some added ∧ buildDesign angle background (old ++ added) = some D ∧
      runDesign S sort g gz D axis = .ok (E, a) ∧
      ∀ c, (∀ x, Asked old props axis x → x = c ∨ (g.proximityLimit < |x - c| ∧ tolerance ≤ |x - c|)) →
        (PointAt props axis c ∨ .line axis c ∈ old → c ∈ a.meshlines) ∧
        (¬ PointAt props axis c → .line axis c ∉ old →
          (Shown lowOf props axis c → Shown highOf props axis c → Split old props axis a.meshlines (g.dmax / 2) c (1 / 2) (1 / 2)) ∧
          (Shown lowOf props axis c → (∀ s ∈ solids props, highOf axis s ≠ c) →
            Split old props axis a.meshlines (g.dmax / 2) c (2 / 3) (1 / 3)) ∧
          (Shown highOf props axis c → (∀ s ∈ solids props, lowOf axis s ≠ c) →
            Split old props axis a.meshlines (g.dmax / 2) c (1 / 3) (2 / 3))) := by
  obtain ⟨added, ms, hparse, hms, hparts, hlines, hkinds⟩ := file_boxes hf dirs hb.only
  set D := assemble angle background (old ++ added) (ms.flatMap boxParts) with hD
  have hbuild : buildDesign angle background (old ++ added) = some D := by
    unfold buildDesign
    rw [makeParts_append, makeParts_lines hold, hparts]
    rfl
  have hconductor : ∀ x ∈ ms, x.1 = .conductor := by
    intro x hx
    obtain ⟨P, hP, e⟩ := hkinds x hx
    have : P.kind = .metal := hmetal P hP (by rintro h; cases hk : P.kind <;> rw [hk] at h e <;> simp [port, parseProperty] at h e)
    rw [this] at e
    exact (Option.some.inj e).symm
  obtain ⟨E0, hadj, hsame, hrev⟩ := C86_adjust hperm hsorted hbuild
  have hB := file_board hb hms angle background (old ++ added) hsame
  obtain ⟨E, a, hrun, h1, h2, h8, h3, h4, h5⟩ := C81_boxes S g hg hl gz hB axis
  obtain ⟨d', asked, -, hE, -⟩ := run_parts hrun
  have hw : ∀ x, Wanted { D.input with E := E0 } E axis x → Asked old props axis x := wanted_asked hms angle background hlines
  have hside := fun {i s} hi {c} hc {u v} hu hv huv => side_found hb hms angle background (old ++ added) hD (E0 := E0) (E := E)
    (fun p n hn e he => (h4 p n hn e he).1) (i := i) (s := s) hi (axis := axis) (c := c) hc (u := u) (v := v) hu hv huv
  refine ⟨added, D, E, a, hparse, hbuild, by unfold runDesign; rw [hadj]; exact hrun, ?_⟩
  -- materials
  have harea : ∀ p, ∀ n ∈ D.input.polygons p, (D.areas n).material = some .conductor := by
    intro p n hn
    obtain ⟨q, hq, rfl⟩ := mem_polygons.1 hn
    obtain ⟨i, x, hx, -, e⟩ := box_of_part hq
    have : D.areas n = asArea (ms.flatMap boxParts) n := rfl
    rw [this]
    unfold asArea
    rw [hq]
    dsimp only
    rw [e]
    exact congrArg some (hconductor x (List.mem_of_getElem? hx))
  -- each edge to mesh is on a face
  have hedges : ∀ p, ∀ n ∈ D.input.polygons p, ∀ e ∈ (D.input.P n).edges, ∃ i s, (solids props)[i]? = some s ∧
      n = 3 * i + place p ∧ (E0 e.1).seg = e.2 ∧ (E e.1).toReverse = false ∧ facing (E e.1).side ≠ .none ∧
      ∀ c, Fixed p e.2 axis c → (facing (E e.1).side = .min ∧ lowOf axis s = c) ∨ (facing (E e.1).side = .max ∧ highOf axis s = c) := by
    intro p n hn e he
    obtain ⟨inner, hin, -, hr⟩ := hrev p n hn e he
    rw [harea p n hn] at hin
    obtain rfl := Option.some.inj hin
    have hn' := hn
    obtain ⟨q, hq, rfl⟩ := mem_polygons.1 hn'
    obtain ⟨i, x, hx, hni, e'⟩ := box_of_part hq
    rw [e'] at hq
    have hsol : (solids props)[i]? = some x.2 := by
      rw [← hms, List.getElem?_map, hx]
      rfl
    obtain ⟨k, ed, hk, rfl⟩ := (mem_polygon_edges hq).1 he
    obtain ⟨nm, hnm, hfour, hface⟩ := box_side hb (List.mem_of_getElem? hsol) (List.mem_of_getElem? hk)
    obtain ⟨b, hb'⟩ := hsame (firstEdge (ms.flatMap boxParts) n + k)
    obtain ⟨b2, hb2⟩ := hE (firstEdge (ms.flatMap boxParts) n + k)
    have hE0 : E0 (firstEdge (ms.flatMap boxParts) n + k) = { makeEdge q.plane ed with toReverse := b } := by
      rw [hb', edge_eq hq hk]
      rfl
    have hs0 : (E0 (firstEdge (ms.flatMap boxParts) n + k)).side = nm := by
      rw [hE0]
      simp [makeEdge, hnm]
    have hsE : (E (firstEdge (ms.flatMap boxParts) n + k)).side = nm := by
      rw [hb2]
      exact hs0
    have hrE : (E (firstEdge (ms.flatMap boxParts) n + k)).toReverse = false := by
      rw [hb2]
      show (E0 (firstEdge (ms.flatMap boxParts) n + k)).toReverse = false
      rw [← Bool.not_eq_true]
      intro hcon
      obtain ⟨m, hm, hlt⟩ := (hr (by rw [hs0]; exact hfour)).1 hcon
      rcases hm with ⟨-, hm⟩ | ⟨j, hj, -, hm, -⟩
      · cases m with
        | port => exact hback hm
        | _ => simp [rank] at hlt
      · rw [harea _ j hj] at hm
        obtain rfl := Option.some.inj hm
        simp at hlt
    refine ⟨i, x.2, hsol, hni, by rw [hE0]; rfl, hrE, ?_, ?_⟩
    · rw [hsE]
      rcases hfour with rfl | rfl | rfl | rfl <;> simp [facing]
    · rw [hsE]
      exact hface axis
  have hat : ∀ {c f}, EdgeAt { D.input with E := E0 } E axis c f →
      ∃ s ∈ solids props, (f = .min ∧ lowOf axis s = c) ∨ (f = .max ∧ highOf axis s = c) := by
    rintro c f ⟨p, i, hi, hfix, hm, hfc⟩
    obtain ⟨n, hn, e, he, rfl⟩ := mem_edges.1 hi
    obtain ⟨k, s, hs, -, hseg, hrv, -, hface⟩ := hedges p n hn e he
    have hfix : Fixed p (E0 e.1).seg axis c := hfix
    rw [hseg] at hfix
    rw [hrv, if_neg (by simp)] at hfc
    refine ⟨s, List.mem_of_getElem? hs, ?_⟩
    rw [← hfc]
    exact hface c hfix
  have hwasks : ∀ x, Wanted { D.input with E := E0 } E axis x → Asks { D.input with E := E0 } E axis x := by
    rintro x (hx | ⟨p, n, hn, e, he, hm, hfix⟩)
    · exact Or.inl hx
    · obtain ⟨k, s, hs, -, hseg, hrv, hside, hface⟩ := hedges p n hn e he
      refine Or.inr (Or.inr ⟨facing (E e.1).side, hside, p, e.1, mem_edges.2 ⟨n, hn, e, he, rfl⟩, ?_, hm, by rw [hrv, if_neg (by simp)]⟩)
      show Fixed p (E0 e.1).seg axis x
      rw [hseg]
      exact hfix
  have hthick : ∀ s ∈ solids props, lowOf axis s ≠ highOf axis s := by
    intro s hs h
    unfold lowOf highOf at h
    refine hb.thick s hs axis (le_antisymm ?_ ?_)
    · exact (le_max_left _ _).trans (h ▸ min_le_right _ _)
    · exact (le_max_right _ _).trans (h ▸ min_le_left _ _)
  -- faces shown have edges to mesh
  have hshown : ∀ {face f c}, (face = lowOf ∧ f = Mesh.Facing.min) ∨ (face = highOf ∧ f = Mesh.Facing.max) →
      Shown face props axis c → EdgeAt { D.input with E := E0 } E axis c f := by
    rintro face f c hff ⟨i, s, hi, hc, u, v, hu, hv, huv, hno⟩
    have hmem : c ∈ [coordOf axis s.p1, coordOf axis s.p2] := by
      rw [← hc]
      rcases hff with ⟨rfl, -⟩ | ⟨rfl, -⟩
      · rcases min_choice (coordOf axis s.p1) (coordOf axis s.p2) with h | h <;> simp [lowOf, h]
      · rcases max_choice (coordOf axis s.p1) (coordOf axis s.p2) with h | h <;> simp [highOf, h]
    obtain ⟨p, hn, e, he, hm, hfix⟩ := (hside hi hmem hu hv huv).resolve_right hno
    obtain ⟨k, s', hs', hk, hseg, hrv, -, hface⟩ := hedges p _ hn e he
    obtain rfl : i = k := by omega
    rw [hi] at hs'
    obtain rfl := Option.some.inj hs'
    refine ⟨p, e.1, mem_edges.2 ⟨_, hn, e, he, rfl⟩, ?_, hm, ?_⟩
    · show Fixed p (E0 e.1).seg axis c
      rw [hseg]
      exact hfix
    · rw [hrv, if_neg (by simp)]
      have hne := hthick s (List.mem_of_getElem? hi)
      rcases hff with ⟨rfl, rfl⟩ | ⟨rfl, rfl⟩ <;> rcases hface c hfix with ⟨h, h'⟩ | ⟨h, h'⟩
      · exact h
      · exact absurd (hc.trans h'.symm) hne
      · exact absurd (h'.trans hc.symm) hne
      · exact h
  have hfixed : ∀ {c}, c ∈ D.input.fixed axis ↔ PointAt props axis c ∨ .line axis c ∈ old := by
    intro c
    show c ∈ fixedLines (old ++ added) axis ↔ _
    rw [mem_fixedLines, List.mem_append, hlines]
    exact or_comm
  have hasks : ∀ x, ShownAt old props axis x → Asks { D.input with E := E0 } E axis x := by
    rintro x (h | h | h | h)
    · exact Or.inl (hfixed.2 (Or.inl h))
    · exact Or.inl (hfixed.2 (Or.inr h))
    · exact Or.inr (Or.inr ⟨.min, by simp, hshown (Or.inl ⟨rfl, rfl⟩) h⟩)
    · exact Or.inr (Or.inr ⟨.max, by simp, hshown (Or.inr ⟨rfl, rfl⟩) h⟩)
  intro c hfar
  have halone : Alone { D.input with E := E0 } E axis g.proximityLimit c := by
    refine ⟨fun x hx => hfar x (hw x hx), fun x hx => ?_⟩
    obtain ⟨p, va, -, s, hs, -⟩ := hx
    rw [hB.slanted] at hs
    cases hs
  obtain ⟨r1, r2, r3, r4⟩ := run_lines S g hl hB.built hB.apart hrun halone h8
  have hnone : ¬ EdgeAt { D.input with E := E0 } E axis c .none := by
    intro h
    obtain ⟨s, -, ⟨h, -⟩ | ⟨h, -⟩⟩ := hat h <;> cases h
  have habove : (∃ x, c < x ∧ (ShownAt old props axis x ∨ x ∈ a.meshlines)) → ∃ x, c < x ∧ Asks { D.input with E := E0 } E axis x := by
    rintro ⟨x, hx, h | h⟩
    · exact ⟨x, hx, hasks x h⟩
    · obtain ⟨lo, hi, -, w, -, h'⟩ := h3 x h
      exact ⟨hi, by linarith, hwasks hi w⟩
  have hbelow : (∃ x, x < c ∧ (ShownAt old props axis x ∨ x ∈ a.meshlines)) → ∃ x, x < c ∧ Asks { D.input with E := E0 } E axis x := by
    rintro ⟨x, hx, h | h⟩
    · exact ⟨x, hx, hasks x h⟩
    · obtain ⟨lo, hi, w, -, h', -⟩ := h3 x h
      exact ⟨lo, by linarith, hwasks lo w⟩
  refine ⟨fun h => r1 (Or.inl (hfixed.2 h)), fun np nl => ?_⟩
  have hnf : c ∉ D.input.fixed axis := fun h => (hfixed.1 h).elim np nl
  refine ⟨fun s1 s2 => ?_, fun s1 s2 => ?_, fun s1 s2 => ?_⟩
  · obtain ⟨g1, g2, g3⟩ := r2 hnf hnone (hshown (Or.inl ⟨rfl, rfl⟩) s1) (hshown (Or.inr ⟨rfl, rfl⟩) s2)
    unfold Split
    simp only [one_div_mul_eq_div]
    exact ⟨g1, fun h => g2 (habove h), fun h => g3 (hbelow h)⟩
  · obtain ⟨g1, g2, g3⟩ := r3 hnf hnone (hshown (Or.inl ⟨rfl, rfl⟩) s1) fun h => by
      obtain ⟨s, hs, ⟨h, -⟩ | ⟨-, h⟩⟩ := hat h
      · cases h
      · exact s2 s hs h
    unfold Split
    simp only [div_mul_eq_mul_div, one_mul]
    exact ⟨g1, fun h => g2 (habove h), fun h => g3 (hbelow h)⟩
  · obtain ⟨g1, g2, g3⟩ := r4 hnf hnone (hshown (Or.inr ⟨rfl, rfl⟩) s1) fun h => by
      obtain ⟨s, hs, ⟨-, h⟩ | ⟨h, -⟩⟩ := hat h
      · exact s2 s hs h
      · cases h
    unfold Split
    simp only [div_mul_eq_mul_div, one_mul]
    exact ⟨g1, fun h => g2 (habove h), fun h => g3 (hbelow h)⟩

/-- Two metal boxes that share a part of a face, and a point. -/
def metalFile : List Property :=
  [⟨.metal, [⟨false, 1, .box ⟨0, 0, 0⟩ ⟨4, 4, 1⟩⟩, ⟨false, 1, .box ⟨8, 6, 0⟩ ⟨4, 2, 1⟩⟩, ⟨false, 0, .point ⟨20, 20, 20⟩⟩]⟩,
    ⟨.other, [⟨false, 0, .box ⟨0, 0, 0⟩ ⟨0, 0, 0⟩⟩]⟩]

theorem metalFile_solids : solids metalFile = [⟨1, ⟨0, 0, 0⟩, ⟨4, 4, 1⟩⟩, ⟨1, ⟨8, 6, 0⟩, ⟨4, 2, 1⟩⟩] := by decide +kernel

example : BoxFile metalFile ∧ (∀ P ∈ metalFile, port P.kind ≠ none → P.kind = .metal) ∧ PointAt metalFile .x 20 ∧
    (∀ c ∈ [(0 : ℚ), 4, 8, 20], ∀ x, Asked [] metalFile .x x → x = c ∨ ((1 / 2 : ℚ) < |x - c| ∧ tolerance ≤ |x - c|)) ∧
    Shown lowOf metalFile .x 4 ∧ Shown highOf metalFile .x 4 ∧ Shown lowOf metalFile .x 0 ∧
    (∀ s ∈ solids metalFile, highOf .x s ≠ 0) ∧ Shown highOf metalFile .x 8 ∧ (∀ s ∈ solids metalFile, lowOf .x s ≠ 8) := by
  have hshown : ∀ (face : Geom.Axis → Solid → ℚ) (c t : ℚ) (i : Nat) (s : Solid), (solids metalFile)[i]? = some s →
      face .x s = c → s.Has .y t → (∀ j < 2, j ≠ i → ∀ o ∈ (solids metalFile)[j]?, ¬ (o.Has .x c ∧ o.Has .y t)) →
      Shown face metalFile .x c := by
    intro face c t i s hi hc ht hno
    refine ⟨i, s, hi, hc, .y, .z, by decide, by decide, by decide, fun h => ?_⟩
    obtain ⟨k, o, hki, ho, -, -, h1, h2⟩ := h t ht
    have hlt := (List.getElem?_eq_some_iff.1 ho).1
    rw [metalFile_solids] at hlt
    exact hno k hlt hki o ho ⟨h1, h2⟩
  refine ⟨⟨?_, ?_, ?_⟩, ?_, ?_, ?_, hshown _ 4 5 1 _ rfl (by decide +kernel) (by decide +kernel) (by decide +kernel),
    hshown _ 4 1 0 _ rfl (by decide +kernel) (by decide +kernel) (by decide +kernel),
    hshown _ 0 1 0 _ rfl (by decide +kernel) (by decide +kernel) (by decide +kernel), by decide +kernel,
    hshown _ 8 5 1 _ rfl (by decide +kernel) (by decide +kernel) (by decide +kernel), by decide +kernel⟩
  · intro P hP q hq
    fin_cases hP <;> fin_cases hq <;> simp
  · intro s hs t ht axis
    have h : ∀ axis ∈ [Geom.Axis.x, .y, .z], ∀ s ∈ solids metalFile, ∀ t ∈ solids metalFile,
        ∀ a ∈ [coordOf axis s.p1, coordOf axis s.p2], ∀ b ∈ [coordOf axis t.p1, coordOf axis t.p2], Clear a b := by
      decide +kernel
    exact h axis (by cases axis <;> simp) s hs t ht
  · intro s hs axis
    have h : ∀ axis ∈ [Geom.Axis.x, .y, .z], ∀ s ∈ solids metalFile, coordOf axis s.p1 ≠ coordOf axis s.p2 := by
      decide +kernel
    exact h axis (by cases axis <;> simp) s hs
  · intro P hP hk
    fin_cases hP
    · rfl
    · exact absurd rfl hk
  · exact ⟨_, List.mem_cons_self .., by decide, ⟨false, 0, .point ⟨20, 20, 20⟩⟩, by simp, rfl, _, rfl, rfl⟩
  · have hx : ∀ x, Asked [] metalFile .x x → x ∈ [(0 : ℚ), 4, 8, 20] := by
      rintro x (⟨s, hs, h⟩ | ⟨P, hP, -, q, hq, -, p, hp, rfl⟩ | h)
      · have hall : ∀ s ∈ solids metalFile, coordOf .x s.p1 ∈ [(0 : ℚ), 4, 8, 20] ∧ coordOf .x s.p2 ∈ [(0 : ℚ), 4, 8, 20] := by
          decide +kernel
        rcases h with rfl | rfl
        · exact (hall s hs).1
        · exact (hall s hs).2
      · fin_cases hP <;> fin_cases hq <;> cases hp
        decide +kernel
      · cases h
    have hall : ∀ c ∈ [(0 : ℚ), 4, 8, 20], ∀ x ∈ [(0 : ℚ), 4, 8, 20], x = c ∨ ((1 / 2 : ℚ) < |x - c| ∧ tolerance ≤ |x - c|) := by
      decide +kernel
    exact fun c hc x h => hall c hc x (hx x h)

end Verif.Board
