import Verif.Lemmas.Run
import Verif.Spec.Run
import Verif.Props.Covered

/-!
# The diagonal steps of the whole run
-/

namespace Verif.Board
open Verif.Geom
open Verif.Mesh (Sorter Interval MeshParams tolerance finish_axis)
open Verif.Mesh.Spec (Increasing GapsAtMost)
open Spec

theorem range_map_angleAt (L : List BAngle) : (List.range L.length).map (angleAt L) = L := by
  apply List.ext_getElem
  · simp
  · intro n h1 h2
    simp [angleAt, h2]

/-- The angles of a plane by number are the angles of the plane. -/
theorem anglesOf_map (L : List BAngle) (plane : Plane) :
    (anglesOf L plane).map (angleAt L) = L.filter fun x => decide (x.plane = plane) := by
  conv_rhs => rw [← range_map_angleAt L, List.filter_map]
  rfl

theorem mem_anglesOf {L : List BAngle} {plane : Plane} {n : Nat} :
    n ∈ anglesOf L plane ↔ n < L.length ∧ (angleAt L n).plane = plane := by
  unfold anglesOf
  rw [List.mem_filter, List.mem_range, decide_eq_true_eq]

theorem detectAllAngles_spec {B : Input} {F : Plane → List Ang}
    (h : ∀ p, detectAngles ((B.polygons p).map fun a => (B.P a).points) = some (F p)) :
    ∃ L, detectAllAngles B = some L ∧ ∀ p, (anglesOf L p).map (fun k => (angleAt L k).p) = (F p).map Ang.p := by
  refine ⟨(allPlanes.map fun p => (F p).map fun x => (⟨p, x.p, B.angle x⟩ : BAngle)).flatten, ?_, fun p => ?_⟩
  · unfold detectAllAngles
    simp only [allPlanes, List.mapM_cons, List.mapM_nil, h, Option.map_some]
    rfl
  · have := congrArg (List.map BAngle.p) (anglesOf_map
      (allPlanes.map fun p => (F p).map fun x => (⟨p, x.p, B.angle x⟩ : BAngle)).flatten p)
    rw [List.map_map] at this
    refine this.trans ?_
    have hs : ∀ q, ((F q).map fun x => (⟨q, x.p, B.angle x⟩ : BAngle)).filter (fun x => decide (x.plane = p)) =
        if q = p then (F q).map fun x => (⟨q, x.p, B.angle x⟩ : BAngle) else [] := by
      intro q
      split_ifs with hq
      · rw [List.filter_eq_self]
        intro x hx
        obtain ⟨y, -, rfl⟩ := List.mem_map.1 hx
        simpa using hq
      · rw [List.filter_eq_nil_iff]
        intro x hx
        obtain ⟨y, -, rfl⟩ := List.mem_map.1 hx
        simpa using hq
    simp only [allPlanes, List.map_cons, List.map_nil, List.flatten_cons, List.flatten_nil, List.filter_append, List.filter_nil,
      hs]
    cases p <;> simp

/-- The steps about zones that come first, on a board as it is built. -/
theorem diagonal_spec {B : Input} (hB : Built B) (S : Sorter Nat) (gz : ZoneParams) :
    ∃ (L : List BAngle) (zones : Zones) (m : ToMesh) (new : Plane → ViewAxis → List Zone),
      diagonalSteps S gz B = some (L, zones, m) ∧
      (∀ p va, Pieces (angleAt L) va (slantedOf B p) (new p va)) ∧
      (∀ w z, z ∈ zones w ↔ ∃ p va, spaceAxis p va = w ∧ z ∈ new p va) ∧
      (∀ p va, ∀ z ∈ new p va, z.dmax = gz.diagonalDmax ∧ z.intervals = [] ∧ z.axis = spaceAxis p va ∧
        ∀ a ∈ z.angles, a < L.length ∧ (angleAt L a).plane = p) ∧
      (∀ w, ∀ z ∈ zones w, ∀ a ∈ z.angles, ∀ va, spaceAxis (angleAt L a).plane va = w →
        (m a va = true ↔ z.angles.head? = some a ∨ z.angles.getLast? = some a ∨ gz.minimalAngle ≤ (angleAt L a).angle)) ∧
      ∀ a va, (∀ z ∈ zones (spaceAxis (angleAt L a).plane va), a ∉ z.angles) → m a va = false := by
  have hF : ∀ p, ∃ F, detectAngles ((B.polygons p).map fun a => (B.P a).points) = some F := by
    intro p
    refine Option.isSome_iff_exists.1 (C65_defined ?_)
    intro l hl
    obtain ⟨a, ha, rfl⟩ := List.mem_map.1 hl
    intro h0
    have := hB.sides p a ha
    rw [h0] at this
    simp [detectEdges] at this
  choose F hF using hF
  obtain ⟨L, hL, hA⟩ := detectAllAngles_spec hF
  have hn : ∀ p, (anglesOf L p).Nodup := fun p => (List.nodup_range).filter _
  have hp : ∀ p, ∀ a ∈ anglesOf L p, (angleAt L a).plane = p := fun p a ha => (mem_anglesOf.1 ha).2
  have he : ∀ p, ∀ e ∈ (B.edges p).map B.E, ∃ P ∈ (B.polygons p).map fun a => (B.P a).points, ∃ sides,
      detectEdges P = some sides ∧ e.seg ∈ sides := by
    intro p e he
    obtain ⟨i, hi, rfl⟩ := List.mem_map.1 he
    simp only [Input.edges, List.mem_flatMap, List.mem_map] at hi
    obtain ⟨a, ha, q, hq, rfl⟩ := hi
    refine ⟨_, List.mem_map_of_mem ha, _, hB.sides p a ha, ?_⟩
    rw [(hB.edge p a ha q hq).1]
    exact List.mem_map_of_mem hq
  obtain ⟨zones, new, h1, h2, hx, hy, hz, h3⟩ := C67_all hF (S := S) (g := gz) hn hA hp he
  obtain ⟨zones', h1', ht⟩ := C68_tidy hF (S := S) (g := gz) hn hA hp he
  rw [h1, Option.some.injEq] at h1'
  subst h1'
  obtain ⟨m, hm, hm1, hm2⟩ := C68_solved_partial (A := angleAt L) (minimal := gz.minimalAngle) ht fun _ _ => false
  have hmem : ∀ w z, z ∈ zones w ↔ ∃ p va, spaceAxis p va = w ∧ z ∈ new p va := by
    intro w z
    constructor
    · intro h
      cases w
      · rw [hx, List.mem_append] at h
        rcases h with h | h <;> exact ⟨_, _, rfl, h⟩
      · rw [hy, List.mem_append] at h
        rcases h with h | h <;> exact ⟨_, _, rfl, h⟩
      · rw [hz, List.mem_append] at h
        rcases h with h | h <;> exact ⟨_, _, rfl, h⟩
    · rintro ⟨p, va, rfl, h⟩
      cases p <;> cases va <;> simp only [spaceAxis] <;> first | rw [hx] | rw [hy] | rw [hz]
      all_goals rw [List.mem_append]; tauto
  refine ⟨L, zones, m, new, ?_, h2, hmem, ?_, hm1, hm2⟩
  · unfold diagonalSteps
    rw [hL, Option.bind_some, h1, Option.bind_some, hm]
    rfl
  · intro p va z hz
    obtain ⟨e1, e2, e3⟩ := h3 p va z hz
    exact ⟨e1, e2, (ht.some _ z ((hmem _ _).2 ⟨p, va, rfl, hz⟩)).2, fun a ha => mem_anglesOf.1 (e3 a ha)⟩

/-- When all zones have one limit, it is given to the intervals whose middle is in a zone. -/
theorem zoneIntervals_spec {A : Nat → BAngle} {zones : List Zone} {D : ℚ} (a : Mesh.Axis)
    (h : ∀ z ∈ zones, (∃ lo hi, Reaches A z lo hi) ∧ z.intervals = [] ∧ z.dmax = D) {d : ℚ} (hd : ∀ i ∈ a.intervals, i.dmax = d)
    {lim : ℚ → ℚ} (hin : ∀ x, (∃ z ∈ zones, Covers A z x) → lim x = D) (hout : ∀ x, (¬ ∃ z ∈ zones, Covers A z x) → lim x = d) :
    zoneIntervals A zones a = some { a with intervals := a.intervals.map fun i => { i with dmax := lim i.m } } := by
  obtain ⟨zones', h1, h2, h3⟩ := C69_dmax_partial (A := A) (zones := zones) (intervals := a.intervals)
    fun z hz => ⟨(h z hz).1, (h z hz).2.1⟩
  unfold zoneIntervals
  rw [h1, Option.map_some]
  congr 2
  apply List.ext_getElem?
  intro n
  rw [List.getElem?_map]
  cases hx : a.intervals[n]? with
  | none =>
    rw [Option.map_none, List.getElem?_eq_none_iff, h2]
    exact List.getElem?_eq_none_iff.1 hx
  | some x =>
    obtain ⟨y, hy, hno, hlast⟩ := h3 n x hx
    rw [hy, Option.map_some, Option.some.injEq]
    by_cases hc : ∃ z ∈ zones, Covers A z x.m
    · have hdec : ∀ l : List Zone, (∃ z ∈ l, Covers A z x.m) →
          ∃ before z after, l = before ++ z :: after ∧ Covers A z x.m ∧ ∀ w ∈ after, ¬ Covers A w x.m := by
        intro l
        induction l with
        | nil => rintro ⟨z, hz, -⟩; simp at hz
        | cons u l ih =>
          rintro ⟨z, hz, hcz⟩
          by_cases hl : ∃ z ∈ l, Covers A z x.m
          · obtain ⟨b, z, c, rfl, h1, h2⟩ := ih hl
            exact ⟨u :: b, z, c, rfl, h1, h2⟩
          · rcases List.mem_cons.1 hz with rfl | hz
            · exact ⟨[], z, l, rfl, hcz, fun w hw hcw => hl ⟨w, hw, hcw⟩⟩
            · exact absurd ⟨z, hz, hcz⟩ hl
      obtain ⟨b, z, c, e, hcz, hafter⟩ := hdec zones hc
      rw [hlast b z c e hcz hafter, hin _ hc, (h z (by rw [e]; simp)).2.2]
    · rw [hno fun z hz hcz => hc ⟨z, hz, hcz⟩, hout _ hc, ← hd x (List.mem_of_getElem? hx)]

theorem mem_edges {B : Input} {p : Plane} {n : Nat} : n ∈ B.edges p ↔ ∃ a ∈ B.polygons p, ∃ e ∈ (B.P a).edges, e.1 = n := by
  simp [Input.edges, List.mem_flatMap]

theorem not_both {s : Segment} (h : Horizontal s) (v : Vertical s) : False := by
  have h1 := h.2
  have h2 := v.1
  linarith

theorem planar {B : Input} (hB : Built B) (hA : LinesApart B) : Planar B where
  plane := by
    intro p j hj
    obtain ⟨a, ha, e, he, rfl⟩ := mem_edges.1 hj
    exact (hB.edge p a ha e he).2
  nodup := hB.own
  trans := by
    intro p a ha b hb c hc h1 h2
    rcases h1 with ⟨x1, x2, x3⟩ | ⟨x1, x2, x3⟩ <;> rcases h2 with ⟨y1, y2, y3⟩ | ⟨y1, y2, y3⟩
    · refine Or.inl ⟨x1, y2, ?_⟩
      rw [hA.flat p a ha b hb x1 x2 x3]
      exact y3
    · exact (not_both x2 y1).elim
    · exact (not_both y1 x2).elim
    · refine Or.inr ⟨x1, y2, ?_⟩
      rw [hA.upright p a ha b hb x1 x2 x3]
      exact y3

theorem fixed_apart {B : Input} (hA : LinesApart B) {p : Plane} {i j : Nat} (hi : i ∈ B.edges p)
    (hj : j ∈ B.edges p) {axis : Geom.Axis} {x y : ℚ} (h : Fixed p (B.E i).seg axis x) (h' : Fixed p (B.E j).seg axis y)
    (hxy : |x - y| < tolerance) : x = y := by
  have h1 := hA.flat p i hi j hj
  have h2 := hA.upright p i hi j hj
  generalize (B.E i).seg = s at *
  generalize (B.E j).seg = t at *
  cases h <;> cases h' <;> rename_i u w
  all_goals first | exact h1 u w hxy | exact h2 u w hxy

/-- A coordinate at which a line is wanted on an axis: that of a fixed line, or of an edge not left unmeshed. -/
def Wanted (B : Input) (E : Nat → BEdge) (axis : Geom.Axis) (x : ℚ) : Prop :=
  x ∈ B.fixed axis ∨ ∃ p, ∃ a ∈ B.polygons p, ∃ e ∈ (B.P a).edges, (E e.1).toMesh = true ∧ Fixed p e.2 axis x

/-- What the steps leave on a board of any polygons. -/
theorem run_drawn (S : Sorters) (g : MeshParams) (hg : g.InRange) (hl : 0 ≤ g.proximityLimit) {gz : ZoneParams}
    {B : Input} (hz : 0 < gz.diagonalDmax ∨ ∀ p, slantedOf B p = []) (hB : Built B) (hA : LinesApart B)
    (hs : ∀ p, ∃ s, detectInPolygons S.points B.P (B.polygons p) [] = .ok s) (axis : Geom.Axis) :
    ∃ (L : List BAngle) (zones : Zones) (m : ToMesh) (new : Plane → ViewAxis → List Zone) (E : Nat → BEdge) (a : Mesh.Axis)
      (lim : ℚ → ℚ),
      runSteps S g gz B axis = .ok (E, a) ∧
      ((∀ p va, Pieces (angleAt L) va (slantedOf B p) (new p va)) ∧
      (∀ w z, z ∈ zones w ↔ ∃ p va, spaceAxis p va = w ∧ z ∈ new p va) ∧
      (∀ p va, ∀ z ∈ new p va, z.dmax = gz.diagonalDmax ∧ z.intervals = [] ∧ z.axis = spaceAxis p va ∧
        ∀ a ∈ z.angles, a < L.length ∧ (angleAt L a).plane = p) ∧
      (∀ w, ∀ z ∈ zones w, ∀ a ∈ z.angles, ∀ va, spaceAxis (angleAt L a).plane va = w →
        (m a va = true ↔ z.angles.head? = some a ∨ z.angles.getLast? = some a ∨ gz.minimalAngle ≤ (angleAt L a).angle)) ∧
      (∀ a va, (∀ z ∈ zones (spaceAxis (angleAt L a).plane va), a ∉ z.angles) → m a va = false) ∧
      (∀ x, (∃ z ∈ zones axis, Covers (angleAt L) z x) → lim x = gz.diagonalDmax) ∧
      ∀ x, (¬ ∃ z ∈ zones axis, Covers (angleAt L) z x) → lim x = g.dmax) ∧
      (∀ p s, detectInPolygons S.points B.P (B.polygons p) [] = .ok s → ∀ n ∈ B.edges p,
        (s.lookup n = none ∧ (E n).toMesh = (B.E n).toMesh) ∨ ∃ os, s.lookup n = some os ∧
          solveInPolygon S.overlaps (B.E n) (os.map (Found.overlap B.E)) = some (E n).toMesh) ∧
      Increasing a.meshlines ∧
      (∀ y ∈ a.meshlines, ∃ lo hi, lo ≤ y ∧ y ≤ hi ∧ ∀ x, x = lo ∨ x = hi → Wanted B E axis x ∨
        ∃ n < L.length, ∃ va, spaceAxis (angleAt L n).plane va = axis ∧ m n va = true ∧ along va (angleAt L n).p = x) ∧
      (∀ D, (∀ x, lim x ≤ D) → GapsAtMost D a.meshlines ∧ a.Drawn g.proximityLimit (min D (g.dmax / 2)) ∧
        (∀ x, Wanted B E axis x → ∃ k, a.Enabled k ∧
          |(a.get k).coord - x| < tolerance + (a.conflicts.length : ℚ) * g.proximityLimit ∧
          ((∃ j, j ≠ k ∧ a.Enabled j) → ∃ y ∈ a.meshlines, |y - (a.get k).coord| ≤ D)) ∧
        ∀ n < L.length, ∀ va, spaceAxis (angleAt L n).plane va = axis → m n va = true → ∃ k, a.Enabled k ∧
          |(a.get k).coord - along va (angleAt L n).p| ≤ (a.conflicts.length : ℚ) * g.proximityLimit ∧
          ((∃ j, j ≠ k ∧ a.Enabled j) → ∃ y ∈ a.meshlines, |y - (a.get k).coord| ≤ D)) ∧
      a.meshlines.IsChain fun y y' => ∀ d, (∀ i j, a.Neighbours i j → (a.get i).coord < y' → y < (a.get j).coord →
        lim (((a.get i).coord + (a.get j).coord) / 2) ≤ d) → y' - y ≤ d := by
  classical
  obtain ⟨L, zones, m, new, hdiag, d1, d2, d3, d4, d5⟩ := diagonal_spec hB S.pointers gz
  set lim : ℚ → ℚ := fun x => if ∃ z ∈ zones axis, Covers (angleAt L) z x then gz.diagonalDmax else g.dmax with hlim
  have hin : ∀ x, (∃ z ∈ zones axis, Covers (angleAt L) z x) → lim x = gz.diagonalDmax := fun x hx => by
    rw [hlim]; exact if_pos hx
  have hout : ∀ x, (¬ ∃ z ∈ zones axis, Covers (angleAt L) z x) → lim x = g.dmax := fun x hx => by
    rw [hlim]; exact if_neg hx
  have hpos : ∀ x, 0 < lim x ∧ lim x ≤ max g.dmax gz.diagonalDmax := by
    intro x
    by_cases hx : ∃ z ∈ zones axis, Covers (angleAt L) z x
    · rw [hin x hx]
      refine ⟨?_, le_max_right _ _⟩
      rcases hz with hz | hz
      · exact hz
      · obtain ⟨z, hzm, -⟩ := hx
        obtain ⟨p, va, -, hzm⟩ := (d2 _ _).1 hzm
        obtain ⟨lo, hi, -, hlt, hu⟩ := (d1 p va).spans z hzm
        obtain ⟨s, hs, -⟩ := hu lo le_rfl hlt.le
        rw [hz p] at hs
        cases hs
    · rw [hout x hx]; exact ⟨hg.dmax_pos, le_max_left _ _⟩
  clear_value lim
  -- the edges in polygons
  have hE : ∀ p, ∀ a ∈ B.polygons p, ∀ e ∈ (B.P a).edges, (B.E e.1).seg = e.2 := fun p a ha e he => (hB.edge p a ha e he).1
  obtain ⟨l, hl1, hl2⟩ := detect_planes S.points B allPlanes fun p _ => hs p
  have hpl : ∀ s ∈ l, ∃ p, detectInPolygons S.points B.P (B.polygons p) [] = .ok s := fun s hs => by
    obtain ⟨p, -, h⟩ := forall₂_left hl2 hs
    exact ⟨p, h⟩
  obtain ⟨E, hE1, hE2, hE3⟩ := solveAll_spec S.overlaps l.flatten B.E (by
    intro c hc
    obtain ⟨s, hs, hc⟩ := List.mem_flatten.1 hc
    obtain ⟨p, hp⟩ := hpl s hs
    exact ((C79_conflicts (hB.thick p) hp c.1).1 c.2 (detect_lookup hp hc)).1)
  -- the policies
  obtain ⟨asked, ha1, ha2, ha3, ha4, ha5⟩ := board_policies (planar hB hA) hE2 L m axis
  obtain ⟨hf1, hf2, hf3, hf4⟩ := axis_policies g (B.fixed axis) asked ha2
  obtain ⟨b, c, hb, hc, hdm, h1, -, h3, -, h5, -⟩ :=
    finish_axis S.pointers S.intervals S.lines g _ hg hl hf1 lim hpos
  have hwant : ∀ q ∈ (axisPolicies g (B.fixed axis) asked).policies, q.enabled = true → Wanted B E axis q.coord ∨
      ∃ n < L.length, ∃ va, spaceAxis (angleAt L n).plane va = axis ∧ m n va = true ∧ along va (angleAt L n).p = q.coord := by
    intro q hq hen
    rcases hf2 q hq hen with h | ⟨q', hq', hen', e⟩
    · exact Or.inl (Or.inl h)
    · rw [← e]
      rcases ha3 q' hq' hen' with ⟨p, i, hi, hfi, j, hj, hm, coord, hfj, hnear⟩ | h
      · have heq := fixed_apart hA hi hj hfi hfj hnear
        rw [← heq] at hfj
        obtain ⟨a, ha, e, he, rfl⟩ := mem_edges.1 hj
        rw [hE p a ha e he] at hfj
        exact Or.inl (Or.inr ⟨p, a, ha, e, he, hm, hfj⟩)
      · exact Or.inr h
  have hget : ∀ {q}, q ∈ (axisPolicies g (B.fixed axis) asked).policies → q.enabled = true →
      ∃ i, (axisPolicies g (B.fixed axis) asked).Enabled i ∧ (axisPolicies g (B.fixed axis) asked).get i = q := by
    intro q hq hen
    obtain ⟨i, hi, rfl⟩ := List.getElem_of_mem hq
    have e : (axisPolicies g (B.fixed axis) asked).get i = (axisPolicies g (B.fixed axis) asked).policies[i] := by
      simp [Mesh.Axis.get, hi]
    exact ⟨i, ⟨_, List.getElem?_eq_getElem hi, hen⟩, e⟩
  have hat : ∀ {i}, (axisPolicies g (B.fixed axis) asked).Enabled i →
      ((axisPolicies g (B.fixed axis) asked).get i).enabled = true := by
    rintro i ⟨q, hq, hen⟩
    simp [Mesh.Axis.get, hq, hen]
  have hreach : ∀ z ∈ zones axis, (∃ lo hi, Reaches (angleAt L) z lo hi) ∧ z.intervals = [] ∧ z.dmax = gz.diagonalDmax := by
    intro z hz
    obtain ⟨p, va, hw, hz'⟩ := (d2 _ _).1 hz
    obtain ⟨e1, e2, e3, e4⟩ := d3 p va z hz'
    obtain ⟨lo, hi, hsp, -⟩ := (d1 p va).spans z hz'
    exact ⟨⟨lo, hi, p, va, fun a ha => (e4 a ha).2, e3.symm, hsp⟩, e2, e1⟩
  refine ⟨L, zones, m, new, E, c, lim, ?_, ⟨d1, d2, d3, d4, d5, hin, hout⟩, ?_, h1, ?_, ?_, h5⟩
  · unfold runSteps
    rw [hdiag, hl1]
    simp only [Outcome.orUb, Outcome.bind]
    rw [solve_planes, hE1]
    simp only
    rw [ha1]
    simp only [finishAxis]
    rw [hb]
    simp only [Outcome.orDiverges, Outcome.bind]
    rw [zoneIntervals_spec _ hreach hdm hin hout]
    simp only [Outcome.orUb]
    rw [hc]
    rfl
  · intro p s hs n hn
    rcases hE3 n with ⟨hno, h⟩ | ⟨os, ho, h⟩
    · refine Or.inl ⟨?_, h⟩
      obtain ⟨s', hs', hd⟩ := forall₂_right hl2 (show p ∈ allPlanes by cases p <;> simp [allPlanes])
      rw [hs] at hd
      obtain rfl := Outcome.ok.inj hd
      rw [List.lookup_eq_none_iff]
      intro c hc
      by_contra hk
      have hk : n = c.1 := by simpa using hk
      exact hno (hk ▸ List.mem_map_of_mem (List.mem_flatten.2 ⟨s, hs', hc⟩))
    · obtain ⟨s', hs', ho⟩ := List.mem_flatten.1 ho
      obtain ⟨q, hq⟩ := hpl s' hs'
      have hlook := detect_lookup hq ho
      have hqp : q = p := by
        obtain ⟨hne, hfrom⟩ := (C79_conflicts (hB.thick q) hq n).1 os hlook
        obtain ⟨f, hf⟩ := List.exists_mem_of_ne_nil _ hne
        obtain ⟨a', ha', -, -, -, seg, hseg, -⟩ := hfrom f hf
        obtain ⟨a, ha, e, he, rfl⟩ := mem_edges.1 hn
        exact (hB.edge q a' ha' _ hseg).2.symm.trans (hB.edge p a ha e he).2
      subst hqp
      rw [hs] at hq
      obtain rfl := Outcome.ok.inj hq
      exact Or.inr ⟨os, hlook, h⟩
  · intro y hy
    obtain ⟨i, j, hi, hj, h6, h7⟩ := h3 y hy
    refine ⟨_, _, h6, h7, ?_⟩
    rintro x (rfl | rfl)
    · exact hwant _ (Mesh.get_mem hi.lt) (hat hi)
    · exact hwant _ (Mesh.get_mem hj.lt) (hat hj)
  · intro D hD
    obtain ⟨b', c', hb', hc', -, -, h2, -, h4, -, -, h8⟩ :=
      finish_axis S.pointers S.intervals S.lines g _ hg hl hf1 lim fun x => ⟨(hpos x).1, hD x⟩
    rw [hb, Option.some.injEq] at hb'
    subst hb'
    rw [hc, Option.some.injEq] at hc'
    subst hc'
    refine ⟨h2, h8, ?_, ?_⟩
    · intro x hx
      have hpol : ∃ q ∈ (axisPolicies g (B.fixed axis) asked).policies, q.enabled = true ∧ |q.coord - x| < tolerance := by
        rcases hx with hx | ⟨p, a, ha, e, he, hm, hfix⟩
        · exact hf4 x hx
        · have hmem : e.1 ∈ B.edges p := mem_edges.2 ⟨a, ha, e, he, rfl⟩
          have hside := hB.side p a ha e he (by cases hfix <;> tauto)
          rw [← hE p a ha e he] at hfix
          obtain ⟨q, hq, hen, -, -, -, hn⟩ := ha4 p e.1 hmem hm hside x hfix
          obtain ⟨q', hq', hen', e'⟩ := hf3 q hq hen
          exact ⟨q', hq', hen', by rw [e']; exact hn⟩
      obtain ⟨q, hq, hen, hn⟩ := hpol
      obtain ⟨i, hi, rfl⟩ := hget hq hen
      obtain ⟨k, hk, h5, h6⟩ := h4 i hi
      refine ⟨k, hk, ?_, h6⟩
      have := abs_sub_le (c.get k).coord ((axisPolicies g (B.fixed axis) asked).get i).coord x
      linarith
    · intro n hn va hva hm
      obtain ⟨q, hq, hen, e⟩ := ha5 n hn va hva hm
      obtain ⟨q', hq', hen', e'⟩ := hf3 q hq hen
      obtain ⟨i, hi, rfl⟩ := hget hq' hen'
      obtain ⟨k, hk, h5, h6⟩ := h4 i hi
      rw [e', e] at h5
      exact ⟨k, hk, h5, h6⟩

/-! ## Pieces -/

theorem spans_unique {A : Nat → BAngle} {va : ViewAxis} {l : List Nat} {lo hi lo' hi' : ℚ} (h : Spans A va l lo hi)
    (h' : Spans A va l lo' hi') : lo' = lo ∧ hi' = hi := by
  obtain ⟨⟨a, ha, e1⟩, ⟨b, hb, e2⟩, -⟩ := h
  obtain ⟨⟨a', ha', e1'⟩, ⟨b', hb', e2'⟩, -⟩ := h'
  rw [ha, Option.some.injEq] at ha'
  rw [hb, Option.some.injEq] at hb'
  subst ha' hb'
  exact ⟨e1'.symm.trans e1, e2'.symm.trans e2⟩

/-- Some room below a number, above all lower numbers of a list. -/
theorem room_below (l : List ℚ) {lo x : ℚ} (h : lo < x) : ∃ y, lo < y ∧ y < x ∧ ∀ u ∈ l, u < x → u < y := by
  induction l with
  | nil => exact ⟨(lo + x) / 2, by linarith, by linarith, by simp⟩
  | cons u l ih =>
    obtain ⟨y, h1, h2, h3⟩ := ih
    by_cases hu : u < x
    · refine ⟨max y ((u + x) / 2), lt_max_of_lt_left h1, max_lt h2 (by linarith), ?_⟩
      intro w hw hwx
      rcases List.mem_cons.1 hw with rfl | hw
      · exact lt_max_of_lt_right (by linarith)
      · exact lt_max_of_lt_left (h3 w hw hwx)
    · refine ⟨y, h1, h2, ?_⟩
      intro w hw hwx
      rcases List.mem_cons.1 hw with rfl | hw
      · exact absurd hwx hu
      · exact h3 w hw hwx

/-- Some room above a number, below all greater numbers of a list. -/
theorem room_above (l : List ℚ) {x hi : ℚ} (h : x < hi) : ∃ y, x < y ∧ y < hi ∧ ∀ u ∈ l, x < u → y < u := by
  obtain ⟨y, h1, h2, h3⟩ := room_below (l.map Neg.neg) (neg_lt_neg h)
  refine ⟨-y, by linarith, by linarith, fun u hu hx => ?_⟩
  have := h3 (-u) (List.mem_map_of_mem hu) (by linarith)
  linarith

/-- Where what is under the segments starts or stops, there is the first or the last angle of a zone. -/
theorem pieces_end {A : Nat → BAngle} {va : ViewAxis} {segments : List Segment} {zones : List Zone}
    (h : Pieces A va segments zones) {x : ℚ} (hx : EndOf va segments x) :
    ∃ z ∈ zones, ∃ a ∈ z.angles, (z.angles.head? = some a ∨ z.angles.getLast? = some a) ∧ along va (A a).p = x := by
  rcases hx with ⟨⟨s, hs, rfl⟩, hno⟩ | ⟨⟨s, hs, rfl⟩, hno⟩
  · obtain ⟨z, hz, lo, hi, hsp, hin⟩ := h.over s hs
    obtain ⟨lo', hi', hsp', -, hu⟩ := h.spans z hz
    obtain ⟨rfl, rfl⟩ := spans_unique hsp hsp'
    obtain ⟨h1, h2⟩ := hin (low va s) ⟨le_rfl, min_le_max⟩
    rcases lt_or_eq_of_le h1 with hlt | heq
    · exfalso
      obtain ⟨y, y1, y2, y3⟩ := room_below (segments.map (high va)) hlt
      obtain ⟨t, ht, t1, t2⟩ := hu y y1.le (y2.le.trans h2)
      refine hno t ht ⟨lt_of_le_of_lt t1 y2, ?_⟩
      by_contra hc
      have := y3 _ (List.mem_map_of_mem ht) (not_le.1 hc)
      exact absurd t2 (not_le.2 this)
    · obtain ⟨⟨a, ha, e⟩, -⟩ := hsp
      exact ⟨z, hz, a, List.mem_of_mem_head? ha, Or.inl ha, e.trans heq⟩
  · obtain ⟨z, hz, lo, hi, hsp, hin⟩ := h.over s hs
    obtain ⟨lo', hi', hsp', -, hu⟩ := h.spans z hz
    obtain ⟨rfl, rfl⟩ := spans_unique hsp hsp'
    obtain ⟨h1, h2⟩ := hin (high va s) ⟨min_le_max, le_rfl⟩
    rcases lt_or_eq_of_le h2 with hlt | heq
    · exfalso
      obtain ⟨y, y1, y2, y3⟩ := room_above (segments.map (low va)) hlt
      obtain ⟨t, ht, t1, t2⟩ := hu y (h1.trans y1.le) y2.le
      refine hno t ht ⟨?_, lt_of_lt_of_le y1 t2⟩
      by_contra hc
      have := y3 _ (List.mem_map_of_mem ht) (not_le.1 hc)
      exact absurd t1 (not_le.2 this)
    · obtain ⟨-, ⟨a, ha, e⟩, -⟩ := hsp
      exact ⟨z, hz, a, List.mem_of_mem_getLast? ha, Or.inr ha, e.trans heq.symm⟩

/-- What is under the segments from one number to another is in one zone. -/
theorem pieces_whole {A : Nat → BAngle} {va : ViewAxis} {segments : List Segment} {zones : List Zone}
    (h : Pieces A va segments zones) {y y' : ℚ} (hy : y ≤ y') (hu : ∀ x, y ≤ x → x ≤ y' → ∃ s ∈ segments, Under va s x) :
    ∃ z ∈ zones, ∃ lo hi, Spans A va z.angles lo hi ∧ lo ≤ y ∧ y' ≤ hi := by
  obtain ⟨s, hs, hsy⟩ := hu y le_rfl hy
  obtain ⟨z, hz, lo, hi, hsp, hin⟩ := h.over s hs
  obtain ⟨h1, h2⟩ := hin y hsy
  refine ⟨z, hz, lo, hi, hsp, h1, ?_⟩
  by_contra hc
  obtain ⟨w, w1, w2, w3⟩ := room_above (segments.map (low va)) (not_le.1 hc)
  obtain ⟨t, ht, t1, t2⟩ := hu w (h2.trans w1.le) w2.le
  obtain ⟨z', hz', lo', hi', hsp', hin'⟩ := h.over t ht
  have hlow : low va t ≤ hi := by
    by_contra hl
    exact absurd t1 (not_le.2 (w3 _ (List.mem_map_of_mem ht) (not_le.1 hl)))
  obtain ⟨q1, q2⟩ := hin' hi ⟨hlow, w1.le.trans t2⟩
  obtain ⟨-, q3⟩ := hin' w ⟨t1, t2⟩
  obtain ⟨⟨a, ha, ea⟩, ⟨b, hb, eb⟩, hall⟩ := id hsp
  obtain ⟨⟨a', ha', ea'⟩, ⟨b', hb', eb'⟩, hall'⟩ := id hsp'
  by_cases hzz : z = z'
  · subst hzz
    obtain ⟨-, rfl⟩ := spans_unique hsp hsp'
    exact absurd q3 (not_le.2 w1)
  rcases pairwise_or h.apart hz hz' hzz with hlt | hlt
  · have := hlt b (List.mem_of_mem_getLast? hb) a' (List.mem_of_mem_head? ha')
    rw [eb, ea'] at this
    exact absurd q1 (not_le.2 this)
  · have := hlt b' (List.mem_of_mem_getLast? hb') b (List.mem_of_mem_getLast? hb)
    rw [eb, eb'] at this
    exact absurd q2 (not_le.2 this)

/-- What is under the segments starts and stops at the bounds of the zones. -/
theorem pieces_ends {A : Nat → BAngle} {va : ViewAxis} {segments : List Segment} {zones : List Zone}
    (h : Pieces A va segments zones) {z : Zone} (hz : z ∈ zones) {lo hi : ℚ} (hsp : Spans A va z.angles lo hi) :
    EndOf va segments lo ∧ EndOf va segments hi := by
  obtain ⟨lo', hi', hsp', hlt, hu⟩ := h.spans z hz
  obtain ⟨rfl, rfl⟩ := spans_unique hsp hsp'
  have hin : ∀ t ∈ segments, ∀ x, lo' ≤ x → x ≤ hi' → Under va t x → ∀ y, Under va t y → lo' ≤ y ∧ y ≤ hi' := by
    intro t ht x x1 x2 hx y hy
    obtain ⟨w, hw, l, r, hspw, hinw⟩ := h.over t ht
    obtain ⟨q1, q2⟩ := hinw x hx
    obtain ⟨⟨a, ha, ea⟩, ⟨b, hb, eb⟩, -⟩ := id hsp
    obtain ⟨⟨a', ha', ea'⟩, ⟨b', hb', eb'⟩, -⟩ := id hspw
    by_cases hzw : z = w
    · subst hzw
      obtain ⟨rfl, rfl⟩ := spans_unique hsp hspw
      exact hinw y hy
    · rcases pairwise_or h.apart hz hw hzw with hlt | hlt
      · have := hlt b (List.mem_of_mem_getLast? hb) a' (List.mem_of_mem_head? ha')
        rw [eb, ea'] at this
        linarith
      · have := hlt b' (List.mem_of_mem_getLast? hb') a (List.mem_of_mem_head? ha)
        rw [ea, eb'] at this
        linarith
  have hlow : ∀ t, Under va t (low va t) := fun t => ⟨le_rfl, min_le_max⟩
  have hhigh : ∀ t, Under va t (high va t) := fun t => ⟨min_le_max, le_rfl⟩
  constructor
  · obtain ⟨s, hs, hsu⟩ := hu lo' le_rfl hlt.le
    refine Or.inl ⟨⟨s, hs, le_antisymm hsu.1 (hin s hs lo' le_rfl hlt.le hsu _ (hlow s)).1⟩, ?_⟩
    rintro t ht ⟨t1, t2⟩
    exact absurd (hin t ht lo' le_rfl hlt.le ⟨t1.le, t2⟩ _ (hlow t)).1 (not_le.2 t1)
  · obtain ⟨s, hs, hsu⟩ := hu hi' hlt.le le_rfl
    refine Or.inr ⟨⟨s, hs, le_antisymm (hin s hs hi' hlt.le le_rfl hsu _ (hhigh s)).2 hsu.2⟩, ?_⟩
    rintro t ht ⟨t1, t2⟩
    exact absurd (hin t ht hi' hlt.le le_rfl ⟨t1, t2.le⟩ _ (hhigh t)).2 (not_le.2 t2)

end Verif.Board
