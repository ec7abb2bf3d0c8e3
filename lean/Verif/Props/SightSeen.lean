import Verif.Props.SightModes

/-! C123: what the processing view shows in each display mode. C124: showing the selected chain keeps the selection. -/

namespace Verif.Graph
open Spec
open Verif.Geom (Plane Axis ViewAxis transposeAxis)

variable {b : Board} {ws : List Wire} {c : Entity → List Entity}

theorem related_nodes {n m : Entity} (h : Related b n m) : m ∈ b.nodes := by
  have hm : OnBoard b m := by
    rcases h with h | h
    · rcases Relation.TransGen.head'_iff.mp h with ⟨x, hx, -⟩
      exact hx.1
    · rcases Relation.TransGen.tail'_iff.mp h with ⟨x, -, hx⟩
      exact hx.2.1
  have := mem_shown.mpr hm
  simp [Board.nodes, this]

theorem setup (hb : Meant b) : ∃ (ws : List Wire) (c : Entity → List Entity), populate b = .ok ws ∧ (∀ n, chain b ws n = some (c n))
    ∧ (∀ n m, m ∈ c n ↔ Related b n m) ∧ ∀ n, ∀ m ∈ c n, m ∈ b.nodes := by
  obtain ⟨ws, h1, h2⟩ := C121_chain b hb
  choose c hc hr using h2
  exact ⟨ws, c, h1, hc, hr, fun n m h => related_nodes ((hr n m).mp h)⟩

theorem opened_ok (ho : Own b) (hc : ∀ n, chain b ws n = some (c n)) (hcn : ∀ n, ∀ m ∈ c n, m ∈ b.nodes) :
    ∃ o, opened b ws = some o ∧ Inv b c o ∧ o.mode = .selectedChain ∧ o.plane = .xy ∧ o.flags = fun _ => true := by
  obtain ⟨o, h1, h2, h3, h4, h5, -⟩ := setMode_ok ho hc hcn (s := .made) (consistent_fresh c) (by simp [Sight.made, Looks.fresh])
    (by simp [Sight.made, Looks.fresh]) .selectedChain
  exact ⟨o, h1, h2, h3, h4, h5⟩

theorem act_ok (ho : Own b) (hc : ∀ n, chain b ws n = some (c n)) (hcn : ∀ n, ∀ m ∈ c n, m ∈ b.nodes) {s : Sight}
    (h : Inv b c s) (a : Action) (ha : a.On b) :
    ∃ s', a.run b ws s = some s' ∧ Inv b c s' ∧ s'.mode = lastMode s.mode [a] ∧ s'.plane = lastPlane s.plane [a]
      ∧ s'.flags = lastFlags s.flags [a]
      ∧ (a.Plain b s → ∀ m, s'.looks.selected m = true ↔ a.asks b (s.looks.selected · = true) m)
      ∧ (∀ n, (a = .press n ∨ ∃ k, a = .click n k) → isVisible b s.hidden n = false → s' = s)
      ∧ (a.Structure s → (∀ m ∈ b.nodes, isVisible b s'.hidden m = true ↔ Rule b s'.plane s'.flags m)
          ∧ ∀ m, s'.looks.selected m = true ↔ s.looks.selected m = true ∧ isVisible b s'.hidden m = true) := by
  cases a with
  | press n =>
    obtain ⟨s', h1, h2, h3, h4, h5⟩ := press_ok ho hc h (mem_nodes.mpr ha)
    refine ⟨s', h1, h2, h3.1, h3.2.1, h3.2.2, fun hp => h5 hp, ?_, fun h => h.elim⟩
    rintro m (e | ⟨k, e⟩) hv
    · cases e; exact h4 hv
    · cases e
  | click n k =>
    obtain ⟨s', h1, h2, h3, h4, h5⟩ := click_ok ho hc h (mem_nodes.mpr ha) k
    refine ⟨s', h1, h2, h3.1, h3.2.1, h3.2.2, fun hp m => ?_, ?_, fun h => h.elim⟩
    · rw [h5 hp m]
      cases k <;> simp [Action.asks]
    · rintro m (e | ⟨k, e⟩) hv
      · cases e
      · cases e; exact h4 hv
  | counterparts l =>
    obtain ⟨s', h1, h2, h3, h4⟩ := counterparts_ok ho hc l h
    refine ⟨s', h1, h2, h3.1, h3.2.1, h3.2.2, fun _ m => ?_, by simp, fun h => h.elim⟩
    rw [h4, mem_shown]
    rfl
  | mode md =>
    obtain ⟨s', h1, h2, h3, h4, h5, h6, h7, -⟩ := setMode_ok ho hc hcn h.cons h.nodes h.vis md
    refine ⟨s', h1, h2, h3, h4, h5, fun hp m => ?_, by simp, fun hst => ?_⟩
    · rw [h6 hp]; rfl
    · rw [h4, h5]; exact h7 hst
  | plane p =>
    obtain ⟨s', h1, h2, h3, h4, h5⟩ := redisplay_ok ho hc (s0 := { s with plane := p }) h rfl rfl rfl
    refine ⟨s', h1, h2, h3.1, h3.2.1, h3.2.2, fun hp m => ?_, by simp, fun hst => ?_⟩
    · rw [h4 hp]; rfl
    · rw [h3.2.1, h3.2.2]; exact h5 hst
  | flags f =>
    obtain ⟨s', h1, h2, h3, h4, h5⟩ := redisplay_ok ho hc (s0 := { s with flags := f }) h rfl rfl rfl
    refine ⟨s', h1, h2, h3.1, h3.2.1, h3.2.2, fun hp m => ?_, by simp, fun hst => ?_⟩
    · rw [h4 hp]; rfl
    · rw [h3.2.1, h3.2.2]; exact h5 hst

theorem lastMode_cons (m : Mode) (a : Action) (as : List Action) : lastMode m (a :: as) = lastMode (lastMode m [a]) as := by
  cases a <;> rfl

theorem lastPlane_cons (m : Plane) (a : Action) (as : List Action) : lastPlane m (a :: as) = lastPlane (lastPlane m [a]) as := by
  cases a <;> rfl

theorem lastFlags_cons (m : ViewAxis → Bool) (a : Action) (as : List Action) :
    lastFlags m (a :: as) = lastFlags (lastFlags m [a]) as := by
  cases a <;> rfl

theorem runActions_ok (ho : Own b) (hc : ∀ n, chain b ws n = some (c n)) (hcn : ∀ n, ∀ m ∈ c n, m ∈ b.nodes)
    (as : List Action) {s : Sight} (h : Inv b c s) (ha : ∀ a ∈ as, a.On b) :
    ∃ s', runActions b ws s as = some s' ∧ Inv b c s' ∧ s'.mode = lastMode s.mode as ∧ s'.plane = lastPlane s.plane as
      ∧ s'.flags = lastFlags s.flags as := by
  induction as generalizing s with
  | nil => exact ⟨s, rfl, h, rfl, rfl, rfl⟩
  | cons a as ih =>
    obtain ⟨s1, h1, h2, h3, h4, h5, -⟩ := act_ok ho hc hcn h a (ha a (by simp))
    obtain ⟨s2, k1, k2, k3, k4, k5⟩ := ih h2 (fun a h => ha a (List.mem_cons_of_mem _ h))
    exact ⟨s2, by simp [runActions, h1, k1], k2, by rw [lastMode_cons, ← h3, k3], by rw [lastPlane_cons, ← h4, k4],
      by rw [lastFlags_cons, ← h5, k5]⟩

theorem reached_inv (hb : Meant b) (ho : Own b) {s : Sight} (h : Reached b ws s) :
    ∃ c : Entity → List Entity, (∀ n, chain b ws n = some (c n)) ∧ (∀ n m, m ∈ c n ↔ Related b n m) ∧ (∀ n, ∀ m ∈ c n, m ∈ b.nodes) ∧ Inv b c s := by
  obtain ⟨o, as, h1, h2, h3, h4⟩ := h
  obtain ⟨ws', c, k1, k2, k3, k4⟩ := setup hb
  obtain rfl : ws = ws' := by rw [h1] at k1; injection k1
  obtain ⟨o', j1, j2, -⟩ := opened_ok ho k2 k4
  obtain rfl : o = o' := by rw [h2] at j1; injection j1
  obtain ⟨s', i1, i2, -⟩ := runActions_ok ho k2 k4 as j2 h3
  obtain rfl : s = s' := by rw [h4] at i1; injection i1
  exact ⟨c, k2, k3, k4, i2⟩

theorem inChain_iff (ho : Own b) (hr : ∀ n m, m ∈ c n ↔ Related b n m) (hcn : ∀ n, ∀ m ∈ c n, m ∈ b.nodes)
    {s : Sight} (h : Inv b c s) (m : Entity) :
    (∃ x ∈ b.nodes, (s.looks.selected x = true ∨ s.looks.lit x = true) ∧ m ∈ lineage b x) ↔
      InChain b (s.looks.selected · = true) m := by
  constructor
  · rintro ⟨x, hx, h' | h', hl⟩
    · exact ⟨x, x, h', .inl rfl, (mem_lineage ho).mp hl⟩
    · obtain ⟨n, hn, hc⟩ := (lit_iff h.cons.nearly x).mp h'
      exact ⟨n, x, hn, .inr ((hr n x).mp hc), (mem_lineage ho).mp hl⟩
  · rintro ⟨n, x, hn, rfl | h', hl⟩
    · exact ⟨x, h.nodes x hn, .inl hn, (mem_lineage ho).mpr hl⟩
    · have hc := (hr n x).mpr h'
      exact ⟨x, hcn n x hc, .inr ((lit_iff h.cons.nearly x).mpr ⟨n, hn, hc⟩), (mem_lineage ho).mpr hl⟩

/-- C123: after any actions the scene is in the mode asked for last, what is selected is visible, what is highlighted is what is
related to it, and what is visible is: everything; or exactly what is selected, what is related to it and what is around;
or at least what the structure view draws. -/
theorem C123_visible (b : Board) (hb : Meant b) (ho : Own b) (as : List Action) (ha : ∀ a ∈ as, a.On b) :
    ∃ ws o s, populate b = .ok ws ∧ opened b ws = some o ∧ runActions b ws o as = some s
      ∧ s.mode = lastMode .selectedChain as ∧ s.plane = lastPlane .xy as ∧ s.flags = lastFlags (fun _ => true) as
      ∧ (∀ n, s.looks.selected n = true → InScene b n ∧ isVisible b s.hidden n = true)
      ∧ (∀ m, s.looks.lit m = true ↔ ∃ n, s.looks.selected n = true ∧ Related b n m)
      ∧ (∀ m, s.looks.childLit m = s.looks.lit m ∧ s.looks.childSelected m = s.looks.selected m)
      ∧ (s.mode = .everything → ∀ n, InScene b n → isVisible b s.hidden n = true)
      ∧ (s.mode = .selectedChain → ∀ n, InScene b n →
          (isVisible b s.hidden n = true ↔ InChain b (s.looks.selected · = true) n))
      ∧ (s.mode = .structureView → ∀ n, InScene b n → Drawn b s.plane s.flags n → isVisible b s.hidden n = true) := by
  obtain ⟨ws, c, k1, k2, k3, k4⟩ := setup hb
  obtain ⟨o, j1, j2, j3, j4, j5⟩ := opened_ok ho k2 k4
  obtain ⟨s, i1, i2, i3, i4, i5⟩ := runActions_ok ho k2 k4 as j2 ha
  refine ⟨ws, o, s, k1, j1, i1, by rw [i3, j3], by rw [i4, j4], by rw [i5, j5],
    fun n hn => ⟨mem_nodes.mp (i2.nodes n hn), i2.vis n hn⟩, fun m => ?_, fun m => ⟨i2.cons.2.2.1 m, i2.cons.2.2.2 m⟩,
    fun hm n hn => i2.all hm n (mem_nodes.mpr hn), fun hm n hn => ?_, fun hm n hn hd => ?_⟩
  · rw [lit_iff i2.cons.nearly]
    simp only [k3]
  · rw [i2.chain hm n (mem_nodes.mpr hn), inChain_iff ho k3 k4 i2]
  · exact i2.drawn hm n (mem_nodes.mpr hn) ((rule_iff ho ..).mpr hd)

/-- C123: an action changes the selection as it asks, and does nothing about a node that is not visible. -/
theorem C123_selection (b : Board) (hb : Meant b) (ho : Own b) (ws : List Wire) (s : Sight) (h : Reached b ws s)
    (a : Action) (ha : a.On b) :
    ∃ s', a.run b ws s = some s'
      ∧ (a.Plain b s → ∀ m, s'.looks.selected m = true ↔ a.asks b (s.looks.selected · = true) m)
      ∧ (∀ n, (a = .press n ∨ ∃ k, a = .click n k) → isVisible b s.hidden n = false → s' = s) := by
  obtain ⟨c, k2, k3, k4, i⟩ := reached_inv hb ho h
  obtain ⟨s', h1, -, -, -, -, h6, h7, -⟩ := act_ok ho k2 k4 i a ha
  exact ⟨s', h1, h6, h7⟩

/-- C123: when the view is made as the structure view, what is visible is exactly what is in the plane and in the axes whose
lines are shown, and what was selected and is visible stays selected. -/
theorem C123_structure (b : Board) (hb : Meant b) (ho : Own b) (ws : List Wire) (s : Sight) (h : Reached b ws s)
    (a : Action) (ha : a.On b) (hst : a.Structure s) :
    ∃ s', a.run b ws s = some s' ∧ s'.plane = lastPlane s.plane [a] ∧ s'.flags = lastFlags s.flags [a]
      ∧ (∀ n, InScene b n → (isVisible b s'.hidden n = true ↔ Drawn b s'.plane s'.flags n))
      ∧ ∀ n, s'.looks.selected n = true ↔ s.looks.selected n = true ∧ Drawn b s'.plane s'.flags n := by
  obtain ⟨c, k2, k3, k4, i⟩ := reached_inv hb ho h
  obtain ⟨s', h1, -, -, h4, h5, -, -, h8⟩ := act_ok ho k2 k4 i a ha
  obtain ⟨g1, g2⟩ := h8 hst
  have hd : ∀ n, InScene b n → (isVisible b s'.hidden n = true ↔ Drawn b s'.plane s'.flags n) :=
    fun n hn => by rw [g1 n (mem_nodes.mpr hn), rule_iff ho]
  refine ⟨s', h1, h4, h5, hd, fun n => ?_⟩
  rw [g2]
  constructor
  · rintro ⟨a, h⟩; exact ⟨a, (hd n (mem_nodes.mp (i.nodes n a))).mp h⟩
  · rintro ⟨a, h⟩; exact ⟨a, (hd n (mem_nodes.mp (i.nodes n a))).mpr h⟩

/-- C123: with the buttons of the mesh, the axes shown as the structure view are those whose lines are drawn and visible in the
scene of the plane. -/
theorem C123_mesh (p : Plane) (v : MeshVisibility) (a : Axis) :
    axisShown p v.flags a = true ↔ ∃ g, lineGroup p a = some g ∧ v.group g = true := by
  cases p <;> cases v <;> cases a <;> simp [axisShown, MeshVisibility.flags, lineGroup, MeshVisibility.group, transposeAxis,
    ViewAxis.reverse]

theorem follows_iff (ho : Own b) (hr : ∀ n m, m ∈ c n ↔ Related b n m) (x y : Entity) :
    Follows b c x y ↔ InChain b (· = x) y := by
  simp only [Follows, InChain, mem_lineage ho, hr]
  constructor
  · rintro ⟨z, h, h'⟩; exact ⟨x, z, rfl, h, h'⟩
  · rintro ⟨n, z, rfl, h, h'⟩; exact ⟨z, h, h'⟩

/-- C124, when each selected node is in the chain of each other: showing the selected chain keeps the selection, and what is
highlighted. -/
theorem C124_partial (b : Board) (hb : Meant b) (ho : Own b) (ws : List Wire) (s : Sight) (h : Reached b ws s)
    (ht : ∀ x y, s.looks.selected x = true → s.looks.selected y = true → InChain b (· = x) y) :
    ∃ s', setMode b ws s .selectedChain = some s'
      ∧ (∀ m, s'.looks.selected m = s.looks.selected m ∧ s'.looks.lit m = s.looks.lit m)
      ∧ ∀ n, InScene b n → (isVisible b s'.hidden n = true ↔ InChain b (s.looks.selected · = true) n) := by
  obtain ⟨c, k2, k3, k4, i⟩ := reached_inv hb ho h
  obtain ⟨s', h1, h2, h3, -, -, -, -, h8⟩ := setMode_ok ho k2 k4 i.cons i.nodes i.vis .selectedChain
  obtain ⟨g1, g2⟩ := h8 rfl
  have hsel : ∀ m, s'.looks.selected m = s.looks.selected m := by
    intro m
    rw [Bool.eq_iff_iff]
    refine ⟨g1 m, fun hm => ?_⟩
    cases hS : selectedNodes b s with
    | nil =>
      have : m ∈ selectedNodes b s := List.mem_filter.mpr ⟨i.nodes m hm, hm⟩
      simp [hS] at this
    | cons x l =>
      have hx : ∀ y ∈ x :: l, s.looks.selected y = true := by
        intro y hy
        rw [← hS] at hy
        exact (List.mem_filter.mp hy).2
      exact (g2 x l hS).2.1 (fun y hy => (follows_iff ho k3 x y).mpr
        (ht x y (hx x (by simp)) (hx y (List.mem_cons_of_mem _ hy)))) m hm
  have e : s'.looks.selected = s.looks.selected := funext hsel
  refine ⟨s', h1, fun m => ⟨hsel m, ?_⟩, fun n hn => ?_⟩
  · rw [Bool.eq_iff_iff, lit_iff h2.cons.nearly, lit_iff i.cons.nearly, e]
  · rw [h2.chain h3 n (mem_nodes.mpr hn), inChain_iff ho k3 k4 h2, e]

/-- C124: otherwise, of the selected nodes the first in the scene is kept; when no other is in its chain, they are unselected. -/
theorem C124_lost (b : Board) (hb : Meant b) (ho : Own b) (ws : List Wire) (s : Sight) (h : Reached b ws s)
    (x : Entity) (l : List Entity) (hx : b.nodes.filter (s.looks.selected ·) = x :: l) (hl : ∀ y ∈ l, ¬ InChain b (· = x) y) :
    ∃ s', setMode b ws s .selectedChain = some s' ∧ ∀ m, s'.looks.selected m = true ↔ m = x := by
  obtain ⟨c, k2, k3, k4, i⟩ := reached_inv hb ho h
  obtain ⟨s', h1, -, -, -, -, -, -, h8⟩ := setMode_ok ho k2 k4 i.cons i.nodes i.vis .selectedChain
  obtain ⟨g1, g2, g3⟩ := (h8 rfl).2 x l hx
  exact ⟨s', h1, fun m => ⟨g3 (fun y hy => fun hf => hl y hy ((follows_iff ho k3 x y).mp hf)) m, fun e => e ▸ g1⟩⟩

/-- A board with two policies that have nothing in common. -/
def pair : Board :=
  { tiny with polygons := [], eips := [], tcmlps := [], policies := [0, 1], policyOrigins := fun _ => [], intervals := [],
              meshlines := [] }

theorem pair_meant : Meant pair := by intro i o h; simp [pair] at h

theorem pair_own : Own pair := by intro p es q fs i h; simp [pair] at h

theorem pair_apart : ¬ InChain pair (· = .policy 0) (.policy 1) := by
  have hno : ∀ o e, ¬ Linked pair o e := by
    rintro o e ⟨h1, h2, h3⟩
    cases h3 <;> simp_all [OnBoard, pair, tiny]
  rintro ⟨n, x, rfl, h, h'⟩
  have hx : x = .policy 1 := by
    rcases Relation.ReflTransGen.cases_head h' with e | ⟨y, hy, -⟩
    · exact e.symm
    · cases hy
  subst hx
  rcases h with h | h | h
  · cases h
  · rcases Relation.TransGen.head'_iff.mp h with ⟨x, hx, -⟩
    exact hno _ _ hx
  · rcases Relation.TransGen.head'_iff.mp h with ⟨x, hx, -⟩
    exact hno _ _ hx

/-- Both policies of `pair` selected from the structure view. -/
theorem pair_selected : ∃ ws s, Reached pair ws s ∧ ∀ m, s.looks.selected m = true ↔ m = .policy 0 ∨ m = .policy 1 := by
  obtain ⟨ws, c, k1, k2, k3, k4⟩ := setup pair_meant
  obtain ⟨o, j1, j2, -⟩ := opened_ok pair_own k2 k4
  obtain ⟨s, i1, -, -, -, -, i6, -⟩ := act_ok pair_own k2 k4 j2 (.counterparts [.policy 0, .policy 1]) trivial
  refine ⟨ws, s, ⟨o, [.counterparts [.policy 0, .policy 1]], k1, j1, by simp [Action.On], by simp [runActions, i1]⟩, fun m => ?_⟩
  rw [i6 trivial]
  simp only [Action.asks, List.mem_cons, List.not_mem_nil, or_false]
  constructor
  · exact fun h => h.2
  · rintro (rfl | rfl) <;> simp [OnBoard, pair]

/-- C124 is false of two nodes that have nothing in common: the second is unselected. -/
theorem C124_false : ¬ ∀ (b : Board) (_ : Meant b) (_ : Own b) (ws : List Wire) (s s' : Sight), Reached b ws s →
    setMode b ws s .selectedChain = some s' → ∀ m, s.looks.selected m = true → s'.looks.selected m = true := by
  intro h
  obtain ⟨ws, s, h1, h2⟩ := pair_selected
  have hf : s.looks.selected = fun m => decide (m = .policy 0 ∨ m = .policy 1) := by
    funext m
    rw [Bool.eq_iff_iff, h2]
    simp
  obtain ⟨s', k1, k2⟩ := C124_lost pair pair_meant pair_own ws s h1 (.policy 0) [.policy 1] (by rw [hf]; decide +kernel)
    (by simpa using pair_apart)
  have := (k2 _).mp (h pair pair_meant pair_own ws s s' h1 k1 (.policy 1) ((h2 _).mpr (.inr rfl)))
  cases this

theorem tiny_own : Own tiny := by
  intro p es q fs i h1 h2 h3 h4
  simp only [tiny, List.mem_cons, Prod.mk.injEq, List.not_mem_nil, or_false] at h1 h2
  rcases h1 with ⟨rfl, rfl⟩ | ⟨rfl, rfl⟩ <;> rcases h2 with ⟨rfl, rfl⟩ | ⟨rfl, rfl⟩ <;> simp_all

/-- What some nodes of the board selected from the structure view come to. -/
theorem reached_counterparts (hb : Meant b) (ho : Own b) (l : List Entity) :
    ∃ ws s, Reached b ws s ∧ s.mode = .selectedChain ∧ ∀ m, s.looks.selected m = true ↔ OnBoard b m ∧ m ∈ l := by
  obtain ⟨ws, c, k1, k2, k3, k4⟩ := setup hb
  obtain ⟨o, j1, j2, j3, -⟩ := opened_ok ho k2 k4
  obtain ⟨s, i1, -, i3, -, -, i6, -⟩ := act_ok ho k2 k4 j2 (.counterparts l) trivial
  exact ⟨ws, s, ⟨o, [.counterparts l], k1, j1, by simp [Action.On], by simp [runActions, i1]⟩, by rw [i3, j3]; rfl, i6 trivial⟩

/-- In `tiny`, selecting the line shows the polygon it comes from, and its plane. -/
example : ∃ ws s, Reached tiny ws s ∧ s.looks.selected (.meshline 0) = true ∧ isVisible tiny s.hidden (.polygon 1) = true
    ∧ isVisible tiny s.hidden (.plane .xy) = true := by
  obtain ⟨ws, s, h, hm, hs⟩ := reached_counterparts tiny_meant tiny_own [.meshline 0]
  have hsel : s.looks.selected (.meshline 0) = true := (hs _).mpr ⟨by simp [OnBoard, tiny], by simp⟩
  obtain ⟨o, as, h1, h2, h3, h4⟩ := h
  obtain ⟨ws', o', s', k1, k2, k3, -, -, -, -, -, -, -, k, -⟩ := C123_visible tiny tiny_meant tiny_own as h3
  obtain rfl : ws = ws' := by rw [h1] at k1; injection k1
  obtain rfl : o = o' := by rw [h2] at k2; injection k2
  obtain rfl : s = s' := by rw [h4] at k3; injection k3
  refine ⟨ws, s, ⟨o, as, h1, h2, h3, h4⟩, hsel, (k hm _ ?_).mpr ⟨_, .polygon 1, hsel, .inr tiny_related, .refl⟩,
    (k hm (.plane .xy) trivial).mpr ⟨_, .polygon 1, hsel, .inr tiny_related, .single (.polygon 1)⟩⟩
  exact ⟨[2], by simp [tiny]⟩

/-- C123_selection, C123_structure: a scene with a selection, and an action of each kind. -/
example : ∃ ws s, Reached tiny ws s ∧ s.looks.selected (.policy 0) = true ∧ (Action.mode .structureView).Structure s
    ∧ (Action.mode .structureView).On tiny ∧ (Action.counterparts [.edge 0]).Plain tiny s
    ∧ Drawn tiny .xy (fun _ => true) (.policy 0) := by
  obtain ⟨ws, s, h, -, hs⟩ := reached_counterparts tiny_meant tiny_own [.policy 0]
  exact ⟨ws, s, h, (hs _).mpr ⟨by simp [OnBoard, tiny], by simp⟩, rfl, trivial, trivial,
    .inr ⟨.x, .single (.policy 0), rfl⟩⟩

/-- C124_partial: in `tiny`, a line and the polygon it comes from, both selected. -/
example : ∃ ws s, Reached tiny ws s ∧ s.looks.selected (.meshline 0) = true ∧ s.looks.selected (.polygon 1) = true
    ∧ ∀ x y, s.looks.selected x = true → s.looks.selected y = true → InChain tiny (· = x) y := by
  obtain ⟨ws, s, h, -, hs⟩ := reached_counterparts tiny_meant tiny_own [.meshline 0, .polygon 1]
  refine ⟨ws, s, h, (hs _).mpr ⟨by simp [OnBoard, tiny], by simp⟩, (hs _).mpr ⟨⟨[2], by simp [tiny]⟩, by simp⟩, fun x y hx hy => ?_⟩
  have hx := ((hs x).mp hx).2
  have hy := ((hs y).mp hy).2
  simp only [List.mem_cons, List.not_mem_nil, or_false] at hx hy
  rcases hx with rfl | rfl <;> rcases hy with rfl | rfl
  · exact ⟨_, _, rfl, .inl rfl, .refl⟩
  · exact ⟨_, _, rfl, .inr tiny_related, .refl⟩
  · exact ⟨_, _, rfl, .inr tiny_related.symm, .refl⟩
  · exact ⟨_, _, rfl, .inl rfl, .refl⟩

end Verif.Graph
