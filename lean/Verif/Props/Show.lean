import Verif.Spec.Show

/-! # C127, C128, C129: the buttons that say what is shown -/

namespace Verif.Props.Show
open Verif Verif.Show
open Verif.Show.Spec
open Verif.Graph (Mode MeshVisibility)
open Verif.Geom (Plane ViewAxis)

/-! ## Lists by timepoint -/

theorem lookup_alter_self {α : Type} (t : Addr) (f : α → α) (l : List (Addr × α)) :
    (Panel.alter t f l).lookup t = (l.lookup t).map f := by
  induction l with
  | nil => rfl
  | cons x xs ih =>
    obtain ⟨a, b⟩ := x
    by_cases h : a = t
    · subst h; simp [Panel.alter, List.lookup_cons]
    · have h' : (t == a) = false := by simp [Ne.symm h]
      simp only [Panel.alter, List.map_cons, h, if_false, List.lookup_cons, h']
      exact ih

theorem mem_alter {α : Type} {t : Addr} {f : α → α} {l : List (Addr × α)} {x : Addr × α} (h : x ∈ Panel.alter t f l) :
    ∃ y ∈ l, x = y ∨ x = (y.1, f y.2) := by
  obtain ⟨y, hy, rfl⟩ := List.mem_map.mp h
  refine ⟨y, hy, ?_⟩
  split
  · exact Or.inr rfl
  · exact Or.inl rfl

theorem mem_of_lookup {α : Type} {t : Addr} {v : α} {l : List (Addr × α)} (h : l.lookup t = some v) : (t, v) ∈ l := by
  induction l with
  | nil => cases h
  | cons x xs ih =>
    obtain ⟨a, b⟩ := x
    rw [List.lookup_cons] at h
    split at h
    · rename_i he
      cases h
      rw [beq_iff_eq] at he
      subst he
      exact List.mem_cons_self ..
    · exact List.mem_cons_of_mem _ (ih h)

theorem lookup_emplace {α : Type} (l : List (Addr × α)) (t : Addr) (x : α) :
    (Panel.emplace l t x).lookup t = some ((l.lookup t).getD x) := by
  unfold Panel.emplace
  cases h : l.lookup t with
  | some v => simp [h]
  | none =>
    simp only [Option.isSome_none, Bool.false_eq_true, if_false, Option.getD_none, List.lookup_append, h, Option.none_or]
    simp

theorem mem_emplace {α : Type} {l : List (Addr × α)} {t : Addr} {x : α} {y : Addr × α} (h : y ∈ Panel.emplace l t x) :
    y ∈ l ∨ y = (t, x) := by
  unfold Panel.emplace at h
  split at h
  · exact Or.inl h
  · simpa using h

theorem lookup_alter_isSome {α : Type} (t : Addr) (f : α → α) (l : List (Addr × α)) (s : Addr) :
    ((Panel.alter t f l).lookup s).isSome = (l.lookup s).isSome := by
  induction l with
  | nil => rfl
  | cons x xs ih =>
    obtain ⟨a, b⟩ := x
    have : Panel.alter t f ((a, b) :: xs) = (a, if a = t then f b else b) :: Panel.alter t f xs := by
      simp only [Panel.alter, List.map_cons]
      split <;> rfl
    rw [this, List.lookup_cons, List.lookup_cons]
    cases s == a with
    | true => rfl
    | false => exact ih

theorem lookup_emplace_isSome {α : Type} (l : List (Addr × α)) (t : Addr) (x : α) (s : Addr) :
    ((Panel.emplace l t x).lookup s).isSome = ((l.lookup s).isSome || s == t) := by
  unfold Panel.emplace
  split
  · rename_i h
    by_cases hs : s = t
    · subst hs; simp [h]
    · simp [hs]
  · rw [List.lookup_append]
    cases l.lookup s with
    | some _ => rfl
    | none =>
      simp only [Option.none_or, List.lookup_cons, List.lookup_nil, Option.isSome_none, Bool.false_or]
      cases s == t <;> rfl

/-! ## The invariant -/

/-- What holds of the window whatever is done. -/
structure Inv (p : Panel) : Prop where
  plane : p.checked.plane = p.displayedPlane
  member : p.plane = p.displayedPlane
  wires : p.checked.wires = p.wires
  allWires : ∀ x ∈ p.processings, x.2.wires = p.wires
  uniform : ∀ x ∈ p.structures, ∀ pl pl', x.2 pl = x.2 pl'
  both : ∀ t, (p.structures.lookup t).isSome = (p.processings.lookup t).isSome
  shown : p.enabled = true → ∃ v l, OnDisplay p v l
  blank : p.enabled = false → p.processingCurrent = none

theorem inv_made : Inv .made :=
  ⟨rfl, rfl, rfl, fun _ h => (by cases h), fun _ h => (by cases h), fun _ => rfl, fun h => (by cases h), fun _ => rfl⟩

theorem onDisplay_unique {p : Panel} {v v' : Plane → MeshVisibility} {l l' : ProcessingLook} (h : OnDisplay p v l)
    (h' : OnDisplay p v' l') : v = v' ∧ l = l' := by
  obtain ⟨t, h1, h2, h3, h4⟩ := h
  obtain ⟨t', k1, k2, k3, k4⟩ := h'
  rw [h1] at k1
  cases k1
  rw [h3] at k3
  rw [h4] at k4
  exact ⟨Option.some.inj k3, Option.some.inj k4⟩

theorem onProcessing_ok {p : Panel} {v : Plane → MeshVisibility} {l : ProcessingLook} (h : OnDisplay p v l)
    (f : ProcessingLook → ProcessingLook) : ∃ p', p.onProcessing f = .ok p' ∧ OnDisplay p' v (f l) ∧
      p' = { p with processings := p'.processings } ∧
      (∀ x ∈ p'.processings, ∃ y ∈ p.processings, x = y ∨ x = (y.1, f y.2)) ∧
      ∀ s, (p'.processings.lookup s).isSome = (p.processings.lookup s).isSome := by
  obtain ⟨t, h1, h2, h3, h4⟩ := h
  refine ⟨{ p with processings := Panel.alter t f p.processings }, ?_, ⟨t, h1, h2, h3, ?_⟩, rfl, fun x hx => mem_alter hx,
    lookup_alter_isSome t f p.processings⟩
  · simp [Panel.onProcessing, h2, h4]
  · exact (lookup_alter_self t f p.processings).trans (by rw [h4]; rfl)

/-- What a click of a button of the plane does. -/
theorem clickPlane_ok {p : Panel} (hp : Inv p) {v : Plane → MeshVisibility} {l : ProcessingLook} (he : p.enabled = true)
    (h : OnDisplay p v l) (pl : Plane) : ∃ p', p.clickPlane pl = .ok p' ∧ Inv p' ∧ OnDisplay p' v { l with plane := pl } ∧
      p'.checked = { p.checked with plane := pl } ∧ p'.displayedPlane = pl ∧ p'.flags = p.flags ∧ p'.enabled = true := by
  obtain ⟨t, h1, h2, h3, h4⟩ := h
  obtain ⟨st, sc, dp, pr, pc, fl, pln, wr, ck, en⟩ := p
  simp only at h1 h2 h3 h4 he
  subst h1 h2 he
  let p : Panel := ⟨st, some t, dp, pr, some t, fl, pln, wr, ck, true⟩
  let q : Panel := { p with checked := { p.checked with plane := pl }, displayedPlane := pl, plane := pl }
  obtain ⟨p', hr, hd, he', hm, hb⟩ := onProcessing_ok (p := q) (v := v) (l := l) ⟨t, rfl, rfl, h3, h4⟩ (fun l => { l with plane := pl })
  refine ⟨p', ?_, ?_, hd, by rw [he'], by rw [he'], by rw [he'], by rw [he']⟩
  · simp only [Panel.clickPlane, Panel.press, if_true, Panel.setStructurePlane, Panel.structureScene, h3, Option.bind_some, bind,
      Except.bind]
    exact hr
  · refine ⟨by rw [he'], by rw [he'], by rw [he']; exact hp.wires, ?_, by rw [he']; exact hp.uniform,
      fun s => (by rw [he']; exact (hp.both s).trans (hb s).symm), fun _ => ⟨_, _, hd⟩, ?_⟩
    · intro x hx
      obtain ⟨y, hy, rfl | rfl⟩ := hm x hx
      · rw [he']; exact hp.allWires x hy
      · rw [he']; exact hp.allWires y hy
    · rw [he']; intro hf; first | cases hf | exact absurd (he.symm.trans hf) (by decide)

/-- What a click of a button of the mesh does. -/
theorem clickMesh_ok {p : Panel} (hp : Inv p) {v : Plane → MeshVisibility} {l : ProcessingLook} (he : p.enabled = true)
    (h : OnDisplay p v l) (m : MeshVisibility) : ∃ p', p.clickMesh m = .ok p' ∧ Inv p' ∧
      OnDisplay p' (fun _ => m) { l with flags := m.flags } ∧
      p'.checked = { p.checked with mesh := m } ∧ p'.displayedPlane = p.displayedPlane ∧ p'.flags = m.flags ∧ p'.enabled = true := by
  obtain ⟨t, h1, h2, h3, h4⟩ := h
  obtain ⟨st, sc, dp, pr, pc, fl, pln, wr, ck, en⟩ := p
  simp only at h1 h2 h3 h4 he
  subst h1 h2 he
  let p : Panel := ⟨st, some t, dp, pr, some t, fl, pln, wr, ck, true⟩
  let q : Panel := { p with checked := { p.checked with mesh := m }, structures := Panel.alter t (fun _ _ => m) p.structures, flags := m.flags }
  have h3' : q.structures.lookup t = some (fun _ => m) := (lookup_alter_self t (fun _ _ => m) p.structures).trans (by rw [h3]; first | done | rfl)
  obtain ⟨p1, hr, hd, he', hm, hb⟩ := onProcessing_ok (p := q) (v := fun _ => m) (l := l) ⟨t, rfl, rfl, h3', h4⟩
    (fun l => { l with flags := m.flags })
  obtain ⟨p', hr', hd', he'', hm', hb'⟩ := onProcessing_ok hd id
  refine ⟨p', ?_, ?_, hd', by rw [he'', he'], by rw [he'', he'], by rw [he'', he'], by rw [he'', he']⟩
  · let q0 : Panel := { q with flags := fl }
    have hr2 : Panel.setFlags q0 m.flags = .ok p1 := hr
    let q1 : Panel := { p with checked := { p.checked with mesh := m } }
    have h5 : Panel.setMeshVisibility q1 m = .ok q0 := by simp [Panel.setMeshVisibility, h3, q1, q0, q, p]
    have h6 : Panel.clickMesh p m = (Panel.setMeshVisibility q1 m >>= fun p => Panel.setFlags p m.flags >>= fun p => p.fit) :=
      rfl
    rw [h6, h5]
    show (q0.setFlags m.flags >>= fun p => p.fit) = _
    rw [hr2]
    exact hr'
  · have hq : ∀ x ∈ p'.processings, x.2.wires = p.wires := by
      intro x hx
      obtain ⟨y, hy, hxy⟩ := hm' x hx
      obtain ⟨z, hz, hyz⟩ := hm _ hy
      rcases hxy with hxy | hxy <;> rcases hyz with hyz | hyz <;> rw [hxy, hyz] <;> exact hp.allWires z hz
    refine ⟨by rw [he'', he']; exact hp.plane, by rw [he'', he']; exact hp.member, by rw [he'', he']; exact hp.wires, ?_, ?_,
      fun s => ?_, fun _ => ⟨_, _, hd'⟩, ?_⟩
    · rw [he'', he']; exact hq
    · rw [he'', he']
      intro x hx pl pl'
      obtain ⟨y, hy, rfl | rfl⟩ := mem_alter (t := t) (f := fun _ _ => m) (l := st) hx
      · exact hp.uniform x hy pl pl'
      · rfl
    · rw [he'', he']
      exact ((lookup_alter_isSome t (fun _ _ => m) st s).trans (hp.both s)).trans ((hb s).symm.trans (hb' s).symm)
    · rw [he'', he']; intro hf; first | cases hf | exact absurd (he.symm.trans hf) (by decide)

/-- What a click of a button of the display mode does. -/
theorem clickMode_ok {p : Panel} (hp : Inv p) {v : Plane → MeshVisibility} {l : ProcessingLook} (he : p.enabled = true)
    (h : OnDisplay p v l) (m : Mode) : ∃ p', p.clickMode m = .ok p' ∧ Inv p' ∧ OnDisplay p' v { l with mode := m } ∧
      p'.checked = { p.checked with mode := m } ∧ p'.displayedPlane = p.displayedPlane ∧ p'.flags = p.flags ∧
      p'.enabled = true := by
  obtain ⟨t, h1, h2, h3, h4⟩ := h
  obtain ⟨st, sc, dp, pr, pc, fl, pln, wr, ck, en⟩ := p
  simp only at h1 h2 h3 h4 he
  subst h1 h2 he
  let p : Panel := ⟨st, some t, dp, pr, some t, fl, pln, wr, ck, true⟩
  let q : Panel := { p with checked := { p.checked with mode := m } }
  obtain ⟨p1, hr, hd, he', hm, hb⟩ := onProcessing_ok (p := q) (v := v) (l := l) ⟨t, rfl, rfl, h3, h4⟩ (fun l => { l with mode := m })
  obtain ⟨p', hr', hd', he'', hm', hb'⟩ := onProcessing_ok hd id
  refine ⟨p', ?_, ?_, hd', by rw [he'', he'], by rw [he'', he'], by rw [he'', he'], by rw [he'', he']⟩
  · have hr2 : Panel.setMode q m = .ok p1 := hr
    have h6 : Panel.clickMode p m = (Panel.setMode q m >>= fun p => p.fit) := rfl
    rw [h6, hr2]
    exact hr'
  · have hq : ∀ x ∈ p'.processings, x.2.wires = p.wires := by
      intro x hx
      obtain ⟨y, hy, hxy⟩ := hm' x hx
      obtain ⟨z, hz, hyz⟩ := hm _ hy
      rcases hxy with hxy | hxy <;> rcases hyz with hyz | hyz <;> rw [hxy, hyz] <;> exact hp.allWires z hz
    refine ⟨by rw [he'', he']; exact hp.plane, by rw [he'', he']; exact hp.member, by rw [he'', he']; exact hp.wires, ?_, ?_,
      fun s => ?_, fun _ => ⟨_, _, hd'⟩, ?_⟩
    · rw [he'', he']; exact hq
    · rw [he'', he']; exact hp.uniform
    · rw [he'', he']
      exact (hp.both s).trans ((hb s).symm.trans (hb' s).symm)
    · rw [he'', he']; intro hf; first | cases hf | exact absurd (he.symm.trans hf) (by decide)

theorem lookup_map {α : Type} (f : α → α) (l : List (Addr × α)) (t : Addr) :
    (l.map fun x => (x.1, f x.2)).lookup t = (l.lookup t).map f := by
  induction l with
  | nil => rfl
  | cons x xs ih =>
    obtain ⟨a, b⟩ := x
    simp only [List.map_cons, List.lookup_cons]
    cases t == a with
    | true => rfl
    | false => exact ih

/-- What a click of a button of the wires does. -/
theorem clickWires_ok {p : Panel} (hp : Inv p) {v : Plane → MeshVisibility} {l : ProcessingLook} (he : p.enabled = true)
    (h : OnDisplay p v l) (w : WireStyle) : ∃ p', p.clickWires w = .ok p' ∧ Inv p' ∧ OnDisplay p' v { l with wires := w } ∧
      p'.checked = { p.checked with wires := w } ∧ p'.displayedPlane = p.displayedPlane ∧ p'.flags = p.flags ∧
      p'.enabled = true := by
  obtain ⟨t, h1, h2, h3, h4⟩ := h
  have hd : OnDisplay (Panel.setWires { p with checked := { p.checked with wires := w } } w) v { l with wires := w } := by
    refine ⟨t, h1, h2, h3, ?_⟩
    exact (lookup_map (fun l => { l with wires := w }) p.processings t).trans (by rw [h4]; first | done | rfl)
  refine ⟨Panel.setWires { p with checked := { p.checked with wires := w } } w, ?_, ?_, hd, rfl, rfl, rfl, he⟩
  · simp [Panel.clickWires, Panel.press, he]
  · refine ⟨hp.plane, hp.member, rfl, ?_, hp.uniform, fun s => ?_, fun _ => ⟨_, _, hd⟩, ?_⟩
    · intro x hx
      obtain ⟨y, hy, rfl⟩ := List.mem_map.mp hx
      rfl
    · refine (hp.both s).trans ?_
      have := lookup_map (fun l : ProcessingLook => { l with wires := w }) p.processings s
      refine Eq.trans ?_ (congrArg Option.isSome this).symm
      cases p.processings.lookup s <;> rfl
    · intro hf; first | cases hf | exact absurd (he.symm.trans hf) (by decide)

theorem clickFit_ok {p : Panel} (hp : Inv p) {v : Plane → MeshVisibility} {l : ProcessingLook}
    (h : OnDisplay p v l) (he : p.enabled = true) : ∃ p', p.clickFit = .ok p' ∧ Inv p' ∧ OnDisplay p' v l ∧
      p'.checked = p.checked ∧ p'.displayedPlane = p.displayedPlane ∧ p'.flags = p.flags ∧ p'.enabled = true := by
  obtain ⟨p', hr, hd, he', hm, hb⟩ := onProcessing_ok h id
  refine ⟨p', ?_, ?_, hd, by rw [he'], by rw [he'], by rw [he'], by rw [he']; exact he⟩
  · have h1 : p.fit = .ok p' := hr
    obtain ⟨t, k1, k2, k3, k4⟩ := hd
    simp only [Panel.clickFit, h1]
    show (match p'.structureScene with | none => _ | some _ => _) = _
    simp [Panel.structureScene, k1, k3]
  · refine ⟨by rw [he']; exact hp.plane, by rw [he']; exact hp.member, by rw [he']; exact hp.wires, ?_, by rw [he']; exact hp.uniform,
      fun s => (by rw [he']; exact (hp.both s).trans (hb s).symm), fun _ => ⟨_, _, hd⟩, ?_⟩
    · intro x hx
      obtain ⟨y, hy, rfl | rfl⟩ := hm x hx
      · rw [he']; exact hp.allWires x hy
      · rw [he']; exact hp.allWires y hy
    · rw [he']; intro hf; rw [show p.enabled = true from he] at hf; cases hf

/-- What making the scenes of a timepoint does, whether or not there are some. -/
theorem make_ok {p : Panel} (hp : Inv p) (he : p.enabled = true) (t : Addr) :
    Inv (p.makeCurrentStateView t) ∧
    OnDisplay (p.makeCurrentStateView t)
      ((p.structures.lookup t).getD fun _ => match p.structureScene with | some v => v p.displayedPlane | none => .full)
      ((p.processings.lookup t).getD
        ⟨match p.processingScene with | some l => l.mode | none => .selectedChain, p.plane, p.flags, p.wires⟩) ∧
    (p.makeCurrentStateView t).checked = p.checked ∧ (p.makeCurrentStateView t).displayedPlane = p.displayedPlane ∧
    (p.makeCurrentStateView t).flags = p.flags ∧ (p.makeCurrentStateView t).enabled = true := by
  have hd : OnDisplay (p.makeCurrentStateView t)
      ((p.structures.lookup t).getD fun _ => match p.structureScene with | some v => v p.displayedPlane | none => .full)
      ((p.processings.lookup t).getD
        ⟨match p.processingScene with | some l => l.mode | none => .selectedChain, p.plane, p.flags, p.wires⟩) :=
    ⟨t, rfl, rfl, lookup_emplace .., lookup_emplace ..⟩
  refine ⟨⟨hp.plane, hp.member, hp.wires, ?_, ?_, fun s => ?_, fun _ => ⟨_, _, hd⟩, ?_⟩, hd, rfl, rfl, rfl, he⟩
  · intro x hx
    rcases mem_emplace hx with hx | rfl
    · exact hp.allWires x hx
    · rfl
  · intro x hx
    rcases mem_emplace hx with hx | rfl
    · exact hp.uniform x hx
    · exact fun _ _ => rfl
  · refine (lookup_emplace_isSome ..).trans ?_
    rw [hp.both s]
    exact (lookup_emplace_isSome ..).symm
  · intro hf; first | cases hf | exact absurd (he.symm.trans hf) (by decide)

/-- What going to a timepoint that has scenes does. -/
theorem goTo_ok {p : Panel} (hp : Inv p) (he : p.enabled = true) {t : Addr} {v : Plane → MeshVisibility} {l : ProcessingLook}
    (h1 : p.structures.lookup t = some v) (h2 : p.processings.lookup t = some l) :
    ∃ p', p.goToCurrentState t = .ok p' ∧ Inv p' ∧ OnDisplay p' v l ∧
      p'.checked = { p.checked with mesh := v .yz, mode := l.mode } ∧ p'.displayedPlane = p.displayedPlane ∧
      p'.flags = p.flags ∧ p'.enabled = true := by
  let p' : Panel := { p with structureCurrent := some t, processingCurrent := some t,
                             checked := { p.checked with mesh := v .yz, mode := l.mode } }
  have hd : OnDisplay p' v l := ⟨t, rfl, rfl, h1, h2⟩
  refine ⟨p', ?_, ?_, hd, rfl, rfl, rfl, he⟩
  · simp [Panel.goToCurrentState, Panel.updateShowButtons, Panel.structureScene, Panel.processingScene, h1, h2, p']
  · refine ⟨hp.plane, hp.member, hp.wires, hp.allWires, hp.uniform, hp.both, fun _ => ⟨_, _, hd⟩, ?_⟩
    intro hf; first | cases hf | exact absurd (he.symm.trans hf) (by decide)

theorem inv_clear {p : Panel} (hp : Inv p) : Inv { p.clear with enabled := false } :=
  ⟨hp.plane, hp.member, hp.wires, fun _ h => (by cases h), fun _ h => (by cases h), fun _ => rfl, fun h => (by cases h), fun _ => rfl⟩

theorem inv_disabled {p : Panel} (hp : Inv p) {f : Panel → Except Fault Panel} {c : Checked → Checked}
    (he : p.enabled = false) : p.press c f = .ok p := by simp [Panel.press, he]

/-- What opening a document does. -/
theorem openFile_ok {p : Panel} (hp : Inv p) (t : Addr) :
    ∃ p', p.openFile (some t) = .ok p' ∧ Inv p' ∧ OnDisplay p' (fun _ => .full) ⟨.selectedChain, p.plane, p.flags, p.wires⟩ ∧
      p'.checked = p.checked ∧ p'.displayedPlane = p.displayedPlane ∧ p'.flags = p.flags ∧ p'.enabled = true := by
  let q : Panel := { p.clear with enabled := true }
  have hq : (q.makeCurrentStateView t) = { q with
      structures := [(t, fun _ => .full)], structureCurrent := some t
      processings := [(t, ⟨.selectedChain, p.plane, p.flags, p.wires⟩)], processingCurrent := some t } := rfl
  have hd : OnDisplay (q.makeCurrentStateView t) (fun _ => .full) ⟨.selectedChain, p.plane, p.flags, p.wires⟩ := by
    rw [hq]
    exact ⟨t, rfl, rfl, by simp [List.lookup_cons], by simp [List.lookup_cons]⟩
  have hi : Inv (q.makeCurrentStateView t) := by
    rw [hq]
    refine ⟨hp.plane, hp.member, hp.wires, ?_, ?_, fun s => ?_, fun _ => ⟨_, _, hq ▸ hd⟩, fun hf => (by cases hf)⟩
    · intro x hx
      obtain rfl := List.mem_singleton.mp hx
      rfl
    · intro x hx
      obtain rfl := List.mem_singleton.mp hx
      exact fun _ _ => rfl
    · simp only [List.lookup_cons]
      cases s == t <;> rfl
  obtain ⟨p', hr, h1, h2, h3, h4, h5, h6⟩ := clickFit_ok hi hd rfl
  exact ⟨p', hr, h1, h2, h3, h4, h5, h6⟩

/-! ## C129 -/

theorem nav_ok {p : Panel} (hp : Inv p) (he : p.enabled = true) (t : Addr) :
    ∃ p', p.goToOrMakeCurrentState t = .ok p' ∧ Inv p' := by
  unfold Panel.goToOrMakeCurrentState
  split
  · rename_i h
    rw [Bool.and_eq_true, Option.isSome_iff_exists, Option.isSome_iff_exists] at h
    obtain ⟨⟨v, h1⟩, ⟨l, h2⟩⟩ := h
    obtain ⟨p', hr, hi, -⟩ := goTo_ok hp he h1 h2
    exact ⟨p', hr, hi⟩
  · exact ⟨_, rfl, (make_ok hp he t).1⟩

/-- Every deed but Fit ends well, and Fit too while a document is shown. -/
theorem deed_ok {p : Panel} (hp : Inv p) (d : Deed) (h : d = .fit → p.enabled = true) : ∃ p', d.run p = .ok p' ∧ Inv p' := by
  have hplane : ∀ pl, ∃ p', p.clickPlane pl = .ok p' ∧ Inv p' := by
    intro pl
    cases he : p.enabled with
    | false => exact ⟨p, inv_disabled hp he, hp⟩
    | true =>
      obtain ⟨v, l, hd⟩ := hp.shown he
      obtain ⟨p', hr, hi, -⟩ := clickPlane_ok hp he hd pl
      exact ⟨p', hr, hi⟩
  cases d with
  | plane pl => exact hplane pl
  | pageUp => exact hplane _
  | pageDown => exact hplane _
  | mesh v =>
    cases he : p.enabled with
    | false => exact ⟨p, by simpa [Deed.run, Panel.clickMesh, Panel.clickMode, Panel.clickWires] using inv_disabled hp he, hp⟩
    | true =>
      obtain ⟨_, _, hd⟩ := hp.shown he
      obtain ⟨p', hr, hi, -⟩ := clickMesh_ok hp he hd v
      exact ⟨p', hr, hi⟩
  | mode m =>
    cases he : p.enabled with
    | false => exact ⟨p, by simpa [Deed.run, Panel.clickMesh, Panel.clickMode, Panel.clickWires] using inv_disabled hp he, hp⟩
    | true =>
      obtain ⟨_, _, hd⟩ := hp.shown he
      obtain ⟨p', hr, hi, -⟩ := clickMode_ok hp he hd m
      exact ⟨p', hr, hi⟩
  | wires w =>
    cases he : p.enabled with
    | false => exact ⟨p, by simpa [Deed.run, Panel.clickMesh, Panel.clickMode, Panel.clickWires] using inv_disabled hp he, hp⟩
    | true =>
      obtain ⟨_, _, hd⟩ := hp.shown he
      obtain ⟨p', hr, hi, -⟩ := clickWires_ok hp he hd w
      exact ⟨p', hr, hi⟩
  | fit =>
    have he := h rfl
    obtain ⟨_, _, hd⟩ := hp.shown he
    obtain ⟨p', hr, hi, -⟩ := clickFit_ok hp hd he
    exact ⟨p', hr, hi⟩
  | navigated t =>
    cases he : p.enabled with
    | false => exact ⟨p, by simp [Deed.run, he], hp⟩
    | true =>
      obtain ⟨p', hr, hi⟩ := nav_ok hp he t
      exact ⟨p', by simpa [Deed.run, he] using hr, hi⟩
  | edited t =>
    cases he : p.enabled with
    | false => exact ⟨p, by simp [Deed.run, he], hp⟩
    | true => exact ⟨p.makeCurrentStateView t, by simp [Deed.run, he], (make_ok hp he t).1⟩
  | file accepted =>
    cases accepted with
    | none => exact ⟨_, rfl, inv_clear hp⟩
    | some t =>
      obtain ⟨p', hr, hi, -⟩ := openFile_ok hp t
      exact ⟨p', hr, hi⟩

theorem fit_crashes {p : Panel} (hp : Inv p) (he : p.enabled = false) : Deed.fit.run p = .error .outOfRange := by
  show (p.fit >>= _) = _
  have : p.fit = .error .outOfRange := by simp [Panel.fit, Panel.onProcessing, hp.blank he]
  rw [this]
  rfl

theorem reached_inv {p : Panel} (h : Reached p) : Inv p := by
  induction h with
  | made => exact inv_made
  | @did p p' d h hr ih =>
    have hf : d = .fit → p.enabled = true := by
      rintro rfl
      cases he : p.enabled with
      | true => rfl
      | false => rw [fit_crashes ih he] at hr; cases hr
    obtain ⟨p'', hr', hi⟩ := deed_ok ih d hf
    rw [hr] at hr'
    cases hr'
    exact hi

theorem enabled_of_display {p : Panel} (hp : Inv p) {v : Plane → MeshVisibility} {l : ProcessingLook} (h : OnDisplay p v l) :
    p.enabled = true := by
  cases he : p.enabled with
  | true => rfl
  | false =>
    obtain ⟨t, -, h2, -⟩ := h
    rw [hp.blank he] at h2
    cases h2

/-- C129, partial. Whatever was done before, every button, key and navigation, every edition and every file ends well, except
Fit, and Fit too while a document is shown. Missing: Fit when none is shown, see `C129_false`. -/
theorem C129_partial {p : Panel} (h : Reached p) : (∀ d : Deed, d ≠ .fit → ∃ p', d.run p = .ok p') ∧
    ((∃ v l, OnDisplay p v l) → ∀ d : Deed, ∃ p', d.run p = .ok p') := by
  have hi := reached_inv h
  refine ⟨fun d hd => ?_, fun ⟨v, l, hv⟩ d => ?_⟩
  · obtain ⟨p', hr, -⟩ := deed_ok hi d (fun h => absurd h hd)
    exact ⟨p', hr⟩
  · obtain ⟨p', hr, -⟩ := deed_ok hi d (fun _ => enabled_of_display hi hv)
    exact ⟨p', hr⟩

/-- Of `C129_partial`: a window with nothing shown, one with a document. -/
example : (Reached .made ∧ ¬ ∃ v l, OnDisplay .made v l) ∧ ∃ p, Reached p ∧ ∃ v l, OnDisplay p v l := by
  obtain ⟨p', hr, -, hd, -⟩ := openFile_ok inv_made 1
  exact ⟨⟨.made, fun ⟨_, _, t, h, _⟩ => by cases h⟩, p', .did (d := .file (some 1)) .made hr, _, _, hd⟩

/-- C129 is false: Fit is never disabled, and throws whenever no document is shown, so in a window that was opened without a
file, and after a file that is refused, whatever was done before. -/
theorem C129_false : (∀ p, Reached p → (¬ ∃ v l, OnDisplay p v l) → Deed.fit.run p = .error .outOfRange) ∧
    Reached .made ∧ (¬ ∃ v l, OnDisplay .made v l) ∧
    (∀ p, Reached p → ∃ p', Deed.run p (.file none) = .ok p' ∧ Reached p' ∧ ¬ ∃ v l, OnDisplay p' v l) := by
  refine ⟨fun p h hd => ?_, .made, fun ⟨_, _, t, h, _⟩ => (by cases h), fun p h => ?_⟩
  · have hi := reached_inv h
    cases he : p.enabled with
    | false => exact fit_crashes hi he
    | true => exact absurd (hi.shown he) hd
  · exact ⟨_, rfl, .did (d := .file none) h rfl, fun ⟨_, _, t, h, _⟩ => by cases h⟩

/-! ## C127 -/

theorem said_of {p : Panel} {v : Plane → MeshVisibility} {l : ProcessingLook} (h : OnDisplay p v l) :
    (MeshSaid p ↔ ∀ pl, v pl = p.checked.mesh) ∧ (ModeSaid p ↔ l.mode = p.checked.mode) ∧
    (PlaneShared p ↔ l.plane = p.displayedPlane) ∧
    (AxesShared p ↔ ∀ pl a, l.flags a = (v pl).group a ∧ p.flags a = (v pl).group a) := by
  refine ⟨⟨fun k => k v l h, fun k v' l' h' => ?_⟩, ⟨fun k => k v l h, fun k v' l' h' => ?_⟩, ⟨fun k => k v l h, fun k v' l' h' => ?_⟩,
    ⟨fun k => k v l h, fun k v' l' h' => ?_⟩⟩ <;> obtain ⟨rfl, rfl⟩ := onDisplay_unique h h' <;> exact k

theorem scenes_of {p : Panel} {v : Plane → MeshVisibility} {l : ProcessingLook} (h : OnDisplay p v l) :
    p.structureScene = some v ∧ p.processingScene = some l := by
  obtain ⟨t, h1, h2, h3, h4⟩ := h
  exact ⟨by simp [Panel.structureScene, h1, h3], by simp [Panel.processingScene, h2, h4]⟩

/-- What a new timepoint is shown as. -/
theorem make_new {p : Panel} (hp : Inv p) {v : Plane → MeshVisibility} {l : ProcessingLook} (h : OnDisplay p v l) {t : Addr}
    (hu : Unseen p t) : OnDisplay (p.makeCurrentStateView t) (fun _ => v p.displayedPlane)
      ⟨l.mode, p.displayedPlane, p.flags, p.wires⟩ := by
  have := (make_ok hp (enabled_of_display hp h) t).2.1
  rw [hu.1, hu.2, (scenes_of h).1, (scenes_of h).2, hp.member] at this
  exact this

theorem nav_new {p : Panel} {t : Addr} (hu : Unseen p t) : p.goToOrMakeCurrentState t = .ok (p.makeCurrentStateView t) := by
  simp [Panel.goToOrMakeCurrentState, hu.1]

/-- C127, partial. While a document is shown, the button of the plane that is checked is the plane shown, and that of the wires
the style of all the wires, whatever was done before. That the buttons of the mesh and of the display mode are right is kept by
whatever is done with the document, undo and redo included; it is so once a button of their group was clicked, or once
a timepoint was gone back to. After opening a file, they are right exactly when they are those of a new window. Missing:
the other files, see `C127_false`. -/
theorem C127_partial {p : Panel} (h : Reached p) {v : Plane → MeshVisibility} {l : ProcessingLook} (hd : OnDisplay p v l) :
    p.checked.plane = p.displayedPlane ∧ p.checked.wires = l.wires ∧ (∀ x ∈ p.processings, x.2.wires = p.checked.wires) ∧
    (∀ (d : Deed) p', d.run p = .ok p' → Working p d → (MeshSaid p → MeshSaid p') ∧ (ModeSaid p → ModeSaid p')) ∧
    (∀ m p', Deed.run p (.mesh m) = .ok p' → MeshSaid p' ∧ p'.checked = { p.checked with mesh := m }) ∧
    (∀ m p', Deed.run p (.mode m) = .ok p' → ModeSaid p' ∧ p'.checked = { p.checked with mode := m }) ∧
    (∀ t p', (p.structures.lookup t).isSome → (p.processings.lookup t).isSome → Deed.run p (.navigated t) = .ok p' →
      MeshSaid p' ∧ ModeSaid p') ∧
    (∀ t p', Deed.run p (.file (some t)) = .ok p' →
      (MeshSaid p' ↔ p.checked.mesh = .full) ∧ (ModeSaid p' ↔ p.checked.mode = .selectedChain)) := by
  have hi := reached_inv h
  have he := enabled_of_display hi hd
  obtain ⟨hmesh, hmode, -, -⟩ := said_of hd
  have hwires : l.wires = p.wires := by
    obtain ⟨t, -, -, -, h4⟩ := hd
    exact hi.allWires _ (mem_of_lookup h4)
  have hgo : ∀ t p', (p.structures.lookup t).isSome → (p.processings.lookup t).isSome → Deed.run p (.navigated t) = .ok p' →
      MeshSaid p' ∧ ModeSaid p' := by
    intro t p' k1 k2 hr
    obtain ⟨v', k1⟩ := Option.isSome_iff_exists.mp k1
    obtain ⟨l', k2⟩ := Option.isSome_iff_exists.mp k2
    obtain ⟨p'', hr', -, hd', hc, -⟩ := goTo_ok hi he k1 k2
    have : p' = p'' := by
      simp only [Deed.run, he, if_true, Panel.goToOrMakeCurrentState, k1, k2, Option.isSome_some, Bool.and_self, hr'] at hr
      cases hr; rfl
    subst this
    refine ⟨(said_of hd').1.mpr fun pl => ?_, (said_of hd').2.1.mpr (by rw [hc])⟩
    rw [hc]
    exact hi.uniform _ (mem_of_lookup k1) pl .yz
  have hplane : ∀ pl p', p.clickPlane pl = .ok p' → (MeshSaid p → MeshSaid p') ∧ (ModeSaid p → ModeSaid p') := by
    intro pl p' hr
    obtain ⟨p'', hr', -, hd', hc, -⟩ := clickPlane_ok hi he hd pl
    rw [hr'] at hr
    cases hr
    rw [hmesh, hmode, (said_of hd').1, (said_of hd').2.1, hc]
    exact ⟨id, id⟩
  have hmake : ∀ t, Unseen p t → (MeshSaid p → MeshSaid (p.makeCurrentStateView t)) ∧
      (ModeSaid p → ModeSaid (p.makeCurrentStateView t)) := by
    intro t hu
    have hd' := make_new hi hd hu
    rw [hmesh, hmode, (said_of hd').1, (said_of hd').2.1]
    exact ⟨fun k _ => k _, id⟩
  have hsetmesh : ∀ m p', Deed.run p (.mesh m) = .ok p' → MeshSaid p' ∧ (ModeSaid p → ModeSaid p') ∧
      p'.checked = { p.checked with mesh := m } := by
    intro m p' hr
    obtain ⟨p'', hr', -, hd', hc, -⟩ := clickMesh_ok hi he hd m
    have : p' = p'' := by rw [show Deed.run p (.mesh m) = p.clickMesh m from rfl, hr'] at hr; cases hr; rfl
    subst this
    exact ⟨(said_of hd').1.mpr fun _ => by rw [hc], fun k => (said_of hd').2.1.mpr (by rw [hc]; exact hmode.mp k), hc⟩
  have hsetmode : ∀ m p', Deed.run p (.mode m) = .ok p' → ModeSaid p' ∧ (MeshSaid p → MeshSaid p') ∧
      p'.checked = { p.checked with mode := m } := by
    intro m p' hr
    obtain ⟨p'', hr', -, hd', hc, -⟩ := clickMode_ok hi he hd m
    have : p' = p'' := by rw [show Deed.run p (.mode m) = p.clickMode m from rfl, hr'] at hr; cases hr; rfl
    subst this
    exact ⟨(said_of hd').2.1.mpr (by rw [hc]), fun k => (said_of hd').1.mpr (by rw [hc]; exact hmesh.mp k), hc⟩
  refine ⟨hi.plane, hi.wires.trans hwires.symm, fun x hx => (hi.allWires x hx).trans hi.wires.symm, ?_,
    fun m p' hr => ⟨(hsetmesh m p' hr).1, (hsetmesh m p' hr).2.2⟩, fun m p' hr => ⟨(hsetmode m p' hr).1, (hsetmode m p' hr).2.2⟩,
    hgo, ?_⟩
  · intro d p' hr hw
    cases d with
    | plane pl => exact hplane pl p' hr
    | pageUp => exact hplane _ p' hr
    | pageDown => exact hplane _ p' hr
    | mesh m => exact ⟨fun _ => (hsetmesh m p' hr).1, (hsetmesh m p' hr).2.1⟩
    | mode m => exact ⟨(hsetmode m p' hr).2.1, fun _ => (hsetmode m p' hr).1⟩
    | wires w =>
      obtain ⟨p'', hr', -, hd', hc, -⟩ := clickWires_ok hi he hd w
      have : p' = p'' := by rw [show Deed.run p (.wires w) = p.clickWires w from rfl, hr'] at hr; cases hr; rfl
      subst this
      rw [hmesh, hmode, (said_of hd').1, (said_of hd').2.1, hc]
      exact ⟨id, id⟩
    | fit =>
      obtain ⟨p'', hr', -, hd', hc, -⟩ := clickFit_ok hi hd he
      have : p' = p'' := by rw [show Deed.run p .fit = p.clickFit from rfl, hr'] at hr; cases hr; rfl
      subst this
      rw [hmesh, hmode, (said_of hd').1, (said_of hd').2.1, hc]
      exact ⟨id, id⟩
    | navigated t =>
      cases hu : (p.structures.lookup t).isSome with
      | true =>
        obtain ⟨k1, k2⟩ := hgo t p' hu ((hi.both t).symm.trans hu) hr
        exact ⟨fun _ => k1, fun _ => k2⟩
      | false =>
        have hu' : Unseen p t := ⟨Option.not_isSome_iff_eq_none.mp (by rw [hu]; decide),
          Option.not_isSome_iff_eq_none.mp (by rw [← hi.both t, hu]; decide)⟩
        rw [show Deed.run p (.navigated t) = p.goToOrMakeCurrentState t by simp [Deed.run, he], nav_new hu'] at hr
        cases hr
        exact hmake t hu'
    | edited t =>
      simp only [Deed.run, he, if_true, Except.ok.injEq] at hr
      subst hr
      exact hmake t hw
    | file a => exact absurd hw id
  · intro t p' hr
    obtain ⟨p'', hr', -, hd', hc, -⟩ := openFile_ok hi t
    have : p' = p'' := by rw [show Deed.run p (.file (some t)) = p.openFile (some t) from rfl, hr'] at hr; cases hr; rfl
    subst this
    rw [(said_of hd').1, (said_of hd').2.1, hc]
    exact ⟨⟨fun k => (k .xy).symm, fun k _ => k.symm⟩, ⟨fun k => k.symm, fun k => k.symm⟩⟩

/-- The keys go round the three planes, one the other way of the other. -/
theorem C127_keys {p : Panel} (h : Reached p) {v : Plane → MeshVisibility} {l : ProcessingLook} (hd : OnDisplay p v l) :
    (∃ p', runDeeds [.pageUp, .pageDown] p = .ok p' ∧ p'.displayedPlane = p.displayedPlane) ∧
    (∃ p', runDeeds [.pageUp, .pageUp, .pageUp] p = .ok p' ∧ p'.displayedPlane = p.displayedPlane) ∧
    (∀ pl, ∃ ds p', (∀ d ∈ ds, d = .pageUp) ∧ runDeeds ds p = .ok p' ∧ p'.displayedPlane = pl ∧ p'.checked.plane = pl) := by
  have hi := reached_inv h
  have he := enabled_of_display hi hd
  obtain ⟨p1, r1, i1, d1, c1, e1, -, n1⟩ := clickPlane_ok hi he hd (Panel.planeUp p.checked.plane)
  obtain ⟨p2, r2, i2, d2, c2, e2, -, n2⟩ := clickPlane_ok i1 n1 d1 (Panel.planeUp p1.checked.plane)
  obtain ⟨p3, r3, i3, d3, c3, e3, -, n3⟩ := clickPlane_ok i2 n2 d2 (Panel.planeUp p2.checked.plane)
  obtain ⟨q, rq, iq, dq, cq, eq, -, nq⟩ := clickPlane_ok i1 n1 d1 (Panel.planeDown p1.checked.plane)
  have s1 : Deed.pageUp.run p = .ok p1 := r1
  have s2 : Deed.pageUp.run p1 = .ok p2 := r2
  have s3 : Deed.pageUp.run p2 = .ok p3 := r3
  have sq : Deed.pageDown.run p1 = .ok q := rq
  have hc1 : p1.checked.plane = Panel.planeUp p.checked.plane := by rw [c1]
  have hc2 : p2.checked.plane = Panel.planeUp p1.checked.plane := by rw [c2]
  have hc3 : p3.checked.plane = Panel.planeUp p2.checked.plane := by rw [c3]
  have h3 : p3.displayedPlane = p.displayedPlane := by
    rw [e3, hc2, hc1, ← hi.plane]
    cases p.checked.plane <;> rfl
  have t1 : runDeeds [.pageUp] p = .ok p1 := by simp [runDeeds, s1, bind, Except.bind]
  have t2 : runDeeds [.pageUp, .pageUp] p = .ok p2 := by simp [runDeeds, s1, s2, bind, Except.bind]
  have t3 : runDeeds [.pageUp, .pageUp, .pageUp] p = .ok p3 := by simp [runDeeds, s1, s2, s3, bind, Except.bind]
  refine ⟨⟨q, by simp [runDeeds, s1, sq, bind, Except.bind], ?_⟩, ⟨p3, t3, h3⟩, fun pl => ?_⟩
  · rw [eq, hc1, ← hi.plane]
    cases p.checked.plane <;> rfl
  · have hcase : pl = p1.displayedPlane ∨ pl = p2.displayedPlane ∨ pl = p3.displayedPlane := by
      rw [e1, e2, e3, hc2, hc1]
      cases p.checked.plane <;> cases pl <;> decide
    rcases hcase with rfl | rfl | rfl
    · exact ⟨[.pageUp], p1, by simp, t1, rfl, i1.plane⟩
    · exact ⟨[.pageUp, .pageUp], p2, by simp, t2, rfl, i2.plane⟩
    · exact ⟨[.pageUp, .pageUp, .pageUp], p3, by simp, t3, rfl, i3.plane⟩

/-- A session: a document at timepoint 1. -/
theorem first_reached : ∃ p, Reached p ∧ OnDisplay p (fun _ => .full) ⟨.selectedChain, .xy, fun _ => true, .curved⟩ ∧
    p.checked = .made := by
  obtain ⟨p, hr, -, hd, hc, -⟩ := openFile_ok inv_made 1
  exact ⟨p, .did (d := .file (some 1)) .made hr, hd, hc⟩

/-- Of `C127_partial` and `C127_keys`: a document is shown, the buttons are right. -/
example : ∃ p v l, Reached p ∧ OnDisplay p v l ∧ MeshSaid p ∧ ModeSaid p := by
  obtain ⟨p, h, hd, hc⟩ := first_reached
  exact ⟨p, _, _, h, hd, (said_of hd).1.mpr fun _ => by rw [hc]; rfl, (said_of hd).2.1.mpr (by rw [hc]; rfl)⟩

/-- C127 is false: a document is shown without its mesh and with all its nodes, as the buttons say, then another file is
opened: the buttons stay checked, but the mesh is shown whole, and only the selected chain. -/
theorem C127_false : ∃ p p', Reached p ∧ MeshSaid p ∧ ModeSaid p ∧ Deed.run p (.file (some 2)) = .ok p' ∧
    p'.checked.mesh = .none ∧ p'.checked.mode = .everything ∧
    OnDisplay p' (fun _ => .full) ⟨.selectedChain, .xy, fun _ => false, .curved⟩ := by
  obtain ⟨p, h, hd, hc⟩ := first_reached
  have hi := reached_inv h
  obtain ⟨p1, r1, i1, d1, c1, e1, f1, n1⟩ := clickMesh_ok hi (enabled_of_display hi hd) hd .none
  obtain ⟨p2, r2, i2, d2, c2, e2, f2, n2⟩ := clickMode_ok i1 n1 d1 .everything
  obtain ⟨p3, r3, i3, d3, c3, -⟩ := openFile_ok i2 2
  have h2 : Reached p2 := .did (d := .mode .everything) (.did (d := .mesh .none) h r1) r2
  refine ⟨p2, p3, h2, (said_of d2).1.mpr fun _ => by rw [c2, c1], (said_of d2).2.1.mpr (by rw [c2]), r3, by rw [c3, c2, c1],
    by rw [c3, c2], ?_⟩
  have hp : p2.plane = .xy := by rw [i2.member, e2, e1, ← hi.plane, hc]; rfl
  have hw : p2.wires = .curved := by rw [← i2.wires, c2, c1, hc]; rfl
  have hf : p2.flags = fun _ => false := by rw [f2, f1]; funext a; cases a <;> rfl
  rw [hp, hw, hf] at d3
  exact d3

/-! ## C128 -/

theorem flags_group (m : MeshVisibility) (a : ViewAxis) : m.flags a = m.group a := by cases m <;> cases a <;> rfl

/-- C128, partial. That the processing view was told the plane of the structure view, and the axes of the lines that it shows, is
kept by whatever is done with the document without going back to a timepoint; it is so once a button of the plane, or of the
mesh, was clicked. A timepoint shown for the first time, and a file opened, is told the plane; a file opened, the axes when the
last button of the mesh clicked was that of the whole mesh. Missing: the timepoints gone back to, and the other files, see
`C128_false`. -/
theorem C128_partial {p : Panel} (h : Reached p) {v : Plane → MeshVisibility} {l : ProcessingLook} (hd : OnDisplay p v l) :
    (∀ (d : Deed) p', d.run p = .ok p' → Forward p d → (PlaneShared p → PlaneShared p') ∧ (AxesShared p → AxesShared p')) ∧
    (∀ pl p', Deed.run p (.plane pl) = .ok p' → PlaneShared p' ∧ p'.displayedPlane = pl) ∧
    (∀ m p', Deed.run p (.mesh m) = .ok p' → AxesShared p') ∧
    (∀ t p', Unseen p t → (Deed.run p (.edited t) = .ok p' ∨ Deed.run p (.navigated t) = .ok p') → PlaneShared p') ∧
    (∀ t p', Deed.run p (.file (some t)) = .ok p' → PlaneShared p' ∧ (AxesShared p' ↔ ∀ a, p.flags a = true)) := by
  have hi := reached_inv h
  have he := enabled_of_display hi hd
  obtain ⟨-, -, hplane, haxes⟩ := said_of hd
  have hclick : ∀ pl p', p.clickPlane pl = .ok p' → PlaneShared p' ∧ p'.displayedPlane = pl ∧ (AxesShared p → AxesShared p') := by
    intro pl p' hr
    obtain ⟨p'', hr', -, hd', -, hc, hf, -⟩ := clickPlane_ok hi he hd pl
    rw [hr'] at hr
    cases hr
    rw [haxes, (said_of hd').2.2.1, (said_of hd').2.2.2, hc, hf]
    exact ⟨rfl, rfl, id⟩
  have hmake : ∀ t, Unseen p t → PlaneShared (p.makeCurrentStateView t) ∧ (AxesShared p → AxesShared (p.makeCurrentStateView t)) := by
    intro t hu
    have hd' := make_new hi hd hu
    rw [haxes, (said_of hd').2.2.1, (said_of hd').2.2.2]
    exact ⟨rfl, fun k pl a => ⟨(k _ a).2, (k _ a).2⟩⟩
  have hset : ∀ m p', Deed.run p (.mesh m) = .ok p' → AxesShared p' ∧ (PlaneShared p → PlaneShared p') := by
    intro m p' hr
    obtain ⟨p'', hr', -, hd', -, hc, hf, -⟩ := clickMesh_ok hi he hd m
    have : p' = p'' := by rw [show Deed.run p (.mesh m) = p.clickMesh m from rfl, hr'] at hr; cases hr; rfl
    subst this
    rw [hplane, (said_of hd').2.2.1, (said_of hd').2.2.2, hc, hf]
    exact ⟨fun _ a => ⟨flags_group m a, flags_group m a⟩, id⟩
  refine ⟨?_, fun pl p' hr => ⟨(hclick pl p' hr).1, (hclick pl p' hr).2.1⟩, fun m p' hr => (hset m p' hr).1, ?_, ?_⟩
  · intro d p' hr hw
    cases d with
    | plane pl => exact ⟨fun _ => (hclick pl p' hr).1, (hclick pl p' hr).2.2⟩
    | pageUp => exact ⟨fun _ => (hclick _ p' hr).1, (hclick _ p' hr).2.2⟩
    | pageDown => exact ⟨fun _ => (hclick _ p' hr).1, (hclick _ p' hr).2.2⟩
    | mesh m => exact ⟨(hset m p' hr).2, fun _ => (hset m p' hr).1⟩
    | mode m =>
      obtain ⟨p'', hr', -, hd', -, hc, hf, -⟩ := clickMode_ok hi he hd m
      have : p' = p'' := by rw [show Deed.run p (.mode m) = p.clickMode m from rfl, hr'] at hr; cases hr; rfl
      subst this
      rw [hplane, haxes, (said_of hd').2.2.1, (said_of hd').2.2.2, hc, hf]
      exact ⟨id, id⟩
    | wires w =>
      obtain ⟨p'', hr', -, hd', -, hc, hf, -⟩ := clickWires_ok hi he hd w
      have : p' = p'' := by rw [show Deed.run p (.wires w) = p.clickWires w from rfl, hr'] at hr; cases hr; rfl
      subst this
      rw [hplane, haxes, (said_of hd').2.2.1, (said_of hd').2.2.2, hc, hf]
      exact ⟨id, id⟩
    | fit =>
      obtain ⟨p'', hr', -, hd', -, hc, hf, -⟩ := clickFit_ok hi hd he
      have : p' = p'' := by rw [show Deed.run p .fit = p.clickFit from rfl, hr'] at hr; cases hr; rfl
      subst this
      rw [hplane, haxes, (said_of hd').2.2.1, (said_of hd').2.2.2, hc, hf]
      exact ⟨id, id⟩
    | navigated t =>
      rw [show Deed.run p (.navigated t) = p.goToOrMakeCurrentState t by simp [Deed.run, he], nav_new hw] at hr
      cases hr
      exact ⟨fun _ => (hmake t hw).1, (hmake t hw).2⟩
    | edited t =>
      simp only [Deed.run, he, if_true, Except.ok.injEq] at hr
      subst hr
      exact ⟨fun _ => (hmake t hw).1, (hmake t hw).2⟩
    | file a => exact absurd hw id
  · rintro t p' hu (hr | hr)
    · simp only [Deed.run, he, if_true, Except.ok.injEq] at hr
      subst hr
      exact (hmake t hu).1
    · rw [show Deed.run p (.navigated t) = p.goToOrMakeCurrentState t by simp [Deed.run, he], nav_new hu] at hr
      cases hr
      exact (hmake t hu).1
  · intro t p' hr
    obtain ⟨p'', hr', -, hd', -, hc, hf, -⟩ := openFile_ok hi t
    have : p' = p'' := by rw [show Deed.run p (.file (some t)) = p.openFile (some t) from rfl, hr'] at hr; cases hr; rfl
    subst this
    rw [(said_of hd').2.2.1, (said_of hd').2.2.2, hc, hf]
    exact ⟨hi.member, fun k a => (k .xy a).1, fun k _ a => ⟨k a, k a⟩⟩

/-- Of `C128_partial`: a document is shown, the views agree, and there are timepoints not seen. -/
example : ∃ p v l, Reached p ∧ OnDisplay p v l ∧ PlaneShared p ∧ AxesShared p ∧ ∃ t, Unseen p t := by
  obtain ⟨p, hr, -, hd, hc, he, hf, -⟩ := openFile_ok inv_made 1
  refine ⟨p, _, _, .did (d := .file (some 1)) .made hr, hd, (said_of hd).2.2.1.mpr (by rw [he]; rfl),
    (said_of hd).2.2.2.mpr fun _ a => ⟨rfl, by rw [hf]; rfl⟩, 2, ?_⟩
  have : p = { Panel.made with
      structures := [(1, fun _ => .full)], structureCurrent := some 1
      processings := [(1, ⟨.selectedChain, .xy, fun _ => true, .curved⟩)], processingCurrent := some 1, enabled := true } := by
    have := hr.symm.trans (show Panel.openFile .made (some 1) = .ok { Panel.made with
      structures := [(1, fun _ => .full)], structureCurrent := some 1
      processings := [(1, ⟨.selectedChain, .xy, fun _ => true, .curved⟩)], processingCurrent := some 1, enabled := true } from rfl)
    exact Except.ok.inj this
  subst this
  exact ⟨rfl, rfl⟩

/-- A mesh shown whole, on every plane. -/
def whole : Plane → MeshVisibility := fun _ => .full

/-- Deeds that do not fail lead from what was reached to what is reached. -/
theorem reached_deeds {ds : List Deed} {p p' : Panel} (h : Reached p) (hr : runDeeds ds p = .ok p') : Reached p' := by
  induction ds generalizing p with
  | nil => cases hr; exact h
  | cons d ds ih =>
    rw [show runDeeds (d :: ds) p = (d.run p >>= runDeeds ds) from rfl] at hr
    cases e : d.run p with
    | error x => rw [e] at hr; cases hr
    | ok q => rw [e] at hr; exact ih (.did h e) hr

/-- C128 is false. The whole plane is shown in the processing view; a second timepoint is made, there the plane yz is chosen, then
the first timepoint is gone back to: the structure view shows yz, the processing view the items of xy. And when it is the mesh that
is hidden at the second timepoint, and a third is made from the first gone back to, the structure view shows the whole mesh and the
processing view no axis. -/
theorem C128_false :
    (∃ p l, Reached p ∧ runDeeds [.file (some 1), .mode .structureView, .edited 2, .plane .yz, .navigated 1] .made = .ok p ∧
      OnDisplay p whole l ∧ p.displayedPlane = .yz ∧ l.mode = .structureView ∧ l.plane = .xy ∧ ¬ PlaneShared p) ∧
    (∃ p l, Reached p ∧
      runDeeds [.file (some 1), .mode .structureView, .edited 2, .mesh .none, .navigated 1, .edited 3] .made = .ok p ∧
      OnDisplay p whole l ∧ l.mode = .structureView ∧ (∀ a, l.flags a = false) ∧ ¬ AxesShared p) := by
  constructor
  · refine ⟨_, ⟨.structureView, .xy, fun _ => true, .curved⟩, reached_deeds
      (ds := [.file (some 1), .mode .structureView, .edited 2, .plane .yz, .navigated 1]) .made rfl, rfl, ⟨1, rfl, rfl, rfl, rfl⟩, rfl, rfl, rfl,
      fun h => ?_⟩
    have := h whole ⟨.structureView, .xy, fun _ => true, .curved⟩ ⟨1, rfl, rfl, rfl, rfl⟩
    exact absurd this (by decide)
  · refine ⟨_, ⟨.structureView, .xy, MeshVisibility.none.flags, .curved⟩, reached_deeds
      (ds := [.file (some 1), .mode .structureView, .edited 2, .mesh .none, .navigated 1, .edited 3]) .made rfl, rfl, ⟨3, rfl, rfl, rfl, rfl⟩, rfl,
      fun a => by cases a <;> rfl, fun h => ?_⟩
    have := (h whole ⟨.structureView, .xy, MeshVisibility.none.flags, .curved⟩ ⟨3, rfl, rfl, rfl, rfl⟩ .xy .h).1
    exact absurd this (by decide)

end Verif.Props.Show
