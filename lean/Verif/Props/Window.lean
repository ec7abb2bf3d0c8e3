import Verif.Lemmas.Window
import Verif.Props.History

/-! # C97, C98, C99: the window and the history -/

namespace Verif.Props
open Verif Spec TreeNode

variable {σ : Type}

/-- The window after each press. -/
structure Tidy (m : Window σ) : Prop where
  reachable : Reachable m.world
  anchored : Anchored m.world
  pinned : m.world.care.current ∈ m.world.care.pinned
  same : m.structureView = m.processingView
  board : m.structureView.hasBoard = true
  shown : m.structureView.current = some m.world.care.current
  has : m.structureView.contains m.world.care.current = true
  keys : ∀ t, m.structureView.contains t = true → t ∈ m.world.care.pinned
  connected : ∀ t, t ∈ m.connected ↔ m.structureView.contains t = true

/-- Every kept scene shows object `i` as it shows at the timepoint of the scene. -/
def Coherent (i : Nat) (m : Window σ) : Prop :=
  ∀ t S v, m.structureView.scenes.lookup t = some S → S i = some v → Saw i t (some v) [] m.world

theorem draw_saw {w : World σ Step} (hr : Reachable w) {i : Nat} {v : σ} (h : drawScene w i = some v) :
    Saw i w.care.current (some v) [] w := by
  have hw := reachable_inv hr
  simp only [drawScene] at h
  split at h
  · rename_i hi
    cases ho : w.objs i with
    | none => simp [World.getCurrentState, ho] at h
    | some o =>
      have hreg : Registered w i o := ⟨hi, ho⟩
      obtain ⟨v', h1, h2⟩ := reads_eq hw hreg
      have : v' = v := by
        simp only [reads] at h2
        obtain ⟨r, h3, h4⟩ := except_map_ok h2
        rw [h3] at h
        simpa [h4] using h
      subst this
      exact ⟨live_iff.mpr hw.current, ⟨o, hreg, h1, by simp⟩, by simp⟩
  · cases h

theorem saw_reads {w : World σ Step} (hr : Reachable w) {i : Nat} {v : σ} (h : Saw i w.care.current (some v) [] w) :
    reads w i = .ok v := by
  obtain ⟨o, h1, h2, _⟩ := h.reg
  obtain ⟨v', h3, h4⟩ := reads_eq (reachable_inv hr) h1
  rw [h3] at h2; cases h2
  exact h4

theorem draw_complete {w : World σ Step} (hr : Reachable w) {i : Nat} {o : Originator σ} (h : Registered w i o) :
    ∃ v, drawScene w i = some v ∧ reads w i = .ok v := by
  obtain ⟨v, _, h2⟩ := reads_eq (reachable_inv hr) h
  refine ⟨v, ?_, h2⟩
  simp only [reads] at h2
  obtain ⟨r, h3, h4⟩ := except_map_ok h2
  simp only [drawScene, if_pos h.1, h3, h4]

theorem emplace_lookup (v : View σ) (t u : Addr) (S : Scene σ) :
    (v.emplace t S).scenes.lookup u = if v.contains u then v.scenes.lookup u else if u = t then some S else none := by
  unfold View.emplace View.contains
  by_cases hu : u = t
  · subst hu
    cases hl : v.scenes.lookup u <;> simp [hl, List.lookup_append, List.lookup]
  · have hne : (u == t) = false := by simpa using hu
    cases hl : v.scenes.lookup u <;> by_cases hc : (List.lookup t v.scenes).isSome <;>
      simp [hl, hu, hc, hne, List.lookup_append, List.lookup]

theorem emplace_contains (v : View σ) (t u : Addr) (S : Scene σ) :
    (v.emplace t S).contains u = true ↔ v.contains u = true ∨ u = t := by
  unfold View.contains
  rw [emplace_lookup]
  unfold View.contains
  by_cases h1 : (List.lookup u v.scenes).isSome = true
  · simp [h1]
  · by_cases h2 : u = t
    · rw [if_neg h1, if_pos h2]; simp [h2]
    · simp [h1, h2]

/-- What a press leaves, `w` being the world before. -/
structure Pushed (P : List (Op σ Step) → Prop) (m m' : Window σ) : Prop where
  tidy : Tidy m'
  grown : Grown m.world m'.world
  kept : ∀ t S, m.structureView.scenes.lookup t = some S → m'.structureView.scenes.lookup t = some S
  coherent : ∀ i, (∀ ops, P ops → SetsAtMade [] ops ∧ .destroy i ∉ ops) → Coherent i m → Coherent i m'
  drawn : m.structureView.contains m'.world.care.current = false → ∀ i o, Registered m'.world i o →
    ∃ S v, m'.structureView.displayed = some S ∧ S i = some v ∧ reads m'.world i = .ok v

/-- Drawing the current timepoint. -/
theorem make_pushed {P : List (Op σ Step) → Prop} {on : Bool} {m : Window σ} {w : World σ Step} (hs : m.structureView = m.processingView)
    (hb : m.structureView.hasBoard = true) (hk : ∀ t, m.structureView.contains t = true → t ∈ m.world.care.pinned)
    (hc : ∀ t, t ∈ m.connected ↔ m.structureView.contains t = true) (p : Path P on m.world w) :
    Pushed P m ({ m with world := w } : Window σ).makeCurrentStateView := by
  have pp := pin_path (P := P) p.reachable p.anchored
  have p2 := p.weaken.trans pp.weaken
  obtain ⟨q1, q2⟩ := pinCurrent_mem w
  have hcont := emplace_contains m.structureView w.pinCurrent.care.current (S := drawScene w.pinCurrent)
  have hlook := emplace_lookup m.structureView w.pinCurrent.care.current (S := drawScene w.pinCurrent)
  simp only [Window.makeCurrentStateView, View.makeCurrentState, ← hs, hb, if_true]
  refine ⟨⟨p2.reachable, p2.anchored, q1, rfl, ?_, rfl, ?_, ?_, ?_⟩, p2.grown, ?_, ?_, ?_⟩
  · simp only [View.emplace]; split <;> exact hb
  · exact (hcont _).mpr (.inr rfl)
  · intro t ht
    rcases (hcont t).mp ht with h | rfl
    · exact p2.grown.pinned t (hk t h)
    · exact q1
  · intro t
    rw [List.mem_append, List.mem_singleton, hc t]
    exact (hcont t).symm
  · intro t S hS
    show (m.structureView.emplace _ _).scenes.lookup t = some S
    rw [hlook, if_pos (by simp [View.contains, hS]), hS]
  · intro i hi hco t S v hS hv
    change (m.structureView.emplace _ _).scenes.lookup t = some S at hS
    rw [hlook] at hS
    split at hS
    · exact p2.seen i hi t _ (hco t S v hS hv)
    · split at hS
      · rename_i ht
        cases hS; subst ht
        exact draw_saw p2.reachable hv
      · cases hS
  · intro hn i o hr
    obtain ⟨v, h1, h2⟩ := draw_complete p2.reachable hr
    refine ⟨drawScene w.pinCurrent, v, ?_, h1, h2⟩
    simp only [View.displayed, Option.bind_some]
    rw [hlook, if_neg (by rw [hn]; simp), if_pos rfl]

theorem goOrMake_pushed {P : List (Op σ Step) → Prop} {on : Bool} {m : Window σ} {w : World σ Step} (T : Tidy m)
    (p : Path P on m.world w) : Pushed P m ({ m with world := w } : Window σ).goToOrMakeCurrentState := by
  unfold Window.goToOrMakeCurrentState
  split
  · rename_i hc
    simp only [Bool.and_eq_true] at hc
    have hlook : ∀ t, ((m.structureView.goToCurrentState w).scenes.lookup t) = m.structureView.scenes.lookup t := by
      intro t
      unfold View.goToCurrentState
      split
      · rfl
      · rw [if_pos hc.1]
    have hcur : (m.structureView.goToCurrentState w).current = some w.care.current := by
      unfold View.goToCurrentState
      split
      · assumption
      · rw [if_pos hc.1]
    have hcont : ∀ t, (m.structureView.goToCurrentState w).contains t = m.structureView.contains t := by
      intro t; unfold View.contains; rw [hlook]
    refine ⟨⟨p.reachable, p.anchored, p.grown.pinned _ (T.keys _ hc.1), ?_, ?_, hcur, ?_, ?_, ?_⟩, p.grown, ?_, ?_, ?_⟩
    · show m.structureView.goToCurrentState w = m.processingView.goToCurrentState w
      rw [T.same]
    · show (m.structureView.goToCurrentState w).hasBoard = true
      unfold View.goToCurrentState
      split
      · exact T.board
      · rw [if_pos hc.1]; exact T.board
    · exact (hcont _).trans hc.1
    · intro t ht
      exact p.grown.pinned t (T.keys t ((hcont t).symm.trans ht))
    · intro t
      exact (T.connected t).trans (by rw [← hcont t]; rfl)
    · intro t S hS
      exact (hlook t).trans hS
    · intro i hi hco t S v hS hv
      exact p.seen i hi t _ (hco t S v ((hlook t).symm.trans hS) hv)
    · intro hn
      exact absurd (hc.1.symm.trans hn) (by simp)
  · exact make_pushed T.same T.board T.keys T.connected p

theorem doesOnly_mono {P Q : List (Op σ Step) → Prop} (h : ∀ ops, P ops → Q ops)
    {f : World σ Step → Except Fault (World σ Step)} (hf : DoesOnly P f) : DoesOnly Q f := by
  intro w w' h1 h2
  obtain ⟨ops, h3, h4, h5⟩ := hf w w' h1 h2
  exact ⟨ops, h3, h4, h ops h5⟩

/-- One press. -/
theorem push_pushed {P : List (Op σ Step) → Prop} {work : App.Work σ} (hwork : ∀ s, DoesOnly P (work s)) {m m' : Window σ}
    (T : Tidy m) {b : Button σ} (hb : EditsOnly P [b]) (h : push work b m = .ok m') : Pushed P m m' := by
  cases b with
  | edit s f =>
    have hf := hb _ (List.mem_singleton.mpr rfl) s f rfl
    simp only [push, Window.handleEditionFrom] at h
    split at h
    · cases h
    · rename_i w1 h1
      split at h
      · cases h
      · rename_i w2 h2
        obtain ⟨r, h3, rfl⟩ := except_map_ok h
        have p1 := goBefore_path (P := P) T.reachable T.anchored T.pinned h1
        have p2 := p1.trans (doesOnly_path hf p1.reachable p1.anchored h2).1.weaken
        have p3 := p2.trans (run_path hwork p2.reachable p2.anchored (log := r.1) (w' := r.2) h3).weaken
        exact make_pushed T.same T.board T.keys T.connected p3
  | next =>
    obtain ⟨r, h1, rfl⟩ := except_map_ok h
    exact goOrMake_pushed T (runNextStep_path hwork T.reachable T.anchored (log := r.1) (w' := r.2) h1)
  | prev =>
    obtain ⟨w, h1, rfl⟩ := except_map_ok h
    obtain ⟨w', h2, p⟩ := goBeforePrevious_path (P := P) T.reachable T.anchored T.pinned
    rw [h1] at h2; cases h2
    exact goOrMake_pushed T p
  | undo =>
    obtain ⟨w, h1, rfl⟩ := except_map_ok h
    obtain ⟨⟨w', h2, p⟩, _⟩ := undo_path (P := P) T.reachable T.anchored T.pinned 1
    rw [h1] at h2; cases h2
    exact goOrMake_pushed T p
  | redo =>
    obtain ⟨w, h1, rfl⟩ := except_map_ok h
    obtain ⟨_, ⟨w', h2, p⟩⟩ := undo_path (P := P) T.reachable T.anchored T.pinned 1
    rw [h1] at h2; cases h2
    exact goOrMake_pushed T p

theorem reset_anchored {w w' : World σ Step} (hr : Reachable w) (h : w.reset = .ok w') : Reachable w' ∧ Anchored w' := by
  have hw := reachable_inv hr
  obtain ⟨x, xs, w2, h1, h2, h3, hg⟩ := reset_spec hw
  rw [h] at h2; cases h2
  refine ⟨.step .reset hr trivial h, ?_⟩
  intro a ha
  right
  rw [live_iff, hg.live] at ha
  obtain ⟨t, ht, hat⟩ := ha
  have hx := hw.historyHead
  rw [h1] at hx
  simp only [List.head?_cons, Option.some.injEq] at hx
  have htr : t = w.care.tree.addr := by
    rcases ht with ht | ht | ht
    · simp at ht
    · simp only [List.mem_singleton] at ht; exact ht.trans hx
    · exact ht
  have hcur : w'.care.current = w.care.tree.addr := hg.current
  have haddr : w'.care.tree.addr = w.care.tree.addr := hg.addr
  obtain ⟨l, hl, hal⟩ := ancOrSelf_iff.mp hat
  simp only [htr, chain_root] at hl
  cases hl
  rw [hcur, ← haddr, ancOrSelf_iff, chain_root]
  exact ⟨_, rfl, by simpa [haddr] using hal⟩

/-- Opening a file. -/
theorem open_tidy {P : List (Op σ Step) → Prop} {work : App.Work σ} (hwork : ∀ s, DoesOnly P (work s))
    {m m' : Window σ} {parser : World σ Step → Except Fault (Option (World σ Step))} (hr : Reachable m.world)
    (hp : DoesOnly (fun _ => True) (accepting parser))
    (h : m.openFile work parser = .ok (true, m')) :
    Tidy m' ∧ (∀ i, Coherent i m') ∧ m'.connected = [m'.world.care.current] ∧ ∀ i o, Registered m'.world i o →
      ∃ S v, m'.structureView.displayed = some S ∧ S i = some v ∧ reads m'.world i = .ok v := by
  simp only [Window.openFile] at h
  split at h
  · cases h
  · cases h
  · rename_i w hw
    obtain ⟨r, h1, h2⟩ := except_map_ok h
    cases h2
    simp only [App.parse, Window.clear] at hw
    split at hw
    · cases hw
    · rename_i w1 hreset
      obtain ⟨r1, a1⟩ := reset_anchored hr hreset
      split at hw
      · cases hw
      · cases hw
      · rename_i w2 hpar
        split at hw
        · cases hw
        · rename_i w3 hrem
          cases hw
          have p1 := (doesOnly_path hp r1 a1 (w' := w2) (by simp only [accepting, hpar])).1
          have p2 : Path (fun _ => True) true w2 w := .op p1.reachable p1.anchored (op := .remember) trivial trivial hrem
            (fun _ => by simp) trivial (fun _ => (remember_same' hrem).2.2.2.1)
          have p3 := run_path hwork p2.reachable p2.anchored (log := r.1) (w' := r.2) h1
          have key := make_pushed (P := P) (m := ⟨w, m.structureView.clear.init, m.processingView.clear.init, []⟩) (w := r.2)
            rfl rfl (by intro t ht; simp [View.contains, View.init, View.clear] at ht)
            (by intro t; simp [View.contains, View.init, View.clear]) p3
          refine ⟨key.tidy, ?_, rfl, ?_⟩
          · intro i t S v hS hv
            have : (View.emplace (⟨true, [], none⟩ : View σ) r.2.pinCurrent.care.current
              (drawScene r.2.pinCurrent)).scenes.lookup t = some S := hS
            rw [emplace_lookup] at this
            split at this
            · rename_i hc
              simp [View.contains] at hc
            · split at this
              · rename_i ht
                cases this; subst ht
                exact draw_saw key.tidy.reachable hv
              · cases this
          · exact key.drawn rfl

theorem editsOnly_mono {P Q : List (Op σ Step) → Prop} (h : ∀ ops, P ops → Q ops) {bs : List (Button σ)}
    (hb : EditsOnly P bs) : EditsOnly Q bs := fun b hm s f he => doesOnly_mono h (hb b hm s f he)

theorem opened_mono {P Q : List (Op σ Step) → Prop} (h : ∀ ops, P ops → Q ops) {work : App.Work σ} {m : Window σ}
    (hm : Opened work P m) : Opened work Q m := by
  induction hm with
  | opened h1 h2 h3 => exact .opened h1 h2 h3
  | pushed _ h2 h3 ih => exact .pushed ih (editsOnly_mono h h2) h3

theorem opened_tidy {P : List (Op σ Step) → Prop} {work : App.Work σ} (hwork : ∀ s, DoesOnly P (work s)) {m : Window σ}
    (hm : Opened work P m) : Tidy m ∧
    ∀ i, (∀ ops, P ops → SetsAtMade [] ops ∧ .destroy i ∉ ops) → Coherent i m := by
  induction hm with
  | opened h1 h2 h3 =>
    obtain ⟨k1, k2, _⟩ := open_tidy hwork h1 h2 h3
    exact ⟨k1, fun i _ => k2 i⟩
  | pushed _ h2 h3 ih =>
    have k := push_pushed hwork ih.1 h2 h3
    exact ⟨k.tidy, fun i hi => k.coherent i hi (ih.2 i hi)⟩

theorem pushes_pushed {P : List (Op σ Step) → Prop} {work : App.Work σ} (hwork : ∀ s, DoesOnly P (work s))
    {bs : List (Button σ)} {m m' : Window σ} (T : Tidy m) (hb : EditsOnly P bs) (h : pushes work bs m = .ok m') :
    Tidy m' ∧ Grown m.world m'.world ∧
    (∀ t S, m.structureView.scenes.lookup t = some S → m'.structureView.scenes.lookup t = some S) := by
  induction bs generalizing m with
  | nil => cases h; exact ⟨T, .refl _, fun _ _ h => h⟩
  | cons b bs ih =>
    simp only [pushes] at h
    split at h
    · cases h
    · rename_i m1 h1
      have k := push_pushed hwork T (fun x hx => hb x (by
        rw [List.mem_singleton] at hx; subst hx; exact List.mem_cons_self ..)) h1
      obtain ⟨k1, k2, k3⟩ := ih k.tidy (fun x hx => hb x (List.mem_cons_of_mem _ hx)) h
      exact ⟨k1, k.grown.trans k2, fun t S hS => k3 t S (k.kept t S hS)⟩

/-! ## C97 -/

/-- C97. Once a file is open, whatever is pressed and edited, no timepoint is ever freed: all those that were live stay
live, with the same ancestors and annotations; nothing the history holds dangles; a collection would free nothing; and
undoing, redoing and going before the previous step never fail. The domain needs not take care of what a collection may
free. -/
theorem C97_nothing_freed {work : App.Work σ} (hwork : ∀ s, DoesOnly (fun _ => True) (work s)) {m m' : Window σ}
    (hm : Opened work (fun _ => True) m) {bs : List (Button σ)} (hb : EditsOnly (fun _ => True) bs)
    (h : pushes work bs m = .ok m') :
    (∀ a, Live m.world a → Live m'.world a ∧
      m'.world.care.tree.ancestors a true = m.world.care.tree.ancestors a true ∧
      ∀ s, m.world.getAnnotation (some a) = some s → m'.world.getAnnotation (some a) = some s) ∧
    NothingDangles m'.world ∧
    (∃ w, m'.world.garbageCollector = .ok w ∧ ∀ a, Live w a ↔ Live m'.world a) ∧
    (∃ u, push work .undo m' = .ok u) ∧ (∃ u, push work .redo m' = .ok u) ∧ ∃ u, push work .prev m' = .ok u := by
  obtain ⟨T, g, _⟩ := pushes_pushed hwork (opened_tidy hwork hm).1 hb h
  have hw' := reachable_inv T.reachable
  obtain ⟨⟨u1, e1, _⟩, u2, e2, _⟩ := undo_path (P := fun _ => True) T.reachable T.anchored T.pinned 1
  obtain ⟨u3, e3, _⟩ := goBeforePrevious_path (P := fun _ => True) T.reachable T.anchored T.pinned
  refine ⟨?_, (C04_no_dangling_partial m'.world T.reachable).1, ?_, ?_, ?_, ?_⟩
  · intro a ha
    have hl := live_iff.mp ha
    refine ⟨live_iff.mpr (g.live hl), ?_, fun s hs => g.annotations a s hs⟩
    simp only [TreeNode.ancestors, g.chain a hl]
  · obtain ⟨w, k1, k2⟩ := gc_spec hw'
    refine ⟨w, k1, fun a => ?_⟩
    rw [live_iff, k2.live]
    refine ⟨fun hh => live_iff.mpr (Needed.live hh), fun hh => ?_⟩
    rcases T.anchored a hh with ⟨p, h1, h2⟩ | h1
    · exact ⟨p, .inl h1, h2⟩
    · exact ⟨_, .inr (.inr rfl), h1⟩
  · exact ⟨_, by simp only [push, Window.undo, e1, Except.map]; rfl⟩
  · exact ⟨_, by simp only [push, Window.redo, e2, Except.map]; rfl⟩
  · exact ⟨_, by simp only [push, Window.meshPrev, e3, Except.map]; rfl⟩

/-! ## C98 -/

/-- C98. Both views show the same scene, that of the current timepoint, and what is drawn of an object is what the object
reads now, provided states are set only at timepoints made by the same calls and the object is not destroyed. -/
theorem C98_shown {P : List (Op σ Step) → Prop} {work : App.Work σ} (hwork : ∀ s, DoesOnly P (work s)) {m : Window σ}
    (hm : Opened work P m) :
    m.structureView.current = some m.world.care.current ∧ m.processingView.current = some m.world.care.current ∧
    ∃ S, m.structureView.displayed = some S ∧ m.processingView.displayed = some S ∧
      ∀ i, (∀ ops, P ops → SetsAtMade [] ops ∧ .destroy i ∉ ops) → ∀ v, S i = some v → reads m.world i = .ok v := by
  obtain ⟨T, hc⟩ := opened_tidy hwork hm
  obtain ⟨S, hS⟩ := Option.isSome_iff_exists.mp T.has
  have hd : m.structureView.displayed = some S := by
    simp only [View.displayed, T.shown, Option.bind_some, hS]
  refine ⟨T.shown, T.same ▸ T.shown, S, hd, T.same ▸ hd, ?_⟩
  intro i hi v hv
  exact saw_reads T.reachable (hc i hi _ S v hS hv)

/-- C98. A timepoint shown for the first time, be it reached by a press or by opening a file, shows all the registered
objects. -/
theorem C98_drawn {P : List (Op σ Step) → Prop} {work : App.Work σ} (hwork : ∀ s, DoesOnly P (work s)) {m m' : Window σ} :
    (∀ b, Opened work P m → EditsOnly P [b] → push work b m = .ok m' → m'.world.care.current ∉ m.connected →
      ∀ i o, Registered m'.world i o →
        ∃ S v, m'.structureView.displayed = some S ∧ S i = some v ∧ reads m'.world i = .ok v) ∧
    ∀ parser, Reachable m.world → DoesOnly (fun _ => True) (accepting parser) → m.openFile work parser = .ok (true, m') → ∀ i o, Registered m'.world i o →
        ∃ S v, m'.structureView.displayed = some S ∧ S i = some v ∧ reads m'.world i = .ok v := by
  refine ⟨fun b hm hb h hc => ?_, fun parser h1 h2 h3 => (open_tidy hwork h1 h2 h3).2.2.2⟩
  obtain ⟨T, _⟩ := opened_tidy hwork hm
  refine (push_pushed hwork T hb h).drawn ?_
  rw [T.connected] at hc
  simpa using hc

/-- C98. Coming back to a timepoint shows the same scene again. -/
theorem C98_again {P : List (Op σ Step) → Prop} {work : App.Work σ} (hwork : ∀ s, DoesOnly P (work s)) {m m' : Window σ}
    (hm : Opened work P m) {bs : List (Button σ)} (hb : EditsOnly P bs) (h : pushes work bs m = .ok m')
    (hc : m'.world.care.current = m.world.care.current) :
    m'.structureView.displayed = m.structureView.displayed ∧ m'.processingView.displayed = m.processingView.displayed := by
  obtain ⟨T, _⟩ := opened_tidy hwork hm
  obtain ⟨T', _, k⟩ := pushes_pushed hwork T hb h
  obtain ⟨S, hS⟩ := Option.isSome_iff_exists.mp T.has
  have : m'.structureView.displayed = m.structureView.displayed := by
    simp only [View.displayed, T.shown, T'.shown, Option.bind_some, hS, hc]
    exact k _ S hS
  exact ⟨this, T.same ▸ T'.same ▸ this⟩

/-! ## C99 -/

theorem goOrMake_connected {m : Window σ} {w : World σ Step} (hs : m.structureView = m.processingView)
    (hc : ∀ t, t ∈ m.connected ↔ m.structureView.contains t = true) (hn : m.connected.Nodup) :
    ({ m with world := w } : Window σ).goToOrMakeCurrentState.connected.Nodup := by
  unfold Window.goToOrMakeCurrentState
  split
  · exact hn
  · rename_i hk
    simp only [← hs, Bool.and_self, Bool.not_eq_true] at hk
    show (m.connected ++ [w.pinCurrent.care.current]).Nodup
    rw [(pinCurrent_mem w).2]
    refine List.nodup_append.mpr ⟨hn, by simp, ?_⟩
    intro a ha b hb
    rw [List.mem_singleton] at hb
    rintro rfl
    rw [hc, hb, hk] at ha
    cases ha

/-- C99. When every edition makes a timepoint, the scene of each timepoint shown is connected exactly once, so that an
edition asked from the scene shown is handled once; the timepoints connected are those whose scenes are kept. -/
theorem C99_connected_once {work : App.Work σ} (hwork : ∀ s, DoesOnly (fun _ => True) (work s)) {m : Window σ}
    (hm : Opened work (fun ops => ∃ op ∈ ops, Edits op) m) :
    m.connected.Nodup ∧ m.connected.count m.world.care.current = 1 ∧
    ∀ t, t ∈ m.connected ↔ (m.structureView.scenes.lookup t).isSome = true := by
  have key : m.connected.Nodup := by
    induction hm with
    | opened h1 h2 h3 =>
      obtain ⟨_, _, k, _⟩ := open_tidy hwork h1 h2 h3
      rw [k]; simp
    | @pushed m m' b hm h2 h3 ih =>
      obtain ⟨T, _⟩ := opened_tidy hwork (opened_mono (fun _ _ => trivial) hm)
      cases b with
      | edit s f =>
        have hf := h2 _ (List.mem_singleton.mpr rfl) s f rfl
        simp only [push, Window.handleEditionFrom] at h3
        split at h3
        · cases h3
        · rename_i w1 e1
          split at h3
          · cases h3
          · rename_i w2 e2
            obtain ⟨r, e3, rfl⟩ := except_map_ok h3
            have p1 := goBefore_path (P := fun _ => True) T.reachable T.anchored T.pinned e1
            obtain ⟨p2, hnew⟩ := doesOnly_path hf p1.reachable p1.anchored e2
            have hnew := hnew (fun _ h => h)
            have p3 := run_path hwork p2.reachable p2.anchored (log := r.1) (w' := r.2) e3
            have hfresh : r.2.care.current ∉ clusterSelf m.world.care.tree := by
              rcases p3.onward rfl with k | k
              · rw [k]; exact fun hh => hnew (p1.grown.live hh)
              · exact fun hh => k (p2.grown.live (p1.grown.live hh))
            show (m.connected ++ [r.2.pinCurrent.care.current]).Nodup
            rw [(pinCurrent_mem r.2).2]
            refine List.nodup_append.mpr ⟨ih, by simp, ?_⟩
            intro a ha b hb
            rw [List.mem_singleton] at hb
            rintro rfl
            refine hfresh ?_
            rw [← hb]
            exact (reachable_inv T.reachable).pinned a (T.keys a ((T.connected a).mp ha))
      | next =>
        obtain ⟨r, _, rfl⟩ := except_map_ok h3
        exact goOrMake_connected T.same T.connected ih
      | prev =>
        obtain ⟨r, _, rfl⟩ := except_map_ok h3
        exact goOrMake_connected T.same T.connected ih
      | undo =>
        obtain ⟨r, _, rfl⟩ := except_map_ok h3
        exact goOrMake_connected T.same T.connected ih
      | redo =>
        obtain ⟨r, _, rfl⟩ := except_map_ok h3
        exact goOrMake_connected T.same T.connected ih
  obtain ⟨T, _⟩ := opened_tidy hwork (opened_mono (fun _ _ => trivial) hm)
  refine ⟨key, ?_, T.connected⟩
  rw [key.count, if_pos ((T.connected _).mpr T.has)]

/-! ## A window for the examples -/

/-- An address that is not live. -/
def unused (w : World Nat Step) : Addr := (w.care.tree.cluster true).foldr max 0 + 1

/-- Each step makes a timepoint. -/
def windowWork : App.Work Nat := fun _ w => w.makeNextTimepoint (unused w)

/-- An edition of object 0. -/
def windowEdit (s : Nat) : World Nat Step → Except Fault (World Nat Step) := fun w => w.setNextState 0 (unused w) s

/-- A parser that builds object 0. -/
def windowParser : World Nat Step → Except Fault (Option (World Nat Step)) := fun w =>
  if w.objs 0 = none ∧ 0 ∉ w.care.originators then
    (((w.create 0 false (some w.care.current) 10).takeCareOf 0).map some)
  else .ok none

theorem unused_fresh {w w' : World Nat Step} (hw : Reachable w) (h : w.stopBrowsing = .ok w') :
    ¬ Live w' (unused w) ∧ ∀ i, (w'.objs i).isSome → (w.objs i).isSome := by
  have hsub : (∀ a, Live w' a → Live w a) ∧ ∀ i, (w'.objs i).isSome → (w.objs i).isSome := by
    simp only [World.stopBrowsing] at h
    split at h
    · cases h; exact ⟨fun _ h => h, fun _ h => h⟩
    · rename_i k hk
      have hf := (reachable_inv hw).forgetFuture
      have he : forgetFuture w =
          { w with care := { w.care with history := w.care.history.take (k + 1), browser := none } } := by
        simp [forgetFuture, hk]
      split at h
      · obtain ⟨w2, h1, h2⟩ := gc_spec hf
        rw [he, h] at h1; cases h1
        refine ⟨fun a ha => ?_, fun i hi => ?_⟩
        · have := Needed.live ((h2.live a).mp (live_iff.mp ha))
          rw [(forgetFuture_care w).1] at this
          exact live_iff.mpr this
        · by_contra hn
          rw [Option.not_isSome_iff_eq_none] at hn
          have := h2.none i (by rw [(forgetFuture_care w).2.2.1]; exact hn)
          simp [this] at hi
      · cases h; exact ⟨fun _ h => h, fun _ h => h⟩
  refine ⟨fun hl => ?_, hsub.2⟩
  have := le_foldr_max _ _ (hsub.1 _ hl)
  simp only [unused] at this
  omega

theorem windowWork_only (s : Step) : DoesOnly (fun ops => SetsAtMade [] ops ∧ ∀ i, .destroy i ∉ ops) (windowWork s) := by
  intro w w' hw h
  refine ⟨[.makeNext (unused w)], .cons (fun w1 h1 => (unused_fresh hw h1).1) h (.nil _), ?_, trivial, ?_⟩ <;>
    simp [BoardOp]

theorem windowEdit_only (s : Nat) : DoesOnly (fun ops => (SetsAtMade [] ops ∧ ∀ i, .destroy i ∉ ops) ∧
    ∃ op ∈ ops, Edits op) (windowEdit s) := by
  intro w w' hw h
  have ho : ∃ o, w.objs 0 = some o := by
    simp only [windowEdit, World.setNextState] at h
    split at h
    · cases h
    · rename_i w1 h1
      have hs : (w1.objs 0).isSome := by
        simp only [World.setState] at h
        split at h
        · cases h
        · simp [*]
      simp only [World.makeNextTimepoint] at h1
      split at h1
      · cases h1
      · rename_i w2 h2
        split at h1
        · cases h1
        · split at h1
          · cases h1
            exact Option.isSome_iff_exists.mp ((unused_fresh hw h2).2 0 hs)
          · cases h1
  refine ⟨[.setNext 0 (unused w) s], .cons ⟨fun w1 h1 => (unused_fresh hw h1).1, ho⟩ h (.nil _), ?_, ⟨trivial, ?_⟩, ?_⟩ <;>
    simp [BoardOp, Edits]

theorem windowParser_only : DoesOnly (fun _ => True) (accepting windowParser) := by
  intro w w' hw h
  simp only [accepting, windowParser] at h
  by_cases hc : w.objs 0 = none ∧ 0 ∉ w.care.originators
  · rw [if_pos hc] at h
    refine ⟨[.create 0 false w.care.current 10], .cons ⟨hc.1, hc.2, live_iff.mpr (reachable_inv hw).current⟩ ?_ (.nil _),
      by simp [BoardOp], trivial⟩
    simp only [exec]
    cases ht : (w.create 0 false (some w.care.current) 10).takeCareOf 0 with
    | error e => simp [ht, Except.map] at h
    | ok w2 => simp only [ht, Except.map] at h; exact h
  · rw [if_neg hc] at h; cases h

/-- A new window. -/
def newWindow : Window Nat := ⟨World.fresh 0, ⟨false, [], none⟩, ⟨false, [], none⟩, []⟩

/-- A file is opened, object 0 is edited from the step that detects the intervals, then undone; then the user goes before
the last step, undoes twice, and edits again. -/
def windowButtons : List (Button Nat) :=
  [.edit .detectIntervals (windowEdit 20), .undo, .redo, .prev, .undo, .undo, .edit .mesh (windowEdit 30), .undo, .next]

/-- What is looked at: the current timepoint, those connected, whether 3 and 19 are live, what is drawn and read of
object 0. -/
def windowSeen (bs : List (Button Nat)) : Except Fault (Addr × List Addr × Bool × Option Nat × Option Nat) :=
  match newWindow.openFile windowWork windowParser with
  | .error e => .error e
  | .ok (_, m) => (pushes windowWork bs m).map fun m =>
    (m.world.care.current, m.connected, (m.world.care.tree.cluster true).contains 19,
      m.structureView.displayed.bind fun S => S 0, (reads m.world 0).toOption)

theorem window_open (P : List (Op Nat Step) → Prop) {bs : List (Button Nat)} {r} (h : windowSeen bs = .ok r)
    (ho : (newWindow.openFile windowWork windowParser).toOption.any (·.1) = true) : ∃ m m',
    newWindow.openFile windowWork windowParser = .ok (true, m) ∧ Opened windowWork P m ∧ pushes windowWork bs m = .ok m' ∧
    r = (m'.world.care.current, m'.connected, (m'.world.care.tree.cluster true).contains 19,
      m'.structureView.displayed.bind fun S => S 0, (reads m'.world 0).toOption) := by
  simp only [windowSeen] at h
  cases hn : newWindow.openFile windowWork windowParser with
  | error e => rw [hn] at h; cases h
  | ok q =>
    obtain ⟨b, m⟩ := q
    rw [hn] at h ho
    obtain ⟨m', h1, h2⟩ := except_map_ok h
    have hb : b = true := by simpa [Except.toOption] using ho
    subst hb
    exact ⟨m, m', rfl, .opened (.fresh 0) windowParser_only hn, h1, h2.symm⟩

theorem windowButtons_edits {P : List (Op Nat Step) → Prop}
    (hP : ∀ ops, (SetsAtMade [] ops ∧ ∀ i, .destroy i ∉ ops) ∧ (∃ op ∈ ops, Edits op) → P ops) :
    EditsOnly P windowButtons := by
  intro b hb s f he
  subst he
  simp only [windowButtons, List.mem_cons, List.not_mem_nil, or_false, reduceCtorEq, false_or, Button.edit.injEq] at hb
  rcases hb with ⟨_, rfl⟩ | ⟨_, rfl⟩ <;> exact doesOnly_mono hP (windowEdit_only _)

/-- The hypotheses of C97 are met: two editions, undone, redone and left by another branch. Timepoint 19, of the first
edition, is still live after the second, which collected garbage. -/
example : (∀ s, DoesOnly (fun _ => True) (windowWork s)) ∧ EditsOnly (fun _ => True) windowButtons ∧
    ∃ m m', Opened windowWork (fun _ => True) m ∧ pushes windowWork windowButtons m = .ok m' ∧ Live m'.world 19 := by
  refine ⟨fun s => doesOnly_mono (fun _ _ => trivial) (windowWork_only s), windowButtons_edits fun _ _ => trivial, ?_⟩
  obtain ⟨m, m', _, h2, h3, h4⟩ := window_open (fun _ => True) (bs := windowButtons)
    (r := (15, [15, 20, 19, 22], true, some 10, some 10)) (by decide +kernel) (by decide +kernel)
  refine ⟨m, m', h2, h3, ?_⟩
  have : (m'.world.care.tree.cluster true).contains 19 = true := by
    simp only [Prod.mk.injEq] at h4
    exact h4.2.2.1.symm
  exact List.contains_iff_mem.mp this

/-- Those of C98: after the second edition the object is drawn as it was edited; and the timepoint was not connected. -/
example : (∀ s, DoesOnly (fun ops => SetsAtMade [] ops ∧ ∀ i, .destroy i ∉ ops) (windowWork s)) ∧
    (windowSeen (windowButtons.take 6) = .ok (15, [15, 20, 19], true, some 10, some 10)) ∧
    windowSeen (windowButtons.take 7) = .ok (22, [15, 20, 19, 22], true, some 30, some 30) ∧
    windowSeen (windowButtons.take 8) = .ok (15, [15, 20, 19, 22], true, some 10, some 10) :=
  ⟨windowWork_only, by decide +kernel, by decide +kernel, by decide +kernel⟩

/-- Those of C99. -/
example : (∀ s, DoesOnly (fun _ => True) (windowWork s)) ∧ EditsOnly (fun ops => ∃ op ∈ ops, Edits op) windowButtons ∧
    ∃ m, Opened windowWork (fun ops => ∃ op ∈ ops, Edits op) m :=
  ⟨fun s => doesOnly_mono (fun _ _ => trivial) (windowWork_only s), windowButtons_edits fun _ h => h.2,
    (window_open (fun ops => ∃ op ∈ ops, Edits op) (bs := windowButtons)
      (r := (15, [15, 20, 19, 22], true, some 10, some 10)) (by decide +kernel) (by decide +kernel)).imp
      fun _ h => h.choose_spec.2.1⟩

end Verif.Props
