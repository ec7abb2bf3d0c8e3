import Verif.Spec.Toolbar
import Verif.Lemmas.Trail
import Verif.Props.Window

/-! # C114, C115: Undo from the window, and the buttons that are enabled -/

namespace Verif.Props
open Verif Spec TreeNode

variable {σ : Type}

theorem find_previous {w : World σ Step} (hr : Reachable w) : ∃ t, w.findFirstAncestorWithAnnotation false = .ok t ∧
    ∀ a, t = some a → Live w a ∧ a ≠ w.care.current ∧ ∃ s, w.getAnnotation (some a) = some s := by
  have hw := reachable_inv hr
  obtain ⟨l, hl⟩ := chain_of_mem hw.current
  simp only [World.findFirstAncestorWithAnnotation, World.findFirstAncestorWithAnnotationThat, TreeNode.ancestors, hl]
  refine ⟨_, rfl, ?_⟩
  intro a ha
  have hm := List.mem_of_find?_eq_some ha
  refine ⟨live_iff.mpr (chain_subset _ _ _ hl a (List.mem_of_mem_tail hm)), ?_, ?_⟩
  · rintro rfl
    obtain ⟨r, rfl⟩ := chain_cons hl
    have hn := chain_nodup _ _ _ hw.nodup hl
    exact (List.nodup_cons.mp hn).1 hm
  · have := List.find?_some ha
    simp only [World.getAnnotation]
    split at this
    · rename_i s hs; exact ⟨s, hs⟩
    · cases this

/-- The buttons can always be updated. -/
theorem navigation_ok {w : World σ Step} (hr : Reachable w) : ∃ b, navigation w = .ok b := by
  obtain ⟨t, ht, _⟩ := find_previous hr
  obtain ⟨x, hx, _⟩ := (reachable_inv hr).getLast
  have hu : ∃ u, w.canUndo 1 = .ok u := by
    simp only [World.canUndo, hx]
    rw [if_neg (by decide)]
    split <;> exact ⟨_, rfl⟩
  obtain ⟨u, hu⟩ := hu
  have hn : ∃ n, App.canRunANextStep w = .ok n := by
    simp only [App.canRunANextStep, ht]
    split <;> exact ⟨_, rfl⟩
  obtain ⟨n, hn⟩ := hn
  exact ⟨⟨u, w.canRedo 1, t.isSome, n⟩, by simp only [navigation, hu, App.canGoBefore, ht, hn]⟩

theorem navigation_parts {w : World σ Step} {b : Buttons} (h : navigation w = .ok b) :
    w.canUndo 1 = .ok b.undo ∧ w.canRedo 1 = b.redo ∧ App.canGoBefore w = .ok b.prev ∧
    App.canRunANextStep w = .ok b.next := by
  simp only [navigation] at h
  split at h
  · cases h
  · rename_i u hu
    split at h
    · cases h
    · rename_i p hp
      split at h
      · cases h
      · rename_i n hn
        cases h
        exact ⟨hu, rfl, hp, hn⟩

/-- A click either does nothing, the button being disabled, or is a press after which the buttons are updated. -/
theorem click_cases {work : App.Work σ} {b : Button σ} {s s' : Shell σ} (h : click work b s = .ok s') :
    (lit s b = false ∧ s' = s) ∨
    (lit s b = true ∧ push work b s.window = .ok s'.window ∧ navigation s'.window.world = .ok s'.buttons) := by
  have key : ∀ (e : Bool) (f : Window σ → Except Fault (Window σ)), s.trigger e f = .ok s' →
      (e = false ∧ s' = s) ∨ (e = true ∧ f s.window = .ok s'.window ∧ navigation s'.window.world = .ok s'.buttons) := by
    intro e f h
    simp only [Shell.trigger] at h
    split at h
    · rename_i he
      split at h
      · cases h
      · rename_i m hm
        obtain ⟨b, h1, rfl⟩ := except_map_ok h
        exact .inr ⟨he, hm, h1⟩
    · rename_i he
      cases h
      exact .inl ⟨by simpa using he, rfl⟩
  cases b <;> exact key _ _ h

theorem click_of_push {work : App.Work σ} {b : Button σ} {s : Shell σ} {m : Window σ} (hl : lit s b = true)
    (h : push work b s.window = .ok m) {n : Buttons} (hn : navigation m.world = .ok n) :
    click work b s = .ok ⟨m, n⟩ := by
  have key : ∀ (e : Bool) (f : Window σ → Except Fault (Window σ)), e = true → f s.window = .ok m →
      s.trigger e f = .ok ⟨m, n⟩ := by
    intro e f h1 h2
    simp only [Shell.trigger, h1, if_true, h2, Shell.refresh, hn, Except.map]
  cases b <;> exact key _ _ hl h

theorem shell_open {work : App.Work σ} {parser : World σ Step → Except Fault (Option (World σ Step))} {s s' : Shell σ}
    (h : s.openFile work parser = .ok (true, s')) :
    s.window.openFile work parser = .ok (true, s'.window) ∧ navigation s'.window.world = .ok s'.buttons := by
  simp only [Shell.openFile] at h
  split at h
  · cases h
  · cases h
  · rename_i m hm
    obtain ⟨q, h1, h2⟩ := except_map_ok h
    obtain ⟨b, h3, rfl⟩ := except_map_ok h1
    cases h2
    exact ⟨hm, h3⟩

theorem onScreen_opened {work : App.Work σ} {P : List (Op σ Step) → Prop} {s : Shell σ} (h : OnScreen work P s) :
    Opened work P s.window ∧ navigation s.window.world = .ok s.buttons := by
  induction h with
  | opened h1 h2 h3 =>
    obtain ⟨k1, k2⟩ := shell_open h3
    exact ⟨.opened h1 h2 k1, k2⟩
  | clicked _ h2 h3 ih =>
    rcases click_cases h3 with ⟨_, rfl⟩ | ⟨_, k1, k2⟩
    · exact ih
    · exact ⟨.pushed ih.1 h2 k1, k2⟩

theorem inOrder_onScreen {work : App.Work σ} {P : List (Op σ Step) → Prop} {s : Shell σ} (h : InOrder work P s) :
    OnScreen work P s := by
  induction h with
  | opened h1 h2 h3 => exact .opened h1 h2 h3
  | clicked _ h2 h3 _ ih => exact .clicked ih h2 h3

theorem standsOn_care {w w' : World σ Step} {p : Nat} (h : StandsOn w p) (h1 : w'.care.history = w.care.history)
    (h2 : w'.care.browser = w.care.browser) (h3 : w'.care.current = w.care.current) : StandsOn w' p := by
  unfold StandsOn
  rw [h1, h2, h3]; exact h

theorem pin_care (w : World σ Step) : w.pinCurrent.care.history = w.care.history ∧
    w.pinCurrent.care.browser = w.care.browser ∧ w.pinCurrent.care.current = w.care.current := by
  unfold World.pinCurrent
  split <;> exact ⟨rfl, rfl, rfl⟩

theorem goOrMake_care (m : Window σ) :
    m.goToOrMakeCurrentState.world.care.history = m.world.care.history ∧
    m.goToOrMakeCurrentState.world.care.browser = m.world.care.browser ∧
    m.goToOrMakeCurrentState.world.care.current = m.world.care.current := by
  unfold Window.goToOrMakeCurrentState
  split
  · exact ⟨rfl, rfl, rfl⟩
  · exact pin_care m.world

theorem follows_care {w w' w2 : World σ Step} {p : Nat} (h : Follows w p w') (h1 : w2.care.history = w'.care.history)
    (h2 : w2.care.browser = w'.care.browser) (h3 : w2.care.current = w'.care.current) : Follows w p w2 := by
  rcases h with ⟨k1, k2⟩ | ⟨k1, k2⟩
  · exact .inl ⟨standsOn_care k1 h1 h2 h3, h3.trans k2⟩
  · exact .inr ⟨standsOn_care k1 h1 h2 h3, by rw [h1]; exact k2⟩

/-- A run leaves a trail, then remembers. -/
theorem run_follows {P : List (Op σ Step) → Prop} {work : App.Work σ} (hwork : ∀ s, DoesOnly P (work s))
    {steps : List Step} {w w1 w2 w' : World σ Step} {log} {p : Nat} (hw : WInv w) (hs : StandsOn w p)
    (h1 : w1.care.history = w.care.history) (h2 : w1.care.browser = w.care.browser)
    (hl : w1.care.current ∈ clusterSelf w.care.tree) (ht : Trail w1 w2) (hg : Grown w1 w2)
    (hr : Reachable w2) (ha : Anchored w2) (he : App.run work steps w2 = .ok (log, w'))
    (ho : w.care.browser = none ∨ w'.care.current ∉ clusterSelf w.care.tree ∨ w'.care.current = w.care.current) :
    Follows w p w' := by
  simp only [App.run] at he
  split at he
  · cases he
  · rename_i log' w3 h3
    split at he
    · cases he
    · rename_i w4 h4
      cases he
      exact remember_follows hw hs h1 h2 hl (ht.trans hg (handleAll_trail hwork hr ha h3)) h4 ho

/-- What a press other than Undo and Redo does to the place where the user stands. -/
theorem push_follows {P : List (Op σ Step) → Prop} {work : App.Work σ} (hwork : ∀ s, DoesOnly P (work s))
    {m m' : Window σ} (T : Tidy m) {b : Button σ} (hb : EditsOnly P [b]) (hu : b ≠ .undo) (hre : b ≠ .redo)
    (h : push work b m = .ok m') {p : Nat} (hs : StandsOn m.world p)
    (ho : m.world.care.browser = none ∨ m'.world.care.current ∉ clusterSelf m.world.care.tree ∨
      m'.world.care.current = m.world.care.current) : Follows m.world p m'.world := by
  have hw := reachable_inv T.reachable
  cases b with
  | edit s f =>
    have hf := hb _ (List.mem_singleton.mpr rfl) s f rfl
    simp only [push, Window.handleEditionFrom] at h
    split at h
    · cases h
    · rename_i w1 h1
      split at h
      · cases h
      · rename_i w2 h2
        obtain ⟨r, h3, rfl⟩ := except_map_ok h
        have p1 := goBefore_path (P := P) T.reachable T.anchored T.pinned h1
        have p2 := (doesOnly_path hf p1.reachable p1.anchored h2).1
        obtain ⟨k1, k2, k3⟩ := pin_care r.2
        have hcare : w1.care.history = m.world.care.history ∧ w1.care.browser = m.world.care.browser ∧
            w1.care.current ∈ clusterSelf m.world.care.tree := by
          rcases goBefore_spec h1 with rfl | ⟨t, hl, he, _⟩
          · exact ⟨rfl, rfl, hw.current⟩
          · have ht := live_iff.mp (hl t rfl)
            simp only [exec, goWithoutRemembering_eq ht, Except.map] at he
            cases he
            exact ⟨rfl, rfl, ht⟩
        have hfo := run_follows hwork hw hs hcare.1 hcare.2.1 hcare.2.2
          (doesOnly_trail hf p1.reachable p1.anchored h2) p2.grown p2.reachable p2.anchored (log := r.1) (w' := r.2) h3 (by
            rw [← k3]; exact ho)
        exact follows_care hfo k1 k2 k3
  | next =>
    obtain ⟨⟨log, w'⟩, h1, rfl⟩ := except_map_ok h
    obtain ⟨k1, k2, k3⟩ := goOrMake_care ({ m with world := w' } : Window σ)
    have hrun : ∀ steps, App.run work steps m.world = .ok (log, w') → Follows m.world p w' := fun steps hh =>
      run_follows hwork hw hs rfl rfl hw.current (.refl _) (.refl _) T.reachable T.anchored hh (by
        rw [k3] at ho; exact ho)
    refine follows_care ?_ k1 k2 k3
    simp only [App.runNextStep] at h1
    split at h1
    · cases h1
    · split at h1
      · split at h1
        · exact hrun _ h1
        · cases h1; exact .inl ⟨hs, rfl⟩
      · exact hrun _ h1
  | prev =>
    obtain ⟨w', h1, rfl⟩ := except_map_ok h
    obtain ⟨k1, k2, k3⟩ := goOrMake_care ({ m with world := w' } : Window σ)
    refine follows_care ?_ k1 k2 k3
    obtain ⟨t, ht, hlive⟩ := find_previous T.reachable
    simp only [App.goBeforePreviousStep, ht] at h1
    cases t with
    | none =>
      simp only [World.goAndRemember, World.goWithoutRemembering] at h1
      cases h1
      exact .inl ⟨hs, rfl⟩
    | some t =>
      have htl := live_iff.mp (hlive t rfl).1
      simp only [World.goAndRemember, goWithoutRemembering_eq htl] at h1
      split at h1
      · cases h1
      · rename_i b w2 h2
        cases h1
        split at h2
        · cases h2
        · rename_i w3 h3
          cases h2
          exact remember_follows (w1 := { care := { m.world.care with current := t }, objs := World.goAll m.world.objs t m.world.care.originators }) hw hs rfl rfl htl (.refl _) h3 (by rw [k3] at ho; exact ho)
  | undo => exact absurd rfl hu
  | redo => exact absurd rfl hre

theorem undo_stands {w w' : World σ Step} {p : Nat} (hw : WInv w) (hs : StandsOn w p) (h : w.undo 1 = .ok w') :
    StandsOn w' (p - 1) ∧ w'.care.history = w.care.history := by
  by_cases hp : 1 ≤ p
  · rw [undo_standsOn hs (Nat.le_refl 1) hp] at h
    have hlt : p < w.care.history.length := (List.getElem?_eq_some_iff.mp hs.1).1
    obtain ⟨w2, e, k1, _, k3, _⟩ := standsOn_arrive hw
      (List.getElem?_eq_getElem (l := w.care.history) (i := p - 1) (by omega))
    rw [h] at e; cases e
    exact ⟨k1, k3⟩
  · have hc := canUndo_standsOn hs 1
    have : decide (1 ≤ 1 ∧ 1 ≤ p) = false := by simp; omega
    rw [this] at hc
    rw [(C02_refused_move_changes_nothing w 1).1 hc] at h
    cases h
    have : p - 1 = p := by omega
    rw [this]; exact ⟨hs, rfl⟩

theorem redo_stands {w w' : World σ Step} {p : Nat} (hw : WInv w) (hs : StandsOn w p) (h : w.redo 1 = .ok w') :
    ∃ q, StandsOn w' q ∧ (p + 1 < w.care.history.length → q = p + 1) ∧ w'.care.history = w.care.history := by
  by_cases hp : p + 1 < w.care.history.length
  · rw [redo_standsOn hs (Nat.le_refl 1) hp] at h
    obtain ⟨w2, e, k1, _, k3, _⟩ := standsOn_arrive hw
      (List.getElem?_eq_getElem (l := w.care.history) (i := p + 1) hp)
    rw [h] at e; cases e
    exact ⟨p + 1, k1, fun _ => rfl, k3⟩
  · have hc := canRedo_standsOn hs 1
    have : decide (1 ≤ 1 ∧ p + 1 < w.care.history.length) = false := by simp; omega
    rw [this] at hc
    rw [(C02_refused_move_changes_nothing w 1).2 hc] at h
    cases h
    exact ⟨p, hs, fun hh => absurd hh hp, rfl⟩

/-- No redo is possible exactly when the history is not browsed. -/
theorem redo_browser {w : World σ Step} (hw : WInv w) (h : w.canRedo 1 = false) : w.care.browser = none := by
  cases hb : w.care.browser with
  | none => rfl
  | some i =>
    have := hw.browser i hb
    simp only [World.canRedo, hb, Nat.one_ne_zero, if_false, decide_eq_false_iff_not] at h
    omega

theorem orderly_browser {b : Button σ} {s s' : Shell σ} (hw : WInv s.window.world)
    (hn : navigation s.window.world = .ok s.buttons) (h : Orderly b s s') (hu : b ≠ .undo) (hr : b ≠ .redo) :
    s.window.world.care.browser = none ∨ s'.window.world.care.current ∉ clusterSelf s.window.world.care.tree ∨
      s'.window.world.care.current = s.window.world.care.current := by
  rcases h with h | h | h | h | h
  · exact absurd h hu
  · exact absurd h hr
  · exact .inl (redo_browser hw (by rw [(navigation_parts hn).2.1]; exact h))
  · exact .inr (.inl fun hh => h (live_iff.mpr hh))
  · exact .inr (.inr h)

theorem open_stands {P : List (Op σ Step) → Prop} {work : App.Work σ} (hwork : ∀ s, DoesOnly P (work s))
    {m m' : Window σ} {parser : World σ Step → Except Fault (Option (World σ Step))} (hr : Reachable m.world)
    (hp : DoesOnly (fun _ => True) (accepting parser)) (h : m.openFile work parser = .ok (true, m')) :
    ∃ p, StandsOn m'.world p := by
  simp only [Window.openFile] at h
  split at h
  · cases h
  · cases h
  · rename_i w hw
    obtain ⟨r, h1, h2⟩ := except_map_ok h
    cases h2
    simp only [App.parse, Window.clear] at hw
    split at hw
    · cases hw
    · rename_i w1 hreset
      obtain ⟨r1, a1⟩ := reset_anchored hr hreset
      have hw1 := reachable_inv r1
      split at hw
      · cases hw
      · cases hw
      · rename_i w2 hpar
        split at hw
        · cases hw
        · rename_i w3 hrem
          cases hw
          have hs1 : StandsOn w1 0 := by
            obtain ⟨x, xs, w', k1, k2, _, k4⟩ := reset_spec (reachable_inv hr)
            rw [hreset] at k2; cases k2
            have hx := (reachable_inv hr).historyHead
            rw [k1] at hx
            simp only [List.head?_cons, Option.some.injEq] at hx
            refine ⟨?_, .inr ⟨k4.browser, ?_⟩⟩
            · rw [k4.history, k4.current, hx]; rfl
            · rw [k4.history]; rfl
          have p1 := (doesOnly_path hp r1 a1 (w' := w2) (by simp only [accepting, hpar])).1
          have p2 : Path (fun _ => True) true w2 w := .op p1.reachable p1.anchored (op := .remember) trivial trivial hrem
            (fun _ => by simp) trivial (fun _ => (remember_same' hrem).2.2.2.1)
          have hb1 : w1.care.browser = none := by
            rcases hs1.2 with h | h
            · have := hw1.browser 0 h
              obtain ⟨x, xs, w', k1, k2, _, k4⟩ := reset_spec (reachable_inv hr)
              rw [hreset] at k2; cases k2
              exact k4.browser
            · exact h.1
          have f1 := remember_follows hw1 hs1 rfl rfl hw1.current
            (doesOnly_trail hp r1 a1 (w' := w2) (by simp only [accepting, hpar])) hrem (.inl hb1)
          obtain ⟨q, hq⟩ : ∃ q, StandsOn w q := by
            rcases f1 with h | h
            · exact ⟨_, h.1⟩
            · exact ⟨_, h.1⟩
          have hbw : w.care.browser = none := by
            have ht := doesOnly_trail hp r1 a1 (w' := w2) (by simp only [accepting, hpar])
            have hb2 : w2.care.browser = none := by
              rcases ht with h | h
              · exact h.2.1.trans hb1
              · exact h.2.1
            simp only [World.rememberCurrent] at hrem
            split at hrem
            · cases hrem
            · split at hrem <;> cases hrem <;> exact hb2
          have f2 := run_follows hwork (reachable_inv p2.reachable) hq rfl rfl (reachable_inv p2.reachable).current
            (.refl _) (.refl _) p2.reachable p2.anchored (log := r.1) (w' := r.2) h1 (.inl hbw)
          obtain ⟨k1, k2, k3⟩ := pin_care r.2
          rcases follows_care f2 k1 k2 k3 with h | h
          · exact ⟨_, h.1⟩
          · exact ⟨_, h.1⟩

/-- When all clicks are orderly the user always stands on a remembered timepoint. -/
theorem inOrder_stands {P : List (Op σ Step) → Prop} {work : App.Work σ} (hwork : ∀ s, DoesOnly P (work s))
    {s : Shell σ} (h : InOrder work P s) : ∃ p, StandsOn s.window.world p := by
  induction h with
  | opened h1 h2 h3 => exact open_stands hwork h1 h2 (shell_open h3).1
  | @clicked s s' b h1 h2 h3 h4 ih =>
    obtain ⟨p, hp⟩ := ih
    obtain ⟨ho, hn⟩ := onScreen_opened (inOrder_onScreen h1)
    obtain ⟨T, _⟩ := opened_tidy hwork ho
    have hw := reachable_inv T.reachable
    rcases click_cases h3 with ⟨_, rfl⟩ | ⟨_, k1, k2⟩
    · exact ⟨p, hp⟩
    · by_cases hu : b = .undo
      · subst hu
        obtain ⟨w', e, he⟩ := except_map_ok k1
        have hq := (undo_stands hw hp e).1
        obtain ⟨c1, c2, c3⟩ := goOrMake_care ({ s.window with world := w' } : Window σ)
        rw [he] at c1 c2 c3
        exact ⟨_, standsOn_care hq c1 c2 c3⟩
      · by_cases hr : b = .redo
        · subst hr
          obtain ⟨w', e, he⟩ := except_map_ok k1
          obtain ⟨q, hq, _⟩ := redo_stands hw hp e
          obtain ⟨c1, c2, c3⟩ := goOrMake_care ({ s.window with world := w' } : Window σ)
          rw [he] at c1 c2 c3
          exact ⟨_, standsOn_care hq c1 c2 c3⟩
        · rcases push_follows hwork T h2 hu hr k1 hp (orderly_browser hw hn h4 hu hr) with h | h
          · exact ⟨_, h.1⟩
          · exact ⟨_, h.1⟩

/-! ## C114 -/

/-- C114, partial. After a file was opened and any clicks, orderly ones, a click that shows another timepoint can be
undone: Undo is then enabled, shows the timepoint shown before, with the same scenes, and Redo comes back to the one
shown after. Orderly: no click but Undo and Redo moves to a timepoint that existed while something can be redone.
Missing: such clicks, with which it is false, see `C114_false`. -/
theorem C114_partial {P : List (Op σ Step) → Prop} {work : App.Work σ} (hwork : ∀ s, DoesOnly P (work s))
    {s s1 : Shell σ} (hs : InOrder work P s) {b : Button σ} (hb : EditsOnly P [b]) (hu : b ≠ .undo) (hr : b ≠ .redo)
    (h : click work b s = .ok s1) (ho : Orderly b s s1) (hne : Shell.place s1 ≠ Shell.place s) :
    lit s1 .undo = true ∧ ∃ s2, click work .undo s1 = .ok s2 ∧ Shell.place s2 = Shell.place s ∧
      s2.window.structureView.displayed = s.window.structureView.displayed ∧
      s2.window.processingView.displayed = s.window.processingView.displayed ∧
      lit s2 .redo = true ∧ ∃ s3, click work .redo s2 = .ok s3 ∧ Shell.place s3 = Shell.place s1 := by
  obtain ⟨p, hp⟩ := inOrder_stands hwork hs
  obtain ⟨hop, hn⟩ := onScreen_opened (inOrder_onScreen hs)
  obtain ⟨T, _⟩ := opened_tidy hwork hop
  have hw := reachable_inv T.reachable
  rcases click_cases h with ⟨_, rfl⟩ | ⟨_, k1, k2⟩
  · exact absurd rfl hne
  · have T1 := (push_pushed hwork T hb k1).tidy
    have hw1 := reachable_inv T1.reachable
    rcases push_follows hwork T hb hu hr k1 hp (orderly_browser hw hn ho hu hr) with q | ⟨q1, q2⟩
    · exact absurd q.2 hne
    · have hlt : p + 1 < s1.window.world.care.history.length := (List.getElem?_eq_some_iff.mp q1.1).1
      have hlit : lit s1 .undo = true := by
        have := (navigation_parts k2).1
        rw [canUndo_standsOn q1] at this
        have e := except_ok_inj this
        simp only [lit]
        rw [← e]; simp
      refine ⟨hlit, ?_⟩
      obtain ⟨⟨w2, e2, _⟩, _⟩ := undo_path (P := P) T1.reachable T1.anchored T1.pinned 1
      obtain ⟨u1, u2⟩ := undo_stands hw1 q1 e2
      have hpush2 : push work .undo s1.window = .ok ({ s1.window with world := w2 } : Window σ).goToOrMakeCurrentState := by
        simp only [push, Window.undo, e2, Except.map]
      have hb2 : EditsOnly P [(.undo : Button σ)] := by
        intro x hx st f he; rw [List.mem_singleton.mp hx] at he; cases he
      have T2 := (push_pushed hwork T1 hb2 hpush2).tidy
      have hw2 := reachable_inv T2.reachable
      obtain ⟨n2, hn2⟩ := navigation_ok T2.reachable
      obtain ⟨c1, c2, c3⟩ := goOrMake_care ({ s1.window with world := w2 } : Window σ)
      have hs2 := standsOn_care u1 c1 c2 c3
      simp only [Nat.add_sub_cancel] at u1 hs2
      have hcur2 : ({ s1.window with world := w2 } : Window σ).goToOrMakeCurrentState.world.care.current =
          s.window.world.care.current := by
        have := hs2.1
        rw [c1, u2, q2] at this
        exact (Option.some.inj this).symm
      refine ⟨⟨_, n2⟩, click_of_push hlit hpush2 hn2, hcur2, ?_⟩
      have hpushes : pushes work [b, .undo] s.window =
          .ok ({ s1.window with world := w2 } : Window σ).goToOrMakeCurrentState := by
        simp only [pushes, k1, hpush2]
      have hbs : EditsOnly P [b, .undo] := by
        intro x hx st f he
        rcases List.mem_cons.mp hx with rfl | hx
        · exact hb _ (List.mem_singleton.mpr rfl) st f he
        · exact hb2 x hx st f he
      obtain ⟨d1, d2⟩ := C98_again hwork hop hbs hpushes hcur2
      refine ⟨d1, d2, ?_⟩
      have hlen : p + 1 < ({ s1.window with world := w2 } : Window σ).goToOrMakeCurrentState.world.care.history.length := by
        rw [c1, u2]; exact hlt
      have hlit2 : lit (⟨({ s1.window with world := w2 } : Window σ).goToOrMakeCurrentState, n2⟩ : Shell σ) .redo = true := by
        have := (navigation_parts hn2).2.1
        rw [canRedo_standsOn hs2] at this
        simp only [lit]
        rw [← this]; simp [hlen]
      refine ⟨hlit2, ?_⟩
      obtain ⟨_, ⟨w3, e3, _⟩⟩ := undo_path (P := P) T2.reachable T2.anchored T2.pinned 1
      obtain ⟨q, r1, r2, r3⟩ := redo_stands hw2 hs2 e3
      obtain rfl := r2 hlen
      have hpush3 : push work .redo ({ s1.window with world := w2 } : Window σ).goToOrMakeCurrentState =
          .ok ({ ({ s1.window with world := w2 } : Window σ).goToOrMakeCurrentState with world := w3 } : Window
            σ).goToOrMakeCurrentState := by
        simp only [push, Window.redo, e3, Except.map]
      have hb3 : EditsOnly P [(.redo : Button σ)] := by
        intro x hx st f he; rw [List.mem_singleton.mp hx] at he; cases he
      have T3 := (push_pushed hwork T2 hb3 hpush3).tidy
      obtain ⟨n3, hn3⟩ := navigation_ok T3.reachable
      refine ⟨⟨_, n3⟩, click_of_push (s := ⟨_, n2⟩) hlit2 hpush3 hn3, ?_⟩
      have hc3 := (goOrMake_care ({ ({ s1.window with world := w2 } : Window σ).goToOrMakeCurrentState with
        world := w3 } : Window σ)).2.2
      refine hc3.trans ?_
      have := r1.1
      rw [r3, c1, u2, q1.1] at this
      exact (Option.some.inj this).symm

/-- A new window, without file. -/
def newShell : Shell Nat := ⟨newWindow, .off⟩

/-- The window after a file is opened and these clicks, the last click first. -/
def shellAt : List (Button Nat) → Except Fault (Shell Nat)
  | [] => match newShell.openFile windowWork windowParser with
    | .error e => .error e
    | .ok (false, _) => .error .noSuchObject
    | .ok (true, s) => .ok s
  | b :: bs => match shellAt bs with
    | .error e => .error e
    | .ok s => click windowWork b s

/-- What is looked at: the timepoint shown and the buttons enabled. -/
def shellSeen (bs : List (Button Nat)) : Option (Addr × Buttons) :=
  (shellAt bs).toOption.map fun s => (Shell.place s, s.buttons)

theorem shellSeen_some {bs : List (Button Nat)} {v : Addr × Buttons} (h : shellSeen bs = some v) :
    ∃ s, shellAt bs = .ok s ∧ Shell.place s = v.1 ∧ s.buttons = v.2 := by
  simp only [shellSeen] at h
  cases hs : shellAt bs with
  | error e => rw [hs] at h; cases h
  | ok s => rw [hs] at h; cases h; exact ⟨s, rfl, rfl, rfl⟩

theorem shellAt_cons {b : Button Nat} {bs : List (Button Nat)} {s s' : Shell Nat} (h : shellAt (b :: bs) = .ok s')
    (hs : shellAt bs = .ok s) : click windowWork b s = .ok s' := by
  simp only [shellAt, hs] at h; exact h

theorem shellAt_start {s : Shell Nat} (h : shellAt [] = .ok s) : newShell.openFile windowWork windowParser = .ok (true, s) := by
  simp only [shellAt] at h
  split at h
  · cases h
  · cases h
  · rename_i s' h'; cases h; exact h'

theorem shellAt_onScreen {P : List (Op Nat Step) → Prop} {bs : List (Button Nat)} (hb : EditsOnly P bs) {s : Shell Nat}
    (h : shellAt bs = .ok s) : OnScreen windowWork P s := by
  induction bs generalizing s with
  | nil => exact .opened (.fresh 0) windowParser_only (shellAt_start h)
  | cons b bs ih =>
    cases hs : shellAt bs with
    | error e => simp only [shellAt, hs] at h; cases h
    | ok s0 =>
      refine .clicked (ih (fun x hx => hb x (List.mem_cons_of_mem _ hx)) hs) ?_ (shellAt_cons h hs)
      intro x hx
      rw [List.mem_singleton.mp hx]
      exact hb b (List.mem_cons_self ..)

theorem noEdits {P : List (Op Nat Step) → Prop} {bs : List (Button Nat)}
    (h : bs.all (fun b => match b with | .edit _ _ => false | _ => true) = true) : EditsOnly P bs := by
  intro b hb s f he
  subst he
  have := List.all_eq_true.mp h _ hb
  simp at this

/-- An orderly click: an edition, made when nothing can be redone, then Undo shows again timepoint 15. -/
example : (∀ s, DoesOnly (fun ops => SetsAtMade [] ops ∧ ∀ i, .destroy i ∉ ops) (windowWork s)) ∧
    ∃ s s1, InOrder windowWork (fun ops => SetsAtMade [] ops ∧ ∀ i, .destroy i ∉ ops) s ∧
      EditsOnly (fun ops => SetsAtMade [] ops ∧ ∀ i, .destroy i ∉ ops) [.edit .detectIntervals (windowEdit 20)] ∧
      click windowWork (.edit .detectIntervals (windowEdit 20)) s = .ok s1 ∧
      Orderly (.edit .detectIntervals (windowEdit 20)) s s1 ∧ Shell.place s = 15 ∧ Shell.place s1 = 20 := by
  refine ⟨windowWork_only, ?_⟩
  obtain ⟨s, h1, h2, h3⟩ := shellSeen_some (bs := []) (v := (15, ⟨true, false, true, false⟩)) (by decide +kernel)
  obtain ⟨s1, k1, k2, k3⟩ := shellSeen_some (bs := [.edit .detectIntervals (windowEdit 20)])
    (v := (20, ⟨true, false, true, false⟩)) (by decide +kernel)
  refine ⟨s, s1, .opened (.fresh 0) windowParser_only (shellAt_start h1), ?_, shellAt_cons k1 h1,
    .inr (.inr (.inl (by rw [h3]))), h2, k2⟩
  intro b hb st f he
  rw [List.mem_singleton.mp hb] at he
  cases he
  exact doesOnly_mono (fun _ h => h.1) (windowEdit_only 20)

/-- C114 is false: after the click on Previous is undone and made again, all four buttons used being enabled, Undo does
not show the timepoint 15 shown before the last click on Previous but the board before any step. -/
theorem C114_false : ∃ (work : App.Work Nat) (s s1 s2 : Shell Nat),
    (∀ st, DoesOnly (fun ops => SetsAtMade [] ops ∧ ∀ i, .destroy i ∉ ops) (work st)) ∧
    OnScreen work (fun ops => SetsAtMade [] ops ∧ ∀ i, .destroy i ∉ ops) s ∧
    lit s .prev = true ∧ click work .prev s = .ok s1 ∧ Shell.place s1 ≠ Shell.place s ∧
    lit s1 .undo = true ∧ click work .undo s1 = .ok s2 ∧ Shell.place s2 ≠ Shell.place s := by
  obtain ⟨s, h1, h2, h3⟩ := shellSeen_some (bs := [.undo, .prev]) (v := (15, ⟨true, true, true, false⟩)) (by decide +kernel)
  obtain ⟨s1, k1, k2, k3⟩ := shellSeen_some (bs := [.prev, .undo, .prev]) (v := (14, ⟨true, true, true, true⟩))
    (by decide +kernel)
  obtain ⟨s2, l1, l2, l3⟩ := shellSeen_some (bs := [.undo, .prev, .undo, .prev]) (v := (0, ⟨false, true, false, true⟩))
    (by decide +kernel)
  refine ⟨windowWork, s, s1, s2, windowWork_only, shellAt_onScreen (noEdits rfl) h1, by simp only [lit, h3],
    shellAt_cons k1 h1, ?_, by simp only [lit, k3], shellAt_cons l1 k1, ?_⟩
  · rw [h2, k2]; decide
  · rw [h2, l2]; decide

/-! ## C115 -/

/-- C115. Whatever was clicked since a file was opened: updating the buttons never fails; Previous is enabled exactly when
pressing it would show another timepoint; Next is enabled exactly when pressing it would execute a step, and then it
executes one only; pressing a disabled button would leave the history as it is. -/
theorem C115_steps {P : List (Op σ Step) → Prop} {work : App.Work σ} (hwork : ∀ s, DoesOnly P (work s))
    {s : Shell σ} (hs : OnScreen work P s) :
    (∃ m, push work .prev s.window = .ok m ∧
      (lit s .prev = true ↔ m.world.care.current ≠ s.window.world.care.current)) ∧
    (lit s .next = true → ∀ log w, App.runNextStep work s.window.world = .ok (log, w) →
      ∃ st, log = [(st, s.window.world.care.current)]) ∧
    (lit s .next = false → App.runNextStep work s.window.world = .ok ([], s.window.world)) ∧
    (lit s .prev = false → App.goBeforePreviousStep s.window.world = .ok s.window.world) ∧
    (lit s .undo = false → s.window.world.undo 1 = .ok s.window.world) ∧
    (lit s .redo = false → s.window.world.redo 1 = .ok s.window.world) := by
  obtain ⟨hop, hn⟩ := onScreen_opened hs
  obtain ⟨T, _⟩ := opened_tidy hwork hop
  obtain ⟨n1, n2, n3, n4⟩ := navigation_parts hn
  obtain ⟨t, ht, hlive⟩ := find_previous T.reachable
  have hone : ∀ st w w' log, App.run work [st] w = .ok (log, w') → log = [(st, w.care.current)] := by
    intro st w w' log h
    simp only [App.run] at h
    split at h
    · cases h
    · rename_i log' w1 h1
      split at h
      · cases h
      · cases h
        have key : ∀ rest w w1 log, st ∉ rest → App.handleAll work [st] rest w = .ok (log, w1) → log = [] := by
          intro rest
          induction rest with
          | nil => intro w w1 log _ h; simp only [App.handleAll] at h; cases h; rfl
          | cons x xs ih =>
            intro w w1 log hx h
            have hne : x ≠ st := fun hh => hx (hh ▸ List.mem_cons_self ..)
            simp only [App.handleAll, List.contains_cons, List.contains_nil, Bool.or_false, beq_iff_eq, hne,
              if_false] at h
            exact ih _ _ _ (fun hh => hx (List.mem_cons_of_mem _ hh)) h
        have key2 : ∀ rest w w1 log, rest.Nodup → st ∈ rest → App.handleAll work [st] rest w = .ok (log, w1) →
            log = [(st, w.care.current)] := by
          intro rest
          induction rest with
          | nil => intro w w1 log _ h; cases h
          | cons x xs ih =>
            intro w w1 log hnd hx h
            obtain ⟨d1, d2⟩ := List.nodup_cons.mp hnd
            by_cases he : x = st
            · subst he
              simp only [App.handleAll, List.contains_cons, List.contains_nil, Bool.or_false, beq_self_eq_true,
                if_true] at h
              split at h
              · cases h
              · split at h
                · cases h
                · rename_i log2 w3 h3
                  cases h
                  rw [key xs _ _ _ d1 h3]
            · simp only [App.handleAll, List.contains_cons, List.contains_nil, Bool.or_false, beq_iff_eq, he,
                if_false] at h
              rcases List.mem_cons.mp hx with hh | hh
              · exact absurd hh.symm he
              · exact ih _ _ _ d2 hh h
        exact key2 Step.handled _ _ _ (by decide) (by cases st <;> decide) h1
  refine ⟨?_, ?_, ?_, ?_, ?_, ?_⟩
  · obtain ⟨w', e, _⟩ := goBeforePrevious_path (P := P) T.reachable T.anchored T.pinned
    refine ⟨_, by simp only [push, Window.meshPrev, e, Except.map]; rfl, ?_⟩
    rw [(goOrMake_care _).2.2]
    simp only [App.canGoBefore, ht] at n3
    have hb := except_ok_inj n3
    simp only [lit, ← hb]
    cases t with
    | none =>
      simp only [App.goBeforePreviousStep, ht, World.goAndRemember, World.goWithoutRemembering] at e
      cases e
      simp
    | some t =>
      obtain ⟨l1, l2, _⟩ := hlive t rfl
      simp only [App.goBeforePreviousStep, ht, World.goAndRemember, goWithoutRemembering_eq (live_iff.mp l1)] at e
      split at e
      · cases e
      · rename_i b w2 h2
        cases e
        split at h2
        · cases h2
        · rename_i w3 h3
          cases h2
          simp only [Option.isSome_some, true_iff]
          rw [(remember_same' h3).2.2.2.1]
          exact l2
  · intro hl log w h
    simp only [App.canRunANextStep, ht] at n4
    simp only [App.runNextStep, ht] at h
    split at h
    · rename_i st hst
      split at h
      · rename_i n hnx; exact ⟨n, hone _ _ _ _ h⟩
      · rename_i hnx
        simp only [hst, hnx] at n4
        have := except_ok_inj n4
        simp only [lit] at hl
        rw [hl] at this
        cases this
    · exact ⟨_, hone _ _ _ _ h⟩
  · intro hl
    simp only [App.canRunANextStep, ht] at n4
    simp only [lit] at hl
    rw [hl] at n4
    simp only [App.runNextStep, ht]
    split
    · rename_i st hst
      simp only [hst] at n4
      have := except_ok_inj n4
      split
      · rename_i n hnx; rw [hnx] at this; cases this
      · rfl
    · rename_i hst
      simp only [hst] at n4
      cases except_ok_inj n4
  · intro hl
    simp only [App.canGoBefore, ht] at n3
    simp only [lit] at hl
    rw [hl] at n3
    have := except_ok_inj n3
    cases t with
    | none => simp only [App.goBeforePreviousStep, ht, World.goAndRemember, World.goWithoutRemembering]
    | some t => cases this
  · intro hl
    simp only [lit] at hl
    rw [hl] at n1
    exact (C02_refused_move_changes_nothing _ 1).1 n1
  · intro hl
    simp only [lit] at hl
    rw [hl] at n2
    exact (C02_refused_move_changes_nothing _ 1).2 n2

/-- After fifteen clicks on Previous, Previous is disabled and Next is not; after opening, it is the other way round. -/
example : shellSeen (List.replicate 15 .prev) = some (0, ⟨true, false, false, true⟩) ∧
    shellSeen [] = some (15, ⟨true, false, true, false⟩) ∧
    ∀ s, shellAt (List.replicate 15 .prev) = .ok s → OnScreen windowWork (fun _ => True) s :=
  ⟨by decide +kernel, by decide +kernel, fun _ h => shellAt_onScreen (noEdits (by decide)) h⟩

/-- C115, partial. When all clicks were orderly, Undo and Redo are enabled exactly when pressing them would show another
timepoint. Missing: other clicks, with which Redo can be enabled and do nothing, see `C115_false`. -/
theorem C115_partial {P : List (Op σ Step) → Prop} {work : App.Work σ} (hwork : ∀ s, DoesOnly P (work s))
    {s : Shell σ} (hs : InOrder work P s) :
    (∃ m, push work .undo s.window = .ok m ∧
      (lit s .undo = true ↔ m.world.care.current ≠ s.window.world.care.current)) ∧
    ∃ m, push work .redo s.window = .ok m ∧
      (lit s .redo = true ↔ m.world.care.current ≠ s.window.world.care.current) := by
  obtain ⟨p, hp⟩ := inOrder_stands hwork hs
  obtain ⟨hop, hn⟩ := onScreen_opened (inOrder_onScreen hs)
  obtain ⟨T, _⟩ := opened_tidy hwork hop
  have hw := reachable_inv T.reachable
  obtain ⟨n1, n2, _, _⟩ := navigation_parts hn
  have hap := reachable_apart T.reachable
  obtain ⟨⟨w1, e1, _⟩, w2, e2, _⟩ := undo_path (P := P) T.reachable T.anchored T.pinned 1
  constructor
  · refine ⟨_, by simp only [push, Window.undo, e1, Except.map]; rfl, ?_⟩
    rw [(goOrMake_care _).2.2]
    show s.buttons.undo = true ↔ w1.care.current ≠ _
    rw [canUndo_standsOn hp] at n1
    have hb := except_ok_inj n1
    rw [← hb]
    obtain ⟨k1, k2⟩ := undo_stands hw hp e1
    have k3 := k1.1
    rw [k2] at k3
    simp only [decide_eq_true_eq, Nat.le_refl, true_and]
    constructor
    · intro h1 he
      refine hap (p - 1) _ s.window.world.care.current k3 ?_ he
      rw [Nat.sub_add_cancel h1]; exact hp.1
    · intro hne
      by_contra h0
      obtain rfl : p = 0 := by omega
      rw [Nat.zero_sub, hp.1] at k3
      exact hne (Option.some.inj k3).symm
  · refine ⟨_, by simp only [push, Window.redo, e2, Except.map]; rfl, ?_⟩
    rw [(goOrMake_care _).2.2]
    show s.buttons.redo = true ↔ w2.care.current ≠ _
    rw [canRedo_standsOn hp] at n2
    rw [← n2]
    obtain ⟨q, k1, k2, k4⟩ := redo_stands hw hp e2
    have k3 := k1.1
    rw [k4] at k3
    simp only [decide_eq_true_eq, Nat.le_refl, true_and]
    constructor
    · intro h1 he
      rw [k2 h1] at k3
      exact hap p _ _ hp.1 k3 he.symm
    · intro hne
      by_contra h0
      have hc := canRedo_standsOn hp 1
      have : decide (1 ≤ 1 ∧ p + 1 < s.window.world.care.history.length) = false := by simp; omega
      rw [this] at hc
      rw [(C02_refused_move_changes_nothing _ 1).2 hc] at e2
      cases e2
      exact hne rfl

/-- An orderly window in which Undo and Redo are both enabled. -/
example : ∃ s, InOrder windowWork (fun _ => True) s ∧ lit s .undo = true ∧ lit s .redo = true := by
  obtain ⟨s, h1, h2, h3⟩ := shellSeen_some (bs := []) (v := (15, ⟨true, false, true, false⟩)) (by decide +kernel)
  obtain ⟨s1, k1, k2, k3⟩ := shellSeen_some (bs := [.prev]) (v := (14, ⟨true, false, true, true⟩)) (by decide +kernel)
  obtain ⟨s2, l1, l2, l3⟩ := shellSeen_some (bs := [.undo, .prev]) (v := (15, ⟨true, true, true, false⟩)) (by decide +kernel)
  exact ⟨s2, .clicked (.clicked (.opened (.fresh 0) windowParser_only (shellAt_start h1)) (noEdits rfl) (shellAt_cons k1 h1)
    (.inr (.inr (.inl (by rw [h3]))))) (noEdits rfl) (shellAt_cons l1 k1) (.inl rfl), by simp only [lit, l3], by
      simp only [lit, l3]⟩

/-- C115 is false of all clicks: after Previous, Next, Undo, Undo, Previous, each enabled, Redo is enabled and shows the
timepoint already shown. -/
theorem C115_false : ∃ (work : App.Work Nat) (s s1 : Shell Nat),
    (∀ st, DoesOnly (fun ops => SetsAtMade [] ops ∧ ∀ i, .destroy i ∉ ops) (work st)) ∧
    OnScreen work (fun ops => SetsAtMade [] ops ∧ ∀ i, .destroy i ∉ ops) s ∧
    lit s .redo = true ∧ click work .redo s = .ok s1 ∧ Shell.place s1 = Shell.place s := by
  obtain ⟨s, h1, h2, h3⟩ := shellSeen_some (bs := [.prev, .undo, .undo, .next, .prev])
    (v := (14, ⟨true, true, true, true⟩)) (by decide +kernel)
  obtain ⟨s1, k1, k2, k3⟩ := shellSeen_some (bs := [.redo, .prev, .undo, .undo, .next, .prev])
    (v := (14, ⟨true, true, true, true⟩)) (by decide +kernel)
  exact ⟨windowWork, s, s1, windowWork_only, shellAt_onScreen (noEdits rfl) h1, by simp only [lit, h3],
    shellAt_cons k1 h1, by rw [h2, k2]⟩

/-- C115. After a file that is refused, none of the four buttons does anything. -/
theorem C115_refused {work : App.Work σ} {parser : World σ Step → Except Fault (Option (World σ Step))} {s s' : Shell σ}
    (h : s.openFile work parser = .ok (false, s')) (bs : List (Button σ)) (hb : ∀ st f, .edit st f ∉ bs) :
    clicks work bs s' = .ok s' := by
  have hoff : s'.buttons = .off := by
    simp only [Shell.openFile] at h
    split at h
    · cases h
    · cases h; rfl
    · obtain ⟨q, _, h2⟩ := except_map_ok h; cases h2
  induction bs with
  | nil => rfl
  | cons b bs ih =>
    have hc : click work b s' = .ok s' := by
      cases b with
      | edit st f => exact absurd (List.mem_cons_self ..) (hb st f)
      | _ => simp [click, Shell.meshNext, Shell.meshPrev, Shell.undo, Shell.redo, Shell.trigger, hoff, Buttons.off]
    simp only [clicks, hc]
    exact ih fun st f hm => hb st f (List.mem_cons_of_mem _ hm)

/-- A file that is refused. -/
example : ∃ s : Shell Nat, (newShell.openFile windowWork (fun _ => .ok none)) = .ok (false, s) :=
  ⟨_, rfl⟩

end Verif.Props
