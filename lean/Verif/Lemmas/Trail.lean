import Verif.Lemmas.Window
import Verif.Lemmas.History

/-! What the remembered timepoints become when steps are run and editions made. -/

namespace Verif
open Spec TreeNode

variable {σ : Type}

/-- The remembered timepoints are untouched and so is the current one, or a timepoint was made, which forgets those after
the browsing position. -/
def Trail (w w' : World σ Step) : Prop :=
  (w'.care.history = w.care.history ∧ w'.care.browser = w.care.browser ∧ w'.care.current = w.care.current) ∨
  (w'.care.current ∉ clusterSelf w.care.tree ∧ w'.care.browser = none ∧
    w'.care.history = (forgetFuture w).care.history)

theorem Trail.refl (w : World σ Step) : Trail w w := .inl ⟨rfl, rfl, rfl⟩

theorem forgetFuture_history {w w' : World σ Step} (h1 : w'.care.history = w.care.history)
    (h2 : w'.care.browser = w.care.browser) :
    (forgetFuture w').care.history = (forgetFuture w).care.history := by
  unfold forgetFuture
  rw [h2]
  cases w.care.browser <;> simp [h1]

theorem forgetFuture_none {w : World σ Step} (h : w.care.browser = none) : forgetFuture w = w := by
  simp [forgetFuture, h]

theorem forgetFuture_browser (w : World σ Step) : (forgetFuture w).care.browser = none := by
  unfold forgetFuture
  cases hb : w.care.browser <;> simp [hb]

theorem Trail.trans {w w1 w2 : World σ Step} (g : Grown w w1) (h : Trail w w1) (h' : Trail w1 w2) : Trail w w2 := by
  rcases h' with ⟨a, b, c⟩ | ⟨a, b, c⟩
  · rcases h with ⟨a', b', c'⟩ | ⟨a', b', c'⟩
    · exact .inl ⟨a.trans a', b.trans b', c.trans c'⟩
    · exact .inr ⟨c ▸ a', b.trans b', a.trans c'⟩
  · refine .inr ⟨fun hh => a (g.live hh), b, c.trans ?_⟩
    rcases h with ⟨a', b', _⟩ | ⟨_, b', c'⟩
    · exact forgetFuture_history a' b'
    · rw [forgetFuture_none b', c']

theorem boardOp_trail {w w' : World σ Step} (hw : WInv w) (h : Anchored w) {op : Op σ Step} (hl : Legal w op)
    (hb : BoardOp op) (he : exec w op = .ok w') : Trail w w' := by
  have hon := boardOp_onward hw h hl hb he
  have hmake : ∀ new w2, EditLegal w new → w.makeNextTimepoint new = .ok w2 →
      w2.care.browser = none ∧ w2.care.history = (forgetFuture w).care.history := by
    intro new w2 h1 h2
    obtain ⟨w1, w2', _, k2, _, _, k5, _, k7⟩ := makeNextTimepoint_spec hw h1
    rw [h2] at k2; cases k2
    subst k7
    rcases k5 with rfl | k5
    · exact ⟨forgetFuture_browser w, rfl⟩
    · exact ⟨k5.browser.trans (forgetFuture_browser w), k5.history⟩
  by_cases hed : Edits op
  · right
    refine ⟨hon.1 hed, ?_⟩
    cases op with
    | makeNext new => exact hmake new w' hl he
    | setNext i new s =>
      obtain ⟨w1, w2, k1, k2, _⟩ := makeNextTimepoint_spec hw hl.1
      have := hmake new w2 hl.1 k2
      simp only [exec, World.setNextState, k2, World.setState] at he
      split at he <;> cases he
      exact this
    | _ => exact absurd hed (by simp [Edits])
  · left
    obtain ⟨l, hc⟩ := quietOp_same ⟨hb, hed⟩ he
    rw [hc]
    exact ⟨rfl, rfl, rfl⟩

theorem carefulRun_trail {w w' : World σ Step} {ops : List (Op σ Step)} (hrun : CarefulRun w ops w') :
    Reachable w → Anchored w → (∀ op ∈ ops, BoardOp op) → Trail w w' := by
  induction hrun with
  | nil w => intro _ _ _; exact .refl w
  | @cons w w1 w2 op ops hc he hrest ih =>
    intro hr h hb
    have hw := reachable_inv hr
    have hbo := hb op (List.mem_cons_self ..)
    have hs : Steady w op := by
      cases op <;> first | exact hbo | exact hbo.elim
    obtain ⟨hl, hw', h1, h2⟩ := h.step hw hc hs he
    exact (boardOp_trail hw h hl hbo he).trans h2
      (ih (.step op hr hl he) h1 (fun o ho => hb o (List.mem_cons_of_mem _ ho)))

theorem doesOnly_trail {P : List (Op σ Step) → Prop} {f : World σ Step → Except Fault (World σ Step)} (hf : DoesOnly P f)
    {w w' : World σ Step} (hr : Reachable w) (h : Anchored w) (he : f w = .ok w') : Trail w w' := by
  obtain ⟨ops, h1, h2, _⟩ := hf w w' hr he
  exact carefulRun_trail h1 hr h h2

theorem annotate_care (w : World σ Step) (s : Step) : Trail w (w.annotateCurrent s) := by
  left
  unfold World.annotateCurrent
  split <;> exact ⟨rfl, rfl, rfl⟩

theorem handleAll_trail {P : List (Op σ Step) → Prop} {work : App.Work σ} (hwork : ∀ s, DoesOnly P (work s))
    {steps rest : List Step} {w w' : World σ Step} {log} (hr : Reachable w) (h : Anchored w)
    (he : App.handleAll work steps rest w = .ok (log, w')) : Trail w w' := by
  induction rest generalizing w log with
  | nil => simp only [App.handleAll] at he; cases he; exact .refl _
  | cons s rest ih =>
    simp only [App.handleAll] at he
    split at he
    · split at he
      · cases he
      · rename_i w1 hw1
        split at he
        · cases he
        · rename_i log' w2 hh
          cases he
          have p1 : Path P true w (w.annotateCurrent s) :=
            .op hr h (op := .annotate s) trivial trivial rfl (fun _ => by simp) trivial (fun _ => annotate_current w s)
          have q := (doesOnly_path (hwork s) p1.reachable p1.anchored hw1).1
          exact ((annotate_care w s).trans p1.grown (doesOnly_trail (hwork s) p1.reachable p1.anchored hw1)).trans
            (p1.grown.trans q.grown) (ih q.reachable q.anchored hh)
    · exact ih hr h he

/-- Where the user stands after the timepoint was remembered: still on the same remembered timepoint, or on the one that
follows it. -/
def Follows (w : World σ Step) (p : Nat) (w' : World σ Step) : Prop :=
  (StandsOn w' p ∧ w'.care.current = w.care.current) ∨
  (StandsOn w' (p + 1) ∧ w'.care.history[p]? = some w.care.current)

/-- Remembering after something that left `Trail` from a timepoint `t`. `w1` is the world with the same remembered timepoints
as `w`, moved or not. -/
theorem remember_follows {w w1 w2 w' : World σ Step} {p : Nat} (hw : WInv w) (hs : StandsOn w p)
    (h1 : w1.care.history = w.care.history) (h2 : w1.care.browser = w.care.browser)
    (hl : w1.care.current ∈ clusterSelf w.care.tree)
    (ht : Trail w1 w2) (hr : w2.rememberCurrent = .ok w')
    (ho : w.care.browser = none ∨ w'.care.current ∉ clusterSelf w.care.tree ∨ w'.care.current = w.care.current) :
    Follows w p w' := by
  obtain ⟨hp, hb⟩ := hs
  have hlt : p < w.care.history.length := (List.getElem?_eq_some_iff.mp hp).1
  have hcur := (remember_same' hr).2.2.2.1
  have hpush : ∀ b, w2.care.history.getLast? = some b → b ≠ w2.care.current →
      w'.care.history = w2.care.history ++ [w2.care.current] ∧ w'.care.browser = w2.care.browser := by
    intro b k1 k2
    simp only [World.rememberCurrent, k1, if_pos k2] at hr
    cases hr; exact ⟨rfl, rfl⟩
  have hkeep : ∀ b, w2.care.history.getLast? = some b → b = w2.care.current → w' = w2 := by
    intro b k1 k2
    simp only [World.rememberCurrent, k1, if_neg (not_not.mpr k2)] at hr
    cases hr; rfl
  -- the end of the remembered timepoints is `p`
  have atEnd : w2.care.browser = none → w2.care.history.length = p + 1 → w2.care.history[p]? = some w.care.current →
      Follows w p w' := by
    intro k1 k2 k3
    have kl : w2.care.history.getLast? = some w.care.current := by
      rw [List.getLast?_eq_getElem?, k2]; simpa using k3
    by_cases hc : w.care.current = w2.care.current
    · obtain rfl := hkeep _ kl hc
      exact .inl ⟨⟨by rw [k3, hc], .inr ⟨k1, k2.symm⟩⟩, hc.symm⟩
    · obtain ⟨e1, e2⟩ := hpush _ kl hc
      refine .inr ⟨⟨?_, .inr ⟨e2.trans k1, ?_⟩⟩, ?_⟩
      · rw [e1, hcur, List.getElem?_append_right (by omega), k2]; simp
      · rw [e1]; simp [k2]
      · rw [e1, List.getElem?_append_left (by omega), k3]
  rcases ht with ⟨a, b, c⟩ | ⟨a, b, c⟩
  · rcases hb with hb | ⟨hb, he⟩
    · -- browsing: nothing may have moved
      rcases ho with ho | ho | ho
      · rw [hb] at ho; cases ho
      · exfalso
        rw [hcur, c] at ho
        exact ho hl
      · left
        obtain ⟨b', hb'⟩ : ∃ b', w2.care.history.getLast? = some b' := by
          rw [a, h1]
          exact ⟨_, List.getLast?_eq_some_getLast hw.history_ne⟩
        by_cases hc : b' = w2.care.current
        · obtain rfl := hkeep _ hb' hc
          exact ⟨⟨by rw [a, h1, hp, ho], .inl (by rw [b, h2, hb])⟩, ho⟩
        · obtain ⟨e1, e2⟩ := hpush _ hb' hc
          refine ⟨⟨?_, .inl (by rw [e2, b, h2, hb])⟩, ho⟩
          rw [e1, a, h1, List.getElem?_append_left hlt, hp, ho]
    · exact atEnd (by rw [b, h2, hb]) (by rw [a, h1, he]) (by rw [a, h1, hp])
  · have hf := forgetFuture_history h1 h2
    have hh : (forgetFuture w).care.history.length = p + 1 ∧ (forgetFuture w).care.history[p]? = some w.care.current := by
      rcases hb with hb | ⟨hb, he⟩
      · simp only [forgetFuture, hb]
        refine ⟨by simp; omega, ?_⟩
        rw [List.getElem?_take_of_lt (by omega), hp]
      · rw [forgetFuture_none hb]
        exact ⟨he.symm, hp⟩
    exact atEnd b (by rw [c, hf, hh.1]) (by rw [c, hf, hh.2])

/-- No timepoint is remembered twice in a row. -/
def Apart (l : List Addr) : Prop := ∀ i a b, l[i]? = some a → l[i + 1]? = some b → a ≠ b

theorem Apart.take {l : List Addr} (h : Apart l) (n : Nat) : Apart (l.take n) := by
  intro i a b h1 h2
  rw [List.getElem?_take] at h1 h2
  split at h1
  · split at h2
    · exact h i a b h1 h2
    · cases h2
  · cases h1

theorem Apart.push {l : List Addr} (h : Apart l) {x c : Addr} (hx : l.getLast? = some x) (hc : x ≠ c) :
    Apart (l ++ [c]) := by
  intro i a b h1 h2
  have hne : l ≠ [] := by rintro rfl; cases hx
  have hpos : 0 < l.length := List.length_pos_iff.mpr hne
  by_cases hi : i + 1 < l.length
  · rw [List.getElem?_append_left (by omega)] at h1
    rw [List.getElem?_append_left hi] at h2
    exact h i a b h1 h2
  · by_cases he : i + 1 = l.length
    · rw [List.getElem?_append_left (by omega)] at h1
      rw [he, List.getElem?_append_right (Nat.le_refl _)] at h2
      rw [List.getLast?_eq_getElem?, ← he] at hx
      simp only [Nat.add_sub_cancel] at hx
      rw [hx] at h1
      simp only [Nat.sub_self, List.getElem?_cons_zero, Option.some.injEq] at h1 h2
      rw [← h1, ← h2]; exact hc
    · rw [List.getElem?_append_right (by omega)] at h2
      rw [List.getElem?_eq_none (by simp; omega)] at h2
      cases h2

theorem arriveAt_history {α : Type} {w w' : World σ α} (h : WInv w) {i : Nat} (he : w.arriveAt i = .ok w') :
    w'.care.history = w.care.history := by
  cases hi : w.care.history[i]? with
  | none => simp only [World.arriveAt, hi] at he; cases he
  | some t => rw [arriveAt_spec h hi] at he; cases he; rfl

theorem remember_apart {α : Type} {w w' : World σ α} (h : Apart w.care.history) (he : w.rememberCurrent = .ok w') :
    Apart w'.care.history := by
  simp only [World.rememberCurrent] at he
  split at he
  · cases he
  · rename_i b hb
    split at he
    · rename_i hn; cases he; exact h.push hb hn
    · cases he; exact h

theorem go_history {α : Type} {w w' : World σ α} {t : Option Addr} {b : Bool} (he : w.goWithoutRemembering t = .ok (b, w')) :
    w'.care.history = w.care.history := by
  simp only [World.goWithoutRemembering] at he
  split at he
  · cases he; rfl
  · split at he
    · cases he
    · split at he <;> cases he <;> rfl

theorem reachable_apart {w : World σ Step} (hr : Reachable w) : Apart w.care.history := by
  induction hr with
  | fresh root =>
    intro i a b _ h2
    simp [World.fresh] at h2
  | @step w w' op hr hl he ih =>
    have hw := reachable_inv hr
    have hmake : ∀ new w2, EditLegal w new → w.makeNextTimepoint new = .ok w2 → Apart w2.care.history := by
      intro new w2 h1 h2
      obtain ⟨w1, w2', _, k2, _, _, k5, _, k7⟩ := makeNextTimepoint_spec hw h1
      rw [h2] at k2; cases k2
      subst k7
      have hf : Apart (forgetFuture w).care.history := by
        unfold forgetFuture
        split
        · exact ih
        · exact ih.take _
      rcases k5 with rfl | k5
      · exact hf
      · show Apart w1.care.history
        rw [k5.history]; exact hf
    have hquiet : (BoardOp op ∧ ¬ Edits op) → Apart w'.care.history := by
      intro hq
      obtain ⟨l, hc⟩ := quietOp_same hq he
      rw [hc]; exact ih
    cases op with
    | makeNext new => exact hmake new w' hl he
    | setNext i new s =>
      obtain ⟨w1, w2, k1, k2, _⟩ := makeNextTimepoint_spec hw hl.1
      have := hmake new w2 hl.1 k2
      simp only [exec, World.setNextState, k2, World.setState] at he
      split at he <;> cases he
      exact this
    | undo k =>
      simp only [exec, World.undo] at he
      split at he
      · cases he; exact ih
      · split at he
        · cases he
        · cases he; exact ih
        · split at he
          · rw [arriveAt_history hw he]; exact ih
          · split at he
            · cases he
            · rw [arriveAt_history hw he]; exact ih
    | redo k =>
      simp only [exec, World.redo] at he
      split at he
      · cases he; exact ih
      · split at he
        · cases he; exact ih
        · rw [arriveAt_history hw he]; exact ih
    | goWithoutRemembering t =>
      obtain ⟨⟨b, w1⟩, h1, rfl⟩ := except_map_ok he
      rw [go_history h1]; exact ih
    | goAndRemember t =>
      obtain ⟨⟨b, w1⟩, h1, rfl⟩ := except_map_ok he
      simp only [World.goAndRemember] at h1
      split at h1
      · cases h1
      · rename_i w2 h2; cases h1; rw [go_history h2]; exact ih
      · rename_i w2 h2
        split at h1
        · cases h1
        · rename_i w3 h3
          cases h1
          exact remember_apart (by rw [go_history h2]; exact ih) h3
    | remember => exact remember_apart ih he
    | pin =>
      cases he
      unfold World.pinCurrent
      split <;> exact ih
    | unpin t =>
      simp only [exec, World.unpin] at he
      split at he
      · have hw2 : WInv { w with care := { w.care with pinned := w.care.pinned.filter fun p => some p ≠ t } } :=
          { nodup := hw.nodup, current := hw.current,
            pinned := fun x hx => hw.pinned x (List.mem_filter.mp hx).1
            pinnedNodup := hw.pinnedNodup.filter _,
            historyHead := hw.historyHead, history := hw.history, browser := hw.browser,
            annotations := hw.annotations, objs := hw.objs }
        obtain ⟨w2, h1, h2⟩ := gc_spec hw2
        rw [he] at h1; cases h1
        rw [h2.history]; exact ih
      · cases he; exact ih
    | annotate a =>
      cases he
      unfold World.annotateCurrent
      split <;> exact ih
    | gc =>
      obtain ⟨w2, h1, h2⟩ := gc_spec hw
      simp only [exec] at he
      rw [he] at h1; cases h1
      rw [h2.history]; exact ih
    | setAutoGc b => cases he; exact ih
    | reset =>
      obtain ⟨x, xs, w2, _, h1, _, h3⟩ := reset_spec hw
      simp only [exec] at he
      rw [he] at h1; cases h1
      rw [h3.history]
      intro i a b _ h2
      simp at h2
    | _ => exact hquiet (by simp [BoardOp, Edits])

end Verif
