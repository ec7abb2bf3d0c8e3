import Verif.Spec.Window
import Verif.Lemmas.Edition

/-! # Used from the window, the history frees nothing -/

namespace Verif
open Spec TreeNode

variable {σ : Type}

/-- Every live timepoint leads to a pinned one or to the current one. -/
def Anchored (w : World σ Step) : Prop :=
  ∀ a, Live w a → (∃ p ∈ w.care.pinned, AncOrSelf w a p) ∨ AncOrSelf w a w.care.current

/-- Nothing live in `w` was freed, moved, unpinned or lost its annotation. -/
structure Grown (w w' : World σ Step) : Prop where
  chain : ∀ a ∈ clusterSelf w.care.tree, chain w'.care.tree a = chain w.care.tree a
  pinned : ∀ p ∈ w.care.pinned, p ∈ w'.care.pinned
  annotations : ∀ a s, w.care.annotations.lookup a = some s → w'.care.annotations.lookup a = some s

theorem Grown.refl (w : World σ Step) : Grown w w := ⟨fun _ _ => rfl, fun _ h => h, fun _ _ h => h⟩

theorem Grown.live {w w' : World σ Step} (g : Grown w w') {a : Addr} (h : a ∈ clusterSelf w.care.tree) :
    a ∈ clusterSelf w'.care.tree := by
  obtain ⟨l, hl⟩ := chain_of_mem h
  exact mem_of_chain ((g.chain a h).trans hl)

theorem Grown.trans {w w1 w2 : World σ Step} (g : Grown w w1) (g' : Grown w1 w2) : Grown w w2 :=
  ⟨fun a h => (g'.chain a (g.live h)).trans (g.chain a h), fun p h => g'.pinned p (g.pinned p h),
    fun a s h => g'.annotations a s (g.annotations a s h)⟩

theorem Grown.anc {w w' : World σ Step} (g : Grown w w') {a t : Addr} (h : t ∈ clusterSelf w.care.tree) :
    AncOrSelf w' a t ↔ AncOrSelf w a t := by
  rw [ancOrSelf_iff, ancOrSelf_iff, g.chain t h]

/-- A collection made by an edit would free nothing. -/
theorem Anchored.needed {w : World σ Step} (h : Anchored w) {a : Addr} (ha : a ∈ clusterSelf w.care.tree) :
    Needed (forgetFuture w) a := by
  obtain ⟨c1, c2⟩ := forgetFuture_care w
  have hp : (forgetFuture w).care.pinned = w.care.pinned := by
    unfold forgetFuture; cases w.care.browser <;> rfl
  have hc : (forgetFuture w).care.current = w.care.current := by
    unfold forgetFuture; cases w.care.browser <;> rfl
  have hanc : ∀ x y, AncOrSelf w x y → AncOrSelf (forgetFuture w) x y := by
    intro x y hxy
    simpa [AncOrSelf, c1] using hxy
  rcases h a (live_iff.mpr ha) with ⟨p, h1, h2⟩ | h1
  · exact ⟨p, .inl (hp ▸ h1), hanc _ _ h2⟩
  · exact ⟨w.care.current, .inr (.inr hc.symm), hanc _ _ h1⟩

theorem Anchored.births {w : World σ Step} (hw : WInv w) (h : Anchored w) : BirthsNeeded (forgetFuture w) := by
  intro i o hr a ha
  have hr := registered_forget.mp hr
  obtain ⟨as, d, hinv⟩ := hw.objs i hr.1 o hr.2
  rw [hinv.init] at ha; cases ha
  exact h.needed (hinv.live _ hinv.mem_init)

theorem Anchored.legal {w : World σ Step} (hw : WInv w) (h : Anchored w) {op : Op σ Step} (hc : Careful w op) :
    Legal w op := by
  cases op with
  | makeNext new => exact ⟨fun _ _ => h.births hw, hc⟩
  | setNext i new s => exact ⟨⟨fun _ _ => h.births hw, hc.1⟩, hc.2⟩
  | _ => exact hc

/-- Making a timepoint. -/
theorem Anchored.makeNext {w w' : World σ Step} (hw : WInv w) (h : Anchored w) {new : Addr} (hl : EditLegal w new)
    (he : w.makeNextTimepoint new = .ok w') :
    Anchored w' ∧ Grown w w' ∧ new ∉ clusterSelf w.care.tree ∧ w'.care.current = new := by
  obtain ⟨w1, w2, h1, h2, h3, h4, h5, h6, hw2⟩ := makeNextTimepoint_spec hw hl
  rw [he] at h2; cases h2
  have hf := forgetFuture_care w
  have hpf : (forgetFuture w).care.pinned = w.care.pinned ∧ (forgetFuture w).care.current = w.care.current ∧
      (forgetFuture w).care.annotations = w.care.annotations := by
    unfold forgetFuture; cases w.care.browser <;> exact ⟨rfl, rfl, rfl⟩
  have g1 : Grown w w1 ∧ w1.care.pinned = w.care.pinned ∧ w1.care.current = w.care.current ∧
      ∀ a ∈ clusterSelf w1.care.tree, a ∈ clusterSelf w.care.tree := by
    rcases h5 with rfl | hp
    · exact ⟨⟨fun a _ => by rw [hf.1], fun p hp => by rw [hpf.1]; exact hp, fun a s hs => by rw [hpf.2.2]; exact hs⟩,
        hpf.1, hpf.2.1, fun a ha => by rwa [hf.1] at ha⟩
    · refine ⟨⟨fun a ha => ?_, fun p hh => ?_, fun a s hs => ?_⟩, hp.pinned.trans hpf.1, hp.current.trans hpf.2.1,
        fun a ha => ?_⟩
      · rw [hp.chain a (h.needed ha), hf.1]
      · rw [hp.pinned, hpf.1]; exact hh
      · by_cases hl : a ∈ clusterSelf w.care.tree
        · rw [hp.lookup a (h.needed hl), hpf.2.2]; exact hs
        · exact absurd ((ann_of_not_live hw hl).symm.trans hs) (by simp)
      · have := Needed.live ((hp.live a).mp ha)
        rwa [hf.1] at this
  have hnew : new ∉ clusterSelf w.care.tree := fun hh => h6 (g1.1.live hh)
  have hch : ∀ a ∈ clusterSelf w1.care.tree, chain w'.care.tree a = chain w1.care.tree a := by
    intro a ha
    rw [hw2]
    exact chain_addChild_other _ _ _ _ (fun hh => h6 (hh ▸ ha))
  have g2 : Grown w1 w' := ⟨hch, fun p hp => by rw [hw2]; exact hp, fun a s hs => by rw [hw2]; exact hs⟩
  obtain ⟨lc, hlc⟩ := chain_of_mem h3.current
  have hnc : chain w'.care.tree new = some (new :: lc) := by
    rw [hw2]
    exact chain_addChild_new _ _ _ _ h3.nodup h6 hlc
  have hcur : w'.care.current = new := by rw [hw2]
  refine ⟨?_, g1.1.trans g2, hnew, hcur⟩
  intro a ha
  rw [live_iff, hw2, mem_addChild] at ha
  rcases ha with ha | ⟨rfl, _⟩
  · have haw := g1.2.2.2 a ha
    rcases h a (live_iff.mpr haw) with ⟨p, hp, hap⟩ | hc
    · have hpl := hw.pinned p hp
      exact .inl ⟨p, (g1.1.trans g2).pinned p hp, ((g1.1.trans g2).anc hpl).mpr hap⟩
    · right
      rw [hcur]
      obtain ⟨l, hl1, hl2⟩ := ancOrSelf_iff.mp hc
      rw [ancOrSelf_iff, hnc]
      rw [← g1.1.chain _ hw.current, ← g1.2.2.1, hlc] at hl1
      cases hl1
      exact ⟨_, rfl, List.mem_cons_of_mem _ hl2⟩
  · right
    rw [hcur, ancOrSelf_iff, hnc]
    exact ⟨_, rfl, List.mem_cons_self ..⟩

/-- What the window makes the history do: calls of the domain, annotating, remembering, pinning; and moving, from a pinned
timepoint. -/
def Steady (w : World σ Step) : Op σ Step → Prop
  | .annotate _ | .remember | .pin => True
  | .undo _ | .redo _ | .goWithoutRemembering _ | .goAndRemember _ => w.care.current ∈ w.care.pinned
  | op => BoardOp op

/-- A call that leaves the tree alone. -/
theorem Anchored.same {w w' : World σ Step} (h : Anchored w) (ht : w'.care.tree = w.care.tree)
    (hp : ∀ p ∈ w.care.pinned, p ∈ w'.care.pinned)
    (ha : ∀ a s, w.care.annotations.lookup a = some s → w'.care.annotations.lookup a = some s)
    (hc : w'.care.current = w.care.current ∨ w.care.current ∈ w.care.pinned) : Anchored w' ∧ Grown w w' := by
  refine ⟨?_, fun a _ => by rw [ht], hp, ha⟩
  intro a hl
  have hanc : ∀ x y, AncOrSelf w x y → AncOrSelf w' x y := by
    intro x y hxy
    simpa [AncOrSelf, ht] using hxy
  rcases h a (by simpa [Live, ht] using hl) with ⟨p, h1, h2⟩ | h1
  · exact .inl ⟨p, hp p h1, hanc _ _ h2⟩
  · rcases hc with hc | hc
    · right; rw [hc]; exact hanc _ _ h1
    · exact .inl ⟨_, hp _ hc, hanc _ _ h1⟩

theorem remember_same' {w w' : World σ Step} (h : w.rememberCurrent = .ok w') : w'.care.tree = w.care.tree ∧
    w'.care.pinned = w.care.pinned ∧ w'.care.annotations = w.care.annotations ∧ w'.care.current = w.care.current ∧
    w'.objs = w.objs ∧ w'.care.originators = w.care.originators := by
  simp only [World.rememberCurrent] at h
  split at h
  · cases h
  · split at h <;> cases h <;> exact ⟨rfl, rfl, rfl, rfl, rfl, rfl⟩

/-- Each such call frees nothing. -/
theorem Anchored.step {w w' : World σ Step} (hw : WInv w) (h : Anchored w) {op : Op σ Step} (hc : Careful w op)
    (hs : Steady w op) (he : exec w op = .ok w') : Legal w op ∧ WInv w' ∧ Anchored w' ∧ Grown w w' := by
  have hl := h.legal hw hc
  obtain ⟨w2, e1, e2⟩ := exec_inv hw op hl
  rw [he] at e1; cases e1
  refine ⟨hl, e2, ?_⟩
  have arrive : ∀ {k}, (∃ u, w.care.history[k]? = some u) → w.arriveAt k = .ok w' → w.care.current ∈ w.care.pinned →
      Anchored w' ∧ Grown w w' := by
    rintro k ⟨u, hk⟩ he hp
    rw [arriveAt_spec hw hk] at he
    cases he
    exact h.same rfl (fun _ h => h) (fun _ _ h => h) (.inr hp)
  have quiet : BoardOp op ∧ ¬ Edits op → Anchored w' ∧ Grown w w' := by
    intro hq
    obtain ⟨l, hcare⟩ := quietOp_same hq he
    exact h.same (by rw [hcare]) (by rw [hcare]; exact fun _ h => h) (by rw [hcare]; exact fun _ _ h => h)
      (.inl (by rw [hcare]))
  cases op with
  | makeNext new =>
    obtain ⟨h1, h2, _⟩ := h.makeNext hw hl he
    exact ⟨h1, h2⟩
  | setNext i new s =>
    obtain ⟨w1, w2, k1, k2, _⟩ := makeNextTimepoint_spec hw hl.1
    obtain ⟨h1, h2, _⟩ := h.makeNext hw hl.1 k2
    simp only [exec, World.setNextState, k2, World.setState] at he
    split at he <;> cases he
    obtain ⟨h3, h4⟩ := h1.same (w' := w2.setObj i _) rfl (fun _ h => h) (fun _ _ h => h) (.inl rfl)
    exact ⟨h3, h2.trans h4⟩
  | undo k =>
    rcases undo_spec hw k with h1 | ⟨j, t, h1, h2, _⟩
    · simp only [exec, h1] at he; cases he; exact ⟨h, .refl w⟩
    · exact arrive ⟨t, h1⟩ (h2.symm.trans he) hs
  | redo k =>
    rcases redo_spec hw k with h1 | ⟨j, t, h1, h2, _⟩
    · simp only [exec, h1] at he; cases he; exact ⟨h, .refl w⟩
    · exact arrive ⟨t, h1⟩ (h2.symm.trans he) hs
  | goWithoutRemembering t =>
    cases t with
    | none => cases he; exact ⟨h, .refl w⟩
    | some t =>
      simp only [exec, goWithoutRemembering_eq (live_iff.mp (hl t rfl)), Except.map] at he
      cases he
      exact h.same rfl (fun _ h => h) (fun _ _ h => h) (.inr hs)
  | goAndRemember t =>
    cases t with
    | none => cases he; exact ⟨h, .refl w⟩
    | some t =>
      obtain ⟨r, h1, h2⟩ := except_map_ok he
      simp only [World.goAndRemember, goWithoutRemembering_eq (live_iff.mp (hl t rfl))] at h1
      split at h1
      · cases h1
      · rename_i w3 h3
        cases h1; cases h2
        obtain ⟨r1, r2, r3, _⟩ := remember_same' h3
        exact h.same r1 (by rw [r2]; exact fun _ h => h) (by rw [r3]; exact fun _ _ h => h) (.inr hs)
  | remember =>
    obtain ⟨r1, r2, r3, r4, _⟩ := remember_same' he
    exact h.same r1 (by rw [r2]; exact fun _ h => h) (by rw [r3]; exact fun _ _ h => h) (.inl r4)
  | pin =>
    cases he
    unfold World.pinCurrent
    split
    · exact h.same rfl (fun _ h => List.mem_append_left _ h) (fun _ _ h => h) (.inl rfl)
    · exact ⟨h, .refl w⟩
  | annotate s =>
    cases he
    unfold World.annotateCurrent
    split
    · exact ⟨h, .refl w⟩
    · refine h.same rfl (fun _ h => h) (fun a r hr => ?_) (.inl rfl)
      simp [List.lookup_append, hr]
  | setState i t s => exact quiet ⟨trivial, id⟩
  | create i c t s => exact quiet ⟨trivial, id⟩
  | createUnregistered i c t s => exact quiet ⟨trivial, id⟩
  | destroy i => exact quiet ⟨trivial, id⟩
  | read i => exact quiet ⟨trivial, id⟩
  | _ => exact hs.elim

/-- Such a call keeps the registered objects, but the one it destroys. -/
theorem reg_step {w w' : World σ Step} (hw : WInv w) {op : Op σ Step} (hl : Legal w op) (hs : Steady w op)
    (he : exec w op = .ok w') {i : Nat} {o : Originator σ} (hr : Registered w i o) (hd : op ≠ .destroy i) :
    ∃ o', Registered w' i o' ∧ o'.init = o.init := by
  have moved : ∀ {k}, (∃ u, w.care.history[k]? = some u) → w.arriveAt k = .ok w' →
      ∃ o', Registered w' i o' ∧ o'.init = o.init := by
    rintro k ⟨u, hk⟩ he
    rw [arriveAt_spec hw hk] at he
    cases he
    refine ⟨o.go (some u), ⟨hr.1, ?_⟩, rfl⟩
    simp only
    rw [goAll_eq, if_pos hr.1, hr.2]; rfl
  have set : ∀ (w1 w2 : World σ Step) (j : Nat) (t : Option Addr) (s : σ) (o1 : Originator σ), Registered w1 i o1 →
      w1.setState j t s = .ok w2 → ∃ o', Registered w2 i o' ∧ o'.init = o1.init := by
    intro w1 w2 j t s o1 hr1 he1
    simp only [World.setState] at he1
    split at he1
    · cases he1
    · rename_i oj hoj
      cases he1
      by_cases hij : i = j
      · subst hij
        rw [hr1.2] at hoj; cases hoj
        exact ⟨o1.setState t s, ⟨hr1.1, by simp [setObj_objs]⟩, by
          unfold Originator.setState; split
          · rfl
          · split <;> rfl⟩
      · exact ⟨o1, ⟨hr1.1, by simp [setObj_objs, hij, hr1.2]⟩, rfl⟩
  have make : ∀ {new : Addr} (w2 : World σ Step), EditLegal w new → w.makeNextTimepoint new = .ok w2 →
      ∃ o', Registered w2 i o' ∧ o'.init = o.init := by
    intro new w2 hle k
    obtain ⟨w1, w3, h1, h2, h3, h4, h5, h6, hw3⟩ := makeNextTimepoint_spec hw hle
    rw [k] at h2; cases h2
    obtain ⟨o1, hr1, hi1⟩ := stop_registered h5 hr
    exact ⟨o1, ⟨by rw [hw3]; exact hr1.1, by rw [hw3]; exact hr1.2⟩, hi1⟩
  cases op with
  | makeNext new => exact make _ hl he
  | setNext j new s =>
    obtain ⟨w1, w2, k1, k2, _⟩ := makeNextTimepoint_spec hw hl.1
    obtain ⟨o1, hr1, hi1⟩ := make _ hl.1 k2
    simp only [exec, World.setNextState, k2] at he
    obtain ⟨o2, hr2, hi2⟩ := set _ _ _ _ _ _ hr1 he
    exact ⟨o2, hr2, hi2.trans hi1⟩
  | undo k =>
    rcases undo_spec hw k with h1 | ⟨j, t, h1, h2, _⟩
    · simp only [exec, h1] at he; cases he; exact ⟨o, hr, rfl⟩
    · exact moved ⟨t, h1⟩ (h2.symm.trans he)
  | redo k =>
    rcases redo_spec hw k with h1 | ⟨j, t, h1, h2, _⟩
    · simp only [exec, h1] at he; cases he; exact ⟨o, hr, rfl⟩
    · exact moved ⟨t, h1⟩ (h2.symm.trans he)
  | goWithoutRemembering t =>
    cases t with
    | none => cases he; exact ⟨o, hr, rfl⟩
    | some t =>
      simp only [exec, goWithoutRemembering_eq (live_iff.mp (hl t rfl)), Except.map] at he
      cases he
      refine ⟨o.go (some t), ⟨hr.1, ?_⟩, rfl⟩
      simp only
      rw [goAll_eq, if_pos hr.1, hr.2]; rfl
  | goAndRemember t =>
    cases t with
    | none => cases he; exact ⟨o, hr, rfl⟩
    | some t =>
      obtain ⟨r, h1, h2⟩ := except_map_ok he
      simp only [World.goAndRemember, goWithoutRemembering_eq (live_iff.mp (hl t rfl))] at h1
      split at h1
      · cases h1
      · rename_i w3 h3
        cases h1; cases h2
        obtain ⟨_, _, _, _, r5, r6⟩ := remember_same' h3
        refine ⟨o.go (some t), ⟨by rw [r6]; exact hr.1, ?_⟩, rfl⟩
        rw [r5]
        simp only
        rw [goAll_eq, if_pos hr.1, hr.2]; rfl
  | remember =>
    obtain ⟨_, _, _, _, r5, r6⟩ := remember_same' he
    exact ⟨o, ⟨by rw [r6]; exact hr.1, by rw [r5]; exact hr.2⟩, rfl⟩
  | pin =>
    cases he
    unfold World.pinCurrent
    split <;> exact ⟨o, hr, rfl⟩
  | annotate s =>
    cases he
    unfold World.annotateCurrent
    split <;> exact ⟨o, hr, rfl⟩
  | setState j t s => exact set _ _ _ _ _ _ hr he
  | create j c u s =>
    have hij : i ≠ j := by
      rintro rfl
      have := hl.1
      rw [hr.2] at this; cases this
    have hbase : (w.create j c (some u) s).objs i = some o := by
      simp [World.create, setObj_objs, hij, hr.2]
    simp only [exec, World.takeCareOf] at he
    split at he
    · cases he; exact ⟨o, ⟨hr.1, hbase⟩, rfl⟩
    · split at he
      · cases he; exact ⟨o, ⟨hr.1, hbase⟩, rfl⟩
      · split at he
        · cases he
        · split at he <;> cases he <;>
          exact ⟨o, ⟨by first | exact hr.1 | simp [World.create, World.setObj, hr.1], hbase⟩, rfl⟩
  | createUnregistered j c u s =>
    cases he
    have hij : i ≠ j := by
      rintro rfl
      have := hl.1
      rw [hr.2] at this; cases this
    exact ⟨o, ⟨hr.1, by simp [World.create, setObj_objs, hij, hr.2]⟩, rfl⟩
  | destroy j =>
    cases he
    have hij : i ≠ j := by rintro rfl; exact hd rfl
    exact ⟨o, ⟨hr.1, by simp [World.destroy, setObj_objs, hij, hr.2]⟩, rfl⟩
  | read j =>
    obtain ⟨oj, hrj, hoj⟩ := hl
    obtain ⟨as, d, hinv⟩ := hw.objs j hrj oj hoj
    obtain ⟨l, hl⟩ := chain_of_mem hw.current
    obtain ⟨s, hs, hg⟩ := hinv.getCurrentState hw.nodup hl
    simp only [exec, World.getCurrentState, hoj, hg] at he
    cases he
    by_cases hij : i = j
    · subst hij
      rw [hr.2] at hoj; cases hoj
      exact ⟨_, ⟨hr.1, by rw [setObj_objs, if_pos rfl]⟩, by exact rfl⟩
    · exact ⟨o, ⟨hr.1, by simp [setObj_objs, hij, hr.2]⟩, rfl⟩
  | _ => exact hs.elim

/-- Object `i` is registered, shows `v` at the live timepoint `t`, and none of the timepoints `made` leads to `t`. -/
structure Saw (i : Nat) (t : Addr) (v : Option σ) (made : List Addr) (w : World σ Step) : Prop where
  live : Live w t
  reg : ∃ o, Registered w i o ∧ shownAt w o t = v ∧ ∀ a ∈ made, o.init ≠ some a
  made : ∀ a ∈ made, ¬ AncOrSelf w a t

/-- The timepoint a call makes. -/
def makes : Op σ Step → List Addr
  | .makeNext new => [new]
  | .setNext _ new _ => [new]
  | _ => []

/-- Is the state set at a timepoint of `made`? -/
def SetsAt (made : List Addr) : Op σ Step → Prop
  | .setState _ t _ => ∃ a ∈ made, t = some a
  | _ => True

theorem Saw.step {w w' : World σ Step} (hw : WInv w) (h : Anchored w) {op : Op σ Step} (hc : Careful w op)
    (hs : Steady w op) (he : exec w op = .ok w') {i : Nat} {t : Addr} {v : Option σ} {made : List Addr}
    (T : Saw i t v made w) (hd : op ≠ .destroy i) (hset : SetsAt made op) : Saw i t v (makes op ++ made) w' := by
  obtain ⟨hl, hw', _, g⟩ := h.step hw hc hs he
  obtain ⟨o, hr, hsh, hin⟩ := T.reg
  obtain ⟨o', hr', hi'⟩ := reg_step hw hl hs he hr hd
  have hlive := live_iff.mp T.live
  have hnew : ∀ a ∈ makes op, a ∉ clusterSelf w.care.tree := by
    intro a ha
    cases op with
    | makeNext new =>
      simp only [makes, List.mem_singleton] at ha; subst ha
      exact (h.makeNext hw hl he).2.2.1
    | setNext j new s =>
      simp only [makes, List.mem_singleton] at ha; subst ha
      obtain ⟨w1, w2, k1, k2, _⟩ := makeNextTimepoint_spec hw hl.1
      exact (h.makeNext hw hl.1 k2).2.2.1
    | _ => simp [makes] at ha
  obtain ⟨as, d, hinv⟩ := hw.objs i hr.1 o hr.2
  refine ⟨live_iff.mpr (g.live hlive), ⟨o', hr', ?_, ?_⟩, ?_⟩
  · refine (step_shown hw hl he hr hr' T.live (live_iff.mpr (g.live hlive)) ?_ ?_).trans hsh
    · intro hal
      cases op with
      | makeNext new => exact hnew new (by simp [makes]) ((show new = t from hal) ▸ hlive)
      | setNext j new s => exact hnew new (by simp [makes]) ((show new = t from hal) ▸ hlive)
      | _ => exact hal
    · intro hsf
      cases op with
      | setState j u s =>
        obtain ⟨a, ha, rfl⟩ := hset
        obtain ⟨rfl, hh | ⟨o2, ho2, hi2⟩⟩ := hsf
        · exact T.made a ha hh
        · rw [hr.2] at ho2; cases ho2
          exact hin a ha hi2
      | _ => exact hsf
  · intro a ha
    rw [hi']
    rcases List.mem_append.mp ha with ha | ha
    · intro hh
      rw [hinv.init] at hh; cases hh
      exact hnew _ ha (hinv.live _ hinv.mem_init)
    · exact hin a ha
  · intro a ha hh
    rw [g.anc hlive] at hh
    rcases List.mem_append.mp ha with ha | ha
    · obtain ⟨l, hl1, hl2⟩ := ancOrSelf_iff.mp hh
      exact hnew a ha (chain_subset _ _ _ hl1 _ hl2)
    · exact T.made a ha hh

/-- What a part of a press keeps: the world stays legal, nothing is freed, and what objects that are not destroyed show
at the timepoints there were stays. When `on`, the current timepoint is left only for a new one. -/
structure Path (P : List (Op σ Step) → Prop) (on : Bool) (w w' : World σ Step) : Prop where
  reachable : Reachable w'
  anchored : Anchored w'
  grown : Grown w w'
  seen : ∀ i, (∀ ops, P ops → SetsAtMade [] ops ∧ .destroy i ∉ ops) → ∀ t v, Saw i t v [] w → Saw i t v [] w'
  onward : on = true → w'.care.current = w.care.current ∨ w'.care.current ∉ clusterSelf w.care.tree

theorem Path.trans {P : List (Op σ Step) → Prop} {on : Bool} {w w1 w2 : World σ Step} (h : Path P on w w1)
    (h' : Path P on w1 w2) : Path P on w w2 := by
  refine ⟨h'.reachable, h'.anchored, h.grown.trans h'.grown, fun i hi t v T => h'.seen i hi t v (h.seen i hi t v T),
    fun ho => ?_⟩
  rcases h'.onward ho with k | k
  · rw [k]; exact h.onward ho
  · exact .inr fun hh => k (h.grown.live hh)

theorem Path.refl {P : List (Op σ Step) → Prop} {on : Bool} {w : World σ Step} (h : Reachable w) (h' : Anchored w) :
    Path P on w w :=
  ⟨h, h', .refl w, fun _ _ _ _ T => T, fun _ => .inl rfl⟩

theorem Path.weaken {P : List (Op σ Step) → Prop} {on : Bool} {w w' : World σ Step} (h : Path P on w w') :
    Path P false w w' := ⟨h.reachable, h.anchored, h.grown, h.seen, fun hh => absurd hh (by simp)⟩

theorem Saw.forget {i : Nat} {t : Addr} {v : Option σ} {made : List Addr} {w : World σ Step} (T : Saw i t v made w) :
    Saw i t v [] w := ⟨T.live, T.reg.imp fun _ h => ⟨h.1, h.2.1, by simp⟩, by simp⟩

/-- One call of the window. -/
theorem Path.op {P : List (Op σ Step) → Prop} {on : Bool} {w w' : World σ Step} (hr : Reachable w) (h : Anchored w)
    {op : Op σ Step} (hc : Careful w op) (hs : Steady w op) (he : exec w op = .ok w') (hd : ∀ i, op ≠ .destroy i)
    (hset : SetsAt [] op) (ho : on = true → w'.care.current = w.care.current) : Path P on w w' := by
  have hw := reachable_inv hr
  obtain ⟨hl, hw', h1, h2⟩ := h.step hw hc hs he
  exact ⟨.step op hr hl he, h1, h2, fun i _ t v T => (T.step hw h hc hs he (hd i) hset).forget, fun k => .inl (ho k)⟩

/-- Where a call of the domain goes. -/
theorem boardOp_onward {w w' : World σ Step} (hw : WInv w) (h : Anchored w) {op : Op σ Step} (hl : Legal w op)
    (hb : BoardOp op) (he : exec w op = .ok w') :
    (Edits op → w'.care.current ∉ clusterSelf w.care.tree) ∧ (¬ Edits op → w'.care.current = w.care.current) := by
  by_cases hed : Edits op
  · refine ⟨fun _ => ?_, fun hh => absurd hed hh⟩
    cases op with
    | makeNext new =>
      obtain ⟨_, _, h3, h4⟩ := h.makeNext hw hl he
      rw [h4]; exact h3
    | setNext i new s =>
      obtain ⟨w1, w2, k1, k2, _⟩ := makeNextTimepoint_spec hw hl.1
      obtain ⟨_, _, h3, h4⟩ := h.makeNext hw hl.1 k2
      simp only [exec, World.setNextState, k2, World.setState] at he
      split at he <;> cases he
      show w2.care.current ∉ _
      rw [h4]; exact h3
    | _ => exact absurd hed (by simp [Edits])
  · refine ⟨fun hh => absurd hh hed, fun _ => ?_⟩
    obtain ⟨l, hc⟩ := quietOp_same ⟨hb, hed⟩ he
    rw [hc]

/-- Calls of the domain. -/
theorem carefulRun_path {w w' : World σ Step} {ops : List (Op σ Step)} (hrun : CarefulRun w ops w') :
    Reachable w → Anchored w → (∀ op ∈ ops, BoardOp op) → Reachable w' ∧ Anchored w' ∧ Grown w w' ∧
    (∀ i t v made, SetsAtMade made ops → .destroy i ∉ ops → Saw i t v made w → Saw i t v [] w') ∧
    (w'.care.current = w.care.current ∨ w'.care.current ∉ clusterSelf w.care.tree) ∧
    ((∃ op ∈ ops, Edits op) → w'.care.current ∉ clusterSelf w.care.tree) := by
  induction hrun with
  | nil w => intro h1 h2 _; exact ⟨h1, h2, .refl w, fun i t v made _ _ T => T.forget, .inl rfl, by simp⟩
  | @cons w w1 w2 op ops hc he hrest ih =>
    intro hr h hb
    have hw := reachable_inv hr
    have hbo := hb op (List.mem_cons_self ..)
    have hs : Steady w op := by
      cases op <;> first | exact hbo | exact hbo.elim
    obtain ⟨hl, hw', h1, h2⟩ := h.step hw hc hs he
    obtain ⟨k1, k2, k3, k4, k5, k6⟩ := ih (.step op hr hl he) h1 (fun o ho => hb o (List.mem_cons_of_mem _ ho))
    have hon := boardOp_onward hw h hl hbo he
    refine ⟨k1, k2, h2.trans k3, ?_, ?_, ?_⟩
    · intro i t v made hset hd T
      have hd1 : op ≠ .destroy i := fun hh => hd (hh ▸ List.mem_cons_self ..)
      have hd2 : Op.destroy i ∉ ops := fun hh => hd (List.mem_cons_of_mem _ hh)
      have hsa : SetsAt made op ∧ SetsAtMade (makes op ++ made) ops := by
        cases op <;> first | exact ⟨trivial, hset⟩ | exact hset
      exact k4 i t v _ hsa.2 hd2 (T.step hw h hc hs he hd1 hsa.1)
    · rcases k5 with k | k
      · rw [k]
        by_cases hed : Edits op
        · exact .inr (hon.1 hed)
        · exact .inl (hon.2 hed)
      · exact .inr fun hh => k (h2.live hh)
    · rintro ⟨o, ho, hoe⟩
      rcases List.mem_cons.mp ho with rfl | ho
      · rcases k5 with k | k
        · rw [k]; exact hon.1 hoe
        · exact fun hh => k (h2.live hh)
      · exact fun hh => k6 ⟨o, ho, hoe⟩ (h2.live hh)

theorem doesOnly_path {P : List (Op σ Step) → Prop} {f : World σ Step → Except Fault (World σ Step)} (hf : DoesOnly P f)
    {w w' : World σ Step} (hr : Reachable w) (h : Anchored w) (he : f w = .ok w') :
    Path P true w w' ∧ ((∀ ops, P ops → ∃ op ∈ ops, Edits op) → w'.care.current ∉ clusterSelf w.care.tree) := by
  obtain ⟨ops, h1, h2, h3⟩ := hf w w' hr he
  obtain ⟨k1, k2, k3, k4, k5, k6⟩ := carefulRun_path h1 hr h h2
  exact ⟨⟨k1, k2, k3, fun i hi t v T => k4 i t v [] (hi ops h3).1 (hi ops h3).2 T, fun _ => k5⟩,
    fun hP => k6 (hP ops h3)⟩

theorem annotate_current (w : World σ Step) (s : Step) : (w.annotateCurrent s).care.current = w.care.current := by
  unfold World.annotateCurrent; split <;> rfl

/-- Steps. -/
theorem handleAll_path {P : List (Op σ Step) → Prop} {work : App.Work σ} (hwork : ∀ s, DoesOnly P (work s))
    {steps rest : List Step} {w w' : World σ Step} {log} (hr : Reachable w) (h : Anchored w)
    (he : App.handleAll work steps rest w = .ok (log, w')) : Path P true w w' := by
  induction rest generalizing w log with
  | nil => simp only [App.handleAll] at he; cases he; exact .refl hr h
  | cons s rest ih =>
    simp only [App.handleAll] at he
    split at he
    · split at he
      · cases he
      · rename_i w1 hw1
        split at he
        · cases he
        · rename_i log' w2 hh
          cases he
          have p1 : Path P true w (w.annotateCurrent s) :=
            .op hr h (op := .annotate s) trivial trivial rfl (fun _ => by simp) trivial (fun _ => annotate_current w s)
          have p2 := p1.trans (doesOnly_path (hwork s) p1.reachable p1.anchored hw1).1
          exact p2.trans (ih p2.reachable p2.anchored hh)
    · exact ih hr h he

theorem run_path {P : List (Op σ Step) → Prop} {work : App.Work σ} (hwork : ∀ s, DoesOnly P (work s))
    {steps : List Step} {w w' : World σ Step} {log} (hr : Reachable w) (h : Anchored w)
    (he : App.run work steps w = .ok (log, w')) : Path P true w w' := by
  simp only [App.run] at he
  split at he
  · cases he
  · rename_i log' w1 h1
    split at he
    · cases he
    · rename_i w2 h2
      cases he
      have p1 := handleAll_path hwork hr h h1
      exact p1.trans (.op p1.reachable p1.anchored (op := .remember) trivial trivial h2 (fun _ => by simp) trivial
        (fun _ => (remember_same' h2).2.2.2.1))

theorem runNextStep_path {P : List (Op σ Step) → Prop} {work : App.Work σ} (hwork : ∀ s, DoesOnly P (work s))
    {w w' : World σ Step} {log} (hr : Reachable w) (h : Anchored w)
    (he : App.runNextStep work w = .ok (log, w')) : Path P true w w' := by
  simp only [App.runNextStep] at he
  split at he
  · cases he
  · split at he
    · split at he
      · exact run_path hwork hr h he
      · cases he; exact .refl hr h
    · exact run_path hwork hr h he

theorem goBefore_path {P : List (Op σ Step) → Prop} {w w' : World σ Step} (hr : Reachable w) (h : Anchored w)
    (hp : w.care.current ∈ w.care.pinned) {s : Step} (he : App.goBefore s w = .ok w') : Path P false w w' := by
  rcases goBefore_spec he with rfl | ⟨u, hl, he, _⟩
  · exact .refl hr h
  · exact .op hr h (op := .goWithoutRemembering (some u)) hl hp he (fun _ => by simp) trivial (by simp)

/-- Going before the previous step never fails. -/
theorem goBeforePrevious_path {P : List (Op σ Step) → Prop} {w : World σ Step} (hr : Reachable w) (h : Anchored w)
    (hp : w.care.current ∈ w.care.pinned) : ∃ w', App.goBeforePreviousStep w = .ok w' ∧ Path P false w w' := by
  have hw := reachable_inv hr
  obtain ⟨l, hl⟩ := chain_of_mem hw.current
  have ht : ∃ t, w.findFirstAncestorWithAnnotation false = .ok t ∧ ∀ a, t = some a → Live w a := by
    simp only [World.findFirstAncestorWithAnnotation, World.findFirstAncestorWithAnnotationThat, TreeNode.ancestors, hl]
    refine ⟨_, rfl, ?_⟩
    intro a ha
    have hm := List.mem_of_find?_eq_some ha
    exact live_iff.mpr (chain_subset _ _ _ hl a (List.mem_of_mem_tail hm))
  obtain ⟨t, ht, hlive⟩ := ht
  obtain ⟨w', e1, e2⟩ := exec_inv hw (.goAndRemember t) hlive
  obtain ⟨r, h1, h2⟩ := except_map_ok e1
  obtain ⟨b, w1⟩ := r
  subst h2
  refine ⟨w1, ?_, .op hr h (op := .goAndRemember t) hlive hp e1 (fun _ => by simp) trivial (by simp)⟩
  simp only [App.goBeforePreviousStep, ht, h1]

theorem undo_path {P : List (Op σ Step) → Prop} {w : World σ Step} (hr : Reachable w) (h : Anchored w)
    (hp : w.care.current ∈ w.care.pinned) (k : Nat) : (∃ w', w.undo k = .ok w' ∧ Path P false w w') ∧
    ∃ w', w.redo k = .ok w' ∧ Path P false w w' := by
  have hw := reachable_inv hr
  obtain ⟨w1, e1, _⟩ := exec_inv hw (.undo k) trivial
  obtain ⟨w2, e2, _⟩ := exec_inv hw (.redo k) trivial
  exact ⟨⟨w1, e1, .op hr h (op := .undo k) trivial hp e1 (fun _ => by simp) trivial (by simp)⟩,
    ⟨w2, e2, .op hr h (op := .redo k) trivial hp e2 (fun _ => by simp) trivial (by simp)⟩⟩

theorem pinCurrent_mem (w : World σ Step) : w.pinCurrent.care.current ∈ w.pinCurrent.care.pinned ∧
    w.pinCurrent.care.current = w.care.current := by
  unfold World.pinCurrent
  split
  · exact ⟨by simp, rfl⟩
  · rename_i hc
    simp only [ne_eq, List.all_eq_true, decide_eq_true_eq] at hc
    refine ⟨?_, rfl⟩
    by_contra hn
    exact hc fun x hx hxe => hn (hxe ▸ hx)

theorem pin_path {P : List (Op σ Step) → Prop} {w : World σ Step} (hr : Reachable w) (h : Anchored w) :
    Path P true w w.pinCurrent :=
  .op hr h (op := .pin) trivial trivial rfl (fun _ => by simp) trivial (fun _ => (pinCurrent_mem w).2)

end Verif
