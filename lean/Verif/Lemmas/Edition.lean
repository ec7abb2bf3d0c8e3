import Verif.Lemmas.App

/-! # An edition keeps what was remembered before it -/

namespace Verif
open Spec TreeNode

variable {σ : Type}

theorem handleAll_head {work : App.Work σ} {steps rest : List Step} {w w' : World σ Step} {s : Step} {t : Addr} {log}
    (h : App.handleAll work steps rest w = .ok ((s, t) :: log, w')) : t = w.care.current := by
  induction rest generalizing w with
  | nil => simp only [App.handleAll] at h; cases h
  | cons x rest ih =>
    simp only [App.handleAll] at h
    split at h
    · split at h
      · cases h
      · split at h
        · cases h
        · cases h; rfl
    · exact ih h

theorem run_head {work : App.Work σ} {steps : List Step} {w w' : World σ Step} {s : Step} {t : Addr} {log}
    (h : App.run work steps w = .ok ((s, t) :: log, w')) : t = w.care.current := by
  simp only [App.run] at h
  split at h
  · cases h
  · split at h
    · cases h
    · rename_i hh _ _ _
      cases h
      exact handleAll_head hh

/-- What is remembered once undone edits can no longer be redone is `H`. -/
def Keeps (H : List Addr) (w : World σ Step) : Prop :=
  (forgetFuture w).care.history = H

/-- `H` is what is remembered, nothing can be redone and the user is not at the last of `H`. -/
def Beyond (H : List Addr) (w : World σ Step) : Prop :=
  w.care.history = H ∧ w.care.browser = none ∧ ∀ b, H.getLast? = some b → b ≠ w.care.current

theorem Beyond.keeps {H : List Addr} {w : World σ Step} (h : Beyond H w) : Keeps H w := by
  unfold Keeps forgetFuture
  rw [h.2.1]
  exact h.1

theorem makeNext_beyond {H : List Addr} {w w' : World σ Step} (h : WInv w) {new : Addr} (hl : EditLegal w new)
    (hk : Keeps H w) (he : w.makeNextTimepoint new = .ok w') : Beyond H w' := by
  obtain ⟨w1, w2, h1, h2, h3, h4, h5, h6, hw2⟩ := makeNextTimepoint_spec h hl
  rw [he] at h2; cases h2
  have hf : (forgetFuture w).care.browser = none := by
    unfold forgetFuture
    cases hb : w.care.browser <;> simp [hb]
  have hw1 : w1.care.history = H ∧ w1.care.browser = none := by
    rcases h5 with rfl | hp
    · exact ⟨hk, hf⟩
    · exact ⟨hp.history.trans hk, hp.browser.trans hf⟩
  subst hw2
  refine ⟨hw1.1, hw1.2, ?_⟩
  rintro b hb rfl
  exact h6 (h3.history _ (by rw [hw1.1]; exact List.mem_of_getLast? hb))

theorem boardOp_keeps {H : List Addr} {w w' : World σ Step} (h : WInv w) {op : Op σ Step} (hl : Legal w op)
    (hb : BoardOp op) (he : exec w op = .ok w') :
    (Keeps H w → Keeps H w') ∧ (Beyond H w → Beyond H w') ∧ (Keeps H w → Edits op → Beyond H w') := by
  by_cases hed : Edits op
  · have key : Keeps H w → Beyond H w' := by
      intro hk
      cases op with
      | makeNext new => exact makeNext_beyond h hl hk he
      | setNext i new s =>
        obtain ⟨w1, w2, k1, k2, _⟩ := makeNextTimepoint_spec h hl.1
        simp only [exec, World.setNextState, k2, World.setState] at he
        split at he <;> cases he
        exact (show Beyond H w2 from makeNext_beyond h hl.1 hk k2)
      | _ => exact absurd hed (by simp [Edits])
    exact ⟨fun hk => (key hk).keeps, fun hk => key hk.keeps, fun hk _ => key hk⟩
  · obtain ⟨l, hc⟩ := quietOp_same ⟨hb, hed⟩ he
    refine ⟨?_, ?_, fun _ hh => absurd hh hed⟩
    · unfold Keeps forgetFuture
      rw [hc]
      cases hbr : w.care.browser <;> simp [hc]
    · unfold Beyond
      rw [hc]
      exact id

theorem boardRun_keeps {H : List Addr} {w w' : World σ Step} {ops : List (Op σ Step)} (hr : LegalRun w ops w')
    (h : WInv w) (hb : ∀ op ∈ ops, BoardOp op) :
    (Keeps H w → Keeps H w') ∧ (Beyond H w → Beyond H w') ∧ (Keeps H w → (∃ op ∈ ops, Edits op) → Beyond H w') := by
  induction hr with
  | nil => simp
  | @cons w w1 w2 op ops hl he hr ih =>
    obtain ⟨a1, a2, a3⟩ := boardOp_keeps (H := H) h hl (hb op (by simp)) he
    obtain ⟨w1', e1, e2⟩ := exec_inv h op hl
    rw [he] at e1; cases e1
    obtain ⟨b1, b2, b3⟩ := ih e2 (fun o ho => hb o (by simp [ho]))
    refine ⟨fun k => b1 (a1 k), fun k => b2 (a2 k), ?_⟩
    rintro k ⟨o, ho, hoe⟩
    rcases List.mem_cons.mp ho with rfl | ho
    · exact b2 (a3 k hoe)
    · exact b3 (a1 k) ⟨o, ho, hoe⟩

theorem handleAll_beyond {H : List Addr} {work : App.Work σ} (hwork : DomainWork work) {steps rest : List Step}
    {w w' : World σ Step} {log} (hw : Reachable w) (hk : Beyond H w)
    (h : App.handleAll work steps rest w = .ok (log, w')) : Beyond H w' := by
  induction rest generalizing w log with
  | nil => simp only [App.handleAll] at h; cases h; exact hk
  | cons s rest ih =>
    simp only [App.handleAll] at h
    split at h
    · split at h
      · cases h
      · rename_i w1 hw1
        split at h
        · cases h
        · rename_i log' w2 hh
          cases h
          have hwa : Reachable (w.annotateCurrent s) := .step (.annotate s) hw trivial rfl
          have hka : Beyond H (w.annotateCurrent s) := by
            unfold World.annotateCurrent
            split
            · exact hk
            · exact hk
          obtain ⟨ops, hr, hb⟩ := hwork s _ _ hwa hw1
          exact ih (hr.reachable hwa) ((boardRun_keeps hr (reachable_inv hwa) hb).2.1 hka) hh
    · exact ih hw hk h

theorem except_map_ok {α β ε : Type} {f : α → β} {x : Except ε α} {y : β} (h : x.map f = .ok y) : ∃ a, x = .ok a ∧ f a = y := by
  cases x with
  | error e => cases h
  | ok a => exact ⟨a, rfl, by cases h; rfl⟩

/-- Object `i` is registered, shows `v` at the remembered timepoint `t`, and none of the timepoints `made` leads to `t`. -/
structure Track (H : List Addr) (i : Nat) (t : Addr) (v : Option σ) (made : List Addr) (w : World σ Step) : Prop where
  inv : WInv w
  keeps : Keeps H w
  reg : ∃ o, Registered w i o ∧ shownAt w o t = v ∧ ∀ a ∈ made, o.init ≠ some a
  made : ∀ a ∈ made, ¬ AncOrSelf w a t

theorem Track.live {H : List Addr} {i : Nat} {t : Addr} {v : Option σ} {made : List Addr} {w : World σ Step}
    (T : Track H i t v made w) (ht : t ∈ H) : Live w t := by
  have := T.inv.forgetFuture.history t (by rw [show _ = H from T.keeps]; exact ht)
  rw [(forgetFuture_care w).1] at this
  exact live_iff.mpr this

theorem stop_registered {w w1 : World σ Step} {i : Nat} {o : Originator σ}
    (hp : w1 = forgetFuture w ∨ GcPost (forgetFuture w) w1) (hr : Registered w i o) :
    ∃ o1, Registered w1 i o1 ∧ o1.init = o.init := by
  rcases hp with rfl | hp
  · exact ⟨o, registered_forget.mpr hr, rfl⟩
  · have hr' := registered_forget.mpr hr
    obtain ⟨o1, h1, h2, _⟩ := hp.objs i hr'.1 o hr'.2
    exact ⟨o1, ⟨(hp.originators i).mpr ⟨hr'.1, by simp [hr'.2]⟩, h1⟩, h2.init⟩

theorem stop_anc {w w1 : World σ Step} (hp : w1 = forgetFuture w ∨ GcPost (forgetFuture w) w1) {a t : Addr}
    (ht : t ∈ clusterSelf w1.care.tree) (h : AncOrSelf w1 a t) : AncOrSelf w a t := by
  rcases hp with rfl | hp
  · simpa [AncOrSelf, (forgetFuture_care w).1] using h
  · obtain ⟨l, hl, hm⟩ := ancOrSelf_iff.mp h
    rw [hp.chain t ((hp.live t).mp ht), (forgetFuture_care w).1] at hl
    exact ancOrSelf_iff.mpr ⟨l, hl, hm⟩

/-- Making a timepoint. -/
theorem Track.makeNext {H : List Addr} {i : Nat} {t : Addr} {v : Option σ} {made : List Addr} {w w' : World σ Step}
    (T : Track H i t v made w) (ht : t ∈ H) {new : Addr} (hl : EditLegal w new)
    (he : w.makeNextTimepoint new = .ok w') : Track H i t v (new :: made) w' := by
  obtain ⟨w1, w2, h1, h2, h3, h4, h5, h6, hw2⟩ := makeNextTimepoint_spec T.inv hl
  rw [he] at h2; cases h2
  have hB := makeNext_beyond T.inv hl T.keeps he
  obtain ⟨o, hr, hsh, hin⟩ := T.reg
  obtain ⟨o1, hr1, hi1⟩ := stop_registered h5 hr
  have hlive' : Live w' t := live_iff.mpr (h4.history t (by rw [hB.1]; exact ht))
  have hh1 : w1.care.history = H := by
    have := hB.1
    rw [hw2] at this
    exact this
  have hlive1 : t ∈ clusterSelf w1.care.tree := h3.history t (by rw [hh1]; exact ht)
  have hne : new ≠ t := fun hh => h6 (hh ▸ hlive1)
  have ho' : w'.objs i = some o1 := by rw [hw2]; exact hr1.2
  have hr' : Registered w' i o1 := ⟨by rw [hw2]; exact hr1.1, ho'⟩
  have hanc : ∀ a, AncOrSelf w' a t → a ≠ new ∧ AncOrSelf w a t := by
    intro a ha
    obtain ⟨l, hl', hm⟩ := ancOrSelf_iff.mp ha
    rw [hw2] at hl'
    simp only [chain_addChild_other _ _ _ _ (Ne.symm hne)] at hl'
    have hm1 := chain_subset _ _ _ hl' _ hm
    refine ⟨fun hh => h6 (hh ▸ hm1), stop_anc h5 hlive1 (ancOrSelf_iff.mpr ⟨l, hl', hm⟩)⟩
  refine ⟨h4, hB.keeps, ⟨o1, hr', ?_, ?_⟩, ?_⟩
  · rw [makeNext_shown T.inv hl he hr ho' hlive' hne, hsh]
  · intro a ha
    rcases List.mem_cons.mp ha with rfl | ha
    · intro hh
      obtain ⟨as, d, hinv⟩ := h3.objs i hr1.1 o1 hr1.2
      rw [hinv.init] at hh
      cases hh
      exact h6 (hinv.live _ hinv.mem_init)
    · rw [hi1]; exact hin a ha
  · intro a ha hh
    rcases List.mem_cons.mp ha with rfl | ha
    · exact (hanc _ hh).1 rfl
    · exact T.made a ha (hanc _ hh).2

/-- A call that leaves the tree alone. -/
theorem Track.same {H : List Addr} {i : Nat} {t : Addr} {v : Option σ} {made : List Addr} {w w' : World σ Step}
    (T : Track H i t v made w) (ht : t ∈ H) {op : Op σ Step} (hl : Legal w op) (he : exec w op = .ok w')
    (hk : Keeps H w') (htree : w'.care.tree = w.care.tree) (hna : ¬ Allocates op t) (hns : ¬ SetsFor w i t op)
    (hreg : ∀ o, Registered w i o → ∃ o', Registered w' i o' ∧ o'.init = o.init) : Track H i t v made w' := by
  obtain ⟨o, hr, hsh, hin⟩ := T.reg
  obtain ⟨o', hr', hi'⟩ := hreg o hr
  obtain ⟨w2, h1, h2⟩ := exec_inv T.inv op hl
  rw [he] at h1; cases h1
  have hlive := T.live ht
  refine ⟨h2, hk, ⟨o', hr', ?_, fun a ha => by rw [hi']; exact hin a ha⟩, ?_⟩
  · rw [step_shown T.inv hl he hr hr' hlive (by simpa [Live, htree] using hlive) hna hns, hsh]
  · intro a ha
    simpa [AncOrSelf, htree] using T.made a ha

theorem Track.setState {H : List Addr} {i : Nat} {t : Addr} {v : Option σ} {made : List Addr} {w w' : World σ Step}
    (T : Track H i t v made w) (ht : t ∈ H) {j : Nat} {a : Addr} (ha : a ∈ made) {s : σ}
    (hl : Legal w (.setState j (some a) s : Op σ Step)) (he : w.setState j (some a) s = .ok w') : Track H i t v made w' := by
  have hc : w'.care = w.care := by
    simp only [World.setState] at he
    split at he <;> cases he
    rfl
  refine T.same ht (op := .setState j (some a) s) hl he ?_ (by rw [hc]) (by simp [Allocates]) ?_ ?_
  · have := T.keeps
    unfold Keeps forgetFuture at this ⊢
    rw [hc]
    cases hb : w.care.browser <;> simp only [hb, hc] at this ⊢ <;> exact this
  · rintro ⟨rfl, h | ⟨o, ho, hi⟩⟩
    · exact T.made a ha h
    · obtain ⟨o2, hr2, _, hin⟩ := T.reg
      rw [hr2.2] at ho; cases ho
      exact hin a ha hi
  · intro o hr
    simp only [World.setState] at he
    split at he
    · cases he
    · rename_i oj hoj
      cases he
      by_cases hij : i = j
      · subst hij
        rw [hr.2] at hoj; cases hoj
        exact ⟨o.setState (some a) s, ⟨hr.1, by simp [setObj_objs]⟩, by
          unfold Originator.setState; split
          · rfl
          · split <;> rfl⟩
      · exact ⟨o, ⟨hr.1, by simp [setObj_objs, hij, hr.2]⟩, rfl⟩

/-- Domain calls. -/
theorem Track.run {H : List Addr} {i : Nat} {t : Addr} {v : Option σ} {w w' : World σ Step} {ops : List (Op σ Step)}
    (hrun : LegalRun w ops w') : ∀ {made : List Addr}, Track H i t v made w → t ∈ H → (∀ op ∈ ops, BoardOp op) →
    SetsAtMade made ops → (.destroy i ∉ ops) → ∃ made', Track H i t v made' w' := by
  induction hrun with
  | nil => intro made T _ _ _ _; exact ⟨made, T⟩
  | @cons w w1 w2 op ops hl he hrest ih =>
    intro made T ht hb hs hd
    have hb' : ∀ op ∈ ops, BoardOp op := fun o ho => hb o (by simp [ho])
    have hd' : Op.destroy i ∉ ops := fun hh => hd (by simp [hh])
    have hk1 := (boardOp_keeps (H := H) T.inv hl (hb op (by simp)) he).1 T.keeps
    cases op with
    | makeNext new => exact ih (T.makeNext ht hl he) ht hb' hs hd'
    | setNext j new s =>
      obtain ⟨hle, oj, hoj⟩ := hl
      obtain ⟨w3, w4, k1, k2, k3, k4, k5, k6, k7⟩ := makeNextTimepoint_spec T.inv hle
      have T1 := T.makeNext ht hle k2
      simp only [exec, World.setNextState, k2] at he
      obtain ⟨oj1, hoj1⟩ := Option.isSome_iff_exists.mp (stop_objs (i := j) k5 (by simp [hoj]))
      have hsl := setLegal_new k3 k6 hoj1
      rw [← k7] at hsl
      have hcur : w4.care.current = new := by rw [k7]
      exact ih (T1.setState ht (by simp) hsl (by simpa [hcur] using he)) ht hb' hs hd'
    | setState j u s =>
      obtain ⟨⟨a, ha, rfl⟩, hs⟩ := hs
      exact ih (T.setState ht ha hl he) ht hb' hs hd'
    | create j c u s =>
      have hsame : w1.care.tree = w.care.tree ∧ ∀ o, Registered w i o → Registered w1 i o := by
        have key : ∀ o, Registered w i o → i ≠ j := by
          rintro o hr rfl
          have := hl.1
          rw [hr.2] at this; cases this
        simp only [exec, World.takeCareOf] at he
        have hbase : ∀ o, Registered w i o → (w.create j c (some u) s).objs i = some o := by
          intro o hr
          simp [World.create, setObj_objs, key o hr, hr.2]
        split at he
        · cases he
          exact ⟨rfl, fun o hr => ⟨hr.1, hbase o hr⟩⟩
        · split at he
          · cases he
            exact ⟨rfl, fun o hr => ⟨hr.1, hbase o hr⟩⟩
          · split at he
            · cases he
            · split at he <;> cases he <;>
              exact ⟨rfl, fun o hr => ⟨by first | exact hr.1 | simp [World.create, World.setObj, hr.1], hbase o hr⟩⟩
      exact ih (T.same ht hl he hk1 hsame.1 (by simp [Allocates]) (by simp [SetsFor])
        (fun o hr => ⟨o, hsame.2 o hr, rfl⟩)) ht hb' hs hd'
    | createUnregistered j c u s =>
      have hsame : w1.care = w.care ∧ ∀ o, Registered w i o → Registered w1 i o := by
        cases he
        refine ⟨rfl, fun o hr => ⟨hr.1, ?_⟩⟩
        have hij : i ≠ j := by
          rintro rfl
          have := hl.1
          rw [hr.2] at this; cases this
        simp [World.create, setObj_objs, hij, hr.2]
      exact ih (T.same ht hl he hk1 (by rw [hsame.1]) (by simp [Allocates]) (by simp [SetsFor])
        (fun o hr => ⟨o, hsame.2 o hr, rfl⟩)) ht hb' hs hd'
    | destroy j =>
      have hij : i ≠ j := by rintro rfl; exact hd (by simp)
      have hsame : w1.care.tree = w.care.tree ∧ ∀ o, Registered w i o → Registered w1 i o := by
        cases he
        exact ⟨rfl, fun o hr => ⟨hr.1, by simp [World.destroy, setObj_objs, hij, hr.2]⟩⟩
      exact ih (T.same ht hl he hk1 hsame.1 (by simp [Allocates]) (by simp [SetsFor])
        (fun o hr => ⟨o, hsame.2 o hr, rfl⟩)) ht hb' hs hd'
    | read j =>
      have hsame : w1.care = w.care ∧ ∀ o, Registered w i o → ∃ o', Registered w1 i o' ∧ o'.init = o.init := by
        obtain ⟨oj, hrj, hoj⟩ := hl
        obtain ⟨as, d, hinv⟩ := T.inv.objs j hrj oj hoj
        obtain ⟨l, hl⟩ := chain_of_mem T.inv.current
        obtain ⟨s, hs, hg⟩ := hinv.getCurrentState T.inv.nodup hl
        simp only [exec, World.getCurrentState, hoj, hg] at he
        cases he
        refine ⟨rfl, fun o hr => ?_⟩
        by_cases hij : i = j
        · subst hij
          rw [hr.2] at hoj; cases hoj
          exact ⟨_, ⟨hr.1, by rw [setObj_objs, if_pos rfl]⟩, by exact rfl⟩
        · exact ⟨o, ⟨hr.1, by simp [setObj_objs, hij, hr.2]⟩, rfl⟩
      exact ih (T.same ht hl he hk1 (by rw [hsame.1]) (by simp [Allocates]) (by simp [SetsFor])
        (fun o hr => hsame.2 o hr)) ht hb' hs hd'
    | _ => exact (hb _ (List.mem_cons_self ..)).elim

/-- Running steps. -/
theorem Track.handleAll {H : List Addr} {i : Nat} {t : Addr} {v : Option σ} {work : App.Work σ}
    (hwork : SparingWork i work) {steps rest : List Step} {w w' : World σ Step} {log}
    (hw : Reachable w) (T : Track H i t v [] w) (ht : t ∈ H)
    (h : App.handleAll work steps rest w = .ok (log, w')) : Track H i t v [] w' := by
  induction rest generalizing w log with
  | nil => simp only [App.handleAll] at h; cases h; exact T
  | cons s rest ih =>
    simp only [App.handleAll] at h
    split at h
    · split at h
      · cases h
      · rename_i w1 hw1
        split at h
        · cases h
        · rename_i log' w2 hh
          cases h
          have hl : Legal w (.annotate s : Op σ Step) := trivial
          have hwa : Reachable (w.annotateCurrent s) := .step (.annotate s) hw hl rfl
          have hc : (w.annotateCurrent s).care.tree = w.care.tree ∧ (w.annotateCurrent s).objs = w.objs ∧
              (w.annotateCurrent s).care.originators = w.care.originators ∧
              (forgetFuture (w.annotateCurrent s)).care.history = (forgetFuture w).care.history := by
            unfold World.annotateCurrent
            split <;>
            · refine ⟨rfl, rfl, rfl, ?_⟩
              unfold forgetFuture
              cases w.care.browser <;> rfl
          have Ta : Track H i t v [] (w.annotateCurrent s) :=
            T.same ht (op := .annotate s) hl rfl (hc.2.2.2.trans T.keeps) hc.1 (by simp [Allocates]) (by simp [SetsFor])
              (fun o hr => ⟨o, ⟨by rw [hc.2.2.1]; exact hr.1, by rw [hc.2.1]; exact hr.2⟩, rfl⟩)
          obtain ⟨ops, hr, hb, hm, hd⟩ := hwork s _ _ hwa hw1
          obtain ⟨made', T'⟩ := Track.run hr Ta ht hb hm hd
          exact ih (hr.reachable hwa) ⟨T'.inv, T'.keeps, T'.reg.imp fun o h => ⟨h.1, h.2.1, by simp⟩, by simp⟩ hh
    · exact ih hw T h

theorem StandsOn.keeps {w : World σ Step} {p : Nat} (hp : StandsOn w p) : Keeps (w.care.history.take (p + 1)) w := by
  unfold Keeps forgetFuture
  rcases hp.2 with hb | ⟨hb, hl⟩
  · rw [hb]
  · rw [hb, hl]; simp

/-- Going before a step is a legal move that keeps what is remembered. -/
theorem goBefore_spec {w w1 : World σ Step} {s : Step} (hg : App.goBefore s w = .ok w1) :
    w1 = w ∨ ∃ t, Legal w (.goWithoutRemembering (some t) : Op σ Step) ∧
      exec w (.goWithoutRemembering (some t)) = .ok w1 ∧ ∀ H, Keeps H w → Keeps H w1 := by
  simp only [App.goBefore] at hg
  split at hg
  · cases hg
  · rename_i t ht
    split at hg
    · cases hg
    · rename_i b w1' hgo
      cases hg
      cases t with
      | none =>
        simp only [World.goWithoutRemembering] at hgo
        cases hgo
        exact .inl rfl
      | some t =>
        have hlive : t ∈ w.care.tree.clusterSelf := by
          simp only [World.findFirstAncestorWithAnnotationThat] at ht
          split at ht
          · cases ht
          · rename_i l hl
            have ht := except_ok_inj ht
            have hm := List.mem_of_find?_eq_some ht
            simp only [TreeNode.ancestors, Bool.false_eq_true, if_false, Option.map_eq_some_iff] at hl
            obtain ⟨c, hc, rfl⟩ := hl
            exact TreeNode.chain_subset _ _ _ hc t (List.mem_of_mem_tail hm)
        refine .inr ⟨t, ?_, by simp [exec, hgo, Except.map], ?_⟩
        · rintro a ⟨rfl⟩
          exact live_iff.mpr hlive
        · intro H hH
          rw [goWithoutRemembering_eq hlive] at hgo
          cases hgo
          unfold Keeps forgetFuture at hH ⊢
          cases hbr : w.care.browser <;> simp only [hbr] at hH ⊢ <;> exact hH

/-- An edition, then the steps from it on. -/
theorem Track.edition {H : List Addr} {i : Nat} {t : Addr} {v : Option σ} {work : App.Work σ}
    (hwork : SparingWork i work) {w w2 : World σ Step} (hw : Reachable w) (T : Track H i t v [] w) (ht : t ∈ H)
    {s : Step} {edit : World σ Step → Except Fault (World σ Step)} (hedit : EditionWork edit) {log}
    (h : App.handleEditionFrom work s edit w = .ok (log, w2)) :
    Reachable w2 ∧ WInv w2 ∧ ∃ o, Registered w2 i o ∧ shownAt w2 o t = v := by
  have hwork' : DomainWork work := fun s w w' hw h => by
    obtain ⟨ops, h1, h2, _⟩ := hwork s w w' hw h
    exact ⟨ops, h1, h2⟩
  simp only [App.handleEditionFrom] at h
  split at h
  · cases h
  · rename_i w1 hg
    have hw1 : Reachable w1 ∧ Track H i t v [] w1 := by
      rcases goBefore_spec hg with rfl | ⟨u, hl, he, hk⟩
      · exact ⟨hw, T⟩
      · have hlive := live_iff.mp (hl u rfl)
        refine ⟨.step _ hw hl he, ?_⟩
        have hg' := goWithoutRemembering_eq (w := w) hlive
        have hew := he
        simp only [exec, hg', Except.map, Except.ok.injEq] at hew
        refine T.same ht hl he (hk H T.keeps) (by rw [← hew]) (by simp [Allocates]) (by simp [SetsFor]) ?_
        intro o hr
        refine ⟨o.go (some u), ⟨by rw [← hew]; exact hr.1, ?_⟩, rfl⟩
        rw [← hew]
        simp only
        rw [goAll_eq, if_pos hr.1, hr.2]; rfl
    split at h
    · cases h
    · rename_i we hwe
      obtain ⟨ops, hr, hb, hed, hm, hd⟩ := hedit _ _ hw1.1 hwe
      obtain ⟨made, Te⟩ := Track.run hr hw1.2 ht hb hm (hd i)
      have hre := hr.reachable hw1.1
      have Te' : Track H i t v [] we := ⟨Te.inv, Te.keeps, Te.reg.imp fun o h => ⟨h.1, h.2.1, by simp⟩, by simp⟩
      split at h
      · cases h
      · rename_i log' w3 hrun
        cases h
        simp only [App.runFromStep, App.run] at hrun
        split at hrun
        · cases hrun
        · rename_i l5 w5 hall
          have T5 := Track.handleAll hwork hre Te' ht hall
          have hr5 := handleAll_reachable hwork' hre hall
          split at hrun
          · cases hrun
          · rename_i w6 hrem
            cases hrun
            have hr3 : Reachable w3 := .step .remember hr5 trivial hrem
            have hr2 : Reachable w3.pinCurrent := .step .pin hr3 trivial rfl
            obtain ⟨o5, ho5, hs5, _⟩ := T5.reg
            have hc3 : w3.care.tree = w5.care.tree ∧ w3.objs = w5.objs ∧ w3.care.originators = w5.care.originators := by
              simp only [World.rememberCurrent] at hrem
              split at hrem
              · cases hrem
              · split at hrem <;> cases hrem <;> exact ⟨rfl, rfl, rfl⟩
            have hc2 : w3.pinCurrent.care.tree = w5.care.tree ∧ w3.pinCurrent.objs = w5.objs ∧
                w3.pinCurrent.care.originators = w5.care.originators := by
              unfold World.pinCurrent; split <;> exact hc3
            refine ⟨hr2, reachable_inv hr2, o5, ⟨by rw [hc2.2.2]; exact ho5.1, by rw [hc2.2.1]; exact ho5.2⟩, ?_⟩
            rw [shownAt_tree hc2.1, hs5]

end Verif
