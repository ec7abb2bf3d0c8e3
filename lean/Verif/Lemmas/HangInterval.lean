import Verif.Lemmas.Hang
import Verif.Lemmas.Woven
import Verif.Lemmas.Run

/-! # Meshing again after an interval was edited -/

namespace Verif.Mesh
open Spec List

/-! ## Loops that never end -/

theorem findLs_loop_flat {sm dmax s : ℚ} (hd : dmax ≤ 0) {c : ℚ} (hc : c ≤ 0) (hs : 0 < s) :
    findLs.loop sm dmax s dmax c = none := by
  cases hr : findLs.loop sm dmax s dmax c with
  | none => rfl
  | some r =>
    exfalso
    refine findLs.loop.partial_correctness sm dmax s (fun d c _ => d = dmax → c ≤ 0 → False) ?_ dmax c r hr rfl hc
    intro f hf d c r hr h hc
    subst h
    rw [if_pos (by linarith)] at hr
    obtain ⟨rest, hrest, -⟩ := Option.bind_eq_some_iff.1 hr
    simp only [lt_irrefl, if_false] at hrest
    exact hf _ _ _ hrest rfl (by linarith)

theorem findLs_flat {d sm dmax : ℚ} (hd : dmax ≤ 0) (h : dmax ≤ d) (s : ℚ) :
    findLs d sm dmax s = none ∨ findLs d sm dmax s = some [] := by
  unfold findLs
  rw [min_eq_right h]
  by_cases hs : 0 < s
  · exact Or.inl (findLs_loop_flat hd le_rfl hs)
  · right
    rw [findLs.loop, if_neg hs]

theorem adjustD_loop_flat {dInit : ℚ → ℚ} {sm dmax h : ℚ} (hd : dmax ≤ 0) (lmin : Nat) {d : ℚ} (h1 : dmax ≤ d) (h2 : d ≤ 0) :
    adjustD.loop dInit sm dmax h lmin d [] = none := by
  cases hr : adjustD.loop dInit sm dmax h lmin d [] with
  | none => rfl
  | some r =>
    exfalso
    refine adjustD.loop.partial_correctness dInit sm dmax h lmin (fun d ls _ => dmax ≤ d → d ≤ 0 → ls = [] → False) ?_ d [] r hr
      h1 h2 rfl
    intro f hf d ls r hr h1 h2 hls
    subst hls
    have hv : isLsValid [] d sm dmax lmin = false := by
      unfold isLsValid
      split <;> rfl
    rw [hv] at hr
    simp only [Bool.false_eq_true, if_false] at hr
    obtain ⟨ls, hls, hr⟩ := Option.bind_eq_some_iff.1 hr
    have h3 : dmax ≤ d - d / 1000 := by linarith
    rcases findLs_flat (sm := sm) hd h3 (h - dInit (d - d / 1000)) with e | e
    · rw [e] at hls; cases hls
    · rw [e] at hls
      exact hf _ _ _ hr h3 (by linarith) (Option.some.inj hls).symm

/-- An interval the limit of which is not positive is not solved. -/
theorem autoSolveD_low {i : Interval} {ps : Policies} (hi : i.dmax ≤ 0) (hd : i.dmax ≤ (ps i.before.policy).d) :
    i.autoSolveD ps = none := by
  cases hr : i.autoSolveD ps with
  | none => rfl
  | some r =>
    exfalso
    simp only [Interval.autoSolveD, Side.updateLs, adjustD, Option.bind_eq_bind, Option.bind_eq_some_iff, Option.pure_def,
      Option.some.injEq] at hr
    obtain ⟨b1, ⟨lb, hlb, rfl⟩, a1, ⟨la, hla, rfl⟩, b2, ⟨lb', hlb', rfl⟩, a2, ⟨la', hla', rfl⟩, db, hdb, -⟩ := hr
    simp only at hlb' hdb
    rcases findLs_flat (sm := i.before.smoothness) hi hd
      (i.h - dInitBefore (ps i.before.policy) (ps i.before.policy).d) with e | e
    · rw [e] at hlb'; cases hlb'
    · rw [e] at hlb'
      rw [← Option.some.inj hlb', min_eq_right hd, adjustD_loop_flat hi _ le_rfl hi] at hdb
      cases hdb

theorem autoSolveD_flat {i : Interval} {ps : Policies} (hi : i.dmax ≤ 0) (hd : 0 < (ps i.before.policy).d) :
    i.autoSolveD ps = none := autoSolveD_low hi (hi.trans hd.le)

/-- Lines that get closer by a factor below 1 never get as far as the sum of what is left. -/
theorem findLs_short {d sm dmax s : ℚ} (h0 : 0 ≤ sm) (h1 : sm < 1) (hd0 : 0 ≤ d) (hd : d < dmax) (hs : 0 < s)
    (h : sm * d ≤ (1 - sm) * s) : findLs d sm dmax s = none := by
  unfold findLs
  rw [min_eq_left hd.le]
  cases hr : findLs.loop sm dmax s d 0 with
  | none => rfl
  | some r =>
    exfalso
    refine findLs.loop.partial_correctness sm dmax s
      (fun d c _ => 0 ≤ d → d < dmax → c < s → sm * d ≤ (1 - sm) * (s - c) → False) ?_ d 0 r hr hd0 hd hs (by linarith)
    intro f hf d c r hr hd0 hd hc h
    rw [if_pos hc] at hr
    obtain ⟨rest, hrest, -⟩ := Option.bind_eq_some_iff.1 hr
    have hle : d * sm ≤ d := by nlinarith
    rw [if_pos hd, if_neg (by linarith)] at hrest
    have hp : 0 ≤ d * sm := mul_nonneg hd0 h0
    refine hf _ _ _ hrest hp (by linarith) ?_ ?_
    · by_contra hge
      push Not at hge
      have h3 : s - c ≤ d * sm := by linarith
      have h4 : 0 < s - c := by linarith
      rcases h0.eq_or_lt with e | hpos
      · rw [← e] at h3; linarith
      · nlinarith
    · nlinarith

/-- What keeps the side of an interval from being solved: a smoothness below 1, with policies closer than the limit, and too
far from the middle for lines that get closer and closer. -/
def ShortSide (sm d dmax h : ℚ) : Prop := 0 ≤ sm ∧ sm < 1 ∧ d < dmax ∧ d < h ∧ sm * d ≤ (1 - sm) * (h - d)

/-- What keeps an interval from being solved. -/
def Interval.Stuck (i : Interval) (ps : Policies) : Prop :=
  0 < (ps i.before.policy).d ∧ 0 < (ps i.after.policy).d ∧ (i.dmax ≤ 0 ∨
    ShortSide i.before.smoothness (ps i.before.policy).d i.dmax i.h ∨ ShortSide i.after.smoothness (ps i.after.policy).d i.dmax i.h)

theorem ShortSide.lowered {sm d d' dmax h : ℚ} (hs : ShortSide sm d dmax h) (hd : d' ≤ d) : ShortSide sm d' dmax h := by
  obtain ⟨h1, h2, h3, h4, h5⟩ := hs
  exact ⟨h1, h2, by linarith, by linarith, by nlinarith⟩

theorem Interval.Stuck.lowered {i : Interval} {ps ps' : Policies} (h : i.Stuck ps) (hl : Lowered ps ps') : i.Stuck ps' := by
  obtain ⟨h1, h2, h3⟩ := h
  refine ⟨hl.pos _ h1, hl.pos _ h2, ?_⟩
  rcases h3 with h | h | h
  · exact Or.inl h
  · exact Or.inr (Or.inl (h.lowered (hl.le _)))
  · exact Or.inr (Or.inr (h.lowered (hl.le _)))

theorem dInit_le {p : Policy} {d : ℚ} (hd : 0 ≤ d) : dInitBefore p d ≤ d ∧ dInitAfter p d ≤ d := by
  unfold dInitBefore dInitAfter
  constructor <;> cases p.kind <;> (try cases p.normal) <;> simp only <;> linarith

theorem shortSide_none {sm d dmax h x : ℚ} (hs : ShortSide sm d dmax h) (hd : 0 < d) (hx : x ≤ d) :
    findLs d sm dmax (h - x) = none := by
  obtain ⟨h1, h2, h3, h4, h5⟩ := hs
  exact findLs_short h1 h2 hd.le h3 (by linarith) (by nlinarith)

theorem autoSolveD_stuck {i : Interval} {ps : Policies} (h : i.Stuck ps) : i.autoSolveD ps = none := by
  obtain ⟨h1, h2, h3⟩ := h
  rcases h3 with h | h | h
  · exact autoSolveD_flat h h1
  · simp only [Interval.autoSolveD, Side.updateLs, shortSide_none h h1 (dInit_le h1.le).1]
    rfl
  · simp only [Interval.autoSolveD, Side.updateLs, shortSide_none h h2 (dInit_le h2.le).2]
    cases findLs (ps i.before.policy).d i.before.smoothness i.dmax (i.h - dInitBefore (ps i.before.policy) (ps i.before.policy).d) <;>
      rfl

theorem solveAllD_stuck (ivs : List Interval) : ∀ ps : Policies, (∀ i ∈ ivs, i.Ok ps ∨ i.Stuck ps) → (∃ i ∈ ivs, i.Stuck ps) →
    solveAllD ps ivs = none := by
  induction ivs with
  | nil => rintro ps - ⟨i, hi, -⟩; cases hi
  | cons i ivs ih =>
    intro ps hall hex
    unfold solveAllD
    by_cases hi : i.Stuck ps
    · rw [autoSolveD_stuck hi]; rfl
    · obtain ⟨ps1, i1, h1, -, -, hlow, -⟩ := autoSolveD_spec ((hall i (by simp)).resolve_right hi)
      rw [h1]
      obtain ⟨k, hk, hks⟩ := hex
      have hk' : k ∈ ivs := by
        rcases List.mem_cons.1 hk with rfl | h
        · exact absurd hks hi
        · exact h
      have := ih ps1 (fun j hj => (hall j (by simp [hj])).imp (fun h => h.lowered hlow) fun h => h.lowered hlow)
        ⟨k, hk', hks.lowered hlow⟩
      simp [this]

theorem mesh_stuck_interval (S : Sorter Interval) (T : Sorter ℚ) {a : Axis} (hall : ∀ i ∈ a.intervals, i.Ok a.get ∨ i.Stuck a.get)
    (hex : ∃ i ∈ a.intervals, i.Stuck a.get) : a.mesh S T = none := by
  have hp := S.perm Interval.h a.intervals
  obtain ⟨i, hi, hs⟩ := hex
  simp only [Axis.mesh, solveAllD_stuck _ _ (fun i hi => hall i (hp.mem_iff.1 hi)) ⟨i, hp.mem_iff.2 hi, hs⟩]
  rfl

/-! ## The axis before its meshing -/

/-- An axis with an interval between each policy and the next. -/
structure Axis.Ready (a : Axis) (o : List Nat) : Prop where
  perm : o.Perm a.enabledPointers
  chain : o.IsChain fun i j => (a.get i).coord < (a.get j).coord
  pairs : a.intervals.map (fun i => (i.before.policy, i.after.policy)) = consecutive o
  ok : ∀ i ∈ a.intervals, i.Ok a.get
  coherent : ∀ i, a.Enabled i → ¬ ((a.get i).kind = .thirds ∧ (a.get i).normal = .none)
  lines : a.meshlines = []

theorem Axis.Ready.setInterval {a : Axis} {o : List Nat} (h : a.Ready o) {j : Interval} (hj : j.Ok a.get) :
    (a.setInterval j).Ready o where
  perm := h.perm
  chain := h.chain
  pairs := by
    rw [← h.pairs]
    unfold Axis.setInterval
    rw [List.map_map]
    refine List.map_congr_left fun i _ => ?_
    simp only [Function.comp]
    split_ifs with e
    · rw [e.1, e.2]
    · rfl
  ok := by
    intro i hi
    obtain ⟨i0, hi0, rfl⟩ := List.mem_map.1 hi
    split_ifs
    · exact hj
    · exact h.ok i0 hi0
  coherent := h.coherent
  lines := h.lines

/-- Two intervals that touch are the same. -/
theorem Axis.Ready.unique {a : Axis} {o : List Nat} (h : a.Ready o) {i j : Interval} (hi : i ∈ a.intervals) (hj : j ∈ a.intervals)
    (h1 : (a.get j.before.policy).coord < (a.get i.after.policy).coord)
    (h2 : (a.get i.before.policy).coord < (a.get j.after.policy).coord) : j = i := by
  have hmem : ∀ i ∈ a.intervals, (i.before.policy, i.after.policy) ∈ consecutive o := by
    intro i hi
    rw [← h.pairs]
    exact List.mem_map_of_mem (f := fun i : Interval => (i.before.policy, i.after.policy)) hi
  obtain ⟨e1, e2, e3, e4⟩ := consecutive_neighbours h.perm h.chain (hmem i hi)
  obtain ⟨f1, f2, f3, f4⟩ := consecutive_neighbours h.perm h.chain (hmem j hj)
  have hpw : o.Pairwise fun i j => (a.get i).coord < (a.get j).coord := by
    have : (o.map fun k => (a.get k).coord).Pairwise (· < ·) := List.isChain_iff_pairwise.1 ((List.isChain_map _).2 h.chain)
    exact List.pairwise_map.1 this
  have hinj : ∀ {k l}, a.Enabled k → a.Enabled l → (a.get k).coord = (a.get l).coord → k = l := by
    intro k l hk hl e
    have hk := h.perm.mem_iff.2 (mem_enabledPointers.2 hk)
    have hl := h.perm.mem_iff.2 (mem_enabledPointers.2 hl)
    obtain ⟨m, hm, rfl⟩ := List.getElem_of_mem hk
    obtain ⟨n, hn, rfl⟩ := List.getElem_of_mem hl
    rcases lt_trichotomy m n with hlt | rfl | hlt
    · exact absurd (List.pairwise_iff_getElem.1 hpw _ _ hm hn hlt) (by rw [e]; exact lt_irrefl _)
    · rfl
    · exact absurd (List.pairwise_iff_getElem.1 hpw _ _ hn hm hlt) (by rw [e]; exact lt_irrefl _)
  have hb : (a.get j.before.policy).coord = (a.get i.before.policy).coord := by
    rcases lt_trichotomy (a.get j.before.policy).coord (a.get i.before.policy).coord with hlt | he | hlt
    · exact absurd ⟨hlt, h2⟩ (f4 _ e1)
    · exact he
    · exact absurd ⟨hlt, h1⟩ (e4 _ f1)
  have ha : (a.get j.after.policy).coord = (a.get i.after.policy).coord := by
    rcases lt_trichotomy (a.get j.after.policy).coord (a.get i.after.policy).coord with hlt | he | hlt
    · exact absurd ⟨h2, hlt⟩ (e4 _ f2)
    · exact he
    · exact absurd ⟨h1, hlt⟩ (f4 _ e2)
  have hnd : (a.intervals.map fun i => (i.before.policy, i.after.policy)).Nodup := by
    rw [h.pairs]
    unfold consecutive
    refine List.Nodup.of_map Prod.snd ?_
    rw [List.map_snd_zip (by simp)]
    exact (hpw.imp fun h e => absurd h (by rw [e]; exact lt_irrefl _)).tail
  exact List.inj_on_of_nodup_map hnd hj hi (Prod.ext (hinj f1 e1 hb) (hinj f2 e2 ha))

/-- What meshing leaves of the intervals. -/
theorem meshAll_intervals (ivs : List Interval) : ∀ ps : Policies, (∀ i ∈ ivs, i.Ok ps) → ∀ {ps' ivs' ls},
    meshAll ps ivs = some (ps', ivs', ls) → Forall₂ (fun i i' => SameInterval i i') ivs ivs' := by
  induction ivs with
  | nil => intro ps _ ps' ivs' ls h; cases h; exact Forall₂.nil
  | cons i ivs ih =>
    intro ps hok ps' ivs' ls h
    obtain ⟨ps1, i1, h1, hok1, hs, hlow, -⟩ := solveAndMesh_spec (hok i (by simp))
    unfold meshAll at h
    rw [h1] at h
    obtain ⟨x, hx, h⟩ := Option.bind_eq_some_iff.1 h
    cases hx
    obtain ⟨⟨ps2, ivs2, ls2⟩, h2, h⟩ := Option.bind_eq_some_iff.1 h
    cases h
    exact Forall₂.cons hs (ih ps1 (fun k hk => (hok k (by simp [hk])).lowered hlow) h2)

theorem Axis.Ready.intervals {S : Sorter Interval} {T : Sorter ℚ} {a b : Axis} {o : List Nat} (h : a.Ready o)
    (hb : a.mesh S T = some b) : ∀ i ∈ b.intervals, ∃ i0 ∈ a.intervals, SameInterval i0 i := by
  have hp := S.perm Interval.h a.intervals
  obtain ⟨ps1, iv1, h1, low1, f1⟩ := solveAllD_spec (S.sort Interval.h a.intervals) a.get
    fun i hi => h.ok i (hp.mem_iff.mp hi)
  unfold Axis.mesh at hb
  simp only at hb
  rw [h1] at hb
  obtain ⟨x, hx, hb⟩ := Option.bind_eq_some_iff.1 hb
  cases hx
  obtain ⟨⟨ps2, iv2, ls⟩, h2, hb⟩ := Option.bind_eq_some_iff.1 hb
  cases hb
  have ok1 : ∀ i ∈ iv1, i.Ok ps1 := by
    intro i hi
    obtain ⟨n, hn, rfl⟩ := List.getElem_of_mem hi
    have hlen := f1.length_eq
    have := (List.forall₂_iff_get.mp f1).2 n (by omega) hn
    exact this.2.1
  have f2 := meshAll_intervals iv1 ps1 ok1 h2
  intro i hi
  have hi : i ∈ iv2 := hi
  obtain ⟨n, hn, rfl⟩ := List.getElem_of_mem hi
  have l1 := f1.length_eq
  have l2 := f2.length_eq
  have s1 := ((List.forall₂_iff_get.mp f1).2 n (by omega) (by omega)).1
  have s2 := (List.forall₂_iff_get.mp f2).2 n (by omega) hn
  exact ⟨_, hp.mem_iff.1 (List.get_mem (S.sort Interval.h a.intervals) ⟨n, by omega⟩), s1.trans s2⟩

/-- The lines of an axis that is ready. -/
theorem Axis.Ready.mesh (S : Sorter Interval) (T : Sorter ℚ) {a : Axis} {o : List Nat} (h : a.Ready o) {D : ℚ} (hD : 0 < D)
    (hle : ∀ i ∈ a.intervals, i.dmax ≤ D) :
    ∃ b, a.mesh S T = some b ∧ Increasing b.meshlines ∧ GapsAtMost D b.meshlines ∧
      (∀ k, (b.Enabled k ↔ a.Enabled k) ∧ ∃ d ≤ (a.get k).d, b.get k = { a.get k with d := d }) ∧
      (∀ k, a.Enabled k → (a.get k).kind = .oneline → (a.get k).coord ∈ b.meshlines) ∧
      ∀ i ∈ a.intervals, b.meshlines.IsChain fun y y' => (a.get i.before.policy).coord ≤ y → y' ≤ (a.get i.after.policy).coord →
        y' - y ≤ i.dmax := by
  obtain ⟨b, ps, ls, h1, hlow, hpol, hcf, hf, hw, hst⟩ := axisMesh_spec (S := S) (T := T) hD h.perm h.chain h.pairs
    (fun i hi => ⟨h.ok i hi, hle i hi⟩) h.coherent h.lines
  have hlen : b.policies.length = a.policies.length := by rw [hpol]; simp [Axis.withPolicies, Axis.pointers]
  have hget : ∀ k, ∃ d ≤ (a.get k).d, b.get k = { a.get k with d := d } := by
    intro k
    by_cases hk : k < a.policies.length
    · refine ⟨(ps k).d, hlow.le k, ?_⟩
      have : b.get k = (a.withPolicies ps).get k := by unfold Axis.get; rw [hpol]
      rw [this, withPolicies_get hk]
      exact hlow.same k
    · refine ⟨(a.get k).d, le_rfl, ?_⟩
      simp [Axis.get, hk, hlen]
  have hcons : consecutive (o.map a.get) = a.intervals.map fun i => (a.get i.before.policy, a.get i.after.policy) := by
    rw [consecutive_map, ← h.pairs, List.map_map]; rfl
  refine ⟨b, h1, hst.imp fun _ _ h => h.1, hst.imp fun _ _ h => h.2, ?_, ?_, ?_⟩
  · intro k
    obtain ⟨d, hd, e⟩ := hget k
    refine ⟨?_, d, hd, e⟩
    rw [enabled_iff, enabled_iff, hlen, e]
  · intro k hk hone
    rw [hw]
    have hko : k ∈ o := h.perm.mem_iff.2 (mem_enabledPointers.2 hk)
    cases o with
    | nil => cases hko
    | cons x o =>
      refine weave_oneline_mem _ _ _ ?_ _ (List.mem_map.mpr ⟨k, hko, rfl⟩) hone
      have h1 := hf.length_eq
      have h2 := congrArg List.length h.pairs
      simp [consecutive] at h2
      simp; omega
  · intro i hi
    have hloc : b.meshlines.IsChain (Local (a.intervals.map fun i => (a.get i.before.policy, a.get i.after.policy, i.dmax))) := by
      rw [hw]
      cases o with
      | nil => exact List.isChain_nil
      | cons x o =>
        refine (weave_local _ _ _ _ ?_ ?_ ?_ ?_).1
        · intro q hq
          rw [← List.map_cons, List.mem_map] at hq
          obtain ⟨k, hk, rfl⟩ := hq
          exact h.coherent k (mem_enabledPointers.mp (h.perm.mem_iff.mp hk))
        · rw [← List.map_cons, List.isChain_map]
          exact h.chain
        · rw [← List.map_cons, hcons, List.map_map]; rfl
        · exact forall₂_map_left hf
    have hinc : b.meshlines.IsChain (· < ·) := hst.imp fun _ _ h => h.1
    rw [List.isChain_iff_getElem] at hloc hinc ⊢
    intro n hn hlo hhi
    refine hloc n hn _ ?_
    intro t ht h1 h2
    obtain ⟨j, hj, rfl⟩ := List.mem_map.1 ht
    have hlt := hinc n hn
    simp only at h1 h2 ⊢
    rw [h.unique hi hj (by linarith) (by linarith)]

end Verif.Mesh
