import Verif.Props.Layout
import Verif.Props.Graph

/-!
# C140: in an axis of the processing view every wire goes to the right
-/

namespace Verif.Layout
open Spec Verif.Graph Verif.Graph.Spec

/-- The nodes two steps back. -/
def twoBack (next : Entity → List Entity) (via kind : Entity → Bool) (n : Entity) : List Entity :=
  (((next n).filter via).flatMap next).filter kind

theorem mem_twoBack {next : Entity → List Entity} {via kind : Entity → Bool} {n m : Entity} :
    m ∈ twoBack next via kind n ↔ kind m = true ∧ ∃ c, via c = true ∧ c ∈ next n ∧ m ∈ next c := by
  simp only [twoBack, List.mem_filter, List.mem_flatMap]
  constructor
  · rintro ⟨⟨c, ⟨h1, h2⟩, h3⟩, h4⟩
    exact ⟨h4, c, h2, h1, h3⟩
  · rintro ⟨h4, c, h2, h1, h3⟩
    exact ⟨⟨c, ⟨h1, h2⟩, h3⟩, h4⟩

theorem deepness_ends {next : Entity → List Entity} {via kind : Entity → Bool} {μ : Entity → Nat}
    (hμ : ∀ n, ∀ m ∈ twoBack next via kind n, kind n = true → μ m + 2 ≤ μ n) :
    ∀ (N : Nat) (l : List Entity) (d : Nat), (∀ m ∈ l, kind m = true ∧ μ m < N) →
      ∃ r, deepnessOf next via kind l d = some r ∧ d ≤ r ∧ (∀ B, d ≤ B → (∀ m ∈ l, μ m + 2 ≤ B) → r ≤ B) := by
  intro N
  induction N with
  | zero =>
    intro l d h
    cases l with
    | nil => exact ⟨d, by rw [deepnessOf], le_refl _, fun B h _ => h⟩
    | cons m l => exact absurd (h m List.mem_cons_self).2 (Nat.not_lt_zero _)
  | succ N ihN =>
    intro l
    induction l with
    | nil => intro d _; exact ⟨d, by rw [deepnessOf], le_refl _, fun B h _ => h⟩
    | cons m l ih =>
      intro d h
      have hm := h m List.mem_cons_self
      obtain ⟨e, h1, h2, h3⟩ := ihN (twoBack next via kind m) 0 (fun k hk => by
        have := hμ m k hk hm.1
        exact ⟨(mem_twoBack.mp hk).1, by omega⟩)
      obtain ⟨r, h4, h5, h6⟩ := ih (max d (e + 2)) (fun k hk => h k (List.mem_cons_of_mem _ hk))
      refine ⟨r, ?_, le_trans (le_max_left _ _) h5, fun B hd hB => ?_⟩
      · rw [deepnessOf]
        change (deepnessOf next via kind (twoBack next via kind m) 0).bind _ = _
        rw [h1]
        exact h4
      · apply h6 B
        · apply max_le hd
          have he : e ≤ μ m := h3 _ (Nat.zero_le _) (fun k hk => hμ m k hk hm.1)
          have := hB m List.mem_cons_self
          omega
        · exact fun k hk => hB k (List.mem_cons_of_mem _ hk)

theorem deepnessOf_is {next : Entity → List Entity} {via kind : Entity → Bool} {l : List Entity} {d r : Nat}
    (h : deepnessOf next via kind l d = some r) :
    d ≤ r ∧ (∀ m ∈ l, ∃ e, deepness next via kind m = some e ∧ e + 2 ≤ r) ∧
      (r = d ∨ ∃ m ∈ l, ∃ e, deepness next via kind m = some e ∧ r = e + 2) := by
  induction l generalizing d with
  | nil =>
    rw [deepnessOf] at h
    cases h
    exact ⟨le_refl _, by simp, Or.inl rfl⟩
  | cons m l ih =>
    rw [deepnessOf] at h
    change (deepness next via kind m).bind (fun e => deepnessOf next via kind l (max d (e + 2))) = some r at h
    cases he : deepness next via kind m with
    | none => rw [he] at h; cases h
    | some e =>
      rw [he] at h
      obtain ⟨h1, h2, h3⟩ := ih (d := max d (e + 2)) h
      refine ⟨le_trans (le_max_left _ _) h1, fun k hk => ?_, ?_⟩
      · rcases List.mem_cons.mp hk with rfl | hk
        · exact ⟨e, he, le_trans (le_max_right _ _) h1⟩
        · exact h2 k hk
      · rcases h3 with h3 | ⟨k, hk, h3⟩
        · rcases le_total d (e + 2) with h' | h'
          · rw [max_eq_right h'] at h3
            exact Or.inr ⟨m, List.mem_cons_self, e, he, h3⟩
          · rw [max_eq_left h'] at h3
            exact Or.inl h3
        · exact Or.inr ⟨k, List.mem_cons_of_mem _ hk, h3⟩

theorem isPolicy_iff {e : Entity} : isPolicy e = true ↔ ∃ i, e = .policy i := by cases e <;> simp [isPolicy]

theorem isTcmlp_iff {e : Entity} : isTcmlp e = true ↔ ∃ i, e = .tcmlp i := by cases e <;> simp [isTcmlp]

/-- The numbers the columns of an axis are made of. -/
theorem deepness_facts {b : Graph.Board} {rank : Entity → Nat} (hr : Made b rank) {next : Entity → List Entity}
    (hnext : ∀ o e, o ∈ next e ↔ Linked b o e) :
    ∃ P C : Nat → Nat,
      (∀ i, deepness next isTcmlp isPolicy (.policy i) = some (P i) ∧ P i ≤ rank (.policy i)) ∧
      (∀ c, deepness next isPolicy isTcmlp (.tcmlp c) = some (C c) ∧ C c ≤ rank (.tcmlp c)) ∧
      (∀ i c, Linked b (.policy i) (.tcmlp c) → P i ≤ C c) ∧
      ∀ i c, Linked b (.tcmlp c) (.policy i) → C c + 2 ≤ P i := by
  have hμp : ∀ n, ∀ m ∈ twoBack next isTcmlp isPolicy n, isPolicy n = true → rank m + 2 ≤ rank n := by
    intro n m hm hn
    obtain ⟨h1, c, h2, h3, h4⟩ := mem_twoBack.mp hm
    obtain ⟨i, rfl⟩ := isPolicy_iff.mp h1
    obtain ⟨c, rfl⟩ := isTcmlp_iff.mp h2
    obtain ⟨j, rfl⟩ := isPolicy_iff.mp hn
    have a := hr.policy _ _ ((hnext _ _).mp h3)
    have b := hr.conflict _ _ ((hnext _ _).mp h4)
    omega
  have hμc : ∀ n, ∀ m ∈ twoBack next isPolicy isTcmlp n, isTcmlp n = true → rank m + 2 ≤ rank n := by
    intro n m hm hn
    obtain ⟨h1, c, h2, h3, h4⟩ := mem_twoBack.mp hm
    obtain ⟨i, rfl⟩ := isTcmlp_iff.mp h1
    obtain ⟨c, rfl⟩ := isPolicy_iff.mp h2
    obtain ⟨j, rfl⟩ := isTcmlp_iff.mp hn
    have a := hr.conflict _ _ ((hnext _ _).mp h3)
    have b := hr.policy _ _ ((hnext _ _).mp h4)
    omega
  have hP : ∀ i, ∃ d, deepness next isTcmlp isPolicy (.policy i) = some d ∧ d ≤ rank (.policy i) := by
    intro i
    obtain ⟨d, h1, -, h3⟩ := deepness_ends hμp (rank (.policy i)) (twoBack next isTcmlp isPolicy (.policy i)) 0 (fun m hm => by
      have := hμp _ m hm rfl
      exact ⟨(mem_twoBack.mp hm).1, by omega⟩)
    exact ⟨d, h1, h3 _ (Nat.zero_le _) (fun m hm => hμp _ m hm rfl)⟩
  have hC : ∀ c, ∃ d, deepness next isPolicy isTcmlp (.tcmlp c) = some d ∧ d ≤ rank (.tcmlp c) := by
    intro i
    obtain ⟨d, h1, -, h3⟩ := deepness_ends hμc (rank (.tcmlp i)) (twoBack next isPolicy isTcmlp (.tcmlp i)) 0 (fun m hm => by
      have := hμc _ m hm rfl
      exact ⟨(mem_twoBack.mp hm).1, by omega⟩)
    exact ⟨d, h1, h3 _ (Nat.zero_le _) (fun m hm => hμc _ m hm rfl)⟩
  choose P hP1 hP2 using hP
  choose C hC1 hC2 using hC
  -- what the two recursions say
  have hPge : ∀ i c j, Linked b (.tcmlp c) (.policy i) → Linked b (.policy j) (.tcmlp c) → P j + 2 ≤ P i := by
    intro i c j h1 h2
    obtain ⟨-, h, -⟩ := deepnessOf_is (hP1 i)
    obtain ⟨e, he, hle⟩ := h (.policy j) (mem_twoBack.mpr ⟨rfl, .tcmlp c, rfl, (hnext _ _).mpr h1, (hnext _ _).mpr h2⟩)
    rw [hP1 j] at he
    cases he
    exact hle
  have hCge : ∀ c i d, Linked b (.policy i) (.tcmlp c) → Linked b (.tcmlp d) (.policy i) → C d + 2 ≤ C c := by
    intro c i d h1 h2
    obtain ⟨-, h, -⟩ := deepnessOf_is (hC1 c)
    obtain ⟨e, he, hle⟩ := h (.tcmlp d) (mem_twoBack.mpr ⟨rfl, .policy i, rfl, (hnext _ _).mpr h1, (hnext _ _).mpr h2⟩)
    rw [hC1 d] at he
    cases he
    exact hle
  have hPeq : ∀ i, P i = 0 ∨ ∃ c j, Linked b (.tcmlp c) (.policy i) ∧ Linked b (.policy j) (.tcmlp c) ∧ P i = P j + 2 := by
    intro i
    obtain ⟨-, -, h⟩ := deepnessOf_is (hP1 i)
    rcases h with h | ⟨m, hm, e, he, h⟩
    · exact Or.inl h
    · obtain ⟨h1, c, h2, h3, h4⟩ := mem_twoBack.mp hm
      obtain ⟨j, rfl⟩ := isPolicy_iff.mp h1
      obtain ⟨c, rfl⟩ := isTcmlp_iff.mp h2
      rw [hP1 j] at he
      cases he
      exact Or.inr ⟨c, j, (hnext _ _).mp h3, (hnext _ _).mp h4, h⟩
  have hCeq : ∀ c, C c = 0 ∨ ∃ i d, Linked b (.policy i) (.tcmlp c) ∧ Linked b (.tcmlp d) (.policy i) ∧ C c = C d + 2 := by
    intro c
    obtain ⟨-, -, h⟩ := deepnessOf_is (hC1 c)
    rcases h with h | ⟨m, hm, e, he, h⟩
    · exact Or.inl h
    · obtain ⟨h1, i, h2, h3, h4⟩ := mem_twoBack.mp hm
      obtain ⟨d, rfl⟩ := isTcmlp_iff.mp h1
      obtain ⟨i, rfl⟩ := isPolicy_iff.mp h2
      rw [hC1 d] at he
      cases he
      exact Or.inr ⟨i, d, (hnext _ _).mp h3, (hnext _ _).mp h4, h⟩
  have hPC : ∀ N i c, rank (.policy i) < N → Linked b (.policy i) (.tcmlp c) → P i ≤ C c := by
    intro N
    induction N with
    | zero => intro i c h; exact absurd h (Nat.not_lt_zero _)
    | succ N ih =>
      intro i c hN h
      rcases hPeq i with h0 | ⟨d, j, h1, h2, h3⟩
      · omega
      · have a := hr.policy _ _ h1
        have a' := hr.conflict _ _ h2
        have := ih j d (by omega) h2
        have := hCge c i d h h1
        omega
  have hCP : ∀ N i c, rank (.tcmlp c) < N → Linked b (.tcmlp c) (.policy i) → C c + 2 ≤ P i := by
    intro N
    induction N with
    | zero => intro i c h; exact absurd h (Nat.not_lt_zero _)
    | succ N ih =>
      intro i c hN h
      rcases hCeq c with h0 | ⟨j, d, h1, h2, h3⟩
      · have hk := hr.kept c h.1
        have := hPge i c _ h ⟨hk, h.1, .left c⟩
        omega
      · have a := hr.conflict _ _ h1
        have a' := hr.policy _ _ h2
        have := ih j d (by omega) h2
        have := hPge i c j h h1
        omega
  exact ⟨P, C, fun i => ⟨hP1 i, hP2 i⟩, fun c => ⟨hC1 c, hC2 c⟩, fun i c h => hPC _ i c (Nat.lt_succ_self _) h,
    fun i c h => hCP _ i c (Nat.lt_succ_self _) h⟩

/-- **C140**: the column of every object of an axis is found, and what comes from an object is in a column further on the right. -/
theorem C140_columns (b : Graph.Board) (hb : Meant b) (rank : Entity → Nat) (hr : Made b rank) (ws : List Wire)
    (h : populate b = .ok ws) :
    (∀ e, ∃ k, column b ws e = some k) ∧
      ∀ o e, Linked b o e → InAxis o → InAxis e →
        ∃ i j, column b ws o = some i ∧ column b ws e = some j ∧ i < j := by
  obtain ⟨ws', h1, -, -, -, hnext, -⟩ := C120_wires b hb
  rw [h] at h1
  cases h1
  obtain ⟨P, C, hP, hC, hPC, hCP⟩ := deepness_facts hr hnext
  have cP : ∀ i, column b ws (.policy i) = some (1 + P i) := fun i => by
    simp only [column, (hP i).1, Option.map_some]
    congr 1
    have := (hP i).2
    have := hr.few (.policy i)
    exact Nat.mod_eq_of_lt (by omega)
  have cC : ∀ i, column b ws (.tcmlp i) = some (2 + C i) := fun i => by
    simp only [column, (hC i).1, Option.map_some]
    congr 1
    have := (hC i).2
    have := hr.few (.tcmlp i)
    exact Nat.mod_eq_of_lt (by omega)
  constructor
  · intro e
    cases e with
    | policy i => exact ⟨_, cP i⟩
    | tcmlp i => exact ⟨_, cC i⟩
    | _ => exact ⟨_, rfl⟩
  · intro o e hl ho he
    have hl' := hl
    obtain ⟨-, -, hc⟩ := hl
    cases hc with
    | settled _ => exact he.elim
    | firstSide _ => exact he.elim
    | secondSide _ => exact he.elim
    | aligned _ => exact ho.elim
    | inside _ => exact he.elim
    | covered _ => exact he.elim
    | slanted _ => exact ho.elim
    | left i => exact ⟨_, _, cP _, cC _, by have := hPC _ _ hl'; omega⟩
    | right i => exact ⟨_, _, cP _, cC _, by have := hPC _ _ hl'; omega⟩
    | @asked i o ho' =>
      cases o with
      | ce j => exact ⟨_, _, rfl, cP _, by omega⟩
      | tcmlp j => exact ⟨_, _, cC _, cP _, by have := hCP _ _ hl'; omega⟩
      | policy j => exact (hb _ _ ho').elim
      | docz j => exact (hb _ _ ho').elim
      | interval j => exact (hb _ _ ho').elim
      | meshline j => exact (hb _ _ ho').elim
      | _ => exact ho.elim
    | zone _ => exact ⟨_, _, rfl, rfl, by simp [sizeMax]⟩
    | before _ =>
      refine ⟨_, _, cP _, rfl, ?_⟩
      have := (hP (by assumption)).2
      have := hr.few (.policy (by assumption))
      simp only [sizeMax]
      omega
    | after _ =>
      refine ⟨_, _, cP _, rfl, ?_⟩
      have := (hP (by assumption)).2
      have := hr.few (.policy (by assumption))
      simp only [sizeMax]
      omega
    | between _ => exact ⟨_, _, rfl, rfl, by simp [sizeMax]⟩
    | at_ _ =>
      refine ⟨_, _, cP _, rfl, ?_⟩
      have := (hP (by assumption)).2
      have := hr.few (.policy (by assumption))
      simp only [sizeMax]
      omega

/-- **C140**: once an axis is fitted, every wire between two visible nodes of it begins on the left of where it ends: the node it
leaves is wholly on the left of the node it enters, the margin between them. -/
theorem C140_right (b : Graph.Board) (hb : Meant b) (rank : Entity → Nat) (hr : Made b rank) (ws : List Wire)
    (h : populate b = .ok ws) {items : List Entity} (hn : items.Nodup) (ha : ∀ e ∈ items, InAxis e) (visible : Entity → Bool)
    {box : Entity → Box} (hbox : ∀ e ∈ items, column b ws e = some (box e).col) (hh : ∀ e ∈ items, 0 ≤ (box e).h)
    {mw mh pen : ℚ} (hmw : 0 ≤ mw) (hmh : 0 ≤ mh) (hpen : 0 ≤ pen) (s : Spacement) (z : Zone Entity) {w : Wire} (hw : w ∈ ws)
    (h1 : w.first.node ∈ items) (h2 : w.last.node ∈ items) (v1 : visible w.first.node = true)
    (v2 : visible w.last.node = true) :
    ((fit true items visible box mw mh pen s z).pos w.first.node).1 + (box w.first.node).w + mw
      ≤ ((fit true items visible box mw mh pen s z).pos w.last.node).1 := by
  obtain ⟨ws', h1', -, hws, -, -, -⟩ := C120_wires b hb
  rw [h] at h1'
  cases h1'
  obtain ⟨-, -, -, -, hl⟩ := hws w hw
  obtain ⟨i, j, c1, c2, hij⟩ := (C140_columns b hb rank hr ws h).2 _ _ hl (ha _ h1) (ha _ h2)
  rw [hbox _ h1] at c1
  rw [hbox _ h2] at c2
  cases c1
  cases c2
  exact (C138_tidy hn visible s z hmw hmh hpen hh).columns _ (List.mem_filter.mpr ⟨h1, v1⟩) _ (List.mem_filter.mpr ⟨h2, v2⟩) hij

/-- Two policies of conflicts of colinear edges too close to each other, the policy that settles them too close to a third one, the
policy that settles these, an interval and two lines. -/
def exBoard : Graph.Board where
  polygons := []
  eips := []
  angles := []
  ces := [0]
  tcmlps := [0, 1]
  policies := [0, 1, 2, 3, 4]
  doczs := [0]
  intervals := [0]
  meshlines := [0, 1]
  edgeConflict _ := none
  angleEdges _ := (0, 0)
  ceEdges _ := []
  eipEdge _ := 0
  eipPolygons _ := []
  tcmlpPolicies i := if i = 0 then (0, 1) else (2, 3)
  doczAngles _ := []
  policyOrigins i := if i = 0 then [.ce 0] else if i = 3 then [.tcmlp 0] else if i = 4 then [.tcmlp 1] else []
  intervalZones _ := [0]
  intervalBefore _ := some 2
  intervalAfter _ := some 4
  meshlineInterval i := if i = 0 then some 0 else none
  meshlinePolicy i := if i = 1 then some 4 else none
  planeOf _ := .xy
  axisOf _ := .x

def exWires : List Wire := match populate exBoard with | .ok ws => ws | _ => []

def exRank : Entity → Nat
  | .policy i => if i ≤ 2 then 0 else if i = 3 then 2 else 4
  | .tcmlp i => if i = 0 then 1 else 3
  | _ => 0

theorem exMeant : Meant exBoard := by
  intro i o ho
  simp only [exBoard] at ho
  split at ho
  · simp at ho; subst ho; trivial
  · split at ho
    · simp at ho; subst ho; trivial
    · split at ho
      · simp at ho; subst ho; trivial
      · simp at ho

theorem exMade : Made exBoard exRank := by
  refine ⟨fun i c h => ?_, fun c i h => ?_, fun e => ?_, by decide⟩
  · obtain ⟨h1, -, h⟩ := h
    cases h with
    | asked h =>
      simp only [exBoard] at h
      split at h
      · simp at h
      · split at h
        · simp at h; subst h; subst_vars; decide
        · split at h
          · simp at h; subst h; subst_vars; decide
          · simp at h
  · obtain ⟨-, h2, h⟩ := h
    have : c = 0 ∨ c = 1 := by simpa [OnBoard, exBoard] using h2
    rcases this with rfl | rfl <;> cases h <;> decide
  · cases e <;> simp only [exRank] <;> (try split) <;> (try split) <;> decide

example : (∀ e, ∃ k, column exBoard exWires e = some k) ∧
    ∃ i j, column exBoard exWires (.policy 3) = some i ∧ column exBoard exWires (.tcmlp 1) = some j ∧ i < j := by
  have h := C140_columns exBoard exMeant exRank exMade exWires (by rfl)
  exact ⟨h.1, h.2 _ _ ⟨by simp [OnBoard, exBoard], by simp [OnBoard, exBoard], .right 1⟩ trivial trivial⟩

/-- Nodes of 30 by 20 in those columns. -/
def exColumn (e : Entity) : Box := ⟨(column exBoard exWires e).getD 0, 30, 20⟩

/-- The wire from the policy that settles the first conflict to the second conflict. -/
example (s : Spacement) (z : Zone Entity) :
    ((fit true [.tcmlp 0, .tcmlp 1, .policy 0, .policy 1, .policy 2, .policy 3, .policy 4, .meshline 0] (fun _ => true) exColumn
      50 10 1 s z).pos (.policy 3)).1 + 30 + 50
    ≤ ((fit true [.tcmlp 0, .tcmlp 1, .policy 0, .policy 1, .policy 2, .policy 3, .policy 4, .meshline 0] (fun _ => true) exColumn
      50 10 1 s z).pos (.tcmlp 1)).1 := by
  refine C140_right exBoard exMeant exRank exMade exWires (by rfl)
    (items := [.tcmlp 0, .tcmlp 1, .policy 0, .policy 1, .policy 2, .policy 3, .policy 4, .meshline 0]) (by decide) ?_
    (fun _ => true) ?_ ?_ (by decide) (by decide) (by decide) s z
    (w := ⟨⟨.policy 3, true, 0⟩, ⟨.tcmlp 1, false, 1⟩⟩) (by decide +kernel) (by simp) (by simp) rfl rfl
  · intro e he
    simp only [List.mem_cons, List.not_mem_nil, or_false] at he
    rcases he with rfl | rfl | rfl | rfl | rfl | rfl | rfl | rfl <;> trivial
  · intro e _
    obtain ⟨k, hk⟩ := (C140_columns exBoard exMeant exRank exMade exWires (by rfl)).1 e
    simp [exColumn, hk]
  · intro e _
    simp only [exColumn]
    decide

end Verif.Layout
