import Verif.Spec.Editing
import Verif.Props.SightSeen
import Verif.Props.Plantuml

/-! # C145: what asking to edit nodes brings up -/

namespace Verif.Graph
open Spec
open Verif.Csx (decimal)

theorem typeIndex_eq (n : Entity) : typeIndex n = changeable n := by cases n <;> rfl

theorem title_eq (l : Labels) {n : Entity} (h : changeable n = true) :
    makeTitle l n = typeText n ++ (' ' :: '-' :: ' ' :: decimal (l.id n)) := by
  cases n <;> first | (simp [changeable] at h; done) | simp [makeTitle]

theorem typeText_spaceless (n : Entity) : ' ' ∉ typeText n := by
  cases n <;> (dsimp only [typeText]; decide +kernel)

theorem cut_at_space {a b x y : List Char} (ha : ' ' ∉ a) (hb : ' ' ∉ b) (h : a ++ ' ' :: x = b ++ ' ' :: y) : x = y := by
  induction a generalizing b with
  | nil =>
    cases b with
    | nil => simpa using h
    | cons c b => simp only [List.nil_append, List.cons_append, List.cons.injEq] at h; exact absurd (h.1 ▸ List.mem_cons_self) hb
  | cons c a ih =>
    cases b with
    | nil => simp only [List.nil_append, List.cons_append, List.cons.injEq] at h; exact absurd (h.1 ▸ List.mem_cons_self) ha
    | cons d b =>
      simp only [List.cons_append, List.cons.injEq] at h
      exact ih (fun h' => ha (.tail _ h')) (fun h' => hb (.tail _ h')) h.2

theorem title_id (l : Labels) {n m : Entity} (hn : changeable n = true) (hm : changeable m = true)
    (h : makeTitle l n = makeTitle l m) : l.id n = l.id m := by
  rw [title_eq l hn, title_eq l hm] at h
  have := cut_at_space (typeText_spaceless n) (typeText_spaceless m) h
  simp only [List.cons.injEq, true_and] at this
  exact Uml.decimal_injective this

theorem titles_nodup (l : Labels) {nodes : List Entity} (h : Numbered l nodes) :
    ((nodes.filter changeable).map (makeTitle l)).Nodup := by
  refine (h.1.filter _).map_on fun n hn m hm e => ?_
  rw [List.mem_filter] at hn hm
  exact h.2 n hn.1 m hm.1 (title_id l hn.2 hm.2 e)

theorem cut_before_space {a b x y : List Char} (ha : ' ' ∉ a) (hb : ' ' ∉ b) (h : a ++ ' ' :: x = b ++ ' ' :: y) : a = b := by
  have := cut_at_space ha hb h
  subst this
  exact List.append_cancel_right h

/-- C145: a title tells the kind of the object as well as its number. -/
theorem C145_kind (l : Labels) {n m : Entity} (hn : changeable n = true) (hm : changeable m = true) :
    makeTitle l n = makeTitle l m → sameKind n m ∧ l.id n = l.id m := by
  intro h
  refine ⟨?_, title_id l hn hm h⟩
  rw [title_eq l hn, title_eq l hm] at h
  have ht := cut_before_space (typeText_spaceless n) (typeText_spaceless m) h
  cases n <;> cases m <;> first
    | trivial
    | (simp only [changeable, Bool.false_eq_true] at hn; done)
    | (simp only [changeable, Bool.false_eq_true] at hm; done)
    | (exfalso; dsimp only [typeText] at ht; revert ht; decide +kernel)

example : makeTitle ⟨fun _ => 3, fun _ => []⟩ (.edge 1) = makeTitle ⟨fun _ => 3, fun _ => []⟩ (.edge 2) ∧
    makeTitle ⟨fun _ => 3, fun _ => []⟩ (.edge 1) ≠ makeTitle ⟨fun _ => 3, fun _ => []⟩ (.tcmlp 1) ∧
    changeable (.edge 1) = true ∧ changeable (.tcmlp 1) = true := by decide +kernel

/-- C145: among the objects to change of `nodes` that are not conflicts of colinear edges, each brings the dialog about it. -/
theorem editNode_about {n : Entity} (h : changeable n = true) (hc : ¬ IsColinear n) (t : List Char) : About n t (editNode n t) := by
  cases n with
  | angle i => exact ⟨_, rfl, rfl⟩
  | edge i => exact ⟨_, rfl, rfl⟩
  | interval i => exact ⟨_, rfl, rfl⟩
  | policy i => exact ⟨_, rfl, rfl⟩
  | docz i => exact ⟨_, rfl, rfl⟩
  | tcmlp i => exact ⟨_, rfl, rfl⟩
  | ce i => exact absurd ⟨i, rfl⟩ hc
  | _ => simp [changeable] at h

theorem edit_filter (b : Board) (ws : List Wire) (l : Labels) (s : Sight) (nodes : List Entity) :
    edit b ws l s nodes = match nodes.filter changeable with
      | [] => (clearTelling b ws s).map fun s => (s, .params)
      | [n] => some (s, editNode n (makeTitle l n))
      | ns => some (s, .menu (ns.map fun n => ⟨makeTitle l n, n⟩)) := by
  unfold edit
  rw [show typeIndex = changeable from funext typeIndex_eq]
  match nodes.filter changeable with
  | [] => rfl
  | [_] => rfl
  | _ :: _ :: _ => rfl

/-- C145, but for the conflicts of colinear edges: editing nodes of a view, whichever were selected, ends, and brings the dialog of
the object, a menu of the objects under different titles, or the global parameters. -/
theorem C145_partial (b : Board) (hb : Meant b) (ho : Own b) (ws : List Wire) (s : Sight) (h : Reached b ws s) (l : Labels)
    (nodes : List Entity) (hl : Numbered l nodes) (hn : ∀ n ∈ nodes, ¬ IsColinear n) :
    ∃ s' c, edit b ws l s nodes = some (s', c) ∧ Brings s nodes s' c := by
  obtain ⟨c, k2, k3, k4, i⟩ := reached_inv hb ho h
  rw [edit_filter]
  have hnd := titles_nodup l hl
  have hc : ∀ n ∈ nodes.filter changeable, ∀ t, About n t (editNode n t) := fun n h' t =>
    editNode_about (List.mem_filter.mp h').2 (hn n (List.mem_filter.mp h').1) t
  unfold Brings
  match he : nodes.filter changeable with
  | [] =>
    obtain ⟨s', g1, -, -, g2, -⟩ := clearTelling_ok ho k2 i.cons i.nodes
    exact ⟨s', .params, by simp [g1], rfl, g2⟩
  | [n] => exact ⟨s, _, rfl, rfl, _, hc n (by simp [he]) _⟩
  | n :: m :: ns =>
    rw [he] at hnd hc
    refine ⟨s, _, rfl, rfl, _, rfl, ?_, ?_, fun e h' => ?_⟩
    · rw [List.map_map]; exact List.map_id _
    · rw [List.map_map]; exact hnd
    · obtain ⟨x, hx, rfl⟩ := List.mem_map.mp h'
      exact hc x hx _

/-- C145: the button edits what is selected, whatever was done before; a double click, what is visible there. -/
theorem C145_asked (b : Board) (hb : Meant b) (ho : Own b) (ws : List Wire) (s : Sight) (h : Reached b ws s) (l : Labels)
    (hl : Numbered l b.nodes) (hs : ∀ n, s.looks.selected n = true → ¬ IsColinear n) :
    (∃ nodes s' c, editSelected b ws l s = some (s', c) ∧ Brings s nodes s' c ∧ ∀ n, n ∈ nodes ↔ s.looks.selected n = true)
      ∧ ∀ under : List Entity, under.Nodup → (∀ n ∈ under, InScene b n) → (∀ n ∈ under, ¬ IsColinear n) →
        ∃ nodes s' c, doubleClick b ws l s under = some (s', c) ∧ Brings s nodes s' c
          ∧ ∀ n, n ∈ nodes ↔ n ∈ under ∧ isVisible b s.hidden n = true := by
  obtain ⟨c, k2, k3, k4, i⟩ := reached_inv hb ho h
  have hsel : ∀ n, n ∈ selectedNodes b s ↔ s.looks.selected n = true := fun n => by
    rw [selectedNodes, List.mem_filter]
    exact ⟨fun h' => h'.2, fun h' => ⟨i.nodes n h', h'⟩⟩
  constructor
  · obtain ⟨s', c, g1, g2⟩ := C145_partial b hb ho ws s h l (selectedNodes b s)
      ⟨hl.1.filter _, fun n hn m hm => hl.2 n (List.mem_filter.mp hn).1 m (List.mem_filter.mp hm).1⟩
      fun n hn => hs n ((hsel n).mp hn)
    exact ⟨_, s', c, g1, g2, hsel⟩
  · intro under h1 h2 h3
    have hu : ∀ n ∈ under.filter (fun n => isVisible b s.hidden n), n ∈ under := fun n hn => (List.mem_filter.mp hn).1
    obtain ⟨s', c, g1, g2⟩ := C145_partial b hb ho ws s h l _
      ⟨h1.filter _, fun n hn m hm => hl.2 n (mem_nodes.mpr (h2 n (hu n hn))) m (mem_nodes.mpr (h2 m (hu m hm)))⟩
      fun n hn => h3 n (hu n hn)
    exact ⟨_, s', c, g1, g2, fun n => by rw [List.mem_filter]⟩

/-- C145: a conflict of colinear edges that is alone among the objects to change brings nothing, and when it is in a menu its entry
brings nothing. -/
theorem C145_colinear (b : Board) (ws : List Wire) (l : Labels) (s : Sight) (i : Nat) :
    (∀ nodes : List Entity, nodes.filter changeable = [.ce i] → edit b ws l s nodes = some (s, .nothing))
      ∧ ∀ (nodes : List Entity) (s' : Sight) (es : List Entry), edit b ws l s nodes = some (s', .menu es) → .ce i ∈ nodes →
        ∃ e ∈ es, e.node = .ce i ∧ e.trigger = .nothing := by
  constructor
  · intro nodes h
    rw [edit_filter, h]
    rfl
  · intro nodes s' es h hi
    rw [edit_filter] at h
    have hi : Entity.ce i ∈ nodes.filter changeable := List.mem_filter.mpr ⟨hi, rfl⟩
    revert h hi
    generalize nodes.filter changeable = ns
    intro h hi
    match ns with
    | [] => cases hi
    | [n] =>
      simp only [Option.some.injEq, Prod.mk.injEq, editNode] at h
      split at h <;> simp at h
    | n :: m :: ns =>
      simp only [Option.some.injEq, Prod.mk.injEq, Comes.menu.injEq] at h
      rw [← h.2]
      exact ⟨_, List.mem_map.mpr ⟨_, hi, rfl⟩, rfl, rfl⟩

/-- A board with two conflicts of colinear edges. -/
def lined : Board := { tiny with ces := [0, 1] }

theorem lined_meant : Meant lined := tiny_meant
theorem lined_own : Own lined := tiny_own

/-- C145 is false: a conflict of colinear edges selected in the structure view, and the button to edit: nothing comes. -/
theorem C145_false : ¬ ∀ (b : Board) (_ : Meant b) (_ : Own b) (ws : List Wire) (s : Sight), Reached b ws s → ∀ (l : Labels),
    Numbered l b.nodes → ∃ s' c, editSelected b ws l s = some (s', c) ∧ Brings s (selectedNodes b s) s' c := by
  intro h
  obtain ⟨ws, s, h1, -, h3⟩ := reached_counterparts lined_meant lined_own [.ce 0]
  have hf : s.looks.selected = fun m => decide (m = .ce 0) := by
    funext m
    rw [Bool.eq_iff_iff, h3]
    simp only [List.mem_cons, List.not_mem_nil, or_false, decide_eq_true_eq]
    exact ⟨fun h => h.2, fun h => ⟨by subst h; simp [OnBoard, lined], h⟩⟩
  have hs : selectedNodes lined s = [.ce 0] := by
    rw [selectedNodes, hf]
    decide +kernel
  obtain ⟨s', c, g1, g2⟩ := h lined lined_meant lined_own ws s h1 ⟨fun n => lined.nodes.idxOf n, fun _ => []⟩
    ⟨by decide +kernel, by decide +kernel⟩
  rw [hs] at g2
  rw [editSelected, hs, (C145_colinear lined ws _ s 0).1 [.ce 0] rfl] at g1
  injection g1 with g1
  injection g1 with g3 g4
  obtain ⟨-, t, f, hf, -⟩ := g2
  rw [← g4] at hf
  cases hf

/-- C145_partial, C145_asked: in `tiny` a line, a policy and an edge are selected; the edition brings a menu of the last two. -/
example : ∃ ws s, Reached tiny ws s ∧ ∃ l : Labels, Numbered l tiny.nodes ∧ (∀ n, s.looks.selected n = true → ¬ IsColinear n)
    ∧ ∃ es, editSelected tiny ws l s = some (s, .menu es) ∧ es.map (·.node) = [.edge 1, .policy 2] := by
  obtain ⟨ws, s, h1, -, h3⟩ := reached_counterparts tiny_meant tiny_own [.meshline 0, .policy 2, .edge 1]
  have hf : s.looks.selected = fun m => decide (m = .meshline 0 ∨ m = .policy 2 ∨ m = .edge 1) := by
    funext m
    rw [Bool.eq_iff_iff, h3]
    simp only [List.mem_cons, List.not_mem_nil, or_false, decide_eq_true_eq]
    refine ⟨fun h => h.2, fun h => ⟨?_, h⟩⟩
    rcases h with rfl | rfl | rfl
    · simp [OnBoard, tiny]
    · simp [OnBoard, tiny]
    · exact ⟨0, [0, 1], by simp [tiny], by simp⟩
  have hs : (selectedNodes tiny s).filter changeable = [.edge 1, .policy 2] := by
    rw [selectedNodes, hf]
    decide +kernel
  let l : Labels := ⟨fun n => tiny.nodes.idxOf n, fun _ => []⟩
  refine ⟨ws, s, h1, l, ⟨by decide +kernel, by decide +kernel⟩, fun n hn => ?_, ?_⟩
  · rw [hf] at hn
    rintro ⟨i, rfl⟩
    simp at hn
  · refine ⟨[⟨makeTitle l (.edge 1), .edge 1⟩, ⟨makeTitle l (.policy 2), .policy 2⟩], ?_, rfl⟩
    rw [editSelected, edit_filter, hs]
    rfl

/-- C145_colinear: with two conflicts of colinear edges selected, a menu with two entries. -/
example : ∃ es, edit lined [] ⟨fun _ => 7, fun _ => []⟩ .made [.ce 0, .ce 1] = some (.made, .menu es)
    ∧ es.map (·.title) = ["ConflictColinearEdges - 7".toList, "ConflictColinearEdges - 7".toList] :=
  ⟨_, rfl, by decide +kernel⟩

end Verif.Graph
