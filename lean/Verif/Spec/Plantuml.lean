import Verif.Model.Plantuml

/-! # How a state diagram is read, and what it is to say -/

namespace Verif.Uml.Spec
open Verif.Uml
open Verif.Csx (decimal)
open Verif.Geom (Plane Axis)

/-- A text split where a character is. -/
def splitAt (c : Char) : List Char → List (List Char)
  | [] => [[]]
  | d :: rest => if d = c then [] :: splitAt c rest else match splitAt c rest with
    | w :: ws => (d :: w) :: ws
    | [] => [[d]]

/-- The lines of a text. -/
def linesOf (text : List Char) : List (List Char) := splitAt '\n' text

/-- The words of a line. -/
def words (line : List Char) : List (List Char) := (splitAt ' ' line).filter (· ≠ [])

/-- `prefix?` of a text, and what follows. -/
def after (start : List Char) (text : List Char) : Option (List Char) :=
  if start.isPrefixOf text then some (text.drop start.length) else none

/-- The name that a line declares: `state "title" as name …`. -/
def declares (line : List Char) : Option (List Char) :=
  (after "state \"".toList line).bind fun rest =>
    (after "\" as ".toList (rest.dropWhile (· ≠ '"'))).map fun rest => rest.takeWhile (· ≠ ' ')

/-- The ends of the arrow that a line draws: `a --…-> b`. -/
def draws (line : List Char) : Option (List Char × List Char) :=
  match words line with
  | [a, '-' :: _, b] => some (a, b)
  | _ => none

/-- Does a line open, or close, a state? -/
def opens (line : List Char) : Bool := line.getLast? = some '{'
@[inherit_doc opens] def closes (line : List Char) : Bool := line = ['}']

/-- The names declared, and the arrows drawn, in order. -/
def declared (text : List Char) : List (List Char) := (linesOf text).filterMap declares
@[inherit_doc declared] def drawn (text : List Char) : List (List Char × List Char) := (linesOf text).filterMap draws

/-- Braces match: from `n` of them open, none is closed that is not open, and all are closed in the end. -/
def Matched : Nat → List (List Char) → Prop
  | n, [] => n = 0
  | n, l :: rest => if opens l then Matched (n + 1) rest else if closes l then 0 < n ∧ Matched (n - 1) rest else Matched n rest

/-- The objects of a board, by kind. -/
def edgeIds (b : Board) : List Nat := [Plane.yz, .zx, .xy].flatMap fun p => (b.polygons p).flatMap fun q => q.edges.map (·.id)
@[inherit_doc edgeIds] def polygonIds (b : Board) : List Nat := [Plane.yz, .zx, .xy].flatMap fun p => (b.polygons p).map (·.id)
@[inherit_doc edgeIds] def inPolygonIds (b : Board) : List Nat :=
  [Plane.yz, .zx, .xy].flatMap fun p => (b.inPolygons p).map (·.id)
@[inherit_doc edgeIds] def policyIds (b : Board) : List Nat := [Axis.x, .y, .z].flatMap fun a => (b.policies a).map (·.id)
@[inherit_doc edgeIds] def intervalIds (b : Board) : List Nat := [Axis.x, .y, .z].flatMap fun a => (b.intervals a).map (·.id)
@[inherit_doc edgeIds] def meshlineIds (b : Board) : List Nat := [Axis.x, .y, .z].flatMap fun a => (b.meshlines a).map (·.id)
@[inherit_doc edgeIds] def colinearIds (b : Board) : List Nat := [Axis.x, .y, .z].flatMap fun a => (b.colinears a).map (·.id)
@[inherit_doc edgeIds] def tooCloseIds (b : Board) : List Nat := [Axis.x, .y, .z].flatMap fun a => (b.tooCloses a).map (·.id)

/-- All the objects. -/
def ids (b : Board) : List Nat :=
  edgeIds b ++ polygonIds b ++ inPolygonIds b ++ policyIds b ++ intervalIds b ++ meshlineIds b ++ colinearIds b ++ tooCloseIds b

/-- Each pointer is to an object of the board. -/
structure Linked (b : Board) : Prop where
  inPolygon : ∀ p, ∀ c ∈ b.inPolygons p, c.edge.id ∈ edgeIds b ∧
    ∀ o ∈ c.overlaps, o.1 ∈ polygonIds b ∧ ∀ e, o.2 = some e → e ∈ edgeIds b
  colinear : ∀ a, ∀ c ∈ b.colinears a, (∀ e ∈ c.edges, e.id ∈ edgeIds b) ∧ ∀ p, c.solution = some p → p.id ∈ policyIds b
  tooClose : ∀ a, ∀ c ∈ b.tooCloses a, c.policies.1 ∈ policyIds b ∧ c.policies.2 ∈ policyIds b ∧
    ∀ p, c.solution = some p → p ∈ policyIds b
  policy : ∀ a, ∀ p ∈ b.policies a, ∀ e, some e ∈ p.origins → e ∈ edgeIds b
  interval : ∀ a, ∀ i ∈ b.intervals a, i.before ∈ policyIds b ∧ i.after ∈ policyIds b
  meshline : ∀ a, ∀ l ∈ b.meshlines a, (∀ i, l.interval = some i → i ∈ intervalIds b) ∧
    ∀ p, l.policy = some p → p ∈ policyIds b

/-- The names of the polygons have neither quotes nor ends of lines. -/
def PlainNames (b : Board) : Prop := ∀ p, ∀ q ∈ b.polygons p, ∀ c ∈ q.name, c ≠ '"' ∧ c ≠ '\n'

/-- A pin of an object. -/
def pinned (id : Nat) (suffix : String) : List Char := decimal id ++ suffix.toList

/-- What is to be declared: the planes, the axes, the objects and their pins. -/
inductive Declared (b : Board) : List Char → Prop
  | plane (s : String) : s ∈ ["YZ", "ZX", "XY"] → Declared b s.toList
  | axis (s : String) : s ∈ ["X", "Y", "Z"] → Declared b s.toList
  | object {i : Nat} : i ∈ ids b → Declared b (decimal i)
  | output {i : Nat} :
    i ∈ polygonIds b ++ inPolygonIds b ++ policyIds b ++ intervalIds b ++ colinearIds b ++ tooCloseIds b →
    Declared b (pinned i "_out")
  | input {i : Nat} : i ∈ policyIds b ++ colinearIds b ++ tooCloseIds b → Declared b (pinned i "_in")
  | first {i : Nat} : i ∈ intervalIds b → Declared b (pinned i "_in1")
  | second {i : Nat} : i ∈ intervalIds b → Declared b (pinned i "_in2")
  | overlap {p : Plane} {c : InPolygonRec} {k : Nat} : c ∈ b.inPolygons p → k < c.overlaps.length →
    Declared b (pinned c.id "_in" ++ decimal k)

/-- What is to be joined. -/
inductive Joined (b : Board) : List Char → List Char → Prop
  | edgeIn {p : Plane} {c : InPolygonRec} : c ∈ b.inPolygons p → Joined b (decimal c.edge.id) (decimal c.id)
  | backTo {p : Plane} {c : InPolygonRec} : c ∈ b.inPolygons p → Joined b (pinned c.id "_out") (decimal c.edge.id)
  | polygon {p : Plane} {c : InPolygonRec} {k : Nat} {o : Nat × Option Nat} : c ∈ b.inPolygons p → c.overlaps[k]? = some o →
    Joined b (pinned o.1 "_out") (pinned c.id "_in" ++ decimal k)
  | overlapping {p : Plane} {c : InPolygonRec} {k q e : Nat} : c ∈ b.inPolygons p → c.overlaps[k]? = some (q, some e) →
    Joined b (decimal e) (pinned c.id "_in" ++ decimal k)
  | colinear {a : Axis} {c : ColinearRec} {e : EdgeRec} : c ∈ b.colinears a → e ∈ c.edges →
    Joined b (decimal e.id) (pinned c.id "_in")
  | solved {a : Axis} {c : ColinearRec} {p : PolicyRec} : c ∈ b.colinears a → c.solution = some p →
    Joined b (pinned c.id "_out") (pinned p.id "_in")
  | tooClose {a : Axis} {c : TooCloseRec} {p : Nat} : c ∈ b.tooCloses a → p = c.policies.1 ∨ p = c.policies.2 →
    Joined b (pinned p "_out") (pinned c.id "_in")
  | merged {a : Axis} {c : TooCloseRec} {p : Nat} : c ∈ b.tooCloses a → c.solution = some p →
    Joined b (pinned c.id "_out") (pinned p "_in")
  | origin {a : Axis} {p : PolicyRec} {e : Nat} : p ∈ b.policies a → p.origins = [some e] →
    Joined b (decimal e) (pinned p.id "_in")
  | before {a : Axis} {i : IntervalRec} : i ∈ b.intervals a → Joined b (pinned i.before "_out") (pinned i.id "_in1")
  | after {a : Axis} {i : IntervalRec} : i ∈ b.intervals a → Joined b (pinned i.after "_out") (pinned i.id "_in2")
  | lineOfInterval {a : Axis} {l : MeshlineRec} {i : Nat} : l ∈ b.meshlines a → l.interval = some i →
    Joined b (pinned i "_out") (decimal l.id)
  | lineOfPolicy {a : Axis} {l : MeshlineRec} {p : Nat} : l ∈ b.meshlines a → l.policy = some p →
    Joined b (pinned p "_out") (decimal l.id)

end Verif.Uml.Spec
