/-!
# Runs of elements with a property
-/

namespace Verif.Utils.Spec

/-- `Runs p l rs`: `rs` are the longest runs of consecutive elements of `l` with `p`, in order: `l` starts with elements
without `p`, then the first run, then an element without `p` and the rest. -/
inductive Runs {α : Type} (p : α → Prop) : List α → List (List α) → Prop
  | stop {gap : List α} (hgap : ∀ a ∈ gap, ¬ p a) : Runs p gap []
  | last {gap run : List α} (hgap : ∀ a ∈ gap, ¬ p a) (hne : run ≠ []) (hrun : ∀ a ∈ run, p a) :
      Runs p (gap ++ run) [run]
  | next {gap run rest : List α} {x : α} {runs : List (List α)} (hgap : ∀ a ∈ gap, ¬ p a) (hne : run ≠ [])
      (hrun : ∀ a ∈ run, p a) (hx : ¬ p x) (h : Runs p rest runs) : Runs p (gap ++ run ++ x :: rest) (run :: runs)

end Verif.Utils.Spec
