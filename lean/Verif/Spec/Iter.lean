import Verif.Py.Basic
/-
What it means to iterate a Python iterator given by a state transformer.
-/
namespace Verif

/-- `Yields next s l s'`: starting in state `s`, successive calls of `next` return the elements of
`l` in order and leave the state `s'`. -/
inductive Yields (next : σ → PyM α × σ) : σ → List α → σ → Prop
  | nil (s) : Yields next s [] s
  | cons (s s₁ s₂ a l) : next s = (.ok a, s₁) → Yields next s₁ l s₂ → Yields next s (a :: l) s₂

/-- `list(it) = l`: the iterator yields exactly `l` and then raises `StopIteration`. -/
def ListOf (next : σ → PyM α × σ) (s : σ) (l : List α) : Prop :=
  ∃ s', Yields next s l s' ∧ (next s').1 = .error .stopIteration

end Verif
