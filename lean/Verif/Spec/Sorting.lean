import Verif.Model.Builtins
/-
Specification vocabulary: what is expected of a sorting algorithm that compares and exchanges elements.
-/
set_option autoImplicit false
namespace L1

/-- Running the algorithm `t` on a list, with `lt` for the comparison. -/
def Sorter.run {α : Type} (lt : α → α → Bool) : Sorter → List α → List α
  | .done, xs => xs
  | .swap i j next, xs => next.run lt (swapAt xs i j)
  | .less i j yes no, xs =>
    match xs[i]?, xs[j]? with
    | some a, some b => if lt a b then yes.run lt xs else no.run lt xs
    | _, _ => no.run lt xs

/-- A strict weak order (what the documentation of package `sort` asks of a comparison): of two elements at most one is smaller, and "not smaller" is transitive. -/
def StrictWeak {α : Type} (lt : α → α → Bool) : Prop :=
  (∀ a b, lt a b = true → lt b a = false) ∧ ∀ a b c, lt a b = false → lt b c = false → lt a c = false

/-- The algorithm `t` sorts lists of length `n`: whatever strict weak order on the positions 0, ..., n-1 decides the comparisons, it leaves no position behind a
greater one. -/
def Sorter.Sorts (t : Sorter) (n : Nat) : Prop :=
  ∀ lt : Nat → Nat → Bool, StrictWeak lt → (t.run lt (List.range n)).Pairwise (fun a b => lt b a = false)

/-- In the world `W`, package `sort` sorts. -/
def World.Sorts (W : World) : Prop := ∀ n, (W.sorter n).Sorts n

end L1
