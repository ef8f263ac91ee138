import Verif.Spec.Loops
import Verif.Spec.StackUse
/-
Loops on a fixed stack.
-/
set_option autoImplicit false
namespace L1

/-- The function that `(while c x ...)` in scope `e` makes and calls; `g` is its name. -/
def whileFn (g : String) (c : Val) (xs : List Val) (e : Nat) : Val := .lam [] "" (vlist [form "when" (c :: (xs ++ [form g []]))]) .nil false e

/-- One turn of `(while c x ...)` in scope `e`, started in state `y`, on a stack of `d`.  The condition is evaluated in a new scope inside `e`: it is (), and
`done` holds then, or it is not, and the expressions, evaluated in a new scope inside that one, all have values, and `again` holds then.  The library's
names and the name `g` of the loop's function keep their meaning.  (Expanding macros is quiet.) -/
def TurnWithin (W : World) (d : Nat) (c : Val) (xs : List Val) (e : Nat) (g : String) (done again : St → Prop) (y : St) : Prop :=
  ∀ s1, Quiet (withScope y e) s1 →
    (∃ s2, evalWithin W d c y.heap.length s1 = .ok .nil s2 ∧ done s2) ∨
    (∃ v s2, evalWithin W d c y.heap.length s1 = .ok v s2 ∧ v ≠ .nil ∧ CoreHere s2.heap y.heap.length ∧
      ∀ s3, Quiet s2 s3 → ∃ vs s4, EvalsWithin W d s3.heap.length xs (withScope s3 y.heap.length) vs s4 ∧
        CoreHere s4.heap e ∧ lookup s4.heap s3.heap.length g = some (whileFn g c xs e) ∧ again s4)

end L1
