import Verif.Spec.Core
import Verif.Spec.Stack
/-
How much stack the functions of the core library use.  `d` is the stack left for evaluating the arguments of a call and for whatever the called
function evaluates; the call itself is evaluated on a stack of `d + 1`.
-/
set_option autoImplicit false
namespace L1

/-- Calling the function value `f` with the arguments `vs`, now or at any quiet time after `s`, returns `v` quietly, in a call evaluated on a stack of
`d + 1`. -/
def ReturnsWithin (W : World) (d : Nat) (s : St) (f : Val) (vs : List Val) (v : Val) : Prop :=
  ∀ s' e, Quiet s s' → ∃ s'', evApply (performIn W d) (performIn W (d + 1)) f vs e s' = .ok v s'' ∧ Quiet s' s''

/-- A call `(name arg ...)` of the library function `name` on a stack of `d + 1`, written in any scope that sees it, whose arguments evaluate to `vs`
on a stack of `d` leaving the state `s`, returns `v` and does nothing else. -/
def GivesWithin (W : World) (d : Nat) (s : St) (name : String) (vs : List Val) (v : Val) : Prop :=
  ∀ (e : Nat) (args : List Val) (s0 : St), lookup s0.heap e name = alGet name coreEnv → EvalsWithin W d e args s0 vs s →
    ∃ s', evalWithin W (d + 1) (form name args) e s0 = .ok v s' ∧ Quiet s s'

/-- A call as for `GivesWithin` for which the stack is not enough. -/
def Overflows (W : World) (d : Nat) (s : St) (name : String) (vs : List Val) : Prop :=
  ∀ (e : Nat) (args : List Val) (s0 : St), lookup s0.heap e name = alGet name coreEnv → EvalsWithin W d e args s0 vs s →
    ∃ s', evalWithin W (d + 1) (form name args) e s0 = .overflow s'

/-- Folding `xs` from the left with the function value `f`, starting with `a`, gives `c`; every call returns quietly, on a stack of `d + 1`. -/
inductive FoldsWithin (W : World) (d : Nat) (s : St) (f : Val) : Val → List Val → Val → Prop
  | nil {a : Val} : FoldsWithin W d s f a [] a
  | cons {a b c x : Val} {xs : List Val} : ReturnsWithin W d s f [a, x] b → FoldsWithin W d s f b xs c → FoldsWithin W d s f a (x :: xs) c

end L1
