import Verif.Model.Limit
/-
Vocabulary for stating what evaluating a form does.  `eval W x e s` (Verif/Model/Limit.lean) is the outcome of evaluating `x` in scope `e` from
state `s`: `.ok v s'` a value and the state afterwards, `.err er s'` an error, `.crash`, `.exit`, or `.oof` for no end.
-/
set_option autoImplicit false
namespace L1

/-- `EvalsTo W e xs s vs s'`: the expressions `xs`, evaluated from left to right in scope `e` starting in state `s`, have the
values `vs` and leave the state `s'`. -/
inductive EvalsTo (W : World) (e : Nat) : List Val → St → List Val → St → Prop
  | nil {s : St} : EvalsTo W e [] s [] s
  | cons {x v : Val} {xs vs : List Val} {s s1 s2 : St} :
    eval W x e s = .ok v s1 → EvalsTo W e xs s1 vs s2 → EvalsTo W e (x :: xs) s (v :: vs) s2

/-- The form `(name x1 ... xk)`. -/
def form (name : String) (xs : List Val) : Val := .cons (.atom name) (vlist xs)

/-- `name` is not bound to a macro as seen from scope `e`. -/
def NotMacro (h : Heap) (e : Nat) (name : String) : Prop :=
  ∀ ps r b dc env, lookup h e name ≠ some (.lam ps r b dc true env)

/-- An error list with one more element in front; errors of the operating system stay as they are. -/
def Err.under (frame : Val) : Err → Err
  | .list v => .list (.cons frame v)
  | .foreign m => .foreign m

end L1
