import Verif.Model.Eval
/-
The interpreter without budgets.  `eval W x e s` is what `eval` (lisp/lisp.go:375) does on a machine with as much time and
stack as needed: the outcome `run` has for some (then every larger) budget, or `oof` if it has none, that is if
the evaluation never ends (or recurses without bound).
-/
set_option autoImplicit false
namespace L1

/-- A definite outcome: a value, an error, a crash or an exit. -/
def Res.Definite {α : Type} : Res α → Prop
  | .oof => False
  | .overflow _ => False
  | _ => True

open Classical in
/-- A task performed with unlimited budgets. -/
noncomputable def perform (W : World) (t : Task) : M Val := fun s =>
  if h : ∃ k, (run W k k t s).Definite then run W h.choose h.choose t s else .oof

/-- `eval(x, e)`, lisp/lisp.go:375, with unlimited budgets. -/
noncomputable def eval (W : World) (x : Val) (e : Nat) : M Val := perform W (.eval x e)

open Classical in
/-- A task performed with a stack of `d` nested Go calls and as many steps as needed; the outcome is `overflow` when the stack
does not suffice, `oof` when the task never ends. -/
noncomputable def performIn (W : World) (d : Nat) (t : Task) : M Val := fun s =>
  if h : ∃ n, run W n d t s ≠ .oof then run W h.choose d t s else .oof

end L1
