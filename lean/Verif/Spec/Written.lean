import Verif.Spec.Eval
/-
Calls of native functions as they are written in a program.
-/
set_option autoImplicit false
namespace L1

/-- The call `(name arg ...)`, written in any scope where `name` has not been given another meaning, whose arguments, evaluated from left to right, have the
values `vs` and leave the state `s`, ends as `r` says. -/
def CallEnds (W : World) (s : St) (name : String) (vs : List Val) (r : Res Val) : Prop :=
  ∀ (e : Nat) (args : List Val) (s0 : St), lookup s0.heap e name = none → EvalsTo W e args s0 vs s → eval W (form name args) e s0 = r

/-- The error with the message `m` raised by the native function `name`; it can be caught. -/
def nativeErr (name m : String) : Err := .list (vlist [msgList ("builtin function " ++ name), msgList m])

/-- The call ends with a catchable error and does nothing else. -/
def CallFails (W : World) (s : St) (name : String) (vs : List Val) : Prop := ∃ v, CallEnds W s name vs (.err (.list v) s)

end L1
