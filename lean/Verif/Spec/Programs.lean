import Verif.Spec.Core
import Verif.Spec.Status
import Mathlib.Data.Nat.Prime.Defs
/-
What a program does when it is loaded, and what the functions it defines answer afterwards.
-/
set_option autoImplicit false
namespace L1

/-- In every state whose top-level scope is the one of `s`, a call `(name arg ...)` written in any scope that sees the top-level function `name`, whose
arguments evaluate to `vs` leaving that state, returns `v` and does nothing else. -/
def Answers (W : World) (s : St) (name : String) (vs : List Val) (v : Val) : Prop :=
  ∀ (e : Nat) (args : List Val) (s0 s1 : St), lookup s0.heap e name = lookup s.heap 0 name → EvalsTo W e args s0 vs s1 → s1.heap[0]? = s.heap[0]? →
    ∃ s', eval W (form name args) e s0 = .ok v s' ∧ Quiet s1 s'

/-- From `s` to `s'` the text was written to the output, and nothing else was done outside the program: no input was read, no file or other outside source
consulted, no order given to the terminal. -/
structure Wrote (s s' : St) (text : List Char) : Prop where
  out : s'.out = s.out ++ text
  inp : s'.inp = s.inp
  tick : s'.tick = s.tick
  screen : s'.screen = s.screen

/-- 1 and the prime numbers: what `prime?` accepts from 1 on. -/
def OneOrPrime (m : Nat) : Prop := m = 1 ∨ m.Prime

end L1
