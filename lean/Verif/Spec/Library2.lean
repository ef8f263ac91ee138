import Verif.Spec.Plans
import Verif.Spec.Ctl
/-
The rest of the core library: `let*`, `is`, `with-screen` and the random functions.
-/
set_option autoImplicit false
namespace L1

/-- The list `((n x) ...)`. -/
def bindings (ps : List (String × Val)) : Val := vlist (ps.map fun p => vlist [.atom p.1, p.2])

/-- `(let* ((n x) ...) body ...)` in scope `e`: each `x` is evaluated in order in the scope so far, and its value bound to `n` in a new scope inside it; the body is
evaluated in a new scope inside the last one.  Nothing is claimed after an `x` or an `n` has changed the meaning of the library's names. -/
inductive LetStar (W : World) (body : List Val) : Nat → List (String × Val) → St → Res Val → Prop
  | body {e : Nat} {s s1 : St} : Quiet s s1 → LetStar W body e [] s (inOrder W s1.heap.length body (withScope s1 e))
  | bind {e : Nat} {n : String} {x v : Val} {ps : List (String × Val)} {s s1 s2 : St} {r : Res Val} : Quiet s s1 → eval W x e (withScope s1 e) = .ok v s2 →
    LetStar W body s1.heap.length ps { s2 with heap := heapSet s2.heap s1.heap.length n v } r → LetStar W body e ((n, x) :: ps) s r
  | stops {e : Nat} {n : String} {x : Val} {ps : List (String × Val)} {s s1 : St} {r : Res Val} : Quiet s s1 → eval W x e (withScope s1 e) = r → (∀ v s2, r ≠ .ok v s2) →
    LetStar W body e ((n, x) :: ps) s r
  | disturbed {e : Nat} {n : String} {x v : Val} {ps : List (String × Val)} {s s1 s2 : St} {r : Res Val} : Quiet s s1 → eval W x e (withScope s1 e) = .ok v s2 →
    ¬ CoreHere (heapSet s2.heap s1.heap.length n v) s1.heap.length → LetStar W body e ((n, x) :: ps) s r

/-- The error of an equation that does not hold. -/
def unequal (a v b w : Val) : Val :=
  vlist [.atom "expression", a, .atom "==>", v, .atom "is", .atom "not", .atom "equal", .atom "to", .atom "expression", b, .atom "==>", w]

/-- Not of the form `(= a b)`; and if it begins with `=` it is a proper list. -/
def NotEquation (c : Val) : Prop := ∀ d, c = .cons (.atom "=") d → ∃ xs, d = vlist xs ∧ xs.length ≠ 2

/-- `n` random numbers have been taken from the world; apart from that, there may be new scopes. -/
structure Draws (n : Nat) (s s' : St) : Prop where
  heap : s.heap <+: s'.heap
  out : s'.out = s.out
  inp : s'.inp = s.inp
  tick : s'.tick = s.tick + n
  screen : s'.screen = s.screen
  gensym : s.gensym ≤ s'.gensym

/-- A call `(name arg ...)` as for `Gives`, which returns `v` after taking `n` random numbers. -/
def GivesDrawing (W : World) (s : St) (name : String) (vs : List Val) (n : Nat) (v : Val) : Prop :=
  ∀ (e : Nat) (args : List Val) (s0 : St), lookup s0.heap e name = alGet name coreEnv → EvalsTo W e args s0 vs s →
    ∃ s', eval W (form name args) e s0 = .ok v s' ∧ Draws n s s'

/-- The letters of the English alphabet. -/
def alphabet : List Char := "abcdefghijklmnopqrstuvwxyz".toList

end L1
