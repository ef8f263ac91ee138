import Verif.Spec.Stack
import Verif.Spec.Core
/-
Code without calls of functions of the program: it only uses special forms that do not repeat anything, and native functions that do not evaluate anything.
-/
set_option autoImplicit false
namespace L1

/-- The native functions that evaluate expressions or call functions given to them. -/
def Evaluates (b : BI) : Prop :=
  b = .apply ∨ b = .eval ∨ b = .load ∨ b = .macroexpand1 ∨ b = .sortBy ∨ b = .forms ∨ b = .help

/-- `Straight N x`: the expression `x` is built from constants, variables, quotations, the special forms below, the creation of functions, and calls of native functions that do
not evaluate anything.  `N` has the names of the special forms and native functions that are used; nothing in `x` binds or assigns one of them. -/
inductive Straight (N : String → Prop) : Val → Prop
  | num (n : Int) : Straight N (.num n)
  | nil : Straight N .nil
  | atom (a : String) : Straight N (.atom a)
  | quote (x : Val) : N "quote" → Straight N (form "quote" [x])
  /-- `(and x ...)`, `(or x ...)`, `(swallow x ...)`, `(test x ...)` -/
  | all (name : String) (xs : List Val) : N name → name = "and" ∨ name = "or" ∨ name = "swallow" ∨ name = "test" → (∀ x ∈ xs, Straight N x) → Straight N (form name xs)
  | cond (cl : List (Val × Val)) : N "cond" → (∀ c ∈ cl, Straight N c.1) → (∀ c ∈ cl, Straight N c.2) → Straight N (form "cond" (cl.map fun c => vlist [c.1, c.2]))
  | let_ (bs : List (String × Val)) (xs : List Val) : N "let" → (∀ b ∈ bs, ¬ N b.1) → (∀ b ∈ bs, Straight N b.2) → (∀ x ∈ xs, Straight N x) →
    Straight N (form "let" (vlist (bs.map fun b => vlist [.atom b.1, b.2]) :: xs))
  | assign (name a : String) (x : Val) : N name → name = "def" ∨ name = "set!" → ¬ N a → Straight N x → Straight N (form name [.atom a, x])
  | lambda (ps : Val) (body : List Val) : N "lambda" → (∀ a, ps ≠ .atom a) → Straight N (form "lambda" (ps :: body))
  | defn (name a : String) (ps : Val) (body : List Val) : N name → name = "defn" ∨ name = "defmacro" → ¬ N a → (∀ b, ps ≠ .atom b) →
    Straight N (form name (.atom a :: ps :: body))
  | error (x : Val) : N "error" → Straight N x → Straight N (form "error" [x])
  /-- `(try x ... (catch a y ...))` -/
  | try_ (xs : List Val) (a : String) (ys : List Val) : N "try" → ¬ N a → (∀ x ∈ xs, Straight N x) → (∀ x ∈ ys, Straight N x) →
    Straight N (form "try" (xs ++ [form "catch" (.atom a :: ys)]))
  | errors (x : Val) (xs : List Val) : N "errors" → Straight N x → (∀ x ∈ xs, Straight N x) → Straight N (form "errors" (x :: xs))
  | native (b : BI) (xs : List Val) : N b.name → ¬ Evaluates b → (∀ x ∈ xs, Straight N x) → Straight N (form b.name xs)

/-- How deep the parentheses of an expression are nested. -/
def Val.nesting : Val → Nat
  | .cons a d => max (a.nesting + 1) d.nesting
  | _ => 0

/-- The names in `N` have their original meaning in scope `e`: no scope around it binds them. -/
structure Original (N : String → Prop) (h : Heap) (e : Nat) : Prop where
  nested : Nested h e
  free : ∀ a, N a → lookup h e a = none

/-- The evaluation has ended: with a value, an error, one of the crashes, or the end of the process. -/
def Ended {α : Type} (r : Res α) : Prop := (∃ v s, r = .ok v s) ∨ (∃ er s, r = .err er s) ∨ (∃ w s, r = .crash w s) ∨ ∃ c s, r = .exit c s

end L1
