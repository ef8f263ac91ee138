import Verif.Spec.Eval
import Verif.Spec.Library2
import Verif.Spec.Loops
/-
What examples/fuzz-legal.l1 generates: expressions, and what they are worth.
-/
set_option autoImplicit false
namespace L1

/-- The four operations. -/
inductive Op where
  | add | sub | mul | div

/-- Their names in the generated expressions. -/
def Op.name : Op → String
  | .add => "+"
  | .sub => "-"
  | .mul => "*"
  | .div => "/not0"

/-- Their values for one or more numbers: the sum; the opposite of a single number, or the first number minus the others; the product; and the quotient (rounded so that the remainder
is not negative) of the first number and the product of the others, or 1 if that product is 0. -/
def Op.value : Op → List Int → Int
  | .add, ns => ns.sum
  | .sub, [a] => -a
  | .sub, a :: ns => a - ns.sum
  | .mul, ns => ns.prod
  | .div, a :: ns => if ns.prod = 0 then 1 else a / ns.prod
  | _, [] => 0

/-- One or more of the letters a to z. -/
def IsWord (a : String) : Prop := a.toList ≠ [] ∧ ∀ c ∈ a.toList, c ∈ alphabet

/-- The number of decimal digits. -/
def digitCount (v : Int) : Nat := (Nat.toDigits 10 v.natAbs).length

/-- The expression stands for the number. -/
inductive NumForm : Val → Int → Prop
  | lit (n : Nat) : NumForm (.num n) n
  | op (o : Op) (xs : List (Val × Int)) : xs ≠ [] → (∀ p ∈ xs, NumForm p.1 p.2) → NumForm (form o.name (xs.map (·.1))) (o.value (xs.map (·.2)))
  | lenList (xs : List Val) : NumForm (form "len" [form "quote" [vlist xs]]) xs.length
  | lenWord (a : String) : IsWord a → NumForm (form "len" [form "split" [form "quote" [.atom a]]]) a.length
  | lenNum (x : Val) (v : Int) : NumForm x v → NumForm (form "len" [form "split" [x]]) (digitCount v)

/-- The expression stands for the value. -/
inductive LegalForm : Val → Val → Prop
  | num (x : Val) (v : Int) : NumForm x v → LegalForm x (.num v)
  | word (a : String) : IsWord a → LegalForm (form "quote" [.atom a]) (.atom a)
  | list (xs : List Val) : LegalForm (form "quote" [vlist xs]) (vlist xs)
  | yes : LegalForm (.atom "t") (.atom "t")
  | no : LegalForm .nil .nil

/-- What the script writes for an expression and its value: both in one line, and an empty line. -/
def fuzzLines (x v : Val) : List Char := x.str ++ " ==> ".toList ++ v.str ++ ['\n', '\n']

/-- `n` turns of a loop lead from one state to the other. -/
inductive After {σ : Type} (Turn : σ → LoopStep σ → Prop) : Nat → σ → σ → Prop
  | none {x : σ} : After Turn 0 x x
  | more {n : Nat} {x y z : σ} : Turn x (.again y) → After Turn n y z → After Turn (n + 1) x z

end L1
