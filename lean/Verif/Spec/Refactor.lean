import Verif.Spec.Rename
import Verif.Spec.Inside
import Verif.Spec.Calls
/- When two expressions can be exchanged for each other. -/
set_option autoImplicit false
namespace L1

/-- The two outcomes are the same to the program: the same kind of outcome, the same value and state but for the numbers of scopes (`ρ`), the same text
printed since `o`; of errors, the element in front may differ. -/
def Res.AlikeButFront (ρ : Nat → Nat) (o : List Char) : Res Val → Res Val → Prop
  | .err er s, .err er' s' => SameButFront (er.ren ρ) er' ∧ L1.Alike ρ o o s s'
  | r, r' => Res.Alike ρ o o r r'

/-- The outcome of evaluating the expressions in order; it stops at the first one that has no value. -/
noncomputable def evalAll (W : World) (e : Nat) : List Val → Val → St → Res Val
  | [], v, s => .ok v s
  | x :: xs, _, s =>
    match eval W x e s with
    | .ok v s' => evalAll W e xs v s'
    | r => r

/-- In state `s`, the expressions `x` and `x'` can be exchanged for each other in scope `e`: whatever expressions are evaluated afterwards, the outcomes
are the same to the program; the scopes that were there before keep their numbers. -/
def Exchangeable (W : World) (e : Nat) (x x' : Val) (s : St) : Prop :=
  ∃ ρ : Nat → Nat, (∀ i, i < s.heap.length → ρ i = i) ∧ (∀ i j, ρ i = ρ j → i = j) ∧
    ∀ ys : List Val, (∀ y ∈ ys, ∀ ps r b dc m env, ¬ Inside (.lam ps r b dc m env) y) →
      Res.AlikeButFront ρ s.out (evalAll W e (x :: ys) .nil s) (evalAll W e (x' :: ys) .nil s)

/-- The binding `(p x)` of a `let`. -/
def letBinding (p : String) (x : Val) : Val := vlist [.atom p, x]

/-- The form `(let ((p1 x1) ...) body ...)`. -/
def letForm (ps : List String) (xs body : List Val) : Val := form "let" (vlist (List.zipWith letBinding ps xs) :: body)

/-- The form `((lambda (p1 ...) body ...) x1 ...)`. -/
def lambdaForm (ps : List String) (xs body : List Val) : Val := .cons (form "lambda" (vlist (ps.map .atom) :: body)) (vlist xs)

end L1
