import Verif.Spec.Calls
/-
Specification of tail positions.  `evalWithin W d x e s` is the outcome of evaluating `x` in scope `e` from state `s` on a stack of `d` nested Go calls
of the evaluator: `.overflow` if that is not enough.
-/
set_option autoImplicit false
namespace L1

/-- `eval(x, e)` (lisp/lisp.go:375) with a fixed stack and unlimited time. -/
noncomputable def evalWithin (W : World) (d : Nat) (x : Val) (e : Nat) : M Val := performIn W d (.eval x e)

/-- Expressions evaluated one after the other, each within stack `d`. -/
inductive EvalsWithin (W : World) (d : Nat) (e : Nat) : List Val → St → List Val → St → Prop
  | nil {s : St} : EvalsWithin W d e [] s [] s
  | cons {x v : Val} {xs vs : List Val} {s s1 s2 : St} :
    evalWithin W d x e s = .ok v s1 → EvalsWithin W d e xs s1 vs s2 → EvalsWithin W d e (x :: xs) s (v :: vs) s2

/-- The conditions of these clauses are all `()`. -/
inductive FalseWithin (W : World) (d : Nat) (e : Nat) : List Val → St → St → Prop
  | nil {s : St} : FalseWithin W d e [] s s
  | cons {c body : Val} {cs : List Val} {s s1 s2 : St} :
    evalWithin W d c e s = .ok .nil s1 → FalseWithin W d e cs s1 s2 → FalseWithin W d e (.cons c body :: cs) s s2

/-- The bindings `(x1 e1) ... (xk ek)` of a `let` in scope `e`, made in the new scope `ne`. -/
inductive BindsWithin (W : World) (d : Nat) (e ne : Nat) : List Val → St → St → Prop
  | nil {s : St} : BindsWithin W d e ne [] s s
  | cons {x : String} {ex v : Val} {bs : List Val} {s s1 s2 : St} :
    evalWithin W d ex e s = .ok v s1 → x ≠ "t" →
    BindsWithin W d e ne bs { s1 with heap := heapSet s1.heap ne x v } s2 →
    BindsWithin W d e ne (vlist [.atom x, ex] :: bs) s s2

/-- `TailStep W d (x, e, s) (y, e', s')`: `y` is in tail position of `x`, and evaluating `x` in scope `e` from `s` gets to evaluating `y` in scope `e'`
from `s'`, where everything that has to be evaluated before fits in stack `d`. -/
inductive TailStep (W : World) (d : Nat) : Val × Nat × St → Val × Nat × St → Prop
  /-- the branch of the first true clause of a `cond` -/
  | cond {e : Nat} {before later more : List Val} {c b v : Val} {s s1 s2 : St} :
    NotMacro s.heap e "cond" → FalseWithin W d e before s s1 → evalWithin W d c e s1 = .ok v s2 → v ≠ .nil →
    TailStep W d (form "cond" (before ++ vlist (c :: b :: more) :: later), e, s) (b, e, s2)
  /-- the last form of a `let` -/
  | letBody {e : Nat} {bs xs vs : List Val} {x : Val} {s s1 s2 : St} :
    NotMacro s.heap e "let" →
    BindsWithin W d e s.heap.length bs { s with heap := s.heap ++ [⟨[], some e⟩] } s1 →
    EvalsWithin W d s.heap.length xs s1 vs s2 →
    TailStep W d (form "let" (vlist bs :: (xs ++ [x])), e, s) (x, s.heap.length, s2)
  /-- the last form of the body of a called function -/
  | call {e cenv : Nat} {fx : Val} {xs vs body bvs : List Val} {ps : List String} {r : String} {doc x : Val} {m : Bool} {s s0 s1 s3 : St} :
    (∀ a, fx = .atom a → NotMacro s.heap e a ∧ ∀ f : SF, a ≠ f.name) →
    evalWithin W d fx e s = .ok (.lam ps r (vlist (body ++ [x])) doc m cenv) s0 →
    EvalsWithin W d e xs s0 vs s1 → ArityOk ps r vs → NoT ps r →
    EvalsWithin W d s1.heap.length body (callSt s1 cenv ps r vs) bvs s3 →
    TailStep W d (.cons fx (vlist xs), e, s) (x, s1.heap.length, s3)
  /-- the expression built by a `syntax-quote` -/
  | syntaxQuote {e : Nat} {x y : Val} {more : List Val} {s : St} :
    NotMacro s.heap e "syntax-quote" → syntaxQuote x = some y →
    TailStep W d (form "syntax-quote" (x :: more), e, s) (y, e, s)
  /-- the expansion of a macro call -/
  | expansion {e : Nat} {x y : Val} {s s1 : St} :
    isMacroCallIn (lookup s.heap e) x = true → performIn W d (.mexpand x e) s = .ok y s1 →
    TailStep W d (x, e, s) (y, e, s1)

/-- Any number of tail steps. -/
inductive TailSteps (W : World) (d : Nat) : Val × Nat × St → Val × Nat × St → Prop
  | refl {a : Val × Nat × St} : TailSteps W d a a
  | step {a b c : Val × Nat × St} : TailStep W d a b → TailSteps W d b c → TailSteps W d a c

end L1
