import Verif.Spec.Plans
import Verif.Spec.Ctl
/-
What a loop does: turns, one after the other, each of which ends the loop or leads to the next.
-/
set_option autoImplicit false
namespace L1

/-- What one turn of a loop leads to: the next turn, the end of the loop, or nothing is known. -/
inductive LoopStep (σ : Type)
  | again (x : σ)
  | ends (r : Res Val)
  | unknown

/-- `r` is the outcome of a loop that ends after finitely many turns (of any loop, once a turn leads to nothing known). -/
inductive Loops {σ : Type} (Turn : σ → LoopStep σ → Prop) : σ → Res Val → Prop
  | ends {x : σ} {r : Res Val} : Turn x (.ends r) → Loops Turn x r
  | again {x y : σ} {r : Res Val} : Turn x (.again y) → Loops Turn y r → Loops Turn x r
  | unknown {x : σ} {r : Res Val} : Turn x .unknown → Loops Turn x r

/-- Each turn leads to a next one, forever. -/
def Endless {σ : Type} (Turn : σ → LoopStep σ → Prop) (x : σ) : Prop := ∃ f : Nat → σ, f 0 = x ∧ ∀ n, Turn (f n) (.again (f (n + 1)))

/-- Evaluating the expressions in order in scope `e` does not get beyond one of them, whose outcome `r` is not a value. -/
inductive StopsAt (W : World) (e : Nat) : List Val → St → Res Val → Prop
  | here {x : Val} {xs : List Val} {s : St} {r : Res Val} : eval W x e s = r → (∀ v s', r ≠ .ok v s') → StopsAt W e (x :: xs) s r
  | later {x v : Val} {xs : List Val} {s s1 : St} {r : Res Val} : eval W x e s = .ok v s1 → StopsAt W e xs s1 r → StopsAt W e (x :: xs) s r

/-- One turn of `(while c x ...)` in scope `e`; `F` is the function of the loop, `g` its name.  The condition is evaluated in a new scope inside `e`, and the
expressions in a new scope inside that one.  Nothing is claimed after the condition or the expressions have changed the meaning of the library's names or
of `g`. -/
inductive WhileTurn (W : World) (c : Val) (xs : List Val) (e : Nat) (g : String) (F : Val) : St → LoopStep St → Prop
  /-- The condition is () or does not return. -/
  | done {s s1 : St} {r : Res Val} : Quiet (withScope s e) s1 → eval W c s.heap.length s1 = r → (∀ v s2, r = .ok v s2 → v = .nil) → WhileTurn W c xs e g F s (.ends r)
  /-- The condition has a value other than (), and one of the expressions does not return. -/
  | stops {s s1 s2 s3 : St} {v : Val} {r : Res Val} : Quiet (withScope s e) s1 → eval W c s.heap.length s1 = .ok v s2 → v ≠ .nil → Quiet s2 s3 →
    StopsAt W s3.heap.length xs (withScope s3 s.heap.length) r → WhileTurn W c xs e g F s (.ends r)
  /-- The condition has a value other than (), and so have all of the expressions. -/
  | again {s s1 s2 s3 s4 : St} {v : Val} {vs : List Val} : Quiet (withScope s e) s1 → eval W c s.heap.length s1 = .ok v s2 → v ≠ .nil → Quiet s2 s3 →
    EvalsTo W s3.heap.length xs (withScope s3 s.heap.length) vs s4 → WhileTurn W c xs e g F s (.again s4)
  | disturbed {s s1 s2 : St} {v : Val} : Quiet (withScope s e) s1 → eval W c s.heap.length s1 = .ok v s2 → v ≠ .nil → ¬ CoreHere s2.heap s.heap.length →
    WhileTurn W c xs e g F s .unknown
  | disturbed' {s s1 s2 s3 s4 : St} {v : Val} {vs : List Val} : Quiet (withScope s e) s1 → eval W c s.heap.length s1 = .ok v s2 → v ≠ .nil → Quiet s2 s3 →
    EvalsTo W s3.heap.length xs (withScope s3 s.heap.length) vs s4 → ¬ (CoreHere s4.heap e ∧ lookup s4.heap s3.heap.length g = some F) → WhileTurn W c xs e g F s .unknown

/-- One turn of `(dotimes n x ...)`, with the number of turns to go; `F`, made in scope `e`, is the function of the loop, `g` its name.  The expressions are evaluated in
a new scope, inside one in which `count` is the number of turns to go, which they may change. -/
inductive DotimesTurn (W : World) (xs : List Val) (e : Nat) (g : String) (F : Val) : Int × St → LoopStep (Int × St) → Prop
  | done {s s1 : St} : Quiet (callSt s e ["count"] "" [.num 0]) s1 → DotimesTurn W xs e g F (0, s) (.ends (.ok .nil s1))
  /-- One of the expressions does not return. -/
  | stops {n : Int} {s s1 : St} {r : Res Val} : n ≠ 0 → Quiet (callSt s e ["count"] "" [.num n]) s1 → StopsAt W s1.heap.length xs (withScope s1 s.heap.length) r →
    DotimesTurn W xs e g F (n, s) (.ends r)
  /-- They all do, and `count` is `m` then: there are `m - 1` turns to go. -/
  | again {n m : Int} {s s1 s2 : St} {vs : List Val} : n ≠ 0 → Quiet (callSt s e ["count"] "" [.num n]) s1 → EvalsTo W s1.heap.length xs (withScope s1 s.heap.length) vs s2 →
    lookup s2.heap s1.heap.length "count" = some (.num m) → DotimesTurn W xs e g F (n, s) (.again (m - 1, s2))
  | disturbed {n : Int} {s s1 s2 : St} {vs : List Val} : n ≠ 0 → Quiet (callSt s e ["count"] "" [.num n]) s1 → EvalsTo W s1.heap.length xs (withScope s1 s.heap.length) vs s2 →
    ¬ (CoreHere s2.heap e ∧ lookup s2.heap s1.heap.length "-" = none ∧ lookup s2.heap s1.heap.length g = some F ∧ ∃ m, lookup s2.heap s1.heap.length "count" = some (.num m)) →
    DotimesTurn W xs e g F (n, s) .unknown

/-- How `(dotimes n x ...)` in scope `e` begins its turns, once it has the value of `n`, in state `s`: in state `s'`, the scope `E` sees the function `F` of the loop by
its name `g`, and otherwise what `e` saw, apart from a name `N`; `g` and `N` are new. -/
structure DotimesStart (s s' : St) (e E : Nat) (g N : String) (F : Val) : Prop where
  core : CoreHere s'.heap E
  function : lookup s'.heap E g = some F
  new : (∃ k, g = gensymName [] k) ∧ ∃ k, N = gensymName [] k
  same : ∀ x, x ≠ g → x ≠ N → lookup s'.heap E x = lookup s.heap e x

end L1
