import Verif.Spec.Core
/- Vocabulary for the control macros of the core library. -/
set_option autoImplicit false
namespace L1

/-- The core library's names have their original meaning both at top level and seen from scope `e`. -/
def CoreHere (h : Heap) (e : Nat) : Prop := CoreAt h 0 ∧ CoreAt h e

/-- What follows an evaluation that ended with `r`: after a value, `k`; an error gets the element `(frame)` in front; anything else stays as it is. -/
def Res.andThen (r : Res Val) (frame : Val) (k : Val → St → Res Val) : Res Val :=
  match r with
  | .ok v s => k v s
  | .err er s => .err (er.under frame) s
  | .crash w s => .crash w s
  | .exit c s => .exit c s
  | .overflow s => .overflow s
  | .oof => .oof

/-- The outcome of evaluating the expressions in order in scope `e`: that of the last one if the others have values; `()` if there is none. -/
noncomputable def sequence (W : World) (frame : Val → Val) (e : Nat) : List Val → St → Res Val
  | [], s => .ok .nil s
  | [x], s => eval W x e s
  | x :: y :: xs, s => (eval W x e s).andThen (frame x) fun _ s' => sequence W frame e (y :: xs) s'

/-- The state with a new empty scope inside scope `e`; the new scope is number `s.heap.length`. -/
def withScope (s : St) (e : Nat) : St := { s with heap := s.heap ++ [⟨[], some e⟩] }

/-- The outcome of the expressions as the body of `progn` or `let`. -/
noncomputable def inOrder (W : World) (e : Nat) (xs : List Val) (s : St) : Res Val := sequence W (fun _ => msgList "evaluating let body") e xs s

end L1
