import Verif.Spec.Core
/-
What a library function that takes a function does: which calls it makes, in which order, and what it returns, whatever effects the calls have.
-/
set_option autoImplicit false
namespace L1

/-- Functions whose calls do not depend on where they are called from: all but macros and the built-in functions that evaluate code in the scope of the caller
or look at it. -/
def Val.ordinary : Val → Bool
  | .lam _ _ _ _ m _ => !m
  | .bi b => !([.apply, .eval, .load, .macroexpand1, .sortBy, .forms, .help] : List BI).contains b
  | _ => true

/-- What to do with a function: return a value at once, or call the function with some arguments and go on depending on the value. -/
inductive Plan
  | ret (v : Val)
  | call (args : List Val) (next : Val → Plan)

/-- The same with the value changed by `k` at the end. -/
def Plan.then (k : Val → Val) : Plan → Plan
  | .ret v => .ret (k v)
  | .call args next => .call args fun y => (next y).then k

/-- `map`: call it with each element in order; the list of the values. -/
def mapPlan : List Val → Plan
  | [] => .ret .nil
  | x :: xs => .call [x] fun y => (mapPlan xs).then (.cons y)

/-- `filter`: call it with each element in order; the list of the elements for which the value is not (). -/
def filterPlan : List Val → Plan
  | [] => .ret .nil
  | x :: xs => .call [x] fun y => if y = .nil then filterPlan xs else (filterPlan xs).then (.cons x)

/-- `some`: call it with each element in order until a value is not (); that value. -/
def somePlan : List Val → Plan
  | [] => .ret .nil
  | x :: xs => .call [x] fun y => if y = .nil then somePlan xs else .ret y

/-- `every`: call it with each element in order until a value is (); whether there was none. -/
def everyPlan : List Val → Plan
  | [] => .ret (.atom "t")
  | x :: xs => .call [x] fun y => if y = .nil then .ret .nil else everyPlan xs

/-- `reduce`: call it with the value so far and each element in order; the last value. -/
def reducePlan : Val → List Val → Plan
  | acc, [] => .ret acc
  | acc, x :: xs => .call [acc, x] fun y => reducePlan y xs

/-- `repeatedly`: call it `n` times without arguments; the list of the values. -/
def repeatPlan : Nat → Plan
  | 0 => .ret .nil
  | n + 1 => .call [] fun y => (repeatPlan n).then (.cons y)

/-- The outcomes are the same except that the error `r'` may have elements in front of the error `r`. -/
def UpTo (r r' : Res Val) : Prop :=
  r' = r ∨ ∃ er s fr, r = .err er s ∧ r' = .err (Err.underAll fr er) s

/-- As `Quiet`, except that the scopes of `own` may have changed. -/
structure Still (own : Nat → Prop) (s s' : St) : Prop where
  len : s.heap.length ≤ s'.heap.length
  heap : ∀ j, j < s.heap.length → ¬ own j → s'.heap[j]? = s.heap[j]?
  out : s'.out = s.out
  inp : s'.inp = s.inp
  tick : s'.tick = s.tick
  screen : s'.screen = s.screen
  gensym : s.gensym ≤ s'.gensym

/-- The scopes of `s'` that `s` does not have. -/
def newIn (s s' : St) (j : Nat) : Prop := s.heap.length ≤ j ∧ j < s'.heap.length

/-- `own`, and those made from `s` to `s'`. -/
def madeBy (own : Nat → Prop) (s s' : St) (j : Nat) : Prop := own j ∨ newIn s s' j

/-- The names of the library have their original meaning at top level. -/
def LibraryIntact (h : Heap) : Prop := ∀ x r, known x = some r → lookup h 0 x = r

/-- `r` is the outcome of following the plan with the function `f` from state `s`: nothing observable happens but the calls; if one of
them does not return, its outcome is that of the whole.  `own` are the scopes made on the way outside the calls: no call changes them, and nothing
else is changed outside the calls.  Nothing is claimed once a call has changed the meaning of the library's names. -/
inductive Follows (W : World) (f : Val) : (Nat → Prop) → Plan → St → Res Val → Prop
  | ret {own : Nat → Prop} {v : Val} {s s' : St} : Still own s s' → Follows W f own (.ret v) s (.ok v s')
  | call {own : Nat → Prop} {args : List Val} {next : Val → Plan} {s s1 s2 : St} {y : Val} {r : Res Val} : Still own s s1 → callFn W f args 0 s1 = .ok y s2 →
    LibraryIntact s2.heap → (∀ j, madeBy own s s1 j → s2.heap[j]? = s1.heap[j]?) → Follows W f (madeBy own s s1) (next y) s2 r → Follows W f own (.call args next) s r
  | stop {own : Nat → Prop} {args : List Val} {next : Val → Plan} {s s1 : St} {r : Res Val} : Still own s s1 → callFn W f args 0 s1 = r → (∀ y s2, r ≠ .ok y s2) →
    Follows W f own (.call args next) s r
  | disturbed {own : Nat → Prop} {args : List Val} {next : Val → Plan} {s s1 s2 : St} {y : Val} {r : Res Val} : Still own s s1 → callFn W f args 0 s1 = .ok y s2 →
    ¬ LibraryIntact s2.heap → Follows W f own (.call args next) s r

/-- A call `(name arg ...)` of the library function `name`, written in any scope that sees it, whose arguments evaluate to `vs`, has the outcome of
following the plan `p` with the function `f` (but for elements that are put in front of an error). -/
def Plays (W : World) (name : String) (vs : List Val) (f : Val) (p : Plan) (t : Task) (s : St) : Prop :=
  ∀ (e : Nat) (args : List Val) (s1 : St), t = .eval (form name args) e → lookup s.heap e name = alGet name coreEnv → EvalsTo W e args s vs s1 → LibraryIntact s1.heap →
    ∃ r, Follows W f (fun _ => False) p s1 r ∧ UpTo r (eval W (form name args) e s)

end L1
