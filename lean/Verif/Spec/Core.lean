import Verif.Model.CoreLib
import Verif.Spec.Calls
import Verif.Spec.Scopes
/-
Vocabulary for the core library (lisp/l1.l1).
-/
set_option autoImplicit false
namespace L1

/-- The top-level bindings once the core library is loaded: the named characters (lisp/builtin.go:17-35) and the library's own definitions. -/
def coreEnv : List (String × Val) := initGlobals.syms ++ coreDefs

/-- What a name means to the core library: `some (some v)` bound to `v`; `some none` not bound, being a built-in function or a special form;
`none` nothing. -/
def known (x : String) : Option (Option Val) :=
  match alGet x coreEnv with
  | some v => some (some v)
  | none => if (builtinOf x).isSome || (specialOf x).isSome then some none else none

/-- Scope `e` and the scopes around it exist, each older than the one inside it. -/
inductive Nested (h : Heap) : Nat → Prop
  | top {e : Nat} {f : Frame} : h[e]? = some f → f.parent = none → Nested h e
  | inside {e p : Nat} {f : Frame} : h[e]? = some f → f.parent = some p → p < e → Nested h p → Nested h e

/-- The core library is loaded and, seen from scope `e`, all its names, and those of built-in functions and special forms, have their original
meaning: the library's bindings are the original ones, and no built-in function or special form is shadowed. -/
structure CoreAt (h : Heap) (e : Nat) : Prop where
  nested : Nested h e
  sees : ∀ x r, known x = some r → lookup h e x = r

/-- From `s` to `s'` nothing observable happened: no output, no input read, no query to the outside world, the screen as before; every
existing scope is as it was.  There may be new scopes, and `gensym` may have been used. -/
structure Quiet (s s' : St) : Prop where
  heap : s.heap <+: s'.heap
  out : s'.out = s.out
  inp : s'.inp = s.inp
  tick : s'.tick = s.tick
  screen : s'.screen = s.screen
  gensym : s.gensym ≤ s'.gensym

/-- `x` in scope `e` quietly has the value `v`, at any quiet time after `s`. -/
def G (W : World) (s : St) (e : Nat) (x v : Val) : Prop := ∀ s', Quiet s s' → ∃ s'', eval W x e s' = .ok v s'' ∧ Quiet s' s''

/-- Calling the function value `f` with the arguments `vs` from scope `e` (lisp/lisp.go:682-722). -/
noncomputable def callFn (W : World) (f : Val) (vs : List Val) (e : Nat) : M Val := evApply (perform W) (perform W) f vs e

/-- Calling `f` with `vs`, now or at any quiet time after `s`, returns `v` quietly. -/
def Returns (W : World) (s : St) (f : Val) (vs : List Val) (v : Val) : Prop :=
  ∀ s' e, Quiet s s' → ∃ s'', callFn W f vs e s' = .ok v s'' ∧ Quiet s' s''

/-- Calling `f` with `vs`, now or at any quiet time after `s`, quietly returns a value with the property `P` (which may depend on the state, as that of
a newly created function does). -/
def Makes (W : World) (s : St) (f : Val) (vs : List Val) (P : St → Val → Prop) : Prop :=
  ∀ s' e, Quiet s s' → ∃ v s'', callFn W f vs e s' = .ok v s'' ∧ Quiet s' s'' ∧ P s'' v

/-- Calling `f` with `vs`, now or at any quiet time after `s`, is an error that can be caught, and has no other effect. -/
def Fails (W : World) (s : St) (f : Val) (vs : List Val) : Prop :=
  ∀ s' e, Quiet s s' → ∃ er s'', callFn W f vs e s' = .err (.list er) s'' ∧ Quiet s' s''

/-- `car` (for the letter `a`) or `cdr` (for any other): the parts of a cell; `()` of `()`; nothing for other values. -/
def part (c : Char) : Val → Option Val
  | .cons a d => if c = 'a' then some a else some d
  | .nil => some .nil
  | _ => none

/-- Following a string of `a`s and `d`s from right to left: `follow ['a', 'd'] v` is the `car` of the `cdr` of `v`. -/
def follow : List Char → Val → Option Val
  | [], v => some v
  | c :: p, v => (follow p v).bind (part c)

/-- Not a macro. -/
def Val.notMacro : Val → Bool
  | .lam _ _ _ _ m _ => !m
  | _ => true

/-- The composition of the functions, the last one called first, with the arguments `xs`, and each other with the value of the one after it, gives
`v`; without functions it is the identity. -/
inductive Composes (W : World) (s : St) : List Val → List Val → Val → Prop
  | nil {x : Val} : Composes W s [] [x] x
  | one {f v : Val} {xs : List Val} : Returns W s f xs v → Composes W s [f] xs v
  | cons {f g w v : Val} {gs xs : List Val} : Composes W s (g :: gs) xs w → Returns W s f [w] v → Composes W s (f :: g :: gs) xs v

/-- Folding `xs` from the left with the function value `f`, starting with `a`, gives `c`; every call returns quietly. -/
inductive Folds (W : World) (s : St) (f : Val) : Val → List Val → Val → Prop
  | nil {a : Val} : Folds W s f a [] a
  | cons {a b c x : Val} {xs : List Val} : Returns W s f [a, x] b → Folds W s f b xs c → Folds W s f a (x :: xs) c

/-- Everything in a value that is not a list or `()`, from left to right. -/
def leaves : Val → List Val
  | .nil => []
  | .cons a d => leaves a ++ leaves d
  | v => [v]

/-- The pairs of an index, from `c`, and an element. -/
def pairsFrom (c : Nat) : List Val → List Val
  | [] => []
  | x :: xs => vlist [.num c, x] :: pairsFrom (c + 1) xs

/-- What it means to be the composition of `fs`. -/
def IsComp (W : World) (fs : List Val) (s : St) (c : Val) : Prop :=
  c.notMacro = true ∧ ∀ s2, Quiet s s2 → ∀ xs v, Composes W s2 fs xs v → Returns W s2 c xs v

/-- A call `(name arg ...)` of the library function `name`, written in any scope that sees it, whose arguments evaluate to `vs` leaving the state `s`,
returns `v` and does nothing else. -/
def Gives (W : World) (s : St) (name : String) (vs : List Val) (v : Val) : Prop :=
  ∀ (e : Nat) (args : List Val) (s0 : St), lookup s0.heap e name = alGet name coreEnv → EvalsTo W e args s0 vs s →
    ∃ s', eval W (form name args) e s0 = .ok v s' ∧ Quiet s s'

/-- A call `(name arg ...)` as for `Gives`, which returns some value with the property `P` (a new function, say). -/
def GivesSome (W : World) (s : St) (name : String) (vs : List Val) (P : St → Val → Prop) : Prop :=
  ∀ (e : Nat) (args : List Val) (s0 : St), lookup s0.heap e name = alGet name coreEnv → EvalsTo W e args s0 vs s →
    ∃ v s', eval W (form name args) e s0 = .ok v s' ∧ Quiet s s' ∧ P s' v

/-- A call `(name arg ...)` as for `Gives`, which is an error that can be caught. -/
def GivesError (W : World) (s : St) (name : String) (vs : List Val) : Prop :=
  ∀ (e : Nat) (args : List Val) (s0 : St), lookup s0.heap e name = alGet name coreEnv → EvalsTo W e args s0 vs s →
    ∃ er s', eval W (form name args) e s0 = .err (.list er) s' ∧ Quiet s s'

/-! ### Templates -/

/-- The library's `concat2`, called with the lists `us` and `vs` in state `s`, leaves the state `s'`. -/
def Concats (W : World) (us vs : List Val) (e : Nat) (s s' : St) : Prop := callFn W k_concat2 [vlist us, vlist vs] e s = .ok (vlist (us ++ vs)) s'

/-- A list whose first element is `~@x`. -/
def isSplice (v : Val) : Prop := ∃ d, v = .cons (.atom "splicing-unquote") d

mutual
/-- `Fill W s e T v`: `v` is the template `T` with each `~x` replaced by the value of `x` and each `~@x` in a list by the elements of the value of
`x`, these values being found quietly. -/
inductive Fill (W : World) (s : St) (e : Nat) : Val → Val → Prop
  | num {n : Int} : Fill W s e (.num n) (.num n)
  | atom {a : String} : Fill W s e (.atom a) (.atom a)
  | unquote {x v : Val} : G W s e x v → Fill W s e (vlist [.atom "unquote", x]) v
  | list {ts vs : List Val} : ts.head? ≠ some (.atom "unquote") → Fills W s e ts vs → Fill W s e (vlist ts) (vlist vs)

/-- The elements of a list. -/
inductive Fills (W : World) (s : St) (e : Nat) : List Val → List Val → Prop
  | nil : Fills W s e [] []
  | cons {t v : Val} {ts vs : List Val} : ¬ isSplice t → Fill W s e t v → Fills W s e ts vs → Fills W s e (t :: ts) (v :: vs)
  | splice {x : Val} {us ts vs : List Val} : G W s e x (vlist us) → Fills W s e ts vs →
    Fills W s e (vlist [.atom "splicing-unquote", x] :: ts) (us ++ vs)
end

mutual
/-- `FillE W e T s v s'`: filling in the template `T`, evaluating from left to right, leads from state `s` to `s'` and gives `v`.  All along the names
of the library keep their meaning.  The elements of a spliced list are put in place by the library's `concat2`, once the rest of the list is there. -/
inductive FillE (W : World) (e : Nat) : Val → St → Val → St → Prop
  | num {n : Int} {s : St} : CoreAt s.heap e → FillE W e (.num n) s (.num n) s
  | atom {a : String} {s : St} : CoreAt s.heap e → FillE W e (.atom a) s (.atom a) s
  | unquote {x v : Val} {s s' : St} : eval W x e s = .ok v s' → FillE W e (vlist [.atom "unquote", x]) s v s'
  | list {ts vs : List Val} {s s' : St} : ts.head? ≠ some (.atom "unquote") → FillsE W e ts s vs s' → FillE W e (vlist ts) s (vlist vs) s'

/-- The elements of a list. -/
inductive FillsE (W : World) (e : Nat) : List Val → St → List Val → St → Prop
  | nil {s : St} : FillsE W e [] s [] s
  | cons {t v : Val} {ts vs : List Val} {s s1 s2 : St} : CoreAt s.heap e → ¬ isSplice t → FillE W e t s v s1 → FillsE W e ts s1 vs s2 →
    FillsE W e (t :: ts) s (v :: vs) s2
  | splice {x : Val} {us ts vs : List Val} {s s1 s2 s3 : St} : CoreAt s.heap e → eval W x e s = .ok (vlist us) s1 → FillsE W e ts s1 vs s2 →
    CoreAt s2.heap 0 → Concats W us vs e s2 s3 → FillsE W e (vlist [.atom "splicing-unquote", x] :: ts) s (us ++ vs) s3
end

end L1
