import Verif.Model.Limit
import Verif.Spec.Ctl
/-
The language as a system of rules: `Runs W j s o s'` says that the job `j`, begun in state `s`, ends with the outcome `o` in state `s'`.  The rules say nothing of
stacks, steps or tail calls: the value of a form is described by the values of its parts.  Leaf operations are taken from the model: looking up and setting
variables (C18-C22), making a function (C73), the native functions that evaluate nothing (C08-C16, C37, C43, C47-C53, C74), the expression a template
stands for (C35), reading a text (C02).
-/
set_option autoImplicit false
namespace L1

/-- What ends an evaluation without a value: an error, a Go panic, the end of the process. -/
inductive Halt
  | failed (e : Err)
  | crashed (why : String)
  | ended (status : Nat)

/-- `frame` is put in front of an error that is a list; anything else passes unchanged. -/
def Halt.inside (frame : Val) : Halt → Halt
  | .failed (.list v) => .failed (.list (.cons frame v))
  | h => h

/-- The same for a frame given as a text: the list of its words. -/
def Halt.at (msg : String) (h : Halt) : Halt := h.inside (msgList msg)

/-- A new error: the list of one list, the words of the message. -/
def fault (msg : String) : Halt := .failed (.list (.cons (msgList msg) .nil))

/-- The outcome of a computation that ends. -/
def Res.outcome {α : Type} : Res α → Option (Except Halt α × St)
  | .ok a s => some (.ok a, s)
  | .err e s => some (.error (.failed e), s)
  | .crash w s => some (.error (.crashed w), s)
  | .exit c s => some (.error (.ended c), s)
  | .overflow _ => none
  | .oof => none

/-- `x` is a list whose first element is the name of a macro. -/
def MacroCall (s : St) (e : Nat) (x : Val) : Prop :=
  ∃ f args ps r body doc env, x = .cons (.atom f) args ∧ lookup s.heap e f = some (.lam ps r body doc true env)

/-- The variable `x` of scope `e` gets the value `v`. -/
def bound (s : St) (e : Nat) (x : String) (v : Val) : St := { s with heap := heapSet s.heap e x v }

/-- `cs` is written to the standard output. -/
def wrote (s : St) (cs : List Char) : St := { s with out := s.out ++ cs }

/-- A question to the outside world has been asked. -/
def ticked (s : St) : St := { s with tick := s.tick + 1 }

def NotCons (v : Val) : Prop := ∀ a d, v ≠ .cons a d

/-- The frames around an error in the body of a function: `(lambda x)`; of a `let`: `(evaluating let body)`. -/
def lambdaFrame (x : Val) : Val := vlist [.atom "lambda", x]
def letFrame (_ : Val) : Val := msgList "evaluating let body"

/-- The native functions that evaluate something. -/
def evaluates : BI → Bool
  | .apply | .eval | .macroexpand1 | .load | .sortBy | .forms | .help => true
  | _ => false

/-- The jobs. -/
inductive Job
  /-- evaluate `x` in scope `e` -/
  | eval (x : Val) (e : Nat)
  /-- the same, when `x` is not the call of a macro -/
  | plain (x : Val) (e : Nat)
  /-- expand macro calls until there is none / once -/
  | expand (x : Val) (e : Nat)
  | expand1 (x : Val) (e : Nat)
  /-- the special form `f`, given its arguments -/
  | special (f : SF) (args : Val) (e : Nat)
  /-- evaluate the elements in order; the value is the list of values -/
  | args (xs : Val) (e : Nat)
  /-- the body of a function or `let`: evaluate in order; the value is the last one -/
  | body (frame : Val → Val) (xs : Val) (e : Nat)
  /-- the same with a frame around all errors, the value for an empty body, and what happens at an improper end -/
  | seq (frame : String) (bad : Halt) (ret : Val) (xs : Val) (e : Nat)
  /-- give the parameters their values in scope `e` / the parameters except the last -/
  | bind (ps : List String) (r : String) (vs : List Val) (e : Nat)
  | names (ps : List String) (vs : List Val) (e : Nat)
  /-- call a function value with argument values -/
  | call (f : Val) (vs : List Val) (e : Nat)
  /-- call a native function -/
  | native (b : BI) (vs : List Val) (e : Nat)
  /-- the rest of a `try`; the value so far, the error so far -/
  | attempt (ret : Val) (er : Option Err) (xs : Val) (e : Nat)
  /-- enter a catch clause -/
  | catching (ret : Val) (er : Err) (clause : Val) (e : Nat)
  /-- the expressions of an `errors` form (`all`), looking for an error with the text `sig` -/
  | errors (all : Val) (sig : List Char) (xs : Val) (e : Nat)
  /-- the expressions of a `test` -/
  | tests (xs : Val) (e : Nat)
  /-- the bindings of a `let` in `e`, made in `ne`; the value is () if one has no value -/
  | binds (ne : Nat) (bs : Val) (e : Nat)
  /-- the forms of a file -/
  | forms (xs : List Val) (e : Nat)
  /-- sorting `xs` by `f` with some algorithm; the error so far -/
  | sort (f : Val) (how : Sorter) (xs : List Val) (er : Option Err) (e : Nat)
  /-- is `a` before `b`? -/
  | less (f a b : Val) (e : Nat)

/-- What the interpreter is asked for, as a job. -/
def Task.job : Task → Job
  | .eval x e => .eval x e
  | .mexpand x e => .expand x e
  | .loop body e => .special .loop body e
  | .builtin b args e => .native b args e

/-- The rules. -/
inductive Runs (W : World) : Job → St → Except Halt Val → St → Prop
  -- evaluation
  | eval_plain {x e s o s'} : ¬ MacroCall s e x → Runs W (.plain x e) s o s' → Runs W (.eval x e) s o s'
  | eval_macro {x y e s s1 o s'} : MacroCall s e x → Runs W (.expand x e) s (.ok y) s1 → Runs W (.plain y e) s1 o s' → Runs W (.eval x e) s o s'
  | eval_halt {x e s h s'} : MacroCall s e x → Runs W (.expand x e) s (.error h) s' → Runs W (.eval x e) s (.error (h.at "eval macroexpansion")) s'
  -- macros
  | expand_done {x y e s s'} : Runs W (.expand1 x e) s (.ok y) s' → ¬ MacroCall s' e y → Runs W (.expand x e) s (.ok y) s'
  | expand_more {x y e s s1 o s'} : Runs W (.expand1 x e) s (.ok y) s1 → MacroCall s1 e y → Runs W (.expand y e) s1 o s' → Runs W (.expand x e) s o s'
  | expand_halt {x e s h s'} : Runs W (.expand1 x e) s (.error h) s' → Runs W (.expand x e) s (.error (h.at "macroexpanson")) s'
  | expand1_other {x e s} : ¬ MacroCall s e x → Runs W (.expand1 x e) s (.ok x) s
  | expand1_improper {f args e s ps r body doc env} : lookup s.heap e f = some (.lam ps r body doc true env) → args.toList? = none →
      Runs W (.expand1 (.cons (.atom f) args) e) s (.error ((fault (consToExprsErr args)).at "converting macro call to list")) s
  | expand1_bind {f vs e s ps r body doc env h s'} : lookup s.heap e f = some (.lam ps r body doc true env) →
      Runs W (.bind ps r vs s.heap.length) (withScope s e) (.error h) s' →
      Runs W (.expand1 (.cons (.atom f) (vlist vs)) e) s (.error (h.at "setting macro call arguments")) s'
  | expand1 {f vs e s ps r body doc env s1 o s'} : lookup s.heap e f = some (.lam ps r body doc true env) →
      Runs W (.bind ps r vs s.heap.length) (withScope s e) (.ok .nil) s1 →
      Runs W (.seq "evaluating macro expansion" (fault "macro body must be a list") .nil body s.heap.length) s1 o s' →
      Runs W (.expand1 (.cons (.atom f) (vlist vs)) e) s o s'
  -- atoms, numbers, ()
  | num {n e s} : Runs W (.plain (.num n) e) s (.ok (.num n)) s
  | nil {e s} : Runs W (.plain .nil e) s (.ok .nil) s
  | cxr {a e s} : isCxr a = true → Runs W (.plain (.atom a) e) s (.ok (cxrLambda a e)) s
  | t {e s} : Runs W (.plain (.atom "t") e) s (.ok (.atom "t")) s
  | var {a e s v} : isCxr a = false → a ≠ "t" → lookup s.heap e a = some v → Runs W (.plain (.atom a) e) s (.ok v) s
  | native_name {b : BI} {e s} : lookup s.heap e b.name = none → Runs W (.plain (.atom b.name) e) s (.ok (.bi b)) s
  | unknown {a e s} : isCxr a = false → a ≠ "t" → lookup s.heap e a = none → (∀ b : BI, b.name ≠ a) →
      Runs W (.plain (.atom a) e) s (.error (fault ("unknown symbol: " ++ a))) s
  | function {x e s} : (∀ n, x ≠ .num n) → (∀ a, x ≠ .atom a) → x ≠ .nil → NotCons x →
      Runs W (.plain x e) s (.error (fault ("unknown expression type: " ++ String.ofList (goQuote x.str)))) s
  -- lists
  | malformed {f d e s} : d.isList = false → Runs W (.plain (.cons f d) e) s (.error (fault "malformed list for eval")) s
  | special {f : SF} {d e s o s'} : d.isList = true → Runs W (.special f d e) s o s' → Runs W (.plain (.cons (.atom f.name) d) e) s o s'
  | head_halt {f d e s h s'} : (∀ sf : SF, f ≠ .atom sf.name) → d.isList = true → Runs W (.eval f e) s (.error h) s' →
      Runs W (.plain (.cons f d) e) s (.error (h.at "evaluating function object")) s'
  | args_halt {f d e s fv s1 h s'} : (∀ sf : SF, f ≠ .atom sf.name) → d.isList = true → Runs W (.eval f e) s (.ok fv) s1 → Runs W (.args d e) s1 (.error h) s' →
      Runs W (.plain (.cons f d) e) s (.error h) s'
  | apply {f d e s fv s1 vs s2 o s'} : (∀ sf : SF, f ≠ .atom sf.name) → d.isList = true → Runs W (.eval f e) s (.ok fv) s1 →
      Runs W (.args d e) s1 (.ok (vlist vs)) s2 → Runs W (.call fv vs e) s2 o s' → Runs W (.plain (.cons f d) e) s o s'
  | arg_none {e s} : Runs W (.args .nil e) s (.ok .nil) s
  | arg_halt {a d e s h s'} : Runs W (.eval a e) s (.error h) s' → Runs W (.args (.cons a d) e) s (.error (h.at "evaluating function arguments")) s'
  | arg_rest_halt {a d e s v s1 h s'} : Runs W (.eval a e) s (.ok v) s1 → Runs W (.args d e) s1 (.error h) s' → Runs W (.args (.cons a d) e) s (.error h) s'
  | arg {a d e s v s1 vs s'} : Runs W (.eval a e) s (.ok v) s1 → Runs W (.args d e) s1 (.ok vs) s' → Runs W (.args (.cons a d) e) s (.ok (.cons v vs)) s'
  | arg_improper {x e s} : x.isList = false → Runs W (.args x e) s (.error (.crashed "interface conversion")) s
  -- calls
  | call_bind {ps r body doc m env vs e s h s'} : Runs W (.bind ps r vs s.heap.length) (withScope s env) (.error h) s' →
      Runs W (.call (.lam ps r body doc m env) vs e) s (.error (h.at "lambda env setup")) s'
  | call {ps r body doc m env vs e s s1 o s'} : Runs W (.bind ps r vs s.heap.length) (withScope s env) (.ok .nil) s1 →
      Runs W (.body lambdaFrame body s.heap.length) s1 o s' → Runs W (.call (.lam ps r body doc m env) vs e) s o s'
  | call_native {b vs e s v s'} : Runs W (.native b vs e) s (.ok v) s' → Runs W (.call (.bi b) vs e) s (.ok v) s'
  | call_native_halt {b vs e s h s'} : Runs W (.native b vs e) s (.error h) s' → Runs W (.call (.bi b) vs e) s (.error (h.at ("builtin function " ++ b.name))) s'
  | call_other {f vs e s} : (∀ ps r body doc m env, f ≠ .lam ps r body doc m env) → (∀ b, f ≠ .bi b) →
      Runs W (.call f vs e) s (.error (fault (f.toStr ++ " is not a function"))) s
  | bind_few {ps r vs e s} : vs.length < ps.length → Runs W (.bind ps r vs e) s (.error (fault "not enough arguments for function")) s
  | bind_many {ps vs e s} : ps.length < vs.length → Runs W (.bind ps "" vs e) s (.error (fault "too many arguments for function")) s
  | bind_exact {ps vs e s o s'} : ps.length = vs.length → Runs W (.names ps vs e) s o s' → Runs W (.bind ps "" vs e) s o s'
  | bind_rest_t {ps vs e s} : ps.length ≤ vs.length → Runs W (.bind ps "t" vs e) s (.error (fault "cannot bind or set t")) s
  | bind_rest {ps r vs e s o s'} : r ≠ "" → r ≠ "t" → ps.length ≤ vs.length → Runs W (.names ps vs e) (bound s e r (vlist (vs.drop ps.length))) o s' →
      Runs W (.bind ps r vs e) s o s'
  | names_none {ps vs e s} : ps = [] ∨ vs = [] → Runs W (.names ps vs e) s (.ok .nil) s
  | names_t {ps v vs e s} : Runs W (.names ("t" :: ps) (v :: vs) e) s (.error ((fault "cannot bind or set t").at "setting lambda arg")) s
  | names {p ps v vs e s o s'} : p ≠ "t" → Runs W (.names ps vs e) (bound s e p v) o s' → Runs W (.names (p :: ps) (v :: vs) e) s o s'
  -- sequences
  | body_none {fr e s} : Runs W (.body fr .nil e) s (.ok .nil) s
  | body_last {fr a e s o s'} : Runs W (.eval a e) s o s' → Runs W (.body fr (.cons a .nil) e) s o s'
  | body_halt {fr a d e s h s'} : d ≠ .nil → Runs W (.eval a e) s (.error h) s' → Runs W (.body fr (.cons a d) e) s (.error (h.inside (fr a))) s'
  | body_next {fr a d e s v s1 o s'} : d ≠ .nil → Runs W (.eval a e) s (.ok v) s1 → Runs W (.body fr d e) s1 o s' → Runs W (.body fr (.cons a d) e) s o s'
  | body_improper {fr x e s} : x.isList = false → Runs W (.body fr x e) s (.error (.crashed "interface conversion")) s
  | seq_none {fr bad ret e s} : Runs W (.seq fr bad ret .nil e) s (.ok ret) s
  | seq_halt {fr bad ret a d e s h s'} : Runs W (.eval a e) s (.error h) s' → Runs W (.seq fr bad ret (.cons a d) e) s (.error (h.at fr)) s'
  | seq_next {fr bad ret a d e s v s1 o s'} : Runs W (.eval a e) s (.ok v) s1 → Runs W (.seq fr bad v d e) s1 o s' → Runs W (.seq fr bad ret (.cons a d) e) s o s'
  | seq_improper {fr bad ret x e s} : x.isList = false → Runs W (.seq fr bad ret x e) s (.error bad) s
  -- quote, templates, functions
  | quote {x d e s} : Runs W (.special .quote (.cons x d) e) s (.ok x) s
  | quote_none {x e s} : NotCons x → Runs W (.special .quote x e) s (.error (fault "quote needs an argument")) s
  | template {x y d e s o s'} : syntaxQuote x = some y → Runs W (.eval y e) s o s' → Runs W (.special .syntaxQuote (.cons x d) e) s o s'
  | template_crash {x d e s} : syntaxQuote x = none →
      Runs W (.special .syntaxQuote (.cons x d) e) s (.error (.crashed "syntax-quote: nil pointer or interface conversion")) s
  | template_none {x e s} : NotCons x → Runs W (.special .syntaxQuote x e) s (.error (fault "syntax-quote needs an argument")) s
  | lambda {x e s o s'} : (mkLambda x false e s).outcome = some (o, s') → Runs W (.special .lambda x e) s o s'
  -- conditions
  | cond_none {e s} : Runs W (.special .cond .nil e) s (.ok .nil) s
  | cond_halt {c b d e s h s'} : Runs W (.eval c e) s (.error h) s' → Runs W (.special .cond (.cons (.cons c b) d) e) s (.error (h.at "evaluating cond condition")) s'
  | cond_false {c b d e s s1 o s'} : Runs W (.eval c e) s (.ok .nil) s1 → Runs W (.special .cond d e) s1 o s' → Runs W (.special .cond (.cons (.cons c b) d) e) s o s'
  | cond_true {c b b' d e s v s1 o s'} : Runs W (.eval c e) s (.ok v) s1 → v ≠ .nil → Runs W (.eval b e) s1 o s' →
      Runs W (.special .cond (.cons (.cons c (.cons b b')) d) e) s o s'
  | cond_empty {c b d e s v s'} : Runs W (.eval c e) s (.ok v) s' → v ≠ .nil → NotCons b →
      Runs W (.special .cond (.cons (.cons c b) d) e) s (.error (fault "cond requires a list of pairs")) s'
  | cond_bad {c d e s} : NotCons c → Runs W (.special .cond (.cons c d) e) s (.error (fault "cond requires a list of pairs")) s
  | cond_improper {x e s} : x.isList = false → Runs W (.special .cond x e) s (.error (.crashed "interface conversion")) s
  | and_none {e s} : Runs W (.special .and .nil e) s (.ok (.atom "t")) s
  | and_halt {a d e s h s'} : Runs W (.eval a e) s (.error h) s' → Runs W (.special .and (.cons a d) e) s (.error (h.at "and operator")) s'
  | and_false {a d e s s'} : Runs W (.eval a e) s (.ok .nil) s' → Runs W (.special .and (.cons a d) e) s (.ok .nil) s'
  | and_true {a d e s v s1 o s'} : Runs W (.eval a e) s (.ok v) s1 → v ≠ .nil → Runs W (.special .and d e) s1 o s' → Runs W (.special .and (.cons a d) e) s o s'
  | and_improper {x e s} : x.isList = false → Runs W (.special .and x e) s (.error (fault "and requires a list of expressions")) s
  | or_none {e s} : Runs W (.special .or .nil e) s (.ok .nil) s
  | or_halt {a d e s h s'} : Runs W (.eval a e) s (.error h) s' → Runs W (.special .or (.cons a d) e) s (.error (h.at "or operator")) s'
  | or_true {a d e s v s'} : Runs W (.eval a e) s (.ok v) s' → v ≠ .nil → Runs W (.special .or (.cons a d) e) s (.ok v) s'
  | or_false {a d e s s1 o s'} : Runs W (.eval a e) s (.ok .nil) s1 → Runs W (.special .or d e) s1 o s' → Runs W (.special .or (.cons a d) e) s o s'
  | or_improper {x e s} : x.isList = false → Runs W (.special .or x e) s (.error (fault "or requires a list of expressions")) s
  -- loop
  | loop_halt {x e s h s'} : Runs W (.seq "loop operator" (.crashed "interface conversion") .nil x e) s (.error h) s' → Runs W (.special .loop x e) s (.error h) s'
  | loop_next {x e s v s1 o s'} : Runs W (.seq "loop operator" (.crashed "interface conversion") .nil x e) s (.ok v) s1 → Runs W (.special .loop x e) s1 o s' →
      Runs W (.special .loop x e) s o s'
  -- variables
  | def_ {x a d e s v s'} : Runs W (.eval a e) s (.ok v) s' → x ≠ "t" → Runs W (.special .def_ (.cons (.atom x) (.cons a d)) e) s (.ok v) (bound s' (root s'.heap e) x v)
  | def_t {a d e s v s'} : Runs W (.eval a e) s (.ok v) s' →
      Runs W (.special .def_ (.cons (.atom "t") (.cons a d)) e) s (.error ((fault "cannot bind or set t").at "setting def result")) s'
  | def_halt {x a d e s h s'} : Runs W (.eval a e) s (.error h) s' → Runs W (.special .def_ (.cons (.atom x) (.cons a d)) e) s (.error (h.at "evaluating def value")) s'
  | def_few {x d e s} : NotCons d → Runs W (.special .def_ (.cons (.atom x) d) e) s (.error (fault "missing argument")) s
  | def_bad {x d e s} : (∀ a, x ≠ .atom a) → Runs W (.special .def_ (.cons x d) e) s (.error (fault "def: first argument must be an atom")) s
  | def_none {x e s} : NotCons x → Runs W (.special .def_ x e) s (.error (fault "missing argument")) s
  | set {x a d e s v s' o} : Runs W (.eval a e) s (.ok v) s' → x ≠ "t" → owner s'.heap e x = some o →
      Runs W (.special .set (.cons (.atom x) (.cons a d)) e) s (.ok v) (bound s' o x v)
  | set_unbound {x a d e s v s'} : Runs W (.eval a e) s (.ok v) s' → x ≠ "t" → owner s'.heap e x = none →
      Runs W (.special .set (.cons (.atom x) (.cons a d)) e) s (.error ((fault (x ++ " is not bound in any environment")).at "updating set result")) s'
  | set_t {a d e s v s'} : Runs W (.eval a e) s (.ok v) s' →
      Runs W (.special .set (.cons (.atom "t") (.cons a d)) e) s (.error ((fault "cannot bind or set t").at "updating set result")) s'
  | set_halt {x a d e s h s'} : Runs W (.eval a e) s (.error h) s' → Runs W (.special .set (.cons (.atom x) (.cons a d)) e) s (.error (h.at "evaluating set value")) s'
  | set_few {x d e s} : NotCons d → Runs W (.special .set (.cons (.atom x) d) e) s (.error (fault "missing argument")) s
  | set_nil {d e s} : Runs W (.special .set (.cons .nil d) e) s (.error (fault "set!: first argument cannot be nil!")) s
  | set_bad {x d e s} : (∀ a, x ≠ .atom a) → x ≠ .nil → Runs W (.special .set (.cons x d) e) s (.error (fault "set!: first argument must be an atom")) s
  | set_none {x e s} : NotCons x → Runs W (.special .set x e) s (.error (fault "missing argument")) s
  | defn {x e s o s'} : (evDefn false e x s).outcome = some (o, s') → Runs W (.special .defn x e) s o s'
  | defmacro {x e s o s'} : (evDefn true e x s).outcome = some (o, s') → Runs W (.special .defmacro x e) s o s'
  -- let
  | let_binds_halt {bs b e s h s'} : bs.isList = true → b.isList = true → Runs W (.binds s.heap.length bs e) (withScope s e) (.error h) s' →
      Runs W (.special .let_ (.cons bs b) e) s (.error h) s'
  | let_valueless {bs b e s s'} : bs.isList = true → b.isList = true → Runs W (.binds s.heap.length bs e) (withScope s e) (.ok .nil) s' →
      Runs W (.special .let_ (.cons bs b) e) s (.ok .nil) s'
  | let_ {bs b e s s1 o s'} : bs.isList = true → b.isList = true → Runs W (.binds s.heap.length bs e) (withScope s e) (.ok (.atom "t")) s1 →
      Runs W (.body letFrame b s.heap.length) s1 o s' → Runs W (.special .let_ (.cons bs b) e) s o s'
  | let_body {bs b e s} : bs.isList = true → b.isList = false → Runs W (.special .let_ (.cons bs b) e) s (.error (fault "let requires a body")) s
  | let_bad {bs b e s} : bs.isList = false → Runs W (.special .let_ (.cons bs b) e) s (.error (fault "let bindings must be a list")) s
  | let_none {x e s} : NotCons x → Runs W (.special .let_ x e) s (.error (fault "let requires a binding list")) s
  | binds_none {ne e s} : Runs W (.binds ne .nil e) s (.ok (.atom "t")) s
  | binds_valueless {ne x d e s} : Runs W (.binds ne (.cons (.cons (.atom x) .nil) d) e) s (.ok .nil) s
  | binds_halt {ne x a a' d e s h s'} : Runs W (.eval a e) s (.error h) s' →
      Runs W (.binds ne (.cons (.cons (.atom x) (.cons a a')) d) e) s (.error (h.at "evaluating let bindings")) s'
  | binds_t {ne a a' d e s v s'} : Runs W (.eval a e) s (.ok v) s' →
      Runs W (.binds ne (.cons (.cons (.atom "t") (.cons a a')) d) e) s (.error ((fault "cannot bind or set t").at "setting let bindings")) s'
  | binds {ne x a a' d e s v s1 o s'} : Runs W (.eval a e) s (.ok v) s1 → x ≠ "t" → Runs W (.binds ne d e) (bound s1 ne x v) o s' →
      Runs W (.binds ne (.cons (.cons (.atom x) (.cons a a')) d) e) s o s'
  | binds_bad {ne b d e s} : (∀ x b', b ≠ .cons (.atom x) b') → Runs W (.binds ne (.cons b d) e) s (.error (fault "a let binding must be a list of binding pairs")) s
  | binds_dotted {ne x y d e s} : y.isList = false →
      Runs W (.binds ne (.cons (.cons (.atom x) y) d) e) s (.error (fault "a let binding must be a list of binding pairs")) s
  | binds_improper {ne x e s} : x.isList = false → Runs W (.binds ne x e) s (.error (.crashed "interface conversion")) s
  -- errors
  | error {x d e s v s'} : Runs W (.eval x e) s (.ok v) s' → Runs W (.special .error (.cons x d) e) s (.error (.failed (.list (.cons v .nil)))) s'
  | error_halt {x d e s h s'} : Runs W (.eval x e) s (.error h) s' → Runs W (.special .error (.cons x d) e) s (.error (h.at "error operator")) s'
  | error_none {x e s} : NotCons x → Runs W (.special .error x e) s (.error (fault "error requires a non-empty argument list")) s
  | swallow_none {e s} : Runs W (.special .swallow .nil e) s (.ok .nil) s
  | swallow_error {a d e s er s'} : Runs W (.eval a e) s (.error (.failed er)) s' → Runs W (.special .swallow (.cons a d) e) s (.ok (.atom "t")) s'
  | swallow_halt {a d e s h s'} : Runs W (.eval a e) s (.error h) s' → (∀ er, h ≠ .failed er) → Runs W (.special .swallow (.cons a d) e) s (.error h) s'
  | swallow_next {a d e s v s1 o s'} : Runs W (.eval a e) s (.ok v) s1 → Runs W (.special .swallow d e) s1 o s' → Runs W (.special .swallow (.cons a d) e) s o s'
  | swallow_improper {x e s} : x.isList = false → Runs W (.special .swallow x e) s (.error (.crashed "interface conversion")) s
  | try_ {x e s o s'} : Runs W (.attempt .nil none x e) s o s' → Runs W (.special .try_ x e) s o s'
  | try_value {ret e s} : Runs W (.attempt ret none .nil e) s (.ok ret) s
  | try_error {ret er e s} : Runs W (.attempt ret (some er) .nil e) s (.error (.failed er)) s
  | try_unneeded {ret c d e s} : Runs W (.attempt ret none (.cons (.cons (.atom "catch") c) d) e) s (.ok ret) s
  | try_catch {ret er c d e s o s'} : Runs W (.catching ret er c e) s o s' → Runs W (.attempt ret (some er) (.cons (.cons (.atom "catch") c) d) e) s o s'
  | try_skip {ret er a d e s o s'} : (∀ c, a ≠ .cons (.atom "catch") c) → Runs W (.attempt ret (some er) d e) s o s' → Runs W (.attempt ret (some er) (.cons a d) e) s o s'
  | try_next {ret a d e s v s1 o s'} : (∀ c, a ≠ .cons (.atom "catch") c) → Runs W (.eval a e) s (.ok v) s1 → Runs W (.attempt v none d e) s1 o s' →
      Runs W (.attempt ret none (.cons a d) e) s o s'
  | try_fails {ret a d e s er s1 o s'} : (∀ c, a ≠ .cons (.atom "catch") c) → Runs W (.eval a e) s (.error (.failed er)) s1 → Runs W (.attempt ret (some er) d e) s1 o s' →
      Runs W (.attempt ret none (.cons a d) e) s o s'
  | try_halt {ret a d e s h s'} : (∀ c, a ≠ .cons (.atom "catch") c) → Runs W (.eval a e) s (.error h) s' → (∀ er, h ≠ .failed er) →
      Runs W (.attempt ret none (.cons a d) e) s (.error h) s'
  | try_improper {ret er x e s} : x.isList = false → Runs W (.attempt ret er x e) s (.error (fault "try requires a list of expressions")) s
  | catch_ {ret v x b e s o s'} : x ≠ "t" →
      Runs W (.seq "catch body" (fault "catch body must be a list with a binding name") ret b s.heap.length) (bound (withScope s e) s.heap.length x v) o s' →
      Runs W (.catching ret (.list v) (.cons (.atom x) b) e) s o s'
  | catch_t {ret v b e s o s'} :
      Runs W (.seq "catch body" (fault "catch body must be a list with a binding name") ret b s.heap.length) (withScope s e) o s' →
      Runs W (.catching ret (.list v) (.cons (.atom "t") b) e) s o s'
  | catch_foreign {ret m x b e s} :
      Runs W (.catching ret (.foreign m) (.cons (.atom x) b) e) s (.error (fault "catch body must be a list with a binding name")) (withScope s e)
  | catch_bad {ret er x b e s} : (∀ a, x ≠ .atom a) → Runs W (.catching ret er (.cons x b) e) s (.error (fault "catch binding name must be a symbol")) s
  | catch_crash {ret er e s} : Runs W (.catching ret er .nil e) s (.error (.crashed "nil pointer dereference")) s
  | catch_none {ret er x e s} : x.isList = false → Runs W (.catching ret er x e) s (.error (fault "catch body must be a list with a binding name")) s
  | errors_bad {sig b e s} : sig.isList = false → Runs W (.special .errors (.cons sig b) e) s (.error (fault "error signature must be a list")) s
  | errors_halt {sig b e s h s'} : sig.isList = true → Runs W (.eval sig e) s (.error h) s' →
      Runs W (.special .errors (.cons sig b) e) s (.error (h.at "evaluating error signature")) s'
  | errors_value {sig b e s v s'} : sig.isList = true → Runs W (.eval sig e) s (.ok v) s' → v.isList = false →
      Runs W (.special .errors (.cons sig b) e) s (.error (fault "error signature must be a list")) s'
  | errors {sig b e s v s1 o s'} : sig.isList = true → Runs W (.eval sig e) s (.ok v) s1 → v.isList = true →
      Runs W (.errors (.cons sig b) (unwrap v) b e) s1 o s' → Runs W (.special .errors (.cons sig b) e) s o s'
  | errors_none {x e s} : NotCons x → Runs W (.special .errors x e) s (.error (fault "no error spec given")) s
  | errors_missing {all sig e s} : Runs W (.errors all sig .nil e) s (.error (fault ("error not found in " ++ all.toStr))) s
  | errors_found {all sig a d e s er s'} : Runs W (.eval a e) s (.error (.failed er)) s' → sig <:+: er.str → Runs W (.errors all sig (.cons a d) e) s (.ok .nil) s'
  | errors_other {all sig a d e s er s'} : Runs W (.eval a e) s (.error (.failed er)) s' → ¬ sig <:+: er.str →
      Runs W (.errors all sig (.cons a d) e) s (.error (fault ("error '" ++ String.ofList sig ++ "' not found in '" ++ String.ofList er.str ++ "'"))) s'
  | errors_stop {all sig a d e s h s'} : Runs W (.eval a e) s (.error h) s' → (∀ er, h ≠ .failed er) → Runs W (.errors all sig (.cons a d) e) s (.error h) s'
  | errors_next {all sig a d e s v s1 o s'} : Runs W (.eval a e) s (.ok v) s1 → Runs W (.errors all sig d e) s1 o s' → Runs W (.errors all sig (.cons a d) e) s o s'
  | errors_improper {all sig x e s} : x.isList = false → Runs W (.errors all sig x e) s (.error (.crashed "interface conversion")) s
  -- test
  | test_none {x e s} : NotCons x → Runs W (.special .test x e) s (.ok .nil) s
  | test_halt {x d e s h s'} : Runs W (.eval x e) s (.error h) s' → Runs W (.special .test (.cons x d) e) s (.error ((h.at "evaluating test description").at "test")) s'
  | test {x d e s v s1 s'} : Runs W (.eval x e) s (.ok v) s1 → Runs W (.tests d e) (wrote s1 ("TEST ".toList ++ v.str ++ [' '])) (.ok .nil) s' →
      Runs W (.special .test (.cons x d) e) s (.ok .nil) s'
  | test_fails {x d e s v s1 h s'} : Runs W (.eval x e) s (.ok v) s1 → Runs W (.tests d e) (wrote s1 ("TEST ".toList ++ v.str ++ [' '])) (.error h) s' →
      Runs W (.special .test (.cons x d) e) s (.error (h.at "test")) s'
  | tests_done {e s} : Runs W (.tests .nil e) s (.ok .nil) (wrote s "✓\n".toList)
  | tests_halt {a d e s h s'} : Runs W (.eval a e) s (.error h) s' → Runs W (.tests (.cons a d) e) s (.error (h.at ("evaluating test " ++ a.toStr))) s'
  | tests_next {a d e s v s1 o s'} : Runs W (.eval a e) s (.ok v) s1 → Runs W (.tests d e) (wrote s1 ['.']) o s' → Runs W (.tests (.cons a d) e) s o s'
  | tests_improper {x e s} : x.isList = false → Runs W (.tests x e) s (.error (fault "test body must be a list")) s
  -- native functions
  | native {b vs e s o s'} : evaluates b = false → (biFn W (fun _ _ => .oof) b vs e s).outcome = some (o, s') → Runs W (.native b vs e) s o s'
  | eval_native {x e s o s'} : Runs W (.eval x e) s o s' → Runs W (.native .eval [x] e) s o s'
  | eval_arity {vs e s} : vs.length ≠ 1 → Runs W (.native .eval vs e) s (.error (fault "missing argument")) s
  | macroexpand {x e s o s'} : Runs W (.expand1 x e) s o s' → Runs W (.native .macroexpand1 [x] e) s o s'
  | macroexpand_arity {vs e s} : vs.length ≠ 1 → Runs W (.native .macroexpand1 vs e) s (.error (fault "macroexpand-1 expects a single argument")) s
  | apply_few {vs e s} : vs.length < 2 → Runs W (.native .apply vs e) s (.error (fault "apply: not enough arguments")) s
  | apply_atom {f vs l e s} : l.isList = false → Runs W (.native .apply (f :: vs ++ [l]) e) s (.error (fault ("'" ++ l.toStr ++ "' is not a list"))) s
  | apply_improper {f vs l e s} : l.isList = true → l.toList? = none →
      Runs W (.native .apply (f :: vs ++ [l]) e) s (.error ((fault (consToExprsErr l)).at "apply")) s
  | apply_bind {ps r body doc m env vs xs e s h s'} : Runs W (.bind ps r (vs ++ xs) s.heap.length) (withScope s env) (.error h) s' →
      Runs W (.native .apply (.lam ps r body doc m env :: vs ++ [vlist xs]) e) s (.error (h.at "apply")) s'
  | apply_fn {ps r body doc m env vs xs e s s1 o s'} : Runs W (.bind ps r (vs ++ xs) s.heap.length) (withScope s env) (.ok .nil) s1 →
      Runs W (.seq "apply" (.crashed "interface conversion") .nil body s.heap.length) s1 o s' →
      Runs W (.native .apply (.lam ps r body doc m env :: vs ++ [vlist xs]) e) s o s'
  | apply_native {b vs xs e s v s'} : Runs W (.native b (vs ++ xs) e) s (.ok v) s' → Runs W (.native .apply (.bi b :: vs ++ [vlist xs]) e) s (.ok v) s'
  | apply_native_halt {b vs xs e s h s'} : Runs W (.native b (vs ++ xs) e) s (.error h) s' →
      Runs W (.native .apply (.bi b :: vs ++ [vlist xs]) e) s (.error (h.at "apply")) s'
  | apply_other {f vs xs e s} : (∀ ps r body doc m env, f ≠ .lam ps r body doc m env) → (∀ b, f ≠ .bi b) →
      Runs W (.native .apply (f :: vs ++ [vlist xs]) e) s (.error (fault (f.toStr ++ " is not a function"))) s
  | load_arity {vs e s} : vs.length ≠ 1 → Runs W (.native .load vs e) s (.error (fault "load expects a single argument")) s
  | load_bad {v e s} : (∀ a, v ≠ .atom a) → Runs W (.native .load [v] e) s (.error (fault "load expects a filename")) s
  | load_unreadable {a m e s} : W.readFile s.tick a = .error m → Runs W (.native .load [.atom a] e) s (.error (.failed (.foreign m))) (ticked s)
  | load_syntax {a text er e s} : W.readFile s.tick a = .ok text → readText text = .err er →
      Runs W (.native .load [.atom a] e) s (.error ((Halt.failed (.list er)).at "load file")) (ticked s)
  | load_crash {a text e s} : W.readFile s.tick a = .ok text → readText text = .crash → Runs W (.native .load [.atom a] e) s (.error (.crashed "index out of range")) (ticked s)
  | load_halt {a text xs e s h s'} : W.readFile s.tick a = .ok text → readText text = .ok xs → Runs W (.forms xs e) (ticked s) (.error h) s' →
      Runs W (.native .load [.atom a] e) s (.error (h.at "load file")) s'
  | load {a text xs e s s'} : W.readFile s.tick a = .ok text → readText text = .ok xs → Runs W (.forms xs e) (ticked s) (.ok .nil) s' →
      Runs W (.native .load [.atom a] e) s (.ok .nil) s'
  | forms_none {e s} : Runs W (.forms [] e) s (.ok .nil) s
  | forms_halt {x xs e s h s'} : Runs W (.eval x e) s (.error h) s' → Runs W (.forms (x :: xs) e) s (.error h) s'
  | forms_next {x xs e s v s1 o s'} : Runs W (.eval x e) s (.ok v) s1 → Runs W (.forms xs e) s1 o s' → Runs W (.forms (x :: xs) e) s o s'
  | sort_arity {vs e s} : vs.length ≠ 2 → Runs W (.native .sortBy vs e) s (.error (fault "sort-by expects two arguments")) s
  | sort_atom {f l e s} : l.isList = false → Runs W (.native .sortBy [f, l] e) s (.error (fault ("'" ++ l.toStr ++ "' is not a list"))) s
  | sort_improper {f l e s} : l.isList = true → l.toList? = none → Runs W (.native .sortBy [f, l] e) s (.error ((fault (consToExprsErr l)).at "sort consToExprs")) s
  | sort {f xs e s o s'} : Runs W (.sort f (W.sorter xs.length) xs none e) s o s' → Runs W (.native .sortBy [f, vlist xs] e) s o s'
  | sort_done {f xs e s} : Runs W (.sort f .done xs none e) s (.ok (vlist xs)) s
  | sort_failed {f xs er e s} : Runs W (.sort f .done xs (some er) e) s (.error (.failed er)) s
  | sort_swap {f i j k xs er e s o s'} : Runs W (.sort f k (swapAt xs i j) er e) s o s' → Runs W (.sort f (.swap i j k) xs er e) s o s'
  | sort_outside {f i j y n xs er e s o s'} : xs[i]? = none ∨ xs[j]? = none → Runs W (.sort f n xs er e) s o s' → Runs W (.sort f (.less i j y n) xs er e) s o s'
  | sort_yes {f i j y n xs er e s a b v s1 o s'} : xs[i]? = some a → xs[j]? = some b → Runs W (.less f a b e) s (.ok v) s1 → v ≠ .nil →
      Runs W (.sort f y xs er e) s1 o s' → Runs W (.sort f (.less i j y n) xs er e) s o s'
  | sort_no {f i j y n xs er e s a b s1 o s'} : xs[i]? = some a → xs[j]? = some b → Runs W (.less f a b e) s (.ok .nil) s1 →
      Runs W (.sort f n xs er e) s1 o s' → Runs W (.sort f (.less i j y n) xs er e) s o s'
  | sort_error {f i j y n xs er e s a b er' s1 o s'} : xs[i]? = some a → xs[j]? = some b → Runs W (.less f a b e) s (.error (.failed er')) s1 →
      Runs W (.sort f n xs (some er') e) s1 o s' → Runs W (.sort f (.less i j y n) xs er e) s o s'
  | sort_halt {f i j y n xs er e s a b h s'} : xs[i]? = some a → xs[j]? = some b → Runs W (.less f a b e) s (.error h) s' → (∀ er, h ≠ .failed er) →
      Runs W (.sort f (.less i j y n) xs er e) s (.error h) s'
  | less_halt {f a b e s h s'} : Runs W (.native .apply [f, vlist [a]] e) s (.error h) s' → Runs W (.less f a b e) s (.error h) s'
  | less_halt2 {f a b e s va s1 h s'} : Runs W (.native .apply [f, vlist [a]] e) s (.ok va) s1 → Runs W (.native .apply [f, vlist [b]] e) s1 (.error h) s' →
      Runs W (.less f a b e) s (.error h) s'
  | less_types {f a b e s va s1 vb s'} : Runs W (.native .apply [f, vlist [a]] e) s (.ok va) s1 → Runs W (.native .apply [f, vlist [b]] e) s1 (.ok vb) s' →
      va.kind ≠ vb.kind → Runs W (.less f a b e) s (.error (fault ("apply result " ++ va.toStr ++ " is not same type as " ++ vb.toStr))) s'
  | less_unsortable {f a b e s va s1 vb s'} : Runs W (.native .apply [f, vlist [a]] e) s (.ok va) s1 → Runs W (.native .apply [f, vlist [b]] e) s1 (.ok vb) s' →
      va.kind = vb.kind → (∀ n, va ≠ .num n) → (∀ x, va ≠ .atom x) → Runs W (.less f a b e) s (.error (fault ("'" ++ va.toStr ++ "' is not a sortable type"))) s'
  | less {f a b e s va s1 vb s'} : Runs W (.native .apply [f, vlist [a]] e) s (.ok va) s1 → Runs W (.native .apply [f, vlist [b]] e) s1 (.ok vb) s' →
      va.kind = vb.kind → ((∃ n, va = .num n) ∨ ∃ x, va = .atom x) → Runs W (.less f a b e) s (.ok (if sortLess va vb then .atom "t" else .nil)) s'
  /-- `forms` and `help` evaluate the examples of the documentation: with any evaluator that follows the rules -/
  | listing {b vs e s o s'} {call : Task → M Val} : b = .forms ∨ b = .help → (∀ t s o s', (call t s).outcome = some (o, s') → Runs W t.job s o s') →
      (biFn W call b vs e s).outcome = some (o, s') → Runs W (.native b vs e) s o s'

end L1
