import Verif.Model.DocTables
/-
The evaluator (lisp/lisp.go, lambda.go) and the native functions that call it (lisp/builtin.go, doc.go).

`runStep call tail` is one non-recursive step of the interpreter, with the recursive calls as
parameters: `call` for Go function calls (which use stack), `tail` for `goto top` and for the next turn of
an unbounded `for` loop (which do not).  `run` ties the knot with a step budget (`fuel`) and a stack
budget (`depth`).
-/
set_option autoImplicit false
namespace L1

/-- What can be asked of the interpreter. -/
inductive Task where
  /-- `eval(x, e)`, lisp/lisp.go:375 -/
  | eval (x : Val) (e : Nat)
  /-- `macroexpand(x, e)`, lisp/lisp.go:275 (one turn of its loop) -/
  | mexpand (x : Val) (e : Nat)
  /-- one turn of the `loop` special form, lisp/lisp.go:490-503 -/
  | loop (body : Val) (e : Nat)
  /-- `builtin.Fn(args, e)`, lisp/lisp.go:717, builtin.go:152 -/
  | builtin (b : BI) (args : List Val) (e : Nat)

/-- `isMacroCall`, lisp/lisp.go:213-234, given the lookup function of the current scope. -/
def isMacroCallIn (look : String → Option Val) : Val → Bool
  | .cons (.atom f) _ =>
    match look f with
    | some (.lam _ _ _ _ m _) => m
    | _ => false
  | _ => false

/-- `isMacroCall`, lisp/lisp.go:213-234. -/
def isMacroCallM (x : Val) (e : Nat) : M Bool := fun s => .ok (isMacroCallIn (lookup s.heap e) x) s

/-- `evAtom`, lisp/lisp.go:16-29. -/
def evAtom (a : String) (e : Nat) : M Val :=
  if a = "t" then pure (.atom a)
  else do
    match ← lookupM e a with
    | some v => pure v
    | none =>
      match builtinOf a with
      | some b => pure (.bi b)
      | none => throwBase ("unknown symbol: " ++ a)

/-! ### Lambdas -/

/-- The argument-list loop of `mkLambda`, lisp/lambda.go:37-59: names, rest name, and whether a `()`
stood in place of the names.  The argument is a list (lambda.go:33-36). -/
def parseParams : Val → Except String (List String × String × Bool)
  | .nil => .ok ([], "", false)
  | .cons a d =>
    match a with
    | .nil =>
      match d with
      | .atom r => .ok ([], r, true)
      | d => if d.isList then .ok ([], "", true) else .error "unknown type in lambda arg list"
    | .atom p =>
      match d with
      | .atom r => .ok ([p], r, false)
      | d =>
        if d.isList then
          match parseParams d with
          | .ok (ps, r, em) => .ok (p :: ps, r, em)
          | .error m => .error m
        else .error "unknown type in lambda arg list"
    | _ => .error "argument list item is not an atom"
  | _ => .error "lambda requires an argument list"

/-- The search for a `doc` form, lisp/lambda.go:64-79: the documentation and the remaining body. -/
def splitDoc (body : Val) : M (Val × Val) :=
  match body with
  | .cons (.cons (.atom "doc") dd) rest =>
    if dd.isList then
      let doc := match dd with
        | .cons .nil _ => .nil
        | dd => dd
      if rest.isList then pure (doc, rest) else crash "interface conversion"
    else throwBase "doc form is not a list"
  | _ => pure (.nil, body)

/-- `mkLambda` after the optional name, lisp/lambda.go:30-92. -/
def mkLambdaNamed (fnName : String) (cdr : Val) (isMacro : Bool) (e : Nat) : M Val :=
  match cdr with
  | .cons argList body =>
    if argList.isList then
      match parseParams argList with
      | .error m => throwBase m
      | .ok (ps, rest, em) =>
        if em && rest == "" then throwBase "lambda with () argument requires a rest argument"
        else if body.isList then do
          let (doc, body') ← splitDoc body
          let f := Val.lam ps rest body' doc isMacro e
          if fnName ≠ "" then do
            let _ ← attempt (setM e fnName f)
            pure f
          else pure f
        else crash "interface conversion"
    else throwBase "lambda requires an argument list"
  | _ => throwBase "missing arguments"

/-- `mkLambda`, lisp/lambda.go:18-93. -/
def mkLambda (cdr : Val) (isMacro : Bool) (e : Nat) : M Val :=
  match cdr with
  | .cons (.atom name) rest =>
    if rest.isList then mkLambdaNamed name rest isMacro e else crash "interface conversion"
  | .cons a rest => mkLambdaNamed "" (.cons a rest) isMacro e
  | _ => throwBase "missing arguments"

/-- The positional part of `setLambdaArgsInEnv`, lisp/lisp.go:193-209. -/
def bindParams (e : Nat) : List String → List Val → M Unit
  | p :: ps, v :: vs => do
    extend "setting lambda arg" (setM e p v)
    bindParams e ps vs
  | _, _ => pure ()

/-- `setLambdaArgsInEnv`, lisp/lisp.go:170-211.  (The errors for a parameter list that is not a proper
list of atoms cannot occur: see `Val.lam`.) -/
def bindArgs (e : Nat) (params : List String) (rest : String) (args : List Val) : M Unit :=
  if rest ≠ "" then
    if params.length > args.length then throwBase "not enough arguments for function"
    else do
      setM e rest (vlist (args.drop params.length))
      bindParams e params args
  else if params.length < args.length then throwBase "too many arguments for function"
  else if params.length > args.length then throwBase "not enough arguments for function"
  else bindParams e params args

/-! ### Syntax-quote -/

/-- `listStartsWith`, lisp/lisp.go:289-298. -/
def startsWith (v : Val) (s : String) : Bool :=
  match v with
  | .cons (.atom a) _ => a == s
  | _ => false

/-- `t.cdr.(*ConsCell).car`, lisp/lisp.go:319, 332; `none` is a panic. -/
def cadr? : Val → Option Val
  | .cons _ (.cons a _) => some a
  | _ => none

mutual
/-- `splicingUnquote`, lisp/lisp.go:303-324; `none` is a panic. -/
def splicingUnquote : Val → Option Val
  | .nil => some .nil
  | .cons elt cdr =>
    if cdr.isList then
      match splicingUnquote cdr with
      | none => none
      | some nxt =>
        if startsWith elt "splicing-unquote" then
          match cadr? elt with
          | none => none
          | some x => some (vlist [.atom "concat2", x, nxt])
        else
          match syntaxQuote elt with
          | none => none
          | some q => some (vlist [.atom "cons", q, nxt])
    else some (.cons elt cdr)
  | v => some v

/-- `syntaxQuote`, lisp/lisp.go:326-342; `none` is a panic. -/
def syntaxQuote : Val → Option Val
  | .num n => some (vlist [.atom "quote", .num n])
  | .atom a => some (vlist [.atom "quote", .atom a])
  | .nil => some .nil
  | .cons elt cdr =>
    if startsWith (.cons elt cdr) "unquote" then cadr? (.cons elt cdr)
    else if cdr.isList then
      -- `splicingUnquote` of the same cell, unfolded once (lisp.go:307-323)
      match splicingUnquote cdr with
      | none => none
      | some nxt =>
        if startsWith elt "splicing-unquote" then
          match cadr? elt with
          | none => none
          | some x => some (vlist [.atom "concat2", x, nxt])
        else
          match syntaxQuote elt with
          | none => none
          | some q => some (vlist [.atom "cons", q, nxt])
    else some (.cons elt cdr)
  | v => some v
end

/-- Does `sub` occur in `s` (`strings.Contains`, lisp/lisp.go:158)? -/
def containsC (sub : List Char) : List Char → Bool
  | [] => sub.isEmpty
  | c :: cs => sub.isPrefixOf (c :: cs) || containsC sub cs

/-- `err.Error()`, lisp/cons.go:11-13. -/
def Err.str : Err → List Char
  | .list v => v.str
  | .foreign m => m.toList

section
variable (W : World) (call tail : Task → M Val)

/-! ### Sequences of expressions -/

/-- The argument loop of a call, lisp/lisp.go:669-681. -/
def evArgs (e : Nat) : Val → M (List Val)
  | .nil => pure []
  | .cons a d => do
    let v ← extend "evaluating function arguments" (call (.eval a e))
    let vs ← evArgs e d
    pure (v :: vs)
  | _ => crash "interface conversion"

/-- The body loops with tail call of `let` (lisp/lisp.go:640-657) and of functions (691-710).
`wrap a` is what happens to an error of a non-final expression `a`. -/
def evBodyTail (wrap : Val → Val) (e : Nat) : Val → M Val
  | .nil => pure .nil
  | .cons a d =>
    match d with
    | .nil => tail (.eval a e)
    | d => do
      let _ ← extendWith (wrap a) (call (.eval a e))
      evBodyTail wrap e d
  | _ => crash "interface conversion"

/-- The body loop of `apply`, lisp/builtin.go:134-145 (no tail call). -/
def evBodyApply (e : Nat) (ret : Val) : Val → M Val
  | .nil => pure ret
  | .cons a d => do
    let v ← extend "apply" (call (.eval a e))
    evBodyApply e v d
  | _ => crash "interface conversion"

/-- The body loop of a macro, lisp/lisp.go:257-272. -/
def evBodyMacro (e : Nat) (ret : Val) : Val → M Val
  | .nil => pure ret
  | .cons a d => do
    let v ← extend "evaluating macro expansion" (call (.eval a e))
    evBodyMacro e v d
  | _ => throwBase "macro body must be a list"

/-- `macroexpand1`, lisp/lisp.go:236-273. -/
def mexpand1 (x : Val) (e : Nat) : M Val := do
  if ← isMacroCallM x e then
    match x with
    | .cons (.atom f) cdr =>
      match ← lookupM e f with
      | some (.lam ps r body _ _ _) =>
        match cdr.toList? with
        | none => extend "converting macro call to list" (throwBase (consToExprsErr cdr))
        | some args => do
          let eNew ← newEnvM e
          extend "setting macro call arguments" (bindArgs eNew ps r args)
          evBodyMacro call eNew .nil body
      | _ => crash "macro call not a lambda function"
    | _ => throwBase "macro call must be a list"
  else pure x

/-- One turn of `macroexpand`, lisp/lisp.go:278-286. -/
def mexpandStep (x : Val) (e : Nat) : M Val := do
  let r ← extend "macroexpanson" (mexpand1 call x e)
  if ← isMacroCallM r e then tail (.mexpand r e) else pure r

/-! ### Special forms -/

/-- `cond`, lisp/lisp.go:421-449. -/
def evCond (e : Nat) : Val → M Val
  | .nil => pure .nil
  | .cons pair rest =>
    match pair with
    | .cons c body => do
      let ev ← extend "evaluating cond condition" (call (.eval c e))
      if ev = .nil then evCond e rest
      else
        match body with
        | .cons b _ => tail (.eval b e)
        | _ => throwBase "cond requires a list of pairs"
    | _ => throwBase "cond requires a list of pairs"
  | _ => crash "interface conversion"

/-- `and`, lisp/lisp.go:451-468. -/
def evAnd (e : Nat) : Val → M Val
  | .nil => pure vTrue
  | .cons a d => do
    let ev ← extend "and operator" (call (.eval a e))
    if ev = .nil then pure .nil
    else evAnd e d
  | _ => throwBase "and requires a list of expressions"

/-- `or`, lisp/lisp.go:470-487. -/
def evOr (e : Nat) : Val → M Val
  | .nil => pure .nil
  | .cons a d => do
    let ev ← extend "or operator" (call (.eval a e))
    if ev ≠ .nil then pure ev
    else evOr e d
  | _ => throwBase "or requires a list of expressions"

/-- One pass over the body of `loop`, lisp/lisp.go:491-502. -/
def evLoopBody (e : Nat) : Val → M Unit
  | .nil => pure ()
  | .cons a d => do
    let _ ← extend "loop operator" (call (.eval a e))
    evLoopBody e d
  | _ => crash "interface conversion"

/-- `swallow`, lisp/lisp.go:504-515. -/
def evSwallow (e : Nat) : Val → M Val
  | .nil => pure .nil
  | .cons a d => do
    match ← attempt (call (.eval a e)) with
    | .error _ => pure vTrue
    | .ok _ => evSwallow e d
  | _ => crash "interface conversion"

/-- `evDef`, lisp/lisp.go:54-76. -/
def evDef (e : Nat) : Val → M Val
  | .cons (.atom name) (.cons x _) => do
    let v ← extend "evaluating def value" (call (.eval x e))
    extend "setting def result" (setTopM e name v)
    pure v
  | .cons (.atom _) _ => throwBase "missing argument"
  | .cons _ _ => throwBase "def: first argument must be an atom"
  | _ => throwBase "missing argument"

/-- `evSet`, lisp/lisp.go:78-103. -/
def evSet (e : Nat) : Val → M Val
  | .cons (.atom name) (.cons x _) => do
    let v ← extend "evaluating set value" (call (.eval x e))
    extend "updating set result" (updateM e name v)
    pure v
  | .cons (.atom _) _ => throwBase "missing argument"
  | .cons .nil _ => throwBase "set!: first argument cannot be nil!"
  | .cons _ _ => throwBase "set!: first argument must be an atom"
  | _ => throwBase "missing argument"

/-- The word in the error messages of `evDefn`, lisp/lisp.go:107-121. -/
def defnWord (isMacro : Bool) : String := if isMacro then "defmacro" else "defn"

/-- `evDefn`, lisp/lisp.go:105-131. -/
def evDefn (isMacro : Bool) (e : Nat) (args : Val) : M Val :=
  match args with
  | .cons (.atom name) rest =>
    match rest with
    | .cons a d => do
      let f ← extend "creating lambda function" (mkLambda (.cons a d) isMacro e)
      extend "setting defn result" (setTopM e name f)
      pure .nil
    | .nil => throwBase (defnWord isMacro ++ " requires an argument list")
    | _ => crash "interface conversion"
  | .cons _ _ => throwBase (defnWord isMacro ++ " name must be an atom")
  | _ => throwBase (defnWord isMacro ++ " requires a function name")

/-- The body loop of `errors`, lisp/lisp.go:150-165. -/
def evErrorsLoop (e : Nat) (args : Val) (errorStr : List Char) : Val → M Val
  | .nil => throwBase ("error not found in " ++ args.toStr)
  | .cons a d => do
    match ← attempt (call (.eval a e)) with
    | .error er =>
      if containsC errorStr er.str then pure .nil
      else throwBase ("error '" ++ String.ofList errorStr ++ "' not found in '"
        ++ String.ofList er.str ++ "'")
    | .ok _ => evErrorsLoop e args errorStr d
  | _ => crash "interface conversion"

/-- `evErrors`, lisp/lisp.go:133-166. -/
def evErrors (e : Nat) (args : Val) : M Val :=
  match args with
  | .cons sig body =>
    if sig.isList then do
      let sigV ← extend "evaluating error signature" (call (.eval sig e))
      if sigV.isList then evErrorsLoop call e args (unwrap sigV) body
      else throwBase "error signature must be a list"
    else throwBase "error signature must be a list"
  | _ => throwBase "no error spec given"

/-- `error`, lisp/lisp.go:524-532. -/
def evError (e : Nat) : Val → M Val
  | .cons x _ => do
    let v ← extend "error operator" (call (.eval x e))
    throwUser v
  | _ => throwBase "error requires a non-empty argument list"

/-- The loop over a catch body, lisp/lisp.go:571-583. -/
def evCatchBody (e : Nat) (ret : Val) : Val → M Val
  | .nil => pure ret
  | .cons a d => do
    let v ← extend "catch body" (call (.eval a e))
    evCatchBody e v d
  | _ => throwBase "catch body must be a list with a binding name"

/-- Entering a catch clause after an error, lisp/lisp.go:550-583; `clause` is what follows the word
`catch`, `ret` the value of the last form that succeeded. -/
def evCatch (e : Nat) (ret : Val) (er : Err) (clause : Val) : M Val :=
  match clause with
  | .cons (.atom name) body => do
    let eInner ← newEnvM e
    match er with
    | .foreign _ => throwBase "catch body must be a list with a binding name"
    | .list v => do
      let _ ← attempt (setM eInner name v)
      evCatchBody call eInner ret body
  | .cons _ _ => throwBase "catch binding name must be a symbol"
  | .nil => crash "nil pointer dereference"
  | _ => throwBase "catch body must be a list with a binding name"

/-- `return ret, err`, lisp/lisp.go:541, 548. -/
def retOrErr (ret : Val) : Option Err → M Val
  | none => pure ret
  | some er => throwErr er

/-- `try`, lisp/lisp.go:535-599. `er` is the error that occurred, if any (`hadError`). -/
def evTry (e : Nat) (ret : Val) (er : Option Err) : Val → M Val
  | .nil => retOrErr ret er
  | .cons a d =>
    if startsWith a "catch" then
      match er with
      | none => pure ret
      | some er' =>
        match a with
        | .cons _ clause => evCatch call e ret er' clause
        | _ => pure ret
    else
      match er with
      | some er' => evTry e ret (some er') d
      | none => do
        match ← attempt (call (.eval a e)) with
        | .error er' => evTry e ret (some er') d
        | .ok v => evTry e v none d
  | _ => throwBase "try requires a list of expressions"

/-- The binding loop of `let`, lisp/lisp.go:614-638. `e` is the outer scope, `ne` the new one.
`false` means the whole form returns `()` at once (a binding without a value, line 627-629). -/
def evLetBinds (e ne : Nat) : Val → M Bool
  | .nil => pure true
  | .cons b rest =>
    match b with
    | .cons (.atom name) bd =>
      match bd with
      | .nil => pure false
      | .cons x _ => do
        let v ← extend "evaluating let bindings" (call (.eval x e))
        extend "setting let bindings" (setM ne name v)
        evLetBinds e ne rest
      | _ => throwBase "a let binding must be a list of binding pairs"
    | _ => throwBase "a let binding must be a list of binding pairs"
  | _ => crash "interface conversion"

/-- `let`, lisp/lisp.go:600-657. -/
def evLet (e : Nat) : Val → M Val
  | .cons bindings body =>
    if bindings.isList then
      if body.isList then do
        let ne ← newEnvM e
        if ← evLetBinds call e ne bindings then
          evBodyTail call tail (fun _ => msgList "evaluating let body") ne body
        else pure .nil
      else throwBase "let requires a body"
    else throwBase "let bindings must be a list"
  | _ => throwBase "let requires a binding list"

/-- The loop of `evalTest`, lisp/lisp.go:358-372. -/
def evTestLoop (e : Nat) : Val → M Unit
  | .nil => printM "✓\n".toList
  | .cons a d => do
    let _ ← extend ("evaluating test " ++ a.toStr) (call (.eval a e))
    printM ['.']
    evTestLoop e d
  | _ => throwBase "test body must be a list"

/-- `evalTest`, lisp/lisp.go:344-373. -/
def evTest (e : Nat) : Val → M Unit
  | .nil => pure ()
  | .cons desc d => do
    let v ← extend "evaluating test description" (call (.eval desc e))
    printM ("TEST ".toList ++ v.str ++ [' '])
    evTestLoop call e d
  | _ => pure ()

/-- The special forms, lisp/lisp.go:403-660; `args` is the rest of the form (a list). -/
def evSpecial (f : SF) (args : Val) (e : Nat) : M Val :=
  match f with
  | .quote =>
    match args with
    | .cons x _ => pure x
    | _ => throwBase "quote needs an argument"
  | .syntaxQuote =>
    match args with
    | .cons x _ =>
      match syntaxQuote x with
      | some y => tail (.eval y e)
      | none => crash "syntax-quote: nil pointer or interface conversion"
    | _ => throwBase "syntax-quote needs an argument"
  | .test => do extend "test" (evTest call e args); pure .nil
  | .cond => evCond call tail e args
  | .and => evAnd call e args
  | .or => evOr call e args
  | .loop => tail (.loop args e)
  | .swallow => evSwallow call e args
  | .def_ => evDef call e args
  | .set => evSet call e args
  | .defn => evDefn false e args
  | .defmacro => evDefn true e args
  | .error => evError call e args
  | .errors => evErrors call e args
  | .try_ => evTry call e .nil none args
  | .let_ => evLet call tail e args
  | .lambda => mkLambda args false e

/-- Applying an evaluated function in `eval`, lisp/lisp.go:682-722. -/
def evApply (f : Val) (args : List Val) (e : Nat) : M Val :=
  match f with
  | .lam ps r body _ _ cenv => do
    let ne ← newEnvM cenv
    extend "lambda env setup" (bindArgs ne ps r args)
    evBodyTail call tail (fun a => vlist [.atom "lambda", a]) ne body
  | .bi b => extend ("builtin function " ++ b.name) (call (.builtin b args e))
  | v => throwBase (v.toStr ++ " is not a function")

/-- A function call form, lisp/lisp.go:662-722. -/
def evCall (f args : Val) (e : Nat) : M Val := do
  let fv ← extend "evaluating function object" (call (.eval f e))
  let vs ← evArgs call e args
  evApply call tail fv vs e

/-- `eval` after macro expansion, lisp/lisp.go:385-725. -/
def evExpr (x : Val) (e : Nat) : M Val :=
  match x with
  | .atom a => if isCxr a then pure (cxrLambda a e) else evAtom a e
  | .num n => pure (.num n)
  | .nil => pure .nil
  | .cons f d =>
    if d.isList then
      match f with
      | .atom s =>
        match specialOf s with
        | some sf => evSpecial call tail sf d e
        | none => evCall call tail f d e
      | _ => evCall call tail f d e
    else throwBase "malformed list for eval"
  | v => throwBase ("unknown expression type: " ++ String.ofList (goQuote v.str))

/-- `eval` from the label `top`, lisp/lisp.go:378-725. -/
def evalStep (x : Val) (e : Nat) : M Val := do
  if ← isMacroCallM x e then do
    let y ← extend "eval macroexpansion" (call (.mexpand x e))
    evExpr call tail y e
  else evExpr call tail x e

/-! ### Native functions that call the evaluator -/

/-- `applyFn` once the argument list is known, lisp/builtin.go:125-156. -/
def applyTo (f : Val) (fnArgs : List Val) (e : Nat) : M Val :=
  match f with
  | .lam ps r body _ _ cenv => do
    let ne ← newEnvM cenv
    extend "apply" (bindArgs ne ps r fnArgs)
    evBodyApply call ne .nil body
  | .bi b => extend "apply" (call (.builtin b fnArgs e))
  | v => throwBase (v.toStr ++ " is not a function")

/-- `applyFn`, lisp/builtin.go:103-157. -/
def applyFn (args : List Val) (e : Nat) : M Val :=
  match args with
  | f :: a :: rest =>
    let last := (a :: rest).getLast (by simp)
    let singles := (a :: rest).dropLast
    if last.isList then
      match last.toList? with
      | none => extend "apply" (throwBase (consToExprsErr last))
      | some xs => applyTo call f (singles ++ xs) e
    else throwBase (fmt1 "'" last "' is not a list")
  | _ => throwBase "apply: not enough arguments"

/-- `EvalExprs`, lisp/lisp.go:729-743. -/
def evalExprs (doPrint : Bool) (e : Nat) : List Val → M Unit
  | [] => pure ()
  | g :: gs => do
    match ← attempt (call (.eval g e)) with
    | .error er => do
      if doPrint then printM ("ERROR:\n".toList ++ er.str ++ ['\n']) else pure ()
      throwErr er
    | .ok v => do
      if doPrint then printM (v.str ++ ['\n']) else pure ()
      evalExprs doPrint e gs

/-- `LexParseEval`, lisp/lisp.go:746-752. -/
def lexParseEval (text : List Char) (e : Nat) : M Unit := do
  let forms ← liftParse (readText text)
  evalExprs call false e forms

/-- `LoadFile`, lisp/builtin.go:159-169. -/
def loadFile (name : String) (e : Nat) : M Unit := do
  match ← askM (fun t => W.readFile t name) with
  | .error m => throwForeign m
  | .ok text => lexParseEval call text e

/-- `load`, lisp/builtin.go:810-823. -/
def bLoad (args : List Val) (e : Nat) : M Val :=
  match args with
  | [.atom name] => do
    extend "load file" (loadFile W call name e)
    pure .nil
  | [_] => throwBase "load expects a filename"
  | _ => throwBase "load expects a single argument"

/-- The comparison of `sort-by`, lisp/builtin.go:1203-1226. -/
def sortByLess (f : Val) (e : Nat) (a b : Val) : M Bool := do
  let va ← applyFn call [f, vlist [a]] e
  let vb ← applyFn call [f, vlist [b]] e
  if va.kind ≠ vb.kind then
    throwBase ("apply result " ++ va.toStr ++ " is not same type as " ++ vb.toStr)
  else
    match va with
    | .num _ => pure (sortLess va vb)
    | .atom _ => pure (sortLess va vb)
    | _ => throwBase (fmt1 "'" va "' is not a sortable type")

/-- `sort.Slice` of `sort-by`, lisp/builtin.go:1202-1227, for any algorithm that compares and exchanges elements.  An error of the
comparison counts as "not smaller" and is remembered (`sortHadErr`, lisp/builtin.go:1201-1217).  Positions outside the slice
do not occur in Go; here they are ignored. -/
def sortRun (f : Val) (e : Nat) : Sorter → List Val → Option Err → M (List Val × Option Err)
  | .done, xs, er => pure (xs, er)
  | .swap i j next, xs, er => sortRun f e next (swapAt xs i j) er
  | .less i j yes no, xs, er =>
    match xs[i]?, xs[j]? with
    | some a, some b => do
      match ← attempt (sortByLess call f e a b) with
      | .error er' => sortRun f e no xs (some er')
      | .ok true => sortRun f e yes xs er
      | .ok false => sortRun f e no xs er
    | _, _ => sortRun f e no xs er

/-- `sort-by`, lisp/builtin.go:1186-1229.  (An empty list is not given to `sort.Slice`; there is nothing to do with it.) -/
def bSortBy (args : List Val) (e : Nat) : M Val :=
  match args with
  | [f, l] =>
    if l.isList then
      match l.toList? with
      | none => extend "sort consToExprs" (throwBase (consToExprsErr l))
      | some xs => do
        let r ← sortRun call f e (W.sorter xs.length) xs none
        match r.2 with
        | none => pure (vlist r.1)
        | some er => throwErr er
    else throwBase (fmt1 "'" l "' is not a list")
  | _ => throwBase "sort-by expects two arguments"

/-! ### `forms` and `help` (lisp/doc.go) -/

/-- `formRec`, lisp/doc.go:16-27. -/
structure FormRec where
  name : String
  isSpecial : Bool
  isMacro : Bool
  isNative : Bool
  farity : Nat
  multi : Bool
  doc : Val
  ftype : String
  args : Val
  /-- the text of the examples (only used for `-longdoc`) -/
  examples : List Char

/-- `functionExamplesFromDoc`, lisp/doc.go:378-396; `none` is a panic. -/
def examplesOf : Val → Option Val
  | .cons a d =>
    match a with
    | .cons (.atom "examples") ex => if ex.isList then some ex else none
    | .cons _ _ => if d.isList then examplesOf d else none
    | _ => some .nil
  | _ => some .nil

/-- The text of one example and its outcome, lisp/doc.go:410-414. -/
def exampleText (x : Val) : Except Err Val → List Char
  | .error er => "> ".toList ++ x.str ++ "\n;;=>\nERROR: ".toList ++ er.str ++ ['\n']
  | .ok v => "> ".toList ++ x.str ++ "\n;;=>\n".toList ++ v.str ++ ['\n']

/-- `examplesToString`, lisp/doc.go:398-422: evaluates the examples one by one, up to an empty list. -/
def runExamples (e : Nat) : Val → M (List Char)
  | .cons x d =>
    if x = .nil then pure []
    else do
      let r ← attempt (call (.eval x e))
      let rest ← runExamples e d
      pure (exampleText x r ++ rest)
  | .nil => pure []
  | _ => pure "ERROR: examples must be lists!".toList

/-- A Go map iteration order: a permutation chosen by the outside world. -/
def mapOrder {α : Type} (xs : List α) : M (List α) := shuffleLoop W (xs.length - 1) xs

/-- The loop over `builtins`, lisp/doc.go:429-440. -/
def formsOfBuiltins (e : Nat) : List BI → M (List FormRec)
  | [] => pure []
  | b :: bs => do
    let ex ← runExamples call e (vlist (biDoc b).examples)
    let rest ← formsOfBuiltins e bs
    pure (⟨b.name, false, false, true, (biDoc b).fixedArity, (biDoc b).nary,
      vlist [biDocList W b], "native function", (biDoc b).args, ex⟩ :: rest)

/-- The loop over `EnvKeys`, lisp/doc.go:442-474. -/
def formsOfKeys (e : Nat) : List String → M (List FormRec)
  | [] => pure []
  | k :: ks => do
    match ← lookupM e k with
    | some (.lam ps r _ doc m _) =>
      if doc ≠ .nil then
        match examplesOf doc with
        | none => crash "interface conversion"
        | some ex => do
          let txt ← runExamples call e ex
          let rest ← formsOfKeys e ks
          let args := if r ≠ "" then combineArgs ps (.atom r) else vlist (ps.map .atom)
          pure (⟨k, false, m, false, ps.length, r ≠ "", doc, if m then "macro" else "function", args, txt⟩ :: rest)
      else formsOfKeys e ks
    | _ => formsOfKeys e ks

/-- Random order inside each scope's map, lisp/env.go:23. -/
def mapOrders : List (List String) → M (List String)
  | [] => pure []
  | ks :: rest => do
    let ks' ← mapOrder W ks
    let rest' ← mapOrders rest
    pure (ks' ++ rest')

/-- Insert by name (for the `sort.Slice` of lisp/doc.go:476-478; the order of equal names is Go's choice,
here first come first). -/
def insertForm (x : FormRec) : List FormRec → List FormRec
  | [] => [x]
  | y :: ys => if charsLt x.name.toList y.name.toList then x :: y :: ys else y :: insertForm x ys

/-- `specialForms` as records, lisp/doc.go:32-350. -/
def specialRecs : List FormRec :=
  specialDocs.map fun (n, a, m, d, g) =>
    ⟨n, true, false, false, a, m, vlist [atomList (splitOnChar ' ' d.toList)], "special form", g,
      ((specialExamples.lookup n).getD "").toList⟩

/-- `availableForms`, lisp/doc.go:424-480. -/
def availableForms (e : Nat) : M (List FormRec) := do
  let bs ← mapOrder W BI.all
  let fb ← formsOfBuiltins W call e bs
  let ks ← envKeysM e
  let ks' ← mapOrders W ks
  let fk ← formsOfKeys call e ks'
  pure ((specialRecs ++ fb ++ fk).foldl (fun acc x => insertForm x acc) [])

/-- One element of the result of `forms`, lisp/doc.go:609-620. -/
def formVal (f : FormRec) : Val :=
  vlist [.atom f.name, .atom (String.ofList (f.ftype.toList.map fun c => if c = ' ' then '-' else c)),
    .num f.farity, vBool f.multi, f.args, f.doc]

/-- `forms`, lisp/builtin.go:642-648. -/
def bForms (e : Nat) : M Val := do
  let fs ← extend "forms" (extend "sexpr forms" (availableForms W call e))
  pure (vlist (fs.map formVal))

/-- `%Ns`: pad on the left to a width. -/
def padLeft (n : Nat) (cs : List Char) : List Char := List.replicate (n - cs.length) ' ' ++ cs

/-- `columnsFormat`, lisp/doc.go:352. -/
def columns (a b c d : List Char) : List Char :=
  padLeft 14 a ++ [' '] ++ padLeft 2 b ++ [' '] ++ padLeft 5 c ++ [' ', ' '] ++ d

/-- `docToString`, lisp/doc.go:563-567: the first documentation item without its first and last
character; `none` is a panic (a text shorter than two bytes).  Simplified: characters, not bytes. -/
def docToString (doc : Val) : Option (List Char) :=
  match doc with
  | .cons d _ =>
    match d.str with
    | [] => none
    | [c] => if c.toNat < 128 then none else some []
    | cs => some (cs.drop 1).dropLast
  | _ => none

/-- `formatFunctionInfo`, lisp/doc.go:354-376. -/
def formLine (f : FormRec) (desc : List Char) : List Char :=
  let ty := if f.isSpecial then ['S'] else if f.isMacro then ['M'] else if f.isNative then ['N'] else ['F']
  columns f.name.toList ty (Nat.toDigits 10 f.farity ++ (if f.multi then ['+'] else [' ']))
    (capitalizeC W desc)

/-- The lines of `ShortDocStr`, lisp/doc.go:588-596; `none` is a panic. -/
def formLines : List FormRec → Option (List (List Char))
  | [] => some []
  | f :: fs =>
    match docToString f.doc with
    | none => none
    | some d => (formLines fs).map (formLine W f d :: ·)

/-- The header of `ShortDocStr`, lisp/doc.go:573-583. -/
def helpHeader : List (List Char) :=
  ["l1 - a Lisp interpreter.\n".toList,
   columns [] "Type".toList [] [],
   columns [] "---".toList [] [],
   "                S - special form".toList,
   "                M - macro".toList,
   "                N - native (Go) function".toList,
   "                F - Lisp function\n".toList,
   columns "Name".toList "Type".toList "Arity".toList "Description".toList,
   columns "----".toList "---".toList "----".toList "-----------".toList]

/-- `strings.Join(lines, "\n")`. -/
def joinNl : List (List Char) → List Char
  | [] => []
  | [x] => x
  | x :: xs => x ++ '\n' :: joinNl xs

/-- `help`, lisp/builtin.go:716-719 with `ShortDocStr`, doc.go:571-598.  `Println` prints the error result
too, so the text ends with ` <nil>`. -/
def bHelp (e : Nat) : M Val := do
  let fs ← availableForms W call e
  match formLines W fs with
  | none => crash "slice bounds out of range"
  | some ls => do
    printM (joinNl (helpHeader ++ ls) ++ " <nil>\n".toList)
    pure .nil

/-- `macroexpand-1`, lisp/builtin.go:835-840. -/
def bMacroexpand1 (args : List Val) (e : Nat) : M Val :=
  match args with
  | [x] => mexpand1 call x e
  | _ => throwBase "macroexpand-1 expects a single argument"

/-- `eval`, lisp/builtin.go:618-623. -/
def bEval (args : List Val) (e : Nat) : M Val :=
  match args with
  | [x] => call (.eval x e)
  | _ => throwBase "missing argument"

/-- The functions of the `builtins` map, lisp/builtin.go:206-1316. -/
def biFn (b : BI) (args : List Val) (e : Nat) : M Val :=
  match b with
  | .add => bAddLoop 0 args
  | .sub => bSub args
  | .mul => bMulLoop 1 args
  | .div => bDiv args
  | .eq => bEq args
  | .rem => bRem args
  | .lt => bCmp (fun a b => decide (a < b)) args
  | .le => bCmp (fun a b => decide (a ≤ b)) args
  | .gt => bCmp (fun a b => decide (a > b)) args
  | .ge => bCmp (fun a b => decide (a ≥ b)) args
  | .apply => applyFn call args e
  | .atomP => bPred "atom?" (fun v => v.kind == 1) args
  | .body => bBody args
  | .car => bCar args
  | .cdr => bCdr args
  | .cons =>
    match args with
    | [a, d] => pure (.cons a d)
    | _ => throwBase "missing argument"
  | .doc => bDoc W args
  | .downcase =>
    match args with
    | [.atom s] => pure (.atom (String.ofList (s.toList.map (lowerC W))))
    | [v] => throwBase (fmt1 "expected atom, got '" v "'")
    | _ => throwBase "downcase requires one argument"
  | .eval => bEval call args e
  | .exit => exitM 0
  | .forms => bForms W call e
  | .fuse => bFuse W args
  | .gensym => bGensym args
  | .help => bHelp W call e
  | .isqrt => bIsqrt args
  | .len => bLen args
  | .list => pure (vlist args)
  | .listP => bPred "list?" Val.isList args
  | .load => bLoad W call args e
  | .macroexpand1 => bMacroexpand1 call args e
  | .not => bPred "not" (fun v => v == .nil) args
  | .numberP => bPred "number?" (fun v => v.kind == 2) args
  | .print => do printM (joinArgs args); pure .nil
  | .println => do printM (joinArgs args ++ ['\n']); pure .nil
  | .printl =>
    match args with
    | [v] =>
      if v.isList then do printM (unwrap v ++ ['\n']); pure .nil
      else throwBase (fmt1 "expected list, got '" v "'")
    | _ => throwBase "missing argument"
  | .randint => bRandint W args
  | .readlist => bReadlist
  | .screenStart => do extend "starting screen" (termStart W); pure .nil
  | .screenEnd => do termEnd; pure .nil
  | .screenSize => do
    let wh ← extend "screen-size termSize" (needScreen (askM W.size))
    pure (vlist [.num wh.1, .num wh.2])
  | .screenClear => do extend "screen-clear termClear" termClear; pure .nil
  | .screenGetKey =>
    match args with
    | [] => do
      let k ← extend "screen-get-key termGetKey" (needScreen (askM W.key))
      pure (.atom (keyName k))
    | _ => throwBase "getkey expects no arguments"
  | .screenWrite => bScreenWrite W args
  | .shell =>
    match args with
    | [v] => doShell W v
    | _ => throwBase "shell expects a single argument"
  | .shuffle => bShuffle W args
  | .sleep => bSleep args
  | .sort => bSort args
  | .sortBy => bSortBy W call args e
  | .source => bSource args
  | .split => bSplit W args
  | .upcase =>
    match args with
    | [.atom s] => pure (.atom (String.ofList (s.toList.map (upperC W))))
    | [_] => throwBase "upcase expects an atom"
    | _ => throwBase "upcase expects a single argument"
  | .version => pure versionVal

/-- One step of the interpreter. -/
def runStep : Task → M Val
  | .eval x e => evalStep call tail x e
  | .mexpand x e => mexpandStep call tail x e
  | .loop body e => do evLoopBody call e body; tail (.loop body e)
  | .builtin b args e => biFn W call b args e

end

/-- A Go call: one unit of stack less; without any left, Go's fatal "stack overflow". -/
def lower (d : Nat) (f : Nat → Task → M Val) : Task → M Val :=
  match d with
  | 0 => fun _ s => .overflow s
  | d' + 1 => f d'

/-- The interpreter with a step budget and a stack budget. -/
def run (W : World) : Nat → Nat → Task → M Val
  | 0, _, _ => fun _ => .oof
  | n + 1, d, t => runStep W (lower d (run W n)) (run W n d) t

/-- `eval(x, e)` started with `n` steps and `d` stack. -/
def evalIn (W : World) (n d : Nat) (x : Val) (e : Nat) : M Val := run W n d (.eval x e)

end L1
