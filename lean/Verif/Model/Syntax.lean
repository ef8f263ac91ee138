/-
Values, printing and equality.
Models /repo/lisp/atom.go, cons.go, error.go, util.go, and the String/Equal methods
in lambda.go, builtin.go and math.go.
-/
set_option autoImplicit false
namespace L1

/-- The native functions: keys of the `builtins` map, lisp/builtin.go:206-1316. -/
inductive BI where
  | add | sub | mul | div | eq | rem | lt | le | gt | ge | apply | atomP | body | car | cdr | cons
  | doc | downcase | eval | exit | forms | fuse | gensym | help | isqrt | len | list | listP | load
  | macroexpand1 | not | numberP | print | println | printl | randint | readlist
  | screenStart | screenEnd | screenSize | screenClear | screenGetKey | screenWrite
  | shell | shuffle | sleep | sort | sortBy | source | split | upcase | version
  deriving DecidableEq, Repr

/-- The `Name` field of every builtin, lisp/builtin.go:206-1316 (it is equal to the map key). -/
def BI.name : BI → String
  | .add => "+" | .sub => "-" | .mul => "*" | .div => "/" | .eq => "=" | .rem => "rem"
  | .lt => "<" | .le => "<=" | .gt => ">" | .ge => ">=" | .apply => "apply" | .atomP => "atom?"
  | .body => "body" | .car => "car" | .cdr => "cdr" | .cons => "cons" | .doc => "doc"
  | .downcase => "downcase" | .eval => "eval" | .exit => "exit" | .forms => "forms"
  | .fuse => "fuse" | .gensym => "gensym" | .help => "help" | .isqrt => "isqrt" | .len => "len"
  | .list => "list" | .listP => "list?" | .load => "load" | .macroexpand1 => "macroexpand-1"
  | .not => "not" | .numberP => "number?" | .print => "print" | .println => "println"
  | .printl => "printl" | .randint => "randint" | .readlist => "readlist"
  | .screenStart => "screen-start" | .screenEnd => "screen-end" | .screenSize => "screen-size"
  | .screenClear => "screen-clear" | .screenGetKey => "screen-get-key"
  | .screenWrite => "screen-write" | .shell => "shell" | .shuffle => "shuffle" | .sleep => "sleep"
  | .sort => "sort" | .sortBy => "sort-by" | .source => "source" | .split => "split"
  | .upcase => "upcase" | .version => "version"

/-- All keys of the `builtins` map, lisp/builtin.go:206-1316. -/
def BI.all : List BI :=
  [.add, .sub, .mul, .div, .eq, .rem, .lt, .le, .gt, .ge, .apply, .atomP, .body, .car, .cdr, .cons,
   .doc, .downcase, .eval, .exit, .forms, .fuse, .gensym, .help, .isqrt, .len, .list, .listP, .load,
   .macroexpand1, .not, .numberP, .print, .println, .printl, .randint, .readlist,
   .screenStart, .screenEnd, .screenSize, .screenClear, .screenGetKey, .screenWrite,
   .shell, .shuffle, .sleep, .sort, .sortBy, .source, .split, .upcase, .version]

/-- `builtins[s]`, the map read at lisp/lisp.go:24. -/
def builtinOf (s : String) : Option BI := BI.all.find? (fun b => b.name == s)

/-- The special forms recognised by the `switch` in `eval`, lisp/lisp.go:403-659. -/
inductive SF where
  | quote | syntaxQuote | test | cond | and | or | loop | swallow | def_ | set | defn | defmacro
  | error | errors | try_ | let_ | lambda
  deriving DecidableEq, Repr

/-- The atom that selects each special form, lisp/lisp.go:404-658. -/
def SF.name : SF → String
  | .quote => "quote" | .syntaxQuote => "syntax-quote" | .test => "test" | .cond => "cond"
  | .and => "and" | .or => "or" | .loop => "loop" | .swallow => "swallow" | .def_ => "def"
  | .set => "set!" | .defn => "defn" | .defmacro => "defmacro" | .error => "error"
  | .errors => "errors" | .try_ => "try" | .let_ => "let" | .lambda => "lambda"

/-- All cases of the `switch`, lisp/lisp.go:403-659. -/
def SF.all : List SF :=
  [.quote, .syntaxQuote, .test, .cond, .and, .or, .loop, .swallow, .def_, .set, .defn, .defmacro,
   .error, .errors, .try_, .let_, .lambda]

/-- The `switch` on `carAtom.s`, lisp/lisp.go:403-659. -/
def specialOf (s : String) : Option SF := SF.all.find? (fun f => f.name == s)

/--
S-expressions (interface `Sexpr`, lisp/lisp.go:11-14).
* `nil` is the nil `*ConsCell` (`Nil`, cons.go:17), `cons` a cell (cons.go:4-7);
* `atom` is `Atom` (atom.go:4-6), `num` is `Number` (math.go:9-11, arbitrary precision);
* `lam` is `*lambdaFn` (lambda.go:7-14).  `mkLambda` only ever builds `args` with `stringsToList`
  (lambda.go:81) and `extractCxrLambda` with `list(Atom{"xs"})` (lisp.go:46), so `args` is kept as a
  list of names; `rest = ""` is `noRestArg`.  `env` is an index in the heap of scopes;
* `bi` is a `*Builtin` (builtin.go:51-61).
Cells are never mutated nor compared by address in the code, so sharing is not modelled.
The Go nil interface is not a value: no code path stores one in a cell or a scope.
-/
inductive Val where
  | nil
  | atom (s : String)
  | num (n : Int)
  | cons (car cdr : Val)
  | lam (params : List String) (rest : String) (body doc : Val) (isMacro : Bool) (env : Nat)
  | bi (b : BI)
  deriving DecidableEq, Repr

/-- A Go type assertion `x.(*ConsCell)` succeeds (cons.go:4; the nil pointer counts). -/
def Val.isList : Val → Bool
  | .nil => true
  | .cons _ _ => true
  | _ => false

/-- `mkListAsConsWithCdr`, lisp/util.go:10-15. -/
def mkList (xs : List Val) (cdr : Val) : Val := xs.foldr .cons cdr

/-- `list` / `mkListAsConsWithCdr(xs, Nil)`, lisp/util.go:56-59. -/
def vlist (xs : List Val) : Val := mkList xs .nil

/-- `big.Int.Text(10)`, used by `Number.String`, lisp/math.go:14-16. -/
def intStr (n : Int) : List Char :=
  match n with
  | .ofNat k => Nat.toDigits 10 k
  | .negSucc k => '-' :: Nat.toDigits 10 (k + 1)

/-- `" "`-separated names, the text of `unwrapList(f.args)` in lisp/lambda.go:100-102
(`args` is always a proper list of atoms). -/
def joinSp : List (List Char) → List Char
  | [] => []
  | [x] => x
  | x :: xs => x ++ ' ' :: joinSp xs

/-- `String()` of every kind of value, and (`tail = true`) the loop of `ConsCell.String` after the
first element.  lisp/cons.go:19-37, atom.go:8-10, math.go:14-16, lambda.go:95-103,
builtin.go:63-65.  With `tail`, the text is everything after the printed car, up to the closing
parenthesis. -/
def strAux : Bool → Val → List Char
  | false, .nil => ['(', ')']
  | true, .nil => [')']
  | false, .cons a d => '(' :: (strAux false a ++ strAux true d)
  | true, .cons a d => ' ' :: (strAux false a ++ strAux true d)
  | false, .atom s => s.toList
  | true, .atom s => " . ".toList ++ s.toList ++ [')']
  | false, .num n => intStr n
  | true, .num n => " . ".toList ++ intStr n ++ [')']
  | tail, .lam ps r _ _ _ _ =>
      let body := "<lambda(".toList ++ joinSp (ps.map String.toList)
        ++ (if r = "" then [] else " . ".toList ++ r.toList) ++ ")>".toList
      if tail then " . ".toList ++ body ++ [')'] else body
  | tail, .bi b =>
      let body := "<builtin: ".toList ++ b.name.toList ++ ">".toList
      if tail then " . ".toList ++ body ++ [')'] else body

/-- `x.String()`, the printed form of a value. -/
def Val.str (v : Val) : List Char := strAux false v

/-- `x.String()` as a string. -/
def Val.toStr (v : Val) : String := String.ofList v.str

/-- `unwrapList`, lisp/util.go:66-69: the printed list without its parentheses. -/
def unwrap (v : Val) : List Char := (v.str.drop 1).dropLast

/-- The `Equal` methods: atom.go:14-19, cons.go:45-57, math.go:59-64, lambda.go:105-107 (always
false), builtin.go:74-79 (asserts `o.(Builtin)` although every builtin value is a `*Builtin`, so it
is always false too). -/
def Val.equal : Val → Val → Bool
  | .atom a, .atom b => a == b
  | .num a, .num b => a == b
  | .nil, .nil => true
  | .cons a d, .cons a' d' => a.equal a' && d.equal d'
  | _, _ => false

/-- `strings.Split(s, string(sep))` for a one-character separator (used with `" "` in
lisp/error.go:17-30 and util.go:45 and `"\n"` in lisp.go:747, builtin.go:965, shell.go:16). -/
def splitOnChar (sep : Char) : List Char → List (List Char)
  | [] => [[]]
  | c :: cs =>
    if c = sep then [] :: splitOnChar sep cs
    else match splitOnChar sep cs with
      | [] => [[c]]
      | w :: ws => (c :: w) :: ws

/-- `stringsToList`, lisp/util.go:48-54. -/
def atomList (ws : List (List Char)) : Val := vlist (ws.map fun w => .atom (String.ofList w))

/-- `stringsToList(strings.Split(msg, " ")...)`, lisp/error.go:17, 25, 29. -/
def msgList (msg : String) : Val := atomList (splitOnChar ' ' msg.toList)

/-- `strconv.appendEscapedRune` of the Go library, as used by the verb `%q`: the quotation mark and the backslash get a backslash, the control characters their
letter or `\x` and two hexadecimal digits.  Simplified: every character from 128 on counts as printable (Go has tables and writes e.g. a no-break space as `\u00a0`). -/
def goEscape (quote c : Char) : List Char :=
  if c = quote ∨ c = '\\' then ['\\', c]
  else if 32 ≤ c.toNat ∧ c.toNat ≠ 127 then [c]
  else if c.toNat = 7 then ['\\', 'a']
  else if c.toNat = 8 then ['\\', 'b']
  else if c.toNat = 12 then ['\\', 'f']
  else if c.toNat = 10 then ['\\', 'n']
  else if c.toNat = 13 then ['\\', 'r']
  else if c.toNat = 9 then ['\\', 't']
  else if c.toNat = 11 then ['\\', 'v']
  else ['\\', 'x', Nat.digitChar (c.toNat / 16), Nat.digitChar (c.toNat % 16)]

/-- The Go verb `%q` on a string (strconv.Quote).  Used in util.go:22, 37 and lisp.go:724, for error texts only. -/
def goQuote (cs : List Char) : List Char := '"' :: cs.flatMap (goEscape '"') ++ ['"']

/-- `consToExprs`, lisp/util.go:17-28; `none` stands for the error (see `consToExprsErr`). -/
def Val.toList? : Val → Option (List Val)
  | .nil => some []
  | .cons a d => d.toList?.map (a :: ·)
  | _ => none

/-- The last tail of a value followed through `cdr` (what `consToExprs` stops at, util.go:19-26). -/
def Val.lastTail : Val → Val
  | .cons _ d => d.lastTail
  | v => v

/-- The message of the error in `consToExprs`, lisp/util.go:22. -/
def consToExprsErr (v : Val) : String :=
  "expected list, got " ++ String.ofList (goQuote v.lastTail.str)

/-- `cxrRe` and `isCxr`, lisp/lisp.go:32-36: `c`, one or more `a`/`d`, `r`, but not `car`/`cdr`. -/
def isCxr (s : String) : Bool :=
  match s.toList with
  | 'c' :: rest =>
    match rest.getLast? with
    | some 'r' =>
      let mid := rest.dropLast
      decide (2 ≤ mid.length) && mid.all (fun c => c = 'a' || c = 'd')
    | _ => false
  | _ => false

/-- `extractCxrLambda`, lisp/lisp.go:38-52. The path is the letters between `c` and `r`, reversed. -/
def cxrLambda (s : String) (e : Nat) : Val :=
  let mid := (s.toList.drop 1).dropLast
  let path := vlist (mid.reverse.map fun c => .atom (String.ofList [c]))
  .lam ["xs"] "" (vlist [vlist [.atom "c*r", vlist [.atom "quote", path], .atom "xs"]]) .nil false e

/-- `combineArgs`, lisp/doc.go:482-493, for a proper list of names and an atom. -/
def combineArgs (params : List String) (cdr : Val) : Val :=
  match params with
  | [] => .cons .nil cdr
  | [p] => .cons (.atom p) cdr
  | p :: ps => .cons (.atom p) (combineArgs ps cdr)

/-- `Env` without its parent pointer resolved (lisp/env.go:8-11): the map, as an association list,
and the parent scope's index. -/
structure Frame where
  syms : List (String × Val)
  parent : Option Nat
  deriving DecidableEq, Repr

end L1
