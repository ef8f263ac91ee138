import Verif.Model.Eval
/-
The program (main.go): initial state, scripts, `-e`, and the REPL.
-/
set_option autoImplicit false
namespace L1

/-- `InitGlobals`, lisp/builtin.go:17-35. -/
def initGlobals : Frame :=
  ⟨[("SPACE", .atom " "), ("NEWLINE", .atom "\n"), ("TAB", .atom "\t"), ("BANG", .atom "!"),
    ("QMARK", .atom "?"), ("PERIOD", .atom "."), ("COMMA", .atom ","), ("COLON", .atom ":"),
    ("HASH", .atom "#"), ("ATSIGN", .atom "@"), ("CHECK", .atom "✓"), ("QUOTE", .atom "'"),
    ("BQUOTE", .atom "`"), ("DQUOTE", .atom "\""), ("UPLINE", .atom "\x1b[F")], none⟩

/-- The state at the start of `main`, main.go:74: one top-level scope (index 0). -/
def initSt (inp : List (List Char)) : St := { heap := [initGlobals], inp := inp }

/-- How a group of lines read by the REPL ends, main.go:19-39. -/
inductive Group where
  /-- the parentheses balance: the tokens, and the lines not yet read -/
  | complete (ts : List Token) (rest : List (List Char))
  /-- too many closing parentheses -/
  | tooMany (rest : List (List Char))
  /-- end of input -/
  | eof

/-- The inner loop of the REPL, main.go:19-39, on the lines to come; `ts` are the tokens so far.  Every
line is lexed on its own (so it is line 1 of its own text, main.go:23). -/
def groupLines (ts : List Token) : List (List Char) → Group
  | [] => .eof
  | l :: ls =>
    let ts' := ts ++ lexItems [l]
    match isBalanced ts' with
    | none => .tooMany ls
    | some true => .complete ts' ls
    | some false => groupLines ts' ls

/-- `setInp`: the lines left after reading. -/
def setInpM (ls : List (List Char)) : M Unit := fun s => .ok () { s with inp := ls }

/-- One turn of the REPL, main.go:15-46: `false` when the input has ended. Reading the lines of a group has
no other effect, so they are read at once. -/
def replTurn (call : Task → M Val) (e : Nat) : M Bool := fun s =>
  (do
    printM "> ".toList
    match groupLines [] s.inp with
    | .eof => do
      setInpM []
      printM ['\n']
      pure false
    | .tooMany rest => do
      setInpM rest
      printM "ERROR:\ntoo many right parens\n".toList
      pure true
    | .complete ts rest => do
      setInpM rest
      match parseTop ts with
      | .ok exprs => do
        let _ ← attempt (evalExprs call true e exprs)
        pure true
      | .err er => do
        printM (er.str ++ ['\n'])
        pure true
      | .crash => crash "index out of range"
      | .fuel => fun _ => .oof : M Bool) s

/-- `repl`, main.go:13-47, for at most `k` turns. -/
def repl (call : Task → M Val) (e : Nat) : Nat → M Unit
  | 0 => fun _ => .oof
  | k + 1 => do
    if ← replTurn call e then repl call e k else pure ()

/-- Running script files in order, main.go:105-115: at the first error it is printed and the process
exits. -/
def runFiles (W : World) (call : Task → M Val) (e : Nat) : List String → M Unit
  | [] => pure ()
  | f :: fs => do
    match ← attempt (loadFile W call f e) with
    | .error er => do
      printM ("ERROR:\n".toList ++ er.str ++ ['\n'])
      exitM 1
    | .ok _ => runFiles W call e fs

/-- `-e expr`, main.go:96-103. -/
def runExpr (call : Task → M Val) (e : Nat) (text : List Char) : M Unit := do
  match ← attempt (lexParseEval call text e) with
  | .error er => do
    printM (er.str ++ ['\n'])
    exitM 1
  | .ok _ => exitM 0

/-- `main` after flag parsing (main.go:74-116), without the documentation flags: load the core library, then
`-e`, or files, or the REPL (at most `n` turns).  `call` is the interpreter. -/
def mainWith (W : World) (call : Task → M Val) (n : Nat) (core : List Char) (expr : Option (List Char))
    (files : List String) : M Unit := do
  match ← attempt (lexParseEval call core 0) with
  | .error er => do
    printM (er.str ++ "\nFailed to load l1 core library!\n".toList)
    exitM 1
  | .ok _ =>
    match expr with
    | some text => runExpr call 0 text
    | none =>
      match files with
      | f :: fs => runFiles W call 0 (f :: fs)
      | [] => repl call 0 n

/-- `main`, main.go:74-116, with the interpreter's budgets. -/
def mainProg (W : World) (n d : Nat) (core : List Char) (expr : Option (List Char)) (files : List String) :
    M Unit := mainWith W (run W n d) n core expr files

/-! ### The documentation and version flags -/

/-- `escapeSpecialChars`, lisp/doc.go:499-504 (the three replacements do not interact). -/
def escapeMarks : List Char → List Char
  | [] => []
  | c :: cs =>
    (if c = '?' then "-QMARK".toList else if c = '!' then "-BANG".toList else if c = '*' then "-STAR".toList else [c]) ++ escapeMarks cs

/-- One entry of the index of `LongDocStr`, lisp/doc.go:514-522. -/
def indexLine (f : FormRec) : List Char :=
  let nm := '`' :: f.name.toList ++ ['`']
  let nm := if f.ftype = "macro" then '*' :: nm ++ ['*'] else if f.ftype = "special form" then "**".toList ++ nm ++ "**".toList else nm
  "\n[".toList ++ nm ++ "](#".toList ++ escapeMarks f.name.toList ++ [')']

/-- One section of `LongDocStr`, lisp/doc.go:526-558; `desc` is the first line of the documentation. -/
def docSection (W : World) (f : FormRec) (desc : List Char) : List Char :=
  "\n<a id=\"".toList ++ escapeMarks f.name.toList ++ "\"></a>\n## `".toList ++ f.name.toList ++ "`\n\n".toList
    ++ capitalizeC W desc ++ "\n\nType: ".toList ++ f.ftype.toList ++ "\n\nArity: ".toList ++ Nat.toDigits 10 f.farity
    ++ (if f.multi then ['+'] else []) ++ "\n\nArgs: `".toList ++ f.args.str ++ "`\n\n".toList
    ++ (if f.examples = [] then [] else "\n### Examples\n\n```\n".toList ++ f.examples ++ "\n```\n".toList)
    ++ "\n\n[<sub><sup>Back to index</sup></sub>](#api-index)\n-----------------------------------------------------\n".toList

/-- The sections; `none` is a panic in `docToString`. -/
def docSections (W : World) : List FormRec → Option (List (List Char))
  | [] => some []
  | f :: fs =>
    match docToString f.doc with
    | none => none
    | some d => (docSections W fs).map (docSection W f d :: ·)

/-- The beginning of `LongDocStr`, lisp/doc.go:513-523. -/
def docSummary (fs : List FormRec) : List Char :=
  "# API Index\n".toList ++ Nat.toDigits 10 fs.length ++ " forms available:".toList ++ (fs.map indexLine).flatten ++ "\n# Operators\n".toList

/-- `-longdoc`, main.go:87-95 with `LongDocStr`, lisp/doc.go:508-560.  (`availableForms` cannot fail: parameter
lists are proper.) -/
def longDoc (W : World) (call : Task → M Val) (e : Nat) : M Unit := do
  let fs ← availableForms W call e
  match docSections W fs with
  | none => crash "slice bounds out of range"
  | some ss => do
    printM (joinNl (docSummary fs :: ss) ++ ['\n'])
    exitM 0

/-- `-doc`, main.go:83-86: as `help`; `Println` also prints the nil error. -/
def shortDoc (W : World) (call : Task → M Val) (e : Nat) : M Unit := do
  let _ ← bHelp W call e
  exitM 0

/-- The command line after `flag.Parse()`, main.go:50-58.  Not modelled: `-p` (a CPU profile is written) and
the package's own error and usage messages. -/
structure Flags where
  version : Bool := false
  doc : Bool := false
  longdoc : Bool := false
  /-- the argument of `-e`; the empty text counts as none, main.go:96 -/
  expr : List Char := []
  files : List String := []

/-- `main`, main.go:49-117. -/
def mainFlags (W : World) (call : Task → M Val) (n : Nat) (core : List Char) (fl : Flags) : M Unit :=
  if fl.version then do
    printM (versionText ++ ['\n'])
    exitM 0
  else if fl.doc || fl.longdoc then do
    match ← attempt (lexParseEval call core 0) with
    | .error er => do
      printM (er.str ++ "\nFailed to load l1 core library!\n".toList)
      exitM 1
    | .ok _ => if fl.doc then shortDoc W call 0 else longDoc W call 0
  else mainWith W call n core (if fl.expr = [] then none else some fl.expr) fl.files

end L1
