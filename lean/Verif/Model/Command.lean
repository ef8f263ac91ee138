import Verif.Model.Main
/-
The command line of `l1` and the programs made by `l1c`.
-/
set_option autoImplicit false
namespace L1

/-- The flags of main.go:50-58, with the profile flag: `main.go:52`. -/
structure CmdFlags where
  version : Bool := false
  doc : Bool := false
  longdoc : Bool := false
  profile : List Char := []
  expr : List Char := []
  files : List (List Char) := []
deriving DecidableEq

/-- What `flag.Parse()` (main.go:60) does: set the flags, or end the process: after `-h` or `-help` with status 0, after a wrong command line with
status 2 (`flag.ExitOnError`; the texts go to the error output). -/
inductive Parsed
  | flags (fl : CmdFlags)
  | help
  | wrong
deriving DecidableEq

/-- `strconv.ParseBool` (Go's standard library), used for `-v=...`. -/
def parseBool (s : List Char) : Option Bool :=
  if s ∈ ["1".toList, "t".toList, "T".toList, "TRUE".toList, "true".toList, "True".toList] then some true
  else if s ∈ ["0".toList, "f".toList, "F".toList, "FALSE".toList, "false".toList, "False".toList] then some false
  else none

/-- The search for `=` from the second character of the name on, in `flag.(*FlagSet).parseOne` (Go's standard library). -/
def cutName : List Char → List Char × Option (List Char)
  | [] => ([], none)
  | c :: cs => if c = '=' then ([], some cs) else match cutName cs with | (n, v) => (c :: n, v)

/-- `parseOne` after the minus signs: the name with a possible value. -/
def nameValue : List Char → Option (List Char × Option (List Char))
  | [] => none
  | c :: cs => if c = '-' ∨ c = '=' then none else match cutName cs with | (n, v) => some (c :: n, v)

/-- Setting one flag, main.go:53-57; `rest` are the arguments after it.  `none`: the command line is wrong. -/
def setFlag (fl : CmdFlags) (name : List Char) (value : Option (List Char)) (rest : List (List Char)) : Option (CmdFlags × List (List Char)) :=
  let bool (set : Bool → CmdFlags) : Option (CmdFlags × List (List Char)) :=
    match value with
    | none => some (set true, rest)
    | some v => (parseBool v).map fun b => (set b, rest)
  let text (set : List Char → CmdFlags) : Option (CmdFlags × List (List Char)) :=
    match value, rest with
    | some v, _ => some (set v, rest)
    | none, v :: rest => some (set v, rest)
    | none, [] => none
  if name = ['v'] then bool fun b => { fl with version := b }
  else if name = "doc".toList then bool fun b => { fl with doc := b }
  else if name = "longdoc".toList then bool fun b => { fl with longdoc := b }
  else if name = ['p'] then text fun v => { fl with profile := v }
  else if name = ['e'] then text fun v => { fl with expr := v }
  else none

/-- The argument without its minus signs, if it is a flag; `some none` is the terminator `--`. -/
def flagText : List Char → Option (Option (List Char))
  | '-' :: '-' :: [] => some none
  | '-' :: '-' :: cs => some (some cs)
  | '-' :: c :: cs => some (some (c :: cs))
  | _ => none

/-- `flag.Parse()`: the loop of `(*FlagSet).Parse` (Go's standard library) for the flags of main.go:53-57.  The first argument that is not a flag, and all
after it, are the files. `fuel` bounds the number of flags. -/
def parseArgs (fl : CmdFlags) : Nat → List (List Char) → Parsed
  | 0, _ => .wrong
  | _ + 1, [] => .flags { fl with files := [] }
  | fuel + 1, a :: rest =>
    match flagText a with
    | none => .flags { fl with files := a :: rest }
    | some none => .flags { fl with files := rest }
    | some (some t) =>
      match nameValue t with
      | none => .wrong
      | some (name, value) =>
        match setFlag fl name value rest with
        | some (fl', rest') => parseArgs fl' fuel rest'
        | none => if name = "help".toList ∨ name = ['h'] then .help else .wrong

/-- `main`, main.go:49-117, from the arguments of the process.  `canCreate` says for which names `os.Create` succeeds (main.go:68); what is
written to the profile is not modelled. -/
def program (W : World) (canCreate : String → Bool) (call : Task → M Val) (n : Nat) (core : List Char) (args : List (List Char)) : M Unit :=
  match parseArgs {} (args.length + 1) args with
  | .help => exitM 0
  | .wrong => exitM 2
  | .flags fl =>
    if fl.version = false ∧ fl.profile ≠ [] ∧ canCreate (String.ofList fl.profile) = false then crash "open profile"
    else mainFlags W call n core ⟨fl.version, fl.doc, fl.longdoc, fl.expr, fl.files.map String.ofList⟩

/-- The program that `l1c` writes and compiles (l1c:31-50): the errors of both calls of `LexParseEval` are dropped. -/
def compiledMain (call : Task → M Val) (core src : List Char) : M Unit := do
  let _ ← attempt (lexParseEval call core 0)
  let _ ← attempt (lexParseEval call src 0)
  pure ()

end L1
