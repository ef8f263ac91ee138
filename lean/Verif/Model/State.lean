import Verif.Model.Syntax
/-
Scopes (lisp/env.go), the interpreter state, results, and the monad the evaluator is written in.
-/
set_option autoImplicit false
namespace L1

/-! ### Association lists (the Go maps of scopes) -/

/-- Map read `m[k]` (env.go:35). -/
def alGet (k : String) : List (String × Val) → Option Val
  | [] => none
  | (k', v) :: l => if k' = k then some v else alGet k l

/-- Map write `m[k] = v` (env.go:49, 67): replaces an existing entry, else adds one. -/
def alSet (k : String) (v : Val) : List (String × Val) → List (String × Val)
  | [] => [(k, v)]
  | (k', v') :: l => if k' = k then (k, v) :: l else (k', v') :: alSet k v l

/-! ### The heap of scopes -/

/-- All scopes ever created, in order of creation.  An `*Env` is an index in this list. -/
abbrev Heap := List Frame

/-- `Env.Lookup`, lisp/env.go:34-42, walking at most `k` scopes.  (Fuel is needed for a structural
definition; parents are always older than children, so `e + 1` is always enough.) -/
def lookupAux (h : Heap) : Nat → Nat → String → Option Val
  | 0, _, _ => none
  | k + 1, e, s =>
    match h[e]? with
    | none => none
    | some f =>
      match alGet s f.syms with
      | some v => some v
      | none =>
        match f.parent with
        | none => none
        | some p => lookupAux h k p s

/-- `Env.Lookup`, lisp/env.go:34-42. -/
def lookup (h : Heap) (e : Nat) (s : String) : Option Val := lookupAux h (e + 1) e s

/-- `e.syms[s] = v` (lisp/env.go:49, 67) as a heap update. -/
def heapSet (h : Heap) (e : Nat) (s : String) (v : Val) : Heap :=
  h.modify e (fun f => { f with syms := alSet s v f.syms })

/-- The top-level scope reached by `SetTopLevel`, lisp/env.go:54-59. -/
def rootAux (h : Heap) : Nat → Nat → Nat
  | 0, e => e
  | k + 1, e =>
    match h[e]? with
    | none => e
    | some f =>
      match f.parent with
      | none => e
      | some p => rootAux h k p

/-- The scope `SetTopLevel` writes to, lisp/env.go:54-59. -/
def root (h : Heap) (e : Nat) : Nat := rootAux h (e + 1) e

/-- The scope `Update` writes to, if any, lisp/env.go:66-73. -/
def ownerAux (h : Heap) : Nat → Nat → String → Option Nat
  | 0, _, _ => none
  | k + 1, e, s =>
    match h[e]? with
    | none => none
    | some f =>
      match alGet s f.syms with
      | some _ => some e
      | none =>
        match f.parent with
        | none => none
        | some p => ownerAux h k p s

/-- The scope `Update` writes to, if any, lisp/env.go:66-73. -/
def owner (h : Heap) (e : Nat) (s : String) : Option Nat := ownerAux h (e + 1) e s

/-- `EnvKeys`, lisp/env.go:21-31 (within one scope in insertion order; Go's order is random, see
`mapOrder` in Builtins). -/
def envKeysAux (h : Heap) : Nat → Nat → List (List String)
  | 0, _ => []
  | k + 1, e =>
    match h[e]? with
    | none => []
    | some f =>
      f.syms.map (·.1) ::
        match f.parent with
        | none => []
        | some p => envKeysAux h k p

/-! ### State, outside world, results -/

/-- One order of the program to the terminal (the calls of tcell in term.go) or to the clock. -/
inductive Act where
  /-- `screen.Init` has opened the screen (term.go:21) -/
  | init
  /-- `screen.Fini` (term.go:41) -/
  | fini
  /-- `screen.Clear` (term.go:31) -/
  | clear
  /-- `screen.SetContent` with column, row, character and combining characters (term.go:60) -/
  | put (x y : Int) (c : Char) (comb : List Char)
  /-- `screen.Show` (term.go:32, 63) -/
  | show
  /-- `time.Sleep`, in nanoseconds (builtin.go:1125) -/
  | sleep (ns : Int)
  deriving DecidableEq, Repr

/-- The terminal and the clock: whether `screen != nil` (term.go:10), and the orders given so far. -/
structure Device where
  on : Bool := false
  acts : List Act := []
  deriving DecidableEq, Repr

/-- The interpreter's mutable state: scopes (env.go), the gensym counter (state.go:5), standard output
written so far, standard input still to come (one element per line; see `readLineM`), the number of
queries made to the outside world, and whether the global `screen` is non-nil (term.go:10).  `issued` is a
history variable, not in the code and read by nothing: the names `gensym` has returned so far. -/
structure St where
  heap : Heap
  gensym : Nat := 0
  out : List Char := []
  inp : List (List Char) := []
  tick : Nat := 0
  screen : Device := {}
  issued : List String := []
  deriving DecidableEq, Repr

/-- What `PollEvent` can deliver as a key (the cases of term.go:83-114, and all other keys). -/
inductive KeyEvent where
  | rune (c : Char) | ctrlC | ctrlD | ctrlL | backspace | backspace2 | delete | down | end_ | left | right | up | enter | escape | other
  deriving DecidableEq, Repr

/-- What happens when the terminal is opened (tcell.NewScreen and Screen.Init, term.go:17-23). -/
inductive ScreenOpen where
  | ok | newFail (msg : String) | initFail (msg : String)

/-- An algorithm of package `sort`: what it does next, given the answers of the comparison so far.  It may ask
whether the element at position `i` is smaller than the one at `j`, and exchange two elements. -/
inductive Sorter where
  | done
  | swap (i j : Nat) (next : Sorter)
  | less (i j : Nat) (yes no : Sorter)

/-- The inner loop of `insertionSort_func` (package sort, used for up to 12 elements): the element at `j` moves left while it is
smaller; then `k`. -/
def Sorter.insert (k : Sorter) : Nat → Sorter
  | 0 => k
  | j + 1 => .less (j + 1) j (.swap (j + 1) j (k.insert j)) k

/-- `insertionSort_func`: `m` elements still to insert, the next one at position `i`. -/
def Sorter.insertFrom : Nat → Nat → Sorter
  | 0, _ => .done
  | m + 1, i => (insertFrom m (i + 1)).insert i

/-- `insertionSort_func` on `n` elements. -/
def Sorter.insertion (n : Nat) : Sorter := insertFrom (n - 1) 1

/-- Everything outside the program, as arbitrary functions of the number of queries made so far.
Nothing is assumed about any of them. -/
structure World where
  /-- `os.ReadFile` (builtin.go:160): text, or an error message -/
  readFile : Nat → String → Except String (List Char)
  /-- a random natural number; used for rand.Intn, rand.Shuffle and Go's random map order -/
  rand : Nat → Nat
  /-- `cmd.Run` (shell.go:46-60): stdout, stderr and exit status, or a failure to start -/
  shell : Nat → List String → Except String (List Char × List Char × Int)
  /-- the next key event of the screen, if there is one (the loop around `PollEvent`, term.go:78-117, which skips other events) -/
  key : Nat → Option KeyEvent
  /-- `screen.Size` (term.go:70) -/
  size : Nat → Int × Int
  /-- opening the terminal -/
  openScreen : Nat → ScreenOpen
  /-- the value `big.Int.SetString` leaves after failing (math.go:100); undefined by its documentation -/
  badNum : List Char → Int
  /-- unicode.ToUpper / unicode.ToLower / unicode.IsDigit on non-ASCII characters -/
  upper : Char → Char
  lower : Char → Char
  digit : Char → Bool
  /-- runewidth.RuneWidth: how many columns a character takes (term.go:53) -/
  width : Char → Nat
  /-- what `sort.Slice` (builtin.go:1202) does with a slice of the given length -/
  sorter : Nat → Sorter

/-- Errors: the `*ConsCell` errors made by error.go and the `error` form, and all other Go errors
(operating system errors, io.EOF). -/
inductive Err where
  | list (v : Val)
  | foreign (msg : String)
  deriving DecidableEq, Repr

/-- The outcome of a computation.
`crash`: a Go panic (failed type assertion, nil dereference, index out of range, explicit panic): the
program has no `recover`, so the process dies.  `exit`: `os.Exit`.  `overflow`: the Go stack limit was
reached (fatal, not recoverable).  `oof`: the model ran out of fuel, nothing is known. -/
inductive Res (α : Type) where
  | ok (a : α) (s : St)
  | err (e : Err) (s : St)
  | crash (why : String) (s : St)
  | exit (code : Nat) (s : St)
  | overflow (s : St)
  | oof

/-- Computations. -/
def M (α : Type) := St → Res α

/-- Go sequencing with `if err != nil { return nil, err }`; a crash or exit ends everything. -/
def M.bind {α β : Type} (m : M α) (f : α → M β) : M β := fun s =>
  match m s with
  | .ok a s' => f a s'
  | .err e s' => .err e s'
  | .crash w s' => .crash w s'
  | .exit c s' => .exit c s'
  | .overflow s' => .overflow s'
  | .oof => .oof

instance : Monad M where
  pure a := fun s => .ok a s
  bind := M.bind

/-- `return nil, baseError(msg)`, lisp/error.go:24-31. -/
def throwBase {α : Type} (msg : String) : M α := fun s => .err (.list (.cons (msgList msg) .nil)) s

/-- `return nil, Cons(v, Nil)`, lisp/lisp.go:532. -/
def throwUser {α : Type} (v : Val) : M α := fun s => .err (.list (.cons v .nil)) s

/-- Return of an error that is not a list. -/
def throwForeign {α : Type} (msg : String) : M α := fun s => .err (.foreign msg) s

/-- A Go panic. -/
def crash {α : Type} (why : String) : M α := fun s => .crash why s

/-- `extendWithList`, lisp/error.go:8-14. -/
def extendErr (frame : Val) : Err → Err
  | .list v => .list (.cons frame v)
  | .foreign m => .foreign m

/-- `if err != nil { return nil, extendWithList(frame, err) }`, lisp/error.go:8-14. -/
def extendWith {α : Type} (frame : Val) (m : M α) : M α := fun s =>
  match m s with
  | .err e s' => .err (extendErr frame e) s'
  | r => r

/-- `if err != nil { return nil, extendError(msg, err) }`, lisp/error.go:16-18. -/
def extend {α : Type} (msg : String) (m : M α) : M α := extendWith (msgList msg) m

/-- `v, err := f()` with the error inspected instead of returned. -/
def attempt {α : Type} (m : M α) : M (Except Err α) := fun s =>
  match m s with
  | .ok a s' => .ok (.ok a) s'
  | .err e s' => .ok (.error e) s'
  | .crash w s' => .crash w s'
  | .exit c s' => .exit c s'
  | .overflow s' => .overflow s'
  | .oof => .oof

/-- `return nil, err`. -/
def throwErr {α : Type} (e : Err) : M α := fun s => .err e s

/-! ### Primitives on the state -/

/-- `e.Lookup(s)`, lisp/env.go:34-42. -/
def lookupM (e : Nat) (x : String) : M (Option Val) := fun s => .ok (lookup s.heap e x) s

/-- `mkEnv(parent)`, lisp/env.go:14-19. -/
def newEnvM (parent : Nat) : M Nat := fun s =>
  .ok s.heap.length { s with heap := s.heap ++ [⟨[], some parent⟩] }

/-- `e.Set(x, v)`, lisp/env.go:45-51. -/
def setM (e : Nat) (x : String) (v : Val) : M Unit := fun s =>
  if x = "t" then throwBase "cannot bind or set t" s
  else .ok () { s with heap := heapSet s.heap e x v }

/-- `e.SetTopLevel(x, v)`, lisp/env.go:54-59. -/
def setTopM (e : Nat) (x : String) (v : Val) : M Unit := fun s => setM (root s.heap e) x v s

/-- `e.Update(x, v)`, lisp/env.go:62-74. -/
def updateM (e : Nat) (x : String) (v : Val) : M Unit := fun s =>
  if x = "t" then throwBase "cannot bind or set t" s
  else
    match owner s.heap e x with
    | some o => .ok () { s with heap := heapSet s.heap o x v }
    | none => throwBase (x ++ " is not bound in any environment") s

/-- `fmt.Print` to standard output. -/
def printM (cs : List Char) : M Unit := fun s => .ok () { s with out := s.out ++ cs }

/-- The name made by `gensym`, lisp/state.go:11. -/
def gensymName (pre : List Char) (n : Nat) : String :=
  String.ofList ("<gensym".toList ++ pre ++ '-' :: (Nat.toDigits 10 n ++ ['>']))

/-- `gensym`, lisp/state.go:9-12; the name is also noted in the history variable. -/
def gensymM (pre : List Char) : M Val := fun s =>
  let a := gensymName pre (s.gensym + 1)
  .ok (.atom a) { s with gensym := s.gensym + 1, issued := s.issued ++ [a] }

/-- One query to the outside world. -/
def askM {α : Type} (f : Nat → α) : M α := fun s => .ok (f s.tick) { s with tick := s.tick + 1 }

/-- `ReadLine`, lisp/builtin.go:38-48.  One element of `inp` is what one call returns.  Simplified:
each call makes a new `bufio.Reader`, so on a pipe the lines already buffered by the previous call are
lost; here `inp` lists the lines actually delivered (one per call on a terminal). -/
def readLineM : M (List Char) := fun s =>
  match s.inp with
  | [] => .err (.foreign "EOF") s
  | l :: ls => .ok l { s with inp := ls }

/-- Read the `screen != nil` test of term.go. -/
def getScreenM : M Bool := fun s => .ok s.screen.on s

/-- Assign `screen` (term.go:17, 42). -/
def setScreenM (b : Bool) : M Unit := fun s => .ok () { s with screen := { s.screen with on := b } }

/-- Orders to the terminal or the clock. -/
def actsM (as : List Act) : M Unit := fun s => .ok () { s with screen := { s.screen with acts := s.screen.acts ++ as } }

/-- Keys visible from a scope, nearest scope first (`EnvKeys`, lisp/env.go:21-31). -/
def envKeysM (e : Nat) : M (List (List String)) := fun s =>
  .ok (envKeysAux s.heap (e + 1) e) s

/-- `os.Exit(code)`, builtin.go:632 and main.go. -/
def exitM {α : Type} (code : Nat) : M α := fun s => .exit code s

end L1
