import Verif.Model.Reader
import Verif.Model.Version
/-
The native functions that do not call back into the evaluator (lisp/builtin.go, math.go, shell.go,
term.go).  Those which do (apply, eval, load, macroexpand-1, sort-by, forms, help) are in Eval.lean.
-/
set_option autoImplicit false
namespace L1

/-- `fmt.Sprintf("... %s ...", v)` with one value. -/
def fmt1 (a : String) (v : Val) (b : String) : String := a ++ v.toStr ++ b

/-- Shorthand: `Atom{"t"}`, lisp/atom.go:23. -/
def vTrue : Val := .atom "t"

/-- Go's `if cond { return True, nil } return Nil, nil`. -/
def vBool (b : Bool) : Val := if b then vTrue else .nil

/-! ### Numbers -/

/-- The loop of `+`, lisp/builtin.go:221-229. -/
def bAddLoop (sum : Int) : List Val → M Val
  | [] => pure (.num sum)
  | .num n :: rest => bAddLoop (sum + n) rest
  | v :: _ => throwBase (fmt1 "expected number, got '" v "'")

/-- The loop of `-`, lisp/builtin.go:254-261. -/
def bSubLoop (sum : Int) : List Val → M Val
  | [] => pure (.num sum)
  | .num n :: rest => bSubLoop (sum - n) rest
  | v :: _ => throwBase (fmt1 "expected number, got '" v "'")

/-- `-`, lisp/builtin.go:243-262. -/
def bSub : List Val → M Val
  | [] => throwBase "missing argument"
  | [.num n] => pure (.num (-n))
  | .num n :: rest => bSubLoop n rest
  | v :: _ => throwBase (fmt1 "expected number, got '" v "'")

/-- The loop of `*`, lisp/builtin.go:278-286. -/
def bMulLoop (prod : Int) : List Val → M Val
  | [] => pure (.num prod)
  | .num n :: rest => bMulLoop (prod * n) rest
  | v :: _ => throwBase (fmt1 "expected number, got '" v "'")

/-- `big.Int.Div`, math.go:43-48: Euclidean division (`Int.ediv`: the remainder is never negative). -/
def goDiv (a b : Int) : Int := Int.ediv a b

/-- `big.Int.Rem`, math.go:51-56: the remainder of truncated division. -/
def goRem (a b : Int) : Int := Int.tmod a b

/-- The loop of `/`, lisp/builtin.go:308-318. -/
def bDivLoop (quot : Int) : List Val → M Val
  | [] => pure (.num quot)
  | v :: rest =>
    if v.equal (.num 0) then throwBase "division by zero"
    else
      match v with
      | .num n => bDivLoop (goDiv quot n) rest
      | _ => throwBase (fmt1 "expected number, got '" v "'")

/-- `/`, lisp/builtin.go:300-319. -/
def bDiv : List Val → M Val
  | [] => throwBase "missing argument"
  | .num n :: rest => bDivLoop n rest
  | v :: _ => throwBase (fmt1 "expected number, got '" v "'")

/-- `rem`, lisp/builtin.go:355-371. -/
def bRem : List Val → M Val
  | [.num a, .num b] => if b = 0 then throwBase "division by zero" else pure (.num (goRem a b))
  | [.num _, v] => throwBase (fmt1 "expected number, got '" v "'")
  | [v, _] => throwBase (fmt1 "expected number, got '" v "'")
  | _ => throwBase "rem requires two arguments"

/-- `=`, lisp/builtin.go:332-342. -/
def bEq : List Val → M Val
  | [] => throwBase "missing argument"
  | v :: rest => pure (vBool (rest.all (fun w => v.equal w)))

/-- The loop of `compareMultipleNums`, lisp/builtin.go:90-100. `cmp last num` is the comparison with the
arguments in the order written by the user (the Go closures swap them twice). -/
def bCmpLoop (cmp : Int → Int → Bool) (last : Int) : List Val → M Val
  | [] => pure vTrue
  | .num n :: rest => if cmp last n then bCmpLoop cmp n rest else pure .nil
  | v :: _ => throwBase (fmt1 "'" v "' is not a number")

/-- `compareMultipleNums`, lisp/builtin.go:81-101. -/
def bCmp (cmp : Int → Int → Bool) : List Val → M Val
  | [] => throwBase "missing argument"
  | .num n :: rest => bCmpLoop cmp n rest
  | v :: _ => throwBase (fmt1 "'" v "' is not a number")

/-- Newton's iteration of `nat.sqrt` in math/big (called by `big.Int.Sqrt`, lisp/builtin.go:741):
`z` is the current upper bound of the root; every turn but the last makes it smaller, which bounds the
number of turns. -/
def newton (x : Nat) : Nat → Nat → Nat
  | 0, z => z
  | k + 1, z =>
    let z2 := (x / z + z) / 2
    if z2 ≥ z then z else newton x k z2

/-- `nat.sqrt` of math/big: start from a power of two at least the root. -/
def bigSqrt (x : Nat) : Nat :=
  if x ≤ 1 then x
  else
    let z := 2 ^ ((Nat.log2 x + 1 + 1) / 2)
    newton x z z

/-- `isqrt`, lisp/builtin.go:733-743; `big.Int.Sqrt` panics on a negative number. -/
def bIsqrt : List Val → M Val
  | [.num n] => if n < 0 then crash "square root of negative number"
                else pure (.num (bigSqrt n.toNat))
  | [_] => throwBase "isqrt expects a number"
  | _ => throwBase "isqrt expects a single argument"

/-- `randint`, lisp/builtin.go:939-952.  `big.Int.Uint64` gives the low 64 bits of the magnitude (its
documentation leaves the result undefined when the value does not fit); converted to `int`, it
may be negative; `rand.Intn` panics unless its argument is positive. -/
def bRandint (W : World) : List Val → M Val
  | [.num n] =>
    if n = 0 then throwBase "randint expects a non-zero argument"
    else
      let low := n.natAbs % 2 ^ 64
      if low = 0 ∨ 2 ^ 63 ≤ low then crash "invalid argument to Intn"
      else do
        let r ← askM W.rand
        pure (.num ((r % low : Nat) : Int))
  | [v] => throwBase (fmt1 "'" v "' is not a number")
  | _ => throwBase "randint expects a single argument"

/-! ### Lists -/

/-- `car`, lisp/builtin.go:503-515. -/
def bCar : List Val → M Val
  | [.nil] => pure .nil
  | [.cons a _] => pure a
  | [v] => throwBase (fmt1 "'" v "' is not a list")
  | _ => throwBase "missing argument"

/-- `cdr`, lisp/builtin.go:528-540. -/
def bCdr : List Val → M Val
  | [.nil] => pure .nil
  | [.cons _ d] => pure d
  | [v] => throwBase (fmt1 "'" v "' is not a list")
  | _ => throwBase "missing argument"

/-- The loop of `len`, lisp/builtin.go:763-767; `list.cdr.(*ConsCell)` panics on a dotted list. -/
def bLenLoop (count : Nat) : Val → M Val
  | .nil => pure (.num count)
  | .cons _ d => bLenLoop (count + 1) d
  | _ => crash "interface conversion"

/-- `len`, lisp/builtin.go:754-768. -/
def bLen : List Val → M Val
  | [v] => if v.isList then bLenLoop 0 v else throwBase (fmt1 "'" v "' is not a list")
  | _ => throwBase "len expects a single argument"

/-- `Num(s)` where the text may be malformed, lisp/math.go:96-107. -/
def numOfStr (W : World) (cs : List Char) : Int := (numOfChars? cs).getD (W.badNum cs)

/-- `unicode.IsDigit`. -/
def isDigitW (W : World) (c : Char) : Bool := if c.toNat < 128 then isDigitC c else W.digit c

/-- The loop of `fuse`, lisp/builtin.go:671-678; panics on a dotted list. -/
def fuseLoop : Val → Option (List Char)
  | .nil => some []
  | .cons a d => (fuseLoop d).map (a.str ++ ·)
  | _ => none

/-- `fuse`, lisp/builtin.go:660-688. -/
def bFuse (W : World) : List Val → M Val
  | [.nil] => pure .nil
  | [.cons a d] =>
    match fuseLoop (.cons a d) with
    | none => crash "interface conversion"
    | some str =>
      match str with
      | [] => pure (.atom "")
      | c :: _ => if isDigitW W c then pure (.num (numOfStr W str)) else pure (.atom (String.ofList str))
  | [_] => throwBase "fuse expects a list"
  | _ => throwBase "fuse expects a single argument"

/-- `listOfChars`, lisp/builtin.go:1321-1327. -/
def listOfChars (cs : List Char) : Val := vlist (cs.map fun c => .atom (String.ofList [c]))

/-- `listOfNums`, lisp/builtin.go:1332-1351; `none` is the error "unexpected end of input". -/
def listOfNums (W : World) : List Char → Option Val
  | [] => some .nil
  | '-' :: [] => none
  | '-' :: c :: cs => (listOfNums W cs).map (.cons (.num (numOfStr W ['-', c])))
  | c :: cs => (listOfNums W cs).map (.cons (.num (numOfStr W [c])))

/-- `split`, lisp/builtin.go:1268-1280. -/
def bSplit (W : World) : List Val → M Val
  | [.atom s] => pure (listOfChars s.toList)
  | [.num n] =>
    match listOfNums W (intStr n) with
    | some v => pure v
    | none => throwBase "unexpected end of input"
  | [_] => throwBase "split expects an atom or a number"
  | _ => throwBase "split expects a single argument"

/-- `reflect.TypeOf`, as compared in lisp/builtin.go:1156, 1213. -/
def Val.kind : Val → Nat
  | .nil => 0
  | .cons _ _ => 0
  | .atom _ => 1
  | .num _ => 2
  | .lam .. => 3
  | .bi _ => 4

/-- Go's `<` on strings: lexicographic on bytes, which on UTF-8 is lexicographic on code points. -/
def charsLt : List Char → List Char → Bool
  | _, [] => false
  | [], _ :: _ => true
  | a :: as, b :: bs => if a.toNat < b.toNat then true else if b.toNat < a.toNat then false else charsLt as bs

/-- The comparison functions of `sort`, lisp/builtin.go:1162-1168 (and of `sort-by`, 1218-1223). -/
def sortLess : Val → Val → Bool
  | .num a, .num b => a < b
  | .atom a, .atom b => charsLt a.toList b.toList
  | _, _ => false

/-- Insert into a sorted list, before the first element greater than `x`. -/
def insertSorted (lt : Val → Val → Bool) (x : Val) : List Val → List Val
  | [] => [x]
  | y :: ys => if lt x y then x :: y :: ys else y :: insertSorted lt x ys

/-- `sort.Slice`, lisp/builtin.go:1162, 1166, as an insertion sort.  (sort.Slice uses insertion sort up
to 12 elements and pattern-defeating quicksort above; equal numbers and equal atoms cannot be told
apart, so every correct sort returns the same list, see C15.) -/
def insertionSort (lt : Val → Val → Bool) (xs : List Val) : List Val :=
  xs.foldl (fun acc x => insertSorted lt x acc) []

/-- The type check and the sort of lisp/builtin.go:1152-1172. -/
def bSortList : List Val → M Val
  | [] => pure .nil
  | x :: xs =>
    match xs.find? (fun y => y.kind != x.kind) with
    | some y => throwBase (y.toStr ++ " is not same type as " ++ x.toStr)
    | none =>
      match x with
      | .num _ => pure (vlist (insertionSort sortLess (x :: xs)))
      | .atom _ => pure (vlist (insertionSort sortLess (x :: xs)))
      | _ => throwBase (fmt1 "'" x "' is not a sortable type")

/-- `sort`, lisp/builtin.go:1140-1173. -/
def bSort : List Val → M Val
  | [v] =>
    if v.isList then
      match v.toList? with
      | some xs => bSortList xs
      | none => extend "sort consToExprs" (throwBase (consToExprsErr v))
    else throwBase (fmt1 "'" v "' is not a list")
  | _ => throwBase "sort expects a single argument"

/-- `exprs[i], exprs[j] = exprs[j], exprs[i]`, lisp/builtin.go:1106. -/
def swapAt {α : Type} (xs : List α) (i j : Nat) : List α :=
  match xs[i]?, xs[j]? with
  | some a, some b => (xs.set i b).set j a
  | _, _ => xs

/-- `rand.Shuffle` (lisp/builtin.go:1105-1107): for i from n-1 down to 1, swap i with a random j ≤ i.
First argument: the current i.  (Also used for Go's random map iteration order.) -/
def shuffleLoop {α : Type} (W : World) : Nat → List α → M (List α)
  | 0, xs => pure xs
  | i + 1, xs => do
    let r ← askM W.rand
    shuffleLoop W i (swapAt xs (i + 1) (r % (i + 2)))

/-- `shuffle`, lisp/builtin.go:1093-1109. -/
def bShuffle (W : World) : List Val → M Val
  | [v] =>
    if v.isList then
      match v.toList? with
      | some xs => do
        let ys ← shuffleLoop W (xs.length - 1) xs
        pure (vlist ys)
      | none => extend "shuffle consToExprs" (throwBase (consToExprsErr v))
    else throwBase (fmt1 "'" v "' is not a list")
  | _ => throwBase "shuffle expects a single argument"

/-! ### Functions as data -/

/-- `body`, lisp/builtin.go:482-491. -/
def bBody : List Val → M Val
  | [.lam _ _ b _ _ _] => pure b
  | [v] => throwBase (fmt1 "expected lambda function, got '" v "'")
  | _ => throwBase "missing argument"

/-- The source of a user function, lisp/builtin.go:1249-1252. -/
def sourceOf (params : List String) (rest : String) (body : Val) : Val :=
  .cons (.atom "lambda")
    (.cons (if rest = "" then vlist (params.map .atom) else combineArgs params (.atom rest)) body)

/-- `source`, lisp/builtin.go:1241-1256. -/
def bSource : List Val → M Val
  | [.bi b] => throwBase (fmt1 "cannot get source of builtin function " (.bi b) "")
  | [.lam ps r b _ _ _] => pure (sourceOf ps r b)
  | [v] => throwBase (fmt1 "'" v "' is not a function")
  | _ => throwBase "source expects a single argument"

/-! ### Printing, input -/

/-- `strings.Join(strArgs, " ")`, lisp/builtin.go:892-896. -/
def joinArgs (args : List Val) : List Char := joinSp (args.map Val.str)

/-- `gensym`, lisp/builtin.go:696-708. -/
def bGensym : List Val → M Val
  | [] => gensymM []
  | [.atom p] => gensymM ('-' :: p.toList)
  | [_] => throwBase "gensym expects an atom as its first argument"
  | _ => throwBase "gensym expects 0 or 1 arguments"

/-- Lift a parse result into the evaluator. -/
def liftParse {α : Type} : PRes α → M α
  | .ok a => pure a
  | .err e => throwErr (.list e)
  | .crash => crash "index out of range"
  | .fuel => fun _ => .oof

/-- `readlist`, lisp/builtin.go:960-970. -/
def bReadlist : M Val := do
  let line ← extend "reading readlist input" readLineM
  let parsed ← extend "parsing readlist input" (liftParse (lexAndParse (splitOnChar '\n' line)))
  pure (vlist parsed)

/-! ### Case -/

/-- `strings.ToUpper`. ASCII exactly, other characters through the outside tables. -/
def upperC (W : World) (c : Char) : Char := if c.toNat < 128 then c.toUpper else W.upper c

/-- `strings.ToLower`. ASCII exactly, other characters through the outside tables. -/
def lowerC (W : World) (c : Char) : Char := if c.toNat < 128 then c.toLower else W.lower c

/-! ### Subprocesses (lisp/shell.go) -/

/-- `doShell`'s argument conversion, lisp/shell.go:29-42. -/
def shellArgs : Val → Option (List String)
  | .nil => some []
  | .cons (.atom s) d => (shellArgs d).map (s :: ·)
  | .cons (.num n) d => (shellArgs d).map (String.ofList (intStr n) :: ·)
  | _ => none

/-- `strings.Trim(s, "\n")`, lisp/shell.go:16. -/
def trimNl (cs : List Char) : List Char :=
  ((cs.dropWhile (· = '\n')).reverse.dropWhile (· = '\n')).reverse

/-- `strings.FieldsFunc(l, splitOnSpace)`, lisp/shell.go:10-12, 18; `cur` is the current field,
reversed. -/
def fieldsAux : List Char → List Char → List (List Char)
  | cur, [] => if cur = [] then [] else [cur.reverse]
  | cur, c :: cs =>
    if c = ' ' || c = '\t' then
      if cur = [] then fieldsAux [] cs else cur.reverse :: fieldsAux [] cs
    else fieldsAux (c :: cur) cs

/-- `shapeOutput`, lisp/shell.go:14-21. -/
def shapeOutput (cs : List Char) : Val :=
  vlist ((splitOnChar '\n' (trimNl cs)).map fun l => atomList (fieldsAux [] l))

/-- `doShell`, lisp/shell.go:23-66. -/
def doShell (W : World) (arg : Val) : M Val :=
  match shellArgs arg with
  | none => throwBase "shell argument must be a nonempty list of strings"
  | some [] => throwBase "shell argument must be a nonempty list of strings"
  | some (c :: cs) => do
    match ← askM (fun t => W.shell t (c :: cs)) with
    | .error msg => throwBase ("error running shell command: " ++ msg)
    | .ok (o, er, st) => pure (vlist [shapeOutput o, shapeOutput er, .num st])

/-! ### Screen (lisp/term.go) -/

/-- `termStart`, lisp/term.go:12-25.  When `Init` fails the global keeps the new screen. -/
def termStart (W : World) : M Unit := do
  if ← getScreenM then throwBase "screen already initialized"
  else
    match ← askM W.openScreen with
    | .ok => do setScreenM true; actsM [.init]
    | .newFail msg => do setScreenM false; extend "termStart NewScreen" (throwForeign msg)
    | .initFail msg => do setScreenM true; extend "termStart Init" (throwForeign msg)

/-- The guard of termClear, termDrawText, termSize, termGetKey, lisp/term.go:28, 47, 67, 75. -/
def needScreen {α : Type} (m : M α) : M α := do
  if ← getScreenM then m else throwBase "screen not initialized"

/-- Conversion to Go's 64-bit `int`. -/
def goInt (i : Int) : Int := (i + 2 ^ 63) % 2 ^ 64 - 2 ^ 63

/-- `int(n.bi.Uint64())`, lisp/builtin.go:1067 (see `bRandint` for `Uint64`). -/
def intOf (n : Int) : Int := goInt (n.natAbs % 2 ^ 64)

/-- `termEnd`, lisp/term.go:36-44. -/
def termEnd : M Unit := do
  if ← getScreenM then do actsM [.fini]; setScreenM false else pure ()

/-- `termClear`, lisp/term.go:27-34. -/
def termClear : M Unit := needScreen (actsM [.clear, .show])

/-- The loop of `termDrawText`, lisp/term.go:50-62. -/
def drawActs (W : World) (x y : Int) : List Char → List Act
  | [] => []
  | c :: cs =>
    if W.width c = 0 then .put x y ' ' [c] :: drawActs W (goInt (x + 1)) y cs
    else .put x y c [] :: drawActs W (goInt (x + W.width c)) y cs

/-- `termDrawText`, lisp/term.go:46-65. -/
def termDrawText (W : World) (x y : Int) (cs : List Char) : M Unit := needScreen (actsM (drawActs W x y cs ++ [.show]))

/-- The names of keys, `termGetKey`, lisp/term.go:80-116. -/
def keyName : Option KeyEvent → String
  | none => ""
  | some (.rune c) => String.ofList [c]
  | some .ctrlC => "INTR"
  | some .ctrlD => "EOF"
  | some .ctrlL => "CLEAR"
  | some .backspace => "BSP"
  | some .backspace2 => "BSP"
  | some .delete => "DEL"
  | some .down => "DOWNARROW"
  | some .end_ => "END"
  | some .left => "LEFTARROW"
  | some .right => "RIGHTARROW"
  | some .up => "UPARROW"
  | some .enter => "ENTER"
  | some .escape => "ESC"
  | some .other => ""

/-- `sleep`, lisp/builtin.go:1117-1127; the product wraps around. -/
def bSleep : List Val → M Val
  | [.num n] => do actsM [.sleep (goInt (intOf n * 1000000))]; pure .nil
  | [v] => throwBase (fmt1 "'" v "' is not a number")
  | _ => throwBase "sleep expects a single argument"

/-- `screen-write`, lisp/builtin.go:1051-1072. -/
def bScreenWrite (W : World) : List Val → M Val
  | [x, y, l] =>
    match x, y with
    | .num i, .num j =>
      if l.isList then do
        extend "screen-write termDrawText" (termDrawText W (intOf i) (intOf j) (unwrap l))
        pure .nil
      else throwBase (fmt1 "'" l "' is not a list")
    | .num _, _ => throwBase (fmt1 "'" y "' is not a number")
    | _, _ => throwBase (fmt1 "'" x "' is not a number")
  | _ => throwBase "screen-write expects 3 arguments"

/-- `(version)`, lisp/builtin.go:1311-1314. -/
def versionVal : Val := vlist (semverAsExprs versionText)

/-- One-argument predicates: lisp/builtin.go:463-471, 794-802, 853-861, 874-883. -/
def bPred (name : String) (p : Val → Bool) : List Val → M Val
  | [v] => pure (vBool (p v))
  | _ => throwBase (name ++ " expects a single argument")

end L1
