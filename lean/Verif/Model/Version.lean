import Verif.Model.Reader
/-
The version of the interpreter as a list: lisp/version.go and semverAsExprs, lisp/builtin.go:1353-1371.
-/
set_option autoImplicit false
namespace L1

/-- `Version`, lisp/version.go:3.  The project's release script writes a new text here for every release. -/
def versionText : List Char := "v0.0.57-dirty".toList

/-- `(?:\.(\d+))?` of the regular expression in builtin.go:1354: the digits matched, if any, and the rest. -/
def verPart : List Char → List (List Char) × List Char
  | '.' :: cs => if cs.takeWhile isDigitC = [] then ([], '.' :: cs) else ([cs.takeWhile isDigitC], cs.dropWhile isDigitC)
  | cs => ([], cs)

/-- The regular expression of builtin.go:1354 without its beginning `(?:^v)?`, matched at the start of the text: `(\d+)(?:\.(\d+))?(?:\.(\d+))?(?:-(dirty))?`.
The groups that are not empty (builtin.go:1361-1363 skips the empty ones).  The matching is greedy; it never needs to go back, since what follows the first
digits is optional. -/
def verMatch (cs : List Char) : Option (List (List Char)) :=
  if cs.takeWhile isDigitC = [] then none
  else
    let p2 := verPart (cs.dropWhile isDigitC)
    let p3 := verPart p2.2
    some (cs.takeWhile isDigitC :: (p2.1 ++ p3.1 ++ if "-dirty".toList.isPrefixOf p3.2 then ["dirty".toList] else []))

/-- The first place in the text where the expression matches. -/
def verSearch : List Char → Option (List (List Char))
  | [] => none
  | c :: cs => match verMatch (c :: cs) with
    | some gs => some gs
    | none => verSearch cs

/-- `FindStringSubmatch`, builtin.go:1355: at the start also with a `v` before the digits. -/
def verFind (cs : List Char) : Option (List (List Char)) :=
  match cs with
  | 'v' :: rest => match verMatch rest with
    | some gs => some gs
    | none => verSearch cs
  | cs => verSearch cs

/-- `semverAsExprs`, lisp/builtin.go:1353-1371. -/
def semverAsExprs (semver : List Char) : List Val :=
  match verFind semver with
  | none => []
  | some gs => gs.map fun m => if m = "dirty".toList then .atom "dirty" else .num (digitsVal m)

end L1
