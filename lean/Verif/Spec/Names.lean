import Verif.Model.Limit
/- Specification of names and parameter lists. -/
set_option autoImplicit false
namespace L1

/-- The accessor names `caar`, `cadr`, `cdar`, `caddr`, ...: `c`, two or more of `a` and `d`, `r`. -/
def CxrName (a : String) : Prop :=
  ∃ w : List Char, 2 ≤ w.length ∧ (∀ c ∈ w, c = 'a' ∨ c = 'd') ∧ a.toList = 'c' :: (w ++ ['r'])

/-- The parameter list with the names `ps` and possibly a rest name, as written in a program: `(a b)`, `(a b . r)`, `(() . r)`. -/
def paramList (ps : List String) : Option String → Val
  | none => vlist (ps.map .atom)
  | some r =>
    match ps with
    | [] => .cons .nil (.atom r)
    | ps => mkList (ps.map .atom) (.atom r)

/-- The rest name as stored in a function: the empty name stands for "none". -/
def restName : Option String → String
  | none => ""
  | some r => r

/-- The body does not start with documentation `(doc ...)`. -/
def NoDoc (body : List Val) : Prop := ∀ dd rest, body ≠ .cons (.atom "doc") dd :: rest

end L1
