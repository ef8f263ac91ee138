import Verif.Model.DocTables
/-
Specification for C69: the documented numbers of arguments.
-/
set_option autoImplicit false
namespace L1

/-- The documentation of a native function allows `n` arguments. -/
def AllowsArgs (b : BI) (n : Nat) : Prop :=
  if (biDoc b).nary then (biDoc b).fixedArity ≤ n else n = (biDoc b).fixedArity

/-- The native functions that do not look at their arguments at all. -/
def ignoresArgs : List BI := [.exit, .forms, .help, .readlist, .screenStart, .screenEnd, .screenSize, .screenClear, .version]

/-- The native functions whose documentation does not give the numbers of arguments they accept: `(/ 6)` is 6 (documented: at least 2 arguments),
`(apply + 1 2 '(3))` is 6 (documented: 2 arguments), and `gensym` takes at most one argument (documented: any number). -/
def otherArity : List BI := [.div, .apply, .gensym]

/-- The number of expressions a special form needs, as documented. -/
def neededBy (f : SF) : Nat :=
  match specialDocs.find? fun d => d.1 = f.name with
  | some d => d.2.1
  | none => 0

/-- Special forms documented to take a fixed number of expressions. -/
def fixedForms : List SF := [.quote, .syntaxQuote, .def_, .set, .error]

end L1
