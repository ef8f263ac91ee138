import Verif.Spec.Scopes
import Verif.Model.Watch
import Mathlib.Data.List.Forall2
/-
Specification for C68: what `forms`, `help` and the documentation flags list.
-/
set_option autoImplicit false
namespace L1

/-- What is listed about an operator. -/
structure Listing where
  name : String
  /-- `special-form`, `native-function`, `macro` or `function` -/
  kind : String
  /-- the number of arguments it needs -/
  arity : Nat
  /-- whether it takes more -/
  more : Bool
  params : Val
  doc : Val

/-- A listing as a value. -/
def Listing.value (l : Listing) : Val :=
  vlist [.atom l.name, .atom l.kind, .num l.arity, if l.more then .atom "t" else .nil, l.params, l.doc]

/-- How parameters are shown: `(x y)`, `(x y . rest)`; a rest parameter alone is shown as `(() . rest)`. -/
def paramsShown (ps : List String) (r : String) : Val :=
  if r = "" then vlist (ps.map .atom)
  else (if ps = [] then [Val.nil] else ps.map Val.atom).foldr Val.cons (.atom r)

/-- In scope `e`, `l` describes a visible documented function or macro. -/
def DescribesFn (h : Heap) (e : Nat) (l : Listing) : Prop :=
  ∃ (i : Nat) (ps : List String) (r : String) (body doc : Val) (m : Bool) (c : Nat),
    NearestIn h e l.name i ∧ bindingIn h i l.name = some (.lam ps r body doc m c) ∧ doc ≠ .nil ∧
    l = ⟨l.name, if m then "macro" else "function", ps.length, decide (r ≠ ""), paramsShown ps r, doc⟩

/-- `l` describes a native function, with the fields of lisp/builtin.go. -/
def DescribesNative (W : World) (l : Listing) : Prop :=
  ∃ b : BI, l = ⟨b.name, "native-function", (biDoc b).fixedArity, (biDoc b).nary, (biDoc b).args, vlist [biDocList W b]⟩

/-- `l` describes a special form, with the fields of lisp/doc.go. -/
def DescribesForm (l : Listing) : Prop :=
  ∃ (n : String) (a : Nat) (m : Bool) (d : String) (g : Val), (n, a, m, d, g) ∈ specialDocs ∧
    l = ⟨n, "special-form", a, m, g, vlist [atomList (splitOnChar ' ' d.toList)]⟩

/-- In the order of the names, character by character. -/
def NamesInOrder (ls : List Listing) : Prop := ls.Pairwise fun a b => ¬ b.name < a.name

/-- The listings `ls` are, in order, those of the special forms, the native functions and the visible documented functions and macros: all of them
and nothing else. -/
def CompleteListing (W : World) (h : Heap) (e : Nat) (ls : List Listing) : Prop :=
  NamesInOrder ls ∧ ∀ l, l ∈ ls ↔ (DescribesForm l ∨ DescribesNative W l ∨ DescribesFn h e l)

/-- Watch that no task changes the variables that existed at the start: the scopes `h`. -/
def keeping (h : Heap) : Watch where
  post := fun _ _ r => ∀ s, r.final = some s → h <+: s.heap

/-! ### Texts -/

/-- A text moved to the right end of a column. -/
def rightAligned (n : Nat) (cs : List Char) : List Char := List.replicate (n - cs.length) ' ' ++ cs

/-- The description: the first documentation item, without its parentheses, the first character in upper case. -/
def Description (W : World) (l : Listing) (cs : List Char) : Prop :=
  ∃ d more, l.doc = .cons d more ∧ cs = capitalizeC W ((d.str.drop 1).dropLast)

/-- The letter that shows the kind. -/
def kindLetter (l : Listing) : Char :=
  if l.kind = "special-form" then 'S' else if l.kind = "macro" then 'M' else if l.kind = "native-function" then 'N' else 'F'

/-- The line of `help` about an operator. -/
def HelpLine (W : World) (l : Listing) (line : List Char) : Prop :=
  ∃ desc, Description W l desc ∧
    line = rightAligned 14 l.name.toList ++ [' '] ++ rightAligned 2 [kindLetter l] ++ [' ']
      ++ rightAligned 5 (l.arity.repr.toList ++ [if l.more then '+' else ' ']) ++ [' ', ' '] ++ desc

/-- The lines of `help` before the table. -/
def helpTop : List String :=
  ["l1 - a Lisp interpreter.\n",
   "               Type        ",
   "               ---        ",
   "                S - special form",
   "                M - macro",
   "                N - native (Go) function",
   "                F - Lisp function\n",
   "          Name Type Arity  Description",
   "          ---- ---  ----  -----------"]

/-- The text of `help`: the lines, separated by newlines. -/
def HelpText (W : World) (ls : List Listing) (text : List Char) : Prop :=
  ∃ lines, List.Forall₂ (HelpLine W) ls lines ∧ text = ['\n'].intercalate (helpTop.map String.toList ++ lines)

/-- `?`, `!` and `*` are spelled out in links. -/
def markSpelled (c : Char) : List Char :=
  if c = '?' then "-QMARK".toList else if c = '!' then "-BANG".toList else if c = '*' then "-STAR".toList else [c]

/-- The line of the index about an operator: a link, its name in bold for special forms and in italics for macros. -/
def indexEntry (l : Listing) : List Char :=
  let mark := if l.kind = "special-form" then ['*', '*'] else if l.kind = "macro" then ['*'] else []
  "\n[".toList ++ mark ++ ['`'] ++ l.name.toList ++ ['`'] ++ mark ++ "](#".toList ++ l.name.toList.flatMap markSpelled ++ [')']

/-- The kind in words. -/
def kindWords (l : Listing) : String :=
  if l.kind = "special-form" then "special form" else if l.kind = "native-function" then "native function" else l.kind

/-- The section about an operator; `examples` are the examples with their results. -/
def DocSection (W : World) (l : Listing) (text : List Char) : Prop :=
  ∃ desc examples, Description W l desc ∧
    text = "\n<a id=\"".toList ++ l.name.toList.flatMap markSpelled ++ "\"></a>\n## `".toList ++ l.name.toList ++ "`\n\n".toList ++ desc
      ++ "\n\nType: ".toList ++ (kindWords l).toList ++ "\n\nArity: ".toList ++ l.arity.repr.toList ++ (if l.more then ['+'] else [])
      ++ "\n\nArgs: `".toList ++ l.params.str ++ "`\n\n".toList
      ++ (if examples = [] then [] else "\n### Examples\n\n```\n".toList ++ examples ++ "\n```\n".toList)
      ++ "\n\n[<sub><sup>Back to index</sup></sub>](#api-index)\n-----------------------------------------------------\n".toList

/-- The text of `-longdoc`: the number of operators, the index, and a section for each. -/
def LongText (W : World) (ls : List Listing) (text : List Char) : Prop :=
  ∃ sections, List.Forall₂ (DocSection W) ls sections ∧
    text = ['\n'].intercalate (("# API Index\n".toList ++ ls.length.repr.toList ++ " forms available:".toList ++ ls.flatMap indexEntry
      ++ "\n# Operators\n".toList) :: sections)

end L1
