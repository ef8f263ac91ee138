import Verif.Spec.Grammar
import Verif.Model.Main
/- Vocabulary for the properties of the reader and the REPL. -/
set_option autoImplicit false
namespace L1

/-- Some dot is followed directly by a closing parenthesis, or by a shebang and then a closing parenthesis. -/
def DotGap (ts : List Token) : Prop :=
  ∃ a d sh r b, ts = a ++ d :: (sh ++ r :: b) ∧ d.typ = .dot ∧ r.typ = .rparen ∧ (sh = [] ∨ ∃ t, sh = [t] ∧ t.typ = .shebang)

/-- The tokens of some lines the REPL reads (each one is lexed by itself). -/
def replTokens (ls : List (List Char)) : List Token := ls.flatMap fun l => lexItems [l]

/-- Opening minus closing parentheses. -/
def balance (ts : List Token) : Int := (ts.countP (fun t => t.typ == .lparen) : Int) - (ts.countP (fun t => t.typ == .rparen) : Int)

/-- Names the reader takes as atoms: not empty, no white space, parenthesis, `~ @ # ;`, backquote or quote anywhere; not starting with a digit
or a period; and if starting with a sign, not followed by a digit. -/
def ReadableAtom (a : String) : Prop :=
  (∀ c ∈ a.toList, c ∉ [' ', '\t', '\n', '\r', '(', ')', '~', '@', '#', ';', '`', '\'']) ∧
  match a.toList with
  | [] => False
  | c :: cs => ¬ ('0' ≤ c ∧ c ≤ '9') ∧ c ≠ '.' ∧
    (c = '+' ∨ c = '-' → match cs with
      | [] => True
      | c' :: _ => ¬ ('0' ≤ c' ∧ c' ≤ '9'))

/-- Values made of numbers, readable atoms, `()` and cells. -/
inductive Data : Val → Prop
  | nil : Data .nil
  | num (n : Int) : Data (.num n)
  | atom {a : String} : ReadableAtom a → Data (.atom a)
  | cons {a d : Val} : Data a → Data d → Data (.cons a d)

end L1
