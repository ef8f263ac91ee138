import Verif.Spec.Reading
import Mathlib.Data.List.Forall2
/-
The lexical grammar: how a text is cut into tokens, by "longest match".  Independent of the lexer's state machine.
-/
set_option autoImplicit false
namespace L1

/-- The tokens of the language: the kind and the text. -/
inductive Lexeme : Typ → List Char → Prop
  | number (sign ds : List Char) : sign ∈ [[], ['+'], ['-']] → ds ≠ [] → (∀ c ∈ ds, '0' ≤ c ∧ c ≤ '9') → Lexeme .number (sign ++ ds)
  | atom (a : String) : ReadableAtom a → Lexeme .atom a.toList
  | lparen : Lexeme .lparen ['(']
  | rparen : Lexeme .rparen [')']
  | quote : Lexeme .quote ['\'']
  | syntaxQuote : Lexeme .syntaxQuote ['`']
  | unquote : Lexeme .unquote ['~']
  | splicingUnquote : Lexeme .splicingUnquote ['~', '@']
  | dot : Lexeme .dot ['.']
  | commentNext : Lexeme .commentNext ['#', '_']
  | shebang (cs : List Char) : '\n' ∉ cs → Lexeme .shebang ('#' :: '!' :: cs)

/-- `w` is the longest token that `cs` begins with. -/
def Longest (k : Typ) (w cs : List Char) : Prop :=
  Lexeme k w ∧ w <+: cs ∧ ∀ k' w', Lexeme k' w' → w' <+: cs → w'.length ≤ w.length

/-- The tokens (kind and text) of one line. -/
inductive LexesLine : List Char → List (Typ × List Char) → Prop
  | nil : LexesLine [] []
  | space {c : Char} {cs : List Char} {ts : List (Typ × List Char)} : c ∈ [' ', '\t', '\r'] → LexesLine cs ts → LexesLine (c :: cs) ts
  | comment (cs : List Char) : LexesLine (';' :: cs) []
  | token {k : Typ} {w rest : List Char} {ts : List (Typ × List Char)} : Longest k w (w ++ rest) → LexesLine rest ts → LexesLine (w ++ rest) ((k, w) :: ts)

/-- The lines of a text. -/
def TextLines (cs : List Char) (ls : List (List Char)) : Prop := ls ≠ [] ∧ (∀ l ∈ ls, '\n' ∉ l) ∧ List.intercalate ['\n'] ls = cs

/-- `cs` is a text with the forms `vs`. -/
def Reads (cs : List Char) (vs : List Val) : Prop :=
  ∃ ls tss ts, TextLines cs ls ∧ List.Forall₂ LexesLine ls tss ∧ ts.map (fun t : Token => (t.typ, t.val)) = tss.flatten ∧ Program ts vs

end L1
