import Verif.Model.Reader
/-
The grammar of programs, over tokens.  (README and lisp/parse.go define no other.)

    program := [shebang] form*
    form    := NUMBER | ATOM | PREFIX form | '(' contents ')' | '(' contents '.' contents ')'
    contents  := [shebang] form*

In a dotted list only the first form after the dot counts; there must be at least one.
-/
set_option autoImplicit false
namespace L1

/-- The prefix tokens and the operators they stand for. -/
def sugar : Typ → Option String
  | .quote => some "quote"
  | .syntaxQuote => some "syntax-quote"
  | .unquote => some "unquote"
  | .splicingUnquote => some "splicing-unquote"
  | .commentNext => some "comment"
  | _ => none

/-- The value of some decimal digits.  (0 if they are none; no token is like that.) -/
def unsigned (ds : List Char) : Nat := if ds ≠ [] ∧ ∀ c ∈ ds, '0' ≤ c ∧ c ≤ '9' then Nat.ofDigitChars 10 ds 0 else 0

/-- The number that a number token denotes: its decimal value, negated after a `-`. -/
def numeral : List Char → Int
  | '-' :: ds => -(unsigned ds : Int)
  | '+' :: ds => unsigned ds
  | ds => unsigned ds

example : numeral "-0042".toList = -42 := by decide +kernel

mutual
/-- One form and the value it denotes. -/
inductive Form : List Token → Val → Prop
  | number {t : Token} : t.typ = .number → Form [t] (.num (numeral t.val))
  | atom {t : Token} : t.typ = .atom → Form [t] (.atom (String.ofList t.val))
  | sugared {t : Token} {op : String} {ts : List Token} {v : Val} : sugar t.typ = some op → Form ts v → Form (t :: ts) (vlist [.atom op, v])
  | list {l r : Token} {ts : List Token} {vs : List Val} : l.typ = .lparen → r.typ = .rparen → Content ts vs → Form (l :: (ts ++ [r])) (vlist vs)
  | dotted {l d r : Token} {ts us : List Token} {vs ws : List Val} {w : Val} : l.typ = .lparen → d.typ = .dot → r.typ = .rparen →
    Content ts vs → Content us (w :: ws) → Form (l :: (ts ++ d :: (us ++ [r]))) (mkList vs w)

/-- The contents of a list or program: a sequence of forms, possibly after a shebang. -/
inductive Content : List Token → List Val → Prop
  | plain {ts : List Token} {vs : List Val} : Forms ts vs → Content ts vs
  | shebang {t : Token} {ts : List Token} {vs : List Val} : t.typ = .shebang → Forms ts vs → Content (t :: ts) vs

/-- A sequence of forms. -/
inductive Forms : List Token → List Val → Prop
  | nil : Forms [] []
  | cons {ts us : List Token} {v : Val} {vs : List Val} : Form ts v → Forms us vs → Forms (ts ++ us) (v :: vs)
end

/-- A program and the forms it consists of. -/
def Program (ts : List Token) (vs : List Val) : Prop := Content ts vs

end L1
