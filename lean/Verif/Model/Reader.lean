import Verif.Model.State
/-
The lexer (lisp/lex.go) and the parser (lisp/parse.go).

The package github.com/eigenhombre/lexutil is not in the repository.  It is assumed to be the usual
"state function" lexer: `Next` consumes a character (or returns EOF), `Backup` un-consumes it, `Peek`
looks at it, `Emit` sends the text from `start` to the current position and moves `start` there,
`Ignore` moves `start` to the current position, `Accept`/`AcceptRun` consume one/all characters of a set,
`Errorf` sends an error item and moves nothing.  Input is a list of characters: malformed UTF-8 is
outside the model.
-/
set_option autoImplicit false
namespace L1

/-- Token types, lisp/lex.go:19-32. -/
inductive Typ where
  | number | atom | lparen | rparen | quote | syntaxQuote | unquote | splicingUnquote | dot
  | commentNext | shebang | error
  deriving DecidableEq, Repr

/-- `Token`, lisp/lex.go:13-16 (`lexeme.Typ`, `lexeme.Val`, `line`). -/
structure Token where
  typ : Typ
  val : List Char
  line : Nat
  deriving DecidableEq, Repr

/-- `isDigit`, lisp/lex.go:82-84. -/
def isDigitC (c : Char) : Bool := '0' ≤ c && c ≤ '9'

/-- `isSpace`, lisp/lex.go:86-88. -/
def isSpaceC (c : Char) : Bool := c = ' ' || c = '\t' || c = '\n' || c = '\r'

/-- Not in `disallowedForAtomAfterStart`, lisp/lex.go:134. -/
def isAtomCont (c : Char) : Bool :=
  !(isSpaceC c || c = '(' || c = ')' || c = '~' || c = '@' || c = '#' || c = ';' || c = '`'
    || c = '\'')

/-- `isAtomStart`, lisp/lex.go:135-139. -/
def isAtomStartC (c : Char) : Bool :=
  isAtomCont c && !(isDigitC c || c = '+' || c = '-' || c = '.')

/-- Longest prefix of characters satisfying `p`, and the rest (`acceptIf`, lisp/lex.go:141-153;
`AcceptRun`). -/
def spanC (p : Char → Bool) : List Char → List Char × List Char
  | [] => ([], [])
  | c :: cs => if p c then let r := spanC p cs; (c :: r.1, r.2) else ([], c :: cs)

/-- `lexAtom`, lisp/lex.go:155-162: the text consumed and the rest. -/
def lexAtomC (cs : List Char) : List Char × List Char :=
  let r := spanC isAtomStartC cs
  let r' := spanC isAtomCont r.2
  (r.1 ++ r'.1, r'.2)

/-- `ignoreToEndOfLine`, lisp/lex.go:90-96: the text consumed (with the newline) and the rest. -/
def toEolC : List Char → List Char × List Char
  | [] => ([], [])
  | c :: cs => if c = '\n' then ([c], cs) else let r := toEolC cs; (c :: r.1, r.2)

/-- The Go verb `%q` on a character (strconv.QuoteRune), for the error text of lex.go:129, 182; the end of the input, -1, is not a character and shown as U+FFFD. -/
def quoteRune (c : Option Char) : List Char :=
  match c with
  | some c => '\'' :: goEscape '\'' c ++ ['\'']
  | none => "'�'".toList

/-- The error text, lisp/lex.go:129 and 182. -/
def badCharMsg (c : Option Char) : List Char :=
  "unexpected character ".toList ++ quoteRune c ++ " in input".toList

/-- One turn of the loop of `lexStart` (lisp/lex.go:98-132) together with the state functions it goes to
(`lexInt` 198-207, `lexAtom` 155-162, `lexUnquote` 186-196, `lexHashSugar` 164-184).
`pre` is the text between the lexer's `start` and its position (not empty only after an illegal
character or a comment, because neither moves `start`), `c` the next character, `cs` the rest.
Returns the token emitted if any, the new `pre`, and the remaining input. -/
def lexStep (line : Nat) (pre : List Char) (c : Char) (cs : List Char) :
    Option Token × List Char × List Char :=
  if isSpaceC c then (none, [], cs)
  else if c = ';' then
    let r := toEolC cs
    (none, pre ++ c :: r.1, r.2)
  else if isDigitC c then
    let r := spanC isDigitC cs
    (some ⟨.number, pre ++ c :: r.1, line⟩, [], r.2)
  else if c = '-' || c = '+' then
    match cs with
    | c' :: _ =>
      if isDigitC c' then
        let r := spanC isDigitC cs
        (some ⟨.number, pre ++ c :: r.1, line⟩, [], r.2)
      else
        let r := lexAtomC cs
        (some ⟨.atom, pre ++ c :: r.1, line⟩, [], r.2)
    | [] => (some ⟨.atom, pre ++ [c], line⟩, [], [])
  else if c = '(' then (some ⟨.lparen, pre ++ [c], line⟩, [], cs)
  else if c = ')' then (some ⟨.rparen, pre ++ [c], line⟩, [], cs)
  else if isAtomStartC c then
    let r := lexAtomC cs
    (some ⟨.atom, pre ++ c :: r.1, line⟩, [], r.2)
  else if c = '\'' then (some ⟨.quote, pre ++ [c], line⟩, [], cs)
  else if c = '`' then (some ⟨.syntaxQuote, pre ++ [c], line⟩, [], cs)
  else if c = '~' then
    match cs with
    | '@' :: cs' => (some ⟨.splicingUnquote, pre ++ [c, '@'], line⟩, [], cs')
    | _ => (some ⟨.unquote, pre ++ [c], line⟩, [], cs)
  else if c = '.' then (some ⟨.dot, pre ++ [c], line⟩, [], cs)
  else if c = '#' then
    match cs with
    | '_' :: cs' => (some ⟨.commentNext, pre ++ [c, '_'], line⟩, [], cs')
    | '!' :: cs' =>
      let r := spanC (fun x => x ≠ '\n') cs'
      (some ⟨.shebang, pre ++ c :: '!' :: r.1, line⟩, [], r.2)
    | c' :: _ => (some ⟨.error, badCharMsg (some c'), line⟩, pre ++ [c], cs)
    | [] => (some ⟨.error, badCharMsg none, line⟩, pre ++ [c], [])
  else (some ⟨.error, badCharMsg (some c), line⟩, pre ++ [c], cs)

/-- The run of the lexer on one line, lisp/lex.go:98-132 (with fuel: every turn consumes input). -/
def lexLoop (line : Nat) : Nat → List Char → List Char → List Token
  | 0, _, _ => []
  | _ + 1, _, [] => []
  | k + 1, pre, c :: cs =>
    let r := lexStep line pre c cs
    r.1.toList ++ lexLoop line k r.2.1 r.2.2

/-- The tokens of one line, lisp/lex.go:213-217. -/
def lexLine (line : Nat) (cs : List Char) : List Token := lexLoop line cs.length [] cs

/-- `LexItems` from a given line number on, lisp/lex.go:210-221. -/
def lexFrom (line : Nat) : List (List Char) → List Token
  | [] => []
  | l :: ls => lexLine line l ++ lexFrom (line + 1) ls

/-- `LexItems`, lisp/lex.go:210-221: lines are lexed one by one and numbered from 1. -/
def lexItems (ls : List (List Char)) : List Token := lexFrom 1 ls

/-- `IsBalanced`'s `level`, lisp/lex.go:225-233. -/
def parenLevel : List Token → Int
  | [] => 0
  | t :: ts =>
    (match t.typ with
     | .lparen => 1
     | .rparen => -1
     | _ => 0) + parenLevel ts

/-- `IsBalanced`, lisp/lex.go:224-238: `none` is the error "too many right parens". -/
def isBalanced (ts : List Token) : Option Bool :=
  if parenLevel ts < 0 then none else some (parenLevel ts = 0)

/-! ### Parser -/

/-- Outcome of parsing: a value, an error (always a list, error.go), a Go panic (`cdrList[0]` on an empty
slice, parse.go:109), or the model's fuel ran out (proved impossible). -/
inductive PRes (α : Type) where
  | ok (a : α)
  | err (e : Val)
  | crash
  | fuel
  deriving DecidableEq, Repr

/-- `extendError` on a parse error, lisp/error.go:16-18. -/
def PRes.extend {α : Type} (msg : String) : PRes α → PRes α
  | .err e => .err (.cons (msgList msg) e)
  | r => r

/-- Sequencing with `if err != nil { return ... err }`. -/
def PRes.bind {α β : Type} (r : PRes α) (f : α → PRes β) : PRes β :=
  match r with
  | .ok a => f a
  | .err e => .err e
  | .crash => .crash
  | .fuel => .fuel

/-- `baseError`, lisp/error.go:24-26. -/
def perr {α : Type} (msg : String) : PRes α := .err (.cons (msgList msg) .nil)

/-- `listChunk`, lisp/parse.go:122-140, from index `i` and nesting `level` on: the index of the token
that ends the list's items, and whether it is a dot.  `none` is the error "unbalanced parens". -/
def listChunk (i : Nat) (level : Int) : List Token → Option (Nat × Bool)
  | [] => none
  | t :: ts =>
    match t.typ with
    | .lparen => listChunk (i + 1) (level + 1) ts
    | .rparen => if level - 1 = 0 then some (i, false) else listChunk (i + 1) (level - 1) ts
    | .dot => if level = 1 then some (i, true) else listChunk (i + 1) level ts
    | _ => listChunk (i + 1) level ts

/-- `dotChunk`, lisp/parse.go:142-156. -/
def dotChunk (i : Nat) (level : Int) : List Token → Option Nat
  | [] => none
  | t :: ts =>
    match t.typ with
    | .lparen => dotChunk (i + 1) (level + 1) ts
    | .rparen => if level - 1 = 0 then some i else dotChunk (i + 1) (level - 1) ts
    | _ => dotChunk (i + 1) level ts

/-- The value of a digit string, most significant first. -/
def digitsVal (cs : List Char) : Nat := cs.foldl (fun n c => n * 10 + (c.toNat - '0'.toNat)) 0

/-- `Num(s)` for a string: `big.Int.SetString(s, 10)`, lisp/math.go:96-107.  An optional sign and at
least one digit; anything else leaves an unspecified number (`none`).  (Base 10 allows no
underscores.) -/
def numOfChars? : List Char → Option Int
  | '-' :: cs => if cs ≠ [] ∧ cs.all isDigitC then some (-(digitsVal cs : Int)) else none
  | '+' :: cs => if cs ≠ [] ∧ cs.all isDigitC then some (digitsVal cs) else none
  | cs => if cs ≠ [] ∧ cs.all isDigitC then some (digitsVal cs) else none

/-- `Num(token.lexeme.Val)`, lisp/parse.go:22.  A number token is malformed only on a line with an illegal
character, whose error token makes the whole parse fail, so the default is never seen. -/
def numOfToken (cs : List Char) : Int := (numOfChars? cs).getD 0

/-- `operatorName` of each prefix token, lisp/parse.go:25-54. -/
def prefixName : Typ → Option String
  | .quote => some "quote"
  | .syntaxQuote => some "syntax-quote"
  | .unquote => some "unquote"
  | .splicingUnquote => some "splicing-unquote"
  | .commentNext => some "comment"
  | _ => none

/-- The name of the Go constant in the messages of lisp/parse.go:28, 34, 40, 46, 52. -/
def prefixItem : Typ → String
  | .quote => "itemForwardQuote"
  | .syntaxQuote => "itemSyntaxQuote"
  | .unquote => "itemUnquote"
  | .splicingUnquote => "itemSplicingUnquote"
  | _ => "itemCommentNext"

mutual
/-- `parseNext` (lisp/parse.go:15-66) with `handleQuoteItem` (3-13) inlined.  The Go code passes the whole
slice and an index; here the slice from the index on.  Returns the form and the number of tokens used.
Simplified: the message "unexpected end of input" omits the index and the dump of the tokens. -/
def parseNext : Nat → List Token → PRes (Val × Nat)
  | 0, _ => .fuel
  | _ + 1, [] => perr "unexpected end of input"
  | k + 1, t :: ts =>
    match prefixName t.typ with
    | some op =>
      (match ts with
       | [] => perr "unexpected end of input"
       | _ :: _ => (parseNext k ts).extend "handleQuoteItem parseNext").extend
          ("parseNext " ++ prefixItem t.typ ++ " handleQuoteItem")
        |>.bind fun r => .ok (.cons (.atom op) (.cons r.1 .nil), r.2 + 1)
    | none =>
      match t.typ with
      | .number => .ok (.num (numOfToken t.val), 1)
      | .atom => .ok (.atom (String.ofList t.val), 1)
      | .lparen => (parseList k (t :: ts)).extend "parseNext itemLeftParen parseList"
      | .rparen => perr ("unexpected right paren on line " ++ toString t.line)
      | _ => perr ("unexpected lexeme '" ++ String.ofList t.val ++ "' on line " ++ toString t.line)

/-- `parseList`, lisp/parse.go:91-116. -/
def parseList : Nat → List Token → PRes (Val × Nat)
  | 0, _ => .fuel
  | k + 1, ts =>
    match listChunk 0 0 ts with
    | none => perr "unbalanced parens"
    | some (chunkEnd, true) =>
      (parse k ((ts.take chunkEnd).drop 1)).bind fun carList =>
        match dotChunk 0 1 (ts.drop chunkEnd) with
        | none => perr "unbalanced parens"
        | some chunk2End =>
          (parse k ((ts.take (chunkEnd + chunk2End)).drop (chunkEnd + 1))).bind fun cdrList =>
            match cdrList with
            | [] => .crash
            | c :: _ => .ok (mkList carList c, chunkEnd + chunk2End + 1)
    | some (chunkEnd, false) =>
      (parse k ((ts.take chunkEnd).drop 1)).bind fun contents =>
        .ok (mkList contents .nil, chunkEnd + 1)

/-- `Parse`, lisp/parse.go:69-88: skips a shebang token if it is the first of this slice (also when the
slice is the inside of a list, parse.go:97, 105, 111), then reads forms to the end. -/
def parse : Nat → List Token → PRes (List Val)
  | 0, _ => .fuel
  | k + 1, ts =>
    match ts with
    | [] => .ok []
    | t :: ts' => if t.typ = .shebang then parseForms k ts' else parseForms k (t :: ts')

/-- The loop of `Parse`, lisp/parse.go:76-87. -/
def parseForms : Nat → List Token → PRes (List Val)
  | 0, _ => .fuel
  | k + 1, ts =>
    match ts with
    | [] => .ok []
    | t :: ts' =>
      ((parseNext k (t :: ts')).extend "parse parseNext").bind fun r =>
        (parseForms k ((t :: ts').drop r.2)).bind fun rest => .ok (r.1 :: rest)
end

/-- `Parse` with enough fuel for the tokens (each nested call gets a shorter slice; proved sufficient). -/
def parseTop (ts : List Token) : PRes (List Val) := parse (4 * ts.length + 4) ts

/-- `lexAndParse`, lisp/parse.go:118-120. -/
def lexAndParse (ls : List (List Char)) : PRes (List Val) := parseTop (lexItems ls)

/-- Reading a whole text, as in lisp/lisp.go:747: split at newlines, lex, parse. -/
def readText (cs : List Char) : PRes (List Val) := lexAndParse (splitOnChar '\n' cs)

end L1
