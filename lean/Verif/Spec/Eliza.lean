import Verif.Spec.Programs
import Verif.Spec.Core
/-
Patterns as in examples/eliza.l1, and what Eliza answers.
-/
set_option autoImplicit false
namespace L1

/-- A piece of a pattern: a word, or `(?* v)`, which stands for any number of words, called `v` from then on. -/
inductive Piece where
  | word (a : String)
  | many (v : String)

/-- The piece as it is written. -/
def Piece.val : Piece → Val
  | .word a => .atom a
  | .many v => vlist [.atom "?*", .atom v]

/-- What the names stand for, the last one first. -/
abbrev Named := List (String × List Val)

/-- The list `((v x ...) ...)`; `((t . t))` when there are no names. -/
def Named.val : Named → Val
  | [] => vlist [.cons (.atom "t") (.atom "t")]
  | b => vlist (b.map fun p => .cons (.atom p.1) (vlist p.2))

/-- Let `v` stand for `xs`: impossible if it stands for other words already. -/
def Named.add (b : Named) (v : String) (xs : List Val) : Option Named :=
  match b.lookup v with
  | none => some ((v, xs) :: b)
  | some ys => if xs = ys then some b else none

/-- All the ways in which a pattern fits a sentence (given what the names stand for already); those in which the first pieces stand for fewer words come first. -/
def fits : List Piece → List Val → Named → List Named
  | [], [], b => [b]
  | [], _ :: _, _ => []
  | .word _ :: _, [], _ => []
  | .word a :: ps, x :: xs, b => if x = .atom a then fits ps xs b else []
  | .many v :: ps, xs, b => (List.range (xs.length + 1)).flatMap fun n =>
    match b.add v (xs.take n) with
    | none => []
    | some b' => fits ps (xs.drop n) b'

/-- The list of names or, if there is none, `()`. -/
def Named.result : Option Named → Val
  | none => .nil
  | some b => b.val

/-- The pattern as it is written. -/
def patVal (ps : List Piece) : Val := vlist (ps.map Piece.val)

/-- The last piece is `(?* v)`. -/
def EndsOpen (ps : List Piece) : Prop := ∃ qs v, ps = qs ++ [.many v]

/-- The first way to fit, or `()`. -/
def fitVal (l : List Named) : Val := Named.result l.head?

/-- A pattern with its names replaced. -/
def filled (σ : String → List Val) (ps : List Piece) : List Val :=
  ps.flatMap fun
    | .word a => [.atom a]
    | .many v => σ v

/-- What a name stands for. -/
def Named.at (b : Named) (v : String) : List Val := (b.lookup v).getD []

/-- No two pieces `(?* v)` one after the other, and none of them called `t`. -/
def Separate : List Piece → Prop
  | [] => True
  | .word _ :: ps => Separate ps
  | [.many v] => v ≠ "t"
  | .many _ :: .many _ :: _ => False
  | .many v :: .word _ :: ps => v ≠ "t" ∧ Separate ps

/-- The words of a text. -/
def wordsOf (t : String) : List String := (splitOnChar ' ' t.toList).map String.ofList

/-- The rules of Eliza, examples/eliza.l1:139: if the words on the left occur, answer with one of the sentences on the right, in which `?y` is what follows the words. -/
def elizaRules : List (String × List String) := [
  ("hello", ["How do you do. Please state your problem."]),
  ("I want", ["What would it mean if you got ?y", "Why do you want ?y", "Suppose you got ?y soon"]),
  ("if", ["Do you really think its likely that ?y", "Do you wish that ?y", "What do you think about ?y", "Really-- if ?y"]),
  ("no", ["Why not?", "You are being a bit negative", "Are you saying NO just to be negative?"]),
  ("I was", ["Were you really?", "Perhaps I already knew you were ?y", "Why do you tell me you were ?y now?"]),
  ("I feel", ["Do you often feel ?y ?"]),
  ("I felt", ["What other feelings do you have?"])]

/-- What follows the first occurrence of the words in a sentence. -/
def after (ws : List String) (xs : List Val) : Option (List Val) :=
  if ws.map Val.atom <+: xs then some (xs.drop ws.length) else
  match xs with
  | [] => none
  | _ :: xs => after ws xs

/-- Change `I` to `you` and vice versa, and so on. -/
def switched : Val → Val
  | .atom "I" => .atom "you"
  | .atom "you" => .atom "I"
  | .atom "me" => .atom "you"
  | .atom "am" => .atom "are"
  | .cons a d => .cons (switched a) (switched d)
  | v => v

/-- The words of an answer, given what follows the words of the rule. -/
def answerWith (ys : List Val) (t : String) : List Val :=
  (wordsOf t).flatMap fun w => if w = "?y" then leaves (switched (vlist ys)) else [.atom w]

/-- What Eliza answers to a sentence, given a random number. -/
def elizaAnswer (xs : List Val) (r : Nat) : List Val :=
  go elizaRules
where
  go : List (String × List String) → List Val
  | [] => [.atom "Interesting"]
  | (ws, ts) :: rules =>
    match after (wordsOf ws) xs with
    | some ys => answerWith ys (ts.getD (r % ts.length) "")
    | none => go rules

/-- A line with the words of an answer. -/
def answerLine (ws : List Val) : List Char := [' '].intercalate (ws.map Val.str) ++ ['\n']

/-- The prompt. -/
def elizaPrompt : List Char := "eliza> ".toList

/-- What Eliza writes on the screen for some sentences, with the random numbers from the `k`-th on. -/
def elizaTalk (rand : Nat → Nat) : Nat → List (List Val) → List Char
  | _, [] => []
  | k, xs :: xss => elizaPrompt ++ answerLine (elizaAnswer xs (rand k)) ++ elizaTalk rand (k + 1) xss

/-- What the tests write. -/
def elizaTestText : List Char := "TEST (variable) ..✓
TEST (assoc) ..✓
TEST (tree-sub and assoc-sub) ..✓
TEST (sublis) ..✓
TEST (segment-pattern?) ..✓
TEST (position) .....✓
TEST (subseq) ..✓
TEST (some) ...✓
TEST (pat-match) .......✓
TEST (response) .✓
".toList

/-- `I feel that you hate me`. -/
example : elizaAnswer ((wordsOf "I feel that you hate me").map .atom) 7 = (wordsOf "Do you often feel that I hate you ?").map .atom := by decide +kernel

/-- `Well I want to win` and the random number 5. -/
example : elizaAnswer ((wordsOf "Well I want to win").map .atom) 5 = (wordsOf "Suppose you got to win soon").map .atom := by decide +kernel

/-- `(?* ?x) a b (?* ?x)` and `1 2 a b a b 1 2 a b`. -/
example : fits [.many "?x", .word "a", .word "b", .many "?x"] [.num 1, .num 2, .atom "a", .atom "b", .atom "a", .atom "b", .num 1, .num 2, .atom "a", .atom "b"] [] =
    [[("?x", [.num 1, .num 2, .atom "a", .atom "b"])]] := by decide +kernel

end L1
