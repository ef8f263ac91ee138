import Verif.Spec.Programs
import Verif.Spec.Words
/-
Grammars as in examples/sentences.l1: rules `(category -> alternative ...)`; an alternative is a word, a category, or a list of alternatives.
-/
set_option autoImplicit false
namespace L1

/-- The rules of a grammar: categories with their alternatives. -/
abbrev Grammar := List (String × List Val)

/-- The list `((category -> alternative ...) ...)`. -/
def Grammar.val (g : Grammar) : Val := vlist (g.map fun r => vlist (.atom r.1 :: .atom "->" :: r.2))

/-- The alternatives of a category: those of its first rule. -/
def Grammar.choices (g : Grammar) (a : String) : List Val :=
  match g with
  | [] => []
  | r :: g => if r.1 = a then r.2 else Grammar.choices g a

/-- A word, a category, or a list of phrases. -/
inductive Phrase : Val → Prop
  | word (a : String) : Phrase (.atom a)
  | list (xs : List Val) : (∀ x ∈ xs, Phrase x) → Phrase (vlist xs)

/-- All alternatives are phrases (and there are fewer than 2^63 of them for each category). -/
def Grammar.Ok (g : Grammar) : Prop := ∀ r ∈ g, r.2.length < 2 ^ 63 ∧ ∀ x ∈ r.2, Phrase x

/-- The words that can be derived from a phrase: a category stands for what can be derived from any of its alternatives, a word without
alternatives for itself, and a list for the words of its elements in order. -/
inductive Derives (g : Grammar) : Val → List String → Prop
  | word {a : String} : g.choices a = [] → Derives g (.atom a) [a]
  | choice {a : String} {x : Val} {ws : List String} : x ∈ g.choices a → Derives g x ws → Derives g (.atom a) ws
  | nil : Derives g .nil []
  | cons {x : Val} {xs : List Val} {us ws : List String} : Derives g x us → Derives g (vlist xs) ws → Derives g (vlist (x :: xs)) (us ++ ws)

/-- The same with the alternatives chosen by the random numbers of the world from the `k`-th on, one for each category met, left to right; `k'` is the number of
the next random number. -/
inductive Generates (W : World) (g : Grammar) : Nat → Val → List String → Nat → Prop
  | word {a : String} {k : Nat} : g.choices a = [] → Generates W g k (.atom a) [a] k
  | choice {a : String} {x : Val} {ws : List String} {k k' : Nat} : (g.choices a)[W.rand k % (g.choices a).length]? = some x →
    Generates W g (k + 1) x ws k' → Generates W g k (.atom a) ws k'
  | nil {k : Nat} : Generates W g k .nil [] k
  | cons {x : Val} {xs : List Val} {us ws : List String} {k k1 k2 : Nat} : Generates W g k x us k1 → Generates W g k1 (vlist xs) ws k2 →
    Generates W g k (vlist (x :: xs)) (us ++ ws) k2

/-- The list of the words. -/
def wordList (ws : List String) : Val := vlist (ws.map .atom)

/-- The words as a line: separated by blanks, the first letter a capital, a period and a newline at the end. -/
def sentenceLine (ws : List String) : List Char :=
  (match [' '].intercalate (ws.map String.toList) with
  | [] => []
  | c :: cs => c.toUpper :: cs) ++ ['.', '\n']

/-- `simple-grammar`, examples/sentences.l1:40. -/
def simpleGrammar : Grammar := [
  ("sentence", [vlist [.atom "noun-phrase", .atom "verb-phrase"]]),
  ("noun-phrase", [vlist [.atom "Article", .atom "Noun"]]),
  ("verb-phrase", [vlist [.atom "Verb", .atom "noun-phrase"]]),
  ("Article", [.atom "the", .atom "a"]),
  ("Noun", [.atom "man", .atom "ball", .atom "woman", .atom "table"]),
  ("Verb", [.atom "hit", .atom "took", .atom "saw", .atom "liked"])]

/-- `bigger-grammar`, examples/sentences.l1:48. -/
def biggerGrammar : Grammar := [
  ("sentence", [vlist [.atom "noun-phrase", .atom "verb-phrase"]]),
  ("noun-phrase", [vlist [.atom "Article", .atom "Adj*", .atom "Noun", .atom "PP*"], vlist [.atom "Name"], vlist [.atom "Pronoun"]]),
  ("verb-phrase", [vlist [.atom "Verb", .atom "noun-phrase", .atom "PP*"]]),
  ("PP*", [.nil, vlist [.atom "PP", .atom "PP*"]]),
  ("Adj*", [.nil, vlist [.atom "Adj", .atom "Adj*"]]),
  ("PP", [vlist [.atom "Prep", .atom "noun-phrase"]]),
  ("Prep", [.atom "to", .atom "in", .atom "by", .atom "with", .atom "on"]),
  ("Adj", [.atom "big", .atom "little", .atom "blue", .atom "green", .atom "adiabatic"]),
  ("Article", [.atom "the", .atom "a"]),
  ("Name", [.atom "Pat", .atom "Kim", .atom "Lee", .atom "Terry", .atom "Robin"]),
  ("Noun", [.atom "man", .atom "ball", .atom "woman", .atom "table"]),
  ("Verb", [.atom "hit", .atom "took", .atom "saw", .atom "liked"]),
  ("Pronoun", [.atom "he", .atom "she", .atom "it", .atom "these", .atom "those", .atom "that"])]

/-- The grammar that the `k`-th random number chooses. -/
def grammarAt (W : World) (k : Nat) : Grammar := if W.rand k % 2 = 0 then simpleGrammar else biggerGrammar

/-- Sentences one after the other, each with a grammar chosen by the next random number and then generated with the following ones. -/
inductive Speaks (W : World) : Nat → List (List String) → Nat → Prop
  | nil {k : Nat} : Speaks W k [] k
  | cons {k k1 k2 : Nat} {ws : List String} {wss : List (List String)} : Generates W (grammarAt W k) (k + 1) (.atom "sentence") ws k1 → Speaks W k1 wss k2 → Speaks W k (ws :: wss) k2

end L1
