import Verif.Model.Syntax
import Mathlib.Data.List.Forall2
/-
Specification vocabulary for text: case of ASCII letters, fields of a line, trimmed text, lines.
-/
set_option autoImplicit false
namespace L1

/-- `u` is the capital of the small ASCII letter `c`. -/
def CapitalOf (u c : Char) : Prop := 97 ≤ c.toNat ∧ c.toNat ≤ 122 ∧ u.toNat + 32 = c.toNat

/-- Blanks between words. -/
def Blank (c : Char) : Prop := c = ' ' ∨ c = '\t'

/-- `Fields l ws`: `ws` are the words of the line `l`, from left to right: the longest pieces without blanks. -/
inductive Fields : List Char → List (List Char) → Prop
  | none {g : List Char} : (∀ c ∈ g, Blank c) → Fields g []
  | cons {g w rest : List Char} {ws : List (List Char)} : (∀ c ∈ g, Blank c) → w ≠ [] → (∀ c ∈ w, ¬ Blank c) →
    (∀ c ∈ rest.head?, Blank c) → Fields rest ws → Fields (g ++ (w ++ rest)) (w :: ws)

/-- `t` is `o` without the newlines at its beginning and at its end. -/
def Trimmed (o t : List Char) : Prop :=
  ∃ a b, o = a ++ (t ++ b) ∧ (∀ c ∈ a, c = '\n') ∧ (∀ c ∈ b, c = '\n') ∧ t.head? ≠ some '\n' ∧ t.getLast? ≠ some '\n'

/-- `ls` are the lines of the text `t` (`n` newlines separate `n + 1` lines). -/
inductive Lines : List Char → List (List Char) → Prop
  | last {l : List Char} : '\n' ∉ l → Lines l [l]
  | cons {l t : List Char} {ls : List (List Char)} : '\n' ∉ l → Lines t ls → Lines (l ++ '\n' :: t) (l :: ls)

/-- `v` is the list with one element per line of `o` (trimmed), each the list of the words of that line as atoms. -/
def Shape (o : List Char) (v : Val) : Prop :=
  ∃ (t : List Char) (ls : List (List Char)) (wss : List (List (List Char))), Trimmed o t ∧ Lines t ls ∧
    List.Forall₂ Fields ls wss ∧ v = vlist (wss.map fun ws => vlist (ws.map fun w => .atom (String.ofList w)))

/-- `v` is a list of atoms and numbers whose texts are `ws`. -/
inductive Words : Val → List String → Prop
  | nil : Words .nil []
  | atom {a : String} {v : Val} {ws : List String} : Words v ws → Words (.cons (.atom a) v) (a :: ws)
  | num {n : Int} {v : Val} {ws : List String} : Words v ws → Words (.cons (.num n) v) (toString n :: ws)

end L1
