import Verif.Spec.Text
import Verif.Model.State
/-
Specification for C67: capital letters and sentences.
-/
set_option autoImplicit false
namespace L1

/-- `u` is `c` in upper case: the capital of a small ASCII letter; another ASCII character itself; outside ASCII, what Unicode's table says. -/
def UpperOf (W : World) (c u : Char) : Prop :=
  if c.toNat < 128 then CapitalOf u c ∨ (u = c ∧ ¬ ∃ u', CapitalOf u' c) else u = W.upper c

/-- The same word with its first character in upper case. -/
def FirstCapital (W : World) (a b : String) : Prop :=
  ∃ (c u : Char) (cs : List Char), a.toList = c :: cs ∧ b.toList = u :: cs ∧ UpperOf W c u

/-- The word begins with a digit (`0` to `9`, or a digit of another script). -/
def StartsWithDigit (W : World) (a : String) : Prop :=
  ∃ (c : Char) (cs : List Char), a.toList = c :: cs ∧ ((48 ≤ c.toNat ∧ c.toNat ≤ 57) ∨ (128 ≤ c.toNat ∧ W.digit c = true))

/-- `Sentence W mark ws bs`: the words `bs` are the words `ws` with the mark put at the end of the last one, and then the first capitalised. -/
inductive Sentence (W : World) (mark : String) : List String → List String → Prop
  | empty : Sentence W mark [] []
  | one {w b : String} : FirstCapital W (w ++ mark) b → Sentence W mark [w] [b]
  | more {w b y : String} {ws : List String} : FirstCapital W w b → Sentence W mark (w :: (ws ++ [y])) (b :: (ws ++ [y ++ mark]))

end L1
