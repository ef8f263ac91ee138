/-
What a version text looks like.
-/
set_option autoImplicit false
namespace L1

/-- A part of a version: a number, perhaps written with zeros in front. -/
structure VerNum where
  zeros : Nat
  value : Nat

/-- How it is written. -/
def VerNum.text (p : VerNum) : List Char := List.replicate p.zeros '0' ++ Nat.toDigits 10 p.value

/-- The parts with periods between them. -/
def dotted : List VerNum → List Char
  | [] => []
  | [p] => p.text
  | p :: q :: ps => p.text ++ '.' :: dotted (q :: ps)

end L1
