import Verif.Model.Syntax
/-
What examples/meta.l1 computes.
-/
set_option autoImplicit false
namespace L1

/-- The different elements of a list, in the order of their last occurrences. -/
def lastOnes : List Val → List Val
  | [] => []
  | x :: xs => if x ∈ xs then lastOnes xs else x :: lastOnes xs

/-- What `(frequencies l)` is: each different element with the number of its repetitions, which is one less than the number of its occurrences. -/
def repetitions (l : List Val) : List (Val × Nat) := (lastOnes l).map fun x => (x, l.count x - 1)

/-- The lines the script writes for a list of `n` forms whose types are repeated as told. -/
def metaReport (n : Nat) (ps : List (Val × Nat)) : List Char :=
  "There are ".toList ++ (Val.num n).str ++ " forms :\n".toList ++ ps.flatMap fun p => "\t type ".toList ++ p.1.str ++ " : ".toList ++ (Val.num p.2).str ++ ['\n']

end L1
