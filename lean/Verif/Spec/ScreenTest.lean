import Verif.Spec.Device
/-
Specification for C92: what the program examples/screen-test.l1 shows.  Nothing here is used by the model.
-/
set_option autoImplicit false
namespace L1

/-- The name under which a program sees a key: characters are themselves, the other keys have the names of the table; no key at all has the empty name. -/
def SeenAs : Option KeyEvent → String → Prop
  | none, name => name = ""
  | some (.rune c), name => name = String.ofList [c]
  | some k, name => (k, name) ∈ keyTable

/-- The orders to show a text in row `y` from column `x` on. -/
def textAt (W : World) (x y : Nat) (text : List Char) : List Act :=
  (text.mapIdx fun k c => cellAt W ((x + columnsOf W (text.take k) : Nat) : Int) y c) ++ [.show]

end L1
