import Verif.Model.State
/-
Specification for C48 and C74: the terminal and the clock.  `s.screen.on` says whether there is an initialised screen, `s.screen.acts` lists what the
terminal and the clock have been told to do.  Nothing here is used by the model.
-/
set_option autoImplicit false
namespace L1

/-- The state `s` after the further orders `as`. -/
def ordered (s : St) (as : List Act) : St := { s with screen := { s.screen with acts := s.screen.acts ++ as } }

/-- The state `s` with the screen on or off. -/
def screenIs (b : Bool) (s : St) : St := { s with screen := { s.screen with on := b } }

/-- The state after `screen-end`: a screen that is there is closed. -/
def screenClosed (s : St) : St := if s.screen.on then screenIs false (ordered s [.fini]) else s

/-- The columns a character takes on the screen: its width, but at least one. -/
def cellColumns (W : World) (c : Char) : Nat := max 1 (W.width c)

/-- The columns a text takes. -/
def columnsOf (W : World) (cs : List Char) : Nat := (cs.map (cellColumns W)).sum

/-- The order to show the character `c` in column `x` of row `y`; a character of width 0 is combined with a space. -/
def cellAt (W : World) (x y : Int) (c : Char) : Act := if W.width c = 0 then .put x y ' ' [c] else .put x y c []

/-- The names `screen-get-key` gives to keys: letters and other characters are themselves. -/
def keyTable : List (KeyEvent × String) :=
  [(.ctrlC, "INTR"), (.ctrlD, "EOF"), (.ctrlL, "CLEAR"), (.backspace, "BSP"), (.backspace2, "BSP"), (.delete, "DEL"), (.down, "DOWNARROW"), (.end_, "END"),
   (.left, "LEFTARROW"), (.right, "RIGHTARROW"), (.up, "UPARROW"), (.enter, "ENTER"), (.escape, "ESC"), (.other, "")]

end L1
