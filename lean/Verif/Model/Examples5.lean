import Verif.Model.CoreLib
/-
GENERATED by scripts/gen_examples.py from /repo/examples; do not edit.
Example programs of the repository: their text, line by line; the forms; and the functions they define.
-/
set_option autoImplicit false
namespace L1

/-- The lines of examples/screen-test.l1. -/
def screenTestLines : List String := [
  "(let ((result (with-screen",
  "               (screen-clear)",
  "               (screen-write 10 10 '(hello this is a test))",
  "               (screen-write 10 12 '(press any key to continue))",
  "               (list (screen-get-key)",
  "                     (screen-size)))))",
  "  (printl `(I received the ~(car result) key!",
  "              The screen is ~(car (cdr result)) in size.)))",
  ""]

/-- The text of examples/screen-test.l1. -/
def screenTestText : List Char := joinNl (screenTestLines.map String.toList)

/-- The forms of examples/screen-test.l1. -/
def screenTestForms : List Val := [
  vlist [.atom "let", vlist [vlist [.atom "result", vlist [.atom "with-screen", vlist [.atom "screen-clear"], vlist [.atom "screen-write", .num 10, .num 10, vlist [.atom "quote", vlist [.atom "hello", .atom "this", .atom "is", .atom "a", .atom "test"]]], vlist [.atom "screen-write", .num 10, .num 12, vlist [.atom "quote", vlist [.atom "press", .atom "any", .atom "key", .atom "to", .atom "continue"]]], vlist [.atom "list", vlist [.atom "screen-get-key"], vlist [.atom "screen-size"]]]]], vlist [.atom "printl", vlist [.atom "syntax-quote", vlist [.atom "I", .atom "received", .atom "the", vlist [.atom "unquote", vlist [.atom "car", .atom "result"]], .atom "key!", .atom "The", .atom "screen", .atom "is", vlist [.atom "unquote", vlist [.atom "car", vlist [.atom "cdr", .atom "result"]]], .atom "in", .atom "size."]]]]]

/-- The lines of examples/help.l1. -/
def helpLines : List String := [
  "(help)",
  ""]

/-- The text of examples/help.l1. -/
def helpText : List Char := joinNl (helpLines.map String.toList)

/-- The forms of examples/help.l1. -/
def helpForms : List Val := [
  vlist [.atom "help"]]

end L1
