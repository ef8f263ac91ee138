import Verif.Model.Input
/-
Lines on the standard input.
-/
set_option autoImplicit false
namespace L1

/-- A line without its end: it has no newline, and does not end in a carriage return. -/
def PlainLine (l : Bytes) : Prop := (10 : UInt8) ∉ l ∧ l.getLast? ≠ some 13

/-- The two ways a line may end. -/
def LineEnd (e : Bytes) : Prop := e = [10] ∨ e = [13, 10]

/-- The bytes of a text: its characters in UTF-8. -/
def bytesOf (text : List Char) : Bytes := text.flatMap String.utf8EncodeChar

/-- A way of turning bytes into characters that reads UTF-8 (whatever it makes of other bytes). -/
def ReadsUTF8 (decode : Bytes → List Char) : Prop := ∀ text, decode (bytesOf text) = text

/-- A line of text without its end: no newline, and no carriage return at the end. -/
def PlainText (l : List Char) : Prop := '\n' ∉ l ∧ l.getLast? ≠ some '\r'

end L1
