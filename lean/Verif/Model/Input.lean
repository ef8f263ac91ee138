import Verif.Model.Main
/-
How the lines that the program reads come from the standard input: `ReadLine`, lisp/builtin.go:37-48, makes a new `bufio.Reader` for every line and throws it away, with
what else it has read.  The standard input is the list of byte strings that its successive reads deliver when there is room for them (a terminal delivers a line at a time, a
pipe whatever is in it); what follows the last one is the end of the input.
-/
set_option autoImplicit false
namespace L1

abbrev Bytes := List UInt8

def newline : UInt8 := 10
def carriage : UInt8 := 13

/-- The size of the buffer of a `bufio.Reader`: `defaultBufSize` of Go's standard library. -/
def bufSize : Nat := 4096

/-- The end of `bufio.(*Reader).ReadLine` (Go's standard library): a carriage return before the newline is dropped with it. -/
def dropCR : Bytes → Bytes
  | [] => []
  | [c] => if c = carriage then [] else [c]
  | c :: cs => c :: dropCR cs

/-- `bytes.IndexByte` in `ReadSlice`: what is before the first newline, without a carriage return at its end. -/
def cutLine (buf : Bytes) : Option Bytes := if newline ∈ buf then some (dropCR (buf.takeWhile (· != newline))) else none

/-- What `ReadLine` makes of a buffer that has been filled: the line in it, or all of it (`ErrBufferFull`; a carriage return at the end is put back into the buffer and lost
with it). -/
def fullLine (buf : Bytes) : Bytes := (cutLine buf).getD (dropCR buf)

/-- `bufio.(*Reader).ReadLine` with `ReadSlice` and `fill` (Go's standard library), called on a new reader by `ReadLine`, lisp/builtin.go:37-48.  `buf` is what has been read
so far; the result is the line and what the input still has to deliver, `none` the error `io.EOF`. -/
def readB (buf : Bytes) : List Bytes → Option (Bytes × List Bytes)
  | [] =>
    match cutLine buf with
    | some line => some (line, [])
    | none => if buf = [] then none else if bufSize ≤ buf.length then some (dropCR buf, []) else some (buf, [])
  | c :: cs =>
    match cutLine buf with
    | some line => some (line, c :: cs)
    | none =>
      if bufSize ≤ buf.length then some (dropCR buf, c :: cs)
      else if buf.length + c.length ≤ bufSize then readB (buf ++ c) cs
      else some (fullLine (buf ++ c.take (bufSize - buf.length)), c.drop (bufSize - buf.length) :: cs)

/-- The lines that successive calls of `ReadLine` return, up to the end of the input; `fuel` bounds their number. -/
def deliver : Nat → List Bytes → List Bytes
  | 0, _ => []
  | fuel + 1, src =>
    match readB [] src with
    | none => []
    | some (line, rest) => line :: deliver fuel rest

/-- All lines the program gets from the input: no line takes less than a byte. -/
def delivered (src : List Bytes) : List Bytes := deliver (src.flatten.length + 1) src

/-- The state in which the process starts when its standard input is `src`.  `decode` turns the bytes of a line into characters (`string(line)`, lisp/builtin.go:44, and
the lexer's reading of it); it is not modelled further. -/
def startSt (decode : Bytes → List Char) (src : List Bytes) : St := initSt ((delivered src).map decode)

end L1
