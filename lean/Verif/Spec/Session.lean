import Verif.Spec.Reading
import Verif.Spec.Eval
/-
A session with the REPL, as a relation between the state at the prompt (with all the lines that will be typed) and how the session ends.
Evaluating a form may itself take lines of the input (`readlist`), so what the next group of lines is depends on the state.
-/
set_option autoImplicit false
namespace L1

/-- The lines up to the first one where opening and closing parentheses balance. -/
def CompleteGroup (as : List (List Char)) : Prop :=
  as ≠ [] ∧ balance (replTokens as) = 0 ∧ ∀ m, 0 < m → m < as.length → 0 < balance (replTokens (as.take m))

/-- The lines up to the first one with more closing than opening parentheses. -/
def OverClosed (as : List (List Char)) : Prop :=
  as ≠ [] ∧ balance (replTokens as) < 0 ∧ ∀ m, 0 < m → m < as.length → 0 < balance (replTokens (as.take m))

/-- Some parenthesis is open at the end of every line. -/
def Unfinished (ls : List (List Char)) : Prop := ∀ m, 0 < m → m ≤ ls.length → 0 < balance (replTokens (ls.take m))

/-- The state after the prompt, with `rest` still to be read. -/
def prompted (s : St) (rest : List (List Char)) : St := { s with inp := rest, out := s.out ++ "> ".toList }

/-- The forms of one group are evaluated in order, each value being printed, up to the first that fails, whose error is printed.  The last index
is what becomes of the program. -/
inductive GroupRun (W : World) (e : Nat) : List Val → St → Res Unit → Prop
  | done {s : St} : GroupRun W e [] s (.ok () s)
  | value {x v : Val} {xs : List Val} {s s1 : St} {r : Res Unit} : eval W x e s = .ok v s1 →
    GroupRun W e xs { s1 with out := s1.out ++ (v.str ++ ['\n']) } r → GroupRun W e (x :: xs) s r
  | error {x : Val} {xs : List Val} {s s1 : St} {er : Err} : eval W x e s = .err er s1 →
    GroupRun W e (x :: xs) s (.ok () { s1 with out := s1.out ++ ("ERROR:\n".toList ++ er.str ++ ['\n']) })
  | exit {x : Val} {xs : List Val} {c : Nat} {s s1 : St} : eval W x e s = .exit c s1 → GroupRun W e (x :: xs) s (.exit c s1)
  | crash {x : Val} {xs : List Val} {s s1 : St} {w : String} : eval W x e s = .crash w s1 → GroupRun W e (x :: xs) s (.crash w s1)

/-- A session, to its end. -/
inductive Session (W : World) (e : Nat) : St → Res Unit → Prop
  | eof {s : St} : Unfinished s.inp → Session W e s (.ok () { s with inp := [], out := s.out ++ "> ".toList ++ ['\n'] })
  | tooMany {s : St} {as rest : List (List Char)} {r : Res Unit} : s.inp = as ++ rest → OverClosed as →
    Session W e { prompted s rest with out := s.out ++ "> ".toList ++ "ERROR:\ntoo many right parens\n".toList } r → Session W e s r
  | syntaxError {s : St} {as rest : List (List Char)} {er : Val} {r : Res Unit} : s.inp = as ++ rest → CompleteGroup as →
    parseTop (replTokens as) = .err er → Session W e { prompted s rest with out := s.out ++ "> ".toList ++ (er.str ++ ['\n']) } r → Session W e s r
  | readerCrash {s : St} {as rest : List (List Char)} : s.inp = as ++ rest → CompleteGroup as →
    parseTop (replTokens as) = .crash → Session W e s (.crash "index out of range" (prompted s rest))
  | group {s s1 : St} {as rest : List (List Char)} {vs : List Val} {r : Res Unit} : s.inp = as ++ rest → CompleteGroup as →
    Program (replTokens as) vs → GroupRun W e vs (prompted s rest) (.ok () s1) → Session W e s1 r → Session W e s r
  | ended {s : St} {as rest : List (List Char)} {vs : List Val} {r : Res Unit} : s.inp = as ++ rest → CompleteGroup as →
    Program (replTokens as) vs → GroupRun W e vs (prompted s rest) r → (∀ s1, r ≠ .ok () s1) → Session W e s r

end L1
