import Verif.Spec.Eval
/-
The status with which the process ends, as the shell that started it sees it.
-/
set_option autoImplicit false
namespace L1

/-- The exit status of the program: 0 when `main` returns, `os.Exit`'s argument, and the Go runtime's status 2 after a panic or a stack overflow.
`none`: the program goes on for ever.  (`main` itself does not return an error.) -/
def exitStatus : Res Unit → Option Nat
  | .ok _ _ => some 0
  | .exit c _ => some c
  | .crash _ _ => some 2
  | .overflow _ => some 2
  | .err _ _ => none
  | .oof => none

/-- The state of the world at the end of the program. -/
def finalState {α : Type} : Res α → Option St
  | .ok _ s | .err _ s | .crash _ s | .exit _ s | .overflow s => some s
  | .oof => none

/-- What happened in one text of forms evaluated at top level, and the state then. -/
inductive Ending
  | finished
  | failed (er : Err)
  | stopped (status : Nat)

/-- The text is read as a whole; then its forms are evaluated in order up to the first one that does not have a value. -/
inductive TextRun (W : World) (text : List Char) (s : St) : Ending → St → Prop
  | syntaxError {er : Val} : readText text = .err er → TextRun W text s (.failed (.list er)) s
  | readerPanic : readText text = .crash → TextRun W text s (.stopped 2) s
  | finished {gs vs : List Val} {s1 : St} : readText text = .ok gs → EvalsTo W 0 gs s vs s1 → TextRun W text s .finished s1
  | error {before later vs : List Val} {x : Val} {er : Err} {s1 s2 : St} : readText text = .ok (before ++ x :: later) →
    EvalsTo W 0 before s vs s1 → eval W x 0 s1 = .err er s2 → TextRun W text s (.failed er) s2
  | exit {before later vs : List Val} {x : Val} {c : Nat} {s1 s2 : St} : readText text = .ok (before ++ x :: later) →
    EvalsTo W 0 before s vs s1 → eval W x 0 s1 = .exit c s2 → TextRun W text s (.stopped 0) s2
  | panic {before later vs : List Val} {x : Val} {w : String} {s1 s2 : St} : readText text = .ok (before ++ x :: later) →
    EvalsTo W 0 before s vs s1 → eval W x 0 s1 = .crash w s2 → TextRun W text s (.stopped 2) s2

/-- Running script files one after the other: the exit status and the state at the end.  Reading a file is one query to the world. -/
inductive ScriptRun (W : World) : List String → St → Nat → St → Prop
  | done {s : St} : ScriptRun W [] s 0 s
  | unreadable {f m : String} {fs : List String} {s : St} : W.readFile s.tick f = .error m →
    ScriptRun W (f :: fs) s 1 { s with tick := s.tick + 1, out := s.out ++ ("ERROR:\n".toList ++ m.toList ++ ['\n']) }
  | next {f : String} {fs : List String} {text : List Char} {s s1 s2 : St} {c : Nat} : W.readFile s.tick f = .ok text →
    TextRun W text { s with tick := s.tick + 1 } .finished s1 → ScriptRun W fs s1 c s2 → ScriptRun W (f :: fs) s c s2
  | failed {f : String} {fs : List String} {text : List Char} {s s1 : St} {er : Err} : W.readFile s.tick f = .ok text →
    TextRun W text { s with tick := s.tick + 1 } (.failed er) s1 →
    ScriptRun W (f :: fs) s 1 { s1 with out := s1.out ++ ("ERROR:\n".toList ++ er.str ++ ['\n']) }
  | stopped {f : String} {fs : List String} {text : List Char} {s s1 : St} {c : Nat} : W.readFile s.tick f = .ok text →
    TextRun W text { s with tick := s.tick + 1 } (.stopped c) s1 → ScriptRun W (f :: fs) s c s1

/-- `-e text`. -/
inductive ExprRun (W : World) (text : List Char) (s : St) : Nat → St → Prop
  | finished {s1 : St} : TextRun W text s .finished s1 → ExprRun W text s 0 s1
  | failed {er : Err} {s1 : St} : TextRun W text s (.failed er) s1 → ExprRun W text s 1 { s1 with out := s1.out ++ (er.str ++ ['\n']) }
  | stopped {c : Nat} {s1 : St} : TextRun W text s (.stopped c) s1 → ExprRun W text s c s1

end L1
