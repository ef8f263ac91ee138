import Verif.Spec.Eval
/- Specification of parameter passing. -/
set_option autoImplicit false
namespace L1

/-- The argument a call gives to the name `x`: that of the last parameter of that name; else, if `x` is the rest name, the list of the
arguments after the parameters. -/
def argFor (ps : List String) (r : String) (vs : List Val) (x : String) : Option Val :=
  match (ps.zip vs).reverse.lookup x with
  | some v => some v
  | none => if r ≠ "" ∧ x = r then some (vlist (vs.drop ps.length)) else none

/-- `s'` is `s` with one new scope inside the scope `parent`, which binds exactly the parameters to their arguments. -/
def CallScope (s s' : St) (parent : Nat) (ps : List String) (r : String) (vs : List Val) : Prop :=
  ∃ f : Frame, s' = { s with heap := s.heap ++ [f] } ∧ f.parent = some parent ∧ ∀ x, alGet x f.syms = argFor ps r vs x

/-- The bindings made by a call: the rest name first, then the parameters in order, a later one of the same name replacing an earlier one. -/
def paramSyms (ps : List String) (r : String) (vs : List Val) : List (String × Val) :=
  (ps.zip vs).foldl (fun l pv => alSet pv.1 pv.2 l) (if r = "" then [] else [(r, vlist (vs.drop ps.length))])

/-- The state in which the body of a function starts (`callScope_callSt` in Lemmas/Calls.lean: it satisfies `CallScope`). -/
def callSt (s : St) (parent : Nat) (ps : List String) (r : String) (vs : List Val) : St :=
  { s with heap := s.heap ++ [⟨paramSyms ps r vs, some parent⟩] }

/-- The number of arguments fits: exactly the parameters, or at least them if there is a rest name (`r ≠ ""`). -/
def ArityOk (ps : List String) (r : String) (vs : List Val) : Prop :=
  if r = "" then vs.length = ps.length else ps.length ≤ vs.length

/-- `t` is not among the parameters. -/
def NoT (ps : List String) (r : String) : Prop := "t" ∉ ps ∧ r ≠ "t"

/-- A call form reaches the point where the function value `f` is called with the argument values `vs`, in state `s1`. -/
def Reaches (W : World) (e : Nat) (fx : Val) (xs : List Val) (s : St) (f : Val) (vs : List Val) (s1 : St) : Prop :=
  ∃ s0, eval W fx e s = .ok f s0 ∧ EvalsTo W e xs s0 vs s1

/-- An error with several elements in front. -/
def Err.underAll (frames : List Val) (er : Err) : Err := frames.foldr Err.under er

/-- The two errors are the same, except that each may have one element in front of the same (non-empty) original error. -/
def SameButFront (er er' : Err) : Prop :=
  ∃ fr fr' orig, fr.length ≤ 1 ∧ fr'.length ≤ 1 ∧ orig ≠ .list .nil ∧ er = Err.underAll fr orig ∧ er' = Err.underAll fr' orig

/-- Two outcomes are the same, except that each of their errors may have one element in front of the same original error. -/
def SameOutcome : Res Val → Res Val → Prop
  | .ok v s, .ok v' s' => v = v' ∧ s = s'
  | .err er s, .err er' s' => s = s' ∧ SameButFront er er'
  | .crash w s, .crash w' s' => w = w' ∧ s = s'
  | .exit c s, .exit c' s' => c = c' ∧ s = s'
  | .overflow s, .overflow s' => s = s'
  | .oof, .oof => True
  | _, _ => False

end L1
