import Verif.Model.Watch
/-
Private variables.  The variables of a set of scopes `P` are private when no scope outside `P` is nested in one of them and no closure
outside `P` captured one of them: nothing else can name them.
-/
set_option autoImplicit false
namespace L1

/-- No closure inside the value captured a scope of `P`. -/
def Val.Avoids (P : Nat → Prop) : Val → Prop
  | .cons a d => a.Avoids P ∧ d.Avoids P
  | .lam _ _ body doc _ env => ¬ P env ∧ body.Avoids P ∧ doc.Avoids P
  | _ => True

/-- The same for the value in an error. -/
def Err.Avoids (P : Nat → Prop) : Err → Prop
  | .list v => v.Avoids P
  | .foreign _ => True

/-- What is to be done is done outside `P`, with expressions and arguments that do not hold closures over `P`. -/
def Task.Avoids (P : Nat → Prop) : Task → Prop
  | .eval x e => ¬ P e ∧ x.Avoids P
  | .mexpand x e => ¬ P e ∧ x.Avoids P
  | .loop body e => ¬ P e ∧ body.Avoids P
  | .builtin _ args e => ¬ P e ∧ ∀ a ∈ args, a.Avoids P

/-- The scopes of `P` exist, and no other scope is nested in them or has a variable whose value holds a closure over them. -/
structure Private (P : Nat → Prop) (h : Heap) : Prop where
  exist : ∀ i, P i → i < h.length
  parent : ∀ (i : Nat) (f : Frame), h[i]? = some f → ¬ P i → ∀ p, f.parent = some p → ¬ P p
  vars : ∀ (i : Nat) (f : Frame), h[i]? = some f → ¬ P i → ∀ b ∈ f.syms, b.2.Avoids P

/-- The states agree in everything but the contents of the scopes of `P`. -/
structure SameBut (P : Nat → Prop) (s s' : St) : Prop where
  length : s'.heap.length = s.heap.length
  frame : ∀ i : Nat, ¬ P i → s'.heap[i]? = s.heap[i]?
  rest : s' = { s with heap := s'.heap }

/-- The two outcomes are of the same kind, with equal values or errors that hold no closure over `P`, and leave states that agree in everything
but the contents of the scopes of `P`. -/
def Res.SameBut (P : Nat → Prop) : Res Val → Res Val → Prop
  | .ok v s, .ok v' s' => v' = v ∧ v.Avoids P ∧ L1.SameBut P s s'
  | .err e s, .err e' s' => e' = e ∧ e.Avoids P ∧ L1.SameBut P s s'
  | .crash w s, .crash w' s' => w' = w ∧ L1.SameBut P s s'
  | .exit c s, .exit c' s' => c = c' ∧ L1.SameBut P s s'
  | .overflow s, .overflow s' => L1.SameBut P s s'
  | .oof, .oof => True
  | _, _ => False

end L1
