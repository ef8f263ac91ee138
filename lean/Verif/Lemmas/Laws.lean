import Verif.Lemmas.Limit
import Verif.Lemmas.Scopes
import Verif.Props.Data
/- Equations for `eval`, one per kind of form; the property files build on them. -/
set_option autoImplicit false
namespace L1

theorem extendErr_under (f : Val) (e : Err) : extendErr f e = e.under f := by cases e <;> rfl

/-- Binding in the newest scope. -/
theorem heapSet_new (h : Heap) (f : Frame) (x : String) (v : Val) :
    heapSet (h ++ [f]) h.length x v = h ++ [{ f with syms := alSet x v f.syms }] := by
  unfold heapSet
  induction h with
  | nil => rfl
  | cons g h ih => simpa [List.modify] using ih

theorem eval_eq (W : World) (x : Val) (e : Nat) (s : St) :
    eval W x e s = evalStep (perform W) (perform W) x e s := by
  unfold eval; rw [perform_eq]; rfl

theorem perform_eval (W : World) (x : Val) (e : Nat) : perform W (.eval x e) = eval W x e := rfl

theorem evExpr_special {call tail : Task → M Val} {f : SF} {args : Val} {e : Nat} (hl : args.isList = true) :
    evExpr call tail (.cons (.atom f.name) args) e = evSpecial call tail f args e := by
  simp only [evExpr, hl, if_true, specialOf_name]

/-- A special form. -/
theorem eval_sf (W : World) (f : SF) (args : Val) (e : Nat) (s : St) (hm : NotMacro s.heap e f.name)
    (hl : args.isList = true) :
    eval W (.cons (.atom f.name) args) e s = evSpecial (perform W) (perform W) f args e s := by
  rw [eval_eq, evalStep_notMacro (notMacro_isMacroCall hm _), evExpr_special hl]

/-- A special form with a proper list of arguments. -/
theorem eval_sform (W : World) (f : SF) (xs : List Val) (e : Nat) (s : St) (hm : NotMacro s.heap e f.name) :
    eval W (form f.name xs) e s = evSpecial (perform W) (perform W) f (vlist xs) e s :=
  eval_sf W f _ e s hm (isList_vlist xs)

/-- A special form, by its name. -/
theorem eval_named (W : World) (f : SF) {name : String} {xs : List Val} {e : Nat} {s : St}
    (hm : NotMacro s.heap e name) (hn : name = f.name) :
    eval W (form name xs) e s = evSpecial (perform W) (perform W) f (vlist xs) e s := by
  subst hn; exact eval_sform W f xs e s hm

/-- The head of a function call: not the name of a special form or of a macro. -/
def CallHead (h : Heap) (e : Nat) : Val → Prop
  | .atom a => (∀ f : SF, a ≠ f.name) ∧ NotMacro h e a
  | _ => True

theorem specialOf_none {a : String} (h : ∀ f : SF, a ≠ f.name) : specialOf a = none := by
  unfold specialOf
  rw [List.find?_eq_none]
  intro f _
  simp only [beq_iff_eq]
  exact fun hh => h f hh.symm

/-- How to check `CallHead` for a concrete name. -/
theorem callHead_of {h : Heap} {e : Nat} {a : String} (h1 : specialOf a = none) (h2 : NotMacro h e a) : CallHead h e (.atom a) :=
  ⟨fun f hf => (by subst hf; rw [specialOf_name] at h1; cases h1), h2⟩

theorem specialOf_some {a : String} {f : SF} (h : specialOf a = some f) : a = f.name := by
  unfold specialOf at h
  have := List.find?_some h
  simpa using (beq_iff_eq.1 this).symm

theorem eval_call (W : World) (f : Val) (args : Val) (e : Nat) (s : St) (hf : CallHead s.heap e f)
    (hl : args.isList = true) :
    eval W (.cons f args) e s = evCall (perform W) (perform W) f args e s := by
  rw [eval_eq]
  cases f with
  | atom a =>
    obtain ⟨h1, h2⟩ := hf
    rw [evalStep_notMacro (notMacro_isMacroCall h2 _)]
    have : evExpr (perform W) (perform W) (.cons (.atom a) args) e = evCall (perform W) (perform W) (.atom a) args e := by
      simp only [evExpr, hl, if_true, specialOf_none h1]
    rw [this]
  | _ =>
    rw [evalStep_notMacro (by rfl)]
    simp only [evExpr, hl, if_true]

theorem evArgs_ok {W : World} {e : Nat} {xs vs : List Val} {s s' : St} (h : EvalsTo W e xs s vs s') :
    evArgs (perform W) e (vlist xs) s = .ok vs s' := by
  induction h with
  | nil => rfl
  | cons h1 _ ih =>
    simp only [vlist_cons, evArgs, perform_eval]
    rw [M.bind_ok (extend_ok h1), M.bind_ok ih]
    rfl

theorem evArgs_err {W : World} {e : Nat} {xs vs : List Val} {s s1 s2 : St} {x rest : Val} {er : Err}
    (h : EvalsTo W e xs s vs s1) (hx : eval W x e s1 = .err er s2) :
    evArgs (perform W) e (mkList xs (.cons x rest)) s
      = .err (er.under (msgList "evaluating function arguments")) s2 := by
  induction h with
  | nil =>
    simp only [mkList, List.foldr, evArgs, perform_eval]
    rw [M.bind_err (extend_err hx), extendErr_under]
  | cons h1 _ ih =>
    simp only [mkList, List.foldr, evArgs, perform_eval]
    rw [M.bind_ok (extend_ok h1)]; exact M.bind_err (ih hx)

/-- Bodies of functions and of `let`. -/
theorem evBodyTail_ok {W : World} {wrap : Val → Val} {e : Nat} {xs vs : List Val} {x : Val} {s s' : St}
    (h : EvalsTo W e xs s vs s') :
    evBodyTail (perform W) (perform W) wrap e (vlist (xs ++ [x])) s = eval W x e s' := by
  induction h with
  | nil => rfl
  | @cons y v ys vs s s1 s2 h1 _ ih =>
    rw [List.cons_append, vlist_cons]
    have hne : ∃ a d, vlist (ys ++ [x]) = .cons a d := by
      cases ys <;> exact ⟨_, _, rfl⟩
    obtain ⟨a, d, hd⟩ := hne
    rw [hd] at ih ⊢
    simp only [evBodyTail] at ih ⊢
    rw [M.bind_ok (extendWith_ok (by exact h1))]
    exact ih

theorem evBodyTail_err {W : World} {wrap : Val → Val} {e : Nat} {xs vs ys : List Val} {x y : Val} {s s1 s2 : St} {er : Err}
    (h : EvalsTo W e xs s vs s1) (hx : eval W x e s1 = .err er s2) :
    evBodyTail (perform W) (perform W) wrap e (vlist (xs ++ x :: y :: ys)) s = .err (er.under (wrap x)) s2 := by
  induction h with
  | nil =>
    simp only [List.nil_append, vlist_cons, evBodyTail]
    rw [M.bind_err (extendWith_err (by exact hx)), extendErr_under]
  | @cons z v zs vs s s1 s2 h1 _ ih =>
    rw [List.cons_append, vlist_cons]
    have hne : ∃ a d, vlist (zs ++ x :: y :: ys) = .cons a d := by
      cases zs <;> exact ⟨_, _, rfl⟩
    obtain ⟨a, d, hd⟩ := hne
    have ih := ih hx
    rw [hd] at ih ⊢
    simp only [evBodyTail] at ih ⊢
    rw [M.bind_ok (extendWith_ok (by exact h1))]
    exact ih

end L1
