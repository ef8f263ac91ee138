import Verif.Lemmas.RulesSound
/-
C86: the interpreter does exactly what the rules of the language say.
-/
set_option autoImplicit false
namespace L1

/-- Evaluating `x` in scope `e` ends with outcome `o` in state `s'` if and only if the rules say so.  (The interpreter jumps instead of calling for last expressions;
the rules do not mention that.) -/
theorem C86_rules (W : World) (x : Val) (e : Nat) (s : St) (o : Except Halt Val) (s' : St) :
    (eval W x e s).outcome = some (o, s') ↔ Runs W (.eval x e) s o s' :=
  ⟨fun h => good_perform _ _ _ _ h, fun h => rules_sound h⟩

/-- The same for the call of a native function with argument values. -/
theorem C86_native (W : World) (b : BI) (vs : List Val) (e : Nat) (s : St) (o : Except Halt Val) (s' : St) :
    (perform W (.builtin b vs e) s).outcome = some (o, s') ↔ Runs W (.native b vs e) s o s' :=
  ⟨fun h => good_perform _ _ _ _ h, fun h => rules_sound h⟩

/-- On a machine with some time and some stack, every outcome (other than running out of them) is one the rules give. -/
theorem C86_budgets (W : World) (n d : Nat) (x : Val) (e : Nat) (s : St) (o : Except Halt Val) (s' : St)
    (h : (evalIn W n d x e s).outcome = some (o, s')) : Runs W (.eval x e) s o s' :=
  good_run n d _ _ _ _ h

/-- Conversely, what the rules give is what any machine with enough time and stack does. -/
theorem C86_enough (W : World) (x : Val) (e : Nat) (s : St) (o : Except Halt Val) (s' : St) (h : Runs W (.eval x e) s o s') :
    ∃ k, ∀ n d, k ≤ n → k ≤ d → (evalIn W n d x e s).outcome = some (o, s') := by
  have h1 := rules_sound h
  have hne : perform W (.eval x e) s ≠ .oof := fun hh => by
    simp only [denote, obs, hh] at h1; cases h1
  obtain ⟨hd, k, hk⟩ := run_of_perform hne
  refine ⟨k, fun n d hn hdd => ?_⟩
  unfold evalIn
  rw [run_stable hn hdd (by rw [hk]; exact hd), hk]; exact h1

/-- The rules are not ambiguous: a job has at most one outcome. -/
theorem C86_determined {W : World} {j : Job} {s s1 s2 : St} {o1 o2 : Except Halt Val} (h1 : Runs W j s o1 s1) (h2 : Runs W j s o2 s2) : o1 = o2 ∧ s1 = s2 := by
  have := (rules_sound h1).symm.trans (rules_sound h2)
  cases this; exact ⟨rfl, rfl⟩

/-- Evaluation goes on for ever exactly when the rules give no outcome. -/
theorem C86_endless (W : World) (x : Val) (e : Nat) (s : St) : eval W x e s = .oof ↔ ¬ ∃ o s', Runs W (.eval x e) s o s' := by
  constructor
  · rintro h ⟨o, s', hr⟩
    have := (C86_rules W x e s o s').2 hr
    rw [h] at this; cases this
  · intro h
    match ho : (eval W x e s).outcome with
    | some (o, s') => exact absurd ⟨o, s', (C86_rules W x e s o s').1 ho⟩ h
    | none =>
      cases hr : eval W x e s with
      | oof => rfl
      | overflow s' => exact absurd hr perform_not_overflow
      | _ => rw [hr] at ho; cases ho

/-! The hypotheses are met -/

private theorem no_macro {s : St} (hs : s.heap = [⟨[], none⟩]) (x : Val) : ¬ MacroCall s 0 x := by
  rintro ⟨f, args, ps, r, body, doc, env, rfl, hl⟩
  rw [hs] at hl; cases hl

/-- `(cond (() 1) (t 2))` is 2, by the rules. -/
example (W : World) (s : St) (hs : s.heap = [⟨[], none⟩]) :
    Runs W (.eval (vlist [.atom "cond", vlist [.nil, .num 1], vlist [.atom "t", .num 2]]) 0) s (.ok (.num 2)) s :=
  .eval_plain (no_macro hs _) (.special (f := .cond) rfl (.cond_false (.eval_plain (no_macro hs _) .nil)
    (.cond_true (v := .atom "t") (.eval_plain (no_macro hs _) .t) (by simp) (.eval_plain (no_macro hs _) .num))))

/-- `(swallow (error 7) (exit))` is `t`, by the rules. -/
example (W : World) (s : St) (hs : s.heap = [⟨[], none⟩]) :
    Runs W (.eval (vlist [.atom "swallow", vlist [.atom "error", .num 7], vlist [.atom "exit"]]) 0) s (.ok (.atom "t")) s :=
  .eval_plain (no_macro hs _) (.special (f := .swallow) rfl (.swallow_error (er := .list (.cons (.num 7) .nil))
    (.eval_plain (no_macro hs _) (.special (f := .error) rfl (.error (.eval_plain (no_macro hs _) .num))))))

/-- `(loop)` has no outcome. -/
example (W : World) (s : St) (o : Except Halt Val) (s' : St) : ¬ Runs W (.special .loop .nil 0) s o s' := by
  intro h
  generalize hj : Job.special .loop .nil 0 = j at h
  induction h with
  | loop_halt h => cases hj; cases h; rename_i h; exact (nomatch h)
  | loop_next h h2 _ ih => cases hj; exact ih rfl
  | _ => cases hj

end L1
