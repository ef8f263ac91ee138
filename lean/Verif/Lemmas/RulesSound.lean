import Verif.Lemmas.Rules
/-
Every derivation is an outcome of the interpreter.
-/
set_option autoImplicit false
namespace L1

/-- What the interpreter does for each job. -/
noncomputable def denote (W : World) : Job → M Val
  | .eval x e => perform W (.eval x e)
  | .plain x e => evExpr (perform W) (perform W) x e
  | .expand x e => perform W (.mexpand x e)
  | .expand1 x e => mexpand1 (perform W) x e
  | .special f x e => evSpecial (perform W) (perform W) f x e
  | .args xs e => evArgs (perform W) e xs >>= fun vs => pure (vlist vs)
  | .body fr xs e => evBodyTail (perform W) (perform W) fr e xs
  | .seq fr bad ret xs e => seqM (perform W) fr bad e ret xs
  | .bind ps r vs e => bindArgs e ps r vs >>= fun _ => pure .nil
  | .names ps vs e => bindParams e ps vs >>= fun _ => pure .nil
  | .call f vs e => evApply (perform W) (perform W) f vs e
  | .native b vs e => perform W (.builtin b vs e)
  | .attempt ret er xs e => evTry (perform W) e ret er xs
  | .catching ret er c e => evCatch (perform W) e ret er c
  | .errors all sig xs e => evErrorsLoop (perform W) e all sig xs
  | .tests xs e => evTestLoop (perform W) e xs >>= fun _ => pure .nil
  | .binds ne bs e => evLetBinds (perform W) e ne bs >>= fun b => pure (vBool b)
  | .forms xs e => evalExprs (perform W) false e xs >>= fun _ => pure .nil
  | .sort f how xs er e => sortRun (perform W) f e how xs er >>= sortEnd
  | .less f a b e => sortByLess (perform W) f e a b >>= fun b => pure (vBool b)

theorem obs_eval (W : World) (x : Val) (e : Nat) (s : St) : obs (perform W (.eval x e)) s = obs (evalStep (perform W) (perform W) x e) s := by
  rw [perform_eq]; rfl
theorem obs_mexpand (W : World) (x : Val) (e : Nat) (s : St) : obs (perform W (.mexpand x e)) s = obs (mexpandStep (perform W) (perform W) x e) s := by
  rw [perform_eq]; rfl
theorem obs_loop (W : World) (x : Val) (e : Nat) (s : St) : obs (perform W (.loop x e)) s = obs (evLoopBody (perform W) e x >>= fun _ => perform W (.loop x e)) s := by
  conv => lhs; rw [perform_eq]
  rfl
theorem obs_builtin (W : World) (b : BI) (vs : List Val) (e : Nat) (s : St) : obs (perform W (.builtin b vs e)) s = obs (biFn W (perform W) b vs e) s := by
  rw [perform_eq]; rfl

section
variable {α : Type}
theorem mapped_ok {m : M α} {g : α → Val} {s s' : St} {v : Val} (h : obs (m >>= fun a => pure (g a)) s = some (.ok v, s')) :
    ∃ a, obs m s = some (.ok a, s') ∧ v = g a := by
  rcases bind_inv h with ⟨hl, _, h2⟩ | ⟨a, s1, h1, h2⟩
  · cases h2
  · cases h2; exact ⟨a, h1, rfl⟩
theorem mapped_error {m : M α} {g : α → Val} {s s' : St} {hl : Halt} (h : obs (m >>= fun a => pure (g a)) s = some (.error hl, s')) :
    obs m s = some (.error hl, s') := by
  rcases bind_inv h with ⟨hl, h1, h2⟩ | ⟨a, s1, h1, h2⟩
  · cases h2; exact h1
  · cases h2
end

theorem loopBody_of_seq (call : Task → M Val) (e : Nat) (x : Val) : ∀ (ret : Val) (s : St),
    (∀ v s', obs (seqM call "loop operator" (.crashed "interface conversion") e ret x) s = some (.ok v, s') → obs (evLoopBody call e x) s = some (.ok (), s')) ∧
    ∀ hl s', obs (seqM call "loop operator" (.crashed "interface conversion") e ret x) s = some (.error hl, s') → obs (evLoopBody call e x) s = some (.error hl, s') := by
  induction x with
  | nil => intro ret s; exact ⟨fun v s' h => by cases h; rfl, fun hl s' h => by cases h⟩
  | cons a d _ ih =>
    intro ret s
    unfold seqM evLoopBody
    constructor
    · intro v s' h
      rcases extb_inv h with ⟨hl, h1, h2⟩ | ⟨w, s1, h1, h2⟩
      · cases h2
      · rw [obs_bind, obs_extend, h1]; exact (ih w s1).1 _ _ h2
    · intro hl s' h
      rcases extb_inv h with ⟨hl, h1, h2⟩ | ⟨w, s1, h1, h2⟩
      · cases h2; rw [obs_bind, obs_extend, h1]; rfl
      · rw [obs_bind, obs_extend, h1]; exact (ih w s1).2 _ _ h2
  | _ => intro ret s; exact ⟨fun v s' h => (nomatch h), fun hl s' h => by cases h; rfl⟩

theorem outcome_inj {α : Type} {r r' : Res α} {p : Except Halt α × St} (h : r.outcome = some p) (h' : r'.outcome = some p) : r = r' := by
  cases r <;> simp only [Res.outcome, Option.some.injEq, reduceCtorEq] at h <;>
  cases r' <;> simp only [Res.outcome, Option.some.injEq, reduceCtorEq] at h' <;> subst h <;> simp_all

theorem evExpr_call {call tail : Task → M Val} {f d : Val} {e : Nat} (hf : ∀ sf : SF, f ≠ .atom sf.name) (hd : d.isList = true) :
    evExpr call tail (.cons f d) e = evCall call tail f d e := by
  unfold evExpr
  simp only [hd, if_true]
  cases f with
  | atom a => simp only [specialOf_none (a := a) (fun sf h => hf sf (by rw [h]))]
  | _ => rfl

theorem evBodyTail_more {call tail : Task → M Val} {fr : Val → Val} {e : Nat} {a d : Val} (hd : d ≠ .nil) :
    evBodyTail call tail fr e (.cons a d) = extendWith (fr a) (call (.eval a e)) >>= fun _ => evBodyTail call tail fr e d := by
  cases d with
  | nil => exact absurd rfl hd
  | _ => rfl

theorem startsWith_other {a : Val} (h : ∀ c, a ≠ .cons (.atom "catch") c) : startsWith a "catch" = false := by
  cases hs : startsWith a "catch" with
  | false => rfl
  | true => obtain ⟨c, hc⟩ := startsWith_catch.1 hs; exact absurd hc (h c)

theorem applyFn_snoc {call : Task → M Val} (f : Val) (vs : List Val) (l : Val) (e : Nat) :
    applyFn call (f :: vs ++ [l]) e = if l.isList then (match l.toList? with
      | none => extend "apply" (throwBase (consToExprsErr l))
      | some xs => applyTo call f (vs ++ xs) e) else throwBase (fmt1 "'" l "' is not a list") := by
  cases vs with
  | nil => rfl
  | cons v vs =>
    have h1 : (v :: (vs ++ [l])).getLast (by simp) = l := by
      rw [List.getLast_cons (by simp)]; simp
    have h2 : (v :: (vs ++ [l])).dropLast = v :: vs := by
      rw [show v :: (vs ++ [l]) = (v :: vs) ++ [l] from rfl]; exact List.dropLast_concat
    simp only [List.cons_append, applyFn, h1, h2]; rfl

/-- Evaluators whose outcomes are outcomes of the interpreter. -/
theorem listing_sound {W : World} {call : Task → M Val} (h : ∀ t s o s', obs (call t) s = some (o, s') → obs (perform W t) s = some (o, s'))
    {b : BI} {vs : List Val} {e : Nat} {s s' : St} {o : Except Halt Val} (hb : obs (biFn W call b vs e) s = some (o, s')) :
    obs (biFn W (perform W) b vs e) s = some (o, s') := by
  have hle : ∀ t, Le ((true : Bool) : Bot) (call t) (perform W t) := by
    intro t s
    match ho : obs (call t) s with
    | some (o, s') => exact .inr (outcome_inj ho (h _ _ _ _ ho))
    | none =>
      left
      unfold obs at ho
      cases hr : call t s <;> rw [hr] at ho <;> first | exact trivial | rfl | (cases ho; done)
  rcases le_biFn hle b vs e s with h1 | h1
  · unfold obs at hb
    cases hr : biFn W call b vs e s <;> rw [hr] at h1 hb <;> first | exact False.elim h1 | (cases hb; done)
  · unfold obs at hb ⊢; rw [← h1]; exact hb

theorem rules_sound {W : World} {j : Job} {s s' : St} {o : Except Halt Val} (h : Runs W j s o s') : obs (denote W j) s = some (o, s') := by
  induction h
  case eval_plain hm _ ih =>
    simp only [denote] at ih ⊢
    rw [obs_eval]; unfold evalStep
    rw [obs_bind, obs_macro, obind_ok, notMacroCall_iff.1 hm]; exact ih
  case eval_macro hm _ _ ih1 ih2 =>
    simp only [denote] at ih1 ih2 ⊢
    rw [obs_eval]; unfold evalStep
    rw [obs_bind, obs_macro, obind_ok, macroCall_iff.1 hm, if_pos rfl, obs_bind, obs_extend, ih1]; exact ih2
  case eval_halt hm _ ih1 =>
    simp only [denote] at ih1 ⊢
    rw [obs_eval]; unfold evalStep
    rw [obs_bind, obs_macro, obind_ok, macroCall_iff.1 hm, if_pos rfl, obs_bind, obs_extend, ih1]; rfl
  case expand_done hm ih =>
    simp only [denote] at ih ⊢
    rw [obs_mexpand]; unfold mexpandStep
    rw [obs_bind, obs_extend, ih, oext_ok, obind_ok, obs_bind, obs_macro, obind_ok, notMacroCall_iff.1 hm]; rfl
  case expand_more hm _ ih ih2 =>
    simp only [denote] at ih ih2 ⊢
    rw [obs_mexpand]; unfold mexpandStep
    rw [obs_bind, obs_extend, ih, oext_ok, obind_ok, obs_bind, obs_macro, obind_ok, macroCall_iff.1 hm]; exact ih2
  case expand_halt ih =>
    simp only [denote] at ih ⊢
    rw [obs_mexpand]; unfold mexpandStep
    rw [obs_bind, obs_extend, ih]; rfl
  case expand1_other hm =>
    simp only [denote]; unfold mexpand1
    rw [obs_bind, obs_macro, obind_ok, notMacroCall_iff.1 hm]; rfl
  case expand1_improper hl ha =>
    simp only [denote]; unfold mexpand1
    rw [obs_bind, obs_macro, obind_ok, macroCall_iff.1 ⟨_, _, _, _, _, _, _, rfl, hl⟩, if_pos rfl]
    simp only [obs_bind, obs_lookup, obind_ok, hl, ha]; rfl
  case expand1_bind hl _ ih =>
    simp only [denote] at ih ⊢; unfold mexpand1
    rw [obs_bind, obs_macro, obind_ok, macroCall_iff.1 ⟨_, _, _, _, _, _, _, rfl, hl⟩, if_pos rfl]
    simp only [obs_bind, obs_lookup, obind_ok, hl, toList?_vlist, obs_newEnv, obs_extend, mapped_error ih]; rfl
  case expand1 hl _ _ ih ih2 =>
    simp only [denote] at ih ih2 ⊢; unfold mexpand1
    obtain ⟨_, h1, _⟩ := mapped_ok ih
    rw [obs_bind, obs_macro, obind_ok, macroCall_iff.1 ⟨_, _, _, _, _, _, _, rfl, hl⟩, if_pos rfl]
    simp only [obs_bind, obs_lookup, obind_ok, hl, toList?_vlist, obs_newEnv, obs_extend, h1, oext_ok, evBodyMacro_seq, ih2]
  case num => rfl
  case nil => rfl
  case cxr h => simp only [denote, evExpr, h, if_true, obs_pure]
  case t => rfl
  case var h1 h2 h3 => simp only [denote, evExpr, h1, evAtom, h2, h3, obs_bind, obs_lookup, obind_ok, if_false, obs_pure, Bool.false_eq_true]
  case native_name h => simp only [denote, evExpr, isCxr_builtin, evAtom, builtin_ne_t, h, obs_bind, obs_lookup, obind_ok, if_false, obs_pure, Bool.false_eq_true, builtinOf_name]
  case unknown h1 h2 h3 h4 =>
    have : builtinOf _ = none := Option.eq_none_iff_forall_ne_some.2 fun b hb => h4 b (builtinOf_eq hb).symm
    simp only [denote, evExpr, h1, evAtom, h2, h3, obs_bind, obs_lookup, obind_ok, if_false, obs_base, Bool.false_eq_true, this]
  case function x e s h1 h2 h3 h4 =>
    cases x with
    | num n => exact absurd rfl (h1 n)
    | atom n => exact absurd rfl (h2 n)
    | nil => exact absurd rfl h3
    | cons a d => exact absurd rfl (h4 a d)
    | _ => rfl
  case malformed h => simp only [denote, evExpr, h, Bool.false_eq_true, if_false, obs_base]
  case special h _ ih => simp only [denote] at ih ⊢; simp only [evExpr, h, if_true, specialOf_name, ih]
  case head_halt hf hd _ ih =>
    simp only [denote] at ih ⊢; rw [evExpr_call hf hd]; unfold evCall
    rw [obs_bind, obs_extend, ih]; rfl
  case args_halt hf hd _ _ ih ih2 =>
    simp only [denote] at ih ih2 ⊢; rw [evExpr_call hf hd]; unfold evCall
    rw [obs_bind, obs_extend, ih, oext_ok, obind_ok, obs_bind, mapped_error ih2]; rfl
  case apply hf hd _ _ _ ih ih2 ih3 =>
    simp only [denote] at ih ih2 ih3 ⊢; rw [evExpr_call hf hd]; unfold evCall
    obtain ⟨vs', h1, h2⟩ := mapped_ok ih2
    obtain rfl := vlist_inj h2
    rw [obs_bind, obs_extend, ih, oext_ok, obind_ok, obs_bind, h1]; exact ih3
  case arg_none => rfl
  case arg_halt ih => simp only [denote] at ih ⊢; simp only [evArgs, obs_bind, obs_extend, ih]; rfl
  case arg_rest_halt ih ih2 => simp only [denote] at ih ih2 ⊢; simp only [evArgs, obs_bind, obs_extend, ih, oext_ok, obind_ok, mapped_error ih2, obind_error]
  case arg ih ih2 =>
    simp only [denote] at ih ih2 ⊢
    obtain ⟨vs', h1, rfl⟩ := mapped_ok ih2
    simp only [evArgs, obs_bind, obs_extend, ih, oext_ok, obind_ok, h1, obs_pure]; rfl
  case arg_improper x _ _ h => cases x <;> first | rfl | (cases h; done)
  case call_bind ih =>
    simp only [denote] at ih ⊢
    simp only [evApply, obs_bind, obs_newEnv, obind_ok, obs_extend, mapped_error ih]; rfl
  case call ih ih2 =>
    simp only [denote] at ih ih2 ⊢
    obtain ⟨_, h1, _⟩ := mapped_ok ih
    simp only [evApply, obs_bind, obs_newEnv, obind_ok, obs_extend, h1, oext_ok]; exact ih2
  case call_native ih => simp only [denote] at ih ⊢; simp only [evApply, obs_extend, ih, oext_ok]
  case call_native_halt ih => simp only [denote] at ih ⊢; simp only [evApply, obs_extend, ih]; rfl
  case call_other f _ _ _ h1 h2 =>
    cases f with
    | lam ps r body doc m env => exact absurd rfl (h1 ps r body doc m env)
    | bi b => exact absurd rfl (h2 b)
    | _ => rfl
  case bind_few ps r vs e s h =>
    simp only [denote, bindArgs]
    by_cases hr : r = ""
    · rw [if_neg (by simpa using hr), if_neg (by omega), if_pos h]; rfl
    · rw [if_pos hr, if_pos h]; rfl
  case bind_many h => simp only [denote, bindArgs]; rw [if_neg (by simp), if_pos h]; rfl
  case bind_exact h _ ih => simp only [denote] at ih ⊢; simp only [bindArgs]; rw [if_neg (by simp), if_neg (by omega), if_neg (by omega)]; exact ih
  case bind_rest_t h => simp only [denote, bindArgs]; rw [if_pos (by decide), if_neg (by omega), obs_bind, obs_bind, obs_set_t]; rfl
  case bind_rest h1 h2 h3 _ ih =>
    simp only [denote] at ih ⊢; simp only [bindArgs]
    rw [if_pos h1, if_neg (by omega), obs_bind, obs_bind, obs_set h2, obind_ok]; rw [obs_bind] at ih; exact ih
  case names_none ps vs e s h =>
    simp only [denote]
    cases ps <;> cases vs <;> first | rfl | simp at h
  case names_t => rfl
  case names h _ ih =>
    simp only [denote] at ih ⊢; simp only [bindParams]
    rw [obs_bind, obs_bind, obs_extend, obs_set h, oext_ok, obind_ok]; rw [obs_bind] at ih; exact ih
  case body_none => rfl
  case body_last ih => exact ih
  case body_halt d _ _ _ _ hd _ ih => simp only [denote] at ih ⊢; rw [evBodyTail_more hd, obs_bind, obs_extendWith, ih]; rfl
  case body_next hd _ _ ih ih2 => simp only [denote] at ih ih2 ⊢; rw [evBodyTail_more hd, obs_bind, obs_extendWith, ih]; exact ih2
  case body_improper x _ _ h => cases x <;> first | rfl | (cases h; done)
  case seq_none => rfl
  case seq_halt ih => simp only [denote] at ih ⊢; simp only [seqM, obs_bind, obs_extend, ih]; rfl
  case seq_next ih ih2 => simp only [denote] at ih ih2 ⊢; simp only [seqM, obs_bind, obs_extend, ih]; exact ih2
  case seq_improper fr bad ret x e s h => cases x <;> first | exact obs_halt _ _ | (cases h; done)
  case quote => rfl
  case quote_none x _ _ h => cases x <;> first | exact absurd rfl (h _ _) | rfl
  case template h _ ih => simp only [denote] at ih ⊢; simp only [evSpecial, h, ih]
  case template_crash h => simp only [denote, evSpecial, h, obs_crash]
  case template_none x _ _ h => cases x <;> first | exact absurd rfl (h _ _) | rfl
  case lambda h => exact h
  case cond_none => rfl
  case cond_halt ih => simp only [denote] at ih ⊢; simp only [evSpecial, evCond, obs_bind, obs_extend, ih]; rfl
  case cond_false ih ih2 => simp only [denote] at ih ih2 ⊢; simp only [evSpecial, evCond, obs_bind, obs_extend, ih, oext_ok, obind_ok, if_true] at ih2 ⊢; exact ih2
  case cond_true hv _ ih ih2 => simp only [denote] at ih ih2 ⊢; simp only [evSpecial, evCond, obs_bind, obs_extend, ih, oext_ok, obind_ok, hv, if_false]; exact ih2
  case cond_empty b _ _ _ _ _ _ hv hb ih =>
    simp only [denote] at ih ⊢; simp only [evSpecial, evCond, obs_bind, obs_extend, ih, oext_ok, obind_ok, hv, if_false]
    cases b <;> first | exact absurd rfl (hb _ _) | rfl
  case cond_bad c _ _ _ h => cases c <;> first | exact absurd rfl (h _ _) | rfl
  case cond_improper x _ _ h => cases x <;> first | rfl | (cases h; done)
  case and_none => rfl
  case and_halt ih => simp only [denote] at ih ⊢; simp only [evSpecial, evAnd, obs_bind, obs_extend, ih]; rfl
  case and_false ih => simp only [denote] at ih ⊢; simp only [evSpecial, evAnd, obs_bind, obs_extend, ih]; rfl
  case and_true hv _ ih ih2 => simp only [denote] at ih ih2 ⊢; simp only [evSpecial, evAnd, obs_bind, obs_extend, ih, oext_ok, obind_ok, hv, if_false] at ih2 ⊢; exact ih2
  case and_improper x _ _ h => cases x <;> first | rfl | (cases h; done)
  case or_none => rfl
  case or_halt ih => simp only [denote] at ih ⊢; simp only [evSpecial, evOr, obs_bind, obs_extend, ih]; rfl
  case or_true hv ih => simp only [denote] at ih ⊢; simp only [evSpecial, evOr, obs_bind, obs_extend, ih, oext_ok, obind_ok, ne_eq, hv, not_false_eq_true, if_true]; rfl
  case or_false ih ih2 => simp only [denote] at ih ih2 ⊢; simp only [evSpecial, evOr, obs_bind, obs_extend, ih, oext_ok, obind_ok] at ih2 ⊢; exact ih2
  case or_improper x _ _ h => cases x <;> first | rfl | (cases h; done)
  case loop_halt ih =>
    simp only [denote] at ih ⊢; simp only [evSpecial]
    rw [obs_loop, obs_bind, (loopBody_of_seq _ _ _ _ _).2 _ _ ih]; rfl
  case loop_next ih ih2 =>
    simp only [denote] at ih ih2 ⊢; simp only [evSpecial] at ih2 ⊢
    rw [obs_loop, obs_bind, (loopBody_of_seq _ _ _ _ _).1 _ _ ih]; exact ih2
  case def_ hx ih => simp only [denote] at ih ⊢; simp only [evSpecial, evDef, obs_bind, obs_extend, ih, oext_ok, obind_ok, obs_setTop, obs_set hx, obs_pure]
  case def_t ih => simp only [denote] at ih ⊢; simp only [evSpecial, evDef, obs_bind, obs_extend, ih, oext_ok, obind_ok, obs_setTop, obs_set_t]; rfl
  case def_halt ih => simp only [denote] at ih ⊢; simp only [evSpecial, evDef, obs_bind, obs_extend, ih]; rfl
  case def_few d _ _ h => cases d <;> first | exact absurd rfl (h _ _) | rfl
  case def_bad x d _ _ h => cases x <;> first | exact absurd rfl (h _) | rfl
  case def_none x _ _ h => cases x <;> first | exact absurd rfl (h _ _) | rfl
  case set hx ho ih => simp only [denote] at ih ⊢; simp only [evSpecial, evSet, obs_bind, obs_extend, ih, oext_ok, obind_ok, obs_update hx _ ho, obs_pure]
  case set_unbound hx ho ih => simp only [denote] at ih ⊢; simp only [evSpecial, evSet, obs_bind, obs_extend, ih, oext_ok, obind_ok, obs_update_none hx _ ho]; rfl
  case set_t ih => simp only [denote] at ih ⊢; simp only [evSpecial, evSet, obs_bind, obs_extend, ih, oext_ok, obind_ok, obs_update_t]; rfl
  case set_halt ih => simp only [denote] at ih ⊢; simp only [evSpecial, evSet, obs_bind, obs_extend, ih]; rfl
  case set_few d _ _ h => cases d <;> first | exact absurd rfl (h _ _) | rfl
  case set_nil => rfl
  case set_bad x d _ _ h h2 => cases x <;> first | exact absurd rfl (h _) | exact absurd rfl h2 | rfl
  case set_none x _ _ h => cases x <;> first | exact absurd rfl (h _ _) | rfl
  case defn h => exact h
  case defmacro h => exact h
  case let_binds_halt h1 h2 _ ih =>
    simp only [denote] at ih ⊢
    simp only [evSpecial, evLet, h1, h2, if_true, obs_bind, obs_newEnv, obind_ok, mapped_error ih, obind_error]
  case let_valueless h1 h2 _ ih =>
    simp only [denote] at ih ⊢
    obtain ⟨b, h3, h4⟩ := mapped_ok ih
    cases b with
    | true => cases h4
    | false => simp only [evSpecial, evLet, h1, h2, if_true, obs_bind, obs_newEnv, obind_ok, h3]; rfl
  case let_ h1 h2 _ _ ih ih2 =>
    simp only [denote] at ih ih2 ⊢
    obtain ⟨b, h3, h4⟩ := mapped_ok ih
    cases b with
    | false => cases h4
    | true => simp only [evSpecial, evLet, h1, h2, if_true, obs_bind, obs_newEnv, obind_ok, h3]; exact ih2
  case let_body h1 h2 => simp only [denote, evSpecial, evLet, h1, h2, if_true, Bool.false_eq_true, if_false, obs_base]
  case let_bad h1 => simp only [denote, evSpecial, evLet, h1, Bool.false_eq_true, if_false, obs_base]
  case let_none x _ _ h => cases x <;> first | exact absurd rfl (h _ _) | rfl
  case binds_none => rfl
  case binds_valueless => rfl
  case binds_halt ih => simp only [denote] at ih ⊢; simp only [evLetBinds, obs_bind, obs_extend, ih]; rfl
  case binds_t ih => simp only [denote] at ih ⊢; simp only [evLetBinds, obs_bind, obs_extend, ih, oext_ok, obind_ok, obs_set_t]; rfl
  case binds hx _ ih ih2 =>
    simp only [denote, obs_bind] at ih ih2 ⊢
    simp only [evLetBinds, obs_bind, obs_extend, ih, oext_ok, obind_ok, obs_set hx]; exact ih2
  case binds_bad b _ _ _ h => 
    cases b with
    | cons a d => cases a <;> first | exact absurd rfl (h _ _) | rfl
    | _ => rfl
  case binds_dotted y _ _ _ h => cases y <;> first | rfl | (cases h; done)
  case binds_improper x _ _ h => cases x <;> first | rfl | (cases h; done)
  case error ih => simp only [denote] at ih ⊢; simp only [evSpecial, evError, obs_bind, obs_extend, ih]; rfl
  case error_halt ih => simp only [denote] at ih ⊢; simp only [evSpecial, evError, obs_bind, obs_extend, ih]; rfl
  case error_none x _ _ h => cases x <;> first | exact absurd rfl (h _ _) | rfl
  case swallow_none => rfl
  case swallow_error ih => simp only [denote] at ih ⊢; simp only [evSpecial, evSwallow, obs_bind, obs_attempt, ih]; rfl
  case swallow_halt h ih => simp only [denote] at ih ⊢; simp only [evSpecial, evSwallow, obs_bind, obs_attempt, ih, oatt_halt h, obind_error]
  case swallow_next ih ih2 => simp only [denote] at ih ih2 ⊢; simp only [evSpecial, evSwallow, obs_bind, obs_attempt, ih] at ih2 ⊢; exact ih2
  case swallow_improper x _ _ h => cases x <;> first | rfl | (cases h; done)
  case try_ ih => exact ih
  case try_value => rfl
  case try_error => rfl
  case try_unneeded => rfl
  case try_catch ih => exact ih
  case try_skip a _ _ _ _ _ h _ ih => simp only [denote] at ih ⊢; simp only [evTry, startsWith_other h, Bool.false_eq_true, if_false]; exact ih
  case try_next h _ _ ih ih2 => simp only [denote] at ih ih2 ⊢; simp only [evTry, startsWith_other h, Bool.false_eq_true, if_false, obs_bind, obs_attempt, ih]; exact ih2
  case try_fails h _ _ ih ih2 => simp only [denote] at ih ih2 ⊢; simp only [evTry, startsWith_other h, Bool.false_eq_true, if_false, obs_bind, obs_attempt, ih]; exact ih2
  case try_halt h _ h2 ih => simp only [denote] at ih ⊢; simp only [evTry, startsWith_other h, Bool.false_eq_true, if_false, obs_bind, obs_attempt, ih, oatt_halt h2, obind_error]
  case try_improper x _ _ h => cases x <;> first | rfl | (cases h; done)
  case catch_ hx _ ih =>
    simp only [denote] at ih ⊢
    simp only [evCatch, obs_bind, obs_newEnv, obind_ok, obs_attempt, obs_set hx, evCatchBody_seq]; exact ih
  case catch_t ih =>
    simp only [denote] at ih ⊢
    simp only [evCatch, obs_bind, obs_newEnv, obind_ok, obs_attempt, obs_set_t, evCatchBody_seq]; exact ih
  case catch_foreign => rfl
  case catch_bad x _ _ _ h => cases x <;> first | exact absurd rfl (h _) | rfl
  case catch_crash => rfl
  case catch_none x _ _ h => cases x <;> first | rfl | (cases h; done)
  case errors_bad h => simp only [denote, evSpecial, evErrors, h, Bool.false_eq_true, if_false, obs_base]
  case errors_halt h _ ih => simp only [denote] at ih ⊢; simp only [evSpecial, evErrors, h, if_true, obs_bind, obs_extend, ih]; rfl
  case errors_value h _ hv ih => simp only [denote] at ih ⊢; simp only [evSpecial, evErrors, h, if_true, obs_bind, obs_extend, ih, oext_ok, obind_ok, hv, Bool.false_eq_true, if_false, obs_base]
  case errors h _ hv _ ih ih2 => simp only [denote] at ih ih2 ⊢; simp only [evSpecial, evErrors, h, if_true, obs_bind, obs_extend, ih, oext_ok, obind_ok, hv, ih2]
  case errors_none x _ _ h => cases x <;> first | exact absurd rfl (h _ _) | rfl
  case errors_missing => rfl
  case errors_found h ih => simp only [denote] at ih ⊢; simp only [evErrorsLoop, obs_bind, obs_attempt, ih, oatt_failed, obind_ok, (containsC_iff _ _).2 h, if_true, obs_pure]
  case errors_other h ih => simp only [denote] at ih ⊢; simp only [evErrorsLoop, obs_bind, obs_attempt, ih, oatt_failed, obind_ok, mt (containsC_iff _ _).1 h]; rfl
  case errors_stop h ih => simp only [denote] at ih ⊢; simp only [evErrorsLoop, obs_bind, obs_attempt, ih, oatt_halt h, obind_error]
  case errors_next ih ih2 => simp only [denote] at ih ih2 ⊢; simp only [evErrorsLoop, obs_bind, obs_attempt, ih]; exact ih2
  case errors_improper x _ _ h => cases x <;> first | rfl | (cases h; done)
  case test_none x _ _ h => cases x <;> first | exact absurd rfl (h _ _) | rfl
  case test_halt ih => simp only [denote] at ih ⊢; simp only [evSpecial, evTest, obs_bind, obs_extend, ih]; rfl
  case test ih ih2 =>
    simp only [denote] at ih ih2 ⊢
    obtain ⟨_, h1, _⟩ := mapped_ok ih2
    simp only [evSpecial, evTest, obs_bind, obs_extend, ih, oext_ok, obind_ok, obs_print, h1, obs_pure]
  case test_fails ih ih2 =>
    simp only [denote] at ih ih2 ⊢
    simp only [evSpecial, evTest, obs_bind, obs_extend, ih, oext_ok, obind_ok, obs_print, mapped_error ih2]; rfl
  case tests_done => rfl
  case tests_halt ih => simp only [denote] at ih ⊢; simp only [evTestLoop, obs_bind, obs_extend, ih]; rfl
  case tests_next ih ih2 => simp only [denote, obs_bind] at ih ih2 ⊢; simp only [evTestLoop, obs_bind, obs_extend, ih, oext_ok, obind_ok, obs_print]; exact ih2
  case tests_improper x _ _ h => cases x <;> first | rfl | (cases h; done)
  case native hb h => simp only [denote]; rw [obs_builtin, biFn_leaf hb _ (fun _ _ => .oof)]; exact h
  case eval_native ih => simp only [denote] at ih ⊢; rw [obs_builtin]; exact ih
  case eval_arity vs _ _ h =>
    simp only [denote]; rw [obs_builtin]
    match vs, h with
    | [], _ => rfl
    | [_], h => exact absurd rfl h
    | _ :: _ :: _, _ => rfl
  case macroexpand ih => simp only [denote] at ih ⊢; rw [obs_builtin]; exact ih
  case macroexpand_arity vs _ _ h =>
    simp only [denote]; rw [obs_builtin]
    match vs, h with
    | [], _ => rfl
    | [_], h => exact absurd rfl h
    | _ :: _ :: _, _ => rfl
  case apply_few vs _ _ h =>
    simp only [denote]; rw [obs_builtin]
    match vs, h with
    | [], _ => rfl
    | [_], _ => rfl
    | _ :: _ :: _, h => simp at h; omega
  case apply_atom h => simp only [denote]; rw [obs_builtin]; simp only [biFn]; rw [applyFn_snoc]; simp only [h, Bool.false_eq_true, if_false]; rfl
  case apply_improper h h2 => simp only [denote]; rw [obs_builtin]; simp only [biFn]; rw [applyFn_snoc]; simp only [h, h2, if_true]; rfl
  case apply_bind ih =>
    simp only [denote] at ih ⊢; rw [obs_builtin]; simp only [biFn]; rw [applyFn_snoc]
    simp only [isList_vlist, toList?_vlist, if_true, applyTo, obs_bind, obs_newEnv, obind_ok, obs_extend, mapped_error ih]; rfl
  case apply_fn ih ih2 =>
    simp only [denote] at ih ih2 ⊢; rw [obs_builtin]; simp only [biFn]; rw [applyFn_snoc]
    obtain ⟨_, h1, _⟩ := mapped_ok ih
    simp only [isList_vlist, toList?_vlist, if_true, applyTo, obs_bind, obs_newEnv, obind_ok, obs_extend, h1, oext_ok, evBodyApply_seq]; exact ih2
  case apply_native ih =>
    simp only [denote] at ih ⊢; rw [obs_builtin]; simp only [biFn]; rw [applyFn_snoc]
    simp only [isList_vlist, toList?_vlist, if_true, applyTo, obs_extend, ih, oext_ok]
  case apply_native_halt ih =>
    simp only [denote] at ih ⊢; rw [obs_builtin]; simp only [biFn]; rw [applyFn_snoc]
    simp only [isList_vlist, toList?_vlist, if_true, applyTo, obs_extend, ih]; rfl
  case apply_other f _ _ _ _ h1 h2 =>
    simp only [denote]; rw [obs_builtin]; simp only [biFn]; rw [applyFn_snoc]
    simp only [isList_vlist, toList?_vlist, if_true]
    cases f with
    | lam ps r body doc m env => exact absurd rfl (h1 ps r body doc m env)
    | bi b => exact absurd rfl (h2 b)
    | _ => rfl
  case load_arity vs _ _ h =>
    simp only [denote]; rw [obs_builtin]
    match vs, h with
    | [], _ => rfl
    | [_], h => exact absurd rfl h
    | _ :: _ :: _, _ => simp only [biFn, bLoad, obs_base]
  case load_bad v _ _ h =>
    simp only [denote]; rw [obs_builtin]
    cases v <;> first | exact absurd rfl (h _) | rfl
  case load_unreadable h => simp only [denote]; rw [obs_builtin]; simp only [biFn, bLoad, loadFile, obs_bind, obs_extend, obs_ask, obind_ok, h]; rfl
  case load_syntax h h2 => simp only [denote]; rw [obs_builtin]; simp only [biFn, bLoad, loadFile, lexParseEval, obs_bind, obs_extend, obs_ask, obind_ok, h, h2]; rfl
  case load_crash h h2 => simp only [denote]; rw [obs_builtin]; simp only [biFn, bLoad, loadFile, lexParseEval, obs_bind, obs_extend, obs_ask, obind_ok, h, h2]; rfl
  case load_halt h h2 _ ih =>
    simp only [denote] at ih ⊢; rw [obs_builtin]
    simp only [biFn, bLoad, loadFile, lexParseEval, obs_bind, obs_extend, obs_ask, obind_ok, h, h2, liftParse, obs_pure, mapped_error ih]; rfl
  case load h h2 _ ih =>
    simp only [denote] at ih ⊢; rw [obs_builtin]
    obtain ⟨_, h3, _⟩ := mapped_ok ih
    simp only [biFn, bLoad, loadFile, lexParseEval, obs_bind, obs_extend, obs_ask, obind_ok, h, h2, liftParse, obs_pure, h3, oext_ok]
  case forms_none => rfl
  case forms_halt h _ _ ih => 
    simp only [denote] at ih ⊢; simp only [evalExprs, obs_bind, obs_attempt, ih]
    cases h <;> rfl
  case forms_next ih ih2 => simp only [denote, obs_bind] at ih ih2 ⊢; simp only [evalExprs, obs_bind, obs_attempt, ih]; exact ih2
  case sort_arity vs _ _ h =>
    simp only [denote]; rw [obs_builtin]
    match vs, h with
    | [], _ => rfl
    | [_], _ => rfl
    | [_, _], h => exact absurd rfl h
    | _ :: _ :: _ :: _, _ => rfl
  case sort_atom h => simp only [denote]; rw [obs_builtin]; simp only [biFn, bSortBy, h, Bool.false_eq_true, if_false]; rfl
  case sort_improper h h2 => simp only [denote]; rw [obs_builtin]; simp only [biFn, bSortBy, h, h2, if_true]; rfl
  case sort ih =>
    simp only [denote] at ih ⊢; rw [obs_builtin]; simp only [biFn, bSortBy, isList_vlist, toList?_vlist, if_true]; exact ih
  case sort_done => rfl
  case sort_failed => rfl
  case sort_swap ih => exact ih
  case sort_outside i j y n xs er e s o s' h _ ih =>
    simp only [denote] at ih ⊢
    unfold sortRun
    rcases h with h | h
    · rw [h]; exact ih
    · rw [h]
      cases xs[i]? <;> exact ih
  case sort_yes h1 h2 _ hv _ ih ih2 =>
    simp only [denote] at ih ih2 ⊢
    obtain ⟨b, h3, h4⟩ := mapped_ok ih
    cases b with
    | false => exact absurd h4 hv
    | true => simp only [sortRun, h1, h2, obs_bind, obs_attempt, h3] at ih2 ⊢; exact ih2
  case sort_no h1 h2 _ _ ih ih2 =>
    simp only [denote] at ih ih2 ⊢
    obtain ⟨b, h3, h4⟩ := mapped_ok ih
    cases b with
    | true => cases h4
    | false => simp only [sortRun, h1, h2, obs_bind, obs_attempt, h3] at ih2 ⊢; exact ih2
  case sort_error h1 h2 _ _ ih ih2 =>
    simp only [denote] at ih ih2 ⊢
    simp only [sortRun, h1, h2, obs_bind, obs_attempt, mapped_error ih] at ih2 ⊢; exact ih2
  case sort_halt h1 h2 _ h3 ih =>
    simp only [denote] at ih ⊢
    simp only [sortRun, h1, h2, obs_bind, obs_attempt, mapped_error ih, oatt_halt h3, obind_error]
  case less_halt ih => simp only [denote] at ih ⊢; rw [obs_builtin] at ih; simp only [biFn] at ih; simp only [sortByLess, obs_bind, ih, obind_error]
  case less_halt2 ih ih2 =>
    simp only [denote] at ih ih2 ⊢; rw [obs_builtin] at ih ih2; simp only [biFn] at ih ih2
    simp only [sortByLess, obs_bind, ih, ih2, obind_ok, obind_error]
  case less_types hk ih ih2 =>
    simp only [denote] at ih ih2 ⊢; rw [obs_builtin] at ih ih2; simp only [biFn] at ih ih2
    simp only [sortByLess, obs_bind, ih, ih2, obind_ok, ne_eq, hk, not_false_eq_true, if_true, obs_base, obind_error]
  case less_unsortable va _ _ _ hk h1 h2 ih ih2 =>
    simp only [denote] at ih ih2 ⊢; rw [obs_builtin] at ih ih2; simp only [biFn] at ih ih2
    simp only [sortByLess, obs_bind, ih, ih2, obind_ok, ne_eq, hk, not_true_eq_false, if_false]
    cases va <;> first | exact absurd rfl (h1 _) | exact absurd rfl (h2 _) | rfl
  case less hk h1 ih ih2 =>
    simp only [denote] at ih ih2 ⊢; rw [obs_builtin] at ih ih2; simp only [biFn] at ih ih2
    simp only [sortByLess, obs_bind, ih, ih2, obind_ok, ne_eq, hk, not_true_eq_false, if_false]
    rcases h1 with ⟨n, rfl⟩ | ⟨n, rfl⟩ <;> rfl
  case listing hb _ h ih =>
    simp only [denote]; rw [obs_builtin]
    refine listing_sound (fun t s o s' h => ?_) h
    have := ih t s o s' h
    cases t <;> exact this

end L1
