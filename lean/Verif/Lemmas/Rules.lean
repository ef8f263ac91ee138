import Verif.Spec.Rules
import Verif.Lemmas.Limit
import Verif.Lemmas.Laws
import Verif.Lemmas.Calls
import Verif.Props.Data
import Verif.Props.Forms
/-
Lemmas for the rules of the language: the outcome of a computation, step by step.
-/
set_option autoImplicit false
namespace L1

/-- The outcome of a computation begun in a state. -/
def obs {α : Type} (m : M α) (s : St) : Option (Except Halt α × St) := (m s).outcome

/-- Sequencing of outcomes. -/
def obind {α β : Type} (r : Option (Except Halt α × St)) (f : α → St → Option (Except Halt β × St)) : Option (Except Halt β × St) :=
  match r with
  | none => none
  | some (.ok a, s) => f a s
  | some (.error h, s) => some (.error h, s)

/-- A frame around an outcome. -/
def oext {α : Type} (fr : Val) (r : Option (Except Halt α × St)) : Option (Except Halt α × St) :=
  match r with
  | none => none
  | some (.ok a, s) => some (.ok a, s)
  | some (.error h, s) => some (.error (h.inside fr), s)

/-- An outcome inspected. -/
def oatt {α : Type} (r : Option (Except Halt α × St)) : Option (Except Halt (Except Err α) × St) :=
  match r with
  | none => none
  | some (.ok a, s) => some (.ok (.ok a), s)
  | some (.error (.failed e), s) => some (.ok (.error e), s)
  | some (.error (.crashed w), s) => some (.error (.crashed w), s)
  | some (.error (.ended c), s) => some (.error (.ended c), s)

/-- A computation that only halts. -/
def haltM {α : Type} : Halt → M α
  | .failed e => throwErr e
  | .crashed w => crash w
  | .ended c => exitM c

section
variable {α β : Type}

@[simp] theorem obs_pure (a : α) (s : St) : obs (pure a : M α) s = some (.ok a, s) := rfl
@[simp] theorem obs_halt (h : Halt) (s : St) : obs (haltM h : M α) s = some (.error h, s) := by cases h <;> rfl
@[simp] theorem obs_base (m : String) (s : St) : obs (throwBase m : M α) s = some (.error (fault m), s) := rfl
@[simp] theorem obs_user (v : Val) (s : St) : obs (throwUser v : M α) s = some (.error (.failed (.list (.cons v .nil))), s) := rfl
@[simp] theorem obs_foreign (m : String) (s : St) : obs (throwForeign m : M α) s = some (.error (.failed (.foreign m)), s) := rfl
@[simp] theorem obs_crash (m : String) (s : St) : obs (crash m : M α) s = some (.error (.crashed m), s) := rfl
@[simp] theorem obs_throw (e : Err) (s : St) : obs (throwErr e : M α) s = some (.error (.failed e), s) := rfl
@[simp] theorem obs_bind (m : M α) (f : α → M β) (s : St) : obs (m >>= f) s = obind (obs m s) (fun a s1 => obs (f a) s1) := by
  unfold obs; rw [M.bind_run]; cases m s <;> rfl
@[simp] theorem obs_extendWith (fr : Val) (m : M α) (s : St) : obs (extendWith fr m) s = oext fr (obs m s) := by
  unfold obs; rw [extendWith_run]
  cases m s with
  | err e s' => cases e <;> rfl
  | _ => rfl
@[simp] theorem obs_extend (msg : String) (m : M α) (s : St) : obs (extend msg m) s = oext (msgList msg) (obs m s) := obs_extendWith _ _ _
@[simp] theorem obs_attempt (m : M α) (s : St) : obs (attempt m) s = oatt (obs m s) := by
  unfold obs; rw [attempt_run]; cases m s <;> rfl
@[simp] theorem obs_lookup (e : Nat) (x : String) (s : St) : obs (lookupM e x) s = some (.ok (lookup s.heap e x), s) := rfl
@[simp] theorem obs_macro (x : Val) (e : Nat) (s : St) : obs (isMacroCallM x e) s = some (.ok (isMacroCallIn (lookup s.heap e) x), s) := rfl
@[simp] theorem obs_newEnv (e : Nat) (s : St) : obs (newEnvM e) s = some (.ok s.heap.length, withScope s e) := rfl
@[simp] theorem obs_print (cs : List Char) (s : St) : obs (printM cs) s = some (.ok (), wrote s cs) := rfl
@[simp] theorem obs_ask (f : Nat → α) (s : St) : obs (askM f) s = some (.ok (f s.tick), ticked s) := rfl
theorem obs_set_t (e : Nat) (v : Val) (s : St) : obs (setM e "t" v) s = some (.error (fault "cannot bind or set t"), s) := rfl
theorem obs_set {x : String} (h : x ≠ "t") (e : Nat) (v : Val) (s : St) : obs (setM e x v) s = some (.ok (), bound s e x v) := by
  unfold obs setM; rw [if_neg h]; rfl
theorem obs_setTop (e : Nat) (x : String) (v : Val) (s : St) : obs (setTopM e x v) s = obs (setM (root s.heap e) x v) s := rfl
theorem obs_update_t (e : Nat) (v : Val) (s : St) : obs (updateM e "t" v) s = some (.error (fault "cannot bind or set t"), s) := rfl
theorem obs_update {x : String} (h : x ≠ "t") {e o : Nat} (v : Val) {s : St} (ho : owner s.heap e x = some o) :
    obs (updateM e x v) s = some (.ok (), bound s o x v) := by
  unfold obs updateM; rw [if_neg h, ho]; rfl
theorem obs_update_none {x : String} (h : x ≠ "t") {e : Nat} (v : Val) {s : St} (ho : owner s.heap e x = none) :
    obs (updateM e x v) s = some (.error (fault (x ++ " is not bound in any environment")), s) := by
  unfold obs updateM; rw [if_neg h, ho]; rfl

@[simp] theorem obind_none (f : α → St → Option (Except Halt β × St)) : obind none f = none := rfl
@[simp] theorem obind_ok (a : α) (s : St) (f : α → St → Option (Except Halt β × St)) : obind (some (.ok a, s)) f = f a s := rfl
@[simp] theorem obind_error (h : Halt) (s : St) (f : α → St → Option (Except Halt β × St)) : obind (some (.error h, s)) f = some (.error h, s) := rfl
@[simp] theorem oext_none (fr : Val) : oext fr (none : Option (Except Halt α × St)) = none := rfl
@[simp] theorem oext_ok (fr : Val) (a : α) (s : St) : oext fr (some (.ok a, s)) = some (.ok a, s) := rfl
@[simp] theorem oext_error (fr : Val) (h : Halt) (s : St) : oext fr (some (.error h, s) : Option (Except Halt α × St)) = some (.error (h.inside fr), s) := rfl
@[simp] theorem oatt_none : oatt (none : Option (Except Halt α × St)) = none := rfl
@[simp] theorem oatt_ok (a : α) (s : St) : oatt (some (.ok a, s)) = some (.ok (.ok a), s) := rfl
@[simp] theorem oatt_failed (e : Err) (s : St) : oatt (some (.error (.failed e), s) : Option (Except Halt α × St)) = some (.ok (.error e), s) := rfl
theorem oatt_halt {h : Halt} (hh : ∀ e, h ≠ .failed e) (s : St) : oatt (some (.error h, s) : Option (Except Halt α × St)) = some (.error h, s) := by
  cases h with
  | failed e => exact absurd rfl (hh e)
  | _ => rfl

/-! Inversion -/

theorem bind_inv {m : M α} {f : α → M β} {s s' : St} {o : Except Halt β} (h : obs (m >>= f) s = some (o, s')) :
    (∃ hl, obs m s = some (.error hl, s') ∧ o = .error hl) ∨ ∃ a s1, obs m s = some (.ok a, s1) ∧ obs (f a) s1 = some (o, s') := by
  rw [obs_bind] at h
  match hm : obs m s with
  | none => rw [hm] at h; cases h
  | some (.ok a, s1) => rw [hm] at h; exact .inr ⟨a, s1, rfl, h⟩
  | some (.error hl, s1) => rw [hm] at h; cases h; exact .inl ⟨hl, rfl, rfl⟩

theorem ext_inv {fr : Val} {m : M α} {s s' : St} {o : Except Halt α} (h : obs (extendWith fr m) s = some (o, s')) :
    (∃ hl, obs m s = some (.error hl, s') ∧ o = .error (hl.inside fr)) ∨ ∃ a, obs m s = some (.ok a, s') ∧ o = .ok a := by
  rw [obs_extendWith] at h
  match hm : obs m s with
  | none => rw [hm] at h; cases h
  | some (.ok a, s1) => rw [hm] at h; cases h; exact .inr ⟨a, rfl, rfl⟩
  | some (.error hl, s1) => rw [hm] at h; cases h; exact .inl ⟨hl, rfl, rfl⟩

theorem extb_inv {fr : Val} {m : M α} {f : α → M β} {s s' : St} {o : Except Halt β} (h : obs (extendWith fr m >>= f) s = some (o, s')) :
    (∃ hl, obs m s = some (.error hl, s') ∧ o = .error (hl.inside fr)) ∨ ∃ a s1, obs m s = some (.ok a, s1) ∧ obs (f a) s1 = some (o, s') := by
  rcases bind_inv h with ⟨hl, h1, rfl⟩ | ⟨a, s1, h1, h2⟩
  · rcases ext_inv h1 with ⟨hl', h3, h2⟩ | ⟨a, _, h2⟩
    · cases h2; exact .inl ⟨hl', h3, rfl⟩
    · cases h2
  · rcases ext_inv h1 with ⟨hl', _, h3⟩ | ⟨a, h1, h3⟩
    · cases h3
    · cases h3; exact .inr ⟨_, _, h1, h2⟩

theorem attb_inv {m : M α} {f : Except Err α → M β} {s s' : St} {o : Except Halt β} (h : obs (attempt m >>= f) s = some (o, s')) :
    (∃ hl, obs m s = some (.error hl, s') ∧ (∀ e, hl ≠ .failed e) ∧ o = .error hl) ∨
    (∃ e s1, obs m s = some (.error (.failed e), s1) ∧ obs (f (.error e)) s1 = some (o, s')) ∨
    ∃ a s1, obs m s = some (.ok a, s1) ∧ obs (f (.ok a)) s1 = some (o, s') := by
  rw [obs_bind, obs_attempt] at h
  match hm : obs m s with
  | none => rw [hm] at h; cases h
  | some (.ok a, s1) => rw [hm] at h; exact .inr (.inr ⟨a, s1, rfl, h⟩)
  | some (.error (.failed e), s1) => rw [hm] at h; exact .inr (.inl ⟨e, s1, rfl, h⟩)
  | some (.error (.crashed w), s1) => rw [hm] at h; cases h; exact .inl ⟨_, rfl, by simp, rfl⟩
  | some (.error (.ended w), s1) => rw [hm] at h; cases h; exact .inl ⟨_, rfl, by simp, rfl⟩

theorem obs_ok_inv {a : α} {s s' : St} {o : Except Halt α} (h : some (Except.ok a, s) = some (o, s')) : o = .ok a ∧ s' = s := by cases h; exact ⟨rfl, rfl⟩
theorem obs_er_inv {hl : Halt} {s s' : St} {o : Except Halt α} (h : some (Except.error hl, s) = some (o, s')) : o = .error hl ∧ s' = s := by cases h; exact ⟨rfl, rfl⟩

end

theorem macroCall_iff {s : St} {e : Nat} {x : Val} : MacroCall s e x ↔ isMacroCallIn (lookup s.heap e) x = true := by
  constructor
  · rintro ⟨f, args, ps, r, body, doc, env, rfl, hl⟩
    simp [isMacroCallIn, hl]
  · intro h
    unfold isMacroCallIn at h
    split at h
    · rename_i f args
      split at h
      · rename_i ps r body doc m env hl
        subst h; exact ⟨f, args, ps, r, body, doc, env, rfl, hl⟩
      · cases h
    · cases h

theorem notMacroCall_iff {s : St} {e : Nat} {x : Val} : ¬ MacroCall s e x ↔ isMacroCallIn (lookup s.heap e) x = false := by
  rw [macroCall_iff]; simp

/-- A body evaluated in order, without tail call. -/
def seqM (call : Task → M Val) (fr : String) (bad : Halt) (e : Nat) (ret : Val) : Val → M Val
  | .nil => pure ret
  | .cons a d => do
    let v ← extend fr (call (.eval a e))
    seqM call fr bad e v d
  | _ => haltM bad

theorem evBodyApply_seq (call : Task → M Val) (e : Nat) (x ret : Val) :
    evBodyApply call e ret x = seqM call "apply" (.crashed "interface conversion") e ret x := by
  induction x generalizing ret with
  | cons a d _ ih => simp only [evBodyApply, seqM, ih]
  | _ => rfl
theorem evBodyMacro_seq (call : Task → M Val) (e : Nat) (x ret : Val) :
    evBodyMacro call e ret x = seqM call "evaluating macro expansion" (fault "macro body must be a list") e ret x := by
  induction x generalizing ret with
  | cons a d _ ih => simp only [evBodyMacro, seqM, ih]
  | _ => rfl
theorem evCatchBody_seq (call : Task → M Val) (e : Nat) (x ret : Val) :
    evCatchBody call e ret x = seqM call "catch body" (fault "catch body must be a list with a binding name") e ret x := by
  induction x generalizing ret with
  | cons a d _ ih => simp only [evCatchBody, seqM, ih]
  | _ => rfl

theorem builtinOf_eq {a : String} {b : BI} (h : builtinOf a = some b) : a = b.name := by
  unfold builtinOf at h
  have := List.find?_some h
  simpa using (beq_iff_eq.1 this).symm

theorem isList_cases {v : Val} (h : v.isList = false) : v ≠ .nil ∧ NotCons v := by
  cases v <;> simp_all [Val.isList, NotCons]

/-! ### Every outcome of the interpreter has a derivation -/

section
variable {W : World} {call tail : Task → M Val}

/-- An evaluator that follows the rules. -/
def Good (W : World) (call : Task → M Val) : Prop := ∀ t s o s', obs (call t) s = some (o, s') → Runs W t.job s o s'

theorem good_seq (hc : Good W call) {fr : String} {bad : Halt} {e : Nat} (x : Val) : ∀ {ret : Val} {s : St} {o : Except Halt Val} {s' : St},
    obs (seqM call fr bad e ret x) s = some (o, s') → Runs W (.seq fr bad ret x e) s o s' := by
  induction x with
  | nil => intro ret s o s' h; cases h; exact .seq_none
  | cons a d _ ih =>
    intro ret s o s' h
    unfold seqM at h
    rcases extb_inv h with ⟨hl, h1, rfl⟩ | ⟨v, s1, h1, h2⟩
    · exact .seq_halt (hc _ _ _ _ h1)
    · exact .seq_next (hc _ _ _ _ h1) (ih h2)
  | _ => intro ret s o s' h; simp only [seqM, obs_halt] at h; cases h; exact .seq_improper rfl

theorem good_args (hc : Good W call) {e : Nat} (x : Val) : ∀ {s : St} {o : Except Halt (List Val)} {s' : St},
    obs (evArgs call e x) s = some (o, s') → Runs W (.args x e) s (o.map vlist) s' := by
  induction x with
  | nil => intro s o s' h; cases h; exact .arg_none
  | cons a d _ ih =>
    intro s o s' h
    unfold evArgs at h
    rcases extb_inv h with ⟨hl, h1, rfl⟩ | ⟨v, s1, h1, h2⟩
    · exact .arg_halt (hc _ _ _ _ h1)
    · rcases bind_inv h2 with ⟨hl, h4, rfl⟩ | ⟨vs, s2, h4, h3⟩
      · exact .arg_rest_halt (hc _ _ _ _ h1) (ih h4)
      · cases h3; exact .arg (hc _ _ _ _ h1) (ih h4)
  | _ => intro s o s' h; cases h; exact .arg_improper rfl

theorem good_body (hc : Good W call) (ht : Good W tail) {fr : Val → Val} {e : Nat} (x : Val) : ∀ {s : St} {o : Except Halt Val} {s' : St},
    obs (evBodyTail call tail fr e x) s = some (o, s') → Runs W (.body fr x e) s o s' := by
  induction x with
  | nil => intro s o s' h; cases h; exact .body_none
  | cons a d _ ih =>
    intro s o s' h
    unfold evBodyTail at h
    split at h
    · exact .body_last (ht _ _ _ _ h)
    · rename_i hd
      rcases extb_inv h with ⟨hl, h1, rfl⟩ | ⟨v, s1, h1, h2⟩
      · exact .body_halt hd (hc _ _ _ _ h1)
      · exact .body_next hd (hc _ _ _ _ h1) (ih h2)
  | _ => intro s o s' h; cases h; exact .body_improper rfl

theorem good_loopBody (hc : Good W call) {e : Nat} (x : Val) : ∀ {ret : Val} {s : St} {o : Except Halt Unit} {s' : St},
    obs (evLoopBody call e x) s = some (o, s') → (o = .ok () ∧ ∃ v, Runs W (.seq "loop operator" (.crashed "interface conversion") ret x e) s (.ok v) s') ∨
      ∃ hl, o = .error hl ∧ Runs W (.seq "loop operator" (.crashed "interface conversion") ret x e) s (.error hl) s' := by
  induction x with
  | nil => intro ret s o s' h; cases h; exact .inl ⟨rfl, _, .seq_none⟩
  | cons a d _ ih =>
    intro ret s o s' h
    unfold evLoopBody at h
    rcases extb_inv h with ⟨hl, h1, rfl⟩ | ⟨v, s1, h1, h2⟩
    · exact .inr ⟨_, rfl, .seq_halt (hc _ _ _ _ h1)⟩
    · rcases ih (ret := v) h2 with ⟨rfl, w, h3⟩ | ⟨hl, rfl, h3⟩
      · exact .inl ⟨rfl, w, .seq_next (hc _ _ _ _ h1) h3⟩
      · exact .inr ⟨_, rfl, .seq_next (hc _ _ _ _ h1) h3⟩
  | _ => intro ret s o s' h; cases h; exact .inr ⟨_, rfl, .seq_improper rfl⟩

theorem good_names {e : Nat} (ps : List String) : ∀ {vs : List Val} {s : St} {o : Except Halt Unit} {s' : St},
    obs (bindParams e ps vs) s = some (o, s') → Runs W (.names ps vs e) s (o.map fun _ => .nil) s' := by
  induction ps with
  | nil => intro vs s o s' h; cases h; exact .names_none (.inl rfl)
  | cons p ps ih =>
    intro vs s o s' h
    cases vs with
    | nil => cases h; exact .names_none (.inr rfl)
    | cons v vs =>
      unfold bindParams at h
      by_cases hp : p = "t"
      · subst hp
        rw [obs_bind, obs_extend, obs_set_t] at h; cases h
        exact .names_t
      · rw [obs_bind, obs_extend, obs_set hp] at h
        exact .names hp (ih h)

theorem good_bind {e : Nat} {ps : List String} {r : String} {vs : List Val} {s : St} {o : Except Halt Unit} {s' : St}
    (h : obs (bindArgs e ps r vs) s = some (o, s')) : Runs W (.bind ps r vs e) s (o.map fun _ => .nil) s' := by
  unfold bindArgs at h
  split at h
  · rename_i hr
    split at h
    · cases h; exact .bind_few ‹_›
    · by_cases ht : r = "t"
      · subst ht
        rw [obs_bind, obs_set_t] at h; cases h
        exact .bind_rest_t (by omega)
      · rw [obs_bind, obs_set ht] at h
        exact .bind_rest hr ht (by omega) (good_names ps h)
  · rename_i hr
    have hr : r = "" := by simpa using hr
    subst hr
    split at h
    · cases h; exact .bind_many ‹_›
    · split at h
      · cases h; exact .bind_few ‹_›
      · exact .bind_exact (by omega) (good_names ps h)

theorem good_expand1 (hc : Good W call) {x : Val} {e : Nat} {s : St} {o : Except Halt Val} {s' : St} (h : obs (mexpand1 call x e) s = some (o, s')) :
    Runs W (.expand1 x e) s o s' := by
  unfold mexpand1 at h
  rw [obs_bind, obs_macro, obind_ok] at h
  by_cases hm : isMacroCallIn (lookup s.heap e) x = true
  · simp only [hm, if_true] at h
    obtain ⟨f, args, ps, r, body, doc, env, rfl, hl⟩ := macroCall_iff.2 hm
    simp only [obs_bind, obs_lookup, obind_ok, hl] at h
    match ha : args.toList? with
    | none => rw [ha] at h; cases h; exact .expand1_improper hl ha
    | some vs =>
      rw [ha] at h
      obtain rfl := toList?_eq_some.1 ha
      simp only [obs_bind, obs_newEnv, obind_ok] at h
      rw [← obs_bind] at h
      rcases extb_inv h with ⟨hl', h1, rfl⟩ | ⟨v, s1, h1, h2⟩
      · exact .expand1_bind hl (good_bind h1)
      · rw [evBodyMacro_seq] at h2
        exact .expand1 hl (good_bind h1) (good_seq hc _ h2)
  · simp only [hm] at h
    cases h; exact .expand1_other (mt macroCall_iff.1 hm)

theorem good_expand (hc : Good W call) (ht : Good W tail) {x : Val} {e : Nat} {s : St} {o : Except Halt Val} {s' : St}
    (h : obs (mexpandStep call tail x e) s = some (o, s')) : Runs W (.expand x e) s o s' := by
  unfold mexpandStep at h
  rcases extb_inv h with ⟨hl, h1, rfl⟩ | ⟨y, s1, h1, h2⟩
  · exact .expand_halt (good_expand1 hc h1)
  · rw [obs_bind, obs_macro, obind_ok] at h2
    by_cases hm : isMacroCallIn (lookup s1.heap e) y = true
    · simp only [hm, if_true] at h2
      exact .expand_more (good_expand1 hc h1) (macroCall_iff.2 hm) (ht _ _ _ _ h2)
    · simp only [hm] at h2
      cases h2; exact .expand_done (good_expand1 hc h1) (mt macroCall_iff.1 hm)

theorem good_cond (hc : Good W call) (ht : Good W tail) {e : Nat} (x : Val) : ∀ {s : St} {o : Except Halt Val} {s' : St},
    obs (evCond call tail e x) s = some (o, s') → Runs W (.special .cond x e) s o s' := by
  induction x with
  | nil => intro s o s' h; cases h; exact .cond_none
  | cons a d _ ih =>
    intro s o s' h
    unfold evCond at h
    split at h
    · rename_i c b
      rcases extb_inv h with ⟨hl, h1, rfl⟩ | ⟨v, s1, h1, h2⟩
      · exact .cond_halt (hc _ _ _ _ h1)
      · split at h2
        · rename_i hv; subst hv
          exact .cond_false (hc _ _ _ _ h1) (ih h2)
        · rename_i hv
          split at h2
          · exact .cond_true (hc _ _ _ _ h1) hv (ht _ _ _ _ h2)
          · rename_i hb
            cases h2; exact .cond_empty (hc _ _ _ _ h1) hv (fun a d h => hb a d h)
    · rename_i hb
      cases h; exact .cond_bad (fun a d h => hb a d h)
  | _ => intro s o s' h; cases h; exact .cond_improper rfl

theorem good_and (hc : Good W call) {e : Nat} (x : Val) : ∀ {s : St} {o : Except Halt Val} {s' : St},
    obs (evAnd call e x) s = some (o, s') → Runs W (.special .and x e) s o s' := by
  induction x with
  | nil => intro s o s' h; cases h; exact .and_none
  | cons a d _ ih =>
    intro s o s' h
    unfold evAnd at h
    rcases extb_inv h with ⟨hl, h1, rfl⟩ | ⟨v, s1, h1, h2⟩
    · exact .and_halt (hc _ _ _ _ h1)
    · split at h2
      · rename_i hv; subst hv; cases h2
        exact .and_false (hc _ _ _ _ h1)
      · exact .and_true (hc _ _ _ _ h1) ‹_› (ih h2)
  | _ => intro s o s' h; cases h; exact .and_improper rfl

theorem good_or (hc : Good W call) {e : Nat} (x : Val) : ∀ {s : St} {o : Except Halt Val} {s' : St},
    obs (evOr call e x) s = some (o, s') → Runs W (.special .or x e) s o s' := by
  induction x with
  | nil => intro s o s' h; cases h; exact .or_none
  | cons a d _ ih =>
    intro s o s' h
    unfold evOr at h
    rcases extb_inv h with ⟨hl, h1, rfl⟩ | ⟨v, s1, h1, h2⟩
    · exact .or_halt (hc _ _ _ _ h1)
    · split at h2
      · cases h2
        exact .or_true (hc _ _ _ _ h1) ‹_›
      · rename_i hv
        have hv : v = .nil := by simpa using hv
        subst hv
        exact .or_false (hc _ _ _ _ h1) (ih h2)
  | _ => intro s o s' h; cases h; exact .or_improper rfl

theorem good_swallow (hc : Good W call) {e : Nat} (x : Val) : ∀ {s : St} {o : Except Halt Val} {s' : St},
    obs (evSwallow call e x) s = some (o, s') → Runs W (.special .swallow x e) s o s' := by
  induction x with
  | nil => intro s o s' h; cases h; exact .swallow_none
  | cons a d _ ih =>
    intro s o s' h
    unfold evSwallow at h
    rcases attb_inv h with ⟨hl, h1, h3, rfl⟩ | ⟨er, s1, h1, h2⟩ | ⟨v, s1, h1, h2⟩
    · exact .swallow_halt (hc _ _ _ _ h1) h3
    · cases h2; exact .swallow_error (hc _ _ _ _ h1)
    · exact .swallow_next (hc _ _ _ _ h1) (ih h2)
  | _ => intro s o s' h; cases h; exact .swallow_improper rfl

theorem good_def (hc : Good W call) {e : Nat} {x : Val} {s : St} {o : Except Halt Val} {s' : St}
    (h : obs (evDef call e x) s = some (o, s')) : Runs W (.special .def_ x e) s o s' := by
  unfold evDef at h
  split at h
  · rename_i n a d
    rcases extb_inv h with ⟨hl, h1, rfl⟩ | ⟨v, s1, h1, h2⟩
    · exact .def_halt (hc _ _ _ _ h1)
    · by_cases hn : n = "t"
      · subst hn
        rw [obs_bind, obs_extend, obs_setTop, obs_set_t] at h2; cases h2
        exact .def_t (hc _ _ _ _ h1)
      · rw [obs_bind, obs_extend, obs_setTop, obs_set hn] at h2; cases h2
        exact .def_ (hc _ _ _ _ h1) hn
  · rename_i n d hd
    cases h; exact .def_few (fun a d' hh => hd _ _ (by rw [hh]))
  · rename_i a d h1 h2
    cases h; exact .def_bad (fun n hh => h2 n (by rw [hh]))
  · rename_i hh1 hh2 hh3
    cases h; exact .def_none (fun a d hh => hh3 a d hh)

theorem good_set (hc : Good W call) {e : Nat} {x : Val} {s : St} {o : Except Halt Val} {s' : St}
    (h : obs (evSet call e x) s = some (o, s')) : Runs W (.special .set x e) s o s' := by
  unfold evSet at h
  split at h
  · rename_i n a d
    rcases extb_inv h with ⟨hl, h1, rfl⟩ | ⟨v, s1, h1, h2⟩
    · exact .set_halt (hc _ _ _ _ h1)
    · by_cases hn : n = "t"
      · subst hn
        rw [obs_bind, obs_extend, obs_update_t] at h2; cases h2
        exact .set_t (hc _ _ _ _ h1)
      · match ho : owner s1.heap e n with
        | some w =>
          rw [obs_bind, obs_extend, obs_update hn _ ho] at h2; cases h2
          exact .set (hc _ _ _ _ h1) hn ho
        | none =>
          rw [obs_bind, obs_extend, obs_update_none hn _ ho] at h2; cases h2
          exact .set_unbound (hc _ _ _ _ h1) hn ho
  · rename_i n d hd
    cases h; exact .set_few (fun a d' hh => hd _ _ (by rw [hh]))
  · cases h; exact .set_nil
  · rename_i a d h1 h2 h3
    cases h; exact .set_bad (fun n hh => h2 n (by rw [hh])) (fun hh => h3 hh)
  · rename_i hh1 hh2 hh3 hh4
    cases h; exact .set_none (fun a d hh => hh4 a d hh)

theorem good_error (hc : Good W call) {e : Nat} {x : Val} {s : St} {o : Except Halt Val} {s' : St}
    (h : obs (evError call e x) s = some (o, s')) : Runs W (.special .error x e) s o s' := by
  unfold evError at h
  split at h
  · rcases extb_inv h with ⟨hl, h1, rfl⟩ | ⟨v, s1, h1, h2⟩
    · exact .error_halt (hc _ _ _ _ h1)
    · cases h2; exact .error (hc _ _ _ _ h1)
  · rename_i hh
    cases h; exact .error_none (fun a d h => hh a d h)

theorem good_errorsLoop (hc : Good W call) {e : Nat} {all : Val} {sig : List Char} (x : Val) : ∀ {s : St} {o : Except Halt Val} {s' : St},
    obs (evErrorsLoop call e all sig x) s = some (o, s') → Runs W (.errors all sig x e) s o s' := by
  induction x with
  | nil => intro s o s' h; cases h; exact .errors_missing
  | cons a d _ ih =>
    intro s o s' h
    unfold evErrorsLoop at h
    rcases attb_inv h with ⟨hl, h1, h3, rfl⟩ | ⟨er, s1, h1, h2⟩ | ⟨v, s1, h1, h2⟩
    · exact .errors_stop (hc _ _ _ _ h1) h3
    · dsimp only at h2
      split at h2
      · rename_i hh
        cases h2; exact .errors_found (hc _ _ _ _ h1) ((containsC_iff _ _).1 hh)
      · rename_i hh
        cases h2; exact .errors_other (hc _ _ _ _ h1) (mt (containsC_iff _ _).2 hh)
    · exact .errors_next (hc _ _ _ _ h1) (ih h2)
  | _ => intro s o s' h; cases h; exact .errors_improper rfl

theorem good_errors (hc : Good W call) {e : Nat} {x : Val} {s : St} {o : Except Halt Val} {s' : St}
    (h : obs (evErrors call e x) s = some (o, s')) : Runs W (.special .errors x e) s o s' := by
  unfold evErrors at h
  split at h
  · rename_i sig b
    split at h
    · rename_i hs
      rcases extb_inv h with ⟨hl, h1, rfl⟩ | ⟨v, s1, h1, h2⟩
      · exact .errors_halt hs (hc _ _ _ _ h1)
      · split at h2
        · exact .errors hs (hc _ _ _ _ h1) ‹_› (good_errorsLoop hc _ h2)
        · rename_i hv
          cases h2; exact .errors_value hs (hc _ _ _ _ h1) (by simpa using hv)
    · rename_i hs
      cases h; exact .errors_bad (by simpa using hs)
  · rename_i hh
    cases h; exact .errors_none (fun a d h => hh a d h)

theorem good_catch (hc : Good W call) {e : Nat} {ret : Val} {er : Err} {x : Val} {s : St} {o : Except Halt Val} {s' : St}
    (h : obs (evCatch call e ret er x) s = some (o, s')) : Runs W (.catching ret er x e) s o s' := by
  unfold evCatch at h
  split at h
  · rename_i n b
    simp only [obs_bind, obs_newEnv, obind_ok] at h
    cases er with
    | foreign m => cases h; exact .catch_foreign
    | list v =>
      simp only [obs_bind, obs_attempt, evCatchBody_seq] at h
      by_cases hn : n = "t"
      · subst hn
        rw [obs_set_t] at h
        exact .catch_t (good_seq hc _ h)
      · rw [obs_set hn] at h
        exact .catch_ hn (good_seq hc _ h)
  · rename_i a b hh
    cases h; exact .catch_bad (fun n h => hh n h)
  · cases h; exact .catch_crash
  · rename_i h1 h2 h3
    cases h
    refine .catch_none ?_
    cases x with
    | nil => exact absurd rfl h3
    | cons a d => exact absurd rfl (h2 a d)
    | _ => rfl

theorem startsWith_catch {a : Val} : startsWith a "catch" = true ↔ ∃ c, a = .cons (.atom "catch") c := by
  constructor
  · intro h
    unfold startsWith at h
    split at h
    · rename_i n c
      exact ⟨c, by rw [show n = "catch" by simpa using h]⟩
    · cases h
  · rintro ⟨c, rfl⟩; rfl

theorem good_try (hc : Good W call) {e : Nat} (x : Val) : ∀ {ret : Val} {er : Option Err} {s : St} {o : Except Halt Val} {s' : St},
    obs (evTry call e ret er x) s = some (o, s') → Runs W (.attempt ret er x e) s o s' := by
  induction x with
  | nil =>
    intro ret er s o s' h
    cases er with
    | none => cases h; exact .try_value
    | some er => cases h; exact .try_error
  | cons a d _ ih =>
    intro ret er s o s' h
    unfold evTry at h
    split at h
    · rename_i hs
      obtain ⟨c, rfl⟩ := startsWith_catch.1 hs
      cases er with
      | none => cases h; exact .try_unneeded
      | some er => exact .try_catch (good_catch hc h)
    · rename_i hs
      have hs : ∀ c, a ≠ .cons (.atom "catch") c := fun c hh => hs (startsWith_catch.2 ⟨c, hh⟩)
      cases er with
      | some er => exact .try_skip hs (ih h)
      | none =>
        rcases attb_inv h with ⟨hl, h1, h3, rfl⟩ | ⟨er, s1, h1, h2⟩ | ⟨v, s1, h1, h2⟩
        · exact .try_halt hs (hc _ _ _ _ h1) h3
        · exact .try_fails hs (hc _ _ _ _ h1) (ih h2)
        · exact .try_next hs (hc _ _ _ _ h1) (ih h2)
  | _ => intro ret er s o s' h; cases h; exact .try_improper rfl

theorem good_binds (hc : Good W call) {e ne : Nat} (x : Val) : ∀ {s : St} {o : Except Halt Bool} {s' : St},
    obs (evLetBinds call e ne x) s = some (o, s') → Runs W (.binds ne x e) s (o.map vBool) s' := by
  induction x with
  | nil => intro s o s' h; cases h; exact .binds_none
  | cons b d _ ih =>
    intro s o s' h
    unfold evLetBinds at h
    split at h
    · rename_i n bd _
      split at h
      · cases h; exact .binds_valueless
      · rcases extb_inv h with ⟨hl, h1, rfl⟩ | ⟨v, s1, h1, h2⟩
        · exact .binds_halt (hc _ _ _ _ h1)
        · by_cases hn : n = "t"
          · subst hn
            rw [obs_bind, obs_extend, obs_set_t] at h2; cases h2
            exact .binds_t (hc _ _ _ _ h1)
          · rw [obs_bind, obs_extend, obs_set hn] at h2
            exact .binds (hc _ _ _ _ h1) hn (ih h2)
      · rename_i h1 h2
        cases h
        refine .binds_dotted ?_
        cases bd with
        | nil => exact absurd rfl h1
        | cons a d => exact absurd rfl (h2 a d)
        | _ => rfl
    · rename_i hb
      cases h; exact .binds_bad (fun x b' h => hb x b' h)
  | _ => intro s o s' h; cases h; exact .binds_improper rfl

theorem good_let (hc : Good W call) (ht : Good W tail) {e : Nat} {x : Val} {s : St} {o : Except Halt Val} {s' : St}
    (h : obs (evLet call tail e x) s = some (o, s')) : Runs W (.special .let_ x e) s o s' := by
  unfold evLet at h
  split at h
  · rename_i bs b
    split at h
    · rename_i hbs
      split at h
      · rename_i hb
        rw [obs_bind, obs_newEnv, obind_ok] at h
        rcases bind_inv h with ⟨hl, h1, rfl⟩ | ⟨v, s1, h1, h2⟩
        · exact .let_binds_halt hbs hb (good_binds hc _ h1)
        · cases v with
          | true => exact .let_ hbs hb (good_binds hc _ h1) (good_body hc ht _ h2)
          | false => cases h2; exact .let_valueless hbs hb (good_binds hc _ h1)
      · rename_i hb
        cases h; exact .let_body hbs (by simpa using hb)
    · rename_i hbs
      cases h; exact .let_bad (by simpa using hbs)
  · rename_i hh
    cases h; exact .let_none (fun a d h => hh a d h)

theorem good_testLoop (hc : Good W call) {e : Nat} (x : Val) : ∀ {s : St} {o : Except Halt Unit} {s' : St},
    obs (evTestLoop call e x) s = some (o, s') → Runs W (.tests x e) s (o.map fun _ => .nil) s' := by
  induction x with
  | nil => intro s o s' h; cases h; exact .tests_done
  | cons a d _ ih =>
    intro s o s' h
    unfold evTestLoop at h
    rcases extb_inv h with ⟨hl, h1, rfl⟩ | ⟨v, s1, h1, h2⟩
    · exact .tests_halt (hc _ _ _ _ h1)
    · rw [obs_bind, obs_print, obind_ok] at h2
      exact .tests_next (hc _ _ _ _ h1) (ih h2)
  | _ => intro s o s' h; cases h; exact .tests_improper rfl

theorem good_test (hc : Good W call) {e : Nat} {x : Val} {s : St} {o : Except Halt Val} {s' : St}
    (h : obs (do extend "test" (evTest call e x); pure Val.nil) s = some (o, s')) : Runs W (.special .test x e) s o s' := by
  rcases extb_inv h with ⟨hl, h1, rfl⟩ | ⟨v, s1, h1, h2⟩
  · unfold evTest at h1
    split at h1
    · cases h1
    · rcases extb_inv h1 with ⟨hl', h2, h3⟩ | ⟨v, s1, h2, h3⟩
      · cases h3; exact .test_halt (hc _ _ _ _ h2)
      · rw [obs_bind, obs_print, obind_ok] at h3
        exact .test_fails (hc _ _ _ _ h2) (good_testLoop hc _ h3)
    · cases h1
  · cases h2
    unfold evTest at h1
    split at h1
    · cases h1; exact .test_none (by simp [NotCons])
    · rcases extb_inv h1 with ⟨hl', h2, h3⟩ | ⟨v, s1, h2, h3⟩
      · cases h3
      · rw [obs_bind, obs_print, obind_ok] at h3
        exact .test (hc _ _ _ _ h2) (good_testLoop hc _ h3)
    · rename_i hh
      cases h1; exact .test_none (fun a d h => hh a d h)

theorem good_special (hc : Good W call) (ht : Good W tail) {f : SF} {e : Nat} {x : Val} {s : St} {o : Except Halt Val} {s' : St}
    (h : obs (evSpecial call tail f x e) s = some (o, s')) : Runs W (.special f x e) s o s' := by
  cases f with
  | quote =>
    unfold evSpecial at h; dsimp only at h
    split at h
    · cases h; exact .quote
    · rename_i hh
      cases h; exact .quote_none (fun a d h => hh a d h)
  | syntaxQuote =>
    unfold evSpecial at h; dsimp only at h
    split at h
    · rename_i y d
      split at h
      · exact .template ‹_› (ht _ _ _ _ h)
      · cases h; exact .template_crash ‹_›
    · rename_i hh
      cases h; exact .template_none (fun a d h => hh a d h)
  | test => exact good_test hc h
  | cond => exact good_cond hc ht _ h
  | and => exact good_and hc _ h
  | or => exact good_or hc _ h
  | loop => exact ht _ _ _ _ h
  | swallow => exact good_swallow hc _ h
  | def_ => exact good_def hc h
  | set => exact good_set hc h
  | defn => exact .defn h
  | defmacro => exact .defmacro h
  | error => exact good_error hc h
  | errors => exact good_errors hc h
  | try_ => exact .try_ (good_try hc _ h)
  | let_ => exact good_let hc ht h
  | lambda => exact .lambda h

theorem good_call (hc : Good W call) (ht : Good W tail) {f : Val} {vs : List Val} {e : Nat} {s : St} {o : Except Halt Val} {s' : St}
    (h : obs (evApply call tail f vs e) s = some (o, s')) : Runs W (.call f vs e) s o s' := by
  unfold evApply at h
  split at h
  · rw [obs_bind, obs_newEnv, obind_ok] at h
    rcases extb_inv h with ⟨hl, h1, rfl⟩ | ⟨v, s1, h1, h2⟩
    · exact .call_bind (good_bind h1)
    · exact .call (good_bind h1) (good_body hc ht _ h2)
  · rcases ext_inv h with ⟨hl, h1, rfl⟩ | ⟨v, h1, rfl⟩
    · exact .call_native_halt (hc _ _ _ _ h1)
    · exact .call_native (hc _ _ _ _ h1)
  · rename_i h1 h2
    cases h; exact .call_other (fun ps r body doc m env hh => h1 ps r body doc m env hh) (fun b hh => h2 b hh)

theorem good_evCall (hc : Good W call) (ht : Good W tail) {f d : Val} {e : Nat} {s : St} {o : Except Halt Val} {s' : St}
    (hf : ∀ sf : SF, f ≠ .atom sf.name) (hd : d.isList = true)
    (h : obs (evCall call tail f d e) s = some (o, s')) : Runs W (.plain (.cons f d) e) s o s' := by
  unfold evCall at h
  rcases extb_inv h with ⟨hl, h1, rfl⟩ | ⟨fv, s1, h1, h2⟩
  · exact .head_halt hf hd (hc _ _ _ _ h1)
  · rcases bind_inv h2 with ⟨hl, h4, rfl⟩ | ⟨vs, s2, h4, h3⟩
    · exact .args_halt hf hd (hc _ _ _ _ h1) (good_args hc _ h4)
    · exact .apply hf hd (hc _ _ _ _ h1) (good_args hc _ h4) (good_call hc ht h3)

theorem good_plain (hc : Good W call) (ht : Good W tail) {x : Val} {e : Nat} {s : St} {o : Except Halt Val} {s' : St}
    (h : obs (evExpr call tail x e) s = some (o, s')) : Runs W (.plain x e) s o s' := by
  unfold evExpr at h
  split at h
  · rename_i a
    split at h
    · cases h; exact .cxr ‹_›
    · rename_i hx
      have hx : isCxr a = false := by simpa using hx
      unfold evAtom at h
      split at h
      · rename_i ha; subst ha; cases h; exact .t
      · rename_i ha
        rw [obs_bind, obs_lookup, obind_ok] at h
        split at h
        · cases h; exact .var hx ha ‹_›
        · rename_i hl
          split at h
          · rename_i b hb
            cases h
            have := builtinOf_eq hb
            subst this
            exact .native_name hl
          · rename_i hb
            cases h
            refine .unknown hx ha hl (fun b hh => ?_)
            subst hh; rw [builtinOf_name] at hb; cases hb
  · cases h; exact .num
  · cases h; exact .nil
  · rename_i f d
    split at h
    · rename_i hd
      split at h
      · rename_i a
        split at h
        · rename_i sf hs
          obtain rfl := specialOf_some hs
          exact .special hd (good_special hc ht h)
        · rename_i hs
          refine good_evCall hc ht (fun sf hh => ?_) hd h
          cases hh; rw [specialOf_name] at hs; cases hs
      · rename_i hf
        exact good_evCall hc ht (fun sf hh => hf _ hh) hd h
    · rename_i hd
      cases h; exact .malformed (by simpa using hd)
  · rename_i h1 h2 h3 h4
    cases h; exact .function (fun n hh => h2 n hh) (fun n hh => h1 n hh) (fun hh => h3 hh) (fun a d hh => h4 a d hh)

theorem good_eval (hc : Good W call) (ht : Good W tail) {x : Val} {e : Nat} {s : St} {o : Except Halt Val} {s' : St}
    (h : obs (evalStep call tail x e) s = some (o, s')) : Runs W (.eval x e) s o s' := by
  unfold evalStep at h
  rw [obs_bind, obs_macro, obind_ok] at h
  by_cases hm : isMacroCallIn (lookup s.heap e) x = true
  · simp only [hm, if_true] at h
    rcases extb_inv h with ⟨hl, h1, rfl⟩ | ⟨y, s1, h1, h2⟩
    · exact .eval_halt (macroCall_iff.2 hm) (hc _ _ _ _ h1)
    · exact .eval_macro (macroCall_iff.2 hm) (hc _ _ _ _ h1) (good_plain hc ht h2)
  · simp only [hm] at h
    exact .eval_plain (mt macroCall_iff.1 hm) (good_plain hc ht h)

theorem good_applyFn (hc : Good W call) {vs : List Val} {e : Nat} {s : St} {o : Except Halt Val} {s' : St}
    (h : obs (applyFn call vs e) s = some (o, s')) : Runs W (.native .apply vs e) s o s' := by
  unfold applyFn at h
  split at h
  · rename_i f a rest
    dsimp only at h
    have hsplit : a :: rest = (a :: rest).dropLast ++ [(a :: rest).getLast (by simp)] := (List.dropLast_concat_getLast (by simp)).symm
    rw [hsplit]
    generalize (a :: rest).dropLast = vs at *
    generalize (a :: rest).getLast (by simp) = l at *
    split at h
    · rename_i hl
      split at h
      · cases h; exact .apply_improper hl ‹_›
      · rename_i xs hxs
        obtain rfl := toList?_eq_some.1 hxs
        unfold applyTo at h
        split at h
        · rw [obs_bind, obs_newEnv, obind_ok] at h
          rcases extb_inv h with ⟨hl, h1, rfl⟩ | ⟨v, s1, h1, h2⟩
          · exact .apply_bind (good_bind h1)
          · rw [evBodyApply_seq] at h2
            exact .apply_fn (good_bind h1) (good_seq hc _ h2)
        · rcases ext_inv h with ⟨hl, h1, rfl⟩ | ⟨v, h1, rfl⟩
          · exact .apply_native_halt (hc _ _ _ _ h1)
          · exact .apply_native (hc _ _ _ _ h1)
        · rename_i h1 h2
          cases h; exact .apply_other (fun ps r body doc m env hh => h1 ps r body doc m env hh) (fun b hh => h2 b hh)
    · rename_i hl
      cases h; exact .apply_atom (by simpa using hl)
  · rename_i hh
    cases h
    refine .apply_few ?_
    match vs, hh with
    | [], _ => simp
    | [_], _ => simp
    | a :: b :: r, hh => exact absurd rfl (hh a b r)

theorem good_forms (hc : Good W call) {e : Nat} (xs : List Val) : ∀ {s : St} {o : Except Halt Unit} {s' : St},
    obs (evalExprs call false e xs) s = some (o, s') → Runs W (.forms xs e) s (o.map fun _ => .nil) s' := by
  induction xs with
  | nil => intro s o s' h; cases h; exact .forms_none
  | cons x xs ih =>
    intro s o s' h
    unfold evalExprs at h
    rcases attb_inv h with ⟨hl, h1, h3, rfl⟩ | ⟨er, s1, h1, h2⟩ | ⟨v, s1, h1, h2⟩
    · exact .forms_halt (hc _ _ _ _ h1)
    · cases h2; exact .forms_halt (hc _ _ _ _ h1)
    · exact .forms_next (hc _ _ _ _ h1) (ih h2)

theorem good_load (hc : Good W call) {vs : List Val} {e : Nat} {s : St} {o : Except Halt Val} {s' : St}
    (h : obs (bLoad W call vs e) s = some (o, s')) : Runs W (.native .load vs e) s o s' := by
  unfold bLoad at h
  split at h
  · rename_i n
    have key : ∀ {o : Except Halt Unit} {s' : St}, obs (loadFile W call n e) s = some (o, s') →
        (∃ m, W.readFile s.tick n = .error m ∧ o = .error (.failed (.foreign m)) ∧ s' = ticked s) ∨
        (∃ text er, W.readFile s.tick n = .ok text ∧ readText text = .err er ∧ o = .error (.failed (.list er)) ∧ s' = ticked s) ∨
        (∃ text, W.readFile s.tick n = .ok text ∧ readText text = .crash ∧ o = .error (.crashed "index out of range") ∧ s' = ticked s) ∨
        ∃ text xs, W.readFile s.tick n = .ok text ∧ readText text = .ok xs ∧ Runs W (.forms xs e) (ticked s) (o.map fun _ => .nil) s' := by
      intro o s' h
      unfold loadFile at h
      rw [obs_bind, obs_ask, obind_ok] at h
      split at h
      · rename_i m hm
        cases h; exact .inl ⟨m, hm, rfl, rfl⟩
      · rename_i text hm
        unfold lexParseEval at h
        rw [obs_bind] at h
        match hr : readText text with
        | .ok xs =>
          rw [hr] at h
          exact .inr (.inr (.inr ⟨text, xs, hm, hr, good_forms hc _ h⟩))
        | .err er => rw [hr] at h; cases h; exact .inr (.inl ⟨text, er, hm, hr, rfl, rfl⟩)
        | .crash => rw [hr] at h; cases h; exact .inr (.inr (.inl ⟨text, hm, hr, rfl, rfl⟩))
        | .fuel => rw [hr] at h; cases h
    rcases extb_inv h with ⟨hl, h1, rfl⟩ | ⟨v, s1, h1, h2⟩
    · rcases key h1 with ⟨m, h3, h4, rfl⟩ | ⟨text, er, h3, h4, h5, rfl⟩ | ⟨text, h3, h4, h5, rfl⟩ | ⟨text, xs, h3, h4, h5⟩
      · cases h4; exact .load_unreadable h3
      · cases h5; exact .load_syntax h3 h4
      · cases h5; exact .load_crash h3 h4
      · exact .load_halt h3 h4 h5
    · cases h2
      rcases key h1 with ⟨m, h3, h4, rfl⟩ | ⟨text, er, h3, h4, h5, rfl⟩ | ⟨text, h3, h4, h5, rfl⟩ | ⟨text, xs, h3, h4, h5⟩
      · cases h4
      · cases h5
      · cases h5
      · exact .load h3 h4 h5
  · rename_i hh
    cases h; exact .load_bad (fun a h => hh a h)
  · rename_i h1 h2
    cases h
    refine .load_arity (fun hl => ?_)
    match vs, hl with
    | [v], _ => exact h2 v rfl

theorem good_less (hc : Good W call) {f a b : Val} {e : Nat} {s : St} {o : Except Halt Bool} {s' : St}
    (h : obs (sortByLess call f e a b) s = some (o, s')) : Runs W (.less f a b e) s (o.map vBool) s' := by
  unfold sortByLess at h
  rcases bind_inv h with ⟨hl, h1, rfl⟩ | ⟨va, s1, h1, h2⟩
  · exact .less_halt (good_applyFn hc h1)
  · rcases bind_inv h2 with ⟨hl, h4, rfl⟩ | ⟨vb, s2, h4, h3⟩
    · exact .less_halt2 (good_applyFn hc h1) (good_applyFn hc h4)
    · split at h3
      · cases h3; exact .less_types (good_applyFn hc h1) (good_applyFn hc h4) ‹_›
      · rename_i hk
        have hk : va.kind = vb.kind := by simpa using hk
        split at h3
        · cases h3; exact .less (good_applyFn hc h1) (good_applyFn hc h4) hk (.inl ⟨_, rfl⟩)
        · cases h3; exact .less (good_applyFn hc h1) (good_applyFn hc h4) hk (.inr ⟨_, rfl⟩)
        · rename_i hn ha
          cases h3; exact .less_unsortable (good_applyFn hc h1) (good_applyFn hc h4) hk (fun n h => hn n h) (fun n h => ha n h)

/-- What `sort-by` makes of the outcome of the sorting algorithm. -/
def sortEnd (r : List Val × Option Err) : M Val :=
  match r.2 with
  | none => pure (vlist r.1)
  | some er => throwErr er

theorem good_sortRun (hc : Good W call) {f : Val} {e : Nat} (how : Sorter) : ∀ {xs : List Val} {er : Option Err} {s : St} {o : Except Halt Val} {s' : St},
    obs (sortRun call f e how xs er >>= sortEnd) s = some (o, s') → Runs W (.sort f how xs er e) s o s' := by
  induction how with
  | done =>
    intro xs er s o s' h
    cases er with
    | none => cases h; exact .sort_done
    | some er => cases h; exact .sort_failed
  | swap i j k ih =>
    intro xs er s o s' h
    exact .sort_swap (ih h)
  | less i j y n ihy ihn =>
    intro xs er s o s' h
    unfold sortRun at h
    match hi : xs[i]?, hj : xs[j]? with
    | none, _ => rw [hi] at h; exact .sort_outside (.inl hi) (ihn h)
    | some a, none => rw [hi, hj] at h; exact .sort_outside (.inr hj) (ihn h)
    | some a, some b =>
      rw [hi, hj] at h
      dsimp only at h
      have h' : obs (attempt (sortByLess call f e a b) >>= fun r => (match r with
        | .error er' => sortRun call f e n xs (some er')
        | .ok true => sortRun call f e y xs er
        | .ok false => sortRun call f e n xs er) >>= sortEnd) s = some (o, s') := by
        rw [← h]
        simp only [obs_bind]
        match obs (attempt (sortByLess call f e a b)) s with
        | none => rfl
        | some (.ok _, _) => rfl
        | some (.error _, _) => rfl
      rcases attb_inv h' with ⟨hl, h1, h3, rfl⟩ | ⟨er', s1, h1, h2⟩ | ⟨v, s1, h1, h2⟩
      · exact .sort_halt hi hj (good_less hc h1) h3
      · exact .sort_error hi hj (good_less hc h1) (ihn h2)
      · cases v with
        | true => exact .sort_yes hi hj (good_less hc h1) (by simp [vBool, vTrue]) (ihy h2)
        | false => exact .sort_no hi hj (good_less hc h1) (ihn h2)

theorem good_sortBy (hc : Good W call) {vs : List Val} {e : Nat} {s : St} {o : Except Halt Val} {s' : St}
    (h : obs (bSortBy W call vs e) s = some (o, s')) : Runs W (.native .sortBy vs e) s o s' := by
  unfold bSortBy at h
  split at h
  · rename_i f l
    split at h
    · rename_i hl
      split at h
      · cases h; exact .sort_improper hl ‹_›
      · rename_i xs hxs
        obtain rfl := toList?_eq_some.1 hxs
        exact .sort (good_sortRun hc _ h)
    · rename_i hl
      cases h; exact .sort_atom (by simpa using hl)
  · rename_i hh
    cases h
    refine .sort_arity (fun hl => ?_)
    match vs, hl with
    | [a, b], _ => exact hh a b rfl

theorem biFn_leaf {b : BI} (hb : evaluates b = false) (c1 c2 : Task → M Val) (vs : List Val) (e : Nat) : biFn W c1 b vs e = biFn W c2 b vs e := by
  cases b <;> first | (exfalso; exact absurd hb (by decide)) | rfl

theorem good_native (hc : Good W call) {b : BI} {vs : List Val} {e : Nat} {s : St} {o : Except Halt Val} {s' : St}
    (h : obs (biFn W call b vs e) s = some (o, s')) : Runs W (.native b vs e) s o s' := by
  by_cases hb : evaluates b = false
  · rw [biFn_leaf hb call (fun _ _ => .oof)] at h
    exact .native hb h
  · cases b with
    | apply => exact good_applyFn hc h
    | eval =>
      replace h : obs (bEval call vs e) s = some (o, s') := h
      unfold bEval at h
      split at h
      · exact .eval_native (hc _ _ _ _ h)
      · rename_i hh
        cases h
        refine .eval_arity (fun hl => ?_)
        match vs, hl with
        | [v], _ => exact hh v rfl
    | macroexpand1 =>
      replace h : obs (bMacroexpand1 call vs e) s = some (o, s') := h
      unfold bMacroexpand1 at h
      split at h
      · exact .macroexpand (good_expand1 hc h)
      · rename_i hh
        cases h
        refine .macroexpand_arity (fun hl => ?_)
        match vs, hl with
        | [v], _ => exact hh v rfl
    | load => exact good_load hc h
    | sortBy => exact good_sortBy hc h
    | forms => exact .listing (.inl rfl) hc h
    | help => exact .listing (.inr rfl) hc h
    | _ => exact absurd rfl hb

theorem good_runStep (hc : Good W call) (ht : Good W tail) : Good W (runStep W call tail) := by
  intro t s o s' h
  cases t with
  | eval x e => exact good_eval hc ht h
  | mexpand x e => exact good_expand hc ht h
  | loop body e =>
    replace h : obs (evLoopBody call e body >>= fun _ => tail (.loop body e)) s = some (o, s') := h
    rcases bind_inv h with ⟨hl, h1, rfl⟩ | ⟨v, s1, h1, h2⟩
    · rcases good_loopBody hc _ (ret := .nil) h1 with ⟨h3, _⟩ | ⟨hl, h3, h4⟩
      · cases h3
      · cases h3; exact .loop_halt h4
    · rcases good_loopBody hc _ (ret := .nil) h1 with ⟨_, w, h4⟩ | ⟨hl, h3, _⟩
      · exact .loop_next h4 (ht _ _ _ _ h2)
      · cases h3
  | builtin b vs e => exact good_native hc h

theorem good_run (n d : Nat) : Good W (run W n d) := by
  induction n generalizing d with
  | zero => intro t s o s' h; cases h
  | succ n ih =>
    intro t s o s' h
    refine good_runStep (call := lower d (run W n)) (tail := run W n d) ?_ (ih d) t s o s' h
    cases d with
    | zero => intro t s o s' h; cases h
    | succ d => exact ih d

theorem good_perform : Good W (perform W) := by
  intro t s o s' h
  have hne : perform W t s ≠ .oof := fun hh => by unfold obs at h; rw [hh] at h; cases h
  obtain ⟨_, K, hK⟩ := run_of_perform hne
  exact good_run K K t s o s' (by unfold obs at h ⊢; rw [hK]; exact h)

end

end L1
