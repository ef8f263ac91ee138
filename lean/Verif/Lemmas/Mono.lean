import Verif.Lemmas.Monad
/-
The interpreter is monotone in its budgets.  `Le ov m1 m2`: wherever `m1` has a definite outcome, `m2` has the
same one.  With `ov = true`, a stack overflow counts as indefinite too.
-/
set_option autoImplicit false
namespace L1

/-- Which outcomes count as indefinite. -/
structure Bot where
  oof : Prop := False
  overflow : Prop := False
  crash : String → Prop := fun _ => False
  exit : Prop := False

/-- Out of fuel is always indefinite here, out of stack if `ov`. -/
@[coe] def Bot.ofBool (ov : Bool) : Bot := { oof := True, overflow := ov = true }

instance : Coe Bool Bot := ⟨Bot.ofBool⟩

/-- No definite outcome. -/
def Res.indef {α : Type} (b : Bot) : Res α → Prop
  | .oof => b.oof
  | .overflow _ => b.overflow
  | .crash m _ => b.crash m
  | .exit _ _ => b.exit
  | _ => False

/-- Flat order on computations. -/
def Le {α : Type} (ov : Bot) (m1 m2 : M α) : Prop := ∀ s, (m1 s).indef ov ∨ m1 s = m2 s

variable {ov : Bot}

theorem Le.refl {α : Type} (m : M α) : Le ov m m := fun _ => .inr rfl

theorem Le.trans {α : Type} {m1 m2 m3 : M α} (h : Le ov m1 m2) (h' : Le ov m2 m3) : Le ov m1 m3 := by
  intro s
  rcases h s with h | h
  · exact .inl h
  · rw [h]; exact h' s

theorem Le.bind {α β : Type} {m1 m2 : M α} {f1 f2 : α → M β} (h : Le ov m1 m2)
    (hf : ∀ a, Le ov (f1 a) (f2 a)) : Le ov (m1 >>= f1) (m2 >>= f2) := by
  intro s
  rw [M.bind_run, M.bind_run]
  rcases h s with h | h
  · left
    cases hm : m1 s <;> rw [hm] at h <;> simp_all [Res.indef]
  · rw [← h]
    cases m1 s with
    | ok a s' => exact hf a s'
    | _ => exact .inr rfl

theorem Le.extendWith {α : Type} {m1 m2 : M α} {f : Val} (h : Le ov m1 m2) :
    Le ov (extendWith f m1) (extendWith f m2) := by
  intro s
  rw [extendWith_run, extendWith_run]
  rcases h s with h | h
  · left; cases hm : m1 s <;> rw [hm] at h <;> simp_all [Res.indef]
  · rw [h]; exact .inr rfl

theorem Le.extend {α : Type} {m1 m2 : M α} {msg : String} (h : Le ov m1 m2) :
    Le ov (extend msg m1) (extend msg m2) := Le.extendWith h

theorem Le.attempt {α : Type} {m1 m2 : M α} (h : Le ov m1 m2) :
    Le ov (attempt m1) (attempt m2) := by
  intro s
  rw [attempt_run, attempt_run]
  rcases h s with h | h
  · left; cases hm : m1 s <;> rw [hm] at h <;> simp_all [Res.indef]
  · rw [h]; exact .inr rfl

theorem Le.ite {α : Type} {c : Prop} [Decidable c] {a1 a2 b1 b2 : M α} (h1 : Le ov a1 a2) (h2 : Le ov b1 b2) :
    Le ov (if c then a1 else b1) (if c then a2 else b2) := by
  split <;> assumption

section
variable {W : World} {c1 c2 t1 t2 : Task → M Val}

theorem le_evArgs (hc : ∀ t, Le ov (c1 t) (c2 t)) (e : Nat) (v : Val) : Le ov (evArgs c1 e v) (evArgs c2 e v) := by
  induction v with
  | cons a d _ ih =>
    simp only [evArgs]
    exact .bind (.extend (hc _)) fun _ => .bind ih fun _ => .refl _
  | _ => exact .refl _

theorem le_evBodyTail (hc : ∀ t, Le ov (c1 t) (c2 t)) (ht : ∀ t, Le ov (t1 t) (t2 t)) (wrap : Val → Val) (e : Nat)
    (v : Val) : Le ov (evBodyTail c1 t1 wrap e v) (evBodyTail c2 t2 wrap e v) := by
  induction v with
  | cons a d _ ih =>
    cases d with
    | nil => exact ht _
    | _ => simp only [evBodyTail]; exact .bind (.extendWith (hc _)) fun _ => ih
  | _ => exact .refl _

theorem le_evBodyApply (hc : ∀ t, Le ov (c1 t) (c2 t)) (e : Nat) (v : Val) :
    ∀ ret, Le ov (evBodyApply c1 e ret v) (evBodyApply c2 e ret v) := by
  induction v with
  | cons a d _ ih => intro ret; simp only [evBodyApply]; exact .bind (.extend (hc _)) fun _ => ih _
  | _ => intro _; exact .refl _

theorem le_evBodyMacro (hc : ∀ t, Le ov (c1 t) (c2 t)) (e : Nat) (v : Val) :
    ∀ ret, Le ov (evBodyMacro c1 e ret v) (evBodyMacro c2 e ret v) := by
  induction v with
  | cons a d _ ih => intro ret; simp only [evBodyMacro]; exact .bind (.extend (hc _)) fun _ => ih _
  | _ => intro _; exact .refl _

theorem le_mexpand1 (hc : ∀ t, Le ov (c1 t) (c2 t)) (x : Val) (e : Nat) : Le ov (mexpand1 c1 x e) (mexpand1 c2 x e) := by
  unfold mexpand1
  refine .bind (.refl _) fun b => .ite ?_ (.refl _)
  split
  · refine .bind (.refl _) fun o => ?_
    split
    · split
      · exact .refl _
      · exact .bind (.refl _) fun _ => .bind (.refl _) fun _ => le_evBodyMacro hc _ _ _
    · exact .refl _
  · exact .refl _

theorem le_evCond (hc : ∀ t, Le ov (c1 t) (c2 t)) (ht : ∀ t, Le ov (t1 t) (t2 t)) (e : Nat) (v : Val) :
    Le ov (evCond c1 t1 e v) (evCond c2 t2 e v) := by
  induction v with
  | cons a d _ ih =>
    unfold evCond
    split
    · refine .bind (.extend (hc _)) fun _ => .ite ih ?_
      split
      · exact ht _
      · exact .refl _
    · exact .refl _
  | _ => exact .refl _

theorem le_evAnd (hc : ∀ t, Le ov (c1 t) (c2 t)) (e : Nat) (v : Val) : Le ov (evAnd c1 e v) (evAnd c2 e v) := by
  induction v with
  | cons a d _ ih => exact .bind (.extend (hc _)) fun _ => .ite (.refl _) ih
  | _ => exact .refl _

theorem le_evOr (hc : ∀ t, Le ov (c1 t) (c2 t)) (e : Nat) (v : Val) : Le ov (evOr c1 e v) (evOr c2 e v) := by
  induction v with
  | cons a d _ ih => exact .bind (.extend (hc _)) fun _ => .ite (.refl _) ih
  | _ => exact .refl _

theorem le_evLoopBody (hc : ∀ t, Le ov (c1 t) (c2 t)) (e : Nat) (v : Val) :
    Le ov (evLoopBody c1 e v) (evLoopBody c2 e v) := by
  induction v with
  | cons a d _ ih => exact .bind (.extend (hc _)) fun _ => ih
  | _ => exact .refl _

theorem le_evSwallow (hc : ∀ t, Le ov (c1 t) (c2 t)) (e : Nat) (v : Val) :
    Le ov (evSwallow c1 e v) (evSwallow c2 e v) := by
  induction v with
  | cons a d _ ih =>
    refine .bind (.attempt (hc _)) fun x => ?_
    cases x
    · exact .refl _
    · exact ih
  | _ => exact .refl _

theorem le_evDef (hc : ∀ t, Le ov (c1 t) (c2 t)) (e : Nat) (v : Val) : Le ov (evDef c1 e v) (evDef c2 e v) := by
  unfold evDef
  split
  · exact .bind (.extend (hc _)) fun _ => .refl _
  all_goals exact .refl _

theorem le_evSet (hc : ∀ t, Le ov (c1 t) (c2 t)) (e : Nat) (v : Val) : Le ov (evSet c1 e v) (evSet c2 e v) := by
  unfold evSet
  split
  · exact .bind (.extend (hc _)) fun _ => .refl _
  all_goals exact .refl _

theorem le_evErrorsLoop (hc : ∀ t, Le ov (c1 t) (c2 t)) (e : Nat) (args : Val) (es : List Char) (v : Val) :
    Le ov (evErrorsLoop c1 e args es v) (evErrorsLoop c2 e args es v) := by
  induction v with
  | cons a d _ ih =>
    refine .bind (.attempt (hc _)) fun x => ?_
    cases x
    · exact .refl _
    · exact ih
  | _ => exact .refl _

theorem le_evErrors (hc : ∀ t, Le ov (c1 t) (c2 t)) (e : Nat) (v : Val) : Le ov (evErrors c1 e v) (evErrors c2 e v) := by
  unfold evErrors
  split
  · exact .ite (.bind (.extend (hc _)) fun _ => .ite (le_evErrorsLoop hc _ _ _ _) (.refl _)) (.refl _)
  · exact .refl _

theorem le_evError (hc : ∀ t, Le ov (c1 t) (c2 t)) (e : Nat) (v : Val) : Le ov (evError c1 e v) (evError c2 e v) := by
  unfold evError
  split
  · exact .bind (.extend (hc _)) fun _ => .refl _
  · exact .refl _

theorem le_evCatchBody (hc : ∀ t, Le ov (c1 t) (c2 t)) (e : Nat) (v : Val) :
    ∀ ret, Le ov (evCatchBody c1 e ret v) (evCatchBody c2 e ret v) := by
  induction v with
  | cons a d _ ih => intro ret; exact .bind (.extend (hc _)) fun _ => ih _
  | _ => intro _; exact .refl _

theorem le_evCatch (hc : ∀ t, Le ov (c1 t) (c2 t)) (e : Nat) (ret : Val) (er : Err) (v : Val) :
    Le ov (evCatch c1 e ret er v) (evCatch c2 e ret er v) := by
  unfold evCatch
  split
  · refine .bind (.refl _) fun _ => ?_
    split
    · exact .refl _
    · exact .bind (.refl _) fun _ => le_evCatchBody hc _ _ _
  all_goals exact .refl _

theorem le_evTry (hc : ∀ t, Le ov (c1 t) (c2 t)) (e : Nat) (v : Val) :
    ∀ ret er, Le ov (evTry c1 e ret er v) (evTry c2 e ret er v) := by
  induction v with
  | cons a d _ ih =>
    intro ret er
    unfold evTry
    refine .ite ?_ ?_
    · split
      · exact .refl _
      · split
        · exact le_evCatch hc _ _ _ _
        · exact .refl _
    · split
      · exact ih _ _
      · refine .bind (.attempt (hc _)) fun x => ?_
        cases x
        · exact ih _ _
        · exact ih _ _
  | _ => intro _ _; exact .refl _

theorem le_evLetBinds (hc : ∀ t, Le ov (c1 t) (c2 t)) (e ne : Nat) (v : Val) :
    Le ov (evLetBinds c1 e ne v) (evLetBinds c2 e ne v) := by
  induction v with
  | cons a d _ ih =>
    unfold evLetBinds
    split
    · split
      · exact .refl _
      · exact .bind (.extend (hc _)) fun _ => .bind (.refl _) fun _ => ih
      · exact .refl _
    · exact .refl _
  | _ => exact .refl _

theorem le_evLet (hc : ∀ t, Le ov (c1 t) (c2 t)) (ht : ∀ t, Le ov (t1 t) (t2 t)) (e : Nat) (v : Val) :
    Le ov (evLet c1 t1 e v) (evLet c2 t2 e v) := by
  unfold evLet
  split
  · exact .ite (.ite (.bind (.refl _) fun _ => .bind (le_evLetBinds hc _ _ _) fun _ =>
      .ite (le_evBodyTail hc ht _ _ _) (.refl _)) (.refl _)) (.refl _)
  · exact .refl _

theorem le_evTestLoop (hc : ∀ t, Le ov (c1 t) (c2 t)) (e : Nat) (v : Val) :
    Le ov (evTestLoop c1 e v) (evTestLoop c2 e v) := by
  induction v with
  | cons a d _ ih => exact .bind (.extend (hc _)) fun _ => .bind (.refl _) fun _ => ih
  | _ => exact .refl _

theorem le_evTest (hc : ∀ t, Le ov (c1 t) (c2 t)) (e : Nat) (v : Val) : Le ov (evTest c1 e v) (evTest c2 e v) := by
  unfold evTest
  split
  · exact .refl _
  · exact .bind (.extend (hc _)) fun _ => .bind (.refl _) fun _ => le_evTestLoop hc _ _
  · exact .refl _

theorem le_evSpecial (hc : ∀ t, Le ov (c1 t) (c2 t)) (ht : ∀ t, Le ov (t1 t) (t2 t)) (f : SF) (args : Val) (e : Nat) :
    Le ov (evSpecial c1 t1 f args e) (evSpecial c2 t2 f args e) := by
  cases f with
  | quote => exact .refl _
  | syntaxQuote =>
    simp only [evSpecial]
    split
    · split
      · exact ht _
      · exact .refl _
    · exact .refl _
  | test => exact .bind (.extend (le_evTest hc _ _)) fun _ => .refl _
  | cond => exact le_evCond hc ht _ _
  | and => exact le_evAnd hc _ _
  | or => exact le_evOr hc _ _
  | loop => exact ht _
  | swallow => exact le_evSwallow hc _ _
  | def_ => exact le_evDef hc _ _
  | set => exact le_evSet hc _ _
  | defn => exact .refl _
  | defmacro => exact .refl _
  | error => exact le_evError hc _ _
  | errors => exact le_evErrors hc _ _
  | try_ => exact le_evTry hc _ _ _ _
  | let_ => exact le_evLet hc ht _ _
  | lambda => exact .refl _

theorem le_evApply (hc : ∀ t, Le ov (c1 t) (c2 t)) (ht : ∀ t, Le ov (t1 t) (t2 t)) (f : Val) (args : List Val) (e : Nat) :
    Le ov (evApply c1 t1 f args e) (evApply c2 t2 f args e) := by
  unfold evApply
  split
  · exact .bind (.refl _) fun _ => .bind (.refl _) fun _ => le_evBodyTail hc ht _ _ _
  · exact .extend (hc _)
  · exact .refl _

theorem le_evExpr (hc : ∀ t, Le ov (c1 t) (c2 t)) (ht : ∀ t, Le ov (t1 t) (t2 t)) (x : Val) (e : Nat) :
    Le ov (evExpr c1 t1 x e) (evExpr c2 t2 x e) := by
  have hcall : ∀ f args, Le ov (evCall c1 t1 f args e) (evCall c2 t2 f args e) := fun f args =>
    .bind (.extend (hc _)) fun _ => .bind (le_evArgs hc _ _) fun _ => le_evApply hc ht _ _ _
  unfold evExpr
  split
  · exact .refl _
  · exact .refl _
  · exact .refl _
  · refine .ite ?_ (.refl _)
    split
    · split
      · exact le_evSpecial hc ht _ _ _
      · exact hcall _ _
    · exact hcall _ _
  · exact .refl _

theorem le_evalStep (hc : ∀ t, Le ov (c1 t) (c2 t)) (ht : ∀ t, Le ov (t1 t) (t2 t)) (x : Val) (e : Nat) :
    Le ov (evalStep c1 t1 x e) (evalStep c2 t2 x e) := by
  unfold evalStep
  exact .bind (.refl _) fun _ => .ite (.bind (.extend (hc _)) fun _ => le_evExpr hc ht _ _) (le_evExpr hc ht _ _)

theorem le_applyTo (hc : ∀ t, Le ov (c1 t) (c2 t)) (f : Val) (args : List Val) (e : Nat) :
    Le ov (applyTo c1 f args e) (applyTo c2 f args e) := by
  unfold applyTo
  split
  · exact .bind (.refl _) fun _ => .bind (.refl _) fun _ => le_evBodyApply hc _ _ _
  · exact .extend (hc _)
  · exact .refl _

theorem le_applyFn (hc : ∀ t, Le ov (c1 t) (c2 t)) (args : List Val) (e : Nat) :
    Le ov (applyFn c1 args e) (applyFn c2 args e) := by
  unfold applyFn
  split
  · refine .ite ?_ (.refl _)
    split
    · exact .refl _
    · exact le_applyTo hc _ _ _
  · exact .refl _

theorem le_evalExprs (hc : ∀ t, Le ov (c1 t) (c2 t)) (p : Bool) (e : Nat) (gs : List Val) :
    Le ov (evalExprs c1 p e gs) (evalExprs c2 p e gs) := by
  induction gs with
  | nil => exact .refl _
  | cons g gs ih =>
    refine .bind (.attempt (hc _)) fun x => ?_
    cases x
    · exact .refl _
    · exact .ite (.bind (.refl _) fun _ => ih) ih

theorem le_lexParseEval (hc : ∀ t, Le ov (c1 t) (c2 t)) (text : List Char) (e : Nat) :
    Le ov (lexParseEval c1 text e) (lexParseEval c2 text e) :=
  .bind (.refl _) fun _ => le_evalExprs hc _ _ _

theorem le_loadFile (hc : ∀ t, Le ov (c1 t) (c2 t)) (name : String) (e : Nat) :
    Le ov (loadFile W c1 name e) (loadFile W c2 name e) := by
  refine .bind (.refl _) fun x => ?_
  cases x
  · exact .refl _
  · exact le_lexParseEval hc _ _

theorem le_sortByLess (hc : ∀ t, Le ov (c1 t) (c2 t)) (f : Val) (e : Nat) (a b : Val) :
    Le ov (sortByLess c1 f e a b) (sortByLess c2 f e a b) :=
  .bind (le_applyFn hc _ _) fun _ => .bind (le_applyFn hc _ _) fun _ => .refl _

theorem le_sortRun (hc : ∀ t, Le ov (c1 t) (c2 t)) (f : Val) (e : Nat) (t : Sorter) :
    ∀ xs er, Le ov (sortRun c1 f e t xs er) (sortRun c2 f e t xs er) := by
  induction t with
  | done => intro _ _; exact .refl _
  | swap i j next ih => intro xs er; exact ih _ _
  | less i j yes no ihy ihn =>
    intro xs er
    simp only [sortRun]
    split
    · refine .bind (.attempt (le_sortByLess hc _ _ _ _)) fun r => ?_
      split
      · exact ihn _ _
      · exact ihy _ _
      · exact ihn _ _
    · exact ihn _ _

theorem le_bSortBy (hc : ∀ t, Le ov (c1 t) (c2 t)) (args : List Val) (e : Nat) :
    Le ov (bSortBy W c1 args e) (bSortBy W c2 args e) := by
  unfold bSortBy
  split
  · refine .ite ?_ (.refl _)
    split
    · exact .refl _
    · exact .bind (le_sortRun hc _ _ _ _ _) fun _ => .refl _
  · exact .refl _

theorem le_runExamples (hc : ∀ t, Le ov (c1 t) (c2 t)) (e : Nat) (v : Val) :
    Le ov (runExamples c1 e v) (runExamples c2 e v) := by
  induction v with
  | cons a d _ ih => exact .ite (.refl _) (.bind (.attempt (hc _)) fun _ => .bind ih fun _ => .refl _)
  | _ => exact .refl _

theorem le_formsOfBuiltins (hc : ∀ t, Le ov (c1 t) (c2 t)) (e : Nat) (bs : List BI) :
    Le ov (formsOfBuiltins W c1 e bs) (formsOfBuiltins W c2 e bs) := by
  induction bs with
  | nil => exact .refl _
  | cons b bs ih => exact .bind (le_runExamples hc _ _) fun _ => .bind ih fun _ => .refl _

theorem le_formsOfKeys (hc : ∀ t, Le ov (c1 t) (c2 t)) (e : Nat) (ks : List String) :
    Le ov (formsOfKeys c1 e ks) (formsOfKeys c2 e ks) := by
  induction ks with
  | nil => exact .refl _
  | cons k ks ih =>
    refine .bind (.refl _) fun o => ?_
    split
    · refine .ite ?_ ih
      split
      · exact .refl _
      · exact .bind (le_runExamples hc _ _) fun _ => .bind ih fun _ => .refl _
    · exact ih

theorem le_availableForms (hc : ∀ t, Le ov (c1 t) (c2 t)) (e : Nat) :
    Le ov (availableForms W c1 e) (availableForms W c2 e) :=
  .bind (.refl _) fun _ => .bind (le_formsOfBuiltins hc _ _) fun _ => .bind (.refl _) fun _ =>
    .bind (.refl _) fun _ => .bind (le_formsOfKeys hc _ _) fun _ => .refl _

theorem le_biFn (hc : ∀ t, Le ov (c1 t) (c2 t)) (b : BI) (args : List Val) (e : Nat) :
    Le ov (biFn W c1 b args e) (biFn W c2 b args e) := by
  cases b with
  | apply => exact le_applyFn hc _ _
  | eval =>
    simp only [biFn, bEval]
    split
    · exact hc _
    · exact .refl _
  | forms => exact .bind (.extend (.extend (le_availableForms hc _))) fun _ => .refl _
  | help => exact .bind (le_availableForms hc _) fun _ => .refl _
  | load =>
    simp only [biFn, bLoad]
    split
    · exact .bind (.extend (le_loadFile hc _ _)) fun _ => .refl _
    all_goals exact .refl _
  | macroexpand1 =>
    simp only [biFn, bMacroexpand1]
    split
    · exact le_mexpand1 hc _ _
    · exact .refl _
  | sortBy => exact le_bSortBy hc _ _
  | _ => exact .refl _

theorem le_runStep (hc : ∀ t, Le ov (c1 t) (c2 t)) (ht : ∀ t, Le ov (t1 t) (t2 t)) (t : Task) :
    Le ov (runStep W c1 t1 t) (runStep W c2 t2 t) := by
  cases t with
  | eval x e => exact le_evalStep hc ht _ _
  | mexpand x e =>
    exact .bind (.extend (le_mexpand1 hc _ _)) fun _ => .bind (.refl _) fun _ => .ite (ht _) (.refl _)
  | loop body e => exact .bind (le_evLoopBody hc _ _) fun _ => ht _
  | builtin b args e => exact le_biFn hc _ _ _

end

/-- More fuel, same stack: only `oof` can change. -/
theorem run_fuel (W : World) (n m d : Nat) (h : n ≤ m) (t : Task) : Le false (run W n d t) (run W m d t) := by
  induction n generalizing m d t with
  | zero => intro s; exact .inl trivial
  | succ n ih =>
    obtain ⟨m, rfl⟩ : ∃ k, m = k + 1 := ⟨m - 1, by omega⟩
    rw [run_succ, run_succ]
    apply le_runStep
    · intro t
      cases d with
      | zero => exact .refl _
      | succ d => exact ih m d (by omega) t
    · exact ih m d (by omega)

/-- More fuel and more stack: only `oof` and `overflow` can change. -/
theorem run_mono (W : World) (n m d d' : Nat) (h : n ≤ m) (hd : d ≤ d') (t : Task) :
    Le true (run W n d t) (run W m d' t) := by
  induction n generalizing m d d' t with
  | zero => intro s; exact .inl trivial
  | succ n ih =>
    obtain ⟨m, rfl⟩ : ∃ k, m = k + 1 := ⟨m - 1, by omega⟩
    rw [run_succ, run_succ]
    apply le_runStep
    · intro t
      cases d with
      | zero => intro s; exact .inl rfl
      | succ d =>
        obtain ⟨d', rfl⟩ : ∃ k, d' = k + 1 := ⟨d' - 1, by omega⟩
        exact ih m d d' (by omega) (by omega) t
    · exact ih m d d' (by omega) hd

end L1
