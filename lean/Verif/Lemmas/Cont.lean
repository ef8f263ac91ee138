import Verif.Lemmas.Mono
/-
The interpreter is continuous: what one step does with unlimited recursive calls, it does with some finite budget.
`Co m1 m2`: the computation `m2` is the limit of the family `m1`.
-/
set_option autoImplicit false
namespace L1

/-- `m2` is the limit of `m1 0`, `m1 1`, ...: where `m2` has no outcome none of them has a definite one; elsewhere each of
them has no definite outcome or that of `m2`, and from some point on all have that of `m2`. -/
def Co {α : Type} (ov : Bot) (m1 : Nat → M α) (m2 : M α) : Prop := ∀ s,
  (m2 s = .oof ∧ ∀ k, (m1 k s).indef ov) ∨
  ((∀ k, (m1 k s).indef ov ∨ m1 k s = m2 s) ∧ ∃ K, ∀ k, K ≤ k → m1 k s = m2 s)

variable {ov : Bot}

theorem Co.refl {α : Type} (m : M α) : Co ov (fun _ => m) m := fun _ => .inr ⟨fun _ => .inr rfl, 0, fun _ _ => rfl⟩

theorem indef_bind {α β : Type} {m : M α} {f : α → M β} {s : St} (h : (m s).indef ov) : ((m >>= f) s).indef ov := by
  rw [M.bind_run]; cases hm : m s <;> rw [hm] at h <;> simp_all [Res.indef]

theorem indef_extendWith {α : Type} {m : M α} {f : Val} {s : St} (h : (m s).indef ov) :
    ((extendWith f m) s).indef ov := by
  rw [extendWith_run]; cases hm : m s <;> rw [hm] at h <;> simp_all [Res.indef]

theorem indef_attempt {α : Type} {m : M α} {s : St} (h : (m s).indef ov) :
    ((attempt m) s).indef ov := by
  rw [attempt_run]; cases hm : m s <;> rw [hm] at h <;> simp_all [Res.indef]

theorem Co.bind {α β : Type} {m1 : Nat → M α} {m2 : M α} {f1 : Nat → α → M β} {f2 : α → M β} (h : Co ov m1 m2)
    (hf : ∀ a, Co ov (fun k => f1 k a) (f2 a)) : Co ov (fun k => m1 k >>= f1 k) (m2 >>= f2) := by
  intro s
  rcases h s with ⟨h1, h2⟩ | ⟨h1, K, h2⟩
  · left; refine ⟨by rw [M.bind_run, h1], fun k => indef_bind (h2 k)⟩
  · cases hm : m2 s with
    | ok a s' =>
      rw [hm] at h1 h2
      rw [M.bind_ok hm]
      rcases hf a s' with ⟨g1, g2⟩ | ⟨g1, L, g2⟩
      · left; refine ⟨g1, fun k => ?_⟩
        rcases h1 k with h | h
        · exact indef_bind h
        · show ((m1 k >>= f1 k) s).indef ov
          rw [M.bind_ok h]; exact g2 k
      · right; refine ⟨fun k => ?_, max K L, fun k hk => ?_⟩
        · rcases h1 k with h | h
          · exact .inl (indef_bind h)
          · show ((m1 k >>= f1 k) s).indef ov ∨ (m1 k >>= f1 k) s = _
            rw [M.bind_ok h]; exact g1 k
        · show (m1 k >>= f1 k) s = _
          rw [M.bind_ok (h2 k (by omega))]; exact g2 k (by omega)
    | _ =>
      right
      refine ⟨fun k => ?_, K, fun k hk => ?_⟩
      · rcases h1 k with h | h
        · exact .inl (indef_bind h)
        · right; simp only [M.bind_run, h, hm]
      · have := h2 k hk; simp only [M.bind_run, this, hm]

theorem Co.extendWith {α : Type} {m1 : Nat → M α} {m2 : M α} {f : Val} (h : Co ov m1 m2) :
    Co ov (fun k => extendWith f (m1 k)) (extendWith f m2) := by
  intro s
  rcases h s with ⟨h1, h2⟩ | ⟨h1, K, h2⟩
  · left; exact ⟨by rw [extendWith_run, h1], fun k => indef_extendWith (h2 k)⟩
  · right; refine ⟨fun k => ?_, K, fun k hk => ?_⟩
    · rcases h1 k with h | h
      · exact .inl (indef_extendWith h)
      · right; show L1.extendWith f (m1 k) s = _; rw [extendWith_run, extendWith_run, h]
    · show L1.extendWith f (m1 k) s = _; rw [extendWith_run, extendWith_run, h2 k hk]

theorem Co.extend {α : Type} {m1 : Nat → M α} {m2 : M α} {msg : String} (h : Co ov m1 m2) :
    Co ov (fun k => extend msg (m1 k)) (extend msg m2) := Co.extendWith h

theorem Co.attempt {α : Type} {m1 : Nat → M α} {m2 : M α} (h : Co ov m1 m2) :
    Co ov (fun k => attempt (m1 k)) (attempt m2) := by
  intro s
  rcases h s with ⟨h1, h2⟩ | ⟨h1, K, h2⟩
  · left; exact ⟨by rw [attempt_run, h1], fun k => indef_attempt (h2 k)⟩
  · right; refine ⟨fun k => ?_, K, fun k hk => ?_⟩
    · rcases h1 k with h | h
      · exact .inl (indef_attempt h)
      · right; show L1.attempt (m1 k) s = _; rw [attempt_run, attempt_run, h]
    · show L1.attempt (m1 k) s = _; rw [attempt_run, attempt_run, h2 k hk]

theorem Co.ite {α : Type} {c : Prop} [Decidable c] {a1 b1 : Nat → M α} {a2 b2 : M α} (h1 : Co ov a1 a2) (h2 : Co ov b1 b2) :
    Co ov (fun k => if c then a1 k else b1 k) (if c then a2 else b2) := by
  by_cases h : c
  · simp only [h, if_true]; exact h1
  · simp only [h, if_false]; exact h2

section
variable {W : World} {c1 t1 : Nat → Task → M Val} {c2 t2 : Task → M Val}

theorem co_evArgs (hc : ∀ t, Co ov (fun k => c1 k t) (c2 t)) (e : Nat) (v : Val) : Co ov (fun k => evArgs (c1 k) e v) (evArgs c2 e v) := by
  induction v with
  | cons a d _ ih =>
    simp only [evArgs]
    exact .bind (.extend (hc _)) fun _ => .bind ih fun _ => .refl _
  | _ => exact .refl _

theorem co_evBodyTail (hc : ∀ t, Co ov (fun k => c1 k t) (c2 t)) (ht : ∀ t, Co ov (fun k => t1 k t) (t2 t)) (wrap : Val → Val) (e : Nat)
    (v : Val) : Co ov (fun k => evBodyTail (c1 k) (t1 k) wrap e v) (evBodyTail c2 t2 wrap e v) := by
  induction v with
  | cons a d _ ih =>
    cases d with
    | nil => exact ht _
    | _ => simp only [evBodyTail]; exact .bind (.extendWith (hc _)) fun _ => ih
  | _ => exact .refl _

theorem co_evBodyApply (hc : ∀ t, Co ov (fun k => c1 k t) (c2 t)) (e : Nat) (v : Val) :
    ∀ ret, Co ov (fun k => evBodyApply (c1 k) e ret v) (evBodyApply c2 e ret v) := by
  induction v with
  | cons a d _ ih => intro ret; simp only [evBodyApply]; exact .bind (.extend (hc _)) fun _ => ih _
  | _ => intro _; exact .refl _

theorem co_evBodyMacro (hc : ∀ t, Co ov (fun k => c1 k t) (c2 t)) (e : Nat) (v : Val) :
    ∀ ret, Co ov (fun k => evBodyMacro (c1 k) e ret v) (evBodyMacro c2 e ret v) := by
  induction v with
  | cons a d _ ih => intro ret; simp only [evBodyMacro]; exact .bind (.extend (hc _)) fun _ => ih _
  | _ => intro _; exact .refl _

theorem co_mexpand1 (hc : ∀ t, Co ov (fun k => c1 k t) (c2 t)) (x : Val) (e : Nat) : Co ov (fun k => mexpand1 (c1 k) x e) (mexpand1 c2 x e) := by
  unfold mexpand1
  refine .bind (.refl _) fun b => .ite ?_ (.refl _)
  split
  · refine .bind (.refl _) fun o => ?_
    split
    · split
      · exact .refl _
      · exact .bind (.refl _) fun _ => .bind (.refl _) fun _ => co_evBodyMacro hc _ _ _
    · exact .refl _
  · exact .refl _

theorem co_evCond (hc : ∀ t, Co ov (fun k => c1 k t) (c2 t)) (ht : ∀ t, Co ov (fun k => t1 k t) (t2 t)) (e : Nat) (v : Val) :
    Co ov (fun k => evCond (c1 k) (t1 k) e v) (evCond c2 t2 e v) := by
  induction v with
  | cons a d _ ih =>
    unfold evCond
    split
    · refine .bind (.extend (hc _)) fun _ => .ite ih ?_
      split
      · exact ht _
      · exact .refl _
    · exact .refl _
  | _ => exact .refl _

theorem co_evAnd (hc : ∀ t, Co ov (fun k => c1 k t) (c2 t)) (e : Nat) (v : Val) : Co ov (fun k => evAnd (c1 k) e v) (evAnd c2 e v) := by
  induction v with
  | cons a d _ ih => exact .bind (.extend (hc _)) fun _ => .ite (.refl _) ih
  | _ => exact .refl _

theorem co_evOr (hc : ∀ t, Co ov (fun k => c1 k t) (c2 t)) (e : Nat) (v : Val) : Co ov (fun k => evOr (c1 k) e v) (evOr c2 e v) := by
  induction v with
  | cons a d _ ih => exact .bind (.extend (hc _)) fun _ => .ite (.refl _) ih
  | _ => exact .refl _

theorem co_evLoopBody (hc : ∀ t, Co ov (fun k => c1 k t) (c2 t)) (e : Nat) (v : Val) :
    Co ov (fun k => evLoopBody (c1 k) e v) (evLoopBody c2 e v) := by
  induction v with
  | cons a d _ ih => exact .bind (.extend (hc _)) fun _ => ih
  | _ => exact .refl _

theorem co_evSwallow (hc : ∀ t, Co ov (fun k => c1 k t) (c2 t)) (e : Nat) (v : Val) :
    Co ov (fun k => evSwallow (c1 k) e v) (evSwallow c2 e v) := by
  induction v with
  | cons a d _ ih =>
    refine .bind (.attempt (hc _)) fun x => ?_
    cases x
    · exact .refl _
    · exact ih
  | _ => exact .refl _

theorem co_evDef (hc : ∀ t, Co ov (fun k => c1 k t) (c2 t)) (e : Nat) (v : Val) : Co ov (fun k => evDef (c1 k) e v) (evDef c2 e v) := by
  unfold evDef
  split
  · exact .bind (.extend (hc _)) fun _ => .refl _
  all_goals exact .refl _

theorem co_evSet (hc : ∀ t, Co ov (fun k => c1 k t) (c2 t)) (e : Nat) (v : Val) : Co ov (fun k => evSet (c1 k) e v) (evSet c2 e v) := by
  unfold evSet
  split
  · exact .bind (.extend (hc _)) fun _ => .refl _
  all_goals exact .refl _

theorem co_evErrorsLoop (hc : ∀ t, Co ov (fun k => c1 k t) (c2 t)) (e : Nat) (args : Val) (es : List Char) (v : Val) :
    Co ov (fun k => evErrorsLoop (c1 k) e args es v) (evErrorsLoop c2 e args es v) := by
  induction v with
  | cons a d _ ih =>
    refine .bind (.attempt (hc _)) fun x => ?_
    cases x
    · exact .refl _
    · exact ih
  | _ => exact .refl _

theorem co_evErrors (hc : ∀ t, Co ov (fun k => c1 k t) (c2 t)) (e : Nat) (v : Val) : Co ov (fun k => evErrors (c1 k) e v) (evErrors c2 e v) := by
  unfold evErrors
  split
  · exact .ite (.bind (.extend (hc _)) fun _ => .ite (co_evErrorsLoop hc _ _ _ _) (.refl _)) (.refl _)
  · exact .refl _

theorem co_evError (hc : ∀ t, Co ov (fun k => c1 k t) (c2 t)) (e : Nat) (v : Val) : Co ov (fun k => evError (c1 k) e v) (evError c2 e v) := by
  unfold evError
  split
  · exact .bind (.extend (hc _)) fun _ => .refl _
  · exact .refl _

theorem co_evCatchBody (hc : ∀ t, Co ov (fun k => c1 k t) (c2 t)) (e : Nat) (v : Val) :
    ∀ ret, Co ov (fun k => evCatchBody (c1 k) e ret v) (evCatchBody c2 e ret v) := by
  induction v with
  | cons a d _ ih => intro ret; exact .bind (.extend (hc _)) fun _ => ih _
  | _ => intro _; exact .refl _

theorem co_evCatch (hc : ∀ t, Co ov (fun k => c1 k t) (c2 t)) (e : Nat) (ret : Val) (er : Err) (v : Val) :
    Co ov (fun k => evCatch (c1 k) e ret er v) (evCatch c2 e ret er v) := by
  unfold evCatch
  split
  · refine .bind (.refl _) fun _ => ?_
    split
    · exact .refl _
    · exact .bind (.refl _) fun _ => co_evCatchBody hc _ _ _
  all_goals exact .refl _

theorem co_evTry (hc : ∀ t, Co ov (fun k => c1 k t) (c2 t)) (e : Nat) (v : Val) :
    ∀ ret er, Co ov (fun k => evTry (c1 k) e ret er v) (evTry c2 e ret er v) := by
  induction v with
  | cons a d _ ih =>
    intro ret er
    unfold evTry
    refine .ite ?_ ?_
    · split
      · exact .refl _
      · split
        · exact co_evCatch hc _ _ _ _
        · exact .refl _
    · split
      · exact ih _ _
      · refine .bind (.attempt (hc _)) fun x => ?_
        cases x
        · exact ih _ _
        · exact ih _ _
  | _ => intro _ _; exact .refl _

theorem co_evLetBinds (hc : ∀ t, Co ov (fun k => c1 k t) (c2 t)) (e ne : Nat) (v : Val) :
    Co ov (fun k => evLetBinds (c1 k) e ne v) (evLetBinds c2 e ne v) := by
  induction v with
  | cons a d _ ih =>
    unfold evLetBinds
    split
    · split
      · exact .refl _
      · exact .bind (.extend (hc _)) fun _ => .bind (.refl _) fun _ => ih
      · exact .refl _
    · exact .refl _
  | _ => exact .refl _

theorem co_evLet (hc : ∀ t, Co ov (fun k => c1 k t) (c2 t)) (ht : ∀ t, Co ov (fun k => t1 k t) (t2 t)) (e : Nat) (v : Val) :
    Co ov (fun k => evLet (c1 k) (t1 k) e v) (evLet c2 t2 e v) := by
  unfold evLet
  split
  · exact .ite (.ite (.bind (.refl _) fun _ => .bind (co_evLetBinds hc _ _ _) fun _ =>
      .ite (co_evBodyTail hc ht _ _ _) (.refl _)) (.refl _)) (.refl _)
  · exact .refl _

theorem co_evTestLoop (hc : ∀ t, Co ov (fun k => c1 k t) (c2 t)) (e : Nat) (v : Val) :
    Co ov (fun k => evTestLoop (c1 k) e v) (evTestLoop c2 e v) := by
  induction v with
  | cons a d _ ih => exact .bind (.extend (hc _)) fun _ => .bind (.refl _) fun _ => ih
  | _ => exact .refl _

theorem co_evTest (hc : ∀ t, Co ov (fun k => c1 k t) (c2 t)) (e : Nat) (v : Val) : Co ov (fun k => evTest (c1 k) e v) (evTest c2 e v) := by
  unfold evTest
  split
  · exact .refl _
  · exact .bind (.extend (hc _)) fun _ => .bind (.refl _) fun _ => co_evTestLoop hc _ _
  · exact .refl _

theorem co_evSpecial (hc : ∀ t, Co ov (fun k => c1 k t) (c2 t)) (ht : ∀ t, Co ov (fun k => t1 k t) (t2 t)) (f : SF) (args : Val) (e : Nat) :
    Co ov (fun k => evSpecial (c1 k) (t1 k) f args e) (evSpecial c2 t2 f args e) := by
  cases f with
  | quote => exact .refl _
  | syntaxQuote =>
    simp only [evSpecial]
    split
    · split
      · exact ht _
      · exact .refl _
    · exact .refl _
  | test => exact .bind (.extend (co_evTest hc _ _)) fun _ => .refl _
  | cond => exact co_evCond hc ht _ _
  | and => exact co_evAnd hc _ _
  | or => exact co_evOr hc _ _
  | loop => exact ht _
  | swallow => exact co_evSwallow hc _ _
  | def_ => exact co_evDef hc _ _
  | set => exact co_evSet hc _ _
  | defn => exact .refl _
  | defmacro => exact .refl _
  | error => exact co_evError hc _ _
  | errors => exact co_evErrors hc _ _
  | try_ => exact co_evTry hc _ _ _ _
  | let_ => exact co_evLet hc ht _ _
  | lambda => exact .refl _

theorem co_evApply (hc : ∀ t, Co ov (fun k => c1 k t) (c2 t)) (ht : ∀ t, Co ov (fun k => t1 k t) (t2 t)) (f : Val) (args : List Val) (e : Nat) :
    Co ov (fun k => evApply (c1 k) (t1 k) f args e) (evApply c2 t2 f args e) := by
  unfold evApply
  split
  · exact .bind (.refl _) fun _ => .bind (.refl _) fun _ => co_evBodyTail hc ht _ _ _
  · exact .extend (hc _)
  · exact .refl _

theorem co_evExpr (hc : ∀ t, Co ov (fun k => c1 k t) (c2 t)) (ht : ∀ t, Co ov (fun k => t1 k t) (t2 t)) (x : Val) (e : Nat) :
    Co ov (fun k => evExpr (c1 k) (t1 k) x e) (evExpr c2 t2 x e) := by
  have hcall : ∀ f args, Co ov (fun k => evCall (c1 k) (t1 k) f args e) (evCall c2 t2 f args e) := fun f args =>
    .bind (.extend (hc _)) fun _ => .bind (co_evArgs hc _ _) fun _ => co_evApply hc ht _ _ _
  unfold evExpr
  split
  · exact .refl _
  · exact .refl _
  · exact .refl _
  · refine .ite ?_ (.refl _)
    split
    · split
      · exact co_evSpecial hc ht _ _ _
      · exact hcall _ _
    · exact hcall _ _
  · exact .refl _

theorem co_evalStep (hc : ∀ t, Co ov (fun k => c1 k t) (c2 t)) (ht : ∀ t, Co ov (fun k => t1 k t) (t2 t)) (x : Val) (e : Nat) :
    Co ov (fun k => evalStep (c1 k) (t1 k) x e) (evalStep c2 t2 x e) := by
  unfold evalStep
  exact .bind (.refl _) fun _ => .ite (.bind (.extend (hc _)) fun _ => co_evExpr hc ht _ _) (co_evExpr hc ht _ _)

theorem co_applyTo (hc : ∀ t, Co ov (fun k => c1 k t) (c2 t)) (f : Val) (args : List Val) (e : Nat) :
    Co ov (fun k => applyTo (c1 k) f args e) (applyTo c2 f args e) := by
  unfold applyTo
  split
  · exact .bind (.refl _) fun _ => .bind (.refl _) fun _ => co_evBodyApply hc _ _ _
  · exact .extend (hc _)
  · exact .refl _

theorem co_applyFn (hc : ∀ t, Co ov (fun k => c1 k t) (c2 t)) (args : List Val) (e : Nat) :
    Co ov (fun k => applyFn (c1 k) args e) (applyFn c2 args e) := by
  unfold applyFn
  split
  · refine .ite ?_ (.refl _)
    split
    · exact .refl _
    · exact co_applyTo hc _ _ _
  · exact .refl _

theorem co_evalExprs (hc : ∀ t, Co ov (fun k => c1 k t) (c2 t)) (p : Bool) (e : Nat) (gs : List Val) :
    Co ov (fun k => evalExprs (c1 k) p e gs) (evalExprs c2 p e gs) := by
  induction gs with
  | nil => exact .refl _
  | cons g gs ih =>
    refine .bind (.attempt (hc _)) fun x => ?_
    cases x
    · exact .refl _
    · exact .ite (.bind (.refl _) fun _ => ih) ih

theorem co_lexParseEval (hc : ∀ t, Co ov (fun k => c1 k t) (c2 t)) (text : List Char) (e : Nat) :
    Co ov (fun k => lexParseEval (c1 k) text e) (lexParseEval c2 text e) :=
  .bind (.refl _) fun _ => co_evalExprs hc _ _ _

theorem co_loadFile (hc : ∀ t, Co ov (fun k => c1 k t) (c2 t)) (name : String) (e : Nat) :
    Co ov (fun k => loadFile W (c1 k) name e) (loadFile W c2 name e) := by
  refine .bind (.refl _) fun x => ?_
  cases x
  · exact .refl _
  · exact co_lexParseEval hc _ _

theorem co_sortByLess (hc : ∀ t, Co ov (fun k => c1 k t) (c2 t)) (f : Val) (e : Nat) (a b : Val) :
    Co ov (fun k => sortByLess (c1 k) f e a b) (sortByLess c2 f e a b) :=
  .bind (co_applyFn hc _ _) fun _ => .bind (co_applyFn hc _ _) fun _ => .refl _

theorem co_sortRun (hc : ∀ t, Co ov (fun k => c1 k t) (c2 t)) (f : Val) (e : Nat) (t : Sorter) :
    ∀ xs er, Co ov (fun k => sortRun (c1 k) f e t xs er) (sortRun c2 f e t xs er) := by
  induction t with
  | done => intro _ _; exact .refl _
  | swap i j next ih => intro xs er; exact ih _ _
  | less i j yes no ihy ihn =>
    intro xs er
    simp only [sortRun]
    split
    · refine .bind (.attempt (co_sortByLess hc _ _ _ _)) fun r => ?_
      split
      · exact ihn _ _
      · exact ihy _ _
      · exact ihn _ _
    · exact ihn _ _

theorem co_bSortBy (hc : ∀ t, Co ov (fun k => c1 k t) (c2 t)) (args : List Val) (e : Nat) :
    Co ov (fun k => bSortBy W (c1 k) args e) (bSortBy W c2 args e) := by
  unfold bSortBy
  split
  · refine .ite ?_ (.refl _)
    split
    · exact .refl _
    · exact .bind (co_sortRun hc _ _ _ _ _) fun _ => .refl _
  · exact .refl _

theorem co_runExamples (hc : ∀ t, Co ov (fun k => c1 k t) (c2 t)) (e : Nat) (v : Val) :
    Co ov (fun k => runExamples (c1 k) e v) (runExamples c2 e v) := by
  induction v with
  | cons a d _ ih => exact .ite (.refl _) (.bind (.attempt (hc _)) fun _ => .bind ih fun _ => .refl _)
  | _ => exact .refl _

theorem co_formsOfBuiltins (hc : ∀ t, Co ov (fun k => c1 k t) (c2 t)) (e : Nat) (bs : List BI) :
    Co ov (fun k => formsOfBuiltins W (c1 k) e bs) (formsOfBuiltins W c2 e bs) := by
  induction bs with
  | nil => exact .refl _
  | cons b bs ih => exact .bind (co_runExamples hc _ _) fun _ => .bind ih fun _ => .refl _

theorem co_formsOfKeys (hc : ∀ t, Co ov (fun k => c1 k t) (c2 t)) (e : Nat) (ks : List String) :
    Co ov (fun k => formsOfKeys (c1 k) e ks) (formsOfKeys c2 e ks) := by
  induction ks with
  | nil => exact .refl _
  | cons k ks ih =>
    refine .bind (.refl _) fun o => ?_
    split
    · refine .ite ?_ ih
      split
      · exact .refl _
      · exact .bind (co_runExamples hc _ _) fun _ => .bind ih fun _ => .refl _
    · exact ih

theorem co_availableForms (hc : ∀ t, Co ov (fun k => c1 k t) (c2 t)) (e : Nat) :
    Co ov (fun k => availableForms W (c1 k) e) (availableForms W c2 e) :=
  .bind (.refl _) fun _ => .bind (co_formsOfBuiltins hc _ _) fun _ => .bind (.refl _) fun _ =>
    .bind (.refl _) fun _ => .bind (co_formsOfKeys hc _ _) fun _ => .refl _

theorem co_biFn (hc : ∀ t, Co ov (fun k => c1 k t) (c2 t)) (b : BI) (args : List Val) (e : Nat) :
    Co ov (fun k => biFn W (c1 k) b args e) (biFn W c2 b args e) := by
  cases b with
  | apply => exact co_applyFn hc _ _
  | eval =>
    simp only [biFn, bEval]
    split
    · exact hc _
    · exact .refl _
  | forms => exact .bind (.extend (.extend (co_availableForms hc _))) fun _ => .refl _
  | help => exact .bind (co_availableForms hc _) fun _ => .refl _
  | load =>
    simp only [biFn, bLoad]
    split
    · exact .bind (.extend (co_loadFile hc _ _)) fun _ => .refl _
    all_goals exact .refl _
  | macroexpand1 =>
    simp only [biFn, bMacroexpand1]
    split
    · exact co_mexpand1 hc _ _
    · exact .refl _
  | sortBy => exact co_bSortBy hc _ _
  | _ => exact .refl _

theorem co_runStep (hc : ∀ t, Co ov (fun k => c1 k t) (c2 t)) (ht : ∀ t, Co ov (fun k => t1 k t) (t2 t)) (t : Task) :
    Co ov (fun k => runStep W (c1 k) (t1 k) t) (runStep W c2 t2 t) := by
  cases t with
  | eval x e => exact co_evalStep hc ht _ _
  | mexpand x e =>
    exact .bind (.extend (co_mexpand1 hc _ _)) fun _ => .bind (.refl _) fun _ => .ite (ht _) (.refl _)
  | loop body e => exact .bind (co_evLoopBody hc _ _) fun _ => ht _
  | builtin b args e => exact co_biFn hc _ _ _

end


end L1
