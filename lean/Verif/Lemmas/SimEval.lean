import Verif.Lemmas.Sim
/- The evaluator does the same on corresponding states. -/
set_option autoImplicit false
namespace L1

variable {R : Rn} {W : World} {c1 c2 t1 t2 : Task → M Val}

/-- The task with its scopes renumbered. -/
def Task.ren (ρ : Nat → Nat) : Task → Task
  | .eval x e => .eval (x.ren ρ) (ρ e)
  | .mexpand x e => .mexpand (x.ren ρ) (ρ e)
  | .loop b e => .loop (b.ren ρ) (ρ e)
  | .builtin b args e => .builtin b (args.map (Val.ren ρ)) (ρ e)

/-- The recursive calls correspond. -/
abbrev SimAll (R : Rn) (c1 c2 : Task → M Val) : Prop := ∀ n t, TaskOk n t → Sim R n VQ (Val.ren R.ρ) (c1 t) (c2 (t.ren R.ρ))

/-! ### Lambdas -/

theorem ren_splitDocCase (dd : Val) : ((match dd with | .cons .nil _ => Val.nil | dd => dd).ren R.ρ)
    = match dd.ren R.ρ with | .cons .nil _ => Val.nil | dd => dd := by
  cases dd with
  | cons a d => cases a <;> rfl
  | _ => rfl

theorem Sim.splitDoc {n : Nat} {b : Val} (h : VOk n b) :
    Sim R n (fun k r => VOk k r.1 ∧ VOk k r.2) (fun r => (r.1.ren R.ρ, r.2.ren R.ρ)) (splitDoc b) (splitDoc (b.ren R.ρ)) := by
  have hd : Sim R n (fun k r => VOk k r.1 ∧ VOk k r.2) (fun r => (r.1.ren R.ρ, r.2.ren R.ρ)) (Pure.pure (Val.nil, b))
      (Pure.pure (Val.nil, b.ren R.ρ)) := .pure (fun k hk => ⟨trivial, h.mono hk⟩) rfl
  cases b with
  | cons a rest =>
    cases a with
    | cons f dd =>
      cases f with
      | atom s =>
        by_cases hs : s = "doc"
        · subst hs
          simp only [Val.ren, L1.splitDoc, ren_isList]
          refine .ite Iff.rfl (fun _ => .ite Iff.rfl (fun _ => .pure (fun k hk => ⟨(docOf_vok _ h.1.2).mono hk, h.2.mono hk⟩) ?_)
            (fun _ => .crash)) (fun _ => .throwBase)
          exact Prod.ext (ren_splitDocCase dd).symm rfl
        · have e1 : ∀ r d, L1.splitDoc (.cons (.cons (.atom s) d) r) = Pure.pure (.nil, .cons (.cons (.atom s) d) r) := by
            intro r d
            unfold L1.splitDoc
            split
            · rename_i h; simp only [Val.cons.injEq, Val.atom.injEq] at h; exact absurd h.1.1 hs
            · rfl
          simp only [Val.ren] at hd ⊢
          rw [e1, e1]
          exact hd
      | _ => exact hd
    | _ => exact hd
  | _ => exact hd

theorem Sim.mkLambdaNamed {n e : Nat} {name : String} {cdr : Val} {m : Bool} (he : e < n) (h : VOk n cdr) :
    Sim R n VQ (Val.ren R.ρ) (mkLambdaNamed name cdr m e) (mkLambdaNamed name (cdr.ren R.ρ) m (R.ρ e)) := by
  cases cdr with
  | cons argList body =>
    simp only [Val.ren, L1.mkLambdaNamed, ren_isList, ren_parseParams]
    refine .ite Iff.rfl (fun _ => ?_) (fun _ => .throwBase)
    split
    · exact .throwBase
    · refine .ite Iff.rfl (fun _ => .throwBase) fun _ => .ite Iff.rfl (fun _ => .bind (.splitDoc h.2) ?_) (fun _ => .crash)
      rintro k ⟨doc, body'⟩ hk ⟨h1, h2⟩
      have hf : ∀ ps rest, VOk k (Val.lam ps rest body' doc m e) := fun _ _ => ⟨by omega, h2, h1⟩
      refine .ite Iff.rfl (fun _ => ?_) (fun _ => .pureV (hf _ _))
      exact .bind (.attempt (.setM (hf _ _))) fun k' _ hk' _ => .pureV ((hf _ _).mono hk')
  | _ => exact .throwBase

theorem Sim.mkLambda {n e : Nat} {cdr : Val} {m : Bool} (he : e < n) (h : VOk n cdr) :
    Sim R n VQ (Val.ren R.ρ) (mkLambda cdr m e) (mkLambda (cdr.ren R.ρ) m (R.ρ e)) := by
  cases cdr with
  | cons a rest =>
    cases a with
    | atom name =>
      simp only [Val.ren, L1.mkLambda, ren_isList]
      exact .ite Iff.rfl (fun _ => .mkLambdaNamed he h.2) (fun _ => .crash)
    | _ => exact Sim.mkLambdaNamed (name := "") (m := m) he h
  | _ => exact .throwBase

theorem Sim.bindParams {n e : Nat} (ps : List String) :
    ∀ vs : List Val, (∀ v ∈ vs, VOk n v) → Sim R n TQ id (bindParams e ps vs) (bindParams (R.ρ e) ps (vs.map (Val.ren R.ρ))) := by
  induction ps generalizing n with
  | nil => intro vs _; cases vs <;> exact .unit
  | cons p ps ih =>
    intro vs h
    cases vs with
    | nil => exact .unit
    | cons v vs =>
      exact .bind (.extend (.setM (h v (by simp)))) fun k _ hk _ =>
        ih vs fun w hw => (h w (by simp [hw])).mono hk

theorem Sim.bindArgs {n e : Nat} {ps : List String} {r : String} {args : List Val} (h : ∀ v ∈ args, VOk n v) :
    Sim R n TQ id (bindArgs e ps r args) (bindArgs (R.ρ e) ps r (args.map (Val.ren R.ρ))) := by
  unfold L1.bindArgs
  rw [List.length_map]
  refine .ite Iff.rfl (fun _ => .ite Iff.rfl (fun _ => .throwBase) fun _ => ?_)
    fun _ => .ite Iff.rfl (fun _ => .throwBase) fun _ => .ite Iff.rfl (fun _ => .throwBase) fun _ => .bindParams _ _ h
  rw [← List.map_drop, ← ren_vlist]
  refine .bind (.setM ?_) fun k _ hk _ => .bindParams _ _ fun v hv => (h v hv).mono hk
  rw [vok_vlist]
  exact fun x hx => h x (List.mem_of_mem_drop hx)

/-! ### The evaluator -/

theorem Sim.evArgs (hc : SimAll R c1 c2) {e : Nat} (v : Val) : ∀ {n : Nat}, e < n → VOk n v →
    Sim R n LQ (List.map (Val.ren R.ρ)) (evArgs c1 e v) (evArgs c2 (R.ρ e) (v.ren R.ρ)) := by
  induction v with
  | nil => intro n _ _; exact .pure (fun _ _ x hx => by cases hx) rfl
  | cons a d _ ih =>
    intro n he hv
    refine .bind (.extend (hc n _ ⟨hv.1, he⟩)) fun k w hk hw => ?_
    refine .bind (ih (n := k) (by omega) (hv.2.mono hk)) fun k' ws hk' hws => ?_
    refine .pure (fun k'' hk'' x hx => ?_) rfl
    rcases List.mem_cons.1 hx with rfl | hx
    · exact hw.mono (by omega)
    · exact (hws x hx).mono hk''
  | _ => intro n _ _; exact .crash

theorem Sim.evBodyTail (hc : SimAll R c1 c2) (ht : SimAll R t1 t2) {wrap : Val → Val}
    (hw : ∀ n v, VOk n v → VOk n (wrap v)) (hwr : ∀ v, wrap (v.ren R.ρ) = (wrap v).ren R.ρ) {e : Nat} (v : Val) :
    ∀ {n : Nat}, e < n → VOk n v →
      Sim R n VQ (Val.ren R.ρ) (evBodyTail c1 t1 wrap e v) (evBodyTail c2 t2 wrap (R.ρ e) (v.ren R.ρ)) := by
  induction v with
  | nil => intro n _ _; exact .pureV trivial
  | cons a d _ ih =>
    intro n he hv
    have hrec : Sim R n VQ (Val.ren R.ρ) (L1.extendWith (wrap a) (c1 (.eval a e)) >>= fun _ => L1.evBodyTail c1 t1 wrap e d)
        (L1.extendWith (wrap (a.ren R.ρ)) (c2 (.eval (a.ren R.ρ) (R.ρ e))) >>= fun _ => L1.evBodyTail c2 t2 wrap (R.ρ e) (d.ren R.ρ)) :=
      .bind (.extendWith (hw n a hv.1) (hwr a) (hc n _ ⟨hv.1, he⟩)) fun k _ hk _ => ih (n := k) (by omega) (hv.2.mono hk)
    cases d with
    | nil => exact ht n _ ⟨hv.1, he⟩
    | _ => exact hrec
  | _ => intro n _ _; exact .crash

theorem Sim.evBodyApply (hc : SimAll R c1 c2) {e : Nat} (v : Val) :
    ∀ {n : Nat} {ret : Val}, VOk n ret → e < n → VOk n v →
      Sim R n VQ (Val.ren R.ρ) (evBodyApply c1 e ret v) (evBodyApply c2 (R.ρ e) (ret.ren R.ρ) (v.ren R.ρ)) := by
  induction v with
  | nil => intro n ret hr _ _; exact .pureV hr
  | cons a d _ ih =>
    intro n ret _ he hv
    exact .bind (.extend (hc n _ ⟨hv.1, he⟩)) fun k w hk hw => ih (n := k) hw (by omega) (hv.2.mono hk)
  | _ => intro n _ _ _ _; exact .crash

theorem Sim.evBodyMacro (hc : SimAll R c1 c2) {e : Nat} (v : Val) :
    ∀ {n : Nat} {ret : Val}, VOk n ret → e < n → VOk n v →
      Sim R n VQ (Val.ren R.ρ) (evBodyMacro c1 e ret v) (evBodyMacro c2 (R.ρ e) (ret.ren R.ρ) (v.ren R.ρ)) := by
  induction v with
  | nil => intro n ret hr _ _; exact .pureV hr
  | cons a d _ ih =>
    intro n ret _ he hv
    exact .bind (.extend (hc n _ ⟨hv.1, he⟩)) fun k w hk hw => ih (n := k) hw (by omega) (hv.2.mono hk)
  | _ => intro n _ _ _ _; exact .throwBase

theorem Sim.mexpand1 (hc : SimAll R c1 c2) {n e : Nat} {x : Val} (he : e < n) (hx : VOk n x) :
    Sim R n VQ (Val.ren R.ρ) (mexpand1 c1 x e) (mexpand1 c2 (x.ren R.ρ) (R.ρ e)) := by
  unfold L1.mexpand1
  refine .bind (.isMacroCallM x e) fun k b hk _ => .ite Iff.rfl (fun _ => ?_) (fun _ => .pureV (hx.mono hk))
  cases x with
  | cons a cdr =>
    cases a with
    | atom f =>
      refine .bind (.lookupM _ _) fun k' o hk' ho => ?_
      cases o with
      | none => exact .crash
      | some v =>
        cases v with
        | lam ps r body dc mm env =>
          simp only [Option.map_some, Val.ren, ren_toList?]
          cases hargs : cdr.toList? with
          | none => simp only [Option.map_none]; exact .extend .throwBase
          | some args =>
            simp only [Option.map_some]
            have hbody := (ho _ rfl).2.1
            have hargs' := vok_toList? (hx.2.mono (Nat.le_trans hk hk')) hargs
            refine .bind (.newEnvM (n := k') (by omega)) fun k2 i hk2 hi => ?_
            refine .bind (.extend (.bindArgs fun v hv => (hargs' v hv).mono hk2)) fun k3 _ hk3 _ => ?_
            exact .evBodyMacro hc _ trivial (by omega) (hbody.mono (by omega))
        | _ => exact .crash
    | _ => exact .throwBase
  | _ => exact .throwBase

theorem Sim.evCond (hc : SimAll R c1 c2) (ht : SimAll R t1 t2) {e : Nat} (v : Val) :
    ∀ {n : Nat}, e < n → VOk n v → Sim R n VQ (Val.ren R.ρ) (evCond c1 t1 e v) (evCond c2 t2 (R.ρ e) (v.ren R.ρ)) := by
  induction v with
  | nil => intro n _ _; exact .pureV trivial
  | cons p d _ ih =>
    intro n he hv
    cases p with
    | cons c body =>
      refine .bind (.extend (hc n _ ⟨hv.1.1, he⟩)) fun k w hk hw => .ite ren_eq_nil (fun _ => ih (by omega) (hv.2.mono hk)) fun _ => ?_
      cases body with
      | cons b _ => exact ht k _ ⟨hv.1.2.1.mono hk, by omega⟩
      | _ => exact .throwBase
    | _ => exact .throwBase
  | _ => intro n _ _; exact .crash

theorem Sim.evAnd (hc : SimAll R c1 c2) {e : Nat} (v : Val) :
    ∀ {n : Nat}, e < n → VOk n v → Sim R n VQ (Val.ren R.ρ) (evAnd c1 e v) (evAnd c2 (R.ρ e) (v.ren R.ρ)) := by
  induction v with
  | nil => intro n _ _; exact .pureV trivial
  | cons a d _ ih =>
    intro n he hv
    exact .bind (.extend (hc n _ ⟨hv.1, he⟩)) fun k w hk hw =>
      .ite ren_eq_nil (fun _ => .pureV trivial) (fun _ => ih (by omega) (hv.2.mono hk))
  | _ => intro n _ _; exact .throwBase

theorem Sim.evOr (hc : SimAll R c1 c2) {e : Nat} (v : Val) :
    ∀ {n : Nat}, e < n → VOk n v → Sim R n VQ (Val.ren R.ρ) (evOr c1 e v) (evOr c2 (R.ρ e) (v.ren R.ρ)) := by
  induction v with
  | nil => intro n _ _; exact .pureV trivial
  | cons a d _ ih =>
    intro n he hv
    exact .bind (.extend (hc n _ ⟨hv.1, he⟩)) fun k w hk hw =>
      .ite (not_congr ren_eq_nil) (fun _ => .pureV hw) (fun _ => ih (by omega) (hv.2.mono hk))
  | _ => intro n _ _; exact .throwBase

theorem Sim.evLoopBody (hc : SimAll R c1 c2) {e : Nat} (v : Val) :
    ∀ {n : Nat}, e < n → VOk n v → Sim R n TQ id (evLoopBody c1 e v) (evLoopBody c2 (R.ρ e) (v.ren R.ρ)) := by
  induction v with
  | nil => intro n _ _; exact .unit
  | cons a d _ ih =>
    intro n he hv
    exact .bind (.extend (hc n _ ⟨hv.1, he⟩)) fun k w hk hw => ih (by omega) (hv.2.mono hk)
  | _ => intro n _ _; exact .crash

theorem Sim.evSwallow (hc : SimAll R c1 c2) {e : Nat} (v : Val) :
    ∀ {n : Nat}, e < n → VOk n v → Sim R n VQ (Val.ren R.ρ) (evSwallow c1 e v) (evSwallow c2 (R.ρ e) (v.ren R.ρ)) := by
  induction v with
  | nil => intro n _ _; exact .pureV trivial
  | cons a d _ ih =>
    intro n he hv
    refine .bind (.attempt (hc n _ ⟨hv.1, he⟩)) fun k w hk hw => ?_
    cases w with
    | error _ => exact .pureV trivial
    | ok _ => exact ih (by omega) (hv.2.mono hk)
  | _ => intro n _ _; exact .crash

theorem Sim.evDef (hc : SimAll R c1 c2) {n e : Nat} {v : Val} (he : e < n) (hv : VOk n v) :
    Sim R n VQ (Val.ren R.ρ) (evDef c1 e v) (evDef c2 (R.ρ e) (v.ren R.ρ)) := by
  cases v with
  | cons a d =>
    cases a with
    | atom name =>
      cases d with
      | cons x d' =>
        exact .bind (.extend (hc n _ ⟨hv.2.1, he⟩)) fun k w hk hw =>
          .bind (.extend (.setTopM hw)) fun k' _ hk' _ => .pureV (hw.mono hk')
      | _ => exact .throwBase
    | _ => exact .throwBase
  | _ => exact .throwBase

theorem Sim.evSet (hc : SimAll R c1 c2) {n e : Nat} {v : Val} (he : e < n) (hv : VOk n v) :
    Sim R n VQ (Val.ren R.ρ) (evSet c1 e v) (evSet c2 (R.ρ e) (v.ren R.ρ)) := by
  cases v with
  | cons a d =>
    cases a with
    | atom name =>
      cases d with
      | cons x d' =>
        exact .bind (.extend (hc n _ ⟨hv.2.1, he⟩)) fun k w hk hw =>
          .bind (.extend (.updateM hw)) fun k' _ hk' _ => .pureV (hw.mono hk')
      | _ => exact .throwBase
    | _ => exact .throwBase
  | _ => exact .throwBase

theorem Sim.evDefn {n e : Nat} {m : Bool} {v : Val} (he : e < n) (hv : VOk n v) :
    Sim R n VQ (Val.ren R.ρ) (evDefn m e v) (evDefn m (R.ρ e) (v.ren R.ρ)) := by
  cases v with
  | cons a d =>
    cases a with
    | atom name =>
      cases d with
      | cons x d' =>
        exact .bind (.extend (.mkLambda he hv.2)) fun k w hk hw =>
          .bind (.extend (.setTopM hw)) fun k' _ hk' _ => .pureV trivial
      | nil => exact .throwBase
      | _ => exact .crash
    | _ => exact .throwBase
  | _ => exact .throwBase

theorem Sim.evErrorsLoop (hc : SimAll R c1 c2) {e : Nat} {args : Val} {es : List Char} (v : Val) :
    ∀ {n : Nat}, e < n → VOk n v →
      Sim R n VQ (Val.ren R.ρ) (evErrorsLoop c1 e args es v) (evErrorsLoop c2 (R.ρ e) (args.ren R.ρ) es (v.ren R.ρ)) := by
  induction v with
  | nil => intro n _ _; exact .throwBase
  | cons a d _ ih =>
    intro n he hv
    refine .bind (.attempt (hc n _ ⟨hv.1, he⟩)) fun k w hk hw => ?_
    cases w with
    | error _ => exact .ite (by rw [ren_errStr]) (fun _ => .pureV trivial) (fun _ => .throwBase)
    | ok _ => exact ih (by omega) (hv.2.mono hk)
  | _ => intro n _ _; exact .crash

theorem Sim.evErrors (hc : SimAll R c1 c2) {n e : Nat} {v : Val} (he : e < n) (hv : VOk n v) :
    Sim R n VQ (Val.ren R.ρ) (evErrors c1 e v) (evErrors c2 (R.ρ e) (v.ren R.ρ)) := by
  cases v with
  | cons sig body =>
    refine .ite (by rw [ren_isList]) (fun _ => .bind (.extend (hc n _ ⟨hv.1, he⟩)) fun k w hk hw => ?_) (fun _ => .throwBase)
    simp only [ren_unwrap]
    exact .ite (by rw [ren_isList]) (fun _ => .evErrorsLoop hc (args := .cons sig body) _ (by omega) (hv.2.mono hk)) (fun _ => .throwBase)
  | _ => exact .throwBase

theorem Sim.evError (hc : SimAll R c1 c2) {n e : Nat} {v : Val} (he : e < n) (hv : VOk n v) :
    Sim R n VQ (Val.ren R.ρ) (evError c1 e v) (evError c2 (R.ρ e) (v.ren R.ρ)) := by
  cases v with
  | cons x d => exact .bind (.extend (hc n _ ⟨hv.1, he⟩)) fun k w hk hw => .throwUser hw
  | _ => exact .throwBase

theorem Sim.evCatchBody (hc : SimAll R c1 c2) {e : Nat} (v : Val) :
    ∀ {n : Nat} {ret : Val}, VOk n ret → e < n → VOk n v →
      Sim R n VQ (Val.ren R.ρ) (evCatchBody c1 e ret v) (evCatchBody c2 (R.ρ e) (ret.ren R.ρ) (v.ren R.ρ)) := by
  induction v with
  | nil => intro n ret hr _ _; exact .pureV hr
  | cons a d _ ih =>
    intro n ret _ he hv
    exact .bind (.extend (hc n _ ⟨hv.1, he⟩)) fun k w hk hw => ih hw (by omega) (hv.2.mono hk)
  | _ => intro n _ _ _ _; exact .throwBase

theorem Sim.evCatch (hc : SimAll R c1 c2) {n e : Nat} {ret v : Val} {er : Err} (hr : VOk n ret) (her : EOk n er)
    (he : e < n) (hv : VOk n v) :
    Sim R n VQ (Val.ren R.ρ) (evCatch c1 e ret er v) (evCatch c2 (R.ρ e) (ret.ren R.ρ) (er.ren R.ρ) (v.ren R.ρ)) := by
  cases v with
  | cons a body =>
    cases a with
    | atom name =>
      refine .bind (.newEnvM he) fun k i hk hi => ?_
      cases er with
      | foreign _ => exact .throwBase
      | list w =>
        exact .bind (.attempt (.setM (her.vok.mono hk))) fun k' _ hk' _ =>
          .evCatchBody hc _ (hr.mono (by omega)) (by omega) (hv.2.mono (by omega))
    | _ => exact .throwBase
  | nil => exact .crash
  | _ => exact .throwBase

theorem Sim.evTry (hc : SimAll R c1 c2) {e : Nat} (v : Val) :
    ∀ {n : Nat} {ret : Val} {er : Option Err}, VOk n ret → (∀ x, er = some x → EOk n x) → e < n → VOk n v →
      Sim R n VQ (Val.ren R.ρ) (evTry c1 e ret er v) (evTry c2 (R.ρ e) (ret.ren R.ρ) (er.map (Err.ren R.ρ)) (v.ren R.ρ)) := by
  induction v with
  | nil =>
    intro n ret er hr her _ _
    cases er with
    | none => exact .pureV hr
    | some x => exact .throwErr (her x rfl)
  | cons a d _ ih =>
    intro n ret er hr her he hv
    simp only [Val.ren, L1.evTry, ren_startsWith]
    refine .ite Iff.rfl (fun _ => ?_) (fun _ => ?_)
    · cases er with
      | none => exact .pureV hr
      | some x =>
        cases a with
        | cons a' clause => exact .evCatch hc hr (her _ rfl) he hv.1.2
        | _ => exact .pureV hr
    · cases er with
      | some x => exact ih (er := some x) hr her he hv.2
      | none =>
        refine .bind (.attempt (hc n _ ⟨hv.1, he⟩)) fun k w hk hw => ?_
        cases w with
        | error x => exact ih (er := some x) (hr.mono hk) (by intro y hy; injection hy with hy; subst hy; exact hw) (by omega) (hv.2.mono hk)
        | ok x => exact ih (er := none) hw (by intro y hy; cases hy) (by omega) (hv.2.mono hk)
  | _ => intro n _ _ _ _ _ _; exact .throwBase

theorem Sim.evLetBinds (hc : SimAll R c1 c2) {e ne : Nat} (v : Val) :
    ∀ {n : Nat}, e < n → VOk n v → Sim R n TQ id (evLetBinds c1 e ne v) (evLetBinds c2 (R.ρ e) (R.ρ ne) (v.ren R.ρ)) := by
  induction v with
  | nil => intro n _ _; exact .pure (fun _ _ => trivial) rfl
  | cons b d _ ih =>
    intro n he hv
    cases b with
    | cons nm bd =>
      cases nm with
      | atom name =>
        cases bd with
        | nil => exact .pure (fun _ _ => trivial) rfl
        | cons x _ =>
          exact .bind (.extend (hc n _ ⟨hv.1.2.1, he⟩)) fun k w hk hw =>
            .bind (.extend (.setM hw)) fun k' _ hk' _ => ih (by omega) (hv.2.mono (by omega))
        | _ => exact .throwBase
      | _ => exact .throwBase
    | _ => exact .throwBase
  | _ => intro n _ _; exact .crash

theorem Sim.evLet (hc : SimAll R c1 c2) (ht : SimAll R t1 t2) {n e : Nat} {v : Val} (he : e < n) (hv : VOk n v) :
    Sim R n VQ (Val.ren R.ρ) (evLet c1 t1 e v) (evLet c2 t2 (R.ρ e) (v.ren R.ρ)) := by
  cases v with
  | cons bindings body =>
    refine .ite (by rw [ren_isList]) (fun _ => .ite (by rw [ren_isList]) (fun _ => ?_) (fun _ => .throwBase)) (fun _ => .throwBase)
    refine .bind (.newEnvM he) fun k i hk hi => ?_
    refine .bind (.evLetBinds hc _ (by omega) (hv.1.mono hk)) fun k' b hk' _ => .ite Iff.rfl (fun _ => ?_) (fun _ => .pureV trivial)
    exact .evBodyTail hc ht (fun n _ _ => vok_msgList n _) (fun _ => (ren_msgList _).symm) _ (by omega) (hv.2.mono (by omega))
  | _ => exact .throwBase

theorem Sim.evTestLoop (hc : SimAll R c1 c2) {e : Nat} (v : Val) :
    ∀ {n : Nat}, e < n → VOk n v → Sim R n TQ id (evTestLoop c1 e v) (evTestLoop c2 (R.ρ e) (v.ren R.ρ)) := by
  induction v with
  | nil => intro n _ _; exact .printM
  | cons a d _ ih =>
    intro n he hv
    exact .bind (.extend (hc n _ ⟨hv.1, he⟩) (by rw [ren_toStr])) fun k w hk hw =>
      .bind .printM fun k' _ hk' _ => ih (by omega) (hv.2.mono (by omega))
  | _ => intro n _ _; exact .throwBase

theorem Sim.evTest (hc : SimAll R c1 c2) {n e : Nat} {v : Val} (he : e < n) (hv : VOk n v) :
    Sim R n TQ id (evTest c1 e v) (evTest c2 (R.ρ e) (v.ren R.ρ)) := by
  cases v with
  | cons desc d =>
    exact .bind (.extend (hc n _ ⟨hv.1, he⟩)) fun k w hk hw =>
      .bind (.printM (by rw [ren_str])) fun k' _ hk' _ => .evTestLoop hc _ (by omega) (hv.2.mono (by omega))
  | _ => exact .unit

theorem Sim.evSpecial (hc : SimAll R c1 c2) (ht : SimAll R t1 t2) {f : SF} {n e : Nat} {args : Val} (he : e < n)
    (hv : VOk n args) : Sim R n VQ (Val.ren R.ρ) (evSpecial c1 t1 f args e) (evSpecial c2 t2 f (args.ren R.ρ) (R.ρ e)) := by
  cases f with
  | quote =>
    cases args with
    | cons x d => exact .pureV hv.1
    | _ => exact .throwBase
  | syntaxQuote =>
    cases args with
    | cons x d =>
      simp only [L1.evSpecial, Val.ren, (ren_sq x).2]
      cases hx : L1.syntaxQuote x with
      | none => exact .crash
      | some y => exact ht n _ ⟨(sq_vok _ hv.1).2 y hx, he⟩
    | _ => exact .throwBase
  | test => exact .bind (.extend (.evTest hc he hv)) fun k _ _ _ => .pureV trivial
  | cond => exact .evCond hc ht _ he hv
  | and => exact .evAnd hc _ he hv
  | or => exact .evOr hc _ he hv
  | loop => exact ht n _ ⟨hv, he⟩
  | swallow => exact .evSwallow hc _ he hv
  | def_ => exact .evDef hc he hv
  | set => exact .evSet hc he hv
  | defn => exact .evDefn he hv
  | defmacro => exact .evDefn he hv
  | error => exact .evError hc he hv
  | errors => exact .evErrors hc he hv
  | try_ => exact .evTry hc (er := none) _ trivial (by intro x hx; cases hx) he hv
  | let_ => exact .evLet hc ht he hv
  | lambda => exact .mkLambda he hv

theorem Sim.evApply (hc : SimAll R c1 c2) (ht : SimAll R t1 t2) {f : Val} {args : List Val} {n e : Nat} (he : e < n)
    (hf : VOk n f) (ha : ∀ a ∈ args, VOk n a) :
    Sim R n VQ (Val.ren R.ρ) (evApply c1 t1 f args e) (evApply c2 t2 (f.ren R.ρ) (args.map (Val.ren R.ρ)) (R.ρ e)) := by
  cases f with
  | lam ps r body dc mm env =>
    refine .bind (.newEnvM hf.1) fun k i hk hi => ?_
    refine .bind (.extend (.bindArgs fun v hv => (ha v hv).mono hk)) fun k' _ hk' _ => ?_
    refine .evBodyTail hc ht ?_ (fun v => by rw [ren_vlist]; rfl) _ (by omega) (hf.2.1.mono (by omega))
    intro n v hv; rw [vok_vlist]; simp [VOk, hv]
  | bi b => exact .extend (hc n _ ⟨ha, he⟩)
  | _ => exact .throwBase

theorem Sim.evAtom {n e : Nat} (a : String) : Sim R n VQ (Val.ren R.ρ) (evAtom a e) (evAtom a (R.ρ e)) := by
  unfold L1.evAtom
  refine .ite Iff.rfl (fun _ => .pureV trivial) (fun _ => .bind (.lookupM _ _) fun k o hk ho => ?_)
  cases o with
  | some v => exact .pureV (ho _ rfl)
  | none =>
    simp only [Option.map_none]
    split
    · exact .pureV trivial
    · exact .throwBase

theorem Sim.evExpr (hc : SimAll R c1 c2) (ht : SimAll R t1 t2) {n e : Nat} {x : Val} (he : e < n)
    (hx : VOk n x) : Sim R n VQ (Val.ren R.ρ) (evExpr c1 t1 x e) (evExpr c2 t2 (x.ren R.ρ) (R.ρ e)) := by
  have hcall : ∀ f args, VOk n f → VOk n args →
      Sim R n VQ (Val.ren R.ρ) (L1.evCall c1 t1 f args e) (L1.evCall c2 t2 (f.ren R.ρ) (args.ren R.ρ) (R.ρ e)) := fun f args hf ha =>
    .bind (.extend (hc n _ ⟨hf, he⟩)) fun k w hk hw =>
      .bind (.evArgs hc _ (n := k) (by omega) (ha.mono hk)) fun k' ws hk' hws =>
        .evApply hc ht (by omega) (hw.mono hk') hws
  cases x with
  | atom a => exact .ite Iff.rfl (fun _ => .pureV (vok_cxr n e he _) (ren_cxr _ _).symm) (fun _ => .evAtom a)
  | num a => exact .pureV trivial
  | nil => exact .pureV trivial
  | cons f d =>
    refine .ite (by rw [ren_isList]) (fun _ => ?_) (fun _ => .throwBase)
    cases f with
    | atom s =>
      simp only [Val.ren]
      cases hs : specialOf s with
      | some sf => exact .evSpecial hc ht he hx.2
      | none => exact hcall _ _ hx.1 hx.2
    | _ => exact hcall _ _ hx.1 hx.2
  | lam ps r b dc m e' =>
    exact .throwBase (by rw [ren_str])
  | bi b => exact .throwBase rfl

theorem Sim.evalStep (hc : SimAll R c1 c2) (ht : SimAll R t1 t2) {n e : Nat} {x : Val} (he : e < n)
    (hx : VOk n x) : Sim R n VQ (Val.ren R.ρ) (evalStep c1 t1 x e) (evalStep c2 t2 (x.ren R.ρ) (R.ρ e)) := by
  unfold L1.evalStep
  refine .bind (.isMacroCallM x e) fun k b hk _ => .ite Iff.rfl (fun _ => ?_) (fun _ => .evExpr hc ht (by omega) (hx.mono hk))
  exact .bind (.extend (hc k _ ⟨hx.mono hk, by omega⟩)) fun k' y hk' hy => .evExpr hc ht (by omega) hy

end L1
