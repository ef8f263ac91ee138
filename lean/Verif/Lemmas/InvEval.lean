import Verif.Lemmas.Inv
/- The invariant is preserved by the evaluator. -/
set_option autoImplicit false
namespace L1

/-! ### The evaluator -/

/-- A task refers to existing scopes only. -/
def TaskOk (n : Nat) : Task → Prop
  | .eval x e => VOk n x ∧ e < n
  | .mexpand x e => VOk n x ∧ e < n
  | .loop b e => VOk n b ∧ e < n
  | .builtin _ args e => (∀ a ∈ args, VOk n a) ∧ e < n

section
variable {W : World} {call tail : Task → M Val}

/-- The recursive calls are safe. -/
abbrev SafeAll (f : Task → M Val) : Prop := ∀ n t, TaskOk n t → Safe n VQ (f t)

theorem Safe.evArgs (hc : SafeAll call) {e : Nat} (v : Val) : ∀ {n : Nat}, e < n → VOk n v → Safe n LQ (evArgs call e v) := by
  induction v with
  | nil => intro n _ _; exact .pure fun _ _ x hx => by cases hx
  | cons a d _ ih =>
    intro n he hv
    refine .bind (.extend (hc n _ ⟨hv.1, he⟩)) fun k w hk hw => ?_
    refine .bind (ih (n := k) (by omega) (hv.2.mono hk)) fun k' ws hk' hws => ?_
    refine .pure fun k'' hk'' x hx => ?_
    rcases List.mem_cons.1 hx with rfl | hx
    · exact hw.mono (by omega)
    · exact (hws x hx).mono hk''
  | _ => intro n _ _; exact .crash

theorem Safe.evBodyTail (hc : SafeAll call) (ht : SafeAll tail) {wrap : Val → Val}
    (hw : ∀ n v, VOk n v → VOk n (wrap v)) {e : Nat} (v : Val) :
    ∀ {n : Nat}, e < n → VOk n v → Safe n VQ (evBodyTail call tail wrap e v) := by
  induction v with
  | nil => intro n _ _; exact .pureV trivial
  | cons a d _ ih =>
    intro n he hv
    have hrec : Safe n VQ (L1.extendWith (wrap a) (call (.eval a e)) >>= fun _ => L1.evBodyTail call tail wrap e d) :=
      .bind (.extendWith (hw n a hv.1) (hc n _ ⟨hv.1, he⟩)) fun k _ hk _ => ih (n := k) (by omega) (hv.2.mono hk)
    cases d with
    | nil => exact ht n _ ⟨hv.1, he⟩
    | _ => exact hrec
  | _ => intro n _ _; exact .crash

theorem Safe.evBodyApply (hc : SafeAll call) {e : Nat} (v : Val) :
    ∀ {n : Nat} {ret : Val}, VOk n ret → e < n → VOk n v → Safe n VQ (evBodyApply call e ret v) := by
  induction v with
  | nil => intro n ret hr _ _; exact .pureV hr
  | cons a d _ ih =>
    intro n ret _ he hv
    exact .bind (.extend (hc n _ ⟨hv.1, he⟩)) fun k w hk hw => ih (n := k) hw (by omega) (hv.2.mono hk)
  | _ => intro n _ _ _ _; exact .crash

theorem Safe.evBodyMacro (hc : SafeAll call) {e : Nat} (v : Val) :
    ∀ {n : Nat} {ret : Val}, VOk n ret → e < n → VOk n v → Safe n VQ (evBodyMacro call e ret v) := by
  induction v with
  | nil => intro n ret hr _ _; exact .pureV hr
  | cons a d _ ih =>
    intro n ret _ he hv
    exact .bind (.extend (hc n _ ⟨hv.1, he⟩)) fun k w hk hw => ih (n := k) hw (by omega) (hv.2.mono hk)
  | _ => intro n _ _ _ _; exact .throwBase

theorem Safe.mexpand1 (hc : SafeAll call) {n e : Nat} {x : Val} (he : e < n) (hx : VOk n x) :
    Safe n VQ (mexpand1 call x e) := by
  unfold L1.mexpand1
  refine .bind (.isMacroCallM x e) fun k b hk _ => .ite ?_ (.pureV (hx.mono hk))
  split
  · refine .bind (.lookupM _ _) fun k' o hk' ho => ?_
    split
    · rename_i ps r body dc mm env
      split
      · exact .extend .throwBase
      · rename_i args hargs
        have hbody := (ho _ rfl).2.1
        have hargs' := vok_toList? (hx.2.mono (Nat.le_trans hk hk')) hargs
        refine .bind (.newEnvM (n := k') (by omega)) fun k2 i hk2 hi => ?_
        refine .bind (.extend (.bindArgs fun v hv => (hargs' v hv).mono hk2)) fun k3 _ hk3 _ => ?_
        exact .evBodyMacro hc _ trivial (by omega) (hbody.mono (by omega))
    · exact .crash
  · exact .throwBase

theorem Safe.evCond (hc : SafeAll call) (ht : SafeAll tail) {e : Nat} (v : Val) :
    ∀ {n : Nat}, e < n → VOk n v → Safe n VQ (evCond call tail e v) := by
  induction v with
  | nil => intro n _ _; exact .pureV trivial
  | cons p d _ ih =>
    intro n he hv
    unfold L1.evCond
    split
    · refine .bind (.extend (hc n _ ⟨hv.1.1, he⟩)) fun k w hk hw => .ite (ih (by omega) (hv.2.mono hk)) ?_
      split
      · exact ht k _ ⟨hv.1.2.1.mono hk, by omega⟩
      · exact .throwBase
    · exact .throwBase
  | _ => intro n _ _; exact .crash

theorem Safe.evAnd (hc : SafeAll call) {e : Nat} (v : Val) :
    ∀ {n : Nat}, e < n → VOk n v → Safe n VQ (evAnd call e v) := by
  induction v with
  | nil => intro n _ _; exact .pureV trivial
  | cons a d _ ih =>
    intro n he hv
    exact .bind (.extend (hc n _ ⟨hv.1, he⟩)) fun k w hk hw => .ite (.pureV trivial) (ih (by omega) (hv.2.mono hk))
  | _ => intro n _ _; exact .throwBase

theorem Safe.evOr (hc : SafeAll call) {e : Nat} (v : Val) :
    ∀ {n : Nat}, e < n → VOk n v → Safe n VQ (evOr call e v) := by
  induction v with
  | nil => intro n _ _; exact .pureV trivial
  | cons a d _ ih =>
    intro n he hv
    exact .bind (.extend (hc n _ ⟨hv.1, he⟩)) fun k w hk hw => .ite (.pureV hw) (ih (by omega) (hv.2.mono hk))
  | _ => intro n _ _; exact .throwBase

theorem Safe.evLoopBody (hc : SafeAll call) {e : Nat} (v : Val) :
    ∀ {n : Nat}, e < n → VOk n v → Safe n TQ (evLoopBody call e v) := by
  induction v with
  | nil => intro n _ _; exact .pure fun _ _ => trivial
  | cons a d _ ih =>
    intro n he hv
    exact .bind (.extend (hc n _ ⟨hv.1, he⟩)) fun k w hk hw => ih (by omega) (hv.2.mono hk)
  | _ => intro n _ _; exact .crash

theorem Safe.evSwallow (hc : SafeAll call) {e : Nat} (v : Val) :
    ∀ {n : Nat}, e < n → VOk n v → Safe n VQ (evSwallow call e v) := by
  induction v with
  | nil => intro n _ _; exact .pureV trivial
  | cons a d _ ih =>
    intro n he hv
    refine .bind (.attempt (hc n _ ⟨hv.1, he⟩)) fun k w hk hw => ?_
    cases w with
    | error _ => exact .pureV trivial
    | ok _ => exact ih (by omega) (hv.2.mono hk)
  | _ => intro n _ _; exact .crash

theorem Safe.evDef (hc : SafeAll call) {n e : Nat} {v : Val} (he : e < n) (hv : VOk n v) : Safe n VQ (evDef call e v) := by
  unfold L1.evDef
  split
  · exact .bind (.extend (hc n _ ⟨hv.2.1, he⟩)) fun k w hk hw =>
      .bind (.extend (.setTopM hw)) fun k' _ hk' _ => .pureV (hw.mono hk')
  all_goals exact .throwBase

theorem Safe.evSet (hc : SafeAll call) {n e : Nat} {v : Val} (he : e < n) (hv : VOk n v) : Safe n VQ (evSet call e v) := by
  unfold L1.evSet
  split
  · exact .bind (.extend (hc n _ ⟨hv.2.1, he⟩)) fun k w hk hw =>
      .bind (.extend (.updateM hw)) fun k' _ hk' _ => .pureV (hw.mono hk')
  all_goals exact .throwBase

theorem Safe.evDefn {n e : Nat} {m : Bool} {v : Val} (he : e < n) (hv : VOk n v) : Safe n VQ (evDefn m e v) := by
  unfold L1.evDefn
  split
  · split
    · exact .bind (.extend (.mkLambda he hv.2)) fun k w hk hw =>
        .bind (.extend (.setTopM hw)) fun k' _ hk' _ => .pureV trivial
    · exact .throwBase
    · exact .crash
  all_goals exact .throwBase

theorem Safe.evErrorsLoop (hc : SafeAll call) {e : Nat} {args : Val} {es : List Char} (v : Val) :
    ∀ {n : Nat}, e < n → VOk n v → Safe n VQ (evErrorsLoop call e args es v) := by
  induction v with
  | nil => intro n _ _; exact .throwBase
  | cons a d _ ih =>
    intro n he hv
    refine .bind (.attempt (hc n _ ⟨hv.1, he⟩)) fun k w hk hw => ?_
    cases w with
    | error _ => exact .ite (.pureV trivial) .throwBase
    | ok _ => exact ih (by omega) (hv.2.mono hk)
  | _ => intro n _ _; exact .crash

theorem Safe.evErrors (hc : SafeAll call) {n e : Nat} {v : Val} (he : e < n) (hv : VOk n v) :
    Safe n VQ (evErrors call e v) := by
  unfold L1.evErrors
  split
  · exact .ite (.bind (.extend (hc n _ ⟨hv.1, he⟩)) fun k w hk hw =>
      .ite (.evErrorsLoop hc _ (by omega) (hv.2.mono hk)) .throwBase) .throwBase
  · exact .throwBase

theorem Safe.evError (hc : SafeAll call) {n e : Nat} {v : Val} (he : e < n) (hv : VOk n v) :
    Safe n VQ (evError call e v) := by
  unfold L1.evError
  split
  · exact .bind (.extend (hc n _ ⟨hv.1, he⟩)) fun k w hk hw => .throwUser hw
  · exact .throwBase

theorem Safe.evCatchBody (hc : SafeAll call) {e : Nat} (v : Val) :
    ∀ {n : Nat} {ret : Val}, VOk n ret → e < n → VOk n v → Safe n VQ (evCatchBody call e ret v) := by
  induction v with
  | nil => intro n ret hr _ _; exact .pureV hr
  | cons a d _ ih =>
    intro n ret _ he hv
    exact .bind (.extend (hc n _ ⟨hv.1, he⟩)) fun k w hk hw => ih hw (by omega) (hv.2.mono hk)
  | _ => intro n _ _ _ _; exact .throwBase

theorem Safe.evCatch (hc : SafeAll call) {n e : Nat} {ret v : Val} {er : Err} (hr : VOk n ret) (her : EOk n er)
    (he : e < n) (hv : VOk n v) : Safe n VQ (evCatch call e ret er v) := by
  unfold L1.evCatch
  split
  · refine .bind (.newEnvM he) fun k i hk hi => ?_
    split
    · exact .throwBase
    · exact .bind (.attempt (.setM (her.vok.mono hk))) fun k' _ hk' _ =>
        .evCatchBody hc _ (hr.mono (by omega)) (by omega) (hv.2.mono (by omega))
  · exact .throwBase
  · exact .crash
  · exact .throwBase

theorem Safe.evTry (hc : SafeAll call) {e : Nat} (v : Val) :
    ∀ {n : Nat} {ret : Val} {er : Option Err}, VOk n ret → (∀ x, er = some x → EOk n x) → e < n → VOk n v →
      Safe n VQ (evTry call e ret er v) := by
  induction v with
  | nil =>
    intro n ret er hr her _ _
    cases er with
    | none => exact .pureV hr
    | some x => exact .throwErr (her x rfl)
  | cons a d _ ih =>
    intro n ret er hr her he hv
    unfold L1.evTry
    refine .ite ?_ ?_
    · split
      · exact .pureV hr
      · split
        · exact .evCatch hc hr (her _ rfl) he hv.1.2
        · exact .pureV hr
    · split
      · exact ih hr her he hv.2
      · refine .bind (.attempt (hc n _ ⟨hv.1, he⟩)) fun k w hk hw => ?_
        cases w with
        | error x => exact ih (hr.mono hk) (by intro y hy; injection hy with hy; subst hy; exact hw) (by omega) (hv.2.mono hk)
        | ok x => exact ih hw (by intro y hy; cases hy) (by omega) (hv.2.mono hk)
  | _ => intro n _ _ _ _ _ _; exact .throwBase

theorem Safe.evLetBinds (hc : SafeAll call) {e ne : Nat} (v : Val) :
    ∀ {n : Nat}, e < n → VOk n v → Safe n TQ (evLetBinds call e ne v) := by
  induction v with
  | nil => intro n _ _; exact .pure fun _ _ => trivial
  | cons b d _ ih =>
    intro n he hv
    unfold L1.evLetBinds
    split
    · split
      · exact .pure fun _ _ => trivial
      · exact .bind (.extend (hc n _ ⟨hv.1.2.1, he⟩)) fun k w hk hw =>
          .bind (.extend (.setM hw)) fun k' _ hk' _ => ih (by omega) (hv.2.mono (by omega))
      · exact .throwBase
    · exact .throwBase
  | _ => intro n _ _; exact .crash

theorem Safe.evLet (hc : SafeAll call) (ht : SafeAll tail) {n e : Nat} {v : Val} (he : e < n) (hv : VOk n v) :
    Safe n VQ (evLet call tail e v) := by
  unfold L1.evLet
  split
  · refine .ite (.ite ?_ .throwBase) .throwBase
    refine .bind (.newEnvM he) fun k i hk hi => ?_
    refine .bind (.evLetBinds hc _ (by omega) (hv.1.mono hk)) fun k' b hk' _ => .ite ?_ (.pureV trivial)
    exact .evBodyTail hc ht (fun n _ _ => vok_msgList n _) _ (by omega) (hv.2.mono (by omega))
  · exact .throwBase

theorem Safe.evTestLoop (hc : SafeAll call) {e : Nat} (v : Val) :
    ∀ {n : Nat}, e < n → VOk n v → Safe n TQ (evTestLoop call e v) := by
  induction v with
  | nil => intro n _ _; exact .printM
  | cons a d _ ih =>
    intro n he hv
    exact .bind (.extend (hc n _ ⟨hv.1, he⟩)) fun k w hk hw =>
      .bind .printM fun k' _ hk' _ => ih (by omega) (hv.2.mono (by omega))
  | _ => intro n _ _; exact .throwBase

theorem Safe.evTest (hc : SafeAll call) {n e : Nat} {v : Val} (he : e < n) (hv : VOk n v) :
    Safe n TQ (evTest call e v) := by
  unfold L1.evTest
  split
  · exact .pure fun _ _ => trivial
  · exact .bind (.extend (hc n _ ⟨hv.1, he⟩)) fun k w hk hw =>
      .bind .printM fun k' _ hk' _ => .evTestLoop hc _ (by omega) (hv.2.mono (by omega))
  · exact .pure fun _ _ => trivial

theorem Safe.evSpecial (hc : SafeAll call) (ht : SafeAll tail) {f : SF} {n e : Nat} {args : Val} (he : e < n)
    (hv : VOk n args) : Safe n VQ (evSpecial call tail f args e) := by
  cases f with
  | quote =>
    simp only [L1.evSpecial]
    split
    · exact .pureV hv.1
    · exact .throwBase
  | syntaxQuote =>
    simp only [L1.evSpecial]
    split
    · split
      · rename_i y hy
        exact ht n _ ⟨(sq_vok _ hv.1).2 y hy, he⟩
      · exact .crash
    · exact .throwBase
  | test => exact .bind (.extend (.evTest hc he hv)) fun k _ _ _ => .pureV trivial
  | cond => exact .evCond hc ht _ he hv
  | and => exact .evAnd hc _ he hv
  | or => exact .evOr hc _ he hv
  | loop => exact ht n _ ⟨hv, he⟩
  | swallow => exact .evSwallow hc _ he hv
  | def_ => exact .evDef hc he hv
  | set => exact .evSet hc he hv
  | defn => exact .evDefn he hv
  | defmacro => exact .evDefn he hv
  | error => exact .evError hc he hv
  | errors => exact .evErrors hc he hv
  | try_ => exact .evTry hc _ trivial (by intro x hx; cases hx) he hv
  | let_ => exact .evLet hc ht he hv
  | lambda => exact .mkLambda he hv

theorem Safe.evApply (hc : SafeAll call) (ht : SafeAll tail) {f : Val} {args : List Val} {n e : Nat} (he : e < n)
    (hf : VOk n f) (ha : ∀ a ∈ args, VOk n a) : Safe n VQ (evApply call tail f args e) := by
  unfold L1.evApply
  split
  · refine .bind (.newEnvM hf.1) fun k i hk hi => ?_
    refine .bind (.extend (.bindArgs fun v hv => (ha v hv).mono hk)) fun k' _ hk' _ => ?_
    refine .evBodyTail hc ht ?_ _ (by omega) (hf.2.1.mono (by omega))
    intro n v hv; rw [vok_vlist]; simp [VOk, hv]
  · exact .extend (hc n _ ⟨ha, he⟩)
  · exact .throwBase

theorem Safe.evExpr (hc : SafeAll call) (ht : SafeAll tail) {n e : Nat} {x : Val} (he : e < n)
    (hx : VOk n x) : Safe n VQ (evExpr call tail x e) := by
  have hcall : ∀ f args, VOk n f → VOk n args → Safe n VQ (L1.evCall call tail f args e) := fun f args hf ha =>
    .bind (.extend (hc n _ ⟨hf, he⟩)) fun k w hk hw =>
      .bind (.evArgs hc _ (n := k) (by omega) (ha.mono hk)) fun k' ws hk' hws =>
        .evApply hc ht (by omega) (hw.mono hk') hws
  unfold L1.evExpr
  split
  · refine .ite (.pureV (vok_cxr n e he _)) ?_
    unfold evAtom
    refine .ite (.pureV trivial) (.bind (.lookupM _ _) fun k o hk ho => ?_)
    split
    · exact .pureV (ho _ rfl)
    · split
      · exact .pureV trivial
      · exact .throwBase
  · exact .pureV trivial
  · exact .pureV trivial
  · refine .ite ?_ .throwBase
    split
    · split
      · exact .evSpecial hc ht he hx.2
      · exact hcall _ _ hx.1 hx.2
    · exact hcall _ _ hx.1 hx.2
  · exact .throwBase

theorem Safe.evalStep (hc : SafeAll call) (ht : SafeAll tail) {n e : Nat} {x : Val} (he : e < n)
    (hx : VOk n x) : Safe n VQ (evalStep call tail x e) := by
  unfold L1.evalStep
  refine .bind (.isMacroCallM x e) fun k b hk _ => .ite ?_ (.evExpr hc ht (by omega) (hx.mono hk))
  exact .bind (.extend (hc k _ ⟨hx.mono hk, by omega⟩)) fun k' y hk' hy => .evExpr hc ht (by omega) hy

end

end L1
