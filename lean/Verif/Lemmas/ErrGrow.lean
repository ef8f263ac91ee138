import Verif.Lemmas.Inv
/-
Where errors come from (used by C31).  `EI O E Q m`: every error of `m` is in `E`, every value in `Q`,
and `m` ends the process only with status 0 or one in `O` (a stack overflow counts as `none`).
-/
set_option autoImplicit false
namespace L1

/-- A set of errors that contains the interpreter's own messages and is closed under adding a frame in front. -/
structure ErrCl (E : Err → Prop) : Prop where
  cons : ∀ f e, E e → E (extendErr f e)
  base : ∀ m, E (.list (.cons (msgList m) .nil))
  foreign : ∀ m, E (.foreign m)

/-- Errors in `E`, values in `Q`. -/
def EI {α : Type} (O : Option Nat → Prop) (E : Err → Prop) (Q : α → Prop) (m : M α) : Prop :=
  ∀ s, match m s with
    | .ok a _ => Q a
    | .err e _ => E e
    | .overflow _ => O none
    | .exit c _ => O (some c) ∨ c = 0
    | _ => True

/-- No condition. -/
abbrev AnyV {α : Type} : α → Prop := fun _ => True

section
variable {O : Option Nat → Prop} {E : Err → Prop} (hE : ErrCl E) {W : World} {call tail : Task → M Val}

theorem EI.bind {α β : Type} {Q : α → Prop} {R : β → Prop} {m : M α} {f : α → M β} (hm : EI O E Q m)
    (hf : ∀ a, Q a → EI O E R (f a)) : EI O E R (m >>= f) := by
  intro s
  rw [M.bind_run]
  have h := hm s
  cases hr : m s with
  | ok a s' => rw [hr] at h; exact hf a h s'
  | err e s' => rw [hr] at h; exact h
  | overflow s' => rw [hr] at h; exact h
  | exit c s' => rw [hr] at h; exact h
  | _ => trivial

theorem EI.bindA {α β : Type} {R : β → Prop} {m : M α} {f : α → M β} (hm : EI O E AnyV m)
    (hf : ∀ a, EI O E R (f a)) : EI O E R (m >>= f) := EI.bind hm fun a _ => hf a

theorem EI.pure {α : Type} {a : α} : EI O E AnyV (pure a : M α) := fun _ => trivial
theorem EI.ok {α : Type} {m : M α} (h : ∀ s, ∃ a s', m s = .ok a s') : EI O E AnyV m := by
  intro s; obtain ⟨a, s', h⟩ := h s; rw [h]; trivial
theorem EI.crash {α : Type} {Q : α → Prop} {m : String} : EI O E Q (crash m : M α) := fun _ => trivial
theorem EI.exitM {α : Type} {Q : α → Prop} : EI O E Q (exitM 0 : M α) := fun _ => .inr rfl
theorem EI.oof {α : Type} {Q : α → Prop} : EI O E Q (fun _ => .oof : M α) := fun _ => trivial
theorem EI.printM {cs : List Char} : EI O E AnyV (printM cs) := fun _ => trivial
theorem EI.lookupM {e : Nat} {x : String} : EI O E AnyV (lookupM e x) := fun _ => trivial
theorem EI.newEnvM {e : Nat} : EI O E AnyV (newEnvM e) := fun _ => trivial
theorem EI.isMacroCallM {x : Val} {e : Nat} : EI O E AnyV (isMacroCallM x e) := fun _ => trivial
theorem EI.askM {α : Type} {f : Nat → α} : EI O E AnyV (askM f) := fun _ => trivial
theorem EI.getScreenM : EI O E AnyV getScreenM := fun _ => trivial
theorem EI.actsM {as : List Act} : EI O E AnyV (actsM as) := fun _ => trivial
theorem EI.setScreenM {b : Bool} : EI O E AnyV (setScreenM b) := fun _ => trivial
theorem EI.envKeysM {e : Nat} : EI O E AnyV (envKeysM e) := fun _ => trivial
theorem EI.gensymM {p : List Char} : EI O E AnyV (gensymM p) := fun _ => trivial
theorem EI.ite {α : Type} {Q : α → Prop} {c : Prop} [Decidable c] {a b : M α} (h1 : EI O E Q a) (h2 : EI O E Q b) :
    EI O E Q (if c then a else b) := by split <;> assumption

theorem EI.weaken {α : Type} {Q : α → Prop} {m : M α} (h : EI O E Q m) : EI O E AnyV m := by
  intro s
  have := h s
  cases hr : m s <;> rw [hr] at this <;> first | exact this | trivial

/-- What `attempt` returns. -/
def EA {α : Type} (E : Err → Prop) : Except Err α → Prop
  | .ok _ => True
  | .error e => E e

theorem EI.attempt {α : Type} {m : M α} (h : EI O E AnyV m) : EI O E (EA E) (attempt m) := by
  intro s
  have := h s
  rw [attempt_run]
  cases hr : m s <;> rw [hr] at this <;> first | exact this | trivial

theorem EI.attemptA {α : Type} {m : M α} (h : EI O E AnyV m) : EI O E AnyV (L1.attempt m) := by
  intro s
  have := h s
  rw [attempt_run]; cases hr : m s <;> rw [hr] at this <;> first | exact this | trivial

theorem EI.throwErr {α : Type} {Q : α → Prop} {e : Err} (h : E e) : EI O E Q (throwErr e : M α) := fun _ => h

include hE

theorem EI.throwBase {α : Type} {Q : α → Prop} {m : String} : EI O E Q (throwBase m : M α) := fun _ => hE.base m
theorem EI.throwForeign {α : Type} {Q : α → Prop} {m : String} : EI O E Q (throwForeign m : M α) := fun _ => hE.foreign m

theorem EI.extendWith {α : Type} {Q : α → Prop} {f : Val} {m : M α} (h : EI O E Q m) : EI O E Q (extendWith f m) := by
  intro s
  have := h s
  rw [extendWith_run]
  cases hr : m s <;> rw [hr] at this <;> first | exact hE.cons _ _ this | exact this

theorem EI.extend {α : Type} {Q : α → Prop} {msg : String} {m : M α} (h : EI O E Q m) : EI O E Q (extend msg m) :=
  EI.extendWith hE h

theorem EI.readLineM : EI O E AnyV readLineM := by
  intro s; unfold L1.readLineM; cases s.inp
  · exact hE.foreign _
  · trivial

theorem EI.setM {e : Nat} {x : String} {v : Val} : EI O E AnyV (setM e x v) := by
  intro s
  by_cases h : x = "t"
  · have h1 : L1.setM e x v s = .err (.list (.cons (msgList "cannot bind or set t") .nil)) s := by
      simp [L1.setM, h, L1.throwBase]
    rw [h1]; exact hE.base _
  · have h1 : L1.setM e x v s = .ok () { s with heap := heapSet s.heap e x v } := by simp [L1.setM, h]
    rw [h1]; trivial

theorem EI.setTopM {e : Nat} {x : String} {v : Val} : EI O E AnyV (setTopM e x v) := fun s => EI.setM hE s

theorem EI.updateM {e : Nat} {x : String} {v : Val} : EI O E AnyV (updateM e x v) := by
  intro s
  by_cases h : x = "t"
  · have h1 : L1.updateM e x v s = .err (.list (.cons (msgList "cannot bind or set t") .nil)) s := by
      simp [L1.updateM, h, L1.throwBase]
    rw [h1]; exact hE.base _
  · cases ho : owner s.heap e x with
    | some o =>
      have h1 : L1.updateM e x v s = .ok () { s with heap := heapSet s.heap o x v } := by
        simp [L1.updateM, h, ho]
      rw [h1]; trivial
    | none =>
      have h1 : L1.updateM e x v s = .err (.list (.cons (msgList (x ++ " is not bound in any environment")) .nil)) s := by
        simp [L1.updateM, h, ho, L1.throwBase]
      rw [h1]; exact hE.base _

/-- Close goals about `EI`. -/
macro "ei" hE:ident : tactic => `(tactic| repeat' (first
  | with_reducible assumption
  | exact EI.pure | exact EI.crash | exact EI.exitM | exact EI.oof | exact EI.printM | exact EI.lookupM | exact EI.newEnvM
  | exact EI.isMacroCallM | exact EI.askM | exact EI.getScreenM | exact EI.setScreenM | exact EI.actsM | exact EI.envKeysM | exact EI.gensymM
  | exact EI.throwBase $hE | exact EI.throwForeign $hE | exact EI.setM $hE | exact EI.setTopM $hE | exact EI.updateM $hE
  | exact EI.readLineM $hE
  | apply EI.extend $hE | apply EI.extendWith $hE | apply EI.attemptA
  | split
  | refine EI.bindA ?_ (fun _ => ?_)))

/-! ### The reader -/

/-- Errors of a parse result are in `E`. -/
def PE {α : Type} (E : Err → Prop) : PRes α → Prop
  | .err e => E (.list e)
  | _ => True

omit hE in
theorem pe_ok {α : Type} {a : α} : PE E (.ok a : PRes α) := trivial

theorem pe_perr {α : Type} (m : String) : PE E (perr m : PRes α) := hE.base m

theorem pe_extend {α : Type} (m : String) {r : PRes α} (h : PE E r) : PE E (r.extend m) := by
  cases r with
  | err e => exact hE.cons (msgList m) _ h
  | _ => exact h

omit hE in
theorem pe_bind {α β : Type} {r : PRes α} {f : α → PRes β} (h : PE E r) (hf : ∀ a, PE E (f a)) : PE E (r.bind f) := by
  cases r with
  | ok a => exact hf a
  | _ => exact h

theorem parse_pe (k : Nat) :
    (∀ ts, PE E (parseNext k ts)) ∧ (∀ ts, PE E (parseList k ts)) ∧ (∀ ts, PE E (parse k ts)) ∧
    (∀ ts, PE E (parseForms k ts)) := by
  induction k with
  | zero =>
    refine ⟨fun ts => ?_, fun ts => ?_, fun ts => ?_, fun ts => ?_⟩
    · rw [parseNext]; trivial
    · rw [parseList]; trivial
    · rw [parse]; trivial
    · rw [parseForms]; trivial
  | succ k ih =>
    obtain ⟨h1, h2, h3, h4⟩ := ih
    refine ⟨fun ts => ?_, fun ts => ?_, fun ts => ?_, fun ts => ?_⟩
    · cases ts with
      | nil => rw [parseNext]; exact pe_perr hE _
      | cons t ts =>
        rw [parseNext.eq_def]
        simp only []
        split
        · refine pe_bind (pe_extend hE _ ?_) (fun _ => pe_ok)
          split
          · exact pe_perr hE _
          · exact pe_extend hE _ (h1 _)
        · split
          · trivial
          · trivial
          · exact pe_extend hE _ (h2 _)
          · exact pe_perr hE _
          · exact pe_perr hE _
    · rw [parseList.eq_def]
      simp only []
      split
      · exact pe_perr hE _
      · refine pe_bind (h3 _) fun carList => ?_
        split
        · exact pe_perr hE _
        · refine pe_bind (h3 _) fun cdrList => ?_
          split <;> trivial
      · exact pe_bind (h3 _) fun contents => pe_ok
    · rw [parse.eq_def]
      simp only []
      split
      · trivial
      · split
        · exact h4 _
        · exact h4 _
    · rw [parseForms.eq_def]
      simp only []
      split
      · trivial
      · exact pe_bind (pe_extend hE _ (h1 _)) fun r => pe_bind (h4 _) fun rest => pe_ok

theorem EI.liftParse {ts : List Token} {k : Nat} : EI O E AnyV (liftParse (parse k ts)) := by
  have h := (parse_pe hE k).2.2.1 ts
  cases hp : parse k ts with
  | err e => rw [hp] at h; exact fun _ => h
  | _ => exact fun _ => trivial

/-! ### The evaluator -/

theorem ei_splitDoc {b : Val} : EI O E AnyV (splitDoc b) := by unfold splitDoc; ei hE

theorem ei_mkLambdaNamed {nm : String} {c : Val} {m : Bool} {e : Nat} : EI O E AnyV (mkLambdaNamed nm c m e) := by
  have h : ∀ b, EI O E AnyV (splitDoc b) := fun b => ei_splitDoc hE
  unfold mkLambdaNamed
  split
  · refine EI.ite ?_ (EI.throwBase hE)
    split
    · exact EI.throwBase hE
    · refine EI.ite (EI.throwBase hE) (EI.ite ?_ EI.crash)
      refine EI.bindA (h _) fun r => ?_
      obtain ⟨doc, body'⟩ := r
      exact EI.ite (EI.bindA (EI.attemptA (EI.setM hE)) fun _ => EI.pure) EI.pure
  · exact EI.throwBase hE

theorem ei_mkLambda {c : Val} {m : Bool} {e : Nat} : EI O E AnyV (mkLambda c m e) := by
  have h : ∀ nm c, EI O E AnyV (mkLambdaNamed nm c m e) := fun _ _ => ei_mkLambdaNamed hE
  unfold mkLambda; split
  · exact EI.ite (h _ _) EI.crash
  · exact h _ _
  · exact EI.throwBase hE

theorem ei_bindParams {e : Nat} (ps : List String) : ∀ vs, EI O E AnyV (bindParams e ps vs) := by
  induction ps with
  | nil => intro vs; cases vs <;> exact EI.pure
  | cons p ps ih =>
    intro vs
    cases vs with
    | nil => exact EI.pure
    | cons v vs => exact EI.bindA (EI.extend hE (EI.setM hE)) fun _ => ih vs

theorem ei_bindArgs {e : Nat} {ps : List String} {r : String} {args : List Val} : EI O E AnyV (bindArgs e ps r args) := by
  have h : ∀ ps args, EI O E AnyV (bindParams e ps args) := fun ps args => ei_bindParams hE ps args
  unfold bindArgs
  refine EI.ite (EI.ite (EI.throwBase hE) (EI.bindA (EI.setM hE) fun _ => h _ _))
    (EI.ite (EI.throwBase hE) (EI.ite (EI.throwBase hE) (h _ _)))

variable (hc : ∀ t, EI O E AnyV (call t)) (ht : ∀ t, EI O E AnyV (tail t))
include hc

theorem ei_evArgs {e : Nat} (v : Val) : EI O E AnyV (evArgs call e v) := by
  induction v with
  | nil => exact EI.pure
  | cons a d _ ih => exact EI.bindA (EI.extend hE (hc _)) fun _ => EI.bindA ih fun _ => EI.pure
  | _ => exact EI.crash

include ht in
theorem ei_evBodyTail {wrap : Val → Val} {e : Nat} (v : Val) : EI O E AnyV (evBodyTail call tail wrap e v) := by
  induction v with
  | nil => exact EI.pure
  | cons a d _ ih =>
    have hrec : EI O E AnyV (L1.extendWith (wrap a) (call (.eval a e)) >>= fun _ => evBodyTail call tail wrap e d) :=
      EI.bindA (EI.extendWith hE (hc _)) fun _ => ih
    cases d with
    | nil => exact ht _
    | _ => exact hrec
  | _ => exact EI.crash

theorem ei_evBodyApply {e : Nat} (v : Val) : ∀ ret, EI O E AnyV (evBodyApply call e ret v) := by
  induction v with
  | nil => intro _; exact EI.pure
  | cons a d _ ih => intro _; exact EI.bindA (EI.extend hE (hc _)) fun w => ih w
  | _ => intro _; exact EI.crash

theorem ei_evBodyMacro {e : Nat} (v : Val) : ∀ ret, EI O E AnyV (evBodyMacro call e ret v) := by
  induction v with
  | nil => intro _; exact EI.pure
  | cons a d _ ih => intro _; exact EI.bindA (EI.extend hE (hc _)) fun w => ih w
  | _ => intro _; exact EI.throwBase hE

theorem ei_mexpand1 {x : Val} {e : Nat} : EI O E AnyV (mexpand1 call x e) := by
  unfold mexpand1
  refine EI.bindA EI.isMacroCallM fun b => EI.ite ?_ EI.pure
  split
  · refine EI.bindA EI.lookupM fun o => ?_
    split
    · split
      · exact EI.extend hE (EI.throwBase hE)
      · exact EI.bindA EI.newEnvM fun i => EI.bindA (EI.extend hE (ei_bindArgs hE)) fun _ => ei_evBodyMacro hE hc _ _
    · exact EI.crash
  · exact EI.throwBase hE

include ht in
theorem ei_evCond {e : Nat} (v : Val) : EI O E AnyV (evCond call tail e v) := by
  induction v with
  | nil => exact EI.pure
  | cons p d _ ih =>
    unfold evCond
    split
    · refine EI.bindA (EI.extend hE (hc _)) fun w => EI.ite ih ?_
      split
      · exact ht _
      · exact EI.throwBase hE
    · exact EI.throwBase hE
  | _ => exact EI.crash

theorem ei_evAnd {e : Nat} (v : Val) : EI O E AnyV (evAnd call e v) := by
  induction v with
  | nil => exact EI.pure
  | cons a d _ ih => exact EI.bindA (EI.extend hE (hc _)) fun w => EI.ite EI.pure ih
  | _ => exact EI.throwBase hE

theorem ei_evOr {e : Nat} (v : Val) : EI O E AnyV (evOr call e v) := by
  induction v with
  | nil => exact EI.pure
  | cons a d _ ih => exact EI.bindA (EI.extend hE (hc _)) fun w => EI.ite EI.pure ih
  | _ => exact EI.throwBase hE

theorem ei_evLoopBody {e : Nat} (v : Val) : EI O E AnyV (evLoopBody call e v) := by
  induction v with
  | nil => exact EI.pure
  | cons a d _ ih => exact EI.bindA (EI.extend hE (hc _)) fun w => ih
  | _ => exact EI.crash

omit hE in
theorem ei_evSwallow {e : Nat} (v : Val) : EI O E AnyV (evSwallow call e v) := by
  induction v with
  | nil => exact EI.pure
  | cons a d _ ih =>
    refine EI.bindA (EI.attemptA (hc _)) fun w => ?_
    cases w with
    | error _ => exact EI.pure
    | ok _ => exact ih
  | _ => exact EI.crash

theorem ei_evDef {e : Nat} {v : Val} : EI O E AnyV (evDef call e v) := by
  unfold evDef
  split
  · exact EI.bindA (EI.extend hE (hc _)) fun _ => EI.bindA (EI.extend hE (EI.setTopM hE)) fun _ => EI.pure
  all_goals exact EI.throwBase hE

theorem ei_evSet {e : Nat} {v : Val} : EI O E AnyV (evSet call e v) := by
  unfold evSet
  split
  · exact EI.bindA (EI.extend hE (hc _)) fun _ => EI.bindA (EI.extend hE (EI.updateM hE)) fun _ => EI.pure
  all_goals exact EI.throwBase hE

omit hc in
theorem ei_evDefn {m : Bool} {e : Nat} {v : Val} : EI O E AnyV (evDefn m e v) := by
  unfold evDefn
  split
  · split
    · exact EI.bindA (EI.extend hE (ei_mkLambda hE)) fun _ => EI.bindA (EI.extend hE (EI.setTopM hE)) fun _ => EI.pure
    · exact EI.throwBase hE
    · exact EI.crash
  all_goals exact EI.throwBase hE

theorem ei_evErrorsLoop {e : Nat} {args : Val} {es : List Char} (v : Val) : EI O E AnyV (evErrorsLoop call e args es v) := by
  induction v with
  | nil => exact EI.throwBase hE
  | cons a d _ ih =>
    refine EI.bindA (EI.attemptA (hc _)) fun w => ?_
    cases w with
    | error _ => exact EI.ite EI.pure (EI.throwBase hE)
    | ok _ => exact ih
  | _ => exact EI.crash

theorem ei_evErrors {e : Nat} {v : Val} : EI O E AnyV (evErrors call e v) := by
  unfold evErrors
  split
  · exact EI.ite (EI.bindA (EI.extend hE (hc _)) fun w => EI.ite (ei_evErrorsLoop hE hc _) (EI.throwBase hE)) (EI.throwBase hE)
  · exact EI.throwBase hE

theorem ei_evError (hu : ∀ t s v s', call t s = .ok v s' → E (.list (.cons v .nil))) {e : Nat} {v : Val} :
    EI O E AnyV (evError call e v) := by
  unfold evError
  split
  · rename_i x _
    refine EI.bind (Q := fun w => E (.list (.cons w .nil))) (EI.extend hE ?_) fun w hw => fun _ => hw
    intro s
    have h := hc (.eval x e) s
    cases hr : call (.eval x e) s with
    | ok a s' => exact hu _ _ _ _ hr
    | err er s' => rw [hr] at h; exact h
    | overflow s' => rw [hr] at h; exact h
    | exit c s' => rw [hr] at h; exact h
    | _ => trivial
  · exact EI.throwBase hE

theorem ei_evCatchBody {e : Nat} (v : Val) : ∀ ret, EI O E AnyV (evCatchBody call e ret v) := by
  induction v with
  | nil => intro _; exact EI.pure
  | cons a d _ ih => intro _; exact EI.bindA (EI.extend hE (hc _)) fun w => ih w
  | _ => intro _; exact EI.throwBase hE

theorem ei_evCatch {e : Nat} {ret v : Val} {er : Err} : EI O E AnyV (evCatch call e ret er v) := by
  unfold evCatch
  split
  · refine EI.bindA EI.newEnvM fun i => ?_
    split
    · exact EI.throwBase hE
    · exact EI.bindA (EI.attemptA (EI.setM hE)) fun _ => ei_evCatchBody hE hc _ _
  · exact EI.throwBase hE
  · exact EI.crash
  · exact EI.throwBase hE

theorem ei_evTry {e : Nat} (v : Val) : ∀ {ret : Val} {er : Option Err}, (∀ x, er = some x → E x) →
    EI O E AnyV (evTry call e ret er v) := by
  induction v with
  | nil =>
    intro ret er her
    cases er with
    | none => exact EI.pure
    | some x => exact EI.throwErr (her x rfl)
  | cons a d _ ih =>
    intro ret er her
    unfold evTry
    refine EI.ite ?_ ?_
    · split
      · exact EI.pure
      · split
        · exact ei_evCatch hE hc
        · exact EI.pure
    · split
      · exact ih her
      · refine EI.bind (EI.attempt (hc _)) fun w hw => ?_
        cases w with
        | error x => exact ih (by intro y hy; injection hy with hy; subst hy; exact hw)
        | ok x => exact ih (by intro y hy; cases hy)
  | _ => intro _ _ _; exact EI.throwBase hE

theorem ei_evLetBinds {e ne : Nat} (v : Val) : EI O E AnyV (evLetBinds call e ne v) := by
  induction v with
  | nil => exact EI.pure
  | cons b d _ ih =>
    unfold evLetBinds
    split
    · split
      · exact EI.pure
      · exact EI.bindA (EI.extend hE (hc _)) fun _ => EI.bindA (EI.extend hE (EI.setM hE)) fun _ => ih
      · exact EI.throwBase hE
    · exact EI.throwBase hE
  | _ => exact EI.crash

include ht in
theorem ei_evLet {e : Nat} {v : Val} : EI O E AnyV (evLet call tail e v) := by
  unfold evLet
  split
  · refine EI.ite (EI.ite ?_ (EI.throwBase hE)) (EI.throwBase hE)
    exact EI.bindA EI.newEnvM fun i => EI.bindA (ei_evLetBinds hE hc _) fun b => EI.ite (ei_evBodyTail hE hc ht _) EI.pure
  · exact EI.throwBase hE

theorem ei_evTestLoop {e : Nat} (v : Val) : EI O E AnyV (evTestLoop call e v) := by
  induction v with
  | nil => exact EI.printM
  | cons a d _ ih => exact EI.bindA (EI.extend hE (hc _)) fun _ => EI.bindA EI.printM fun _ => ih
  | _ => exact EI.throwBase hE

theorem ei_evTest {e : Nat} {v : Val} : EI O E AnyV (evTest call e v) := by
  unfold evTest
  split
  · exact EI.pure
  · exact EI.bindA (EI.extend hE (hc _)) fun _ => EI.bindA EI.printM fun _ => ei_evTestLoop hE hc _
  · exact EI.pure

include ht in
theorem ei_evSpecial (hu : ∀ t s v s', call t s = .ok v s' → E (.list (.cons v .nil))) {f : SF} {e : Nat} {args : Val} :
    EI O E AnyV (evSpecial call tail f args e) := by
  cases f with
  | quote => simp only [evSpecial]; split <;> first | exact EI.pure | exact EI.throwBase hE
  | syntaxQuote =>
    simp only [evSpecial]
    split
    · split
      · exact ht _
      · exact EI.crash
    · exact EI.throwBase hE
  | test => exact EI.bindA (EI.extend hE (ei_evTest hE hc)) fun _ => EI.pure
  | cond => exact ei_evCond hE hc ht _
  | and => exact ei_evAnd hE hc _
  | or => exact ei_evOr hE hc _
  | loop => exact ht _
  | swallow => exact ei_evSwallow hc _
  | def_ => exact ei_evDef hE hc
  | set => exact ei_evSet hE hc
  | defn => exact ei_evDefn hE
  | defmacro => exact ei_evDefn hE
  | error => exact ei_evError hE hc hu
  | errors => exact ei_evErrors hE hc
  | try_ => exact ei_evTry hE hc _ (by intro x hx; cases hx)
  | let_ => exact ei_evLet hE hc ht
  | lambda => exact ei_mkLambda hE

include ht in
theorem ei_evApply {f : Val} {args : List Val} {e : Nat} : EI O E AnyV (evApply call tail f args e) := by
  unfold evApply
  split
  · exact EI.bindA EI.newEnvM fun i => EI.bindA (EI.extend hE (ei_bindArgs hE)) fun _ => ei_evBodyTail hE hc ht _
  · exact EI.extend hE (hc _)
  · exact EI.throwBase hE

include ht in
theorem ei_evExpr (hu : ∀ t s v s', call t s = .ok v s' → E (.list (.cons v .nil))) {e : Nat} {x : Val} :
    EI O E AnyV (evExpr call tail x e) := by
  have hcall : ∀ f args, EI O E AnyV (evCall call tail f args e) := fun f args =>
    EI.bindA (EI.extend hE (hc _)) fun _ => EI.bindA (ei_evArgs hE hc _) fun _ => ei_evApply hE hc ht
  unfold evExpr
  split
  · refine EI.ite EI.pure ?_
    unfold evAtom
    refine EI.ite EI.pure (EI.bindA EI.lookupM fun o => ?_)
    split
    · exact EI.pure
    · split
      · exact EI.pure
      · exact EI.throwBase hE
  · exact EI.pure
  · exact EI.pure
  · refine EI.ite ?_ (EI.throwBase hE)
    split
    · split
      · exact ei_evSpecial hE hc ht hu
      · exact hcall _ _
    · exact hcall _ _
  · exact EI.throwBase hE

theorem ei_applyTo {f : Val} {args : List Val} {e : Nat} : EI O E AnyV (applyTo call f args e) := by
  unfold applyTo
  split
  · exact EI.bindA EI.newEnvM fun i => EI.bindA (EI.extend hE (ei_bindArgs hE)) fun _ => ei_evBodyApply hE hc _ _
  · exact EI.extend hE (hc _)
  · exact EI.throwBase hE

theorem ei_applyFn {args : List Val} {e : Nat} : EI O E AnyV (applyFn call args e) := by
  unfold applyFn
  split
  · refine EI.ite ?_ (EI.throwBase hE)
    split
    · exact EI.extend hE (EI.throwBase hE)
    · exact ei_applyTo hE hc
  · exact EI.throwBase hE

theorem ei_evalExprs {p : Bool} {e : Nat} (gs : List Val) : EI O E AnyV (evalExprs call p e gs) := by
  induction gs with
  | nil => exact EI.pure
  | cons g gs ih =>
    refine EI.bind (EI.attempt (hc _)) fun w hw => ?_
    cases w with
    | error er => exact EI.ite (EI.bindA EI.printM fun _ => EI.throwErr hw) (EI.throwErr hw)
    | ok v => exact EI.ite (EI.bindA EI.printM fun _ => ih) ih

theorem ei_loadFile {name : String} {e : Nat} : EI O E AnyV (loadFile W call name e) := by
  refine EI.bindA EI.askM fun x => ?_
  cases x with
  | error m => exact EI.throwForeign hE
  | ok t => exact EI.bindA (EI.liftParse hE) fun gs => ei_evalExprs hE hc gs

theorem ei_sortByLess {f a b : Val} {e : Nat} : EI O E AnyV (sortByLess call f e a b) := by
  refine EI.bindA (ei_applyFn hE hc) fun va => EI.bindA (ei_applyFn hE hc) fun vb => EI.ite (EI.throwBase hE) ?_
  split
  · exact EI.pure
  · exact EI.pure
  · exact EI.throwBase hE

theorem ei_sortRun {f : Val} {e : Nat} (t : Sorter) : ∀ {xs : List Val} {er : Option Err},
    (∀ z, er = some z → E z) → EI O E (fun r => ∀ z, r.2 = some z → E z) (sortRun call f e t xs er) := by
  induction t with
  | done => intro xs er her; exact fun _ => her
  | swap i j next ih => intro xs er her; exact ih her
  | less i j yes no ihy ihn =>
    intro xs er her
    simp only [sortRun]
    split
    · refine EI.bind (EI.attempt (ei_sortByLess hE hc)) fun w hw => ?_
      split
      · exact ihn fun z hz => by injection hz with hz; subst hz; exact hw
      · exact ihy her
      · exact ihn her
    · exact ihn her

theorem ei_bSortBy {args : List Val} {e : Nat} : EI O E AnyV (bSortBy W call args e) := by
  unfold bSortBy
  split
  · refine EI.ite ?_ (EI.throwBase hE)
    split
    · exact EI.extend hE (EI.throwBase hE)
    · refine EI.bind (ei_sortRun hE hc _ (by intro z hz; cases hz)) fun r hr => ?_
      split
      · exact EI.pure
      · rename_i er her
        exact EI.throwErr (hr er her)
  · exact EI.throwBase hE

omit hE in
theorem ei_runExamples {e : Nat} (v : Val) : EI O E AnyV (runExamples call e v) := by
  induction v with
  | cons a d _ ih => exact EI.ite EI.pure (EI.bindA (EI.attemptA (hc _)) fun _ => EI.bindA ih fun _ => EI.pure)
  | _ => exact EI.pure

omit hE in
theorem ei_formsOfBuiltins {e : Nat} (bs : List BI) : EI O E AnyV (formsOfBuiltins W call e bs) := by
  induction bs with
  | nil => exact EI.pure
  | cons b bs ih => exact EI.bindA (ei_runExamples hc _) fun _ => EI.bindA ih fun _ => EI.pure

omit hE in
theorem ei_formsOfKeys {e : Nat} (ks : List String) : EI O E AnyV (formsOfKeys call e ks) := by
  induction ks with
  | nil => exact EI.pure
  | cons x ks ih =>
    refine EI.bindA EI.lookupM fun o => ?_
    split
    · refine EI.ite ?_ ih
      split
      · exact EI.crash
      · exact EI.bindA (ei_runExamples hc _) fun _ => EI.bindA ih fun _ => EI.pure
    · exact ih

omit hE hc in
theorem ei_shuffleLoop {α : Type} (i : Nat) : ∀ xs : List α, EI O E AnyV (shuffleLoop W i xs) := by
  induction i with
  | zero => intro xs; exact EI.pure
  | succ i ih => intro xs; exact EI.bindA EI.askM fun r => ih _

omit hE hc in
theorem ei_mapOrders (ks : List (List String)) : EI O E AnyV (mapOrders W ks) := by
  induction ks with
  | nil => exact EI.pure
  | cons k ks ih => exact EI.bindA (ei_shuffleLoop _ _) fun _ => EI.bindA ih fun _ => EI.pure

omit hE in
attribute [local irreducible] L1.mapOrder L1.formsOfBuiltins in
theorem ei_availableForms {e : Nat} : EI O E AnyV (availableForms W call e) := by
  have h1 : EI O E AnyV (mapOrder W BI.all) := by unfold mapOrder; exact ei_shuffleLoop _ _
  have h2 : ∀ bs, EI O E AnyV (formsOfBuiltins W call e bs) := fun bs => ei_formsOfBuiltins hc bs
  unfold availableForms
  refine EI.bindA h1 fun bs => EI.bindA (h2 bs) fun fb => ?_
  exact EI.bindA EI.envKeysM fun ks => EI.bindA (ei_mapOrders ks) fun ks' => EI.bindA (ei_formsOfKeys hc ks') fun fk => EI.pure

omit hE hc in
theorem ei_needScreen {α : Type} {m : M α} (hE : ErrCl E) (h : EI O E AnyV m) : EI O E AnyV (needScreen m) :=
  EI.bindA EI.getScreenM fun _ => EI.ite h (EI.throwBase hE)

attribute [local irreducible] L1.availableForms in
theorem ei_bForms {e : Nat} : EI O E AnyV (bForms W call e) := by
  have hforms : EI O E AnyV (availableForms W call e) := ei_availableForms hc
  unfold bForms; exact EI.bindA (EI.extend hE (EI.extend hE hforms)) fun _ => EI.pure

attribute [local irreducible] L1.availableForms in
theorem ei_bHelp {e : Nat} : EI O E AnyV (bHelp W call e) := by
  have hforms : EI O E AnyV (availableForms W call e) := ei_availableForms hc
  unfold bHelp
  refine EI.bindA hforms fun fs => ?_
  cases formLines W fs with
  | none => exact EI.crash
  | some ls => exact EI.bindA EI.printM fun _ => EI.pure

attribute [local irreducible] L1.bForms L1.bHelp in
theorem ei_biFn {b : BI} {args : List Val} {e : Nat} : EI O E AnyV (biFn W call b args e) := by
  have hforms : EI O E AnyV (bForms W call e) := ei_bForms hE hc
  have hhelp : EI O E AnyV (bHelp W call e) := ei_bHelp hE hc
  have hscr : ∀ {α : Type} {m : M α}, EI O E AnyV m → EI O E AnyV (needScreen m) := fun h => ei_needScreen hE h
  have hap : EI O E AnyV (applyFn call args e) := ei_applyFn hE hc
  have hsort : EI O E AnyV (bSortBy W call args e) := ei_bSortBy hE hc
  have hloop1 : ∀ k, EI O E AnyV (bAddLoop k args) := by
    induction args with
    | nil => intro k; exact EI.pure
    | cons a as ih => intro k; cases a <;> first | exact ih (ei_applyFn hE hc) (ei_bSortBy hE hc) _ | exact EI.throwBase hE
  have hloop2 : ∀ args k, EI O E AnyV (bSubLoop k args) := by
    intro args
    induction args with
    | nil => intro k; exact EI.pure
    | cons a as ih => intro k; cases a <;> first | exact ih _ | exact EI.throwBase hE
  have hloop3 : ∀ args k, EI O E AnyV (bMulLoop k args) := by
    intro args
    induction args with
    | nil => intro k; exact EI.pure
    | cons a as ih => intro k; cases a <;> first | exact ih _ | exact EI.throwBase hE
  have hloop4 : ∀ args k, EI O E AnyV (bDivLoop k args) := by
    intro args
    induction args with
    | nil => intro k; exact EI.pure
    | cons a as ih => intro k; unfold bDivLoop; refine EI.ite (EI.throwBase hE) ?_; split; exact ih _; exact EI.throwBase hE
  have hcmp : ∀ cmp, EI O E AnyV (bCmp cmp args) := by
    intro cmp
    have : ∀ args k, EI O E AnyV (bCmpLoop cmp k args) := by
      intro args
      induction args with
      | nil => intro k; exact EI.pure
      | cons a as ih => intro k; cases a <;> first | exact EI.ite (ih _) EI.pure | exact EI.throwBase hE
    unfold bCmp; split
    · exact EI.throwBase hE
    · exact this _ _
    · exact EI.throwBase hE
  have hlen : ∀ v k, EI O E AnyV (bLenLoop k v) := by
    intro v
    induction v with
    | nil => intro k; exact EI.pure
    | cons a d _ ih => intro k; exact ih _
    | _ => intro k; exact EI.crash
  have hshuf : EI O E AnyV (bShuffle W args) := by
    unfold bShuffle; split
    · refine EI.ite ?_ (EI.throwBase hE)
      split
      · exact EI.bindA (ei_shuffleLoop _ _) fun _ => EI.pure
      · exact EI.extend hE (EI.throwBase hE)
    · exact EI.throwBase hE
  have hmex : ∀ x, EI O E AnyV (mexpand1 call x e) := fun x => ei_mexpand1 hE hc
  have hload : ∀ nm, EI O E AnyV (loadFile W call nm e) := fun nm => ei_loadFile hE hc
  have hlift : ∀ k ts, EI O E AnyV (liftParse (parse k ts)) := fun k ts => EI.liftParse hE
  cases b <;> simp only [biFn]
  case forms => exact hforms
  case help => exact hhelp
  case add => exact hloop1 _
  case sub => unfold bSub; split <;> first | exact hloop2 _ _ | exact EI.pure | exact EI.throwBase hE
  case mul => exact hloop3 _ _
  case div => unfold bDiv; split <;> first | exact hloop4 _ _ | exact EI.throwBase hE
  case eq => unfold bEq; ei hE
  case rem => unfold bRem; ei hE
  case lt => exact hcmp _
  case le => exact hcmp _
  case gt => exact hcmp _
  case ge => exact hcmp _
  case apply => exact hap
  case atomP => unfold bPred; ei hE
  case body => unfold bBody; ei hE
  case car => unfold bCar; ei hE
  case cdr => unfold bCdr; ei hE
  case cons => ei hE
  case doc => unfold bDoc; ei hE
  case downcase => ei hE
  case eval => unfold bEval; split <;> first | exact hc _ | exact EI.throwBase hE
  case exit => exact EI.exitM
  case fuse => unfold bFuse; ei hE
  case gensym => unfold bGensym; ei hE
  case isqrt => unfold bIsqrt; ei hE
  case len => unfold bLen; split; exact EI.ite (hlen _ _) (EI.throwBase hE); exact EI.throwBase hE
  case list => exact EI.pure
  case listP => unfold bPred; ei hE
  case load =>
    unfold bLoad; split
    · exact EI.bindA (EI.extend hE (hload _)) fun _ => EI.pure
    · exact EI.throwBase hE
    · exact EI.throwBase hE
  case macroexpand1 => unfold bMacroexpand1; split <;> first | exact hmex _ | exact EI.throwBase hE
  case not => unfold bPred; ei hE
  case numberP => unfold bPred; ei hE
  case print => ei hE
  case println => ei hE
  case printl => ei hE
  case randint =>
    unfold bRandint; split
    · exact EI.ite (EI.throwBase hE) (EI.ite EI.crash (EI.bindA EI.askM fun _ => EI.pure))
    all_goals exact EI.throwBase hE
  case readlist => unfold bReadlist; exact EI.bindA (EI.extend hE (EI.readLineM hE)) fun l => EI.bindA (EI.extend hE (hlift _ _)) fun _ => EI.pure
  case screenStart =>
    refine EI.bindA (EI.extend hE ?_) fun _ => EI.pure
    unfold termStart; ei hE
  case screenEnd => unfold termEnd; ei hE
  case screenSize => exact EI.bindA (EI.extend hE (hscr EI.askM)) fun _ => EI.pure
  case screenClear => exact EI.bindA (EI.extend hE (hscr EI.actsM)) fun _ => EI.pure
  case screenGetKey =>
    split
    · exact EI.bindA (EI.extend hE (hscr EI.askM)) fun _ => EI.pure
    · exact EI.throwBase hE
  case screenWrite =>
    unfold bScreenWrite
    split
    · split
      · exact EI.ite (EI.bindA (EI.extend hE (hscr EI.actsM)) fun _ => EI.pure) (EI.throwBase hE)
      all_goals exact EI.throwBase hE
    · exact EI.throwBase hE
  case shell => unfold doShell; ei hE
  case shuffle => exact hshuf
  case sleep => unfold bSleep; ei hE
  case sort => unfold bSort bSortList; ei hE
  case sortBy => exact hsort
  case source => unfold bSource; ei hE
  case split => unfold bSplit; ei hE
  case upcase => ei hE
  case version => exact EI.pure

include ht in
theorem ei_runStep (hu : ∀ t s v s', call t s = .ok v s' → E (.list (.cons v .nil))) (t : Task) :
    EI O E AnyV (runStep W call tail t) := by
  cases t with
  | eval x e =>
    exact EI.bindA EI.isMacroCallM fun b => EI.ite (EI.bindA (EI.extend hE (hc _)) fun y => ei_evExpr hE hc ht hu)
      (ei_evExpr hE hc ht hu)
  | mexpand x e =>
    exact EI.bindA (EI.extend hE (ei_mexpand1 hE hc)) fun r => EI.bindA EI.isMacroCallM fun b => EI.ite (ht _) EI.pure
  | loop b e => exact EI.bindA (ei_evLoopBody hE hc b) fun _ => ht _
  | builtin b args e => exact ei_biFn hE hc

end

end L1
