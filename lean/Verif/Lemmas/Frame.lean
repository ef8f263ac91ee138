import Verif.Lemmas.Inv
import Verif.Model.Watch
/-
What can change in the state.  `FR R m`: however `m` ends, the state before and the state after are related by `R`.
(The structure follows Lemmas/ErrGrow.lean.)
-/
set_option autoImplicit false
namespace L1

/-- A preorder on states that allows everything the interpreter does, except changing whether there is a screen (scopes are never discarded). -/
structure Frm (R : St → St → Prop) : Prop where
  refl : ∀ s, R s s
  trans : ∀ s1 s2 s3, R s1 s2 → R s2 s3 → R s1 s3
  heap : ∀ s h, s.heap.length ≤ h.length → R s { s with heap := h }
  out : ∀ s cs, R s { s with out := s.out ++ cs }
  inp : ∀ s ls, R s { s with inp := ls }
  tick : ∀ s, R s { s with tick := s.tick + 1 }
  acts : ∀ s as, R s { s with screen := { s.screen with acts := s.screen.acts ++ as } }
  gensym : ∀ s a, R s { s with gensym := s.gensym + 1, issued := s.issued ++ [a] }

/-- Before and after are related, whatever the outcome. -/
def FR {α : Type} (R : St → St → Prop) (m : M α) : Prop := ∀ s s', (m s).final = some s' → R s s'

section
variable {R : St → St → Prop} (hE : Frm R) {W : World} {call tail : Task → M Val}
include hE

theorem FR.bind {α β : Type} {m : M α} {f : α → M β} (hm : FR R m) (hf : ∀ a, FR R (f a)) : FR R (m >>= f) := by
  intro s s' h
  rw [M.bind_run] at h
  cases hr : m s with
  | ok a s1 => rw [hr] at h; exact hE.trans _ _ _ (hm s s1 (by rw [hr]; rfl)) (hf a s1 s' h)
  | oof => rw [hr] at h; cases h
  | _ => rw [hr] at h; exact hm s s' (by rw [hr]; exact h)

theorem FR.same {α : Type} {m : M α} (h : ∀ s, ∀ s', (m s).final = some s' → s' = s) : FR R m := fun s s' hh => by rw [h s s' hh]; exact hE.refl s
theorem FR.pure {α : Type} {a : α} : FR R (pure a : M α) := FR.same hE fun s s' h => by cases h; rfl
theorem FR.crash {α : Type} {m : String} : FR R (crash m : M α) := FR.same hE fun s s' h => by cases h; rfl
theorem FR.exitM {α : Type} {c : Nat} : FR R (exitM c : M α) := FR.same hE fun s s' h => by cases h; rfl
omit hE in
theorem FR.oof {α : Type} : FR R (fun _ => .oof : M α) := fun s s' h => by cases h
theorem FR.throwBase {α : Type} {m : String} : FR R (throwBase m : M α) := FR.same hE fun s s' h => by cases h; rfl
theorem FR.throwUser {α : Type} {m : Val} : FR R (throwUser m : M α) := FR.same hE fun s s' h => by cases h; rfl
theorem FR.throwForeign {α : Type} {m : String} : FR R (throwForeign m : M α) := FR.same hE fun s s' h => by cases h; rfl
theorem FR.throwErr {α : Type} {m : Err} : FR R (throwErr m : M α) := FR.same hE fun s s' h => by cases h; rfl
theorem FR.lookupM {e : Nat} {x : String} : FR R (lookupM e x) := FR.same hE fun s s' h => by cases h; rfl
theorem FR.isMacroCallM {x : Val} {e : Nat} : FR R (isMacroCallM x e) := FR.same hE fun s s' h => by cases h; rfl
theorem FR.getScreenM : FR R getScreenM := FR.same hE fun s s' h => by cases h; rfl
theorem FR.envKeysM {e : Nat} : FR R (envKeysM e) := FR.same hE fun s s' h => by cases h; rfl
theorem FR.printM {cs : List Char} : FR R (printM cs) := fun s s' h => by cases h; exact hE.out _ _
theorem FR.actsM {as : List Act} : FR R (actsM as) := fun s s' h => by cases h; exact hE.acts _ _
theorem FR.newEnvM {e : Nat} : FR R (newEnvM e) := fun s s' h => by cases h; exact hE.heap _ _ (by simp)
theorem FR.askM {α : Type} {f : Nat → α} : FR R (askM f) := fun s s' h => by cases h; exact hE.tick _
theorem FR.gensymM {p : List Char} : FR R (gensymM p) := fun s s' h => by cases h; exact hE.gensym _ _
omit hE in
theorem FR.ite {α : Type} {c : Prop} [Decidable c] {a b : M α} (h1 : FR R a) (h2 : FR R b) : FR R (if c then a else b) := by
  split <;> assumption
omit hE in
theorem FR.attempt {α : Type} {m : M α} (h : FR R m) : FR R (attempt m) := by
  intro s s' hh
  refine h s s' ?_
  rw [attempt_run] at hh
  cases hr : m s <;> rw [hr] at hh <;> exact hh
theorem FR.extendWith {α : Type} {f : Val} {m : M α} (h : FR R m) : FR R (extendWith f m) := by
  intro s s' hh
  refine h s s' ?_
  rw [extendWith_run] at hh
  cases hr : m s <;> rw [hr] at hh <;> exact hh
theorem FR.extend {α : Type} {msg : String} {m : M α} (h : FR R m) : FR R (extend msg m) := FR.extendWith hE h
theorem FR.readLineM : FR R readLineM := by
  intro s s' h
  unfold L1.readLineM at h
  cases hi : s.inp with
  | nil => rw [hi] at h; cases h; exact hE.refl _
  | cons l ls => rw [hi] at h; cases h; exact hE.inp _ _
theorem FR.setM {e : Nat} {x : String} {v : Val} : FR R (setM e x v) := by
  intro s s' h
  by_cases hx : x = "t"
  · simp [L1.setM, hx, L1.throwBase, Res.final] at h; rw [← h]; exact hE.refl _
  · simp [L1.setM, hx, Res.final] at h; rw [← h]; exact hE.heap _ _ (by simp [heapSet_length])
theorem FR.setTopM {e : Nat} {x : String} {v : Val} : FR R (setTopM e x v) := fun s s' h => FR.setM hE s s' h
theorem FR.updateM {e : Nat} {x : String} {v : Val} : FR R (updateM e x v) := by
  intro s s' h
  by_cases hx : x = "t"
  · simp [L1.updateM, hx, L1.throwBase, Res.final] at h; rw [← h]; exact hE.refl _
  · cases ho : owner s.heap e x with
    | some o => simp [L1.updateM, hx, ho, Res.final] at h; rw [← h]; exact hE.heap _ _ (by simp [heapSet_length])
    | none => simp [L1.updateM, hx, ho, L1.throwBase, Res.final] at h; rw [← h]; exact hE.refl _
theorem FR.liftParse {ts : List Token} {k : Nat} : FR R (liftParse (parse k ts)) := by
  cases hp : parse k ts with
  | fuel => exact fun s s' h => by cases h
  | _ => exact FR.same hE fun s s' h => by cases h; rfl

/-- Close goals about `FR`. -/
macro "frm" hE:ident : tactic => `(tactic| repeat' (first
  | with_reducible assumption
  | exact FR.pure $hE | exact FR.crash $hE | exact FR.exitM $hE | exact FR.oof | exact FR.printM $hE | exact FR.actsM $hE | exact FR.lookupM $hE | exact FR.newEnvM $hE
  | exact FR.isMacroCallM $hE | exact FR.askM $hE | exact FR.getScreenM $hE | exact FR.envKeysM $hE | exact FR.gensymM $hE
  | exact FR.throwBase $hE | exact FR.throwForeign $hE | exact FR.setM $hE | exact FR.setTopM $hE | exact FR.updateM $hE
  | exact FR.readLineM $hE
  | apply FR.extend $hE | apply FR.extendWith $hE | apply FR.attempt
  | split
  | refine FR.bind $hE ?_ (fun _ => ?_)))

/-! ### The evaluator -/

theorem fr_splitDoc {b : Val} : FR R (splitDoc b) := by unfold splitDoc; frm hE

theorem fr_mkLambdaNamed {nm : String} {c : Val} {m : Bool} {e : Nat} : FR R (mkLambdaNamed nm c m e) := by
  have h : ∀ b, FR R (splitDoc b) := fun b => fr_splitDoc hE
  unfold mkLambdaNamed
  split
  · refine FR.ite ?_ ((FR.throwBase hE))
    split
    · exact (FR.throwBase hE)
    · refine FR.ite ((FR.throwBase hE)) (FR.ite ?_ (FR.crash hE))
      refine FR.bind hE (h _) fun r => ?_
      obtain ⟨doc, body'⟩ := r
      exact FR.ite (FR.bind hE (FR.attempt ((FR.setM hE))) fun _ => (FR.pure hE)) (FR.pure hE)
  · exact (FR.throwBase hE)

theorem fr_mkLambda {c : Val} {m : Bool} {e : Nat} : FR R (mkLambda c m e) := by
  have h : ∀ nm c, FR R (mkLambdaNamed nm c m e) := fun _ _ => fr_mkLambdaNamed hE
  unfold mkLambda; split
  · exact FR.ite (h _ _) (FR.crash hE)
  · exact h _ _
  · exact (FR.throwBase hE)

theorem fr_bindParams {e : Nat} (ps : List String) : ∀ vs, FR R (bindParams e ps vs) := by
  induction ps with
  | nil => intro vs; cases vs <;> exact (FR.pure hE)
  | cons p ps ih =>
    intro vs
    cases vs with
    | nil => exact (FR.pure hE)
    | cons v vs => exact FR.bind hE (FR.extend hE ((FR.setM hE))) fun _ => ih vs

theorem fr_bindArgs {e : Nat} {ps : List String} {r : String} {args : List Val} : FR R (bindArgs e ps r args) := by
  have h : ∀ ps args, FR R (bindParams e ps args) := fun ps args => fr_bindParams hE ps args
  unfold bindArgs
  refine FR.ite (FR.ite ((FR.throwBase hE)) (FR.bind hE ((FR.setM hE)) fun _ => h _ _))
    (FR.ite ((FR.throwBase hE)) (FR.ite ((FR.throwBase hE)) (h _ _)))

variable (hc : ∀ t, FR R (call t)) (ht : ∀ t, FR R (tail t))
include hc

theorem fr_evArgs {e : Nat} (v : Val) : FR R (evArgs call e v) := by
  induction v with
  | nil => exact (FR.pure hE)
  | cons a d _ ih => exact FR.bind hE (FR.extend hE (hc _)) fun _ => FR.bind hE ih fun _ => (FR.pure hE)
  | _ => exact (FR.crash hE)

include ht in
theorem fr_evBodyTail {wrap : Val → Val} {e : Nat} (v : Val) : FR R (evBodyTail call tail wrap e v) := by
  induction v with
  | nil => exact (FR.pure hE)
  | cons a d _ ih =>
    have hrec : FR R (L1.extendWith (wrap a) (call (.eval a e)) >>= fun _ => evBodyTail call tail wrap e d) :=
      FR.bind hE (FR.extendWith hE (hc _)) fun _ => ih
    cases d with
    | nil => exact ht _
    | _ => exact hrec
  | _ => exact (FR.crash hE)

theorem fr_evBodyApply {e : Nat} (v : Val) : ∀ ret, FR R (evBodyApply call e ret v) := by
  induction v with
  | nil => intro _; exact (FR.pure hE)
  | cons a d _ ih => intro _; exact FR.bind hE (FR.extend hE (hc _)) fun w => ih w
  | _ => intro _; exact (FR.crash hE)

theorem fr_evBodyMacro {e : Nat} (v : Val) : ∀ ret, FR R (evBodyMacro call e ret v) := by
  induction v with
  | nil => intro _; exact (FR.pure hE)
  | cons a d _ ih => intro _; exact FR.bind hE (FR.extend hE (hc _)) fun w => ih w
  | _ => intro _; exact (FR.throwBase hE)

theorem fr_mexpand1 {x : Val} {e : Nat} : FR R (mexpand1 call x e) := by
  unfold mexpand1
  refine FR.bind hE (FR.isMacroCallM hE) fun b => FR.ite ?_ (FR.pure hE)
  split
  · refine FR.bind hE (FR.lookupM hE) fun o => ?_
    split
    · split
      · exact FR.extend hE ((FR.throwBase hE))
      · exact FR.bind hE (FR.newEnvM hE) fun i => FR.bind hE (FR.extend hE (fr_bindArgs hE)) fun _ => fr_evBodyMacro hE hc _ _
    · exact (FR.crash hE)
  · exact (FR.throwBase hE)

include ht in
theorem fr_evCond {e : Nat} (v : Val) : FR R (evCond call tail e v) := by
  induction v with
  | nil => exact (FR.pure hE)
  | cons p d _ ih =>
    unfold evCond
    split
    · refine FR.bind hE (FR.extend hE (hc _)) fun w => FR.ite ih ?_
      split
      · exact ht _
      · exact (FR.throwBase hE)
    · exact (FR.throwBase hE)
  | _ => exact (FR.crash hE)

theorem fr_evAnd {e : Nat} (v : Val) : FR R (evAnd call e v) := by
  induction v with
  | nil => exact (FR.pure hE)
  | cons a d _ ih => exact FR.bind hE (FR.extend hE (hc _)) fun w => FR.ite (FR.pure hE) ih
  | _ => exact (FR.throwBase hE)

theorem fr_evOr {e : Nat} (v : Val) : FR R (evOr call e v) := by
  induction v with
  | nil => exact (FR.pure hE)
  | cons a d _ ih => exact FR.bind hE (FR.extend hE (hc _)) fun w => FR.ite (FR.pure hE) ih
  | _ => exact (FR.throwBase hE)

theorem fr_evLoopBody {e : Nat} (v : Val) : FR R (evLoopBody call e v) := by
  induction v with
  | nil => exact (FR.pure hE)
  | cons a d _ ih => exact FR.bind hE (FR.extend hE (hc _)) fun w => ih
  | _ => exact (FR.crash hE)

theorem fr_evSwallow {e : Nat} (v : Val) : FR R (evSwallow call e v) := by
  induction v with
  | nil => exact (FR.pure hE)
  | cons a d _ ih =>
    refine FR.bind hE (FR.attempt (hc _)) fun w => ?_
    cases w with
    | error _ => exact (FR.pure hE)
    | ok _ => exact ih
  | _ => exact (FR.crash hE)

theorem fr_evDef {e : Nat} {v : Val} : FR R (evDef call e v) := by
  unfold evDef
  split
  · exact FR.bind hE (FR.extend hE (hc _)) fun _ => FR.bind hE (FR.extend hE ((FR.setTopM hE))) fun _ => (FR.pure hE)
  all_goals exact (FR.throwBase hE)

theorem fr_evSet {e : Nat} {v : Val} : FR R (evSet call e v) := by
  unfold evSet
  split
  · exact FR.bind hE (FR.extend hE (hc _)) fun _ => FR.bind hE (FR.extend hE ((FR.updateM hE))) fun _ => (FR.pure hE)
  all_goals exact (FR.throwBase hE)

omit hc in
theorem fr_evDefn {m : Bool} {e : Nat} {v : Val} : FR R (evDefn m e v) := by
  unfold evDefn
  split
  · split
    · exact FR.bind hE (FR.extend hE (fr_mkLambda hE)) fun _ => FR.bind hE (FR.extend hE ((FR.setTopM hE))) fun _ => (FR.pure hE)
    · exact (FR.throwBase hE)
    · exact (FR.crash hE)
  all_goals exact (FR.throwBase hE)

theorem fr_evErrorsLoop {e : Nat} {args : Val} {es : List Char} (v : Val) : FR R (evErrorsLoop call e args es v) := by
  induction v with
  | nil => exact (FR.throwBase hE)
  | cons a d _ ih =>
    refine FR.bind hE (FR.attempt (hc _)) fun w => ?_
    cases w with
    | error _ => exact FR.ite (FR.pure hE) ((FR.throwBase hE))
    | ok _ => exact ih
  | _ => exact (FR.crash hE)

theorem fr_evErrors {e : Nat} {v : Val} : FR R (evErrors call e v) := by
  unfold evErrors
  split
  · exact FR.ite (FR.bind hE (FR.extend hE (hc _)) fun w => FR.ite (fr_evErrorsLoop hE hc _) ((FR.throwBase hE))) ((FR.throwBase hE))
  · exact (FR.throwBase hE)

theorem fr_evError  {e : Nat} {v : Val} :
    FR R (evError call e v) := by
  unfold evError
  split
  · rename_i x _
    exact FR.bind hE (FR.extend hE (hc _)) fun w => (FR.throwUser hE)
  · exact (FR.throwBase hE)

theorem fr_evCatchBody {e : Nat} (v : Val) : ∀ ret, FR R (evCatchBody call e ret v) := by
  induction v with
  | nil => intro _; exact (FR.pure hE)
  | cons a d _ ih => intro _; exact FR.bind hE (FR.extend hE (hc _)) fun w => ih w
  | _ => intro _; exact (FR.throwBase hE)

theorem fr_evCatch {e : Nat} {ret v : Val} {er : Err} : FR R (evCatch call e ret er v) := by
  unfold evCatch
  split
  · refine FR.bind hE (FR.newEnvM hE) fun i => ?_
    split
    · exact (FR.throwBase hE)
    · exact FR.bind hE (FR.attempt ((FR.setM hE))) fun _ => fr_evCatchBody hE hc _ _
  · exact (FR.throwBase hE)
  · exact (FR.crash hE)
  · exact (FR.throwBase hE)

theorem fr_evTry {e : Nat} (v : Val) : ∀ {ret : Val} {er : Option Err},
    FR R (evTry call e ret er v) := by
  induction v with
  | nil =>
    intro ret er
    cases er with
    | none => exact (FR.pure hE)
    | some x => exact (FR.throwErr hE)
  | cons a d _ ih =>
    intro ret er
    unfold evTry
    refine FR.ite ?_ ?_
    · split
      · exact (FR.pure hE)
      · split
        · exact fr_evCatch hE hc
        · exact (FR.pure hE)
    · split
      · exact ih
      · refine FR.bind hE (FR.attempt (hc _)) fun w => ?_
        cases w with
        | error x => exact ih
        | ok x => exact ih
  | _ => intro _ _; exact (FR.throwBase hE)

theorem fr_evLetBinds {e ne : Nat} (v : Val) : FR R (evLetBinds call e ne v) := by
  induction v with
  | nil => exact (FR.pure hE)
  | cons b d _ ih =>
    unfold evLetBinds
    split
    · split
      · exact (FR.pure hE)
      · exact FR.bind hE (FR.extend hE (hc _)) fun _ => FR.bind hE (FR.extend hE ((FR.setM hE))) fun _ => ih
      · exact (FR.throwBase hE)
    · exact (FR.throwBase hE)
  | _ => exact (FR.crash hE)

include ht in
theorem fr_evLet {e : Nat} {v : Val} : FR R (evLet call tail e v) := by
  unfold evLet
  split
  · refine FR.ite (FR.ite ?_ ((FR.throwBase hE))) ((FR.throwBase hE))
    exact FR.bind hE (FR.newEnvM hE) fun i => FR.bind hE (fr_evLetBinds hE hc _) fun b => FR.ite (fr_evBodyTail hE hc ht _) (FR.pure hE)
  · exact (FR.throwBase hE)

theorem fr_evTestLoop {e : Nat} (v : Val) : FR R (evTestLoop call e v) := by
  induction v with
  | nil => exact (FR.printM hE)
  | cons a d _ ih => exact FR.bind hE (FR.extend hE (hc _)) fun _ => FR.bind hE (FR.printM hE) fun _ => ih
  | _ => exact (FR.throwBase hE)

theorem fr_evTest {e : Nat} {v : Val} : FR R (evTest call e v) := by
  unfold evTest
  split
  · exact (FR.pure hE)
  · exact FR.bind hE (FR.extend hE (hc _)) fun _ => FR.bind hE (FR.printM hE) fun _ => fr_evTestLoop hE hc _
  · exact (FR.pure hE)

include ht in
theorem fr_evSpecial  {f : SF} {e : Nat} {args : Val} :
    FR R (evSpecial call tail f args e) := by
  cases f with
  | quote => simp only [evSpecial]; split <;> first | exact (FR.pure hE) | exact (FR.throwBase hE)
  | syntaxQuote =>
    simp only [evSpecial]
    split
    · split
      · exact ht _
      · exact (FR.crash hE)
    · exact (FR.throwBase hE)
  | test => exact FR.bind hE (FR.extend hE (fr_evTest hE hc)) fun _ => (FR.pure hE)
  | cond => exact fr_evCond hE hc ht _
  | and => exact fr_evAnd hE hc _
  | or => exact fr_evOr hE hc _
  | loop => exact ht _
  | swallow => exact fr_evSwallow hE hc _
  | def_ => exact fr_evDef hE hc
  | set => exact fr_evSet hE hc
  | defn => exact fr_evDefn hE
  | defmacro => exact fr_evDefn hE
  | error => exact fr_evError hE hc
  | errors => exact fr_evErrors hE hc
  | try_ => exact fr_evTry hE hc _
  | let_ => exact fr_evLet hE hc ht
  | lambda => exact fr_mkLambda hE

include ht in
theorem fr_evApply {f : Val} {args : List Val} {e : Nat} : FR R (evApply call tail f args e) := by
  unfold evApply
  split
  · exact FR.bind hE (FR.newEnvM hE) fun i => FR.bind hE (FR.extend hE (fr_bindArgs hE)) fun _ => fr_evBodyTail hE hc ht _
  · exact FR.extend hE (hc _)
  · exact (FR.throwBase hE)

include ht in
theorem fr_evExpr  {e : Nat} {x : Val} :
    FR R (evExpr call tail x e) := by
  have hcall : ∀ f args, FR R (evCall call tail f args e) := fun f args =>
    FR.bind hE (FR.extend hE (hc _)) fun _ => FR.bind hE (fr_evArgs hE hc _) fun _ => fr_evApply hE hc ht
  unfold evExpr
  split
  · refine FR.ite (FR.pure hE) ?_
    unfold evAtom
    refine FR.ite (FR.pure hE) (FR.bind hE (FR.lookupM hE) fun o => ?_)
    split
    · exact (FR.pure hE)
    · split
      · exact (FR.pure hE)
      · exact (FR.throwBase hE)
  · exact (FR.pure hE)
  · exact (FR.pure hE)
  · refine FR.ite ?_ ((FR.throwBase hE))
    split
    · split
      · exact fr_evSpecial hE hc ht
      · exact hcall _ _
    · exact hcall _ _
  · exact (FR.throwBase hE)

theorem fr_applyTo {f : Val} {args : List Val} {e : Nat} : FR R (applyTo call f args e) := by
  unfold applyTo
  split
  · exact FR.bind hE (FR.newEnvM hE) fun i => FR.bind hE (FR.extend hE (fr_bindArgs hE)) fun _ => fr_evBodyApply hE hc _ _
  · exact FR.extend hE (hc _)
  · exact (FR.throwBase hE)

theorem fr_applyFn {args : List Val} {e : Nat} : FR R (applyFn call args e) := by
  unfold applyFn
  split
  · refine FR.ite ?_ ((FR.throwBase hE))
    split
    · exact FR.extend hE ((FR.throwBase hE))
    · exact fr_applyTo hE hc
  · exact (FR.throwBase hE)

theorem fr_evalExprs {p : Bool} {e : Nat} (gs : List Val) : FR R (evalExprs call p e gs) := by
  induction gs with
  | nil => exact (FR.pure hE)
  | cons g gs ih =>
    refine FR.bind hE (FR.attempt (hc _)) fun w => ?_
    cases w with
    | error er => exact FR.ite (FR.bind hE (FR.printM hE) fun _ => (FR.throwErr hE)) ((FR.throwErr hE))
    | ok v => exact FR.ite (FR.bind hE (FR.printM hE) fun _ => ih) ih

theorem fr_loadFile {name : String} {e : Nat} : FR R (loadFile W call name e) := by
  refine FR.bind hE (FR.askM hE) fun x => ?_
  cases x with
  | error m => exact (FR.throwForeign hE)
  | ok t => exact FR.bind hE (FR.liftParse hE) fun gs => fr_evalExprs hE hc gs

theorem fr_sortByLess {f a b : Val} {e : Nat} : FR R (sortByLess call f e a b) := by
  refine FR.bind hE (fr_applyFn hE hc) fun va => FR.bind hE (fr_applyFn hE hc) fun vb => FR.ite ((FR.throwBase hE)) ?_
  split
  · exact (FR.pure hE)
  · exact (FR.pure hE)
  · exact (FR.throwBase hE)

theorem fr_sortRun {f : Val} {e : Nat} (t : Sorter) : ∀ {xs : List Val} {er : Option Err},
    FR R (sortRun call f e t xs er) := by
  induction t with
  | done => intro xs er; exact (FR.pure hE)
  | swap i j next ih => intro xs er; exact ih
  | less i j yes no ihy ihn =>
    intro xs er
    simp only [sortRun]
    split
    · refine FR.bind hE (FR.attempt (fr_sortByLess hE hc)) fun w => ?_
      split
      · exact ihn
      · exact ihy
      · exact ihn
    · exact ihn

theorem fr_bSortBy {args : List Val} {e : Nat} : FR R (bSortBy W call args e) := by
  unfold bSortBy
  split
  · refine FR.ite ?_ ((FR.throwBase hE))
    split
    · exact FR.extend hE ((FR.throwBase hE))
    · refine FR.bind hE (fr_sortRun hE hc _) fun r => ?_
      split
      · exact (FR.pure hE)
      · exact (FR.throwErr hE)
  · exact (FR.throwBase hE)

theorem fr_runExamples {e : Nat} (v : Val) : FR R (runExamples call e v) := by
  induction v with
  | cons a d _ ih => exact FR.ite (FR.pure hE) (FR.bind hE (FR.attempt (hc _)) fun _ => FR.bind hE ih fun _ => FR.pure hE)
  | _ => exact (FR.pure hE)

theorem fr_formsOfBuiltins {e : Nat} (bs : List BI) : FR R (formsOfBuiltins W call e bs) := by
  induction bs with
  | nil => exact (FR.pure hE)
  | cons b bs ih => exact FR.bind hE (fr_runExamples hE hc _) fun _ => FR.bind hE ih fun _ => (FR.pure hE)

theorem fr_formsOfKeys {e : Nat} (ks : List String) : FR R (formsOfKeys call e ks) := by
  induction ks with
  | nil => exact (FR.pure hE)
  | cons x ks ih =>
    refine FR.bind hE (FR.lookupM hE) fun o => ?_
    split
    · refine FR.ite ?_ ih
      split
      · exact (FR.crash hE)
      · exact FR.bind hE (fr_runExamples hE hc _) fun _ => FR.bind hE ih fun _ => (FR.pure hE)
    · exact ih

omit hc in
theorem fr_shuffleLoop {α : Type} (i : Nat) : ∀ xs : List α, FR R (shuffleLoop W i xs) := by
  induction i with
  | zero => intro xs; exact (FR.pure hE)
  | succ i ih => intro xs; exact FR.bind hE (FR.askM hE) fun r => ih _

omit hc in
theorem fr_mapOrders (ks : List (List String)) : FR R (mapOrders W ks) := by
  induction ks with
  | nil => exact (FR.pure hE)
  | cons k ks ih => exact FR.bind hE (fr_shuffleLoop hE _ _) fun _ => FR.bind hE ih fun _ => (FR.pure hE)

attribute [local irreducible] L1.mapOrder L1.formsOfBuiltins in
theorem fr_availableForms {e : Nat} : FR R (availableForms W call e) := by
  have h1 : FR R (mapOrder W BI.all) := by unfold mapOrder; exact fr_shuffleLoop hE _ _
  have h2 : ∀ bs, FR R (formsOfBuiltins W call e bs) := fun bs => fr_formsOfBuiltins hE hc bs
  unfold availableForms
  refine FR.bind hE h1 fun bs => FR.bind hE (h2 bs) fun fb => ?_
  exact FR.bind hE (FR.envKeysM hE) fun ks => FR.bind hE (fr_mapOrders hE ks) fun ks' => FR.bind hE (fr_formsOfKeys hE hc ks') fun fk => (FR.pure hE)

omit hc in
theorem fr_needScreen {α : Type} {m : M α} (h : FR R m) : FR R (needScreen m) :=
  FR.bind hE (FR.getScreenM hE) fun _ => FR.ite h ((FR.throwBase hE))

attribute [local irreducible] L1.availableForms in
theorem fr_bForms {e : Nat} : FR R (bForms W call e) := by
  have hforms : FR R (availableForms W call e) := fr_availableForms hE hc
  unfold bForms; exact FR.bind hE (FR.extend hE (FR.extend hE hforms)) fun _ => (FR.pure hE)

attribute [local irreducible] L1.availableForms in
theorem fr_bHelp {e : Nat} : FR R (bHelp W call e) := by
  have hforms : FR R (availableForms W call e) := fr_availableForms hE hc
  unfold bHelp
  refine FR.bind hE hforms fun fs => ?_
  cases formLines W fs with
  | none => exact (FR.crash hE)
  | some ls => exact FR.bind hE (FR.printM hE) fun _ => (FR.pure hE)

attribute [local irreducible] L1.bForms L1.bHelp in
theorem fr_biFn {b : BI} {args : List Val} {e : Nat} (hb : b ≠ .screenStart ∧ b ≠ .screenEnd) : FR R (biFn W call b args e) := by
  have hforms : FR R (bForms W call e) := fr_bForms hE hc
  have hhelp : FR R (bHelp W call e) := fr_bHelp hE hc
  have hscr : ∀ {α : Type} {m : M α}, FR R m → FR R (needScreen m) := fun h => fr_needScreen hE h
  have hap : FR R (applyFn call args e) := fr_applyFn hE hc
  have hsort : FR R (bSortBy W call args e) := fr_bSortBy hE hc
  have hloop1 : ∀ k, FR R (bAddLoop k args) := by
    induction args with
    | nil => intro k; exact (FR.pure hE)
    | cons a as ih => intro k; cases a <;> first | exact ih (fr_applyFn hE hc) (fr_bSortBy hE hc) _ | exact (FR.throwBase hE)
  have hloop2 : ∀ args k, FR R (bSubLoop k args) := by
    intro args
    induction args with
    | nil => intro k; exact (FR.pure hE)
    | cons a as ih => intro k; cases a <;> first | exact ih _ | exact (FR.throwBase hE)
  have hloop3 : ∀ args k, FR R (bMulLoop k args) := by
    intro args
    induction args with
    | nil => intro k; exact (FR.pure hE)
    | cons a as ih => intro k; cases a <;> first | exact ih _ | exact (FR.throwBase hE)
  have hloop4 : ∀ args k, FR R (bDivLoop k args) := by
    intro args
    induction args with
    | nil => intro k; exact (FR.pure hE)
    | cons a as ih => intro k; unfold bDivLoop; refine FR.ite ((FR.throwBase hE)) ?_; split; exact ih _; exact (FR.throwBase hE)
  have hcmp : ∀ cmp, FR R (bCmp cmp args) := by
    intro cmp
    have : ∀ args k, FR R (bCmpLoop cmp k args) := by
      intro args
      induction args with
      | nil => intro k; exact (FR.pure hE)
      | cons a as ih => intro k; cases a <;> first | exact FR.ite (ih _) (FR.pure hE) | exact (FR.throwBase hE)
    unfold bCmp; split
    · exact (FR.throwBase hE)
    · exact this _ _
    · exact (FR.throwBase hE)
  have hlen : ∀ v k, FR R (bLenLoop k v) := by
    intro v
    induction v with
    | nil => intro k; exact (FR.pure hE)
    | cons a d _ ih => intro k; exact ih _
    | _ => intro k; exact (FR.crash hE)
  have hshuf : FR R (bShuffle W args) := by
    unfold bShuffle; split
    · refine FR.ite ?_ ((FR.throwBase hE))
      split
      · exact FR.bind hE (fr_shuffleLoop hE _ _) fun _ => (FR.pure hE)
      · exact FR.extend hE ((FR.throwBase hE))
    · exact (FR.throwBase hE)
  have hmex : ∀ x, FR R (mexpand1 call x e) := fun x => fr_mexpand1 hE hc
  have hload : ∀ nm, FR R (loadFile W call nm e) := fun nm => fr_loadFile hE hc
  have hlift : ∀ k ts, FR R (liftParse (parse k ts)) := fun k ts => FR.liftParse hE
  cases b <;> simp only [biFn]
  case forms => exact hforms
  case help => exact hhelp
  case add => exact hloop1 _
  case sub => unfold bSub; split <;> first | exact hloop2 _ _ | exact (FR.pure hE) | exact (FR.throwBase hE)
  case mul => exact hloop3 _ _
  case div => unfold bDiv; split <;> first | exact hloop4 _ _ | exact (FR.throwBase hE)
  case eq => unfold bEq; frm hE
  case rem => unfold bRem; frm hE
  case lt => exact hcmp _
  case le => exact hcmp _
  case gt => exact hcmp _
  case ge => exact hcmp _
  case apply => exact hap
  case atomP => unfold bPred; frm hE
  case body => unfold bBody; frm hE
  case car => unfold bCar; frm hE
  case cdr => unfold bCdr; frm hE
  case cons => frm hE
  case doc => unfold bDoc; frm hE
  case downcase => frm hE
  case eval => unfold bEval; split <;> first | exact hc _ | exact (FR.throwBase hE)
  case exit => exact (FR.exitM hE)
  case fuse => unfold bFuse; frm hE
  case gensym => unfold bGensym; frm hE
  case isqrt => unfold bIsqrt; frm hE
  case len => unfold bLen; split; exact FR.ite (hlen _ _) ((FR.throwBase hE)); exact (FR.throwBase hE)
  case list => exact (FR.pure hE)
  case listP => unfold bPred; frm hE
  case load =>
    unfold bLoad; split
    · exact FR.bind hE (FR.extend hE (hload _)) fun _ => (FR.pure hE)
    · exact (FR.throwBase hE)
    · exact (FR.throwBase hE)
  case macroexpand1 => unfold bMacroexpand1; split <;> first | exact hmex _ | exact (FR.throwBase hE)
  case not => unfold bPred; frm hE
  case numberP => unfold bPred; frm hE
  case print => frm hE
  case println => frm hE
  case printl => frm hE
  case randint =>
    unfold bRandint; split
    · exact FR.ite ((FR.throwBase hE)) (FR.ite (FR.crash hE) (FR.bind hE (FR.askM hE) fun _ => (FR.pure hE)))
    all_goals exact (FR.throwBase hE)
  case readlist => unfold bReadlist; exact FR.bind hE (FR.extend hE ((FR.readLineM hE))) fun l => FR.bind hE (FR.extend hE (hlift _ _)) fun _ => (FR.pure hE)
  case screenStart => exact absurd rfl hb.1
  case screenEnd => exact absurd rfl hb.2
  case screenSize => exact FR.bind hE (FR.extend hE (hscr (FR.askM hE))) fun _ => (FR.pure hE)
  case screenClear => exact FR.bind hE (FR.extend hE (hscr (FR.actsM hE))) fun _ => (FR.pure hE)
  case screenGetKey =>
    split
    · exact FR.bind hE (FR.extend hE (hscr (FR.askM hE))) fun _ => (FR.pure hE)
    · exact (FR.throwBase hE)
  case screenWrite =>
    unfold bScreenWrite
    split
    · split
      · exact FR.ite (FR.bind hE (FR.extend hE (hscr (FR.actsM hE))) fun _ => (FR.pure hE)) ((FR.throwBase hE))
      all_goals exact (FR.throwBase hE)
    · exact (FR.throwBase hE)
  case shell => unfold doShell; frm hE
  case shuffle => exact hshuf
  case sleep => unfold bSleep; frm hE
  case sort => unfold bSort bSortList; frm hE
  case sortBy => exact hsort
  case source => unfold bSource; frm hE
  case split => unfold bSplit; frm hE
  case upcase => frm hE
  case version => exact (FR.pure hE)

include ht in
theorem fr_runStep (t : Task) (hb : ∀ args e, t ≠ .builtin .screenStart args e ∧ t ≠ .builtin .screenEnd args e) :
    FR R (runStep W call tail t) := by
  cases t with
  | eval x e =>
    exact FR.bind hE (FR.isMacroCallM hE) fun b => FR.ite (FR.bind hE (FR.extend hE (hc _)) fun y => fr_evExpr hE hc ht)
      (fr_evExpr hE hc ht)
  | mexpand x e =>
    exact FR.bind hE (FR.extend hE (fr_mexpand1 hE hc)) fun r => FR.bind hE (FR.isMacroCallM hE) fun b => FR.ite (ht _) (FR.pure hE)
  | loop b e => exact FR.bind hE (fr_evLoopBody hE hc b) fun _ => ht _
  | builtin b args e => exact fr_biFn hE hc ⟨by rintro rfl; exact (hb args e).1 rfl, by rintro rfl; exact (hb args e).2 rfl⟩

end

end L1
