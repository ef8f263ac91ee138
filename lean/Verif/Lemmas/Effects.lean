import Verif.Lemmas.Inv
import Verif.Lemmas.Laws
import Verif.Spec.Effects
/-
Which effects an execution can have (C65, C48).  `NE x n m`: however `m` ends, effect `x` has not happened; for `x = vars`: the first `n` scopes
are as they were.  (The structure follows Lemmas/ErrGrow.lean.)
-/
set_option autoImplicit false
namespace L1

/-- Effect `x` has not happened between the two states; for variables: not in the first `n` scopes. -/
def Keep (x : Eff) (n : Nat) (s s' : St) : Prop :=
  n ≤ s'.heap.length ∧ match x with
  | .vars => s'.heap.take n = s.heap.take n
  | x => Kept x s s'

theorem Keep.refl {x : Eff} {n : Nat} {s : St} (h : n ≤ s.heap.length) : Keep x n s s := by
  refine ⟨h, ?_⟩
  cases x <;> simp [Kept]

theorem Keep.trans {x : Eff} {n : Nat} {s1 s2 s3 : St} (h1 : Keep x n s1 s2) (h2 : Keep x n s2 s3) : Keep x n s1 s3 := by
  refine ⟨h2.1, ?_⟩
  have a := h1.2; have b := h2.2
  cases x <;> simp only [Kept] at a b ⊢
  case names => exact ⟨b.1.trans a.1, b.2.trans a.2⟩
  all_goals exact b.trans a

/-- Effect `x` does not happen, whatever the outcome. -/
def NE {α : Type} (x : Eff) (n : Nat) (m : M α) : Prop := ∀ s s', n ≤ s.heap.length → (m s).final = some s' → Keep x n s s'

section
variable {x : Eff} {n : Nat} {W : World} {call tail : Task → M Val}

theorem NE.bind {α β : Type} {m : M α} {f : α → M β} (hm : NE x n m) (hf : ∀ a, NE x n (f a)) : NE x n (m >>= f) := by
  intro s s' hn h
  rw [M.bind_run] at h
  cases hr : m s with
  | ok a s1 =>
    rw [hr] at h
    have h1 := hm s s1 hn (by rw [hr]; rfl)
    exact h1.trans (hf a s1 s' h1.1 h)
  | oof => rw [hr] at h; cases h
  | _ => rw [hr] at h; exact hm s s' hn (by rw [hr]; exact h)

theorem NE.bindOk {α β : Type} {m : M α} {f : α → M β} (hm : NE x n m) (hf : ∀ a, (∃ s s', m s = .ok a s') → NE x n (f a)) :
    NE x n (m >>= f) := by
  intro s s' hn h
  rw [M.bind_run] at h
  cases hr : m s with
  | ok a s1 =>
    rw [hr] at h
    have h1 := hm s s1 hn (by rw [hr]; rfl)
    exact h1.trans (hf a ⟨s, s1, hr⟩ s1 s' h1.1 h)
  | oof => rw [hr] at h; cases h
  | _ => rw [hr] at h; exact hm s s' hn (by rw [hr]; exact h)

theorem NE.same {α : Type} {m : M α} (h : ∀ s, ∀ s', (m s).final = some s' → s' = s) : NE x n m :=
  fun s s' hn hh => by rw [h s s' hh]; exact Keep.refl hn
theorem NE.pure {α : Type} {a : α} : NE x n (pure a : M α) := NE.same fun s s' h => by cases h; rfl
theorem NE.crash {α : Type} {m : String} : NE x n (crash m : M α) := NE.same fun s s' h => by cases h; rfl
theorem NE.exitM {α : Type} {c : Nat} : NE x n (exitM c : M α) := NE.same fun s s' h => by cases h; rfl
theorem NE.oof {α : Type} : NE x n (fun _ => .oof : M α) := fun s s' _ h => by cases h
theorem NE.throwBase {α : Type} {m : String} : NE x n (throwBase m : M α) := NE.same fun s s' h => by cases h; rfl
theorem NE.throwUser {α : Type} {m : Val} : NE x n (throwUser m : M α) := NE.same fun s s' h => by cases h; rfl
theorem NE.throwForeign {α : Type} {m : String} : NE x n (throwForeign m : M α) := NE.same fun s s' h => by cases h; rfl
theorem NE.throwErr {α : Type} {m : Err} : NE x n (throwErr m : M α) := NE.same fun s s' h => by cases h; rfl
theorem NE.lookupM {e : Nat} {y : String} : NE x n (lookupM e y) := NE.same fun s s' h => by cases h; rfl
theorem NE.isMacroCallM {v : Val} {e : Nat} : NE x n (isMacroCallM v e) := NE.same fun s s' h => by cases h; rfl
theorem NE.getScreenM : NE x n getScreenM := NE.same fun s s' h => by cases h; rfl
theorem NE.envKeysM {e : Nat} : NE x n (envKeysM e) := NE.same fun s s' h => by cases h; rfl
theorem NE.printM {cs : List Char} (hx : x ≠ .output) : NE x n (printM cs) := fun s s' hn h => by
  cases h; exact ⟨hn, by cases x <;> first | exact absurd rfl hx | simp [Kept]⟩
theorem NE.askM {α : Type} {f : Nat → α} (hx : x ≠ .world) : NE x n (askM f) := fun s s' hn h => by
  cases h; exact ⟨hn, by cases x <;> first | exact absurd rfl hx | simp [Kept]⟩
theorem NE.gensymM {p : List Char} (hx : x ≠ .names) : NE x n (gensymM p) := fun s s' hn h => by
  cases h; exact ⟨hn, by cases x <;> first | exact absurd rfl hx | simp [Kept]⟩
theorem NE.setScreenM {b : Bool} (hx : x ≠ .screen) : NE x n (setScreenM b) := fun s s' hn h => by
  cases h; exact ⟨hn, by cases x <;> first | exact absurd rfl hx | simp [Kept]⟩
theorem NE.actsM {as : List Act} (hx : x ≠ .device) : NE x n (actsM as) := fun s s' hn h => by
  cases h; exact ⟨hn, by cases x <;> first | exact absurd rfl hx | simp [Kept]⟩
theorem NE.readLineM (hx : x ≠ .input) : NE x n readLineM := by
  intro s s' hn h
  unfold L1.readLineM at h
  cases hi : s.inp with
  | nil => rw [hi] at h; cases h; exact Keep.refl hn
  | cons l ls => rw [hi] at h; cases h; exact ⟨hn, by cases x <;> first | exact absurd rfl hx | simp [Kept]⟩
/-- A computation in a new scope. -/
theorem NE.newEnv {α : Type} {e : Nat} {f : Nat → M α} (hf : ∀ i, n ≤ i → NE x n (f i)) : NE x n (newEnvM e >>= f) := by
  intro s s' hn h
  have hs : Keep x n s { s with heap := s.heap ++ [⟨[], some e⟩] } := by
    refine ⟨by simp; omega, ?_⟩
    cases x <;> simp [Kept]
    rw [List.take_append_of_le_length hn]
  exact hs.trans (hf _ hn _ s' hs.1 h)
theorem NE.ite {α : Type} {c : Prop} [Decidable c] {a b : M α} (h1 : NE x n a) (h2 : NE x n b) : NE x n (if c then a else b) := by
  split <;> assumption
theorem NE.attempt {α : Type} {m : M α} (h : NE x n m) : NE x n (attempt m) := by
  intro s s' hn hh
  refine h s s' hn ?_
  rw [attempt_run] at hh
  cases hr : m s <;> rw [hr] at hh <;> exact hh
theorem NE.extendWith {α : Type} {f : Val} {m : M α} (h : NE x n m) : NE x n (extendWith f m) := by
  intro s s' hn hh
  refine h s s' hn ?_
  rw [extendWith_run] at hh
  cases hr : m s <;> rw [hr] at hh <;> exact hh
theorem NE.extend {α : Type} {msg : String} {m : M α} (h : NE x n m) : NE x n (extend msg m) := NE.extendWith h
theorem keep_heapSet {s : St} {e : Nat} {y : String} {v : Val} (hn : n ≤ s.heap.length) (hx : x ≠ .vars ∨ n ≤ e) :
    Keep x n s { s with heap := heapSet s.heap e y v } := by
  refine ⟨by simpa [heapSet_length] using hn, ?_⟩
  cases x <;> simp [Kept]
  have he : n ≤ e := by simpa using hx
  apply List.ext_getElem?
  intro i
  simp only [List.getElem?_take]
  split
  · rename_i hi
    rw [heapSet_get]
    cases s.heap[i]? with
    | none => rfl
    | some f => simp only [Option.map_some]; rw [if_neg (by omega)]
  · rfl
theorem NE.setM {e : Nat} {y : String} {v : Val} (hx : x ≠ .vars ∨ n ≤ e) : NE x n (setM e y v) := by
  intro s s' hn h
  by_cases hy : y = "t"
  · simp [L1.setM, hy, L1.throwBase, Res.final] at h; rw [← h]; exact Keep.refl hn
  · simp [L1.setM, hy, Res.final] at h; rw [← h]; exact keep_heapSet hn hx
theorem NE.setTopM {e : Nat} {y : String} {v : Val} (hx : x ≠ .vars) : NE x n (setTopM e y v) := fun s s' hn h => NE.setM (.inl hx) s s' hn h
theorem NE.updateM {e : Nat} {y : String} {v : Val} (hx : x ≠ .vars) : NE x n (updateM e y v) := by
  intro s s' hn h
  by_cases hy : y = "t"
  · simp [L1.updateM, hy, L1.throwBase, Res.final] at h; rw [← h]; exact Keep.refl hn
  · cases ho : owner s.heap e y with
    | some o => simp [L1.updateM, hy, ho, Res.final] at h; rw [← h]; exact keep_heapSet hn (.inl hx)
    | none => simp [L1.updateM, hy, ho, L1.throwBase, Res.final] at h; rw [← h]; exact Keep.refl hn
theorem NE.liftParse {ts : List Token} {k : Nat} : NE x n (liftParse (parse k ts)) := by
  cases hp : parse k ts with
  | fuel => exact fun s s' _ h => by cases h
  | _ => exact NE.same fun s s' h => by cases h; rfl

/-- Close goals about `NE`. -/
macro "efm" : tactic => `(tactic| repeat' (first
  | with_reducible assumption
  | exact NE.pure | exact NE.crash | exact NE.exitM | exact NE.oof | exact NE.lookupM
  | exact NE.isMacroCallM | exact NE.getScreenM | exact NE.envKeysM
  | exact NE.throwBase | exact NE.throwForeign
  | apply NE.extend | apply NE.extendWith | apply NE.attempt
  | split
  | refine NE.bind ?_ (fun _ => ?_)))

/-! ### The evaluator -/

theorem ef_splitDoc {b : Val} : NE x n (splitDoc b) := by unfold splitDoc; efm

theorem ef_mkLambdaNamed {nm : String} {c : Val} {m : Bool} {e : Nat} (hx : x ≠ .vars ∨ nm = "") : NE x n (mkLambdaNamed nm c m e) := by
  have h : ∀ b, NE x n (splitDoc b) := fun b => ef_splitDoc
  unfold mkLambdaNamed
  split
  · refine NE.ite ?_ (NE.throwBase)
    split
    · exact NE.throwBase
    · refine NE.ite (NE.throwBase) (NE.ite ?_ NE.crash)
      refine NE.bind (h _) fun r => ?_
      obtain ⟨doc, body'⟩ := r
      dsimp only
      split
      · rename_i hnm
        exact NE.bind (NE.attempt (NE.setM (.inl (hx.resolve_right hnm)))) fun _ => NE.pure
      · exact NE.pure
  · exact NE.throwBase

theorem ef_mkLambda {c : Val} {m : Bool} {e : Nat} (hx : x ≠ .vars ∨ ∀ a d, c ≠ .cons (.atom a) d) : NE x n (mkLambda c m e) := by
  unfold mkLambda; split
  · rename_i a d
    exact NE.ite (ef_mkLambdaNamed (.inl (hx.resolve_right fun h => h a d rfl))) NE.crash
  · exact ef_mkLambdaNamed (.inr rfl)
  · exact NE.throwBase

theorem ef_bindParams {e : Nat} (he : n ≤ e) (ps : List String) : ∀ vs, NE x n (bindParams e ps vs) := by
  induction ps with
  | nil => intro vs; cases vs <;> exact NE.pure
  | cons p ps ih =>
    intro vs
    cases vs with
    | nil => exact NE.pure
    | cons v vs => exact NE.bind (NE.extend (NE.setM (.inr he))) fun _ => ih vs

theorem ef_bindArgs {e : Nat} (he : n ≤ e) {ps : List String} {r : String} {args : List Val} : NE x n (bindArgs e ps r args) := by
  have h : ∀ ps args, NE x n (bindParams e ps args) := fun ps args => ef_bindParams he ps args
  unfold bindArgs
  refine NE.ite (NE.ite (NE.throwBase) (NE.bind (NE.setM (.inr he)) fun _ => h _ _))
    (NE.ite (NE.throwBase) (NE.ite (NE.throwBase) (h _ _)))

variable (hc : ∀ t, NE x n (call t)) (ht : ∀ t, NE x n (tail t))
include hc

theorem ef_evArgs {e : Nat} (v : Val) : NE x n (evArgs call e v) := by
  induction v with
  | nil => exact NE.pure
  | cons a d _ ih => exact NE.bind (NE.extend (hc _)) fun _ => NE.bind ih fun _ => NE.pure
  | _ => exact NE.crash

include ht in
theorem ef_evBodyTail {wrap : Val → Val} {e : Nat} (v : Val) : NE x n (evBodyTail call tail wrap e v) := by
  induction v with
  | nil => exact NE.pure
  | cons a d _ ih =>
    have hrec : NE x n (L1.extendWith (wrap a) (call (.eval a e)) >>= fun _ => evBodyTail call tail wrap e d) :=
      NE.bind (NE.extendWith (hc _)) fun _ => ih
    cases d with
    | nil => exact ht _
    | _ => exact hrec
  | _ => exact NE.crash

theorem ef_evBodyApply {e : Nat} (v : Val) : ∀ ret, NE x n (evBodyApply call e ret v) := by
  induction v with
  | nil => intro _; exact NE.pure
  | cons a d _ ih => intro _; exact NE.bind (NE.extend (hc _)) fun w => ih w
  | _ => intro _; exact NE.crash

theorem ef_evBodyMacro {e : Nat} (v : Val) : ∀ ret, NE x n (evBodyMacro call e ret v) := by
  induction v with
  | nil => intro _; exact NE.pure
  | cons a d _ ih => intro _; exact NE.bind (NE.extend (hc _)) fun w => ih w
  | _ => intro _; exact NE.throwBase

theorem ef_mexpand1 {v : Val} {e : Nat} : NE x n (mexpand1 call v e) := by
  unfold mexpand1
  refine NE.bind NE.isMacroCallM fun b => NE.ite ?_ NE.pure
  split
  · refine NE.bind NE.lookupM fun o => ?_
    split
    · split
      · exact NE.extend (NE.throwBase)
      · exact NE.newEnv fun i hi => NE.bind (NE.extend (ef_bindArgs hi)) fun _ => ef_evBodyMacro hc _ _
    · exact NE.crash
  · exact NE.throwBase

include ht in
theorem ef_evCond {e : Nat} (v : Val) : NE x n (evCond call tail e v) := by
  induction v with
  | nil => exact NE.pure
  | cons p d _ ih =>
    unfold evCond
    split
    · refine NE.bind (NE.extend (hc _)) fun w => NE.ite ih ?_
      split
      · exact ht _
      · exact NE.throwBase
    · exact NE.throwBase
  | _ => exact NE.crash

theorem ef_evAnd {e : Nat} (v : Val) : NE x n (evAnd call e v) := by
  induction v with
  | nil => exact NE.pure
  | cons a d _ ih => exact NE.bind (NE.extend (hc _)) fun w => NE.ite NE.pure ih
  | _ => exact NE.throwBase

theorem ef_evOr {e : Nat} (v : Val) : NE x n (evOr call e v) := by
  induction v with
  | nil => exact NE.pure
  | cons a d _ ih => exact NE.bind (NE.extend (hc _)) fun w => NE.ite NE.pure ih
  | _ => exact NE.throwBase

theorem ef_evLoopBody {e : Nat} (v : Val) : NE x n (evLoopBody call e v) := by
  induction v with
  | nil => exact NE.pure
  | cons a d _ ih => exact NE.bind (NE.extend (hc _)) fun w => ih
  | _ => exact NE.crash

theorem ef_evSwallow {e : Nat} (v : Val) : NE x n (evSwallow call e v) := by
  induction v with
  | nil => exact NE.pure
  | cons a d _ ih =>
    refine NE.bind (NE.attempt (hc _)) fun w => ?_
    cases w with
    | error _ => exact NE.pure
    | ok _ => exact ih
  | _ => exact NE.crash

theorem ef_evDef {e : Nat} {v : Val} (hx : x ≠ .vars) : NE x n (evDef call e v) := by
  unfold evDef
  split
  · exact NE.bind (NE.extend (hc _)) fun _ => NE.bind (NE.extend (NE.setTopM hx)) fun _ => NE.pure
  all_goals exact NE.throwBase

theorem ef_evSet {e : Nat} {v : Val} (hx : x ≠ .vars) : NE x n (evSet call e v) := by
  unfold evSet
  split
  · exact NE.bind (NE.extend (hc _)) fun _ => NE.bind (NE.extend (NE.updateM hx)) fun _ => NE.pure
  all_goals exact NE.throwBase

omit hc in
theorem ef_evDefn {m : Bool} {e : Nat} {v : Val} (hx : x ≠ .vars) : NE x n (evDefn m e v) := by
  unfold evDefn
  split
  · split
    · exact NE.bind (NE.extend (ef_mkLambda (.inl hx))) fun _ => NE.bind (NE.extend (NE.setTopM hx)) fun _ => NE.pure
    · exact NE.throwBase
    · exact NE.crash
  all_goals exact NE.throwBase

theorem ef_evErrorsLoop {e : Nat} {args : Val} {es : List Char} (v : Val) : NE x n (evErrorsLoop call e args es v) := by
  induction v with
  | nil => exact NE.throwBase
  | cons a d _ ih =>
    refine NE.bind (NE.attempt (hc _)) fun w => ?_
    cases w with
    | error _ => exact NE.ite NE.pure (NE.throwBase)
    | ok _ => exact ih
  | _ => exact NE.crash

theorem ef_evErrors {e : Nat} {v : Val} : NE x n (evErrors call e v) := by
  unfold evErrors
  split
  · exact NE.ite (NE.bind (NE.extend (hc _)) fun w => NE.ite (ef_evErrorsLoop hc _) (NE.throwBase)) (NE.throwBase)
  · exact NE.throwBase

theorem ef_evError  {e : Nat} {v : Val} :
    NE x n (evError call e v) := by
  unfold evError
  split
  · rename_i x _
    exact NE.bind (NE.extend (hc _)) fun w => NE.throwUser
  · exact NE.throwBase

theorem ef_evCatchBody {e : Nat} (v : Val) : ∀ ret, NE x n (evCatchBody call e ret v) := by
  induction v with
  | nil => intro _; exact NE.pure
  | cons a d _ ih => intro _; exact NE.bind (NE.extend (hc _)) fun w => ih w
  | _ => intro _; exact NE.throwBase

theorem ef_evCatch {e : Nat} {ret v : Val} {er : Err} : NE x n (evCatch call e ret er v) := by
  unfold evCatch
  split
  · refine NE.newEnv fun i hi => ?_
    split
    · exact NE.throwBase
    · exact NE.bind (NE.attempt (NE.setM (.inr hi))) fun _ => ef_evCatchBody hc _ _
  · exact NE.throwBase
  · exact NE.crash
  · exact NE.throwBase

theorem ef_evTry {e : Nat} (v : Val) : ∀ {ret : Val} {er : Option Err},
    NE x n (evTry call e ret er v) := by
  induction v with
  | nil =>
    intro ret er
    cases er with
    | none => exact NE.pure
    | some x => exact NE.throwErr
  | cons a d _ ih =>
    intro ret er
    unfold evTry
    refine NE.ite ?_ ?_
    · split
      · exact NE.pure
      · split
        · exact ef_evCatch hc
        · exact NE.pure
    · split
      · exact ih
      · refine NE.bind (NE.attempt (hc _)) fun w => ?_
        cases w with
        | error x => exact ih
        | ok x => exact ih
  | _ => intro _ _; exact NE.throwBase

theorem ef_evLetBinds {e ne : Nat} (hi : n ≤ ne) (v : Val) : NE x n (evLetBinds call e ne v) := by
  induction v with
  | nil => exact NE.pure
  | cons b d _ ih =>
    unfold evLetBinds
    split
    · split
      · exact NE.pure
      · exact NE.bind (NE.extend (hc _)) fun _ => NE.bind (NE.extend (NE.setM (.inr hi))) fun _ => ih
      · exact NE.throwBase
    · exact NE.throwBase
  | _ => exact NE.crash

include ht in
theorem ef_evLet {e : Nat} {v : Val} : NE x n (evLet call tail e v) := by
  unfold evLet
  split
  · refine NE.ite (NE.ite ?_ (NE.throwBase)) (NE.throwBase)
    exact NE.newEnv fun i hi => NE.bind (ef_evLetBinds hc hi _) fun b => NE.ite (ef_evBodyTail hc ht _) NE.pure
  · exact NE.throwBase

theorem ef_evTestLoop {e : Nat} (hx : x ≠ .output) (v : Val) : NE x n (evTestLoop call e v) := by
  induction v with
  | nil => exact (NE.printM hx)
  | cons a d _ ih => exact NE.bind (NE.extend (hc _)) fun _ => NE.bind (NE.printM hx) fun _ => ih
  | _ => exact NE.throwBase

theorem ef_evTest {e : Nat} {v : Val} (hx : x ≠ .output) : NE x n (evTest call e v) := by
  unfold evTest
  split
  · exact NE.pure
  · exact NE.bind (NE.extend (hc _)) fun _ => NE.bind (NE.printM hx) fun _ => ef_evTestLoop hc hx _
  · exact NE.pure

include ht in
theorem ef_evSpecial  {f : SF} {e : Nat} {args : Val}
    (hx : x ∉ (Val.cons (.atom f.name) args).formEffects) : NE x n (evSpecial call tail f args e) := by
  cases f with
  | quote => simp only [evSpecial]; split <;> first | exact NE.pure | exact NE.throwBase
  | syntaxQuote =>
    simp only [evSpecial]
    split
    · split
      · exact ht _
      · exact NE.crash
    · exact NE.throwBase
  | test => exact NE.bind (NE.extend (ef_evTest hc (by simpa [SF.name, Val.formEffects] using hx))) fun _ => NE.pure
  | cond => exact ef_evCond hc ht _
  | and => exact ef_evAnd hc _
  | or => exact ef_evOr hc _
  | loop => exact ht _
  | swallow => exact ef_evSwallow hc _
  | def_ => exact ef_evDef hc (by simpa [SF.name, Val.formEffects] using hx)
  | set => exact ef_evSet hc (by simpa [SF.name, Val.formEffects] using hx)
  | defn => exact ef_evDefn (by simpa [SF.name, Val.formEffects] using hx)
  | defmacro => exact ef_evDefn (by simpa [SF.name, Val.formEffects] using hx)
  | error => exact ef_evError hc
  | errors => exact ef_evErrors hc
  | try_ => exact ef_evTry hc _
  | let_ => exact ef_evLet hc ht
  | lambda =>
    refine ef_mkLambda ?_
    by_cases hv : x = .vars
    · right; rintro a d rfl; subst hv; exact hx (by simp [SF.name, Val.formEffects])
    · exact .inl hv

include ht in
theorem ef_evApply {f : Val} {args : List Val} {e : Nat} : NE x n (evApply call tail f args e) := by
  unfold evApply
  split
  · exact NE.newEnv fun i hi => NE.bind (NE.extend (ef_bindArgs hi)) fun _ => ef_evBodyTail hc ht _
  · exact NE.extend (hc _)
  · exact NE.throwBase

include ht in
theorem ef_evExpr {e : Nat} {v : Val} (hx : x ∉ v.formEffects) :
    NE x n (evExpr call tail v e) := by
  have hcall : ∀ f args, NE x n (evCall call tail f args e) := fun f args =>
    NE.bind (NE.extend (hc _)) fun _ => NE.bind (ef_evArgs hc _) fun _ => ef_evApply hc ht
  unfold evExpr
  split
  · refine NE.ite NE.pure ?_
    unfold evAtom
    refine NE.ite NE.pure (NE.bind NE.lookupM fun o => ?_)
    split
    · exact NE.pure
    · split
      · exact NE.pure
      · exact NE.throwBase
  · exact NE.pure
  · exact NE.pure
  · refine NE.ite ?_ (NE.throwBase)
    split
    · split
      · rename_i sf hsf
        exact ef_evSpecial hc ht (by rw [← specialOf_some hsf]; exact hx)
      · exact hcall _ _
    · exact hcall _ _
  · exact NE.throwBase

theorem ef_applyTo {f : Val} {args : List Val} {e : Nat} : NE x n (applyTo call f args e) := by
  unfold applyTo
  split
  · exact NE.newEnv fun i hi => NE.bind (NE.extend (ef_bindArgs hi)) fun _ => ef_evBodyApply hc _ _
  · exact NE.extend (hc _)
  · exact NE.throwBase

theorem ef_applyFn {args : List Val} {e : Nat} : NE x n (applyFn call args e) := by
  unfold applyFn
  split
  · refine NE.ite ?_ (NE.throwBase)
    split
    · exact NE.extend (NE.throwBase)
    · exact ef_applyTo hc
  · exact NE.throwBase

theorem ef_evalExprs {e : Nat} (gs : List Val) : NE x n (evalExprs call false e gs) := by
  induction gs with
  | nil => exact NE.pure
  | cons g gs ih =>
    refine NE.bind (NE.attempt (hc _)) fun w => ?_
    cases w with
    | error er => exact NE.throwErr
    | ok v => exact ih

theorem ef_loadFile (hx : x ≠ .world) {name : String} {e : Nat} : NE x n (loadFile W call name e) := by
  refine NE.bind (NE.askM hx) fun x => ?_
  cases x with
  | error m => exact NE.throwForeign
  | ok t => exact NE.bind NE.liftParse fun gs => ef_evalExprs hc gs

theorem ef_sortByLess {f a b : Val} {e : Nat} : NE x n (sortByLess call f e a b) := by
  refine NE.bind (ef_applyFn hc) fun va => NE.bind (ef_applyFn hc) fun vb => NE.ite (NE.throwBase) ?_
  split
  · exact NE.pure
  · exact NE.pure
  · exact NE.throwBase

theorem ef_sortRun {f : Val} {e : Nat} (t : Sorter) : ∀ {xs : List Val} {er : Option Err},
    NE x n (sortRun call f e t xs er) := by
  induction t with
  | done => intro xs er; exact NE.pure
  | swap i j next ih => intro xs er; exact ih
  | less i j yes no ihy ihn =>
    intro xs er
    simp only [sortRun]
    split
    · refine NE.bind (NE.attempt (ef_sortByLess hc)) fun w => ?_
      split
      · exact ihn
      · exact ihy
      · exact ihn
    · exact ihn

theorem ef_bSortBy {args : List Val} {e : Nat} : NE x n (bSortBy W call args e) := by
  unfold bSortBy
  split
  · refine NE.ite ?_ (NE.throwBase)
    split
    · exact NE.extend (NE.throwBase)
    · refine NE.bind (ef_sortRun hc _) fun r => ?_
      split
      · exact NE.pure
      · exact NE.throwErr
  · exact NE.throwBase

theorem ef_runExamples {e : Nat} (v : Val) : NE x n (runExamples call e v) := by
  induction v with
  | cons a d _ ih => exact NE.ite NE.pure (NE.bind (NE.attempt (hc _)) fun _ => NE.bind ih fun _ => NE.pure)
  | _ => exact NE.pure

theorem ef_formsOfBuiltins {e : Nat} (bs : List BI) : NE x n (formsOfBuiltins W call e bs) := by
  induction bs with
  | nil => exact NE.pure
  | cons b bs ih => exact NE.bind (ef_runExamples hc _) fun _ => NE.bind ih fun _ => NE.pure

theorem ef_formsOfKeys {e : Nat} (ks : List String) : NE x n (formsOfKeys call e ks) := by
  induction ks with
  | nil => exact NE.pure
  | cons x ks ih =>
    refine NE.bind NE.lookupM fun o => ?_
    split
    · refine NE.ite ?_ ih
      split
      · exact NE.crash
      · exact NE.bind (ef_runExamples hc _) fun _ => NE.bind ih fun _ => NE.pure
    · exact ih

omit hc in
theorem ef_shuffleLoop (hx : x ≠ .world) {α : Type} (i : Nat) : ∀ xs : List α, NE x n (shuffleLoop W i xs) := by
  induction i with
  | zero => intro xs; exact NE.pure
  | succ i ih => intro xs; exact NE.bind (NE.askM hx) fun r => ih _

omit hc in
theorem ef_mapOrders (hx : x ≠ .world) (ks : List (List String)) : NE x n (mapOrders W ks) := by
  induction ks with
  | nil => exact NE.pure
  | cons k ks ih => exact NE.bind (ef_shuffleLoop hx _ _) fun _ => NE.bind ih fun _ => NE.pure

attribute [local irreducible] L1.mapOrder L1.formsOfBuiltins in
theorem ef_availableForms (hx : x ≠ .world) {e : Nat} : NE x n (availableForms W call e) := by
  have h1 : NE x n (mapOrder W BI.all) := by unfold mapOrder; exact ef_shuffleLoop hx _ _
  have h2 : ∀ bs, NE x n (formsOfBuiltins W call e bs) := fun bs => ef_formsOfBuiltins hc bs
  unfold availableForms
  refine NE.bind h1 fun bs => NE.bind (h2 bs) fun fb => ?_
  exact NE.bind NE.envKeysM fun ks => NE.bind (ef_mapOrders hx ks) fun ks' => NE.bind (ef_formsOfKeys hc ks') fun fk => NE.pure

omit hc in
theorem ef_needScreen {α : Type} {m : M α} (h : NE x n m) : NE x n (needScreen m) :=
  NE.bind NE.getScreenM fun _ => NE.ite h (NE.throwBase)

attribute [local irreducible] L1.availableForms in
theorem ef_bForms (hx : x ≠ .world) {e : Nat} : NE x n (bForms W call e) := by
  have hforms : NE x n (availableForms W call e) := ef_availableForms hc hx
  unfold bForms; exact NE.bind (NE.extend (NE.extend hforms)) fun _ => NE.pure

attribute [local irreducible] L1.availableForms in
theorem ef_bHelp (hx : x ≠ .world) (ho : x ≠ .output) {e : Nat} : NE x n (bHelp W call e) := by
  have hforms : NE x n (availableForms W call e) := ef_availableForms hc hx
  unfold bHelp
  refine NE.bind hforms fun fs => ?_
  cases formLines W fs with
  | none => exact NE.crash
  | some ls => exact NE.bind (NE.printM ho) fun _ => NE.pure

attribute [local irreducible] L1.bForms L1.bHelp in
theorem ef_biFn {b : BI} {args : List Val} {e : Nat} (hb : x ∉ b.effects) : NE x n (biFn W call b args e) := by
  have hscr : ∀ {α : Type} {m : M α}, NE x n m → NE x n (needScreen m) := fun h => ef_needScreen h
  have hap : NE x n (applyFn call args e) := ef_applyFn hc
  have hsort : NE x n (bSortBy W call args e) := ef_bSortBy hc
  have hloop1 : ∀ k, NE x n (bAddLoop k args) := by
    induction args with
    | nil => intro k; exact NE.pure
    | cons a as ih => intro k; cases a <;> first | exact ih (ef_applyFn hc) (ef_bSortBy hc) _ | exact NE.throwBase
  have hloop2 : ∀ args k, NE x n (bSubLoop k args) := by
    intro args
    induction args with
    | nil => intro k; exact NE.pure
    | cons a as ih => intro k; cases a <;> first | exact ih _ | exact NE.throwBase
  have hloop3 : ∀ args k, NE x n (bMulLoop k args) := by
    intro args
    induction args with
    | nil => intro k; exact NE.pure
    | cons a as ih => intro k; cases a <;> first | exact ih _ | exact NE.throwBase
  have hloop4 : ∀ args k, NE x n (bDivLoop k args) := by
    intro args
    induction args with
    | nil => intro k; exact NE.pure
    | cons a as ih => intro k; unfold bDivLoop; refine NE.ite (NE.throwBase) ?_; split; exact ih _; exact NE.throwBase
  have hcmp : ∀ cmp, NE x n (bCmp cmp args) := by
    intro cmp
    have : ∀ args k, NE x n (bCmpLoop cmp k args) := by
      intro args
      induction args with
      | nil => intro k; exact NE.pure
      | cons a as ih => intro k; cases a <;> first | exact NE.ite (ih _) NE.pure | exact NE.throwBase
    unfold bCmp; split
    · exact NE.throwBase
    · exact this _ _
    · exact NE.throwBase
  have hlen : ∀ v k, NE x n (bLenLoop k v) := by
    intro v
    induction v with
    | nil => intro k; exact NE.pure
    | cons a d _ ih => intro k; exact ih _
    | _ => intro k; exact NE.crash
  have hshuf : x ≠ .world → NE x n (bShuffle W args) := by
    intro hx
    unfold bShuffle; split
    · refine NE.ite ?_ (NE.throwBase)
      split
      · exact NE.bind (ef_shuffleLoop hx _ _) fun _ => NE.pure
      · exact NE.extend (NE.throwBase)
    · exact NE.throwBase
  have hmex : ∀ v, NE x n (mexpand1 call v e) := fun v => ef_mexpand1 hc
  have hload : x ≠ .world → ∀ nm, NE x n (loadFile W call nm e) := fun hx nm => ef_loadFile hc hx
  have hlift : ∀ k ts, NE x n (liftParse (parse k ts)) := fun k ts => NE.liftParse
  cases b <;> simp only [biFn] <;> simp only [BI.effects, List.mem_cons, List.not_mem_nil, or_false, not_or] at hb
  case forms => exact ef_bForms hc hb
  case help => exact ef_bHelp hc hb.2 hb.1
  case add => exact hloop1 _
  case sub => unfold bSub; split <;> first | exact hloop2 _ _ | exact NE.pure | exact NE.throwBase
  case mul => exact hloop3 _ _
  case div => unfold bDiv; split <;> first | exact hloop4 _ _ | exact NE.throwBase
  case eq => unfold bEq; efm
  case rem => unfold bRem; efm
  case lt => exact hcmp _
  case le => exact hcmp _
  case gt => exact hcmp _
  case ge => exact hcmp _
  case apply => exact hap
  case atomP => unfold bPred; efm
  case body => unfold bBody; efm
  case car => unfold bCar; efm
  case cdr => unfold bCdr; efm
  case cons => efm
  case doc => unfold bDoc; efm
  case downcase => efm
  case eval => unfold bEval; split <;> first | exact hc _ | exact NE.throwBase
  case exit => exact NE.exitM
  case fuse => unfold bFuse; efm
  case gensym => unfold bGensym; split <;> first | exact NE.gensymM hb | exact NE.throwBase
  case isqrt => unfold bIsqrt; efm
  case len => unfold bLen; split; exact NE.ite (hlen _ _) (NE.throwBase); exact NE.throwBase
  case list => exact NE.pure
  case listP => unfold bPred; efm
  case load =>
    unfold bLoad; split
    · exact NE.bind (NE.extend (hload hb _)) fun _ => NE.pure
    · exact NE.throwBase
    · exact NE.throwBase
  case macroexpand1 => unfold bMacroexpand1; split <;> first | exact hmex _ | exact NE.throwBase
  case not => unfold bPred; efm
  case numberP => unfold bPred; efm
  case print => exact NE.bind (NE.printM hb) fun _ => NE.pure
  case println => exact NE.bind (NE.printM hb) fun _ => NE.pure
  case printl => split <;> first | exact NE.ite (NE.bind (NE.printM hb) fun _ => NE.pure) NE.throwBase | exact NE.throwBase
  case randint =>
    unfold bRandint; split
    · exact NE.ite (NE.throwBase) (NE.ite NE.crash (NE.bind (NE.askM hb) fun _ => NE.pure))
    all_goals exact NE.throwBase
  case readlist => unfold bReadlist; exact NE.bind (NE.extend (NE.readLineM hb)) fun l => NE.bind (NE.extend (hlift _ _)) fun _ => NE.pure
  case screenStart =>
    refine NE.bind (NE.extend ?_) fun _ => NE.pure
    unfold termStart
    refine NE.bind NE.getScreenM fun _ => NE.ite NE.throwBase (NE.bind (NE.askM hb.1) fun r => ?_)
    cases r with
    | ok => exact NE.bind (NE.setScreenM hb.2.1) fun _ => NE.actsM hb.2.2
    | newFail _ => exact NE.bind (NE.setScreenM hb.2.1) fun _ => NE.extend NE.throwForeign
    | initFail _ => exact NE.bind (NE.setScreenM hb.2.1) fun _ => NE.extend NE.throwForeign
  case screenEnd =>
    exact NE.bind (NE.bind NE.getScreenM fun _ => NE.ite (NE.bind (NE.actsM hb.2) fun _ => NE.setScreenM hb.1) NE.pure) fun _ => NE.pure
  case screenSize => exact NE.bind (NE.extend (hscr (NE.askM hb))) fun _ => NE.pure
  case screenClear => exact NE.bind (NE.extend (hscr (NE.actsM hb))) fun _ => NE.pure
  case screenGetKey =>
    split
    · exact NE.bind (NE.extend (hscr (NE.askM hb))) fun _ => NE.pure
    · exact NE.throwBase
  case screenWrite =>
    unfold bScreenWrite
    split
    · split
      · exact NE.ite (NE.bind (NE.extend (hscr (NE.actsM hb))) fun _ => NE.pure) (NE.throwBase)
      all_goals exact NE.throwBase
    · exact NE.throwBase
  case shell => unfold doShell; efm; exact NE.askM hb
  case shuffle => exact hshuf hb
  case sleep => unfold bSleep; split <;> first | exact NE.bind (NE.actsM hb) fun _ => NE.pure | exact NE.throwBase
  case sort => unfold bSort bSortList; efm
  case sortBy => exact hsort
  case source => unfold bSource; efm
  case split => unfold bSplit; efm
  case upcase => efm
  case version => exact NE.pure

include ht in
theorem ef_runStep (hm : ∀ v e s w s', call (.mexpand v e) s = .ok w s' → x ∉ w.formEffects)
    (t : Task) (s : St) (hb : (before x).pre t s) : NE x n (runStep W call tail t) := by
  cases t with
  | eval v e =>
    refine NE.bind NE.isMacroCallM fun b => NE.ite (NE.bindOk (NE.extend (hc _)) ?_) (ef_evExpr hc ht hb)
    rintro w ⟨s1, s2, h⟩
    have h' : call (.mexpand v e) s1 = .ok w s2 := by
      unfold L1.extend at h
      rw [extendWith_run] at h
      cases hr : call (.mexpand v e) s1 <;> rw [hr] at h <;> cases h
      rfl
    exact ef_evExpr hc ht (hm _ _ _ _ _ h')
  | mexpand v e =>
    exact NE.bind (NE.extend (ef_mexpand1 hc)) fun r => NE.bind NE.isMacroCallM fun b => NE.ite (ht _) NE.pure
  | loop b e => exact NE.bind (ef_evLoopBody hc b) fun _ => ht _
  | builtin b args e => exact ef_biFn hc hb

end

/-- Up to the first thing having effect `x`, the effect has not happened. -/
theorem kept_before (x : Eff) (W : World) (k d : Nat) (t : Task) (s s' : St) (h : (runWatched W (before x) k d t s).final = some s') :
    Kept x s s' := by
  have key : ∀ (n k d : Nat) (t : Task), NE x n (runWatched W (before x) k d t) := by
    intro n k
    induction k with
    | zero => intro d t s s' _ h; cases h
    | succ k ih =>
      intro d t s s' hn h
      simp only [runWatched, watched] at h
      by_cases hp : (before x).pre t s
      · rw [if_pos hp] at h
        split at h
        · refine ef_runStep (x := x) (n := n) (W := W) ?_ (ih d) ?_ t s hp s s' hn h
          · intro t s s' hn h
            cases d with
            | zero => cases h; exact Keep.refl hn
            | succ d => exact ih d t s s' hn h
          · intro v e s w s' hw
            cases d with
            | zero => cases hw
            | succ d =>
              cases k with
              | zero => cases hw
              | succ k =>
                change runWatched W (before x) (k + 1) d (.mexpand v e) s = _ at hw
                simp only [runWatched, watched] at hw
                split at hw
                · split at hw
                  · rename_i hpost
                    rw [hw] at hpost; exact hpost
                  · cases hw
                · cases hw
        · cases h; exact Keep.refl hn
      · rw [if_neg hp] at h; cases h; exact Keep.refl hn
  have hk := (key s.heap.length k d t s s' (Nat.le_refl _) h).2
  cases x
  case vars => 
    simp only [List.take_length] at hk
    exact ⟨s'.heap.drop s.heap.length, by conv => lhs; arg 1; rw [← hk]
                                          exact List.take_append_drop _ _⟩
  all_goals exact hk

end L1
