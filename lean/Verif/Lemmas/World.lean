import Verif.Lemmas.Frame
import Verif.Spec.World
/-
The outside world is consulted only by counted queries.  `Det L N m1 m2`: `m1` never decreases the number of queries made, and
wherever it ends having made at most `N` of them, `m2` does the same.  Used with the same interpreter in two worlds that give
the same answers to the first `N` queries.
-/
set_option autoImplicit false
namespace L1

/-- The number of queries made does not go down. -/
def TickLe (s s' : St) : Prop := s.tick ≤ s'.tick

theorem tlF : Frm TickLe where
  refl _ := Nat.le_refl _
  trans _ _ _ h h' := Nat.le_trans h h'
  heap _ _ _ := Nat.le_refl _
  out _ _ := Nat.le_refl _
  inp _ _ := Nat.le_refl _
  tick _ := Nat.le_succ _
  acts _ _ := Nat.le_refl _
  gensym _ _ := Nat.le_refl _

/-- The computation does not end, or ends with more than `N` queries made. -/
def Res.over {α : Type} (N : Nat) (r : Res α) : Prop := ∀ s, r.final = some s → N < s.tick

/-- `m2` agrees with `m1` as long as at most `N` queries are made. -/
structure Det {α : Type} (L N : Nat) (m1 m2 : M α) : Prop where
  mono : FR TickLe m1
  same : ∀ s, L ≤ s.tick → (m1 s).over N ∨ m1 s = m2 s

theorem FR.setScreenT {b : Bool} : FR TickLe (setScreenM b) := fun s s' h => by cases h; exact Nat.le_refl _

theorem fr_evAtomT (a : String) (e : Nat) : FR TickLe (evAtom a e) := by
  unfold evAtom
  refine FR.ite (FR.pure tlF) (FR.bind tlF (FR.lookupM tlF) fun o => ?_)
  split
  · exact FR.pure tlF
  · split
    · exact FR.pure tlF
    · exact FR.throwBase tlF

theorem fr_retOrErrT (r : Val) (o : Option Err) : FR TickLe (retOrErr r o) := by
  cases o
  · exact FR.pure tlF
  · exact FR.throwErr tlF

/-- Close goals saying that a computation without recursive calls does not lower the number of queries. -/
macro "tk" : tactic => `(tactic| repeat' (first
  | with_reducible assumption | contradiction
  | exact FR.pure tlF | exact FR.crash tlF | exact FR.exitM tlF | exact FR.oof | exact FR.printM tlF | exact FR.actsM tlF | exact FR.lookupM tlF
  | exact fr_evAtomT _ _ | exact fr_retOrErrT _ _
  | exact FR.newEnvM tlF | exact FR.setScreenT
  | exact FR.isMacroCallM tlF | exact FR.askM tlF | exact FR.getScreenM tlF | exact FR.envKeysM tlF | exact FR.gensymM tlF
  | exact FR.throwBase tlF | exact FR.throwForeign tlF | exact FR.throwUser tlF | exact FR.throwErr tlF
  | exact FR.setM tlF | exact FR.setTopM tlF | exact FR.updateM tlF
  | exact FR.readLineM tlF | exact FR.liftParse tlF | exact fr_bindArgs tlF | exact fr_mkLambda tlF | exact fr_evDefn tlF
  | exact fr_shuffleLoop tlF _ _ | exact fr_mapOrders tlF _
  | apply FR.extend tlF | apply FR.extendWith tlF | apply FR.attempt
  | split
  | refine FR.bind tlF ?_ (fun _ => ?_)))

variable {L N : Nat}

theorem Det.refl {α : Type} (m : M α) (h : FR TickLe m := by tk) : Det L N m m := ⟨h, fun _ _ => .inr rfl⟩

theorem Det.bind {α β : Type} {m1 m2 : M α} {f1 f2 : α → M β} (h : Det L N m1 m2)
    (hf : ∀ a, Det L N (f1 a) (f2 a)) : Det L N (m1 >>= f1) (m2 >>= f2) := by
  refine ⟨FR.bind tlF h.mono fun a => (hf a).mono, fun s hL => ?_⟩
  rw [M.bind_run, M.bind_run]
  rcases h.same s hL with h1 | h1
  · left
    cases hm : m1 s with
    | ok a s' =>
      rw [hm] at h1
      intro s2 h2
      exact Nat.lt_of_lt_of_le (h1 s' rfl) ((hf a).mono s' s2 h2)
    | _ => rw [hm] at h1; exact h1
  · rw [← h1]
    cases hm : m1 s with
    | ok a s' => exact (hf a).same s' (Nat.le_trans hL (h.mono s s' (by rw [hm]; rfl)))
    | _ => exact .inr rfl

theorem Det.extendWith {α : Type} {m1 m2 : M α} {f : Val} (h : Det L N m1 m2) :
    Det L N (extendWith f m1) (extendWith f m2) := by
  refine ⟨FR.extendWith tlF h.mono, fun s hL => ?_⟩
  rw [extendWith_run, extendWith_run]
  rcases h.same s hL with h | h
  · left; cases hm : m1 s <;> rw [hm] at h <;> exact h
  · rw [h]; exact .inr rfl

theorem Det.extend {α : Type} {m1 m2 : M α} {msg : String} (h : Det L N m1 m2) :
    Det L N (extend msg m1) (extend msg m2) := Det.extendWith h

theorem Det.attempt {α : Type} {m1 m2 : M α} (h : Det L N m1 m2) :
    Det L N (attempt m1) (attempt m2) := by
  refine ⟨FR.attempt h.mono, fun s hL => ?_⟩
  rw [attempt_run, attempt_run]
  rcases h.same s hL with h | h
  · left; cases hm : m1 s <;> rw [hm] at h <;> exact h
  · rw [h]; exact .inr rfl

theorem Det.ite {α : Type} {c : Prop} [Decidable c] {a1 a2 b1 b2 : M α} (h1 : Det L N a1 a2) (h2 : Det L N b1 b2) :
    Det L N (if c then a1 else b1) (if c then a2 else b2) := by
  split <;> assumption

theorem Det.ask {α : Type} {f1 f2 : Nat → α} (h : ∀ t, L ≤ t → t < N → f1 t = f2 t) : Det L N (askM f1) (askM f2) := by
  refine ⟨FR.askM tlF, fun s hL => ?_⟩
  rw [askM_run, askM_run]
  by_cases hs : s.tick < N
  · right; rw [h _ hL hs]
  · left; intro s' hs'; cases hs'; show N < s.tick + 1; omega

section
variable {c1 c2 t1 t2 : Task → M Val}

theorem det_evArgs (hc : ∀ t, Det L N (c1 t) (c2 t)) (e : Nat) (v : Val) : Det L N (evArgs c1 e v) (evArgs c2 e v) := by
  induction v with
  | cons a d _ ih =>
    simp only [evArgs]
    exact .bind (.extend (hc _)) fun _ => .bind ih fun _ => .refl _
  | _ => exact .refl _

theorem det_evBodyTail (hc : ∀ t, Det L N (c1 t) (c2 t)) (ht : ∀ t, Det L N (t1 t) (t2 t)) (wrap : Val → Val) (e : Nat)
    (v : Val) : Det L N (evBodyTail c1 t1 wrap e v) (evBodyTail c2 t2 wrap e v) := by
  induction v with
  | cons a d _ ih =>
    cases d with
    | nil => exact ht _
    | _ => simp only [evBodyTail]; exact .bind (.extendWith (hc _)) fun _ => ih
  | _ => exact .refl _

theorem det_evBodyApply (hc : ∀ t, Det L N (c1 t) (c2 t)) (e : Nat) (v : Val) :
    ∀ ret, Det L N (evBodyApply c1 e ret v) (evBodyApply c2 e ret v) := by
  induction v with
  | cons a d _ ih => intro ret; simp only [evBodyApply]; exact .bind (.extend (hc _)) fun _ => ih _
  | _ => intro _; exact .refl _

theorem det_evBodyMacro (hc : ∀ t, Det L N (c1 t) (c2 t)) (e : Nat) (v : Val) :
    ∀ ret, Det L N (evBodyMacro c1 e ret v) (evBodyMacro c2 e ret v) := by
  induction v with
  | cons a d _ ih => intro ret; simp only [evBodyMacro]; exact .bind (.extend (hc _)) fun _ => ih _
  | _ => intro _; exact .refl _

theorem det_mexpand1 (hc : ∀ t, Det L N (c1 t) (c2 t)) (x : Val) (e : Nat) : Det L N (mexpand1 c1 x e) (mexpand1 c2 x e) := by
  unfold mexpand1
  refine .bind (.refl _) fun b => .ite ?_ (.refl _)
  split
  · refine .bind (.refl _) fun o => ?_
    split
    · split
      · exact .refl _
      · exact .bind (.refl _) fun _ => .bind (.refl _) fun _ => det_evBodyMacro hc _ _ _
    · exact .refl _
  · exact .refl _

theorem det_evCond (hc : ∀ t, Det L N (c1 t) (c2 t)) (ht : ∀ t, Det L N (t1 t) (t2 t)) (e : Nat) (v : Val) :
    Det L N (evCond c1 t1 e v) (evCond c2 t2 e v) := by
  induction v with
  | cons a d _ ih =>
    unfold evCond
    split
    · refine .bind (.extend (hc _)) fun _ => .ite ih ?_
      split
      · exact ht _
      · exact .refl _
    · exact .refl _
  | _ => exact .refl _

theorem det_evAnd (hc : ∀ t, Det L N (c1 t) (c2 t)) (e : Nat) (v : Val) : Det L N (evAnd c1 e v) (evAnd c2 e v) := by
  induction v with
  | cons a d _ ih => exact .bind (.extend (hc _)) fun _ => .ite (.refl _) ih
  | _ => exact .refl _

theorem det_evOr (hc : ∀ t, Det L N (c1 t) (c2 t)) (e : Nat) (v : Val) : Det L N (evOr c1 e v) (evOr c2 e v) := by
  induction v with
  | cons a d _ ih => exact .bind (.extend (hc _)) fun _ => .ite (.refl _) ih
  | _ => exact .refl _

theorem det_evLoopBody (hc : ∀ t, Det L N (c1 t) (c2 t)) (e : Nat) (v : Val) :
    Det L N (evLoopBody c1 e v) (evLoopBody c2 e v) := by
  induction v with
  | cons a d _ ih => exact .bind (.extend (hc _)) fun _ => ih
  | _ => exact .refl _

theorem det_evSwallow (hc : ∀ t, Det L N (c1 t) (c2 t)) (e : Nat) (v : Val) :
    Det L N (evSwallow c1 e v) (evSwallow c2 e v) := by
  induction v with
  | cons a d _ ih =>
    refine .bind (.attempt (hc _)) fun x => ?_
    cases x
    · exact .refl _
    · exact ih
  | _ => exact .refl _

theorem det_evDef (hc : ∀ t, Det L N (c1 t) (c2 t)) (e : Nat) (v : Val) : Det L N (evDef c1 e v) (evDef c2 e v) := by
  unfold evDef
  split
  · exact .bind (.extend (hc _)) fun _ => .refl _
  all_goals exact .refl _

theorem det_evSet (hc : ∀ t, Det L N (c1 t) (c2 t)) (e : Nat) (v : Val) : Det L N (evSet c1 e v) (evSet c2 e v) := by
  unfold evSet
  split
  · exact .bind (.extend (hc _)) fun _ => .refl _
  all_goals exact .refl _

theorem det_evErrorsLoop (hc : ∀ t, Det L N (c1 t) (c2 t)) (e : Nat) (args : Val) (es : List Char) (v : Val) :
    Det L N (evErrorsLoop c1 e args es v) (evErrorsLoop c2 e args es v) := by
  induction v with
  | cons a d _ ih =>
    refine .bind (.attempt (hc _)) fun x => ?_
    cases x
    · exact .refl _
    · exact ih
  | _ => exact .refl _

theorem det_evErrors (hc : ∀ t, Det L N (c1 t) (c2 t)) (e : Nat) (v : Val) : Det L N (evErrors c1 e v) (evErrors c2 e v) := by
  unfold evErrors
  split
  · exact .ite (.bind (.extend (hc _)) fun _ => .ite (det_evErrorsLoop hc _ _ _ _) (.refl _)) (.refl _)
  · exact .refl _

theorem det_evError (hc : ∀ t, Det L N (c1 t) (c2 t)) (e : Nat) (v : Val) : Det L N (evError c1 e v) (evError c2 e v) := by
  unfold evError
  split
  · exact .bind (.extend (hc _)) fun _ => .refl _
  · exact .refl _

theorem det_evCatchBody (hc : ∀ t, Det L N (c1 t) (c2 t)) (e : Nat) (v : Val) :
    ∀ ret, Det L N (evCatchBody c1 e ret v) (evCatchBody c2 e ret v) := by
  induction v with
  | cons a d _ ih => intro ret; exact .bind (.extend (hc _)) fun _ => ih _
  | _ => intro _; exact .refl _

theorem det_evCatch (hc : ∀ t, Det L N (c1 t) (c2 t)) (e : Nat) (ret : Val) (er : Err) (v : Val) :
    Det L N (evCatch c1 e ret er v) (evCatch c2 e ret er v) := by
  unfold evCatch
  split
  · refine .bind (.refl _) fun _ => ?_
    split
    · exact .refl _
    · exact .bind (.refl _) fun _ => det_evCatchBody hc _ _ _
  all_goals exact .refl _

theorem det_evTry (hc : ∀ t, Det L N (c1 t) (c2 t)) (e : Nat) (v : Val) :
    ∀ ret er, Det L N (evTry c1 e ret er v) (evTry c2 e ret er v) := by
  induction v with
  | cons a d _ ih =>
    intro ret er
    unfold evTry
    refine .ite ?_ ?_
    · split
      · exact .refl _
      · split
        · exact det_evCatch hc _ _ _ _
        · exact .refl _
    · split
      · exact ih _ _
      · refine .bind (.attempt (hc _)) fun x => ?_
        cases x
        · exact ih _ _
        · exact ih _ _
  | _ => intro _ _; exact .refl _

theorem det_evLetBinds (hc : ∀ t, Det L N (c1 t) (c2 t)) (e ne : Nat) (v : Val) :
    Det L N (evLetBinds c1 e ne v) (evLetBinds c2 e ne v) := by
  induction v with
  | cons a d _ ih =>
    unfold evLetBinds
    split
    · split
      · exact .refl _
      · exact .bind (.extend (hc _)) fun _ => .bind (.refl _) fun _ => ih
      · exact .refl _
    · exact .refl _
  | _ => exact .refl _

theorem det_evLet (hc : ∀ t, Det L N (c1 t) (c2 t)) (ht : ∀ t, Det L N (t1 t) (t2 t)) (e : Nat) (v : Val) :
    Det L N (evLet c1 t1 e v) (evLet c2 t2 e v) := by
  unfold evLet
  split
  · exact .ite (.ite (.bind (.refl _) fun _ => .bind (det_evLetBinds hc _ _ _) fun _ =>
      .ite (det_evBodyTail hc ht _ _ _) (.refl _)) (.refl _)) (.refl _)
  · exact .refl _

theorem det_evTestLoop (hc : ∀ t, Det L N (c1 t) (c2 t)) (e : Nat) (v : Val) :
    Det L N (evTestLoop c1 e v) (evTestLoop c2 e v) := by
  induction v with
  | cons a d _ ih => exact .bind (.extend (hc _)) fun _ => .bind (.refl _) fun _ => ih
  | _ => exact .refl _

theorem det_evTest (hc : ∀ t, Det L N (c1 t) (c2 t)) (e : Nat) (v : Val) : Det L N (evTest c1 e v) (evTest c2 e v) := by
  unfold evTest
  split
  · exact .refl _
  · exact .bind (.extend (hc _)) fun _ => .bind (.refl _) fun _ => det_evTestLoop hc _ _
  · exact .refl _

theorem det_evSpecial (hc : ∀ t, Det L N (c1 t) (c2 t)) (ht : ∀ t, Det L N (t1 t) (t2 t)) (f : SF) (args : Val) (e : Nat) :
    Det L N (evSpecial c1 t1 f args e) (evSpecial c2 t2 f args e) := by
  cases f with
  | quote => simp only [evSpecial]; exact .refl _
  | syntaxQuote =>
    simp only [evSpecial]
    split
    · split
      · exact ht _
      · exact .refl _
    · exact .refl _
  | test => exact .bind (.extend (det_evTest hc _ _)) fun _ => .refl _
  | cond => exact det_evCond hc ht _ _
  | and => exact det_evAnd hc _ _
  | or => exact det_evOr hc _ _
  | loop => exact ht _
  | swallow => exact det_evSwallow hc _ _
  | def_ => exact det_evDef hc _ _
  | set => exact det_evSet hc _ _
  | defn => exact .refl _
  | defmacro => exact .refl _
  | error => exact det_evError hc _ _
  | errors => exact det_evErrors hc _ _
  | try_ => exact det_evTry hc _ _ _ _
  | let_ => exact det_evLet hc ht _ _
  | lambda => exact .refl _

theorem det_evApply (hc : ∀ t, Det L N (c1 t) (c2 t)) (ht : ∀ t, Det L N (t1 t) (t2 t)) (f : Val) (args : List Val) (e : Nat) :
    Det L N (evApply c1 t1 f args e) (evApply c2 t2 f args e) := by
  unfold evApply
  split
  · exact .bind (.refl _) fun _ => .bind (.refl _) fun _ => det_evBodyTail hc ht _ _ _
  · exact .extend (hc _)
  · exact .refl _

theorem det_evExpr (hc : ∀ t, Det L N (c1 t) (c2 t)) (ht : ∀ t, Det L N (t1 t) (t2 t)) (x : Val) (e : Nat) :
    Det L N (evExpr c1 t1 x e) (evExpr c2 t2 x e) := by
  have hcall : ∀ f args, Det L N (evCall c1 t1 f args e) (evCall c2 t2 f args e) := fun f args =>
    .bind (.extend (hc _)) fun _ => .bind (det_evArgs hc _ _) fun _ => det_evApply hc ht _ _ _
  unfold evExpr
  split
  · exact .refl _
  · exact .refl _
  · exact .refl _
  · refine .ite ?_ (.refl _)
    split
    · split
      · exact det_evSpecial hc ht _ _ _
      · exact hcall _ _
    · exact hcall _ _
  · exact .refl _

theorem det_evalStep (hc : ∀ t, Det L N (c1 t) (c2 t)) (ht : ∀ t, Det L N (t1 t) (t2 t)) (x : Val) (e : Nat) :
    Det L N (evalStep c1 t1 x e) (evalStep c2 t2 x e) := by
  unfold evalStep
  exact .bind (.refl _) fun _ => .ite (.bind (.extend (hc _)) fun _ => det_evExpr hc ht _ _) (det_evExpr hc ht _ _)

theorem det_applyTo (hc : ∀ t, Det L N (c1 t) (c2 t)) (f : Val) (args : List Val) (e : Nat) :
    Det L N (applyTo c1 f args e) (applyTo c2 f args e) := by
  unfold applyTo
  split
  · exact .bind (.refl _) fun _ => .bind (.refl _) fun _ => det_evBodyApply hc _ _ _
  · exact .extend (hc _)
  · exact .refl _

theorem det_applyFn (hc : ∀ t, Det L N (c1 t) (c2 t)) (args : List Val) (e : Nat) :
    Det L N (applyFn c1 args e) (applyFn c2 args e) := by
  unfold applyFn
  split
  · refine .ite ?_ (.refl _)
    split
    · exact .refl _
    · exact det_applyTo hc _ _ _
  · exact .refl _

theorem det_evalExprs (hc : ∀ t, Det L N (c1 t) (c2 t)) (p : Bool) (e : Nat) (gs : List Val) :
    Det L N (evalExprs c1 p e gs) (evalExprs c2 p e gs) := by
  induction gs with
  | nil => exact .refl _
  | cons g gs ih =>
    refine .bind (.attempt (hc _)) fun x => ?_
    cases x
    · exact .refl _
    · exact .ite (.bind (.refl _) fun _ => ih) ih

theorem det_lexParseEval (hc : ∀ t, Det L N (c1 t) (c2 t)) (text : List Char) (e : Nat) :
    Det L N (lexParseEval c1 text e) (lexParseEval c2 text e) :=
  .bind (.refl _) fun _ => det_evalExprs hc _ _ _

theorem det_loadFile {W W' : World} (hW : Agree L N W W') (hc : ∀ t, Det L N (c1 t) (c2 t)) (name : String) (e : Nat) :
    Det L N (loadFile W c1 name e) (loadFile W' c2 name e) := by
  refine .bind (.ask fun t hl ht => by rw [hW.readFile t hl ht]) fun x => ?_
  cases x
  · exact .refl _
  · exact det_lexParseEval hc _ _

theorem det_sortByLess (hc : ∀ t, Det L N (c1 t) (c2 t)) (f : Val) (e : Nat) (a b : Val) :
    Det L N (sortByLess c1 f e a b) (sortByLess c2 f e a b) :=
  .bind (det_applyFn hc _ _) fun _ => .bind (det_applyFn hc _ _) fun _ => .refl _

theorem det_sortRun (hc : ∀ t, Det L N (c1 t) (c2 t)) (f : Val) (e : Nat) (t : Sorter) :
    ∀ xs er, Det L N (sortRun c1 f e t xs er) (sortRun c2 f e t xs er) := by
  induction t with
  | done => intro _ _; exact .refl _
  | swap i j next ih => intro xs er; exact ih _ _
  | less i j yes no ihy ihn =>
    intro xs er
    simp only [sortRun]
    split
    · refine .bind (.attempt (det_sortByLess hc _ _ _ _)) fun r => ?_
      split
      · exact ihn _ _
      · exact ihy _ _
      · exact ihn _ _
    · exact ihn _ _

theorem det_bSortBy {W W' : World} (hW : Agree L N W W') (hc : ∀ t, Det L N (c1 t) (c2 t)) (args : List Val) (e : Nat) :
    Det L N (bSortBy W c1 args e) (bSortBy W' c2 args e) := by
  unfold bSortBy
  rw [← hW.sorter]
  split
  · refine .ite ?_ (.refl _)
    split
    · exact .refl _
    · exact .bind (det_sortRun hc _ _ _ _ _) fun _ => .refl _
  · exact .refl _

theorem det_runExamples (hc : ∀ t, Det L N (c1 t) (c2 t)) (e : Nat) (v : Val) :
    Det L N (runExamples c1 e v) (runExamples c2 e v) := by
  induction v with
  | cons a d _ ih => exact .ite (.refl _) (.bind (.attempt (hc _)) fun _ => .bind ih fun _ => .refl _)
  | _ => exact .refl _


theorem det_shuffleLoop {W W' : World} (hW : Agree L N W W') {α : Type} (i : Nat) :
    ∀ xs : List α, Det L N (shuffleLoop W i xs) (shuffleLoop W' i xs) := by
  induction i with
  | zero => intro xs; exact .refl _
  | succ i ih => intro xs; exact .bind (.ask fun t hl ht => by rw [hW.rand t hl ht]) fun r => ih _

theorem det_biDocList {W W' : World} (hW : Agree L N W W') (b : BI) : biDocList W b = biDocList W' b := by
  unfold biDocList
  generalize (biDoc b).doc.toList = cs
  cases cs <;> simp [capitalizeC, upperC, hW.upper]

theorem det_formsOfBuiltins {W W' : World} (hW : Agree L N W W') (hc : ∀ t, Det L N (c1 t) (c2 t)) (e : Nat) (bs : List BI) :
    Det L N (formsOfBuiltins W c1 e bs) (formsOfBuiltins W' c2 e bs) := by
  induction bs with
  | nil => exact .refl _
  | cons b bs ih =>
    simp only [formsOfBuiltins, det_biDocList hW]
    exact .bind (det_runExamples hc _ _) fun _ => .bind ih fun _ => .refl _

theorem det_formsOfKeys (hc : ∀ t, Det L N (c1 t) (c2 t)) (e : Nat) (ks : List String) :
    Det L N (formsOfKeys c1 e ks) (formsOfKeys c2 e ks) := by
  induction ks with
  | nil => exact .refl _
  | cons k ks ih =>
    refine .bind (.refl _) fun o => ?_
    split
    · refine .ite ?_ ih
      split
      · exact .refl _
      · exact .bind (det_runExamples hc _ _) fun _ => .bind ih fun _ => .refl _
    · exact ih

theorem det_mapOrders {W W' : World} (hW : Agree L N W W') (ks : List (List String)) : Det L N (mapOrders W ks) (mapOrders W' ks) := by
  induction ks with
  | nil => exact .refl _
  | cons k ks ih => exact .bind (det_shuffleLoop hW _ _) fun _ => .bind ih fun _ => .refl _

theorem det_availableForms {W W' : World} (hW : Agree L N W W') (hc : ∀ t, Det L N (c1 t) (c2 t)) (e : Nat) :
    Det L N (availableForms W c1 e) (availableForms W' c2 e) :=
  .bind (det_shuffleLoop hW _ _) fun _ => .bind (det_formsOfBuiltins hW hc _ _) fun _ => .bind (.refl _) fun _ =>
    .bind (det_mapOrders hW _) fun _ => .bind (det_formsOfKeys hc _ _) fun _ => .refl _

theorem det_numOfStr {W W' : World} (hW : Agree L N W W') : numOfStr W = numOfStr W' := by
  funext cs; simp [numOfStr, hW.badNum]

theorem det_listOfNums {W W' : World} (hW : Agree L N W W') (cs : List Char) : listOfNums W cs = listOfNums W' cs := by
  fun_induction listOfNums W cs <;> simp_all [listOfNums, det_numOfStr hW]

theorem det_formLines {W W' : World} (hW : Agree L N W W') (fs : List FormRec) : formLines W fs = formLines W' fs := by
  have : formLine W = formLine W' := by
    funext f d
    unfold formLine
    cases d <;> simp [capitalizeC, upperC, hW.upper]
  induction fs with
  | nil => rfl
  | cons f fs ih => simp only [formLines, ih, this]

theorem det_needScreen {α : Type} {m1 m2 : M α} (h : Det L N m1 m2) : Det L N (needScreen m1) (needScreen m2) :=
  .bind (.refl _) fun _ => .ite h (.refl _)

theorem drawActs_congr {W W' : World} (h : W.width = W'.width) (y : Int) (cs : List Char) : ∀ x, drawActs W x y cs = drawActs W' x y cs := by
  induction cs with
  | nil => intro x; rfl
  | cons c cs ih => intro x; simp only [drawActs, h, ih]

theorem fr_biFnT {W : World} (hc : ∀ t, FR TickLe (c1 t)) (b : BI) (args : List Val) (e : Nat) : FR TickLe (biFn W c1 b args e) := by
  by_cases h : b ≠ .screenStart ∧ b ≠ .screenEnd
  · exact fr_biFn tlF hc h
  · by_cases h1 : b = .screenStart
    · subst h1; simp only [biFn, termStart]; tk
    · have : b = .screenEnd := by
        by_cases h2 : b = .screenEnd
        · exact h2
        · exact absurd ⟨h1, h2⟩ h
      subst this; simp only [biFn, termEnd]; tk

theorem det_biFn {W W' : World} (hW : Agree L N W W') (hc : ∀ t, Det L N (c1 t) (c2 t)) (b : BI) (args : List Val) (e : Nat) :
    Det L N (biFn W c1 b args e) (biFn W' c2 b args e) := by
  have hsame : ∀ (h : biFn W c1 b args e = biFn W' c2 b args e), Det L N (biFn W c1 b args e) (biFn W' c2 b args e) :=
    fun h => ⟨fr_biFnT (fun t => (hc t).mono) b args e, fun s _ => .inr (by rw [h])⟩
  cases b with
  | apply => exact det_applyFn hc _ _
  | eval =>
    simp only [biFn, bEval]
    split
    · exact hc _
    · exact .refl _
  | forms => exact .bind (.extend (.extend (det_availableForms hW hc _))) fun _ => .refl _
  | help =>
    refine .bind (det_availableForms hW hc _) fun fs => ?_
    rw [det_formLines hW]
    exact .refl _
  | load =>
    simp only [biFn, bLoad]
    split
    · exact .bind (.extend (det_loadFile hW hc _ _)) fun _ => .refl _
    all_goals exact .refl _
  | macroexpand1 =>
    simp only [biFn, bMacroexpand1]
    split
    · exact det_mexpand1 hc _ _
    · exact .refl _
  | sortBy => exact det_bSortBy hW hc _ _
  | doc => refine hsame ?_; simp only [biFn, bDoc, det_biDocList hW]
  | upcase => refine hsame ?_; simp only [biFn, funext fun c => show upperC W c = upperC W' c by simp [upperC, hW.upper]]
  | downcase => refine hsame ?_; simp only [biFn, funext fun c => show lowerC W c = lowerC W' c by simp [lowerC, hW.lower]]
  | fuse =>
    refine hsame ?_
    simp only [biFn, bFuse, det_numOfStr hW, funext fun c => show isDigitW W c = isDigitW W' c by simp [isDigitW, hW.digit]]
  | split => refine hsame ?_; simp only [biFn, bSplit, det_listOfNums hW]
  | randint =>
    simp only [biFn, bRandint]
    split
    · exact .ite (.refl _) (.ite (.refl _) (.bind (.ask fun t hl ht => by rw [hW.rand t hl ht]) fun _ => .refl _))
    all_goals exact .refl _
  | shuffle =>
    simp only [biFn, bShuffle]
    split
    · refine .ite ?_ (.refl _)
      split
      · exact .bind (det_shuffleLoop hW _ _) fun _ => .refl _
      · exact .refl _
    · exact .refl _
  | shell =>
    simp only [biFn, doShell]
    split
    · split
      · exact .refl _
      · exact .refl _
      · exact .bind (.ask fun t hl ht => by rw [hW.shell t hl ht]) fun _ => .refl _
    · exact .refl _
  | screenStart =>
    refine .bind (.extend (.bind (.refl _) fun _ => .ite (.refl _) (.bind (.ask hW.openScreen) fun _ => .refl _))) fun _ => .refl _
  | screenSize => exact .bind (.extend (det_needScreen (.ask hW.size))) fun _ => .refl _
  | screenWrite =>
    refine hsame ?_
    have h : ∀ x y cs, termDrawText W x y cs = termDrawText W' x y cs := fun x y cs => by unfold termDrawText; rw [drawActs_congr hW.width]
    simp only [biFn]
    unfold bScreenWrite
    simp only [h]
  | screenGetKey =>
    simp only [biFn]
    split
    · exact .bind (.extend (det_needScreen (.ask hW.key))) fun _ => .refl _
    · exact .refl _
  | _ => exact hsame rfl

theorem det_runStep {W W' : World} (hW : Agree L N W W') (hc : ∀ t, Det L N (c1 t) (c2 t)) (ht : ∀ t, Det L N (t1 t) (t2 t)) (t : Task) :
    Det L N (runStep W c1 t1 t) (runStep W' c2 t2 t) := by
  cases t with
  | eval x e => exact det_evalStep hc ht _ _
  | mexpand x e =>
    exact .bind (.extend (det_mexpand1 hc _ _)) fun _ => .bind (.refl _) fun _ => .ite (ht _) (.refl _)
  | loop body e => exact .bind (det_evLoopBody hc _ _) fun _ => ht _
  | builtin b args e => exact det_biFn hW hc _ _ _

end

theorem det_run {W W' : World} (hW : Agree L N W W') (n d : Nat) (t : Task) : Det L N (run W n d t) (run W' n d t) := by
  induction n generalizing d t with
  | zero => exact .refl _
  | succ n ih =>
    rw [run_succ, run_succ]
    apply det_runStep hW
    · intro t
      cases d with
      | zero => exact .refl _ fun s s' h => by cases h; exact Nat.le_refl _
      | succ d => exact ih d t
    · exact ih d

/-! ### The program -/

section
variable {W W' : World} {c1 c2 : Task → M Val}

theorem det_runFiles (hW : Agree L N W W') (hc : ∀ t, Det L N (c1 t) (c2 t)) (e : Nat) (fs : List String) :
    Det L N (runFiles W c1 e fs) (runFiles W' c2 e fs) := by
  induction fs with
  | nil => exact .refl _
  | cons f fs ih =>
    refine .bind (.attempt (det_loadFile hW hc _ _)) fun x => ?_
    cases x
    · exact .refl _
    · exact ih

theorem det_replTurn (hc : ∀ t, Det L N (c1 t) (c2 t)) (e : Nat) : Det L N (replTurn c1 e) (replTurn c2 e) := by
  have hset : ∀ ls, FR TickLe (setInpM ls) := fun ls s s' h => by cases h; exact Nat.le_refl _
  have key : ∀ inp, Det L N
      (do
        printM "> ".toList
        match groupLines [] inp with
        | .eof => do
          setInpM []
          printM ['\n']
          pure false
        | .tooMany rest => do
          setInpM rest
          printM "ERROR:\ntoo many right parens\n".toList
          pure true
        | .complete ts rest => do
          setInpM rest
          match parseTop ts with
          | .ok exprs => do
            let _ ← attempt (evalExprs c1 true e exprs)
            pure true
          | .err er => do
            printM (er.str ++ ['\n'])
            pure true
          | .crash => crash "index out of range"
          | .fuel => fun _ => .oof : M Bool)
      (do
        printM "> ".toList
        match groupLines [] inp with
        | .eof => do
          setInpM []
          printM ['\n']
          pure false
        | .tooMany rest => do
          setInpM rest
          printM "ERROR:\ntoo many right parens\n".toList
          pure true
        | .complete ts rest => do
          setInpM rest
          match parseTop ts with
          | .ok exprs => do
            let _ ← attempt (evalExprs c2 true e exprs)
            pure true
          | .err er => do
            printM (er.str ++ ['\n'])
            pure true
          | .crash => crash "index out of range"
          | .fuel => fun _ => .oof : M Bool) := by
    intro inp
    refine .bind (.refl _) fun _ => ?_
    split
    · exact .bind (.refl _ (hset _)) fun _ => .refl _
    · exact .bind (.refl _ (hset _)) fun _ => .refl _
    · refine .bind (.refl _ (hset _)) fun _ => ?_
      split
      · exact .bind (.attempt (det_evalExprs hc _ _ _)) fun _ => .refl _
      all_goals exact .refl _
  exact ⟨fun s => (key s.inp).mono s, fun s hL => (key s.inp).same s hL⟩

theorem det_repl (hc : ∀ t, Det L N (c1 t) (c2 t)) (e : Nat) (k : Nat) : Det L N (repl c1 e k) (repl c2 e k) := by
  induction k with
  | zero => exact .refl _
  | succ k ih => exact .bind (det_replTurn hc e) fun _ => .ite ih (.refl _)

theorem det_mainWith (hW : Agree L N W W') (hc : ∀ t, Det L N (c1 t) (c2 t)) (n : Nat) (core : List Char) (expr : Option (List Char))
    (files : List String) : Det L N (mainWith W c1 n core expr files) (mainWith W' c2 n core expr files) := by
  refine .bind (.attempt (det_lexParseEval hc _ _)) fun x => ?_
  cases x
  · exact .refl _
  · cases expr with
    | some text =>
      refine .bind (.attempt (det_lexParseEval hc _ _)) fun x => ?_
      cases x <;> exact .refl _
    | none =>
      cases files with
      | nil => exact det_repl hc _ _
      | cons f fs => exact det_runFiles hW hc _ _

end

end L1
