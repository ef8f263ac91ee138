import Verif.Props.Errors
import Verif.Props.Scopes
import Verif.Lemmas.Calls
/-
Functions: C17 (apply), C24 (lexical scope), C25 (parameter passing), C46 (source).
-/
set_option autoImplicit false
namespace L1

/-! ### C25 -/

/-- The empty new scope left behind by a call that fails before its body. -/
def deadScope (s : St) (parent : Nat) : St := { s with heap := s.heap ++ [⟨[], some parent⟩] }

/-- C25: a call with a wrong number of arguments is an error; the body (any `body`) is not run: the only change of the state after evaluating
function and arguments is one new empty scope. -/
theorem C25_arity (W : World) (e cenv : Nat) (fx : Val) (xs vs : List Val) (ps : List String) (r : String) (body doc : Val) (m : Bool) (s s1 : St)
    (hh : CallHead s.heap e fx) (h : Reaches W e fx xs s (.lam ps r body doc m cenv) vs s1) (ha : ¬ ArityOk ps r vs) :
    eval W (.cons fx (vlist xs)) e s = .err (.list (vlist [msgList "lambda env setup",
      msgList (if vs.length < ps.length then "not enough arguments for function" else "too many arguments for function")])) (deadScope s1 cenv) := by
  rw [eval_reaches hh h]
  simp only [evApply]
  rw [M.bind_ok (newEnvM_run _ _), M.bind_err (extend_err (bindArgs_arity ha))]
  rfl

/-- `((lambda (a . b) 1))`. -/
example : eval sampleWorld (.cons (form "lambda" [paramList ["a"] (some "b"), .num 1]) (vlist [])) 0 (initSt [])
    = .err (.list (vlist [msgList "lambda env setup", msgList "not enough arguments for function"])) (deadScope (initSt []) 0) :=
  C25_arity _ _ 0 _ [] [] ["a"] "b" (vlist [.num 1]) .nil false _ (initSt []) (by trivial) ⟨initSt [], by rw [eval_eq]; rfl, .nil⟩ (by unfold ArityOk; simp)

/-- C25: otherwise the parameters are bound to the arguments in a fresh scope inside the scope the function was created in, and the body is
evaluated there, its last form in tail position. -/
theorem C25_call (W : World) (e cenv : Nat) (fx : Val) (xs vs : List Val) (ps : List String) (r : String) (body doc : Val) (m : Bool) (s s1 : St)
    (hh : CallHead s.heap e fx) (h : Reaches W e fx xs s (.lam ps r body doc m cenv) vs s1) (ha : ArityOk ps r vs) (ht : NoT ps r) :
    ∃ sb, CallScope s1 sb cenv ps r vs ∧
      (body = .nil → eval W (.cons fx (vlist xs)) e s = .ok .nil sb) ∧
      (∀ bs x ws s2, body = vlist (bs ++ [x]) → EvalsTo W s1.heap.length bs sb ws s2 →
        eval W (.cons fx (vlist xs)) e s = eval W x s1.heap.length s2) ∧
      (∀ bs x y later ws er s2 s3, body = vlist (bs ++ x :: y :: later) → EvalsTo W s1.heap.length bs sb ws s2 → eval W x s1.heap.length s2 = .err er s3 →
        eval W (.cons fx (vlist xs)) e s = .err (er.under (vlist [.atom "lambda", x])) s3) := by
  refine ⟨callSt s1 cenv ps r vs, callScope_callSt _ _ _ _ _, ?_, ?_, ?_⟩
  · rintro rfl
    rw [eval_reaches hh h, evApply_lam ha ht]; rfl
  · rintro bs x ws s2 rfl hb
    rw [eval_reaches hh h, evApply_lam ha ht, evBodyTail_ok hb]
  · rintro bs x y later ws er s2 s3 rfl hb hx
    rw [eval_reaches hh h, evApply_lam ha ht, evBodyTail_err hb hx]

theorem lookup_zip_reverse {ps : List String} {vs : List Val} (hn : ps.Nodup) (i : Nat) (hi : i < ps.length) (hv : i < vs.length) :
    (ps.zip vs).reverse.lookup ps[i] = some vs[i] := by
  induction ps generalizing vs i with
  | nil => simp at hi
  | cons p ps ih =>
    cases vs with
    | nil => simp at hv
    | cons v vs =>
      rw [List.zip_cons_cons, List.reverse_cons, List.lookup_append]
      rw [List.nodup_cons] at hn
      cases i with
      | zero =>
        have : List.lookup p (ps.zip vs).reverse = none := by
          rw [List.lookup_eq_none_iff]
          rintro ⟨q, w⟩ hq
          rw [List.mem_reverse] at hq
          have := List.of_mem_zip hq
          refine bne_iff_ne.2 ?_
          rintro rfl
          exact hn.1 this.1
        simp [this]
      | succ i =>
        simp only [List.getElem_cons_succ]
        rw [ih hn.2 i (by simpa using hi) (by simpa using hv)]
        rfl

/-- C25: what `CallScope` says when the names are distinct: the i-th parameter is bound to the i-th argument, the rest name to the list of
the remaining ones, and no other name is bound in the new scope. -/
theorem C25_params (ps : List String) (r : String) (vs : List Val) (hn : ps.Nodup) (hr : r ∉ ps) (ha : ArityOk ps r vs) :
    (∀ (i : Nat) (hi : i < ps.length) (hv : i < vs.length), argFor ps r vs ps[i] = some vs[i]) ∧
    (r ≠ "" → argFor ps r vs r = some (vlist (vs.drop ps.length))) ∧
    (∀ x, x ∉ ps → (r = "" ∨ x ≠ r) → argFor ps r vs x = none) := by
  have hnone : ∀ x, x ∉ ps → (ps.zip vs).reverse.lookup x = none := by
    intro x hx
    rw [List.lookup_eq_none_iff]
    rintro ⟨q, w⟩ hq
    rw [List.mem_reverse] at hq
    have := List.of_mem_zip hq
    refine bne_iff_ne.2 ?_
    rintro rfl
    exact hx this.1
  refine ⟨fun i hi hv => ?_, fun h => ?_, fun x hx h => ?_⟩
  · unfold argFor; rw [lookup_zip_reverse hn i hi hv]
  · unfold argFor; rw [hnone r hr]; simp [h]
  · unfold argFor; rw [hnone x hx]
    rcases h with h | h <;> simp [h]

example : argFor ["a", "b"] "r" [.num 1, .num 2, .num 3, .num 4] "b" = some (.num 2) ∧
    argFor ["a", "b"] "r" [.num 1, .num 2, .num 3, .num 4] "r" = some (vlist [.num 3, .num 4]) :=
  have h := C25_params ["a", "b"] "r" [.num 1, .num 2, .num 3, .num 4] (by decide) (by decide) (by unfold ArityOk; simp)
  ⟨h.1 1 (by decide) (by decide), h.2.1 (by decide)⟩

/-- C25: a parameter named `t` makes every call an error. -/
theorem C25_t (W : World) (e cenv : Nat) (fx : Val) (xs vs : List Val) (ps : List String) (r : String) (body doc : Val) (m : Bool) (s s1 : St)
    (hh : CallHead s.heap e fx) (h : Reaches W e fx xs s (.lam ps r body doc m cenv) vs s1) (ht : "t" ∈ ps ∨ r = "t") :
    ∃ er s2, eval W (.cons fx (vlist xs)) e s = .err (.list er) s2 := by
  rw [eval_reaches hh h]
  simp only [evApply]
  obtain ⟨er, s2, hb⟩ := C19_param_t ps r vs s1.heap.length (deadScope s1 cenv) ht
  rw [M.bind_ok (show newEnvM cenv s1 = .ok s1.heap.length (deadScope s1 cenv) from rfl), M.bind_err (extend_err hb)]
  exact ⟨_, _, rfl⟩

/-- `((lambda (t) 1) 2)`. -/
example : ∃ er s2, eval sampleWorld (.cons (form "lambda" [paramList ["t"] none, .num 1]) (vlist [.num 2])) 0 (initSt []) = .err (.list er) s2 :=
  C25_t _ _ 0 _ [.num 2] [.num 2] ["t"] "" (vlist [.num 1]) .nil false _ (initSt []) (by trivial)
    ⟨initSt [], by rw [eval_eq]; rfl, .cons (by rw [eval_eq]; rfl) .nil⟩ (.inl (by simp))

/-- `((lambda (a . b) b) 1 2 3)`: a call that meets the hypotheses; the result is `(2 3)`. -/
example : ∃ s', eval sampleWorld (.cons (form "lambda" [paramList ["a"] (some "b"), .atom "b"]) (vlist [.num 1, .num 2, .num 3])) 0 (initSt [])
    = .ok (vlist [.num 2, .num 3]) s' := by
  have hr : Reaches sampleWorld 0 (form "lambda" [paramList ["a"] (some "b"), .atom "b"]) [.num 1, .num 2, .num 3] (initSt [])
      (.lam ["a"] "b" (vlist [.atom "b"]) .nil false 0) [.num 1, .num 2, .num 3] (initSt []) :=
    ⟨initSt [], by rw [eval_eq]; rfl, .cons (by rw [eval_eq]; rfl) (.cons (by rw [eval_eq]; rfl) (.cons (by rw [eval_eq]; rfl) .nil))⟩
  obtain ⟨sb, ⟨f, rfl, _, hf⟩, _, h2, _⟩ := C25_call _ _ _ _ _ _ _ _ _ _ _ _ _ (by trivial) hr (by unfold ArityOk; simp) (by unfold NoT; simp)
  rw [h2 [] (.atom "b") [] _ rfl .nil, eval_eq]
  refine ⟨{ initSt [] with heap := (initSt []).heap ++ [f] }, ?_⟩
  have hl : lookup ((initSt []).heap ++ [f]) (initSt []).heap.length "b" = some (vlist [.num 2, .num 3]) := by
    have h3 : alGet "b" f.syms = some (vlist [.num 2, .num 3]) := by rw [hf]; decide
    simp [lookup, lookupAux, h3]
  rw [evalStep_notMacro (by rfl)]
  show evAtom "b" _ _ = _
  unfold evAtom
  rw [M.ite_neg (by decide), M.bind_ok (lookupM_run _ _ _), hl]
  rfl

/-! ### C24 -/

/-- C24: calling a user function with given arguments in a given state has the same outcome whatever scope the call is made from, and
however the call is written. -/
theorem C24_lexical (W : World) (e e' cenv : Nat) (fx fx' : Val) (xs xs' vs : List Val) (ps : List String) (r : String) (body doc : Val) (m : Bool)
    (s s' s1 : St) (hh : CallHead s.heap e fx) (hh' : CallHead s'.heap e' fx')
    (h : Reaches W e fx xs s (.lam ps r body doc m cenv) vs s1) (h' : Reaches W e' fx' xs' s' (.lam ps r body doc m cenv) vs s1) :
    eval W (.cons fx (vlist xs)) e s = eval W (.cons fx' (vlist xs')) e' s' := by
  rw [eval_reaches hh h, eval_reaches hh' h']
  rfl

/-- Two scopes in which `x` is different, and the function `f` of the top level that uses `x`. -/
def lexState : St :=
  { heap := [⟨[("f", .lam [] "" (vlist [.atom "x"]) .nil false 0), ("x", .num 1)], none⟩, ⟨[("x", .num 2)], some 0⟩] }

/-- Called from the inner scope, it has the same result as called from the top level. -/
example : eval sampleWorld (.cons (.atom "f") (vlist [])) 1 lexState = eval sampleWorld (.cons (.atom "f") (vlist [])) 0 lexState := by
  have hm : ∀ e, e = 0 ∨ e = 1 → NotMacro lexState.heap e "f" := by
    rintro e (rfl | rfl) <;> intro ps r b dc env h <;> simp [lexState, lookup, lookupAux, alGet] at h
  have h0 : ∀ e, e = 0 ∨ e = 1 → eval sampleWorld (.atom "f") e lexState = .ok (.lam [] "" (vlist [.atom "x"]) .nil false 0) lexState := by
    rintro e (rfl | rfl) <;> rw [eval_eq] <;> rfl
  exact C24_lexical _ _ _ 0 _ _ [] [] [] [] "" (vlist [.atom "x"]) .nil false _ _ _ (callHead_of (by decide) (hm _ (.inr rfl)))
    (callHead_of (by decide) (hm _ (.inl rfl))) ⟨lexState, h0 _ (.inr rfl), .nil⟩ ⟨lexState, h0 _ (.inl rfl), .nil⟩

/-! ### C17 -/

/-- The error of `m`, if any, is not an empty list. -/
abbrev ErrNE {α : Type} (m : M α) : Prop := EI (fun _ => True) (fun er => er ≠ .list .nil) AnyV m

theorem errNE_cl : ErrCl (fun er => er ≠ .list .nil) := by
  refine ⟨fun f e _ h => ?_, fun m h => (by cases h), fun m h => (by cases h)⟩
  cases e <;> cases h

theorem errNE_perform (W : World) (t : Task) : ErrNE (perform W t) := by
  have h1 : ∀ n d t, ErrNE (run W n d t) := by
    intro n
    induction n with
    | zero => intro d t s; trivial
    | succ n ih =>
      intro d t
      refine ei_runStep errNE_cl (fun t => ?_) (ih d) (fun _ _ _ _ _ h => by cases h) t
      cases d with
      | zero => intro s; trivial
      | succ d => exact ih d t
  intro s
  by_cases ho : perform W t s = .oof
  · rw [ho]; trivial
  · obtain ⟨_, k, hk⟩ := run_of_perform ho
    rw [← hk]; exact h1 k k t s

theorem ErrNE.err {α : Type} {m : M α} {s s' : St} {er : Err} (hm : ErrNE m) (h : m s = .err er s') : er ≠ .list .nil := by
  have := hm s
  rw [h] at this; exact this

theorem SameButFront.front {a b : Val} {er : Err} (h : er ≠ .list .nil) : SameButFront (extendErr a er) (extendErr b er) :=
  ⟨[a], [b], er, Nat.le_refl _, Nat.le_refl _, h, extendErr_under _ _, extendErr_under _ _⟩

theorem SameOutcome.refl_of {m : M Val} {s : St} (h : ErrNE m) : SameOutcome (m s) (m s) := by
  cases hr : m s with
  | err e s' => exact ⟨rfl, [], [], e, Nat.zero_le _, Nat.zero_le _, h.err hr, rfl, rfl⟩
  | _ => simp [SameOutcome]

theorem same_extend {a b : Val} {m : M Val} {s : St} (h : ErrNE m) : SameOutcome (extendWith a m s) (extendWith b m s) := by
  rw [extendWith_run, extendWith_run]
  cases hr : m s with
  | err e s' => exact ⟨rfl, .front (h.err hr)⟩
  | _ => simp [SameOutcome]

theorem same_body {call : Task → M Val} (hc : ∀ t, ErrNE (call t)) {wrap : Val → Val} {e : Nat} (body : Val) : ∀ (ret : Val) (s : St), (body = .nil → ret = .nil) →
    SameOutcome (evBodyTail call call wrap e body s) (evBodyApply call e ret body s) := by
  induction body with
  | nil => intro ret s h; rw [h rfl]; exact ⟨rfl, rfl⟩
  | cons a d _ ih =>
    intro ret s _
    simp only [evBodyApply]
    rw [M.bind_run]
    by_cases hd : d = .nil
    · subst hd
      show SameOutcome (call (.eval a e) s) _
      unfold extend
      rw [extendWith_run]
      cases hr : call (.eval a e) s with
      | err er s' => exact ⟨rfl, [], [_], er, Nat.zero_le _, Nat.le_refl _, (hc _).err hr, rfl, extendErr_under _ _⟩
      | ok v s' => exact ⟨rfl, rfl⟩
      | _ => simp [SameOutcome]
    · have ht : evBodyTail call call wrap e (.cons a d) s
          = (extendWith (wrap a) (call (.eval a e)) >>= fun _ => evBodyTail call call wrap e d) s := by
        cases d with
        | nil => exact absurd rfl hd
        | _ => rfl
      rw [ht, M.bind_run]
      unfold extend
      rw [extendWith_run, extendWith_run]
      cases hr : call (.eval a e) s with
      | err er s' => exact ⟨rfl, .front ((hc _).err hr)⟩
      | ok v s' => exact ih v s' (fun h => absurd h hd)
      | _ => simp [SameOutcome]
  | _ => intro ret s _; exact ⟨rfl, rfl⟩

theorem applyFn_eq (call : Task → M Val) (f l : Val) (as : List Val) (e : Nat) :
    applyFn call (f :: (as ++ [l])) e = if l.isList then
        match l.toList? with
        | none => extend "apply" (throwBase (consToExprsErr l))
        | some xs => applyTo call f (as ++ xs) e
      else throwBase (fmt1 "'" l "' is not a list") := by
  cases as with
  | nil => rfl
  | cons a as =>
    have hg : ∀ h, (a :: (as ++ [l])).getLast h = l := by
      intro h
      exact List.getLast_concat (l := a :: as) (a := l)
    have hd : (a :: (as ++ [l])).dropLast = a :: as := by
      have : a :: (as ++ [l]) = (a :: as) ++ [l] := rfl
      simp only [this, List.dropLast_concat]
    simp only [List.cons_append, applyFn, hg, hd]
    rfl

theorem same_apply (W : World) (e : Nat) (f : Val) (as rest : List Val) (s1 : St) :
    SameOutcome (evApply (perform W) (perform W) f (as ++ rest) e s1) (perform W (.builtin .apply (f :: (as ++ [vlist rest])) e) s1) := by
  rw [perform_eq]
  show SameOutcome _ (applyFn (perform W) (f :: (as ++ [vlist rest])) e s1)
  have ha : applyFn (perform W) (f :: (as ++ [vlist rest])) e = applyTo (perform W) f (as ++ rest) e := by
    rw [applyFn_eq, if_pos (isList_vlist _), toList?_vlist]
  rw [ha]
  unfold evApply applyTo
  cases f with
  | lam ps r body doc m cenv =>
    simp only []
    rw [M.bind_ok (newEnvM_run _ _), M.bind_ok (newEnvM_run _ _)]
    rw [M.bind_run, M.bind_run]
    unfold extend
    rw [extendWith_run, extendWith_run]
    cases hr : bindArgs s1.heap.length ps r (as ++ rest) { s1 with heap := s1.heap ++ [⟨[], some cenv⟩] } with
    | ok v s' => exact same_body (errNE_perform W) body _ _ (fun _ => rfl)
    | err er s' => exact ⟨rfl, .front (ErrNE.err (ei_bindArgs errNE_cl) hr)⟩
    | _ => simp [SameOutcome]
  | bi b => exact same_extend (errNE_perform W _)
  | _ => exact SameOutcome.refl_of (EI.throwBase errNE_cl)

/-- C17: `apply` with the arguments `as` and the list of `rest` has the same outcome as calling the function directly with `as` followed by the elements
of `rest`: same value, same effects, same failure (only the elements in front of the error differ), whatever `f` is. -/
theorem C17_apply (W : World) (e : Nat) (fx f : Val) (xs as rest : List Val) (s s1 : St)
    (hh : CallHead s.heap e fx) (h : Reaches W e fx xs s f (as ++ rest) s1) :
    SameOutcome (eval W (.cons fx (vlist xs)) e s) (perform W (.builtin .apply (f :: (as ++ [vlist rest])) e) s1) := by
  rw [eval_reaches hh h]
  exact same_apply W e f as rest s1

/-- `((lambda (a b) b) 1 2)` and `(apply (lambda (a b) b) 1 (quote (2)))`. -/
example : SameOutcome (eval sampleWorld (.cons (form "lambda" [paramList ["a", "b"] none, .atom "b"]) (vlist [.num 1, .num 2])) 0 (initSt []))
    (perform sampleWorld (.builtin .apply (.lam ["a", "b"] "" (vlist [.atom "b"]) .nil false 0 :: ([.num 1] ++ [vlist [.num 2]])) 0) (initSt [])) :=
  C17_apply _ _ _ _ _ [.num 1] [.num 2] _ _ (by trivial)
    ⟨initSt [], by rw [eval_eq]; rfl, .cons (by rw [eval_eq]; rfl) (.cons (by rw [eval_eq]; rfl) .nil)⟩

/-- C17: for a built-in function, spelled out. -/
theorem C17_builtin (W : World) (e : Nat) (b : BI) (as rest : List Val) (s : St) :
    (∀ v s', perform W (.builtin b (as ++ rest) e) s = .ok v s' ↔ perform W (.builtin .apply (.bi b :: (as ++ [vlist rest])) e) s = .ok v s') ∧
    (∀ er s', perform W (.builtin b (as ++ rest) e) s = .err er s' →
      perform W (.builtin .apply (.bi b :: (as ++ [vlist rest])) e) s = .err (er.under (msgList "apply")) s') := by
  have ha : perform W (.builtin .apply (.bi b :: (as ++ [vlist rest])) e) s = extend "apply" (perform W (.builtin b (as ++ rest) e)) s := by
    rw [perform_eq W (.builtin .apply _ e)]
    show applyFn (perform W) (.bi b :: (as ++ [vlist rest])) e s = _
    have ha : applyFn (perform W) (.bi b :: (as ++ [vlist rest])) e = applyTo (perform W) (.bi b) (as ++ rest) e := by
      rw [applyFn_eq, if_pos (isList_vlist _), toList?_vlist]
    rw [ha]; rfl
  rw [ha]
  refine ⟨fun v s' => extend_eq_ok.symm, fun er s' h => ?_⟩
  rw [extend_err h, extendErr_under]

/-- C17: the last argument must be a proper list. -/
theorem C17_not_list (W : World) (e : Nat) (f l : Val) (as : List Val) (s : St) (hl : ∀ xs, l ≠ vlist xs) :
    ∃ v, perform W (.builtin .apply (f :: (as ++ [l])) e) s = .err (.list v) s := by
  rw [perform_eq W (.builtin .apply _ e)]
  show ∃ v, applyFn (perform W) (f :: (as ++ [l])) e s = .err (.list v) s
  have hn : l.toList? = none := by
    cases h : l.toList? with
    | none => rfl
    | some xs => exact absurd (toList?_eq_some.1 h) (hl xs)
  have ha : applyFn (perform W) (f :: (as ++ [l])) e
      = if l.isList then extend "apply" (throwBase (consToExprsErr l)) else throwBase (fmt1 "'" l "' is not a list") := by
    rw [applyFn_eq, hn]
  rw [ha]
  by_cases h : l.isList
  · rw [M.ite_pos h]; exact ⟨_, rfl⟩
  · rw [M.ite_neg h]; exact ⟨_, rfl⟩

/-- `(apply + 1 2)`. -/
example : ∃ v, perform sampleWorld (.builtin .apply (.bi .add :: ([.num 1] ++ [.num 2])) 0) (initSt []) = .err (.list v) (initSt []) :=
  C17_not_list _ _ _ _ _ _ (by rintro (_ | ⟨x, xs⟩) h <;> cases h)

/-- `(apply + 1 2 (list 3 4))` is `(+ 1 2 3 4)`. -/
example : perform sampleWorld (.builtin .apply (.bi .add :: ([.num 1, .num 2] ++ [vlist [.num 3, .num 4]])) 0) (initSt []) = .ok (.num 10) (initSt []) :=
  ((C17_builtin sampleWorld 0 .add [.num 1, .num 2] [.num 3, .num 4] (initSt [])).1 _ _).1 (by rw [perform_eq]; rfl)

/-! ### C46 -/

theorem parseParams_sourceArgs (ps : List String) (r : String) :
    ∃ em, parseParams (if r = "" then vlist (ps.map .atom) else combineArgs ps (.atom r)) = .ok (ps, r, em) ∧ (em = true → r ≠ "") := by
  by_cases hr : r = ""
  · subst hr
    refine ⟨false, ?_, by simp⟩
    rw [if_pos rfl]
    induction ps with
    | nil => rfl
    | cons p ps ih =>
      simp only [List.map_cons, vlist_cons]
      unfold parseParams
      simp only []
      cases hps : vlist (List.map Val.atom ps) with
      | atom a => cases ps <;> cases hps
      | nil => rw [hps] at ih; simp [ih]
      | cons a d => rw [hps] at ih; simp [ih]
      | num n => cases ps <;> cases hps
      | lam => cases ps <;> cases hps
      | bi b => cases ps <;> cases hps
  · rw [if_neg hr]
    cases ps with
    | nil => exact ⟨true, rfl, fun _ => hr⟩
    | cons p ps =>
      refine ⟨false, ?_, by simp⟩
      induction ps generalizing p with
      | nil => rfl
      | cons q ps ih =>
        show parseParams (.cons (.atom p) (combineArgs (q :: ps) (.atom r))) = _
        have hc : ∃ a d, combineArgs (q :: ps) (.atom r) = .cons a d := by
          cases ps <;> exact ⟨_, _, rfl⟩
        obtain ⟨a, d, hc⟩ := hc
        have := ih q
        rw [hc] at this ⊢
        unfold parseParams
        simp only [isList_cons, if_true]
        rw [this]

/-- C46: `source` of a user function is an expression that evaluates, in any scope, to a function with the same parameters, rest parameter and
body (created in that scope).  Provided the body is a list and does not begin with documentation (which `lambda` strips from a body, so that only a
second documentation form can stand there). -/
theorem C46_source (W : World) (e e' cenv : Nat) (ps : List String) (r : String) (body : List Val) (doc : Val) (m : Bool) (s s' : St)
    (hd : NoDoc body) (hm : NotMacro s'.heap e' "lambda") :
    ∃ src, perform W (.builtin .source [.lam ps r (vlist body) doc m cenv] e) s = .ok src s ∧
      eval W src e' s' = .ok (.lam ps r (vlist body) .nil false e') s' := by
  refine ⟨sourceOf ps r (vlist body), by rw [perform_eq]; rfl, ?_⟩
  unfold sourceOf
  obtain ⟨em, hp, hem⟩ := parseParams_sourceArgs ps r
  generalize hpl : (if r = "" then vlist (ps.map .atom) else combineArgs ps (.atom r)) = pl at hp ⊢
  have hpll : pl.isList = true := by
    rw [← hpl]; split
    · exact isList_vlist _
    · cases ps with
      | nil => rfl
      | cons p ps => cases ps <;> rfl
  rw [show Val.cons (.atom "lambda") (.cons pl (vlist body)) = .cons (.atom SF.lambda.name) (.cons pl (vlist body)) from rfl]
  rw [eval_sf W .lambda _ e' s' hm rfl]
  simp only [evSpecial]
  have h1 : mkLambda (.cons pl (vlist body)) false e' = mkLambdaNamed "" (.cons pl (vlist body)) false e' := by
    cases pl with
    | atom a => cases hpll
    | _ => rfl
  rw [h1]
  unfold mkLambdaNamed
  simp only []
  rw [M.ite_pos hpll, hp]
  simp only []
  have hne : ¬ ((em && r == "") = true) := by
    cases em with
    | false => simp
    | true => simp [hem rfl]
  rw [M.ite_neg hne, M.ite_pos (isList_vlist _)]
  have hs : splitDoc (vlist body) = pure (.nil, vlist body) := by
    cases body with
    | nil => rfl
    | cons b bs =>
      rw [vlist_cons]
      unfold splitDoc
      split
      · rename_i dd rest heq
        injection heq with h1 _
        exact absurd (h1 ▸ rfl) (hd dd bs)
      · rfl
  rw [hs, M.pure_bind]
  rfl

/-- C46: the proviso is needed: a function whose body begins with a second documentation form loses it. -/
theorem C46_second_doc (W : World) (e : Nat) (s : St) (hm : NotMacro s.heap e "lambda") (x : Val) :
    ∃ src, perform W (.builtin .source [.lam [] "" (vlist [form "doc" [vlist [x]], .num 1]) .nil false e] e) s = .ok src s ∧
      eval W src e s = .ok (.lam [] "" (vlist [.num 1]) (vlist [vlist [x]]) false e) s := by
  refine ⟨_, by rw [perform_eq]; rfl, ?_⟩
  rw [show sourceOf [] "" (vlist [form "doc" [vlist [x]], .num 1]) = .cons (.atom SF.lambda.name) (vlist [.nil, form "doc" [vlist [x]], .num 1]) from rfl]
  rw [eval_sf W .lambda _ e s hm rfl]
  rfl

example : ∃ src, perform sampleWorld (.builtin .source [.lam [] "" (vlist [form "doc" [vlist [.atom "x"]], .num 1]) .nil false 0] 0) (initSt []) = .ok src (initSt []) ∧
    eval sampleWorld src 0 (initSt []) = .ok (.lam [] "" (vlist [.num 1]) (vlist [vlist [.atom "x"]]) false 0) (initSt []) :=
  C46_second_doc _ _ _ (notMacro_init _ _) _

/-- C46: built-in functions and non-functions have no source. -/
theorem C46_no_source (W : World) (e : Nat) (v : Val) (s : St) (hv : ∀ ps r b dc m env, v ≠ .lam ps r b dc m env) :
    ∃ er, perform W (.builtin .source [v] e) s = .err (.list er) s := by
  rw [perform_eq]
  cases v with
  | lam => exact absurd rfl (hv _ _ _ _ _ _)
  | _ => exact ⟨_, rfl⟩

/-- `(source car)`. -/
example : ∃ er, perform sampleWorld (.builtin .source [.bi .car] 0) (initSt []) = .err (.list er) (initSt []) :=
  C46_no_source _ _ _ _ (by intros; simp)

example : ∃ src, perform sampleWorld (.builtin .source [.lam ["a"] "b" (vlist [.atom "b"]) .nil false 0] 0) (initSt []) = .ok src (initSt []) ∧
    eval sampleWorld src 0 (initSt []) = .ok (.lam ["a"] "b" (vlist [.atom "b"]) .nil false 0) (initSt []) :=
  C46_source sampleWorld 0 0 0 ["a"] "b" [.atom "b"] .nil false (initSt []) (initSt []) (by intro dd rest h; cases h) (notMacro_init _ _)

end L1
