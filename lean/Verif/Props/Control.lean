import Verif.Lemmas.Laws
import Verif.Props.Invariants
/-
C27 (quote), C28 (cond), C29 (and / or), C32 (try / catch), C33 (swallow), C34 (loop).

All theorems are about `eval W x e s`, the outcome of evaluating the expression `x` in scope `e` from state `s`.  The hypotheses `NotMacro s.heap e
"cond"` etc. say that the program has not redefined the word as a macro (a macro of that name takes precedence over
the special form, see lisp.go:380-384).
-/
set_option autoImplicit false
namespace L1

/-! ### C27 -/

/-- C27: `(quote x)` is `x`, whatever `x` is, and nothing changes. -/
theorem C27_quote (W : World) (x : Val) (e : Nat) (s : St) (hm : NotMacro s.heap e "quote") :
    eval W (form "quote" [x]) e s = .ok x s := by
  rw [eval_named W .quote hm rfl]; rfl

/-- C27: further arguments are ignored, without being evaluated. -/
theorem C27_quote_extra (W : World) (x : Val) (xs : List Val) (e : Nat) (s : St) (hm : NotMacro s.heap e "quote") :
    eval W (form "quote" (x :: xs)) e s = .ok x s := by
  rw [eval_named W .quote hm rfl]; rfl

/-- `(quote (undefined) undefined)`. -/
example : eval sampleWorld (form "quote" [form "undefined" [], .atom "undefined"]) 0 (initSt []) = .ok (form "undefined" []) (initSt []) :=
  C27_quote_extra _ _ _ _ _ (notMacro_init _ _)

example : eval sampleWorld (form "quote" [form "undefined" [.num 1]]) 0 (initSt []) = .ok (form "undefined" [.num 1]) (initSt []) :=
  C27_quote _ _ _ _ (notMacro_init _ _)

/-! ### C28 -/

/-- A clause `(c b ...)` of `cond`. -/
def clause (c b : Val) (rest : List Val) : Val := vlist (c :: b :: rest)

/-- `AllFalse W e cs s s'`: the conditions of the clauses `cs`, evaluated in order, are all `()`; the state goes from `s` to `s'`.  Only
the conditions are evaluated. -/
inductive AllFalse (W : World) (e : Nat) : List Val → St → St → Prop
  | nil {s : St} : AllFalse W e [] s s
  | cons {c body : Val} {cs : List Val} {s s1 s2 : St} : eval W c e s = .ok .nil s1 → AllFalse W e cs s1 s2 →
    AllFalse W e (.cons c body :: cs) s s2

theorem evCond_false {W : World} {e : Nat} {cs : List Val} {rest : Val} {s s' : St} (h : AllFalse W e cs s s') :
    evCond (perform W) (perform W) e (mkList cs rest) s = evCond (perform W) (perform W) e rest s' := by
  induction h with
  | nil => rfl
  | cons h1 _ ih =>
    refine Eq.trans ?_ ih
    simp only [mkList, List.foldr, evCond, perform_eval]
    rw [M.bind_ok (extend_ok h1), M.ite_pos rfl]

theorem vlist_append (xs ys : List Val) : vlist (xs ++ ys) = mkList xs (vlist ys) := by
  simp [vlist, mkList]

/-- C28: the first clause with a true condition decides: its second expression is evaluated, in tail position, and nothing else
is: not the expressions of the clauses before, nor anything of the clauses after (`later` is arbitrary). -/
theorem C28_first_true (W : World) (e : Nat) (before later : List Val) (c b v : Val) (more : List Val) (s s1 s2 : St)
    (hm : NotMacro s.heap e "cond") (h1 : AllFalse W e before s s1) (h2 : eval W c e s1 = .ok v s2) (hv : v ≠ .nil) :
    eval W (form "cond" (before ++ clause c b more :: later)) e s = eval W b e s2 := by
  rw [eval_named W .cond hm rfl]
  simp only [evSpecial, vlist_append]
  rw [evCond_false h1]
  simp only [vlist_cons, clause, evCond, perform_eval]
  rw [M.bind_ok (extend_ok h2), M.ite_neg hv]

/-- C28: with no true condition the result is `()`. -/
theorem C28_none_true (W : World) (e : Nat) (cs : List Val) (s s1 : St)
    (hm : NotMacro s.heap e "cond") (h1 : AllFalse W e cs s s1) : eval W (form "cond" cs) e s = .ok .nil s1 := by
  rw [eval_named W .cond hm rfl]
  have : vlist cs = mkList cs .nil := rfl
  simp only [evSpecial, this]
  rw [evCond_false h1]; rfl

/-- `(cond (() undefined) (()))`. -/
example : eval sampleWorld (form "cond" [vlist [.nil, .atom "undefined"], vlist [.nil]]) 0 (initSt []) = .ok .nil (initSt []) :=
  C28_none_true _ _ _ _ _ (notMacro_init _ _) (.cons (by rw [eval_eq]; rfl) (.cons (by rw [eval_eq]; rfl) .nil))

/-- C28: a condition that fails ends the form with its error, one frame in front. -/
theorem C28_condition_error (W : World) (e : Nat) (before later : List Val) (c body : Val) (er : Err) (s s1 s2 : St)
    (hm : NotMacro s.heap e "cond") (h1 : AllFalse W e before s s1) (h2 : eval W c e s1 = .err er s2) :
    eval W (form "cond" (before ++ .cons c body :: later)) e s = .err (er.under (msgList "evaluating cond condition")) s2 := by
  rw [eval_named W .cond hm rfl]
  simp only [evSpecial, vlist_append]
  rw [evCond_false h1]
  simp only [vlist_cons, evCond, perform_eval]
  rw [M.bind_err (extend_err h2), extendErr_under]

/-- `(cond (() 1) (oops 2) (t 3))`. -/
example : eval sampleWorld (form "cond" ([vlist [.nil, .num 1]] ++ .cons (.atom "oops") (vlist [.num 2]) :: [vlist [.atom "t", .num 3]])) 0 (initSt [])
    = .err (.list (vlist [msgList "evaluating cond condition", msgList "unknown symbol: oops"])) (initSt []) :=
  C28_condition_error _ _ _ _ _ _ (.list (vlist [msgList "unknown symbol: oops"])) (initSt []) _ _ (notMacro_init _ _)
    (.cons (by rw [eval_eq]; rfl) .nil) (by rw [eval_eq]; rfl)

/-- C28: a clause without a second expression, whose condition is true, and a clause that is not a non-empty list, are errors. -/
theorem C28_bad_clause (W : World) (e : Nat) (before later : List Val) (cl : Val) (s s1 s2 : St)
    (hm : NotMacro s.heap e "cond") (h1 : AllFalse W e before s s1)
    (h2 : (∃ c v, cl = vlist [c] ∧ eval W c e s1 = .ok v s2 ∧ v ≠ .nil) ∨ ((∀ a d, cl ≠ .cons a d) ∧ s2 = s1)) :
    eval W (form "cond" (before ++ cl :: later)) e s = .err (.list (vlist [msgList "cond requires a list of pairs"])) s2 := by
  rw [eval_named W .cond hm rfl]
  simp only [evSpecial, vlist_append]
  rw [evCond_false h1]
  rcases h2 with ⟨c, v, rfl, h2, hv⟩ | ⟨h2, rfl⟩
  · simp only [vlist_cons, vlist_nil, evCond, perform_eval]
    rw [M.bind_ok (extend_ok h2), M.ite_neg hv]; rfl
  · cases cl with
    | cons a d => exact absurd rfl (h2 a d)
    | _ => rfl

/-- `(cond (() 1) (7))` and `(cond (() 1) 7)`. -/
example (cl : Val) (h : cl = vlist [.num 7] ∨ cl = .num 7) : eval sampleWorld (form "cond" ([vlist [.nil, .num 1]] ++ cl :: [])) 0 (initSt [])
    = .err (.list (vlist [msgList "cond requires a list of pairs"])) (initSt []) := by
  refine C28_bad_clause _ _ _ _ _ (initSt []) _ _ (notMacro_init _ _) (.cons (by rw [eval_eq]; rfl) .nil) ?_
  rcases h with rfl | rfl
  · exact .inl ⟨.num 7, .num 7, rfl, by rw [eval_eq]; rfl, by simp⟩
  · exact .inr ⟨by simp, rfl⟩

example : eval sampleWorld (form "cond" ([vlist [.nil, form "undefined" []]] ++ clause (.num 1) (.num 2) [] :: [form "undefined" []])) 0 (initSt [])
    = .ok (.num 2) (initSt []) := by
  refine (C28_first_true sampleWorld 0 _ _ (.num 1) (.num 2) (.num 1) [] (initSt []) (initSt []) (initSt []) (notMacro_init _ _)
    (.cons (by rw [eval_eq]; rfl) .nil) (by rw [eval_eq]; rfl) (by simp)).trans ?_
  rw [eval_eq]; rfl

/-! ### C29 -/

/-- `true t` for the result of `and`. -/
theorem evAnd_true {W : World} {e : Nat} {xs vs : List Val} {rest : Val} {s s' : St} (h : EvalsTo W e xs s vs s')
    (hv : ∀ v ∈ vs, v ≠ .nil) : evAnd (perform W) e (mkList xs rest) s = evAnd (perform W) e rest s' := by
  induction h with
  | nil => rfl
  | cons h1 _ ih =>
    refine Eq.trans ?_ (ih fun v h => hv v (List.mem_cons_of_mem _ h))
    simp only [mkList, List.foldr, evAnd, perform_eval]
    rw [M.bind_ok (extend_ok h1), M.ite_neg (hv _ List.mem_cons_self)]

theorem evOr_false {W : World} {e : Nat} {xs vs : List Val} {rest : Val} {s s' : St} (h : EvalsTo W e xs s vs s')
    (hv : ∀ v ∈ vs, v = .nil) : evOr (perform W) e (mkList xs rest) s = evOr (perform W) e rest s' := by
  induction h with
  | nil => rfl
  | cons h1 _ ih =>
    refine Eq.trans ?_ (ih fun v h => hv v (List.mem_cons_of_mem _ h))
    simp only [mkList, List.foldr, evOr, perform_eval]
    rw [M.bind_ok (extend_ok h1), M.ite_neg (by simpa using hv _ List.mem_cons_self)]

/-- C29: `and` whose operands are all true is `t`; in particular `(and)` is. -/
theorem C29_and_true (W : World) (e : Nat) (xs vs : List Val) (s s1 : St) (hm : NotMacro s.heap e "and")
    (h : EvalsTo W e xs s vs s1) (hv : ∀ v ∈ vs, v ≠ .nil) : eval W (form "and" xs) e s = .ok (.atom "t") s1 := by
  rw [eval_named W .and hm rfl]
  have : vlist xs = mkList xs .nil := rfl
  simp only [evSpecial, this]
  rw [evAnd_true h hv]; rfl

/-- `(and 1 2)`. -/
example : eval sampleWorld (form "and" [.num 1, .num 2]) 0 (initSt []) = .ok (.atom "t") (initSt []) :=
  C29_and_true _ _ _ [.num 1, .num 2] _ _ (notMacro_init _ _) (.cons (by rw [eval_eq]; rfl) (.cons (by rw [eval_eq]; rfl) .nil)) (by simp)

/-- C29: `and` is `()` at its first `()` operand; the later operands are not evaluated. -/
theorem C29_and_false (W : World) (e : Nat) (xs vs later : List Val) (x : Val) (s s1 s2 : St) (hm : NotMacro s.heap e "and")
    (h : EvalsTo W e xs s vs s1) (hv : ∀ v ∈ vs, v ≠ .nil) (hx : eval W x e s1 = .ok .nil s2) :
    eval W (form "and" (xs ++ x :: later)) e s = .ok .nil s2 := by
  rw [eval_named W .and hm rfl]
  simp only [evSpecial, vlist_append]
  rw [evAnd_true h hv]
  simp only [vlist_cons, evAnd, perform_eval]
  rw [M.bind_ok (extend_ok hx), M.ite_pos rfl]; rfl

/-- C29: an operand of `and` that fails ends it with that error, one frame in front. -/
theorem C29_and_error (W : World) (e : Nat) (xs vs later : List Val) (x : Val) (er : Err) (s s1 s2 : St)
    (hm : NotMacro s.heap e "and") (h : EvalsTo W e xs s vs s1) (hv : ∀ v ∈ vs, v ≠ .nil) (hx : eval W x e s1 = .err er s2) :
    eval W (form "and" (xs ++ x :: later)) e s = .err (er.under (msgList "and operator")) s2 := by
  rw [eval_named W .and hm rfl]
  simp only [evSpecial, vlist_append]
  rw [evAnd_true h hv]
  simp only [vlist_cons, evAnd, perform_eval]
  rw [M.bind_err (extend_err hx), extendErr_under]

/-- `(and 1 oops ())`. -/
example : eval sampleWorld (form "and" ([.num 1] ++ .atom "oops" :: [.nil])) 0 (initSt [])
    = .err (.list (vlist [msgList "and operator", msgList "unknown symbol: oops"])) (initSt []) :=
  C29_and_error _ _ _ [.num 1] _ _ (.list (vlist [msgList "unknown symbol: oops"])) (initSt []) _ _ (notMacro_init _ _)
    (.cons (by rw [eval_eq]; rfl) .nil) (by simp) (by rw [eval_eq]; rfl)

/-- C29: `or` whose operands are all `()` is `()`; in particular `(or)` is. -/
theorem C29_or_false (W : World) (e : Nat) (xs vs : List Val) (s s1 : St) (hm : NotMacro s.heap e "or")
    (h : EvalsTo W e xs s vs s1) (hv : ∀ v ∈ vs, v = .nil) : eval W (form "or" xs) e s = .ok .nil s1 := by
  rw [eval_named W .or hm rfl]
  have : vlist xs = mkList xs .nil := rfl
  simp only [evSpecial, this]
  rw [evOr_false h hv]; rfl

/-- `(or () ())`. -/
example : eval sampleWorld (form "or" [.nil, .nil]) 0 (initSt []) = .ok .nil (initSt []) :=
  C29_or_false _ _ _ [.nil, .nil] _ _ (notMacro_init _ _) (.cons (by rw [eval_eq]; rfl) (.cons (by rw [eval_eq]; rfl) .nil)) (by simp)

/-- C29: `or` is the value of its first operand that is not `()`; the later operands are not evaluated. -/
theorem C29_or_true (W : World) (e : Nat) (xs vs later : List Val) (x v : Val) (s s1 s2 : St) (hm : NotMacro s.heap e "or")
    (h : EvalsTo W e xs s vs s1) (hv : ∀ v ∈ vs, v = .nil) (hx : eval W x e s1 = .ok v s2) (hv : v ≠ .nil) :
    eval W (form "or" (xs ++ x :: later)) e s = .ok v s2 := by
  rw [eval_named W .or hm rfl]
  simp only [evSpecial, vlist_append]
  rw [evOr_false h (by assumption)]
  simp only [vlist_cons, evOr, perform_eval]
  rw [M.bind_ok (extend_ok hx), M.ite_pos hv]; rfl

/-- `(or () 3 (loop))`. -/
example : eval sampleWorld (form "or" ([.nil] ++ .num 3 :: [form "loop" []])) 0 (initSt []) = .ok (.num 3) (initSt []) :=
  C29_or_true _ _ _ [.nil] _ _ _ (initSt []) _ _ (notMacro_init _ _) (.cons (by rw [eval_eq]; rfl) .nil) (by simp) (by rw [eval_eq]; rfl) (by simp)

/-- C29: an operand of `or` that fails ends it with that error, one frame in front. -/
theorem C29_or_error (W : World) (e : Nat) (xs vs later : List Val) (x : Val) (er : Err) (s s1 s2 : St)
    (hm : NotMacro s.heap e "or") (h : EvalsTo W e xs s vs s1) (hv : ∀ v ∈ vs, v = .nil) (hx : eval W x e s1 = .err er s2) :
    eval W (form "or" (xs ++ x :: later)) e s = .err (er.under (msgList "or operator")) s2 := by
  rw [eval_named W .or hm rfl]
  simp only [evSpecial, vlist_append]
  rw [evOr_false h hv]
  simp only [vlist_cons, evOr, perform_eval]
  rw [M.bind_err (extend_err hx), extendErr_under]

/-- `(or () oops 1)`. -/
example : eval sampleWorld (form "or" ([.nil] ++ .atom "oops" :: [.num 1])) 0 (initSt [])
    = .err (.list (vlist [msgList "or operator", msgList "unknown symbol: oops"])) (initSt []) :=
  C29_or_error _ _ _ [.nil] _ _ (.list (vlist [msgList "unknown symbol: oops"])) (initSt []) _ _ (notMacro_init _ _)
    (.cons (by rw [eval_eq]; rfl) .nil) (by simp) (by rw [eval_eq]; rfl)

/-- The endless `(loop)`, which `and` does not reach. -/
example : eval sampleWorld (form "and" ([.num 1] ++ .nil :: [form "loop" []])) 0 (initSt []) = .ok .nil (initSt []) :=
  C29_and_false _ _ _ [.num 1] _ _ _ (initSt []) _ (notMacro_init _ _) (.cons (by rw [eval_eq]; rfl) .nil) (by simp)
    (by rw [eval_eq]; rfl)

/-! ### C33 -/

theorem evSwallow_ok {W : World} {e : Nat} {xs vs : List Val} {rest : Val} {s s' : St} (h : EvalsTo W e xs s vs s') :
    evSwallow (perform W) e (mkList xs rest) s = evSwallow (perform W) e rest s' := by
  induction h with
  | nil => rfl
  | cons h1 _ ih =>
    refine Eq.trans ?_ ih
    simp only [mkList, List.foldr, evSwallow, perform_eval]
    rw [M.bind_ok (attempt_ok h1)]

/-- C33: if all forms succeed, `swallow` is `()`, with the effects of all of them. -/
theorem C33_no_error (W : World) (e : Nat) (xs vs : List Val) (s s1 : St) (hm : NotMacro s.heap e "swallow")
    (h : EvalsTo W e xs s vs s1) : eval W (form "swallow" xs) e s = .ok .nil s1 := by
  rw [eval_named W .swallow hm rfl]
  have : vlist xs = mkList xs .nil := rfl
  simp only [evSpecial, this]
  rw [evSwallow_ok h]; rfl

/-- `(swallow 1 ())`. -/
example : eval sampleWorld (form "swallow" [.num 1, .nil]) 0 (initSt []) = .ok .nil (initSt []) :=
  C33_no_error _ _ _ [.num 1, .nil] _ _ (notMacro_init _ _) (.cons (by rw [eval_eq]; rfl) (.cons (by rw [eval_eq]; rfl) .nil))

/-- C33: at the first form that fails, with any error, `swallow` stops and is `t`; the effects so far are kept, the later
forms are not evaluated. -/
theorem C33_error (W : World) (e : Nat) (xs vs later : List Val) (x : Val) (er : Err) (s s1 s2 : St)
    (hm : NotMacro s.heap e "swallow") (h : EvalsTo W e xs s vs s1) (hx : eval W x e s1 = .err er s2) :
    eval W (form "swallow" (xs ++ x :: later)) e s = .ok (.atom "t") s2 := by
  rw [eval_named W .swallow hm rfl]
  simp only [evSpecial, vlist_append]
  rw [evSwallow_ok h]
  simp only [vlist_cons, evSwallow, perform_eval]
  rw [M.bind_ok (attempt_err hx)]; rfl

/-- C33: `swallow` raises no error. -/
theorem C33_never_error (W : World) (e : Nat) (xs : List Val) (er : Err) (s s1 : St) (hm : NotMacro s.heap e "swallow") :
    eval W (form "swallow" xs) e s ≠ .err er s1 := by
  rw [eval_named W .swallow hm rfl]
  simp only [evSpecial]
  clear hm
  induction xs generalizing s with
  | nil => intro h; cases h
  | cons x xs ih =>
    simp only [vlist_cons, evSwallow]
    rw [M.bind_run, attempt_run]
    cases perform W (.eval x e) s <;> simp only [] <;> first | exact ih _ | (intro h; cases h)

/-- `(swallow (loop oops))`. -/
example (er : Err) (s1 : St) : eval sampleWorld (form "swallow" [form "loop" [.atom "oops"]]) 0 (initSt []) ≠ .err er s1 :=
  C33_never_error _ _ _ _ _ _ (notMacro_init _ _)

example : eval sampleWorld (form "swallow" ([.num 1] ++ .atom "undefined" :: [form "loop" []])) 0 (initSt [])
    = .ok (.atom "t") (initSt []) :=
  C33_error _ _ _ [.num 1] _ _ _ (initSt []) _ _ (notMacro_init _ _) (.cons (by rw [eval_eq]; rfl) .nil) (by rw [eval_eq]; rfl)

/-! ### C34 -/

/-- C34: no turn of a loop ever produces a value. -/
theorem loop_no_value (W : World) (n d : Nat) (body : Val) (e : Nat) (s s' : St) (v : Val) :
    run W n d (.loop body e) s ≠ .ok v s' := by
  induction n generalizing s with
  | zero => intro h; cases h
  | succ n ih =>
    intro h
    rw [run_succ] at h
    simp only [runStep, M.bind_eq_ok] at h
    obtain ⟨a, s1, _, h⟩ := h
    exact ih s1 h

/-- C34: `(loop ...)` never returns a value, whatever the budgets. -/
theorem C34_no_value (W : World) (n d : Nat) (body : List Val) (e : Nat) (s s' : St) (v : Val) (hm : NotMacro s.heap e "loop") :
    run W n d (.eval (form "loop" body) e) s ≠ .ok v s' := by
  cases n with
  | zero => intro h; cases h
  | succ n =>
    unfold form
    rw [show "loop" = SF.loop.name from rfl, eval_special W n d e s .loop _ hm (isList_vlist _)]
    exact loop_no_value W n d _ e s s' v

/-- `(loop 1)`, with any number of steps. -/
example (n d : Nat) (s' : St) (v : Val) : run sampleWorld n d (.eval (form "loop" [.num 1]) 0) (initSt []) ≠ .ok v s' :=
  C34_no_value _ _ _ _ _ _ _ _ (notMacro_init _ _)

theorem perform_loop (W : World) (body : List Val) (e : Nat) (s : St) :
    perform W (.loop (vlist body) e) s = (evLoopBody (perform W) e (vlist body) >>= fun _ => perform W (.loop (vlist body) e)) s := by
  have := congrFun (perform_eq W (.loop (vlist body) e)) s
  exact this

theorem evLoopBody_ok {W : World} {e : Nat} {xs vs : List Val} {rest : Val} {s s' : St} (h : EvalsTo W e xs s vs s') :
    evLoopBody (perform W) e (mkList xs rest) s = evLoopBody (perform W) e rest s' := by
  induction h with
  | nil => rfl
  | cons h1 _ ih =>
    refine Eq.trans ?_ ih
    simp only [mkList, List.foldr, evLoopBody, perform_eval]
    rw [M.bind_ok (extend_ok h1)]

/-- C34: a turn in which all forms of the body succeed is followed by another turn. -/
theorem C34_turn (W : World) (e : Nat) (body vs : List Val) (s s1 : St) (hm : NotMacro s.heap e "loop")
    (hm1 : NotMacro s1.heap e "loop") (h : EvalsTo W e body s vs s1) :
    eval W (form "loop" body) e s = eval W (form "loop" body) e s1 := by
  have h0 : ∀ s, NotMacro s.heap e "loop" → eval W (form "loop" body) e s = perform W (.loop (vlist body) e) s := by
    intro s hm
    rw [eval_named W .loop hm rfl]; rfl
  rw [h0 s hm, h0 s1 hm1, perform_loop, M.bind_ok (a := ())]
  have := evLoopBody_ok (rest := .nil) h
  exact this

/-- Each turn of `(loop (print 1))` prints. -/
example : eval sampleWorld (form "loop" [form "print" [.num 1]]) 0 (initSt []) = eval sampleWorld (form "loop" [form "print" [.num 1]]) 0 { initSt [] with out := ['1'] } :=
  C34_turn _ _ _ [.nil] _ _ (notMacro_init _ _) (notMacro_init [] _)
    (.cons (eval_of_run (n := 5) (d := 5) rfl trivial) .nil)

/-- C34: an error in the body ends the loop with that error, one frame in front. -/
theorem C34_error (W : World) (e : Nat) (xs vs later : List Val) (x : Val) (er : Err) (s s1 s2 : St) (hm : NotMacro s.heap e "loop")
    (h : EvalsTo W e xs s vs s1) (hx : eval W x e s1 = .err er s2) :
    eval W (form "loop" (xs ++ x :: later)) e s = .err (er.under (msgList "loop operator")) s2 := by
  rw [eval_named W .loop hm rfl]
  show perform W (.loop _ e) s = _
  rw [perform_loop]
  apply M.bind_err
  rw [vlist_append, evLoopBody_ok h]
  simp only [vlist_cons, evLoopBody, perform_eval]
  rw [M.bind_err (extend_err hx), extendErr_under]

example : eval sampleWorld (form "loop" ([.num 1] ++ .atom "oops" :: [])) 0 (initSt [])
    = .err (.list (vlist [msgList "loop operator", msgList "unknown symbol: oops"])) (initSt []) :=
  C34_error _ _ _ [.num 1] _ _ (.list (vlist [msgList "unknown symbol: oops"])) (initSt []) _ _ (notMacro_init _ _)
    (.cons (by rw [eval_eq]; rfl) .nil) (by rw [eval_eq]; rfl)

/-! ### C32 -/

/-- The form is not a catch clause. -/
def NotCatch (x : Val) : Prop := ∀ rest, x ≠ .cons (.atom "catch") rest

theorem startsWith_false {x : Val} {name : String} (h : ∀ rest, x ≠ .cons (.atom name) rest) : startsWith x name = false := by
  unfold startsWith
  split
  · rename_i a d
    simp only [beq_eq_false_iff_ne, ne_eq]
    rintro rfl; exact h _ rfl
  · rfl

theorem evTry_ok {W : World} {e : Nat} {xs vs : List Val} {rest ret : Val} {s s' : St} (h : EvalsTo W e xs s vs s')
    (hc : ∀ x ∈ xs, NotCatch x) :
    evTry (perform W) e ret none (mkList xs rest) s = evTry (perform W) e (vs.getLast?.getD ret) none rest s' := by
  induction h generalizing ret with
  | nil => rfl
  | @cons x v xs vs s s1 s2 h1 _ ih =>
    have : (v :: vs).getLast?.getD ret = vs.getLast?.getD v := by
      cases vs with
      | nil => rfl
      | cons w ws => simp [List.getLast?_eq_some_getLast]
    rw [this]
    refine Eq.trans ?_ (ih fun x h => hc x (List.mem_cons_of_mem _ h))
    have hs := startsWith_false (hc x List.mem_cons_self)
    simp only [mkList, List.foldr, evTry, perform_eval, hs, Bool.false_eq_true, if_false]
    rw [M.bind_ok (attempt_ok h1)]

theorem evTry_skip {call : Task → M Val} {e : Nat} {xs : List Val} {rest ret : Val} {er : Err} (hc : ∀ x ∈ xs, NotCatch x) :
    evTry call e ret (some er) (mkList xs rest) = evTry call e ret (some er) rest := by
  induction xs with
  | nil => rfl
  | cons x xs ih =>
    have hs := startsWith_false (hc x List.mem_cons_self)
    have := ih fun x h => hc x (List.mem_cons_of_mem _ h)
    rw [← this]
    simp only [mkList, List.foldr, evTry, hs, Bool.false_eq_true, if_false]

/-- The clause `(catch name body ...)`. -/
def catchClause (name : String) (body : List Val) : Val := form "catch" (.atom name :: body)

theorem evTry_catch {call : Task → M Val} {e : Nat} {ret rest : Val} {er : Err} {name : String} {body : List Val} :
    evTry call e ret (some er) (.cons (catchClause name body) rest) = evCatch call e ret er (.cons (.atom name) (vlist body)) := rfl

/-- C32: if no form fails, the value is that of the last form (`()` if there is none); a catch clause, and everything after
it, is ignored. -/
theorem C32_no_error (W : World) (e : Nat) (xs vs : List Val) (tail : List Val) (s s1 : St) (hm : NotMacro s.heap e "try")
    (h : EvalsTo W e xs s vs s1) (hc : ∀ x ∈ xs, NotCatch x)
    (ht : tail = [] ∨ ∃ rest more, tail = .cons (.atom "catch") rest :: more) :
    eval W (form "try" (xs ++ tail)) e s = .ok (vs.getLast?.getD .nil) s1 := by
  rw [eval_named W .try_ hm rfl]
  simp only [evSpecial, vlist_append]
  rw [evTry_ok h hc]
  rcases ht with rfl | ⟨rest, more, rfl⟩
  · rfl
  · simp [evTry, startsWith]

/-- `(try 1 2 (catch err (undefined)) ignored)`. -/
example : eval sampleWorld (form "try" ([.num 1, .num 2] ++ [catchClause "err" [form "undefined" []], .atom "ignored"])) 0 (initSt []) = .ok (.num 2) (initSt []) :=
  C32_no_error _ _ _ [.num 1, .num 2] _ _ _ (notMacro_init _ _) (.cons (by rw [eval_eq]; rfl) (.cons (by rw [eval_eq]; rfl) .nil)) (by simp [NotCatch]) (.inr ⟨_, _, rfl⟩)

theorem evCatchBody_ok {W : World} {e : Nat} {xs vs : List Val} {rest ret : Val} {s s' : St} (h : EvalsTo W e xs s vs s') :
    evCatchBody (perform W) e ret (mkList xs rest) s = evCatchBody (perform W) e (vs.getLast?.getD ret) rest s' := by
  induction h generalizing ret with
  | nil => rfl
  | @cons x v xs vs s s1 s2 h1 _ ih =>
    have : (v :: vs).getLast?.getD ret = vs.getLast?.getD v := by
      cases vs with
      | nil => rfl
      | cons w ws => simp [List.getLast?_eq_some_getLast]
    rw [this]
    refine Eq.trans ?_ ih
    simp only [mkList, List.foldr, evCatchBody, perform_eval]
    rw [M.bind_ok (extend_ok h1)]

/-- The state in which a catch body starts: one new scope inside `e`, binding the name to the error list. -/
def catchState (s : St) (e : Nat) (name : String) (err : Val) : St :=
  { s with heap := s.heap ++ [⟨[(name, err)], some e⟩] }

theorem try_enter {W : World} {e : Nat} {xs vs skipped more body : List Val} {x w : Val} {name : String} {s s1 s2 : St}
    (hm : NotMacro s.heap e "try") (h : EvalsTo W e xs s vs s1) (hc : ∀ y ∈ xs ++ x :: skipped, NotCatch y)
    (hx : eval W x e s1 = .err (.list w) s2) (hn : name ≠ "t") :
    eval W (form "try" (xs ++ x :: skipped ++ catchClause name body :: more)) e s
      = evCatchBody (perform W) s2.heap.length (vs.getLast?.getD .nil) (vlist body) (catchState s2 e name w) := by
  rw [eval_named W .try_ hm rfl]
  rw [List.append_assoc, List.cons_append]
  simp only [evSpecial, vlist_append]
  rw [evTry_ok h fun y hy => hc y (by simp [hy])]
  have hs := startsWith_false (hc x (by simp))
  rw [vlist_cons, vlist_append]
  simp only [evTry, perform_eval, hs, Bool.false_eq_true, if_false]
  rw [M.bind_ok (attempt_err hx)]
  simp only []
  rw [evTry_skip fun y hy => hc y (by simp [hy])]
  rw [vlist_cons, evTry_catch]
  simp only [evCatch]
  rw [M.bind_ok (newEnvM_run _ _)]
  have hset : setM s2.heap.length name w { s2 with heap := s2.heap ++ [⟨[], some e⟩] } = .ok () (catchState s2 e name w) := by
    unfold setM
    rw [if_neg hn]
    simp only [catchState, heapSet_new, alSet]
  rw [M.bind_ok (attempt_ok hset)]

/-- C32: when a form fails with an error list, the forms up to the catch clause are skipped; the catch body is evaluated in
a new scope where the name is bound to the error list, and its last value is the value of the `try`. -/
theorem C32_caught (W : World) (e : Nat) (xs vs skipped more body bvs : List Val) (x w v : Val) (name : String) (s s1 s2 s3 : St)
    (hm : NotMacro s.heap e "try") (h : EvalsTo W e xs s vs s1) (hc : ∀ y ∈ xs ++ x :: skipped, NotCatch y)
    (hx : eval W x e s1 = .err (.list w) s2) (hn : name ≠ "t")
    (hb : EvalsTo W s2.heap.length body (catchState s2 e name w) (bvs ++ [v]) s3) :
    eval W (form "try" (xs ++ x :: skipped ++ catchClause name body :: more)) e s = .ok v s3 := by
  rw [try_enter hm h hc hx hn]
  have := evCatchBody_ok (rest := .nil) (ret := vs.getLast?.getD .nil) hb
  refine Eq.trans this ?_
  simp [evCatchBody]

/-- C32: an error in the catch body is passed on, one frame in front. -/
theorem C32_catch_body_error (W : World) (e : Nat) (xs vs skipped more body bvs later : List Val) (x y w : Val) (name : String)
    (er : Err) (s s1 s2 s3 s4 : St)
    (hm : NotMacro s.heap e "try") (h : EvalsTo W e xs s vs s1) (hc : ∀ y ∈ xs ++ x :: skipped, NotCatch y)
    (hx : eval W x e s1 = .err (.list w) s2) (hn : name ≠ "t")
    (hb : EvalsTo W s2.heap.length body (catchState s2 e name w) bvs s3)
    (hy : eval W y s2.heap.length s3 = .err er s4) :
    eval W (form "try" (xs ++ x :: skipped ++ catchClause name (body ++ y :: later) :: more)) e s
      = .err (er.under (msgList "catch body")) s4 := by
  rw [try_enter hm h hc hx hn, vlist_append, evCatchBody_ok hb]
  simp only [vlist_cons, evCatchBody, perform_eval]
  rw [M.bind_err (extend_err hy), extendErr_under]

/-- `(try 1 oops (catch err 5 oh))`. -/
example : eval sampleWorld (form "try" ([.num 1] ++ .atom "oops" :: [] ++ catchClause "err" ([.num 5] ++ .atom "oh" :: []) :: [])) 0 (initSt [])
    = .err (.list (vlist [msgList "catch body", msgList "unknown symbol: oh"])) (catchState (initSt []) 0 "err" (vlist [msgList "unknown symbol: oops"])) :=
  C32_catch_body_error _ _ _ [.num 1] _ _ _ [.num 5] _ _ _ (vlist [msgList "unknown symbol: oops"]) _ (.list (vlist [msgList "unknown symbol: oh"]))
    (initSt []) (initSt []) (initSt []) _ _ (notMacro_init _ _) (.cons (by rw [eval_eq]; rfl) .nil) (by simp [NotCatch]) (by rw [eval_eq]; rfl) (by decide)
    (.cons (by rw [eval_eq]; rfl) .nil) (by rw [eval_eq]; rfl)

/-- C32: an empty catch body gives the value of the last form that succeeded before the error (and `()` if there is none). -/
theorem C32_empty_catch (W : World) (e : Nat) (xs vs skipped more : List Val) (x w : Val) (name : String) (s s1 s2 : St)
    (hm : NotMacro s.heap e "try") (h : EvalsTo W e xs s vs s1) (hc : ∀ y ∈ xs ++ x :: skipped, NotCatch y)
    (hx : eval W x e s1 = .err (.list w) s2) (hn : name ≠ "t") :
    eval W (form "try" (xs ++ x :: skipped ++ catchClause name [] :: more)) e s
      = .ok (vs.getLast?.getD .nil) (catchState s2 e name w) := by
  rw [try_enter hm h hc hx hn]; rfl

/-- `(try 1 oops 2 (catch err))`. -/
example : eval sampleWorld (form "try" ([.num 1] ++ .atom "oops" :: [.num 2] ++ catchClause "err" [] :: [])) 0 (initSt [])
    = .ok (.num 1) (catchState (initSt []) 0 "err" (vlist [msgList "unknown symbol: oops"])) :=
  C32_empty_catch _ _ _ [.num 1] _ _ _ (vlist [msgList "unknown symbol: oops"]) _ (initSt []) (initSt []) (initSt []) (notMacro_init _ _)
    (.cons (by rw [eval_eq]; rfl) .nil) (by simp [NotCatch]) (by rw [eval_eq]; rfl) (by decide)

/-- C32: without a catch clause the error is passed on unchanged. -/
theorem C32_no_catch (W : World) (e : Nat) (xs vs skipped : List Val) (x : Val) (er : Err) (s s1 s2 : St)
    (hm : NotMacro s.heap e "try") (h : EvalsTo W e xs s vs s1) (hc : ∀ y ∈ xs ++ x :: skipped, NotCatch y)
    (hx : eval W x e s1 = .err er s2) :
    eval W (form "try" (xs ++ x :: skipped)) e s = .err er s2 := by
  rw [eval_named W .try_ hm rfl]
  simp only [evSpecial, vlist_append]
  rw [evTry_ok h fun y hy => hc y (by simp [hy])]
  have hs := startsWith_false (hc x (by simp))
  rw [vlist_cons]
  simp only [evTry, perform_eval, hs, Bool.false_eq_true, if_false]
  rw [M.bind_ok (attempt_err hx)]
  simp only []
  have hsk := evTry_skip (call := perform W) (e := e) (xs := skipped) (rest := .nil) (ret := vs.getLast?.getD .nil) (er := er)
    fun y hy => hc y (by simp [hy])
  have : vlist skipped = mkList skipped .nil := rfl
  rw [this, hsk]; rfl

/-- `(try 1 oops 2)`. -/
example : eval sampleWorld (form "try" ([.num 1] ++ .atom "oops" :: [.num 2])) 0 (initSt []) = .err (.list (vlist [msgList "unknown symbol: oops"])) (initSt []) :=
  C32_no_catch _ _ _ [.num 1] _ _ _ (initSt []) (initSt []) _ (notMacro_init _ _) (.cons (by rw [eval_eq]; rfl) .nil) (by simp [NotCatch]) (by rw [eval_eq]; rfl)

/-- C32: an error of the operating system cannot be caught: the catch clause turns it into another error. -/
theorem C32_foreign (W : World) (e : Nat) (xs vs skipped more body : List Val) (x : Val) (name msg : String) (s s1 s2 : St)
    (hm : NotMacro s.heap e "try") (h : EvalsTo W e xs s vs s1) (hc : ∀ y ∈ xs ++ x :: skipped, NotCatch y)
    (hx : eval W x e s1 = .err (.foreign msg) s2) :
    ∃ s3, eval W (form "try" (xs ++ x :: skipped ++ catchClause name body :: more)) e s
      = .err (.list (vlist [msgList "catch body must be a list with a binding name"])) s3 := by
  rw [eval_named W .try_ hm rfl]
  rw [List.append_assoc, List.cons_append]
  simp only [evSpecial, vlist_append]
  rw [evTry_ok h fun y hy => hc y (by simp [hy])]
  have hs := startsWith_false (hc x (by simp))
  rw [vlist_cons, vlist_append]
  simp only [evTry, perform_eval, hs, Bool.false_eq_true, if_false]
  rw [M.bind_ok (attempt_err hx)]
  simp only []
  rw [evTry_skip fun y hy => hc y (by simp [hy])]
  rw [vlist_cons, evTry_catch]
  simp only [evCatch]
  rw [M.bind_ok (newEnvM_run _ _)]
  exact ⟨_, rfl⟩

/-- `(try 1 (load nothing) (catch err 5))`. -/
example : ∃ s3, eval sampleWorld (form "try" ([.num 1] ++ form "load" [form "quote" [.atom "nothing"]] :: [] ++ catchClause "err" [.num 5] :: [])) 0 (initSt [])
    = .err (.list (vlist [msgList "catch body must be a list with a binding name"])) s3 :=
  C32_foreign _ _ _ [.num 1] _ _ _ _ _ "no file" (initSt []) (initSt []) { initSt [] with tick := 1 } (notMacro_init _ _) (.cons (by rw [eval_eq]; rfl) .nil)
    (by simp [NotCatch, form]) (eval_of_run (n := 9) (d := 9) rfl trivial)

example : eval sampleWorld (form "try" ([.num 1] ++ .atom "oops" :: [.atom "skipped"] ++ catchClause "err" [.num 5, .atom "err"] :: [])) 0 (initSt [])
    = .ok (vlist [msgList "unknown symbol: oops"]) (catchState (initSt []) 0 "err" (vlist [msgList "unknown symbol: oops"])) :=
  C32_caught _ _ _ [.num 1] _ _ _ [.num 5] _ (vlist [msgList "unknown symbol: oops"]) _ _ (initSt []) (initSt []) (initSt []) _
    (notMacro_init _ _) (.cons (by rw [eval_eq]; rfl) .nil) (by simp [NotCatch]) (by rw [eval_eq]; rfl) (by decide)
    (.cons (by rw [eval_eq]; rfl) (.cons (by rw [eval_eq]; rfl) .nil))

end L1
