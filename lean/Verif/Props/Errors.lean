import Verif.Props.Control
import Verif.Lemmas.ErrGrow
/-
C31 (errors are lists that only grow at the front), C45 (crashes are not catchable), C42 (a script stops at its first error), C04 (a syntax error
has no effect).
-/
set_option autoImplicit false
namespace L1

/-! ### C31 -/

/-- C31: at every point of every execution, an error that is not an operating-system error is a non-empty proper list. -/
theorem C31_proper_list (W : World) : Always W
    { post := fun _ _ r => ∀ v s', r = .err (.list v) s' → ∃ x xs, v = vlist (x :: xs) } := by
  refine always_of_watchOk W ⟨fun _ _ _ _ => trivial, ?_⟩
  rintro t s r hs _ hr v s' rfl
  obtain ⟨xs, hne, rfl, _⟩ := hr.2.2
  cases xs with
  | nil => exact absurd rfl hne
  | cons x xs => exact ⟨x, xs, rfl⟩

/-- The errors one step of the interpreter may end with, given the recursive evaluations `call` and `tail` it makes: a new message
of its own, an error of an evaluation it made, or the value of an evaluation it made (`(error x)`), with any number of elements added
in front. -/
inductive StepErr (call tail : Task → M Val) : Err → Prop
  | fresh (m : String) : StepErr call tail (.list (vlist [msgList m]))
  | system (m : String) : StepErr call tail (.foreign m)
  | passed (t : Task) (s s' : St) (er : Err) : call t s = .err er s' → StepErr call tail er
  | passedTail (t : Task) (s s' : St) (er : Err) : tail t s = .err er s' → StepErr call tail er
  | user (t : Task) (s s' : St) (v : Val) : call t s = .ok v s' → StepErr call tail (.list (vlist [v]))
  | front (f : Val) (er : Err) : StepErr call tail er → StepErr call tail (er.under f)

/-- C31: whatever a step of the interpreter does (any form, any built-in), its error is one of those: elements are only ever
added in front of an error, none is removed or changed. -/
theorem C31_step (W : World) (call tail : Task → M Val) (t : Task) (s s' : St) (er : Err)
    (h : runStep W call tail t s = .err er s') : StepErr call tail er := by
  have hE : ErrCl (StepErr call tail) := by
    refine ⟨fun f e he => ?_, fun m => .fresh m, fun m => .system m⟩
    rw [extendErr_under]; exact .front f e he
  have hc : ∀ t, EI (fun _ => True) (StepErr call tail) AnyV (call t) := by
    intro t s
    cases hr : call t s with
    | err e s' => exact .passed t s s' e hr
    | exit => exact .inl trivial
    | _ => trivial
  have ht : ∀ t, EI (fun _ => True) (StepErr call tail) AnyV (tail t) := by
    intro t s
    cases hr : tail t s with
    | err e s' => exact .passedTail t s s' e hr
    | exit => exact .inl trivial
    | _ => trivial
  have := ei_runStep (W := W) hE hc ht (fun t s v s' hh => .user t s s' v hh) t s
  rw [h] at this; exact this

/-- The step that evaluates `(error x)` where `x` has the value boom. -/
example (tail : Task → M Val) : StepErr (fun _ => Pure.pure (.atom "boom")) tail (.list (vlist [.atom "boom"])) :=
  C31_step sampleWorld _ tail (.eval (form "error" [.atom "x"]) 0) (initSt []) (initSt []) _ rfl

/-- C31: in list form.  `v` consists of some added elements followed by an unchanged original. -/
theorem C31_step_list (W : World) (call tail : Task → M Val) (t : Task) (s s' : St) (v : Val)
    (h : runStep W call tail t s = .err (.list v) s') :
    ∃ (added : List Val) (orig : Val), v = mkList added orig ∧
      ((∃ m, orig = vlist [msgList m]) ∨ (∃ t s s', call t s = .err (.list orig) s' ∨ tail t s = .err (.list orig) s') ∨
       (∃ t s s' x, call t s = .ok x s' ∧ orig = vlist [x])) := by
  have h1 := C31_step W call tail t s s' _ h
  generalize hE : Err.list v = er at h1
  clear h
  induction h1 generalizing v with
  | fresh m => injection hE with hE; exact ⟨[], v, rfl, .inl ⟨m, hE⟩⟩
  | system m => cases hE
  | passed t s s' er he => subst hE; exact ⟨[], v, rfl, .inr (.inl ⟨t, s, s', .inl he⟩)⟩
  | passedTail t s s' er he => subst hE; exact ⟨[], v, rfl, .inr (.inl ⟨t, s, s', .inr he⟩)⟩
  | user t s s' x hx => injection hE with hE; exact ⟨[], v, rfl, .inr (.inr ⟨t, s, s', x, hx, hE⟩)⟩
  | front f er _ ih =>
    cases er with
    | foreign m => cases hE
    | list w =>
      injection hE with hE
      obtain ⟨added, orig, rfl, ho⟩ := ih w rfl
      exact ⟨f :: added, orig, hE, ho⟩

/-- The step that performs `(loop x)` where evaluating `x` is the error (boom): one element is added in front. -/
example : ∃ (added : List Val) (orig : Val), vlist [msgList "loop operator", .atom "boom"] = mkList added orig ∧
      ((∃ m, orig = vlist [msgList m]) ∨
       (∃ t s s', (fun _ => throwUser (.atom "boom") : Task → M Val) t s = .err (.list orig) s' ∨ (fun _ => Pure.pure .nil : Task → M Val) t s = .err (.list orig) s') ∨
       (∃ t s s' x, (fun _ => throwUser (.atom "boom") : Task → M Val) t s = .ok x s' ∧ orig = vlist [x])) :=
  C31_step_list sampleWorld _ _ (.loop (vlist [.atom "x"]) 0) (initSt []) (initSt []) _ rfl

/-- C31: over a whole execution.  If every value produced during an execution has the property `P`, the last element of its error is the
words of a message, or has the property `P` (it is then the value given to `error`). -/
theorem C31_last (W : World) (P : Val → Prop) (n d : Nat) (t : Task) (s s' : St) (v : Val)
    (h : runWatched W { post := fun _ _ r => ∀ x s', r = .ok x s' → P x } n d t s = .err (.list v) s') :
    ∃ (added : List Val) (x : Val), v = vlist (added ++ [x]) ∧ ((∃ m, x = msgList m) ∨ P x) := by
  let E : Err → Prop := fun er => ∀ v, er = .list v → ∃ (added : List Val) (x : Val), v = vlist (added ++ [x]) ∧ ((∃ m, x = msgList m) ∨ P x)
  have hE : ErrCl E := by
    refine ⟨?_, ?_, ?_⟩
    · intro f e he v hv
      cases e with
      | foreign m => cases hv
      | list w =>
        injection hv with hv
        obtain ⟨a, x, rfl, hx⟩ := he w rfl
        exact ⟨f :: a, x, hv.symm, hx⟩
    · intro m v hv
      injection hv with hv
      exact ⟨[], _, hv.symm, .inl ⟨m, rfl⟩⟩
    · intro m v hv; cases hv
  have key : ∀ n d t, EI (fun _ => True) E P (runWatched W { post := fun _ _ r => ∀ x s', r = .ok x s' → P x } n d t) := by
    intro n
    induction n with
    | zero => intro d t s; trivial
    | succ n ih =>
      intro d t s
      have hc : ∀ t, EI (fun _ => True) E P (lower d (runWatched W { post := fun _ _ r => ∀ x s', r = .ok x s' → P x } n) t) := by
        cases d with
        | zero => intro t s; trivial
        | succ d => exact ih d
      have h1 := ei_runStep (W := W) hE (fun t => (hc t).weaken) (fun t => (ih d t).weaken)
        (fun t s v s' hh w hw => by
          injection hw with hw
          have := hc t s
          rw [hh] at this
          exact ⟨[], v, hw.symm, .inr this⟩) t s
      simp only [runWatched, watched, if_true]
      generalize runStep W _ _ t s = r at h1 ⊢
      by_cases hp : ∀ x s', r = .ok x s' → P x
      · rw [if_pos hp]
        cases r with
        | ok a s' => exact hp a s' rfl
        | err e s' => exact h1
        | _ => trivial
      · rw [if_neg hp]; trivial
  have := key n d t s
  rw [h] at this
  exact this v rfl

/-- The call `(car 1)`: all values of its execution have any property at all, as there are none. -/
example (P : Val → Prop) : ∃ (added : List Val) (x : Val), vlist [msgList "'1' is not a list"] = vlist (added ++ [x]) ∧ ((∃ m, x = msgList m) ∨ P x) := by
  refine C31_last sampleWorld P 5 5 (.builtin .car [.num 1] 0) (initSt []) (initSt []) _ ?_
  have h : ∀ c : Task → M Val, biFn sampleWorld c .car [.num 1] 0 (initSt []) = .err (.list (vlist [msgList "'1' is not a list"])) (initSt []) := by
    intro c; show throwBase _ _ = _; rw [throwBase_run, vlist_cons, vlist_nil]
    rw [show fmt1 "'" (.num 1) "' is not a list" = "'1' is not a list" from by decide +kernel]
  have h' : ∀ c t : Task → M Val, watched { post := fun _ _ r => ∀ x s', r = .ok x s' → P x } (runStep sampleWorld c t) (.builtin .car [.num 1] 0) (initSt [])
      = .err (.list (vlist [msgList "'1' is not a list"])) (initSt []) := by
    intro c t
    have h2 : runStep sampleWorld c t (.builtin .car [.num 1] 0) (initSt []) = .err (.list (vlist [msgList "'1' is not a list"])) (initSt []) := h c
    unfold watched
    rw [h2, if_pos trivial, if_pos (by intro x s' hx; cases hx)]
  exact h' _ _

/-- `(error x)`: the error list has the value of `x` as its only element. -/
theorem C31_error (W : World) (x v : Val) (e : Nat) (s s1 : St) (hm : NotMacro s.heap e "error") (hx : eval W x e s = .ok v s1) :
    eval W (form "error" [x]) e s = .err (.list (vlist [v])) s1 := by
  rw [eval_named W .error hm rfl]
  simp only [evSpecial, vlist_cons, evError, perform_eval]
  rw [M.bind_ok (extend_ok hx)]; rfl

/-- An error in the function position of a call. -/
theorem C31_in_function (W : World) (f : Val) (args : List Val) (e : Nat) (s s1 : St) (er : Err) (hf : CallHead s.heap e f)
    (hx : eval W f e s = .err er s1) :
    eval W (.cons f (vlist args)) e s = .err (er.under (msgList "evaluating function object")) s1 := by
  rw [eval_call W f _ e s hf (isList_vlist _)]
  unfold evCall
  rw [M.bind_err (extend_err (by exact hx)), extendErr_under]

/-- `((error 'boom) 1)`. -/
example : eval sampleWorld (.cons (form "error" [form "quote" [.atom "boom"]]) (vlist [.num 1])) 0 (initSt [])
    = .err (.list (vlist [msgList "evaluating function object", .atom "boom"])) (initSt []) :=
  C31_in_function _ _ _ _ _ _ (.list (vlist [.atom "boom"])) trivial
    (C31_error _ _ (.atom "boom") _ _ _ (notMacro_init _ _) (C27_quote _ _ _ _ (notMacro_init _ _)))

/-- An error in an argument of a call: the function is not called, the later arguments are not evaluated. -/
theorem C31_in_argument (W : World) (f fv x : Val) (before vs later : List Val) (e : Nat) (s s0 s1 s2 : St) (er : Err) (hf : CallHead s.heap e f)
    (hfv : eval W f e s = .ok fv s0) (hb : EvalsTo W e before s0 vs s1) (hx : eval W x e s1 = .err er s2) :
    eval W (.cons f (vlist (before ++ x :: later))) e s = .err (er.under (msgList "evaluating function arguments")) s2 := by
  rw [eval_call W f _ e s hf (isList_vlist _)]
  unfold evCall
  rw [M.bind_ok (extend_ok (by exact hfv))]
  have := evArgs_err (rest := vlist later) hb hx
  rw [vlist_append]
  exact M.bind_err this

/-- An error of a built-in function. -/
theorem C31_in_builtin (W : World) (f : Val) (b : BI) (args vs : List Val) (e : Nat) (s s0 s1 s2 : St) (er : Err) (hf : CallHead s.heap e f)
    (hfv : eval W f e s = .ok (.bi b) s0) (hb : EvalsTo W e args s0 vs s1) (hx : perform W (.builtin b vs e) s1 = .err er s2) :
    eval W (.cons f (vlist args)) e s = .err (er.under (msgList ("builtin function " ++ b.name))) s2 := by
  rw [eval_call W f _ e s hf (isList_vlist _)]
  unfold evCall
  rw [M.bind_ok (extend_ok (by exact hfv)), M.bind_ok (evArgs_ok hb)]
  show extend _ _ s1 = _
  rw [extend_err (by exact hx), extendErr_under]

/-- `(car 1)`. -/
example : eval sampleWorld (.cons (.atom "car") (vlist [.num 1])) 0 (initSt [])
    = .err (.list (vlist [msgList "builtin function car", msgList "'1' is not a list"])) (initSt []) :=
  C31_in_builtin _ _ .car _ [.num 1] _ _ (initSt []) (initSt []) _ (.list (vlist [msgList "'1' is not a list"])) (callHead_of (by decide) (notMacro_init _ _))
    (by rw [eval_eq]; rfl) (.cons (by rw [eval_eq]; rfl) .nil) (by rw [perform_eq]; rfl)

/-- `(car (error (quote boom)))`: the error is `(... (boom))`, here `((evaluating function arguments) boom)`. -/
example : eval sampleWorld (.cons (.atom "car") (vlist ([] ++ form "error" [form "quote" [.atom "boom"]] :: []))) 0 (initSt [])
    = .err (.list (vlist [msgList "evaluating function arguments", .atom "boom"])) (initSt []) :=
  C31_in_argument _ _ (.bi .car) _ [] [] [] _ _ (initSt []) (initSt []) _ _ (callHead_of (by decide) (notMacro_init _ _)) (by rw [eval_eq]; rfl) .nil
    (C31_error _ _ (.atom "boom") _ _ _ (notMacro_init _ _) (C27_quote _ _ _ _ (notMacro_init _ _)))

/-- The errors of `(car 1)`: `StepErr` is inhabited by real errors, and `C31_last` has instances. -/
example : runWatched sampleWorld { post := fun _ _ r => ∀ x s', r = .ok x s' → True } 5 5 (.builtin .car [.num 1] 0) (initSt [])
    = .err (.list (vlist [msgList "'1' is not a list"])) (initSt []) := by
  have h : ∀ c : Task → M Val, biFn sampleWorld c .car [.num 1] 0 (initSt []) = .err (.list (vlist [msgList "'1' is not a list"])) (initSt []) := by
    intro c; show throwBase _ _ = _; rw [throwBase_run, vlist_cons, vlist_nil]
    rw [show fmt1 "'" (.num 1) "' is not a list" = "'1' is not a list" from by decide +kernel]
  simp only [runWatched, watched, runStep, h]
  simp

/-! ### C45 -/

/-- The check "this task did not crash". -/
def noCrash : Watch := { post := fun _ _ r => ∀ w s', r ≠ .crash w s' }

/-- The check "this task did not end the process". -/
def noExit : Watch := { post := fun _ _ r => ∀ c s', r ≠ .exit c s' }

/-- C45: nothing turns a crash into a value or an error: in an execution that does not crash as a whole, no evaluation, macro expansion or
built-in call, however deeply nested in `try`, `swallow` or `errors` forms, crashed. -/
theorem C45_not_caught (W : World) (n d : Nat) (t : Task) (s : St) (h : ∀ w s', run W n d t s ≠ .crash w s') :
    runWatched W noCrash n d t s = run W n d t s := by
  have key : ∀ n d t, Le { crash := fun _ => True } (run W n d t) (runWatched W noCrash n d t) := by
    intro n
    induction n with
    | zero => intro d t; exact .refl _
    | succ n ih =>
      intro d t s
      have h1 : Le { crash := fun _ => True } (runStep W (lower d (run W n)) (run W n d) t)
          (runStep W (lower d (runWatched W noCrash n)) (runWatched W noCrash n d) t) := by
        refine le_runStep (fun t => ?_) (ih d) t
        cases d with
        | zero => exact .refl _
        | succ d => exact ih d t
      rw [run_succ]
      rcases h1 s with h1 | h1
      · exact .inl h1
      · by_cases hcr : ∃ w s', runStep W (lower d (run W n)) (run W n d) t s = .crash w s'
        · obtain ⟨w, s', hcr⟩ := hcr; rw [hcr]; exact .inl trivial
        · right
          simp only [runWatched, watched]
          rw [if_pos (by trivial), if_pos, h1]
          rw [← h1]
          intro w s' hh
          exact hcr ⟨w, s', hh⟩
  rcases key n d t s with h1 | h1
  · cases hr : run W n d t s with
    | crash w s' => exact absurd hr (h w s')
    | _ => rw [hr] at h1; exact h1.elim
  · exact h1.symm

/-- `(swallow (car 1))` does not crash. -/
example : runWatched sampleWorld noCrash 9 9 (.eval (form "swallow" [form "car" [.num 1]]) 0) (initSt []) = .ok (.atom "t") (initSt []) :=
  (C45_not_caught sampleWorld 9 9 _ _ (by intro w s' h; cases h)).trans rfl

/-- C45: in particular `exit` cannot be caught either. -/
theorem C45_exit_not_caught (W : World) (n d : Nat) (t : Task) (s : St) (h : ∀ c s', run W n d t s ≠ .exit c s') :
    runWatched W noExit n d t s = run W n d t s := by
  have key : ∀ n d t, Le { exit := True } (run W n d t) (runWatched W noExit n d t) := by
    intro n
    induction n with
    | zero => intro d t; exact .refl _
    | succ n ih =>
      intro d t s
      have h1 : Le { exit := True } (runStep W (lower d (run W n)) (run W n d) t)
          (runStep W (lower d (runWatched W noExit n)) (runWatched W noExit n d) t) := by
        refine le_runStep (fun t => ?_) (ih d) t
        cases d with
        | zero => exact .refl _
        | succ d => exact ih d t
      rw [run_succ]
      rcases h1 s with h1 | h1
      · exact .inl h1
      · by_cases hcr : ∃ c s', runStep W (lower d (run W n)) (run W n d) t s = .exit c s'
        · obtain ⟨c, s', hcr⟩ := hcr; rw [hcr]; exact .inl trivial
        · right
          simp only [runWatched, watched]
          rw [if_pos (by trivial), if_pos, h1]
          rw [← h1]
          intro c s' hh
          exact hcr ⟨c, s', hh⟩
  rcases key n d t s with h1 | h1
  · cases hr : run W n d t s with
    | exit c s' => exact absurd hr (h c s')
    | _ => rw [hr] at h1; exact h1.elim
  · exact h1.symm

/-- `(swallow (car 1))` does not exit. -/
example : runWatched sampleWorld noExit 9 9 (.eval (form "swallow" [form "car" [.num 1]]) 0) (initSt []) = .ok (.atom "t") (initSt []) :=
  (C45_exit_not_caught sampleWorld 9 9 _ _ (by intro c s' h; cases h)).trans rfl

/-- C45: `try` with any catch clause: a crash in its forms is the crash of the whole. -/
theorem C45_try (W : World) (e : Nat) (xs vs later : List Val) (x : Val) (w : String) (s s1 s2 : St) (hm : NotMacro s.heap e "try")
    (hb : EvalsTo W e xs s vs s1) (hnc : ∀ y ∈ xs, NotCatch y) (hx : eval W x e s1 = .crash w s2) (hxn : NotCatch x) :
    eval W (form "try" (xs ++ x :: later)) e s = .crash w s2 := by
  rw [eval_named W .try_ hm rfl]
  simp only [evSpecial]
  rw [vlist_append]
  rw [evTry_ok hb hnc]
  simp only [vlist_cons, evTry]
  rw [M.ite_neg (by rw [startsWith_false hxn]; simp)]
  simp only [perform_eval]
  rw [M.bind_run, attempt_run, hx]

/-- `(try 1 (len '(1 . 2)) (catch err 3))`. -/
example : eval sampleWorld (form "try" ([.num 1] ++ form "len" [form "quote" [.cons (.num 1) (.num 2)]] :: [catchClause "err" [.num 3]])) 0 (initSt [])
    = .crash "interface conversion" (initSt []) :=
  C45_try _ _ _ [.num 1] _ _ _ (initSt []) (initSt []) _ (notMacro_init _ _) (.cons (by rw [eval_eq]; rfl) .nil) (by simp [NotCatch])
    (eval_of_run (n := 9) (d := 9) rfl trivial) (by simp [NotCatch, form])

/-- C45: `swallow` does not swallow a crash. -/
theorem C45_swallow (W : World) (e : Nat) (xs vs later : List Val) (x : Val) (w : String) (s s1 s2 : St) (hm : NotMacro s.heap e "swallow")
    (hb : EvalsTo W e xs s vs s1) (hx : eval W x e s1 = .crash w s2) :
    eval W (form "swallow" (xs ++ x :: later)) e s = .crash w s2 := by
  rw [eval_named W .swallow hm rfl]
  simp only [evSpecial]
  rw [vlist_append, evSwallow_ok hb]
  simp only [vlist_cons, evSwallow, perform_eval]
  rw [M.bind_run, attempt_run, hx]

/-- `(swallow (len (quote (1 . 2))))` kills the process. -/
example : eval sampleWorld (form "swallow" ([] ++ form "len" [form "quote" [.cons (.num 1) (.num 2)]] :: [])) 0 (initSt [])
    = .crash "interface conversion" (initSt []) := by
  refine C45_swallow _ _ _ [] _ _ _ (initSt []) (initSt []) _ (notMacro_init _ _) .nil ?_
  have h1 : run sampleWorld 5 5 (.eval (form "len" [form "quote" [.cons (.num 1) (.num 2)]]) 0) (initSt [])
      = .crash "interface conversion" (initSt []) := by rfl
  unfold eval
  rw [perform_of_run (by rw [h1]; trivial), h1]

/-- Never a crash, from any state. -/
def NC {α : Type} (m : M α) : Prop := ∀ s w s', m s ≠ .crash w s'

theorem NC.bind {α β : Type} {m : M α} {f : α → M β} (hm : NC m) (hf : ∀ a, NC (f a)) : NC (m >>= f) := by
  intro s w s' h
  rw [M.bind_run] at h
  cases hr : m s with
  | ok a s1 => rw [hr] at h; exact hf a _ _ _ h
  | crash w1 s1 => exact hm _ _ _ hr
  | _ => rw [hr] at h; cases h

theorem NC.of_ok {α : Type} {m : M α} (h : ∀ s, ∃ a s', m s = .ok a s') : NC m := by
  intro s w s' hh; obtain ⟨a, s1, h⟩ := h s; rw [h] at hh; cases hh
theorem NC.pure {α : Type} {a : α} : NC (pure a : M α) := fun _ _ _ h => by cases h
theorem NC.throwBase {α : Type} {m : String} : NC (throwBase m : M α) := fun _ _ _ h => by cases h
theorem NC.throwForeign {α : Type} {m : String} : NC (throwForeign m : M α) := fun _ _ _ h => by cases h
theorem NC.throwErr {α : Type} {m : Err} : NC (throwErr m : M α) := fun _ _ _ h => by cases h
theorem NC.exitM {α : Type} {c : Nat} : NC (exitM c : M α) := fun _ _ _ h => by cases h
theorem NC.printM {cs : List Char} : NC (printM cs) := fun _ _ _ h => by cases h
theorem NC.askM {α : Type} {f : Nat → α} : NC (askM f) := fun _ _ _ h => by cases h
theorem NC.getScreenM : NC getScreenM := fun _ _ _ h => by cases h
theorem NC.actsM {as : List Act} : NC (actsM as) := fun _ _ _ h => by cases h
theorem NC.setScreenM {b : Bool} : NC (setScreenM b) := fun _ _ _ h => by cases h
theorem NC.gensymM {p : List Char} : NC (gensymM p) := fun _ _ _ h => by cases h
theorem NC.extend {α : Type} {msg : String} {m : M α} (h : NC m) : NC (extend msg m) := by
  intro s w s' hh
  unfold L1.extend at hh
  rw [extendWith_run] at hh
  cases hr : m s with
  | crash w1 s1 => exact h _ _ _ hr
  | _ => rw [hr] at hh; cases hh
theorem NC.ite {α : Type} {c : Prop} [Decidable c] {a b : M α} (h1 : NC a) (h2 : NC b) : NC (if c then a else b) := by
  split <;> assumption

/-- Close goals about `NC`. -/
macro "nc" : tactic => `(tactic| repeat' (first
  | with_reducible assumption
  | exact NC.pure | exact NC.throwBase | exact NC.throwForeign | exact NC.throwErr | exact NC.exitM | exact NC.printM | exact NC.askM
  | exact NC.getScreenM | exact NC.setScreenM | exact NC.actsM | exact NC.gensymM
  | apply NC.extend
  | split
  | refine NC.bind ?_ (fun _ => ?_)))

/-- The built-ins that can crash: on a dotted list (`len`, `fuse`), on a negative number (`isqrt`), on a number outside the range of a
machine integer (`randint`), on the malformed line `(a . )` (`readlist`), and those that evaluate or read programs. -/
def MayCrash (b : BI) : Prop :=
  b = .len ∨ b = .fuse ∨ b = .isqrt ∨ b = .randint ∨ b = .readlist ∨
  b = .apply ∨ b = .eval ∨ b = .load ∨ b = .macroexpand1 ∨ b = .sortBy ∨ b = .forms ∨ b = .help

theorem nc_shuffleLoop {α : Type} (W : World) (i : Nat) : ∀ xs : List α, NC (shuffleLoop W i xs) := by
  induction i with
  | zero => intro xs; exact NC.pure
  | succ i ih => intro xs; exact NC.bind NC.askM fun _ => ih _

/-- C45: every other built-in never crashes, whatever its arguments, the state and the outside world. -/
theorem C45_builtins (W : World) (n d : Nat) (b : BI) (args : List Val) (e : Nat) (s s' : St) (w : String) (hb : ¬ MayCrash b) :
    run W (n + 1) d (.builtin b args e) s ≠ .crash w s' := by
  rw [run_succ]
  generalize lower d (run W n) = call
  generalize run W n d = tail
  have hloop1 : ∀ args k, NC (bAddLoop k args) := by
    intro args; induction args with
    | nil => intro k; exact NC.pure
    | cons a as ih => intro k; cases a <;> first | exact ih _ | exact NC.throwBase
  have hloop2 : ∀ args k, NC (bSubLoop k args) := by
    intro args; induction args with
    | nil => intro k; exact NC.pure
    | cons a as ih => intro k; cases a <;> first | exact ih _ | exact NC.throwBase
  have hloop3 : ∀ args k, NC (bMulLoop k args) := by
    intro args; induction args with
    | nil => intro k; exact NC.pure
    | cons a as ih => intro k; cases a <;> first | exact ih _ | exact NC.throwBase
  have hloop4 : ∀ args k, NC (bDivLoop k args) := by
    intro args; induction args with
    | nil => intro k; exact NC.pure
    | cons a as ih => intro k; unfold bDivLoop; refine NC.ite NC.throwBase ?_; split; exact ih _; exact NC.throwBase
  have hcmp : ∀ cmp, NC (bCmp cmp args) := by
    intro cmp
    have : ∀ args k, NC (bCmpLoop cmp k args) := by
      intro args; induction args with
      | nil => intro k; exact NC.pure
      | cons a as ih => intro k; cases a <;> first | exact NC.ite (ih _) NC.pure | exact NC.throwBase
    unfold bCmp; split
    · exact NC.throwBase
    · exact this _ _
    · exact NC.throwBase
  have hscr : ∀ {α : Type} {m : M α}, NC m → NC (needScreen m) := fun h =>
    NC.bind NC.getScreenM fun _ => NC.ite h NC.throwBase
  show runStep W call tail (.builtin b args e) s ≠ _
  have : NC (biFn W call b args e) := by
    cases b
    case len => exact absurd (by unfold MayCrash; simp) hb
    case fuse => exact absurd (by unfold MayCrash; simp) hb
    case isqrt => exact absurd (by unfold MayCrash; simp) hb
    case randint => exact absurd (by unfold MayCrash; simp) hb
    case readlist => exact absurd (by unfold MayCrash; simp) hb
    case apply => exact absurd (by unfold MayCrash; simp) hb
    case eval => exact absurd (by unfold MayCrash; simp) hb
    case load => exact absurd (by unfold MayCrash; simp) hb
    case macroexpand1 => exact absurd (by unfold MayCrash; simp) hb
    case sortBy => exact absurd (by unfold MayCrash; simp) hb
    case forms => exact absurd (by unfold MayCrash; simp) hb
    case help => exact absurd (by unfold MayCrash; simp) hb
    all_goals simp only [biFn]
    case add => exact hloop1 _ _
    case sub => unfold bSub; split <;> first | exact hloop2 _ _ | exact NC.pure | exact NC.throwBase
    case mul => exact hloop3 _ _
    case div => unfold bDiv; split <;> first | exact hloop4 _ _ | exact NC.throwBase
    case eq => unfold bEq; nc
    case rem => unfold bRem; nc
    case lt => exact hcmp _
    case le => exact hcmp _
    case gt => exact hcmp _
    case ge => exact hcmp _
    case atomP => unfold bPred; nc
    case body => unfold bBody; nc
    case car => unfold bCar; nc
    case cdr => unfold bCdr; nc
    case cons => nc
    case doc => unfold bDoc; nc
    case downcase => nc
    case exit => exact NC.exitM
    case gensym => unfold bGensym; nc
    case list => exact NC.pure
    case listP => unfold bPred; nc
    case not => unfold bPred; nc
    case numberP => unfold bPred; nc
    case print => nc
    case println => nc
    case printl => nc
    case screenStart => refine NC.bind (NC.extend ?_) fun _ => NC.pure; unfold termStart; nc
    case screenEnd => unfold termEnd; nc
    case screenSize => exact NC.bind (NC.extend (hscr NC.askM)) fun _ => NC.pure
    case screenClear => exact NC.bind (NC.extend (hscr NC.actsM)) fun _ => NC.pure
    case screenGetKey =>
      split
      · exact NC.bind (NC.extend (hscr NC.askM)) fun _ => NC.pure
      · exact NC.throwBase
    case screenWrite =>
      unfold bScreenWrite
      split
      · split
        · exact NC.ite (NC.bind (NC.extend (hscr NC.actsM)) fun _ => NC.pure) NC.throwBase
        all_goals exact NC.throwBase
      · exact NC.throwBase
    case shell => unfold doShell; nc
    case shuffle =>
      unfold bShuffle; split
      · refine NC.ite ?_ NC.throwBase
        split
        · exact NC.bind (nc_shuffleLoop W _ _) fun _ => NC.pure
        · exact NC.extend NC.throwBase
      · exact NC.throwBase
    case sleep => unfold bSleep; nc
    case sort => unfold bSort bSortList; nc
    case source => unfold bSource; nc
    case split => unfold bSplit; nc
    case upcase => nc
    case version => exact NC.pure
  exact this s w s'

/-- `sort`, with any arguments. -/
example (W : World) (n d : Nat) (args : List Val) (e : Nat) (s s' : St) (w : String) : run W (n + 1) d (.builtin .sort args e) s ≠ .crash w s' :=
  C45_builtins W n d .sort args e s s' w (by unfold MayCrash; simp)

/-- All of `MayCrash` outside those that evaluate or read do crash on some arguments, so the list is exact. -/
theorem C45_exact (W : World) (n d e : Nat) (s : St) :
    (∃ args w, run W (n + 1) d (.builtin .len args e) s = .crash w s) ∧
    (∃ args w, run W (n + 1) d (.builtin .fuse args e) s = .crash w s) ∧
    (∃ args w, run W (n + 1) d (.builtin .isqrt args e) s = .crash w s) ∧
    (∃ args w, run W (n + 1) d (.builtin .randint args e) s = .crash w s) :=
  ⟨⟨[.cons (.num 1) (.num 2)], _, rfl⟩, ⟨[.cons (.num 1) (.num 2)], _, rfl⟩, ⟨[.num (-1)], _, rfl⟩, ⟨[.num (2 ^ 64)], _, rfl⟩⟩

example : ¬ MayCrash .car := by unfold MayCrash; simp

/-! ### C42 -/

/-- C42: if every form of a text succeeds, all are evaluated, in order, each in the state the previous one left. -/
theorem C42_all (W : World) (e : Nat) (gs vs : List Val) (s s' : St) (h : EvalsTo W e gs s vs s') :
    evalExprs (perform W) false e gs s = .ok () s' := by
  induction h with
  | nil => rfl
  | cons h1 _ ih =>
    simp only [evalExprs, perform_eval]
    rw [M.bind_ok (attempt_ok h1)]
    exact ih

/-- The program `(print 1) 2`. -/
example : evalExprs (perform sampleWorld) false 0 [form "print" [.num 1], .num 2] (initSt []) = .ok () { initSt [] with out := ['1'] } :=
  C42_all _ _ _ [.nil, .num 2] _ _ (.cons (eval_of_run (n := 5) (d := 5) rfl trivial) (.cons (by rw [eval_eq]; rfl) .nil))

/-- C42: at the first form that fails the evaluation of the text ends with its error, in the state that form left: the effects of the
forms before it (and its own) remain, and the forms after it have none. -/
theorem C42_stops (W : World) (e : Nat) (before vs later : List Val) (x : Val) (er : Err) (s s1 s2 : St)
    (h : EvalsTo W e before s vs s1) (hx : eval W x e s1 = .err er s2) :
    evalExprs (perform W) false e (before ++ x :: later) s = .err er s2 := by
  induction h with
  | nil =>
    simp only [List.nil_append, evalExprs, perform_eval]
    rw [M.bind_ok (attempt_err hx)]; rfl
  | cons h1 _ ih =>
    simp only [List.cons_append, evalExprs, perform_eval]
    rw [M.bind_ok (attempt_ok h1)]
    exact ih hx

/-- The state with text added to the output. -/
def printed (s : St) (cs : List Char) : St := { s with out := s.out ++ cs }

/-- Evaluating forms one after the other, printing each value on a line of its own (as the REPL does). -/
inductive EvalsPrinting (W : World) (e : Nat) : List Val → St → St → Prop
  | nil {s : St} : EvalsPrinting W e [] s s
  | cons {x v : Val} {xs : List Val} {s s1 s2 : St} : eval W x e s = .ok v s1 →
    EvalsPrinting W e xs (printed s1 (v.str ++ ['\n'])) s2 → EvalsPrinting W e (x :: xs) s s2

/-- C42: the same when values are printed: nothing is printed for the forms after the failing one. -/
theorem C42_printing (W : World) (e : Nat) (before later : List Val) (x : Val) (er : Err) (s s1 s2 : St)
    (h : EvalsPrinting W e before s s1) :
    (evalExprs (perform W) true e before s = .ok () s1) ∧
    (eval W x e s1 = .err er s2 →
      evalExprs (perform W) true e (before ++ x :: later) s = .err er (printed s2 ("ERROR:\n".toList ++ er.str ++ ['\n']))) := by
  induction h with
  | nil =>
    refine ⟨rfl, fun hx => ?_⟩
    simp only [List.nil_append, evalExprs, perform_eval]
    rw [M.bind_ok (attempt_err hx)]; rfl
  | cons h1 _ ih =>
    refine ⟨?_, fun hx => ?_⟩
    · simp only [evalExprs, perform_eval]
      rw [M.bind_ok (attempt_ok h1)]
      exact ih.1
    · simp only [List.cons_append, evalExprs, perform_eval]
      rw [M.bind_ok (attempt_ok h1)]
      exact ih.2 hx

/-- `1 oops 2` at the prompt. -/
example : evalExprs (perform sampleWorld) true 0 ([.num 1] ++ .atom "oops" :: [.num 2]) (initSt [])
    = .err (.list (vlist [msgList "unknown symbol: oops"])) (printed (initSt []) "1\nERROR:\n((unknown symbol: oops))\n".toList) :=
  ((C42_printing sampleWorld 0 [.num 1] [.num 2] (.atom "oops") _ (initSt []) (printed (initSt []) "1\n".toList) _
    (.cons (v := .num 1) (by rw [eval_eq]; rfl) .nil)).2 (by rw [eval_eq]; rfl)).trans rfl

/-- C42: a crash or an `(exit)` ends the text at once too. -/
theorem C42_crash (W : World) (e : Nat) (before vs later : List Val) (x : Val) (s s1 : St) (h : EvalsTo W e before s vs s1) :
    (∀ w s2, eval W x e s1 = .crash w s2 → evalExprs (perform W) false e (before ++ x :: later) s = .crash w s2) ∧
    (∀ c s2, eval W x e s1 = .exit c s2 → evalExprs (perform W) false e (before ++ x :: later) s = .exit c s2) := by
  induction h with
  | nil =>
    constructor
    all_goals
      intros
      rename_i hx
      simp only [List.nil_append, evalExprs, perform_eval]
      rw [M.bind_run, attempt_run, hx]
  | cons h1 _ ih =>
    constructor
    · intro w s2 hx
      simp only [List.cons_append, evalExprs, perform_eval]
      rw [M.bind_ok (attempt_ok h1)]
      exact ih.1 w s2 hx
    · intro s2 hx
      simp only [List.cons_append, evalExprs, perform_eval]
      rw [M.bind_ok (attempt_ok h1)]
      exact ih.2 s2 hx

/-- `1 (len '(1 . 2)) 3`. -/
example : evalExprs (perform sampleWorld) false 0 ([.num 1] ++ form "len" [form "quote" [.cons (.num 1) (.num 2)]] :: [.num 3]) (initSt [])
    = .crash "interface conversion" (initSt []) :=
  (C42_crash sampleWorld 0 [.num 1] [.num 1] [.num 3] _ (initSt []) (initSt []) (.cons (by rw [eval_eq]; rfl) .nil)).1 _ _ (eval_of_run (n := 9) (d := 9) rfl trivial)

/-- One more query made to the outside world. -/
def asked (s : St) : St := { s with tick := s.tick + 1 }

/-- C42: a script file.  The whole file is read first; then its forms are evaluated at top level up to the first failing one, whose error is
printed, and the process exits: the files after it are not run. -/
theorem C42_script (W : World) (file : String) (files : List String) (text : List Char) (before vs later : List Val) (x : Val) (er : Err)
    (s s1 s2 : St) (hr : W.readFile s.tick file = .ok text) (hp : readText text = .ok (before ++ x :: later))
    (h : EvalsTo W 0 before (asked s) vs s1) (hx : eval W x 0 s1 = .err er s2) :
    runFiles W (perform W) 0 (file :: files) s = .exit 1 (printed s2 ("ERROR:\n".toList ++ er.str ++ ['\n'])) := by
  have h1 : loadFile W (perform W) file 0 s = .err er s2 := by
    unfold loadFile
    rw [M.bind_ok (askM_run _ _), hr]
    show lexParseEval (perform W) text 0 (asked s) = _
    unfold lexParseEval
    rw [hp]
    exact C42_stops W 0 before vs later x er (asked s) s1 s2 h hx
  simp only [runFiles]
  rw [M.bind_ok (attempt_err h1)]
  rfl

/-- A file with the text `1 oops 2`; the second file is not looked at. -/
example : runFiles { sampleWorld with readFile := fun _ _ => .ok "1 oops 2".toList } (perform { sampleWorld with readFile := fun _ _ => .ok "1 oops 2".toList }) 0 ["f", "g"] (initSt [])
    = .exit 1 (printed (asked (initSt [])) "ERROR:\n((unknown symbol: oops))\n".toList) :=
  (C42_script _ "f" ["g"] "1 oops 2".toList [.num 1] [.num 1] [.num 2] (.atom "oops") (.list (vlist [msgList "unknown symbol: oops"])) (initSt []) (asked (initSt []))
    (asked (initSt [])) rfl (by decide +kernel) (.cons (by rw [eval_eq]; rfl) .nil) (by rw [eval_eq]; rfl)).trans rfl

/-- C42: a script whose forms all succeed is followed by the next one, in the state it left. -/
theorem C42_script_ok (W : World) (file : String) (files : List String) (text : List Char) (gs vs : List Val)
    (s s1 : St) (hr : W.readFile s.tick file = .ok text) (hp : readText text = .ok gs)
    (h : EvalsTo W 0 gs (asked s) vs s1) :
    runFiles W (perform W) 0 (file :: files) s = runFiles W (perform W) 0 files s1 := by
  have h1 : loadFile W (perform W) file 0 s = .ok () s1 := by
    unfold loadFile
    rw [M.bind_ok (askM_run _ _), hr]
    show lexParseEval (perform W) text 0 (asked s) = _
    unfold lexParseEval
    rw [hp]
    exact C42_all W 0 gs vs (asked s) s1 h
  conv => lhs; unfold runFiles
  rw [M.bind_ok (attempt_ok h1)]

/-- A file with the text `1 2`. -/
example (files : List String) : runFiles { sampleWorld with readFile := fun _ _ => .ok "1 2".toList } (perform { sampleWorld with readFile := fun _ _ => .ok "1 2".toList }) 0 ("f" :: files) (initSt [])
    = runFiles { sampleWorld with readFile := fun _ _ => .ok "1 2".toList } (perform { sampleWorld with readFile := fun _ _ => .ok "1 2".toList }) 0 files (asked (initSt [])) :=
  C42_script_ok _ "f" files "1 2".toList [.num 1, .num 2] [.num 1, .num 2] _ _ rfl (by decide +kernel) (.cons (by rw [eval_eq]; rfl) (.cons (by rw [eval_eq]; rfl) .nil))

/-- `1 undefined (loop)`: stops at the second form. -/
example : evalExprs (perform sampleWorld) false 0 ([.num 1] ++ .atom "undefined" :: [form "loop" []]) (initSt [])
    = .err (.list (vlist [msgList "unknown symbol: undefined"])) (initSt []) :=
  C42_stops _ _ _ [.num 1] _ _ _ _ (initSt []) _ (.cons (by rw [eval_eq]; rfl) .nil) (by rw [eval_eq]; rfl)

end L1
