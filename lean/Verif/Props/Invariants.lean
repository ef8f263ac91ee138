import Verif.Spec.Inside
import Verif.Lemmas.InvRun
import Verif.Lemmas.Mono
import Verif.Props.Data
/-
C19 (t is constant), C22 (scopes are kept), C23 (no dangling scopes), C31 (errors are lists), C37 (gensym), C43
(output), C44 (budgets).

`Always W P` (Verif/Model/Watch.lean) says that the checks of `P` succeed at every task of every execution of the
program: any input, any core library, any `-e` text, any script files, any behaviour of the world, including
executions which never end.
-/
set_option autoImplicit false
namespace L1

/-- In the initial state no name is a macro. -/
theorem notMacro_init (inp : List (List Char)) (x : String) : NotMacro (initSt inp).heap 0 x := by
  intro ps r b dc env h
  have : ∀ y v, (y, v) ∈ initGlobals.syms → ∃ a, v = Val.atom a := by
    intro y v h
    simp only [initGlobals, List.mem_cons, Prod.mk.injEq, List.not_mem_nil, or_false] at h
    rcases h with h | h | h | h | h | h | h | h | h | h | h | h | h | h | h <;> exact ⟨_, h.2⟩
  have h2 : alGet x initGlobals.syms = some (.lam ps r b dc true env) := by
    simp only [lookup, initSt, lookupAux, List.getElem?_cons_zero] at h
    split at h
    · rename_i v hv; rw [hv]; exact h
    · simp [initGlobals] at h
  have h3 : (x, Val.lam ps r b dc true env) ∈ initGlobals.syms := by
    clear h
    generalize initGlobals.syms = l at h2
    induction l with
    | nil => simp [alGet] at h2
    | cons kv l ih =>
      obtain ⟨k, w⟩ := kv
      simp only [alGet] at h2
      split at h2
      · rename_i hk; injection h2 with h2; subst hk; subst h2; exact List.mem_cons_self
      · exact List.mem_cons_of_mem _ (ih h2)
  obtain ⟨a, ha⟩ := this _ _ h3
  cases ha

/-- An example world for the examples below. -/
def sampleWorld : World :=
  { readFile := fun _ _ => .error "no file", rand := fun n => n, shell := fun _ _ => .error "no shell", key := fun _ => some (.rune (Char.ofNat 97)),
    size := fun _ => (80, 24), openScreen := fun _ => .ok, badNum := fun _ => 0, upper := id, lower := id,
    digit := fun _ => false, width := fun _ => 1, sorter := Sorter.insertion }

/-- `Always` is not vacuous: the checks are made.  A check that fails everywhere is noticed, by the program
`l1 -e 1`. -/
theorem always_false_fails (W : World) : ¬ Always W { pre := fun _ _ => False } := by
  intro h
  refine h 1 1 [] "".toList (some ['1']) [] (initSt []) ?_
  have h1 : parseTop (lexItems [[]]) = .ok [] := by decide +kernel
  have h2 : readText ['1'] = .ok [.num 1] := by decide +kernel
  have hr : readText "".toList = .ok [] := by decide +kernel
  have hw : ∀ s, runWatched W { pre := fun _ _ => False } 1 1 (.eval (.num 1) 0) s = .crash "watch" s := by
    intro s; simp [runWatched, watched]
  unfold mainWith
  have e1 : attempt (lexParseEval (runWatched W { pre := fun _ _ => False } 1 1) "".toList 0) (initSt [])
      = .ok (.ok ()) (initSt []) := by
    unfold lexParseEval; rw [hr]; rfl
  rw [M.bind_ok e1]
  show (attempt (lexParseEval _ ['1'] 0) >>= _) (initSt []) = _
  have e2 : attempt (lexParseEval (runWatched W { pre := fun _ _ => False } 1 1) ['1'] 0) (initSt [])
      = .crash "watch" (initSt []) := by
    unfold lexParseEval
    rw [h2, attempt_run]
    have h3 : liftParse (.ok [Val.num 1]) (initSt []) = .ok [.num 1] (initSt []) := rfl
    rw [M.bind_ok h3]
    unfold evalExprs
    rw [M.bind_run, attempt_run, hw]
  rw [M.bind_run, e2]

/-! ### C19 -/

theorem alGet_none_iff {x : String} {l : List (String × Val)} : alGet x l = none ↔ ∀ v, (x, v) ∉ l := by
  induction l with
  | nil => simp [alGet]
  | cons p l ih =>
    obtain ⟨k, w⟩ := p
    simp only [alGet]
    by_cases h : k = x
    · subst h; simp only [if_true, reduceCtorEq, false_iff]
      intro hh; exact hh w List.mem_cons_self
    · simp only [h, if_false, ih]
      constructor
      · intro hh v hv
        rcases List.mem_cons.1 hv with hv | hv
        · injection hv with h1 _; exact h h1.symm
        · exact hh v hv
      · intro hh v hv; exact hh v (List.mem_cons_of_mem _ hv)

/-- C19: at every point of every execution no scope has a binding for `t`. -/
theorem C19_never_bound (W : World) :
    Always W { pre := fun _ s => ∀ f ∈ s.heap, ∀ v, ("t", v) ∉ f.syms } := by
  refine always_of_watchOk W ⟨?_, fun _ _ _ _ _ _ => trivial⟩
  intro t s hs _ f hf v
  obtain ⟨i, hi⟩ := List.getElem?_of_mem hf
  exact alGet_none_iff.1 (hs.heap.noT i f hi) v

/-- C19: also at the end of the program, however it ends. -/
theorem C19_never_bound_final (W : World) (n d : Nat) (inp : List (List Char)) (core : List Char)
    (expr : Option (List Char)) (files : List String) (s : St)
    (h : (mainProg W n d core expr files (initSt inp)).final = some s) : ∀ f ∈ s.heap, ∀ v, ("t", v) ∉ f.syms := by
  have hr := mainProg_safe W n d inp core expr files
  have hs : Inv s := by
    cases hm : mainProg W n d core expr files (initSt inp) <;> rw [hm] at h hr <;> simp only [Res.final] at h <;>
      first
        | (injection h with h; subst h; first | exact hr.1 | exact hr.2.1)
        | cases h
  intro f hf v
  obtain ⟨i, hi⟩ := List.getElem?_of_mem hf
  exact alGet_none_iff.1 (hs.heap.noT i f hi) v

/-- The program `l1 -e '((lambda t (x) (def y x)) 7)'`, without core library, ends, and in its last state `t` is not bound. -/
example : ∃ s, (mainProg sampleWorld 50 50 [] (some "((lambda t (x) (def y x)) 7)".toList) [] (initSt [])).final = some s ∧ ∀ f ∈ s.heap, ∀ v, ("t", v) ∉ f.syms := by
  obtain ⟨s, hs⟩ := Option.isSome_iff_exists.1
    (show (mainProg sampleWorld 50 50 [] (some "((lambda t (x) (def y x)) 7)".toList) [] (initSt [])).final.isSome = true by decide +kernel)
  exact ⟨s, hs, C19_never_bound_final _ _ _ _ _ _ _ _ hs⟩

/-- C19: evaluating `t` gives `t`, in every state. -/
theorem C19_eval_t (W : World) (n d e : Nat) (s : St) :
    run W (n + 1) d (.eval (.atom "t") e) s = .ok (.atom "t") s := rfl

/-- The error for binding `t`, as passed on by a form that adds the frame `msg`. -/
def bindTErr (msg : String) : Err := .list (vlist [msgList msg, msgList "cannot bind or set t"])

/-- C19: `(def t x)` is an error once `x` has a value, and no binding changes. -/
theorem C19_def_t (W : World) (n d e : Nat) (s s' : St) (x v : Val) (hm : NotMacro s.heap e "def")
    (hx : run W n d (.eval x e) s = .ok v s') :
    run W (n + 1) (d + 1) (.eval (vlist [.atom "def", .atom "t", x]) e) s
      = .err (bindTErr "setting def result") s' := by
  show evalStep _ _ _ e s = _
  simp only [vlist_cons]
  rw [evalStep_notMacro (notMacro_isMacroCall hm _)]
  show (extend "evaluating def value" (run W n d (.eval x e)) >>= _) s = _
  rw [M.bind_ok (extend_ok hx)]
  rfl

/-- `(def t (+ 1 2))`. -/
example : run sampleWorld 6 6 (.eval (vlist [.atom "def", .atom "t", form "+" [.num 1, .num 2]]) 0) (initSt []) = .err (bindTErr "setting def result") (initSt []) :=
  C19_def_t _ 5 5 _ _ _ _ (.num 3) (notMacro_init _ _) rfl

/-- C19: `(set! t x)` is an error once `x` has a value, and no binding changes. -/
theorem C19_set_t (W : World) (n d e : Nat) (s s' : St) (x v : Val) (hm : NotMacro s.heap e "set!")
    (hx : run W n d (.eval x e) s = .ok v s') :
    run W (n + 1) (d + 1) (.eval (vlist [.atom "set!", .atom "t", x]) e) s
      = .err (bindTErr "updating set result") s' := by
  show evalStep _ _ _ e s = _
  simp only [vlist_cons]
  rw [evalStep_notMacro (notMacro_isMacroCall hm _)]
  show (extend "evaluating set value" (run W n d (.eval x e)) >>= _) s = _
  rw [M.bind_ok (extend_ok hx)]
  rfl

/-- `(set! t (+ 1 2))`. -/
example : run sampleWorld 6 6 (.eval (vlist [.atom "set!", .atom "t", form "+" [.num 1, .num 2]]) 0) (initSt []) = .err (bindTErr "updating set result") (initSt []) :=
  C19_set_t _ 5 5 _ _ _ _ (.num 3) (notMacro_init _ _) rfl

/-- C19: `(defn t (p ...) body ...)` is an error and no binding changes. -/
theorem C19_defn_t (W : World) (n d e : Nat) (s : St) (isMacro : Bool) (ps : List String) (body : List Val)
    (hm : NotMacro s.heap e (if isMacro then "defmacro" else "defn"))
    (hdoc : ∀ dd rest, body ≠ .cons (.atom "doc") dd :: rest) :
    run W (n + 1) d (.eval (.cons (.atom (if isMacro then "defmacro" else "defn")) (.cons (.atom "t")
        (.cons (vlist (ps.map .atom)) (vlist body)))) e) s
      = .err (bindTErr "setting defn result") s := by
  have hps := parseParams_names ps
  have hsd : splitDoc (vlist body) = pure (.nil, vlist body) := by
    cases body with
    | nil => rfl
    | cons a as =>
      unfold splitDoc
      split
      · rename_i dd rest h
        injection h with h1 h2
        exact absurd (by rw [h1]) (hdoc dd as)
      · rfl
  have hmk : mkLambda (.cons (vlist (ps.map .atom)) (vlist body)) isMacro e s
      = .ok (.lam ps "" (vlist body) .nil isMacro e) s := by
    have h1 : mkLambda (.cons (vlist (ps.map .atom)) (vlist body)) isMacro e
        = mkLambdaNamed "" (.cons (vlist (ps.map .atom)) (vlist body)) isMacro e := by
      cases ps <;> rfl
    rw [h1]
    unfold mkLambdaNamed
    simp only [isList_vlist, if_true, hps, hsd]
    rfl
  show evalStep _ _ _ e s = _
  rw [evalStep_notMacro (notMacro_isMacroCall hm _)]
  cases isMacro
  · show (extend "creating lambda function" (mkLambda _ false e) >>= _) s = _
    rw [M.bind_ok (extend_ok hmk)]; rfl
  · show (extend "creating lambda function" (mkLambda _ true e) >>= _) s = _
    rw [M.bind_ok (extend_ok hmk)]; rfl

/-- `(defn t (x) x)` and `(defmacro t (x) x)`. -/
example (m : Bool) : run sampleWorld 1 0 (.eval (.cons (.atom (if m then "defmacro" else "defn")) (.cons (.atom "t") (.cons (vlist (["x"].map .atom)) (vlist [.atom "x"])))) 0)
    (initSt []) = .err (bindTErr "setting defn result") (initSt []) :=
  C19_defn_t _ 0 0 _ _ m _ _ (notMacro_init _ _) (by intro dd rest h; cases h)

/-- C19: `(let ((t x) ...) ...)` is an error once `x` has a value; no binding of an existing scope changes. -/
theorem C19_let_t (W : World) (n d e : Nat) (s s' : St) (x v : Val) (binds : Val) (body : List Val)
    (hm : NotMacro s.heap e "let")
    (hx : run W n d (.eval x e) { s with heap := s.heap ++ [⟨[], some e⟩] } = .ok v s') :
    run W (n + 1) (d + 1) (.eval (.cons (.atom "let") (.cons (.cons (vlist [.atom "t", x]) binds) (vlist body))) e) s
      = .err (bindTErr "setting let bindings") s' := by
  rw [show "let" = SF.let_.name from rfl, eval_special W n (d + 1) e s .let_ _ hm rfl]
  simp only [evSpecial, evLet, lower_succ]
  rw [M.ite_pos (isList_cons _ _), M.ite_pos (isList_vlist _)]
  rw [M.bind_ok (newEnvM_run _ _)]
  show ((extend "evaluating let bindings" (run W n d (.eval x e)) >>= _) >>= _) _ = _
  rw [M.bind_err]
  rw [M.bind_ok (extend_ok hx)]
  rfl

/-- `(let ((t 1)) t)`. -/
example : run sampleWorld 6 6 (.eval (.cons (.atom "let") (.cons (.cons (vlist [.atom "t", .num 1]) .nil) (vlist [.atom "t"]))) 0) (initSt [])
    = .err (bindTErr "setting let bindings") { initSt [] with heap := (initSt []).heap ++ [⟨[], some 0⟩] } :=
  C19_let_t _ 5 5 _ _ _ _ (.num 1) _ _ (notMacro_init _ _) rfl

/-- C19: a function with a parameter (or rest parameter) called `t` cannot be called: any call that passes the arity
check ends in an error, before the body runs. -/
theorem C19_param_t (ps : List String) (r : String) (args : List Val) (ne : Nat) (s : St) (ht : "t" ∈ ps ∨ r = "t") :
    ∃ er s', bindArgs ne ps r args s = .err (.list er) s' := by
  have hb : ∀ (ps : List String) (args : List Val) (s : St), "t" ∈ ps → ps.length ≤ args.length →
      ∃ er s', bindParams ne ps args s = .err (.list er) s' := by
    intro ps
    induction ps with
    | nil => intro _ _ h; cases h
    | cons p ps ih =>
      intro args s h hl
      cases args with
      | nil => simp at hl
      | cons a as =>
        simp only [bindParams]
        by_cases hp : p = "t"
        · subst hp
          exact ⟨_, _, M.bind_err (extend_err rfl)⟩
        · have hmem : "t" ∈ ps := by
            rcases List.mem_cons.1 h with h | h
            · exact absurd h.symm hp
            · exact h
          have hset : setM ne p a s = .ok () { s with heap := heapSet s.heap ne p a } := by
            unfold setM; rw [if_neg hp]
          rw [M.bind_ok (extend_ok hset)]
          exact ih as _ hmem (by simpa using hl)
  unfold bindArgs
  by_cases hr : r = ""
  · subst hr
    simp only [ne_eq, not_true_eq_false, if_false]
    have ht' : "t" ∈ ps := by
      rcases ht with h | h
      · exact h
      · exact absurd h (by decide)
    split
    · exact ⟨_, _, rfl⟩
    · split
      · exact ⟨_, _, rfl⟩
      · exact hb ps args s ht' (by omega)
  · simp only [ne_eq, hr, not_false_eq_true, if_true]
    split
    · exact ⟨_, _, rfl⟩
    · by_cases hrt : r = "t"
      · subst hrt; exact ⟨_, _, rfl⟩
      · have hset : setM ne r (vlist (args.drop ps.length)) s
            = .ok () { s with heap := heapSet s.heap ne r (vlist (args.drop ps.length)) } := by
          unfold setM; rw [if_neg hrt]
        rw [M.bind_ok hset]
        exact hb ps args _ (by rcases ht with h | h; exact h; exact absurd h hrt) (by omega)

example : ∃ er s', bindArgs 0 ["a", "t"] "" [.num 1, .num 2] (initSt []) = .err (.list er) s' := C19_param_t _ _ _ _ _ (.inl (by simp))

example : run sampleWorld 5 5 (.eval (vlist [.atom "def", .atom "t", .num 3]) 0) (initSt [])
    = .err (bindTErr "setting def result") (initSt []) := rfl

/-! ### C22 -/

/-- C22: whatever a task does and however it ends, every scope that existed when it started still exists, with the
same parent, and still binds every name it did; and a scope's parent is always an older scope, so chains of
scopes are finite. -/
theorem C22_scopes_kept (W : World) : Always W
    { pre := fun _ s => ∀ (i : Nat) (f : Frame), s.heap[i]? = some f → ∀ p, f.parent = some p → p < i
      post := fun _ s r => ∀ s', r.final = some s' → ∀ (i : Nat) (f : Frame), s.heap[i]? = some f →
        ∃ f', s'.heap[i]? = some f' ∧ f'.parent = f.parent ∧ ∀ x v, (x, v) ∈ f.syms → ∃ v', (x, v') ∈ f'.syms } := by
  have mem_some : ∀ {x v} {l : List (String × Val)}, (x, v) ∈ l → (alGet x l).isSome := by
    intro x v l h
    cases h' : alGet x l with
    | some _ => rfl
    | none => exact absurd h (alGet_none_iff.1 h' v)
  have some_mem : ∀ {x} {l : List (String × Val)}, (alGet x l).isSome → ∃ v', (x, v') ∈ l := by
    intro x l h
    by_cases hc : ∃ v', (x, v') ∈ l
    · exact hc
    · rw [alGet_none_iff.2 (fun v hv => hc ⟨v, hv⟩)] at h; cases h
  refine always_of_watchOk W ⟨?_, ?_⟩
  · intro t s hs _ i f hf p hp
    have := hs.heap.parent i f hf
    rw [hp] at this; exact this
  · intro t s r hs _ hr s' hf i f hi
    have hext : Ext s s' := by
      cases r <;> simp only [Res.final, Option.some.injEq, reduceCtorEq] at hf <;> subst hf <;>
        first | exact hr.2.1 | exact hr.2 | exact hr.2.2
    obtain ⟨f', h1, h2, h3⟩ := hext.heap.frame i f hi
    exact ⟨f', h1, h2, fun x v hx => some_mem (h3 x (mem_some hx))⟩

theorem lookupAux_ext {h h' : Heap} (hh : HeapExt h h') (k e : Nat) (x : String)
    (hl : (lookupAux h k e x).isSome) : (lookupAux h' k e x).isSome := by
  induction k generalizing e with
  | zero => cases hl
  | succ k ih =>
    simp only [lookupAux] at hl ⊢
    split at hl
    · cases hl
    · rename_i f hf
      obtain ⟨f', h1, h2, h3⟩ := hh.frame e f hf
      rw [h1]
      simp only []
      split
      · rfl
      · rename_i hn
        split at hl
        · rename_i v hv
          have := h3 x (by rw [hv]; rfl)
          rw [hn] at this; cases this
        · rw [h2]
          split at hl
          · cases hl
          · rename_i p hp
            exact ih p hl

/-- C22: every name that is visible from a scope before a task is visible from it afterwards. -/
theorem C22_names_kept (W : World) : Always W
    { post := fun _ s r => ∀ s', r.final = some s' → ∀ (e : Nat) (x : String),
        (lookup s.heap e x).isSome → (lookup s'.heap e x).isSome } := by
  refine always_of_watchOk W ⟨fun _ _ _ _ => trivial, ?_⟩
  intro t s r hs _ hr s' hf e x hx
  have hext : Ext s s' := by
    cases r <;> simp only [Res.final, Option.some.injEq, reduceCtorEq] at hf <;> subst hf <;>
      first | exact hr.2.1 | exact hr.2 | exact hr.2.2
  exact lookupAux_ext hext.heap _ _ _ hx

/-! ### C23 -/

/-- All functions inside `v` were created in scopes that exist in `s`. -/
def NoDangling (s : St) (v : Val) : Prop :=
  ∀ ps r b dc m env, Inside (.lam ps r b dc m env) v → ∃ f, s.heap[env]? = some f

theorem vok_inside {n : Nat} {v w : Val} (h : VOk n w) (hi : Inside v w) : VOk n v := by
  induction hi with
  | here => exact h
  | car _ ih => exact ih h.1
  | cdr _ ih => exact ih h.2
  | body _ ih => exact ih h.2.1
  | doc _ ih => exact ih h.2.2

theorem vok_noDangling {s : St} {v : Val} (h : VOk s.heap.length v) : NoDangling s v := by
  intro ps r b dc m env hi
  have := (vok_inside h hi).1
  exact ⟨_, List.getElem?_eq_getElem this⟩

/-- The values a task works on. -/
def Task.vals : Task → List Val
  | .eval x _ => [x]
  | .mexpand x _ => [x]
  | .loop b _ => [b]
  | .builtin _ args _ => args

/-- The scope a task works in. -/
def Task.env : Task → Nat
  | .eval _ e => e
  | .mexpand _ e => e
  | .loop _ e => e
  | .builtin _ _ e => e

/-- C23: at every point of every execution, every function in a bound value, in an expression being evaluated, in an
argument, in a result and in an error object was created in a scope that exists; and the scope in which
evaluation happens exists. -/
theorem C23_no_dangling (W : World) : Always W
    { pre := fun t s => (∀ f ∈ s.heap, ∀ x v, alGet x f.syms = some v → NoDangling s v) ∧
        (∀ v ∈ t.vals, NoDangling s v) ∧ ∃ f, s.heap[t.env]? = some f
      post := fun _ _ r => match r with
        | .ok v s' => NoDangling s' v
        | .err (.list v) s' => NoDangling s' v
        | _ => True } := by
  refine always_of_watchOk W ⟨?_, ?_⟩
  · intro t s hs ht
    refine ⟨?_, ?_, ?_⟩
    · intro f hf x v hx
      obtain ⟨i, hi⟩ := List.getElem?_of_mem hf
      exact vok_noDangling (hs.heap.vals i f hi x v hx)
    · intro v hv
      cases t with
      | builtin b args e => exact vok_noDangling (ht.1 v hv)
      | _ => rw [Task.vals, List.mem_singleton] at hv; subst hv; exact vok_noDangling ht.1
    · have : t.env < s.heap.length := by cases t <;> exact ht.2
      exact ⟨_, List.getElem?_eq_getElem this⟩
  · intro t s r hs _ hr
    cases r with
    | ok v s' => exact vok_noDangling hr.2.2
    | err e s' =>
      cases e with
      | list v => exact vok_noDangling hr.2.2.vok
      | foreign m => trivial
    | _ => trivial

/-! ### C37 -/

/-- C37: at every point of every execution, the names that `gensym` has returned so far are all different. -/
theorem C37_never_repeats (W : World) : Always W { pre := fun _ s => s.issued.Nodup } :=
  always_of_watchOk W ⟨fun _ _ hs _ => hs.issued.nodup, fun _ _ _ _ _ _ => trivial⟩

/-- C37: also at the end of the program, however it ends. -/
theorem C37_never_repeats_final (W : World) (n d : Nat) (inp : List (List Char)) (core : List Char)
    (expr : Option (List Char)) (files : List String) (s : St)
    (h : (mainProg W n d core expr files (initSt inp)).final = some s) : s.issued.Nodup := by
  have hr := mainProg_safe W n d inp core expr files
  cases hm : mainProg W n d core expr files (initSt inp) <;> rw [hm] at h hr <;> simp only [Res.final] at h <;>
    first
      | (injection h with h; subst h; first | exact hr.1.issued.nodup | exact hr.2.1.issued.nodup)
      | cases h

/-- `l1 -e '(list (gensym) (gensym (quote x)) (gensym))'`. -/
example : ∃ s, (mainProg sampleWorld 50 50 [] (some "(list (gensym) (gensym (quote x)) (gensym))".toList) [] (initSt [])).final = some s ∧ s.issued.Nodup := by
  obtain ⟨s, hs⟩ := Option.isSome_iff_exists.1
    (show (mainProg sampleWorld 50 50 [] (some "(list (gensym) (gensym (quote x)) (gensym))".toList) [] (initSt [])).final.isSome = true by decide +kernel)
  exact ⟨s, hs, C37_never_repeats_final _ _ _ _ _ _ _ _ hs⟩

/-- C37: what `gensym` returns is an atom, noted as returned; it changes nothing but its counter. -/
theorem C37_gensym_recorded (W : World) (n d e : Nat) (s : St) (args : List Val)
    (h : args = [] ∨ ∃ p, args = [.atom p]) :
    ∃ a, run W (n + 1) d (.builtin .gensym args e) s
      = .ok (.atom a) { s with gensym := s.gensym + 1, issued := s.issued ++ [a] } := by
  rcases h with rfl | ⟨p, rfl⟩
  · exact ⟨_, rfl⟩
  · exact ⟨_, rfl⟩

/-- `(gensym (quote x))`. -/
example : ∃ a, run sampleWorld 1 0 (.builtin .gensym [.atom "x"] 0) (initSt []) = .ok (.atom a) { initSt [] with gensym := 1, issued := [a] } :=
  C37_gensym_recorded _ 0 0 _ _ _ (.inr ⟨_, rfl⟩)

/-- C37, spelled out for two calls: any task may run in between. -/
theorem C37_two_calls (W : World) (n d e n1 d1 n2 d2 e2 : Nat) (s s1 s2 s3 : St) (args1 args2 : List Val) (t : Task) (a b : String)
    (hi : Inv s) (ht : TaskOk s1.heap.length t)
    (h1 : run W n d (.builtin .gensym args1 e) s = .ok (.atom a) s1)
    (ht2 : (run W n1 d1 t s1).final = some s2)
    (h2 : run W n2 d2 (.builtin .gensym args2 e2) s2 = .ok (.atom b) s3) : a ≠ b := by
  have key : ∀ n d e s a s' (args : List Val), run W n d (.builtin .gensym args e) s = .ok (.atom a) s' →
      s' = { s with gensym := s.gensym + 1, issued := s.issued ++ [a] } ∧ ∃ p, a = gensymName p (s.gensym + 1) := by
    intro n d e s a s' args h
    cases n with
    | zero => cases h
    | succ n =>
      have h' : bGensym args s = .ok (.atom a) s' := h
      unfold bGensym at h'
      split at h'
      · injection h' with h1 h2; injection h1 with h1; subst h1; exact ⟨h2.symm, _, rfl⟩
      · injection h' with h1 h2; injection h1 with h1; subst h1; exact ⟨h2.symm, _, rfl⟩
      · cases h'
      · cases h'
  obtain ⟨hs1, p, hp⟩ := key _ _ _ _ _ _ _ h1
  obtain ⟨_, q, hq⟩ := key _ _ _ _ _ _ _ h2
  have hinv1 : Inv s1 := by
    subst hs1
    have := (Safe.gensymM (n := 0) (p := p)) s hi (Nat.zero_le _)
    simp only [gensymM, ROk] at this
    rw [hp]; exact this.1
  have hr := run_safe W n1 d1 s1.heap.length t ht s1 hinv1 (Nat.le_refl _)
  have hg : s1.gensym ≤ s2.gensym := by
    cases hres : run W n1 d1 t s1 <;> rw [hres] at ht2 hr <;> simp only [Res.final] at ht2 <;>
      first
        | (injection ht2 with ht2; subst ht2; first | exact hr.2.1.gensym | exact hr.2.gensym | exact hr.2.2.gensym)
        | cases ht2
  intro hab
  rw [hp, hq] at hab
  have := gensymName_inj hab
  subst hs1
  simp only at hg
  omega

/-- Two calls, of which the second gives a prefix, with a definition in between. -/
example : ∃ a b s1 s2 s3, run sampleWorld 1 0 (.builtin .gensym [] 0) (initSt []) = .ok (.atom a) s1 ∧
    (run sampleWorld 5 5 (.eval (form "def" [.atom "x", .num 1]) 0) s1).final = some s2 ∧
    run sampleWorld 1 0 (.builtin .gensym [.atom "gensym"] 0) s2 = .ok (.atom b) s3 ∧ a ≠ b := by
  refine ⟨_, _, _, _, _, rfl, rfl, rfl, ?_⟩
  exact C37_two_calls sampleWorld 1 0 0 5 5 1 0 0 (initSt []) _ _ _ [] [.atom "gensym"] (.eval (form "def" [.atom "x", .num 1]) 0) _ _ (initSt_inv _)
    ⟨⟨trivial, ⟨trivial, ⟨trivial, trivial⟩⟩⟩, by decide⟩ rfl rfl rfl

example : ∃ s1, run sampleWorld 1 1 (.builtin .gensym [] 0) (initSt []) = .ok (.atom "<gensym-1>") s1 := ⟨_, rfl⟩

/-! ### C43 -/

/-- C43: no task, however it ends, removes or alters text that was printed before it started. -/
theorem C43_append_only (W : World) : Always W
    { post := fun _ s r => ∀ s', r.final = some s' → ∃ more, s'.out = s.out ++ more } := by
  refine always_of_watchOk W ⟨fun _ _ _ _ => trivial, ?_⟩
  intro t s r hs _ hr s' hf
  cases r <;> simp only [Res.final, Option.some.injEq, reduceCtorEq] at hf <;> subst hf <;>
    first | exact hr.2.1.out | exact hr.2.out | exact hr.2.2.out

theorem joinSp_eq (xs : List (List Char)) : joinSp xs = [' '].intercalate xs := by
  induction xs with
  | nil => rfl
  | cons x xs ih =>
    cases xs with
    | nil => simp [joinSp]
    | cons y ys => simp only [joinSp, ih]; simp [List.intercalate]

/-- C43: `print` and `println` append the printed forms of their arguments separated by one space (and a newline),
return `()` and do nothing else. -/
theorem C43_print (W : World) (n d e : Nat) (s : St) (args : List Val) :
    run W (n + 1) d (.builtin .print args e) s
      = .ok .nil { s with out := s.out ++ [' '].intercalate (args.map Val.str) } ∧
    run W (n + 1) d (.builtin .println args e) s
      = .ok .nil { s with out := s.out ++ ([' '].intercalate (args.map Val.str) ++ ['\n']) } := by
  rw [← joinSp_eq]; exact ⟨rfl, rfl⟩

/-- The printed elements of a proper list, separated by spaces. -/
theorem strAux_vlist (xs : List Val) : strAux true (vlist xs) = xs.flatMap (fun x => ' ' :: x.str) ++ [')'] := by
  induction xs with
  | nil => rfl
  | cons x xs ih =>
    simp only [vlist_cons, strAux, ih, List.flatMap_cons, Val.str, List.cons_append, List.append_assoc]

theorem str_vlist (xs : List Val) : (vlist xs).str = '(' :: ([' '].intercalate (xs.map Val.str) ++ [')']) := by
  cases xs with
  | nil => rfl
  | cons x xs =>
    have : ∀ xs : List Val, [' '].intercalate ((x :: xs).map Val.str) = x.str ++ xs.flatMap (fun x => ' ' :: x.str) := by
      intro xs
      induction xs generalizing x with
      | nil => simp
      | cons y ys ih =>
        have := ih y
        simp only [List.map_cons, List.flatMap_cons] at this ⊢
        rw [List.intercalate_cons_cons, this]; simp
    rw [this]
    simp [Val.str, strAux, strAux_vlist]

/-- C43: `printl` appends the elements of its list argument, separated by one space, and a newline. -/
theorem C43_printl (W : World) (n d e : Nat) (s : St) (xs : List Val) :
    run W (n + 1) d (.builtin .printl [vlist xs] e) s
      = .ok .nil { s with out := s.out ++ ([' '].intercalate (xs.map Val.str) ++ ['\n']) } := by
  have h : unwrap (vlist xs) = [' '].intercalate (xs.map Val.str) := by
    unfold unwrap; rw [str_vlist]; simp
  show (match [vlist xs] with
    | [v] => if v.isList then (do printM (unwrap v ++ ['\n']); pure .nil : M Val)
      else throwBase (fmt1 "expected list, got '" v "'")
    | _ => throwBase "missing argument") s = _
  simp only [isList_vlist, if_true, h]
  rfl

example : run sampleWorld 1 1 (.builtin .println [.atom "a", vlist [.num 1, .num 2]] 0) (initSt [])
    = .ok .nil { initSt [] with out := "a (1 2)\n".toList } := rfl

/-! ### C44 -/

/-- C44: an evaluation that ends with a value or an error (or a crash, or an exit) within some budgets ends in the same
way, with the same effects, with any larger ones. -/
theorem C44_budgets (W : World) (n d n' d' : Nat) (t : Task) (s : St) (hn : n ≤ n') (hd : d ≤ d')
    (h1 : run W n d t s ≠ .oof) (h2 : ∀ s', run W n d t s ≠ .overflow s') : run W n' d' t s = run W n d t s := by
  rcases run_mono W n n' d d' hn hd t s with h | h
  · cases hr : run W n d t s with
    | oof => exact absurd hr h1
    | overflow s' => exact absurd hr (h2 s')
    | _ => rw [hr] at h; exact h.elim
  · exact h.symm

example (n d : Nat) (hn : 5 ≤ n) (hd : 5 ≤ d) : run sampleWorld n d (.eval (vlist [.atom "+", .num 1, .num 2]) 0) (initSt []) = .ok (.num 3) (initSt []) :=
  (C44_budgets sampleWorld 5 5 n d _ _ hn hd (by rw [show run sampleWorld 5 5 (.eval (vlist [.atom "+", .num 1, .num 2]) 0) (initSt []) = .ok (.num 3) (initSt []) from rfl]; simp)
    (by intro s'; rw [show run sampleWorld 5 5 (.eval (vlist [.atom "+", .num 1, .num 2]) 0) (initSt []) = .ok (.num 3) (initSt []) from rfl]; simp)).trans rfl

/-- C44: more steps alone never change an outcome, not even a stack overflow. -/
theorem C44_steps (W : World) (n d n' : Nat) (t : Task) (s : St) (hn : n ≤ n') (h1 : run W n d t s ≠ .oof) :
    run W n' d t s = run W n d t s := by
  rcases run_fuel W n n' d hn t s with h | h
  · cases hr : run W n d t s with
    | oof => exact absurd hr h1
    | overflow s' => rw [hr] at h; cases h
    | _ => rw [hr] at h; exact h.elim
  · exact h.symm

/-- With depth 0 the stack overflows at once, whatever the number of steps allowed. -/
example (n : Nat) (hn : 5 ≤ n) : run sampleWorld n 0 (.eval (vlist [.atom "+", .num 1, .num 2]) 0) (initSt []) = .overflow (initSt []) :=
  (C44_steps sampleWorld 5 0 n _ _ hn (by rw [show run sampleWorld 5 0 (.eval (vlist [.atom "+", .num 1, .num 2]) 0) (initSt []) = .overflow (initSt []) from rfl]; simp)).trans rfl

example : run sampleWorld 5 5 (.eval (vlist [.atom "+", .num 1, .num 2]) 0) (initSt []) = .ok (.num 3) (initSt []) := rfl

end L1
