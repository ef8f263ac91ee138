import Verif.Lemmas.CoreThen
import Verif.Lemmas.CoreLoad
import Verif.Lemmas.CoreTmpl
import Verif.Lemmas.CoreEnum
/-
C35, C38, C41: templates, c[ad]+r, and the control macros of the core library.  `CoreHere s.heap e`: the library is loaded and its names have their
original meaning at top level and in scope `e`.  `Quiet s s1`: nothing observable happened (the expansion of the macro).
-/
set_option autoImplicit false
namespace L1
variable {W : World} {s : St} {e : Nat}

theorem coreHere_loaded (s : St) : CoreHere (topSt s coreEnv).heap 0 := ⟨coreAt_loaded s, coreAt_loaded s⟩

/-! ### C41 -/

/-- (if c a b): `c` is evaluated first, once; then only `b` if its value is (), and else only `a`, in tail position. -/
theorem C41_if (h : CoreHere s.heap e) (c a b : Val) : ∃ s1, Quiet s s1 ∧
    eval W (form "if" [c, a, b]) e s = (eval W c e s1).andThen (msgList "evaluating cond condition") fun v s2 =>
      if v = .nil then eval W b e s2 else eval W a e s2 := by
  obtain ⟨s1, q1, e1⟩ := Becomes.if_ (W := W) (c := c) (a := a) (b := b) (.base h.2.base) (plain_of rfl) s (.refl _)
  exact ⟨s1, q1, e1.trans (eval_cond2 (.base (h.2.base.mono q1.heap)) rfl)⟩

/-- (if-not c a b): the same with the branches exchanged. -/
theorem C41_if_not (h : CoreHere s.heap e) (c a b : Val) : ∃ s1, Quiet s s1 ∧
    eval W (form "if-not" [c, a, b]) e s = ((eval W c e s1).andThen (msgList "evaluating function arguments") fun v s2 => .ok (if v = .nil then .atom "t" else .nil) s2).andThen
      (msgList "evaluating cond condition") fun v s2 => if v = .nil then eval W b e s2 else eval W a e s2 := by
  obtain ⟨s1, q1, e1⟩ := Becomes.ifNot (W := W) (c := c) (a := a) (b := b) (.base h.2.base) (plain_of rfl) s (.refl _)
  refine ⟨s1, q1, e1.trans ?_⟩
  rw [eval_cond2 (.base (h.2.base.mono q1.heap)) rfl, eval_not (.base (h.2.base.mono q1.heap)) rfl]

/-- In particular: with the condition () the first branch, else the second. -/
theorem C41_if_not_cases (h : CoreHere s.heap e) (c a b : Val) : ∃ s1, Quiet s s1 ∧
    (∀ v s2, eval W c e s1 = .ok v s2 → eval W (form "if-not" [c, a, b]) e s = if v = .nil then eval W a e s2 else eval W b e s2) := by
  obtain ⟨s1, q1, e1⟩ := C41_if_not (W := W) h c a b
  refine ⟨s1, q1, fun v s2 hv => ?_⟩
  rw [e1, hv]
  by_cases hn : v = .nil <;> simp [Res.andThen, hn]

/-- `(if-not () 1 2)`. -/
example (inp : List (List Char)) : ∃ s', eval W (form "if-not" [.nil, .num 1, .num 2]) 0 (topSt (initSt inp) coreEnv) = .ok (.num 1) s' := by
  obtain ⟨s1, _, e1⟩ := C41_if_not_cases (W := W) (coreHere_loaded (initSt inp)) .nil (.num 1) (.num 2)
  exact ⟨s1, (e1 .nil s1 (by rw [eval_eq]; rfl)).trans (by rw [if_pos rfl, eval_eq]; rfl)⟩

/-- (progn x ...): the expressions are evaluated in order in a new scope inside this one; the value is that of the last, () if there is none. -/
theorem C41_progn (h : CoreHere s.heap e) (xs : List Val) : ∃ s1, Quiet s s1 ∧
    eval W (form "progn" xs) e s = inOrder W s1.heap.length xs (withScope s1 e) := by
  obtain ⟨s1, q1, e1⟩ := Becomes.progn (W := W) (xs := xs) (.base h.2.base) (plain_of rfl) (.core h.1.base rfl) s (.refl _)
  refine ⟨s1, q1, e1.trans ?_⟩
  refine (eval_sform W .let_ (.nil :: xs) e s1 ((Sc.base (h.2.base.mono q1.heap)).notMacro_sf rfl known_let)).trans ?_
  refine (evLet_run (bs := .nil) (body := vlist xs) rfl (isList_vlist _) (s2 := withScope s1 e) rfl).trans ?_
  exact evBodyTail_sequence _ _ _ _

/-- `(progn 1 2)`. -/
example (inp : List (List Char)) : ∃ s', eval W (form "progn" [.num 1, .num 2]) 0 (topSt (initSt inp) coreEnv) = .ok (.num 2) s' := by
  obtain ⟨s1, _, e1⟩ := C41_progn (W := W) (coreHere_loaded (initSt inp)) [.num 1, .num 2]
  refine ⟨withScope s1 0, e1.trans ?_⟩
  have h : ∀ (n : Int) e s, eval W (.num n) e s = .ok (.num n) s := fun n e s => by rw [eval_eq]; rfl
  simp only [inOrder, sequence, h, Res.andThen]

/-- (when c x ...): () if the condition is (), without evaluating the rest; else as (progn x ...). -/
theorem C41_when (h : CoreHere s.heap e) (c : Val) (xs : List Val) : ∃ s1, Quiet s s1 ∧
    eval W (form "when" (c :: xs)) e s = (eval W c e s1).andThen (msgList "evaluating cond condition") fun v s2 =>
      if v = .nil then .ok .nil s2 else eval W (form "progn" xs) e s2 := by
  obtain ⟨s1, q1, e1⟩ := Becomes.when_ (W := W) (c := c) (xs := xs) (.base h.2.base) (plain_of rfl) (.core h.1.base rfl) s (.refl _)
  exact ⟨s1, q1, e1.trans (eval_cond1 (.base (h.2.base.mono q1.heap)) rfl)⟩

/-- The body of a `when` whose condition holds, if the condition does not change the library's names. -/
theorem C41_when_body (h : CoreHere s.heap e) (c : Val) (xs : List Val) : ∃ s1, Quiet s s1 ∧
    ∀ v s2, eval W c e s1 = .ok v s2 → v ≠ .nil → CoreHere s2.heap e → ∃ s3, Quiet s2 s3 ∧
      eval W (form "when" (c :: xs)) e s = inOrder W s3.heap.length xs (withScope s3 e) := by
  obtain ⟨s1, q1, e1⟩ := C41_when (W := W) h c xs
  refine ⟨s1, q1, fun v s2 hv hn h2 => ?_⟩
  obtain ⟨s3, q3, e3⟩ := C41_progn (W := W) h2 xs
  refine ⟨s3, q3, ?_⟩
  rw [e1, hv]
  simp only [Res.andThen, if_neg hn]
  exact e3

/-- `(when 7 1 2)`. -/
example (inp : List (List Char)) : ∃ s', eval W (form "when" [.num 7, .num 1, .num 2]) 0 (topSt (initSt inp) coreEnv) = .ok (.num 2) s' := by
  have h : ∀ (n : Int) e s, eval W (.num n) e s = .ok (.num n) s := fun n e s => by rw [eval_eq]; rfl
  obtain ⟨s1, q, e1⟩ := C41_when_body (W := W) (coreHere_loaded (initSt inp)) (.num 7) [.num 1, .num 2]
  obtain ⟨s3, _, e3⟩ := e1 (.num 7) s1 (h _ _ _) (by simp) ⟨(coreHere_loaded (initSt inp)).1.mono q.heap, (coreHere_loaded (initSt inp)).2.mono q.heap⟩
  refine ⟨withScope s3 0, e3.trans ?_⟩
  simp only [inOrder, sequence, h, Res.andThen]

/-- (when-not c x ...): the opposite. -/
theorem C41_when_not (h : CoreHere s.heap e) (c : Val) (xs : List Val) : ∃ s1, Quiet s s1 ∧
    eval W (form "when-not" (c :: xs)) e s = ((eval W c e s1).andThen (msgList "evaluating function arguments") fun v s2 => .ok (if v = .nil then .atom "t" else .nil) s2).andThen
      (msgList "evaluating cond condition") fun v s2 => if v = .nil then .ok .nil s2 else eval W (form "progn" xs) e s2 := by
  obtain ⟨s1, q1, e1⟩ := Becomes.whenNot (W := W) (c := c) (xs := xs) (.base h.2.base) (plain_of rfl) (.core h.1.base rfl) s (.refl _)
  obtain ⟨s2, q2, e2⟩ := Becomes.when_ (W := W) (c := vlist [.atom "not", c]) (xs := xs) (.base h.2.base) (plain_of rfl) (.core h.1.base rfl) s1 q1
  refine ⟨s2, q1.trans q2, e1.trans (e2.trans ?_)⟩
  have hb := Sc.base (h.2.base.mono (q1.trans q2).heap)
  rw [eval_cond1 hb rfl, eval_not hb rfl]
  rfl

/-- In particular: () if the condition has a value other than (). -/
theorem C41_when_not_cases (h : CoreHere s.heap e) (c : Val) (xs : List Val) : ∃ s1, Quiet s s1 ∧
    ∀ v s2, eval W c e s1 = .ok v s2 → eval W (form "when-not" (c :: xs)) e s = if v = .nil then eval W (form "progn" xs) e s2 else .ok .nil s2 := by
  obtain ⟨s1, q1, e1⟩ := C41_when_not (W := W) h c xs
  refine ⟨s1, q1, fun v s2 hv => ?_⟩
  rw [e1, hv]
  by_cases hn : v = .nil <;> simp [Res.andThen, hn]

/-- `(when-not 7 (undefined))`. -/
example (inp : List (List Char)) : ∃ s', eval W (form "when-not" [.num 7, form "undefined" []]) 0 (topSt (initSt inp) coreEnv) = .ok .nil s' := by
  obtain ⟨s1, q, e1⟩ := C41_when_not_cases (W := W) (coreHere_loaded (initSt inp)) (.num 7) [form "undefined" []]
  exact ⟨s1, (e1 (.num 7) s1 (by rw [eval_eq]; rfl)).trans (if_neg (by simp))⟩

/-- (foreach x xs body ...) is (map (lambda (x) body ...) xs). -/
theorem C41_foreach (h : CoreHere s.heap e) (x xs : Val) (body : List Val) : ∃ s1, Quiet s s1 ∧
    eval W (form "foreach" (x :: xs :: body)) e s = eval W (form "map" [form "lambda" (vlist [x] :: body), xs]) e s1 :=
  Becomes.foreach (.base h.2.base) (plain_of rfl) (.core h.1.base rfl) rfl s (.refl _)

/-- `(foreach x (quote (1 2)) (println x))`. -/
example (inp : List (List Char)) : ∃ s1, eval W (form "foreach" [.atom "x", form "quote" [vlist [.num 1, .num 2]], form "println" [.atom "x"]]) 0 (topSt (initSt inp) coreEnv)
    = eval W (form "map" [form "lambda" [vlist [.atom "x"], form "println" [.atom "x"]], form "quote" [vlist [.num 1, .num 2]]]) 0 s1 :=
  have ⟨s1, _, h⟩ := C41_foreach (W := W) (coreHere_loaded (initSt inp)) (.atom "x") (form "quote" [vlist [.num 1, .num 2]]) [form "println" [.atom "x"]]
  ⟨s1, h⟩

/-- (comment x ...) is (), whatever its arguments. -/
theorem C41_comment (h : CoreHere s.heap e) (xs : List Val) : ∃ s1, Quiet s s1 ∧ eval W (form "comment" xs) e s = .ok .nil s1 := by
  refine ⟨callSt s e [] "body" xs, (Quiet.refl s).grow (List.prefix_append _ _), ?_⟩
  have hst : MacroStep W e (form "comment" xs) s ([].getLastD .nil) (callSt s e [] "body" xs) :=
    .mk ((Sc.base h.2.base).lookup_known rfl known_comment) (Nat.zero_le _) (by decide) (callScope_callSt _ _ _ _ _) (body := []) rfl .nil
  refine (C36_expansion W e _ _ _ _ hst).trans ?_
  rw [eval_eq]; rfl

/-! ### C35 -/

/-- `T: each ~x replaced by the value of x, each ~@x by the elements of the value of x, all the values being found without effects. -/
theorem C35_template (h : CoreHere s.heap e) {T v : Val} (hf : Fill W s e T v) : ∃ s', eval W (form "syntax-quote" [T]) e s = .ok v s' ∧ Quiet s s' := by
  obtain ⟨c, h1, h2⟩ := hf.code h.1.base h.2.base
  exact G.template' (.base h.2.base) (plain_of rfl) h1 h2 s (.refl _)

/-- The same when the expressions have effects: these happen from left to right. -/
theorem C35_effects (h : CoreAt s.heap e) {T v : Val} {s' : St} (hf : FillE W e T s v s') : eval W (form "syntax-quote" [T]) e s = .ok v s' := by
  obtain ⟨c, h1, h2⟩ := hf.code
  refine (eval_sform W .syntaxQuote [T] e s ((Sc.base h.base).notMacro_sf rfl known_syntax_quote)).trans ?_
  show evSpecial (perform W) (perform W) .syntaxQuote (vlist [T]) e s = _
  simp only [evSpecial, vlist_cons, h1]
  exact h2

/-- The template `(a ~(def z 1))` is filled as `(a 1)`, and `z` is defined. -/
example (inp : List (List Char)) : ∃ s', eval W (form "syntax-quote" [vlist [.atom "a", vlist [.atom "unquote", form "def" [.atom "z", .num 1]]]]) 0 (topSt (initSt inp) coreEnv)
    = .ok (vlist [.atom "a", .num 1]) s' := by
  have h1 : eval W (form "def" [.atom "z", .num 1]) 0 (topSt (initSt inp) coreEnv)
      = .ok (.num 1) { topSt (initSt inp) coreEnv with heap := heapSet (topSt (initSt inp) coreEnv).heap 0 "z" (.num 1) } := by
    have hm : NotMacro (topSt (initSt inp) coreEnv).heap 0 "def" := topSt_notMacro rfl
    refine (eval_named W .def_ hm rfl).trans ?_
    simp only [evSpecial, vlist_cons, evDef]
    rw [M.bind_ok (extend_ok (show perform W (.eval (.num 1) 0) _ = .ok (.num 1) _ by rw [perform_eq]; rfl))]
    rfl
  exact ⟨_, C35_effects (coreAt_loaded _) (.list (by simp) (.cons (coreAt_loaded _) (by simp [isSplice]) (.atom (coreAt_loaded _))
    (.cons (coreAt_loaded _) (by simp [isSplice, vlist, mkList]) (.unquote h1) .nil)))⟩

/-! ### C38 -/

/-- The name `c`, the letters `p`, `r`. -/
def cxrName (p : List Char) : String := String.ofList ('c' :: p ++ ['r'])

/-- Calling it follows the letters from right to left, `a` taking the car and `d` the cdr; an error if that meets a value that is not a list. -/
theorem C38_cxr {p : List Char} (hp : ∀ c ∈ p, c = 'a' ∨ c = 'd') (hn : 2 ≤ p.length) {s0 : St} (hm : NotMacro s0.heap e (cxrName p)) {arg v : Val}
    (ha : eval W arg e s0 = .ok v s) (h : CoreHere s.heap e) :
    match follow p v with
    | some w => ∃ s', eval W (form (cxrName p) [arg]) e s0 = .ok w s' ∧ Quiet s s'
    | none => ∃ er s', eval W (form (cxrName p) [arg]) e s0 = .err (.list er) s' ∧ Quiet s s' := by
  have hx : isCxr (cxrName p) = true := by
    unfold isCxr cxrName
    simp only [String.toList_ofList, List.cons_append, List.getLast?_append, List.getLast?_singleton, Option.some_or, List.dropLast_concat, Bool.and_eq_true,
      decide_eq_true_eq, List.all_eq_true, Bool.or_eq_true]
    exact ⟨hn, hp⟩
  have hsp : specialOf (cxrName p) = none := by
    refine specialOf_none fun f hf => ?_
    have h2 : isCxr f.name = false := by cases f <;> decide
    rw [hf, h2] at hx
    cases hx
  have hh : CallHead s0.heap e (.atom (cxrName p)) := callHead_of hsp hm
  have hv : eval W (.atom (cxrName p)) e s0 = .ok (cxrLambda (cxrName p) e) s0 := by
    rw [eval_eq]
    show (if isCxr (cxrName p) = true then (pure (cxrLambda (cxrName p) e) : M Val) else evAtom (cxrName p) e) s0 = _
    rw [M.ite_pos hx]; rfl
  have key := ret_cxrLambda (W := W) hp h.1.base h.2.base v
  have hr := eval_reaches (xs := [arg]) hh ⟨s0, hv, .cons ha .nil⟩
  split
  · rename_i w hw
    obtain ⟨s', h3, h4⟩ := key.1 w hw s e (.refl _)
    exact ⟨s', hr.trans h3, h4⟩
  · rename_i hw
    obtain ⟨er, s', h3, h4⟩ := key.2 hw s e (.refl _)
    exact ⟨er, s', hr.trans h3, h4⟩

/-! ### The hypotheses are met -/

/-- After loading the library: (if () 1 2) at top level is 2. -/
example (inp : List (List Char)) : ∃ s', eval W (form "if" [.nil, .num 1, .num 2]) 0 (topSt (initSt inp) coreEnv) = .ok (.num 2) s' := by
  obtain ⟨s1, _, e1⟩ := C41_if (W := W) (coreHere_loaded (initSt inp)) .nil (.num 1) (.num 2)
  refine ⟨s1, e1.trans ?_⟩
  rw [show eval W .nil 0 s1 = .ok .nil s1 by rw [eval_eq]; rfl]
  show eval W (.num 2) 0 s1 = _
  rw [eval_eq]; rfl

/-- A condition that leaves the library as it is. -/
example (s1 : St) (h : CoreHere s1.heap 0) : ∃ v s2, eval W (.num 1) 0 s1 = .ok v s2 ∧ v ≠ .nil ∧ CoreHere s2.heap 0 :=
  ⟨.num 1, s1, by rw [eval_eq]; rfl, by simp, h⟩

/-- `(a ~1 ~@'(2 3) 4) is (a 1 2 3 4). -/
example (inp : List (List Char)) : Fill W (topSt (initSt inp) coreEnv) 0
    (vlist [.atom "a", vlist [.atom "unquote", .num 1], vlist [.atom "splicing-unquote", vlist [.atom "quote", vlist [.num 2, .num 3]]], .num 4])
    (vlist [.atom "a", .num 1, .num 2, .num 3, .num 4]) :=
  .list (by simp) (.cons (by simp [isSplice, vlist, mkList]) .atom (.cons (by simp [isSplice, vlist, mkList]) (.unquote (.num _ _ _))
    (.splice (us := [.num 2, .num 3]) (.quote (.base (coreAt_loaded _).base) rfl known_quote) (.cons (by simp [isSplice, vlist, mkList]) .num .nil))))

/-- (cadr '(1 2)) is 2; (caar '(1)) is an error. -/
example : follow ['a', 'd'] (vlist [.num 1, .num 2]) = some (.num 2) ∧ follow ['a', 'a'] (vlist [.num 1]) = none ∧ cxrName ['a', 'd'] = "cadr" := ⟨rfl, rfl, rfl⟩

example (inp : List (List Char)) : ∃ s', eval W (form "cadr" [vlist [.atom "quote", vlist [.num 1, .num 2]]]) 0 (topSt (initSt inp) coreEnv) = .ok (.num 2) s' := by
  obtain ⟨s', h, _⟩ := C38_cxr (W := W) (p := ['a', 'd']) (by decide) (by decide) (e := 0) (s0 := topSt (initSt inp) coreEnv) (topSt_notMacro rfl)
    (arg := vlist [.atom "quote", vlist [.num 1, .num 2]]) (v := vlist [.num 1, .num 2])
    ((eval_sform W .quote [vlist [.num 1, .num 2]] 0 _ (topSt_notMacro rfl)).trans rfl) (coreHere_loaded _)
  exact ⟨s', h⟩

end L1
