import Verif.Props.Functions
/-
C36: macros.
-/
set_option autoImplicit false
namespace L1

/-- One expansion: `(m x1 ... xk)` where `m` is bound to a macro with parameters `ps`, rest name `r` and body `body`.  The parameters are bound to the
expressions `x1 ... xk` themselves in a new scope inside the scope of the call; the body is evaluated there; the value of its last form (of `()` if
it is empty) is the expansion. -/
inductive MacroStep (W : World) (e : Nat) : Val → St → Val → St → Prop
  | mk {m : String} {xs ps body vs doc r cenv} {s sb s2 : St} :
    lookup s.heap e m = some (.lam ps r (vlist body) doc true cenv) → ArityOk ps r xs → NoT ps r →
    CallScope s sb e ps r xs → sb = callSt s e ps r xs → EvalsTo W s.heap.length body sb vs s2 →
    MacroStep W e (form m xs) s (vs.getLastD .nil) s2

theorem evBodyMacro_ok {W : World} {e : Nat} {xs vs : List Val} {ret : Val} {s s' : St} (h : EvalsTo W e xs s vs s') :
    evBodyMacro (perform W) e ret (vlist xs) s = .ok (vs.getLastD ret) s' := by
  induction h generalizing ret with
  | nil => rfl
  | @cons x v xs vs s s1 s2 h1 _ ih =>
    simp only [vlist_cons, evBodyMacro, perform_eval]
    rw [M.bind_ok (extend_ok h1), ih]
    cases vs <;> rfl

theorem isMacro_of {W : World} {e : Nat} {x y : Val} {s s2 : St} (h : MacroStep W e x s y s2) :
    isMacroCallIn (lookup s.heap e) x = true := by
  cases h with
  | mk hl _ _ _ _ _ => simp only [form, isMacroCallIn, hl]

/-- A state with the macro `(defmacro pick (a b) b)`. -/
def macroSt : St := { heap := [⟨[("pick", .lam ["a", "b"] "" (vlist [.atom "b"]) .nil true 0)], none⟩] }

/-- `(pick (undefined) x)` expands to `x`. -/
theorem macroSt_step (x : Val) : MacroStep sampleWorld 0 (form "pick" [form "undefined" [], x]) macroSt x (callSt macroSt 0 ["a", "b"] "" [form "undefined" [], x]) :=
  .mk (vs := [x]) (cenv := 0) (doc := .nil) rfl (by unfold ArityOk; simp) (by unfold NoT; simp) (callScope_callSt _ _ _ _ _) rfl
    (.cons (by rw [eval_eq]; rfl) .nil)

theorem mexpand1_of {W : World} {e : Nat} {x y : Val} {s s2 : St} (h : MacroStep W e x s y s2) :
    mexpand1 (perform W) x e s = .ok y s2 := by
  have hm := isMacro_of h
  cases h with
  | @mk m xs ps body vs doc r cenv s sb s2 hl ha ht _ hsb hb =>
    unfold mexpand1
    rw [M.bind_ok (isMacroCallM_run _ _ _), M.ite_pos hm]
    simp only [form]
    rw [M.bind_ok (lookupM_run _ _ _), hl]
    simp only [toList?_vlist]
    rw [M.bind_ok (newEnvM_run _ _), M.bind_ok (extend_ok (bindArgs_ok ha ht))]
    subst hsb
    exact evBodyMacro_ok hb

/-- C36: evaluating a macro call is evaluating its expansion, in the scope of the call. If the expansion is a macro call again it is expanded in
turn, and so on. -/
theorem C36_expansion (W : World) (e : Nat) (x y : Val) (s s2 : St) (h : MacroStep W e x s y s2) :
    eval W x e s = eval W y e s2 := by
  have h1 : perform W (.mexpand x e) s
      = if isMacroCallIn (lookup s2.heap e) y then perform W (.mexpand y e) s2 else .ok y s2 := by
    rw [perform_eq]
    show mexpandStep (perform W) (perform W) x e s = _
    unfold mexpandStep
    rw [M.bind_ok (extend_ok (mexpand1_of h)), M.bind_ok (isMacroCallM_run _ _ _)]
    by_cases hy : isMacroCallIn (lookup s2.heap e) y = true
    · rw [M.ite_pos hy, if_pos hy]
    · rw [M.ite_neg hy, if_neg hy]; rfl
  rw [eval_eq, evalStep_macro (isMacro_of h), eval_eq]
  by_cases hy : isMacroCallIn (lookup s2.heap e) y = true
  · rw [if_pos hy] at h1
    rw [evalStep_macro hy]
    rw [M.bind_run, M.bind_run]
    unfold extend
    rw [extendWith_run, extendWith_run, h1]
  · rw [if_neg hy] at h1
    rw [M.bind_ok (extend_ok h1), evalStep_notMacro (by simpa using hy)]

/-- `(pick (undefined) (+ 1 2))` is `(+ 1 2)`. -/
example : eval sampleWorld (form "pick" [form "undefined" [], form "+" [.num 1, .num 2]]) 0 macroSt
    = eval sampleWorld (form "+" [.num 1, .num 2]) 0 (callSt macroSt 0 ["a", "b"] "" [form "undefined" [], form "+" [.num 1, .num 2]]) :=
  C36_expansion _ _ _ _ _ _ (macroSt_step _)

/-- Repeated expansion. -/
inductive MacroSteps (W : World) (e : Nat) : Val → St → Val → St → Prop
  | refl {x : Val} {s : St} : MacroSteps W e x s x s
  | step {x y z : Val} {s s1 s2 : St} : MacroStep W e x s y s1 → MacroSteps W e y s1 z s2 → MacroSteps W e x s z s2

/-- C36: through any number of expansions. -/
theorem C36_repeated (W : World) (e : Nat) (x y : Val) (s s2 : St) (h : MacroSteps W e x s y s2) :
    eval W x e s = eval W y e s2 := by
  induction h with
  | refl => rfl
  | step h1 _ ih => rw [C36_expansion W e _ _ _ _ h1, ih]

/-- `(pick (undefined) (pick (undefined) 7))` expands twice. -/
example : ∃ s2, MacroSteps sampleWorld 0 (form "pick" [form "undefined" [], form "pick" [form "undefined" [], .num 7]]) macroSt (.num 7) s2 ∧
    eval sampleWorld (form "pick" [form "undefined" [], form "pick" [form "undefined" [], .num 7]]) 0 macroSt = eval sampleWorld (.num 7) 0 s2 := by
  have h : MacroSteps sampleWorld 0 (form "pick" [form "undefined" [], form "pick" [form "undefined" [], .num 7]]) macroSt (.num 7)
      (callSt (callSt macroSt 0 ["a", "b"] "" [form "undefined" [], form "pick" [form "undefined" [], .num 7]]) 0 ["a", "b"] "" [form "undefined" [], .num 7]) :=
    .step (macroSt_step _) (.step (.mk (vs := [.num 7]) (cenv := 0) (doc := .nil) rfl (by unfold ArityOk; simp) (by unfold NoT; simp) (callScope_callSt _ _ _ _ _) rfl
      (.cons (by rw [eval_eq]; rfl) .nil)) .refl)
  exact ⟨_, h, C36_repeated _ _ _ _ _ _ h⟩

/-- C36: the arguments are not evaluated: the outcome of a macro call whose body does not use them does not depend on them.  Here they may be
anything, including expressions that would fail or never end. -/
theorem C36_unevaluated (W : World) (e : Nat) (m : String) (x v : Val) (s : St) (p : String) (doc : Val) (cenv : Nat)
    (hl : lookup s.heap e m = some (.lam [p] "" (vlist [v]) doc true cenv)) (hp : p ≠ "t") (hv : ∃ k, v = .num k) :
    eval W (form m [x]) e s = .ok v (callSt s e [p] "" [x]) := by
  obtain ⟨k, rfl⟩ := hv
  have hs : MacroStep W e (form m [x]) s ([Val.num k].getLastD .nil) (callSt s e [p] "" [x]) :=
    .mk hl (by simp [ArityOk]) (by unfold NoT; simp [Ne.symm hp]) (callScope_callSt _ _ _ _ _) rfl (.cons (by rw [eval_eq]; rfl) .nil)
  rw [C36_expansion W e _ _ _ _ hs, eval_eq]
  rfl

/-- C36: a wrong number of arguments is an error. -/
theorem C36_arity (W : World) (e cenv : Nat) (m : String) (xs : List Val) (ps : List String) (r : String) (body doc : Val) (s : St)
    (hl : lookup s.heap e m = some (.lam ps r body doc true cenv)) (ha : ¬ ArityOk ps r xs) :
    ∃ v, eval W (form m xs) e s = .err (.list v) (deadScope s e) := by
  have hm : isMacroCallIn (lookup s.heap e) (form m xs) = true := by simp only [form, isMacroCallIn, hl]
  have h1 : mexpand1 (perform W) (form m xs) e s = .err (.list (.cons (msgList "setting macro call arguments") (vlist [msgList
      (if xs.length < ps.length then "not enough arguments for function" else "too many arguments for function")]))) (deadScope s e) := by
    unfold mexpand1
    rw [M.bind_ok (isMacroCallM_run _ _ _), M.ite_pos hm]
    simp only [form]
    rw [M.bind_ok (lookupM_run _ _ _), hl]
    simp only [toList?_vlist]
    rw [M.bind_ok (newEnvM_run _ _), M.bind_err (extend_err (bindArgs_arity ha))]
    rfl
  have h2 : ∃ v, perform W (.mexpand (form m xs) e) s = .err (.list v) (deadScope s e) := by
    rw [perform_eq]
    show ∃ v, mexpandStep (perform W) (perform W) _ e s = _
    unfold mexpandStep
    rw [M.bind_err (extend_err h1)]; exact ⟨_, rfl⟩
  obtain ⟨v, h2⟩ := h2
  rw [eval_eq, evalStep_macro hm, M.bind_err (extend_err h2)]
  exact ⟨_, rfl⟩

/-- `(pick 1)`. -/
example : ∃ v, eval sampleWorld (form "pick" [.num 1]) 0 macroSt = .err (.list v) (deadScope macroSt 0) :=
  C36_arity _ _ 0 _ _ ["a", "b"] "" (vlist [.atom "b"]) .nil _ rfl (by unfold ArityOk; simp)

/-- C36: an error while expanding is passed on; nothing is evaluated in the scope of the call. -/
theorem C36_error (W : World) (e cenv : Nat) (m : String) (xs before vs later : List Val) (x : Val) (er : Err) (ps : List String) (r : String) (doc : Val)
    (s sb s1 s2 : St) (hl : lookup s.heap e m = some (.lam ps r (vlist (before ++ x :: later)) doc true cenv)) (ha : ArityOk ps r xs) (ht : NoT ps r)
    (hsb : sb = callSt s e ps r xs) (hb : EvalsTo W s.heap.length before sb vs s1) (hx : eval W x s.heap.length s1 = .err er s2) :
    ∃ frames, eval W (form m xs) e s = .err (Err.underAll frames er) s2 := by
  have hm : isMacroCallIn (lookup s.heap e) (form m xs) = true := by simp only [form, isMacroCallIn, hl]
  have hbody : ∀ ret, evBodyMacro (perform W) s.heap.length ret (vlist (before ++ x :: later)) sb
      = .err (er.under (msgList "evaluating macro expansion")) s2 := by
    clear hsb hm hl
    generalize s.heap.length = w at hb hx
    induction hb with
    | nil =>
      intro ret
      simp only [List.nil_append, vlist_cons, evBodyMacro, perform_eval]
      rw [M.bind_err (extend_err hx), extendErr_under]
    | cons h1 _ ih =>
      intro ret
      simp only [List.cons_append, vlist_cons, evBodyMacro, perform_eval]
      rw [M.bind_ok (extend_ok h1)]; exact ih hx _
  have h1 : mexpand1 (perform W) (form m xs) e s = .err (er.under (msgList "evaluating macro expansion")) s2 := by
    unfold mexpand1
    rw [M.bind_ok (isMacroCallM_run _ _ _), M.ite_pos hm]
    simp only [form]
    rw [M.bind_ok (lookupM_run _ _ _), hl]
    simp only [toList?_vlist]
    rw [M.bind_ok (newEnvM_run _ _), M.bind_ok (extend_ok (bindArgs_ok ha ht)), ← hsb]
    exact hbody _
  have h2 : perform W (.mexpand (form m xs) e) s = .err ((er.under (msgList "evaluating macro expansion")).under (msgList "macroexpanson")) s2 := by
    rw [perform_eq]
    show mexpandStep (perform W) (perform W) _ e s = _
    unfold mexpandStep
    rw [M.bind_err (extend_err h1), extendErr_under]
  rw [eval_eq, evalStep_macro hm, M.bind_err (extend_err h2), extendErr_under]
  exact ⟨[_, _, _], rfl⟩

/-- A macro with the body `oops 1`. -/
example : ∃ frames s2, eval sampleWorld (form "bad" []) 0 { heap := [⟨[("bad", .lam [] "" (vlist [.atom "oops", .num 1]) .nil true 0)], none⟩] }
    = .err (Err.underAll frames (.list (vlist [msgList "unknown symbol: oops"]))) s2 :=
  have ⟨fr, h⟩ := C36_error sampleWorld 0 0 "bad" [] [] [] [.num 1] (.atom "oops") (.list (vlist [msgList "unknown symbol: oops"])) [] "" .nil
    { heap := [⟨[("bad", .lam [] "" (vlist [.atom "oops", .num 1]) .nil true 0)], none⟩] } _ _
    (callSt { heap := [⟨[("bad", .lam [] "" (vlist [.atom "oops", .num 1]) .nil true 0)], none⟩] } 0 [] "" []) rfl (by unfold ArityOk; simp) (by unfold NoT; simp) rfl .nil
    (by rw [eval_eq]; rfl)
  ⟨fr, _, h⟩

/-- C36: `macroexpand-1` returns the first expansion without evaluating it. -/
theorem C36_macroexpand1 (W : World) (e : Nat) (x y : Val) (s s2 : St) (h : MacroStep W e x s y s2) :
    perform W (.builtin .macroexpand1 [x] e) s = .ok y s2 := by
  rw [perform_eq]
  exact mexpand1_of h

example : perform sampleWorld (.builtin .macroexpand1 [form "pick" [form "undefined" [], .num 1]] 0) macroSt
    = .ok (.num 1) (callSt macroSt 0 ["a", "b"] "" [form "undefined" [], .num 1]) :=
  C36_macroexpand1 _ _ _ _ _ _ (macroSt_step _)

/-- C36: `macroexpand-1` of anything that is not a macro call returns it unchanged. -/
theorem C36_macroexpand1_other (W : World) (e : Nat) (x : Val) (s : St) (h : ∀ m d, x = .cons (.atom m) d → NotMacro s.heap e m) :
    perform W (.builtin .macroexpand1 [x] e) s = .ok x s := by
  have hm : isMacroCallIn (lookup s.heap e) x = false := by
    cases x with
    | cons a d =>
      cases a with
      | atom m => exact notMacro_isMacroCall (h m d rfl) _
      | _ => rfl
    | _ => rfl
  rw [perform_eq]
  show mexpand1 (perform W) x e s = _
  unfold mexpand1
  rw [M.bind_ok (isMacroCallM_run _ _ _), M.ite_neg (by simp [hm])]
  rfl

/-- `(macroexpand-1 (quote (+ 1 2)))`. -/
example : perform sampleWorld (.builtin .macroexpand1 [form "+" [.num 1, .num 2]] 0) (initSt []) = .ok (form "+" [.num 1, .num 2]) (initSt []) :=
  C36_macroexpand1_other _ _ _ _ fun _ _ _ => notMacro_init _ _

/-- `(defmacro five (x) 5)`, `(five (loop))`: the argument is not evaluated. -/
example : eval sampleWorld (form "five" [form "loop" []]) 0 { heap := [⟨[("five", .lam ["x"] "" (vlist [.num 5]) .nil true 0)], none⟩] }
    = .ok (.num 5) (callSt { heap := [⟨[("five", .lam ["x"] "" (vlist [.num 5]) .nil true 0)], none⟩] } 0 ["x"] "" [form "loop" []]) :=
  C36_unevaluated _ _ _ _ _ _ "x" .nil 0 rfl (by decide) ⟨5, rfl⟩

end L1
