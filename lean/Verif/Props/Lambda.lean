import Verif.Props.Functions
/-
C73 (creating functions) and C24 (the scope a function keeps is the one it is created in).
-/
set_option autoImplicit false
namespace L1

theorem mkLambda_named {pl : Val} (hp : pl.isList = true) (rest : Val) (m : Bool) (e : Nat) :
    mkLambda (.cons pl rest) m e = mkLambdaNamed "" (.cons pl rest) m e := by
  cases pl with
  | atom a => cases hp
  | _ => rfl

/-- C73: `(lambda (params ...) body ...)` has the value: a function with exactly these parameters and body, without documentation, which keeps the scope
it is created in; there is no effect, in particular the body is not evaluated. -/
theorem C73_lambda (W : World) (ps : List String) (r : Option String) (body : List Val) (e : Nat) (s : St)
    (hm : NotMacro s.heap e "lambda") (hr : r ≠ some "") (hd : NoDoc body) :
    eval W (form "lambda" (paramList ps r :: body)) e s = .ok (.lam ps (restName r) (vlist body) .nil false e) s := by
  rw [eval_named W .lambda hm rfl]
  exact mkLambda_plain ps r hr body hd false e s

/-- `(lambda (a . more) (undefined))`. -/
example : eval sampleWorld (form "lambda" [paramList ["a"] (some "more"), form "undefined" []]) 0 (initSt [])
    = .ok (.lam ["a"] "more" (vlist [form "undefined" []]) .nil false 0) (initSt []) :=
  C73_lambda _ _ _ _ _ _ (notMacro_init _ _) (by simp) (by intro dd rest h; simp [form] at h)

/-- C73: a first body form `(doc d1 ... dn)` is documentation: it is kept as the list `(d1 ... dn)` (but `(doc ())` counts as no documentation) and is not
part of the body. -/
theorem C73_doc (W : World) (ps : List String) (r : Option String) (ds body : List Val) (e : Nat) (s : St)
    (hm : NotMacro s.heap e "lambda") (hr : r ≠ some "") :
    eval W (form "lambda" (paramList ps r :: form "doc" ds :: body)) e s
      = .ok (.lam ps (restName r) (vlist body) (if ds.head? = some .nil then .nil else vlist ds) false e) s := by
  rw [eval_named W .lambda hm rfl]
  show mkLambda (.cons (paramList ps r) (vlist (form "doc" ds :: body))) false e s = _
  obtain ⟨em, h1, h2, h3, -⟩ := parseParams_paramList ps r hr
  rw [mkLambda_named h3]
  simp only [mkLambdaNamed, h3, if_true, h1, h2, Bool.false_eq_true, if_false, isList_vlist]
  have hs : splitDoc (vlist (form "doc" ds :: body)) = pure (if ds.head? = some .nil then .nil else vlist ds, vlist body) := by
    rw [vlist_cons]
    simp only [splitDoc, form, isList_vlist, if_true]
    cases ds with
    | nil => rfl
    | cons d ds =>
      cases d with
      | nil => rfl
      | _ => rfl
  rw [hs]
  rfl

/-- `(lambda () (doc (says hello)) 1)`. -/
example : eval sampleWorld (form "lambda" [paramList [] none, form "doc" [vlist [.atom "says", .atom "hello"]], .num 1]) 0 (initSt [])
    = .ok (.lam [] "" (vlist [.num 1]) (vlist [vlist [.atom "says", .atom "hello"]]) false 0) (initSt []) :=
  C73_doc _ _ _ _ _ _ _ (notMacro_init _ _) (by simp)

/-- C73: `(lambda name (params ...) body ...)` moreover binds `name` to the function, in the scope the form is evaluated in (not in a scope of its own, and not
at the top level); every other binding of every scope is as before. -/
theorem C73_named (W : World) (x : String) (ps : List String) (r : Option String) (body : List Val) (e : Nat) (s : St)
    (hm : NotMacro s.heap e "lambda") (hr : r ≠ some "") (hd : NoDoc body) (hx : x ≠ "t") (hx' : x ≠ "") (he : e < s.heap.length) :
    ∃ h, eval W (form "lambda" (.atom x :: paramList ps r :: body)) e s = .ok (.lam ps (restName r) (vlist body) .nil false e) { s with heap := h } ∧
      OnlyBinding s.heap h e x (.lam ps (restName r) (vlist body) .nil false e) := by
  refine ⟨_, ?_, onlyBinding_heapSet he x _⟩
  rw [eval_named W .lambda hm rfl]
  show mkLambda (.cons (.atom x) (.cons (paramList ps r) (vlist body))) false e s = _
  obtain ⟨em, h1, h2, h3, -⟩ := parseParams_paramList ps r hr
  simp only [mkLambda]
  rw [M.ite_pos (show (Val.cons (paramList ps r) (vlist body)).isList = true from rfl)]
  simp only [mkLambdaNamed]
  rw [M.ite_pos h3, h1]
  dsimp only
  rw [M.ite_neg (by rw [h2]; decide), M.ite_pos (isList_vlist _), splitDoc_noDoc hd, M.pure_bind]
  dsimp only
  rw [M.ite_pos hx', M.bind_run, attempt_run]
  unfold setM
  rw [if_neg hx]
  rfl

/-- `(lambda f (x) (f x))`. -/
example : ∃ h, eval sampleWorld (form "lambda" [.atom "f", paramList ["x"] none, form "f" [.atom "x"]]) 0 (initSt [])
      = .ok (.lam ["x"] "" (vlist [form "f" [.atom "x"]]) .nil false 0) { initSt [] with heap := h } ∧
      OnlyBinding (initSt []).heap h 0 "f" (.lam ["x"] "" (vlist [form "f" [.atom "x"]]) .nil false 0) :=
  C73_named _ _ _ _ _ _ _ (notMacro_init _ _) (by simp) (by intro dd rest h; simp [form] at h) (by decide) (by decide) (by decide)

/-- C73: the name `t` is silently not bound. -/
theorem C73_named_t (W : World) (ps : List String) (r : Option String) (body : List Val) (e : Nat) (s : St)
    (hm : NotMacro s.heap e "lambda") (hr : r ≠ some "") (hd : NoDoc body) :
    eval W (form "lambda" (.atom "t" :: paramList ps r :: body)) e s = .ok (.lam ps (restName r) (vlist body) .nil false e) s := by
  rw [eval_named W .lambda hm rfl]
  show mkLambda (.cons (.atom "t") (.cons (paramList ps r) (vlist body))) false e s = _
  obtain ⟨em, h1, h2, h3, -⟩ := parseParams_paramList ps r hr
  simp only [mkLambda, isList_cons, if_true, mkLambdaNamed, h3, h1, h2, Bool.false_eq_true, if_false, isList_vlist, splitDoc_noDoc hd]
  rfl

/-- `(lambda t () 1)`. -/
example : eval sampleWorld (form "lambda" [.atom "t", paramList [] none, .num 1]) 0 (initSt [])
    = .ok (.lam [] "" (vlist [.num 1]) .nil false 0) (initSt []) :=
  C73_named_t _ _ _ _ _ _ (notMacro_init _ _) (by simp) (by intro dd rest h; cases h)

theorem older_call {h : Heap} {fr : Frame} {e : Nat} (ho : Older h) (he : e < h.length) (hp : fr.parent = some e) : Older (h ++ [fr]) := by
  intro i f hi p hpp
  by_cases hl : i < h.length
  · rw [List.getElem?_append_left hl] at hi; exact ho i f hi p hpp
  · have hlt := (List.getElem?_eq_some_iff.1 hi).1
    have : i = h.length := by simp at hlt; omega
    subst this
    simp at hi
    subst hi
    rw [hp] at hpp; injection hpp with hpp; omega

/-- C73: so the function can call itself: in the scope of a call of the function, its name is the function (unless a parameter has that name). -/
theorem C73_recursive (W : World) (x : String) (f : Val) (e : Nat) (ps : List String) (r : String) (vs : List Val) (s sb : St)
    (hb : bindingIn s.heap e x = some f) (hc : CallScope s sb e ps r vs) (hx : argFor ps r vs x = none) (ho : Older s.heap)
    (hxr : ¬ CxrName x) (ht : x ≠ "t") :
    eval W (.atom x) s.heap.length sb = .ok f sb := by
  obtain ⟨fr, rfl, hp, hf⟩ := hc
  have he : e < s.heap.length := by
    cases h : s.heap[e]? with
    | none => simp [bindingIn, h] at hb
    | some _ => exact (List.getElem?_eq_some_iff.1 h).1
  have ho' : Older (s.heap ++ [fr]) := older_call ho he hp
  have hlast : (s.heap ++ [fr])[s.heap.length]? = some fr := by simp
  obtain ⟨is, his⟩ := Chain.exists ho' e (by simp; omega)
  obtain ⟨is', rfl⟩ := his.head
  have hb' : bindingIn (s.heap ++ [fr]) e x = some f := by
    simpa [bindingIn, List.getElem?_append_left he] using hb
  exact C18_bound W x _ e f _ ho' ht hxr
    ⟨[s.heap.length], is', .step hlast hp his, by
      intro j hj
      rw [List.mem_singleton.1 hj]
      simp only [bindingIn, hlast, hf, hx], by rw [hb']; simp⟩ hb'

/-- The body of `f` in the example below sees `f` itself. -/
example : eval sampleWorld (.atom "f") 1 (callSt { heap := [⟨[("f", .lam ["x"] "" (vlist [form "f" [.atom "x"]]) .nil false 0)], none⟩] } 0 ["x"] "" [.num 7])
    = .ok (.lam ["x"] "" (vlist [form "f" [.atom "x"]]) .nil false 0)
      (callSt { heap := [⟨[("f", .lam ["x"] "" (vlist [form "f" [.atom "x"]]) .nil false 0)], none⟩] } 0 ["x"] "" [.num 7]) := by
  refine C73_recursive sampleWorld "f" _ 0 ["x"] "" [.num 7] { heap := [⟨[("f", .lam ["x"] "" (vlist [form "f" [.atom "x"]]) .nil false 0)], none⟩] } _
    rfl (callScope_callSt _ _ _ _ _) (by decide) ?_ (by rw [← isCxr_iff]; decide) (by decide)
  intro i f hi p hp
  rcases i with _ | i
  · simp at hi; subst hi; cases hp
  · simp at hi

theorem parseParams_shape : ∀ (pl : Val) (ps : List String) (r : String) (em : Bool), parseParams pl = .ok (ps, r, em) →
    (em = false ∧ (pl = paramList ps none ∨ ps ≠ [] ∧ pl = paramList ps (some r))) ∨ (em = true ∧ (r = "" ∨ pl = mkList (ps.map .atom ++ [.nil]) (.atom r)))
  | .nil, ps, r, em, h => by
    simp only [parseParams, Except.ok.injEq, Prod.mk.injEq] at h
    obtain ⟨rfl, rfl, rfl⟩ := h
    exact .inl ⟨rfl, .inl rfl⟩
  | .cons a d, ps, r, em, h => by
    cases a with
    | nil =>
      cases d with
      | atom r' =>
        simp only [parseParams, Except.ok.injEq, Prod.mk.injEq] at h
        obtain ⟨rfl, rfl, rfl⟩ := h
        exact .inr ⟨rfl, .inr rfl⟩
      | nil =>
        simp only [parseParams, Val.isList, if_true, Except.ok.injEq, Prod.mk.injEq] at h
        exact .inr ⟨h.2.2.symm, .inl h.2.1.symm⟩
      | cons x y =>
        simp only [parseParams, Val.isList, if_true, Except.ok.injEq, Prod.mk.injEq] at h
        exact .inr ⟨h.2.2.symm, .inl h.2.1.symm⟩
      | _ => simp [parseParams, Val.isList] at h
    | atom p =>
      have rec_ : ∀ d', d'.isList = true → parseParams (.cons (.atom p) d') = .ok (ps, r, em) → d' = d →
          ∃ ps', ps = p :: ps' ∧ parseParams d = .ok (ps', r, em) := by
        rintro d' hd' h' rfl
        have h2 : parseParams (.cons (.atom p) d') = (match parseParams d' with
          | .ok (ps, r, em) => .ok (p :: ps, r, em)
          | .error m => .error m) := by
          cases d' with
          | nil => rfl
          | cons x y => rw [parseParams, if_pos hd'] <;> first | rfl | (intro r hr; cases hr)
          | _ => cases hd'
        rw [h2] at h'
        cases hq : parseParams d' with
        | error m => rw [hq] at h'; cases h'
        | ok q =>
          obtain ⟨ps', r', em'⟩ := q
          rw [hq] at h'
          simp only [Except.ok.injEq, Prod.mk.injEq] at h'
          obtain ⟨rfl, rfl, rfl⟩ := h'
          exact ⟨ps', rfl, rfl⟩
      have fin : ∀ ps', ps = p :: ps' → parseParams d = .ok (ps', r, em) →
          (em = false ∧ (Val.cons (.atom p) d = paramList ps none ∨ ps ≠ [] ∧ Val.cons (.atom p) d = paramList ps (some r))) ∨
          (em = true ∧ (r = "" ∨ Val.cons (.atom p) d = mkList (ps.map .atom ++ [.nil]) (.atom r))) := by
        rintro ps' rfl hq
        rcases parseParams_shape d ps' r em hq with ⟨h1, h2 | ⟨h2, h3⟩⟩ | ⟨h1, h2 | h2⟩
        · exact .inl ⟨h1, .inl (by rw [h2]; rfl)⟩
        · refine .inl ⟨h1, .inr ⟨by simp, ?_⟩⟩
          rw [h3]
          cases ps' with
          | nil => exact absurd rfl h2
          | cons q qs => rfl
        · exact .inr ⟨h1, .inl h2⟩
        · exact .inr ⟨h1, .inr (by rw [h2]; rfl)⟩
      cases d with
      | atom r' =>
        simp only [parseParams, Except.ok.injEq, Prod.mk.injEq] at h
        obtain ⟨rfl, rfl, rfl⟩ := h
        exact .inl ⟨rfl, .inr ⟨by simp, rfl⟩⟩
      | nil => obtain ⟨ps', h1, h2⟩ := rec_ _ rfl h rfl; exact fin ps' h1 h2
      | cons x y => obtain ⟨ps', h1, h2⟩ := rec_ _ rfl h rfl; exact fin ps' h1 h2
      | _ => simp [parseParams, Val.isList] at h
    | _ => cases d <;> simp [parseParams] at h
  | .num _, _, _, _, h => by cases h
  | .atom _, _, _, _, h => by cases h
  | .lam .., _, _, _, h => by cases h
  | .bi _, _, _, _, h => by cases h

/-- C73: the argument list is a list of names, possibly followed by `()` and/or a dot and a rest name; a function with any other one is an error, whatever
the body, and nothing is bound. -/
theorem C73_bad_params (W : World) (pl : Val) (body : List Val) (e : Nat) (s : St) (hm : NotMacro s.heap e "lambda")
    (h1 : ∀ ps r, pl ≠ paramList ps r) (h2 : ∀ (ps : List String) r, pl ≠ mkList (ps.map .atom ++ [.nil]) (.atom r)) :
    (∀ x, ∃ er, eval W (form "lambda" (.atom x :: pl :: body)) e s = .err (.list er) s) ∧
    ((∀ x, pl ≠ .atom x) → ∃ er, eval W (form "lambda" (pl :: body)) e s = .err (.list er) s) := by
  have key : ∀ x, ∃ er, mkLambdaNamed x (.cons pl (vlist body)) false e s = .err (.list er) s := by
    intro x
    simp only [mkLambdaNamed]
    by_cases hl : pl.isList = true
    · rw [M.ite_pos hl]
      cases hq : parseParams pl with
      | error m => exact ⟨_, rfl⟩
      | ok q =>
        obtain ⟨ps, r, em⟩ := q
        dsimp only
        rcases parseParams_shape pl ps r em hq with ⟨-, h | ⟨-, h⟩⟩ | ⟨rfl, rfl | h⟩
        · exact absurd h (h1 _ _)
        · exact absurd h (h1 _ _)
        · exact ⟨_, rfl⟩
        · exact absurd h (h2 _ _)
    · rw [M.ite_neg hl]; exact ⟨_, rfl⟩
  constructor
  · intro x
    rw [eval_named W .lambda hm rfl]
    exact key x
  · intro hx
    rw [eval_named W .lambda hm rfl]
    show ∃ er, mkLambda (.cons pl (vlist body)) false e s = .err (.list er) s
    cases pl with
    | atom a => exact absurd rfl (hx a)
    | _ => exact key ""

/-- `(lambda (x 7) 1)`: one of the parameters is a number. -/
example : ∃ er, eval sampleWorld (form "lambda" [vlist [.atom "x", .num 7], .num 1]) 0 (initSt []) = .err (.list er) (initSt []) := by
  refine (C73_bad_params sampleWorld (vlist [.atom "x", .num 7]) [.num 1] 0 (initSt []) (notMacro_init _ _) ?_ ?_).2 (by simp [vlist, mkList])
  · intro ps r h
    rcases ps with _ | ⟨p, _ | ⟨q, ps⟩⟩ <;> rcases r with _ | r <;> simp [paramList, vlist, mkList] at h
  · intro ps r h
    rcases ps with _ | ⟨p, _ | ⟨q, ps⟩⟩ <;> simp [mkList, vlist] at h

/-- C73: a function without an argument list is an error. -/
theorem C73_missing (W : World) (e : Nat) (s : St) (hm : NotMacro s.heap e "lambda") (x : String) :
    eval W (form "lambda" []) e s = .err (.list (vlist [msgList "missing arguments"])) s ∧
    eval W (form "lambda" [.atom x]) e s = .err (.list (vlist [msgList "missing arguments"])) s := by
  rw [eval_named W .lambda hm rfl, eval_named W .lambda hm rfl]
  exact ⟨rfl, rfl⟩

example : eval sampleWorld (form "lambda" [.atom "f"]) 0 (initSt []) = .err (.list (vlist [msgList "missing arguments"])) (initSt []) :=
  (C73_missing _ _ _ (notMacro_init _ _) _).2

/-! ### C24 -/

/-- C24: a function written in scope `e` and called is evaluated in a new scope inside `e`: the names of `e` are visible in its body. -/
theorem C24_capture (W : World) (ps : List String) (r : Option String) (bs xs vs ws : List Val) (x : Val) (e : Nat) (s s1 : St)
    (hm : NotMacro s.heap e "lambda") (hr : r ≠ some "") (hd : NoDoc (bs ++ [x])) (h : EvalsTo W e xs s vs s1)
    (ha : ArityOk ps (restName r) vs) (ht : NoT ps (restName r)) :
    ∃ sb, CallScope s1 sb e ps (restName r) vs ∧
      ∀ s2, EvalsTo W s1.heap.length bs sb ws s2 →
        eval W (.cons (form "lambda" (paramList ps r :: (bs ++ [x]))) (vlist xs)) e s = eval W x s1.heap.length s2 := by
  obtain ⟨sb, h1, -, h2, -⟩ := C25_call W e e (form "lambda" (paramList ps r :: (bs ++ [x]))) xs vs ps (restName r) (vlist (bs ++ [x])) .nil false s s1
    trivial ⟨s, C73_lambda W ps r _ e s hm hr hd, h⟩ ha ht
  exact ⟨sb, h1, fun s2 hb => h2 bs x ws s2 rfl hb⟩

/-- `((lambda (a) x) 1)` in the inner scope of `lexState`, where `x` is 2, not 1 as at the top level. -/
example : ∃ s', eval sampleWorld (.cons (form "lambda" [paramList ["a"] none, .atom "x"]) (vlist [.num 1])) 1 lexState = .ok (.num 2) s' := by
  have hm : NotMacro lexState.heap 1 "lambda" := by
    intro ps r b dc env h; simp [lexState, lookup, lookupAux, alGet] at h
  obtain ⟨sb, ⟨f, rfl, hp, hf⟩, h⟩ := C24_capture sampleWorld ["a"] none [] [.num 1] [.num 1] [] (.atom "x") 1 lexState lexState hm (by simp)
    (by intro dd rest h; simp at h) (.cons (by rw [eval_eq]; rfl) .nil) (by unfold ArityOk; simp [restName]) (by unfold NoT; simp [restName])
  rw [List.nil_append] at h
  rw [h _ .nil, eval_atom _ _ _ _ (by rw [← isCxr_iff]; decide), evAtom_run (by decide)]
  have hfa : f = ⟨f.syms, some 1⟩ := by rw [← hp]
  have hx : lookup (lexState.heap ++ [f]) lexState.heap.length "x" = some (.num 2) := by
    rw [hfa]; simp [lookup, lookupAux, lexState, hf, argFor, restName, alGet]; rfl
  refine ⟨{ lexState with heap := lexState.heap ++ [f] }, ?_⟩
  dsimp only
  rw [hx]

end L1
