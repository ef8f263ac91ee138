import Verif.Spec.Names
import Verif.Lemmas.Laws
import Verif.Props.Control
/-
C18 (names), C20 (def), C21 (set!), C26 (let).  The vocabulary (`Chain`, `NearestIn`, `Unbound`, `OnlyBinding`) is in Verif/Spec/Scopes.lean.
-/
set_option autoImplicit false
namespace L1

/-! ### C18 -/

theorem isCxr_iff (a : String) : isCxr a = true ↔ CxrName a := by
  unfold isCxr CxrName
  constructor
  · intro h
    split at h
    · rename_i rest ha
      split at h
      · rename_i hr
        simp only [Bool.and_eq_true, decide_eq_true_eq, List.all_eq_true, Bool.or_eq_true] at h
        refine ⟨rest.dropLast, h.1, h.2, ?_⟩
        rw [ha]
        congr 1
        have hne : rest ≠ [] := by rintro rfl; simp at hr
        rw [List.getLast?_eq_some_getLast hne] at hr
        injection hr with hr
        rw [← hr, List.dropLast_concat_getLast]
      · cases h
    · cases h
  · rintro ⟨w, h1, h2, ha⟩
    rw [ha]
    simp only [List.getLast?_append, List.getLast?_singleton, Option.some_or, List.dropLast_concat, Bool.and_eq_true,
      decide_eq_true_eq, List.all_eq_true, Bool.or_eq_true]
    exact ⟨h1, h2⟩

theorem eval_atom (W : World) (a : String) (e : Nat) (s : St) (hc : ¬ CxrName a) :
    eval W (.atom a) e s = evAtom a e s := by
  rw [eval_eq, evalStep_notMacro rfl]
  have : isCxr a = false := by rw [← Bool.not_eq_true, isCxr_iff]; exact hc
  simp only [evExpr, this, Bool.false_eq_true, if_false]

theorem evAtom_run {a : String} {e : Nat} {s : St} (ht : a ≠ "t") :
    evAtom a e s = match lookup s.heap e a with
      | some v => .ok v s
      | none => match builtinOf a with
        | some b => .ok (.bi b) s
        | none => .err (.list (.cons (msgList ("unknown symbol: " ++ a)) .nil)) s := by
  unfold evAtom
  rw [M.ite_neg ht, M.bind_ok (lookupM_run _ _ _)]
  cases lookup s.heap e a with
  | some v => rfl
  | none => simp only []; cases builtinOf a <;> rfl

/-! Two states for the examples below. -/

theorem older_init (inp : List (List Char)) : Older (initSt inp).heap := by
  intro i f hf p hp
  cases i with
  | zero => simp [initSt, initGlobals] at hf; subst hf; cases hp
  | succ i => simp [initSt] at hf

theorem chain_init (inp : List (List Char)) : Chain (initSt inp).heap 0 [0] := .top (f := initGlobals) rfl rfl

/-- A state with a scope inside the top level. -/
def twoScopes : St := { initSt [] with heap := [initGlobals, ⟨[("x", .num 1)], some 0⟩] }

theorem twoScopes_older : Older twoScopes.heap := by
  intro i f hf p hp
  match i with
  | 0 => simp [twoScopes, initGlobals] at hf; subst hf; cases hp
  | 1 => simp [twoScopes] at hf; subst hf; injection hp with hp; omega
  | i + 2 => simp [twoScopes] at hf

theorem twoScopes_chain : Chain twoScopes.heap 1 [1, 0] := .step (f := ⟨[("x", .num 1)], some 0⟩) rfl rfl (.top (f := initGlobals) rfl rfl)

theorem twoScopes_notMacro (x : String) (h : alGet x [("x", Val.num 1)] = none) : NotMacro twoScopes.heap 1 x := by
  intro ps r b dc env hl
  refine notMacro_init [] x ps r b dc env ?_
  rw [← hl]
  simp only [lookup, twoScopes, initSt, lookupAux, List.getElem?_cons_zero, List.getElem?_cons_succ, h]

/-- C18: a name bound in some visible scope has the value the innermost such scope gives it. -/
theorem C18_bound (W : World) (a : String) (e i : Nat) (v : Val) (s : St) (ho : Older s.heap) (ht : a ≠ "t") (hc : ¬ CxrName a)
    (hn : NearestIn s.heap e a i) (hv : bindingIn s.heap i a = some v) : eval W (.atom a) e s = .ok v s := by
  rw [eval_atom W a e s hc, evAtom_run ht, lookup_nearest ho hn, hv]

/-- C18: a name bound in no visible scope means the native function of that name. -/
theorem C18_builtin (W : World) (b : BI) (e : Nat) (s : St) (ho : Older s.heap)
    (hu : Unbound s.heap e b.name) : eval W (.atom b.name) e s = .ok (.bi b) s := by
  have hc : ¬ CxrName b.name := by
    rw [← isCxr_iff]; cases b <;> decide
  rw [eval_atom W _ e s hc, evAtom_run (builtin_ne_t b), lookup_unbound ho hu, builtinOf_name]

/-- C18: any other name is an error which names it. -/
theorem C18_unknown (W : World) (a : String) (e : Nat) (s : St) (ho : Older s.heap) (ht : a ≠ "t") (hc : ¬ CxrName a)
    (hu : Unbound s.heap e a) (hb : ∀ b : BI, a ≠ b.name) :
    eval W (.atom a) e s = .err (.list (vlist [msgList ("unknown symbol: " ++ a)])) s := by
  have : builtinOf a = none := by
    unfold builtinOf
    rw [List.find?_eq_none]
    intro b _
    simp only [beq_iff_eq]
    exact fun h => hb b h.symm
  rw [eval_atom W _ e s hc, evAtom_run ht, lookup_unbound ho hu, this]; rfl

example : eval sampleWorld (.atom "zork") 0 (initSt []) = .err (.list (vlist [msgList "unknown symbol: zork"])) (initSt []) :=
  C18_unknown _ _ _ _ (older_init _) (by decide) (by rw [← isCxr_iff]; decide) ⟨[0], chain_init _, by simp [bindingIn, initSt, initGlobals, alGet]⟩
    (by intro b; cases b <;> decide)

/-- C18: these are all cases: from an existing scope a name is either unbound or has exactly one nearest binding. -/
theorem C18_cases (h : Heap) (ho : Older h) (e : Nat) (he : e < h.length) (a : String) :
    (Unbound h e a ∧ ∀ i, ¬ NearestIn h e a i) ∨ (¬ Unbound h e a ∧ ∃ i, NearestIn h e a i ∧ ∀ j, NearestIn h e a j → j = i) := by
  cases hw : owner h e a with
  | none =>
    refine .inl ⟨(owner_none_iff ho he).1 hw, fun i hi => ?_⟩
    rw [(owner_iff ho he).2 hi] at hw; cases hw
  | some i =>
    refine .inr ⟨fun hu => ?_, i, (owner_iff ho he).1 hw, fun j hj => ?_⟩
    · rw [(owner_none_iff ho he).2 hu] at hw; cases hw
    · rw [(owner_iff ho he).2 hj] at hw; injection hw

example : (Unbound twoScopes.heap 1 "x" ∧ ∀ i, ¬ NearestIn twoScopes.heap 1 "x" i) ∨
    (¬ Unbound twoScopes.heap 1 "x" ∧ ∃ i, NearestIn twoScopes.heap 1 "x" i ∧ ∀ j, NearestIn twoScopes.heap 1 "x" j → j = i) :=
  C18_cases _ twoScopes_older _ (by decide) _

/-- C18: the precondition `Older` of these theorems, and the existence of the scope evaluated in, hold at every point of every execution. -/
theorem C18_always (W : World) : Always W
    { pre := fun t s => Older s.heap ∧ ∀ x e, t = .eval x e → e < s.heap.length } := by
  refine always_of_watchOk W ⟨fun t s hs ht => ⟨hs.heap.older, ?_⟩, fun _ _ _ _ _ _ => trivial⟩
  rintro x e rfl
  exact ht.2

example : eval sampleWorld (.atom "BANG") 0 (initSt []) = .ok (.atom "!") (initSt []) :=
  C18_bound _ _ _ 0 _ _ (older_init _) (by decide) (by rw [← isCxr_iff]; decide)
    ⟨[], [], chain_init _, by simp, by simp [bindingIn, initSt, initGlobals, alGet]⟩ (by rfl)
example : eval sampleWorld (.atom "car") 0 (initSt []) = .ok (.bi .car) (initSt []) :=
  C18_builtin _ .car _ _ (older_init _) ⟨[0], chain_init _, by simp [bindingIn, initSt, initGlobals, alGet, BI.name]⟩

/-! ### C20 -/

/-- The top-level scope as seen from `e`: the outermost one. -/
def TopOf (h : Heap) (e top : Nat) : Prop := ∃ is, Chain h e is ∧ is.getLast? = some top

theorem root_of_top {h : Heap} (ho : Older h) {e top : Nat} (ht : TopOf h e top) : root h e = top := by
  obtain ⟨is, hc, hl⟩ := ht
  have := rootAux_chain ho hc (e + 1) (by omega)
  rw [hl] at this
  injection this

theorem Chain.mem_lt {h : Heap} {e : Nat} {is : List Nat} (hc : Chain h e is) : ∀ i ∈ is, i < h.length := by
  induction hc with
  | top hf _ => intro i hi; simp at hi; subst hi; exact (List.getElem?_eq_some_iff.1 hf).1
  | step hf _ _ ih =>
    intro i hi
    rcases List.mem_cons.1 hi with rfl | hi
    · exact (List.getElem?_eq_some_iff.1 hf).1
    · exact ih i hi

theorem TopOf.lt {h : Heap} {e top : Nat} (ht : TopOf h e top) : top < h.length := by
  obtain ⟨is, hc, hl⟩ := ht
  exact hc.mem_lt top (List.mem_of_getLast? hl)

/-- C20: `(def x ex)`, evaluated in any scope, gives the value of `ex`; the only thing that changes is that the top-level scope
now binds `x` to it. -/
theorem C20_def (W : World) (x : String) (ex v : Val) (e top : Nat) (s s1 : St) (hm : NotMacro s.heap e "def")
    (hx : eval W ex e s = .ok v s1) (hne : x ≠ "t") (ho : Older s1.heap) (ht : TopOf s1.heap e top) :
    ∃ h, eval W (form "def" [.atom x, ex]) e s = .ok v { s1 with heap := h } ∧ OnlyBinding s1.heap h top x v := by
  refine ⟨_, ?_, onlyBinding_heapSet ht.lt x v⟩
  rw [eval_named W .def_ hm rfl]
  simp only [evSpecial, vlist_cons, evDef, perform_eval]
  rw [M.bind_ok (extend_ok hx)]
  have hset : setTopM e x v s1 = .ok () { s1 with heap := heapSet s1.heap top x v } := by
    unfold setTopM setM
    rw [root_of_top ho ht]; exact if_neg hne
  rw [M.bind_ok (extend_ok hset)]; rfl

/-- C20: if the expression fails, `def` fails with one frame in front, and defines nothing. -/
theorem C20_def_error (W : World) (x : String) (ex : Val) (er : Err) (e : Nat) (s s1 : St) (hm : NotMacro s.heap e "def")
    (hx : eval W ex e s = .err er s1) :
    eval W (form "def" [.atom x, ex]) e s = .err (er.under (msgList "evaluating def value")) s1 := by
  rw [eval_named W .def_ hm rfl]
  simp only [evSpecial, vlist_cons, evDef, perform_eval]
  rw [M.bind_err (extend_err hx), extendErr_under]

example : eval sampleWorld (form "def" [.atom "x", .atom "zork"]) 1 twoScopes
    = .err (.list (vlist [msgList "evaluating def value", msgList "unknown symbol: zork"])) twoScopes :=
  C20_def_error _ _ _ (.list (vlist [msgList "unknown symbol: zork"])) _ _ _ (twoScopes_notMacro _ (by decide)) (by rw [eval_eq]; rfl)

theorem parseParams_rest (p : String) (ps : List String) (r : String) :
    parseParams (mkList ((p :: ps).map .atom) (.atom r)) = .ok (p :: ps, r, false) := by
  induction ps generalizing p with
  | nil => rfl
  | cons q ps ih =>
    have := ih q
    simp only [List.map_cons, mkList, List.foldr] at this ⊢
    simp only [parseParams, isList_cons, if_true] at this ⊢
    rw [this]

theorem parseParams_paramList (ps : List String) (r : Option String) (hr : r ≠ some "") :
    ∃ em, parseParams (paramList ps r) = .ok (ps, restName r, em) ∧ (em && restName r == "") = false ∧
      (paramList ps r).isList = true ∧ ∀ a, paramList ps r ≠ .atom a := by
  cases r with
  | none =>
    exact ⟨false, parseParams_names ps, rfl, isList_vlist _, by cases ps <;> simp [paramList]⟩
  | some r =>
    cases ps with
    | nil =>
      refine ⟨true, rfl, ?_, rfl, by simp [paramList]⟩
      simp only [restName, Bool.true_and, beq_eq_false_iff_ne, ne_eq]
      rintro rfl; exact hr rfl
    | cons p ps => exact ⟨false, parseParams_rest p ps r, rfl, rfl, by simp [paramList, mkList]⟩

theorem splitDoc_noDoc {body : List Val} (hd : NoDoc body) : splitDoc (vlist body) = pure (.nil, vlist body) := by
  cases body with
  | nil => rfl
  | cons a as =>
    unfold splitDoc
    split
    · rename_i dd rest h
      injection h with h1 h2
      exact absurd (by rw [h1]) (hd dd as)
    · rfl

theorem mkLambda_plain (ps : List String) (r : Option String) (hr : r ≠ some "") (body : List Val) (hd : NoDoc body) (m : Bool)
    (e : Nat) (s : St) :
    mkLambda (.cons (paramList ps r) (vlist body)) m e s = .ok (.lam ps (restName r) (vlist body) .nil m e) s := by
  obtain ⟨em, h1, h2, h3, h4⟩ := parseParams_paramList ps r hr
  have hk : mkLambda (.cons (paramList ps r) (vlist body)) m e = mkLambdaNamed "" (.cons (paramList ps r) (vlist body)) m e := by
    cases hp : paramList ps r with
    | atom a => exact absurd hp (h4 a)
    | _ => rfl
  rw [hk]
  simp only [mkLambdaNamed, h3, if_true, h1, h2, Bool.false_eq_true, if_false, isList_vlist, splitDoc_noDoc hd]
  rfl

theorem evDefn_ok (m : Bool) (x : String) (ps : List String) (r : Option String) (body : List Val) (e top : Nat) (s : St)
    (hr : r ≠ some "") (hd : NoDoc body) (hne : x ≠ "t") (ho : Older s.heap) (ht : TopOf s.heap e top) :
    evDefn m e (.cons (.atom x) (.cons (paramList ps r) (vlist body))) s
      = .ok .nil { s with heap := heapSet s.heap top x (.lam ps (restName r) (vlist body) .nil m e) } := by
  have hset : ∀ v, setTopM e x v s = .ok () { s with heap := heapSet s.heap top x v } := by
    intro v
    unfold setTopM setM
    rw [root_of_top ho ht]; exact if_neg hne
  simp only [evDefn]
  rw [M.bind_ok (extend_ok (mkLambda_plain ps r hr body hd m e s)), M.bind_ok (extend_ok (hset _))]
  rfl

/-- C20: `(defn x (params ...) body ...)`, evaluated in any scope `e`, changes exactly one binding: `x` in the top-level scope is
now a function with these parameters and body, created in `e`. -/
theorem C20_defn (W : World) (x : String) (ps : List String) (r : Option String) (body : List Val) (e top : Nat) (s : St)
    (hm : NotMacro s.heap e "defn") (hr : r ≠ some "") (hd : NoDoc body) (hne : x ≠ "t") (ho : Older s.heap) (ht : TopOf s.heap e top) :
    ∃ h, eval W (form "defn" (.atom x :: paramList ps r :: body)) e s = .ok .nil { s with heap := h } ∧
      OnlyBinding s.heap h top x (.lam ps (restName r) (vlist body) .nil false e) := by
  refine ⟨_, ?_, onlyBinding_heapSet ht.lt x _⟩
  rw [eval_named W .defn hm rfl]
  exact evDefn_ok false x ps r body e top s hr hd hne ho ht

/-- `(defn f (x . r) x)` inside a scope. -/
example := C20_defn sampleWorld "f" ["x"] (some "r") [.atom "x"] 1 0 twoScopes (twoScopes_notMacro _ (by decide)) (by decide) (by unfold NoDoc; simp) (by decide)
  twoScopes_older ⟨_, twoScopes_chain, rfl⟩

/-- C20: likewise `defmacro`, with a macro. -/
theorem C20_defmacro (W : World) (x : String) (ps : List String) (r : Option String) (body : List Val) (e top : Nat) (s : St)
    (hm : NotMacro s.heap e "defmacro") (hr : r ≠ some "") (hd : NoDoc body) (hne : x ≠ "t") (ho : Older s.heap) (ht : TopOf s.heap e top) :
    ∃ h, eval W (form "defmacro" (.atom x :: paramList ps r :: body)) e s = .ok .nil { s with heap := h } ∧
      OnlyBinding s.heap h top x (.lam ps (restName r) (vlist body) .nil true e) := by
  refine ⟨_, ?_, onlyBinding_heapSet ht.lt x _⟩
  rw [eval_named W .defmacro hm rfl]
  exact evDefn_ok true x ps r body e top s hr hd hne ho ht

example := C20_defmacro sampleWorld "f" ["x"] (some "r") [.atom "x"] 1 0 twoScopes (twoScopes_notMacro _ (by decide)) (by decide) (by unfold NoDoc; simp) (by decide)
  twoScopes_older ⟨_, twoScopes_chain, rfl⟩

/-- C20: there is one top-level scope: at every point of every execution, scope number 0 is the outermost of every existing scope. -/
theorem C20_one_top (W : World) : Always W { pre := fun _ s => ∀ e < s.heap.length, TopOf s.heap e 0 } := by
  refine always_of_watchOk W ⟨fun t s hs _ e he => ?_, fun _ _ _ _ _ _ => trivial⟩
  obtain ⟨is, hc⟩ := Chain.exists hs.heap.older e he
  refine ⟨is, hc, ?_⟩
  have h1 := rootAux_chain hs.heap.older hc (e + 1) (by omega)
  rw [← h1]
  exact congrArg some (root_zero hs.heap he)

/-- `(def x 5)` inside a scope that has its own `x` defines the global `x`. -/
example : ∃ h, eval sampleWorld (form "def" [.atom "x", .num 5]) 1 twoScopes = .ok (.num 5) { twoScopes with heap := h } ∧
    OnlyBinding twoScopes.heap h 0 "x" (.num 5) :=
  C20_def _ _ _ _ _ _ _ _ (twoScopes_notMacro _ (by decide)) (by rw [eval_eq]; rfl) (by decide) twoScopes_older
    ⟨_, twoScopes_chain, rfl⟩

/-! ### C21 -/

/-- C21: `(set! x ex)` gives the value of `ex`; the only thing that changes is the binding of `x` in the nearest enclosing scope
that has one (after `ex` has been evaluated). -/
theorem C21_set (W : World) (x : String) (ex v : Val) (e i : Nat) (s s1 : St) (hm : NotMacro s.heap e "set!")
    (hx : eval W ex e s = .ok v s1) (hne : x ≠ "t") (ho : Older s1.heap) (he : e < s1.heap.length) (hn : NearestIn s1.heap e x i) :
    ∃ h, eval W (form "set!" [.atom x, ex]) e s = .ok v { s1 with heap := h } ∧ OnlyBinding s1.heap h i x v := by
  have hi : i < s1.heap.length := by
    obtain ⟨inner, outer, hc, _, _⟩ := hn
    exact hc.mem_lt i (by simp)
  refine ⟨_, ?_, onlyBinding_heapSet hi x v⟩
  rw [eval_named W .set hm rfl]
  simp only [evSpecial, vlist_cons, evSet, perform_eval]
  rw [M.bind_ok (extend_ok hx)]
  have hset : updateM e x v s1 = .ok () { s1 with heap := heapSet s1.heap i x v } := by
    unfold updateM
    rw [(owner_iff ho he).2 hn]; exact if_neg hne
  rw [M.bind_ok (extend_ok hset)]; rfl

/-- C21: if no visible scope binds `x`, `set!` is an error and creates no binding: the state is the one after evaluating `ex`. -/
theorem C21_unbound (W : World) (x : String) (ex v : Val) (e : Nat) (s s1 : St) (hm : NotMacro s.heap e "set!")
    (hx : eval W ex e s = .ok v s1) (hne : x ≠ "t") (ho : Older s1.heap) (he : e < s1.heap.length) (hn : Unbound s1.heap e x) :
    eval W (form "set!" [.atom x, ex]) e s
      = .err (.list (vlist [msgList "updating set result", msgList (x ++ " is not bound in any environment")])) s1 := by
  rw [eval_named W .set hm rfl]
  simp only [evSpecial, vlist_cons, evSet, perform_eval]
  rw [M.bind_ok (extend_ok hx)]
  have hset : updateM e x v s1 = .err (.list (vlist [msgList (x ++ " is not bound in any environment")])) s1 := by
    unfold updateM
    rw [if_neg hne, (owner_none_iff ho he).2 hn]; rfl
  rw [M.bind_err (extend_err hset)]; rfl

theorem Chain.same {h h' : Heap} (hp : ∀ j : Nat, (h'[j]?).map Frame.parent = (h[j]?).map Frame.parent) {e : Nat} {is : List Nat}
    (hc : Chain h e is) : Chain h' e is := by
  induction hc with
  | @top e f hf hpar =>
    have := hp e
    rw [hf] at this
    simp only [Option.map_some, Option.map_eq_some_iff] at this
    obtain ⟨f', hf', hh⟩ := this
    exact .top hf' (hh.trans hpar)
  | @step e p f is hf hpar _ ih =>
    have := hp e
    rw [hf] at this
    simp only [Option.map_some, Option.map_eq_some_iff] at this
    obtain ⟨f', hf', hh⟩ := this
    exact .step hf' (hh.trans hpar) ih

theorem OnlyBinding.nearest {h h' : Heap} {i : Nat} {x : String} {v : Val} (hb : OnlyBinding h h' i x v) {e' : Nat}
    (hn : NearestIn h e' x i) : NearestIn h' e' x i := by
  obtain ⟨inner, outer, hc, h2, h3⟩ := hn
  refine ⟨inner, outer, hc.same hb.parents, fun j hj => ?_, by rw [hb.here]; simp⟩
  rw [hb.others j x (by rintro ⟨rfl, _⟩; exact h3 (h2 j hj))]
  exact h2 j hj

theorem OnlyBinding.older {h h' : Heap} {i : Nat} {x : String} {v : Val} (hb : OnlyBinding h h' i x v) (ho : Older h) : Older h' := by
  intro j f hf p hp
  have := hb.parents j
  rw [hf] at this
  simp only [Option.map_some] at this
  obtain ⟨f', hf', hh⟩ := Option.map_eq_some_iff.1 this.symm
  exact ho j f' hf' p (hh.trans hp)

/-- C21: the new value is seen from every scope whose nearest binding of `x` is that one, in particular by every function
created inside the scope. -/
theorem C21_visible (W : World) (x : String) (v : Val) (e' i : Nat) (s1 : St) (h : Heap) (ho : Older s1.heap)
    (hb : OnlyBinding s1.heap h i x v) (hn : NearestIn s1.heap e' x i) (ht : x ≠ "t") (hc : ¬ CxrName x) :
    eval W (.atom x) e' { s1 with heap := h } = .ok v { s1 with heap := h } :=
  C18_bound W x e' i v _ (hb.older ho) ht hc (hb.nearest hn) hb.here

/-- The inner `x` is set; the scope that sees it sees the new value. -/
example : ∃ h, OnlyBinding twoScopes.heap h 1 "x" (.num 5) ∧ eval sampleWorld (.atom "x") 1 { twoScopes with heap := h } = .ok (.num 5) { twoScopes with heap := h } := by
  refine ⟨_, onlyBinding_heapSet (by decide) _ _, C21_visible _ _ _ _ 1 twoScopes _ twoScopes_older (onlyBinding_heapSet (by decide) _ _)
    ⟨[], [0], twoScopes_chain, by simp, by simp [bindingIn, twoScopes, alGet]⟩ (by decide) (by rw [← isCxr_iff]; decide)⟩

/-- `(set! x 5)` inside a scope with its own `x` changes that one. -/
example : ∃ h, eval sampleWorld (form "set!" [.atom "x", .num 5]) 1 twoScopes = .ok (.num 5) { twoScopes with heap := h } ∧
    OnlyBinding twoScopes.heap h 1 "x" (.num 5) :=
  C21_set _ _ _ _ _ _ _ _ (twoScopes_notMacro _ (by decide)) (by rw [eval_eq]; rfl) (by decide) twoScopes_older (by decide)
    ⟨[], [0], twoScopes_chain, by simp, by simp [bindingIn, twoScopes, alGet]⟩

example : eval sampleWorld (form "set!" [.atom "y", .num 5]) 1 twoScopes
    = .err (.list (vlist [msgList "updating set result", msgList "y is not bound in any environment"])) twoScopes :=
  C21_unbound _ _ _ _ _ _ _ (twoScopes_notMacro _ (by decide)) (by rw [eval_eq]; rfl) (by decide) twoScopes_older (by decide)
    ⟨_, twoScopes_chain, by decide⟩

/-! ### C26 -/

/-- `LetBinds W e ne bs s s'`: the binding expressions `bs` are evaluated one after the other, each in the enclosing scope `e`, and
each value is bound in the scope `ne`, nothing else changing. -/
inductive LetBinds (W : World) (e ne : Nat) : List (String × Val) → St → St → Prop
  | nil {s : St} : LetBinds W e ne [] s s
  | cons {x : String} {ex v : Val} {bs : List (String × Val)} {s s1 s2 : St} {h : Heap} :
    eval W ex e s = .ok v s1 → x ≠ "t" → OnlyBinding s1.heap h ne x v → h = heapSet s1.heap ne x v →
    LetBinds W e ne bs { s1 with heap := h } s2 → LetBinds W e ne ((x, ex) :: bs) s s2

/-- The bindings as written: `((x1 e1) (x2 e2) ...)`. -/
def letBindings (bs : List (String × Val)) : Val := vlist (bs.map fun b => vlist [.atom b.1, b.2])

/-- The state after creating an empty scope inside `e`. -/
def newScope (s : St) (e : Nat) : St := { s with heap := s.heap ++ [⟨[], some e⟩] }

theorem evLetBinds_ok {W : World} {e ne : Nat} {bs : List (String × Val)} {s s' : St} (h : LetBinds W e ne bs s s') :
    evLetBinds (perform W) e ne (letBindings bs) s = .ok true s' := by
  induction h with
  | nil => rfl
  | @cons x ex v bs s s1 s2 h h1 hne _ hh _ ih =>
    refine Eq.trans ?_ ih
    simp only [letBindings, List.map_cons, vlist_cons, evLetBinds, perform_eval]
    rw [M.bind_ok (extend_ok h1)]
    have hset : setM ne x v s1 = .ok () { s1 with heap := h } := by
      unfold setM; rw [if_neg hne, hh]
    rw [M.bind_ok (extend_ok hset)]

theorem newEnvM_newScope (e : Nat) (s : St) : newEnvM e s = .ok s.heap.length (newScope s e) := rfl

/-- C26: `let` creates a scope inside the current one, evaluates the binding expressions in the current scope and binds their
values in the new one, then evaluates the body in the new scope; the last form in tail position. -/
theorem C26_let (W : World) (bs : List (String × Val)) (body vs : List Val) (x : Val) (e : Nat) (s s1 s2 : St)
    (hm : NotMacro s.heap e "let") (hb : LetBinds W e s.heap.length bs (newScope s e) s1)
    (hbody : EvalsTo W s.heap.length body s1 vs s2) :
    eval W (form "let" (letBindings bs :: (body ++ [x]))) e s = eval W x s.heap.length s2 := by
  rw [eval_named W .let_ hm rfl]
  simp only [evSpecial, vlist_cons, evLet]
  rw [M.ite_pos (show (letBindings _).isList = true from isList_vlist _), M.ite_pos (isList_vlist _), M.bind_ok (newEnvM_newScope _ _)]
  rw [M.bind_ok (evLetBinds_ok hb), M.ite_pos rfl]
  exact evBodyTail_ok hbody

/-- C26: an empty body gives `()`. -/
theorem C26_let_empty (W : World) (bs : List (String × Val)) (e : Nat) (s s1 : St)
    (hm : NotMacro s.heap e "let") (hb : LetBinds W e s.heap.length bs (newScope s e) s1) :
    eval W (form "let" [letBindings bs]) e s = .ok .nil s1 := by
  rw [eval_named W .let_ hm rfl]
  simp only [evSpecial, vlist_cons, evLet, vlist_nil]
  rw [M.ite_pos (show (letBindings _).isList = true from isList_vlist _), M.ite_pos (show Val.nil.isList = true from rfl), M.bind_ok (newEnvM_newScope _ _)]
  rw [M.bind_ok (evLetBinds_ok hb), M.ite_pos rfl]
  rfl

example : ∃ s', eval sampleWorld (form "let" [letBindings [("x", .num 7)]]) 1 twoScopes = .ok .nil s' :=
  ⟨_, C26_let_empty sampleWorld [("x", .num 7)] 1 twoScopes _ (twoScopes_notMacro _ (by decide))
    (.cons (s1 := newScope twoScopes 1) (by rw [eval_eq]; rfl) (by decide) (onlyBinding_heapSet (by decide) _ _) rfl .nil)⟩

/-- C26: a binding expression that fails ends the `let` with that error, one frame in front; the body is not evaluated. -/
theorem C26_let_error (W : World) (bs more : List (String × Val)) (body : List Val) (x : String) (ex : Val) (er : Err) (e : Nat) (s s1 s2 : St)
    (hm : NotMacro s.heap e "let") (hb : LetBinds W e s.heap.length bs (newScope s e) s1)
    (hx : eval W ex e s1 = .err er s2) :
    eval W (form "let" (letBindings (bs ++ (x, ex) :: more) :: body)) e s = .err (er.under (msgList "evaluating let bindings")) s2 := by
  have hl : evLetBinds (perform W) e s.heap.length (letBindings (bs ++ (x, ex) :: more)) (newScope s e)
      = .err (er.under (msgList "evaluating let bindings")) s2 := by
    generalize s.heap.length = ne at *
    generalize newScope s e = s0 at *
    induction hb with
    | nil =>
      simp only [letBindings, List.nil_append, List.map_cons, vlist_cons, evLetBinds, perform_eval]
      rw [M.bind_err (extend_err hx), extendErr_under]
    | @cons y ey v bs s s1 s2 h h1 hne _ hh _ ih =>
      refine Eq.trans ?_ (ih hx)
      simp only [letBindings, List.cons_append, List.map_cons, vlist_cons, evLetBinds, perform_eval]
      rw [M.bind_ok (extend_ok h1)]
      have hset : setM ne y v s1 = .ok () { s1 with heap := h } := by
        unfold setM; rw [if_neg hne, hh]
      rw [M.bind_ok (extend_ok hset)]
  rw [eval_named W .let_ hm rfl]
  simp only [evSpecial, vlist_cons, evLet]
  rw [M.ite_pos (show (letBindings _).isList = true from isList_vlist _), M.ite_pos (isList_vlist _), M.bind_ok (newEnvM_newScope _ _)]
  exact M.bind_err hl

/-- The second binding fails; the third is not evaluated. -/
example : ∃ s', eval sampleWorld (form "let" (letBindings ([("x", .num 7)] ++ ("y", .atom "zork") :: [("z", .num 1)]) :: [.atom "y"])) 1 twoScopes
    = .err (.list (vlist [msgList "evaluating let bindings", msgList "unknown symbol: zork"])) s' :=
  ⟨_, C26_let_error sampleWorld [("x", .num 7)] [("z", .num 1)] [.atom "y"] "y" (.atom "zork") (.list (vlist [msgList "unknown symbol: zork"])) 1 twoScopes _ _
    (twoScopes_notMacro _ (by decide))
    (.cons (s1 := newScope twoScopes 1) (by rw [eval_eq]; rfl) (by decide) (onlyBinding_heapSet (by decide) _ _) rfl .nil) (by rw [eval_eq]; rfl)⟩

/-- Names seen from a scope do not depend on scopes outside its chain. -/
theorem lookup_congr {h h' : Heap} (ho : Older h) (e : Nat) (he : e < h.length)
    (hp : ∀ j : Nat, j ≤ e → (h'[j]?).map Frame.parent = (h[j]?).map Frame.parent)
    (hb : ∀ j ≤ e, ∀ y, bindingIn h' j y = bindingIn h j y) (y : String) : lookup h' e y = lookup h e y := by
  have key : ∀ k e, e < h.length → (∀ j : Nat, j ≤ e → (h'[j]?).map Frame.parent = (h[j]?).map Frame.parent) →
      (∀ j ≤ e, ∀ y, bindingIn h' j y = bindingIn h j y) → lookupAux h' k e y = lookupAux h k e y := by
    intro k
    induction k with
    | zero => intros; rfl
    | succ k ih =>
      intro e he hp hb
      have hf : h[e]? = some h[e] := List.getElem?_eq_getElem he
      have h1 := hp e (Nat.le_refl _)
      rw [hf] at h1
      obtain ⟨f', hf', hpar⟩ := Option.map_eq_some_iff.1 (by simpa using h1)
      have h2 := hb e (Nat.le_refl _) y
      simp only [bindingIn, hf, hf'] at h2
      simp only [lookupAux, hf, hf', h2, hpar]
      cases alGet y (h[e]).syms with
      | some v => rfl
      | none =>
        simp only []
        cases hpp : (h[e]).parent with
        | none => rfl
        | some p =>
          have := ho e _ hf p hpp
          exact ih p (by omega) (fun j hj => hp j (by omega)) (fun j hj => hb j (by omega))
  exact key _ e he hp hb

/-- C26: the act of binding in the new scope, and creating it, is invisible from every scope that existed before: all names keep
their meaning there.  In particular the binding expressions do not see each other's bindings. -/
theorem C26_invisible (s : St) (h : Heap) (ne e e' : Nat) (x y : String) (v : Val) (ho : Older s.heap) (he : e' < s.heap.length) :
    (lookup (newScope s e).heap e' y = lookup s.heap e' y) ∧
    (e' < ne → OnlyBinding s.heap h ne x v → lookup h e' y = lookup s.heap e' y) := by
  constructor
  · refine lookup_congr ho e' he (fun j hj => ?_) (fun j hj z => ?_) y
    · simp only [newScope]
      rw [List.getElem?_append_left (by omega)]
    · simp only [newScope, bindingIn]
      rw [List.getElem?_append_left (by omega)]
  · intro hlt hb
    refine lookup_congr ho e' he (fun j _ => hb.parents j) (fun j hj z => hb.others j z (by omega)) y

example (v : Val) : lookup (newScope twoScopes 1).heap 0 "x" = lookup twoScopes.heap 0 "x" :=
  (C26_invisible twoScopes twoScopes.heap 2 1 0 "x" "x" v twoScopes_older (by decide)).1

/-- `(let ((x 1) (y x)) y)` where the outer `x` is `1` too: `y` is the outer `x`. -/
example : ∃ s', eval sampleWorld (form "let" (letBindings [("x", .num 7), ("y", .atom "x")] :: ([] ++ [.atom "y"]))) 1 twoScopes
    = .ok (.num 1) s' := by
  have h := C26_let sampleWorld [("x", .num 7), ("y", .atom "x")] [] [] (.atom "y") 1 twoScopes _ _ (twoScopes_notMacro _ (by decide))
    (.cons (s1 := newScope twoScopes 1) (by rw [eval_eq]; rfl) (by decide) (onlyBinding_heapSet (by decide) _ _) rfl
      (.cons (by rw [eval_eq]; rfl) (by decide) (onlyBinding_heapSet (by decide) _ _) rfl .nil)) .nil
  rw [h]
  exact ⟨_, by rw [eval_eq]; rfl⟩

end L1
