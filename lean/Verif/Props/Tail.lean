import Verif.Spec.Stack
import Verif.Props.Functions
/-
C30: tail calls run in constant stack.
-/
set_option autoImplicit false
namespace L1

theorem evalWithin_eq (W : World) (d : Nat) (x : Val) (e : Nat) (s : St) :
    evalWithin W (d + 1) x e s = evalStep (performIn W d) (performIn W (d + 1)) x e s := by
  unfold evalWithin; rw [performIn_eq]; rfl

/-- What fits in a stack gives the same without a stack limit. -/
theorem eval_of_within {W : World} {d : Nat} {x v : Val} {e : Nat} {s s' : St} (h : evalWithin W d x e s = .ok v s') :
    eval W x e s = .ok v s' := by
  have : (performIn W d (.eval x e) s).Definite := by
    have h' : performIn W d (.eval x e) s = .ok v s' := h
    rw [h']; trivial
  exact (perform_of_performIn this).trans h

theorem within_call {W : World} {d : Nat} {f args : Val} {e : Nat} {s : St} (hf : CallHead s.heap e f) (hl : args.isList = true) :
    evalWithin W (d + 1) (.cons f args) e s = evCall (performIn W d) (performIn W (d + 1)) f args e s := by
  rw [evalWithin_eq]
  cases f with
  | atom a =>
    obtain ⟨h1, h2⟩ := hf
    rw [evalStep_notMacro (notMacro_isMacroCall h2 _)]
    have : evExpr (performIn W d) (performIn W (d + 1)) (.cons (.atom a) args) e = evCall (performIn W d) (performIn W (d + 1)) (.atom a) args e := by
      simp only [evExpr, hl, if_true, specialOf_none h1]
    rw [this]
  | _ =>
    rw [evalStep_notMacro (by rfl)]
    simp only [evExpr, hl, if_true]

theorem within_sf {W : World} {d : Nat} (f : SF) {name : String} {xs : List Val} {e : Nat} {s : St} (hm : NotMacro s.heap e name) (hn : name = f.name) :
    evalWithin W (d + 1) (form name xs) e s = evSpecial (performIn W d) (performIn W (d + 1)) f (vlist xs) e s := by
  subst hn
  rw [evalWithin_eq, form, evalStep_notMacro (notMacro_isMacroCall hm _), evExpr_special (isList_vlist xs)]

theorem evArgs_within {W : World} {d e : Nat} {xs vs : List Val} {s s' : St} (h : EvalsWithin W d e xs s vs s') :
    evArgs (performIn W d) e (vlist xs) s = .ok vs s' := by
  induction h with
  | nil => rfl
  | cons h1 _ ih =>
    simp only [vlist_cons, evArgs]
    rw [M.bind_ok (extend_ok (by exact h1)), M.bind_ok ih]
    rfl

theorem evBodyTail_within {W : World} {d : Nat} {tail : Task → M Val} {wrap : Val → Val} {e : Nat} {xs vs : List Val} {x : Val} {s s' : St}
    (h : EvalsWithin W d e xs s vs s') :
    evBodyTail (performIn W d) tail wrap e (vlist (xs ++ [x])) s = tail (.eval x e) s' := by
  induction h with
  | nil => rfl
  | @cons y v ys vs s s1 s2 h1 _ ih =>
    rw [List.cons_append, vlist_cons]
    have hne : ∃ a d, vlist (ys ++ [x]) = .cons a d := by
      cases ys <;> exact ⟨_, _, rfl⟩
    obtain ⟨a, d, hd⟩ := hne
    rw [hd] at ih ⊢
    simp only [evBodyTail] at ih ⊢
    rw [M.bind_ok (extendWith_ok (by exact h1))]
    exact ih

theorem evCond_within {W : World} {d : Nat} {tail : Task → M Val} {e : Nat} {cs : List Val} {rest : Val} {s s' : St} (h : FalseWithin W d e cs s s') :
    evCond (performIn W d) tail e (mkList cs rest) s = evCond (performIn W d) tail e rest s' := by
  induction h with
  | nil => rfl
  | cons h1 _ ih =>
    simp only [mkList, List.foldr, evCond]
    rw [M.bind_ok (extend_ok (by exact h1))]
    simp only [if_true]; exact ih

theorem evLetBinds_within {W : World} {d e ne : Nat} {bs : List Val} {s s' : St} (h : BindsWithin W d e ne bs s s') :
    evLetBinds (performIn W d) e ne (vlist bs) s = .ok true s' := by
  induction h with
  | nil => rfl
  | @cons x ex v bs s s1 s2 h1 ht _ ih =>
    simp only [vlist_cons, evLetBinds]
    have hset : setM ne x v s1 = .ok () { s1 with heap := heapSet s1.heap ne x v } := by unfold setM; rw [if_neg ht]
    rw [M.bind_ok (extend_ok (by exact h1)), M.bind_ok (extend_ok hset)]; exact ih

/-- The result of `macroexpand` is not a macro call any more. -/
theorem mexpand_result (W : World) : ∀ (n d : Nat) (x y : Val) (e : Nat) (s s' : St), run W n d (.mexpand x e) s = .ok y s' →
    isMacroCallIn (lookup s'.heap e) y = false := by
  intro n
  induction n with
  | zero => intro d x y e s s' h; cases h
  | succ n ih =>
    intro d x y e s s' h
    have h2 : mexpandStep (lower d (run W n)) (run W n d) x e s = .ok y s' := h
    unfold mexpandStep at h2
    rw [M.bind_eq_ok] at h2
    obtain ⟨r, s1, _, h3⟩ := h2
    rw [M.bind_ok (isMacroCallM_run _ _ _)] at h3
    by_cases hm : isMacroCallIn (lookup s1.heap e) r = true
    · rw [M.ite_pos hm] at h3; exact ih d r y e s1 s' h3
    · rw [M.ite_neg hm] at h3
      cases h3
      simpa using hm

/-- Tasks that make no calls need no stack. -/
theorem performIn_leaf {W : World} {d : Nat} {t : Task} {s s' : St} {v : Val} (h : ∀ call tail, runStep W call tail t s = .ok v s') :
    performIn W d t s = .ok v s' := by
  have h1 : run W 1 d t s = .ok v s' := h _ _
  rw [performIn_of_run (n := 1) (by rw [h1]; simp), h1]

/-- C30: evaluating an expression and evaluating the expression in its tail position are the same within the *same* stack. -/
theorem C30_tail_step (W : World) (d : Nat) (x y : Val) (e e' : Nat) (s s' : St) (h : TailStep W d (x, e, s) (y, e', s')) :
    evalWithin W (d + 1) x e s = evalWithin W (d + 1) y e' s' := by
  cases h with
  | @cond _ before later more c b v _ s1 _ hm hb hc hv =>
    rw [within_sf .cond hm rfl]
    simp only [evSpecial]
    rw [vlist_append, evCond_within hb]
    simp only [vlist_cons, evCond]
    rw [M.bind_ok (extend_ok (by exact hc))]
    rw [M.ite_neg hv]; rfl
  | @letBody _ bs xs vs _ _ s1 _ hm hb hx =>
    rw [within_sf .let_ hm rfl]
    simp only [evSpecial, vlist_cons, evLet, isList_vlist, if_true]
    rw [M.bind_ok (newEnvM_run _ _), M.bind_ok (evLetBinds_within hb)]
    simp only [if_true]
    rw [evBodyTail_within hx]; rfl
  | @call _ cenv fx xs vs body bvs ps r doc _ m _ s0 s1 _ hh hf hx ha ht hb =>
    rw [within_call (by cases fx with | atom a => exact ⟨(hh a rfl).2, (hh a rfl).1⟩ | _ => trivial) (isList_vlist _)]
    unfold evCall
    rw [M.bind_ok (extend_ok (by exact hf)), M.bind_ok (evArgs_within hx)]
    simp only [evApply]
    rw [M.bind_ok (newEnvM_run _ _), M.bind_ok (extend_ok (bindArgs_ok ha ht)), evBodyTail_within hb]; rfl
  | @syntaxQuote _ x _ more _ hm hq =>
    rw [within_sf .syntaxQuote hm rfl]
    simp only [evSpecial, vlist_cons, hq]; rfl
  | expansion hm hx =>
    have hne : performIn W d (.mexpand x e) s ≠ .oof := by rw [hx]; simp
    obtain ⟨n, hn⟩ := run_of_performIn hne
    rw [hx] at hn
    have hy := mexpand_result W n d x y e s s' hn
    rw [evalWithin_eq, evalWithin_eq, evalStep_macro hm, M.bind_ok (extend_ok (by exact hx)), evalStep_notMacro hy]

/-- `(cond (1 (f)))` on a stack of 2: as deep as `(f)`. -/
example : evalWithin sampleWorld 2 (form "cond" [vlist [.num 1, form "f" []]]) 0 (initSt []) = evalWithin sampleWorld 2 (form "f" []) 0 (initSt []) :=
  C30_tail_step sampleWorld 1 _ _ 0 0 _ _
    (.cond (before := []) (later := []) (more := []) (v := .num 1) (notMacro_init _ _) .nil (performIn_leaf fun _ _ => rfl) (by simp))

/-- C30: any number of tail calls, one after the other, need no more stack than one. -/
theorem C30_tail_calls (W : World) (d : Nat) (x y : Val) (e e' : Nat) (s s' : St) (h : TailSteps W d (x, e, s) (y, e', s')) :
    evalWithin W (d + 1) x e s = evalWithin W (d + 1) y e' s' := by
  generalize ha : (x, e, s) = a at h
  generalize hb : (y, e', s') = b at h
  induction h generalizing x e s with
  | refl => subst ha; cases hb; rfl
  | @step a b c h1 _ ih =>
    subst ha
    obtain ⟨x1, e1, s1⟩ := b
    rw [C30_tail_step W d _ _ _ _ _ _ h1]
    exact ih x1 e1 s1 rfl hb

example : evalWithin sampleWorld 2 (form "let" [vlist [], .num 1, form "cond" [vlist [.num 1, form "f" []]]]) 0 (initSt [])
    = evalWithin sampleWorld 2 (form "f" []) 1 (newScope (initSt []) 0) :=
  C30_tail_calls sampleWorld 1 _ _ 0 1 _ _
    (.step (.letBody (bs := []) (xs := [.num 1]) (notMacro_init _ _) .nil (.cons (performIn_leaf fun _ _ => rfl) .nil))
      (.step (.cond (before := []) (later := []) (more := []) (v := .num 1) (fun _ _ _ _ _ h => by cases h) .nil (performIn_leaf fun _ _ => rfl) (by simp)) .refl))

/-- C30: the next turn of a `loop` runs in the same stack. -/
theorem C30_loop (W : World) (d e : Nat) (body vs : List Val) (s s1 : St) (hm : NotMacro s.heap e "loop") (hm1 : NotMacro s1.heap e "loop")
    (h : EvalsWithin W d e body s vs s1) :
    evalWithin W (d + 1) (form "loop" body) e s = evalWithin W (d + 1) (form "loop" body) e s1 := by
  rw [within_sf .loop hm rfl, within_sf .loop hm1 rfl]
  show performIn W (d + 1) (.loop (vlist body) e) s = performIn W (d + 1) (.loop (vlist body) e) s1
  conv => lhs; rw [performIn_eq]
  show (evLoopBody (performIn W d) e (vlist body) >>= fun _ => performIn W (d + 1) (.loop (vlist body) e)) s = _
  have : evLoopBody (performIn W d) e (vlist body) s = .ok () s1 := by
    clear hm hm1
    induction h with
    | nil => rfl
    | cons h1 _ ih =>
      simp only [vlist_cons, evLoopBody]
      rw [M.bind_ok (extend_ok (by exact h1))]; exact ih
  rw [M.bind_ok this]

example : evalWithin sampleWorld 2 (form "loop" [.num 1]) 0 (initSt []) = evalWithin sampleWorld 2 (form "loop" [.num 1]) 0 (initSt []) :=
  C30_loop sampleWorld 1 0 [.num 1] [.num 1] _ _ (notMacro_init _ _) (notMacro_init _ _) (.cons (performIn_leaf fun _ _ => rfl) .nil)

/-! ### A loop -/

theorem within_atom {W : World} {d : Nat} {a : String} {e : Nat} {s : St} {v : Val} (hc : isCxr a = false) (ht : a ≠ "t")
    (hl : lookup s.heap e a = some v) : evalWithin W d (.atom a) e s = .ok v s := by
  refine performIn_leaf fun call tail => ?_
  show evalStep _ _ _ _ _ = _
  rw [evalStep_notMacro rfl]
  simp only [evExpr, hc, Bool.false_eq_true, if_false]
  unfold evAtom
  rw [if_neg ht, M.bind_ok (lookupM_run _ _ _), hl]; rfl

theorem within_bi {W : World} {d : Nat} {a : String} {b : BI} {e : Nat} {s : St} (hc : isCxr a = false) (ht : a ≠ "t")
    (hl : lookup s.heap e a = none) (hb : builtinOf a = some b) : evalWithin W d (.atom a) e s = .ok (.bi b) s := by
  refine performIn_leaf fun call tail => ?_
  show evalStep _ _ _ _ _ = _
  rw [evalStep_notMacro rfl]
  simp only [evExpr, hc, Bool.false_eq_true, if_false]
  unfold evAtom
  rw [if_neg ht, M.bind_ok (lookupM_run _ _ _), hl]
  simp only [hb]; rfl

theorem within_num {W : World} {d : Nat} {k : Int} {e : Nat} {s : St} : evalWithin W d (.num k) e s = .ok (.num k) s :=
  performIn_leaf fun _ _ => rfl

theorem within_true {W : World} {d : Nat} {e : Nat} {s : St} : evalWithin W d (.atom "t") e s = .ok vTrue s :=
  performIn_leaf fun _ _ => rfl

/-- `(b x1 ... xk)` for a built-in that does not evaluate anything. -/
theorem within_builtin {W : World} {d : Nat} {a : String} {b : BI} {xs vs : List Val} {v : Val} {e : Nat} {s s1 s2 : St}
    (hc : isCxr a = false) (ht : a ≠ "t") (hs : specialOf a = none) (hl : lookup s.heap e a = none) (hb : builtinOf a = some b)
    (hx : EvalsWithin W d e xs s vs s1) (hv : ∀ call, biFn W call b vs e s1 = .ok v s2) :
    evalWithin W (d + 1) (form a xs) e s = .ok v s2 := by
  have hnm : NotMacro s.heap e a := by intro ps r bd dc env hh; rw [hl] at hh; cases hh
  rw [form, within_call (callHead_of hs hnm) (isList_vlist _)]
  unfold evCall
  rw [M.bind_ok (extend_ok (by exact within_bi hc ht hl hb)), M.bind_ok (evArgs_within hx)]
  simp only [evApply]
  exact extend_ok (performIn_leaf fun call _ => hv call)

/-- `(cond ((= n 0) acc) (t (f (- n 1) (+ acc 1))))` -/
def countBody : Val :=
  form "cond" [vlist [form "=" [.atom "n", .num 0], .atom "acc"],
    vlist [.atom "t", form "f" [form "-" [.atom "n", .num 1], form "+" [.atom "acc", .num 1]]]]

/-- The function defined by `(defn f (n acc) (cond ((= n 0) acc) (t (f (- n 1) (+ acc 1)))))`. -/
def countFn : Val := .lam ["n", "acc"] "" (vlist [countBody]) .nil false 0

/-- Only `f` is defined at top level. -/
def CountHeap (h : Heap) : Prop := ∃ rest, h = ⟨[("f", countFn)], none⟩ :: rest

theorem lookup_new {h : Heap} {fr : List (String × Val)} {a : String} {v : Val} (ha : alGet a fr = some v) {p : Nat} :
    lookup (h ++ [⟨fr, some p⟩]) h.length a = some v := by
  unfold lookup lookupAux
  simp [ha]

theorem lookup_new_top {g : Frame} {rest : Heap} {fr : List (String × Val)} {a : String} (ha : alGet a fr = none) (hg : g.parent = none) :
    lookup ((g :: rest) ++ [⟨fr, some 0⟩]) (g :: rest).length a = alGet a g.syms := by
  unfold lookup lookupAux
  simp [ha, lookupAux]
  cases alGet a g.syms <;> simp [hg]

/-- What the body sees. -/
structure CountScope (s : St) (e : Nat) (n acc : Int) : Prop where
  n : lookup s.heap e "n" = some (.num n)
  acc : lookup s.heap e "acc" = some (.num acc)
  f : lookup s.heap e "f" = some countFn
  others : ∀ a, a ≠ "n" → a ≠ "acc" → a ≠ "f" → lookup s.heap e a = none
  heap : CountHeap s.heap

theorem countScope (s : St) (hs : CountHeap s.heap) (n acc : Int) :
    CountScope (callSt s 0 ["n", "acc"] "" [.num n, .num acc]) s.heap.length n acc := by
  obtain ⟨rest, hs⟩ := hs
  have hlk : ∀ a : String, alGet a [("n", Val.num n), ("acc", Val.num acc)] = none →
      lookup (callSt s 0 ["n", "acc"] "" [.num n, .num acc]).heap s.heap.length a = alGet a [("f", countFn)] := by
    intro a ha
    have := lookup_new_top (g := ⟨[("f", countFn)], none⟩) (rest := rest) (fr := [("n", Val.num n), ("acc", Val.num acc)]) ha rfl
    rw [← hs] at this; exact this
  refine ⟨lookup_new (fr := [("n", Val.num n), ("acc", Val.num acc)]) rfl, lookup_new (fr := [("n", Val.num n), ("acc", Val.num acc)]) rfl,
    hlk "f" rfl, fun a h1 h2 h3 => ?_, ⟨rest ++ [⟨[("n", Val.num n), ("acc", Val.num acc)], some 0⟩], ?_⟩⟩
  · rw [hlk a (by simp [alGet, Ne.symm h1, Ne.symm h2])]; simp [alGet, Ne.symm h3]
  · show s.heap ++ _ = _; rw [hs]; rfl

theorem CountScope.notMacro {s : St} {e : Nat} {n acc : Int} (h : CountScope s e n acc) {a : String} (h1 : a ≠ "n") (h2 : a ≠ "acc") (h3 : a ≠ "f") :
    NotMacro s.heap e a := by
  intro ps r b dc env hh; rw [h.others a h1 h2 h3] at hh; cases hh

theorem count_cond {W : World} {d : Nat} {s : St} {e : Nat} {n acc : Int} (h : CountScope s e n acc) :
    evalWithin W (d + 1) (form "=" [.atom "n", .num 0]) e s = .ok (vBool (n == 0)) s := by
  refine within_builtin (b := .eq) (vs := [.num n, .num 0]) rfl (by decide) rfl (h.others "=" (by decide) (by decide) (by decide)) rfl
    (.cons (within_atom rfl (by decide) h.n) (.cons within_num .nil)) fun _ => ?_
  show (Res.ok (vBool ((n == 0) && true)) s : Res Val) = _
  rw [Bool.and_true]

theorem count_dec {W : World} {d : Nat} {s : St} {e : Nat} {n acc : Int} (h : CountScope s e n acc) :
    evalWithin W (d + 1) (form "-" [.atom "n", .num 1]) e s = .ok (.num (n - 1)) s :=
  within_builtin (b := .sub) (vs := [.num n, .num 1]) rfl (by decide) rfl (h.others "-" (by decide) (by decide) (by decide)) rfl
    (.cons (within_atom rfl (by decide) h.n) (.cons within_num .nil)) fun _ => rfl

theorem count_inc {W : World} {d : Nat} {s : St} {e : Nat} {n acc : Int} (h : CountScope s e n acc) :
    evalWithin W (d + 1) (form "+" [.atom "acc", .num 1]) e s = .ok (.num (acc + 1)) s := by
  refine within_builtin (b := .add) (vs := [.num acc, .num 1]) rfl (by decide) rfl (h.others "+" (by decide) (by decide) (by decide)) rfl
    (.cons (within_atom rfl (by decide) h.acc) (.cons within_num .nil)) fun _ => ?_
  show (Res.ok (.num (0 + acc + 1)) s : Res Val) = _
  rw [Int.zero_add]

theorem count_body (W : World) (d : Nat) (n : Nat) : ∀ (acc : Int) (s : St) (e : Nat), CountScope s e n acc →
    ∃ s', evalWithin W (d + 2) countBody e s = .ok (.num (acc + n)) s' := by
  induction n with
  | zero =>
    intro acc s e h
    have h1 := C30_tail_step W (d + 1) countBody (.atom "acc") e e s s (.cond (before := []) (more := [])
      (h.notMacro (by decide) (by decide) (by decide)) .nil (count_cond h) (by decide))
    exact ⟨s, by rw [h1, within_atom rfl (by decide) h.acc]; simp⟩
  | succ n ih =>
    intro acc s e h
    have h1 := C30_tail_step W (d + 1) countBody (form "f" [form "-" [.atom "n", .num 1], form "+" [.atom "acc", .num 1]]) e e s s
      (.cond (before := [vlist [form "=" [.atom "n", .num 0], .atom "acc"]]) (more := []) (later := [])
        (h.notMacro (by decide) (by decide) (by decide))
        (.cons (by rw [count_cond h]; rw [beq_eq_false_iff_ne.2 (by omega)]; rfl) .nil) within_true (by decide))
    have h2 := C30_tail_step W (d + 1) (form "f" [form "-" [.atom "n", .num 1], form "+" [.atom "acc", .num 1]]) countBody e s.heap.length s
      (callSt s 0 ["n", "acc"] "" [.num (((n + 1 : Nat) : Int) - 1), .num (acc + 1)])
      (.call (fx := .atom "f") (xs := [form "-" [.atom "n", .num 1], form "+" [.atom "acc", .num 1]]) (body := []) (by
        intro a ha; cases ha
        refine ⟨?_, (callHead_of (h := []) (e := 0) (a := "f") rfl (by intro ps r b dc env hh; cases hh)).1⟩
        intro ps r b dc env hh; rw [h.f] at hh; cases hh)
        (within_atom rfl (by decide) h.f) (.cons (count_dec h) (.cons (count_inc h) .nil)) (by simp [ArityOk]) (by simp [NoT]) .nil)
    have h3 : (((n + 1 : Nat) : Int) - 1) = (n : Int) := by omega
    rw [h3] at h2
    obtain ⟨s', h'⟩ := ih (acc + 1) _ _ (countScope s h.heap n (acc + 1))
    refine ⟨s', ?_⟩
    rw [h1, h2, h']
    congr 2
    omega

/-- C30: a loop written as a tail call gives the right answer for every number of turns, on one fixed stack of two nested calls. -/
theorem C30_count (W : World) (n : Nat) (acc : Int) (s : St) (hs : CountHeap s.heap) :
    ∃ s', evalWithin W 2 (form "f" [.num n, .num acc]) 0 s = .ok (.num (acc + n)) s' := by
  have hf : lookup s.heap 0 "f" = some countFn := by obtain ⟨rest, hs⟩ := hs; rw [hs]; rfl
  have h1 := C30_tail_step W 1 (form "f" [.num n, .num acc]) countBody 0 s.heap.length s (callSt s 0 ["n", "acc"] "" [.num n, .num acc])
    (.call (fx := .atom "f") (xs := [.num n, .num acc]) (body := []) (by
        intro a ha; cases ha
        refine ⟨?_, (callHead_of (h := []) (e := 0) (a := "f") rfl (by intro ps r b dc env hh; cases hh)).1⟩
        intro ps r b dc env hh; rw [hf] at hh; cases hh)
      (within_atom rfl (by decide) hf) (.cons within_num (.cons within_num .nil)) (by simp [ArityOk]) (by simp [NoT]) .nil)
  obtain ⟨s', h'⟩ := count_body W 0 n acc _ _ (countScope s hs n acc)
  exact ⟨s', h1.trans h'⟩

/-- The loop of `C30_count` is what its program text says. -/
example : readText "(defn f (n acc) (cond ((= n 0) acc) (t (f (- n 1) (+ acc 1)))))".toList
    = .ok [form "defn" [.atom "f", vlist [.atom "n", .atom "acc"], countBody]] := by decide +kernel

/-! ### The same without a tail call -/

theorem M.bind_overflow {α β : Type} {m : M α} {f : α → M β} {s s' : St} (h : m s = .overflow s') : (m >>= f) s = .overflow s' := by
  rw [M.bind_run, h]

theorem extend_overflow {α : Type} {msg : String} {m : M α} {s s' : St} (h : m s = .overflow s') : extend msg m s = .overflow s' := by
  unfold extend; rw [extendWith_run, h]

/-- `(cond ((= n 0) 0) (t (+ 1 (g (- n 1)))))` -/
def deepBody : Val :=
  form "cond" [vlist [form "=" [.atom "n", .num 0], .num 0], vlist [.atom "t", form "+" [.num 1, form "g" [form "-" [.atom "n", .num 1]]]]]

/-- The function defined by `(defn g (n) (cond ((= n 0) 0) (t (+ 1 (g (- n 1))))))`. -/
def deepFn : Val := .lam ["n"] "" (vlist [deepBody]) .nil false 0

structure DeepScope (s : St) (e : Nat) (n : Int) : Prop where
  n : lookup s.heap e "n" = some (.num n)
  g : lookup s.heap e "g" = some deepFn
  others : ∀ a, a ≠ "n" → a ≠ "g" → lookup s.heap e a = none
  heap : ∃ rest, s.heap = ⟨[("g", deepFn)], none⟩ :: rest

theorem deepScope (s : St) (hs : ∃ rest, s.heap = ⟨[("g", deepFn)], none⟩ :: rest) (n : Int) :
    DeepScope (callSt s 0 ["n"] "" [.num n]) s.heap.length n := by
  obtain ⟨rest, hs⟩ := hs
  have hlk : ∀ a : String, alGet a [("n", Val.num n)] = none →
      lookup (callSt s 0 ["n"] "" [.num n]).heap s.heap.length a = alGet a [("g", deepFn)] := by
    intro a ha
    have := lookup_new_top (g := ⟨[("g", deepFn)], none⟩) (rest := rest) (fr := [("n", Val.num n)]) ha rfl
    rw [← hs] at this; exact this
  refine ⟨lookup_new (fr := [("n", Val.num n)]) rfl, hlk "g" rfl, fun a h1 h3 => ?_, ⟨rest ++ [⟨[("n", Val.num n)], some 0⟩], ?_⟩⟩
  · rw [hlk a (by simp [alGet, Ne.symm h1])]; simp [alGet, Ne.symm h3]
  · show s.heap ++ _ = _; rw [hs]; rfl

/-- A call cannot be evaluated without stack. -/
theorem within_zero_call {W : World} {f args : Val} {e : Nat} {s : St} (hf : CallHead s.heap e f) (hl : args.isList = true) :
    evalWithin W 0 (.cons f args) e s = .overflow s := by
  have h : run W 1 0 (.eval (.cons f args) e) s = .overflow s := by
    show evalStep (lower 0 (run W 0)) (run W 0 0) (.cons f args) e s = _
    have hc : evCall (lower 0 (run W 0)) (run W 0 0) f args e s = .overflow s := by
      unfold evCall
      exact M.bind_overflow (extend_overflow rfl)
    cases f with
    | atom a =>
      obtain ⟨h1, h2⟩ := hf
      rw [evalStep_notMacro (notMacro_isMacroCall h2 _)]
      simp only [evExpr, hl, if_true, specialOf_none h1]; exact hc
    | _ =>
      rw [evalStep_notMacro (by rfl)]
      simp only [evExpr, hl, if_true]; exact hc
  unfold evalWithin
  rw [performIn_of_run (n := 1) (by rw [h]; simp), h]

theorem deep_head {s : St} {e : Nat} {n : Int} (h : DeepScope s e n) : CallHead s.heap e (.atom "g") :=
  callHead_of rfl (by intro ps r b dc env hh; rw [h.g] at hh; cases hh)

theorem DeepScope.notMacro {s : St} {e : Nat} {n : Int} (h : DeepScope s e n) {a : String} (h1 : a ≠ "n") (h3 : a ≠ "g") : NotMacro s.heap e a := by
  intro ps r b dc env hh; rw [h.others a h1 h3] at hh; cases hh

theorem deep_overflow (W : World) (d : Nat) : ∀ (n : Nat) (s : St) (e : Nat), d ≤ n → DeepScope s e (n + 1 : Nat) →
    ∃ s', evalWithin W d (form "g" [form "-" [.atom "n", .num 1]]) e s = .overflow s' := by
  induction d with
  | zero => intro n s e _ h; exact ⟨s, within_zero_call (deep_head h) rfl⟩
  | succ d ih =>
    intro n s e hn h
    obtain ⟨n, rfl⟩ : ∃ m, n = m + 1 := ⟨n - 1, by omega⟩
    cases d with
    | zero =>
      -- the argument `(- n 1)` is a call
      refine ⟨s, ?_⟩
      rw [form, within_call (deep_head h) (isList_vlist _)]
      unfold evCall
      rw [M.bind_ok (extend_ok (by exact within_atom rfl (by decide) h.g))]
      refine M.bind_overflow ?_
      simp only [vlist_cons, evArgs]
      exact M.bind_overflow (extend_overflow (within_zero_call (callHead_of rfl (h.notMacro (by decide) (by decide))) rfl))
    | succ d =>
      have hdec : evalWithin W (d + 1) (form "-" [.atom "n", .num 1]) e s = .ok (.num ((n + 1 : Nat) : Int)) s := by
        refine within_builtin (b := .sub) (vs := [.num ((n + 1 + 1 : Nat) : Int), .num 1]) rfl (by decide) rfl (h.others "-" (by decide) (by decide)) rfl
          (.cons (within_atom rfl (by decide) h.n) (.cons within_num .nil)) fun _ => ?_
        show (Res.ok (.num (((n + 1 + 1 : Nat) : Int) - 1)) s : Res Val) = _
        congr 2; omega
      have h2 := C30_tail_step W (d + 1) (form "g" [form "-" [.atom "n", .num 1]]) deepBody e s.heap.length s
        (callSt s 0 ["n"] "" [.num ((n + 1 : Nat) : Int)])
        (.call (fx := .atom "g") (xs := [form "-" [.atom "n", .num 1]]) (body := []) (by
          intro a ha; cases ha
          exact ⟨(deep_head h).2, (deep_head h).1⟩)
          (within_atom rfl (by decide) h.g) (.cons hdec .nil) (by simp [ArityOk]) (by simp [NoT]) .nil)
      have hb := deepScope s h.heap ((n + 1 : Nat) : Int)
      generalize callSt s 0 ["n"] "" [.num ((n + 1 : Nat) : Int)] = sb at h2 hb
      have hc : evalWithin W (d + 1) (form "=" [.atom "n", .num 0]) s.heap.length sb = .ok .nil sb := by
        refine within_builtin (b := .eq) (vs := [.num ((n + 1 : Nat) : Int), .num 0]) rfl (by decide) rfl (hb.others "=" (by decide) (by decide)) rfl
          (.cons (within_atom rfl (by decide) hb.n) (.cons within_num .nil)) fun _ => ?_
        show (Res.ok (vBool ((((n + 1 : Nat) : Int) == 0) && true)) sb : Res Val) = _
        rw [beq_eq_false_iff_ne.2 (by omega)]; rfl
      have h3 := C30_tail_step W (d + 1) deepBody (form "+" [.num 1, form "g" [form "-" [.atom "n", .num 1]]]) s.heap.length s.heap.length sb sb
        (.cond (before := [vlist [form "=" [.atom "n", .num 0], .num 0]]) (more := []) (later := [])
          (hb.notMacro (by decide) (by decide)) (.cons hc .nil) within_true (by decide))
      obtain ⟨s', h'⟩ := ih n sb s.heap.length (by omega) hb
      refine ⟨s', ?_⟩
      rw [h2, h3, form, within_call (callHead_of rfl (hb.notMacro (by decide) (by decide))) (isList_vlist _)]
      unfold evCall
      rw [M.bind_ok (extend_ok (by exact within_bi rfl (by decide) (hb.others "+" (by decide) (by decide)) rfl))]
      refine M.bind_overflow ?_
      simp only [vlist_cons, evArgs]
      rw [M.bind_ok (extend_ok (by exact within_num))]
      exact M.bind_overflow (M.bind_overflow (extend_overflow h'))

/-- For contrast: when the recursive call is not in tail position, no fixed stack is enough.  On a stack of `d` nested calls, `(g n)` with
`(defn g (n) (cond ((= n 0) 0) (t (+ 1 (g (- n 1))))))` runs out of stack for every `n > d`. -/
theorem C30_not_tail (W : World) (d n : Nat) (hn : d < n) (s : St) (hs : ∃ rest, s.heap = ⟨[("g", deepFn)], none⟩ :: rest) :
    ∃ s', evalWithin W (d + 1) (form "g" [.num n]) 0 s = .overflow s' := by
  have hg : lookup s.heap 0 "g" = some deepFn := by obtain ⟨rest, hs⟩ := hs; rw [hs]; rfl
  obtain ⟨n, rfl⟩ : ∃ m, n = m + 1 := ⟨n - 1, by omega⟩
  have hh : CallHead s.heap 0 (.atom "g") := callHead_of rfl (by intro ps r b dc env hh; rw [hg] at hh; cases hh)
  have h2 := C30_tail_step W d (form "g" [.num ((n + 1 : Nat) : Int)]) deepBody 0 s.heap.length s
    (callSt s 0 ["n"] "" [.num ((n + 1 : Nat) : Int)])
    (.call (fx := .atom "g") (xs := [.num ((n + 1 : Nat) : Int)]) (body := []) (by
      intro a ha; cases ha
      exact ⟨hh.2, hh.1⟩)
      (within_atom rfl (by decide) hg) (.cons within_num .nil) (by simp [ArityOk]) (by simp [NoT]) .nil)
  have hb := deepScope s hs ((n + 1 : Nat) : Int)
  generalize callSt s 0 ["n"] "" [.num ((n + 1 : Nat) : Int)] = sb at h2 hb
  cases d with
  | zero =>
    refine ⟨sb, ?_⟩
    rw [h2, deepBody, within_sf (name := "cond") .cond (hb.notMacro (by decide) (by decide)) rfl]
    simp only [evSpecial, vlist_cons, evCond]
    exact M.bind_overflow (extend_overflow (within_zero_call (callHead_of rfl (hb.notMacro (by decide) (by decide))) rfl))
  | succ d =>
    have hc : evalWithin W (d + 1) (form "=" [.atom "n", .num 0]) s.heap.length sb = .ok .nil sb := by
      refine within_builtin (b := .eq) (vs := [.num ((n + 1 : Nat) : Int), .num 0]) rfl (by decide) rfl (hb.others "=" (by decide) (by decide)) rfl
        (.cons (within_atom rfl (by decide) hb.n) (.cons within_num .nil)) fun _ => ?_
      show (Res.ok (vBool ((((n + 1 : Nat) : Int) == 0) && true)) sb : Res Val) = _
      rw [beq_eq_false_iff_ne.2 (by omega)]; rfl
    have h3 := C30_tail_step W (d + 1) deepBody (form "+" [.num 1, form "g" [form "-" [.atom "n", .num 1]]]) s.heap.length s.heap.length sb sb
      (.cond (before := [vlist [form "=" [.atom "n", .num 0], .num 0]]) (more := []) (later := [])
        (hb.notMacro (by decide) (by decide)) (.cons hc .nil) within_true (by decide))
    obtain ⟨s', h'⟩ := deep_overflow W (d + 1) n sb s.heap.length (by omega) hb
    refine ⟨s', ?_⟩
    rw [h2, h3, form, within_call (callHead_of rfl (hb.notMacro (by decide) (by decide))) (isList_vlist _)]
    unfold evCall
    rw [M.bind_ok (extend_ok (by exact within_bi rfl (by decide) (hb.others "+" (by decide) (by decide)) rfl))]
    refine M.bind_overflow ?_
    simp only [vlist_cons, evArgs]
    rw [M.bind_ok (extend_ok (by exact within_num))]
    exact M.bind_overflow (M.bind_overflow (extend_overflow h'))

example (W : World) : ∃ s', evalWithin W 1000 (form "g" [.num (1000 : Nat)]) 0 { heap := [⟨[("g", deepFn)], none⟩] } = .overflow s' :=
  C30_not_tail W 999 1000 (by decide) _ ⟨[], rfl⟩

/-- `C30_count` at a million turns. -/
example (W : World) : ∃ s', evalWithin W 2 (form "f" [.num (1000000 : Nat), .num 0]) 0 { heap := [⟨[("f", countFn)], none⟩] } = .ok (.num (0 + (1000000 : Nat))) s' :=
  C30_count W 1000000 0 _ ⟨[], rfl⟩

end L1
