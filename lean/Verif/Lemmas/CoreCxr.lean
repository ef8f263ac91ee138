import Verif.Lemmas.CoreSeq
/- Errors in library functions; `c*r`. -/
set_option autoImplicit false
namespace L1

variable {W : World}

/-- `x` in scope `e`, at any quiet time after `s`, quietly is an error. -/
def GF (W : World) (s : St) (e : Nat) (x : Val) : Prop := ∀ s', Quiet s s' → ∃ er s'', eval W x e s' = .err (.list er) s'' ∧ Quiet s' s''

theorem GF.mono {s s1 : St} {e : Nat} {x : Val} (h : GF W s e x) (hq : Quiet s s1) : GF W s1 e x := fun s' h' => h s' (hq.trans h')

theorem Fails.mono {s s1 : St} {f : Val} {vs : List Val} (h : Fails W s f vs) (hq : Quiet s s1) : Fails W s1 f vs :=
  fun s' e h' => h s' e (hq.trans h')

/-- The clauses of a `cond` lead to an error. -/
def GCF (W : World) (s : St) (e : Nat) (cl : List Val) : Prop :=
  ∀ s', Quiet s s' → ∃ er s'', evCond (perform W) (perform W) e (vlist cl) s' = .err (.list er) s'' ∧ Quiet s' s''

theorem GCF.skip {s : St} {e : Nat} {c : Val} {b rest : List Val} (h1 : G W s e c .nil) (h2 : GCF W s e rest) :
    GCF W s e (vlist (c :: b) :: rest) := fun s' h' => by
  obtain ⟨s1, e1, q1⟩ := h1 s' h'
  obtain ⟨er, s2, e2, q2⟩ := h2 s1 (h'.trans q1)
  refine ⟨er, s2, ?_, q1.trans q2⟩
  simp only [vlist_cons, evCond, perform_eval]
  rw [M.bind_ok (extend_ok e1), M.ite_pos rfl]; exact e2

theorem GCF.hit {s : St} {e : Nat} {c w x : Val} {more rest : List Val} (h1 : G W s e c w) (hw : w ≠ .nil) (h2 : GF W s e x) :
    GCF W s e (vlist (c :: x :: more) :: rest) := fun s' h' => by
  obtain ⟨s1, e1, q1⟩ := h1 s' h'
  obtain ⟨er, s2, e2, q2⟩ := h2 s1 (h'.trans q1)
  refine ⟨er, s2, ?_, q1.trans q2⟩
  simp only [vlist_cons, evCond, perform_eval]
  rw [M.bind_ok (extend_ok e1), M.ite_neg hw]; exact e2

theorem GF.cond {s : St} {e : Nat} {L : List (String × Val)} {cl : List Val} (hs : Sc s.heap e L) (hx : alGet "cond" L = none)
    (h : GCF W s e cl) : GF W s e (.cons (.atom "cond") (vlist cl)) := fun s' h' => by
  have h1 := eval_sform W .cond cl e s' ((hs.mono h'.heap).notMacro_sf hx known_cond)
  obtain ⟨er, s'', h2, h3⟩ := h s' h'
  exact ⟨er, s'', h1.trans h2, h3⟩

theorem Head.callHead {s : St} {e : Nat} {L : List (String × Val)} {a : String} {f : Val} (hs : Sc s.heap e L)
    (hx : alGet a L = none) (hk : Head a f) : CallHead s.heap e (.atom a) := by
  refine callHead_of hk.special ?_
  intro ps r b dc env he
  have hv := hk.val
  unfold coreVal at hv
  cases hkn : known a with
  | none => rw [hkn] at hv; cases hv
  | some w =>
    rw [hs.lookup_known hx hkn] at he
    subst he
    rw [hkn] at hv
    cases hv
    have := hk.notMacro
    cases this

/-- A call that fails. -/
theorem GF.fn {s : St} {e : Nat} {L : List (String × Val)} {a : String} {f : Val} {xs vs : List Val} (hs : Sc s.heap e L)
    (hx : alGet a L = none) (hk : Head a f) (ha : GA W s e xs vs) (hr : Fails W s f vs) : GF W s e (.cons (.atom a) (vlist xs)) := fun s' h' => by
  obtain ⟨s1, e1, q1⟩ := (G.name (W := W) hs hx hk) s' h'
  obtain ⟨s2, e2, q2⟩ := ha.evals s1 (h'.trans q1)
  obtain ⟨er, s3, e3, q3⟩ := hr s2 e ((h'.trans q1).trans q2)
  refine ⟨er, s3, ?_, (q1.trans q2).trans q3⟩
  rw [eval_reaches (hk.callHead (hs.mono h'.heap) hx) ⟨s1, e1, e2⟩]; exact e3

/-- A call with an argument that fails. -/
theorem GF.arg {s : St} {e : Nat} {L : List (String × Val)} {a : String} {f x : Val} {xs vs ys : List Val} (hs : Sc s.heap e L)
    (hx : alGet a L = none) (hk : Head a f) (ha : GA W s e xs vs) (hr : GF W s e x) : GF W s e (.cons (.atom a) (vlist (xs ++ x :: ys))) := fun s' h' => by
  obtain ⟨s1, e1, q1⟩ := (G.name (W := W) hs hx hk) s' h'
  obtain ⟨s2, e2, q2⟩ := ha.evals s1 (h'.trans q1)
  obtain ⟨er, s3, e3, q3⟩ := hr s2 ((h'.trans q1).trans q2)
  refine ⟨.cons (msgList "evaluating function arguments") er, s3, ?_, (q1.trans q2).trans q3⟩
  rw [eval_call W _ _ e s' (hk.callHead (hs.mono h'.heap) hx) (isList_vlist _)]
  unfold evCall
  rw [M.bind_ok (extend_ok (by exact e1))]
  have h4 := evArgs_err (rest := vlist ys) e2 e3
  rw [show vlist (xs ++ x :: ys) = mkList xs (.cons x (vlist ys)) by rw [vlist, mkList_append]; rfl]
  exact M.bind_err h4

theorem Fails.lam {s : St} {ps : List String} {r : String} {x doc : Val} {m : Bool} {cenv : Nat} {vs : List Val} {L0 : List (String × Val)}
    (ha : ArityOk ps r vs) (ht : NoT ps r) (h0 : Sc s.heap cenv L0)
    (h : ∀ s1 e1, Quiet s s1 → Sc s1.heap e1 (paramSyms ps r vs ++ L0) → GF W s1 e1 x) :
    Fails W s (.lam ps r (vlist [x]) doc m cenv) vs := fun s' e hq => by
  have hq1 : Quiet s' (callSt s' cenv ps r vs) := (Quiet.refl s').grow (List.prefix_append _ _)
  have hsc : Sc (callSt s' cenv ps r vs).heap s'.heap.length (paramSyms ps r vs ++ L0) := by
    refine .frame (p := cenv) ?_ ?_ (h0.mono (hq.trans hq1).heap)
    · simp [callSt]
    · exact (h0.mono hq.heap).lt
  obtain ⟨er, s'', h1, h2⟩ := h _ _ (hq.trans hq1) hsc _ (.refl _)
  refine ⟨er, s'', ?_, hq1.trans h2⟩
  unfold callFn
  rw [evApply_lam ha ht]
  exact h1

theorem Fails.bi {s : St} {b : BI} {vs : List Val} (h : ∀ call e s', ∃ er, biFn W call b vs e s' = .err (.list er) s') : Fails W s (.bi b) vs :=
  fun s' e _ => by
    obtain ⟨er, h⟩ := h (perform W) e s'
    refine ⟨.cons (msgList ("builtin function " ++ b.name)) er, s', ?_, .refl _⟩
    unfold callFn
    simp only [evApply]
    have h' : perform W (.builtin b vs e) s' = .err (.list er) s' := by rw [perform_eq]; exact h
    exact extend_err h'

/-! ### `c*r` -/

/-- Following a list of letters from left to right. -/
def walk : List Char → Val → Option Val
  | [], v => some v
  | c :: q, v => (part c v).bind (walk q)

theorem walk_append (p q : List Char) (v : Val) : walk (p ++ q) v = (walk p v).bind (walk q) := by
  induction p generalizing v with
  | nil => rfl
  | cons c p ih => simp only [List.cons_append, walk]; cases part c v <;> simp [ih]

theorem walk_reverse (p : List Char) (v : Val) : walk p.reverse v = follow p v := by
  induction p generalizing v with
  | nil => rfl
  | cons c p ih =>
    rw [List.reverse_cons, walk_append, ih]
    simp only [follow]
    cases follow p v with
    | none => rfl
    | some w => simp only [Option.bind_some, walk]; cases part c w <;> rfl

/-- The letters as atoms. -/
def letters (q : List Char) : Val := vlist (q.map fun c => .atom (String.ofList [c]))

section
variable {s : St} {e : Nat} {L : List (String × Val)}

theorem G.part_ {x v w : Val} {c : Char} {n : String} (hc : c = 'a' ∧ n = "car" ∨ c = 'd' ∧ n = "cdr") (hs : Sc s.heap e L) (hx : alGet n L = none)
    (h : G W s e x v) (hp : part c v = some w) : G W s e (vlist [.atom n, x]) w := by
  rcases hc with ⟨rfl, rfl⟩ | ⟨rfl, rfl⟩ <;> cases v <;> simp only [part, Option.some.injEq, reduceCtorEq] at hp
  · subst hp; exact .car_nil hs hx h
  · rename_i a d; obtain rfl : a = w := by simpa using hp
    exact .car hs hx h
  · subst hp; exact .cdr_nil hs hx h
  · rename_i a d; obtain rfl : d = w := by simpa using hp
    exact .cdr hs hx h

theorem GF.part_ {x v : Val} {c : Char} {n : String} (hc : c = 'a' ∧ n = "car" ∨ c = 'd' ∧ n = "cdr") (hs : Sc s.heap e L) (hx : alGet n L = none)
    (h : G W s e x v) (hp : part c v = none) : GF W s e (vlist [.atom n, x]) := by
  rcases hc with ⟨rfl, rfl⟩ | ⟨rfl, rfl⟩
  · refine .fn hs hx hd_car (.one h) (.bi fun _ _ _ => ?_)
    cases v <;> simp [part] at hp <;> exact ⟨_, rfl⟩
  · refine .fn hs hx hd_cdr (.one h) (.bi fun _ _ _ => ?_)
    cases v <;> simp [part] at hp <;> exact ⟨_, rfl⟩

end

theorem ret_cxr : ∀ (q : List Char) {s : St} (_ : Base s.heap 0) (v : Val), (∀ c ∈ q, c = 'a' ∨ c = 'd') →
    (∀ w, walk q v = some w → Returns W s k_cStarr [letters q, v] w) ∧ (walk q v = none → Fails W s k_cStarr [letters q, v])
  | [], s, hc, v, _ => by
    refine ⟨fun w hw => ?_, fun h => by cases h⟩
    cases hw
    exact .lam rfl (by decide) (.base hc) fun s1 e1 hq hs => .cond_ hs rfl (.hit (.not_nil hs rfl (.v hs rfl rfl)) (by decide) (.v hs rfl rfl))
  | c :: q, s, hc, v, hq => by
    have hcd := hq c (by simp)
    have ih := fun {s : St} (hc : Base s.heap 0) (v : Val) => ret_cxr q hc v (fun c h => hq c (by simp [h]))
    have hn : letters (c :: q) ≠ .nil := by simp [letters]
    constructor
    · intro w hw
      simp only [walk] at hw
      cases hp : part c v with
      | none => rw [hp] at hw; cases hw
      | some u =>
        rw [hp] at hw
        refine .lam rfl (by decide) (.base hc) fun s1 e1 hq1 hs => .cond_ hs rfl (.skip (.not_cons hs rfl (.v hs rfl rfl) hn) ?_)
        rcases hcd with rfl | rfl
        · refine .hit (.eq hs rfl (.quote hs rfl known_quote) (.car hs rfl (.v hs rfl rfl))) (by decide) ?_
          exact .fn hs rfl hd_cStarr (.two (.cdr hs rfl (.v hs rfl rfl)) (.part_ (.inl ⟨rfl, rfl⟩) hs rfl (.v hs rfl rfl) hp)) ((ih (hc.mono hq1.heap) u).1 w hw)
        · refine .skip (show G W s1 e1 _ (vBool ((Val.atom "a").equal (.atom (String.ofList ['d'])))) from .eq hs rfl (.quote hs rfl known_quote) (.car hs rfl (.v hs rfl rfl))) ?_
          refine .hit (.eq hs rfl (.quote hs rfl known_quote) (.car hs rfl (.v hs rfl rfl))) (by decide) ?_
          exact .fn hs rfl hd_cStarr (.two (.cdr hs rfl (.v hs rfl rfl)) (.part_ (.inr ⟨rfl, rfl⟩) hs rfl (.v hs rfl rfl) hp)) ((ih (hc.mono hq1.heap) u).1 w hw)
    · intro hw
      simp only [walk] at hw
      refine .lam rfl (by decide) (.base hc) fun s1 e1 hq1 hs => .cond hs rfl (.skip (.not_cons hs rfl (.v hs rfl rfl) hn) ?_)
      rcases hcd with rfl | rfl
      · refine .hit (.eq hs rfl (.quote hs rfl known_quote) (.car hs rfl (.v hs rfl rfl))) (by decide) ?_
        cases hp : part 'a' v with
        | none => exact .arg (xs := [_]) (ys := []) hs rfl hd_cStarr (.one (.cdr hs rfl (.v hs rfl rfl))) (.part_ (.inl ⟨rfl, rfl⟩) hs rfl (.v hs rfl rfl) hp)
        | some u =>
          rw [hp] at hw
          exact .fn hs rfl hd_cStarr (.two (.cdr hs rfl (.v hs rfl rfl)) (.part_ (.inl ⟨rfl, rfl⟩) hs rfl (.v hs rfl rfl) hp)) ((ih (hc.mono hq1.heap) u).2 hw)
      · refine .skip (show G W s1 e1 _ (vBool ((Val.atom "a").equal (.atom (String.ofList ['d'])))) from .eq hs rfl (.quote hs rfl known_quote) (.car hs rfl (.v hs rfl rfl))) ?_
        refine .hit (.eq hs rfl (.quote hs rfl known_quote) (.car hs rfl (.v hs rfl rfl))) (by decide) ?_
        cases hp : part 'd' v with
        | none => exact .arg (xs := [_]) (ys := []) hs rfl hd_cStarr (.one (.cdr hs rfl (.v hs rfl rfl))) (.part_ (.inr ⟨rfl, rfl⟩) hs rfl (.v hs rfl rfl) hp)
        | some u =>
          rw [hp] at hw
          exact .fn hs rfl hd_cStarr (.two (.cdr hs rfl (.v hs rfl rfl)) (.part_ (.inr ⟨rfl, rfl⟩) hs rfl (.v hs rfl rfl) hp)) ((ih (hc.mono hq1.heap) u).2 hw)

/-- The function a name `c..r` stands for. -/
theorem ret_cxrLambda {p : List Char} (hp : ∀ c ∈ p, c = 'a' ∨ c = 'd') {s : St} {e : Nat} (hc : Base s.heap 0) (he : Base s.heap e) (v : Val) :
    (∀ w, follow p v = some w → Returns W s (cxrLambda (String.ofList ('c' :: p ++ ['r'])) e) [v] w) ∧
    (follow p v = none → Fails W s (cxrLambda (String.ofList ('c' :: p ++ ['r'])) e) [v]) := by
  have hl : cxrLambda (String.ofList ('c' :: p ++ ['r'])) e =
      .lam ["xs"] "" (vlist [vlist [.atom "c*r", vlist [.atom "quote", letters p.reverse], .atom "xs"]]) .nil false e := by
    simp [cxrLambda, letters]
  have hr : ∀ c ∈ p.reverse, c = 'a' ∨ c = 'd' := fun c h => hp c (by simpa using h)
  rw [hl, ← walk_reverse]
  constructor
  · intro w hw
    exact .lam rfl (by decide) (.base he) fun s1 e1 hq hs => .fn hs rfl hd_cStarr (.two (.quote hs rfl known_quote) (.v hs rfl rfl))
      ((ret_cxr _ (hc.mono hq.heap) v hr).1 w hw)
  · intro hw
    exact .lam rfl (by decide) (.base he) fun s1 e1 hq hs => .fn hs rfl hd_cStarr (.two (.quote hs rfl known_quote) (.v hs rfl rfl))
      ((ret_cxr _ (hc.mono hq.heap) v hr).2 hw)

end L1
