import Verif.Lemmas.CoreKnown
/- Rules for the control macros of the core library, and `concat2`. -/
set_option autoImplicit false
namespace L1

variable {W : World}

instance (ps : List String) (r : String) : Decidable (NoT ps r) := by unfold NoT; infer_instance

theorem G.fn {s : St} {e : Nat} {L : List (String × Val)} {a : String} {f v : Val} {xs vs : List Val} (hs : Sc s.heap e L)
    (hx : alGet a L = none) (hk : Head a f) (ha : GA W s e xs vs) (hr : Returns W s f vs v) : G W s e (.cons (.atom a) (vlist xs)) v :=
  .callCore hs hx hk.val hk.notMacro hk.special hk.cxr hk.t ha hr

theorem G.name {s : St} {e : Nat} {L : List (String × Val)} {a : String} {f : Val} (hs : Sc s.heap e L)
    (hx : alGet a L = none) (hk : Head a f) : G W s e (.atom a) f := .core hs hx hk.val hk.cxr hk.t

theorem GA.one {s : St} {e : Nat} {x v : Val} (h : G W s e x v) : GA W s e [x] [v] := .cons h .nil
theorem GA.two {s : St} {e : Nat} {x v y w : Val} (h : G W s e x v) (h' : G W s e y w) : GA W s e [x, y] [v, w] := .cons h (.cons h' .nil)

/-! #### Common built-in functions -/

section
variable {s : St} {e : Nat} {L : List (String × Val)}

theorem G.not {x v : Val} (hs : Sc s.heap e L) (hx : alGet "not" L = none) (h : G W s e x v) :
    G W s e (vlist [.atom "not", x]) (vBool (v == .nil)) :=
  .fn hs hx hd_not (.one h) (.bi fun _ _ _ => rfl)

theorem G.not_nil {x : Val} (hs : Sc s.heap e L) (hx : alGet "not" L = none) (h : G W s e x .nil) :
    G W s e (vlist [.atom "not", x]) (.atom "t") := .not hs hx h

theorem G.not_cons {x v : Val} (hs : Sc s.heap e L) (hx : alGet "not" L = none) (h : G W s e x v) (hv : v ≠ .nil) :
    G W s e (vlist [.atom "not", x]) .nil := by
  have := G.not hs hx h
  rw [beq_eq_false_iff_ne.2 hv] at this; exact this

theorem G.cons {x y v w : Val} (hs : Sc s.heap e L) (hx : alGet "cons" L = none) (h : G W s e x v) (h' : G W s e y w) :
    G W s e (vlist [.atom "cons", x, y]) (.cons v w) :=
  .fn hs hx hd_cons (.two h h') (.bi fun _ _ _ => rfl)

theorem G.car {x v w : Val} (hs : Sc s.heap e L) (hx : alGet "car" L = none) (h : G W s e x (.cons v w)) :
    G W s e (vlist [.atom "car", x]) v := .fn hs hx hd_car (.one h) (.bi fun _ _ _ => rfl)

theorem G.car_nil {x : Val} (hs : Sc s.heap e L) (hx : alGet "car" L = none) (h : G W s e x .nil) :
    G W s e (vlist [.atom "car", x]) .nil := .fn hs hx hd_car (.one h) (.bi fun _ _ _ => rfl)

theorem G.cdr {x v w : Val} (hs : Sc s.heap e L) (hx : alGet "cdr" L = none) (h : G W s e x (.cons v w)) :
    G W s e (vlist [.atom "cdr", x]) w := .fn hs hx hd_cdr (.one h) (.bi fun _ _ _ => rfl)

theorem G.cdr_nil {x : Val} (hs : Sc s.heap e L) (hx : alGet "cdr" L = none) (h : G W s e x .nil) :
    G W s e (vlist [.atom "cdr", x]) .nil := .fn hs hx hd_cdr (.one h) (.bi fun _ _ _ => rfl)

/-- The value of a variable. -/
theorem G.v {a : String} {v : Val} (hs : Sc s.heap e L) (hx : alGet a L = some v) (ha : (isCxr a || a == "t") = false) : G W s e (.atom a) v := by
  simp only [Bool.or_eq_false_iff, beq_eq_false_iff_ne] at ha
  exact .var hs hx ha.1 ha.2
end

/-! #### `concat2` -/

theorem ret_concat2 {s : St} (hc : Base s.heap 0) (xs : List Val) (b : Val) : Returns W s k_concat2 [vlist xs, b] (mkList xs b) := by
  induction xs generalizing s with
  | nil =>
    exact .lam rfl (by decide) (.base hc) fun s1 e1 _ hs =>
      .cond hs rfl known_cond (.hit (.not_nil hs rfl (.v hs rfl rfl)) (by decide) (.v hs rfl rfl))
  | cons x xs ih =>
    exact .lam rfl (by decide) (.base hc) fun s1 e1 hq hs =>
      .cond hs rfl known_cond (.skip (.not_cons hs rfl (.v hs rfl rfl) (by simp))
        (.hit (.t _ _) (by decide) (.cons hs rfl (.car hs rfl (.v hs rfl rfl)) (.fn hs rfl hd_concat2
          (.two (.cdr hs rfl (.v hs rfl rfl)) (.v hs rfl rfl)) (ih (hc.mono hq.heap))))))

/-- Whatever `concat2` means here, it appends. -/
def Cc (W : World) (s : St) (L : List (String × Val)) : Prop :=
  ∃ f, (alGet "concat2" L = some f ∨ (alGet "concat2" L = none ∧ f = k_concat2)) ∧ f.notMacro = true ∧
    ∀ xs b, Returns W s f [vlist xs, b] (mkList xs b)

theorem Cc.core {s : St} {L : List (String × Val)} (hc : Base s.heap 0) (h : alGet "concat2" L = none) : Cc W s L :=
  ⟨k_concat2, .inr ⟨h, rfl⟩, rfl, fun xs b => ret_concat2 hc xs b⟩

theorem Cc.mono {s s1 : St} {L : List (String × Val)} (h : Cc W s L) (hq : Quiet s s1) : Cc W s1 L := by
  obtain ⟨f, h1, h2, h3⟩ := h
  exact ⟨f, h1, h2, fun xs b => (h3 xs b).mono hq⟩

theorem Cc.under {s : St} {L M : List (String × Val)} (h : Cc W s L) (hm : alGet "concat2" M = none) : Cc W s (M ++ L) := by
  obtain ⟨f, h1, h2, h3⟩ := h
  exact ⟨f, by rw [alGet_append, hm]; exact h1, h2, h3⟩

theorem G.concat2 {s : St} {e : Nat} {L : List (String × Val)} {x y w : Val} {vs : List Val} (hs : Sc s.heap e L) (hc : Cc W s L)
    (h : G W s e x (vlist vs)) (h' : G W s e y w) : G W s e (vlist [.atom "concat2", x, y]) (mkList vs w) := by
  obtain ⟨f, h1, h2, h3⟩ := hc
  rcases h1 with h1 | ⟨h1, rfl⟩
  · exact .callVar hs h1 h2 rfl rfl (by decide) (.two h h') (h3 _ _)
  · exact .fn hs h1 hd_concat2 (.two h h') (h3 _ _)

/-! #### Control macros -/

/-- Names the control macros rely on. -/
def ctlNames : List String :=
  ["if", "if-not", "when", "when-not", "progn", "syntax-quote", "cons", "quote", "cond", "not", "let"]

/-- None of them is bound in `L`. -/
def Plain (L : List (String × Val)) : Prop := ∀ n ∈ ctlNames, alGet n L = none

theorem plain_of {L : List (String × Val)} (h : (ctlNames.all fun n => (alGet n L).isNone) = true) : Plain L := by
  intro n hn
  have := List.all_eq_true.1 h n hn
  simpa using this

theorem Plain.under {L M : List (String × Val)} (h : Plain L) (hm : Plain M) : Plain (M ++ L) := by
  intro n hn; rw [alGet_append, hm n hn, h n hn]; rfl

section
variable {s : St} {e : Nat} {L : List (String × Val)}

theorem G.template' {T c v : Val} (hs : Sc s.heap e L) (hp : Plain L) (hc : syntaxQuote T = some c) (h : G W s e c v) :
    G W s e (vlist [.atom "syntax-quote", T]) v := .template hs (hp _ (by simp [ctlNames])) known_syntax_quote hc h

/-- `(if c a b)` stands for `(cond (c a) (t b))`. -/
theorem Becomes.if_ {c a b : Val} (hs : Sc s.heap e L) (hp : Plain L) :
    Becomes W s e (vlist [.atom "if", c, a, b])
      (vlist [.atom "cond", vlist [c, a], vlist [.atom "t", b]]) := by
  refine .mac (xs := [c, a, b]) (y := vlist [.atom "cond", vlist [c, a], vlist [.atom "t", b]]) hs (hp _ (by decide)) known_if (by simp [ArityOk]) (by decide) (fun s1 e1 _ hs1 => ?_)
  have hp1 : Plain (paramSyms ["condition", "then", "else"] "" [c, a, b] ++ L) := hp.under (plain_of rfl)
  have kc := hp1 "cons" (by decide)
  have kq := hp1 "quote" (by decide)
  exact .template' hs1 hp1 rfl (.cons hs1 kc (.quote hs1 kq known_quote) (.cons hs1 kc (.cons hs1 kc (.v hs1 rfl rfl) (.cons hs1 kc (.v hs1 rfl rfl) (.nil _ _)))
    (.cons hs1 kc (.cons hs1 kc (.quote hs1 kq known_quote) (.cons hs1 kc (.v hs1 rfl rfl) (.nil _ _))) (.nil _ _))))

theorem G.if_ {c a b v : Val} (hs : Sc s.heap e L) (hp : Plain L)
    (h : G W s e (vlist [.atom "cond", vlist [c, a], vlist [.atom "t", b]]) v) : G W s e (vlist [.atom "if", c, a, b]) v := (Becomes.if_ hs hp).g h

theorem G.ifT {c a b v w : Val} (hs : Sc s.heap e L) (hp : Plain L) (hc : G W s e c w) (hw : w ≠ .nil) (h : G W s e a v) :
    G W s e (vlist [.atom "if", c, a, b]) v :=
  .if_ hs hp (.cond hs (hp _ (by decide)) known_cond (.hit hc hw h))

theorem G.ifF {c a b v : Val} (hs : Sc s.heap e L) (hp : Plain L) (hc : G W s e c .nil) (h : G W s e b v) :
    G W s e (vlist [.atom "if", c, a, b]) v :=
  .if_ hs hp (.cond hs (hp _ (by decide)) known_cond (.skip hc (.hit (.t _ _) (by decide) h)))

/-- `(if-not c a b)` stands for `(cond ((not c) a) (t b))`. -/
theorem Becomes.ifNot {c a b : Val} (hs : Sc s.heap e L) (hp : Plain L) :
    Becomes W s e (vlist [.atom "if-not", c, a, b])
      (vlist [.atom "cond", vlist [vlist [.atom "not", c], a], vlist [.atom "t", b]]) := by
  refine .mac (xs := [c, a, b]) (y := vlist [.atom "cond", vlist [vlist [.atom "not", c], a], vlist [.atom "t", b]]) hs (hp _ (by decide)) known_if_not (by simp [ArityOk]) (by decide)
    (fun s1 e1 _ hs1 => ?_)
  have hp1 : Plain (paramSyms ["condition", "then", "else"] "" [c, a, b] ++ L) := hp.under (plain_of rfl)
  have kc := hp1 "cons" (by decide)
  have kq := hp1 "quote" (by decide)
  exact .template' hs1 hp1 rfl (.cons hs1 kc (.quote hs1 kq known_quote) (.cons hs1 kc
    (.cons hs1 kc (.cons hs1 kc (.quote hs1 kq known_quote) (.cons hs1 kc (.v hs1 rfl rfl) (.nil _ _))) (.cons hs1 kc (.v hs1 rfl rfl) (.nil _ _)))
    (.cons hs1 kc (.cons hs1 kc (.quote hs1 kq known_quote) (.cons hs1 kc (.v hs1 rfl rfl) (.nil _ _))) (.nil _ _))))

theorem G.ifNot {c a b v : Val} (hs : Sc s.heap e L) (hp : Plain L)
    (h : G W s e (vlist [.atom "cond", vlist [vlist [.atom "not", c], a], vlist [.atom "t", b]]) v) : G W s e (vlist [.atom "if-not", c, a, b]) v := (Becomes.ifNot hs hp).g h

theorem G.ifNotT {c a b v : Val} (hs : Sc s.heap e L) (hp : Plain L) (hc : G W s e c .nil) (h : G W s e a v) :
    G W s e (vlist [.atom "if-not", c, a, b]) v :=
  .ifNot hs hp (.cond hs (hp _ (by decide)) known_cond (.hit (.not_nil hs (hp _ (by decide)) hc) (by decide) h))

theorem G.ifNotF {c a b v w : Val} (hs : Sc s.heap e L) (hp : Plain L) (hc : G W s e c w) (hw : w ≠ .nil) (h : G W s e b v) :
    G W s e (vlist [.atom "if-not", c, a, b]) v :=
  .ifNot hs hp (.cond hs (hp _ (by decide)) known_cond (.skip (.not_cons hs (hp _ (by decide)) hc hw) (.hit (.t _ _) (by decide) h)))

/-- `(progn x ...)` stands for `(let () x ...)`. -/
theorem Becomes.progn {xs : List Val} (hs : Sc s.heap e L) (hp : Plain L) (hcc : Cc W s L) :
    Becomes W s e (.cons (.atom "progn") (vlist xs))
      (.cons (.atom "let") (.cons .nil (vlist xs))) := by
  refine .mac (y := .cons (.atom "let") (.cons .nil (vlist xs))) hs (hp _ (by decide)) known_progn (Nat.zero_le _) (by decide) (fun s1 e1 hq hs1 => ?_)
  have hp1 : Plain (paramSyms [] "body" xs ++ L) := hp.under (plain_of rfl)
  have hc1 : Cc W s1 (paramSyms [] "body" xs ++ L) := (hcc.mono hq).under rfl
  have kc := hp1 "cons" (by decide)
  have kq := hp1 "quote" (by decide)
  exact .template' hs1 hp1 rfl (.cons hs1 kc (.quote hs1 kq known_quote) (.cons hs1 kc (.nil _ _) (.concat2 hs1 hc1 (.v hs1 rfl rfl) (.nil _ _))))

theorem G.progn {xs : List Val} {v : Val} (hs : Sc s.heap e L) (hp : Plain L) (hcc : Cc W s L)
    (h : G W s e (.cons (.atom "let") (.cons .nil (vlist xs))) v) : G W s e (.cons (.atom "progn") (vlist xs)) v := (Becomes.progn hs hp hcc).g h

/-- `progn` of one form. -/
theorem G.progn1 {x v : Val} (hs : Sc s.heap e L) (hp : Plain L) (hcc : Cc W s L)
    (h : ∀ s1 e1, Quiet s s1 → Sc s1.heap e1 ([] ++ L) → G W s1 e1 x v) : G W s e (vlist [.atom "progn", x]) v :=
  .progn (xs := [x]) hs hp hcc (.let1 hs (hp _ (by decide)) known_let .nil h)

/-- `(when c x ...)` stands for `(cond (c (progn x ...)))`. -/
theorem Becomes.when_ {c : Val} {xs : List Val} (hs : Sc s.heap e L) (hp : Plain L) (hcc : Cc W s L) :
    Becomes W s e (.cons (.atom "when") (vlist (c :: xs)))
      (vlist [.atom "cond", vlist [c, .cons (.atom "progn") (vlist xs)]]) := by
  refine .mac (y := vlist [.atom "cond", vlist [c, .cons (.atom "progn") (vlist xs)]]) hs (hp _ (by decide)) known_when
    (Nat.le_add_left _ _) (by decide) (fun s1 e1 hq hs1 => ?_)
  have hp1 : Plain (paramSyms ["condition"] "body" (c :: xs) ++ L) := hp.under (plain_of rfl)
  have hc1 : Cc W s1 (paramSyms ["condition"] "body" (c :: xs) ++ L) := (hcc.mono hq).under rfl
  have kc := hp1 "cons" (by decide)
  have kq := hp1 "quote" (by decide)
  exact .template' hs1 hp1 rfl (.cons hs1 kc (.quote hs1 kq known_quote) (.cons hs1 kc (.cons hs1 kc (.v hs1 rfl rfl)
    (.cons hs1 kc (.cons hs1 kc (.quote hs1 kq known_quote) (.concat2 hs1 hc1 (.v hs1 rfl rfl) (.nil _ _))) (.nil _ _))) (.nil _ _)))

theorem G.when_ {c v : Val} {xs : List Val} (hs : Sc s.heap e L) (hp : Plain L) (hcc : Cc W s L)
    (h : G W s e (vlist [.atom "cond", vlist [c, .cons (.atom "progn") (vlist xs)]]) v) : G W s e (.cons (.atom "when") (vlist (c :: xs))) v := (Becomes.when_ hs hp hcc).g h

theorem G.whenF {c : Val} {xs : List Val} (hs : Sc s.heap e L) (hp : Plain L) (hcc : Cc W s L) (hc : G W s e c .nil) :
    G W s e (.cons (.atom "when") (vlist (c :: xs))) .nil :=
  .when_ hs hp hcc (.cond hs (hp _ (by decide)) known_cond (.skip hc (.none _ _)))

theorem G.whenT {c v w x : Val} (hs : Sc s.heap e L) (hp : Plain L) (hcc : Cc W s L) (hc : G W s e c w) (hw : w ≠ .nil)
    (h : ∀ s1 e1, Quiet s s1 → Sc s1.heap e1 ([] ++ L) → G W s1 e1 x v) : G W s e (vlist [.atom "when", c, x]) v :=
  .when_ (xs := [x]) hs hp hcc (.cond hs (hp _ (by decide)) known_cond (.hit hc hw (.progn1 hs hp hcc h)))

/-- `(when-not c x ...)` stands for `(when (not c) x ...)`. -/
theorem Becomes.whenNot {c : Val} {xs : List Val} (hs : Sc s.heap e L) (hp : Plain L) (hcc : Cc W s L) :
    Becomes W s e (.cons (.atom "when-not") (vlist (c :: xs)))
      (.cons (.atom "when") (vlist (vlist [.atom "not", c] :: xs))) := by
  refine .mac (y := .cons (.atom "when") (vlist (vlist [.atom "not", c] :: xs))) hs (hp _ (by decide)) known_when_not
    (Nat.le_add_left _ _) (by decide) (fun s1 e1 hq hs1 => ?_)
  have hp1 : Plain (paramSyms ["condition"] "body" (c :: xs) ++ L) := hp.under (plain_of rfl)
  have hc1 : Cc W s1 (paramSyms ["condition"] "body" (c :: xs) ++ L) := (hcc.mono hq).under rfl
  have kc := hp1 "cons" (by decide)
  have kq := hp1 "quote" (by decide)
  exact .template' hs1 hp1 rfl (.cons hs1 kc (.quote hs1 kq known_quote) (.cons hs1 kc (.cons hs1 kc (.quote hs1 kq known_quote)
    (.cons hs1 kc (.v hs1 rfl rfl) (.nil _ _))) (.concat2 hs1 hc1 (.v hs1 rfl rfl) (.nil _ _))))

theorem G.whenNot {c v : Val} {xs : List Val} (hs : Sc s.heap e L) (hp : Plain L) (hcc : Cc W s L)
    (h : G W s e (.cons (.atom "when") (vlist (vlist [.atom "not", c] :: xs))) v) : G W s e (.cons (.atom "when-not") (vlist (c :: xs))) v := (Becomes.whenNot hs hp hcc).g h
end

end L1
