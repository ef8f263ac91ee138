import Verif.Lemmas.Within
import Verif.Lemmas.CoreRest
import Verif.Lemmas.CoreGives
import Verif.Spec.StackUse
/-
Functions of the core library evaluated on a fixed stack.
-/
set_option autoImplicit false
namespace L1

variable {W : World}

/-! ### Rules -/

theorem GW.mono {d : Nat} {s s1 : St} {e : Nat} {x v : Val} (h : GW W d s e x v) (hq : Quiet s s1) : GW W d s1 e x v := fun s' h' => h s' (hq.trans h')
theorem RW.mono {d : Nat} {s s1 : St} {f v : Val} {vs : List Val} (h : RW W d s f vs v) (hq : Quiet s s1) : RW W d s1 f vs v := fun s' e h' => h s' e (hq.trans h')

theorem le_performIn {d d' : Nat} (hd : d ≤ d') (t : Task) : Le (true : Bool) (performIn W d t) (performIn W d' t) := by
  intro s
  by_cases h : (performIn W d t s).Definite
  · right
    refine (performIn_mono hd ?_ ?_).symm
    · intro h1; rw [h1] at h; exact h
    · intro s' h1; rw [h1] at h; exact h
  · left
    by_contra hi
    exact h (not_indef_iff.1 hi)

/-- More stack does no harm. -/
theorem RW.deeper {d d' : Nat} {s : St} {f v : Val} {vs : List Val} (h : RW W d s f vs v) (hd : d ≤ d') : RW W d' s f vs v := fun s' e h' => by
  obtain ⟨s'', e1, q1⟩ := h s' e h'
  refine ⟨s'', ?_, q1⟩
  rcases le_evApply (le_performIn (W := W) hd) (le_performIn (W := W) (Nat.succ_le_succ hd)) f vs e s' with h2 | h2
  · rw [e1] at h2; exact absurd h2 (not_indef_iff.2 trivial)
  · rw [← h2]; exact e1

theorem GW.nil (d : Nat) (s : St) (e : Nat) : GW W d s e .nil .nil := .of_eval fun _ _ => performIn_leaf fun _ _ => rfl

theorem GW.quote {d : Nat} {s : St} {e : Nat} {L : List (String × Val)} {v : Val} (hs : Sc s.heap e L) (hx : alGet "quote" L = none) :
    GW W d s e (vlist [.atom "quote", v]) v := .of_eval fun s' h' => performIn_leaf fun call tail => by
  have hm : NotMacro s'.heap e SF.quote.name := (hs.mono h'.heap).notMacro_sf hx known_quote
  show evalStep call tail (form SF.quote.name [v]) e s' = _
  rw [form, evalStep_notMacro (notMacro_isMacroCall hm _), evExpr_special (isList_vlist _)]
  rfl

theorem GW.template {d : Nat} {s : St} {e : Nat} {L : List (String × Val)} {T c v : Val} (hs : Sc s.heap e L) (hx : alGet "syntax-quote" L = none)
    (hc : syntaxQuote T = some c) (h : GW W (d + 1) s e c v) : GW W (d + 1) s e (vlist [.atom "syntax-quote", T]) v := fun s' h' => by
  obtain ⟨s'', h2, h3⟩ := h s' h'
  exact ⟨s'', (C30_tail_step W d _ _ e e s' s' (.syntaxQuote (more := []) ((hs.mono h'.heap).notMacro_sf hx known_syntax_quote) hc)).trans h2, h3⟩

/-- On a stack of `d`, `x` in scope `e` stands for `y`. -/
def BW (W : World) (d : Nat) (s : St) (e : Nat) (x y : Val) : Prop := ∀ s', Quiet s s' → ∃ s1, Quiet s' s1 ∧ evalWithin W d x e s' = evalWithin W d y e s1

theorem BW.g {d : Nat} {s : St} {e : Nat} {x y v : Val} (h : BW W d s e x y) (hy : GW W d s e y v) : GW W d s e x v := fun s' h' => by
  obtain ⟨s1, q1, e1⟩ := h s' h'
  obtain ⟨s2, e2, q2⟩ := hy s1 (h'.trans q1)
  exact ⟨s2, e1.trans e2, q1.trans q2⟩

theorem BW.mac {d : Nat} {s : St} {e : Nat} {L : List (String × Val)} {m : String} {ps : List String} {r : String} {bx doc y : Val} {cenv : Nat}
    {xs : List Val} (hs : Sc s.heap e L) (hx : alGet m L = none) (hk : known m = some (some (.lam ps r (vlist [bx]) doc true cenv)))
    (ha : ArityOk ps r xs) (ht : NoT ps r)
    (hb : ∀ s1 e1, Quiet s s1 → Sc s1.heap e1 (paramSyms ps r xs ++ L) → GW W d s1 e1 bx y) :
    BW W (d + 2) s e (.cons (.atom m) (vlist xs)) y := fun s' h' => by
  have hs' := hs.mono h'.heap
  have hq1 : Quiet s' (callSt s' e ps r xs) := (Quiet.refl s').grow (List.prefix_append _ _)
  have hsc : Sc (callSt s' e ps r xs).heap s'.heap.length (paramSyms ps r xs ++ L) := by
    refine .frame (p := e) ?_ hs'.lt (hs'.mono hq1.heap)
    simp [callSt]
  obtain ⟨s2, e2, q2⟩ := hb _ _ (h'.trans hq1) hsc _ (.refl _)
  have hm : isMacroCallIn (lookup s'.heap e) (.cons (.atom m) (vlist xs)) = true := by simp only [isMacroCallIn, hs'.lookup_known hx hk]
  have h1 : mexpand1 (performIn W d) (.cons (.atom m) (vlist xs)) e s' = .ok y s2 := by
    unfold mexpand1
    rw [M.bind_ok (isMacroCallM_run _ _ _), M.ite_pos hm]
    dsimp only
    rw [M.bind_ok (lookupM_run _ _ _), hs'.lookup_known hx hk]
    simp only [toList?_vlist]
    rw [M.bind_ok (newEnvM_run _ _), M.bind_ok (extend_ok (bindArgs_ok ha ht))]
    simp only [vlist_cons, vlist_nil, evBodyMacro]
    rw [M.bind_ok (extend_ok (by exact e2))]; rfl
  refine ⟨s2, hq1.trans q2, ?_⟩
  have h2 : performIn W (d + 1) (.mexpand (.cons (.atom m) (vlist xs)) e) s'
      = if isMacroCallIn (lookup s2.heap e) y then performIn W (d + 1) (.mexpand y e) s2 else .ok y s2 := by
    rw [performIn_eq]
    show mexpandStep (performIn W d) (performIn W (d + 1)) _ e s' = _
    unfold mexpandStep
    rw [M.bind_ok (extend_ok h1), M.bind_ok (isMacroCallM_run _ _ _)]
    by_cases hy : isMacroCallIn (lookup s2.heap e) y = true
    · rw [M.ite_pos hy, if_pos hy]
    · rw [M.ite_neg hy, if_neg hy]; rfl
  rw [evalWithin_eq, evalStep_macro hm, evalWithin_eq]
  by_cases hy : isMacroCallIn (lookup s2.heap e) y = true
  · rw [if_pos hy] at h2
    rw [evalStep_macro hy]
    rw [M.bind_run, M.bind_run]
    unfold extend
    rw [extendWith_run, extendWith_run, h2]
  · rw [if_neg hy] at h2
    rw [M.bind_ok (extend_ok h2), evalStep_notMacro (by simpa using hy)]

theorem Head.withinName {a : String} {f : Val} (hk : Head a f) {d : Nat} {s0 : St} {e : Nat} (hl : lookup s0.heap e a = alGet a coreEnv) :
    evalWithin W d (.atom a) e s0 = .ok f s0 := by
  have hk2 := hk.val
  unfold coreVal known at hk2
  cases hg : alGet a coreEnv with
  | some w =>
    rw [hg] at hk2 hl; cases hk2
    exact within_atom hk.cxr hk.t hl
  | none =>
    rw [hg] at hk2 hl
    dsimp only at hk2
    by_cases hb : ((builtinOf a).isSome || (specialOf a).isSome) = true
    · rw [if_pos hb] at hk2
      simp only [Option.map_eq_some_iff] at hk2
      obtain ⟨b, hb, rfl⟩ := hk2
      exact within_bi hk.cxr hk.t hl hb
    · rw [if_neg hb] at hk2; cases hk2

theorem RW.gives {d : Nat} {s : St} {f v : Val} {vs : List Val} (h : RW W d s f vs v) {a : String} (hk : Head a f) : GivesWithin W d s a vs v := by
  intro e args s0 hl ha
  obtain ⟨h1, _⟩ := hk.reaches (W := W) hl
  obtain ⟨s', h3, h4⟩ := h s e (.refl _)
  refine ⟨s', ?_, h4⟩
  rw [form, within_call h1 (isList_vlist _)]
  unfold evCall
  rw [M.bind_ok (extend_ok (by exact hk.withinName hl)), M.bind_ok (evArgs_within ha)]
  exact h3

section
variable {d : Nat} {s : St} {e : Nat} {L : List (String × Val)}

theorem GW.name {a : String} {f : Val} (hs : Sc s.heap e L) (hx : alGet a L = none) (hk : Head a f) : GW W d s e (.atom a) f := by
  refine .of_eval fun s' h' => ?_
  have hk2 := hk.val
  unfold coreVal at hk2
  cases hkn : known a with
  | none => rw [hkn] at hk2; cases hk2
  | some w =>
    rw [hkn] at hk2
    have hl := (hs.mono h'.heap).lookup_known hx hkn
    cases w with
    | some w => cases hk2; exact within_atom hk.cxr hk.t hl
    | none =>
      simp only [Option.map_eq_some_iff] at hk2
      obtain ⟨b, hb, rfl⟩ := hk2
      exact within_bi hk.cxr hk.t hl hb

theorem GW.not_nil {x : Val} (hs : Sc s.heap e L) (hx : alGet "not" L = none) (h : GW W d s e x .nil) :
    GW W (d + 1) s e (vlist [.atom "not", x]) (.atom "t") := .fn hs hx hd_not (.one h) (.bi fun _ _ _ => rfl)

theorem GW.not_cons {x v : Val} (hs : Sc s.heap e L) (hx : alGet "not" L = none) (h : GW W d s e x v) (hv : v ≠ .nil) :
    GW W (d + 1) s e (vlist [.atom "not", x]) .nil := by
  have : GW W (d + 1) s e (vlist [.atom "not", x]) (vBool (v == .nil)) := .fn hs hx hd_not (.one h) (.bi fun _ _ _ => rfl)
  rw [beq_eq_false_iff_ne.2 hv] at this; exact this

theorem GW.cons {x y v w : Val} (hs : Sc s.heap e L) (hx : alGet "cons" L = none) (h : GW W d s e x v) (h' : GW W d s e y w) :
    GW W (d + 1) s e (vlist [.atom "cons", x, y]) (.cons v w) := .fn hs hx hd_cons (.two h h') (.bi fun _ _ _ => rfl)

theorem GW.car {x v w : Val} (hs : Sc s.heap e L) (hx : alGet "car" L = none) (h : GW W d s e x (.cons v w)) :
    GW W (d + 1) s e (vlist [.atom "car", x]) v := .fn hs hx hd_car (.one h) (.bi fun _ _ _ => rfl)

theorem GW.car_nil {x : Val} (hs : Sc s.heap e L) (hx : alGet "car" L = none) (h : GW W d s e x .nil) :
    GW W (d + 1) s e (vlist [.atom "car", x]) .nil := .fn hs hx hd_car (.one h) (.bi fun _ _ _ => rfl)

theorem GW.cdr {x v w : Val} (hs : Sc s.heap e L) (hx : alGet "cdr" L = none) (h : GW W d s e x (.cons v w)) :
    GW W (d + 1) s e (vlist [.atom "cdr", x]) w := .fn hs hx hd_cdr (.one h) (.bi fun _ _ _ => rfl)

theorem GW.cdr_nil {x : Val} (hs : Sc s.heap e L) (hx : alGet "cdr" L = none) (h : GW W d s e x .nil) :
    GW W (d + 1) s e (vlist [.atom "cdr", x]) .nil := .fn hs hx hd_cdr (.one h) (.bi fun _ _ _ => rfl)

theorem GW.eq {x y v w : Val} (hs : Sc s.heap e L) (hx : alGet "=" L = none) (h : GW W d s e x v) (h' : GW W d s e y w) :
    GW W (d + 1) s e (vlist [.atom "=", x, y]) (vBool (v.equal w)) := .fn hs hx hd_eq (.two h h') (.bi fun _ _ _ => by simp [biFn, bEq])

theorem GW.len {x : Val} {xs : List Val} (hs : Sc s.heap e L) (hx : alGet "len" L = none) (h : GW W d s e x (vlist xs)) :
    GW W (d + 1) s e (vlist [.atom "len", x]) (.num xs.length) :=
  .fn hs hx hd_len (.one h) (.bi fun _ _ _ => by simp [biFn, bLen, bLenLoop_vlist])

theorem GW.cond_ {cl : List Val} {v : Val} (hs : Sc s.heap e L) (hx : alGet "cond" L = none) (h : GWC W d s e cl v) :
    GW W (d + 1) s e (vlist (.atom "cond" :: cl)) v := .cond hs hx h

theorem GW.callVar {a : String} {f v : Val} {xs vs : List Val} (hs : Sc s.heap e L)
    (hx : alGet a L = some f) (hm : f.notMacro = true) (hsp : ((specialOf a).isNone && !isCxr a && a != "t") = true)
    (ha : GWA W d s e xs vs) (hr : RW W d s f vs v) : GW W (d + 1) s e (.cons (.atom a) (vlist xs)) v :=
  .user hs hx (by rw [hm, Bool.true_and]; exact hsp) ha hr

/-! #### Control macros -/

theorem BW.if_ {c a b : Val} (hs : Sc s.heap e L) (hp : Plain L) :
    BW W (d + 7) s e (vlist [.atom "if", c, a, b]) (vlist [.atom "cond", vlist [c, a], vlist [.atom "t", b]]) := by
  refine .mac (xs := [c, a, b]) (y := vlist [.atom "cond", vlist [c, a], vlist [.atom "t", b]]) hs (hp _ (by decide)) known_if (by simp [ArityOk]) (by decide) (fun s1 e1 _ hs1 => ?_)
  have hp1 : Plain (paramSyms ["condition", "then", "else"] "" [c, a, b] ++ L) := hp.under (plain_of rfl)
  have kc := hp1 "cons" (by decide)
  have kq := hp1 "quote" (by decide)
  exact .template hs1 (hp1 _ (by decide)) rfl (.cons hs1 kc (.quote hs1 kq) (.cons hs1 kc (.cons hs1 kc (.v hs1 rfl rfl) (.cons hs1 kc (.v hs1 rfl rfl) (.nil _ _ _)))
    (.cons hs1 kc (.cons hs1 kc (.quote hs1 kq) (.cons hs1 kc (.v hs1 rfl rfl) (.nil _ _ _))) (.nil _ _ _))))

theorem GW.ifT {c a b v w : Val} (hs : Sc s.heap e L) (hp : Plain L) (hc : GW W (d + 6) s e c w) (hw : w ≠ .nil) (h : GW W (d + 7) s e a v) :
    GW W (d + 7) s e (vlist [.atom "if", c, a, b]) v :=
  (BW.if_ hs hp).g (.cond hs (hp _ (by decide)) (.hit hc hw h))

theorem GW.ifF {c a b v : Val} (hs : Sc s.heap e L) (hp : Plain L) (hc : GW W (d + 6) s e c .nil) (h : GW W (d + 7) s e b v) :
    GW W (d + 7) s e (vlist [.atom "if", c, a, b]) v :=
  (BW.if_ hs hp).g (.cond hs (hp _ (by decide)) (.skip hc (.hit (.t _ _ _) (by decide) h)))

theorem BW.ifNot {c a b : Val} (hs : Sc s.heap e L) (hp : Plain L) :
    BW W (d + 7) s e (vlist [.atom "if-not", c, a, b]) (vlist [.atom "cond", vlist [vlist [.atom "not", c], a], vlist [.atom "t", b]]) := by
  refine .mac (xs := [c, a, b]) (y := vlist [.atom "cond", vlist [vlist [.atom "not", c], a], vlist [.atom "t", b]]) hs (hp _ (by decide)) known_if_not (by simp [ArityOk]) (by decide)
    (fun s1 e1 _ hs1 => ?_)
  have hp1 : Plain (paramSyms ["condition", "then", "else"] "" [c, a, b] ++ L) := hp.under (plain_of rfl)
  have kc := hp1 "cons" (by decide)
  have kq := hp1 "quote" (by decide)
  exact .template hs1 (hp1 _ (by decide)) rfl (.cons hs1 kc (.quote hs1 kq) (.cons hs1 kc
    (.cons hs1 kc (.cons hs1 kc (.quote hs1 kq) (.cons hs1 kc (.v hs1 rfl rfl) (.nil _ _ _))) (.cons hs1 kc (.v hs1 rfl rfl) (.nil _ _ _)))
    (.cons hs1 kc (.cons hs1 kc (.quote hs1 kq) (.cons hs1 kc (.v hs1 rfl rfl) (.nil _ _ _))) (.nil _ _ _))))

theorem GW.ifNotT {c a b v : Val} (hs : Sc s.heap e L) (hp : Plain L) (hc : GW W (d + 5) s e c .nil) (h : GW W (d + 7) s e a v) :
    GW W (d + 7) s e (vlist [.atom "if-not", c, a, b]) v :=
  (BW.ifNot hs hp).g (.cond hs (hp _ (by decide)) (.hit (.not_nil hs (hp _ (by decide)) hc) (by decide) h))

theorem GW.ifNotF {c a b v w : Val} (hs : Sc s.heap e L) (hp : Plain L) (hc : GW W (d + 5) s e c w) (hw : w ≠ .nil) (h : GW W (d + 7) s e b v) :
    GW W (d + 7) s e (vlist [.atom "if-not", c, a, b]) v :=
  (BW.ifNot hs hp).g (.cond hs (hp _ (by decide)) (.skip (.not_cons hs (hp _ (by decide)) hc hw) (.hit (.t _ _ _) (by decide) h)))

/-! #### `concat2`, `progn`, `when` -/

theorem rw_concat2 (hc : Base s.heap 0) (xs : List Val) (b : Val) : RW W (d + xs.length + 2) s k_concat2 [vlist xs, b] (mkList xs b) := by
  induction xs generalizing s with
  | nil =>
    exact .lam rfl (by decide) (.base hc) fun s1 e1 _ hs => .cond hs rfl (.hit (.not_nil hs rfl (.v hs rfl rfl)) (by decide) (.v hs rfl rfl))
  | cons x xs ih =>
    exact .lam rfl (by decide) (.base hc) fun s1 e1 hq hs =>
      .cond hs rfl (.skip (.not_cons hs rfl (.v hs rfl rfl) (by simp))
        (.hit (.t _ _ _) (by decide) (.cons hs rfl (.car hs rfl (.v hs rfl rfl)) (.fn hs rfl hd_concat2
          (.two (.cdr hs rfl (.v hs rfl rfl)) (.v hs rfl rfl)) (ih (hc.mono hq.heap))))))

/-- `progn` of one form. -/
theorem GW.progn1 {x v : Val} (hs : Sc s.heap e L) (hp : Plain L) (hcc : alGet "concat2" L = none) (hb : Base s.heap 0)
    (h : ∀ s1 e1, Quiet s s1 → Sc s1.heap e1 ([] ++ L) → GW W (d + 8) s1 e1 x v) : GW W (d + 8) s e (vlist [.atom "progn", x]) v := by
  have hbw : BW W (d + 8) s e (.cons (.atom "progn") (vlist [x])) (.cons (.atom "let") (.cons .nil (vlist [x]))) := by
    refine .mac (y := .cons (.atom "let") (.cons .nil (vlist [x]))) hs (hp _ (by decide)) known_progn (Nat.zero_le _) (by decide) (fun s1 e1 hq hs1 => ?_)
    have hp1 : Plain (paramSyms [] "body" [x] ++ L) := hp.under (plain_of rfl)
    have kc := hp1 "cons" (by decide)
    have kq := hp1 "quote" (by decide)
    have k2 : alGet "concat2" (paramSyms [] "body" [x] ++ L) = none := by rw [alGet_append]; exact hcc
    exact .template hs1 (hp1 _ (by decide)) rfl (.cons hs1 kc (.quote hs1 kq) (.cons hs1 kc (.nil _ _ _)
      (.fn hs1 k2 hd_concat2 (.two (.v (v := vlist [x]) hs1 rfl rfl) (.nil _ _ _)) (rw_concat2 (d := d) (hb.mono hq.heap) [x] .nil))))
  refine hbw.g fun s' h' => ?_
  have hs' := hs.mono h'.heap
  have h1 := within_sf (W := W) (d := d + 7) .let_ (xs := [.nil, x]) (hs'.notMacro_sf (hp _ (by decide)) known_let) rfl
  have hq1 : Quiet s' { s' with heap := s'.heap ++ [⟨[], some e⟩] } := (Quiet.refl s').grow (List.prefix_append _ _)
  obtain ⟨s2, e2, q2⟩ := h _ s'.heap.length (h'.trans hq1) (.frame (p := e) (by simp) hs'.lt (hs'.mono hq1.heap)) _ (.refl _)
  refine ⟨s2, h1.trans ?_, hq1.trans q2⟩
  simp only [evSpecial]
  rw [vlist_cons, evLet, M.ite_pos (by rfl), M.ite_pos (isList_vlist _)]
  rw [M.bind_ok (newEnvM_run _ _)]
  have hbind : evLetBinds (performIn W (d + 7)) e s'.heap.length .nil { s' with heap := s'.heap ++ [⟨[], some e⟩] } = .ok true { s' with heap := s'.heap ++ [⟨[], some e⟩] } := rfl
  rw [M.bind_ok hbind, M.ite_pos rfl]
  exact e2

/-- `when` with one form. -/
theorem BW.when1 {c x : Val} (hs : Sc s.heap e L) (hp : Plain L) (hcc : alGet "concat2" L = none) (hb : Base s.heap 0) :
    BW W (d + 11) s e (vlist [.atom "when", c, x]) (vlist [.atom "cond", vlist [c, vlist [.atom "progn", x]]]) := by
  refine .mac (xs := [c, x]) (y := vlist [.atom "cond", vlist [c, vlist [.atom "progn", x]]]) hs (hp _ (by decide)) known_when
    (Nat.le_add_left _ _) (by decide) (fun s1 e1 hq hs1 => ?_)
  have hp1 : Plain (paramSyms ["condition"] "body" [c, x] ++ L) := hp.under (plain_of rfl)
  have kc := hp1 "cons" (by decide)
  have kq := hp1 "quote" (by decide)
  have k2 : alGet "concat2" (paramSyms ["condition"] "body" [c, x] ++ L) = none := by rw [alGet_append]; exact hcc
  exact .template hs1 (hp1 _ (by decide)) rfl (.cons hs1 kc (.quote hs1 kq) (.cons hs1 kc (.cons hs1 kc (.v hs1 rfl rfl)
    (.cons hs1 kc (.cons hs1 kc (.quote hs1 kq) (.fn hs1 k2 hd_concat2 (.two (.v (v := vlist [x]) hs1 rfl rfl) (.nil _ _ _)) (rw_concat2 (d := d) (hb.mono hq.heap) [x] .nil)))
      (.nil _ _ _))) (.nil _ _ _)))

theorem GWC.none (d : Nat) (s : St) (e : Nat) : GWC W d s e [] .nil := fun s' _ => ⟨s', rfl, .refl _⟩

theorem GW.whenF {c x : Val} (hs : Sc s.heap e L) (hp : Plain L) (hcc : alGet "concat2" L = none) (hb : Base s.heap 0) (hc : GW W (d + 10) s e c .nil) :
    GW W (d + 11) s e (vlist [.atom "when", c, x]) .nil :=
  (BW.when1 hs hp hcc hb).g (.cond hs (hp _ (by decide)) (.skip hc (.none _ _ _)))

theorem GW.whenT {c v w x : Val} (hs : Sc s.heap e L) (hp : Plain L) (hcc : alGet "concat2" L = none) (hb : Base s.heap 0) (hc : GW W (d + 10) s e c w) (hw : w ≠ .nil)
    (h : ∀ s1 e1, Quiet s s1 → Sc s1.heap e1 ([] ++ L) → GW W (d + 11) s1 e1 x v) : GW W (d + 11) s e (vlist [.atom "when", c, x]) v :=
  (BW.when1 hs hp hcc hb).g (.cond hs (hp _ (by decide)) (.hit hc hw (.progn1 hs hp hcc hb h)))
end

/-! ### Functions -/

section
variable {d : Nat} {s : St} {e : Nat} {L : List (String × Val)}

theorem rw_dec (hc : Base s.heap 0) (n : Int) : RW W (d + 1) s k_dec [.num n] (.num (n - 1)) :=
  .lam rfl (by decide) (.base hc) fun s1 e1 _ hs => .dec1 hs rfl (.v hs rfl rfl)

theorem GW.dec {x : Val} {n : Int} (hs : Sc s.heap e L) (hx : alGet "dec" L = none) (hc : Base s.heap 0) (h : GW W (d + 1) s e x (.num n)) :
    GW W (d + 2) s e (vlist [.atom "dec", x]) (.num (n - 1)) := .fn hs hx hd_dec (.one h) (rw_dec hc _)

theorem GW.zeroT {x : Val} (hs : Sc s.heap e L) (hx : alGet "zero?" L = none) (hc : Base s.heap 0) (h : GW W d s e x (.num 0)) :
    GW W (d + 1) s e (vlist [.atom "zero?", x]) (.atom "t") := .zeroP hs hx hc h

theorem GW.zeroF {x : Val} {n : Int} (hs : Sc s.heap e L) (hx : alGet "zero?" L = none) (hc : Base s.heap 0) (h : GW W d s e x (.num n)) (hn : n ≠ 0) :
    GW W (d + 1) s e (vlist [.atom "zero?", x]) .nil := by
  have := GW.zeroP hs hx hc h
  rw [beq_eq_false_iff_ne.2 hn] at this; exact this
end

section
variable {s : St} (hc : Base s.heap 0)
include hc

theorem rw_nth (d n : Nat) (xs : List Val) : RW W (d + 2) s k_nth [.num n, vlist xs] (xs.getD n .nil) := by
  induction xs generalizing s n with
  | nil =>
    exact .lam rfl (by decide) (.base hc) fun s1 e1 hq hs => .cond hs rfl (.hit (.not_nil hs rfl (.v hs rfl rfl)) (by decide) (.nil _ _ _))
  | cons x xs ih =>
    refine .lam rfl (by decide) (.base hc) fun s1 e1 hq hs => .cond hs rfl (.skip (.not_cons hs rfl (.v hs rfl rfl) (by simp)) ?_)
    have hb := hc.mono hq.heap
    cases n with
    | zero => exact .hit (.zeroT hs rfl hb (.v hs rfl rfl)) (by decide) (.car hs rfl (.v hs rfl rfl))
    | succ n =>
      have hd := GW.dec (W := W) (d := d) (x := .atom "n") (n := ((n + 1 : Nat) : Int)) hs rfl hb (.v hs rfl rfl)
      rw [show (((n + 1 : Nat) : Int)) - 1 = n by omega] at hd
      exact .skip (.zeroF (n := ((n + 1 : Nat) : Int)) hs rfl hb (.v hs rfl rfl) (by omega)) (.hit (.t _ _ _) (by decide) (.fn hs rfl hd_nth
        (.two hd (.cdr hs rfl (.v hs rfl rfl))) (ih hb n)))

theorem rw_drop (d n : Nat) (xs : List Val) : RW W (d + 2) s k_drop [.num n, vlist xs] (vlist (xs.drop n)) := by
  induction xs generalizing s n with
  | nil =>
    refine .lam rfl (by decide) (.base hc) fun s1 e1 hq hs => .cond_ hs rfl ?_
    have hb := hc.mono hq.heap
    rw [List.drop_nil]
    cases n with
    | zero => exact .hit (.zeroT hs rfl hb (.v hs rfl rfl)) (by decide) (.v hs rfl rfl)
    | succ n =>
      exact .skip (.zeroF (n := ((n + 1 : Nat) : Int)) hs rfl hb (.v hs rfl rfl) (by omega)) (.hit (.not_nil hs rfl (.v hs rfl rfl)) (by decide) (.nil _ _ _))
  | cons x xs ih =>
    refine .lam rfl (by decide) (.base hc) fun s1 e1 hq hs => .cond_ hs rfl ?_
    have hb := hc.mono hq.heap
    cases n with
    | zero => exact .hit (.zeroT hs rfl hb (.v hs rfl rfl)) (by decide) (.v hs rfl rfl)
    | succ n =>
      have hd := GW.dec (W := W) (d := d) (x := .atom "n") (n := ((n + 1 : Nat) : Int)) hs rfl hb (.v hs rfl rfl)
      rw [show (((n + 1 : Nat) : Int)) - 1 = n by omega] at hd
      exact .skip (.zeroF (n := ((n + 1 : Nat) : Int)) hs rfl hb (.v hs rfl rfl) (by omega)) (.skip (.not_cons hs rfl (.v hs rfl rfl) (by simp))
        (.hit (.t _ _ _) (by decide) (.fn hs rfl hd_drop (.two hd (.cdr hs rfl (.v hs rfl rfl))) (ih hb n))))

omit hc in
theorem rw_last {s : St} (d : Nat) (hc : Base s.heap 0) (xs : List Val) : RW W (d + 6) s k_last [vlist xs] (xs.getLastD .nil) := by
  match xs with
  | [] =>
    exact .lam rfl (by decide) (.base hc) fun s1 e1 hq hs => .let1 hs rfl (by decide) (.cdr_nil hs rfl (.v hs rfl rfl))
      fun s2 e2 hq2 hs2 => .ifNotT hs2 (plain_of rfl) (.v hs2 rfl rfl) (.car_nil hs2 rfl (.v hs2 rfl rfl))
  | [x] =>
    exact .lam rfl (by decide) (.base hc) fun s1 e1 hq hs => .let1 hs rfl (by decide) (.cdr hs rfl (.v hs rfl rfl))
      fun s2 e2 hq2 hs2 => .ifNotT hs2 (plain_of rfl) (.v hs2 rfl rfl) (.car hs2 rfl (.v hs2 rfl rfl))
  | x :: y :: xs =>
    have ih := fun s' (hq : Quiet s s') => rw_last (s := s') d (hc.mono hq.heap) (y :: xs)
    rw [show (x :: y :: xs).getLastD .nil = (y :: xs).getLastD .nil by simp]
    exact .lam rfl (by decide) (.base hc) fun s1 e1 hq hs => .let1 hs rfl (by decide) (.cdr hs rfl (.v hs rfl rfl))
      fun s2 e2 hq2 hs2 => .ifNotF hs2 (plain_of rfl) (.v (v := vlist (y :: xs)) hs2 rfl rfl) (by simp) (.fn hs2 rfl hd_last (.one (.v hs2 rfl rfl)) (ih _ (hq.trans hq2)))

theorem rw_every (d : Nat) {f : Val} {g : Val → Val} (hm : f.notMacro = true) (xs : List Val) (h : ∀ x ∈ xs, RW W (d + 5) s f [x] (g x)) :
    RW W (d + 6) s k_every [f, vlist xs] (vBool (xs.all fun x => g x ≠ .nil)) := by
  induction xs generalizing s with
  | nil => exact .lam rfl (by decide) (.base hc) fun s1 e1 hq hs => .ifNotT hs (plain_of rfl) (.v hs rfl rfl) (.t _ _ _)
  | cons x xs ih =>
    refine .lam rfl (by decide) (.base hc) fun s1 e1 hq hs => ?_
    refine .ifNotF hs (plain_of rfl) (.v hs rfl rfl) (by simp) ?_
    have hcall : GW W (d + 6) s1 e1 (vlist [.atom "f", vlist [.atom "car", .atom "l"]]) (g x) :=
      .callVar hs rfl hm rfl (.one (.car hs rfl (.v hs rfl rfl))) ((h x (by simp)).mono hq)
    refine .let1 hs rfl (by decide) hcall fun s3 e3 hq3 hs3 => ?_
    have hb := ((hc.mono hq.heap).mono hq3.heap)
    by_cases hg : g x = .nil
    · rw [List.all_cons, show decide (g x ≠ .nil) = false by simp [hg]]
      exact .ifT hs3 (plain_of rfl) (.not_nil hs3 rfl (hg ▸ .v hs3 rfl rfl)) (by decide) (.nil _ _ _)
    · rw [List.all_cons, show decide (g x ≠ .nil) = true by simp [hg]]
      exact .ifF hs3 (plain_of rfl) (.not_cons hs3 rfl (.v hs3 rfl rfl) hg) (.fn hs3 rfl hd_every (.two (.v hs3 rfl rfl) (.cdr hs3 rfl (.v hs3 rfl rfl)))
        (ih hb fun y hy => (h y (by simp [hy])).mono ((hq.trans hq3))))

theorem rw_some (d : Nat) {f : Val} {g : Val → Val} (hm : f.notMacro = true) (xs : List Val) (h : ∀ x ∈ xs, RW W (d + 9) s f [x] (g x)) :
    RW W (d + 10) s k_some [f, vlist xs] (((xs.map g).find? (· ≠ .nil)).getD .nil) := by
  induction xs generalizing s with
  | nil => exact .lam rfl (by decide) (.base hc) fun s1 e1 hq hs => .whenF hs (plain_of rfl) rfl (hc.mono hq.heap) (.v hs rfl rfl)
  | cons x xs ih =>
    refine .lam rfl (by decide) (.base hc) fun s1 e1 hq hs => ?_
    refine .whenT hs (plain_of rfl) rfl (hc.mono hq.heap) (.v hs rfl rfl) (by simp) fun s2 e2 hq2 hs2 => ?_
    have hcall : GW W (d + 10) s2 e2 (vlist [.atom "f", vlist [.atom "car", .atom "l"]]) (g x) :=
      .callVar hs2 rfl hm rfl (.one (.car hs2 rfl (.v hs2 rfl rfl))) ((h x (by simp)).mono (hq.trans hq2))
    refine .let1 hs2 rfl (by decide) hcall fun s3 e3 hq3 hs3 => ?_
    have hb := ((hc.mono hq.heap).mono hq2.heap).mono hq3.heap
    by_cases hg : g x = .nil
    · rw [List.map_cons, List.find?_cons_of_neg (by simp [hg])]
      exact .ifF hs3 (plain_of rfl) (hg ▸ .v hs3 rfl rfl) (.fn hs3 rfl hd_some (.two (.v hs3 rfl rfl) (.cdr hs3 rfl (.v hs3 rfl rfl)))
        (ih hb fun y hy => (h y (by simp [hy])).mono ((hq.trans hq2).trans hq3)))
    · rw [List.map_cons, List.find?_cons_of_pos (by simp [hg])]
      exact .ifT hs3 (plain_of rfl) (.v hs3 rfl rfl) hg (.v hs3 rfl rfl)

theorem rw_map (d : Nat) {f : Val} {g : Val → Val} (hm : f.notMacro = true) (xs : List Val) (h : ∀ x ∈ xs, RW W (d + 10) s f [x] (g x)) :
    RW W (d + xs.length + 10) s k_map [f, vlist xs] (vlist (xs.map g)) := by
  induction xs generalizing s with
  | nil => exact .lam rfl (by decide) (.base hc) fun s1 e1 hq hs => .whenF hs (plain_of rfl) rfl (hc.mono hq.heap) (.v hs rfl rfl)
  | cons x xs ih =>
    refine .lam rfl (by decide) (.base hc) fun s1 e1 hq hs => ?_
    refine .whenT (d := d + xs.length + 1) hs (plain_of rfl) rfl (hc.mono hq.heap) (.v hs rfl rfl) (by simp) fun s2 e2 hq2 hs2 => ?_
    have hb := (hc.mono hq.heap).mono hq2.heap
    exact .cons hs2 rfl (.callVar (d := d + xs.length + 10) hs2 rfl hm rfl (.one (.car hs2 rfl (.v hs2 rfl rfl))) (((h x (by simp)).mono (hq.trans hq2)).deeper (by omega)))
      (.fn hs2 rfl hd_map (.two (.v hs2 rfl rfl) (.cdr hs2 rfl (.v hs2 rfl rfl))) (ih hb fun y hy => (h y (by simp [hy])).mono (hq.trans hq2)))

theorem rw_take (d n : Nat) (xs : List Val) : RW W (d + min n xs.length + 2) s k_take [.num n, vlist xs] (vlist (xs.take n)) := by
  induction xs generalizing s n with
  | nil =>
    refine .lam rfl (by decide) (.base hc) fun s1 e1 hq hs => .cond_ hs rfl ?_
    have hb := hc.mono hq.heap
    rw [List.take_nil]
    cases n with
    | zero => exact .hit (.zeroT hs rfl hb (.v hs rfl rfl)) (by decide) (.nil _ _ _)
    | succ n =>
      exact .skip (.zeroF (n := ((n + 1 : Nat) : Int)) hs rfl hb (.v hs rfl rfl) (by omega)) (.hit (.not_nil hs rfl (.v hs rfl rfl)) (by decide) (.nil _ _ _))
  | cons x xs ih =>
    refine .lam rfl (by decide) (.base hc) fun s1 e1 hq hs => .cond_ hs rfl ?_
    have hb := hc.mono hq.heap
    cases n with
    | zero => exact .hit (.zeroT hs rfl hb (.v hs rfl rfl)) (by decide) (.nil _ _ _)
    | succ n =>
      rw [show d + min (n + 1) (x :: xs).length + 2 = d + min n xs.length + 3 by rw [List.length_cons]; omega]
      have hd := GW.dec (W := W) (d := d + min n xs.length) (x := .atom "n") (n := ((n + 1 : Nat) : Int)) hs rfl hb (.v hs rfl rfl)
      rw [show (((n + 1 : Nat) : Int)) - 1 = n by omega] at hd
      exact .skip (.zeroF (n := ((n + 1 : Nat) : Int)) hs rfl hb (.v hs rfl rfl) (by omega)) (.skip (.not_cons hs rfl (.v hs rfl rfl) (by simp))
        (.hit (.t _ _ _) (by decide) (.cons hs rfl (.car hs rfl (.v hs rfl rfl)) (.fn hs rfl hd_take
        (.two hd (.cdr hs rfl (.v hs rfl rfl))) (ih hb n)))))

theorem rw_filter (d : Nat) {f : Val} {g : Val → Val} (hm : f.notMacro = true) (xs : List Val) (h : ∀ x ∈ xs, RW W (d + 1) s f [x] (g x)) :
    RW W (d + (xs.filter fun x => g x ≠ .nil).length + 2) s k_filter [f, vlist xs] (vlist (xs.filter fun x => g x ≠ .nil)) := by
  induction xs generalizing s with
  | nil => exact .lam rfl (by decide) (.base hc) fun s1 e1 hq hs => .cond_ hs rfl (.hit (.not_nil hs rfl (.v hs rfl rfl)) (by decide) (.nil _ _ _))
  | cons x xs ih =>
    refine .lam rfl (by decide) (.base hc) fun s1 e1 hq hs => .cond_ hs rfl (.skip (.not_cons hs rfl (.v hs rfl rfl) (by simp)) ?_)
    have hb := (hc.mono hq.heap)
    have hcall : ∀ k, GW W (d + k + 2) s1 e1 (vlist [.atom "f", vlist [.atom "car", .atom "l"]]) (g x) := fun k =>
      .callVar (d := d + k + 1) hs rfl hm rfl (.one (.car hs rfl (.v hs rfl rfl))) (((h x (by simp)).mono hq).deeper (by omega))
    have hrest : GW W (d + (xs.filter fun x => g x ≠ .nil).length + 3) s1 e1 (vlist [.atom "filter", .atom "f", vlist [.atom "cdr", .atom "l"]]) (vlist (xs.filter fun x => g x ≠ .nil)) :=
      .fn hs rfl hd_filter (.two (.v hs rfl rfl) (.cdr hs rfl (.v hs rfl rfl))) (ih hb fun y hy => (h y (by simp [hy])).mono hq)
    by_cases hg : g x = .nil
    · rw [List.filter_cons_of_neg (by simp [hg])]
      have hcall := hcall (xs.filter fun x => g x ≠ .nil).length
      rw [hg] at hcall
      exact .skip hcall (.hit (.t _ _ _) (by decide) hrest)
    · rw [List.filter_cons_of_pos (by simp [hg])]
      exact .hit (hcall _) hg (.cons hs rfl (.car hs rfl (.v hs rfl rfl)) hrest)
end


/-! ### `reduce` -/

/-- The body of a function is a `let` of a local function. -/
theorem RW.letNamed {d : Nat} {s : St} {ps : List String} {r nm : String} {P x doc v : Val} {fb : List Val} {m : Bool} {cenv : Nat} {vs : List Val}
    {L0 : List (String × Val)} {F : Nat → Val} (ha : ArityOk ps r vs) (ht : NoT ps r) (h0 : Sc s.heap cenv L0) (hn : nm ≠ "t")
    (hl : alGet "let" (paramSyms ps r vs ++ L0) = none) (hlam : alGet "lambda" (paramSyms ps r vs ++ L0) = none)
    (hmk : ∀ e1, mkLambda (vlist (.atom nm :: P :: fb)) false e1 = (do let _ ← attempt (setM e1 nm (F e1)); pure (F e1)))
    (h : ∀ s1 e1 e2, Quiet s s1 → Sc s1.heap e1 (alSet nm (F e1) (paramSyms ps r vs) ++ L0) →
      Sc s1.heap e2 ([(nm, F e1)] ++ (alSet nm (F e1) (paramSyms ps r vs) ++ L0)) → GW W (d + 1) s1 e2 x v) :
    RW W d s (.lam ps r (vlist [vlist [.atom "let", vlist [vlist [.atom nm, .cons (.atom "lambda") (vlist (.atom nm :: P :: fb))]], x]]) doc m cenv) vs v :=
  fun s' e hq => by
  have hq1 : Quiet s' (callSt s' cenv ps r vs) := (Quiet.refl s').grow (List.prefix_append _ _)
  have hsc : Sc (callSt s' cenv ps r vs).heap s'.heap.length (paramSyms ps r vs ++ L0) := by
    refine .frame (p := cenv) ?_ ?_ (h0.mono (hq.trans hq1).heap)
    · simp [callSt]
    · exact (h0.mono hq.heap).lt
  let s2 : St := { s' with heap := s'.heap ++ [⟨paramSyms ps r vs, some cenv⟩] ++ [⟨[], some s'.heap.length⟩] }
  have hsc2 : Sc s2.heap s'.heap.length (paramSyms ps r vs ++ L0) := hsc.mono (List.prefix_append _ _)
  let f := F s'.heap.length
  let s3 : St := { s' with heap := s'.heap ++ [⟨alSet nm f (paramSyms ps r vs), some cenv⟩] ++ [⟨[], some s'.heap.length⟩] }
  let s4 : St := { s' with heap := s'.heap ++ [⟨alSet nm f (paramSyms ps r vs), some cenv⟩] ++ [⟨[(nm, f)], some s'.heap.length⟩] }
  have e3 : setM s'.heap.length nm f s2 = .ok () s3 := by
    unfold setM; rw [if_neg hn]
    have := heapSet_mid s'.heap ⟨paramSyms ps r vs, some cenv⟩ [⟨[], some s'.heap.length⟩] nm f
    simp only [s2, s3, List.append_assoc, List.singleton_append, this]
  have e4 : setM (s'.heap.length + 1) nm f s3 = .ok () s4 := by
    unfold setM; rw [if_neg hn]
    have := heapSet_new (s'.heap ++ [⟨alSet nm f (paramSyms ps r vs), some cenv⟩]) ⟨[], some s'.heap.length⟩ nm f
    simp only [List.length_append, List.length_cons, List.length_nil, Nat.zero_add] at this
    simp only [s3, s4, this]; rfl
  have hev : performIn W d (.eval (.cons (.atom "lambda") (vlist (.atom nm :: P :: fb))) s'.heap.length) s2 = .ok f s3 := by
    refine performIn_leaf fun call tail => ?_
    have hm : NotMacro s2.heap s'.heap.length SF.lambda.name := hsc2.notMacro_sf hlam known_lambda
    show evalStep call tail (form SF.lambda.name (.atom nm :: P :: fb)) s'.heap.length s2 = _
    rw [form, evalStep_notMacro (notMacro_isMacroCall hm _), evExpr_special (isList_vlist _)]
    simp only [evSpecial]
    rw [hmk, M.bind_ok (attempt_ok e3)]; rfl
  have q4 : Quiet s' s4 := (Quiet.refl s').grow (by simp only [List.append_assoc]; exact List.prefix_append _ _)
  have sc1 : Sc s4.heap s'.heap.length (alSet nm f (paramSyms ps r vs) ++ L0) := by
    refine .frame (p := cenv) ?_ ?_ (h0.mono (hq.trans q4).heap)
    · simp [s4]
    · exact (h0.mono hq.heap).lt
  have sc2 : Sc s4.heap (s'.heap.length + 1) ([(nm, f)] ++ (alSet nm f (paramSyms ps r vs) ++ L0)) := by
    refine .frame (p := s'.heap.length) ?_ (Nat.lt_succ_self _) sc1
    simp [s4]
  obtain ⟨s5, e5, q5⟩ := h s4 _ _ (hq.trans q4) sc1 sc2 s4 (.refl _)
  refine ⟨s5, ?_, q4.trans q5⟩
  simp only [evApply]
  rw [M.bind_ok (newEnvM_run _ _), M.bind_ok (extend_ok (bindArgs_ok ha ht))]
  show evalWithin W (d + 1) (form "let" [vlist [vlist [.atom nm, .cons (.atom "lambda") (vlist (.atom nm :: P :: fb))]], x]) _ _ = _
  rw [within_sf .let_ (hsc.notMacro_sf hl known_let) rfl]
  generalize hbs : vlist [vlist [.atom nm, .cons (.atom "lambda") (vlist (.atom nm :: P :: fb))]] = bs
  have hbl : bs.isList = true := by rw [← hbs]; rfl
  simp only [evSpecial, vlist_cons, vlist_nil, evLet, hbl, isList_cons, if_true]
  rw [M.bind_ok (newEnvM_run _ _)]
  subst hbs
  have hlen : (callSt s' cenv ps r vs).heap.length = s'.heap.length + 1 := by simp [callSt]
  have hb : evLetBinds (performIn W d) s'.heap.length (callSt s' cenv ps r vs).heap.length
      (vlist [vlist [.atom nm, .cons (.atom "lambda") (vlist (.atom nm :: P :: fb))]]) s2 = .ok true s4 := by
    rw [hlen]
    generalize hlx : Val.cons (.atom "lambda") (vlist (.atom nm :: P :: fb)) = lx at hev
    simp only [vlist_cons, vlist_nil, evLetBinds]
    rw [M.bind_ok (extend_ok hev), M.bind_ok (extend_ok e4)]; rfl
  refine (M.bind_ok hb).trans ?_
  rw [M.ite_pos rfl, hlen]
  exact e5

theorem FoldsWithin.mono {d : Nat} {s s1 : St} {f a c : Val} {xs : List Val} (h : FoldsWithin W d s f a xs c) (hq : Quiet s s1) : FoldsWithin W d s1 f a xs c := by
  induction h with
  | nil => exact .nil
  | cons h1 _ ih => exact .cons (RW.mono h1 hq) ih

theorem rw_inner {d : Nat} {s : St} {e1 : Nat} {f x r : Val} (hs : Sc s.heap e1 ([("args", r), ("f", f), ("x", x), ("inner", innerFn e1)] ++ [])) {g a c : Val}
    (hm : g.notMacro = true) {xs : List Val} (h : FoldsWithin W (d + 5) s g a xs c) : RW W (d + 6) s (innerFn e1) [g, a, vlist xs] c := by
  induction xs generalizing s a with
  | nil =>
    cases h
    exact .lam rfl (by decide) hs fun s1 e2 _ hs1 => .ifT hs1 (plain_of rfl) (.not_nil hs1 rfl (.v hs1 rfl rfl)) (by decide) (.v hs1 rfl rfl)
  | cons x xs ih =>
    cases h with
    | @cons a b c x xs h1 h2 =>
    refine .lam rfl (by decide) hs fun s1 e2 hq hs1 => ?_
    refine .ifF hs1 (plain_of rfl) (.not_cons hs1 rfl (.v hs1 rfl rfl) (by simp)) ?_
    exact .callVar hs1 rfl rfl rfl
      (.cons (.v hs1 rfl rfl) (.two (.callVar hs1 rfl hm rfl (.two (.v hs1 rfl rfl) (.car hs1 rfl (.v hs1 rfl rfl))) (RW.mono h1 hq))
        (.cdr hs1 rfl (.v hs1 rfl rfl)))) (ih (hs.mono hq.heap) (h2.mono hq))

theorem rw_reduce {d : Nat} {s : St} (hc : Base s.heap 0) {f a c : Val} {xs : List Val} (hm : f.notMacro = true) (h : FoldsWithin W (d + 5) s f a xs c) :
    RW W (d + 6) s k_reduce [f, vlist (a :: xs)] c := by
  refine RW.letNamed (F := innerFn) (by simp [ArityOk]) (by decide) (.base hc) (by decide) rfl rfl (fun _ => rfl) fun s1 e1 e2 hq hs1 hs2 => ?_
  refine .cond hs2 rfl (.hit (.not_nil hs2 rfl (.v hs2 rfl rfl)) (by decide) (.ifF hs2 (plain_of rfl) (.not_cons hs2 rfl (.v hs2 rfl rfl) (by simp)) ?_))
  exact .callVar hs2 rfl rfl rfl (.cons (.v hs2 rfl rfl) (.two (.car hs2 rfl (.v hs2 rfl rfl)) (.cdr hs2 rfl (.v hs2 rfl rfl))))
    (rw_inner hs1 hm (h.mono hq))

theorem rw_reduce_init {d : Nat} {s : St} (hc : Base s.heap 0) {f a c : Val} {xs : List Val} (hm : f.notMacro = true) (h : FoldsWithin W (d + 5) s f a xs c) :
    RW W (d + 6) s k_reduce [f, a, vlist xs] c := by
  refine RW.letNamed (F := innerFn) (by simp [ArityOk]) (by decide) (.base hc) (by decide) rfl rfl (fun _ => rfl) fun s1 e1 e2 hq hs1 hs2 => ?_
  refine .cond hs2 rfl (.skip (.not_cons hs2 rfl (.v hs2 rfl rfl) (by simp)) (.hit (w := vBool (Val.equal (.num 1) (.num 1)))
    (.eq hs2 rfl (.len (xs := [vlist xs]) hs2 rfl (.v hs2 rfl rfl)) (.num _ _ _ _)) (by decide) ?_))
  exact .callVar hs2 rfl rfl rfl (.cons (.v hs2 rfl rfl) (.two (.v hs2 rfl rfl) (.car hs2 rfl (.v hs2 rfl rfl))))
    (rw_inner hs1 hm (h.mono hq))

/-! ### Powers and repetitions -/

theorem rw_posP {d : Nat} {s : St} (hc : Base s.heap 0) (n : Int) : RW W d s k_posP [.num n] (vBool (decide (0 < n))) :=
  .lam rfl (by decide) (.base hc) fun s1 e1 _ hs => .fn hs rfl hd_lt (.two (.num _ _ _ _) (.v hs rfl rfl)) (.bi fun _ _ _ => by by_cases hmn : 0 < n <;> simp [biFn, bCmp, bCmpLoop, hmn, vBool])

theorem GW.posT {d : Nat} {s : St} {e : Nat} {L : List (String × Val)} {x : Val} {n : Int} (hs : Sc s.heap e L) (hx : alGet "pos?" L = none) (hc : Base s.heap 0)
    (h : GW W d s e x (.num n)) (hn : 0 < n) : GW W (d + 1) s e (vlist [.atom "pos?", x]) (.atom "t") := by
  have := rw_posP (W := W) (d := d) hc n
  rw [decide_eq_true hn] at this
  exact .fn hs hx hd_posP (.one h) this

theorem GW.posF {d : Nat} {s : St} {e : Nat} {L : List (String × Val)} {x : Val} {n : Int} (hs : Sc s.heap e L) (hx : alGet "pos?" L = none) (hc : Base s.heap 0)
    (h : GW W d s e x (.num n)) (hn : ¬ 0 < n) : GW W (d + 1) s e (vlist [.atom "pos?", x]) .nil := by
  have := rw_posP (W := W) (d := d) hc n
  rw [decide_eq_false hn] at this
  exact .fn hs hx hd_posP (.one h) this

theorem rw_repeat {s : St} (hc : Base s.heap 0) (d : Nat) (n : Int) (x : Val) : RW W (d + n.toNat + 10) s k_repeat [.num n, x] (vlist (List.replicate n.toNat x)) := by
  generalize hk : n.toNat = k
  induction k generalizing s n with
  | zero =>
    exact .lam rfl (by decide) (.base hc) fun s1 e1 hq hs => .whenF hs (plain_of rfl) rfl (hc.mono hq.heap)
      (.posF hs rfl (hc.mono hq.heap) (.v hs rfl rfl) (by omega))
  | succ k ih =>
    refine .lam rfl (by decide) (.base hc) fun s1 e1 hq hs => ?_
    refine .whenT (d := d + k + 1) hs (plain_of rfl) rfl (hc.mono hq.heap) (.posT hs rfl (hc.mono hq.heap) (.v hs rfl rfl) (by omega)) (by simp) fun s2 e2 hq2 hs2 => ?_
    have hb := (hc.mono hq.heap).mono hq2.heap
    exact .cons hs2 rfl (.v hs2 rfl rfl) (.fn hs2 rfl hd_repeat (.two (.dec hs2 rfl hb (.v hs2 rfl rfl)) (.v hs2 rfl rfl)) (ih hb (n - 1) (by omega)))

theorem rw_power {s : St} (hc : Base s.heap 0) (d : Nat) (n : Int) (m : Nat) : RW W (d + m + 6) s k_StarStar [.num n, .num m] (.num (n ^ m)) := by
  induction m generalizing s with
  | zero =>
    rw [pow_zero]
    exact .lam rfl (by decide) (.base hc) fun s1 e1 hq hs => .ifT hs (plain_of rfl) (.zeroT hs rfl (hc.mono hq.heap) (.v hs rfl rfl)) (by decide) (.num _ _ _ _)
  | succ m ih =>
    refine .lam rfl (by decide) (.base hc) fun s1 e1 hq hs => ?_
    have hb := hc.mono hq.heap
    refine .ifF (d := d + m + 1) hs (plain_of rfl) (.zeroF (n := ((m + 1 : Nat) : Int)) hs rfl hb (.v hs rfl rfl) (by omega)) ?_
    have hdec := GW.dec (W := W) (d := d + m + 4) (x := .atom "m") (n := ((m + 1 : Nat) : Int)) hs rfl hb (.v hs rfl rfl)
    rw [show (((m + 1 : Nat) : Int)) - 1 = m by omega] at hdec
    refine .fn (v := .num (n ^ (m + 1))) hs rfl hd_times (.two (.v hs rfl rfl) (.fn hs rfl hd_StarStar (.two (.v hs rfl rfl) hdec) (ih hb))) (.bi fun _ _ _ => ?_)
    simp [biFn, bMulLoop, pow_succ, mul_comm]

end L1
