import Verif.Lemmas.WithinCore
import Verif.Lemmas.Loops
import Verif.Spec.LoopStack
/-
Loops on a fixed stack.
-/
set_option autoImplicit false
namespace L1

variable {W : World}

/-! ### Macros -/

/-- On a stack of `d`, `x` quietly evaluates to something with property `P`. -/
def GPW (W : World) (d : Nat) (s : St) (e : Nat) (x : Val) (P : Val → Prop) : Prop :=
  ∀ s', Quiet s s' → ∃ v s'', evalWithin W d x e s' = .ok v s'' ∧ Quiet s' s'' ∧ P v

theorem GW.gp {d : Nat} {s : St} {e : Nat} {x v : Val} {P : Val → Prop} (h : GW W d s e x v) (hp : P v) : GPW W d s e x P := fun s' h' => by
  obtain ⟨s'', e1, q1⟩ := h s' h'
  exact ⟨v, s'', e1, q1, hp⟩

theorem BWP.mac {d : Nat} {s : St} {e : Nat} {L : List (String × Val)} {m : String} {ps : List String} {r : String} {bx doc : Val} {cenv : Nat}
    {xs : List Val} {P : Val → Prop} (hs : Sc s.heap e L) (hx : alGet m L = none) (hk : known m = some (some (.lam ps r (vlist [bx]) doc true cenv)))
    (ha : ArityOk ps r xs) (ht : NoT ps r)
    (hb : ∀ s1 e1, Quiet s s1 → Sc s1.heap e1 (paramSyms ps r xs ++ L) → GPW W d s1 e1 bx P) :
    ∀ s', Quiet s s' → ∃ y s1, P y ∧ Quiet s' s1 ∧ evalWithin W (d + 2) (.cons (.atom m) (vlist xs)) e s' = evalWithin W (d + 2) y e s1 := fun s' h' => by
  have hs' := hs.mono h'.heap
  have hq1 : Quiet s' (callSt s' e ps r xs) := (Quiet.refl s').grow (List.prefix_append _ _)
  have hsc : Sc (callSt s' e ps r xs).heap s'.heap.length (paramSyms ps r xs ++ L) := by
    refine .frame (p := e) ?_ hs'.lt (hs'.mono hq1.heap)
    simp [callSt]
  obtain ⟨y, s2, e2, q2, p2⟩ := hb _ _ (h'.trans hq1) hsc _ (.refl _)
  have hm : isMacroCallIn (lookup s'.heap e) (.cons (.atom m) (vlist xs)) = true := by simp only [isMacroCallIn, hs'.lookup_known hx hk]
  have h1 : mexpand1 (performIn W d) (.cons (.atom m) (vlist xs)) e s' = .ok y s2 := by
    unfold mexpand1
    rw [M.bind_ok (isMacroCallM_run _ _ _), M.ite_pos hm]
    dsimp only
    rw [M.bind_ok (lookupM_run _ _ _), hs'.lookup_known hx hk]
    simp only [toList?_vlist]
    rw [M.bind_ok (newEnvM_run _ _), M.bind_ok (extend_ok (bindArgs_ok ha ht))]
    simp only [vlist_cons, vlist_nil, evBodyMacro]
    rw [M.bind_ok (extend_ok (by exact e2))]; rfl
  refine ⟨y, s2, p2, hq1.trans q2, ?_⟩
  have h2 : performIn W (d + 1) (.mexpand (.cons (.atom m) (vlist xs)) e) s'
      = if isMacroCallIn (lookup s2.heap e) y then performIn W (d + 1) (.mexpand y e) s2 else .ok y s2 := by
    rw [performIn_eq]
    show mexpandStep (performIn W d) (performIn W (d + 1)) _ e s' = _
    unfold mexpandStep
    rw [M.bind_ok (extend_ok h1), M.bind_ok (isMacroCallM_run _ _ _)]
    by_cases hy : isMacroCallIn (lookup s2.heap e) y = true
    · rw [M.ite_pos hy, if_pos hy]
    · rw [M.ite_neg hy, if_neg hy]; rfl
  rw [evalWithin_eq, evalStep_macro hm, evalWithin_eq]
  by_cases hy : isMacroCallIn (lookup s2.heap e) y = true
  · rw [if_pos hy] at h2
    rw [evalStep_macro hy]
    rw [M.bind_run, M.bind_run]
    unfold extend
    rw [extendWith_run, extendWith_run, h2]
  · rw [if_neg hy] at h2
    rw [M.bind_ok (extend_ok h2), evalStep_notMacro (by simpa using hy)]

theorem GPW.let1 {d : Nat} {s : St} {e : Nat} {L : List (String × Val)} {n : String} {b x : Val} {P Q : Val → Prop}
    (hs : Sc s.heap e L) (hx : alGet "let" L = none) (hn : n ≠ "t") (hb : GPW W d s e b P)
    (h : ∀ s1 e1 v, P v → Quiet s s1 → Sc s1.heap e1 ([(n, v)] ++ L) → GPW W (d + 1) s1 e1 x Q) :
    GPW W (d + 1) s e (vlist [.atom "let", vlist [vlist [.atom n, b]], x]) Q := fun s' h' => by
  have hs' := hs.mono h'.heap
  have h1 := within_sf (W := W) (d := d) .let_ (xs := [vlist [vlist [.atom n, b]], x]) (hs'.notMacro_sf hx known_let) rfl
  have hq1 : Quiet s' { s' with heap := s'.heap ++ [⟨[], some e⟩] } := (Quiet.refl s').grow (List.prefix_append _ _)
  obtain ⟨v, s2, e2, q2, p2⟩ := hb _ (h'.trans hq1)
  have f2 : s2.heap[s'.heap.length]? = some ⟨[], some e⟩ := prefix_get q2.heap (by simp)
  have hset : setM s'.heap.length n v s2 = .ok () { s2 with heap := heapSet s2.heap s'.heap.length n v } := by unfold setM; rw [if_neg hn]
  have q3 : Quiet s' { s2 with heap := heapSet s2.heap s'.heap.length n v } := (hq1.trans q2).grow (prefix_heapSet (hq1.trans q2).heap (Nat.le_refl _) _ _)
  have f3 : ({ s2 with heap := heapSet s2.heap s'.heap.length n v } : St).heap[s'.heap.length]? = some ⟨[(n, v)], some e⟩ := heapSet_at f2
  obtain ⟨w, s4, e4, q4, p4⟩ := h _ s'.heap.length v p2 (h'.trans q3) (.frame f3 hs'.lt (hs'.mono q3.heap)) _ (.refl _)
  refine ⟨w, s4, h1.trans ?_, q3.trans q4, p4⟩
  simp only [evSpecial]
  rw [vlist_cons, evLet, M.ite_pos (isList_vlist _), M.ite_pos (isList_vlist _)]
  rw [M.bind_ok (newEnvM_run _ _)]
  have hbs : evLetBinds (performIn W d) e s'.heap.length (vlist [vlist [.atom n, b]]) { s' with heap := s'.heap ++ [⟨[], some e⟩] } =
      .ok true { s2 with heap := heapSet s2.heap s'.heap.length n v } := by
    simp only [vlist_cons, vlist_nil, evLetBinds]
    rw [M.bind_ok (extend_ok (by exact e2)), M.bind_ok (extend_ok hset)]; rfl
  refine (M.bind_ok hbs).trans ?_
  rw [M.ite_pos rfl]
  exact e4

/-- `(gensym 'p)`. -/
theorem GPW.gensym {d : Nat} {s : St} {e : Nat} {L : List (String × Val)} (p : String) (hs : Sc s.heap e L) (hx : alGet "gensym" L = none) (hq : alGet "quote" L = none) :
    GPW W (d + 1) s e (vlist [.atom "gensym", vlist [.atom "quote", .atom p]]) (fun v => ∃ k, v = .atom (gensymName ('-' :: p.toList) k)) := fun s' h' => by
  have hs' := hs.mono h'.heap
  obtain ⟨s1, e1, q1⟩ := GW.name (W := W) (d := d) hs' hx hd_gensym s' (.refl _)
  obtain ⟨s2, e2, q2⟩ := (GWA.one (GW.quote (W := W) (d := d) (v := .atom p) hs' hq)).evals s1 q1
  refine ⟨_, { s2 with gensym := s2.gensym + 1, issued := s2.issued ++ [gensymName ('-' :: p.toList) (s2.gensym + 1)] }, ?_,
    (q1.trans q2).trans ⟨List.prefix_refl _, rfl, rfl, rfl, rfl, Nat.le_succ _⟩, s2.gensym + 1, rfl⟩
  have hh : CallHead s'.heap e (.atom "gensym") := hd_gensym.callHead hs' hx
  show evalWithin W (d + 1) (.cons (.atom "gensym") (vlist [vlist [.atom "quote", .atom p]])) e s' = _
  rw [within_call hh (isList_vlist _)]
  unfold evCall
  rw [M.bind_ok (extend_ok (by exact e1)), M.bind_ok (evArgs_within e2)]
  simp only [evApply]
  exact extend_ok (performIn_leaf fun call _ => rfl)

section
variable {d : Nat} {s : St} {e : Nat} {L : List (String × Val)}

theorem BW.progn_ {xs : List Val} (hl : xs.length + 2 ≤ d) (hs : Sc s.heap e L) (hp : Plain L) (hcc : alGet "concat2" L = none) (hb : Base s.heap 0) :
    BW W (d + 5) s e (.cons (.atom "progn") (vlist xs)) (.cons (.atom "let") (.cons .nil (vlist xs))) := by
  refine .mac (y := .cons (.atom "let") (.cons .nil (vlist xs))) hs (hp _ (by decide)) known_progn (Nat.zero_le _) (by decide) (fun s1 e1 hq hs1 => ?_)
  have hp1 : Plain (paramSyms [] "body" xs ++ L) := hp.under (plain_of rfl)
  have kc := hp1 "cons" (by decide)
  have kq := hp1 "quote" (by decide)
  have k2 : alGet "concat2" (paramSyms [] "body" xs ++ L) = none := by rw [alGet_append]; exact hcc
  have hr := (rw_concat2 (W := W) (d := 0) (hb.mono hq.heap) xs .nil).deeper (d' := d) (by omega)
  exact .template hs1 (hp1 _ (by decide)) rfl (.cons hs1 kc (.quote hs1 kq) (.cons hs1 kc (.nil _ _ _)
    (.fn hs1 k2 hd_concat2 (.two (.v (v := vlist xs) hs1 rfl rfl) (.nil _ _ _)) hr)))

theorem BW.when_ {c : Val} {xs : List Val} (hl : xs.length + 2 ≤ d) (hs : Sc s.heap e L) (hp : Plain L) (hcc : alGet "concat2" L = none) (hb : Base s.heap 0) :
    BW W (d + 8) s e (.cons (.atom "when") (vlist (c :: xs))) (vlist [.atom "cond", vlist [c, .cons (.atom "progn") (vlist xs)]]) := by
  refine .mac (xs := c :: xs) (y := vlist [.atom "cond", vlist [c, .cons (.atom "progn") (vlist xs)]]) hs (hp _ (by decide)) known_when
    (Nat.le_add_left _ _) (by decide) (fun s1 e1 hq hs1 => ?_)
  have hp1 : Plain (paramSyms ["condition"] "body" (c :: xs) ++ L) := hp.under (plain_of rfl)
  have kc := hp1 "cons" (by decide)
  have kq := hp1 "quote" (by decide)
  have k2 : alGet "concat2" (paramSyms ["condition"] "body" (c :: xs) ++ L) = none := by rw [alGet_append]; exact hcc
  have hr := (rw_concat2 (W := W) (d := 0) (hb.mono hq.heap) xs .nil).deeper (d' := d) (by omega)
  exact .template hs1 (hp1 _ (by decide)) rfl (.cons hs1 kc (.quote hs1 kq) (.cons hs1 kc (.cons hs1 kc (.v hs1 rfl rfl)
    (.cons hs1 kc (.cons hs1 kc (.quote hs1 kq) (.fn hs1 k2 hd_concat2 (.two (.v (v := vlist xs) hs1 rfl rfl) (.nil _ _ _)) hr))
      (.nil _ _ _))) (.nil _ _ _)))

theorem while_becomesW {c : Val} {xs : List Val} (hl : xs.length + 2 ≤ d) (hs : Sc s.heap e L) (hp : Plain L) (hcc : alGet "concat2" L = none) (hb : Base s.heap 0)
    (hw : alGet "while" L = none) (hg : alGet "gensym" L = none) :
    ∀ s', Quiet s s' → ∃ y s1, (∃ k, y = whileExp (gensymName "-inner".toList k) c xs) ∧ Quiet s' s1 ∧
      evalWithin W (d + 14) (.cons (.atom "while") (vlist (c :: xs))) e s' = evalWithin W (d + 14) y e s1 := by
  refine BWP.mac (P := fun y => ∃ k, y = whileExp (gensymName "-inner".toList k) c xs) hs hw known_while (Nat.le_add_left _ _) (by decide) fun s1 e1 hq hs1 => ?_
  have hp1 : Plain (paramSyms ["condition"] "body" (c :: xs) ++ L) := hp.under (plain_of rfl)
  have hg1 : alGet "gensym" (paramSyms ["condition"] "body" (c :: xs) ++ L) = none := by rw [alGet_append]; exact hg
  refine .let1 hs1 (hp1 _ (by decide)) (by decide) (GPW.gensym "inner" hs1 hg1 (hp1 _ (by decide))) ?_
  rintro s2 e2 _ ⟨k, rfl⟩ hq2 hs2
  refine GW.gp (v := whileExp (gensymName "-inner".toList k) c xs) ?_ ⟨k, rfl⟩
  have hp2 : Plain ([("inner-sym", .atom (gensymName ('-' :: "inner".toList) k))] ++ (paramSyms ["condition"] "body" (c :: xs) ++ L)) := hp1.under (plain_of rfl)
  have k2 : alGet "concat2" ([("inner-sym", .atom (gensymName ('-' :: "inner".toList) k))] ++ (paramSyms ["condition"] "body" (c :: xs) ++ L)) = none := by
    rw [alGet_append, alGet_append]; exact hcc
  have kc := hp2 "cons" (by decide)
  have kq := hp2 "quote" (by decide)
  have hsym : ∀ d, GW W d s2 e2 (.atom "inner-sym") (.atom (gensymName "-inner".toList k)) := fun _ => .v hs2 rfl rfl
  have hcall : GW W d s2 e2 (vlist [.atom "cons", vlist [.atom "cons", .atom "inner-sym", .nil], .nil]) (vlist [vlist [.atom (gensymName "-inner".toList k)]]) := by
    obtain ⟨d, rfl⟩ : ∃ k, d = k + 2 := ⟨d - 2, by omega⟩
    exact .cons hs2 kc (.cons hs2 kc (hsym _) (.nil _ _ _)) (.nil _ _ _)
  have hr := (rw_concat2 (W := W) (d := 0) ((hb.mono hq.heap).mono hq2.heap) xs (vlist [vlist [.atom (gensymName "-inner".toList k)]])).deeper (d' := d) (by omega)
  rw [mkList_vlist] at hr
  have hbody := GW.fn hs2 k2 hd_concat2 (.two (.v (a := "body") (v := vlist xs) hs2 rfl rfl) hcall) hr
  exact .template hs2 (hp2 _ (by decide)) rfl (.cons hs2 kc (.quote hs2 kq) (.cons hs2 kc
    (.cons hs2 kc (.cons hs2 kc (hsym _) (.cons hs2 kc (.cons hs2 kc (.quote hs2 kq) (.cons hs2 kc (hsym _) (.cons hs2 kc (.nil _ _ _) (.cons hs2 kc
      (.cons hs2 kc (.quote hs2 kq) (.cons hs2 kc (.v hs2 rfl rfl) hbody)) (.nil _ _ _))))) (.nil _ _ _))) (.nil _ _ _))
    (.cons hs2 kc (.cons hs2 kc (hsym _) (.nil _ _ _)) (.nil _ _ _))))
end

/-! ### The loop -/

theorem let0_within {d : Nat} {s : St} {e : Nat} {xs : List Val} (hm : NotMacro s.heap e "let") (hne : xs ≠ []) :
    evalWithin W (d + 1) (.cons (.atom "let") (.cons .nil (vlist xs))) e s =
      evBodyTail (performIn W d) (performIn W (d + 1)) (fun _ => msgList "evaluating let body") s.heap.length (vlist xs) (withScope s e) := by
  rw [show Val.cons (.atom "let") (.cons .nil (vlist xs)) = form "let" (.nil :: xs) from rfl, within_sf .let_ hm rfl]
  obtain ⟨x, xs, rfl⟩ := List.exists_cons_of_ne_nil hne
  simp only [evSpecial, vlist_cons, evLet, isList_cons, show Val.nil.isList = true from rfl, if_true]
  rw [M.bind_ok (newEnvM_run _ _)]
  exact (M.bind_ok (by simp only [evLetBinds]; rfl)).trans (M.ite_pos rfl)

theorem loop_within {d : Nat} {s : St} {e : Nat} {g : String} {x : Val} (hl : NotMacro s.heap e "let") (hlam : NotMacro (withScope s e).heap e "lambda") (hlt : e < s.heap.length)
    (hg0 : g ≠ "") (hgt : g ≠ "t") (hgs : specialOf g = none) (hgc : isCxr g = false) (hd : splitDoc (vlist [x]) = pure (.nil, vlist [x])) :
    evalWithin W (d + 1) (vlist [.atom "let", vlist [vlist [.atom g, vlist [.atom "lambda", .atom g, .nil, x]]], vlist [.atom g]]) e s =
      evApply (performIn W d) (performIn W (d + 1)) (.lam [] "" (vlist [x]) .nil false e) [] s.heap.length (loopSt s e g (.lam [] "" (vlist [x]) .nil false e)) := by
  generalize hF : Val.lam [] "" (vlist [x]) .nil false e = F
  let s1 : St := { s with heap := s.heap ++ [⟨[], some e⟩] }
  let s2 : St := { s with heap := heapSet s1.heap e g F }
  have hset1 : setM e g F s1 = .ok () s2 := by unfold setM; rw [if_neg hgt]
  have hset2 : setM s.heap.length g F s2 = .ok () (loopSt s e g F) := by unfold setM; rw [if_neg hgt]; rfl
  have hev : evalWithin W d (vlist [.atom "lambda", .atom g, .nil, x]) e s1 = .ok F s2 := by
    refine performIn_leaf fun call tail => ?_
    have hm : NotMacro s1.heap e SF.lambda.name := hlam
    show evalStep call tail (form SF.lambda.name [.atom g, .nil, x]) e s1 = _
    rw [form, evalStep_notMacro (notMacro_isMacroCall hm _), evExpr_special (isList_vlist _)]
    simp only [evSpecial]
    rw [mkLambda_named0 hg0 hd, hF]
    exact M.bind_ok (attempt_ok hset1)
  have hfr : (loopSt s e g F).heap[s.heap.length]? = some ⟨[(g, F)], some e⟩ := by
    have h0 : s1.heap[s.heap.length]? = some ⟨[], some e⟩ := by simp [s1]
    exact (heapSet_at (heapSet_other (Nat.ne_of_gt hlt) h0)).trans rfl
  have hlk : lookup (loopSt s e g F).heap s.heap.length g = some F := by
    unfold lookup; simp [lookupAux, hfr, alGet]
  have h1 := within_sf (W := W) (d := d) .let_ (xs := [vlist [vlist [.atom g, vlist [.atom "lambda", .atom g, .nil, x]]], vlist [.atom g]]) hl rfl
  refine h1.trans ?_
  generalize hlx : vlist [.atom "lambda", .atom g, .nil, x] = lx at hev
  have hb : evLetBinds (performIn W d) e s.heap.length (vlist [vlist [.atom g, lx]]) s1 = .ok true (loopSt s e g F) := by
    simp only [vlist_cons, vlist_nil, evLetBinds]
    rw [M.bind_ok (extend_ok (by exact hev)), M.bind_ok (extend_ok hset2)]; rfl
  simp only [evSpecial]
  rw [vlist_cons, evLet, M.ite_pos (isList_vlist _), M.ite_pos (isList_vlist _)]
  rw [M.bind_ok (newEnvM_run _ _)]
  refine (M.bind_ok hb).trans ?_
  rw [M.ite_pos rfl]
  have hh : CallHead (loopSt s e g F).heap s.heap.length (.atom g) := callHead_of hgs fun ps r b dc env he => by
    rw [hlk, ← hF] at he; cases he
  show evalWithin W (d + 1) (.cons (.atom g) (vlist [])) s.heap.length (loopSt s e g F) = _
  rw [within_call hh (isList_vlist _)]
  unfold evCall
  rw [M.bind_ok (extend_ok (by exact within_atom hgc hgt hlk)), M.bind_ok (evArgs_within .nil)]

/-- The turns of a loop, with a bound `n` on their number. -/
theorem while_turns {d : Nat} {c : Val} {xs : List Val} (hl : xs.length + 10 ≤ d) {e : Nat} {pre : List Char} {k : Nat} {I : Nat → St → Prop} {Q : St → Prop}
    (hturn : ∀ n y, I n y → TurnWithin W d c xs e (gensymName pre k) Q (fun s4 => ∃ m, m < n ∧ I m s4) y) (n : Nat) :
    ∀ y e0, I n y → Ready y.heap e → ∃ s', evApply (performIn W d) (performIn W (d + 1)) (whileFn (gensymName pre k) c xs e) [] e0 y = .ok .nil s' ∧ Q s' := by
  induction n using Nat.strong_induction_on with
  | _ n ih =>
    intro y e0 hy hr
    generalize hg : gensymName pre k = g at *
    obtain ⟨d, rfl⟩ : ∃ j, d = j + 7 := ⟨d - 7, by omega⟩
    have hcall : evApply (performIn W (d + 7)) (performIn W (d + 8)) (whileFn g c xs e) [] e0 y = evalWithin W (d + 8) (form "when" (c :: (xs ++ [form g []]))) y.heap.length (withScope y e) := by
      unfold whileFn
      simp only [evApply]
      rw [M.bind_ok (newEnvM_run _ _), M.bind_ok (extend_ok (bindArgs_ok (ps := []) (r := "") (vs := []) rfl (by decide)))]
      rfl
    have h1 : Ready (withScope y e).heap y.heap.length := hr.frame fun _ _ _ => rfl
    obtain ⟨h0, L, hs, hL⟩ := h1
    have hlen : (xs ++ [form g []]).length + 2 ≤ d := by simp; omega
    obtain ⟨s1, q1, e1⟩ := BW.when_ (W := W) (c := c) hlen hs (Ready.plain hL) (hL _ _ known_concat2) h0 _ (.refl _)
    have e2 := within_sf (W := W) (d := d + 7) .cond (xs := [vlist [c, .cons (.atom "progn") (vlist (xs ++ [form g []]))]]) ((hs.mono q1.heap).notMacro_sf (hL _ _ known_cond) known_cond) rfl
    have e3 := hcall.trans (e1.trans e2)
    generalize hpr : Val.cons (.atom "progn") (vlist (xs ++ [form g []])) = pr at e3
    simp only [evSpecial, vlist_cons, vlist_nil, evCond] at e3
    rcases hturn n y hy s1 q1 with ⟨s2, hc, hq⟩ | ⟨v, s2, hc, hv, hcore, hrest⟩
    · refine ⟨s2, ?_, hq⟩
      rw [e3, M.bind_ok (extend_ok (by exact hc)), M.ite_pos rfl]; rfl
    · rw [M.bind_ok (extend_ok (by exact hc)), M.ite_neg hv] at e3
      obtain ⟨h02, L2, hs2, hL2⟩ := hcore.ready
      have hb := BW.progn_ (W := W) (d := d + 3) (xs := xs ++ [form g []]) (by omega) hs2 (Ready.plain hL2) (hL2 _ _ known_concat2) h02
      obtain ⟨s3, q3, e4⟩ := hb s2 (.refl _)
      rw [hpr] at e4
      have hm3 : NotMacro s3.heap y.heap.length "let" := (hs2.mono q3.heap).notMacro_sf (hL2 _ _ known_let) known_let
      have e5 := e3.trans (e4.trans (let0_within (d := d + 7) hm3 (by simp)))
      obtain ⟨vs, s4, h4, hc4, hl4, m, hm, hI⟩ := hrest s3 q3
      rw [evBodyTail_within h4] at e5
      obtain ⟨s5, e6, hq⟩ := ih m hm s4 s3.heap.length hI hc4.ready
      refine ⟨s5, ?_, hq⟩
      rw [e5, ← e6]
      have hh : CallHead s4.heap s3.heap.length (.atom g) := callHead_of (hg ▸ gensymName_special _ _) fun ps r b dc env he => by
        rw [hl4] at he; cases he
      show evalWithin W (d + 7 + 1) (.cons (.atom g) (vlist [])) s3.heap.length s4 = _
      rw [within_call hh (isList_vlist _)]
      unfold evCall
      rw [M.bind_ok (extend_ok (by exact within_atom (hg ▸ gensymName_cxr _ _) (hg ▸ gensymName_ne (by decide)) hl4)), M.bind_ok (evArgs_within .nil)]

theorem while_rule {d : Nat} {c : Val} {xs : List Val} (hl : xs.length + 16 ≤ d) {s : St} {e : Nat} (h : Ready s.heap e) {I : String → Nat → St → Prop} {Q : St → Prop}
    (hstart : ∀ k s1, Quiet s s1 → ∃ n, I (gensymName "-inner".toList k) n (loopSt s1 e (gensymName "-inner".toList k) (whileFn (gensymName "-inner".toList k) c xs e)))
    (hready : ∀ k s1, Quiet s s1 → Ready (loopSt s1 e (gensymName "-inner".toList k) (whileFn (gensymName "-inner".toList k) c xs e)).heap e)
    (hturn : ∀ k n y, I (gensymName "-inner".toList k) n y → TurnWithin W d c xs e (gensymName "-inner".toList k) Q (fun s4 => ∃ m, m < n ∧ I (gensymName "-inner".toList k) m s4) y) :
    ∃ s', evalWithin W (d + 1) (form "while" (c :: xs)) e s = .ok .nil s' ∧ Q s' := by
  obtain ⟨h0, L, hs, hL⟩ := h
  obtain ⟨d, rfl⟩ : ∃ j, d = j + 13 := ⟨d - 13, by omega⟩
  obtain ⟨y, s1, ⟨k, rfl⟩, q1, e1⟩ := while_becomesW (W := W) (d := d) (c := c) (xs := xs) (by omega) hs (Ready.plain hL) (hL _ _ known_concat2) h0
    (hL _ _ known_while) (hL "gensym" none (by decide +kernel)) s (.refl _)
  obtain ⟨n, hI⟩ := hstart k s1 q1
  obtain ⟨s', e3, hq⟩ := while_turns (W := W) (c := c) (xs := xs) (d := d + 13) (by omega) (I := I (gensymName "-inner".toList k)) (hturn k) n _ s1.heap.length hI (hready k s1 q1)
  refine ⟨s', ?_, hq⟩
  rw [form, e1, ← e3]
  have hs1 := hs.mono q1.heap
  exact loop_within (hs1.notMacro_sf (hL _ _ known_let) known_let) ((hs1.mono (List.prefix_append _ _)).notMacro_sf (hL _ _ known_lambda) known_lambda) hs1.lt
    (gensymName_ne (by decide)) (gensymName_ne (by decide)) (gensymName_special _ _) (gensymName_cxr _ _) rfl

/-! ### `range` -/

/-- `(set! x v)` of a variable owned by scope `o`. -/
theorem set_within {d : Nat} {s : St} {e o : Nat} {L : List (String × Val)} {n : String} {x v : Val} (hs : Sc s.heap e L) (hx : alGet "set!" L = none)
    (hv : GW W d s e x v) (hn : n ≠ "t") (ho : ∀ s1, Quiet s s1 → owner s1.heap e n = some o) :
    ∃ s1, Quiet s s1 ∧ evalWithin W (d + 1) (vlist [.atom "set!", .atom n, x]) e s = .ok v { s1 with heap := heapSet s1.heap o n v } := by
  obtain ⟨s1, e1, q1⟩ := hv s (.refl _)
  refine ⟨s1, q1, ?_⟩
  refine (within_sf (W := W) (d := d) .set (xs := [.atom n, x]) (hs.notMacro_sf hx known_setB) rfl).trans ?_
  simp only [evSpecial, vlist_cons, vlist_nil, evSet]
  have hu : updateM e n v s1 = .ok () { s1 with heap := heapSet s1.heap o n v } := by
    unfold updateM; rw [if_neg hn, ho s1 q1]
  rw [M.bind_ok (extend_ok (by exact e1)), M.bind_ok (extend_ok hu)]; rfl

/-- The condition and the expressions of the loop in `range`. -/
def rangeCond : Val := vlist [.atom "pos?", .atom "c"]
def rangeBody : List Val :=
  [vlist [.atom "set!", .atom "c", vlist [.atom "dec", .atom "c"]], vlist [.atom "set!", .atom "acc", vlist [.atom "cons", .atom "c", .atom "acc"]]]

theorem rangeFrame_known {g : String} (hg : ∀ n : String, n.toList.head? ≠ some '<' → g ≠ n) (hgk : known g = none) {i p : Nat} {c : Int} {acc N : Val} :
    ∀ x r, known x = some r → alGet x ((rangeFrame g i p c acc).syms ++ [("n", N)]) = none := by
  intro x r hx
  have hne : ∀ n : String, known n = none → x ≠ n := by rintro n hn rfl; rw [hn] at hx; cases hx
  refine alGet_rangeFrame (hne _ (by decide +kernel)) (hne _ (by decide +kernel)) (hne _ hgk).symm ?_
  have := hne "n" (by decide +kernel)
  simp [alGet, Ne.symm this]

theorem gensymName_known (pre : List Char) (k : Nat) : known (gensymName pre k) = none := by
  cases h : known (gensymName pre k) with
  | none => rfl
  | some r => exact absurd rfl (known_ne_gensym h pre k)

theorem range_turn {d : Nat} {s0 : St} (hc : Base s0.heap 0) {i p k N : Nat} {V : Val} (hi : s0.heap.length ≤ i) (hp : Sc s0.heap p [("n", V)]) (hpi : p < i) (n : Nat) (y : St)
    (hI : Quiet s0 y ∧ ∃ acc, y.heap[i]? = some (rangeFrame (gensymName "-inner".toList k) i p n (vlist acc)) ∧ upTo n ++ acc = upTo N) :
    TurnWithin W (d + 3) rangeCond rangeBody i (gensymName "-inner".toList k)
      (fun s' => Quiet s0 s' ∧ s'.heap[i]? = some (rangeFrame (gensymName "-inner".toList k) i p 0 (vlist (upTo N))))
      (fun s' => ∃ m, m < n ∧ Quiet s0 s' ∧ ∃ acc, s'.heap[i]? = some (rangeFrame (gensymName "-inner".toList k) i p m (vlist acc)) ∧ upTo m ++ acc = upTo N) y := by
  have hgk := gensymName_known "-inner".toList k
  generalize hgd : gensymName "-inner".toList k = g at *
  have hg : ∀ n : String, n.toList.head? ≠ some '<' → g ≠ n := by rintro n hn rfl; exact gensymName_ne hn hgd
  have key : ∀ (s : St) (c : Int) (acc : Val), Quiet s0 s → s.heap[i]? = some (rangeFrame g i p c acc) → Sc s.heap i ((rangeFrame g i p c acc).syms ++ [("n", V)]) :=
    fun s c acc hq hf => .frame hf hpi (hp.mono hq.heap)
  have hnone : ∀ (c : Int) (acc : Val) (n : String), n.toList.head? ≠ some '<' → n ∉ ["c", "acc", "n"] → alGet n ((rangeFrame g i p c acc).syms ++ [("n", V)]) = none := by
    intro c acc n h1 h2
    simp only [List.mem_cons, List.not_mem_nil, or_false, not_or] at h2
    exact alGet_rangeFrame h2.1 h2.2.1 (hg n h1) (by simp [alGet, Ne.symm h2.2.2])
  obtain ⟨hq0, acc, hf, hacc⟩ := hI
  intro s1 q1
  have hq01 : Quiet y (withScope y i) := (Quiet.refl y).grow (List.prefix_append _ _)
  have hil : i < y.heap.length := (key y _ _ hq0 hf).lt
  have hsc := key y _ _ hq0 hf
  have hfw : (withScope y i).heap[y.heap.length]? = some ⟨[], some i⟩ := by simp [withScope]
  have hs1 : Sc s1.heap y.heap.length ([] ++ ((rangeFrame g i p n (vlist acc)).syms ++ [("n", V)])) :=
    .frame (prefix_get q1.heap hfw) hil (hsc.mono (hq01.trans q1).heap)
  have q0s1 : Quiet s0 s1 := (hq0.trans hq01).trans q1
  have hb1 := hc.mono q0s1.heap
  cases n with
  | zero =>
    left
    obtain ⟨s2, e2, q2⟩ := GW.posF (W := W) (d := d + 2) (x := .atom "c") (n := 0) hs1 (hnone _ _ _ (by decide) (by decide)) hb1 (.v hs1 rfl rfl) (by decide) s1 (.refl _)
    refine ⟨s2, e2, q0s1.trans q2, ?_⟩
    rw [prefix_get ((hq01.trans q1).trans q2).heap hf, ← hacc]; rfl
  | succ n =>
    right
    obtain ⟨s2, e2, q2⟩ := GW.posT (W := W) (d := d + 2) (x := .atom "c") (n := ((n + 1 : Nat) : Int)) hs1 (hnone _ _ _ (by decide) (by decide)) hb1 (.v hs1 rfl rfl) (by omega) s1 (.refl _)
    refine ⟨_, s2, e2, by decide, ?_, fun s2' q2' => ?_⟩
    · exact Ready.coreHere ⟨hb1.mono q2.heap, _, hs1.mono q2.heap, fun x r hx => rangeFrame_known (p := p) hg hgk x r hx⟩
    let s3 : St := withScope s2' y.heap.length
    have q3 : Quiet s2' s3 := (Quiet.refl s2').grow (List.prefix_append _ _)
    have q13 : Quiet s1 s3 := (q2.trans q2').trans q3
    have hke : y.heap.length < s2'.heap.length := (hs1.mono (q2.trans q2').heap).lt
    have hf3 : s3.heap[s2'.heap.length]? = some ⟨[], some y.heap.length⟩ := by simp [s3, withScope]
    have hs3 : Sc s3.heap s2'.heap.length ([] ++ ([] ++ ((rangeFrame g i p ((n + 1 : Nat) : Int) (vlist acc)).syms ++ [("n", V)]))) := .frame hf3 hke (hs1.mono q13.heap)
    have hb3 := hb1.mono q13.heap
    have hd : GW W (d + 2) s3 s2'.heap.length (vlist [.atom "dec", .atom "c"]) (.num n) := by
      have := GW.dec (W := W) (d := d) (x := .atom "c") (n := ((n + 1 : Nat) : Int)) hs3 (hnone _ _ _ (by decide) (by decide)) hb3 (.v hs3 rfl rfl)
      rw [show (((n + 1 : Nat) : Int)) - 1 = n by omega] at this
      exact this
    have hfy1 := prefix_get q1.heap hfw
    have hfi1 := prefix_get (hq01.trans q1).heap hf
    obtain ⟨s4, q4, e4⟩ := set_within (o := i) (n := "c") hs3 (hnone _ _ _ (by decide) (by decide)) hd (by decide) (fun s4 q4 => by
      refine owner_two (prefix_get q4.heap hf3) (prefix_get (q13.trans q4).heap hfy1) (prefix_get (q13.trans q4).heap hfi1) hke hil (by rfl))
    let s5 : St := { s4 with heap := heapSet s4.heap i "c" (.num n) }
    have q05 : Quiet s0 s5 := ((q0s1.trans q13).trans q4).grow (prefix_heapSet ((q0s1.trans q13).trans q4).heap hi _ _)
    have hfi4 : s4.heap[i]? = _ := prefix_get (q13.trans q4).heap hfi1
    have hfi5 : s5.heap[i]? = some (rangeFrame g i p n (vlist acc)) := by
      have := heapSet_at (x := "c") (v := .num n) hfi4
      simpa [rangeFrame, alSet] using this
    have hfk5 : s5.heap[y.heap.length]? = some ⟨[], some i⟩ := by
      show (heapSet s4.heap i "c" (.num n))[y.heap.length]? = _
      exact heapSet_other (by omega) (prefix_get (q13.trans q4).heap hfy1)
    have hfe5 : s5.heap[s2'.heap.length]? = some ⟨[], some y.heap.length⟩ := by
      show (heapSet s4.heap i "c" (.num n))[s2'.heap.length]? = _
      exact heapSet_other (by omega) (prefix_get q4.heap hf3)
    have hs5 : Sc s5.heap s2'.heap.length ([] ++ ([] ++ ((rangeFrame g i p n (vlist acc)).syms ++ [("n", V)]))) := .frame hfe5 hke (.frame hfk5 hil (key s5 n _ q05 hfi5))
    obtain ⟨s6, q6, e6⟩ := set_within (W := W) (d := d + 2) (o := i) (n := "acc") (x := vlist [.atom "cons", .atom "c", .atom "acc"]) hs5 (hnone _ _ _ (by decide) (by decide))
      (.cons hs5 (hnone _ _ _ (by decide) (by decide)) (.v hs5 rfl rfl) (.v hs5 rfl rfl)) (by decide)
      (fun s6 q6 => owner_two (prefix_get q6.heap hfe5) (prefix_get q6.heap hfk5) (prefix_get q6.heap hfi5) hke hil (by rfl))
    let s7 : St := { s6 with heap := heapSet s6.heap i "acc" (vlist (.num n :: acc)) }
    have q07 : Quiet s0 s7 := (q05.trans q6).grow (prefix_heapSet (q05.trans q6).heap hi _ _)
    have hfi7 : s7.heap[i]? = some (rangeFrame g i p n (vlist (.num n :: acc))) := by
      refine (heapSet_at (x := "acc") (v := vlist (.num n :: acc)) (prefix_get q6.heap hfi5)).trans ?_
      simp [rangeFrame, alSet]
    have hfk7 : s7.heap[y.heap.length]? = some ⟨[], some i⟩ := by
      show (heapSet s6.heap i "acc" _)[y.heap.length]? = _
      exact heapSet_other (by omega) (prefix_get q6.heap hfk5)
    have hfe7 : s7.heap[s2'.heap.length]? = some ⟨[], some y.heap.length⟩ := by
      show (heapSet s6.heap i "acc" _)[s2'.heap.length]? = _
      exact heapSet_other (by omega) (prefix_get q6.heap hfe5)
    have hs7 : Sc s7.heap s2'.heap.length ([] ++ ([] ++ ((rangeFrame g i p n (vlist (.num n :: acc))).syms ++ [("n", V)]))) := .frame hfe7 hke (.frame hfk7 hil (key s7 n _ q07 hfi7))
    refine ⟨_, s7, .cons e4 (.cons e6 .nil), ?_, ?_, n, Nat.lt_succ_self _, q07, .num n :: acc, hfi7, ?_⟩
    · exact Ready.coreHere ⟨hc.mono q07.heap, _, key s7 n _ q07 hfi7, fun x r hx => rangeFrame_known (p := p) hg hgk x r hx⟩
    · refine hs7.lookup_some ?_
      have : alGet g ([] ++ ([] ++ ((rangeFrame g i p n (vlist (.num n :: acc))).syms ++ [("n", V)]))) = some (rangeLoop g i) := by
        simp [rangeFrame, alGet, Ne.symm (hg "c" (by decide)), Ne.symm (hg "acc" (by decide))]
      exact this
    · rw [← hacc, upTo_succ, List.append_assoc]; rfl

/-- `range` on a fixed stack. -/
theorem rw_range {d : Nat} {s : St} (hc : Base s.heap 0) (n : Int) : RW W (d + 19) s k_range' [.num n] (vlist (upTo n.toNat)) := by
  refine .lam rfl (by decide) (.base hc) fun s1 e1 hq hs => ?_
  have hb := hc.mono hq.heap
  by_cases hn : 0 < n
  · refine .whenT hs (plain_of rfl) rfl hb (.posT hs rfl hb (.v hs rfl rfl) hn) (by decide) fun s2 e2 hq2 hs2 => ?_
    have hb2 := hb.mono hq2.heap
    intro s3 hq3
    have hs3 := hs2.mono hq3.heap
    have hb3 := hb2.mono hq3.heap
    -- the scope of the `let`
    let s4 : St := { s3 with heap := s3.heap ++ [⟨[], some e2⟩] }
    let s5 : St := { s3 with heap := s3.heap ++ [⟨[("c", .num n), ("acc", .nil)], some e2⟩] }
    have hs4 := hs3.mono (show s3.heap <+: s4.heap from List.prefix_append _ _)
    have hbind : BindsWithin W (d + 19) e2 s3.heap.length [vlist [.atom "c", .atom "n"], vlist [.atom "acc", .nil]] s4 s5 := by
      have h1 : ({ s4 with heap := heapSet s4.heap s3.heap.length "c" (.num n) } : St) = { s3 with heap := s3.heap ++ [⟨[("c", .num n)], some e2⟩] } := by
        show ({ s3 with heap := heapSet (s3.heap ++ [⟨[], some e2⟩]) s3.heap.length "c" (.num n) } : St) = _
        rw [heapSet_new]; rfl
      have h2 : s5 = { ({ s3 with heap := s3.heap ++ [⟨[("c", .num n)], some e2⟩] } : St) with heap := heapSet (s3.heap ++ [⟨[("c", .num n)], some e2⟩]) s3.heap.length "acc" .nil } := by
        rw [heapSet_new]; rfl
      refine .cons (v := .num n) (within_atom rfl (by decide) (hs4.lookup_some rfl)) (by decide) ?_
      rw [h1]
      refine .cons (v := .nil) (performIn_leaf fun _ _ => rfl) (by decide) ?_
      rw [← h2]
      exact .nil
    have q5 : Quiet s3 s5 := (Quiet.refl s3).grow (List.prefix_append _ _)
    have f5 : s5.heap[s3.heap.length]? = some ⟨[("c", .num n), ("acc", .nil)], some e2⟩ := by simp [s5]
    have hs5 : Sc s5.heap s3.heap.length ([("c", .num n), ("acc", .nil)] ++ ([] ++ (paramSyms ["n"] "" [.num n] ++ []))) := .frame f5 hs3.lt (hs3.mono q5.heap)
    have hb5 := hb3.mono q5.heap
    have hne : ∀ (x : String) (r : Option Val), known x = some r → ∀ m : String, known m = none → x ≠ m := by rintro x r hx m hm rfl; rw [hm] at hx; cases hx
    have hready5 : Ready s5.heap s3.heap.length := ⟨hb5, _, hs5, fun x r hx => by
      have h1 := hne x r hx "c" (by decide +kernel)
      have h2 := hne x r hx "acc" (by decide +kernel)
      have h3 := hne x r hx "n" (by decide +kernel)
      simp [alGet, alSet, paramSyms, Ne.symm h1, Ne.symm h2, Ne.symm h3]⟩
    have hframe : ∀ k s6, Quiet s5 s6 → Quiet s3 (loopSt s6 s3.heap.length (gensymName "-inner".toList k) (whileFn (gensymName "-inner".toList k) rangeCond rangeBody s3.heap.length)) ∧
        (loopSt s6 s3.heap.length (gensymName "-inner".toList k) (whileFn (gensymName "-inner".toList k) rangeCond rangeBody s3.heap.length)).heap[s3.heap.length]? =
          some (rangeFrame (gensymName "-inner".toList k) s3.heap.length e2 n .nil) := by
      intro k s6 q6
      have hlt : s3.heap.length < s6.heap.length := (hs5.mono q6.heap).lt
      generalize hgd : gensymName "-inner".toList k = g
      have hg : ∀ n : String, n.toList.head? ≠ some '<' → g ≠ n := by rintro n hn rfl; exact gensymName_ne hn hgd
      refine ⟨(q5.trans q6).grow (prefix_heapSet (prefix_heapSet ((q5.trans q6).heap.trans (List.prefix_append _ _)) (Nat.le_refl _) _ _) (by omega) _ _), ?_⟩
      refine heapSet_other (by omega) ((heapSet_at (prefix_get (List.prefix_append _ _) (prefix_get q6.heap f5))).trans ?_)
      simp [rangeFrame, alSet, Ne.symm (hg "c" (by decide)), Ne.symm (hg "acc" (by decide)), whileFn, rangeLoop, rangeCond, rangeBody, form, vlist_cons, vlist_nil]
    have hN : ((n.toNat : Nat) : Int) = n := by omega
    obtain ⟨s10, e10, ⟨k, q10, f10⟩⟩ := while_rule (W := W) (d := d + 18) (c := rangeCond) (xs := rangeBody) (by simp [rangeBody]) hready5
      (I := fun g m y => Quiet s3 y ∧ ∃ acc, y.heap[s3.heap.length]? = some (rangeFrame g s3.heap.length e2 m (vlist acc)) ∧ upTo m ++ acc = upTo n.toNat)
      (Q := fun s' => ∃ k, Quiet s3 s' ∧ s'.heap[s3.heap.length]? = some (rangeFrame (gensymName "-inner".toList k) s3.heap.length e2 0 (vlist (upTo n.toNat))))
      (fun k s6 q6 => ⟨n.toNat, (hframe k s6 q6).1, [], by rw [hN]; exact (hframe k s6 q6).2, List.append_nil _⟩)
      (fun k s6 q6 => ⟨hb3.mono (hframe k s6 q6).1.heap, _, .frame (hframe k s6 q6).2 hs3.lt (hs3.mono (hframe k s6 q6).1.heap), fun x r hx =>
        rangeFrame_known (p := e2) (fun m hm => gensymName_ne hm) (gensymName_known _ _) x r hx⟩)
      (fun k m y hI => by
        have := range_turn (W := W) (d := d + 15) hb3 (k := k) (Nat.le_refl _) hs3 hs3.lt m y hI
        intro s1 q1
        rcases this s1 q1 with ⟨s2, e2, h2⟩ | h
        · exact .inl ⟨s2, e2, k, h2⟩
        · exact .inr h)
    have hs10 : Sc s10.heap s3.heap.length ((rangeFrame (gensymName "-inner".toList k) s3.heap.length e2 0 (vlist (upTo n.toNat))).syms ++ ([] ++ (paramSyms ["n"] "" [.num n] ++ []))) :=
      .frame f10 hs3.lt (hs3.mono q10.heap)
    refine ⟨s10, ?_, q10⟩
    refine (within_sf (W := W) (d := d + 19) .let_ (xs := [vlist [vlist [.atom "c", .atom "n"], vlist [.atom "acc", .nil]], form "while" (rangeCond :: rangeBody), .atom "acc"])
      (hs3.notMacro_sf rfl known_let) rfl).trans ?_
    simp only [evSpecial]
    rw [vlist_cons, evLet, M.ite_pos (isList_vlist _), M.ite_pos (isList_vlist _)]
    rw [M.bind_ok (newEnvM_run _ _)]
    refine (M.bind_ok (evLetBinds_within hbind)).trans ?_
    rw [M.ite_pos rfl]
    refine (evBodyTail_within (xs := [form "while" (rangeCond :: rangeBody)]) (.cons e10 .nil)).trans ?_
    refine within_atom rfl (by decide) ?_
    exact hs10.lookup_some rfl
  · rw [show n.toNat = 0 by omega]
    exact .whenF hs (plain_of rfl) rfl hb (.posF hs rfl hb (.v hs rfl rfl) hn)

end L1
