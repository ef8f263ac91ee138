import Verif.Lemmas.FuzzEval
/-
examples/fuzz-legal.l1: random numbers for which `expr` ends, and others for which it does not.
-/
set_option autoImplicit false
namespace L1

variable {W : World}

section
variable {K T e : Nat} {h : Heap} {m n : Nat} {P Q : Val → Heap → Prop}

theorem cd_oneof_at (hp : FuzzAt h) (xs : List Val) (h0 : xs ≠ []) (hl : xs.length < 2 ^ 63) : CD W K T h f_one_of xs 1 fun v _ => ∃ t, v = xs.getD (W.rand t % xs.length) .nil := by
  refine .lam (ps := []) (r := "xs") (by simp [ArityOk]) (by decide) hp.top fun h' e' hh hs => ?_
  refine .calls (xs := [.atom "xs"]) (vs := [vlist xs]) (.core hs rfl hd_randchoice) (fun s hh' => .one (.v (hs.mono hh') (by simp [paramSyms, alGet]) rfl)) ?_
  exact CD.draws (fun s hh' => draws_randchoice (W := W) ((hp.mono (hh.trans hh')).base) xs h0 hl)

/-- `num` does not end. -/
def NumNever (W : World) (K T : Nat) : Prop := ∀ (h : Heap) (n : Nat), FuzzAt h → n < 2 ^ 62 → CD W K T h f_num [.num n] 0 fun _ _ => False

theorem nums_never (hN : NumNever W K T) (hp : FuzzAt h) (hn : n < 2 ^ 62) : CD W K T h f_nums [.num n] 0 fun _ _ => False := by
  refine .lam (ps := ["n"]) (r := "") rfl (by decide) hp.top fun h' e' hh hs => ?_
  refine .call2 (l := 0) (.core hs rfl hd_repeatedly) (.calls (xs := [.atom "n"]) (.var (a := "randpos") hs rfl rfl) (fun s hh' => .one (.v (hs.mono hh') rfl rfl)) (cd_randpos (hp.mono hh) hn))
    (.calls (xs := [.atom "num", .atom "n"]) (.core hs rfl hd_partial) (fun s hh' => .two (.v (hs.mono hh') rfl rfl) (.v (hs.mono hh') rfl rfl)) (cd_partial (hp.mono hh).base)) ?_
  rintro v h1 w h2 hh1 hh2 ⟨j, rfl⟩ ⟨e0, rfl, hs0⟩
  have hp2 := hp.mono (hh.trans (hh1.trans hh2))
  refine (cd_repeatedly (P := fun _ _ => False) rfl (j + 1) hp2.base (cd_partialFn hs0 hp2.base ((hN _ n hp2 hn).later (List.prefix_refl _) (by omega)))).mono (Nat.le_refl _) ?_
  rintro v _ _ ⟨xs, rfl, hl, hx⟩
  cases xs with
  | nil => simp at hl
  | cons x xs => exact hx x (by simp)

theorem arith_never (hN : NumNever W K T) (hp : FuzzAt h) (hn : n < 2 ^ 62) : CD W K T h f_arith [.num n] 0 fun _ _ => False := by
  refine .lam (ps := ["n"]) (r := "") rfl (by decide) hp.top fun h' e' hh hs => ?_
  have hp' := hp.mono hh
  have hq : ∀ (a : String) (s : St), h' <+: s.heap → G W s e' (vlist [.atom "quote", .atom a]) (.atom a) := fun a s hh' => .quote (hs.mono hh') rfl known_quote
  refine .call2 (l := 0) (n := 0) (Q := fun _ _ => False) (.core hs rfl hd_listStar)
    (.calls (xs := [vlist [.atom "quote", .atom "+"], vlist [.atom "quote", .atom "-"], vlist [.atom "quote", .atom "*"], vlist [.atom "quote", .atom "/not0"]]) (.var (a := "one-of") hs rfl rfl)
      (fun s hh' => .cons (hq _ s hh') (.cons (hq _ s hh') (.cons (hq _ s hh') (.cons (hq _ s hh') .nil)))) (cd_oneof hp' _ (by simp) (by simp)))
    (.call1 (n := 0) (.var (a := "nums") hs rfl rfl) (.of (g_cool hp' hs rfl rfl)) ?_) (fun _ _ _ _ _ _ _ hf => hf.elim)
  rintro v h2 hh2 rfl
  exact nums_never hN (hp'.mono hh2) (half_lt hn)

theorem num_never (hW : ∀ t, W.rand t % 3 = 1) (K : Nat) : ∀ (N T : Nat), K ≤ T + N → NumNever W K T := by
  intro N
  induction N with
  | zero => exact fun T hK h n _ _ => .late (by omega)
  | succ N ih =>
    intro T hK h n hp hn
    have hN : NumNever W K (T + 1) := ih (T + 1) (by omega)
    refine .lam (ps := ["n"]) (r := "") rfl (by decide) hp.top fun h' e' hh hs => ?_
    have hp' := hp.mono hh
    refine .callH1 (l := 0) (hx := .cons (.atom "one-of") (vlist _)) (fun _ => trivial) (.calls (xs := [.atom "randnum", .atom "arith", .atom "dolen"]) (.var (a := "one-of") hs rfl rfl)
      (fun s hh' => .three (.v (hs.mono hh') rfl rfl) (.v (hs.mono hh') rfl rfl) (.v (hs.mono hh') rfl rfl)) (cd_oneof_at hp' _ (by simp) (by simp))) (.of (g_cool hp' hs rfl rfl)) ?_
    rintro f h1 w h2 hh1 hh2 ⟨t, rfl⟩ rfl
    have hp2 := hp'.mono (hh1.trans hh2)
    show CD W K _ h2 ([f_randnum, f_arith, f_dolen].getD (W.rand t % 3) .nil) _ _ _
    rw [hW t]
    exact arith_never hN hp2 (half_lt hn)

theorem expr_never (h5 : ∀ t, W.rand t % 5 = 0) (h3 : ∀ t, W.rand t % 3 = 1) (hp : FuzzAt h) (hn : n < 2 ^ 62) : CD W K T h f_expr [.num n] 1 fun _ _ => False := by
  refine .lam (ps := ["n"]) (r := "") rfl (by decide) hp.top fun h' e' hh hs => ?_
  have hp' := hp.mono hh
  have hN : NumNever W K T := num_never h3 K K T (by omega)
  refine .callH1 (l := 0) (hx := .cons (.atom "one-of") (vlist _)) (fun _ => trivial) (.calls (xs := [.atom "arith", .atom "quote-atom", .atom "quote-list", .atom "dolen", .atom "boolean"]) (.var (a := "one-of") hs rfl rfl)
    (fun s hh' => .cons (.v (hs.mono hh') rfl rfl) (.cons (.v (hs.mono hh') rfl rfl) (.three (.v (hs.mono hh') rfl rfl) (.v (hs.mono hh') rfl rfl) (.v (hs.mono hh') rfl rfl)))) (cd_oneof_at hp' _ (by simp) (by simp)))
    (.of fun s hh' => .v (v := .num n) (hs.mono hh') rfl rfl) ?_
  rintro f h1 w h2 hh1 hh2 ⟨t, rfl⟩ rfl
  show CD W K _ h2 ([f_arith, f_quote_atom, f_quote_list, f_dolen, f_boolean].getD (W.rand t % 5) .nil) _ _ _
  rw [h5 t]
  exact arith_never (fun h n hp hn => (hN h n hp hn).later (List.prefix_refl _) (by omega)) (hp'.mono (hh1.trans hh2)) hn

/-- `expr` does not end. -/
theorem expr_forever {s : St} (h5 : ∀ t, W.rand t % 5 = 0) (h3 : ∀ t, W.rand t % 3 = 1) (hs : FuzzAt s.heap) (n : Nat) (hn : n < 2 ^ 62) (e : Nat) : callFn W f_expr [.num n] e s = .oof := by
  cases hf : (callFn W f_expr [.num n] e s).final with
  | none =>
    revert hf
    cases callFn W f_expr [.num n] e s <;> simp [Res.final]
  | some s' =>
    rcases expr_never (W := W) (K := s'.tick + 1) (T := 0) h5 h3 hs hn s e (List.prefix_refl _) (by omega) with h | ⟨s1, h1, h2⟩ | ⟨v, s1, h1, _, h3⟩
    · exact h
    · rw [hf] at h1; cases h1; omega
    · exact h3.elim

theorem user_call {s : St} {e : Nat} {L : List (String × Val)} {a : String} {f : Val} {xs as : List Val} (hs : Sc s.heap e L) (hx : alGet a L = some f)
    (hm : (f.notMacro && (specialOf a).isNone && !isCxr a && a != "t") = true) (hg : GA W s e xs as) : ∃ s1, Quiet s s1 ∧ eval W (.cons (.atom a) (vlist xs)) e s = callFn W f as e s1 := by
  obtain ⟨s1, e1, q1⟩ := hg.evals s (.refl _)
  refine ⟨s1, q1, ?_⟩
  have hl : lookup s.heap e a = some f := hs.lookup_some hx
  simp only [Bool.and_eq_true, Option.isNone_iff_eq_none, Bool.not_eq_true', bne_iff_ne] at hm
  refine eval_reaches (callHead_of hm.1.1.2 fun ps r b dc env he => ?_) ⟨s, eval_atom_bound hm.1.2 hm.2 hl, e1⟩
  rw [hl] at he
  cases he
  exact absurd hm.1.1.1 (by simp [Val.notMacro])

theorem draws_oneof {s : St} (hp : FuzzAt s.heap) (xs : List Val) (h0 : xs ≠ []) (hl : xs.length < 2 ^ 63) : DrawsFn W s f_one_of xs 1 fun t => xs.getD (W.rand t % xs.length) .nil := by
  intro s0 e hh
  have hp0 := hp.mono hh
  rw [show callFn W f_one_of xs e s0 = _ from callFn_lam (ps := []) (r := "xs") (vs := xs) (by simp [ArityOk]) (by decide) e s0]
  have q1 := Quiet.callSt s0 0 [] "xs" xs
  have hs := Sc.callSt hp0.top [] "xs" xs
  obtain ⟨s2, q2, e2⟩ := core_call (W := W) (xs := [.atom "xs"]) (as := [vlist xs]) hs rfl hd_randchoice (.one (.v hs (by simp [paramSyms, alGet]) rfl))
  obtain ⟨s3, e3, d3⟩ := draws_randchoice (W := W) (hp0.base.mono (q1.trans q2).heap) xs h0 hl s2 s0.heap.length (List.prefix_refl _)
  refine ⟨s3, e2.trans ?_, .after (q1.trans q2) d3⟩
  rw [e3, (q1.trans q2).tick]

theorem expr_boolean {s : St} (hs : FuzzAt s.heap) (v : Val) (e : Nat) (h5 : W.rand s.tick % 5 = 4) :
    ∃ s', callFn W f_expr [v] e s = .ok (if W.rand (s.tick + 1) % 2 = 0 then .atom "t" else .nil) s' ∧ Draws 2 s s' := by
  rw [show callFn W f_expr [v] e s = _ from callFn_lam (ps := ["n"]) (r := "") (vs := [v]) rfl (by decide) e s]
  have q1 := Quiet.callSt s 0 ["n"] "" [v]
  have hs1 := Sc.callSt hs.top ["n"] "" [v]
  have hp1 := hs.mono q1.heap
  have hT : ∀ (s : St) (e : Nat), G W s e (.atom "t") (.atom "t") := fun s e s1 _ => ⟨s1, eval_t _ _ _, .refl _⟩
  obtain ⟨s2, q2, e2⟩ := user_call (W := W) (a := "one-of") (xs := [.atom "arith", .atom "quote-atom", .atom "quote-list", .atom "dolen", .atom "boolean"]) hs1 rfl rfl
    (.cons (.v hs1 rfl rfl) (.cons (.v hs1 rfl rfl) (.three (.v hs1 rfl rfl) (.v hs1 rfl rfl) (.v hs1 rfl rfl))))
  obtain ⟨s3, e3, d3⟩ := draws_oneof (W := W) hs [f_arith, f_quote_atom, f_quote_list, f_dolen, f_boolean] (by simp) (by simp) s2 s.heap.length (q1.trans q2).heap
  have t2 : s2.tick = s.tick := (q1.trans q2).tick
  have e3' : callFn W f_one_of [f_arith, f_quote_atom, f_quote_list, f_dolen, f_boolean] s.heap.length s2 = .ok f_boolean s3 := by
    rw [e3]
    show Res.ok ([f_arith, f_quote_atom, f_quote_list, f_dolen, f_boolean].getD (W.rand s2.tick % 5) .nil) _ = _
    rw [t2, h5]; rfl
  have d13 := Draws.after (q1.trans q2) d3
  have hs3 := hs1.mono (q2.heap.trans d3.heap)
  obtain ⟨s4, e4, q4⟩ := G.v (W := W) (a := "n") (v := v) hs3 rfl rfl s3 (.refl _)
  have d14 := d13.quiet q4
  have hp4 := hs.mono d14.heap
  have e5 := callFn_lam (W := W) (ps := ["_"]) (r := "") (vs := [v]) (x := vlist [.atom "one-of", .atom "t", .nil]) (doc := .nil) (m := false) (cenv := 0) rfl (by decide) s.heap.length s4
  have q5 := Quiet.callSt s4 0 ["_"] "" [v]
  have hs5 := Sc.callSt hp4.top ["_"] "" [v]
  obtain ⟨s6, q6, e6⟩ := user_call (W := W) (a := "one-of") (xs := [.atom "t", .nil]) hs5 rfl rfl (.two (hT _ _) (.nil _ _))
  obtain ⟨s7, e7, d7⟩ := draws_oneof (W := W) hp4 [.atom "t", .nil] (by simp) (by simp) s6 s4.heap.length (q5.trans q6).heap
  have t6 : s6.tick = s.tick + 1 := ((q5.trans q6).tick).trans d14.tick
  refine ⟨s7, ?_, d14.trans (.after (q5.trans q6) d7)⟩
  rw [show eval W (vlist [vlist [.atom "one-of", .atom "arith", .atom "quote-atom", .atom "quote-list", .atom "dolen", .atom "boolean"], .atom "n"]) s.heap.length (callSt s 0 ["n"] "" [v]) = _ from
    eval_callH1 (hx := .cons (.atom "one-of") (vlist [.atom "arith", .atom "quote-atom", .atom "quote-list", .atom "dolen", .atom "boolean"])) trivial, e2.trans e3']
  show (eval W (.atom "n") s.heap.length s3).andThen _ (fun w s'' => callFn W f_boolean [w] s.heap.length s'') = _
  rw [e4]
  refine e5.trans (e6.trans (e7.trans ?_))
  rw [t6]
  rcases Nat.mod_two_eq_zero_or_one (W.rand (s.tick + 1)) with h | h
  · rw [if_pos h]
    show Res.ok ([Val.atom "t", .nil].getD (W.rand (s.tick + 1) % 2) .nil) _ = _
    rw [h]; rfl
  · rw [if_neg (by omega)]
    show Res.ok ([Val.atom "t", .nil].getD (W.rand (s.tick + 1) % 2) .nil) _ = _
    rw [h]; rfl
end

end L1
