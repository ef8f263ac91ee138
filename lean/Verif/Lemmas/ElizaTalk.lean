import Verif.Lemmas.ElizaMatch
import Verif.Lemmas.CoreRest
/-
What `use-eliza-rules` of examples/eliza.l1 returns.
-/
set_option autoImplicit false
namespace L1

variable {W : World}

/-! ### A call that takes one random number -/

/-- The call returns `v` at any quiet time after `s`, and takes one random number. -/
def Draws1 (W : World) (s : St) (f : Val) (vs : List Val) (v : Val) : Prop :=
  ∀ s1 e, Quiet s s1 → ∃ s2, callFn W f vs e s1 = .ok v s2 ∧ Draws 1 s1 s2

theorem Draws1.mono {s s' : St} {f : Val} {vs : List Val} {v : Val} (h : Draws1 W s f vs v) (hq : Quiet s s') : Draws1 W s' f vs v :=
  fun s1 e h1 => h s1 e (hq.trans h1)

/-- `some` with a function that returns `()` for the first elements and draws a number for the next one. -/
theorem draws_some {f v x : Val} (hm : f.notMacro = true) (hv : v ≠ .nil) (post pre : List Val) : ∀ {s : St}, Base s.heap 0 → (∀ y ∈ pre, Returns W s f [y] .nil) → Draws1 W s f [x] v →
    Draws1 W s k_some [f, vlist (pre ++ x :: post)] v := by
  induction pre with
  | nil =>
    intro s hc _ hf s0 e hq
    replace hc := hc.mono hq.heap
    replace hf := hf.mono hq
    rw [show callFn W k_some [f, vlist ([] ++ x :: post)] e s0 = _ from callFn_lam (ps := ["f", "l"]) (r := "") (vs := [f, vlist (x :: post)]) rfl (by decide) e s0]
    have q1 := Quiet.callSt s0 0 ["f", "l"] "" [f, vlist (x :: post)]
    have hs : Sc (callSt s0 0 ["f", "l"] "" [f, vlist (x :: post)]).heap s0.heap.length (paramSyms ["f", "l"] "" [f, vlist (x :: post)] ++ []) := Sc.callSt (.base hc) _ _ _
    obtain ⟨s2, q2, e2⟩ := when_true (W := W) (c := .atom "l") (x := vlist [.atom "let", vlist [vlist [.atom "result", vlist [.atom "f", vlist [.atom "car", .atom "l"]]]],
        vlist [.atom "if", .atom "result", .atom "result", vlist [.atom "some", .atom "f", vlist [.atom "cdr", .atom "l"]]]])
      hs (plain_of rfl) (.core (hc.mono q1.heap) rfl) (.v hs rfl rfl) (w := vlist (x :: post)) (by simp)
    rw [e2]
    have q3 := q1.trans (q2.trans (Quiet.withScope s2 s0.heap.length))
    have hs3 : Sc (withScope s2 s0.heap.length).heap s2.heap.length ([] ++ (paramSyms ["f", "l"] "" [f, vlist (x :: post)] ++ [])) :=
      .frame (by simp [withScope]) (Nat.lt_of_lt_of_le hs.lt q2.heap.length_le) (hs.mono (q2.trans (Quiet.withScope _ _)).heap)
    generalize withScope s2 s0.heap.length = s3 at *
    generalize s2.heap.length = e3 at *
    rw [let1_run _ _ hs3 rfl (by decide)]
    have q4 := Quiet.withScope s3 e3
    have hs4 := hs3.mono q4.heap
    obtain ⟨s5, e5, q5⟩ := (G.car hs4 rfl (.v hs4 rfl rfl) : G W (withScope s3 e3) e3 (vlist [.atom "car", .atom "l"]) x) _ (.refl _)
    obtain ⟨s6, e6, d6⟩ := hf s5 e3 ((q3.trans q4).trans q5)
    have e6' : eval W (vlist [.atom "f", vlist [.atom "car", .atom "l"]]) e3 (withScope s3 e3) = .ok v s6 :=
      eval_callVar (s2 := s6) (a := "f") (xs := [_]) hs4 rfl hm rfl rfl (by decide) (.cons e5 .nil) e6
    rw [e6']
    have hq56 : (withScope s3 e3).heap <+: s6.heap := q5.heap.trans d6.heap
    have hpre : s3.heap <+: heapSet s6.heap s3.heap.length "result" v := prefix_heapSet (q4.heap.trans hq56) (Nat.le_refl _) _ _
    have hs7 : Sc ({ s6 with heap := heapSet s6.heap s3.heap.length "result" v } : St).heap s3.heap.length ([("result", v)] ++ ([] ++ (paramSyms ["f", "l"] "" [f, vlist (x :: post)] ++ []))) :=
      .frame (heapSet_at (prefix_get hq56 (f := ⟨[], some e3⟩) (by simp [withScope]))) hs3.lt (hs3.mono hpre)
    have d7 : Draws 1 s3 { s6 with heap := heapSet s6.heap s3.heap.length "result" v } := by
      have d := Draws.after (q4.trans q5) d6
      exact ⟨hpre, d.out, d.inp, d.tick, d.screen, d.gensym⟩
    obtain ⟨s8, e8, q8⟩ := (G.ifT (b := vlist [.atom "some", .atom "f", vlist [.atom "cdr", .atom "l"]]) hs7 (plain_of rfl) (.v hs7 rfl rfl) hv (.v hs7 rfl rfl) : G W { s6 with heap := heapSet s6.heap s3.heap.length "result" v } s3.heap.length (vlist [.atom "if", .atom "result", .atom "result", vlist [.atom "some", .atom "f", vlist [.atom "cdr", .atom "l"]]]) v) _ (.refl _)
    exact ⟨s8, e8, .after q3 (d7.quiet q8)⟩
  | cons y pre ih =>
    intro s hc hy hf s0 e hq
    replace hc := hc.mono hq.heap
    replace hf := hf.mono hq
    have hy' : ∀ z ∈ y :: pre, Returns W s0 f [z] .nil := fun z hz => (hy z hz).mono hq
    rw [show callFn W k_some [f, vlist (y :: pre ++ x :: post)] e s0 = _ from callFn_lam (ps := ["f", "l"]) (r := "") (vs := [f, vlist (y :: (pre ++ x :: post))]) rfl (by decide) e s0]
    generalize hl : pre ++ x :: post = l at *
    have q1 := Quiet.callSt s0 0 ["f", "l"] "" [f, vlist (y :: l)]
    have hs : Sc (callSt s0 0 ["f", "l"] "" [f, vlist (y :: l)]).heap s0.heap.length (paramSyms ["f", "l"] "" [f, vlist (y :: l)] ++ []) := Sc.callSt (.base hc) _ _ _
    obtain ⟨s2, q2, e2⟩ := when_true (W := W) (c := .atom "l") (x := vlist [.atom "let", vlist [vlist [.atom "result", vlist [.atom "f", vlist [.atom "car", .atom "l"]]]],
        vlist [.atom "if", .atom "result", .atom "result", vlist [.atom "some", .atom "f", vlist [.atom "cdr", .atom "l"]]]])
      hs (plain_of rfl) (.core (hc.mono q1.heap) rfl) (.v hs rfl rfl) (w := vlist (y :: l)) (by simp)
    rw [e2]
    have q3 := q1.trans (q2.trans (Quiet.withScope s2 s0.heap.length))
    have hs3 : Sc (withScope s2 s0.heap.length).heap s2.heap.length ([] ++ (paramSyms ["f", "l"] "" [f, vlist (y :: l)] ++ [])) :=
      .frame (by simp [withScope]) (Nat.lt_of_lt_of_le hs.lt q2.heap.length_le) (hs.mono (q2.trans (Quiet.withScope _ _)).heap)
    generalize withScope s2 s0.heap.length = s3 at *
    generalize s2.heap.length = e3 at *
    obtain ⟨s4, e4, q4, hs4, e4'⟩ := let1_quiet (W := W) (n := "result") (x := vlist [.atom "if", .atom "result", .atom "result", vlist [.atom "some", .atom "f", vlist [.atom "cdr", .atom "l"]]])
      (c := vlist [.atom "f", vlist [.atom "car", .atom "l"]]) hs3 rfl (by decide) (.callVar (xs := [_]) hs3 rfl hm rfl rfl (by decide) (.one (.car hs3 rfl (.v hs3 rfl rfl))) ((hy' y (by simp)).mono q3))
    rw [show eval W _ e3 s3 = _ from e4']
    obtain ⟨s5, q5, e5⟩ := if_false (W := W) (a := .atom "result") (b := vlist [.atom "some", .atom "f", vlist [.atom "cdr", .atom "l"]]) hs4 (plain_of rfl) (.v (a := "result") hs4 rfl rfl)
    rw [e5]
    have hs5 := hs4.mono q5.heap
    have q15 := (q3.trans q4).trans q5
    obtain ⟨s6, q6, e6⟩ := core_call (W := W) (a := "some") (xs := [_, _]) hs5 rfl hd_some (.two (.v (a := "f") hs5 rfl rfl) (.cdr hs5 rfl (.v (a := "l") hs5 rfl rfl)))
    obtain ⟨s7, e7, d7⟩ := ih hc (fun z hz => hy' z (by simp [hz])) hf s6 e4 (q15.trans q6)
    exact ⟨s7, e6.trans e7, .after (q15.trans q6) d7⟩

/-! ### The viewpoint -/

/-- `((I . you) (you . I) (me . you) (am . are))`. -/
def viewPairs : List (Val × Val) := [(.atom "I", .atom "you"), (.atom "you", .atom "I"), (.atom "me", .atom "you"), (.atom "am", .atom "are")]

theorem treeSub_view (v : Val) : treeSub (substIn viewPairs) v = switched v := by
  induction v with
  | cons a d iha ihd => rw [treeSub, switched, iha, ihd]
  | atom a =>
    by_cases h1 : a = "I"
    · subst h1; rfl
    by_cases h2 : a = "you"
    · subst h2; rfl
    by_cases h3 : a = "me"
    · subst h3; rfl
    by_cases h4 : a = "am"
    · subst h4; rfl
    simp [treeSub, substIn, viewPairs, Val.equal, switched, h1, h2, h3, h4]
  | _ => rfl

theorem el_switch_viewpoint {s : St} (hp : ElAt s.heap) (v : Val) : Returns W s z_switch_viewpoint [v] (switched v) := by
  have := el_sublis (W := W) hp viewPairs v
  rw [treeSub_view] at this
  exact .lam rfl (by decide) hp.prog.sc fun s1 e1 hq hs => .user (xs := [_, _]) hs rfl rfl (.two (.quote hs rfl known_quote) (.v hs rfl rfl)) (this.mono hq)

/-! ### One rule -/

/-- A rule, as it is written. -/
def ruleVal (ps : List Piece) (rs : List Val) : Val := .cons (patVal ps) (vlist rs)

/-- The function that `use-eliza-rules` applies to the rules. -/
def ruleFn (e : Nat) : Val := .lam ["rule"] "" (vlist [vlist [.atom "let", vlist [vlist [.atom "result", vlist [.atom "pat-match", vlist [.atom "rule-pattern", .atom "rule"], .atom "input", .atom "no-bindings"]]],
  vlist [.atom "when", vlist [.atom "not", vlist [.atom "=", .atom "result", .atom "fail"]], vlist [.atom "sublis", vlist [.atom "switch-viewpoint", .atom "result"],
    vlist [.atom "randchoice", vlist [.atom "rule-responses", .atom "rule"]]]]]]) .nil false e

theorem el_rule_pattern {s : St} (hp : ElAt s.heap) (a d : Val) : Returns W s z_rule_pattern [.cons a d] a :=
  .lam rfl (by decide) hp.prog.sc fun s1 e1 hq hs => .car hs rfl (.v hs rfl rfl)

theorem el_rule_responses {s : St} (hp : ElAt s.heap) (a d : Val) : Returns W s z_rule_responses [.cons a d] d :=
  .lam rfl (by decide) hp.prog.sc fun s1 e1 hq hs => .cdr hs rfl (.v hs rfl rfl)

/-- A rule whose pattern does not fit. -/
theorem rule_no {s : St} (hp : ElAt s.heap) {e : Nat} {ps : List Piece} {xs rs : List Val} (hs0 : Sc s.heap e ([("input", vlist xs)] ++ elizaDefs)) (hsep : Separate ps) (hf : Fit ps xs) (hn : fits ps xs [] = []) :
    Returns W s (ruleFn e) [ruleVal ps rs] .nil := by
  refine .lam rfl (by decide) hs0 fun s1 e1 hq hs => ?_
  have hp1 := hp.mono hq.heap
  have hm := matches_all (W := W) ps hsep xs [] hp1 hf
  rw [hn] at hm
  refine .let1 hs rfl known_let (.cons (by decide) (.user (xs := [_, _, _]) hs rfl rfl (.three (.user (xs := [_]) hs rfl rfl (.one (.v hs rfl rfl)) (el_rule_pattern hp1 _ _)) (.v hs rfl rfl) (.v hs rfl rfl)) hm) .nil) fun s2 e2 hq2 hs2 => ?_
  exact .whenF (xs := [_]) hs2 (plain_of rfl) (.core (hp1.mono hq2.heap).prog.core.base rfl)
    (.not_cons hs2 rfl (.eq_yes (v := .nil) (w := .nil) hs2 rfl (.v (a := "result") hs2 rfl rfl) (.v (a := "fail") hs2 rfl rfl) rfl) (by simp))

/-- A rule whose pattern fits. -/
theorem rule_yes {s : St} (hp : ElAt s.heap) {e : Nat} {ps : List Piece} {xs rs : List Val} (hs0 : Sc s.heap e ([("input", vlist xs)] ++ elizaDefs)) (hsep : Separate ps) (hf : Fit ps xs)
    {b : Named} {qs : List (Val × Val)} (hn : (fits ps xs []).head? = some b) (hqs : switched b.val = pairList qs) (hr : rs ≠ []) (hl : rs.length < 2 ^ 63) :
    Draws1 W s (ruleFn e) [ruleVal ps rs] (treeSub (substIn qs) (rs.getD (W.rand s.tick % rs.length) .nil)) := by
  intro s0 e0 hq0
  rw [← hq0.tick]
  replace hp := hp.mono hq0.heap
  replace hs0 := hs0.mono hq0.heap
  rw [show callFn W (ruleFn e) [ruleVal ps rs] e0 s0 = _ from callFn_lam (ps := ["rule"]) (r := "") (vs := [ruleVal ps rs]) rfl (by decide) e0 s0]
  have q1 := Quiet.callSt s0 e ["rule"] "" [ruleVal ps rs]
  have hs := Sc.callSt hs0 ["rule"] "" [ruleVal ps rs]
  have hp1 := hp.mono q1.heap
  have hm := matches_all (W := W) ps hsep xs [] hp1 hf
  rw [show fitVal (fits ps xs []) = b.val by unfold fitVal; rw [hn]; rfl] at hm
  obtain ⟨s2, e2, q2, hs2, h2⟩ := let1_quiet (W := W) (n := "result")
    (x := vlist [.atom "when", vlist [.atom "not", vlist [.atom "=", .atom "result", .atom "fail"]], vlist [.atom "sublis", vlist [.atom "switch-viewpoint", .atom "result"], vlist [.atom "randchoice", vlist [.atom "rule-responses", .atom "rule"]]]])
    (c := vlist [.atom "pat-match", vlist [.atom "rule-pattern", .atom "rule"], .atom "input", .atom "no-bindings"]) hs rfl (by decide)
    (.user (xs := [_, _, _]) hs rfl rfl (.three (.user (a := "rule-pattern") (xs := [.atom "rule"]) hs rfl rfl (.one (.v hs rfl rfl)) (el_rule_pattern hp1 (patVal ps) (vlist rs))) (.v (a := "input") hs rfl rfl) (.v (a := "no-bindings") hs rfl rfl)) hm)
  rw [show eval W _ s0.heap.length _ = _ from h2]
  have hp2 := hp1.mono q2.heap
  obtain ⟨s3, q3, h3⟩ := when_true (W := W) (x := vlist [.atom "sublis", vlist [.atom "switch-viewpoint", .atom "result"], vlist [.atom "randchoice", vlist [.atom "rule-responses", .atom "rule"]]])
    (c := vlist [.atom "not", vlist [.atom "=", .atom "result", .atom "fail"]]) hs2 (plain_of rfl) (.core hp2.prog.core.base rfl)
    (.not_nil hs2 rfl (.eq_no (v := b.val) (w := .nil) hs2 rfl (.v (a := "result") hs2 rfl rfl) (.v (a := "fail") hs2 rfl rfl) (val_not_nil b))) (by decide)
  rw [h3]
  have q4 := Quiet.withScope s3 e2
  have hs4 : Sc (withScope s3 e2).heap s3.heap.length ([] ++ ([("result", b.val)] ++ (paramSyms ["rule"] "" [ruleVal ps rs] ++ ([("input", vlist xs)] ++ elizaDefs)))) :=
    .frame (by simp [withScope]) (Nat.lt_of_lt_of_le hs2.lt q3.heap.length_le) (hs2.mono (q3.trans q4).heap)
  have hq := (q1.trans q2).trans (q3.trans q4)
  generalize withScope s3 e2 = s4 at *
  generalize s3.heap.length = e4 at *
  have hp4 := hp.mono hq.heap
  have hsv := el_switch_viewpoint (W := W) hp4 b.val
  obtain ⟨s5, e5, q5⟩ := (G.user (W := W) (a := "switch-viewpoint") (xs := [.atom "result"]) hs4 rfl rfl (.one (.v hs4 rfl rfl)) hsv) s4 (.refl _)
  have hs5 := hs4.mono q5.heap
  have hp5 := hp4.mono q5.heap
  obtain ⟨s6, q6, e6⟩ := core_call (W := W) (a := "randchoice") (xs := [_]) hs5 rfl hd_randchoice (.one (.user (a := "rule-responses") (xs := [.atom "rule"]) hs5 rfl rfl (.one (.v hs5 rfl rfl)) (el_rule_responses hp5 (patVal ps) (vlist rs))))
  have hp6 := hp5.mono q6.heap
  obtain ⟨s7, e7, d7⟩ := draws_randchoice (W := W) hp6.prog.core.base rs hr hl s6 e4 (List.prefix_refl _)
  have hq6 := hq.trans (q5.trans q6)
  dsimp only at e7
  rw [hq6.tick] at e7
  obtain ⟨s8, e8, q8⟩ := el_sublis (W := W) (hp6.mono d7.heap) qs (rs.getD (W.rand s0.tick % rs.length) .nil) s7 e4 (.refl _)
  refine ⟨s8, ?_, .after hq6 (d7.quiet q8)⟩
  refine eval_callVar (s2 := s8) (a := "sublis") (xs := [_, _]) (f := z_sublis) (vs := [pairList qs, rs.getD (W.rand s0.tick % rs.length) .nil]) hs4 rfl rfl rfl rfl (by decide) ?_ e8
  rw [← hqs]
  exact .cons e5 (.cons (e6.trans e7) .nil)

/-! ### The rules -/

/-- The pattern of a rule: some words, with anything before and after them. -/
def rulePat (ws : List String) : List Piece := .many "?x" :: (ws.map .word ++ [.many "?y"])

theorem fits_words (ws : List String) (xs : List Val) (pre : List Val) : fits (ws.map .word ++ [.many "?y"]) xs [("?x", pre)] =
    if ws.map Val.atom <+: xs then [[("?y", xs.drop ws.length), ("?x", pre)]] else [] := by
  induction ws generalizing xs with
  | nil =>
    rw [if_pos (by simp)]
    show fits [.many "?y"] xs _ = _
    rw [fits_many, fitsFrom_skip (k := xs.length) (by omega) fun j hj => ?_, fitsFrom_step (by omega), fitsFrom_end (by omega), List.append_nil]
    · unfold fitsAt
      rw [Nat.zero_add, List.take_length, List.drop_length]
      rfl
    · unfold fitsAt
      rw [Nat.zero_add]
      show fits [] (xs.drop j) _ = []
      cases hd : xs.drop j with
      | nil => rw [List.drop_eq_nil_iff] at hd; omega
      | cons => rfl
  | cons w ws ih =>
    cases xs with
    | nil => simp [fits]
    | cons x xs =>
      simp only [List.map_cons, List.cons_append, fits, List.length_cons, List.drop_succ_cons]
      by_cases hx : x = .atom w
      · subst hx
        simp [ih]
      · rw [if_neg hx, if_neg]
        intro h
        obtain ⟨h1, _⟩ := List.cons_prefix_cons.1 h
        exact hx h1.symm

theorem fitsAt_rule (ws : List String) (xs : List Val) (n : Nat) : fitsAt "?x" (ws.map .word ++ [.many "?y"]) xs [] n =
    if ws.map Val.atom <+: xs.drop n then [[("?y", (xs.drop n).drop ws.length), ("?x", xs.take n)]] else [] :=
  fits_words ws (xs.drop n) (xs.take n)

theorem fits_rule (ws : List String) (hw : ws ≠ []) (xs : List Val) : (fits (rulePat ws) xs []).head? = none ∧ after ws xs = none ∨
    ∃ ys pre, (fits (rulePat ws) xs []).head? = some [("?y", ys), ("?x", pre)] ∧ after ws xs = some ys := by
  have key : ∀ k n, xs.length + 1 ≤ n + k → (fitsFrom "?x" (ws.map .word ++ [.many "?y"]) xs [] n).head? = none ∧ after ws (xs.drop n) = none ∨
      ∃ ys pre, (fitsFrom "?x" (ws.map .word ++ [.many "?y"]) xs [] n).head? = some [("?y", ys), ("?x", pre)] ∧ after ws (xs.drop n) = some ys := by
    intro k
    induction k with
    | zero =>
      intro n hn
      left
      rw [fitsFrom_end (by omega), List.drop_eq_nil_of_le (by omega), after, if_neg (by cases ws <;> simp at hw ⊢)]
      exact ⟨rfl, rfl⟩
    | succ k ih =>
      intro n hn
      by_cases h0 : n ≤ xs.length
      · rw [fitsFrom_step h0, fitsAt_rule, after.eq_def]
        by_cases h : ws.map Val.atom <+: xs.drop n
        · rw [if_pos h, if_pos h]
          exact .inr ⟨_, _, rfl, rfl⟩
        · rw [if_neg h, if_neg h, List.nil_append]
          have := ih (n + 1) (by omega)
          cases hd : xs.drop n with
          | nil =>
            rw [List.drop_eq_nil_iff] at hd
            rw [fitsFrom_end (by omega)]
            exact .inl ⟨rfl, rfl⟩
          | cons x ys =>
            have hd1 : xs.drop (n + 1) = ys := by rw [← List.tail_drop, hd]; rfl
            rwa [hd1] at this
      · left
        rw [fitsFrom_end (by omega), List.drop_eq_nil_of_le (by omega), after, if_neg (by cases ws <;> simp at hw ⊢)]
        exact ⟨rfl, rfl⟩
  have := key (xs.length + 1) 0 (by omega)
  rw [rulePat, fits_many]
  exact this

/-- The answers of a rule, as they are written. -/
def answerVals (ts : List String) : List Val := ts.map fun t => vlist ((wordsOf t).map .atom)

/-- A rule, as it is written. -/
def elizaRule (r : String × List String) : Val := ruleVal (rulePat (wordsOf r.1)) (answerVals r.2)

theorem elizaRules_val : elizaRulesVal = vlist (elizaRules.map elizaRule ++ [ruleVal [.many "?x"] [vlist [.atom "Interesting"]]]) := by decide +kernel

theorem separate_rule (ws : List String) (hw : ws ≠ []) : Separate (rulePat ws) := by
  have : ∀ ws : List String, Separate (ws.map .word ++ [.many "?y"]) := fun ws => by
    induction ws with
    | nil => exact (by decide : "?y" ≠ "t")
    | cons w ws ih => exact ih
  cases ws with
  | nil => exact absurd rfl hw
  | cons w ws => exact ⟨by decide, this ws⟩

/-- A sentence without elements that look like `(?* v)`. -/
structure Spoken (xs : List Val) : Prop where
  data : ∀ x ∈ xs, IsData x
  word : ∀ x ∈ xs, ∀ v, x ≠ Piece.val (.many v)

theorem Spoken.fit {xs : List Val} (h : Spoken xs) {ps : List Piece} {v : String} : Fit (ps ++ [.many v]) xs := ⟨h.data, h.word, .inl ⟨ps, v, rfl⟩⟩

theorem leaves_vlist (l : List Val) : leaves (vlist l) = l.flatMap leaves := by
  induction l with
  | nil => rfl
  | cons x l ih => rw [vlist_cons, leaves, ih]; rfl

theorem treeSub_vlist (g : Val → Val) (l : List Val) : treeSub g (vlist l) = vlist (l.map (treeSub g)) := by
  induction l with
  | nil => rfl
  | cons x l ih => rw [vlist_cons, treeSub, ih]; rfl

theorem leaves_answer (ys : List Val) (q : Val) (t : String) (ht : "?x" ∉ wordsOf t) :
    leaves (treeSub (substIn [(.atom "?y", switched (vlist ys)), (.atom "?x", q)]) (vlist ((wordsOf t).map .atom))) = answerWith ys t := by
  rw [treeSub_vlist, leaves_vlist, List.map_map, List.flatMap_map, answerWith]
  refine List.flatMap_congr fun w hw => ?_
  simp only [Function.comp, treeSub, substIn]
  by_cases h : w = "?y"
  · subst h; simp [Val.equal]
  · have hx : w ≠ "?x" := fun h => ht (h ▸ hw)
    simp [Val.equal, h, hx, leaves]

theorem fits_any (xs : List Val) : (fits [.many "?x"] xs []).head? = some [("?x", xs)] := by
  rw [fits_many, fitsFrom_skip (k := xs.length) (by omega) fun j hj => ?_, fitsFrom_step (by omega), fitsFrom_end (by omega), List.append_nil]
  · unfold fitsAt
    rw [Nat.zero_add, List.take_length, List.drop_length]
    rfl
  · unfold fitsAt
    rw [Nat.zero_add]
    show fits [] (xs.drop j) _ = []
    cases hd : xs.drop j with
    | nil => rw [List.drop_eq_nil_iff] at hd; omega
    | cons => rfl

/-- The last rule. -/
def lastRule : Val := ruleVal [.many "?x"] [vlist [.atom "Interesting"]]

/-- What is required of a rule. -/
def ruleOk (r : String × List String) : Bool :=
  !(wordsOf r.1).isEmpty && !r.2.isEmpty && decide (r.2.length < 2 ^ 63) && r.2.all fun t => !(wordsOf t).isEmpty && !(wordsOf t).contains "?x"

theorem some_rules {s : St} (hp : ElAt s.heap) {e : Nat} {xs : List Val} (hs0 : Sc s.heap e ([("input", vlist xs)] ++ elizaDefs)) (hx : Spoken xs) (rs : List (String × List String)) :
    ∀ pre : List Val, (∀ y ∈ pre, Returns W s (ruleFn e) [y] .nil) → rs.all ruleOk = true →
    ∃ v, Draws1 W s k_some [ruleFn e, vlist (pre ++ (rs.map elizaRule ++ [lastRule]))] v ∧ leaves v = elizaAnswer.go xs (W.rand s.tick) rs := by
  induction rs with
  | nil =>
    intro pre hpre _
    have h := rule_yes (W := W) hp (ps := [.many "?x"]) (rs := [vlist [.atom "Interesting"]]) (b := [("?x", xs)]) (qs := [(.atom "?x", switched (vlist xs))]) hs0 (by decide : "?x" ≠ "t") (hx.fit (ps := [])) (fits_any xs) rfl (by simp) (by decide)
    rw [show W.rand s.tick % [vlist [Val.atom "Interesting"]].length = 0 from Nat.mod_one _] at h
    exact ⟨vlist [.atom "Interesting"], draws_some rfl (by simp) [] pre hp.prog.core.base hpre h, rfl⟩
  | cons r rs ih =>
    intro pre hpre hok
    rw [List.all_cons, Bool.and_eq_true] at hok
    obtain ⟨hr, hrs⟩ := hok
    simp only [ruleOk, Bool.and_eq_true, Bool.not_eq_true', List.isEmpty_eq_false_iff, decide_eq_true_eq, List.all_eq_true] at hr
    obtain ⟨⟨⟨h1, h2⟩, h3⟩, h4⟩ := hr
    obtain ⟨w, ts⟩ := r
    have hfit : Fit (rulePat (wordsOf w)) xs := hx.fit (ps := .many "?x" :: (wordsOf w).map .word)
    rcases fits_rule (wordsOf w) h1 xs with ⟨hn, ha⟩ | ⟨ys, q, hn, ha⟩
    · obtain ⟨v, hv, hl⟩ := ih (pre ++ [elizaRule (w, ts)]) (fun y hy => by
        rcases List.mem_append.1 hy with hy | hy
        · exact hpre y hy
        · rw [List.mem_singleton.1 hy]
          exact rule_no hp hs0 (separate_rule _ h1) hfit (List.head?_eq_none_iff.1 hn)) hrs
      refine ⟨v, by simpa using hv, ?_⟩
      rw [elizaAnswer.go, ha]; exact hl
    · have h := rule_yes (W := W) hp (rs := answerVals ts) (b := [("?y", ys), ("?x", q)]) (qs := [(.atom "?y", switched (vlist ys)), (.atom "?x", switched (vlist q))]) hs0 (separate_rule _ h1) hfit hn rfl
        (by simpa [answerVals] using h2) (by simpa [answerVals] using h3)
      have hlt : W.rand s.tick % ts.length < ts.length := Nat.mod_lt _ (List.length_pos_iff.2 h2)
      have hget : (answerVals ts).getD (W.rand s.tick % (answerVals ts).length) .nil = vlist ((wordsOf (ts.getD (W.rand s.tick % ts.length) "")).map .atom) := by
        have hlen : (answerVals ts).length = ts.length := by simp [answerVals]
        rw [hlen, List.getD_eq_getElem _ _ (by rw [hlen]; exact hlt), List.getD_eq_getElem _ _ hlt]
        simp [answerVals]
      obtain ⟨h5, h6⟩ := h4 _ (show ts.getD (W.rand s.tick % ts.length) "" ∈ ts by rw [List.getD_eq_getElem _ _ hlt]; exact List.getElem_mem hlt)
      rw [hget] at h
      refine ⟨_, draws_some rfl ?_ (rs.map elizaRule ++ [lastRule]) pre hp.prog.core.base hpre h, ?_⟩
      · rw [treeSub_vlist]
        cases hw : wordsOf (ts.getD (W.rand s.tick % ts.length) "") with
        | nil => exact absurd hw h5
        | cons => simp
      · rw [leaves_answer _ _ _ (by simpa using h6), elizaAnswer.go, ha]

theorem elizaRules_ok : elizaRules.all ruleOk = true := by decide +kernel

theorem el_use_rules {s : St} (hp : ElAt s.heap) {xs : List Val} (hx : Spoken xs) (e : Nat) :
    ∃ v s2, callFn W z_use_eliza_rules [vlist xs] e s = .ok v s2 ∧ Draws 1 s s2 ∧ leaves v = elizaAnswer xs (W.rand s.tick) := by
  rw [show callFn W z_use_eliza_rules [vlist xs] e s = _ from callFn_lam (ps := ["input"]) (r := "") (vs := [vlist xs]) rfl (by decide) e s]
  have q1 := Quiet.callSt s 0 ["input"] "" [vlist xs]
  have hs := Sc.callSt hp.prog.sc ["input"] "" [vlist xs]
  obtain ⟨s2, q2, e2⟩ := core_call (W := W) (a := "some") (xs := [_, _]) hs rfl hd_some (.two
    (.lambda (a := vlist [.atom "rule"]) (body := [vlist [.atom "let", vlist [vlist [.atom "result", vlist [.atom "pat-match", vlist [.atom "rule-pattern", .atom "rule"], .atom "input", .atom "no-bindings"]]],
      vlist [.atom "when", vlist [.atom "not", vlist [.atom "=", .atom "result", .atom "fail"]], vlist [.atom "sublis", vlist [.atom "switch-viewpoint", .atom "result"],
        vlist [.atom "randchoice", vlist [.atom "rule-responses", .atom "rule"]]]]]]) (v := ruleFn s.heap.length) hs rfl known_lambda fun _ => rfl)
    (.v (a := "*eliza-rules*") (v := elizaRulesVal) hs rfl rfl))
  have q12 := q1.trans q2
  obtain ⟨v, hv, hl⟩ := some_rules (W := W) (hp.mono q12.heap) (hs.mono q2.heap) hx elizaRules [] (by simp) elizaRules_ok
  rw [List.nil_append, show elizaRules.map elizaRule ++ [lastRule] = _ from rfl] at hv
  obtain ⟨s3, e3, d3⟩ := hv s2 s.heap.length (.refl _)
  rw [q12.tick] at hl
  refine ⟨v, s3, e2.trans ?_, .after q12 d3, hl⟩
  rw [elizaRules_val]
  exact e3

end L1
