import Verif.Lemmas.CorePlans
/- The library functions that take a function, called with any ordinary function. -/
set_option autoImplicit false
namespace L1
variable {W : World}

theorem follows_map {f : Val} (ho : f.ordinary = true) (vs : List Val) (hf : f ∈ vs) (xs : List Val) : (∀ x ∈ xs, x ∈ vs) → ∀ (s : St) (e : Nat) (J : Nat → Prop), Base s.heap 0 →
    Under s vs J → FollowsU W f J (mapPlan xs) s (callFn W k_map [f, vlist xs] e s) := by
  induction xs with
  | nil =>
    intro _ s e J hc _
    have hr : Returns W s k_map [f, .nil] .nil := ret_map (g := id) hc (ordinary_notMacro ho) [] (by simp)
    obtain ⟨s', e', q'⟩ := hr s e (.refl _)
    rw [show vlist [] = Val.nil from rfl, e']
    exact .ret (q'.still _)
  | cons x xs ih =>
    intro hx s e J hc hu
    rw [show callFn W k_map [f, vlist (x :: xs)] e s = _ from callFn_lam (ps := ["f", "l"]) (r := "") (vs := [f, vlist (x :: xs)]) rfl (by decide) e s]
    have h1 := ScJ.callSt J hc ["f", "l"] "" [f, vlist (x :: xs)]
    have q1 := Quiet.callSt s 0 ["f", "l"] "" [f, vlist (x :: xs)]
    obtain ⟨s2, q2, e2⟩ := when_true (W := W) (c := .atom "l") (x := vlist [.atom "cons", vlist [.atom "f", vlist [.atom "car", .atom "l"]], vlist [.atom "map", .atom "f", vlist [.atom "cdr", .atom "l"]]])
      h1.sc (plain_of rfl) (.core h1.root rfl) (.v h1.sc rfl rfl) (w := vlist (x :: xs)) (by simp)
    rw [e2]
    have h3 := ScJ.inside (q1.trans q2) (h1.mono q2.heap fun j hj => hj.mono q2)
    have q3 := (q1.trans q2).trans (Quiet.withScope s2 s.heap.length)
    obtain ⟨s4, q4, e4, h4⟩ := step_call (W := W) (a := "f") (xs := [vlist [.atom "car", .atom "l"]]) hu q3 h3 ho hf rfl rfl rfl (by decide) (.one (.car h3.sc rfl (.v h3.sc rfl rfl)))
      (by simpa using hx x (by simp))
    obtain ⟨g1, g2⟩ := h3.sc.reaches (W := W) rfl hd_cons
    rw [eval_call2 g1 g2]
    rw [show vlist [.atom "f", vlist [.atom "car", .atom "l"]] = Val.cons (.atom "f") (vlist [vlist [.atom "car", .atom "l"]]) from rfl, e4]
    refine .call ho (q3.trans q4) rfl (fun y s5 h5 hc5 => ?_) fun hn => (UpTo.refl _).andThen hn
    obtain ⟨h0, hu5, h6⟩ := h4 y s5 h5 hc5
    refine ⟨h0, ?_⟩
    rw [h5]
    show FollowsU W f _ ((mapPlan xs).then (.cons y)) s5 ((eval W (vlist [.atom "map", .atom "f", vlist [.atom "cdr", .atom "l"]]) _ s5).andThen _ _)
    simp only [call_cons]
    exact .then (rest_call (xs := [_, _]) h6 rfl hd_map (.two (.v h6.sc rfl rfl) (.cdr h6.sc rfl (.v h6.sc rfl rfl))) hu5 (ih fun z hz => hx z (by simp [hz])))

theorem follows_filter {f : Val} (ho : f.ordinary = true) (vs : List Val) (hf : f ∈ vs) (xs : List Val) : (∀ x ∈ xs, x ∈ vs) → ∀ (s : St) (e : Nat) (J : Nat → Prop), Base s.heap 0 →
    Under s vs J → FollowsU W f J (filterPlan xs) s (callFn W k_filter [f, vlist xs] e s) := by
  induction xs with
  | nil =>
    intro _ s e J hc _
    have hr : Returns W s k_filter [f, .nil] .nil := ret_filter (g := id) hc (ordinary_notMacro ho) [] (by simp)
    obtain ⟨s', e', q'⟩ := hr s e (.refl _)
    rw [show vlist [] = Val.nil from rfl, e']
    exact .ret (q'.still _)
  | cons x xs ih =>
    intro hx s e J hc hu
    rw [show callFn W k_filter [f, vlist (x :: xs)] e s = _ from callFn_lam (ps := ["f", "l"]) (r := "") (vs := [f, vlist (x :: xs)]) rfl (by decide) e s]
    have h1 := ScJ.callSt J hc ["f", "l"] "" [f, vlist (x :: xs)]
    have q1 := Quiet.callSt s 0 ["f", "l"] "" [f, vlist (x :: xs)]
    obtain ⟨s2, e2, q2⟩ := (G.not_cons h1.sc rfl (.v h1.sc rfl rfl) (by simp) : G W _ _ (vlist [.atom "not", .atom "l"]) _) _ (.refl _)
    have h3 := h1.mono q2.heap fun j hj => madeBy.mono q2 hj
    have q3 := q1.trans q2
    have hrec : ∀ (K : Nat → Prop) (s5 : St) (y : Val), Under s5 (y :: vs) K → ScJ K s5.heap s.heap.length (paramSyms ["f", "l"] "" [f, vlist (x :: xs)] ++ []) →
        FollowsU W f K (filterPlan xs) s5 (eval W (vlist [.atom "filter", .atom "f", vlist [.atom "cdr", .atom "l"]]) s.heap.length s5) := by
      intro K s5 y hu5 h6
      exact rest_call (xs := [_, _]) h6 rfl hd_filter (.two (.v h6.sc rfl rfl) (.cdr h6.sc rfl (.v h6.sc rfl rfl))) hu5 (ih fun z hz => hx z (by simp [hz]))
    refine (congrArg (FollowsU W f J (filterPlan (x :: xs)) s) (eval_sform W .cond [vlist [vlist [.atom "not", .atom "l"], .nil], vlist [vlist [.atom "f", vlist [.atom "car", .atom "l"]], vlist [.atom "cons", vlist [.atom "car", .atom "l"],
      vlist [.atom "filter", .atom "f", vlist [.atom "cdr", .atom "l"]]]], vlist [.atom "t", vlist [.atom "filter", .atom "f", vlist [.atom "cdr", .atom "l"]]]] _ _
      (h1.sc.notMacro_sf rfl known_cond))).mpr ?_
    show FollowsU W f J _ s (evCond (perform W) (perform W) _ (.cons (vlist [vlist [.atom "not", .atom "l"], .nil]) _) _)
    rw [evCond_one, e2]
    show FollowsU W f J _ s (evCond (perform W) (perform W) _ (.cons (vlist [vlist [.atom "f", vlist [.atom "car", .atom "l"]], vlist [.atom "cons", vlist [.atom "car", .atom "l"],
      vlist [.atom "filter", .atom "f", vlist [.atom "cdr", .atom "l"]]]]) (.cons (vlist [.atom "t", vlist [.atom "filter", .atom "f", vlist [.atom "cdr", .atom "l"]]]) .nil)) s2)
    rw [evCond_one]
    obtain ⟨s4, q4, e4, h4⟩ := step_call (W := W) (a := "f") (xs := [vlist [.atom "car", .atom "l"]]) hu q3 h3 ho hf rfl rfl rfl (by decide) (.one (.car h3.sc rfl (.v h3.sc rfl rfl)))
      (by simpa using hx x (by simp))
    rw [show vlist [.atom "f", vlist [.atom "car", .atom "l"]] = Val.cons (.atom "f") (vlist [vlist [.atom "car", .atom "l"]]) from rfl, e4]
    refine .call ho (q3.trans q4) rfl (fun y s5 h5 hc5 => ?_) fun hn => (UpTo.refl _).andThen hn
    obtain ⟨h0, hu5, h6⟩ := h4 y s5 h5 hc5
    refine ⟨h0, ?_⟩
    rw [h5]
    simp only [Res.andThen]
    by_cases hy : y = .nil
    · rw [if_pos hy, if_pos hy, evCond_one, eval_t]
      exact hrec _ s5 y hu5 h6
    · rw [if_neg hy, if_neg hy]
      obtain ⟨g1, g2⟩ := h6.sc.reaches (W := W) rfl hd_cons
      rw [eval_call2 g1 g2]
      obtain ⟨s6, h7, q6⟩ := (G.car h6.sc rfl (.v h6.sc rfl rfl) : G W s5 s.heap.length (vlist [.atom "car", .atom "l"]) x) s5 (.refl _)
      rw [h7]
      simp only [Res.andThen, call_cons]
      exact .then (.quiet q6 (hrec _ s6 y (hu5.still (q6.still _)) (h6.mono q6.heap fun _ h => .inl h)))

theorem follows_some {f : Val} (ho : f.ordinary = true) (vs : List Val) (hf : f ∈ vs) (xs : List Val) : (∀ x ∈ xs, x ∈ vs) → ∀ (s : St) (e : Nat) (J : Nat → Prop), Base s.heap 0 →
    Under s vs J → FollowsU W f J (somePlan xs) s (callFn W k_some [f, vlist xs] e s) := by
  induction xs with
  | nil =>
    intro _ s e J hc _
    have hr : Returns W s k_some [f, .nil] .nil := ret_some (g := id) hc (ordinary_notMacro ho) [] (by simp)
    obtain ⟨s', e', q'⟩ := hr s e (.refl _)
    rw [show vlist [] = Val.nil from rfl, e']
    exact .ret (q'.still _)
  | cons x xs ih =>
    intro hx s e J hc hu
    rw [show callFn W k_some [f, vlist (x :: xs)] e s = _ from callFn_lam (ps := ["f", "l"]) (r := "") (vs := [f, vlist (x :: xs)]) rfl (by decide) e s]
    have h1 := ScJ.callSt J hc ["f", "l"] "" [f, vlist (x :: xs)]
    have q1 := Quiet.callSt s 0 ["f", "l"] "" [f, vlist (x :: xs)]
    obtain ⟨s2, q2, e2⟩ := when_true (W := W) (c := .atom "l") (x := vlist [.atom "let", vlist [vlist [.atom "result", vlist [.atom "f", vlist [.atom "car", .atom "l"]]]],
        vlist [.atom "if", .atom "result", .atom "result", vlist [.atom "some", .atom "f", vlist [.atom "cdr", .atom "l"]]]])
      h1.sc (plain_of rfl) (.core h1.root rfl) (.v h1.sc rfl rfl) (w := vlist (x :: xs)) (by simp)
    rw [e2]
    have h3 := ScJ.inside (q1.trans q2) (h1.mono q2.heap fun j hj => hj.mono q2)
    have q3 := (q1.trans q2).trans (Quiet.withScope s2 s.heap.length)
    obtain ⟨s4, q4, e4, h4⟩ := let_call (W := W) (a := "f") (n := "result") (xs := [vlist [.atom "car", .atom "l"]]) (vlist [.atom "if", .atom "result", .atom "result", vlist [.atom "some", .atom "f", vlist [.atom "cdr", .atom "l"]]])
      hu q3 h3 rfl (by decide) ho hf rfl rfl rfl (by decide) (.one (.car h3.sc rfl (.v h3.sc rfl rfl))) (by simpa using hx x (by simp))
    refine (congrArg (FollowsU W f J (somePlan (x :: xs)) s) e4).mpr ?_
    refine .call ho (q3.trans q4) rfl (fun y s5 h5 hc5 => ?_) fun hn => (UpTo.refl _).andThen hn
    obtain ⟨h0, s6, hs6, q5, hl, hu6, h6⟩ := h4 y s5 h5 hc5
    refine ⟨h0, ?_⟩
    rw [h5]
    simp only [Res.andThen, hs6]
    refine .still q5 ?_
    rw [madeBy_same (Nat.le_of_eq hl)]
    obtain ⟨s7, q7, e7⟩ := if_run (W := W) (c := .atom "result") (.atom "result") (vlist [.atom "some", .atom "f", vlist [.atom "cdr", .atom "l"]]) h6.sc (plain_of rfl) (.v h6.sc rfl rfl) (w := y)
    rw [e7]
    have h7 := h6.mono q7.heap fun j hj => (.inl hj : madeBy (madeBy J s s4) s6 s7 j)
    by_cases hy : y = .nil
    · rw [if_pos hy, if_pos hy]
      exact .quiet q7 (rest_call (xs := [_, _]) h7 rfl hd_some (.two (.v h7.sc rfl rfl) (.cdr h7.sc rfl (.v h7.sc rfl rfl))) (hu6.still (q7.still _)) (ih fun z hz => hx z (by simp [hz])))
    · rw [if_neg hy, if_neg hy]
      obtain ⟨s8, e8, q8⟩ := (G.v h7.sc rfl rfl : G W s7 _ (.atom "result") y) s7 (.refl _)
      rw [e8]
      exact .ret ((q7.trans q8).still _)

theorem follows_every {f : Val} (ho : f.ordinary = true) (vs : List Val) (hf : f ∈ vs) (xs : List Val) : (∀ x ∈ xs, x ∈ vs) → ∀ (s : St) (e : Nat) (J : Nat → Prop), Base s.heap 0 →
    Under s vs J → FollowsU W f J (everyPlan xs) s (callFn W k_every [f, vlist xs] e s) := by
  induction xs with
  | nil =>
    intro _ s e J hc _
    have hr : Returns W s k_every [f, .nil] (.atom "t") := ret_every (g := id) hc (ordinary_notMacro ho) [] (by simp)
    obtain ⟨s', e', q'⟩ := hr s e (.refl _)
    rw [show vlist [] = Val.nil from rfl, e']
    exact .ret (q'.still _)
  | cons x xs ih =>
    intro hx s e J hc hu
    rw [show callFn W k_every [f, vlist (x :: xs)] e s = _ from callFn_lam (ps := ["f", "l"]) (r := "") (vs := [f, vlist (x :: xs)]) rfl (by decide) e s]
    have h1 := ScJ.callSt J hc ["f", "l"] "" [f, vlist (x :: xs)]
    have q1 := Quiet.callSt s 0 ["f", "l"] "" [f, vlist (x :: xs)]
    obtain ⟨s2, q2, e2⟩ := ifNot_run (W := W) (c := .atom "l") (.atom "t") (vlist [.atom "let", vlist [vlist [.atom "result", vlist [.atom "f", vlist [.atom "car", .atom "l"]]]],
        vlist [.atom "if", vlist [.atom "not", .atom "result"], .nil, vlist [.atom "every", .atom "f", vlist [.atom "cdr", .atom "l"]]]])
      h1.sc (plain_of rfl) (.v h1.sc rfl rfl) (w := vlist (x :: xs))
    rw [if_neg (by simp)] at e2
    refine (congrArg (FollowsU W f J (everyPlan (x :: xs)) s) e2).mpr ?_
    have h3 := h1.mono q2.heap fun j hj => madeBy.mono q2 hj
    have q3 := q1.trans q2
    obtain ⟨s4, q4, e4, h4⟩ := let_call (W := W) (a := "f") (n := "result") (xs := [vlist [.atom "car", .atom "l"]]) (vlist [.atom "if", vlist [.atom "not", .atom "result"], .nil, vlist [.atom "every", .atom "f", vlist [.atom "cdr", .atom "l"]]])
      hu q3 h3 rfl (by decide) ho hf rfl rfl rfl (by decide) (.one (.car h3.sc rfl (.v h3.sc rfl rfl))) (by simpa using hx x (by simp))
    refine (congrArg (FollowsU W f J (everyPlan (x :: xs)) s) e4).mpr ?_
    refine .call ho (q3.trans q4) rfl (fun y s5 h5 hc5 => ?_) fun hn => (UpTo.refl _).andThen hn
    obtain ⟨h0, s6, hs6, q5, hl, hu6, h6⟩ := h4 y s5 h5 hc5
    refine ⟨h0, ?_⟩
    rw [h5]
    simp only [Res.andThen, hs6]
    refine .still q5 ?_
    rw [madeBy_same (Nat.le_of_eq hl)]
    by_cases hy : y = .nil
    · obtain ⟨s7, q7, e7⟩ := if_run (W := W) (c := vlist [.atom "not", .atom "result"]) .nil (vlist [.atom "every", .atom "f", vlist [.atom "cdr", .atom "l"]]) h6.sc (plain_of rfl)
        (.not_nil h6.sc rfl (.v h6.sc (by rw [hy]; rfl) rfl))
      rw [if_neg (by decide)] at e7
      rw [e7, if_pos hy, show eval W .nil _ s7 = .ok .nil s7 by rw [eval_eq]; rfl]
      exact .ret (q7.still _)
    · obtain ⟨s7, q7, e7⟩ := if_run (W := W) (c := vlist [.atom "not", .atom "result"]) .nil (vlist [.atom "every", .atom "f", vlist [.atom "cdr", .atom "l"]]) h6.sc (plain_of rfl)
        (.not_cons h6.sc rfl (.v h6.sc rfl rfl) hy)
      have h7 := h6.mono q7.heap fun j hj => (.inl hj : madeBy (madeBy J s s4) s6 s7 j)
      rw [e7, if_pos rfl, if_neg hy]
      exact .quiet q7 (rest_call (xs := [_, _]) h7 rfl hd_every (.two (.v h7.sc rfl rfl) (.cdr h7.sc rfl (.v h7.sc rfl rfl))) (hu6.still (q7.still _)) (ih fun z hz => hx z (by simp [hz])))

theorem whenNot_true {s : St} {e : Nat} {L : List (String × Val)} {c : Val} (x : Val) (hs : Sc s.heap e L) (hp : Plain L) (hcc : Cc W s L)
    (hc : G W s e c .nil) : ∃ s1, Quiet s s1 ∧ eval W (vlist [.atom "when-not", c, x]) e s = eval W x s1.heap.length (withScope s1 e) := by
  obtain ⟨s1, q1, e1⟩ := Becomes.whenNot (W := W) (c := c) (xs := [x]) hs hp hcc s (.refl _)
  have hs1 := hs.mono q1.heap
  obtain ⟨s2, q2, e2⟩ := when_true (W := W) (x := x) hs1 hp (hcc.mono q1) (.not_nil hs1 (hp _ (by decide)) (hc.mono q1)) (by decide)
  exact ⟨s2, q1.trans q2, e1.trans e2⟩

theorem follows_repeatedly {f : Val} (ho : f.ordinary = true) (vs : List Val) (hf : f ∈ vs) (n : Nat) : ∀ (s : St) (e : Nat) (J : Nat → Prop), Base s.heap 0 →
    Under s vs J → FollowsU W f J (repeatPlan n) s (callFn W k_repeatedly [.num n, f] e s) := by
  induction n with
  | zero =>
    intro s e J hc _
    rw [show callFn W k_repeatedly [.num (0 : Nat), f] e s = _ from callFn_lam (ps := ["n", "f"]) (r := "") (vs := [.num (0 : Nat), f]) rfl (by decide) e s]
    have h1 := ScJ.callSt J hc ["n", "f"] "" [.num (0 : Nat), f]
    have q1 := Quiet.callSt s 0 ["n", "f"] "" [.num (0 : Nat), f]
    obtain ⟨s2, e2, q2⟩ := (G.whenNotT (v := .nil) h1.sc (plain_of rfl) (.core h1.root rfl) (.zeroT h1.sc rfl h1.root (.v h1.sc rfl rfl)) (by simp) :
      G W _ _ (vlist [.atom "when-not", vlist [.atom "zero?", .atom "n"], vlist [.atom "cons", vlist [.atom "f"], vlist [.atom "repeatedly", vlist [.atom "dec", .atom "n"], .atom "f"]]]) .nil) _ (.refl _)
    refine (congrArg (FollowsU W f J (repeatPlan 0) s) e2).mpr ?_
    exact .ret ((q1.trans q2).still _)
  | succ n ih =>
    intro s e J hc hu
    rw [show callFn W k_repeatedly [.num (n + 1 : Nat), f] e s = _ from callFn_lam (ps := ["n", "f"]) (r := "") (vs := [.num (n + 1 : Nat), f]) rfl (by decide) e s]
    have h1 := ScJ.callSt J hc ["n", "f"] "" [.num (n + 1 : Nat), f]
    have q1 := Quiet.callSt s 0 ["n", "f"] "" [.num (n + 1 : Nat), f]
    obtain ⟨s2, q2, e2⟩ := whenNot_true (W := W) (c := vlist [.atom "zero?", .atom "n"]) (vlist [.atom "cons", vlist [.atom "f"], vlist [.atom "repeatedly", vlist [.atom "dec", .atom "n"], .atom "f"]])
      h1.sc (plain_of rfl) (.core h1.root rfl) (.zeroF (n := ((n + 1 : Nat) : Int)) h1.sc rfl h1.root (.v h1.sc rfl rfl) (by omega))
    refine (congrArg (FollowsU W f J (repeatPlan (n + 1)) s) e2).mpr ?_
    have h3 := ScJ.inside (q1.trans q2) (h1.mono q2.heap fun j hj => hj.mono q2)
    have q3 := (q1.trans q2).trans (Quiet.withScope s2 s.heap.length)
    obtain ⟨s4, q4, e4, h4⟩ := step_call (W := W) (a := "f") (xs := []) hu q3 h3 ho hf rfl rfl rfl (by decide) .nil (by simp)
    obtain ⟨g1, g2⟩ := h3.sc.reaches (W := W) rfl hd_cons
    rw [eval_call2 g1 g2]
    rw [show vlist [.atom "f"] = Val.cons (.atom "f") (vlist []) from rfl, e4]
    refine .call ho (q3.trans q4) rfl (fun y s5 h5 hc5 => ?_) fun hn => (UpTo.refl _).andThen hn
    obtain ⟨h0, hu5, h6⟩ := h4 y s5 h5 hc5
    refine ⟨h0, ?_⟩
    rw [h5]
    show FollowsU W f _ ((repeatPlan n).then (.cons y)) s5 ((eval W (vlist [.atom "repeatedly", vlist [.atom "dec", .atom "n"], .atom "f"]) _ s5).andThen _ _)
    simp only [call_cons]
    have hd := G.dec (W := W) (x := .atom "n") (n := ((n + 1 : Nat) : Int)) h6.sc rfl h6.root (.v h6.sc rfl rfl)
    rw [show (((n + 1 : Nat) : Int)) - 1 = n by omega] at hd
    exact .then (rest_call (xs := [_, _]) h6 rfl hd_repeatedly (.two hd (.v h6.sc rfl rfl)) hu5 ih)

/-! ### `reduce` -/

theorem eval_call3 {s : St} {e : Nat} {hx f a c d : Val} (hh : CallHead s.heap e hx) (hf : eval W hx e s = .ok f s) :
    eval W (vlist [hx, a, c, d]) e s = (eval W a e s).andThen (msgList "evaluating function arguments") fun u s0 =>
      (eval W c e s0).andThen (msgList "evaluating function arguments") fun v s' =>
      (eval W d e s').andThen (msgList "evaluating function arguments") fun w s'' => callFn W f [u, v, w] e s'' := by
  rw [show vlist [hx, a, c, d] = .cons hx (vlist [a, c, d]) from rfl, eval_call W _ _ _ _ hh (isList_vlist _)]
  unfold evCall
  rw [M.bind_ok (extend_ok (show perform W (.eval hx e) s = .ok f s from hf))]
  have h1 : (do let vs ← evArgs (perform W) e (vlist [a, c, d]); evApply (perform W) (perform W) f vs e) = (do
      let u ← extend "evaluating function arguments" (perform W (.eval a e))
      let v ← extend "evaluating function arguments" (perform W (.eval c e))
      let w ← extend "evaluating function arguments" (perform W (.eval d e))
      evApply (perform W) (perform W) f [u, v, w] e) := by
    funext s
    simp only [vlist_cons, vlist_nil, evArgs, M.bind_run]
    cases extend "evaluating function arguments" (perform W (.eval a e)) s with
    | ok u s0 =>
      dsimp only
      cases extend "evaluating function arguments" (perform W (.eval c e)) s0 with
      | ok v s1 => dsimp only; cases extend "evaluating function arguments" (perform W (.eval d e)) s1 <;> rfl
      | _ => rfl
    | _ => rfl
  rw [h1, extend_andThen']
  congr 1
  funext u s0
  rw [extend_andThen']
  congr 1
  funext v s'
  rw [extend_andThen']
  rfl

/-- A local function as the head of a call. -/
theorem Sc.reachesVar {s : St} {e : Nat} {L : List (String × Val)} {a : String} {f : Val} (hs : Sc s.heap e L) (ha : alGet a L = some f) (hm : f.notMacro = true)
    (hsp : specialOf a = none) (hc : isCxr a = false) (ht : a ≠ "t") : CallHead s.heap e (.atom a) ∧ eval W (.atom a) e s = .ok f s :=
  ⟨callHead_of hsp fun ps r b dc env he => by
    rw [hs.lookup_some ha] at he
    exact notMacro_val hm ps r b dc env (Option.some.inj he), eval_atom_bound hc ht (hs.lookup_some ha)⟩

/-- A call of a library function whose body is `(let ((nm (lambda nm P body ...))) x)`. -/
theorem letNamed_run {s : St} {ps : List String} {r nm : String} {P x doc : Val} {fb : List Val} {m : Bool} {vs : List Val} {F : Nat → Val} (e : Nat) (J : Nat → Prop)
    (ha : ArityOk ps r vs) (ht : NoT ps r) (h0 : Base s.heap 0) (hn : nm ≠ "t")
    (hl : alGet "let" (paramSyms ps r vs ++ []) = none) (hlam : alGet "lambda" (paramSyms ps r vs ++ []) = none)
    (hmk : ∀ e1, mkLambda (vlist (.atom nm :: P :: fb)) false e1 = (do let _ ← attempt (setM e1 nm (F e1)); pure (F e1))) :
    ∃ s1 e1 e2, Quiet s s1 ∧ ScJ (madeBy J s s1) s1.heap e1 (alSet nm (F e1) (paramSyms ps r vs) ++ []) ∧
      ScJ (madeBy J s s1) s1.heap e2 ([(nm, F e1)] ++ (alSet nm (F e1) (paramSyms ps r vs) ++ [])) ∧
      callFn W (.lam ps r (vlist [vlist [.atom "let", vlist [vlist [.atom nm, .cons (.atom "lambda") (vlist (.atom nm :: P :: fb))]], x]]) doc m 0) vs e s = eval W x e2 s1 := by
  have h00 : Sc s.heap 0 [] := .base h0
  have hsc : Sc (callSt s 0 ps r vs).heap s.heap.length (paramSyms ps r vs ++ []) := (ScJ.callSt J h0 ps r vs).sc
  let s2 : St := { s with heap := s.heap ++ [⟨paramSyms ps r vs, some 0⟩] ++ [⟨[], some s.heap.length⟩] }
  have hsc2 : Sc s2.heap s.heap.length (paramSyms ps r vs ++ []) := hsc.mono (List.prefix_append _ _)
  let f := F s.heap.length
  let s3 : St := { s with heap := s.heap ++ [⟨alSet nm f (paramSyms ps r vs), some 0⟩] ++ [⟨[], some s.heap.length⟩] }
  let s4 : St := { s with heap := s.heap ++ [⟨alSet nm f (paramSyms ps r vs), some 0⟩] ++ [⟨[(nm, f)], some s.heap.length⟩] }
  have e3 : setM s.heap.length nm f s2 = .ok () s3 := by
    unfold setM; rw [if_neg hn]
    have := heapSet_mid s.heap ⟨paramSyms ps r vs, some 0⟩ [⟨[], some s.heap.length⟩] nm f
    simp only [s2, s3, List.append_assoc, List.singleton_append, this]
  have e4 : setM (s.heap.length + 1) nm f s3 = .ok () s4 := by
    unfold setM; rw [if_neg hn]
    have := heapSet_new (s.heap ++ [⟨alSet nm f (paramSyms ps r vs), some 0⟩]) ⟨[], some s.heap.length⟩ nm f
    simp only [List.length_append, List.length_cons, List.length_nil, Nat.zero_add] at this
    simp only [s3, s4, this]; rfl
  have hev : eval W (.cons (.atom "lambda") (vlist (.atom nm :: P :: fb))) s.heap.length s2 = .ok f s3 := by
    refine (eval_sform W .lambda _ _ _ (hsc2.notMacro_sf hlam known_lambda)).trans ?_
    simp only [evSpecial]
    rw [hmk, M.bind_ok (attempt_ok e3)]; rfl
  have q4 : Quiet s s4 := (Quiet.refl s).grow (by simp only [List.append_assoc]; exact List.prefix_append _ _)
  have sc1 : ScJ (madeBy J s s4) s4.heap s.heap.length (alSet nm f (paramSyms ps r vs) ++ []) :=
    .frame (p := 0) (by simp [s4]) h00.lt (.inr ⟨Nat.le_refl _, by simp [s4]⟩) (.base (h0.mono q4.heap))
  have sc2 : ScJ (madeBy J s s4) s4.heap (s.heap.length + 1) ([(nm, f)] ++ (alSet nm f (paramSyms ps r vs) ++ [])) :=
    .frame (p := s.heap.length) (by simp [s4]) (Nat.lt_succ_self _) (.inr ⟨Nat.le_succ _, by simp [s4]⟩) sc1
  refine ⟨s4, s.heap.length, s.heap.length + 1, q4, sc1, sc2, ?_⟩
  unfold callFn
  rw [evApply_lam ha ht]
  show eval W (form SF.let_.name [vlist [vlist [.atom nm, .cons (.atom "lambda") (vlist (.atom nm :: P :: fb))]], x]) _ _ = _
  rw [eval_sform W .let_ _ _ _ (hsc.notMacro_sf hl known_let)]
  generalize hbs : vlist [vlist [.atom nm, .cons (.atom "lambda") (vlist (.atom nm :: P :: fb))]] = bs
  have hbl : bs.isList = true := by rw [← hbs]; rfl
  simp only [evSpecial, vlist_cons, vlist_nil, evLet, hbl, isList_cons, if_true]
  rw [M.bind_ok (newEnvM_run _ _)]
  subst hbs
  have hlen : (callSt s 0 ps r vs).heap.length = s.heap.length + 1 := by simp [callSt]
  have hb : evLetBinds (perform W) s.heap.length (callSt s 0 ps r vs).heap.length
      (vlist [vlist [.atom nm, .cons (.atom "lambda") (vlist (.atom nm :: P :: fb))]]) s2 = .ok true s4 := by
    rw [hlen]
    generalize hlx : Val.cons (.atom "lambda") (vlist (.atom nm :: P :: fb)) = lx at hev
    simp only [vlist_cons, vlist_nil, evLetBinds, perform_eval]
    rw [M.bind_ok (extend_ok hev), M.bind_ok (extend_ok e4)]; rfl
  refine (M.bind_ok hb).trans ?_
  rw [M.ite_pos rfl, hlen]
  rfl

/-- The scope of a call of a local function of the library. -/
theorem ScJ.callIn {s : St} {J : Nat → Prop} {c : Nat} {L : List (String × Val)} (hs : ScJ J s.heap c L) (ps : List String) (r : String) (vs : List Val) :
    ScJ (madeBy J s (L1.callSt s c ps r vs)) (L1.callSt s c ps r vs).heap s.heap.length (paramSyms ps r vs ++ L) :=
  .frame (p := c) (by simp [L1.callSt]) hs.sc.lt (.inr ⟨Nat.le_refl _, by simp [L1.callSt]⟩) (hs.mono (List.prefix_append _ _) fun _ h => .inl h)

theorem follows_inner {f r0 x0 : Val} {e1 : Nat} (ho : f.ordinary = true) (xs : List Val) : ∀ (vs : List Val) (acc : Val), f ∈ vs → acc ∈ vs → (∀ x ∈ xs, x ∈ vs) →
    ∀ (s : St) (e : Nat) (J : Nat → Prop), ScJ J s.heap e1 ([("args", r0), ("f", f), ("x", x0), ("inner", innerFn e1)] ++ []) →
    Under s vs J → FollowsU W f J (reducePlan acc xs) s (callFn W (innerFn e1) [f, acc, vlist xs] e s) := by
  induction xs with
  | nil =>
    intro vs acc _ _ _ s e J hs hu
    have hr : Returns W s (innerFn e1) [f, acc, vlist []] acc := ret_inner hs.sc (ordinary_notMacro ho) .nil
    obtain ⟨s', e', q'⟩ := hr s e (.refl _)
    rw [e']
    exact .ret (q'.still _)
  | cons x xs ih =>
    intro vs acc hf hacc hx s e J hs hu
    rw [show callFn W (innerFn e1) [f, acc, vlist (x :: xs)] e s = _ from callFn_lam (ps := ["f", "acc", "l"]) (r := "") (vs := [f, acc, vlist (x :: xs)]) rfl (by decide) e s]
    have h1 := hs.callIn ["f", "acc", "l"] "" [f, acc, vlist (x :: xs)]
    have q1 := Quiet.callSt s e1 ["f", "acc", "l"] "" [f, acc, vlist (x :: xs)]
    obtain ⟨s2, q2, e2⟩ := if_run (W := W) (c := vlist [.atom "not", .atom "l"]) (.atom "acc") (vlist [.atom "inner", .atom "f",
      vlist [.atom "f", .atom "acc", vlist [.atom "car", .atom "l"]], vlist [.atom "cdr", .atom "l"]]) h1.sc (plain_of rfl) (.not_cons h1.sc rfl (.v h1.sc rfl rfl) (by simp))
    rw [if_pos rfl] at e2
    refine (congrArg (FollowsU W f J (reducePlan acc (x :: xs)) s) e2).mpr ?_
    have h3 := h1.mono q2.heap fun j hj => madeBy.mono q2 hj
    have q3 := q1.trans q2
    obtain ⟨g1, g2⟩ := h3.sc.reachesVar (W := W) (a := "inner") (f := innerFn e1) rfl rfl rfl rfl (by decide)
    rw [eval_call3 g1 g2]
    obtain ⟨s3, e3, q4⟩ := (G.v h3.sc rfl rfl : G W s2 _ (.atom "f") f) s2 (.refl _)
    rw [e3]
    simp only [Res.andThen]
    have h4 := h3.mono q4.heap fun j hj => madeBy.mono q4 hj
    obtain ⟨s4, q5, e5, h5⟩ := step_call (W := W) (a := "f") (xs := [.atom "acc", vlist [.atom "car", .atom "l"]]) hu (q3.trans q4) h4 ho hf rfl rfl rfl (by decide)
      (.two (.v h4.sc rfl rfl) (.car h4.sc rfl (.v h4.sc rfl rfl))) (by simpa using ⟨hacc, hx x (by simp)⟩)
    rw [show vlist [.atom "f", .atom "acc", vlist [.atom "car", .atom "l"]] = Val.cons (.atom "f") (vlist [.atom "acc", vlist [.atom "car", .atom "l"]]) from rfl, e5]
    have q6 := (q3.trans q4).trans q5
    refine .call ho q6 rfl (fun y s5 h6 hc5 => ?_) fun hn => (UpTo.refl _).andThen hn
    obtain ⟨h0, hu5, h7⟩ := h5 y s5 h6 hc5
    refine ⟨h0, ?_⟩
    have hs5 : ScJ (madeBy J s s4) s5.heap e1 ([("args", r0), ("f", f), ("x", x0), ("inner", innerFn e1)] ++ []) := (hs.mono q6.heap fun _ h => .inl h).kept (hu5.base hc5) h0
    rw [h6]
    show FollowsU W f _ (reducePlan y xs) s5 ((eval W (vlist [.atom "cdr", .atom "l"]) _ s5).andThen _ _)
    obtain ⟨s6, e8, q8⟩ := (G.cdr h7.sc rfl (.v h7.sc rfl rfl) : G W s5 _ (vlist [.atom "cdr", .atom "l"]) (vlist xs)) s5 (.refl _)
    rw [e8]
    exact .quiet q8 (ih (y :: vs) y (List.mem_cons_of_mem _ hf) (List.mem_cons_self ..) (fun z hz => List.mem_cons_of_mem _ (hx z (by simp [hz]))) s6 _ _
      (hs5.mono q8.heap fun _ h => .inl h) (hu5.still (q8.still _)))

/-- Clauses of a `cond` with quiet conditions. -/
theorem cond_hit {s : St} {e : Nat} {c w : Val} (b rest : Val) (h : G W s e c w) (hw : w ≠ .nil) : ∃ s1, Quiet s s1 ∧
    evCond (perform W) (perform W) e (.cons (vlist [c, b]) rest) s = eval W b e s1 := by
  obtain ⟨s1, e1, q1⟩ := h s (.refl _)
  exact ⟨s1, q1, by rw [evCond_one, e1]; exact if_neg hw⟩

theorem cond_skip {s : St} {e : Nat} {c : Val} (b rest : Val) (h : G W s e c .nil) : ∃ s1, Quiet s s1 ∧
    evCond (perform W) (perform W) e (.cons (vlist [c, b]) rest) s = evCond (perform W) (perform W) e rest s1 := by
  obtain ⟨s1, e1, q1⟩ := h s (.refl _)
  exact ⟨s1, q1, by rw [evCond_one, e1]; rfl⟩

/-- The first two clauses of the `cond` in `reduce`. -/
def reduceOne : Val := vlist [.atom "if", vlist [.atom "not", .atom "x"], vlist [.atom "f"], vlist [.atom "inner", .atom "f", vlist [.atom "car", .atom "x"], vlist [.atom "cdr", .atom "x"]]]
def reduceTwo : Val := vlist [.atom "inner", .atom "f", .atom "x", vlist [.atom "car", .atom "args"]]
def reduceErr : Val := .cons (vlist [.atom "t", vlist [.atom "error", vlist [.atom "quote", vlist [.atom "reduce", .atom "needs", .atom "at", .atom "least", .atom "two", .atom "arguments"]]]]) .nil
def reduceRest : Val := .cons (vlist [vlist [.atom "=", vlist [.atom "len", .atom "args"], .num 1], reduceTwo]) reduceErr

/-- What the call of `reduce` comes down to. -/
theorem reduce_start {f x : Val} {as : List Val} {s : St} (e : Nat) (J : Nat → Prop) (hc : Base s.heap 0) : ∃ s1 e1 e2, Quiet s s1 ∧
    ScJ (madeBy J s s1) s1.heap e1 ([("args", vlist as), ("f", f), ("x", x), ("inner", innerFn e1)] ++ []) ∧
    ScJ (madeBy J s s1) s1.heap e2 ([("inner", innerFn e1)] ++ ([("args", vlist as), ("f", f), ("x", x), ("inner", innerFn e1)] ++ [])) ∧
    callFn W k_reduce (f :: x :: as) e s = evCond (perform W) (perform W) e2 (.cons (vlist [vlist [.atom "not", .atom "args"], reduceOne]) reduceRest) s1 := by
  obtain ⟨s1, e1, e2, q1, h1, h2, h3⟩ := letNamed_run (W := W) (s := s) (r := "args") (ps := ["f", "x"]) (vs := f :: x :: as) (F := innerFn) (nm := "inner") (P := vlist [.atom "f", .atom "acc", .atom "l"])
    (fb := [vlist [.atom "if", vlist [.atom "not", .atom "l"], .atom "acc", vlist [.atom "inner", .atom "f", vlist [.atom "f", .atom "acc", vlist [.atom "car", .atom "l"]], vlist [.atom "cdr", .atom "l"]]]])
    (x := .cons (.atom "cond") (.cons (vlist [vlist [.atom "not", .atom "args"], reduceOne]) reduceRest)) (doc := k_reduce_doc) (m := false) e J (by simp [ArityOk]) (by decide) hc
    (by decide) rfl rfl (fun _ => rfl)
  refine ⟨s1, e1, e2, q1, h1, h2, h3.trans ?_⟩
  exact eval_sform W .cond [vlist [vlist [.atom "not", .atom "args"], reduceOne], vlist [vlist [.atom "=", vlist [.atom "len", .atom "args"], .num 1], reduceTwo],
    vlist [.atom "t", vlist [.atom "error", vlist [.atom "quote", vlist [.atom "reduce", .atom "needs", .atom "at", .atom "least", .atom "two", .atom "arguments"]]]]] _ _ (h2.sc.notMacro_sf rfl known_cond)

theorem inner_call {s0 s : St} {e1 e : Nat} {f r0 x0 a : Val} {L : List (String × Val)} {J : Nat → Prop} {as : List Val} (ho : f.ordinary = true) (vs : List Val) (hf : f ∈ vs) (ha : a ∈ vs) (xs : List Val)
    (hx : ∀ x ∈ xs, x ∈ vs) (hu : Under s0 vs J) (q : Quiet s0 s) (h1 : ScJ (madeBy J s0 s) s.heap e1 ([("args", r0), ("f", f), ("x", x0), ("inner", innerFn e1)] ++ []))
    (h2 : Sc s.heap e L) (hi : alGet "inner" L = some (innerFn e1)) (hg : GA W s e as [f, a, vlist xs]) :
    FollowsU W f J (reducePlan a xs) s0 (eval W (.cons (.atom "inner") (vlist as)) e s) := by
  obtain ⟨s1, ev, q1⟩ := hg.evals s (.refl _)
  rw [eval_callVar (s2 := s1) h2 hi rfl rfl rfl (by decide) ev rfl]
  refine .quiet (q.trans q1) (follows_inner ho xs vs a hf ha hx s1 e _ (h1.mono q1.heap fun j hj => hj.mono q1) (hu.still ((q.trans q1).still _)))

theorem follows_reduce {f : Val} (ho : f.ordinary = true) (vs : List Val) (hf : f ∈ vs) (a : Val) (ha : a ∈ vs) (xs : List Val) (hx : ∀ x ∈ xs, x ∈ vs) (s : St) (e : Nat) (J : Nat → Prop)
    (hc : Base s.heap 0) (hu : Under s vs J) : FollowsU W f J (reducePlan a xs) s (callFn W k_reduce [f, vlist (a :: xs)] e s) := by
  obtain ⟨s1, e1, e2, q1, h1, h2, h3⟩ := reduce_start (W := W) (f := f) (x := vlist (a :: xs)) (as := []) e J hc
  obtain ⟨s2, q2, e3⟩ := cond_hit (W := W) reduceOne reduceRest (.not_nil h2.sc rfl (.v h2.sc rfl rfl) : G W s1 e2 (vlist [.atom "not", .atom "args"]) (.atom "t")) (by decide)
  have h4 := h2.mono q2.heap fun j hj => madeBy.mono q2 hj
  obtain ⟨s3, q3, e4⟩ := if_run (W := W) (c := vlist [.atom "not", .atom "x"]) (vlist [.atom "f"]) (vlist [.atom "inner", .atom "f", vlist [.atom "car", .atom "x"], vlist [.atom "cdr", .atom "x"]])
    h4.sc (plain_of rfl) (.not_cons h4.sc rfl (.v h4.sc rfl rfl) (by simp))
  rw [if_pos rfl] at e4
  rw [h3, e3]
  refine (congrArg (FollowsU W f J (reducePlan a xs) s) e4).mpr ?_
  have h5 := h4.mono q3.heap fun j hj => madeBy.mono q3 hj
  exact inner_call (as := [_, _, _]) ho vs hf ha xs hx hu ((q1.trans q2).trans q3) (h1.mono (q2.trans q3).heap fun j hj => madeBy.mono (q2.trans q3) hj) h5.sc rfl
    (.cons (.v h5.sc rfl rfl) (.two (.car h5.sc rfl (.v h5.sc rfl rfl)) (.cdr h5.sc rfl (.v h5.sc rfl rfl))))

theorem follows_reduce_empty {f : Val} (ho : f.ordinary = true) (vs : List Val) (hf : f ∈ vs) (s : St) (e : Nat) (J : Nat → Prop)
    (hc : Base s.heap 0) (hu : Under s vs J) : FollowsU W f J (.call [] .ret) s (callFn W k_reduce [f, .nil] e s) := by
  obtain ⟨s1, e1, e2, q1, h1, h2, h3⟩ := reduce_start (W := W) (f := f) (x := .nil) (as := []) e J hc
  obtain ⟨s2, q2, e3⟩ := cond_hit (W := W) reduceOne reduceRest (.not_nil h2.sc rfl (.v h2.sc rfl rfl) : G W s1 e2 (vlist [.atom "not", .atom "args"]) (.atom "t")) (by decide)
  have h4 := h2.mono q2.heap fun j hj => madeBy.mono q2 hj
  obtain ⟨s3, q3, e4⟩ := if_run (W := W) (c := vlist [.atom "not", .atom "x"]) (vlist [.atom "f"]) (vlist [.atom "inner", .atom "f", vlist [.atom "car", .atom "x"], vlist [.atom "cdr", .atom "x"]])
    h4.sc (plain_of rfl) (.not_nil h4.sc rfl (.v h4.sc rfl rfl))
  rw [if_neg (by decide)] at e4
  rw [h3, e3]
  refine (congrArg (FollowsU W f J _ s) e4).mpr ?_
  have h5 := h4.mono q3.heap fun j hj => madeBy.mono q3 hj
  obtain ⟨s4, q4, e5, h6⟩ := step_call (W := W) (a := "f") (xs := []) hu ((q1.trans q2).trans q3) h5 ho hf rfl rfl rfl (by decide) .nil (by simp)
  rw [show vlist [.atom "f"] = Val.cons (.atom "f") (vlist []) from rfl, e5]
  refine .call ho (((q1.trans q2).trans q3).trans q4) rfl (fun y s5 h7 hc5 => ?_) fun hn => UpTo.refl _
  obtain ⟨h0, hu5, h8⟩ := h6 y s5 h7 hc5
  refine ⟨h0, ?_⟩
  rw [h7]
  exact .ret ((Quiet.refl _).still _)

theorem follows_reduce_init {f : Val} (ho : f.ordinary = true) (vs : List Val) (hf : f ∈ vs) (a : Val) (ha : a ∈ vs) (xs : List Val) (hx : ∀ x ∈ xs, x ∈ vs) (s : St) (e : Nat) (J : Nat → Prop)
    (hc : Base s.heap 0) (hu : Under s vs J) : FollowsU W f J (reducePlan a xs) s (callFn W k_reduce [f, a, vlist xs] e s) := by
  obtain ⟨s1, e1, e2, q1, h1, h2, h3⟩ := reduce_start (W := W) (f := f) (x := a) (as := [vlist xs]) e J hc
  obtain ⟨s2, q2, e3⟩ := cond_skip (W := W) reduceOne reduceRest (.not_cons h2.sc rfl (.v h2.sc rfl rfl) (by simp) : G W s1 e2 (vlist [.atom "not", .atom "args"]) .nil)
  have h4 := h2.mono q2.heap fun j hj => madeBy.mono q2 hj
  obtain ⟨s3, q3, e4⟩ := cond_hit (W := W) reduceTwo reduceErr (.eq h4.sc rfl (.len (xs := [vlist xs]) h4.sc rfl (.v h4.sc rfl rfl)) (.num _ _ _) :
    G W s2 e2 (vlist [.atom "=", vlist [.atom "len", .atom "args"], .num 1]) (vBool (Val.equal (.num 1) (.num 1)))) (by decide)
  rw [h3, e3]
  refine (congrArg (FollowsU W f J (reducePlan a xs) s) e4).mpr ?_
  have h5 := h4.mono q3.heap fun j hj => madeBy.mono q3 hj
  exact inner_call (as := [_, _, _]) ho vs hf ha xs hx hu ((q1.trans q2).trans q3) (h1.mono (q2.trans q3).heap fun j hj => madeBy.mono (q2.trans q3) hj) h5.sc rfl
    (.cons (.v h5.sc rfl rfl) (.two (.v h5.sc rfl rfl) (.car h5.sc rfl (.v h5.sc rfl rfl))))

end L1
