import Verif.Spec.Programs
import Verif.Props.Status
import Verif.Lemmas.ProgFns
import Verif.Lemmas.Within
/-
C77: the example programs of the repository.
-/
set_option autoImplicit false
namespace L1

variable {W : World}

theorem Wrote.refl (s : St) : Wrote s s [] := ⟨by simp, rfl, rfl, rfl⟩

theorem Wrote.trans {a b c : St} {t u : List Char} (h : Wrote a b t) (h' : Wrote b c u) : Wrote a c (t ++ u) :=
  ⟨by rw [h'.out, h.out, List.append_assoc], h'.inp.trans h.inp, h'.tick.trans h.tick, h'.screen.trans h.screen⟩

theorem Quiet.wrote {s s' : St} (h : Quiet s s') : Wrote s s' [] := ⟨by rw [h.out]; simp, h.inp, h.tick, h.screen⟩

/-- A function of the program answers. -/
theorem answers_of {s : St} {U : List (String × Val)} {name : String} {f v : Val} {vs : List Val} (hp : Prog s.heap U) (hx : alGet name U = some f)
    (hm : (f.notMacro && (specialOf name).isNone && !isCxr name && name != "t") = true)
    (hr : ∀ {s1 : St}, Prog s1.heap U → Returns W s1 f vs v) : Answers W s name vs v := by
  intro e args s0 s1 hl ha h0
  simp only [Bool.and_eq_true, Option.isNone_iff_eq_none, Bool.not_eq_true', bne_iff_ne] at hm
  rw [hp.binds name f hx] at hl
  have hh : CallHead s0.heap e (.atom name) := callHead_of hm.1.1.2 fun ps r b dc env he => by
    rw [hl] at he
    exact notMacro_val hm.1.1.1 ps r b dc env (Option.some.inj he)
  obtain ⟨s', h3, h4⟩ := hr (hp.same0 h0) s1 e (.refl _)
  exact ⟨s', (eval_reaches hh ⟨s0, eval_atom_bound hm.1.2 hm.2 hl, ha⟩).trans h3, h4⟩

/-- A step of a program: the value of one form at top level, and what is known afterwards. -/
def Step (W : World) (U U' : List (String × Val)) (x : Val) (t : List Char) : Prop :=
  ∀ s, Prog s.heap U → ∃ v s', eval W x 0 s = .ok v s' ∧ Prog s'.heap U' ∧ Wrote s s' t

theorem step_defn {U : List (String × Val)} {x : Val} {name : String} {f : Val} (hd : defOf x = some (name, f))
    (hk : known name = none) (ht : name ≠ "t") (hf : ∃ r, x = .cons (.atom "defn") r) : Step W U ((name, f) :: U) x [] := by
  intro s hp
  obtain ⟨s1, h1, h2, h3, h4, h5, h6⟩ := hp.defn (W := W) hd hk ht hf
  exact ⟨_, s1, h1, h2, by rw [h3]; simp, h5, h4, h6⟩

theorem step_quiet {U : List (String × Val)} {x v : Val} (h : ∀ s, Prog s.heap U → G W s 0 x v) : Step W U U x [] := by
  intro s hp
  obtain ⟨s', h1, h2⟩ := h s hp s (.refl _)
  exact ⟨v, s', h1, hp.mono h2.heap, h2.wrote⟩

theorem step_println {U : List (String × Val)} {x v : Val} (hu : alGet "println" U = none) (h : ∀ s, Prog s.heap U → G W s 0 x v) :
    Step W U U (vlist [.atom "println", x]) (v.str ++ ['\n']) := by
  intro s hp
  obtain ⟨s1, h1, h2⟩ := h s hp s (.refl _)
  refine ⟨.nil, { s1 with out := s1.out ++ (v.str ++ ['\n']) }, ?_, hp.mono (h' := s1.heap) h2.heap, by rw [← h2.out], h2.inp, h2.tick, h2.screen⟩
  exact eval_callCore (xs := [x]) hp.sc hu hd_println (fun s0 _ h0 => by subst h0; exact .cons h1 .nil) (call_println v 0 s1)

theorem step_is {U : List (String × Val)} {a b v w : Val} (ha : ∀ s, Prog s.heap U → G W s 0 a v) (hb : ∀ s, Prog s.heap U → G W s 0 b w)
    (hvw : v.equal w = true) : Step W U U (vlist [.atom "is", vlist [.atom "=", a, b]]) [] := by
  intro s hp
  have hlt : 0 < s.heap.length := hp.core.lt
  obtain ⟨s1, q1, _, h2⟩ := isEq_run (W := W) (e := 0) ⟨hp.core, hp.core⟩ a b
  obtain ⟨s2, e2, q2⟩ := ha s1 (hp.mono q1.heap) s1 (.refl _)
  obtain ⟨s3, st, _, h3⟩ := h2 v s2 e2 fun j hj => by obtain ⟨t, ht⟩ := q2.heap; rw [← ht, List.getElem?_append_left hj.2]
  have hp2 : Prog s2.heap U := (hp.mono q1.heap).mono q2.heap
  have hp3 : Prog s3.heap U := hp2.same0 (st.heap 0 hp2.core.lt fun h => absurd h.1 (by omega))
  obtain ⟨s4, e4, q4⟩ := hb s3 hp3 s3 (.refl _)
  have hp4 := hp3.mono q4.heap
  have hl3 : s1.heap.length ≤ s3.heap.length := Nat.le_trans q2.heap.length_le st.len
  obtain ⟨s5, st5, e5⟩ := (h3 w s4 e4 ⟨hp4.core, hp4.core⟩ fun j hj => by
    obtain ⟨t, ht⟩ := q4.heap; rw [← ht, List.getElem?_append_left (Nat.lt_of_lt_of_le hj.2 hl3)]).1 hvw
  refine ⟨.nil, s5, e5, hp4.same0 (st5.heap 0 hp4.core.lt fun h => absurd h.1 (by omega)), ?_⟩
  refine ⟨?_, ?_, ?_, ?_⟩
  · rw [st5.out, q4.out, st.out, q2.out, q1.out]; simp
  · rw [st5.inp, q4.inp, st.inp, q2.inp, q1.inp]
  · rw [st5.tick, q4.tick, st.tick, q2.tick, q1.tick]
  · rw [st5.screen, q4.screen, st.screen, q2.screen, q1.screen]

/-- The forms of a program one after the other. -/
inductive Steps (W : World) : List (String × Val) → List Val → List (String × Val) → List Char → Prop
  | nil {U : List (String × Val)} : Steps W U [] U []
  | cons {U U1 U2 : List (String × Val)} {x : Val} {xs : List Val} {t t' : List Char} : Step W U U1 x t → Steps W U1 xs U2 t' → Steps W U (x :: xs) U2 (t ++ t')

theorem Steps.evals {U U' : List (String × Val)} {xs : List Val} {t : List Char} (h : Steps W U xs U' t) : ∀ s, Prog s.heap U →
    ∃ vs s', EvalsTo W 0 xs s vs s' ∧ Prog s'.heap U' ∧ Wrote s s' t := by
  induction h with
  | nil => exact fun s hp => ⟨[], s, .nil, hp, .refl s⟩
  | cons h1 _ ih =>
    intro s hp
    obtain ⟨v, s1, e1, p1, w1⟩ := h1 s hp
    obtain ⟨vs, s2, e2, p2, w2⟩ := ih s1 p1
    exact ⟨v :: vs, s2, .cons e1 e2, p2, w1.trans w2⟩

theorem Steps.text {U' : List (String × Val)} {xs : List Val} {t text : List Char} (h : Steps W [] xs U' t) (hr : readText text = .ok xs) (s : St) (hc : CoreAt s.heap 0) :
    ∃ s', TextRun W text s .finished s' ∧ Prog s'.heap U' ∧ Wrote s s' t := by
  obtain ⟨vs, s', h1, h2, h3⟩ := h.evals s ⟨hc, fun _ _ h => by cases h⟩
  exact ⟨s', .finished hr h1, h2, h3⟩

/-- Loading a text that finishes, as a script: the exit status is 0. -/
theorem script_ok {text : List Char} {t : List Char} (n : Nat) (inp : List (List Char)) (f : String) (hf : W.readFile 0 f = .ok text)
    (h : ∃ s', TextRun W text { topSt (initSt inp) coreEnv with tick := 1 } .finished s' ∧ Wrote { topSt (initSt inp) coreEnv with tick := 1 } s' t) :
    exitStatus (mainWith W (perform W) n coreText none [f] (initSt inp)) = some 0 ∧
    ∃ s', finalState (mainWith W (perform W) n coreText none [f] (initSt inp)) = some s' ∧ s'.out = t ∧ s'.inp = inp := by
  obtain ⟨s', h1, h2⟩ := h
  obtain ⟨h3, h4⟩ := (C76_script W n inp f [] 0 s').1 (.next hf h1 .done)
  exact ⟨h3, s', h4, by rw [h2.out]; rfl, h2.inp⟩

/-! ### fact.l1 -/

/-- C77: examples/fact.l1, loaded wherever the library is intact, finishes, having written 100! and a newline and done nothing else; from then on
`(fact k)` is k! for every natural number k. -/
theorem C77_fact (s : St) (hc : CoreAt s.heap 0) : ∃ s', TextRun W factText s .finished s' ∧
    Wrote s s' ((Val.num (Nat.factorial 100)).str ++ ['\n']) ∧ ∀ k : Nat, Answers W s' "fact" [.num k] (.num (Nat.factorial k)) := by
  have h : Steps W [] factForms factDefs ([] ++ (((Val.num (Nat.factorial 100)).str ++ ['\n']) ++ [])) :=
    .cons (step_defn (name := "fact") (f := x_fact) (by decide +kernel) (by decide +kernel) (by decide) ⟨_, rfl⟩)
      (.cons (step_println rfl fun s hp => .user hp.sc rfl rfl (.one (.num _ _ _)) (ret_fact 100 hp)) .nil)
  rw [List.append_nil, List.nil_append] at h
  obtain ⟨s', h1, h2, h3⟩ := h.text read_fact s hc
  exact ⟨s', h1, h3, fun k => answers_of h2 rfl rfl (ret_fact k)⟩

/-! ### tco.l1 -/

theorem sumTo_half (k : Nat) : sumTo k = k * (k + 1) / 2 := by have := sumTo_eq k; omega

theorem tco_run (s : St) (hc : CoreAt s.heap 0) : ∃ s', TextRun W tcoText s .finished s' ∧ Prog s'.heap tcoDefs ∧ Wrote s s' [] := by
  have hM : ∀ s : St, Prog s.heap tcoDefs → G W s 0 (vlist [.atom "*", .num 1000, .num 1000]) (.num (1000000 : Nat)) := fun s hp =>
    .mul hp.sc rfl (.num _ _ _) (.num _ _ _)
  have hv : (Val.num 500000500000).equal (.num (sumTo 1000000 : Nat)) = true := by rw [sumTo_half]; decide
  have h : Steps W [] tcoForms tcoDefs ([] ++ ([] ++ ([] ++ ([] ++ ([] ++ ([] ++ [])))))) :=
    .cons (step_defn (name := "sum-to-acc") (f := x_sum_to_acc) (by decide +kernel) (by decide +kernel) (by decide) ⟨_, rfl⟩)
    (.cons (step_defn (name := "sum-to-acc-with-let") (f := x_sum_to_acc_with_let) (by decide +kernel) (by decide +kernel) (by decide) ⟨_, rfl⟩)
    (.cons (step_defn (name := "sum-to") (f := x_sum_to) (by decide +kernel) (by decide +kernel) (by decide) ⟨_, rfl⟩)
    (.cons (step_defn (name := "sum-to-with-let") (f := x_sum_to_with_let) (by decide +kernel) (by decide +kernel) (by decide) ⟨_, rfl⟩)
    (.cons (step_is (v := .num 500000500000) (w := .num (sumTo 1000000 : Nat)) (fun s hp => .num _ _ _)
      (fun s hp => .user (a := "sum-to") hp.sc rfl rfl (.one (hM s hp)) (ret_sum_to 1000000 hp)) hv)
    (.cons (step_is (v := .num 500000500000) (w := .num (sumTo 1000000 : Nat)) (fun s hp => .num _ _ _)
      (fun s hp => .user (a := "sum-to-with-let") hp.sc rfl rfl (.one (hM s hp)) (ret_sum_to_with_let 1000000 hp)) hv) .nil)))))
  exact h.text read_tco s hc

/-- C77: examples/tco.l1 finishes without any output: its two assertions hold; from then on `(sum-to k)` and `(sum-to-with-let k)` are 1 + ... + k. -/
theorem C77_tco (s : St) (hc : CoreAt s.heap 0) : ∃ s', TextRun W tcoText s .finished s' ∧ Wrote s s' [] ∧
    ∀ k : Nat, Answers W s' "sum-to" [.num k] (.num ((k * (k + 1) / 2 : Nat))) ∧ Answers W s' "sum-to-with-let" [.num k] (.num ((k * (k + 1) / 2 : Nat))) := by
  obtain ⟨s', h1, h2, h3⟩ := tco_run (W := W) s hc
  refine ⟨s', h1, h3, fun k => ?_⟩
  rw [← sumTo_half]
  exact ⟨answers_of h2 rfl rfl (ret_sum_to k), answers_of h2 rfl rfl (ret_sum_to_with_let k)⟩

/-- C77: after examples/tco.l1, `(sum-to k)` and `(sum-to-with-let k)` run on a stack of two nested calls of the evaluator, whatever k is: this is the tail call
optimisation the example is there to show. -/
theorem C77_tco_stack (s s' : St) (hc : CoreAt s.heap 0) (h : TextRun W tcoText s .finished s') (k : Nat) :
    (∃ s'', evalWithin W 2 (form "sum-to" [.num k]) 0 s' = .ok (.num ((k * (k + 1) / 2 : Nat))) s'' ∧ Quiet s' s'') ∧
    (∃ s'', evalWithin W 2 (form "sum-to-with-let" [.num k]) 0 s' = .ok (.num ((k * (k + 1) / 2 : Nat))) s'' ∧ Quiet s' s'') := by
  obtain ⟨s1, h1, hp, _⟩ := tco_run (W := W) s hc
  rw [textRun_iff] at h h1
  rw [h] at h1
  cases h1
  rw [← sumTo_half]
  exact ⟨GW.user hp.sc rfl rfl (.one (.num _ _ _ _)) (rw_sum_to 0 k hp) s' (.refl _),
    GW.user hp.sc rfl rfl (.one (.num _ _ _ _)) (rw_sum_to_with_let 0 k hp) s' (.refl _)⟩

/-! ### primes.l1 -/

open Classical in
/-- C77: examples/primes.l1 finishes, having written the first 300 numbers that are 1 or prime; from then on `(prime? n)` is t exactly if n is prime or less than 2,
`(smallest-divisor n)` is the smallest divisor of n above 1 for n from 2 on, and `(n-primes c)` is the list of the first c numbers that are 1 or prime. -/
theorem C77_primes (s : St) (hc : CoreAt s.heap 0) : ∃ s', TextRun W primesText s .finished s' ∧
    Wrote s s' ((vlist ((List.range 300).map fun i => .num (Nat.nth OneOrPrime i))).str ++ ['\n']) ∧
    (∀ n : Int, Answers W s' "prime?" [.num n] (if n < 2 ∨ n.toNat.Prime then .atom "t" else .nil)) ∧
    (∀ n : Nat, 2 ≤ n → Answers W s' "smallest-divisor" [.num n] (.num n.minFac)) ∧
    (∀ c : Nat, Answers W s' "n-primes" [.num c] (vlist ((List.range c).map fun i => .num (Nat.nth OneOrPrime i)))) := by
  have hP : ∀ (m : Int), Step W primesDefs primesDefs (vlist [.atom "prime?", .num m]) [] := fun m => step_quiet fun s hp =>
    .user hp.sc rfl rfl (.one (.num _ _ _)) (ret_primeP m hp)
  have h : Steps W [] primesForms primesDefs2 ([] ++ ([] ++ ([] ++ ([] ++ ([] ++ ([] ++ ([] ++ ([] ++ ([] ++ ([] ++ ([] ++
      (((vlist ((List.range 300).map fun i => Val.num (Nat.nth OneOrPrime i))).str ++ ['\n']) ++ [])))))))))))) :=
    .cons (step_defn (name := "divides?") (f := x_dividesP) (by decide +kernel) (by decide +kernel) (by decide) ⟨_, rfl⟩)
    (.cons (step_defn (name := "square") (f := x_square) (by decide +kernel) (by decide +kernel) (by decide) ⟨_, rfl⟩)
    (.cons (step_defn (name := "find-divisor") (f := x_find_divisor) (by decide +kernel) (by decide +kernel) (by decide) ⟨_, rfl⟩)
    (.cons (step_defn (name := "smallest-divisor") (f := x_smallest_divisor) (by decide +kernel) (by decide +kernel) (by decide) ⟨_, rfl⟩)
    (.cons (step_defn (name := "prime?") (f := x_primeP) (by decide +kernel) (by decide +kernel) (by decide) ⟨_, rfl⟩)
    (.cons (hP _) (.cons (hP _) (.cons (hP _) (.cons (hP _)
    (.cons (step_defn (name := "helper") (f := x_helper) (by decide +kernel) (by decide +kernel) (by decide) ⟨_, rfl⟩)
    (.cons (step_defn (name := "n-primes") (f := x_n_primes) (by decide +kernel) (by decide +kernel) (by decide) ⟨_, rfl⟩)
    (.cons (step_println rfl fun s hp => .user hp.sc rfl rfl (.one (.num _ _ _)) (ret_n_primes 300 hp)) .nil)))))))))))
  simp only [List.append_nil, List.nil_append] at h
  obtain ⟨s', h1, h2, h3⟩ := h.text read_primes s hc
  refine ⟨s', h1, h3, fun n => ?_, fun n hn => ?_, fun c => answers_of h2 rfl rfl (ret_n_primes c)⟩
  · have := answers_of (W := W) (name := "prime?") h2 rfl rfl fun hp => ret_primeP n (primesDefs2_sub hp)
    by_cases hpr : n < 2 ∨ n.toNat.Prime
    · rw [if_pos hpr]
      rw [decide_eq_true (show primeLike n from hpr)] at this
      exact this
    · rw [if_neg hpr]
      rw [decide_eq_false (show ¬ primeLike n from hpr)] at this
      exact this
  · have := answers_of (W := W) (name := "smallest-divisor") h2 rfl rfl fun hp => ret_smallest n (primesDefs2_sub hp)
    rw [if_neg (by omega), Int.toNat_natCast] at this
    exact this

/-! ### hello.l1, fails.l1, badlex.l1 -/

theorem step_printl {U : List (String × Val)} {xs : List Val} (hu : alGet "printl" U = none) (hq : alGet "quote" U = none) :
    Step W U U (vlist [.atom "printl", vlist [.atom "quote", vlist xs]]) ([' '].intercalate (xs.map Val.str) ++ ['\n']) := by
  intro s hp
  obtain ⟨s1, h1, h2⟩ := G.quote (W := W) (v := vlist xs) hp.sc hq known_quote s (.refl _)
  refine ⟨.nil, { s1 with out := s1.out ++ ([' '].intercalate (xs.map Val.str) ++ ['\n']) }, ?_, hp.mono (h' := s1.heap) h2.heap, by rw [← h2.out], h2.inp, h2.tick, h2.screen⟩
  refine eval_callCore (xs := [_]) hp.sc hu hd_printl (fun s0 _ h0 => by subst h0; exact .cons h1 .nil) (call_bi ?_)
  have := C43_printl W 0 0 0 s1 xs
  exact this

/-- C77: examples/hello.l1 writes hello world. -/
theorem C77_hello (s : St) (hc : CoreAt s.heap 0) : ∃ s', TextRun W helloText s .finished s' ∧ Wrote s s' "hello world\n".toList := by
  have h : Steps W [] helloForms [] ("hello world\n".toList ++ []) := .cons (step_printl (xs := [.atom "hello", .atom "world"]) rfl rfl) .nil
  obtain ⟨s', h1, _, h3⟩ := h.text read_hello s hc
  exact ⟨s', h1, h3⟩

/-- C77: examples/fails.l1 writes its line and then fails with the assertion it is meant to fail with. -/
theorem C77_fails (s : St) (hc : CoreAt s.heap 0) : ∃ s', TextRun W failsText s (.failed (.list (vlist [vlist [.atom "assertion", .atom "failed:", .nil]]))) s' ∧
    Wrote s s' "This statement should fail:\n".toList := by
  obtain ⟨v, s1, h1, hp, w1⟩ := step_printl (W := W) (U := []) (xs := [.atom "This", .atom "statement", .atom "should", .atom "fail:"]) rfl rfl s ⟨hc, fun _ _ h => by cases h⟩
  obtain ⟨s2, q2, _, h2⟩ := is_run (W := W) (s := s1) (e := 0) ⟨hp.core, hp.core⟩ .nil (fun d h => by cases h)
  have hc2 := hp.core.mono q2.heap
  obtain ⟨s3, st, e3⟩ := (h2 .nil s2 (by rw [eval_eq]; rfl) ⟨hc2, hc2⟩ fun _ _ => rfl).2 rfl
  refine ⟨s3, .error (before := [_]) (later := []) read_fails (.cons h1 .nil) e3, ?_⟩
  refine ⟨?_, ?_, ?_, ?_⟩
  · rw [st.out, q2.out, w1.out]; rfl
  · rw [st.inp, q2.inp, w1.inp]
  · rw [st.tick, q2.tick, w1.tick]
  · rw [st.screen, q2.screen, w1.screen]

/-- C77: examples/badlex.l1, meant to show a lexical error with a line number, is read without error (`&` is a name like any other); it fails because that name is
unknown, having written nothing. -/
theorem C77_badlex (s : St) (hc : CoreAt s.heap 0) (hu : lookup s.heap 0 "&" = none) : TextRun W badlexText s
    (.failed (.list (vlist [msgList "evaluating function arguments", msgList "evaluating function arguments", msgList "unknown symbol: &"]))) s := by
  have head : ∀ {a : String} {f : Val}, Head a f → known a = some (alGet a coreEnv) → CallHead s.heap 0 (.atom a) ∧ eval W (.atom a) 0 s = .ok f s :=
    fun hd hk => hd.reaches (hc.sees _ _ hk)
  have h1 := head hd_printl (by decide +kernel)
  have h2 := head hd_plus (by decide +kernel)
  have hx : eval W (.atom "&") 0 s = .err (.list (vlist [msgList "unknown symbol: &"])) s := by
    rw [eval_atom W _ 0 _ (by rw [← isCxr_iff]; decide), evAtom_run (by decide), hu]; rfl
  have num : ∀ n, eval W (.num n) 0 s = .ok (.num n) s := fun n => by rw [eval_eq]; rfl
  have e1 := C31_in_argument W (.atom "+") _ (.atom "&") [.num 1, .num 2, .num 3] _ [.num 4] 0 s s s s _ h2.1 h2.2 (.cons (num 1) (.cons (num 2) (.cons (num 3) .nil))) hx
  have e2 := C31_in_argument W (.atom "printl") _ _ [] _ [] 0 s s s s _ h1.1 h1.2 .nil e1
  exact .error (before := []) (later := []) read_badlex .nil e2

/-! ### As scripts -/

/-- C77: run as scripts, the first four end with status 0 after writing what they write, fails.l1 with status 1 after its line and the error, badlex.l1 with status 1 after the error. -/
theorem C77_scripts (n : Nat) (inp : List (List Char)) (f : String) :
    let r := mainWith W (perform W) n coreText none [f] (initSt inp)
    (W.readFile 0 f = .ok factText → exitStatus r = some 0 ∧ ∃ s, finalState r = some s ∧ s.out = (Val.num (Nat.factorial 100)).str ++ ['\n']) ∧
    (W.readFile 0 f = .ok tcoText → exitStatus r = some 0 ∧ ∃ s, finalState r = some s ∧ s.out = []) ∧
    (W.readFile 0 f = .ok primesText → exitStatus r = some 0 ∧ ∃ s, finalState r = some s ∧
      s.out = (vlist ((List.range 300).map fun i => .num (Nat.nth OneOrPrime i))).str ++ ['\n']) ∧
    (W.readFile 0 f = .ok helloText → exitStatus r = some 0 ∧ ∃ s, finalState r = some s ∧ s.out = "hello world\n".toList) ∧
    (W.readFile 0 f = .ok failsText → exitStatus r = some 1 ∧ ∃ s, finalState r = some s ∧
      s.out = "This statement should fail:\nERROR:\n((assertion failed: ()))\n".toList) ∧
    (W.readFile 0 f = .ok badlexText → exitStatus r = some 1 ∧ ∃ s, finalState r = some s ∧
      s.out = "ERROR:\n((evaluating function arguments) (evaluating function arguments) (unknown symbol: &))\n".toList) := by
  have hc : CoreAt { topSt (initSt inp) coreEnv with tick := 1 }.heap 0 := coreAt_loaded (initSt inp)
  have ok : ∀ {text t : List Char}, W.readFile 0 f = .ok text →
      (∃ s', TextRun W text { topSt (initSt inp) coreEnv with tick := 1 } .finished s' ∧ Wrote { topSt (initSt inp) coreEnv with tick := 1 } s' t) →
      exitStatus (mainWith W (perform W) n coreText none [f] (initSt inp)) = some 0 ∧
      ∃ s, finalState (mainWith W (perform W) n coreText none [f] (initSt inp)) = some s ∧ s.out = t := by
    intro text t hf h
    obtain ⟨h1, s', h2, h3, _⟩ := script_ok n inp f hf h
    exact ⟨h1, s', h2, h3⟩
  dsimp only
  refine ⟨fun hf => ?_, fun hf => ?_, fun hf => ?_, fun hf => ?_, fun hf => ?_, fun hf => ?_⟩
  · obtain ⟨s', h1, h2, _⟩ := C77_fact (W := W) _ hc; exact ok hf ⟨s', h1, h2⟩
  · obtain ⟨s', h1, h2, _⟩ := C77_tco (W := W) _ hc; exact ok hf ⟨s', h1, h2⟩
  · obtain ⟨s', h1, h2, _⟩ := C77_primes (W := W) _ hc; exact ok hf ⟨s', h1, h2⟩
  · obtain ⟨s', h1, h2⟩ := C77_hello (W := W) _ hc; exact ok hf ⟨s', h1, h2⟩
  · obtain ⟨s', h1, h2⟩ := C77_fails (W := W) _ hc
    obtain ⟨h3, h4⟩ := (C76_script W n inp f [] 1 _).1 (.failed hf h1)
    refine ⟨h3, _, h4, ?_⟩
    show s'.out ++ _ = _
    rw [h2.out]
    show [] ++ _ ++ _ = _
    decide +kernel
  · have hu : lookup (topSt (initSt inp) coreEnv).heap 0 "&" = none := by simp [topSt, lookup, lookupAux, show alGet "&" coreEnv = none by decide +kernel]
    obtain ⟨h3, h4⟩ := (C76_script W n inp f [] 1 _).1 (.failed hf (C77_badlex (W := W) { topSt (initSt inp) coreEnv with tick := 1 } hc hu))
    refine ⟨h3, _, h4, ?_⟩
    show [] ++ _ = _
    decide +kernel

/-- A later call from the program: `(fact 5)` is 120. -/
example (inp : List (List Char)) : ∃ s1 s2, TextRun W factText (topSt (initSt inp) coreEnv) .finished s1 ∧ eval W (form "fact" [.num 5]) 0 s1 = .ok (.num 120) s2 := by
  obtain ⟨s1, h1, _, h2⟩ := C77_fact (W := W) _ (coreAt_loaded (initSt inp))
  obtain ⟨s2, h3, _⟩ := h2 5 0 [.num 5] s1 s1 rfl (.cons (by rw [eval_eq]; rfl) .nil) rfl
  exact ⟨s1, s2, h1, h3⟩

/-- 1 is the first of the numbers written by primes.l1. -/
example : OneOrPrime 1 ∧ ¬ OneOrPrime 0 := ⟨.inl rfl, by
  rintro (h | h)
  · cases h
  · exact Nat.not_prime_zero h⟩

/-- A hundred million steps in a stack of two. -/
example (inp : List (List Char)) : ∃ s1 s2, TextRun W tcoText (topSt (initSt inp) coreEnv) .finished s1 ∧
    evalWithin W 2 (form "sum-to" [.num 100000000]) 0 s1 = .ok (.num 5000000050000000) s2 := by
  obtain ⟨s1, h1, _⟩ := C77_tco (W := W) _ (coreAt_loaded (initSt inp))
  obtain ⟨⟨s2, h2, _⟩, _⟩ := C77_tco_stack _ s1 (coreAt_loaded (initSt inp)) h1 100000000
  exact ⟨s1, s2, h1, h2⟩

end L1
