import Verif.Lemmas.CoreRest
/-
C72: the rest of the core library.
-/
set_option autoImplicit false
namespace L1
variable {W : World}

/-- C72: `let*` binds in order, each value being computed where the earlier names are bound. -/
theorem C72_let_star (body : List Val) (ps : List (String × Val)) (hps : ∀ p ∈ ps, p.1 ≠ "t") : ∀ {s : St} {e : Nat}, CoreHere s.heap e →
    ∃ r, LetStar W body e ps s r ∧ UpTo r (eval W (form "let*" (bindings ps :: body)) e s) := by
  induction ps with
  | nil =>
    intro s e h
    obtain ⟨s1, q1, e1⟩ := Becomes.letStar0 (W := W) (xs := body) (.base h.2.base) (plain_of rfl) h.1.base rfl rfl s (.refl _)
    obtain ⟨s2, q2, e2⟩ := C41_progn (W := W) (h.mono q1.heap) body
    exact ⟨_, .body (q1.trans q2), .inl (e1.trans e2)⟩
  | cons p ps ih =>
    intro s e h
    obtain ⟨n, x⟩ := p
    obtain ⟨s1, q1, e1⟩ := Becomes.letStar (W := W) (p := vlist [.atom n, x]) (ps := ps.map fun p => vlist [.atom p.1, p.2]) (xs := body) (.base h.2.base) (plain_of rfl) (.core h.1.base rfl) rfl rfl rfl s (.refl _)
    have e2 := e1.trans (let1_run (W := W) (n := n) x (form "let*" (bindings ps :: body)) (.base (h.mono q1.heap).2.base) rfl (hps _ (List.mem_cons_self ..)))
    show ∃ r, _ ∧ UpTo r (eval W (form "let*" (vlist (vlist [.atom n, x] :: ps.map fun p => vlist [.atom p.1, p.2]) :: body)) e s)
    rw [e2]
    by_cases hv : ∃ v s2, eval W x e (withScope s1 e) = .ok v s2
    · obtain ⟨v, s2, hv⟩ := hv
      by_cases hc : CoreHere (heapSet s2.heap s1.heap.length n v) s1.heap.length
      · obtain ⟨r, h1, h2⟩ := ih (fun p hp => hps p (List.mem_cons_of_mem _ hp)) (s := { s2 with heap := heapSet s2.heap s1.heap.length n v }) hc
        exact ⟨r, .bind q1 hv h1, by rw [hv]; exact h2⟩
      · exact ⟨_, .disturbed q1 hv hc, .refl _⟩
    · have hn : ∀ v s2, eval W x e (withScope s1 e) ≠ .ok v s2 := fun v s2 h => hv ⟨v, s2, h⟩
      exact ⟨_, .stops q1 rfl hn, .frame hn _ _⟩

/-- C72: `(is c)`, where `c` is not an equation, evaluates `c` once; it is () if the value is not (), and otherwise the error `(assertion failed: c)`. -/
theorem C72_is (W : World) : Always W
    { pre := fun t s => ∀ (c : Val) (e : Nat), t = .eval (form "is" [c]) e → CoreHere s.heap e → NotEquation c → ∃ s1, Quiet s s1 ∧
        (∀ r, eval W c e s1 = r → (∀ v s2, r ≠ .ok v s2) → UpTo r (eval W (form "is" [c]) e s)) ∧
        ∀ v s2, eval W c e s1 = .ok v s2 → CoreHere s2.heap e →
          (v ≠ .nil → ∃ s3, Still (newIn s s1) s2 s3 ∧ eval W (form "is" [c]) e s = .ok .nil s3) ∧
          (v = .nil → ∃ s3, Still (newIn s s1) s2 s3 ∧
            eval W (form "is" [c]) e s = .err (.list (vlist [vlist [.atom "assertion", .atom "failed:", c]])) s3) } := by
  refine always_of_watchOk W ⟨fun t s hi ht c e htask hh hne => ?_, fun _ _ _ _ _ _ => trivial⟩
  subst htask
  obtain ⟨s1, q1, h1, h2⟩ := is_run (W := W) hh c hne
  refine ⟨s1, q1, h1, fun v s2 hv hc => h2 v s2 hv hc ?_⟩
  have hu := (Under.start (vs := [c, .lam [] "" .nil .nil false e]) hi (by
    intro v hv
    simp only [List.mem_cons, List.not_mem_nil, or_false] at hv
    rcases hv with rfl | rfl
    · exact vok_args ht.1 _ (by simp)
    · exact ⟨ht.2, trivial, trivial⟩)).still (q1.still _)
  intro j hj
  exact (hu.eval (by simp) (by simp) hv).2 j (.inr hj)

/-- C72: `(is (= a b))` evaluates `a` and then `b`, once each; it is () if their values are equal, and otherwise an error that shows both expressions
and both values. -/
theorem C72_is_equation (W : World) : Always W
    { pre := fun t s => ∀ (a b : Val) (e : Nat), t = .eval (form "is" [form "=" [a, b]]) e → CoreHere s.heap e → ∃ s1, Quiet s s1 ∧
        (∀ r, eval W a e s1 = r → (∀ v s2, r ≠ .ok v s2) → UpTo r (eval W (form "is" [form "=" [a, b]]) e s)) ∧
        ∀ v s2, eval W a e s1 = .ok v s2 → ∃ s3, Still (newIn s s1) s2 s3 ∧
          (∀ r, eval W b e s3 = r → (∀ v s2, r ≠ .ok v s2) → UpTo r (eval W (form "is" [form "=" [a, b]]) e s)) ∧
          ∀ w s4, eval W b e s3 = .ok w s4 → CoreHere s4.heap e →
            (v.equal w = true → ∃ s5, Still (newIn s s1) s4 s5 ∧ eval W (form "is" [form "=" [a, b]]) e s = .ok .nil s5) ∧
            (v.equal w = false → ∃ s5, Still (newIn s s1) s4 s5 ∧
              eval W (form "is" [form "=" [a, b]]) e s = .err (.list (vlist [unequal a v b w])) s5) } := by
  refine always_of_watchOk W ⟨fun t s hi ht a b e htask hh => ?_, fun _ _ _ _ _ _ => trivial⟩
  subst htask
  obtain ⟨s1, q1, h1, h2⟩ := isEq_run (W := W) hh a b
  have hab : VOk s.heap.length (form "=" [a, b]) := vok_args ht.1 _ (by simp)
  have hu := (Under.start (vs := [a, b, .lam [] "" .nil .nil false e]) hi (by
    intro v hv
    simp only [List.mem_cons, List.not_mem_nil, or_false] at hv
    rcases hv with rfl | rfl | rfl
    · exact vok_args hab _ (by simp)
    · exact vok_args hab _ (by simp)
    · exact ⟨ht.2, trivial, trivial⟩)).still (q1.still _)
  refine ⟨s1, q1, h1, fun v s2 hv => ?_⟩
  obtain ⟨hu2, hun⟩ := hu.eval (by simp) (by simp) hv
  obtain ⟨s3, st3, h3, h4⟩ := h2 v s2 hv fun j hj => hun j (.inr hj)
  refine ⟨s3, st3, h3, fun w s4 hw hc => h4 w s4 hw hc fun j hj => ?_⟩
  have hu3 := (hu2.subset (fun _ h => h) (fun j (hj : newIn s s1 j) => .inr hj)).still st3
  exact (hu3.eval (by simp) (by simp) hw).2 j (.inl hj)

/-- C72: `(with-screen x ...)` starts the screen; if that fails, so does the whole.  Then it evaluates `(progn x ...)` in a scope where everything means what it means
outside; if that does not return, neither does the whole, and the screen is not ended.  If it does, the screen is ended and the value is that of `(progn x ...)`. -/
theorem C72_with_screen (W : World) : Always W
    { pre := fun t s => ∀ (xs : List Val) (e : Nat), t = .eval (form "with-screen" xs) e → CoreHere s.heap e → ∃ s1, Quiet s s1 ∧
        (∀ r, callFn W (.bi .screenStart) [] 0 s1 = r → (∀ v s2, r ≠ .ok v s2) → UpTo r (eval W (form "with-screen" xs) e s)) ∧
        ∀ v s2, callFn W (.bi .screenStart) [] 0 s1 = .ok v s2 → ∃ P s3, Quiet s2 s3 ∧ CoreHere s3.heap P ∧ (∀ x, lookup s3.heap P x = lookup s.heap e x) ∧
          (∀ r, eval W (form "progn" xs) P s3 = r → (∀ v s2, r ≠ .ok v s2) → UpTo r (eval W (form "with-screen" xs) e s)) ∧
          ∀ v s4, eval W (form "progn" xs) P s3 = .ok v s4 → CoreHere s4.heap P →
            ∃ s5, Still (newIn s2 s3) s4 s5 ∧ eval W (form "with-screen" xs) e s = .ok v (screenClosed s5) } := by
  refine always_of_watchOk W ⟨fun t s hi ht xs e htask hh => ?_, fun _ _ _ _ _ _ => trivial⟩
  subst htask
  obtain ⟨s0, s1, q0, rfl, h1, h2⟩ := withScreen_run (W := W) hh xs
  refine ⟨_, q0.trans (Quiet.withScope _ _), h1, fun v s2 hv => ?_⟩
  obtain ⟨s3, rfl, hc3, hlk, h3, h4⟩ := h2 v s2 hv
  refine ⟨_, _, Quiet.withScope _ _, hc3, hlk, h3, fun w s4 hw hc4 => h4 w s4 hw hc4 ?_⟩
  have hu := (Under.start (vs := [.lam [] "" .nil .nil false e, form "progn" xs]) hi (by
    intro v hv
    simp only [List.mem_cons, List.not_mem_nil, or_false] at hv
    rcases hv with rfl | rfl
    · exact ⟨ht.2, trivial, trivial⟩
    · exact ⟨trivial, ht.1.2⟩)).still (q0.still _)
  have hu := (hu.scope (e := e) (List.mem_cons_self ..)).nil (v := .bi .screenStart) rfl
  have hu := (hu.call (f := .bi .screenStart) (List.mem_cons_self ..) rfl (args := []) (by simp) 0 hv).1.still ((Quiet.withScope s2 s0.heap.length).still _)
  intro j hj
  exact (hu.eval (by simp) (by simp) hw).2 j (.inr hj)

section
variable {s : St}

/-- C72: `(randigits n)` is a list of `n` numbers, each of them the next number of the random source modulo 10. -/
theorem C72_randigits (h : CoreAt s.heap 0) (n : Nat) :
    GivesDrawing W s "randigits" [.num n] n (vlist ((List.range n).map fun i => .num ((W.rand (s.tick + i) % 10 : Nat) : Int))) :=
  (draws_randigits h.base n).gives hd_randigits

/-- C72: `(randchoice l)`, where `l` is a nonempty list, is one of its elements, chosen by the next number of the random source. -/
theorem C72_randchoice (h : CoreAt s.heap 0) (xs : List Val) (h0 : xs ≠ []) (hl : xs.length < 2 ^ 63) :
    ∃ (hi : W.rand s.tick % xs.length < xs.length), GivesDrawing W s "randchoice" [vlist xs] 1 (xs[W.rand s.tick % xs.length]'hi) := by
  have hi : W.rand s.tick % xs.length < xs.length := Nat.mod_lt _ (List.length_pos_iff.2 h0)
  refine ⟨hi, ?_⟩
  have := (draws_randchoice (W := W) h.base xs h0 hl).gives hd_randchoice
  rwa [List.getD_eq_getElem?_getD, List.getElem?_eq_getElem hi] at this

/-- C72: `(randchoice ())` is an error. -/
theorem C72_randchoice_empty (h : CoreAt s.heap 0) : GivesError W s "randchoice" [.nil] := (fails_randchoice h.base).gives hd_randchoice

example (inp : List (List Char)) : GivesError W (topSt (initSt inp) coreEnv) "randchoice" [.nil] := C72_randchoice_empty (coreAt_loaded _)

/-- C72: `(randalpha n)` is a list of `n` atoms of one lower-case letter each. -/
theorem C72_randalpha (h : CoreAt s.heap 0) (n : Nat) :
    GivesDrawing W s "randalpha" [.num n] n (vlist ((List.range n).map fun i => .atom (String.ofList [alphabet.getD (W.rand (s.tick + i) % 26) ' ']))) :=
  (draws_randalpha h.base n).gives hd_randalpha

example (inp : List (List Char)) : ∃ s', eval W (form "randalpha" [.num 1]) 0 (topSt (initSt inp) coreEnv) =
    .ok (vlist [.atom (String.ofList [alphabet.getD (W.rand 0 % 26) ' '])]) s' ∧ s'.tick = 1 := by
  obtain ⟨s', h1, h2⟩ := C72_randalpha (W := W) (coreAt_loaded (initSt inp)) 1 0 [.num 1] _ ((coreAt_loaded _).sees _ _ (by decide +kernel)) (.cons (by rw [eval_eq]; rfl) .nil)
  exact ⟨s', h1, h2.tick⟩

/-- C72: `(true? v)` is t exactly for t. -/
theorem C72_true (h : CoreAt s.heap 0) (v : Val) : Gives W s "true?" [v] (if v = .atom "t" then .atom "t" else .nil) := by
  have := (ret_trueP (W := W) h.base v).gives hd_trueP
  by_cases hv : v = .atom "t"
  · subst hv; exact this
  · rw [if_neg hv]
    rwa [show v.equal (.atom "t") = false by cases v <;> simp_all [Val.equal]] at this

/-- C72: `pi100` is the first hundred digits of π. -/
theorem C72_pi100 {e : Nat} (h : CoreAt s.heap e) :
    eval W (.atom "pi100") e s = .ok (.num 3141592653589793238462643383279502884197169399375105820974944592307816406286208998628034825342117067) s :=
  eval_atom_bound (by decide) (by decide) (h.sees _ _ (by decide +kernel))

example (inp : List (List Char)) : eval W (.atom "pi100") 0 (topSt (initSt inp) coreEnv) =
    .ok (.num 3141592653589793238462643383279502884197169399375105820974944592307816406286208998628034825342117067) (topSt (initSt inp) coreEnv) :=
  C72_pi100 (coreAt_loaded _)

end

/-! ### The hypotheses are met after the library has been loaded -/

/-- `(is ())` at top level is the error `(assertion failed: ())`. -/
example (inp : List (List Char)) : ∃ s', eval W (form "is" [.nil]) 0 (topSt (initSt inp) coreEnv) = .err (.list (vlist [vlist [.atom "assertion", .atom "failed:", .nil]])) s' := by
  obtain ⟨s1, q1, _, h2⟩ := is_run (W := W) (coreHere_loaded (initSt inp)) .nil (by intro d h; cases h)
  obtain ⟨s3, _, h⟩ := (h2 .nil s1 (by rw [eval_eq]; rfl) ((coreHere_loaded (initSt inp)).mono q1.heap) fun _ _ => rfl).2 rfl
  exact ⟨s3, h⟩

theorem CoreAt.same0 {h h' : Heap} (hc : CoreAt h 0) (hh : h'[0]? = h[0]?) : CoreAt h' 0 := by
  obtain ⟨f, h1, h2⟩ : ∃ f, h[0]? = some f ∧ f.parent = none := by
    cases hc.nested with
    | top hf hp => exact ⟨_, hf, hp⟩
    | inside _ _ hlt => exact absurd hlt (by omega)
  have hn : Nested [f] 0 := .top rfl h2
  have pre : ∀ {k : Heap}, k[0]? = some f → [f] <+: k := fun {k} hk => by
    cases k with
    | nil => cases hk
    | cons g t => injection hk with hk; rw [hk]; exact ⟨t, rfl⟩
  refine CoreAt.mono (h := [f]) ⟨hn, fun x r hx => ?_⟩ (pre (hh.trans h1))
  rw [← hn.lookup_prefix (pre h1)]
  exact hc.sees x r hx

/-- `(is (= 1 2))` at top level shows the two numbers. -/
example (inp : List (List Char)) : ∃ s', eval W (form "is" [form "=" [.num 1, .num 2]]) 0 (topSt (initSt inp) coreEnv) = .err (.list (vlist [unequal (.num 1) (.num 1) (.num 2) (.num 2)])) s' := by
  obtain ⟨s1, q1, _, h2⟩ := isEq_run (W := W) (coreHere_loaded (initSt inp)) (.num 1) (.num 2)
  obtain ⟨s3, st, _, h3⟩ := h2 (.num 1) s1 (by rw [eval_eq]; rfl) fun _ _ => rfl
  have hc : CoreHere s3.heap 0 := by
    have hlk := (coreHere_loaded (initSt inp)).1
    have h0 : s3.heap[0]? = s1.heap[0]? := st.heap 0 (Nat.lt_of_lt_of_le hlk.lt q1.heap.length_le) fun h => absurd h.1 (by simp [topSt])
    have h1 : CoreAt s1.heap 0 := hlk.mono q1.heap
    have : CoreAt s3.heap 0 := h1.same0 h0
    exact ⟨this, this⟩
  obtain ⟨s5, _, h⟩ := (h3 (.num 2) s3 (by rw [eval_eq]; rfl) hc fun _ _ => rfl).2 rfl
  exact ⟨s5, h⟩

/-- `(let* ((a 1) (b a)) b)` at top level is 1. -/
example (inp : List (List Char)) : ∃ s', eval W (form "let*" [bindings [("a", .num 1), ("b", .atom "a")], .atom "b"]) 0 (topSt (initSt inp) coreEnv) = .ok (.num 1) s' := by
  obtain ⟨r, h1, h2⟩ := C72_let_star (W := W) [.atom "b"] [("a", .num 1), ("b", .atom "a")] (by decide) (coreHere_loaded (initSt inp))
  have hk : ∀ x r, known x = some r → x ≠ "a" := by
    rintro _ r hx rfl
    exact absurd hx (by rw [show known "a" = none by decide +kernel]; simp)
  have hkb : ∀ x r, known x = some r → x ≠ "b" := by
    rintro _ r hx rfl
    exact absurd hx (by rw [show known "b" = none by decide +kernel]; simp)
  have hl := coreHere_loaded (initSt inp)
  generalize topSt (initSt inp) coreEnv = s0 at h1 h2 hl
  have one : ∀ e s, eval W (.num 1) e s = .ok (.num 1) s := fun e s => by rw [eval_eq]; rfl
  cases h1 with
  | stops _ h3 hn => exact absurd ((one _ _).symm.trans h3).symm (hn _ _)
  | @disturbed _ _ _ _ _ _ s1 _ _ q1 h3 hc =>
    injection (one _ _).symm.trans h3 with _ h4
    subst h4
    exact absurd (((hl.mono q1.heap).frame (syms := []) fun _ _ _ => rfl).set hk _ _) hc
  | @bind _ _ _ v _ _ s1 _ _ q1 h3 h5 =>
    injection (one _ _).symm.trans h3 with hv h4
    subst h4 hv
    have hn1 : Nested (heapSet (withScope s1 0).heap s1.heap.length "a" (.num 1)) s1.heap.length :=
      (((hl.mono q1.heap).frame (syms := []) fun _ _ _ => rfl).set hk _ _).2.nested
    have hc1 := ((hl.mono q1.heap).frame (syms := []) fun _ _ _ => rfl).set hk s1.heap.length (.num 1)
    have hla : lookup (heapSet (withScope s1 0).heap s1.heap.length "a" (.num 1)) s1.heap.length "a" = some (.num 1) := by
      have : (heapSet (withScope s1 0).heap s1.heap.length "a" (.num 1))[s1.heap.length]? = some ⟨[("a", .num 1)], some 0⟩ := heapSet_at (f := ⟨[], some 0⟩) (by simp [withScope])
      unfold lookup
      simp [lookupAux, this, alGet]
    have two : ∀ s2, heapSet (withScope s1 0).heap s1.heap.length "a" (.num 1) <+: s2.heap → eval W (.atom "a") s1.heap.length s2 = .ok (.num 1) s2 := fun s2 hp =>
      eval_atom_bound (by decide) (by decide) ((hn1.lookup_prefix hp _).trans hla)
    cases h5 with
    | stops q2 h6 hn => exact absurd ((two _ (q2.trans (Quiet.withScope _ _)).heap).symm.trans h6).symm (hn _ _)
    | @disturbed _ _ _ _ _ _ s2 _ _ q2 h6 hc =>
      injection (two _ (q2.trans (Quiet.withScope _ _)).heap).symm.trans h6 with _ h7
      subst h7
      exact absurd (((hc1.mono q2.heap).frame (syms := []) fun _ _ _ => rfl).set hkb _ _) hc
    | @bind _ _ _ _ _ _ s2 _ _ q2 h6 h8 =>
      injection (two _ (q2.trans (Quiet.withScope _ _)).heap).symm.trans h6 with hv h7
      subst h7 hv
      cases h8 with
      | @body _ _ s3 q3 =>
        have hc2 := ((hc1.mono q2.heap).frame (syms := []) fun _ _ _ => rfl).set hkb s2.heap.length (.num 1)
        have hlb : lookup (heapSet (withScope s2 s1.heap.length).heap s2.heap.length "b" (.num 1)) s2.heap.length "b" = some (.num 1) := by
          have : (heapSet (withScope s2 s1.heap.length).heap s2.heap.length "b" (.num 1))[s2.heap.length]? = some ⟨[("b", .num 1)], some s1.heap.length⟩ := heapSet_at (f := ⟨[], some s1.heap.length⟩) (by simp [withScope])
          unfold lookup
          simp [lookupAux, this, alGet]
        have hb : inOrder W s3.heap.length [.atom "b"] (withScope s3 s2.heap.length) = .ok (.num 1) (withScope s3 s2.heap.length) := by
          show eval W (.atom "b") _ _ = _
          refine eval_atom_bound (by decide) (by decide) ?_
          rw [lookup_withScope (hc2.2.nested.mono q3.heap), hc2.2.nested.lookup_prefix q3.heap]
          exact hlb
        rw [hb] at h2
        rcases h2 with h2 | ⟨_, _, _, h2, _⟩
        · exact ⟨_, h2⟩
        · cases h2

/-- `(randigits 2)` at top level. -/
example (inp : List (List Char)) : ∃ s', eval W (form "randigits" [.num 2]) 0 (topSt (initSt inp) coreEnv) =
    .ok (vlist [.num ((W.rand 0 % 10 : Nat) : Int), .num ((W.rand 1 % 10 : Nat) : Int)]) s' ∧ s'.tick = 2 := by
  obtain ⟨s', h1, h2⟩ := C72_randigits (W := W) (coreAt_loaded (initSt inp)) 2 0 [.num 2] _ ((coreAt_loaded _).sees _ _ (by decide +kernel)) (.cons (by rw [eval_eq]; rfl) .nil)
  exact ⟨s', h1, h2.tick⟩

end L1
