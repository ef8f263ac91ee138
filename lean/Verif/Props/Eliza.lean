import Verif.Lemmas.ElizaTests
/-
C88: examples/eliza.l1.
-/
set_option autoImplicit false
namespace L1

variable {W : World}

/-- C88: the forms of examples/eliza.l1: the first ones define its functions and rules and do nothing else; then the program tests itself, with success, taking one random number;
the last form is `(eliza)`. -/
theorem C88_definitions (s : St) (hc : CoreAt s.heap 0) (h1 : lookup s.heap 0 "caar" = none) (h2 : lookup s.heap 0 "cddr" = none) (h3 : lookup s.heap 0 "SPACE" = some (.atom " ")) :
    ∃ defs tests, readText elizaText = .ok (defs ++ tests ++ [form "eliza" []]) ∧
      ∃ vs s1, EvalsTo W 0 defs s vs s1 ∧ ElAt s1.heap ∧ Wrote s s1 [] ∧
      ∃ ws s2, EvalsTo W 0 tests s1 ws s2 ∧ ElAt s2.heap ∧ s2.out = s.out ++ elizaTestText ∧ s2.inp = s.inp ∧ s2.tick = s.tick + 1 ∧ s2.screen = s.screen := by
  obtain ⟨vs, s1, e1, p1, w1⟩ := el_defs.evals (W := W) s ⟨⟨hc, fun x v h => by
    rw [alGet] at h
    split at h
    · next hx => subst hx; cases h; exact h3
    · cases h⟩, h1, h2⟩
  obtain ⟨ws, s2, e2, p2, o2, i2, t2, n2⟩ := el_tests.evals (W := W) s1 p1.elAt
  refine ⟨elizaForms.take 28, (elizaForms.drop 28).take 10, read_eliza.trans rfl, vs, s1, e1, p1.elAt, w1, ws, s2, e2, p2, ?_, i2.trans w1.inp, by rw [t2, w1.tick], n2.trans w1.screen⟩
  rw [o2, w1.out, List.append_nil]

/-- There are states with the definitions of the script. -/
theorem el_exists (W : World) : ∃ s : St, ElAt s.heap := by
  obtain ⟨_, _, _, _, s1, _, h, _⟩ := C88_definitions (W := W) (topSt (initSt []) coreEnv) (coreAt_loaded _) (by decide +kernel) (by decide +kernel) (by decide +kernel)
  exact ⟨s1, h⟩

example (W : World) : ∃ s : St, ElAt s.heap := el_exists W

theorem call_el {s0 s : St} {e : Nat} {args vs : List Val} {name : String} {f : Val} (hs : ElAt s.heap) (hf : alGet name elizaDefs = some f)
    (hm : (f.notMacro && (specialOf name).isNone && !isCxr name && name != "t") = true) (hl : lookup s0.heap e name = lookup s.heap 0 name) (ha : EvalsTo W e args s0 vs s) :
    eval W (form name args) e s0 = callFn W f vs e s := by
  simp only [Bool.and_eq_true, Option.isNone_iff_eq_none, Bool.not_eq_true', bne_iff_ne] at hm
  have hl' : lookup s0.heap e name = some f := hl.trans (hs.prog.binds _ _ hf)
  refine eval_reaches (callHead_of hm.1.1.2 fun ps r b dc env he => ?_) ⟨s0, eval_atom_bound hm.1.2 hm.2 hl', ha⟩
  rw [hl'] at he
  cases he
  have := hm.1.1.1
  cases this

/-- C88: `(pat-match pattern input bindings)` returns the first way in which the pattern fits the input, or `()` if there is none. -/
theorem C88_match {ps : List Piece} (hsep : Separate ps) {xs : List Val} (hf : Fit ps xs) (b : Named) (e : Nat) (args : List Val) (s0 s : St)
    (hl : lookup s0.heap e "pat-match" = lookup s.heap 0 "pat-match") (ha : EvalsTo W e args s0 [patVal ps, vlist xs, b.val] s) (hs : ElAt s.heap) :
    ∃ s', eval W (form "pat-match" args) e s0 = .ok (fitVal (fits ps xs b)) s' ∧ Quiet s s' := by
  rw [call_el hs (f := z_pat_match) rfl rfl hl ha]
  obtain ⟨s', h1, h2⟩ := matches_all (W := W) ps hsep xs b hs hf s e (.refl _)
  exact ⟨s', h1, h2⟩

/-- `(pat-match '((?* ?p) need (?* ?x)) '(we need rest) no-bindings)` is `((?x rest) (?p we))`. -/
example (s : St) (hs : ElAt s.heap) : ∃ s', eval W (form "pat-match" [form "quote" [patVal [.many "?p", .word "need", .many "?x"]], form "quote" [vlist [.atom "we", .atom "need", .atom "rest"]], .atom "no-bindings"]) 0 s
    = .ok (vlist [vlist [.atom "?x", .atom "rest"], vlist [.atom "?p", .atom "we"]]) s' ∧ Quiet s s' := by
  obtain ⟨s1, e1, q1⟩ := el_quote (W := W) hs (patVal [.many "?p", .word "need", .many "?x"]) s (.refl _)
  obtain ⟨s2, e2, q2⟩ := el_quote (W := W) (hs.mono q1.heap) (vlist [.atom "we", .atom "need", .atom "rest"]) s1 (.refl _)
  obtain ⟨s3, e3, q3⟩ := el_no (W := W) (hs.mono (q1.trans q2).heap) s2 (.refl _)
  have q := (q1.trans q2).trans q3
  have hs3 := hs.mono q.heap
  obtain ⟨s4, h4, q4⟩ := C88_match (W := W) (ps := [.many "?p", .word "need", .many "?x"]) (by simp [Separate]) (fit_words _ (xs := [.atom "we", .atom "need", .atom "rest"]) rfl) [] 0 _ s s3
    ((hs.prog.binds "pat-match" _ rfl).trans (hs3.prog.binds "pat-match" _ rfl).symm) (.cons e1 (.cons e2 (.cons e3 .nil))) hs3
  exact ⟨s4, h4, q.trans q4⟩

/-! ### What fits -/

theorem add_some {b b' : Named} {v : String} {xs : List Val} (h : b.add v xs = some b') : b'.at v = xs ∧ b'.lookup v ≠ none ∧ ∀ w ys, b.lookup w = some ys → b'.lookup w = some ys := by
  unfold Named.add at h
  split at h
  · next hn =>
    cases h
    refine ⟨by simp [Named.at, List.lookup], by simp [List.lookup], fun w ys hw => ?_⟩
    rw [List.lookup]
    split
    · next hwv => rw [beq_iff_eq.1 hwv, hn] at hw; cases hw
    · exact hw
  · next zs hn =>
    split at h
    · next hz => cases h; subst hz; exact ⟨by simp [Named.at, hn], by simp [hn], fun _ _ h => h⟩
    · cases h

theorem fits_sound {ps : List Piece} : ∀ {xs : List Val} {b b' : Named}, b' ∈ fits ps xs b → filled b'.at ps = xs ∧ ∀ w ys, b.lookup w = some ys → b'.lookup w = some ys := by
  induction ps with
  | nil =>
    intro xs b b' h
    cases xs with
    | nil => rw [fits, List.mem_singleton] at h; subst h; exact ⟨rfl, fun _ _ h => h⟩
    | cons => rw [fits] at h; cases h
  | cons p ps ih =>
    intro xs b b' h
    cases p with
    | word a =>
      cases xs with
      | nil => rw [fits] at h; cases h
      | cons x xs =>
        rw [fits] at h
        split at h
        · next hx =>
          subst hx
          obtain ⟨h1, h2⟩ := ih h
          exact ⟨by simpa [filled] using h1, h2⟩
        · cases h
    | many v =>
      rw [fits] at h
      obtain ⟨n, _, h⟩ := List.mem_flatMap.1 h
      split at h
      · cases h
      · next b1 hb =>
        obtain ⟨h1, h2⟩ := ih h
        obtain ⟨h3, h4, h5⟩ := add_some hb
        refine ⟨?_, fun w ys hw => h2 w ys (h5 w ys hw)⟩
        have h6 : b'.at v = xs.take n := by
          obtain ⟨zs, hz⟩ := Option.ne_none_iff_exists'.1 h4
          have : b1.at v = zs := by simp [Named.at, hz]
          rw [Named.at, h2 v zs hz, ← h3, this]; rfl
        show b'.at v ++ filled b'.at ps = xs
        rw [h6, h1, List.take_append_drop]

theorem fits_complete {σ : String → List Val} {ps : List Piece} : ∀ {b : Named}, (∀ w ys, b.lookup w = some ys → ys = σ w) → fits ps (filled σ ps) b ≠ [] := by
  induction ps with
  | nil => intro b _; simp [filled, fits]
  | cons p ps ih =>
    intro b hb
    cases p with
    | word a =>
      show fits (.word a :: ps) (.atom a :: filled σ ps) b ≠ []
      rw [fits, if_pos rfl]
      exact ih hb
    | many v =>
      show fits (.many v :: ps) (σ v ++ filled σ ps) b ≠ []
      rw [fits]
      intro h
      have h1 := List.flatMap_eq_nil_iff.1 h (σ v).length (by simp)
      rw [List.take_left, List.drop_left] at h1
      cases hn : b.lookup v with
      | none =>
        rw [show b.add v (σ v) = some ((v, σ v) :: b) by unfold Named.add; rw [hn]] at h1
        refine ih (b := (v, σ v) :: b) (fun w ys hw => ?_) h1
        rw [List.lookup] at hw
        split at hw
        · next hwv => cases hw; rw [beq_iff_eq.1 hwv]
        · exact hb w ys hw
      | some ys =>
        rw [show b.add v (σ v) = some b by unfold Named.add; rw [hn]; simp [hb v ys hn]] at h1
        exact ih hb h1

/-- C88: what `pat-match` returns does fit: with the names replaced by what they are said to stand for, the pattern is the input; and if there is any way to replace the names such
that the pattern is the input, it does not return `()`. -/
theorem C88_fits (ps : List Piece) (xs : List Val) :
    (∀ b, b ∈ fits ps xs [] → filled b.at ps = xs) ∧ ((∃ b, fitVal (fits ps xs []) = Named.val b ∧ b ∈ fits ps xs []) ↔ ∃ σ, filled σ ps = xs) ∧
    (fitVal (fits ps xs []) = .nil ↔ ∀ σ, filled σ ps ≠ xs) := by
  have key : (∃ σ, filled σ ps = xs) ↔ fits ps xs [] ≠ [] := by
    constructor
    · rintro ⟨σ, rfl⟩
      exact fits_complete fun w ys h => by cases h
    · intro h
      obtain ⟨b, hb⟩ := List.exists_mem_of_ne_nil _ h
      exact ⟨_, (fits_sound hb).1⟩
  refine ⟨fun b hb => (fits_sound hb).1, ?_, ?_⟩
  · rw [key]
    constructor
    · rintro ⟨b, _, h⟩ h'
      rw [h'] at h; cases h
    · intro h
      cases hf : fits ps xs [] with
      | nil => exact absurd hf h
      | cons b l => exact ⟨b, rfl, by simp⟩
  · constructor
    · intro h σ hσ
      exact key.1 ⟨σ, hσ⟩ (fitVal_nil h)
    · intro h
      have : fits ps xs [] = [] := by
        by_contra hne
        obtain ⟨σ, hσ⟩ := key.2 hne
        exact h σ hσ
      rw [this]; rfl

example : filled (fun v => if v = "?p" then [.atom "we"] else [.atom "rest"]) [.many "?p", .word "need", .many "?x"] = [.atom "we", .atom "need", .atom "rest"] := by decide

/-! ### Answers and conversations -/

/-- C88: `(use-eliza-rules sentence)`: its words are the answer to the sentence; one random number is taken. -/
theorem C88_answer {xs : List Val} (hx : Spoken xs) (e : Nat) (args : List Val) (s0 s : St) (hl : lookup s0.heap e "use-eliza-rules" = lookup s.heap 0 "use-eliza-rules")
    (ha : EvalsTo W e args s0 [vlist xs] s) (hs : ElAt s.heap) :
    ∃ v s', eval W (form "use-eliza-rules" args) e s0 = .ok v s' ∧ leaves v = elizaAnswer xs (W.rand s.tick) ∧ Draws 1 s s' := by
  rw [call_el hs (f := z_use_eliza_rules) rfl rfl hl ha]
  obtain ⟨v, s', h1, h2, h3⟩ := el_use_rules (W := W) hs hx e
  exact ⟨v, s', h1, h3, h2⟩

/-- `(use-eliza-rules '(I feel sad))`. -/
example (s : St) (hs : ElAt s.heap) : ∃ v s', eval W (form "use-eliza-rules" [form "quote" [vlist [.atom "I", .atom "feel", .atom "sad"]]]) 0 s = .ok v s' ∧
    leaves v = [.atom "Do", .atom "you", .atom "often", .atom "feel", .atom "sad", .atom "?"] := by
  obtain ⟨s1, e1, q1⟩ := el_quote (W := W) hs (vlist [.atom "I", .atom "feel", .atom "sad"]) s (.refl _)
  have hs1 := hs.mono q1.heap
  obtain ⟨v, s', h1, h2, _⟩ := C88_answer (W := W) (xs := [.atom "I", .atom "feel", .atom "sad"]) (spoken_words rfl) 0 _ s s1 ((hs.prog.binds "use-eliza-rules" _ rfl).trans (hs1.prog.binds "use-eliza-rules" _ rfl).symm)
    (.cons e1 .nil) hs1
  exact ⟨v, s', h1, by rw [h2, feel_sad]⟩

/-- C88: `(eliza)`: for each line of the input, a prompt and a line with the answer are written; at the end of the input the call fails with the error `EOF`; if a line cannot be read, it fails with an error that says so. -/
theorem C88_talk {ls rest : List (List Char)} {xss : List (List Val)} (h : List.Forall₂ (fun l xs => readText l = .ok xs ∧ Spoken xs) ls xss) (e : Nat) (s : St)
    (hl : lookup s.heap e "eliza" = lookup s.heap 0 "eliza") (hs : ElAt s.heap) (hi : s.inp = ls ++ rest) :
    (rest = [] → ∃ s1, eval W (form "eliza" []) e s = .err (.foreign "EOF") s1 ∧ s1.out = s.out ++ (elizaTalk W.rand s.tick xss ++ elizaPrompt) ∧ s1.inp = [] ∧ s1.screen = s.screen) ∧
    (∀ bad later er, rest = bad :: later → readText bad = .err er →
      ∃ fr s1, eval W (form "eliza" []) e s = .err (Err.underAll fr (.list er)) s1 ∧ s1.out = s.out ++ (elizaTalk W.rand s.tick xss ++ elizaPrompt) ∧ s1.inp = later ∧ s1.screen = s.screen) := by
  rw [call_el hs (f := z_eliza) rfl rfl hl .nil]
  exact el_eliza hs h hi e

/-- C88: the script examples/eliza.l1, when all lines of the input can be read: the tests succeed, the lines are answered, and at the end of the input the exit status is 1. -/
theorem C88_script (W : World) (n : Nat) (inp : List (List Char)) (xss : List (List Val)) (h : List.Forall₂ (fun l xs => readText l = .ok xs ∧ Spoken xs) inp xss)
    (f : String) (hf : W.readFile 0 f = .ok elizaText) :
    exitStatus (mainWith W (perform W) n coreText none [f] (initSt inp)) = some 1 ∧
    ∃ s', finalState (mainWith W (perform W) n coreText none [f] (initSt inp)) = some s' ∧ s'.inp = [] ∧
      s'.out = elizaTestText ++ (elizaTalk W.rand 2 xss ++ elizaPrompt) ++ "ERROR:\nEOF\n".toList := by
  have hst : W.readFile (topSt (initSt inp) coreEnv).tick f = .ok elizaText := hf
  obtain ⟨defs, tests, hr, vs, s1, e1, p1, w1, ws, s2, e2, p2, o2, i2, t2, n2⟩ := C88_definitions (W := W) { topSt (initSt inp) coreEnv with tick := 1 } (coreAt_loaded (initSt inp))
    (core_free inp (by decide +kernel)) (core_free inp (by decide +kernel)) (show lookup (topSt (initSt []) coreEnv).heap 0 "SPACE" = _ by decide +kernel)
  obtain ⟨s3, e3, o3, i3, n3⟩ := (C88_talk (W := W) (rest := []) h 0 s2 rfl p2 (by rw [i2, List.append_nil]; rfl)).1 rfl
  have hrun := (C76_script W n inp f [] 1 _).1 (.failed hst (.error (before := defs ++ tests) (later := []) hr (evalsTo_append e1 e2) e3))
  refine ⟨hrun.1, _, hrun.2, i3, ?_⟩
  have ht : s2.tick = 2 := t2
  have ho : s2.out = elizaTestText := by rw [o2]; generalize elizaTestText = u; exact List.nil_append u
  show s3.out ++ ("ERROR:\n".toList ++ "EOF".toList ++ ['\n']) = _
  rw [o3, ho, ht]
  congr 1

/-- The conversation of two lines `hello` and `I feel that you hate me`. -/
example (n : Nat) (f : String) (hf : W.readFile 0 f = .ok elizaText) :
    ∃ s', finalState (mainWith W (perform W) n coreText none [f] (initSt ["hello".toList, "I feel that you hate me".toList])) = some s' ∧
      s'.out = elizaTestText ++ (elizaTalk W.rand 2 [[.atom "hello"], (wordsOf "I feel that you hate me").map .atom] ++ elizaPrompt) ++ "ERROR:\nEOF\n".toList := by
  obtain ⟨_, s', h1, _, h2⟩ := C88_script W n ["hello".toList, "I feel that you hate me".toList] [[.atom "hello"], (wordsOf "I feel that you hate me").map .atom]
    (.cons ⟨by decide +kernel, spoken_words rfl⟩ (.cons ⟨by decide +kernel, spoken_words (by decide +kernel)⟩ .nil)) f hf
  exact ⟨s', h1, h2⟩

end L1
