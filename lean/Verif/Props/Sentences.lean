import Verif.Lemmas.SenScript
/-
C87: examples/sentences.l1.
-/
set_option autoImplicit false
namespace L1

variable {W : World}

/-- C87: the forms of examples/sentences.l1 before the last one define its functions and grammars, and do nothing else. -/
theorem C87_definitions (s : St) (hc : CoreAt s.heap 0) (h1 : lookup s.heap 0 "caar" = none) (h2 : lookup s.heap 0 "cddr" = none) :
    ∃ pre x, readText sentencesText = .ok (pre ++ [x]) ∧ ∃ vs s', EvalsTo W 0 pre s vs s' ∧ SenAt s'.heap ∧ Wrote s s' [] := by
  obtain ⟨vs, s', h3, h4, h5⟩ := sen_defs.evals (W := W) s ⟨⟨hc, fun _ _ h => by cases h⟩, h1, h2⟩
  exact ⟨sentencesForms.take 9, form "dotimes" [.num 10, sayForm], read_sentences.trans rfl, vs, s', h3, h4.senAt, h5⟩

/-- C87: `(generate grammar phrase)`, for any grammar and phrase: it returns the words that the next random numbers choose, and takes those numbers and nothing else
from the outside; if these choices never end (and only then), it does not end. -/
theorem C87_generate {g : Grammar} (hg : g.Ok) {p : Val} (hp : Phrase p) (e : Nat) (args : List Val) (s0 s : St) (hl : lookup s0.heap e "generate" = lookup s.heap 0 "generate")
    (ha : EvalsTo W e args s0 [g.val, p] s) (hs : SenAt s.heap) :
    (∀ ws n, Generates W g s.tick p ws (s.tick + n) ↔ ∃ s', eval W (form "generate" args) e s0 = .ok (wordList ws) s' ∧ Draws n s s') ∧
    ((∀ ws k', ¬ Generates W g s.tick p ws k') ↔ eval W (form "generate" args) e s0 = .oof) := by
  have hl' : lookup s0.heap e "generate" = some s_generate := hl.trans (hs.prog.binds _ _ rfl)
  have hcall : eval W (form "generate" args) e s0 = callFn W s_generate [g.val, p] e s := by
    refine eval_reaches (callHead_of rfl fun ps r b dc env he => ?_) ⟨s0, eval_atom_bound (by decide) (by decide) hl', ha⟩
    rw [hl'] at he
    cases he
  rw [hcall]
  rcases gen_ends (W := W) hg hp hs e with h | ⟨s', n, ws, h, hd, hgen⟩
  · have hno : ∀ ws k', ¬ Generates W g s.tick p ws k' := fun ws k' hgen => by
      obtain ⟨s2, n, h2, _⟩ := sure_gen hg hgen s e hs rfl
      rw [h] at h2; cases h2
    refine ⟨fun ws n => ⟨fun hgen => absurd hgen (hno _ _), ?_⟩, fun _ => h, fun _ => hno⟩
    rintro ⟨s', h', _⟩
    rw [h] at h'; cases h'
  · refine ⟨fun us m => ⟨fun hgen' => ?_, ?_⟩, fun hno => absurd hgen (hno _ _), fun h' => by rw [h] at h'; cases h'⟩
    · obtain ⟨rfl, hk⟩ := hgen.det hgen'
      obtain rfl : n = m := by omega
      exact ⟨s', h, hd⟩
    · rintro ⟨s2, h2, hd2⟩
      rw [h] at h2
      injection h2 with h3 h4
      subst h4
      have : n = m := by have := hd.tick; have := hd2.tick; omega
      subst this
      have hinj : ws.map Val.atom = us.map Val.atom := vlist_inj h3
      have : ws = us := (List.map_inj_right fun _ _ h => by cases h; rfl).1 hinj
      subst this
      exact hgen

/-- There are states with the definitions of the script. -/
example (W : World) : ∃ s : St, SenAt s.heap := by
  obtain ⟨_, _, _, _, s', _, h, _⟩ := C87_definitions (W := W) (topSt (initSt []) coreEnv) (coreAt_loaded _) (by decide +kernel) (by decide +kernel)
  exact ⟨s', h⟩

/-- `(generate '((greeting -> (hello whom)) (whom -> world moon)) 'greeting)` where the second random number is odd: two numbers are taken, and the list `(hello moon)` is returned. -/
example (s : St) (hs : SenAt s.heap) (h : W.rand (s.tick + 1) % 2 = 1) :
    ∃ s', eval W (form "generate" [form "quote" [Grammar.val [("greeting", [vlist [.atom "hello", .atom "whom"]]), ("whom", [.atom "world", .atom "moon"])]], form "quote" [.atom "greeting"]]) 0 s
      = .ok (vlist [.atom "hello", .atom "moon"]) s' ∧ Draws 2 s s' := by
  have hq : ∀ v, eval W (form "quote" [v]) 0 s = .ok v s := fun v => eval_sf W .quote _ 0 _ (hs.prog.core.base.notMacro_sf known_quote) rfl
  refine ((C87_generate (W := W) (g := [("greeting", [vlist [.atom "hello", .atom "whom"]]), ("whom", [.atom "world", .atom "moon"])]) ?_ (.word "greeting") 0 _ s s rfl
    (.cons (hq _) (.cons (hq _) .nil)) hs).1 ["hello", "moon"] 2).1 ?_
  · intro r hr
    simp only [List.mem_cons, List.not_mem_nil, or_false] at hr
    rcases hr with rfl | rfl <;> refine ⟨by decide, fun x hx => ?_⟩ <;> simp only [List.mem_cons, List.not_mem_nil, or_false] at hx
    · subst hx
      exact .list _ fun x hx => by
        simp only [List.mem_cons, List.not_mem_nil, or_false] at hx
        rcases hx with rfl | rfl <;> exact .word _
    · rcases hx with rfl | rfl <;> exact .word _
  · refine .choice (x := vlist [.atom "hello", .atom "whom"]) (by simp [Grammar.choices, Nat.mod_one]) ?_
    refine .cons (us := ["hello"]) (ws := ["moon"]) (.word rfl) (.cons (us := ["moon"]) (ws := []) (.choice (x := .atom "moon") ?_ (.word rfl)) .nil)
    simp [Grammar.choices, h]

/-- C87: the words that random numbers can choose are those that can be derived from the phrase: all that is generated is in the language, and all of the language can be
generated. -/
theorem C87_language (W : World) (g : Grammar) (p : Val) (ws : List String) (k : Nat) :
    Derives g p ws ↔ ∃ (rand : Nat → Nat) (k' : Nat), (∀ i < k, rand i = W.rand i) ∧ Generates { W with rand := rand } g k p ws k' := by
  constructor
  · intro h
    obtain ⟨l, hl⟩ := h.generates
    refine ⟨fun i => if i < k then W.rand i else l.getD (i - k) 0, k + l.length, fun i hi => if_pos hi, hl { W with rand := _ } k fun i _ => ?_⟩
    show (if k + i < k then _ else _) = _
    rw [if_neg (by omega), Nat.add_sub_cancel_left]
  · rintro ⟨rand, k', _, h⟩
    exact h.derives

/-- The words of the simple grammar. -/
def articles : List String := ["the", "a"]
def nouns : List String := ["man", "ball", "woman", "table"]
def verbs : List String := ["hit", "took", "saw", "liked"]

theorem simple_leaf {a : String} {l : List String} (h : simpleGrammar.choices a = l.map .atom) (hn : l ≠ []) (hl : ∀ w ∈ l, simpleGrammar.choices w = []) {ws : List String} :
    Derives simpleGrammar (.atom a) ws ↔ ∃ w ∈ l, ws = [w] := by
  rw [derives_cat (by rw [h]; simpa using hn), h]
  constructor
  · rintro ⟨x, hx, hd⟩
    obtain ⟨w, hw, rfl⟩ := List.mem_map.1 hx
    exact ⟨w, hw, (derives_word (hl w hw)).1 hd⟩
  · rintro ⟨w, hw, rfl⟩
    exact ⟨.atom w, List.mem_map_of_mem hw, .word (hl w hw)⟩

theorem simple_pair {a b c : String} (h : simpleGrammar.choices a = [vlist [.atom b, .atom c]]) {ws : List String} :
    Derives simpleGrammar (.atom a) ws ↔ ∃ us vs, ws = us ++ vs ∧ Derives simpleGrammar (.atom b) us ∧ Derives simpleGrammar (.atom c) vs := by
  rw [derives_cat (by rw [h]; simp), h]
  simp only [List.mem_singleton, exists_eq_left]
  rw [derives_cons]
  constructor
  · rintro ⟨us, vs, rfl, h1, h2⟩
    rw [derives_cons] at h2
    obtain ⟨xs, ys, rfl, h3, h4⟩ := h2
    rw [derives_nil.1 h4, List.append_nil]
    exact ⟨us, xs, rfl, h1, h3⟩
  · rintro ⟨us, vs, rfl, h1, h2⟩
    exact ⟨us, vs, rfl, h1, derives_cons.2 ⟨vs, [], by simp, h2, .nil⟩⟩

/-- C87: the sentences of the simple grammar are those of the form: article, noun, verb, article, noun. -/
theorem C87_simple (ws : List String) : Derives simpleGrammar (.atom "sentence") ws ↔
    ∃ a ∈ articles, ∃ n ∈ nouns, ∃ v ∈ verbs, ∃ a' ∈ articles, ∃ n' ∈ nouns, ws = [a, n, v, a', n'] := by
  have ha : ∀ {ws : List String}, Derives simpleGrammar (.atom "Article") ws ↔ ∃ w ∈ articles, ws = [w] := simple_leaf (by decide +kernel) (by decide) (by decide +kernel)
  have hn : ∀ {ws : List String}, Derives simpleGrammar (.atom "Noun") ws ↔ ∃ w ∈ nouns, ws = [w] := simple_leaf (by decide +kernel) (by decide) (by decide +kernel)
  have hv : ∀ {ws : List String}, Derives simpleGrammar (.atom "Verb") ws ↔ ∃ w ∈ verbs, ws = [w] := simple_leaf (by decide +kernel) (by decide) (by decide +kernel)
  have hnp : ∀ {ws : List String}, Derives simpleGrammar (.atom "noun-phrase") ws ↔ ∃ a ∈ articles, ∃ n ∈ nouns, ws = [a, n] := fun {ws} => by
    rw [simple_pair (b := "Article") (c := "Noun") (by decide +kernel)]
    constructor
    · rintro ⟨us, vs, rfl, h1, h2⟩
      obtain ⟨a, h3, rfl⟩ := ha.1 h1
      obtain ⟨n, h4, rfl⟩ := hn.1 h2
      exact ⟨a, h3, n, h4, rfl⟩
    · rintro ⟨a, h3, n, h4, rfl⟩
      exact ⟨[a], [n], rfl, ha.2 ⟨a, h3, rfl⟩, hn.2 ⟨n, h4, rfl⟩⟩
  have hvp : ∀ {ws : List String}, Derives simpleGrammar (.atom "verb-phrase") ws ↔ ∃ v ∈ verbs, ∃ a ∈ articles, ∃ n ∈ nouns, ws = [v, a, n] := fun {ws} => by
    rw [simple_pair (b := "Verb") (c := "noun-phrase") (by decide +kernel)]
    constructor
    · rintro ⟨us, vs, rfl, h1, h2⟩
      obtain ⟨v, h3, rfl⟩ := hv.1 h1
      obtain ⟨a, h4, n, h5, rfl⟩ := hnp.1 h2
      exact ⟨v, h3, a, h4, n, h5, rfl⟩
    · rintro ⟨v, h3, a, h4, n, h5, rfl⟩
      exact ⟨[v], [a, n], rfl, hv.2 ⟨v, h3, rfl⟩, hnp.2 ⟨a, h4, n, h5, rfl⟩⟩
  rw [simple_pair (b := "noun-phrase") (c := "verb-phrase") (by decide +kernel)]
  constructor
  · rintro ⟨us, vs, rfl, h1, h2⟩
    obtain ⟨a, h3, n, h4, rfl⟩ := hnp.1 h1
    obtain ⟨v, h5, a', h6, n', h7, rfl⟩ := hvp.1 h2
    exact ⟨a, h3, n, h4, v, h5, a', h6, n', h7, rfl⟩
  · rintro ⟨a, h3, n, h4, v, h5, a', h6, n', h7, rfl⟩
    exact ⟨[a, n], [v, a', n'], rfl, hnp.2 ⟨a, h3, n, h4, rfl⟩, hvp.2 ⟨v, h5, a', h6, n', h7, rfl⟩⟩

/-- `the man saw a ball`. -/
example : Derives simpleGrammar (.atom "sentence") ["the", "man", "saw", "a", "ball"] :=
  (C87_simple _).2 ⟨"the", by decide, "man", by decide, "saw", by decide, "a", by decide, "ball", by decide, rfl⟩

/-- `saw the man a ball` is not a sentence of the simple grammar. -/
example : ¬ Derives simpleGrammar (.atom "sentence") ["saw", "the", "man", "a", "ball"] := fun h => by
  obtain ⟨a, h1, n, _, v, _, a', _, n', _, h⟩ := (C87_simple _).1 h
  cases h
  exact absurd h1 (by decide)

/-- C87: with the simple grammar `generate` always ends, whatever the random numbers: nine of them are taken for a sentence. -/
theorem C87_simple_ends (W : World) (k : Nat) : ∃ ws, Generates W simpleGrammar k (.atom "sentence") ws (k + 9) := by
  have leaf : ∀ (a : String) (l : List String), simpleGrammar.choices a = l.map .atom → l ≠ [] → (∀ w ∈ l, simpleGrammar.choices w = []) →
      ∀ k, ∃ ws, Generates W simpleGrammar k (.atom a) ws (k + 1) := by
    intro a l h hn hl k
    have hlt : W.rand k % (simpleGrammar.choices a).length < (simpleGrammar.choices a).length := Nat.mod_lt _ (by rw [h, List.length_map]; exact List.length_pos_iff.2 hn)
    obtain ⟨x, hx, hm⟩ : ∃ x, (simpleGrammar.choices a)[W.rand k % (simpleGrammar.choices a).length]? = some x ∧ x ∈ simpleGrammar.choices a :=
      ⟨_, List.getElem?_eq_getElem hlt, List.getElem_mem hlt⟩
    rw [h] at hm
    obtain ⟨w, hw, rfl⟩ := List.mem_map.1 hm
    exact ⟨[w], .choice hx (.word (hl w hw))⟩
  have pair : ∀ (a b c : String) (m n : Nat), simpleGrammar.choices a = [vlist [.atom b, .atom c]] → (∀ k, ∃ ws, Generates W simpleGrammar k (.atom b) ws (k + m)) →
      (∀ k, ∃ ws, Generates W simpleGrammar k (.atom c) ws (k + n)) → ∀ k, ∃ ws, Generates W simpleGrammar k (.atom a) ws (k + (1 + m + n)) := by
    intro a b c m n h hb hc k
    obtain ⟨us, h1⟩ := hb (k + 1)
    obtain ⟨vs, h2⟩ := hc (k + 1 + m)
    refine ⟨us ++ (vs ++ []), .choice (x := vlist [.atom b, .atom c]) ?_ ?_⟩
    · rw [h]; simp [Nat.mod_one]
    · rw [show k + (1 + m + n) = k + 1 + m + n by omega]
      exact .cons h1 (.cons h2 .nil)
  have ha := leaf "Article" articles (by decide +kernel) (by decide) (by decide +kernel)
  have hn := leaf "Noun" nouns (by decide +kernel) (by decide) (by decide +kernel)
  have hv := leaf "Verb" verbs (by decide +kernel) (by decide) (by decide +kernel)
  have hnp := pair "noun-phrase" "Article" "Noun" 1 1 (by decide +kernel) ha hn
  have hvp := pair "verb-phrase" "Verb" "noun-phrase" 1 3 (by decide +kernel) hv hnp
  exact pair "sentence" "noun-phrase" "verb-phrase" 3 5 (by decide +kernel) hnp hvp k

/-- C87: with the bigger grammar it need not end: it does not if all the random numbers are 1. -/
theorem C87_bigger_endless (W : World) (h1 : ∀ k, W.rand k = 1) (k : Nat) (ws : List String) (k' : Nat) : ¬ Generates W biggerGrammar k (.atom "sentence") ws k' := fun h => by
  have := not_generates (S := ["sentence", "verb-phrase", "PP*"]) (fun a ha k => by
    rw [h1]
    have : ∀ a ∈ ["sentence", "verb-phrase", "PP*"], ((biggerGrammar.choices a)[1 % (biggerGrammar.choices a).length]?).any (mentions ["sentence", "verb-phrase", "PP*"]) = true := by decide +kernel
    have := this a ha
    revert this
    cases (biggerGrammar.choices a)[1 % (biggerGrammar.choices a).length]? <;> simp) h
  exact absurd this (by decide)

theorem evalsTo_append {e : Nat} {xs ys vs ws : List Val} {s s1 s2 : St} (h : EvalsTo W e xs s vs s1) (h' : EvalsTo W e ys s1 ws s2) : EvalsTo W e (xs ++ ys) s (vs ++ ws) s2 := by
  induction h with
  | nil => exact h'
  | cons h1 _ ih => exact .cons h1 (ih h')

/-- Forms of which the last one does not end. -/
theorem stuck {e : Nat} {pre before later vs vs' : List Val} {y x : Val} {s s1 s2 : St} (h : EvalsTo W e pre s vs s1) (hy : eval W y e s1 = .oof)
    (h' : EvalsTo W e before s vs' s2) (hx : before ++ x :: later = pre ++ [y]) : eval W x e s2 = .oof ∨ ∃ v s3, eval W x e s2 = .ok v s3 := by
  induction h generalizing before vs' with
  | nil =>
    cases h' with
    | nil => cases hx; exact .inl hy
    | cons h1 h2 =>
      simp only [List.cons_append, List.nil_append, List.cons.injEq] at hx
      exact absurd hx.2 (by simp)
  | cons h1 _ ih =>
    cases h' with
    | nil => cases hx; exact .inr ⟨_, _, h1⟩
    | cons h3 h4 =>
      simp only [List.cons_append, List.cons.injEq] at hx
      obtain ⟨rfl, hx⟩ := hx
      rw [h1] at h3
      cases h3
      exact ih hy h4 hx

theorem evalsTo_split {e : Nat} {xs ys vs : List Val} {s s' : St} (h : EvalsTo W e (xs ++ ys) s vs s') : ∃ vs1 vs2 s1, EvalsTo W e xs s vs1 s1 ∧ EvalsTo W e ys s1 vs2 s' := by
  induction xs generalizing s vs with
  | nil => exact ⟨[], vs, s, .nil, h⟩
  | cons x xs ih =>
    cases h with
    | cons h1 h2 =>
      obtain ⟨vs1, vs2, s1, h3, h4⟩ := ih h2
      exact ⟨_, vs2, s1, .cons h1 h3, h4⟩

theorem stuck_text {text : List Char} {pre vs : List Val} {y : Val} {s s1 : St} (hr : readText text = .ok (pre ++ [y])) (h : EvalsTo W 0 pre s vs s1) (hy : eval W y 0 s1 = .oof)
    (en : Ending) (s' : St) : ¬ TextRun W text s en s' := by
  intro hrun
  cases hrun with
  | syntaxError h1 => rw [hr] at h1; cases h1
  | readerPanic h1 => rw [hr] at h1; cases h1
  | finished h1 h2 =>
    rw [hr] at h1; cases h1
    have h3 := fun vs' s2 (hb : EvalsTo W 0 pre s vs' s2) => evalsTo_fun h hb
    obtain ⟨vs1, vs2, s2, h4, h5⟩ := evalsTo_split h2
    cases h3 _ _ h4
    cases h5 with
    | cons h6 _ => rw [hy] at h6; cases h6
  | error h1 h2 h3 =>
    rw [hr] at h1; injection h1 with h1
    rcases stuck h hy h2 h1.symm with h4 | ⟨_, _, h4⟩ <;> rw [h4] at h3 <;> cases h3
  | exit h1 h2 h3 =>
    rw [hr] at h1; injection h1 with h1
    rcases stuck h hy h2 h1.symm with h4 | ⟨_, _, h4⟩ <;> rw [h4] at h3 <;> cases h3
  | panic h1 h2 h3 =>
    rw [hr] at h1; injection h1 with h1
    rcases stuck h hy h2 h1.symm with h4 | ⟨_, _, h4⟩ <;> rw [h4] at h3 <;> cases h3

/-- Running the whole of examples/sentences.l1. -/
theorem sentences_text (s : St) (hc : CoreAt s.heap 0) (h1 : lookup s.heap 0 "caar" = none) (h2 : lookup s.heap 0 "cddr" = none) :
    ((∀ en s', ¬ TextRun W sentencesText s en s') ∧ ∀ wss k', wss.length = 10 → ¬ Speaks W s.tick wss k') ∨
    ∃ wss s', wss.length = 10 ∧ TextRun W sentencesText s .finished s' ∧ Speaks W s.tick wss s'.tick ∧ s'.out = s.out ++ (wss.map sentenceLine).flatten ∧ s'.inp = s.inp ∧ s'.screen = s.screen := by
  obtain ⟨vs, s1, h3, h4, h5⟩ := sen_defs.evals (W := W) s ⟨⟨hc, fun _ _ h => by cases h⟩, h1, h2⟩
  have hr : readText sentencesText = .ok (sentencesForms.take 9 ++ [form "dotimes" [.num 10, sayForm]]) := read_sentences.trans rfl
  have ht : s1.tick = s.tick := h5.tick
  rcases speak_run (W := W) h4.senAt 10 with ⟨h6, h7⟩ | ⟨wss, s', h6, h7, h8, h9, h10, h11⟩
  · refine .inl ⟨stuck_text hr h3 h6, fun wss k' hw => by rw [← ht]; exact h7 wss k' hw⟩
  · refine .inr ⟨wss, s', h6, .finished hr (evalsTo_append h3 (.cons h7 .nil)), by rw [← ht]; exact h8, ?_, h10.trans h5.inp, h11.trans h5.screen⟩
    rw [h9, h5.out]; simp

/-- What the core library does not define is not defined in the state after it was loaded. -/
theorem core_free (inp : List (List Char)) {x : String} (h : lookup (topSt (initSt []) coreEnv).heap 0 x = none) :
    lookup { topSt (initSt inp) coreEnv with tick := 1 }.heap 0 x = none := h

/-- C87: the script examples/sentences.l1.  If ten sentences are chosen by the random numbers, these are written, one on each line, and the exit status is 0; otherwise the
script does not end. -/
theorem C87_script (W : World) (n : Nat) (inp : List (List Char)) (f : String) (hf : W.readFile 0 f = .ok sentencesText) :
    (∀ wss k', wss.length = 10 → Speaks W 1 wss k' →
      exitStatus (mainWith W (perform W) n coreText none [f] (initSt inp)) = some 0 ∧
      ∃ s', finalState (mainWith W (perform W) n coreText none [f] (initSt inp)) = some s' ∧ s'.out = (wss.map sentenceLine).flatten ∧ s'.inp = inp) ∧
    (∀ c s', exitStatus (mainWith W (perform W) n coreText none [f] (initSt inp)) = some c →
      finalState (mainWith W (perform W) n coreText none [f] (initSt inp)) = some s' →
      ∃ wss k', wss.length = 10 ∧ Speaks W 1 wss k') := by
  have hst : W.readFile (topSt (initSt inp) coreEnv).tick f = .ok sentencesText := hf
  rcases sentences_text (W := W) { topSt (initSt inp) coreEnv with tick := 1 } (coreAt_loaded (initSt inp)) (core_free inp (by decide +kernel)) (core_free inp (by decide +kernel)) with ⟨h1, h2⟩ | ⟨wss, s', h1, h2, h3, h4, h5, h6⟩
  · refine ⟨fun wss k' hw hs => absurd hs (h2 wss k' hw), fun c s' hc hs => ?_⟩
    have hrun := (C76_script W n inp f [] c s').2 ⟨hc, hs⟩
    exfalso
    cases hrun with
    | unreadable h => rw [hst] at h; cases h
    | next h h7 _ => rw [hst] at h; cases h; exact h1 _ _ h7
    | failed h h7 => rw [hst] at h; cases h; exact h1 _ _ h7
    | stopped h h7 => rw [hst] at h; cases h; exact h1 _ _ h7
  · refine ⟨fun wss' k' hw hs => ?_, fun c s' hc hs => ⟨wss, _, h1, h3⟩⟩
    have : wss = wss' := Speaks.det (h1.trans hw.symm) h3 hs
    subst this
    obtain ⟨h7, h8⟩ := (C76_script W n inp f [] 0 s').1 (.next hst h2 .done)
    exact ⟨h7, s', h8, by rw [h4]; rfl, h5⟩

theorem speaks_simple (h : ∀ k, W.rand k % 2 = 0) (n k : Nat) : ∃ wss k', wss.length = n ∧ Speaks W k wss k' := by
  induction n generalizing k with
  | zero => exact ⟨[], k, rfl, .nil⟩
  | succ n ih =>
    obtain ⟨ws, h1⟩ := C87_simple_ends W (k + 1)
    obtain ⟨wss, k', h2, h3⟩ := ih (k + 1 + 9)
    refine ⟨ws :: wss, k', by simp [h2], .cons ?_ h3⟩
    rw [grammarAt, if_pos (h k)]
    exact h1

/-- When all random numbers are even, the script ends, with exit status 0 and ten lines. -/
example (n : Nat) (inp : List (List Char)) (f : String) (hf : W.readFile 0 f = .ok sentencesText) (h : ∀ k, W.rand k % 2 = 0) :
    exitStatus (mainWith W (perform W) n coreText none [f] (initSt inp)) = some 0 := by
  obtain ⟨wss, k', h1, h2⟩ := speaks_simple h 10 1
  exact ((C87_script W n inp f hf).1 wss k' h1 h2).1

/-- C87: the ten lines are sentences of one of the two grammars. -/
theorem C87_lines (W : World) (k k' : Nat) (wss : List (List String)) (h : Speaks W k wss k') :
    ∀ ws ∈ wss, Derives simpleGrammar (.atom "sentence") ws ∨ Derives biggerGrammar (.atom "sentence") ws := by
  induction h with
  | nil => simp
  | cons h1 _ ih =>
    intro ws hw
    rcases List.mem_cons.1 hw with rfl | hw
    · have := h1.derives
      unfold grammarAt at this
      split at this
      · exact .inl this
      · exact .inr this
    · exact ih ws hw

example : sentenceLine ["the", "man", "saw", "a", "ball"] = "The man saw a ball.\n".toList := by decide

end L1
