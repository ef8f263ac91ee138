import Verif.Lemmas.SenWords
import Verif.Lemmas.Turns
import Verif.Props.Programs
/-
The program examples/sentences.l1.
-/
set_option autoImplicit false
namespace L1

variable {W : World}

set_option maxRecDepth 100000 in
theorem read_sentences : readText sentencesText = .ok sentencesForms := by decide +kernel

/-! ### Definitions -/

/-- The definitions `U` are in place, and `caar` and `cddr` are not redefined. -/
structure SenPre (h : Heap) (U : List (String × Val)) : Prop where
  prog : Prog h U
  caar : lookup h 0 "caar" = none
  cddr : lookup h 0 "cddr" = none

theorem SenPre.set {s : St} {U : List (String × Val)} (hp : SenPre s.heap U) {name : String} (f : Val) (hk : known name = none) (h1 : name ≠ "caar") (h2 : name ≠ "cddr") :
    SenPre (heapSet s.heap 0 name f) ((name, f) :: U) := by
  have hkn : ∀ x r, known x = some r → x ≠ name := fun x r h hx => by rw [hx, hk] at h; cases h
  have hne : ∀ x, x ≠ name → lookup (heapSet s.heap 0 name f) 0 x = lookup s.heap 0 x := fun x hx => by
    unfold lookup; exact lookupAux_heapSet_ne hx _ _
  refine ⟨⟨hp.prog.core.set hkn 0 f, fun x v hx => ?_⟩, (hne _ (Ne.symm h1)).trans hp.caar, (hne _ (Ne.symm h2)).trans hp.cddr⟩
  by_cases hxn : name = x
  · subst hxn
    rw [show alGet name ((name, f) :: U) = some f by simp [alGet]] at hx
    cases hx
    obtain ⟨fr, h1, h2⟩ := hp.prog.top
    simp [lookup, lookupAux, heapSet_get, h1, alGet_alSet]
  · rw [show alGet x ((name, f) :: U) = alGet x U by simp [alGet, hxn]] at hx
    rw [← hp.prog.binds x v hx]
    exact hne x (Ne.symm hxn)

theorem setTop0 {s : St} {U : List (String × Val)} (hp : Prog s.heap U) {name : String} (ht : name ≠ "t") (f : Val) :
    setTopM 0 name f s = .ok () { s with heap := heapSet s.heap 0 name f } := by
  have hr : root s.heap 0 = 0 := by
    obtain ⟨fr, h1, h2⟩ := hp.top
    simp [root, rootAux, h1, h2]
  unfold setTopM setM
  rw [hr, if_neg ht]

/-- One form of the program: nothing is written. -/
def SenStep (W : World) (U U' : List (String × Val)) (x : Val) : Prop :=
  ∀ s : St, SenPre s.heap U → ∃ v s1, eval W x 0 s = .ok v s1 ∧ SenPre s1.heap U' ∧ Wrote s s1 []

theorem sen_defn {U : List (String × Val)} {name : String} {a d f : Val} (ha : a.isList = true) (hm : mkLambda (.cons a d) false 0 (initSt []) = .ok f (initSt [])) (ht : name ≠ "t") (hk : known name = none)
    (h1 : name ≠ "caar") (h2 : name ≠ "cddr") : SenStep W U ((name, f) :: U) (.cons (.atom "defn") (.cons (.atom name) (.cons a d))) := by
  intro s hp
  refine ⟨.nil, { s with heap := heapSet s.heap 0 name f }, ?_, hp.set f hk h1 h2, by simp, rfl, rfl, rfl⟩
  rw [show eval W (.cons (.atom "defn") (.cons (.atom name) (.cons a d))) 0 s = evDefn false 0 (.cons (.atom name) (.cons a d)) s from
    eval_sf W .defn _ 0 _ (hp.prog.core.base.notMacro_sf known_defn) rfl]
  simp only [evDefn]
  rw [M.bind_ok (extend_ok (mkLambda_any ha hm s)), M.bind_ok (extend_ok (setTop0 hp.prog ht f))]
  rfl

theorem sen_def {U : List (String × Val)} {name : String} {v : Val} (ht : name ≠ "t") (hk : known name = none) (h1 : name ≠ "caar") (h2 : name ≠ "cddr") (hq : alGet "quote" U = none) :
    SenStep W U ((name, v) :: U) (vlist [.atom "def", .atom name, vlist [.atom "quote", v]]) := by
  intro s hp
  obtain ⟨s1, e1, q1⟩ := G.quote (W := W) (v := v) hp.prog.sc hq known_quote s (.refl _)
  have hp1 : SenPre s1.heap U := ⟨hp.prog.mono q1.heap, (hp.prog.core.nested.lookup_prefix q1.heap _).trans hp.caar, (hp.prog.core.nested.lookup_prefix q1.heap _).trans hp.cddr⟩
  refine ⟨v, { s1 with heap := heapSet s1.heap 0 name v }, ?_, hp1.set v hk h1 h2, by rw [show ({ s1 with heap := heapSet s1.heap 0 name v } : St).out = s1.out from rfl, q1.out]; simp, q1.inp, q1.tick, q1.screen⟩
  refine (eval_sform W .def_ [.atom name, vlist [.atom "quote", v]] 0 s (hp.prog.core.base.notMacro_sf known_def)).trans ?_
  show evDef (perform W) 0 (vlist [.atom name, vlist [.atom "quote", v]]) s = _
  simp only [vlist_cons, vlist_nil, evDef]
  rw [M.bind_ok (extend_ok (show perform W (.eval (.cons (.atom "quote") (.cons v .nil)) 0) s = .ok v s1 from e1)), M.bind_ok (extend_ok (setTop0 hp1.prog ht v))]
  rfl

theorem sen_comment {U : List (String × Val)} {x : Val} {xs : List Val} (hx : x = form "comment" xs) : SenStep W U U x := by
  subst hx
  intro s hp
  obtain ⟨s1, q1, e1⟩ := C41_comment (W := W) (e := 0) ⟨hp.prog.core, hp.prog.core⟩ xs
  exact ⟨.nil, s1, e1, ⟨hp.prog.mono q1.heap, (hp.prog.core.nested.lookup_prefix q1.heap _).trans hp.caar, (hp.prog.core.nested.lookup_prefix q1.heap _).trans hp.cddr⟩, q1.wrote⟩

/-- Forms one after the other. -/
inductive SenSteps (W : World) : List (String × Val) → List Val → List (String × Val) → Prop
  | nil {U : List (String × Val)} : SenSteps W U [] U
  | cons {U U1 U2 : List (String × Val)} {x : Val} {xs : List Val} : SenStep W U U1 x → SenSteps W U1 xs U2 → SenSteps W U (x :: xs) U2

theorem SenSteps.evals {U U' : List (String × Val)} {xs : List Val} (h : SenSteps W U xs U') : ∀ s, SenPre s.heap U →
    ∃ vs s', EvalsTo W 0 xs s vs s' ∧ SenPre s'.heap U' ∧ Wrote s s' [] := by
  induction h with
  | nil => exact fun s hp => ⟨[], s, .nil, hp, .refl s⟩
  | cons h1 _ ih =>
    intro s hp
    obtain ⟨v, s1, e1, p1, w1⟩ := h1 s hp
    obtain ⟨vs, s2, e2, p2, w2⟩ := ih s1 p1
    exact ⟨v :: vs, s2, .cons e1 e2, p2, w1.trans w2⟩

theorem sen_defs : SenSteps W [] (sentencesForms.take 9) sentencesDefs :=
  .cons (sen_defn (f := s_one_of) rfl rfl (by decide) (by decide +kernel) (by decide) (by decide))
  (.cons (sen_comment (xs := [_, _, _, _, _, _, _, _]) rfl)
  (.cons (sen_def (v := simpleGrammar.val) (by decide) (by decide +kernel) (by decide) (by decide) rfl)
  (.cons (sen_def (v := biggerGrammar.val) (by decide) (by decide +kernel) (by decide) (by decide) rfl)
  (.cons (sen_defn (f := s_assoc) rfl rfl (by decide) (by decide +kernel) (by decide) (by decide))
  (.cons (sen_defn (f := s_rule_lhs) rfl rfl (by decide) (by decide +kernel) (by decide) (by decide))
  (.cons (sen_defn (f := s_rule_rhs) rfl rfl (by decide) (by decide +kernel) (by decide) (by decide))
  (.cons (sen_defn (f := s_rewrites) rfl rfl (by decide) (by decide +kernel) (by decide) (by decide))
  (.cons (sen_defn (f := s_generate) rfl rfl (by decide) (by decide +kernel) (by decide) (by decide)) .nil))))))))

theorem SenPre.senAt {h : Heap} (hp : SenPre h sentencesDefs) : SenAt h := ⟨hp.prog, hp.caar, hp.cddr⟩

/-! ### The grammars -/

theorem phrase_atom (a : String) : Phrase (.atom a) := .word a

/-- A decidable form of `Grammar.Ok`. -/
def phraseOk : Val → Bool
  | .atom _ => true
  | .nil => true
  | .cons x y => phraseOk x && y.isList && phraseOk y
  | _ => false

theorem phraseOk_phrase {v : Val} : phraseOk v = true → Phrase v ∧ (v.isList = true → ∃ xs, v = vlist xs ∧ ∀ x ∈ xs, Phrase x) := by
  induction v with
  | nil => exact fun _ => ⟨.list [] (by simp), fun _ => ⟨[], rfl, by simp⟩⟩
  | atom a => exact fun _ => ⟨.word a, fun h => by cases h⟩
  | cons x y ihx ihy =>
    intro h
    simp only [phraseOk, Bool.and_eq_true] at h
    obtain ⟨xs, rfl, h2⟩ := (ihy h.2).2 h.1.2
    have h3 : ∀ z ∈ x :: xs, Phrase z := fun z hz => by
      rcases List.mem_cons.1 hz with rfl | hz
      · exact (ihx h.1.1).1
      · exact h2 z hz
    exact ⟨.list (x :: xs) h3, fun _ => ⟨x :: xs, rfl, h3⟩⟩
  | _ => intro h; cases h

theorem grammar_ok {g : Grammar} (h : (g.all fun r => decide (r.2.length < 2 ^ 63) && r.2.all phraseOk) = true) : g.Ok := by
  intro r hr
  have := List.all_eq_true.1 h r hr
  simp only [Bool.and_eq_true, decide_eq_true_eq] at this
  exact ⟨this.1, fun x hx => (phraseOk_phrase (List.all_eq_true.1 this.2 x hx)).1⟩

theorem simple_ok : simpleGrammar.Ok := grammar_ok (by decide +kernel)
theorem bigger_ok : biggerGrammar.Ok := grammar_ok (by decide +kernel)

theorem grammarAt_ok (W : World) (k : Nat) : (grammarAt W k).Ok := by
  unfold grammarAt
  split
  · exact simple_ok
  · exact bigger_ok

theorem sentence_words {W : World} {k : Nat} {ws : List String} (h : Derives (grammarAt W k) (.atom "sentence") ws) : ws ≠ [] ∧ ∀ w ∈ ws, letterWord w = true := by
  unfold grammarAt at h
  split at h
  · refine ⟨derives_ne (S := ["sentence", "noun-phrase", "Article", "the", "a"]) (by decide +kernel) h (by decide +kernel), derives_letters (by decide +kernel) h ?_⟩
    simp only [phraseNames, List.mem_singleton]; rintro w rfl; decide +kernel
  · refine ⟨derives_ne (S := ["sentence", "verb-phrase", "Verb", "hit", "took", "saw", "liked"]) (by decide +kernel) h (by decide +kernel), derives_letters (by decide +kernel) h ?_⟩
    simp only [phraseNames, List.mem_singleton]; rintro w rfl; decide +kernel

/-! ### One sentence -/

/-- `(printl (tosentence (generate (randchoice (list simple-grammar bigger-grammar)) 'sentence)))`, examples/sentences.l1:85. -/
def sayForm : Val := vlist [.atom "printl", vlist [.atom "tosentence", vlist [.atom "generate", vlist [.atom "randchoice", vlist [.atom "list", .atom "simple-grammar", .atom "bigger-grammar"]], vlist [.atom "quote", .atom "sentence"]]]]

theorem say_run {s : St} {E : Nat} (hp : SenAt s.heap) (hs : Sc s.heap E sentencesDefs) :
    (eval W sayForm E s = .oof ∧ ∀ ws k', ¬ Generates W (grammarAt W s.tick) (s.tick + 1) (.atom "sentence") ws k') ∨
    ∃ ws s', eval W sayForm E s = .ok .nil s' ∧ s.heap <+: s'.heap ∧ Generates W (grammarAt W s.tick) (s.tick + 1) (.atom "sentence") ws s'.tick ∧
      s'.out = s.out ++ sentenceLine ws ∧ s'.inp = s.inp ∧ s'.screen = s.screen := by
  obtain ⟨s1, q1, e1⟩ := core_call (W := W) (a := "randchoice") (xs := [_]) hs rfl hd_randchoice (.one (.fn (xs := [_, _]) (v := vlist [simpleGrammar.val, biggerGrammar.val]) hs rfl hd_list (.two (.v (a := "simple-grammar") hs rfl rfl) (.v (a := "bigger-grammar") hs rfl rfl)) (.bi fun _ _ _ => rfl)))
  have hp1 := hp.mono q1.heap
  obtain ⟨s2, e2, d2⟩ := draws_randchoice (W := W) hp1.prog.core.base [simpleGrammar.val, biggerGrammar.val] (by simp) (by simp) s1 E (List.prefix_refl _)
  have d12 : Draws 1 s s2 := .after q1 d2
  have hv : [simpleGrammar.val, biggerGrammar.val].getD (W.rand s1.tick % [simpleGrammar.val, biggerGrammar.val].length) .nil = (grammarAt W s.tick).val := by
    rw [q1.tick]
    unfold grammarAt
    show [simpleGrammar.val, biggerGrammar.val].getD (W.rand s.tick % 2) .nil = _
    rcases Nat.mod_two_eq_zero_or_one (W.rand s.tick) with h | h <;> simp [h]
  dsimp only at e2
  rw [hv] at e2
  have hp2 := hp.mono d12.heap
  have hs2 := hs.mono d12.heap
  obtain ⟨s3, e3, q3⟩ := G.quote (W := W) (v := .atom "sentence") hs2 rfl known_quote s2 (.refl _)
  have d13 : Draws 1 s s3 := d12.quiet q3
  have hp3 := hp.mono d13.heap
  have e4 : eval W (vlist [.atom "generate", vlist [.atom "randchoice", vlist [.atom "list", .atom "simple-grammar", .atom "bigger-grammar"]], vlist [.atom "quote", .atom "sentence"]]) E s =
      callFn W s_generate [(grammarAt W s.tick).val, .atom "sentence"] E s3 :=
    eval_callVar (s2 := s3) (a := "generate") (xs := [_, _]) hs rfl rfl rfl rfl (by decide) (.cons (e1.trans e2) (.cons e3 .nil)) rfl
  obtain ⟨g1, g2⟩ := hs.reaches (W := W) rfl hd_printl
  obtain ⟨g3, g4⟩ := hs.reaches (W := W) rfl hd_tosentence
  have e5 : eval W sayForm E s = ((callFn W s_generate [(grammarAt W s.tick).val, .atom "sentence"] E s3).andThen (msgList "evaluating function arguments") fun v s' => callFn W k_tosentence [v] E s').andThen
      (msgList "evaluating function arguments") fun v s' => callFn W (.bi .printl) [v] E s' := by
    unfold sayForm
    rw [eval_call1 g1 g2, eval_call1 g3 g4, e4]
  have ht3 : s3.tick = s.tick + 1 := d13.tick
  rcases gen_ends (W := W) (grammarAt_ok W s.tick) (.word "sentence") hp3 E with h | ⟨s4, n, ws, h, d4, hg⟩
  · refine .inl ⟨by rw [e5, h]; rfl, fun ws k' hg => ?_⟩
    obtain ⟨s4, n, h4, _⟩ := sure_gen (grammarAt_ok W s.tick) hg s3 E hp3 ht3
    rw [h] at h4; cases h4
  · rw [ht3] at hg
    obtain ⟨hne, hlet⟩ := sentence_words hg.derives
    obtain ⟨bs, hsen, hdig, hline⟩ := sentence_of (W := W) hne hlet
    have hb4 := (hp3.mono d4.heap).prog.core.base
    obtain ⟨s5, e6, q5⟩ := (ret_tosentence (W := W) hb4 fun _ hq => ret_sentence (hb4.mono hq.heap) rfl (fun a ha => ret_period (hb4.mono hq.heap) a (noDigit_of ha)) hsen hdig) s4 E (.refl _)
    refine .inr ⟨ws, { s5 with out := s5.out ++ sentenceLine ws }, ?_, (d13.heap.trans d4.heap).trans q5.heap, ?_, ?_, ?_, ?_⟩
    · rw [e5, h]
      show (callFn W k_tosentence [wordList ws] E s4).andThen _ _ = _
      rw [show callFn W k_tosentence [wordList ws] E s4 = _ from e6]
      show callFn W (.bi .printl) [vlist (bs.map .atom)] E s5 = _
      refine call_bi ?_
      have := C43_printl W 0 0 E s5 (bs.map .atom)
      rw [List.map_map, show (Val.str ∘ Val.atom) = String.toList from rfl, hline] at this
      exact this
    · show Generates W _ _ _ ws s5.tick
      rw [q5.tick, d4.tick, ht3]; exact hg
    · show s5.out ++ _ = _
      rw [q5.out, d4.out, d13.out]
    · show s5.inp = _; rw [q5.inp, d4.inp, d13.inp]
    · show s5.screen = _; rw [q5.screen, d4.screen, d13.screen]

/-! ### Ten sentences -/

theorem Speaks.snoc {k k1 k2 : Nat} {wss : List (List String)} {ws : List String} (h : Speaks W k wss k1) (hg : Generates W (grammarAt W k1) (k1 + 1) (.atom "sentence") ws k2) :
    Speaks W k (wss ++ [ws]) k2 := by
  induction h with
  | nil => exact .cons hg .nil
  | cons h1 _ ih => exact .cons h1 (ih hg)

theorem Speaks.det {k k1 k2 : Nat} {wss wss' : List (List String)} (hl : wss.length = wss'.length) (h : Speaks W k wss k1) (h' : Speaks W k wss' k2) : wss = wss' := by
  induction h generalizing wss' with
  | nil => exact (List.length_eq_zero_iff.1 hl.symm).symm
  | cons h1 _ ih =>
    cases h' with
    | nil => cases hl
    | cons h2 h3 =>
      obtain ⟨rfl, rfl⟩ := h1.det h2
      rw [ih (by simpa using hl) h3]

theorem alGet_name {a : String} {v : Val} {l : List (String × Val)} (h : alGet a l = some v) : a ∈ l.map Prod.fst := by
  induction l with
  | nil => cases h
  | cons p l ih =>
    obtain ⟨b, w⟩ := p
    rw [alGet] at h
    split at h
    · next hb => simp_all
    · simp [ih h]

theorem names_ok : ∀ a v, alGet a sentencesDefs = some v → a ≠ "count" ∧ a.toList.head? ≠ some '<' := by
  intro a v h
  have hin : a ∈ sentencesDefs.map Prod.fst := alGet_name h
  have : ∀ a ∈ sentencesDefs.map Prod.fst, a ≠ "count" ∧ a.toList.head? ≠ some '<' := by decide +kernel
  exact this a hin

theorem speak_run {s : St} (hp : SenAt s.heap) (m : Nat) :
    (eval W (form "dotimes" [.num m, sayForm]) 0 s = .oof ∧ ∀ wss k', wss.length = m → ¬ Speaks W s.tick wss k') ∨
    ∃ wss s', wss.length = m ∧ eval W (form "dotimes" [.num m, sayForm]) 0 s = .ok .nil s' ∧ Speaks W s.tick wss s'.tick ∧
      s'.out = s.out ++ (wss.map sentenceLine).flatten ∧ s'.inp = s.inp ∧ s'.screen = s.screen := by
  have hc : CoreHere s.heap 0 := ⟨hp.prog.core, hp.prog.core⟩
  have hsc : ∀ (E : Nat) (s1 : St), CoreHere s1.heap E → (∀ a : String, a ≠ "count" → a.toList.head? ≠ some '<' → lookup s1.heap E a = lookup s.heap 0 a) → Sc s1.heap E sentencesDefs := fun E s1 h1 h2 =>
    .globals h1.2.base fun a v hv => (h2 a (names_ok a v hv).1 (names_ok a v hv).2).trans (hp.prog.binds a v hv)
  rcases dotimes_inv (W := W) hc m sayForm (fun j s1 => ∃ wss, wss.length + j = m ∧ Speaks W s.tick wss s1.tick ∧ s1.out = s.out ++ (wss.map sentenceLine).flatten ∧ s1.inp = s.inp ∧ s1.screen = s.screen) True
      (by
        rintro k s1 s2 ⟨wss, h1, h2, h3, h4, h5⟩ ho hi ht hsn
        exact ⟨wss, h1, by rw [ht]; exact h2, ho.trans h3, hi.trans h4, hsn.trans h5⟩)
      ⟨[], by simp, .nil, by simp, rfl, rfl⟩
      (by
        rintro k E s1 hpre hE hl ⟨wss, h1, h2, h3, h4, h5⟩
        rcases say_run (W := W) (hp.mono hpre) (hsc E s1 hE hl) with h | ⟨ws, s2, h, hpre2, hg, ho, hi, hsn⟩
        · exact .inl ⟨h.1, trivial⟩
        · refine .inr ⟨.nil, s2, h, hpre2, wss ++ [ws], by rw [List.length_append]; simp; omega, h2.snoc hg, ?_, hi.trans h4, hsn.trans h5⟩
          rw [ho, h3]; simp) with ⟨h, _⟩ | ⟨s', h, wss, h1, h2⟩
  · refine .inl ⟨h, fun wss k' hlen hsp => ?_⟩
    rcases dotimes_inv (W := W) hc m sayForm (fun j s1 => ∃ post, post.length = j ∧ Speaks W s1.tick post k') False
        (by
          rintro k s1 s2 ⟨post, h1, h2⟩ ho hi ht hsn
          exact ⟨post, h1, by rw [ht]; exact h2⟩)
        ⟨wss, hlen, hsp⟩
        (by
          rintro k E s1 hpre hE hl ⟨post, h1, h2⟩
          cases h2 with
          | nil => cases h1
          | @cons _ k1 _ ws post hg h3 =>
            rcases say_run (W := W) (hp.mono hpre) (hsc E s1 hE hl) with h | ⟨us, s2, h, hpre2, hg2, _⟩
            · exact absurd hg (h.2 _ _)
            · refine .inr ⟨.nil, s2, h, hpre2, post, by simpa using h1, ?_⟩
              have := (hg2.det hg).2
              rw [this]; exact h3) with ⟨_, hf⟩ | ⟨s', h', _⟩
    · exact hf
    · rw [h] at h'; cases h'
  · exact .inr ⟨wss, s', by simpa using h1, h, h2⟩

end L1
