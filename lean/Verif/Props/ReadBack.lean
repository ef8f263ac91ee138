import Verif.Props.Reader
/- C01: what the interpreter prints for data can be read back. -/
set_option autoImplicit false
namespace L1

/-- What may follow a printed value: nothing, a space, or a closing parenthesis. -/
def Ends (x : List Char) : Prop := x = [] ∨ ∃ y ys, x = y :: ys ∧ (y = ' ' ∨ y = ')')

theorem spanC_end {p : Char → Bool} {cs x : List Char} (h : cs.all p = true) (hx : Ends x) (h1 : p ' ' = false) (h2 : p ')' = false) :
    spanC p (cs ++ x) = (cs, x) := by
  rcases hx with rfl | ⟨y, ys, rfl, hy⟩
  · rw [List.append_nil, spanC_all _ _ h]
  · have : p y = false := by rcases hy with rfl | rfl <;> assumption
    rw [spanC_append _ _ _ _ this, spanC_all _ _ h]; rfl

theorem lexAtomC_end {cs x : List Char} (h : cs.all isAtomCont = true) (hx : Ends x) : lexAtomC (cs ++ x) = (cs, x) := by
  rcases hx with rfl | ⟨y, ys, rfl, hy⟩
  · rw [List.append_nil, lexAtomC_all _ h]
  · have : isAtomCont y = false := by rcases hy with rfl | rfl <;> rfl
    rw [lexAtomC_append _ _ _ this, lexAtomC_all _ h]; rfl

theorem digit_not_space {c : Char} (h : isDigitC c = true) : isSpaceC c = false ∧ c ≠ ';' := by
  constructor
  · cases hs : isSpaceC c with
    | false => rfl
    | true =>
      unfold isSpaceC at hs
      simp only [Bool.or_eq_true, decide_eq_true_eq] at hs
      rcases hs with ((hs | hs) | hs) | hs <;> subst hs <;> cases h
  · intro hs; subst hs; cases h

theorem lex_digits (line : Nat) (c : Char) (cs x : List Char) (h : (c :: cs).all isDigitC = true) (hx : Ends x) :
    lexAll line [] (c :: cs ++ x) = ⟨.number, c :: cs, line⟩ :: lexAll line [] x := by
  simp only [List.all_cons, Bool.and_eq_true] at h
  obtain ⟨h1, h2⟩ := digit_not_space h.1
  rw [List.cons_append, lexAll_cons]
  have : lexStep line [] c (cs ++ x) = (some ⟨.number, c :: cs, line⟩, [], x) := by
    unfold lexStep
    rw [if_neg (by rw [h1]; decide), if_neg h2, if_pos h.1, spanC_end h.2 hx rfl rfl]; rfl
  rw [this]; rfl

theorem lex_num (line : Nat) (n : Int) (x : List Char) (hx : Ends x) :
    lexAll line [] (intStr n ++ x) = ⟨.number, intStr n, line⟩ :: lexAll line [] x := by
  cases n with
  | ofNat k =>
    have hd := digits_all k
    simp only [intStr]
    cases hk : Nat.toDigits 10 k with
    | nil => exact absurd hk Nat.toDigits_ne_nil
    | cons c cs => rw [hk] at hd; exact lex_digits line c cs x hd hx
  | negSucc k =>
    have hd := digits_all (k + 1)
    simp only [intStr]
    cases hk : Nat.toDigits 10 (k + 1) with
    | nil => exact absurd hk Nat.toDigits_ne_nil
    | cons c cs =>
      rw [hk] at hd
      rw [List.cons_append, lexAll_cons]
      have hc : isDigitC c = true := by simp only [List.all_cons, Bool.and_eq_true] at hd; exact hd.1
      have : lexStep line [] '-' (c :: cs ++ x) = (some ⟨.number, '-' :: c :: cs, line⟩, [], x) := by
        unfold lexStep
        rw [if_neg (by decide), if_neg (by decide), if_neg (by decide), if_pos (by decide), spanC_end hd hx rfl rfl]
        simp only [List.cons_append]
        rw [if_pos hc]; rfl
      rw [this]; rfl

theorem isAtomCont_iff (c : Char) : isAtomCont c = true ↔ c ∉ [' ', '\t', '\n', '\r', '(', ')', '~', '@', '#', ';', '`', '\''] := by
  unfold isAtomCont isSpaceC
  simp [not_or, and_assoc]

theorem isDigitC_prop (c : Char) : isDigitC c = true ↔ '0' ≤ c ∧ c ≤ '9' := by
  unfold isDigitC; simp

theorem isAtomStartC_iff (c : Char) : isAtomStartC c = true ↔ isAtomCont c = true ∧ ¬ isDigitC c = true ∧ c ≠ '+' ∧ c ≠ '-' ∧ c ≠ '.' := by
  unfold isAtomStartC
  simp [not_or, and_assoc]

theorem readable_chars {a : String} (h : ReadableAtom a) : ∃ c cs, a.toList = c :: cs ∧ isAtomCont c = true ∧ cs.all isAtomCont = true ∧
    (isAtomStartC c = true ∨ ((c = '+' ∨ c = '-') ∧ ∀ c' ∈ cs.head?, isDigitC c' = false)) := by
  obtain ⟨h1, h2⟩ := h
  cases hs : a.toList with
  | nil => rw [hs] at h2; exact h2.elim
  | cons c cs =>
    rw [hs] at h1 h2
    simp only [] at h2
    obtain ⟨h3, h4, h5⟩ := h2
    have hc := (isAtomCont_iff c).2 (h1 c (by simp))
    refine ⟨c, cs, rfl, hc, List.all_eq_true.2 (fun x hx => (isAtomCont_iff x).2 (h1 x (by simp [hx]))), ?_⟩
    by_cases hp : c = '+' ∨ c = '-'
    · right
      refine ⟨hp, ?_⟩
      have h5 := h5 hp
      cases cs with
      | nil => simp
      | cons c' cs =>
        intro x hx
        simp at hx; subst hx
        simp only [] at h5
        cases hd : isDigitC c' with
        | false => rfl
        | true => exact absurd ((isDigitC_prop c').1 hd) h5
    · left
      rw [not_or] at hp
      exact (isAtomStartC_iff c).2 ⟨hc, fun hd => h3 ((isDigitC_prop c).1 hd), hp.1, hp.2, h4⟩

theorem cont_not {c : Char} (h : isAtomCont c = true) : isSpaceC c = false ∧ c ≠ ';' ∧ c ≠ '(' ∧ c ≠ ')' := by
  rw [isAtomCont_iff] at h
  refine ⟨?_, ?_, ?_, ?_⟩
  · cases hs : isSpaceC c with
    | false => rfl
    | true =>
      unfold isSpaceC at hs
      simp only [Bool.or_eq_true, decide_eq_true_eq] at hs
      rcases hs with ((hs | hs) | hs) | hs <;> subst hs <;> simp at h
  all_goals (intro hs; subst hs; simp at h)

theorem lex_atom (line : Nat) (a : String) (x : List Char) (h : ReadableAtom a) (hx : Ends x) :
    lexAll line [] (a.toList ++ x) = ⟨.atom, a.toList, line⟩ :: lexAll line [] x := by
  obtain ⟨c, cs, hs, hc, hcs, h⟩ := readable_chars h
  rw [hs, List.cons_append, lexAll_cons]
  have hstep : lexStep line [] c (cs ++ x) = (some ⟨.atom, c :: cs, line⟩, [], x) := by
    obtain ⟨n1, n2, n3, n4⟩ := cont_not hc
    unfold lexStep
    rw [if_neg (by rw [n1]; decide), if_neg n2]
    rcases h with h | ⟨h, hd⟩
    · have hst := (isAtomStartC_iff c).1 h
      rw [if_neg hst.2.1, if_neg (by simp [hst.2.2.1, hst.2.2.2.1]), if_neg n3, if_neg n4, if_pos h, lexAtomC_end hcs hx]; rfl
    · have hdig : ¬ isDigitC c = true := by rcases h with h | h <;> subst h <;> decide
      rw [if_neg hdig, if_pos (by rcases h with h | h <;> subst h <;> decide)]
      cases cs with
      | nil =>
        rcases hx with rfl | ⟨y, ys, rfl, hy⟩
        · rfl
        · simp only [List.nil_append]
          have hy1 : isDigitC y = false := by rcases hy with rfl | rfl <;> rfl
          rw [if_neg (by rw [hy1]; decide)]
          have := lexAtomC_end (cs := []) (x := y :: ys) rfl (.inr ⟨y, ys, rfl, hy⟩)
          rw [List.nil_append] at this
          rw [this]
      | cons c' cs =>
        simp only [List.cons_append]
        rw [if_neg (by rw [hd c' (by simp)]; decide), ← List.cons_append, lexAtomC_end hcs hx]; rfl
  rw [hstep]; rfl

/-- The tokens of a printed value (`true`: of the rest of a list, after an element). -/
def valTokens : Bool → Val → List Token
  | false, .nil => [⟨.lparen, ['('], 1⟩, ⟨.rparen, [')'], 1⟩]
  | true, .nil => [⟨.rparen, [')'], 1⟩]
  | false, .cons a d => ⟨.lparen, ['('], 1⟩ :: (valTokens false a ++ valTokens true d)
  | true, .cons a d => valTokens false a ++ valTokens true d
  | false, .atom s => [⟨.atom, s.toList, 1⟩]
  | true, .atom s => [⟨.dot, ['.'], 1⟩, ⟨.atom, s.toList, 1⟩, ⟨.rparen, [')'], 1⟩]
  | false, .num n => [⟨.number, intStr n, 1⟩]
  | true, .num n => [⟨.dot, ['.'], 1⟩, ⟨.number, intStr n, 1⟩, ⟨.rparen, [')'], 1⟩]
  | _, _ => []

theorem lex_close (x : List Char) : lexAll 1 [] (')' :: x) = ⟨.rparen, [')'], 1⟩ :: lexAll 1 [] x := by rw [lexAll_cons]; rfl
theorem lex_open (x : List Char) : lexAll 1 [] ('(' :: x) = ⟨.lparen, ['('], 1⟩ :: lexAll 1 [] x := by rw [lexAll_cons]; rfl
theorem lex_space (x : List Char) : lexAll 1 [] (' ' :: x) = lexAll 1 [] x := by rw [lexAll_cons]; rfl
theorem lex_dot (x : List Char) : lexAll 1 [] (" . ".toList ++ x) = ⟨.dot, ['.'], 1⟩ :: lexAll 1 [] x := by
  show lexAll 1 [] (' ' :: '.' :: ' ' :: x) = _
  rw [lex_space, lexAll_cons]
  show _ :: lexAll 1 [] (' ' :: x) = _
  rw [lex_space]; rfl

theorem ends_tail (v : Val) (h : Data v) (x : List Char) : Ends (strAux true v ++ x) := by
  cases h with
  | nil => exact .inr ⟨_, _, rfl, .inr rfl⟩
  | num n => exact .inr ⟨_, _, rfl, .inl rfl⟩
  | atom _ => exact .inr ⟨_, _, rfl, .inl rfl⟩
  | cons _ _ => exact .inr ⟨_, _, rfl, .inl rfl⟩

theorem lex_val (v : Val) (h : Data v) :
    (∀ x, Ends x → lexAll 1 [] (strAux false v ++ x) = valTokens false v ++ lexAll 1 [] x) ∧
    (∀ x, lexAll 1 [] (strAux true v ++ x) = valTokens true v ++ lexAll 1 [] x) := by
  induction h with
  | nil =>
    refine ⟨fun x hx => ?_, fun x => lex_close x⟩
    show lexAll 1 [] ('(' :: ')' :: x) = _
    rw [lex_open, lex_close]; rfl
  | num n =>
    refine ⟨fun x hx => lex_num 1 n x hx, fun x => ?_⟩
    show lexAll 1 [] (" . ".toList ++ intStr n ++ [')'] ++ x) = _
    rw [List.append_assoc, List.append_assoc, lex_dot, List.singleton_append, lex_num 1 n _ (.inr ⟨_, _, rfl, .inr rfl⟩), lex_close]; rfl
  | @atom a ha =>
    refine ⟨fun x hx => lex_atom 1 a x ha hx, fun x => ?_⟩
    show lexAll 1 [] (" . ".toList ++ a.toList ++ [')'] ++ x) = _
    rw [List.append_assoc, List.append_assoc, lex_dot, List.singleton_append, lex_atom 1 a _ ha (.inr ⟨_, _, rfl, .inr rfl⟩), lex_close]; rfl
  | @cons a d ha hd iha ihd =>
    have key : ∀ x, lexAll 1 [] (strAux false a ++ strAux true d ++ x) = valTokens false a ++ valTokens true d ++ lexAll 1 [] x := by
      intro x
      rw [List.append_assoc, iha.1 _ (ends_tail d hd x), ihd.2, List.append_assoc]
    refine ⟨fun x _ => ?_, fun x => ?_⟩
    · show lexAll 1 [] ('(' :: (strAux false a ++ strAux true d ++ x)) = _
      rw [lex_open, key]; rfl
    · show lexAll 1 [] (' ' :: (strAux false a ++ strAux true d ++ x)) = _
      rw [lex_space, key]; rfl

theorem form_val (v : Val) (h : Data v) :
    Form (valTokens false v) v ∧
    ∃ ts vs, Forms ts vs ∧ ((∃ r : Token, r.typ = .rparen ∧ valTokens true v = ts ++ [r] ∧ v = vlist vs) ∨
      (∃ (r d : Token) (us : List Token) (w : Val), r.typ = .rparen ∧ d.typ = .dot ∧ Form us w ∧ valTokens true v = ts ++ d :: (us ++ [r]) ∧ v = mkList vs w)) := by
  induction h with
  | nil =>
    exact ⟨.list (ts := []) (vs := []) rfl rfl (.plain .nil), [], [], .nil, .inl ⟨_, rfl, rfl, rfl⟩⟩
  | num n =>
    have hf : Form [⟨.number, intStr n, 1⟩] (.num n) := by
      have := Form.number (t := ⟨.number, intStr n, 1⟩) rfl
      have hn : numeral (intStr n) = n := by rw [← numOfToken_numeral]; unfold numOfToken; rw [numOfChars?_intStr]; rfl
      simp only [hn] at this
      exact this
    exact ⟨hf, [], [], .nil, .inr ⟨⟨.rparen, [')'], 1⟩, ⟨.dot, ['.'], 1⟩, _, .num n, rfl, rfl, hf, rfl, rfl⟩⟩
  | @atom a ha =>
    have hf : Form [⟨.atom, a.toList, 1⟩] (.atom a) := by
      have := Form.atom (t := ⟨.atom, a.toList, 1⟩) rfl
      simp only [String.ofList_toList] at this
      exact this
    exact ⟨hf, [], [], .nil, .inr ⟨⟨.rparen, [')'], 1⟩, ⟨.dot, ['.'], 1⟩, _, .atom a, rfl, rfl, hf, rfl, rfl⟩⟩
  | @cons a d ha hd iha ihd =>
    obtain ⟨fa, _⟩ := iha
    obtain ⟨_, ts, vs, hts, hcase⟩ := ihd
    have hts' := Forms.cons fa hts
    rcases hcase with ⟨r, hr, h1, h2⟩ | ⟨r, dt, us, w, hr, hdt, hw, h1, h2⟩
    · refine ⟨?_, _, _, hts', .inl ⟨r, hr, ?_, ?_⟩⟩
      · show Form (⟨.lparen, ['('], 1⟩ :: (valTokens false a ++ valTokens true d)) (.cons a d)
        rw [h1, h2, ← List.append_assoc]
        exact .list rfl hr (.plain hts')
      · show valTokens false a ++ valTokens true d = _
        rw [h1, List.append_assoc]
      · rw [h2]; rfl
    · refine ⟨?_, _, _, hts', .inr ⟨r, dt, us, w, hr, hdt, hw, ?_, ?_⟩⟩
      · show Form (⟨.lparen, ['('], 1⟩ :: (valTokens false a ++ valTokens true d)) (.cons a d)
        rw [h1, h2, ← List.append_assoc]
        have hus := Forms.cons hw Forms.nil
        rw [List.append_nil] at hus
        exact .dotted rfl hdt hr (.plain hts') (.plain hus)
      · show valTokens false a ++ valTokens true d = _
        rw [h1, List.append_assoc]
      · rw [h2]; rfl

theorem splitOnChar_none {sep : Char} {cs : List Char} (h : sep ∉ cs) : splitOnChar sep cs = [cs] := by
  induction cs with
  | nil => rfl
  | cons c cs ih =>
    simp only [List.mem_cons, not_or] at h
    rw [splitOnChar, if_neg (Ne.symm h.1), ih h.2]

theorem data_no_newline (v : Val) (h : Data v) : ∀ b, '\n' ∉ strAux b v := by
  have hint : ∀ n : Int, '\n' ∉ intStr n := by
    intro n hm
    cases n with
    | ofNat k =>
      have := List.all_eq_true.1 (digits_all k) _ hm; cases this
    | negSucc k =>
      rcases List.mem_cons.1 hm with hm | hm
      · cases hm
      · have := List.all_eq_true.1 (digits_all (k + 1)) _ hm; cases this
  induction h with
  | nil => intro b; cases b <;> decide
  | num n => intro b; cases b <;> simp [strAux, hint n]
  | @atom a ha =>
    have : '\n' ∉ a.toList := fun hm => ha.1 _ hm (by simp)
    intro b; cases b <;> simp [strAux, this]
  | cons _ _ iha ihd =>
    intro b; cases b <;> simp [strAux, iha false, ihd true]

/-- C01: the printed text of a value made of numbers, readable atoms, `()` and cells reads as that value, and nothing else. -/
theorem C01_read_back (v : Val) (h : Data v) : readText v.str = .ok [v] := by
  unfold readText lexAndParse
  rw [splitOnChar_none (cs := v.str) (data_no_newline v h false), C02_grammar]
  have : lexItems [v.str] = valTokens false v := by
    have := (lex_val v h).1 [] (.inl rfl)
    rw [List.append_nil, lexAll_nil, List.append_nil] at this
    show lexLine 1 v.str ++ [] = _
    rw [List.append_nil, lexLine_eq]; exact this
  rw [this]
  have := Forms.cons (form_val v h).1 Forms.nil
  rw [List.append_nil] at this
  exact .plain this

/-- Printing and reading `(foo -12 (b . +) ())`. -/
example : readText (vlist [.atom "foo", .num (-12), .cons (.atom "b") (.atom "+"), .nil]).str = .ok [vlist [.atom "foo", .num (-12), .cons (.atom "b") (.atom "+"), .nil]] :=
  C01_read_back (vlist [.atom "foo", .num (-12), .cons (.atom "b") (.atom "+"), .nil])
    (.cons (.atom (by unfold ReadableAtom; simp)) (.cons (.num _) (.cons (.cons (.atom (by unfold ReadableAtom; simp)) (.atom (by unfold ReadableAtom; simp)))
      (.cons .nil .nil))))

/-- C01: so different such values are printed differently. -/
theorem C01_print_injective (v w : Val) (hv : Data v) (hw : Data w) (h : v.str = w.str) : v = w := by
  have h1 := C01_read_back v hv
  rw [h, C01_read_back w hw] at h1
  cases h1; rfl

example (a b : String) (ha : ReadableAtom a) (hb : ReadableAtom b) (h : (vlist [.atom a]).str = (vlist [.atom b]).str) : a = b := by
  have := C01_print_injective _ _ (.cons (.atom ha) .nil) (.cons (.atom hb) .nil) h
  simpa [vlist, mkList] using this

/-- `(foo -12 (b . +) ())`. -/
example : Data (vlist [.atom "foo", .num (-12), .cons (.atom "b") (.atom "+"), .nil]) :=
  .cons (.atom (by unfold ReadableAtom; simp)) (.cons (.num _) (.cons (.cons (.atom (by unfold ReadableAtom; simp)) (.atom (by unfold ReadableAtom; simp)))
    (.cons .nil .nil)))

/-! ### Exactly the readable atoms -/

theorem spanC_len (p : Char → Bool) (cs : List Char) : (spanC p cs).1.length + (spanC p cs).2.length = cs.length := by
  rw [← List.length_append, spanC_eq]

theorem lexAtomC_len (cs : List Char) : (lexAtomC cs).1.length + (lexAtomC cs).2.length = cs.length := by
  unfold lexAtomC
  have h1 := spanC_len isAtomStartC cs
  have h2 := spanC_len isAtomCont (spanC isAtomStartC cs).2
  simp only [List.length_append]; omega

/-- Total length of the texts of some tokens. -/
def textLen (ts : List Token) : Nat := (ts.map (fun t => t.val.length)).sum

theorem textLen_append (ts us : List Token) : textLen (ts ++ us) = textLen ts + textLen us := by simp [textLen]

theorem lexAtomC_eq (cs : List Char) : (lexAtomC cs).1 ++ (lexAtomC cs).2 = cs := by
  unfold lexAtomC
  simp only [List.append_assoc]
  rw [spanC_eq, spanC_eq]

theorem lexAtomC_fst (cs : List Char) : (lexAtomC cs).1.all isAtomCont = true := by
  unfold lexAtomC
  simp only [List.all_append, spanC_fst, Bool.and_true]
  exact List.all_eq_true.2 (fun x hx => ((isAtomStartC_iff x).1 (List.all_eq_true.1 (spanC_fst isAtomStartC cs) x hx)).1)

/-- What one step can be. -/
theorem lexStep_cases (line : Nat) (pre : List Char) (c : Char) (cs : List Char) :
    (lexStep line pre c cs = (none, [], cs)) ∨ (c = ';') ∨
    (∃ t, (lexStep line pre c cs).1 = some t ∧ t.typ = .error) ∨
    (∃ t used rest, lexStep line pre c cs = (some t, [], rest) ∧ cs = used ++ rest ∧ t.val = pre ++ c :: used ∧
      (t.typ = .atom → used.all isAtomCont = true ∧
        (isAtomStartC c = true ∨ ((c = '+' ∨ c = '-') ∧ ∀ c' ∈ cs.head?, isDigitC c' = false)))) := by
  unfold lexStep
  by_cases h : isSpaceC c = true
  · rw [if_pos h]; exact .inl rfl
  rw [if_neg h]; clear h
  right
  by_cases h : c = ';'
  · exact .inl h
  rw [if_neg h]; clear h
  right
  by_cases h : isDigitC c = true
  · rw [if_pos h]; right; exact ⟨_, _, _, rfl, (spanC_eq _ _).symm, rfl, fun h => by cases h⟩
  rw [if_neg h]; clear h
  by_cases h : (decide (c = '-') || decide (c = '+')) = true
  · rw [if_pos h]
    right
    have hc : c = '+' ∨ c = '-' := by simpa [or_comm] using h
    cases cs with
    | nil => exact ⟨_, [], _, rfl, rfl, rfl, fun _ => ⟨rfl, .inr ⟨hc, by simp⟩⟩⟩
    | cons c' cs' =>
      simp only []
      by_cases h' : isDigitC c' = true
      · rw [if_pos h']; exact ⟨_, _, _, rfl, (spanC_eq _ _).symm, rfl, fun h => by cases h⟩
      · rw [if_neg h']
        exact ⟨_, _, _, rfl, (lexAtomC_eq _).symm, rfl, fun _ => ⟨lexAtomC_fst _, .inr ⟨hc, by simpa using h'⟩⟩⟩
  rw [if_neg h]; clear h
  by_cases h : c = '('
  · rw [if_pos h]; right; exact ⟨_, [], _, rfl, rfl, rfl, fun h => by cases h⟩
  rw [if_neg h]; clear h
  by_cases h : c = ')'
  · rw [if_pos h]; right; exact ⟨_, [], _, rfl, rfl, rfl, fun h => by cases h⟩
  rw [if_neg h]; clear h
  by_cases h : isAtomStartC c = true
  · rw [if_pos h]; right; exact ⟨_, _, _, rfl, (lexAtomC_eq _).symm, rfl, fun _ => ⟨lexAtomC_fst _, .inl h⟩⟩
  rw [if_neg h]; clear h
  by_cases h : c = '\''
  · rw [if_pos h]; right; exact ⟨_, [], _, rfl, rfl, rfl, fun h => by cases h⟩
  rw [if_neg h]; clear h
  by_cases h : c = '`'
  · rw [if_pos h]; right; exact ⟨_, [], _, rfl, rfl, rfl, fun h => by cases h⟩
  rw [if_neg h]; clear h
  by_cases h : c = '~'
  · rw [if_pos h]; right
    split
    · exact ⟨_, ['@'], _, rfl, rfl, rfl, fun h => by cases h⟩
    · exact ⟨_, [], _, rfl, rfl, rfl, fun h => by cases h⟩
  rw [if_neg h]; clear h
  by_cases h : c = '.'
  · rw [if_pos h]; right; exact ⟨_, [], _, rfl, rfl, rfl, fun h => by cases h⟩
  rw [if_neg h]; clear h
  by_cases h : c = '#'
  · rw [if_pos h]
    split
    · right; exact ⟨_, ['_'], _, rfl, rfl, rfl, fun h => by cases h⟩
    · rename_i cs'
      right; exact ⟨_, '!' :: (spanC (fun x => x ≠ '\n') cs').1, _, rfl, by rw [List.cons_append, spanC_eq], rfl, fun h => by cases h⟩
    · left; exact ⟨_, rfl, rfl⟩
    · left; exact ⟨_, rfl, rfl⟩
  rw [if_neg h]; left; exact ⟨_, rfl, rfl⟩

theorem lexAll_len (line : Nat) (k : Nat) : ∀ (pre cs : List Char), cs.length ≤ k → '\n' ∉ cs → noError (lexAll line pre cs) →
    textLen (lexAll line pre cs) ≤ pre.length + cs.length := by
  induction k with
  | zero =>
    intro pre cs h _ _
    cases cs with
    | nil => simp [textLen]
    | cons c cs => simp at h
  | succ k ih =>
    intro pre cs hk hn he
    cases cs with
    | nil => simp [textLen]
    | cons c cs =>
      simp only [List.mem_cons, not_or] at hn
      rw [List.length_cons] at hk ⊢
      rw [lexAll_cons] at he ⊢
      rcases lexStep_cases line pre c cs with h | h | ⟨t, h1, h2⟩ | ⟨t, used, rest, h1, h2, h3, _⟩
      · rw [h] at he ⊢
        simp only [Option.toList_none, List.nil_append] at he ⊢
        have := ih [] cs (by omega) hn.2 he
        simp at this; omega
      · subst h; rw [lexStep_comment _ _ _ hn.2]; simp [textLen]
      · exact absurd h2 (he t (by rw [h1]; simp))
      · rw [h1] at he ⊢
        simp only [Option.toList_some] at he ⊢
        have hlen : cs.length = used.length + rest.length := by rw [h2, List.length_append]
        have := ih [] rest (by omega) (fun hm => hn.2 (by rw [h2]; simp [hm])) (fun x hx => he x (by simp [hx]))
        rw [textLen_append]
        have h4 : textLen [t] = pre.length + (used.length + 1) := by simp [textLen, h3]
        rw [h4]; simp at this; omega

theorem lexFrom_len (ls : List (List Char)) : ∀ n, (∀ l ∈ ls, '\n' ∉ l) → noError (lexFrom n ls) → textLen (lexFrom n ls) ≤ (ls.map List.length).sum := by
  induction ls with
  | nil => intro n _ _; simp [lexFrom, textLen]
  | cons l ls ih =>
    intro n h1 h2
    simp only [lexFrom] at h2 ⊢
    rw [textLen_append]
    have h3 := lexAll_len n _ [] l (Nat.le_refl _) (h1 l (by simp)) (fun t ht => h2 t (List.mem_append_left _ ht))
    have h4 := ih (n + 1) (fun l hl => h1 l (by simp [hl])) (fun t ht => h2 t (List.mem_append_right _ ht))
    simp only [List.map_cons, List.sum_cons, lexLine_eq]
    simp at h3; omega

theorem splitOnChar_spec (sep : Char) (cs : List Char) : (∀ l ∈ splitOnChar sep cs, sep ∉ l) ∧
    ((splitOnChar sep cs).map List.length).sum + (splitOnChar sep cs).length = cs.length + 1 := by
  induction cs with
  | nil => simp [splitOnChar]
  | cons c cs ih =>
    rw [splitOnChar]
    by_cases h : c = sep
    · rw [if_pos h]
      refine ⟨fun l hl => ?_, ?_⟩
      · rcases List.mem_cons.1 hl with rfl | hl
        · simp
        · exact ih.1 l hl
      · simp only [List.map_cons, List.sum_cons, List.length_cons, List.length_nil]; omega
    · rw [if_neg h]
      cases hs : splitOnChar sep cs with
      | nil => rw [hs] at ih; simp at ih
      | cons w ws =>
        rw [hs] at ih
        refine ⟨fun l hl => ?_, ?_⟩
        · rcases List.mem_cons.1 hl with rfl | hl
          · simp only [List.mem_cons, not_or]; exact ⟨Ne.symm h, ih.1 w (by simp)⟩
          · exact ih.1 l (by simp [hl])
        · simp only [List.map_cons, List.sum_cons, List.length_cons] at ih ⊢; omega

theorem lexAll_nonempty (line : Nat) (k : Nat) : ∀ (pre cs : List Char), cs.length ≤ k → '\n' ∉ cs → noError (lexAll line pre cs) →
    ∀ t ∈ lexAll line pre cs, 1 ≤ t.val.length := by
  induction k with
  | zero =>
    intro pre cs h _ _
    cases cs with
    | nil => simp
    | cons c cs => simp at h
  | succ k ih =>
    intro pre cs hk hn he
    cases cs with
    | nil => simp
    | cons c cs =>
      simp only [List.mem_cons, not_or] at hn
      rw [List.length_cons] at hk
      rw [lexAll_cons] at he ⊢
      rcases lexStep_cases line pre c cs with h | h | ⟨t, h1, h2⟩ | ⟨t, used, rest, h1, h2, h3, _⟩
      · rw [h] at he ⊢
        exact ih [] cs (by omega) hn.2 he
      · subst h; rw [lexStep_comment _ _ _ hn.2]; simp
      · exact absurd h2 (he t (by rw [h1]; simp))
      · rw [h1] at he ⊢
        have hlen : cs.length = used.length + rest.length := by rw [h2, List.length_append]
        have := ih [] rest (by omega) (fun hm => hn.2 (by rw [h2]; simp [hm])) (fun x hx => he x (by simp [hx]))
        intro x hx
        rcases List.mem_append.1 hx with hx | hx
        · simp at hx; subst hx; rw [h3]; simp; omega
        · exact this x hx

theorem lexFrom_nonempty (ls : List (List Char)) : ∀ n, (∀ l ∈ ls, '\n' ∉ l) → noError (lexFrom n ls) → ∀ t ∈ lexFrom n ls, 1 ≤ t.val.length := by
  induction ls with
  | nil => intro n _ _ t ht; cases ht
  | cons l ls ih =>
    intro n h1 h2 t ht
    simp only [lexFrom] at h2 ht
    rcases List.mem_append.1 ht with ht | ht
    · exact lexAll_nonempty n _ [] l (Nat.le_refl _) (h1 l (by simp)) (fun t ht => h2 t (List.mem_append_left _ ht)) t ht
    · exact ih (n + 1) (fun l hl => h1 l (by simp [hl])) (fun t ht => h2 t (List.mem_append_right _ ht)) t ht

/-- A form that denotes an atom contains the atom's token, alone or with others (as in `(. a)`). -/
theorem form_atom (n : Nat) : ∀ (ts : List Token) (a : String), ts.length ≤ n → Form ts (.atom a) →
    ∃ p t q, ts = p ++ t :: q ∧ t.val = a.toList ∧ (p ++ q = [] → t.typ = .atom) := by
  induction n with
  | zero => intro ts a h hf; have := hf.ne_nil; omega
  | succ n ih =>
    intro ts a hn h
    generalize hv : Val.atom a = v at h
    cases h with
    | @atom t ht => cases hv; exact ⟨[], t, [], rfl, by simp, fun _ => ht⟩
    | number => cases hv
    | sugared => cases hv
    | @list l r ts vs _ _ _ => cases vs <;> cases hv
    | @dotted l d r ts us vs ws w _ _ _ hi hj =>
      cases vs with
      | cons => cases hv
      | nil =>
        subst hv
        have hf : ∃ x y z, us = x ++ (y ++ z) ∧ Form y (.atom a) := by
          have : ∀ us, Forms us (.atom a :: ws) → ∃ y z, us = y ++ z ∧ Form y (.atom a) := by
            intro us h
            generalize hw : Val.atom a :: ws = vs at h
            cases h with
            | nil => cases hw
            | cons h1 h2 => cases hw; exact ⟨_, _, rfl, h1⟩
          cases hj with
          | plain h => obtain ⟨y, z, h1, h2⟩ := this _ h; exact ⟨[], y, z, h1, h2⟩
          | @shebang t us _ ht h => obtain ⟨y, z, h1, h2⟩ := this _ h; exact ⟨[t], y, z, by rw [h1]; rfl, h2⟩
        obtain ⟨x, y, z, h1, h2⟩ := hf
        obtain ⟨p, t, q, h3, h4, _⟩ := ih y a (by
          rw [h1] at hn; simp at hn; omega) h2
        refine ⟨l :: (ts ++ d :: (x ++ p)), t, q ++ z ++ [r], by rw [h1, h3]; simp, h4, fun h => by simp at h⟩

theorem splitOnChar_single {sep : Char} {cs l : List Char} (h : splitOnChar sep cs = [l]) : l = cs := by
  have h2 := splitOnChar_spec sep cs
  by_cases hm : sep ∈ cs
  · exfalso
    have : 2 ≤ (splitOnChar sep cs).length := by
      clear h h2
      induction cs with
      | nil => cases hm
      | cons c cs ih =>
        rw [splitOnChar]
        have hne : 1 ≤ (splitOnChar sep cs).length := by
          have := (splitOnChar_spec sep cs).2
          cases hs : splitOnChar sep cs with
          | nil => rw [hs] at this; simp at this
          | cons => simp
        by_cases hc : c = sep
        · rw [if_pos hc]; simp; omega
        · rw [if_neg hc]
          rcases List.mem_cons.1 hm with hm | hm
          · exact absurd hm.symm hc
          · have := ih hm
            cases hs : splitOnChar sep cs with
            | nil => rw [hs] at this; simp at this
            | cons w ws => rw [hs] at this; simpa using this
    rw [h] at this; simp at this
  · rw [splitOnChar_none hm] at h; cases h; rfl

theorem textLen_ge {ts : List Token} (h : ∀ t ∈ ts, 1 ≤ t.val.length) : ts.length ≤ textLen ts := by
  induction ts with
  | nil => simp [textLen]
  | cons t ts ih =>
    have h1 := ih (fun x hx => h x (by simp [hx]))
    have h2 := h t (by simp)
    have : textLen (t :: ts) = t.val.length + textLen ts := by simp [textLen]
    rw [this, List.length_cons]; omega

/-- C01: the readable atoms are exactly the names that read as the atom of that name. -/
theorem C01_readable_exactly (a : String) : readText a.toList = .ok [.atom a] ↔ ReadableAtom a := by
  constructor
  · intro h
    unfold readText lexAndParse at h
    rw [C02_grammar] at h
    have hne := Content.noError h
    have hsp := splitOnChar_spec '\n' a.toList
    have hlen := lexFrom_len _ 1 hsp.1 hne
    have hpos := lexFrom_nonempty _ 1 hsp.1 hne
    have hlines : 1 ≤ (splitOnChar '\n' a.toList).length := by
      cases hs : splitOnChar '\n' a.toList with
      | nil => rw [hs] at hsp; simp at hsp
      | cons => simp
    -- the tokens
    have htok : ∃ p t q, lexItems (splitOnChar '\n' a.toList) = p ++ t :: q ∧ t.val = a.toList ∧ (p ++ q = [] → t.typ = .atom) := by
      have hforms : ∀ ts, Forms ts [.atom a] → ∃ p t q, ts = p ++ t :: q ∧ t.val = a.toList ∧ (p ++ q = [] → t.typ = .atom) := by
        intro ts hf
        generalize hw : [Val.atom a] = ws at hf
        cases hf with
        | nil => cases hw
        | @cons as bs v vs h1 h2 =>
          cases hw
          cases h2
          rw [List.append_nil]
          exact form_atom _ as a (Nat.le_refl _) h1
      generalize lexItems (splitOnChar '\n' a.toList) = ts at h
      cases h with
      | plain hf => exact hforms _ hf
      | @shebang t ts _ ht hf =>
        obtain ⟨p, u, q, h1, h2, _⟩ := hforms _ hf
        exact ⟨t :: p, u, q, by rw [h1]; rfl, h2, fun h => by simp at h⟩
    obtain ⟨p, t, q, ht1, ht2, ht3⟩ := htok
    unfold lexItems at ht1
    rw [ht1] at hlen hpos
    have hp := textLen_ge (ts := p) (fun x hx => hpos x (by simp [hx]))
    have hq := textLen_ge (ts := q) (fun x hx => hpos x (by simp [hx]))
    have e1 : textLen (p ++ t :: q) = textLen p + (t.val.length + textLen q) := by rw [textLen_append]; simp [textLen]
    rw [e1, ht2] at hlen
    have hp0 : p = [] := List.eq_nil_of_length_eq_zero (by omega)
    have hq0 : q = [] := List.eq_nil_of_length_eq_zero (by omega)
    subst hp0; subst hq0
    have hone : (splitOnChar '\n' a.toList).length = 1 := by omega
    obtain ⟨l, hl⟩ := List.length_eq_one_iff.1 hone
    have hla := splitOnChar_single hl
    subst hla
    rw [hl] at ht1 hsp
    have hnl := hsp.1 a.toList (by simp)
    simp only [lexFrom, List.append_nil, List.nil_append, lexLine_eq] at ht1
    have hatom := ht3 rfl
    cases hs : a.toList with
    | nil => rw [hs] at ht1; cases ht1
    | cons c cs =>
      rw [hs] at ht1 ht2 hnl
      simp only [List.mem_cons, not_or] at hnl
      rw [lexAll_cons] at ht1
      rcases lexStep_cases 1 [] c cs with h | h | ⟨u, h1, h2⟩ | ⟨u, used, rest, h1, h2, h3, h4⟩
      · exfalso
        rw [h] at ht1
        simp only [Option.toList_none, List.nil_append] at ht1
        have := lexAll_len 1 _ [] cs (Nat.le_refl _) hnl.2 (by rw [ht1]; intro x hx; simp at hx; subst hx; rw [hatom]; decide)
        rw [ht1] at this
        simp [textLen, ht2] at this
        omega
      · subst h; rw [lexStep_comment _ _ _ hnl.2] at ht1; cases ht1
      · rw [h1] at ht1
        simp only [Option.toList_some, List.singleton_append, List.cons.injEq] at ht1
        rw [ht1.1, hatom] at h2; cases h2
      · rw [h1] at ht1
        simp only [Option.toList_some, List.singleton_append, List.cons.injEq] at ht1
        have hut := ht1.1
        subst hut
        rw [ht2] at h3
        simp only [List.nil_append, List.cons.injEq, true_and] at h3
        subst h3
        obtain ⟨h5, h6⟩ := h4 hatom
        refine ⟨?_, ?_⟩
        · rw [hs]
          intro x hx
          rcases List.mem_cons.1 hx with rfl | hx
          · rcases h6 with h6 | ⟨h6 | h6, _⟩
            · exact (isAtomCont_iff x).1 ((isAtomStartC_iff x).1 h6).1
            · subst h6; decide
            · subst h6; decide
          · exact (isAtomCont_iff x).1 (List.all_eq_true.1 h5 x hx)
        · rw [hs]
          simp only []
          rcases h6 with h6 | ⟨h6, h7⟩
          · have := (isAtomStartC_iff c).1 h6
            exact ⟨fun hd => this.2.1 ((isDigitC_prop c).2 hd), this.2.2.2.2, fun hc => by
              rcases hc with hc | hc
              · exact absurd hc this.2.2.1
              · exact absurd hc this.2.2.2.1⟩
          · refine ⟨?_, ?_, fun _ => ?_⟩
            · rcases h6 with h6 | h6 <;> subst h6 <;> decide
            · rcases h6 with h6 | h6 <;> subst h6 <;> decide
            · cases cs with
              | nil => trivial
              | cons c' cs =>
                simp only []
                intro hd
                have := h7 c' (by simp)
                rw [(isDigitC_prop c').2 hd] at this; cases this
  · intro h; exact C01_read_back (.atom a) (.atom h)

example : readText "-x".toList = .ok [.atom "-x"] := (C01_readable_exactly "-x").2 (by unfold ReadableAtom; simp)

/-- Names that are not readable: with a space, empty, numeric, starting with a period. -/
example : ¬ ReadableAtom "a b" ∧ ¬ ReadableAtom "" ∧ ¬ ReadableAtom "-5" ∧ ¬ ReadableAtom "." ∧ ReadableAtom "-" ∧ ReadableAtom "a.5" := by
  refine ⟨?_, ?_, ?_, ?_, ?_, ?_⟩ <;> unfold ReadableAtom <;> simp

end L1
