import Verif.Spec.Lexical
import Verif.Props.ReadBack
/- C60: the reader reads exactly the texts of the lexical grammar and the grammar of forms, with the meaning they give. -/
set_option autoImplicit false
namespace L1

theorem span_max {p : Char → Bool} {w cs : List Char} (hw : w.all p = true) (h : w <+: cs) : w.length ≤ (spanC p cs).1.length := by
  induction w generalizing cs with
  | nil => exact Nat.zero_le _
  | cons c w ih =>
    obtain ⟨t, rfl⟩ := h
    simp only [List.all_cons, Bool.and_eq_true] at hw
    simp only [List.cons_append, spanC, hw.1, if_true, List.length_cons]
    have := ih (cs := w ++ t) hw.2 (List.prefix_append _ _)
    omega

theorem lexAtomC_max {w cs : List Char} (hw : w.all isAtomCont = true) (h : w <+: cs) : w.length ≤ (lexAtomC cs).1.length := by
  have e1 : (lexAtomC cs).1 = (spanC isAtomCont cs).1 := by
    induction cs with
    | nil => rfl
    | cons c cs ih =>
      unfold lexAtomC
      simp only [spanC]
      cases h1 : isAtomStartC c with
      | true =>
        have h2 := ((isAtomStartC_iff c).1 h1).1
        simp only [if_true, h2]
        have : (lexAtomC cs).1 = (spanC isAtomCont cs).1 := by
          clear ih h hw
          induction cs with
          | nil => rfl
          | cons d cs ih =>
            unfold lexAtomC
            simp only [spanC]
            cases h1 : isAtomStartC d with
            | true =>
              have h2 := ((isAtomStartC_iff d).1 h1).1
              simp only [if_true, h2, List.cons_append]
              exact congrArg _ ih
            | false => simp [spanC]
        unfold lexAtomC at this
        simp only [List.cons_append]
        exact congrArg _ this
      | false => simp [spanC]
  rw [e1]; exact span_max hw h

theorem not_digit_range {c : Char} (h : isDigitC c = false) : ¬ ('0' ≤ c ∧ c ≤ '9') := by
  rw [← isDigitC_prop, h]; decide

theorem readable_cons (c : Char) (cs : List Char) : ReadableAtom (String.ofList (c :: cs)) ↔
    isAtomCont c = true ∧ cs.all isAtomCont = true ∧ isDigitC c = false ∧ c ≠ '.' ∧ (c = '+' ∨ c = '-' → ∀ d ∈ cs.head?, isDigitC d = false) := by
  unfold ReadableAtom
  rw [String.toList_ofList]
  simp only [List.forall_mem_cons, ← isAtomCont_iff, ← isDigitC_prop]
  constructor
  · rintro ⟨⟨h1, h2⟩, h3, h4, h5⟩
    refine ⟨h1, List.all_eq_true.2 h2, by simpa using h3, h4, fun hc => ?_⟩
    have := h5 hc
    cases cs with
    | nil => simp
    | cons d cs => simpa using this
  · rintro ⟨h1, h2, h3, h4, h5⟩
    refine ⟨⟨h1, List.all_eq_true.1 h2⟩, by simp [h3], h4, fun hc => ?_⟩
    have := h5 hc
    cases cs with
    | nil => trivial
    | cons d cs => simpa using this

/-- What a token is, by its first character. -/
theorem lexeme_cases {k : Typ} {w : List Char} (h : Lexeme k w) : ∃ c p, w = c :: p ∧
    ((k = .number ∧ isDigitC c = true ∧ p.all isDigitC = true) ∨
     (k = .number ∧ (c = '+' ∨ c = '-') ∧ p.all isDigitC = true ∧ ∃ d ∈ p.head?, isDigitC d = true) ∨
     (k = .atom ∧ isAtomCont c = true ∧ p.all isAtomCont = true ∧ isDigitC c = false ∧ c ≠ '.' ∧ (c = '+' ∨ c = '-' → ∀ d ∈ p.head?, isDigitC d = false)) ∨
     (k = .lparen ∧ c = '(' ∧ p = []) ∨ (k = .rparen ∧ c = ')' ∧ p = []) ∨ (k = .quote ∧ c = '\'' ∧ p = []) ∨ (k = .syntaxQuote ∧ c = '`' ∧ p = []) ∨
     (k = .unquote ∧ c = '~' ∧ p = []) ∨ (k = .splicingUnquote ∧ c = '~' ∧ p = ['@']) ∨ (k = .dot ∧ c = '.' ∧ p = []) ∨
     (k = .commentNext ∧ c = '#' ∧ p = ['_']) ∨ (k = .shebang ∧ c = '#' ∧ ∃ q, p = '!' :: q ∧ '\n' ∉ q)) := by
  cases h with
  | number sign ds hs hd hr =>
    obtain ⟨d, ds, rfl⟩ : ∃ d ds', ds = d :: ds' := by
      cases ds with
      | nil => exact absurd rfl hd
      | cons d ds => exact ⟨d, ds, rfl⟩
    have hall : (d :: ds).all isDigitC = true := List.all_eq_true.2 fun c hc => (isDigitC_prop c).2 (hr c hc)
    have h1 : isDigitC d = true := (isDigitC_prop d).2 (hr d (by simp))
    simp only [List.mem_cons, List.not_mem_nil, or_false] at hs
    rcases hs with rfl | rfl | rfl
    · refine ⟨d, ds, rfl, .inl ⟨rfl, h1, ?_⟩⟩
      simp only [List.all_cons, Bool.and_eq_true] at hall; exact hall.2
    · exact ⟨'+', d :: ds, rfl, .inr (.inl ⟨rfl, .inl rfl, hall, d, by simp, h1⟩)⟩
    · exact ⟨'-', d :: ds, rfl, .inr (.inl ⟨rfl, .inr rfl, hall, d, by simp, h1⟩)⟩
  | atom a ha =>
    have e : String.ofList a.toList = a := by simp
    rw [← e] at ha
    cases hw : a.toList with
    | nil => rw [hw] at ha; exact absurd ha.2 (by simp)
    | cons c p =>
      rw [hw, readable_cons] at ha
      exact ⟨c, p, rfl, .inr (.inr (.inl ⟨rfl, ha⟩))⟩
  | lparen => exact ⟨_, _, rfl, by simp⟩
  | rparen => exact ⟨_, _, rfl, by simp⟩
  | quote => exact ⟨_, _, rfl, by simp⟩
  | syntaxQuote => exact ⟨_, _, rfl, by simp⟩
  | unquote => exact ⟨_, _, rfl, by simp⟩
  | splicingUnquote => exact ⟨_, _, rfl, by simp⟩
  | dot => exact ⟨_, _, rfl, by simp⟩
  | commentNext => exact ⟨_, _, rfl, by simp⟩
  | shebang cs h => exact ⟨_, _, rfl, by simp [h]⟩

/-- The kind of a token with a given text. -/
def kindOf (c : Char) (p : List Char) : Typ :=
  if isDigitC c then .number
  else if c = '+' ∨ c = '-' then (if p.head?.any isDigitC then .number else .atom)
  else if c = '(' then .lparen else if c = ')' then .rparen else if c = '\'' then .quote else if c = '`' then .syntaxQuote
  else if c = '~' then (if p = [] then .unquote else .splicingUnquote)
  else if c = '.' then .dot
  else if c = '#' then (if p = ['_'] then .commentNext else .shebang)
  else .atom

theorem lexeme_kindOf {k : Typ} {c : Char} {p : List Char} (h : Lexeme k (c :: p)) : k = kindOf c p := by
  obtain ⟨c', p', e, g⟩ := lexeme_cases h
  cases e; clear h
  unfold kindOf
  rcases g with ⟨rfl, a1, a2⟩ | ⟨rfl, a1, a2, d, a3, a4⟩ | ⟨rfl, a1, a2, a3, a4, a5⟩ | ⟨rfl, rfl, rfl⟩ | ⟨rfl, rfl, rfl⟩ | ⟨rfl, rfl, rfl⟩ |
    ⟨rfl, rfl, rfl⟩ | ⟨rfl, rfl, rfl⟩ | ⟨rfl, rfl, rfl⟩ | ⟨rfl, rfl, rfl⟩ | ⟨rfl, rfl, rfl⟩ | ⟨rfl, rfl, q, rfl, a1⟩
  · rw [if_pos a1]
  · rw [if_neg (by rcases a1 with rfl | rfl <;> decide), if_pos a1, if_pos]
    cases p with
    | nil => cases a3
    | cons x p => simp only [List.head?_cons, Option.mem_def, Option.some.injEq] at a3; subst a3; exact a4
  · rw [if_neg (by rw [a3]; decide)]
    have n1 : ∀ x ∈ ['(', ')', '\'', '`', '~', '#'], c ≠ x := by
      intro x hx e; subst e
      have : ∀ x ∈ ['(', ')', '\'', '`', '~', '#'], isAtomCont x = false := by decide
      rw [this c hx] at a1; cases a1
    by_cases hs : c = '+' ∨ c = '-'
    · rw [if_pos hs, if_neg]
      have := a5 hs
      cases p with
      | nil => simp
      | cons x p => have := this x (by simp); simp [this]
    · rw [if_neg hs, if_neg (n1 _ (by simp)), if_neg (n1 _ (by simp)), if_neg (n1 _ (by simp)), if_neg (n1 _ (by simp)), if_neg (n1 _ (by simp)), if_neg a4,
        if_neg (n1 _ (by simp))]
  all_goals first | rfl | (rw [if_neg (by decide), if_neg (by decide), if_neg (by decide), if_neg (by decide), if_neg (by decide), if_neg (by decide), if_neg (by decide), if_neg (by decide), if_pos rfl, if_neg (by simp)])

/-- A text belongs to one kind only. -/
theorem lexeme_kind {k k' : Typ} {w : List Char} (h : Lexeme k w) (h' : Lexeme k' w) : k = k' := by
  obtain ⟨c, p, rfl, _⟩ := lexeme_cases h
  rw [lexeme_kindOf h, lexeme_kindOf h']

/-- There is at most one longest token. -/
theorem longest_unique {k k' : Typ} {w w' cs : List Char} (h : Longest k w cs) (h' : Longest k' w' cs) : k = k' ∧ w = w' := by
  have e : w = w' := by
    have h1 := h.2.2 _ _ h'.1 h'.2.1
    have h2 := h'.2.2 _ _ h.1 h.2.1
    obtain ⟨t, ht⟩ := h.2.1
    obtain ⟨t', ht'⟩ := h'.2.1
    exact (List.append_inj (ht.trans ht'.symm) (by omega)).1
  subst e
  exact ⟨lexeme_kind h.1 h'.1, rfl⟩

theorem prefix_cons {c d : Char} {p cs : List Char} (h : c :: p <+: d :: cs) : c = d ∧ p <+: cs := List.cons_prefix_cons.1 h

/-- The lexer's next step is the longest token, or an error if there is none. -/
theorem lexStep_longest (line : Nat) (c : Char) (cs : List Char) (hs : isSpaceC c = false) (hc : c ≠ ';') (hn : '\n' ∉ cs) :
    (∃ t, (lexStep line [] c cs).1 = some t ∧ t.typ = .error ∧ ∀ k w, ¬ (Lexeme k w ∧ w <+: c :: cs)) ∨
    (∃ k w rest, lexStep line [] c cs = (some ⟨k, w, line⟩, [], rest) ∧ c :: cs = w ++ rest ∧ k ≠ .error ∧ Longest k w (c :: cs)) := by
  unfold lexStep
  rw [if_neg (by rw [hs]; decide), if_neg hc]
  have dig : ∀ {cs : List Char}, ∀ x ∈ (spanC isDigitC cs).1, '0' ≤ x ∧ x ≤ '9' := fun {cs} x hx => (isDigitC_prop x).1 (List.all_eq_true.1 (spanC_fst isDigitC cs) x hx)
  by_cases h : isDigitC c = true
  · rw [if_pos h]; right
    refine ⟨_, _, _, rfl, ?_, by simp, .number [] (c :: (spanC isDigitC cs).1) (by simp) (by simp) ?_, ?_, fun k' w' hl hp => ?_⟩
    · simp [spanC_eq]
    · intro x hx
      rcases List.mem_cons.1 hx with rfl | hx
      · exact (isDigitC_prop _).1 h
      · exact dig x hx
    · exact ⟨(spanC isDigitC cs).2, by simp [spanC_eq]⟩
    · obtain ⟨d, p, rfl, g⟩ := lexeme_cases hl
      obtain ⟨rfl, hq⟩ := prefix_cons hp
      have n2 : ∀ x ∈ ['(', ')', '\'', '`', '~', '#', '.', '+', '-'], d ≠ x := by
        intro x hx e; subst e
        have : ∀ x ∈ ['(', ')', '\'', '`', '~', '#', '.', '+', '-'], isDigitC x = false := by decide
        rw [this d hx] at h; cases h
      rcases g with ⟨rfl, a1, a2⟩ | ⟨rfl, a1 | a1, a2, x, a3, a4⟩ | ⟨rfl, a1, a2, a3, a4, a5⟩ | ⟨rfl, a1, rfl⟩ | ⟨rfl, a1, rfl⟩ | ⟨rfl, a1, rfl⟩ |
        ⟨rfl, a1, rfl⟩ | ⟨rfl, a1, rfl⟩ | ⟨rfl, a1, rfl⟩ | ⟨rfl, a1, rfl⟩ | ⟨rfl, a1, rfl⟩ | ⟨rfl, a1, q, rfl, _⟩
      · have := span_max a2 hq
        simp only [List.nil_append, List.length_cons]; omega
      all_goals first | exact absurd a1 (n2 _ (by simp)) | (rw [h] at a3; cases a3)
  rw [if_neg h]
  have hnd : isDigitC c = false := by simpa using h
  clear h
  by_cases h : (decide (c = '-') || decide (c = '+')) = true
  · rw [if_pos h]; right
    have hpm : c = '+' ∨ c = '-' := by simpa [or_comm] using h
    have hcont : isAtomCont c = true := by rcases hpm with rfl | rfl <;> decide
    have hdot : c ≠ '.' := by rcases hpm with rfl | rfl <;> decide
    have n2 : ∀ x ∈ ['(', ')', '\'', '`', '~', '#', '.'], c ≠ x := by
      rcases hpm with rfl | rfl <;> decide
    by_cases hd : ∃ x ∈ cs.head?, isDigitC x = true
    · cases cs with
      | nil => obtain ⟨x, hx, _⟩ := hd; cases hx
      | cons c' cs =>
        have hd' : isDigitC c' = true := by
          obtain ⟨x, hx, hxd⟩ := hd
          simp only [List.head?_cons, Option.mem_def, Option.some.injEq] at hx; subst hx; exact hxd
        simp only [hd', if_true]
        have hne : (spanC isDigitC (c' :: cs)).1 ≠ [] := by simp [spanC, hd']
        have hlex : Lexeme .number ([c] ++ (spanC isDigitC (c' :: cs)).1) :=
          .number [c] _ (by rcases hpm with rfl | rfl <;> simp) hne dig
        refine ⟨_, _, _, rfl, ?_, by simp, hlex, ?_, fun k' w' hl hp => ?_⟩
        · simp [spanC_eq]
        · exact ⟨(spanC isDigitC (c' :: cs)).2, by simp [spanC_eq]⟩
        · obtain ⟨d, p, rfl, g⟩ := lexeme_cases hl
          obtain ⟨rfl, hq⟩ := prefix_cons hp
          rcases g with ⟨rfl, a1, a2⟩ | ⟨rfl, _, a2, x, a3, a4⟩ | ⟨rfl, a1, a2, a3, a4, a5⟩ | ⟨rfl, a1, rfl⟩ | ⟨rfl, a1, rfl⟩ | ⟨rfl, a1, rfl⟩ |
            ⟨rfl, a1, rfl⟩ | ⟨rfl, a1, rfl⟩ | ⟨rfl, a1, rfl⟩ | ⟨rfl, a1, rfl⟩ | ⟨rfl, a1, rfl⟩ | ⟨rfl, a1, q, rfl, _⟩
          · rw [hnd] at a1; cases a1
          · have := span_max a2 hq
            simp only [List.length_cons, List.nil_append] at this ⊢; omega
          · cases p with
            | nil => simp
            | cons y p =>
              obtain ⟨rfl, _⟩ := prefix_cons hq
              rw [a5 hpm y (by simp)] at hd'; cases hd'
          all_goals exact absurd a1 (n2 _ (by simp))
    · have hnd2 : ∀ x ∈ cs.head?, isDigitC x = false := by
        intro x hx
        by_contra h
        exact hd ⟨x, hx, by simpa using h⟩
      have step : (match cs with
          | c' :: _ => if isDigitC c' = true then
              ((some ⟨.number, [] ++ c :: (spanC isDigitC cs).1, line⟩ : Option Token), ([] : List Char), (spanC isDigitC cs).2)
            else (some ⟨.atom, [] ++ c :: (lexAtomC cs).1, line⟩, [], (lexAtomC cs).2)
          | [] => (some ⟨.atom, [] ++ [c], line⟩, [], [])) = (some ⟨.atom, c :: (lexAtomC cs).1, line⟩, [], (lexAtomC cs).2) := by
        cases cs with
        | nil => rfl
        | cons x cs => simp only [hnd2 x (by simp)]; rfl
      have hhead : ∀ d ∈ (lexAtomC cs).1.head?, isDigitC d = false := by
        intro d hd
        have e := lexAtomC_eq cs
        cases hl : (lexAtomC cs).1 with
        | nil => rw [hl] at hd; cases hd
        | cons y ys =>
          rw [hl] at hd e
          simp only [List.head?_cons, Option.mem_def, Option.some.injEq] at hd; subst hd
          exact hnd2 y (by rw [← e]; simp)
      have hlex : Lexeme .atom (c :: (lexAtomC cs).1) := by
        have := Lexeme.atom (String.ofList (c :: (lexAtomC cs).1)) ((readable_cons _ _).2 ⟨hcont, lexAtomC_fst cs, hnd, hdot, fun _ => hhead⟩)
        rwa [String.toList_ofList] at this
      refine ⟨.atom, c :: (lexAtomC cs).1, (lexAtomC cs).2, ?_, by simp [lexAtomC_eq], by simp, hlex, ⟨(lexAtomC cs).2, by simp [lexAtomC_eq]⟩, fun k' w' hl hp => ?_⟩
      · exact step
      · obtain ⟨d, p, rfl, g⟩ := lexeme_cases hl
        obtain ⟨rfl, hq⟩ := prefix_cons hp
        rcases g with ⟨rfl, a1, a2⟩ | ⟨rfl, _, a2, x, a3, a4⟩ | ⟨rfl, a1, a2, a3, a4, a5⟩ | ⟨rfl, a1, rfl⟩ | ⟨rfl, a1, rfl⟩ | ⟨rfl, a1, rfl⟩ |
          ⟨rfl, a1, rfl⟩ | ⟨rfl, a1, rfl⟩ | ⟨rfl, a1, rfl⟩ | ⟨rfl, a1, rfl⟩ | ⟨rfl, a1, rfl⟩ | ⟨rfl, a1, q, rfl, _⟩
        · rw [hnd] at a1; cases a1
        · exfalso
          cases p with
          | nil => cases a3
          | cons y p =>
            obtain ⟨t, rfl⟩ := hq
            simp only [List.head?_cons, Option.mem_def, Option.some.injEq] at a3; subst a3
            rw [hnd2 y (by simp)] at a4; cases a4
        · have := lexAtomC_max a2 hq
          simp only [List.length_cons]; omega
        all_goals exact absurd a1 (n2 _ (by simp))
  rw [if_neg h]
  have hpm : ¬ (c = '+' ∨ c = '-') := by simpa [or_comm] using h
  clear h
  -- the rest of the kinds
  have small : ∀ {k : Typ} {x : Char}, Lexeme k [x] → c = x → (∀ k' p, Lexeme k' (c :: p) → p <+: cs → p = []) → Longest k [c] (c :: cs) := by
    intro k x hl e hmax
    subst e
    refine ⟨hl, ⟨cs, rfl⟩, fun k' w' hl' hp => ?_⟩
    obtain ⟨d, p, rfl, _⟩ := lexeme_cases hl'
    obtain ⟨rfl, hq⟩ := prefix_cons hp
    rw [hmax k' p hl' hq]; simp
  have only : ∀ {k' : Typ} {p : List Char}, isAtomCont c = false ∨ c = '.' → c ≠ '~' → c ≠ '#' → Lexeme k' (c :: p) → p = [] := by
    intro k' p h1 h2 h3 hl
    obtain ⟨d, p', e, g⟩ := lexeme_cases hl
    cases e
    rcases g with ⟨rfl, a1, a2⟩ | ⟨rfl, a1, a2, x, a3, a4⟩ | ⟨rfl, a1, a2, a3, a4, a5⟩ | ⟨rfl, a1, rfl⟩ | ⟨rfl, a1, rfl⟩ | ⟨rfl, a1, rfl⟩ |
          ⟨rfl, a1, rfl⟩ | ⟨rfl, a1, rfl⟩ | ⟨rfl, a1, rfl⟩ | ⟨rfl, a1, rfl⟩ | ⟨rfl, a1, rfl⟩ | ⟨rfl, a1, q, rfl, _⟩
    · rw [hnd] at a1; cases a1
    · exact absurd a1 hpm
    · rcases h1 with h1 | h1
      · rw [h1] at a1; cases a1
      · exact absurd h1 a4
    all_goals first | rfl | exact absurd a1 h2 | exact absurd a1 h3
  by_cases h : c = '('
  · rw [if_pos h]; right; exact ⟨_, _, _, rfl, rfl, by simp, small .lparen h (fun k' p hl _ => only (by left; rw [h]; decide) (by rw [h]; decide) (by rw [h]; decide) hl)⟩
  rw [if_neg h]
  by_cases h' : c = ')'
  · rw [if_pos h']; right; exact ⟨_, _, _, rfl, rfl, by simp, small .rparen h' (fun k' p hl _ => only (by left; rw [h']; decide) (by rw [h']; decide) (by rw [h']; decide) hl)⟩
  rw [if_neg h']
  have hp1 := h; have hp2 := h'; clear h h'
  by_cases h : isAtomStartC c = true
  · rw [if_pos h]; right
    have hc' := (isAtomStartC_iff c).1 h
    have hlex : Lexeme .atom (c :: (lexAtomC cs).1) := by
      have := Lexeme.atom (String.ofList (c :: (lexAtomC cs).1))
        ((readable_cons _ _).2 ⟨hc'.1, lexAtomC_fst cs, hnd, hc'.2.2.2.2, fun hx => absurd hx hpm⟩)
      rwa [String.toList_ofList] at this
    have n1 : ∀ x ∈ ['(', ')', '\'', '`', '~', '#'], c ≠ x := by
      intro x hx e; subst e
      have : ∀ x ∈ ['(', ')', '\'', '`', '~', '#'], isAtomStartC x = false := by decide
      rw [this c hx] at h; cases h
    refine ⟨_, _, _, rfl, by simp [lexAtomC_eq], by simp, hlex, ⟨(lexAtomC cs).2, by simp [lexAtomC_eq]⟩, fun k' w' hl hp => ?_⟩
    obtain ⟨d, p, rfl, g⟩ := lexeme_cases hl
    obtain ⟨rfl, hq⟩ := prefix_cons hp
    rcases g with ⟨rfl, a1, a2⟩ | ⟨rfl, a1, a2, x, a3, a4⟩ | ⟨rfl, a1, a2, a3, a4, a5⟩ | ⟨rfl, a1, rfl⟩ | ⟨rfl, a1, rfl⟩ | ⟨rfl, a1, rfl⟩ |
          ⟨rfl, a1, rfl⟩ | ⟨rfl, a1, rfl⟩ | ⟨rfl, a1, rfl⟩ | ⟨rfl, a1, rfl⟩ | ⟨rfl, a1, rfl⟩ | ⟨rfl, a1, q, rfl, _⟩
    · rw [hnd] at a1; cases a1
    · exact absurd a1 hpm
    · have := lexAtomC_max a2 hq
      simp only [List.nil_append, List.length_cons]; omega
    all_goals first | exact absurd a1 hc'.2.2.2.2 | exact absurd a1 (n1 _ (by simp))
  rw [if_neg h]
  by_cases h1 : c = '\''
  · rw [if_pos h1]; right; exact ⟨_, _, _, rfl, rfl, by simp, small .quote h1 (fun k' p hl _ => only (by left; rw [h1]; decide) (by rw [h1]; decide) (by rw [h1]; decide) hl)⟩
  rw [if_neg h1]
  by_cases h2 : c = '`'
  · rw [if_pos h2]; right; exact ⟨_, _, _, rfl, rfl, by simp, small .syntaxQuote h2 (fun k' p hl _ => only (by left; rw [h2]; decide) (by rw [h2]; decide) (by rw [h2]; decide) hl)⟩
  rw [if_neg h2]
  by_cases h3 : c = '~'
  · rw [if_pos h3]; right
    subst h3
    have tilde : ∀ {k' : Typ} {p : List Char}, Lexeme k' ('~' :: p) → p = [] ∨ p = ['@'] := by
      intro k' p hl
      obtain ⟨d, p', e, g⟩ := lexeme_cases hl
      cases e
      rcases g with ⟨rfl, a1, a2⟩ | ⟨rfl, a1, a2, x, a3, a4⟩ | ⟨rfl, a1, a2, a3, a4, a5⟩ | ⟨rfl, a1, rfl⟩ | ⟨rfl, a1, rfl⟩ | ⟨rfl, a1, rfl⟩ |
          ⟨rfl, a1, rfl⟩ | ⟨rfl, a1, rfl⟩ | ⟨rfl, a1, rfl⟩ | ⟨rfl, a1, rfl⟩ | ⟨rfl, a1, rfl⟩ | ⟨rfl, a1, q, rfl, _⟩ <;>
        first | exact .inl rfl | exact .inr rfl | (exfalso; revert a1; decide)
    split
    · rename_i cs'
      refine ⟨_, _, _, rfl, rfl, by simp, .splicingUnquote, ⟨cs', rfl⟩, fun k' w' hl hp => ?_⟩
      obtain ⟨d, p, rfl, _⟩ := lexeme_cases hl
      obtain ⟨rfl, hq⟩ := prefix_cons hp
      rcases tilde hl with rfl | rfl <;> simp
    · rename_i hne
      refine ⟨_, _, _, rfl, rfl, by simp, small .unquote rfl (fun k' p hl hp => ?_)⟩
      rcases tilde hl with rfl | rfl
      · rfl
      · obtain ⟨t, ht⟩ := hp
        exact absurd ht.symm (hne t)
  rw [if_neg h3]
  by_cases h4 : c = '.'
  · rw [if_pos h4]; right; exact ⟨_, _, _, rfl, rfl, by simp, small .dot h4 (fun k' p hl _ => only (by right; exact h4) (by rw [h4]; decide) (by rw [h4]; decide) hl)⟩
  rw [if_neg h4]
  by_cases h5 : c = '#'
  · rw [if_pos h5]
    subst h5
    have hash : ∀ {k' : Typ} {p : List Char}, Lexeme k' ('#' :: p) → p = ['_'] ∨ ∃ q, p = '!' :: q := by
      intro k' p hl
      obtain ⟨d, p', e, g⟩ := lexeme_cases hl
      cases e
      rcases g with ⟨rfl, a1, a2⟩ | ⟨rfl, a1, a2, x, a3, a4⟩ | ⟨rfl, a1, a2, a3, a4, a5⟩ | ⟨rfl, a1, rfl⟩ | ⟨rfl, a1, rfl⟩ | ⟨rfl, a1, rfl⟩ |
          ⟨rfl, a1, rfl⟩ | ⟨rfl, a1, rfl⟩ | ⟨rfl, a1, rfl⟩ | ⟨rfl, a1, rfl⟩ | ⟨rfl, a1, rfl⟩ | ⟨rfl, a1, q, rfl, _⟩ <;>
        first | exact .inl rfl | exact .inr ⟨_, rfl⟩ | (exfalso; revert a1; decide)
    split
    · rename_i cs'
      right
      refine ⟨_, _, _, rfl, rfl, by simp, .commentNext, ⟨cs', rfl⟩, fun k' w' hl hp => ?_⟩
      obtain ⟨d, p, rfl, _⟩ := lexeme_cases hl
      obtain ⟨rfl, hq⟩ := prefix_cons hp
      rcases hash hl with rfl | ⟨q, rfl⟩
      · simp
      · exact absurd (prefix_cons hq).1 (by decide)
    · rename_i cs'
      right
      have hsp : spanC (fun x => x ≠ '\n') cs' = (cs', []) := spanC_all _ _ (List.all_eq_true.2 fun x hx => by
        simp only [decide_eq_true_eq]; rintro rfl; exact hn (by simp [hx]))
      simp only [hsp]
      refine ⟨_, _, _, rfl, by simp, by simp, .shebang cs' (fun hx => hn (by simp [hx])), ⟨[], by simp⟩, fun k' w' hl hp => ?_⟩
      exact hp.length_le
    · rename_i c' cs' hne1 hne2
      left
      refine ⟨_, rfl, rfl, fun k w hw => ?_⟩
      obtain ⟨d, p, rfl, _⟩ := lexeme_cases hw.1
      obtain ⟨rfl, hq⟩ := prefix_cons hw.2
      rcases hash hw.1 with rfl | ⟨q, rfl⟩
      · obtain ⟨t, ht⟩ := hq; cases ht; exact hne1 rfl
      · obtain ⟨t, ht⟩ := hq; cases ht; exact hne2 rfl
    · left
      refine ⟨_, rfl, rfl, fun k w hw => ?_⟩
      obtain ⟨d, p, rfl, _⟩ := lexeme_cases hw.1
      obtain ⟨rfl, hq⟩ := prefix_cons hw.2
      rcases hash hw.1 with rfl | ⟨q, rfl⟩ <;> (obtain ⟨t, ht⟩ := hq; cases ht)
  rw [if_neg h5]; left
  refine ⟨_, rfl, rfl, fun k w hw => ?_⟩
  obtain ⟨d, p, rfl, g⟩ := lexeme_cases hw.1
  obtain ⟨rfl, hq⟩ := prefix_cons hw.2
  rcases g with ⟨rfl, a1, a2⟩ | ⟨rfl, a1, a2, x, a3, a4⟩ | ⟨rfl, a1, a2, a3, a4, a5⟩ | ⟨rfl, a1, rfl⟩ | ⟨rfl, a1, rfl⟩ | ⟨rfl, a1, rfl⟩ |
          ⟨rfl, a1, rfl⟩ | ⟨rfl, a1, rfl⟩ | ⟨rfl, a1, rfl⟩ | ⟨rfl, a1, rfl⟩ | ⟨rfl, a1, rfl⟩ | ⟨rfl, a1, q, rfl, _⟩
  · rw [hnd] at a1; cases a1
  · exact absurd a1 hpm
  · exact h ((isAtomStartC_iff d).2 ⟨a1, by rw [a3]; decide, fun e => hpm (.inl e), fun e => hpm (.inr e), a4⟩)
  all_goals contradiction

theorem lexAll_space {line : Nat} {c : Char} {cs : List Char} (h : isSpaceC c = true) (pre : List Char) : lexAll line pre (c :: cs) = lexAll line [] cs := by
  rw [lexAll_cons]
  have : lexStep line pre c cs = (none, [], cs) := by unfold lexStep; rw [if_pos h]
  rw [this]; rfl

/-- C60: the tokens of a line without illegal characters are the ones the lexical grammar gives. -/
theorem C60_line_sound (n : Nat) (l : List Char) (hn : '\n' ∉ l) (he : ∀ t ∈ lexLine n l, t.typ ≠ .error) :
    LexesLine l ((lexLine n l).map (fun t => (t.typ, t.val))) := by
  rw [lexLine_eq] at he ⊢
  generalize hk : l.length = k
  induction k using Nat.strongRecOn generalizing l with
  | ind k ih =>
    cases l with
    | nil => exact .nil
    | cons c cs =>
      simp only [List.mem_cons, not_or] at hn
      rw [List.length_cons] at hk
      by_cases hs : isSpaceC c = true
      · rw [lexAll_space hs] at he ⊢
        refine .space ?_ (ih cs.length (by omega) cs hn.2 he rfl)
        unfold isSpaceC at hs
        simp only [Bool.or_eq_true, decide_eq_true_eq] at hs
        rcases hs with ((h | h) | h) | h
        · simp [h]
        · simp [h]
        · exact absurd h.symm hn.1
        · simp [h]
      by_cases hc : c = ';'
      · subst hc; rw [lexAll_comment n cs hn.2]; exact .comment cs
      rw [lexAll_cons] at he ⊢
      rcases lexStep_longest n c cs (by simpa using hs) hc hn.2 with ⟨t, h1, h2, _⟩ | ⟨k', w, rest, h1, h2, h3, h4⟩
      · exact absurd h2 (he t (by rw [h1]; simp))
      · rw [h1] at he ⊢
        rw [h2] at h4 ⊢
        simp only [Option.toList_some, List.singleton_append, List.map_cons]
        refine .token h4 (ih rest.length ?_ rest (fun hm => ?_) (fun t ht => he t (by simp [ht])) rfl)
        · obtain ⟨c', p, e, _⟩ := lexeme_cases h4.1
          have := congrArg List.length h2
          rw [List.length_append, e, List.length_cons, List.length_cons] at this; omega
        · have : '\n' ∈ c :: cs := by rw [h2]; simp [hm]
          rcases List.mem_cons.1 this with h | h
          · exact hn.1 h
          · exact hn.2 h

/-- C60: and a line the lexical grammar derives has no illegal characters, and exactly these tokens. -/
theorem C60_line_complete (n : Nat) (l : List Char) (hn : '\n' ∉ l) (ts : List (Typ × List Char)) (h : LexesLine l ts) :
    (∀ t ∈ lexLine n l, t.typ ≠ .error) ∧ (lexLine n l).map (fun t => (t.typ, t.val)) = ts := by
  rw [lexLine_eq]
  induction h with
  | nil => simp
  | @space c cs ts hc _ ih =>
    have hs : isSpaceC c = true := by
      simp only [List.mem_cons, List.not_mem_nil, or_false] at hc
      rcases hc with rfl | rfl | rfl <;> decide
    rw [lexAll_space hs]
    exact ih (fun hm => hn (by simp [hm]))
  | comment cs => rw [lexAll_comment n cs (fun hm => hn (by simp [hm]))]; simp
  | @token k w rest ts hl _ ih =>
    obtain ⟨c, p, rfl, g⟩ := lexeme_cases hl.1
    have hsp : isSpaceC c = false ∧ c ≠ ';' := by
      rcases g with ⟨rfl, a1, a2⟩ | ⟨rfl, a1 | a1, a2, x, a3, a4⟩ | ⟨rfl, a1, a2, a3, a4, a5⟩ | ⟨rfl, a1, rfl⟩ | ⟨rfl, a1, rfl⟩ | ⟨rfl, a1, rfl⟩ |
          ⟨rfl, a1, rfl⟩ | ⟨rfl, a1, rfl⟩ | ⟨rfl, a1, rfl⟩ | ⟨rfl, a1, rfl⟩ | ⟨rfl, a1, rfl⟩ | ⟨rfl, a1, q, rfl, _⟩
      · exact digit_not_space a1
      · subst a1; decide
      · subst a1; decide
      · exact ⟨(cont_not a1).1, (cont_not a1).2.1⟩
      all_goals (subst a1; decide)
    rw [List.cons_append] at hn hl ⊢
    simp only [List.mem_cons, not_or] at hn
    rw [lexAll_cons]
    rcases lexStep_longest n c (p ++ rest) hsp.1 hsp.2 hn.2 with ⟨t, h1, h2, h3⟩ | ⟨k', w', rest', h1, h2, h3, h4⟩
    · exact absurd ⟨hl.1, hl.2.1⟩ (h3 _ _)
    · obtain ⟨rfl, rfl⟩ := longest_unique hl h4
      have hr : rest = rest' := by
        rw [← List.cons_append] at h2
        exact List.append_cancel_left h2
      subst hr
      rw [h1]
      have ih := ih (fun hm => hn.2 (by simp [hm]))
      simp only [Option.toList_some, List.singleton_append, List.map_cons, ih.2, and_true]
      intro t ht
      rcases List.mem_cons.1 ht with rfl | ht
      · exact h3
      · exact ih.1 t ht

/-- C60: no line has two readings. -/
theorem C60_line_unique (l : List Char) (hn : '\n' ∉ l) (ts us : List (Typ × List Char)) (h1 : LexesLine l ts) (h2 : LexesLine l us) : ts = us :=
  (C60_line_complete 1 l hn ts h1).2.symm.trans (C60_line_complete 1 l hn us h2).2

example (ts us : List (Typ × List Char)) (h1 : LexesLine "(a)".toList ts) (h2 : LexesLine "(a)".toList us) : ts = us :=
  C60_line_unique _ (by decide) _ _ h1 h2

theorem lines_iff (cs : List Char) (ls : List (List Char)) : TextLines cs ls ↔ splitOnChar '\n' cs = ls := by
  have key : ∀ cs, List.intercalate ['\n'] (splitOnChar '\n' cs) = cs ∧ splitOnChar '\n' cs ≠ [] := by
    intro cs
    induction cs with
    | nil => simp [splitOnChar]
    | cons c cs ih =>
      rw [splitOnChar]
      by_cases h : c = '\n'
      · rw [if_pos h]
        refine ⟨?_, by simp⟩
        cases hs : splitOnChar '\n' cs with
        | nil => exact absurd hs ih.2
        | cons w ws => rw [hs] at ih; rw [List.intercalate_cons_cons, ih.1, h]; rfl
      · rw [if_neg h]
        cases hs : splitOnChar '\n' cs with
        | nil => exact absurd hs ih.2
        | cons w ws =>
          rw [hs] at ih
          refine ⟨?_, by simp⟩
          cases ws with
          | nil => simpa using ih.1
          | cons x ws =>
            have := ih.1
            rw [List.intercalate_cons_cons] at this ⊢
            simpa using this
  constructor
  · rintro ⟨h0, h1, rfl⟩
    induction ls with
    | nil => exact absurd rfl h0
    | cons l ls ih =>
      cases ls with
      | nil => rw [List.intercalate_singleton]; exact splitOnChar_none (h1 l (by simp))
      | cons m ls =>
        rw [List.intercalate_cons_cons]
        have ih := ih (by simp) (fun x hx => h1 x (by simp [hx]))
        obtain ⟨a, as, h2, h3⟩ := splitOnChar_append (sep := '\n') l ('\n' :: List.intercalate ['\n'] (m :: ls)) (h1 l (by simp))
        rw [splitOnChar, if_pos rfl] at h2
        cases h2
        rw [List.append_assoc, List.singleton_append, h3, ih]; simp
  · rintro rfl
    exact ⟨(key cs).2, (splitOnChar_spec '\n' cs).1, (key cs).1⟩

theorem lexFrom_lexes (ls : List (List Char)) : ∀ n, (∀ l ∈ ls, '\n' ∉ l) → noError (lexFrom n ls) →
    ∃ tss, List.Forall₂ LexesLine ls tss ∧ (lexFrom n ls).map (fun t : Token => (t.typ, t.val)) = tss.flatten := by
  induction ls with
  | nil => intro n _ _; exact ⟨[], .nil, rfl⟩
  | cons l ls ih =>
    intro n h1 h2
    simp only [lexFrom] at h2 ⊢
    obtain ⟨tss, h3, h4⟩ := ih (n + 1) (fun l hl => h1 l (by simp [hl])) (fun t ht => h2 t (List.mem_append_right _ ht))
    refine ⟨_, .cons (C60_line_sound n l (h1 l (by simp)) (fun t ht => h2 t (List.mem_append_left _ ht))) h3, ?_⟩
    rw [List.map_append, h4]; rfl

theorem lexes_lexFrom {ls : List (List Char)} {tss : List (List (Typ × List Char))} (h : List.Forall₂ LexesLine ls tss) :
    ∀ n, (∀ l ∈ ls, '\n' ∉ l) → (lexFrom n ls).map (fun t : Token => (t.typ, t.val)) = tss.flatten := by
  induction h with
  | nil => intro n _; rfl
  | @cons l ts ls tss h _ ih =>
    intro n hn
    simp only [lexFrom, List.map_append, List.flatten_cons]
    rw [(C60_line_complete n l (hn l (by simp)) ts h).2, ih (n + 1) (fun l hl => hn l (by simp [hl]))]

/-- C60: a text is accepted, with the forms `vs`, exactly if the grammars say so. -/
theorem C60_text (cs : List Char) (vs : List Val) : readText cs = .ok vs ↔ Reads cs vs := by
  unfold readText lexAndParse lexItems Reads
  rw [C02_grammar]
  constructor
  · intro h
    have hl := (lines_iff cs _).2 rfl
    obtain ⟨tss, h1, h2⟩ := lexFrom_lexes _ 1 hl.2.1 (Content.noError h)
    exact ⟨_, tss, _, hl, h1, h2, h⟩
  · rintro ⟨ls, tss, ts, h1, h2, h3, h4⟩
    have h5 := lexes_lexFrom h2 1 h1.2.1
    rw [(lines_iff cs ls).1 h1]
    exact Content.congr h4 (h3.trans h5.symm)

/-- A text of two lines with three forms. -/
example : Reads "(a 'b) 12 ; c\n-x".toList [vlist [.atom "a", form "quote" [.atom "b"]], .num 12, .atom "-x"] :=
  (C60_text _ _).1 (by decide +kernel)

/-- C60: and what a number means: its decimal value, negated after a `-`. -/
theorem C60_number (sign ds : List Char) (hs : sign ∈ [[], ['+'], ['-']]) (hne : ds ≠ []) (h : ∀ c ∈ ds, '0' ≤ c ∧ c ≤ '9') :
    readText (sign ++ ds) = .ok [.num (if sign = ['-'] then -((Nat.ofDigitChars 10 ds 0 : Nat) : Int) else (Nat.ofDigitChars 10 ds 0 : Nat))] := by
  rw [C60_text]
  have hu : unsigned ds = Nat.ofDigitChars 10 ds 0 := if_pos ⟨hne, h⟩
  have hn : numeral (sign ++ ds) = if sign = ['-'] then -((Nat.ofDigitChars 10 ds 0 : Nat) : Int) else (Nat.ofDigitChars 10 ds 0 : Nat) := by
    rw [← hu]
    simp only [List.mem_cons, List.not_mem_nil, or_false] at hs
    rcases hs with rfl | rfl | rfl
    · show numeral ds = _
      rw [if_neg (by simp), numeral]
      · rintro cs rfl; exact absurd (h '-' (by simp)) (by decide)
      · rintro cs rfl; exact absurd (h '+' (by simp)) (by decide)
    · rfl
    · rfl
  have hl : '\n' ∉ sign ++ ds := by
    intro hm
    rcases List.mem_append.1 hm with hm | hm
    · simp only [List.mem_cons, List.not_mem_nil, or_false] at hs
      rcases hs with rfl | rfl | rfl <;> revert hm <;> decide
    · exact absurd (h _ hm) (by decide)
  refine ⟨[sign ++ ds], [[(.number, sign ++ ds)]], [⟨.number, sign ++ ds, 1⟩], ⟨by simp, by simpa using hl, by simp⟩, .cons ?_ .nil, rfl, ?_⟩
  · have := LexesLine.token (k := .number) (w := sign ++ ds) (rest := []) (ts := []) ⟨.number sign ds hs hne h, List.prefix_append _ _, fun k' w' _ hw => by
      have := hw.length_le; simpa using this⟩ .nil
    rwa [List.append_nil] at this
  · rw [← hn]
    exact .plain (.cons (ts := [⟨.number, sign ++ ds, 1⟩]) (us := []) (.number (t := ⟨.number, sign ++ ds, 1⟩) rfl) .nil)

example : readText "-0042".toList = .ok [.num (-42)] :=
  (C60_number ['-'] "0042".toList (by decide) (by decide) (by decide)).trans (by decide)

/-- `-12a.b~@+` is four tokens: the number -12, the atom `a.b`, the splice and the atom `+`. -/
example : LexesLine "-12a.b~@+".toList [(.number, "-12".toList), (.atom, "a.b".toList), (.splicingUnquote, "~@".toList), (.atom, "+".toList)] := by
  have := C60_line_sound 1 "-12a.b~@+".toList (by decide) (by decide +kernel)
  have e : (lexLine 1 "-12a.b~@+".toList).map (fun t => (t.typ, t.val))
      = [(.number, "-12".toList), (.atom, "a.b".toList), (.splicingUnquote, "~@".toList), (.atom, "+".toList)] := by decide +kernel
  rwa [e] at this
/-- `@` alone is no token. -/
example (ts : List (Typ × List Char)) : ¬ LexesLine "a @b".toList ts := fun h => by
  have := (C60_line_complete 1 _ (by decide) ts h).1
  revert this; decide +kernel

end L1
