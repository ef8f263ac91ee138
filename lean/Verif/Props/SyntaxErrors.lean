import Verif.Props.Lexical
/- C61: what reading errors say. -/
set_option autoImplicit false
namespace L1

theorem lexAll_lines (line : Nat) (k : Nat) : ∀ (pre cs : List Char), cs.length ≤ k → ∀ t ∈ lexAll line pre cs, t.line = line := by
  have step : ∀ (pre : List Char) (c : Char) (cs : List Char), ∀ t ∈ (lexStep line pre c cs).1, t.line = line := by
    intro pre c cs
    unfold lexStep
    by_cases h : isSpaceC c = true
    · rw [if_pos h]; simp
    rw [if_neg h]; clear h
    by_cases h : c = ';'
    · rw [if_pos h]; simp
    rw [if_neg h]; clear h
    by_cases h : isDigitC c = true
    · rw [if_pos h]; simp
    rw [if_neg h]; clear h
    by_cases h : (decide (c = '-') || decide (c = '+')) = true
    · rw [if_pos h]
      cases cs with
      | nil => simp
      | cons c' cs' =>
        simp only []
        by_cases h' : isDigitC c' = true
        · rw [if_pos h']; simp
        · rw [if_neg h']; simp
    rw [if_neg h]; clear h
    by_cases h : c = '('
    · rw [if_pos h]; simp
    rw [if_neg h]; clear h
    by_cases h : c = ')'
    · rw [if_pos h]; simp
    rw [if_neg h]; clear h
    by_cases h : isAtomStartC c = true
    · rw [if_pos h]; simp
    rw [if_neg h]; clear h
    by_cases h : c = '\''
    · rw [if_pos h]; simp
    rw [if_neg h]; clear h
    by_cases h : c = '`'
    · rw [if_pos h]; simp
    rw [if_neg h]; clear h
    by_cases h : c = '~'
    · rw [if_pos h]; split <;> simp
    rw [if_neg h]; clear h
    by_cases h : c = '.'
    · rw [if_pos h]; simp
    rw [if_neg h]; clear h
    by_cases h : c = '#'
    · rw [if_pos h]; split <;> simp
    rw [if_neg h]; simp
  induction k with
  | zero =>
    intro pre cs h
    cases cs with
    | nil => simp
    | cons c cs => simp at h
  | succ k ih =>
    intro pre cs h
    cases cs with
    | nil => simp
    | cons c cs =>
      rw [List.length_cons] at h
      rw [lexAll_cons]
      intro t ht
      rcases List.mem_append.1 ht with ht | ht
      · exact step pre c cs t (by simpa using ht)
      · exact ih _ _ (Nat.le_trans (lexStep_length line pre c cs) (by omega)) t ht

theorem lexFrom_line_ge (ls : List (List Char)) : ∀ n, ∀ t ∈ lexFrom n ls, n ≤ t.line := by
  induction ls with
  | nil => intro n t ht; cases ht
  | cons l ls ih =>
    intro n t ht
    rcases List.mem_append.1 ht with ht | ht
    · exact Nat.le_of_eq (lexAll_lines n _ [] l (Nat.le_refl _) t ht).symm
    · have := ih (n + 1) t ht; omega

/-- C61: the tokens of the i-th line of a text (counted from 1), and no others, carry the line number i. -/
theorem C61_line_numbers (ls : List (List Char)) (i : Nat) (l : List Char) (h : ls[i]? = some l) :
    (lexItems ls).filter (fun t => t.line == i + 1) = lexLine (i + 1) l := by
  have key : ∀ (ls : List (List Char)) (n i : Nat), ls[i]? = some l → (lexFrom n ls).filter (fun t => t.line == n + i) = lexLine (n + i) l := by
    intro ls
    induction ls with
    | nil => intro n i h; simp at h
    | cons m ls ih =>
      intro n i h
      simp only [lexFrom, List.filter_append]
      cases i with
      | zero =>
        simp only [List.getElem?_cons_zero, Option.some.injEq] at h
        subst h
        have e1 : (lexLine n m).filter (fun t => t.line == n + 0) = lexLine n m :=
          List.filter_eq_self.2 fun t ht => by simp [lexAll_lines n _ [] m (Nat.le_refl _) t ht]
        have e2 : (lexFrom (n + 1) ls).filter (fun t => t.line == n + 0) = [] :=
          List.filter_eq_nil_iff.2 fun t ht => by have := lexFrom_line_ge ls (n + 1) t ht; simp; omega
        rw [e1, e2, List.append_nil]; rfl
      | succ i =>
        rw [List.getElem?_cons_succ] at h
        have e1 : (lexLine n m).filter (fun t => t.line == n + (i + 1)) = [] :=
          List.filter_eq_nil_iff.2 fun t ht => by have := lexAll_lines n _ [] m (Nat.le_refl _) t ht; simp; omega
        have := ih (n + 1) i h
        rw [show n + 1 + i = n + (i + 1) by omega] at this
        rw [e1, this, List.nil_append]
  have := key ls 1 i h
  rwa [show 1 + i = i + 1 by omega] at this

example : (lexItems ["(a".toList, "b)".toList]).filter (fun t => t.line == 1 + 1) = lexLine (1 + 1) "b)".toList := C61_line_numbers _ _ _ rfl

/-- The messages a reading error can end with, for the given tokens. -/
def Complaint (ts : List Token) (m : String) : Prop :=
  m = "unbalanced parens" ∨ m = "unexpected end of input" ∨
  ∃ t ∈ ts, (t.typ = .rparen ∧ m = "unexpected right paren on line " ++ toString t.line) ∨
    ((t.typ = .dot ∨ t.typ = .shebang ∨ t.typ = .error) ∧ m = "unexpected lexeme '" ++ String.ofList t.val ++ "' on line " ++ toString t.line)

theorem Complaint.mono {ts us : List Token} {m : String} (h : Complaint ts m) (hs : ∀ t ∈ ts, t ∈ us) : Complaint us m := by
  rcases h with h | h | ⟨t, ht, h⟩
  · exact .inl h
  · exact .inr (.inl h)
  · exact .inr (.inr ⟨t, hs t ht, h⟩)

/-- An error with a list of messages, of which the last is a complaint about the tokens. -/
def Complains (ts : List Token) (er : Val) : Prop := ∃ ms m, er = vlist ((ms ++ [m]).map msgList) ∧ Complaint ts m

theorem Complains.mono {ts us : List Token} {er : Val} (h : Complains ts er) (hs : ∀ t ∈ ts, t ∈ us) : Complains us er := by
  obtain ⟨ms, m, h1, h2⟩ := h
  exact ⟨ms, m, h1, h2.mono hs⟩

theorem complains_perr {ts : List Token} {m : String} (h : Complaint ts m) : Complains ts (.cons (msgList m) .nil) := ⟨[], m, rfl, h⟩

theorem complains_extend {α : Type} {ts : List Token} {r : PRes α} {m : String} {er : Val} (h : r.extend m = .err er) (hr : ∀ e, r = .err e → Complains ts e) :
    Complains ts er := by
  cases r with
  | ok a => cases h
  | crash => cases h
  | fuel => cases h
  | err e =>
    cases h
    obtain ⟨ms, m', h1, h2⟩ := hr e rfl
    exact ⟨m :: ms, m', by rw [h1]; rfl, h2⟩

theorem PRes.bind_eq_err {α β : Type} {r : PRes α} {f : α → PRes β} {e : Val} (h : r.bind f = .err e) : r = .err e ∨ ∃ a, r = .ok a ∧ f a = .err e := by
  cases r with
  | ok a => exact .inr ⟨a, rfl, h⟩
  | crash => cases h
  | err e' => cases h; exact .inl rfl
  | fuel => cases h

theorem parse_complains (k : Nat) :
    (∀ ts er, parseNext k ts = .err er → Complains ts er) ∧ (∀ l ts er, l.typ = .lparen → parseList k (l :: ts) = .err er → Complains ts er) ∧
    (∀ ts er, parse k ts = .err er → Complains ts er) ∧ (∀ ts er, parseForms k ts = .err er → Complains ts er) := by
  induction k with
  | zero =>
    refine ⟨fun ts er h => ?_, fun l ts er hl h => ?_, fun ts er h => ?_, fun ts er h => ?_⟩
    · rw [parseNext] at h; cases h
    · rw [parseList] at h; cases h
    · rw [parse] at h; cases h
    · rw [parseForms] at h; cases h
  | succ k ih =>
    obtain ⟨ih1, ih2, ih3, ih4⟩ := ih
    have tail : ∀ {t : Token} {ts : List Token} {er : Val}, Complains ts er → Complains (t :: ts) er :=
      fun h => h.mono fun t ht => List.mem_cons_of_mem _ ht
    refine ⟨fun ts er h => ?_, fun l ts er hl h => ?_, fun ts er h => ?_, fun ts er h => ?_⟩
    · cases ts with
      | nil => rw [parseNext] at h; cases h; exact complains_perr (.inr (.inl rfl))
      | cons t ts =>
        cases hs : sugar t.typ with
        | some op =>
          rw [parseNext_sugar hs] at h
          rcases PRes.bind_eq_err h with h | ⟨r, _, h⟩
          · refine complains_extend h fun e he => ?_
            cases ts with
            | nil => cases he; exact complains_perr (.inr (.inl rfl))
            | cons t' ts => exact complains_extend he fun e he => tail (ih1 _ _ he)
          · cases h
        | none =>
          by_cases ht : t.typ = .lparen
          · rw [parseNext_lparen ht] at h
            exact complains_extend h fun e he => tail (ih2 _ _ _ ht he)
          · rw [parseNext.eq_def] at h; simp only [] at h; rw [prefixName_sugar, hs] at h
            cases h' : t.typ <;> rw [h'] at h hs <;> first
              | exact absurd h' ht
              | (cases hs; done)
              | (simp only [] at h; cases h; done)
              | (simp only [] at h; cases h; exact complains_perr (.inr (.inr ⟨t, by simp, .inl ⟨h', rfl⟩⟩)))
              | (simp only [] at h; cases h; exact complains_perr (.inr (.inr ⟨t, by simp, .inr ⟨by simp [h'], rfl⟩⟩)))
    · rcases parseList_cases hl k (ts := ts) with ⟨h1, _⟩ | ⟨mid, r, rest, h1, h2, _, h3⟩ | ⟨mid, d, rest, h1, h2, _, _, h3⟩ |
          ⟨mid, d, mid2, r, rest, h1, h2, h3, _, _, h4⟩
      · rw [h1] at h; cases h; exact complains_perr (.inl rfl)
      · rw [h3] at h
        rcases PRes.bind_eq_err h with h | ⟨_, _, h⟩
        · rw [h1]; exact (ih3 _ _ h).mono fun t ht => by simp [ht]
        · cases h
      · rw [h3] at h
        rcases PRes.bind_eq_err h with h | ⟨_, _, h⟩
        · rw [h1]; exact (ih3 _ _ h).mono fun t ht => by simp [ht]
        · cases h; exact complains_perr (.inl rfl)
      · rw [h4] at h
        rcases PRes.bind_eq_err h with h | ⟨vs, hvs, h⟩
        · rw [h1]; exact (ih3 _ _ h).mono fun t ht => by simp [ht]
        · rcases PRes.bind_eq_err h with h | ⟨ws, hws, h⟩
          · rw [h1]; exact (ih3 _ _ h).mono fun t ht => by simp [ht]
          · cases ws <;> cases h
    · rw [parse.eq_def] at h; simp only [] at h
      cases ts with
      | nil => cases h
      | cons t ts =>
        simp only [] at h
        by_cases hs : t.typ = .shebang
        · rw [if_pos hs] at h; exact tail (ih4 _ _ h)
        · rw [if_neg hs] at h; exact ih4 _ _ h
    · rw [parseForms.eq_def] at h; simp only [] at h
      cases ts with
      | nil => cases h
      | cons t ts =>
        simp only [] at h
        rcases PRes.bind_eq_err h with h | ⟨r, hr, h⟩
        · exact complains_extend h fun e he => ih1 _ _ he
        · rcases PRes.bind_eq_err h with h | ⟨_, _, h⟩
          · exact (ih4 _ _ h).mono fun t ht => List.mem_of_mem_drop ht
          · cases h

/-- C61: a reading error is a list of messages, the last of which says that parentheses are open, that the input ends too early, or names a misplaced
token and the line it is on. -/
theorem C61_error (cs : List Char) (er : Val) (h : readText cs = .err er) : Complains (lexItems (splitOnChar '\n' cs)) er := (parse_complains _).2.2.1 _ _ h

example : Complains (lexItems (splitOnChar '\n' "a\n(b\n c))\nd".toList)) (vlist [msgList "parse parseNext", msgList "unexpected right paren on line 3"]) :=
  C61_error _ _ (by decide +kernel)

/-- C61: a token that cannot start a form, after complete forms, is the one the error names. -/
theorem C61_first (ts rest : List Token) (vs : List Val) (t : Token) (hc : Content ts vs) :
    (t.typ = .rparen → parseTop (ts ++ t :: rest) = .err (vlist (["parse parseNext", "unexpected right paren on line " ++ toString t.line].map msgList))) ∧
    ((t.typ = .dot ∨ t.typ = .error ∨ t.typ = .shebang ∧ ts ≠ []) → parseTop (ts ++ t :: rest) =
      .err (vlist (["parse parseNext", "unexpected lexeme '" ++ String.ofList t.val ++ "' on line " ++ toString t.line].map msgList))) := by
  have go : ∀ (er : Val), (∀ k, parseNext (k + 1) (t :: rest) = .err er) → (t.typ = .shebang → ts ≠ []) →
      parseTop (ts ++ t :: rest) = .err (.cons (msgList "parse parseNext") er) := by
    intro er hnext hsh
    have forms : ∀ (us : List Token) (ws : List Val), Forms us ws → ∃ K, ∀ k, K ≤ k → parseForms k (us ++ t :: rest) = .err (.cons (msgList "parse parseNext") er) := by
      intro us ws hf
      generalize hn : us.length = n
      induction n using Nat.strongRecOn generalizing us ws with
      | ind n ih =>
        cases hf with
        | nil =>
          refine ⟨2, fun k hk => ?_⟩
          obtain ⟨k, rfl⟩ : ∃ j, k = j + 2 := ⟨k - 2, by omega⟩
          rw [List.nil_append, parseForms.eq_def]
          simp only [hnext, PRes.extend, PRes.bind]
        | @cons as bs v vs h3 h4 =>
          have hne := h3.ne_nil
          obtain ⟨K, hK⟩ := ih bs.length (by rw [List.length_append] at hn; omega) _ _ h4 rfl
          obtain ⟨J, hJ⟩ := h3.complete
          refine ⟨K + J + 1, fun k hk => ?_⟩
          obtain ⟨k, rfl⟩ : ∃ j, k = j + 1 := ⟨k - 1, by omega⟩
          have e1 := hJ k (by omega) (bs ++ t :: rest)
          have e2 := hK k (by omega)
          have e3 : (as ++ (bs ++ t :: rest)).drop as.length = bs ++ t :: rest := by simp
          rw [List.append_assoc]
          cases as with
          | nil => exact absurd hne (by decide)
          | cons a as =>
            rw [parseForms.eq_def]
            rw [List.cons_append] at e1 e3 ⊢
            simp only [e1, PRes.extend, PRes.bind, e3, e2]
    have top : ∃ K, ∀ k, K ≤ k → parse k (ts ++ t :: rest) = .err (.cons (msgList "parse parseNext") er) := by
      cases hc with
      | plain hf =>
        obtain ⟨K, hK⟩ := forms _ _ hf
        refine ⟨K + 1, fun k hk => ?_⟩
        obtain ⟨k, rfl⟩ : ∃ j, k = j + 1 := ⟨k - 1, by omega⟩
        have h0 := hK k (by omega)
        rw [parse.eq_def]; simp only []
        cases ts with
        | nil =>
          simp only [List.nil_append] at h0 ⊢
          rw [if_neg (fun h => hsh h rfl)]; exact h0
        | cons a ts => simp only [List.cons_append] at h0 ⊢; rw [if_neg hf.not_shebang]; exact h0
      | shebang hs hf =>
        obtain ⟨K, hK⟩ := forms _ _ hf
        refine ⟨K + 1, fun k hk => ?_⟩
        obtain ⟨k, rfl⟩ : ∃ j, k = j + 1 := ⟨k - 1, by omega⟩
        rw [List.cons_append, parse_shebang hs]; exact hK k (by omega)
    obtain ⟨K, hK⟩ := top
    generalize hX : ts ++ t :: rest = X at *
    have := hK (K + (4 * X.length + 4)) (by omega)
    rwa [parse_mono (k := 4 * X.length + 4) (by omega) (parseTop_ne_fuel X)] at this
  refine ⟨fun ht => go _ (fun k => ?_) (fun h => by rw [ht] at h; cases h), fun ht => go _ (fun k => ?_) (fun h => ?_)⟩
  · rw [parseNext.eq_def]; simp only []; rw [ht]; rfl
  · rw [parseNext.eq_def]; simp only []
    rcases ht with ht | ht | ⟨ht, _⟩ <;> rw [ht] <;> rfl
  · rcases ht with ht | ht | ⟨_, ht⟩
    · rw [ht] at h; cases h
    · rw [ht] at h; cases h
    · exact ht

example (rest : List Token) : parseTop ([] ++ ⟨.rparen, ")".toList, 4⟩ :: rest)
    = .err (vlist (["parse parseNext", "unexpected right paren on line " ++ toString 4].map msgList)) :=
  (C61_first [] rest [] ⟨.rparen, ")".toList, 4⟩ (.plain .nil)).1 rfl

example : readText "a\n(b\n c))\nd".toList = .err (vlist [msgList "parse parseNext", msgList "unexpected right paren on line 3"]) := by decide +kernel

end L1
