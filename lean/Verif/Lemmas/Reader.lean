import Verif.Spec.Grammar
import Verif.Lemmas.Monad
/- The parser. -/
set_option autoImplicit false
namespace L1

theorem unsigned_eq (ds : List Char) : unsigned ds = if ds ≠ [] ∧ ds.all isDigitC = true then digitsVal ds else 0 := by
  have h1 : (∀ c ∈ ds, '0' ≤ c ∧ c ≤ '9') ↔ ds.all isDigitC = true := by simp [isDigitC]
  have h2 : Nat.ofDigitChars 10 ds 0 = digitsVal ds := by
    rw [Nat.ofDigitChars_eq_foldl]
    unfold digitsVal
    congr 1
    funext a b
    omega
  unfold unsigned
  simp only [h1, h2]

/-- What the parser makes of a number token. -/
theorem numOfToken_numeral (cs : List Char) : numOfToken cs = numeral cs := by
  unfold numOfToken numOfChars?
  split
  · rw [numeral, unsigned_eq]; split <;> simp
  · rw [numeral, unsigned_eq]; split <;> simp
  · next h1 h2 =>
    rw [numeral]
    · rw [unsigned_eq]; split <;> simp
    · exact fun ds h => h1 ds h
    · exact fun ds h => h2 ds h

theorem prefixName_sugar (t : Typ) : prefixName t = sugar t := by cases t <;> rfl

/-! ### Chunks -/

theorem listChunk_some (ts : List Token) : ∀ (i : Nat) (L : Int) (n : Nat) (b : Bool), listChunk i L ts = some (n, b) →
    ∃ mid t rest, ts = mid ++ t :: rest ∧ n = i + mid.length ∧ t.typ = (if b then .dot else .rparen) := by
  induction ts with
  | nil => intro i L n b h; cases h
  | cons t ts ih =>
    intro i L n b h
    unfold listChunk at h
    have hrec : ∀ L', listChunk (i + 1) L' ts = some (n, b) → ∃ mid t' rest, t :: ts = mid ++ t' :: rest ∧ n = i + mid.length ∧ t'.typ = (if b then .dot else .rparen) := by
      intro L' h'
      obtain ⟨mid, t', rest, h1, h2, h3⟩ := ih _ _ _ _ h'
      exact ⟨t :: mid, t', rest, by rw [h1]; rfl, by rw [h2, List.length_cons]; omega, h3⟩
    cases ht : t.typ <;> rw [ht] at h <;> simp only [] at h
    case lparen => exact hrec _ h
    case rparen =>
      by_cases hl : L - 1 = 0
      · rw [if_pos hl] at h; cases h; exact ⟨[], t, ts, rfl, rfl, ht⟩
      · rw [if_neg hl] at h; exact hrec _ h
    case dot =>
      by_cases hl : L = 1
      · rw [if_pos hl] at h; cases h; exact ⟨[], t, ts, rfl, rfl, ht⟩
      · rw [if_neg hl] at h; exact hrec _ h
    all_goals exact hrec _ h

theorem dotChunk_some (ts : List Token) : ∀ (i : Nat) (L : Int) (n : Nat), dotChunk i L ts = some n →
    ∃ mid t rest, ts = mid ++ t :: rest ∧ n = i + mid.length ∧ t.typ = .rparen := by
  induction ts with
  | nil => intro i L n h; cases h
  | cons t ts ih =>
    intro i L n h
    unfold dotChunk at h
    have hrec : ∀ L', dotChunk (i + 1) L' ts = some n → ∃ mid t' rest, t :: ts = mid ++ t' :: rest ∧ n = i + mid.length ∧ t'.typ = .rparen := by
      intro L' h'
      obtain ⟨mid, t', rest, h1, h2, h3⟩ := ih _ _ _ h'
      exact ⟨t :: mid, t', rest, by rw [h1]; rfl, by rw [h2, List.length_cons]; omega, h3⟩
    cases ht : t.typ <;> rw [ht] at h <;> simp only [] at h
    case lparen => exact hrec _ h
    case rparen =>
      by_cases hl : L - 1 = 0
      · rw [if_pos hl] at h; cases h; exact ⟨[], t, ts, rfl, rfl, ht⟩
      · rw [if_neg hl] at h; exact hrec _ h
    all_goals exact hrec _ h

/-- `parseList` is called at an opening parenthesis: the first closing one or dot comes after it. -/
theorem listChunk_lparen {l : Token} {ts : List Token} {n : Nat} {b : Bool} (hl : l.typ = .lparen) (h : listChunk 0 0 (l :: ts) = some (n, b)) :
    ∃ mid t rest, ts = mid ++ t :: rest ∧ n = mid.length + 1 ∧ t.typ = (if b then .dot else .rparen) := by
  have h2 : listChunk 1 1 ts = some (n, b) := by
    unfold listChunk at h; rw [hl] at h; exact h
  obtain ⟨mid, t, rest, h1, h3, h4⟩ := listChunk_some ts _ _ _ _ h2
  exact ⟨mid, t, rest, h1, by omega, h4⟩

theorem dotChunk_dot {d : Token} {ts : List Token} {n : Nat} (hd : d.typ = .dot) (h : dotChunk 0 1 (d :: ts) = some n) :
    ∃ mid t rest, ts = mid ++ t :: rest ∧ n = mid.length + 1 ∧ t.typ = .rparen := by
  have h2 : dotChunk 1 1 ts = some n := by
    unfold dotChunk at h; rw [hd] at h; exact h
  obtain ⟨mid, t, rest, h1, h3, h4⟩ := dotChunk_some ts _ _ _ h2
  exact ⟨mid, t, rest, h1, by omega, h4⟩

/-- The two shapes `parseList` can meet. -/
theorem parseList_cases {l : Token} {ts : List Token} (hl : l.typ = .lparen) (k : Nat) :
    (parseList (k + 1) (l :: ts) = perr "unbalanced parens" ∧ listChunk 0 0 (l :: ts) = none) ∨
    (∃ mid r rest, ts = mid ++ r :: rest ∧ r.typ = .rparen ∧ listChunk 0 0 (l :: ts) = some (mid.length + 1, false) ∧
      parseList (k + 1) (l :: ts) = (parse k mid).bind fun vs => .ok (vlist vs, mid.length + 2)) ∨
    (∃ mid d rest, ts = mid ++ d :: rest ∧ d.typ = .dot ∧ listChunk 0 0 (l :: ts) = some (mid.length + 1, true) ∧
      dotChunk 0 1 (d :: rest) = none ∧
      parseList (k + 1) (l :: ts) = (parse k mid).bind fun _ => perr "unbalanced parens") ∨
    (∃ mid d mid2 r rest, ts = mid ++ d :: (mid2 ++ r :: rest) ∧ d.typ = .dot ∧ r.typ = .rparen ∧
      listChunk 0 0 (l :: ts) = some (mid.length + 1, true) ∧ dotChunk 0 1 (d :: (mid2 ++ r :: rest)) = some (mid2.length + 1) ∧
      parseList (k + 1) (l :: ts) = (parse k mid).bind fun vs => (parse k mid2).bind fun ws =>
        match ws with
        | [] => .crash
        | w :: _ => .ok (mkList vs w, mid.length + mid2.length + 3)) := by
  cases hc : listChunk 0 0 (l :: ts) with
  | none => left; refine ⟨?_, rfl⟩; unfold parseList; rw [hc]
  | some p =>
    obtain ⟨n, b⟩ := p
    obtain ⟨mid, t, rest, h1, h2, h3⟩ := listChunk_lparen hl hc
    cases b with
    | false =>
      right; left
      refine ⟨mid, t, rest, h1, h3, by rw [h2], ?_⟩
      unfold parseList; rw [hc]
      have : ((l :: ts).take n).drop 1 = mid := by rw [h1, h2]; simp
      simp only [this]; rw [h2]; rfl
    | true =>
      right; right
      have hd : (l :: ts).drop n = t :: rest := by rw [h1, h2]; simp
      have hm : ((l :: ts).take n).drop 1 = mid := by rw [h1, h2]; simp
      cases hdc : dotChunk 0 1 (t :: rest) with
      | none =>
        left
        refine ⟨mid, t, rest, h1, h3, by rw [h2], hdc, ?_⟩
        unfold parseList; rw [hc]
        simp only [hm, hd, hdc]
      | some m =>
        right
        obtain ⟨mid2, r, rest2, h4, h5, h6⟩ := dotChunk_dot (by rw [h3]; rfl) hdc
        subst h4
        refine ⟨mid, t, mid2, r, rest2, h1, h3, h6, by rw [h2], by rw [hdc, h5], ?_⟩
        have hm2 : ((l :: ts).take (n + m)).drop (n + 1) = mid2 := by
          rw [h1, h2, h5]
          have e1 : l :: (mid ++ t :: (mid2 ++ r :: rest2)) = (l :: mid ++ [t]) ++ (mid2 ++ r :: rest2) := by simp
          rw [e1, List.drop_take, List.drop_append_of_le_length (by simp)]
          rw [List.drop_of_length_le (by simp), List.nil_append]
          have : mid.length + 1 + (mid2.length + 1) - (mid.length + 1 + 1) = mid2.length := by omega
          rw [this]; simp
        unfold parseList; rw [hc]
        simp only [hm, hd, hdc, hm2]
        have : n + m + 1 = mid.length + mid2.length + 3 := by omega
        rw [this]
        rfl

/-- `parseNext`, by the kind of token. -/
theorem parseNext_sugar {k : Nat} {t : Token} {ts : List Token} {op : String} (h : sugar t.typ = some op) :
    parseNext (k + 1) (t :: ts) = ((match ts with
       | [] => perr "unexpected end of input"
       | _ :: _ => (parseNext k ts).extend "handleQuoteItem parseNext").extend
          ("parseNext " ++ prefixItem t.typ ++ " handleQuoteItem")).bind fun r => .ok (.cons (.atom op) (.cons r.1 .nil), r.2 + 1) := by
  rw [parseNext.eq_def]; simp only []; rw [prefixName_sugar, h]; rfl

theorem parseNext_lparen {k : Nat} {t : Token} {ts : List Token} (h : t.typ = .lparen) :
    parseNext (k + 1) (t :: ts) = (parseList k (t :: ts)).extend "parseNext itemLeftParen parseList" := by
  rw [parseNext.eq_def]; simp only []; rw [prefixName_sugar, h]; rfl

theorem PRes.extend_eq_ok {α : Type} {m : String} {r : PRes α} {a : α} : r.extend m = .ok a ↔ r = .ok a := by
  cases r <;> simp [PRes.extend]

theorem PRes.bind_eq_ok {α β : Type} {r : PRes α} {f : α → PRes β} {b : β} : r.bind f = .ok b ↔ ∃ a, r = .ok a ∧ f a = .ok b := by
  cases r <;> simp [PRes.bind]

/-! ### Soundness -/

theorem parse_sound (k : Nat) :
    (∀ ts v n, parseNext k ts = .ok (v, n) → ∃ pre rest, ts = pre ++ rest ∧ pre.length = n ∧ Form pre v) ∧
    (∀ l ts v n, l.typ = .lparen → parseList k (l :: ts) = .ok (v, n) → ∃ pre rest, l :: ts = pre ++ rest ∧ pre.length = n ∧ Form pre v) ∧
    (∀ ts vs, parse k ts = .ok vs → Content ts vs) ∧
    (∀ ts vs, parseForms k ts = .ok vs → Forms ts vs) := by
  induction k with
  | zero =>
    refine ⟨fun ts v n h => ?_, fun l ts v n hl h => ?_, fun ts vs h => ?_, fun ts vs h => ?_⟩
    · rw [parseNext] at h; cases h
    · rw [parseList] at h; cases h
    · rw [parse] at h; cases h
    · rw [parseForms] at h; cases h
  | succ k ih =>
    obtain ⟨ih1, ih2, ih3, ih4⟩ := ih
    refine ⟨?_, ?_, ?_, ?_⟩
    · intro ts v n h
      cases ts with
      | nil => rw [parseNext] at h; cases h
      | cons t ts =>
        cases hs : sugar t.typ with
        | some op =>
          rw [parseNext_sugar hs, PRes.bind_eq_ok] at h
          obtain ⟨⟨v', n'⟩, h1, h2⟩ := h
          rw [PRes.extend_eq_ok] at h1
          cases h2
          cases ts with
          | nil => cases h1
          | cons t' ts =>
            rw [PRes.extend_eq_ok] at h1
            obtain ⟨pre, rest, h3, h4, h5⟩ := ih1 _ _ _ h1
            exact ⟨t :: pre, rest, by rw [h3]; rfl, by simp [h4], .sugared hs h5⟩
        | none =>
          cases ht : t.typ
          case lparen =>
            rw [parseNext_lparen ht, PRes.extend_eq_ok] at h
            exact ih2 _ _ _ _ ht h
          case number =>
            rw [parseNext.eq_def] at h; simp only [] at h; rw [prefixName_sugar, hs, ht] at h
            cases h; rw [numOfToken_numeral]; exact ⟨[t], ts, rfl, rfl, .number ht⟩
          case atom =>
            rw [parseNext.eq_def] at h; simp only [] at h; rw [prefixName_sugar, hs, ht] at h
            cases h; exact ⟨[t], ts, rfl, rfl, .atom ht⟩
          all_goals (rw [ht] at hs; first | (cases hs; done) | (rw [parseNext.eq_def] at h; simp only [] at h; rw [prefixName_sugar, ht, hs] at h; cases h))
    · intro l ts v n hl h
      rcases parseList_cases hl k (ts := ts) with ⟨h1, _⟩ | ⟨mid, r, rest, h1, h2, _, h3⟩ | ⟨mid, d, rest, h1, h2, _, _, h3⟩ |
          ⟨mid, d, mid2, r, rest, h1, h2, h3, _, _, h4⟩
      · rw [h1] at h; cases h
      · rw [h3, PRes.bind_eq_ok] at h
        obtain ⟨vs, h4, h5⟩ := h
        cases h5
        exact ⟨l :: (mid ++ [r]), rest, by rw [h1]; simp, by simp, .list hl h2 (ih3 _ _ h4)⟩
      · rw [h3, PRes.bind_eq_ok] at h
        obtain ⟨vs, h4, h5⟩ := h
        cases h5
      · rw [h4, PRes.bind_eq_ok] at h
        obtain ⟨vs, h5, h6⟩ := h
        rw [PRes.bind_eq_ok] at h6
        obtain ⟨ws, h6, h7⟩ := h6
        cases ws with
        | nil => cases h7
        | cons w ws =>
          cases h7
          exact ⟨l :: (mid ++ d :: (mid2 ++ [r])), rest, by rw [h1]; simp, by simp; omega, .dotted hl h2 h3 (ih3 _ _ h5) (ih3 _ _ h6)⟩
    · intro ts vs h
      rw [parse.eq_def] at h; simp only [] at h
      cases ts with
      | nil => cases h; exact .plain .nil
      | cons t ts =>
        simp only [] at h
        by_cases hs : t.typ = .shebang
        · rw [if_pos hs] at h; exact .shebang hs (ih4 _ _ h)
        · rw [if_neg hs] at h; exact .plain (ih4 _ _ h)
    · intro ts vs h
      rw [parseForms.eq_def] at h; simp only [] at h
      cases ts with
      | nil => cases h; exact .nil
      | cons t ts =>
        simp only [] at h
        rw [PRes.bind_eq_ok] at h
        obtain ⟨⟨v, n⟩, h1, h2⟩ := h
        rw [PRes.extend_eq_ok] at h1
        rw [PRes.bind_eq_ok] at h2
        obtain ⟨ws, h2, h3⟩ := h2
        cases h3
        obtain ⟨pre, rest, h4, h5, h6⟩ := ih1 _ _ _ h1
        have hrest : (t :: ts).drop n = rest := by rw [h4, ← h5]; simp
        rw [hrest] at h2
        rw [h4]
        exact .cons h6 (ih4 _ _ h2)

/-! ### Completeness -/

theorem sugar_plain {t : Token} {op : String} (h : sugar t.typ = some op) : t.typ ≠ .lparen ∧ t.typ ≠ .rparen ∧ t.typ ≠ .dot := by
  refine ⟨?_, ?_, ?_⟩ <;> intro e <;> rw [e] at h <;> cases h

theorem listChunk_plain {t : Token} (h1 : t.typ ≠ .lparen) (h2 : t.typ ≠ .rparen) (h3 : t.typ ≠ .dot) (i : Nat) (L : Int) (ts : List Token) :
    listChunk i L (t :: ts) = listChunk (i + 1) L ts := by
  rw [listChunk]
  cases ht : t.typ <;> first | rfl | (exact absurd ht (by assumption))

theorem dotChunk_plain {t : Token} (h1 : t.typ ≠ .lparen) (h2 : t.typ ≠ .rparen) (i : Nat) (L : Int) (ts : List Token) :
    dotChunk i L (t :: ts) = dotChunk (i + 1) L ts := by
  rw [dotChunk]
  cases ht : t.typ <;> first | rfl | (exact absurd ht (by assumption))

theorem listChunk_l {t : Token} (h : t.typ = .lparen) (i : Nat) (L : Int) (ts : List Token) :
    listChunk i L (t :: ts) = listChunk (i + 1) (L + 1) ts := by rw [listChunk, h]

theorem dotChunk_l {t : Token} (h : t.typ = .lparen) (i : Nat) (L : Int) (ts : List Token) :
    dotChunk i L (t :: ts) = dotChunk (i + 1) (L + 1) ts := by rw [dotChunk, h]

theorem listChunk_r {t : Token} (h : t.typ = .rparen) (i : Nat) {L : Int} (hL : 2 ≤ L) (ts : List Token) :
    listChunk i L (t :: ts) = listChunk (i + 1) (L - 1) ts := by
  rw [listChunk, h]; simp only []; rw [if_neg (by omega)]

theorem dotChunk_r {t : Token} (h : t.typ = .rparen) (i : Nat) {L : Int} (hL : 2 ≤ L) (ts : List Token) :
    dotChunk i L (t :: ts) = dotChunk (i + 1) (L - 1) ts := by
  rw [dotChunk, h]; simp only []; rw [if_neg (by omega)]

theorem listChunk_d {t : Token} (h : t.typ = .dot) (i : Nat) {L : Int} (hL : 2 ≤ L) (ts : List Token) :
    listChunk i L (t :: ts) = listChunk (i + 1) L ts := by
  rw [listChunk, h]; simp only []; rw [if_neg (by omega)]

theorem dotChunk_d {t : Token} (h : t.typ = .dot) (i : Nat) (L : Int) (ts : List Token) :
    dotChunk i L (t :: ts) = dotChunk (i + 1) L ts := by
  rw [dotChunk, h]

/-- Both scanners pass over a token sequence. -/
def Passed (ts : List Token) : Prop := ∀ (i : Nat) (L : Int) (rest : List Token), 1 ≤ L →
  listChunk i L (ts ++ rest) = listChunk (i + ts.length) L rest ∧ dotChunk i L (ts ++ rest) = dotChunk (i + ts.length) L rest

theorem Passed.nil : Passed [] := fun _ _ _ _ => ⟨rfl, rfl⟩

theorem Passed.append {ts us : List Token} (h1 : Passed ts) (h2 : Passed us) : Passed (ts ++ us) := by
  intro i L rest hL
  rw [List.append_assoc, List.length_append, ← Nat.add_assoc]
  exact ⟨(h1 i L _ hL).1.trans (h2 _ L _ hL).1, (h1 i L _ hL).2.trans (h2 _ L _ hL).2⟩

theorem Passed.one {t : Token} (h1 : t.typ ≠ .lparen) (h2 : t.typ ≠ .rparen) (h3 : t.typ ≠ .dot) : Passed [t] :=
  fun _ _ _ _ => ⟨listChunk_plain h1 h2 h3 _ _ _, dotChunk_plain h1 h2 _ _ _⟩

mutual
theorem Form.passed {ts : List Token} {v : Val} (h : Form ts v) : Passed ts := by
  match ts, v, h with
  | _, _, Form.number h => exact .one (by rw [h]; decide) (by rw [h]; decide) (by rw [h]; decide)
  | _, _, Form.atom h => exact .one (by rw [h]; decide) (by rw [h]; decide) (by rw [h]; decide)
  | _, _, Form.sugared h hf =>
    obtain ⟨h1, h2, h3⟩ := sugar_plain h
    exact Passed.append (.one h1 h2 h3) hf.passed
  | _, _, @Form.list l r ts vs hl hr hi =>
    intro i L rest hL
    have hp := hi.passed
    rw [List.cons_append, List.append_assoc]
    have e : i + (l :: (ts ++ [r])).length = i + 1 + ts.length + 1 := by simp; omega
    have e2 : L + 1 - 1 = L := by omega
    rw [listChunk_l hl, dotChunk_l hl, (hp _ _ _ (by omega)).1, (hp _ _ _ (by omega)).2, List.singleton_append,
      listChunk_r hr _ (by omega), dotChunk_r hr _ (by omega), e, e2]
    exact ⟨rfl, rfl⟩
  | _, _, @Form.dotted l d r ts us vs ws w hl hd hr hi hj =>
    intro i L rest hL
    have hp := hi.passed
    have hq := hj.passed
    have e0 : (l :: (ts ++ d :: (us ++ [r]))) ++ rest = l :: (ts ++ (d :: (us ++ (r :: rest)))) := by simp
    rw [e0]
    have e : i + (l :: (ts ++ d :: (us ++ [r]))).length = i + 1 + ts.length + 1 + us.length + 1 := by simp; omega
    have e2 : L + 1 - 1 = L := by omega
    rw [listChunk_l hl, dotChunk_l hl, (hp _ _ _ (by omega)).1, (hp _ _ _ (by omega)).2,
      listChunk_d hd _ (by omega), dotChunk_d hd _, (hq _ _ _ (by omega)).1, (hq _ _ _ (by omega)).2,
      listChunk_r hr _ (by omega), dotChunk_r hr _ (by omega), e, e2]
    exact ⟨rfl, rfl⟩

theorem Content.passed {ts : List Token} {vs : List Val} (h : Content ts vs) : Passed ts := by
  match ts, vs, h with
  | _, _, Content.plain h => exact h.passed
  | _, _, Content.shebang ht h => exact Passed.append (.one (by rw [ht]; decide) (by rw [ht]; decide) (by rw [ht]; decide)) h.passed

theorem Forms.passed {ts : List Token} {vs : List Val} (h : Forms ts vs) : Passed ts := by
  match ts, vs, h with
  | _, _, Forms.nil => exact .nil
  | _, _, Forms.cons h1 h2 => exact h1.passed.append h2.passed
end

theorem Form.ne_nil {ts : List Token} {v : Val} (h : Form ts v) : 1 ≤ ts.length := by
  cases h <;> simp

/-- `parseList` on a derivable list. -/
theorem parseList_list {l r : Token} {ts rest : List Token} {vs : List Val} (hl : l.typ = .lparen) (hr : r.typ = .rparen) (hi : Content ts vs) (k : Nat) :
    parseList (k + 1) (l :: (ts ++ r :: rest)) = (parse k ts).bind fun vs => .ok (vlist vs, ts.length + 2) := by
  have hc : listChunk 0 0 (l :: (ts ++ r :: rest)) = some (ts.length + 1, false) := by
    rw [listChunk_l hl, (hi.passed _ _ _ (by decide)).1, listChunk, hr]
    simp only []
    rw [if_pos (by decide), Nat.add_comm]
  rw [parseList.eq_def]; simp only [hc]
  have : ((l :: (ts ++ r :: rest)).take (ts.length + 1)).drop 1 = ts := by simp
  rw [this]; rfl

theorem parseList_dotted {l d r : Token} {ts us rest : List Token} {vs ws : List Val} (hl : l.typ = .lparen) (hd : d.typ = .dot) (hr : r.typ = .rparen)
    (hi : Content ts vs) (hj : Content us ws) (k : Nat) :
    parseList (k + 1) (l :: (ts ++ d :: (us ++ r :: rest))) = (parse k ts).bind fun vs => (parse k us).bind fun ws =>
        match ws with
        | [] => .crash
        | w :: _ => .ok (mkList vs w, ts.length + us.length + 3) := by
  have hc : listChunk 0 0 (l :: (ts ++ d :: (us ++ r :: rest))) = some (ts.length + 1, true) := by
    rw [listChunk_l hl, (hi.passed _ _ _ (by decide)).1, listChunk, hd]
    simp only []
    rw [if_pos (by decide), Nat.add_comm]
  have hdr : (l :: (ts ++ d :: (us ++ r :: rest))).drop (ts.length + 1) = d :: (us ++ r :: rest) := by simp
  have hc2 : dotChunk 0 1 (d :: (us ++ r :: rest)) = some (us.length + 1) := by
    rw [dotChunk_d hd, (hj.passed _ _ _ (by decide)).2, dotChunk, hr]
    simp only []
    rw [if_pos (by decide), Nat.add_comm]
  have e1 : ((l :: (ts ++ d :: (us ++ r :: rest))).take (ts.length + 1)).drop 1 = ts := by simp
  have e2 : ((l :: (ts ++ d :: (us ++ r :: rest))).take (ts.length + 1 + (us.length + 1))).drop (ts.length + 1 + 1) = us := by
    have e1 : l :: (ts ++ d :: (us ++ r :: rest)) = (l :: ts ++ [d]) ++ (us ++ r :: rest) := by simp
    rw [e1, List.drop_take, List.drop_append_of_le_length (by simp)]
    rw [List.drop_of_length_le (by simp), List.nil_append]
    have : ts.length + 1 + (us.length + 1) - (ts.length + 1 + 1) = us.length := by omega
    rw [this]; simp
  have e3 : ts.length + 1 + (us.length + 1) + 1 = ts.length + us.length + 3 := by omega
  rw [parseList.eq_def]; simp only [hc, hdr, hc2, e1, e2, e3]
  rfl

theorem parse_shebang {k : Nat} {t : Token} {ts : List Token} (h : t.typ = .shebang) : parse (k + 1) (t :: ts) = parseForms k ts := by
  rw [parse.eq_def]; simp only []; rw [if_pos h]

theorem Form.not_shebang {t : Token} {ts : List Token} {v : Val} (h : Form (t :: ts) v) : t.typ ≠ .shebang := by
  intro e
  cases h with
  | number h => rw [e] at h; cases h
  | atom h => rw [e] at h; cases h
  | sugared h => rw [e] at h; cases h
  | list h => rw [e] at h; cases h
  | dotted h => rw [e] at h; cases h

theorem Forms.not_shebang {t : Token} {ts : List Token} {vs : List Val} (h : Forms (t :: ts) vs) : t.typ ≠ .shebang := by
  generalize hx : t :: ts = x at h
  cases h with
  | nil => cases hx
  | @cons as bs v vs h1 h2 =>
    cases as with
    | nil => exact absurd h1.ne_nil (by decide)
    | cons a as =>
      cases hx
      exact h1.not_shebang

theorem parse_forms {k : Nat} {ts : List Token} {vs : List Val} (h : Forms ts vs) : parse (k + 2) ts = parseForms (k + 1) ts := by
  cases ts with
  | nil => rfl
  | cons t ts => rw [parse.eq_def]; simp only []; rw [if_neg h.not_shebang]

mutual
theorem Form.complete {ts : List Token} {v : Val} (h : Form ts v) : ∃ K, ∀ k, K ≤ k → ∀ rest, parseNext k (ts ++ rest) = .ok (v, ts.length) := by
  match ts, v, h with
  | _, _, @Form.number t h =>
    refine ⟨1, fun k hk rest => ?_⟩
    obtain ⟨k, rfl⟩ : ∃ j, k = j + 1 := ⟨k - 1, by omega⟩
    show parseNext (k + 1) (t :: rest) = _
    rw [parseNext.eq_def]; simp only []; rw [h, ← numOfToken_numeral]; rfl
  | _, _, @Form.atom t h =>
    refine ⟨1, fun k hk rest => ?_⟩
    obtain ⟨k, rfl⟩ : ∃ j, k = j + 1 := ⟨k - 1, by omega⟩
    show parseNext (k + 1) (t :: rest) = _
    rw [parseNext.eq_def]; simp only []; rw [h]; rfl
  | _, _, @Form.sugared t op ts v hs hf =>
    obtain ⟨K, hK⟩ := hf.complete
    refine ⟨K + 1, fun k hk rest => ?_⟩
    obtain ⟨k, rfl⟩ : ∃ j, k = j + 1 := ⟨k - 1, by omega⟩
    show parseNext (k + 1) (t :: (ts ++ rest)) = _
    rw [parseNext_sugar hs]
    have hne := hf.ne_nil
    cases ts with
    | nil => exact absurd hne (by decide)
    | cons t' ts =>
      have := hK k (by omega) rest
      rw [List.cons_append] at this ⊢
      simp only [this]
      rfl
  | _, _, @Form.list l r ts vs hl hr hi =>
    obtain ⟨K, hK⟩ := hi.complete
    refine ⟨K + 2, fun k hk rest => ?_⟩
    obtain ⟨k, rfl⟩ : ∃ j, k = j + 2 := ⟨k - 2, by omega⟩
    have e : (l :: (ts ++ [r])) ++ rest = l :: (ts ++ r :: rest) := by simp
    rw [e, parseNext_lparen hl, parseList_list hl hr hi, hK k (by omega)]
    simp [PRes.bind, PRes.extend]
  | _, _, @Form.dotted l d r ts us vs ws w hl hd hr hi hj =>
    obtain ⟨K, hK⟩ := hi.complete
    obtain ⟨J, hJ⟩ := hj.complete
    refine ⟨K + J + 2, fun k hk rest => ?_⟩
    obtain ⟨k, rfl⟩ : ∃ j, k = j + 2 := ⟨k - 2, by omega⟩
    have e : (l :: (ts ++ d :: (us ++ [r]))) ++ rest = l :: (ts ++ d :: (us ++ r :: rest)) := by simp
    rw [e, parseNext_lparen hl, parseList_dotted hl hd hr hi hj, hK k (by omega), PRes.bind, hJ k (by omega)]
    simp [PRes.bind, PRes.extend]
    omega

theorem Content.complete {ts : List Token} {vs : List Val} (h : Content ts vs) : ∃ K, ∀ k, K ≤ k → parse k ts = .ok vs := by
  match ts, vs, h with
  | _, _, Content.plain h =>
    obtain ⟨K, hK⟩ := h.complete
    refine ⟨K + 2, fun k hk => ?_⟩
    obtain ⟨k, rfl⟩ : ∃ j, k = j + 2 := ⟨k - 2, by omega⟩
    rw [parse_forms h, hK _ (by omega)]
  | _, _, Content.shebang ht h =>
    obtain ⟨K, hK⟩ := h.complete
    refine ⟨K + 1, fun k hk => ?_⟩
    obtain ⟨k, rfl⟩ : ∃ j, k = j + 1 := ⟨k - 1, by omega⟩
    rw [parse_shebang ht, hK _ (by omega)]

theorem Forms.complete {ts : List Token} {vs : List Val} (h : Forms ts vs) : ∃ K, ∀ k, K ≤ k → parseForms k ts = .ok vs := by
  match ts, vs, h with
  | _, _, Forms.nil =>
    refine ⟨1, fun k hk => ?_⟩
    obtain ⟨k, rfl⟩ : ∃ j, k = j + 1 := ⟨k - 1, by omega⟩
    rw [parseForms.eq_def]
  | _, _, @Forms.cons ts us v vs h1 h2 =>
    obtain ⟨K, hK⟩ := h1.complete
    obtain ⟨J, hJ⟩ := h2.complete
    refine ⟨K + J + 1, fun k hk => ?_⟩
    obtain ⟨k, rfl⟩ : ∃ j, k = j + 1 := ⟨k - 1, by omega⟩
    have hn := h1.ne_nil
    have e1 := hK k (by omega) us
    have e2 := hJ k (by omega)
    have e3 : (ts ++ us).drop ts.length = us := by simp
    cases ts with
    | nil => exact absurd hn (by decide)
    | cons t ts =>
      rw [parseForms.eq_def]
      rw [List.cons_append] at e1 e3 ⊢
      simp only [e1, PRes.extend, PRes.bind, e3, e2]
end

/-! ### Budget -/

/-- More budget changes nothing once there was enough. -/
def PRes.le {α : Type} (r r' : PRes α) : Prop := r = .fuel ∨ r = r'

theorem PRes.le_refl {α : Type} (r : PRes α) : r.le r := .inr rfl

theorem PRes.le_bind {α β : Type} {r r' : PRes α} {f f' : α → PRes β} (h : r.le r') (hf : ∀ a, (f a).le (f' a)) : (r.bind f).le (r'.bind f') := by
  rcases h with h | h
  · left; rw [h]; rfl
  · subst h; cases r <;> first | exact hf _ | exact .inr rfl

theorem PRes.le_extend {α : Type} {r r' : PRes α} (m : String) (h : r.le r') : (r.extend m).le (r'.extend m) := by
  rcases h with h | h
  · left; rw [h]; rfl
  · subst h; exact .inr rfl

theorem parse_le (k : Nat) :
    (∀ ts, (parseNext k ts).le (parseNext (k + 1) ts)) ∧ (∀ ts, (parseList k ts).le (parseList (k + 1) ts)) ∧
    (∀ ts, (parse k ts).le (parse (k + 1) ts)) ∧ (∀ ts, (parseForms k ts).le (parseForms (k + 1) ts)) := by
  induction k with
  | zero =>
    refine ⟨fun ts => .inl ?_, fun ts => .inl ?_, fun ts => .inl ?_, fun ts => .inl ?_⟩
    · rw [parseNext]
    · rw [parseList]
    · rw [parse]
    · rw [parseForms]
  | succ k ih =>
    obtain ⟨ih1, ih2, ih3, ih4⟩ := ih
    refine ⟨fun ts => ?_, fun ts => ?_, fun ts => ?_, fun ts => ?_⟩
    · cases ts with
      | nil => exact .inr rfl
      | cons t ts =>
        cases hs : sugar t.typ with
        | some op =>
          rw [parseNext_sugar hs, parseNext_sugar hs]
          refine PRes.le_bind (PRes.le_extend _ ?_) (fun _ => .inr rfl)
          cases ts with
          | nil => exact .inr rfl
          | cons t' ts => exact PRes.le_extend _ (ih1 _)
        | none =>
          by_cases ht : t.typ = .lparen
          · rw [parseNext_lparen ht, parseNext_lparen ht]
            exact PRes.le_extend _ (ih2 _)
          · right
            rw [parseNext.eq_def, parseNext.eq_def (k + 1 + 1)]; simp only []; rw [prefixName_sugar, hs]
            cases h : t.typ <;> first | rfl | exact absurd h ht
    · rw [parseList.eq_def, parseList.eq_def (k + 1 + 1)]
      simp only []
      cases listChunk 0 0 ts with
      | none => exact .inr rfl
      | some p =>
        obtain ⟨n, b⟩ := p
        cases b with
        | false => exact PRes.le_bind (ih3 _) (fun _ => .inr rfl)
        | true =>
          refine PRes.le_bind (ih3 _) (fun vs => ?_)
          cases dotChunk 0 1 (ts.drop n) with
          | none => exact .inr rfl
          | some m => exact PRes.le_bind (ih3 _) (fun _ => .inr rfl)
    · rw [parse.eq_def, parse.eq_def (k + 1 + 1)]
      simp only []
      cases ts with
      | nil => exact .inr rfl
      | cons t ts =>
        by_cases h : t.typ = .shebang
        · simp only [if_pos h]; exact ih4 _
        · simp only [if_neg h]; exact ih4 _
    · rw [parseForms.eq_def, parseForms.eq_def (k + 1 + 1)]
      simp only []
      cases ts with
      | nil => exact .inr rfl
      | cons t ts =>
        exact PRes.le_bind (PRes.le_extend _ (ih1 _)) (fun r => PRes.le_bind (ih4 _) (fun _ => .inr rfl))

theorem parse_mono {k k' : Nat} (h : k ≤ k') {ts : List Token} (hn : parse k ts ≠ .fuel) : parse k' ts = parse k ts := by
  obtain ⟨j, rfl⟩ := Nat.le.dest h
  clear h
  induction j with
  | zero => rfl
  | succ j ih =>
    rcases (parse_le (k + j)).2.2.1 ts with h | h
    · rw [ih] at h; exact absurd h hn
    · rw [← Nat.add_assoc, ← h, ih]

theorem PRes.extend_fuel {α : Type} {m : String} {r : PRes α} : r.extend m = .fuel ↔ r = .fuel := by
  cases r <;> simp [PRes.extend]

theorem PRes.bind_ne_fuel {α β : Type} {r : PRes α} {f : α → PRes β} (h : r ≠ .fuel) (hf : ∀ a, r = .ok a → f a ≠ .fuel) : r.bind f ≠ .fuel := by
  cases r with
  | ok a => exact hf a rfl
  | err e => intro h; cases h
  | crash => intro h; cases h
  | fuel => exact absurd rfl h

theorem parse_adequate (k : Nat) :
    (∀ ts : List Token, 1 ≤ ts.length → 4 * ts.length ≤ k → parseNext k ts ≠ .fuel) ∧
    (∀ l ts, l.typ = .lparen → 4 * ts.length + 3 ≤ k → parseList k (l :: ts) ≠ .fuel) ∧
    (∀ ts : List Token, 4 * ts.length + 2 ≤ k → parse k ts ≠ .fuel) ∧
    (∀ ts : List Token, 4 * ts.length + 1 ≤ k → parseForms k ts ≠ .fuel) := by
  induction k with
  | zero => exact ⟨fun ts h1 h2 => by omega, fun l ts _ h => by omega, fun ts h => by omega, fun ts h => by omega⟩
  | succ k ih =>
    obtain ⟨ih1, ih2, ih3, ih4⟩ := ih
    refine ⟨fun ts h1 h2 => ?_, fun l ts hl h => ?_, fun ts h => ?_, fun ts h => ?_⟩
    · cases ts with
      | nil => simp at h1
      | cons t ts =>
        rw [List.length_cons] at h2
        cases hs : sugar t.typ with
        | some op =>
          rw [parseNext_sugar hs]
          refine PRes.bind_ne_fuel ?_ (fun _ _ h => by cases h)
          rw [ne_eq, PRes.extend_fuel]
          cases ts with
          | nil => intro h; cases h
          | cons t' ts =>
            simp only []
            rw [PRes.extend_fuel]
            exact ih1 _ (by simp) (by omega)
        | none =>
          by_cases ht : t.typ = .lparen
          · rw [parseNext_lparen ht, ne_eq, PRes.extend_fuel]
            exact ih2 _ _ ht (by omega)
          · rw [parseNext.eq_def]; simp only []; rw [prefixName_sugar, hs]
            cases h : t.typ <;> first | exact absurd h ht | (intro h; cases h)
    · rcases parseList_cases hl k (ts := ts) with ⟨h1, _⟩ | ⟨mid, r, rest, h1, h2, _, h3⟩ | ⟨mid, d, rest, h1, h2, _, _, h3⟩ |
          ⟨mid, d, mid2, r, rest, h1, h2, h3, _, _, h4⟩
      · rw [h1]; intro h; cases h
      · rw [h3]
        have : ts.length = mid.length + rest.length + 1 := by rw [h1]; simp; omega
        exact PRes.bind_ne_fuel (ih3 _ (by omega)) (fun _ _ h => by cases h)
      · rw [h3]
        have : ts.length = mid.length + rest.length + 1 := by rw [h1]; simp; omega
        exact PRes.bind_ne_fuel (ih3 _ (by omega)) (fun _ _ h => by cases h)
      · rw [h4]
        have : ts.length = mid.length + mid2.length + rest.length + 2 := by rw [h1]; simp; omega
        refine PRes.bind_ne_fuel (ih3 _ (by omega)) (fun vs _ => ?_)
        refine PRes.bind_ne_fuel (ih3 _ (by omega)) (fun ws _ => ?_)
        cases ws <;> intro h <;> cases h
    · rw [parse.eq_def]; simp only []
      cases ts with
      | nil => intro h; cases h
      | cons t ts =>
        rw [List.length_cons] at h
        by_cases h' : t.typ = .shebang
        · simp only [if_pos h']; exact ih4 _ (by omega)
        · simp only [if_neg h']; exact ih4 _ (by simp; omega)
    · rw [parseForms.eq_def]; simp only []
      cases ts with
      | nil => intro h; cases h
      | cons t ts =>
        simp only []
        refine PRes.bind_ne_fuel ?_ (fun r hr => ?_)
        · rw [ne_eq, PRes.extend_fuel]; exact ih1 _ (by simp) (by omega)
        · obtain ⟨v, n⟩ := r
          rw [PRes.extend_eq_ok] at hr
          obtain ⟨pre, rest, h1, h2, h3⟩ := (parse_sound k).1 _ _ _ hr
          have := h3.ne_nil
          refine PRes.bind_ne_fuel (ih4 _ ?_) (fun _ _ h => by cases h)
          rw [List.length_drop]; rw [List.length_cons] at *; omega

theorem parseTop_ne_fuel (ts : List Token) : parseTop ts ≠ .fuel := (parse_adequate _).2.2.1 ts (by omega)

theorem parseTop_iff (ts : List Token) (vs : List Val) : parseTop ts = .ok vs ↔ Program ts vs := by
  constructor
  · exact (parse_sound _).2.2.1 ts vs
  · intro h
    obtain ⟨K, hK⟩ := Content.complete h
    have h1 := hK (K + (4 * ts.length + 4)) (by omega)
    rw [parse_mono (k := 4 * ts.length + 4) (by omega) (parseTop_ne_fuel ts)] at h1
    exact h1

end L1
