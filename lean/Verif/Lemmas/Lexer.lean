import Verif.Lemmas.Reader
/- The lexer. -/
set_option autoImplicit false
namespace L1

theorem spanC_length (p : Char → Bool) (cs : List Char) : (spanC p cs).2.length ≤ cs.length := by
  induction cs with
  | nil => exact Nat.le_refl _
  | cons c cs ih =>
    unfold spanC
    cases p c with
    | true => simp only [if_true, List.length_cons]; omega
    | false => simp

theorem toEolC_length (cs : List Char) : (toEolC cs).2.length ≤ cs.length := by
  induction cs with
  | nil => exact Nat.le_refl _
  | cons c cs ih =>
    unfold toEolC
    by_cases h : c = '\n'
    · rw [if_pos h]; simp
    · rw [if_neg h]; simp only [List.length_cons]; omega

theorem lexAtomC_length (cs : List Char) : (lexAtomC cs).2.length ≤ cs.length := by
  unfold lexAtomC
  exact Nat.le_trans (spanC_length _ _) (spanC_length _ _)

theorem lexStep_length (line : Nat) (pre : List Char) (c : Char) (cs : List Char) : (lexStep line pre c cs).2.2.length ≤ cs.length := by
  unfold lexStep
  by_cases h : isSpaceC c = true
  · rw [if_pos h]; exact Nat.le_refl _
  rw [if_neg h]; clear h
  by_cases h : c = ';'
  · rw [if_pos h]; exact toEolC_length cs
  rw [if_neg h]; clear h
  by_cases h : isDigitC c = true
  · rw [if_pos h]; exact spanC_length _ cs
  rw [if_neg h]; clear h
  by_cases h : (decide (c = '-') || decide (c = '+')) = true
  · rw [if_pos h]
    cases cs with
    | nil => exact Nat.le_refl _
    | cons c' cs' =>
      simp only []
      by_cases h' : isDigitC c' = true
      · rw [if_pos h']; exact spanC_length _ _
      · rw [if_neg h']; exact lexAtomC_length _
  rw [if_neg h]; clear h
  by_cases h : c = '('
  · rw [if_pos h]; exact Nat.le_refl _
  rw [if_neg h]; clear h
  by_cases h : c = ')'
  · rw [if_pos h]; exact Nat.le_refl _
  rw [if_neg h]; clear h
  by_cases h : isAtomStartC c = true
  · rw [if_pos h]; exact lexAtomC_length _
  rw [if_neg h]; clear h
  by_cases h : c = '\''
  · rw [if_pos h]; exact Nat.le_refl _
  rw [if_neg h]; clear h
  by_cases h : c = '`'
  · rw [if_pos h]; exact Nat.le_refl _
  rw [if_neg h]; clear h
  by_cases h : c = '~'
  · rw [if_pos h]
    split
    · simp
    · exact Nat.le_refl _
  rw [if_neg h]; clear h
  by_cases h : c = '.'
  · rw [if_pos h]; exact Nat.le_refl _
  rw [if_neg h]; clear h
  by_cases h : c = '#'
  · rw [if_pos h]
    split
    · simp
    · exact Nat.le_trans (spanC_length _ _) (by simp)
    · exact Nat.le_refl _
    · exact Nat.le_refl _
  rw [if_neg h]; exact Nat.le_refl _

/-- The tokens of a text, the lexer having moved past `pre` without emitting it. -/
def lexAll (line : Nat) (pre cs : List Char) : List Token := lexLoop line cs.length pre cs

theorem lexLoop_enough (line : Nat) (k : Nat) : ∀ (pre cs : List Char), cs.length ≤ k → lexLoop line k pre cs = lexAll line pre cs := by
  induction k using Nat.strongRecOn with
  | ind k ih =>
    intro pre cs h
    cases cs with
    | nil => cases k <;> rfl
    | cons c cs =>
      cases k with
      | zero => simp at h
      | succ k =>
        unfold lexAll
        simp only [List.length_cons, lexLoop] at h ⊢
        congr 1
        have hl := lexStep_length line pre c cs
        rw [ih k (by omega) _ _ (by omega)]
        by_cases hk : cs.length < k + 1
        · rw [ih cs.length (by omega) _ _ hl]
        · omega

@[simp] theorem lexAll_nil (line : Nat) (pre : List Char) : lexAll line pre [] = [] := rfl

theorem lexAll_cons (line : Nat) (pre : List Char) (c : Char) (cs : List Char) :
    lexAll line pre (c :: cs) = (lexStep line pre c cs).1.toList ++ lexAll line (lexStep line pre c cs).2.1 (lexStep line pre c cs).2.2 := by
  unfold lexAll
  simp only [List.length_cons, lexLoop]
  rw [lexLoop_enough _ _ _ _ (lexStep_length line pre c cs)]
  rfl

theorem lexLine_eq (line : Nat) (cs : List Char) : lexLine line cs = lexAll line [] cs := rfl

/-! ### Cutting a run of characters -/

theorem spanC_append (p : Char → Bool) (cs : List Char) (y : Char) (ys : List Char) (h : p y = false) :
    spanC p (cs ++ y :: ys) = ((spanC p cs).1, (spanC p cs).2 ++ y :: ys) := by
  induction cs with
  | nil => simp [spanC, h]
  | cons c cs ih =>
    simp only [List.cons_append, spanC]
    cases p c with
    | true => simp [ih]
    | false => simp

theorem lexAtomC_append (cs : List Char) (y : Char) (ys : List Char) (h1 : isAtomCont y = false) :
    lexAtomC (cs ++ y :: ys) = ((lexAtomC cs).1, (lexAtomC cs).2 ++ y :: ys) := by
  have h2 : isAtomStartC y = false := by unfold isAtomStartC; rw [h1]; rfl
  unfold lexAtomC
  rw [spanC_append _ _ _ _ h2]
  simp only []
  rw [spanC_append _ _ _ _ h1]

theorem spanC_all (p : Char → Bool) (cs : List Char) (h : cs.all p = true) : spanC p cs = (cs, []) := by
  induction cs with
  | nil => rfl
  | cons c cs ih =>
    simp only [List.all_cons, Bool.and_eq_true] at h
    simp only [spanC, h.1, if_true, ih h.2]

theorem spanC_eq (p : Char → Bool) (cs : List Char) : (spanC p cs).1 ++ (spanC p cs).2 = cs := by
  induction cs with
  | nil => rfl
  | cons c cs ih =>
    simp only [spanC]
    cases p c with
    | true => simp [ih]
    | false => simp

theorem spanC_fst (p : Char → Bool) (cs : List Char) : (spanC p cs).1.all p = true := by
  induction cs with
  | nil => rfl
  | cons c cs ih =>
    simp only [spanC]
    cases h : p c with
    | true => simp only [if_true, List.all_cons, h, ih, Bool.and_self]
    | false => rfl

theorem spanC_snd (p : Char → Bool) (cs : List Char) (h : cs.all p = true) : (spanC p cs).2.all p = true := by
  rw [spanC_all p cs h]; rfl

theorem all_cont_snd (p q : Char → Bool) (cs : List Char) (h : cs.all q = true) : (spanC p cs).2.all q = true := by
  have := spanC_eq p cs
  rw [← this, List.all_append, Bool.and_eq_true] at h
  exact h.2

theorem lexAtomC_all (cs : List Char) (h : cs.all isAtomCont = true) : lexAtomC cs = (cs, []) := by
  unfold lexAtomC
  simp only []
  rw [spanC_all _ _ (all_cont_snd _ _ _ h)]
  simp only []
  rw [spanC_eq]

theorem toEolC_noNewline (cs : List Char) (h : '\n' ∉ cs) : toEolC cs = (cs, []) := by
  induction cs with
  | nil => rfl
  | cons c cs ih =>
    simp only [List.mem_cons, not_or] at h
    simp only [toEolC, if_neg (Ne.symm h.1), ih h.2]

/-! ### What comes after a separator does not matter -/

/-- White space or the start of a comment. -/
def isSepC (y : Char) : Bool := isSpaceC y || y = ';'

theorem isSepC_cases {y : Char} (h : isSepC y = true) : y = ' ' ∨ y = '\t' ∨ y = '\n' ∨ y = '\r' ∨ y = ';' := by
  unfold isSepC isSpaceC at h
  simp only [Bool.or_eq_true, decide_eq_true_eq] at h
  rcases h with (((h | h) | h) | h) | h <;> simp [h]

theorem lexStep_append (line : Nat) (pre : List Char) (c : Char) (cs : List Char) (y : Char) (ys : List Char) (hy : isSepC y = true)
    (hc : c ≠ ';') (hok : ∀ t, (lexStep line pre c cs).1 = some t → t.typ ≠ .error ∧ t.typ ≠ .shebang) :
    lexStep line pre c (cs ++ y :: ys) = ((lexStep line pre c cs).1, (lexStep line pre c cs).2.1, (lexStep line pre c cs).2.2 ++ y :: ys) := by
  have y1 : isDigitC y = false := by rcases isSepC_cases hy with h | h | h | h | h <;> subst h <;> rfl
  have y2 : isAtomCont y = false := by rcases isSepC_cases hy with h | h | h | h | h <;> subst h <;> rfl
  have y3 : y ≠ '@' := by rcases isSepC_cases hy with h | h | h | h | h <;> subst h <;> decide
  unfold lexStep at hok ⊢
  by_cases h : isSpaceC c = true
  · rw [if_pos h, if_pos h]
  rw [if_neg h] at hok ⊢; rw [if_neg h]; clear h
  rw [if_neg hc] at hok ⊢; rw [if_neg hc]
  by_cases h : isDigitC c = true
  · rw [if_pos h, if_pos h, spanC_append _ _ _ _ y1]
  rw [if_neg h] at hok ⊢; rw [if_neg h]; clear h
  by_cases h : (decide (c = '-') || decide (c = '+')) = true
  · rw [if_pos h, if_pos h]
    cases cs with
    | nil =>
      simp only [List.nil_append]
      rw [if_neg (by rw [y1]; decide)]
      have := lexAtomC_append [] y ys y2
      rw [List.nil_append] at this
      rw [this]; rfl
    | cons c' cs' =>
      simp only [List.cons_append]
      by_cases h' : isDigitC c' = true
      · rw [if_pos h', if_pos h', ← List.cons_append, spanC_append _ _ _ _ y1]
      · rw [if_neg h', if_neg h', ← List.cons_append, lexAtomC_append _ _ _ y2]
  rw [if_neg h] at hok ⊢; rw [if_neg h]; clear h
  by_cases h : c = '('
  · rw [if_pos h, if_pos h]
  rw [if_neg h] at hok ⊢; rw [if_neg h]; clear h
  by_cases h : c = ')'
  · rw [if_pos h, if_pos h]
  rw [if_neg h] at hok ⊢; rw [if_neg h]; clear h
  by_cases h : isAtomStartC c = true
  · rw [if_pos h, if_pos h, lexAtomC_append _ _ _ y2]
  rw [if_neg h] at hok ⊢; rw [if_neg h]; clear h
  by_cases h : c = '\''
  · rw [if_pos h, if_pos h]
  rw [if_neg h] at hok ⊢; rw [if_neg h]; clear h
  by_cases h : c = '`'
  · rw [if_pos h, if_pos h]
  rw [if_neg h] at hok ⊢; rw [if_neg h]; clear h
  by_cases h : c = '~'
  · rw [if_pos h, if_pos h]
    cases cs with
    | nil =>
      simp only [List.nil_append]
      split
      · rename_i h'; cases h'; exact absurd rfl y3
      · rfl
    | cons c' cs' =>
      by_cases h' : c' = '@'
      · subst h'; rfl
      · simp only [List.cons_append]
        split
        · rename_i h''; cases h''; exact absurd rfl h'
        · split
          · rename_i h''; cases h''; exact absurd rfl h'
          · rfl
  rw [if_neg h] at hok ⊢; rw [if_neg h]; clear h
  by_cases h : c = '.'
  · rw [if_pos h, if_pos h]
  rw [if_neg h] at hok ⊢; rw [if_neg h]; clear h
  by_cases h : c = '#'
  · rw [if_pos h] at hok ⊢; rw [if_pos h]
    cases cs with
    | nil => exact absurd rfl (hok _ rfl).1
    | cons c' cs' =>
      by_cases h1 : c' = '_'
      · subst h1; rfl
      by_cases h2 : c' = '!'
      · subst h2; exact absurd rfl (hok _ rfl).2
      · simp only [] at hok
        exact absurd rfl (hok _ rfl).1
  rw [if_neg h] at hok
  exact absurd rfl (hok _ rfl).1

/-- A line without newlines, shebang or illegal characters. -/
def CleanLine (line : Nat) (l : List Char) : Prop :=
  '\n' ∉ l ∧ ∀ t ∈ lexLine line l, t.typ ≠ .error ∧ t.typ ≠ .shebang

theorem lexStep_comment (line : Nat) (pre : List Char) (cs : List Char) (h : '\n' ∉ cs) :
    lexStep line pre ';' cs = (none, pre ++ ';' :: cs, []) := by
  unfold lexStep
  rw [if_neg (by decide), if_pos rfl, toEolC_noNewline _ h]

theorem spanC_suffix (p : Char → Bool) (cs : List Char) : (spanC p cs).2 <:+ cs := ⟨_, spanC_eq p cs⟩

theorem toEolC_suffix (cs : List Char) : (toEolC cs).2 <:+ cs := by
  induction cs with
  | nil => exact List.suffix_rfl
  | cons c cs ih =>
    unfold toEolC
    by_cases h : c = '\n'
    · rw [if_pos h]; exact List.suffix_cons _ _
    · rw [if_neg h]; exact ih.trans (List.suffix_cons _ _)

theorem lexAtomC_suffix (cs : List Char) : (lexAtomC cs).2 <:+ cs := (spanC_suffix _ _).trans (spanC_suffix _ _)

theorem lexStep_suffix (line : Nat) (pre : List Char) (c : Char) (cs : List Char) : (lexStep line pre c cs).2.2 <:+ cs := by
  unfold lexStep
  by_cases h : isSpaceC c = true
  · rw [if_pos h]; exact List.suffix_rfl
  rw [if_neg h]; clear h
  by_cases h : c = ';'
  · rw [if_pos h]; exact toEolC_suffix cs
  rw [if_neg h]; clear h
  by_cases h : isDigitC c = true
  · rw [if_pos h]; exact spanC_suffix _ cs
  rw [if_neg h]; clear h
  by_cases h : (decide (c = '-') || decide (c = '+')) = true
  · rw [if_pos h]
    cases cs with
    | nil => exact List.suffix_rfl
    | cons c' cs' =>
      simp only []
      by_cases h' : isDigitC c' = true
      · rw [if_pos h']; exact spanC_suffix _ _
      · rw [if_neg h']; exact lexAtomC_suffix _
  rw [if_neg h]; clear h
  by_cases h : c = '('
  · rw [if_pos h]; exact List.suffix_rfl
  rw [if_neg h]; clear h
  by_cases h : c = ')'
  · rw [if_pos h]; exact List.suffix_rfl
  rw [if_neg h]; clear h
  by_cases h : isAtomStartC c = true
  · rw [if_pos h]; exact lexAtomC_suffix _
  rw [if_neg h]; clear h
  by_cases h : c = '\''
  · rw [if_pos h]; exact List.suffix_rfl
  rw [if_neg h]; clear h
  by_cases h : c = '`'
  · rw [if_pos h]; exact List.suffix_rfl
  rw [if_neg h]; clear h
  by_cases h : c = '~'
  · rw [if_pos h]
    split
    · exact List.suffix_cons _ _
    · exact List.suffix_rfl
  rw [if_neg h]; clear h
  by_cases h : c = '.'
  · rw [if_pos h]; exact List.suffix_rfl
  rw [if_neg h]; clear h
  by_cases h : c = '#'
  · rw [if_pos h]
    split
    · exact List.suffix_cons _ _
    · exact (spanC_suffix _ _).trans (List.suffix_cons _ _)
    · exact List.suffix_rfl
    · exact List.suffix_rfl
  rw [if_neg h]; exact List.suffix_rfl

theorem lexAll_append (line : Nat) (y : Char) (ys : List Char) (hy : isSepC y = true) (hn : '\n' ∉ y :: ys)
    (hx : ∀ pre, lexAll line pre (y :: ys) = []) (k : Nat) : ∀ (pre l : List Char), l.length ≤ k → '\n' ∉ l →
    (∀ t ∈ lexAll line pre l, t.typ ≠ .error ∧ t.typ ≠ .shebang) → lexAll line pre (l ++ y :: ys) = lexAll line pre l := by
  induction k with
  | zero =>
    intro pre l hl hnl hok
    cases l with
    | nil => exact hx pre
    | cons c l => simp at hl
  | succ k ih =>
    intro pre l hl hnl hok
    cases l with
    | nil => exact hx pre
    | cons c l =>
      rw [List.length_cons] at hl
      simp only [List.mem_cons, not_or] at hnl
      by_cases hc : c = ';'
      · subst hc
        rw [List.cons_append, lexAll_cons, lexAll_cons, lexStep_comment _ _ _ hnl.2,
          lexStep_comment _ _ _ (fun h => (List.mem_append.1 h).elim hnl.2 hn)]
        rfl
      · rw [lexAll_cons] at hok
        rw [List.cons_append, lexAll_cons, lexAll_cons, lexStep_append line pre c l y ys hy hc]
        · simp only []
          rw [ih]
          · exact Nat.le_trans (lexStep_length _ _ _ _) (by omega)
          · exact fun h => hnl.2 ((lexStep_suffix line pre c l).subset h)
          · intro t ht; exact hok t (by simp [ht])
        · intro t ht; exact hok t (by simp [ht])

theorem lexAll_blank (line : Nat) (w : List Char) (h : w.all isSpaceC = true) : ∀ pre, lexAll line pre w = [] := by
  induction w with
  | nil => intro pre; rfl
  | cons c w ih =>
    intro pre
    simp only [List.all_cons, Bool.and_eq_true] at h
    rw [lexAll_cons]
    have : lexStep line pre c w = (none, [], w) := by unfold lexStep; rw [if_pos h.1]
    rw [this]; simp only [Option.toList_none, List.nil_append]; exact ih h.2 []

theorem lexAll_blank_append (line : Nat) (w cs : List Char) (h : w.all isSpaceC = true) : lexAll line [] (w ++ cs) = lexAll line [] cs := by
  induction w with
  | nil => rfl
  | cons c w ih =>
    simp only [List.all_cons, Bool.and_eq_true] at h
    rw [List.cons_append, lexAll_cons]
    have : lexStep line [] c (w ++ cs) = (none, [], w ++ cs) := by unfold lexStep; rw [if_pos h.1]
    rw [this]; simp only [Option.toList_none, List.nil_append]; exact ih h.2

theorem lexAll_comment (line : Nat) (cs : List Char) (h : '\n' ∉ cs) (pre : List Char) : lexAll line pre (';' :: cs) = [] := by
  rw [lexAll_cons, lexStep_comment _ _ _ h]; rfl

/-! ### Line numbers -/

/-- A token without its line number. -/
def Token.key (t : Token) : Typ × List Char := (t.typ, t.val)

theorem lexStep_line (n m : Nat) (pre : List Char) (c : Char) (cs : List Char) :
    (lexStep n pre c cs).1.map Token.key = (lexStep m pre c cs).1.map Token.key ∧ (lexStep n pre c cs).2 = (lexStep m pre c cs).2 := by
  unfold lexStep
  by_cases h : isSpaceC c = true
  · simp only [if_pos h]; exact (by constructor <;> first | rfl | trivial)
  simp only [if_neg h]; clear h
  by_cases h : c = ';'
  · simp only [if_pos h]; exact (by constructor <;> first | rfl | trivial)
  simp only [if_neg h]; clear h
  by_cases h : isDigitC c = true
  · simp only [if_pos h]; exact (by constructor <;> first | rfl | trivial)
  simp only [if_neg h]; clear h
  by_cases h : (decide (c = '-') || decide (c = '+')) = true
  · simp only [if_pos h]
    cases cs with
    | nil => exact (by constructor <;> first | rfl | trivial)
    | cons c' cs' =>
      by_cases h' : isDigitC c' = true
      · simp only [if_pos h']; exact (by constructor <;> first | rfl | trivial)
      · simp only [if_neg h']; exact (by constructor <;> first | rfl | trivial)
  simp only [if_neg h]; clear h
  by_cases h : c = '('
  · simp only [if_pos h]; exact (by constructor <;> first | rfl | trivial)
  simp only [if_neg h]; clear h
  by_cases h : c = ')'
  · simp only [if_pos h]; exact (by constructor <;> first | rfl | trivial)
  simp only [if_neg h]; clear h
  by_cases h : isAtomStartC c = true
  · simp only [if_pos h]; exact (by constructor <;> first | rfl | trivial)
  simp only [if_neg h]; clear h
  by_cases h : c = '\''
  · simp only [if_pos h]; exact (by constructor <;> first | rfl | trivial)
  simp only [if_neg h]; clear h
  by_cases h : c = '`'
  · simp only [if_pos h]; exact (by constructor <;> first | rfl | trivial)
  simp only [if_neg h]; clear h
  by_cases h : c = '~'
  · simp only [if_pos h]
    split <;> exact (by constructor <;> first | rfl | trivial)
  simp only [if_neg h]; clear h
  by_cases h : c = '.'
  · simp only [if_pos h]; exact (by constructor <;> first | rfl | trivial)
  simp only [if_neg h]; clear h
  by_cases h : c = '#'
  · simp only [if_pos h]
    split <;> exact (by constructor <;> first | rfl | trivial)
  simp only [if_neg h]; exact (by constructor <;> first | rfl | trivial)

theorem lexAll_line (n m : Nat) (k : Nat) : ∀ (pre cs : List Char), cs.length ≤ k →
    (lexAll n pre cs).map Token.key = (lexAll m pre cs).map Token.key := by
  induction k with
  | zero =>
    intro pre cs h
    cases cs with
    | nil => rfl
    | cons c cs => simp at h
  | succ k ih =>
    intro pre cs h
    cases cs with
    | nil => rfl
    | cons c cs =>
      rw [List.length_cons] at h
      have h1 := lexStep_line n m pre c cs
      rw [lexAll_cons, lexAll_cons, List.map_append, List.map_append, ← h1.2,
        ih _ _ (Nat.le_trans (lexStep_length n pre c cs) (by omega))]
      congr 1
      have := congrArg Option.toList h1.1
      rw [Option.toList_map, Option.toList_map] at this
      exact this

theorem lexLine_line (n m : Nat) (cs : List Char) : (lexLine n cs).map Token.key = (lexLine m cs).map Token.key :=
  lexAll_line n m _ _ _ (Nat.le_refl _)

theorem lexFrom_line (n m : Nat) (ls : List (List Char)) : (lexFrom n ls).map Token.key = (lexFrom m ls).map Token.key := by
  induction ls generalizing n m with
  | nil => rfl
  | cons l ls ih => simp only [lexFrom, List.map_append]; rw [lexLine_line n m, ih (n + 1) (m + 1)]

theorem map_key_cons {t : Token} {ts us : List Token} (h : (t :: ts).map Token.key = us.map Token.key) :
    ∃ u us', us = u :: us' ∧ t.typ = u.typ ∧ t.val = u.val ∧ ts.map Token.key = us'.map Token.key := by
  cases us with
  | nil => cases h
  | cons u us' =>
    simp only [List.map_cons, List.cons.injEq] at h
    have h1 := congrArg Prod.fst h.1
    have h2 := congrArg Prod.snd h.1
    exact ⟨u, us', rfl, h1, h2, h.2⟩

theorem map_key_append {as bs us : List Token} (h : (as ++ bs).map Token.key = us.map Token.key) :
    ∃ as' bs', us = as' ++ bs' ∧ as.map Token.key = as'.map Token.key ∧ bs.map Token.key = bs'.map Token.key := by
  rw [List.map_append] at h
  obtain ⟨as', bs', h1, h2, h3⟩ := List.map_eq_append_iff.1 h.symm
  exact ⟨as', bs', h1, h2.symm, h3.symm⟩

theorem map_key_nil {us : List Token} (h : ([] : List Token).map Token.key = us.map Token.key) : us = [] := by
  cases us with
  | nil => rfl
  | cons u us => cases h

mutual
/-- The grammar does not look at line numbers. -/
theorem Form.congr {ts us : List Token} {v : Val} (h : Form ts v) (hk : ts.map Token.key = us.map Token.key) : Form us v := by
  match ts, v, h with
  | _, _, Form.number h =>
    obtain ⟨u, us', rfl, h1, h2, h3⟩ := map_key_cons hk
    rw [map_key_nil h3, h2]; exact .number (h1 ▸ h)
  | _, _, Form.atom h =>
    obtain ⟨u, us', rfl, h1, h2, h3⟩ := map_key_cons hk
    rw [map_key_nil h3, h2]; exact .atom (h1 ▸ h)
  | _, _, Form.sugared hs hf =>
    obtain ⟨u, us', rfl, h1, h2, h3⟩ := map_key_cons hk
    exact .sugared (h1 ▸ hs) (hf.congr h3)
  | _, _, Form.list hl hr hi =>
    obtain ⟨u, us', rfl, h1, h2, h3⟩ := map_key_cons hk
    obtain ⟨as, bs, rfl, h4, h5⟩ := map_key_append h3
    obtain ⟨r, bs', rfl, h6, h7, h8⟩ := map_key_cons h5
    rw [map_key_nil h8]
    exact .list (h1 ▸ hl) (h6 ▸ hr) (hi.congr h4)
  | _, _, Form.dotted hl hd hr hi hj =>
    obtain ⟨u, us', rfl, h1, h2, h3⟩ := map_key_cons hk
    obtain ⟨as, bs, rfl, h4, h5⟩ := map_key_append h3
    obtain ⟨d, bs', rfl, h6, h7, h8⟩ := map_key_cons h5
    obtain ⟨as2, bs2, rfl, h9, h10⟩ := map_key_append h8
    obtain ⟨r, bs3, rfl, h11, h12, h13⟩ := map_key_cons h10
    rw [map_key_nil h13]
    exact .dotted (h1 ▸ hl) (h6 ▸ hd) (h11 ▸ hr) (hi.congr h4) (hj.congr h9)

theorem Content.congr {ts us : List Token} {vs : List Val} (h : Content ts vs) (hk : ts.map Token.key = us.map Token.key) : Content us vs := by
  match ts, vs, h with
  | _, _, Content.plain h => exact .plain (h.congr hk)
  | _, _, Content.shebang ht h =>
    obtain ⟨u, us', rfl, h1, h2, h3⟩ := map_key_cons hk
    exact .shebang (h1 ▸ ht) (h.congr h3)

theorem Forms.congr {ts us : List Token} {vs : List Val} (h : Forms ts vs) (hk : ts.map Token.key = us.map Token.key) : Forms us vs := by
  match ts, vs, h with
  | _, _, Forms.nil => rw [map_key_nil hk]; exact .nil
  | _, _, Forms.cons h1 h2 =>
    obtain ⟨as, bs, rfl, h4, h5⟩ := map_key_append hk
    exact .cons (h1.congr h4) (h2.congr h5)
end

end L1
