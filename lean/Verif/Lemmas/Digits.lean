import Verif.Lemmas.Monad
/- Decimal text of integers. -/
set_option autoImplicit false
namespace L1

theorem isDigitC_iff (c : Char) : isDigitC c = true ↔ c.isDigit = true := by
  simp [isDigitC, Char.isDigit, Char.le_def]

theorem digits_all (n : Nat) : (Nat.toDigits 10 n).all isDigitC = true := by
  rw [List.all_eq_true]
  intro c hc
  exact (isDigitC_iff c).2 (Nat.isDigit_of_mem_toDigits (by omega) (by omega) hc)

theorem digitsVal_toDigits (n : Nat) : digitsVal (Nat.toDigits 10 n) = n := by
  have := @Nat.ofDigitChars_ten_toDigits n
  rw [Nat.ofDigitChars_eq_foldl] at this
  unfold digitsVal
  rw [← this]
  congr 1
  · funext a b; rw [Nat.mul_comm]
  · rw [this]

theorem digits_head_ne (n : Nat) (c : Char) (h : isDigitC c = false) (cs : List Char) :
    Nat.toDigits 10 n ≠ c :: cs := by
  intro e
  have := digits_all n
  rw [e] at this
  simp [h] at this

theorem numOfChars?_digits (cs : List Char) (h0 : cs ≠ []) (h : cs.all isDigitC = true) :
    numOfChars? cs = some (digitsVal cs : Int) := by
  unfold numOfChars?
  split
  · simp [isDigitC] at h
  · simp [isDigitC] at h
  · simp [h0, h]

theorem numOfChars?_intStr (n : Int) : numOfChars? (intStr n) = some n := by
  cases n with
  | ofNat k =>
    simp only [intStr]
    rw [numOfChars?_digits _ Nat.toDigits_ne_nil (digits_all k), digitsVal_toDigits]; rfl
  | negSucc k =>
    simp only [intStr, numOfChars?]
    have h1 : Nat.toDigits 10 (k + 1) ≠ [] := Nat.toDigits_ne_nil
    have h2 := digits_all (k + 1)
    rw [if_pos ⟨h1, h2⟩, digitsVal_toDigits]; rfl

theorem intStr_inj {a b : Int} (h : intStr a = intStr b) : a = b := by
  have := congrArg numOfChars? h
  rw [numOfChars?_intStr, numOfChars?_intStr] at this
  exact Option.some.inj this

theorem intStr_ne_nil (n : Int) : intStr n ≠ [] := by
  cases n with
  | ofNat k => exact Nat.toDigits_ne_nil
  | negSucc k => simp [intStr]

/-- A digit character is the text of its value. -/
theorem toDigits_digit (c : Char) (h : isDigitC c = true) :
    Nat.toDigits 10 (digitsVal [c]) = [c] := by
  have hd : 48 ≤ c.toNat ∧ c.toNat ≤ 57 := by
    simp [isDigitC, Char.le_def, UInt32.le_iff_toNat_le] at h
    exact h
  have hv : digitsVal [c] = c.toNat - 48 := by simp [digitsVal]
  have hlt : digitsVal [c] < 10 := by omega
  rw [Nat.toDigits_of_lt_base hlt, hv]
  have hc : c = Char.ofNat c.toNat := (Char.ofNat_toNat c).symm
  obtain ⟨k, hk⟩ : ∃ k, c.toNat = k + 48 ∧ k < 10 := ⟨c.toNat - 48, by omega, by omega⟩
  rw [hc, hk.1]
  have : ∀ k < 10, Nat.digitChar (Char.toNat (Char.ofNat (k + 48)) - 48) = Char.ofNat (k + 48) := by decide
  rw [this k hk.2]

end L1
