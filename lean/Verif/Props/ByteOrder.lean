import Verif.Spec.Input
import Verif.Props.Data
/-
C15: the order of atoms is the order of their bytes in UTF-8, which is what Go compares.
-/
set_option autoImplicit false
namespace L1

theorem ofNat_lt {a b : Nat} (ha : a < 256) (hb : b < 256) (h : a < b) : UInt8.ofNat a < UInt8.ofNat b := by
  rw [UInt8.lt_iff_toNat_lt, UInt8.toNat_ofNat', UInt8.toNat_ofNat']; omega

theorem lex_head {x y : UInt8} {r r' : Bytes} (h : x < y) : x :: r < y :: r' := List.Lex.rel h
theorem lex_tail {x : UInt8} {r r' : Bytes} (h : r < r') : x :: r < x :: r' := List.Lex.cons h

/-- Characters in order have encodings in order, and the order does not depend on what follows. -/
theorem encode_lt {c d : Char} (h : c.val.toNat < d.val.toNat) (r r' : Bytes) : String.utf8EncodeChar c ++ r < String.utf8EncodeChar d ++ r' := by
  have hv : d.val.toNat < 0x110000 := by
    have := d.valid
    simp only [UInt32.isValidChar, Nat.isValidChar] at this
    omega
  have step : ∀ {a b : Nat} {q q' : Bytes}, a < 256 → b < 256 → (a < b ∨ a = b ∧ q < q') → UInt8.ofNat a :: q < UInt8.ofNat b :: q' := by
    intro a b q q' ha hb h
    rcases h with h | ⟨rfl, h⟩
    · exact lex_head (ofNat_lt ha hb h)
    · exact lex_tail h
  unfold String.utf8EncodeChar
  generalize c.val.toNat = u at h
  generalize d.val.toNat = v at h hv
  dsimp only
  have t1 : ∀ {a b : Nat}, a < 256 → b < 256 → a < b → UInt8.ofNat a :: r < UInt8.ofNat b :: r' := fun ha hb h => lex_head (ofNat_lt ha hb h)
  by_cases h1 : u ≤ 127
  · rw [if_pos h1]
    by_cases h2 : v ≤ 127
    · rw [if_pos h2]; exact lex_head (ofNat_lt (by omega) (by omega) h)
    · rw [if_neg h2]
      by_cases h3 : v ≤ 2047
      · rw [if_pos h3]; exact lex_head (ofNat_lt (by omega) (by omega) (by omega))
      · rw [if_neg h3]
        by_cases h4 : v ≤ 65535
        · rw [if_pos h4]; exact lex_head (ofNat_lt (by omega) (by omega) (by omega))
        · rw [if_neg h4]; exact lex_head (ofNat_lt (by omega) (by omega) (by omega))
  · rw [if_neg h1, if_neg (show ¬ v ≤ 127 by omega)]
    by_cases h2 : u ≤ 2047
    · rw [if_pos h2]
      by_cases h3 : v ≤ 2047
      · rw [if_pos h3]
        refine step (by omega) (by omega) ?_
        by_cases hq : u / 64 = v / 64
        · exact .inr ⟨by omega, lex_head (ofNat_lt (by omega) (by omega) (by omega))⟩
        · exact .inl (by omega)
      · rw [if_neg h3]
        by_cases h4 : v ≤ 65535
        · rw [if_pos h4]; exact lex_head (ofNat_lt (by omega) (by omega) (by omega))
        · rw [if_neg h4]; exact lex_head (ofNat_lt (by omega) (by omega) (by omega))
    · rw [if_neg h2, if_neg (show ¬ v ≤ 2047 by omega)]
      by_cases h3 : u ≤ 65535
      · rw [if_pos h3]
        by_cases h4 : v ≤ 65535
        · rw [if_pos h4]
          refine step (by omega) (by omega) ?_
          by_cases hq : u / 4096 = v / 4096
          · refine .inr ⟨by omega, step (by omega) (by omega) ?_⟩
            by_cases hq : u / 64 = v / 64
            · exact .inr ⟨by omega, lex_head (ofNat_lt (by omega) (by omega) (by omega))⟩
            · exact .inl (by omega)
          · exact .inl (by omega)
        · rw [if_neg h4]; exact lex_head (ofNat_lt (by omega) (by omega) (by omega))
      · rw [if_neg h3, if_neg (show ¬ v ≤ 65535 by omega)]
        refine step (by omega) (by omega) ?_
        by_cases hq : u / 262144 = v / 262144
        · refine .inr ⟨by omega, step (by omega) (by omega) ?_⟩
          by_cases hq : u / 4096 = v / 4096
          · refine .inr ⟨by omega, step (by omega) (by omega) ?_⟩
            by_cases hq : u / 64 = v / 64
            · exact .inr ⟨by omega, lex_head (ofNat_lt (by omega) (by omega) (by omega))⟩
            · exact .inl (by omega)
          · exact .inl (by omega)
        · exact .inl (by omega)

theorem bytesOf_lt {a b : List Char} (h : a < b) : bytesOf a < bytesOf b := by
  induction a generalizing b with
  | nil =>
    cases b with
    | nil => exact absurd h (List.lt_irrefl _)
    | cons c b =>
      unfold bytesOf
      rw [List.flatMap_cons, List.flatMap_nil]
      cases he : String.utf8EncodeChar c with
      | nil => exact absurd he String.utf8EncodeChar_ne_nil
      | cons x r => exact List.Lex.nil
  | cons c a ih =>
    cases b with
    | nil => cases h
    | cons d b =>
      unfold bytesOf
      rw [List.flatMap_cons, List.flatMap_cons]
      cases h with
      | rel h => exact encode_lt (by simpa [Char.lt_def, UInt32.lt_iff_toNat_lt] using h) _ _
      | cons h =>
        have := ih h
        generalize String.utf8EncodeChar c = p
        induction p with
        | nil => exact this
        | cons x p ihp => exact lex_tail ihp

/-- C15: the order by which `sort` orders atoms is the one of the bytes of their names, as Go compares strings: names in other scripts included. -/
theorem C15_bytes (a b : String) : SortLe (.atom a) (.atom b) ↔ bytesOf a.toList ≤ bytesOf b.toList := by
  have hlt : ∀ a b : String, a < b ↔ bytesOf a.toList < bytesOf b.toList := by
    intro a b
    constructor
    · exact fun h => bytesOf_lt h
    · intro h
      by_cases h1 : a.toList < b.toList
      · exact h1
      · by_cases h2 : b.toList < a.toList
        · exact absurd (List.lt_trans h (bytesOf_lt h2)) (List.lt_irrefl _)
        · rw [List.le_antisymm h2 h1] at h; exact absurd h (List.lt_irrefl _)
  show a ≤ b ↔ ¬ (bytesOf b.toList < bytesOf a.toList)
  rw [← hlt b a]
  exact (Iff.rfl)

/-- `z` comes before `é`, which comes before `€`, which comes before `😀`: one byte, two, three and four. -/
example : SortLe (.atom "z") (.atom "é") ∧ SortLe (.atom "é") (.atom "€") ∧ SortLe (.atom "€") (.atom "😀") ∧ ¬ SortLe (.atom "zz") (.atom "z") :=
  ⟨(C15_bytes _ _).2 (by decide +kernel), (C15_bytes _ _).2 (by decide +kernel), (C15_bytes _ _).2 (by decide +kernel), fun h => absurd ((C15_bytes _ _).1 h) (by decide +kernel)⟩

end L1
