import Verif.Lemmas.CoreText1
import Verif.Lemmas.CoreText2
import Verif.Lemmas.CoreText3
import Verif.Lemmas.CoreText4
/-
Reading the text of the core library gives its forms.
-/
set_option autoImplicit false
namespace L1

theorem splitOnChar_line {l : List Char} (h : '\n' ∉ l) : splitOnChar '\n' l = [l] := by
  induction l with
  | nil => rfl
  | cons c l ih =>
    simp only [List.mem_cons, not_or] at h
    simp only [splitOnChar, if_neg (Ne.symm h.1), ih h.2]

theorem splitOnChar_join (l : List Char) (h : '\n' ∉ l) (cs : List Char) : splitOnChar '\n' (l ++ '\n' :: cs) = l :: splitOnChar '\n' cs := by
  induction l with
  | nil => simp [splitOnChar]
  | cons c l ih =>
    simp only [List.mem_cons, not_or] at h
    simp only [List.cons_append, splitOnChar, if_neg (Ne.symm h.1), ih h.2]

/-- Splitting joined lines gives the lines back. -/
theorem splitOnChar_joinNl : ∀ (ls : List (List Char)), ls ≠ [] → (∀ l ∈ ls, '\n' ∉ l) → splitOnChar '\n' (joinNl ls) = ls
  | [], h, _ => absurd rfl h
  | [l], _, h => by simp only [joinNl]; exact splitOnChar_line (h l (by simp))
  | l :: m :: ls, _, h => by
    show splitOnChar '\n' (l ++ '\n' :: joinNl (m :: ls)) = _
    rw [splitOnChar_join l (h l (by simp)), splitOnChar_joinNl (m :: ls) (by simp) (fun x hx => h x (by simp [hx]))]

theorem chunksOk_split {cs : List (List (List Char))} {fs : List Val} {k : Nat} (h : chunksOk ((cs.drop k).take 10) ((fs.drop k).take 10) = true)
    (h' : chunksOk (cs.drop (k + 10)) (fs.drop (k + 10)) = true) : chunksOk (cs.drop k) (fs.drop k) = true := by
  have := chunksOk_append _ _ _ _ h h'
  have hd : ∀ {α : Type} (l : List α), l.drop (k + 10) = (l.drop k).drop 10 := fun l => by rw [List.drop_drop]
  rwa [hd cs, hd fs, List.take_append_drop, List.take_append_drop] at this

theorem chunks_all : chunksOk coreChars coreForms = true :=
  chunksOk_split (k := 0) chunks_0 <| chunksOk_split chunks_1 <| chunksOk_split chunks_2 <| chunksOk_split chunks_3 <| chunksOk_split chunks_4 <|
    chunksOk_split chunks_5 <| chunksOk_split chunks_6 (by decide +kernel)

theorem coreLines_read : lexAndParse coreChars.flatten = .ok coreForms :=
  (parseTop_iff _ _).2 (.plain (chunksOk_forms _ _ chunks_all 1))

theorem coreLines_ok : ∀ l ∈ coreChars.flatten, '\n' ∉ l := by
  intro l hl hm
  obtain ⟨ch, h1, h2⟩ := List.mem_flatten.1 hl
  have := List.all_eq_true.1 (List.all_eq_true.1 (List.all_eq_true.1 coreChars_ok ch h1) l h2) _ hm
  revert this; decide

/-- The text of the core library reads as its forms. -/
theorem read_core : readText coreText = .ok coreForms := by
  unfold readText coreText
  rw [coreLines_chars, splitOnChar_joinNl _ (by decide +kernel) coreLines_ok]
  exact coreLines_read

end L1
