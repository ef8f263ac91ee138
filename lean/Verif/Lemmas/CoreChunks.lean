import Verif.Lemmas.CoreChars
import Verif.Lemmas.Lexer
import Verif.Lemmas.Reader
/-
Reading a text in chunks.
-/
set_option autoImplicit false
namespace L1

/-- Each chunk of lines reads as the form in the same place. -/
def chunksOk (cs : List (List (List Char))) (fs : List Val) : Bool :=
  match cs, fs with
  | [], [] => true
  | c :: cs, f :: fs => decide (parseForms 10000 (lexItems c) = .ok [f]) && chunksOk cs fs
  | _, _ => false

theorem lexFrom_append (n : Nat) (as bs : List (List Char)) : lexFrom n (as ++ bs) = lexFrom n as ++ lexFrom (n + as.length) bs := by
  induction as generalizing n with
  | nil => rfl
  | cons a as ih => simp only [List.cons_append, lexFrom, ih, List.append_assoc, List.length_cons]; rw [show n + 1 + as.length = n + (as.length + 1) by omega]

theorem chunksOk_forms : ∀ (cs : List (List (List Char))) (fs : List Val), chunksOk cs fs = true → ∀ n, Forms (lexFrom n cs.flatten) fs
  | [], [], _, _ => .nil
  | c :: cs, f :: fs, h, n => by
    simp only [chunksOk, Bool.and_eq_true, decide_eq_true_eq] at h
    obtain ⟨h1, h3⟩ := h
    have hf : Forms (lexItems c) [f] := (parse_sound 10000).2.2.2 _ _ h1
    have hf' : Forms (lexFrom n c) [f] := hf.congr (lexFrom_line 1 n _)
    rw [List.flatten_cons, lexFrom_append]
    have hr := chunksOk_forms cs fs h3 (n + c.length)
    generalize lexFrom n c = ts at hf'
    cases hf' with
    | cons g gs =>
      cases gs
      rw [List.append_nil]
      exact .cons g hr
  | [], _ :: _, h, _ => by simp [chunksOk] at h
  | _ :: _, [], h, _ => by simp [chunksOk] at h

theorem chunksOk_append : ∀ (cs ds : List (List (List Char))) (fs gs : List Val), chunksOk cs fs = true → chunksOk ds gs = true → chunksOk (cs ++ ds) (fs ++ gs) = true
  | [], _, [], _, _, h => h
  | c :: cs, ds, f :: fs, gs, h, h' => by
    simp only [chunksOk, List.cons_append, Bool.and_eq_true] at h ⊢
    exact ⟨h.1, chunksOk_append cs ds fs gs h.2 h'⟩
  | [], _, _ :: _, _, h, _ => by simp [chunksOk] at h
  | _ :: _, _, [], _, h, _ => by simp [chunksOk] at h

end L1
