import Verif.Lemmas.CoreWords
import Verif.Lemmas.CoreGives
import Verif.Lemmas.CoreLoad
import Verif.Props.Natives
import Verif.Spec.Words
/-
C67: the text functions of the core library.  See Props/Library.lean for `CoreAt` and `Gives`, and Spec/Words.lean.
-/
set_option autoImplicit false
namespace L1
variable {W : World} {s : St}

theorem upperC_upperOf (W : World) (c : Char) : UpperOf W c (upperC W c) := by
  unfold UpperOf
  split
  · rename_i h; exact upperC_spec W c h
  · rename_i h; unfold upperC; rw [if_neg h]

theorem upperOf_unique {c u u' : Char} (h : UpperOf W c u) (h' : UpperOf W c u') : u = u' := by
  unfold UpperOf at h h'
  split at h
  · rename_i hc
    rw [if_pos hc] at h'
    rcases h with h | h <;> rcases h' with h' | h'
    · exact char_ext (by have := h.2.2; have := h'.2.2; omega)
    · exact absurd ⟨_, h⟩ h'.2
    · exact absurd ⟨_, h'⟩ h.2
    · rw [h.1, h'.1]
  · rename_i hc
    rw [if_neg hc] at h'
    rw [h, h']

theorem noDigit_of {a : String} (h : ¬ StartsWithDigit W a) : ∀ c ∈ a.toList.head?, isDigitW W c = false := by
  intro c hc
  cases ha : a.toList with
  | nil => rw [ha] at hc; cases hc
  | cons x xs =>
    rw [ha] at hc
    obtain rfl := Option.some.inj hc
    cases hd : isDigitW W x with
    | false => rfl
    | true =>
      refine absurd ⟨x, xs, ha, ?_⟩ h
      unfold isDigitW at hd
      split at hd
      · left
        simp only [isDigitC, Bool.and_eq_true, decide_eq_true_eq, Char.le_def] at hd
        exact ⟨UInt32.le_iff_toNat_le.1 hd.1, UInt32.le_iff_toNat_le.1 hd.2⟩
      · rename_i hn; exact .inr ⟨by omega, hd⟩

theorem ret_firstCapital (hc : Base s.heap 0) {a b : String} (h : FirstCapital W a b) (hd : ¬ StartsWithDigit W b) :
    Returns W s k_capitalize [.atom a] (.atom b) := by
  obtain ⟨c, u, cs, ha, hb, hu⟩ := h
  obtain rfl := upperOf_unique hu (upperC_upperOf W c)
  have h1 := ret_capitalize (W := W) hc a c cs ha (noDigit_of hd _ (by rw [hb]; rfl))
  rwa [← hb, String.ofList_toList] at h1

theorem noDigit_ascii (a : String) (h : ∀ c cs, a.toList = c :: cs → 57 < c.toNat ∧ c.toNat < 128) : ¬ StartsWithDigit W a := by
  rintro ⟨c, cs, hc, hd⟩
  have := h c cs hc
  omega

/-- C67: `(punctuate-atom 'word 'mark)` puts the mark at the end of the word. -/
theorem C67_punctuate_atom (h : CoreAt s.heap 0) (a m : String) (hd : ¬ StartsWithDigit W (a ++ m)) :
    Gives W s "punctuate-atom" [.atom a, .atom m] (.atom (a ++ m)) :=
  (ret_punctuate_atom h.base a m (by have := noDigit_of hd; rwa [String.toList_append] at this)).gives hd_punctuate_atom

example (inp : List (List Char)) : Gives W (topSt (initSt inp) coreEnv) "punctuate-atom" [.atom "what", .atom "?!"] (.atom "what?!") :=
  C67_punctuate_atom (coreAt_loaded _) "what" "?!" (noDigit_ascii _ fun c cs h => by obtain ⟨rfl, _⟩ := List.cons.inj h; decide)

/-- C67: `bang`, `comma`, `period` and `colon` put that mark at the end of a word. -/
theorem C67_marks (h : CoreAt s.heap 0) (a : String) (hd : ¬ StartsWithDigit W a) :
    Gives W s "bang" [.atom a] (.atom (a ++ "!")) ∧ Gives W s "comma" [.atom a] (.atom (a ++ ",")) ∧
    Gives W s "period" [.atom a] (.atom (a ++ ".")) ∧ Gives W s "colon" [.atom a] (.atom (a ++ ":")) :=
  ⟨(ret_bang h.base a (noDigit_of hd)).gives hd_bang, (ret_comma h.base a (noDigit_of hd)).gives hd_comma,
   (ret_period h.base a (noDigit_of hd)).gives hd_period, (ret_colon h.base a (noDigit_of hd)).gives hd_colon⟩

example (inp : List (List Char)) : Gives W (topSt (initSt inp) coreEnv) "bang" [.atom "stop"] (.atom "stop!") :=
  (C67_marks (coreAt_loaded _) "stop" (noDigit_ascii _ fun c cs h => by obtain ⟨rfl, _⟩ := List.cons.inj h; decide)).1

/-- C67: `(capitalize 'word)` is the word with its first character in upper case ... -/
theorem C67_capitalize (h : CoreAt s.heap 0) (a b : String) (hab : FirstCapital W a b) (hd : ¬ StartsWithDigit W b) :
    Gives W s "capitalize" [.atom a] (.atom b) := (ret_firstCapital h.base hab hd).gives hd_capitalize

example (inp : List (List Char)) : Gives W (topSt (initSt inp) coreEnv) "capitalize" [.atom "hello"] (.atom "Hello") :=
  C67_capitalize (coreAt_loaded _) "hello" "Hello" ⟨'h', 'H', "ello".toList, rfl, rfl, by simp [UpperOf, CapitalOf]⟩
    (noDigit_ascii _ fun c cs h => by obtain ⟨rfl, _⟩ := List.cons.inj h; decide)

/-- ... and every word but the empty one has exactly one such form; the empty one gives `()`. -/
theorem C67_capitalize_total (h : CoreAt s.heap 0) (a : String) :
    (a ≠ "" → ∃ b, FirstCapital W a b ∧ ∀ b', FirstCapital W a b' → b' = b) ∧ Gives W s "capitalize" [.atom ""] .nil := by
  refine ⟨fun hne => ?_, (ret_capitalize_empty h.base).gives hd_capitalize⟩
  cases ha : a.toList with
  | nil => exact absurd (String.toList_eq_nil_iff.1 ha) hne
  | cons c cs =>
    refine ⟨String.ofList (upperC W c :: cs), ⟨c, _, cs, ha, String.toList_ofList, upperC_upperOf W c⟩, ?_⟩
    rintro b' ⟨c', u, cs', h1, h2, h3⟩
    rw [ha] at h1
    obtain ⟨rfl, rfl⟩ := List.cons.inj h1
    rw [upperOf_unique (upperC_upperOf W c) h3, ← h2, String.ofList_toList]

theorem ret_sentence (hc : Base s.heap 0) {f : Val} {mark : String} (hm : f.notMacro = true)
    (hf : ∀ a, ¬ StartsWithDigit W a → Returns W s f [.atom a] (.atom (a ++ mark))) {ws bs : List String} (h : Sentence W mark ws bs)
    (hw : ∀ w ∈ ws ++ bs, ¬ StartsWithDigit W w) :
    Returns W s k_punctuate [f, vlist (ws.map .atom)] (vlist (bs.map .atom)) := by
  cases h with
  | empty => exact ret_punctuate_nil hc f
  | one h1 =>
    exact ret_punctuate_one hc hm (hf _ (hw _ (by simp))) fun s1 hq => ret_firstCapital (hc.mono hq.heap) h1 (hw _ (by simp))
  | more h1 =>
    simp only [List.map_cons, List.map_append, List.map_nil]
    exact ret_punctuate_many hc hm (hf _ (hw _ (by simp))) fun s1 hq => ret_firstCapital (hc.mono hq.heap) h1 (hw _ (by simp))

/-- C67: `(punctuate f words)`, for a function `f` that adds a mark: the sentence with that mark. -/
theorem C67_punctuate (h : CoreAt s.heap 0) {f : Val} {mark : String} (hm : f.notMacro = true)
    (hf : ∀ a, ¬ StartsWithDigit W a → Returns W s f [.atom a] (.atom (a ++ mark))) {ws bs : List String} (hs : Sentence W mark ws bs)
    (hw : ∀ w ∈ ws ++ bs, ¬ StartsWithDigit W w) :
    Gives W s "punctuate" [f, vlist (ws.map .atom)] (vlist (bs.map .atom)) := (ret_sentence h.base hm hf hs hw).gives hd_punctuate

/-- `(punctuate bang (quote (well done)))`. -/
example (inp : List (List Char)) : Gives W (topSt (initSt inp) coreEnv) "punctuate" [k_bang, vlist (["well", "done"].map .atom)] (vlist (["Well", "done!"].map .atom)) := by
  refine C67_punctuate (mark := "!") (coreAt_loaded _) rfl (fun a ha => ?_) (.more (ws := []) ⟨'w', 'W', "ell".toList, rfl, rfl, by simp [UpperOf, CapitalOf]⟩) ?_
  · exact ret_bang (coreAt_loaded _).base a (noDigit_of ha)
  · intro w hw
    refine noDigit_ascii w ?_
    simp only [List.cons_append, List.nil_append, List.mem_cons, List.not_mem_nil, or_false] at hw
    intro c cs hc
    rcases hw with rfl | rfl | rfl | rfl <;> (obtain ⟨rfl, _⟩ := List.cons.inj hc; decide)

/-- C67: `(tosentence words)`: the first word capitalised, a period at the end. -/
theorem C67_tosentence (h : CoreAt s.heap 0) {ws bs : List String} (hs : Sentence W "." ws bs) (hw : ∀ w ∈ ws ++ bs, ¬ StartsWithDigit W w) :
    Gives W s "tosentence" [vlist (ws.map .atom)] (vlist (bs.map .atom)) :=
  (ret_tosentence h.base fun _ hq => ret_sentence (h.base.mono hq.heap) rfl (fun a ha => ret_period (h.base.mono hq.heap) a (noDigit_of ha)) hs hw).gives
    hd_tosentence

/-- C67: `(exclaim words)`: the first word capitalised, an exclamation mark at the end. -/
theorem C67_exclaim (h : CoreAt s.heap 0) {ws bs : List String} (hs : Sentence W "!" ws bs) (hw : ∀ w ∈ ws ++ bs, ¬ StartsWithDigit W w) :
    Gives W s "exclaim" [vlist (ws.map .atom)] (vlist (bs.map .atom)) :=
  (ret_exclaim h.base fun _ hq => ret_sentence (h.base.mono hq.heap) rfl (fun a ha => ret_bang (h.base.mono hq.heap) a (noDigit_of ha)) hs hw).gives
    hd_exclaim

/-! The hypotheses are met: `(tosentence '(to be or not))` is `(To be or not.)`. -/

example (inp : List (List Char)) : Gives W (topSt (initSt inp) coreEnv) "tosentence" [vlist (["to", "be", "or", "not"].map .atom)]
    (vlist (["To", "be", "or", "not."].map .atom)) := by
  refine C67_tosentence (coreAt_loaded _) ?_ ?_
  · exact .more (ws := ["be", "or"]) ⟨'t', 'T', ['o'], rfl, rfl, by simp [UpperOf, CapitalOf]⟩
  · intro w hw
    refine noDigit_ascii w ?_
    simp only [List.cons_append, List.nil_append, List.mem_cons, List.not_mem_nil, or_false] at hw
    intro c cs hc
    rcases hw with rfl | rfl | rfl | rfl | rfl | rfl | rfl | rfl <;> (obtain ⟨rfl, _⟩ := List.cons.inj hc; decide)

end L1
