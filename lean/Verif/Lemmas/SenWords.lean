import Verif.Lemmas.Gen
import Verif.Props.LibraryText
/-
The words of the grammars of examples/sentences.l1.
-/
set_option autoImplicit false
namespace L1

variable {W : World}

/-! ### Inversion -/

theorem derives_word {g : Grammar} {a : String} (h : g.choices a = []) {ws : List String} : Derives g (.atom a) ws ↔ ws = [a] := by
  constructor
  · intro hd
    generalize hp : Val.atom a = p at hd
    cases hd with
    | word h' => cases hp; rfl
    | choice h' => cases hp; rw [h] at h'; cases h'
    | nil => cases hp
    | cons => cases hp
  · rintro rfl; exact .word h

theorem derives_cat {g : Grammar} {a : String} (h : g.choices a ≠ []) {ws : List String} : Derives g (.atom a) ws ↔ ∃ x ∈ g.choices a, Derives g x ws := by
  constructor
  · intro hd
    generalize hp : Val.atom a = p at hd
    cases hd with
    | word h' => cases hp; exact absurd h' h
    | choice h1 h2 => cases hp; exact ⟨_, h1, h2⟩
    | nil => cases hp
    | cons => cases hp
  · rintro ⟨x, h1, h2⟩; exact .choice h1 h2

theorem derives_nil {g : Grammar} {ws : List String} : Derives g .nil ws ↔ ws = [] := by
  constructor
  · intro hd
    generalize hp : Val.nil = p at hd
    cases hd with
    | nil => rfl
    | _ => cases hp
  · rintro rfl; exact .nil

theorem derives_cons {g : Grammar} {x : Val} {xs : List Val} {ws : List String} :
    Derives g (vlist (x :: xs)) ws ↔ ∃ us vs, ws = us ++ vs ∧ Derives g x us ∧ Derives g (vlist xs) vs := by
  constructor
  · intro hd
    generalize hp : vlist (x :: xs) = p at hd
    cases hd with
    | cons h1 h2 =>
      have := vlist_inj hp
      cases this
      exact ⟨_, _, rfl, h1, h2⟩
    | _ => cases hp
  · rintro ⟨us, vs, rfl, h1, h2⟩; exact .cons h1 h2

/-! ### Letters -/

/-- The names in a phrase. -/
def phraseNames : Val → List String
  | .atom a => [a]
  | .cons x y => phraseNames x ++ phraseNames y
  | _ => []

theorem mem_choices {g : Grammar} {a : String} {x : Val} (h : x ∈ g.choices a) : ∃ r ∈ g, x ∈ r.2 := by
  induction g with
  | nil => cases h
  | cons r g ih =>
    rw [Grammar.choices] at h
    split at h
    · exact ⟨r, by simp, h⟩
    · obtain ⟨r', h1, h2⟩ := ih h
      exact ⟨r', by simp [h1], h2⟩

theorem derives_names {g : Grammar} {p : Val} {ws : List String} (h : Derives g p ws) :
    ∀ w ∈ ws, g.choices w = [] ∧ (w ∈ phraseNames p ∨ ∃ r ∈ g, ∃ x ∈ r.2, w ∈ phraseNames x) := by
  induction h with
  | word h => intro w hw; simp at hw; subst hw; exact ⟨h, .inl (by simp [phraseNames])⟩
  | @choice a x ws h _ ih =>
    intro w hw
    obtain ⟨h1, h2⟩ := ih w hw
    obtain ⟨r, h3, h4⟩ := mem_choices h
    exact ⟨h1, .inr (h2.elim (fun h2 => ⟨r, h3, x, h4, h2⟩) id)⟩
  | nil => intro w hw; cases hw
  | cons _ _ ih1 ih2 =>
    intro w hw
    rcases List.mem_append.1 hw with hw | hw
    · obtain ⟨h1, h2⟩ := ih1 w hw
      exact ⟨h1, h2.imp (fun h => by simp [phraseNames, h]) id⟩
    · obtain ⟨h1, h2⟩ := ih2 w hw
      exact ⟨h1, h2.imp (fun h => by simp [phraseNames, h]) id⟩

/-- A word of at least one letter. -/
def letterWord (w : String) : Bool := !w.toList.isEmpty && w.toList.all fun c => (decide (65 ≤ c.toNat) && decide (c.toNat ≤ 90)) || (decide (97 ≤ c.toNat) && decide (c.toNat ≤ 122))

/-- All words without alternatives are words of letters. -/
def Grammar.lettersOnly (g : Grammar) : Bool := g.all fun r => r.2.all fun x => (phraseNames x).all fun w => !(g.choices w).isEmpty || letterWord w

theorem derives_letters {g : Grammar} (hg : g.lettersOnly = true) {p : Val} {ws : List String} (h : Derives g p ws) (hp : ∀ w ∈ phraseNames p, g.choices w ≠ []) :
    ∀ w ∈ ws, letterWord w = true := by
  intro w hw
  obtain ⟨h1, h2⟩ := derives_names h w hw
  rcases h2 with h2 | ⟨r, hr, x, hx, h2⟩
  · exact absurd h1 (hp w h2)
  · have := List.all_eq_true.1 (List.all_eq_true.1 (List.all_eq_true.1 hg r hr) x hx) w h2
    simpa [h1] using this

/-! ### Phrases that must contain certain names -/

/-- One of the names occurs. -/
def mentions (S : List String) : Val → Bool
  | .atom a => S.contains a
  | .cons x y => mentions S x || mentions S y
  | _ => false

theorem derives_ne {g : Grammar} {S : List String} (hS : ∀ a ∈ S, ∀ x ∈ g.choices a, mentions S x = true) {p : Val} {ws : List String} (h : Derives g p ws) (hp : mentions S p = true) : ws ≠ [] := by
  induction h with
  | word => simp
  | choice h _ ih => exact ih (hS _ (by simpa [mentions] using hp) _ h)
  | nil => cases hp
  | cons _ _ ih1 ih2 =>
    rw [vlist_cons, mentions, Bool.or_eq_true] at hp
    rcases hp with hp | hp
    · simp [ih1 hp]
    · simp [ih2 hp]

theorem not_generates {g : Grammar} {S : List String} (hS : ∀ a ∈ S, ∀ k, ∃ x, (g.choices a)[W.rand k % (g.choices a).length]? = some x ∧ mentions S x = true) {p : Val} {ws : List String}
    {k k' : Nat} (h : Generates W g k p ws k') : mentions S p = false := by
  induction h with
  | @word a k h =>
    by_contra hn
    obtain ⟨x, hx, _⟩ := hS a (by simpa [mentions] using hn) k
    rw [h] at hx; cases hx
  | @choice a x ws k k' h _ ih =>
    by_contra hn
    obtain ⟨y, hy, hm⟩ := hS a (by simpa [mentions] using hn) k
    rw [h] at hy; cases hy
    rw [ih] at hm; cases hm
  | nil => rfl
  | cons _ _ ih1 ih2 => rw [vlist_cons, mentions, ih1, ih2]; rfl

/-! ### Lines -/

theorem upperOf_toUpper {c : Char} (h : ((65 ≤ c.toNat ∧ c.toNat ≤ 90) ∨ (97 ≤ c.toNat ∧ c.toNat ≤ 122))) : UpperOf W c c.toUpper ∧ 57 < c.toUpper.toNat ∧ c.toUpper.toNat < 128 := by
  unfold UpperOf
  rw [if_pos (by omega)]
  have key : ∀ n : Fin 128, ∀ c : Char, c = Char.ofNat n → ((65 ≤ n.val ∧ n.val ≤ 90) ∨ (97 ≤ n.val ∧ n.val ≤ 122)) →
      (97 ≤ n.val → c.toUpper.toNat + 32 = n.val) ∧ (n.val ≤ 90 → c.toUpper = c) := by
    intro n c hc
    subst hc
    revert n
    decide +kernel
  obtain ⟨h1, h2⟩ := key ⟨c.toNat, by omega⟩ c (by simp) h
  rcases h with h | h
  · have h2 := h2 h.2
    refine ⟨.inr ⟨h2, ?_⟩, by rw [h2]; omega, by rw [h2]; omega⟩
    rintro ⟨u, hu1, _, _⟩
    omega
  · have h1 : c.toUpper.toNat + 32 = c.toNat := h1 h.1
    exact ⟨.inl ⟨h.1, h.2, h1⟩, by omega, by omega⟩

theorem letterWord_cons {w : String} (h : letterWord w = true) : ∃ c cs, w.toList = c :: cs ∧ ((65 ≤ c.toNat ∧ c.toNat ≤ 90) ∨ (97 ≤ c.toNat ∧ c.toNat ≤ 122)) := by
  unfold letterWord at h
  cases hw : w.toList with
  | nil => rw [hw] at h; cases h
  | cons c cs =>
    rw [hw] at h
    simp only [List.isEmpty_cons, Bool.not_false, Bool.true_and, List.all_cons, Bool.and_eq_true, Bool.or_eq_true, decide_eq_true_eq] at h
    exact ⟨c, cs, rfl, h.1⟩

theorem letterWord_noDigit {w : String} (h : letterWord w = true) : ¬ StartsWithDigit W w := by
  obtain ⟨c, cs, h1, h2⟩ := letterWord_cons h
  refine noDigit_ascii w fun c' cs' hc => ?_
  rw [h1] at hc; cases hc; omega

theorem letterWord_dot {w : String} (h : letterWord w = true) : ¬ StartsWithDigit W (w ++ ".") := by
  obtain ⟨c, cs, h1, h2⟩ := letterWord_cons h
  refine noDigit_ascii _ fun c' cs' hc => ?_
  rw [String.toList_append, h1] at hc
  cases hc; omega

theorem sentence_of {ws : List String} (hn : ws ≠ []) (hw : ∀ w ∈ ws, letterWord w = true) :
    ∃ bs, Sentence W "." ws bs ∧ (∀ w ∈ ws ++ bs, ¬ StartsWithDigit W w) ∧ [' '].intercalate (bs.map String.toList) ++ ['\n'] = sentenceLine ws := by
  cases ws with
  | nil => exact absurd rfl hn
  | cons w ws =>
    obtain ⟨c, cs, h1, h2⟩ := letterWord_cons (hw w (by simp))
    obtain ⟨hu, hu1, hu2⟩ := upperOf_toUpper (W := W) h2
    rcases List.eq_nil_or_concat ws with rfl | ⟨ws, y, rfl⟩
    · refine ⟨[String.ofList (c.toUpper :: cs ++ ['.'])], .one ⟨c, c.toUpper, cs ++ ['.'], by rw [String.toList_append, h1]; rfl, by simp, hu⟩, ?_, ?_⟩
      · intro v hv
        simp only [List.cons_append, List.nil_append, List.mem_cons, List.not_mem_nil, or_false] at hv
        rcases hv with rfl | rfl
        · exact letterWord_noDigit (hw _ (by simp))
        · refine noDigit_ascii _ fun c' cs' hc => ?_
          rw [String.toList_ofList] at hc; cases hc; exact ⟨hu1, hu2⟩
      · simp [sentenceLine, h1, List.intercalate]
    · rw [List.concat_eq_append] at *
      refine ⟨String.ofList (c.toUpper :: cs) :: (ws ++ [y ++ "."]), .more ⟨c, c.toUpper, cs, h1, by simp, hu⟩, ?_, ?_⟩
      · intro v hv
        have hin : v = String.ofList (c.toUpper :: cs) ∨ v = y ++ "." ∨ v ∈ w :: (ws ++ [y]) := by
          simp only [List.cons_append, List.mem_cons, List.mem_append, List.not_mem_nil, or_false] at hv ⊢
          tauto
        rcases hin with rfl | rfl | hv
        · refine noDigit_ascii _ fun c' cs' hc => ?_
          rw [String.toList_ofList] at hc; cases hc; exact ⟨hu1, hu2⟩
        · exact letterWord_dot (hw y (by simp))
        · exact letterWord_noDigit (hw v hv)
      · have hi : ∀ (a : List Char) (l : List (List Char)) (b t : List Char), [' '].intercalate (a :: (l ++ [b ++ t])) = [' '].intercalate (a :: (l ++ [b])) ++ t := by
          intro a l
          induction l generalizing a with
          | nil => intro b t; simp [List.intercalate]
          | cons d l ih =>
            intro b t
            have := ih d b t
            simp only [List.cons_append, List.intercalate_cons_cons] at this ⊢
            rw [this]; simp
        have hc : ∀ (u : Char) (cs : List Char) (l : List (List Char)) (hl : l ≠ []), [' '].intercalate ((u :: cs) :: l) = u :: (cs ++ [' '] ++ [' '].intercalate l) := by
          intro u cs l hl
          obtain ⟨d, l, rfl⟩ := List.exists_cons_of_ne_nil hl
          simp [List.intercalate_cons_cons]
        simp only [List.map_cons, List.map_append, List.map_nil, String.toList_ofList, String.toList_append, sentenceLine, h1]
        rw [hi, hc _ _ _ (by simp), hc _ _ _ (by simp)]
        simp

end L1
