import Verif.Spec.Sorting
import Mathlib.Data.List.Pairwise
/- Facts about sorting algorithms that compare and exchange; insertion sort sorts. -/
set_option autoImplicit false
namespace L1

theorem swapAt_perm {α : Type} (xs : List α) (i j : Nat) : (swapAt xs i j).Perm xs := by
  unfold swapAt
  split
  · rename_i a b ha hb
    obtain ⟨hi, rfl⟩ := List.getElem?_eq_some_iff.1 ha
    obtain ⟨hj, rfl⟩ := List.getElem?_eq_some_iff.1 hb
    exact List.set_set_perm hi hj
  · exact .refl _

theorem swapAt_map {α β : Type} (g : α → β) (xs : List α) (i j : Nat) : (swapAt xs i j).map g = swapAt (xs.map g) i j := by
  unfold swapAt
  rw [List.getElem?_map, List.getElem?_map]
  cases xs[i]? with
  | none => rfl
  | some a =>
    cases xs[j]? with
    | none => rfl
    | some b => simp only [Option.map_some, List.map_set]

section
variable {α β : Type}

theorem Sorter.run_perm (lt : α → α → Bool) (t : Sorter) : ∀ xs : List α, (t.run lt xs).Perm xs := by
  induction t with
  | done => intro xs; exact .refl _
  | swap i j next ih => intro xs; exact (ih _).trans (swapAt_perm xs i j)
  | less i j yes no ihy ihn =>
    intro xs
    simp only [Sorter.run]
    split
    · split
      · exact ihy xs
      · exact ihn xs
    · exact ihn xs

theorem Sorter.run_map (lt : β → β → Bool) (g : α → β) (t : Sorter) : ∀ xs : List α,
    t.run lt (xs.map g) = (t.run (fun a b => lt (g a) (g b)) xs).map g := by
  induction t with
  | done => intro xs; rfl
  | swap i j next ih => intro xs; simp only [Sorter.run]; rw [← swapAt_map, ih]
  | less i j yes no ihy ihn =>
    intro xs
    simp only [Sorter.run, List.getElem?_map]
    cases xs[i]? with
    | none => exact ihn xs
    | some a =>
      cases xs[j]? with
      | none => exact ihn xs
      | some b =>
        simp only [Option.map_some]
        split
        · exact ihy xs
        · exact ihn xs

/-- Every list is the image of its positions; the function can be chosen with values in the list. -/
theorem range_map_get (xs : List α) (hne : xs ≠ []) : ∃ g : Nat → α, (List.range xs.length).map g = xs ∧ ∀ i, g i ∈ xs := by
  obtain ⟨x, l, rfl⟩ := List.exists_cons_of_ne_nil hne
  refine ⟨fun i => (x :: l).getD i x, ?_, fun i => ?_⟩
  · apply List.ext_getElem
    · simp
    · intro i h1 h2
      simp only [List.getElem_map, List.getElem_range]
      rw [List.getD_eq_getElem?_getD, List.getElem?_eq_getElem h2]; rfl
  · show (x :: l).getD i x ∈ x :: l
    rw [List.getD_eq_getElem?_getD]
    cases h : (x :: l)[i]? with
    | none => simp
    | some a => exact List.mem_of_getElem? h

/-- An algorithm that sorts positions sorts lists, if the comparison is a strict weak order on the elements of the list. -/
theorem Sorter.Sorts.list {t : Sorter} (lt : α → α → Bool) (xs : List α) (ht : t.Sorts xs.length)
    (h1 : ∀ a ∈ xs, ∀ b ∈ xs, lt a b = true → lt b a = false)
    (h2 : ∀ a ∈ xs, ∀ b ∈ xs, ∀ c ∈ xs, lt a b = false → lt b c = false → lt a c = false) :
    (t.run lt xs).Pairwise (fun a b => lt b a = false) := by
  by_cases hne : xs = []
  · subst hne
    rw [List.perm_nil.1 (t.run_perm lt [])]; exact .nil
  · obtain ⟨g, hg, hm⟩ := range_map_get xs hne
    rw [← hg, t.run_map lt g, List.pairwise_map]
    exact ht _ ⟨fun a b => h1 _ (hm a) _ (hm b), fun a b c => h2 _ (hm a) _ (hm b) _ (hm c)⟩

/-! ### Insertion sort -/

theorem getElem?_mid (p : List α) (x : α) (suf : List α) : (p ++ x :: suf)[p.length]? = some x := by simp

theorem swapAt_neighbours (q : List α) (y x : α) (suf : List α) :
    swapAt (q ++ y :: x :: suf) (q.length + 1) q.length = q ++ x :: y :: suf := by
  have h1 : (q ++ y :: x :: suf)[q.length + 1]? = some x := by simp
  have h2 : (q ++ y :: x :: suf)[q.length]? = some y := by simp
  unfold swapAt
  rw [h1, h2]
  dsimp only
  rw [List.set_append_right _ _ (by omega), List.set_append_right _ _ (by omega)]
  simp

theorem insert_run (lt : α → α → Bool) (h1 : ∀ a b, lt a b = true → lt b a = false)
    (h2 : ∀ a b c, lt a b = false → lt b c = false → lt a c = false) (k : Sorter) (j : Nat) : ∀ (p suf : List α) (x : α), p.length = j →
    p.Pairwise (fun a b => lt b a = false) →
    ∃ p', (k.insert j).run lt (p ++ x :: suf) = k.run lt (p' ++ suf) ∧ p'.Perm (x :: p) ∧ p'.Pairwise (fun a b => lt b a = false) := by
  induction j with
  | zero =>
    intro p suf x hp _
    obtain rfl := List.length_eq_zero_iff.1 hp
    exact ⟨[x], rfl, .refl _, List.pairwise_singleton _ _⟩
  | succ j ih =>
    intro p suf x hp hs
    have hne : p ≠ [] := by intro h; subst h; cases hp
    obtain ⟨q, y, rfl⟩ : ∃ q y, p = q ++ [y] := ⟨_, _, (List.dropLast_concat_getLast hne).symm⟩
    have hq : q.length = j := by simpa using hp
    obtain ⟨hsq, _, hqy⟩ := List.pairwise_append.1 hs
    have hqy' : ∀ a ∈ q, lt y a = false := fun a ha => hqy a ha y (by simp)
    have e1 : (q ++ [y] ++ x :: suf)[j + 1]? = some x := by
      subst hq; simp
    have e2 : (q ++ [y] ++ x :: suf)[j]? = some y := by subst hq; simp
    simp only [Sorter.insert, Sorter.run, e1, e2]
    by_cases hl : lt x y = true
    · rw [if_pos hl]
      have e3 : swapAt (q ++ [y] ++ x :: suf) (j + 1) j = q ++ x :: y :: suf := by
        subst hq; simpa using swapAt_neighbours q y x suf
      rw [e3]
      obtain ⟨p', r1, r2, r3⟩ := ih q (y :: suf) x hq hsq
      refine ⟨p' ++ [y], by rw [r1]; simp, ?_, ?_⟩
      · exact (r2.append_right [y])
      · refine List.pairwise_append.2 ⟨r3, List.pairwise_singleton _ _, ?_⟩
        intro a ha b hb
        rw [List.mem_singleton.1 hb]
        rcases List.mem_cons.1 (r2.subset ha) with rfl | ha
        · exact h1 _ _ hl
        · exact hqy' a ha
    · rw [if_neg hl]
      have hl : lt x y = false := by simpa using hl
      refine ⟨q ++ [y] ++ [x], by simp, List.perm_append_singleton x _, ?_⟩
      refine List.pairwise_append.2 ⟨hs, List.pairwise_singleton _ _, ?_⟩
      intro a ha b hb
      rw [List.mem_singleton.1 hb]
      rcases List.mem_append.1 ha with ha | ha
      · exact h2 _ _ _ hl (hqy' a ha)
      · rw [List.mem_singleton.1 ha]; exact hl

theorem insertFrom_run (lt : α → α → Bool) (h1 : ∀ a b, lt a b = true → lt b a = false)
    (h2 : ∀ a b c, lt a b = false → lt b c = false → lt a c = false) (m : Nat) : ∀ (i : Nat) (p suf : List α), p.length = i → suf.length = m →
    p.Pairwise (fun a b => lt b a = false) → ((Sorter.insertFrom m i).run lt (p ++ suf)).Pairwise (fun a b => lt b a = false) := by
  induction m with
  | zero =>
    intro i p suf _ hs hp
    obtain rfl := List.length_eq_zero_iff.1 hs
    simpa [Sorter.insertFrom, Sorter.run] using hp
  | succ m ih =>
    intro i p suf hi hs hp
    obtain ⟨x, suf, rfl⟩ := List.exists_cons_of_ne_nil (show suf ≠ [] by intro h; subst h; cases hs)
    obtain ⟨p', r1, r2, r3⟩ := insert_run lt h1 h2 (Sorter.insertFrom m (i + 1)) i p suf x hi hp
    simp only [Sorter.insertFrom]
    rw [r1]
    exact ih (i + 1) p' suf (by rw [r2.length_eq]; simp [hi]) (by simpa using hs) r3

/-- Insertion sort sorts lists of every length. -/
theorem insertion_sorts (n : Nat) : (Sorter.insertion n).Sorts n := by
  intro lt h
  cases n with
  | zero => exact .nil
  | succ n =>
    have := insertFrom_run lt h.1 h.2 n 1 [0] ((List.range n).map Nat.succ) rfl (by simp) (List.pairwise_singleton _ _)
    rw [List.range_succ_eq_map]
    exact this

/-- No algorithm that does not compare sorts two elements. -/
example : ¬ Sorter.done.Sorts 2 := by
  intro h
  have := h (fun a b => decide (b < a)) ⟨fun a b h => by simp at *; omega, fun a b c h1 h2 => by simp at *; omega⟩
  exact absurd this (by simp [Sorter.run, List.range_succ])

end

end L1
