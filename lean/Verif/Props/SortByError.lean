import Verif.Props.SortBy
/- C56: what the errors of `sort-by` say. -/
set_option autoImplicit false
namespace L1

/-- The application of `f` to `a` in state `s` comes out like `r`. -/
def Applied (W : World) (f : Val) (e : Nat) (a : Val) (s : St) (r : Res Val) : Prop := perform W (.builtin .apply [f, vlist [a]] e) s = r

/-- A comparison of elements of `xs` that fails with `er`: the function fails on one of the two; or its values are of different types; or they are neither numbers nor atoms. -/
inductive SortComplaint (W : World) (f : Val) (e : Nat) (xs : List Val) : Err → Prop
  | app {a : Val} {er : Err} {s s' : St} : a ∈ xs → Applied W f e a s (.err er s') → SortComplaint W f e xs er
  | types {a b va vb : Val} {s s1 s2 : St} : a ∈ xs → b ∈ xs → Applied W f e a s (.ok va s1) → Applied W f e b s1 (.ok vb s2) → ¬ SameType va vb →
      SortComplaint W f e xs (.list (vlist [msgList ("apply result " ++ va.toStr ++ " is not same type as " ++ vb.toStr)]))
  | unsortable {a b va vb : Val} {s s1 s2 : St} : a ∈ xs → b ∈ xs → Applied W f e a s (.ok va s1) → Applied W f e b s1 (.ok vb s2) → SameType va vb → (∀ c, va ≠ .atom c) → (∀ n, va ≠ .num n) →
      SortComplaint W f e xs (.list (vlist [msgList ("'" ++ va.toStr ++ "' is not a sortable type")]))

theorem sortByLess_complaint {W : World} {f : Val} {e : Nat} {xs : List Val} {a b : Val} {er : Err} {s s' : St} (ha : a ∈ xs) (hb : b ∈ xs)
    (h : sortByLess (perform W) f e a b s = .err er s') : SortComplaint W f e xs er := by
  unfold sortByLess at h
  rcases M.bind_eq_err.1 h with h1 | ⟨va, s1, h1, h⟩
  · exact .app ha (by rw [Applied, perform_apply]; exact h1)
  rcases M.bind_eq_err.1 h with h2 | ⟨vb, s2, h2, h⟩
  · exact .app hb (by rw [Applied, perform_apply]; exact h2)
  have h1' : Applied W f e a s (.ok va s1) := by rw [Applied, perform_apply]; exact h1
  have h2' : Applied W f e b s1 (.ok vb s2) := by rw [Applied, perform_apply]; exact h2
  by_cases hk : va.kind ≠ vb.kind
  · rw [M.ite_pos hk] at h
    cases h
    exact .types ha hb h1' h2' fun hs => hk ((sameType_iff _ _).1 hs)
  · rw [M.ite_neg hk] at h
    have hs : SameType va vb := (sameType_iff _ _).2 (Decidable.not_not.1 hk)
    cases va <;> first | (exfalso; cases h; done) | (cases h; exact .unsortable ha hb h1' h2' hs (by simp) (by simp))

theorem sortRun_complaint {W : World} {f : Val} {e : Nat} {ys : List Val} (t : Sorter) : ∀ (xs : List Val) (er : Option Err) (s : St),
    (∀ a ∈ xs, a ∈ ys) → (∀ x, er = some x → SortComplaint W f e ys x) →
    match sortRun (perform W) f e t xs er s with
    | .ok r _ => ∀ x, r.2 = some x → SortComplaint W f e ys x
    | .err _ _ => False
    | _ => True := by
  induction t with
  | done => intro xs er s _ h; exact h
  | swap i j next ih => intro xs er s hs h; exact ih _ _ _ (fun a ha => hs a ((swapAt_perm xs i j).subset ha)) h
  | less i j yes no ihy ihn =>
    intro xs er s hs h
    simp only [sortRun]
    cases hi : xs[i]? with
    | none => exact ihn _ _ _ hs h
    | some a =>
      cases hj : xs[j]? with
      | none => exact ihn _ _ _ hs h
      | some b =>
        have ha := hs a (List.mem_of_getElem? hi)
        have hb := hs b (List.mem_of_getElem? hj)
        dsimp only
        cases hc : sortByLess (perform W) f e a b s with
        | ok v s1 =>
          rw [M.bind_ok (attempt_ok hc)]
          cases v
          · exact ihn _ _ _ hs h
          · exact ihy _ _ _ hs h
        | err er' s1 =>
          rw [M.bind_ok (attempt_err hc)]
          exact ihn _ _ _ hs fun x hx => by cases hx; exact sortByLess_complaint ha hb hc
        | crash w s1 => rw [M.bind_run, attempt_run, hc]; trivial
        | exit c s1 => rw [M.bind_run, attempt_run, hc]; trivial
        | overflow s1 => rw [M.bind_run, attempt_run, hc]; trivial
        | oof => rw [M.bind_run, attempt_run, hc]; trivial

/-- C56: whatever the function does, if `sort-by` is an error on a list, then it is one of these: an error of the function applied to an element; a message with two values of the
function that are of different types; a message with a value that is neither a number nor an atom. -/
theorem C56_reason (W : World) (f : Val) (xs : List Val) (er : Err) (e : Nat) (s s' : St) (h : perform W (.builtin .sortBy [f, vlist xs] e) s = .err er s') : SortComplaint W f e xs er := by
  rw [perform_eq] at h
  have h : bSortBy W (perform W) [f, vlist xs] e s = .err er s' := h
  simp only [bSortBy, isList_vlist, if_true, toList?_vlist] at h
  have hr := sortRun_complaint (W := W) (f := f) (e := e) (W.sorter xs.length) xs none s (fun _ h => h) (by simp)
  rcases M.bind_eq_err.1 h with h1 | ⟨r, s1, h1, h2⟩
  · rw [h1] at hr; exact hr.elim
  · rw [h1] at hr
    cases hr2 : r.2 with
    | none => rw [hr2] at h2; cases h2
    | some er' => rw [hr2] at h2; cases h2; exact hr _ hr2

/-- `(sort-by len '((1 2) a))` fails with the error of `(len 'a)`: there are no two values to compare. -/
example (e : Nat) (s : St) : ∃ er s', perform sampleWorld (.builtin .sortBy [.bi .len, vlist [vlist [.num 1, .num 2], .atom "a"]] e) s = .err er s' ∧
    ∃ a ∈ [vlist [.num 1, .num 2], Val.atom "a"], ∃ s1 s2, Applied sampleWorld (.bi .len) e a s1 (.err er s2) := by
  have hk : ∀ a ∈ [vlist [.num 1, .num 2], Val.atom "a"], (∃ k, KeyOf sampleWorld (fun _ => True) (.bi .len) e a k) ∨ AppFails sampleWorld (fun _ => True) (.bi .len) e a := by
    intro a ha
    simp only [List.mem_cons, List.not_mem_nil, or_false] at ha
    rcases ha with rfl | rfl
    · exact .inl ⟨_, len_key _ _ _⟩
    · exact .inr (len_fails _ _)
  obtain ⟨er, s', h⟩ := C56_error sampleWorld sampleWorld_sorts (fun _ => True) (.bi .len) [vlist [.num 1, .num 2], .atom "a"] e s trivial hk (by simp) (by
    rintro ⟨key, hk', _⟩
    obtain ⟨s1, h1, _⟩ := hk' (.atom "a") (by simp) s trivial
    obtain ⟨er, s2, h2, _⟩ := len_fails sampleWorld e s trivial
    rw [h1] at h2; cases h2)
  refine ⟨er, s', h, ?_⟩
  have hv : ∀ a ∈ [vlist [.num 1, .num 2], Val.atom "a"], ∀ s v s', Applied sampleWorld (.bi .len) e a s (.ok v s') → v = .num 2 := by
    intro a ha s v s' h
    simp only [List.mem_cons, List.not_mem_nil, or_false] at ha
    rcases ha with rfl | rfl
    · obtain ⟨s1, h1, _⟩ := len_key sampleWorld [.num 1, .num 2] e s trivial
      rw [Applied, h1] at h; cases h; rfl
    · obtain ⟨er, s2, h2, _⟩ := len_fails sampleWorld e s trivial
      rw [Applied, h2] at h; cases h
  cases C56_reason _ _ _ _ _ _ _ h with
  | app h1 h2 => exact ⟨_, h1, _, _, h2⟩
  | types h1 h2 h3 h4 h5 => rw [hv _ h1 _ _ _ h3, hv _ h2 _ _ _ h4] at h5; exact absurd (.numbers _ _) h5
  | unsortable h1 h2 h3 h4 h5 h6 h7 => exact absurd (hv _ h1 _ _ _ h3) (h7 2)

end L1
