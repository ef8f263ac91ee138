import Verif.Model.Limit
import Verif.Lemmas.Cont
import Verif.Lemmas.ErrGrow
/-
`perform` is the limit of `run`, and satisfies the interpreter's own equation with itself for the recursive calls.
-/
set_option autoImplicit false
namespace L1

theorem not_indef_iff {α : Type} {r : Res α} : ¬ r.indef true ↔ r.Definite := by
  cases r <;> simp [Res.indef, Res.Definite, Bot.ofBool]

theorem run_stable {W : World} {n m d d' : Nat} (hn : n ≤ m) (hd : d ≤ d') {t : Task} {s : St}
    (h : (run W n d t s).Definite) : run W m d' t s = run W n d t s := by
  rcases run_mono W n m d d' hn hd t s with h' | h'
  · exact absurd h' (not_indef_iff.2 h)
  · exact h'.symm

/-- Whatever finite budgets end with a definite outcome, unlimited ones end with it. -/
theorem perform_of_run {W : World} {n d : Nat} {t : Task} {s : St} (h : (run W n d t s).Definite) :
    perform W t s = run W n d t s := by
  have h1 : run W (max n d) (max n d) t s = run W n d t s := run_stable (by omega) (by omega) h
  have h2 : ∃ k, (run W k k t s).Definite := ⟨max n d, by rw [h1]; exact h⟩
  unfold perform
  rw [dif_pos h2]
  rw [← run_stable (m := max n d + h2.choose) (d' := max n d + h2.choose) (by omega) (by omega) h2.choose_spec,
    run_stable (n := n) (d := d) (by omega) (by omega) h]

theorem eval_of_run {W : World} {n d : Nat} {x : Val} {e : Nat} {s : St} {r : Res Val} (h : run W n d (.eval x e) s = r) (hr : r.Definite) :
    eval W x e s = r := by
  subst h; exact perform_of_run hr

/-- Unlimited budgets add no outcomes. -/
theorem run_of_perform {W : World} {t : Task} {s : St} (h : perform W t s ≠ .oof) :
    (perform W t s).Definite ∧ ∃ k, run W k k t s = perform W t s := by
  unfold perform at h ⊢
  by_cases h2 : ∃ k, (run W k k t s).Definite
  · rw [dif_pos h2]; exact ⟨h2.choose_spec, _, rfl⟩
  · rw [dif_neg h2] at h; exact absurd rfl h

theorem perform_oof {W : World} {t : Task} {s : St} (h : perform W t s = .oof) (n d : Nat) :
    (run W n d t s).indef true := by
  by_cases hi : (run W n d t s).indef true
  · exact hi
  · have hd := not_indef_iff.1 hi
    rw [perform_of_run hd] at h
    rw [h] at hd; exact hd.elim

theorem perform_not_overflow {W : World} {t : Task} {s s' : St} : perform W t s ≠ .overflow s' := by
  intro h
  have := (run_of_perform (W := W) (t := t) (s := s) (by rw [h]; simp)).1
  rw [h] at this; exact this

theorem co_perform (W : World) (f g : Nat → Nat) (hf : ∀ k, k ≤ f k) (hg : ∀ k, k ≤ g k) (t : Task) :
    Co true (fun k => run W (f k) (g k) t) (perform W t) := by
  intro s
  by_cases h : perform W t s = .oof
  · exact .inl ⟨h, fun k => perform_oof h _ _⟩
  · obtain ⟨hd, K, hK⟩ := run_of_perform h
    right
    refine ⟨fun k => ?_, K, fun k hk => ?_⟩
    · by_cases hi : (run W (f k) (g k) t s).indef true
      · exact .inl hi
      · exact .inr (perform_of_run (not_indef_iff.1 hi)).symm
    · rw [← hK] at hd ⊢
      exact run_stable (by have := hf k; omega) (by have := hg k; omega) hd

/-- Only `(exit)` ends the process, with status 0. -/
theorem run_exit {W : World} : ∀ (n d : Nat) (t : Task), EI (· = none) (fun _ => True) AnyV (run W n d t) := by
  intro n
  induction n with
  | zero => intro d t s; trivial
  | succ n ih =>
    intro d t
    refine ei_runStep ⟨fun _ _ _ => trivial, fun _ => trivial, fun _ => trivial⟩ (fun t => ?_) (ih d) (fun _ _ _ _ _ => trivial) t
    cases d with
    | zero => intro s; first | trivial | exact rfl
    | succ d => exact ih d t

/-- Performing a task ends the process only with status 0. -/
theorem perform_exit {W : World} {t : Task} {s s' : St} {c : Nat} (h : perform W t s = .exit c s') : c = 0 := by
  obtain ⟨_, k, hk⟩ := run_of_perform (W := W) (t := t) (s := s) (by rw [h]; simp)
  have h1 := run_exit (W := W) k k t s
  rw [hk, h] at h1; exact h1.resolve_left (by simp)

/-- The interpreter's equation: performing a task is one step of the interpreter with all its recursive calls performed. -/
theorem perform_eq (W : World) (t : Task) : perform W t = runStep W (perform W) (perform W) t := by
  funext s
  have h1 : Co true (fun k => run W (k + 1) (k + 1) t) (perform W t) := co_perform W _ _ (fun k => by omega) (fun k => by omega) t
  have h2 : Co true (fun k => run W (k + 1) (k + 1) t) (runStep W (perform W) (perform W) t) := by
    refine co_runStep (c1 := fun k => run W k k) (t1 := fun k => run W k (k + 1)) ?_ ?_ t
    · exact fun t => co_perform W (fun k => k) (fun k => k) (fun k => by omega) (fun k => by omega) t
    · exact fun t => co_perform W (fun k => k) (fun k => k + 1) (fun k => by omega) (fun k => by omega) t
  have hov : EI (fun _ => False) (fun _ => True) AnyV (runStep W (perform W) (perform W) t) := by
    have hc : ∀ t, EI (fun _ => False) (fun _ => True) AnyV (perform W t) := by
      intro t s
      cases hr : perform W t s <;> first | trivial | exact perform_not_overflow hr | exact .inr (perform_exit hr)
    exact ei_runStep ⟨fun _ _ _ => trivial, fun _ => trivial, fun _ => trivial⟩ hc hc (fun _ _ _ _ _ => trivial) t
  have hnov : ¬ (runStep W (perform W) (perform W) t s).indef true → (runStep W (perform W) (perform W) t s).Definite :=
    not_indef_iff.1
  rcases h1 s with ⟨a1, a2⟩ | ⟨a1, K, a2⟩
  · rcases h2 s with ⟨b1, b2⟩ | ⟨b1, L, b2⟩
    · rw [a1, b1]
    · have := a2 L
      rw [b2 L (Nat.le_refl _)] at this
      have h3 := hov s
      cases hr : runStep W (perform W) (perform W) t s with
      | oof => exact a1
      | overflow s' => rw [hr] at h3; exact h3.elim
      | _ => rw [hr] at this; exact this.elim
  · rcases h2 s with ⟨b1, b2⟩ | ⟨b1, L, b2⟩
    · have := b2 K
      rw [a2 K (Nat.le_refl _)] at this
      cases hr : perform W t s with
      | oof => exact b1.symm
      | overflow s' => exact absurd hr perform_not_overflow
      | _ => rw [hr] at this; exact this.elim
    · rw [← a2 (max K L) (by omega), b2 (max K L) (by omega)]

/-! ### With a fixed stack -/

theorem indef_false_iff {α : Type} {r : Res α} : r.indef (false : Bool) ↔ r = .oof := by
  cases r <;> simp [Res.indef, Bot.ofBool]

theorem run_steps {W : World} {n m d : Nat} (hn : n ≤ m) {t : Task} {s : St} (h : run W n d t s ≠ .oof) :
    run W m d t s = run W n d t s := by
  rcases run_fuel W n m d hn t s with h' | h'
  · exact absurd (indef_false_iff.1 h') h
  · exact h'.symm

theorem performIn_of_run {W : World} {n d : Nat} {t : Task} {s : St} (h : run W n d t s ≠ .oof) :
    performIn W d t s = run W n d t s := by
  have h2 : ∃ n, run W n d t s ≠ .oof := ⟨n, h⟩
  unfold performIn
  rw [dif_pos h2, ← run_steps (m := n + h2.choose) (by omega) h2.choose_spec, run_steps (n := n) (by omega) h]

theorem run_of_performIn {W : World} {d : Nat} {t : Task} {s : St} (h : performIn W d t s ≠ .oof) :
    ∃ n, run W n d t s = performIn W d t s := by
  unfold performIn at h ⊢
  by_cases h2 : ∃ n, run W n d t s ≠ .oof
  · rw [dif_pos h2]; exact ⟨_, rfl⟩
  · rw [dif_neg h2] at h; exact absurd rfl h

theorem co_performIn (W : World) (d : Nat) (f : Nat → Nat) (hf : ∀ k, k ≤ f k) (t : Task) :
    Co (false : Bool) (fun k => run W (f k) d t) (performIn W d t) := by
  intro s
  by_cases h : performIn W d t s = .oof
  · refine .inl ⟨h, fun k => ?_⟩
    rw [indef_false_iff]
    by_cases hr : run W (f k) d t s = .oof
    · exact hr
    · rw [performIn_of_run hr] at h; exact absurd h hr
  · obtain ⟨K, hK⟩ := run_of_performIn h
    right
    refine ⟨fun k => ?_, K, fun k hk => ?_⟩
    · by_cases hr : run W (f k) d t s = .oof
      · exact .inl (indef_false_iff.2 hr)
      · exact .inr (performIn_of_run hr).symm
    · rw [← hK] at h ⊢
      exact run_steps (by have := hf k; omega) h

/-- The interpreter's equation with a fixed stack: recursive Go calls have one level less, `goto top` and loops have the same
stack. -/
theorem performIn_eq (W : World) (d : Nat) (t : Task) :
    performIn W (d + 1) t = runStep W (performIn W d) (performIn W (d + 1)) t := by
  funext s
  have h1 : Co (false : Bool) (fun k => run W (k + 1) (d + 1) t) (performIn W (d + 1) t) := co_performIn W _ _ (fun k => by omega) t
  have h2 : Co (false : Bool) (fun k => run W (k + 1) (d + 1) t) (runStep W (performIn W d) (performIn W (d + 1)) t) := by
    refine co_runStep (c1 := fun k => run W k d) (t1 := fun k => run W k (d + 1)) ?_ ?_ t
    · exact fun t => co_performIn W d (fun k => k) (fun k => by omega) t
    · exact fun t => co_performIn W (d + 1) (fun k => k) (fun k => by omega) t
  rcases h1 s with ⟨a1, a2⟩ | ⟨a1, K, a2⟩
  · rcases h2 s with ⟨b1, b2⟩ | ⟨b1, L, b2⟩
    · rw [a1, b1]
    · have := a2 L
      rw [b2 L (Nat.le_refl _), indef_false_iff] at this
      rw [a1, this]
  · rcases h2 s with ⟨b1, b2⟩ | ⟨b1, L, b2⟩
    · have := b2 K
      rw [a2 K (Nat.le_refl _), indef_false_iff] at this
      rw [b1, this]
    · rw [← a2 (max K L) (by omega), b2 (max K L) (by omega)]

/-- More stack does not change an outcome, unless it was "not enough stack". -/
theorem performIn_mono {W : World} {d d' : Nat} (hd : d ≤ d') {t : Task} {s : St} (h1 : performIn W d t s ≠ .oof)
    (h2 : ∀ s', performIn W d t s ≠ .overflow s') : performIn W d' t s = performIn W d t s := by
  obtain ⟨n, hn⟩ := run_of_performIn h1
  rcases run_mono W n n d d' (Nat.le_refl _) hd t s with h | h
  · exfalso
    rw [hn] at h
    cases hr : performIn W d t s with
    | oof => exact h1 hr
    | overflow s' => exact h2 s' hr
    | _ => rw [hr] at h; simp [Res.indef, Bot.ofBool] at h
  · rw [← hn, h]
    rw [performIn_of_run]
    rw [← h, hn]; exact h1

/-- An outcome within some stack is the outcome without a stack limit. -/
theorem perform_of_performIn {W : World} {d : Nat} {t : Task} {s : St} (h : (performIn W d t s).Definite) :
    perform W t s = performIn W d t s := by
  obtain ⟨n, hn⟩ := run_of_performIn (W := W) (d := d) (t := t) (s := s) (by intro hh; rw [hh] at h; exact h)
  rw [← hn] at h ⊢
  exact perform_of_run h

end L1
