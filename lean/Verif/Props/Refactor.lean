import Verif.Lemmas.Refactor
import Verif.Props.Macros
/-
C75 (expressions that can be exchanged for each other).
-/
set_option autoImplicit false
namespace L1

theorem vok_bindings {n : Nat} {xs : List Val} : ∀ {ps : List String}, ps.length = xs.length → VOk n (vlist (List.zipWith letBinding ps xs)) → ∀ x ∈ xs, VOk n x := by
  induction xs with
  | nil => intro ps _ _ x hx; cases hx
  | cons y ys ih =>
    intro ps hl h x hx
    cases ps with
    | nil => cases hl
    | cons p ps =>
      rcases List.mem_cons.1 hx with rfl | hx
      · exact h.1.2.1
      · exact ih (by simpa using hl) h.2 x hx

/-- C75: at every moment of every run in which `(let ((p x) ...) body ...)` or `((lambda (p ...) body ...) x ...)` is evaluated, with as many names as
expressions, the one can be exchanged for the other. -/
theorem C75_let (W : World) : Always W
    { pre := fun t s => ∀ (e : Nat) (ps : List String) (xs body : List Val), t = .eval (letForm ps xs body) e ∨ t = .eval (lambdaForm ps xs body) e →
        ps.length = xs.length → "t" ∉ ps → NoDoc body → NotMacro s.heap e "lambda" → NotMacro s.heap e "let" →
        Exchangeable W e (lambdaForm ps xs body) (letForm ps xs body) s } := by
  refine always_of_watchOk W ⟨fun t s hs ht e ps xs body hf hl hnt hd hm hm' => ?_, fun _ _ _ _ _ _ => trivial⟩
  have h : e < s.heap.length ∧ (∀ x ∈ xs, VOk s.heap.length x) ∧ VOk s.heap.length (vlist body) := by
    rcases hf with rfl | rfl
    · exact ⟨ht.2, vok_bindings hl ht.1.2.1, ht.1.2.2⟩
    · exact ⟨ht.2, vok_vlist.1 ht.1.2, ht.1.1.2.2⟩
  have hx : VOk s.heap.length (lambdaForm ps xs body) := by
    exact ⟨⟨trivial, vok_vlist.2 (by intro x hx; obtain ⟨p, _, rfl⟩ := List.mem_map.1 hx; trivial), h.2.2⟩, vok_vlist.2 h.2.1⟩
  exact exchangeable_of_rx W hs h.1 hx (let_rx W hs h.1 h.2.1 h.2.2 hl hnt hd hm hm')

/-- `((lambda (x) (print x) x) (list))` for `(let ((x (list))) (print x) x)` at the start. -/
theorem let_example : Exchangeable sampleWorld 0 (lambdaForm ["x"] [form "list" []] [form "print" [.atom "x"], .atom "x"])
    (letForm ["x"] [form "list" []] [form "print" [.atom "x"], .atom "x"]) (initSt []) := by
  refine exchangeable_of_rx _ (initSt_inv _) (by simp [initSt]) (noLam_vok rfl _) (let_rx _ (initSt_inv _) (by simp [initSt]) ?_ ?_ rfl (by decide) ?_ (notMacro_init _ _) (notMacro_init _ _))
  · intro x hx; simp at hx; subst hx; trivial
  · exact ⟨⟨trivial, trivial, trivial⟩, trivial, trivial⟩
  · intro dd rest h; simp [form] at h

/-- Not everything can be exchanged. -/
example : ¬ Exchangeable sampleWorld 0 (.num 1) (.num 2) (initSt []) := by
  rintro ⟨ρ, -, -, h⟩
  have h1 := h [] (by simp)
  simp only [evalAll, show ∀ n, eval sampleWorld (.num n) 0 (initSt []) = .ok (.num n) (initSt []) from fun n => by rw [eval_eq]; rfl] at h1
  exact absurd h1.1 (by simp [Val.ren])

theorem macro_exchange {W : World} {e k : Nat} {x y : Val} {s s1 : St} (hs : Inv s) (he : e < s.heap.length) (hm : MacroSteps W e x s y s1) (ha : OnlyAdds k s s1)
    (ho : s1.out = s.out) (hy : ∀ ps r b dc m env, ¬ Inside (.lam ps r b dc m env) y) : Exchangeable W e y x s := by
  have hyv : VOk s.heap.length y := noFun_vok hy
  refine exchangeable_of_rx W hs he hyv ⟨shiftFrom s.heap.length k, s1.heap, fun i hi => by simp [shiftFrom, hi], (shift_sr hs ha).inj, ?_⟩
  rw [C36_repeated W e x y s s1 hm]
  have h1 := perform_sim _ W (t := .eval y e) hs ⟨hyv, he⟩ (shift_sr hs ha)
  rw [show Task.ren _ (.eval y e) = .eval y e from task_shift (t := .eval y e) ⟨hyv, he⟩, ho] at h1
  exact rx_of_rr (m := perform W (.eval y e)) h1 (SameOutcome.refl_of (m := perform W (.eval y e)) (errNE_perform W _))

/-- C75: at every moment of every run in which a macro call is evaluated whose (repeated) expansion leaves nothing behind but scopes, the macro call can be exchanged
for its expansion. -/
theorem C75_macro (W : World) : Always W
    { pre := fun t s => ∀ (e k : Nat) (x y : Val) (s1 : St), t = .eval x e → MacroSteps W e x s y s1 → OnlyAdds k s s1 → s1.out = s.out →
        (∀ ps r b dc m env, ¬ Inside (.lam ps r b dc m env) y) → Exchangeable W e y x s } := by
  refine always_of_watchOk W ⟨fun t s hs ht e k x y s1 hf hm ha ho hy => ?_, fun _ _ _ _ _ _ => trivial⟩
  subst hf
  exact macro_exchange hs ht.2 hm ha ho hy

/-- `(pick (undefined) 7)` for `7`, in a state with a macro `pick`. -/
example : Exchangeable sampleWorld 0 (.num 7) (form "pick" [form "undefined" [], .num 7]) macroSt := by
  have hi : Inv macroSt := by
    refine ⟨⟨by simp [macroSt], ?_, ?_, ?_⟩, ⟨by simp [macroSt], by simp [macroSt]⟩⟩
    · intro i f hf; cases i with
      | zero => simp [macroSt] at hf; subst hf; rfl
      | succ i => simp [macroSt] at hf
    · intro i f hf; cases i with
      | zero => simp [macroSt] at hf; subst hf; intro b hb; simp at hb; subst hb; exact ⟨by simp [macroSt], ⟨trivial, trivial⟩, trivial⟩
      | succ i => simp [macroSt] at hf
    · intro i f hf; cases i with
      | zero => simp [macroSt] at hf; subst hf; rfl
      | succ i => simp [macroSt] at hf
  exact macro_exchange hi (by simp [macroSt]) (.step (macroSt_step _) .refl) (k := 1) ⟨⟨_, rfl, rfl⟩, rfl⟩ rfl (by intro ps r b dc m env h; cases h)

theorem inside_ren {ρ : Nat → Nat} {u v : Val} (h : Inside u v) : Inside (u.ren ρ) (v.ren ρ) := by
  induction h with
  | here => exact .here
  | car _ ih => exact .car ih
  | cdr _ ih => exact .cdr ih
  | body _ ih => exact .body ih
  | doc _ ih => exact .doc ih

/-- C75: of two expressions that can be exchanged: if one has a value, the other has a value that prints the same (the same, if there are no functions of the
program in it), and has printed the same. -/
theorem C75_value (W : World) (e : Nat) (x x' v : Val) (s s1 : St) (h : Exchangeable W e x x' s) :
    (eval W x e s = .ok v s1 → ∃ v' s1', eval W x' e s = .ok v' s1' ∧ v'.str = v.str ∧
      ((∀ ps r b dc m env, ¬ Inside (.lam ps r b dc m env) v) → v' = v) ∧ s1'.out = s1.out ∧ s1'.inp = s1.inp ∧ s1'.screen = s1.screen) ∧
    (eval W x' e s = .ok v s1 → ∃ v' s1', eval W x e s = .ok v' s1' ∧ v'.str = v.str ∧
      ((∀ ps r b dc m env, ¬ Inside (.lam ps r b dc m env) v) → v' = v) ∧ s1'.out = s1.out ∧ s1'.inp = s1.inp ∧ s1'.screen = s1.screen) := by
  obtain ⟨ρ, -, -, h⟩ := h
  have h1 := h [] (by simp)
  simp only [evalAll] at h1
  constructor
  · intro hx
    rw [hx] at h1
    cases hx' : eval W x' e s <;> rw [hx'] at h1 <;> try (exact h1.elim)
    obtain ⟨rfl, ha⟩ := h1
    refine ⟨_, _, rfl, ren_str _, ren_noFun, ?_, ha.inp, ha.screen⟩
    obtain ⟨d, g1, g2⟩ := ha.out
    rw [g1, g2]
  · intro hx'
    rw [hx'] at h1
    cases hx : eval W x e s <;> rw [hx] at h1 <;> try (exact h1.elim)
    obtain ⟨rfl, ha⟩ := h1
    refine ⟨_, _, rfl, (ren_str _).symm, fun hn => (ren_noFun ?_).symm, ?_, ha.inp.symm, ha.screen.symm⟩
    · intro ps r b dc m env hin
      exact hn _ _ _ _ _ _ (inside_ren hin)
    obtain ⟨d, g1, g2⟩ := ha.out
    rw [g1, g2]

/-- The value of `((lambda (x) (print x) x) (list))`, from that of the `let`. -/
example (v : Val) (s1 : St) (h : eval sampleWorld (letForm ["x"] [form "list" []] [form "print" [.atom "x"], .atom "x"]) 0 (initSt []) = .ok v s1) :
    ∃ v' s1', eval sampleWorld (lambdaForm ["x"] [form "list" []] [form "print" [.atom "x"], .atom "x"]) 0 (initSt []) = .ok v' s1' ∧ v'.str = v.str ∧ s1'.out = s1.out := by
  obtain ⟨v', s1', h1, h2, -, h3, -⟩ := (C75_value _ _ _ _ v _ s1 let_example).2 h
  exact ⟨v', s1', h1, h2, h3⟩

end L1
