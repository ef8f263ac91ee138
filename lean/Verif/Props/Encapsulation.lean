import Verif.Lemmas.Encap
import Verif.Lemmas.Calls
import Verif.Props.Functions
/- C63, C64: private variables, and computations that leave nothing behind. -/
set_option autoImplicit false
namespace L1

/-! ### C63 -/

/-- C63: at every moment of every run of the program: whatever is done outside a set of private scopes has the same outcome, effects and all,
whatever the values of the private variables are; and it leaves them as they are, and private. -/
theorem C63_private (W : World) : Always W
    { pre := fun t s => ∀ (P : Nat → Prop) (s' : St), Private P s.heap → t.Avoids P → SameBut P s s' →
        Res.SameBut P (perform W t s) (perform W t s') ∧
        (∀ s1, (perform W t s).final = some s1 → Private P s1.heap ∧ ∀ i, P i → s1.heap[i]? = s.heap[i]?) ∧
        (∀ s1, (perform W t s').final = some s1 → ∀ i, P i → s1.heap[i]? = s'.heap[i]?) } :=
  always_of_watchOk W ⟨fun _ _ hs ht _ _ hp ha h => perform_private W hs ht hp ha h, fun _ _ _ _ _ _ => trivial⟩

theorem evalsTo_ok {W : World} {e : Nat} {xs vs : List Val} {s s1 : St} (h : EvalsTo W e xs s vs s1) (hi : Inv s) (he : e < s.heap.length)
    (hx : ∀ x ∈ xs, VOk s.heap.length x) : Inv s1 ∧ s.heap.length ≤ s1.heap.length ∧ ∀ v ∈ vs, VOk s1.heap.length v := by
  induction h with
  | nil => exact ⟨hi, Nat.le_refl _, by simp⟩
  | @cons x v xs vs s s1 s2 h1 _ ih =>
    have h2 := perform_safe W s.heap.length (.eval x e) ⟨hx x (by simp), he⟩ s hi (Nat.le_refl _)
    rw [show perform W (.eval x e) s = eval W x e s from rfl, h1] at h2
    have hl := h2.2.1.heap.len
    obtain ⟨h3, h4, h5⟩ := ih h2.1 (by omega) fun y hy => (hx y (by simp [hy])).mono hl
    refine ⟨h3, by omega, fun w hw => ?_⟩
    rcases List.mem_cons.1 hw with rfl | hw
    · exact h2.2.2.mono h4
    · exact h5 w hw

/-- C63: a function called by the program cannot see or change the variables of its caller, unless it was given a closure over them.  Two calls of the same
function with the same arguments, from anywhere, in states that differ in the private variables only, have the same outcome, and both leave
the private variables as they are. -/
theorem C63_call (W : World) : Always W
    { pre := fun t s => ∀ (e : Nat) (fx : Val) (xs vs : List Val) (ps : List String) (r : String) (body doc : Val) (m : Bool) (env : Nat) (s1 : St),
        t = .eval (.cons fx (vlist xs)) e → CallHead s.heap e fx → Reaches W e fx xs s (.lam ps r body doc m env) vs s1 →
        ∀ (P : Nat → Prop) (e' : Nat) (fx' : Val) (xs' : List Val) (s' s1' : St),
          CallHead s'.heap e' fx' → Reaches W e' fx' xs' s' (.lam ps r body doc m env) vs s1' →
          Private P s1.heap → SameBut P s1 s1' → (Val.lam ps r body doc m env).Avoids P → (∀ v ∈ vs, v.Avoids P) →
          Res.SameBut P (eval W (.cons fx (vlist xs)) e s) (eval W (.cons fx' (vlist xs')) e' s') ∧
          (∀ s2, (eval W (.cons fx (vlist xs)) e s).final = some s2 → Private P s2.heap ∧ ∀ i, P i → s2.heap[i]? = s1.heap[i]?) ∧
          (∀ s2, (eval W (.cons fx' (vlist xs')) e' s').final = some s2 → ∀ i, P i → s2.heap[i]? = s1'.heap[i]?) } := by
  refine always_of_watchOk W ⟨?_, fun _ _ _ _ _ _ => trivial⟩
  intro t s hs ht e fx xs vs ps r body doc m env s1 htask hh hr P e' fx' xs' s' s1' hh' hr' hp hsame hfa hva
  subst htask
  obtain ⟨hx, he⟩ := ht
  rw [eval_reaches hh hr, eval_reaches hh' hr']
  obtain ⟨s0, h1, h2⟩ := hr
  have h3 := perform_safe W s.heap.length (.eval fx e) ⟨hx.1, he⟩ s hs (Nat.le_refl _)
  rw [show perform W (.eval fx e) s = eval W fx e s from rfl, h1] at h3
  have hl := h3.2.1.heap.len
  obtain ⟨h4, h5, h6⟩ := evalsTo_ok h2 h3.1 (by omega) fun x hx' => (vok_vlist.1 hx.2 x hx').mono hl
  exact apply_private W h4 (h3.2.2.mono h5) h6 hp hfa hva hsame

/-! A program with a private variable: `f` is global, `x` is local to scope 1. -/

/-- `(defn f (y) (set! g y))` and a global `g`; and the scope of `(let ((x v)) ...)`. -/
def privSt (v : Val) : St :=
  { initSt [] with heap := [⟨[("g", .num 0), ("f", .lam ["y"] "" (vlist [form "set!" [.atom "g", .atom "y"], .atom "y"]) .nil false 0)], none⟩,
      ⟨[("x", v)], some 0⟩] }

example (v : Val) : Private (· = 1) (privSt v).heap ∧ (∀ w, SameBut (· = 1) (privSt v) (privSt w)) ∧
    Task.Avoids (· = 1) (.eval (form "f" [.num 7]) 0) := by
  have h0 : ∀ (i : Nat) (f : Frame), (privSt v).heap[i]? = some f → ¬ i = 1 → i = 0 := by
    intro i f hf hi
    have h2 := (List.getElem?_eq_some_iff.1 hf).1
    have h3 : (privSt v).heap.length = 2 := rfl
    omega
  refine ⟨⟨?_, ?_, ?_⟩, fun w => ⟨rfl, ?_, rfl⟩, ?_⟩
  · rintro i rfl; exact Nat.lt_succ_self 1
  · intro i f hf hi p hp
    have := h0 i f hf hi; subst this
    injection hf with hf; subst hf; cases hp
  · intro i f hf hi b hb
    have := h0 i f hf hi; subst this
    injection hf with hf; subst hf
    simp at hb
    rcases hb with rfl | rfl
    · trivial
    · simp [Val.Avoids, form]
  · intro i hi
    match i with
    | 0 => rfl
    | 1 => exact absurd rfl hi
    | i + 2 => rfl
  · simp [Task.Avoids, Val.Avoids, form]

/-! ### C64 -/

theorem ren_vok_id {n k : Nat} {v : Val} (h : VOk n v) : v.ren (shiftFrom n k) = v := by
  induction v with
  | cons a d iha ihd => simp only [Val.ren, iha h.1, ihd h.2]
  | lam ps r b dc m e ihb ihd => simp only [Val.ren, ihb h.2.1, ihd h.2.2, shiftFrom, h.1, if_true]
  | _ => rfl

theorem task_shift {n k : Nat} {t : Task} (h : TaskOk n t) : t.ren (shiftFrom n k) = t := by
  have hn : ∀ e, e < n → shiftFrom n k e = e := fun e he => by simp [shiftFrom, he]
  cases t with
  | eval x e => simp only [Task.ren, ren_vok_id h.1, hn e h.2]
  | mexpand x e => simp only [Task.ren, ren_vok_id h.1, hn e h.2]
  | loop x e => simp only [Task.ren, ren_vok_id h.1, hn e h.2]
  | builtin b args e =>
    simp only [Task.ren, hn e h.2]
    congr 1
    exact (List.map_congr_left (g := id) fun a ha => ren_vok_id (h.1 a ha)).trans (List.map_id _)

theorem shift_mono {n k i j : Nat} (h : i < j) : shiftFrom n k i < shiftFrom n k j := by
  unfold shiftFrom; split <;> split <;> omega

theorem shift_sr {k : Nat} {s s1 : St} (hi : Inv s) (h : OnlyAdds k s s1) : SR ⟨shiftFrom s.heap.length k, s.out, s1.out, s1.heap, [], []⟩ s s1 where
  inj := SR.inj_of_mono fun i j hij => shift_mono hij
  up := SR.up_of_mono hi fun i j hij => shift_mono hij
  frame i := by
    obtain ⟨g, hg, hh⟩ := h.heap
    show s1.heap[shiftFrom s.heap.length k i]? = (s.heap[i]?).map (Frame.ren (shiftFrom s.heap.length k))
    by_cases hl : i < s.heap.length
    · rw [show shiftFrom s.heap.length k i = i by simp [shiftFrom, hl], hh, List.getElem?_append_left hl, List.getElem?_eq_getElem hl]
      simp only [Option.map_some, Option.some.injEq]
      have hf : s.heap[i]? = some s.heap[i] := List.getElem?_eq_getElem hl
      have h1 := hi.heap.mem i _ hf
      have h2 := hi.heap.parent i _ hf
      revert h1 h2
      generalize s.heap[i] = f
      intro h1 h2
      obtain ⟨syms, par⟩ := f
      simp only [Frame.ren]
      congr 1
      · refine ((List.map_congr_left (g := id) ?_).trans (List.map_id _)).symm
        intro b hb
        exact Prod.ext rfl (ren_vok_id (h1 b hb))
      · cases par with
        | none => rfl
        | some q =>
          have : q < i := h2
          simp only [Option.map_some, shiftFrom, show q < s.heap.length by omega, if_true]
    · rw [List.getElem?_eq_none (l := s.heap) (by omega), List.getElem?_eq_none]
      · rfl
      · rw [hh, List.length_append, hg]; simp [shiftFrom, hl]; omega
  len j := by
    obtain ⟨g, hg, hh⟩ := h.heap
    show shiftFrom s.heap.length k (s.heap.length + j) = s1.heap.length + j
    rw [hh, List.length_append, hg]; simp [shiftFrom]; omega
  rest _ _ := rfl
  out := ⟨[], by simp, by simp⟩
  inp := by rw [h.rest]
  gensym := by rw [h.rest]
  tick := by rw [h.rest]
  screen := by rw [h.rest]
  issued := ⟨s.issued, rfl, by rw [h.rest]; rfl⟩

theorem sr_alike {R : Rn} {s s' : St} (hR : R.i = R.i') (h : SR R s s') : Alike R.ρ R.o R.o' s s' where
  scopes i f hf := by rw [h.frame i, hf]; rfl
  out := h.out
  inp := h.inp
  gensym := h.gensym
  tick := h.tick
  screen := h.screen
  issued := by obtain ⟨d, h1, h2⟩ := h.issued; rw [h1, h2, hR]

theorem ren_noFun {ρ : Nat → Nat} {v : Val} (h : ∀ ps r b dc m env, ¬ Inside (.lam ps r b dc m env) v) : v.ren ρ = v := by
  induction v with
  | cons a d iha ihd =>
    rw [Val.ren, iha fun _ _ _ _ _ _ hi => h _ _ _ _ _ _ (.car hi), ihd fun _ _ _ _ _ _ hi => h _ _ _ _ _ _ (.cdr hi)]
  | lam => exact absurd .here (h _ _ _ _ _ _)
  | _ => rfl

theorem rr_alike {R : Rn} {r r' : Res Val} (hR : R.i = R.i') (h : RR R (Val.ren R.ρ) r r') : Res.Alike R.ρ R.o R.o' r r' := by
  cases r <;> cases r' <;> first | exact h.elim | skip
  case oof => trivial
  case overflow => exact sr_alike hR h
  all_goals exact ⟨h.1, sr_alike hR h.2⟩

/-- C64: at every moment of every run: if something done before left nothing behind but text and scopes that nobody else refers to (`s1` instead of `s`), then
whatever is done next has the same outcome as if it had not been done: the same kind of outcome, the same value or error but for
the numbers of scopes, the same text printed, the same input read, the same questions asked. -/
theorem C64_unused (W : World) : Always W
    { pre := fun t s => ∀ (k : Nat) (s1 : St), OnlyAdds k s s1 →
        Res.Alike (shiftFrom s.heap.length k) s.out s1.out (perform W t s) (perform W t s1) } := by
  refine always_of_watchOk W ⟨fun t s hs ht k s1 h => ?_, fun _ _ _ _ _ _ => trivial⟩
  have := perform_sim ⟨shiftFrom s.heap.length k, s.out, s1.out, s1.heap, [], []⟩ W hs ht (shift_sr hs h)
  rw [show t.ren _ = t from task_shift ht] at this
  exact rr_alike rfl this

/-- C64: evaluating an expression twice in a row, when the first time it left nothing behind but text and new scopes, gives a value that prints the
same (the same value, if there are no functions of the program in it), prints the same text again, and again leaves nothing else
behind; so it can be repeated any number of times. -/
theorem C64_again (W : World) : Always W
    { pre := fun t s => ∀ (x v : Val) (e k : Nat) (s1 : St) (o : List Char), t = .eval x e → eval W x e s = .ok v s1 → OnlyAdds k s s1 → s1.out = s.out ++ o →
        ∃ v' s2, eval W x e s1 = .ok v' s2 ∧ v' = v.ren (shiftFrom s.heap.length k) ∧ v'.str = v.str ∧
          ((∀ ps r b dc m env, ¬ Inside (.lam ps r b dc m env) v) → v' = v) ∧ s2.out = s1.out ++ o ∧ OnlyAdds k s1 s2 } := by
  refine always_of_watchOk W ⟨fun t s hs ht x v e k s1 o htask hev h ho => ?_, fun _ _ _ _ _ _ => trivial⟩
  subst htask
  have := perform_sim ⟨shiftFrom s.heap.length k, s.out, s1.out, s1.heap, [], []⟩ W hs ht (shift_sr hs h)
  rw [show Task.ren _ (.eval x e) = .eval x e from task_shift ht, show perform W (.eval x e) s = eval W x e s from rfl, hev,
    show perform W (.eval x e) s1 = eval W x e s1 from rfl] at this
  cases hr : eval W x e s1 with
  | ok v' s2 =>
    rw [hr] at this
    obtain ⟨rfl, hsr⟩ := this
    refine ⟨_, s2, rfl, rfl, ren_str _, ren_noFun, ?_, ⟨?_, ?_⟩⟩
    · obtain ⟨d, h1, h2⟩ := hsr.out
      have h3 : s.out ++ o = s.out ++ d := ho.symm.trans h1
      rw [List.append_cancel_left h3]; exact h2
    · obtain ⟨g, hg, hh⟩ := h.heap
      have hl := hsr.len 0
      have hlen : s2.heap.length = s1.heap.length + k := by
        have h1 : s1.heap.length = s.heap.length + k := by rw [hh, List.length_append, hg]
        simp only [Nat.add_zero] at hl
        rw [← hl]
        show shiftFrom s.heap.length k s1.heap.length = _
        have : ¬ s1.heap.length < s.heap.length := by omega
        simp [shiftFrom, this]
      have hext : ∀ i, i < s1.heap.length → s2.heap[i]? = s1.heap[i]? := by
        intro i hi
        by_cases hs' : i < s.heap.length
        · have h1 := hsr.frame i
          have h2 := (shift_sr hs h).frame i
          have h3 : shiftFrom s.heap.length k i = i := by simp [shiftFrom, hs']
          simp only [h3] at h1 h2
          have h4 : s1.heap[i]? = s.heap[i]? := by rw [hh, List.getElem?_append_left hs']
          rw [h1, h4, ← h2, h4]
        · refine hsr.rest i fun j hj => ?_
          have h1 : s1.heap.length = s.heap.length + k := by rw [hh, List.length_append, hg]
          have hj' : shiftFrom s.heap.length k j = i := hj
          unfold shiftFrom at hj'
          split at hj' <;> omega
      refine ⟨s2.heap.drop s1.heap.length, by rw [List.length_drop]; omega, ?_⟩
      apply List.ext_getElem?
      intro i
      by_cases hi : i < s1.heap.length
      · rw [List.getElem?_append_left hi, hext i hi]
      · rw [List.getElem?_append_right (by omega), List.getElem?_drop]
        congr 1; omega
    · have e1 := hsr.inp; have e2 := hsr.gensym; have e3 := hsr.tick; have e4 := hsr.screen; obtain ⟨d5, e5, e6⟩ := hsr.issued
      cases s1; cases s2
      simp_all
  | _ => rw [hr] at this; exact this.elim

/-- A concrete case: `((lambda (x) (println x) (lambda () x)) 5)` prints, and leaves one new scope. -/
def onceExpr : Val := vlist [vlist [.atom "lambda", vlist [.atom "x"], form "println" [.atom "x"], form "lambda" [.nil, .atom "x"]], .num 5]

example : ∃ v s1, run sampleWorld 9 9 (.eval onceExpr 0) (initSt []) = .ok v s1 ∧ OnlyAdds 1 (initSt []) s1 ∧ s1.out = "5\n".toList :=
  ⟨_, _, rfl, ⟨⟨_, rfl, rfl⟩, rfl⟩, rfl⟩

end L1
