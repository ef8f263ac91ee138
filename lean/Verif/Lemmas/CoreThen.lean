import Verif.Spec.Ctl
import Verif.Lemmas.CoreLoop
import Verif.Lemmas.CoreGives
/- Sequencing outcomes. -/
set_option autoImplicit false
namespace L1
variable {W : World}

theorem extend_andThen (m : M Val) (frame : Val) (k : Val → M Val) (s : St) : (extendWith frame m >>= k) s = (m s).andThen frame fun v s' => k v s' := by
  rw [M.bind_run]
  unfold extendWith Res.andThen
  cases h : m s with
  | err er s1 => cases er <;> rfl
  | _ => rfl

theorem extend_andThen' (m : M Val) (msg : String) (k : Val → M Val) (s : St) : (extend msg m >>= k) s = (m s).andThen (msgList msg) fun v s' => k v s' :=
  extend_andThen m _ k s

theorem evBodyTail_sequence (wrap : Val → Val) (e : Nat) (xs : List Val) (s : St) :
    evBodyTail (perform W) (perform W) wrap e (vlist xs) s = sequence W wrap e xs s := by
  induction xs generalizing s with
  | nil => rfl
  | cons x xs ih =>
    cases xs with
    | nil => rfl
    | cons y xs =>
      have h1 : evBodyTail (perform W) (perform W) wrap e (vlist (x :: y :: xs)) = (do
        let _ ← extendWith (wrap x) (perform W (.eval x e))
        evBodyTail (perform W) (perform W) wrap e (vlist (y :: xs))) := rfl
      rw [h1, extend_andThen]
      unfold sequence
      congr 1
      funext v s'
      exact ih s'

theorem evCond_one (c b : Val) (e : Nat) (rest : Val) (s : St) :
    evCond (perform W) (perform W) e (.cons (vlist [c, b]) rest) s =
      (eval W c e s).andThen (msgList "evaluating cond condition") fun v s' => if v = .nil then evCond (perform W) (perform W) e rest s' else eval W b e s' := by
  have h1 : evCond (perform W) (perform W) e (.cons (vlist [c, b]) rest) = (do
      let ev ← extend "evaluating cond condition" (perform W (.eval c e))
      if ev = .nil then evCond (perform W) (perform W) e rest else perform W (.eval b e)) := rfl
  rw [h1, extend_andThen']
  congr 1
  funext v s'
  by_cases hv : v = .nil
  · rw [M.ite_pos hv, if_pos hv]
  · rw [M.ite_neg hv, if_neg hv]; rfl

theorem eval_cond1 {s : St} {e : Nat} {c b : Val} {L : List (String × Val)} (hs : Sc s.heap e L) (hx : alGet "cond" L = none) :
    eval W (vlist [.atom "cond", vlist [c, b]]) e s = (eval W c e s).andThen (msgList "evaluating cond condition") fun v s' =>
      if v = .nil then .ok .nil s' else eval W b e s' := by
  refine (eval_sform W .cond [vlist [c, b]] e s (hs.notMacro_sf hx known_cond)).trans ?_
  exact evCond_one c b e .nil s

theorem eval_t (W : World) (e : Nat) (s : St) : eval W (.atom "t") e s = .ok (.atom "t") s := by rw [eval_eq]; rfl

theorem eval_cond2 {s : St} {e : Nat} {c a b : Val} {L : List (String × Val)} (hs : Sc s.heap e L) (hx : alGet "cond" L = none) :
    eval W (vlist [.atom "cond", vlist [c, a], vlist [.atom "t", b]]) e s = (eval W c e s).andThen (msgList "evaluating cond condition") fun v s' =>
      if v = .nil then eval W b e s' else eval W a e s' := by
  refine (eval_sform W .cond [vlist [c, a], vlist [.atom "t", b]] e s (hs.notMacro_sf hx known_cond)).trans ?_
  refine (evCond_one c a e (.cons (vlist [.atom "t", b]) .nil) s).trans ?_
  congr 1
  funext v s'
  rw [evCond_one, eval_t]
  rfl

/-- Calls with one and two arguments. -/
theorem eval_call1 {s : St} {e : Nat} {hx f c : Val} (hh : CallHead s.heap e hx) (hf : eval W hx e s = .ok f s) :
    eval W (vlist [hx, c]) e s = (eval W c e s).andThen (msgList "evaluating function arguments") fun v s' => callFn W f [v] e s' := by
  rw [show vlist [hx, c] = .cons hx (vlist [c]) from rfl, eval_call W _ _ _ _ hh (isList_vlist _)]
  unfold evCall
  rw [M.bind_ok (extend_ok (show perform W (.eval hx e) s = .ok f s from hf))]
  have h1 : (do let vs ← evArgs (perform W) e (vlist [c]); evApply (perform W) (perform W) f vs e) = (do
      let v ← extend "evaluating function arguments" (perform W (.eval c e))
      evApply (perform W) (perform W) f [v] e) := by
    funext s
    simp only [vlist_cons, vlist_nil, evArgs, M.bind_run]
    cases extend "evaluating function arguments" (perform W (.eval c e)) s <;> rfl
  rw [h1, extend_andThen']
  rfl

theorem eval_call2 {s : St} {e : Nat} {hx f c d : Val} (hh : CallHead s.heap e hx) (hf : eval W hx e s = .ok f s) :
    eval W (vlist [hx, c, d]) e s = (eval W c e s).andThen (msgList "evaluating function arguments") fun v s' =>
      (eval W d e s').andThen (msgList "evaluating function arguments") fun w s'' => callFn W f [v, w] e s'' := by
  rw [show vlist [hx, c, d] = .cons hx (vlist [c, d]) from rfl, eval_call W _ _ _ _ hh (isList_vlist _)]
  unfold evCall
  rw [M.bind_ok (extend_ok (show perform W (.eval hx e) s = .ok f s from hf))]
  have h1 : (do let vs ← evArgs (perform W) e (vlist [c, d]); evApply (perform W) (perform W) f vs e) = (do
      let v ← extend "evaluating function arguments" (perform W (.eval c e))
      let w ← extend "evaluating function arguments" (perform W (.eval d e))
      evApply (perform W) (perform W) f [v, w] e) := by
    funext s
    simp only [vlist_cons, vlist_nil, evArgs, M.bind_run]
    cases extend "evaluating function arguments" (perform W (.eval c e)) s with
    | ok v s1 => dsimp only; cases extend "evaluating function arguments" (perform W (.eval d e)) s1 <;> rfl
    | _ => rfl
  rw [h1, extend_andThen']
  congr 1
  funext v s'
  rw [extend_andThen']
  rfl

theorem Sc.reaches {s : St} {e : Nat} {L : List (String × Val)} {a : String} {f : Val} (hs : Sc s.heap e L) (hx : alGet a L = none) (hk : Head a f) :
    CallHead s.heap e (.atom a) ∧ eval W (.atom a) e s = .ok f s := by
  refine hk.reaches ?_
  have hk2 := hk.val
  unfold coreVal at hk2
  cases hkn : known a with
  | none => rw [hkn] at hk2; cases hk2
  | some r =>
    rw [hs.lookup_known hx hkn]
    cases r with
    | none => exact (known_some_none hkn).symm
    | some w => exact (known_some_some hkn).symm

theorem call_bi {b : BI} {vs : List Val} {e : Nat} {s s' : St} {v : Val} (h : biFn W (perform W) b vs e s = .ok v s') : callFn W (.bi b) vs e s = .ok v s' := by
  unfold callFn
  simp only [evApply]
  refine extend_ok ?_
  rw [perform_eq]; exact h

/-- A call of `not`. -/
theorem eval_not {s : St} {e : Nat} {c : Val} {L : List (String × Val)} (hs : Sc s.heap e L) (hx : alGet "not" L = none) :
    eval W (vlist [.atom "not", c]) e s = (eval W c e s).andThen (msgList "evaluating function arguments") fun v s' => .ok (if v = .nil then .atom "t" else .nil) s' := by
  obtain ⟨h1, h2⟩ := hs.reaches (W := W) hx hd_not
  rw [eval_call1 h1 h2]
  congr 1
  funext v s'
  refine call_bi ?_
  cases v <;> rfl

end L1
