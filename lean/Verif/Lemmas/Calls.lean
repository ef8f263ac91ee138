import Verif.Spec.Calls
import Verif.Lemmas.Laws
/- Calling functions. -/
set_option autoImplicit false
namespace L1

theorem alGet_foldl (pvs : List (String × Val)) : ∀ (l : List (String × Val)) (x : String),
    alGet x (pvs.foldl (fun l pv => alSet pv.1 pv.2 l) l) = match pvs.reverse.lookup x with | some v => some v | none => alGet x l := by
  induction pvs with
  | nil => intro l x; rfl
  | cons pv pvs ih =>
    intro l x
    rw [List.foldl_cons, ih, List.reverse_cons, List.lookup_append]
    cases h : List.lookup x pvs.reverse with
    | some v => rfl
    | none =>
      simp only [Option.none_or, List.lookup]
      rw [alGet_alSet]
      by_cases hx : pv.1 = x
      · subst hx; simp
      · simp [hx, Ne.symm hx, beq_eq_false_iff_ne.2 (Ne.symm hx)]

theorem callScope_callSt (s : St) (parent : Nat) (ps : List String) (r : String) (vs : List Val) :
    CallScope s (callSt s parent ps r vs) parent ps r vs := by
  refine ⟨_, rfl, rfl, fun x => ?_⟩
  unfold paramSyms
  rw [alGet_foldl]
  unfold argFor
  cases List.lookup x (ps.zip vs).reverse with
  | some v => rfl
  | none =>
    simp only []
    by_cases hr : r = ""
    · simp [hr, alGet]
    · by_cases hx : x = r
      · subst hx; simp [hr, alGet]
      · simp [hr, alGet, hx, Ne.symm hx]

theorem bindParams_ok (ps : List String) : ∀ (vs : List Val) (s : St) (h : Heap) (f : Frame), s.heap = h ++ [f] → "t" ∉ ps →
    bindParams h.length ps vs s
      = .ok () { s with heap := h ++ [{ f with syms := (ps.zip vs).foldl (fun l pv => alSet pv.1 pv.2 l) f.syms }] } := by
  induction ps with
  | nil => intro vs s h f hs _; simp [bindParams, ← hs]
  | cons p ps ih =>
    intro vs s h f hs ht
    cases vs with
    | nil => simp [bindParams, ← hs]
    | cons v vs =>
      simp only [List.mem_cons, not_or] at ht
      simp only [bindParams]
      have hset : setM h.length p v s = .ok () { s with heap := h ++ [{ f with syms := alSet p v f.syms }] } := by
        unfold setM; rw [if_neg (Ne.symm ht.1), hs, heapSet_new]
      rw [M.bind_ok (extend_ok hset)]
      exact ih vs { s with heap := h ++ [{ f with syms := alSet p v f.syms }] } h _ rfl ht.2

theorem bindArgs_ok {s : St} {parent : Nat} {ps : List String} {r : String} {vs : List Val} (ha : ArityOk ps r vs) (ht : NoT ps r) :
    bindArgs s.heap.length ps r vs { s with heap := s.heap ++ [⟨[], some parent⟩] } = .ok () (callSt s parent ps r vs) := by
  unfold bindArgs
  unfold ArityOk at ha
  by_cases hr : r = ""
  · rw [if_pos hr] at ha
    rw [M.ite_neg (by simpa using hr), M.ite_neg (by omega), M.ite_neg (by omega)]
    rw [bindParams_ok ps vs _ s.heap _ rfl ht.1]
    simp only [callSt, paramSyms, hr, if_true]
  · rw [if_neg hr] at ha
    rw [M.ite_pos hr, M.ite_neg (by omega)]
    have hset : setM s.heap.length r (vlist (vs.drop ps.length)) { s with heap := s.heap ++ [⟨[], some parent⟩] }
        = .ok () { s with heap := s.heap ++ [⟨[(r, vlist (vs.drop ps.length))], some parent⟩] } := by
      unfold setM; rw [if_neg ht.2]; simp only []; rw [heapSet_new]; rfl
    rw [M.bind_ok hset, bindParams_ok ps vs _ s.heap _ rfl ht.1]
    simp only [callSt, paramSyms, hr, if_false]

theorem bindArgs_arity {ne : Nat} {ps : List String} {r : String} {vs : List Val} {s : St} (ha : ¬ ArityOk ps r vs) :
    bindArgs ne ps r vs s = .err (.list (vlist [msgList
      (if vs.length < ps.length then "not enough arguments for function" else "too many arguments for function")])) s := by
  unfold bindArgs
  unfold ArityOk at ha
  by_cases hr : r = ""
  · rw [if_pos hr] at ha
    rw [M.ite_neg (by simpa using hr)]
    by_cases h1 : ps.length < vs.length
    · rw [M.ite_pos h1, if_neg (by omega)]; rfl
    · rw [M.ite_neg h1, M.ite_pos (by omega), if_pos (by omega)]; rfl
  · rw [if_neg hr] at ha
    rw [M.ite_pos hr, M.ite_pos (by omega), if_pos (by omega)]; rfl

/-- Reaching the call. -/
theorem eval_reaches {W : World} {e : Nat} {fx : Val} {xs : List Val} {s s1 : St} {f : Val} {vs : List Val}
    (hh : CallHead s.heap e fx) (h : Reaches W e fx xs s f vs s1) :
    eval W (.cons fx (vlist xs)) e s = evApply (perform W) (perform W) f vs e s1 := by
  obtain ⟨s0, h1, h2⟩ := h
  rw [eval_call W fx _ e s hh (isList_vlist _)]
  unfold evCall
  rw [M.bind_ok (extend_ok (by exact h1)), M.bind_ok (evArgs_ok h2)]

theorem evApply_lam {W : World} {ps : List String} {r : String} {body doc : Val} {m : Bool} {cenv : Nat} {vs : List Val} {e : Nat} {s : St}
    (ha : ArityOk ps r vs) (ht : NoT ps r) :
    evApply (perform W) (perform W) (.lam ps r body doc m cenv) vs e s
      = evBodyTail (perform W) (perform W) (fun a => vlist [.atom "lambda", a]) s.heap.length body (callSt s cenv ps r vs) := by
  simp only [evApply]
  rw [M.bind_ok (newEnvM_run _ _), M.bind_ok (extend_ok (bindArgs_ok ha ht))]

/-- A form that calls a native function by its name. -/
theorem eval_native {W : World} {b : BI} {e : Nat} {xs vs : List Val} {s s1 : St} (hl : lookup s.heap e b.name = none)
    (h : EvalsTo W e xs s vs s1) :
    eval W (form b.name xs) e s = extend ("builtin function " ++ b.name) (perform W (.builtin b vs e)) s1 := by
  have h1 : specialOf b.name = none := by cases b <;> decide
  have h2 : isCxr b.name = false := by cases b <;> decide
  have h3 : b.name ≠ "t" := by cases b <;> decide
  have h4 : builtinOf b.name = some b := by cases b <;> decide
  have hm : NotMacro s.heap e b.name := by intro ps r bd dc env hh; rw [hl] at hh; cases hh
  have hf : eval W (.atom b.name) e s = .ok (.bi b) s := by
    rw [eval_eq]
    show evalStep (perform W) (perform W) (.atom b.name) e s = _
    unfold evalStep
    rw [M.bind_ok (isMacroCallM_run _ _ _)]
    have hx : evExpr (perform W) (perform W) (.atom b.name) e = evAtom b.name e := by simp [evExpr, h2]
    rw [show isMacroCallIn (lookup s.heap e) (.atom b.name) = false from rfl]
    rw [M.ite_neg (by simp), hx]
    unfold evAtom
    rw [M.ite_neg h3, M.bind_ok (lookupM_run _ _ _), hl]
    dsimp only
    rw [h4]
    rfl
  exact eval_reaches (callHead_of h1 hm) ⟨s, hf, h⟩

end L1
