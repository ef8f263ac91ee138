import Verif.Props.Lambda
import Verif.Props.Encapsulation
import Verif.Lemmas.Under
import Verif.Spec.Refactor
/- The proof that a `let` and the call of a `lambda` can be exchanged. -/
set_option autoImplicit false
namespace L1
variable {W : World}

/-- The relation between the evaluated arguments and the bindings made. -/
def ArgsLet (R : Rn) (n e : Nat) (len : Nat) (ps : List String) (syms : List (String × Val)) : Res (List Val) → Res Bool → Prop
  | .ok vs s1, .ok b s1' => b = true ∧ vs.length = ps.length ∧ Inv s1 ∧ len ≤ s1.heap.length ∧ (∀ v ∈ vs, VOk s1.heap.length v) ∧
      (∃ ex, SR ⟨R.ρ, R.o, R.o', ex, R.i, R.i'⟩ s1 s1') ∧
      s1'.heap[n]? = some ⟨(ps.zip (vs.map (Val.ren R.ρ))).foldl (fun l pv => alSet pv.1 pv.2 l) syms, some e⟩
  | .err er s1, .err er' s1' => SameButFront (er.ren R.ρ) er' ∧ ∃ ex, SR ⟨R.ρ, R.o, R.o', ex, R.i, R.i'⟩ s1 s1'
  | .crash w s1, .crash w' s1' => w' = w ∧ ∃ ex, SR ⟨R.ρ, R.o, R.o', ex, R.i, R.i'⟩ s1 s1'
  | .exit c s1, .exit c' s1' => c = c' ∧ ∃ ex, SR ⟨R.ρ, R.o, R.o', ex, R.i, R.i'⟩ s1 s1'
  | .overflow s1, .overflow s1' => ∃ ex, SR ⟨R.ρ, R.o, R.o', ex, R.i, R.i'⟩ s1 s1'
  | .oof, .oof => True
  | _, _ => False

theorem ren_err_ne {ρ : Nat → Nat} {er : Err} (h : er ≠ .list .nil) : er.ren ρ ≠ .list .nil := by
  cases er with
  | foreign m => intro h'; cases h'
  | list v =>
    intro h'
    have : v.ren ρ = .nil := by injection h'
    rw [ren_eq_nil] at this
    exact h (by rw [this])

theorem setExtra_sr {R : Rn} {s s' : St} (h : SR R s s') {n : Nat} (hn : ∀ i, R.ρ i ≠ n) (x : String) (v : Val) :
    SR ⟨R.ρ, R.o, R.o', heapSet s'.heap n x v, R.i, R.i'⟩ s { s' with heap := heapSet s'.heap n x v } :=
  ⟨h.inj, h.up, fun i => by
    show (heapSet s'.heap n x v)[R.ρ i]? = _
    rw [heapSet_get]; simp only [if_neg (hn i)]; rw [h.frame i]; simp; rfl, fun k => by
    show R.ρ (s.heap.length + k) = (heapSet s'.heap n x v).length + k
    rw [heapSet_length]; exact h.len k, fun _ _ => rfl, h.out, h.inp, h.gensym, h.tick, h.screen, h.issued⟩

theorem args_let {n e : Nat} (xs : List Val) : ∀ (ps : List String) (R : Rn) (s s' : St) (syms : List (String × Val)), ps.length = xs.length → "t" ∉ ps →
    Inv s → SR R s s' → e < s.heap.length → (∀ x ∈ xs, VOk s.heap.length x ∧ x.ren R.ρ = x) → R.ρ e = e → (∀ i, R.ρ i ≠ n) →
    s'.heap[n]? = some ⟨syms, some e⟩ →
    ArgsLet R n e s.heap.length ps syms (evArgs (perform W) e (vlist xs) s) (evLetBinds (perform W) e n (vlist (List.zipWith letBinding ps xs)) s') := by
  induction xs with
  | nil =>
    intro ps R s s' syms hl _ hi hr he _ _ _ hf
    cases ps with
    | cons p ps => cases hl
    | nil => exact ⟨rfl, rfl, hi, Nat.le_refl _, (fun v hv => by cases hv), ⟨R.extra, hr⟩, hf⟩
  | cons x xs ih =>
    intro ps R s s' syms hl ht hi hr he hx hρ hn hf
    cases ps with
    | nil => cases hl
    | cons p ps =>
      simp only [List.mem_cons, not_or] at ht
      have hx1 := hx x (.head _)
      have h1 := perform_sim R W (t := .eval x e) hi ⟨hx1.1, he⟩ hr
      have h2 := perform_safe W s.heap.length (.eval x e) ⟨hx1.1, he⟩ s hi (Nat.le_refl _)
      rw [show Task.ren R.ρ (.eval x e) = .eval x e by simp only [Task.ren, hx1.2, hρ]] at h1
      have hne := errNE_perform W (.eval x e)
      have e1 : evLetBinds (perform W) e n (vlist (List.zipWith letBinding (p :: ps) (x :: xs))) = (do
          let v ← extend "evaluating let bindings" (perform W (.eval x e))
          extend "setting let bindings" (setM n p v)
          evLetBinds (perform W) e n (vlist (List.zipWith letBinding ps xs))) := rfl
      have e2 : evArgs (perform W) e (vlist (x :: xs)) = (do
          let v ← extend "evaluating function arguments" (perform W (.eval x e))
          let vs ← evArgs (perform W) e (vlist xs)
          pure (v :: vs)) := rfl
      rw [e1, e2]
      cases hms : perform W (.eval x e) s <;> cases hms' : perform W (.eval x e) s' <;> rw [hms, hms'] at h1 <;> try (exact h1.elim)
      case err er s1 er' s1' =>
        rw [M.bind_err (extend_err hms), M.bind_err (extend_err hms')]
        obtain ⟨rfl, h1⟩ := h1
        refine ⟨?_, _, h1⟩
        rw [extendErr_ren]
        exact .front (ren_err_ne (hne.err hms))
      case crash w s1 w' s1' =>
        rw [M.bind_run, M.bind_run]; unfold extend; rw [extendWith_run, extendWith_run, hms, hms']
        exact ⟨h1.1, _, h1.2⟩
      case exit c s1 c' s1' =>
        rw [M.bind_run, M.bind_run]; unfold extend; rw [extendWith_run, extendWith_run, hms, hms']
        exact ⟨h1.1, _, h1.2⟩
      case overflow s1 s1' =>
        rw [M.bind_run, M.bind_run]; unfold extend; rw [extendWith_run, extendWith_run, hms, hms']
        exact ⟨_, h1⟩
      case oof =>
        rw [M.bind_run, M.bind_run]; unfold extend; rw [extendWith_run, extendWith_run, hms, hms']
        trivial
      case ok v s1 v' s1' =>
        obtain ⟨rfl, h1⟩ := h1
        rw [hms] at h2
        have hlen : s.heap.length ≤ s1.heap.length := h2.2.1.heap.len
        have hset : setM n p (v.ren R.ρ) s1' = .ok () { s1' with heap := heapSet s1'.heap n p (v.ren R.ρ) } := by
          unfold setM; rw [if_neg (Ne.symm ht.1)]
        have hf1 : s1'.heap[n]? = some ⟨syms, some e⟩ := by rw [h1.rest n hn, ← hr.rest n hn, hf]
        rw [M.bind_ok (extend_ok hms), M.bind_ok (extend_ok hms'), M.bind_ok (extend_ok hset)]
        have h3 := ih ps ⟨R.ρ, R.o, R.o', heapSet s1'.heap n p (v.ren R.ρ), R.i, R.i'⟩ s1 _ (alSet p (v.ren R.ρ) syms) (by simpa using hl) ht.2 h2.1
          (setExtra_sr h1 hn p (v.ren R.ρ)) (by omega) (fun y hy => ⟨(hx y (.tail _ hy)).1.mono hlen, (hx y (.tail _ hy)).2⟩) hρ hn (by
            show (heapSet s1'.heap n p (v.ren R.ρ))[n]? = _
            rw [heapSet_get, hf1]; simp)
        rw [M.bind_run]
        revert h3
        cases hA : evArgs (perform W) e (vlist xs) s1 <;>
          cases hB : evLetBinds (perform W) e n (vlist (List.zipWith letBinding ps xs)) { s1' with heap := heapSet s1'.heap n p (v.ren R.ρ) } <;> intro h3 <;>
          try (exact h3.elim)
        case ok vs s2 b s2' =>
          obtain ⟨g1, g2, g3, g4, g5, g6, g7⟩ := h3
          refine ⟨g1, by simp [g2], g3, Nat.le_trans hlen g4, ?_, g6, ?_⟩
          · intro w hw
            rcases List.mem_cons.1 hw with rfl | hw
            · exact h2.2.2.mono g4
            · exact g5 w hw
          · simpa using g7
        all_goals exact h3

/-- Only the frames of errors depend on `wrap`. -/
theorem same_wrap {call : Task → M Val} (hc : ∀ t, ErrNE (call t)) {w1 w2 : Val → Val} {e : Nat} (body : Val) : ∀ s : St,
    SameOutcome (evBodyTail call call w1 e body s) (evBodyTail call call w2 e body s) := by
  induction body with
  | cons a d _ ih =>
    intro s
    by_cases hd : d = .nil
    · subst hd
      exact SameOutcome.refl_of (m := call (.eval a e)) (hc _)
    · have ht : ∀ w, evBodyTail call call w e (.cons a d) s = (extendWith (w a) (call (.eval a e)) >>= fun _ => evBodyTail call call w e d) s := by
        intro w
        cases d with
        | nil => exact absurd rfl hd
        | _ => rfl
      rw [ht, ht, M.bind_run, M.bind_run, extendWith_run, extendWith_run]
      cases hr : call (.eval a e) s with
      | err er s' => exact ⟨rfl, .front ((hc _).err hr)⟩
      | ok v s' => exact ih s'
      | _ => simp [SameOutcome]
  | _ => intro s; exact ⟨rfl, rfl⟩

/-- Like `RR`, but the errors may differ in front. -/
def RX (R : Rn) : Res Val → Res Val → Prop
  | .err er s, .err er' s' => SameButFront (er.ren R.ρ) er' ∧ SR R s s'
  | r, r' => RR R (Val.ren R.ρ) r r'

theorem rx_of_rr {R : Rn} {m : M Val} {s : St} {r' r'' : Res Val} (h : RR R (Val.ren R.ρ) (m s) r') (h2 : SameOutcome r' r'') : RX R (m s) r'' := by
  revert h
  cases m s <;> cases r' <;> (intro h; try (exact h.elim)) <;> cases r'' <;> (try exact h2.elim)
  case ok => obtain ⟨rfl, rfl⟩ := h2; exact h
  case crash => obtain ⟨rfl, rfl⟩ := h2; exact h
  case exit => obtain ⟨rfl, rfl⟩ := h2; exact h
  case overflow => cases h2; exact h
  case oof => trivial
  case err =>
    obtain ⟨rfl, h3⟩ := h2
    obtain ⟨rfl, h4⟩ := h
    exact ⟨h3, h4⟩

/-- The numbers of scopes after the arguments: with `let`, the new scope is there before the arguments are evaluated (number `n`), with a call after
(number `m`). -/
def moveTo (n m i : Nat) : Nat := if i < n then i else if i < m then i + 1 else if i = m then n else i

theorem moveTo_inj {n m : Nat} (h : n ≤ m) (i j : Nat) (hij : moveTo n m i = moveTo n m j) : i = j := by
  have key : ∀ k, (k < n ∧ moveTo n m k = k) ∨ (n ≤ k ∧ k < m ∧ moveTo n m k = k + 1) ∨ (k = m ∧ moveTo n m k = n) ∨ (m < k ∧ moveTo n m k = k) := by
    intro k
    unfold moveTo
    by_cases h1 : k < n
    · rw [if_pos h1]; omega
    · rw [if_neg h1]
      by_cases h2 : k < m
      · rw [if_pos h2]; omega
      · rw [if_neg h2]
        by_cases h3 : k = m
        · rw [if_pos h3]; omega
        · rw [if_neg h3]; omega
  have h1 := key i; have h2 := key j
  omega

theorem Frame.ren_congr {n : Nat} {ρ ρ' : Nat → Nat} (h : ∀ i, i < n → ρ i = ρ' i) {f : Frame} (hm : ∀ b ∈ f.syms, VOk n b.2) (hp : ∀ p, f.parent = some p → p < n) :
    f.ren ρ = f.ren ρ' := by
  obtain ⟨syms, par⟩ := f
  simp only [Frame.ren]
  congr 1
  · exact List.map_congr_left fun b hb => Prod.ext rfl (Val.ren_congr h (hm b hb))
  · cases par with
    | none => rfl
    | some q => simp only [Option.map_some, h q (hp q rfl)]

theorem ren_foldl_alSet (ρ : Nat → Nat) (ps : List String) : ∀ (vs : List Val) (syms : List (String × Val)),
    ((ps.zip vs).foldl (fun l pv => alSet pv.1 pv.2 l) syms).map (fun p => (p.1, p.2.ren ρ))
      = (ps.zip (vs.map (Val.ren ρ))).foldl (fun l pv => alSet pv.1 pv.2 l) (syms.map fun p => (p.1, p.2.ren ρ)) := by
  induction ps with
  | nil => intro vs syms; rfl
  | cons p ps ih =>
    intro vs syms
    cases vs with
    | nil => rfl
    | cons v vs =>
      simp only [List.zip_cons_cons, List.foldl_cons, List.map_cons]
      rw [ih, ren_alSet]

theorem move_sr {n e : Nat} {ps : List String} {vs : List Val} {o : List Char} {ex : Heap} {s s' : St} (hi : Inv s) (he : e < n) (hn : n ≤ s.heap.length)
    (hv : ∀ v ∈ vs, VOk s.heap.length v) (h : SR ⟨shiftFrom n 1, o, o, ex, [], []⟩ s s')
    (hf : s'.heap[n]? = some ⟨(ps.zip (vs.map (Val.ren (shiftFrom n 1)))).foldl (fun l pv => alSet pv.1 pv.2 l) [], some e⟩) :
    SR ⟨moveTo n s.heap.length, o, o, s'.heap, [], []⟩ (callSt s e ps "" vs) s' := by
  have hρ : ∀ i, i < s.heap.length → shiftFrom n 1 i = moveTo n s.heap.length i := by
    intro i hil; unfold shiftFrom moveTo; split
    · rfl
    · simp [hil]
  have hcl : (callSt s e ps "" vs).heap.length = s.heap.length + 1 := by simp [callSt]
  have hl := h.len 0
  have hl' : s'.heap.length = s.heap.length + 1 := by
    simp only [shiftFrom, Nat.add_zero] at hl
    rw [if_neg (by omega)] at hl; omega
  have hm : moveTo n s.heap.length s.heap.length = n := by simp [moveTo]; omega
  refine ⟨moveTo_inj hn, ?_, ?_, ?_, fun _ _ => rfl, h.out, h.inp, h.gensym, h.tick, h.screen, h.issued⟩
  · intro i f p hfi hp
    show moveTo n s.heap.length p < moveTo n s.heap.length i
    replace hfi : (s.heap ++ [⟨paramSyms ps "" vs, some e⟩])[i]? = some f := hfi
    rcases Nat.lt_trichotomy i s.heap.length with hil | rfl | hil
    · rw [List.getElem?_append_left hil] at hfi
      have := SR.parent (s' := s') hi hfi hp
      rw [← hρ i hil, ← hρ p (by omega)]
      exact h.up i f p hfi hp
    · rw [List.getElem?_append_right (Nat.le_refl _)] at hfi
      simp at hfi; subst hfi
      cases hp
      rw [hm]; simp [moveTo, he]
    · rw [List.getElem?_eq_none (by simp; omega)] at hfi; cases hfi
  · intro i
    show s'.heap[moveTo n s.heap.length i]? = ((s.heap ++ [⟨paramSyms ps "" vs, some e⟩])[i]?).map (Frame.ren (moveTo n s.heap.length))
    rcases Nat.lt_trichotomy i s.heap.length with hil | rfl | hil
    · have h1 := h.frame i
      rw [List.getElem?_append_left hil, ← hρ i hil]
      refine h1.trans ?_
      have hg : s.heap[i]? = some s.heap[i] := List.getElem?_eq_getElem hil
      rw [hg]
      simp only [Option.map_some, Option.some.injEq]
      refine Frame.ren_congr hρ (hi.heap.mem i _ hg) fun p hp => ?_
      have := SR.parent (s' := s') hi hg hp
      omega
    · rw [hm, hf, List.getElem?_append_right (Nat.le_refl _)]
      simp only [Nat.sub_self, List.getElem?_cons_zero, Option.map_some, Option.some.injEq, Frame.ren, paramSyms, if_true]
      rw [ren_foldl_alSet]
      have : vs.map (Val.ren (shiftFrom n 1)) = vs.map (Val.ren (moveTo n s.heap.length)) := List.map_congr_left fun v hv' => Val.ren_congr hρ (hv v hv')
      rw [this]
      simp [moveTo, he]
    · rw [List.getElem?_eq_none (l := s.heap ++ _) (by simp; omega), List.getElem?_eq_none]
      · rfl
      · unfold moveTo
        rw [if_neg (by omega), if_neg (by omega), if_neg (by omega)]; omega
  · intro k
    show moveTo n s.heap.length ((callSt s e ps "" vs).heap.length + k) = s'.heap.length + k
    rw [hcl]; unfold moveTo
    rw [if_neg (by omega), if_neg (by omega), if_neg (by omega)]; omega

/-- The bodies. -/
theorem body_rx {R : Rn} {w w' : Val → Val} (hw : ∀ n v, VOk n v → VOk n (w v)) (hwr : ∀ v, w (v.ren R.ρ) = (w v).ren R.ρ) {e : Nat} {b : Val} {s s' : St}
    (hi : Inv s) (h : SR R s s') (he : e < s.heap.length) (hb : VOk s.heap.length b) (hbr : b.ren R.ρ = b) :
    RX R (evBodyTail (perform W) (perform W) w e b s) (evBodyTail (perform W) (perform W) w' (R.ρ e) b s') := by
  have h1 := (Sim.evBodyTail (perform_simAll R W) (perform_simAll R W) hw hwr b he hb).rel s s' hi h (Nat.le_refl _)
  rw [hbr] at h1
  exact rx_of_rr h1 (same_wrap (errNE_perform W) b s')

theorem let_rx (W : World) {e : Nat} {ps : List String} {xs body : List Val} {s : St} (hi : Inv s) (he : e < s.heap.length)
    (hx : ∀ x ∈ xs, VOk s.heap.length x) (hb : VOk s.heap.length (vlist body)) (hl : ps.length = xs.length) (ht : "t" ∉ ps) (hd : NoDoc body)
    (hm : NotMacro s.heap e "lambda") (hm' : NotMacro s.heap e "let") :
    ∃ ρ ex, (∀ i, i < s.heap.length → ρ i = i) ∧ (∀ i j, ρ i = ρ j → i = j) ∧
      RX ⟨ρ, s.out, s.out, ex, [], []⟩ (eval W (.cons (form "lambda" (paramList ps none :: body)) (vlist xs)) e s)
        (eval W (form "let" (vlist (List.zipWith letBinding ps xs) :: body)) e s) := by
  have hshift : ∀ i, i < s.heap.length → shiftFrom s.heap.length 1 i = i := fun i hi => by simp [shiftFrom, hi]
  have hadd : OnlyAdds 1 s { s with heap := s.heap ++ [⟨[], some e⟩] } := ⟨⟨_, rfl, rfl⟩, rfl⟩
  have hsr := shift_sr hi hadd
  have hA := args_let (W := W) (n := s.heap.length) (e := e) xs ps _ s _ [] hl ht hi hsr he (fun x hx' => ⟨hx x hx', ren_vok_id (hx x hx')⟩) (hshift e he)
    (fun i => by show shiftFrom s.heap.length 1 i ≠ _; unfold shiftFrom; split <;> omega)
    (by show (s.heap ++ [⟨[], some e⟩])[s.heap.length]? = _; simp)
  rw [eval_call W (form "lambda" (paramList ps none :: body)) (vlist xs) e s trivial (isList_vlist _), eval_named W .let_ hm' rfl]
  unfold evCall
  rw [M.bind_ok (extend_ok (show perform W (.eval (form "lambda" (paramList ps none :: body)) e) s = .ok (.lam ps "" (vlist body) .nil false e) s
    from C73_lambda W ps none body e s hm (by simp) hd))]
  show ∃ ρ ex, _ ∧ _ ∧ RX _ _ (evLet (perform W) (perform W) e (.cons (vlist (List.zipWith letBinding ps xs)) (vlist body)) s)
  unfold evLet
  dsimp only
  rw [M.ite_pos (isList_vlist _), M.ite_pos (isList_vlist _), M.bind_ok (newEnvM_run e s), M.bind_run (m := evArgs _ _ _),
    M.bind_run (m := evLetBinds _ _ _ _)]
  revert hA
  cases hA1 : evArgs (perform W) e (vlist xs) s <;>
    cases hB1 : evLetBinds (perform W) e s.heap.length (vlist (List.zipWith letBinding ps xs)) { s with heap := s.heap ++ [⟨[], some e⟩] } <;> intro hA <;>
    try (exact hA.elim)
  case ok vs s1 b s1' =>
    obtain ⟨rfl, g2, g3, g4, g5, ⟨ex, g6⟩, g7⟩ := hA
    have hsr2 := move_sr g3 he g4 g5 g6 g7
    refine ⟨moveTo s.heap.length s1.heap.length, s1'.heap, fun i hi => by simp [moveTo, hi], moveTo_inj g4, ?_⟩
    dsimp only
    rw [evApply_lam (by unfold ArityOk; rw [if_pos rfl, g2]) ⟨ht, by decide⟩]
    have hi2 : Inv (callSt s1 e ps "" vs) := by
      have := (Safe.bindArgs (n := s1.heap.length) (e := s1.heap.length) (ps := ps) (r := "") g5) { s1 with heap := s1.heap ++ [⟨[], some e⟩] }
        (Safe.newEnvM (n := s1.heap.length) (p := e) (by omega) s1 g3 (Nat.le_refl _)).1 (by simp)
      rw [bindArgs_ok (by unfold ArityOk; rw [if_pos rfl, g2]) ⟨ht, by decide⟩] at this
      exact this.1
    have := body_rx (W := W) (R := ⟨moveTo s.heap.length s1.heap.length, s.out, s.out, s1'.heap, [], []⟩) (w := fun a => vlist [.atom "lambda", a])
      (w' := fun _ => msgList "evaluating let body") (e := s1.heap.length) (b := vlist body) (fun n v hv => ⟨trivial, hv, trivial⟩) (fun v => rfl) hi2 hsr2
      (by simp [callSt]) (hb.mono (by simp [callSt]; omega)) ?_
    · rw [show (Rn.mk (moveTo s.heap.length s1.heap.length) s.out s.out s1'.heap [] []).ρ s1.heap.length = s.heap.length by simp [moveTo]; omega] at this
      exact this
    · exact (Val.ren_congr (n := s.heap.length) (ρ' := id) (fun i hi => by simp [moveTo, hi]) hb).trans (Val.ren_id _)
  case err er s1 er' s1' => obtain ⟨g1, ex, g2⟩ := hA; exact ⟨_, ex, hshift, g2.inj, g1, g2⟩
  case crash w s1 w' s1' => obtain ⟨g1, ex, g2⟩ := hA; exact ⟨_, ex, hshift, g2.inj, g1, g2⟩
  case exit c s1 c' s1' => obtain ⟨g1, ex, g2⟩ := hA; exact ⟨_, ex, hshift, g2.inj, g1, g2⟩
  case overflow s1 s1' => obtain ⟨ex, g2⟩ := hA; exact ⟨_, ex, hshift, g2.inj, g2⟩
  case oof => exact ⟨_, [], hshift, hsr.inj, trivial⟩

theorem noFun_vok {n : Nat} {v : Val} (h : ∀ ps r b dc m env, ¬ Inside (.lam ps r b dc m env) v) : VOk n v := by
  induction v with
  | cons a d iha ihd => exact ⟨iha fun _ _ _ _ _ _ hi => h _ _ _ _ _ _ (.car hi), ihd fun _ _ _ _ _ _ hi => h _ _ _ _ _ _ (.cdr hi)⟩
  | lam ps r b dc m e => exact absurd .here (h ps r b dc m e)
  | _ => trivial

theorem alike_of_rx {R : Rn} (hR : R.i = R.i') (hO : R.o = R.o') {r r' : Res Val} (h : RX R r r') : Res.AlikeButFront R.ρ R.o r r' := by
  have h2 : ∀ {s s'}, SR R s s' → Alike R.ρ R.o R.o s s' := fun h => by have := sr_alike hR h; rwa [← hO] at this
  cases r <;> cases r' <;> try (exact h.elim)
  case oof => trivial
  case overflow => exact h2 h
  all_goals exact ⟨h.1, h2 h.2⟩

/-- What is evaluated afterwards, in states that correspond. -/
theorem evalAll_rx {R : Rn} (hR : R.i = R.i') (hO : R.o = R.o') {e : Nat} (he : R.ρ e = e) (ys : List Val)
    (hy : ∀ y ∈ ys, ∀ ps r b dc m env, ¬ Inside (.lam ps r b dc m env) y) : ∀ (v : Val) (s s' : St), Inv s → e < s.heap.length → SR R s s' →
    Res.AlikeButFront R.ρ R.o (evalAll W e ys v s) (evalAll W e ys (v.ren R.ρ) s') := by
  induction ys with
  | nil => intro v s s' hi _ h; exact alike_of_rx hR hO (r := .ok v s) (r' := .ok (v.ren R.ρ) s') ⟨rfl, h⟩
  | cons y ys ih =>
    intro v s s' hi hes h
    have hyv : VOk s.heap.length y := noFun_vok (hy y (.head _))
    have h1 := perform_sim R W (t := .eval y e) hi ⟨hyv, hes⟩ h
    rw [show Task.ren R.ρ (.eval y e) = .eval y e by simp only [Task.ren, ren_noFun (hy y (.head _)), he]] at h1
    have h2 := perform_safe W s.heap.length (.eval y e) ⟨hyv, hes⟩ s hi (Nat.le_refl _)
    have hne := errNE_perform W (.eval y e)
    simp only [evalAll, ← perform_eval]
    cases hms : perform W (.eval y e) s <;> cases hms' : perform W (.eval y e) s' <;> rw [hms, hms'] at h1 <;> try (exact h1.elim)
    case ok w s1 w' s1' =>
      obtain ⟨rfl, h1⟩ := h1
      rw [hms] at h2
      exact ih (fun y hy' => hy y (.tail _ hy')) w s1 s1' h2.1 (Nat.lt_of_lt_of_le hes h2.2.1.heap.len) h1
    case err er s1 er' s1' =>
      obtain ⟨rfl, h1⟩ := h1
      exact alike_of_rx hR hO (r := .err er s1) (r' := .err _ s1') ⟨⟨[], [], er.ren R.ρ, Nat.zero_le _, Nat.zero_le _, ren_err_ne (hne.err hms), rfl, rfl⟩, h1⟩
    case crash => exact alike_of_rx hR hO (r := .crash _ _) (r' := .crash _ _) h1
    case exit => exact alike_of_rx hR hO (r := .exit _ _) (r' := .exit _ _) h1
    case overflow => exact alike_of_rx hR hO (r := .overflow _) (r' := .overflow _) h1
    case oof => trivial

/-- From the correspondence of the outcomes of two expressions to their being exchangeable. -/
theorem exchangeable_of_rx (W : World) {e : Nat} {x x' : Val} {s : St} (hi : Inv s) (he : e < s.heap.length) (hx : VOk s.heap.length x)
    (h : ∃ ρ ex, (∀ i, i < s.heap.length → ρ i = i) ∧ (∀ i j, ρ i = ρ j → i = j) ∧ RX ⟨ρ, s.out, s.out, ex, [], []⟩ (eval W x e s) (eval W x' e s)) :
    Exchangeable W e x x' s := by
  obtain ⟨ρ, ex, h1, h2, h3⟩ := h
  refine ⟨ρ, h1, h2, fun ys hy => ?_⟩
  have hs := perform_safe W s.heap.length (.eval x e) ⟨hx, he⟩ s hi (Nat.le_refl _)
  rw [perform_eval] at hs
  simp only [evalAll]
  cases hms : eval W x e s <;> cases hms' : eval W x' e s <;> rw [hms, hms'] at h3 <;> try (exact h3.elim)
  case ok v s1 v' s1' =>
    obtain ⟨rfl, h3⟩ := h3
    rw [hms] at hs
    exact evalAll_rx (R := ⟨ρ, s.out, s.out, ex, [], []⟩) rfl rfl (h1 e he) ys hy v s1 s1' hs.1 (Nat.lt_of_lt_of_le he hs.2.1.heap.len) h3
  all_goals exact alike_of_rx (R := ⟨ρ, s.out, s.out, ex, [], []⟩) rfl rfl h3

end L1
