import Verif.Lemmas.Gen
/-
Calculus for expressions that may draw random numbers and may not end.
-/
set_option autoImplicit false
namespace L1

variable {W : World}

/-- The computation begun in `s` does not end, or at least `K` questions have been asked to the world, or it returns a value with the property, having taken at least `m` random
numbers and done nothing else. -/
def FD (K : Nat) (s : St) (m : Nat) (P : Val → Heap → Prop) (r : Res Val) : Prop :=
  Fine K (fun v s' => (∃ n, m ≤ n ∧ Draws n s s') ∧ P v s'.heap) r

/-- The expression, at any time after the heap was `h` and `T` questions had been asked. -/
def ED (W : World) (K T : Nat) (h : Heap) (e : Nat) (x : Val) (m : Nat) (P : Val → Heap → Prop) : Prop :=
  ∀ s : St, h <+: s.heap → T ≤ s.tick → FD K s m P (eval W x e s)

/-- The call, at any time after the heap was `h` and `T` questions had been asked. -/
def CD (W : World) (K T : Nat) (h : Heap) (f : Val) (vs : List Val) (m : Nat) (P : Val → Heap → Prop) : Prop :=
  ∀ (s : St) (e : Nat), h <+: s.heap → T ≤ s.tick → FD K s m P (callFn W f vs e s)

/-- The head of a form is that function. -/
def HdF (W : World) (h : Heap) (e : Nat) (hx f : Val) : Prop :=
  ∀ s : St, h <+: s.heap → CallHead s.heap e hx ∧ eval W hx e s = .ok f s

section
variable {K T e : Nat} {h : Heap} {m n l : Nat} {P Q R : Val → Heap → Prop}

theorem FD.mono {s : St} {r : Res Val} (hf : FD K s m P r) (hm : n ≤ m) (hp : ∀ v h', s.heap <+: h' → P v h' → Q v h') : FD K s n Q r :=
  Fine.mono hf fun _ _ ⟨⟨k, hk, d⟩, hP⟩ => ⟨⟨k, Nat.le_trans hm hk, d⟩, hp _ _ d.heap hP⟩

theorem ED.mono {x : Val} (hf : ED W K T h e x m P) (hm : n ≤ m) (hp : ∀ v h', h <+: h' → P v h' → Q v h') : ED W K T h e x n Q :=
  fun s hh ht => (hf s hh ht).mono hm fun v h' h1 => hp v h' (hh.trans h1)

theorem CD.mono {f : Val} {vs : List Val} (hf : CD W K T h f vs m P) (hm : n ≤ m) (hp : ∀ v h', h <+: h' → P v h' → Q v h') : CD W K T h f vs n Q :=
  fun s e hh ht => (hf s e hh ht).mono hm fun v h' h1 => hp v h' (hh.trans h1)

theorem ED.later {T' : Nat} {h' : Heap} {x : Val} (hf : ED W K T h e x m P) (hh : h <+: h') (ht : T ≤ T') : ED W K T' h' e x m P :=
  fun s h1 h2 => hf s (hh.trans h1) (Nat.le_trans ht h2)

theorem CD.later {T' : Nat} {h' : Heap} {f : Val} {vs : List Val} (hf : CD W K T h f vs m P) (hh : h <+: h') (ht : T ≤ T') : CD W K T' h' f vs m P :=
  fun s e h1 h2 => hf s e (hh.trans h1) (Nat.le_trans ht h2)

theorem CD.late {f : Val} {vs : List Val} (ht : K ≤ T) : CD W K T h f vs m P := fun _ _ _ h2 => .late (tick_callFn _ _ _ _) (Nat.le_trans ht h2)

theorem FR.andThenTick {m : M Val} {fr : Val} {k : Val → M Val} (hm : FR TickLe m) (hk : ∀ v, FR TickLe (k v)) : FR TickLe fun s => (m s).andThen fr fun v s' => k v s' := by
  intro s s' hf
  dsimp only at hf
  cases hr : m s with
  | ok v s1 =>
    rw [hr] at hf
    have h1 : TickLe s s1 := hm s s1 (by rw [hr]; rfl)
    have h2 : TickLe s1 s' := hk v s1 s' hf
    unfold TickLe at *
    omega
  | oof => rw [hr] at hf; cases hf
  | _ => exact hm s s' (by rw [hr] at hf ⊢; exact hf)

theorem FD.andThen {s : St} {r : Res Val} {fr : Val} {k : Val → M Val} (hf : FD K s m P r) (hk : ∀ v, FR TickLe (k v))
    (h' : ∀ v s1, s.heap <+: s1.heap → s.tick + m ≤ s1.tick → P v s1.heap → FD K s1 n Q (k v s1)) : FD K s (m + n) Q (r.andThen fr fun v s => k v s) := by
  refine Fine.andThen hf hk fun v s1 ⟨⟨j, hj, d⟩, hP⟩ => ?_
  refine Fine.mono (h' v s1 d.heap (by have := d.tick; omega) hP) fun w s2 ⟨⟨i, hi, d2⟩, hQ⟩ => ⟨⟨j + i, by omega, d.trans d2⟩, hQ⟩

theorem FD.after {s s1 : St} {r : Res Val} (q : Quiet s s1) (hf : FD K s1 m P r) : FD K s m P r :=
  Fine.mono hf fun _ _ ⟨⟨k, hk, d⟩, hP⟩ => ⟨⟨k, hk, .after q d⟩, hP⟩

theorem FD.ok {s s' : St} {v : Val} (d : Draws m s s') (hp : P v s'.heap) : FD K s m P (.ok v s') := .inr (.inr ⟨v, s', rfl, ⟨m, Nat.le_refl _, d⟩, hp⟩)

theorem ED.of {x v : Val} (hg : ∀ s : St, h <+: s.heap → G W s e x v) : ED W K T h e x 0 fun w _ => w = v := fun s hh _ => by
  obtain ⟨s1, e1, q1⟩ := hg s hh s (.refl _)
  rw [e1]
  exact .ok q1.draws rfl

theorem CD.draws {f : Val} {vs : List Val} {g : Nat → Val} (hg : ∀ s : St, h <+: s.heap → DrawsFn W s f vs m g) : CD W K T h f vs m fun w _ => ∃ t, w = g t := fun s e hh _ => by
  obtain ⟨s1, e1, d⟩ := hg s hh s e (List.prefix_refl _)
  rw [e1]
  exact .ok d ⟨_, rfl⟩

theorem CD.ret {f v : Val} {vs : List Val} (hg : ∀ s : St, h <+: s.heap → Returns W s f vs v) : CD W K T h f vs 0 fun w _ => w = v := fun s e hh _ => by
  obtain ⟨s1, e1, q1⟩ := hg s hh s e (.refl _)
  rw [e1]
  exact .ok q1.draws rfl

theorem HdF.core {L : List (String × Val)} {a : String} {f : Val} (hs : Sc h e L) (hx : alGet a L = none) (hk : Head a f) : HdF W h e (.atom a) f :=
  fun _ hh => (hs.mono hh).reaches hx hk

theorem HdF.var {L : List (String × Val)} {a : String} {f : Val} (hs : Sc h e L) (hx : alGet a L = some f) (hm : (f.notMacro && (specialOf a).isNone && !isCxr a && a != "t") = true) :
    HdF W h e (.atom a) f := fun s hh => by
  simp only [Bool.and_eq_true, Option.isNone_iff_eq_none, Bool.not_eq_true', bne_iff_ne] at hm
  have hl := (hs.mono hh).lookup_some hx
  exact ⟨callHead_of hm.1.1.2 fun ps r b dc env he => by
    rw [hl] at he
    exact notMacro_val hm.1.1.1 ps r b dc env (Option.some.inj he), eval_atom_bound hm.1.2 hm.2 hl⟩

theorem ED.call1 {hx f c : Val} (hf : HdF W h e hx f) (hc : ED W K T h e c m P) (hk : ∀ v h', h <+: h' → P v h' → CD W K (T + m) h' f [v] n Q) {k : Nat} (hle : k ≤ m + n := by omega) :
    ED W K T h e (vlist [hx, c]) k Q := fun s hh ht => by
  refine FD.mono (m := m + n) ?_ hle (fun _ _ _ h => h)
  rw [eval_call1 (hf s hh).1 (hf s hh).2]
  refine FD.andThen (k := fun v => callFn W f [v] e) (hc s hh ht) (fun _ => tick_callFn _ _ _ _) fun v s1 h1 h2 h3 => ?_
  exact hk v _ (hh.trans h1) h3 s1 e (List.prefix_refl _) (by omega)

theorem ED.call2 {hx f c d : Val} (hf : HdF W h e hx f) (hc : ED W K T h e c m P) (hd : ED W K T h e d n Q)
    (hk : ∀ v h1 w h2, h <+: h1 → h1 <+: h2 → P v h1 → Q w h2 → CD W K (T + m + n) h2 f [v, w] l R) {k : Nat} (hle : k ≤ m + (n + l) := by omega) :
    ED W K T h e (vlist [hx, c, d]) k R := fun s hh ht => by
  refine FD.mono (m := m + (n + l)) ?_ hle (fun _ _ _ h => h)
  rw [eval_call2 (hf s hh).1 (hf s hh).2]
  refine FD.andThen (k := fun v s' => (eval W d e s').andThen (msgList "evaluating function arguments") fun w s'' => callFn W f [v, w] e s'') (hc s hh ht)
    (fun v => .andThenTick (tick_eval _ _ _) fun _ => tick_callFn _ _ _ _) fun v s1 h1 h2 h3 => ?_
  refine FD.andThen (k := fun w => callFn W f [v, w] e) (hd s1 (hh.trans h1) (by omega)) (fun _ => tick_callFn _ _ _ _) fun w s2 h4 h5 h6 => ?_
  exact hk v _ w _ (hh.trans h1) h4 h3 h6 s2 e (List.prefix_refl _) (by omega)

/-- A call with one argument, whose function is computed. -/
theorem eval_callH1 {s : St} {hx c : Val} (hh : CallHead s.heap e hx) :
    eval W (vlist [hx, c]) e s = (eval W hx e s).andThen (msgList "evaluating function object") fun f s' =>
      (eval W c e s').andThen (msgList "evaluating function arguments") fun v s'' => callFn W f [v] e s'' := by
  rw [show vlist [hx, c] = .cons hx (vlist [c]) from rfl, eval_call W _ _ _ _ hh (isList_vlist _)]
  unfold evCall
  rw [extend_andThen']
  congr 1
  funext f s'
  have h1 : (do let vs ← evArgs (perform W) e (vlist [c]); evApply (perform W) (perform W) f vs e) = (do
      let v ← extend "evaluating function arguments" (perform W (.eval c e))
      evApply (perform W) (perform W) f [v] e) := by
    funext s
    simp only [vlist_cons, vlist_nil, evArgs, M.bind_run]
    cases extend "evaluating function arguments" (perform W (.eval c e)) s <;> rfl
  rw [h1, extend_andThen']
  rfl

theorem ED.callH1 {hx c : Val} (hh : ∀ h' : Heap, CallHead h' e hx) (hc : ED W K T h e hx m P) (hd : ED W K T h e c n Q)
    (hk : ∀ f h1 w h2, h <+: h1 → h1 <+: h2 → P f h1 → Q w h2 → CD W K (T + m + n) h2 f [w] l R) {k : Nat} (hle : k ≤ m + (n + l) := by omega) :
    ED W K T h e (vlist [hx, c]) k R := fun s hs ht => by
  refine FD.mono (m := m + (n + l)) ?_ hle (fun _ _ _ h => h)
  rw [eval_callH1 (hh _)]
  refine FD.andThen (k := fun f s' => (eval W c e s').andThen (msgList "evaluating function arguments") fun w s'' => callFn W f [w] e s'') (hc s hs ht)
    (fun v => .andThenTick (tick_eval _ _ _) fun _ => tick_callFn _ _ _ _) fun v s1 h1 h2 h3 => ?_
  refine FD.andThen (k := fun w => callFn W v [w] e) (hd s1 (hs.trans h1) (by omega)) (fun _ => tick_callFn _ _ _ _) fun w s2 h4 h5 h6 => ?_
  exact hk v _ w _ (hs.trans h1) h4 h3 h6 s2 e (List.prefix_refl _) (by omega)

/-- A call with quiet arguments. -/
theorem ED.calls {hx f : Val} {xs vs : List Val} (hf : HdF W h e hx f) (hg : ∀ s : St, h <+: s.heap → GA W s e xs vs) (hk : CD W K T h f vs m P) :
    ED W K T h e (.cons hx (vlist xs)) m P := fun s hh ht => by
  obtain ⟨s1, e1, q1⟩ := (hg s hh).evals s (.refl _)
  rw [eval_reaches (hf s hh).1 ⟨s, (hf s hh).2, e1⟩]
  exact .after q1 (hk s1 e (hh.trans q1.heap) (by rw [q1.tick]; exact ht))

theorem CD.lam {ps : List String} {r : String} {x doc : Val} {mc : Bool} {cenv : Nat} {vs : List Val} {L : List (String × Val)} (ha : ArityOk ps r vs) (ht : NoT ps r) (hs : Sc h cenv L)
    (hg : ∀ h' e', h <+: h' → Sc h' e' (paramSyms ps r vs ++ L) → ED W K T h' e' x m P) : CD W K T h (.lam ps r (vlist [x]) doc mc cenv) vs m P := fun s e hh hT => by
  rw [callFn_lam ha ht]
  have q := Quiet.callSt s cenv ps r vs
  exact .after q (hg _ _ (hh.trans q.heap) (Sc.callSt (hs.mono hh) ps r vs) _ (List.prefix_refl _) (by rw [q.tick]; exact hT))

theorem ED.template {L : List (String × Val)} {X c : Val} (hs : Sc h e L) (hx : alGet "syntax-quote" L = none) (hc : syntaxQuote X = some c) (hg : ED W K T h e c m P) :
    ED W K T h e (vlist [.atom "syntax-quote", X]) m P := fun s hh ht => by
  have h1 := eval_sform W .syntaxQuote [X] e s ((hs.mono hh).notMacro_sf hx known_syntax_quote)
  rw [show eval W (vlist [.atom "syntax-quote", X]) e s = eval W c e s from h1.trans (by
    show evSpecial (perform W) (perform W) .syntaxQuote (vlist [X]) e s = _
    simp only [evSpecial, vlist_cons, hc]
    rfl)]
  exact hg s hh ht

/-- What `(repeatedly n f)` returns, where `f` may take random numbers, or not end. -/
theorem cd_repeatedly {f : Val} (hm : f.notMacro = true) (N : Nat) : ∀ {h : Heap}, Base h 0 → CD W K T h f [] 0 (fun v _ => P v []) →
    CD W K T h k_repeatedly [.num N, f] 0 fun v _ => ∃ xs, v = vlist xs ∧ xs.length = N ∧ ∀ x ∈ xs, P x [] := by
  induction N with
  | zero =>
    intro h hc _ s0 e hp _
    have hc := hc.mono hp
    rw [show callFn W k_repeatedly [.num (0 : Nat), f] e s0 = _ from callFn_lam (ps := ["n", "f"]) (r := "") (vs := [.num (0 : Nat), f]) rfl (by decide) e s0]
    have q1 := Quiet.callSt s0 0 ["n", "f"] "" [.num (0 : Nat), f]
    have hs : Sc (callSt s0 0 ["n", "f"] "" [.num (0 : Nat), f]).heap s0.heap.length (paramSyms ["n", "f"] "" [.num (0 : Nat), f] ++ []) := Sc.callSt (.base hc) _ _ _
    obtain ⟨s2, e2, q2⟩ := (G.whenNotT (v := .nil) hs (plain_of rfl) (.core (hc.mono q1.heap) rfl) (.zeroT hs rfl (hc.mono q1.heap) (.v hs rfl rfl)) (by simp) :
      G W _ _ (vlist [.atom "when-not", vlist [.atom "zero?", .atom "n"], vlist [.atom "cons", vlist [.atom "f"], vlist [.atom "repeatedly", vlist [.atom "dec", .atom "n"], .atom "f"]]]) .nil) _ (.refl _)
    rw [show eval W _ _ _ = _ from e2]
    exact .ok (q1.trans q2).draws ⟨[], rfl, rfl, by simp⟩
  | succ N ih =>
    intro h hc0 hf s0 e hp hT
    have hc := hc0.mono hp
    rw [show callFn W k_repeatedly [.num (N + 1 : Nat), f] e s0 = _ from callFn_lam (ps := ["n", "f"]) (r := "") (vs := [.num (N + 1 : Nat), f]) rfl (by decide) e s0]
    have q1 := Quiet.callSt s0 0 ["n", "f"] "" [.num (N + 1 : Nat), f]
    have hs : Sc (callSt s0 0 ["n", "f"] "" [.num (N + 1 : Nat), f]).heap s0.heap.length (paramSyms ["n", "f"] "" [.num (N + 1 : Nat), f] ++ []) := Sc.callSt (.base hc) _ _ _
    obtain ⟨s2, q2, e2⟩ := whenNot_true (W := W) (c := vlist [.atom "zero?", .atom "n"]) (vlist [.atom "cons", vlist [.atom "f"], vlist [.atom "repeatedly", vlist [.atom "dec", .atom "n"], .atom "f"]])
      hs (plain_of rfl) (.core (hc.mono q1.heap) rfl) (.zeroF (n := ((N + 1 : Nat) : Int)) hs rfl (hc.mono q1.heap) (.v hs rfl rfl) (by omega))
    have q3 := q1.trans (q2.trans (Quiet.withScope s2 s0.heap.length))
    have hs3 : Sc (withScope s2 s0.heap.length).heap s2.heap.length ([] ++ (paramSyms ["n", "f"] "" [.num (N + 1 : Nat), f] ++ [])) :=
      .frame (by simp [withScope]) (Nat.lt_of_lt_of_le hs.lt q2.heap.length_le) (hs.mono (q2.trans (Quiet.withScope _ _)).heap)
    rw [show eval W _ _ (callSt s0 0 ["n", "f"] "" [.num (N + 1 : Nat), f]) = _ from e2]
    generalize withScope s2 s0.heap.length = s3 at *
    generalize s2.heap.length = e3 at *
    refine .after q3 ((ED.call2 (P := fun v _ => P v []) (Q := fun v _ => ∃ xs, v = vlist xs ∧ xs.length = N ∧ ∀ x ∈ xs, P x []) (T := T) (l := 0) (R := fun v _ => ∃ xs, v = vlist xs ∧ xs.length = N + 1 ∧ ∀ x ∈ xs, P x []) (.core hs3 rfl hd_cons)
      (.calls (xs := []) (vs := []) (.var (a := "f") (f := f) hs3 rfl ?_) (fun _ _ => .nil) (hf.later (hp.trans q3.heap) (Nat.le_refl _)))
      (.calls (xs := [vlist [.atom "dec", .atom "n"], .atom "f"]) (.core hs3 rfl hd_repeatedly) (fun s hh => ?_) (ih (hc0.mono (hp.trans q3.heap)) (hf.later (hp.trans q3.heap) (Nat.le_refl _)))) ?_) s3 (List.prefix_refl _) (by rw [q3.tick]; exact hT))
    · rw [hm]; rfl
    · have hs4 := hs3.mono hh
      have hd := G.dec (W := W) (x := .atom "n") (n := ((N + 1 : Nat) : Int)) hs4 rfl (hc.mono (q3.heap.trans hh)) (.v hs4 rfl rfl)
      rw [show (((N + 1 : Nat) : Int)) - 1 = N by omega] at hd
      exact .two hd (.v hs4 rfl rfl)
    · rintro v h1 w h2 _ _ hv ⟨xs, rfl, hl, hx⟩ s4 e4 _ _
      rw [call_cons]
      refine .ok (Quiet.refl _).draws ⟨v :: xs, rfl, by simp [hl], fun x hx' => ?_⟩
      rcases List.mem_cons.1 hx' with rfl | h
      · exact hv
      · exact hx x h
end

end L1
