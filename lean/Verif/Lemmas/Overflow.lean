import Verif.Lemmas.WithinCore
/-
Code for which the stack is not enough.
-/
set_option autoImplicit false
namespace L1

variable {W : World}

/-- Only running out of stack counts as indefinite. -/
def onlyOverflow : Bot := { overflow := True }

/-- With less stack and the same time, only a stack overflow can be different. -/
theorem run_shallower (W : World) (n d d' : Nat) (hd : d ≤ d') (t : Task) : Le onlyOverflow (run W n d t) (run W n d' t) := by
  induction n generalizing d d' t with
  | zero => exact .refl _
  | succ n ih =>
    rw [run_succ, run_succ]
    apply le_runStep
    · intro t
      cases d with
      | zero => intro s; exact .inl trivial
      | succ d =>
        obtain ⟨d', rfl⟩ : ∃ k, d' = k + 1 := ⟨d' - 1, by omega⟩
        exact ih d d' (by omega) t
    · exact ih d d' hd

/-- What succeeds without a stack limit succeeds in the same way on any stack, or the stack is not enough. -/
theorem either {d : Nat} {t : Task} {s s1 : St} {v : Val} (h : perform W t s = .ok v s1) :
    (∃ s2, performIn W d t s = .overflow s2) ∨ performIn W d t s = .ok v s1 := by
  obtain ⟨_, n, h1⟩ := run_of_perform (t := t) (s := s) (W := W) (by rw [h]; simp)
  rw [h] at h1
  have h2 : run W n (max d n) t s = .ok v s1 := by
    rw [run_stable (Nat.le_refl n) (Nat.le_max_right d n) (by rw [h1]; trivial), h1]
  rcases run_shallower W n d (max d n) (Nat.le_max_left _ _) t s with h3 | h3
  · cases h4 : run W n d t s with
    | overflow s2 => exact .inl ⟨s2, by rw [performIn_of_run (n := n) (by rw [h4]; simp), h4]⟩
    | _ => rw [h4] at h3; exact h3.elim
  · rw [h2] at h3
    exact .inr (by rw [performIn_of_run (n := n) (by rw [h3]; simp), h3])

theorem G.either {s : St} {e : Nat} {x v : Val} (h : G W s e x v) (d : Nat) {s' : St} (h' : Quiet s s') :
    (∃ s2, evalWithin W d x e s' = .overflow s2) ∨ ∃ s2, evalWithin W d x e s' = .ok v s2 ∧ Quiet s' s2 := by
  obtain ⟨s2, h1, h2⟩ := h s' h'
  rcases L1.either (d := d) (t := .eval x e) h1 with h3 | h3
  · exact .inl h3
  · exact .inr ⟨s2, h3, h2⟩

/-- On a stack of `d`, `x` runs out of stack, now or at any quiet time later. -/
def OW (W : World) (d : Nat) (s : St) (e : Nat) (x : Val) : Prop := ∀ s', Quiet s s' → ∃ s'', evalWithin W d x e s' = .overflow s''

/-- The same for the call of a function. -/
def ROW (W : World) (d : Nat) (s : St) (f : Val) (vs : List Val) : Prop :=
  ∀ s' e, Quiet s s' → ∃ s'', evApply (performIn W d) (performIn W (d + 1)) f vs e s' = .overflow s''

theorem ROW.mono {d : Nat} {s s1 : St} {f : Val} {vs : List Val} (h : ROW W d s f vs) (hq : Quiet s s1) : ROW W d s1 f vs := fun s' e h' => h s' e (hq.trans h')

/-- Evaluating arguments that succeed without a stack limit. -/
theorem GA.either {s : St} {e : Nat} {xs vs : List Val} (h : GA W s e xs vs) (d : Nat) : ∀ s', Quiet s s' →
    (∃ s2, evArgs (performIn W d) e (vlist xs) s' = .overflow s2) ∨ ∃ s2, evArgs (performIn W d) e (vlist xs) s' = .ok vs s2 ∧ Quiet s' s2 := by
  induction h with
  | nil => exact fun s' _ => .inr ⟨s', rfl, .refl _⟩
  | cons h1 _ ih =>
    intro s' h'
    simp only [vlist_cons, evArgs]
    rcases h1.either d h' with ⟨s2, h2⟩ | ⟨s2, h2, q2⟩
    · exact .inl ⟨s2, M.bind_overflow (extend_overflow (by exact h2))⟩
    · rw [M.bind_ok (extend_ok (by exact h2))]
      rcases ih s2 (h'.trans q2) with ⟨s3, h3⟩ | ⟨s3, h3, q3⟩
      · exact .inl ⟨s3, M.bind_overflow h3⟩
      · exact .inr ⟨s3, by rw [M.bind_ok h3]; rfl, q2.trans q3⟩

/-- Evaluating arguments one of which runs out of stack. -/
theorem OW.evArgs {d : Nat} {s : St} {e : Nat} {xs vs ys : List Val} {x : Val} (ha : GA W s e xs vs) (hx : OW W d s e x) :
    ∀ s', Quiet s s' → ∃ s2, evArgs (performIn W d) e (vlist (xs ++ x :: ys)) s' = .overflow s2 := by
  induction ha with
  | nil =>
    intro s' h'
    obtain ⟨s2, h2⟩ := hx s' h'
    simp only [List.nil_append, vlist_cons, L1.evArgs]
    exact ⟨s2, M.bind_overflow (extend_overflow (by exact h2))⟩
  | cons h1 _ ih =>
    intro s' h'
    simp only [List.cons_append, vlist_cons, L1.evArgs]
    rcases h1.either d h' with ⟨s2, h2⟩ | ⟨s2, h2, q2⟩
    · exact ⟨s2, M.bind_overflow (extend_overflow (by exact h2))⟩
    · rw [M.bind_ok (extend_ok (by exact h2))]
      obtain ⟨s3, h3⟩ := ih s2 (h'.trans q2)
      exact ⟨s3, M.bind_overflow h3⟩

section
variable {d : Nat} {s : St} {e : Nat} {L : List (String × Val)}

/-- A call one of whose arguments runs out of stack. -/
theorem OW.arg {a : String} {f x : Val} {xs vs ys : List Val} (hs : Sc s.heap e L) (hx : alGet a L = none) (hk : Head a f) (ha : GA W s e xs vs)
    (ho : OW W d s e x) : OW W (d + 1) s e (.cons (.atom a) (vlist (xs ++ x :: ys))) := fun s' h' => by
  obtain ⟨s1, e1, q1⟩ := GW.name (W := W) (d := d) hs hx hk s' h'
  obtain ⟨s2, h2⟩ := ho.evArgs (ys := ys) ha s1 (h'.trans q1)
  rw [within_call (hk.callHead (hs.mono h'.heap) hx) (isList_vlist _)]
  unfold evCall
  rw [M.bind_ok (extend_ok (by exact e1))]
  exact ⟨s2, M.bind_overflow h2⟩

/-- A call of a function that runs out of stack. -/
theorem OW.fn {a : String} {f : Val} {xs vs : List Val} (hs : Sc s.heap e L) (hx : alGet a L = none) (hk : Head a f) (ha : GA W s e xs vs)
    (hr : ROW W d s f vs) : OW W (d + 1) s e (.cons (.atom a) (vlist xs)) := fun s' h' => by
  obtain ⟨s1, e1, q1⟩ := GW.name (W := W) (d := d) hs hx hk s' h'
  rw [within_call (hk.callHead (hs.mono h'.heap) hx) (isList_vlist _)]
  unfold evCall
  rw [M.bind_ok (extend_ok (by exact e1))]
  rcases ha.either d s1 (h'.trans q1) with ⟨s2, h2⟩ | ⟨s2, h2, q2⟩
  · exact ⟨s2, M.bind_overflow h2⟩
  · rw [M.bind_ok h2]
    exact hr s2 e ((h'.trans q1).trans q2)

/-- A call without any stack. -/
theorem OW.zero {a : String} {f : Val} {xs : List Val} (hs : Sc s.heap e L) (hx : alGet a L = none) (hk : Head a f) :
    OW W 0 s e (vlist (.atom a :: xs)) := fun s' h' => ⟨s', within_zero_call (hk.callHead (hs.mono h'.heap) hx) (isList_vlist _)⟩

theorem ROW.lam {ps : List String} {r : String} {x doc : Val} {m : Bool} {cenv : Nat} {vs : List Val} {L0 : List (String × Val)}
    (ha : ArityOk ps r vs) (ht : NoT ps r) (h0 : Sc s.heap cenv L0)
    (h : ∀ s1 e1, Quiet s s1 → Sc s1.heap e1 (paramSyms ps r vs ++ L0) → OW W (d + 1) s1 e1 x) :
    ROW W d s (.lam ps r (vlist [x]) doc m cenv) vs := fun s' e hq => by
  have hq1 : Quiet s' (callSt s' cenv ps r vs) := (Quiet.refl s').grow (List.prefix_append _ _)
  have hsc : Sc (callSt s' cenv ps r vs).heap s'.heap.length (paramSyms ps r vs ++ L0) := by
    refine .frame (p := cenv) ?_ ?_ (h0.mono (hq.trans hq1).heap)
    · simp [callSt]
    · exact (h0.mono hq.heap).lt
  obtain ⟨s'', h1⟩ := h _ _ (hq.trans hq1) hsc _ (.refl _)
  refine ⟨s'', ?_⟩
  simp only [evApply]
  rw [M.bind_ok (newEnvM_run _ _), M.bind_ok (extend_ok (bindArgs_ok ha ht))]
  exact h1

/-- The clauses of a `cond`. -/
def OWC (W : World) (d : Nat) (s : St) (e : Nat) (cl : List Val) : Prop :=
  ∀ s', Quiet s s' → ∃ s'', evCond (performIn W d) (performIn W (d + 1)) e (vlist cl) s' = .overflow s''

theorem OWC.skip {c : Val} {b rest : List Val} (h1 : G W s e c .nil) (h2 : OWC W d s e rest) : OWC W d s e (vlist (c :: b) :: rest) := fun s' h' => by
  simp only [vlist_cons, evCond]
  rcases h1.either d h' with ⟨s2, e2⟩ | ⟨s2, e2, q2⟩
  · exact ⟨s2, M.bind_overflow (extend_overflow (by exact e2))⟩
  · rw [M.bind_ok (extend_ok (by exact e2)), M.ite_pos rfl]; exact h2 s2 (h'.trans q2)

theorem OWC.hit {c w x : Val} {more rest : List Val} (h1 : G W s e c w) (hw : w ≠ .nil) (h2 : OW W (d + 1) s e x) : OWC W d s e (vlist (c :: x :: more) :: rest) := fun s' h' => by
  simp only [vlist_cons, evCond]
  rcases h1.either d h' with ⟨s2, e2⟩ | ⟨s2, e2, q2⟩
  · exact ⟨s2, M.bind_overflow (extend_overflow (by exact e2))⟩
  · rw [M.bind_ok (extend_ok (by exact e2)), M.ite_neg hw]; exact h2 s2 (h'.trans q2)

theorem OW.cond {cl : List Val} (hs : Sc s.heap e L) (hx : alGet "cond" L = none) (h : OWC W d s e cl) : OW W (d + 1) s e (vlist (.atom "cond" :: cl)) := fun s' h' => by
  have h1 := within_sf (W := W) (d := d) .cond (xs := cl) ((hs.mono h'.heap).notMacro_sf hx known_cond) rfl
  obtain ⟨s'', h2⟩ := h s' h'
  exact ⟨s'', h1.trans h2⟩

/-- A macro call whose expansion runs out of stack. -/
theorem OW.mac {m : String} {ps : List String} {r : String} {bx doc y : Val} {cenv : Nat}
    {xs : List Val} (hs : Sc s.heap e L) (hx : alGet m L = none) (hk : known m = some (some (.lam ps r (vlist [bx]) doc true cenv)))
    (ha : ArityOk ps r xs) (ht : NoT ps r)
    (hb : ∀ s1 e1, Quiet s s1 → Sc s1.heap e1 (paramSyms ps r xs ++ L) → G W s1 e1 bx y)
    (hy : ∀ s1, Quiet s s1 → isMacroCallIn (lookup s1.heap e) y = false) (ho : OW W (d + 1) s e y) :
    OW W (d + 1) s e (.cons (.atom m) (vlist xs)) := fun s' h' => by
  have hs' := hs.mono h'.heap
  have hq1 : Quiet s' (callSt s' e ps r xs) := (Quiet.refl s').grow (List.prefix_append _ _)
  have hsc : Sc (callSt s' e ps r xs).heap s'.heap.length (paramSyms ps r xs ++ L) := by
    refine .frame (p := e) ?_ hs'.lt (hs'.mono hq1.heap)
    simp [callSt]
  obtain ⟨s2, e2, q2⟩ := hb _ _ (h'.trans hq1) hsc _ (.refl _)
  have hst : MacroStep W e (form m xs) s' ([y].getLastD .nil) s2 :=
    .mk (hs'.lookup_known hx hk) ha ht (callScope_callSt _ _ _ _ _) rfl (.cons e2 .nil)
  have hq : Quiet s' s2 := hq1.trans q2
  have hn := hy s2 (h'.trans hq)
  have h1 : perform W (.mexpand (form m xs) e) s' = .ok y s2 := by
    rw [perform_eq]
    show mexpandStep (perform W) (perform W) _ e s' = _
    unfold mexpandStep
    rw [M.bind_ok (extend_ok (mexpand1_of hst)), M.bind_ok (isMacroCallM_run _ _ _)]
    exact M.ite_neg (by show ¬ isMacroCallIn (lookup s2.heap e) y = true; rw [hn]; simp)
  show ∃ s'', evalWithin W (d + 1) (form m xs) e s' = .overflow s''
  rw [evalWithin_eq, evalStep_macro (isMacro_of hst)]
  rcases L1.either (d := d) h1 with ⟨s3, h3⟩ | h3
  · exact ⟨s3, M.bind_overflow (extend_overflow h3)⟩
  · rw [M.bind_ok (extend_ok h3)]
    obtain ⟨s4, h4⟩ := ho s2 (h'.trans hq)
    rw [evalWithin_eq, evalStep_notMacro hn] at h4
    exact ⟨s4, h4⟩

theorem OW.let0 {x : Val} (hs : Sc s.heap e L) (hx : alGet "let" L = none)
    (h : ∀ s1 e1, Quiet s s1 → Sc s1.heap e1 ([] ++ L) → OW W (d + 1) s1 e1 x) : OW W (d + 1) s e (.cons (.atom "let") (.cons .nil (vlist [x]))) := fun s' h' => by
  have hs' := hs.mono h'.heap
  have h1 := within_sf (W := W) (d := d) .let_ (xs := [.nil, x]) (hs'.notMacro_sf hx known_let) rfl
  have hq1 : Quiet s' { s' with heap := s'.heap ++ [⟨[], some e⟩] } := (Quiet.refl s').grow (List.prefix_append _ _)
  obtain ⟨s2, e2⟩ := h _ s'.heap.length (h'.trans hq1) (.frame (p := e) (by simp) hs'.lt (hs'.mono hq1.heap)) _ (.refl _)
  refine ⟨s2, h1.trans ?_⟩
  simp only [evSpecial]
  rw [vlist_cons, evLet, M.ite_pos (by rfl), M.ite_pos (isList_vlist _)]
  rw [M.bind_ok (newEnvM_run _ _)]
  have hbind : evLetBinds (performIn W d) e s'.heap.length .nil { s' with heap := s'.heap ++ [⟨[], some e⟩] } = .ok true { s' with heap := s'.heap ++ [⟨[], some e⟩] } := rfl
  rw [M.bind_ok hbind, M.ite_pos rfl]
  exact e2

theorem notMacroCall (hs : Sc s.heap e L) {a : String} (hx : alGet a L = none) (hk : known a = some none) (d : Val) :
    ∀ s1, Quiet s s1 → isMacroCallIn (lookup s1.heap e) (.cons (.atom a) d) = false :=
  fun _ h1 => notMacro_isMacroCall ((hs.mono h1.heap).notMacro_sf hx hk) _

theorem OW.progn1 {x : Val} (hs : Sc s.heap e L) (hp : Plain L) (hcc : Cc W s L)
    (h : ∀ s1 e1, Quiet s s1 → Sc s1.heap e1 ([] ++ L) → OW W (d + 1) s1 e1 x) : OW W (d + 1) s e (vlist [.atom "progn", x]) := by
  refine OW.mac (xs := [x]) (y := .cons (.atom "let") (.cons .nil (vlist [x]))) hs (hp _ (by decide)) known_progn (Nat.zero_le _) (by decide) (fun s1 e1 hq hs1 => ?_)
    (notMacroCall hs (hp _ (by decide)) known_let _) (.let0 hs (hp _ (by decide)) h)
  have hp1 : Plain (paramSyms [] "body" [x] ++ L) := hp.under (plain_of rfl)
  have hc1 : Cc W s1 (paramSyms [] "body" [x] ++ L) := (hcc.mono hq).under rfl
  have kc := hp1 "cons" (by decide)
  have kq := hp1 "quote" (by decide)
  exact .template' hs1 hp1 rfl (.cons hs1 kc (.quote hs1 kq known_quote) (.cons hs1 kc (.nil _ _) (.concat2 hs1 hc1 (.v (v := vlist [x]) hs1 rfl rfl) (.nil _ _))))

theorem OW.whenT {c w x : Val} (hs : Sc s.heap e L) (hp : Plain L) (hcc : Cc W s L) (hc : G W s e c w) (hw : w ≠ .nil)
    (h : ∀ s1 e1, Quiet s s1 → Sc s1.heap e1 ([] ++ L) → OW W (d + 1) s1 e1 x) : OW W (d + 1) s e (vlist [.atom "when", c, x]) := by
  refine OW.mac (xs := [c, x]) (y := vlist [.atom "cond", vlist [c, vlist [.atom "progn", x]]]) hs (hp _ (by decide)) known_when
    (Nat.le_add_left _ _) (by decide) (fun s1 e1 hq hs1 => ?_) (notMacroCall hs (hp _ (by decide)) known_cond _)
    (.cond hs (hp _ (by decide)) (.hit hc hw (.progn1 hs hp hcc h)))
  have hp1 : Plain (paramSyms ["condition"] "body" [c, x] ++ L) := hp.under (plain_of rfl)
  have hc1 : Cc W s1 (paramSyms ["condition"] "body" [c, x] ++ L) := (hcc.mono hq).under rfl
  have kc := hp1 "cons" (by decide)
  have kq := hp1 "quote" (by decide)
  exact .template' hs1 hp1 rfl (.cons hs1 kc (.quote hs1 kq known_quote) (.cons hs1 kc (.cons hs1 kc (.v hs1 rfl rfl)
    (.cons hs1 kc (.cons hs1 kc (.quote hs1 kq known_quote) (.concat2 hs1 hc1 (.v (v := vlist [x]) hs1 rfl rfl) (.nil _ _))) (.nil _ _))) (.nil _ _)))

theorem OW.ifF {c a b : Val} (hs : Sc s.heap e L) (hp : Plain L) (hc : G W s e c .nil) (h : OW W (d + 1) s e b) : OW W (d + 1) s e (vlist [.atom "if", c, a, b]) := by
  refine OW.mac (xs := [c, a, b]) (y := vlist [.atom "cond", vlist [c, a], vlist [.atom "t", b]]) hs (hp _ (by decide)) known_if (by simp [ArityOk]) (by decide) (fun s1 e1 _ hs1 => ?_)
    (notMacroCall hs (hp _ (by decide)) known_cond _) (.cond hs (hp _ (by decide)) (.skip hc (.hit (.t _ _) (by decide) h)))
  have hp1 : Plain (paramSyms ["condition", "then", "else"] "" [c, a, b] ++ L) := hp.under (plain_of rfl)
  have kc := hp1 "cons" (by decide)
  have kq := hp1 "quote" (by decide)
  exact .template' hs1 hp1 rfl (.cons hs1 kc (.quote hs1 kq known_quote) (.cons hs1 kc (.cons hs1 kc (.v hs1 rfl rfl) (.cons hs1 kc (.v hs1 rfl rfl) (.nil _ _)))
    (.cons hs1 kc (.cons hs1 kc (.quote hs1 kq known_quote) (.cons hs1 kc (.v hs1 rfl rfl) (.nil _ _))) (.nil _ _))))
end

theorem ROW.overflows {d : Nat} {s : St} {f : Val} {vs : List Val} (h : ROW W d s f vs) {a : String} (hk : Head a f) : Overflows W d s a vs := by
  intro e args s0 hl ha
  obtain ⟨h1, _⟩ := hk.reaches (W := W) hl
  obtain ⟨s', h3⟩ := h s e (.refl _)
  refine ⟨s', ?_⟩
  rw [form, within_call h1 (isList_vlist _)]
  unfold evCall
  rw [M.bind_ok (extend_ok (by exact hk.withinName hl)), M.bind_ok (evArgs_within ha)]
  exact h3

/-! ### Functions -/

section
variable {s : St} (hc : Base s.heap 0)
include hc

theorem row_map {f : Val} {g : Val → Val} (hm : f.notMacro = true) (xs : List Val) (h : ∀ x ∈ xs, Returns W s f [x] (g x)) (d : Nat) (hd : d < xs.length) :
    ROW W d s k_map [f, vlist xs] := by
  induction xs generalizing s d with
  | nil => cases hd
  | cons x xs ih =>
    refine .lam rfl (by decide) (.base hc) fun s1 e1 hq hs => ?_
    refine .whenT hs (plain_of rfl) (.core (hc.mono hq.heap) rfl) (.v hs rfl rfl) (by simp) fun s2 e2 hq2 hs2 => ?_
    have hb := (hc.mono hq.heap).mono hq2.heap
    refine .arg (ys := []) hs2 rfl hd_cons (.one (.callVar hs2 rfl hm rfl rfl (by decide) (.one (.car hs2 rfl (.v hs2 rfl rfl))) ((h x (by simp)).mono (hq.trans hq2)))) ?_
    cases d with
    | zero => exact .zero hs2 rfl hd_map
    | succ d =>
      exact .fn hs2 rfl hd_map (.two (.v hs2 rfl rfl) (.cdr hs2 rfl (.v hs2 rfl rfl))) (ih hb (fun y hy => (h y (by simp [hy])).mono (hq.trans hq2)) d (by simpa using hd))

theorem row_filter {f : Val} {g : Val → Val} (hm : f.notMacro = true) (xs : List Val) (h : ∀ x ∈ xs, Returns W s f [x] (g x)) (d : Nat)
    (hd : d < (xs.filter fun x => g x ≠ .nil).length) : ROW W d s k_filter [f, vlist xs] := by
  induction xs generalizing s d with
  | nil => cases hd
  | cons x xs ih =>
    refine .lam rfl (by decide) (.base hc) fun s1 e1 hq hs => .cond hs rfl (.skip (.not_cons hs rfl (.v hs rfl rfl) (by simp)) ?_)
    have hb := (hc.mono hq.heap)
    have hcall : G W s1 e1 (vlist [.atom "f", vlist [.atom "car", .atom "l"]]) (g x) :=
      .callVar hs rfl hm rfl rfl (by decide) (.one (.car hs rfl (.v hs rfl rfl))) ((h x (by simp)).mono hq)
    have hrest : ∀ d, d < (xs.filter fun x => g x ≠ .nil).length → OW W (d + 1) s1 e1 (vlist [.atom "filter", .atom "f", vlist [.atom "cdr", .atom "l"]]) := fun d hd =>
      .fn hs rfl hd_filter (.two (.v hs rfl rfl) (.cdr hs rfl (.v hs rfl rfl))) (ih hb (fun y hy => (h y (by simp [hy])).mono hq) d hd)
    by_cases hg : g x = .nil
    · rw [List.filter_cons_of_neg (by simp [hg])] at hd
      rw [hg] at hcall
      exact .skip hcall (.hit (.t _ _) (by decide) (hrest d hd))
    · rw [List.filter_cons_of_pos (by simp [hg])] at hd
      refine .hit hcall hg (.arg (ys := []) hs rfl hd_cons (.one (.car hs rfl (.v hs rfl rfl))) ?_)
      cases d with
      | zero => exact .zero hs rfl hd_filter
      | succ d => exact hrest d (by simpa using hd)

theorem row_take (n : Nat) (xs : List Val) (d : Nat) (hd : d < min n xs.length) : ROW W d s k_take [.num n, vlist xs] := by
  induction xs generalizing s n d with
  | nil => simp at hd
  | cons x xs ih =>
    refine .lam rfl (by decide) (.base hc) fun s1 e1 hq hs => .cond hs rfl ?_
    have hb := hc.mono hq.heap
    cases n with
    | zero => simp at hd
    | succ n =>
      have hdec := G.dec (W := W) (x := .atom "n") (n := ((n + 1 : Nat) : Int)) hs rfl hb (.v hs rfl rfl)
      rw [show (((n + 1 : Nat) : Int)) - 1 = n by omega] at hdec
      refine .skip (.zeroF (n := ((n + 1 : Nat) : Int)) hs rfl hb (.v hs rfl rfl) (by omega)) (.skip (.not_cons hs rfl (.v hs rfl rfl) (by simp))
        (.hit (.t _ _) (by decide) (.arg (ys := []) hs rfl hd_cons (.one (.car hs rfl (.v hs rfl rfl))) ?_)))
      cases d with
      | zero => exact .zero hs rfl hd_take
      | succ d => exact .fn hs rfl hd_take (.two hdec (.cdr hs rfl (.v hs rfl rfl))) (ih hb n d (by rw [List.length_cons] at hd; omega))

theorem row_repeat (n : Int) (x : Val) (d : Nat) (hd : d < n) : ROW W d s k_repeat [.num n, x] := by
  induction d generalizing s n with
  | zero =>
    refine .lam rfl (by decide) (.base hc) fun s1 e1 hq hs => ?_
    refine .whenT hs (plain_of rfl) (.core (hc.mono hq.heap) rfl) (.posT hs rfl (hc.mono hq.heap) (.v hs rfl rfl) (by omega)) (by simp) fun s2 e2 hq2 hs2 => ?_
    exact .arg (ys := []) hs2 rfl hd_cons (.one (.v hs2 rfl rfl)) (.zero hs2 rfl hd_repeat)
  | succ d ih =>
    refine .lam rfl (by decide) (.base hc) fun s1 e1 hq hs => ?_
    refine .whenT hs (plain_of rfl) (.core (hc.mono hq.heap) rfl) (.posT hs rfl (hc.mono hq.heap) (.v hs rfl rfl) (by omega)) (by simp) fun s2 e2 hq2 hs2 => ?_
    have hb := (hc.mono hq.heap).mono hq2.heap
    exact .arg (ys := []) hs2 rfl hd_cons (.one (.v hs2 rfl rfl)) (.fn hs2 rfl hd_repeat (.two (.dec hs2 rfl hb (.v hs2 rfl rfl)) (.v hs2 rfl rfl)) (ih hb (n - 1) (by omega)))

theorem row_concat2 (xs : List Val) (b : Val) (d : Nat) (hd : d < xs.length) : ROW W d s k_concat2 [vlist xs, b] := by
  induction xs generalizing s d with
  | nil => cases hd
  | cons x xs ih =>
    refine .lam rfl (by decide) (.base hc) fun s1 e1 hq hs => .cond hs rfl (.skip (.not_cons hs rfl (.v hs rfl rfl) (by simp))
        (.hit (.t _ _) (by decide) (.arg (ys := []) hs rfl hd_cons (.one (.car hs rfl (.v hs rfl rfl))) ?_)))
    cases d with
    | zero => exact .zero hs rfl hd_concat2
    | succ d => exact .fn hs rfl hd_concat2 (.two (.cdr hs rfl (.v hs rfl rfl)) (.v hs rfl rfl)) (ih (hc.mono hq.heap) d (by simpa using hd))

theorem row_reverse (xs : List Val) (d : Nat) (hd : d < xs.length) : ROW W d s k_reverse [vlist xs] := by
  induction xs generalizing s d with
  | nil => cases hd
  | cons x xs ih =>
    refine .lam rfl (by decide) (.base hc) fun s1 e1 hq hs => ?_
    refine .whenT hs (plain_of rfl) (.core (hc.mono hq.heap) rfl) (.v hs rfl rfl) (by simp) fun s2 e2 hq2 hs2 => ?_
    have hb := (hc.mono hq.heap).mono hq2.heap
    refine .arg (xs := []) (ys := [_]) hs2 rfl hd_concat .nil ?_
    cases d with
    | zero => exact .zero hs2 rfl hd_reverse
    | succ d => exact .fn hs2 rfl hd_reverse (.one (.cdr hs2 rfl (.v hs2 rfl rfl))) (ih hb d (by simpa using hd))

theorem row_power (n : Int) (m d : Nat) (hd : d < m) : ROW W d s k_StarStar [.num n, .num m] := by
  induction d generalizing s m with
  | zero =>
    refine .lam rfl (by decide) (.base hc) fun s1 e1 hq hs => ?_
    refine .ifF hs (plain_of rfl) (.zeroF (n := (m : Int)) hs rfl (hc.mono hq.heap) (.v hs rfl rfl) (by omega)) ?_
    exact .arg (ys := []) hs rfl hd_times (.one (.v hs rfl rfl)) (.zero hs rfl hd_StarStar)
  | succ d ih =>
    refine .lam rfl (by decide) (.base hc) fun s1 e1 hq hs => ?_
    have hb := hc.mono hq.heap
    refine .ifF hs (plain_of rfl) (.zeroF (n := (m : Int)) hs rfl hb (.v hs rfl rfl) (by omega)) ?_
    obtain ⟨m, rfl⟩ : ∃ k, m = k + 1 := ⟨m - 1, by omega⟩
    have hdec := G.dec (W := W) (x := .atom "m") (n := ((m + 1 : Nat) : Int)) hs rfl hb (.v hs rfl rfl)
    rw [show (((m + 1 : Nat) : Int)) - 1 = m by omega] at hdec
    exact .arg (ys := []) hs rfl hd_times (.one (.v hs rfl rfl)) (.fn hs rfl hd_StarStar (.two (.v hs rfl rfl) hdec) (ih hb m (by omega)))
end

end L1
