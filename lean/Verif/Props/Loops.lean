import Verif.Lemmas.Loops2
import Verif.Props.Plans
/-
C71: `while` and `dotimes`, whatever the condition and the body do.
-/
set_option autoImplicit false
namespace L1
variable {W : World} {s : St} {e : Nat}

/-- C71: `(while c x ...)` evaluates `c` and, as long as its value is not (), `x ...` in order and then `c` again; it returns () when `c` does, has the outcome of the
first evaluation that does not return, and never ends if all of them return and `c` is never ().  (The function of the loop has a new name, which stays bound in
the scope of the `while`.) -/
theorem C71_while (h : CoreHere s.heap e) (c : Val) (xs : List Val) : ∃ k s1, Quiet s s1 ∧
    ∀ g F, g = gensymName "-inner".toList k → F = .lam [] "" (vlist [form "when" (c :: (xs ++ [form g []]))]) .nil false e →
      (∃ r, Loops (WhileTurn W c xs e g F) (loopSt s1 e g F) r ∧ UpTo r (eval W (form "while" (c :: xs)) e s)) ∨
      (Endless (WhileTurn W c xs e g F) (loopSt s1 e g F) ∧ eval W (form "while" (c :: xs)) e s = .oof) := by
  obtain ⟨_, s1, ⟨k, rfl⟩, q1, e1⟩ := while_becomes (W := W) (c := c) (xs := xs) (.base h.2.base) (plain_of rfl) (.core h.1.base rfl) rfl rfl s (.refl _)
  refine ⟨k, s1, q1, ?_⟩
  rintro g F rfl hF
  have e2 := loop_run (W := W) (g := gensymName "-inner".toList k) (x := form "when" (c :: (xs ++ [form (gensymName "-inner".toList k) []]))) (.base (h.2.base.mono q1.heap)) rfl rfl
    (gensymName_ne (by decide)) (gensymName_ne (by decide)) (gensymName_special _ _) (gensymName_cxr _ _) rfl
  rw [← hF] at e2
  have heq : eval W (form "while" (c :: xs)) e s = callFn W F [] 0 (loopSt s1 e (gensymName "-inner".toList k) F) :=
    e1.trans (e2.trans (callFn_any (vs := []) hF rfl (by decide) _ _ _))
  rw [heq]
  exact loops_total (inv := fun y => Ready y.heap e) (out := fun y => callFn W F [] 0 y) (size := fun y => y.heap.length)
    (fun y hy => while_step c xs e _ k F hF y hy) (fun y s' hf => callFn_final_lam (vs := []) hF rfl (by decide) hf) _
    (ready_loopSt (h.1.base.mono q1.heap) (h.2.base.mono q1.heap) _ k F)

/-- `(while () (undefined))`: one of the two cases of the theorem, with the core library loaded. -/
example (inp : List (List Char)) : ∃ k s1, Quiet (topSt (initSt inp) coreEnv) s1 ∧
    ∀ g F, g = gensymName "-inner".toList k → F = .lam [] "" (vlist [form "when" [.nil, form "undefined" [], form g []]]) .nil false 0 →
      (∃ r, Loops (WhileTurn W .nil [form "undefined" []] 0 g F) (loopSt s1 0 g F) r ∧
        UpTo r (eval W (form "while" [.nil, form "undefined" []]) 0 (topSt (initSt inp) coreEnv))) ∨
      (Endless (WhileTurn W .nil [form "undefined" []] 0 g F) (loopSt s1 0 g F) ∧ eval W (form "while" [.nil, form "undefined" []]) 0 (topSt (initSt inp) coreEnv) = .oof) :=
  C71_while (coreHere_loaded _) .nil [form "undefined" []]

/-- C71: `(dotimes n x ...)` evaluates `n` once; if its value is a negative number, that is all, and if it is a number `m`, `x ...` are evaluated `m` times in order, in a
scope in which `count` is the number of turns to go (which they may change). -/
theorem C71_dotimes (W : World) : Always W
    { pre := fun t s => ∀ (n : Val) (xs : List Val) (e : Nat), t = .eval (form "dotimes" (n :: xs)) e → CoreHere s.heap e → ∃ s1, Quiet s s1 ∧
        (∀ r, eval W n e s1 = r → (∀ v s2, r ≠ .ok v s2) → UpTo r (eval W (form "dotimes" (n :: xs)) e s)) ∧
        ∀ m s2, eval W n e s1 = .ok (.num m) s2 → CoreHere s2.heap e →
          (m < 0 → ∃ s3, Still (newIn s s1) s2 s3 ∧ eval W (form "dotimes" (n :: xs)) e s = .ok .nil s3) ∧
          (0 ≤ m → ∃ g N F E s3, Still (newIn s s1) s2 s3 ∧ DotimesStart s2 s3 e E g N F ∧
            ((∃ r, Loops (DotimesTurn W xs E g F) (m, s3) r ∧ UpTo r (eval W (form "dotimes" (n :: xs)) e s)) ∨
             (Endless (DotimesTurn W xs E g F) (m, s3) ∧ eval W (form "dotimes" (n :: xs)) e s = .oof))) } := by
  refine always_of_watchOk W ⟨fun t s hi ht n xs e htask hh => ?_, fun _ _ _ _ _ _ => trivial⟩
  subst htask
  obtain ⟨s1, q1, h1, h2⟩ := dotimes_run (W := W) hh n xs
  refine ⟨s1, q1, h1, fun m s2 hv hc => h2 m s2 hv hc ?_⟩
  have hu := (Under.start (vs := [n, .lam [] "" .nil .nil false e]) hi (by
    intro v hv
    simp only [List.mem_cons, List.not_mem_nil, or_false] at hv
    rcases hv with rfl | rfl
    · exact vok_args ht.1 _ (by simp)
    · exact ⟨ht.2, trivial, trivial⟩)).still (q1.still _)
  intro j hj
  exact (hu.eval (by simp) (by simp) hv).2 j (.inr hj)

/-! ### Consequences -/

/-- Nothing but output: the text `t` is written, and there may be new scopes. -/
structure Writes (t : List Char) (s s' : St) : Prop where
  heap : s.heap <+: s'.heap
  out : s'.out = s.out ++ t
  inp : s'.inp = s.inp
  tick : s'.tick = s.tick
  screen : s'.screen = s.screen

theorem Writes.quiet {t : List Char} {s s1 s2 : St} (h : Quiet s s1) (hw : Writes t s1 s2) : Writes t s s2 :=
  ⟨h.heap.trans hw.heap, by rw [hw.out, h.out], hw.inp.trans h.inp, hw.tick.trans h.tick, hw.screen.trans h.screen⟩

theorem evalsTo_fun {xs vs vs' : List Val} {s s1 s2 : St} (h : EvalsTo W e xs s vs s1) (h' : EvalsTo W e xs s vs' s2) : s1 = s2 := by
  induction h generalizing vs' with
  | nil => cases h'; rfl
  | cons h1 _ ih =>
    cases h' with
    | cons h2 h3 =>
      rw [h1] at h2
      injection h2 with _ h2
      subst h2
      exact ih h3

theorem not_stopsAt {xs vs : List Val} {s s1 : St} {r : Res Val} (h : EvalsTo W e xs s vs s1) (h' : StopsAt W e xs s r) : False := by
  induction h with
  | nil => cases h'
  | cons h1 _ ih =>
    cases h' with
    | here h2 hn => exact hn _ _ (h2.symm.trans h1)
    | later h2 h3 =>
      rw [h1] at h2
      injection h2 with _ h2
      subst h2
      exact ih h3

theorem lookup_withScope {s : St} {p : Nat} (hn : Nested s.heap p) (x : String) : lookup (withScope s p).heap s.heap.length x = lookup s.heap p x := lookup_last hn x

theorem count_unknown {v : Val} : ∀ x r, known x = some r → alGet x [("count", v)] = none := fun x r hx => by
  have hne : x ≠ "count" := by
    rintro rfl
    exact absurd hx (by rw [show known "count" = none by decide +kernel]; simp)
  simp [alGet, Ne.symm hne]

/-- C71: if `x ...`, wherever they are evaluated, have values and write the text `t`, then `(dotimes m x ...)` is (), and writes it `m` times. -/
theorem C71_dotimes_writes (h : CoreHere s.heap e) (m : Nat) (xs : List Val) (t : List Char)
    (hx : ∀ E s1, CoreHere s1.heap E → ∃ vs s2, EvalsTo W E xs s1 vs s2 ∧ Writes t s1 s2) :
    ∃ s', eval W (form "dotimes" (.num m :: xs)) e s = .ok .nil s' ∧ s'.out = s.out ++ (List.replicate m t).flatten := by
  obtain ⟨s1, q1, _, h2⟩ := dotimes_run (W := W) h (.num m) xs
  obtain ⟨_, h3⟩ := h2 m s1 (by rw [eval_eq]; rfl) (h.mono q1.heap) (fun _ _ => rfl)
  obtain ⟨g, N, F, E, s3, st, hd, h4⟩ := h3 (by omega)
  have hgc : g ≠ "count" := by obtain ⟨k, hk⟩ := hd.new.1; rw [hk]; exact gensymName_ne (by decide)
  have turn : ∀ (n : Int) y st, CoreHere y.heap E → lookup y.heap E g = some F → DotimesTurn W xs E g F (n, y) st →
      (n = 0 → ∃ s', st = .ends (.ok .nil s') ∧ s'.out = y.out) ∧
      (n ≠ 0 → ∃ s', st = .again (n - 1, s') ∧ CoreHere s'.heap E ∧ lookup s'.heap E g = some F ∧ s'.out = y.out ++ t) := by
    intro n y st hy hg ht
    have hc : CoreHere (callSt y E ["count"] "" [.num n]).heap y.heap.length := hy.frame (syms := [("count", .num n)]) count_unknown
    have hp : y.heap <+: (callSt y E ["count"] "" [.num n]).heap := List.prefix_append _ _
    have body : ∀ s1, Quiet (callSt y E ["count"] "" [.num n]) s1 → ∃ vs s2, EvalsTo W s1.heap.length xs (withScope s1 y.heap.length) vs s2 ∧
        CoreHere s2.heap E ∧ lookup s2.heap E g = some F ∧ s2.out = y.out ++ t ∧ lookup s2.heap s1.heap.length "-" = none ∧
        lookup s2.heap s1.heap.length g = some F ∧ lookup s2.heap s1.heap.length "count" = some (.num n) := by
      intro s1 hq
      have hc1 := hc.mono hq.heap
      have hcw : CoreHere (withScope s1 y.heap.length).heap s1.heap.length := hc1.frame (syms := []) fun _ _ _ => rfl
      obtain ⟨vs, s2, h1, h2⟩ := hx _ _ hcw
      have hp2 : (callSt y E ["count"] "" [.num n]).heap <+: s2.heap := hq.heap.trans ((List.prefix_append _ _).trans h2.heap)
      have hlook : ∀ x, lookup s2.heap s1.heap.length x = match alGet x [("count", Val.num n)] with | some v => some v | none => lookup y.heap E x := by
        intro x
        rw [hcw.2.nested.lookup_prefix h2.heap, lookup_withScope hc1.2.nested, hc.2.nested.lookup_prefix hq.heap]
        exact lookup_last (syms := [("count", .num n)]) hy.2.nested x
      refine ⟨vs, s2, h1, hy.mono (hp.trans hp2), ?_, ?_, ?_, ?_, ?_⟩
      · rw [hy.2.nested.lookup_prefix (hp.trans hp2)]; exact hg
      · rw [h2.out]; show s1.out ++ t = _; rw [hq.out]; rfl
      · exact (hcw.mono h2.heap).2.sees "-" none (by decide +kernel)
      · rw [hlook]; simp [alGet, Ne.symm hgc, hg]
      · rw [hlook]; rfl
    cases ht with
    | done hq => exact ⟨fun _ => ⟨_, rfl, hq.out⟩, fun h => absurd rfl h⟩
    | stops hn hq hst =>
      obtain ⟨vs, s2, h1, _⟩ := body _ hq
      exact (not_stopsAt h1 hst).elim
    | again hn hq hev hcount =>
      obtain ⟨vs, s2, h1, h2, h3, h4, _, _, h5⟩ := body _ hq
      cases evalsTo_fun h1 hev
      rw [h5] at hcount
      cases hcount
      exact ⟨fun h => absurd h hn, fun _ => ⟨_, rfl, h2, h3, h4⟩⟩
    | disturbed hn hq hev hdis =>
      obtain ⟨vs, s2, h1, h2, h3, h4, h5, h6, h7⟩ := body _ hq
      cases evalsTo_fun h1 hev
      exact absurd ⟨h2, h5, h6, _, h7⟩ hdis
  have loops : ∀ (k : Nat) y r, CoreHere y.heap E → lookup y.heap E g = some F → Loops (DotimesTurn W xs E g F) ((k : Int), y) r →
      ∃ s', r = .ok .nil s' ∧ s'.out = y.out ++ (List.replicate k t).flatten := by
    intro k
    induction k with
    | zero =>
      intro y r hy hg hl
      cases hl with
      | ends ht =>
        obtain ⟨s', h1, h2⟩ := (turn _ _ _ hy hg ht).1 rfl
        injection h1 with h1
        exact ⟨s', h1, by simpa using h2⟩
      | again ht =>
        obtain ⟨s', h1, _⟩ := (turn _ _ _ hy hg ht).1 rfl
        cases h1
      | unknown ht =>
        obtain ⟨s', h1, _⟩ := (turn _ _ _ hy hg ht).1 rfl
        cases h1
    | succ k ih =>
      intro y r hy hg hl
      have hne : ((k + 1 : Nat) : Int) ≠ 0 := by omega
      cases hl with
      | ends ht =>
        obtain ⟨s', h1, _⟩ := (turn _ _ _ hy hg ht).2 hne
        cases h1
      | unknown ht =>
        obtain ⟨s', h1, _⟩ := (turn _ _ _ hy hg ht).2 hne
        cases h1
      | again ht hl =>
        obtain ⟨s', h1, h2, h3, h4⟩ := (turn _ _ _ hy hg ht).2 hne
        injection h1 with h1
        subst h1
        rw [show ((k + 1 : Nat) : Int) - 1 = (k : Int) by omega] at hl
        obtain ⟨s'', h5, h6⟩ := ih _ _ h2 h3 hl
        exact ⟨s'', h5, by rw [h6, h4, List.replicate_succ, List.flatten_cons, List.append_assoc]⟩
  have hout : s3.out = s.out := st.out.trans q1.out
  rcases h4 with ⟨r, h5, h6⟩ | ⟨⟨f, hf0, hf⟩, _⟩
  · obtain ⟨s', rfl, h7⟩ := loops m s3 r hd.core hd.function h5
    refine ⟨s', ?_, by rw [h7, hout]⟩
    rcases h6 with h6 | ⟨er, s0, fr, h6, _⟩
    · exact h6
    · cases h6
  · exfalso
    have key : ∀ k : Nat, ∀ i, (f i).1 = (k : Int) → CoreHere (f i).2.heap E → lookup (f i).2.heap E g = some F → False := by
      intro k
      induction k with
      | zero =>
        intro i hi hc hg
        obtain ⟨s', h1, _⟩ := (turn (f i).1 (f i).2 _ hc hg (hf i)).1 hi
        cases h1
      | succ k ih =>
        intro i hi hc hg
        obtain ⟨s', h1, h2, h3, _⟩ := (turn (f i).1 (f i).2 _ hc hg (hf i)).2 (by omega)
        injection h1 with h1
        exact ih (i + 1) (by rw [h1, hi]; show ((k + 1 : Nat) : Int) - 1 = (k : Int); omega) (by rw [h1]; exact h2) (by rw [h1]; exact h3)
    exact key m 0 (by rw [hf0]) (by rw [hf0]; exact hd.core) (by rw [hf0]; exact hd.function)

/-- `(dotimes m (println 5))` writes `m` lines. -/
example (inp : List (List Char)) (m : Nat) : ∃ s', eval W (form "dotimes" [.num m, form "println" [.num 5]]) 0 (topSt (initSt inp) coreEnv) = .ok .nil s' ∧
    s'.out = (List.replicate m ['5', '\n']).flatten := by
  obtain ⟨s', h1, h2⟩ := C71_dotimes_writes (W := W) (coreHere_loaded (initSt inp)) m [form "println" [.num 5]] ['5', '\n'] fun E s1 hc => by
    have hs : Sc s1.heap E [] := .base hc.2.base
    refine ⟨[.nil], { s1 with out := s1.out ++ ['5', '\n'] }, .cons ?_ .nil, List.prefix_refl _, rfl, rfl, rfl, rfl⟩
    exact eval_callCore (xs := [.num 5]) hs rfl hd_println (fun s0 _ h => by subst h; exact .cons (by rw [eval_eq]; rfl) .nil) (call_println (.num 5) E s1)
  exact ⟨s', h1, h2.trans (List.nil_append _)⟩

/-- C71: `(while () x ...)` is (), and nothing happens. -/
theorem C71_while_nil (h : CoreHere s.heap e) (xs : List Val) : ∃ s', eval W (form "while" (.nil :: xs)) e s = .ok .nil s' ∧ s'.out = s.out := by
  obtain ⟨k, s1, q1, h1⟩ := C71_while (W := W) h .nil xs
  have hnil : ∀ e' s', eval W .nil e' s' = .ok .nil s' := fun e' s' => by rw [eval_eq]; rfl
  have turn : ∀ (g : String) F x t, WhileTurn W .nil xs e g F x t → ∃ s', t = .ends (.ok .nil s') ∧ s'.out = x.out := by
    intro g F x t ht
    cases ht with
    | done hq hr => rw [hnil] at hr; subst hr; exact ⟨_, rfl, hq.out⟩
    | stops _ hv hn => rw [hnil] at hv; cases hv; exact absurd rfl hn
    | again _ hv hn => rw [hnil] at hv; cases hv; exact absurd rfl hn
    | disturbed _ hv hn => rw [hnil] at hv; cases hv; exact absurd rfl hn
    | disturbed' _ hv hn => rw [hnil] at hv; cases hv; exact absurd rfl hn
  rcases h1 _ _ rfl rfl with ⟨r, hl, hu⟩ | ⟨⟨f, _, hf⟩, _⟩
  · cases hl with
    | ends ht =>
      obtain ⟨s', h2, h3⟩ := turn _ _ _ _ ht
      injection h2 with h2
      subst h2
      rcases hu with hu | ⟨_, _, _, hu, _⟩
      · exact ⟨s', hu, h3.trans q1.out⟩
      · cases hu
    | again ht => obtain ⟨s', h2, _⟩ := turn _ _ _ _ ht; cases h2
    | unknown ht => obtain ⟨s', h2, _⟩ := turn _ _ _ _ ht; cases h2
  · obtain ⟨s', h2, _⟩ := turn _ _ _ _ (hf 0); cases h2

example (inp : List (List Char)) : ∃ s', eval W (form "while" [.nil, form "undefined" []]) 0 (topSt (initSt inp) coreEnv) = .ok .nil s' ∧ s'.out = [] :=
  C71_while_nil (coreHere_loaded _) _

/-- C71: `(while v)`, where `v` is a number, never ends. -/
theorem C71_while_forever (h : CoreHere s.heap e) (n : Int) : eval W (form "while" [.num n]) e s = .oof := by
  obtain ⟨k, s1, q1, h1⟩ := C71_while (W := W) h (.num n) []
  have hnum : ∀ e' s', eval W (.num n) e' s' = .ok (.num n) s' := fun e' s' => by rw [eval_eq]; rfl
  rcases h1 _ _ rfl rfl with ⟨r, hl, hu⟩ | ⟨_, h2⟩
  · exfalso
    have hcore := (ready_loopSt (h.1.base.mono q1.heap) (h.2.base.mono q1.heap) "-inner".toList k
      (.lam [] "" (vlist [form "when" (.num n :: ([] ++ [form (gensymName "-inner".toList k) []]))]) .nil false e)).coreHere
    have hlook : lookup (loopSt s1 e (gensymName "-inner".toList k) (.lam [] "" (vlist [form "when" (.num n :: ([] ++ [form (gensymName "-inner".toList k) []]))]) .nil false e)).heap e
        (gensymName "-inner".toList k) = some (.lam [] "" (vlist [form "when" (.num n :: ([] ++ [form (gensymName "-inner".toList k) []]))]) .nil false e) := by
      obtain ⟨f, hf⟩ : ∃ f, (s1.heap ++ [(⟨[], some e⟩ : Frame)])[e]? = some f :=
        ⟨_, List.getElem?_eq_getElem (by have := (h.mono q1.heap).2.lt; simp; omega)⟩
      unfold lookup
      rw [lookupAux, show (loopSt s1 e _ _).heap[e]? = some _ from heapSet_other (by have := (h.mono q1.heap).2.lt; omega) (heapSet_at hf)]
      dsimp only
      rw [alGet_alSet, if_pos rfl]
    revert hl hcore hlook
    generalize gensymName "-inner".toList k = g
    generalize Val.lam [] "" (vlist [form "when" (.num n :: ([] ++ [form g []]))]) .nil false e = F
    generalize loopSt s1 e g F = x
    intro hl
    induction hl with
    | @ends x r ht =>
      intro hc hg
      cases ht with
      | done _ hv hn => rw [hnum] at hv; exact absurd (hn _ _ hv.symm) (by simp)
      | stops _ _ _ _ hst => cases hst
    | @again x y r ht _ ih =>
      intro hc hg
      cases ht with
      | again hq hv hn hq3 hev =>
        rw [hnum] at hv; cases hv; cases hev
        rename_i sb _
        have hp : x.heap <+: (withScope sb x.heap.length).heap := (List.prefix_append _ _).trans (hq.heap.trans (hq3.heap.trans (List.prefix_append _ _)))
        exact ih hu (hc.mono hp) (by rw [hc.2.nested.lookup_prefix hp]; exact hg)
    | @unknown x r ht =>
      intro hc hg
      cases ht with
      | disturbed hq hv hn hd =>
        rw [hnum] at hv; cases hv
        exact hd ((hc.frame (syms := []) fun _ _ _ => rfl).mono hq.heap)
      | disturbed' hq hv hn hq3 hev hd =>
        rw [hnum] at hv; cases hv; cases hev
        have hw := hc.frame (syms := []) fun _ _ _ => rfl
        rename_i sa sb
        have hp : x.heap <+: (withScope sb x.heap.length).heap := (List.prefix_append _ _).trans (hq.heap.trans (hq3.heap.trans (List.prefix_append _ _)))
        refine hd ⟨hc.mono hp, ?_⟩
        rw [lookup_withScope ((hw.mono hq.heap).mono hq3.heap).2.nested, (hw.mono hq.heap).2.nested.lookup_prefix hq3.heap, hw.2.nested.lookup_prefix hq.heap, lookup_last hc.2.nested]
        exact hg
  · exact h2

example (inp : List (List Char)) : eval W (form "while" [.num 1]) 0 (topSt (initSt inp) coreEnv) = .oof := C71_while_forever (coreHere_loaded _) 1

end L1
