import Verif.Lemmas.Galax
/-
The program examples/galax.l1.
-/
set_option autoImplicit false
namespace L1

variable {W : World}

/-- A call of a macro of the program whose expansion is `y`. -/
theorem Becomes.own {s : St} {e : Nat} {L : List (String × Val)} {m : String} {ps : List String} {r : String} {bx doc y : Val} {cenv : Nat}
    {xs : List Val} (hs : Sc s.heap e L) (hx : alGet m L = some (.lam ps r (vlist [bx]) doc true cenv))
    (ha : ArityOk ps r xs) (ht : NoT ps r)
    (hb : ∀ s1 e1, Quiet s s1 → Sc s1.heap e1 (paramSyms ps r xs ++ L) → G W s1 e1 bx y) :
    Becomes W s e (.cons (.atom m) (vlist xs)) y := fun s' h' => by
  have hs' := hs.mono h'.heap
  have hq1 : Quiet s' (callSt s' e ps r xs) := (Quiet.refl s').grow (List.prefix_append _ _)
  have hsc : Sc (callSt s' e ps r xs).heap s'.heap.length (paramSyms ps r xs ++ L) := by
    refine .frame (p := e) ?_ hs'.lt (hs'.mono hq1.heap)
    simp [callSt]
  obtain ⟨s2, e2, q2⟩ := hb _ _ (h'.trans hq1) hsc _ (.refl _)
  have hst : MacroStep W e (form m xs) s' ([y].getLastD .nil) s2 :=
    .mk (hs'.lookup_some hx) ha ht (callScope_callSt _ _ _ _ _) rfl (.cons e2 .nil)
  exact ⟨s2, hq1.trans q2, C36_expansion W e _ _ _ _ hst⟩

theorem Prog.set {s : St} {U : List (String × Val)} (hp : Prog s.heap U) {name : String} (f : Val) (hk : known name = none) : Prog (heapSet s.heap 0 name f) ((name, f) :: U) := by
  have hkn : ∀ x r, known x = some r → x ≠ name := fun x r h hx => by rw [hx, hk] at h; cases h
  refine ⟨hp.core.set hkn 0 f, fun x v hx => ?_⟩
  by_cases hxn : name = x
  · subst hxn
    rw [show alGet name ((name, f) :: U) = some f by simp [alGet]] at hx
    cases hx
    obtain ⟨fr, h1, h2⟩ := hp.top
    simp [lookup, lookupAux, heapSet_get, h1, alGet_alSet]
  · rw [show alGet x ((name, f) :: U) = alGet x U by simp [alGet, hxn]] at hx
    rw [← hp.binds x v hx]
    unfold lookup
    exact lookupAux_heapSet_ne (Ne.symm hxn) _ _

theorem step_defmacro {U : List (String × Val)} {name : String} {a d f : Val} (ha : a.isList = true) (hm : mkLambda (.cons a d) true 0 (initSt []) = .ok f (initSt [])) (ht : name ≠ "t") (hk : known name = none) :
    Step W U ((name, f) :: U) (.cons (.atom "defmacro") (.cons (.atom name) (.cons a d))) [] := by
  intro s hp
  refine ⟨.nil, { s with heap := heapSet s.heap 0 name f }, ?_, hp.set f hk, by simp, rfl, rfl, rfl⟩
  rw [show eval W (.cons (.atom "defmacro") (.cons (.atom name) (.cons a d))) 0 s = evDefn true 0 (.cons (.atom name) (.cons a d)) s from
    eval_sf W .defmacro _ 0 _ (hp.core.base.notMacro_sf known_defmacro) rfl]
  simp only [evDefn]
  rw [M.bind_ok (extend_ok (mkLambda_any ha hm s)), M.bind_ok (extend_ok (setTop0 hp ht f))]
  rfl

/-- `(defnth name l)` defines a function that chooses an element of the value of `l`. -/
theorem step_defnth {U : List (String × Val)} {name : String} {l : Val} (hd : alGet "defnth" U = some g_defnth) (h1 : alGet "syntax-quote" U = none) (h2 : alGet "cons" U = none) (h3 : alGet "quote" U = none)
    (ht : name ≠ "t") (hk : known name = none) :
    Step W U ((name, .lam [] "" (vlist [vlist [.atom "randchoice", l]]) .nil false 0) :: U) (vlist [.atom "defnth", .atom name, l]) [] := by
  intro s hp
  obtain ⟨s1, q1, e1⟩ := Becomes.own (W := W) (m := "defnth") (xs := [.atom name, l]) (y := vlist [.atom "defn", .atom name, .nil, vlist [.atom "randchoice", l]]) hp.sc hd rfl (by decide) (fun s1 e1 _ hs => by
    have k1 : alGet "cons" (paramSyms ["name", "l"] "" [.atom name, l] ++ U) = none := by exact h2
    have k2 : alGet "quote" (paramSyms ["name", "l"] "" [.atom name, l] ++ U) = none := by exact h3
    have q : ∀ {v : Val}, G W s1 e1 (vlist [.atom "quote", v]) v := .quote hs k2 known_quote
    exact .template hs (by exact h1) known_syntax_quote rfl (.cons hs k1 q (.cons hs k1 (.v hs (by rfl) rfl) (.cons hs k1 (.nil _ _)
      (.cons hs k1 (.cons hs k1 q (.cons hs k1 (.v hs (by rfl) rfl) (.nil _ _))) (.nil _ _)))))) s (.refl _)
  obtain ⟨v, s2, e2, p2, w2⟩ := step_defn (W := W) (U := U) (x := vlist [.atom "defn", .atom name, .nil, vlist [.atom "randchoice", l]]) (name := name) rfl hk ht ⟨_, rfl⟩ s1 (hp.mono q1.heap)
  exact ⟨v, s2, e1.trans e2, p2, by have := q1.wrote.trans w2; simpa using this⟩

theorem step_def {U : List (String × Val)} {name : String} {v : Val} (ht : name ≠ "t") (hk : known name = none) (hq : alGet "quote" U = none) :
    Step W U ((name, v) :: U) (vlist [.atom "def", .atom name, vlist [.atom "quote", v]]) [] := by
  intro s hp
  obtain ⟨s1, e1, q1⟩ := G.quote (W := W) (v := v) hp.sc hq known_quote s (.refl _)
  have hp1 := hp.mono q1.heap
  refine ⟨v, { s1 with heap := heapSet s1.heap 0 name v }, ?_, hp1.set v hk, by rw [show ({ s1 with heap := heapSet s1.heap 0 name v } : St).out = s1.out from rfl, q1.out]; simp, q1.inp, q1.tick, q1.screen⟩
  refine (eval_sform W .def_ [.atom name, vlist [.atom "quote", v]] 0 s (hp.core.base.notMacro_sf known_def)).trans ?_
  show evDef (perform W) 0 (vlist [.atom name, vlist [.atom "quote", v]]) s = _
  simp only [vlist_cons, vlist_nil, evDef]
  rw [M.bind_ok (extend_ok (show perform W (.eval (.cons (.atom "quote") (.cons v .nil)) 0) s = .ok v s1 from e1)), M.bind_ok (extend_ok (setTop0 hp1 ht v))]
  rfl

/-! ### A line -/

/-- `(printl (itsalive (randchoice all-names)))`, examples/galax.l1:178. -/
def galaxTurn : Val := vlist [.atom "printl", vlist [.atom "itsalive", vlist [.atom "randchoice", .atom "all-names"]]]

set_option maxRecDepth 100000 in
theorem names_letter : ∀ w ∈ galaxNames, startsLetter w = true := by
  have : galaxNames.all startsLetter = true := by decide +kernel
  exact List.all_eq_true.1 this

set_option maxRecDepth 100000 in
theorem names_count : galaxNames ≠ [] ∧ galaxNames.length < 2 ^ 63 := ⟨by unfold galaxNames; exact List.cons_ne_nil _ _, by decide +kernel⟩

theorem turn_run {h0 : Heap} (hp : Prog h0 galaxDefs) {s : St} {e : Nat} (hh : h0 <+: s.heap) (hs : Sc s.heap e galaxDefs) :
    ∃ s', eval W galaxTurn e s = .ok .nil s' ∧ s.heap <+: s'.heap ∧ s'.tick = s.tick + 22 ∧ s'.out = s.out ++ galaxLine W s.tick ∧ s'.inp = s.inp ∧ s'.screen = s.screen := by
  have hp1 : Prog s.heap galaxDefs := hp.mono hh
  have hpl : startsLetter (pick W galaxNames s.tick) = true := pick_all (P := fun w => startsLetter w = true) names_letter names_count.1 _
  obtain ⟨bs, h1, h2⟩ := cx_itsalive (W := W) (k := s.tick + 1) hp1 _ hpl
  obtain ⟨s1, e1, d1⟩ := EX.call1 (m := 1) (n := 21) (.var (a := "itsalive") hs rfl rfl)
    (EX.choice (m := 0) (x := .atom "all-names") hp1.core.base hs rfl .atom galaxNames names_count.1 names_count.2 (.v hs rfl rfl)) h1 s (List.prefix_refl _) rfl
  obtain ⟨g1, g2⟩ := hs.reaches (W := W) rfl hd_printl
  refine ⟨{ s1 with out := s1.out ++ galaxLine W s.tick }, ?_, d1.heap, d1.tick, by rw [← d1.out], d1.inp, d1.screen⟩
  refine (eval_reaches g1 ⟨s, g2, .cons e1 .nil⟩).trans ?_
  show callFn W (.bi .printl) [vlist (bs.map .atom)] e s1 = _
  refine call_bi ?_
  have := C43_printl W 0 0 e s1 (bs.map .atom)
  rw [List.map_map, show (Val.str ∘ Val.atom) = String.toList from rfl, h2] at this
  exact this

theorem galaxLineList_snoc (n k : Nat) : galaxLineList W (n + 1) k = galaxLineList W n k ++ galaxLine W (k + 22 * n) := by
  induction n generalizing k with
  | zero => simp [galaxLineList]
  | succ n ih =>
    rw [galaxLineList, ih, galaxLineList, show k + 22 + 22 * n = k + 22 * (n + 1) by omega]
    simp

theorem galaxNames_ok : ∀ a v, alGet a galaxDefs = some v → a ≠ "count" ∧ a.toList.head? ≠ some '<' := by
  intro a v h
  have hin : a ∈ galaxDefs.map Prod.fst := alGet_name h
  have : ∀ a ∈ galaxDefs.map Prod.fst, a ≠ "count" ∧ a.toList.head? ≠ some '<' := by decide +kernel
  exact this a hin

theorem turns_run {s : St} (hp : Prog s.heap galaxDefs) (m : Nat) :
    ∃ s', eval W (form "dotimes" [.num m, galaxTurn]) 0 s = .ok .nil s' ∧ s'.tick = s.tick + 22 * m ∧ s'.out = s.out ++ galaxLineList W m s.tick ∧ s'.inp = s.inp ∧ s'.screen = s.screen := by
  have hc : CoreHere s.heap 0 := ⟨hp.core, hp.core⟩
  rcases dotimes_inv (W := W) hc m galaxTurn (fun j s1 => ∃ i, i + j = m ∧ s1.tick = s.tick + 22 * i ∧ s1.out = s.out ++ galaxLineList W i s.tick ∧ s1.inp = s.inp ∧ s1.screen = s.screen) False
      (by
        rintro k s1 s2 ⟨i, h1, h2, h3, h4, h5⟩ ho hi ht hsn
        exact ⟨i, h1, ht.trans h2, ho.trans h3, hi.trans h4, hsn.trans h5⟩)
      ⟨0, by simp, by simp, by simp [galaxLineList], rfl, rfl⟩
      (by
        rintro k E s1 hpre hE hl ⟨i, h1, h2, h3, h4, h5⟩
        have hs : Sc s1.heap E galaxDefs := .globals hE.2.base fun a v hv => (hl a (galaxNames_ok a v hv).1 (galaxNames_ok a v hv).2).trans (hp.binds a v hv)
        obtain ⟨s2, e2, p2, t2, o2, i2, n2⟩ := turn_run (W := W) hp hpre hs
        exact .inr ⟨.nil, s2, e2, p2, i + 1, by omega, by rw [t2, h2]; omega, by rw [o2, h3, galaxLineList_snoc, h2, List.append_assoc], i2.trans h4, n2.trans h5⟩) with ⟨_, h⟩ | ⟨s', h, i, h1, h2, h3, h4, h5⟩
  · exact h.elim
  · obtain rfl : i = m := by omega
    exact ⟨s', h, h2, h3, h4, h5⟩

/-! ### The definitions -/

theorem galax_defs1 : Steps W [] (galaxForms.take 6) (galaxDefs.drop 8) [] :=
  .cons (t := []) (step_defmacro (f := g_defnth) rfl rfl (by decide) (by decide +kernel)) <|
  .cons (t := []) (step_defn (f := g_one_of) rfl (by decide +kernel) (by decide) ⟨_, rfl⟩) <|
  .cons (t := []) (step_defn (f := g_either) rfl (by decide +kernel) (by decide) ⟨_, rfl⟩) <|
  .cons (t := []) (step_defnth rfl rfl rfl rfl (by decide) (by decide +kernel)) <|
  .cons (t := []) (step_defnth rfl rfl rfl rfl (by decide) (by decide +kernel)) <|
  .cons (t := []) (step_defnth rfl rfl rfl rfl (by decide) (by decide +kernel)) .nil

theorem galax_defs2 : Steps W (galaxDefs.drop 8) ((galaxForms.drop 8).take 8) galaxDefs [] :=
  .cons (t := []) (step_defnth rfl rfl rfl rfl (by decide) (by decide +kernel)) <|
  .cons (t := []) (step_defnth rfl rfl rfl rfl (by decide) (by decide +kernel)) <|
  .cons (t := []) (step_defnth rfl rfl rfl rfl (by decide) (by decide +kernel)) <|
  .cons (t := []) (step_defnth rfl rfl rfl rfl (by decide) (by decide +kernel)) <|
  .cons (t := []) (step_defnth rfl rfl rfl rfl (by decide) (by decide +kernel)) <|
  .cons (t := []) (step_defn (f := g_place_phrase) rfl (by decide +kernel) (by decide) ⟨_, rfl⟩) <|
  .cons (t := []) (step_defn (f := g_itsalive) rfl (by decide +kernel) (by decide) ⟨_, rfl⟩) <|
  .cons (t := []) (step_def (by decide) (by decide +kernel) rfl) .nil

end L1
