import Verif.Lemmas.FuzzEval
import Verif.Lemmas.SenScript
import Verif.Props.Loops
/-
examples/fuzz-legal.l1: one turn, and the loop.
-/
set_option autoImplicit false
namespace L1

variable {W : World}

theorem letTwo_run {s : St} {e : Nat} {L : List (String × Val)} {n : String} (c x y : Val) (hs : Sc s.heap e L) (hl : alGet "let" L = none) (hn : n ≠ "t") :
    (eval W c e (withScope s e) = .oof → eval W (vlist [.atom "let", vlist [vlist [.atom n, c]], x, y]) e s = .oof) ∧
    ∀ v s1 w s2, eval W c e (withScope s e) = .ok v s1 → eval W x s.heap.length { s1 with heap := heapSet s1.heap s.heap.length n v } = .ok w s2 →
      eval W (vlist [.atom "let", vlist [vlist [.atom n, c]], x, y]) e s = eval W y s.heap.length s2 := by
  have h0 := eval_sform W .let_ [vlist [vlist [.atom n, c]], x, y] e s (hs.notMacro_sf hl known_let)
  have h1 : evSpecial (perform W) (perform W) .let_ (vlist [vlist [vlist [.atom n, c]], x, y]) e = (do
    let ne ← newEnvM e
    let ok ← evLetBinds (perform W) e ne (vlist [vlist [.atom n, c]])
    if ok then evBodyTail (perform W) (perform W) (fun _ => msgList "evaluating let body") ne (vlist [x, y]) else pure .nil) := rfl
  rw [h1, M.bind_ok (newEnvM_run _ _)] at h0
  constructor
  · intro h
    refine h0.trans ?_
    have : evLetBinds (perform W) e s.heap.length (vlist [vlist [.atom n, c]]) (withScope s e) = .oof := by
      simp only [vlist_cons, vlist_nil, evLetBinds, M.bind_run]
      rw [show extend "evaluating let bindings" (perform W (.eval c e)) (withScope s e) = .oof by
        unfold extend extendWith
        rw [show perform W (.eval c e) (withScope s e) = .oof from h]]
    show (evLetBinds _ _ _ _ >>= _) (withScope s e) = _
    rw [M.bind_run, this]
  · intro v s1 w s2 h2 h3
    refine h0.trans ?_
    have : evLetBinds (perform W) e s.heap.length (vlist [vlist [.atom n, c]]) (withScope s e) = .ok true { s1 with heap := heapSet s1.heap s.heap.length n v } := by
      simp only [vlist_cons, vlist_nil, evLetBinds]
      rw [M.bind_ok (extend_ok (show perform W (.eval c e) (withScope s e) = .ok v s1 from h2)),
        M.bind_ok (extend_ok (show setM s.heap.length n v s1 = .ok () _ by unfold setM; rw [if_neg hn]))]
      rfl
    show (evLetBinds _ _ _ _ >>= _) (withScope s e) = _
    rw [M.bind_ok this, M.ite_pos rfl]
    exact evBodyTail_ok (xs := [x]) (.cons h3 .nil)

/-- `(println e '==> (eval e))`. -/
def fuzzPrint : Val := vlist [.atom "println", .atom "e", vlist [.atom "quote", .atom "==>"], vlist [.atom "eval", .atom "e"]]

/-- The expression evaluated in each turn. -/
def fuzzTurn : Val := vlist [.atom "let", vlist [vlist [.atom "e", vlist [.atom "expr", .num 100]]], fuzzPrint, vlist [.atom "println"]]

theorem ret_eval {s : St} {e : Nat} {x v : Val} (h : G W s e x v) : ∀ s', Quiet s s' → ∃ s'', callFn W (.bi .eval) [x] e s' = .ok v s'' ∧ Quiet s' s'' := fun s' hq => by
  obtain ⟨s2, e2, q2⟩ := h s' hq
  exact ⟨s2, call_bi e2, q2⟩

theorem fuzz_print {s : St} {E : Nat} {L : List (String × Val)} {xs vs : List Val} (hs : Sc s.heap E L) (hx : alGet "println" L = none) (h : GA W s E xs vs) :
    ∃ s1, eval W (.cons (.atom "println") (vlist xs)) E s = .ok .nil s1 ∧ s.heap <+: s1.heap ∧ s1.out = s.out ++ ([' '].intercalate (vs.map Val.str) ++ ['\n']) ∧ s1.inp = s.inp ∧ s1.tick = s.tick ∧ s1.screen = s.screen := by
  obtain ⟨s1, q1, e1⟩ := core_call (W := W) (a := "println") (xs := xs) hs hx hd_println h
  refine ⟨{ s1 with out := s1.out ++ ([' '].intercalate (vs.map Val.str) ++ ['\n']) }, e1.trans (call_bi (C43_print W 0 0 E s1 vs).2), q1.heap, by rw [← q1.out], q1.inp, q1.tick, q1.screen⟩

theorem fuzz_turn {s : St} (hp : FuzzAt s.heap) {E : Nat} (hs : Sc s.heap E fuzzDefs) :
    eval W fuzzTurn E s = .oof ∨ ∃ x v m s1, LegalForm x v ∧ 0 < m ∧ eval W fuzzTurn E s = .ok .nil s1 ∧ s.heap <+: s1.heap ∧ s1.out = s.out ++ fuzzLines x v ∧ s1.inp = s.inp ∧
      s1.tick = s.tick + m ∧ s1.screen = s.screen := by
  obtain ⟨h1, h2⟩ := letTwo_run (W := W) (n := "e") (vlist [.atom "expr", .num 100]) fuzzPrint (vlist [.atom "println"]) hs rfl (by decide)
  have q0 := Quiet.withScope s E
  have hs0 := hs.mono q0.heap
  have hl : lookup (withScope s E).heap E "expr" = some f_expr := hs0.lookup_some rfl
  have g5 : CallHead (withScope s E).heap E (.atom "expr") := callHead_of rfl fun ps r b dc env he => by rw [hl] at he; cases he
  have hc : eval W (vlist [.atom "expr", .num 100]) E (withScope s E) = callFn W f_expr [.num (100 : Nat)] E (withScope s E) := by
    rw [eval_call1 g5 (eval_atom_bound (by decide) (by decide) hl), show eval W (.num 100) E (withScope s E) = .ok (.num 100) _ by rw [eval_eq]; rfl]
    rfl
  rcases expr_ends (W := W) (hp.mono q0.heap) 100 (by decide) E with h3 | ⟨s1, x, v, m, h3, d, hm, hv⟩
  · exact .inl (h1 (hc.trans h3))
  · have hpre : s.heap <+: heapSet s1.heap s.heap.length "e" x := prefix_heapSet (q0.heap.trans d.heap) (Nat.le_refl _) _ _
    have hs2 : Sc (heapSet s1.heap s.heap.length "e" x) s.heap.length (("e", x) :: fuzzDefs) :=
      .frame (syms := [("e", x)]) (heapSet_at (prefix_get d.heap (f := ⟨[], some E⟩) (by simp [withScope]))) hs.lt (hs.mono hpre)
    have hp2 : FuzzAt ({ s1 with heap := heapSet s1.heap s.heap.length "e" x } : St).heap := hp.mono hpre
    have hev : G W { s1 with heap := heapSet s1.heap s.heap.length "e" x } s.heap.length x v :=
      legal_value (L := ("e", x) :: fuzzDefs) hp2 hs2 ⟨rfl, rfl, rfl, rfl, rfl, rfl, rfl⟩ hv
    obtain ⟨s3, e3, p3, o3, i3, t3, n3⟩ := fuzz_print (W := W) (s := { s1 with heap := heapSet s1.heap s.heap.length "e" x }) (xs := [.atom "e", vlist [.atom "quote", .atom "==>"], vlist [.atom "eval", .atom "e"]])
      (vs := [x, .atom "==>", v]) hs2 rfl
      (.three (.v hs2 rfl rfl) (.quote hs2 rfl known_quote) (fun s' hq => by
        obtain ⟨s4, q4, e4⟩ := core_call (W := W) (a := "eval") (xs := [.atom "e"]) (hs2.mono hq.heap) rfl hd_eval (.one (.v (hs2.mono hq.heap) rfl rfl))
        obtain ⟨s5, e5, q5⟩ := ret_eval hev s4 (hq.trans q4)
        exact ⟨s5, e4.trans e5, q4.trans q5⟩))
    obtain ⟨s4, e4, p4, o4, i4, t4, n4⟩ := fuzz_print (W := W) (xs := []) (hs2.mono p3) rfl .nil
    refine .inr ⟨x, v, m, s4, hv, hm, (h2 x s1 .nil s3 (hc.trans h3) e3).trans e4, hpre.trans (p3.trans p4), ?_, ?_, ?_, ?_⟩
    · rw [o4, o3, show ({ s1 with heap := heapSet s1.heap s.heap.length "e" x } : St).out = s.out from d.out]
      simp only [fuzzLines, List.map_cons, List.map_nil, show (Val.atom "==>").str = "==>".toList from rfl, List.intercalate]
      rw [show " ==> ".toList = ' ' :: ("==>".toList ++ [' ']) by decide]
      generalize "==>".toList = u
      simp
    · rw [i4, i3]; exact d.inp
    · rw [t4, t3]; exact d.tick
    · rw [n4, n3]; exact d.screen

/-- The loop. -/
def fuzzLoop : Val := form "while" [.atom "t", fuzzTurn]

theorem fuzz_inner {s : St} {e : Nat} (hs : Sc s.heap e fuzzDefs) : Sc (withScope s e).heap s.heap.length fuzzDefs :=
  .frame (syms := []) (by simp [withScope]) hs.lt (hs.mono (List.prefix_append _ _))

/-- The turns of the loop. -/
theorem fuzz_turns {g : String} {F : Val} {s : St} (hp : FuzzAt s.heap) (hc : CoreHere s.heap 0) (hg : lookup s.heap 0 g = some F) {st : LoopStep St} (ht : WhileTurn W (.atom "t") [fuzzTurn] 0 g F s st) :
    st = .ends .oof ∨ ∃ x v s1, st = .again s1 ∧ LegalForm x v ∧ s.heap <+: s1.heap ∧ s1.out = s.out ++ fuzzLines x v ∧ s1.inp = s.inp ∧ s.tick < s1.tick ∧ s1.screen = s.screen := by
  have hT : ∀ e' s', eval W (.atom "t") e' s' = .ok (.atom "t") s' := fun e' s' => by rw [eval_eq]; rfl
  have key : ∀ s1 s3 : St, Quiet (withScope s 0) s1 → Quiet s1 s3 → FuzzAt (withScope s3 s.heap.length).heap ∧ Sc (withScope s3 s.heap.length).heap s3.heap.length fuzzDefs ∧
      s.heap <+: (withScope s3 s.heap.length).heap := fun s1 s3 q1 q3 => by
    have h1 : s.heap <+: s3.heap := (List.prefix_append _ _).trans (q1.heap.trans q3.heap)
    exact ⟨hp.mono (h1.trans (List.prefix_append _ _)), fuzz_inner ((fuzz_inner hp.top).mono (q1.trans q3).heap), h1.trans (List.prefix_append _ _)⟩
  cases ht with
  | done _ hv hn => rw [hT] at hv; exact absurd (hn _ _ hv.symm) (by simp)
  | stops hq hv hn hq3 hst =>
    rw [hT] at hv; cases hv
    obtain ⟨k1, k2, _⟩ := key _ _ hq hq3
    cases hst with
    | here he hne =>
      rcases fuzz_turn (W := W) k1 k2 with h | ⟨_, _, _, _, _, _, h, _⟩
      · rw [h] at he; rw [he]; exact .inl rfl
      · rw [h] at he; exact absurd he.symm (hne _ _)
    | later _ h => cases h
  | again hq hv hn hq3 hev =>
    rw [hT] at hv; cases hv
    obtain ⟨k1, k2, k3⟩ := key _ _ hq hq3
    rcases fuzz_turn (W := W) k1 k2 with h | ⟨x, v, m, s1, hl, hm, h, h4, h5, h6, h7, h8⟩
    · cases hev with
      | cons he _ => rw [h] at he; cases he
    · cases hev with
      | cons he hr =>
        rw [h] at he; cases he; cases hr
        have ho := hq3.out.trans hq.out
        have ht := hq3.tick.trans hq.tick
        have ht' : _ = s.tick := ht
        refine .inr ⟨x, v, _, rfl, hl, k3.trans h4, h5.trans ?_, h6.trans (hq3.inp.trans hq.inp), ?_, h8.trans (hq3.screen.trans hq.screen)⟩
        · exact congrArg (· ++ fuzzLines x v) ho
        · rw [h7]
          refine Nat.lt_of_lt_of_eq (Nat.lt_add_of_pos_right hm) (congrArg (· + m) ht'.symm)
  | disturbed hq hv hn hd =>
    rw [hT] at hv; cases hv
    exact absurd ((hc.frame (syms := []) fun _ _ _ => rfl).mono hq.heap) hd
  | disturbed' hq hv hn hq3 hev hd =>
    rw [hT] at hv; cases hv
    obtain ⟨k1, k2, k3⟩ := key _ _ hq hq3
    rcases fuzz_turn (W := W) k1 k2 with h | ⟨x, v, m, s1, hl, hm, h, h4, h5, h6, h7, h8⟩
    · cases hev with
      | cons he _ => rw [h] at he; cases he
    · cases hev with
      | cons he hr =>
        rw [h] at he; cases he; cases hr
        have hw := hc.frame (syms := []) fun _ _ _ => rfl
        refine absurd ⟨hc.mono (k3.trans h4), ?_⟩ hd
        rw [k2.nested.lookup_prefix h4, lookup_withScope ((hw.mono hq.heap).mono hq3.heap).2.nested, (hw.mono hq.heap).2.nested.lookup_prefix hq3.heap, hw.2.nested.lookup_prefix hq.heap, lookup_last hc.2.nested]
        exact hg

/-- Any number of turns. -/
theorem fuzz_after {g : String} {F : Val} {n : Nat} {s s' : St} (ha : After (WhileTurn W (.atom "t") [fuzzTurn] 0 g F) n s s') :
    FuzzAt s.heap → CoreHere s.heap 0 → lookup s.heap 0 g = some F →
    s.heap <+: s'.heap ∧ ∃ ps : List (Val × Val), ps.length = n ∧ (∀ p ∈ ps, LegalForm p.1 p.2) ∧ s'.out = s.out ++ ps.flatMap (fun p => fuzzLines p.1 p.2) ∧ s'.inp = s.inp ∧ s'.screen = s.screen := by
  induction ha with
  | none => exact fun _ _ _ => ⟨List.prefix_refl _, [], rfl, by simp, by simp, rfl, rfl⟩
  | more ht _ ih =>
    intro hp hc hg
    rcases fuzz_turns hp hc hg ht with h | ⟨x, v, s1, h, hl, h1, h2, h3, _, h4⟩
    · cases h
    · cases h
      obtain ⟨h5, ps, h6, h7, h8, h9, h10⟩ := ih (hp.mono h1) (hc.mono h1) ((hc.2.nested.lookup_prefix h1 _).trans hg)
      refine ⟨h1.trans h5, (x, v) :: ps, by simp [h6], ?_, by rw [h8, h2]; simp, h9.trans h3, h10.trans h4⟩
      intro p hp'
      rcases List.mem_cons.1 hp' with rfl | h
      · exact hl
      · exact h7 p h

theorem fuzz_loopSt {s : St} (hp : FuzzAt s.heap) (pre : List Char) (k : Nat) (F : Val) :
    FuzzAt (loopSt s 0 (gensymName pre k) F).heap ∧ lookup (loopSt s 0 (gensymName pre k) F).heap 0 (gensymName pre k) = some F := by
  have hlt := hp.core.lt
  obtain ⟨f, hf⟩ : ∃ f, (s.heap ++ [(⟨[], some 0⟩ : Frame)])[0]? = some f := ⟨_, List.getElem?_eq_getElem (by simp)⟩
  have h0 : (loopSt s 0 (gensymName pre k) F).heap[0]? = some ⟨alSet (gensymName pre k) F f.syms, f.parent⟩ := heapSet_other (by omega) (heapSet_at hf)
  have hne : ∀ x, x ≠ gensymName pre k → lookup (loopSt s 0 (gensymName pre k) F).heap 0 x = lookup s.heap 0 x := fun x hx => by
    rw [← hp.core.nested.lookup_prefix (List.prefix_append s.heap [(⟨[], some 0⟩ : Frame)]) x]
    unfold lookup loopSt
    rw [lookupAux_heapSet_ne hx, lookupAux_heapSet_ne hx]
  refine ⟨⟨(ready_loopSt hp.base hp.base pre k F).coreHere.1, fun x v hx => ?_⟩, ?_⟩
  · rw [hne x ?_]
    · exact hp.binds x v hx
    · rintro rfl
      have hn : alGet (gensymName pre k) fuzzDefs = none := by
        have : ∀ n, (fuzzDefs.all fun p => p.1.toList.head? != some '<') = true → n.toList.head? = some '<' → alGet n fuzzDefs = none := fun n h1 h2 => by
          cases ha : alGet n fuzzDefs with
          | none => rfl
          | some w =>
            have hm := alGet_mem ha
            have := List.all_eq_true.1 h1 _ hm
            simp [h2] at this
        exact this _ (by decide) (by unfold gensymName; rw [String.toList_ofList]; rfl)
      rw [hn] at hx; cases hx
  · unfold lookup
    rw [lookupAux, h0]
    dsimp only
    rw [alGet_alSet, if_pos rfl]

/-- The loop never ends: its turns go on forever, or one of them does. -/
theorem fuzz_loop {s : St} (hp : FuzzAt s.heap) : eval W fuzzLoop 0 s = .oof ∧ ∃ g F s1, s1.out = s.out ∧ s1.inp = s.inp ∧ s1.screen = s.screen ∧
    FuzzAt s1.heap ∧ lookup s1.heap 0 g = some F ∧
    (Endless (WhileTurn W (.atom "t") [fuzzTurn] 0 g F) s1 ∨ ∃ n s2, After (WhileTurn W (.atom "t") [fuzzTurn] 0 g F) n s1 s2 ∧ WhileTurn W (.atom "t") [fuzzTurn] 0 g F s2 (.ends .oof)) := by
  obtain ⟨k, s1, q1, h1⟩ := C71_while (W := W) (s := s) (e := 0) ⟨hp.core, hp.core⟩ (.atom "t") [fuzzTurn]
  have hl := fuzz_loopSt (hp.mono q1.heap) "-inner".toList k (.lam [] "" (vlist [form "when" (.atom "t" :: ([fuzzTurn] ++ [form (gensymName "-inner".toList k) []]))]) .nil false 0)
  have h2 := h1 _ _ rfl rfl
  revert hl h2
  generalize gensymName "-inner".toList k = g
  generalize Val.lam [] "" (vlist [form "when" (.atom "t" :: ([fuzzTurn] ++ [form g []]))]) .nil false 0 = F
  rintro ⟨hf, hg⟩ h2
  have ho : (loopSt s1 0 g F).out = s.out := q1.out
  have hi : (loopSt s1 0 g F).inp = s.inp := q1.inp
  have hn : (loopSt s1 0 g F).screen = s.screen := q1.screen
  revert hf hg h2 ho hi hn
  generalize loopSt s1 0 g F = y
  intro hf hg h2 ho hi hn
  suffices hh : ∀ y r, FuzzAt y.heap → lookup y.heap 0 g = some F → Loops (WhileTurn W (.atom "t") [fuzzTurn] 0 g F) y r →
      r = .oof ∧ ∃ n s2, After (WhileTurn W (.atom "t") [fuzzTurn] 0 g F) n y s2 ∧ WhileTurn W (.atom "t") [fuzzTurn] 0 g F s2 (.ends .oof) by
    rcases h2 with ⟨r, hr, hu⟩ | ⟨hE, h3⟩
    · obtain ⟨rfl, h3⟩ := hh y r hf hg hr
      refine ⟨?_, g, F, y, ho, hi, hn, hf, hg, .inr h3⟩
      rcases hu with hu | ⟨_, _, _, hu, _⟩
      · exact hu
      · cases hu
    · exact ⟨h3, g, F, y, ho, hi, hn, hf, hg, .inl hE⟩
  intro y r hf hg hr
  induction hr with
  | ends ht =>
    rcases fuzz_turns hf ⟨hf.core, hf.core⟩ hg ht with h | ⟨_, _, _, h, _⟩
    · cases h; exact ⟨rfl, 0, _, .none, ht⟩
    · cases h
  | again ht _ ih =>
    rcases fuzz_turns hf ⟨hf.core, hf.core⟩ hg ht with h | ⟨_, _, s2, h, _, h4, _⟩
    · cases h
    · cases h
      obtain ⟨h5, n, s3, h6, h7⟩ := ih (hf.mono h4) ((hf.core.nested.lookup_prefix h4 _).trans hg)
      exact ⟨h5, n + 1, s3, .more ht h6, h7⟩
  | unknown ht =>
    rcases fuzz_turns hf ⟨hf.core, hf.core⟩ hg ht with h | ⟨_, _, _, h, _⟩ <;> cases h

end L1
