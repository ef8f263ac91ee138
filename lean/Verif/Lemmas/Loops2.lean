import Verif.Lemmas.Loops
import Verif.Lemmas.CorePlans2
/- `dotimes`. -/
set_option autoImplicit false
namespace L1
variable {W : World}

/-! ### The expansion -/

theorem gensym0_run {s : St} {e : Nat} {L : List (String × Val)} (hs : Sc s.heap e L) (hx : alGet "gensym" L = none) :
    eval W (vlist [.atom "gensym"]) e s =
      .ok (.atom (gensymName [] (s.gensym + 1))) { s with gensym := s.gensym + 1, issued := s.issued ++ [gensymName [] (s.gensym + 1)] } := by
  refine eval_callCore (xs := []) hs hx hd_gensym (fun s0 _ h => by subst h; exact .nil) ?_
  unfold callFn
  simp only [evApply]
  refine extend_ok ?_
  rw [perform_eq]; rfl

theorem GP.letGensyms {s : St} {e : Nat} {L : List (String × Val)} {a b : String} {x : Val} {P : St → Val → Prop} (hs : Sc s.heap e L) (hl : alGet "let" L = none)
    (hg : alGet "gensym" L = none) (ha : a ≠ "t") (hb : b ≠ "t")
    (h : ∀ s1 e1 j k, j ≠ k → Quiet s s1 → Sc s1.heap e1 (letSyms [(a, .atom (gensymName [] j)), (b, .atom (gensymName [] k))] ++ L) → GP W s1 e1 x P) :
    GP W s e (vlist [.atom "let", vlist [vlist [.atom a, vlist [.atom "gensym"]], vlist [.atom b, vlist [.atom "gensym"]]], x]) P := fun s' h' => by
  have hs' := hs.mono h'.heap
  have h1 := eval_sform W .let_ [vlist [vlist [.atom a, vlist [.atom "gensym"]], vlist [.atom b, vlist [.atom "gensym"]]], x] e s' (hs'.notMacro_sf hl known_let)
  let s1 : St := { s' with heap := s'.heap ++ [⟨[], some e⟩] }
  have hq1 : Quiet s' s1 := (Quiet.refl s').grow (List.prefix_append _ _)
  have e1 := gensym0_run (W := W) (hs'.mono hq1.heap) hg
  let s2 : St := { s1 with gensym := s1.gensym + 1, issued := s1.issued ++ [gensymName [] (s1.gensym + 1)] }
  let v1 : Val := .atom (gensymName [] (s1.gensym + 1))
  let s3 : St := { s2 with heap := heapSet s2.heap s'.heap.length a v1 }
  have set1 : setM s'.heap.length a v1 s2 = .ok () s3 := by unfold setM; rw [if_neg ha]
  have hf3 : s3.heap[s'.heap.length]? = some ⟨[(a, v1)], some e⟩ := by
    have : s2.heap[s'.heap.length]? = some ⟨[], some e⟩ := by simp [s2, s1]
    exact (heapSet_at this).trans rfl
  have hq3 : Quiet s' s3 := ⟨prefix_heapSet hq1.heap (Nat.le_refl _) _ _, rfl, rfl, rfl, rfl, Nat.le_succ _⟩
  have e3 := gensym0_run (W := W) (hs'.mono hq3.heap) hg
  let s4 : St := { s3 with gensym := s3.gensym + 1, issued := s3.issued ++ [gensymName [] (s3.gensym + 1)] }
  let v3 : Val := .atom (gensymName [] (s3.gensym + 1))
  let s5 : St := { s4 with heap := heapSet s4.heap s'.heap.length b v3 }
  have set3 : setM s'.heap.length b v3 s4 = .ok () s5 := by unfold setM; rw [if_neg hb]
  have hf5 : s5.heap[s'.heap.length]? = some ⟨alSet b v3 [(a, v1)], some e⟩ := heapSet_at (h := s4.heap) hf3
  have hq5 : Quiet s' s5 := ⟨prefix_heapSet hq3.heap (Nat.le_refl _) _ _, rfl, rfl, rfl, rfl, Nat.le_succ_of_le (Nat.le_succ _)⟩
  have hbinds : evLetBinds (perform W) e s'.heap.length (vlist [vlist [.atom a, vlist [.atom "gensym"]], vlist [.atom b, vlist [.atom "gensym"]]]) s1 = .ok true s5 := by
    generalize hgs : vlist [.atom "gensym"] = gs at e1 e3
    simp only [vlist_cons, vlist_nil, evLetBinds, perform_eval]
    refine (M.bind_ok (extend_ok e1)).trans ((M.bind_ok (extend_ok set1)).trans ?_)
    refine (M.bind_ok (extend_ok e3)).trans ((M.bind_ok (extend_ok set3)).trans ?_)
    rfl
  obtain ⟨v, s6, e6, q6, p6⟩ := h s5 s'.heap.length (s1.gensym + 1) (s3.gensym + 1) (by show s1.gensym + 1 ≠ s1.gensym + 1 + 1; omega) (h'.trans hq5)
    (.frame hf5 hs'.lt (hs'.mono hq5.heap)) s5 (.refl _)
  refine ⟨v, s6, h1.trans ?_, hq5.trans q6, p6⟩
  exact (evLet_run (bs := vlist [vlist [.atom a, vlist [.atom "gensym"]], vlist [.atom b, vlist [.atom "gensym"]]]) (body := vlist [x]) rfl rfl hbinds).trans e6

/-- The function of the loop in `(dotimes n x ...)`. -/
def dotimesBody (g : String) (xs : List Val) : Val :=
  .cons (.atom "when-not") (.cons (vlist [.atom "zero?", .atom "count"]) (vlist (xs ++ [vlist [.atom g, vlist [.atom "-", .atom "count", .num 1]]])))

/-- What `(dotimes n x ...)` stands for, `g` and `N` being new names. -/
def dotimesExp (g N : String) (n : Val) (xs : List Val) : Val :=
  vlist [.atom "let", vlist [vlist [.atom N, n]], vlist [.atom "when-not", vlist [.atom "neg?", .atom N],
    vlist [.atom "let", vlist [vlist [.atom g, vlist [.atom "lambda", .atom g, vlist [.atom "count"], dotimesBody g xs]]], vlist [.atom g, .atom N]]]]

theorem dotimes_becomes {s : St} {e : Nat} {n : Val} {xs : List Val} (hb : Base s.heap e) (h0 : Base s.heap 0) :
    ∃ j k s1, j ≠ k ∧ Quiet s s1 ∧ eval W (form "dotimes" (n :: xs)) e s = eval W (dotimesExp (gensymName [] j) (gensymName [] k) n xs) e s1 := by
  obtain ⟨y, s1, ⟨j, k, hjk, rfl⟩, q1, e1⟩ := BecomesP.mac (W := W) (P := fun _ y => ∃ j k, j ≠ k ∧ y = dotimesExp (gensymName [] j) (gensymName [] k) n xs) (xs := n :: xs) (.base hb) rfl known_dotimes
    (Nat.le_add_left _ _) (by decide) (fun s1 e1 hq hs1 => by
      refine .letGensyms hs1 rfl rfl (by decide) (by decide) fun s2 e2 j k hjk hq2 hs2 => ?_
      refine G.gp (v := dotimesExp (gensymName [] j) (gensymName [] k) n xs) ?_ fun _ _ => ⟨j, k, hjk, rfl⟩
      have hp2 : Plain (letSyms [("inner-sym", .atom (gensymName [] j)), ("n-sym", .atom (gensymName [] k))] ++ (paramSyms ["n"] "body" (n :: xs) ++ [])) := plain_of rfl
      have hc2 : Cc W s2 (letSyms [("inner-sym", .atom (gensymName [] j)), ("n-sym", .atom (gensymName [] k))] ++ (paramSyms ["n"] "body" (n :: xs) ++ [])) :=
        .core (h0.mono (hq.trans hq2).heap) rfl
      have kc := hp2 "cons" (by decide)
      have kq := hp2 "quote" (by decide)
      have hI : G W s2 e2 (.atom "inner-sym") (.atom (gensymName [] j)) := .v hs2 rfl rfl
      have hN : G W s2 e2 (.atom "n-sym") (.atom (gensymName [] k)) := .v hs2 rfl rfl
      have q : ∀ v : Val, G W s2 e2 (vlist [.atom "quote", v]) v := fun v => .quote hs2 kq known_quote
      have c : ∀ {x y u v : Val}, G W s2 e2 x u → G W s2 e2 y v → G W s2 e2 (vlist [.atom "cons", x, y]) (.cons u v) := fun a b => .cons hs2 kc a b
      have nl := G.nil (W := W) s2 e2
      have nm := q (.num 1)
      have hcall := c (c hI (c (c (q (.atom "-")) (c (q (.atom "count")) (c nm nl))) nl)) nl
      have hbody := G.concat2 hs2 hc2 (.v (a := "body") (v := vlist xs) hs2 rfl rfl) hcall
      rw [show Val.cons (Val.cons (Val.atom (gensymName [] j)) (Val.cons (Val.cons (Val.atom "-") (Val.cons (Val.atom "count") (Val.cons (Val.num 1) Val.nil))) Val.nil)) Val.nil =
        vlist [vlist [.atom (gensymName [] j), vlist [.atom "-", .atom "count", .num 1]]] from rfl, mkList_vlist] at hbody
      have hwn := c (q (.atom "when-not")) (c (c (q (.atom "zero?")) (c (q (.atom "count")) nl)) hbody)
      exact .template' hs2 hp2 rfl (c (q _) (c (c (c hN (c (.v hs2 rfl rfl) nl)) nl) (c
        (c (q _) (c (c (q _) (c hN nl)) (c (c (q _) (c (c (c hI (c (c (q _) (c hI (c (c (q _) nl) (c hwn nl)))) nl)) nl) (c (c hI (c hN nl)) nl))) nl))) nl)))) s (.refl _)
  exact ⟨j, k, s1, hjk, q1, e1⟩

/-! ### One turn -/

theorem eval_minus1 {s : St} {e : Nat} {m : Int} {x : String} (hx : isCxr x = false) (ht : x ≠ "t") (hm : lookup s.heap e "-" = none) (hc : lookup s.heap e x = some (.num m)) :
    eval W (vlist [.atom "-", .atom x, .num 1]) e s = .ok (.num (m - 1)) s := by
  have hh : CallHead s.heap e (.atom "-") := callHead_of (by decide) fun ps r b dc env he => by rw [hm] at he; cases he
  refine (eval_reaches (xs := [.atom x, .num 1]) (vs := [.num m, .num 1]) hh ⟨s, eval_atom_bi (b := .sub) (by decide) (by decide) hm (by decide),
    .cons (eval_atom_bound hx ht hc) (.cons (by rw [eval_eq]; rfl) .nil)⟩).trans ?_
  exact call_bi rfl

theorem dotimes_step (xs : List Val) (e : Nat) (pre : List Char) (k : Nat) (F : Val)
    (hF : F = .lam ["count"] "" (vlist [dotimesBody (gensymName pre k) xs]) .nil false e) (x : Int × St) (hs : Ready x.2.heap e) :
    ∃ t, DotimesTurn W xs e (gensymName pre k) F x t ∧
      Progress (fun y => Ready y.2.heap e) (fun y => callFn W F [.num y.1] 0 y.2) (fun y => y.2.heap.length) x t := by
  obtain ⟨n, s⟩ := x
  have hcall : ∀ (n : Int) e1 s, callFn W F [.num n] e1 s = eval W (dotimesBody (gensymName pre k) xs) s.heap.length (callSt s e ["count"] "" [.num n]) := by
    intro n e1 s; rw [hF]; exact callFn_lam (vs := [.num n]) (ps := ["count"]) (r := "") rfl (by decide) e1 s
  dsimp only at hs ⊢
  obtain ⟨h0, L, hsc0, hL⟩ := hs
  have hpre : s.heap <+: (callSt s e ["count"] "" [.num n]).heap := List.prefix_append _ _
  have hL1 : ∀ x r, known x = some r → alGet x ([("count", .num n)] ++ L) = none := fun y r hy => by
    have hne : y ≠ "count" := by
      rintro rfl
      exact absurd hy (by rw [show known "count" = none by decide +kernel]; simp)
    rw [alGet_append, show alGet y [("count", Val.num n)] = none by simp [alGet, Ne.symm hne]]
    exact hL y r hy
  have hsc : Sc (callSt s e ["count"] "" [.num n]).heap s.heap.length ([("count", .num n)] ++ L) := by
    refine .frame (p := e) ?_ hsc0.lt (hsc0.mono hpre)
    simp [callSt]; rfl
  have hb0 : Base (callSt s e ["count"] "" [.num n]).heap 0 := h0.mono hpre
  have h1 : Ready (callSt s e ["count"] "" [.num n]).heap s.heap.length := ⟨hb0, _, hsc, hL1⟩
  have hz0 := hL1 "zero?" _ known_zeroP
  obtain ⟨s1, q1, e1⟩ := whenNot_R (W := W) h1 (vlist [.atom "zero?", .atom "count"]) (xs ++ [vlist [.atom (gensymName pre k), vlist [.atom "-", .atom "count", .num 1]]])
  have hc0 := hcall n 0 s
  by_cases hn : n = 0
  · subst hn
    obtain ⟨s2, e2, q2⟩ := G.zeroT (W := W) (x := .atom "count") hsc hz0 hb0 (.v hsc rfl rfl) s1 q1
    have := e1 _ _ e2
    rw [if_neg (by simp)] at this
    exact ⟨.ends (.ok .nil s2), .done (q1.trans q2), .inl (hc0.trans this)⟩
  · obtain ⟨s2, e2, q2⟩ := G.zeroF (W := W) (x := .atom "count") hsc hz0 hb0 (.v hsc rfl rfl) hn s1 q1
    have h3 := e1 _ _ e2
    rw [if_pos rfl] at h3
    have q12 := q1.trans q2
    obtain ⟨s3, q3, e3⟩ := progn_R (W := W) (h1.mono q12.heap) (xs ++ [vlist [.atom (gensymName pre k), vlist [.atom "-", .atom "count", .num 1]]])
    have hr := hc0.trans (h3.trans e3)
    have q13 := q12.trans q3
    unfold inOrder at hr
    rcases seq_split (W := W) (fun _ => msgList "evaluating let body") s3.heap.length xs (vlist [.atom (gensymName pre k), vlist [.atom "-", .atom "count", .num 1]])
      (withScope s3 s.heap.length) with ⟨r, h4, h5⟩ | ⟨vs, s4, h4, h5⟩
    · rw [← hr] at h5
      exact ⟨.ends r, .stops hn q13 h4, h5⟩
    · by_cases h6 : CoreHere s4.heap e ∧ lookup s4.heap s3.heap.length "-" = none ∧ lookup s4.heap s3.heap.length (gensymName pre k) = some F ∧
        ∃ m, lookup s4.heap s3.heap.length "count" = some (.num m)
      · obtain ⟨h61, h62, h63, m, h64⟩ := h6
        refine ⟨.again (m - 1, s4), .again hn q13 h4 h64, h61.ready, ?_, ?_⟩
        · have a1 := q13.heap.length_le
          have a4 := evalsTo_grows h4
          simp only [withScope, callSt, List.length_append, List.length_singleton] at a1 a4
          show s.heap.length < s4.heap.length
          omega
        · refine hr.trans (h5.trans ?_)
          have hh : CallHead s4.heap s3.heap.length (.atom (gensymName pre k)) := callHead_of (gensymName_special _ _) fun ps r b dc env he => by
            rw [h63, hF] at he; cases he
          refine (eval_reaches (xs := [vlist [.atom "-", .atom "count", .num 1]]) hh
            ⟨s4, eval_atom_bound (gensymName_cxr _ _) (gensymName_ne (by decide)) h63, .cons (eval_minus1 (by decide) (by decide) h62 h64) .nil⟩).trans ?_
          exact (hcall _ _ _).trans (hcall _ _ _).symm
      · exact ⟨.unknown, .disturbed hn q13 h4 h6, trivial⟩

/-! ### The start -/

theorem mkLambda_named1 {g : String} {x : Val} {e : Nat} (hg : g ≠ "") (hd : splitDoc (vlist [x]) = pure (.nil, vlist [x])) :
    mkLambda (vlist [.atom g, vlist [.atom "count"], x]) false e = (do
      let _ ← attempt (setM e g (.lam ["count"] "" (vlist [x]) .nil false e))
      pure (.lam ["count"] "" (vlist [x]) .nil false e)) := by
  have h1 : mkLambda (vlist [.atom g, vlist [.atom "count"], x]) false e = mkLambdaNamed g (vlist [vlist [.atom "count"], x]) false e := rfl
  rw [h1]
  have h2 : mkLambdaNamed g (vlist [vlist [.atom "count"], x]) false e = (do
      let (doc, body') ← splitDoc (vlist [x])
      let f := Val.lam ["count"] "" body' doc false e
      if g ≠ "" then do
        let _ ← attempt (setM e g f)
        pure f
      else pure f) := rfl
  rw [h2, hd]
  show (if g ≠ "" then _ else _) = _
  rw [if_pos hg]

/-- `(let ((g (lambda g (count) x))) (g y))`. -/
theorem loop1_run {s : St} {e : Nat} {L : List (String × Val)} {g y : String} {v x : Val} (hs : Sc s.heap e L) (hl : alGet "let" L = none) (hlam : alGet "lambda" L = none)
    (hg0 : g ≠ "") (hgt : g ≠ "t") (hgs : specialOf g = none) (hgc : isCxr g = false) (hyc : isCxr y = false) (hyt : y ≠ "t") (hgy : y ≠ g)
    (hd : splitDoc (vlist [x]) = pure (.nil, vlist [x]))
    (ho : ∀ s1 : St, s1.heap = s.heap ++ [⟨[], some e⟩] → lookup s1.heap s.heap.length y = some v) :
    eval W (vlist [.atom "let", vlist [vlist [.atom g, vlist [.atom "lambda", .atom g, vlist [.atom "count"], x]]], vlist [.atom g, .atom y]]) e s =
      callFn W (.lam ["count"] "" (vlist [x]) .nil false e) [v] s.heap.length (loopSt s e g (.lam ["count"] "" (vlist [x]) .nil false e)) := by
  generalize hF : Val.lam ["count"] "" (vlist [x]) .nil false e = F
  let s1 : St := { s with heap := s.heap ++ [⟨[], some e⟩] }
  have q1 : Quiet s s1 := (Quiet.refl s).grow (List.prefix_append _ _)
  let s2 : St := { s with heap := heapSet s1.heap e g F }
  have hset1 : setM e g F s1 = .ok () s2 := by unfold setM; rw [if_neg hgt]
  have hset2 : setM s.heap.length g F s2 = .ok () (loopSt s e g F) := by unfold setM; rw [if_neg hgt]; rfl
  have hev : eval W (vlist [.atom "lambda", .atom g, vlist [.atom "count"], x]) e s1 = .ok F s2 := by
    refine (eval_sform W .lambda [.atom g, vlist [.atom "count"], x] _ _ ((hs.mono q1.heap).notMacro_sf hlam known_lambda)).trans ?_
    simp only [evSpecial]
    rw [mkLambda_named1 hg0 hd, hF]
    exact M.bind_ok (attempt_ok hset1)
  have hfr : (loopSt s e g F).heap[s.heap.length]? = some ⟨[(g, F)], some e⟩ := by
    have h0 : s1.heap[s.heap.length]? = some ⟨[], some e⟩ := by simp [s1]
    exact (heapSet_at (heapSet_other (Nat.ne_of_gt hs.lt) h0)).trans rfl
  have hlk : lookup (loopSt s e g F).heap s.heap.length g = some F := by
    unfold lookup; simp [lookupAux, hfr, alGet]
  have hlky : lookup (loopSt s e g F).heap s.heap.length y = some v := by
    rw [← ho s1 rfl]
    unfold loopSt lookup
    rw [lookupAux_heapSet_ne hgy, lookupAux_heapSet_ne hgy]
  refine (eval_sform W .let_ [vlist [vlist [.atom g, vlist [.atom "lambda", .atom g, vlist [.atom "count"], x]]], vlist [.atom g, .atom y]] e s (hs.notMacro_sf hl known_let)).trans ?_
  generalize hlx : vlist [.atom "lambda", .atom g, vlist [.atom "count"], x] = lx at hev
  have hb : evLetBinds (perform W) e s.heap.length (vlist [vlist [.atom g, lx]]) s1 = .ok true (loopSt s e g F) := by
    simp only [vlist_cons, vlist_nil, evLetBinds, perform_eval]
    rw [M.bind_ok (extend_ok hev), M.bind_ok (extend_ok hset2)]; rfl
  refine (evLet_run (bs := vlist [vlist [.atom g, lx]]) (body := vlist [vlist [.atom g, .atom y]]) rfl rfl hb).trans ?_
  have hh : CallHead (loopSt s e g F).heap s.heap.length (.atom g) := callHead_of hgs fun ps r b dc env he => by
    rw [hlk, ← hF] at he; cases he
  exact eval_reaches (xs := [.atom y]) hh ⟨_, eval_atom_bound hgc hgt hlk, .cons (eval_atom_bound hyc hyt hlky) .nil⟩

theorem callFn_final_lam {F x : Val} {ps : List String} {vs : List Val} {e e1 : Nat} {s s' : St} (hF : F = .lam ps "" (vlist [x]) .nil false e) (ha : ArityOk ps "" vs) (ht : NoT ps "")
    (h : (callFn W F vs e1 s).final = some s') : s.heap.length ≤ s'.heap.length := by
  rw [hF, callFn_lam ha ht] at h
  have := grows W _ _ _ h
  simp only [callSt, List.length_append] at this
  omega

theorem callFn_any {F x : Val} {ps : List String} {vs : List Val} {e : Nat} (hF : F = .lam ps "" (vlist [x]) .nil false e) (ha : ArityOk ps "" vs) (ht : NoT ps "") (e1 e2 : Nat) (s : St) :
    callFn W F vs e1 s = callFn W F vs e2 s := by
  rw [hF, callFn_lam ha ht, callFn_lam ha ht]

theorem gens_ne {j k : Nat} (h : j ≠ k) (pre pre' : List Char) : gensymName pre j ≠ gensymName pre' k := fun hh => h (gensymName_inj hh)

/-- `(dotimes n x ...)`. -/
theorem dotimes_run {s : St} {e : Nat} (h : CoreHere s.heap e) (n : Val) (xs : List Val) : ∃ s1, Quiet s s1 ∧
    (∀ r, eval W n e s1 = r → (∀ v s2, r ≠ .ok v s2) → UpTo r (eval W (form "dotimes" (n :: xs)) e s)) ∧
    ∀ m s2, eval W n e s1 = .ok (.num m) s2 → CoreHere s2.heap e → (∀ j, newIn s s1 j → s2.heap[j]? = s1.heap[j]?) →
      (m < 0 → ∃ s3, Still (newIn s s1) s2 s3 ∧ eval W (form "dotimes" (n :: xs)) e s = .ok .nil s3) ∧
      (0 ≤ m → ∃ g N F E s3, Still (newIn s s1) s2 s3 ∧ DotimesStart s2 s3 e E g N F ∧ ((∃ r, Loops (DotimesTurn W xs E g F) (m, s3) r ∧ UpTo r (eval W (form "dotimes" (n :: xs)) e s)) ∨
        (Endless (DotimesTurn W xs E g F) (m, s3) ∧ eval W (form "dotimes" (n :: xs)) e s = .oof))) := by
  obtain ⟨j, k, s0, hjk, q0, e0⟩ := dotimes_becomes (W := W) (n := n) (xs := xs) h.2.base h.1.base
  let N := gensymName [] k
  let g := gensymName [] j
  have hlt : e < s0.heap.length := Nat.lt_of_lt_of_le h.2.lt q0.heap.length_le
  let p := s0.heap.length
  let s1 : St := withScope s0 e
  have q01 : Quiet s0 s1 := (Quiet.refl s0).grow (List.prefix_append _ _)
  have q1 : Quiet s s1 := q0.trans q01
  have hNt : N ≠ "t" := gensymName_ne (by decide)
  generalize hw : vlist [.atom "when-not", vlist [.atom "neg?", .atom N],
    vlist [.atom "let", vlist [vlist [.atom g, vlist [.atom "lambda", .atom g, vlist [.atom "count"], dotimesBody g xs]]], vlist [.atom g, .atom N]]] = wn
  have e0' : eval W (form "dotimes" (n :: xs)) e s = eval W (vlist [.atom "let", vlist [vlist [.atom N, n]], wn]) e s0 := by rw [e0, ← hw]; rfl
  have e1 : eval W (form "dotimes" (n :: xs)) e s = ((eval W n e s1).andThen (msgList "evaluating let bindings") fun v s2 =>
      eval W wn p { s2 with heap := heapSet s2.heap p N v }) := by
    rw [e0']
    refine (eval_sform W .let_ [vlist [vlist [.atom N, n]], wn] e s0 ((Sc.base (h.2.base.mono q0.heap)).notMacro_sf rfl known_let)).trans ?_
    show evLet (perform W) (perform W) e (.cons (vlist [vlist [.atom N, n]]) (vlist [wn])) s0 = _
    simp only [evLet, isList_vlist, if_true]
    rw [M.bind_ok (newEnvM_run _ _)]
    show (evLetBinds (perform W) e p (vlist [vlist [.atom N, n]]) >>= fun b => _) s1 = _
    rw [M.bind_run]
    have hb : evLetBinds (perform W) e p (vlist [vlist [.atom N, n]]) s1 = match eval W n e s1 with
        | .ok v s2 => .ok true { s2 with heap := heapSet s2.heap p N v }
        | .err er s2 => .err (er.under (msgList "evaluating let bindings")) s2
        | .crash w s2 => .crash w s2
        | .exit c s2 => .exit c s2
        | .overflow s2 => .overflow s2
        | .oof => .oof := by
      simp only [vlist_cons, vlist_nil, evLetBinds, perform_eval]
      rw [M.bind_run]
      cases hv : eval W n e s1 with
      | ok v s2 =>
        have hset : setM p N v s2 = .ok () { s2 with heap := heapSet s2.heap p N v } := by unfold setM; rw [if_neg hNt]
        rw [extend_ok hv]
        dsimp only
        rw [M.bind_ok (extend_ok hset)]; rfl
      | err er s2 =>
        unfold extend
        rw [extendWith_run, hv]
        cases er <;> rfl
      | _ => unfold extend; rw [extendWith_run, hv]
    rw [hb]
    cases eval W n e s1 <;> rfl
  refine ⟨s1, q1, fun r hr hn => by rw [e1, hr]; exact .frame hn _ _, fun m s2 hv hc2 hun => ?_⟩
  have hnewp : newIn s s1 p := ⟨q0.heap.length_le, by show s0.heap.length < (s0.heap ++ [_]).length; simp⟩
  let s3 : St := { s2 with heap := heapSet s2.heap p N (.num m) }
  have e3 : eval W (form "dotimes" (n :: xs)) e s = eval W wn p s3 := by rw [e1, hv]; rfl
  have hNk : ∀ x r, known x = some r → x ≠ N := fun _ _ hx => known_ne_gensym hx _ _
  have hc3 : CoreHere s3.heap e := hc2.set hNk p (.num m)
  have hfr : s3.heap[p]? = some ⟨[(N, .num m)], some e⟩ := by
    have h1 : s2.heap[p]? = some ⟨[], some e⟩ := (hun p hnewp).trans (by show (s0.heap ++ [_])[s0.heap.length]? = _; simp)
    exact (heapSet_at h1).trans rfl
  have hs3 : Sc s3.heap p ([(N, .num m)] ++ []) := .frame hfr hlt (.base hc3.2.base)
  have hL3 : ∀ x r, known x = some r → alGet x ([(N, Val.num m)] ++ []) = none := fun x r hx => by
    have hne : N ≠ x := Ne.symm (hNk x r hx)
    show alGet x [(N, Val.num m)] = none
    simp only [alGet, if_neg hne]
  have st3 : Still (newIn s s1) s2 s3 := Still.set hnewp _ _
  have hNc : isCxr N = false := gensymName_cxr _ _
  have hNv : alGet N ([(N, Val.num m)] ++ []) = some (.num m) := by simp [alGet]
  have hneg : G W s3 p (vlist [.atom "neg?", .atom N]) (vBool (decide (m < 0))) :=
    .fn hs3 (hL3 _ _ known_negP) hd_negP (.one (.var hs3 hNv hNc hNt)) (ret_negP hc3.1.base m)
  rw [e3]
  refine ⟨fun hm => ?_, fun hm => ?_⟩
  · rw [decide_eq_true hm] at hneg
    obtain ⟨s4, e4, q4⟩ := (G.whenNotT (v := .nil) hs3 (Ready.plain hL3) (.core hc3.1.base (hL3 _ _ known_concat2)) hneg (by decide)) s3 (.refl _)
    refine ⟨s4, st3.trans (q4.still _), ?_⟩
    rw [← hw]; exact e4
  · rw [decide_eq_false (by omega)] at hneg
    obtain ⟨s4, q4, e4⟩ := whenNot_true (W := W) (vlist [.atom "let", vlist [vlist [.atom g, vlist [.atom "lambda", .atom g, vlist [.atom "count"], dotimesBody g xs]]], vlist [.atom g, .atom N]])
      hs3 (Ready.plain hL3) (.core hc3.1.base (hL3 _ _ known_concat2)) hneg
    generalize hF : Val.lam ["count"] "" (vlist [dotimesBody g xs]) .nil false s4.heap.length = F
    have q4' : Quiet s4 (withScope s4 p) := Quiet.withScope _ _
    have hpE : p < s4.heap.length := Nat.lt_of_lt_of_le hs3.lt q4.heap.length_le
    have hsE : Sc (withScope s4 p).heap s4.heap.length ([] ++ ([(N, .num m)] ++ [])) :=
      .frame (by simp [withScope]) hpE (hs3.mono (q4.trans q4').heap)
    have hgk : ∀ x r, known x = some r → x ≠ g := fun _ _ hx => known_ne_gensym hx _ _
    have hgt : g ≠ "t" := gensymName_ne (by decide)
    have e5 := loop1_run (W := W) (g := g) (y := N) (v := .num m) (x := dotimesBody g xs) hsE (hL3 _ _ known_let) (hL3 _ _ known_lambda) (gensymName_ne (by decide)) hgt
      (gensymName_special _ _) (gensymName_cxr _ _) hNc hNt (gens_ne (Ne.symm hjk) _ _) rfl (fun s6 h6 => by
        have hs6 : Sc s6.heap (withScope s4 p).heap.length ([] ++ ([] ++ ([(N, .num m)] ++ []))) := by
          rw [h6]
          exact .frame (by simp) hsE.lt (hsE.mono (List.prefix_append _ _))
        exact hs6.lookup_some hNv)
    rw [hF] at e5
    generalize hs5 : loopSt (withScope s4 p) s4.heap.length g F = s5 at e5
    have q35 : Quiet s3 s5 := by
      rw [← hs5]
      have hh : s4.heap <+: heapSet (heapSet ((withScope s4 p).heap ++ [⟨[], some s4.heap.length⟩]) s4.heap.length g F) (withScope s4 p).heap.length g F :=
        prefix_heapSet (prefix_heapSet (q4'.heap.trans (List.prefix_append _ _)) (Nat.le_refl _) _ _) q4'.heap.length_le _ _
      exact ⟨q4.heap.trans hh, q4.out, q4.inp, q4.tick, q4.screen, q4.gensym⟩
    have hE5 : s5.heap[s4.heap.length]? = some ⟨[(g, F)], some p⟩ := by
      rw [← hs5]
      show (heapSet (heapSet ((withScope s4 p).heap ++ [⟨[], some s4.heap.length⟩]) s4.heap.length g F) (withScope s4 p).heap.length g F)[s4.heap.length]? = _
      refine heapSet_other (by simp [withScope]) ((heapSet_at (f := ⟨[], some p⟩) ?_).trans rfl)
      simp [withScope]
    have hs5' : Sc s5.heap s4.heap.length ([(g, F)] ++ ([(N, .num m)] ++ [])) := .frame hE5 hpE (hs3.mono q35.heap)
    have hr5 : Ready s5.heap s4.heap.length := by
      refine ⟨hc3.1.base.mono q35.heap, _, hs5', fun x r hx => ?_⟩
      rw [alGet_append]
      have hne : g ≠ x := Ne.symm (hgk x r hx)
      simp only [alGet, if_neg hne]
      exact hL3 x r hx
    refine ⟨g, N, F, s4.heap.length, s5, st3.trans (q35.still _), ⟨hr5.coreHere, hs5'.lookup_some (by simp [alGet]), ⟨⟨_, rfl⟩, ⟨_, rfl⟩⟩, fun x hxg hxN => ?_⟩, ?_⟩
    · have hlen : s4.heap.length = (s4.heap.length - 1) + 1 := by omega
      unfold lookup
      rw [lookupAux, hE5]
      dsimp only
      simp only [alGet, if_neg (Ne.symm hxg)]
      rw [hlen, lookupAux, prefix_get q35.heap hfr]
      dsimp only
      simp only [alGet, if_neg (Ne.symm hxN)]
      have h1 : lookupAux s5.heap (s4.heap.length - 1) e x = lookup s5.heap e x := (hc3.2.base.mono q35.heap).enough (by omega)
      rw [h1, hc3.2.nested.lookup_prefix q35.heap]
      show lookupAux (heapSet s2.heap p N (.num m)) _ e x = _
      rw [lookupAux_heapSet_ne hxN]
    · have key := loops_total (Turn := DotimesTurn W xs s4.heap.length g F) (inv := fun y => Ready y.2.heap s4.heap.length) (out := fun y => callFn W F [.num y.1] 0 y.2)
        (size := fun y => y.2.heap.length) (fun y hy => dotimes_step xs s4.heap.length [] j F hF.symm y hy)
        (fun y s' hf => callFn_final_lam (vs := [.num y.1]) hF.symm rfl (by decide) hf) (m, s5) hr5
      have heq : eval W wn p s3 = callFn W F [.num m] 0 s5 := by
        rw [← hw]
        exact e4.trans (e5.trans (callFn_any (vs := [.num m]) hF.symm rfl (by decide) _ _ _))
      rw [heq]
      exact key

end L1
