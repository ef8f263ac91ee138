import Verif.Lemmas.CoreLoop
/- `foreach` and `enumerate` of the core library. -/
set_option autoImplicit false
namespace L1

variable {W : World}

/-- From `s` to `s'` only scope `i`, newer than `s0`, may have changed. -/
def Loc (s0 : St) (i : Nat) (s s' : St) : Prop := Quiet s0 s' ∧ s.heap.length ≤ s'.heap.length ∧ ∀ (j : Nat) (f : Frame), j ≠ i → s.heap[j]? = some f → s'.heap[j]? = some f

theorem Loc.trans {s0 s1 s2 s3 : St} {i : Nat} (h1 : Loc s0 i s1 s2) (h2 : Loc s0 i s2 s3) : Loc s0 i s1 s3 :=
  ⟨h2.1, Nat.le_trans h1.2.1 h2.2.1, fun j f hj hf => h2.2.2 j f hj (h1.2.2 j f hj hf)⟩

theorem Loc.quiet {s0 s1 s2 : St} {i : Nat} (h0 : Quiet s0 s1) (hq : Quiet s1 s2) : Loc s0 i s1 s2 :=
  ⟨h0.trans hq, hq.heap.length_le, fun _ _ _ hf => prefix_get hq.heap hf⟩

theorem Loc.set {s0 s1 : St} {i : Nat} (hi : s0.heap.length ≤ i) (h0 : Quiet s0 s1) (x : String) (v : Val) : Loc s0 i s1 { s1 with heap := heapSet s1.heap i x v } :=
  ⟨h0.grow (prefix_heapSet h0.heap hi _ _), by simp [heapSet_length], fun _ _ hj hf => heapSet_other hj hf⟩

theorem eval_callVar {s s1 s2 : St} {e : Nat} {L : List (String × Val)} {a : String} {f : Val} {xs vs : List Val} (hs : Sc s.heap e L)
    (hx : alGet a L = some f) (hm : f.notMacro = true) (hsp : specialOf a = none) (hc : isCxr a = false) (ht : a ≠ "t")
    (ha : EvalsTo W e xs s vs s1) {r : Res Val} (hr : callFn W f vs e s1 = r) : eval W (.cons (.atom a) (vlist xs)) e s = r := by
  have hl := hs.lookup_some hx
  have hh : CallHead s.heap e (.atom a) := callHead_of hsp fun ps r b dc env he => by
    rw [hl] at he
    exact notMacro_val hm ps r b dc env (Option.some.inj he)
  exact (eval_reaches hh ⟨s, eval_atom_bound hc ht hl, ha⟩).trans hr

theorem eval_callCore {s s1 : St} {e : Nat} {L : List (String × Val)} {a : String} {f : Val} {xs vs : List Val} (hs : Sc s.heap e L)
    (hx : alGet a L = none) (hk : Head a f) {r : Res Val}
    (ha : ∀ s0, Quiet s s0 → s0 = s → EvalsTo W e xs s0 vs s1) (hr : callFn W f vs e s1 = r) : eval W (.cons (.atom a) (vlist xs)) e s = r := by
  have hh : CallHead s.heap e (.atom a) := callHead_of hk.special fun ps r b dc env he => by
    have hk2 := hk.val
    have hm := hk.notMacro
    unfold coreVal at hk2
    cases hkn : known a with
    | none => rw [hkn] at hk2; cases hk2
    | some w =>
      rw [hs.lookup_known hx hkn] at he
      subst he
      rw [hkn] at hk2
      cases hk2; cases hm
  have hv : eval W (.atom a) e s = .ok f s := by
    have hk2 := hk.val
    unfold coreVal at hk2
    cases hkn : known a with
    | none => rw [hkn] at hk2; cases hk2
    | some r =>
      rw [hkn] at hk2
      have hl := hs.lookup_known hx hkn
      cases r with
      | some w => cases hk2; exact eval_atom_bound hk.cxr hk.t hl
      | none =>
        simp only [Option.map_eq_some_iff] at hk2
        obtain ⟨b, hb, rfl⟩ := hk2
        exact eval_atom_bi hk.cxr hk.t hl hb
  exact (eval_reaches hh ⟨s, hv, ha s (.refl _) rfl⟩).trans hr

/-- `map` with a function that assigns to variables of scope `i` only. -/
theorem map_local {s0 : St} (hc : Base s0.heap 0) {i : Nat} {f : Val} (hm : f.notMacro = true) (I : St → List Val → Prop)
    (hl : ∀ s s' xs, Quiet s s' → I s xs → I s' xs)
    (hstep : ∀ s x xs e, Quiet s0 s → I s (x :: xs) → ∃ y s', callFn W f [x] e s = .ok y s' ∧ Loc s0 i s s' ∧ I s' xs) (xs : List Val) :
    ∀ s e, i < s.heap.length → Quiet s0 s → I s xs → ∃ v s', callFn W k_map [f, vlist xs] e s = .ok v s' ∧ Loc s0 i s s' ∧ I s' [] := by
  induction xs with
  | nil =>
    intro s e _ hq hi
    have hr : Returns W s k_map [f, .nil] .nil := ret_map (g := id) (hc.mono hq.heap) hm [] (by simp)
    obtain ⟨s', e', q'⟩ := hr s e (.refl _)
    exact ⟨.nil, s', e', .quiet hq q', hl _ _ _ q' hi⟩
  | cons x xs ih =>
    intro s e hil hq hi
    have hb := hc.mono hq.heap
    have h0 : Sc s.heap 0 [] := .base hb
    let s1 : St := callSt s 0 ["f", "l"] "" [f, vlist (x :: xs)]
    have q1 : Quiet s s1 := (Quiet.refl s).grow (List.prefix_append _ _)
    have f1 : s1.heap[s.heap.length]? = some ⟨[("f", f), ("l", vlist (x :: xs))], some 0⟩ := by simp [s1, callSt, paramSyms, alSet]
    have hs1 : Sc s1.heap s.heap.length ([("f", f), ("l", vlist (x :: xs))] ++ []) := .frame f1 h0.lt (h0.mono q1.heap)
    obtain ⟨s2, q2, e2⟩ := when_run (W := W) (c := .atom "l") (w := vlist (x :: xs)) (xs := [vlist [.atom "cons", vlist [.atom "f", vlist [.atom "car", .atom "l"]],
      vlist [.atom "map", .atom "f", vlist [.atom "cdr", .atom "l"]]]]) hs1 (plain_of rfl) (.core (hb.mono q1.heap) rfl) (.v hs1 rfl rfl) (by simp) (by simp)
    let s3 : St := { s2 with heap := s2.heap ++ [⟨[], some s.heap.length⟩] }
    have q3 : Quiet s2 s3 := (Quiet.refl s2).grow (List.prefix_append _ _)
    have q13 := q2.trans q3
    have hke : s.heap.length < s2.heap.length := Nat.lt_of_lt_of_le hs1.lt q2.heap.length_le
    have f3 : s3.heap[s2.heap.length]? = some ⟨[], some s.heap.length⟩ := by simp [s3]
    have hs3 : Sc s3.heap s2.heap.length ([] ++ ([("f", f), ("l", vlist (x :: xs))] ++ [])) := .frame f3 hke (hs1.mono q13.heap)
    -- the call of `f`
    have hcar : G W s3 s2.heap.length (vlist [.atom "car", .atom "l"]) x := .car hs3 rfl (.v hs3 rfl rfl)
    obtain ⟨s4, e4, q4⟩ := hcar s3 (.refl _)
    have q04 := ((hq.trans q1).trans q13).trans q4
    obtain ⟨y, s5, e5, l5, i5⟩ := hstep s4 x xs s2.heap.length q04 (hl _ _ _ ((q1.trans q13).trans q4) hi)
    have hfcall : eval W (vlist [.atom "f", vlist [.atom "car", .atom "l"]]) s2.heap.length s3 = .ok y s5 :=
      eval_callVar (s2 := s3) (xs := [_]) hs3 rfl hm rfl rfl (by decide) (.cons e4 .nil) e5
    -- the rest
    have hs5 : Sc s5.heap s2.heap.length ([] ++ ([("f", f), ("l", vlist (x :: xs))] ++ [])) :=
      .frame (l5.2.2 _ _ (by omega) (prefix_get q4.heap f3)) hke (.frame (l5.2.2 _ _ (by omega) (prefix_get (q13.trans q4).heap f1)) h0.lt (.base (hc.mono l5.1.heap)))
    have hargs : GA W s5 s2.heap.length [.atom "f", vlist [.atom "cdr", .atom "l"]] [f, vlist xs] := .two (.v hs5 rfl rfl) (.cdr hs5 rfl (.v hs5 rfl rfl))
    obtain ⟨s6, e6, q6⟩ := hargs.evals s5 (.refl _)
    have h46 : s.heap.length ≤ s6.heap.length := Nat.le_trans ((q1.trans q13).trans q4).heap.length_le (Nat.le_trans l5.2.1 q6.heap.length_le)
    obtain ⟨v, s7, e7, l7, i7⟩ := ih s6 s2.heap.length (by omega) (l5.1.trans q6) (hl _ _ _ q6 i5)
    have hrest : eval W (vlist [.atom "map", .atom "f", vlist [.atom "cdr", .atom "l"]]) s2.heap.length s5 = .ok v s7 :=
      eval_callCore (xs := [_, _]) hs5 rfl hd_map (fun _ _ h => by subst h; exact e6) e7
    refine ⟨.cons y v, s7, ?_, ?_, i7⟩
    · refine (evApply_lam (ps := ["f", "l"]) (r := "") (vs := [f, vlist (x :: xs)]) rfl (by decide)).trans (e2.trans ?_)
      refine (evBodyTail_ok (xs := []) .nil).trans ?_
      refine eval_callCore (xs := [_, _]) hs3 rfl hd_cons (fun _ _ h => by subst h; exact .cons hfcall (.cons hrest .nil)) ?_
      unfold callFn
      simp only [evApply]
      refine extend_ok ?_
      rw [perform_eq]; rfl
    · exact (Loc.quiet hq ((q1.trans q13).trans q4)).trans (l5.trans ((Loc.quiet l5.1 q6).trans l7))

/-- The function `foreach` makes in `enumerate`. -/
def enumFn (i : Nat) : Val :=
  .lam ["x"] "" (vlist [vlist [.atom "set!", .atom "ret", vlist [.atom "cons", vlist [.atom "list", .atom "c", .atom "x"], .atom "ret"]],
    vlist [.atom "set!", .atom "c", vlist [.atom "inc", .atom "c"]]]) .nil false i

theorem owner_one {h : Heap} {e i : Nat} {n : String} {syms : List (String × Val)} {f : Frame} {v : Val} (h1 : h[e]? = some ⟨syms, some i⟩) (h3 : h[i]? = some f)
    (hi : i < e) (hs : alGet n syms = none) (hv : alGet n f.syms = some v) : owner h e n = some i := by
  obtain ⟨e, rfl⟩ : ∃ e', e = e' + 1 := ⟨e - 1, by omega⟩
  unfold owner
  simp [ownerAux, h1, h3, hv, hs]

/-- What `(foreach x xs body ...)` stands for. -/
theorem Becomes.foreach {s : St} {e : Nat} {L : List (String × Val)} {x l : Val} {body : List Val} (hs : Sc s.heap e L) (hp : Plain L) (hcc : Cc W s L) (hf : alGet "foreach" L = none) :
    Becomes W s e (.cons (.atom "foreach") (vlist (x :: l :: body)))
      (vlist [.atom "map", .cons (.atom "lambda") (.cons (vlist [x]) (vlist body)), l]) := by
  refine .mac hs hf known_foreach (by simp [ArityOk]) (by decide) (fun s1 e1 hq hs1 => ?_)
  have hp1 : Plain (paramSyms ["x", "xs"] "body" (x :: l :: body) ++ L) := hp.under (plain_of rfl)
  have hc1 : Cc W s1 (paramSyms ["x", "xs"] "body" (x :: l :: body) ++ L) := (hcc.mono hq).under rfl
  have kc := hp1 "cons" (by decide)
  have kq := hp1 "quote" (by decide)
  have hb := G.concat2 hs1 hc1 (.v (a := "body") (v := vlist body) hs1 rfl rfl) (.nil _ _)
  exact .template' hs1 hp1 rfl (.cons hs1 kc (.quote hs1 kq known_quote) (.cons hs1 kc (.cons hs1 kc (.quote hs1 kq known_quote) (.cons hs1 kc
    (.cons hs1 kc (.v hs1 rfl rfl) (.nil _ _)) hb)) (.cons hs1 kc (.v hs1 rfl rfl) (.nil _ _))))

def enumFrame (c : Nat) (ret : Val) (p : Nat) : Frame := ⟨[("c", .num c), ("ret", ret)], some p⟩

/-- `enumerate`: the pairs of index and element. -/
theorem ret_enumerate {s : St} (hc : Base s.heap 0) (xs : List Val) : Returns W s k_enumerate [vlist xs] (vlist (pairsFrom 0 xs)) := by
  refine .lam rfl (by decide) (.base hc) fun s1 e1 hq hs s3 hq3 => ?_
  have hb := hc.mono hq.heap
  have hs3 := hs.mono hq3.heap
  have hb3 := hb.mono hq3.heap
  have hgb : GB W s3 e1 [vlist [.atom "c", .num 0], vlist [.atom "ret", .nil]] [("c", .num 0), ("ret", .nil)] :=
    .cons (by decide) (.num _ _ _) (.cons (by decide) (.nil _ _) .nil)
  generalize hfx : vlist [.atom "foreach", .atom "x", .atom "l", vlist [.atom "set!", .atom "ret", vlist [.atom "cons", vlist [.atom "list", .atom "c", .atom "x"], .atom "ret"]],
    vlist [.atom "set!", .atom "c", vlist [.atom "inc", .atom "c"]]] = fx
  have h1 := eval_sform W .let_ [vlist [vlist [.atom "c", .num 0], vlist [.atom "ret", .nil]], fx, vlist [.atom "reverse", .atom "ret"]] e1 s3 (hs3.notMacro_sf rfl known_let)
  let s4 : St := { s3 with heap := s3.heap ++ [⟨[], some e1⟩] }
  have q4 : Quiet s3 s4 := (Quiet.refl s3).grow (List.prefix_append _ _)
  obtain ⟨s5, e5, q5, f5⟩ := hgb.run s3 s4 s3.heap.length [] (some e1) (.refl _) q4 (Nat.le_refl _) (by simp [s4])
  generalize hi : s3.heap.length = i at *
  have hei : e1 < i := by rw [← hi]; exact hs3.lt
  have hs5 : Sc s5.heap i ([("c", .num 0), ("ret", .nil)] ++ (paramSyms ["l"] "" [vlist xs] ++ [])) := .frame f5 hei (hs3.mono q5.heap)
  have hb5 := hb3.mono q5.heap
  obtain ⟨s6, q6, e6⟩ := Becomes.foreach (W := W) (x := .atom "x") (l := .atom "l") (body := [vlist [.atom "set!", .atom "ret", vlist [.atom "cons", vlist [.atom "list", .atom "c", .atom "x"], .atom "ret"]],
    vlist [.atom "set!", .atom "c", vlist [.atom "inc", .atom "c"]]]) hs5 (plain_of rfl) (.core hb5 rfl) rfl s5 (.refl _)
  have hs6 := hs5.mono q6.heap
  have hargs : GA W s6 i [.cons (.atom "lambda") (.cons (vlist [.atom "x"]) (vlist [vlist [.atom "set!", .atom "ret", vlist [.atom "cons", vlist [.atom "list", .atom "c", .atom "x"], .atom "ret"]],
      vlist [.atom "set!", .atom "c", vlist [.atom "inc", .atom "c"]]])), .atom "l"] [enumFn i, vlist xs] :=
    .two (.lambda (a := vlist [.atom "x"]) (body := [_, _]) hs6 rfl known_lambda fun _ => rfl) (.v hs6 rfl rfl)
  obtain ⟨s7, e7, q7⟩ := hargs.evals s6 (.refl _)
  have q37 := (q5.trans q6).trans q7
  -- the loop
  obtain ⟨v, s8, e8, l8, i8⟩ := map_local (W := W) (s0 := s3) (f := enumFn i) hb3 (i := i) rfl
    (fun s rest => ∃ done, xs = done ++ rest ∧ s.heap[i]? = some (enumFrame done.length (vlist (pairsFrom 0 done).reverse) e1))
    (fun s s' rest hq => fun ⟨done, h1, h2⟩ => ⟨done, h1, prefix_get hq.heap h2⟩)
    (by
      rintro s x rest e hqs ⟨done, hxs, hf⟩
      have hil : i < s.heap.length := by
        rcases Nat.lt_or_ge i s.heap.length with h | h
        · exact h
        · rw [List.getElem?_eq_none h] at hf; cases hf
      generalize hret : vlist (pairsFrom 0 done).reverse = ret at hf
      have hsi : Sc s.heap i ((enumFrame done.length ret e1).syms ++ (paramSyms ["l"] "" [vlist xs] ++ [])) := .frame hf hei (hs3.mono hqs.heap)
      let t1 : St := callSt s i ["x"] "" [x]
      have qt1 : Quiet s t1 := (Quiet.refl s).grow (List.prefix_append _ _)
      have ft1 : t1.heap[s.heap.length]? = some ⟨[("x", x)], some i⟩ := by simp [t1, callSt, paramSyms, alSet]
      have hst1 : Sc t1.heap s.heap.length ([("x", x)] ++ ((enumFrame done.length ret e1).syms ++ (paramSyms ["l"] "" [vlist xs] ++ []))) := .frame ft1 hil (hsi.mono qt1.heap)
      obtain ⟨t2, qt2, et2⟩ := set_run (W := W) (o := i) (n := "ret") (x := vlist [.atom "cons", vlist [.atom "list", .atom "c", .atom "x"], .atom "ret"]) hst1 rfl
        (.cons hst1 rfl (.list hst1 rfl (.two (.v hst1 rfl rfl) (.v hst1 rfl rfl))) (.v hst1 rfl rfl)) (by decide)
        (fun t qt => owner_one (prefix_get qt.heap ft1) (prefix_get (qt1.trans qt).heap hf) hil rfl rfl)
      have q0t2 := (hqs.trans qt1).trans qt2
      let t3 : St := { t2 with heap := heapSet t2.heap i "ret" (.cons (vlist [.num done.length, x]) ret) }
      have l3 : Loc s3 i t2 t3 := .set (by omega) q0t2 _ _
      have ft3 : t3.heap[i]? = some (enumFrame done.length (.cons (vlist [.num done.length, x]) ret) e1) :=
        (heapSet_at (prefix_get (qt1.trans qt2).heap hf)).trans (by simp [enumFrame, alSet])
      have fx3 : t3.heap[s.heap.length]? = some ⟨[("x", x)], some i⟩ := l3.2.2 _ _ (by omega) (prefix_get qt2.heap ft1)
      have hst3 : Sc t3.heap s.heap.length ([("x", x)] ++ ((enumFrame done.length (.cons (vlist [.num done.length, x]) ret) e1).syms ++ (paramSyms ["l"] "" [vlist xs] ++ []))) :=
        .frame fx3 hil (.frame ft3 hei (hs3.mono l3.1.heap))
      have hinc : G W t3 s.heap.length (vlist [.atom "inc", .atom "c"]) (.num ((done.length + 1 : Nat) : Int)) := by
        have := ret_inc (W := W) (hb3.mono l3.1.heap) done.length
        rw [show ((done.length : Int) + 1) = ((done.length + 1 : Nat) : Int) by omega] at this
        exact .fn hst3 rfl hd_inc (.one (.v hst3 rfl rfl)) this
      obtain ⟨t4, qt4, et4⟩ := set_run (W := W) (o := i) (n := "c") hst3 rfl hinc (by decide)
        (fun t qt => owner_one (prefix_get qt.heap fx3) (prefix_get qt.heap ft3) hil rfl rfl)
      let t5 : St := { t4 with heap := heapSet t4.heap i "c" (.num ((done.length + 1 : Nat) : Int)) }
      have l5 : Loc s3 i t4 t5 := .set (by omega) (l3.1.trans qt4) _ _
      have ft5 : t5.heap[i]? = some (enumFrame (done.length + 1) (.cons (vlist [.num done.length, x]) ret) e1) :=
        (heapSet_at (prefix_get qt4.heap ft3)).trans (by simp [enumFrame, alSet])
      refine ⟨.num ((done.length + 1 : Nat) : Int), t5, ?_, ?_, done ++ [x], by simp [hxs], ?_⟩
      · refine (evApply_lam (ps := ["x"]) (r := "") (vs := [x]) rfl (by decide)).trans ?_
        refine (evBodyTail_ok (xs := [_]) (.cons et2 .nil)).trans ?_
        exact et4
      · exact (Loc.quiet hqs (qt1.trans qt2)).trans (l3.trans ((Loc.quiet l3.1 qt4).trans l5))
      · rw [ft5, List.length_append, List.length_singleton]
        have hp : ∀ (ys : List Val) (c : Nat), pairsFrom c (ys ++ [x]) = pairsFrom c ys ++ [vlist [.num ((c + ys.length : Nat) : Int), x]] := by
          intro ys
          induction ys with
          | nil => intro c; simp [pairsFrom]
          | cons y ys ih => intro c; simp only [List.cons_append, pairsFrom, ih, List.length_cons]; rw [show c + 1 + ys.length = c + (ys.length + 1) by omega]
        rw [hp, List.reverse_append, ← hret]
        simp) xs s7 i (Nat.lt_of_lt_of_le hs6.lt q7.heap.length_le) q37 ⟨[], rfl, by
          have := prefix_get (q6.trans q7).heap f5
          exact this⟩
  obtain ⟨done, hd, f8⟩ := i8
  rw [List.append_nil] at hd
  subst hd
  have hfor : eval W fx i s5 = .ok v s8 := by
    rw [← hfx]
    exact e6.trans (eval_callCore (xs := [_, _]) hs6 rfl hd_map (fun _ _ h => by subst h; exact e7) e8)
  have hs8 : Sc s8.heap i ((enumFrame xs.length (vlist (pairsFrom 0 xs).reverse) e1).syms ++ (paramSyms ["l"] "" [vlist xs] ++ [])) := .frame f8 hei (hs3.mono l8.1.heap)
  have hrev : G W s8 i (vlist [.atom "reverse", .atom "ret"]) (vlist (pairsFrom 0 xs)) := by
    have := ret_reverse (W := W) (hb3.mono l8.1.heap) (pairsFrom 0 xs).reverse
    rw [List.reverse_reverse] at this
    exact .fn hs8 rfl hd_reverse (.one (.v hs8 rfl rfl)) this
  obtain ⟨s9, e9, q9⟩ := hrev s8 (.refl _)
  refine ⟨s9, h1.trans ?_, l8.1.trans q9⟩
  subst hi
  refine (evLet_run (bs := vlist [vlist [.atom "c", .num 0], vlist [.atom "ret", .nil]]) (body := vlist [fx, vlist [.atom "reverse", .atom "ret"]]) rfl rfl e5).trans ?_
  exact (evBodyTail_ok (xs := [fx]) (.cons hfor .nil)).trans e9

end L1
