import Verif.Lemmas.Eliza
import Verif.Spec.Meta
/-
The functions of examples/meta.l1.
-/
set_option autoImplicit false
namespace L1

variable {W : World}

/-! ### A `let` with a `foreach` that assigns its variables -/

theorem G.letForeach {α : Type} (F : α → List (String × Val)) (step : α → Val → α) (a0 : α) {s : St} {e : Nat} {L : List (String × Val)} {bs body : List Val} {x : String} {lx z v : Val}
    {xs : List Val} (hs : Sc s.heap e L) (hl : alGet "let" L = none) (hp : ∀ a, Plain (F a ++ L)) (hcc : Base s.heap 0) (hc2 : ∀ a, alGet "concat2" (F a ++ L) = none)
    (hn : ∀ a, alGet "foreach" (F a ++ L) = none ∧ alGet "map" (F a ++ L) = none ∧ alGet "lambda" (F a ++ L) = none)
    (hlam : ∀ (i : Nat) (s' : St), mkLambda (vlist (vlist [.atom x] :: body)) false i s' = .ok (.lam [x] "" (vlist body) .nil false i) s')
    (hgb : ∀ s', Quiet s s' → GB W s' e bs (F a0)) (hF : (F a0).foldl (fun a nv => alSet nv.1 nv.2 a) [] = F a0)
    (hlx : ∀ s' i, Quiet s s' → Sc s'.heap i (F a0 ++ L) → G W s' i lx (vlist xs))
    (hstep : ∀ s0 s' i a y k, y ∈ xs → Quiet s s0 → s0.heap.length = i → Quiet s0 s' → e < i → s'.heap[i]? = some ⟨F a, some e⟩ → Sc s'.heap i (F a ++ L) →
      ∃ w s'', callFn W (.lam [x] "" (vlist body) .nil false i) [y] k s' = .ok w s'' ∧ Loc s0 i s' s'' ∧ s''.heap[i]? = some ⟨F (step a y), some e⟩)
    (hz : ∀ s' i, Quiet s s' → Sc s'.heap i (F (xs.foldl step a0) ++ L) → G W s' i z v) :
    G W s e (vlist [.atom "let", vlist bs, .cons (.atom "foreach") (vlist (.atom x :: lx :: body)), z]) v := by
  intro s3 hq3
  have hs3 := hs.mono hq3.heap
  have hb3 := hcc.mono hq3.heap
  generalize hfx : Val.cons (.atom "foreach") (vlist (.atom x :: lx :: body)) = fx
  have h1 := eval_sform W .let_ [vlist bs, fx, z] e s3 (hs3.notMacro_sf hl known_let)
  let s4 : St := { s3 with heap := s3.heap ++ [⟨[], some e⟩] }
  have q4 : Quiet s3 s4 := (Quiet.refl s3).grow (List.prefix_append _ _)
  obtain ⟨s5, e5, q5, f5⟩ := (hgb s3 hq3).run s3 s4 s3.heap.length [] (some e) (.refl _) q4 (Nat.le_refl _) (by simp [s4])
  generalize hi : s3.heap.length = i at *
  have hei : e < i := by rw [← hi]; exact hs3.lt
  have f5' : s5.heap[i]? = some ⟨F a0, some e⟩ := by rw [hF] at f5; exact f5
  have hs5 : Sc s5.heap i (F a0 ++ L) := .frame f5' hei (hs3.mono q5.heap)
  have hb5 := hb3.mono q5.heap
  obtain ⟨s6, q6, e6⟩ := Becomes.foreach (W := W) (x := .atom x) (l := lx) (body := body) hs5 (hp _) (.core hb5 (hc2 _)) (hn _).1 s5 (.refl _)
  have hs6 := hs5.mono q6.heap
  have hargs : GA W s6 i [.cons (.atom "lambda") (.cons (vlist [.atom x]) (vlist body)), lx] [.lam [x] "" (vlist body) .nil false i, vlist xs] :=
    .two (.lambda (a := vlist [.atom x]) (body := body) hs6 (hn _).2.2 known_lambda fun s' => hlam i s') (hlx _ _ (hq3.trans (q5.trans q6)) hs6)
  obtain ⟨s7, e7, q7⟩ := hargs.evals s6 (.refl _)
  have q37 := (q5.trans q6).trans q7
  obtain ⟨w, s8, e8, l8, i8⟩ := map_local (W := W) (s0 := s3) (f := .lam [x] "" (vlist body) .nil false i) hb3 (i := i) rfl
    (fun s rest => ∃ done, xs = done ++ rest ∧ s.heap[i]? = some ⟨F (done.foldl step a0), some e⟩)
    (fun s s' rest hq => fun ⟨done, h1, h2⟩ => ⟨done, h1, prefix_get hq.heap h2⟩)
    (by
      rintro s' y rest k hqs ⟨done, hxs, hf⟩
      obtain ⟨w, s'', h1, h2, h3⟩ := hstep s3 s' i _ y k (by simp [hxs]) hq3 hi hqs hei hf (.frame hf hei (hs3.mono hqs.heap))
      exact ⟨w, s'', h1, h2, done ++ [y], by simp [hxs], by rw [h3, List.foldl_append]; rfl⟩)
    xs s7 i (Nat.lt_of_lt_of_le hs6.lt q7.heap.length_le) q37 ⟨[], rfl, prefix_get (q6.trans q7).heap f5'⟩
  obtain ⟨done, hd, f8⟩ := i8
  rw [List.append_nil] at hd
  subst hd
  have hfor : eval W fx i s5 = .ok w s8 := by
    rw [← hfx]
    exact e6.trans (eval_callCore (xs := [_, _]) hs6 (hn _).2.1 hd_map (fun _ _ h => by subst h; exact e7) e8)
  have hs8 : Sc s8.heap i (F (xs.foldl step a0) ++ L) := .frame f8 hei (hs3.mono l8.1.heap)
  obtain ⟨s9, e9, q9⟩ := hz s8 i (hq3.trans l8.1) hs8 s8 (.refl _)
  refine ⟨s9, h1.trans ?_, l8.1.trans q9⟩
  subst hi
  refine (evLet_run (bs := vlist bs) (body := vlist [fx, z]) (isList_vlist _) rfl e5).trans ?_
  exact (evBodyTail_ok (xs := [fx]) (.cons hfor .nil)).trans e9

/-! ### Definitions -/

/-- What meta.l1 defines, and the names it uses. -/
def metaDefs : List (String × Val) := [("frequencies", m_frequencies), ("clear-dup-keys", m_clear_dup_keys), ("increment-key", m_increment_key), ("assoc", m_assoc), ("member", m_member),
  ("COLON", .atom ":"), ("TAB", .atom "\t")]

/-- The definitions of meta.l1 are in place, and `caar` is not redefined. -/
structure MetaAt (h : Heap) : Prop where
  prog : Prog h metaDefs
  caar : lookup h 0 "caar" = none

theorem MetaAt.mono {h h' : Heap} (hp : MetaAt h) (hh : h <+: h') : MetaAt h' :=
  ⟨hp.prog.mono hh, (hp.prog.core.nested.lookup_prefix hh _).trans hp.caar⟩

theorem m_assoc_eq : m_assoc = s_assoc := rfl

theorem me_assoc {s : St} (hp : MetaAt s.heap) (x : Val) (ps : List (Val × Val)) : Returns W s m_assoc [x, pairList ps] (firstPair x ps) := by
  rw [m_assoc_eq]
  exact ret_assoc rfl (by decide) x ps hp.prog hp.caar

theorem find_true (x : Val) (xs : List Val) : (((xs.map fun y => vBool (x.equal y)).find? (· ≠ .nil)).getD .nil) = vBool (xs.any fun y => x.equal y) := by
  induction xs with
  | nil => rfl
  | cons y ys ih =>
    rw [List.map_cons, List.any_cons]
    cases h : x.equal y
    · rw [List.find?_cons_of_neg (by simp [vBool]), ih]; rfl
    · rfl

theorem me_member {s : St} (hp : MetaAt s.heap) (x : Val) (xs : List Val) : Returns W s m_member [x, vlist xs] (vBool (xs.any fun y => x.equal y)) := by
  refine .lam rfl (by decide) hp.prog.sc fun s1 e1 hq hs => fun s2 hq2 => ?_
  have hs2 := hs.mono hq2.heap
  have hp2 := hp.mono (hq.trans hq2).heap
  obtain ⟨s3, q3, e3⟩ := core_call (W := W) (xs := [_, _]) hs2 rfl hd_partial (.two (.core (a := "=") hs2 rfl hd_eq.val hd_eq.cxr hd_eq.t) (.v (a := "x") hs2 rfl rfl))
  have hc3 := (hp2.mono q3.heap).prog.core.base
  have e3' := e3.trans (partial_run hc3 _ _ _)
  have q4 := Quiet.callSt s3 0 ["f"] "args" [.bi .eq, x]
  have hs4 := (hs2.mono q3.heap).mono q4.heap
  have hsp : Sc (callSt s3 0 ["f"] "args" [.bi .eq, x]).heap s3.heap.length (paramSyms ["f"] "args" [.bi .eq, x] ++ []) := Sc.callSt (.base hc3) _ _ _
  have hc4 := hc3.mono q4.heap
  have hr : ∀ y, Returns W (callSt s3 0 ["f"] "args" [.bi .eq, x]) (partialFn s3.heap.length) [y] (vBool (x.equal y)) := fun y => by
    refine .lam (by simp [ArityOk]) (by decide) hsp fun s5 e5 hq5 hs5 => ?_
    have h3 := ret_concat_lists (W := W) (hc4.mono hq5.heap) [[x], [y]]
    exact .fn hs5 rfl hd_apply (.two (.v hs5 rfl rfl) (.fn hs5 rfl hd_concat (.two (.v hs5 rfl rfl) (.v hs5 rfl rfl)) h3))
      (Returns.apply (as := []) (.bi fun _ _ _ => by simp [biFn, bEq]))
  obtain ⟨s6, e6, q6⟩ := ret_some (W := W) hc4 (f := partialFn s3.heap.length) rfl xs (fun y _ => hr y) (callSt s3 0 ["f"] "args" [.bi .eq, x]) e1 (.refl _)
  rw [find_true] at e6
  refine ⟨s6, ?_, (q3.trans q4).trans q6⟩
  refine eval_callCore (xs := [_, _]) hs2 rfl hd_some (fun _ _ h => by subst h; exact .cons e3' (.cons (eval_atom_bound (by decide) (by decide) (hs4.lookup_some rfl)) .nil)) e6

/-! ### Counting -/

/-- The pairs `frequencies` collects, newest first, for the elements so far, newest first: each with the number of its earlier occurrences. -/
def history : List Val → List (Val × Val)
  | [] => []
  | x :: r => (x, .num ((r.count x : Nat) : Int)) :: history r

theorem firstPair_history {x : Val} (hx : IsData x) (r : List Val) :
    firstPair x (history r) = if x ∈ r then .cons x (.num ((r.count x - 1 : Nat) : Int)) else .nil := by
  induction r with
  | nil => rfl
  | cons y r ih =>
    simp only [history, firstPair]
    by_cases h : x = y
    · subst h
      rw [if_pos ((equal_iff _ _).2 ⟨rfl, hx⟩), if_pos (by simp)]
      simp
    · rw [if_neg (fun h' => h ((equal_iff _ _).1 h').1), ih]
      have h2 : (x ∈ y :: r) ↔ x ∈ r := by simp [h]
      simp only [h2]
      rw [List.count_cons_of_ne (fun h' => h h'.symm)]

theorem me_increment_key {s : St} (hp : MetaAt s.heap) {x : Val} (hx : IsData x) (r : List Val) : Returns W s m_increment_key [x, pairList (history r)] (pairList (history (x :: r))) := by
  refine .lam rfl (by decide) hp.prog.sc fun s1 e1 hq hs => ?_
  have hp1 := hp.mono hq.heap
  refine .let1 hs rfl known_let (.cons (by decide) (.user (xs := [_, _]) hs rfl rfl (.two (.v hs rfl rfl) (.v hs rfl rfl)) (me_assoc hp1 x _)) .nil) fun s2 e2 hq2 hs2 => ?_
  rw [firstPair_history hx] at hs2
  by_cases h : x ∈ r
  · rw [if_pos h] at hs2
    have hc : r.count x ≠ 0 := by rw [Ne, List.count_eq_zero]; simpa using h
    have hinc := ret_inc (W := W) (hp1.mono hq2.heap).prog.core.base (r.count x - 1 : Nat)
    rw [show (((r.count x - 1 : Nat) : Int) + 1) = ((r.count x : Nat) : Int) by omega] at hinc
    exact .ifNotF hs2 (plain_of rfl) (.v hs2 rfl rfl) (by simp) (.cons hs2 rfl (.cons hs2 rfl (.v hs2 rfl rfl) (.fn hs2 rfl hd_inc (.one (.cdr hs2 rfl (.v hs2 rfl rfl))) hinc)) (.v hs2 rfl rfl))
  · rw [if_neg h] at hs2
    have hc : r.count x = 0 := List.count_eq_zero.2 h
    have : G W s2 e2 (vlist [.atom "cons", vlist [.atom "cons", .atom "k", .num 0], .atom "pairs"]) (pairList (history (x :: r))) := by
      show G W s2 e2 _ (.cons (.cons x (.num ((r.count x : Nat) : Int))) (pairList (history r)))
      rw [hc]
      exact .cons hs2 rfl (.cons hs2 rfl (.v hs2 rfl rfl) (.num _ _ _)) (.v hs2 rfl rfl)
    exact .ifNotT hs2 (plain_of rfl) (.v hs2 rfl rfl) this

/-- The pairs `clear-dup-keys` keeps: the first one for each key. -/
def keepFirst (seen : List Val) : List (Val × Val) → List (Val × Val)
  | [] => []
  | p :: ps => if p.1 ∈ seen then keepFirst seen ps else p :: keepFirst (p.1 :: seen) ps

/-- One turn of the loop of `clear-dup-keys`. -/
def keepStep (a : List Val × List (Val × Val)) (p : Val × Val) : List Val × List (Val × Val) := if p.1 ∈ a.1 then a else (p.1 :: a.1, p :: a.2)

theorem foldl_keep (ps : List (Val × Val)) : ∀ a : List Val × List (Val × Val), (ps.foldl keepStep a).2 = (keepFirst a.1 ps).reverse ++ a.2 := by
  induction ps with
  | nil => intro a; rfl
  | cons p ps ih =>
    intro a
    rw [List.foldl_cons, ih, keepFirst]
    unfold keepStep
    split <;> simp

theorem owner_three {h : Heap} {e k i : Nat} {n : String} {syms : List (String × Val)} {f : Frame} {v : Val} (h1 : h[e]? = some ⟨[], some k⟩) (h2 : h[k]? = some ⟨syms, some i⟩)
    (h3 : h[i]? = some f) (hk : k < e) (hi : i < k) (hs : alGet n syms = none) (hv : alGet n f.syms = some v) : owner h e n = some i := by
  obtain ⟨e, rfl⟩ : ∃ e', e = e' + 1 + 1 := ⟨e - 2, by omega⟩
  unfold owner
  simp [ownerAux, h1, h2, h3, hv, hs, alGet]

/-- The variables of the `let` of `clear-dup-keys`. -/
def keepVars (a : List Val × List (Val × Val)) : List (String × Val) := [("seen", vlist a.1), ("ret", pairList a.2)]

/-- A pair as a value. -/
def unpair : Val → Val × Val
  | .cons a d => (a, d)
  | v => (v, v)

theorem foldl_unpair {α : Type} (f : α → Val × Val → α) (ps : List (Val × Val)) : ∀ a, (ps.map fun p => Val.cons p.1 p.2).foldl (fun a y => f a (unpair y)) a = ps.foldl f a := by
  induction ps with
  | nil => intro a; rfl
  | cons p ps ih => intro a; exact ih _

theorem me_keep_step {s0 s' : St} {i e k : Nat} {ps0 : Val} (hp : MetaAt s'.heap) (a : List Val × List (Val × Val)) (x w : Val) (hx : IsData x) (hi : s0.heap.length = i) (hq : Quiet s0 s')
    (hei : e < i) (hf : s'.heap[i]? = some ⟨keepVars a, some e⟩) (hs : Sc s'.heap i (keepVars a ++ (paramSyms ["pairs"] "" [ps0] ++ metaDefs)))
    (hse : Sc s0.heap e (paramSyms ["pairs"] "" [ps0] ++ metaDefs)) :
    ∃ r s'', callFn W (.lam ["p"] "" (vlist [vlist [.atom "when-not", vlist [.atom "member", vlist [.atom "car", .atom "p"], .atom "seen"],
        vlist [.atom "set!", .atom "seen", vlist [.atom "cons", vlist [.atom "car", .atom "p"], .atom "seen"]], vlist [.atom "set!", .atom "ret", vlist [.atom "cons", .atom "p", .atom "ret"]]]]) .nil false i)
      [.cons x w] k s' = .ok r s'' ∧ Loc s0 i s' s'' ∧ s''.heap[i]? = some ⟨keepVars (keepStep a (x, w)), some e⟩ := by
  have hil : i < s'.heap.length := hs.lt
  let t1 : St := callSt s' i ["p"] "" [.cons x w]
  have qt1 : Quiet s' t1 := (Quiet.refl s').grow (List.prefix_append _ _)
  have ft1 : t1.heap[s'.heap.length]? = some ⟨[("p", .cons x w)], some i⟩ := by simp [t1, callSt, paramSyms, alSet]
  have hst1 : Sc t1.heap s'.heap.length ([("p", .cons x w)] ++ (keepVars a ++ (paramSyms ["pairs"] "" [ps0] ++ metaDefs))) := .frame ft1 hil (hs.mono qt1.heap)
  have hb1 := (hp.mono qt1.heap).prog.core.base
  have hmem : G W t1 s'.heap.length (vlist [.atom "member", vlist [.atom "car", .atom "p"], .atom "seen"]) (vBool (a.1.any fun y => x.equal y)) :=
    .user (xs := [_, _]) hst1 rfl rfl (.two (.car hst1 rfl (.v hst1 rfl rfl)) (.v hst1 rfl rfl)) (me_member (hp.mono qt1.heap) x a.1)
  have hany : (a.1.any fun y => x.equal y) = decide (x ∈ a.1) := by
    rw [Bool.eq_iff_iff]
    simp only [List.any_eq_true, decide_eq_true_eq, equal_iff]
    exact ⟨fun ⟨y, h1, h2, _⟩ => h2 ▸ h1, fun h => ⟨x, h, rfl, hx⟩⟩
  rw [hany] at hmem
  have hcall := fun (b : List Val) (r : Res Val) (h : eval W (.cons (.atom "when-not") (vlist b)) s'.heap.length t1 = r) =>
    (callFn_lam (W := W) (ps := ["p"]) (r := "") (vs := [.cons x w]) (x := .cons (.atom "when-not") (vlist b)) (doc := .nil) (m := false) (cenv := i) rfl (by decide) k s').trans h
  by_cases hxa : x ∈ a.1
  · rw [decide_eq_true hxa] at hmem
    have hg : G W t1 s'.heap.length (.cons (.atom "when-not") (vlist [vlist [.atom "member", vlist [.atom "car", .atom "p"], .atom "seen"],
        vlist [.atom "set!", .atom "seen", vlist [.atom "cons", vlist [.atom "car", .atom "p"], .atom "seen"]], vlist [.atom "set!", .atom "ret", vlist [.atom "cons", .atom "p", .atom "ret"]]])) .nil :=
      .whenNot hst1 (plain_of rfl) (.core hb1 rfl) (.whenF (xs := [_, _]) hst1 (plain_of rfl) (.core hb1 rfl) (.not_cons hst1 rfl hmem (by simp [vBool, vTrue])))
    obtain ⟨t2, e2, q2⟩ := hg t1 (.refl _)
    refine ⟨.nil, t2, hcall _ _ e2, .quiet hq (qt1.trans q2), ?_⟩
    rw [keepStep, if_pos hxa]
    exact prefix_get (qt1.trans q2).heap hf
  · rw [decide_eq_false hxa] at hmem
    obtain ⟨t2, q2, e2⟩ := Becomes.whenNot (W := W) (c := vlist [.atom "member", vlist [.atom "car", .atom "p"], .atom "seen"])
      (xs := [vlist [.atom "set!", .atom "seen", vlist [.atom "cons", vlist [.atom "car", .atom "p"], .atom "seen"]], vlist [.atom "set!", .atom "ret", vlist [.atom "cons", .atom "p", .atom "ret"]]])
      hst1 (plain_of rfl) (.core hb1 rfl) t1 (.refl _)
    have hs2 := hst1.mono q2.heap
    have hb2 := hb1.mono q2.heap
    obtain ⟨t3, q3, e3⟩ := when_run (W := W) (c := vlist [.atom "not", vlist [.atom "member", vlist [.atom "car", .atom "p"], .atom "seen"]]) (w := .atom "t")
      (xs := [vlist [.atom "set!", .atom "seen", vlist [.atom "cons", vlist [.atom "car", .atom "p"], .atom "seen"]], vlist [.atom "set!", .atom "ret", vlist [.atom "cons", .atom "p", .atom "ret"]]])
      hs2 (plain_of rfl) (.core hb2 rfl) (.not_nil hs2 rfl (hmem.mono q2)) (by simp) (by simp)
    let t4 : St := { t3 with heap := t3.heap ++ [⟨[], some s'.heap.length⟩] }
    have q4 : Quiet t3 t4 := (Quiet.refl t3).grow (List.prefix_append _ _)
    have q14 := q2.trans (q3.trans q4)
    have f4 : t4.heap[t3.heap.length]? = some ⟨[], some s'.heap.length⟩ := by simp [t4]
    have h13 : s'.heap.length < t3.heap.length := Nat.lt_of_lt_of_le hst1.lt (q2.trans q3).heap.length_le
    have hs4 : Sc t4.heap t3.heap.length ([] ++ ([("p", .cons x w)] ++ (keepVars a ++ (paramSyms ["pairs"] "" [ps0] ++ metaDefs)))) := .frame f4 h13 (hst1.mono q14.heap)
    obtain ⟨t5, q5, e5⟩ := set_run (W := W) (o := i) (n := "seen") (x := vlist [.atom "cons", vlist [.atom "car", .atom "p"], .atom "seen"]) (v := vlist (x :: a.1)) hs4 rfl
      (.cons hs4 rfl (.car hs4 rfl (.v hs4 rfl rfl)) (.v hs4 rfl rfl)) (by decide)
      (fun t qt => owner_three (prefix_get qt.heap f4) (prefix_get (q14.trans qt).heap ft1) (prefix_get ((qt1.trans q14).trans qt).heap hf) h13 hil rfl rfl)
    let t6 : St := { t5 with heap := heapSet t5.heap i "seen" (vlist (x :: a.1)) }
    have q05 := hq.trans (qt1.trans (q14.trans q5))
    have l6 : Loc s0 i t5 t6 := .set (by omega) q05 _ _
    have f6 : t6.heap[i]? = some ⟨keepVars (x :: a.1, a.2), some e⟩ := (heapSet_at (prefix_get ((qt1.trans q14).trans q5).heap hf)).trans (by simp [keepVars, alSet])
    have fp6 : t6.heap[s'.heap.length]? = some ⟨[("p", .cons x w)], some i⟩ := l6.2.2 _ _ (by omega) (prefix_get (q14.trans q5).heap ft1)
    have fe6 : t6.heap[t3.heap.length]? = some ⟨[], some s'.heap.length⟩ := l6.2.2 _ _ (by omega) (prefix_get q5.heap f4)
    have hs6 : Sc t6.heap t3.heap.length ([] ++ ([("p", .cons x w)] ++ (keepVars (x :: a.1, a.2) ++ (paramSyms ["pairs"] "" [ps0] ++ metaDefs)))) :=
      .frame fe6 h13 (.frame fp6 hil (.frame f6 hei (hse.mono l6.1.heap)))
    obtain ⟨t7, q7, e7⟩ := set_run (W := W) (o := i) (n := "ret") (x := vlist [.atom "cons", .atom "p", .atom "ret"]) (v := pairList ((x, w) :: a.2)) hs6 rfl
      (.cons hs6 rfl (.v hs6 rfl rfl) (.v hs6 rfl rfl)) (by decide)
      (fun t qt => owner_three (prefix_get qt.heap fe6) (prefix_get qt.heap fp6) (prefix_get qt.heap f6) h13 hil rfl rfl)
    let t8 : St := { t7 with heap := heapSet t7.heap i "ret" (pairList ((x, w) :: a.2)) }
    have l8 : Loc s0 i t7 t8 := .set (by omega) (l6.1.trans q7) _ _
    refine ⟨pairList ((x, w) :: a.2), t8, ?_, ?_, ?_⟩
    · refine hcall [_, _, _] _ ?_
      exact e2.trans (e3.trans ((evBodyTail_ok (xs := [_]) (.cons e5 .nil)).trans e7))
    · exact (Loc.quiet hq (qt1.trans (q14.trans q5))).trans (l6.trans ((Loc.quiet l6.1 q7).trans l8))
    · rw [keepStep, if_neg hxa]
      exact (heapSet_at (prefix_get q7.heap f6)).trans (by simp [keepVars, alSet])

theorem me_clear_dup_keys {s : St} (hp : MetaAt s.heap) (ps : List (Val × Val)) (hd : ∀ p ∈ ps, IsData p.1) :
    Returns W s m_clear_dup_keys [pairList ps] (pairList (keepFirst [] ps).reverse) := by
  refine .lam rfl (by decide) hp.prog.sc fun s1 e1 hq hs => ?_
  have hp1 := hp.mono hq.heap
  refine G.letForeach (F := keepVars) (step := fun a y => keepStep a (unpair y)) (a0 := ([], [])) (xs := ps.map fun p => .cons p.1 p.2) hs rfl (fun a => plain_of rfl) hp1.prog.core.base (fun _ => rfl)
    (fun _ => ⟨rfl, rfl, rfl⟩) (fun _ _ => rfl) (fun s' _ => .cons (by decide) (.nil _ _) (.cons (by decide) (.nil _ _) .nil)) rfl (fun s' i _ hs' => .v hs' rfl rfl) ?_ ?_
  · intro s0 s' i a y k hy hq0 hi hq' hei hf hs'
    obtain ⟨p, hp', rfl⟩ := List.mem_map.1 hy
    exact me_keep_step ((hp1.mono hq0.heap).mono hq'.heap) a p.1 p.2 (hd p hp') hi hq' hei hf hs' (hs.mono hq0.heap)
  · intro s' i hq' hs'
    rw [foldl_unpair] at hs'
    have h := foldl_keep ps ([], [])
    generalize ps.foldl keepStep ([], []) = b at hs' h
    rw [List.append_nil] at h
    rw [← h]
    exact .v hs' rfl rfl

/-! ### The result -/

/-- The different elements, in the order of their first occurrences. -/
def firstOnes (seen : List Val) : List Val → List Val
  | [] => []
  | x :: xs => if x ∈ seen then firstOnes seen xs else x :: firstOnes (x :: seen) xs

theorem firstOnes_mem {seen xs : List Val} {x : Val} (h : x ∈ firstOnes seen xs) : x ∉ seen := by
  induction xs generalizing seen with
  | nil => cases h
  | cons y ys ih =>
    rw [firstOnes] at h
    split at h
    · exact ih h
    · rcases List.mem_cons.1 h with rfl | h
      · assumption
      · exact fun hx => ih h (List.mem_cons_of_mem _ hx)

theorem keepFirst_history (r : List Val) : ∀ seen, keepFirst seen (history r) = (firstOnes seen r).map fun x => (x, .num ((r.count x - 1 : Nat) : Int)) := by
  induction r with
  | nil => intro seen; rfl
  | cons y r ih =>
    intro seen
    simp only [history, keepFirst, firstOnes]
    have hne : ∀ {sn : List Val} {x : Val}, y ∈ sn → x ∈ firstOnes sn r → (x, Val.num ((r.count x - 1 : Nat) : Int)) = (x, .num (((y :: r).count x - 1 : Nat) : Int)) := by
      intro sn x h1 h2
      have hxy : y ≠ x := fun h => firstOnes_mem h2 (by rw [← h]; exact h1)
      rw [List.count_cons_of_ne hxy]
    split
    · rename_i h
      rw [ih]
      exact List.map_congr_left fun x hx => hne h hx
    · rw [ih, List.map_cons]
      congr 1
      · simp
      · exact List.map_congr_left fun x hx => hne (by simp) hx

theorem firstOnes_snoc (r : List Val) (x : Val) : ∀ seen, firstOnes seen (r ++ [x]) = firstOnes seen r ++ (if x ∈ seen ∨ x ∈ r then [] else [x]) := by
  induction r with
  | nil => intro seen; by_cases h : x ∈ seen <;> simp [firstOnes, h]
  | cons y r ih =>
    intro seen
    rw [List.cons_append, firstOnes, firstOnes]
    split
    · rename_i h
      rw [ih]
      congr 1
      have : (x ∈ seen ∨ x ∈ r) ↔ (x ∈ seen ∨ x ∈ y :: r) := by
        simp only [List.mem_cons]
        constructor
        · rintro (h | h) <;> simp [h]
        · rintro (h' | rfl | h') <;> simp_all
      simp only [this]
    · rw [ih, List.cons_append]
      congr 2
      have : (x ∈ y :: seen ∨ x ∈ r) ↔ (x ∈ seen ∨ x ∈ y :: r) := by simp only [List.mem_cons]; tauto
      simp only [this]

theorem firstOnes_reverse (l : List Val) : (firstOnes [] l.reverse).reverse = lastOnes l := by
  induction l with
  | nil => rfl
  | cons x l ih =>
    rw [List.reverse_cons, firstOnes_snoc, List.reverse_append, ih, lastOnes]
    by_cases h : x ∈ l <;> simp [h]

/-- The pairs of `repetitions` as values. -/
def countPairs (ps : List (Val × Nat)) : List (Val × Val) := ps.map fun p => (p.1, .num p.2)

theorem keepFirst_repetitions (l : List Val) : (keepFirst [] (history l.reverse)).reverse = countPairs (repetitions l) := by
  rw [keepFirst_history, ← List.map_reverse, firstOnes_reverse, countPairs, repetitions, List.map_map]
  simp [Function.comp_def]

def stateVars (r : List Val) : List (String × Val) := [("state", pairList (history r))]

theorem history_keys (r : List Val) (h : ∀ x ∈ r, IsData x) : ∀ p ∈ history r, IsData p.1 := by
  induction r with
  | nil => intro p hp; cases hp
  | cons x r ih =>
    intro p hp
    rcases List.mem_cons.1 hp with rfl | hp
    · exact h x (by simp)
    · exact ih (fun y hy => h y (by simp [hy])) p hp

/-- `frequencies`. -/
theorem me_frequencies {s : St} (hp : MetaAt s.heap) (l : List Val) (hd : ∀ x ∈ l, IsData x) : Returns W s m_frequencies [vlist l] (pairList (countPairs (repetitions l))) := by
  refine .lam rfl (by decide) hp.prog.sc fun s1 e1 hq hs => ?_
  have hp1 := hp.mono hq.heap
  refine G.letForeach (F := stateVars) (step := fun r y => y :: r) (a0 := []) (xs := l) hs rfl (fun a => plain_of rfl) hp1.prog.core.base (fun _ => rfl)
    (fun _ => ⟨rfl, rfl, rfl⟩) (fun _ _ => rfl) (fun s' _ => .cons (by decide) (.nil _ _) .nil) rfl (fun s' i _ hs' => .v hs' rfl rfl) ?_ ?_
  · intro s0 s' i r x k hx hq0 hi hq' hei hf hs'
    have hp' := (hp1.mono hq0.heap).mono hq'.heap
    have hil : i < s'.heap.length := hs'.lt
    let t1 : St := callSt s' i ["x"] "" [x]
    have qt1 : Quiet s' t1 := (Quiet.refl s').grow (List.prefix_append _ _)
    have ft1 : t1.heap[s'.heap.length]? = some ⟨[("x", x)], some i⟩ := by simp [t1, callSt, paramSyms, alSet]
    have hst1 : Sc t1.heap s'.heap.length ([("x", x)] ++ (stateVars r ++ (paramSyms ["l"] "" [vlist l] ++ metaDefs))) := .frame ft1 hil (hs'.mono qt1.heap)
    obtain ⟨t2, q2, e2⟩ := set_run (W := W) (o := i) (n := "state") (x := vlist [.atom "increment-key", .atom "x", .atom "state"]) (v := pairList (history (x :: r))) hst1 rfl
      (.user (xs := [_, _]) hst1 rfl rfl (.two (.v hst1 rfl rfl) (.v hst1 rfl rfl)) (me_increment_key (hp'.mono qt1.heap) (hd x hx) r)) (by decide)
      (fun t qt => owner_one (prefix_get qt.heap ft1) (prefix_get (qt1.trans qt).heap hf) hil rfl rfl)
    refine ⟨pairList (history (x :: r)), { t2 with heap := heapSet t2.heap i "state" (pairList (history (x :: r))) }, ?_, ?_, ?_⟩
    · exact (callFn_lam (W := W) (ps := ["x"]) (r := "") (vs := [x]) (doc := .nil) (m := false) (cenv := i) rfl (by decide) k s').trans e2
    · exact (Loc.quiet hq' (qt1.trans q2)).trans (.set (by omega) (hq'.trans (qt1.trans q2)) _ _)
    · exact (heapSet_at (prefix_get (qt1.trans q2).heap hf)).trans (by simp [stateVars, alSet])
  · intro s' i hq' hs'
    have hrev : l.foldl (fun r y => y :: r) [] = l.reverse := by rw [List.foldl_eq_foldr_reverse]; simp
    rw [hrev] at hs'
    have h := me_clear_dup_keys (W := W) (hp1.mono hq'.heap) (history l.reverse) (history_keys _ fun x hx => hd x (List.mem_reverse.1 hx))
    rw [keepFirst_repetitions] at h
    exact .user (xs := [_]) hs' rfl rfl (.one (.v hs' rfl rfl)) h

end L1
