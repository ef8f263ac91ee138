import Verif.Lemmas.Meta
import Verif.Lemmas.SenScript
import Verif.Props.SortBy
/-
The report of examples/meta.l1.
-/
set_option autoImplicit false
namespace L1

variable {W : World}

/-! ### Writing in a loop -/

/-- The scopes are kept and a text is written. -/
structure Says (s s' : St) (t : List Char) : Prop where
  heap : s.heap <+: s'.heap
  wrote : Wrote s s' t

theorem Says.trans {a b c : St} {t u : List Char} (h : Says a b t) (h' : Says b c u) : Says a c (t ++ u) := ⟨h.heap.trans h'.heap, h.wrote.trans h'.wrote⟩

theorem Quiet.says {s s' : St} (h : Quiet s s') : Says s s' [] := ⟨h.heap, h.wrote⟩

theorem Says.quiet {a b c : St} {t : List Char} (h : Says a b t) (h' : Quiet b c) : Says a c t := by
  have := h.trans h'.says
  rwa [List.append_nil] at this

theorem Says.before {a b c : St} {t : List Char} (h' : Quiet a b) (h : Says b c t) : Says a c t := by
  have := h'.says.trans h
  rwa [List.nil_append] at this

/-- `map` with a function that writes. -/
theorem map_says {f : Val} (hm : f.notMacro = true) {t : Val → List Char} (xs : List Val) :
    ∀ (s : St) (e : Nat), Base s.heap 0 → (∀ s', s.heap <+: s'.heap → ∀ x ∈ xs, ∀ e', ∃ y s'', callFn W f [x] e' s' = .ok y s'' ∧ Says s' s'' (t x)) →
      ∃ v s', callFn W k_map [f, vlist xs] e s = .ok v s' ∧ Says s s' (xs.flatMap t) := by
  induction xs with
  | nil =>
    intro s e hb _
    have hr : Returns W s k_map [f, .nil] .nil := ret_map (g := id) hb hm [] (by simp)
    obtain ⟨s', e', q'⟩ := hr s e (.refl _)
    exact ⟨.nil, s', e', q'.says⟩
  | cons x xs ih =>
    intro s e hb hstep
    have h0 : Sc s.heap 0 [] := .base hb
    let s1 : St := callSt s 0 ["f", "l"] "" [f, vlist (x :: xs)]
    have q1 : Quiet s s1 := (Quiet.refl s).grow (List.prefix_append _ _)
    have f1 : s1.heap[s.heap.length]? = some ⟨[("f", f), ("l", vlist (x :: xs))], some 0⟩ := by simp [s1, callSt, paramSyms, alSet]
    have hs1 : Sc s1.heap s.heap.length ([("f", f), ("l", vlist (x :: xs))] ++ []) := .frame f1 h0.lt (h0.mono q1.heap)
    obtain ⟨s2, q2, e2⟩ := when_run (W := W) (c := .atom "l") (w := vlist (x :: xs)) (xs := [vlist [.atom "cons", vlist [.atom "f", vlist [.atom "car", .atom "l"]],
      vlist [.atom "map", .atom "f", vlist [.atom "cdr", .atom "l"]]]]) hs1 (plain_of rfl) (.core (hb.mono q1.heap) rfl) (.v hs1 rfl rfl) (by simp) (by simp)
    let s3 : St := { s2 with heap := s2.heap ++ [⟨[], some s.heap.length⟩] }
    have q3 : Quiet s2 s3 := (Quiet.refl s2).grow (List.prefix_append _ _)
    have q13 := q2.trans q3
    have hke : s.heap.length < s2.heap.length := Nat.lt_of_lt_of_le hs1.lt q2.heap.length_le
    have f3 : s3.heap[s2.heap.length]? = some ⟨[], some s.heap.length⟩ := by simp [s3]
    have hs3 : Sc s3.heap s2.heap.length ([] ++ ([("f", f), ("l", vlist (x :: xs))] ++ [])) := .frame f3 hke (hs1.mono q13.heap)
    have hcar : G W s3 s2.heap.length (vlist [.atom "car", .atom "l"]) x := .car hs3 rfl (.v hs3 rfl rfl)
    obtain ⟨s4, e4, q4⟩ := hcar s3 (.refl _)
    have q04 := (q1.trans q13).trans q4
    obtain ⟨y, s5, e5, l5⟩ := hstep s4 q04.heap x (by simp) s2.heap.length
    have hfcall : eval W (vlist [.atom "f", vlist [.atom "car", .atom "l"]]) s2.heap.length s3 = .ok y s5 :=
      eval_callVar (s2 := s3) (xs := [_]) hs3 rfl hm rfl rfl (by decide) (.cons e4 .nil) e5
    have hs5 : Sc s5.heap s2.heap.length ([] ++ ([("f", f), ("l", vlist (x :: xs))] ++ [])) := hs3.mono (q4.heap.trans l5.heap)
    have hargs : GA W s5 s2.heap.length [.atom "f", vlist [.atom "cdr", .atom "l"]] [f, vlist xs] := .two (.v hs5 rfl rfl) (.cdr hs5 rfl (.v hs5 rfl rfl))
    obtain ⟨s6, e6, q6⟩ := hargs.evals s5 (.refl _)
    have p06 : s.heap <+: s6.heap := (q04.heap.trans l5.heap).trans q6.heap
    obtain ⟨v, s7, e7, l7⟩ := ih s6 s2.heap.length (hb.mono p06) fun s' h' x hx e' => hstep s' (p06.trans h') x (by simp [hx]) e'
    have hrest : eval W (vlist [.atom "map", .atom "f", vlist [.atom "cdr", .atom "l"]]) s2.heap.length s5 = .ok v s7 :=
      eval_callCore (xs := [_, _]) hs5 rfl hd_map (fun _ _ h => by subst h; exact e6) e7
    refine ⟨.cons y v, s7, ?_, ?_⟩
    · refine (evApply_lam (ps := ["f", "l"]) (r := "") (vs := [f, vlist (x :: xs)]) rfl (by decide)).trans (e2.trans ?_)
      refine (evBodyTail_ok (xs := []) .nil).trans ?_
      refine eval_callCore (xs := [_, _]) hs3 rfl hd_cons (fun _ _ h => by subst h; exact .cons hfcall (.cons hrest .nil)) ?_
      unfold callFn
      simp only [evApply]
      refine extend_ok ?_
      rw [perform_eq]; rfl
    · rw [List.flatMap_cons]
      exact .before q04 (l5.trans (.before q6 l7))

/-- `(printl x)` for a quiet `x`. -/
theorem printl_says {s : St} {e : Nat} {L : List (String × Val)} {x : Val} {xs : List Val} (hs : Sc s.heap e L) (hx : alGet "printl" L = none) (h : G W s e x (vlist xs)) :
    ∃ s', eval W (vlist [.atom "printl", x]) e s = .ok .nil s' ∧ Says s s' ([' '].intercalate (xs.map Val.str) ++ ['\n']) := by
  obtain ⟨s1, h1, h2⟩ := h s (.refl _)
  refine ⟨{ s1 with out := s1.out ++ ([' '].intercalate (xs.map Val.str) ++ ['\n']) }, ?_, h2.heap, by rw [← h2.out], h2.inp, h2.tick, h2.screen⟩
  refine eval_callCore (xs := [_]) hs hx hd_printl (fun s0 _ h0 => by subst h0; exact .cons h1 .nil) (call_bi ?_)
  exact C43_printl W 0 0 e s1 xs

/-! ### The pairs in order -/

theorem sorted_run (hW : W.Sorts) {s : St} {e : Nat} {L : List (String × Val)} {x : Val} {ps : List (Val × Nat)} (hs : Sc s.heap e L) (hb : Base s.heap 0) (h1 : alGet "sort-by" L = none)
    (h2 : alGet "cdr" L = none) (h3 : alGet "reverse" L = none) (h : G W s e x (pairList (countPairs ps))) :
    ∃ ys s', eval W (vlist [.atom "reverse", vlist [.atom "sort-by", .atom "cdr", x]]) e s = .ok (pairList (countPairs ys)) s' ∧ Quiet s s' ∧ ys.Perm ps ∧
      ys.Pairwise fun a b => b.2 ≤ a.2 := by
  have hargs : GA W s e [.atom "cdr", x] [.bi .cdr, pairList (countPairs ps)] := .two (.core (a := "cdr") hs h2 hd_cdr.val hd_cdr.cxr hd_cdr.t) h
  obtain ⟨s1, e1, q1⟩ := hargs.evals s (.refl _)
  obtain ⟨us, s2, e2, q2, hp, hsort⟩ := C56_sorted W hW (fun s' => Quiet s1 s') (.bi .cdr) (fun v => (unpair v).2) ((countPairs ps).map fun p => .cons p.1 p.2) e s1 (.refl _)
    (by
      intro a ha s' hs'
      obtain ⟨p, _, rfl⟩ := List.mem_map.1 ha
      refine ⟨s', ?_, hs'⟩
      rw [perform_apply]
      have : perform W (.builtin .cdr [.cons p.1 p.2] e) s' = .ok p.2 s' := by rw [perform_eq]; rfl
      exact extend_ok this)
    (.inl ⟨ps.map fun p => (p.2 : Int), by simp [countPairs, unpair, Function.comp_def]⟩)
  have hus : ∃ zs : List (Val × Nat), us = (countPairs zs).map (fun p => .cons p.1 p.2) ∧ zs.Perm ps := by
    let g : Val → Val × Nat := fun v => ((unpair v).1, match (unpair v).2 with | .num n => n.toNat | _ => 0)
    refine ⟨us.map g, ?_, ?_⟩
    · rw [countPairs, List.map_map, List.map_map]
      conv => lhs; rw [← List.map_id us]
      refine List.map_congr_left fun u hu => ?_
      obtain ⟨q, hq, rfl⟩ := List.mem_map.1 (hp.subset hu)
      obtain ⟨p, _, rfl⟩ := List.mem_map.1 hq
      simp [g, unpair]
    · have := hp.map g
      rwa [List.map_map, countPairs, List.map_map, show (g ∘ (fun p => Val.cons p.1 p.2)) ∘ (fun p : Val × Nat => (p.1, Val.num p.2)) = id by funext p; simp [g, unpair], List.map_id] at this
  obtain ⟨zs, rfl, hz⟩ := hus
  have hz2 : zs.Pairwise fun a b => a.2 ≤ b.2 := by
    rw [List.pairwise_map, countPairs, List.pairwise_map] at hsort
    exact hsort.imp fun h => by simpa [SortLe, unpair] using h
  have es : eval W (vlist [.atom "sort-by", .atom "cdr", x]) e s = .ok (vlist ((countPairs zs).map fun p => .cons p.1 p.2)) s2 :=
    eval_callCore (xs := [_, _]) hs h1 hd_sort_by (fun _ _ h => by subst h; exact e1) (call_bi (by rw [perform_eq] at e2; exact e2))
  obtain ⟨s3, e3, q3⟩ := ret_reverse (W := W) (hb.mono (q1.trans q2).heap) ((countPairs zs).map fun p => .cons p.1 p.2) s2 e (.refl _)
  refine ⟨zs.reverse, s3, ?_, (q1.trans q2).trans q3, (List.reverse_perm zs).trans hz, List.pairwise_reverse.2 hz2⟩
  rw [show pairList (countPairs zs.reverse) = vlist ((countPairs zs).map fun p => .cons p.1 p.2).reverse by simp [pairList, countPairs, List.map_reverse]]
  exact eval_callCore (xs := [_]) hs h3 hd_reverse (fun _ _ h => by subst h; exact .cons es .nil) e3

/-! ### The report -/

/-- The last form of meta.l1, for a list of forms given by an expression. -/
def reportForm (x : Val) : Val :=
  vlist [.atom "let", vlist [vlist [.atom "fs", x]],
    vlist [.atom "printl", vlist [.atom "syntax-quote", vlist [.atom "There", .atom "are", vlist [.atom "unquote", vlist [.atom "len", .atom "fs"]], .atom "forms", vlist [.atom "unquote", .atom "COLON"]]]],
    vlist [.atom "foreach", .atom "pair", vlist [.atom "reverse", vlist [.atom "sort-by", .atom "cdr", vlist [.atom "frequencies", vlist [.atom "map", .atom "second", .atom "fs"]]]],
      vlist [.atom "printl", vlist [.atom "syntax-quote", vlist [vlist [.atom "unquote", .atom "TAB"], .atom "type", vlist [.atom "unquote", vlist [.atom "car", .atom "pair"]],
        vlist [.atom "unquote", .atom "COLON"], vlist [.atom "unquote", vlist [.atom "cdr", .atom "pair"]]]]]], .nil]

/-- The function of the loop. -/
def lineFn (i : Nat) : Val :=
  .lam ["pair"] "" (vlist [vlist [.atom "printl", vlist [.atom "syntax-quote", vlist [vlist [.atom "unquote", .atom "TAB"], .atom "type", vlist [.atom "unquote", vlist [.atom "car", .atom "pair"]],
        vlist [.atom "unquote", .atom "COLON"], vlist [.atom "unquote", vlist [.atom "cdr", .atom "pair"]]]]]]) .nil false i

theorem meta_report (hW : W.Sorts) {s s1 : St} {x : Val} {ls : List (List Val)} (hp : MetaAt s.heap) (hd : ∀ l ∈ ls, IsData (l.getD 1 .nil))
    (hx : eval W x 0 (withScope s 0) = .ok (vlist (ls.map vlist)) s1) (h1 : (withScope s 0).heap <+: s1.heap) :
    ∃ ys s', eval W (reportForm x) 0 s = .ok .nil s' ∧ ys.Perm (repetitions (ls.map fun l => l.getD 1 .nil)) ∧ (ys.Pairwise fun a b => b.2 ≤ a.2) ∧
      Wrote s1 s' (metaReport ls.length ys) := by
  have hlt : 0 < s.heap.length := hp.prog.core.lt
  let i := s.heap.length
  let s2 : St := { s1 with heap := heapSet s1.heap i "fs" (vlist (ls.map vlist)) }
  have hf1 : s1.heap[i]? = some ⟨[], some 0⟩ := prefix_get h1 (by simp [withScope, i])
  have hf2 : s2.heap[i]? = some ⟨[("fs", vlist (ls.map vlist))], some 0⟩ := heapSet_at hf1
  have h02 : s.heap <+: s2.heap := prefix_heapSet ((List.prefix_append _ _).trans h1) (Nat.le_refl _) _ _
  have hp2 := hp.mono h02
  have hs2 : Sc s2.heap i ([("fs", vlist (ls.map vlist))] ++ metaDefs) := .frame hf2 hlt hp2.prog.sc
  have hlet : eval W (reportForm x) 0 s = evBodyTail (perform W) (perform W) (fun _ => msgList "evaluating let body") i (vlist [
      vlist [.atom "printl", vlist [.atom "syntax-quote", vlist [.atom "There", .atom "are", vlist [.atom "unquote", vlist [.atom "len", .atom "fs"]], .atom "forms", vlist [.atom "unquote", .atom "COLON"]]]],
      vlist [.atom "foreach", .atom "pair", vlist [.atom "reverse", vlist [.atom "sort-by", .atom "cdr", vlist [.atom "frequencies", vlist [.atom "map", .atom "second", .atom "fs"]]]],
      vlist [.atom "printl", vlist [.atom "syntax-quote", vlist [vlist [.atom "unquote", .atom "TAB"], .atom "type", vlist [.atom "unquote", vlist [.atom "car", .atom "pair"]],
        vlist [.atom "unquote", .atom "COLON"], vlist [.atom "unquote", vlist [.atom "cdr", .atom "pair"]]]]]], .nil]) s2 := by
    refine (eval_sform W .let_ [vlist [vlist [.atom "fs", x]], _, _, .nil] 0 s (hp.prog.core.base.notMacro_sf known_let)).trans ?_
    refine evLet_run (bs := vlist [vlist [.atom "fs", x]]) (body := vlist [_, _, .nil]) rfl rfl ?_
    simp only [vlist_cons, vlist_nil, evLetBinds, perform_eval]
    rw [M.bind_ok (extend_ok (show eval W x 0 { s with heap := s.heap ++ [⟨[], some 0⟩] } = _ from hx))]
    have hset : setM i "fs" (vlist (ls.map vlist)) s1 = .ok () s2 := by
      unfold setM; rw [if_neg (by decide)]
    exact M.bind_ok (extend_ok hset)
  have kc : alGet "cons" ([("fs", vlist (ls.map vlist))] ++ metaDefs) = none := rfl
  have kq : alGet "quote" ([("fs", vlist (ls.map vlist))] ++ metaDefs) = none := rfl
  obtain ⟨s3, e3, w3⟩ := printl_says (W := W) (xs := [.atom "There", .atom "are", .num ls.length, .atom "forms", .atom ":"])
    (x := vlist [.atom "syntax-quote", vlist [.atom "There", .atom "are", vlist [.atom "unquote", vlist [.atom "len", .atom "fs"]], .atom "forms", vlist [.atom "unquote", .atom "COLON"]]]) hs2 rfl
    (.template' hs2 (plain_of rfl) rfl (.cons hs2 kc (.quote hs2 kq known_quote) (.cons hs2 kc (.quote hs2 kq known_quote) (.cons hs2 kc
      (by have := G.len (W := W) (x := .atom "fs") (xs := ls.map vlist) hs2 rfl (.v hs2 rfl rfl); rwa [List.length_map] at this)
      (.cons hs2 kc (.quote hs2 kq known_quote) (.cons hs2 kc (.v hs2 rfl rfl) (.nil _ _)))))))
  have hs3 := hs2.mono w3.heap
  have hp3 := hp2.mono w3.heap
  have hb3 := hp3.prog.core.base
  obtain ⟨s4, q4, e4⟩ := Becomes.foreach (W := W) (x := .atom "pair") (l := vlist [.atom "reverse", vlist [.atom "sort-by", .atom "cdr", vlist [.atom "frequencies", vlist [.atom "map", .atom "second", .atom "fs"]]]])
    (body := [vlist [.atom "printl", vlist [.atom "syntax-quote", vlist [vlist [.atom "unquote", .atom "TAB"], .atom "type", vlist [.atom "unquote", vlist [.atom "car", .atom "pair"]],
        vlist [.atom "unquote", .atom "COLON"], vlist [.atom "unquote", vlist [.atom "cdr", .atom "pair"]]]]]]) hs3 (plain_of rfl) (.core hb3 rfl) rfl s3 (.refl _)
  have hs4 := hs3.mono q4.heap
  have hp4 := hp3.mono q4.heap
  have hb4 := hp4.prog.core.base
  obtain ⟨s5, e5, q5⟩ := G.lambda (W := W) (a := vlist [.atom "pair"]) (body := [vlist [.atom "printl", vlist [.atom "syntax-quote", vlist [vlist [.atom "unquote", .atom "TAB"], .atom "type",
    vlist [.atom "unquote", vlist [.atom "car", .atom "pair"]], vlist [.atom "unquote", .atom "COLON"], vlist [.atom "unquote", vlist [.atom "cdr", .atom "pair"]]]]]]) (v := lineFn i) hs4 rfl known_lambda (fun _ => rfl) s4 (.refl _)
  have hs5 := hs4.mono q5.heap
  have hp5 := hp4.mono q5.heap
  have hb5 := hp5.prog.core.base
  have hmap : G W s5 i (vlist [.atom "map", .atom "second", .atom "fs"]) (vlist (ls.map fun l => l.getD 1 .nil)) := by
    have hr : Returns W s5 k_map [k_second, vlist (ls.map vlist)] (vlist ((ls.map vlist).map fun v => ((v.toList?).getD []).getD 1 .nil)) :=
      ret_map hb5 rfl _ fun v hv => by
        obtain ⟨l, _, rfl⟩ := List.mem_map.1 hv
        rw [toList?_vlist]
        exact ret_second hb5 l
    rw [List.map_map, show ((fun v : Val => ((v.toList?).getD []).getD 1 .nil) ∘ vlist) = fun l : List Val => l.getD 1 .nil by funext l; simp [toList?_vlist]] at hr
    exact .fn hs5 rfl hd_map (.two (.core (a := "second") hs5 rfl hd_second.val hd_second.cxr hd_second.t) (.v hs5 rfl rfl)) hr
  obtain ⟨ys, s6, e6, q6, hys, hsort⟩ := sorted_run (W := W) hW (x := vlist [.atom "frequencies", vlist [.atom "map", .atom "second", .atom "fs"]]) hs5 hb5 rfl rfl rfl
    (.user (xs := [_]) hs5 rfl rfl (.one hmap) (me_frequencies hp5 _ fun v hv => by obtain ⟨l, hl, rfl⟩ := List.mem_map.1 hv; exact hd l hl))
  have hs6 := hs5.mono q6.heap
  have hb6 := hb5.mono q6.heap
  obtain ⟨v, s7, e7, w7⟩ := map_says (W := W) (f := lineFn i) rfl (t := fun v => [' '].intercalate ([Val.atom "\t", .atom "type", (unpair v).1, .atom ":", (unpair v).2].map Val.str) ++ ['\n'])
    ((countPairs ys).map fun p => .cons p.1 p.2) s6 i hb6 (by
      intro s' hs' v hv e'
      obtain ⟨p, hp', rfl⟩ := List.mem_map.1 hv
      have hsi := hs6.mono hs'
      let t1 : St := callSt s' i ["pair"] "" [.cons p.1 p.2]
      have qt1 : Quiet s' t1 := (Quiet.refl s').grow (List.prefix_append _ _)
      have ft1 : t1.heap[s'.heap.length]? = some ⟨[("pair", .cons p.1 p.2)], some i⟩ := by simp [t1, callSt, paramSyms, alSet]
      have hst1 : Sc t1.heap s'.heap.length ([("pair", .cons p.1 p.2)] ++ ([("fs", vlist (ls.map vlist))] ++ metaDefs)) := .frame ft1 hsi.lt (hsi.mono qt1.heap)
      have kc : alGet "cons" ([("pair", .cons p.1 p.2)] ++ ([("fs", vlist (ls.map vlist))] ++ metaDefs)) = none := rfl
      have kq : alGet "quote" ([("pair", .cons p.1 p.2)] ++ ([("fs", vlist (ls.map vlist))] ++ metaDefs)) = none := rfl
      obtain ⟨t2, et2, wt2⟩ := printl_says (W := W) (xs := [.atom "\t", .atom "type", p.1, .atom ":", p.2])
        (x := vlist [.atom "syntax-quote", vlist [vlist [.atom "unquote", .atom "TAB"], .atom "type", vlist [.atom "unquote", vlist [.atom "car", .atom "pair"]],
          vlist [.atom "unquote", .atom "COLON"], vlist [.atom "unquote", vlist [.atom "cdr", .atom "pair"]]]]) hst1 rfl
        (.template' hst1 (plain_of rfl) rfl (.cons hst1 kc (.v hst1 rfl rfl) (.cons hst1 kc (.quote hst1 kq known_quote) (.cons hst1 kc (.car hst1 rfl (.v hst1 rfl rfl))
          (.cons hst1 kc (.v hst1 rfl rfl) (.cons hst1 kc (.cdr hst1 rfl (.v hst1 rfl rfl)) (.nil _ _)))))))
      exact ⟨.nil, t2, (callFn_lam (W := W) (ps := ["pair"]) (r := "") (vs := [.cons p.1 p.2]) (doc := .nil) (m := false) (cenv := i) rfl (by decide) e' s').trans et2, .before qt1 wt2⟩)
  have hfor : eval W (vlist [.atom "foreach", .atom "pair", vlist [.atom "reverse", vlist [.atom "sort-by", .atom "cdr", vlist [.atom "frequencies", vlist [.atom "map", .atom "second", .atom "fs"]]]],
      vlist [.atom "printl", vlist [.atom "syntax-quote", vlist [vlist [.atom "unquote", .atom "TAB"], .atom "type", vlist [.atom "unquote", vlist [.atom "car", .atom "pair"]],
        vlist [.atom "unquote", .atom "COLON"], vlist [.atom "unquote", vlist [.atom "cdr", .atom "pair"]]]]]]) i s3 = .ok v s7 :=
    e4.trans (eval_callCore (xs := [_, _]) hs4 rfl hd_map (fun _ _ h => by subst h; exact .cons e5 (.cons e6 .nil)) e7)
  have hnil : eval W .nil i s7 = .ok .nil s7 := by rw [eval_eq]; rfl
  refine ⟨ys, s7, hlet.trans ((evBodyTail_ok (xs := [_, _]) (.cons e3 (.cons hfor .nil))).trans hnil), hys, hsort, ?_⟩
  have hw := (w3.trans (.before q4 (.before q5 (.before q6 w7)))).wrote
  have hw2 : Wrote s1 s7 _ := ⟨hw.out, hw.inp, hw.tick, hw.screen⟩
  have key : metaReport ls.length ys = ([' '].intercalate ([Val.atom "There", .atom "are", .num ls.length, .atom "forms", .atom ":"].map Val.str) ++ ['\n']) ++
      ((countPairs ys).map fun p => Val.cons p.1 p.2).flatMap fun v => [' '].intercalate ([Val.atom "\t", .atom "type", (unpair v).1, .atom ":", (unpair v).2].map Val.str) ++ ['\n'] := by
    rw [countPairs, List.map_map, List.flatMap_map]
    unfold metaReport
    congr 1
    · simp [List.intercalate, List.intersperse, Val.str, strAux]
    · congr 1
      funext p
      simp [List.intercalate, List.intersperse, Val.str, strAux, unpair]
  rw [key]
  exact hw2

end L1
