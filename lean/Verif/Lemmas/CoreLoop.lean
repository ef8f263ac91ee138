import Verif.Lemmas.CoreFns
/- Loops of the core library: `while`, and the functions that use assignment. -/
set_option autoImplicit false
namespace L1

variable {W : World}

/-! ### Names made by `gensym` -/

theorem gensymName_ne {pre : List Char} {k : Nat} {n : String} (h : n.toList.head? ≠ some '<') : gensymName pre k ≠ n := by
  rintro rfl
  apply h
  unfold gensymName
  rw [String.toList_ofList]; rfl

theorem gensymName_special (pre : List Char) (k : Nat) : specialOf (gensymName pre k) = none :=
  specialOf_none fun f => gensymName_ne (by cases f <;> decide)

theorem gensymName_cxr (pre : List Char) (k : Nat) : isCxr (gensymName pre k) = false := by
  unfold isCxr gensymName
  rw [String.toList_ofList]; rfl

/-! ### Macros whose expansion is described by a property -/

theorem BecomesP.mac {s : St} {e : Nat} {L : List (String × Val)} {m : String} {ps : List String} {r : String} {bx doc : Val} {cenv : Nat}
    {xs : List Val} {P : St → Val → Prop} (hs : Sc s.heap e L) (hx : alGet m L = none) (hk : known m = some (some (.lam ps r (vlist [bx]) doc true cenv)))
    (ha : ArityOk ps r xs) (ht : NoT ps r)
    (hb : ∀ s1 e1, Quiet s s1 → Sc s1.heap e1 (paramSyms ps r xs ++ L) → GP W s1 e1 bx P) :
    ∀ s', Quiet s s' → ∃ y s1, P s1 y ∧ Quiet s' s1 ∧ eval W (.cons (.atom m) (vlist xs)) e s' = eval W y e s1 := fun s' h' => by
  have hs' := hs.mono h'.heap
  have hq1 : Quiet s' (callSt s' e ps r xs) := (Quiet.refl s').grow (List.prefix_append _ _)
  have hsc : Sc (callSt s' e ps r xs).heap s'.heap.length (paramSyms ps r xs ++ L) := by
    refine .frame (p := e) ?_ hs'.lt (hs'.mono hq1.heap)
    simp [callSt]
  obtain ⟨y, s2, e2, q2, p2⟩ := hb _ _ (h'.trans hq1) hsc _ (.refl _)
  have hst : MacroStep W e (form m xs) s' ([y].getLastD .nil) s2 :=
    .mk (hs'.lookup_known hx hk) ha ht (callScope_callSt _ _ _ _ _) rfl (.cons e2 .nil)
  exact ⟨y, s2, p2, hq1.trans q2, C36_expansion W e _ _ _ _ hst⟩

/-- Bindings of a `let` described by a property. -/
inductive GBP (W : World) (s : St) (e : Nat) : List Val → (List (String × Val) → Prop) → Prop
  | nil : GBP W s e [] (fun l => l = [])
  | cons {n : String} {x : Val} {P : Val → Prop} {bs : List Val} {Q : List (String × Val) → Prop} : n ≠ "t" → GP W s e x (fun _ => P) → GBP W s e bs Q →
    GBP W s e (vlist [.atom n, x] :: bs) (fun l => ∃ v l', l = (n, v) :: l' ∧ P v ∧ Q l')

theorem GBP.run {s : St} {e : Nat} {bs : List Val} {Q : List (String × Val) → Prop} (h : GBP W s e bs Q) :
    ∀ (s0 s1 : St) (ne : Nat) (syms : List (String × Val)) (p : Option Nat), Quiet s s0 → Quiet s0 s1 → s0.heap.length ≤ ne → s1.heap[ne]? = some ⟨syms, p⟩ →
    ∃ l s2, Q l ∧ evLetBinds (perform W) e ne (vlist bs) s1 = .ok true s2 ∧ Quiet s0 s2 ∧
      s2.heap[ne]? = some ⟨l.foldl (fun a nv => alSet nv.1 nv.2 a) syms, p⟩ := by
  induction h with
  | nil => intro s0 s1 ne syms p _ h1 _ h3; exact ⟨[], s1, rfl, rfl, h1, h3⟩
  | @cons n x P bs Q ht hg _ ih =>
    intro s0 s1 ne syms p hq h1 h2 h3
    obtain ⟨v, s2, e2, q2, p2⟩ := hg s1 (hq.trans h1)
    have h4 := prefix_get q2.heap h3
    have hset : setM ne n v s2 = .ok () { s2 with heap := heapSet s2.heap ne n v } := by
      unfold setM; rw [if_neg ht]
    obtain ⟨l, s3, hl, e3, q3, f3⟩ := ih s0 { s2 with heap := heapSet s2.heap ne n v } ne (alSet n v syms) p hq
      ((h1.trans q2).grow (prefix_heapSet (h1.trans q2).heap h2 _ _)) h2 (heapSet_at h4)
    refine ⟨(n, v) :: l, s3, ⟨v, l, rfl, p2, hl⟩, ?_, q3, f3⟩
    simp only [vlist_cons, evLetBinds, perform_eval]
    rw [M.bind_ok (extend_ok e2), M.bind_ok (extend_ok hset)]
    exact e3

theorem GP.letP {s : St} {e : Nat} {L : List (String × Val)} {bs : List Val} {Q : List (String × Val) → Prop} {x : Val} {P : St → Val → Prop}
    (hs : Sc s.heap e L) (hx : alGet "let" L = none) (hb : GBP W s e bs Q)
    (h : ∀ s1 e1 l, Q l → Quiet s s1 → Sc s1.heap e1 (letSyms l ++ L) → GP W s1 e1 x P) :
    GP W s e (vlist [.atom "let", vlist bs, x]) P := fun s' h' => by
  have h1 := eval_sform W .let_ [vlist bs, x] e s' ((hs.mono h'.heap).notMacro_sf hx known_let)
  have hq1 : Quiet s' { s' with heap := s'.heap ++ [⟨[], some e⟩] } := (Quiet.refl s').grow (List.prefix_append _ _)
  obtain ⟨l, s2, hl, e2, q2, f2⟩ := hb.run s' { s' with heap := s'.heap ++ [⟨[], some e⟩] } s'.heap.length [] (some e) h' hq1 (Nat.le_refl _) (by simp)
  obtain ⟨v, s3, e3, q3, p3⟩ := h s2 s'.heap.length l hl (h'.trans q2) (.frame f2 ((hs.mono h'.heap).lt) (hs.mono (h'.trans q2).heap)) s2 (.refl _)
  refine ⟨v, s3, h1.trans ?_, q2.trans q3, p3⟩
  simp only [evSpecial, vlist_cons, vlist_nil, evLet, isList_vlist, isList_cons, if_true]
  rw [M.bind_ok (newEnvM_run _ _), M.bind_ok e2, M.ite_pos rfl]
  exact e3

/-- `(gensym 'p)`. -/
theorem GP.gensym {s : St} {e : Nat} {L : List (String × Val)} (p : String) (hs : Sc s.heap e L) (hx : alGet "gensym" L = none) (hq : alGet "quote" L = none) :
    GP W s e (vlist [.atom "gensym", vlist [.atom "quote", .atom p]]) (fun _ v => ∃ k, v = .atom (gensymName ('-' :: p.toList) k)) := by
  refine .fn hs hx hd_gensym (GA.gap (.one (.quote hs hq known_quote))) ?_
  rintro s1 _ hq1 rfl s2 e2 hq2
  refine ⟨_, { s2 with gensym := s2.gensym + 1, issued := s2.issued ++ [gensymName ('-' :: p.toList) (s2.gensym + 1)] }, ?_, ⟨List.prefix_refl _, rfl, rfl, rfl, rfl, Nat.le_succ _⟩, s2.gensym + 1, rfl⟩
  unfold callFn
  simp only [evApply]
  refine extend_ok ?_
  rw [perform_eq]; rfl

/-- `(gensym)`. -/
theorem GP.gensym0 {s : St} {e : Nat} {L : List (String × Val)} (hs : Sc s.heap e L) (hx : alGet "gensym" L = none) :
    GP W s e (vlist [.atom "gensym"]) (fun _ v => ∃ k, v = .atom (gensymName [] k)) := by
  refine .fn (xs := []) hs hx hd_gensym (GA.gap .nil) ?_
  rintro s1 _ hq1 rfl s2 e2 hq2
  refine ⟨_, { s2 with gensym := s2.gensym + 1, issued := s2.issued ++ [gensymName [] (s2.gensym + 1)] }, ?_, ⟨List.prefix_refl _, rfl, rfl, rfl, rfl, Nat.le_succ _⟩, s2.gensym + 1, rfl⟩
  unfold callFn
  simp only [evApply]
  refine extend_ok ?_
  rw [perform_eq]; rfl

/-- What `(while c x ...)` stands for, `g` being a new name. -/
def whileExp (g : String) (c : Val) (xs : List Val) : Val :=
  vlist [.atom "let", vlist [vlist [.atom g, vlist [.atom "lambda", .atom g, .nil, .cons (.atom "when") (.cons c (vlist (xs ++ [vlist [.atom g]])))]]], vlist [.atom g]]

theorem while_becomes {s : St} {e : Nat} {L : List (String × Val)} {c : Val} {xs : List Val} (hs : Sc s.heap e L) (hp : Plain L) (hcc : Cc W s L)
    (hw : alGet "while" L = none) (hg : alGet "gensym" L = none) :
    ∀ s', Quiet s s' → ∃ y s1, (∃ k, y = whileExp (gensymName "-inner".toList k) c xs) ∧ Quiet s' s1 ∧ eval W (.cons (.atom "while") (vlist (c :: xs))) e s' = eval W y e s1 := by
  refine BecomesP.mac (P := fun _ y => ∃ k, y = whileExp (gensymName "-inner".toList k) c xs) hs hw known_while (Nat.le_add_left _ _) (by decide) fun s1 e1 hq hs1 => ?_
  have hp1 : Plain (paramSyms ["condition"] "body" (c :: xs) ++ L) := hp.under (plain_of rfl)
  have hg1 : alGet "gensym" (paramSyms ["condition"] "body" (c :: xs) ++ L) = none := by rw [alGet_append]; exact hg
  refine .letP hs1 (hp1 _ (by decide)) (.cons (by decide) ((GP.gensym "inner" hs1 hg1 (hp1 _ (by decide))).weaken fun _ _ _ h => h) .nil) ?_
  rintro s2 e2 l ⟨_, _, rfl, ⟨k, rfl⟩, rfl⟩ hq2 hs2
  refine G.gp (v := whileExp (gensymName "-inner".toList k) c xs) ?_ fun _ _ => ⟨k, rfl⟩
  have hp2 : Plain (letSyms [("inner-sym", .atom (gensymName ('-' :: "inner".toList) k))] ++ (paramSyms ["condition"] "body" (c :: xs) ++ L)) := hp1.under (plain_of rfl)
  have hc2 : Cc W s2 (letSyms [("inner-sym", .atom (gensymName ('-' :: "inner".toList) k))] ++ (paramSyms ["condition"] "body" (c :: xs) ++ L)) :=
    ((hcc.mono (hq.trans hq2)).under rfl).under rfl
  have kc := hp2 "cons" (by decide)
  have kq := hp2 "quote" (by decide)
  have hsym : G W s2 e2 (.atom "inner-sym") (.atom (gensymName "-inner".toList k)) := .v hs2 rfl rfl
  have hcall : G W s2 e2 (vlist [.atom "cons", vlist [.atom "cons", .atom "inner-sym", .nil], .nil]) (vlist [vlist [.atom (gensymName "-inner".toList k)]]) :=
    .cons hs2 kc (.cons hs2 kc hsym (.nil _ _)) (.nil _ _)
  have hbody := G.concat2 hs2 hc2 (.v (a := "body") (v := vlist xs) hs2 rfl rfl) hcall
  rw [mkList_vlist] at hbody
  exact .template' hs2 hp2 rfl (.cons hs2 kc (.quote hs2 kq known_quote) (.cons hs2 kc
    (.cons hs2 kc (.cons hs2 kc hsym (.cons hs2 kc (.cons hs2 kc (.quote hs2 kq known_quote) (.cons hs2 kc hsym (.cons hs2 kc (.nil _ _) (.cons hs2 kc
      (.cons hs2 kc (.quote hs2 kq known_quote) (.cons hs2 kc (.v hs2 rfl rfl) hbody)) (.nil _ _))))) (.nil _ _))) (.nil _ _))
    (.cons hs2 kc (.cons hs2 kc hsym (.nil _ _)) (.nil _ _))))

/-! ### Bodies with effects -/

/-- `(let () x ...)` evaluates the body in a new scope. -/
theorem let0_run {s : St} {e : Nat} {L : List (String × Val)} {xs : List Val} (hs : Sc s.heap e L) (hx : alGet "let" L = none) (hne : xs ≠ []) :
    eval W (.cons (.atom "let") (.cons .nil (vlist xs))) e s =
      evBodyTail (perform W) (perform W) (fun _ => msgList "evaluating let body") s.heap.length (vlist xs) { s with heap := s.heap ++ [⟨[], some e⟩] } := by
  rw [show Val.cons (.atom "let") (.cons .nil (vlist xs)) = form SF.let_.name (.nil :: xs) from rfl, eval_sform W .let_ _ _ _ (hs.notMacro_sf hx known_let)]
  obtain ⟨x, xs, rfl⟩ := List.exists_cons_of_ne_nil hne
  simp only [evSpecial, vlist_cons, evLet, isList_cons, show Val.nil.isList = true from rfl, if_true]
  rw [M.bind_ok (newEnvM_run _ _)]
  exact (M.bind_ok (by simp only [evLetBinds]; rfl)).trans (M.ite_pos rfl)

/-- A `when` whose condition quietly holds evaluates the body in a new scope, with whatever effects. -/
theorem when_run {s : St} {e : Nat} {L : List (String × Val)} {c w : Val} {xs : List Val} (hs : Sc s.heap e L) (hp : Plain L) (hcc : Cc W s L)
    (hc : G W s e c w) (hw : w ≠ .nil) (hne : xs ≠ []) :
    ∃ s1, Quiet s s1 ∧ eval W (.cons (.atom "when") (vlist (c :: xs))) e s =
      evBodyTail (perform W) (perform W) (fun _ => msgList "evaluating let body") s1.heap.length (vlist xs) { s1 with heap := s1.heap ++ [⟨[], some e⟩] } := by
  obtain ⟨s1, q1, e1⟩ := Becomes.when_ (xs := xs) (c := c) hs hp hcc s (.refl _)
  obtain ⟨s2, e2, q2⟩ := hc s1 q1
  obtain ⟨s3, q3, e3⟩ := Becomes.progn (xs := xs) hs hp hcc s2 (q1.trans q2)
  refine ⟨s3, (q1.trans q2).trans q3, ?_⟩
  rw [e1]
  refine (eval_sform W .cond [vlist [c, .cons (.atom "progn") (vlist xs)]] e s1 ((hs.mono q1.heap).notMacro_sf (hp _ (by decide)) known_cond)).trans ?_
  show evCond (perform W) (perform W) e (vlist [vlist [c, .cons (.atom "progn") (vlist xs)]]) s1 = _
  generalize hpr : Val.cons (.atom "progn") (vlist xs) = pr at e3 ⊢
  simp only [vlist_cons, vlist_nil, evCond, perform_eval]
  rw [M.bind_ok (extend_ok e2), M.ite_neg hw]
  show eval W pr e s2 = _
  rw [e3]
  exact let0_run (hs.mono ((q1.trans q2).trans q3).heap) (hp _ (by decide)) hne

/-- `(set! x v)` of a variable owned by scope `o`. -/
theorem set_run {s : St} {e o : Nat} {L : List (String × Val)} {n : String} {x v : Val} (hs : Sc s.heap e L) (hx : alGet "set!" L = none)
    (hv : G W s e x v) (hn : n ≠ "t") (ho : ∀ s1, Quiet s s1 → owner s1.heap e n = some o) :
    ∃ s1, Quiet s s1 ∧ eval W (vlist [.atom "set!", .atom n, x]) e s = .ok v { s1 with heap := heapSet s1.heap o n v } := by
  obtain ⟨s1, e1, q1⟩ := hv s (.refl _)
  refine ⟨s1, q1, ?_⟩
  refine (eval_sform W .set [.atom n, x] e s (hs.notMacro_sf hx known_setB)).trans ?_
  simp only [evSpecial, vlist_cons, vlist_nil, evSet, perform_eval]
  have hu : updateM e n v s1 = .ok () { s1 with heap := heapSet s1.heap o n v } := by
    unfold updateM; rw [if_neg hn, ho s1 q1]
  rw [M.bind_ok (extend_ok e1), M.bind_ok (extend_ok hu)]; rfl

theorem heapSet_other {h : Heap} {o e : Nat} {x : String} {v : Val} {f : Frame} (hne : e ≠ o) (hf : h[e]? = some f) : (heapSet h o x v)[e]? = some f := by
  rw [heapSet_get, hf]; simp [hne]

/-- A named function without parameters. -/
theorem mkLambda_named0 {g : String} {x : Val} {e : Nat} (hg : g ≠ "") (hd : splitDoc (vlist [x]) = pure (.nil, vlist [x])) :
    mkLambda (vlist [.atom g, .nil, x]) false e = (do
      let _ ← attempt (setM e g (.lam [] "" (vlist [x]) .nil false e))
      pure (.lam [] "" (vlist [x]) .nil false e)) := by
  have h1 : mkLambda (vlist [.atom g, .nil, x]) false e = mkLambdaNamed g (vlist [.nil, x]) false e := rfl
  rw [h1]
  have h2 : mkLambdaNamed g (vlist [.nil, x]) false e = (do
      let (doc, body') ← splitDoc (vlist [x])
      let f := Val.lam [] "" body' doc false e
      if g ≠ "" then do
        let _ ← attempt (setM e g f)
        pure f
      else pure f) := rfl
  rw [h2, hd]
  show (if g ≠ "" then _ else _) = _
  rw [if_pos hg]

theorem evLet_run {s s2 : St} {e : Nat} {bs body : Val} (hb : bs.isList = true) (hbody : body.isList = true)
    (h : evLetBinds (perform W) e s.heap.length bs { s with heap := s.heap ++ [⟨[], some e⟩] } = .ok true s2) :
    evLet (perform W) (perform W) e (.cons bs body) s = evBodyTail (perform W) (perform W) (fun _ => msgList "evaluating let body") s.heap.length body s2 := by
  simp only [evLet, hb, hbody, if_true]
  rw [M.bind_ok (newEnvM_run _ _)]
  exact (M.bind_ok h).trans (M.ite_pos rfl)

/-- The state in which a loop function `F` named `g`, made in scope `e`, is first called. -/
def loopSt (s : St) (e : Nat) (g : String) (F : Val) : St :=
  { s with heap := heapSet (heapSet (s.heap ++ [⟨[], some e⟩]) e g F) s.heap.length g F }

/-- `(let ((g (lambda g () x))) (g))`: the function is bound both here and in the scope of the `let`, and called. -/
theorem loop_run {s : St} {e : Nat} {L : List (String × Val)} {g : String} {x : Val} (hs : Sc s.heap e L) (hl : alGet "let" L = none) (hlam : alGet "lambda" L = none)
    (hg0 : g ≠ "") (hgt : g ≠ "t") (hgs : specialOf g = none) (hgc : isCxr g = false) (hd : splitDoc (vlist [x]) = pure (.nil, vlist [x])) :
    eval W (vlist [.atom "let", vlist [vlist [.atom g, vlist [.atom "lambda", .atom g, .nil, x]]], vlist [.atom g]]) e s =
      callFn W (.lam [] "" (vlist [x]) .nil false e) [] s.heap.length (loopSt s e g (.lam [] "" (vlist [x]) .nil false e)) := by
  generalize hF : Val.lam [] "" (vlist [x]) .nil false e = F
  let s1 : St := { s with heap := s.heap ++ [⟨[], some e⟩] }
  have q1 : Quiet s s1 := (Quiet.refl s).grow (List.prefix_append _ _)
  let s2 : St := { s with heap := heapSet s1.heap e g F }
  have hset1 : setM e g F s1 = .ok () s2 := by unfold setM; rw [if_neg hgt]
  have hset2 : setM s.heap.length g F s2 = .ok () (loopSt s e g F) := by unfold setM; rw [if_neg hgt]; rfl
  have hev : eval W (vlist [.atom "lambda", .atom g, .nil, x]) e s1 = .ok F s2 := by
    refine (eval_sform W .lambda [.atom g, .nil, x] _ _ ((hs.mono q1.heap).notMacro_sf hlam known_lambda)).trans ?_
    simp only [evSpecial]
    rw [mkLambda_named0 hg0 hd, hF]
    exact M.bind_ok (attempt_ok hset1)
  have hfr : (loopSt s e g F).heap[s.heap.length]? = some ⟨[(g, F)], some e⟩ := by
    have h0 : s1.heap[s.heap.length]? = some ⟨[], some e⟩ := by simp [s1]
    exact (heapSet_at (heapSet_other (Nat.ne_of_gt hs.lt) h0)).trans rfl
  have hlk : lookup (loopSt s e g F).heap s.heap.length g = some F := by
    unfold lookup; simp [lookupAux, hfr, alGet]
  refine (eval_sform W .let_ [vlist [vlist [.atom g, vlist [.atom "lambda", .atom g, .nil, x]]], vlist [.atom g]] e s (hs.notMacro_sf hl known_let)).trans ?_
  generalize hlx : vlist [.atom "lambda", .atom g, .nil, x] = lx at hev
  have hb : evLetBinds (perform W) e s.heap.length (vlist [vlist [.atom g, lx]]) s1 = .ok true (loopSt s e g F) := by
    simp only [vlist_cons, vlist_nil, evLetBinds, perform_eval]
    rw [M.bind_ok (extend_ok hev), M.bind_ok (extend_ok hset2)]; rfl
  refine (evLet_run (bs := vlist [vlist [.atom g, lx]]) (body := vlist [vlist [.atom g]]) rfl rfl hb).trans ?_
  have hh : CallHead (loopSt s e g F).heap s.heap.length (.atom g) := callHead_of hgs fun ps r b dc env he => by
    rw [hlk, ← hF] at he; cases he
  exact eval_reaches (xs := []) hh ⟨_, eval_atom_bound hgc hgt hlk, .nil⟩

/-- The owner of a variable two scopes out. -/
theorem owner_two {h : Heap} {e k i : Nat} {n : String} {f : Frame} {v : Val} (h1 : h[e]? = some ⟨[], some k⟩) (h2 : h[k]? = some ⟨[], some i⟩) (h3 : h[i]? = some f)
    (hk : k < e) (hi : i < k) (hv : alGet n f.syms = some v) : owner h e n = some i := by
  obtain ⟨e, rfl⟩ : ∃ e', e = e' + 2 := ⟨e - 2, by omega⟩
  unfold owner
  simp [ownerAux, h1, h2, h3, hv, alGet]

/-! ### `range` -/

/-- The local function of the loop in `range`. -/
def rangeLoop (g : String) (i : Nat) : Val :=
  .lam [] "" (vlist [vlist [.atom "when", vlist [.atom "pos?", .atom "c"], vlist [.atom "set!", .atom "c", vlist [.atom "dec", .atom "c"]],
    vlist [.atom "set!", .atom "acc", vlist [.atom "cons", .atom "c", .atom "acc"]], vlist [.atom g]]]) .nil false i

/-- The integers below `n`. -/
def upTo (n : Nat) : List Val := (List.range n).map fun (i : Nat) => .num (i : Int)

theorem upTo_succ (n : Nat) : upTo (n + 1) = upTo n ++ [.num n] := by simp [upTo, List.range_succ]

def rangeFrame (g : String) (i p : Nat) (c : Int) (acc : Val) : Frame := ⟨[("c", .num c), ("acc", acc), (g, rangeLoop g i)], some p⟩

theorem alGet_rangeFrame {g : String} {i p : Nat} {c : Int} {acc : Val} {n : String} {L : List (String × Val)} (h1 : n ≠ "c") (h2 : n ≠ "acc") (h3 : g ≠ n) (hL : alGet n L = none) :
    alGet n ((rangeFrame g i p c acc).syms ++ L) = none := by
  rw [alGet_append, hL]
  simp [rangeFrame, alGet, h3, Ne.symm h1, Ne.symm h2]

theorem run_rangeLoop {s0 : St} (hc : Base s0.heap 0) {i p : Nat} {k : Nat} {N : Val} (hi : s0.heap.length ≤ i) (hp : Sc s0.heap p [("n", N)]) (hpi : p < i) (n : Nat) :
    ∀ (acc : List Val) (s : St) (e : Nat), Quiet s0 s → s.heap[i]? = some (rangeFrame (gensymName "-inner".toList k) i p n (vlist acc)) →
    ∃ s', callFn W (rangeLoop (gensymName "-inner".toList k) i) [] e s = .ok .nil s' ∧ Quiet s0 s' ∧
      s'.heap[i]? = some (rangeFrame (gensymName "-inner".toList k) i p 0 (vlist (upTo n ++ acc))) := by
  generalize hgd : gensymName "-inner".toList k = g
  have hg : ∀ n : String, n.toList.head? ≠ some '<' → g ≠ n := by rintro n hn rfl; exact gensymName_ne hn hgd
  have hgs : specialOf g = none := by rw [← hgd]; exact gensymName_special _ _
  have hgc : isCxr g = false := by rw [← hgd]; exact gensymName_cxr _ _
  have hgt : g ≠ "t" := hg _ (by decide)
  have key : ∀ (s : St) (c : Int) (acc : Val), Quiet s0 s → s.heap[i]? = some (rangeFrame g i p c acc) → Sc s.heap i ((rangeFrame g i p c acc).syms ++ [("n", N)]) :=
    fun s c acc hq hf => .frame hf hpi (hp.mono hq.heap)
  have hnone : ∀ (c : Int) (acc : Val) (n : String), n.toList.head? ≠ some '<' → n ∉ ["c", "acc", "n"] → alGet n ((rangeFrame g i p c acc).syms ++ [("n", N)]) = none := by
    intro c acc n h1 h2
    simp only [List.mem_cons, List.not_mem_nil, or_false, not_or] at h2
    exact alGet_rangeFrame h2.1 h2.2.1 (hg n h1) (by simp [alGet, Ne.symm h2.2.2])
  have hplain : ∀ (c : Int) (acc : Val), Plain ((rangeFrame g i p c acc).syms ++ [("n", N)]) := by
    intro c acc n hn
    refine hnone c acc n ?_ ?_ <;> (revert n; decide)
  induction n with
  | zero =>
    intro acc s e hq hf
    have hsc := key s 0 (vlist acc) hq hf
    have hb := hc.mono hq.heap
    have hr : Returns W s (rangeLoop g i) [] .nil := by
      refine .lam rfl (by decide) hsc fun s1 e1 hq1 hs1 => ?_
      have hb1 := hb.mono hq1.heap
      exact .whenF (xs := [_, _, _]) hs1 ((hplain 0 (vlist acc)).under (plain_of rfl)) (.core hb1 (hnone _ _ _ (by decide) (by decide))) (.posF (n := 0) hs1 (hnone _ _ _ (by decide) (by decide)) hb1
        (.v hs1 rfl rfl) (by decide))
    obtain ⟨s', e', q'⟩ := hr s e (.refl _)
    exact ⟨s', e', hq.trans q', by rw [show upTo 0 ++ acc = acc from rfl]; exact prefix_get q'.heap hf⟩
  | succ n ih =>
    intro acc s e hq hf
    have hsc := key s _ (vlist acc) hq hf
    have hb := hc.mono hq.heap
    -- the call
    let s1 : St := callSt s i [] "" []
    have hq1 : Quiet s s1 := (Quiet.refl s).grow (List.prefix_append _ _)
    have hf1 : s1.heap[s.heap.length]? = some ⟨[], some i⟩ := by simp [s1, callSt, paramSyms]
    have hil : i < s.heap.length := hsc.lt
    have hs1 : Sc s1.heap s.heap.length ([] ++ ((rangeFrame g i p ((n + 1 : Nat) : Int) (vlist acc)).syms ++ [("n", N)])) := .frame hf1 hil (hsc.mono hq1.heap)
    have hb1 := hb.mono hq1.heap
    obtain ⟨s2, q2, e2⟩ := when_run (W := W) (c := vlist [.atom "pos?", .atom "c"]) (xs := [vlist [.atom "set!", .atom "c", vlist [.atom "dec", .atom "c"]],
      vlist [.atom "set!", .atom "acc", vlist [.atom "cons", .atom "c", .atom "acc"]], vlist [.atom g]]) hs1 ((hplain _ _).under (plain_of rfl)) (.core hb1 (hnone _ _ _ (by decide) (by decide)))
      (.posT (n := ((n + 1 : Nat) : Int)) hs1 (hnone _ _ _ (by decide) (by decide)) hb1 (.v hs1 rfl rfl) (by omega)) (by decide) (by simp)
    -- the scope of the body
    let s3 : St := { s2 with heap := s2.heap ++ [⟨[], some s.heap.length⟩] }
    have q3 : Quiet s2 s3 := (Quiet.refl s2).grow (List.prefix_append _ _)
    have q13 : Quiet s1 s3 := q2.trans q3
    have hke : s.heap.length < s2.heap.length := Nat.lt_of_lt_of_le hs1.lt q2.heap.length_le
    have hf3 : s3.heap[s2.heap.length]? = some ⟨[], some s.heap.length⟩ := by simp [s3]
    have hs3 : Sc s3.heap s2.heap.length ([] ++ ([] ++ ((rangeFrame g i p ((n + 1 : Nat) : Int) (vlist acc)).syms ++ [("n", N)]))) := .frame hf3 hke (hs1.mono q13.heap)
    have hb3 := hb1.mono q13.heap
    have hd : G W s3 s2.heap.length (vlist [.atom "dec", .atom "c"]) (.num n) := by
      have := G.dec (W := W) (x := .atom "c") (n := ((n + 1 : Nat) : Int)) hs3 (hnone _ _ _ (by decide) (by decide)) hb3 (.v hs3 rfl rfl)
      rw [show (((n + 1 : Nat) : Int)) - 1 = n by omega] at this
      exact this
    obtain ⟨s4, q4, e4⟩ := set_run (o := i) (n := "c") hs3 (hnone _ _ _ (by decide) (by decide)) hd (by decide) (fun s4 q4 => by
      refine owner_two (prefix_get q4.heap hf3) (prefix_get (q13.trans q4).heap hf1) (prefix_get ((hq1.trans q13).trans q4).heap hf) hke hil (by rfl))
    -- after the first assignment
    let s5 : St := { s4 with heap := heapSet s4.heap i "c" (.num n) }
    have q05 : Quiet s0 s5 := ((((hq.trans hq1).trans q13).trans q4)).grow (prefix_heapSet ((((hq.trans hq1).trans q13).trans q4)).heap hi _ _)
    have hfi4 : s4.heap[i]? = _ := prefix_get ((hq1.trans q13).trans q4).heap hf
    have hfi5 : s5.heap[i]? = some (rangeFrame g i p n (vlist acc)) := by
      have := heapSet_at (x := "c") (v := .num n) hfi4
      simpa [rangeFrame, alSet] using this
    have hfk5 : s5.heap[s.heap.length]? = some ⟨[], some i⟩ := by
      show (heapSet s4.heap i "c" (.num n))[s.heap.length]? = _
      exact heapSet_other (by omega) (prefix_get (q13.trans q4).heap hf1)
    have hfe5 : s5.heap[s2.heap.length]? = some ⟨[], some s.heap.length⟩ := by
      show (heapSet s4.heap i "c" (.num n))[s2.heap.length]? = _
      exact heapSet_other (by omega) (prefix_get q4.heap hf3)
    have hs5 : Sc s5.heap s2.heap.length ([] ++ ([] ++ ((rangeFrame g i p n (vlist acc)).syms ++ [("n", N)]))) := .frame hfe5 hke (.frame hfk5 hil (key s5 n _ q05 hfi5))
    obtain ⟨s6, q6, e6⟩ := set_run (W := W) (o := i) (n := "acc") (x := vlist [.atom "cons", .atom "c", .atom "acc"]) hs5 (hnone _ _ _ (by decide) (by decide))
      (.cons hs5 (hnone _ _ _ (by decide) (by decide)) (.v hs5 rfl rfl) (.v hs5 rfl rfl)) (by decide)
      (fun s6 q6 => owner_two (prefix_get q6.heap hfe5) (prefix_get q6.heap hfk5) (prefix_get q6.heap hfi5) hke hil (by rfl))
    -- after the second
    let s7 : St := { s6 with heap := heapSet s6.heap i "acc" (vlist (.num n :: acc)) }
    have q07 : Quiet s0 s7 := (q05.trans q6).grow (prefix_heapSet (q05.trans q6).heap hi _ _)
    have hfi7 : s7.heap[i]? = some (rangeFrame g i p n (vlist (.num n :: acc))) := by
      refine (heapSet_at (x := "acc") (v := vlist (.num n :: acc)) (prefix_get q6.heap hfi5)).trans ?_
      simp [rangeFrame, alSet]
    have hfk7 : s7.heap[s.heap.length]? = some ⟨[], some i⟩ := by
      show (heapSet s6.heap i "acc" _)[s.heap.length]? = _
      exact heapSet_other (by omega) (prefix_get q6.heap hfk5)
    have hfe7 : s7.heap[s2.heap.length]? = some ⟨[], some s.heap.length⟩ := by
      show (heapSet s6.heap i "acc" _)[s2.heap.length]? = _
      exact heapSet_other (by omega) (prefix_get q6.heap hfe5)
    have hs7 : Sc s7.heap s2.heap.length ([] ++ ([] ++ ((rangeFrame g i p n (vlist (.num n :: acc))).syms ++ [("n", N)]))) := .frame hfe7 hke (.frame hfk7 hil (key s7 n _ q07 hfi7))
    obtain ⟨s8, e8, q8, f8⟩ := ih (.num n :: acc) s7 s2.heap.length q07 hfi7
    refine ⟨s8, ?_, q8, ?_⟩
    · unfold callFn rangeLoop
      refine (evApply_lam (ps := []) (r := "") (vs := []) rfl (by decide)).trans ?_
      refine e2.trans ?_
      refine (evBodyTail_ok (xs := [_, _]) (.cons e4 (.cons e6 .nil))).trans ?_
      have hgv : alGet g ([] ++ ([] ++ ((rangeFrame g i p n (vlist (.num n :: acc))).syms ++ [("n", N)]))) = some (rangeLoop g i) := by
        simp [rangeFrame, alGet, Ne.symm (hg "c" (by decide)), Ne.symm (hg "acc" (by decide))]
      have hl := hs7.lookup_some hgv
      have hh : CallHead s7.heap s2.heap.length (.atom g) := callHead_of hgs fun ps r b dc env he => by
        rw [hl] at he; cases he
      show eval W (.cons (.atom g) (vlist [])) _ _ = _
      refine (eval_reaches (xs := []) hh ⟨s7, eval_atom_bound hgc hgt hl, .nil⟩).trans ?_
      exact e8
    · rw [f8, upTo_succ, List.append_assoc]; rfl

/-- `range`: the integers from 0 below `n`; none if `n` is not positive. -/
theorem ret_range {s : St} (hc : Base s.heap 0) (n : Int) : Returns W s k_range' [.num n] (vlist (upTo n.toNat)) := by
  refine .lam rfl (by decide) (.base hc) fun s1 e1 hq hs => ?_
  have hb := hc.mono hq.heap
  by_cases hn : 0 < n
  · refine .whenT hs (plain_of rfl) (.core hb rfl) (.posT hs rfl hb (.v hs rfl rfl) hn) (by decide) fun s2 e2 hq2 hs2 => ?_
    have hb2 := hb.mono hq2.heap
    intro s3 hq3
    have hs3 := hs2.mono hq3.heap
    have hb3 := hb2.mono hq3.heap
    -- the scope of the `let`
    have hgb : GB W s3 e2 [vlist [.atom "c", .atom "n"], vlist [.atom "acc", .nil]] [("c", .num n), ("acc", .nil)] :=
      .cons (by decide) (.v hs3 rfl rfl) (.cons (by decide) (.nil _ _) .nil)
    have h1 := eval_sform W .let_ [vlist [vlist [.atom "c", .atom "n"], vlist [.atom "acc", .nil]],
      vlist [.atom "while", vlist [.atom "pos?", .atom "c"], vlist [.atom "set!", .atom "c", vlist [.atom "dec", .atom "c"]],
        vlist [.atom "set!", .atom "acc", vlist [.atom "cons", .atom "c", .atom "acc"]]], .atom "acc"] e2 s3 (hs3.notMacro_sf rfl known_let)
    let s4 : St := { s3 with heap := s3.heap ++ [⟨[], some e2⟩] }
    have q4 : Quiet s3 s4 := (Quiet.refl s3).grow (List.prefix_append _ _)
    obtain ⟨s5, e5, q5, f5⟩ := hgb.run s3 s4 s3.heap.length [] (some e2) (.refl _) q4 (Nat.le_refl _) (by simp [s4])
    have hs5 : Sc s5.heap s3.heap.length ([("c", .num n), ("acc", .nil)] ++ ([] ++ (paramSyms ["n"] "" [.num n] ++ []))) := .frame f5 hs3.lt (hs3.mono q5.heap)
    have hb5 := hb3.mono q5.heap
    -- the loop
    obtain ⟨y, s6, ⟨k, rfl⟩, q6, e6⟩ := while_becomes (W := W) (c := vlist [.atom "pos?", .atom "c"]) (xs := [vlist [.atom "set!", .atom "c", vlist [.atom "dec", .atom "c"]],
        vlist [.atom "set!", .atom "acc", vlist [.atom "cons", .atom "c", .atom "acc"]]]) hs5 (plain_of rfl) (.core hb5 rfl) rfl rfl s5 (.refl _)
    generalize hg : gensymName "-inner".toList k = g at *
    have hgne : ∀ n : String, n.toList.head? ≠ some '<' → g ≠ n := by rintro n hn rfl; exact gensymName_ne hn hg
    have hgs : specialOf g = none := by rw [← hg]; exact gensymName_special _ _
    have hgc : isCxr g = false := by rw [← hg]; exact gensymName_cxr _ _
    have hs6 := hs5.mono q6.heap
    have f6 := prefix_get q6.heap f5
    -- its local function is bound here and in its own scope
    have hlt : s3.heap.length < s6.heap.length := hs6.lt
    let s9 : St := loopSt s6 s3.heap.length g (rangeLoop g s3.heap.length)
    have hq39 : Quiet s3 s9 := (q5.trans q6).grow (prefix_heapSet (prefix_heapSet ((q5.trans q6).heap.trans (List.prefix_append _ _)) (Nat.le_refl _) _ _) (by omega) _ _)
    have f9 : s9.heap[s3.heap.length]? = some (rangeFrame g s3.heap.length e2 n .nil) := by
      refine heapSet_other (by omega) ((heapSet_at (prefix_get (List.prefix_append _ _) f6)).trans ?_)
      simp [rangeFrame, letSyms, alSet, Ne.symm (hgne "c" (by decide)), Ne.symm (hgne "acc" (by decide))]
    obtain ⟨s10, e10, q10, f10⟩ := run_rangeLoop (W := W) (s0 := s3) hb3 (Nat.le_refl _) (k := k) (N := .num n) hs3 hs3.lt n.toNat [] s9 s6.heap.length hq39
      (by rw [hg, show ((n.toNat : Nat) : Int) = n by omega]; exact f9)
    rw [hg] at e10 f10
    have hwhile : eval W (vlist [.atom "while", vlist [.atom "pos?", .atom "c"], vlist [.atom "set!", .atom "c", vlist [.atom "dec", .atom "c"]],
        vlist [.atom "set!", .atom "acc", vlist [.atom "cons", .atom "c", .atom "acc"]]]) s3.heap.length s5 = .ok .nil s10 :=
      e6.trans ((loop_run hs6 rfl rfl (hgne _ (by decide)) (hgne _ (by decide)) hgs hgc rfl).trans e10)
    have hs10 : Sc s10.heap s3.heap.length ((rangeFrame g s3.heap.length e2 0 (vlist (upTo n.toNat ++ []))).syms ++ ([] ++ (paramSyms ["n"] "" [.num n] ++ []))) :=
      .frame f10 hs3.lt (hs3.mono q10.heap)
    refine ⟨s10, h1.trans ?_, q10⟩
    generalize hwx : vlist [.atom "while", vlist [.atom "pos?", .atom "c"], vlist [.atom "set!", .atom "c", vlist [.atom "dec", .atom "c"]],
        vlist [.atom "set!", .atom "acc", vlist [.atom "cons", .atom "c", .atom "acc"]]] = wx at hwhile ⊢
    refine (evLet_run (bs := vlist [vlist [.atom "c", .atom "n"], vlist [.atom "acc", .nil]]) (body := vlist [wx, .atom "acc"]) rfl rfl e5).trans ?_
    refine (evBodyTail_ok (xs := [wx]) (.cons hwhile .nil)).trans ?_
    refine eval_atom_bound rfl (by decide) ?_
    rw [← List.append_nil (upTo n.toNat)]
    exact hs10.lookup_some rfl
  · rw [show n.toNat = 0 by omega]
    exact .whenF (xs := [_]) hs (plain_of rfl) (.core hb rfl) (.posF hs rfl hb (.v hs rfl rfl) hn)

end L1
