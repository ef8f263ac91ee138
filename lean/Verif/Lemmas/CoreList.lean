import Verif.Lemmas.CoreNum
/- The list functions of the core library. -/
set_option autoImplicit false
namespace L1

variable {W : World}

theorem heapSet_mid (h : Heap) (f : Frame) (t : Heap) (x : String) (v : Val) :
    heapSet (h ++ f :: t) h.length x v = h ++ { f with syms := alSet x v f.syms } :: t := by
  unfold heapSet
  induction h with
  | nil => rfl
  | cons g h ih => simpa [List.modify] using ih

/-- A function whose body is `(let ((nm (lambda nm P body ...))) x)`: the local function sees itself, both in the scope of the call (where a named
lambda binds its name) and in that of the `let`. -/
theorem Makes.letNamed {s : St} {ps : List String} {r nm : String} {P x doc : Val} {fb : List Val} {m : Bool} {cenv : Nat} {vs : List Val}
    {L0 : List (String × Val)} {F : Nat → Val} {R : St → Val → Prop} (ha : ArityOk ps r vs) (ht : NoT ps r) (h0 : Sc s.heap cenv L0) (hn : nm ≠ "t")
    (hl : alGet "let" (paramSyms ps r vs ++ L0) = none) (hlam : alGet "lambda" (paramSyms ps r vs ++ L0) = none)
    (hmk : ∀ e1, mkLambda (vlist (.atom nm :: P :: fb)) false e1 = (do let _ ← attempt (setM e1 nm (F e1)); pure (F e1)))
    (h : ∀ s1 e1 e2, Quiet s s1 → Sc s1.heap e1 (alSet nm (F e1) (paramSyms ps r vs) ++ L0) →
      Sc s1.heap e2 ([(nm, F e1)] ++ (alSet nm (F e1) (paramSyms ps r vs) ++ L0)) → GP W s1 e2 x R) :
    Makes W s (.lam ps r (vlist [vlist [.atom "let", vlist [vlist [.atom nm, .cons (.atom "lambda") (vlist (.atom nm :: P :: fb))]], x]]) doc m cenv) vs R :=
  fun s' e hq => by
  have hq1 : Quiet s' (callSt s' cenv ps r vs) := (Quiet.refl s').grow (List.prefix_append _ _)
  have hsc : Sc (callSt s' cenv ps r vs).heap s'.heap.length (paramSyms ps r vs ++ L0) := by
    refine .frame (p := cenv) ?_ ?_ (h0.mono (hq.trans hq1).heap)
    · simp [callSt]
    · exact (h0.mono hq.heap).lt
  -- the new scope of the `let`
  let s2 : St := { s' with heap := s'.heap ++ [⟨paramSyms ps r vs, some cenv⟩] ++ [⟨[], some s'.heap.length⟩] }
  have hsc2 : Sc s2.heap s'.heap.length (paramSyms ps r vs ++ L0) := hsc.mono (List.prefix_append _ _)
  let f := F s'.heap.length
  -- the named lambda binds its name in the scope of the call
  let s3 : St := { s' with heap := s'.heap ++ [⟨alSet nm f (paramSyms ps r vs), some cenv⟩] ++ [⟨[], some s'.heap.length⟩] }
  let s4 : St := { s' with heap := s'.heap ++ [⟨alSet nm f (paramSyms ps r vs), some cenv⟩] ++ [⟨[(nm, f)], some s'.heap.length⟩] }
  have e3 : setM s'.heap.length nm f s2 = .ok () s3 := by
    unfold setM; rw [if_neg hn]
    have := heapSet_mid s'.heap ⟨paramSyms ps r vs, some cenv⟩ [⟨[], some s'.heap.length⟩] nm f
    simp only [s2, s3, List.append_assoc, List.singleton_append, this]
  have e4 : setM (s'.heap.length + 1) nm f s3 = .ok () s4 := by
    unfold setM; rw [if_neg hn]
    have := heapSet_new (s'.heap ++ [⟨alSet nm f (paramSyms ps r vs), some cenv⟩]) ⟨[], some s'.heap.length⟩ nm f
    simp only [List.length_append, List.length_cons, List.length_nil, Nat.zero_add] at this
    simp only [s3, s4, this]; rfl
  have hev : eval W (.cons (.atom "lambda") (vlist (.atom nm :: P :: fb))) s'.heap.length s2 = .ok f s3 := by
    refine (eval_sform W .lambda _ _ _ (hsc2.notMacro_sf hlam known_lambda)).trans ?_
    simp only [evSpecial]
    rw [hmk, M.bind_ok (attempt_ok e3)]; rfl
  have q4 : Quiet s' s4 := (Quiet.refl s').grow (by simp only [List.append_assoc]; exact List.prefix_append _ _)
  have sc1 : Sc s4.heap s'.heap.length (alSet nm f (paramSyms ps r vs) ++ L0) := by
    refine .frame (p := cenv) ?_ ?_ (h0.mono (hq.trans q4).heap)
    · simp [s4]
    · exact (h0.mono hq.heap).lt
  have sc2 : Sc s4.heap (s'.heap.length + 1) ([(nm, f)] ++ (alSet nm f (paramSyms ps r vs) ++ L0)) := by
    refine .frame (p := s'.heap.length) ?_ (Nat.lt_succ_self _) sc1
    simp [s4]
  obtain ⟨v, s5, e5, q5, p5⟩ := h s4 _ _ (hq.trans q4) sc1 sc2 s4 (.refl _)
  refine ⟨v, s5, ?_, q4.trans q5, p5⟩
  unfold callFn
  rw [evApply_lam ha ht]
  show eval W (form SF.let_.name [vlist [vlist [.atom nm, .cons (.atom "lambda") (vlist (.atom nm :: P :: fb))]], x]) _ _ = _
  rw [eval_sform W .let_ _ _ _ (hsc.notMacro_sf hl known_let)]
  generalize hbs : vlist [vlist [.atom nm, .cons (.atom "lambda") (vlist (.atom nm :: P :: fb))]] = bs
  have hbl : bs.isList = true := by rw [← hbs]; rfl
  simp only [evSpecial, vlist_cons, vlist_nil, evLet, hbl, isList_cons, if_true]
  rw [M.bind_ok (newEnvM_run _ _)]
  subst hbs
  have hlen : (callSt s' cenv ps r vs).heap.length = s'.heap.length + 1 := by simp [callSt]
  have hb : evLetBinds (perform W) s'.heap.length (callSt s' cenv ps r vs).heap.length
      (vlist [vlist [.atom nm, .cons (.atom "lambda") (vlist (.atom nm :: P :: fb))]]) s2 = .ok true s4 := by
    rw [hlen]
    generalize hlx : Val.cons (.atom "lambda") (vlist (.atom nm :: P :: fb)) = lx at hev
    simp only [vlist_cons, vlist_nil, evLetBinds, perform_eval]
    rw [M.bind_ok (extend_ok hev), M.bind_ok (extend_ok e4)]; rfl
  refine (M.bind_ok hb).trans ?_
  rw [M.ite_pos rfl, hlen]
  exact e5

theorem Returns.letNamed {s : St} {ps : List String} {r nm : String} {P x doc v : Val} {fb : List Val} {m : Bool} {cenv : Nat} {vs : List Val}
    {L0 : List (String × Val)} {F : Nat → Val} (ha : ArityOk ps r vs) (ht : NoT ps r) (h0 : Sc s.heap cenv L0) (hn : nm ≠ "t")
    (hl : alGet "let" (paramSyms ps r vs ++ L0) = none) (hlam : alGet "lambda" (paramSyms ps r vs ++ L0) = none)
    (hmk : ∀ e1, mkLambda (vlist (.atom nm :: P :: fb)) false e1 = (do let _ ← attempt (setM e1 nm (F e1)); pure (F e1)))
    (h : ∀ s1 e1 e2, Quiet s s1 → Sc s1.heap e1 (alSet nm (F e1) (paramSyms ps r vs) ++ L0) →
      Sc s1.heap e2 ([(nm, F e1)] ++ (alSet nm (F e1) (paramSyms ps r vs) ++ L0)) → G W s1 e2 x v) :
    Returns W s (.lam ps r (vlist [vlist [.atom "let", vlist [vlist [.atom nm, .cons (.atom "lambda") (vlist (.atom nm :: P :: fb))]], x]]) doc m cenv) vs v := fun s' e hq => by
  have := Makes.letNamed (W := W) (R := fun _ w => w = v) (doc := doc) (m := m) ha ht h0 hn hl hlam hmk (fun s1 e1 e2 hq h1 h2 => (h s1 e1 e2 hq h1 h2).gp fun _ _ => rfl)
  obtain ⟨w, s2, h1, h2, rfl⟩ := this s' e hq
  exact ⟨s2, h1, h2⟩

/-! ### `reduce` and `concat` -/

theorem Folds.mono {s s1 : St} {f a c : Val} {xs : List Val} (h : Folds W s f a xs c) (hq : Quiet s s1) : Folds W s1 f a xs c := by
  induction h with
  | nil => exact .nil
  | cons h1 _ ih => exact .cons (h1.mono hq) ih

/-- The local function of `reduce`. -/
def innerFn (e1 : Nat) : Val :=
  .lam ["f", "acc", "l"] "" (vlist [vlist [.atom "if", vlist [.atom "not", .atom "l"], .atom "acc", vlist [.atom "inner", .atom "f",
    vlist [.atom "f", .atom "acc", vlist [.atom "car", .atom "l"]], vlist [.atom "cdr", .atom "l"]]]]) .nil false e1

theorem ret_inner {s : St} {e1 : Nat} {f x r : Val} (hs : Sc s.heap e1 ([("args", r), ("f", f), ("x", x), ("inner", innerFn e1)] ++ [])) {g a c : Val}
    (hm : g.notMacro = true) {xs : List Val} (h : Folds W s g a xs c) : Returns W s (innerFn e1) [g, a, vlist xs] c := by
  induction xs generalizing s a with
  | nil =>
    cases h
    exact .lam rfl (by decide) hs fun s1 e2 _ hs1 => .ifT hs1 (plain_of rfl) (.not_nil hs1 rfl (.v hs1 rfl rfl)) (by decide) (.v hs1 rfl rfl)
  | cons x xs ih =>
    cases h with
    | @cons a b c x xs h1 h2 =>
    refine .lam rfl (by decide) hs fun s1 e2 hq hs1 => ?_
    refine .ifF hs1 (plain_of rfl) (.not_cons hs1 rfl (.v hs1 rfl rfl) (by simp)) ?_
    exact .callVar hs1 rfl rfl rfl rfl (by decide)
      (.cons (.v hs1 rfl rfl) (.two (.callVar hs1 rfl hm rfl rfl (by decide) (.two (.v hs1 rfl rfl) (.car hs1 rfl (.v hs1 rfl rfl))) (h1.mono hq))
        (.cdr hs1 rfl (.v hs1 rfl rfl)))) (ih (hs.mono hq.heap) (h2.mono hq))

section
variable {s : St} (hc : Base s.heap 0)
include hc

theorem ret_reduce {f a c : Val} {xs : List Val} (hm : f.notMacro = true) (h : Folds W s f a xs c) : Returns W s k_reduce [f, vlist (a :: xs)] c := by
  refine Returns.letNamed (F := innerFn) (by simp [ArityOk]) (by decide) (.base hc) (by decide) rfl rfl (fun _ => rfl) fun s1 e1 e2 hq hs1 hs2 => ?_
  refine .cond hs2 rfl known_cond (.hit (.not_nil hs2 rfl (.v hs2 rfl rfl)) (by decide) (.ifF hs2 (plain_of rfl) (.not_cons hs2 rfl (.v hs2 rfl rfl) (by simp)) ?_))
  exact .callVar hs2 rfl rfl rfl rfl (by decide) (.cons (.v hs2 rfl rfl) (.two (.car hs2 rfl (.v hs2 rfl rfl)) (.cdr hs2 rfl (.v hs2 rfl rfl))))
    (ret_inner hs1 hm (h.mono hq))

theorem ret_reduce_empty {f c : Val} (hm : f.notMacro = true) (h : Returns W s f [] c) : Returns W s k_reduce [f, .nil] c := by
  refine Returns.letNamed (F := innerFn) (by simp [ArityOk]) (by decide) (.base hc) (by decide) rfl rfl (fun _ => rfl) fun s1 e1 e2 hq hs1 hs2 => ?_
  refine .cond hs2 rfl known_cond (.hit (.not_nil hs2 rfl (.v hs2 rfl rfl)) (by decide) (.ifT hs2 (plain_of rfl) (.not_nil hs2 rfl (.v hs2 rfl rfl)) (by decide) ?_))
  exact .callVar (xs := []) hs2 rfl hm rfl rfl (by decide) .nil (h.mono hq)

theorem ret_reduce_init {f a c : Val} {xs : List Val} (hm : f.notMacro = true) (h : Folds W s f a xs c) : Returns W s k_reduce [f, a, vlist xs] c := by
  refine Returns.letNamed (F := innerFn) (by simp [ArityOk]) (by decide) (.base hc) (by decide) rfl rfl (fun _ => rfl) fun s1 e1 e2 hq hs1 hs2 => ?_
  refine .cond hs2 rfl known_cond (.skip (.not_cons hs2 rfl (.v hs2 rfl rfl) (by simp)) (.hit (w := vBool (Val.equal (.num 1) (.num 1)))
    (.eq hs2 rfl (.len (xs := [vlist xs]) hs2 rfl (.v hs2 rfl rfl)) (.num _ _ _)) (by decide) ?_))
  exact .callVar hs2 rfl rfl rfl rfl (by decide) (.cons (.v hs2 rfl rfl) (.two (.v hs2 rfl rfl) (.car hs2 rfl (.v hs2 rfl rfl))))
    (ret_inner hs1 hm (h.mono hq))
end

/-- The local function of `concat`. -/
def concat2Fn (e1 : Nat) : Val :=
  .lam ["a", "b"] "" (vlist [vlist [.atom "if", vlist [.atom "not", .atom "a"], .atom "b", vlist [.atom "cons", vlist [.atom "car", .atom "a"],
    vlist [.atom "concat2", vlist [.atom "cdr", .atom "a"], .atom "b"]]]]) .nil false e1

theorem ret_concat2Fn {s : St} {e1 : Nat} {r : Val} (hs : Sc s.heap e1 ([("lists", r), ("concat2", concat2Fn e1)] ++ [])) (xs : List Val) (b : Val) :
    Returns W s (concat2Fn e1) [vlist xs, b] (mkList xs b) := by
  induction xs generalizing s with
  | nil =>
    exact .lam rfl (by decide) hs fun s1 e2 _ hs1 => .ifT hs1 (plain_of rfl) (.not_nil hs1 rfl (.v hs1 rfl rfl)) (by decide) (.v hs1 rfl rfl)
  | cons x xs ih =>
    refine .lam rfl (by decide) hs fun s1 e2 hq hs1 => ?_
    refine .ifF hs1 (plain_of rfl) (.not_cons hs1 rfl (.v hs1 rfl rfl) (by simp)) ?_
    exact .cons hs1 rfl (.car hs1 rfl (.v hs1 rfl rfl)) (.callVar hs1 rfl rfl rfl rfl (by decide) (.two (.cdr hs1 rfl (.v hs1 rfl rfl)) (.v hs1 rfl rfl))
      (ih (hs.mono hq.heap)))

theorem mkList_append (xs ys : List Val) (b : Val) : mkList (xs ++ ys) b = mkList xs (mkList ys b) := by simp [mkList]
theorem mkList_vlist (xs ys : List Val) : mkList xs (vlist ys) = vlist (xs ++ ys) := by simp [mkList, vlist]

theorem folds_concat2 {s : St} {f : Val} (hf : ∀ xs b, Returns W s f [vlist xs, b] (mkList xs b)) (xss : List (List Val)) :
    ∀ (a : List Val) (b : Val), Folds W s f (vlist a) (xss.map vlist ++ [b]) (mkList (a ++ xss.flatten) b) := by
  induction xss with
  | nil => intro a b; simpa using Folds.cons (hf a b) .nil
  | cons xs xss ih =>
    intro a b
    refine .cons (b := vlist (a ++ xs)) ?_ ?_
    · rw [← mkList_vlist]; exact hf a (vlist xs)
    · have := ih (a ++ xs) b
      simpa [List.append_assoc] using this

section
variable {s : St} (hc : Base s.heap 0)
include hc

theorem ret_concat0 : Returns W s k_concat [] .nil := by
  refine Returns.letNamed (F := concat2Fn) (by simp [ArityOk]) (by decide) (.base hc) (by decide) rfl rfl (fun _ => rfl) fun s1 e1 e2 hq hs1 hs2 => ?_
  exact .whenF (xs := [_]) hs2 (plain_of rfl) ⟨concat2Fn e1, .inl rfl, rfl, fun xs b => ret_concat2Fn hs1 xs b⟩ (.v hs2 rfl rfl)

/-- `concat` of lists, and a last argument that may be anything. -/
theorem ret_concat (xss : List (List Val)) (b : Val) : Returns W s k_concat (xss.map vlist ++ [b]) (mkList xss.flatten b) := by
  refine Returns.letNamed (F := concat2Fn) (by simp [ArityOk]) (by decide) (.base hc) (by decide) rfl rfl (fun _ => rfl) fun s1 e1 e2 hq hs1 hs2 => ?_
  have hcc : ∀ s2, Quiet s1 s2 → ∀ xs b, Returns W s2 (concat2Fn e1) [vlist xs, b] (mkList xs b) :=
    fun s2 hq2 xs b => ret_concat2Fn (hs1.mono hq2.heap) xs b
  have hl : vlist (xss.map vlist ++ [b]) ≠ .nil := by cases xss <;> simp
  refine .whenT hs2 (plain_of rfl) ⟨concat2Fn e1, .inl rfl, rfl, hcc s1 (.refl _)⟩ (.v hs2 rfl rfl) hl fun s2 e3 hq2 hs3 => ?_
  refine .fn hs3 rfl hd_reduce (.two (.v hs3 rfl rfl) (.v hs3 rfl rfl)) ?_
  have hb := (hc.mono hq.heap).mono hq2.heap
  cases xss with
  | nil => exact ret_reduce (W := W) hb rfl .nil
  | cons xs xss => exact ret_reduce hb rfl (folds_concat2 (hcc s2 hq2) xss xs b)

theorem ret_concat_lists (xss : List (List Val)) : Returns W s k_concat (xss.map vlist) (vlist xss.flatten) := by
  rcases List.eq_nil_or_concat xss with rfl | ⟨yss, ys, rfl⟩
  · exact ret_concat0 hc
  · have := ret_concat (W := W) hc yss (vlist ys)
    rw [mkList_vlist] at this
    simpa using this
end

end L1
