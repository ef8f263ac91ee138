import Verif.Lemmas.CoreSeq
/- The functions of the core library that make functions. -/
set_option autoImplicit false
namespace L1

variable {W : World}

theorem Makes.lam {s : St} {ps : List String} {r : String} {x doc : Val} {m : Bool} {cenv : Nat} {vs : List Val} {L0 : List (String × Val)} {P : St → Val → Prop}
    (ha : ArityOk ps r vs) (ht : NoT ps r) (h0 : Sc s.heap cenv L0)
    (h : ∀ s1 e1, Quiet s s1 → Sc s1.heap e1 (paramSyms ps r vs ++ L0) → GP W s1 e1 x P) :
    Makes W s (.lam ps r (vlist [x]) doc m cenv) vs P := fun s' e hq => by
  have hq1 : Quiet s' (callSt s' cenv ps r vs) := (Quiet.refl s').grow (List.prefix_append _ _)
  have hsc : Sc (callSt s' cenv ps r vs).heap s'.heap.length (paramSyms ps r vs ++ L0) := by
    refine .frame (p := cenv) ?_ ?_ (h0.mono (hq.trans hq1).heap)
    · simp [callSt]
    · exact (h0.mono hq.heap).lt
  obtain ⟨v, s'', h1, h2, h3⟩ := h _ _ (hq.trans hq1) hsc _ (.refl _)
  refine ⟨v, s'', ?_, hq1.trans h2, h3⟩
  unfold callFn
  rw [evApply_lam ha ht]
  exact h1

/-- The arguments quietly have values with property `Q`. -/
def GAP (W : World) (s : St) (e : Nat) (xs : List Val) (Q : St → List Val → Prop) : Prop :=
  ∀ s', Quiet s s' → ∃ vs s'', EvalsTo W e xs s' vs s'' ∧ Quiet s' s'' ∧ Q s'' vs

theorem GA.gap {s : St} {e : Nat} {xs vs : List Val} (h : GA W s e xs vs) : GAP W s e xs (fun _ ws => ws = vs) := fun s' h' => by
  obtain ⟨s2, h1, h2⟩ := h.evals s' h'
  exact ⟨vs, s2, h1, h2, rfl⟩

theorem GAP.cons {s : St} {e : Nat} {x : Val} {xs : List Val} {P : St → Val → Prop} {Q : St → List Val → Prop} (hl : Lasts P) (h : GP W s e x P) (h2 : GAP W s e xs Q) :
    GAP W s e (x :: xs) (fun s1 ws => ∃ v vs, ws = v :: vs ∧ P s1 v ∧ Q s1 vs) := fun s' h' => by
  obtain ⟨v, s1, e1, q1, p1⟩ := h s' h'
  obtain ⟨vs, s2, e2, q2, p2⟩ := h2 s1 (h'.trans q1)
  exact ⟨v :: vs, s2, .cons e1 e2, q1.trans q2, v, vs, rfl, hl _ _ _ q2 p1, p2⟩

theorem GP.callAny {s : St} {e : Nat} {fx f : Val} {xs : List Val} {Q : St → List Val → Prop} {P : St → Val → Prop} (hh : ∀ s', Quiet s s' → CallHead s'.heap e fx) (hf : G W s e fx f)
    (ha : GAP W s e xs Q) (hr : ∀ s1 vs, Quiet s s1 → Q s1 vs → Makes W s1 f vs P) : GP W s e (.cons fx (vlist xs)) P := fun s' h' => by
  obtain ⟨s1, e1, q1⟩ := hf s' h'
  obtain ⟨vs, s2, e2, q2, p2⟩ := ha s1 (h'.trans q1)
  obtain ⟨v, s3, e3, q3, p3⟩ := hr s2 vs ((h'.trans q1).trans q2) p2 s2 e (.refl _)
  refine ⟨v, s3, ?_, (q1.trans q2).trans q3, p3⟩
  rw [eval_reaches (hh s' h') ⟨s1, e1, e2⟩]; exact e3

theorem GP.callVar {s : St} {e : Nat} {L : List (String × Val)} {a : String} {f : Val} {xs : List Val} {Q : St → List Val → Prop} {P : St → Val → Prop} (hs : Sc s.heap e L)
    (hx : alGet a L = some f) (hm : f.notMacro = true) (hsp : specialOf a = none) (hc : isCxr a = false) (ht : a ≠ "t")
    (ha : GAP W s e xs Q) (hr : ∀ s1 vs, Quiet s s1 → Q s1 vs → Makes W s1 f vs P) : GP W s e (.cons (.atom a) (vlist xs)) P := by
  refine GP.callAny (fun s' h' => callHead_of hsp ?_) (.var hs hx hc ht) ha hr
  intro ps r b dc env he
  rw [(hs.mono h'.heap).lookup_some hx] at he
  exact notMacro_val hm ps r b dc env (Option.some.inj he)

theorem GP.fn {s : St} {e : Nat} {L : List (String × Val)} {a : String} {f : Val} {xs : List Val} {Q : St → List Val → Prop} {P : St → Val → Prop} (hs : Sc s.heap e L)
    (hx : alGet a L = none) (hk : Head a f) (ha : GAP W s e xs Q) (hr : ∀ s1 vs, Quiet s s1 → Q s1 vs → Makes W s1 f vs P) :
    GP W s e (.cons (.atom a) (vlist xs)) P := by
  refine GP.callAny (fun s' h' => callHead_of hk.special ?_) (.name hs hx hk) ha hr
  intro ps r b dc env he
  have hk2 := hk.val
  have hm := hk.notMacro
  unfold coreVal at hk2
  cases hkn : known a with
  | none => rw [hkn] at hk2; cases hk2
  | some w =>
    rw [(hs.mono h'.heap).lookup_known hx hkn] at he
    subst he
    rw [hkn] at hk2
    cases hk2; cases hm

theorem GP.g {s : St} {e : Nat} {x v : Val} (h : GP W s e x (fun _ w => w = v)) : G W s e x v := fun s' h' => by
  obtain ⟨w, s2, h1, h2, rfl⟩ := h s' h'
  exact ⟨s2, h1, h2⟩

/-- The clauses of a `cond` quietly lead to a value with property `P`. -/
def GCP (W : World) (s : St) (e : Nat) (cl : List Val) (P : St → Val → Prop) : Prop :=
  ∀ s', Quiet s s' → ∃ v s'', evCond (perform W) (perform W) e (vlist cl) s' = .ok v s'' ∧ Quiet s' s'' ∧ P s'' v

theorem GCP.skip {s : St} {e : Nat} {c : Val} {b rest : List Val} {P : St → Val → Prop} (h1 : G W s e c .nil) (h2 : GCP W s e rest P) :
    GCP W s e (vlist (c :: b) :: rest) P := fun s' h' => by
  obtain ⟨s1, e1, q1⟩ := h1 s' h'
  obtain ⟨v, s2, e2, q2, p2⟩ := h2 s1 (h'.trans q1)
  refine ⟨v, s2, ?_, q1.trans q2, p2⟩
  simp only [vlist_cons, evCond, perform_eval]
  rw [M.bind_ok (extend_ok e1), M.ite_pos rfl]; exact e2

theorem GCP.hit {s : St} {e : Nat} {c w x : Val} {more rest : List Val} {P : St → Val → Prop} (h1 : G W s e c w) (hw : w ≠ .nil) (h2 : GP W s e x P) :
    GCP W s e (vlist (c :: x :: more) :: rest) P := fun s' h' => by
  obtain ⟨s1, e1, q1⟩ := h1 s' h'
  obtain ⟨v, s2, e2, q2, p2⟩ := h2 s1 (h'.trans q1)
  refine ⟨v, s2, ?_, q1.trans q2, p2⟩
  simp only [vlist_cons, evCond, perform_eval]
  rw [M.bind_ok (extend_ok e1), M.ite_neg hw]; exact e2

theorem GP.cond {s : St} {e : Nat} {L : List (String × Val)} {cl : List Val} {P : St → Val → Prop} (hs : Sc s.heap e L) (hx : alGet "cond" L = none)
    (h : GCP W s e cl P) : GP W s e (vlist (.atom "cond" :: cl)) P := fun s' h' => by
  have h1 := eval_sform W .cond cl e s' ((hs.mono h'.heap).notMacro_sf hx known_cond)
  obtain ⟨v, s'', h2, h3, p⟩ := h s' h'
  exact ⟨v, s'', h1.trans h2, h3, p⟩

theorem GP.let1 {s : St} {e : Nat} {L : List (String × Val)} {bs : List Val} {l : List (String × Val)} {x : Val} {P : St → Val → Prop}
    (hs : Sc s.heap e L) (hx : alGet "let" L = none) (hb : GB W s e bs l)
    (h : ∀ s1 e1, Quiet s s1 → Sc s1.heap e1 (letSyms l ++ L) → GP W s1 e1 x P) :
    GP W s e (vlist [.atom "let", vlist bs, x]) P := fun s' h' => by
  have h1 := eval_sform W .let_ [vlist bs, x] e s' ((hs.mono h'.heap).notMacro_sf hx known_let)
  have hq1 : Quiet s' { s' with heap := s'.heap ++ [⟨[], some e⟩] } := (Quiet.refl s').grow (List.prefix_append _ _)
  obtain ⟨s2, e2, q2, f2⟩ := hb.run s' { s' with heap := s'.heap ++ [⟨[], some e⟩] } s'.heap.length [] (some e) h' hq1 (Nat.le_refl _) (by simp)
  obtain ⟨v, s3, e3, q3, p3⟩ := h s2 s'.heap.length (h'.trans q2) (.frame f2 ((hs.mono h'.heap).lt) (hs.mono (h'.trans q2).heap)) s2 (.refl _)
  refine ⟨v, s3, h1.trans ?_, q2.trans q3, p3⟩
  simp only [evSpecial, vlist_cons, vlist_nil, evLet, isList_vlist, isList_cons, if_true]
  rw [M.bind_ok (newEnvM_run _ _), M.bind_ok e2, M.ite_pos rfl]
  exact e3

theorem Returns.apply {s : St} {f v : Val} {as rest : List Val} (h : Returns W s f (as ++ rest) v) :
    Returns W s (.bi .apply) (f :: (as ++ [vlist rest])) v := fun s' e h' => by
  obtain ⟨s2, h1, h2⟩ := h s' e h'
  refine ⟨s2, ?_, h2⟩
  have := same_apply W e f as rest s'
  unfold callFn at h1 ⊢
  rw [h1] at this
  simp only [evApply]
  refine extend_ok ?_
  cases hp : perform W (.builtin .apply (f :: (as ++ [vlist rest])) e) s' with
  | ok w s3 =>
    rw [hp] at this
    obtain ⟨rfl, rfl⟩ := this
    rfl
  | _ => rw [hp] at this; cases this

/-- Folding from the left with the function value `f`, by an invariant on the accumulator and the rest of the list. -/
theorem makes_inner {s : St} {e1 : Nat} {f x r : Val} (hs : Sc s.heap e1 ([("args", r), ("f", f), ("x", x), ("inner", innerFn e1)] ++ [])) {g : Val}
    (hm : g.notMacro = true) (I : St → Val → List Val → Prop) (hl : ∀ s s' a xs, Quiet s s' → I s a xs → I s' a xs)
    (hstep : ∀ s1 a x xs, Quiet s s1 → I s1 a (x :: xs) → Makes W s1 g [a, x] (fun s2 b => I s2 b xs)) (xs : List Val) :
    ∀ s1 a, Quiet s s1 → I s1 a xs → Makes W s1 (innerFn e1) [g, a, vlist xs] (fun s2 b => I s2 b []) := by
  induction xs with
  | nil =>
    intro s1 a hq hi
    exact .lam rfl (by decide) (hs.mono hq.heap) fun s2 e2 hq2 hs1 => .weaken (G.gp (P := fun s2 b => I s2 b []) (.ifT hs1 (plain_of rfl) (.not_nil hs1 rfl (.v hs1 rfl rfl)) (by decide) (.v hs1 rfl rfl))
      fun s3 hq3 => hl _ _ _ _ (hq2.trans hq3) hi) fun _ _ _ h => h
  | cons x xs ih =>
    intro s1 a hq hi
    refine .lam rfl (by decide) (hs.mono hq.heap) fun s2 e2 hq2 hs1 => ?_
    refine (Becomes.if_ hs1 (plain_of rfl)).gp (.cond hs1 rfl (.skip (.not_cons hs1 rfl (.v hs1 rfl rfl) (by simp)) (.hit (.t _ _) (by decide) ?_)))
    refine .callVar hs1 rfl rfl rfl rfl (by decide) (.cons (P := fun _ w => w = g) (fun _ _ _ _ h => h) (G.gp (.v hs1 rfl rfl) fun _ _ => rfl) (.cons (P := fun s b => I s b xs) (fun _ _ _ h h' => hl _ _ _ _ h h')
      (.callVar hs1 rfl hm rfl rfl (by decide) (GA.gap (.two (.v hs1 rfl rfl) (.car hs1 rfl (.v hs1 rfl rfl)))) fun s3 vs hq3 hvs => by
        subst hvs; exact hstep s3 a x xs ((hq.trans hq2).trans hq3) (hl _ _ _ _ (hq2.trans hq3) hi)) (GA.gap (.one (.cdr hs1 rfl (.v hs1 rfl rfl)))))) ?_
    rintro s3 _ hq3 ⟨_, _, rfl, rfl, b, _, rfl, hb, rfl⟩
    exact ih s3 b ((hq.trans hq2).trans hq3) hb

theorem makes_reduce {s : St} (hc : Base s.heap 0) {g : Val} (hm : g.notMacro = true) (I : St → Val → List Val → Prop) (hl : ∀ s s' a xs, Quiet s s' → I s a xs → I s' a xs)
    (hstep : ∀ s1 a x xs, Quiet s s1 → I s1 a (x :: xs) → Makes W s1 g [a, x] (fun s2 b => I s2 b xs)) (a : Val) (xs : List Val) (hi : I s a xs) :
    Makes W s k_reduce [g, vlist (a :: xs)] (fun s2 b => I s2 b []) := by
  refine Makes.letNamed (F := innerFn) (by simp [ArityOk]) (by decide) (.base hc) (by decide) rfl rfl (fun _ => rfl) fun s1 e1 e2 hq hs1 hs2 => ?_
  refine .cond hs2 rfl (.hit (.not_nil hs2 rfl (.v hs2 rfl rfl)) (by decide) ((Becomes.if_ hs2 (plain_of rfl)).gp (.cond hs2 rfl
    (.skip (.not_cons hs2 rfl (.v hs2 rfl rfl) (by simp)) (.hit (.t _ _) (by decide) ?_)))))
  refine .callVar hs2 rfl rfl rfl rfl (by decide) (GA.gap (.cons (.v hs2 rfl rfl) (.two (.car hs2 rfl (.v hs2 rfl rfl)) (.cdr hs2 rfl (.v hs2 rfl rfl))))) ?_
  rintro s3 _ hq3 rfl
  exact makes_inner hs1 hm I hl (fun s4 a x xs hq4 => hstep s4 a x xs (hq.trans hq4)) xs s3 a hq3 (hl _ _ _ _ (hq.trans hq3) hi)


theorem Returns.lasts {f v : Val} {vs : List Val} : ∀ s s', Quiet s s' → Returns W s f vs v → Returns W s' f vs v := fun _ _ hq h => h.mono hq

section
variable {s : St} (hc : Base s.heap 0)
include hc

/-- What `(complement f)` is. -/
theorem ret_complement {f : Val} (hm : f.notMacro = true) : Makes W s k_complement [f] (fun s1 c => c.notMacro = true ∧
    ∀ s2, Quiet s1 s2 → ∀ x v, Returns W s2 f [x] v → Returns W s2 c [x] (vBool (v == .nil))) := by
  refine .lam rfl (by decide) (.base hc) fun s1 e1 hq hs => ?_
  refine G.gp (.lambda (v := .lam ["x"] "" (vlist [vlist [.atom "not", vlist [.atom "f", .atom "x"]]]) .nil false e1) hs rfl known_lambda fun _ => rfl) fun s2 hq2 => ⟨rfl, ?_⟩
  intro s3 hq3 x v hr
  exact .lam rfl (by decide) (hs.mono (hq2.trans hq3).heap) fun s4 e4 hq4 hs4 => .not hs4 rfl
    (.callVar hs4 rfl hm rfl rfl (by decide) (.one (.v hs4 rfl rfl)) (hr.mono hq4))

theorem ret_remove {f : Val} {g : Val → Val} (hm : f.notMacro = true) (xs : List Val) (h : ∀ x ∈ xs, Returns W s f [x] (g x)) :
    Returns W s k_remove [f, vlist xs] (vlist (xs.filter fun x => g x = .nil)) := by
  refine .lam rfl (by decide) (.base hc) fun s1 e1 hq hs => ?_
  refine GP.g (GP.fn hs rfl hd_filter (.cons (P := fun s1 c => c.notMacro = true ∧ ∀ s2, Quiet s1 s2 → ∀ x v, Returns W s2 f [x] v → Returns W s2 c [x] (vBool (v == .nil))) ?_ (.fn hs rfl hd_complement (GA.gap (.one (.v hs rfl rfl))) ?_) (GA.gap (.one (.v hs rfl rfl)))) ?_)
  · rintro s2 s3 v hq3 ⟨h1, h2⟩
    exact ⟨h1, fun s4 hq4 => h2 s4 (hq3.trans hq4)⟩
  · rintro s2 _ hq2 rfl
    exact ret_complement ((hc.mono hq.heap).mono hq2.heap) hm
  · rintro s2 _ hq2 ⟨c, _, rfl, ⟨h1, h2⟩, rfl⟩
    have := ret_filter (W := W) ((hc.mono hq.heap).mono hq2.heap) h1 xs fun x hx => h2 s2 (.refl _) x (g x) ((h x hx).mono (hq.trans hq2))
    rw [show xs.filter (fun x => decide (vBool (g x == .nil) ≠ .nil)) = xs.filter fun x => decide (g x = .nil) by
      congr 1; funext x; by_cases hg : g x = .nil <;> simp [hg, vBool, vTrue]] at this
    exact this.makes fun _ _ => rfl

/-- What `(constantly x)` is. -/
theorem ret_constantly (x : Val) : Makes W s k_constantly [x] (fun s1 c => c.notMacro = true ∧ ∀ s2, Quiet s1 s2 → ∀ vs, Returns W s2 c vs x) := by
  refine .lam rfl (by decide) (.base hc) fun s1 e1 hq hs => ?_
  refine G.gp (.lambda (v := .lam [] "_" (vlist [.atom "x"]) .nil false e1) hs rfl known_lambda fun _ => rfl) fun s2 hq2 => ⟨rfl, ?_⟩
  intro s3 hq3 vs
  exact .lam (by simp [ArityOk]) (by decide) (hs.mono (hq2.trans hq3).heap) fun s4 e4 hq4 hs4 => .v hs4 rfl rfl

/-- What `(partial f a ...)` is. -/
theorem ret_partial (f : Val) (as : List Val) : Makes W s k_partial (f :: as) (fun s1 c => c.notMacro = true ∧
    ∀ s2, Quiet s1 s2 → ∀ more v, Returns W s2 f (as ++ more) v → Returns W s2 c more v) := by
  refine .lam (by simp [ArityOk]) (by decide) (.base hc) fun s1 e1 hq hs => ?_
  refine G.gp (.lambda (v := .lam [] "more" (vlist [vlist [.atom "apply", .atom "f", vlist [.atom "concat", .atom "args", .atom "more"]]]) .nil false e1) hs rfl known_lambda fun _ => rfl) fun s2 hq2 => ⟨rfl, ?_⟩
  intro s3 hq3 more v hr
  refine .lam (by simp [ArityOk]) (by decide) (hs.mono (hq2.trans hq3).heap) fun s4 e4 hq4 hs4 => ?_
  have hb := hc.mono (((hq.trans hq2).trans hq3).trans hq4).heap
  have h3 := ret_concat_lists (W := W) hb [as, more]
  rw [show [as, more].flatten = as ++ more by simp] at h3
  exact .fn hs4 rfl hd_apply (.two (.v hs4 rfl rfl) (.fn hs4 rfl hd_concat (.two (.v hs4 rfl rfl) (.v hs4 rfl rfl)) h3))
    (Returns.apply (as := []) (hr.mono hq4))

/-- What `(juxt f ...)` is. -/
theorem ret_juxt {fs : List Val} (hm : ∀ f ∈ fs, f.notMacro = true) : Makes W s k_juxt fs (fun s1 c => c.notMacro = true ∧
    ∀ s2, Quiet s1 s2 → ∀ x (g : Val → Val), (∀ f ∈ fs, Returns W s2 f [x] (g f)) → Returns W s2 c [x] (vlist (fs.map g))) := by
  refine .lam (by simp [ArityOk]) (by decide) (.base hc) fun s1 e1 hq hs => ?_
  refine G.gp (.lambda (v := .lam ["x"] "" (vlist [vlist [.atom "map", vlist [.atom "lambda", vlist [.atom "f"], vlist [.atom "f", .atom "x"]], .atom "fs"]]) .nil false e1)
    hs rfl known_lambda fun _ => rfl) fun s2 hq2 => ⟨rfl, ?_⟩
  intro s3 hq3 x g hr
  refine .lam rfl (by decide) (hs.mono (hq2.trans hq3).heap) fun s4 e4 hq4 hs4 => ?_
  have hb := hc.mono (((hq.trans hq2).trans hq3).trans hq4).heap
  refine .fn hs4 rfl hd_map (.two (.lambda (v := .lam ["f"] "" (vlist [vlist [.atom "f", .atom "x"]]) .nil false e4) hs4 rfl known_lambda fun _ => rfl) (.v hs4 rfl rfl)) ?_
  refine ret_map hb rfl fs fun f hf => ?_
  exact .lam rfl (by decide) hs4 fun s5 e5 hq5 hs5 => .callVar hs5 rfl (hm f hf) rfl rfl (by decide) (.one (.v hs5 rfl rfl)) ((hr f hf).mono (hq4.trans hq5))

theorem ret_notEq (a : Val) (vs : List Val) : Returns W s k_notEq (a :: vs) (vBool !(vs.all fun v => a.equal v)) := by
  refine .lam (by simp [ArityOk]) (by decide) (.base hc) fun s1 e1 hq hs => ?_
  have : Returns W s1 (.bi .eq) ([] ++ (a :: vs)) (vBool (vs.all fun v => a.equal v)) := .bi fun _ _ _ => by simp [biFn, bEq]
  have := G.not (W := W) (x := vlist [.atom "apply", .atom "=", .atom "terms"]) hs rfl (.fn hs rfl hd_apply (.two (.name hs rfl hd_eq) (.v hs rfl rfl)) this.apply)
  cases h : (vs.all fun v => a.equal v) <;> rw [h] at this <;> exact this


omit hc in
theorem folds_num {f : Val} {g : Int → Int → Int} (h : ∀ m n : Int, Returns W s f [.num m, .num n] (.num (g m n))) (ns : List Int) :
    ∀ a : Int, Folds W s f (.num a) (ns.map .num) (.num (ns.foldl g a)) := by
  induction ns with
  | nil => intro a; exact .nil
  | cons n ns ih => intro a; exact .cons (h a n) (ih _)


theorem ret_max2 (m n : Int) : Returns W s k_max [.num m, .num n] (.num (max m n)) := by
  refine .lam (by simp [ArityOk]) (by decide) (.base hc) fun s1 e1 hq hs => ?_
  have hb := hc.mono hq.heap
  refine .let1 hs rfl known_let (.cons (by decide) (.len (xs := [.num m, .num n]) hs rfl (.v hs rfl rfl)) (.cons (by decide)
    (.fn hs rfl hd_first (.one (.v hs rfl rfl)) (.bi fun _ _ _ => rfl)) (.cons (by decide) (.fn hs rfl hd_second (.one (.v hs rfl rfl)) (ret_second hb [.num m, .num n])) .nil))) fun s2 e2 hq2 hs2 => ?_
  have hb2 := hb.mono hq2.heap
  refine .cond_ hs2 rfl (.skip (.zeroF (n := 2) hs2 rfl hb2 (.v hs2 rfl rfl) (by decide)) (.skip (.eq hs2 rfl (.num _ _ 1) (.v (v := .num 2) hs2 rfl rfl))
    (.hit (.eq hs2 rfl (.num _ _ 2) (.v (v := .num 2) hs2 rfl rfl)) (by decide) ?_)))
  have hlt := G.lt (W := W) (x := .atom "n1") (y := .atom "n2") (m := m) (n := n) hs2 rfl (.v hs2 rfl rfl) (.v hs2 rfl rfl)
  by_cases h : m < n
  · rw [show max m n = n by omega]
    exact .ifT hs2 (plain_of rfl) hlt (by simp [h, vBool, vTrue]) (.v hs2 rfl rfl)
  · rw [show max m n = m by omega]
    rw [decide_eq_false h] at hlt
    exact .ifF hs2 (plain_of rfl) hlt (.v hs2 rfl rfl)

theorem ret_max (n : Int) (ns : List Int) : Returns W s k_max ((n :: ns).map .num) (.num (ns.foldl max n)) := by
  match ns with
  | [] =>
    refine .lam (by simp [ArityOk]) (by decide) (.base hc) fun s1 e1 hq hs => ?_
    have hb := hc.mono hq.heap
    refine .let1 hs rfl known_let (.cons (by decide) (.len (xs := [.num n]) hs rfl (.v hs rfl rfl)) (.cons (by decide)
      (.fn hs rfl hd_first (.one (.v hs rfl rfl)) (.bi fun _ _ _ => rfl)) (.cons (by decide) (.fn hs rfl hd_second (.one (.v hs rfl rfl)) (ret_second hb [.num n])) .nil))) fun s2 e2 hq2 hs2 => ?_
    have hb2 := hb.mono hq2.heap
    exact .cond_ hs2 rfl (.skip (.zeroF (n := 1) hs2 rfl hb2 (.v hs2 rfl rfl) (by decide)) (.hit (.eq hs2 rfl (.num _ _ 1) (.v (v := .num 1) hs2 rfl rfl)) (by decide) (.v hs2 rfl rfl)))
  | [m] => exact ret_max2 hc n m
  | m :: k :: ns =>
    refine .lam (by simp [ArityOk]) (by decide) (.base hc) fun s1 e1 hq hs => ?_
    have hb := hc.mono hq.heap
    refine .let1 hs rfl known_let (.cons (by decide) (.len (xs := (n :: m :: k :: ns).map .num) hs rfl (.v hs rfl rfl)) (.cons (by decide)
      (.fn hs rfl hd_first (.one (.v hs rfl rfl)) (.bi fun _ _ _ => rfl)) (.cons (by decide) (.fn hs rfl hd_second (.one (.v hs rfl rfl)) (ret_second hb ((n :: m :: k :: ns).map .num))) .nil))) fun s2 e2' hq2 hs2 => ?_
    have hb2 := hb.mono hq2.heap
    have hlen : (((n :: m :: k :: ns).map Val.num).length : Int) = ns.length + 3 := by simp; omega
    have hnum : G W s2 e2' (.atom "n") (.num (ns.length + 3)) := by rw [← hlen]; exact .v hs2 rfl rfl
    have e1 := G.eq (W := W) (x := .num 1) hs2 rfl (.num _ _ 1) hnum
    have e2 := G.eq (W := W) (x := .num 2) hs2 rfl (.num _ _ 2) hnum
    have n1 : ((1 : Int) == ns.length + 3) = false := by rw [beq_eq_false_iff_ne]; omega
    have n2 : ((2 : Int) == ns.length + 3) = false := by rw [beq_eq_false_iff_ne]; omega
    simp only [Val.equal, n1] at e1
    simp only [Val.equal, n2] at e2
    refine .cond_ hs2 rfl (.skip (.zeroF hs2 rfl hb2 hnum (by omega)) (.skip e1 (.skip e2 (.hit (.t _ _) (by decide) ?_))))
    have a1 : G W s2 e2' (vlist [.atom "max", .atom "n1", .atom "n2"]) (.num (max n m)) := .fn hs2 rfl hd_max (.two (.v hs2 rfl rfl) (.v hs2 rfl rfl)) (ret_max2 hb2 n m)
    have a2 : G W s2 e2' (vlist [.atom "cdr", vlist [.atom "cdr", .atom "args"]]) (vlist ((k :: ns).map .num)) :=
      .cdr hs2 rfl (.cdr hs2 rfl (.v (v := vlist ((n :: m :: k :: ns).map .num)) hs2 rfl rfl))
    refine .fn hs2 rfl hd_reduce (.cons (.name hs2 rfl hd_max) (.two a1 a2)) ?_
    exact ret_reduce_init hb2 rfl (folds_num (fun m n => ret_max2 hb2 m n) (k :: ns) _)

theorem ret_min2 (m n : Int) : Returns W s k_min [.num m, .num n] (.num (min m n)) := by
  refine .lam (by simp [ArityOk]) (by decide) (.base hc) fun s1 e1 hq hs => ?_
  have hb := hc.mono hq.heap
  refine .let1 hs rfl known_let (.cons (by decide) (.len (xs := [.num m, .num n]) hs rfl (.v hs rfl rfl)) (.cons (by decide)
    (.fn hs rfl hd_first (.one (.v hs rfl rfl)) (.bi fun _ _ _ => rfl)) (.cons (by decide) (.fn hs rfl hd_second (.one (.v hs rfl rfl)) (ret_second hb [.num m, .num n])) .nil))) fun s2 e2 hq2 hs2 => ?_
  have hb2 := hb.mono hq2.heap
  refine .cond_ hs2 rfl (.skip (.zeroF (n := 2) hs2 rfl hb2 (.v hs2 rfl rfl) (by decide)) (.skip (.eq hs2 rfl (.num _ _ 1) (.v (v := .num 2) hs2 rfl rfl))
    (.hit (.eq hs2 rfl (.num _ _ 2) (.v (v := .num 2) hs2 rfl rfl)) (by decide) ?_)))
  have hlt := G.lt (W := W) (x := .atom "n2") (y := .atom "n1") (m := n) (n := m) hs2 rfl (.v hs2 rfl rfl) (.v hs2 rfl rfl)
  by_cases h : n < m
  · rw [show min m n = n by omega]
    exact .ifT hs2 (plain_of rfl) hlt (by simp [h, vBool, vTrue]) (.v hs2 rfl rfl)
  · rw [show min m n = m by omega]
    rw [decide_eq_false h] at hlt
    exact .ifF hs2 (plain_of rfl) hlt (.v hs2 rfl rfl)

theorem ret_min (n : Int) (ns : List Int) : Returns W s k_min ((n :: ns).map .num) (.num (ns.foldl min n)) := by
  match ns with
  | [] =>
    refine .lam (by simp [ArityOk]) (by decide) (.base hc) fun s1 e1 hq hs => ?_
    have hb := hc.mono hq.heap
    refine .let1 hs rfl known_let (.cons (by decide) (.len (xs := [.num n]) hs rfl (.v hs rfl rfl)) (.cons (by decide)
      (.fn hs rfl hd_first (.one (.v hs rfl rfl)) (.bi fun _ _ _ => rfl)) (.cons (by decide) (.fn hs rfl hd_second (.one (.v hs rfl rfl)) (ret_second hb [.num n])) .nil))) fun s2 e2 hq2 hs2 => ?_
    have hb2 := hb.mono hq2.heap
    exact .cond_ hs2 rfl (.skip (.zeroF (n := 1) hs2 rfl hb2 (.v hs2 rfl rfl) (by decide)) (.hit (.eq hs2 rfl (.num _ _ 1) (.v (v := .num 1) hs2 rfl rfl)) (by decide) (.v hs2 rfl rfl)))
  | [m] => exact ret_min2 hc n m
  | m :: k :: ns =>
    refine .lam (by simp [ArityOk]) (by decide) (.base hc) fun s1 e1 hq hs => ?_
    have hb := hc.mono hq.heap
    refine .let1 hs rfl known_let (.cons (by decide) (.len (xs := (n :: m :: k :: ns).map .num) hs rfl (.v hs rfl rfl)) (.cons (by decide)
      (.fn hs rfl hd_first (.one (.v hs rfl rfl)) (.bi fun _ _ _ => rfl)) (.cons (by decide) (.fn hs rfl hd_second (.one (.v hs rfl rfl)) (ret_second hb ((n :: m :: k :: ns).map .num))) .nil))) fun s2 e2' hq2 hs2 => ?_
    have hb2 := hb.mono hq2.heap
    have hlen : (((n :: m :: k :: ns).map Val.num).length : Int) = ns.length + 3 := by simp; omega
    have hnum : G W s2 e2' (.atom "n") (.num (ns.length + 3)) := by rw [← hlen]; exact .v hs2 rfl rfl
    have e1 := G.eq (W := W) (x := .num 1) hs2 rfl (.num _ _ 1) hnum
    have e2 := G.eq (W := W) (x := .num 2) hs2 rfl (.num _ _ 2) hnum
    have n1 : ((1 : Int) == ns.length + 3) = false := by rw [beq_eq_false_iff_ne]; omega
    have n2 : ((2 : Int) == ns.length + 3) = false := by rw [beq_eq_false_iff_ne]; omega
    simp only [Val.equal, n1] at e1
    simp only [Val.equal, n2] at e2
    refine .cond_ hs2 rfl (.skip (.zeroF hs2 rfl hb2 hnum (by omega)) (.skip e1 (.skip e2 (.hit (.t _ _) (by decide) ?_))))
    have a1 : G W s2 e2' (vlist [.atom "min", .atom "n1", .atom "n2"]) (.num (min n m)) := .fn hs2 rfl hd_min (.two (.v hs2 rfl rfl) (.v hs2 rfl rfl)) (ret_min2 hb2 n m)
    have a2 : G W s2 e2' (vlist [.atom "cdr", vlist [.atom "cdr", .atom "args"]]) (vlist ((k :: ns).map .num)) :=
      .cdr hs2 rfl (.cdr hs2 rfl (.v (v := vlist ((n :: m :: k :: ns).map .num)) hs2 rfl rfl))
    refine .fn hs2 rfl hd_reduce (.cons (.name hs2 rfl hd_min) (.two a1 a2)) ?_
    exact ret_reduce_init hb2 rfl (folds_num (fun m n => ret_min2 hb2 m n) (k :: ns) _)

omit hc in
theorem Composes.mono {s1 : St} {fs xs : List Val} {v : Val} (h : Composes W s fs xs v) (hq : Quiet s s1) : Composes W s1 fs xs v := by
  induction h with
  | nil => exact .nil
  | one h => exact .one (h.mono hq)
  | cons _ h2 ih => exact .cons ih (h2.mono hq)

omit hc in
theorem Composes.snoc {fs : List Val} {h v : Val} {xs : List Val} (hn : fs ≠ []) (hh : Composes W s (fs ++ [h]) xs v) :
    ∃ w, Returns W s h xs w ∧ Composes W s fs [w] v := by
  induction fs generalizing v with
  | nil => exact absurd rfl hn
  | cons f fs ih =>
    cases fs with
    | nil =>
      cases hh with
      | cons h1 h2 =>
        cases h1 with
        | one h1 => exact ⟨_, h1, .one h2⟩
    | cons g gs =>
      cases hh with
      | cons h1 h2 =>
        obtain ⟨w, h3, h4⟩ := ih (by simp) h1
        exact ⟨w, h3, .cons h4 h2⟩

theorem ret_comp0 : Makes W s k_comp [] (IsComp W []) := by
  refine .lam (by simp [ArityOk]) (by decide) (.base hc) fun s1 e1 hq hs => ?_
  have hb := hc.mono hq.heap
  refine .let1 hs rfl (.cons (by decide) (.len (xs := []) hs rfl (.v hs rfl rfl)) (.cons (by decide)
      (.car_nil hs rfl (.v hs rfl rfl)) (.cons (by decide) (.fn hs rfl hd_second (.one (.v hs rfl rfl)) (ret_second hb [])) .nil))) fun s2 e2 hq2 hs2 => ?_
  have hb2 := hb.mono hq2.heap
  refine .cond hs2 rfl (.hit (.zeroT hs2 rfl hb2 (.v hs2 rfl rfl)) (by decide) (G.gp (.name hs2 rfl hd_identity) fun s3 hq3 => ⟨rfl, fun s4 hq4 xs v hcm => ?_⟩))
  cases hcm
  exact ret_identity (hb2.mono (hq3.trans hq4).heap) _

theorem ret_comp1 {f : Val} (hm : f.notMacro = true) : Makes W s k_comp [f] (IsComp W [f]) := by
  refine .lam (by simp [ArityOk]) (by decide) (.base hc) fun s1 e1 hq hs => ?_
  have hb := hc.mono hq.heap
  refine .let1 hs rfl (.cons (by decide) (.len (xs := [f]) hs rfl (.v hs rfl rfl)) (.cons (by decide)
      (.car hs rfl (.v (v := vlist [f]) hs rfl rfl)) (.cons (by decide) (.fn hs rfl hd_second (.one (.v hs rfl rfl)) (ret_second hb [f])) .nil))) fun s2 e2 hq2 hs2 => ?_
  have hb2 := hb.mono hq2.heap
  refine .cond hs2 rfl (.skip (.zeroF (n := 1) hs2 rfl hb2 (.v hs2 rfl rfl) (by decide)) (.hit (.eq hs2 rfl (.v (v := .num 1) hs2 rfl rfl) (.num _ _ 1)) (by decide)
    (G.gp (.v hs2 rfl rfl) fun s3 hq3 => ⟨hm, fun s4 hq4 xs v hcm => ?_⟩)))
  cases hcm with
  | one h => exact h

theorem ret_comp2 {f g : Val} (hm : f.notMacro = true) : Makes W s k_comp [f, g] (fun s1 c => c.notMacro = true ∧ ∀ s2, Quiet s1 s2 → ∀ xs w v,
    Returns W s2 g xs w → Returns W s2 f [w] v → Returns W s2 c xs v) := by
  refine .lam (by simp [ArityOk]) (by decide) (.base hc) fun s1 e1 hq hs => ?_
  have hb := hc.mono hq.heap
  refine .let1 hs rfl (.cons (by decide) (.len (xs := [f, g]) hs rfl (.v hs rfl rfl)) (.cons (by decide)
      (.car hs rfl (.v (v := vlist [f, g]) hs rfl rfl)) (.cons (by decide) (.fn hs rfl hd_second (.one (.v hs rfl rfl)) (ret_second hb [f, g])) .nil))) fun s2 e2 hq2 hs2 => ?_
  have hb2 := hb.mono hq2.heap
  refine .cond hs2 rfl (.skip (.zeroF (n := 2) hs2 rfl hb2 (.v hs2 rfl rfl) (by decide)) (.skip (.eq hs2 rfl (.v (v := .num 2) hs2 rfl rfl) (.num _ _ 1))
    (.hit (.eq hs2 rfl (.v (v := .num 2) hs2 rfl rfl) (.num _ _ 2)) (by decide) ?_)))
  refine G.gp (.lambda (v := .lam [] "xs" (vlist [vlist [.atom "f", vlist [.atom "apply", .atom "g", .atom "xs"]]]) .nil false e2) hs2 rfl known_lambda fun _ => rfl) fun s3 hq3 => ⟨rfl, ?_⟩
  intro s4 hq4 xs w v h1 h2
  refine .lam (by simp [ArityOk]) (by decide) (hs2.mono (hq3.trans hq4).heap) fun s5 e5 hq5 hs5 => ?_
  exact .callVar hs5 rfl hm rfl rfl (by decide) (.one (.fn hs5 rfl hd_apply (.two (.v hs5 rfl rfl) (.v hs5 rfl rfl)) (Returns.apply (as := []) (h1.mono hq5)))) (h2.mono hq5)

theorem ret_comp {fs : List Val} (hm : ∀ f ∈ fs, f.notMacro = true) : Makes W s k_comp fs (IsComp W fs) := by
  match fs, hm with
  | [], _ => exact ret_comp0 hc
  | [f], hm => exact ret_comp1 hc (hm f (by simp))
  | [f, g], hm =>
    refine (ret_comp2 hc (hm f (by simp))).weaken fun s1 c _ h => ⟨h.1, fun s2 hq2 xs v hcm => ?_⟩
    obtain ⟨w, h1, h2⟩ := hcm.snoc (fs := [f]) (by simp)
    cases h2 with
    | one h2 => exact h.2 s2 hq2 xs w v h1 h2
  | f :: g :: k :: fs, hm =>
    refine .lam (by simp [ArityOk]) (by decide) (.base hc) fun s1 e1 hq hs => ?_
    have hb := hc.mono hq.heap
    refine .let1 hs rfl (.cons (by decide) (.len (xs := f :: g :: k :: fs) hs rfl (.v hs rfl rfl)) (.cons (by decide)
        (.car hs rfl (.v (v := vlist (f :: g :: k :: fs)) hs rfl rfl)) (.cons (by decide) (.fn hs rfl hd_second (.one (.v hs rfl rfl)) (ret_second hb (f :: g :: k :: fs))) .nil))) fun s2 e2 hq2 hs2 => ?_
    have hb2 := hb.mono hq2.heap
    have hlen : (((f :: g :: k :: fs)).length : Int) = fs.length + 3 := by simp; omega
    have hnum : G W s2 e2 (.atom "n") (.num (fs.length + 3)) := by rw [← hlen]; exact .v hs2 rfl rfl
    have e1 := G.eq (W := W) (y := .num 1) hs2 rfl hnum (.num _ _ 1)
    have e2 := G.eq (W := W) (y := .num 2) hs2 rfl hnum (.num _ _ 2)
    have n1 : ((fs.length + 3 : Int) == 1) = false := by rw [beq_eq_false_iff_ne]; omega
    have n2 : ((fs.length + 3 : Int) == 2) = false := by rw [beq_eq_false_iff_ne]; omega
    simp only [Val.equal, n1] at e1
    simp only [Val.equal, n2] at e2
    refine .cond hs2 rfl (.skip (.zeroF hs2 rfl hb2 hnum (by omega)) (.skip e1 (.skip e2 (.hit (.t _ _) (by decide) ?_))))
    have a2 := G.cdr (W := W) (x := vlist [.atom "cdr", .atom "fs"]) hs2 rfl (.cdr hs2 rfl (.v (a := "fs") (v := vlist (f :: g :: k :: fs)) hs2 rfl rfl))
    have a3 := G.fn (W := W) hs2 rfl hd_listStar (.cons (.v (a := "f") hs2 rfl rfl) (.two (.v (a := "g") hs2 rfl rfl) a2)) (ret_listStar hb2 [f, g] (vlist (k :: fs)))
    rw [mkList_vlist] at a3
    refine .fn hs2 rfl hd_reduce (GA.gap (.two (.name hs2 rfl hd_comp) a3)) ?_
    rintro s3 _ hq3 rfl
    have hb3 := hb2.mono hq3.heap
    have := makes_reduce (W := W) (g := k_comp) hb3 rfl (fun s a xs => a.notMacro = true ∧ ∃ done, done ≠ [] ∧ f :: g :: k :: fs = done ++ xs ∧
        ∀ s2, Quiet s s2 → ∀ ys v, Composes W s2 done ys v → Returns W s2 a ys v) ?_ ?_ f (g :: k :: fs) ?_
    · refine this.weaken ?_
      rintro s4 c _ ⟨h1, done, _, h3, h4⟩
      rw [List.append_nil] at h3
      rw [h3]
      exact ⟨h1, h4⟩
    · rintro s4 s5 a xs hq5 ⟨h1, done, h2, h3, h4⟩
      exact ⟨h1, done, h2, h3, fun s6 hq6 => h4 s6 (hq5.trans hq6)⟩
    · rintro s4 a x xs hq4 ⟨h1, done, h2, h3, h4⟩
      refine (ret_comp2 (hb3.mono hq4.heap) h1).weaken ?_
      rintro s5 c hq5 ⟨h5, h6⟩
      refine ⟨h5, done ++ [x], by simp, by simp [h3], fun s6 hq6 ys v hcm => ?_⟩
      obtain ⟨w, h7, h8⟩ := hcm.snoc h2
      exact h6 s6 hq6 ys w v h7 (h4 s6 (hq5.trans hq6) _ _ h8)
    · refine ⟨hm f (by simp), [f], by simp, rfl, fun s4 _ ys v hcm => ?_⟩
      cases hcm with
      | one h => exact h
end

end L1
