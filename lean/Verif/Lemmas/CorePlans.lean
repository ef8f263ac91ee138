import Verif.Lemmas.Under
import Verif.Lemmas.CoreEnum
/- The library functions that take a function, called with any ordinary function. -/
set_option autoImplicit false
namespace L1
variable {W : World}

/-- As `Sc`, on top of the top level, through scopes of `J` only. -/
inductive ScJ (J : Nat → Prop) (h : Heap) : Nat → List (String × Val) → Prop
  | base : Base h 0 → ScJ J h 0 []
  | frame {e p : Nat} {syms L : List (String × Val)} : h[e]? = some ⟨syms, some p⟩ → p < e → J e → ScJ J h p L → ScJ J h e (syms ++ L)

theorem ScJ.sc {J : Nat → Prop} {h : Heap} {e : Nat} {L : List (String × Val)} (hs : ScJ J h e L) : Sc h e L := by
  induction hs with
  | base hb => exact .base hb
  | frame h1 h2 _ _ ih => exact .frame h1 h2 ih

theorem ScJ.root {J : Nat → Prop} {h : Heap} {e : Nat} {L : List (String × Val)} (hs : ScJ J h e L) : Base h 0 := by
  induction hs with
  | base hb => exact hb
  | frame _ _ _ _ ih => exact ih

theorem ScJ.mono {J K : Nat → Prop} {h h' : Heap} {e : Nat} {L : List (String × Val)} (hs : ScJ J h e L) (hp : h <+: h') (hk : ∀ j, J j → K j) : ScJ K h' e L := by
  induction hs with
  | base hb => exact .base (hb.mono hp)
  | frame h1 h2 h3 _ ih => exact .frame (prefix_get hp h1) h2 (hk _ h3) ih

theorem ScJ.kept {J : Nat → Prop} {h h' : Heap} {e : Nat} {L : List (String × Val)} (hs : ScJ J h e L) (hb : Base h' 0) (hk : ∀ j, J j → h'[j]? = h[j]?) : ScJ J h' e L := by
  induction hs with
  | base _ => exact .base hb
  | frame h1 h2 h3 _ ih => exact .frame ((hk _ h3).trans h1) h2 h3 ih

theorem newIn.mono {s0 s s1 : St} (hq : Quiet s s1) {j : Nat} (h : newIn s0 s j) : newIn s0 s1 j := ⟨h.1, Nat.lt_of_lt_of_le h.2 hq.heap.length_le⟩

theorem madeBy.mono {J : Nat → Prop} {s0 s s1 : St} (hq : Quiet s s1) {j : Nat} (h : madeBy J s0 s j) : madeBy J s0 s1 j := h.imp id fun h => h.mono hq

theorem Under.set {s : St} {vs : List Val} {J : Nat → Prop} (h : Under s vs J) {e : Nat} (he : J e) (x : String) (v : Val) :
    Under { s with heap := heapSet s.heap e x v } vs J := by
  obtain ⟨R, c, hi, hr, hv, hj, hz⟩ := h
  refine ⟨⟨R.ρ, R.o, R.o', heapSet s.heap e x v, R.i, R.i'⟩, c, hi, ⟨hr.inj, hr.up, fun i => ?_, fun k => ?_, fun _ _ => rfl, hr.out, hr.inp, hr.gensym, hr.tick, hr.screen, hr.issued⟩, hv, hj, hz⟩
  · show (heapSet s.heap e x v)[R.ρ i]? = _
    rw [heapSet_get]; simp only [if_neg (hj e he i)]; rw [hr.frame i]; simp; rfl
  · show R.ρ (c.heap.length + k) = (heapSet s.heap e x v).length + k
    rw [heapSet_length]; exact hr.len k

/-! ### Quiet steps -/

theorem Quiet.still {s s' : St} (h : Quiet s s') (J : Nat → Prop) : Still J s s' :=
  ⟨h.heap.length_le, fun j hj _ => by obtain ⟨t, ht⟩ := h.heap; rw [← ht, List.getElem?_append_left hj], h.out, h.inp, h.tick, h.screen, h.gensym⟩

theorem Still.trans {J : Nat → Prop} {a b c : St} (h1 : Still J a b) (h2 : Still (madeBy J a b) b c) : Still J a c :=
  ⟨Nat.le_trans h1.len h2.len, fun j hj hn => (h2.heap j (Nat.lt_of_lt_of_le hj h1.len) fun h => h.elim hn fun h => absurd h.1 (Nat.not_le.2 hj)).trans (h1.heap j hj hn),
    h2.out.trans h1.out, h2.inp.trans h1.inp, h2.tick.trans h1.tick, h2.screen.trans h1.screen, Nat.le_trans h1.gensym h2.gensym⟩

theorem Still.set {J : Nat → Prop} {s : St} {e : Nat} (he : J e) (x : String) (v : Val) : Still J s { s with heap := heapSet s.heap e x v } :=
  ⟨Nat.le_of_eq (heapSet_length ..).symm, fun j _ hn => by
    show (heapSet s.heap e x v)[j]? = _
    rw [heapSet_get]; by_cases h : j = e
    · subst h; exact absurd he hn
    · simp only [if_neg h]; simp, rfl, rfl, rfl, rfl, Nat.le_refl _⟩

theorem madeBy_trans {J : Nat → Prop} {a b c : St} (h1 : a.heap.length ≤ b.heap.length) (h2 : b.heap.length ≤ c.heap.length) : madeBy (madeBy J a b) b c = madeBy J a c := by
  funext j
  refine propext ⟨fun h => ?_, fun h => ?_⟩
  · rcases h with (h | h) | h
    · exact .inl h
    · exact .inr ⟨h.1, Nat.lt_of_lt_of_le h.2 h2⟩
    · exact .inr ⟨Nat.le_trans h1 h.1, h.2⟩
  · rcases h with h | h
    · exact .inl (.inl h)
    · by_cases h3 : j < b.heap.length
      · exact .inl (.inr ⟨h.1, h3⟩)
      · exact .inr ⟨Nat.le_of_not_lt h3, h.2⟩

theorem madeBy_same {J : Nat → Prop} {a b : St} (h : b.heap.length ≤ a.heap.length) : madeBy J a b = J := by
  funext j
  refine propext ⟨fun h1 => ?_, .inl⟩
  rcases h1 with h1 | h1
  · exact h1
  · have := h1.1; have := h1.2; omega

/-! ### Following a plan -/

/-- Up to elements in front of an error. -/
def FollowsU (W : World) (f : Val) (own : Nat → Prop) (p : Plan) (s : St) (r : Res Val) : Prop := ∃ r0, Follows W f own p s r0 ∧ UpTo r0 r

theorem UpTo.refl (r : Res Val) : UpTo r r := .inl rfl

theorem UpTo.andThen {r r' : Res Val} {fr : Val} {k : Val → St → Res Val} (h : UpTo r r') (hn : ∀ y s, r ≠ .ok y s) : UpTo r (r'.andThen fr k) := by
  rcases h with rfl | ⟨er, s, frs, rfl, rfl⟩
  · cases r' with
    | ok y s => exact absurd rfl (hn y s)
    | err er s => exact .inr ⟨er, s, [fr], rfl, rfl⟩
    | _ => exact .inl rfl
  · exact .inr ⟨er, s, fr :: frs, rfl, rfl⟩

theorem Follows.still {f : Val} {own : Nat → Prop} {p : Plan} {s s' : St} {r : Res Val} (hq : Still own s s') (h : Follows W f (madeBy own s s') p s' r) : Follows W f own p s r := by
  generalize ho : madeBy own s s' = o at h
  cases h with
  | ret h => subst ho; exact .ret (hq.trans h)
  | call h1 h2 h3 h4 h5 =>
    subst ho
    rw [madeBy_trans hq.len h1.len] at h4 h5
    exact .call (hq.trans h1) h2 h3 h4 h5
  | stop h1 h2 h3 => subst ho; exact .stop (hq.trans h1) h2 h3
  | disturbed h1 h2 h3 => subst ho; exact .disturbed (hq.trans h1) h2 h3

theorem FollowsU.still {f : Val} {own : Nat → Prop} {p : Plan} {s s' : St} {r : Res Val} (hq : Still own s s') : FollowsU W f (madeBy own s s') p s' r → FollowsU W f own p s r :=
  fun ⟨r0, h1, h2⟩ => ⟨r0, h1.still hq, h2⟩

theorem FollowsU.quiet {f : Val} {own : Nat → Prop} {p : Plan} {s s' : St} {r : Res Val} (hq : Quiet s s') : FollowsU W f (madeBy own s s') p s' r → FollowsU W f own p s r :=
  .still (hq.still own)

theorem FollowsU.ret {f v : Val} {own : Nat → Prop} {s s' : St} (hq : Still own s s') : FollowsU W f own (.ret v) s (.ok v s') := ⟨_, .ret hq, .refl _⟩

/-- After the call of the function. -/
theorem FollowsU.call {f : Val} {own : Nat → Prop} (ho : f.ordinary = true) {args : List Val} {next : Val → Plan} {s s1 : St} {e : Nat} {r r1 : Res Val} (hq : Quiet s s1)
    (h1 : callFn W f args e s1 = r1)
    (hok : ∀ y s2, r1 = .ok y s2 → LibraryIntact s2.heap → (∀ j, madeBy own s s1 j → s2.heap[j]? = s1.heap[j]?) ∧ FollowsU W f (madeBy own s s1) (next y) s2 r)
    (hno : (∀ y s2, r1 ≠ .ok y s2) → UpTo r1 r) : FollowsU W f own (.call args next) s r := by
  rw [congrFun (callFn_anywhere (W := W) ho args e 0) s1] at h1
  by_cases h : ∃ y s2, r1 = .ok y s2
  · obtain ⟨y, s2, rfl⟩ := h
    by_cases hc : LibraryIntact s2.heap
    · obtain ⟨h0, r0, h2, h3⟩ := hok y s2 rfl hc
      exact ⟨r0, .call (hq.still _) h1 hc h0 h2, h3⟩
    · exact ⟨r, .disturbed (hq.still _) h1 hc, .refl _⟩
  · have hn : ∀ y s2, r1 ≠ .ok y s2 := fun y s2 he => h ⟨y, s2, he⟩
    exact ⟨r1, .stop (hq.still _) h1 hn, hno hn⟩

/-- The value changed at the end. -/
theorem Follows.then {f : Val} {own : Nat → Prop} {p : Plan} {s : St} {r0 : Res Val} (k : Val → Val) (h : Follows W f own p s r0) :
    ∀ {r' : Res Val}, (∀ v s1, r0 = .ok v s1 → r' = .ok (k v) s1) → ((∀ v s1, r0 ≠ .ok v s1) → UpTo r0 r') → FollowsU W f own (p.then k) s r' := by
  induction h with
  | ret hq => intro r' h1 _; rw [h1 _ _ rfl]; exact .ret hq
  | call h1 h2 h3 h4 _ ih =>
    intro r' h5 h6
    obtain ⟨r1, h7, h8⟩ := ih h5 h6
    exact ⟨r1, .call h1 h2 h3 h4 h7, h8⟩
  | stop h1 h2 h3 => intro r' _ h6; exact ⟨_, .stop h1 h2 h3, h6 h3⟩
  | disturbed h1 h2 h3 => intro r' _ _; exact ⟨r', .disturbed h1 h2 h3, .refl _⟩

theorem FollowsU.then {f : Val} {own : Nat → Prop} {p : Plan} {s : St} {r : Res Val} {k : Val → Val} {fr : Val} (h : FollowsU W f own p s r) :
    FollowsU W f own (p.then k) s (r.andThen fr fun v s1 => .ok (k v) s1) := by
  obtain ⟨r0, h1, h2⟩ := h
  refine h1.then k (fun v s1 hr => ?_) fun hn => h2.andThen hn
  subst hr
  rcases h2 with rfl | ⟨er, s, frs, h3, _⟩
  · rfl
  · cases h3

/-! ### Calls of the given function out of a library function -/

/-- A call of the function by its name `a` in a scope of the library. -/
theorem step_call {s0 s : St} {e : Nat} {L : List (String × Val)} {J : Nat → Prop} {f : Val} {vs xs as : List Val} {a : String} (hu : Under s0 vs J) (hq : Quiet s0 s)
    (hs : ScJ (madeBy J s0 s) s.heap e L) (ho : f.ordinary = true) (hfv : f ∈ vs) (ha : alGet a L = some f) (hsp : specialOf a = none) (hc : isCxr a = false) (ht : a ≠ "t")
    (hg : GA W s e xs as) (hv : ∀ x ∈ as, x ∈ vs) :
    ∃ s1, Quiet s s1 ∧ eval W (.cons (.atom a) (vlist xs)) e s = callFn W f as e s1 ∧ ∀ y s2, callFn W f as e s1 = .ok y s2 → LibraryIntact s2.heap →
      (∀ j, madeBy J s0 s1 j → s2.heap[j]? = s1.heap[j]?) ∧ Under s2 (y :: vs) (madeBy J s0 s1) ∧ ScJ (madeBy J s0 s1) s2.heap e L := by
  obtain ⟨s1, e1, q1⟩ := hg.evals s (.refl _)
  refine ⟨s1, q1, eval_callVar (s2 := s1) hs.sc ha (ordinary_notMacro ho) hsp hc ht e1 rfl, fun y s2 h2 hc2 => ?_⟩
  have hu1 := hu.still ((hq.trans q1).still J)
  obtain ⟨h3, h4⟩ := hu1.call hfv ho hv e h2
  exact ⟨h4, h3, (hs.mono q1.heap fun j hj => hj.mono q1).kept (h3.base hc2) h4⟩

/-- The scope of the call of a library function. -/
theorem ScJ.callSt {s : St} (J : Nat → Prop) (hc : Base s.heap 0) (ps : List String) (r : String) (vs : List Val) :
    ScJ (madeBy J s (callSt s 0 ps r vs)) (callSt s 0 ps r vs).heap s.heap.length (paramSyms ps r vs ++ []) := by
  have q1 : Quiet s (L1.callSt s 0 ps r vs) := (Quiet.refl s).grow (List.prefix_append _ _)
  refine .frame (p := 0) (by simp [L1.callSt]) ?_ (.inr ⟨Nat.le_refl _, by simp [L1.callSt]⟩) (.base (hc.mono q1.heap))
  obtain ⟨h0, h1, h2⟩ := hc
  exact Nat.lt_of_lt_of_le h2.lt h1.length_le

/-- A new scope inside. -/
theorem ScJ.inside {s0 s : St} {J : Nat → Prop} {e : Nat} {L : List (String × Val)} (hq : Quiet s0 s) (hs : ScJ (madeBy J s0 s) s.heap e L) :
    ScJ (madeBy J s0 (withScope s e)) (withScope s e).heap s.heap.length ([] ++ L) :=
  have q1 : Quiet s (withScope s e) := (Quiet.refl s).grow (List.prefix_append _ _)
  .frame (p := e) (by simp [withScope]) hs.sc.lt (.inr ⟨hq.heap.length_le, by simp [withScope]⟩) (hs.mono (List.prefix_append _ _) fun j hj => hj.mono q1)

theorem Quiet.withScope (s : St) (e : Nat) : Quiet s (withScope s e) := (Quiet.refl s).grow (List.prefix_append _ _)

theorem Quiet.callSt (s : St) (e : Nat) (ps : List String) (r : String) (vs : List Val) : Quiet s (callSt s e ps r vs) := (Quiet.refl s).grow (List.prefix_append _ _)

theorem callFn_lam {ps : List String} {r : String} {x doc : Val} {m : Bool} {cenv : Nat} {vs : List Val} (ha : ArityOk ps r vs) (ht : NoT ps r) (e : Nat) (s : St) :
    callFn W (.lam ps r (vlist [x]) doc m cenv) vs e s = eval W x s.heap.length (callSt s cenv ps r vs) := by
  unfold callFn
  rw [evApply_lam ha ht]
  rfl

/-- `(when c x)` with a true condition. -/
theorem when_true {s : St} {e : Nat} {L : List (String × Val)} {c w x : Val} (hs : Sc s.heap e L) (hp : Plain L) (hcc : Cc W s L)
    (hc : G W s e c w) (hw : w ≠ .nil) : ∃ s1, Quiet s s1 ∧ eval W (vlist [.atom "when", c, x]) e s = eval W x s1.heap.length (withScope s1 e) := by
  obtain ⟨s1, q1, e1⟩ := when_run (W := W) (xs := [x]) hs hp hcc hc hw (by simp)
  exact ⟨s1, q1, e1⟩

theorem call_cons (y v : Val) (e : Nat) (s : St) : callFn W (.bi .cons) [y, v] e s = .ok (.cons y v) s := call_bi rfl

theorem if_run {s : St} {e : Nat} {L : List (String × Val)} {c w : Val} (a b : Val) (hs : Sc s.heap e L) (hp : Plain L) (hc : G W s e c w) :
    ∃ s1, Quiet s s1 ∧ eval W (vlist [.atom "if", c, a, b]) e s = eval W (if w = .nil then b else a) e s1 := by
  obtain ⟨s1, q1, e1⟩ := Becomes.if_ (W := W) (c := c) (a := a) (b := b) hs hp s (.refl _)
  obtain ⟨s2, e2, q2⟩ := hc s1 q1
  refine ⟨s2, q1.trans q2, ?_⟩
  rw [e1, eval_cond2 (hs.mono q1.heap) (hp _ (by decide)), e2]
  show (if w = .nil then _ else _) = _
  split <;> rfl

theorem ifNot_run {s : St} {e : Nat} {L : List (String × Val)} {c w : Val} (a b : Val) (hs : Sc s.heap e L) (hp : Plain L) (hc : G W s e c w) :
    ∃ s1, Quiet s s1 ∧ eval W (vlist [.atom "if-not", c, a, b]) e s = eval W (if w = .nil then a else b) e s1 := by
  obtain ⟨s1, q1, e1⟩ := Becomes.ifNot (W := W) (c := c) (a := a) (b := b) hs hp s (.refl _)
  obtain ⟨s2, e2, q2⟩ := hc s1 q1
  refine ⟨s2, q1.trans q2, ?_⟩
  rw [e1, eval_cond2 (hs.mono q1.heap) (hp _ (by decide)), eval_not (hs.mono q1.heap) (hp _ (by decide)), e2]
  by_cases hw : w = .nil
  · simp only [Res.andThen, if_pos hw]; rfl
  · simp only [Res.andThen, if_neg hw]; rfl

/-- `(let ((n c)) x)`, whatever `c` does. -/
theorem let1_run {s : St} {e : Nat} {L : List (String × Val)} {n : String} (c x : Val) (hs : Sc s.heap e L) (hl : alGet "let" L = none) (hn : n ≠ "t") :
    eval W (vlist [.atom "let", vlist [vlist [.atom n, c]], x]) e s = (eval W c e (withScope s e)).andThen (msgList "evaluating let bindings") fun y s' =>
      eval W x s.heap.length { s' with heap := heapSet s'.heap s.heap.length n y } := by
  refine (eval_sform W .let_ [vlist [vlist [.atom n, c]], x] e s (hs.notMacro_sf hl known_let)).trans ?_
  have h1 : evSpecial (perform W) (perform W) .let_ (vlist [vlist [vlist [.atom n, c]], x]) e = (do
    let ne ← newEnvM e
    let ok ← evLetBinds (perform W) e ne (vlist [vlist [.atom n, c]])
    if ok then evBodyTail (perform W) (perform W) (fun _ => msgList "evaluating let body") ne (vlist [x]) else pure .nil) := rfl
  rw [h1, M.bind_ok (newEnvM_run _ _)]
  have h2 : (do
    let ok ← evLetBinds (perform W) e s.heap.length (vlist [vlist [.atom n, c]])
    if ok then evBodyTail (perform W) (perform W) (fun _ => msgList "evaluating let body") s.heap.length (vlist [x]) else pure .nil) = (do
    let v ← extend "evaluating let bindings" (perform W (.eval c e))
    let _ ← extend "setting let bindings" (setM s.heap.length n v)
    perform W (.eval x s.heap.length)) := by
    funext s
    simp only [vlist_cons, vlist_nil, evLetBinds, M.bind_run]
    cases extend "evaluating let bindings" (perform W (.eval c e)) s with
    | ok v s1 => dsimp only; cases extend "setting let bindings" (setM _ n v) s1 <;> rfl
    | _ => rfl
  rw [h2, extend_andThen']
  show (perform W (.eval c e) (withScope s e)).andThen _ _ = _
  unfold eval
  congr 1
  funext v s'
  rw [M.bind_ok (extend_ok (show setM s.heap.length n v s' = .ok () _ by unfold setM; rw [if_neg hn]))]

/-- `(name args)` with quiet arguments in a scope of the library, where `name` is a library function. -/
theorem core_call {s : St} {e : Nat} {L : List (String × Val)} {a : String} {f : Val} {xs as : List Val} (hs : Sc s.heap e L) (hx : alGet a L = none) (hk : Head a f)
    (hg : GA W s e xs as) : ∃ s1, Quiet s s1 ∧ eval W (.cons (.atom a) (vlist xs)) e s = callFn W f as e s1 := by
  obtain ⟨s1, e1, q1⟩ := hg.evals s (.refl _)
  exact ⟨s1, q1, eval_callCore (xs := xs) hs hx hk (fun _ _ h => by subst h; exact e1) rfl⟩

theorem Base.set0 {h : Heap} (hb : Base h 0) {o : Nat} (ho : 0 < o) {n : String} {v : Val} : Base (heapSet h o n v) 0 := by
  obtain ⟨h0, h1, h2⟩ := hb
  have h3 : h0.take 1 <+: h0 := List.take_prefix ..
  have hlt := h2.lt
  have hl : (h0.take 1).length = 1 := by rw [List.length_take]; omega
  have ho1 : Nested (h0.take 1) 0 := by
    cases h2.nested with
    | top hf hp => exact .top (by rw [List.getElem?_take_of_lt (by omega)]; exact hf) hp
    | inside _ _ hlt => exact absurd hlt (by omega)
  refine ⟨h0.take 1, prefix_heapSet (h3.trans h1) (by omega) n v, ho1, fun x r hx => ?_⟩
  rw [← ho1.lookup_prefix h3]
  exact h2.sees x r hx

/-- The scope of a `let` with one variable, after the evaluation of its value. -/
theorem ScJ.letScope {s : St} {J : Nat → Prop} {e o : Nat} {L : List (String × Val)} {n : String} {v : Val} (hs : ScJ J s.heap e L) (heo : e < o)
    (ho : s.heap[o]? = some ⟨[], some e⟩) (hJ : J o) : ScJ J (heapSet s.heap o n v) o ([(n, v)] ++ L) := by
  have hk : ∀ h e (L : List (String × Val)), ScJ J h e L → h = s.heap → e < o → ScJ J (heapSet s.heap o n v) e L := by
    intro h e L hs
    induction hs with
    | base hb =>
      rintro rfl hlt
      exact .base (hb.set0 (by omega))
    | frame h1 h2 h3 _ ih =>
      rintro rfl hlt
      exact .frame (heapSet_other (by omega) h1) h2 h3 (ih rfl (by omega))
  exact .frame (heapSet_at ho) heo hJ (hk _ _ _ hs rfl heo)

/-- `(let ((n (a args))) x)` where `a` is the given function. -/
theorem let_call {s0 s : St} {e : Nat} {L : List (String × Val)} {J : Nat → Prop} {f : Val} {vs xs as : List Val} {a n : String} (x : Val) (hu : Under s0 vs J) (hq : Quiet s0 s)
    (hs : ScJ (madeBy J s0 s) s.heap e L) (hl : alGet "let" L = none) (hn : n ≠ "t") (ho : f.ordinary = true) (hfv : f ∈ vs) (ha : alGet a L = some f) (hsp : specialOf a = none)
    (hc : isCxr a = false) (ht : a ≠ "t") (hg : GA W s e xs as) (hv : ∀ x ∈ as, x ∈ vs) :
    ∃ s1, Quiet s s1 ∧ eval W (vlist [.atom "let", vlist [vlist [.atom n, .cons (.atom a) (vlist xs)]], x]) e s = (callFn W f as e s1).andThen (msgList "evaluating let bindings")
        (fun y s2 => eval W x s.heap.length { s2 with heap := heapSet s2.heap s.heap.length n y }) ∧
      ∀ y s2, callFn W f as e s1 = .ok y s2 → LibraryIntact s2.heap →
        (∀ j, madeBy J s0 s1 j → s2.heap[j]? = s1.heap[j]?) ∧ ∃ s3, { s2 with heap := heapSet s2.heap s.heap.length n y } = s3 ∧ Still (madeBy J s0 s1) s2 s3 ∧
        s3.heap.length = s2.heap.length ∧ Under s3 (y :: vs) (madeBy J s0 s1) ∧ ScJ (madeBy J s0 s1) s3.heap s.heap.length ([(n, y)] ++ L) := by
  have q1 := Quiet.withScope s e
  have h1 : ScJ (madeBy J s0 (withScope s e)) (withScope s e).heap e L := hs.mono q1.heap fun j hj => hj.mono q1
  obtain ⟨s1, e1, q2⟩ := hg.evals (withScope s e) q1
  have hev := eval_callVar (s2 := s1) h1.sc ha (ordinary_notMacro ho) hsp hc ht e1 rfl
  refine ⟨s1, q1.trans q2, ?_, fun y s2 h2 hc2 => ?_⟩
  · rw [let1_run _ _ hs.sc hl hn, hev]
  · have hu1 := hu.still ((hq.trans (q1.trans q2)).still J)
    obtain ⟨h3, h4⟩ := hu1.call hfv ho hv e h2
    have hJ : madeBy J s0 s1 s.heap.length := .inr ⟨hq.heap.length_le, Nat.lt_of_lt_of_le (by simp [withScope]) q2.heap.length_le⟩
    refine ⟨h4, _, rfl, .set hJ n y, heapSet_length .., h3.set hJ n y, ?_⟩
    refine ((h1.mono q2.heap fun j hj => hj.mono q2).kept (h3.base hc2) h4).letScope hs.sc.lt ?_ hJ
    rw [h4 _ hJ]
    exact prefix_get q2.heap (by simp [withScope])

/-- The library function called again for the rest. -/
theorem rest_call {s : St} {e : Nat} {L : List (String × Val)} {K : Nat → Prop} {vs : List Val} {f k y : Val} {p : Plan} {a : String} {xs as : List Val}
    (hs : ScJ K s.heap e L) (hx : alGet a L = none) (hk : Head a k) (hg : GA W s e xs as) (hu : Under s (y :: vs) K)
    (ih : ∀ (s : St) (e : Nat) (J : Nat → Prop), Base s.heap 0 → Under s vs J → FollowsU W f J p s (callFn W k as e s)) :
    FollowsU W f K p s (eval W (.cons (.atom a) (vlist xs)) e s) := by
  obtain ⟨s6, q6, e6⟩ := core_call (W := W) hs.sc hx hk hg
  rw [e6]
  exact .quiet q6 (ih s6 _ _ (hs.root.mono q6.heap) ((hu.still (q6.still _)).subset (fun u hm => List.mem_cons_of_mem _ hm) fun _ h => h))

end L1
