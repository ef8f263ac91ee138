import Verif.Lemmas.Grows
import Verif.Lemmas.CorePlans
import Verif.Props.LibraryCtl
import Verif.Spec.Loops
/- Loops with effects: `while` and `dotimes` of the core library. -/
set_option autoImplicit false
namespace L1
variable {W : World}

/-! ### Loops in general -/

/-- What is known of a step from `x`: it leads on, with the same outcome and more scopes, or has the outcome. -/
def Progress {σ : Type} (inv : σ → Prop) (out : σ → Res Val) (size : σ → Nat) (x : σ) : LoopStep σ → Prop
  | .again y => inv y ∧ size x < size y ∧ out x = out y
  | .ends r => UpTo r (out x)
  | .unknown => True

theorem loops_total {σ : Type} {Turn : σ → LoopStep σ → Prop} {inv : σ → Prop} {out : σ → Res Val} {size : σ → Nat}
    (step : ∀ x, inv x → ∃ t, Turn x t ∧ Progress inv out size x t)
    (hsz : ∀ x s', (out x).final = some s' → size x ≤ s'.heap.length) (x : σ) (hx : inv x) :
    (∃ r, Loops Turn x r ∧ UpTo r (out x)) ∨ (Endless Turn x ∧ out x = .oof) := by
  classical
  by_cases hp : ∃ r, Loops Turn x r ∧ UpTo r (out x)
  · exact .inl hp
  · refine .inr ?_
    have next : ∀ a : { y : σ // inv y ∧ ¬ ∃ r, Loops Turn y r ∧ UpTo r (out y) }, ∃ b : { y : σ // inv y ∧ ¬ ∃ r, Loops Turn y r ∧ UpTo r (out y) },
        Turn a.1 (.again b.1) ∧ size a.1 < size b.1 ∧ out a.1 = out b.1 := by
      rintro ⟨a, ha, hn⟩
      obtain ⟨t, h1, h2⟩ := step a ha
      cases t with
      | ends r => exact absurd ⟨r, .ends h1, h2⟩ hn
      | unknown => exact absurd ⟨out a, .unknown h1, .refl _⟩ hn
      | again b =>
        refine ⟨⟨b, h2.1, fun hb => hn ?_⟩, h1, h2.2⟩
        obtain ⟨r, h3, h4⟩ := hb
        exact ⟨r, .again h1 h3, by rw [h2.2.2]; exact h4⟩
    choose nx hnx using next
    let g : Nat → { y : σ // inv y ∧ ¬ ∃ r, Loops Turn y r ∧ UpTo r (out y) } := fun n => Nat.rec ⟨x, hx, hp⟩ (fun _ a => nx a) n
    have hg : ∀ n, g (n + 1) = nx (g n) := fun _ => rfl
    refine ⟨⟨fun n => (g n).1, rfl, fun n => (hnx (g n)).1⟩, ?_⟩
    have hout : ∀ n, out (g n).1 = out x := by
      intro n
      induction n with
      | zero => rfl
      | succ n ih => rw [hg, ← (hnx (g n)).2.2]; exact ih
    have hsize : ∀ n, n ≤ size (g n).1 := by
      intro n
      induction n with
      | zero => exact Nat.zero_le _
      | succ n ih => have := (hnx (g n)).2.1; rw [hg]; omega
    cases hf : (out x).final with
    | none => cases ho : out x with
      | oof => rfl
      | _ => rw [ho] at hf; cases hf
    | some s' =>
      have h1 := hsz (g (s'.heap.length + 1)).1 s' ((congrArg Res.final (hout (s'.heap.length + 1))).trans hf)
      have h2 := hsize (s'.heap.length + 1)
      omega

/-! ### Scopes -/

theorem Nested.last {h : Heap} {p : Nat} (hn : Nested h p) (syms : List (String × Val)) : Nested (h ++ [⟨syms, some p⟩]) h.length :=
  .inside (f := ⟨syms, some p⟩) (by simp) rfl hn.lt (hn.mono (List.prefix_append _ _))

theorem lookup_last {h : Heap} {syms : List (String × Val)} {p : Nat} (hn : Nested h p) (x : String) :
    lookup (h ++ [⟨syms, some p⟩]) h.length x = match alGet x syms with | some v => some v | none => lookup h p x := by
  have h1 : (h ++ [(⟨syms, some p⟩ : Frame)])[h.length]? = some ⟨syms, some p⟩ := by simp
  unfold lookup
  rw [lookupAux, h1]
  dsimp only
  cases alGet x syms with
  | some v => rfl
  | none =>
    dsimp only
    rw [(hn.mono (List.prefix_append _ _)).enough x _ hn.lt]
    exact hn.lookup_prefix (List.prefix_append _ _) x

theorem CoreHere.mono {h h' : Heap} {e : Nat} (hc : CoreHere h e) (hp : h <+: h') : CoreHere h' e := ⟨hc.1.mono hp, hc.2.mono hp⟩

theorem CoreHere.frame {h : Heap} {e : Nat} (hc : CoreHere h e) {syms : List (String × Val)} (hs : ∀ x r, known x = some r → alGet x syms = none) :
    CoreHere (h ++ [⟨syms, some e⟩]) h.length := by
  refine ⟨hc.1.mono (List.prefix_append _ _), hc.2.nested.last _, fun x r hx => ?_⟩
  rw [lookup_last hc.2.nested, hs x r hx]
  exact hc.2.sees x r hx

theorem Nested.set {h : Heap} {e : Nat} (hn : Nested h e) (o : Nat) (x : String) (v : Val) : Nested (heapSet h o x v) e := by
  induction hn with
  | @top e f h1 h2 =>
    refine .top (f := if e = o then { f with syms := alSet x v f.syms } else f) (by rw [heapSet_get, h1]; rfl) ?_
    split <;> exact h2
  | @inside e p f h1 h2 h3 _ ih =>
    refine .inside (f := if e = o then { f with syms := alSet x v f.syms } else f) (by rw [heapSet_get, h1]; rfl) ?_ h3 ih
    split <;> exact h2

theorem lookupAux_heapSet_ne {h : Heap} {o : Nat} {x y : String} {v : Val} (hne : x ≠ y) : ∀ k e, lookupAux (heapSet h o y v) k e x = lookupAux h k e x := by
  intro k
  induction k with
  | zero => intro e; rfl
  | succ k ih =>
    intro e
    unfold lookupAux
    rw [heapSet_get]
    cases h[e]? with
    | none => rfl
    | some f =>
      simp only [Option.map_some]
      by_cases he : e = o
      · rw [if_pos he]
        dsimp only
        rw [alGet_alSet_ne (Ne.symm hne)]
        cases alGet x f.syms with
        | some w => rfl
        | none =>
          cases f.parent with
          | none => rfl
          | some p => exact ih p
      · rw [if_neg he]
        cases alGet x f.syms with
        | some w => rfl
        | none =>
          cases f.parent with
          | none => rfl
          | some p => exact ih p

theorem core_notGensym : (coreEnv.all fun kv => decide (kv.1.toList.take 2 ≠ ['<', 'g'])) = true := by decide +kernel
theorem builtin_notGensym : (BI.all.all fun b => decide (b.name.toList.take 2 ≠ ['<', 'g'])) = true := by decide +kernel

theorem known_ne_gensym {x : String} {r : Option Val} (h : known x = some r) (pre : List Char) (k : Nat) : x ≠ gensymName pre k := by
  have key : x.toList.take 2 ≠ ['<', 'g'] := by
    unfold known at h
    split at h
    · rename_i v hv
      have := List.all_eq_true.1 core_notGensym (x, v) (alGet_mem hv)
      simpa using this
    · split at h
      · rename_i hb
        rw [Bool.or_eq_true] at hb
        rcases hb with hb | hb
        · obtain ⟨b, hb⟩ := Option.isSome_iff_exists.1 hb
          unfold builtinOf at hb
          have h1 := List.all_eq_true.1 builtin_notGensym b (List.mem_of_find?_eq_some hb)
          have h2 := List.find?_some hb
          rw [← beq_iff_eq.1 h2]
          simpa using h1
        · obtain ⟨f, hf⟩ := Option.isSome_iff_exists.1 hb
          rw [specialOf_some hf]
          cases f <;> decide
      · cases h
  rintro rfl
  apply key
  unfold gensymName
  rw [String.toList_ofList]; rfl

theorem CoreAt.set {h : Heap} {e : Nat} (hc : CoreAt h e) {g : String} (hg : ∀ x r, known x = some r → x ≠ g) (o : Nat) (v : Val) : CoreAt (heapSet h o g v) e :=
  ⟨hc.nested.set _ _ _, fun x r hx => by
    rw [← hc.sees x r hx]
    unfold lookup
    exact lookupAux_heapSet_ne (hg x r hx) _ _⟩

theorem CoreHere.set {h : Heap} {e : Nat} (hc : CoreHere h e) {g : String} (hg : ∀ x r, known x = some r → x ≠ g) (o : Nat) (v : Val) : CoreHere (heapSet h o g v) e :=
  ⟨hc.1.set hg o v, hc.2.set hg o v⟩

theorem CoreHere.push {h : Heap} {e : Nat} (hc : CoreHere h e) (f : Frame) : CoreHere (h ++ [f]) e := hc.mono (List.prefix_append _ _)

/-- The library's names have their original meaning at top level and in scope `e`, from which other names may be seen. -/
def Ready (h : Heap) (e : Nat) : Prop := Base h 0 ∧ ∃ L, Sc h e L ∧ ∀ x r, known x = some r → alGet x L = none

theorem CoreHere.ready {h : Heap} {e : Nat} (hc : CoreHere h e) : Ready h e := ⟨hc.1.base, [], .base hc.2.base, fun _ _ _ => rfl⟩

theorem Ready.mono {h h' : Heap} {e : Nat} (hr : Ready h e) (hp : h <+: h') : Ready h' e := by
  obtain ⟨h0, L, hs, hL⟩ := hr
  exact ⟨h0.mono hp, L, hs.mono hp, hL⟩

theorem Ready.frame {h : Heap} {e : Nat} (hr : Ready h e) {syms : List (String × Val)} (hs : ∀ x r, known x = some r → alGet x syms = none) : Ready (h ++ [⟨syms, some e⟩]) h.length := by
  obtain ⟨h0, L, hsc, hL⟩ := hr
  have hp : h <+: h ++ [(⟨syms, some e⟩ : Frame)] := List.prefix_append _ _
  refine ⟨h0.mono hp, syms ++ L, .frame (by simp) hsc.lt (hsc.mono hp), fun x r hx => ?_⟩
  rw [alGet_append, hs x r hx]
  exact hL x r hx

theorem Ready.lt {h : Heap} {e : Nat} (hr : Ready h e) : e < h.length := by
  obtain ⟨_, L, hsc, _⟩ := hr
  exact hsc.lt

theorem ctl_known : (ctlNames.all fun n => (known n).isSome) = true := by decide +kernel

theorem Ready.plain {L : List (String × Val)} (hL : ∀ x r, known x = some r → alGet x L = none) : Plain L := fun n hn => by
  obtain ⟨r, hr⟩ := Option.isSome_iff_exists.1 (List.all_eq_true.1 ctl_known n hn)
  exact hL n r hr

theorem Base.setG {h : Heap} {b : Nat} (hb : Base h b) {g : String} (hg : ∀ x r, known x = some r → x ≠ g) (e : Nat) (v : Val) : Base (heapSet h e g v) b :=
  (hb.coreAt.set hg e v).base

theorem ready_loopSt {s : St} {e : Nat} (h0 : Base s.heap 0) (he : Base s.heap e) (pre : List Char) (k : Nat) (F : Val) : Ready (loopSt s e (gensymName pre k) F).heap e := by
  have hg : ∀ x r, known x = some r → x ≠ gensymName pre k := fun _ _ h => known_ne_gensym h pre k
  have hp : s.heap <+: s.heap ++ [(⟨[], some e⟩ : Frame)] := List.prefix_append _ _
  exact ⟨((h0.mono hp).setG hg e F).setG hg _ F, [], .base (((he.mono hp).setG hg e F).setG hg _ F), fun _ _ _ => rfl⟩

theorem Sc.nested {h : Heap} {e : Nat} {L : List (String × Val)} (hs : Sc h e L) : Nested h e := by
  induction hs with
  | base hb => exact hb.coreAt.nested
  | globals hb _ => exact hb.coreAt.nested
  | frame h1 h2 _ ih => exact .inside h1 rfl h2 ih

theorem Ready.coreHere {h : Heap} {e : Nat} (hr : Ready h e) : CoreHere h e := by
  obtain ⟨h0, L, hs, hL⟩ := hr
  exact ⟨h0.coreAt, hs.nested, fun x r hx => hs.lookup_known (hL x r hx) hx⟩

theorem when_R {s : St} {e : Nat} (h : Ready s.heap e) (c : Val) (xs : List Val) : ∃ s1, Quiet s s1 ∧
    eval W (form "when" (c :: xs)) e s = (eval W c e s1).andThen (msgList "evaluating cond condition") fun v s2 =>
      if v = .nil then .ok .nil s2 else eval W (form "progn" xs) e s2 := by
  obtain ⟨h0, L, hs, hL⟩ := h
  obtain ⟨s1, q1, e1⟩ := Becomes.when_ (W := W) (c := c) (xs := xs) hs (Ready.plain hL) (.core h0 (hL _ _ known_concat2)) s (.refl _)
  exact ⟨s1, q1, e1.trans (eval_cond1 (hs.mono q1.heap) (hL _ _ known_cond))⟩

theorem whenNot_R {s : St} {e : Nat} (h : Ready s.heap e) (c : Val) (xs : List Val) : ∃ s1, Quiet s s1 ∧
    ∀ v s2, eval W c e s1 = .ok v s2 → eval W (form "when-not" (c :: xs)) e s = if v = .nil then eval W (form "progn" xs) e s2 else .ok .nil s2 := by
  obtain ⟨h0, L, hs, hL⟩ := h
  have hp := Ready.plain hL
  obtain ⟨s1, q1, e1⟩ := Becomes.whenNot (W := W) (c := c) (xs := xs) hs hp (.core h0 (hL _ _ known_concat2)) s (.refl _)
  obtain ⟨s2, q2, e2⟩ := Becomes.when_ (W := W) (c := vlist [.atom "not", c]) (xs := xs) hs hp (.core h0 (hL _ _ known_concat2)) s1 q1
  refine ⟨s2, q1.trans q2, fun v s3 hv => ?_⟩
  have hb := hs.mono (q1.trans q2).heap
  refine e1.trans (e2.trans ?_)
  rw [eval_cond1 hb (hp _ (by decide)), eval_not hb (hp _ (by decide)), hv]
  by_cases hn : v = .nil <;> simp [Res.andThen, hn] <;> rfl

theorem progn_R {s : St} {e : Nat} (h : Ready s.heap e) (xs : List Val) : ∃ s1, Quiet s s1 ∧
    eval W (form "progn" xs) e s = inOrder W s1.heap.length xs (withScope s1 e) := by
  obtain ⟨h0, L, hs, hL⟩ := h
  have hp := Ready.plain hL
  obtain ⟨s1, q1, e1⟩ := Becomes.progn (W := W) (xs := xs) hs hp (.core h0 (hL _ _ known_concat2)) s (.refl _)
  refine ⟨s1, q1, e1.trans ?_⟩
  refine (eval_sform W .let_ (.nil :: xs) e s1 ((hs.mono q1.heap).notMacro_sf (hp _ (by decide)) known_let)).trans ?_
  refine (evLet_run (bs := .nil) (body := vlist xs) rfl (isList_vlist _) (s2 := withScope s1 e) rfl).trans ?_
  exact evBodyTail_sequence _ _ _ _

/-! ### Bodies -/

theorem UpTo.frame {r : Res Val} (hn : ∀ v s, r ≠ .ok v s) (fr : Val) (k : Val → St → Res Val) : UpTo r (r.andThen fr k) := (UpTo.refl r).andThen hn

/-- The expressions before the last one all have values, or one of them has not. -/
theorem seq_split (fr : Val → Val) (e : Nat) (xs : List Val) (y : Val) : ∀ s : St,
    (∃ r, StopsAt W e xs s r ∧ UpTo r (sequence W fr e (xs ++ [y]) s)) ∨
    (∃ vs s', EvalsTo W e xs s vs s' ∧ sequence W fr e (xs ++ [y]) s = eval W y e s') := by
  induction xs with
  | nil => intro s; exact .inr ⟨[], s, .nil, rfl⟩
  | cons x xs ih =>
    intro s
    have hseq : sequence W fr e (x :: xs ++ [y]) s = (eval W x e s).andThen (fr x) fun _ s' => sequence W fr e (xs ++ [y]) s' := by
      cases xs <;> rfl
    by_cases hv : ∃ v s1, eval W x e s = .ok v s1
    · obtain ⟨v, s1, hv⟩ := hv
      rw [hseq, hv]
      rcases ih s1 with ⟨r, h1, h2⟩ | ⟨vs, s', h1, h2⟩
      · exact .inl ⟨r, .later hv h1, h2⟩
      · exact .inr ⟨v :: vs, s', .cons hv h1, h2⟩
    · have hn : ∀ v s', eval W x e s ≠ .ok v s' := fun v s' h => hv ⟨v, s', h⟩
      exact .inl ⟨_, .here rfl hn, by rw [hseq]; exact .frame hn _ _⟩

theorem evalsTo_grows {e : Nat} {xs vs : List Val} {s s' : St} (h : EvalsTo W e xs s vs s') : s.heap.length ≤ s'.heap.length := by
  induction h with
  | nil => exact Nat.le_refl _
  | cons h _ ih => exact Nat.le_trans (grows W _ _ _ (by unfold eval at h; rw [h]; rfl)) ih

/-! ### `while` -/

theorem while_step (c : Val) (xs : List Val) (e : Nat) (pre : List Char) (k : Nat) (F : Val)
    (hF : F = .lam [] "" (vlist [form "when" (c :: (xs ++ [form (gensymName pre k) []]))]) .nil false e) (s : St) (hs : Ready s.heap e) :
    ∃ t, WhileTurn W c xs e (gensymName pre k) F s t ∧
      Progress (fun y => Ready y.heap e) (fun y => callFn W F [] 0 y) (fun y => y.heap.length) s t := by
  have hcall : ∀ e1 s, callFn W F [] e1 s = eval W (form "when" (c :: (xs ++ [form (gensymName pre k) []]))) s.heap.length (withScope s e) := by
    intro e1 s; rw [hF]; exact callFn_lam (vs := []) (ps := []) (r := "") rfl (by decide) e1 s
  have h1 : Ready (withScope s e).heap s.heap.length := hs.frame fun _ _ _ => rfl
  obtain ⟨s1, q1, e1⟩ := when_R (W := W) h1 c (xs ++ [form (gensymName pre k) []])
  have e1 := (hcall 0 s).trans e1
  by_cases hd : ∀ v s2, eval W c s.heap.length s1 = .ok v s2 → v = .nil
  · refine ⟨.ends _, .done q1 rfl hd, ?_⟩
    by_cases hv : ∃ v s2, eval W c s.heap.length s1 = .ok v s2
    · obtain ⟨v, s2, hv⟩ := hv
      have := hd v s2 hv
      subst this
      rw [hv] at e1 ⊢
      exact .inl e1
    · show UpTo _ (callFn W F [] 0 s)
      rw [e1]
      exact .frame (fun v s2 h => hv ⟨v, s2, h⟩) _ _
  · obtain ⟨v, s2, hv, hn⟩ : ∃ v s2, eval W c s.heap.length s1 = .ok v s2 ∧ v ≠ .nil := by
      by_contra hc
      exact hd fun v s2 hv => by_contra fun hn => hc ⟨v, s2, hv, hn⟩
    by_cases h2 : CoreHere s2.heap s.heap.length
    · obtain ⟨s3, q3, e3⟩ := C41_progn (W := W) h2 (xs ++ [form (gensymName pre k) []])
      have hr : (eval W c s.heap.length s1).andThen (msgList "evaluating cond condition") (fun v s2 =>
          if v = .nil then .ok .nil s2 else eval W (form "progn" (xs ++ [form (gensymName pre k) []])) s.heap.length s2) =
          inOrder W s3.heap.length (xs ++ [form (gensymName pre k) []]) (withScope s3 s.heap.length) := by
        rw [hv]
        simp only [Res.andThen, if_neg hn]
        exact e3
      rw [hr] at e1
      unfold inOrder at e1
      rcases seq_split (W := W) (fun _ => msgList "evaluating let body") s3.heap.length xs (form (gensymName pre k) []) (withScope s3 s.heap.length) with ⟨r, h4, h5⟩ | ⟨vs, s4, h4, h5⟩
      · rw [← e1] at h5
        exact ⟨.ends r, .stops q1 hv hn q3 h4, h5⟩
      · by_cases h6 : CoreHere s4.heap e ∧ lookup s4.heap s3.heap.length (gensymName pre k) = some F
        · refine ⟨.again s4, .again q1 hv hn q3 h4, h6.1.ready, ?_, ?_⟩
          · have a1 := q1.heap.length_le
            have a2 : s1.heap.length ≤ s2.heap.length := grows W _ _ _ (by unfold eval at hv; rw [hv]; rfl)
            have a3 := q3.heap.length_le
            have a4 := evalsTo_grows h4
            simp only [withScope, List.length_append, List.length_singleton] at a1 a4
            show s.heap.length < s4.heap.length
            omega
          · refine e1.trans (h5.trans ?_)
            have hh : CallHead s4.heap s3.heap.length (.atom (gensymName pre k)) := callHead_of (gensymName_special _ _) fun ps r b dc env he => by
              rw [h6.2, hF] at he; cases he
            refine (eval_reaches (xs := []) hh ⟨s4, eval_atom_bound (gensymName_cxr _ _) (gensymName_ne (by decide)) h6.2, .nil⟩).trans ?_
            exact (hcall _ _).trans (hcall _ _).symm
        · exact ⟨.unknown, .disturbed' q1 hv hn q3 h4 h6, trivial⟩
    · exact ⟨.unknown, .disturbed q1 hv hn h2, trivial⟩

end L1
