import Verif.Model.Examples2
import Verif.Spec.Sentences
import Verif.Lemmas.ProgFns
import Verif.Lemmas.CoreCxr
import Verif.Lemmas.World
import Verif.Props.World
/-
`generate` of examples/sentences.l1.
-/
set_option autoImplicit false
namespace L1

variable {W : World}

/-! ### Outcomes of computations that may not end -/

theorem agree_self (L N : Nat) (W : World) : Agree L N W W :=
  ⟨fun _ _ _ => rfl, fun _ _ _ => rfl, fun _ _ _ => rfl, fun _ _ _ => rfl, fun _ _ _ => rfl, fun _ _ _ => rfl, rfl, rfl, rfl, rfl, rfl, rfl⟩

theorem det_perform_self (L N : Nat) (W : World) (t : Task) : Det L N (perform W t) (perform W t) := by
  refine ⟨fun s s' h => ?_, fun _ _ => .inr rfl⟩
  have hne : perform W t s ≠ .oof := fun h' => by rw [h'] at h; cases h
  obtain ⟨_, k, hk⟩ := run_of_perform hne
  exact (det_run (agree_self L N W) k k t).mono s s' (by rw [hk]; exact h)

theorem tick_eval (W : World) (x : Val) (e : Nat) : FR TickLe (eval W x e) := (det_perform_self 0 0 W _).mono

theorem tick_callFn (W : World) (f : Val) (vs : List Val) (e : Nat) : FR TickLe (callFn W f vs e) :=
  (det_evApply (L := 0) (N := 0) (det_perform_self 0 0 W) (det_perform_self 0 0 W) f vs e).mono

/-- The computation does not end, or at least `K` questions have been asked to the world, or it returns a value with the property. -/
def Fine (K : Nat) (Q : Val → St → Prop) (r : Res Val) : Prop :=
  r = .oof ∨ (∃ s, r.final = some s ∧ K ≤ s.tick) ∨ ∃ v s, r = .ok v s ∧ Q v s

theorem Fine.mono {K : Nat} {Q Q' : Val → St → Prop} {r : Res Val} (h : Fine K Q r) (hq : ∀ v s, Q v s → Q' v s) : Fine K Q' r :=
  h.imp id (.imp id fun ⟨v, s, h1, h2⟩ => ⟨v, s, h1, hq v s h2⟩)

theorem Fine.late {K : Nat} {Q : Val → St → Prop} {m : M Val} (hm : FR TickLe m) {s : St} (h : K ≤ s.tick) : Fine K Q (m s) := by
  cases hf : (m s).final with
  | none =>
    refine .inl ?_
    revert hf
    cases m s <;> simp [Res.final]
  | some s' => exact .inr (.inl ⟨s', hf, Nat.le_trans h (hm s s' hf)⟩)

theorem Fine.andThen {K : Nat} {Q Q' : Val → St → Prop} {r : Res Val} {fr : Val} {k : Val → M Val} (h : Fine K Q r) (hk : ∀ v, FR TickLe (k v))
    (h' : ∀ v s, Q v s → Fine K Q' (k v s)) : Fine K Q' (r.andThen fr fun v s => k v s) := by
  rcases h with rfl | ⟨s, h1, h2⟩ | ⟨v, s, rfl, h2⟩
  · exact .inl rfl
  · cases r with
    | ok v s1 => cases h1; exact .late (hk v) h2
    | oof => cases h1
    | _ => cases h1; exact .inr (.inl ⟨s, rfl, h2⟩)
  · exact h' v s h2

/-- The same outcome, except for what an error says. -/
def SameEnd : Res Val → Res Val → Prop
  | .ok v s, .ok v' s' => v = v' ∧ s = s'
  | .err _ s, .err _ s' => s = s'
  | .crash _ s, .crash _ s' => s = s'
  | .exit _ s, .exit _ s' => s = s'
  | .overflow s, .overflow s' => s = s'
  | .oof, .oof => True
  | _, _ => False

theorem SameOutcome.sameEnd {r r' : Res Val} (h : SameOutcome r r') : SameEnd r r' := by
  cases r <;> cases r' <;> simp [SameOutcome, SameEnd] at h ⊢ <;> grind

theorem SameEnd.extend {r : Res Val} {msg : String} {m : M Val} {s : St} (h : SameEnd r (m s)) : SameEnd r (L1.extend msg m s) := by
  rw [show L1.extend msg m s = _ from extendWith_run _ _ _]
  cases hm : m s <;> rw [hm] at h <;> exact (by cases r <;> simp_all [SameEnd])

theorem Fine.same {K : Nat} {Q : Val → St → Prop} {r r' : Res Val} (h : Fine K Q r) (hs : SameEnd r r') : Fine K Q r' := by
  rcases h with rfl | ⟨s, h1, h2⟩ | ⟨v, s, rfl, h2⟩
  · cases r' <;> simp [SameEnd] at hs
    exact .inl rfl
  · cases r <;> cases r' <;> simp [SameEnd, Res.final] at hs h1 <;> refine .inr (.inl ⟨s, ?_, h2⟩) <;> simp [Res.final] <;> grind
  · cases r' <;> simp [SameEnd] at hs
    exact .inr (.inr ⟨v, s, by rw [hs.1, hs.2], h2⟩)

theorem SameEnd.ok {v : Val} {s : St} {r : Res Val} (h : SameEnd (.ok v s) r) : r = .ok v s := by
  cases r <;> simp [SameEnd] at h
  rw [h.1, h.2]

/-! ### Names of the form `c..r` in a program -/

theorem Returns.lamN {s : St} {ps : List String} {r : String} {x doc v : Val} {m : Bool} {vs : List Val} {U : List (String × Val)}
    (ha : ArityOk ps r vs) (ht : NoT ps r) (h0 : Prog s.heap U)
    (h : ∀ s1 e1, Quiet s s1 → Sc s1.heap e1 (paramSyms ps r vs ++ U) → (∀ (s2 : St) a, s1.heap <+: s2.heap → alGet a (paramSyms ps r vs) = none → lookup s2.heap e1 a = lookup s.heap 0 a) → G W s1 e1 x v) :
    Returns W s (.lam ps r (vlist [x]) doc m 0) vs v := fun s' e hq => by
  have hq1 : Quiet s' (L1.callSt s' 0 ps r vs) := Quiet.callSt s' 0 ps r vs
  have h0' := h0.mono hq.heap
  have hsc := Sc.callSt h0'.sc ps r vs
  have hn : Nested (L1.callSt s' 0 ps r vs).heap s'.heap.length := by
    refine .inside (f := ⟨paramSyms ps r vs, some 0⟩) (by simp [L1.callSt]) rfl h0'.core.lt (h0'.mono hq1.heap).core.nested
  obtain ⟨s'', h1, h2⟩ := h _ _ (hq.trans hq1) hsc (fun s2 a hp hl => by
    rw [hn.lookup_prefix hp, ← h0.core.nested.lookup_prefix (hq.trans hq1).heap a]
    have := (h0'.mono hq1.heap).core.nested.enough a s'.heap.length h0'.core.lt
    rw [← this]
    unfold lookup
    rw [lookupAux]
    simp [L1.callSt, hl]) _ (.refl _)
  refine ⟨s'', ?_, hq1.trans h2⟩
  unfold callFn
  rw [evApply_lam ha ht]
  exact h1

/-- A call of a name `c..r` that is not the name of a macro. -/
theorem G.cxr {s : St} {e : Nat} {L : List (String × Val)} {p : List Char} {x v w : Val} (hs : Sc s.heap e L) (hc : Base s.heap 0) (h1 : alGet "c*r" L = none) (h2 : alGet "quote" L = none)
    (hp : ∀ c ∈ p, c = 'a' ∨ c = 'd') (hx : isCxr (String.ofList ('c' :: p ++ ['r'])) = true) (hsp : specialOf (String.ofList ('c' :: p ++ ['r'])) = none)
    (hm : ∀ s' : St, s.heap <+: s'.heap → NotMacro s'.heap e (String.ofList ('c' :: p ++ ['r']))) (hg : G W s e x v) (hf : follow p v = some w) :
    G W s e (vlist [.atom (String.ofList ('c' :: p ++ ['r'])), x]) w := by
  have hl : cxrLambda (String.ofList ('c' :: p ++ ['r'])) e =
      .lam ["xs"] "" (vlist [vlist [.atom "c*r", vlist [.atom "quote", letters p.reverse], .atom "xs"]]) .nil false e := by
    simp [cxrLambda, letters]
  have hr : ∀ c ∈ p.reverse, c = 'a' ∨ c = 'd' := fun c h => hp c (by simpa using h)
  rw [← walk_reverse] at hf
  refine G.callAny (xs := [x]) (f := cxrLambda (String.ofList ('c' :: p ++ ['r'])) e) (fun s' hq => callHead_of hsp (hm s' hq.heap)) (.of_eval fun s' hq => ?_) (.one hg) ?_
  · rw [eval_eq]
    show (if isCxr _ then pure (cxrLambda _ e) else evAtom _ e : M Val) s' = _
    rw [M.ite_pos hx]; rfl
  · rw [hl]
    exact .lam rfl (by decide) hs fun s1 e1 hq hs1 => .fn hs1 h1 hd_cStarr (.two (.quote hs1 h2 known_quote) (.v hs1 rfl rfl))
      ((ret_cxr _ (hc.mono hq.heap) v hr).1 w hf)

/-! ### `assoc`, as in sentences.l1, meta.l1 and eliza.l1 -/

/-- The list of the pairs. -/
def pairList (ps : List (Val × Val)) : Val := vlist (ps.map fun p => .cons p.1 p.2)

/-- The first pair with a given key, or `()`. -/
def firstPair (x : Val) : List (Val × Val) → Val
  | [] => .nil
  | p :: ps => if x.equal p.1 = true then .cons p.1 p.2 else firstPair x ps

theorem notMacro_free {h : Heap} {e : Nat} {a : String} (hl : lookup h e a = none) : NotMacro h e a := fun ps r b dc env he => by rw [hl] at he; cases he

theorem ret_assoc {U : List (String × Val)} (hu : alGet "assoc" U = some s_assoc) (hp1 : ∀ a ∈ ["c*r", "quote", "cond", "not", "=", "car", "cdr"], alGet a U = none) (x : Val) (ps : List (Val × Val)) :
    ∀ {s : St}, Prog s.heap U → lookup s.heap 0 "caar" = none → Returns W s s_assoc [x, pairList ps] (firstPair x ps) := by
  have hU : ∀ {a : String} {y z : Val}, a ∈ ["c*r", "quote", "cond", "not", "=", "car", "cdr"] → alGet a (paramSyms ["x", "pairs"] "" [y, z] ++ U) = none := by
    intro a y z ha
    rw [alGet_append, hp1 a ha]
    simp only [List.mem_cons, List.not_mem_nil, or_false] at ha
    rcases ha with rfl | rfl | rfl | rfl | rfl | rfl | rfl <;> rfl
  induction ps with
  | nil =>
    intro s hp hf
    exact .lam rfl (by decide) hp.sc fun s1 e1 hq hs => .cond hs (hU (by decide)) known_cond (.hit (.not_nil hs (hU (by decide)) (.v hs rfl rfl)) (by decide) (.nil _ _))
  | cons p ps ih =>
    intro s hp hf
    refine .lamN rfl (by decide) hp fun s1 e1 hq hs hl => .cond hs (hU (by decide)) known_cond (.skip (.not_cons hs (hU (by decide)) (.v hs rfl rfl) (by simp [pairList])) ?_)
    have hp1 := hp.mono hq.heap
    have hc : G W s1 e1 (vlist [.atom "caar", .atom "pairs"]) p.1 := .cxr (p := ['a', 'a']) hs hp1.core.base (hU (by decide)) (hU (by decide)) (by decide) (by decide) (by decide)
      (fun s' hh => notMacro_free ((hl s' _ hh rfl).trans hf)) (.v hs rfl rfl) rfl
    have he := G.eq (W := W) (x := .atom "x") hs (hU (by decide)) (.v hs rfl rfl) hc
    by_cases hx : x.equal p.1 = true
    · rw [hx] at he
      rw [show firstPair x (p :: ps) = .cons p.1 p.2 by simp [firstPair, hx]]
      exact .hit he (by decide) (.car hs (hU (by decide)) (.v hs rfl rfl))
    · rw [show x.equal p.1 = false by simpa using hx] at he
      rw [show firstPair x (p :: ps) = firstPair x ps by simp [firstPair, hx]]
      refine .skip he (.hit (.t _ _) (by decide) ?_)
      exact .user (xs := [_, _]) hs (by rw [alGet_append]; exact hu) rfl (.two (.v hs rfl rfl) (.cdr hs (hU (by decide)) (.v hs rfl rfl)))
        (ih hp1 ((hp.core.nested.lookup_prefix hq.heap _).trans hf))

/-! ### sentences.l1 -/

/-- The value of a form `(def name (quote v))`. -/
def defQuoted : Val → Val
  | .cons _ (.cons _ (.cons (.cons _ (.cons v _)) _)) => v
  | _ => .nil

/-- What sentences.l1 defines. -/
def sentencesDefs : List (String × Val) := [("generate", s_generate), ("rewrites", s_rewrites), ("rule-rhs", s_rule_rhs), ("rule-lhs", s_rule_lhs), ("assoc", s_assoc),
  ("bigger-grammar", biggerGrammar.val), ("simple-grammar", simpleGrammar.val), ("one-of", s_one_of)]

/-- The definitions of sentences.l1 are in place, and `caar` and `cddr` are not redefined. -/
structure SenAt (h : Heap) : Prop where
  prog : Prog h sentencesDefs
  caar : lookup h 0 "caar" = none
  cddr : lookup h 0 "cddr" = none

theorem SenAt.mono {h h' : Heap} (hp : SenAt h) (hh : h <+: h') : SenAt h' :=
  ⟨hp.prog.mono hh, (hp.prog.core.nested.lookup_prefix hh _).trans hp.caar, (hp.prog.core.nested.lookup_prefix hh _).trans hp.cddr⟩

theorem grammar_pairs (g : Grammar) : g.val = pairList (g.map fun r => (.atom r.1, vlist (.atom "->" :: r.2))) := by
  unfold Grammar.val pairList
  rw [List.map_map]; rfl

theorem follow_cddr (a : String) (g : Grammar) : follow ['d', 'd'] (firstPair (.atom a) (g.map fun r => (.atom r.1, vlist (.atom "->" :: r.2)))) = some (vlist (g.choices a)) := by
  induction g with
  | nil => rfl
  | cons r g ih =>
    rw [List.map_cons, firstPair]
    by_cases h : r.1 = a
    · subst h
      rw [if_pos (by simp [Val.equal])]
      simp [Grammar.choices, follow, part]
    · rw [if_neg (by simp [Val.equal, Ne.symm h]), ih]
      simp [Grammar.choices, h]

theorem ret_rewrites (g : Grammar) (a : String) {s : St} (hp : SenAt s.heap) : Returns W s s_rewrites [g.val, .atom a] (vlist (g.choices a)) := by
  refine .lam rfl (by decide) hp.prog.sc fun s1 e1 hq hs => ?_
  have hp1 := hp.mono hq.heap
  refine .user (xs := [_]) (vs := [firstPair (.atom a) (g.map fun r => (.atom r.1, vlist (.atom "->" :: r.2)))]) hs rfl rfl (.one (.user (xs := [_, _]) hs rfl rfl (.two (.v hs rfl rfl) (.v hs rfl rfl)) ?_)) ?_
  · rw [grammar_pairs]
    exact ret_assoc rfl (by decide) _ _ hp1.prog hp1.caar
  · refine .lamN rfl (by decide) hp1.prog fun s2 e2 hq2 hs2 hl => ?_
    exact .cxr (p := ['d', 'd']) hs2 (hp1.mono hq2.heap).prog.core.base rfl rfl (by decide) (by decide) (by decide) (fun s' hh => notMacro_free ((hl s' _ hh rfl).trans hp1.cddr))
      (.v hs2 rfl rfl) (follow_cddr a g)

/-! ### `map` and `mapcat` of functions that take random numbers -/

/-- A call of `map` on a list that is not empty: a call of the function, then a call of `map` on the rest. -/
theorem map_cons_run {f x : Val} {xs : List Val} (hm : f.notMacro = true) {s : St} (hc : Base s.heap 0) (e : Nat) :
    ∃ s1 e1 fr fr' d, Quiet s s1 ∧ callFn W k_map [f, vlist (x :: xs)] e s = ((callFn W f [x] e1 s1).andThen fr fun v s2 => (eval W d e1 s2).andThen fr' fun w s3 => .ok (.cons v w) s3) ∧
      ∀ s2 : St, s1.heap <+: s2.heap → ∃ s3, Quiet s2 s3 ∧ eval W d e1 s2 = callFn W k_map [f, vlist xs] e1 s3 := by
  rw [show callFn W k_map [f, vlist (x :: xs)] e s = _ from callFn_lam (ps := ["f", "l"]) (r := "") (vs := [f, vlist (x :: xs)]) rfl (by decide) e s]
  have q1 := Quiet.callSt s 0 ["f", "l"] "" [f, vlist (x :: xs)]
  have hs := Sc.callSt (.base hc) ["f", "l"] "" [f, vlist (x :: xs)]
  obtain ⟨s2, q2, e2⟩ := when_true (W := W) (c := .atom "l") (x := vlist [.atom "cons", vlist [.atom "f", vlist [.atom "car", .atom "l"]], vlist [.atom "map", .atom "f", vlist [.atom "cdr", .atom "l"]]])
      hs (plain_of rfl) (.core (hc.mono q1.heap) rfl) (.v hs rfl rfl) (w := vlist (x :: xs)) (by simp)
  have q3 := q1.trans (q2.trans (Quiet.withScope s2 s.heap.length))
  have hs3 : Sc (withScope s2 s.heap.length).heap s2.heap.length ([] ++ (paramSyms ["f", "l"] "" [f, vlist (x :: xs)] ++ [])) :=
    .frame (by simp [withScope]) (Nat.lt_of_lt_of_le hs.lt q2.heap.length_le) (hs.mono (q2.trans (Quiet.withScope _ _)).heap)
  have e2' : eval W _ s.heap.length (callSt s 0 ["f", "l"] "" [f, vlist (x :: xs)]) = eval W _ s2.heap.length (withScope s2 s.heap.length) := e2
  generalize withScope s2 s.heap.length = s3 at *
  generalize s2.heap.length = e3 at *
  obtain ⟨s4, e4, q4⟩ := (GA.one (G.car (W := W) hs3 rfl (.v (a := "l") hs3 rfl rfl))).evals s3 (.refl _)
  have h5 : eval W (vlist [.atom "f", vlist [.atom "car", .atom "l"]]) e3 s3 = callFn W f [x] e3 s4 :=
    eval_callVar (s2 := s4) (a := "f") (xs := [_]) hs3 rfl hm rfl rfl (by decide) e4 rfl
  obtain ⟨g1, g2⟩ := hs3.reaches (W := W) rfl hd_cons
  refine ⟨s4, e3, msgList "evaluating function arguments", msgList "evaluating function arguments", vlist [.atom "map", .atom "f", vlist [.atom "cdr", .atom "l"]], q3.trans q4, ?_, fun s5 hp5 => ?_⟩
  · rw [e2', eval_call2 g1 g2, h5]
    simp only [call_cons]
  · have hs5 := (hs3.mono q4.heap).mono hp5
    exact core_call (xs := [_, _]) hs5 rfl hd_map (.two (.v hs5 rfl rfl) (.cdr hs5 rfl (.v hs5 rfl rfl)))

/-- The results of calls one after the other. -/
inductive Turns (Q : Val → Nat → Val → Nat → Prop) : List Val → Nat → List Val → Nat → Prop
  | nil {k : Nat} : Turns Q [] k [] k
  | cons {x v : Val} {xs vs : List Val} {k k1 k2 : Nat} : Q x k v k1 → Turns Q xs k1 vs k2 → Turns Q (x :: xs) k (v :: vs) k2

theorem map_nil_run {f : Val} {s : St} (hm : f.notMacro = true) (hc : Base s.heap 0) (e : Nat) : ∃ s1, callFn W k_map [f, .nil] e s = .ok .nil s1 ∧ Quiet s s1 :=
  ret_map (g := id) hc hm [] (by simp) s e (.refl _)

theorem fine_map {K : Nat} {f : Val} {Q : Val → Nat → Val → Nat → Prop} (hm : f.notMacro = true) (xs : List Val) : ∀ {s : St} (e : Nat), Base s.heap 0 →
    (∀ x ∈ xs, ∀ (s1 : St) e1, s.heap <+: s1.heap → s.tick ≤ s1.tick → Fine K (fun v s2 => (∃ n, Draws n s1 s2) ∧ Q x s1.tick v s2.tick) (callFn W f [x] e1 s1)) →
    Fine K (fun v s2 => (∃ n, Draws n s s2) ∧ ∃ vs, v = vlist vs ∧ Turns Q xs s.tick vs s2.tick) (callFn W k_map [f, vlist xs] e s) := by
  induction xs with
  | nil =>
    intro s e hc _
    obtain ⟨s1, e1, q1⟩ := map_nil_run (W := W) hm hc e
    exact .inr (.inr ⟨_, s1, e1, ⟨0, q1.draws⟩, [], rfl, by rw [q1.tick]; exact .nil⟩)
  | cons x xs ih =>
    intro s e hc H
    obtain ⟨s1, e1, fr, fr', d, q1, heq, hrest⟩ := map_cons_run (W := W) (x := x) (xs := xs) hm hc e
    rw [heq]
    have htick : ∀ v, FR TickLe ((fun s2 => (eval W d e1 s2).andThen fr' fun w s3 => .ok (.cons v w) s3) : M Val) := by
      intro v s2 s3 h
      have h1 := tick_eval W d e1 s2
      revert h1 h
      dsimp only
      cases eval W d e1 s2 <;> intro h h1 <;> cases h <;> exact h1 _ rfl
    refine Fine.andThen (k := fun v => (fun s2 => (eval W d e1 s2).andThen fr' fun w s3 => .ok (.cons v w) s3 : M Val)) (H x (by simp) s1 e1 q1.heap (Nat.le_of_eq q1.tick.symm)) htick ?_
    rintro v s2 ⟨⟨n, d2⟩, hq⟩
    obtain ⟨s3, q3, e3⟩ := hrest s2 d2.heap
    show Fine K _ ((eval W d e1 s2).andThen fr' fun w s3 => .ok (.cons v w) s3)
    rw [e3]
    have hpre : s.heap <+: s3.heap := q1.heap.trans (d2.heap.trans q3.heap)
    have ht : s3.tick = s.tick + n := by rw [q3.tick, d2.tick, q1.tick]
    refine Fine.andThen (k := fun w => (fun s3 => .ok (.cons v w) s3 : M Val)) (ih (s := s3) e1 (hc.mono hpre) fun y hy s4 e4 hp4 ht4 => H y (by simp [hy]) s4 e4 (hpre.trans hp4) (by omega)) ?_ ?_
    · intro w s4 s5 h; cases h; exact Nat.le_refl _
    · rintro w s4 ⟨⟨m, d4⟩, vs, rfl, hch⟩
      refine .inr (.inr ⟨_, s4, rfl, ⟨n + m, ?_⟩, v :: vs, rfl, ?_⟩)
      · exact Draws.after q1 (d2.trans (Draws.after q3 d4))
      · rw [q1.tick] at hq
        rw [q3.tick] at hch
        exact .cons hq hch

theorem sure_map {f : Val} {Q : Val → Nat → Val → Nat → Prop} (hm : f.notMacro = true) {xs vs : List Val} {k k' : Nat} (h : Turns Q xs k vs k') : ∀ {s : St} (e : Nat), Base s.heap 0 → s.tick = k →
    (∀ x v k k', x ∈ xs → Q x k v k' → ∀ (s1 : St) e1, s.heap <+: s1.heap → s1.tick = k → ∃ s2 n, callFn W f [x] e1 s1 = .ok v s2 ∧ Draws n s1 s2 ∧ s2.tick = k') →
    ∃ s2 n, callFn W k_map [f, vlist xs] e s = .ok (vlist vs) s2 ∧ Draws n s s2 ∧ s2.tick = k' := by
  induction h with
  | nil =>
    intro s e hc ht _
    obtain ⟨s1, e1, q1⟩ := map_nil_run (W := W) hm hc e
    exact ⟨s1, 0, e1, q1.draws, by rw [q1.tick, ht]⟩
  | @cons x v xs vs k k1 k2 hq _ ih =>
    intro s e hc ht H
    obtain ⟨s1, e1, fr, fr', d, q1, heq, hrest⟩ := map_cons_run (W := W) (x := x) (xs := xs) hm hc e
    obtain ⟨s2, n, e2, d2, t2⟩ := H x v k k1 (by simp) hq s1 e1 q1.heap (by rw [q1.tick, ht])
    obtain ⟨s3, q3, e3⟩ := hrest s2 d2.heap
    have hpre : s.heap <+: s3.heap := q1.heap.trans (d2.heap.trans q3.heap)
    obtain ⟨s4, m, e4, d4, t4⟩ := ih (s := s3) e1 (hc.mono hpre) (by rw [q3.tick, t2]) fun y w j j' hy hq s4 e4 hp4 ht4 => H y w j j' (by simp [hy]) hq s4 e4 (hpre.trans hp4) ht4
    refine ⟨s4, n + m, ?_, Draws.after q1 (d2.trans (Draws.after q3 d4)), t4⟩
    rw [heq, e2]
    show (eval W d e1 s2).andThen _ _ = _
    rw [e3, e4]
    rfl

/-- Concatenating lists with `reduce`. -/
theorem ret_reduce_concat {s : St} (hc : Base s.heap 0) (xss : List (List Val)) : Returns W s k_reduce [k_concat, vlist (xss.map vlist)] (vlist xss.flatten) := by
  cases xss with
  | nil => exact ret_reduce_empty hc rfl (ret_concat0 hc)
  | cons xs xss =>
    have key : ∀ (yss : List (List Val)) (a : List Val), Folds W s k_concat (vlist a) (yss.map vlist) (vlist (a ++ yss.flatten)) := by
      intro yss
      induction yss with
      | nil => intro a; simpa using Folds.nil
      | cons y ys ih =>
        intro a
        have h3 := ret_concat_lists (W := W) hc [a, y]
        rw [show [a, y].flatten = a ++ y by simp] at h3
        refine .cons h3 ?_
        rw [List.flatten_cons, ← List.append_assoc]
        exact ih (a ++ y)
    exact ret_reduce hc rfl (key xss xs)

theorem mapcat_run {f : Val} {xs : List Val} {s : St} (hc : Base s.heap 0) (e : Nat) :
    ∃ s1 e1 fr, Quiet s s1 ∧ callFn W k_mapcat [f, vlist xs] e s = (callFn W k_map [f, vlist xs] e1 s1).andThen fr fun v s2 => callFn W k_reduce [k_concat, v] e1 s2 := by
  rw [show callFn W k_mapcat [f, vlist xs] e s = _ from callFn_lam (ps := ["f", "l"]) (r := "") (vs := [f, vlist xs]) rfl (by decide) e s]
  have q1 := Quiet.callSt s 0 ["f", "l"] "" [f, vlist xs]
  have hs := Sc.callSt (.base hc) ["f", "l"] "" [f, vlist xs]
  obtain ⟨g1, g2⟩ := hs.reaches (W := W) rfl hd_reduce
  obtain ⟨_, g3⟩ := hs.reaches (W := W) rfl hd_concat
  obtain ⟨s2, q2, e2⟩ := core_call (W := W) (xs := [_, _]) hs rfl hd_map (.two (.v (a := "f") hs rfl rfl) (.v (a := "l") hs rfl rfl))
  refine ⟨s2, s.heap.length, msgList "evaluating function arguments", q1.trans q2, ?_⟩
  rw [eval_call2 g1 g2, g3]
  show (eval W (vlist [.atom "map", .atom "f", .atom "l"]) _ _).andThen _ _ = _
  rw [show eval W (vlist [.atom "map", .atom "f", .atom "l"]) s.heap.length (callSt s 0 ["f", "l"] "" [f, vlist xs]) = _ from e2]

/-! ### `generate` -/

/-- `(if c a b)` with a condition that has a value. -/
theorem if_true {s : St} {e : Nat} {L : List (String × Val)} {c w a b : Val} (hs : Sc s.heap e L) (hp : Plain L) (hc : G W s e c w) (hw : w ≠ .nil) :
    ∃ s1, Quiet s s1 ∧ eval W (vlist [.atom "if", c, a, b]) e s = eval W a e s1 := by
  obtain ⟨s1, q1, e1⟩ := (Becomes.if_ (W := W) (c := c) (a := a) (b := b) hs hp) s (.refl _)
  obtain ⟨s2, e2, q2⟩ := hc s1 q1
  refine ⟨s2, q1.trans q2, ?_⟩
  rw [e1, eval_cond2 (hs.mono q1.heap) (hp _ (by decide)), e2]
  show (if w = .nil then _ else _) = _
  rw [if_neg hw]

theorem if_false {s : St} {e : Nat} {L : List (String × Val)} {c a b : Val} (hs : Sc s.heap e L) (hp : Plain L) (hc : G W s e c .nil) :
    ∃ s1, Quiet s s1 ∧ eval W (vlist [.atom "if", c, a, b]) e s = eval W b e s1 := by
  obtain ⟨s1, q1, e1⟩ := (Becomes.if_ (W := W) (c := c) (a := a) (b := b) hs hp) s (.refl _)
  obtain ⟨s2, e2, q2⟩ := hc s1 q1
  refine ⟨s2, q1.trans q2, ?_⟩
  rw [e1, eval_cond2 (hs.mono q1.heap) (hp _ (by decide)), e2]
  rfl

/-- The function made by `(partial F ...)`, of scope `e`. -/
def partialFn (e : Nat) : Val := .lam [] "more" (vlist [vlist [.atom "apply", .atom "f", vlist [.atom "concat", .atom "args", .atom "more"]]]) .nil false e

theorem partial_run {s : St} (hc : Base s.heap 0) (f : Val) (as : List Val) (e : Nat) :
    callFn W k_partial (f :: as) e s = .ok (partialFn s.heap.length) (callSt s 0 ["f"] "args" (f :: as)) := by
  rw [show callFn W k_partial (f :: as) e s = _ from callFn_lam (ps := ["f"]) (r := "args") (vs := f :: as) (by simp [ArityOk]) (by decide) e s]
  have hs := Sc.callSt (.base hc) ["f"] "args" (f :: as)
  exact (eval_sform W .lambda [mkList [.nil] (.atom "more"), vlist [.atom "apply", .atom "f", vlist [.atom "concat", .atom "args", .atom "more"]]] _ _ (hs.notMacro_sf rfl known_lambda)).trans rfl

theorem partialFn_run {s : St} {f : Val} {as : List Val} {e0 : Nat} (hs : Sc s.heap e0 (paramSyms ["f"] "args" (f :: as) ++ [])) (hc : Base s.heap 0) (x : Val) (e : Nat) :
    ∃ s1 e1, Quiet s s1 ∧ SameEnd (callFn W f (as ++ [x]) e1 s1) (callFn W (partialFn e0) [x] e s) := by
  rw [show callFn W (partialFn e0) [x] e s = _ from callFn_lam (ps := []) (r := "more") (vs := [x]) (by simp [ArityOk]) (by decide) e s]
  have q1 := Quiet.callSt s e0 [] "more" [x]
  have hs1 := Sc.callSt hs [] "more" [x]
  have h3 := ret_concat_lists (W := W) (hc.mono q1.heap) [as, [x]]
  rw [show [as, [x]].flatten = as ++ [x] by simp] at h3
  obtain ⟨s2, q2, e2⟩ := core_call (W := W) (xs := [_, _]) hs1 rfl hd_apply (.two (.v (a := "f") hs1 rfl rfl) (.fn hs1 rfl hd_concat (.two (.v (a := "args") hs1 rfl rfl) (.v (a := "more") hs1 rfl rfl)) h3))
  refine ⟨s2, s.heap.length, q1.trans q2, ?_⟩
  rw [show eval W (vlist [.atom "apply", .atom "f", vlist [.atom "concat", .atom "args", .atom "more"]]) _ _ = _ from e2]
  exact (same_apply W s.heap.length f [] (as ++ [x]) s2).sameEnd.extend

theorem gen_list_run (g : Grammar) (xs : List Val) {s : St} (hp : SenAt s.heap) (e : Nat) :
    ∃ s1 e1 e0, Quiet s s1 ∧ Sc s1.heap e0 (paramSyms ["f"] "args" [s_generate, g.val] ++ []) ∧ callFn W s_generate [g.val, vlist xs] e s = callFn W k_mapcat [partialFn e0, vlist xs] e1 s1 := by
  rw [show callFn W s_generate [g.val, vlist xs] e s = _ from callFn_lam (ps := ["grammar", "phrase"]) (r := "") (vs := [g.val, vlist xs]) rfl (by decide) e s]
  have q1 := Quiet.callSt s 0 ["grammar", "phrase"] "" [g.val, vlist xs]
  have hs := Sc.callSt hp.prog.sc ["grammar", "phrase"] "" [g.val, vlist xs]
  have hl : G W (callSt s 0 ["grammar", "phrase"] "" [g.val, vlist xs]) s.heap.length (vlist [.atom "list?", .atom "phrase"]) (.atom "t") :=
    .fn hs rfl hd_listP (.one (.v hs rfl rfl)) (.bi fun _ _ _ => by cases xs <;> rfl)
  obtain ⟨s2, q2, e2⟩ := if_true (W := W) hs (plain_of rfl) hl (by simp)
  rw [e2]
  have hs2 := hs.mono q2.heap
  obtain ⟨g1, g2⟩ := hs2.reaches (W := W) rfl hd_mapcat
  rw [eval_call2 g1 g2]
  obtain ⟨s3, q3, e3⟩ := core_call (W := W) (xs := [_, _]) hs2 rfl hd_partial (.two (.v (a := "generate") hs2 rfl rfl) (.v (a := "grammar") hs2 rfl rfl))
  have hc3 := (hp.mono (q1.heap.trans (q2.heap.trans q3.heap))).prog.core.base
  rw [show eval W (vlist [.atom "partial", .atom "generate", .atom "grammar"]) _ _ = _ from e3.trans (partial_run hc3 _ _ _)]
  have hs4 := (hs2.mono q3.heap).mono (Quiet.callSt s3 0 ["f"] "args" [s_generate, g.val]).heap
  refine ⟨callSt s3 0 ["f"] "args" [s_generate, g.val], s.heap.length, s3.heap.length, q1.trans (q2.trans (q3.trans (Quiet.callSt s3 0 ["f"] "args" [s_generate, g.val]))), Sc.callSt (.base hc3) _ _ _, ?_⟩
  show (eval W (.atom "phrase") _ _).andThen _ _ = _
  rw [show eval W (.atom "phrase") s.heap.length (callSt s3 0 ["f"] "args" [s_generate, g.val]) = .ok (vlist xs) (callSt s3 0 ["f"] "args" [s_generate, g.val]) from
      eval_atom_bound (by decide) (by decide) (hs4.lookup_some rfl)]
  rfl

/-- A `let` of one variable with a quiet value becomes its body in a new scope. -/
theorem let1_quiet {s : St} {e : Nat} {L : List (String × Val)} {n : String} {c x v : Val} (hs : Sc s.heap e L) (hl : alGet "let" L = none) (hn : n ≠ "t") (hg : G W s e c v) :
    ∃ s1 e1, Quiet s s1 ∧ Sc s1.heap e1 ([(n, v)] ++ L) ∧ eval W (vlist [.atom "let", vlist [vlist [.atom n, c]], x]) e s = eval W x e1 s1 := by
  have q1 := Quiet.withScope s e
  obtain ⟨s2, e2, q2⟩ := hg (withScope s e) q1
  have q3 : Quiet s { s2 with heap := heapSet s2.heap s.heap.length n v } := (q1.trans q2).grow (prefix_heapSet (q1.trans q2).heap (Nat.le_refl _) _ _)
  refine ⟨{ s2 with heap := heapSet s2.heap s.heap.length n v }, s.heap.length, q3, ?_, ?_⟩
  · exact .frame (heapSet_at (prefix_get q2.heap (f := ⟨[], some e⟩) (by simp [withScope]))) hs.lt (hs.mono q3.heap)
  · rw [let1_run _ _ hs hl hn, e2]
    rfl

theorem choices_ok {g : Grammar} (hg : g.Ok) (a : String) : (g.choices a).length < 2 ^ 63 ∧ ∀ x ∈ g.choices a, Phrase x := by
  induction g with
  | nil => exact ⟨by simp [Grammar.choices], by simp [Grammar.choices]⟩
  | cons r g ih =>
    rw [Grammar.choices]
    split
    · exact hg r (by simp)
    · exact ih fun r hr => hg r (by simp [hr])

/-- What `generate` does with a word or category. -/
theorem gen_word_run (g : Grammar) (hg : g.Ok) (a : String) {s : St} (hp : SenAt s.heap) (e : Nat) :
    (g.choices a = [] → ∃ s1, callFn W s_generate [g.val, .atom a] e s = .ok (vlist [.atom a]) s1 ∧ Quiet s s1) ∧
    (∀ x, (g.choices a)[W.rand s.tick % (g.choices a).length]? = some x →
      ∃ s1 e1, Draws 1 s s1 ∧ callFn W s_generate [g.val, .atom a] e s = callFn W s_generate [g.val, x] e1 s1) := by
  rw [show callFn W s_generate [g.val, .atom a] e s = _ from callFn_lam (ps := ["grammar", "phrase"]) (r := "") (vs := [g.val, .atom a]) rfl (by decide) e s]
  have q1 := Quiet.callSt s 0 ["grammar", "phrase"] "" [g.val, .atom a]
  have hs := Sc.callSt hp.prog.sc ["grammar", "phrase"] "" [g.val, .atom a]
  have hl : G W (callSt s 0 ["grammar", "phrase"] "" [g.val, .atom a]) s.heap.length (vlist [.atom "list?", .atom "phrase"]) .nil :=
    .fn hs rfl hd_listP (.one (.v hs rfl rfl)) (.bi fun _ _ _ => rfl)
  obtain ⟨s2, q2, e2⟩ := if_false (W := W) hs (plain_of rfl) hl
  rw [e2]
  have q12 := q1.trans q2
  have hp2 := hp.mono q12.heap
  have hs2 := hs.mono q2.heap
  obtain ⟨s3, e3, q3, hs3, e3'⟩ := let1_quiet (W := W) (n := "choices")
    (x := vlist [.atom "if", .atom "choices", vlist [.atom "generate", .atom "grammar", vlist [.atom "randchoice", .atom "choices"]], vlist [.atom "list", .atom "phrase"]])
    (c := vlist [.atom "rewrites", .atom "grammar", .atom "phrase"]) hs2 rfl (by decide) (.user (a := "rewrites") (xs := [.atom "grammar", .atom "phrase"]) hs2 rfl rfl (.two (.v hs2 rfl rfl) (.v hs2 rfl rfl)) (ret_rewrites g a hp2))
  rw [show eval W _ s.heap.length s2 = _ from e3']
  have q123 := q12.trans q3
  constructor
  · intro h
    rw [h] at hs3
    obtain ⟨s4, q4, e4⟩ := if_false (W := W) (a := vlist [.atom "generate", .atom "grammar", vlist [.atom "randchoice", .atom "choices"]]) (b := vlist [.atom "list", .atom "phrase"]) hs3 (plain_of rfl) (.v (a := "choices") hs3 rfl rfl)
    rw [e4]
    have hs4 := hs3.mono q4.heap
    obtain ⟨s5, e5, q5⟩ := (G.fn (W := W) (xs := [.atom "phrase"]) (v := vlist [.atom a]) hs4 rfl hd_list (.one (.v hs4 rfl rfl)) (.bi fun _ _ _ => rfl)) s4 (.refl _)
    exact ⟨s5, e5, q123.trans (q4.trans q5)⟩
  · intro x hx
    have hne : g.choices a ≠ [] := by intro h; rw [h] at hx; simp at hx
    have hlen := (choices_ok hg a).1
    have hch : vlist (g.choices a) ≠ .nil := by cases h : g.choices a <;> simp [h] at hne ⊢
    obtain ⟨s4, q4, e4⟩ := if_true (W := W) (a := vlist [.atom "generate", .atom "grammar", vlist [.atom "randchoice", .atom "choices"]]) (b := vlist [.atom "list", .atom "phrase"]) hs3 (plain_of rfl) (.v (a := "choices") hs3 rfl rfl) hch
    rw [e4]
    have hs4 := hs3.mono q4.heap
    have q14 := q123.trans q4
    obtain ⟨s5, q5, e5⟩ := core_call (W := W) (xs := [_]) hs4 rfl hd_randchoice (.one (.v (a := "choices") hs4 rfl rfl))
    obtain ⟨s6, e6, d6⟩ := draws_randchoice (W := W) (s := s5) (hp.mono (q14.trans q5).heap).prog.core.base (g.choices a) hne hlen s5 e3 (List.prefix_refl _)
    have q15 := q14.trans q5
    have hv : (g.choices a).getD (W.rand s5.tick % (g.choices a).length) .nil = x := by
      rw [q15.tick, List.getD_eq_getElem?_getD, hx]; rfl
    dsimp only at e6
    rw [hv] at e6
    have hs5 := hs4.mono q5.heap
    refine ⟨s6, e3, .after q15 d6, ?_⟩
    refine eval_callVar (s2 := s6) (a := "generate") (xs := [.atom "grammar", vlist [.atom "randchoice", .atom "choices"]]) hs4 rfl rfl rfl rfl (by decide)
      (.cons (eval_atom_bound (by decide) (by decide) (hs4.lookup_some rfl)) (.cons (e5.trans e6) .nil)) rfl

/-! ### What `generate` returns -/

theorem wordList_flatten (wss : List (List String)) : vlist ((wss.map fun ws => ws.map Val.atom).flatten) = wordList wss.flatten := by
  unfold wordList
  rw [List.map_flatten]

theorem turns_generates {g : Grammar} {xs vs : List Val} {k k' : Nat} (h : Turns (fun x k v k' => ∃ ws, v = wordList ws ∧ Generates W g k x ws k') xs k vs k') :
    ∃ wss : List (List String), vs = (wss.map fun ws => ws.map Val.atom).map vlist ∧ Generates W g k (vlist xs) wss.flatten k' := by
  induction h with
  | nil => exact ⟨[], rfl, .nil⟩
  | cons h1 _ ih =>
    obtain ⟨ws, rfl, h1⟩ := h1
    obtain ⟨wss, rfl, h2⟩ := ih
    exact ⟨ws :: wss, rfl, .cons h1 h2⟩

theorem fine_gen {g : Grammar} (hg : g.Ok) (K : Nat) : ∀ (N : Nat) (p : Val), Phrase p → ∀ (s : St) (e : Nat), SenAt s.heap → K ≤ s.tick + N →
    Fine K (fun v s' => (∃ n, Draws n s s') ∧ ∃ ws, v = wordList ws ∧ Generates W g s.tick p ws s'.tick) (callFn W s_generate [g.val, p] e s) := by
  intro N
  induction N with
  | zero => exact fun p _ s e _ h => .late (tick_callFn _ _ _ _) h
  | succ N ihN =>
    intro p hp
    induction hp with
    | word a =>
      intro s e hs hK
      obtain ⟨h1, h2⟩ := gen_word_run (W := W) g hg a hs e
      by_cases hc : g.choices a = []
      · obtain ⟨s1, e1, q1⟩ := h1 hc
        exact .inr (.inr ⟨_, s1, e1, ⟨0, q1.draws⟩, [a], rfl, by rw [q1.tick]; exact .word hc⟩)
      · have hlt : W.rand s.tick % (g.choices a).length < (g.choices a).length := Nat.mod_lt _ (List.length_pos_iff.2 hc)
        obtain ⟨s1, e1, d1, heq⟩ := h2 _ (List.getElem?_eq_getElem hlt)
        rw [heq]
        refine (ihN _ ((choices_ok hg a).2 _ (List.getElem_mem hlt)) s1 e1 (hs.mono d1.heap) (by have := d1.tick; omega)).mono ?_
        rintro v s2 ⟨⟨n, d2⟩, ws, rfl, hw⟩
        refine ⟨⟨1 + n, d1.trans d2⟩, ws, rfl, .choice (List.getElem?_eq_getElem hlt) ?_⟩
        rwa [d1.tick] at hw
    | list xs hxs ih =>
      intro s e hs hK
      obtain ⟨s1, e1, e0, q1, hsc, heq⟩ := gen_list_run (W := W) g xs hs e
      have hs1 := hs.mono q1.heap
      obtain ⟨s2, e2, fr, q2, heq2⟩ := mapcat_run (W := W) (f := partialFn e0) (xs := xs) hs1.prog.core.base e1
      rw [heq, heq2]
      have q12 := q1.trans q2
      have hs2 := hs.mono q12.heap
      refine Fine.andThen (k := fun v => callFn W k_reduce [k_concat, v] e2) (fine_map (Q := fun x k v k' => ∃ ws, v = wordList ws ∧ Generates W g k x ws k') rfl xs e2 hs2.prog.core.base ?_) (fun v => tick_callFn _ _ _ _) ?_
      · intro x hx s3 e3 hp3 ht3
        have hs3 := hs2.mono hp3
        obtain ⟨s4, e4, q4, hsame⟩ := partialFn_run (W := W) ((hsc.mono q2.heap).mono hp3) hs3.prog.core.base x e3
        refine Fine.same (Fine.mono (ih x hx s4 e4 (hs3.mono q4.heap) (by have := q4.tick; have := q12.tick; omega)) ?_) hsame
        rintro v s5 ⟨⟨n, d5⟩, h5⟩
        exact ⟨⟨n, .after q4 d5⟩, by rwa [q4.tick] at h5⟩
      · rintro v s3 ⟨⟨n, d3⟩, vs, rfl, ht⟩
        obtain ⟨wss, rfl, hgen⟩ := turns_generates ht
        have hs3 := hs2.mono d3.heap
        obtain ⟨s4, e4, q4⟩ := ret_reduce_concat (W := W) hs3.prog.core.base (wss.map fun ws => ws.map Val.atom) s3 e2 (.refl _)
        refine .inr (.inr ⟨_, s4, e4, ⟨n, (Draws.after q12 d3).quiet q4⟩, wss.flatten, wordList_flatten wss, ?_⟩)
        rw [q4.tick]
        rwa [q12.tick] at hgen

/-- What `generate` returns, if it returns. -/
theorem gen_ends {g : Grammar} (hg : g.Ok) {p : Val} (hp : Phrase p) {s : St} (hs : SenAt s.heap) (e : Nat) :
    callFn W s_generate [g.val, p] e s = .oof ∨
    ∃ s' n ws, callFn W s_generate [g.val, p] e s = .ok (wordList ws) s' ∧ Draws n s s' ∧ Generates W g s.tick p ws (s.tick + n) := by
  cases hf : (callFn W s_generate [g.val, p] e s).final with
  | none =>
    refine .inl ?_
    revert hf
    cases callFn W s_generate [g.val, p] e s <;> simp [Res.final]
  | some s' =>
    rcases fine_gen (W := W) hg (s'.tick + 1) (s'.tick + 1) p hp s e hs (by omega) with h | ⟨s1, h1, h2⟩ | ⟨v, s1, h1, ⟨n, d⟩, ws, rfl, h2⟩
    · exact .inl h
    · rw [hf] at h1; cases h1; omega
    · exact .inr ⟨s1, n, ws, h1, d, by rwa [← d.tick]⟩

/-- The call of `generate` for a phrase returns the words. -/
def SureGen (W : World) (g : Grammar) (p : Val) (k : Nat) (v : Val) (k' : Nat) : Prop :=
  ∀ (s : St) (e : Nat), SenAt s.heap → s.tick = k → ∃ s2 n, callFn W s_generate [g.val, p] e s = .ok v s2 ∧ Draws n s s2 ∧ s2.tick = k'

theorem sure_list {g : Grammar} {xs : List Val} {wss : List (List String)} {k k' : Nat}
    (h : Turns (SureGen W g) xs k ((wss.map fun ws => ws.map Val.atom).map vlist) k') : SureGen W g (vlist xs) k (wordList wss.flatten) k' := by
  intro s e hs ht
  obtain ⟨s1, e1, e0, q1, hsc, heq⟩ := gen_list_run (W := W) g xs hs e
  have hs1 := hs.mono q1.heap
  obtain ⟨s2, e2, fr, q2, heq2⟩ := mapcat_run (W := W) (f := partialFn e0) (xs := xs) hs1.prog.core.base e1
  have q12 := q1.trans q2
  have hs2 := hs.mono q12.heap
  obtain ⟨s3, n, e3, d3, t3⟩ := sure_map (W := W) (f := partialFn e0) rfl h (s := s2) e2 hs2.prog.core.base (by rw [q12.tick, ht]) fun x v j j' hx hv s3 e3 hp3 ht3 => by
    have hs3 := hs2.mono hp3
    obtain ⟨s4, e4, q4, hsame⟩ := partialFn_run (W := W) ((hsc.mono q2.heap).mono hp3) hs3.prog.core.base x e3
    obtain ⟨s5, m, e5, d5, t5⟩ := hv s4 e4 (hs3.mono q4.heap) (by rw [q4.tick, ht3])
    rw [show [g.val] ++ [x] = [g.val, x] from rfl, e5] at hsame
    exact ⟨s5, m, hsame.ok, .after q4 d5, t5⟩
  obtain ⟨s4, e4, q4⟩ := ret_reduce_concat (W := W) (hs2.mono d3.heap).prog.core.base (wss.map fun ws => ws.map Val.atom) s3 e2 (.refl _)
  refine ⟨s4, n, ?_, (Draws.after q12 d3).quiet q4, by rw [q4.tick, t3]⟩
  rw [heq, heq2, e3]
  show callFn W k_reduce _ e2 s3 = _
  rw [e4, wordList_flatten]

theorem sure_gen {g : Grammar} (hg : g.Ok) {p : Val} {ws : List String} {k k' : Nat} (h : Generates W g k p ws k') : SureGen W g p k (wordList ws) k' := by
  have key : SureGen W g p k (wordList ws) k' ∧ ∀ xs, p = vlist xs → ∃ wss : List (List String), wss.flatten = ws ∧ Turns (SureGen W g) xs k ((wss.map fun ws => ws.map Val.atom).map vlist) k' := by
    induction h with
    | @word a k hc =>
      refine ⟨fun s e hs ht => ?_, fun xs hx => by cases xs <;> cases hx⟩
      obtain ⟨s1, e1, q1⟩ := (gen_word_run (W := W) g hg a hs e).1 hc
      exact ⟨s1, 0, e1, q1.draws, by rw [q1.tick, ht]⟩
    | @choice a x ws k k' hx _ ih =>
      refine ⟨fun s e hs ht => ?_, fun xs hx => by cases xs <;> cases hx⟩
      obtain ⟨s1, e1, d1, heq⟩ := (gen_word_run (W := W) g hg a hs e).2 x (by rw [ht]; exact hx)
      obtain ⟨s2, n, e2, d2, t2⟩ := ih.1 s1 e1 (hs.mono d1.heap) (by rw [d1.tick, ht])
      exact ⟨s2, 1 + n, heq.trans e2, d1.trans d2, t2⟩
    | nil => exact ⟨sure_list (xs := []) (wss := []) .nil, fun xs hx => by cases xs <;> cases hx; exact ⟨[], rfl, .nil⟩⟩
    | @cons x xs us ws k k1 k2 _ _ ih1 ih2 =>
      obtain ⟨wss, rfl, ht⟩ := ih2.2 xs rfl
      have ht' : Turns (SureGen W g) (x :: xs) k (((us :: wss).map fun ws => ws.map Val.atom).map vlist) k2 := .cons ih1.1 ht
      refine ⟨sure_list (wss := us :: wss) ht', fun ys hy => ?_⟩
      have : ys = x :: xs := vlist_inj hy.symm
      subst this
      exact ⟨us :: wss, rfl, ht'⟩
  exact key.1

/-! ### Random choices and derivations -/

theorem Generates.derives {g : Grammar} {p : Val} {ws : List String} {k k' : Nat} (h : Generates W g k p ws k') : Derives g p ws := by
  induction h with
  | word h => exact .word h
  | choice h _ ih => exact .choice (List.mem_of_getElem? h) ih
  | nil => exact .nil
  | cons _ _ ih1 ih2 => exact .cons ih1 ih2

theorem Derives.generates {g : Grammar} {p : Val} {ws : List String} (h : Derives g p ws) :
    ∃ l : List Nat, ∀ (W : World) k, (∀ i < l.length, W.rand (k + i) = l.getD i 0) → Generates W g k p ws (k + l.length) := by
  induction h with
  | word h => exact ⟨[], fun W k _ => .word h⟩
  | @choice a x ws h _ ih =>
    obtain ⟨l, ih⟩ := ih
    obtain ⟨i, hi, hx⟩ := List.getElem_of_mem h
    refine ⟨i :: l, fun W k hW => .choice (x := x) ?_ ?_⟩
    · have := hW 0 (by simp)
      simp only [Nat.add_zero, List.getD_cons_zero] at this
      rw [this, Nat.mod_eq_of_lt hi, List.getElem?_eq_getElem hi, hx]
    · have := ih W (k + 1) fun j hj => by
        have := hW (j + 1) (by simpa using hj)
        rw [show k + 1 + j = k + (j + 1) by omega, this]; simp
      rwa [show k + (i :: l).length = k + 1 + l.length by simp; omega]
  | nil => exact ⟨[], fun W k _ => .nil⟩
  | cons _ _ ih1 ih2 =>
    obtain ⟨l1, ih1⟩ := ih1
    obtain ⟨l2, ih2⟩ := ih2
    refine ⟨l1 ++ l2, fun W k hW => .cons (k1 := k + l1.length) (ih1 W k fun i hi => ?_) ?_⟩
    · rw [hW i (by rw [List.length_append]; omega)]
      simp [List.getD_eq_getElem?_getD, List.getElem?_append_left hi]
    · have := ih2 W (k + l1.length) fun i hi => by
        rw [show k + l1.length + i = k + (l1.length + i) by omega, hW (l1.length + i) (by rw [List.length_append]; omega)]
        rw [List.getD_eq_getElem?_getD, List.getD_eq_getElem?_getD, List.getElem?_append_right (by omega), Nat.add_sub_cancel_left]
      rwa [show k + (l1 ++ l2).length = k + l1.length + l2.length by simp; omega]

/-- The random numbers determine the words. -/
theorem Generates.det {g : Grammar} {p : Val} {ws ws' : List String} {k k1 k2 : Nat} (h : Generates W g k p ws k1) (h' : Generates W g k p ws' k2) : ws = ws' ∧ k1 = k2 := by
  induction h generalizing ws' k2 with
  | @word a k hc =>
    generalize hp : Val.atom a = p at h'
    cases h' with
    | word => cases hp; exact ⟨rfl, rfl⟩
    | choice h1 => cases hp; rw [hc] at h1; cases h1
    | nil => cases hp
    | cons => cases hp
  | @choice a x ws k k' hx _ ih =>
    generalize hp : Val.atom a = p at h'
    cases h' with
    | word hc => cases hp; rw [hc] at hx; cases hx
    | choice h1 h2 => cases hp; rw [hx] at h1; cases h1; exact ih h2
    | nil => cases hp
    | cons => cases hp
  | nil =>
    generalize hp : Val.nil = p at h'
    cases h' with
    | nil => exact ⟨rfl, rfl⟩
    | _ => cases hp
  | @cons x xs us ws k k1 k2 _ _ ih1 ih2 =>
    generalize hp : vlist (x :: xs) = p at h'
    cases h' with
    | cons h1 h2 =>
      have := vlist_inj hp
      cases this
      obtain ⟨rfl, rfl⟩ := ih1 h1
      obtain ⟨rfl, rfl⟩ := ih2 h2
      exact ⟨rfl, rfl⟩
    | _ => cases hp

end L1
