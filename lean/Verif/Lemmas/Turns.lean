import Verif.Props.Loops
/-
`dotimes` with one expression, by an invariant.
-/
set_option autoImplicit false
namespace L1

variable {W : World}

theorem evalsTo_one {e : Nat} {x v : Val} {s s' : St} (h : eval W x e s = .ok v s') : EvalsTo W e [x] s [v] s' := .cons h .nil

/-- If the expression takes `I (k + 1)` to `I k` wherever `dotimes` evaluates it, or does not end (which `Bad` allows), then `dotimes` takes `I m` to `I 0`, or does not end. -/
theorem dotimes_inv {s : St} {e : Nat} (h : CoreHere s.heap e) (m : Nat) (x : Val) (I : Nat → St → Prop) (Bad : Prop)
    (hI : ∀ k (s1 s2 : St), I k s1 → s2.out = s1.out → s2.inp = s1.inp → s2.tick = s1.tick → s2.screen = s1.screen → I k s2)
    (h0 : I m s)
    (hx : ∀ k E (s1 : St), s.heap <+: s1.heap → CoreHere s1.heap E → (∀ a : String, a ≠ "count" → a.toList.head? ≠ some '<' → lookup s1.heap E a = lookup s.heap e a) → I (k + 1) s1 →
      (eval W x E s1 = .oof ∧ Bad) ∨ ∃ v s2, eval W x E s1 = .ok v s2 ∧ s1.heap <+: s2.heap ∧ I k s2) :
    (eval W (form "dotimes" [.num m, x]) e s = .oof ∧ Bad) ∨ ∃ s', eval W (form "dotimes" [.num m, x]) e s = .ok .nil s' ∧ I 0 s' := by
  obtain ⟨s1, q1, _, h2⟩ := dotimes_run (W := W) h (.num m) [x]
  obtain ⟨_, h3⟩ := h2 m s1 (by rw [eval_eq]; rfl) (h.mono q1.heap) (fun _ _ => rfl)
  obtain ⟨g, N, F, E, s3, st, hd, h4⟩ := h3 (by omega)
  have hgc : g ≠ "count" := by obtain ⟨k, hk⟩ := hd.new.1; rw [hk]; exact gensymName_ne (by decide)
  have hpre3 : s.heap <+: s3.heap := by
    rw [List.prefix_iff_eq_take]
    refine List.ext_getElem? fun j => ?_
    rw [List.getElem?_take]
    by_cases hj : j < s.heap.length
    · rw [if_pos hj, st.heap j (Nat.lt_of_lt_of_le hj q1.heap.length_le) fun hn => absurd hn.1 (by omega)]
      obtain ⟨t, ht⟩ := q1.heap
      rw [← ht, List.getElem?_append_left hj]
    · rw [if_neg hj, List.getElem?_eq_none (by omega)]
  have hI3 : I m s3 := hI _ _ _ h0 (st.out.trans q1.out) (st.inp.trans q1.inp) (st.tick.trans q1.tick) (st.screen.trans q1.screen)
  have hsame : ∀ a : String, a.toList.head? ≠ some '<' → lookup s3.heap E a = lookup s.heap e a := fun a ha => by
    obtain ⟨⟨j, hj⟩, k, hk⟩ := hd.new
    rw [hd.same a (by rw [hj]; exact (gensymName_ne ha).symm) (by rw [hk]; exact (gensymName_ne ha).symm), h.2.nested.lookup_prefix q1.heap]
  have turn : ∀ (k : Nat) (y : St) st, s3.heap <+: y.heap → I k y → DotimesTurn W [x] E g F ((k : Int), y) st →
      (k = 0 → ∃ s', st = .ends (.ok .nil s') ∧ I 0 s') ∧
      (∀ j, k = j + 1 → (Bad ∧ st = .ends .oof) ∨ ∃ s', st = .again ((j : Int), s') ∧ s3.heap <+: s'.heap ∧ I j s') := by
    intro k y st hy hIy ht
    have hcy : CoreHere y.heap E := hd.core.mono hy
    have hc : CoreHere (callSt y E ["count"] "" [.num k]).heap y.heap.length := hcy.frame (syms := [("count", .num k)]) count_unknown
    have hp : y.heap <+: (callSt y E ["count"] "" [.num k]).heap := List.prefix_append _ _
    have body : ∀ j, k = j + 1 → ∀ s1, Quiet (callSt y E ["count"] "" [.num k]) s1 →
        (eval W x s1.heap.length (withScope s1 y.heap.length) = .oof ∧ Bad) ∨ ∃ v s2, eval W x s1.heap.length (withScope s1 y.heap.length) = .ok v s2 ∧
        s3.heap <+: s2.heap ∧ I j s2 ∧ CoreHere s2.heap E ∧ lookup s2.heap s1.heap.length "-" = none ∧
        lookup s2.heap s1.heap.length g = some F ∧ lookup s2.heap s1.heap.length "count" = some (.num k) := by
      intro j hj s1 hq
      have hc1 := hc.mono hq.heap
      have hcw : CoreHere (withScope s1 y.heap.length).heap s1.heap.length := hc1.frame (syms := []) fun _ _ _ => rfl
      have hpw : s3.heap <+: (withScope s1 y.heap.length).heap := hy.trans (hp.trans (hq.heap.trans (List.prefix_append _ _)))
      have hlook : ∀ (s2 : St), (withScope s1 y.heap.length).heap <+: s2.heap → ∀ a, lookup s2.heap s1.heap.length a = match alGet a [("count", Val.num k)] with | some v => some v | none => lookup s3.heap E a := by
        intro s2 h2 a
        rw [hcw.2.nested.lookup_prefix h2, lookup_withScope hc1.2.nested, hc.2.nested.lookup_prefix hq.heap, ← hd.core.2.nested.lookup_prefix hy]
        exact lookup_last (syms := [("count", .num k)]) hcy.2.nested a
      have hIw : I (j + 1) (withScope s1 y.heap.length) := by
        rw [← hj]
        exact hI _ _ _ hIy hq.out hq.inp hq.tick hq.screen
      rcases hx j s1.heap.length (withScope s1 y.heap.length) (hpre3.trans hpw) hcw (fun a h1 h2 => by
        rw [hlook _ (List.prefix_refl _) a, show alGet a [("count", Val.num k)] = none by simp [alGet, Ne.symm h1]]
        exact hsame a h2) hIw with h1 | ⟨v, s2, h1, h2, h3⟩
      · exact .inl h1
      · refine .inr ⟨v, s2, h1, hpw.trans h2, h3, hd.core.mono (hpw.trans h2), ?_, ?_, ?_⟩
        · exact (hcw.mono h2).2.sees "-" none (by decide +kernel)
        · rw [hlook _ h2]; simp [alGet, Ne.symm hgc, hd.function]
        · rw [hlook _ h2]; rfl
    generalize hk : (k : Int) = ki at ht
    cases ht with
    | done hq =>
      have : k = 0 := by omega
      subst this
      refine ⟨fun _ => ⟨_, rfl, ?_⟩, fun j hj => by omega⟩
      exact hI _ _ _ hIy hq.out hq.inp hq.tick hq.screen
    | stops hn hq hst =>
      subst hk
      refine ⟨fun h => absurd (by rw [h]; rfl) hn, fun j hj => ?_⟩
      rcases body j hj _ hq with h1 | ⟨v, s2, h1, _⟩
      · cases hst with
        | here h2 => exact .inl ⟨h1.2, by rw [← h2, h1.1]⟩
        | later h2 => rw [h1.1] at h2; cases h2
      · exact (not_stopsAt (evalsTo_one h1) hst).elim
    | again hn hq hev hcount =>
      subst hk
      refine ⟨fun h => absurd (by rw [h]; rfl) hn, fun j hj => ?_⟩
      rcases body j hj _ hq with h1 | ⟨v, s2, h1, h2, h3, _, _, _, h5⟩
      · cases hev with
        | cons h2 _ => rw [h1.1] at h2; cases h2
      · cases evalsTo_fun (evalsTo_one h1) hev
        rw [h5] at hcount
        cases hcount
        refine .inr ⟨_, ?_, h2, h3⟩
        rw [show (k : Int) - 1 = (j : Int) by omega]
    | disturbed hn hq hev hdis =>
      subst hk
      refine ⟨fun h => absurd (by rw [h]; rfl) hn, fun j hj => ?_⟩
      rcases body j hj _ hq with h1 | ⟨v, s2, h1, h2, h3, h4, h5, h6, h7⟩
      · cases hev with
        | cons h2 _ => rw [h1.1] at h2; cases h2
      · cases evalsTo_fun (evalsTo_one h1) hev
        exact absurd ⟨h4, h5, h6, _, h7⟩ hdis
  have loops : ∀ (k : Nat) (y : St) r, s3.heap <+: y.heap → I k y → Loops (DotimesTurn W [x] E g F) ((k : Int), y) r →
      (Bad ∧ r = .oof) ∨ ∃ s', r = .ok .nil s' ∧ I 0 s' := by
    intro k
    induction k with
    | zero =>
      intro y r hy hIy hl
      cases hl with
      | ends ht =>
        obtain ⟨s', h1, h2⟩ := (turn 0 y _ hy hIy ht).1 rfl
        injection h1 with h1
        exact .inr ⟨s', h1, h2⟩
      | again ht => obtain ⟨s', h1, _⟩ := (turn 0 y _ hy hIy ht).1 rfl; cases h1
      | unknown ht => obtain ⟨s', h1, _⟩ := (turn 0 y _ hy hIy ht).1 rfl; cases h1
    | succ k ih =>
      intro y r hy hIy hl
      cases hl with
      | ends ht =>
        rcases (turn (k + 1) y _ hy hIy ht).2 k rfl with ⟨hb, h1⟩ | ⟨s', h1, _⟩
        · injection h1 with h1; exact .inl ⟨hb, h1⟩
        · cases h1
      | unknown ht => rcases (turn (k + 1) y _ hy hIy ht).2 k rfl with ⟨hb, h1⟩ | ⟨s', h1, _⟩ <;> cases h1
      | again ht hl =>
        rcases (turn (k + 1) y _ hy hIy ht).2 k rfl with ⟨hb, h1⟩ | ⟨s', h1, h2, h3⟩
        · cases h1
        · injection h1 with h1
          subst h1
          exact ih _ _ h2 h3 hl
  rcases h4 with ⟨r, h5, h6⟩ | ⟨⟨f, hf0, hf⟩, hoof⟩
  · rcases loops m s3 r (List.prefix_refl _) hI3 h5 with ⟨hb, rfl⟩ | ⟨s', rfl, h7⟩
    · rcases h6 with h6 | ⟨er, s0, fr, h6, _⟩
      · exact .inl ⟨h6, hb⟩
      · cases h6
    · rcases h6 with h6 | ⟨er, s0, fr, h6, _⟩
      · exact .inr ⟨s', h6, h7⟩
      · cases h6
  · exfalso
    have key : ∀ k : Nat, ∀ i, (f i).1 = (k : Int) → s3.heap <+: (f i).2.heap → I k (f i).2 → False := by
      intro k
      induction k with
      | zero =>
        intro i hi hy hIy
        obtain ⟨s', h1, _⟩ := (turn 0 (f i).2 _ hy hIy (by have := hf i; rwa [show f i = (((0 : Nat) : Int), (f i).2) by rw [← hi]] at this)).1 rfl
        cases h1
      | succ k ih =>
        intro i hi hy hIy
        rcases (turn (k + 1) (f i).2 _ hy hIy (by have := hf i; rwa [show f i = (((k + 1 : Nat) : Int), (f i).2) by rw [← hi]] at this)).2 k rfl with ⟨hb, h1⟩ | ⟨s', h1, h2, h3⟩
        · cases h1
        · injection h1 with h1
          exact ih (i + 1) (by rw [h1]) (by rw [h1]; exact h2) (by rw [h1]; exact h3)
    exact key m 0 (by rw [hf0]) (by rw [hf0]) (by rw [hf0]; exact hI3)

end L1
