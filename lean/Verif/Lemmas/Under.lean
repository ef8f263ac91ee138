import Verif.Lemmas.Calls
import Verif.Spec.Plans
import Verif.Lemmas.Encap
import Verif.Lemmas.CoreThen
/- Calls of functions of the program out of library functions: the scopes made by the library are out of reach. -/
set_option autoImplicit false
namespace L1
variable {W : World}

/-- The state is, up to renumbering and extra scopes among which are those of `J`, a good state; and so are the values `vs`, which do not refer to
the extra scopes. -/
def Under (s : St) (vs : List Val) (J : Nat → Prop) : Prop :=
  ∃ (R : Rn) (c : St), Inv c ∧ SR R c s ∧ (∀ v ∈ vs, ∃ u, VOk c.heap.length u ∧ u.ren R.ρ = v) ∧ (∀ j, J j → ∀ i, R.ρ i ≠ j) ∧ R.ρ 0 = 0

theorem Val.ren_id (v : Val) : v.ren id = v := by
  induction v with
  | cons a d iha ihd => simp only [Val.ren, iha, ihd]
  | lam ps r b dc m e ihb ihd => simp only [Val.ren, ihb, ihd, id]
  | _ => rfl

theorem Val.ren_congr {n : Nat} {ρ ρ' : Nat → Nat} (h : ∀ i, i < n → ρ i = ρ' i) {v : Val} (hv : VOk n v) : v.ren ρ = v.ren ρ' := by
  induction v with
  | cons a d iha ihd => simp only [Val.ren, iha hv.1, ihd hv.2]
  | lam ps r b dc m e ihb ihd => simp only [Val.ren, ihb hv.2.1, ihd hv.2.2, h e hv.1]
  | _ => rfl

theorem Under.start {s : St} {vs : List Val} (hi : Inv s) (hv : ∀ v ∈ vs, VOk s.heap.length v) : Under s vs fun _ => False := by
  refine ⟨⟨id, [], [], s.heap, [], []⟩, s, hi, ⟨fun i j h => h, SR.up_of_mono hi fun i j h => h, fun i => ?_, fun k => rfl, fun j _ => rfl, ⟨s.out, rfl, rfl⟩, rfl, rfl, rfl, rfl, ⟨s.issued, rfl, rfl⟩⟩,
    fun v hv' => ⟨v, hv v hv', Val.ren_id v⟩, (fun _ h => h.elim), rfl⟩
  show s.heap[i]? = (s.heap[i]?).map (Frame.ren id)
  cases s.heap[i]? with
  | none => rfl
  | some f =>
    obtain ⟨syms, par⟩ := f
    simp only [Option.map_some, Frame.ren, Option.some.injEq]
    congr 1
    · have : syms.map (fun p => (p.1, p.2.ren id)) = syms := by simp [Val.ren_id]
      exact this.symm
    · cases par <;> rfl

theorem Under.subset {s : St} {vs us : List Val} {J K : Nat → Prop} (h : Under s vs J) (hu : ∀ v ∈ us, v ∈ vs) (hk : ∀ j, K j → J j) : Under s us K := by
  obtain ⟨R, c, h1, h2, h3, h4, h5⟩ := h
  exact ⟨R, c, h1, h2, fun v hv => h3 v (hu v hv), fun j hj => h4 j (hk j hj), h5⟩

theorem Under.nil {s : St} {vs : List Val} {J : Nat → Prop} (h : Under s vs J) {v : Val} (hv : noLam v = true) : Under s (v :: vs) J := by
  obtain ⟨R, c, h1, h2, h3, h4, h5⟩ := h
  refine ⟨R, c, h1, h2, fun w hw => ?_, h4, h5⟩
  rcases List.mem_cons.1 hw with rfl | hw
  · exact ⟨w, noLam_vok hv _, ren_noLam hv⟩
  · exact h3 w hw

theorem Under.still {s s' : St} {vs : List Val} {J : Nat → Prop} (h : Under s vs J) (hq : Still J s s') : Under s' vs (madeBy J s s') := by
  obtain ⟨R, c, hi, hr, hv, hj, hz⟩ := h
  have hle := hq.len
  have hlen := hr.len
  have hlow : ∀ i, i < c.heap.length → R.ρ i < s.heap.length := fun i hi => hr.lt hi
  let ρ' : Nat → Nat := fun i => if i < c.heap.length then R.ρ i else s'.heap.length + (i - c.heap.length)
  have e1 : ∀ i, i < c.heap.length → R.ρ i = ρ' i := fun i hi => by simp [ρ', hi]
  have e2 : ∀ k, ρ' (c.heap.length + k) = s'.heap.length + k := fun k => by simp [ρ']
  have hjs : ∀ j, J j → j < s.heap.length := fun j hJ => by
    refine Classical.byContradiction fun hn => ?_
    exact hj j hJ (c.heap.length + (j - s.heap.length)) ((hlen _).trans (by omega))
  refine ⟨⟨ρ', c.out, s'.out, s'.heap, c.issued, s'.issued⟩, { c with gensym := s'.gensym }, ⟨⟨hi.heap.pos, hi.heap.parent, hi.heap.mem, hi.heap.noT⟩, ⟨hi.issued.nodup, ?_⟩⟩,
    ⟨?_, ?_, ?_, e2, fun j _ => rfl, ⟨[], by simp, by simp⟩, ?_, rfl, ?_, ?_, ⟨[], by simp, by simp⟩⟩, ?_, ?_, (e1 0 hi.heap.pos).symm.trans hz⟩
  · intro a ha
    obtain ⟨p, k, h1, h2⟩ := hi.issued.bound a ha
    have h3 := hr.gensym; have h4 := hq.gensym
    exact ⟨p, k, h1, by show k ≤ s'.gensym; omega⟩
  · intro i j hij
    replace hij : ρ' i = ρ' j := hij
    by_cases h1 : i < c.heap.length <;> by_cases h2 : j < c.heap.length
    · rw [← e1 i h1, ← e1 j h2] at hij; exact hr.inj i j hij
    · have := hlow i h1
      rw [← e1 i h1] at hij
      simp only [ρ', h2, if_false] at hij; omega
    · have := hlow j h2
      rw [← e1 j h2] at hij
      simp only [ρ', h1, if_false] at hij; omega
    · simp only [ρ', h1, h2, if_false] at hij; omega
  · intro i f p hf hp
    show ρ' p < ρ' i
    have hil : i < c.heap.length := (List.getElem?_eq_some_iff.1 hf).1
    have hpi : p < i := SR.parent (s' := s) hi hf hp
    rw [← e1 i hil, ← e1 p (by omega)]
    exact hr.up i f p hf hp
  · intro i
    show s'.heap[ρ' i]? = (c.heap[i]?).map (Frame.ren ρ')
    by_cases h1 : i < c.heap.length
    · rw [← e1 i h1]
      have h2 : s'.heap[R.ρ i]? = s.heap[R.ρ i]? := hq.heap _ (hlow i h1) fun hJ => hj _ hJ i rfl
      rw [h2, hr.frame i]
      have hf : c.heap[i]? = some c.heap[i] := List.getElem?_eq_getElem h1
      have hm := hi.heap.mem i _ hf
      have hp := hi.heap.parent i _ hf
      rw [hf]
      revert hm hp
      generalize c.heap[i] = f
      intro hm hp
      obtain ⟨syms, par⟩ := f
      simp only [Option.map_some, Frame.ren, Option.some.injEq]
      congr 1
      · exact List.map_congr_left fun b hb => Prod.ext rfl (Val.ren_congr e1 (hm b hb))
      · cases par with
        | none => rfl
        | some q => have : q < i := hp; simp only [Option.map_some, e1 q (by omega)]
    · obtain ⟨k, rfl⟩ : ∃ k, i = c.heap.length + k := ⟨i - c.heap.length, by omega⟩
      rw [e2, List.getElem?_eq_none (by omega), List.getElem?_eq_none (l := c.heap) (by omega)]
      rfl
  · show s'.inp = c.inp; rw [hq.inp, hr.inp]
  · show s'.tick = c.tick; rw [hq.tick, hr.tick]
  · show s'.screen = c.screen; rw [hq.screen, hr.screen]
  · intro v hv'
    obtain ⟨u, h1, h2⟩ := hv v hv'
    exact ⟨u, h1, (Val.ren_congr (fun i hi => (e1 i hi).symm) h1).trans h2⟩
  · intro j hJ i
    show ρ' i ≠ j
    by_cases h1 : i < c.heap.length
    · rw [← e1 i h1]
      rcases hJ with hJ | hJ
      · exact hj j hJ i
      · have := hlow i h1; have := hJ.1; omega
    · obtain ⟨k, rfl⟩ : ∃ k, i = c.heap.length + k := ⟨i - c.heap.length, by omega⟩
      rw [e2]
      rcases hJ with hJ | hJ
      · have := hjs j hJ; omega
      · have := hJ.2; omega

theorem ordinary_notMacro {f : Val} (h : f.ordinary = true) : f.notMacro = true := by cases f <;> first | exact h | rfl

theorem biFn_anywhere {b : BI} (h : (Val.bi b).ordinary = true) (call : Task → M Val) (vs : List Val) (e e' : Nat) : biFn W call b vs e = biFn W call b vs e' := by
  cases b <;> first | (exact absurd h (by decide)) | rfl

/-- Where an ordinary function is called from does not matter. -/
theorem callFn_anywhere {f : Val} (h : f.ordinary = true) (vs : List Val) (e e' : Nat) : callFn W f vs e = callFn W f vs e' := by
  cases f with
  | bi b =>
    unfold callFn
    simp only [evApply]
    congr 1
    funext s
    rw [perform_eq, perform_eq]
    exact congrFun (biFn_anywhere h _ vs e e') s
  | _ => rfl

/-- After a call of an ordinary function the scopes of `J` are as before and out of reach. -/
theorem Under.call {s : St} {vs : List Val} {J : Nat → Prop} (h : Under s vs J) {f : Val} (hf : f ∈ vs) (ho : f.ordinary = true) {args : List Val}
    (ha : ∀ a ∈ args, a ∈ vs) (e : Nat) {y : Val} {s1 : St} (hc : callFn W f args e s = .ok y s1) :
    Under s1 (y :: vs) J ∧ ∀ j, J j → s1.heap[j]? = s.heap[j]? := by
  obtain ⟨R, c, hi, hr, hv, hj, hz⟩ := h
  obtain ⟨f0, hf0, hf1⟩ := hv f hf
  have hargs : ∀ args : List Val, (∀ a ∈ args, a ∈ vs) → ∃ us : List Val, (∀ u ∈ us, VOk c.heap.length u) ∧ us.map (Val.ren R.ρ) = args := by
    intro args ha
    induction args with
    | nil => exact ⟨[], by simp, rfl⟩
    | cons a args ih =>
      obtain ⟨us, h1, h2⟩ := ih fun b hb => ha b (List.mem_cons_of_mem _ hb)
      obtain ⟨u, h3, h4⟩ := hv a (ha a (List.mem_cons_self ..))
      exact ⟨u :: us, by simpa using ⟨h3, h1⟩, by simp [h4, h2]⟩
  obtain ⟨us, hu0, hu1⟩ := hargs args ha
  have hs := Sim.evApply (perform_simAll R W) (perform_simAll R W) (e := 0) hi.heap.pos hf0 hu0
  have hrel := hs.rel c s hi hr (Nat.le_refl _)
  have hsafe := hs.safe c hi (Nat.le_refl _)
  rw [hf1, hu1] at hrel
  have hc' : evApply (perform W) (perform W) f args (R.ρ 0) s = .ok y s1 := by
    have := congrFun (callFn_anywhere (W := W) ho args (R.ρ 0) e) s
    exact this.trans hc
  rw [hc'] at hrel
  cases hc0 : evApply (perform W) (perform W) f0 us 0 c with
  | ok y0 c1 =>
    rw [hc0] at hrel hsafe
    obtain ⟨hy, hr1⟩ := hrel
    have hl := hsafe.2.1.heap.len
    refine ⟨⟨R, c1, hsafe.1, hr1, fun v hv' => ?_, hj, hz⟩, fun j hJ => ?_⟩
    · rcases List.mem_cons.1 hv' with rfl | hv'
      · exact ⟨y0, hsafe.2.2, hy.symm⟩
      · obtain ⟨u, h1, h2⟩ := hv v hv'
        exact ⟨u, h1.mono hl, h2⟩
    · rw [hr1.rest j (hj j hJ), hr.rest j (hj j hJ)]
  | _ => rw [hc0] at hrel; exact hrel.elim

/-- Whether the library is intact can be seen from the scope of the top level alone. -/
theorem Under.base {s : St} {vs : List Val} {J : Nat → Prop} (h : Under s vs J) (hl : LibraryIntact s.heap) : Base s.heap 0 := by
  obtain ⟨R, c, hi, hr, _, _, hz⟩ := h
  have h0 := hr.frame 0
  rw [hz] at h0
  have hpos := hi.heap.pos
  have hc : c.heap[0]? = some c.heap[0] := List.getElem?_eq_getElem hpos
  rw [hc] at h0
  have hp := hi.heap.parent 0 _ hc
  revert h0 hp
  generalize c.heap[0] = f
  intro h0 hp
  have hpar : f.parent = none := by
    cases hf : f.parent with
    | none => rfl
    | some p => rw [hf] at hp; exact absurd hp (Nat.not_lt_zero p)
  have hpar' : (f.ren R.ρ).parent = none := by rw [show (f.ren R.ρ).parent = f.parent.map R.ρ from rfl, hpar]; rfl
  refine ⟨[f.ren R.ρ], ?_, .top (f := f.ren R.ρ) rfl hpar', fun x r hx => ?_⟩
  · cases hh : s.heap with
    | nil => rw [hh] at h0; cases h0
    | cons g t => rw [hh] at h0; injection h0 with h0; rw [h0]; exact ⟨t, rfl⟩
  · rw [← hl x r hx]
    unfold lookup
    simp only [lookupAux, h0, Option.map_some, List.getElem?_cons_zero, hpar']

/-- The same for an evaluation by the program; that scope `e` is one of the program is said by a function of that scope. -/
theorem Under.eval {s : St} {vs : List Val} {J : Nat → Prop} (h : Under s vs J) {x : Val} {e : Nat} (hx : x ∈ vs) (he : .lam [] "" .nil .nil false e ∈ vs)
    {y : Val} {s1 : St} (hc : eval W x e s = .ok y s1) : Under s1 (y :: vs) J ∧ ∀ j, J j → s1.heap[j]? = s.heap[j]? := by
  obtain ⟨R, c, hi, hr, hv, hj, hz⟩ := h
  obtain ⟨x0, hx0, hx1⟩ := hv x hx
  obtain ⟨l0, hl0, hl1⟩ := hv _ he
  cases l0 <;> simp only [Val.ren, reduceCtorEq] at hl1
  rename_i ps r b dc m e0
  injection hl1 with _ _ _ _ _ he0
  have hrel := perform_sim R W (t := .eval x0 e0) hi ⟨hx0, hl0.1⟩ hr
  have hsafe := perform_safe W _ (.eval x0 e0) ⟨hx0, hl0.1⟩ c hi (Nat.le_refl _)
  simp only [Task.ren, hx1, he0] at hrel
  rw [show perform W (.eval x e) s = .ok y s1 from hc] at hrel
  cases hc0 : perform W (.eval x0 e0) c with
  | ok y0 c1 =>
    rw [hc0] at hrel hsafe
    obtain ⟨hy, hr1⟩ := hrel
    have hl := hsafe.2.1.heap.len
    refine ⟨⟨R, c1, hsafe.1, hr1, fun v hv' => ?_, hj, hz⟩, fun j hJ => ?_⟩
    · rcases List.mem_cons.1 hv' with rfl | hv'
      · exact ⟨y0, hsafe.2.2, hy.symm⟩
      · obtain ⟨u, h1, h2⟩ := hv v hv'
        exact ⟨u, h1.mono hl, h2⟩
    · rw [hr1.rest j (hj j hJ), hr.rest j (hj j hJ)]
  | _ => rw [hc0] at hrel; exact hrel.elim

end L1
