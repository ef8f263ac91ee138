import Mathlib.Data.Nat.Nth
import Verif.Spec.Encapsulation
import Verif.Lemmas.SimNat
/- A state with private scopes is the renumbered image of a state without them. -/
set_option autoImplicit false
namespace L1
open Classical in
section

variable {P : Nat → Prop}

/-- The numbers outside `P`, in order. -/
noncomputable def outsideNth (P : Nat → Prop) : Nat → Nat := Nat.nth (fun i => ¬ P i)

/-- How many numbers outside `P` are smaller. -/
noncomputable def outsideCount (P : Nat → Prop) : Nat → Nat := Nat.count (fun i => ¬ P i)

theorem outside_inf {n : Nat} (h : ∀ i, P i → i < n) : (Set.ofPred (fun i => ¬ P i)).Infinite := by
  refine Set.infinite_of_not_bddAbove ?_
  rintro ⟨m, hm⟩
  have := hm (a := max n (m + 1)) (fun hp => by have := h _ hp; omega)
  omega

theorem nth_outside {n : Nat} (h : ∀ i, P i → i < n) (i : Nat) : ¬ P (outsideNth P i) := Nat.nth_mem_of_infinite (outside_inf h) i

theorem nth_count_outside {i : Nat} (h : ¬ P i) : outsideNth P (outsideCount P i) = i := Nat.nth_count h

theorem nth_mono_outside {n : Nat} (h : ∀ i, P i → i < n) {i j : Nat} (hij : i < j) : outsideNth P i < outsideNth P j :=
  Nat.nth_strictMono (outside_inf h) hij

theorem count_lt_outside {i j : Nat} (h : ¬ P i) (hij : i < j) : outsideCount P i < outsideCount P j :=
  Nat.count_strict_mono h hij

theorem count_nth_outside {n : Nat} (h : ∀ i, P i → i < n) (i : Nat) : outsideCount P (outsideNth P i) = i :=
  Nat.count_nth_of_infinite (outside_inf h) i

theorem count_past {n : Nat} (h : ∀ i, P i → i < n) (k : Nat) : outsideCount P (n + k) = outsideCount P n + k := by
  induction k with
  | zero => rfl
  | succ k ih =>
    have h1 : ¬ P (n + k) := fun hp => by have := h _ hp; omega
    show Nat.count _ (n + k + 1) = _
    rw [Nat.count_succ, if_pos h1]
    show outsideCount P (n + k) + 1 = _
    omega

theorem nth_past {n : Nat} (h : ∀ i, P i → i < n) (k : Nat) : outsideNth P (outsideCount P n + k) = n + k := by
  rw [← count_past h, nth_count_outside (fun hp => by have := h _ hp; omega)]

theorem avoids_ren_ren {v : Val} (h : v.Avoids P) : (v.ren (outsideCount P)).ren (outsideNth P) = v := by
  induction v with
  | cons a d iha ihd => simp only [Val.ren, iha h.1, ihd h.2]
  | lam ps r b dc m e ihb ihd => simp only [Val.ren, ihb h.2.1, ihd h.2.2, nth_count_outside h.1]
  | _ => rfl

theorem ren_avoids {n : Nat} (h : ∀ i, P i → i < n) (v : Val) : (v.ren (outsideNth P)).Avoids P := by
  induction v with
  | cons a d iha ihd => exact ⟨iha, ihd⟩
  | lam ps r b dc m e ihb ihd => exact ⟨nth_outside h _, ihb, ihd⟩
  | _ => trivial

theorem ren_vok {n : Nat} {v : Val} (h : v.Avoids P) (hv : VOk n v) : VOk (outsideCount P n) (v.ren (outsideCount P)) := by
  induction v with
  | cons a d iha ihd => exact ⟨iha h.1 hv.1, ihd h.2 hv.2⟩
  | lam ps r b dc m e ihb ihd => exact ⟨count_lt_outside h.1 hv.1, ihb h.2.1 hv.2.1, ihd h.2.2 hv.2.2⟩
  | _ => trivial

theorem private_zero {h : Heap} (hh : HeapOk h) (hp : Private P h) (e : Nat) (he : e < h.length) (hne : ¬ P e) : ¬ P 0 := by
  induction e using Nat.strongRecOn with
  | ind e ih =>
    have hf : h[e]? = some h[e] := List.getElem?_eq_getElem he
    have h1 := hh.parent e _ hf
    cases hpar : h[e].parent with
    | none => rw [hpar] at h1; subst h1; exact hne
    | some p =>
      rw [hpar] at h1
      exact ih p h1 (by have : p < e := h1; omega) (hp.parent e _ hf hne p hpar)

/-- The state without the scopes of `P`. -/
noncomputable def coreState (P : Nat → Prop) (s : St) : St :=
  { s with heap := (List.range (outsideCount P s.heap.length)).map fun i =>
      ((s.heap[outsideNth P i]?).getD ⟨[], none⟩).ren (outsideCount P) }

theorem core_get {s : St} (hp : Private P s.heap) (i : Nat) :
    (coreState P s).heap[i]? = (s.heap[outsideNth P i]?).map (Frame.ren (outsideCount P)) := by
  have hl := nth_past hp.exist 0
  simp only [Nat.add_zero] at hl
  by_cases hi : i < outsideCount P s.heap.length
  · have h1 : outsideNth P i < s.heap.length := by have := nth_mono_outside hp.exist hi; omega
    simp [coreState, List.getElem?_map, List.getElem?_range hi, List.getElem?_eq_getElem h1]
  · have h1 : s.heap.length ≤ outsideNth P i := by
      rcases Nat.lt_or_eq_of_le (Nat.le_of_not_lt hi) with h2 | h2
      · have := nth_mono_outside hp.exist h2; omega
      · rw [← h2]; omega
    rw [List.getElem?_eq_none h1]
    simp only [coreState, List.getElem?_map, Option.map_none]
    rw [List.getElem?_eq_none (by simpa using hi)]
    rfl

theorem core_length (s : St) : (coreState P s).heap.length = outsideCount P s.heap.length := by simp [coreState]

theorem core_inv {s : St} (hi : Inv s) (hp : Private P s.heap) (h0 : ¬ P 0) : Inv (coreState P s) where
  issued := ⟨hi.issued.nodup, hi.issued.bound⟩
  heap := by
    refine ⟨?_, ?_, ?_, ?_⟩
    · rw [core_length]
      have := count_lt_outside h0 hi.heap.pos
      omega
    · intro i f hf
      rw [core_get hp] at hf
      obtain ⟨g, hg, rfl⟩ := Option.map_eq_some_iff.1 hf
      have h1 := hi.heap.parent _ g hg
      simp only [Frame.ren]
      cases hpar : g.parent with
      | none =>
        rw [hpar] at h1
        have h2 : outsideNth P i = 0 := h1
        have h3 := count_nth_outside hp.exist i
        rw [h2] at h3
        exact h3.symm.trans rfl
      | some q =>
        rw [hpar] at h1
        have h2 : q < outsideNth P i := h1
        have h3 := count_lt_outside (hp.parent _ g hg (nth_outside hp.exist i) q hpar) h2
        rw [count_nth_outside hp.exist] at h3
        exact h3
    · intro i f hf b hb
      rw [core_get hp] at hf
      obtain ⟨g, hg, rfl⟩ := Option.map_eq_some_iff.1 hf
      obtain ⟨c, hc, rfl⟩ := List.mem_map.1 hb
      rw [core_length]
      exact ren_vok (hp.vars _ g hg (nth_outside hp.exist i) c hc) (hi.heap.mem _ g hg c hc)
    · intro i f hf
      rw [core_get hp] at hf
      obtain ⟨g, hg, rfl⟩ := Option.map_eq_some_iff.1 hf
      simp only [Frame.ren, ren_alGet, hi.heap.noT _ g hg, Option.map_none]

/-- The renumbering from the state without the scopes of `P` to the state with them. -/
noncomputable def coreRn (P : Nat → Prop) (h : Heap) : Rn := ⟨outsideNth P, [], [], h, [], []⟩

theorem core_sr {s s' : St} (hi : Inv (coreState P s)) (hp : Private P s.heap) (h : SameBut P s s') : SR (coreRn P s'.heap) (coreState P s) s' where
  inj := SR.inj_of_mono fun i j hij => nth_mono_outside hp.exist hij
  up := SR.up_of_mono hi fun i j hij => nth_mono_outside hp.exist hij
  frame i := by
    show s'.heap[outsideNth P i]? = _
    rw [core_get hp, h.frame _ (nth_outside hp.exist i)]
    cases hf : s.heap[outsideNth P i]? with
    | none => rfl
    | some f =>
      have hn := nth_outside hp.exist i
      simp only [Option.map_some, Frame.ren, List.map_map, Option.some.injEq, coreRn]
      obtain ⟨syms, par⟩ := f
      congr 1
      · refine ((List.map_congr_left (g := id) ?_).trans (List.map_id _)).symm
        intro b hb
        exact Prod.ext rfl (avoids_ren_ren (hp.vars _ _ hf hn b hb))
      · cases par with
        | none => rfl
        | some q => simp only [Option.map_some, nth_count_outside (hp.parent _ _ hf hn q rfl)]
  len k := by
    show outsideNth P ((coreState P s).heap.length + k) = s'.heap.length + k
    rw [core_length, nth_past hp.exist, h.length]
  rest j hj := rfl
  out := ⟨s.out, rfl, by rw [h.rest]; rfl⟩
  inp := by rw [h.rest]; rfl
  gensym := by rw [h.rest]; rfl
  tick := by rw [h.rest]; rfl
  screen := by rw [h.rest]; rfl
  issued := ⟨s.issued, rfl, by rw [h.rest]; rfl⟩

theorem task_core {t : Task} (h : t.Avoids P) : (t.ren (outsideCount P)).ren (outsideNth P) = t := by
  cases t with
  | eval x e => simp only [Task.ren, avoids_ren_ren h.2, nth_count_outside h.1]
  | mexpand x e => simp only [Task.ren, avoids_ren_ren h.2, nth_count_outside h.1]
  | loop x e => simp only [Task.ren, avoids_ren_ren h.2, nth_count_outside h.1]
  | builtin b args e =>
    simp only [Task.ren, nth_count_outside h.1, List.map_map]
    congr 1
    exact (List.map_congr_left (g := id) fun a ha => avoids_ren_ren (h.2 a ha)).trans (List.map_id _)

theorem task_core_ok {n : Nat} {t : Task} (h : t.Avoids P) (ht : TaskOk n t) : TaskOk (outsideCount P n) (t.ren (outsideCount P)) := by
  cases t with
  | eval x e => exact ⟨ren_vok h.2 ht.1, count_lt_outside h.1 ht.2⟩
  | mexpand x e => exact ⟨ren_vok h.2 ht.1, count_lt_outside h.1 ht.2⟩
  | loop x e => exact ⟨ren_vok h.2 ht.1, count_lt_outside h.1 ht.2⟩
  | builtin b args e =>
    refine ⟨fun a ha => ?_, count_lt_outside h.1 ht.2⟩
    obtain ⟨x, hx, rfl⟩ := List.mem_map.1 ha
    exact ren_vok (h.2 x hx) (ht.1 x hx)

theorem SameBut.refl (s : St) : SameBut P s s := ⟨rfl, fun _ _ => rfl, rfl⟩

theorem sr_private {n : Nat} (hP : ∀ i, P i → i < n) {h : Heap} {s0 s1 : St} (h1 : SR (coreRn P h) s0 s1) :
    (∀ i, P i → s1.heap[i]? = h[i]?) ∧ ∀ (i : Nat) (f : Frame), s1.heap[i]? = some f → ¬ P i →
      (∀ p, f.parent = some p → ¬ P p) ∧ ∀ b ∈ f.syms, b.2.Avoids P := by
  refine ⟨fun i hi => h1.rest i fun j hj => nth_outside hP j (by rw [show outsideNth P j = i from hj]; exact hi), ?_⟩
  intro i f hf hi
  have h2 := h1.frame (outsideCount P i)
  rw [show (coreRn P h).ρ (outsideCount P i) = i from nth_count_outside hi, hf] at h2
  obtain ⟨g, _, rfl⟩ := Option.map_eq_some_iff.1 h2.symm
  constructor
  · intro p hp
    obtain ⟨q, _, rfl⟩ := Option.map_eq_some_iff.1 hp
    exact nth_outside hP q
  · intro b hb
    obtain ⟨c, _, rfl⟩ := List.mem_map.1 hb
    exact ren_avoids hP _

theorem sr_sameBut {h h' : Heap} {s0 s1 s1' : St} (h1 : SR (coreRn P h) s0 s1) (h2 : SR (coreRn P h') s0 s1') : SameBut P s1 s1' where
  length := by have a := h1.len 0; have b := h2.len 0; exact b.symm.trans a
  frame i hi := by
    have a := h1.frame (outsideCount P i)
    have b := h2.frame (outsideCount P i)
    rw [show (coreRn P h).ρ (outsideCount P i) = i from nth_count_outside hi] at a
    rw [show (coreRn P h').ρ (outsideCount P i) = i from nth_count_outside hi] at b
    exact b.trans a.symm
  rest := by
    obtain ⟨d, hd, hd1⟩ := h1.out
    obtain ⟨d', hd', hd1'⟩ := h2.out
    have e1 := h1.inp; have e2 := h1.gensym; have e3 := h1.tick; have e4 := h1.screen
    have f1 := h2.inp; have f2 := h2.gensym; have f3 := h2.tick; have f4 := h2.screen
    obtain ⟨i, hi, hi1⟩ := h1.issued
    obtain ⟨i', hi', hi1'⟩ := h2.issued
    have hiss : s1'.issued = s1.issued := by
      rw [hi1, hi1']; rw [hi] at hi'; simpa [coreRn] using hi'.symm
    have hout : s1'.out = s1.out := by
      rw [hd1, hd1']; rw [hd] at hd'; simpa [coreRn] using hd'.symm
    cases s1; cases s1'
    simp_all

/-- The outcomes of two computations that correspond to one on the state without the scopes of `P`. -/
theorem rr_private {s s' : St} (hp : Private P s.heap) {r0 r r' : Res Val} (r1 : RR (coreRn P s.heap) (Val.ren (outsideNth P)) r0 r)
    (r2 : RR (coreRn P s'.heap) (Val.ren (outsideNth P)) r0 r') : Res.SameBut P r r' ∧
    (∀ s1, r.final = some s1 → Private P s1.heap ∧ ∀ i, P i → s1.heap[i]? = s.heap[i]?) ∧
    (∀ s1, r'.final = some s1 → ∀ i, P i → s1.heap[i]? = s'.heap[i]?) := by
  have aux : ∀ s0 s1, SR (coreRn P s.heap) s0 s1 → Private P s1.heap ∧ ∀ i, P i → s1.heap[i]? = s.heap[i]? := by
    intro s0 s1 hsr
    obtain ⟨h1, h2⟩ := sr_private hp.exist hsr
    exact ⟨⟨fun i hi => (List.getElem?_eq_some_iff.1 ((h1 i hi).trans (List.getElem?_eq_getElem (hp.exist i hi)))).1, fun i f hf hn => (h2 i f hf hn).1,
      fun i f hf hn => (h2 i f hf hn).2⟩, h1⟩
  cases r0 <;> cases r <;> (try exact r1.elim) <;> cases r' <;> (try exact r2.elim)
  case ok v0 s0 v s1 v' s1' =>
    obtain ⟨rfl, r1⟩ := r1
    obtain ⟨rfl, r2⟩ := r2
    refine ⟨⟨rfl, ren_avoids hp.exist _, sr_sameBut r1 r2⟩, fun _ hf => ?_, fun _ hf => ?_⟩
    · injection hf with hf; subst hf; exact aux s0 _ r1
    · injection hf with hf; subst hf; exact (sr_private hp.exist r2).1
  case err e0 s0 v s1 v' s1' =>
    obtain ⟨rfl, r1⟩ := r1
    obtain ⟨rfl, r2⟩ := r2
    refine ⟨⟨rfl, ?_, sr_sameBut r1 r2⟩, fun _ hf => ?_, fun _ hf => ?_⟩
    · cases e0 with
      | list v => exact ren_avoids hp.exist v
      | foreign => trivial
    · injection hf with hf; subst hf; exact aux s0 _ r1
    · injection hf with hf; subst hf; exact (sr_private hp.exist r2).1
  case crash e0 s0 v s1 v' s1' =>
    obtain ⟨rfl, r1⟩ := r1
    obtain ⟨rfl, r2⟩ := r2
    refine ⟨⟨rfl, sr_sameBut r1 r2⟩, fun _ hf => ?_, fun _ hf => ?_⟩
    · injection hf with hf; subst hf; exact aux s0 _ r1
    · injection hf with hf; subst hf; exact (sr_private hp.exist r2).1
  case exit c s0 v s1 v' s1' =>
    obtain ⟨rfl, r1⟩ := r1
    obtain ⟨rfl, r2⟩ := r2
    refine ⟨⟨rfl, sr_sameBut r1 r2⟩, fun _ hf => ?_, fun _ hf => ?_⟩
    · injection hf with hf; subst hf; exact aux s0 _ r1
    · injection hf with hf; subst hf; exact (sr_private hp.exist r2).1
  case overflow s0 s1 s1' =>
    refine ⟨sr_sameBut r1 r2, fun _ hf => ?_, fun _ hf => ?_⟩
    · injection hf with hf; subst hf; exact aux s0 _ r1
    · injection hf with hf; subst hf; exact (sr_private hp.exist r2).1
  case oof => exact ⟨trivial, (fun _ hf => nomatch hf), (fun _ hf => nomatch hf)⟩

/-- Private scopes neither influence what is done outside them nor are changed by it. -/
theorem perform_private (W : World) {t : Task} {s s' : St} (hi : Inv s) (ht : TaskOk s.heap.length t) (hp : Private P s.heap)
    (ha : t.Avoids P) (h : SameBut P s s') :
    Res.SameBut P (perform W t s) (perform W t s') ∧
    (∀ s1, (perform W t s).final = some s1 → Private P s1.heap ∧ ∀ i, P i → s1.heap[i]? = s.heap[i]?) ∧
    (∀ s1, (perform W t s').final = some s1 → ∀ i, P i → s1.heap[i]? = s'.heap[i]?) := by
  have he : ∃ e, e < s.heap.length ∧ ¬ P e := by
    cases t with
    | eval x e => exact ⟨e, ht.2, ha.1⟩
    | mexpand x e => exact ⟨e, ht.2, ha.1⟩
    | loop x e => exact ⟨e, ht.2, ha.1⟩
    | builtin b args e => exact ⟨e, ht.2, ha.1⟩
  obtain ⟨e, he, hne⟩ := he
  have hi0 := core_inv hi hp (private_zero hi.heap hp e he hne)
  have ht0 : TaskOk (coreState P s).heap.length (t.ren (outsideCount P)) := by rw [core_length]; exact task_core_ok ha ht
  have r1 := perform_sim (coreRn P s.heap) W hi0 ht0 (core_sr hi0 hp (.refl s))
  have r2 := perform_sim (coreRn P s'.heap) W hi0 ht0 (core_sr hi0 hp h)
  rw [show (t.ren (outsideCount P)).ren (coreRn P s.heap).ρ = t from task_core ha] at r1
  rw [show (t.ren (outsideCount P)).ren (coreRn P s'.heap).ρ = t from task_core ha] at r2
  exact rr_private hp r1 r2

/-- The same for the call of a function of the program, from any scope. -/
theorem apply_private (W : World) {ps : List String} {r : String} {body doc : Val} {m : Bool} {env e e' : Nat} {vs : List Val} {s s' : St}
    (hi : Inv s) (hf : VOk s.heap.length (.lam ps r body doc m env)) (hv : ∀ v ∈ vs, VOk s.heap.length v) (hp : Private P s.heap)
    (hfa : (Val.lam ps r body doc m env).Avoids P) (hva : ∀ v ∈ vs, v.Avoids P) (h : SameBut P s s') :
    Res.SameBut P (evApply (perform W) (perform W) (.lam ps r body doc m env) vs e s)
      (evApply (perform W) (perform W) (.lam ps r body doc m env) vs e' s') ∧
    (∀ s1, (evApply (perform W) (perform W) (.lam ps r body doc m env) vs e s).final = some s1 →
      Private P s1.heap ∧ ∀ i, P i → s1.heap[i]? = s.heap[i]?) ∧
    (∀ s1, (evApply (perform W) (perform W) (.lam ps r body doc m env) vs e' s').final = some s1 → ∀ i, P i → s1.heap[i]? = s'.heap[i]?) := by
  have hi0 := core_inv hi hp (private_zero hi.heap hp env hf.1 hfa.1)
  have ef : ((Val.lam ps r body doc m env).ren (outsideCount P)).ren (outsideNth P) = _ := avoids_ren_ren hfa
  have ev : (vs.map (Val.ren (outsideCount P))).map (Val.ren (outsideNth P)) = vs := by
    rw [List.map_map]
    exact (List.map_congr_left (g := id) fun a ha => avoids_ren_ren (hva a ha)).trans (List.map_id _)
  have hf0 : VOk (coreState P s).heap.length ((Val.lam ps r body doc m env).ren (outsideCount P)) := by rw [core_length]; exact ren_vok hfa hf
  have hv0 : ∀ v ∈ vs.map (Val.ren (outsideCount P)), VOk (coreState P s).heap.length v := by
    intro v hv'
    obtain ⟨w, hw, rfl⟩ := List.mem_map.1 hv'
    rw [core_length]; exact ren_vok (hva w hw) (hv w hw)
  have key : ∀ s'', SameBut P s s'' → RR (coreRn P s''.heap) (Val.ren (outsideNth P))
      (evApply (perform W) (perform W) ((Val.lam ps r body doc m env).ren (outsideCount P)) (vs.map (Val.ren (outsideCount P))) 0 (coreState P s))
      (evApply (perform W) (perform W) (.lam ps r body doc m env) vs 0 s'') := by
    intro s'' hs''
    have := (Sim.evApply (R := coreRn P s''.heap) (perform_simAll _ W) (perform_simAll _ W) (e := 0) hi0.heap.pos hf0 hv0).rel (coreState P s) s'' hi0
      (core_sr hi0 hp hs'') (Nat.le_refl _)
    rw [show ((Val.lam ps r body doc m env).ren (outsideCount P)).ren (coreRn P s''.heap).ρ = _ from ef,
      show (vs.map (Val.ren (outsideCount P))).map (Val.ren (coreRn P s''.heap).ρ) = vs from ev] at this
    exact this
  exact rr_private hp (key s (.refl s)) (key s' h)

end

end L1
