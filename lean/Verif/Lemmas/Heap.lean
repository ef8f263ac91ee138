import Verif.Lemmas.Digits
/- Association lists, scopes and the order on states. -/
set_option autoImplicit false
namespace L1

/-! ### Association lists -/

theorem alGet_alSet (x y : String) (v : Val) (l : List (String × Val)) :
    alGet x (alSet y v l) = if y = x then some v else alGet x l := by
  induction l with
  | nil => simp [alSet, alGet]
  | cons kv l ih =>
    obtain ⟨k, w⟩ := kv
    simp only [alSet]
    by_cases hk : k = y
    · subst hk
      simp only [if_true, alGet]
      by_cases hx : k = x <;> simp [hx]
    · simp only [hk, if_false, alGet]
      by_cases hx : k = x
      · subst hx; simp [Ne.symm hk]
      · simp [hx, ih]

/-- Keys of the frame stay distinct (map semantics). -/
theorem alSet_keys (y : String) (v : Val) (l : List (String × Val)) :
    (alSet y v l).map (·.1) = if y ∈ l.map (·.1) then l.map (·.1) else l.map (·.1) ++ [y] := by
  induction l with
  | nil => simp [alSet]
  | cons kv l ih =>
    obtain ⟨k, w⟩ := kv
    simp only [alSet]
    by_cases hk : k = y
    · subst hk; simp
    · simp only [hk, if_false, List.map_cons, ih]
      by_cases hm : y ∈ l.map (·.1)
      · rw [if_pos hm, if_pos (by simp [hm])]
      · have hne : ¬ y ∈ k :: l.map (·.1) := by
          intro h
          rcases List.mem_cons.1 h with h | h
          · exact hk h.symm
          · exact hm h
        rw [if_neg hm, if_neg hne]; rfl

/-! ### Values that refer only to scopes below `n` -/

/-- Every closure inside the value refers to a scope number below `n`. -/
def VOk (n : Nat) : Val → Prop
  | .nil => True
  | .atom _ => True
  | .num _ => True
  | .cons a d => VOk n a ∧ VOk n d
  | .lam _ _ b dc _ e => e < n ∧ VOk n b ∧ VOk n dc
  | .bi _ => True

/-- Errors: a non-empty proper list of such values, or an error of the operating system. -/
def EOk (n : Nat) : Err → Prop
  | .list v => ∃ xs : List Val, xs ≠ [] ∧ v = vlist xs ∧ ∀ x ∈ xs, VOk n x
  | .foreign _ => True

theorem VOk.mono {n m : Nat} (h : n ≤ m) {v : Val} (hv : VOk n v) : VOk m v := by
  induction v with
  | cons a d iha ihd => exact ⟨iha hv.1, ihd hv.2⟩
  | lam ps r b dc mm e ihb ihd => exact ⟨Nat.lt_of_lt_of_le hv.1 h, ihb hv.2.1, ihd hv.2.2⟩
  | _ => trivial

theorem EOk.mono {n m : Nat} (h : n ≤ m) {e : Err} (he : EOk n e) : EOk m e := by
  cases e with
  | foreign => trivial
  | list v =>
    obtain ⟨xs, h1, h2, h3⟩ := he
    exact ⟨xs, h1, h2, fun x hx => (h3 x hx).mono h⟩

theorem vok_vlist {n : Nat} {xs : List Val} : VOk n (vlist xs) ↔ ∀ x ∈ xs, VOk n x := by
  induction xs with
  | nil => simp [VOk]
  | cons x xs ih => simp [VOk, ih]

theorem EOk.vok {n : Nat} {v : Val} (h : EOk n (.list v)) : VOk n v := by
  obtain ⟨xs, _, rfl, h⟩ := h
  exact vok_vlist.2 h

theorem vok_atomList (n : Nat) (ws : List (List Char)) : VOk n (atomList ws) := by
  rw [atomList, vok_vlist]
  intro x hx
  obtain ⟨w, _, rfl⟩ := List.mem_map.1 hx
  trivial

theorem vok_msgList (n : Nat) (m : String) : VOk n (msgList m) := vok_atomList _ _

theorem vok_toList? {n : Nat} {v : Val} {xs : List Val} (h : VOk n v) (hx : v.toList? = some xs) :
    ∀ x ∈ xs, VOk n x := by
  rw [toList?_eq_some] at hx
  subst hx
  exact vok_vlist.1 h

/-! ### The heap -/

/-- Well-formed heap: there is a top-level scope, every other scope has an older parent, all bound values
refer to existing scopes, and `t` is not bound. -/
structure HeapOk (h : Heap) : Prop where
  pos : 0 < h.length
  parent : ∀ (i : Nat) (f : Frame), h[i]? = some f → match f.parent with | none => i = 0 | some p => p < i
  mem : ∀ (i : Nat) (f : Frame), h[i]? = some f → ∀ b ∈ f.syms, VOk h.length b.2
  noT : ∀ (i : Nat) (f : Frame), h[i]? = some f → alGet "t" f.syms = none

theorem alGet_mem {x : String} {v : Val} {l : List (String × Val)} (h : alGet x l = some v) : (x, v) ∈ l := by
  induction l with
  | nil => cases h
  | cons p l ih =>
    simp only [alGet] at h
    split at h
    · rename_i hx
      injection h with h
      exact List.mem_cons.2 (.inl (Prod.ext hx.symm h.symm))
    · exact List.mem_cons_of_mem _ (ih h)

theorem alSet_mem {x : String} {v : Val} {l : List (String × Val)} {b : String × Val} (h : b ∈ alSet x v l) : b.2 = v ∨ b ∈ l := by
  induction l with
  | nil =>
    simp only [alSet, List.mem_singleton] at h
    subst h; exact .inl rfl
  | cons p l ih =>
    simp only [alSet] at h
    split at h
    · rcases List.mem_cons.1 h with rfl | h
      · exact .inl rfl
      · exact .inr (List.mem_cons_of_mem _ h)
    · rcases List.mem_cons.1 h with rfl | h
      · exact .inr List.mem_cons_self
      · exact (ih h).imp id (List.mem_cons_of_mem _)

theorem HeapOk.vals {h : Heap} (hh : HeapOk h) (i : Nat) (f : Frame) (hf : h[i]? = some f) (x : String) (v : Val) (hx : alGet x f.syms = some v) :
    VOk h.length v := hh.mem i f hf _ (alGet_mem hx)

/-- `h'` keeps every scope of `h`, with its parent and all its names (values may change). -/
structure HeapExt (h h' : Heap) : Prop where
  len : h.length ≤ h'.length
  frame : ∀ (i : Nat) (f : Frame), h[i]? = some f → ∃ f' : Frame, h'[i]? = some f' ∧ f'.parent = f.parent ∧
    ∀ x, (alGet x f.syms).isSome → (alGet x f'.syms).isSome

/-- What evaluation can do to the state. -/
structure Ext (s s' : St) : Prop where
  heap : HeapExt s.heap s'.heap
  out : ∃ o, s'.out = s.out ++ o
  gensym : s.gensym ≤ s'.gensym
  inp : ∃ l, s.inp = l ++ s'.inp
  tick : s.tick ≤ s'.tick
  issued : ∃ l, s'.issued = s.issued ++ l
  acts : ∃ l, s'.screen.acts = s.screen.acts ++ l

theorem HeapExt.refl (h : Heap) : HeapExt h h := ⟨Nat.le_refl _, fun _ f hf => ⟨f, hf, rfl, fun _ h => h⟩⟩

theorem HeapExt.trans {a b c : Heap} (h1 : HeapExt a b) (h2 : HeapExt b c) : HeapExt a c := by
  refine ⟨Nat.le_trans h1.len h2.len, fun i f hf => ?_⟩
  obtain ⟨f1, hf1, hp1, hk1⟩ := h1.frame i f hf
  obtain ⟨f2, hf2, hp2, hk2⟩ := h2.frame i f1 hf1
  exact ⟨f2, hf2, hp2.trans hp1, fun x hx => hk2 x (hk1 x hx)⟩

theorem Ext.refl (s : St) : Ext s s := ⟨.refl _, ⟨[], by simp⟩, Nat.le_refl _, ⟨[], rfl⟩, Nat.le_refl _, ⟨[], by simp⟩, ⟨[], by simp⟩⟩

theorem Ext.trans {a b c : St} (h1 : Ext a b) (h2 : Ext b c) : Ext a c := by
  obtain ⟨o1, ho1⟩ := h1.out
  obtain ⟨o2, ho2⟩ := h2.out
  obtain ⟨l1, hl1⟩ := h1.inp
  obtain ⟨l2, hl2⟩ := h2.inp
  obtain ⟨i1, hi1⟩ := h1.issued
  obtain ⟨i2, hi2⟩ := h2.issued
  obtain ⟨a1, ha1⟩ := h1.acts
  obtain ⟨a2, ha2⟩ := h2.acts
  exact ⟨h1.heap.trans h2.heap, ⟨o1 ++ o2, by rw [ho2, ho1, List.append_assoc]⟩,
    Nat.le_trans h1.gensym h2.gensym, ⟨l1 ++ l2, by rw [hl1, hl2, List.append_assoc]⟩,
    Nat.le_trans h1.tick h2.tick, ⟨i1 ++ i2, by rw [hi2, hi1, List.append_assoc]⟩, ⟨a1 ++ a2, by rw [ha2, ha1, List.append_assoc]⟩⟩

theorem heapSet_length (h : Heap) (e : Nat) (x : String) (v : Val) : (heapSet h e x v).length = h.length := by
  simp [heapSet]

theorem heapSet_get (h : Heap) (e : Nat) (x : String) (v : Val) (i : Nat) :
    (heapSet h e x v)[i]? = (h[i]?).map (fun f => if i = e then { f with syms := alSet x v f.syms } else f) := by
  simp only [heapSet, List.getElem?_modify]
  by_cases hi : e = i
  · subst hi; simp
  · simp only [hi, if_false, Ne.symm hi]
    cases h[i]? <;> rfl

theorem heapSet_ok {h : Heap} (hh : HeapOk h) {e : Nat} {x : String} {v : Val} (hx : x ≠ "t")
    (hv : VOk h.length v) : HeapOk (heapSet h e x v) := by
  constructor
  · rw [heapSet_length]; exact hh.pos
  · intro i f hf
    rw [heapSet_get, Option.map_eq_some_iff] at hf
    obtain ⟨g, hg, rfl⟩ := hf
    have := hh.parent i g hg
    by_cases hi : i = e
    · rw [if_pos hi]; exact this
    · rw [if_neg hi]; exact this
  · intro i f hf b hb
    rw [heapSet_length]
    rw [heapSet_get, Option.map_eq_some_iff] at hf
    obtain ⟨g, hg, rfl⟩ := hf
    split at hb
    · rcases alSet_mem hb with hb | hb
      · rw [hb]; exact hv
      · exact hh.mem i g hg b hb
    · exact hh.mem i g hg b hb
  · intro i f hf
    rw [heapSet_get, Option.map_eq_some_iff] at hf
    obtain ⟨g, hg, rfl⟩ := hf
    split
    · rw [alGet_alSet, if_neg hx]; exact hh.noT i g hg
    · exact hh.noT i g hg

theorem heapSet_ext (h : Heap) (e : Nat) (x : String) (v : Val) : HeapExt h (heapSet h e x v) := by
  refine ⟨by rw [heapSet_length]; exact Nat.le_refl _, fun i f hf => ?_⟩
  rw [heapSet_get, hf]
  refine ⟨_, rfl, ?_, ?_⟩
  · split <;> rfl
  · intro y hy
    split
    · rw [alGet_alSet]; split
      · rfl
      · exact hy
    · exact hy

theorem newFrame_get (h : Heap) (p i : Nat) (f : Frame) (hf : (h ++ [⟨[], some p⟩])[i]? = some f) :
    h[i]? = some f ∨ (i = h.length ∧ f = ⟨[], some p⟩) := by
  rw [List.getElem?_append] at hf
  split at hf
  · exact .inl hf
  · right
    rename_i hlt
    have : i - h.length = 0 := by
      rcases Nat.eq_zero_or_pos (i - h.length) with h0 | h0
      · exact h0
      · rw [List.getElem?_eq_none (by simp; omega)] at hf; cases hf
    rw [this] at hf
    simp at hf
    exact ⟨by omega, hf.symm⟩

theorem newFrame_ok {h : Heap} (hh : HeapOk h) {p : Nat} (hp : p < h.length) :
    HeapOk (h ++ [⟨[], some p⟩]) := by
  have hlen : (h ++ [(⟨[], some p⟩ : Frame)]).length = h.length + 1 := by simp
  constructor
  · omega
  · intro i f hf
    rcases newFrame_get h p i f hf with hf | ⟨rfl, rfl⟩
    · exact hh.parent i f hf
    · exact hp
  · intro i f hf b hb
    rw [hlen]
    rcases newFrame_get h p i f hf with hf | ⟨rfl, rfl⟩
    · exact (hh.mem i f hf b hb).mono (by omega)
    · cases hb
  · intro i f hf
    rcases newFrame_get h p i f hf with hf | ⟨rfl, rfl⟩
    · exact hh.noT i f hf
    · rfl

theorem newFrame_ext (h : Heap) (p : Nat) : HeapExt h (h ++ [⟨[], some p⟩]) := by
  refine ⟨by simp, fun i f hf => ⟨f, ?_, rfl, fun _ h => h⟩⟩
  obtain ⟨hi, _⟩ := List.getElem?_eq_some_iff.1 hf
  rw [List.getElem?_append_left hi]; exact hf

/-! ### Walking the scope chain -/

theorem lookupAux_vok {h : Heap} (hh : HeapOk h) (k e : Nat) (x : String) (v : Val)
    (hl : lookupAux h k e x = some v) : VOk h.length v := by
  induction k generalizing e with
  | zero => simp [lookupAux] at hl
  | succ k ih =>
    simp only [lookupAux] at hl
    split at hl
    · cases hl
    · rename_i f hf
      split at hl
      · rename_i w hw
        injection hl with hl; subst hl
        exact hh.vals e f hf x w hw
      · split at hl
        · cases hl
        · exact ih _ hl

theorem lookup_vok {h : Heap} (hh : HeapOk h) {e : Nat} {x : String} {v : Val}
    (hl : lookup h e x = some v) : VOk h.length v := lookupAux_vok hh _ _ _ _ hl

end L1
