import Verif.Spec.Scopes
import Verif.Lemmas.Heap
/- The interpreter's walks through the scopes agree with the specification. -/
set_option autoImplicit false
namespace L1

theorem HeapOk.older {h : Heap} (hh : HeapOk h) : Older h := by
  intro i f hf p hp
  have := hh.parent i f hf
  rw [hp] at this; exact this

theorem Chain.exists {h : Heap} (ho : Older h) (e : Nat) (he : e < h.length) : ∃ is, Chain h e is := by
  induction e using Nat.strongRecOn with
  | ind e ih =>
    have hf : h[e]? = some h[e] := List.getElem?_eq_getElem he
    cases hp : (h[e]).parent with
    | none => exact ⟨_, .top hf hp⟩
    | some p =>
      have hlt := ho e _ hf p hp
      obtain ⟨is, h1⟩ := ih p hlt (by omega)
      exact ⟨_, .step hf hp h1⟩

theorem Chain.head {h : Heap} {e : Nat} {is : List Nat} (hc : Chain h e is) : ∃ t, is = e :: t := by
  cases hc <;> exact ⟨_, rfl⟩

theorem Chain.unique {h : Heap} {e : Nat} {is js : List Nat} (h1 : Chain h e is) (h2 : Chain h e js) : is = js := by
  induction h1 generalizing js with
  | top hf hp =>
    cases h2 with
    | top => rfl
    | step hf' hp' => rw [hf] at hf'; injection hf' with hf'; subst hf'; rw [hp] at hp'; cases hp'
  | step hf hp _ ih =>
    cases h2 with
    | top hf' hp' => rw [hf] at hf'; injection hf' with hf'; subst hf'; rw [hp] at hp'; cases hp'
    | step hf' hp' hc' =>
      rw [hf] at hf'; injection hf' with hf'; subst hf'
      rw [hp] at hp'; injection hp' with hp'; subst hp'
      rw [ih hc']

/-- The first scope of the list that binds `x`. -/
def firstIn (h : Heap) (x : String) : List Nat → Option Nat
  | [] => none
  | i :: is => if (bindingIn h i x).isSome then some i else firstIn h x is

theorem ownerAux_chain {h : Heap} (ho : Older h) {e : Nat} {is : List Nat} (hc : Chain h e is) (x : String) (k : Nat)
    (hk : e < k) : ownerAux h k e x = firstIn h x is := by
  induction hc generalizing k with
  | @top e f hf hp =>
    obtain ⟨k, rfl⟩ : ∃ m, k = m + 1 := ⟨k - 1, by omega⟩
    simp only [ownerAux, firstIn, bindingIn, hf, hp]
    cases alGet x f.syms <;> simp
  | @step e p f is hf hp _ ih =>
    obtain ⟨k, rfl⟩ : ∃ m, k = m + 1 := ⟨k - 1, by omega⟩
    have := ho e f hf p hp
    simp only [ownerAux, firstIn, bindingIn, hf, hp]
    cases alGet x f.syms
    · simp; exact ih k (by omega)
    · simp

theorem lookupAux_chain {h : Heap} (ho : Older h) {e : Nat} {is : List Nat} (hc : Chain h e is) (x : String) (k : Nat)
    (hk : e < k) : lookupAux h k e x = (firstIn h x is).bind (fun i => bindingIn h i x) := by
  induction hc generalizing k with
  | @top e f hf hp =>
    obtain ⟨k, rfl⟩ : ∃ m, k = m + 1 := ⟨k - 1, by omega⟩
    simp only [lookupAux, firstIn, bindingIn, hf, hp]
    cases hx : alGet x f.syms <;> simp [hf, hx]
  | @step e p f is hf hp _ ih =>
    obtain ⟨k, rfl⟩ : ∃ m, k = m + 1 := ⟨k - 1, by omega⟩
    have := ho e f hf p hp
    simp only [lookupAux, firstIn, hf, hp]
    cases hx : alGet x f.syms with
    | none =>
      have hb : bindingIn h e x = none := by simp [bindingIn, hf, hx]
      simp only [hb, Option.isSome_none, Bool.false_eq_true, if_false]; exact ih k (by omega)
    | some v =>
      have hb : bindingIn h e x = some v := by simp [bindingIn, hf, hx]
      simp [hb]

theorem rootAux_chain {h : Heap} (ho : Older h) {e : Nat} {is : List Nat} (hc : Chain h e is) (k : Nat)
    (hk : e < k) : some (rootAux h k e) = is.getLast? := by
  induction hc generalizing k with
  | @top e f hf hp =>
    obtain ⟨k, rfl⟩ : ∃ m, k = m + 1 := ⟨k - 1, by omega⟩
    simp [rootAux, hf, hp]
  | @step e p f is hf hp hc ih =>
    obtain ⟨k, rfl⟩ : ∃ m, k = m + 1 := ⟨k - 1, by omega⟩
    have := ho e f hf p hp
    obtain ⟨t, rfl⟩ := hc.head
    simp only [rootAux, hf, hp]
    rw [ih k (by omega)]
    simp

theorem firstIn_some {h : Heap} {x : String} {is : List Nat} {i : Nat} :
    firstIn h x is = some i ↔ ∃ inner outer, is = inner ++ i :: outer ∧ (∀ j ∈ inner, bindingIn h j x = none) ∧
      bindingIn h i x ≠ none := by
  induction is with
  | nil => simp [firstIn]
  | cons j is ih =>
    simp only [firstIn]
    cases hb : bindingIn h j x with
    | some v =>
      simp only [Option.isSome_some, if_true, Option.some.injEq]
      constructor
      · rintro rfl; exact ⟨[], is, rfl, by simp, by simp [hb]⟩
      · rintro ⟨inner, outer, h1, h2, h3⟩
        cases inner with
        | nil => simp at h1; exact h1.1
        | cons a inner =>
          simp only [List.cons_append, List.cons.injEq] at h1
          have := h2 a (by simp)
          rw [← h1.1, hb] at this; cases this
    | none =>
      simp only [Option.isSome_none, Bool.false_eq_true, if_false, ih]
      constructor
      · rintro ⟨inner, outer, h1, h2, h3⟩
        refine ⟨j :: inner, outer, by rw [h1]; rfl, ?_, h3⟩
        intro a ha
        rcases List.mem_cons.1 ha with rfl | ha
        · exact hb
        · exact h2 a ha
      · rintro ⟨inner, outer, h1, h2, h3⟩
        cases inner with
        | nil => simp at h1; rw [← h1.1, hb] at h3; exact absurd rfl h3
        | cons a inner =>
          simp only [List.cons_append, List.cons.injEq] at h1
          exact ⟨inner, outer, h1.2, fun b hb => h2 b (by simp [hb]), h3⟩

theorem firstIn_none {h : Heap} {x : String} {is : List Nat} :
    firstIn h x is = none ↔ ∀ j ∈ is, bindingIn h j x = none := by
  induction is with
  | nil => simp [firstIn]
  | cons j is ih =>
    simp only [firstIn, List.mem_cons, forall_eq_or_imp]
    cases bindingIn h j x <;> simp [ih]

theorem owner_iff {h : Heap} (ho : Older h) {e : Nat} (he : e < h.length) {x : String} {i : Nat} :
    owner h e x = some i ↔ NearestIn h e x i := by
  obtain ⟨is, hc⟩ := Chain.exists ho e he
  unfold owner
  rw [ownerAux_chain ho hc x _ (by omega), firstIn_some]
  constructor
  · rintro ⟨inner, outer, rfl, h2, h3⟩; exact ⟨inner, outer, hc, h2, h3⟩
  · rintro ⟨inner, outer, hc', h2, h3⟩; exact ⟨inner, outer, hc.unique hc', h2, h3⟩

theorem owner_none_iff {h : Heap} (ho : Older h) {e : Nat} (he : e < h.length) {x : String} :
    owner h e x = none ↔ Unbound h e x := by
  obtain ⟨is, hc⟩ := Chain.exists ho e he
  unfold owner
  rw [ownerAux_chain ho hc x _ (by omega), firstIn_none]
  constructor
  · intro h2; exact ⟨is, hc, h2⟩
  · rintro ⟨js, hc', h2⟩; rw [hc.unique hc']; exact h2

theorem lookup_nearest {h : Heap} (ho : Older h) {e : Nat} {x : String} {i : Nat} (hn : NearestIn h e x i) :
    lookup h e x = bindingIn h i x := by
  obtain ⟨inner, outer, hc, h2, h3⟩ := hn
  unfold lookup
  rw [lookupAux_chain ho hc x _ (by omega), firstIn_some.2 ⟨inner, outer, rfl, h2, h3⟩]
  rfl

theorem lookup_unbound {h : Heap} (ho : Older h) {e : Nat} {x : String} (hu : Unbound h e x) : lookup h e x = none := by
  obtain ⟨is, hc, h2⟩ := hu
  unfold lookup
  rw [lookupAux_chain ho hc x _ (by omega), firstIn_none.2 h2]
  rfl

theorem nearest_or_unbound {h : Heap} (ho : Older h) {e : Nat} (he : e < h.length) (x : String) :
    Unbound h e x ∨ ∃ i, NearestIn h e x i := by
  cases hw : owner h e x with
  | none => exact .inl ((owner_none_iff ho he).1 hw)
  | some i => exact .inr ⟨i, (owner_iff ho he).1 hw⟩

/-- In a well-formed heap the outermost scope of every chain is scope 0. -/
theorem root_zero {h : Heap} (hh : HeapOk h) {e : Nat} (he : e < h.length) : root h e = 0 := by
  obtain ⟨is, hc⟩ := Chain.exists hh.older e he
  have h1 := rootAux_chain hh.older hc (e + 1) (by omega)
  have h2 : is.getLast? = some 0 := by
    clear h1
    induction hc with
    | @top e f hf hp =>
      have := hh.parent e f hf
      rw [hp] at this
      simp only [this, List.getLast?_singleton]
    | @step e p f is hf hp hc ih =>
      have hlt := hh.older e f hf p hp
      have := ih (by omega)
      obtain ⟨t, rfl⟩ := hc.head
      simpa using this
  rw [h2] at h1
  injection h1

theorem onlyBinding_heapSet {h : Heap} {i : Nat} (hi : i < h.length) (x : String) (v : Val) :
    OnlyBinding h (heapSet h i x v) i x v := by
  have hf : h[i]? = some h[i] := List.getElem?_eq_getElem hi
  constructor
  · exact heapSet_length _ _ _ _
  · intro j
    rw [heapSet_get]
    cases h[j]? with
    | none => rfl
    | some f => simp only [Option.map_some]; split <;> rfl
  · simp [bindingIn, heapSet_get, hf, alGet_alSet]
  · intro j y hn
    simp only [bindingIn, heapSet_get]
    cases h[j]? with
    | none => rfl
    | some f =>
      simp only [Option.map_some]
      by_cases hj : j = i
      · subst hj
        have : ¬ x = y := fun h => hn ⟨rfl, h.symm⟩
        simp [alGet_alSet, this]
      · simp [hj]

end L1
