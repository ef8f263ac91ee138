import Verif.Props.Data
import Verif.Props.Invariants
import Verif.Lemmas.Limit
import Verif.Lemmas.Calls
/- C16 (every permutation can come out of `shuffle`) and C56 (`sort-by`). -/
set_option autoImplicit false
namespace L1

/-! ### C16 -/

theorem swapAt_prefix {α : Type} (p suf : List α) (i j : Nat) (hi : i < p.length) (hj : j < p.length) :
    swapAt (p ++ suf) i j = swapAt p i j ++ suf := by
  unfold swapAt
  rw [List.getElem?_append_left hi, List.getElem?_append_left hj, List.getElem?_eq_getElem hi, List.getElem?_eq_getElem hj]
  dsimp only
  rw [List.set_append_left _ _ hi, List.set_append_left _ _ (by simpa using hj)]

theorem swapAt_last {α : Type} (p : List α) (i j : Nat) (hi : p.length = i + 1) (y : α) (hj : p[j]? = some y) :
    ∃ p', swapAt p i j = p' ++ [y] := by
  have hlt : i < p.length := by omega
  obtain ⟨hjl, hjy⟩ := List.getElem?_eq_some_iff.1 hj
  have hs : swapAt p i j = (p.set i y).set j p[i] := by
    unfold swapAt; rw [List.getElem?_eq_getElem hlt, hj]
  have hlen : (swapAt p i j).length = i + 1 := by rw [hs]; simp [hi]
  refine ⟨(swapAt p i j).dropLast, ?_⟩
  have hne : swapAt p i j ≠ [] := by intro h; rw [h] at hlen; cases hlen
  conv => lhs; rw [← List.dropLast_concat_getLast hne]
  congr 2
  rw [List.getLast_eq_getElem]
  have : (swapAt p i j)[i]? = some y := by
    rw [hs]
    by_cases hij : j = i
    · subst hij; simp [hlt, hjy]
    · rw [List.getElem?_set_ne hij]; simp [hlt]
  obtain ⟨_, h⟩ := List.getElem?_eq_some_iff.1 this
  simp only [hlen, Nat.add_sub_cancel]
  exact h

theorem shuffleLoop_congr {α : Type} (W W' : World) (i : Nat) (xs : List α) (s : St) (h : ∀ t, s.tick ≤ t → W.rand t = W'.rand t) :
    shuffleLoop W i xs s = shuffleLoop W' i xs s := by
  induction i generalizing xs s with
  | zero => rfl
  | succ i ih =>
    simp only [shuffleLoop]
    rw [M.bind_ok (askM_run _ _), M.bind_ok (askM_run _ _), h _ (Nat.le_refl _)]
    exact ih _ _ fun t ht => h t (Nat.le_of_succ_le ht)

theorem shuffleLoop_onto {α : Type} (W : World) (i : Nat) (p q suf : List α) (s : St) (hl : p.length = i + 1) (hp : q.Perm p) :
    ∃ f : Nat → Nat, shuffleLoop { W with rand := f } i (p ++ suf) s = .ok (q ++ suf) { s with tick := s.tick + i } := by
  induction i generalizing p q suf s with
  | zero =>
    refine ⟨W.rand, ?_⟩
    obtain ⟨a, rfl⟩ := List.length_eq_one_iff.1 hl
    rw [List.perm_singleton.1 hp]
    rfl
  | succ i ih =>
    have hne : q ≠ [] := by intro h; subst h; have := hp.length_eq; simp [hl] at this
    obtain ⟨q', y, rfl⟩ : ∃ q' y, q = q' ++ [y] := ⟨_, _, (List.dropLast_concat_getLast hne).symm⟩
    have hy : y ∈ p := hp.subset (by simp)
    obtain ⟨j, hj⟩ := List.mem_iff_getElem?.1 hy
    have hjl : j < p.length := (List.getElem?_eq_some_iff.1 hj).1
    obtain ⟨p', hp'⟩ := swapAt_last p (i + 1) j hl y hj
    have hperm : q'.Perm p' := by
      have h1 := hp.trans (swapAt_perm p (i + 1) j).symm
      rw [hp'] at h1
      exact (List.perm_append_right_iff [y]).1 h1
    have hlen : p'.length = i + 1 := by
      have := (swapAt_perm p (i + 1) j).length_eq
      rw [hp'] at this; simp at this; omega
    obtain ⟨f, hf⟩ := ih p' q' (y :: suf) { s with tick := s.tick + 1 } hlen hperm
    refine ⟨fun t => if t = s.tick then j else f t, ?_⟩
    simp only [shuffleLoop]
    rw [M.bind_ok (askM_run _ _)]
    simp only [if_true]
    rw [Nat.mod_eq_of_lt (by omega), swapAt_prefix p suf (i + 1) j (by omega) hjl, hp', List.append_assoc, List.singleton_append]
    rw [shuffleLoop_congr _ { W with rand := f } i _ _ (by
      intro t ht; simp only at ht ⊢; rw [if_neg (by omega)]), hf]
    simp [Nat.add_assoc, Nat.add_comm 1 i]

/-- C16: every permutation of the list is the result for some outcomes of the random source. -/
theorem C16_onto (W : World) (xs ys : List Val) (e : Nat) (s : St) (hp : ys.Perm xs) :
    ∃ (f : Nat → Nat) (k : Nat), perform { W with rand := f } (.builtin .shuffle [vlist xs] e) s = .ok (vlist ys) { s with tick := s.tick + k } := by
  have key : ∃ f : Nat → Nat, shuffleLoop { W with rand := f } (xs.length - 1) xs s = .ok ys { s with tick := s.tick + (xs.length - 1) } := by
    cases xs with
    | nil => rw [List.perm_nil.1 hp]; exact ⟨W.rand, rfl⟩
    | cons x xs =>
      have := shuffleLoop_onto W xs.length (x :: xs) ys [] s (by simp) hp
      simpa using this
  obtain ⟨f, hf⟩ := key
  refine ⟨f, xs.length - 1, ?_⟩
  rw [perform_eq]
  show bShuffle { W with rand := f } [vlist xs] s = _
  simp only [bShuffle, isList_vlist, if_true, toList?_vlist]
  rw [M.bind_ok hf]; rfl

example (W : World) : ∃ (f : Nat → Nat) (k : Nat), perform { W with rand := f } (.builtin .shuffle [vlist [.num 1, .num 2, .num 3]] 0) (initSt [])
    = .ok (vlist [.num 3, .num 1, .num 2]) { initSt [] with tick := (initSt []).tick + k } :=
  C16_onto W _ [.num 3, .num 1, .num 2] 0 (initSt []) (by decide)

/-! ### C56 -/

theorem sortRun_perm {call : Task → M Val} {f : Val} {e : Nat} (t : Sorter) : ∀ (xs : List Val) (er : Option Err) (s s' : St) (r : List Val × Option Err),
    sortRun call f e t xs er s = .ok r s' → r.1.Perm xs := by
  induction t with
  | done => intro xs er s s' r h; cases h; exact .refl _
  | swap i j next ih => intro xs er s s' r h; exact (ih _ _ _ _ _ h).trans (swapAt_perm xs i j)
  | less i j yes no ihy ihn =>
    intro xs er s s' r h
    simp only [sortRun] at h
    cases hi : xs[i]? with
    | none => rw [hi] at h; exact ihn _ _ _ _ _ h
    | some a =>
      cases hj : xs[j]? with
      | none => rw [hi, hj] at h; exact ihn _ _ _ _ _ h
      | some b =>
        rw [hi, hj] at h
        obtain ⟨a, s1, h1, h2⟩ := M.bind_eq_ok.1 h
        match a with
        | .error er' => exact ihn _ _ _ _ _ h2
        | .ok false => exact ihn _ _ _ _ _ h2
        | .ok true => exact ihy _ _ _ _ _ h2

/-- C56: whatever the function does, a result of `sort-by` has the same elements with the same multiplicities. -/
theorem C56_permutation (W : World) (f : Val) (xs : List Val) (v : Val) (e : Nat) (s s' : St)
    (h : perform W (.builtin .sortBy [f, vlist xs] e) s = .ok v s') : ∃ ys, v = vlist ys ∧ ys.Perm xs := by
  rw [perform_eq] at h
  have h : bSortBy W (perform W) [f, vlist xs] e s = .ok v s' := h
  simp only [bSortBy, isList_vlist, if_true, toList?_vlist] at h
  obtain ⟨r, s1, h1, h2⟩ := M.bind_eq_ok.1 h
  have hp := sortRun_perm _ xs none _ _ _ h1
  cases hr : r.2 with
  | some er => rw [hr] at h2; cases h2
  | none =>
    rw [hr] at h2; cases h2
    exact ⟨r.1, rfl, hp⟩

/-- Applying `f` to the element `a` gives `k` and keeps the property `P` of the state. -/
def KeyOf (W : World) (P : St → Prop) (f : Val) (e : Nat) (a k : Val) : Prop :=
  ∀ s, P s → ∃ s', perform W (.builtin .apply [f, vlist [a]] e) s = .ok k s' ∧ P s'

theorem perform_apply (W : World) (vs : List Val) (e : Nat) : perform W (.builtin .apply vs e) = applyFn (perform W) vs e := by
  funext s; rw [perform_eq]; rfl

theorem sortByLess_ok {W : World} {P : St → Prop} {f : Val} {e : Nat} {a b ka kb : Val} {s : St} (hs : P s) (ha : KeyOf W P f e a ka)
    (hb : KeyOf W P f e b kb) (hk : Sortable [ka, kb]) :
    ∃ s', sortByLess (perform W) f e a b s = .ok (sortLess ka kb) s' ∧ P s' := by
  obtain ⟨s1, h1, hs1⟩ := ha s hs
  obtain ⟨s2, h2, hs2⟩ := hb s1 hs1
  rw [perform_apply] at h1 h2
  refine ⟨s2, ?_, hs2⟩
  unfold sortByLess
  rw [M.bind_ok h1, M.bind_ok h2]
  rcases hk with ⟨ns, h⟩ | ⟨ns, h⟩
  · match ns, h with
    | [], h => cases h
    | [_], h => cases h
    | [a, b], h => cases h; rfl
    | _ :: _ :: _ :: _, h => cases h
  · match ns, h with
    | [], h => cases h
    | [_], h => cases h
    | [a, b], h => cases h; rfl
    | _ :: _ :: _ :: _, h => cases h

theorem sortable_sub {xs us : List Val} (hs : Sortable xs) (h : ∀ v ∈ us, v ∈ xs) : Sortable us := by
  rcases hs with ⟨ns, rfl⟩ | ⟨ns, rfl⟩
  · left
    induction us with
    | nil => exact ⟨[], rfl⟩
    | cons u us ih =>
      obtain ⟨m, _, rfl⟩ := List.mem_map.1 (h u (by simp))
      obtain ⟨ms, rfl⟩ := ih fun v hv => h v (by simp [hv])
      exact ⟨m :: ms, rfl⟩
  · right
    induction us with
    | nil => exact ⟨[], rfl⟩
    | cons u us ih =>
      obtain ⟨m, _, rfl⟩ := List.mem_map.1 (h u (by simp))
      obtain ⟨ms, rfl⟩ := ih fun v hv => h v (by simp [hv])
      exact ⟨m :: ms, rfl⟩

theorem sortable_pair {xs : List Val} {a b : Val} (h : Sortable xs) (ha : a ∈ xs) (hb : b ∈ xs) : Sortable [a, b] := by
  rcases h with ⟨ns, rfl⟩ | ⟨ns, rfl⟩
  · obtain ⟨i, _, rfl⟩ := List.mem_map.1 ha
    obtain ⟨j, _, rfl⟩ := List.mem_map.1 hb
    exact .inl ⟨[i, j], rfl⟩
  · obtain ⟨i, _, rfl⟩ := List.mem_map.1 ha
    obtain ⟨j, _, rfl⟩ := List.mem_map.1 hb
    exact .inr ⟨[i, j], rfl⟩

theorem sortLess_pair {a b : Val} (h : Sortable [a, b]) : (sortLess a b = true → SortLe a b) ∧ (sortLess a b = false → SortLe b a) := by
  have hh : ∀ c d : String, ¬ c < d → d ≤ c := fun c d h => Std.not_lt.1 h
  rcases h with ⟨ns, h⟩ | ⟨ns, h⟩
  · match ns, h with
    | [], h => cases h
    | [_], h => cases h
    | [a, b], h =>
      cases h
      simp only [sortLess, SortLe, decide_eq_true_eq, decide_eq_false_iff_not]
      exact ⟨Int.le_of_lt, Int.not_lt.1⟩
    | _ :: _ :: _ :: _, h => cases h
  · match ns, h with
    | [], h => cases h
    | [_], h => cases h
    | [a, b], h =>
      cases h
      have hc : charsLt a.toList b.toList = true ↔ a < b := (charsLt_iff _ _).trans Iff.rfl
      simp only [sortLess, SortLe]
      constructor
      · intro h; exact Std.le_of_lt (hc.1 h)
      · intro h; exact hh _ _ (fun hl => by rw [hc.2 hl] at h; cases h)
    | _ :: _ :: _ :: _, h => cases h

theorem sortLe_trans' {a b c : Val} (h1 : SortLe a b) (h2 : SortLe b c) : SortLe a c := by
  cases a <;> cases b <;> cases c <;> simp only [SortLe] at * <;> first | exact Int.le_trans h1 h2 | exact Std.le_trans h1 h2 | exact h1.elim | exact h2.elim

/-- Keys that are all numbers or all atoms are compared by a strict weak order. -/
theorem sortLess_asymm (a b : Val) (h : sortLess a b = true) : sortLess b a = false := by
  cases a <;> cases b <;> simp only [sortLess, decide_eq_true_eq, decide_eq_false_iff_not, Bool.false_eq_true] at *
  · rename_i a b
    have h' : a.toList < b.toList := (charsLt_iff _ _).1 h
    cases hb : charsLt b.toList a.toList with
    | false => rfl
    | true => exact absurd ((charsLt_iff _ _).1 hb) (List.lt_asymm h')
  · omega

theorem sortLess_negTrans {a b c : Val} (hs : Sortable [a, b, c]) (h1 : sortLess a b = false) (h2 : sortLess b c = false) : sortLess a c = false := by
  have hab : SortLe b a := (sortLess_pair (sortable_pair hs (by simp) (by simp))).2 h1
  have hbc : SortLe c b := (sortLess_pair (sortable_pair hs (by simp) (by simp))).2 h2
  have hca := sortLe_trans' hbc hab
  cases h : sortLess a c with
  | false => rfl
  | true =>
    exfalso
    cases a <;> cases c <;> simp only [SortLe, sortLess, decide_eq_true_eq, Bool.false_eq_true] at *
    · rename_i a c
      exact absurd ((charsLt_iff _ _).1 h) (show ¬ a < c from Std.not_lt.2 hca)
    · omega

theorem sortRun_keys {W : World} {P : St → Prop} {f : Val} {e : Nat} {key : Val → Val} (t : Sorter) : ∀ (xs : List Val),
    (∀ a ∈ xs, KeyOf W P f e a (key a)) → Sortable (xs.map key) → ∀ s, P s →
    ∃ s', sortRun (perform W) f e t xs none s = .ok (t.run (fun a b => sortLess (key a) (key b)) xs, none) s' ∧ P s' := by
  induction t with
  | done => intro xs _ _ s hP; exact ⟨s, rfl, hP⟩
  | swap i j next ih =>
    intro xs hk hs s hP
    have hp := swapAt_perm xs i j
    exact ih _ (fun a ha => hk a (hp.subset ha)) (sortable_sub hs fun v hv => (hp.map key).subset hv) s hP
  | less i j yes no ihy ihn =>
    intro xs hk hs s hP
    simp only [sortRun, Sorter.run]
    cases hi : xs[i]? with
    | none => exact ihn xs hk hs s hP
    | some a =>
      cases hj : xs[j]? with
      | none => exact ihn xs hk hs s hP
      | some b =>
        have ha := List.mem_of_getElem? hi
        have hb := List.mem_of_getElem? hj
        obtain ⟨s1, h1, hP1⟩ := sortByLess_ok hP (hk a ha) (hk b hb)
          (sortable_pair hs (List.mem_map.2 ⟨a, ha, rfl⟩) (List.mem_map.2 ⟨b, hb, rfl⟩))
        dsimp only
        by_cases hl : sortLess (key a) (key b) = true
        · rw [hl] at h1
          rw [M.bind_ok (attempt_ok h1), if_pos hl]
          exact ihy xs hk hs s1 hP1
        · rw [if_neg hl]
          rw [Bool.not_eq_true] at hl
          rw [hl] at h1
          rw [M.bind_ok (attempt_ok h1)]
          exact ihn xs hk hs s1 hP1

/-- C56: if the function gives every element a key (whenever it is applied), and the keys are all numbers or all atoms, then `sort-by` returns
the elements, each as often as before, in non-decreasing order of their keys.  Of package `sort` only this is assumed, that it sorts. -/
theorem C56_sorted (W : World) (hW : W.Sorts) (P : St → Prop) (f : Val) (key : Val → Val) (xs : List Val) (e : Nat) (s : St) (hP : P s)
    (hk : ∀ a ∈ xs, KeyOf W P f e a (key a)) (hs : Sortable (xs.map key)) :
    ∃ ys s', perform W (.builtin .sortBy [f, vlist xs] e) s = .ok (vlist ys) s' ∧ P s' ∧ ys.Perm xs ∧
      ys.Pairwise (fun a b => SortLe (key a) (key b)) := by
  obtain ⟨s', h1, hP'⟩ := sortRun_keys (W := W) (P := P) (f := f) (e := e) (key := key) (W.sorter xs.length) xs hk hs s hP
  have hm : ∀ a ∈ xs, key a ∈ xs.map key := fun a ha => List.mem_map.2 ⟨a, ha, rfl⟩
  have hperm := (W.sorter xs.length).run_perm (fun a b => sortLess (key a) (key b)) xs
  have hsort := (hW xs.length).list (fun a b => sortLess (key a) (key b)) xs
    (fun a _ b _ h => sortLess_asymm _ _ h)
    (fun a ha b hb c hc h1 h2 => sortLess_negTrans (sortable_sub hs fun v hv => by
      simp only [List.mem_cons, List.not_mem_nil, or_false] at hv
      rcases hv with rfl | rfl | rfl
      · exact hm _ ha
      · exact hm _ hb
      · exact hm _ hc) h1 h2)
  refine ⟨_, s', ?_, hP', hperm, ?_⟩
  · rw [perform_eq]
    show bSortBy W (perform W) [f, vlist xs] e s = _
    simp only [bSortBy, isList_vlist, if_true, toList?_vlist]
    rw [M.bind_ok h1]; rfl
  · refine hsort.imp_of_mem fun {a b} ha hb h => ?_
    exact (sortLess_pair (sortable_pair hs (hm _ (hperm.subset hb)) (hm _ (hperm.subset ha)))).2 h

/-- Applying `f` to the element `a` is always an error. -/
def AppFails (W : World) (P : St → Prop) (f : Val) (e : Nat) (a : Val) : Prop :=
  ∀ s, P s → ∃ er s', perform W (.builtin .apply [f, vlist [a]] e) s = .err er s' ∧ P s'

/-- What the comparison of `sort-by` makes of two keys (`none`: the function failed on the element): an error (`none`) unless both are numbers or both are atoms. -/
def keyCmp : Option Val → Option Val → Option Bool
  | some (.num a), some (.num b) => some (sortLess (.num a) (.num b))
  | some (.atom a), some (.atom b) => some (sortLess (.atom a) (.atom b))
  | _, _ => none

/-- Applying `f` to `a` gives this key, or fails. -/
def KeyOrFail (W : World) (P : St → Prop) (f : Val) (e : Nat) (a : Val) : Option Val → Prop
  | some k => KeyOf W P f e a k
  | none => AppFails W P f e a

theorem sortByLess_cmp {W : World} {P : St → Prop} {f : Val} {e : Nat} {a b : Val} {ka kb : Option Val} {s : St} (hs : P s)
    (ha : KeyOrFail W P f e a ka) (hb : KeyOrFail W P f e b kb) :
    ∃ s', P s' ∧ match keyCmp ka kb with
      | some t => sortByLess (perform W) f e a b s = .ok t s'
      | none => ∃ er, sortByLess (perform W) f e a b s = .err er s' := by
  unfold sortByLess
  simp only [← perform_apply]
  cases ka with
  | none =>
    obtain ⟨er, s1, h1, hs1⟩ := ha s hs
    exact ⟨s1, hs1, er, by rw [M.bind_err h1]⟩
  | some ka =>
    obtain ⟨s1, h1, hs1⟩ := ha s hs
    cases kb with
    | none =>
      obtain ⟨er, s2, h2, hs2⟩ := hb s1 hs1
      have : keyCmp (some ka) none = none := by cases ka <;> rfl
      rw [this]
      exact ⟨s2, hs2, er, by rw [M.bind_ok h1, M.bind_err h2]⟩
    | some kb =>
      obtain ⟨s2, h2, hs2⟩ := hb s1 hs1
      refine ⟨s2, hs2, ?_⟩
      rw [M.bind_ok h1, M.bind_ok h2]
      cases ka <;> cases kb <;> first | exact ⟨_, rfl⟩ | rfl

/-- Running an algorithm with a comparison that may fail, up to the first failure. -/
def Sorter.clean {α : Type} (cmp : α → α → Option Bool) : Sorter → List α → Option (List α)
  | .done, xs => some xs
  | .swap i j next, xs => next.clean cmp (swapAt xs i j)
  | .less i j yes no, xs =>
    match xs[i]?, xs[j]? with
    | some a, some b =>
      match cmp a b with
      | none => none
      | some true => yes.clean cmp xs
      | some false => no.clean cmp xs
    | _, _ => no.clean cmp xs

/-- A run without failures is a run with any comparison that says the same where there is no failure. -/
theorem Sorter.clean_run {α : Type} {cmp : α → α → Option Bool} {lt : α → α → Bool} (h : ∀ a b t, cmp a b = some t → lt a b = t) (t : Sorter) :
    ∀ xs ys, t.clean cmp xs = some ys → t.run lt xs = ys := by
  induction t with
  | done => intro xs ys h; cases h; rfl
  | swap i j next ih => intro xs ys h; exact ih _ _ h
  | less i j yes no ihy ihn =>
    intro xs ys hc
    simp only [Sorter.clean, Sorter.run] at hc ⊢
    cases hi : xs[i]? with
    | none => rw [hi] at hc; exact ihn _ _ hc
    | some a =>
      cases hj : xs[j]? with
      | none => rw [hi, hj] at hc; exact ihn _ _ hc
      | some b =>
        rw [hi, hj] at hc
        dsimp only at hc ⊢
        cases hab : cmp a b with
        | none => rw [hab] at hc; cases hc
        | some v =>
          rw [hab] at hc
          rw [h a b v hab]
          cases v with
          | false => exact ihn _ _ hc
          | true => exact ihy _ _ hc

theorem Sorter.clean_map {α β : Type} (cmp : β → β → Option Bool) (g : α → β) (t : Sorter) : ∀ xs : List α,
    t.clean cmp (xs.map g) = (t.clean (fun a b => cmp (g a) (g b)) xs).map (List.map g) := by
  induction t with
  | done => intro xs; rfl
  | swap i j next ih => intro xs; simp only [Sorter.clean]; rw [← swapAt_map, ih]
  | less i j yes no ihy ihn =>
    intro xs
    simp only [Sorter.clean, List.getElem?_map]
    cases xs[i]? with
    | none => exact ihn xs
    | some a =>
      cases xs[j]? with
      | none => exact ihn xs
      | some b =>
        simp only [Option.map_some]
        split
        · rfl
        · exact ihy xs
        · exact ihn xs

theorem sortRun_clean {W : World} {P : St → Prop} {f : Val} {e : Nat} {key : Val → Option Val} (t : Sorter) : ∀ (xs : List Val) (er : Option Err),
    (∀ a ∈ xs, KeyOrFail W P f e a (key a)) → ∀ s, P s →
    ∃ r s', sortRun (perform W) f e t xs er s = .ok r s' ∧
      (r.2 = none → er = none ∧ t.clean (fun a b => keyCmp (key a) (key b)) xs = some r.1) := by
  induction t with
  | done => intro xs er _ s hP; exact ⟨_, s, rfl, fun h => ⟨h, rfl⟩⟩
  | swap i j next ih =>
    intro xs er hk s hP
    exact ih _ er (fun a ha => hk a ((swapAt_perm xs i j).subset ha)) s hP
  | less i j yes no ihy ihn =>
    intro xs er hk s hP
    simp only [sortRun, Sorter.clean]
    cases hi : xs[i]? with
    | none => exact ihn xs er hk s hP
    | some a =>
      cases hj : xs[j]? with
      | none => exact ihn xs er hk s hP
      | some b =>
        obtain ⟨s1, hP1, h1⟩ := sortByLess_cmp hP (hk a (List.mem_of_getElem? hi)) (hk b (List.mem_of_getElem? hj))
        dsimp only
        cases hc : keyCmp (key a) (key b) with
        | none =>
          rw [hc] at h1
          obtain ⟨er', h1⟩ := h1
          rw [M.bind_ok (attempt_err h1)]
          obtain ⟨r, s2, h2, h3⟩ := ihn xs (some er') hk s1 hP1
          exact ⟨r, s2, h2, fun h => by cases (h3 h).1⟩
        | some v =>
          rw [hc] at h1
          rw [M.bind_ok (attempt_ok h1)]
          cases v with
          | false => exact ihn xs er hk s1 hP1
          | true => exact ihy xs er hk s1 hP1

/-- The order used against an algorithm that never compares the elements in `S` with the others: numbers and atoms as they are, grouped by kind. -/
def keyLess (k k' : Option Val) : Bool :=
  match k, k' with
  | some (.num a), some (.num b) => sortLess (.num a) (.num b)
  | some (.atom a), some (.atom b) => sortLess (.atom a) (.atom b)
  | some (.num _), _ => true
  | some (.atom _), some (.num _) => false
  | some (.atom _), _ => true
  | _, _ => false

theorem keyLess_weak : StrictWeak keyLess := by
  have hn : ∀ a b : Int, sortLess (.num a) (.num b) = decide (a < b) := fun _ _ => rfl
  have ha : ∀ a b c : String, sortLess (.atom a) (.atom b) = false → sortLess (.atom b) (.atom c) = false → sortLess (.atom a) (.atom c) = false :=
    fun a b c => sortLess_negTrans (.inr ⟨[a, b, c], rfl⟩)
  have ha' : ∀ a b c : Int, sortLess (.num a) (.num b) = false → sortLess (.num b) (.num c) = false → sortLess (.num a) (.num c) = false :=
    fun a b c => sortLess_negTrans (.inl ⟨[a, b, c], rfl⟩)
  constructor
  · intro a b h
    rcases a with _ | a <;> rcases b with _ | b
    · cases h
    · cases h
    · cases a <;> rfl
    · cases a <;> cases b <;> simp only [keyLess] at h ⊢ <;> first | rfl | exact sortLess_asymm _ _ h | exact absurd h (by decide)
  · intro a b c h1 h2
    rcases a with _ | a
    · rfl
    cases a with
    | num a =>
      rcases b with _ | b
      · cases h1
      cases b with
      | num b =>
        rcases c with _ | c
        · cases h2
        cases c with
        | num c => exact ha' _ _ _ h1 h2
        | _ => cases h2
      | _ => cases h1
    | atom a =>
      rcases b with _ | b
      · cases h1
      cases b with
      | num b =>
        rcases c with _ | c
        · cases h2
        cases c with
        | num c => rfl
        | _ => cases h2
      | atom b =>
        rcases c with _ | c
        · cases h2
        cases c with
        | num c => rfl
        | atom c => exact ha _ _ _ h1 h2
        | _ => cases h2
      | _ => cases h1
    | _ => rfl

/-- The elements in `S` before the others (`up`), or behind them. -/
def splitLess {α : Type} (S : α → Bool) (up : Bool) (lt : α → α → Bool) (a b : α) : Bool :=
  if S a = S b then lt a b else S a == up

theorem splitLess_weak {α : Type} {S : α → Bool} {up : Bool} {lt : α → α → Bool} (h : StrictWeak lt) : StrictWeak (splitLess S up lt) := by
  constructor
  · intro a b
    have := h.1 a b
    unfold splitLess
    cases S a <;> cases S b <;> cases up <;> simp_all
  · intro a b c
    have := h.2 a b c
    unfold splitLess
    cases S a <;> cases S b <;> cases S c <;> cases up <;> simp_all

/-- An algorithm that sorts must compare some element in `S` with some other, if both kinds occur. -/
theorem Sorter.Sorts.compares {t : Sorter} {n : Nat} (ht : t.Sorts n) (cmp : Nat → Nat → Option Bool) (S : Nat → Bool) (lt : Nat → Nat → Bool)
    (hlt : StrictWeak lt) (hag : ∀ a b v, cmp a b = some v → S a = S b ∧ lt a b = v) {b c : Nat} (hb : b < n) (hc : c < n) (hSb : S b = true) (hSc : S c = false) :
    t.clean cmp (List.range n) = none := by
  cases hcl : t.clean cmp (List.range n) with
  | none => rfl
  | some ys =>
    exfalso
    have key : ∀ up, ys.Pairwise (fun a b => splitLess S up lt b a = false) := by
      intro up
      have h1 := t.clean_run (lt := splitLess S up lt) (fun a b v h => by
        obtain ⟨h1, h2⟩ := hag a b v h
        unfold splitLess; rw [if_pos h1, h2]) _ _ hcl
      rw [← h1]
      exact ht _ (splitLess_weak hlt)
    have hp : ys.Perm (List.range n) := by
      have h1 := t.clean_run (lt := lt) (fun a b v h => (hag a b v h).2) _ _ hcl
      rw [← h1]; exact t.run_perm lt _
    have hsame : ys.Pairwise (fun a b => S a = S b) := by
      refine ((key true).and (key false)).imp fun {x y} h => ?_
      by_cases hxy : S x = S y
      · exact hxy
      · exfalso
        have h1 := h.1
        have h2 := h.2
        unfold splitLess at h1 h2
        rw [if_neg (fun h => hxy h.symm)] at h1 h2
        cases hy : S y <;> simp [hy] at h1 h2
    have hbc : b ≠ c := by intro h; subst h; rw [hSb] at hSc; cases hSc
    have : Std.Symm (fun a b => S a = S b) := ⟨fun _ _ h => h.symm⟩
    have := hsame.forall (hp.symm.subset (List.mem_range.2 hb)) (hp.symm.subset (List.mem_range.2 hc)) hbc
    rw [hSb, hSc] at this; cases this

/-- A number. -/
def isNumKey : Option Val → Bool
  | some (.num _) => true
  | _ => false

theorem keyCmp_less {k k' : Option Val} {v : Bool} (h : keyCmp k k' = some v) : keyLess k k' = v := by
  rcases k with _ | k <;> rcases k' with _ | k'
  · cases h
  · cases h
  · cases k <;> cases h
  · cases k <;> cases k' <;> first | cases h; rfl | cases h

/-- C56: if the function gives every element a key or fails on it (each time it is applied), there are at least two elements, and it is not the case that all have keys and the
keys are all numbers or all atoms, then `sort-by` is an error, not a list.  Of package `sort` only this is assumed, that it sorts. -/
theorem C56_error (W : World) (hW : W.Sorts) (P : St → Prop) (f : Val) (xs : List Val) (e : Nat) (s : St) (hP : P s)
    (hk : ∀ a ∈ xs, (∃ k, KeyOf W P f e a k) ∨ AppFails W P f e a) (hlen : 2 ≤ xs.length)
    (hbad : ¬ ∃ key : Val → Val, (∀ a ∈ xs, KeyOf W P f e a (key a)) ∧ Sortable (xs.map key)) :
    ∃ er s', perform W (.builtin .sortBy [f, vlist xs] e) s = .err er s' := by
  classical
  -- the key of each element
  have hkey : ∃ key : Val → Option Val, ∀ a ∈ xs, KeyOrFail W P f e a (key a) := by
    refine ⟨fun a => if h : ∃ k, KeyOf W P f e a k then some (Classical.choose h) else none, fun a ha => ?_⟩
    dsimp only
    split
    · rename_i h; exact Classical.choose_spec h
    · rename_i h; exact (hk a ha).resolve_left h
  obtain ⟨key, hkey⟩ := hkey
  obtain ⟨r, s', h1, h2⟩ := sortRun_clean (W := W) (P := P) (f := f) (e := e) (key := key) (W.sorter xs.length) xs none hkey s hP
  have hne : xs ≠ [] := by intro h; subst h; simp at hlen
  obtain ⟨g, hg, hgm⟩ := range_map_get xs hne
  have hgx : ∀ a ∈ xs, ∃ i, i < xs.length ∧ g i = a := by
    intro a ha
    rw [← hg] at ha
    obtain ⟨i, hi, rfl⟩ := List.mem_map.1 ha
    exact ⟨i, List.mem_range.1 hi, rfl⟩
  have hclean : (W.sorter xs.length).clean (fun a b => keyCmp (key a) (key b)) xs = none := by
    have hmap := (W.sorter xs.length).clean_map (fun a b => keyCmp (key a) (key b)) g (List.range xs.length)
    rw [hg] at hmap
    rw [hmap]
    have hlt : StrictWeak (fun i j => keyLess (key (g i)) (key (g j))) :=
      ⟨fun a b => keyLess_weak.1 _ _, fun a b c => keyLess_weak.2 _ _ _⟩
    suffices h : (W.sorter xs.length).clean (fun i j => keyCmp (key (g i)) (key (g j))) (List.range xs.length) = none by rw [h]; rfl
    by_cases hb : ∃ i, i < xs.length ∧ ∀ k, keyCmp (key (g i)) k = none
    · -- an element that cannot be compared at all
      obtain ⟨i, hi, hi'⟩ := hb
      obtain ⟨j, hj, hij⟩ : ∃ j, j < xs.length ∧ j ≠ i := by
        by_cases h0 : i = 0
        · exact ⟨1, by omega, by omega⟩
        · exact ⟨0, by omega, fun h => h0 h.symm⟩
      refine (hW xs.length).compares _ (fun a => a == i) _ hlt (fun a b v h => ⟨?_, keyCmp_less h⟩) hi hj (by simp) (by simpa using hij)
      have ha : a ≠ i := by intro h'; subst h'; rw [hi'] at h; cases h
      have hb : b ≠ i := by
        intro h'; subst h'
        have : keyCmp (key (g a)) (key (g b)) = none := by
          have := hi' (key (g a))
          revert this
          rcases key (g a) with _ | ka <;> rcases key (g b) with _ | kb
          · exact fun _ => rfl
          · exact fun _ => rfl
          · intro; cases ka <;> rfl
          · cases ka <;> cases kb <;> first | exact fun _ => rfl | exact fun h => (by cases h)
        rw [this] at h; cases h
      simp [ha, hb]
    · -- numbers and atoms
      have hgood : ∀ i, i < xs.length → (∃ n, key (g i) = some (.num n)) ∨ ∃ a, key (g i) = some (.atom a) := by
        intro i hi
        have : ∃ k, keyCmp (key (g i)) k ≠ none := by
          by_contra hcon
          exact hb ⟨i, hi, fun k => by by_contra h; exact hcon ⟨k, h⟩⟩
        obtain ⟨k, hk'⟩ := this
        rcases hkk : key (g i) with _ | ka
        · rw [hkk] at hk'; exact absurd rfl hk'
        · rw [hkk] at hk'
          cases ka with
          | num n => exact .inl ⟨n, rfl⟩
          | atom a => exact .inr ⟨a, rfl⟩
          | _ => exact absurd rfl hk'
      -- both kinds occur
      have hkeys : ∀ a ∈ xs, KeyOf W P f e a ((key a).getD .nil) := by
        intro a ha
        obtain ⟨i, hi, rfl⟩ := hgx a ha
        have := hkey (g i) ha
        rcases hgood i hi with ⟨n, h⟩ | ⟨n, h⟩ <;> rw [h] at this ⊢ <;> exact this
      have hex : (∃ i, i < xs.length ∧ ∃ n, key (g i) = some (.num n)) ∧ ∃ i, i < xs.length ∧ ∃ n, key (g i) = some (.atom n) := by
        constructor
        · by_contra hcon
          refine hbad ⟨fun a => (key a).getD .nil, hkeys, .inr ⟨xs.map fun a => match key a with | some (.atom n) => n | _ => "", ?_⟩⟩
          rw [List.map_map]
          refine List.map_congr_left fun a ha => ?_
          obtain ⟨i, hi, rfl⟩ := hgx a ha
          rcases hgood i hi with ⟨n, h⟩ | ⟨n, h⟩
          · exact absurd ⟨i, hi, n, h⟩ hcon
          · simp [h]
        · by_contra hcon
          refine hbad ⟨fun a => (key a).getD .nil, hkeys, .inl ⟨xs.map fun a => match key a with | some (.num n) => n | _ => 0, ?_⟩⟩
          rw [List.map_map]
          refine List.map_congr_left fun a ha => ?_
          obtain ⟨i, hi, rfl⟩ := hgx a ha
          rcases hgood i hi with ⟨n, h⟩ | ⟨n, h⟩
          · simp [h]
          · exact absurd ⟨i, hi, n, h⟩ hcon
      obtain ⟨⟨i, hi, n, hn⟩, j, hj, m, hm⟩ := hex
      refine (hW xs.length).compares _ (fun a => isNumKey (key (g a))) _ hlt (fun a b v h => ⟨?_, keyCmp_less h⟩) hi hj
        (by simp [hn, isNumKey]) (by simp [hm, isNumKey])
      revert h
      rcases key (g a) with _ | ka <;> rcases key (g b) with _ | kb
      · exact fun h => by cases h
      · exact fun h => by cases h
      · cases ka <;> exact fun h => (by cases h)
      · cases ka <;> cases kb <;> first | exact fun _ => rfl | exact fun h => (by cases h)
  cases hr : r.2 with
  | none => have := (h2 hr).2; rw [hclean] at this; cases this
  | some er =>
    refine ⟨er, s', ?_⟩
    rw [perform_eq]
    show bSortBy W (perform W) [f, vlist xs] e s = _
    simp only [bSortBy, isList_vlist, if_true, toList?_vlist]
    rw [M.bind_ok h1, hr]; rfl

/-! Concrete cases: sorting lists by their length. -/

theorem len_key (W : World) (xs : List Val) (e : Nat) : KeyOf W (fun _ => True) (.bi .len) e (vlist xs) (.num xs.length) := by
  intro s _
  refine ⟨s, ?_, trivial⟩
  rw [perform_apply]
  have h : ∀ (ys : List Val) (n : Nat) (s : St), bLenLoop n (vlist ys) s = .ok (.num (n + ys.length : Nat)) s := by
    intro ys
    induction ys with
    | nil => intro n s; rfl
    | cons y ys ih => intro n s; rw [vlist_cons]; simp only [bLenLoop]; rw [ih]; simp; omega
  have : perform W (.builtin .len [vlist xs] e) s = .ok (.num xs.length) s := by
    rw [perform_eq]
    show bLen [vlist xs] s = _
    unfold bLen
    dsimp only
    rw [M.ite_pos (isList_vlist _), h]; simp
  show applyFn (perform W) [.bi .len, vlist [vlist xs]] e s = _
  exact extend_ok this

example (W : World) (hW : W.Sorts) (s : St) : ∃ ys s', perform W (.builtin .sortBy [.bi .len, vlist [vlist [.nil, .nil], vlist [.nil]]] 0) s = .ok (vlist ys) s' ∧
    ys.Perm [vlist [.nil, .nil], vlist [.nil]] := by
  obtain ⟨ys, s', h1, _, h2, _⟩ := C56_sorted W hW (fun _ => True) (.bi .len) (fun v => if v = vlist [.nil] then .num (1 : Nat) else .num (2 : Nat))
    [vlist [.nil, .nil], vlist [.nil]] 0 s trivial
    (by
      intro a ha
      rcases List.mem_cons.1 ha with rfl | ha
      · exact len_key W [.nil, .nil] 0
      · rw [List.mem_singleton.1 ha]; exact len_key W [.nil] 0)
    (.inl ⟨[2, 1], rfl⟩)
  exact ⟨ys, s', h1, h2⟩

/-- `len` fails on an atom. -/
theorem len_fails (W : World) (e : Nat) : AppFails W (fun _ => True) (.bi .len) e (.atom "a") := by
  intro s _
  refine ⟨(Err.list (vlist [msgList "'a' is not a list"])).under (msgList "apply"), s, ?_, trivial⟩
  rw [perform_apply]
  show applyFn (perform W) [.bi .len, vlist [.atom "a"]] e s = _
  have : perform W (.builtin .len [.atom "a"] e) s = .err (.list (vlist [msgList "'a' is not a list"])) s := by rw [perform_eq]; rfl
  exact extend_err this

example (W : World) (hW : W.Sorts) (s : St) : ∃ er s', perform W (.builtin .sortBy [.bi .len, vlist [.nil, .atom "a"]] 0) s = .err er s' := by
  refine C56_error W hW (fun _ => True) (.bi .len) [.nil, .atom "a"] 0 s trivial ?_ (by decide) ?_
  rotate_left
  · rintro ⟨key, hk, _⟩
    obtain ⟨s', h, _⟩ := hk (.atom "a") (by simp) s trivial
    obtain ⟨er, s'', h', _⟩ := len_fails W 0 s trivial
    rw [h] at h'; cases h'
  intro a ha
  rcases List.mem_cons.1 ha with rfl | ha
  · exact .inl ⟨_, len_key W [] 0⟩
  · rw [List.mem_singleton.1 ha]; exact .inr (len_fails W 0)

/-- The worlds of the theorems exist: package `sort` may be insertion sort, which it is for up to 12 elements. -/
theorem sampleWorld_sorts : sampleWorld.Sorts := insertion_sorts

end L1
