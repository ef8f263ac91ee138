import Verif.Lemmas.Heap
/-
One invariant for the whole interpreter, preserved by every step (used by C19, C22, C23, C31, C37, C43).
-/
set_option autoImplicit false
namespace L1

/-- The names issued by `gensym` are distinct and numbered up to the counter. -/
structure IssuedOk (s : St) : Prop where
  nodup : s.issued.Nodup
  bound : ∀ a ∈ s.issued, ∃ pre k, a = gensymName pre k ∧ k ≤ s.gensym

/-- The state invariant. -/
structure Inv (s : St) : Prop where
  heap : HeapOk s.heap
  issued : IssuedOk s

/-- The number in a generated name is determined by the name. -/
theorem gensymName_inj {p p' : List Char} {k k' : Nat} (h : gensymName p k = gensymName p' k') : k = k' := by
  unfold gensymName at h
  rw [String.ofList_inj] at h
  have h1 : (p ++ '-' :: (Nat.toDigits 10 k ++ ['>'])) = p' ++ '-' :: (Nat.toDigits 10 k' ++ ['>']) := by
    simpa using h
  have h2 := congrArg List.reverse h1
  simp only [List.reverse_append, List.reverse_cons, List.append_assoc, List.nil_append, List.cons_append,
    List.cons.injEq, true_and, List.reverse_nil] at h2
  have h3 : (Nat.toDigits 10 k).reverse = (Nat.toDigits 10 k').reverse := by
    have hk := digits_all k
    have hk' := digits_all k'
    rw [← List.all_reverse] at hk hk'
    generalize (Nat.toDigits 10 k).reverse = a at *
    generalize (Nat.toDigits 10 k').reverse = b at *
    clear h h1
    induction a generalizing b with
    | nil =>
      cases b with
      | nil => rfl
      | cons c b =>
        simp only [List.nil_append, List.cons_append, List.cons.injEq] at h2
        rw [← h2.1] at hk'
        simp [isDigitC] at hk'
    | cons c a ih =>
      cases b with
      | nil =>
        simp only [List.nil_append, List.cons_append, List.cons.injEq] at h2
        rw [h2.1] at hk
        simp [isDigitC] at hk
      | cons c' b =>
        simp only [List.cons_append, List.cons.injEq] at h2
        simp only [List.all_cons, Bool.and_eq_true] at hk hk'
        rw [h2.1, ih hk.2 b hk'.2 h2.2]
  have h4 := congrArg digitsVal (List.reverse_inj.1 h3)
  rwa [digitsVal_toDigits, digitsVal_toDigits] at h4

/-- A result is fine: the invariant holds again, the state only grew, values and errors refer to existing
scopes. -/
def ROk {α : Type} (s : St) (Q : Nat → α → Prop) : Res α → Prop
  | .ok a s' => Inv s' ∧ Ext s s' ∧ Q s'.heap.length a
  | .err e s' => Inv s' ∧ Ext s s' ∧ EOk s'.heap.length e
  | .crash w s' => w ≠ "watch" ∧ Inv s' ∧ Ext s s'
  | .exit _ s' => Inv s' ∧ Ext s s'
  | .overflow s' => Inv s' ∧ Ext s s'
  | .oof => True

/-- From every good state with at least `n` scopes, the computation ends well. -/
def Safe {α : Type} (n : Nat) (Q : Nat → α → Prop) (m : M α) : Prop :=
  ∀ s, Inv s → n ≤ s.heap.length → ROk s Q (m s)

/-- The value refers to existing scopes. -/
abbrev VQ : Nat → Val → Prop := VOk
/-- Nothing to say. -/
abbrev TQ {α : Type} : Nat → α → Prop := fun _ _ => True
/-- All values of a list refer to existing scopes. -/
abbrev LQ : Nat → List Val → Prop := fun n xs => ∀ x ∈ xs, VOk n x

theorem ROk.trans {α : Type} {s s' : St} {Q : Nat → α → Prop} {r : Res α} (h : Ext s s') (hr : ROk s' Q r) : ROk s Q r := by
  cases r with
  | ok a s'' => exact ⟨hr.1, h.trans hr.2.1, hr.2.2⟩
  | err e s'' => exact ⟨hr.1, h.trans hr.2.1, hr.2.2⟩
  | crash w s'' => exact ⟨hr.1, hr.2.1, h.trans hr.2.2⟩
  | exit _ s'' => exact ⟨hr.1, h.trans hr.2⟩
  | overflow s'' => exact ⟨hr.1, h.trans hr.2⟩
  | oof => trivial

theorem Safe.bind {α β : Type} {n : Nat} {Q : Nat → α → Prop} {R : Nat → β → Prop} {m : M α} {f : α → M β}
    (hm : Safe n Q m) (hf : ∀ n' a, n ≤ n' → Q n' a → Safe n' R (f a)) : Safe n R (m >>= f) := by
  intro s hs hn
  rw [M.bind_run]
  have h := hm s hs hn
  cases hr : m s with
  | ok a s' =>
    rw [hr] at h
    obtain ⟨h1, h2, h3⟩ := h
    exact (hf _ a (Nat.le_trans hn h2.heap.len) h3 s' h1 (Nat.le_refl _)).trans h2
  | err e s' => rw [hr] at h; exact h
  | crash w s' => rw [hr] at h; exact h
  | exit _ s' => rw [hr] at h; exact h
  | overflow s' => rw [hr] at h; exact h
  | oof => trivial

theorem Safe.mono {α : Type} {n n' : Nat} (h : n ≤ n') {Q : Nat → α → Prop} {m : M α} (hm : Safe n Q m) : Safe n' Q m :=
  fun s hs hn => hm s hs (Nat.le_trans h hn)

theorem Safe.weaken {α : Type} {n : Nat} {Q R : Nat → α → Prop} {m : M α} (hm : Safe n Q m)
    (h : ∀ k a, n ≤ k → Q k a → R k a) : Safe n R m := by
  intro s hs hn
  have hr := hm s hs hn
  cases hr' : m s with
  | ok a s' =>
    rw [hr'] at hr
    exact ⟨hr.1, hr.2.1, h _ _ (Nat.le_trans hn hr.2.1.heap.len) hr.2.2⟩
  | err e s' => rw [hr'] at hr; exact hr
  | crash w s' => rw [hr'] at hr; exact hr
  | exit _ s' => rw [hr'] at hr; exact hr
  | overflow s' => rw [hr'] at hr; exact hr
  | oof => trivial

theorem Safe.pure {α : Type} {n : Nat} {Q : Nat → α → Prop} {a : α} (h : ∀ k, n ≤ k → Q k a) : Safe n Q (pure a : M α) :=
  fun s hs hn => ⟨hs, .refl s, h _ hn⟩

theorem Safe.pureV {n : Nat} {v : Val} (h : VOk n v) : Safe n VQ (Pure.pure v : M Val) :=
  .pure fun _ hk => h.mono hk

theorem Safe.ite {α : Type} {n : Nat} {Q : Nat → α → Prop} {c : Prop} [Decidable c] {a b : M α} (h1 : Safe n Q a)
    (h2 : Safe n Q b) : Safe n Q (if c then a else b) := by split <;> assumption

theorem Safe.throwBase {α : Type} {n : Nat} {Q : Nat → α → Prop} {m : String} : Safe n Q (throwBase m : M α) :=
  fun s hs _ => ⟨hs, .refl s, [msgList m], by simp, rfl, by simp [vok_msgList]⟩

theorem Safe.throwUser {α : Type} {n : Nat} {Q : Nat → α → Prop} {v : Val} (h : VOk n v) : Safe n Q (throwUser v : M α) :=
  fun s hs hn => ⟨hs, .refl s, [v], by simp, rfl, by simp [h.mono hn]⟩

theorem Safe.throwErr {α : Type} {n : Nat} {Q : Nat → α → Prop} {e : Err} (h : EOk n e) : Safe n Q (throwErr e : M α) :=
  fun s hs hn => ⟨hs, .refl s, h.mono hn⟩

theorem Safe.throwForeign {α : Type} {n : Nat} {Q : Nat → α → Prop} {m : String} : Safe n Q (throwForeign m : M α) :=
  fun s hs _ => ⟨hs, .refl s, trivial⟩

theorem Safe.crash {α : Type} {n : Nat} {Q : Nat → α → Prop} {m : String}
    (hm : m ≠ "watch" := by decide) : Safe n Q (crash m : M α) :=
  fun s hs _ => ⟨hm, hs, .refl s⟩

theorem Safe.extendWith {α : Type} {n : Nat} {Q : Nat → α → Prop} {f : Val} {m : M α} (hf : VOk n f) (hm : Safe n Q m) :
    Safe n Q (extendWith f m) := by
  intro s hs hn
  have h := hm s hs hn
  rw [extendWith_run]
  cases hr : m s with
  | err e s' =>
    rw [hr] at h
    refine ⟨h.1, h.2.1, ?_⟩
    cases e with
    | foreign => trivial
    | list v =>
      obtain ⟨xs, h1, rfl, h3⟩ := h.2.2
      refine ⟨f :: xs, by simp, rfl, ?_⟩
      intro x hx
      rcases List.mem_cons.1 hx with rfl | hx
      · exact hf.mono (Nat.le_trans hn h.2.1.heap.len)
      · exact h3 x hx
  | _ => rw [hr] at h; exact h

theorem Safe.extend {α : Type} {n : Nat} {Q : Nat → α → Prop} {msg : String} {m : M α} (hm : Safe n Q m) :
    Safe n Q (extend msg m) := .extendWith (vok_msgList _ _) hm

/-- The postcondition of `attempt`. -/
def AQ {α : Type} (Q : Nat → α → Prop) : Nat → Except Err α → Prop
  | n, .ok a => Q n a
  | n, .error e => EOk n e

theorem Safe.attempt {α : Type} {n : Nat} {Q : Nat → α → Prop} {m : M α} (hm : Safe n Q m) :
    Safe n (AQ Q) (attempt m) := by
  intro s hs hn
  have h := hm s hs hn
  rw [attempt_run]
  cases hr : m s with
  | oof => trivial
  | _ => rw [hr] at h; exact h

theorem Safe.lookupM {n : Nat} (e : Nat) (x : String) :
    Safe n (fun k o => ∀ v, o = some v → VOk k v) (lookupM e x) :=
  fun s hs _ => ⟨hs, .refl s, fun _ hv => lookup_vok hs.heap hv⟩

theorem Safe.isMacroCallM {n : Nat} (x : Val) (e : Nat) : Safe n TQ (isMacroCallM x e) :=
  fun s hs _ => ⟨hs, .refl s, trivial⟩

theorem ext_heap {s : St} {h : Heap} (hh : HeapExt s.heap h) : Ext s { s with heap := h } :=
  ⟨hh, ⟨[], by simp⟩, Nat.le_refl _, ⟨[], rfl⟩, Nat.le_refl _, ⟨[], by simp⟩, ⟨[], by simp⟩⟩

theorem Safe.newEnvM {n p : Nat} (hp : p < n) : Safe n (fun k i => i < k) (newEnvM p) := by
  intro s hs hn
  refine ⟨⟨newFrame_ok hs.heap (by omega), ⟨hs.issued.1, hs.issued.2⟩⟩, ext_heap (newFrame_ext _ _), ?_⟩
  simp

theorem Safe.setM {n e : Nat} {x : String} {v : Val} (hv : VOk n v) : Safe n TQ (setM e x v) := by
  intro s hs hn
  unfold L1.setM
  split
  · exact Safe.throwBase (n := n) s hs hn
  · rename_i hx
    exact ⟨⟨heapSet_ok hs.heap hx (hv.mono hn), ⟨hs.issued.1, hs.issued.2⟩⟩, ext_heap (heapSet_ext _ _ _ _), trivial⟩

theorem Safe.setTopM {n e : Nat} {x : String} {v : Val} (hv : VOk n v) : Safe n TQ (setTopM e x v) :=
  fun s hs hn => Safe.setM hv s hs hn

theorem Safe.updateM {n e : Nat} {x : String} {v : Val} (hv : VOk n v) : Safe n TQ (updateM e x v) := by
  intro s hs hn
  unfold L1.updateM
  split
  · exact Safe.throwBase (n := n) s hs hn
  · rename_i hx
    split
    · exact ⟨⟨heapSet_ok hs.heap hx (hv.mono hn), ⟨hs.issued.1, hs.issued.2⟩⟩, ext_heap (heapSet_ext _ _ _ _), trivial⟩
    · exact Safe.throwBase (n := n) s hs hn

theorem Safe.printM {n : Nat} {cs : List Char} : Safe n TQ (printM cs) :=
  fun s hs _ => ⟨⟨hs.1, ⟨hs.2.1, hs.2.2⟩⟩,
    ⟨.refl _, ⟨cs, rfl⟩, Nat.le_refl _, ⟨[], rfl⟩, Nat.le_refl _, ⟨[], by simp⟩, ⟨[], by simp⟩⟩, trivial⟩

theorem Safe.askM {α : Type} {n : Nat} {f : Nat → α} {Q : Nat → α → Prop} (h : ∀ k t, n ≤ k → Q k (f t)) : Safe n Q (askM f) :=
  fun s hs hn => ⟨⟨hs.1, ⟨hs.2.1, hs.2.2⟩⟩,
    ⟨.refl _, ⟨[], by simp⟩, Nat.le_refl _, ⟨[], rfl⟩, Nat.le_succ _, ⟨[], by simp⟩, ⟨[], by simp⟩⟩, h _ _ hn⟩

theorem Safe.getScreenM {n : Nat} : Safe n TQ getScreenM := fun s hs _ => ⟨hs, .refl s, trivial⟩

theorem Safe.actsM {n : Nat} {as : List Act} : Safe n TQ (actsM as) :=
  fun s hs _ => ⟨⟨hs.1, ⟨hs.2.1, hs.2.2⟩⟩,
    ⟨.refl _, ⟨[], by simp⟩, Nat.le_refl _, ⟨[], rfl⟩, Nat.le_refl _, ⟨[], by simp⟩, ⟨as, rfl⟩⟩, trivial⟩

theorem Safe.setScreenM {n : Nat} {b : Bool} : Safe n TQ (setScreenM b) :=
  fun s hs _ => ⟨⟨hs.1, ⟨hs.2.1, hs.2.2⟩⟩,
    ⟨.refl _, ⟨[], by simp⟩, Nat.le_refl _, ⟨[], rfl⟩, Nat.le_refl _, ⟨[], by simp⟩, ⟨[], by simp⟩⟩, trivial⟩

theorem Safe.gensymM {n : Nat} {p : List Char} : Safe n VQ (gensymM p) := by
  intro s hs _
  refine ⟨⟨hs.heap, ?_, ?_⟩, ⟨.refl _, ⟨[], by simp⟩, Nat.le_succ _, ⟨[], rfl⟩, Nat.le_refl _, ⟨_, rfl⟩, ⟨[], by simp⟩⟩, trivial⟩
  · show (s.issued ++ [gensymName p (s.gensym + 1)]).Nodup
    rw [List.nodup_append]
    refine ⟨hs.issued.nodup, by simp, ?_⟩
    intro a ha b hb hab
    rw [List.mem_singleton] at hb
    subst hb
    obtain ⟨q, k, rfl, hk⟩ := hs.issued.bound a ha
    have := gensymName_inj hab
    omega
  · intro a ha
    rcases List.mem_append.1 ha with ha | ha
    · obtain ⟨q, k, rfl, hk⟩ := hs.issued.bound a ha
      exact ⟨q, k, rfl, Nat.le_succ_of_le hk⟩
    · rw [List.mem_singleton] at ha
      exact ⟨p, _, ha, Nat.le_refl _⟩

theorem Safe.readLineM {n : Nat} : Safe n TQ readLineM := by
  intro s hs _
  unfold L1.readLineM
  split
  · exact ⟨hs, .refl s, trivial⟩
  · rename_i l ls hl
    exact ⟨⟨hs.1, ⟨hs.2.1, hs.2.2⟩⟩,
      ⟨.refl _, ⟨[], by simp⟩, Nat.le_refl _, ⟨[l], by simp [hl]⟩, Nat.le_refl _, ⟨[], by simp⟩, ⟨[], by simp⟩⟩, trivial⟩

theorem Safe.envKeysM {n e : Nat} : Safe n TQ (envKeysM e) := fun s hs _ => ⟨hs, .refl s, trivial⟩

theorem Safe.exitM {α : Type} {c : Nat} {n : Nat} {Q : Nat → α → Prop} : Safe n Q (exitM c : M α) := fun s hs _ => ⟨hs, .refl s⟩

theorem Safe.oof {α : Type} {n : Nat} {Q : Nat → α → Prop} : Safe n Q (fun _ => .oof : M α) := fun _ _ _ => trivial

/-! ### Values made by the interpreter -/

/-- No closure anywhere in the value. -/
def noLam : Val → Bool
  | .cons a d => noLam a && noLam d
  | .lam .. => false
  | _ => true

theorem noLam_vok {v : Val} (h : noLam v = true) (n : Nat) : VOk n v := by
  induction v with
  | cons a d iha ihd =>
    simp only [noLam, Bool.and_eq_true] at h
    exact ⟨iha h.1, ihd h.2⟩
  | lam => simp [noLam] at h
  | _ => trivial

theorem noLam_vlist {xs : List Val} : noLam (vlist xs) = xs.all noLam := by
  induction xs with
  | nil => rfl
  | cons x xs ih => simp [noLam, ih]

theorem noLam_mkList {xs : List Val} {c : Val} (h : xs.all noLam = true) (hc : noLam c = true) :
    noLam (mkList xs c) = true := by
  induction xs with
  | nil => exact hc
  | cons x xs ih =>
    simp only [List.all_cons, Bool.and_eq_true] at h
    show (noLam x && noLam (mkList xs c)) = true
    rw [h.1, ih h.2]; rfl

theorem vok_vBool (n : Nat) (b : Bool) : VOk n (vBool b) := by cases b <;> trivial

theorem vok_cxr (n e : Nat) (h : e < n) (a : String) : VOk n (cxrLambda a e) := by
  have hpath : VOk n (vlist (((a.toList.drop 1).dropLast).reverse.map fun c => .atom (String.ofList [c]))) := by
    rw [vok_vlist]
    intro x hx
    obtain ⟨_, _, rfl⟩ := List.mem_map.1 hx
    trivial
  exact ⟨h, ⟨⟨trivial, ⟨trivial, hpath, trivial⟩, trivial, trivial⟩, trivial⟩, trivial⟩

theorem vok_combineArgs (n : Nat) (ps : List String) (c : Val) (h : VOk n c) : VOk n (combineArgs ps c) := by
  induction ps with
  | nil => exact ⟨trivial, h⟩
  | cons p ps ih =>
    cases ps with
    | nil => exact ⟨trivial, h⟩
    | cons q qs => exact ⟨trivial, ih⟩

theorem vok_sourceOf (n : Nat) (ps : List String) (r : String) (b : Val) (h : VOk n b) : VOk n (sourceOf ps r b) := by
  refine ⟨trivial, ?_, h⟩
  split
  · rw [vok_vlist]; intro x hx; obtain ⟨_, _, rfl⟩ := List.mem_map.1 hx; trivial
  · exact vok_combineArgs _ _ _ trivial

/-! ### The reader makes no closures -/

/-- A parse result without closures; errors are non-empty lists. -/
def PNoLam {α : Type} (Q : α → Prop) : PRes α → Prop
  | .ok a => Q a
  | .err e => ∃ xs : List Val, xs ≠ [] ∧ e = vlist xs ∧ xs.all noLam = true
  | _ => True

theorem pnl_perr {α : Type} {Q : α → Prop} (m : String) : PNoLam Q (perr m : PRes α) := by
  refine ⟨[msgList m], by simp, rfl, ?_⟩
  simp [msgList, atomList, noLam_vlist, noLam]

theorem pnl_extend {α : Type} {Q : α → Prop} (m : String) {r : PRes α} (h : PNoLam Q r) : PNoLam Q (r.extend m) := by
  cases r with
  | err e =>
    obtain ⟨xs, h1, rfl, h3⟩ := h
    refine ⟨msgList m :: xs, by simp, rfl, ?_⟩
    rw [List.all_cons, h3, msgList, atomList, noLam_vlist, List.all_map]
    simp [noLam, Function.comp_def]
  | _ => exact h

theorem pnl_bind {α β : Type} {Q : α → Prop} {R : β → Prop} {r : PRes α} {f : α → PRes β} (h : PNoLam Q r)
    (hf : ∀ a, Q a → PNoLam R (f a)) : PNoLam R (r.bind f) := by
  cases r with
  | ok a => exact hf a h
  | _ => exact h

theorem parse_noLam (k : Nat) :
    (∀ ts, PNoLam (fun r : Val × Nat => noLam r.1 = true) (parseNext k ts)) ∧
    (∀ ts, PNoLam (fun r : Val × Nat => noLam r.1 = true) (parseList k ts)) ∧
    (∀ ts, PNoLam (fun r : List Val => r.all noLam = true) (parse k ts)) ∧
    (∀ ts, PNoLam (fun r : List Val => r.all noLam = true) (parseForms k ts)) := by
  induction k with
  | zero =>
    refine ⟨fun ts => ?_, fun ts => ?_, fun ts => ?_, fun ts => ?_⟩
    · rw [parseNext]; trivial
    · rw [parseList]; trivial
    · rw [parse]; trivial
    · rw [parseForms]; trivial
  | succ k ih =>
    obtain ⟨h1, h2, h3, h4⟩ := ih
    refine ⟨fun ts => ?_, fun ts => ?_, fun ts => ?_, fun ts => ?_⟩
    · cases ts with
      | nil => rw [parseNext]; exact pnl_perr _
      | cons t ts =>
        rw [parseNext.eq_def]
        simp only []
        split
        · refine pnl_bind (Q := fun r : Val × Nat => noLam r.1 = true) (pnl_extend _ ?_) ?_
          · split
            · exact pnl_perr _
            · exact pnl_extend _ (h1 _)
          · intro a ha; simp only [PNoLam, noLam, ha, Bool.and_true]
        · split
          · rfl
          · rfl
          · exact pnl_extend _ (h2 _)
          · exact pnl_perr _
          · exact pnl_perr _
    · rw [parseList.eq_def]
      simp only []
      split
      · exact pnl_perr _
      · refine pnl_bind (h3 _) fun carList hcar => ?_
        split
        · exact pnl_perr _
        · refine pnl_bind (h3 _) fun cdrList hcdr => ?_
          split
          · trivial
          · simp only [List.all_cons, Bool.and_eq_true] at hcdr
            exact noLam_mkList hcar hcdr.1
      · refine pnl_bind (h3 _) fun contents hc => ?_
        exact noLam_mkList hc rfl
    · rw [parse.eq_def]
      simp only []
      split
      · rfl
      · split
        · exact h4 _
        · exact h4 _
    · rw [parseForms.eq_def]
      simp only []
      split
      · rfl
      · refine pnl_bind (pnl_extend _ (h1 _)) fun r hr => ?_
        refine pnl_bind (h4 _) fun rest hrest => ?_
        show (r.1 :: rest).all noLam = true
        rw [List.all_cons, hr, hrest]; rfl

theorem Safe.liftParse {n : Nat} {r : PRes (List Val)} (h : PNoLam (fun r : List Val => r.all noLam = true) r) :
    Safe n LQ (liftParse r) := by
  cases r with
  | ok a =>
    refine .pure fun k _ x hx => noLam_vok ?_ k
    exact List.all_eq_true.1 h x hx
  | err e =>
    obtain ⟨xs, h1, rfl, h3⟩ := h
    exact .throwErr ⟨xs, h1, rfl, fun x hx => noLam_vok (List.all_eq_true.1 h3 x hx) n⟩
  | crash => exact .crash
  | fuel => exact .oof

/-! ### Lambdas -/

theorem docOf_vok {n : Nat} (dd : Val) :
    VOk n dd → VOk n (match dd with | .cons .nil _ => Val.nil | dd => dd) := by
  intro h
  split
  · trivial
  · exact h

theorem Safe.splitDoc {n : Nat} {b : Val} (h : VOk n b) :
    Safe n (fun k r => VOk k r.1 ∧ VOk k r.2) (splitDoc b) := by
  unfold L1.splitDoc
  split
  · rename_i dd rest
    refine .ite ?_ .throwBase
    have hdoc := docOf_vok _ h.1.2
    exact .ite (.pure fun k hk => ⟨hdoc.mono hk, h.2.mono hk⟩) .crash
  · exact .pure fun k hk => ⟨trivial, h.mono hk⟩

theorem Safe.mkLambdaNamed {n e : Nat} {name : String} {cdr : Val} {m : Bool} (he : e < n) (h : VOk n cdr) :
    Safe n VQ (mkLambdaNamed name cdr m e) := by
  unfold L1.mkLambdaNamed
  split
  · refine .ite ?_ .throwBase
    split
    · exact .throwBase
    · refine .ite .throwBase (.ite (.bind (.splitDoc h.2) ?_) .crash)
      rintro k ⟨doc, body'⟩ hk ⟨h1, h2⟩
      have hf : ∀ ps rest, VOk k (Val.lam ps rest body' doc m e) := fun _ _ => ⟨by omega, h2, h1⟩
      refine .ite ?_ (.pureV (hf _ _))
      exact .bind (.attempt (.setM (hf _ _))) fun k' _ hk' _ => .pureV ((hf _ _).mono hk')
  · exact .throwBase

theorem Safe.mkLambda {n e : Nat} {cdr : Val} {m : Bool} (he : e < n) (h : VOk n cdr) : Safe n VQ (mkLambda cdr m e) := by
  unfold L1.mkLambda
  split
  · exact .ite (.mkLambdaNamed he h.2) .crash
  · exact .mkLambdaNamed he h
  · exact .throwBase

theorem Safe.bindParams {n e : Nat} (ps : List String) :
    ∀ vs : List Val, (∀ v ∈ vs, VOk n v) → Safe n TQ (bindParams e ps vs) := by
  induction ps generalizing n with
  | nil => intro vs _; cases vs <;> exact .pure fun _ _ => trivial
  | cons p ps ih =>
    intro vs h
    cases vs with
    | nil => exact .pure fun _ _ => trivial
    | cons v vs =>
      exact .bind (.extend (.setM (h v (by simp)))) fun k _ hk _ =>
        ih vs fun w hw => (h w (by simp [hw])).mono hk

theorem Safe.bindArgs {n e : Nat} {ps : List String} {r : String} {args : List Val} (h : ∀ v ∈ args, VOk n v) :
    Safe n TQ (bindArgs e ps r args) := by
  unfold L1.bindArgs
  refine .ite (.ite .throwBase ?_) (.ite .throwBase (.ite .throwBase (.bindParams _ _ h)))
  refine .bind (.setM ?_) fun k _ hk _ => .bindParams _ _ fun v hv => (h v hv).mono hk
  rw [vok_vlist]
  exact fun x hx => h x (List.mem_of_mem_drop hx)

/-! ### Syntax-quote -/

theorem cadr?_vok {n : Nat} {v w : Val} (h : VOk n v) (hw : cadr? v = some w) : VOk n w := by
  unfold cadr? at hw
  split at hw
  · injection hw with hw; subst hw; exact h.2.1
  · cases hw

theorem sq_vok {n : Nat} : ∀ v : Val, VOk n v →
    (∀ w, splicingUnquote v = some w → VOk n w) ∧ (∀ w, syntaxQuote v = some w → VOk n w) := by
  intro v
  induction v with
  | nil =>
    intro _
    refine ⟨fun w h => ?_, fun w h => ?_⟩
    · rw [splicingUnquote] at h; injection h with h; subst h; trivial
    · rw [syntaxQuote] at h; injection h with h; subst h; trivial
  | atom a =>
    intro _
    refine ⟨fun w h => ?_, fun w h => ?_⟩
    · simp only [splicingUnquote, Option.some.injEq] at h
      subst h; trivial
    · rw [syntaxQuote] at h; injection h with h; subst h
      rw [vok_vlist]; simp [VOk]
  | num a =>
    intro _
    refine ⟨fun w h => ?_, fun w h => ?_⟩
    · simp only [splicingUnquote, Option.some.injEq] at h
      subst h; trivial
    · rw [syntaxQuote] at h; injection h with h; subst h
      rw [vok_vlist]; simp [VOk]
  | bi b =>
    intro _
    refine ⟨fun w h => ?_, fun w h => ?_⟩
    · simp only [splicingUnquote, Option.some.injEq] at h
      subst h; trivial
    · simp only [syntaxQuote, Option.some.injEq] at h
      subst h; trivial
  | lam ps r b dc m e _ _ =>
    intro hv
    refine ⟨fun w h => ?_, fun w h => ?_⟩
    · simp only [splicingUnquote, Option.some.injEq] at h
      subst h; exact hv
    · simp only [syntaxQuote, Option.some.injEq] at h
      subst h; exact hv
  | cons a d iha ihd =>
    intro hv
    have key : ∀ w, (if d.isList then
        match splicingUnquote d with
        | none => none
        | some nxt =>
          if startsWith a "splicing-unquote" then
            match cadr? a with
            | none => none
            | some x => some (vlist [.atom "concat2", x, nxt])
          else
            match syntaxQuote a with
            | none => none
            | some q => some (vlist [.atom "cons", q, nxt])
      else some (.cons a d)) = some w → VOk n w := by
      intro w h
      split at h
      · split at h
        · cases h
        · rename_i nxt hn
          have hnxt := (ihd hv.2).1 nxt hn
          split at h
          · split at h
            · cases h
            · rename_i x hx
              injection h with h; subst h
              rw [vok_vlist]; simp [VOk, hnxt, cadr?_vok hv.1 hx]
          · split at h
            · cases h
            · rename_i q hq
              injection h with h; subst h
              rw [vok_vlist]; simp [VOk, hnxt, (iha hv.1).2 q hq]
      · injection h with h; subst h; exact hv
    refine ⟨fun w h => key w (by rw [splicingUnquote] at h; exact h), fun w h => ?_⟩
    rw [syntaxQuote] at h
    split at h
    · exact cadr?_vok hv h
    · exact key w h

end L1
