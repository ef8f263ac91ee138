import Verif.Lemmas.Sorter
import Verif.Lemmas.InvEval
/- The invariant is preserved by the native functions that call the evaluator. -/
set_option autoImplicit false
namespace L1

section
variable {W : World} {call tail : Task → M Val}

theorem Safe.applyTo (hc : SafeAll call) {f : Val} {args : List Val} {n e : Nat} (he : e < n)
    (hf : VOk n f) (ha : ∀ a ∈ args, VOk n a) : Safe n VQ (applyTo call f args e) := by
  unfold L1.applyTo
  split
  · refine .bind (.newEnvM hf.1) fun k i hk hi => ?_
    refine .bind (.extend (.bindArgs fun v hv => (ha v hv).mono hk)) fun k' _ hk' _ => ?_
    exact .evBodyApply hc _ trivial (by omega) (hf.2.1.mono (by omega))
  · exact .extend (hc n _ ⟨ha, he⟩)
  · exact .throwBase

theorem Safe.applyFn (hc : SafeAll call) {args : List Val} {n e : Nat} (he : e < n)
    (ha : ∀ a ∈ args, VOk n a) : Safe n VQ (applyFn call args e) := by
  unfold L1.applyFn
  split
  · rename_i f a rest
    have hl : VOk n ((a :: rest).getLast (by simp)) := ha _ (by
      have := List.getLast_mem (l := a :: rest) (by simp)
      exact List.mem_cons_of_mem _ this)
    refine .ite ?_ .throwBase
    split
    · exact .extend .throwBase
    · rename_i xs hxs
      refine .applyTo hc he (ha f (by simp)) fun v hv => ?_
      rcases List.mem_append.1 hv with hv | hv
      · exact ha v (List.mem_cons_of_mem _ (List.dropLast_subset _ hv))
      · exact vok_toList? hl hxs v hv
  · exact .throwBase

theorem Safe.evalExprs (hc : SafeAll call) {p : Bool} {e : Nat} (gs : List Val) :
    ∀ {n : Nat}, e < n → (∀ g ∈ gs, VOk n g) → Safe n TQ (evalExprs call p e gs) := by
  induction gs with
  | nil => intro n _ _; exact .pure fun _ _ => trivial
  | cons g gs ih =>
    intro n he hg
    refine .bind (.attempt (hc n _ ⟨hg g (by simp), he⟩)) fun k w hk hw => ?_
    have hrest : ∀ k', k ≤ k' → Safe k' TQ (L1.evalExprs call p e gs) := fun k' hk' =>
      ih (by omega) fun x hx => (hg x (by simp [hx])).mono (by omega)
    cases w with
    | error er => exact .ite (.bind .printM fun k' _ hk' _ => .throwErr (EOk.mono hk' hw)) (.throwErr hw)
    | ok v => exact .ite (.bind .printM fun k' _ hk' _ => hrest k' hk') (hrest k (Nat.le_refl _))

theorem Safe.lexParseEval (hc : SafeAll call) {text : List Char} {n e : Nat} (he : e < n) :
    Safe n TQ (lexParseEval call text e) :=
  .bind (.liftParse ((parse_noLam _).2.2.1 _)) fun k gs hk hgs => .evalExprs hc gs (by omega) hgs

theorem Safe.loadFile (hc : SafeAll call) {name : String} {n e : Nat} (he : e < n) :
    Safe n TQ (loadFile W call name e) := by
  refine .bind (Q := TQ) (.askM fun _ _ _ => trivial) fun k x hk _ => ?_
  cases x with
  | error m => exact .throwForeign
  | ok t => exact .lexParseEval hc (by omega)

theorem Safe.sortByLess (hc : SafeAll call) {f a b : Val} {n e : Nat} (he : e < n) (hf : VOk n f) (ha : VOk n a)
    (hb : VOk n b) : Safe n TQ (sortByLess call f e a b) := by
  have hargs : ∀ k w, n ≤ k → VOk n w → ∀ z ∈ [f, vlist [w]], VOk k z := by
    intro k w hk hw z hz
    simp at hz
    rcases hz with rfl | rfl
    · exact hf.mono hk
    · exact ⟨hw.mono hk, trivial⟩
  refine .bind (.applyFn hc he (hargs n a (Nat.le_refl _) ha)) fun k va hk hva => ?_
  refine .bind (.applyFn hc (by omega) (hargs k b hk hb)) fun k' vb hk' hvb => ?_
  refine .ite .throwBase ?_
  split
  · exact .pure fun _ _ => trivial
  · exact .pure fun _ _ => trivial
  · exact .throwBase

/-- Postcondition of the sorting loops. -/
abbrev SQ : Nat → List Val × Option Err → Prop := fun n r => (∀ x ∈ r.1, VOk n x) ∧ (∀ x, r.2 = some x → EOk n x)

theorem Safe.sortRun (hc : SafeAll call) {f : Val} {e : Nat} (t : Sorter) :
    ∀ {n : Nat} {xs : List Val} {er : Option Err}, e < n → VOk n f → (∀ y ∈ xs, VOk n y) →
      (∀ z, er = some z → EOk n z) → Safe n SQ (sortRun call f e t xs er) := by
  induction t with
  | done =>
    intro n xs er he hf ha her
    exact .pure fun k hk => ⟨fun y hy => (ha y hy).mono hk, fun z hz => (her z hz).mono hk⟩
  | swap i j next ih =>
    intro n xs er he hf ha her
    exact ih he hf (fun y hy => ha y ((swapAt_perm xs i j).subset hy)) her
  | less i j yes no ihy ihn =>
    intro n xs er he hf ha her
    simp only [L1.sortRun]
    split
    · rename_i a b hx hy
      refine .bind (.attempt (.sortByLess hc he hf (ha a (List.mem_of_getElem? hx)) (ha b (List.mem_of_getElem? hy)))) fun k w hk hw => ?_
      have ha' : ∀ y ∈ xs, VOk k y := fun y hy => (ha y hy).mono hk
      have her' : ∀ z, er = some z → EOk k z := fun z hz => (her z hz).mono hk
      split
      · exact ihn (by omega) (hf.mono hk) ha' fun z hz => by injection hz with hz; subst hz; exact hw
      · exact ihy (by omega) (hf.mono hk) ha' her'
      · exact ihn (by omega) (hf.mono hk) ha' her'
    · exact ihn he hf ha her

theorem Safe.bSortBy (hc : SafeAll call) {args : List Val} {n e : Nat} (he : e < n)
    (ha : ∀ a ∈ args, VOk n a) : Safe n VQ (bSortBy W call args e) := by
  unfold L1.bSortBy
  split
  · rename_i f l
    refine .ite ?_ .throwBase
    split
    · exact .extend .throwBase
    · rename_i xs hxs
      refine .bind (.sortRun hc _ he (ha f (by simp)) (vok_toList? (ha l (by simp)) hxs) (by intro z hz; cases hz)) fun k r hk hr => ?_
      split
      · refine .pureV (vok_vlist.2 hr.1)
      · rename_i er her
        exact .throwErr (hr.2 er her)
  · exact .throwBase

theorem examplesOf_vok {n : Nat} (v w : Val) (hv : VOk n v) (h : examplesOf v = some w) : VOk n w := by
  induction v with
  | cons a d _ ih =>
    unfold examplesOf at h
    split at h
    · split at h
      · injection h with h; subst h; exact hv.1.2
      · cases h
    · split at h
      · exact ih hv.2 h
      · cases h
    · injection h with h; subst h; trivial
  | _ => simp only [examplesOf, Option.some.injEq] at h; subst h; trivial

theorem Safe.runExamples (hc : SafeAll call) {e : Nat} (v : Val) :
    ∀ {n : Nat}, e < n → VOk n v → Safe n TQ (runExamples call e v) := by
  induction v with
  | cons a d _ ih =>
    intro n he hv
    exact .ite (.pure fun _ _ => trivial) (.bind (.attempt (hc n _ ⟨hv.1, he⟩)) fun k w hk hw =>
      .bind (ih (by omega) (hv.2.mono hk)) fun _ _ _ _ => .pure fun _ _ => trivial)
  | _ => intro n _ _; exact .pure fun _ _ => trivial

/-- The documentation and arguments of a record refer to existing scopes. -/
abbrev FQ : Nat → List FormRec → Prop := fun n fs => ∀ f ∈ fs, VOk n f.doc ∧ VOk n f.args

theorem biDoc_noLam (b : BI) : (biDoc b).examples.all noLam = true ∧ noLam (biDoc b).args = true := by
  cases b <;> exact ⟨rfl, rfl⟩

theorem Safe.formsOfBuiltins (hc : SafeAll call) {e : Nat} (bs : List BI) :
    ∀ {n : Nat}, e < n → Safe n FQ (formsOfBuiltins W call e bs) := by
  induction bs with
  | nil => intro n _; exact .pure fun _ _ x hx => by cases hx
  | cons b bs ih =>
    intro n he
    have hd := biDoc_noLam b
    refine .bind (.runExamples hc _ he (noLam_vok (by rw [noLam_vlist]; exact hd.1) n)) fun k _ hk _ => ?_
    refine .bind (ih (by omega)) fun k' r hk' hr => ?_
    refine .pure fun k'' hk'' f hf => ?_
    rcases List.mem_cons.1 hf with rfl | hf
    · exact ⟨⟨vok_atomList _ _, trivial⟩, noLam_vok hd.2 _⟩
    · exact ⟨(hr f hf).1.mono hk'', (hr f hf).2.mono hk''⟩

theorem Safe.formsOfKeys (hc : SafeAll call) {e : Nat} (ks : List String) :
    ∀ {n : Nat}, e < n → Safe n FQ (formsOfKeys call e ks) := by
  induction ks with
  | nil => intro n _; exact .pure fun _ _ x hx => by cases hx
  | cons x ks ih =>
    intro n he
    refine .bind (.lookupM _ _) fun k o hk ho => ?_
    split
    · rename_i ps r body doc m env
      have hv := ho _ rfl
      refine .ite ?_ (ih (by omega))
      split
      · exact .crash
      · rename_i ex hex
        refine .bind (.runExamples hc _ (by omega) (examplesOf_vok _ _ hv.2.2 hex)) fun k1 _ hk1 _ => ?_
        refine .bind (ih (by omega)) fun k2 fs hk2 hfs => ?_
        refine .pure fun k3 hk3 f hf => ?_
        rcases List.mem_cons.1 hf with rfl | hf
        · refine ⟨hv.2.2.mono (by omega), ?_⟩
          show VOk k3 (if r ≠ "" then combineArgs ps (.atom r) else vlist (ps.map .atom))
          split
          · exact vok_combineArgs _ _ _ trivial
          · rw [vok_vlist]; intro y hy; obtain ⟨_, _, rfl⟩ := List.mem_map.1 hy; trivial
        · exact ⟨(hfs f hf).1.mono hk3, (hfs f hf).2.mono hk3⟩
    · exact ih (by omega)

theorem Safe.shuffleLoop {α : Type} {n : Nat} {P : α → Prop} (i : Nat) :
    ∀ (xs : List α), (∀ x ∈ xs, P x) → Safe n (fun _ ys => ∀ y ∈ ys, P y) (shuffleLoop W i xs) := by
  induction i with
  | zero => intro xs h; exact .pure fun _ _ => h
  | succ i ih =>
    intro xs h
    refine .bind (Q := TQ) (.askM fun _ _ _ => trivial) fun k r hk _ => (ih _ ?_).mono hk
    intro x hx
    unfold swapAt at hx
    split at hx
    · rename_i a b ha hb
      rcases List.mem_or_eq_of_mem_set hx with hx | rfl
      · rcases List.mem_or_eq_of_mem_set hx with hx | rfl
        · exact h x hx
        · exact h _ (List.mem_of_getElem? hb)
      · exact h _ (List.mem_of_getElem? ha)
    · exact h x hx

theorem Safe.mapOrder {α : Type} {n : Nat} {xs : List α} : Safe n TQ (mapOrder W xs) :=
  (Safe.shuffleLoop (P := fun _ => True) _ xs (fun _ _ => trivial)).weaken fun _ _ _ _ => trivial

theorem Safe.mapOrders {n : Nat} (ks : List (List String)) : Safe n TQ (mapOrders W ks) := by
  induction ks generalizing n with
  | nil => exact .pure fun _ _ => trivial
  | cons k ks ih => exact .bind .mapOrder fun _ _ _ _ => .bind ih fun _ _ _ _ => .pure fun _ _ => trivial

theorem insertForm_mem {P : FormRec → Prop} (x : FormRec) (ys : List FormRec) (hx : P x) (h : ∀ y ∈ ys, P y) :
    ∀ y ∈ insertForm x ys, P y := by
  induction ys with
  | nil => intro y hy; simp [insertForm] at hy; subst hy; exact hx
  | cons z zs ih =>
    intro y hy
    simp only [insertForm] at hy
    split at hy
    · rcases List.mem_cons.1 hy with rfl | hy
      · exact hx
      · exact h y hy
    · rcases List.mem_cons.1 hy with rfl | hy
      · exact h _ (by simp)
      · exact ih (fun w hw => h w (by simp [hw])) y hy

theorem foldl_insertForm_mem {P : FormRec → Prop} (xs acc : List FormRec) (hx : ∀ x ∈ xs, P x) (ha : ∀ y ∈ acc, P y) :
    ∀ y ∈ xs.foldl (fun acc x => insertForm x acc) acc, P y := by
  induction xs generalizing acc with
  | nil => exact ha
  | cons x xs ih =>
    exact ih _ (fun y hy => hx y (by simp [hy])) (insertForm_mem x acc (hx x (by simp)) ha)

theorem specialRecs_ok (n : Nat) : ∀ f ∈ specialRecs, VOk n f.doc ∧ VOk n f.args := by
  have h : specialDocs.all (fun x => noLam x.2.2.2.2) = true := rfl
  intro f hf
  obtain ⟨⟨nm, a, m, d, g⟩, hx, rfl⟩ := List.mem_map.1 hf
  exact ⟨⟨vok_atomList _ _, trivial⟩, noLam_vok (List.all_eq_true.1 h _ hx) n⟩

attribute [local irreducible] L1.mapOrder in
theorem Safe.availableForms (hc : SafeAll call) {n e : Nat} (he : e < n) : Safe n FQ (availableForms W call e) := by
  unfold L1.availableForms
  refine Safe.bind (Q := TQ) Safe.mapOrder ?_
  intro k bs hk _
  refine Safe.bind (Safe.formsOfBuiltins hc bs (by omega)) ?_
  intro k1 fb hk1 hfb
  refine Safe.bind (Q := TQ) Safe.envKeysM ?_
  intro k2 ks hk2 _
  refine Safe.bind (Q := TQ) (Safe.mapOrders ks) ?_
  intro k3 ks' hk3 _
  refine Safe.bind (Safe.formsOfKeys hc ks' (by omega)) ?_
  intro k4 fk hk4 hfk
  refine Safe.pure ?_
  intro k5 hk5
  refine foldl_insertForm_mem _ _ ?_ (by intro y hy; cases hy)
  intro f hf
  rcases List.mem_append.1 hf with hf | hf
  · rcases List.mem_append.1 hf with hf | hf
    · exact specialRecs_ok k5 f hf
    · exact ⟨(hfb f hf).1.mono (by omega), (hfb f hf).2.mono (by omega)⟩
  · exact ⟨(hfk f hf).1.mono hk5, (hfk f hf).2.mono hk5⟩

end

end L1
