import Verif.Lemmas.InvDoc
import Verif.Model.Watch
/- The invariant is preserved by every run. -/
set_option autoImplicit false
namespace L1

section
variable {W : World} {call tail : Task → M Val}

/-! ### Native functions -/

theorem safe_addLoop {n : Nat} (args : List Val) : ∀ k, Safe n VQ (bAddLoop k args) := by
  induction args with
  | nil => intro k; exact .pureV trivial
  | cons a as ih => intro k; cases a <;> first | exact ih _ | exact .throwBase

theorem safe_subLoop {n : Nat} (args : List Val) : ∀ k, Safe n VQ (bSubLoop k args) := by
  induction args with
  | nil => intro k; exact .pureV trivial
  | cons a as ih => intro k; cases a <;> first | exact ih _ | exact .throwBase

theorem safe_mulLoop {n : Nat} (args : List Val) : ∀ k, Safe n VQ (bMulLoop k args) := by
  induction args with
  | nil => intro k; exact .pureV trivial
  | cons a as ih => intro k; cases a <;> first | exact ih _ | exact .throwBase

theorem safe_divLoop {n : Nat} (args : List Val) : ∀ k, Safe n VQ (bDivLoop k args) := by
  induction args with
  | nil => intro k; exact .pureV trivial
  | cons a as ih =>
    intro k
    unfold bDivLoop
    refine .ite .throwBase ?_
    split
    · exact ih _
    · exact .throwBase

theorem safe_cmpLoop {n : Nat} (cmp : Int → Int → Bool) (args : List Val) : ∀ k, Safe n VQ (bCmpLoop cmp k args) := by
  induction args with
  | nil => intro k; exact .pureV trivial
  | cons a as ih => intro k; cases a <;> first | exact .ite (ih _) (.pureV trivial) | exact .throwBase

theorem safe_cmp {n : Nat} (cmp : Int → Int → Bool) (args : List Val) : Safe n VQ (bCmp cmp args) := by
  unfold bCmp
  split
  · exact .throwBase
  · exact safe_cmpLoop _ _ _
  · exact .throwBase

theorem safe_lenLoop {n : Nat} (v : Val) : ∀ k, Safe n VQ (bLenLoop k v) := by
  induction v with
  | nil => intro k; exact .pureV trivial
  | cons a d _ ih => intro k; exact ih _
  | _ => intro k; exact .crash

theorem listOfNums_vok {n : Nat} (W : World) (cs : List Char) : ∀ v, listOfNums W cs = some v → VOk n v := by
  fun_induction listOfNums W cs with
  | case1 => intro v h; injection h with h; subst h; trivial
  | case2 => intro v h; cases h
  | case3 c cs ih =>
    intro v h
    obtain ⟨w, hw, rfl⟩ := Option.map_eq_some_iff.1 h
    exact ⟨trivial, ih w hw⟩
  | case4 c cs _ _ ih =>
    intro v h
    obtain ⟨w, hw, rfl⟩ := Option.map_eq_some_iff.1 h
    exact ⟨trivial, ih w hw⟩

theorem foldl_insertSorted_mem {P : Val → Prop} (lt : Val → Val → Bool) (xs acc : List Val) (hx : ∀ x ∈ xs, P x)
    (ha : ∀ y ∈ acc, P y) : ∀ y ∈ xs.foldl (fun acc x => insertSorted lt x acc) acc, P y := by
  induction xs generalizing acc with
  | nil => exact ha
  | cons x xs ih =>
    refine ih _ (fun y hy => hx y (by simp [hy])) ?_
    clear ih
    induction acc with
    | nil => intro y hy; simp [insertSorted] at hy; subst hy; exact hx _ (by simp)
    | cons z zs ih2 =>
      intro y hy
      simp only [insertSorted] at hy
      split at hy
      · rcases List.mem_cons.1 hy with rfl | hy
        · exact hx _ (by simp)
        · exact ha y hy
      · rcases List.mem_cons.1 hy with rfl | hy
        · exact ha _ (by simp)
        · exact ih2 (fun w hw => ha w (by simp [hw])) y hy

theorem safe_sort {n : Nat} {args : List Val} (ha : ∀ a ∈ args, VOk n a) : Safe n VQ (bSort args) := by
  unfold bSort
  split
  · rename_i v
    refine .ite ?_ .throwBase
    split
    · rename_i xs hxs
      have h := vok_toList? (ha v (by simp)) hxs
      have hs : Safe n VQ (pure (vlist (insertionSort sortLess xs)) : M Val) :=
        .pureV (vok_vlist.2 (foldl_insertSorted_mem _ xs [] h (by simp)))
      unfold bSortList
      split
      · exact .pureV trivial
      · split
        · exact .throwBase
        · split
          · exact hs
          · exact hs
          · exact .throwBase
    · exact .extend .throwBase
  · exact .throwBase

theorem safe_shuffle {n : Nat} {args : List Val} (ha : ∀ a ∈ args, VOk n a) : Safe n VQ (bShuffle W args) := by
  unfold bShuffle
  split
  · rename_i v
    refine .ite ?_ .throwBase
    split
    · rename_i xs hxs
      refine .bind (.shuffleLoop (P := VOk n) _ xs (vok_toList? (ha v (by simp)) hxs)) fun k ys hk hys => ?_
      exact .pureV (vok_vlist.2 fun y hy => (hys y hy).mono hk)
    · exact .extend .throwBase
  · exact .throwBase

theorem safe_shell {n : Nat} {v : Val} : Safe n VQ (doShell W v) := by
  unfold doShell
  split
  · exact .throwBase
  · exact .throwBase
  · refine .bind (Q := TQ) (.askM fun _ _ _ => trivial) fun k x hk _ => ?_
    split
    · exact .throwBase
    · refine .pureV (vok_vlist.2 ?_)
      have hshape : ∀ cs, VOk k (shapeOutput cs) := by
        intro cs; unfold shapeOutput; rw [vok_vlist]
        intro y hy; obtain ⟨_, _, rfl⟩ := List.mem_map.1 hy; exact vok_atomList _ _
      simp [hshape, VOk]

theorem safe_needScreen {α : Type} {n : Nat} {Q : Nat → α → Prop} {m : M α} (h : Safe n Q m) : Safe n Q (needScreen m) :=
  .bind .getScreenM fun _ _ hk _ => .ite (h.mono hk) .throwBase

theorem safe_termStart {n : Nat} : Safe n TQ (termStart W) := by
  refine .bind .getScreenM fun k b hk _ => .ite .throwBase ?_
  refine .bind (Q := TQ) (.askM fun _ _ _ => trivial) fun k' x hk' _ => ?_
  split
  · exact .bind .setScreenM fun _ _ _ _ => .actsM
  · exact .bind .setScreenM fun _ _ _ _ => .extend .throwForeign
  · exact .bind .setScreenM fun _ _ _ _ => .extend .throwForeign

theorem safe_pred {n : Nat} (nm : String) (p : Val → Bool) (args : List Val) : Safe n VQ (bPred nm p args) := by
  unfold bPred
  split
  · exact .pureV (vok_vBool _ _)
  · exact .throwBase

attribute [local irreducible] L1.availableForms in
theorem Safe.bForms (hc : SafeAll call) {n e : Nat} (he : e < n) : Safe n VQ (bForms W call e) := by
  unfold L1.bForms
  refine Safe.bind (Q := FQ) (.extend (.extend (.availableForms hc he))) ?_
  intro k fs hk hfs
  refine .pureV (vok_vlist.2 fun x hx => ?_)
  obtain ⟨f, hf, rfl⟩ := List.mem_map.1 hx
  unfold formVal
  rw [vok_vlist]
  simp [VOk, vok_vBool, hfs f hf]

attribute [local irreducible] L1.availableForms in
theorem Safe.bHelp (hc : SafeAll call) {n e : Nat} (he : e < n) : Safe n VQ (bHelp W call e) := by
  unfold L1.bHelp
  refine Safe.bind (Q := FQ) (.availableForms hc he) ?_
  intro k fs hk hfs
  split
  · exact .crash
  · exact .bind .printM fun _ _ _ _ => .pureV trivial

attribute [local irreducible] L1.bForms L1.bHelp in
theorem Safe.biFn (hc : SafeAll call) {b : BI} {args : List Val} {n e : Nat} (he : e < n)
    (ha : ∀ a ∈ args, VOk n a) : Safe n VQ (biFn W call b args e) := by
  cases b <;> simp only [L1.biFn]
  case add => exact safe_addLoop _ _
  case sub =>
    unfold bSub
    split
    · exact .throwBase
    · exact .pureV trivial
    · exact safe_subLoop _ _
    · exact .throwBase
  case mul => exact safe_mulLoop _ _
  case div =>
    unfold bDiv
    split
    · exact .throwBase
    · exact safe_divLoop _ _
    · exact .throwBase
  case eq =>
    unfold bEq
    split
    · exact .throwBase
    · exact .pureV (vok_vBool _ _)
  case rem =>
    unfold bRem
    split
    · exact .ite .throwBase (.pureV trivial)
    all_goals exact .throwBase
  case lt => exact safe_cmp _ _
  case le => exact safe_cmp _ _
  case gt => exact safe_cmp _ _
  case ge => exact safe_cmp _ _
  case apply => exact .applyFn hc he ha
  case atomP => exact safe_pred _ _ _
  case body =>
    unfold bBody
    split
    · exact .pureV (ha _ List.mem_cons_self).2.1
    all_goals exact .throwBase
  case car =>
    unfold bCar
    split
    · exact .pureV trivial
    · exact .pureV (ha _ List.mem_cons_self).1
    all_goals exact .throwBase
  case cdr =>
    unfold bCdr
    split
    · exact .pureV trivial
    · exact .pureV (ha _ List.mem_cons_self).2
    all_goals exact .throwBase
  case cons =>
    split
    · exact .pureV ⟨ha _ (by simp), ha _ (by simp)⟩
    · exact .throwBase
  case doc =>
    unfold bDoc
    split
    · exact .pureV (ha _ List.mem_cons_self).2.2
    · exact .pureV (vok_atomList _ _)
    all_goals exact .throwBase
  case downcase =>
    split
    · exact .pureV trivial
    all_goals exact .throwBase
  case eval =>
    unfold bEval
    split
    · exact hc n _ ⟨ha _ List.mem_cons_self, he⟩
    · exact .throwBase
  case exit => exact .exitM
  case forms => exact .bForms hc he
  case fuse =>
    unfold bFuse
    split
    · exact .pureV trivial
    · split
      · exact .crash
      · split
        · exact .pureV trivial
        · exact .ite (.pureV trivial) (.pureV trivial)
    all_goals exact .throwBase
  case gensym =>
    unfold bGensym
    split
    · exact .gensymM
    · exact .gensymM
    all_goals exact .throwBase
  case help => exact .bHelp hc he
  case isqrt =>
    unfold bIsqrt
    split
    · exact .ite .crash (.pureV trivial)
    all_goals exact .throwBase
  case len =>
    unfold bLen
    split
    · exact .ite (safe_lenLoop _ _) .throwBase
    · exact .throwBase
  case list => exact .pureV (vok_vlist.2 ha)
  case listP => exact safe_pred _ _ _
  case load =>
    unfold bLoad
    split
    · exact .bind (.extend (.loadFile hc he)) fun _ _ _ _ => .pureV trivial
    all_goals exact .throwBase
  case macroexpand1 =>
    unfold bMacroexpand1
    split
    · exact .mexpand1 hc he (ha _ List.mem_cons_self)
    · exact .throwBase
  case not => exact safe_pred _ _ _
  case numberP => exact safe_pred _ _ _
  case print => exact .bind .printM fun _ _ _ _ => .pureV trivial
  case println => exact .bind .printM fun _ _ _ _ => .pureV trivial
  case printl =>
    split
    · exact .ite (.bind .printM fun _ _ _ _ => .pureV trivial) .throwBase
    · exact .throwBase
  case randint =>
    unfold bRandint
    split
    · refine .ite .throwBase (.ite .crash ?_)
      exact .bind (Q := TQ) (.askM fun _ _ _ => trivial) fun _ _ _ _ => .pureV trivial
    all_goals exact .throwBase
  case readlist =>
    refine .bind (.extend .readLineM) fun k l hk _ => ?_
    refine .bind (.extend (.liftParse ((parse_noLam _).2.2.1 _))) fun k' vs hk' hvs => .pureV (vok_vlist.2 hvs)
  case screenStart => exact .bind (.extend safe_termStart) fun _ _ _ _ => .pureV trivial
  case screenEnd =>
    exact .bind (.bind .getScreenM fun _ _ _ _ => .ite (.bind .actsM fun _ _ _ _ => .setScreenM) (.pure fun _ _ => trivial)) fun _ _ _ _ => .pureV trivial
  case screenSize =>
    refine .bind (.extend (safe_needScreen (Q := TQ) (.askM fun _ _ _ => trivial))) fun k wh hk _ => ?_
    exact .pureV (vok_vlist.2 (by simp [VOk]))
  case screenClear =>
    exact .bind (.extend (safe_needScreen (Q := TQ) .actsM)) fun _ _ _ _ => .pureV trivial
  case screenGetKey =>
    split
    · exact .bind (.extend (safe_needScreen (Q := TQ) (.askM fun _ _ _ => trivial))) fun _ _ _ _ => .pureV trivial
    · exact .throwBase
  case screenWrite =>
    unfold bScreenWrite
    split
    · split
      · refine .ite ?_ .throwBase
        exact .bind (.extend (safe_needScreen (Q := TQ) .actsM)) fun _ _ _ _ => .pureV trivial
      all_goals exact .throwBase
    · exact .throwBase
  case shell =>
    split
    · exact safe_shell
    · exact .throwBase
  case shuffle => exact safe_shuffle ha
  case sleep =>
    unfold bSleep; split
    · exact .bind .actsM fun _ _ _ _ => .pureV trivial
    all_goals exact .throwBase
  case sort => exact safe_sort ha
  case sortBy => exact .bSortBy hc he ha
  case source =>
    unfold bSource
    split
    · exact .throwBase
    · exact .pureV (vok_sourceOf _ _ _ _ (ha _ List.mem_cons_self).2.1)
    all_goals exact .throwBase
  case split =>
    unfold bSplit
    split
    · refine .pureV (vok_vlist.2 fun x hx => ?_)
      obtain ⟨_, _, rfl⟩ := List.mem_map.1 hx; trivial
    · split
      · rename_i v hv
        exact .pureV (listOfNums_vok W _ v hv)
      · exact .throwBase
    all_goals exact .throwBase
  case upcase =>
    split
    · exact .pureV trivial
    all_goals exact .throwBase
  case version => exact .pureV (noLam_vok rfl _)

theorem Safe.runStep (hc : SafeAll call) (ht : SafeAll tail) : SafeAll (runStep W call tail) := by
  intro n t htk
  cases t with
  | eval x e => exact .evalStep hc ht htk.2 htk.1
  | mexpand x e =>
    refine .bind (.extend (.mexpand1 hc htk.2 htk.1)) fun k r hk hr => ?_
    refine .bind (.isMacroCallM r e) fun k' b hk' _ => ?_
    have := htk.2
    exact .ite (ht k' _ ⟨hr.mono hk', by omega⟩) (.pureV (hr.mono hk'))
  | loop body e =>
    refine .bind (.evLoopBody hc body htk.2 htk.1) fun k _ hk _ => ht k _ ⟨htk.1.mono hk, ?_⟩
    have := htk.2; omega
  | builtin b args e => exact .biFn hc htk.2 htk.1

end

/-- The invariant is preserved by every run, with any budgets. -/
theorem run_safe (W : World) (n d : Nat) : SafeAll (run W n d) := by
  induction n generalizing d with
  | zero => intro k t _; exact .oof
  | succ n ih =>
    intro k t ht
    rw [run_succ]
    refine Safe.runStep ?_ (ih d) k t ht
    cases d with
    | zero => intro k t _ s hs _; exact ⟨hs, .refl s⟩
    | succ d => exact ih d

theorem TaskOk.mono {n m : Nat} (h : n ≤ m) {t : Task} (ht : TaskOk n t) : TaskOk m t := by
  cases t with
  | builtin b args e => exact ⟨fun a ha => (ht.1 a ha).mono h, Nat.lt_of_lt_of_le ht.2 h⟩
  | _ => exact ⟨ht.1.mono h, Nat.lt_of_lt_of_le ht.2 h⟩

/-- Checks that follow from the invariant. -/
structure WatchOk (P : Watch) : Prop where
  pre : ∀ t s, Inv s → TaskOk s.heap.length t → P.pre t s
  post : ∀ t s r, Inv s → TaskOk s.heap.length t → ROk s VQ r → P.post t s r

theorem watched_safe {P : Watch} (hP : WatchOk P) {f : Task → M Val} (hf : SafeAll f) : SafeAll (watched P f) := by
  intro n t ht s hs hn
  have htk := ht.mono hn
  have hr := hf n t ht s hs hn
  unfold watched
  rw [if_pos (hP.pre t s hs htk), if_pos (hP.post t s _ hs htk hr)]
  exact hr

theorem runWatched_safe (W : World) {P : Watch} (hP : WatchOk P) (n d : Nat) : SafeAll (runWatched W P n d) := by
  induction n generalizing d with
  | zero => intro k t _; exact .oof
  | succ n ih =>
    refine watched_safe hP (Safe.runStep ?_ (ih d))
    cases d with
    | zero => intro k t _ s hs _; exact ⟨hs, .refl s⟩
    | succ d => exact ih d

/-! ### The program -/

theorem groupLines_rest (ls : List (List Char)) : ∀ ts, match groupLines ts ls with
    | .complete _ rest => ∃ l, ls = l ++ rest
    | .tooMany rest => ∃ l, ls = l ++ rest
    | .eof => True := by
  induction ls with
  | nil => intro ts; trivial
  | cons l ls ih =>
    intro ts
    unfold groupLines
    simp only []
    split
    · rename_i rest h
      split at h
      · cases h
      · injection h with h1 h2; subst h2; exact ⟨[l], rfl⟩
      · have := ih (ts ++ lexItems [l])
        rw [h] at this
        obtain ⟨l', rfl⟩ := this
        exact ⟨l :: l', rfl⟩
    · rename_i rest h
      split at h
      · injection h with h1; subst h1; exact ⟨[l], rfl⟩
      · cases h
      · have := ih (ts ++ lexItems [l])
        rw [h] at this
        obtain ⟨l', rfl⟩ := this
        exact ⟨l :: l', rfl⟩
    · trivial

section
variable {W : World} {call : Task → M Val}

/-- `setInpM` after printing the prompt, from the state `s` whose input ends with `rest`. -/
theorem setInp_ok {s s1 : St} {rest : List (List Char)} (hs : Inv s1) (he : Ext s s1) (hi : s1.inp = s.inp)
    (hr : ∃ l, s.inp = l ++ rest) : Inv { s1 with inp := rest } ∧ Ext s { s1 with inp := rest } :=
  ⟨⟨hs.heap, ⟨hs.issued.1, hs.issued.2⟩⟩, ⟨he.heap, he.out, he.gensym, hr, he.tick, he.issued, he.acts⟩⟩

theorem Safe.replTurn (hc : SafeAll call) {n e : Nat} (he : e < n) : Safe n TQ (replTurn call e) := by
  intro s hs hn
  unfold L1.replTurn
  rw [M.bind_ok (printM_run _ _)]
  have h1 : ROk s TQ (L1.printM "> ".toList s) := Safe.printM (n := n) s hs hn
  obtain ⟨hs1, he1, _⟩ := h1
  have hg := groupLines_rest s.inp []
  cases hgl : groupLines [] s.inp with
  | eof =>
    simp only [M.bind_ok (setInpM_run _ _)]
    have h := setInp_ok hs1 he1 rfl ⟨s.inp, (List.append_nil _).symm⟩
    exact (Safe.bind .printM (fun _ _ _ _ => .pure fun _ _ => trivial) _ h.1
      (Nat.le_trans hn h.2.heap.len)).trans h.2
  | tooMany rest =>
    rw [hgl] at hg
    simp only [M.bind_ok (setInpM_run _ _)]
    have h := setInp_ok hs1 he1 rfl hg
    exact (Safe.bind .printM (fun _ _ _ _ => .pure fun _ _ => trivial) _ h.1
      (Nat.le_trans hn h.2.heap.len)).trans h.2
  | complete ts rest =>
    rw [hgl] at hg
    simp only [M.bind_ok (setInpM_run _ _)]
    have h := setInp_ok hs1 he1 rfl hg
    have hp := (parse_noLam (4 * ts.length + 4)).2.2.1 ts
    refine ROk.trans h.2 ?_
    have hn' : n ≤ ({ s with out := s.out ++ "> ".toList, inp := rest } : St).heap.length := hn
    revert hn'
    generalize hs2 : ({ s with out := s.out ++ "> ".toList, inp := rest } : St) = s2
    intro hn'
    have hs2i : Inv s2 := hs2 ▸ h.1
    cases hpt : parseTop ts with
    | ok exprs =>
      have hp' : ∀ x ∈ exprs, VOk n x := by
        have : PNoLam (fun r : List Val => r.all noLam = true) (parseTop ts) := hp
        rw [hpt] at this
        exact fun x hx => noLam_vok (List.all_eq_true.1 this x hx) n
      exact Safe.bind (.attempt (.evalExprs hc exprs he hp')) (fun _ _ _ _ => .pure fun _ _ => trivial) s2 hs2i hn'
    | err er => exact Safe.bind .printM (fun _ _ _ _ => .pure fun _ _ => trivial) s2 hs2i hn'
    | crash => exact Safe.crash (n := n) (by decide) s2 hs2i hn'
    | fuel => trivial

theorem Safe.repl (hc : SafeAll call) {e : Nat} (k : Nat) : ∀ {n : Nat}, e < n → Safe n TQ (repl call e k) := by
  induction k with
  | zero => intro n _; exact .oof
  | succ k ih =>
    intro n he
    exact .bind (.replTurn hc he) fun m b hm _ => .ite (ih (by omega)) (.pure fun _ _ => trivial)

theorem Safe.runFiles (hc : SafeAll call) {e : Nat} (fs : List String) :
    ∀ {n : Nat}, e < n → Safe n TQ (runFiles W call e fs) := by
  induction fs with
  | nil => intro n _; exact .pure fun _ _ => trivial
  | cons f fs ih =>
    intro n he
    refine .bind (.attempt (.loadFile hc he)) fun m r hm hr => ?_
    cases r with
    | error er => exact .bind .printM fun _ _ _ _ => .exitM
    | ok _ => exact ih (by omega)

theorem Safe.mainWith (hc : SafeAll call) {k n : Nat} (hn : 0 < n) {core : List Char} {expr : Option (List Char)}
    {files : List String} : Safe n TQ (mainWith W call k core expr files) := by
  refine .bind (.attempt (.lexParseEval hc hn)) fun m r hm _ => ?_
  cases r with
  | error er => exact .bind .printM fun _ _ _ _ => .exitM
  | ok _ =>
    cases expr with
    | some text =>
      refine .bind (.attempt (.lexParseEval hc (by omega))) fun m' r' hm' _ => ?_
      cases r' with
      | error er => exact .bind .printM fun _ _ _ _ => .exitM
      | ok _ => exact .exitM
    | none =>
      cases files with
      | nil => exact .repl hc _ (by omega)
      | cons f fs => exact .runFiles hc _ (by omega)

end

theorem initSt_inv (inp : List (List Char)) : Inv (initSt inp) := by
  refine ⟨⟨by simp [initSt], ?_, ?_, ?_⟩, ⟨by simp [initSt], by simp [initSt]⟩⟩
  · intro i f hf
    cases i with
    | zero => injection hf with hf; subst hf; rfl
    | succ i => cases hf
  · intro i f hf
    cases i with
    | succ i => cases hf
    | zero =>
      injection hf with hf
      subst hf
      have h : ∀ p ∈ initGlobals.syms, noLam p.2 = true := by decide
      exact fun b hb => noLam_vok (h b hb) _
  · intro i f hf
    cases i with
    | succ i => cases hf
    | zero => injection hf with hf; subst hf; decide

/-- Checks that follow from the invariant succeed at every point of every execution of the program. -/
theorem always_of_watchOk (W : World) {P : Watch} (hP : WatchOk P) : Always W P := by
  intro n d inp core expr files s h
  have := Safe.mainWith (W := W) (runWatched_safe W hP n d) (k := n) (n := 1) (by omega) (core := core) (expr := expr)
    (files := files) (initSt inp) (initSt_inv inp) (by simp [initSt])
  rw [h] at this
  exact this.1 rfl

/-- The whole program: its final state is good. -/
theorem mainProg_safe (W : World) (n d : Nat) (inp : List (List Char)) (core : List Char) (expr : Option (List Char))
    (files : List String) : ROk (initSt inp) TQ (mainProg W n d core expr files (initSt inp)) :=
  Safe.mainWith (W := W) (run_safe W n d) (k := n) (n := 1) (by omega) (initSt inp) (initSt_inv inp) (by simp [initSt])

end L1
