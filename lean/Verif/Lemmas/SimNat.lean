import Verif.Lemmas.SimRun
import Verif.Lemmas.Limit
/- The native functions, and every run, do the same on corresponding states. -/
set_option autoImplicit false
namespace L1

variable {R : Rn} {W : World} {c1 c2 t1 t2 : Task → M Val}

theorem sim_addLoop {n : Nat} (args : List Val) : ∀ k, Sim R n VQ (Val.ren R.ρ) (bAddLoop k args) (bAddLoop k (args.map (Val.ren R.ρ))) := by
  induction args with
  | nil => intro k; exact .pureV trivial
  | cons a as ih => intro k; cases a <;> first | exact ih _ | exact .throwBase (ren_fmt1 _ _ _)

theorem sim_subLoop {n : Nat} (args : List Val) : ∀ k, Sim R n VQ (Val.ren R.ρ) (bSubLoop k args) (bSubLoop k (args.map (Val.ren R.ρ))) := by
  induction args with
  | nil => intro k; exact .pureV trivial
  | cons a as ih => intro k; cases a <;> first | exact ih _ | exact .throwBase (ren_fmt1 _ _ _)

theorem sim_mulLoop {n : Nat} (args : List Val) : ∀ k, Sim R n VQ (Val.ren R.ρ) (bMulLoop k args) (bMulLoop k (args.map (Val.ren R.ρ))) := by
  induction args with
  | nil => intro k; exact .pureV trivial
  | cons a as ih => intro k; cases a <;> first | exact ih _ | exact .throwBase (ren_fmt1 _ _ _)

theorem sim_divLoop {n : Nat} (args : List Val) : ∀ k, Sim R n VQ (Val.ren R.ρ) (bDivLoop k args) (bDivLoop k (args.map (Val.ren R.ρ))) := by
  induction args with
  | nil => intro k; exact .pureV trivial
  | cons a as ih =>
    intro k
    simp only [List.map_cons, bDivLoop]
    refine .ite (by have := ren_equal (ρ := R.ρ) a (.num 0); simp only [Val.ren] at this; rw [this]) (fun _ => .throwBase) (fun _ => ?_)
    cases a <;> first | exact ih _ | exact .throwBase (ren_fmt1 _ _ _)

theorem sim_cmpLoop {n : Nat} (cmp : Int → Int → Bool) (args : List Val) :
    ∀ k, Sim R n VQ (Val.ren R.ρ) (bCmpLoop cmp k args) (bCmpLoop cmp k (args.map (Val.ren R.ρ))) := by
  induction args with
  | nil => intro k; exact .pureV trivial
  | cons a as ih =>
    intro k
    cases a <;> first | exact .ite Iff.rfl (fun _ => ih _) (fun _ => .pureV trivial) | exact .throwBase (ren_fmt1 _ _ _)

theorem sim_cmp {n : Nat} (cmp : Int → Int → Bool) (args : List Val) :
    Sim R n VQ (Val.ren R.ρ) (bCmp cmp args) (bCmp cmp (args.map (Val.ren R.ρ))) := by
  cases args with
  | nil => exact .throwBase
  | cons a as => cases a <;> first | exact sim_cmpLoop _ _ _ | exact .throwBase (ren_fmt1 _ _ _)

theorem sim_lenLoop {n : Nat} (v : Val) : ∀ k, Sim R n VQ (Val.ren R.ρ) (bLenLoop k v) (bLenLoop k (v.ren R.ρ)) := by
  induction v with
  | nil => intro k; exact .pureV trivial
  | cons a d _ ih => intro k; exact ih _
  | _ => intro k; exact .crash

theorem sim_sort {n : Nat} {args : List Val} (ha : ∀ a ∈ args, VOk n a) :
    Sim R n VQ (Val.ren R.ρ) (bSort args) (bSort (args.map (Val.ren R.ρ))) := by
  refine ⟨safe_sort ha, ?_⟩
  refine Sim.rel (Q := fun _ _ => True) ?_
  have hl : ∀ xs : List Val, Sim R n (fun _ _ => True) (Val.ren R.ρ) (bSortList xs) (bSortList (xs.map (Val.ren R.ρ))) := by
    intro xs
    cases xs with
    | nil => exact .pure (fun _ _ => trivial) rfl
    | cons x xs =>
      have hs : Sim R n (fun _ _ => True) (Val.ren R.ρ) (pure (vlist (insertionSort sortLess (x :: xs))) : M Val)
          (pure (vlist (insertionSort sortLess ((x :: xs).map (Val.ren R.ρ))))) :=
        .pure (fun _ _ => trivial) (by rw [ren_insertionSort, ren_vlist])
      simp only [List.map_cons] at hs ⊢
      simp only [bSortList, List.find?_map, Function.comp_def, ren_kind]
      cases xs.find? (fun y => y.kind != x.kind) with
      | some y => exact .throwBase (by simp)
      | none => cases x <;> first | exact hs | exact .throwBase (ren_fmt1 _ _ _)
  match args with
  | [] => exact .throwBase
  | [v] =>
    simp only [List.map_cons, List.map_nil, bSort, ren_isList, ren_toList?, ren_consToExprsErr]
    refine .ite Iff.rfl (fun _ => ?_) (fun _ => .throwBase)
    cases v.toList? with
    | none => exact .extend .throwBase
    | some xs => exact hl xs
  | _ :: _ :: _ => exact .throwBase

theorem sim_shuffle {n : Nat} {args : List Val} (ha : ∀ a ∈ args, VOk n a) :
    Sim R n VQ (Val.ren R.ρ) (bShuffle W args) (bShuffle W (args.map (Val.ren R.ρ))) := by
  match args, ha with
  | [], _ => exact .throwBase
  | [v], ha =>
    simp only [List.map_cons, List.map_nil, bShuffle, ren_isList, ren_toList?, ren_consToExprsErr]
    refine .ite Iff.rfl (fun _ => ?_) (fun _ => .throwBase)
    cases hxs : v.toList? with
    | none => exact .extend .throwBase
    | some xs =>
      simp only [Option.map_some, List.length_map]
      refine .bind (.shuffleLoop (P := VOk n) _ xs (vok_toList? (ha v (by simp)) hxs)) fun k ys hk hys => ?_
      exact .pureV (vok_vlist.2 fun y hy => (hys y hy).mono hk) (ren_vlist _).symm
  | _ :: _ :: _, _ => exact .throwBase

theorem sim_shell {n : Nat} {v : Val} : Sim R n VQ (Val.ren R.ρ) (doShell W v) (doShell W (v.ren R.ρ)) := by
  unfold doShell
  rw [ren_shellArgs]
  split
  · exact .throwBase
  · exact .throwBase
  · refine .bind (Q := TQ) (.askM fun _ _ _ => trivial) fun k x hk _ => ?_
    cases x with
    | error m => exact .throwBase
    | ok r =>
      obtain ⟨a, b, st⟩ := r
      have hn : ∀ cs, noLam (shapeOutput cs) = true := by
        intro cs; unfold shapeOutput; rw [noLam_vlist, List.all_map]
        exact List.all_eq_true.2 fun l _ => noLam_atomList _
      have h : noLam (vlist [shapeOutput a, shapeOutput b, .num st]) = true := by simp [noLam, hn]
      exact .pureV (noLam_vok h _) (ren_noLam h).symm

theorem sim_needScreen {α : Type} {n : Nat} {Q : Nat → α → Prop} {f : α → α} {m m' : M α} (h : Sim R n Q f m m') :
    Sim R n Q f (needScreen m) (needScreen m') :=
  .bind .getScreenM fun _ _ hk _ => .ite Iff.rfl (fun _ => h.mono hk) (fun _ => .throwBase)

theorem sim_termStart {n : Nat} : Sim R n TQ id (termStart W) (termStart W) := by
  refine .bind .getScreenM fun k b hk _ => .ite Iff.rfl (fun _ => .throwBase) (fun _ => ?_)
  refine .bind (Q := TQ) (.askM fun _ _ _ => trivial) fun k' x hk' _ => ?_
  cases x
  · exact .bind .setScreenM fun _ _ _ _ => .actsM
  · exact .bind .setScreenM fun _ _ _ _ => .extend .throwForeign
  · exact .bind .setScreenM fun _ _ _ _ => .extend .throwForeign

theorem sim_pred {n : Nat} (nm : String) (p : Val → Bool) (hp : ∀ v, p (v.ren R.ρ) = p v) (args : List Val) :
    Sim R n VQ (Val.ren R.ρ) (bPred nm p args) (bPred nm p (args.map (Val.ren R.ρ))) := by
  match args with
  | [v] =>
    simp only [List.map_cons, List.map_nil, bPred, hp]
    exact .pureV (vok_vBool _ _) (ren_vBool _).symm
  | [] => exact .throwBase rfl
  | _ :: _ :: _ => exact .throwBase rfl

theorem listOfNums_noLam (cs : List Char) : ∀ v, listOfNums W cs = some v → noLam v = true := by
  fun_induction listOfNums W cs with
  | case1 => intro v h; injection h with h; subst h; rfl
  | case2 => intro v h; cases h
  | case3 c cs ih =>
    intro v h
    obtain ⟨w, hw, rfl⟩ := Option.map_eq_some_iff.1 h
    simpa [noLam] using ih w hw
  | case4 c cs _ _ ih =>
    intro v h
    obtain ⟨w, hw, rfl⟩ := Option.map_eq_some_iff.1 h
    simpa [noLam] using ih w hw

/-- Natives that look at most at one argument. -/
theorem sim_one {f f' : List Val → M Val} {n : Nat} {args : List Val} (ha : ∀ a ∈ args, VOk n a)
    (h0 : Sim R n VQ (Val.ren R.ρ) (f []) (f' [])) (h1 : ∀ v, VOk n v → Sim R n VQ (Val.ren R.ρ) (f [v]) (f' [v.ren R.ρ]))
    (h2 : ∀ a b r, Sim R n VQ (Val.ren R.ρ) (f (a :: b :: r)) (f' (a.ren R.ρ :: b.ren R.ρ :: r.map (Val.ren R.ρ)))) :
    Sim R n VQ (Val.ren R.ρ) (f args) (f' (args.map (Val.ren R.ρ))) := by
  match args, ha with
  | [], _ => exact h0
  | [v], ha => exact h1 v (ha v (by simp))
  | a :: b :: r, _ => exact h2 a b r

set_option maxHeartbeats 1000000 in
attribute [local irreducible] L1.bForms L1.bHelp in
theorem Sim.biFn (hc : SimAll R c1 c2) {b : BI} {args : List Val} {n e : Nat} (he : e < n)
    (ha : ∀ a ∈ args, VOk n a) : Sim R n VQ (Val.ren R.ρ) (biFn W c1 b args e) (biFn W c2 b (args.map (Val.ren R.ρ)) (R.ρ e)) := by
  cases b <;> simp only [L1.biFn]
  case add => exact sim_addLoop _ _
  case sub =>
    cases args with
    | nil => exact .throwBase
    | cons a as =>
      cases a with
      | num k =>
        cases as with
        | nil => exact .pureV trivial
        | cons _ _ => exact sim_subLoop _ _
      | _ => exact .throwBase (ren_fmt1 _ _ _)
  case mul => exact sim_mulLoop _ _
  case div =>
    cases args with
    | nil => exact .throwBase
    | cons a as => cases a <;> first | exact sim_divLoop _ _ | exact .throwBase (ren_fmt1 _ _ _)
  case eq =>
    cases args with
    | nil => exact .throwBase
    | cons a as =>
      refine .pureV (vok_vBool _ _) ?_
      rw [ren_vBool, List.all_map]
      simp only [Function.comp_def, ren_equal]
  case rem =>
    match args with
    | [] => exact .throwBase
    | [a] => cases a <;> exact .throwBase rfl
    | [a, b] =>
      cases a with
      | num _ =>
        cases b with
        | num _ => exact .ite Iff.rfl (fun _ => .throwBase) (fun _ => .pureV trivial)
        | _ => exact .throwBase (ren_fmt1 _ _ _)
      | _ => exact .throwBase (ren_fmt1 _ _ _)
    | a :: b :: _ :: _ => cases a <;> cases b <;> exact .throwBase rfl
  case lt => exact sim_cmp _ _
  case le => exact sim_cmp _ _
  case gt => exact sim_cmp _ _
  case ge => exact sim_cmp _ _
  case apply => exact .applyFn hc he ha
  case atomP => exact sim_pred _ _ (fun v => by rw [ren_kind]) _
  case body =>
    refine sim_one (f := bBody) (f' := bBody) ha .throwBase (fun v hv => ?_) (fun a _ _ => by cases a <;> exact .throwBase rfl)
    cases v <;> first | exact .throwBase (ren_fmt1 _ _ _) | exact .pureV hv.2.1
  case car =>
    refine sim_one (f := bCar) (f' := bCar) ha .throwBase (fun v hv => ?_) (fun a _ _ => by cases a <;> exact .throwBase rfl)
    cases v <;> first | exact .throwBase (ren_fmt1 _ _ _) | exact .pureV hv.1 | exact .pureV trivial
  case cdr =>
    refine sim_one (f := bCdr) (f' := bCdr) ha .throwBase (fun v hv => ?_) (fun a _ _ => by cases a <;> exact .throwBase rfl)
    cases v <;> first | exact .throwBase (ren_fmt1 _ _ _) | exact .pureV hv.2 | exact .pureV trivial
  case cons =>
    match args, ha with
    | [], _ => exact .throwBase
    | [_], _ => exact .throwBase
    | [a, b], ha => exact .pureV ⟨ha _ (by simp), ha _ (by simp)⟩
    | _ :: _ :: _ :: _, _ => exact .throwBase
  case doc =>
    refine sim_one (f := bDoc W) (f' := bDoc W) ha .throwBase (fun v hv => ?_) (fun a _ _ => by cases a <;> exact .throwBase rfl)
    cases v with
    | lam => exact .pureV hv.2.2
    | bi b => exact .pureV (vok_atomList _ _) (ren_atomList _).symm
    | _ => exact .throwBase (ren_fmt1 _ _ _)
  case downcase =>
    match args with
    | [] => exact .throwBase
    | [v] => cases v <;> first | exact .throwBase (ren_fmt1 _ _ _) | exact .pureV trivial
    | a :: _ :: _ => cases a <;> exact .throwBase rfl
  case eval =>
    exact sim_one (f := fun args => L1.bEval c1 args e) (f' := fun args => L1.bEval c2 args (R.ρ e)) ha .throwBase (fun v hv => hc n _ ⟨hv, he⟩) (fun a _ _ => by cases a <;> exact .throwBase rfl)
  case exit => exact .exitM
  case forms => exact .bForms hc he
  case fuse =>
    refine sim_one (f := bFuse W) (f' := bFuse W) ha .throwBase (fun v hv => ?_) (fun a _ _ => by cases a <;> exact .throwBase rfl)
    cases v with
    | nil => exact .pureV trivial
    | cons a d =>
      have hf := ren_fuseLoop (ρ := R.ρ) (.cons a d)
      simp only [Val.ren] at hf
      simp only [Val.ren, bFuse, hf]
      cases L1.fuseLoop (.cons a d) with
      | none => exact .crash
      | some str =>
        cases str with
        | nil => exact .pureV trivial
        | cons c cs => exact .ite Iff.rfl (fun _ => .pureV trivial) (fun _ => .pureV trivial)
    | _ => exact .throwBase
  case gensym =>
    refine sim_one (f := bGensym) (f' := bGensym) ha .gensymM (fun v hv => ?_) (fun a _ _ => by cases a <;> exact .throwBase rfl)
    cases v <;> first | exact .throwBase rfl | exact .gensymM
  case help => exact .bHelp hc he
  case isqrt =>
    refine sim_one (f := bIsqrt) (f' := bIsqrt) ha .throwBase (fun v hv => ?_) (fun a _ _ => by cases a <;> exact .throwBase rfl)
    cases v <;> first | exact .throwBase rfl | exact .ite Iff.rfl (fun _ => .crash) (fun _ => .pureV trivial)
  case len =>
    refine sim_one (f := bLen) (f' := bLen) ha .throwBase (fun v hv => ?_) (fun a _ _ => by cases a <;> exact .throwBase rfl)
    simp only [bLen, ren_isList]
    exact .ite Iff.rfl (fun _ => sim_lenLoop _ _) (fun _ => .throwBase (ren_fmt1 _ _ _))
  case list => exact .pureV (vok_vlist.2 ha) (ren_vlist _).symm
  case listP => exact sim_pred _ _ (fun v => by rw [ren_isList]) _
  case load =>
    match args, ha with
    | [], _ => exact .throwBase
    | [v], ha =>
      cases v with
      | atom a => exact .bind (.extend (.loadFile hc he)) fun _ _ _ _ => .pureV trivial
      | _ => exact .throwBase rfl
    | a :: _ :: _, _ => cases a <;> exact .throwBase rfl
  case macroexpand1 =>
    match args, ha with
    | [], _ => exact .throwBase
    | [v], ha => exact .mexpand1 hc he (ha _ List.mem_cons_self)
    | a :: _ :: _, _ => cases a <;> exact .throwBase rfl
  case not =>
    refine sim_pred _ _ (fun v => ?_) _
    cases v <;> rfl
  case numberP => exact sim_pred _ _ (fun v => by rw [ren_kind]) _
  case print => exact .bind (.printM (ren_joinArgs _)) fun _ _ _ _ => .pureV trivial
  case println => exact .bind (.printM (by rw [ren_joinArgs])) fun _ _ _ _ => .pureV trivial
  case printl =>
    match args with
    | [] => exact .throwBase
    | [v] =>
      simp only [List.map_cons, List.map_nil, ren_isList, ren_unwrap]
      exact .ite Iff.rfl (fun _ => .bind .printM fun _ _ _ _ => .pureV trivial) (fun _ => .throwBase)
    | a :: _ :: _ => cases a <;> exact .throwBase rfl
  case randint =>
    refine sim_one (f := bRandint W) (f' := bRandint W) ha .throwBase (fun v hv => ?_) (fun a _ _ => by cases a <;> exact .throwBase rfl)
    cases v with
    | num k =>
      refine .ite Iff.rfl (fun _ => .throwBase) (fun _ => .ite Iff.rfl (fun _ => .crash) (fun _ => ?_))
      exact .bind (Q := TQ) (.askM fun _ _ _ => trivial) fun _ _ _ _ => .pureV trivial
    | _ => exact .throwBase (ren_fmt1 _ _ _)
  case readlist =>
    refine .bind (.extend .readLineM) fun k l hk _ => ?_
    refine .bind (.extend (.liftParse ((parse_noLam _).2.2.1 _))) fun k' vs hk' hvs => .pureV (vok_vlist.2 hvs) (ren_vlist _).symm
  case screenStart => exact .bind (.extend sim_termStart) fun _ _ _ _ => .pureV trivial
  case screenEnd =>
    exact .bind (.bind .getScreenM fun _ _ _ _ => .ite Iff.rfl (fun _ => .bind .actsM fun _ _ _ _ => .setScreenM) (fun _ => .unit)) fun _ _ _ _ => .pureV trivial
  case screenSize =>
    refine .bind (.extend (sim_needScreen (Q := TQ) (.askM fun _ _ _ => trivial))) fun k wh hk _ => ?_
    exact .pureV (vok_vlist.2 (by simp [VOk]))
  case screenClear =>
    exact .bind (.extend (sim_needScreen (Q := TQ) .actsM)) fun _ _ _ _ => .pureV trivial
  case screenGetKey =>
    cases args with
    | nil => exact .bind (.extend (sim_needScreen (Q := TQ) (.askM fun _ _ _ => trivial))) fun _ _ _ _ => .pureV trivial
    | cons _ _ => exact .throwBase
  case screenWrite =>
    match args with
    | [] => exact .throwBase
    | [_] => exact .throwBase
    | [_, _] => exact .throwBase
    | [x, y, l] =>
      cases x with
      | num _ =>
        cases y with
        | num _ =>
          simp only [List.map_cons, List.map_nil, Val.ren, bScreenWrite, ren_isList, unwrap, ren_str]
          refine .ite Iff.rfl (fun _ => ?_) (fun _ => .throwBase)
          exact .bind (.extend (sim_needScreen (Q := TQ) .actsM)) fun _ _ _ _ => .pureV trivial
        | _ => exact .throwBase (ren_fmt1 _ _ _)
      | _ => exact .throwBase (ren_fmt1 _ _ _)
    | _ :: _ :: _ :: _ :: _ => exact .throwBase
  case shell =>
    match args with
    | [] => exact .throwBase
    | [v] => exact sim_shell
    | a :: _ :: _ => cases a <;> exact .throwBase rfl
  case shuffle => exact sim_shuffle ha
  case sleep =>
    match args with
    | [] => exact .throwBase
    | [v] => cases v <;> first | exact .throwBase (ren_fmt1 _ _ _) | exact .bind .actsM fun _ _ _ _ => .pureV trivial
    | a :: _ :: _ => cases a <;> exact .throwBase rfl
  case sort => exact sim_sort ha
  case sortBy => exact .bSortBy hc he ha
  case source =>
    refine sim_one (f := bSource) (f' := bSource) ha .throwBase (fun v hv => ?_) (fun a _ _ => by cases a <;> exact .throwBase rfl)
    cases v with
    | lam ps r b d m e => exact .pureV (vok_sourceOf _ _ _ _ hv.2.1) (ren_sourceOf _ _ _).symm
    | cons a d => exact .throwBase (ren_fmt1 _ _ (.cons a d))
    | _ => exact .throwBase
  case split =>
    refine sim_one (f := bSplit W) (f' := bSplit W) ha .throwBase (fun v hv => ?_) (fun a _ _ => by cases a <;> exact .throwBase rfl)
    cases v with
    | atom s =>
      have h : noLam (listOfChars s.toList) = true := by unfold listOfChars; rw [noLam_vlist]; simp [noLam]
      exact .pureV (noLam_vok h _) (ren_noLam h).symm
    | num k =>
      simp only [Val.ren, bSplit]
      cases h : listOfNums W (intStr k) with
      | some v => exact .pureV (listOfNums_vok W _ v h) (ren_noLam (listOfNums_noLam _ v h)).symm
      | none => exact .throwBase
    | _ => exact .throwBase rfl
  case upcase =>
    match args with
    | [] => exact .throwBase
    | [v] => cases v <;> first | exact .throwBase rfl | exact .pureV trivial
    | a :: _ :: _ => cases a <;> exact .throwBase rfl
  case version => exact .pureV (noLam_vok rfl _) (ren_noLam rfl).symm

theorem Sim.runStep (hc : SimAll R c1 c2) (ht : SimAll R t1 t2) : SimAll R (runStep W c1 t1) (runStep W c2 t2) := by
  intro n t htk
  cases t with
  | eval x e => exact .evalStep hc ht htk.2 htk.1
  | mexpand x e =>
    refine .bind (.extend (.mexpand1 hc htk.2 htk.1)) fun k r hk hr => ?_
    refine .bind (.isMacroCallM r e) fun k' b hk' _ => ?_
    have := htk.2
    exact .ite Iff.rfl (fun _ => ht k' _ ⟨hr.mono hk', by omega⟩) (fun _ => .pureV (hr.mono hk'))
  | loop body e =>
    refine .bind (.evLoopBody hc body htk.2 htk.1) fun k _ hk _ => ht k _ ⟨htk.1.mono hk, ?_⟩
    have := htk.2; omega
  | builtin b args e => exact .biFn hc htk.2 htk.1

/-- Every run does the same on corresponding states. -/
theorem run_sim (R : Rn) (W : World) (n d : Nat) : SimAll R (run W n d) (run W n d) := by
  induction n generalizing d with
  | zero => intro k t _; exact .oof
  | succ n ih =>
    intro k t ht
    rw [run_succ, run_succ]
    refine Sim.runStep ?_ (ih d) k t ht
    cases d with
    | zero => intro k t _; exact ⟨fun s hs _ => ⟨hs, .refl s⟩, fun s s' _ h _ => h⟩
    | succ d => exact ih d

/-- With unlimited budgets. -/
theorem perform_sim (R : Rn) (W : World) {t : Task} {s s' : St} (hi : Inv s) (ht : TaskOk s.heap.length t) (h : SR R s s') :
    RR R (Val.ren R.ρ) (perform W t s) (perform W (t.ren R.ρ) s') := by
  have hr := fun k => (run_sim R W k k _ t ht).rel s s' hi h (Nat.le_refl _)
  have hd : ∀ {r r' : Res Val}, RR R (Val.ren R.ρ) r r' → (r.Definite ↔ r'.Definite) := by
    intro r r' h
    cases r <;> cases r' <;> simp_all [RR, Res.Definite]
  by_cases ho : perform W t s = .oof
  · have ho' : perform W (t.ren R.ρ) s' = .oof := by
      refine Classical.byContradiction fun hne => ?_
      obtain ⟨hdef, k, hk⟩ := run_of_perform hne
      have h1 := hr k
      have h2 := (hd h1).2 (by rw [hk]; exact hdef)
      exact not_indef_iff.2 h2 (perform_oof ho k k)
    rw [ho, ho']
    trivial
  · obtain ⟨hdef, k, hk⟩ := run_of_perform ho
    have h1 := hr k
    have h2 := (hd h1).1 (by rw [hk]; exact hdef)
    rw [← hk, perform_of_run h2]
    exact h1

/-- The invariant, with unlimited budgets. -/
theorem perform_safe (W : World) : SafeAll (perform W) := by
  intro n t ht s hs hn
  by_cases ho : perform W t s = .oof
  · rw [ho]; trivial
  · obtain ⟨_, k, hk⟩ := run_of_perform ho
    rw [← hk]
    exact run_safe W k k n t ht s hs hn

theorem perform_simAll (R : Rn) (W : World) : SimAll R (perform W) (perform W) := fun n t ht =>
  ⟨perform_safe W n t ht, fun _ _ hi h hn => perform_sim R W hi (ht.mono hn) h⟩

end L1
