import Verif.Lemmas.SimEval
/- The native functions, and every run, do the same on corresponding states. -/
set_option autoImplicit false
namespace L1

variable {R : Rn} {W : World} {c1 c2 t1 t2 : Task → M Val}

theorem Sim.applyTo (hc : SimAll R c1 c2) {f : Val} {args : List Val} {n e : Nat} (he : e < n)
    (hf : VOk n f) (ha : ∀ a ∈ args, VOk n a) :
    Sim R n VQ (Val.ren R.ρ) (applyTo c1 f args e) (applyTo c2 (f.ren R.ρ) (args.map (Val.ren R.ρ)) (R.ρ e)) := by
  cases f with
  | lam ps r body dc mm env =>
    refine .bind (.newEnvM hf.1) fun k i hk hi => ?_
    refine .bind (.extend (.bindArgs fun v hv => (ha v hv).mono hk)) fun k' _ hk' _ => ?_
    exact .evBodyApply hc _ trivial (by omega) (hf.2.1.mono (by omega))
  | bi b => exact .extend (hc n _ ⟨ha, he⟩)
  | _ => exact .throwBase

theorem applyFn_two (call : Task → M Val) (f a : Val) (rest : List Val) (e : Nat) (ini : List Val) (last : Val) (h : a :: rest = ini ++ [last]) :
    applyFn call (f :: a :: rest) e = if last.isList then
      match last.toList? with
      | none => extend "apply" (throwBase (consToExprsErr last))
      | some xs => applyTo call f (ini ++ xs) e
    else throwBase (fmt1 "'" last "' is not a list") := by
  have h1 : (a :: rest).getLast (by simp) = last := by simp [h]
  have h2 : (a :: rest).dropLast = ini := by simp only [h, List.dropLast_concat]
  unfold applyFn
  simp only [h1, h2]
  rfl

theorem Sim.applyFn (hc : SimAll R c1 c2) {args : List Val} {n e : Nat} (he : e < n)
    (ha : ∀ a ∈ args, VOk n a) : Sim R n VQ (Val.ren R.ρ) (applyFn c1 args e) (applyFn c2 (args.map (Val.ren R.ρ)) (R.ρ e)) := by
  cases args with
  | nil => exact .throwBase
  | cons f as =>
    cases as with
    | nil => exact .throwBase
    | cons a rest =>
      obtain ⟨ini, last, hl⟩ : ∃ ini last, a :: rest = ini ++ [last] :=
        ⟨(a :: rest).dropLast, (a :: rest).getLast (by simp), (List.dropLast_concat_getLast _).symm⟩
      rw [List.map_cons, List.map_cons, applyFn_two c1 f a rest e ini last hl,
        applyFn_two c2 _ _ _ _ (ini.map (Val.ren R.ρ)) (last.ren R.ρ) (by rw [← List.map_cons, hl]; simp), ren_isList, ren_toList?,
        ren_consToExprsErr, ren_fmt1]
      have hlast : VOk n last := ha last (by rw [hl]; simp)
      refine .ite Iff.rfl (fun _ => ?_) (fun _ => .throwBase)
      cases hx : last.toList? with
      | none => exact .extend .throwBase
      | some xs =>
        simp only [Option.map_some]
        rw [← List.map_append]
        refine .applyTo hc he (ha f (by simp)) fun v hv => ?_
        rcases List.mem_append.1 hv with hv | hv
        · exact ha v (by rw [hl]; simp [hv])
        · exact vok_toList? hlast hx v hv

theorem Sim.evalExprs (hc : SimAll R c1 c2) {p : Bool} {e : Nat} (gs : List Val) :
    ∀ {n : Nat}, e < n → (∀ g ∈ gs, VOk n g) →
      Sim R n TQ id (evalExprs c1 p e gs) (evalExprs c2 p (R.ρ e) (gs.map (Val.ren R.ρ))) := by
  induction gs with
  | nil => intro n _ _; exact .unit
  | cons g gs ih =>
    intro n he hg
    refine .bind (.attempt (hc n _ ⟨hg g (by simp), he⟩)) fun k w hk hw => ?_
    have hrest : ∀ k', k ≤ k' → Sim R k' TQ id (L1.evalExprs c1 p e gs) (L1.evalExprs c2 p (R.ρ e) (gs.map (Val.ren R.ρ))) := fun k' hk' =>
      ih (by omega) fun x hx => (hg x (by simp [hx])).mono (by omega)
    cases w with
    | error er =>
      exact .ite Iff.rfl (fun _ => .bind (.printM (by rw [ren_errStr])) fun k' _ hk' _ => .throwErr (EOk.mono hk' hw)) (fun _ => .throwErr hw)
    | ok v => exact .ite Iff.rfl (fun _ => .bind (.printM (by rw [ren_str])) fun k' _ hk' _ => hrest k' hk') (fun _ => hrest k (Nat.le_refl _))

theorem Sim.lexParseEval (hc : SimAll R c1 c2) {text : List Char} {n e : Nat} (he : e < n) :
    Sim R n TQ id (lexParseEval c1 text e) (lexParseEval c2 text (R.ρ e)) :=
  .bind (.liftParse ((parse_noLam _).2.2.1 _)) fun k gs hk hgs => .evalExprs hc gs (by omega) hgs

theorem Sim.loadFile (hc : SimAll R c1 c2) {name : String} {n e : Nat} (he : e < n) :
    Sim R n TQ id (loadFile W c1 name e) (loadFile W c2 name (R.ρ e)) := by
  refine .bind (Q := TQ) (.askM fun _ _ _ => trivial) fun k x hk _ => ?_
  cases x with
  | error m => exact .throwForeign
  | ok t => exact .lexParseEval hc (by omega)

theorem Sim.sortByLess (hc : SimAll R c1 c2) {f a b : Val} {n e : Nat} (he : e < n) (hf : VOk n f) (ha : VOk n a)
    (hb : VOk n b) : Sim R n TQ id (sortByLess c1 f e a b) (sortByLess c2 (f.ren R.ρ) (R.ρ e) (a.ren R.ρ) (b.ren R.ρ)) := by
  have hargs : ∀ k w, n ≤ k → VOk n w → ∀ z ∈ [f, vlist [w]], VOk k z := by
    intro k w hk hw z hz
    simp at hz
    rcases hz with rfl | rfl
    · exact hf.mono hk
    · exact ⟨hw.mono hk, trivial⟩
  refine .bind (.applyFn hc he (hargs n a (Nat.le_refl _) ha)) fun k va hk hva => ?_
  refine .bind (.applyFn hc (by omega) (hargs k b hk hb)) fun k' vb hk' hvb => ?_
  refine .ite (by rw [ren_kind, ren_kind]) (fun _ => .throwBase) (fun _ => ?_)
  cases va with
  | num a => exact .pure (fun _ _ => trivial) (ren_sortLess (.num a) vb)
  | atom a => exact .pure (fun _ _ => trivial) (ren_sortLess (.atom a) vb)
  | _ => exact .throwBase

/-- Renumbering of the result of the sorting loops. -/
def sren (R : Rn) (r : List Val × Option Err) : List Val × Option Err := (r.1.map (Val.ren R.ρ), r.2.map (Err.ren R.ρ))

theorem Sim.sortRun (hc : SimAll R c1 c2) {f : Val} {e : Nat} (t : Sorter) :
    ∀ {n : Nat} {xs : List Val} {er : Option Err}, e < n → VOk n f → (∀ y ∈ xs, VOk n y) →
      (∀ z, er = some z → EOk n z) → Sim R n SQ (sren R) (sortRun c1 f e t xs er)
        (sortRun c2 (f.ren R.ρ) (R.ρ e) t (xs.map (Val.ren R.ρ)) (er.map (Err.ren R.ρ))) := by
  induction t with
  | done =>
    intro n xs er he hf ha her
    exact .pure (fun k hk => ⟨fun y hy => (ha y hy).mono hk, fun z hz => (her z hz).mono hk⟩) rfl
  | swap i j next ih =>
    intro n xs er he hf ha her
    simp only [L1.sortRun]
    rw [← swapAt_map]
    exact ih he hf (fun y hy => ha y ((swapAt_perm xs i j).subset hy)) her
  | less i j yes no ihy ihn =>
    intro n xs er he hf ha her
    simp only [L1.sortRun, List.getElem?_map]
    cases hx : xs[i]? with
    | none => exact ihn he hf ha her
    | some a =>
      cases hy : xs[j]? with
      | none => exact ihn he hf ha her
      | some b =>
        refine .bind (.attempt (.sortByLess hc he hf (ha a (List.mem_of_getElem? hx)) (ha b (List.mem_of_getElem? hy)))) fun k w hk hw => ?_
        have ha' : ∀ y ∈ xs, VOk k y := fun y hy => (ha y hy).mono hk
        have her' : ∀ z, er = some z → EOk k z := fun z hz => (her z hz).mono hk
        cases w with
        | error er' => exact ihn (er := some er') (by omega) (hf.mono hk) ha' fun z hz => by injection hz with hz; subst hz; exact hw
        | ok b =>
          cases b with
          | false => exact ihn (by omega) (hf.mono hk) ha' her'
          | true => exact ihy (by omega) (hf.mono hk) ha' her'

theorem Sim.bSortBy (hc : SimAll R c1 c2) {args : List Val} {n e : Nat} (he : e < n)
    (ha : ∀ a ∈ args, VOk n a) : Sim R n VQ (Val.ren R.ρ) (bSortBy W c1 args e) (bSortBy W c2 (args.map (Val.ren R.ρ)) (R.ρ e)) := by
  match args, ha with
  | [], _ => exact .throwBase
  | [_], _ => exact .throwBase
  | [f, l], ha =>
    simp only [List.map_cons, List.map_nil, L1.bSortBy, ren_isList, ren_toList?, ren_consToExprsErr]
    refine .ite Iff.rfl (fun _ => ?_) (fun _ => .throwBase)
    cases hxs : l.toList? with
    | none => exact .extend .throwBase
    | some xs =>
      simp only [Option.map_some, List.length_map]
      refine .bind (.sortRun hc _ (xs := xs) (er := none) he (ha f (by simp)) (vok_toList? (ha l (by simp)) hxs) (by intro z hz; cases hz)) fun k r hk hr => ?_
      obtain ⟨ys, o⟩ := r
      cases o with
      | none =>
        refine .pureV (vok_vlist.2 hr.1) ?_
        simp only [sren, ren_vlist]
      | some er => exact .throwErr (hr.2 er rfl)
  | _ :: _ :: _ :: _, _ => exact .throwBase

theorem ren_exampleText (x : Val) (r : Except Err Val) : exampleText (x.ren R.ρ) (aren R (Val.ren R.ρ) r) = exampleText x r := by
  cases r <;> simp [aren, exampleText]

theorem Sim.runExamples (hc : SimAll R c1 c2) {e : Nat} (v : Val) :
    ∀ {n : Nat}, e < n → VOk n v → Sim R n TQ id (runExamples c1 e v) (runExamples c2 (R.ρ e) (v.ren R.ρ)) := by
  induction v with
  | cons a d _ ih =>
    intro n he hv
    exact .ite ren_eq_nil (fun _ => .pure (fun _ _ => trivial) rfl) (fun _ => .bind (.attempt (hc n _ ⟨hv.1, he⟩)) fun k w hk hw =>
      .bind (ih (by omega) (hv.2.mono hk)) fun _ rest _ _ => .pure (fun _ _ => trivial) (by rw [ren_exampleText]; rfl))
  | _ => intro n _ _; exact .pure (fun _ _ => trivial) rfl

/-- A record with its values renumbered. -/
def FormRec.ren (ρ : Nat → Nat) (f : FormRec) : FormRec := { f with doc := f.doc.ren ρ, args := f.args.ren ρ }

theorem Sim.formsOfBuiltins (hc : SimAll R c1 c2) {e : Nat} (bs : List BI) :
    ∀ {n : Nat}, e < n → Sim R n FQ (List.map (FormRec.ren R.ρ)) (formsOfBuiltins W c1 e bs) (formsOfBuiltins W c2 (R.ρ e) bs) := by
  induction bs with
  | nil => intro n _; exact .pure (fun _ _ x hx => by cases hx) rfl
  | cons b bs ih =>
    intro n he
    have hd := biDoc_noLam b
    have hex := Sim.runExamples hc (e := e) _ he (noLam_vok (v := vlist (biDoc b).examples) (by rw [noLam_vlist]; exact hd.1) n)
    rw [ren_noLam (v := vlist (biDoc b).examples) (by rw [noLam_vlist]; exact hd.1)] at hex
    refine .bind hex fun k _ hk _ => ?_
    refine .bind (ih (by omega)) fun k' r hk' hr => ?_
    refine .pure (fun k'' hk'' f hf => ?_) ?_
    · rcases List.mem_cons.1 hf with rfl | hf
      · exact ⟨⟨vok_atomList _ _, trivial⟩, noLam_vok hd.2 _⟩
      · exact ⟨(hr f hf).1.mono hk'', (hr f hf).2.mono hk''⟩
    · rw [List.map_cons, FormRec.ren, ren_noLam hd.2, ren_noLam (v := vlist [biDocList W b])]
      · rfl
      exact (noLam_vlist.trans (by simp [biDocList, noLam_atomList]))

theorem Sim.formsOfKeys (hc : SimAll R c1 c2) {e : Nat} (ks : List String) :
    ∀ {n : Nat}, e < n → Sim R n FQ (List.map (FormRec.ren R.ρ)) (formsOfKeys c1 e ks) (formsOfKeys c2 (R.ρ e) ks) := by
  induction ks with
  | nil => intro n _; exact .pure (fun _ _ x hx => by cases hx) rfl
  | cons x ks ih =>
    intro n he
    refine .bind (.lookupM _ _) fun k o hk ho => ?_
    cases o with
    | none => exact ih (by omega)
    | some v =>
      cases v with
      | lam ps r body doc m env =>
        have hv := ho _ rfl
        simp only [Option.map_some, Val.ren, ren_examplesOf]
        refine .ite (not_congr ren_eq_nil) (fun _ => ?_) (fun _ => ih (by omega))
        cases hex : examplesOf doc with
        | none => exact .crash
        | some ex =>
          simp only [Option.map_some]
          refine .bind (.runExamples hc _ (by omega) (examplesOf_vok _ _ hv.2.2 hex)) fun k1 _ hk1 _ => ?_
          refine .bind (ih (by omega)) fun k2 fs hk2 hfs => ?_
          refine .pure (fun k3 hk3 f hf => ?_) ?_
          · rcases List.mem_cons.1 hf with rfl | hf
            · refine ⟨hv.2.2.mono (by omega), ?_⟩
              show VOk k3 (if r ≠ "" then combineArgs ps (.atom r) else vlist (ps.map .atom))
              split
              · exact vok_combineArgs _ _ _ trivial
              · rw [vok_vlist]; intro y hy; obtain ⟨_, _, rfl⟩ := List.mem_map.1 hy; trivial
            · exact ⟨(hfs f hf).1.mono hk3, (hfs f hf).2.mono hk3⟩
          · rw [List.map_cons, FormRec.ren]
            congr 2
            by_cases hr : r ≠ ""
            · simp only [hr, if_true, ne_eq, not_false_eq_true, ren_combineArgs]
            · simp only [hr, if_false, ren_atoms]
      | _ => exact ih (by omega)

theorem Sim.shuffleLoopT {α : Type} {g : α → α} (i : Nat) :
    ∀ {n : Nat} (xs : List α), Sim R n TQ (List.map g) (shuffleLoop W i xs) (shuffleLoop W i (xs.map g)) := by
  induction i with
  | zero => intro n xs; exact .pure (fun _ _ => trivial) rfl
  | succ i ih =>
    intro n xs
    simp only [L1.shuffleLoop]
    refine .bind (Q := TQ) (.askM fun _ _ _ => trivial) fun k r hk _ => ?_
    rw [id, map_swapAt]
    exact ih _

theorem Sim.shuffleLoop {α : Type} {n : Nat} {P : α → Prop} {g : α → α} (i : Nat) (xs : List α) (h : ∀ x ∈ xs, P x) :
    Sim R n (fun _ ys => ∀ y ∈ ys, P y) (List.map g) (L1.shuffleLoop W i xs) (L1.shuffleLoop W i (xs.map g)) :=
  ⟨.shuffleLoop i xs h, (Sim.shuffleLoopT i xs).rel⟩

theorem Sim.mapOrder {α : Type} {n : Nat} {xs : List α} : Sim R n TQ id (mapOrder W xs) (mapOrder W xs) := by
  have h := Sim.shuffleLoopT (R := R) (W := W) (n := n) (g := (id : α → α)) (xs.length - 1) xs
  rw [List.map_id_fun, id] at h
  exact h

theorem Sim.mapOrders {n : Nat} (ks : List (List String)) : Sim R n TQ id (mapOrders W ks) (mapOrders W ks) := by
  induction ks generalizing n with
  | nil => exact .pure (fun _ _ => trivial) rfl
  | cons k ks ih => exact .bind .mapOrder fun _ _ _ _ => .bind ih fun _ _ _ _ => .pure (fun _ _ => trivial) rfl

theorem ren_insertForm (x : FormRec) (ys : List FormRec) :
    insertForm (x.ren R.ρ) (ys.map (FormRec.ren R.ρ)) = (insertForm x ys).map (FormRec.ren R.ρ) := by
  induction ys with
  | nil => rfl
  | cons y ys ih =>
    simp only [List.map_cons, insertForm, ih]
    rw [show (x.ren R.ρ).name = x.name from rfl, show (y.ren R.ρ).name = y.name from rfl]
    split <;> rfl

theorem ren_foldForms (xs acc : List FormRec) :
    (xs.map (FormRec.ren R.ρ)).foldl (fun acc x => insertForm x acc) (acc.map (FormRec.ren R.ρ))
      = (xs.foldl (fun acc x => insertForm x acc) acc).map (FormRec.ren R.ρ) := by
  induction xs generalizing acc with
  | nil => rfl
  | cons x xs ih => rw [List.map_cons, List.foldl_cons, List.foldl_cons, ren_insertForm, ih]

theorem ren_specialRecs : specialRecs.map (FormRec.ren R.ρ) = specialRecs := by
  have h : specialDocs.all (fun x => noLam x.2.2.2.2) = true := rfl
  refine (List.map_congr_left (g := id) ?_).trans (List.map_id _)
  intro f hf
  obtain ⟨⟨nm, a, m, d, g⟩, hx, rfl⟩ := List.mem_map.1 hf
  have h1 : g.ren R.ρ = g := ren_noLam (List.all_eq_true.1 h _ hx)
  simp [FormRec.ren, Val.ren, h1]

attribute [local irreducible] L1.mapOrder in
theorem Sim.availableForms (hc : SimAll R c1 c2) {n e : Nat} (he : e < n) :
    Sim R n FQ (List.map (FormRec.ren R.ρ)) (availableForms W c1 e) (availableForms W c2 (R.ρ e)) := by
  unfold L1.availableForms
  refine Sim.bind (Q := TQ) Sim.mapOrder ?_
  intro k bs hk _
  refine Sim.bind (Sim.formsOfBuiltins hc bs (by omega)) ?_
  intro k1 fb hk1 hfb
  refine Sim.bind (Q := TQ) Sim.envKeysM ?_
  intro k2 ks hk2 _
  refine Sim.bind (Q := TQ) (Sim.mapOrders ks) ?_
  intro k3 ks' hk3 _
  refine Sim.bind (Sim.formsOfKeys hc ks' (by omega)) ?_
  intro k4 fk hk4 hfk
  refine Sim.pure ?_ ?_
  · intro k5 hk5
    refine foldl_insertForm_mem _ _ ?_ (by intro y hy; cases hy)
    intro f hf
    rcases List.mem_append.1 hf with hf | hf
    · rcases List.mem_append.1 hf with hf | hf
      · exact specialRecs_ok k5 f hf
      · exact ⟨(hfb f hf).1.mono (by omega), (hfb f hf).2.mono (by omega)⟩
    · exact ⟨(hfk f hf).1.mono hk5, (hfk f hf).2.mono hk5⟩
  · have := ren_foldForms (R := R) (specialRecs ++ fb ++ fk) []
    rw [List.map_append, List.map_append, ren_specialRecs] at this
    exact this

theorem ren_formVal (f : FormRec) : formVal (f.ren R.ρ) = (formVal f).ren R.ρ := by
  simp [formVal, FormRec.ren, Val.ren]

theorem ren_docToString (v : Val) : docToString (v.ren R.ρ) = docToString v := by
  cases v with
  | cons d _ => simp only [Val.ren, docToString, ren_str]
  | _ => rfl

theorem ren_formLines (fs : List FormRec) : formLines W (fs.map (FormRec.ren R.ρ)) = formLines W fs := by
  induction fs with
  | nil => rfl
  | cons f fs ih =>
    simp only [List.map_cons, formLines, ih]
    rw [show (f.ren R.ρ).doc = f.doc.ren R.ρ from rfl, ren_docToString]
    rfl

attribute [local irreducible] L1.availableForms in
theorem Sim.bForms (hc : SimAll R c1 c2) {n e : Nat} (he : e < n) :
    Sim R n VQ (Val.ren R.ρ) (bForms W c1 e) (bForms W c2 (R.ρ e)) := by
  unfold L1.bForms
  refine Sim.bind (Q := FQ) (.extend (.extend (.availableForms hc he))) ?_
  intro k fs hk hfs
  refine .pureV (vok_vlist.2 fun x hx => ?_) ?_
  · obtain ⟨f, hf, rfl⟩ := List.mem_map.1 hx
    unfold formVal
    rw [vok_vlist]
    simp [VOk, vok_vBool, hfs f hf]
  · rw [ren_vlist, List.map_map, List.map_map]
    congr 2
    funext f
    exact ren_formVal f

attribute [local irreducible] L1.availableForms in
theorem Sim.bHelp (hc : SimAll R c1 c2) {n e : Nat} (he : e < n) :
    Sim R n VQ (Val.ren R.ρ) (bHelp W c1 e) (bHelp W c2 (R.ρ e)) := by
  unfold L1.bHelp
  refine Sim.bind (Q := FQ) (.availableForms hc he) ?_
  intro k fs hk hfs
  rw [ren_formLines]
  split
  · exact .crash
  · exact .bind .printM fun _ _ _ _ => .pureV trivial

end L1
