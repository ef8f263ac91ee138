import Verif.Spec.Rename
import Verif.Lemmas.InvRun
/- Renumbering scopes commutes with everything that does not look into closures. -/
set_option autoImplicit false
namespace L1

variable {ρ : Nat → Nat}

theorem ren_strAux (b : Bool) (v : Val) : strAux b (v.ren ρ) = strAux b v := by
  induction v generalizing b with
  | cons a d iha ihd => cases b <;> simp only [Val.ren, strAux, iha, ihd]
  | _ => cases b <;> simp only [Val.ren, strAux]

@[simp] theorem ren_str (v : Val) : (v.ren ρ).str = v.str := ren_strAux _ _
@[simp] theorem ren_toStr (v : Val) : (v.ren ρ).toStr = v.toStr := by simp [Val.toStr]
@[simp] theorem ren_unwrap (v : Val) : unwrap (v.ren ρ) = unwrap v := by simp [unwrap]
@[simp] theorem ren_isList (v : Val) : (v.ren ρ).isList = v.isList := by cases v <;> rfl
@[simp] theorem ren_kind (v : Val) : (v.ren ρ).kind = v.kind := by cases v <;> rfl
@[simp] theorem ren_errStr (e : Err) : (e.ren ρ).str = e.str := by cases e <;> simp [Err.ren, Err.str]
@[simp] theorem ren_fmt1 (a b : String) (v : Val) : fmt1 a (v.ren ρ) b = fmt1 a v b := by simp [fmt1]

theorem ren_eq_nil {v : Val} : v.ren ρ = .nil ↔ v = .nil := by cases v <;> simp [Val.ren]

theorem ren_vlist (xs : List Val) : (vlist xs).ren ρ = vlist (xs.map (Val.ren ρ)) := by
  induction xs with
  | nil => rfl
  | cons x xs ih => rw [vlist_cons, List.map_cons, vlist_cons, Val.ren, ih]

theorem ren_toList? (v : Val) : (v.ren ρ).toList? = v.toList?.map (List.map (Val.ren ρ)) := by
  induction v with
  | cons a d _ ih =>
    simp only [Val.ren, Val.toList?, ih]
    cases d.toList? <;> rfl
  | _ => rfl

theorem ren_lastTail (v : Val) : (v.ren ρ).lastTail = v.lastTail.ren ρ := by
  induction v with
  | cons a d _ ih => exact ih
  | _ => rfl

@[simp] theorem ren_consToExprsErr (v : Val) : consToExprsErr (v.ren ρ) = consToExprsErr v := by
  unfold consToExprsErr; rw [ren_lastTail, ren_str]

theorem ren_noLam {v : Val} (h : noLam v = true) : v.ren ρ = v := by
  induction v with
  | cons a d iha ihd =>
    simp only [noLam, Bool.and_eq_true] at h
    simp only [Val.ren, iha h.1, ihd h.2]
  | lam => cases h
  | _ => rfl

theorem ren_map_noLam {xs : List Val} (h : xs.all noLam = true) : xs.map (Val.ren ρ) = xs := by
  induction xs with
  | nil => rfl
  | cons x xs ih =>
    simp only [List.all_cons, Bool.and_eq_true] at h
    rw [List.map_cons, ren_noLam h.1, ih h.2]

theorem noLam_atomList (ws : List (List Char)) : noLam (atomList ws) = true := by
  simp [atomList, noLam_vlist, noLam]

@[simp] theorem ren_atomList (ws : List (List Char)) : (atomList ws).ren ρ = atomList ws := ren_noLam (noLam_atomList _)
@[simp] theorem ren_msgList (m : String) : (msgList m).ren ρ = msgList m := ren_atomList _
@[simp] theorem ren_vBool (b : Bool) : (vBool b).ren ρ = vBool b := by cases b <;> rfl

@[simp] theorem ren_equal (a b : Val) : (a.ren ρ).equal (b.ren ρ) = a.equal b := by
  induction a generalizing b with
  | cons a d iha ihd => cases b <;> simp [Val.ren, Val.equal, iha, ihd]
  | _ => cases b <;> simp [Val.ren, Val.equal]

@[simp] theorem ren_sortLess (a b : Val) : sortLess (a.ren ρ) (b.ren ρ) = sortLess a b := by
  cases a <;> cases b <;> rfl

theorem ren_parseParams (v : Val) : parseParams (v.ren ρ) = parseParams v := by
  induction v with
  | cons a d _ ih =>
    cases a with
    | nil => cases d <;> simp [Val.ren, parseParams, Val.isList]
    | atom p =>
      cases d with
      | cons a' d' =>
        simp only [Val.ren] at ih
        simp only [Val.ren, parseParams, Val.isList, ih]
      | lam => rfl
      | _ => simp only [Val.ren, parseParams, Val.isList]
    | _ => rfl
  | _ => rfl

@[simp] theorem ren_startsWith (v : Val) (s : String) : startsWith (v.ren ρ) s = startsWith v s := by
  cases v with
  | cons a d => cases a <;> rfl
  | _ => rfl

theorem ren_cadr? (v : Val) : cadr? (v.ren ρ) = (cadr? v).map (Val.ren ρ) := by
  cases v with
  | cons a d => cases d <;> rfl
  | _ => rfl

theorem ren_sq (v : Val) : splicingUnquote (v.ren ρ) = (splicingUnquote v).map (Val.ren ρ) ∧
    syntaxQuote (v.ren ρ) = (syntaxQuote v).map (Val.ren ρ) := by
  induction v with
  | cons a d iha ihd =>
    have h1 : splicingUnquote ((Val.cons a d).ren ρ) = (splicingUnquote (.cons a d)).map (Val.ren ρ) := by
      simp only [Val.ren, splicingUnquote, ren_isList, ihd.1, ren_startsWith, ren_cadr?, iha.2]
      by_cases hd : d.isList
      · simp only [hd, if_true]
        cases splicingUnquote d with
        | none => rfl
        | some nxt =>
          simp only [Option.map_some]
          by_cases hs : startsWith a "splicing-unquote"
          · simp only [hs, if_true]
            cases cadr? a with
            | none => rfl
            | some x => simp only [Option.map_some, ren_vlist]; rfl
          · simp only [hs]
            cases syntaxQuote a with
            | none => rfl
            | some x => simp [Val.ren]
      · simp [hd, Val.ren]
    refine ⟨h1, ?_⟩
    have h3 := ren_startsWith (ρ := ρ) (.cons a d) "unquote"
    have h4 := ren_cadr? (ρ := ρ) (.cons a d)
    simp only [Val.ren] at h1 h3 h4 ⊢
    rw [splicingUnquote, splicingUnquote] at h1
    rw [syntaxQuote, syntaxQuote, h3, h4, h1]
    split <;> rfl
  | nil => simp [Val.ren, splicingUnquote, syntaxQuote]
  | _ => simp [Val.ren, splicingUnquote, syntaxQuote]

@[simp] theorem ren_fuseLoop (v : Val) : fuseLoop (v.ren ρ) = fuseLoop v := by
  induction v with
  | cons a d _ ih => simp only [Val.ren, fuseLoop, ih, ren_str]
  | _ => rfl

@[simp] theorem ren_shellArgs (v : Val) : shellArgs (v.ren ρ) = shellArgs v := by
  induction v with
  | cons a d _ ih => cases a <;> simp only [Val.ren, shellArgs, ih]
  | _ => rfl

@[simp] theorem ren_joinArgs (xs : List Val) : joinArgs (xs.map (Val.ren ρ)) = joinArgs xs := by
  simp [joinArgs, List.map_map, Function.comp_def]

theorem ren_insertSorted (x : Val) (ys : List Val) :
    insertSorted sortLess (x.ren ρ) (ys.map (Val.ren ρ)) = (insertSorted sortLess x ys).map (Val.ren ρ) := by
  induction ys with
  | nil => rfl
  | cons y ys ih =>
    simp only [List.map_cons, insertSorted, ren_sortLess, ih]
    split <;> rfl

theorem ren_insertionSort (xs : List Val) :
    insertionSort sortLess (xs.map (Val.ren ρ)) = (insertionSort sortLess xs).map (Val.ren ρ) := by
  unfold insertionSort
  have : ∀ acc : List Val, (xs.map (Val.ren ρ)).foldl (fun acc x => insertSorted sortLess x acc) (acc.map (Val.ren ρ))
      = (xs.foldl (fun acc x => insertSorted sortLess x acc) acc).map (Val.ren ρ) := by
    induction xs with
    | nil => intro acc; rfl
    | cons x xs ih => intro acc; rw [List.map_cons, List.foldl_cons, List.foldl_cons, ren_insertSorted, ih]
  exact this []

theorem map_swapAt {α β : Type} (f : α → β) (xs : List α) (i j : Nat) : swapAt (xs.map f) i j = (swapAt xs i j).map f := by
  unfold swapAt
  rw [List.getElem?_map, List.getElem?_map]
  cases xs[i]? <;> cases xs[j]? <;> simp [List.map_set]

theorem ren_combineArgs (ps : List String) (r : String) : (combineArgs ps (.atom r)).ren ρ = combineArgs ps (.atom r) := by
  apply ren_noLam
  induction ps with
  | nil => rfl
  | cons p ps ih =>
    cases ps with
    | nil => rfl
    | cons q qs => simpa [combineArgs, noLam] using ih

theorem ren_atoms (ps : List String) : (vlist (ps.map .atom)).ren ρ = vlist (ps.map .atom) :=
  ren_noLam (by simp [noLam_vlist, noLam])

theorem ren_sourceOf (ps : List String) (r : String) (b : Val) : (sourceOf ps r b).ren ρ = sourceOf ps r (b.ren ρ) := by
  unfold sourceOf
  simp only [Val.ren]
  split
  · rw [ren_atoms]
  · rw [ren_combineArgs]

theorem ren_cxr (a : String) (e : Nat) : (cxrLambda a e).ren ρ = cxrLambda a (ρ e) := by
  simp only [cxrLambda, Val.ren]
  congr 1
  apply ren_noLam
  have : ∀ l : List Char, noLam (vlist (l.map fun c => Val.atom (String.ofList [c]))) = true := fun l => by
    rw [noLam_vlist]; simp [noLam]
  simp only [noLam_vlist, List.all_cons, List.all_nil, Bool.and_true]
  simp only [noLam, Bool.true_and, Bool.and_true]
  rw [← noLam_vlist]
  exact this _

theorem ren_isMacroCallIn {look look' : String → Option Val} (h : ∀ f, look' f = (look f).map (Val.ren ρ)) (x : Val) :
    isMacroCallIn look' (x.ren ρ) = isMacroCallIn look x := by
  cases x with
  | cons a d =>
    cases a with
    | atom f =>
      simp only [Val.ren, isMacroCallIn, h]
      cases look f with
      | none => rfl
      | some v => cases v <;> rfl
    | _ => rfl
  | _ => rfl

/-! ### Scopes -/

theorem ren_alGet (x : String) (l : List (String × Val)) :
    alGet x (l.map fun p => (p.1, p.2.ren ρ)) = (alGet x l).map (Val.ren ρ) := by
  induction l with
  | nil => rfl
  | cons p l ih =>
    simp only [List.map_cons, alGet, ih]
    split <;> rfl

theorem ren_alSet (x : String) (v : Val) (l : List (String × Val)) :
    alSet x (v.ren ρ) (l.map fun p => (p.1, p.2.ren ρ)) = (alSet x v l).map fun p => (p.1, p.2.ren ρ) := by
  induction l with
  | nil => rfl
  | cons p l ih =>
    simp only [List.map_cons, alSet, ih]
    split <;> rfl

theorem ren_examplesOf (v : Val) : examplesOf (v.ren ρ) = (examplesOf v).map (Val.ren ρ) := by
  induction v with
  | cons a d _ ih =>
    cases a with
    | cons b c =>
      simp only [Val.ren]
      unfold examplesOf
      cases b with
      | atom s =>
        by_cases hs : s = "examples"
        · subst hs
          simp only [Val.ren, ren_isList]
          split <;> rfl
        · simp only [Val.ren]
          split <;> split <;> simp_all
      | _ => simp only [Val.ren, ren_isList, ih]; split <;> rfl
    | _ => rfl
  | _ => rfl

end L1
