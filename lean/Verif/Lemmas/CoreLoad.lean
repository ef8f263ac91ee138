import Verif.Lemmas.CoreText
import Verif.Lemmas.Core
/-
Loading the core library: evaluating its forms from the initial state binds its names.
-/
set_option autoImplicit false
namespace L1

variable {W : World}

/-- What a definition form `(defn name (params) ...)`, `(defmacro name (params) ...)` or `(def first car)` binds. -/
def defOf : Val → Option (String × Val)
  | .cons (.atom h) (.cons (.atom name) (.cons a d)) =>
    if h = "def" then if a = .atom "car" ∧ d = .nil then some (name, .bi .car) else none
    else if h = "defn" ∨ h = "defmacro" then
      if a.isList then
        match mkLambda (.cons a d) (h = "defmacro") 0 { heap := [], inp := [] } with
        | .ok f _ => some (name, f)
        | _ => none
      else none
    else none
  | _ => none

theorem splitDoc_any {b : Val} {r : Val × Val} {s s' : St} (h : splitDoc b s = .ok r s') : ∀ s1, splitDoc b s1 = .ok r s1 := by
  intro s1
  revert h
  unfold splitDoc
  split
  · rename_i dd rest
    by_cases h1 : dd.isList = true
    · rw [M.ite_pos h1, M.ite_pos h1]
      by_cases h2 : rest.isList = true
      · rw [M.ite_pos h2, M.ite_pos h2]; intro h; cases h; rfl
      · rw [M.ite_neg h2]; intro h; cases h
    · rw [M.ite_neg h1]; intro h; cases h
  · intro h; cases h; rfl

theorem mkLambda_any {a d f : Val} {m : Bool} {e : Nat} {s s' : St} (ha : a.isList = true) (h : mkLambda (.cons a d) m e s = .ok f s') :
    ∀ s1, mkLambda (.cons a d) m e s1 = .ok f s1 := by
  intro s1
  have hn : mkLambda (.cons a d) m e = mkLambdaNamed "" (.cons a d) m e := by cases a <;> first | rfl | cases ha
  rw [hn] at h ⊢
  revert h
  unfold mkLambdaNamed
  simp only [ha, if_true]
  cases parseParams a with
  | error _ => intro h; cases h
  | ok r =>
    obtain ⟨ps, rest, em⟩ := r
    simp only []
    by_cases h1 : (em && rest == "") = true
    · rw [M.ite_pos h1]; intro h; cases h
    · rw [M.ite_neg h1, M.ite_neg h1]
      by_cases h2 : d.isList = true
      · rw [M.ite_pos h2, M.ite_pos h2]
        intro h
        obtain ⟨r, s2, hd, h⟩ := M.bind_eq_ok.1 h
        rw [M.bind_ok (splitDoc_any hd s1)]
        cases h; rfl
      · rw [M.ite_neg h2]; intro h; cases h

/-- The state `s` with the top-level scope alone, binding `l`. -/
def topSt (s : St) (l : List (String × Val)) : St := { s with heap := [⟨l, none⟩] }

theorem topSt_notMacro {s : St} {l : List (String × Val)} {x : String} (h : alGet x l = none) : NotMacro (topSt s l).heap 0 x := by
  intro ps r b dc env he
  have : lookup (topSt s l).heap 0 x = none := by simp [topSt, lookup, lookupAux, h]
  rw [this] at he; cases he

theorem topSt_set {s : St} {l : List (String × Val)} {x : String} {v : Val} (hx : x ≠ "t") :
    setTopM 0 x v (topSt s l) = .ok () (topSt s (alSet x v l)) := by
  unfold setTopM setM
  rw [if_neg hx]
  rfl

theorem alGet_alSet_ne {x y : String} {v : Val} (h : x ≠ y) (l : List (String × Val)) : alGet y (alSet x v l) = alGet y l := by
  induction l with
  | nil => simp [alSet, alGet, h]
  | cons kv l ih =>
    obtain ⟨k, w⟩ := kv
    simp only [alSet]
    by_cases hk : k = x
    · subst hk; simp [alGet, h]
    · rw [if_neg hk]; simp only [alGet, ih]

/-- Evaluating one definition. -/
theorem defOf_eval {x : Val} {name : String} {f : Val} {s : St} {l : List (String × Val)} (h : defOf x = some (name, f)) (hn : name ≠ "t")
    (h1 : alGet "def" l = none) (h2 : alGet "defn" l = none) (h3 : alGet "defmacro" l = none) (h4 : alGet "car" l = none) :
    ∃ v, eval W x 0 (topSt s l) = .ok v (topSt s (alSet name f l)) := by
  unfold defOf at h
  split at h
  · rename_i hd nm a d
    by_cases hdef : hd = "def"
    · subst hdef
      rw [if_pos rfl] at h
      by_cases hc : a = .atom "car" ∧ d = .nil
      · obtain ⟨rfl, rfl⟩ := hc
        rw [if_pos ⟨rfl, rfl⟩] at h
        cases h
        refine ⟨.bi .car, ?_⟩
        refine (eval_sform W .def_ [.atom name, .atom "car"] 0 _ (topSt_notMacro h1)).trans ?_
        have hcar : eval W (.atom "car") 0 (topSt s l) = .ok (.bi .car) (topSt s l) :=
          eval_atom_bi rfl (by decide) (by simp [topSt, lookup, lookupAux, h4]) rfl
        simp only [evSpecial, vlist_cons, evDef, perform_eval]
        rw [M.bind_ok (extend_ok hcar), M.bind_ok (extend_ok (topSt_set hn))]; rfl
      · rw [if_neg hc] at h; cases h
    · rw [if_neg hdef] at h
      by_cases hh : hd = "defn" ∨ hd = "defmacro"
      · rw [if_pos hh] at h
        by_cases ha : a.isList = true
        · rw [if_pos ha] at h
          split at h
          · rename_i g s' hmk
            cases h
            have hmk' := mkLambda_any ha hmk (topSt s l)
            refine ⟨.nil, ?_⟩
            rcases hh with rfl | rfl
            · have e1 : eval W (.cons (.atom "defn") (.cons (.atom name) (.cons a d))) 0 (topSt s l) = evDefn false 0 (.cons (.atom name) (.cons a d)) (topSt s l) :=
                eval_sf W .defn _ 0 _ (topSt_notMacro h2) rfl
              rw [e1]
              simp only [evDefn]
              rw [show decide ("defn" = "defmacro") = false from rfl] at hmk'
              rw [M.bind_ok (extend_ok hmk'), M.bind_ok (extend_ok (topSt_set hn))]; rfl
            · have e1 : eval W (.cons (.atom "defmacro") (.cons (.atom name) (.cons a d))) 0 (topSt s l) = evDefn true 0 (.cons (.atom name) (.cons a d)) (topSt s l) :=
                eval_sf W .defmacro _ 0 _ (topSt_notMacro h3) rfl
              rw [e1]
              simp only [evDefn]
              rw [show decide ("defmacro" = "defmacro") = true from rfl] at hmk'
              rw [M.bind_ok (extend_ok hmk'), M.bind_ok (extend_ok (topSt_set hn))]; rfl
          · cases h
        · rw [if_neg ha] at h; cases h
      · rw [if_neg hh] at h; cases h
  · cases h

/-- Evaluating several definitions. -/
theorem defs_eval {s : St} : ∀ (xs : List Val) (l ds : List (String × Val)), xs.mapM defOf = some ds →
    (∀ d ∈ ds, d.1 ∉ ["t", "def", "defn", "defmacro", "car"]) → (∀ x ∈ ["def", "defn", "defmacro", "car"], alGet x l = none) →
    evalExprs (perform W) false 0 xs (topSt s l) = .ok () (topSt s (ds.foldl (fun a d => alSet d.1 d.2 a) l))
  | [], l, ds, h, _, _ => by
    simp only [List.mapM_nil] at h
    cases h; rfl
  | x :: xs, l, ds, h, hd, hl => by
    rw [List.mapM_cons] at h
    cases h1 : defOf x with
    | none => rw [h1] at h; cases h
    | some d =>
      rw [h1] at h
      cases h2 : xs.mapM defOf with
      | none => rw [h2] at h; cases h
      | some ds' =>
        rw [h2] at h
        cases h
        obtain ⟨n, f⟩ := d
        have hn : n ∉ ["t", "def", "defn", "defmacro", "car"] := hd (n, f) (by simp)
        simp only [List.mem_cons, List.not_mem_nil, or_false, not_or] at hn
        obtain ⟨v, hv⟩ := defOf_eval (W := W) (s := s) h1 hn.1 (hl _ (by simp)) (hl _ (by simp)) (hl _ (by simp)) (hl _ (by simp))
        have ih := defs_eval (s := s) xs (alSet n f l) ds' h2 (fun d hd' => hd d (by simp [hd'])) (by
          intro y hy
          rw [alGet_alSet_ne ?_ l]
          · exact hl y hy
          · intro hny
            subst hny
            revert hy
            simp only [List.mem_cons, List.not_mem_nil, or_false]
            rintro (h | h | h | h)
            · exact hn.2.1 h
            · exact hn.2.2.1 h
            · exact hn.2.2.2.1 h
            · exact hn.2.2.2.2 h)
        simp only [evalExprs, perform_eval]
        rw [M.bind_ok (attempt_ok hv)]
        exact ih

/-- The three numbers that make up `pi100`. -/
def piParts : Val := vlist [.num 31415926535897932384626433832795028, .num 84197169399375105820974944592307816, .num 406286208998628034825342117067]

/-- The value of `pi100`. -/
def pi100 : Int := 3141592653589793238462643383279502884197169399375105820974944592307816406286208998628034825342117067

/-- The digits after the first. -/
def piRest : List Char := "141592653589793238462643383279502884197169399375105820974944592307816406286208998628034825342117067".toList

theorem fuse_piParts : fuseLoop piParts = some ('3' :: piRest) := by decide +kernel

theorem num_pi : numOfChars? ('3' :: piRest) = some pi100 := by decide +kernel

theorem fuse_pi (s : St) : bFuse W [piParts] s = .ok (.num pi100) s := by
  have h1 : bFuse W [piParts] = (match fuseLoop piParts with
    | none => crash "interface conversion"
    | some str =>
      match str with
      | [] => pure (.atom "")
      | c :: _ => if isDigitW W c then pure (.num (numOfStr W str)) else pure (.atom (String.ofList str)) : M Val) := rfl
  rw [h1, fuse_piParts]
  simp only []
  have hd : isDigitW W '3' = true := by simp [isDigitW, isDigitC]
  rw [M.ite_pos hd]
  unfold numOfStr
  rw [num_pi]; rfl

/-- The first form of the library. -/
theorem pi100_eval (s : St) :
    eval W (vlist [.atom "def", .atom "pi100", vlist [.atom "fuse", vlist [.atom "quote", piParts]]]) 0 (topSt s initGlobals.syms) =
      .ok (.num pi100) (topSt s (alSet "pi100" (.num pi100) initGlobals.syms)) := by
  have hq : eval W (vlist [.atom "quote", piParts]) 0 (topSt s initGlobals.syms) = .ok piParts (topSt s initGlobals.syms) :=
    eval_sform W .quote [piParts] 0 _ (topSt_notMacro rfl)
  have hf : eval W (.atom "fuse") 0 (topSt s initGlobals.syms) = .ok (.bi .fuse) (topSt s initGlobals.syms) :=
    eval_atom_bi rfl (by decide) rfl rfl
  have hc : eval W (vlist [.atom "fuse", vlist [.atom "quote", piParts]]) 0 (topSt s initGlobals.syms) = .ok (.num pi100) (topSt s initGlobals.syms) := by
    refine (eval_reaches (xs := [_]) (callHead_of rfl (topSt_notMacro rfl)) ⟨_, hf, .cons hq .nil⟩).trans ?_
    simp only [evApply]
    refine extend_ok ?_
    rw [perform_eq]
    exact fuse_pi _
  refine (eval_sform W .def_ [.atom "pi100", vlist [.atom "fuse", vlist [.atom "quote", piParts]]] 0 _ (topSt_notMacro rfl)).trans ?_
  show evDef (perform W) 0 (.cons (.atom "pi100") (.cons (vlist [.atom "fuse", vlist [.atom "quote", piParts]]) .nil)) _ = _
  simp only [evDef, perform_eval]
  rw [M.bind_ok (extend_ok hc), M.bind_ok (extend_ok (topSt_set (by decide)))]; rfl

/-- What the other forms define. -/
def laterDefs : List (String × Val) := (coreForms.tail.mapM defOf).getD []

set_option maxRecDepth 100000 in
theorem laterDefs_eq : coreForms.tail.mapM defOf = some laterDefs := by
  have h : (coreForms.tail.mapM defOf).isSome = true := by decide +kernel
  unfold laterDefs
  cases h1 : coreForms.tail.mapM defOf with
  | none => rw [h1] at h; cases h
  | some d => rfl

theorem laterDefs_ok : ∀ d ∈ laterDefs, d.1 ∉ ["t", "def", "defn", "defmacro", "car"] := by decide +kernel

theorem laterDefs_core : laterDefs.foldl (fun a d => alSet d.1 d.2 a) (alSet "pi100" (.num pi100) initGlobals.syms) = coreEnv := by decide +kernel

theorem coreForms_eq : coreForms = vlist [.atom "def", .atom "pi100", vlist [.atom "fuse", vlist [.atom "quote", piParts]]] :: coreForms.tail := rfl

/-- Loading the core library from the initial state binds the names of the library, and has no other effect. -/
theorem load_core (inp : List (List Char)) :
    lexParseEval (perform W) coreText 0 (initSt inp) = .ok () (topSt (initSt inp) coreEnv) := by
  unfold lexParseEval
  rw [read_core]
  show evalExprs (perform W) false 0 coreForms (topSt (initSt inp) initGlobals.syms) = _
  rw [coreForms_eq]
  simp only [evalExprs, perform_eval]
  rw [M.bind_ok (attempt_ok (pi100_eval _))]
  refine (defs_eval coreForms.tail _ laterDefs laterDefs_eq laterDefs_ok (by decide +kernel)).trans ?_
  rw [laterDefs_core]

/-- Once the core library is loaded, the top-level scope sees it. -/
theorem coreAt_loaded (s : St) : CoreAt (topSt s coreEnv).heap 0 where
  nested := .top (f := ⟨coreEnv, none⟩) rfl rfl
  sees := by
    intro x r h
    have hl : lookup (topSt s coreEnv).heap 0 x = alGet x coreEnv := by
      simp only [topSt, lookup, lookupAux, List.getElem?_cons_zero]
      cases alGet x coreEnv <;> rfl
    rw [hl]
    unfold known at h
    cases h1 : alGet x coreEnv with
    | some v => rw [h1] at h; cases h; rfl
    | none => rw [h1] at h; simp only [] at h; split at h <;> cases h; rfl

end L1
