import Verif.Lemmas.Digits
import Verif.Spec.Eval
import Verif.Lemmas.Sorter
/-
C08 (equality), C13 (list primitives), C14 (fuse/split), C15 (sort), C16 (shuffle), and the bridge from a
call written in a program to the application of a native function.
-/
set_option autoImplicit false
namespace L1

/-! ### From program text to native functions -/

/-- The form `(quote v)`. -/
def quoteForm (v : Val) : Val := vlist [.atom "quote", v]

/-- The form `(name (quote v1) ... (quote vk))`. -/
def callForm (name : String) (args : List Val) : Val := .cons (.atom name) (vlist (args.map quoteForm))

theorem notMacro_isMacroCall {h : Heap} {e : Nat} {name : String} (hn : NotMacro h e name) (d : Val) :
    isMacroCallIn (lookup h e) (.cons (.atom name) d) = false := by
  simp only [isMacroCallIn]
  split
  · rename_i ps r b dc m env hl
    cases m
    · rfl
    · exact absurd hl (hn _ _ _ _ _)
  · rfl

/-- The names of the special forms select them. -/
theorem specialOf_name (f : SF) : specialOf f.name = some f := by cases f <;> decide

/-- Evaluating a special form (whose name is not that of a macro). -/
theorem eval_special (W : World) (n d e : Nat) (s : St) (f : SF) (args : Val) (hm : NotMacro s.heap e f.name)
    (hl : args.isList = true) :
    run W (n + 1) d (.eval (.cons (.atom f.name) args) e) s
      = evSpecial (lower d (run W n)) (run W n d) f args e s := by
  show evalStep _ _ _ e s = _
  rw [evalStep_notMacro (notMacro_isMacroCall hm _)]
  show (if args.isList then _ else _ : M Val) s = _
  rw [if_pos hl]
  simp only [specialOf_name]

/-- A parameter list of names only. -/
theorem parseParams_names (ps : List String) : parseParams (vlist (ps.map .atom)) = .ok (ps, "", false) := by
  induction ps with
  | nil => rfl
  | cons p ps ih =>
    cases ps with
    | nil => rfl
    | cons q qs =>
      unfold parseParams
      simp only [List.map_cons, vlist_cons, Val.isList, if_true] at ih ⊢
      rw [ih]

theorem eval_quoteForm (W : World) (n d e : Nat) (s : St) (hq : NotMacro s.heap e "quote") (v : Val) :
    run W (n + 1) d (.eval (quoteForm v) e) s = .ok v s := by
  show evalStep _ _ (.cons (.atom "quote") (.cons v .nil)) e s = _
  rw [evalStep_notMacro (notMacro_isMacroCall hq _)]
  rfl

theorem evArgs_quoted (W : World) (n d e : Nat) (s : St) (hq : NotMacro s.heap e "quote") (args : List Val) :
    evArgs (run W (n + 1) d) e (vlist (args.map quoteForm)) s = .ok args s := by
  induction args with
  | nil => rfl
  | cons a as ih =>
    simp only [List.map_cons, vlist_cons, evArgs]
    rw [M.bind_ok (extend_ok (eval_quoteForm W n d e s hq a)), M.bind_ok ih]
    rfl

theorem builtinOf_name (b : BI) : builtinOf b.name = some b := by cases b <;> decide
theorem specialOf_builtin (b : BI) : specialOf b.name = none := by cases b <;> decide
theorem isCxr_builtin (b : BI) : isCxr b.name = false := by cases b <;> decide
theorem builtin_ne_t (b : BI) : b.name ≠ "t" := by cases b <;> decide

/-- Where neither the name of the native function nor `quote` is redefined, evaluating the call
`(name 'v1 ... 'vk)` is applying the native function to `v1 ... vk`: same value, same effects, and
an error gets the frame `(builtin function name)` in front.  This is how the theorems about
`.builtin` below speak about programs. -/
theorem builtin_call (W : World) (n d e : Nat) (s : St) (b : BI) (args : List Val)
    (hb : lookup s.heap e b.name = none) (hq : NotMacro s.heap e "quote") :
    evalIn W (n + 2) (d + 1) (callForm b.name args) e s
      = extend ("builtin function " ++ b.name) (run W (n + 1) d (.builtin b args e)) s := by
  have hm : NotMacro s.heap e b.name := by intro _ _ _ _ _ h; rw [hb] at h; cases h
  have hf : run W (n + 1) d (.eval (.atom b.name) e) s = .ok (.bi b) s := by
    show evalStep _ _ _ e s = _
    rw [evalStep_notMacro rfl]
    simp only [evExpr, isCxr_builtin, Bool.false_eq_true, if_false, evAtom, builtin_ne_t]
    rw [M.bind_ok (lookupM_run _ _ _), hb]
    simp only [builtinOf_name]
    rfl
  show evalStep _ _ _ e s = _
  unfold callForm
  rw [evalStep_notMacro (notMacro_isMacroCall hm _)]
  simp only [evExpr, isList_vlist, if_true, specialOf_builtin, evCall, lower_succ]
  rw [M.bind_ok (extend_ok hf), M.bind_ok (evArgs_quoted W n d e s hq args)]
  rfl

/-- The hypotheses hold in the initial state, for every native function. -/
example (b : BI) : lookup (initSt []).heap 0 b.name = none ∧ NotMacro (initSt []).heap 0 "quote" := by
  refine ⟨by cases b <;> decide, ?_⟩
  intro ps r b dc env h
  have h' : lookup (initSt []).heap 0 "quote" = none := by decide
  rw [h'] at h; cases h

/-! ### C08 -/

/-- Data: no function anywhere inside. -/
inductive IsData : Val → Prop
  | nil : IsData .nil
  | atom (a : String) : IsData (.atom a)
  | num (n : Int) : IsData (.num n)
  | cons {a d : Val} : IsData a → IsData d → IsData (.cons a d)

theorem equal_iff (a b : Val) : a.equal b = true ↔ (a = b ∧ IsData a) := by
  induction a generalizing b with
  | nil => cases b <;> simp [Val.equal, IsData.nil]
  | atom x => cases b <;> simp [Val.equal, IsData.atom]
  | num x => cases b <;> simp [Val.equal, IsData.num]
  | lam ps r bd dc m env => 
    constructor
    · intro h; cases b <;> simp [Val.equal] at h
    · rintro ⟨_, h⟩; cases h
  | bi x =>
    constructor
    · intro h; cases b <;> simp [Val.equal] at h
    · rintro ⟨_, h⟩; cases h
  | cons x y ihx ihy =>
    cases b with
    | cons x' y' =>
      simp only [Val.equal, Bool.and_eq_true, ihx, ihy]
      constructor
      · rintro ⟨⟨rfl, hx⟩, rfl, hy⟩; exact ⟨rfl, .cons hx hy⟩
      · rintro ⟨h, hc⟩
        injection h with h1 h2
        cases hc with
        | cons hx hy => exact ⟨⟨h1, hx⟩, h2, hy⟩
    | _ => simp [Val.equal]

/-- C08: `(= v w1 .. wk)` is `t` when every `wi` is the same data as `v` and no function occurs in it, and
`()` otherwise; nothing else happens.  (`Val` equality is sameness of atom names, integers and shape.) -/
theorem C08_equal (W : World) (n d e : Nat) (s : St) (v : Val) (ws : List Val) :
    ((∀ w ∈ ws, v = w ∧ IsData v) → run W (n + 1) d (.builtin .eq (v :: ws) e) s = .ok (.atom "t") s) ∧
    (¬ (∀ w ∈ ws, v = w ∧ IsData v) → run W (n + 1) d (.builtin .eq (v :: ws) e) s = .ok .nil s) := by
  have h : run W (n + 1) d (.builtin .eq (v :: ws) e) s = .ok (vBool (ws.all (fun w => v.equal w))) s := rfl
  have hall : ws.all (fun w => v.equal w) = true ↔ ∀ w ∈ ws, v = w ∧ IsData v := by
    simp [List.all_eq_true, equal_iff]
  rw [h]
  constructor
  · intro hw; rw [hall.2 hw]; rfl
  · intro hw
    have : ws.all (fun w => v.equal w) = false := by
      rw [← Bool.not_eq_true, hall]; exact hw
    rw [this]; rfl

/-- `(= '(1) '(1) '(1))` is t, `(= '(1) '(2))` is (). -/
example (W : World) (n d e : Nat) (s : St) :
    run W (n + 1) d (.builtin .eq [vlist [.num 1], vlist [.num 1], vlist [.num 1]] e) s = .ok (.atom "t") s ∧
    run W (n + 1) d (.builtin .eq [vlist [.num 1], vlist [.num 2]] e) s = .ok .nil s :=
  ⟨(C08_equal W n d e s (vlist [.num 1]) [vlist [.num 1], vlist [.num 1]]).1 (by simpa using IsData.cons (.num 1) .nil),
    (C08_equal W n d e s (vlist [.num 1]) [vlist [.num 2]]).2 (by simp [vlist, mkList])⟩

/-- C08: comparing anything that contains a function with anything is `()`, even with itself. -/
theorem C08_function (W : World) (n d e : Nat) (s : St) (v w : Val) (h : ¬ IsData v ∨ ¬ IsData w) :
    run W (n + 1) d (.builtin .eq [v, w] e) s = .ok .nil s := by
  apply (C08_equal W n d e s v [w]).2
  intro hall
  obtain ⟨rfl, hd⟩ := hall w (by simp)
  rcases h with h | h <;> exact h hd

/-- `(= car car)` is (). -/
example (W : World) (n d e : Nat) (s : St) : run W (n + 1) d (.builtin .eq [.bi .car, .bi .car] e) s = .ok .nil s :=
  C08_function W n d e s _ _ (.inl fun h => by cases h)

/-- C08: without arguments it is an error. -/
theorem C08_none (W : World) (n d e : Nat) (s : St) :
    run W (n + 1) d (.builtin .eq [] e) s = throwBase "missing argument" s := rfl

example : ¬ IsData (vlist [.num 1, .bi .add]) := by
  intro h; cases h with | cons _ h => cases h with | cons h _ => cases h
example : IsData (vlist [.num 1, .atom "a", .cons .nil (.num 2)]) :=
  .cons (.num 1) (.cons (.atom "a") (.cons (.cons .nil (.num 2)) .nil))

/-! ### C13 -/

/-- C13: car and cdr undo cons, for any two values. -/
theorem C13_cons (W : World) (n d e : Nat) (s : St) (a b : Val) :
    ∃ c, run W (n + 1) d (.builtin .cons [a, b] e) s = .ok c s ∧
      run W (n + 1) d (.builtin .car [c] e) s = .ok a s ∧
      run W (n + 1) d (.builtin .cdr [c] e) s = .ok b s := ⟨.cons a b, rfl, rfl, rfl⟩

/-- C13: car and cdr of `()` are `()`; of something that is not a list, an error naming it. -/
theorem C13_car_cdr_other (W : World) (n d e : Nat) (s : St) (b : BI) (hb : b = .car ∨ b = .cdr) :
    run W (n + 1) d (.builtin b [.nil] e) s = .ok .nil s ∧
    ∀ v, v ≠ .nil → (∀ x y, v ≠ .cons x y) →
      run W (n + 1) d (.builtin b [v] e) s = throwBase (fmt1 "'" v "' is not a list") s := by
  rcases hb with rfl | rfl <;> refine ⟨rfl, fun v h1 h2 => ?_⟩ <;>
    cases v <;> first | rfl | exact absurd rfl h1 | exact absurd rfl (h2 _ _)

/-- `(car 7)` is an error. -/
example (W : World) (n d e : Nat) (s : St) : run W (n + 1) d (.builtin .car [.num 7] e) s = throwBase (fmt1 "'" (.num 7) "' is not a list") s :=
  (C13_car_cdr_other W n d e s .car (.inl rfl)).2 _ (by simp) (by simp)

/-- Every list value: taking it apart with car and cdr and consing again gives the same value. -/
theorem C13_eta (W : World) (n d e : Nat) (s : St) (a b : Val) :
    ∃ x y, run W (n + 1) d (.builtin .car [.cons a b] e) s = .ok x s ∧
      run W (n + 1) d (.builtin .cdr [.cons a b] e) s = .ok y s ∧
      run W (n + 1) d (.builtin .cons [x, y] e) s = .ok (.cons a b) s := ⟨a, b, rfl, rfl, rfl⟩

/-- The elements of a proper list, by walking from car to cdr: the specification of `list` and `len`. -/
inductive Elements : Val → List Val → Prop
  | nil : Elements .nil []
  | cons {a d : Val} {xs : List Val} : Elements d xs → Elements (.cons a d) (a :: xs)

theorem elements_vlist (xs : List Val) : Elements (vlist xs) xs := by
  induction xs with
  | nil => exact .nil
  | cons x xs ih => exact .cons ih

theorem elements_iff {v : Val} {xs : List Val} : Elements v xs ↔ v = vlist xs := by
  constructor
  · intro h; induction h with
    | nil => rfl
    | cons _ ih => rw [ih]; rfl
  · rintro rfl; exact elements_vlist xs

/-- C13: `(list x1 .. xk)` is the proper list with exactly these elements, in order. -/
theorem C13_list (W : World) (n d e : Nat) (s : St) (xs : List Val) :
    ∃ l, run W (n + 1) d (.builtin .list xs e) s = .ok l s ∧ Elements l xs :=
  ⟨vlist xs, rfl, elements_vlist xs⟩

theorem lenLoop_vlist (xs : List Val) (k : Nat) (s : St) :
    bLenLoop k (vlist xs) s = .ok (.num ((k + xs.length : Nat) : Int)) s := by
  induction xs generalizing k with
  | nil => rfl
  | cons x xs ih =>
    simp only [vlist_cons, bLenLoop, ih, List.length_cons]
    congr 3; omega

/-- C13: `len` counts the elements of a proper list. -/
theorem C13_len (W : World) (n d e : Nat) (s : St) (l : Val) (xs : List Val) (h : Elements l xs) :
    run W (n + 1) d (.builtin .len [l] e) s = .ok (.num xs.length) s := by
  rw [elements_iff.1 h]
  show bLen [vlist xs] s = _
  simp [bLen, lenLoop_vlist]

/-- `(len '(a b c))` is 3. -/
example (W : World) (n d e : Nat) (s : St) : run W (n + 1) d (.builtin .len [vlist [.atom "a", .atom "b", .atom "c"]] e) s = .ok (.num 3) s :=
  C13_len W n d e s _ [.atom "a", .atom "b", .atom "c"] (elements_vlist _)

theorem lenLoop_dotted (v : Val) (h : ∀ xs, ¬ Elements v xs) (k : Nat) (s : St) :
    bLenLoop k v s = .crash "interface conversion" s := by
  induction v generalizing k with
  | nil => exact absurd .nil (h [])
  | cons a d _ ih =>
    simp only [bLenLoop]
    exact ih (fun xs hx => h (a :: xs) (.cons hx)) _
  | _ => rfl

/-- C13: `len` of a dotted list crashes the process; of a non-list it is an error. -/
theorem C13_len_other (W : World) (n d e : Nat) (s : St) (l : Val) (h : ∀ xs, ¬ Elements l xs) :
    run W (n + 1) d (.builtin .len [l] e) s =
      match l with
      | .cons _ _ => .crash "interface conversion" s
      | _ => throwBase (fmt1 "'" l "' is not a list") s := by
  show bLen [l] s = _
  cases l with
  | nil => exact absurd .nil (h [])
  | cons a b =>
    simp [bLen, Val.isList, lenLoop_dotted _ h]
  | _ => rfl

/-- `(len '(1 . 2))` is a crash, `(len 7)` an error. -/
example (W : World) (n d e : Nat) (s : St) :
    run W (n + 1) d (.builtin .len [.cons (.num 1) (.num 2)] e) s = .crash "interface conversion" s ∧
    run W (n + 1) d (.builtin .len [.num 7] e) s = throwBase (fmt1 "'" (.num 7) "' is not a list") s :=
  ⟨C13_len_other W n d e s (.cons (.num 1) (.num 2)) (fun _ h => by cases h with | cons h => cases h), C13_len_other W n d e s (.num 7) (fun _ h => by cases h)⟩

example : Elements (vlist [.num 1, .num 2]) [.num 1, .num 2] := elements_vlist _
example : ∀ xs, ¬ Elements (.cons (.num 1) (.num 2)) xs := by
  intro xs h; cases h with | cons h => cases h

/-! ### C14 -/

theorem fuseLoop_chars (cs : List Char) : fuseLoop (listOfChars cs) = some cs := by
  induction cs with
  | nil => rfl
  | cons c cs ih =>
    unfold listOfChars at *
    simp only [List.map_cons, vlist_cons, fuseLoop, ih]
    simp [Val.str, strAux]

/-- C14: an atom that does not begin with a digit is put together again by `fuse` after `split`. -/
theorem C14_atom (W : World) (n d e : Nat) (s : St) (a : String) (c : Char) (cs : List Char)
    (ha : a.toList = c :: cs) (hc : isDigitW W c = false) :
    ∃ l, run W (n + 1) d (.builtin .split [.atom a] e) s = .ok l s ∧
      Elements l (a.toList.map fun c => .atom (String.ofList [c])) ∧
      run W (n + 1) d (.builtin .fuse [l] e) s = .ok (.atom a) s := by
  refine ⟨listOfChars a.toList, rfl, elements_vlist _, ?_⟩
  show bFuse W [listOfChars a.toList] s = _
  have h := fuseLoop_chars (c :: cs)
  rw [ha]
  have e1 : listOfChars (c :: cs) = .cons (.atom (String.ofList [c])) (listOfChars cs) := rfl
  rw [e1] at h ⊢
  simp only [bFuse, h, hc]
  simp [← ha]

/-- `(fuse (split 'x1))` is x1. -/
example (W : World) (n d e : Nat) (s : St) : ∃ l, run W (n + 1) d (.builtin .split [.atom "x1"] e) s = .ok l s ∧
      Elements l ("x1".toList.map fun c => .atom (String.ofList [c])) ∧ run W (n + 1) d (.builtin .fuse [l] e) s = .ok (.atom "x1") s :=
  C14_atom W n d e s "x1" 'x' ['1'] (by decide) rfl

theorem listOfNums_digits (W : World) (cs : List Char) (h : cs.all isDigitC = true) :
    listOfNums W cs = some (vlist (cs.map fun c => .num (digitsVal [c]))) := by
  induction cs with
  | nil => rfl
  | cons c cs ih =>
    simp only [List.all_cons, Bool.and_eq_true] at h
    have hne : c ≠ '-' := by rintro rfl; simp [isDigitC] at h
    have : listOfNums W (c :: cs) = (listOfNums W cs).map (.cons (.num (numOfStr W [c]))) := by
      conv => lhs; unfold listOfNums
      split
      · rename_i heq; simp at heq
      · rename_i heq; simp at heq; exact absurd heq.1 hne
      · rename_i heq; simp at heq; exact absurd heq.1 hne
      · rename_i c' cs' _ _ heq
        simp only [List.cons.injEq] at heq
        rw [heq.1, heq.2]
    rw [this, ih h.2]
    simp only [numOfStr, numOfChars?_digits [c] (by simp) (by simp [h.1])]
    rfl

theorem fuseLoop_digits (cs : List Char) (h : cs.all isDigitC = true) :
    fuseLoop (vlist (cs.map fun c => .num (digitsVal [c]))) = some cs := by
  induction cs with
  | nil => rfl
  | cons c cs ih =>
    simp only [List.all_cons, Bool.and_eq_true] at h
    simp only [List.map_cons, vlist_cons, fuseLoop, ih h.2]
    have : Val.str (.num (digitsVal [c] : Nat)) = [c] := by
      show intStr (.ofNat (digitsVal [c])) = _
      exact toDigits_digit c h.1
    rw [this]; rfl

/-- C14: a non-negative integer splits into its decimal digits and fuses back to itself. -/
theorem C14_nat (W : World) (n d e : Nat) (s : St) (k : Nat) :
    ∃ l, run W (n + 1) d (.builtin .split [.num k] e) s = .ok l s ∧
      Elements l ((Nat.toDigits 10 k).map fun c => .num (digitsVal [c])) ∧
      run W (n + 1) d (.builtin .fuse [l] e) s = .ok (.num k) s := by
  have hd := digits_all k
  refine ⟨vlist ((Nat.toDigits 10 k).map fun c => .num (digitsVal [c])), ?_, elements_vlist _, ?_⟩
  · show bSplit W [.num (.ofNat k)] s = _
    simp [bSplit, intStr, listOfNums_digits W _ hd]
  · show bFuse W [_] s = _
    have hf := fuseLoop_digits _ hd
    have hnum := numOfChars?_intStr (.ofNat k)
    simp only [intStr] at hnum
    cases hcs : Nat.toDigits 10 k with
    | nil => exact absurd hcs Nat.toDigits_ne_nil
    | cons c cs =>
      rw [hcs] at hf hd hnum
      simp only [List.map_cons, vlist_cons] at hf ⊢
      simp only [bFuse, hf]
      have hc : isDigitC c = true := by simp only [List.all_cons, Bool.and_eq_true] at hd; exact hd.1
      have h128 : c.toNat < 128 := by
        simp [isDigitC, Char.le_def, UInt32.le_iff_toNat_le] at hc
        have : c.toNat ≤ 57 := hc.2
        omega
      simp only [isDigitW, h128, if_true, hc, numOfStr, hnum]
      rfl

/-- C14: a negative integer fuses back to the *atom* with its spelling, not to the number. -/
theorem C14_negative (W : World) (n d e : Nat) (s : St) (k : Nat) :
    ∃ l, run W (n + 1) d (.builtin .split [.num (.negSucc k)] e) s = .ok l s ∧
      run W (n + 1) d (.builtin .fuse [l] e) s = .ok (.atom (String.ofList (intStr (.negSucc k)))) s := by
  have hd := digits_all (k + 1)
  cases hcs : Nat.toDigits 10 (k + 1) with
  | nil => exact absurd hcs Nat.toDigits_ne_nil
  | cons c cs =>
    rw [hcs] at hd
    simp only [List.all_cons, Bool.and_eq_true] at hd
    have hpos : 0 < digitsVal [c] ∨ digitsVal [c] = 0 := by omega
    have hnum : numOfChars? ['-', c] = some (-(digitsVal [c] : Int)) := by
      simp [numOfChars?, hd.1]
    refine ⟨.cons (.num (-(digitsVal [c] : Int))) (vlist (cs.map fun c => .num (digitsVal [c]))), ?_, ?_⟩
    · show bSplit W [.num (.negSucc k)] s = _
      have : listOfNums W ('-' :: c :: cs) = (listOfNums W cs).map (.cons (.num (numOfStr W ['-', c]))) := rfl
      simp [bSplit, intStr, hcs, this, listOfNums_digits W cs hd.2, numOfStr, hnum]
    · -- the leading digit of a positive number is not zero
      have hlead : digitsVal [c] ≠ 0 := by
        intro h0
        have hc0 : c = '0' := by
          have := toDigits_digit c hd.1
          rw [h0] at this; simp at this; exact this.symm
        subst hc0
        exact lead_zero k cs hcs
      obtain ⟨m, hm⟩ : ∃ m, digitsVal [c] = m + 1 := ⟨digitsVal [c] - 1, by omega⟩
      have hstr : Val.str (.num (-(digitsVal [c] : Int))) = ['-', c] := by
        have h2 := toDigits_digit c hd.1
        rw [hm] at h2 ⊢
        show intStr (.negSucc m) = _
        simp only [intStr]
        rw [h2]
      show bFuse W [.cons (.num (-(digitsVal [c] : Int))) (vlist (cs.map fun c => .num (digitsVal [c])))] s = _
      have hf := fuseLoop_digits cs hd.2
      have hmin : isDigitW W '-' = false := by
        simp only [isDigitW]; rw [if_pos (by decide)]; rfl
      simp only [bFuse, fuseLoop, hf, hstr, Option.map_some, List.cons_append, hmin]
      simp [intStr, hcs]
where
  lead_zero (k : Nat) (cs : List Char) (h : Nat.toDigits 10 (k + 1) = '0' :: cs) : False := by
    induction k using Nat.strongRecOn generalizing cs with
    | ind k ih =>
      by_cases hk : k + 1 < 10
      · rw [Nat.toDigits_of_lt_base hk] at h
        have : ∀ j < 10, 0 < j → Nat.digitChar j ≠ '0' := by decide
        injection h with h _
        exact this _ hk (by omega) h
      · rw [Nat.toDigits_of_base_le (by omega) (by omega)] at h
        obtain ⟨m, hm⟩ : ∃ m, (k + 1) / 10 = m + 1 := ⟨(k + 1) / 10 - 1, by omega⟩
        rw [hm] at h
        cases h' : Nat.toDigits 10 (m + 1) with
        | nil => exact Nat.toDigits_ne_nil h'
        | cons x xs =>
          rw [h'] at h
          injection h with h1 _
          subst h1
          exact ih m (by omega) xs h'

example : isDigitW ⟨fun _ _ => .error "", fun _ => 0, fun _ _ => .error "", fun _ => none, fun _ => (0, 0),
    fun _ => .ok, fun _ => 0, id, id, fun _ => false, fun _ => 1, Sorter.insertion⟩ 'x' = false := by decide

/-! ### C15 -/

/-- "Comes before or is equal", on numbers and on atoms (code point order of the names). -/
def SortLe : Val → Val → Prop
  | .num a, .num b => a ≤ b
  | .atom a, .atom b => a ≤ b
  | _, _ => False

/-- All integers, or all atoms: what `sort` accepts. -/
def Sortable (xs : List Val) : Prop :=
  (∃ ns : List Int, xs = ns.map .num) ∨ (∃ ns : List String, xs = ns.map .atom)

theorem charsLt_iff (a b : List Char) : charsLt a b = true ↔ a < b := by
  induction a generalizing b with
  | nil => cases b <;> simp [charsLt]
  | cons x xs ih =>
    cases b with
    | nil => simp [charsLt]
    | cons y ys =>
      simp only [charsLt, List.cons_lt_cons_iff]
      have hlt : ∀ c d : Char, c < d ↔ c.toNat < d.toNat := fun c d => by
        rw [Char.lt_def, UInt32.lt_iff_toNat_lt]; rfl
      have heq : ∀ c d : Char, c = d ↔ c.toNat = d.toNat := fun c d =>
        ⟨fun h => by rw [h], fun h => by
          have := congrArg Char.ofNat h
          rwa [Char.ofNat_toNat, Char.ofNat_toNat] at this⟩
      rw [hlt, heq]
      by_cases h1 : x.toNat < y.toNat
      · simp [h1]
      · by_cases h2 : y.toNat < x.toNat
        · simp [h1, h2]; omega
        · have : x.toNat = y.toNat := by omega
          simp [this, ih]

theorem sortLess_total (x y : Val) (hxy : SortLe x y ∨ SortLe y x) : sortLess x y = false → SortLe y x := by
  cases x <;> cases y <;> simp only [SortLe, or_self] at hxy <;> simp only [sortLess, SortLe]
  · intro h
    rw [← Bool.not_eq_true, charsLt_iff] at h
    exact h
  · intro h; simp at h; exact h

theorem sortLess_le (x y : Val) : sortLess x y = true → SortLe x y := by
  cases x <;> cases y <;> simp only [sortLess, SortLe] <;> intro h
  all_goals first | (exact absurd h Bool.false_ne_true) | skip
  · rw [charsLt_iff] at h
    exact fun h' => absurd (List.lt_trans h h') (List.lt_irrefl _)
  · simp at h; omega

theorem insertSorted_perm (lt : Val → Val → Bool) (x : Val) (ys : List Val) :
    (insertSorted lt x ys).Perm (x :: ys) := by
  induction ys with
  | nil => exact .refl _
  | cons y ys ih =>
    simp only [insertSorted]
    split
    · exact .refl _
    · exact (ih.cons y).trans (.swap x y ys)

theorem insertSorted_sorted (x : Val) (ys : List Val) (h : ys.Pairwise SortLe)
    (htr : ∀ a ∈ x :: ys, ∀ b ∈ x :: ys, ∀ c ∈ x :: ys, SortLe a b → SortLe b c → SortLe a c)
    (htot : ∀ y ∈ ys, SortLe x y ∨ SortLe y x) :
    (insertSorted sortLess x ys).Pairwise SortLe := by
  induction ys with
  | nil => simp [insertSorted]
  | cons y ys ih =>
    simp only [insertSorted]
    rw [List.pairwise_cons] at h
    split
    · rename_i hlt
      rw [List.pairwise_cons]
      refine ⟨?_, List.pairwise_cons.2 h⟩
      intro z hz
      have hxy := sortLess_le x y hlt
      rcases List.mem_cons.1 hz with rfl | hz'
      · exact hxy
      · exact htr x (by simp) y (by simp) z (by simp [hz']) hxy (h.1 z hz')
    · rename_i hlt
      rw [List.pairwise_cons]
      constructor
      · intro z hz
        have hz' := (insertSorted_perm sortLess x ys).mem_iff.1 hz
        rcases List.mem_cons.1 hz' with rfl | hz''
        · exact sortLess_total _ _ (htot y (by simp)) (by simpa using hlt)
        · exact h.1 z hz''
      · apply ih h.2
        · intro a ha b hb c hc
          have sub : ∀ z, z ∈ x :: ys → z ∈ x :: y :: ys := by
            intro z hz; rcases List.mem_cons.1 hz with h | h <;> simp [h]
          exact htr a (sub a ha) b (sub b hb) c (sub c hc)
        · intro z hz; exact htot z (by simp [hz])

theorem sortLe_trans (a b c : Val) : SortLe a b → SortLe b c → SortLe a c := by
  cases a <;> cases b <;> cases c <;> simp only [SortLe] <;> intro h1 h2
  all_goals first | exact h1.elim | exact h2.elim | skip
  · exact fun h => absurd h (List.not_lt.2 (List.le_trans (List.not_lt.1 h1) (List.not_lt.1 h2)))
  · omega

theorem sortLe_total {xs : List Val} (h : Sortable xs) : ∀ a ∈ xs, ∀ b ∈ xs, SortLe a b ∨ SortLe b a := by
  rcases h with ⟨ns, rfl⟩ | ⟨ns, rfl⟩ <;> intro a ha b hb <;> simp only [List.mem_map] at ha hb <;>
    obtain ⟨x, _, rfl⟩ := ha <;> obtain ⟨y, _, rfl⟩ := hb <;> simp only [SortLe]
  · omega
  · rcases List.le_total x.toList y.toList with h | h
    · left; exact fun h' => absurd h' (List.not_lt.2 h)
    · right; exact fun h' => absurd h' (List.not_lt.2 h)

theorem sortLe_antisymm (a b : Val) : SortLe a b → SortLe b a → a = b := by
  cases a <;> cases b <;> simp only [SortLe] <;> intro h1 h2
  all_goals first | exact h1.elim | exact h2.elim | skip
  · congr 1
    exact String.toList_inj.1 (List.le_antisymm (List.not_lt.1 h1) (List.not_lt.1 h2))
  · congr 1; omega

theorem foldl_insert (xs acc : List Val) (hs : acc.Pairwise SortLe)
    (htot : ∀ a ∈ xs ++ acc, ∀ b ∈ xs ++ acc, SortLe a b ∨ SortLe b a) :
    (xs.foldl (fun acc x => insertSorted sortLess x acc) acc).Perm (xs ++ acc) ∧
    (xs.foldl (fun acc x => insertSorted sortLess x acc) acc).Pairwise SortLe := by
  induction xs generalizing acc with
  | nil => exact ⟨.refl _, hs⟩
  | cons x xs ih =>
    have hp := insertSorted_perm sortLess x acc
    have hs' := insertSorted_sorted x acc hs (fun a _ b _ c _ => sortLe_trans a b c)
      (fun y hy => htot x (by simp) y (by simp [hy]))
    have hpp : (xs ++ insertSorted sortLess x acc).Perm (x :: xs ++ acc) :=
      (hp.append_left xs).trans List.perm_middle
    obtain ⟨h1, h2⟩ := ih (insertSorted sortLess x acc) hs' (fun a ha b hb =>
      htot a (hpp.mem_iff.1 ha) b (hpp.mem_iff.1 hb))
    exact ⟨h1.trans hpp, h2⟩

/-- Two sorted permutations of the same list are equal. -/
theorem sorted_unique (xs ys : List Val) (hp : xs.Perm ys) (hx : xs.Pairwise SortLe) (hy : ys.Pairwise SortLe) :
    xs = ys :=
  hp.eq_of_pairwise (fun a b _ _ => sortLe_antisymm a b) hx hy

/-- C15: on a list of integers, or of atoms, `sort` returns a list `ys` that has the same elements with the same
multiplicities and is in non-decreasing order; and no other list has these two properties, so the
choice of sorting algorithm cannot be observed. -/
theorem C15_sort (W : World) (n d e : Nat) (s : St) (xs : List Val) (h : Sortable xs) :
    ∃ ys, run W (n + 1) d (.builtin .sort [vlist xs] e) s = .ok (vlist ys) s ∧
      ys.Perm xs ∧ ys.Pairwise SortLe ∧ (∀ zs, zs.Perm xs → zs.Pairwise SortLe → zs = ys) := by
  have hsort := foldl_insert xs [] .nil (by simpa using sortLe_total h)
  rw [List.append_nil] at hsort
  refine ⟨insertionSort sortLess xs, ?_, hsort.1, hsort.2, ?_⟩
  · show bSort [vlist xs] s = _
    simp only [bSort, isList_vlist, if_true, toList?_vlist]
    cases xs with
    | nil => rfl
    | cons x xs =>
      have hk : xs.find? (fun y => y.kind != x.kind) = none := by
        rw [List.find?_eq_none]
        intro y hy
        rcases h with ⟨ns, hns⟩ | ⟨ns, hns⟩
        · have hx : x ∈ ns.map Val.num := by rw [← hns]; simp
          have hy' : y ∈ ns.map Val.num := by rw [← hns]; simp [hy]
          simp only [List.mem_map] at hx hy'
          obtain ⟨a, _, rfl⟩ := hx; obtain ⟨b, _, rfl⟩ := hy'; simp [Val.kind]
        · have hx : x ∈ ns.map Val.atom := by rw [← hns]; simp
          have hy' : y ∈ ns.map Val.atom := by rw [← hns]; simp [hy]
          simp only [List.mem_map] at hx hy'
          obtain ⟨a, _, rfl⟩ := hx; obtain ⟨b, _, rfl⟩ := hy'; simp [Val.kind]
      simp only [bSortList, hk]
      rcases h with ⟨ns, hns⟩ | ⟨ns, hns⟩
      · have hx : x ∈ ns.map Val.num := by rw [← hns]; simp
        simp only [List.mem_map] at hx
        obtain ⟨a, _, rfl⟩ := hx; rfl
      · have hx : x ∈ ns.map Val.atom := by rw [← hns]; simp
        simp only [List.mem_map] at hx
        obtain ⟨a, _, rfl⟩ := hx; rfl
  · intro zs hz1 hz2
    exact sorted_unique _ _ (hz1.trans hsort.1.symm) hz2 hsort.2

/-- `(sort '(3 -1 3))` is `(-1 3 3)`. -/
example (W : World) (n d e : Nat) (s : St) : run W (n + 1) d (.builtin .sort [vlist [.num 3, .num (-1), .num 3]] e) s = .ok (vlist [.num (-1), .num 3, .num 3]) s := by
  obtain ⟨ys, h, _, _, hu⟩ := C15_sort W n d e s [.num 3, .num (-1), .num 3] (.inl ⟨[3, -1, 3], rfl⟩)
  rw [h, ← hu [.num (-1), .num 3, .num 3] (by decide) (by simp [SortLe])]

/-- C15: any other proper list is an error, and so is anything that is not a proper list; never a result. -/
theorem C15_error (W : World) (n d e : Nat) (s : St) (v : Val)
    (h : ∀ xs, v = vlist xs → ¬ Sortable xs) :
    ∃ er, run W (n + 1) d (.builtin .sort [v] e) s = .err (.list er) s := by
  show ∃ er, bSort [v] s = .err (.list er) s
  simp only [bSort]
  split
  · cases hxs : v.toList? with
    | some xs =>
      simp only
      rw [toList?_eq_some] at hxs
      have hns := h xs hxs
      cases xs with
      | nil => exact absurd (.inl ⟨[], rfl⟩) hns
      | cons x xs =>
        simp only [bSortList]
        cases hnone : xs.find? (fun y => y.kind != x.kind) with
        | some y => exact ⟨_, rfl⟩
        | none =>
          rw [List.find?_eq_none] at hnone
          cases x with
          | num k =>
            exfalso; apply hns; left
            have : ∀ y ∈ xs, ∃ m, y = .num m := by
              intro y hy
              have := hnone y hy
              cases y <;> simp [Val.kind] at this
              exact ⟨_, rfl⟩
            clear hnone hns h hxs
            induction xs with
            | nil => exact ⟨[k], rfl⟩
            | cons y ys ih =>
              obtain ⟨m, rfl⟩ := this y (by simp)
              obtain ⟨ns, hns⟩ := ih (fun z hz => this z (by simp [hz]))
              cases ns with
              | nil => simp at hns
              | cons n0 ns =>
                simp at hns
                exact ⟨k :: m :: ns, by simp [hns.2]⟩
          | atom k =>
            exfalso; apply hns; right
            have : ∀ y ∈ xs, ∃ m, y = .atom m := by
              intro y hy
              have := hnone y hy
              cases y <;> simp [Val.kind] at this
              exact ⟨_, rfl⟩
            clear hnone hns h hxs
            induction xs with
            | nil => exact ⟨[k], rfl⟩
            | cons y ys ih =>
              obtain ⟨m, rfl⟩ := this y (by simp)
              obtain ⟨ns, hns⟩ := ih (fun z hz => this z (by simp [hz]))
              cases ns with
              | nil => simp at hns
              | cons n0 ns =>
                simp at hns
                exact ⟨k :: m :: ns, by simp [hns.2]⟩
          | _ => exact ⟨_, rfl⟩
    | none => exact ⟨_, rfl⟩
  · exact ⟨_, rfl⟩

/-- Two values of the same type: two lists (empty or not), two atoms, two numbers, two functions written in the language, or two built-in ones. -/
inductive SameType : Val → Val → Prop
  | lists {v w : Val} : v.isList = true → w.isList = true → SameType v w
  | atoms (a b : String) : SameType (.atom a) (.atom b)
  | numbers (m n : Int) : SameType (.num m) (.num n)
  | functions {ps qs : List String} {r q : String} {b c d f : Val} {m n : Bool} {i j : Nat} : SameType (.lam ps r b d m i) (.lam qs q c f n j)
  | builtins (b c : BI) : SameType (.bi b) (.bi c)

theorem sameType_iff (v w : Val) : SameType v w ↔ v.kind = w.kind := by
  constructor
  · intro h
    cases h with
    | lists hv hw => cases v <;> cases hv <;> cases w <;> cases hw <;> rfl
    | _ => rfl
  · intro h
    cases v <;> cases w <;> first | exact .lists rfl rfl | exact .atoms _ _ | exact .numbers _ _ | exact .functions | exact .builtins _ _ | cases h

/-- C15: the error tells the first element whose type is not that of the first one; or, if they are all of the type of the first one, that this type cannot be sorted. -/
theorem C15_message (W : World) (n d e : Nat) (s : St) (x : Val) (xs : List Val) :
    (∀ before y later, xs = before ++ y :: later → (∀ z ∈ before, SameType x z) → ¬ SameType x y →
      run W (n + 1) d (.builtin .sort [vlist (x :: xs)] e) s = throwBase (y.toStr ++ " is not same type as " ++ x.toStr) s) ∧
    ((∀ z ∈ xs, SameType x z) → (∀ a, x ≠ .atom a) → (∀ m, x ≠ .num m) →
      run W (n + 1) d (.builtin .sort [vlist (x :: xs)] e) s = throwBase ("'" ++ x.toStr ++ "' is not a sortable type") s) := by
  have hrun : run W (n + 1) d (.builtin .sort [vlist (x :: xs)] e) s = bSortList (x :: xs) s := by
    show bSort [vlist (x :: xs)] s = _
    simp only [bSort, isList_vlist, if_true, toList?_vlist]
  rw [hrun]
  refine ⟨?_, fun h ha hn => ?_⟩
  · rintro before y later rfl hb hy
    have hk : (before ++ y :: later).find? (fun z => z.kind != x.kind) = some y := by
      rw [List.find?_append, List.find?_eq_none.2 (fun z hz => by have := (sameType_iff x z).1 (hb z hz); simp [this])]
      have : (y.kind != x.kind) = true := by
        rw [bne_iff_ne]
        exact fun h => hy ((sameType_iff x y).2 h.symm)
      simp [List.find?_cons, this]
    simp only [bSortList, hk]
  · have hk : xs.find? (fun z => z.kind != x.kind) = none := by
      rw [List.find?_eq_none]
      intro z hz
      have := (sameType_iff x z).1 (h z hz)
      simp [this]
    cases x with
    | atom a => exact absurd rfl (ha a)
    | num m => exact absurd rfl (hn m)
    | _ => simp only [bSortList, hk]; rfl

/-- `(sort '(() (1)))` and `(sort '(a 1))`. -/
example (W : World) (n d e : Nat) (s : St) : run W (n + 1) d (.builtin .sort [vlist [.nil, vlist [.num 1]]] e) s = throwBase "'()' is not a sortable type" s ∧
    run W (n + 1) d (.builtin .sort [vlist [.atom "a", .num 1]] e) s = throwBase "1 is not same type as a" s :=
  ⟨(C15_message W n d e s .nil [vlist [.num 1]]).2 (by simpa using .lists rfl rfl) (by simp) (by simp),
    (C15_message W n d e s (.atom "a") [.num 1]).1 [] (.num 1) [] rfl (by simp) (by rw [sameType_iff]; decide)⟩

/-- `(sort '(3 a))` is an error. -/
example (W : World) (n d e : Nat) (s : St) : ∃ er, run W (n + 1) d (.builtin .sort [vlist [.num 3, .atom "a"]] e) s = .err (.list er) s := by
  refine C15_error W n d e s _ fun xs h hs => ?_
  obtain rfl := vlist_inj h
  rcases hs with ⟨ns, h⟩ | ⟨ns, h⟩
  · match ns, h with
    | [_, _], h => simp at h
  · match ns, h with
    | [_, _], h => simp at h

example : Sortable [.num 3, .num (-1), .num 3] := .inl ⟨[3, -1, 3], rfl⟩
example : ∀ xs, vlist [.num 3, .atom "a"] = vlist xs → ¬ Sortable xs := by
  intro xs h hs
  have := vlist_inj h
  subst this
  rcases hs with ⟨ns, h⟩ | ⟨ns, h⟩
  · match ns, h with
    | [_, _], h => simp at h
  · match ns, h with
    | [_, _], h => simp at h

/-! ### C16 -/

theorem shuffleLoop_perm {α : Type} (W : World) (i : Nat) (xs : List α) (s : St) :
    ∃ ys, shuffleLoop W i xs s = .ok ys { s with tick := s.tick + i } ∧ ys.Perm xs := by
  induction i generalizing xs s with
  | zero => exact ⟨xs, rfl, .refl _⟩
  | succ i ih =>
    simp only [shuffleLoop]
    rw [M.bind_ok (askM_run _ _)]
    obtain ⟨ys, h1, h2⟩ := ih (swapAt xs (i + 1) (W.rand s.tick % (i + 2))) { s with tick := s.tick + 1 }
    refine ⟨ys, ?_, h2.trans (swapAt_perm _ _ _)⟩
    rw [h1]; simp only [Nat.add_assoc, Nat.add_comm 1 i]

/-- C16: whatever the random source does, `shuffle` returns a proper list with the same elements with the same
multiplicities, and changes nothing but the count of random numbers drawn. -/
theorem C16_shuffle (W : World) (n d e : Nat) (s : St) (xs : List Val) :
    ∃ ys k, run W (n + 1) d (.builtin .shuffle [vlist xs] e) s = .ok (vlist ys) { s with tick := s.tick + k } ∧
      ys.Perm xs := by
  obtain ⟨ys, h1, h2⟩ := shuffleLoop_perm W (xs.length - 1) xs s
  refine ⟨ys, xs.length - 1, ?_, h2⟩
  show bShuffle W [vlist xs] s = _
  simp only [bShuffle, isList_vlist, if_true, toList?_vlist]
  rw [M.bind_ok h1]; rfl

/-- C16: anything but a proper list is an error. -/
theorem C16_error (W : World) (n d e : Nat) (s : St) (v : Val) (h : ∀ xs, ¬ Elements v xs) :
    ∃ er, run W (n + 1) d (.builtin .shuffle [v] e) s = .err (.list er) s := by
  show ∃ er, bShuffle W [v] s = .err (.list er) s
  simp only [bShuffle]
  split
  · cases hxs : v.toList? with
    | some xs => exact absurd (elements_iff.2 (toList?_eq_some.1 hxs)) (h xs)
    | none => exact ⟨_, rfl⟩
  · exact ⟨_, rfl⟩

/-- `(shuffle '(1 . 2))` is an error. -/
example (W : World) (n d e : Nat) (s : St) : ∃ er, run W (n + 1) d (.builtin .shuffle [.cons (.num 1) (.num 2)] e) s = .err (.list er) s :=
  C16_error W n d e s _ fun _ h => by cases h with | cons h => cases h

end L1
