import Verif.Spec.Written
import Verif.Spec.Words
import Verif.Props.Numbers
import Verif.Props.Data
import Verif.Props.Natives
import Verif.Props.Functions
import Verif.Props.Arity
import Verif.Props.Screen
import Verif.Props.SortBy
import Verif.Props.Macros
import Verif.Props.Forms
import Verif.Props.Invariants
/-
The properties of native functions for calls as they are written in programs.
-/
set_option autoImplicit false
namespace L1

variable {W : World} {s : St}

/-- The written call of a native function: the arguments, then the function; its error gets the name of the function in front. -/
theorem native_written (b : BI) {vs args : List Val} {e : Nat} {s0 : St} (hl : lookup s0.heap e b.name = none) (ha : EvalsTo W e args s0 vs s) :
    eval W (form b.name args) e s0 = extend ("builtin function " ++ b.name) (perform W (.builtin b vs e)) s := by
  have hh : CallHead s0.heap e (.atom b.name) := callHead_of (specialOf_builtin b) fun ps r bd dc env he => by rw [hl] at he; cases he
  exact eval_reaches hh ⟨s0, eval_atom_bi (isCxr_builtin b) (builtin_ne_t b) hl (builtinOf_name b), ha⟩

/-- Native functions that look at the scope of the call. -/
def BI.scoped (b : BI) : Bool := b ∈ [.apply, .eval, .load, .macroexpand1, .sortBy, .forms, .help]

theorem native_scope {b : BI} (hb : b.scoped = false) (call : Task → M Val) (vs : List Val) (e : Nat) : biFn W call b vs e = biFn W call b vs 0 := by
  cases b <;> first | exact absurd hb (by decide) | rfl

theorem CallEnds.ok {b : BI} {vs : List Val} {v : Val} {s' : St} (hb : b.scoped = false) (h : perform W (.builtin b vs 0) s = .ok v s') : CallEnds W s b.name vs (.ok v s') := by
  intro e args s0 hl ha
  rw [native_written b hl ha]
  refine extend_ok ?_
  rw [native_run, native_scope hb, ← native_run]; exact h

theorem CallEnds.err {b : BI} {vs : List Val} {v : Val} {s' : St} (hb : b.scoped = false) (h : perform W (.builtin b vs 0) s = .err (.list v) s') :
    CallEnds W s b.name vs (.err (.list (.cons (msgList ("builtin function " ++ b.name)) v)) s') := by
  intro e args s0 hl ha
  rw [native_written b hl ha]
  show _ = Res.err (extendErr (msgList _) (.list v)) s'
  refine extend_err ?_
  rw [native_run, native_scope hb, ← native_run]; exact h

theorem CallEnds.crash {b : BI} {vs : List Val} {w : String} {s' : St} (hb : b.scoped = false) (h : perform W (.builtin b vs 0) s = .crash w s') : CallEnds W s b.name vs (.crash w s') := by
  intro e args s0 hl ha
  rw [native_written b hl ha, extend, extendWith_run, native_run, native_scope hb, ← native_run, h]

theorem perform_run_ok {b : BI} {vs : List Val} {v : Val} {s' : St} (h : run W 1 0 (.builtin b vs 0) s = .ok v s') : perform W (.builtin b vs 0) s = .ok v s' := by
  rw [perform_of_run (by rw [h]; trivial), h]
theorem perform_run_err {b : BI} {vs : List Val} {er : Err} {s' : St} (h : run W 1 0 (.builtin b vs 0) s = .err er s') : perform W (.builtin b vs 0) s = .err er s' := by
  rw [perform_of_run (by rw [h]; trivial), h]
theorem perform_run_crash {b : BI} {vs : List Val} {w : String} {s' : St} (h : run W 1 0 (.builtin b vs 0) s = .crash w s') : perform W (.builtin b vs 0) s = .crash w s' := by
  rw [perform_of_run (by rw [h]; trivial), h]

theorem CallEnds.run {b : BI} {vs : List Val} {v : Val} {s' : St} (hb : b.scoped = false) (h : run W 1 0 (.builtin b vs 0) s = .ok v s') : CallEnds W s b.name vs (.ok v s') :=
  .ok hb (perform_run_ok h)

theorem CallEnds.run_err {b : BI} {vs : List Val} {m : String} (hb : b.scoped = false) (h : L1.run W 1 0 (.builtin b vs 0) s = throwBase m s) :
    CallEnds W s b.name vs (.err (nativeErr b.name m) s) := CallEnds.err hb (perform_run_err h)

/-! ### C08 -/

/-- C08: `(= x y ...)` is `t` exactly if all values are the same data, else `()`. -/
theorem C08_written (v : Val) (ws : List Val) :
    ((∀ w ∈ ws, v = w ∧ IsData v) → CallEnds W s "=" (v :: ws) (.ok (.atom "t") s)) ∧
    (¬ (∀ w ∈ ws, v = w ∧ IsData v) → CallEnds W s "=" (v :: ws) (.ok .nil s)) ∧
    CallEnds W s "=" [] (.err (nativeErr "=" "missing argument") s) :=
  ⟨fun h => CallEnds.run (b := .eq) rfl ((C08_equal W 0 0 0 s v ws).1 h), fun h => CallEnds.run (b := .eq) rfl ((C08_equal W 0 0 0 s v ws).2 h),
    CallEnds.run_err (b := .eq) rfl (C08_none W 0 0 0 s)⟩

/-! ### C09 -/

/-- C09: `(+ x ...)`, `(* x ...)`, `(- x)` and `(- x y ...)` on integers. -/
theorem C09_written (ns : List Int) (a b : Int) :
    CallEnds W s "+" (ns.map .num) (.ok (.num ns.sum) s) ∧ CallEnds W s "*" (ns.map .num) (.ok (.num ns.prod) s) ∧
    CallEnds W s "-" [.num a] (.ok (.num (-a)) s) ∧ CallEnds W s "-" ((a :: b :: ns).map .num) (.ok (.num (a - (b :: ns).sum)) s) ∧
    CallEnds W s "-" [] (.err (nativeErr "-" "missing argument") s) :=
  ⟨CallEnds.run (b := .add) rfl (C09_add ..), CallEnds.run (b := .mul) rfl (C09_mul ..), CallEnds.run (b := .sub) rfl (C09_neg ..), CallEnds.run (b := .sub) rfl (C09_sub ..),
    CallEnds.run_err (b := .sub) rfl (C09_sub_none ..)⟩

/-- C09: the first value that is not a number is named in the error. -/
theorem C09_written_error (name : String) (hn : name ∈ ["+", "-", "*"]) (ns : List Int) (v : Val) (rest : List Val) (hv : ¬ IsNum v) :
    CallEnds W s name (ns.map .num ++ v :: rest) (.err (nativeErr name (fmt1 "expected number, got '" v "'")) s) := by
  simp only [List.mem_cons, List.not_mem_nil, or_false] at hn
  rcases hn with rfl | rfl | rfl
  · exact CallEnds.run_err (b := .add) rfl (C09_type_error W 0 0 0 s _ (.inl rfl) ns v rest hv)
  · exact CallEnds.run_err (b := .sub) rfl (C09_type_error W 0 0 0 s _ (.inr (.inl rfl)) ns v rest hv)
  · exact CallEnds.run_err (b := .mul) rfl (C09_type_error W 0 0 0 s _ (.inr (.inr rfl)) ns v rest hv)

/-! ### C10 -/

/-- C10: `(/ x y ...)` and `(rem x y)`. -/
theorem C10_written (a : Int) (bs : List Int) (hz : ∀ b ∈ bs, b ≠ 0) :
    (∃ q, CallEnds W s "/" ((a :: bs).map .num) (.ok (.num q) s) ∧ EuclidQuots a bs q) ∧
    (∀ b : Int, b ≠ 0 → ∃ r, CallEnds W s "rem" [.num a, .num b] (.ok (.num r) s) ∧ IsTruncRem a b r) ∧
    (∀ rest, CallEnds W s "/" (.num a :: (bs.map .num ++ .num 0 :: rest)) (.err (nativeErr "/" "division by zero") s)) ∧
    CallEnds W s "rem" [.num a, .num 0] (.err (nativeErr "rem" "division by zero") s) ∧
    (∀ v rest, ¬ IsNum v → CallEnds W s "/" (.num a :: (bs.map .num ++ v :: rest)) (.err (nativeErr "/" (fmt1 "expected number, got '" v "'")) s)) := by
  refine ⟨?_, ?_, ?_, ?_, ?_⟩
  · obtain ⟨q, h1, h2⟩ := C10_div W 0 0 0 s a bs hz
    exact ⟨q, CallEnds.run (b := .div) rfl h1, h2⟩
  · intro b hb
    obtain ⟨r, hr⟩ : ∃ r, run W 1 0 (.builtin .rem [.num a, .num b] 0) s = .ok (.num r) s :=
      ⟨a.tmod b, (C10_rem W 0 0 0 s a b _ hb).2 ⟨fun h => Int.tmod_nonneg _ h, fun h => by
        have := Int.tmod_nonneg b (a := -a) (by omega); rw [Int.neg_tmod] at this; omega, by
        rw [Int.natAbs_tmod]; exact Nat.mod_lt _ (Int.natAbs_pos.2 hb), a.tdiv b, (Int.mul_tdiv_add_tmod a b).symm⟩⟩
    exact ⟨r, CallEnds.run (b := .rem) rfl hr, (C10_rem W 0 0 0 s a b r hb).1 hr⟩
  · exact fun rest => CallEnds.run_err (b := .div) rfl (C10_div_zero W 0 0 0 s a bs hz rest)
  · exact CallEnds.run_err (b := .rem) rfl (C10_rem_zero W 0 0 0 s a)
  · exact fun v rest hv => CallEnds.run_err (b := .div) rfl (C10_div_type W 0 0 0 s a bs hz v hv rest)

/-! ### C11 -/

/-- The relation a comparison is about. -/
def comparison : String → Option (Int → Int → Prop)
  | "<" => some (· < ·) | "<=" => some (· ≤ ·) | ">" => some (· > ·) | ">=" => some (· ≥ ·) | _ => none

/-- C11: `(< x y ...)` and its relatives. -/
theorem C11_written (name : String) (R : Int → Int → Prop) (hn : comparison name = some R) (a : Int) (ns : List Int) :
    (ChainRel R (a :: ns) → CallEnds W s name ((a :: ns).map .num) (.ok (.atom "t") s)) ∧
    (¬ ChainRel R (a :: ns) → CallEnds W s name ((a :: ns).map .num) (.ok .nil s)) ∧
    (∀ v rest, ¬ IsNum v → (ChainRel R (a :: ns) → CallEnds W s name (.num a :: (ns.map .num ++ v :: rest)) (.err (nativeErr name (fmt1 "'" v "' is not a number")) s)) ∧
      (¬ ChainRel R (a :: ns) → CallEnds W s name (.num a :: (ns.map .num ++ v :: rest)) (.ok .nil s)) ∧
      CallEnds W s name (v :: rest) (.err (nativeErr name (fmt1 "'" v "' is not a number")) s)) ∧
    CallEnds W s name [] (.err (nativeErr name "missing argument") s) := by
  have key : ∀ b : BI, b.scoped = false → cmpRel b = some R →
      (ChainRel R (a :: ns) → CallEnds W s b.name ((a :: ns).map .num) (.ok (.atom "t") s)) ∧
      (¬ ChainRel R (a :: ns) → CallEnds W s b.name ((a :: ns).map .num) (.ok .nil s)) ∧
      (∀ v rest, ¬ IsNum v → (ChainRel R (a :: ns) → CallEnds W s b.name (.num a :: (ns.map .num ++ v :: rest)) (.err (nativeErr b.name (fmt1 "'" v "' is not a number")) s)) ∧
        (¬ ChainRel R (a :: ns) → CallEnds W s b.name (.num a :: (ns.map .num ++ v :: rest)) (.ok .nil s)) ∧
        CallEnds W s b.name (v :: rest) (.err (nativeErr b.name (fmt1 "'" v "' is not a number")) s)) ∧
      CallEnds W s b.name [] (.err (nativeErr b.name "missing argument") s) := fun b hs hc =>
    ⟨fun h => CallEnds.run hs ((C11_chain W 0 0 0 s b R hc a ns).1 h), fun h => CallEnds.run hs ((C11_chain W 0 0 0 s b R hc a ns).2 h),
      fun v rest hv => ⟨fun h => CallEnds.run_err hs ((C11_nonnumber W 0 0 0 s b R hc a ns v hv rest).1 h), fun h => CallEnds.run hs ((C11_nonnumber W 0 0 0 s b R hc a ns v hv rest).2 h),
        CallEnds.run_err hs (C11_first W 0 0 0 s b R hc v hv rest).2⟩,
      CallEnds.run_err hs (C11_first W 0 0 0 s b R hc .nil (by rintro ⟨_, h⟩; cases h) []).1⟩
  unfold comparison at hn
  split at hn
  · exact key .lt rfl hn
  · exact key .le rfl hn
  · exact key .gt rfl hn
  · exact key .ge rfl hn
  · cases hn

/-! ### C12 -/

/-- C12: `(isqrt x)`. -/
theorem C12_written (x : Int) :
    (0 ≤ x → ∃ r : Int, CallEnds W s "isqrt" [.num x] (.ok (.num r) s) ∧ 0 ≤ r ∧ r * r ≤ x ∧ x < (r + 1) * (r + 1)) ∧
    (x < 0 → CallEnds W s "isqrt" [.num x] (.crash "square root of negative number" s)) := by
  refine ⟨fun hx => ?_, fun hx => CallEnds.crash (b := .isqrt) rfl (perform_run_crash (C12_negative W 0 0 0 s x hx))⟩
  obtain ⟨r, h1, h2⟩ := C12_isqrt W 0 0 0 s x hx
  exact ⟨r, CallEnds.run (b := .isqrt) rfl h1, h2⟩

/-! ### C13 -/

/-- C13: `(cons x y)`, `(car l)`, `(cdr l)`, `(list x ...)`, `(len l)`. -/
theorem C13_written (a b v : Val) (xs : List Val) :
    CallEnds W s "cons" [a, b] (.ok (.cons a b) s) ∧ CallEnds W s "car" [.cons a b] (.ok a s) ∧ CallEnds W s "cdr" [.cons a b] (.ok b s) ∧
    CallEnds W s "car" [.nil] (.ok .nil s) ∧ CallEnds W s "cdr" [.nil] (.ok .nil s) ∧
    (v ≠ .nil → (∀ x y, v ≠ .cons x y) → CallEnds W s "car" [v] (.err (nativeErr "car" (fmt1 "'" v "' is not a list")) s) ∧
      CallEnds W s "cdr" [v] (.err (nativeErr "cdr" (fmt1 "'" v "' is not a list")) s) ∧ CallEnds W s "len" [v] (.err (nativeErr "len" (fmt1 "'" v "' is not a list")) s)) ∧
    (∃ l, CallEnds W s "list" xs (.ok l s) ∧ Elements l xs ∧ CallEnds W s "len" [l] (.ok (.num xs.length) s)) ∧
    ((∀ xs, ¬ Elements (.cons a b) xs) → CallEnds W s "len" [.cons a b] (.crash "interface conversion" s)) := by
  refine ⟨CallEnds.run (b := .cons) rfl rfl, CallEnds.run (b := .car) rfl rfl, CallEnds.run (b := .cdr) rfl rfl, CallEnds.run (b := .car) rfl rfl, CallEnds.run (b := .cdr) rfl rfl,
    fun h1 h2 => ⟨?_, ?_, ?_⟩, ?_, fun h => ?_⟩
  · exact CallEnds.run_err (b := .car) rfl ((C13_car_cdr_other W 0 0 0 s .car (.inl rfl)).2 v h1 h2)
  · exact CallEnds.run_err (b := .cdr) rfl ((C13_car_cdr_other W 0 0 0 s .cdr (.inr rfl)).2 v h1 h2)
  · refine CallEnds.run_err (b := .len) rfl ((C13_len_other W 0 0 0 s v ?_).trans ?_)
    · intro xs hx
      cases hx with
      | nil => exact h1 rfl
      | cons => exact h2 _ _ rfl
    · cases v <;> first | rfl | exact absurd rfl (h2 _ _) | exact absurd rfl h1
  · obtain ⟨l, h1, h2⟩ := C13_list W 0 0 0 s xs
    exact ⟨l, CallEnds.run (b := .list) rfl h1, h2, CallEnds.run (b := .len) rfl (C13_len W 0 0 0 s l xs h2)⟩
  · exact CallEnds.crash (b := .len) rfl (perform_run_crash (C13_len_other W 0 0 0 s (.cons a b) h))

/-- C13: `(not x)`, `(atom? x)`, `(number? x)` and `(list? x)`. -/
theorem C13_written_predicates (v : Val) :
    (v = .nil → CallEnds W s "not" [v] (.ok (.atom "t") s)) ∧ (v ≠ .nil → CallEnds W s "not" [v] (.ok .nil s)) ∧
    ((∃ a, v = .atom a) → CallEnds W s "atom?" [v] (.ok (.atom "t") s)) ∧ ((¬ ∃ a, v = .atom a) → CallEnds W s "atom?" [v] (.ok .nil s)) ∧
    ((∃ n, v = .num n) → CallEnds W s "number?" [v] (.ok (.atom "t") s)) ∧ ((¬ ∃ n, v = .num n) → CallEnds W s "number?" [v] (.ok .nil s)) ∧
    ((v = .nil ∨ ∃ a d, v = .cons a d) → CallEnds W s "list?" [v] (.ok (.atom "t") s)) ∧ (¬ (v = .nil ∨ ∃ a d, v = .cons a d) → CallEnds W s "list?" [v] (.ok .nil s)) := by
  obtain ⟨h1, h2, h3, h4, h5, h6, h7⟩ := C13_predicates W v 0 s
  exact ⟨fun h => CallEnds.ok (b := .not) rfl (by rw [h1, if_pos h]), fun h => CallEnds.ok (b := .not) rfl (by rw [h1, if_neg h]),
    fun h => CallEnds.ok (b := .atomP) rfl (h2 h), fun h => CallEnds.ok (b := .atomP) rfl (h3 h), fun h => CallEnds.ok (b := .numberP) rfl (h4 h),
    fun h => CallEnds.ok (b := .numberP) rfl (h5 h), fun h => CallEnds.ok (b := .listP) rfl (h6 h), fun h => CallEnds.ok (b := .listP) rfl (h7 h)⟩

/-! ### C14 -/

/-- C14: `(split x)` and `(fuse l)`. -/
theorem C14_written :
    (∀ a : String, a ≠ "" → ¬ StartsWithDigit W a → ∃ l, CallEnds W s "split" [.atom a] (.ok l s) ∧
      Elements l (a.toList.map fun c => .atom (String.ofList [c])) ∧ CallEnds W s "fuse" [l] (.ok (.atom a) s)) ∧
    (∀ k : Nat, ∃ l, CallEnds W s "split" [.num k] (.ok l s) ∧ Elements l ((Nat.toDigits 10 k).map fun c => .num (digitsVal [c])) ∧ CallEnds W s "fuse" [l] (.ok (.num k) s)) ∧
    (∀ k : Nat, ∃ l, CallEnds W s "split" [.num (-(k + 1))] (.ok l s) ∧ CallEnds W s "fuse" [l] (.ok (.atom (String.ofList ('-' :: Nat.toDigits 10 (k + 1)))) s)) := by
  refine ⟨fun a ha hd => ?_, fun k => ?_, fun k => ?_⟩
  · cases hcs : a.toList with
    | nil => exact absurd (String.toList_injective (hcs.trans rfl)) ha
    | cons c cs =>
      obtain ⟨l, h1, h2, h3⟩ := C14_atom W 0 0 0 s a c cs hcs (by
        cases hc : isDigitW W c with
        | false => rfl
        | true =>
          refine absurd ⟨c, cs, hcs, ?_⟩ hd
          unfold isDigitW isDigitC at hc
          split at hc
          · left
            simp only [Bool.and_eq_true, decide_eq_true_eq, Char.le_def] at hc
            exact hc
          · right; exact ⟨by omega, hc⟩)
      exact ⟨l, CallEnds.run (b := .split) rfl h1, hcs ▸ h2, CallEnds.run (b := .fuse) rfl h3⟩
  · obtain ⟨l, h1, h2, h3⟩ := C14_nat W 0 0 0 s k
    exact ⟨l, CallEnds.run (b := .split) rfl h1, h2, CallEnds.run (b := .fuse) rfl h3⟩
  · obtain ⟨l, h1, h2⟩ := C14_negative W 0 0 0 s k
    exact ⟨l, CallEnds.run (b := .split) rfl h1, CallEnds.run (b := .fuse) rfl h2⟩

/-! ### C15, C16 -/

/-- C15: `(sort l)`. -/
theorem C15_written (xs : List Val) (v : Val) :
    (Sortable xs → ∃ ys, CallEnds W s "sort" [vlist xs] (.ok (vlist ys) s) ∧ ys.Perm xs ∧ ys.Pairwise SortLe ∧ (∀ zs, zs.Perm xs → zs.Pairwise SortLe → zs = ys)) ∧
    ((∀ xs, v = vlist xs → ¬ Sortable xs) → CallFails W s "sort" [v]) := by
  refine ⟨fun h => ?_, fun h => ?_⟩
  · obtain ⟨ys, h1, h2⟩ := C15_sort W 0 0 0 s xs h
    exact ⟨ys, CallEnds.run (b := .sort) rfl h1, h2⟩
  · obtain ⟨er, h1⟩ := C15_error W 0 0 0 s v h
    exact ⟨_, CallEnds.err (b := .sort) rfl (perform_run_err h1)⟩

/-- C16: `(shuffle l)`. -/
theorem C16_written (xs : List Val) (v : Val) :
    (∃ ys k, CallEnds W s "shuffle" [vlist xs] (.ok (vlist ys) { s with tick := s.tick + k }) ∧ ys.Perm xs) ∧
    ((∀ xs, ¬ Elements v xs) → CallFails W s "shuffle" [v]) := by
  refine ⟨?_, fun h => ?_⟩
  · obtain ⟨ys, k, h1, h2⟩ := C16_shuffle W 0 0 0 s xs
    exact ⟨ys, k, CallEnds.run (b := .shuffle) rfl h1, h2⟩
  · obtain ⟨er, h1⟩ := C16_error W 0 0 0 s v h
    exact ⟨_, CallEnds.err (b := .shuffle) rfl (perform_run_err h1)⟩

/-! ### C37, C43, C46, C47 -/

/-- C37: `(gensym)` and `(gensym p)` give a fresh atom, which is recorded as issued. -/
theorem C37_written (p : String) :
    (∃ a, CallEnds W s "gensym" [] (.ok (.atom a) { s with gensym := s.gensym + 1, issued := s.issued ++ [a] })) ∧
    ∃ a, CallEnds W s "gensym" [.atom p] (.ok (.atom a) { s with gensym := s.gensym + 1, issued := s.issued ++ [a] }) := by
  obtain ⟨a, h1⟩ := C37_gensym_recorded W 0 0 0 s [] (.inl rfl)
  obtain ⟨b, h2⟩ := C37_gensym_recorded W 0 0 0 s [.atom p] (.inr ⟨p, rfl⟩)
  exact ⟨⟨a, CallEnds.run (b := .gensym) rfl h1⟩, ⟨b, CallEnds.run (b := .gensym) rfl h2⟩⟩

/-- C43: `(print x ...)`, `(println x ...)` and `(printl l)`. -/
theorem C43_written (xs : List Val) :
    CallEnds W s "print" xs (.ok .nil { s with out := s.out ++ [' '].intercalate (xs.map Val.str) }) ∧
    CallEnds W s "println" xs (.ok .nil { s with out := s.out ++ ([' '].intercalate (xs.map Val.str) ++ ['\n']) }) ∧
    CallEnds W s "printl" [vlist xs] (.ok .nil { s with out := s.out ++ ([' '].intercalate (xs.map Val.str) ++ ['\n']) }) :=
  ⟨CallEnds.run (b := .print) rfl (C43_print W 0 0 0 s xs).1, CallEnds.run (b := .println) rfl (C43_print W 0 0 0 s xs).2, CallEnds.run (b := .printl) rfl (C43_printl W 0 0 0 s xs)⟩

/-- C46: `(source f)`. -/
theorem C46_written (v : Val) :
    (∀ ps r body doc m cenv, NoDoc body → v = .lam ps r (vlist body) doc m cenv → ∃ src, CallEnds W s "source" [v] (.ok src s) ∧
      ∀ e s', NotMacro s'.heap e "lambda" → eval W src e s' = .ok (.lam ps r (vlist body) .nil false e) s') ∧
    ((∀ ps r b dc m env, v ≠ .lam ps r b dc m env) → CallFails W s "source" [v]) := by
  refine ⟨?_, fun h => ?_⟩
  · rintro ps r body doc m cenv hd rfl
    have key : ∀ src s', perform W (.builtin .source [.lam ps r (vlist body) doc m cenv] 0) s = .ok src s' → ∀ e s', NotMacro s'.heap e "lambda" →
        eval W src e s' = .ok (.lam ps r (vlist body) .nil false e) s' := fun src s1 hs e s' hm => by
      obtain ⟨src', h1, h2⟩ := C46_source W 0 e cenv ps r body doc m s s' hd hm
      rw [hs] at h1
      cases h1
      exact h2
    obtain ⟨src, h1, -⟩ := C46_source W 0 0 cenv ps r body doc m s (initSt []) hd (notMacro_init [] _)
    exact ⟨src, CallEnds.ok (b := .source) rfl h1, key _ _ h1⟩
  · obtain ⟨er, h1⟩ := C46_no_source W 0 v s h
    exact ⟨_, CallEnds.err (b := .source) rfl h1⟩

/-- C47: `(randint m)`. -/
theorem C47_written (m : Int) :
    (0 < m → m < 2 ^ 63 → ∃ r : Int, CallEnds W s "randint" [.num m] (.ok (.num r) { s with tick := s.tick + 1 }) ∧ 0 ≤ r ∧ r < m) ∧
    CallEnds W s "randint" [.num 0] (.err (nativeErr "randint" "randint expects a non-zero argument") s) ∧
    (∀ v, ¬ IsNum v → CallEnds W s "randint" [v] (.err (nativeErr "randint" (fmt1 "'" v "' is not a number")) s)) ∧
    (m ≠ 0 → (m.natAbs % 2 ^ 64 = 0 ∨ 2 ^ 63 ≤ m.natAbs % 2 ^ 64) → CallEnds W s "randint" [.num m] (.crash "invalid argument to Intn" s)) := by
  obtain ⟨h1, h2, h3, -⟩ := C47_other W 0 0 0 s
  refine ⟨fun a b => ?_, CallEnds.run_err (b := .randint) rfl h1, fun v hv => CallEnds.run_err (b := .randint) rfl (h2 v hv),
    fun a b => CallEnds.crash (b := .randint) rfl (perform_run_crash (h3 m a b))⟩
  obtain ⟨r, h1, h2⟩ := C47_range W 0 0 0 s m a b
  exact ⟨r, CallEnds.run (b := .randint) rfl h1, h2⟩

/-! ### C48, C74 -/

/-- C48: the screen operations when no screen is on. -/
theorem C48_written_off (h : s.screen.on = false) (args : List Val) (x y : Int) (l : Val) (hl : l.isList = true) :
    CallFails W s "screen-clear" args ∧ CallFails W s "screen-size" args ∧ CallFails W s "screen-get-key" [] ∧ CallFails W s "screen-write" [.num x, .num y, l] := by
  obtain ⟨h1, h2, h3, h4⟩ := C48_not_initialised W 0 s h args x y l hl
  exact ⟨⟨_, CallEnds.err (b := .screenClear) rfl h1⟩, ⟨_, CallEnds.err (b := .screenSize) rfl h2⟩, ⟨_, CallEnds.err (b := .screenGetKey) rfl h3⟩, ⟨_, CallEnds.err (b := .screenWrite) rfl h4⟩⟩

/-- C48: the screen operations when the screen is on, and `screen-end` at any time. -/
theorem C48_written_on (h : s.screen.on = true) (args : List Val) (x y : Int) (l : Val) (hl : l.isList = true) :
    CallEnds W s "screen-clear" args (.ok .nil (ordered s [.clear, .show])) ∧
    CallEnds W s "screen-size" args (.ok (vlist [.num (W.size s.tick).1, .num (W.size s.tick).2]) { s with tick := s.tick + 1 }) ∧
    (∃ k, CallEnds W s "screen-get-key" [] (.ok (.atom k) { s with tick := s.tick + 1 })) ∧
    (∃ as, CallEnds W s "screen-write" [.num x, .num y, l] (.ok .nil (ordered s as))) ∧ CallFails W s "screen-start" args := by
  obtain ⟨h1, h2, ⟨k, h3⟩, ⟨as, h4⟩⟩ := C48_initialised W 0 s h args x y l hl
  exact ⟨CallEnds.ok (b := .screenClear) rfl h1, CallEnds.ok (b := .screenSize) rfl h2, ⟨k, CallEnds.ok (b := .screenGetKey) rfl h3⟩,
    ⟨as, CallEnds.ok (b := .screenWrite) rfl h4⟩, ⟨_, CallEnds.err (b := .screenStart) rfl (C48_second_start W 0 args s h)⟩⟩

/-- C48: starting the screen, when the terminal can be opened, and ending it. -/
theorem C48_written_start_end (args : List Val) :
    (s.screen.on = false → W.openScreen s.tick = .ok → CallEnds W s "screen-start" args (.ok .nil (ordered (screenIs true { s with tick := s.tick + 1 }) [.init]))) ∧
    CallEnds W s "screen-end" args (.ok .nil (screenClosed s)) :=
  ⟨fun h h1 => CallEnds.ok (b := .screenStart) rfl (by rw [C48_start W 0 args s h, h1]), CallEnds.ok (b := .screenEnd) rfl (C48_end W 0 args s).1⟩

/-- C74: `(screen-write x y l)` and `(sleep n)`. -/
theorem C74_written (x y : Int) (l : Val) (text : List Char) :
    (s.screen.on = true → l.isList = true → l.str = '(' :: (text ++ [')']) → x.natAbs + columnsOf W text < 2 ^ 63 → y.natAbs < 2 ^ 63 →
      CallEnds W s "screen-write" [.num x, .num y, l]
        (.ok .nil (ordered s ((text.mapIdx fun k c => cellAt W (x.natAbs + columnsOf W (text.take k)) y.natAbs c) ++ [.show])))) ∧
    (x.natAbs * 1000000 < 2 ^ 63 → CallEnds W s "sleep" [.num x] (.ok .nil (ordered s [.sleep (x.natAbs * 1000000)]))) ∧
    (∀ args, (∀ n, args ≠ [.num n]) → CallFails W s "sleep" args) := by
  refine ⟨fun h1 h2 h3 h4 h5 => CallEnds.ok (b := .screenWrite) rfl (C74_write W 0 s h1 x y l text h2 h3 h4 h5), fun h => CallEnds.ok (b := .sleep) rfl ((C74_sleep W 0 s).1 x h), fun args h => ?_⟩
  obtain ⟨v, h1⟩ := (C74_sleep W 0 s).2 args h
  exact ⟨_, CallEnds.err (b := .sleep) rfl h1⟩

/-! ### C50 to C53 -/

/-- C50: `(upcase x)` and `(downcase x)`. -/
theorem C50_written (vs : List Val) :
    (∀ a : String, vs = [.atom a] →
      (∃ b : String, CallEnds W s "upcase" vs (.ok (.atom b) s) ∧
        List.Forall₂ (fun c u => if c.toNat < 128 then CapitalOf u c ∨ (u = c ∧ ¬ ∃ u', CapitalOf u' c) else u = W.upper c) a.toList b.toList) ∧
      ∃ b : String, CallEnds W s "downcase" vs (.ok (.atom b) s) ∧
        List.Forall₂ (fun c l => if c.toNat < 128 then CapitalOf c l ∨ (l = c ∧ ¬ ∃ l', CapitalOf c l') else l = W.lower c) a.toList b.toList) ∧
    ((¬ ∃ a, vs = [.atom a]) → CallFails W s "upcase" vs ∧ CallFails W s "downcase" vs) := by
  refine ⟨?_, fun h => ?_⟩
  · rintro a rfl
    obtain ⟨b, h1, h2⟩ := C50_upcase W a 0 s
    obtain ⟨c, h3, h4⟩ := C50_downcase W a 0 s
    exact ⟨⟨b, CallEnds.ok (b := .upcase) rfl h1, h2⟩, ⟨c, CallEnds.ok (b := .downcase) rfl h3, h4⟩⟩
  · obtain ⟨⟨e1, h1⟩, ⟨e2, h2⟩⟩ := C50_error W vs 0 s h
    exact ⟨⟨_, CallEnds.err (b := .upcase) rfl h1⟩, ⟨_, CallEnds.err (b := .downcase) rfl h2⟩⟩

/-- C51: `(shell l)`. -/
theorem C51_written (v : Val) (ws : List String) (hv : Words v ws) (hne : ws ≠ []) :
    (∀ o er st, W.shell s.tick ws = .ok (o, er, st) →
      ∃ vo ve, CallEnds W s "shell" [v] (.ok (vlist [vo, ve, .num st]) { s with tick := s.tick + 1 }) ∧ Shape o vo ∧ Shape er ve) ∧
    (∀ msg, W.shell s.tick ws = .error msg → CallEnds W s "shell" [v] (.err (nativeErr "shell" ("error running shell command: " ++ msg)) { s with tick := s.tick + 1 })) ∧
    (∀ vs, (¬ ∃ v ws, vs = [v] ∧ Words v ws ∧ ws ≠ []) → CallFails W s "shell" vs) := by
  refine ⟨fun o er st h => ?_, fun msg h => CallEnds.err (b := .shell) rfl (C51_cannot_run W v ws 0 s msg hv hne h), fun vs h => ?_⟩
  · obtain ⟨vo, ve, h1, h2⟩ := C51_shell W v ws 0 s o er st hv hne h
    exact ⟨vo, ve, CallEnds.ok (b := .shell) rfl h1, h2⟩
  · obtain ⟨e1, h1⟩ := C51_error W vs 0 s h
    exact ⟨_, CallEnds.err (b := .shell) rfl h1⟩

/-- C52: `(readlist)` reads the next line of the input. -/
theorem C52_written (args : List Val) (line : List Char) (rest : List (List Char)) (hi : s.inp = line :: rest) :
    (∀ vs, Program (lexItems (splitOnChar '\n' line)) vs → CallEnds W s "readlist" args (.ok (vlist vs) { s with inp := rest })) ∧
    (∀ er, readText line = .err er →
      CallEnds W s "readlist" args (.err (.list (.cons (msgList "builtin function readlist") (.cons (msgList "parsing readlist input") er))) { s with inp := rest })) :=
  ⟨fun vs h => CallEnds.ok (b := .readlist) rfl (C52_forms W args 0 s line rest vs hi h), fun er h => CallEnds.err (b := .readlist) rfl (C52_syntax W args 0 s line rest er hi h)⟩

/-- C53: `(body f)`, `(doc f)` and `(version)`. -/
theorem C53_written (v : Val) (args : List Val) :
    (∀ ps r b d m env, v = .lam ps r b d m env → CallEnds W s "body" [v] (.ok b s) ∧ CallEnds W s "doc" [v] (.ok d s)) ∧
    ((∀ ps r b d m env, v ≠ .lam ps r b d m env) → CallFails W s "body" [v] ∧ ((∀ b, v ≠ .bi b) → CallFails W s "doc" [v])) ∧
    CallEnds W s "version" args (.ok (vlist [.num 0, .num 0, .num 57, .atom "dirty"]) s) := by
  refine ⟨?_, fun h => ⟨?_, fun hb => ?_⟩, CallEnds.ok (b := .version) rfl (C53_version W args 0 s)⟩
  · rintro ps r b d m env rfl
    obtain ⟨h1, h2⟩ := C53_body W ps r b d m env 0 s
    exact ⟨CallEnds.ok (b := .body) rfl h1, CallEnds.ok (b := .doc) rfl h2⟩
  · obtain ⟨⟨er, h1⟩, -⟩ := C53_body_error W v 0 s h
    exact ⟨_, CallEnds.err (b := .body) rfl h1⟩
  · obtain ⟨er, h1⟩ := (C53_body_error W v 0 s h).2 hb
    exact ⟨_, CallEnds.err (b := .doc) rfl h1⟩

/-! ### Functions that look at the scope of the call -/

/-- A written call of a native function that depends on the scope. -/
theorem written_ok {b : BI} {vs args : List Val} {e : Nat} {s0 s' : St} {v : Val} (hl : lookup s0.heap e b.name = none) (ha : EvalsTo W e args s0 vs s)
    (h : perform W (.builtin b vs e) s = .ok v s') : eval W (form b.name args) e s0 = .ok v s' := by
  rw [native_written b hl ha]; exact extend_ok h

theorem written_err {b : BI} {vs args : List Val} {e : Nat} {s0 s' : St} {er : Err} (hl : lookup s0.heap e b.name = none) (ha : EvalsTo W e args s0 vs s)
    (h : perform W (.builtin b vs e) s = .err er s') : eval W (form b.name args) e s0 = .err (er.under (msgList ("builtin function " ++ b.name))) s' := by
  rw [native_written b hl ha, extend_err h]; cases er <;> rfl

/-- C36: `(macroexpand-1 x)` gives the expansion of the value of `x` in the scope of the call, and the value itself if it is not a macro call. -/
theorem C36_written (e : Nat) (arg x : Val) (s0 : St) (hl : lookup s0.heap e "macroexpand-1" = none) (ha : eval W arg e s0 = .ok x s) :
    (∀ y s2, MacroStep W e x s y s2 → eval W (form "macroexpand-1" [arg]) e s0 = .ok y s2) ∧
    ((∀ m d, x = .cons (.atom m) d → NotMacro s.heap e m) → eval W (form "macroexpand-1" [arg]) e s0 = .ok x s) :=
  ⟨fun y s2 h => written_ok (b := .macroexpand1) hl (.cons ha .nil) (C36_macroexpand1 W e x y s s2 h),
    fun h => written_ok (b := .macroexpand1) hl (.cons ha .nil) (C36_macroexpand1_other W e x s h)⟩

/-- C56: `(sort-by f l)`: a result is a rearrangement of the list, and in order if the keys can be computed and compared. -/
theorem C56_written (e : Nat) (args : List Val) (f : Val) (xs : List Val) (s0 : St) (hl : lookup s0.heap e "sort-by" = none) (ha : EvalsTo W e args s0 [f, vlist xs] s) :
    (∀ v s', eval W (form "sort-by" args) e s0 = .ok v s' → ∃ ys, v = vlist ys ∧ ys.Perm xs) ∧
    (∀ (P : St → Prop) (key : Val → Val), W.Sorts → P s → (∀ a ∈ xs, KeyOf W P f e a (key a)) → Sortable (xs.map key) →
      ∃ ys s', eval W (form "sort-by" args) e s0 = .ok (vlist ys) s' ∧ P s' ∧ ys.Perm xs ∧ ys.Pairwise (fun a b => SortLe (key a) (key b))) := by
  refine ⟨fun v s' h => ?_, fun P key hW hP hk hs => ?_⟩
  · rw [show eval W (form "sort-by" args) e s0 = _ from native_written .sortBy hl ha, extend, extendWith_run] at h
    revert h
    cases hp : perform W (.builtin .sortBy [f, vlist xs] e) s with
    | ok w s1 => intro h; cases h; exact C56_permutation W f xs v e s s' hp
    | err er s1 => intro h; cases h
    | crash w s1 => intro h; cases h
    | exit c s1 => intro h; cases h
    | overflow s1 => intro h; cases h
    | oof => intro h; cases h
  · obtain ⟨ys, s', h1, h2⟩ := C56_sorted W hW P f key xs e s hP hk hs
    exact ⟨ys, s', written_ok (b := .sortBy) hl ha h1, h2⟩

/-- C57: `(load x)` reads the named file and evaluates its forms in the scope of the call. -/
theorem C57_written (e : Nat) (arg : Val) (name : String) (text : List Char) (s0 : St) (hl : lookup s0.heap e "load" = none) (ha : eval W arg e s0 = .ok (.atom name) s)
    (hr : W.readFile s.tick name = .ok text) :
    (∀ gs vs s1, readText text = .ok gs → EvalsTo W e gs (asked s) vs s1 → eval W (form "load" [arg]) e s0 = .ok .nil s1) ∧
    (∀ before vs x later er s1 s2, readText text = .ok (before ++ x :: later) → EvalsTo W e before (asked s) vs s1 → eval W x e s1 = .err er s2 →
      eval W (form "load" [arg]) e s0 = .err ((er.under (msgList "load file")).under (msgList "builtin function load")) s2) :=
  ⟨fun gs vs s1 hp h => written_ok (b := .load) hl (.cons ha .nil) (C57_load W name text gs vs e s s1 hr hp h),
    fun before vs x later er s1 s2 hp h hx => written_err (b := .load) hl (.cons ha .nil) (C57_error W name text before vs later x er e s s1 s2 hr hp h hx)⟩

/-- C69: a written call with a wrong number of arguments ends with a catchable error, after its arguments. -/
theorem C69_written (b : BI) (vs : List Val) (h : ¬ AllowsArgs b vs.length) (h1 : b ∉ ignoresArgs) (h2 : b ∉ otherArity)
    (e : Nat) (args : List Val) (s0 : St) (hl : lookup s0.heap e b.name = none) (ha : EvalsTo W e args s0 vs s) :
    ∃ m, eval W (form b.name args) e s0 = .err (.list m) s := by
  obtain ⟨m, hm⟩ := C69_native W b vs e s h h1 h2
  exact ⟨_, written_err hl ha hm⟩

/-! ### C78: native functions are values -/

/-- C78: a call whose head is any expression with a native function as its value ends exactly as the call by the name of the function, if the arguments have the same
values and leave the same state. -/
theorem C78_any_head (b : BI) (e : Nat) (fx : Val) (xs ys vs : List Val) (s0 s1 : St) (hh : CallHead s0.heap e fx) (h : Reaches W e fx xs s0 (.bi b) vs s)
    (hl : lookup s1.heap e b.name = none) (ha : EvalsTo W e ys s1 vs s) :
    eval W (.cons fx (vlist xs)) e s0 = eval W (form b.name ys) e s1 := by
  rw [native_written b hl ha, eval_reaches hh h]; rfl

/-- C78: the name of a native function, where it has no other meaning, is the function. -/
theorem C78_value (b : BI) (e : Nat) (h : lookup s.heap e b.name = none) : eval W (.atom b.name) e s = .ok (.bi b) s :=
  eval_atom_bi (isCxr_builtin b) (builtin_ne_t b) h (builtinOf_name b)

/-- C78: a variable that holds a native function can be called like the function. -/
theorem C78_variable (b : BI) (e : Nat) (a : String) (xs vs : List Val) (s0 : St) (hs : specialOf a = none) (hc : isCxr a = false) (ht : a ≠ "t")
    (hv : lookup s0.heap e a = some (.bi b)) (hl : lookup s0.heap e b.name = none) (ha : EvalsTo W e xs s0 vs s) :
    eval W (form a xs) e s0 = eval W (form b.name xs) e s0 := by
  refine C78_any_head (s := s) b e (.atom a) xs xs vs s0 s0 ?_ ⟨s0, ?_, ha⟩ hl ha
  · exact callHead_of hs fun ps r bd dc env he => by rw [hv] at he; cases he
  · exact eval_atom_bound hc ht hv

/-! ### Examples -/

/-- Numbers, as they are written. -/
theorem nums_evalsTo (W : World) (e : Nat) (ns : List Int) (s : St) : EvalsTo W e (ns.map .num) s (ns.map .num) s := by
  induction ns with
  | nil => exact .nil
  | cons n ns ih => exact .cons (by rw [eval_eq]; rfl) ih

/-- `(+ 1 2 3)`, `(* 2 3)`, `(- 7)`, `(/ 7 0)`, `(< 1 2)`, `(< 2 1)`, `(isqrt 10)`, `(list)`, `(= 1 1)` as written. -/
example (W : World) (inp : List (List Char)) :
    eval W (form "+" [.num 1, .num 2, .num 3]) 0 (initSt inp) = .ok (.num 6) (initSt inp) ∧
    eval W (form "*" [.num 2, .num 3]) 0 (initSt inp) = .ok (.num 6) (initSt inp) ∧
    eval W (form "-" [.num 7]) 0 (initSt inp) = .ok (.num (-7)) (initSt inp) ∧
    eval W (form "/" [.num 7, .num 0]) 0 (initSt inp) = .err (nativeErr "/" "division by zero") (initSt inp) ∧
    eval W (form "<" [.num 1, .num 2]) 0 (initSt inp) = .ok (.atom "t") (initSt inp) ∧
    eval W (form "<" [.num 2, .num 1]) 0 (initSt inp) = .ok .nil (initSt inp) ∧
    eval W (form "=" [.num 1, .num 1]) 0 (initSt inp) = .ok (.atom "t") (initSt inp) := by
  refine ⟨(C09_written (W := W) [1, 2, 3] 0 0).1 0 _ _ rfl (nums_evalsTo W 0 [1, 2, 3] _), (C09_written (W := W) [2, 3] 0 0).2.1 0 _ _ rfl (nums_evalsTo W 0 [2, 3] _),
    (C09_written (W := W) [] 7 0).2.2.1 0 _ _ rfl (nums_evalsTo W 0 [7] _), (C10_written (W := W) 7 [] (by simp)).2.2.1 [] 0 _ _ rfl (nums_evalsTo W 0 [7, 0] _),
    (C11_written (W := W) "<" _ rfl 1 [2]).1 (by simp [ChainRel]) 0 _ _ rfl (nums_evalsTo W 0 [1, 2] _),
    (C11_written (W := W) "<" _ rfl 2 [1]).2.1 (by simp [ChainRel]) 0 _ _ rfl (nums_evalsTo W 0 [2, 1] _),
    (C08_written (W := W) (.num 1) [.num 1]).1 (by simp only [List.mem_singleton, forall_eq]; exact ⟨trivial, .num 1⟩) 0 _ _ rfl (nums_evalsTo W 0 [1, 1] _)⟩

/-- `(sort 3)` is an error that can be caught; `(println 1 2)` prints. -/
example (W : World) (inp : List (List Char)) :
    (∃ v, eval W (form "sort" [.num 3]) 0 (initSt inp) = .err (.list v) (initSt inp)) ∧
    eval W (form "println" [.num 1, .num 2]) 0 (initSt inp) = .ok .nil { initSt inp with out := "1 2\n".toList } := by
  refine ⟨?_, (C43_written (W := W) [.num 1, .num 2]).2.1 0 _ _ rfl (nums_evalsTo W 0 [1, 2] _)⟩
  obtain ⟨v, h⟩ := (C15_written (W := W) (s := initSt inp) [] (.num 3)).2 (by intro xs h; cases xs <;> cases h)
  exact ⟨v, h 0 _ _ rfl (nums_evalsTo W 0 [3] _)⟩

/-- `(f 1 2)` where `f` is a variable with the value `+`. -/
example (W : World) : ∃ s : St, lookup s.heap 0 "f" = some (.bi .add) ∧ eval W (form "f" [.num 1, .num 2]) 0 s = .ok (.num 3) s := by
  refine ⟨{ initSt [] with heap := [{ syms := [("f", .bi .add)], parent := none }] }, rfl, ?_⟩
  exact (C78_variable .add 0 "f" _ _ _ rfl rfl (by decide) rfl rfl (nums_evalsTo W 0 [1, 2] _)).trans <| (C09_written (W := W) [1, 2] 0 0).1 0 _ _ rfl (nums_evalsTo W 0 [1, 2] _)

end L1
