import Verif.Lemmas.Monad
/-
C09 (arithmetic), C10 (division), C11 (comparison chains), C12 (isqrt), C47 (randint).
Every theorem is about the interpreter applying the native function to already evaluated arguments:
`run W (n+1) d (.builtin b args e) s`, for any world, budgets, scope and state.
-/
set_option autoImplicit false
namespace L1

/-- The value is a number. -/
def IsNum (v : Val) : Prop := ∃ n, v = .num n

/-! ### C09 -/

theorem addLoop_nums (ns : List Int) (k : Int) (s : St) :
    bAddLoop k (ns.map .num) s = .ok (.num (k + ns.sum)) s := by
  induction ns generalizing k with
  | nil => simp [bAddLoop]
  | cons n ns ih => simp [bAddLoop, ih, Int.add_assoc]

theorem addLoop_bad (ns : List Int) (v : Val) (rest : List Val) (hv : ¬ IsNum v) (k : Int) (s : St) :
    bAddLoop k (ns.map .num ++ v :: rest) s = throwBase (fmt1 "expected number, got '" v "'") s := by
  induction ns generalizing k with
  | nil => cases v <;> first | rfl | (exact absurd ⟨_, rfl⟩ hv)
  | cons n ns ih => simp [bAddLoop, ih]

theorem subLoop_nums (ns : List Int) (k : Int) (s : St) :
    bSubLoop k (ns.map .num) s = .ok (.num (k - ns.sum)) s := by
  induction ns generalizing k with
  | nil => simp [bSubLoop]
  | cons n ns ih => simp [bSubLoop, ih]; omega

theorem subLoop_bad (ns : List Int) (v : Val) (rest : List Val) (hv : ¬ IsNum v) (k : Int) (s : St) :
    bSubLoop k (ns.map .num ++ v :: rest) s = throwBase (fmt1 "expected number, got '" v "'") s := by
  induction ns generalizing k with
  | nil => cases v <;> first | rfl | (exact absurd ⟨_, rfl⟩ hv)
  | cons n ns ih => simp [bSubLoop, ih]

theorem mulLoop_nums (ns : List Int) (k : Int) (s : St) :
    bMulLoop k (ns.map .num) s = .ok (.num (k * ns.prod)) s := by
  induction ns generalizing k with
  | nil => simp [bMulLoop]
  | cons n ns ih => simp [bMulLoop, ih, Int.mul_assoc]

theorem mulLoop_bad (ns : List Int) (v : Val) (rest : List Val) (hv : ¬ IsNum v) (k : Int) (s : St) :
    bMulLoop k (ns.map .num ++ v :: rest) s = throwBase (fmt1 "expected number, got '" v "'") s := by
  induction ns generalizing k with
  | nil => cases v <;> first | rfl | (exact absurd ⟨_, rfl⟩ hv)
  | cons n ns ih => simp [bMulLoop, ih]

/-- C09: `+` is the exact sum of any number of integers (0 for none), with no effect. -/
theorem C09_add (W : World) (n d e : Nat) (s : St) (ns : List Int) :
    run W (n + 1) d (.builtin .add (ns.map .num) e) s = .ok (.num ns.sum) s := by
  show bAddLoop 0 _ s = _
  rw [addLoop_nums]; simp

/-- C09: `*` is the exact product of any number of integers (1 for none), with no effect. -/
theorem C09_mul (W : World) (n d e : Nat) (s : St) (ns : List Int) :
    run W (n + 1) d (.builtin .mul (ns.map .num) e) s = .ok (.num ns.prod) s := by
  show bMulLoop 1 _ s = _
  rw [mulLoop_nums]; simp

/-- C09: `-` with one argument negates. -/
theorem C09_neg (W : World) (n d e : Nat) (s : St) (a : Int) :
    run W (n + 1) d (.builtin .sub [.num a] e) s = .ok (.num (-a)) s := rfl

/-- C09: `-` with more arguments subtracts the rest from the first. -/
theorem C09_sub (W : World) (n d e : Nat) (s : St) (a b : Int) (ns : List Int) :
    run W (n + 1) d (.builtin .sub ((a :: b :: ns).map .num) e) s
      = .ok (.num (a - (b :: ns).sum)) s := by
  show bSubLoop a ((b :: ns).map .num) s = _
  rw [subLoop_nums]

/-- C09: `-` with no argument is an error. -/
theorem C09_sub_none (W : World) (n d e : Nat) (s : St) :
    run W (n + 1) d (.builtin .sub [] e) s = throwBase "missing argument" s := rfl

/-- C09: a first argument that is not a number makes `+`, `-` and `*` fail, naming it, whatever the
arguments before (numbers) and after it; the state is unchanged. -/
theorem C09_type_error (W : World) (n d e : Nat) (s : St) (b : BI) (hb : b = .add ∨ b = .sub ∨ b = .mul)
    (ns : List Int) (v : Val) (rest : List Val) (hv : ¬ IsNum v) :
    run W (n + 1) d (.builtin b (ns.map .num ++ v :: rest) e) s
      = throwBase (fmt1 "expected number, got '" v "'") s := by
  rcases hb with rfl | rfl | rfl
  · exact addLoop_bad ns v rest hv 0 s
  · cases ns with
    | nil => cases v <;> first | rfl | (exact absurd ⟨_, rfl⟩ hv)
    | cons m ms =>
      have : run W (n + 1) d (.builtin .sub ((m :: ms).map .num ++ v :: rest) e) s
          = bSubLoop m (ms.map .num ++ v :: rest) s := by
        cases ms <;> rfl
      rw [this]; exact subLoop_bad ms v rest hv m s
  · exact mulLoop_bad ns v rest hv 1 s

/-- `(+ 1 2 'x oops)`, the argument values being 1, 2, x and anything. -/
example (W : World) (n d e : Nat) (s : St) (v : Val) :
    run W (n + 1) d (.builtin .add [.num 1, .num 2, .atom "x", v] e) s = throwBase (fmt1 "expected number, got '" (.atom "x") "'") s :=
  C09_type_error W n d e s .add (.inl rfl) [1, 2] (.atom "x") [v] (by rintro ⟨_, h⟩; cases h)

/-- C09: a list of values is either all numbers or has a first non-number, so the theorems above cover
every argument list. -/
theorem C09_cases (args : List Val) :
    (∃ ns : List Int, args = ns.map .num) ∨
    (∃ (ns : List Int) (v : Val) (rest : List Val), ¬ IsNum v ∧ args = ns.map .num ++ v :: rest) := by
  induction args with
  | nil => exact .inl ⟨[], rfl⟩
  | cons a as ih =>
    by_cases ha : IsNum a
    · obtain ⟨m, rfl⟩ := ha
      rcases ih with ⟨ns, rfl⟩ | ⟨ns, v, rest, hv, rfl⟩
      · exact .inl ⟨m :: ns, rfl⟩
      · exact .inr ⟨m :: ns, v, rest, hv, rfl⟩
    · exact .inr ⟨[], a, as, ha, rfl⟩

example : ¬ IsNum (.atom "x") := by rintro ⟨_, h⟩; cases h

/-! ### C10 -/

/-- `q` is the Euclidean quotient of `a` by `b`: what is left over lies in `[0, |b|)`. -/
def IsEuclidQuot (a b q : Int) : Prop := 0 ≤ a - b * q ∧ a - b * q < b.natAbs

/-- `r` is the remainder of truncated division: it has the sign of `a` (or is 0), is smaller than `b` in
magnitude, and `a - r` is a multiple of `b`. -/
def IsTruncRem (a b r : Int) : Prop :=
  (0 ≤ a → 0 ≤ r) ∧ (a ≤ 0 → r ≤ 0) ∧ r.natAbs < b.natAbs ∧ ∃ q, a = b * q + r

/-- The Euclidean quotient of `a` by all of `bs`, one after the other. -/
inductive EuclidQuots : Int → List Int → Int → Prop
  | nil (a : Int) : EuclidQuots a [] a
  | cons {a b q r : Int} {bs : List Int} : IsEuclidQuot a b q → EuclidQuots q bs r →
      EuclidQuots a (b :: bs) r

theorem goDiv_spec (a b : Int) (hb : b ≠ 0) : IsEuclidQuot a b (goDiv a b) := by
  have h := Int.mul_ediv_add_emod a b
  have h1 := Int.emod_nonneg a hb
  have h2 := Int.emod_lt a hb
  unfold IsEuclidQuot goDiv
  change _ ≤ a - b * (a / b) ∧ a - b * (a / b) < _
  omega

theorem euclidQuot_unique (a b q q' : Int) (h : IsEuclidQuot a b q) (h' : IsEuclidQuot a b q') : q = q' := by
  obtain ⟨h1, h2⟩ := h
  obtain ⟨h3, h4⟩ := h'
  have e : b * q - b * q' = b * (q - q') := by rw [Int.mul_sub]
  have hlt : (b * (q - q')).natAbs < b.natAbs := by omega
  rw [Int.natAbs_mul] at hlt
  have : (q - q').natAbs = 0 := by
    rcases Nat.eq_zero_or_pos (q - q').natAbs with h | h
    · exact h
    · have := Nat.le_mul_of_pos_right b.natAbs h
      omega
  omega

theorem goRem_spec (a b : Int) (hb : b ≠ 0) : IsTruncRem a b (goRem a b) := by
  have h := Int.mul_tdiv_add_tmod a b
  unfold IsTruncRem goRem
  refine ⟨fun h => Int.tmod_nonneg b h, fun h => ?_, ?_, a.tdiv b, by omega⟩
  · have := Int.tmod_nonneg b (a := -a) (by omega)
    rw [Int.neg_tmod] at this; omega
  · rw [Int.natAbs_tmod]; exact Nat.mod_lt _ (by omega)

theorem truncRem_unique (a b r r' : Int) (h : IsTruncRem a b r) (h' : IsTruncRem a b r') : r = r' := by
  obtain ⟨h1, h2, h3, q, hq⟩ := h
  obtain ⟨h1', h2', h3', q', hq'⟩ := h'
  have e : b * (q - q') = r' - r := by rw [Int.mul_sub]; omega
  have hlt : (b * (q - q')).natAbs < b.natAbs := by
    rw [e]
    rcases Int.le_total 0 a with ha | ha
    · have := h1 ha; have := h1' ha; omega
    · have := h2 ha; have := h2' ha; omega
  rw [Int.natAbs_mul] at hlt
  have : (q - q').natAbs = 0 := by
    rcases Nat.eq_zero_or_pos (q - q').natAbs with h | h
    · exact h
    · have := Nat.le_mul_of_pos_right b.natAbs h
      omega
  have : q - q' = 0 := by omega
  rw [this, Int.mul_zero] at e
  omega

theorem divLoop_nums (bs : List Int) (hz : ∀ b ∈ bs, b ≠ 0) (a : Int) (s : St) :
    ∃ r, bDivLoop a (bs.map .num) s = .ok (.num r) s ∧ EuclidQuots a bs r := by
  induction bs generalizing a with
  | nil => exact ⟨a, rfl, .nil a⟩
  | cons b bs ih =>
    have hb : b ≠ 0 := hz b (by simp)
    obtain ⟨r, h1, h2⟩ := ih (fun x hx => hz x (by simp [hx])) (goDiv a b)
    refine ⟨r, ?_, .cons (goDiv_spec a b hb) h2⟩
    simp [bDivLoop, Val.equal, hb, h1]

theorem divLoop_zero (bs : List Int) (hz : ∀ b ∈ bs, b ≠ 0) (rest : List Val) (a : Int) (s : St) :
    bDivLoop a (bs.map .num ++ .num 0 :: rest) s = throwBase "division by zero" s := by
  induction bs generalizing a with
  | nil => simp [bDivLoop, Val.equal]
  | cons b bs ih =>
    have hb : b ≠ 0 := hz b (by simp)
    simp [bDivLoop, Val.equal, hb, ih (fun x hx => hz x (by simp [hx]))]

theorem divLoop_bad (bs : List Int) (hz : ∀ b ∈ bs, b ≠ 0) (v : Val) (hv : ¬ IsNum v) (rest : List Val)
    (a : Int) (s : St) :
    bDivLoop a (bs.map .num ++ v :: rest) s = throwBase (fmt1 "expected number, got '" v "'") s := by
  induction bs generalizing a with
  | nil => cases v <;> first | rfl | (exact absurd ⟨_, rfl⟩ hv)
  | cons b bs ih =>
    have hb : b ≠ 0 := hz b (by simp)
    simp [bDivLoop, Val.equal, hb, ih (fun x hx => hz x (by simp [hx]))]

/-- C10: `(/ a b1 .. bk)` with non-zero divisors is the Euclidean quotient, taken from left to right. -/
theorem C10_div (W : World) (n d e : Nat) (s : St) (a : Int) (bs : List Int) (hz : ∀ b ∈ bs, b ≠ 0) :
    ∃ q, run W (n + 1) d (.builtin .div ((a :: bs).map .num) e) s = .ok (.num q) s
      ∧ EuclidQuots a bs q := divLoop_nums bs hz a s

/-- `(/ -7 2 2)` is -2. -/
example (W : World) (n d e : Nat) (s : St) : ∃ q, run W (n + 1) d (.builtin .div [.num (-7), .num 2, .num 2] e) s = .ok (.num q) s ∧ EuclidQuots (-7) [2, 2] q :=
  C10_div W n d e s (-7) [2, 2] (by simp)

/-- C10: two arguments; the quotient is characterised uniquely. -/
theorem C10_div2 (W : World) (n d e : Nat) (s : St) (a b q : Int) (hb : b ≠ 0) :
    run W (n + 1) d (.builtin .div [.num a, .num b] e) s = .ok (.num q) s ↔ IsEuclidQuot a b q := by
  have : run W (n + 1) d (.builtin .div [.num a, .num b] e) s = .ok (.num (goDiv a b)) s := by
    show bDivLoop a [.num b] s = _
    simp [bDivLoop, Val.equal, hb]
  rw [this]
  constructor
  · intro h; injection h with h; injection h with h; subst h; exact goDiv_spec a b hb
  · intro h; rw [euclidQuot_unique a b _ _ h (goDiv_spec a b hb)]

/-- `(/ -7 2)` is -4 and `(/ -7 -2)` is 4. -/
example (W : World) (n d e : Nat) (s : St) : run W (n + 1) d (.builtin .div [.num (-7), .num 2] e) s = .ok (.num (-4)) s ∧
    run W (n + 1) d (.builtin .div [.num (-7), .num (-2)] e) s = .ok (.num 4) s :=
  ⟨(C10_div2 W n d e s (-7) 2 (-4) (by decide)).2 (by simp [IsEuclidQuot]), (C10_div2 W n d e s (-7) (-2) 4 (by decide)).2 (by simp [IsEuclidQuot])⟩

/-- C10: the first zero divisor gives the error, whatever follows it (even a non-number). -/
theorem C10_div_zero (W : World) (n d e : Nat) (s : St) (a : Int) (bs : List Int) (hz : ∀ b ∈ bs, b ≠ 0)
    (rest : List Val) :
    run W (n + 1) d (.builtin .div (.num a :: (bs.map .num ++ .num 0 :: rest)) e) s
      = throwBase "division by zero" s := divLoop_zero bs hz rest a s

/-- `(/ 8 2 0 'x)`. -/
example (W : World) (n d e : Nat) (s : St) : run W (n + 1) d (.builtin .div [.num 8, .num 2, .num 0, .atom "x"] e) s = throwBase "division by zero" s :=
  C10_div_zero W n d e s 8 [2] (by simp) [.atom "x"]

/-- C10: a divisor that is not a number gives a type error naming it. -/
theorem C10_div_type (W : World) (n d e : Nat) (s : St) (a : Int) (bs : List Int) (hz : ∀ b ∈ bs, b ≠ 0)
    (v : Val) (hv : ¬ IsNum v) (rest : List Val) :
    run W (n + 1) d (.builtin .div (.num a :: (bs.map .num ++ v :: rest)) e) s
      = throwBase (fmt1 "expected number, got '" v "'") s := divLoop_bad bs hz v hv rest a s

/-- `(/ 8 2 'x 0)`. -/
example (W : World) (n d e : Nat) (s : St) :
    run W (n + 1) d (.builtin .div [.num 8, .num 2, .atom "x", .num 0] e) s = throwBase (fmt1 "expected number, got '" (.atom "x") "'") s :=
  C10_div_type W n d e s 8 [2] (by simp) (.atom "x") (by rintro ⟨_, h⟩; cases h) [.num 0]

/-- C10: `(rem a b)` for `b ≠ 0` is the remainder of truncated division, characterised uniquely. -/
theorem C10_rem (W : World) (n d e : Nat) (s : St) (a b r : Int) (hb : b ≠ 0) :
    run W (n + 1) d (.builtin .rem [.num a, .num b] e) s = .ok (.num r) s ↔ IsTruncRem a b r := by
  have : run W (n + 1) d (.builtin .rem [.num a, .num b] e) s = .ok (.num (goRem a b)) s := by
    show bRem [.num a, .num b] s = _
    simp [bRem, hb]
  rw [this]
  constructor
  · intro h; injection h with h; injection h with h; subst h; exact goRem_spec a b hb
  · intro h; rw [truncRem_unique a b _ _ h (goRem_spec a b hb)]

/-- `(rem -7 2)` is -1. -/
example (W : World) (n d e : Nat) (s : St) : run W (n + 1) d (.builtin .rem [.num (-7), .num 2] e) s = .ok (.num (-1)) s :=
  (C10_rem W n d e s (-7) 2 (-1) (by decide)).2 ⟨by decide, by decide, by decide, -3, by decide⟩

/-- C10: `(rem a 0)` is the error. -/
theorem C10_rem_zero (W : World) (n d e : Nat) (s : St) (a : Int) :
    run W (n + 1) d (.builtin .rem [.num a, .num 0] e) s = throwBase "division by zero" s := rfl

/-- C10: the two operations fit together, `b * (a / b) + (rem a b) = a`, exactly when `a` is not negative or
the division is exact: for other negative `a` the usual identity is false in l1. -/
theorem C10_identity (W : World) (n d e : Nat) (s : St) (a b q r : Int) (hb : b ≠ 0)
    (hq : run W (n + 1) d (.builtin .div [.num a, .num b] e) s = .ok (.num q) s)
    (hr : run W (n + 1) d (.builtin .rem [.num a, .num b] e) s = .ok (.num r) s) :
    b * q + r = a ↔ (0 ≤ a ∨ b ∣ a) := by
  rw [C10_div2 W n d e s a b q hb] at hq
  rw [C10_rem W n d e s a b r hb] at hr
  obtain ⟨hq1, hq2⟩ := hq
  obtain ⟨h1, h2, h3, p, hp⟩ := hr
  constructor
  · intro h
    rcases Int.le_total 0 a with ha | ha
    · exact .inl ha
    · have := h2 ha
      right; exact ⟨q, by omega⟩
  · rintro (ha | ⟨k, hk⟩)
    · have h0 := h1 ha
      have := euclidQuot_unique a b q p ⟨hq1, hq2⟩ ⟨by omega, by omega⟩
      subst this; omega
    · have e1 : b * (k - p) = r := by rw [Int.mul_sub]; omega
      have : r = 0 := by
        rw [← e1, Int.natAbs_mul] at h3
        rcases Nat.eq_zero_or_pos (k - p).natAbs with h | h
        · have : k - p = 0 := by omega
          rw [← e1, this, Int.mul_zero]
        · have := Nat.le_mul_of_pos_right b.natAbs h; omega
      have := euclidQuot_unique a b q k ⟨hq1, hq2⟩ ⟨by omega, by omega⟩
      subst this; omega

/-- For 7 and 2 the identity holds; for -7 and 2 it does not. -/
example (W : World) (n d e : Nat) (s : St) : (2 * 3 + 1 = (7 : Int) ↔ (0 ≤ (7 : Int) ∨ (2 : Int) ∣ 7)) ∧ (2 * (-4) + (-1) = (-7 : Int) ↔ (0 ≤ (-7 : Int) ∨ (2 : Int) ∣ -7)) :=
  ⟨C10_identity W n d e s 7 2 3 1 (by decide) rfl rfl, C10_identity W n d e s (-7) 2 (-4) (-1) (by decide) rfl rfl⟩

example : IsEuclidQuot (-7) 2 (-4) := by simp [IsEuclidQuot]
example : IsTruncRem (-7) 2 (-1) := ⟨by decide, by decide, by decide, -3, by decide⟩
/-- The witness of the disagreement: `(+ (* 2 (/ -7 2)) (rem -7 2))` is -9. -/
example : (2 * goDiv (-7) 2 + goRem (-7) 2 : Int) = -9 := by decide

/-! ### C11 -/

/-- Every element is related to the next one. -/
def ChainRel (R : Int → Int → Prop) : List Int → Prop
  | a :: b :: l => R a b ∧ ChainRel R (b :: l)
  | _ => True

/-- The relation each comparison stands for. -/
def cmpRel : BI → Option (Int → Int → Prop)
  | .lt => some (· < ·)
  | .le => some (· ≤ ·)
  | .gt => some (· > ·)
  | .ge => some (· ≥ ·)
  | _ => none

theorem cmpLoop_nums (R : Int → Int → Prop) [∀ a b, Decidable (R a b)] (ns : List Int) (a : Int) (s : St) :
    (ChainRel R (a :: ns) → bCmpLoop (fun a b => decide (R a b)) a (ns.map .num) s = .ok vTrue s) ∧
    (¬ ChainRel R (a :: ns) → bCmpLoop (fun a b => decide (R a b)) a (ns.map .num) s = .ok .nil s) := by
  induction ns generalizing a with
  | nil => simp [ChainRel, bCmpLoop]
  | cons b ns ih =>
    simp only [ChainRel, List.map_cons, bCmpLoop]
    by_cases h : R a b
    · simp only [h, true_and, decide_true, if_true]; exact ih b
    · simp [h]

theorem cmpLoop_bad (R : Int → Int → Prop) [∀ a b, Decidable (R a b)] (ns : List Int) (a : Int)
    (h : ChainRel R (a :: ns)) (v : Val) (hv : ¬ IsNum v) (rest : List Val) (s : St) :
    bCmpLoop (fun a b => decide (R a b)) a (ns.map .num ++ v :: rest) s
      = throwBase (fmt1 "'" v "' is not a number") s := by
  induction ns generalizing a with
  | nil => cases v <;> first | rfl | (exact absurd ⟨_, rfl⟩ hv)
  | cons b ns ih => simp [bCmpLoop, h.1, ih b h.2]

theorem cmpLoop_early (R : Int → Int → Prop) [∀ a b, Decidable (R a b)] (ns : List Int) (a : Int)
    (h : ¬ ChainRel R (a :: ns)) (rest : List Val) (s : St) :
    bCmpLoop (fun a b => decide (R a b)) a (ns.map .num ++ rest) s = .ok .nil s := by
  induction ns generalizing a with
  | nil => exact absurd trivial h
  | cons b ns ih =>
    simp only [List.map_cons, List.cons_append, bCmpLoop]
    by_cases hr : R a b
    · simp only [hr, decide_true, if_true]; exact ih b (fun hc => h ⟨hr, hc⟩)
    · simp [hr]

/-- C11: each of `< <= > >=` applied to integers `a0 a1 ...` gives `t` exactly when every one stands in the
relation to the next, and `()` otherwise; nothing else happens. -/
theorem C11_chain (W : World) (n d e : Nat) (s : St) (b : BI) (R : Int → Int → Prop) (hb : cmpRel b = some R)
    (a : Int) (ns : List Int) :
    (ChainRel R (a :: ns) → run W (n + 1) d (.builtin b ((a :: ns).map .num) e) s = .ok vTrue s) ∧
    (¬ ChainRel R (a :: ns) → run W (n + 1) d (.builtin b ((a :: ns).map .num) e) s = .ok .nil s) := by
  cases b <;> simp only [cmpRel, Option.some.injEq, reduceCtorEq] at hb <;> subst hb
  · exact cmpLoop_nums (· < ·) ns a s
  · exact cmpLoop_nums (· ≤ ·) ns a s
  · exact cmpLoop_nums (· > ·) ns a s
  · exact cmpLoop_nums (· ≥ ·) ns a s

/-- `(< 1 2 3)` is t, `(< 1 2 2)` is (). -/
example (W : World) (n d e : Nat) (s : St) : run W (n + 1) d (.builtin .lt [.num 1, .num 2, .num 3] e) s = .ok vTrue s ∧
    run W (n + 1) d (.builtin .lt [.num 1, .num 2, .num 2] e) s = .ok .nil s :=
  ⟨(C11_chain W n d e s .lt _ rfl 1 [2, 3]).1 (by simp [ChainRel]), (C11_chain W n d e s .lt _ rfl 1 [2, 2]).2 (by simp [ChainRel])⟩

/-- C11: with a non-number after numbers that do form a chain, the comparison is an error; after numbers that
do not, it is still `()` (later arguments are not looked at). -/
theorem C11_nonnumber (W : World) (n d e : Nat) (s : St) (b : BI) (R : Int → Int → Prop)
    (hb : cmpRel b = some R) (a : Int) (ns : List Int) (v : Val) (hv : ¬ IsNum v) (rest : List Val) :
    (ChainRel R (a :: ns) → run W (n + 1) d (.builtin b (.num a :: (ns.map .num ++ v :: rest)) e) s
      = throwBase (fmt1 "'" v "' is not a number") s) ∧
    (¬ ChainRel R (a :: ns) → run W (n + 1) d (.builtin b (.num a :: (ns.map .num ++ v :: rest)) e) s
      = .ok .nil s) := by
  cases b <;> simp only [cmpRel, Option.some.injEq, reduceCtorEq] at hb <;> subst hb
  · exact ⟨fun h => cmpLoop_bad (· < ·) ns a h v hv rest s, fun h => cmpLoop_early (· < ·) ns a h _ s⟩
  · exact ⟨fun h => cmpLoop_bad (· ≤ ·) ns a h v hv rest s, fun h => cmpLoop_early (· ≤ ·) ns a h _ s⟩
  · exact ⟨fun h => cmpLoop_bad (· > ·) ns a h v hv rest s, fun h => cmpLoop_early (· > ·) ns a h _ s⟩
  · exact ⟨fun h => cmpLoop_bad (· ≥ ·) ns a h v hv rest s, fun h => cmpLoop_early (· ≥ ·) ns a h _ s⟩

/-- `(< 1 2 'x)` is an error, `(< 2 1 'x)` is (). -/
example (W : World) (n d e : Nat) (s : St) : run W (n + 1) d (.builtin .lt [.num 1, .num 2, .atom "x"] e) s = throwBase (fmt1 "'" (.atom "x") "' is not a number") s ∧
    run W (n + 1) d (.builtin .lt [.num 2, .num 1, .atom "x"] e) s = .ok .nil s :=
  ⟨(C11_nonnumber W n d e s .lt _ rfl 1 [2] (.atom "x") (by rintro ⟨_, h⟩; cases h) []).1 (by simp [ChainRel]),
    (C11_nonnumber W n d e s .lt _ rfl 2 [1] (.atom "x") (by rintro ⟨_, h⟩; cases h) []).2 (by simp [ChainRel])⟩

/-- C11: no argument, or a first argument that is not a number, is an error. -/
theorem C11_first (W : World) (n d e : Nat) (s : St) (b : BI) (R : Int → Int → Prop) (hb : cmpRel b = some R)
    (v : Val) (hv : ¬ IsNum v) (rest : List Val) :
    run W (n + 1) d (.builtin b [] e) s = throwBase "missing argument" s ∧
    run W (n + 1) d (.builtin b (v :: rest) e) s = throwBase (fmt1 "'" v "' is not a number") s := by
  cases b <;> simp only [cmpRel, Option.some.injEq, reduceCtorEq] at hb <;> subst hb <;>
  exact ⟨rfl, by cases v <;> first | rfl | (exact absurd ⟨_, rfl⟩ hv)⟩

/-- `(>=)` and `(>= 'x 1)`. -/
example (W : World) (n d e : Nat) (s : St) : run W (n + 1) d (.builtin .ge [] e) s = throwBase "missing argument" s ∧
    run W (n + 1) d (.builtin .ge [.atom "x", .num 1] e) s = throwBase (fmt1 "'" (.atom "x") "' is not a number") s :=
  C11_first W n d e s .ge _ rfl (.atom "x") (by rintro ⟨_, h⟩; cases h) [.num 1]

example : ChainRel (· < ·) [1, 2, 10 ^ 30] ∧ ¬ ChainRel (· < ·) [1, 2, 2] := by simp [ChainRel]

/-! ### C12 -/

/-- One Newton step from `z` is never below the root (by squares, without division). -/
theorem newton_step_ge (x z r : Nat) (hz : 0 < z) (hr : r * r ≤ x) : r ≤ (x / z + z) / 2 := by
  rw [Nat.le_div_iff_mul_le (by omega)]
  -- 2 r ≤ x / z + z ; it is enough that 2 r z ≤ x + z z  (up to rounding)
  have h : r * 2 ≤ z ∨ z < r * 2 := by omega
  rcases h with h | h
  · exact Nat.le_trans h (Nat.le_add_left _ _)
  · have : r * 2 - z ≤ x / z := by
      rw [Nat.le_div_iff_mul_le hz]
      have h4 : (r * 2 - z) * z ≤ r * r := by
        obtain ⟨k, hk⟩ : ∃ k, r * 2 = z + k := ⟨r * 2 - z, by omega⟩
        rw [hk, Nat.add_sub_cancel_left]
        rcases Nat.le_total z r with h' | h'
        · obtain ⟨j, rfl⟩ := Nat.exists_eq_add_of_le h'
          have : k = z + 2 * j := by omega
          subst this
          have e1 : (z + 2 * j) * z = z * z + 2 * (j * z) := by rw [Nat.add_mul, Nat.mul_assoc]
          have e2 : (z + j) * (z + j) = z * z + 2 * (j * z) + j * j := by
            rw [Nat.add_mul, Nat.mul_add, Nat.mul_add, Nat.mul_comm z j]; omega
          omega
        · obtain ⟨j, rfl⟩ := Nat.exists_eq_add_of_le h'
          have : r = k + j := by omega
          subst this
          have e1 : k * (k + j + j) = k * k + 2 * (k * j) := by
            rw [Nat.mul_add, Nat.mul_add]; omega
          have e2 : (k + j) * (k + j) = k * k + 2 * (k * j) + j * j := by
            rw [Nat.add_mul, Nat.mul_add, Nat.mul_add, Nat.mul_comm j k]; omega
          omega
      omega
    omega

/-- If a Newton step does not decrease `z`, then `z * z ≤ x`. -/
theorem newton_stop (x z : Nat) (hz : 0 < z) (h : z ≤ (x / z + z) / 2) : z * z ≤ x := by
  have h1 : z ≤ x / z := by
    have := (Nat.le_div_iff_mul_le (by omega : 0 < 2)).1 h
    omega
  exact (Nat.le_div_iff_mul_le hz).1 h1

theorem newton_spec (x : Nat) (hx : 0 < x) : ∀ k z, z ≤ k → 0 < z → x < (z + 1) * (z + 1) →
    newton x k z * newton x k z ≤ x ∧ x < (newton x k z + 1) * (newton x k z + 1) := by
  intro k
  induction k with
  | zero => intro z h1 h2; omega
  | succ k ih =>
    intro z h1 h2 h3
    unfold newton
    by_cases h : (x / z + z) / 2 ≥ z
    · simp only [h, if_true]
      exact ⟨newton_stop x z h2 h, h3⟩
    · simp only [h, if_false]
      have hpos : 1 ≤ (x / z + z) / 2 := newton_step_ge x z 1 h2 (by omega)
      apply ih
      · omega
      · omega
      · -- the root is at most z2, so x < (z2+1)^2
        apply Nat.lt_of_not_le
        intro hle
        have := newton_step_ge x z _ h2 hle
        omega

theorem bigSqrt_spec (x : Nat) : bigSqrt x * bigSqrt x ≤ x ∧ x < (bigSqrt x + 1) * (bigSqrt x + 1) := by
  unfold bigSqrt
  by_cases h : x ≤ 1
  · simp only [h, if_true]
    have : x = 0 ∨ x = 1 := by omega
    rcases this with rfl | rfl <;> simp
  · simp only [h, if_false]
    apply newton_spec x (by omega) _ _ (Nat.le_refl _) (Nat.pow_pos (by omega))
    have h1 : x < 2 ^ (Nat.log2 x + 1) := Nat.lt_log2_self
    have h2 : 2 ^ (Nat.log2 x + 1) ≤ 2 ^ ((Nat.log2 x + 1 + 1) / 2) * 2 ^ ((Nat.log2 x + 1 + 1) / 2) := by
      rw [← Nat.pow_add]
      exact Nat.pow_le_pow_right (by omega) (by omega)
    generalize 2 ^ ((Nat.log2 x + 1 + 1) / 2) = z at *
    have : z * z ≤ (z + 1) * (z + 1) := Nat.mul_le_mul (by omega) (by omega)
    omega

/-- C12: for `n ≥ 0`, `(isqrt n)` is the greatest integer whose square is at most `n`. -/
theorem C12_isqrt (W : World) (n d e : Nat) (s : St) (x : Int) (hx : 0 ≤ x) :
    ∃ r : Int, run W (n + 1) d (.builtin .isqrt [.num x] e) s = .ok (.num r) s
      ∧ 0 ≤ r ∧ r * r ≤ x ∧ x < (r + 1) * (r + 1) := by
  refine ⟨(bigSqrt x.toNat : Nat), ?_, by omega, ?_, ?_⟩
  · show bIsqrt [.num x] s = _
    simp [bIsqrt, Int.not_lt.2 hx]
  · have := (bigSqrt_spec x.toNat).1; omega
  · have h := (bigSqrt_spec x.toNat).2
    generalize bigSqrt x.toNat = r at h
    have : ((x.toNat : Nat) : Int) < (((r + 1) * (r + 1) : Nat) : Int) := by exact_mod_cast h
    rw [Int.natCast_mul, Int.natCast_add, Int.natCast_one] at this
    rw [Int.toNat_of_nonneg hx] at this
    exact this

/-- `(isqrt 99)` is 9. -/
example (W : World) (n d e : Nat) (s : St) : run W (n + 1) d (.builtin .isqrt [.num 99] e) s = .ok (.num 9) s := by
  obtain ⟨r, h, h0, h1, h2⟩ := C12_isqrt W n d e s 99 (by decide)
  have h3 : r ≤ 9 := by
    by_cases h : r ≤ 9
    · exact h
    · have : 10 * 10 ≤ r * r := Int.mul_le_mul (by omega) (by omega) (by omega) (by omega)
      omega
  have h4 : 9 ≤ r := by
    by_cases h : 9 ≤ r
    · exact h
    · have : (r + 1) * (r + 1) ≤ 9 * 9 := Int.mul_le_mul (by omega) (by omega) (by omega) (by omega)
      omega
  obtain rfl : r = 9 := by omega
  exact h

/-- C12: a negative argument crashes the process. -/
theorem C12_negative (W : World) (n d e : Nat) (s : St) (x : Int) (hx : x < 0) :
    run W (n + 1) d (.builtin .isqrt [.num x] e) s = .crash "square root of negative number" s := by
  show bIsqrt [.num x] s = _
  simp [bIsqrt, hx]

/-- `(isqrt -4)`. -/
example (W : World) (n d e : Nat) (s : St) : run W (n + 1) d (.builtin .isqrt [.num (-4)] e) s = .crash "square root of negative number" s :=
  C12_negative W n d e s (-4) (by decide)

example : bigSqrt 99 = 9 := by decide

/-! ### C47 -/

/-- C47: for `0 < m < 2^63`, whatever the random source does, `(randint m)` is in `[0, m)`; only the counter of
outside queries changes. -/
theorem C47_range (W : World) (n d e : Nat) (s : St) (m : Int) (h0 : 0 < m) (h1 : m < 2 ^ 63) :
    ∃ r : Int, run W (n + 1) d (.builtin .randint [.num m] e) s
        = .ok (.num r) { s with tick := s.tick + 1 } ∧ 0 ≤ r ∧ r < m := by
  have hl : m.natAbs % 2 ^ 64 = m.natAbs := Nat.mod_eq_of_lt (by omega)
  refine ⟨((W.rand s.tick % m.natAbs : Nat) : Int), ?_, by omega, ?_⟩
  · show bRandint W [.num m] s = _
    have : m ≠ 0 := by omega
    have h2 : ¬ (m.natAbs = 0 ∨ 2 ^ 63 ≤ m.natAbs) := by omega
    simp only [bRandint, this, if_false, hl, h2]
    rfl
  · have := Nat.mod_lt (W.rand s.tick) (show 0 < m.natAbs by omega)
    omega

/-- A die. -/
example (W : World) (n d e : Nat) (s : St) := C47_range W n d e s 6 (by decide) (by decide)

/-- C47: every value below `m` can come out. -/
theorem C47_onto (n d e : Nat) (s : St) (m r : Int) (h0 : 0 ≤ r) (h1 : r < m) (h2 : m < 2 ^ 63) (W : World) :
    run { W with rand := fun _ => r.toNat } (n + 1) d (.builtin .randint [.num m] e) s
        = .ok (.num r) { s with tick := s.tick + 1 } := by
  have hl : m.natAbs % 2 ^ 64 = m.natAbs := Nat.mod_eq_of_lt (by omega)
  show bRandint _ [.num m] s = _
  have : m ≠ 0 := by omega
  have h3 : ¬ (m.natAbs = 0 ∨ 2 ^ 63 ≤ m.natAbs) := by omega
  simp only [bRandint, this, if_false, hl, h3]
  have : r.toNat % m.natAbs = r.toNat := Nat.mod_eq_of_lt (by omega)
  show Res.ok (Val.num ((r.toNat % m.natAbs : Nat) : Int)) _ = _
  rw [this]
  congr 2; omega

/-- Every face of a die can come up. -/
example (W : World) (n d e : Nat) (s : St) := C47_onto n d e s 6 5 (by decide) (by decide) (by decide) W

/-- C47: zero is an error, a non-number too, and any integer whose low 64 bits of magnitude are 0 or at least
2^63 crashes the process; negative integers are accepted and behave like their magnitude. -/
theorem C47_other (W : World) (n d e : Nat) (s : St) :
    run W (n + 1) d (.builtin .randint [.num 0] e) s = throwBase "randint expects a non-zero argument" s ∧
    (∀ v, ¬ IsNum v → run W (n + 1) d (.builtin .randint [v] e) s
        = throwBase (fmt1 "'" v "' is not a number") s) ∧
    (∀ m : Int, m ≠ 0 → (m.natAbs % 2 ^ 64 = 0 ∨ 2 ^ 63 ≤ m.natAbs % 2 ^ 64) →
      run W (n + 1) d (.builtin .randint [.num m] e) s = .crash "invalid argument to Intn" s) ∧
    (∀ m : Int, run W (n + 1) d (.builtin .randint [.num (-m)] e) s
        = run W (n + 1) d (.builtin .randint [.num m] e) s) := by
  refine ⟨rfl, ?_, ?_, ?_⟩
  · intro v hv; cases v <;> first | rfl | (exact absurd ⟨_, rfl⟩ hv)
  · intro m hm h
    show bRandint W [.num m] s = _
    simp only [bRandint, hm, if_false, h, if_true, crash_run]
  · intro m
    show bRandint W [.num (-m)] s = bRandint W [.num m] s
    simp only [bRandint, Int.natAbs_neg, Int.neg_eq_zero]

example : (2 ^ 64 : Int) ≠ 0 ∧ (2 ^ 64 : Int).natAbs % 2 ^ 64 = 0 := by decide

end L1
