import Verif.Lemmas.Programs
import Verif.Spec.Programs
import Mathlib.Data.Nat.Factorial.Basic
import Mathlib.Data.Nat.Prime.Basic
import Mathlib.Data.Nat.PrimeFin
import Mathlib.Data.Nat.Nth
import Mathlib.Tactic.Ring
/-
The functions defined by the example programs compute what their names say.
-/
set_option autoImplicit false
namespace L1

variable {W : World}

theorem Prog.weaken {h : Heap} {U V : List (String × Val)} (hp : Prog h U) (hv : ∀ x v, alGet x V = some v → alGet x U = some v) : Prog h V :=
  ⟨hp.core, fun x v hx => hp.binds x v (hv x v hx)⟩

/-- A call of a function of the program. -/
theorem G.user {s : St} {e : Nat} {L : List (String × Val)} {a : String} {f v : Val} {xs vs : List Val} (hs : Sc s.heap e L)
    (hx : alGet a L = some f) (hm : (f.notMacro && (specialOf a).isNone && !isCxr a && a != "t") = true)
    (ha : GA W s e xs vs) (hr : Returns W s f vs v) : G W s e (.cons (.atom a) (vlist xs)) v := by
  simp only [Bool.and_eq_true, Option.isNone_iff_eq_none, Bool.not_eq_true', bne_iff_ne] at hm
  exact .callVar hs hx hm.1.1.1 hm.1.1.2 hm.1.2 hm.2 ha hr

theorem GA.three {s : St} {e : Nat} {x v y w z u : Val} (h : G W s e x v) (h' : G W s e y w) (h'' : G W s e z u) : GA W s e [x, y, z] [v, w, u] :=
  .cons h (.two h' h'')

theorem G.gt {s : St} {e : Nat} {L : List (String × Val)} {x y : Val} {m n : Int} (hs : Sc s.heap e L) (hx : alGet ">" L = none) (h : G W s e x (.num m)) (h' : G W s e y (.num n)) :
    G W s e (vlist [.atom ">", x, y]) (vBool (decide (n < m))) :=
  .fn hs hx hd_gt (.two h h') (.bi fun _ _ _ => by by_cases hmn : n < m <;> simp [biFn, bCmp, bCmpLoop, hmn, vBool])

/-! #### fact.l1 -/

/-- What fact.l1 defines. -/
def factDefs : List (String × Val) := [("fact", x_fact)]

theorem ret_fact (k : Nat) : ∀ {s : St}, Prog s.heap factDefs → Returns W s x_fact [.num k] (.num (Nat.factorial k)) := by
  induction k with
  | zero =>
    intro s hp
    exact .lam rfl (by decide) hp.sc fun s1 e1 hq hs =>
      .ifT hs (plain_of rfl) (.zeroT hs rfl (hp.mono hq.heap).core.base (.v hs rfl rfl)) (by decide) (.num _ _ _)
  | succ k ih =>
    intro s hp
    refine .lam rfl (by decide) hp.sc fun s1 e1 hq hs => ?_
    have hp1 := hp.mono hq.heap
    have hd := G.sub (W := W) (x := .atom "n") (y := .num 1) (m := ((k + 1 : Nat) : Int)) hs rfl (.v hs rfl rfl) (.num _ _ _)
    rw [show (((k + 1 : Nat) : Int)) - 1 = k by omega] at hd
    have := G.mul (W := W) (x := .atom "n") (m := ((k + 1 : Nat) : Int)) hs rfl (.v hs rfl rfl) (G.user (a := "fact") hs rfl rfl (.one hd) (ih hp1))
    rw [show (((k + 1 : Nat) : Int)) * ((Nat.factorial k : Nat) : Int) = ((Nat.factorial (k + 1) : Nat) : Int) by rw [Nat.factorial_succ]; push_cast; rfl] at this
    exact .ifF hs (plain_of rfl) (.zeroF (n := ((k + 1 : Nat) : Int)) hs rfl hp1.core.base (.v hs rfl rfl) (by omega)) this

/-! #### tco.l1 -/

/-- What tco.l1 defines. -/
def tcoDefs : List (String × Val) := [("sum-to-with-let", x_sum_to_with_let), ("sum-to", x_sum_to),
  ("sum-to-acc-with-let", x_sum_to_acc_with_let), ("sum-to-acc", x_sum_to_acc)]

/-- 1 + 2 + ... + k -/
def sumTo : Nat → Nat
  | 0 => 0
  | k + 1 => (k + 1) + sumTo k

theorem sumTo_eq (k : Nat) : 2 * sumTo k = k * (k + 1) := by
  induction k with
  | zero => rfl
  | succ k ih => rw [sumTo, Nat.mul_add, ih]; ring

theorem ret_sum_to_acc (k : Nat) : ∀ {s : St} (a : Int), Prog s.heap tcoDefs → Returns W s x_sum_to_acc [.num k, .num a] (.num (a + sumTo k)) := by
  induction k with
  | zero =>
    intro s a hp
    rw [show (a + (sumTo 0 : Nat)) = a by simp [sumTo]]
    exact .lam rfl (by decide) hp.sc fun s1 e1 hq hs =>
      .cond hs rfl known_cond (.hit (.zeroT hs rfl (hp.mono hq.heap).core.base (.v hs rfl rfl)) (by decide) (.v hs rfl rfl))
  | succ k ih =>
    intro s a hp
    refine .lam rfl (by decide) hp.sc fun s1 e1 hq hs => ?_
    have hp1 := hp.mono hq.heap
    have hd := G.sub (W := W) (x := .atom "n") (y := .num 1) (m := ((k + 1 : Nat) : Int)) hs rfl (.v hs rfl rfl) (.num _ _ _)
    rw [show (((k + 1 : Nat) : Int)) - 1 = k by omega] at hd
    have ha := G.add (W := W) (x := .atom "n") (y := .atom "acc") (m := ((k + 1 : Nat) : Int)) (n := a) hs rfl (.v hs rfl rfl) (.v hs rfl rfl)
    have := G.user (a := "sum-to-acc") hs rfl rfl (.two hd ha) (ih (((k + 1 : Nat) : Int) + a) hp1)
    rw [show (((k + 1 : Nat) : Int)) + a + (sumTo k : Nat) = a + (sumTo (k + 1) : Nat) by rw [sumTo]; push_cast; ring] at this
    exact .cond hs rfl known_cond (.skip (.zeroF (n := ((k + 1 : Nat) : Int)) hs rfl hp1.core.base (.v hs rfl rfl) (by omega)) (.hit (.t _ _) (by decide) this))

theorem ret_sum_to_acc_with_let (k : Nat) : ∀ {s : St} (a : Int), Prog s.heap tcoDefs → Returns W s x_sum_to_acc_with_let [.num k, .num a] (.num (a + sumTo k)) := by
  induction k with
  | zero =>
    intro s a hp
    rw [show (a + (sumTo 0 : Nat)) = a by simp [sumTo]]
    exact .lam rfl (by decide) hp.sc fun s1 e1 hq hs => .let1 hs rfl known_let (.cons (by decide) (.num _ _ _) .nil) fun s2 e2 hq2 hs2 =>
      .cond hs2 rfl known_cond (.hit (.zeroT hs2 rfl ((hp.mono hq.heap).mono hq2.heap).core.base (.v hs2 rfl rfl)) (by decide) (.v hs2 rfl rfl))
  | succ k ih =>
    intro s a hp
    refine .lam rfl (by decide) hp.sc fun s0 e0 hq0 hs0 => .let1 hs0 rfl known_let (.cons (by decide) (.num _ _ _) .nil) fun s1 e1 hq hs => ?_
    have hp1 := (hp.mono hq0.heap).mono hq.heap
    have hd := G.sub (W := W) (x := .atom "n") (y := .num 1) (m := ((k + 1 : Nat) : Int)) hs rfl (.v hs rfl rfl) (.num _ _ _)
    rw [show (((k + 1 : Nat) : Int)) - 1 = k by omega] at hd
    have ha := G.add (W := W) (x := .atom "n") (y := .atom "acc") (m := ((k + 1 : Nat) : Int)) (n := a) hs rfl (.v hs rfl rfl) (.v hs rfl rfl)
    have := G.user (a := "sum-to-acc-with-let") hs rfl rfl (.two hd ha) (ih (((k + 1 : Nat) : Int) + a) hp1)
    rw [show (((k + 1 : Nat) : Int)) + a + (sumTo k : Nat) = a + (sumTo (k + 1) : Nat) by rw [sumTo]; push_cast; ring] at this
    exact .cond hs rfl known_cond (.skip (.zeroF (n := ((k + 1 : Nat) : Int)) hs rfl hp1.core.base (.v hs rfl rfl) (by omega)) (.hit (.t _ _) (by decide) this))

theorem ret_sum_to (k : Nat) {s : St} (hp : Prog s.heap tcoDefs) : Returns W s x_sum_to [.num k] (.num (sumTo k)) := by
  refine .lam rfl (by decide) hp.sc fun s1 e1 hq hs => ?_
  have := ret_sum_to_acc (W := W) k 0 (hp.mono hq.heap)
  rw [Int.zero_add] at this
  exact .user hs rfl rfl (.two (.v hs rfl rfl) (.num _ _ _)) this

theorem ret_sum_to_with_let (k : Nat) {s : St} (hp : Prog s.heap tcoDefs) : Returns W s x_sum_to_with_let [.num k] (.num (sumTo k)) := by
  refine .lam rfl (by decide) hp.sc fun s1 e1 hq hs => ?_
  have := ret_sum_to_acc_with_let (W := W) k 0 (hp.mono hq.heap)
  rw [Int.zero_add] at this
  exact .user hs rfl rfl (.two (.v hs rfl rfl) (.num _ _ _)) this

/-! #### primes.l1 -/

/-- What primes.l1 defines first. -/
def primesDefs : List (String × Val) := [("prime?", x_primeP), ("smallest-divisor", x_smallest_divisor), ("find-divisor", x_find_divisor),
  ("square", x_square), ("divides?", x_dividesP)]

theorem ret_dividesP (d x : Int) (hd : d ≠ 0) {s : St} (hp : Prog s.heap primesDefs) : Returns W s x_dividesP [.num d, .num x] (vBool (decide (x.tmod d = 0))) := by
  refine .lam rfl (by decide) hp.sc fun s1 e1 hq hs => ?_
  have hr := G.rem (W := W) (x := .atom "x") (y := .atom "d") (m := x) (n := d) hs rfl (.v hs rfl rfl) (.v hs rfl rfl) hd
  by_cases h : x.tmod d = 0
  · rw [h] at hr
    rw [show vBool (decide (x.tmod d = 0)) = .atom "t" by simp [h, vBool, vTrue]]
    exact .zeroT hs rfl (hp.mono hq.heap).core.base hr
  · rw [show vBool (decide (x.tmod d = 0)) = .nil by simp [h, vBool]]
    exact .zeroF hs rfl (hp.mono hq.heap).core.base hr h

theorem ret_square (n : Int) {s : St} (hp : Prog s.heap primesDefs) : Returns W s x_square [.num n] (.num (n * n)) :=
  .lam rfl (by decide) hp.sc fun s1 e1 hq hs => .mul hs rfl (.v hs rfl rfl) (.v hs rfl rfl)

theorem ret_find_small (n : Int) (d : Int) (h : n < d * d) {s : St} (hp : Prog s.heap primesDefs) : Returns W s x_find_divisor [.num n, .num d] (.num n) := by
  refine .lam rfl (by decide) hp.sc fun s1 e1 hq hs => ?_
  have hp1 := hp.mono hq.heap
  have hg := G.gt (W := W) (x := vlist [.atom "square", .atom "test-divisor"]) (y := .atom "n") (n := n) hs rfl
    (G.user hs rfl rfl (.one (.v hs rfl rfl)) (ret_square d hp1)) (.v hs rfl rfl)
  rw [show decide (n < d * d) = true by simp [h]] at hg
  exact .cond hs rfl known_cond (.hit hg (by decide) (.v hs rfl rfl))

theorem ret_find_divisor (n : Nat) (m : Nat) : ∀ (d : Nat) {s : St}, n + 1 - d = m → 2 ≤ d → d ≤ n → (∀ j, 2 ≤ j → j < d → ¬ j ∣ n) → Prog s.heap primesDefs →
    Returns W s x_find_divisor [.num n, .num d] (.num n.minFac) := by
  induction m using Nat.strongRecOn with
  | _ m ih =>
    intro d s hm h2 hn hj hp
    by_cases hlt : n < d * d
    · have := ret_find_small (W := W) (n : Int) (d : Int) (by exact_mod_cast hlt) hp
      have hpr : n.minFac = n := by
        by_contra hne
        have hnp : ¬ n.Prime := fun h => hne h.minFac_eq
        have h1 := Nat.minFac_sq_le_self (by omega) hnp
        have h3 : n.minFac < d := by
          by_contra hge
          have := Nat.mul_le_mul (Nat.le_of_not_lt hge) (Nat.le_of_not_lt hge)
          rw [pow_two] at h1
          omega
        have hp2 := Nat.minFac_prime (n := n) (by omega)
        exact hj _ hp2.two_le h3 (Nat.minFac_dvd n)
      rw [hpr]; exact this
    · refine .lam rfl (by decide) hp.sc fun s1 e1 hq hs => ?_
      have hp1 := hp.mono hq.heap
      have hg := G.gt (W := W) (x := vlist [.atom "square", .atom "test-divisor"]) (y := .atom "n") (n := n) hs rfl
        (G.user hs rfl rfl (.one (.v hs rfl rfl)) (ret_square d hp1)) (.v hs rfl rfl)
      rw [show decide ((n : Int) < (d : Int) * d) = false by simp; exact_mod_cast Nat.le_of_not_lt hlt] at hg
      have hdv := G.user (W := W) (a := "divides?") hs rfl rfl (.two (.v (a := "test-divisor") hs rfl rfl) (.v (a := "n") hs rfl rfl)) (ret_dividesP (W := W) d n (by omega) hp1)
      have htm : (n : Int).tmod d = ((n % d : Nat) : Int) := by
        rw [Int.tmod_eq_emod_of_nonneg (by omega)]; rfl
      by_cases hdd : d ∣ n
      · have hmf : n.minFac = d := by
          refine Nat.le_antisymm (Nat.minFac_le_of_dvd h2 hdd) ?_
          by_contra hlt2
          exact hj _ (Nat.minFac_prime (n := n) (by omega)).two_le (by omega) (Nat.minFac_dvd n)
        rw [show decide ((n : Int).tmod d = 0) = true by rw [htm, Nat.mod_eq_zero_of_dvd hdd]; rfl] at hdv
        rw [hmf]
        exact .cond hs rfl known_cond (.skip hg (.hit hdv (by decide) (.v hs rfl rfl)))
      · have hne : n % d ≠ 0 := fun h => hdd (Nat.dvd_of_mod_eq_zero h)
        rw [show decide ((n : Int).tmod d = 0) = false by rw [htm]; simp; exact_mod_cast hne] at hdv
        have hdn : d < n := by
          rcases Nat.lt_or_ge d n with h | h
          · exact h
          · exact absurd (by rw [Nat.le_antisymm hn h]) hdd
        have hi := ih (n + 1 - (d + 1)) (by omega) (d + 1) rfl (by omega) (by omega) (fun j hj1 hj2 => by
          rcases Nat.lt_or_ge j d with h | h
          · exact hj j hj1 h
          · have : j = d := by omega
            rw [this]; exact hdd) hp1
        have ha := G.add (W := W) (x := .atom "test-divisor") (y := .num 1) (m := d) hs rfl (.v hs rfl rfl) (.num _ _ _)
        exact .cond hs rfl known_cond (.skip hg (.skip hdv (.hit (.t _ _) (by decide) (.user (a := "find-divisor") hs rfl rfl (.two (.v hs rfl rfl) ha) hi))))

theorem ret_smallest (n : Int) {s : St} (hp : Prog s.heap primesDefs) : Returns W s x_smallest_divisor [.num n] (.num (if n < 1 then n else n.toNat.minFac)) := by
  refine .lam rfl (by decide) hp.sc fun s1 e1 hq hs => ?_
  have hp1 := hp.mono hq.heap
  refine .user hs rfl rfl (.two (.v hs rfl rfl) (.num _ _ _)) ?_
  by_cases h1 : n < 1
  · rw [if_pos h1]
    exact ret_find_small n 2 (by omega) hp1
  · rw [if_neg h1]
    obtain ⟨k, rfl⟩ : ∃ k : Nat, n = k := ⟨n.toNat, by omega⟩
    rw [Int.toNat_natCast]
    rcases Nat.lt_or_ge k 2 with h | h
    · obtain rfl : k = 1 := by omega
      rw [Nat.minFac_one]
      exact ret_find_small _ 2 (by decide) hp1
    · exact ret_find_divisor k _ 2 rfl (Nat.le_refl 2) h (fun j _ _ => by omega) hp1

/-- Whether `prime?` holds of the number. -/
def primeLike (n : Int) : Prop := n < 2 ∨ n.toNat.Prime

open Classical in
theorem ret_primeP (n : Int) {s : St} (hp : Prog s.heap primesDefs) : Returns W s x_primeP [.num n] (vBool (decide (primeLike n))) := by
  refine .lam rfl (by decide) hp.sc fun s1 e1 hq hs => ?_
  have hp1 := hp.mono hq.heap
  have := G.eq (W := W) hs rfl (.v (a := "n") hs rfl rfl) (.user (a := "smallest-divisor") hs rfl rfl (.one (.v (a := "n") hs rfl rfl)) (ret_smallest (W := W) n hp1))
  have he : (Val.num n).equal (.num (if n < 1 then n else n.toNat.minFac)) = decide (primeLike n) := by
    simp only [Val.equal]
    rw [Bool.eq_iff_iff, beq_iff_eq, decide_eq_true_eq]
    unfold primeLike
    by_cases h1 : n < 1
    · rw [if_pos h1]; exact ⟨fun _ => .inl (by omega), fun _ => rfl⟩
    · rw [if_neg h1]
      obtain ⟨k, rfl⟩ : ∃ k : Nat, n = k := ⟨n.toNat, by omega⟩
      rw [Int.toNat_natCast]
      constructor
      · intro h
        rcases Nat.lt_or_ge k 2 with h2 | h2
        · exact .inl (by omega)
        · refine .inr ?_
          have : k = k.minFac := by exact_mod_cast h
          rw [this]; exact Nat.minFac_prime (by omega)
      · rintro (h | h)
        · obtain rfl : k = 1 := by omega
          rw [Nat.minFac_one]
        · rw [h.minFac_eq]
  rw [he] at this
  exact this

/-- What primes.l1 defines. -/
def primesDefs2 : List (String × Val) := [("n-primes", x_n_primes), ("helper", x_helper)] ++ primesDefs

theorem primesDefs2_sub {h : Heap} (hp : Prog h primesDefs2) : Prog h primesDefs := hp.weaken fun x v hx => by
  unfold primesDefs2
  rw [alGet_append]
  have : alGet x [("n-primes", x_n_primes), ("helper", x_helper)] = none := by
    by_cases h1 : x = "n-primes"
    · subst h1; cases hx
    · by_cases h2 : x = "helper"
      · subst h2; cases hx
      · simp [alGet, Ne.symm h1, Ne.symm h2]
  rw [this]; exact hx

theorem oneOrPrime_infinite : (setOf OneOrPrime).Infinite := Set.Infinite.mono (fun _ h => .inr h) Nat.infinite_setOfPred_prime

theorem primeLike_iff {n : Nat} (h : 1 ≤ n) : primeLike n ↔ OneOrPrime n := by
  unfold primeLike OneOrPrime
  rw [Int.toNat_natCast]
  constructor
  · rintro (h1 | h1)
    · exact .inl (by omega)
    · exact .inr h1
  · rintro (h1 | h1)
    · exact .inl (by omega)
    · exact .inr h1

open Classical in
theorem ret_helper (c : Nat) : ∀ (m n : Nat) (acc : List Val) {s : St}, 1 ≤ n → Nat.nth OneOrPrime (Nat.count OneOrPrime n) - n = m → Prog s.heap primesDefs2 →
    Returns W s x_helper [vlist acc, .num c, .num n]
      (vlist (acc.reverse ++ (List.range c).map fun i => .num (Nat.nth OneOrPrime (Nat.count OneOrPrime n + i)))) := by
  induction c with
  | zero =>
    intro m n acc s hn hm hp
    rw [List.range_zero, List.map_nil, List.append_nil]
    refine .lam rfl (by decide) hp.sc fun s1 e1 hq hs => ?_
    have hp1 := hp.mono hq.heap
    exact .cond hs rfl known_cond (.hit (.zeroT hs rfl hp1.core.base (.v hs rfl rfl)) (by decide) (.fn hs rfl hd_reverse (.one (.v hs rfl rfl)) (ret_reverse hp1.core.base acc)))
  | succ c ihc =>
    intro m
    induction m with
    | zero =>
      intro n acc s hn hm hp
      have hle : n ≤ Nat.nth OneOrPrime (Nat.count OneOrPrime n) := Nat.le_nth_count oneOrPrime_infinite n
      have hP : OneOrPrime n := by
        have h1 : n = Nat.nth OneOrPrime (Nat.count OneOrPrime n) := by omega
        rw [h1]; exact Nat.nth_mem_of_infinite oneOrPrime_infinite _
      refine .lam rfl (by decide) hp.sc fun s1 e1 hq hs => ?_
      have hp1 := hp.mono hq.heap
      have hz : G W s1 e1 (vlist [.atom "zero?", .atom "count"]) .nil := .zeroF (n := ((c + 1 : Nat) : Int)) hs rfl hp1.core.base (.v hs rfl rfl) (by omega)
      have hpr := G.user (W := W) (a := "prime?") hs rfl rfl (.one (.v (a := "n") hs rfl rfl)) (ret_primeP (W := W) n (primesDefs2_sub hp1))
      rw [show vBool (decide (primeLike (n : Int))) = .atom "t" by rw [decide_eq_true ((primeLike_iff hn).2 hP)]; rfl] at hpr
      have hd := G.sub (W := W) (x := .atom "count") (y := .num 1) (m := ((c + 1 : Nat) : Int)) hs rfl (.v hs rfl rfl) (.num _ _ _)
      rw [show (((c + 1 : Nat) : Int)) - 1 = c by omega] at hd
      have ha := G.add (W := W) (x := .num 1) (y := .atom "n") (n := (n : Int)) hs rfl (.num _ _ 1) (.v hs rfl rfl)
      rw [show (1 : Int) + n = ((n + 1 : Nat) : Int) by omega] at ha
      have hi := ihc _ (n + 1) (.num n :: acc) (by omega) rfl hp1
      have hcnt : Nat.count OneOrPrime (n + 1) = Nat.count OneOrPrime n + 1 := by rw [Nat.count_succ, if_pos hP]
      have hres : (Val.num n :: acc).reverse ++ (List.range c).map (fun i => Val.num (Nat.nth OneOrPrime (Nat.count OneOrPrime (n + 1) + i)))
          = acc.reverse ++ (List.range (c + 1)).map fun i => Val.num (Nat.nth OneOrPrime (Nat.count OneOrPrime n + i)) := by
        rw [List.range_succ_eq_map, List.map_cons, List.map_map, List.reverse_cons, List.append_assoc, show Nat.nth OneOrPrime (Nat.count OneOrPrime n + 0) = n from Nat.nth_count hP]
        congr 2
        refine congrArg _ (List.map_congr_left fun i _ => ?_)
        simp only [Function.comp]
        rw [hcnt]; congr 3; omega
      rw [hres] at hi
      exact .cond hs rfl known_cond (.skip hz (.hit hpr (by decide) (.user (a := "helper") hs rfl rfl
        (.three (.cons hs rfl (.v hs rfl rfl) (.v hs rfl rfl)) hd ha) hi)))
    | succ m ihm =>
      intro n acc s hn hm hp
      have hP : ¬ OneOrPrime n := fun hP => by rw [Nat.nth_count hP] at hm; omega
      refine .lam rfl (by decide) hp.sc fun s1 e1 hq hs => ?_
      have hp1 := hp.mono hq.heap
      have hz : G W s1 e1 (vlist [.atom "zero?", .atom "count"]) .nil := .zeroF (n := ((c + 1 : Nat) : Int)) hs rfl hp1.core.base (.v hs rfl rfl) (by omega)
      have hpr := G.user (W := W) (a := "prime?") hs rfl rfl (.one (.v (a := "n") hs rfl rfl)) (ret_primeP (W := W) n (primesDefs2_sub hp1))
      rw [show vBool (decide (primeLike (n : Int))) = .nil by rw [decide_eq_false (fun h => hP ((primeLike_iff hn).1 h))]; rfl] at hpr
      have ha := G.add (W := W) (x := .num 1) (y := .atom "n") (n := (n : Int)) hs rfl (.num _ _ 1) (.v hs rfl rfl)
      rw [show (1 : Int) + n = ((n + 1 : Nat) : Int) by omega] at ha
      have hcnt : Nat.count OneOrPrime (n + 1) = Nat.count OneOrPrime n := by rw [Nat.count_succ, if_neg hP, Nat.add_zero]
      have hi := ihm (n + 1) acc (by omega) (by rw [hcnt]; omega) hp1
      rw [hcnt] at hi
      exact .cond hs rfl known_cond (.skip hz (.skip hpr (.hit (.t _ _) (by decide) (.user (a := "helper") hs rfl rfl
        (.three (.v hs rfl rfl) (.v hs rfl rfl) ha) hi))))

theorem ret_n_primes (c : Nat) {s : St} (hp : Prog s.heap primesDefs2) :
    Returns W s x_n_primes [.num c] (vlist ((List.range c).map fun i => .num (Nat.nth OneOrPrime i))) := by
  classical
  refine .lam rfl (by decide) hp.sc fun s1 e1 hq hs => ?_
  have := ret_helper (W := W) c _ 1 [] (Nat.le_refl 1) rfl (hp.mono hq.heap)
  have h0 : Nat.count OneOrPrime 1 = 0 := by
    rw [Nat.count_succ, Nat.count_zero, if_neg]
    rintro (h | h)
    · cases h
    · exact Nat.not_prime_zero h
  simp only [h0, Nat.zero_add, List.reverse_nil, List.nil_append] at this
  exact .user hs rfl rfl (.three (.nil _ _) (.v hs rfl rfl) (.num _ _ _)) this

end L1
