import Verif.Lemmas.CoreList
/- More list functions of the core library. -/
set_option autoImplicit false
namespace L1

variable {W : World}

section
variable {s : St} {e : Nat} {L : List (String × Val)}

theorem G.whenNotT {c x v w : Val} (hs : Sc s.heap e L) (hp : Plain L) (hcc : Cc W s L) (hc : G W s e c w) (hw : w ≠ .nil) :
    G W s e (vlist [.atom "when-not", c, x]) .nil :=
  .whenNot (xs := [x]) hs hp hcc (.whenF hs hp hcc (.not_cons hs (hp _ (by decide)) hc hw))

theorem G.whenNotF {c x v : Val} (hs : Sc s.heap e L) (hp : Plain L) (hcc : Cc W s L) (hc : G W s e c .nil)
    (h : ∀ s1 e1, Quiet s s1 → Sc s1.heap e1 ([] ++ L) → G W s1 e1 x v) : G W s e (vlist [.atom "when-not", c, x]) v :=
  .whenNot (xs := [x]) hs hp hcc (.whenT hs hp hcc (.not_nil hs (hp _ (by decide)) hc) (by decide) h)

theorem G.zeroT {x : Val} (hs : Sc s.heap e L) (hx : alGet "zero?" L = none) (hc : Base s.heap 0) (h : G W s e x (.num 0)) :
    G W s e (vlist [.atom "zero?", x]) (.atom "t") := .fn hs hx hd_zeroP (.one h) (ret_zeroP hc _)

theorem G.zeroF {x : Val} {n : Int} (hs : Sc s.heap e L) (hx : alGet "zero?" L = none) (hc : Base s.heap 0) (h : G W s e x (.num n)) (hn : n ≠ 0) :
    G W s e (vlist [.atom "zero?", x]) .nil := by
  have := ret_zeroP (W := W) hc (.num n)
  have hne : (n == 0) = false := by rw [beq_eq_false_iff_ne]; exact hn
  simp only [Val.equal, hne] at this
  exact .fn hs hx hd_zeroP (.one h) this

theorem G.posT {x : Val} {n : Int} (hs : Sc s.heap e L) (hx : alGet "pos?" L = none) (hc : Base s.heap 0) (h : G W s e x (.num n)) (hn : 0 < n) :
    G W s e (vlist [.atom "pos?", x]) (.atom "t") := by
  have := ret_posP (W := W) hc n
  rw [decide_eq_true hn] at this
  exact .fn hs hx hd_posP (.one h) this

theorem G.posF {x : Val} {n : Int} (hs : Sc s.heap e L) (hx : alGet "pos?" L = none) (hc : Base s.heap 0) (h : G W s e x (.num n)) (hn : ¬ 0 < n) :
    G W s e (vlist [.atom "pos?", x]) .nil := by
  have := ret_posP (W := W) hc n
  rw [decide_eq_false hn] at this
  exact .fn hs hx hd_posP (.one h) this

theorem G.dec {x : Val} {n : Int} (hs : Sc s.heap e L) (hx : alGet "dec" L = none) (hc : Base s.heap 0) (h : G W s e x (.num n)) :
    G W s e (vlist [.atom "dec", x]) (.num (n - 1)) := .fn hs hx hd_dec (.one h) (ret_dec hc _)

theorem G.cond_ {cl : List Val} {v : Val} (hs : Sc s.heap e L) (hx : alGet "cond" L = none)
    (h : GC W s e cl v) : G W s e (vlist (.atom "cond" :: cl)) v := .cond hs hx known_cond h

theorem G.list {xs vs : List Val} (hs : Sc s.heap e L) (hx : alGet "list" L = none) (h : GA W s e xs vs) :
    G W s e (.cons (.atom "list") (vlist xs)) (vlist vs) := .fn hs hx hd_list h (.bi fun _ _ _ => rfl)
end

section
variable {s : St} (hc : Base s.heap 0)
include hc

theorem ret_identity (v : Val) : Returns W s k_identity [v] v :=
  .lam rfl (by decide) (.base hc) fun s1 e1 _ hs => .v hs rfl rfl

theorem ret_trueP (v : Val) : Returns W s k_trueP [v] (vBool (v.equal (.atom "t"))) :=
  .lam rfl (by decide) (.base hc) fun s1 e1 _ hs => .eq hs rfl (.v hs rfl rfl) (.t _ _)

theorem ret_reverse (xs : List Val) : Returns W s k_reverse [vlist xs] (vlist xs.reverse) := by
  induction xs generalizing s with
  | nil => exact .lam rfl (by decide) (.base hc) fun s1 e1 hq hs => .whenF (xs := [_]) hs (plain_of rfl) (.core (hc.mono hq.heap) rfl) (.v hs rfl rfl)
  | cons x xs ih =>
    refine .lam rfl (by decide) (.base hc) fun s1 e1 hq hs => ?_
    refine .whenT hs (plain_of rfl) (.core (hc.mono hq.heap) rfl) (.v hs rfl rfl) (by simp) fun s2 e2 hq2 hs2 => ?_
    have hb := (hc.mono hq.heap).mono hq2.heap
    have := ret_concat_lists (W := W) hb [xs.reverse, [x]]
    simp only [List.flatten_cons, List.flatten_nil, List.append_nil, ← List.reverse_cons] at this
    exact .fn hs2 rfl hd_concat (.two (.fn hs2 rfl hd_reverse (.one (.cdr hs2 rfl (.v hs2 rfl rfl))) (ih hb))
      (.cons hs2 rfl (.car hs2 rfl (.v hs2 rfl rfl)) (.nil _ _))) this

theorem ret_nth (n : Nat) (xs : List Val) : Returns W s k_nth [.num n, vlist xs] (xs.getD n .nil) := by
  induction xs generalizing s n with
  | nil =>
    exact .lam rfl (by decide) (.base hc) fun s1 e1 hq hs => .cond hs rfl known_cond (.hit (.not_nil hs rfl (.v hs rfl rfl)) (by decide) (.nil _ _))
  | cons x xs ih =>
    refine .lam rfl (by decide) (.base hc) fun s1 e1 hq hs => .cond hs rfl known_cond (.skip (.not_cons hs rfl (.v hs rfl rfl) (by simp)) ?_)
    have hb := hc.mono hq.heap
    cases n with
    | zero => exact .hit (.zeroT hs rfl hb (.v hs rfl rfl)) (by decide) (.car hs rfl (.v hs rfl rfl))
    | succ n =>
      have hd := G.dec (W := W) (x := .atom "n") (n := ((n + 1 : Nat) : Int)) hs rfl hb (.v hs rfl rfl)
      rw [show (((n + 1 : Nat) : Int)) - 1 = n by omega] at hd
      exact .skip (.zeroF (n := ((n + 1 : Nat) : Int)) hs rfl hb (.v hs rfl rfl) (by omega)) (.hit (.t _ _) (by decide) (.fn hs rfl hd_nth
        (.two hd (.cdr hs rfl (.v hs rfl rfl))) (ih hb n)))

/-- With a negative index, `nth` runs off the end. -/
theorem ret_nth_neg (n : Int) (hn : n < 0) (xs : List Val) : Returns W s k_nth [.num n, vlist xs] .nil := by
  induction xs generalizing s n with
  | nil =>
    exact .lam rfl (by decide) (.base hc) fun s1 e1 hq hs => .cond hs rfl known_cond (.hit (.not_nil hs rfl (.v hs rfl rfl)) (by decide) (.nil _ _))
  | cons x xs ih =>
    refine .lam rfl (by decide) (.base hc) fun s1 e1 hq hs => .cond hs rfl known_cond (.skip (.not_cons hs rfl (.v hs rfl rfl) (by simp)) ?_)
    have hb := hc.mono hq.heap
    exact .skip (.zeroF hs rfl hb (.v hs rfl rfl) (by omega)) (.hit (.t _ _) (by decide) (.fn hs rfl hd_nth
        (.two (.dec hs rfl hb (.v hs rfl rfl)) (.cdr hs rfl (.v hs rfl rfl))) (ih hb (n - 1) (by omega))))

theorem ret_take (n : Nat) (xs : List Val) : Returns W s k_take [.num n, vlist xs] (vlist (xs.take n)) := by
  induction xs generalizing s n with
  | nil =>
    refine .lam rfl (by decide) (.base hc) fun s1 e1 hq hs => .cond_ hs rfl ?_
    have hb := hc.mono hq.heap
    rw [List.take_nil]
    cases n with
    | zero => exact .hit (.zeroT hs rfl hb (.v hs rfl rfl)) (by decide) (.nil _ _)
    | succ n =>
      exact .skip (.zeroF (n := ((n + 1 : Nat) : Int)) hs rfl hb (.v hs rfl rfl) (by omega)) (.hit (.not_nil hs rfl (.v hs rfl rfl)) (by decide) (.nil _ _))
  | cons x xs ih =>
    refine .lam rfl (by decide) (.base hc) fun s1 e1 hq hs => .cond_ hs rfl ?_
    have hb := hc.mono hq.heap
    cases n with
    | zero => exact .hit (.zeroT hs rfl hb (.v hs rfl rfl)) (by decide) (.nil _ _)
    | succ n =>
      have hd := G.dec (W := W) (x := .atom "n") (n := ((n + 1 : Nat) : Int)) hs rfl hb (.v hs rfl rfl)
      rw [show (((n + 1 : Nat) : Int)) - 1 = n by omega] at hd
      exact .skip (.zeroF (n := ((n + 1 : Nat) : Int)) hs rfl hb (.v hs rfl rfl) (by omega)) (.skip (.not_cons hs rfl (.v hs rfl rfl) (by simp))
        (.hit (.t _ _) (by decide) (.cons hs rfl (.car hs rfl (.v hs rfl rfl)) (.fn hs rfl hd_take
        (.two hd (.cdr hs rfl (.v hs rfl rfl))) (ih hb n)))))

/-- With a negative count, `take` takes everything. -/
theorem ret_take_neg (n : Int) (hn : n < 0) (xs : List Val) : Returns W s k_take [.num n, vlist xs] (vlist xs) := by
  induction xs generalizing s n with
  | nil =>
    refine .lam rfl (by decide) (.base hc) fun s1 e1 hq hs => .cond_ hs rfl ?_
    have hb := hc.mono hq.heap
    exact .skip (.zeroF hs rfl hb (.v hs rfl rfl) (by omega)) (.hit (.not_nil hs rfl (.v hs rfl rfl)) (by decide) (.nil _ _))
  | cons x xs ih =>
    refine .lam rfl (by decide) (.base hc) fun s1 e1 hq hs => .cond_ hs rfl ?_
    have hb := hc.mono hq.heap
    exact .skip (.zeroF hs rfl hb (.v hs rfl rfl) (by omega)) (.skip (.not_cons hs rfl (.v hs rfl rfl) (by simp))
        (.hit (.t _ _) (by decide) (.cons hs rfl (.car hs rfl (.v hs rfl rfl)) (.fn hs rfl hd_take
        (.two (.dec hs rfl hb (.v hs rfl rfl)) (.cdr hs rfl (.v hs rfl rfl))) (ih hb (n - 1) (by omega))))))

theorem ret_drop (n : Nat) (xs : List Val) : Returns W s k_drop [.num n, vlist xs] (vlist (xs.drop n)) := by
  induction xs generalizing s n with
  | nil =>
    refine .lam rfl (by decide) (.base hc) fun s1 e1 hq hs => .cond_ hs rfl ?_
    have hb := hc.mono hq.heap
    rw [List.drop_nil]
    cases n with
    | zero => exact .hit (.zeroT hs rfl hb (.v hs rfl rfl)) (by decide) (.v hs rfl rfl)
    | succ n =>
      exact .skip (.zeroF (n := ((n + 1 : Nat) : Int)) hs rfl hb (.v hs rfl rfl) (by omega)) (.hit (.not_nil hs rfl (.v hs rfl rfl)) (by decide) (.nil _ _))
  | cons x xs ih =>
    refine .lam rfl (by decide) (.base hc) fun s1 e1 hq hs => .cond_ hs rfl ?_
    have hb := hc.mono hq.heap
    cases n with
    | zero => exact .hit (.zeroT hs rfl hb (.v hs rfl rfl)) (by decide) (.v hs rfl rfl)
    | succ n =>
      have hd := G.dec (W := W) (x := .atom "n") (n := ((n + 1 : Nat) : Int)) hs rfl hb (.v hs rfl rfl)
      rw [show (((n + 1 : Nat) : Int)) - 1 = n by omega] at hd
      exact .skip (.zeroF (n := ((n + 1 : Nat) : Int)) hs rfl hb (.v hs rfl rfl) (by omega)) (.skip (.not_cons hs rfl (.v hs rfl rfl) (by simp))
        (.hit (.t _ _) (by decide) (.fn hs rfl hd_drop (.two hd (.cdr hs rfl (.v hs rfl rfl))) (ih hb n))))

theorem ret_drop_neg (n : Int) (hn : n < 0) (xs : List Val) : Returns W s k_drop [.num n, vlist xs] .nil := by
  induction xs generalizing s n with
  | nil =>
    refine .lam rfl (by decide) (.base hc) fun s1 e1 hq hs => .cond_ hs rfl ?_
    have hb := hc.mono hq.heap
    exact .skip (.zeroF hs rfl hb (.v hs rfl rfl) (by omega)) (.hit (.not_nil hs rfl (.v hs rfl rfl)) (by decide) (.nil _ _))
  | cons x xs ih =>
    refine .lam rfl (by decide) (.base hc) fun s1 e1 hq hs => .cond_ hs rfl ?_
    have hb := hc.mono hq.heap
    exact .skip (.zeroF hs rfl hb (.v hs rfl rfl) (by omega)) (.skip (.not_cons hs rfl (.v hs rfl rfl) (by simp))
        (.hit (.t _ _) (by decide) (.fn hs rfl hd_drop (.two (.dec hs rfl hb (.v hs rfl rfl)) (.cdr hs rfl (.v hs rfl rfl))) (ih hb (n - 1) (by omega)))))

omit hc in
theorem ret_last {s : St} (hc : Base s.heap 0) (xs : List Val) : Returns W s k_last [vlist xs] (xs.getLastD .nil) := by
  match xs with
  | [] =>
    exact .lam rfl (by decide) (.base hc) fun s1 e1 hq hs => .let1 hs rfl known_let (.cons (by decide) (.cdr_nil hs rfl (.v hs rfl rfl)) .nil)
      fun s2 e2 hq2 hs2 => .ifNotT hs2 (plain_of rfl) (.v hs2 rfl rfl) (.car_nil hs2 rfl (.v hs2 rfl rfl))
  | [x] =>
    exact .lam rfl (by decide) (.base hc) fun s1 e1 hq hs => .let1 hs rfl known_let (.cons (by decide) (.cdr hs rfl (.v hs rfl rfl)) .nil)
      fun s2 e2 hq2 hs2 => .ifNotT hs2 (plain_of rfl) (.v hs2 rfl rfl) (.car hs2 rfl (.v hs2 rfl rfl))
  | x :: y :: xs =>
    have ih := fun s' (hq : Quiet s s') => ret_last (s := s') (hc.mono hq.heap) (y :: xs)
    rw [show (x :: y :: xs).getLastD .nil = (y :: xs).getLastD .nil by simp]
    exact .lam rfl (by decide) (.base hc) fun s1 e1 hq hs => .let1 hs rfl known_let (.cons (by decide) (.cdr hs rfl (.v hs rfl rfl)) .nil)
      fun s2 e2 hq2 hs2 => .ifNotF hs2 (plain_of rfl) (.v (v := vlist (y :: xs)) hs2 rfl rfl) (by simp) (.fn hs2 rfl hd_last (.one (.v hs2 rfl rfl)) (ih _ (hq.trans hq2)))

theorem ret_map {f : Val} {g : Val → Val} (hm : f.notMacro = true) (xs : List Val) (h : ∀ x ∈ xs, Returns W s f [x] (g x)) :
    Returns W s k_map [f, vlist xs] (vlist (xs.map g)) := by
  induction xs generalizing s with
  | nil => exact .lam rfl (by decide) (.base hc) fun s1 e1 hq hs => .whenF (xs := [_]) hs (plain_of rfl) (.core (hc.mono hq.heap) rfl) (.v hs rfl rfl)
  | cons x xs ih =>
    refine .lam rfl (by decide) (.base hc) fun s1 e1 hq hs => ?_
    refine .whenT hs (plain_of rfl) (.core (hc.mono hq.heap) rfl) (.v hs rfl rfl) (by simp) fun s2 e2 hq2 hs2 => ?_
    have hb := (hc.mono hq.heap).mono hq2.heap
    exact .cons hs2 rfl (.callVar hs2 rfl hm rfl rfl (by decide) (.one (.car hs2 rfl (.v hs2 rfl rfl))) ((h x (by simp)).mono (hq.trans hq2)))
      (.fn hs2 rfl hd_map (.two (.v hs2 rfl rfl) (.cdr hs2 rfl (.v hs2 rfl rfl))) (ih hb fun y hy => (h y (by simp [hy])).mono (hq.trans hq2)))

theorem ret_filter {f : Val} {g : Val → Val} (hm : f.notMacro = true) (xs : List Val) (h : ∀ x ∈ xs, Returns W s f [x] (g x)) :
    Returns W s k_filter [f, vlist xs] (vlist (xs.filter fun x => g x ≠ .nil)) := by
  induction xs generalizing s with
  | nil => exact .lam rfl (by decide) (.base hc) fun s1 e1 hq hs => .cond hs rfl known_cond (.hit (.not_nil hs rfl (.v hs rfl rfl)) (by decide) (.nil _ _))
  | cons x xs ih =>
    refine .lam rfl (by decide) (.base hc) fun s1 e1 hq hs => .cond hs rfl known_cond (.skip (.not_cons hs rfl (.v hs rfl rfl) (by simp)) ?_)
    have hb := (hc.mono hq.heap)
    have hcall : G W s1 e1 (vlist [.atom "f", vlist [.atom "car", .atom "l"]]) (g x) :=
      .callVar hs rfl hm rfl rfl (by decide) (.one (.car hs rfl (.v hs rfl rfl))) ((h x (by simp)).mono hq)
    have hrest : G W s1 e1 (vlist [.atom "filter", .atom "f", vlist [.atom "cdr", .atom "l"]]) (vlist (xs.filter fun x => g x ≠ .nil)) :=
      .fn hs rfl hd_filter (.two (.v hs rfl rfl) (.cdr hs rfl (.v hs rfl rfl))) (ih hb fun y hy => (h y (by simp [hy])).mono hq)
    by_cases hg : g x = .nil
    · rw [List.filter_cons_of_neg (by simp [hg])]
      rw [hg] at hcall
      exact .skip hcall (.hit (.t _ _) (by decide) hrest)
    · rw [List.filter_cons_of_pos (by simp [hg])]
      exact .hit hcall hg (.cons hs rfl (.car hs rfl (.v hs rfl rfl)) hrest)

theorem ret_repeat (n : Int) (x : Val) : Returns W s k_repeat [.num n, x] (vlist (List.replicate n.toNat x)) := by
  generalize hk : n.toNat = k
  induction k generalizing s n with
  | zero =>
    exact .lam rfl (by decide) (.base hc) fun s1 e1 hq hs => .whenF (xs := [_]) hs (plain_of rfl) (.core (hc.mono hq.heap) rfl)
      (.posF hs rfl (hc.mono hq.heap) (.v hs rfl rfl) (by omega))
  | succ k ih =>
    refine .lam rfl (by decide) (.base hc) fun s1 e1 hq hs => ?_
    refine .whenT hs (plain_of rfl) (.core (hc.mono hq.heap) rfl) (.posT hs rfl (hc.mono hq.heap) (.v hs rfl rfl) (by omega)) (by simp) fun s2 e2 hq2 hs2 => ?_
    have hb := (hc.mono hq.heap).mono hq2.heap
    exact .cons hs2 rfl (.v hs2 rfl rfl) (.fn hs2 rfl hd_repeat (.two (.dec hs2 rfl hb (.v hs2 rfl rfl)) (.v hs2 rfl rfl)) (ih hb (n - 1) (by omega)))

theorem ret_repeatedly {f x : Val} (hm : f.notMacro = true) (n : Nat) (h : Returns W s f [] x) :
    Returns W s k_repeatedly [.num n, f] (vlist (List.replicate n x)) := by
  induction n generalizing s with
  | zero =>
    exact .lam rfl (by decide) (.base hc) fun s1 e1 hq hs => .whenNotT (v := .nil) hs (plain_of rfl) (.core (hc.mono hq.heap) rfl)
      (.zeroT hs rfl (hc.mono hq.heap) (.v hs rfl rfl)) (by simp)
  | succ n ih =>
    refine .lam rfl (by decide) (.base hc) fun s1 e1 hq hs => ?_
    refine .whenNotF hs (plain_of rfl) (.core (hc.mono hq.heap) rfl) (.zeroF (n := ((n + 1 : Nat) : Int)) hs rfl (hc.mono hq.heap) (.v hs rfl rfl) (by omega)) fun s2 e2 hq2 hs2 => ?_
    have hb := (hc.mono hq.heap).mono hq2.heap
    have hd := G.dec (W := W) (x := .atom "n") (n := ((n + 1 : Nat) : Int)) hs2 rfl hb (.v hs2 rfl rfl)
    rw [show (((n + 1 : Nat) : Int)) - 1 = n by omega] at hd
    exact .cons hs2 rfl (.callVar (xs := []) hs2 rfl hm rfl rfl (by decide) .nil (h.mono (hq.trans hq2)))
      (.fn hs2 rfl hd_repeatedly (.two hd (.v hs2 rfl rfl)) (ih hb (h.mono (hq.trans hq2))))

theorem ret_some {f : Val} {g : Val → Val} (hm : f.notMacro = true) (xs : List Val) (h : ∀ x ∈ xs, Returns W s f [x] (g x)) :
    Returns W s k_some [f, vlist xs] (((xs.map g).find? (· ≠ .nil)).getD .nil) := by
  induction xs generalizing s with
  | nil => exact .lam rfl (by decide) (.base hc) fun s1 e1 hq hs => .whenF (xs := [_]) hs (plain_of rfl) (.core (hc.mono hq.heap) rfl) (.v hs rfl rfl)
  | cons x xs ih =>
    refine .lam rfl (by decide) (.base hc) fun s1 e1 hq hs => ?_
    refine .whenT hs (plain_of rfl) (.core (hc.mono hq.heap) rfl) (.v hs rfl rfl) (by simp) fun s2 e2 hq2 hs2 => ?_
    have hcall : G W s2 e2 (vlist [.atom "f", vlist [.atom "car", .atom "l"]]) (g x) :=
      .callVar hs2 rfl hm rfl rfl (by decide) (.one (.car hs2 rfl (.v hs2 rfl rfl))) ((h x (by simp)).mono (hq.trans hq2))
    refine .let1 hs2 rfl known_let (.cons (by decide) hcall .nil) fun s3 e3 hq3 hs3 => ?_
    have hb := ((hc.mono hq.heap).mono hq2.heap).mono hq3.heap
    by_cases hg : g x = .nil
    · rw [List.map_cons, List.find?_cons_of_neg (by simp [hg])]
      exact .ifF hs3 (plain_of rfl) (hg ▸ .v hs3 rfl rfl) (.fn hs3 rfl hd_some (.two (.v hs3 rfl rfl) (.cdr hs3 rfl (.v hs3 rfl rfl)))
        (ih hb fun y hy => (h y (by simp [hy])).mono ((hq.trans hq2).trans hq3)))
    · rw [List.map_cons, List.find?_cons_of_pos (by simp [hg])]
      exact .ifT hs3 (plain_of rfl) (.v hs3 rfl rfl) hg (.v hs3 rfl rfl)

theorem ret_every {f : Val} {g : Val → Val} (hm : f.notMacro = true) (xs : List Val) (h : ∀ x ∈ xs, Returns W s f [x] (g x)) :
    Returns W s k_every [f, vlist xs] (vBool (xs.all fun x => g x ≠ .nil)) := by
  induction xs generalizing s with
  | nil => exact .lam rfl (by decide) (.base hc) fun s1 e1 hq hs => .ifNotT hs (plain_of rfl) (.v hs rfl rfl) (.t _ _)
  | cons x xs ih =>
    refine .lam rfl (by decide) (.base hc) fun s1 e1 hq hs => ?_
    refine .ifNotF hs (plain_of rfl) (.v hs rfl rfl) (by simp) ?_
    have hcall : G W s1 e1 (vlist [.atom "f", vlist [.atom "car", .atom "l"]]) (g x) :=
      .callVar hs rfl hm rfl rfl (by decide) (.one (.car hs rfl (.v hs rfl rfl))) ((h x (by simp)).mono hq)
    refine .let1 hs rfl known_let (.cons (by decide) hcall .nil) fun s3 e3 hq3 hs3 => ?_
    have hb := ((hc.mono hq.heap).mono hq3.heap)
    by_cases hg : g x = .nil
    · rw [List.all_cons, show decide (g x ≠ .nil) = false by simp [hg]]
      exact .ifT hs3 (plain_of rfl) (.not_nil hs3 rfl (hg ▸ .v hs3 rfl rfl)) (by decide) (.nil _ _)
    · rw [List.all_cons, show decide (g x ≠ .nil) = true by simp [hg]]
      exact .ifF hs3 (plain_of rfl) (.not_cons hs3 rfl (.v hs3 rfl rfl) hg) (.fn hs3 rfl hd_every (.two (.v hs3 rfl rfl) (.cdr hs3 rfl (.v hs3 rfl rfl)))
        (ih hb fun y hy => (h y (by simp [hy])).mono ((hq.trans hq3))))

theorem ret_butlast (xs : List Val) : Returns W s k_butlast [vlist xs] (vlist xs.dropLast) := by
  refine .lam rfl (by decide) (.base hc) fun s1 e1 hq hs => ?_
  have hb := hc.mono hq.heap
  have hd := G.dec (W := W) (x := vlist [.atom "len", .atom "l"]) hs rfl hb (.len (xs := xs) hs rfl (.v hs rfl rfl))
  cases xs with
  | nil => exact .fn hs rfl hd_take (.two hd (.v hs rfl rfl)) (ret_take_neg hb _ (by decide) [])
  | cons x xs =>
    rw [show (((x :: xs).length : Nat) : Int) - 1 = xs.length by simp] at hd
    have := ret_take (W := W) hb xs.length (x :: xs)
    rw [show (x :: xs).take xs.length = (x :: xs).dropLast by rw [List.dropLast_eq_take]; rfl] at this
    exact .fn hs rfl hd_take (.two hd (.v hs rfl rfl)) this

theorem ret_listStar0 : Returns W s k_listStar [] .nil :=
  .lam (by simp [ArityOk]) (by decide) (.base hc) fun s1 e1 hq hs => .whenF (xs := [_]) hs (plain_of rfl) (.core (hc.mono hq.heap) rfl) (.v hs rfl rfl)

theorem ret_listStar (xs : List Val) (l : Val) : Returns W s k_listStar (xs ++ [l]) (mkList xs l) := by
  refine .lam (by simp [ArityOk]) (by decide) (.base hc) fun s1 e1 hq hs => ?_
  refine .whenT (w := vlist (xs ++ [l])) hs (plain_of rfl) (.core (hc.mono hq.heap) rfl) (.v hs rfl rfl) (by cases xs <;> simp) fun s2 e2 hq2 hs2 => ?_
  have hb := (hc.mono hq.heap).mono hq2.heap
  have h1 := ret_last (W := W) hb (xs ++ [l])
  have h2 := ret_butlast (W := W) hb (xs ++ [l])
  rw [show (xs ++ [l]).getLastD .nil = l by simp [List.getLastD_eq_getLast?]] at h1
  rw [List.dropLast_concat] at h2
  refine .let1 hs2 rfl known_let (.cons (by decide) (.fn hs2 rfl hd_last (.one (.v hs2 rfl rfl)) h1) (.cons (by decide) (.fn hs2 rfl hd_butlast (.one (.v hs2 rfl rfl)) h2) .nil))
    fun s3 e3 hq3 hs3 => ?_
  have h3 := ret_concat (W := W) (hb.mono hq3.heap) [xs] l
  rw [show [xs].flatten = xs by simp] at h3
  exact .fn hs3 rfl hd_concat (.two (.v hs3 rfl rfl) (.v hs3 rfl rfl)) h3

theorem ret_second (xs : List Val) : Returns W s k_second [vlist xs] (xs.getD 1 .nil) := by
  refine .lam rfl (by decide) (.base hc) fun s1 e1 hq hs => ?_
  match xs with
  | [] => exact .car_nil hs rfl (.cdr_nil hs rfl (.v hs rfl rfl))
  | [x] => exact .car_nil hs rfl (.cdr hs rfl (.v (v := vlist [x]) hs rfl rfl))
  | x :: y :: xs => exact .car hs rfl (.cdr hs rfl (.v (v := vlist (x :: y :: xs)) hs rfl rfl))

omit hc in
theorem ret_interpose {s : St} (hc : Base s.heap 0) (x : Val) (xs : List Val) : Returns W s k_interpose [x, vlist xs] (vlist (xs.intersperse x)) := by
  match xs with
  | [] => exact .lam rfl (by decide) (.base hc) fun s1 e1 hq hs => .cond hs rfl known_cond (.hit (.not_nil hs rfl (.v hs rfl rfl)) (by decide) (.nil _ _))
  | [y] => 
    exact .lam rfl (by decide) (.base hc) fun s1 e1 hq hs => .cond hs rfl known_cond (.skip (.not_cons hs rfl (.v hs rfl rfl) (by simp))
      (.hit (.not_nil hs rfl (.cdr hs rfl (.v (v := vlist [y]) hs rfl rfl))) (by decide) (.v hs rfl rfl)))
  | y :: z :: xs =>
    have ih := fun s' (hq : Quiet s s') => ret_interpose (s := s') (hc.mono hq.heap) x (z :: xs)
    rw [List.intersperse_cons_cons]
    exact .lam rfl (by decide) (.base hc) fun s1 e1 hq hs => .cond hs rfl known_cond (.skip (.not_cons hs rfl (.v hs rfl rfl) (by simp))
      (.skip (.not_cons (v := vlist (z :: xs)) hs rfl (.cdr hs rfl (.v (v := vlist (y :: z :: xs)) hs rfl rfl)) (by simp))
       (.hit (.t _ _) (by decide) (.cons hs rfl (.car hs rfl (.v hs rfl rfl)) (.cons hs rfl (.v hs rfl rfl) (.fn hs rfl hd_interpose (.two (.v hs rfl rfl)
         (.cdr hs rfl (.v hs rfl rfl))) (ih _ hq)))))))

theorem ret_flatten (v : Val) : Returns W s k_flatten [v] (vlist (leaves v)) := by
  induction v generalizing s with
  | nil => exact .lam rfl (by decide) (.base hc) fun s1 e1 hq hs => .cond hs rfl known_cond (.hit (.not_nil hs rfl (.v hs rfl rfl)) (by decide) (.nil _ _))
  | cons a d iha ihd =>
    refine .lam rfl (by decide) (.base hc) fun s1 e1 hq hs => .cond hs rfl known_cond (.skip (.not_cons hs rfl (.v hs rfl rfl) (by simp)) ?_)
    have hb := hc.mono hq.heap
    have h3 := ret_concat_lists (W := W) hb [leaves a, leaves d]
    rw [show [leaves a, leaves d].flatten = leaves (.cons a d) by simp [leaves]] at h3
    exact .hit (w := .atom "t") (.fn hs rfl hd_listP (.one (.v hs rfl rfl)) (.bi fun _ _ _ => rfl)) (by decide) (.fn hs rfl hd_concat
      (.two (.fn hs rfl hd_flatten (.one (.car hs rfl (.v hs rfl rfl))) (iha hb)) (.fn hs rfl hd_flatten (.one (.cdr hs rfl (.v hs rfl rfl))) (ihd hb))) h3)
  | _ =>
    exact .lam rfl (by decide) (.base hc) fun s1 e1 hq hs => .cond hs rfl known_cond (.skip (.not_cons hs rfl (.v hs rfl rfl) (by simp))
      (.skip (.fn hs rfl hd_listP (.one (.v hs rfl rfl)) (.bi fun _ _ _ => rfl)) (.hit (.t _ _) (by decide) (.list hs rfl (.one (.v hs rfl rfl))))))

theorem ret_mapcat {f : Val} {g : Val → List Val} (hm : f.notMacro = true) (xs : List Val) (h : ∀ x ∈ xs, Returns W s f [x] (vlist (g x))) :
    Returns W s k_mapcat [f, vlist xs] (vlist (xs.flatMap g)) := by
  refine .lam rfl (by decide) (.base hc) fun s1 e1 hq hs => ?_
  have hb := hc.mono hq.heap
  refine .fn hs rfl hd_reduce (.two (.name hs rfl hd_concat) (.fn hs rfl hd_map (.two (.v hs rfl rfl) (.v hs rfl rfl))
    (ret_map hb hm xs fun x hx => (h x hx).mono hq))) ?_
  cases xs with
  | nil => exact ret_reduce_empty hb rfl (ret_concat0 hb)
  | cons x xs =>
    have key : ∀ (ys : List Val) (a : List Val), Folds W s1 k_concat (vlist a) (ys.map fun x => vlist (g x)) (vlist (a ++ ys.flatMap g)) := by
      intro ys
      induction ys with
      | nil => intro a; simpa using Folds.nil
      | cons y ys ih =>
        intro a
        have h3 := ret_concat_lists (W := W) hb [a, g y]
        rw [show [a, g y].flatten = a ++ g y by simp] at h3
        refine .cons h3 ?_
        rw [List.flatMap_cons, ← List.append_assoc]
        exact ih (a ++ g y)
    exact ret_reduce hb rfl (key xs (g x))
end

end L1
