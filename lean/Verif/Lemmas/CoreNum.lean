import Verif.Lemmas.CoreCtl
/- The numeric functions of the core library, and more rules. -/
set_option autoImplicit false
namespace L1

variable {W : World}

theorem vBool_ne {b : Bool} : vBool b ≠ .nil ↔ b = true := by cases b <;> simp [vBool, vTrue]

section
variable {s : St} {e : Nat} {L : List (String × Val)}

theorem G.eq {x y v w : Val} (hs : Sc s.heap e L) (hx : alGet "=" L = none) (h : G W s e x v) (h' : G W s e y w) :
    G W s e (vlist [.atom "=", x, y]) (vBool (v.equal w)) :=
  .fn hs hx hd_eq (.two h h') (.bi fun _ _ _ => by simp [biFn, bEq])

theorem G.lt {x y : Val} {m n : Int} (hs : Sc s.heap e L) (hx : alGet "<" L = none) (h : G W s e x (.num m)) (h' : G W s e y (.num n)) :
    G W s e (vlist [.atom "<", x, y]) (vBool (decide (m < n))) :=
  .fn hs hx hd_lt (.two h h') (.bi fun _ _ _ => by by_cases hmn : m < n <;> simp [biFn, bCmp, bCmpLoop, hmn, vBool])

theorem G.add {x y : Val} {m n : Int} (hs : Sc s.heap e L) (hx : alGet "+" L = none) (h : G W s e x (.num m)) (h' : G W s e y (.num n)) :
    G W s e (vlist [.atom "+", x, y]) (.num (m + n)) :=
  .fn hs hx hd_plus (.two h h') (.bi fun _ _ _ => by simp [biFn, bAddLoop])

theorem G.sub {x y : Val} {m n : Int} (hs : Sc s.heap e L) (hx : alGet "-" L = none) (h : G W s e x (.num m)) (h' : G W s e y (.num n)) :
    G W s e (vlist [.atom "-", x, y]) (.num (m - n)) :=
  .fn hs hx hd_minus (.two h h') (.bi fun _ _ _ => by simp [biFn, bSub, bSubLoop])

theorem G.neg {x : Val} {m : Int} (hs : Sc s.heap e L) (hx : alGet "-" L = none) (h : G W s e x (.num m)) :
    G W s e (vlist [.atom "-", x]) (.num (-m)) :=
  .fn hs hx hd_minus (.one h) (.bi fun _ _ _ => by simp [biFn, bSub])

theorem G.mul {x y : Val} {m n : Int} (hs : Sc s.heap e L) (hx : alGet "*" L = none) (h : G W s e x (.num m)) (h' : G W s e y (.num n)) :
    G W s e (vlist [.atom "*", x, y]) (.num (m * n)) :=
  .fn hs hx hd_times (.two h h') (.bi fun _ _ _ => by simp [biFn, bMulLoop])

theorem G.rem {x y : Val} {m n : Int} (hs : Sc s.heap e L) (hx : alGet "rem" L = none) (h : G W s e x (.num m)) (h' : G W s e y (.num n)) (hn : n ≠ 0) :
    G W s e (vlist [.atom "rem", x, y]) (.num (m.tmod n)) :=
  .fn hs hx hd_rem (.two h h') (.bi fun _ _ _ => by simp only [biFn, bRem]; rw [M.ite_neg hn]; rfl)

theorem bLenLoop_vlist (xs : List Val) : ∀ (n : Nat) (s : St), bLenLoop n (vlist xs) s = .ok (.num (n + xs.length)) s := by
  induction xs with
  | nil => intro n s; rfl
  | cons x xs ih =>
    intro n s
    simp only [vlist_cons, bLenLoop, ih, List.length_cons]
    congr 2; push_cast; omega

theorem G.len {x : Val} {xs : List Val} (hs : Sc s.heap e L) (hx : alGet "len" L = none) (h : G W s e x (vlist xs)) :
    G W s e (vlist [.atom "len", x]) (.num xs.length) :=
  .fn hs hx hd_len (.one h) (.bi fun _ _ _ => by simp [biFn, bLen, bLenLoop_vlist])

end

section
variable {s : St} (hc : Base s.heap 0)
include hc

theorem ret_zeroP (v : Val) : Returns W s k_zeroP [v] (vBool (v.equal (.num 0))) :=
  .lam rfl (by decide) (.base hc) fun s1 e1 _ hs => .eq hs rfl (.v hs rfl rfl) (.num _ _ _)

theorem ret_negP (n : Int) : Returns W s k_negP [.num n] (vBool (decide (n < 0))) :=
  .lam rfl (by decide) (.base hc) fun s1 e1 _ hs => .lt hs rfl (.v hs rfl rfl) (.num _ _ _)

theorem ret_posP (n : Int) : Returns W s k_posP [.num n] (vBool (decide (0 < n))) :=
  .lam rfl (by decide) (.base hc) fun s1 e1 _ hs => .lt hs rfl (.num _ _ _) (.v hs rfl rfl)

theorem ret_inc (n : Int) : Returns W s k_inc [.num n] (.num (n + 1)) :=
  .lam rfl (by decide) (.base hc) fun s1 e1 _ hs => .add hs rfl (.v hs rfl rfl) (.num _ _ _)

theorem ret_dec (n : Int) : Returns W s k_dec [.num n] (.num (n - 1)) :=
  .lam rfl (by decide) (.base hc) fun s1 e1 _ hs => .sub hs rfl (.v hs rfl rfl) (.num _ _ _)

theorem ret_evenP (n : Int) : Returns W s k_evenP [.num n] (vBool (decide (n.tmod 2 = 0))) :=
  .lam rfl (by decide) (.base hc) fun s1 e1 hq hs => .fn hs rfl hd_zeroP (.one (.rem hs rfl (.v hs rfl rfl) (.num _ _ _) (by decide)))
    (ret_zeroP (hc.mono hq.heap) _)

theorem ret_oddP (n : Int) : Returns W s k_oddP [.num n] (vBool (decide (n.tmod 2 ≠ 0))) := by
  refine .lam rfl (by decide) (.base hc) fun s1 e1 hq hs => ?_
  have := G.not (W := W) (x := vlist [.atom "even?", .atom "n"]) hs rfl (.fn hs rfl hd_evenP (.one (.v hs rfl rfl)) (ret_evenP (hc.mono hq.heap) n))
  by_cases h : n.tmod 2 = 0 <;> simpa [h, vBool, vTrue] using this

theorem ret_abs (n : Int) : Returns W s k_abs [.num n] (.num n.natAbs) := by
  refine .lam rfl (by decide) (.base hc) fun s1 e1 hq hs => ?_
  have hn : G W s1 e1 (vlist [.atom "neg?", .atom "x"]) (vBool (decide (n < 0))) :=
    .fn hs rfl hd_negP (.one (.v hs rfl rfl)) (ret_negP (hc.mono hq.heap) n)
  by_cases h : n < 0
  · have : ((n.natAbs : Nat) : Int) = -n := by omega
    rw [this]
    exact .ifT hs (plain_of rfl) hn (by simp [h, vBool, vTrue]) (.neg hs rfl (.v hs rfl rfl))
  · have : ((n.natAbs : Nat) : Int) = n := by omega
    rw [this]
    simp only [h, decide_false] at hn
    exact .ifF hs (plain_of rfl) hn (.v hs rfl rfl)

theorem ret_pow (n : Int) (m : Nat) : Returns W s k_StarStar [.num n, .num m] (.num (n ^ m)) := by
  induction m generalizing s with
  | zero =>
    rw [Int.pow_zero]
    refine .lam rfl (by decide) (.base hc) fun s1 e1 hq hs => ?_
    exact .ifT hs (plain_of rfl) (.fn hs rfl hd_zeroP (.one (.v hs rfl rfl)) (ret_zeroP (hc.mono hq.heap) _)) (by decide) (.num _ _ _)
  | succ m ih =>
    refine .lam rfl (by decide) (.base hc) fun s1 e1 hq hs => ?_
    have hz : G W s1 e1 (vlist [.atom "zero?", .atom "m"]) .nil := by
      have := ret_zeroP (W := W) (hc.mono hq.heap) (.num ((m + 1 : Nat) : Int))
      have hne : ((((m + 1 : Nat) : Int)) == 0) = false := by rw [beq_eq_false_iff_ne]; omega
      simp only [Val.equal, hne] at this
      exact .fn hs rfl hd_zeroP (.one (.v hs rfl rfl)) this
    have hd : G W s1 e1 (vlist [.atom "dec", .atom "m"]) (.num m) := by
      have := ret_dec (W := W) (hc.mono hq.heap) ((m + 1 : Nat) : Int)
      rw [show (((m + 1 : Nat) : Int)) - 1 = m by omega] at this
      exact .fn hs rfl hd_dec (.one (.v hs rfl rfl)) this
    have hr : G W s1 e1 (vlist [.atom "*", .atom "n", vlist [.atom "**", .atom "n", vlist [.atom "dec", .atom "m"]]]) (.num (n * n ^ m)) := .mul hs rfl (.v hs rfl rfl) (.fn hs rfl hd_StarStar (.two (.v hs rfl rfl) hd) (ih (hc.mono hq.heap)))
    rw [show n * n ^ m = n ^ (m + 1) by rw [Int.pow_succ, Int.mul_comm]] at hr
    exact .ifF hs (plain_of rfl) hz hr
end

end L1
