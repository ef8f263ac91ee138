import Verif.Lemmas.FuzzGen
import Verif.Lemmas.ProgFns
import Verif.Props.Numbers
/-
examples/fuzz-legal.l1: what the generated expressions are worth.
-/
set_option autoImplicit false
namespace L1

variable {W : World}

section
variable {s : St} {e : Nat} {L : List (String × Val)}

theorem ret_not0 (hp : FuzzAt s.heap) (a : Int) (ns : List Int) : Returns W s f_slashnot0 ((a :: ns).map Val.num) (.num (Op.div.value (a :: ns))) := by
  refine .lam (ps := ["x"]) (r := "xs") (by simp [ArityOk]) (by decide) hp.top fun s1 e1 hq hs => ?_
  have hp1 := hp.mono hq.heap
  have hxs : alGet "xs" (paramSyms ["x"] "xs" ((a :: ns).map Val.num) ++ fuzzDefs) = some (vlist (ns.map Val.num)) := rfl
  have hx : alGet "x" (paramSyms ["x"] "xs" ((a :: ns).map Val.num) ++ fuzzDefs) = some (.num a) := rfl
  have hmul : Returns W s1 (.bi .mul) (ns.map Val.num) (.num ns.prod) := .bi fun _ _ _ => by
    show bMulLoop 1 _ _ = _
    rw [mulLoop_nums]; simp
  refine .let1 (l := [("divisor", .num ns.prod)]) hs rfl known_let (.cons (by decide) (.fn (xs := [_, _]) hs rfl hd_apply (.two (.name hs rfl hd_times) (.v hs hxs rfl)) (Returns.apply (as := []) hmul)) .nil) fun s2 e2 q2 hs2 => ?_
  have hp2 := hp1.mono q2.heap
  by_cases h0 : ns.prod = 0
  · simp only [Op.value, h0, if_true]
    rw [h0] at hs2
    exact .ifT hs2 (plain_of rfl) (.zeroT hs2 rfl hp2.base (.v hs2 rfl rfl)) (by decide) (.num _ _ _)
  · simp only [Op.value, h0, if_false]
    refine .ifF hs2 (plain_of rfl) (.zeroF hs2 rfl hp2.base (.v (v := .num ns.prod) hs2 rfl rfl) h0)
      (.fn (xs := [_, _]) hs2 rfl hd_div (.two (.v (v := .num a) hs2 rfl rfl) (.v (v := .num ns.prod) hs2 rfl rfl)) (.bi fun _ _ _ => ?_))
    have : (Val.num ns.prod).equal (.num 0) = false := by simp [Val.equal, h0]
    simp only [biFn, bDiv, bDivLoop, this]
    rfl

theorem ret_plus (ns : List Int) : Returns W s (.bi .add) (ns.map Val.num) (.num (Op.add.value ns)) := .bi fun _ _ _ => by
  show bAddLoop 0 _ _ = _
  rw [addLoop_nums]; simp [Op.value]

theorem ret_times (ns : List Int) : Returns W s (.bi .mul) (ns.map Val.num) (.num (Op.mul.value ns)) := .bi fun _ _ _ => by
  show bMulLoop 1 _ _ = _
  rw [mulLoop_nums]; simp [Op.value]

theorem ret_minus (a : Int) (ns : List Int) : Returns W s (.bi .sub) ((a :: ns).map Val.num) (.num (Op.sub.value (a :: ns))) := .bi fun _ _ s' => by
  cases ns with
  | nil => rfl
  | cons b ns =>
    show bSubLoop a ((b :: ns).map .num) s' = _
    rw [subLoop_nums]; rfl

theorem split_num (v : Int) : ∃ ds : List Val, ds.length = digitCount v ∧ ∀ s : St, bSplit W [.num v] s = .ok (vlist ds) s := by
  cases v with
  | ofNat k =>
    exact ⟨_, List.length_map .., fun s => by simp only [bSplit, intStr, listOfNums_digits W _ (digits_all k)]; rfl⟩
  | negSucc k =>
    have hd := digits_all (k + 1)
    cases hcs : Nat.toDigits 10 (k + 1) with
    | nil => exact absurd hcs Nat.toDigits_ne_nil
    | cons c cs =>
      rw [hcs] at hd
      simp only [List.all_cons, Bool.and_eq_true] at hd
      have hnum : numOfChars? ['-', c] = some (-(digitsVal [c] : Int)) := by
        simp [numOfChars?, hd.1]
      have : listOfNums W ('-' :: c :: cs) = (listOfNums W cs).map (.cons (.num (numOfStr W ['-', c]))) := rfl
      refine ⟨.num (-(digitsVal [c] : Int)) :: cs.map fun c => .num (digitsVal [c]), ?_, fun s => ?_⟩
      · rw [digitCount, show (Int.negSucc k).natAbs = k + 1 from rfl, hcs]; simp
      · simp [bSplit, intStr, hcs, this, listOfNums_digits W cs hd.2, numOfStr, hnum]

/-- The names in the expressions mean what they should. -/
structure Names (L : List (String × Val)) : Prop where
  div : alGet "/not0" L = some f_slashnot0
  add : alGet "+" L = none
  sub : alGet "-" L = none
  mul : alGet "*" L = none
  len : alGet "len" L = none
  quote : alGet "quote" L = none
  split : alGet "split" L = none

theorem ga_pairs : ∀ (ps : List (Val × Int)), (∀ p ∈ ps, G W s e p.1 (.num p.2)) → GA W s e (ps.map (·.1)) ((ps.map (·.2)).map Val.num)
  | [], _ => .nil
  | p :: ps, h => .cons (h p (by simp)) (ga_pairs ps fun q hq => h q (by simp [hq]))

theorem num_value (hp : FuzzAt s.heap) (hs : Sc s.heap e L) (hn : Names L) {x : Val} {v : Int} (h : NumForm x v) : G W s e x (.num v) := by
  induction h with
  | lit n => exact .num _ _ _
  | op o xs h0 _ ih =>
    have ha := ga_pairs xs ih
    cases xs with
    | nil => exact absurd rfl h0
    | cons p ps =>
      cases o with
      | add => exact .fn hs hn.add hd_plus ha (ret_plus _)
      | sub => exact .fn hs hn.sub hd_minus ha (ret_minus _ _)
      | mul => exact .fn hs hn.mul hd_times ha (ret_times _)
      | div => exact .user hs hn.div rfl ha (ret_not0 hp _ _)
  | lenList xs => exact .len hs hn.len (.quote hs hn.quote known_quote)
  | lenWord a _ =>
    have := G.len (W := W) hs hn.len (.fn (xs := [_]) (v := vlist (a.toList.map fun c => .atom (String.ofList [c]))) hs hn.split hd_split (.one (.quote (v := .atom a) hs hn.quote known_quote)) (.bi fun _ _ _ => rfl))
    rw [List.length_map, String.length_toList] at this
    exact this
  | lenNum x v _ ih =>
    obtain ⟨ds, hl, hds⟩ := split_num (W := W) v
    have := G.len (W := W) hs hn.len (.fn (xs := [_]) (v := vlist ds) hs hn.split hd_split (.one ih) (.bi fun _ _ _ => hds _))
    rw [hl] at this
    exact this

/-- What a generated expression is worth. -/
theorem legal_value (hp : FuzzAt s.heap) (hs : Sc s.heap e L) (hn : Names L) {x v : Val} (h : LegalForm x v) : G W s e x v := by
  cases h with
  | num x v h => exact num_value hp hs hn h
  | word a _ => exact .quote (v := .atom a) hs hn.quote known_quote
  | list xs => exact .quote (v := vlist xs) hs hn.quote known_quote
  | yes => exact .t _ _
  | no => exact .nil _ _
end

/-- What `expr` returns, if it returns. -/
theorem expr_ends {s : St} (hs : FuzzAt s.heap) (n : Nat) (hn : n < 2 ^ 62) (e : Nat) :
    callFn W f_expr [.num n] e s = .oof ∨ ∃ s' x v m, callFn W f_expr [.num n] e s = .ok x s' ∧ Draws m s s' ∧ 0 < m ∧ LegalForm x v := by
  cases hf : (callFn W f_expr [.num n] e s).final with
  | none =>
    refine .inl ?_
    revert hf
    cases callFn W f_expr [.num n] e s <;> simp [Res.final]
  | some s' =>
    rcases cd_expr (W := W) (K := s'.tick + 1) (T := 0) hs hn s e (List.prefix_refl _) (by omega) with h | ⟨s1, h1, h2⟩ | ⟨v, s1, h1, ⟨m, h2, d⟩, w, h3⟩
    · exact .inl h
    · rw [hf] at h1; cases h1; omega
    · exact .inr ⟨s1, v, w, m, h1, d, h2, h3⟩

end L1
