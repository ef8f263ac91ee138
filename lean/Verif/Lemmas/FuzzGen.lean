import Verif.Model.Examples3
import Verif.Spec.FuzzLegal
import Verif.Lemmas.Drawn
import Verif.Props.Data
/-
examples/fuzz-legal.l1: what its functions return.
-/
set_option autoImplicit false
namespace L1

variable {W : World}

/-- The first definition of `nums`, examples/fuzz-legal.l1:20, which the second one replaces. -/
def f_nums_first : Val := .lam ["n"] "" (vlist [vlist [.atom "repeatedly", vlist [.atom "randint", .atom "n"], vlist [.atom "partial", .atom "num", .atom "n"]]]) .nil false 0

/-- The definitions of the script, the last one first. -/
def fuzzDefs : List (String × Val) := [("expr", f_expr), ("dosplit", f_dosplit), ("dolen", f_dolen), ("boolean", f_boolean), ("quote-list", f_quote_list), ("quote-atom", f_quote_atom),
  ("arith", f_arith), ("/not0", f_slashnot0), ("nums", f_nums), ("quoteatom", f_quoteatom), ("atoms", f_atoms), ("atom", f_atom), ("nums", f_nums_first), ("num", f_num),
  ("randnum", f_randnum), ("cool", f_cool), ("randpos", f_randpos), ("one-of", f_one_of)]

/-- The definitions of examples/fuzz-legal.l1 are in place. -/
def FuzzAt (h : Heap) : Prop := Prog h fuzzDefs

section
variable {K T e : Nat} {h : Heap} {m n : Nat} {P Q : Val → Heap → Prop}

theorem FuzzAt.mono {h' : Heap} (hp : FuzzAt h) (hh : h <+: h') : FuzzAt h' := Prog.mono hp hh
theorem FuzzAt.base (hp : FuzzAt h) : Base h 0 := hp.core.base
theorem FuzzAt.top (hp : FuzzAt h) : Sc h 0 fuzzDefs := hp.sc

theorem FD.same {s : St} {r r' : Res Val} (hf : FD K s m P r) (hs : SameEnd r r') : FD K s m P r' := Fine.same hf hs

/-- `partial` with one further argument. -/
theorem cd_partial {f a : Val} (hc : Base h 0) :
    CD W K T h k_partial [f, a] 0 fun v h' => ∃ e0, v = partialFn e0 ∧ Sc h' e0 (paramSyms ["f"] "args" [f, a] ++ []) := fun s e hh _ => by
  rw [partial_run (hc.mono hh) f [a] e]
  exact .ok (Quiet.callSt s 0 ["f"] "args" [f, a]).draws ⟨s.heap.length, rfl, Sc.callSt (.base (hc.mono hh)) _ _ _⟩

theorem partialFn_run0 {s : St} {f : Val} {as : List Val} {e0 : Nat} (hs : Sc s.heap e0 (paramSyms ["f"] "args" (f :: as) ++ [])) (hc : Base s.heap 0) (e : Nat) :
    ∃ s1 e1, Quiet s s1 ∧ SameEnd (callFn W f as e1 s1) (callFn W (partialFn e0) [] e s) := by
  rw [show callFn W (partialFn e0) [] e s = _ from callFn_lam (ps := []) (r := "more") (vs := []) (by simp [ArityOk]) (by decide) e s]
  have q1 := Quiet.callSt s e0 [] "more" []
  have hs1 := Sc.callSt hs [] "more" []
  have h3 := ret_concat_lists (W := W) (hc.mono q1.heap) [as, []]
  rw [show [as, []].flatten = as by simp] at h3
  obtain ⟨s2, q2, e2⟩ := core_call (W := W) (xs := [_, _]) hs1 rfl hd_apply (.two (.v (a := "f") hs1 rfl rfl) (.fn hs1 rfl hd_concat (.two (.v (a := "args") hs1 rfl rfl) (.v (a := "more") hs1 rfl rfl)) h3))
  refine ⟨s2, s.heap.length, q1.trans q2, ?_⟩
  rw [show eval W (vlist [.atom "apply", .atom "f", vlist [.atom "concat", .atom "args", .atom "more"]]) _ _ = _ from e2]
  exact (same_apply W s.heap.length f [] as s2).sameEnd.extend

theorem cd_partialFn {f a : Val} {e0 : Nat} (hs : Sc h e0 (paramSyms ["f"] "args" [f, a] ++ [])) (hc : Base h 0) (hf : CD W K T h f [a] m P) : CD W K T h (partialFn e0) [] m P :=
  fun s e hh hT => by
    obtain ⟨s1, e1, q1, hsame⟩ := partialFn_run0 (W := W) (hs.mono hh) (hc.mono hh) e
    exact FD.after q1 ((hf s1 e1 (hh.trans q1.heap) (by rw [q1.tick]; exact hT)).same hsame)

theorem cd_oneof (hp : FuzzAt h) (xs : List Val) (h0 : xs ≠ []) (hl : xs.length < 2 ^ 63) : CD W K T h f_one_of xs 1 fun v _ => v ∈ xs := by
  refine .lam (ps := []) (r := "xs") (by simp [ArityOk]) (by decide) hp.top fun h' e' hh hs => ?_
  refine .calls (xs := [.atom "xs"]) (vs := [vlist xs]) (.core hs rfl hd_randchoice) (fun s hh' => .one (.v (hs.mono hh') (by simp [paramSyms, alGet]) rfl)) ?_
  refine (CD.draws (fun s hh' => draws_randchoice (W := W) ((hp.mono (hh.trans hh')).base) xs h0 hl)).mono (Nat.le_refl _) ?_
  rintro v _ _ ⟨t, rfl⟩
  have hlt : W.rand t % xs.length < xs.length := Nat.mod_lt _ (List.length_pos_iff.2 h0)
  rw [List.getD_eq_getElem?_getD, List.getElem?_eq_getElem hlt]
  exact List.getElem_mem hlt

theorem cd_randint (k : Nat) (h0 : 0 < k) (hk : k < 2 ^ 63) : CD W K T h (.bi .randint) [.num k] 1 fun v _ => ∃ j : Nat, v = .num j := fun s e _ _ => by
  rw [call_randint k h0 hk]
  exact .ok ⟨List.prefix_refl _, rfl, rfl, rfl, rfl, Nat.le_refl _⟩ ⟨_, rfl⟩

theorem cd_randpos (hp : FuzzAt h) (hn : n < 2 ^ 62) : CD W K T h f_randpos [.num n] 1 fun v _ => ∃ j : Nat, v = .num (j + 1 : Nat) := by
  refine .lam (ps := ["n"]) (r := "") rfl (by decide) hp.top fun h' e' hh hs => ?_
  refine .call1 (n := 0) (.core hs rfl hd_inc) (.calls (xs := [vlist [.atom "inc", .atom "n"]]) (vs := [.num ((n + 1 : Nat) : Int)]) (.core hs rfl hd_randint)
    (fun s hh' => .one ?_) (cd_randint (n + 1) (by omega) (by omega))) ?_
  · have hs' := hs.mono hh'
    exact .fn hs' rfl hd_inc (.one (.v (a := "n") hs' rfl rfl)) (ret_inc (hp.mono (hh.trans hh')).base n)
  · rintro v h2 hh2 ⟨j, rfl⟩
    refine (CD.ret (fun s hh' => ret_inc (W := W) (hp.mono (hh.trans (hh2.trans hh'))).base j)).mono (Nat.le_refl _) ?_
    rintro w _ _ rfl
    exact ⟨j, rfl⟩

theorem ret_cool (hp : FuzzAt h) (s : St) (hh : h <+: s.heap) (n : Nat) : Returns W s f_cool [.num n] (.num (n / 2 : Nat)) := by
  refine .lam (ps := ["x"]) (r := "") rfl (by decide) (hp.mono hh).top fun s1 e1 _ hs => ?_
  exact .fn hs rfl hd_div (.two (.v (a := "x") hs rfl rfl) (.num _ _ _)) (.bi fun _ _ _ => rfl)

theorem g_cool (hp : FuzzAt h) {L : List (String × Val)} (hs : Sc h e L) (hx : alGet "cool" L = some f_cool) (hn : alGet "n" L = some (.num n)) (s : St) (hh : h <+: s.heap) :
    G W s e (vlist [.atom "cool", .atom "n"]) (.num (n / 2 : Nat)) :=
  .user (hs.mono hh) hx rfl (.one (.v (hs.mono hh) hn rfl)) (ret_cool hp s hh n)

theorem digit_of (d : Nat) (hd : d < 10) : ∃ c, isDigitC c = true ∧ digitsVal [c] = d :=
  ⟨Nat.digitChar d, by revert d; decide, by revert d; decide⟩

theorem bFuse_digits (ds : List Nat) (h0 : ds ≠ []) (hd : ∀ d ∈ ds, d < 10) (s : St) : ∃ k : Nat, bFuse W [vlist (ds.map fun (d : Nat) => Val.num (d : Int))] s = .ok (.num k) s := by
  obtain ⟨cs, hcs, rfl⟩ : ∃ cs : List Char, cs.all isDigitC = true ∧ ds = cs.map fun c => digitsVal [c] := by
    clear h0
    induction ds with
    | nil => exact ⟨[], rfl, rfl⟩
    | cons d ds ih =>
      obtain ⟨c, h1, h2⟩ := digit_of d (hd d (by simp))
      obtain ⟨cs, h3, h4⟩ := ih fun x hx => hd x (by simp [hx])
      exact ⟨c :: cs, by simp [h1, h3], by simp [h2, h4]⟩
  have hf := fuseLoop_digits cs hcs
  have hne : cs ≠ [] := by rintro rfl; exact h0 rfl
  have hnum := numOfChars?_digits cs hne hcs
  refine ⟨digitsVal cs, ?_⟩
  rw [List.map_map]
  show bFuse W [vlist (cs.map fun c => .num (digitsVal [c]))] s = _
  cases cs with
  | nil => exact absurd rfl hne
  | cons c cs =>
    simp only [List.map_cons, vlist_cons] at hf ⊢
    simp only [bFuse, hf]
    have hc : isDigitC c = true := by simp only [List.all_cons, Bool.and_eq_true] at hcs; exact hcs.1
    have h128 : c.toNat < 128 := by
      simp [isDigitC, Char.le_def, UInt32.le_iff_toNat_le] at hc
      have : c.toNat ≤ 57 := hc.2
      omega
    simp only [isDigitW, h128, if_true, hc, numOfStr, hnum]
    rfl

theorem cd_randnum (hp : FuzzAt h) (hn : n < 2 ^ 62) : CD W K T h f_randnum [.num n] 0 fun v _ => ∃ j : Nat, v = .num j := by
  refine .lam (ps := ["n"]) (r := "") rfl (by decide) hp.top fun h' e' hh hs => ?_
  refine .call1 (n := 0) (.core hs rfl hd_fuse) (P := fun v _ => ∃ ds : List Nat, v = vlist (ds.map fun (d : Nat) => Val.num (d : Int)) ∧ ds ≠ [] ∧ ∀ d ∈ ds, d < 10) (m := 0)
    (.call1 (n := 0) (.core hs rfl hd_randigits) (.calls (xs := [.atom "n"]) (.var (a := "randpos") hs rfl rfl) (fun s hh' => .one (.v (hs.mono hh') rfl rfl)) (cd_randpos (hp.mono hh) hn)) ?_) ?_
  · rintro v h2 hh2 ⟨j, rfl⟩
    refine (CD.draws (fun s hh' => draws_randigits (W := W) (hp.mono (hh.trans (hh2.trans hh'))).base (j + 1))).mono (Nat.zero_le _) ?_
    rintro v _ _ ⟨t, rfl⟩
    refine ⟨(List.range (j + 1)).map fun i => W.rand (t + i) % 10, by rw [List.map_map]; rfl, by simp, fun d hd => ?_⟩
    obtain ⟨i, _, rfl⟩ := List.mem_map.1 hd
    omega
  · rintro v h2 hh2 ⟨ds, rfl, h0, hd⟩ s e hh' _
    obtain ⟨k, hk⟩ := bFuse_digits (W := W) ds h0 hd s
    rw [call_bi (W := W) (b := .fuse) hk]
    exact .ok (Quiet.refl _).draws ⟨k, rfl⟩

theorem cd_atom (hp : FuzzAt h) (hn : n < 2 ^ 62) : CD W K T h f_atom [.num n] 0 fun v _ => ∃ a, v = .atom a ∧ IsWord a := by
  refine .lam (ps := ["n"]) (r := "") rfl (by decide) hp.top fun h' e' hh hs => ?_
  refine .call1 (n := 0) (.core hs rfl hd_fuse) (P := fun v _ => ∃ cs : List Char, v = vlist (charAtoms cs) ∧ cs ≠ [] ∧ ∀ c ∈ cs, c ∈ alphabet) (m := 0)
    (.call1 (n := 0) (.core hs rfl hd_randalpha) (.calls (xs := [.atom "n"]) (.var (a := "randpos") hs rfl rfl) (fun s hh' => .one (.v (hs.mono hh') rfl rfl)) (cd_randpos (hp.mono hh) hn)) ?_) ?_
  · rintro v h2 hh2 ⟨j, rfl⟩
    refine (CD.draws (fun s hh' => draws_randalpha (W := W) (hp.mono (hh.trans (hh2.trans hh'))).base (j + 1))).mono (Nat.zero_le _) ?_
    rintro v _ _ ⟨t, rfl⟩
    refine ⟨(List.range (j + 1)).map fun i => alphabet.getD (W.rand (t + i) % 26) ' ', by rw [charAtoms, List.map_map]; rfl, by simp, fun d hd => ?_⟩
    obtain ⟨i, _, rfl⟩ := List.mem_map.1 hd
    have h26 : W.rand (t + i) % 26 < alphabet.length := Nat.mod_lt _ (by decide)
    rw [List.getD_eq_getElem?_getD, List.getElem?_eq_getElem h26]
    exact List.getElem_mem h26
  · rintro v h2 hh2 ⟨cs, rfl, h0, hd⟩ s e hh' _
    have hnd : ∀ c ∈ alphabet, isDigitW W c = false := by
      intro c hc
      have : ∀ c ∈ alphabet, c.toNat < 128 ∧ isDigitC c = false := by decide
      obtain ⟨h1, h2⟩ := this c hc
      simp [isDigitW, h1, h2]
    have hk := bFuse_atoms (W := W) (xs := charAtoms cs) (cs := cs) (by simpa [charAtoms] using h0) (fuseLoop_chars cs) (fun c hc => hnd c (hd c (List.mem_of_mem_head? hc))) s
    rw [call_bi (W := W) (b := .fuse) hk]
    exact .ok (Quiet.refl _).draws ⟨_, rfl, by simpa using h0, by simpa using hd⟩

theorem cd_list (v w : Val) : CD W K T h (.bi .list) [v, w] 0 fun x _ => x = vlist [v, w] := .ret fun _ _ => .bi fun _ _ _ => rfl

theorem cd_quote_atom (hp : FuzzAt h) (hn : n < 2 ^ 62) : CD W K T h f_quote_atom [.num n] 0 fun v _ => ∃ a, v = form "quote" [.atom a] ∧ IsWord a := by
  refine .lam (ps := ["n"]) (r := "") rfl (by decide) hp.top fun h' e' hh hs => ?_
  refine .template (c := vlist [.atom "cons", vlist [.atom "quote", .atom "quote"], vlist [.atom "cons", vlist [.atom "atom", .atom "n"], .nil]]) hs rfl rfl ?_
  refine .call2 (l := 0) (n := 0) (Q := fun v _ => ∃ a, v = vlist [.atom a] ∧ IsWord a) (.core hs rfl hd_cons) (.of fun s hh' => .quote (v := .atom "quote") (hs.mono hh') rfl known_quote)
    (.call2 (l := 0) (.core hs rfl hd_cons) (.calls (xs := [.atom "n"]) (.var (a := "atom") hs rfl rfl) (fun s hh' => .one (.v (hs.mono hh') rfl rfl)) (cd_atom (hp.mono hh) hn)) (.of (v := .nil) fun s hh' => .nil _ _) ?_) ?_
  · rintro v h1 w h2 _ _ ⟨a, rfl, ha⟩ rfl s e _ _
    rw [call_cons]
    exact .ok (Quiet.refl _).draws ⟨a, rfl, ha⟩
  · rintro v h1 w h2 _ _ rfl ⟨a, rfl, ha⟩ s e _ _
    rw [call_cons]
    exact .ok (Quiet.refl _).draws ⟨a, rfl, ha⟩

theorem cd_boolean (hp : FuzzAt h) (v : Val) : CD W K T h f_boolean [v] 0 fun v _ => v = .atom "t" ∨ v = .nil := by
  refine .lam (ps := ["_"]) (r := "") rfl (by decide) hp.top fun h' e' hh hs => ?_
  refine (ED.calls (xs := [.atom "t", .nil]) (vs := [.atom "t", .nil]) (.var (a := "one-of") hs rfl rfl) (fun s hh' => .two (fun s1 _ => ⟨s1, eval_t _ _ _, .refl _⟩) (.nil _ _)) (cd_oneof (hp.mono hh) _ (by simp) (by simp))).mono (Nat.zero_le _) ?_
  intro v _ _ hv
  simpa using hv

/-- The number expressions. -/
def IsNumForm (x : Val) : Prop := ∃ v, NumForm x v

/-- What is assumed of `num`, when its callers are considered. -/
def NumOk (W : World) (K T : Nat) : Prop := ∀ (h : Heap) (n : Nat), FuzzAt h → n < 2 ^ 62 → CD W K T h f_num [.num n] 0 fun v _ => IsNumForm v

theorem NumOk.later {T' : Nat} (hN : NumOk W K T) (ht : T ≤ T') : NumOk W K T' := fun h n hp hn => (hN h n hp hn).later (List.prefix_refl _) ht

theorem cd_nums (hN : NumOk W K T) (hp : FuzzAt h) (hn : n < 2 ^ 62) : CD W K T h f_nums [.num n] 0 fun v _ => ∃ xs, v = vlist xs ∧ xs ≠ [] ∧ ∀ x ∈ xs, IsNumForm x := by
  refine .lam (ps := ["n"]) (r := "") rfl (by decide) hp.top fun h' e' hh hs => ?_
  refine .call2 (l := 0) (.core hs rfl hd_repeatedly) (.calls (xs := [.atom "n"]) (.var (a := "randpos") hs rfl rfl) (fun s hh' => .one (.v (hs.mono hh') rfl rfl)) (cd_randpos (hp.mono hh) hn))
    (.calls (xs := [.atom "num", .atom "n"]) (.core hs rfl hd_partial) (fun s hh' => .two (.v (hs.mono hh') rfl rfl) (.v (hs.mono hh') rfl rfl)) (cd_partial (hp.mono hh).base)) ?_
  rintro v h1 w h2 hh1 hh2 ⟨j, rfl⟩ ⟨e0, rfl, hs0⟩
  have hp2 := hp.mono (hh.trans (hh1.trans hh2))
  refine (cd_repeatedly (P := fun v _ => IsNumForm v) rfl (j + 1) hp2.base (cd_partialFn hs0 hp2.base ((hN _ n hp2 hn).later (List.prefix_refl _) (by omega)))).mono (Nat.le_refl _) ?_
  rintro v _ _ ⟨xs, rfl, hl, hx⟩
  exact ⟨xs, rfl, by rintro rfl; simp at hl, hx⟩

theorem numForms_pairs {xs : List Val} (hx : ∀ x ∈ xs, IsNumForm x) : ∃ ps : List (Val × Int), xs = ps.map (·.1) ∧ ∀ p ∈ ps, NumForm p.1 p.2 := by
  induction xs with
  | nil => exact ⟨[], rfl, by simp⟩
  | cons x xs ih =>
    obtain ⟨v, hv⟩ := hx x (by simp)
    obtain ⟨ps, rfl, hps⟩ := ih fun x h => hx x (by simp [h])
    exact ⟨(x, v) :: ps, rfl, fun p hp => by
      rcases List.mem_cons.1 hp with rfl | h
      · exact hv
      · exact hps p h⟩

theorem half_lt (hn : n < 2 ^ 62) : n / 2 < 2 ^ 62 := by omega

theorem cd_arith (hN : NumOk W K T) (hp : FuzzAt h) (hn : n < 2 ^ 62) : CD W K T h f_arith [.num n] 0 fun v _ => IsNumForm v := by
  refine .lam (ps := ["n"]) (r := "") rfl (by decide) hp.top fun h' e' hh hs => ?_
  have hp' := hp.mono hh
  have hq : ∀ (a : String) (s : St), h' <+: s.heap → G W s e' (vlist [.atom "quote", .atom a]) (.atom a) := fun a s hh' => .quote (hs.mono hh') rfl known_quote
  refine .call2 (l := 0) (n := 0) (Q := fun v _ => ∃ xs, v = vlist xs ∧ xs ≠ [] ∧ ∀ x ∈ xs, IsNumForm x) (.core hs rfl hd_listStar)
    (.calls (xs := [vlist [.atom "quote", .atom "+"], vlist [.atom "quote", .atom "-"], vlist [.atom "quote", .atom "*"], vlist [.atom "quote", .atom "/not0"]]) (.var (a := "one-of") hs rfl rfl)
      (fun s hh' => .cons (hq _ s hh') (.cons (hq _ s hh') (.cons (hq _ s hh') (.cons (hq _ s hh') .nil)))) (cd_oneof hp' _ (by simp) (by simp)))
    (.call1 (n := 0) (.var (a := "nums") hs rfl rfl) (.of (g_cool hp' hs rfl rfl)) ?_) ?_
  · rintro v h2 hh2 rfl
    exact cd_nums hN (hp'.mono hh2) (half_lt hn)
  · rintro v h1 w h2 hh1 hh2 hv ⟨xs, rfl, h0, hx⟩
    have hp2 := hp'.mono (hh1.trans hh2)
    refine (CD.ret (fun s hh' => ret_listStar (W := W) (hp2.mono hh').base [v] (vlist xs))).mono (Nat.le_refl _) ?_
    rintro _ _ _ rfl
    obtain ⟨ps, rfl, hps⟩ := numForms_pairs hx
    have h0' : ps ≠ [] := by rintro rfl; exact h0 rfl
    simp only [List.mem_cons, List.not_mem_nil, or_false] at hv
    rcases hv with rfl | rfl | rfl | rfl
    · exact ⟨_, .op .add ps h0' hps⟩
    · exact ⟨_, .op .sub ps h0' hps⟩
    · exact ⟨_, .op .mul ps h0' hps⟩
    · exact ⟨_, .op .div ps h0' hps⟩

theorem cd_quote_list (hN : NumOk W K T) (hp : FuzzAt h) (hn : n < 2 ^ 62) : CD W K T h f_quote_list [.num n] 0 fun v _ => ∃ xs, v = form "quote" [vlist xs] := by
  refine .lam (ps := ["n"]) (r := "") rfl (by decide) hp.top fun h' e' hh hs => ?_
  have hp' := hp.mono hh
  refine .call2 (l := 0) (n := 0) (Q := fun v _ => ∃ xs, v = vlist xs) (.core hs rfl hd_list) (.of fun s hh' => .quote (v := .atom "quote") (hs.mono hh') rfl known_quote)
    (.callH1 (l := 0) (hx := .cons (.atom "one-of") (vlist _)) (fun _ => trivial) (.calls (xs := [.atom "range", .atom "nums"]) (.var (a := "one-of") hs rfl rfl)
      (fun s hh' => .two (.name (hs.mono hh') rfl hd_range) (.v (hs.mono hh') rfl rfl)) (cd_oneof hp' _ (by simp) (by simp))) (.of (g_cool hp' hs rfl rfl)) ?_) ?_
  · rintro f h1 w h2 hh1 hh2 hf rfl
    have hp2 := hp'.mono (hh1.trans hh2)
    simp only [List.mem_cons, List.not_mem_nil, or_false] at hf
    rcases hf with rfl | rfl
    · refine (CD.ret (fun s hh' => ret_range (W := W) (hp2.mono hh').base _)).mono (Nat.le_refl _) ?_
      rintro _ _ _ rfl
      exact ⟨_, rfl⟩
    · exact (cd_nums (hN.later (by omega)) hp2 (half_lt hn)).mono (Nat.le_refl _) fun _ _ _ ⟨xs, h, _⟩ => ⟨xs, h⟩
  · rintro v h1 w h2 _ _ rfl ⟨xs, rfl⟩
    refine (cd_list _ _).mono (Nat.le_refl _) ?_
    rintro _ _ _ rfl
    exact ⟨xs, rfl⟩

theorem cd_dosplit (hN : NumOk W K T) (hp : FuzzAt h) (hn : n < 2 ^ 62) :
    CD W K T h f_dosplit [.num n] 0 fun v _ => ∃ x, v = form "split" [x] ∧ ((∃ a, x = form "quote" [.atom a] ∧ IsWord a) ∨ IsNumForm x) := by
  refine .lam (ps := ["n"]) (r := "") rfl (by decide) hp.top fun h' e' hh hs => ?_
  have hp' := hp.mono hh
  refine .call2 (l := 0) (n := 0) (Q := fun x _ => (∃ a, x = form "quote" [.atom a] ∧ IsWord a) ∨ IsNumForm x) (.core hs rfl hd_list) (.of fun s hh' => .quote (v := .atom "split") (hs.mono hh') rfl known_quote)
    (.callH1 (l := 0) (hx := .cons (.atom "one-of") (vlist _)) (fun _ => trivial) (.calls (xs := [.atom "quote-atom", .atom "num"]) (.var (a := "one-of") hs rfl rfl)
      (fun s hh' => .two (.v (hs.mono hh') rfl rfl) (.v (hs.mono hh') rfl rfl)) (cd_oneof hp' _ (by simp) (by simp))) (.of fun s hh' => .v (v := .num n) (hs.mono hh') rfl rfl) ?_) ?_
  · rintro f h1 w h2 hh1 hh2 hf rfl
    have hp2 := hp'.mono (hh1.trans hh2)
    simp only [List.mem_cons, List.not_mem_nil, or_false] at hf
    rcases hf with rfl | rfl
    · exact (cd_quote_atom hp2 hn).mono (Nat.le_refl _) fun _ _ _ h => .inl h
    · exact (hN.later (by omega) _ n hp2 hn).mono (Nat.le_refl _) fun _ _ _ h => .inr h
  · rintro v h1 w h2 _ _ rfl hw
    refine (cd_list _ _).mono (Nat.le_refl _) ?_
    rintro _ _ _ rfl
    exact ⟨w, rfl, hw⟩

theorem cd_dolen (hN : NumOk W K T) (hp : FuzzAt h) (hn : n < 2 ^ 62) : CD W K T h f_dolen [.num n] 0 fun v _ => IsNumForm v := by
  refine .lam (ps := ["n"]) (r := "") rfl (by decide) hp.top fun h' e' hh hs => ?_
  have hp' := hp.mono hh
  refine .call2 (l := 0) (n := 0) (Q := fun x _ => IsNumForm (form "len" [x])) (.core hs rfl hd_list) (.of fun s hh' => .quote (v := .atom "len") (hs.mono hh') rfl known_quote)
    (.callH1 (l := 0) (hx := .cons (.atom "one-of") (vlist _)) (fun _ => trivial) (.calls (xs := [.atom "quote-list", .atom "dosplit"]) (.var (a := "one-of") hs rfl rfl)
      (fun s hh' => .two (.v (hs.mono hh') rfl rfl) (.v (hs.mono hh') rfl rfl)) (cd_oneof hp' _ (by simp) (by simp))) (.of (g_cool hp' hs rfl rfl)) ?_) ?_
  · rintro f h1 w h2 hh1 hh2 hf rfl
    have hp2 := hp'.mono (hh1.trans hh2)
    simp only [List.mem_cons, List.not_mem_nil, or_false] at hf
    rcases hf with rfl | rfl
    · refine (cd_quote_list (hN.later (by omega)) hp2 (half_lt hn)).mono (Nat.le_refl _) ?_
      rintro _ _ _ ⟨xs, rfl⟩
      exact ⟨_, .lenList xs⟩
    · refine (cd_dosplit (hN.later (by omega)) hp2 (half_lt hn)).mono (Nat.le_refl _) ?_
      rintro _ _ _ ⟨x, rfl, ⟨a, rfl, ha⟩ | ⟨v, hv⟩⟩
      · exact ⟨_, .lenWord a ha⟩
      · exact ⟨_, .lenNum x v hv⟩
  · rintro v h1 w h2 _ _ rfl hw
    refine (cd_list _ _).mono (Nat.le_refl _) ?_
    rintro _ _ _ rfl
    exact hw

theorem num_ok (K : Nat) : ∀ (N T : Nat), K ≤ T + N → NumOk W K T := by
  intro N
  induction N with
  | zero => exact fun T hK h n _ _ => .late (by omega)
  | succ N ih =>
    intro T hK h n hp hn
    have hN : NumOk W K (T + 1) := ih (T + 1) (by omega)
    refine .lam (ps := ["n"]) (r := "") rfl (by decide) hp.top fun h' e' hh hs => ?_
    have hp' := hp.mono hh
    refine .callH1 (l := 0) (hx := .cons (.atom "one-of") (vlist _)) (fun _ => trivial) (.calls (xs := [.atom "randnum", .atom "arith", .atom "dolen"]) (.var (a := "one-of") hs rfl rfl)
      (fun s hh' => .three (.v (hs.mono hh') rfl rfl) (.v (hs.mono hh') rfl rfl) (.v (hs.mono hh') rfl rfl)) (cd_oneof hp' _ (by simp) (by simp))) (.of (g_cool hp' hs rfl rfl)) ?_
    rintro f h1 w h2 hh1 hh2 hf rfl
    have hp2 := hp'.mono (hh1.trans hh2)
    simp only [List.mem_cons, List.not_mem_nil, or_false] at hf
    rcases hf with rfl | rfl | rfl
    · refine (cd_randnum hp2 (half_lt hn)).mono (Nat.le_refl _) ?_
      rintro _ _ _ ⟨j, rfl⟩
      exact ⟨_, .lit j⟩
    · exact cd_arith hN hp2 (half_lt hn)
    · exact cd_dolen hN hp2 (half_lt hn)

/-- What `expr` returns, if it returns. -/
theorem cd_expr (hp : FuzzAt h) (hn : n < 2 ^ 62) : CD W K T h f_expr [.num n] 1 fun x _ => ∃ v, LegalForm x v := by
  refine .lam (ps := ["n"]) (r := "") rfl (by decide) hp.top fun h' e' hh hs => ?_
  have hp' := hp.mono hh
  have hN : NumOk W K T := num_ok K K T (by omega)
  refine .callH1 (l := 0) (hx := .cons (.atom "one-of") (vlist _)) (fun _ => trivial) (.calls (xs := [.atom "arith", .atom "quote-atom", .atom "quote-list", .atom "dolen", .atom "boolean"]) (.var (a := "one-of") hs rfl rfl)
    (fun s hh' => .cons (.v (hs.mono hh') rfl rfl) (.cons (.v (hs.mono hh') rfl rfl) (.three (.v (hs.mono hh') rfl rfl) (.v (hs.mono hh') rfl rfl) (.v (hs.mono hh') rfl rfl)))) (cd_oneof hp' _ (by simp) (by simp)))
    (.of fun s hh' => .v (v := .num n) (hs.mono hh') rfl rfl) ?_
  rintro f h1 w h2 hh1 hh2 hf rfl
  have hp2 := hp'.mono (hh1.trans hh2)
  have hN2 : NumOk W K (T + 1 + 0) := hN.later (by omega)
  simp only [List.mem_cons, List.not_mem_nil, or_false] at hf
  rcases hf with rfl | rfl | rfl | rfl | rfl
  · exact (cd_arith hN2 hp2 hn).mono (Nat.le_refl _) fun _ _ _ ⟨v, h⟩ => ⟨_, .num _ v h⟩
  · refine (cd_quote_atom hp2 hn).mono (Nat.le_refl _) ?_
    rintro _ _ _ ⟨a, rfl, ha⟩
    exact ⟨_, .word a ha⟩
  · refine (cd_quote_list hN2 hp2 hn).mono (Nat.le_refl _) ?_
    rintro _ _ _ ⟨xs, rfl⟩
    exact ⟨_, .list xs⟩
  · exact (cd_dolen hN2 hp2 hn).mono (Nat.le_refl _) fun _ _ _ ⟨v, h⟩ => ⟨_, .num _ v h⟩
  · refine (cd_boolean hp2 _).mono (Nat.le_refl _) ?_
    rintro _ _ _ (rfl | rfl)
    · exact ⟨_, .yes⟩
    · exact ⟨_, .no⟩
end

end L1
