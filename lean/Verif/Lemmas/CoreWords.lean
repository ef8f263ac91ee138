import Verif.Lemmas.CoreSeq
import Verif.Props.Data
/- The text functions of the core library. -/
set_option autoImplicit false
namespace L1

variable {W : World}

theorem hd_BANG : Head "BANG" (.atom "!") := by refine ⟨?_, ?_, ?_, ?_, ?_⟩ <;> decide +kernel
theorem hd_COMMA : Head "COMMA" (.atom ",") := by refine ⟨?_, ?_, ?_, ?_, ?_⟩ <;> decide +kernel
theorem hd_PERIOD : Head "PERIOD" (.atom ".") := by refine ⟨?_, ?_, ?_, ?_, ?_⟩ <;> decide +kernel
theorem hd_COLON : Head "COLON" (.atom ":") := by refine ⟨?_, ?_, ?_, ?_, ?_⟩ <;> decide +kernel

/-- The characters of an atom, as `split` gives them. -/
def charAtoms (cs : List Char) : List Val := cs.map fun c => .atom (String.ofList [c])

theorem fuseLoop_append (cs : List Char) (l : Val) : fuseLoop (mkList (charAtoms cs) l) = (fuseLoop l).map (cs ++ ·) := by
  induction cs with
  | nil => cases h : fuseLoop l <;> simp [charAtoms, mkList, h]
  | cons c cs ih =>
    unfold charAtoms at *
    rw [List.map_cons, show ∀ x xs, mkList (x :: xs) l = .cons x (mkList xs l) from fun _ _ => rfl]
    simp only [fuseLoop, ih]
    cases fuseLoop l <;> simp [Val.str, strAux]

/-- `fuse` of atoms whose spellings together do not begin with a digit. -/
theorem bFuse_atoms {xs : List Val} {cs : List Char} (hne : xs ≠ []) (hf : fuseLoop (vlist xs) = some cs) (hd : ∀ c ∈ cs.head?, isDigitW W c = false)
    (s : St) : bFuse W [vlist xs] s = .ok (.atom (String.ofList cs)) s := by
  cases xs with
  | nil => exact absurd rfl hne
  | cons x xs =>
    rw [vlist_cons] at hf ⊢
    simp only [bFuse, hf]
    cases cs with
    | nil => rfl
    | cons c cs => simp only [hd c (by simp)]; rfl

theorem noDigit_append {a m : String} (hd : ∀ c ∈ a.toList.head?, isDigitW W c = false) (hm : ∀ c ∈ m.toList.head?, ∀ W, isDigitW W c = false) :
    ∀ c ∈ (a.toList ++ m.toList).head?, isDigitW W c = false := by
  cases h : a.toList with
  | nil => simpa using fun c hc => hm c hc W
  | cons x xs => rw [h] at hd; simpa using hd

section
variable {s : St} (hc : Base s.heap 0)
include hc

theorem ret_punctuate_atom (a m : String) (hd : ∀ c ∈ (a.toList ++ m.toList).head?, isDigitW W c = false) :
    Returns W s k_punctuate_atom [.atom a, .atom m] (.atom (a ++ m)) := by
  refine .lam rfl (by decide) (.base hc) fun s1 e1 hq hs => ?_
  have hb := hc.mono hq.heap
  refine .let1 hs rfl known_let (.cons (by decide) (.fn (v := vlist (charAtoms a.toList)) hs rfl hd_split (.one (.v hs rfl rfl)) (.bi fun _ _ _ => rfl)) .nil) fun s2 e2 hq2 hs2 => ?_
  have h3 := ret_concat_lists (W := W) (hb.mono hq2.heap) [charAtoms a.toList, [.atom m]]
  rw [show [charAtoms a.toList, [.atom m]].flatten = charAtoms a.toList ++ [.atom m] by simp] at h3
  refine .fn hs2 rfl hd_fuse (.one (.fn hs2 rfl hd_concat (.two (.v hs2 rfl rfl) (.list hs2 rfl (.one (.v hs2 rfl rfl)))) h3)) (.bi fun _ _ s' => ?_)
  have hf : fuseLoop (vlist (charAtoms a.toList ++ [.atom m])) = some (a.toList ++ m.toList) := by
    have := fuseLoop_append a.toList (vlist [.atom m])
    rw [mkList_vlist] at this
    rw [this]
    simp [vlist, mkList, fuseLoop, Val.str, strAux]
  rw [show a ++ m = String.ofList (a.toList ++ m.toList) by rw [String.ofList_append]; simp]
  exact bFuse_atoms (by simp) hf hd s'

theorem ret_bang (a : String) (hd : ∀ c ∈ a.toList.head?, isDigitW W c = false) : Returns W s k_bang [.atom a] (.atom (a ++ "!")) :=
  .lam rfl (by decide) (.base hc) fun s1 e1 hq hs => .fn hs rfl hd_punctuate_atom (.two (.v hs rfl rfl) (.name hs rfl hd_BANG))
    (ret_punctuate_atom (hc.mono hq.heap) a "!" (noDigit_append hd (by intro c hc W; obtain rfl := Option.some.inj hc; rfl)))

theorem ret_comma (a : String) (hd : ∀ c ∈ a.toList.head?, isDigitW W c = false) : Returns W s k_comma [.atom a] (.atom (a ++ ",")) :=
  .lam rfl (by decide) (.base hc) fun s1 e1 hq hs => .fn hs rfl hd_punctuate_atom (.two (.v hs rfl rfl) (.name hs rfl hd_COMMA))
    (ret_punctuate_atom (hc.mono hq.heap) a "," (noDigit_append hd (by intro c hc W; obtain rfl := Option.some.inj hc; rfl)))

theorem ret_period (a : String) (hd : ∀ c ∈ a.toList.head?, isDigitW W c = false) : Returns W s k_period [.atom a] (.atom (a ++ ".")) :=
  .lam rfl (by decide) (.base hc) fun s1 e1 hq hs => .fn hs rfl hd_punctuate_atom (.two (.v hs rfl rfl) (.name hs rfl hd_PERIOD))
    (ret_punctuate_atom (hc.mono hq.heap) a "." (noDigit_append hd (by intro c hc W; obtain rfl := Option.some.inj hc; rfl)))

theorem ret_colon (a : String) (hd : ∀ c ∈ a.toList.head?, isDigitW W c = false) : Returns W s k_colon [.atom a] (.atom (a ++ ":")) :=
  .lam rfl (by decide) (.base hc) fun s1 e1 hq hs => .fn hs rfl hd_punctuate_atom (.two (.v hs rfl rfl) (.name hs rfl hd_COLON))
    (ret_punctuate_atom (hc.mono hq.heap) a ":" (noDigit_append hd (by intro c hc W; obtain rfl := Option.some.inj hc; rfl)))

theorem ret_capitalize (a : String) (c : Char) (cs : List Char) (ha : a.toList = c :: cs) (hd : isDigitW W (upperC W c) = false) :
    Returns W s k_capitalize [.atom a] (.atom (String.ofList (upperC W c :: cs))) := by
  refine .lam rfl (by decide) (.base hc) fun s1 e1 hq hs => ?_
  have hb := hc.mono hq.heap
  refine .let1 hs rfl known_let (.cons (by decide) (.fn (v := vlist (charAtoms a.toList)) hs rfl hd_split (.one (.v hs rfl rfl)) (.bi fun _ _ _ => rfl)) .nil) fun s2 e2 hq2 hs2 => ?_
  have hb2 := hb.mono hq2.heap
  rw [ha] at hs2
  have h1 := ret_take (W := W) hb2 1 (charAtoms (c :: cs))
  have h2 := ret_drop (W := W) hb2 1 (charAtoms (c :: cs))
  have h3 := ret_map (W := W) hb2 (f := .bi .upcase) (g := fun _ => .atom (String.ofList [upperC W c])) rfl [.atom (String.ofList [c])] (by
    intro x hx
    obtain rfl := List.mem_singleton.1 hx
    refine .bi fun _ _ s' => ?_
    simp [biFn])
  have h4 := ret_concat_lists (W := W) hb2 [charAtoms [upperC W c], charAtoms cs]
  rw [show [charAtoms [upperC W c], charAtoms cs].flatten = charAtoms (upperC W c :: cs) by simp [charAtoms]] at h4
  refine .fn hs2 rfl hd_fuse (.one (.fn hs2 rfl hd_concat (.two (.fn hs2 rfl hd_map (.two (.name hs2 rfl hd_upcase)
    (.fn hs2 rfl hd_take (.two (.num _ _ _) (.v hs2 rfl rfl)) h1)) h3) (.fn hs2 rfl hd_drop (.two (.num _ _ _) (.v hs2 rfl rfl)) h2)) h4)) (.bi fun _ _ s' => ?_)
  have hf : fuseLoop (vlist (charAtoms (upperC W c :: cs))) = some (upperC W c :: cs) := by
    have := fuseLoop_append (upperC W c :: cs) .nil
    rw [show (Val.nil) = vlist [] from rfl, mkList_vlist] at this
    rw [List.append_nil] at this
    rw [this]
    simp [vlist, mkList, fuseLoop]
  exact bFuse_atoms (by simp [charAtoms]) hf (by simpa using hd) s'

/-- The empty atom has no first letter: (). -/
theorem ret_capitalize_empty : Returns W s k_capitalize [.atom ""] .nil := by
  refine .lam rfl (by decide) (.base hc) fun s1 e1 hq hs => ?_
  have hb := hc.mono hq.heap
  refine .let1 hs rfl known_let (.cons (by decide) (.fn (v := vlist []) hs rfl hd_split (.one (.v hs rfl rfl)) (.bi fun _ _ _ => rfl)) .nil) fun s2 e2 hq2 hs2 => ?_
  have hb2 := hb.mono hq2.heap
  have h1 := ret_take (W := W) hb2 1 []
  have h2 := ret_drop (W := W) hb2 1 []
  have h3 := ret_map (W := W) hb2 (f := .bi .upcase) (g := id) rfl [] (by simp)
  have h4 := ret_concat_lists (W := W) hb2 [[], []]
  exact .fn hs2 rfl hd_fuse (.one (.fn hs2 rfl hd_concat (.two (.fn hs2 rfl hd_map (.two (.name hs2 rfl hd_upcase)
    (.fn hs2 rfl hd_take (.two (.num _ _ _) (.v hs2 rfl rfl)) h1)) h3) (.fn hs2 rfl hd_drop (.two (.num _ _ _) (.v hs2 rfl rfl)) h2)) h4)) (.bi fun _ _ s' => rfl)

theorem ret_punctuate_nil (f : Val) : Returns W s k_punctuate [f, .nil] .nil :=
  .lam rfl (by decide) (.base hc) fun s1 e1 hq hs => .cond hs rfl known_cond (.hit (.not_nil hs rfl (.v hs rfl rfl)) (by decide) (.v hs rfl rfl))

/-- One word: it is marked, and then capitalised. -/
theorem ret_punctuate_one {f x m b : Val} (hm : f.notMacro = true) (hf : Returns W s f [x] m) (hcap : ∀ s1, Quiet s s1 → Returns W s1 k_capitalize [m] b) :
    Returns W s k_punctuate [f, vlist [x]] (vlist [b]) := by
  refine .lam rfl (by decide) (.base hc) fun s1 e1 hq hs => .cond hs rfl known_cond (.skip (.not_cons hs rfl (.v hs rfl rfl) (by simp)) ?_)
  refine .hit (w := .atom "t") (.eq hs rfl (.len (xs := [x]) hs rfl (.v hs rfl rfl)) (.num _ _ _)) (by decide) ?_
  exact .list hs rfl (.one (.fn hs rfl hd_capitalize (.one (.callVar hs rfl hm rfl rfl (by decide) (.one (.car hs rfl (.v (v := vlist [x]) hs rfl rfl))) (hf.mono hq))) (hcap _ hq)))

/-- Several words: the first is capitalised, the last is marked. -/
theorem ret_punctuate_many {f x y m b : Val} {xs : List Val} (hm : f.notMacro = true) (hf : Returns W s f [y] m)
    (hcap : ∀ s1, Quiet s s1 → Returns W s1 k_capitalize [x] b) :
    Returns W s k_punctuate [f, vlist (x :: (xs ++ [y]))] (vlist (b :: (xs ++ [m]))) := by
  refine .lam rfl (by decide) (.base hc) fun s1 e1 hq hs => .cond hs rfl known_cond (.skip (.not_cons hs rfl (.v hs rfl rfl) (by simp)) ?_)
  have hb := hc.mono hq.heap
  have hlen := G.len (W := W) (xs := x :: (xs ++ [y])) hs rfl (.v (a := "x") hs rfl rfl)
  have heq := G.eq (W := W) hs rfl hlen (.num _ _ 1)
  have hne : Val.equal (.num (((x :: (xs ++ [y])).length : Nat) : Int)) (.num 1) = false := by
    simp only [Val.equal, beq_eq_false_iff_ne, List.length_cons, List.length_append, List.length_nil]
    omega
  rw [hne] at heq
  refine .skip heq (.hit (.t _ _) (by decide) ?_)
  have h1 := ret_butlast (W := W) hb (x :: (xs ++ [y]))
  rw [show (x :: (xs ++ [y])).dropLast = x :: xs by rw [← List.cons_append, List.dropLast_concat]] at h1
  have h2 := ret_last (W := W) hb (x :: (xs ++ [y]))
  rw [show (x :: (xs ++ [y])).getLastD .nil = y by rw [← List.cons_append, List.getLastD_eq_getLast?, List.getLast?_concat]; rfl] at h2
  have h3 := ret_concat_lists (W := W) hb [xs, [m]]
  rw [show [xs, [m]].flatten = xs ++ [m] by simp] at h3
  refine .cons hs rfl (.fn hs rfl hd_capitalize (.one (.car hs rfl (.v (v := vlist (x :: (xs ++ [y]))) hs rfl rfl))) (hcap _ hq)) ?_
  exact .fn hs rfl hd_concat (.two (.cdr hs rfl (.fn (v := vlist (x :: xs)) hs rfl hd_butlast (.one (.v hs rfl rfl)) h1))
    (.list hs rfl (.one (.callVar hs rfl hm rfl rfl (by decide) (.one (.fn hs rfl hd_last (.one (.v hs rfl rfl)) h2)) (hf.mono hq))))) h3

theorem ret_tosentence {l v : Val} (h : ∀ s1, Quiet s s1 → Returns W s1 k_punctuate [k_period, l] v) : Returns W s k_tosentence [l] v :=
  .lam rfl (by decide) (.base hc) fun s1 e1 hq hs => .fn hs rfl hd_punctuate (.two (.name hs rfl hd_period) (.v hs rfl rfl)) (h _ hq)

theorem ret_exclaim {l v : Val} (h : ∀ s1, Quiet s s1 → Returns W s1 k_punctuate [k_bang, l] v) : Returns W s k_exclaim [l] v :=
  .lam rfl (by decide) (.base hc) fun s1 e1 hq hs => .fn hs rfl hd_punctuate (.two (.name hs rfl hd_bang) (.v hs rfl rfl)) (h _ hq)

end

end L1
