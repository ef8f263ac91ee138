import Verif.Lemmas.Gen
import Verif.Spec.Eliza
/-
The functions of examples/eliza.l1.
-/
set_option autoImplicit false
namespace L1

variable {W : World}

/-! ### `and` and `list?` -/

/-- The expressions of an `and`. -/
def GAnd (W : World) (s : St) (e : Nat) (xs : List Val) (v : Val) : Prop := ∀ s', Quiet s s' → ∃ s'', evAnd (perform W) e (vlist xs) s' = .ok v s'' ∧ Quiet s' s''

theorem GAnd.nil {s : St} {e : Nat} : GAnd W s e [] (.atom "t") := fun s' _ => ⟨s', rfl, .refl _⟩

theorem GAnd.stop {s : St} {e : Nat} {x : Val} {xs : List Val} (h : G W s e x .nil) : GAnd W s e (x :: xs) .nil := fun s' h' => by
  obtain ⟨s1, e1, q1⟩ := h s' h'
  refine ⟨s1, ?_, q1⟩
  simp only [vlist_cons, evAnd]
  rw [M.bind_ok (extend_ok (show perform W (.eval x e) s' = .ok .nil s1 from e1)), M.ite_pos rfl]
  rfl

theorem GAnd.cons {s : St} {e : Nat} {x w v : Val} {xs : List Val} (h : G W s e x w) (hw : w ≠ .nil) (hx : GAnd W s e xs v) : GAnd W s e (x :: xs) v := fun s' h' => by
  obtain ⟨s1, e1, q1⟩ := h s' h'
  obtain ⟨s2, e2, q2⟩ := hx s1 (h'.trans q1)
  refine ⟨s2, ?_, q1.trans q2⟩
  simp only [vlist_cons, evAnd]
  rw [M.bind_ok (extend_ok (show perform W (.eval x e) s' = .ok w s1 from e1))]
  refine (M.ite_neg hw).trans e2

theorem G.and_ {s : St} {e : Nat} {L : List (String × Val)} (hs : Sc s.heap e L) (hx : alGet "and" L = none) {xs : List Val} {v : Val} (h : GAnd W s e xs v) :
    G W s e (.cons (.atom "and") (vlist xs)) v := fun s' h' => by
  obtain ⟨s'', h1, h2⟩ := h s' h'
  exact ⟨s'', (eval_sform W .and xs e s' ((hs.mono h'.heap).notMacro_sf hx known_and)).trans h1, h2⟩

theorem G.listP {s : St} {e : Nat} {L : List (String × Val)} {x v : Val} (hs : Sc s.heap e L) (hx : alGet "list?" L = none) (h : G W s e x v) :
    G W s e (vlist [.atom "list?", x]) (vBool v.isList) :=
  .fn hs hx hd_listP (.one h) (.bi fun _ _ _ => by cases v <;> rfl)

theorem G.listP_no {s : St} {e : Nat} {L : List (String × Val)} {x v : Val} (hs : Sc s.heap e L) (hx : alGet "list?" L = none) (h : G W s e x v) (hv : v.isList = false) :
    G W s e (vlist [.atom "list?", x]) .nil := by
  have := G.listP hs hx h
  rwa [hv] at this

theorem G.car' {s : St} {e : Nat} {L : List (String × Val)} {x : Val} {xs : List Val} (hs : Sc s.heap e L) (hx : alGet "car" L = none) (h : G W s e x (vlist xs)) :
    G W s e (vlist [.atom "car", x]) (xs.headD .nil) := by
  cases xs with
  | nil => exact .car_nil hs hx h
  | cons => exact .car hs hx h

theorem G.cdr' {s : St} {e : Nat} {L : List (String × Val)} {x : Val} {xs : List Val} (hs : Sc s.heap e L) (hx : alGet "cdr" L = none) (h : G W s e x (vlist xs)) :
    G W s e (vlist [.atom "cdr", x]) (vlist xs.tail) := by
  cases xs with
  | nil => exact .cdr_nil hs hx h
  | cons => exact .cdr hs hx h

/-! ### Definitions -/

/-- The rules as a value. -/
def elizaRulesVal : Val := defQuoted (elizaForms.getD 23 .nil)

/-- What eliza.l1 defines, and the name `SPACE`. -/
def elizaDefs : List (String × Val) := [("eliza", z_eliza), ("use-eliza-rules", z_use_eliza_rules), ("apply-rule", z_apply_rule), ("switch-viewpoint", z_switch_viewpoint),
  ("*eliza-rules*", elizaRulesVal), ("rule-responses", z_rule_responses), ("rule-pattern", z_rule_pattern), ("subseq", z_subseq), ("position", z_position), ("niladd", z_niladd),
  ("pat-match", z_pat_match), ("segment-match", z_segment_match), ("segment-pattern?", z_segment_patternP), ("match-variable", z_match_variable), ("extend-bindings", z_extend_bindings),
  ("lookup", z_lookup), ("binding-val", z_binding_val), ("get-binding", z_get_binding), ("no-bindings", Named.val []), ("fail", .nil), ("sublis", z_sublis), ("tree-sub", z_tree_sub),
  ("assoc-sub", z_assoc_sub), ("cadr", z_cadr), ("variable?", z_variableP), ("mklist", z_mklist), ("assoc", z_assoc), ("SPACE", .atom " ")]

/-- The definitions of eliza.l1 are in place, and `caar` is not redefined. -/
structure ElAt (h : Heap) : Prop where
  prog : Prog h elizaDefs
  caar : lookup h 0 "caar" = none

theorem ElAt.mono {h h' : Heap} (hp : ElAt h) (hh : h <+: h') : ElAt h' :=
  ⟨hp.prog.mono hh, (hp.prog.core.nested.lookup_prefix hh _).trans hp.caar⟩

theorem z_assoc_eq : z_assoc = s_assoc := rfl

theorem el_assoc {s : St} (hp : ElAt s.heap) (x : Val) (ps : List (Val × Val)) : Returns W s z_assoc [x, pairList ps] (firstPair x ps) := by
  rw [z_assoc_eq]
  exact ret_assoc rfl (by decide) x ps hp.prog hp.caar

/-! ### Substitution -/

/-- The value with the key `x`, or `x`. -/
def substIn (ps : List (Val × Val)) (x : Val) : Val :=
  match ps with
  | [] => x
  | p :: ps => if x.equal p.1 = true then p.2 else substIn ps x

theorem firstPair_subst (ps : List (Val × Val)) (x : Val) : (firstPair x ps = .nil ∧ substIn ps x = x) ∨ ∃ a d, firstPair x ps = .cons a d ∧ substIn ps x = d := by
  induction ps with
  | nil => exact .inl ⟨rfl, rfl⟩
  | cons p ps ih =>
    simp only [firstPair, substIn]
    split
    · exact .inr ⟨_, _, rfl, rfl⟩
    · exact ih

theorem el_assoc_sub {s : St} (hp : ElAt s.heap) (ps : List (Val × Val)) (x : Val) : Returns W s z_assoc_sub [pairList ps, x] (substIn ps x) := by
  refine .lam rfl (by decide) hp.prog.sc fun s1 e1 hq hs => ?_
  have hp1 := hp.mono hq.heap
  refine .let1 hs rfl known_let (.cons (by decide) (.user (xs := [_, _]) hs rfl rfl (.two (.v hs rfl rfl) (.v hs rfl rfl)) (el_assoc hp1 x ps)) .nil) fun s2 e2 hq2 hs2 => ?_
  rcases firstPair_subst ps x with ⟨h1, h2⟩ | ⟨a, d, h1, h2⟩
  · rw [h1] at hs2; rw [h2]
    exact .ifF hs2 (plain_of rfl) (.v hs2 rfl rfl) (.v hs2 rfl rfl)
  · rw [h1] at hs2; rw [h2]
    exact .ifT hs2 (plain_of rfl) (.v hs2 rfl rfl) (by simp) (.cdr hs2 rfl (.v hs2 rfl rfl))

/-- Replacing the leaves of a tree. -/
def treeSub (g : Val → Val) : Val → Val
  | .nil => .nil
  | .cons a d => .cons (treeSub g a) (treeSub g d)
  | v => g v

theorem el_tree_sub {f : Val} {g : Val → Val} (hm : f.notMacro = true) (v : Val) : ∀ {s : St}, ElAt s.heap → (∀ x, Returns W s f [x] (g x)) → Returns W s z_tree_sub [f, v] (treeSub g v) := by
  induction v with
  | nil =>
    intro s hp _
    exact .lam rfl (by decide) hp.prog.sc fun s1 e1 hq hs => .cond hs rfl known_cond (.hit (.not_nil hs rfl (.v hs rfl rfl)) (by decide) (.nil _ _))
  | cons a d iha ihd =>
    intro s hp hf
    refine .lam rfl (by decide) hp.prog.sc fun s1 e1 hq hs => .cond hs rfl known_cond (.skip (.not_cons hs rfl (.v hs rfl rfl) (by simp)) (.skip (.not_cons hs rfl (.listP hs rfl (.v hs rfl rfl)) (by simp [vBool, vTrue, Val.isList]))
      (.hit (.t _ _) (by decide) ?_)))
    have hf1 : ∀ x, Returns W s1 f [x] (g x) := fun x => (hf x).mono hq
    exact .cons hs rfl (.user (xs := [_, _]) hs rfl rfl (.two (.v hs rfl rfl) (.car hs rfl (.v hs rfl rfl))) (iha (hp.mono hq.heap) hf1))
      (.user (xs := [_, _]) hs rfl rfl (.two (.v hs rfl rfl) (.cdr hs rfl (.v hs rfl rfl))) (ihd (hp.mono hq.heap) hf1))
  | _ =>
    intro s hp hf
    refine .lam rfl (by decide) hp.prog.sc fun s1 e1 hq hs => .cond hs rfl known_cond (.skip (.not_cons hs rfl (.v hs rfl rfl) (by simp)) (.hit (.not_nil hs rfl (.listP_no hs rfl (.v hs rfl rfl) rfl)) (by decide) ?_))
    exact .callVar (xs := [_]) hs rfl hm rfl rfl (by decide) (.one (.v hs rfl rfl)) ((hf _).mono hq)

theorem el_sublis {s : St} (hp : ElAt s.heap) (ps : List (Val × Val)) (v : Val) : Returns W s z_sublis [pairList ps, v] (treeSub (substIn ps) v) := by
  refine .lam rfl (by decide) hp.prog.sc fun s1 e1 hq hs => ?_
  have hp1 := hp.mono hq.heap
  refine .user (xs := [_, _]) hs rfl rfl (.two (.lambda (a := vlist [.atom "x"]) (body := [_]) hs rfl known_lambda fun _ => rfl) (.v hs rfl rfl)) (el_tree_sub rfl v hp1 fun x => ?_)
  exact .lam rfl (by decide) hs fun s2 e2 hq2 hs2 => .user (xs := [_, _]) hs2 rfl rfl (.two (.v hs2 rfl rfl) (.v hs2 rfl rfl)) (el_assoc_sub (hp1.mono hq2.heap) ps x)

/-! ### Bindings -/

/-- The pairs of a list of names. -/
def Named.pairs : Named → List (Val × Val)
  | [] => [(.atom "t", .atom "t")]
  | b => b.map fun p => (.atom p.1, vlist p.2)

theorem Named.val_pairs (b : Named) : b.val = pairList b.pairs := by
  cases b with
  | nil => rfl
  | cons p b => simp [Named.val, Named.pairs, pairList, Function.comp_def]

theorem Named.val_ne (b : Named) : b.val ≠ .nil := by cases b <;> simp [Named.val]

theorem firstPair_named (b : Named) {v : String} (hv : v ≠ "t") :
    firstPair (.atom v) b.pairs = match b.lookup v with | none => .nil | some xs => .cons (.atom v) (vlist xs) := by
  have key : ∀ b : Named, firstPair (.atom v) (b.map fun p => (.atom p.1, vlist p.2)) = match b.lookup v with | none => .nil | some xs => .cons (.atom v) (vlist xs) := by
    intro b
    induction b with
    | nil => rfl
    | cons p b ih =>
      obtain ⟨w, xs⟩ := p
      by_cases h : v = w
      · subst h; simp [firstPair, Val.equal, List.lookup]
      · simp only [List.map_cons, firstPair, List.lookup]
        rw [if_neg (by simp [Val.equal, h]), ih, show (v == w) = false by simpa using h]
  cases b with
  | nil => simp [Named.pairs, firstPair, Val.equal, hv, List.lookup]
  | cons p b => exact key (p :: b)

theorem el_get_binding {s : St} (hp : ElAt s.heap) (x : Val) (ps : List (Val × Val)) : Returns W s z_get_binding [x, pairList ps] (firstPair x ps) :=
  .lam rfl (by decide) hp.prog.sc fun s1 e1 hq hs => .user (xs := [_, _]) hs rfl rfl (.two (.v hs rfl rfl) (.v hs rfl rfl)) (el_assoc (hp.mono hq.heap) x ps)

theorem el_binding_val {s : St} (hp : ElAt s.heap) (a d : Val) : Returns W s z_binding_val [.cons a d] d :=
  .lam rfl (by decide) hp.prog.sc fun s1 e1 hq hs => .cdr hs rfl (.v hs rfl rfl)

theorem named_none (b : Named) : b.val.equal (Named.val []) = decide (b = []) := by
  cases b with
  | nil => rfl
  | cons p b =>
    obtain ⟨v, xs⟩ := p
    cases xs <;> simp [Named.val, Val.equal]

theorem el_extend_bindings {s : St} (hp : ElAt s.heap) (v : String) (xs : List Val) (b : Named) :
    Returns W s z_extend_bindings [.atom v, vlist xs, b.val] (Named.val ((v, xs) :: b)) := by
  refine .lam rfl (by decide) hp.prog.sc fun s1 e1 hq hs => ?_
  have he := G.eq (W := W) (x := .atom "bindings") (y := .atom "no-bindings") hs rfl (.v hs rfl rfl) (.v hs rfl rfl)
  rw [named_none] at he
  cases b with
  | nil => exact .cons hs rfl (.cons hs rfl (.v hs rfl rfl) (.v hs rfl rfl)) (.cond hs rfl known_cond (.hit he (by decide) (.nil _ _)))
  | cons p b =>
    refine .cons hs rfl (.cons hs rfl (.v hs rfl rfl) (.v hs rfl rfl)) (w := Named.val (p :: b)) (.cond hs rfl known_cond (.skip ?_ (.hit (.t _ _) (by decide) (.v hs rfl rfl))))
    simpa [vBool] using he

theorem el_match_variable {s : St} (hp : ElAt s.heap) {v : String} (hv : v ≠ "t") {xs : List Val} (hx : IsData (vlist xs)) (b : Named) :
    Returns W s z_match_variable [.atom v, vlist xs, b.val] (Named.result (b.add v xs)) := by
  refine .lam rfl (by decide) hp.prog.sc fun s1 e1 hq hs => ?_
  have hp1 := hp.mono hq.heap
  have hg := el_get_binding (W := W) hp1 (.atom v) b.pairs
  rw [← Named.val_pairs, firstPair_named b hv] at hg
  refine .let1 hs rfl known_let (.cons (by decide) (.user (xs := [_, _]) hs rfl rfl (.two (.v hs rfl rfl) (.v hs rfl rfl)) hg) .nil) fun s2 e2 hq2 hs2 => .cond_ hs2 rfl ?_
  have hp2 := hp1.mono hq2.heap
  unfold Named.add
  cases hl : b.lookup v with
  | none =>
    rw [hl] at hs2
    exact .hit (.not_nil hs2 rfl (.v hs2 rfl rfl)) (by decide) (.user (xs := [_, _, _]) hs2 rfl rfl (.three (.v hs2 rfl rfl) (.v hs2 rfl rfl) (.v hs2 rfl rfl)) (el_extend_bindings hp2 v xs b))
  | some ys =>
    rw [hl] at hs2
    refine .skip (.not_cons hs2 rfl (.v hs2 rfl rfl) (by simp)) ?_
    have he := G.eq (W := W) (x := .atom "input") hs2 rfl (.v hs2 rfl rfl) (.user (a := "binding-val") (xs := [.atom "binding"]) hs2 rfl rfl (.one (.v hs2 rfl rfl)) (el_binding_val hp2 (.atom v) (vlist ys)))
    by_cases h : xs = ys
    · subst h
      rw [show (vlist xs).equal (vlist xs) = true from (equal_iff _ _).2 ⟨rfl, hx⟩] at he
      simp only [if_true]
      exact .hit he (by decide) (.v hs2 rfl rfl)
    · rw [show (vlist xs).equal (vlist ys) = false by
        rw [Bool.eq_false_iff, Ne, equal_iff]; exact fun h' => h (vlist_inj h'.1)] at he
      simp only [if_neg h]
      exact .skip he (.hit (.t _ _) (by decide) (.v hs2 rfl rfl))

/-! ### Places -/

/-- A number or, if there is none, `()`. -/
def optNum : Option Nat → Val
  | none => .nil
  | some n => .num n

theorem el_niladd {s : St} (hp : ElAt s.heap) (m : Nat) (n : Option Nat) : Returns W s z_niladd [.num m, optNum n] (optNum (n.map (m + ·))) := by
  refine .lam rfl (by decide) hp.prog.sc fun s1 e1 hq hs => .cond hs rfl known_cond (.skip (.not_cons hs rfl (.v hs rfl rfl) (by simp)) ?_)
  cases n with
  | none => exact .hit (.not_nil hs rfl (.v hs rfl rfl)) (by decide) (.nil _ _)
  | some n =>
    have := G.add (W := W) (x := .atom "a") (y := .atom "b") (m := m) (n := n) hs rfl (.v hs rfl rfl) (.v hs rfl rfl)
    exact .skip (.not_cons hs rfl (.v hs rfl rfl) (by simp [optNum])) (.hit (.t _ _) (by decide) (by simpa [optNum] using this))

/-- The place of the first occurrence of a word. -/
def place (a : String) : List Val → Option Nat
  | [] => none
  | x :: xs => if x = .atom a then some 0 else (place a xs).map (1 + ·)

theorem equal_atom (a : String) (x : Val) : (Val.atom a).equal x = decide (x = .atom a) := by
  rw [Bool.eq_iff_iff, equal_iff, decide_eq_true_eq]
  exact ⟨fun h => h.1.symm, fun h => ⟨h.symm, .atom a⟩⟩

theorem el_position0 (a : String) (xs : List Val) : ∀ {s : St}, ElAt s.heap → Returns W s z_position [.atom a, vlist xs, .num 0] (optNum (place a xs)) := by
  induction xs with
  | nil =>
    intro s hp
    exact .lam rfl (by decide) hp.prog.sc fun s1 e1 hq hs => .cond hs rfl known_cond (.hit (.not_nil hs rfl (.v hs rfl rfl)) (by decide) (.nil _ _))
  | cons x xs ih =>
    intro s hp
    refine .lam rfl (by decide) hp.prog.sc fun s1 e1 hq hs => .cond hs rfl known_cond (.skip (.not_cons hs rfl (.v hs rfl rfl) (by simp)) (.skip (.lt (m := 0) (n := 0) hs rfl (.num _ _ _) (.v hs rfl rfl)) ?_))
    have hp1 := hp.mono hq.heap
    have he := G.eq (W := W) (x := .atom "a") hs rfl (.v hs rfl rfl) (.car hs rfl (.v (a := "input") hs rfl rfl))
    rw [equal_atom] at he
    by_cases h : x = .atom a
    · subst h
      rw [show place a (.atom a :: xs) = some 0 by simp [place]]
      exact .hit he (by simp [vBool, vTrue]) (.num _ _ _)
    · rw [show place a (x :: xs) = (place a xs).map (1 + ·) by simp [place, h]]
      refine .skip (by simpa [h, vBool] using he) (.hit (.t _ _) (by decide) ?_)
      exact .user (xs := [_, _]) hs rfl rfl (.two (.num _ _ 1) (.user (xs := [_, _, _]) hs rfl rfl (.three (.v hs rfl rfl) (.cdr hs rfl (.v hs rfl rfl)) (.num _ _ _)) (ih hp1))) (el_niladd hp1 1 _)

theorem el_position {s : St} (hp : ElAt s.heap) (a : String) (xs : List Val) (n : Nat) : Returns W s z_position [.atom a, vlist xs, .num n] (optNum ((place a (xs.drop n)).map (n + ·))) := by
  cases n with
  | zero => simpa using el_position0 (W := W) a xs hp
  | succ n =>
    cases xs with
    | nil => exact .lam rfl (by decide) hp.prog.sc fun s1 e1 hq hs => .cond hs rfl known_cond (.hit (.not_nil hs rfl (.v hs rfl rfl)) (by decide) (.nil _ _))
    | cons x xs =>
      refine .lam rfl (by decide) hp.prog.sc fun s1 e1 hq hs => .cond hs rfl known_cond (.skip (.not_cons hs rfl (.v hs rfl rfl) (by simp)) ?_)
      have hp1 := hp.mono hq.heap
      have hl := G.lt (W := W) (x := .num 0) (y := .atom "start") (m := 0) (n := ((n + 1 : Nat) : Int)) hs rfl (.num _ _ _) (.v hs rfl rfl)
      refine .hit hl (by rw [vBool_ne]; simp) ?_
      exact .user (xs := [_, _]) hs rfl rfl (.two (.v hs rfl rfl) (.user (xs := [_, _, _]) hs rfl rfl (.three (.v hs rfl rfl)
        (.fn (xs := [_, _]) hs rfl hd_drop (.two (.v hs rfl rfl) (.v hs rfl rfl)) (ret_drop hp1.prog.core.base (n + 1) (x :: xs))) (.num _ _ 0)) (el_position0 a _ hp1))) (el_niladd hp1 (n + 1) _)

theorem el_subseq_from {s : St} (hp : ElAt s.heap) (xs : List Val) (n : Nat) : Returns W s z_subseq [vlist xs, .num n, .nil] (vlist (xs.drop n)) :=
  .lam rfl (by decide) hp.prog.sc fun s1 e1 hq hs => .ifT hs (plain_of rfl) (.not_nil hs rfl (.v hs rfl rfl)) (by decide)
    (.fn (xs := [_, _]) hs rfl hd_drop (.two (.v hs rfl rfl) (.v hs rfl rfl)) (ret_drop (hp.mono hq.heap).prog.core.base n xs))

theorem el_subseq_to {s : St} (hp : ElAt s.heap) (xs : List Val) (n : Nat) : Returns W s z_subseq [vlist xs, .num 0, .num n] (vlist (xs.take n)) := by
  refine .lam rfl (by decide) hp.prog.sc fun s1 e1 hq hs => .ifF hs (plain_of rfl) (.not_cons hs rfl (.v hs rfl rfl) (by simp)) ?_
  have hp1 := hp.mono hq.heap
  have hd := G.sub (W := W) (x := .atom "end") (y := .atom "start") (m := n) (n := 0) hs rfl (.v hs rfl rfl) (.v hs rfl rfl)
  rw [show (n : Int) - 0 = n by omega] at hd
  exact .fn (xs := [_, _]) hs rfl hd_take (.two hd (.user (xs := [_, _, _]) hs rfl rfl (.three (.v hs rfl rfl) (.v hs rfl rfl) (.nil _ _)) (el_subseq_from hp1 xs 0))) (ret_take hp1.prog.core.base n xs)

end L1
