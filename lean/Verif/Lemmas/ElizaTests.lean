import Verif.Lemmas.ElizaScript
import Verif.Props.Forms
/-
The tests in examples/eliza.l1.
-/
set_option autoImplicit false
namespace L1

variable {W : World}

theorem ElAt.same0 {h h' : Heap} (hp : ElAt h) (hh : h'[0]? = h[0]?) : ElAt h' := by
  refine ⟨hp.prog.same0 hh, ?_⟩
  obtain ⟨f, h1, h2⟩ := hp.prog.top
  have := hp.caar
  unfold lookup at this ⊢
  simp only [lookupAux, hh] at this ⊢
  exact this

/-- An expression that is fine in the program and takes `n` random numbers. -/
def ElStep (W : World) (n : Nat) (x : Val) : Prop :=
  ∀ s : St, ElAt s.heap → ∃ v s1, eval W x 0 s = .ok v s1 ∧ ElAt s1.heap ∧ s1.out = s.out ∧ s1.inp = s.inp ∧ s1.tick = s.tick + n ∧ s1.screen = s.screen

theorem el_is_eq {n : Nat} {a b v w : Val} (ha : ∀ s, ElAt s.heap → G W s 0 a v) (hb : ∀ s, ElAt s.heap → ∃ s', eval W b 0 s = .ok w s' ∧ Draws n s s')
    (hvw : v.equal w = true) : ElStep W n (vlist [.atom "is", vlist [.atom "=", a, b]]) := by
  intro s hp
  have hlt : 0 < s.heap.length := hp.prog.core.lt
  obtain ⟨s1, q1, _, h2⟩ := isEq_run (W := W) (e := 0) ⟨hp.prog.core, hp.prog.core⟩ a b
  obtain ⟨s2, e2, q2⟩ := ha s1 (hp.mono q1.heap) s1 (.refl _)
  obtain ⟨s3, st, _, h3⟩ := h2 v s2 e2 fun j hj => by obtain ⟨t, ht⟩ := q2.heap; rw [← ht, List.getElem?_append_left hj.2]
  have hp2 : ElAt s2.heap := (hp.mono q1.heap).mono q2.heap
  have hp3 : ElAt s3.heap := hp2.same0 (st.heap 0 hp2.prog.core.lt fun h => absurd h.1 (by omega))
  obtain ⟨s4, e4, q4⟩ := hb s3 hp3
  have hp4 := hp3.mono q4.heap
  have hl3 : s1.heap.length ≤ s3.heap.length := Nat.le_trans q2.heap.length_le st.len
  obtain ⟨s5, st5, e5⟩ := (h3 w s4 e4 ⟨hp4.prog.core, hp4.prog.core⟩ fun j hj => by
    obtain ⟨t, ht⟩ := q4.heap; rw [← ht, List.getElem?_append_left (Nat.lt_of_lt_of_le hj.2 hl3)]).1 hvw
  refine ⟨.nil, s5, e5, hp4.same0 (st5.heap 0 hp4.prog.core.lt fun h => absurd h.1 (by omega)), ?_, ?_, ?_, ?_⟩
  · rw [st5.out, q4.out, st.out, q2.out, q1.out]
  · rw [st5.inp, q4.inp, st.inp, q2.inp, q1.inp]
  · rw [st5.tick, q4.tick, st.tick, q2.tick, q1.tick]
  · rw [st5.screen, q4.screen, st.screen, q2.screen, q1.screen]

theorem el_is_eq0 {a b v w : Val} (ha : ∀ s, ElAt s.heap → G W s 0 a v) (hb : ∀ s, ElAt s.heap → G W s 0 b w)
    (hvw : v.equal w = true) : ElStep W 0 (vlist [.atom "is", vlist [.atom "=", a, b]]) :=
  el_is_eq ha (fun s hp => by obtain ⟨s', e, q⟩ := hb s hp s (.refl _); exact ⟨s', e, q.draws⟩) hvw

theorem el_is {c v : Val} (hc : ∀ s, ElAt s.heap → G W s 0 c v) (hv : v ≠ .nil) (hn : NotEquation c) : ElStep W 0 (vlist [.atom "is", c]) := by
  intro s hp
  have hlt : 0 < s.heap.length := hp.prog.core.lt
  obtain ⟨s1, q1, _, h2⟩ := is_run (W := W) (e := 0) ⟨hp.prog.core, hp.prog.core⟩ c hn
  obtain ⟨s2, e2, q2⟩ := hc s1 (hp.mono q1.heap) s1 (.refl _)
  have hp2 : ElAt s2.heap := (hp.mono q1.heap).mono q2.heap
  obtain ⟨s3, st, e3⟩ := (h2 v s2 e2 ⟨hp2.prog.core, hp2.prog.core⟩ fun j hj => by obtain ⟨t, ht⟩ := q2.heap; rw [← ht, List.getElem?_append_left hj.2]).1 hv
  refine ⟨.nil, s3, e3, hp2.same0 (st.heap 0 hp2.prog.core.lt fun h => absurd h.1 (by omega)), ?_, ?_, ?_, ?_⟩
  · rw [st.out, q2.out, q1.out]
  · rw [st.inp, q2.inp, q1.inp]
  · rw [st.tick, q2.tick, q1.tick]; rfl
  · rw [st.screen, q2.screen, q1.screen]

/-- Some of them. -/
inductive ElSteps (W : World) : Nat → List Val → Prop
  | nil : ElSteps W 0 []
  | cons {m n : Nat} {x : Val} {xs : List Val} : ElStep W m x → ElSteps W n xs → ElSteps W (m + n) (x :: xs)

theorem ElSteps.dotted {n : Nat} {xs : List Val} (h : ElSteps W n xs) : ∀ s : St, ElAt s.heap →
    ∃ s1, Dotted W 0 xs s s1 ∧ ElAt s1.heap ∧ s1.out = s.out ++ List.replicate xs.length '.' ∧ s1.inp = s.inp ∧ s1.tick = s.tick + n ∧ s1.screen = s.screen := by
  induction h with
  | nil => exact fun s hp => ⟨s, .nil, hp, by simp, rfl, rfl, rfl⟩
  | cons h1 _ ih =>
    intro s hp
    obtain ⟨v, s1, e1, p1, o1, i1, t1, n1⟩ := h1 s hp
    obtain ⟨s2, e2, p2, o2, i2, t2, n2⟩ := ih (printed s1 ['.']) p1
    refine ⟨s2, .cons e1 e2, p2, ?_, i2.trans i1, ?_, n2.trans n1⟩
    · rw [o2]; show s1.out ++ ['.'] ++ _ = _; rw [o1]; simp [List.replicate_succ]
    · rw [t2]; show s1.tick + _ = _; rw [t1]; omega

/-- What a test writes. -/
def testLine (d : Val) (n : Nat) : List Char := "TEST ".toList ++ d.str ++ [' '] ++ List.replicate n '.' ++ "✓\n".toList

/-- A test of the program. -/
def ElTest (W : World) (n : Nat) (t : List Char) (x : Val) : Prop :=
  ∀ s : St, ElAt s.heap → ∃ v s1, eval W x 0 s = .ok v s1 ∧ ElAt s1.heap ∧ s1.out = s.out ++ t ∧ s1.inp = s.inp ∧ s1.tick = s.tick + n ∧ s1.screen = s.screen

theorem el_test {n : Nat} {d : Val} {xs : List Val} (h : ElSteps W n xs) : ElTest W n (testLine d xs.length) (vlist (.atom "test" :: vlist [.atom "quote", d] :: xs)) := by
  intro s hp
  obtain ⟨s1, e1, q1⟩ := G.quote (W := W) (v := d) hp.prog.sc rfl known_quote s (.refl _)
  have hp1 := hp.mono q1.heap
  obtain ⟨s2, e2, p2, o2, i2, t2, n2⟩ := h.dotted (printed s1 ("TEST ".toList ++ d.str ++ [' '])) hp1
  have e3 := C55_pass W 0 _ d xs s s1 s2 (hp.prog.core.base.notMacro_sf known_test) e1 e2
  unfold testLine
  generalize "✓\n".toList = c at e3 ⊢
  generalize "TEST ".toList = b at o2 i2 t2 n2 ⊢
  refine ⟨.nil, printed s2 c, e3, p2, ?_, ?_, ?_, ?_⟩
  · show s2.out ++ _ = _
    rw [o2]
    show s1.out ++ _ ++ _ ++ _ = _
    rw [q1.out]
    simp only [List.append_assoc]
  · show s2.inp = _; rw [i2]; exact q1.inp
  · show s2.tick = _; rw [t2]; show s1.tick + n = _; rw [q1.tick]
  · show s2.screen = _; rw [n2]; exact q1.screen

inductive ElTests (W : World) : Nat → List Char → List Val → Prop
  | nil : ElTests W 0 [] []
  | cons {m n : Nat} {t u : List Char} {x : Val} {xs : List Val} : ElTest W m t x → ElTests W n u xs → ElTests W (m + n) (t ++ u) (x :: xs)

theorem ElTests.evals {n : Nat} {t : List Char} {xs : List Val} (h : ElTests W n t xs) : ∀ s : St, ElAt s.heap →
    ∃ vs s1, EvalsTo W 0 xs s vs s1 ∧ ElAt s1.heap ∧ s1.out = s.out ++ t ∧ s1.inp = s.inp ∧ s1.tick = s.tick + n ∧ s1.screen = s.screen := by
  induction h with
  | nil => exact fun s hp => ⟨[], s, .nil, hp, by simp, rfl, rfl, rfl⟩
  | cons h1 _ ih =>
    intro s hp
    obtain ⟨v, s1, e1, p1, o1, i1, t1, n1⟩ := h1 s hp
    obtain ⟨vs, s2, e2, p2, o2, i2, t2, n2⟩ := ih s1 p1
    exact ⟨v :: vs, s2, .cons e1 e2, p2, by rw [o2, o1, List.append_assoc], i2.trans i1, by rw [t2, t1]; omega, n2.trans n1⟩

/-! ### What is tested -/

theorem el_quote {s : St} (hp : ElAt s.heap) (v : Val) : G W s 0 (vlist [.atom "quote", v]) v := .quote hp.prog.sc rfl known_quote

theorem el_user {s : St} (hp : ElAt s.heap) {a : String} {f v : Val} {xs vs : List Val} (hx : alGet a elizaDefs = some f)
    (hm : (f.notMacro && (specialOf a).isNone && !isCxr a && a != "t") = true) (ha : GA W s 0 xs vs) (hr : Returns W s f vs v) : G W s 0 (.cons (.atom a) (vlist xs)) v := .user hp.prog.sc hx hm ha hr

theorem el_variableP {s : St} (hp : ElAt s.heap) (a : String) : Returns W s z_variableP [.atom a] (vBool (((charAtoms a.toList).headD .nil).equal (.atom "?"))) := by
  refine .lam rfl (by decide) hp.prog.sc fun s1 e1 hq hs => .and_ (xs := [_, _]) hs rfl (.cons (w := .atom "t") (.fn (xs := [_]) hs rfl hd_atomP (.one (.v hs rfl rfl)) (.bi fun _ _ _ => rfl)) (by simp) ?_)
  have he := G.eq (W := W) (x := vlist [.atom "car", vlist [.atom "split", .atom "a"]]) hs rfl
    (.car' (xs := charAtoms a.toList) hs rfl (.fn (xs := [_]) hs rfl hd_split (.one (.v hs rfl rfl)) (.bi fun _ _ _ => rfl))) (.quote (v := .atom "?") hs rfl known_quote)
  cases h : ((charAtoms a.toList).headD .nil).equal (.atom "?") with
  | false => rw [h] at he; exact .stop he
  | true => rw [h] at he; exact .cons he (by simp [vBool, vTrue]) .nil

theorem el_segmentP {s : St} (hp : ElAt s.heap) (a b c : Val) : Returns W s z_segment_patternP [.cons (.cons a b) c] (vBool (a.equal (.atom "?*"))) := by
  refine .lam rfl (by decide) hp.prog.sc fun s1 e1 hq hs => .and_ (xs := [_, _, _]) hs rfl (.cons (w := .atom "t") (.listP_yes hs rfl (.v hs rfl rfl) rfl) (by simp) (.cons (w := .atom "t") (.listP_yes hs rfl (.car hs rfl (.v hs rfl rfl)) rfl) (by simp) ?_))
  have he := G.eq (W := W) (x := vlist [.atom "car", vlist [.atom "car", .atom "pattern"]]) hs rfl (.car hs rfl (.car hs rfl (.v hs rfl rfl))) (.quote (v := .atom "?*") hs rfl known_quote)
  cases h : a.equal (.atom "?*") with
  | false => rw [h] at he; exact .stop he
  | true => rw [h] at he; exact .cons he (by simp [vBool, vTrue]) .nil

theorem el_segmentP_atom {s : St} (hp : ElAt s.heap) (a : String) : Returns W s z_segment_patternP [.atom a] .nil :=
  .lam rfl (by decide) hp.prog.sc fun s1 e1 hq hs => .and_ (xs := [_, _, _]) hs rfl (.stop (.listP_no hs rfl (.v hs rfl rfl) rfl))

/-- The place of the first element that is equal to `v`. -/
def placeV (v : Val) : List Val → Option Nat
  | [] => none
  | x :: xs => if v.equal x = true then some 0 else (placeV v xs).map (1 + ·)

theorem el_positionV (v : Val) (xs : List Val) : ∀ {s : St}, ElAt s.heap → Returns W s z_position [v, vlist xs, .num 0] (optNum (placeV v xs)) := by
  induction xs with
  | nil =>
    intro s hp
    exact .lam rfl (by decide) hp.prog.sc fun s1 e1 hq hs => .cond hs rfl known_cond (.hit (.not_nil hs rfl (.v hs rfl rfl)) (by decide) (.nil _ _))
  | cons x xs ih =>
    intro s hp
    refine .lam rfl (by decide) hp.prog.sc fun s1 e1 hq hs => .cond hs rfl known_cond (.skip (.not_cons hs rfl (.v hs rfl rfl) (by simp)) (.skip (.lt (m := 0) (n := 0) hs rfl (.num _ _ _) (.v hs rfl rfl)) ?_))
    have hp1 := hp.mono hq.heap
    have he := G.eq (W := W) (x := .atom "a") hs rfl (.v hs rfl rfl) (.car hs rfl (.v (a := "input") hs rfl rfl))
    by_cases h : v.equal x = true
    · rw [show placeV v (x :: xs) = some 0 by simp [placeV, h]]
      exact .hit he (by simp [vBool, vTrue, h]) (.num _ _ _)
    · rw [show placeV v (x :: xs) = (placeV v xs).map (1 + ·) by simp [placeV, h]]
      refine .skip (by simpa [h, vBool] using he) (.hit (.t _ _) (by decide) ?_)
      exact .user (xs := [_, _]) hs rfl rfl (.two (.num _ _ 1) (.user (xs := [_, _, _]) hs rfl rfl (.three (.v hs rfl rfl) (.cdr hs rfl (.v hs rfl rfl)) (.num _ _ _)) (ih hp1))) (el_niladd hp1 1 _)

theorem el_positionV_from {s : St} (hp : ElAt s.heap) (v : Val) (xs : List Val) (n : Nat) : Returns W s z_position [v, vlist xs, .num n] (optNum ((placeV v (xs.drop n)).map (n + ·))) := by
  cases n with
  | zero => simpa using el_positionV (W := W) v xs hp
  | succ n =>
    cases xs with
    | nil => exact .lam rfl (by decide) hp.prog.sc fun s1 e1 hq hs => .cond hs rfl known_cond (.hit (.not_nil hs rfl (.v hs rfl rfl)) (by decide) (.nil _ _))
    | cons x xs =>
      refine .lam rfl (by decide) hp.prog.sc fun s1 e1 hq hs => .cond hs rfl known_cond (.skip (.not_cons hs rfl (.v hs rfl rfl) (by simp)) ?_)
      have hp1 := hp.mono hq.heap
      have hl := G.lt (W := W) (x := .num 0) (y := .atom "start") (m := 0) (n := ((n + 1 : Nat) : Int)) hs rfl (.num _ _ _) (.v hs rfl rfl)
      refine .hit hl (by rw [vBool_ne]; simp) ?_
      exact .user (xs := [_, _]) hs rfl rfl (.two (.v hs rfl rfl) (.user (xs := [_, _, _]) hs rfl rfl (.three (.v hs rfl rfl)
        (.fn (xs := [_, _]) hs rfl hd_drop (.two (.v hs rfl rfl) (.v hs rfl rfl)) (ret_drop hp1.prog.core.base (n + 1) (x :: xs))) (.num _ _ 0)) (el_positionV v _ hp1))) (el_niladd hp1 (n + 1) _)

theorem el_subseq {s : St} (hp : ElAt s.heap) (xs : List Val) (m n : Nat) (h : m ≤ n) : Returns W s z_subseq [vlist xs, .num m, .num n] (vlist ((xs.drop m).take (n - m))) := by
  refine .lam rfl (by decide) hp.prog.sc fun s1 e1 hq hs => .ifF hs (plain_of rfl) (.not_cons hs rfl (.v hs rfl rfl) (by simp)) ?_
  have hp1 := hp.mono hq.heap
  have hd := G.sub (W := W) (x := .atom "end") (y := .atom "start") (m := n) (n := m) hs rfl (.v hs rfl rfl) (.v hs rfl rfl)
  rw [show (n : Int) - m = ((n - m : Nat) : Int) by omega] at hd
  exact .fn (xs := [_, _]) hs rfl hd_take (.two hd (.user (xs := [_, _, _]) hs rfl rfl (.three (.v hs rfl rfl) (.v hs rfl rfl) (.nil _ _)) (el_subseq_from hp1 xs m))) (ret_take hp1.prog.core.base (n - m) (xs.drop m))

theorem el_tree_sub_on {f : Val} {g : Val → Val} (hm : f.notMacro = true) (v : Val) : ∀ {s : St}, ElAt s.heap → (∀ x ∈ leaves v, Returns W s f [x] (g x)) → Returns W s z_tree_sub [f, v] (treeSub g v) := by
  induction v with
  | nil =>
    intro s hp _
    exact .lam rfl (by decide) hp.prog.sc fun s1 e1 hq hs => .cond hs rfl known_cond (.hit (.not_nil hs rfl (.v hs rfl rfl)) (by decide) (.nil _ _))
  | cons a d iha ihd =>
    intro s hp hf
    refine .lam rfl (by decide) hp.prog.sc fun s1 e1 hq hs => .cond hs rfl known_cond (.skip (.not_cons hs rfl (.v hs rfl rfl) (by simp)) (.skip (.not_cons hs rfl (.listP hs rfl (.v hs rfl rfl)) (by simp [vBool, vTrue, Val.isList]))
      (.hit (.t _ _) (by decide) ?_)))
    exact .cons hs rfl (.user (xs := [_, _]) hs rfl rfl (.two (.v hs rfl rfl) (.car hs rfl (.v hs rfl rfl))) (iha (hp.mono hq.heap) fun x hx => (hf x (by simp [leaves, hx])).mono hq))
      (.user (xs := [_, _]) hs rfl rfl (.two (.v hs rfl rfl) (.cdr hs rfl (.v hs rfl rfl))) (ihd (hp.mono hq.heap) fun x hx => (hf x (by simp [leaves, hx])).mono hq))
  | _ =>
    intro s hp hf
    refine .lam rfl (by decide) hp.prog.sc fun s1 e1 hq hs => .cond hs rfl known_cond (.skip (.not_cons hs rfl (.v hs rfl rfl) (by simp)) (.hit (.not_nil hs rfl (.listP_no hs rfl (.v hs rfl rfl) rfl)) (by decide) ?_))
    exact .callVar (xs := [_]) hs rfl hm rfl rfl (by decide) (.one (.v hs rfl rfl)) ((hf _ (by simp [leaves])).mono hq)

/-! ### The tests -/

theorem notEquation_of {a : String} {r : Val} (h : a ≠ "=") : NotEquation (.cons (.atom a) r) := fun d hd => by
  injection hd with h1 h2
  injection h1 with h1
  exact absurd h1 h

theorem test_variable : ElTest W 0 (testLine (vlist [.atom "variable"]) 2) (elizaForms.getD 28 .nil) :=
  el_test (xs := [_, _]) (.cons (m := 0)
    (el_is (v := .atom "t") (fun s hp => el_user (xs := [_]) hp rfl rfl (.one (el_quote hp _)) (el_variableP hp "?x")) (by simp) (notEquation_of (by decide)))
    (.cons (m := 0) (el_is (v := .atom "t") (fun s hp => .not_nil hp.prog.sc rfl (el_user (xs := [_]) hp rfl rfl (.one (el_quote hp _)) (el_variableP hp "foo"))) (by simp) (notEquation_of (by decide))) .nil))

theorem test_assoc : ElTest W 0 (testLine (vlist [.atom "assoc"]) 2) (elizaForms.getD 29 .nil) :=
  el_test (xs := [_, _]) (.cons (m := 0)
    (el_is_eq0 (fun s hp => el_quote hp _) (fun s hp => el_user (xs := [_, _]) hp rfl rfl (.two (el_quote hp _) (el_quote hp _))
      (el_assoc hp (.atom "i") [(.atom "i", .atom "you"), (.atom "you", .atom "i"), (.atom "me", .atom "you"), (.atom "am", .atom "are")])) (by decide +kernel))
    (.cons (m := 0) (el_is_eq0 (fun s hp => el_quote hp _) (fun s hp => el_user (xs := [_, _]) hp rfl rfl (.two (el_quote hp _) (el_quote hp _))
      (el_assoc hp (.atom "am") [(.atom "i", .atom "you"), (.atom "you", .atom "i"), (.atom "me", .atom "you"), (.atom "am", .atom "are")])) (by decide +kernel)) .nil))

/-- Adding 1 to a number. -/
def incV : Val → Val
  | .num n => .num (n + 1)
  | v => v

theorem test_tree_sub : ElTest W 0 (testLine (vlist [.atom "tree-sub", .atom "and", .atom "assoc-sub"]) 2) (elizaForms.getD 30 .nil) :=
  el_test (xs := [_, _]) (.cons (m := 0)
    (el_is_eq0 (fun s hp => el_quote hp _) (fun s hp => el_user (xs := [_, _]) hp rfl rfl (.two (.name hp.prog.sc rfl hd_inc) (el_quote hp _))
      (el_tree_sub_on (g := incV) rfl (vlist [.num 1, .num 2, .num 3, vlist [.num 4, .num 5, vlist [.num 6], vlist [.num 7, .num 8], .num 9, .num 10, .num 11]]) hp fun x hx => by
        have : ∃ n, x = .num n := by
          simp only [vlist_cons, vlist_nil, leaves, List.append_nil, List.cons_append, List.nil_append, List.mem_cons, List.not_mem_nil, or_false] at hx
          rcases hx with h | h | h | h | h | h | h | h | h | h | h <;> exact ⟨_, h⟩
        obtain ⟨n, rfl⟩ := this
        exact ret_inc hp.prog.core.base n)) (by decide +kernel))
    (.cons (m := 0) (el_is_eq0 (fun s hp => el_quote hp _) (fun s hp => el_user (xs := [_, _]) hp rfl rfl (.two (el_quote hp _) (el_quote hp _))
      (el_assoc_sub hp [(.atom "i", .atom "you"), (.atom "you", .atom "i"), (.atom "me", .atom "you"), (.atom "am", .atom "are")] (.atom "am"))) (by decide +kernel)) .nil))

theorem test_sublis : ElTest W 0 (testLine (vlist [.atom "sublis"]) 2) (elizaForms.getD 31 .nil) :=
  el_test (xs := [_, _]) (.cons (m := 0)
    (el_is_eq0 (fun s hp => el_quote hp _) (fun s hp => el_user (xs := [_, _]) hp rfl rfl (.two (.nil _ _) (el_quote hp _)) (el_sublis hp [] _)) (by decide +kernel))
    (.cons (m := 0) (el_is_eq0 (fun s hp => el_quote hp _) (fun s hp => el_user (xs := [_, _]) hp rfl rfl (.two (el_quote hp _) (el_quote hp _))
      (el_sublis hp [(.atom "?X", .atom "tree")] _)) (by decide +kernel)) .nil))

theorem test_segment : ElTest W 0 (testLine (vlist [.atom "segment-pattern?"]) 2) (elizaForms.getD 32 .nil) :=
  el_test (xs := [_, _]) (.cons (m := 0)
    (el_is (v := .atom "t") (fun s hp => el_user (xs := [_]) hp rfl rfl (.one (el_quote hp _)) (el_segmentP hp (.atom "?*") (vlist [.atom "?x"]) (.atom "a"))) (by simp) (notEquation_of (by decide)))
    (.cons (m := 0) (el_is (v := .atom "t") (fun s hp => .not_nil hp.prog.sc rfl (el_user (xs := [_]) hp rfl rfl (.one (el_quote hp _)) (el_segmentP_atom hp "?a"))) (by simp) (notEquation_of (by decide))) .nil))

theorem el_range {s : St} (hp : ElAt s.heap) (n : Int) : G W s 0 (vlist [.atom "range", .num n]) (vlist (upTo n.toNat)) :=
  .fn (xs := [_]) hp.prog.sc rfl hd_range (.one (.num _ _ _)) (ret_range hp.prog.core.base n)

theorem test_position : ElTest W 0 (testLine (vlist [.atom "position"]) 5) (elizaForms.getD 33 .nil) :=
  el_test (xs := [_, _, _, _, _])
    (.cons (m := 0) (el_is_eq0 (fun s hp => .num _ _ _) (fun s hp => el_user (xs := [_, _, _]) hp rfl rfl (.three (.num _ _ _) (el_range hp 5) (.num _ _ _)) (el_positionV_from hp (.num 0) (upTo 5) 0)) (by decide +kernel))
    (.cons (m := 0) (el_is_eq0 (fun s hp => .num _ _ _) (fun s hp => el_user (xs := [_, _, _]) hp rfl rfl (.three (.num _ _ _) (el_range hp 5) (.num _ _ _)) (el_positionV_from hp (.num 1) (upTo 5) 0)) (by decide +kernel))
    (.cons (m := 0) (el_is (v := .atom "t") (fun s hp => .not_nil hp.prog.sc rfl (el_user (xs := [_, _, _]) hp rfl rfl (.three (el_quote hp _) (el_range hp 5) (.num _ _ _)) (el_positionV_from hp (.atom "foo") (upTo 5) 0))) (by simp) (notEquation_of (by decide)))
    (.cons (m := 0) (el_is_eq0 (fun s hp => .num _ _ _) (fun s hp => el_user (xs := [_, _, _]) hp rfl rfl (.three (.num _ _ _) (el_range hp 5) (.num _ _ _)) (el_positionV_from hp (.num 4) (upTo 5) 0)) (by decide +kernel))
    (.cons (m := 0) (el_is_eq0 (fun s hp => .num _ _ _) (fun s hp => el_user (xs := [_, _, _]) hp rfl rfl (.three (.num _ _ _) (el_range hp 5) (.num _ _ _)) (el_positionV_from hp (.num 4) (upTo 5) 4)) (by decide +kernel)) .nil)))))

theorem el_split {s : St} (hp : ElAt s.heap) (a : String) : G W s 0 (vlist [.atom "split", vlist [.atom "quote", .atom a]]) (vlist (charAtoms a.toList)) :=
  .fn (xs := [_]) hp.prog.sc rfl hd_split (.one (el_quote hp _)) (.bi fun _ _ _ => rfl)

theorem test_subseq : ElTest W 0 (testLine (vlist [.atom "subseq"]) 2) (elizaForms.getD 34 .nil) :=
  el_test (xs := [_, _]) (.cons (m := 0)
    (el_is_eq0 (v := .atom "lo_world") (w := .atom "lo_world") (fun s hp => el_quote hp _) (fun s hp => .fn (xs := [_]) hp.prog.sc rfl hd_fuse
      (.one (el_user (xs := [_, _, _]) hp rfl rfl (.three (el_split hp "hello_world") (.num _ _ _) (.nil _ _)) (el_subseq_from hp _ 3))) (.bi fun _ _ _ => rfl)) (by decide +kernel))
    (.cons (m := 0) (el_is_eq0 (v := .atom "lo") (w := .atom "lo") (fun s hp => el_quote hp _) (fun s hp => .fn (xs := [_]) hp.prog.sc rfl hd_fuse
      (.one (el_user (xs := [_, _, _]) hp rfl rfl (.three (el_split hp "hello_world") (.num _ _ _) (.num _ _ _)) (el_subseq hp _ 3 5 (by omega)))) (.bi fun _ _ _ => rfl)) (by decide +kernel)) .nil))

/-- Whether a number is odd. -/
def oddV : Val → Val
  | .num n => vBool (decide (n.tmod 2 ≠ 0))
  | v => v

theorem el_odd {s : St} (hp : ElAt s.heap) (ns : List Int) : ∀ x ∈ ns.map Val.num, Returns W s k_oddP [x] (oddV x) := by
  intro x hx
  obtain ⟨n, _, rfl⟩ := List.mem_map.1 hx
  exact ret_oddP hp.prog.core.base n

theorem test_some : ElTest W 0 (testLine (vlist [.atom "some"]) 3) (elizaForms.getD 35 .nil) :=
  el_test (xs := [_, _, _])
    (.cons (m := 0) (el_is (v := .atom "t") (fun s hp => .not_nil hp.prog.sc rfl (.fn (xs := [_, _]) hp.prog.sc rfl hd_some (.two (.name hp.prog.sc rfl hd_oddP) (el_quote hp _))
      (ret_some hp.prog.core.base rfl ([2, 4, 6].map Val.num) (el_odd hp _)))) (by simp) (notEquation_of (by decide)))
    (.cons (m := 0) (el_is_eq0 (fun s hp => .t _ _) (fun s hp => .fn (xs := [_, _]) hp.prog.sc rfl hd_some (.two (.name hp.prog.sc rfl hd_oddP) (el_quote hp _))
      (ret_some hp.prog.core.base rfl ([2, 4, 5, 6].map Val.num) (el_odd hp _))) (by decide +kernel))
    (.cons (m := 0) (el_is (v := .atom "t") (fun s hp => .fn (xs := [_, _]) hp.prog.sc rfl hd_some (.two (.lambda (a := vlist [.atom "x"]) (body := [_]) hp.prog.sc rfl known_lambda fun _ => rfl) (el_quote hp _))
      (ret_some (g := fun v => vBool (v.equal (.num 4))) hp.prog.core.base rfl ([2, 4, 5, 6].map Val.num) fun x _ => .lam (ps := ["x"]) (r := "") (vs := [x]) rfl (by decide) hp.prog.sc fun s1 e1 hq hs => .eq hs rfl (.v hs rfl rfl) (.num _ _ _))) (by simp) (notEquation_of (by decide))) .nil)))

/-! ### The test of `pat-match` -/

theorem el_match {s : St} (hp : ElAt s.heap) {ps : List Piece} {xs : List Val} {b : Val} {n : Named} (hsep : Separate ps) (hf : Fit ps xs) (hb : G W s 0 b n.val) :
    G W s 0 (vlist [.atom "pat-match", vlist [.atom "quote", patVal ps], vlist [.atom "quote", vlist xs], b]) (fitVal (fits ps xs n)) :=
  el_user (xs := [_, _, _]) hp rfl rfl (.three (el_quote hp _) (el_quote hp _) hb) (matches_all ps hsep xs n hp hf)

theorem el_no {s : St} (hp : ElAt s.heap) : G W s 0 (.atom "no-bindings") (Named.val []) := .v hp.prog.sc rfl rfl
theorem el_failV {s : St} (hp : ElAt s.heap) : G W s 0 (.atom "fail") .nil := .v hp.prog.sc rfl rfl

/-- A sentence of words and numbers. -/
theorem fit_words (ps : List Piece) {xs : List Val} (h : (xs.all fun | .atom _ => true | .num _ => true | _ => false) = true) : Fit ps xs := by
  have key : ∀ x ∈ xs, (∃ a, x = .atom a) ∨ ∃ n, x = .num n := fun x hx => by
    have := List.all_eq_true.1 h x hx
    cases x <;> first | exact .inl ⟨_, rfl⟩ | exact .inr ⟨_, rfl⟩ | cases this
  refine ⟨fun x hx => ?_, fun x hx v hv => ?_, .inr fun x hx => ?_⟩
  · rcases key x hx with ⟨a, rfl⟩ | ⟨n, rfl⟩
    · exact .atom a
    · exact .num n
  · rcases key x hx with ⟨a, rfl⟩ | ⟨n, rfl⟩ <;> cases hv
  · rcases key x hx with ⟨a, rfl⟩ | ⟨n, rfl⟩ <;> rfl

def atoms (t : String) : List Val := (wordsOf t).map .atom

theorem test_pat_match : ElTest W 0 (testLine (vlist [.atom "pat-match"]) 7) (elizaForms.getD 36 .nil) :=
  el_test (xs := [_, _, _, _, _, _, _])
    (.cons (m := 0) (el_is_eq0 (fun s hp => el_quote hp _) (fun s hp => el_match (ps := [.many "?x", .word "hello", .many "?y"]) (xs := [.atom "hello", .atom "there"]) (n := []) hp (by simp [Separate]) (fit_words _ rfl) (el_no hp)) (by decide +kernel))
    (.cons (m := 0) (el_is_eq0 (fun s hp => el_quote hp _) (fun s hp => el_match (ps := [.word "i", .word "need", .word "a", .many "?y"]) (xs := [.atom "i", .atom "need", .atom "a", .atom "vacation"]) (n := []) hp (by simp [Separate]) (fit_words _ rfl) (el_no hp)) (by decide +kernel))
    (.cons (m := 0) (el_is_eq0 (fun s hp => el_failV hp) (fun s hp => el_match (ps := [.word "i", .word "really", .word "need", .word "a", .many "?y"]) (xs := [.atom "i", .atom "need", .atom "a", .atom "vacation"]) (n := []) hp (by simp [Separate]) (fit_words _ rfl) (el_no hp)) (by decide +kernel))
    (.cons (m := 0) (el_is_eq0 (fun s hp => el_no hp) (fun s hp => el_match (ps := [.word "this", .word "is", .word "easy"]) (xs := [.atom "this", .atom "is", .atom "easy"]) (n := []) hp (by simp [Separate]) (fit_words _ rfl) (el_no hp)) (by decide +kernel))
    (.cons (m := 0) (el_is_eq0 (fun s hp => el_failV hp) (fun s hp => el_user (xs := [_, _, _]) hp rfl rfl (.three (el_quote hp _) (el_quote hp _) (el_failV hp)) (el_pat_fail hp _ _)) (by decide +kernel))
    (.cons (m := 0) (el_is_eq0 (fun s hp => el_quote hp _) (fun s hp => el_match (ps := [.many "?p", .word "need", .many "?x"]) (xs := [.atom "Mr", .atom "Hulot", .atom "and", .atom "I", .atom "need", .atom "a", .atom "vacation"]) (n := []) hp (by simp [Separate]) (fit_words _ rfl) (el_no hp)) (by decide +kernel))
    (.cons (m := 0) (el_is_eq0 (fun s hp => el_quote hp _) (fun s hp => el_match (ps := [.many "?x", .word "a", .word "b", .many "?x"]) (xs := [.num 1, .num 2, .atom "a", .atom "b", .atom "a", .atom "b", .num 1, .num 2, .atom "a", .atom "b"]) (n := []) hp (by simp [Separate]) (fit_words _ rfl) (el_no hp)) (by decide +kernel))
     .nil)))))))

/-! ### The test of an answer -/

theorem el_answer_run {s : St} (hp : ElAt s.heap) {xs : List Val} (hx : Spoken xs) :
    ∃ s', eval W (vlist [.atom "flatten", vlist [.atom "use-eliza-rules", vlist [.atom "quote", vlist xs]]]) 0 s = .ok (vlist (elizaAnswer xs (W.rand s.tick))) s' ∧ Draws 1 s s' := by
  obtain ⟨s1, e1, q1⟩ := el_quote (W := W) hp (vlist xs) s (.refl _)
  obtain ⟨v, s2, e2, d2, hv⟩ := el_use_rules (W := W) (hp.mono q1.heap) hx 0
  obtain ⟨s3, e3, q3⟩ := ret_flatten (W := W) (hp.mono (q1.heap.trans d2.heap)).prog.core.base v s2 0 (.refl _)
  refine ⟨s3, ?_, (Draws.after q1 d2).quiet q3⟩
  obtain ⟨g3, g4⟩ := hp.prog.sc.reaches (W := W) rfl hd_flatten
  have e4 : eval W (vlist [.atom "use-eliza-rules", vlist [.atom "quote", vlist xs]]) 0 s = callFn W z_use_eliza_rules [vlist xs] 0 s1 :=
    eval_callVar (s2 := s1) (a := "use-eliza-rules") (xs := [_]) hp.prog.sc rfl rfl rfl rfl (by decide) (.cons e1 .nil) rfl
  rw [eval_call1 g3 g4, e4, e2]
  show callFn W k_flatten [v] 0 s2 = _
  rw [e3, hv, q1.tick]

theorem spoken_words {xs : List Val} (h : (xs.all fun | .atom _ => true | .num _ => true | _ => false) = true) : Spoken xs := ⟨(fit_words [] h).data, (fit_words [] h).word⟩

theorem feel_sad (r : Nat) : elizaAnswer [.atom "I", .atom "feel", .atom "sad"] r = [.atom "Do", .atom "you", .atom "often", .atom "feel", .atom "sad", .atom "?"] := by
  have : elizaAnswer [.atom "I", .atom "feel", .atom "sad"] r = elizaAnswer [.atom "I", .atom "feel", .atom "sad"] 0 := by
    have h1 : after (wordsOf "hello") [.atom "I", .atom "feel", .atom "sad"] = none := by decide +kernel
    have h2 : after (wordsOf "I want") [.atom "I", .atom "feel", .atom "sad"] = none := by decide +kernel
    have h3 : after (wordsOf "if") [.atom "I", .atom "feel", .atom "sad"] = none := by decide +kernel
    have h4 : after (wordsOf "no") [.atom "I", .atom "feel", .atom "sad"] = none := by decide +kernel
    have h5 : after (wordsOf "I was") [.atom "I", .atom "feel", .atom "sad"] = none := by decide +kernel
    have h6 : after (wordsOf "I feel") [.atom "I", .atom "feel", .atom "sad"] = some [.atom "sad"] := by decide +kernel
    simp only [elizaAnswer, elizaRules, elizaAnswer.go, h1, h2, h3, h4, h5, h6, List.length_singleton, Nat.mod_one]
  rw [this]
  decide +kernel

theorem test_response : ElTest W 1 (testLine (vlist [.atom "response"]) 1) (elizaForms.getD 37 .nil) :=
  el_test (xs := [_]) (.cons (m := 1) (n := 0) (el_is_eq (fun s hp => el_quote hp _) (fun s hp => by
    obtain ⟨s', e, d⟩ := el_answer_run (W := W) hp (xs := [.atom "I", .atom "feel", .atom "sad"]) (spoken_words rfl)
    rw [feel_sad] at e
    exact ⟨s', e, d⟩) (by decide +kernel)) .nil)

theorem el_tests : ElTests W 1 elizaTestText ((elizaForms.drop 28).take 10) := by
  have : ElTests W 1 _ ((elizaForms.drop 28).take 10) := .cons (m := 0) test_variable (.cons (m := 0) test_assoc (.cons (m := 0) test_tree_sub (.cons (m := 0) test_sublis (.cons (m := 0) test_segment (.cons (m := 0) test_position
    (.cons (m := 0) test_subseq (.cons (m := 0) test_some (.cons (m := 0) test_pat_match (.cons (m := 1) test_response .nil)))))))))
  refine (show elizaTestText = _ from ?_) ▸ this
  decide +kernel

end L1
