import Verif.Lemmas.ProgFns
import Verif.Props.Tail
/-
Evaluation on a fixed stack, for code written on top of the core library.
-/
set_option autoImplicit false
namespace L1

variable {W : World}

/-- On a stack of `d`, `x` quietly evaluates to `v`, now or at any quiet time later. -/
def GW (W : World) (d : Nat) (s : St) (e : Nat) (x v : Val) : Prop :=
  ∀ s', Quiet s s' → ∃ s'', evalWithin W d x e s' = .ok v s'' ∧ Quiet s' s''

/-- The same for the call of a function, when the body is evaluated on a stack of `d` and nothing else needs any. -/
def RW (W : World) (d : Nat) (s : St) (f : Val) (vs : List Val) (v : Val) : Prop :=
  ∀ s' e, Quiet s s' → ∃ s'', evApply (performIn W d) (performIn W (d + 1)) f vs e s' = .ok v s'' ∧ Quiet s' s''

theorem GW.of_eval {d : Nat} {s : St} {e : Nat} {x v : Val} (h : ∀ s', Quiet s s' → evalWithin W d x e s' = .ok v s') : GW W d s e x v :=
  fun s' h' => ⟨s', h s' h', .refl _⟩

theorem GW.num (d : Nat) (s : St) (e : Nat) (n : Int) : GW W d s e (.num n) (.num n) := .of_eval fun _ _ => within_num
theorem GW.t (d : Nat) (s : St) (e : Nat) : GW W d s e (.atom "t") (.atom "t") := .of_eval fun _ _ => within_true

theorem GW.v {d : Nat} {s : St} {e : Nat} {L : List (String × Val)} {a : String} {v : Val} (hs : Sc s.heap e L) (hx : alGet a L = some v)
    (ha : (isCxr a || a == "t") = false) : GW W d s e (.atom a) v := by
  simp only [Bool.or_eq_false_iff, beq_eq_false_iff_ne] at ha
  exact .of_eval fun s' h' => within_atom ha.1 ha.2 ((hs.mono h'.heap).lookup_some hx)

/-- The arguments have these values. -/
inductive GWA (W : World) (d : Nat) (s : St) (e : Nat) : List Val → List Val → Prop
  | nil : GWA W d s e [] []
  | cons {x v : Val} {xs vs : List Val} : GW W d s e x v → GWA W d s e xs vs → GWA W d s e (x :: xs) (v :: vs)

theorem GWA.evals {d : Nat} {s : St} {e : Nat} {xs vs : List Val} (h : GWA W d s e xs vs) : ∀ s', Quiet s s' → ∃ s'', EvalsWithin W d e xs s' vs s'' ∧ Quiet s' s'' := by
  induction h with
  | nil => exact fun s' _ => ⟨s', .nil, .refl _⟩
  | cons h1 _ ih =>
    intro s' h'
    obtain ⟨s1, e1, q1⟩ := h1 s' h'
    obtain ⟨s2, e2, q2⟩ := ih s1 (h'.trans q1)
    exact ⟨s2, .cons e1 e2, q1.trans q2⟩

theorem GWA.one {d : Nat} {s : St} {e : Nat} {x v : Val} (h : GW W d s e x v) : GWA W d s e [x] [v] := .cons h .nil
theorem GWA.two {d : Nat} {s : St} {e : Nat} {x v y w : Val} (h : GW W d s e x v) (h' : GW W d s e y w) : GWA W d s e [x, y] [v, w] := .cons h (.cons h' .nil)

theorem GW.callAny {d : Nat} {s : St} {e : Nat} {fx f v : Val} {xs vs : List Val} (hh : ∀ s', Quiet s s' → CallHead s'.heap e fx) (hf : GW W d s e fx f)
    (ha : GWA W d s e xs vs) (hr : RW W d s f vs v) : GW W (d + 1) s e (.cons fx (vlist xs)) v := fun s' h' => by
  obtain ⟨s1, e1, q1⟩ := hf s' h'
  obtain ⟨s2, e2, q2⟩ := ha.evals s1 (h'.trans q1)
  obtain ⟨s3, e3, q3⟩ := hr s2 e ((h'.trans q1).trans q2)
  refine ⟨s3, ?_, (q1.trans q2).trans q3⟩
  rw [within_call (hh s' h') (isList_vlist _)]
  unfold evCall
  rw [M.bind_ok (extend_ok (by exact e1)), M.bind_ok (evArgs_within e2)]
  exact e3

/-- A call of a function of the program. -/
theorem GW.user {d : Nat} {s : St} {e : Nat} {L : List (String × Val)} {a : String} {f v : Val} {xs vs : List Val} (hs : Sc s.heap e L)
    (hx : alGet a L = some f) (hm : (f.notMacro && (specialOf a).isNone && !isCxr a && a != "t") = true)
    (ha : GWA W d s e xs vs) (hr : RW W d s f vs v) : GW W (d + 1) s e (.cons (.atom a) (vlist xs)) v := by
  simp only [Bool.and_eq_true, Option.isNone_iff_eq_none, Bool.not_eq_true', bne_iff_ne] at hm
  refine GW.callAny (fun s' h' => callHead_of hm.1.1.2 ?_) (.v hs hx (by simp [hm.1.2, hm.2])) ha hr
  intro ps r b dc env he
  rw [(hs.mono h'.heap).lookup_some hx] at he
  exact notMacro_val hm.1.1.1 ps r b dc env (Option.some.inj he)

/-- A call of a library or built-in function. -/
theorem GW.fn {d : Nat} {s : St} {e : Nat} {L : List (String × Val)} {a : String} {f v : Val} {xs vs : List Val} (hs : Sc s.heap e L)
    (hx : alGet a L = none) (hk : Head a f) (ha : GWA W d s e xs vs) (hr : RW W d s f vs v) : GW W (d + 1) s e (.cons (.atom a) (vlist xs)) v := by
  have hk2 := hk.val
  unfold coreVal at hk2
  cases hkn : known a with
  | none => rw [hkn] at hk2; cases hk2
  | some w =>
    rw [hkn] at hk2
    refine GW.callAny (fun s' h' => callHead_of hk.special ?_) (.of_eval fun s' h' => ?_) ha hr
    · intro ps r b dc env he
      rw [(hs.mono h'.heap).lookup_known hx hkn] at he
      subst he
      cases hk2; exact absurd hk.notMacro (by simp [Val.notMacro])
    · have hl := (hs.mono h'.heap).lookup_known hx hkn
      cases w with
      | some w => cases hk2; exact within_atom hk.cxr hk.t hl
      | none =>
        simp only [Option.map_eq_some_iff] at hk2
        obtain ⟨b, hb, rfl⟩ := hk2
        exact within_bi hk.cxr hk.t hl hb

theorem RW.bi {d : Nat} {s : St} {b : BI} {vs : List Val} {v : Val} (h : ∀ call e s', biFn W call b vs e s' = .ok v s') : RW W d s (.bi b) vs v :=
  fun s' e _ => ⟨s', by
    simp only [evApply]
    exact extend_ok (performIn_leaf fun call _ => h call e s'), .refl _⟩

theorem RW.lam {d : Nat} {s : St} {ps : List String} {r : String} {x doc v : Val} {m : Bool} {cenv : Nat} {vs : List Val} {L0 : List (String × Val)}
    (ha : ArityOk ps r vs) (ht : NoT ps r) (h0 : Sc s.heap cenv L0)
    (h : ∀ s1 e1, Quiet s s1 → Sc s1.heap e1 (paramSyms ps r vs ++ L0) → GW W (d + 1) s1 e1 x v) :
    RW W d s (.lam ps r (vlist [x]) doc m cenv) vs v := fun s' e hq => by
  have hq1 : Quiet s' (callSt s' cenv ps r vs) := (Quiet.refl s').grow (List.prefix_append _ _)
  have hsc : Sc (callSt s' cenv ps r vs).heap s'.heap.length (paramSyms ps r vs ++ L0) := by
    refine .frame (p := cenv) ?_ ?_ (h0.mono (hq.trans hq1).heap)
    · simp [callSt]
    · exact (h0.mono hq.heap).lt
  obtain ⟨s'', h1, h2⟩ := h _ _ (hq.trans hq1) hsc _ (.refl _)
  refine ⟨s'', ?_, hq1.trans h2⟩
  simp only [evApply]
  rw [M.bind_ok (newEnvM_run _ _), M.bind_ok (extend_ok (bindArgs_ok ha ht))]
  exact h1

/-- The clauses of a `cond`. -/
def GWC (W : World) (d : Nat) (s : St) (e : Nat) (cl : List Val) (v : Val) : Prop :=
  ∀ s', Quiet s s' → ∃ s'', evCond (performIn W d) (performIn W (d + 1)) e (vlist cl) s' = .ok v s'' ∧ Quiet s' s''

theorem GWC.skip {d : Nat} {s : St} {e : Nat} {c v : Val} {b rest : List Val} (h1 : GW W d s e c .nil) (h2 : GWC W d s e rest v) :
    GWC W d s e (vlist (c :: b) :: rest) v := fun s' h' => by
  obtain ⟨s1, e1, q1⟩ := h1 s' h'
  obtain ⟨s2, e2, q2⟩ := h2 s1 (h'.trans q1)
  refine ⟨s2, ?_, q1.trans q2⟩
  simp only [vlist_cons, evCond]
  rw [M.bind_ok (extend_ok (by exact e1)), M.ite_pos rfl]; exact e2

theorem GWC.hit {d : Nat} {s : St} {e : Nat} {c w x v : Val} {more rest : List Val} (h1 : GW W d s e c w) (hw : w ≠ .nil) (h2 : GW W (d + 1) s e x v) :
    GWC W d s e (vlist (c :: x :: more) :: rest) v := fun s' h' => by
  obtain ⟨s1, e1, q1⟩ := h1 s' h'
  obtain ⟨s2, e2, q2⟩ := h2 s1 (h'.trans q1)
  refine ⟨s2, ?_, q1.trans q2⟩
  simp only [vlist_cons, evCond]
  rw [M.bind_ok (extend_ok (by exact e1)), M.ite_neg hw]; exact e2

theorem GW.cond {d : Nat} {s : St} {e : Nat} {L : List (String × Val)} {cl : List Val} {v : Val} (hs : Sc s.heap e L) (hx : alGet "cond" L = none)
    (h : GWC W d s e cl v) : GW W (d + 1) s e (.cons (.atom "cond") (vlist cl)) v := fun s' h' => by
  have h1 := within_sf (W := W) (d := d) .cond (xs := cl) ((hs.mono h'.heap).notMacro_sf hx known_cond) rfl
  obtain ⟨s'', h2, h3⟩ := h s' h'
  exact ⟨s'', h1.trans h2, h3⟩

/-- `(let ((n x)) y)` -/
theorem GW.let1 {d : Nat} {s : St} {e : Nat} {L : List (String × Val)} {n : String} {x y v w : Val}
    (hs : Sc s.heap e L) (hx : alGet "let" L = none) (hn : n ≠ "t") (hb : GW W d s e x w)
    (h : ∀ s1 e1, Quiet s s1 → Sc s1.heap e1 ([(n, w)] ++ L) → GW W (d + 1) s1 e1 y v) :
    GW W (d + 1) s e (vlist [.atom "let", vlist [vlist [.atom n, x]], y]) v := fun s' h' => by
  have h1 := within_sf (W := W) (d := d) .let_ (xs := [vlist [vlist [.atom n, x]], y]) ((hs.mono h'.heap).notMacro_sf hx known_let) rfl
  have hq1 : Quiet s' { s' with heap := s'.heap ++ [⟨[], some e⟩] } := (Quiet.refl s').grow (List.prefix_append _ _)
  obtain ⟨s2, e2, q2⟩ := hb _ (h'.trans hq1)
  have f1 : ({ s' with heap := s'.heap ++ [⟨[], some e⟩] } : St).heap[s'.heap.length]? = some ⟨[], some e⟩ := by simp
  have f2 := prefix_get q2.heap f1
  have q3 : Quiet s' { s2 with heap := heapSet s2.heap s'.heap.length n w } := (hq1.trans q2).grow (prefix_heapSet (hq1.trans q2).heap (Nat.le_refl _) _ _)
  have f3 : (heapSet s2.heap s'.heap.length n w)[s'.heap.length]? = some ⟨[(n, w)], some e⟩ := heapSet_at f2
  obtain ⟨s4, e4, q4⟩ := h { s2 with heap := heapSet s2.heap s'.heap.length n w } s'.heap.length (h'.trans q3)
    (.frame f3 (hs.mono h'.heap).lt (hs.mono (h'.trans q3).heap)) _ (.refl _)
  refine ⟨s4, h1.trans ?_, q3.trans q4⟩
  simp only [evSpecial]
  rw [vlist_cons, evLet, M.ite_pos (isList_vlist _), M.ite_pos (isList_vlist _)]
  have hset : setM s'.heap.length n w s2 = .ok () { s2 with heap := heapSet s2.heap s'.heap.length n w } := by unfold setM; rw [if_neg hn]
  rw [M.bind_ok (newEnvM_run _ _)]
  have hbind : evLetBinds (performIn W d) e s'.heap.length (vlist [vlist [.atom n, x]]) { s' with heap := s'.heap ++ [⟨[], some e⟩] }
      = .ok true { s2 with heap := heapSet s2.heap s'.heap.length n w } := evLetBinds_within (.cons e2 hn .nil)
  rw [M.bind_ok hbind, M.ite_pos rfl]
  exact e4

theorem RW.zeroP {d : Nat} {s : St} (hc : Base s.heap 0) (n : Int) : RW W d s k_zeroP [.num n] (vBool (n == 0)) :=
  .lam rfl (by decide) (.base hc) fun s1 e1 _ hs => .fn hs rfl hd_eq (.two (.v hs rfl rfl) (.num _ _ _ _)) (.bi fun _ _ _ => by simp [biFn, bEq, Val.equal])

theorem GW.zeroP {d : Nat} {s : St} {e : Nat} {L : List (String × Val)} {x : Val} {n : Int} (hs : Sc s.heap e L) (hx : alGet "zero?" L = none) (hc : Base s.heap 0)
    (h : GW W d s e x (.num n)) : GW W (d + 1) s e (vlist [.atom "zero?", x]) (vBool (n == 0)) := .fn hs hx hd_zeroP (.one h) (.zeroP hc n)

theorem GW.dec1 {d : Nat} {s : St} {e : Nat} {L : List (String × Val)} {x : Val} {n : Int} (hs : Sc s.heap e L) (hx : alGet "-" L = none)
    (h : GW W d s e x (.num n)) : GW W (d + 1) s e (vlist [.atom "-", x, .num 1]) (.num (n - 1)) :=
  .fn hs hx hd_minus (.two h (.num _ _ _ _)) (.bi fun _ _ _ => by simp [biFn, bSub, bSubLoop])

theorem GW.add {d : Nat} {s : St} {e : Nat} {L : List (String × Val)} {x y : Val} {m n : Int} (hs : Sc s.heap e L) (hx : alGet "+" L = none)
    (h : GW W d s e x (.num m)) (h' : GW W d s e y (.num n)) : GW W (d + 1) s e (vlist [.atom "+", x, y]) (.num (m + n)) :=
  .fn hs hx hd_plus (.two h h') (.bi fun _ _ _ => by simp [biFn, bAddLoop])

theorem rw_sum_to_acc (d : Nat) (k : Nat) : ∀ {s : St} (a : Int), Prog s.heap tcoDefs → RW W (d + 1) s x_sum_to_acc [.num k, .num a] (.num (a + sumTo k)) := by
  induction k with
  | zero =>
    intro s a hp
    rw [show (a + (sumTo 0 : Nat)) = a by simp [sumTo]]
    exact .lam rfl (by decide) hp.sc fun s1 e1 hq hs =>
      .cond hs rfl (.hit (.zeroP hs rfl (hp.mono hq.heap).core.base (.v hs rfl rfl)) (by decide) (.v hs rfl rfl))
  | succ k ih =>
    intro s a hp
    refine .lam rfl (by decide) hp.sc fun s1 e1 hq hs => ?_
    have hp1 := hp.mono hq.heap
    have hd := GW.dec1 (W := W) (d := d) (x := .atom "n") (n := ((k + 1 : Nat) : Int)) hs rfl (.v hs rfl rfl)
    rw [show (((k + 1 : Nat) : Int)) - 1 = k by omega] at hd
    have ha := GW.add (W := W) (d := d) (x := .atom "n") (y := .atom "acc") (m := ((k + 1 : Nat) : Int)) (n := a) hs rfl (.v hs rfl rfl) (.v hs rfl rfl)
    have := GW.user (a := "sum-to-acc") hs rfl rfl (.two hd ha) (ih (((k + 1 : Nat) : Int) + a) hp1)
    rw [show (((k + 1 : Nat) : Int)) + a + (sumTo k : Nat) = a + (sumTo (k + 1) : Nat) by rw [sumTo]; push_cast; ring] at this
    have hz := GW.zeroP (W := W) (d := d) (x := .atom "n") (n := ((k + 1 : Nat) : Int)) hs rfl hp1.core.base (.v hs rfl rfl)
    rw [show ((((k + 1 : Nat) : Int)) == 0) = false from beq_eq_false_iff_ne.2 (by omega)] at hz
    exact .cond hs rfl (.skip hz (.hit (.t _ _ _) (by decide) this))

theorem rw_sum_to_acc_with_let (d : Nat) (k : Nat) : ∀ {s : St} (a : Int), Prog s.heap tcoDefs → RW W (d + 1) s x_sum_to_acc_with_let [.num k, .num a] (.num (a + sumTo k)) := by
  induction k with
  | zero =>
    intro s a hp
    rw [show (a + (sumTo 0 : Nat)) = a by simp [sumTo]]
    exact .lam rfl (by decide) hp.sc fun s0 e0 hq0 hs0 => .let1 hs0 rfl (by decide) (.num _ _ _ _) fun s1 e1 hq hs =>
      .cond hs rfl (.hit (.zeroP hs rfl ((hp.mono hq0.heap).mono hq.heap).core.base (.v hs rfl rfl)) (by decide) (.v hs rfl rfl))
  | succ k ih =>
    intro s a hp
    refine .lam rfl (by decide) hp.sc fun s0 e0 hq0 hs0 => .let1 hs0 rfl (by decide) (.num _ _ _ _) fun s1 e1 hq hs => ?_
    have hp1 := (hp.mono hq0.heap).mono hq.heap
    have hd := GW.dec1 (W := W) (d := d) (x := .atom "n") (n := ((k + 1 : Nat) : Int)) hs rfl (.v hs rfl rfl)
    rw [show (((k + 1 : Nat) : Int)) - 1 = k by omega] at hd
    have ha := GW.add (W := W) (d := d) (x := .atom "n") (y := .atom "acc") (m := ((k + 1 : Nat) : Int)) (n := a) hs rfl (.v hs rfl rfl) (.v hs rfl rfl)
    have := GW.user (a := "sum-to-acc-with-let") hs rfl rfl (.two hd ha) (ih (((k + 1 : Nat) : Int) + a) hp1)
    rw [show (((k + 1 : Nat) : Int)) + a + (sumTo k : Nat) = a + (sumTo (k + 1) : Nat) by rw [sumTo]; push_cast; ring] at this
    have hz := GW.zeroP (W := W) (d := d) (x := .atom "n") (n := ((k + 1 : Nat) : Int)) hs rfl hp1.core.base (.v hs rfl rfl)
    rw [show ((((k + 1 : Nat) : Int)) == 0) = false from beq_eq_false_iff_ne.2 (by omega)] at hz
    exact .cond hs rfl (.skip hz (.hit (.t _ _ _) (by decide) this))

theorem rw_sum_to (d k : Nat) {s : St} (hp : Prog s.heap tcoDefs) : RW W (d + 1) s x_sum_to [.num k] (.num (sumTo k)) := by
  refine .lam rfl (by decide) hp.sc fun s1 e1 hq hs => ?_
  have := rw_sum_to_acc (W := W) d k 0 (hp.mono hq.heap)
  rw [Int.zero_add] at this
  exact .user hs rfl rfl (.two (.v hs rfl rfl) (.num _ _ _ _)) this

theorem rw_sum_to_with_let (d k : Nat) {s : St} (hp : Prog s.heap tcoDefs) : RW W (d + 1) s x_sum_to_with_let [.num k] (.num (sumTo k)) := by
  refine .lam rfl (by decide) hp.sc fun s1 e1 hq hs => ?_
  have := rw_sum_to_acc_with_let (W := W) d k 0 (hp.mono hq.heap)
  rw [Int.zero_add] at this
  exact .user hs rfl rfl (.two (.v hs rfl rfl) (.num _ _ _ _)) this

end L1
