import Verif.Spec.Device
import Verif.Props.Loops
import Verif.Props.Screen
import Verif.Lemmas.CoreWords
import Verif.Spec.Library2
/- The rest of the core library: `let*`, `is`, `with-screen` and the random functions. -/
set_option autoImplicit false
namespace L1
variable {W : World}

/-! ### `let*` -/

theorem Becomes.letStar0 {s : St} {e : Nat} {L : List (String × Val)} {xs : List Val} (hs : Sc s.heap e L) (hp : Plain L) (h0 : Base s.heap 0) (hl : alGet "let*" L = none)
    (hls : alGet "list*" L = none) : Becomes W s e (form "let*" (.nil :: xs)) (form "progn" xs) := by
  refine .mac hs hl known_letStar (Nat.le_add_left _ _) (by decide) (fun s1 e1 hq hs1 => ?_)
  have hp1 : Plain (paramSyms ["pairs"] "body" (.nil :: xs) ++ L) := hp.under (plain_of rfl)
  refine .ifNotT hs1 hp1 (.v hs1 rfl rfl) ?_
  have := G.fn (W := W) (e := e1) hs1 (a := "list*") (by rw [alGet_append]; exact hls) hd_listStar (.two (.quote hs1 (hp1 "quote" (by decide)) known_quote (v := .atom "progn")) (.v (a := "body") (v := vlist xs) hs1 rfl rfl))
    (ret_listStar (h0.mono hq.heap) [.atom "progn"] (vlist xs))
  exact this

theorem Becomes.letStar {s : St} {e : Nat} {L : List (String × Val)} {p : Val} {ps xs : List Val} (hs : Sc s.heap e L) (hp : Plain L) (hcc : Cc W s L) (hl : alGet "let*" L = none)
    (ha : alGet "car" L = none) (hd : alGet "cdr" L = none) :
    Becomes W s e (form "let*" (vlist (p :: ps) :: xs)) (form "let" [vlist [p], form "let*" (vlist ps :: xs)]) := by
  refine .mac hs hl known_letStar (Nat.le_add_left _ _) (by decide) (fun s1 e1 hq hs1 => ?_)
  have hp1 : Plain (paramSyms ["pairs"] "body" (vlist (p :: ps) :: xs) ++ L) := hp.under (plain_of rfl)
  have hc1 : Cc W s1 (paramSyms ["pairs"] "body" (vlist (p :: ps) :: xs) ++ L) := (hcc.mono hq).under rfl
  refine .ifNotF hs1 hp1 (.v (v := vlist (p :: ps)) hs1 rfl rfl) (by rw [vlist_cons]; simp) ?_
  have kc := hp1 "cons" (by decide)
  have kq := hp1 "quote" (by decide)
  have q : ∀ v : Val, G W s1 e1 (vlist [.atom "quote", v]) v := fun v => .quote hs1 kq known_quote
  have c : ∀ {x y u v : Val}, G W s1 e1 x u → G W s1 e1 y v → G W s1 e1 (vlist [.atom "cons", x, y]) (.cons u v) := fun a b => .cons hs1 kc a b
  have nl := G.nil (W := W) s1 e1
  have hv : G W s1 e1 (.atom "pairs") (.cons p (vlist ps)) := .v hs1 rfl rfl
  have h1 : G W s1 e1 (vlist [.atom "car", .atom "pairs"]) p := .car hs1 (by rw [alGet_append]; exact ha) hv
  have h2 : G W s1 e1 (vlist [.atom "cdr", .atom "pairs"]) (vlist ps) := .cdr hs1 (by rw [alGet_append]; exact hd) hv
  have hb := G.concat2 hs1 hc1 (.v (a := "body") (v := vlist xs) hs1 rfl rfl) nl
  have hps := G.concat2 hs1 hc1 h2 nl
  exact .template' hs1 hp1 rfl (c (q _) (c (c h1 nl) (c (c (q _) (c hps hb)) nl)))


/-! ### `or` -/

/-- The expressions of an `or`. -/
def GO (W : World) (s : St) (e : Nat) (xs : List Val) (v : Val) : Prop := ∀ s', Quiet s s' → ∃ s'', evOr (perform W) e (vlist xs) s' = .ok v s'' ∧ Quiet s' s''

theorem GO.nil {s : St} {e : Nat} : GO W s e [] .nil := fun s' _ => ⟨s', rfl, .refl _⟩

theorem GO.hit {s : St} {e : Nat} {x v : Val} {xs : List Val} (h : G W s e x v) (hv : v ≠ .nil) : GO W s e (x :: xs) v := fun s' h' => by
  obtain ⟨s1, e1, q1⟩ := h s' h'
  refine ⟨s1, ?_, q1⟩
  simp only [vlist_cons, evOr]
  rw [M.bind_ok (extend_ok (show perform W (.eval x e) s' = .ok v s1 from e1)), M.ite_pos hv]
  rfl

theorem GO.skip {s : St} {e : Nat} {x v : Val} {xs : List Val} (h : G W s e x .nil) (hx : GO W s e xs v) : GO W s e (x :: xs) v := fun s' h' => by
  obtain ⟨s1, e1, q1⟩ := h s' h'
  obtain ⟨s2, e2, q2⟩ := hx s1 (h'.trans q1)
  refine ⟨s2, ?_, q1.trans q2⟩
  simp only [vlist_cons, evOr]
  rw [M.bind_ok (extend_ok (show perform W (.eval x e) s' = .ok .nil s1 from e1)), M.ite_neg (by simp)]
  exact e2

theorem G.or_ {s : St} {e : Nat} {L : List (String × Val)} (hs : Sc s.heap e L) (hx : alGet "or" L = none) {xs : List Val} {v : Val} (h : GO W s e xs v) :
    G W s e (.cons (.atom "or") (vlist xs)) v := fun s' h' => by
  obtain ⟨s'', h1, h2⟩ := h s' h'
  exact ⟨s'', (eval_sform W .or xs e s' ((hs.mono h'.heap).notMacro_sf hx known_or)).trans h1, h2⟩

theorem GP.condHit {s : St} {e : Nat} {L : List (String × Val)} {c w b : Val} {rest : List Val} {P : St → Val → Prop} (hs : Sc s.heap e L) (hx : alGet "cond" L = none)
    (hc : G W s e c w) (hw : w ≠ .nil) (hb : GP W s e b P) : GP W s e (.cons (.atom "cond") (vlist (vlist [c, b] :: rest))) P := fun s' h' => by
  obtain ⟨s1, q1, e1⟩ := cond_hit (W := W) b (vlist rest) (hc.mono h') hw
  obtain ⟨v, s2, e2, q2, hp⟩ := hb s1 (h'.trans q1)
  exact ⟨v, s2, (eval_sform W .cond (vlist [c, b] :: rest) e s' ((hs.mono h'.heap).notMacro_sf hx known_cond)).trans (e1.trans e2), q1.trans q2, hp⟩

theorem GP.condElse {s : St} {e : Nat} {L : List (String × Val)} {c a b : Val} {P : St → Val → Prop} (hs : Sc s.heap e L) (hx : alGet "cond" L = none)
    (hc : G W s e c .nil) (hb : GP W s e b P) : GP W s e (vlist [.atom "cond", vlist [c, a], vlist [.atom "t", b]]) P := fun s' h' => by
  obtain ⟨s1, q1, e1⟩ := cond_skip (W := W) a (vlist [vlist [.atom "t", b]]) (hc.mono h')
  obtain ⟨s2, q2, e2⟩ := cond_hit (W := W) (s := s1) (e := e) b .nil (.t _ _) (by decide)
  obtain ⟨v, s3, e3, q3, hp⟩ := hb s2 (h'.trans (q1.trans q2))
  exact ⟨v, s3, (eval_sform W .cond [vlist [c, a], vlist [.atom "t", b]] e s' ((hs.mono h'.heap).notMacro_sf hx known_cond)).trans (e1.trans (e2.trans e3)),
    (q1.trans q2).trans q3, hp⟩

/-! ### The expansion of `is` -/


theorem equal_eqSign {x : Val} (h : x ≠ .atom "=") : (Val.atom "=").equal x = false := by
  cases x with
  | atom a =>
    have : ¬ "=" = a := fun h' => h (by rw [← h'])
    simpa [Val.equal] using this
  | _ => rfl

/-- `is` of something that is not an equation. -/
theorem is_other {s : St} {e : Nat} {c : Val} (hb : Base s.heap e) (hl : NotEquation c) :
    ∃ k s1, Quiet s s1 ∧ eval W (form "is" [c]) e s = eval W (vlist [.atom "let", vlist [vlist [.atom (gensymName "-result".toList k), c]],
      vlist [.atom "when-not", .atom (gensymName "-result".toList k), vlist [.atom "error", vlist [.atom "quote", vlist [.atom "assertion", .atom "failed:", c]]]]]) e s1 := by
  obtain ⟨y, s1, ⟨k, rfl⟩, q1, e1⟩ := BecomesP.mac (W := W) (P := fun _ y => ∃ k, y = vlist [.atom "let", vlist [vlist [.atom (gensymName "-result".toList k), c]],
      vlist [.atom "when-not", .atom (gensymName "-result".toList k), vlist [.atom "error", vlist [.atom "quote", vlist [.atom "assertion", .atom "failed:", c]]]]]) (xs := [c])
    (.base hb) rfl known_is rfl (by decide) (fun s1 e1 hq hs1 => by
      have hv : G W s1 e1 (.atom "condition") c := .v hs1 rfl rfl
      have hp1 : Plain (paramSyms ["condition"] "" [c] ++ []) := plain_of rfl
      have kq := hp1 "quote" (by decide)
      have hor : G W s1 e1 (vlist [.atom "or", vlist [.atom "not", vlist [.atom "list?", .atom "condition"]],
          vlist [.atom "not", vlist [.atom "=", vlist [.atom "quote", .atom "="], vlist [.atom "car", .atom "condition"]]],
          vlist [.atom "not", vlist [.atom "=", .num 3, vlist [.atom "len", .atom "condition"]]]]) (.atom "t") := by
        have hlist : G W s1 e1 (vlist [.atom "list?", .atom "condition"]) (vBool c.isList) := .fn hs1 rfl hd_listP (.one hv) (.bi fun _ _ _ => rfl)
        have hcar : ∀ x, x ≠ .atom "=" → G W s1 e1 (vlist [.atom "car", .atom "condition"]) x →
            G W s1 e1 (vlist [.atom "not", vlist [.atom "=", vlist [.atom "quote", .atom "="], vlist [.atom "car", .atom "condition"]]]) (.atom "t") := fun x hx hg => by
          have := G.eq hs1 rfl (.quote hs1 kq known_quote (v := .atom "=")) hg
          rw [equal_eqSign hx] at this
          exact .not_nil hs1 rfl this
        refine G.or_ (xs := [_, _, _]) hs1 rfl ?_
        by_cases hli : c.isList = true
        · refine .skip (.not_cons hs1 rfl hlist (by rw [hli]; decide)) ?_
          cases c with
          | nil => exact .hit (hcar .nil (by simp) (.car_nil hs1 rfl hv)) (by simp)
          | cons x d =>
            by_cases hx : x = .atom "="
            · subst hx
              obtain ⟨xs, rfl, hn⟩ := hl d rfl
              refine .skip (.not_cons hs1 rfl (.eq hs1 rfl (.quote hs1 kq known_quote (v := .atom "=")) (.car hs1 rfl hv)) (by decide)) ?_
              have h3 := G.eq hs1 rfl (G.num (W := W) s1 e1 3) (.len (xs := .atom "=" :: xs) hs1 rfl hv)
              have : (Val.num 3).equal (.num ((Val.atom "=" :: xs).length)) = false := by
                simp only [Val.equal, List.length_cons]
                simp
                omega
              rw [this] at h3
              exact .hit (.not_nil hs1 rfl h3) (by simp)
            · exact .hit (hcar x hx (.car hs1 rfl hv)) (by simp)
          | _ => cases hli
        · have hli : c.isList = false := by simpa using hli
          rw [hli] at hlist
          exact .hit (.not_nil hs1 rfl hlist) (by simp)
      refine .condHit hs1 rfl hor (by simp) ?_
      refine .letP hs1 rfl (.cons (by decide) (.gensym "result" hs1 rfl rfl) .nil) ?_
      rintro s2 e2 l ⟨v, l', rfl, ⟨k, rfl⟩, rfl⟩ hq2 hs2
      refine G.gp ?_ fun _ _ => ⟨k, rfl⟩
      have hv2 : G W s2 e2 (.atom "condition") c := .v hs2 rfl rfl
      have hr2 : G W s2 e2 (.atom "result") (.atom (gensymName "-result".toList k)) := .v hs2 rfl rfl
      have hp2 : Plain (letSyms [("result", .atom (gensymName "-result".toList k))] ++ (paramSyms ["condition"] "" [c] ++ [])) := plain_of rfl
      have kc := hp2 "cons" (by decide)
      have kq := hp2 "quote" (by decide)
      have q : ∀ v : Val, G W s2 e2 (vlist [.atom "quote", v]) v := fun v => .quote hs2 kq known_quote
      have c' : ∀ {x y u v : Val}, G W s2 e2 x u → G W s2 e2 y v → G W s2 e2 (vlist [.atom "cons", x, y]) (.cons u v) := fun a b => .cons hs2 kc a b
      have nl := G.nil (W := W) s2 e2
      have hf : G W s2 e2 (vlist [.atom "fuse", vlist [.atom "list", vlist [.atom "quote", .atom "failed"], .atom "COLON"]]) (.atom "failed:") :=
        .fn hs2 rfl hd_fuse (.one (.list hs2 rfl (.two (q _) (.name hs2 rfl hd_COLON)))) (.bi fun _ _ _ => rfl)
      exact .template' hs2 hp2 rfl (c' (q _) (c' (c' (c' hr2 (c' hv2 nl)) nl) (c' (c' (q _) (c' hr2 (c' (c' (q _) (c' (c' (q _) (c' (c' (q _) (c' hf (c' hv2 nl))) nl)) nl)) nl))) nl)))) s (.refl _)
  exact ⟨k, s1, q1, e1⟩

/-- The expansion of an equation. -/
def isEq (g h : String) (a b : Val) : Val :=
  vlist [.atom "let", vlist [vlist [.atom g, a], vlist [.atom h, b]], vlist [.atom "when-not", vlist [.atom "=", .atom g, .atom h], vlist [.atom "error",
    vlist [.atom "concat", vlist [.atom "list", vlist [.atom "quote", .atom "expression"], vlist [.atom "quote", a], vlist [.atom "quote", .atom "==>"], .atom g],
      vlist [.atom "quote", vlist [.atom "is", .atom "not", .atom "equal", .atom "to"]],
      vlist [.atom "list", vlist [.atom "quote", .atom "expression"], vlist [.atom "quote", b], vlist [.atom "quote", .atom "==>"], .atom h]]]]]

theorem is_eq {s : St} {e : Nat} {a b : Val} (hb : Base s.heap e) (h0 : Base s.heap 0) :
    ∃ j k s1, Quiet s s1 ∧ eval W (form "is" [form "=" [a, b]]) e s = eval W (isEq (gensymName "-lhs".toList j) (gensymName "-rhs".toList k) a b) e s1 := by
  obtain ⟨y, s1, ⟨j, k, rfl⟩, q1, e1⟩ := BecomesP.mac (W := W) (P := fun _ y => ∃ j k, y = isEq (gensymName "-lhs".toList j) (gensymName "-rhs".toList k) a b) (xs := [form "=" [a, b]])
    (.base hb) rfl known_is rfl (by decide) (fun s1 e1 hq hs1 => by
      generalize hc : form "=" [a, b] = c at hs1
      have hv : G W s1 e1 (.atom "condition") c := .v hs1 rfl rfl
      have hv' : G W s1 e1 (.atom "condition") (vlist [.atom "=", a, b]) := by rw [← hc] at hv; exact hv
      have hp1 : Plain (paramSyms ["condition"] "" [c] ++ []) := plain_of rfl
      have kq := hp1 "quote" (by decide)
      have hb1 := h0.mono hq.heap
      have hor : G W s1 e1 (vlist [.atom "or", vlist [.atom "not", vlist [.atom "list?", .atom "condition"]],
          vlist [.atom "not", vlist [.atom "=", vlist [.atom "quote", .atom "="], vlist [.atom "car", .atom "condition"]]],
          vlist [.atom "not", vlist [.atom "=", .num 3, vlist [.atom "len", .atom "condition"]]]]) .nil := by
        have hlist : G W s1 e1 (vlist [.atom "list?", .atom "condition"]) (vBool c.isList) := .fn hs1 rfl hd_listP (.one hv) (.bi fun _ _ _ => rfl)
        refine G.or_ (xs := [_, _, _]) hs1 rfl ?_
        refine .skip (.not_cons hs1 rfl hlist (by rw [← hc]; show (Val.atom "t") ≠ _; simp)) ?_
        refine .skip (.not_cons hs1 rfl (.eq hs1 rfl (.quote hs1 kq known_quote (v := .atom "=")) (.car hs1 rfl hv')) (by decide)) ?_
        exact .skip (.not_cons hs1 rfl (.eq hs1 rfl (.num s1 e1 3) (.len (xs := [.atom "=", a, b]) hs1 rfl hv')) (by show (Val.atom "t") ≠ _; simp)) .nil
      refine .condElse hs1 rfl hor ?_
      have n1 : G W s1 e1 (vlist [.atom "nth", .num 1, .atom "condition"]) a := .fn hs1 rfl hd_nth (.two (.num s1 e1 1) hv') (ret_nth hb1 1 [.atom "=", a, b])
      have n2 : G W s1 e1 (vlist [.atom "nth", .num 2, .atom "condition"]) b := .fn hs1 rfl hd_nth (.two (.num s1 e1 2) hv') (ret_nth hb1 2 [.atom "=", a, b])
      refine .letP hs1 rfl (.cons (n := "lhs") (P := fun v => a = v) (by decide) (n1.gp fun _ _ => rfl) (.cons (n := "rhs") (P := fun v => b = v) (by decide) (n2.gp fun _ _ => rfl)
          (.cons (n := "lhsym") (by decide) (.gensym "lhs" hs1 rfl rfl) (.cons (n := "rhsym") (by decide) (.gensym "rhs" hs1 rfl rfl) .nil)))) ?_
      rintro s2 e2 l ⟨_, _, rfl, rfl, _, _, rfl, rfl, _, _, rfl, ⟨j, rfl⟩, _, _, rfl, ⟨k, rfl⟩, rfl⟩ hq2 hs2
      refine G.gp ?_ fun _ _ => ⟨j, k, rfl⟩
      have hs2 : Sc s2.heap e2 (letSyms [("lhs", a), ("rhs", b), ("lhsym", .atom (gensymName "-lhs".toList j)), ("rhsym", .atom (gensymName "-rhs".toList k))] ++
        (paramSyms ["condition"] "" [c] ++ [])) := hs2
      generalize hg : gensymName "-lhs".toList j = g at hs2
      generalize hh : gensymName "-rhs".toList k = h at hs2
      have ha2 : G W s2 e2 (.atom "lhs") a := .v hs2 rfl rfl
      have hb2 : G W s2 e2 (.atom "rhs") b := .v hs2 rfl rfl
      have hl2 : G W s2 e2 (.atom "lhsym") (.atom g) := .v hs2 rfl rfl
      have hr2 : G W s2 e2 (.atom "rhsym") (.atom h) := .v hs2 rfl rfl
      have hp2 : Plain (letSyms [("lhs", a), ("rhs", b), ("lhsym", .atom g), ("rhsym", .atom h)] ++ (paramSyms ["condition"] "" [c] ++ [])) := plain_of rfl
      have kc := hp2 "cons" (by decide)
      have kq := hp2 "quote" (by decide)
      have q : ∀ v : Val, G W s2 e2 (vlist [.atom "quote", v]) v := fun v => .quote hs2 kq known_quote
      have c' : ∀ {x y u v : Val}, G W s2 e2 x u → G W s2 e2 y v → G W s2 e2 (vlist [.atom "cons", x, y]) (.cons u v) := fun a b => .cons hs2 kc a b
      have nl := G.nil (W := W) s2 e2
      exact .template' hs2 hp2 rfl (c' (q _) (c' (c' (c' hl2 (c' ha2 nl)) (c' (c' hr2 (c' hb2 nl)) nl)) (c' (c' (q _) (c' (c' (q _) (c' hl2 (c' hr2 nl)))
        (c' (c' (q _) (c' (c' (q _) (c'
          (c' (q _) (c' (c' (q _) (c' (q _) nl)) (c' (c' (q _) (c' ha2 nl)) (c' (c' (q _) (c' (q _) nl)) (c' hl2 nl)))))
          (c' (c' (q _) (c' (c' (q _) (c' (q _) (c' (q _) (c' (q _) nl)))) nl))
          (c' (c' (q _) (c' (c' (q _) (c' (q _) nl)) (c' (c' (q _) (c' hb2 nl)) (c' (c' (q _) (c' (q _) nl)) (c' hr2 nl))))) nl)))) nl)) nl))) nl)))) s (.refl _)
  exact ⟨j, k, s1, q1, e1⟩

/-! ### What `is` does -/

theorem known_eqSign : known "=" = some none := by decide +kernel
theorem known_listFn : known "list" = some none := by decide +kernel

theorem gensym_prefix_ne {j k : Nat} : gensymName "-lhs".toList j ≠ gensymName "-rhs".toList k := by
  unfold gensymName
  intro h
  rw [String.ofList_inj] at h
  have h := congrArg (fun l => l[8]?) h
  simp at h


theorem let2_run {s : St} {e : Nat} {L : List (String × Val)} {n m : String} (a b x : Val) (hs : Sc s.heap e L) (hl : alGet "let" L = none) (hn : n ≠ "t") (hm : m ≠ "t") :
    eval W (vlist [.atom "let", vlist [vlist [.atom n, a], vlist [.atom m, b]], x]) e s =
      (eval W a e (withScope s e)).andThen (msgList "evaluating let bindings") fun y s1 =>
      (eval W b e { s1 with heap := heapSet s1.heap s.heap.length n y }).andThen (msgList "evaluating let bindings") fun z s2 =>
      eval W x s.heap.length { s2 with heap := heapSet s2.heap s.heap.length m z } := by
  refine (eval_sform W .let_ [vlist [vlist [.atom n, a], vlist [.atom m, b]], x] e s (hs.notMacro_sf hl known_let)).trans ?_
  have h1 : evSpecial (perform W) (perform W) .let_ (vlist [vlist [vlist [.atom n, a], vlist [.atom m, b]], x]) e = (do
    let ne ← newEnvM e
    let ok ← evLetBinds (perform W) e ne (vlist [vlist [.atom n, a], vlist [.atom m, b]])
    if ok then evBodyTail (perform W) (perform W) (fun _ => msgList "evaluating let body") ne (vlist [x]) else pure .nil) := rfl
  rw [h1, M.bind_ok (newEnvM_run _ _)]
  have h2 : (do
    let ok ← evLetBinds (perform W) e s.heap.length (vlist [vlist [.atom n, a], vlist [.atom m, b]])
    if ok then evBodyTail (perform W) (perform W) (fun _ => msgList "evaluating let body") s.heap.length (vlist [x]) else pure .nil) = (do
    let v ← extend "evaluating let bindings" (perform W (.eval a e))
    let _ ← extend "setting let bindings" (setM s.heap.length n v)
    let w ← extend "evaluating let bindings" (perform W (.eval b e))
    let _ ← extend "setting let bindings" (setM s.heap.length m w)
    perform W (.eval x s.heap.length)) := by
    funext s
    simp only [vlist_cons, vlist_nil, evLetBinds, M.bind_run]
    cases extend "evaluating let bindings" (perform W (.eval a e)) s with
    | ok v s1 =>
      dsimp only
      cases extend "setting let bindings" (setM _ n v) s1 with
      | ok _ s2 =>
        dsimp only
        cases extend "evaluating let bindings" (perform W (.eval b e)) s2 with
        | ok w s3 => dsimp only; cases extend "setting let bindings" (setM _ m w) s3 <;> rfl
        | _ => rfl
      | _ => rfl
    | _ => rfl
  rw [h2, extend_andThen']
  show (perform W (.eval a e) (withScope s e)).andThen _ _ = _
  unfold eval
  congr 1
  funext v s1
  have hset : setM s.heap.length n v s1 = .ok () { s1 with heap := heapSet s1.heap s.heap.length n v } := by unfold setM; rw [if_neg hn]
  rw [M.bind_ok (extend_ok hset), extend_andThen']
  congr 1
  funext w s2
  have hset : setM s.heap.length m w s2 = .ok () { s2 with heap := heapSet s2.heap s.heap.length m w } := by unfold setM; rw [if_neg hm]
  rw [M.bind_ok (extend_ok hset)]

theorem error_run {s : St} {e : Nat} {L : List (String × Val)} {x v : Val} (hs : Sc s.heap e L) (hl : alGet "error" L = none) (h : G W s e x v) :
    ∃ s1, Quiet s s1 ∧ eval W (vlist [.atom "error", x]) e s = .err (.list (vlist [v])) s1 := by
  obtain ⟨s1, e1, q1⟩ := h s (.refl _)
  refine ⟨s1, q1, (eval_sform W .error [x] e s (hs.notMacro_sf hl known_error)).trans ?_⟩
  show evError (perform W) e (.cons x .nil) s = _
  simp only [evError]
  rw [M.bind_ok (extend_ok (show perform W (.eval x e) s = .ok v s1 from e1))]
  rfl

theorem is_run {s : St} {e : Nat} (h : CoreHere s.heap e) (c : Val) (hl : NotEquation c) : ∃ s1, Quiet s s1 ∧
    (∀ r, eval W c e s1 = r → (∀ v s2, r ≠ .ok v s2) → UpTo r (eval W (form "is" [c]) e s)) ∧
    ∀ v s2, eval W c e s1 = .ok v s2 → CoreHere s2.heap e → (∀ j, newIn s s1 j → s2.heap[j]? = s1.heap[j]?) →
      (v ≠ .nil → ∃ s3, Still (newIn s s1) s2 s3 ∧ eval W (form "is" [c]) e s = .ok .nil s3) ∧
      (v = .nil → ∃ s3, Still (newIn s s1) s2 s3 ∧
        eval W (form "is" [c]) e s = .err (.list (vlist [vlist [.atom "assertion", .atom "failed:", c]])) s3) := by
  obtain ⟨k, s0, q0, e0⟩ := is_other (W := W) h.2.base hl
  generalize hg : gensymName "-result".toList k = g at e0
  have hgt : g ≠ "t" := hg ▸ gensymName_ne (by decide)
  have hgk : ∀ x r, known x = some r → x ≠ g := fun _ _ hx => hg ▸ known_ne_gensym hx _ _
  have hgc : isCxr g = false := hg ▸ gensymName_cxr _ _
  have e1 := e0.trans (let1_run (W := W) (n := g) c _ (.base (h.mono q0.heap).2.base) rfl hgt)
  have q1 : Quiet s (withScope s0 e) := q0.trans (Quiet.withScope _ _)
  have hlt : e < s0.heap.length := Nat.lt_of_lt_of_le h.2.lt q0.heap.length_le
  refine ⟨withScope s0 e, q1, fun r hr hn => by rw [e1, hr]; exact .frame hn _ _, fun v s2 hv hc2 hun => ?_⟩
  have hnewp : newIn s (withScope s0 e) s0.heap.length := ⟨q0.heap.length_le, by show s0.heap.length < (s0.heap ++ [_]).length; simp⟩
  have hfr : (heapSet s2.heap s0.heap.length g v)[s0.heap.length]? = some ⟨[(g, v)], some e⟩ := by
    have h1 : s2.heap[s0.heap.length]? = some ⟨[], some e⟩ := (hun _ hnewp).trans (by show (s0.heap ++ [_])[s0.heap.length]? = _; simp)
    exact (heapSet_at h1).trans rfl
  have hc3 : CoreHere (heapSet s2.heap s0.heap.length g v) e := hc2.set hgk _ v
  rw [hv] at e1
  have st3 : Still (newIn s (withScope s0 e)) s2 { s2 with heap := heapSet s2.heap s0.heap.length g v } := Still.set hnewp _ _
  generalize hs3 : ({ s2 with heap := heapSet s2.heap s0.heap.length g v } : St) = s3 at e1 st3
  have hh3 : s3.heap = heapSet s2.heap s0.heap.length g v := by rw [← hs3]
  rw [← hh3] at hfr hc3
  have hsc : Sc s3.heap s0.heap.length ([(g, v)] ++ []) := .frame hfr hlt (.base hc3.2.base)
  have hL3 : ∀ x r, known x = some r → alGet x ([(g, v)] ++ []) = none := fun x r hx => by
    have hne : g ≠ x := Ne.symm (hgk x r hx)
    show alGet x [(g, v)] = none
    simp only [alGet, if_neg hne]
  have hgv : G W s3 s0.heap.length (.atom g) v := .var hsc (by simp [alGet]) hgc hgt
  have hcc : Cc W s3 ([(g, v)] ++ []) := .core hc3.1.base (hL3 _ _ known_concat2)
  have e2 : eval W (form "is" [c]) e s = eval W (vlist [.atom "when-not", .atom g, vlist [.atom "error", vlist [.atom "quote", vlist [.atom "assertion", .atom "failed:", c]]]])
      s0.heap.length s3 := by rw [e1, ← hs3]; rfl
  rw [e2]
  refine ⟨fun hv0 => ?_, fun hv0 => ?_⟩
  · obtain ⟨s4, e4, q4⟩ := (G.whenNotT (v := .nil) hsc (Ready.plain hL3) hcc hgv hv0) s3 (.refl _)
    exact ⟨s4, st3.trans (q4.still _), e4⟩
  · subst hv0
    obtain ⟨s4, q4, e4⟩ := whenNot_true (W := W) (vlist [.atom "error", vlist [.atom "quote", vlist [.atom "assertion", .atom "failed:", c]]]) hsc (Ready.plain hL3) hcc hgv
    have hs4 : Sc (withScope s4 s0.heap.length).heap s4.heap.length ([] ++ ([(g, .nil)] ++ [])) :=
      .frame (by simp [withScope]) (Nat.lt_of_lt_of_le hsc.lt q4.heap.length_le) (hsc.mono (q4.trans (Quiet.withScope _ _)).heap)
    obtain ⟨s5, q5, e5⟩ := error_run (W := W) hs4 (hL3 _ _ known_error) (.quote hs4 (hL3 _ _ known_quote) known_quote (v := vlist [.atom "assertion", .atom "failed:", c]))
    exact ⟨s5, st3.trans ((q4.trans ((Quiet.withScope _ _).trans q5)).still _), e4.trans e5⟩

theorem isEq_run {s : St} {e : Nat} (h : CoreHere s.heap e) (a b : Val) : ∃ s1, Quiet s s1 ∧
    (∀ r, eval W a e s1 = r → (∀ v s2, r ≠ .ok v s2) → UpTo r (eval W (form "is" [form "=" [a, b]]) e s)) ∧
    ∀ v s2, eval W a e s1 = .ok v s2 → (∀ j, newIn s s1 j → s2.heap[j]? = s1.heap[j]?) → ∃ s3, Still (newIn s s1) s2 s3 ∧
      (∀ r, eval W b e s3 = r → (∀ v s2, r ≠ .ok v s2) → UpTo r (eval W (form "is" [form "=" [a, b]]) e s)) ∧
      ∀ w s4, eval W b e s3 = .ok w s4 → CoreHere s4.heap e → (∀ j, newIn s s1 j → s4.heap[j]? = s3.heap[j]?) →
        (v.equal w = true → ∃ s5, Still (newIn s s1) s4 s5 ∧ eval W (form "is" [form "=" [a, b]]) e s = .ok .nil s5) ∧
        (v.equal w = false → ∃ s5, Still (newIn s s1) s4 s5 ∧ eval W (form "is" [form "=" [a, b]]) e s = .err (.list (vlist [unequal a v b w])) s5) := by
  obtain ⟨j, k, s0, q0, e0⟩ := is_eq (W := W) (a := a) (b := b) h.2.base h.1.base
  have hne : gensymName "-lhs".toList j ≠ gensymName "-rhs".toList k := gensym_prefix_ne
  generalize hg : gensymName "-lhs".toList j = g at e0 hne
  generalize hh : gensymName "-rhs".toList k = g' at e0 hne
  have hgt : g ≠ "t" := hg ▸ gensymName_ne (by decide)
  have hgk : ∀ x r, known x = some r → x ≠ g := fun _ _ hx => hg ▸ known_ne_gensym hx _ _
  have hgc : isCxr g = false := hg ▸ gensymName_cxr _ _
  have hgt' : g' ≠ "t" := hh ▸ gensymName_ne (by decide)
  have hgk' : ∀ x r, known x = some r → x ≠ g' := fun _ _ hx => hh ▸ known_ne_gensym hx _ _
  have hgc' : isCxr g' = false := hh ▸ gensymName_cxr _ _
  have e1 := e0.trans (let2_run (W := W) (n := g) (m := g') a b _ (.base (h.mono q0.heap).2.base) rfl hgt hgt')
  have q1 : Quiet s (withScope s0 e) := q0.trans (Quiet.withScope _ _)
  have hlt : e < s0.heap.length := Nat.lt_of_lt_of_le h.2.lt q0.heap.length_le
  refine ⟨withScope s0 e, q1, fun r hr hn => by rw [e1, hr]; exact .frame hn _ _, fun v s2 hv hun => ?_⟩
  have hnewp : newIn s (withScope s0 e) s0.heap.length := ⟨q0.heap.length_le, by show s0.heap.length < (s0.heap ++ [_]).length; simp⟩
  have hfr : (heapSet s2.heap s0.heap.length g v)[s0.heap.length]? = some ⟨[(g, v)], some e⟩ := by
    have h1 : s2.heap[s0.heap.length]? = some ⟨[], some e⟩ := (hun _ hnewp).trans (by show (s0.heap ++ [_])[s0.heap.length]? = _; simp)
    exact (heapSet_at h1).trans rfl
  have st3 : Still (newIn s (withScope s0 e)) s2 { s2 with heap := heapSet s2.heap s0.heap.length g v } := Still.set hnewp _ _
  rw [hv] at e1
  refine ⟨{ s2 with heap := heapSet s2.heap s0.heap.length g v }, st3, fun r hr hn => by rw [e1]; simp only [Res.andThen.eq_def (.ok v s2)]; rw [hr]; exact .frame hn _ _, fun w s4 hw hc4 hun' => ?_⟩
  have hfr' : (heapSet s4.heap s0.heap.length g' w)[s0.heap.length]? = some ⟨[(g, v), (g', w)], some e⟩ := by
    have h1 : s4.heap[s0.heap.length]? = some ⟨[(g, v)], some e⟩ := (hun' _ hnewp).trans hfr
    refine (heapSet_at h1).trans ?_
    simp [alSet, hne]
  have hc5 : CoreHere (heapSet s4.heap s0.heap.length g' w) e := hc4.set hgk' _ w
  have st5 : Still (newIn s (withScope s0 e)) s4 { s4 with heap := heapSet s4.heap s0.heap.length g' w } := Still.set hnewp _ _
  generalize hs5 : ({ s4 with heap := heapSet s4.heap s0.heap.length g' w } : St) = s5 at e1 st5
  have hh5 : s5.heap = heapSet s4.heap s0.heap.length g' w := by rw [← hs5]
  rw [← hh5] at hfr' hc5
  have hsc : Sc s5.heap s0.heap.length ([(g, v), (g', w)] ++ []) := .frame hfr' hlt (.base hc5.2.base)
  have hL5 : ∀ x r, known x = some r → alGet x ([(g, v), (g', w)] ++ []) = none := fun x r hx => by
    have h1 : g ≠ x := Ne.symm (hgk x r hx)
    have h2 : g' ≠ x := Ne.symm (hgk' x r hx)
    show alGet x [(g, v), (g', w)] = none
    simp only [alGet, if_neg h1, if_neg h2]
  have hgl : alGet g ([(g, v), (g', w)] ++ []) = some v := by simp [alGet]
  have hgl' : alGet g' ([(g, v), (g', w)] ++ []) = some w := by simp [alGet, hne]
  have hgv : G W s5 s0.heap.length (.atom g) v := .var hsc hgl hgc hgt
  have hgv' : G W s5 s0.heap.length (.atom g') w := .var hsc hgl' hgc' hgt'
  have hcc : Cc W s5 ([(g, v), (g', w)] ++ []) := .core hc5.1.base (hL5 _ _ known_concat2)
  have hq := G.eq hsc (hL5 _ _ known_eqSign) hgv hgv'
  have e2 : eval W (form "is" [form "=" [a, b]]) e s = eval W (vlist [.atom "when-not", vlist [.atom "=", .atom g, .atom g'], vlist [.atom "error",
    vlist [.atom "concat", vlist [.atom "list", vlist [.atom "quote", .atom "expression"], vlist [.atom "quote", a], vlist [.atom "quote", .atom "==>"], .atom g],
      vlist [.atom "quote", vlist [.atom "is", .atom "not", .atom "equal", .atom "to"]],
      vlist [.atom "list", vlist [.atom "quote", .atom "expression"], vlist [.atom "quote", b], vlist [.atom "quote", .atom "==>"], .atom g']]]]) s0.heap.length s5 := by
    rw [e1, ← hs5]; simp only [Res.andThen.eq_def (.ok v s2)]; rw [hw]; rfl
  rw [e2]
  refine ⟨fun hv0 => ?_, fun hv0 => ?_⟩
  · rw [hv0] at hq
    obtain ⟨s6, e6, q6⟩ := (G.whenNotT (v := .nil) hsc (Ready.plain hL5) hcc hq (by decide)) s5 (.refl _)
    exact ⟨s6, st5.trans (q6.still _), e6⟩
  · rw [hv0] at hq
    obtain ⟨s6, q6, e6⟩ := whenNot_true (W := W) _ hsc (Ready.plain hL5) hcc hq
    have hs6 : Sc (withScope s6 s0.heap.length).heap s6.heap.length ([] ++ ([(g, v), (g', w)] ++ [])) :=
      .frame (by simp [withScope]) (Nat.lt_of_lt_of_le hsc.lt q6.heap.length_le) (hsc.mono (q6.trans (Quiet.withScope _ _)).heap)
    have hb6 : Base (withScope s6 s0.heap.length).heap 0 := hc5.1.base.mono (q6.trans (Quiet.withScope _ _)).heap
    have q : ∀ v : Val, G W _ _ (vlist [.atom "quote", v]) v := fun v => .quote hs6 (hL5 _ _ known_quote) known_quote
    have l4 : ∀ {x y : Val} {g : String} , G W _ _ (.atom g) y → G W _ _
        (vlist [.atom "list", vlist [.atom "quote", .atom "expression"], vlist [.atom "quote", x], vlist [.atom "quote", .atom "==>"], .atom g]) (vlist [.atom "expression", x, .atom "==>", y]) :=
      fun h => .list hs6 (hL5 _ _ known_listFn) (.cons (q _) (.cons (q _) (.cons (q _) (.cons h .nil))))
    have h1 := l4 (x := a) (.var hs6 hgl hgc hgt)
    have h2 := l4 (x := b) (.var hs6 hgl' hgc' hgt')
    have hcat := G.fn hs6 (hL5 _ _ known_concat) hd_concat (.cons h1 (.cons (q _) (.cons h2 .nil)))
      (ret_concat_lists hb6 [[.atom "expression", a, .atom "==>", v], [.atom "is", .atom "not", .atom "equal", .atom "to"], [.atom "expression", b, .atom "==>", w]])
    obtain ⟨s7, q7, e7⟩ := error_run (W := W) hs6 (hL5 _ _ known_error) hcat
    exact ⟨s7, st5.trans ((q6.trans ((Quiet.withScope _ _).trans q7)).still _), e6.trans e7⟩

/-! ### `with-screen` -/

theorem biFn_screenEnd (W : World) (call : Task → M Val) (args : List Val) (e : Nat) (s : St) : biFn W call .screenEnd args e s = .ok .nil (screenClosed s) := by
  have h : termEnd s = .ok () (screenClosed s) := by
    unfold termEnd screenClosed
    rw [M.bind_ok (getScreenM_run s)]
    cases h : s.screen.on with
    | false => rfl
    | true => rfl
  exact M.bind_ok h

theorem screenClosed_heap (s : St) : (screenClosed s).heap = s.heap := by unfold screenClosed; split <;> rfl

theorem Under.scope {s : St} {vs : List Val} {J : Nat → Prop} (h : Under s vs J) {e : Nat} (he : .lam [] "" .nil .nil false e ∈ vs) :
    Under (withScope s e) (.lam [] "" .nil .nil false s.heap.length :: vs) J := by
  obtain ⟨R, c, hi, hr, hv, hj, hz⟩ := h
  obtain ⟨l0, hl0, hl1⟩ := hv _ he
  cases l0 <;> simp only [Val.ren, reduceCtorEq] at hl1
  rename_i ps r b dc m e0
  injection hl1 with _ _ _ _ _ he0
  have hsim := Sim.newEnvM (R := R) (n := c.heap.length) (p := e0) hl0.1
  have hrel := hsim.rel c s hi hr (Nat.le_refl _)
  have hsafe := hsim.safe c hi (Nat.le_refl _)
  rw [newEnvM_run] at hrel hsafe
  rw [newEnvM_run, he0] at hrel
  refine ⟨R, withScope c e0, hsafe.1, hrel.2, fun v hv' => ?_, hj, hz⟩
  have hl := hsafe.2.1.heap.len
  rcases List.mem_cons.1 hv' with rfl | hv'
  · exact ⟨.lam [] "" .nil .nil false c.heap.length, ⟨hsafe.2.2, trivial, trivial⟩, by simp only [Val.ren]; rw [← hrel.1]⟩
  · obtain ⟨u, h1, h2⟩ := hv v hv'
    exact ⟨u, h1.mono hl, h2⟩

theorem letBody_run {s : St} {e : Nat} {L : List (String × Val)} {n : String} (c : Val) (xs : List Val) (hs : Sc s.heap e L) (hl : alGet "let" L = none) (hn : n ≠ "t") :
    eval W (form "let" (vlist [vlist [.atom n, c]] :: xs)) e s = (eval W c e (withScope s e)).andThen (msgList "evaluating let bindings") fun y s' =>
      inOrder W s.heap.length xs { s' with heap := heapSet s'.heap s.heap.length n y } := by
  refine (eval_sform W .let_ (vlist [vlist [.atom n, c]] :: xs) e s (hs.notMacro_sf hl known_let)).trans ?_
  have h1 : evSpecial (perform W) (perform W) .let_ (vlist (vlist [vlist [.atom n, c]] :: xs)) e = (do
    let ne ← newEnvM e
    let ok ← evLetBinds (perform W) e ne (vlist [vlist [.atom n, c]])
    if ok then evBodyTail (perform W) (perform W) (fun _ => msgList "evaluating let body") ne (vlist xs) else pure .nil) := by
    show evLet (perform W) (perform W) e (.cons (vlist [vlist [.atom n, c]]) (vlist xs)) = _
    simp only [evLet, isList_vlist, if_true]
  rw [h1, M.bind_ok (newEnvM_run _ _)]
  have h2 : (do
    let ok ← evLetBinds (perform W) e s.heap.length (vlist [vlist [.atom n, c]])
    if ok then evBodyTail (perform W) (perform W) (fun _ => msgList "evaluating let body") s.heap.length (vlist xs) else pure .nil) = (do
    let v ← extend "evaluating let bindings" (perform W (.eval c e))
    let _ ← extend "setting let bindings" (setM s.heap.length n v)
    evBodyTail (perform W) (perform W) (fun _ => msgList "evaluating let body") s.heap.length (vlist xs)) := by
    funext s
    simp only [vlist_cons, vlist_nil, evLetBinds, M.bind_run]
    cases extend "evaluating let bindings" (perform W (.eval c e)) s with
    | ok v s1 => dsimp only; cases extend "setting let bindings" (setM _ n v) s1 <;> rfl
    | _ => rfl
  rw [h2, extend_andThen']
  show (perform W (.eval c e) (withScope s e)).andThen _ _ = _
  unfold eval
  congr 1
  funext v s1
  have hset : setM s.heap.length n v s1 = .ok () { s1 with heap := heapSet s1.heap s.heap.length n v } := by unfold setM; rw [if_neg hn]
  rw [M.bind_ok (extend_ok hset)]
  exact evBodyTail_sequence _ _ _ _

theorem Becomes.withScreen {s : St} {e : Nat} {L : List (String × Val)} {xs : List Val} (hs : Sc s.heap e L) (hp : Plain L) (hcc : Cc W s L) (hl : alGet "with-screen" L = none) :
    Becomes W s e (form "with-screen" xs) (form "progn" [form "screen-start" [], form "let" [vlist [vlist [.atom "result", form "progn" xs]], form "screen-end" [], .atom "result"]]) := by
  refine .mac hs hl known_with_screen (Nat.zero_le _) (by decide) (fun s1 e1 hq hs1 => ?_)
  have hp1 : Plain (paramSyms [] "body" xs ++ L) := hp.under (plain_of rfl)
  have hc1 : Cc W s1 (paramSyms [] "body" xs ++ L) := (hcc.mono hq).under rfl
  have kc := hp1 "cons" (by decide)
  have kq := hp1 "quote" (by decide)
  have q : ∀ v : Val, G W s1 e1 (vlist [.atom "quote", v]) v := fun v => .quote hs1 kq known_quote
  have c : ∀ {x y u v : Val}, G W s1 e1 x u → G W s1 e1 y v → G W s1 e1 (vlist [.atom "cons", x, y]) (.cons u v) := fun a b => .cons hs1 kc a b
  have nl := G.nil (W := W) s1 e1
  have hb := G.concat2 hs1 hc1 (.v (a := "body") (v := vlist xs) hs1 rfl rfl) nl
  exact .template' hs1 hp1 rfl (c (q _) (c (c (q _) nl) (c (c (q _) (c (c (c (q _) (c (c (q _) hb) nl)) nl) (c (c (q _) nl) (c (q _) nl)))) nl)))

/-- `(with-screen x ...)`. -/
theorem withScreen_run {s : St} {e : Nat} (h : CoreHere s.heap e) (xs : List Val) : ∃ s0 s1, Quiet s s0 ∧ s1 = withScope s0 e ∧
    (∀ r, callFn W (.bi .screenStart) [] 0 s1 = r → (∀ v s2, r ≠ .ok v s2) → UpTo r (eval W (form "with-screen" xs) e s)) ∧
    ∀ v s2, callFn W (.bi .screenStart) [] 0 s1 = .ok v s2 → ∃ s3, s3 = withScope s2 s0.heap.length ∧ CoreHere s3.heap s0.heap.length ∧
      (∀ x, lookup s3.heap s0.heap.length x = lookup s.heap e x) ∧
      (∀ r, eval W (form "progn" xs) s0.heap.length s3 = r → (∀ v s2, r ≠ .ok v s2) → UpTo r (eval W (form "with-screen" xs) e s)) ∧
      ∀ v s4, eval W (form "progn" xs) s0.heap.length s3 = .ok v s4 → CoreHere s4.heap s0.heap.length → (∀ j, newIn s2 s3 j → s4.heap[j]? = s3.heap[j]?) →
        ∃ s5, Still (newIn s2 s3) s4 s5 ∧ eval W (form "with-screen" xs) e s = .ok v (screenClosed s5) := by
  obtain ⟨s', q', e'⟩ := Becomes.withScreen (W := W) (xs := xs) (.base h.2.base) (plain_of rfl) (.core h.1.base rfl) rfl s (.refl _)
  obtain ⟨s0, q0, e0⟩ := C41_progn (W := W) (h.mono q'.heap) [form "screen-start" [], form "let" [vlist [vlist [.atom "result", form "progn" xs]], form "screen-end" [], .atom "result"]]
  have q := q'.trans q0
  have h0 : CoreHere s0.heap e := h.mono q.heap
  have h1 : CoreHere (withScope s0 e).heap s0.heap.length := h0.frame (syms := []) fun _ _ _ => rfl
  have hsc := Sc.base h1.2.base
  have e1 := e'.trans e0
  have hst : eval W (form "screen-start" []) s0.heap.length (withScope s0 e) = callFn W (.bi .screenStart) [] 0 (withScope s0 e) :=
    (eval_callCore (xs := []) hsc rfl hd_screen_start (fun _ _ h => h ▸ EvalsTo.nil) rfl).trans (congrFun (callFn_anywhere rfl _ _ _) _)
  have e2 : eval W (form "with-screen" xs) e s = (callFn W (.bi .screenStart) [] 0 (withScope s0 e)).andThen (msgList "evaluating let body") fun _ s2 =>
      eval W (form "let" [vlist [vlist [.atom "result", form "progn" xs]], form "screen-end" [], .atom "result"]) s0.heap.length s2 := by
    rw [e1, ← hst]; rfl
  refine ⟨s0, _, q, rfl, fun r hr hn => by rw [e2, hr]; exact .frame hn _ _, fun v s2 hv => ⟨_, rfl, ?_⟩⟩
  have hh2 : s2.heap = (withScope s0 e).heap := by
    generalize withScope s0 e = s1 at hv
    have hv' : extend ("builtin function " ++ BI.screenStart.name) (perform W (.builtin .screenStart [] 0)) s1 = .ok v s2 := hv
    unfold extend at hv'
    rw [extendWith_run] at hv'
    cases hsc : s1.screen.on with
    | true => rw [C48_second_start W 0 [] s1 hsc] at hv'; cases hv'
    | false =>
      rw [C48_start W 0 [] s1 hsc] at hv'
      cases ho : W.openScreen s1.tick <;> rw [ho] at hv' <;> cases hv'
      rfl
  rw [hv] at e2
  have hc2 : CoreHere s2.heap s0.heap.length := by rw [hh2]; exact h1
  have e3 := e2.trans (letBody_run (W := W) (n := "result") (form "progn" xs) [form "screen-end" [], .atom "result"] (.base hc2.2.base) rfl (by decide))
  have hc3 : CoreHere (withScope s2 s0.heap.length).heap s0.heap.length := hc2.mono (List.prefix_append _ _)
  refine ⟨hc3, fun x => ?_, fun r hr hn => by rw [e3, hr]; exact .frame hn _ _, fun w s4 hw hc4 hun => ?_⟩
  · have hpre : (withScope s0 e).heap <+: (withScope s2 s0.heap.length).heap := hh2 ▸ List.prefix_append _ _
    rw [h1.2.nested.lookup_prefix hpre, lookup_withScope h0.2.nested, h.2.nested.lookup_prefix q.heap]
  · rw [hw] at e3
    have hnewp : newIn s2 (withScope s2 s0.heap.length) s2.heap.length := ⟨Nat.le_refl _, by show s2.heap.length < (s2.heap ++ [_]).length; simp⟩
    have hfr : (heapSet s4.heap s2.heap.length "result" w)[s2.heap.length]? = some ⟨[("result", w)], some s0.heap.length⟩ := by
      have h1 : s4.heap[s2.heap.length]? = some ⟨[], some s0.heap.length⟩ := (hun _ hnewp).trans (by show (s2.heap ++ [_])[s2.heap.length]? = _; simp)
      exact (heapSet_at h1).trans rfl
    have hrk : ∀ x r, known x = some r → x ≠ "result" := by
      rintro _ r hx rfl
      exact absurd hx (by rw [show known "result" = none by decide +kernel]; simp)
    have hc5 : CoreHere (heapSet s4.heap s2.heap.length "result" w) s0.heap.length := hc4.set hrk _ w
    refine ⟨{ s4 with heap := heapSet s4.heap s2.heap.length "result" w }, Still.set hnewp _ _, e3.trans ?_⟩
    have hlt : s0.heap.length < s2.heap.length := hc2.2.lt
    have hs5 : Sc (heapSet s4.heap s2.heap.length "result" w) s2.heap.length ([("result", w)] ++ []) := .frame hfr hlt (.base hc5.2.base)
    have hend : eval W (form "screen-end" []) s2.heap.length { s4 with heap := heapSet s4.heap s2.heap.length "result" w } =
        .ok .nil (screenClosed { s4 with heap := heapSet s4.heap s2.heap.length "result" w }) :=
      eval_callCore (s := { s4 with heap := heapSet s4.heap s2.heap.length "result" w }) (s1 := { s4 with heap := heapSet s4.heap s2.heap.length "result" w }) (xs := []) (vs := []) hs5 rfl hd_screen_end (fun _ _ h => h ▸ EvalsTo.nil) (call_bi (biFn_screenEnd ..))
    show ((eval W (form "screen-end" []) s2.heap.length { s4 with heap := heapSet s4.heap s2.heap.length "result" w }).andThen _ fun _ s' => eval W (.atom "result") s2.heap.length s') = _
    rw [hend]
    refine eval_atom_bound (by decide) (by decide) ?_
    rw [screenClosed_heap]
    exact hs5.lookup_some rfl

/-! ### The random functions -/

theorem Quiet.draws {s s' : St} (h : Quiet s s') : Draws 0 s s' := ⟨h.heap, h.out, h.inp, h.tick, h.screen, h.gensym⟩

theorem Draws.trans {m n : Nat} {s s1 s2 : St} (h : Draws m s s1) (h' : Draws n s1 s2) : Draws (m + n) s s2 :=
  ⟨h.heap.trans h'.heap, h'.out.trans h.out, h'.inp.trans h.inp, by rw [h'.tick, h.tick]; omega, h'.screen.trans h.screen, Nat.le_trans h.gensym h'.gensym⟩

theorem Draws.after {n : Nat} {s s1 s2 : St} (h : Quiet s s1) (h' : Draws n s1 s2) : Draws n s s2 := by
  have := h.draws.trans h'; rwa [Nat.zero_add] at this

theorem Draws.quiet {n : Nat} {s s1 s2 : St} (h : Draws n s s1) (h' : Quiet s1 s2) : Draws n s s2 := h.trans h'.draws

/-- `f` takes `n` random numbers and returns `g` of the number of questions asked to the world before. -/
def DrawsFn (W : World) (s : St) (f : Val) (vs : List Val) (n : Nat) (g : Nat → Val) : Prop :=
  ∀ s1 e, s.heap <+: s1.heap → ∃ s2, callFn W f vs e s1 = .ok (g s1.tick) s2 ∧ Draws n s1 s2

theorem DrawsFn.gives {s : St} {f : Val} {vs : List Val} {n : Nat} {g : Nat → Val} (h : DrawsFn W s f vs n g) {a : String} (hk : Head a f) : GivesDrawing W s a vs n (g s.tick) := by
  intro e args s0 hl ha
  obtain ⟨h1, h2⟩ := hk.reaches (W := W) hl
  obtain ⟨s', h3, h4⟩ := h s e (List.prefix_refl _)
  exact ⟨s', (eval_reaches h1 ⟨s0, h2, ha⟩).trans h3, h4⟩

theorem Sc.callSt {s : St} {L : List (String × Val)} {cenv : Nat} (h : Sc s.heap cenv L) (ps : List String) (r : String) (vs : List Val) :
    Sc (callSt s cenv ps r vs).heap s.heap.length (paramSyms ps r vs ++ L) :=
  .frame (by simp [L1.callSt]) h.lt (h.mono (Quiet.callSt s cenv ps r vs).heap)

theorem call_randint (m : Nat) (h0 : 0 < m) (hm : m < 2 ^ 63) (e : Nat) (s : St) :
    callFn W (.bi .randint) [.num m] e s = .ok (.num ((W.rand s.tick % m : Nat) : Int)) { s with tick := s.tick + 1 } := by
  refine call_bi ?_
  show bRandint W [.num m] s = _
  have h1 : (m : Int).natAbs % 2 ^ 64 = m := by rw [Int.natAbs_natCast]; exact Nat.mod_eq_of_lt (by omega)
  simp only [bRandint]
  rw [M.ite_neg (by omega)]
  rw [h1, M.ite_neg (by omega)]
  rfl

theorem draws_repeatedly {f : Val} {g : Nat → Val} (hm : f.notMacro = true) (n : Nat) : ∀ (s : St), Base s.heap 0 → DrawsFn W s f [] 1 g →
    DrawsFn W s k_repeatedly [.num n, f] n fun t => vlist ((List.range n).map fun i => g (t + i)) := by
  induction n with
  | zero =>
    intro s hc hf s0 e hp
    have hc := hc.mono hp
    rw [show callFn W k_repeatedly [.num (0 : Nat), f] e s0 = _ from callFn_lam (ps := ["n", "f"]) (r := "") (vs := [.num (0 : Nat), f]) rfl (by decide) e s0]
    have q1 := Quiet.callSt s0 0 ["n", "f"] "" [.num (0 : Nat), f]
    have hs : Sc (callSt s0 0 ["n", "f"] "" [.num (0 : Nat), f]).heap s0.heap.length (paramSyms ["n", "f"] "" [.num (0 : Nat), f] ++ []) := Sc.callSt (.base hc) _ _ _
    obtain ⟨s2, e2, q2⟩ := (G.whenNotT (v := .nil) hs (plain_of rfl) (.core (hc.mono q1.heap) rfl) (.zeroT hs rfl (hc.mono q1.heap) (.v hs rfl rfl)) (by simp) :
      G W _ _ (vlist [.atom "when-not", vlist [.atom "zero?", .atom "n"], vlist [.atom "cons", vlist [.atom "f"], vlist [.atom "repeatedly", vlist [.atom "dec", .atom "n"], .atom "f"]]]) .nil) _ (.refl _)
    exact ⟨s2, e2, (q1.trans q2).draws⟩
  | succ n ih =>
    intro s hc0 hf s0 e hp
    have hc := hc0.mono hp
    rw [show callFn W k_repeatedly [.num (n + 1 : Nat), f] e s0 = _ from callFn_lam (ps := ["n", "f"]) (r := "") (vs := [.num (n + 1 : Nat), f]) rfl (by decide) e s0]
    have q1 := Quiet.callSt s0 0 ["n", "f"] "" [.num (n + 1 : Nat), f]
    have hs : Sc (callSt s0 0 ["n", "f"] "" [.num (n + 1 : Nat), f]).heap s0.heap.length (paramSyms ["n", "f"] "" [.num (n + 1 : Nat), f] ++ []) := Sc.callSt (.base hc) _ _ _
    obtain ⟨s2, q2, e2⟩ := whenNot_true (W := W) (c := vlist [.atom "zero?", .atom "n"]) (vlist [.atom "cons", vlist [.atom "f"], vlist [.atom "repeatedly", vlist [.atom "dec", .atom "n"], .atom "f"]])
      hs (plain_of rfl) (.core (hc.mono q1.heap) rfl) (.zeroF (n := ((n + 1 : Nat) : Int)) hs rfl (hc.mono q1.heap) (.v hs rfl rfl) (by omega))
    have q3 := q1.trans (q2.trans (Quiet.withScope s2 s0.heap.length))
    have hs3 : Sc (withScope s2 s0.heap.length).heap s2.heap.length ([] ++ (paramSyms ["n", "f"] "" [.num (n + 1 : Nat), f] ++ [])) :=
      .frame (by simp [withScope]) (Nat.lt_of_lt_of_le hs.lt q2.heap.length_le) (hs.mono (q2.trans (Quiet.withScope _ _)).heap)
    generalize withScope s2 s0.heap.length = s3 at *
    generalize s2.heap.length = e3 at *
    obtain ⟨s4, e4, d4⟩ := hf s3 e3 (hp.trans q3.heap)
    have e4' : eval W (vlist [.atom "f"]) e3 s3 = .ok (g s3.tick) s4 := eval_callVar (s2 := s4) (a := "f") (xs := []) hs3 rfl hm rfl rfl (by decide) .nil e4
    have hs4 := hs3.mono d4.heap
    have hc4 : Base s4.heap 0 := hc.mono (q3.heap.trans d4.heap)
    have hd := G.dec (W := W) (x := .atom "n") (n := ((n + 1 : Nat) : Int)) hs4 rfl hc4 (.v hs4 rfl rfl)
    rw [show (((n + 1 : Nat) : Int)) - 1 = n by omega] at hd
    obtain ⟨s5, q5, e5⟩ := core_call (W := W) (xs := [_, _]) hs4 rfl hd_repeatedly (.two hd (.v (a := "f") hs4 rfl rfl))
    obtain ⟨s6, e6, d6⟩ := ih s hc0 hf s5 e3 (hp.trans (q3.heap.trans (d4.heap.trans q5.heap)))
    obtain ⟨g1, g2⟩ := hs3.reaches (W := W) rfl hd_cons
    refine ⟨s6, e2.trans ?_, ?_⟩
    · rw [eval_call2 g1 g2, e4']
      show (eval W (vlist [.atom "repeatedly", vlist [.atom "dec", .atom "n"], .atom "f"]) e3 s4).andThen _ _ = _
      have : eval W (vlist [.atom "repeatedly", vlist [.atom "dec", .atom "n"], .atom "f"]) e3 s4 = _ := e5.trans e6
      rw [this]
      simp only [Res.andThen, call_cons]
      congr 1
      rw [List.range_succ_eq_map, List.map_cons, vlist_cons, List.map_map]
      congr 1
      · rw [Nat.add_zero, q3.tick]
      · congr 1
        refine List.map_congr_left fun i _ => ?_
        simp only [Function.comp]
        rw [q5.tick, d4.tick, q3.tick]
        congr 1; omega
    · have := Draws.after q3 (d4.trans (Draws.after q5 d6))
      rwa [Nat.add_comm] at this

theorem draws_randigits {s : St} (hc : Base s.heap 0) (n : Nat) :
    DrawsFn W s k_randigits [.num n] n fun t => vlist ((List.range n).map fun i => .num ((W.rand (t + i) % 10 : Nat) : Int)) := by
  intro s0 e hp
  have hc := hc.mono hp
  rw [show callFn W k_randigits [.num n] e s0 = _ from callFn_lam (ps := ["n"]) (r := "") (vs := [.num n]) rfl (by decide) e s0]
  have q1 := Quiet.callSt s0 0 ["n"] "" [.num n]
  have hs := Sc.callSt (.base hc) ["n"] "" [.num (n : Int)]
  obtain ⟨s2, q2, e2⟩ := core_call (W := W) (xs := [_, _]) hs rfl hd_repeatedly (.two (.v (a := "n") hs rfl rfl) (.lambda (a := .nil) (body := [vlist [.atom "randint", .num 10]]) (v := .lam [] "" (vlist [vlist [.atom "randint", .num 10]]) .nil false s0.heap.length) hs rfl known_lambda fun _ => rfl))
  have hs2 := hs.mono q2.heap
  obtain ⟨s3, e3, d3⟩ := draws_repeatedly (W := W) (g := fun t => .num ((W.rand t % 10 : Nat) : Int)) (f := .lam [] "" (vlist [vlist [.atom "randint", .num 10]]) .nil false s0.heap.length) rfl n s2
    (hc.mono (q1.trans q2).heap) (fun s4 e4 hp4 => by
      rw [callFn_lam (ps := []) (r := "") (vs := []) rfl (by decide)]
      have hs4 := Sc.callSt (hs2.mono hp4) [] "" []
      refine ⟨{ callSt s4 s0.heap.length [] "" [] with tick := s4.tick + 1 }, ?_, (Quiet.callSt s4 _ _ _ _).heap, rfl, rfl, rfl, rfl, Nat.le_refl _⟩
      exact eval_callCore (s1 := callSt s4 s0.heap.length [] "" []) (xs := [.num 10]) (vs := [.num (10 : Nat)]) hs4 rfl hd_randint (fun _ _ h => by subst h; exact .cons (by rw [eval_eq]; rfl) .nil) (call_randint 10 (by omega) (by omega) _ _)) s2 s0.heap.length (List.prefix_refl _)
  refine ⟨s3, e2.trans (e3.trans ?_), .after (q1.trans q2) d3⟩
  rw [q2.tick, q1.tick]

theorem draws_randchoice {s : St} (hc : Base s.heap 0) (xs : List Val) (h0 : xs ≠ []) (hl : xs.length < 2 ^ 63) :
    DrawsFn W s k_randchoice [vlist xs] 1 fun t => xs.getD (W.rand t % xs.length) .nil := by
  intro s0 e hp
  have hc := hc.mono hp
  have hs := Sc.callSt (.base hc) ["l"] "" [vlist xs]
  have q1 := Quiet.callSt s0 0 ["l"] "" [vlist xs]
  have hn : vlist xs ≠ .nil := by cases xs <;> simp at h0 ⊢
  have h1 : callFn W k_randchoice [vlist xs] e s0 = sequence W (fun a => vlist [.atom "lambda", a]) s0.heap.length
      [vlist [.atom "when-not", .atom "l", vlist [.atom "error", vlist [.atom "quote", vlist [.atom "randchoice", .atom "expects", .atom "a", .atom "nonempty", .atom "list"]]]],
        vlist [.atom "nth", vlist [.atom "randint", vlist [.atom "len", .atom "l"]], .atom "l"]] (callSt s0 0 ["l"] "" [vlist xs]) := by
    unfold callFn
    rw [show k_randchoice = .lam ["l"] "" k_randchoice_body k_randchoice_doc false 0 from rfl, evApply_lam (ps := ["l"]) (r := "") (vs := [vlist xs]) rfl (by decide)]
    exact evBodyTail_sequence _ _ [_, _] _
  obtain ⟨s2, e2, q2⟩ := (G.whenNotT (v := .nil) hs (plain_of rfl) (.core (hc.mono q1.heap) rfl) (.v hs rfl rfl) hn :
    G W _ _ (vlist [.atom "when-not", .atom "l", vlist [.atom "error", vlist [.atom "quote", vlist [.atom "randchoice", .atom "expects", .atom "a", .atom "nonempty", .atom "list"]]]]) .nil) _ (.refl _)
  have hs2 := hs.mono q2.heap
  obtain ⟨s3, q3, e3⟩ := core_call (W := W) (xs := [_]) hs2 rfl hd_randint (.one (.len (xs := xs) hs2 rfl (.v (a := "l") hs2 rfl rfl)))
  rw [call_randint _ (List.length_pos_iff.2 h0) hl] at e3
  have hs3 : Sc ({ s3 with tick := s3.tick + 1 } : St).heap s0.heap.length _ := hs2.mono q3.heap
  have hv : eval W (.atom "l") s0.heap.length { s3 with tick := s3.tick + 1 } = .ok (vlist xs) { s3 with tick := s3.tick + 1 } :=
    eval_atom_bound (by decide) (by decide) (hs3.lookup_some rfl)
  obtain ⟨s4, e4, q4⟩ := ret_nth (W := W) (s := { s3 with tick := s3.tick + 1 }) (hc.mono ((q1.trans q2).trans q3).heap) (W.rand s3.tick % xs.length) xs { s3 with tick := s3.tick + 1 } s0.heap.length (.refl _)
  refine ⟨s4, ?_, .after ((q1.trans q2).trans q3) ?_⟩
  · rw [h1]
    show (eval W _ _ _).andThen _ _ = _
    rw [e2]
    refine (eval_callCore (xs := [vlist [.atom "randint", vlist [.atom "len", .atom "l"]], .atom "l"]) hs2 rfl hd_nth (fun _ _ h => by subst h; exact .cons e3 (.cons hv .nil)) e4).trans ?_
    rw [q3.tick, q2.tick, q1.tick]
  · have : Draws 1 s3 { s3 with tick := s3.tick + 1 } := ⟨List.prefix_refl _, rfl, rfl, rfl, rfl, Nat.le_refl _⟩
    exact this.quiet q4

theorem fails_randchoice {s : St} (hc : Base s.heap 0) : Fails W s k_randchoice [.nil] := by
  intro s0 e hq
  have hc := hc.mono hq.heap
  have hs := Sc.callSt (.base hc) ["l"] "" [.nil]
  have q1 := Quiet.callSt s0 0 ["l"] "" [.nil]
  have h1 : callFn W k_randchoice [.nil] e s0 = sequence W (fun a => vlist [.atom "lambda", a]) s0.heap.length
      [vlist [.atom "when-not", .atom "l", vlist [.atom "error", vlist [.atom "quote", vlist [.atom "randchoice", .atom "expects", .atom "a", .atom "nonempty", .atom "list"]]]],
        vlist [.atom "nth", vlist [.atom "randint", vlist [.atom "len", .atom "l"]], .atom "l"]] (callSt s0 0 ["l"] "" [.nil]) := by
    unfold callFn
    rw [show k_randchoice = .lam ["l"] "" k_randchoice_body k_randchoice_doc false 0 from rfl, evApply_lam (ps := ["l"]) (r := "") (vs := [.nil]) rfl (by decide)]
    exact evBodyTail_sequence _ _ [_, _] _
  obtain ⟨s2, q2, e2⟩ := whenNot_true (W := W) (vlist [.atom "error", vlist [.atom "quote", vlist [.atom "randchoice", .atom "expects", .atom "a", .atom "nonempty", .atom "list"]]])
    hs (plain_of rfl) (.core (hc.mono q1.heap) rfl) (.v (a := "l") hs rfl rfl)
  have hs3 : Sc (withScope s2 s0.heap.length).heap s2.heap.length ([] ++ (paramSyms ["l"] "" [.nil] ++ [])) :=
    .frame (by simp [withScope]) (Nat.lt_of_lt_of_le hs.lt q2.heap.length_le) (hs.mono (q2.trans (Quiet.withScope _ _)).heap)
  obtain ⟨s4, q4, e4⟩ := error_run (W := W) hs3 rfl (.quote hs3 rfl known_quote (v := vlist [.atom "randchoice", .atom "expects", .atom "a", .atom "nonempty", .atom "list"]))
  refine ⟨.cons (vlist [.atom "lambda", vlist [.atom "when-not", .atom "l", vlist [.atom "error", vlist [.atom "quote", vlist [.atom "randchoice", .atom "expects", .atom "a", .atom "nonempty", .atom "list"]]]]]) (vlist [vlist [.atom "randchoice", .atom "expects", .atom "a", .atom "nonempty", .atom "list"]]), s4, ?_, q1.trans (q2.trans ((Quiet.withScope _ _).trans q4))⟩
  · rw [h1]
    show (eval W _ _ _).andThen _ _ = _
    rw [e2.trans e4]
    rfl

theorem draws_randalpha {s : St} (hc : Base s.heap 0) (n : Nat) :
    DrawsFn W s k_randalpha [.num n] n fun t => vlist ((List.range n).map fun i => .atom (String.ofList [alphabet.getD (W.rand (t + i) % 26) ' '])) := by
  intro s0 e hp
  have hc := hc.mono hp
  rw [show callFn W k_randalpha [.num n] e s0 = _ from callFn_lam (ps := ["n"]) (r := "") (vs := [.num n]) rfl (by decide) e s0]
  have q1 := Quiet.callSt s0 0 ["n"] "" [.num n]
  have hs := Sc.callSt (.base hc) ["n"] "" [.num (n : Int)]
  obtain ⟨s2, q2, e2⟩ := core_call (W := W) (xs := [_, _]) hs rfl hd_repeatedly (.two (.v (a := "n") hs rfl rfl) (.lambda (a := .nil) (body := [vlist [.atom "randchoice", vlist [.atom "split", vlist [.atom "quote", .atom "abcdefghijklmnopqrstuvwxyz"]]]]) (v := .lam [] "" (vlist [vlist [.atom "randchoice", vlist [.atom "split", vlist [.atom "quote", .atom "abcdefghijklmnopqrstuvwxyz"]]]]) .nil false s0.heap.length) hs rfl known_lambda fun _ => rfl))
  have hs2 := hs.mono q2.heap
  obtain ⟨s3, e3, d3⟩ := draws_repeatedly (W := W) (g := fun t => .atom (String.ofList [alphabet.getD (W.rand t % 26) ' ']))
    (f := .lam [] "" (vlist [vlist [.atom "randchoice", vlist [.atom "split", vlist [.atom "quote", .atom "abcdefghijklmnopqrstuvwxyz"]]]]) .nil false s0.heap.length) rfl n s2
    (hc.mono (q1.trans q2).heap) (fun s4 e4 hp4 => by
      rw [callFn_lam (ps := []) (r := "") (vs := []) rfl (by decide)]
      have hs4 := Sc.callSt (hs2.mono hp4) [] "" []
      have q4 := Quiet.callSt s4 s0.heap.length [] "" []
      have hsp : ∀ call e' s', biFn W call .split [.atom "abcdefghijklmnopqrstuvwxyz"] e' s' = .ok (vlist (alphabet.map fun c => .atom (String.ofList [c]))) s' := fun _ _ _ => rfl
      obtain ⟨s5, q5, e5⟩ := core_call (W := W) (xs := [_]) hs4 rfl hd_randchoice (.one (.fn hs4 rfl hd_split (.one (.quote hs4 rfl known_quote (v := .atom "abcdefghijklmnopqrstuvwxyz"))) (.bi hsp)))
      obtain ⟨s6, e6, d6⟩ := draws_randchoice (W := W) (s := s5) (hc.mono ((q1.trans q2).heap.trans (hp4.trans (q4.trans q5).heap))) (alphabet.map fun c => .atom (String.ofList [c])) (by decide) (by decide) s5 s4.heap.length (List.prefix_refl _)
      refine ⟨s6, (show eval W (vlist [.atom "randchoice", vlist [.atom "split", vlist [.atom "quote", .atom "abcdefghijklmnopqrstuvwxyz"]]]) _ _ = _ from e5.trans e6).trans ?_, .after (q4.trans q5) d6⟩
      have h26 : W.rand s4.tick % 26 < alphabet.length := Nat.mod_lt _ (by decide)
      rw [q5.tick, q4.tick]
      show Res.ok ((alphabet.map fun c => Val.atom (String.ofList [c])).getD (W.rand s4.tick % 26) .nil) s6 = _
      congr 1
      show _ = Val.atom (String.ofList [alphabet.getD (W.rand s4.tick % 26) ' '])
      rw [List.getD_eq_getElem?_getD, List.getD_eq_getElem?_getD, List.getElem?_map, List.getElem?_eq_getElem h26]
      rfl) s2 s0.heap.length (List.prefix_refl _)
  refine ⟨s3, e2.trans (e3.trans ?_), .after (q1.trans q2) d3⟩
  rw [q2.tick, q1.tick]

end L1
