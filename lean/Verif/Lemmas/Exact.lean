import Verif.Lemmas.Drawn
/-
Calculus for expressions that take a known number of random numbers.
-/
set_option autoImplicit false
namespace L1

variable {W : World}

/-- The expression, at any time after the heap was `h` when `k` questions have been asked, returns that value, having taken `n` random numbers and done nothing else. -/
def EX (W : World) (h : Heap) (e k : Nat) (x : Val) (n : Nat) (v : Val) : Prop :=
  ∀ s : St, h <+: s.heap → s.tick = k → ∃ s', eval W x e s = .ok v s' ∧ Draws n s s'

/-- The same for a call. -/
def CX (W : World) (h : Heap) (k : Nat) (f : Val) (vs : List Val) (n : Nat) (v : Val) : Prop :=
  ∀ (s : St) (e : Nat), h <+: s.heap → s.tick = k → ∃ s', callFn W f vs e s = .ok v s' ∧ Draws n s s'

section
variable {h : Heap} {e k m n l : Nat} {L : List (String × Val)}

theorem EX.of {x v : Val} (hg : ∀ s : St, h <+: s.heap → G W s e x v) : EX W h e k x 0 v := fun s hh _ => by
  obtain ⟨s1, e1, q1⟩ := hg s hh s (.refl _)
  exact ⟨s1, e1, q1.draws⟩

theorem CX.ret {f v : Val} {vs : List Val} (hg : ∀ s : St, h <+: s.heap → Returns W s f vs v) : CX W h k f vs 0 v := fun s e hh _ => by
  obtain ⟨s1, e1, q1⟩ := hg s hh s e (.refl _)
  exact ⟨s1, e1, q1.draws⟩

theorem CX.draws {f : Val} {vs : List Val} {g : Nat → Val} (hg : ∀ s : St, h <+: s.heap → DrawsFn W s f vs m g) : CX W h k f vs m (g k) := fun s e hh ht => by
  obtain ⟨s1, e1, d⟩ := hg s hh s e (List.prefix_refl _)
  exact ⟨s1, by rw [e1, ht], d⟩

theorem EX.mono {x v : Val} {h' : Heap} (hx : EX W h e k x n v) (hh : h <+: h') : EX W h' e k x n v := fun s h1 => hx s (hh.trans h1)

theorem CX.mono {f v : Val} {vs : List Val} {h' : Heap} (hx : CX W h k f vs n v) (hh : h <+: h') : CX W h' k f vs n v := fun s e h1 => hx s e (hh.trans h1)

theorem EX.call0 {hx f v : Val} (hf : HdF W h e hx f) (hk : CX W h k f [] n v) : EX W h e k (vlist [hx]) n v := fun s hh ht => by
  obtain ⟨s1, e1, d1⟩ := hk s e hh ht
  exact ⟨s1, (eval_reaches (hf s hh).1 ⟨s, (hf s hh).2, .nil⟩).trans e1, d1⟩

theorem EX.call1 {hx f c v w : Val} (hf : HdF W h e hx f) (hc : EX W h e k c m v) (hk : CX W h (k + m) f [v] n w) : EX W h e k (vlist [hx, c]) (m + n) w := fun s hh ht => by
  obtain ⟨s1, e1, d1⟩ := hc s hh ht
  obtain ⟨s2, e2, d2⟩ := hk s1 e (hh.trans d1.heap) (by rw [d1.tick, ht])
  exact ⟨s2, (eval_reaches (hf s hh).1 ⟨s, (hf s hh).2, .cons e1 .nil⟩).trans e2, d1.trans d2⟩

theorem EX.call2 {hx f c d v w r : Val} (hf : HdF W h e hx f) (hc : EX W h e k c m v) (hd : EX W h e (k + m) d n w) (hk : CX W h (k + m + n) f [v, w] l r) :
    EX W h e k (vlist [hx, c, d]) (m + n + l) r := fun s hh ht => by
  obtain ⟨s1, e1, d1⟩ := hc s hh ht
  obtain ⟨s2, e2, d2⟩ := hd s1 (hh.trans d1.heap) (by rw [d1.tick, ht])
  obtain ⟨s3, e3, d3⟩ := hk s2 e (hh.trans (d1.heap.trans d2.heap)) (by rw [d2.tick, d1.tick, ht])
  exact ⟨s3, (eval_reaches (hf s hh).1 ⟨s, (hf s hh).2, .cons e1 (.cons e2 .nil)⟩).trans e3, (d1.trans d2).trans d3⟩

theorem CX.lam {ps : List String} {r : String} {x doc v : Val} {mc : Bool} {cenv : Nat} {vs : List Val} (ha : ArityOk ps r vs) (ht : NoT ps r) (hs : Sc h cenv L)
    (hg : ∀ h' e', h <+: h' → Sc h' e' (paramSyms ps r vs ++ L) → EX W h' e' k x n v) : CX W h k (.lam ps r (vlist [x]) doc mc cenv) vs n v := fun s e hh hT => by
  rw [callFn_lam ha ht]
  have q := Quiet.callSt s cenv ps r vs
  obtain ⟨s1, e1, d1⟩ := hg _ _ (hh.trans q.heap) (Sc.callSt (hs.mono hh) ps r vs) _ (List.prefix_refl _) (by rw [q.tick]; exact hT)
  exact ⟨s1, e1, .after q d1⟩

theorem EX.template {X c v : Val} (hs : Sc h e L) (hx : alGet "syntax-quote" L = none) (hc : syntaxQuote X = some c) (hg : EX W h e k c n v) :
    EX W h e k (vlist [.atom "syntax-quote", X]) n v := fun s hh ht => by
  have h1 := eval_sform W .syntaxQuote [X] e s ((hs.mono hh).notMacro_sf hx known_syntax_quote)
  rw [show eval W (vlist [.atom "syntax-quote", X]) e s = eval W c e s from h1.trans (by
    show evSpecial (perform W) (perform W) .syntaxQuote (vlist [X]) e s = _
    simp only [evSpecial, vlist_cons, hc]
    rfl)]
  exact hg s hh ht

theorem EX.nil : EX W h e k .nil 0 .nil := .of fun _ _ => .nil _ _

theorem EX.quote {v : Val} (hs : Sc h e L) (hx : alGet "quote" L = none) : EX W h e k (vlist [.atom "quote", v]) 0 v := .of fun _ hh => .quote (hs.mono hh) hx known_quote

theorem EX.v {a : String} {v : Val} (hs : Sc h e L) (hx : alGet a L = some v) (ha : (isCxr a || a == "t") = false) : EX W h e k (.atom a) 0 v := .of fun _ hh => .v (hs.mono hh) hx ha

theorem EX.cast {x v w : Val} {i : Nat} (hx : EX W h e k x m v) (hn : m = n) (hv : v = w) (hk : k = i) : EX W h e i x n w := by subst hn hv hk; exact hx

theorem EX.cons {x y v w : Val} (hs : Sc h e L) (hl : alGet "cons" L = none) (hx : EX W h e k x m v) (hy : EX W h e (k + m) y n w) :
    EX W h e k (vlist [.atom "cons", x, y]) (m + n) (.cons v w) :=
  .call2 (l := 0) (.core hs hl hd_cons) hx hy (.ret fun _ _ => .bi fun _ _ _ => rfl)

theorem EX.concat2 {x y : Val} {us ws : List Val} (hs : Sc h e L) (hb : Base h 0) (hl : alGet "concat2" L = none) (hx : EX W h e k x m (vlist us)) (hy : EX W h e (k + m) y n (vlist ws)) :
    EX W h e k (vlist [.atom "concat2", x, y]) (m + n) (vlist (us ++ ws)) :=
  .call2 (l := 0) (.core hs hl hd_concat2) hx hy (.ret fun s hh => by
    have := ret_concat2 (W := W) (s := s) (hb.mono hh) us (vlist ws)
    rwa [show mkList us (vlist ws) = vlist (us ++ ws) from by clear hx this; induction us with
      | nil => rfl
      | cons u us ih => exact congrArg (Val.cons u) ih] at this)
end

end L1
