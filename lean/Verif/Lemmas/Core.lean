import Verif.Spec.Core
import Verif.Props.Macros
/-
A small logic for running the core library: `G W s e x v` says that expression `x`, evaluated in scope `e` at any quiet time after `s`, quietly
has the value `v`.
-/
set_option autoImplicit false
namespace L1

variable {W : World}

theorem Quiet.refl (s : St) : Quiet s s := ⟨List.prefix_refl _, rfl, rfl, rfl, rfl, Nat.le_refl _⟩

theorem Quiet.trans {a b c : St} (h1 : Quiet a b) (h2 : Quiet b c) : Quiet a c :=
  ⟨h1.heap.trans h2.heap, h2.out.trans h1.out, h2.inp.trans h1.inp, h2.tick.trans h1.tick, h2.screen.trans h1.screen,
    Nat.le_trans h1.gensym h2.gensym⟩

/-- Only the heap changed, above what there was. -/
theorem Quiet.grow {s s1 : St} (h : Quiet s s1) {h2 : Heap} (hp : s.heap <+: h2) : Quiet s { s1 with heap := h2 } :=
  ⟨hp, h.out, h.inp, h.tick, h.screen, h.gensym⟩

theorem prefix_get {h h' : Heap} (hp : h <+: h') {i : Nat} {f : Frame} (hf : h[i]? = some f) : h'[i]? = some f := by
  obtain ⟨t, rfl⟩ := hp
  rw [List.getElem?_append_left (by
    rcases Nat.lt_or_ge i h.length with hi | hi
    · exact hi
    · rw [List.getElem?_eq_none hi] at hf; cases hf)]
  exact hf

theorem lookupAux_prefix {h h' : Heap} (hp : h <+: h') (ho : Older h) (x : String) (k : Nat) :
    ∀ e, e < h.length → lookupAux h' k e x = lookupAux h k e x := by
  induction k with
  | zero => intro e _; rfl
  | succ k ih =>
    intro e he
    have hf := List.getElem?_eq_getElem he
    have hf' := prefix_get hp hf
    simp only [lookupAux, hf, hf']
    cases alGet x h[e].syms with
    | some v => rfl
    | none =>
      cases hpar : h[e].parent with
      | none => rfl
      | some p => exact ih p (Nat.lt_trans (ho e _ hf p hpar) he)

theorem lookup_prefix {h h' : Heap} (hp : h <+: h') (ho : Older h) {e : Nat} (he : e < h.length) (x : String) :
    lookup h' e x = lookup h e x := lookupAux_prefix hp ho x _ e he

theorem lookupAux_enough {h : Heap} (ho : Older h) (x : String) : ∀ e, e < h.length → ∀ k, e < k → lookupAux h k e x = lookup h e x := by
  intro e
  induction e using Nat.strongRecOn with
  | ind e ih =>
    intro he k hk
    obtain ⟨k, rfl⟩ : ∃ k', k = k' + 1 := ⟨k - 1, by omega⟩
    have hf := List.getElem?_eq_getElem he
    unfold lookup
    simp only [lookupAux, hf]
    cases alGet x h[e].syms with
    | some v => rfl
    | none =>
      cases hpar : h[e].parent with
      | none => rfl
      | some p =>
        have hlt := ho e _ hf p hpar
        simp only []
        rw [ih p hlt (Nat.lt_trans hlt he) k (by omega), ih p hlt (Nat.lt_trans hlt he) e hlt]

theorem Nested.lt {h : Heap} {e : Nat} (hn : Nested h e) : e < h.length := by
  cases hn with
  | top h1 => exact (List.getElem?_eq_some_iff.1 h1).1
  | inside h1 => exact (List.getElem?_eq_some_iff.1 h1).1

theorem CoreAt.lt {h : Heap} {e : Nat} (hc : CoreAt h e) : e < h.length := hc.nested.lt

theorem Older.nested {h : Heap} (ho : Older h) : ∀ e, e < h.length → Nested h e := by
  intro e
  induction e using Nat.strongRecOn with
  | ind e ih =>
    intro he
    have hf := List.getElem?_eq_getElem he
    cases hp : h[e].parent with
    | none => exact .top hf hp
    | some p =>
      have := ho e _ hf p hp
      exact .inside hf hp this (ih p this (Nat.lt_trans this he))

theorem Nested.mono {h h' : Heap} {e : Nat} (hn : Nested h e) (hp : h <+: h') : Nested h' e := by
  induction hn with
  | top h1 h2 => exact .top (prefix_get hp h1) h2
  | inside h1 h2 h3 _ ih => exact .inside (prefix_get hp h1) h2 h3 ih

theorem Nested.lookupAux_prefix {h h' : Heap} {e : Nat} (hn : Nested h e) (hp : h <+: h') (x : String) : ∀ k, lookupAux h' k e x = lookupAux h k e x := by
  induction hn with
  | top h1 h2 =>
    intro k
    cases k with
    | zero => rfl
    | succ k => simp only [lookupAux, h1, prefix_get hp h1, h2]
  | inside h1 h2 h3 _ ih =>
    intro k
    cases k with
    | zero => rfl
    | succ k => simp only [lookupAux, h1, prefix_get hp h1, h2, ih]

theorem Nested.lookup_prefix {h h' : Heap} {e : Nat} (hn : Nested h e) (hp : h <+: h') (x : String) : lookup h' e x = lookup h e x := hn.lookupAux_prefix hp x _

theorem Nested.enough {h : Heap} {e : Nat} (hn : Nested h e) (x : String) : ∀ k, e < k → lookupAux h k e x = lookup h e x := by
  have key : ∀ k k', e < k → e < k' → lookupAux h k e x = lookupAux h k' e x := by
    induction hn with
    | top h1 h2 =>
      intro k k' hk hk'
      obtain ⟨k, rfl⟩ : ∃ j, k = j + 1 := ⟨k - 1, by omega⟩
      obtain ⟨k', rfl⟩ : ∃ j, k' = j + 1 := ⟨k' - 1, by omega⟩
      simp only [lookupAux, h1, h2]
    | inside h1 h2 h3 _ ih =>
      intro k k' hk hk'
      obtain ⟨k, rfl⟩ : ∃ j, k = j + 1 := ⟨k - 1, by omega⟩
      obtain ⟨k', rfl⟩ : ∃ j, k' = j + 1 := ⟨k' - 1, by omega⟩
      simp only [lookupAux, h1, h2, ih k k' (by omega) (by omega)]
  exact fun k hk => key k _ hk (Nat.lt_succ_self _)

theorem CoreAt.mono {h h' : Heap} {e : Nat} (hc : CoreAt h e) (hp : h <+: h') : CoreAt h' e :=
  ⟨hc.nested.mono hp, fun x r hx => by rw [hc.nested.lookup_prefix hp]; exact hc.sees x r hx⟩

/-- Scope `b` sees the core library, and saw it when there were fewer scopes. -/
def Base (h : Heap) (b : Nat) : Prop := ∃ h0, h0 <+: h ∧ CoreAt h0 b

theorem Base.mono {h h' : Heap} {b : Nat} (hb : Base h b) (hp : h <+: h') : Base h' b := by
  obtain ⟨h0, h1, h2⟩ := hb; exact ⟨h0, h1.trans hp, h2⟩

theorem CoreAt.base {h : Heap} {b : Nat} (hc : CoreAt h b) : Base h b := ⟨h, List.prefix_refl _, hc⟩

theorem Base.coreAt {h : Heap} {b : Nat} (hb : Base h b) : CoreAt h b := by
  obtain ⟨h0, h1, h2⟩ := hb; exact h2.mono h1

theorem Base.sees {h : Heap} {b : Nat} (hb : Base h b) {x : String} {r : Option Val} (hx : known x = some r) : lookup h b x = r := by
  obtain ⟨h0, h1, h2⟩ := hb
  rw [h2.nested.lookup_prefix h1]; exact h2.sees x r hx

theorem Base.enough {h : Heap} {b : Nat} (hb : Base h b) {x : String} {k : Nat} (hk : b < k) : lookupAux h k b x = lookup h b x := by
  obtain ⟨h0, h1, h2⟩ := hb
  rw [h2.nested.lookup_prefix h1, h2.nested.lookupAux_prefix h1, h2.nested.enough x k hk]

/-- Scope `e` binds `L` (nearest first) on top of a scope that sees the core library (and perhaps further names, the last ones in `L`). -/
inductive Sc (h : Heap) : Nat → List (String × Val) → Prop
  | base {b : Nat} : Base h b → Sc h b []
  | globals {b : Nat} {L : List (String × Val)} : Base h b → (∀ x v, alGet x L = some v → lookup h b x = some v) → Sc h b L
  | frame {e p : Nat} {syms L : List (String × Val)} : h[e]? = some ⟨syms, some p⟩ → p < e → Sc h p L → Sc h e (syms ++ L)

theorem Sc.mono {h h' : Heap} {e : Nat} {L : List (String × Val)} (hs : Sc h e L) (hp : h <+: h') : Sc h' e L := by
  induction hs with
  | base hb => exact .base (hb.mono hp)
  | globals hb hl => exact .globals (hb.mono hp) fun x v hx => (hb.coreAt.nested.lookup_prefix hp x).trans (hl x v hx)
  | frame h1 h2 _ ih => exact .frame (prefix_get hp h1) h2 ih

theorem Sc.lt {h : Heap} {e : Nat} {L : List (String × Val)} (hs : Sc h e L) : e < h.length := by
  cases hs with
  | base hb => obtain ⟨h0, h1, h2⟩ := hb; exact Nat.lt_of_lt_of_le h2.lt h1.length_le
  | globals hb _ => obtain ⟨h0, h1, h2⟩ := hb; exact Nat.lt_of_lt_of_le h2.lt h1.length_le
  | frame h1 h2 _ =>
    rcases Nat.lt_or_ge e h.length with hi | hi
    · exact hi
    · rw [List.getElem?_eq_none hi] at h1; cases h1

theorem alGet_append (x : String) (l m : List (String × Val)) : alGet x (l ++ m) = (alGet x l).or (alGet x m) := by
  induction l with
  | nil => rfl
  | cons kv l ih =>
    obtain ⟨k, v⟩ := kv
    simp only [List.cons_append, alGet]
    by_cases h : k = x
    · simp [h]
    · simp [h, ih]

theorem Sc.lookupAux {h : Heap} {e : Nat} {L : List (String × Val)} (hs : Sc h e L) (x : String) :
    ∃ b, Base h b ∧ ∀ k, e < k → L1.lookupAux h k e x = (alGet x L).or (lookup h b x) := by
  induction hs with
  | @base b hb => exact ⟨b, hb, fun k hk => by rw [hb.enough hk]; rfl⟩
  | @globals b L hb hl =>
    refine ⟨b, hb, fun k hk => ?_⟩
    rw [hb.enough hk]
    cases hx : alGet x L with
    | none => rfl
    | some v => rw [hl x v hx]; rfl
  | @frame e p syms L h1 h2 _ ih =>
    obtain ⟨b, hb, ih⟩ := ih
    refine ⟨b, hb, fun k hk => ?_⟩
    obtain ⟨k, rfl⟩ : ∃ k', k = k' + 1 := ⟨k - 1, by omega⟩
    simp only [L1.lookupAux, h1, alGet_append]
    cases alGet x syms with
    | some v => rfl
    | none =>
      simp only [Option.none_or]
      exact ih k (by omega)

theorem Sc.lookup_some {h : Heap} {e : Nat} {L : List (String × Val)} (hs : Sc h e L) {x : String} {v : Val} (hx : alGet x L = some v) :
    lookup h e x = some v := by
  obtain ⟨b, _, hl⟩ := hs.lookupAux x
  unfold lookup; rw [hl _ (Nat.lt_succ_self _), hx]; rfl

theorem Sc.lookup_known {h : Heap} {e : Nat} {L : List (String × Val)} (hs : Sc h e L) {x : String} {r : Option Val} (hx : alGet x L = none)
    (hk : known x = some r) : lookup h e x = r := by
  obtain ⟨b, hb, hl⟩ := hs.lookupAux x
  unfold lookup; rw [hl _ (Nat.lt_succ_self _), hx, hb.sees hk]; rfl

/-! ### The judgement -/

theorem G.mono {s s1 : St} {e : Nat} {x v : Val} (h : G W s e x v) (hq : Quiet s s1) : G W s1 e x v := fun s' h' => h s' (hq.trans h')

theorem Returns.mono {s s1 : St} {f v : Val} {vs : List Val} (h : Returns W s f vs v) (hq : Quiet s s1) : Returns W s1 f vs v :=
  fun s' e h' => h s' e (hq.trans h')

theorem G.of_eval {s : St} {e : Nat} {x v : Val} (h : ∀ s', Quiet s s' → eval W x e s' = .ok v s') : G W s e x v :=
  fun s' h' => ⟨s', h s' h', .refl _⟩

theorem G.num (s : St) (e : Nat) (n : Int) : G W s e (.num n) (.num n) := .of_eval fun s' _ => by rw [eval_eq]; rfl
theorem G.nil (s : St) (e : Nat) : G W s e .nil .nil := .of_eval fun s' _ => by rw [eval_eq]; rfl
theorem G.t (s : St) (e : Nat) : G W s e (.atom "t") (.atom "t") := .of_eval fun s' _ => by rw [eval_eq]; rfl

theorem eval_atom_nc {a : String} {e : Nat} {s : St} (hc : isCxr a = false) : eval W (.atom a) e s = evAtom a e s := by
  rw [eval_eq, evalStep_notMacro rfl]
  simp only [evExpr, hc, Bool.false_eq_true, if_false]

theorem eval_atom_bound {a : String} {e : Nat} {s : St} {v : Val} (hc : isCxr a = false) (ht : a ≠ "t") (hl : lookup s.heap e a = some v) :
    eval W (.atom a) e s = .ok v s := by
  rw [eval_atom_nc hc]
  unfold evAtom
  rw [M.ite_neg ht, M.bind_ok (lookupM_run _ _ _), hl]; rfl

theorem eval_atom_bi {a : String} {e : Nat} {s : St} {b : BI} (hc : isCxr a = false) (ht : a ≠ "t") (hl : lookup s.heap e a = none)
    (hb : builtinOf a = some b) : eval W (.atom a) e s = .ok (.bi b) s := by
  rw [eval_atom_nc hc]
  unfold evAtom
  rw [M.ite_neg ht, M.bind_ok (lookupM_run _ _ _), hl]
  simp only [hb]; rfl

/-- A local variable. -/
theorem G.var {s : St} {e : Nat} {L : List (String × Val)} {a : String} {v : Val} (hs : Sc s.heap e L) (hx : alGet a L = some v)
    (hc : isCxr a = false) (ht : a ≠ "t") : G W s e (.atom a) v :=
  .of_eval fun s' h' => eval_atom_bound hc ht ((hs.mono h'.heap).lookup_some hx)

/-- What a name not bound locally stands for. -/
def coreVal (x : String) : Option Val :=
  match known x with
  | some (some v) => some v
  | some none => (builtinOf x).map .bi
  | none => none

/-- A name of the library or a built-in function. -/
theorem G.core {s : St} {e : Nat} {L : List (String × Val)} {a : String} {v : Val} (hs : Sc s.heap e L) (hx : alGet a L = none)
    (hk : coreVal a = some v) (hc : isCxr a = false) (ht : a ≠ "t") : G W s e (.atom a) v := by
  unfold coreVal at hk
  refine .of_eval fun s' h' => ?_
  cases hkn : known a with
  | none => rw [hkn] at hk; cases hk
  | some r =>
    rw [hkn] at hk
    have hl := (hs.mono h'.heap).lookup_known hx hkn
    cases r with
    | some w => cases hk; exact eval_atom_bound hc ht hl
    | none =>
      simp only [Option.map_eq_some_iff] at hk
      obtain ⟨b, hb, rfl⟩ := hk
      exact eval_atom_bi hc ht hl hb

/-! #### Special forms -/

theorem Sc.notMacro_sf {h : Heap} {e : Nat} {L : List (String × Val)} (hs : Sc h e L) {x : String} (hx : alGet x L = none)
    (hk : known x = some none) : NotMacro h e x := by
  intro ps r b dc env he
  rw [hs.lookup_known hx hk] at he; cases he

theorem G.quote {s : St} {e : Nat} {L : List (String × Val)} {v : Val} (hs : Sc s.heap e L) (hx : alGet "quote" L = none)
    (hk : known "quote" = some none) : G W s e (vlist [.atom "quote", v]) v :=
  .of_eval fun s' h' => by
    have := eval_sform W .quote [v] e s' ((hs.mono h'.heap).notMacro_sf hx hk)
    exact this

/-- Evaluating a template is evaluating the code it stands for. -/
theorem G.template {s : St} {e : Nat} {L : List (String × Val)} {T c v : Val} (hs : Sc s.heap e L) (hx : alGet "syntax-quote" L = none)
    (hk : known "syntax-quote" = some none) (hc : syntaxQuote T = some c) (h : G W s e c v) :
    G W s e (vlist [.atom "syntax-quote", T]) v := fun s' h' => by
  have h1 := eval_sform W .syntaxQuote [T] e s' ((hs.mono h'.heap).notMacro_sf hx hk)
  obtain ⟨s'', h2, h3⟩ := h s' h'
  refine ⟨s'', ?_, h3⟩
  refine h1.trans ?_
  show evSpecial (perform W) (perform W) .syntaxQuote (vlist [T]) e s' = _
  simp only [evSpecial, vlist_cons, hc]
  exact h2

/-! #### Clauses of `cond` -/

/-- The clauses of a `cond` quietly lead to `v`. -/
def GC (W : World) (s : St) (e : Nat) (cl : List Val) (v : Val) : Prop :=
  ∀ s', Quiet s s' → ∃ s'', evCond (perform W) (perform W) e (vlist cl) s' = .ok v s'' ∧ Quiet s' s''

theorem GC.none (s : St) (e : Nat) : GC W s e [] .nil := fun s' _ => ⟨s', rfl, .refl _⟩

theorem GC.skip {s : St} {e : Nat} {c v : Val} {b rest : List Val} (h1 : G W s e c .nil) (h2 : GC W s e rest v) :
    GC W s e (vlist (c :: b) :: rest) v := fun s' h' => by
  obtain ⟨s1, e1, q1⟩ := h1 s' h'
  obtain ⟨s2, e2, q2⟩ := h2 s1 (h'.trans q1)
  refine ⟨s2, ?_, q1.trans q2⟩
  simp only [vlist_cons, evCond, perform_eval]
  rw [M.bind_ok (extend_ok e1), M.ite_pos rfl]; exact e2

theorem GC.hit {s : St} {e : Nat} {c w x v : Val} {more rest : List Val} (h1 : G W s e c w) (hw : w ≠ .nil) (h2 : G W s e x v) :
    GC W s e (vlist (c :: x :: more) :: rest) v := fun s' h' => by
  obtain ⟨s1, e1, q1⟩ := h1 s' h'
  obtain ⟨s2, e2, q2⟩ := h2 s1 (h'.trans q1)
  refine ⟨s2, ?_, q1.trans q2⟩
  simp only [vlist_cons, evCond, perform_eval]
  rw [M.bind_ok (extend_ok e1), M.ite_neg hw]; exact e2

theorem G.cond {s : St} {e : Nat} {L : List (String × Val)} {cl : List Val} {v : Val} (hs : Sc s.heap e L) (hx : alGet "cond" L = none)
    (hk : known "cond" = some none) (h : GC W s e cl v) : G W s e (.cons (.atom "cond") (vlist cl)) v := fun s' h' => by
  have h1 := eval_sform W .cond cl e s' ((hs.mono h'.heap).notMacro_sf hx hk)
  obtain ⟨s'', h2, h3⟩ := h s' h'
  exact ⟨s'', h1.trans h2, h3⟩

/-! #### Calls -/

/-- The arguments quietly have these values. -/
inductive GA (W : World) (s : St) (e : Nat) : List Val → List Val → Prop
  | nil : GA W s e [] []
  | cons {x v : Val} {xs vs : List Val} : G W s e x v → GA W s e xs vs → GA W s e (x :: xs) (v :: vs)

theorem GA.evals {s : St} {e : Nat} {xs vs : List Val} (h : GA W s e xs vs) : ∀ s', Quiet s s' → ∃ s'', EvalsTo W e xs s' vs s'' ∧ Quiet s' s'' := by
  induction h with
  | nil => exact fun s' _ => ⟨s', .nil, .refl _⟩
  | cons h1 _ ih =>
    intro s' h'
    obtain ⟨s1, e1, q1⟩ := h1 s' h'
    obtain ⟨s2, e2, q2⟩ := ih s1 (h'.trans q1)
    exact ⟨s2, .cons e1 e2, q1.trans q2⟩

theorem G.callAny {s : St} {e : Nat} {fx f v : Val} {xs vs : List Val} (hh : ∀ s', Quiet s s' → CallHead s'.heap e fx) (hf : G W s e fx f)
    (ha : GA W s e xs vs) (hr : Returns W s f vs v) : G W s e (.cons fx (vlist xs)) v := fun s' h' => by
  obtain ⟨s1, e1, q1⟩ := hf s' h'
  obtain ⟨s2, e2, q2⟩ := ha.evals s1 (h'.trans q1)
  obtain ⟨s3, e3, q3⟩ := hr s2 e ((h'.trans q1).trans q2)
  refine ⟨s3, ?_, (q1.trans q2).trans q3⟩
  rw [eval_reaches (hh s' h') ⟨s1, e1, e2⟩]; exact e3

theorem notMacro_val {f : Val} (h : f.notMacro = true) : ∀ ps r b dc env, f ≠ .lam ps r b dc true env := by
  intro ps r b dc env he; subst he; cases h

/-- A call of a local variable. -/
theorem G.callVar {s : St} {e : Nat} {L : List (String × Val)} {a : String} {f v : Val} {xs vs : List Val} (hs : Sc s.heap e L)
    (hx : alGet a L = some f) (hm : f.notMacro = true) (hsp : specialOf a = none) (hc : isCxr a = false) (ht : a ≠ "t")
    (ha : GA W s e xs vs) (hr : Returns W s f vs v) : G W s e (.cons (.atom a) (vlist xs)) v := by
  refine G.callAny (fun s' h' => callHead_of hsp ?_) (.var hs hx hc ht) ha hr
  intro ps r b dc env he
  rw [(hs.mono h'.heap).lookup_some hx] at he
  exact notMacro_val hm ps r b dc env (Option.some.inj he)

/-- A call of a library or built-in function. -/
theorem G.callCore {s : St} {e : Nat} {L : List (String × Val)} {a : String} {f v : Val} {xs vs : List Val} (hs : Sc s.heap e L)
    (hx : alGet a L = none) (hk : coreVal a = some f) (hm : f.notMacro = true) (hsp : specialOf a = none) (hc : isCxr a = false) (ht : a ≠ "t")
    (ha : GA W s e xs vs) (hr : Returns W s f vs v) : G W s e (.cons (.atom a) (vlist xs)) v := by
  refine G.callAny (fun s' h' => callHead_of hsp ?_) (.core hs hx hk hc ht) ha hr
  intro ps r b dc env he
  unfold coreVal at hk
  cases hkn : known a with
  | none => rw [hkn] at hk; cases hk
  | some w =>
    rw [(hs.mono h'.heap).lookup_known hx hkn] at he
    subst he
    rw [hkn] at hk
    cases hk; cases hm

/-- Built-in functions without effects. -/
theorem Returns.bi {s : St} {b : BI} {vs : List Val} {v : Val} (h : ∀ call e s', biFn W call b vs e s' = .ok v s') : Returns W s (.bi b) vs v :=
  fun s' e _ => ⟨s', by
    unfold callFn
    simp only [evApply]
    refine extend_ok ?_
    rw [perform_eq]; exact h _ e s', .refl _⟩

/-- A function with a body of one form. -/
theorem Returns.lam {s : St} {ps : List String} {r : String} {x doc v : Val} {m : Bool} {cenv : Nat} {vs : List Val} {L0 : List (String × Val)}
    (ha : ArityOk ps r vs) (ht : NoT ps r) (h0 : Sc s.heap cenv L0)
    (h : ∀ s1 e1, Quiet s s1 → Sc s1.heap e1 (paramSyms ps r vs ++ L0) → G W s1 e1 x v) :
    Returns W s (.lam ps r (vlist [x]) doc m cenv) vs v := fun s' e hq => by
  have hq1 : Quiet s' (callSt s' cenv ps r vs) := (Quiet.refl s').grow (List.prefix_append _ _)
  have hsc : Sc (callSt s' cenv ps r vs).heap s'.heap.length (paramSyms ps r vs ++ L0) := by
    refine .frame (p := cenv) ?_ ?_ (h0.mono (hq.trans hq1).heap)
    · simp [callSt]
    · exact (h0.mono hq.heap).lt
  obtain ⟨s'', h1, h2⟩ := h _ _ (hq.trans hq1) hsc _ (.refl _)
  refine ⟨s'', ?_, hq1.trans h2⟩
  unfold callFn
  rw [evApply_lam ha ht]
  exact h1

/-- A function with an empty body. -/
theorem Returns.lam0 {s : St} {ps : List String} {r : String} {doc : Val} {m : Bool} {cenv : Nat} {vs : List Val}
    (ha : ArityOk ps r vs) (ht : NoT ps r) : Returns W s (.lam ps r .nil doc m cenv) vs .nil := fun s' e _ =>
  ⟨callSt s' cenv ps r vs, by unfold callFn; rw [evApply_lam ha ht]; rfl, (Quiet.refl s').grow (List.prefix_append _ _)⟩

/-! #### Macros -/

/-- Evaluating `x` in scope `e`, at any quiet time after `s`, is, after a quiet time, evaluating `y` instead (whatever effects that has). -/
def Becomes (W : World) (s : St) (e : Nat) (x y : Val) : Prop := ∀ s', Quiet s s' → ∃ s1, Quiet s' s1 ∧ eval W x e s' = eval W y e s1

theorem Becomes.g {s : St} {e : Nat} {x y v : Val} (h : Becomes W s e x y) (hy : G W s e y v) : G W s e x v := fun s' h' => by
  obtain ⟨s1, q1, e1⟩ := h s' h'
  obtain ⟨s2, e2, q2⟩ := hy s1 (h'.trans q1)
  exact ⟨s2, e1.trans e2, q1.trans q2⟩

theorem Becomes.trans {s : St} {e : Nat} {x y z : Val} (h : Becomes W s e x y) (h2 : Becomes W s e y z) : Becomes W s e x z := fun s' h' => by
  obtain ⟨s1, q1, e1⟩ := h s' h'
  obtain ⟨s2, q2, e2⟩ := h2 s1 (h'.trans q1)
  exact ⟨s2, q1.trans q2, e1.trans e2⟩

/-- A macro call whose expansion is `y`. -/
theorem Becomes.mac {s : St} {e : Nat} {L : List (String × Val)} {m : String} {ps : List String} {r : String} {bx doc y : Val} {cenv : Nat}
    {xs : List Val} (hs : Sc s.heap e L) (hx : alGet m L = none) (hk : known m = some (some (.lam ps r (vlist [bx]) doc true cenv)))
    (ha : ArityOk ps r xs) (ht : NoT ps r)
    (hb : ∀ s1 e1, Quiet s s1 → Sc s1.heap e1 (paramSyms ps r xs ++ L) → G W s1 e1 bx y) :
    Becomes W s e (.cons (.atom m) (vlist xs)) y := fun s' h' => by
  have hs' := hs.mono h'.heap
  have hq1 : Quiet s' (callSt s' e ps r xs) := (Quiet.refl s').grow (List.prefix_append _ _)
  have hsc : Sc (callSt s' e ps r xs).heap s'.heap.length (paramSyms ps r xs ++ L) := by
    refine .frame (p := e) ?_ hs'.lt (hs'.mono hq1.heap)
    simp [callSt]
  obtain ⟨s2, e2, q2⟩ := hb _ _ (h'.trans hq1) hsc _ (.refl _)
  have hst : MacroStep W e (form m xs) s' ([y].getLastD .nil) s2 :=
    .mk (hs'.lookup_known hx hk) ha ht (callScope_callSt _ _ _ _ _) rfl (.cons e2 .nil)
  exact ⟨s2, hq1.trans q2, C36_expansion W e _ _ _ _ hst⟩

/-! #### `let` -/

/-- The bindings of a `let`: the names, in order, and their values. -/
inductive GB (W : World) (s : St) (e : Nat) : List Val → List (String × Val) → Prop
  | nil : GB W s e [] []
  | cons {n : String} {x v : Val} {bs : List Val} {l : List (String × Val)} : n ≠ "t" → G W s e x v → GB W s e bs l →
    GB W s e (vlist [.atom n, x] :: bs) ((n, v) :: l)

/-- The scope made by the bindings. -/
def letSyms (l : List (String × Val)) : List (String × Val) := l.foldl (fun a nv => alSet nv.1 nv.2 a) []

theorem heapSet_at {h : Heap} {e : Nat} {f : Frame} {x : String} {v : Val} (hf : h[e]? = some f) :
    (heapSet h e x v)[e]? = some { f with syms := alSet x v f.syms } := by
  rw [heapSet_get]; simp [hf]

theorem prefix_heapSet {h0 h : Heap} (hp : h0 <+: h) {e : Nat} (he : h0.length ≤ e) (x : String) (v : Val) : h0 <+: heapSet h e x v := by
  obtain ⟨t, rfl⟩ := hp
  refine ⟨heapSet t (e - h0.length) x v, ?_⟩
  unfold heapSet
  induction h0 generalizing e with
  | nil => rfl
  | cons g h0 ih =>
    obtain ⟨e, rfl⟩ : ∃ e', e = e' + 1 := ⟨e - 1, by simp at he; omega⟩
    simp only [List.length_cons, Nat.add_sub_add_right, List.cons_append, List.modify_succ_cons]
    exact congrArg _ (ih (by simpa using he))

theorem GB.run {s : St} {e : Nat} {bs : List Val} {l : List (String × Val)} (h : GB W s e bs l) :
    ∀ (s0 s1 : St) (ne : Nat) (syms : List (String × Val)) (p : Option Nat), Quiet s s0 → Quiet s0 s1 → s0.heap.length ≤ ne → s1.heap[ne]? = some ⟨syms, p⟩ →
    ∃ s2, evLetBinds (perform W) e ne (vlist bs) s1 = .ok true s2 ∧ Quiet s0 s2 ∧
      s2.heap[ne]? = some ⟨l.foldl (fun a nv => alSet nv.1 nv.2 a) syms, p⟩ := by
  induction h with
  | nil => intro s0 s1 ne syms p _ h1 _ h3; exact ⟨s1, rfl, h1, h3⟩
  | @cons n x v bs l ht hg _ ih =>
    intro s0 s1 ne syms p hq h1 h2 h3
    obtain ⟨s2, e2, q2⟩ := hg s1 (hq.trans h1)
    have h4 := prefix_get q2.heap h3
    have hset : setM ne n v s2 = .ok () { s2 with heap := heapSet s2.heap ne n v } := by
      unfold setM; rw [if_neg ht]
    obtain ⟨s3, e3, q3, f3⟩ := ih s0 { s2 with heap := heapSet s2.heap ne n v } ne (alSet n v syms) p hq
      ((h1.trans q2).grow (prefix_heapSet (h1.trans q2).heap h2 _ _)) h2 (heapSet_at h4)
    refine ⟨s3, ?_, q3, f3⟩
    simp only [vlist_cons, evLetBinds, perform_eval]
    rw [M.bind_ok (extend_ok e2), M.bind_ok (extend_ok hset)]
    exact e3

theorem G.letMany {s : St} {e : Nat} {L : List (String × Val)} {bs : List Val} {l : List (String × Val)} {body : List Val} {v : Val}
    (hs : Sc s.heap e L) (hx : alGet "let" L = none) (hk : known "let" = some none) (hb : GB W s e bs l)
    (h : ∀ s1 e1, Quiet s s1 → Sc s1.heap e1 (letSyms l ++ L) →
      ∃ s2, evBodyTail (perform W) (perform W) (fun _ => msgList "evaluating let body") e1 (vlist body) s1 = .ok v s2 ∧ Quiet s1 s2) :
    G W s e (.cons (.atom "let") (.cons (vlist bs) (vlist body))) v := fun s' h' => by
  have h1 := eval_sform W .let_ (vlist bs :: body) e s' ((hs.mono h'.heap).notMacro_sf hx hk)
  have hq1 : Quiet s' { s' with heap := s'.heap ++ [⟨[], some e⟩] } := (Quiet.refl s').grow (List.prefix_append _ _)
  obtain ⟨s2, e2, q2, f2⟩ := hb.run s' { s' with heap := s'.heap ++ [⟨[], some e⟩] } s'.heap.length [] (some e) h' hq1 (Nat.le_refl _) (by simp)
  obtain ⟨s3, e3, q3⟩ := h s2 s'.heap.length (h'.trans q2) (.frame f2 ((hs.mono h'.heap).lt) (hs.mono (h'.trans q2).heap))
  refine ⟨s3, h1.trans ?_, q2.trans q3⟩
  simp only [evSpecial, vlist_cons, evLet, isList_vlist, if_true]
  rw [M.bind_ok (newEnvM_run _ _), M.bind_ok e2, M.ite_pos rfl]
  exact e3

/-- A `let` with a body of one form. -/
theorem G.let1 {s : St} {e : Nat} {L : List (String × Val)} {bs : List Val} {l : List (String × Val)} {x v : Val}
    (hs : Sc s.heap e L) (hx : alGet "let" L = none) (hk : known "let" = some none) (hb : GB W s e bs l)
    (h : ∀ s1 e1, Quiet s s1 → Sc s1.heap e1 (letSyms l ++ L) → G W s1 e1 x v) :
    G W s e (vlist [.atom "let", vlist bs, x]) v :=
  G.letMany (body := [x]) hs hx hk hb fun s1 e1 h1 h2 => h s1 e1 h1 h2 s1 (.refl _)

/-- An anonymous function. -/
theorem G.lambda {s : St} {e : Nat} {L : List (String × Val)} {a v : Val} {body : List Val} (hs : Sc s.heap e L) (hx : alGet "lambda" L = none)
    (hk : known "lambda" = some none) (h : ∀ s', mkLambda (vlist (a :: body)) false e s' = .ok v s') :
    G W s e (.cons (.atom "lambda") (vlist (a :: body))) v :=
  .of_eval fun s' h' => (eval_sform W .lambda (a :: body) e s' ((hs.mono h'.heap).notMacro_sf hx hk)).trans (h s')

/-! ### Values described by a property -/

/-- `x` in scope `e`, at any quiet time after `s`, quietly has a value with property `P`. -/
def GP (W : World) (s : St) (e : Nat) (x : Val) (P : St → Val → Prop) : Prop :=
  ∀ s', Quiet s s' → ∃ v s'', eval W x e s' = .ok v s'' ∧ Quiet s' s'' ∧ P s'' v

/-- A property that lasts. -/
def Lasts {α : Type} (P : St → α → Prop) : Prop := ∀ s s' v, Quiet s s' → P s v → P s' v

theorem GP.mono {s s1 : St} {e : Nat} {x : Val} {P : St → Val → Prop} (h : GP W s e x P) (hq : Quiet s s1) : GP W s1 e x P :=
  fun s' h' => h s' (hq.trans h')

theorem Makes.mono {s s1 : St} {f : Val} {vs : List Val} {P : St → Val → Prop} (h : Makes W s f vs P) (hq : Quiet s s1) : Makes W s1 f vs P :=
  fun s' e h' => h s' e (hq.trans h')

theorem Makes.weaken {s : St} {f : Val} {vs : List Val} {P Q : St → Val → Prop} (h : Makes W s f vs P) (hq : ∀ s1 v, Quiet s s1 → P s1 v → Q s1 v) : Makes W s f vs Q :=
  fun s' e h' => by
    obtain ⟨v, s2, h1, h2, h3⟩ := h s' e h'
    exact ⟨v, s2, h1, h2, hq _ _ (h'.trans h2) h3⟩

theorem GP.weaken {s : St} {e : Nat} {x : Val} {P Q : St → Val → Prop} (h : GP W s e x P) (hq : ∀ s1 v, Quiet s s1 → P s1 v → Q s1 v) : GP W s e x Q :=
  fun s' h' => by
    obtain ⟨v, s2, h1, h2, h3⟩ := h s' h'
    exact ⟨v, s2, h1, h2, hq _ _ (h'.trans h2) h3⟩

theorem Returns.makes {s : St} {f v : Val} {vs : List Val} {P : St → Val → Prop} (h : Returns W s f vs v) (hp : ∀ s1, Quiet s s1 → P s1 v) : Makes W s f vs P :=
  fun s' e h' => by
    obtain ⟨s2, h1, h2⟩ := h s' e h'
    exact ⟨v, s2, h1, h2, hp _ (h'.trans h2)⟩

theorem G.gp {s : St} {e : Nat} {x v : Val} {P : St → Val → Prop} (h : G W s e x v) (hp : ∀ s1, Quiet s s1 → P s1 v) : GP W s e x P := fun s' h' => by
  obtain ⟨s2, h1, h2⟩ := h s' h'
  exact ⟨v, s2, h1, h2, hp _ (h'.trans h2)⟩

theorem Becomes.gp {s : St} {e : Nat} {x y : Val} {P : St → Val → Prop} (h : Becomes W s e x y) (hy : GP W s e y P) : GP W s e x P := fun s' h' => by
  obtain ⟨s1, q1, e1⟩ := h s' h'
  obtain ⟨v, s2, e2, q2, p⟩ := hy s1 (h'.trans q1)
  exact ⟨v, s2, e1.trans e2, q1.trans q2, p⟩

end L1
