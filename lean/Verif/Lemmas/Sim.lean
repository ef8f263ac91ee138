import Verif.Lemmas.Ren
/-
Two runs of the interpreter on states that differ by a renumbering of scopes, by extra scopes nobody refers to, and by what was printed before.
-/
set_option autoImplicit false
namespace L1

/-- A renumbering and the fixed differences: the texts printed before, the extra scopes of the second state, and the names issued before. -/
structure Rn where
  ρ : Nat → Nat
  o : List Char
  o' : List Char
  extra : Heap
  i : List String
  i' : List String

/-- The two states correspond. -/
structure SR (R : Rn) (s s' : St) : Prop where
  inj : ∀ i j, R.ρ i = R.ρ j → i = j
  up : ∀ (i : Nat) (f : Frame) (p : Nat), s.heap[i]? = some f → f.parent = some p → R.ρ p < R.ρ i
  frame : ∀ i : Nat, s'.heap[R.ρ i]? = (s.heap[i]?).map (Frame.ren R.ρ)
  len : ∀ k, R.ρ (s.heap.length + k) = s'.heap.length + k
  rest : ∀ j : Nat, (∀ i, R.ρ i ≠ j) → s'.heap[j]? = R.extra[j]?
  out : ∃ d, s.out = R.o ++ d ∧ s'.out = R.o' ++ d
  inp : s'.inp = s.inp
  gensym : s'.gensym = s.gensym
  tick : s'.tick = s.tick
  screen : s'.screen = s.screen
  issued : ∃ d, s.issued = R.i ++ d ∧ s'.issued = R.i' ++ d

/-- The two outcomes correspond; `f` renumbers the value. -/
def RR {α : Type} (R : Rn) (f : α → α) : Res α → Res α → Prop
  | .ok a s, .ok a' s' => a' = f a ∧ SR R s s'
  | .err e s, .err e' s' => e' = e.ren R.ρ ∧ SR R s s'
  | .crash w s, .crash w' s' => w' = w ∧ SR R s s'
  | .exit c s, .exit c' s' => c = c' ∧ SR R s s'
  | .overflow s, .overflow s' => SR R s s'
  | .oof, .oof => True
  | _, _ => False

/-- `m` is safe and `m'` does the same as `m` on corresponding states. -/
structure Sim {α : Type} (R : Rn) (n : Nat) (Q : Nat → α → Prop) (f : α → α) (m m' : M α) : Prop where
  safe : Safe n Q m
  rel : ∀ s s', Inv s → SR R s s' → n ≤ s.heap.length → RR R f (m s) (m' s')

variable {R : Rn}

theorem SR.lt {s s' : St} (h : SR R s s') {i : Nat} (hi : i < s.heap.length) : R.ρ i < s'.heap.length := by
  refine Classical.byContradiction fun hn => ?_
  have h1 := h.len (R.ρ i - s'.heap.length)
  have h2 := h.inj (s.heap.length + (R.ρ i - s'.heap.length)) i (h1.trans (by omega))
  omega

/-- A renumbering that keeps the order. -/
theorem SR.inj_of_mono {ρ : Nat → Nat} (h : ∀ i j, i < j → ρ i < ρ j) (i j : Nat) (hij : ρ i = ρ j) : i = j := by
  rcases Nat.lt_trichotomy i j with h1 | h1 | h1
  · have := h _ _ h1; omega
  · exact h1
  · have := h _ _ h1; omega

theorem SR.up_of_mono {ρ : Nat → Nat} {s : St} (hi : Inv s) (h : ∀ i j, i < j → ρ i < ρ j) (i : Nat) (f : Frame) (p : Nat) (hf : s.heap[i]? = some f)
    (hp : f.parent = some p) : ρ p < ρ i := by
  have := hi.heap.parent i f hf
  rw [hp] at this
  exact h _ _ this

/-! ### Sequencing -/

theorem Sim.bind {α β : Type} {n : Nat} {Q : Nat → α → Prop} {Q2 : Nat → β → Prop} {f : α → α} {g : β → β} {m m' : M α} {F F' : α → M β}
    (hm : Sim R n Q f m m') (hF : ∀ k a, n ≤ k → Q k a → Sim R k Q2 g (F a) (F' (f a))) : Sim R n Q2 g (m >>= F) (m' >>= F') := by
  refine ⟨.bind hm.safe fun k a hk hq => (hF k a hk hq).safe, fun s s' hi hr hn => ?_⟩
  have h1 := hm.rel s s' hi hr hn
  have h2 := hm.safe s hi hn
  rw [M.bind_run, M.bind_run]
  cases hms : m s <;> cases hms' : m' s' <;> rw [hms, hms'] at h1 <;> try (exact h1.elim)
  case ok a s1 a' s1' =>
    rw [hms] at h2
    obtain ⟨rfl, h1⟩ := h1
    exact (hF _ a (Nat.le_trans hn h2.2.1.heap.len) h2.2.2).rel s1 s1' h2.1 h1 (Nat.le_refl _)
  all_goals exact h1

theorem Sim.mono {α : Type} {n n' : Nat} {Q : Nat → α → Prop} {f : α → α} {m m' : M α} (h : n ≤ n') (hm : Sim R n Q f m m') : Sim R n' Q f m m' :=
  ⟨hm.safe.mono h, fun s s' hi hr hn => hm.rel s s' hi hr (Nat.le_trans h hn)⟩

theorem Sim.pure {α : Type} {n : Nat} {Q : Nat → α → Prop} {f : α → α} {a a' : α} (h : ∀ k, n ≤ k → Q k a) (ha : a' = f a) :
    Sim R n Q f (pure a) (pure a') := ⟨.pure h, fun _ _ _ hr _ => ⟨ha, hr⟩⟩

theorem Sim.pureV {n : Nat} {v v' : Val} (h : VOk n v) (hv : v' = v.ren R.ρ := by rfl) : Sim R n VQ (Val.ren R.ρ) (Pure.pure v) (Pure.pure v') :=
  .pure (fun _ hk => h.mono hk) hv

theorem Sim.unit {n : Nat} : Sim R n TQ id (Pure.pure () : M Unit) (Pure.pure ()) := .pure (fun _ _ => trivial) rfl

theorem Sim.ite {α : Type} {n : Nat} {Q : Nat → α → Prop} {f : α → α} {c c' : Prop} [Decidable c] [Decidable c'] {a b a' b' : M α}
    (hc : c' ↔ c) (h1 : c → Sim R n Q f a a') (h2 : ¬ c → Sim R n Q f b b') : Sim R n Q f (if c then a else b) (if c' then a' else b') := by
  by_cases h : c
  · rw [if_pos h, if_pos (hc.2 h)]; exact h1 h
  · rw [if_neg h, if_neg (fun h' => h (hc.1 h'))]; exact h2 h

theorem Sim.throwBase {α : Type} {n : Nat} {Q : Nat → α → Prop} {f : α → α} {m m' : String} (h : m' = m := by first | with_reducible rfl | simp) :
    Sim R n Q f (throwBase m) (throwBase m') := by
  subst h
  exact ⟨.throwBase, fun s s' _ hr _ => ⟨by simp [Err.ren, Val.ren], hr⟩⟩

theorem Sim.throwUser {α : Type} {n : Nat} {Q : Nat → α → Prop} {f : α → α} {v : Val} (h : VOk n v) :
    Sim R n Q f (throwUser v) (throwUser (v.ren R.ρ)) := ⟨.throwUser h, fun _ _ _ hr _ => ⟨rfl, hr⟩⟩

theorem Sim.throwErr {α : Type} {n : Nat} {Q : Nat → α → Prop} {f : α → α} {e : Err} (h : EOk n e) :
    Sim R n Q f (throwErr e) (throwErr (e.ren R.ρ)) := ⟨.throwErr h, fun _ _ _ hr _ => ⟨rfl, hr⟩⟩

theorem Sim.throwForeign {α : Type} {n : Nat} {Q : Nat → α → Prop} {f : α → α} {m : String} :
    Sim R n Q f (throwForeign m) (throwForeign m) := ⟨.throwForeign, fun _ _ _ hr _ => ⟨rfl, hr⟩⟩

theorem Sim.crash {α : Type} {n : Nat} {Q : Nat → α → Prop} {f : α → α} {m : String} (hm : m ≠ "watch" := by decide) :
    Sim R n Q f (crash m) (crash m) := ⟨.crash hm, fun _ _ _ hr _ => ⟨rfl, hr⟩⟩

theorem Sim.exitM {α : Type} {c : Nat} {n : Nat} {Q : Nat → α → Prop} {f : α → α} : Sim R n Q f (exitM c : M α) (exitM c) := ⟨.exitM, fun _ _ _ hr _ => ⟨rfl, hr⟩⟩

theorem Sim.oof {α : Type} {n : Nat} {Q : Nat → α → Prop} {f : α → α} : Sim R n Q f (fun _ => .oof : M α) (fun _ => .oof) :=
  ⟨.oof, fun _ _ _ _ _ => trivial⟩

theorem extendErr_ren (fr : Val) (e : Err) : (extendErr fr e).ren R.ρ = extendErr (fr.ren R.ρ) (e.ren R.ρ) := by cases e <;> rfl

theorem Sim.extendWith {α : Type} {n : Nat} {Q : Nat → α → Prop} {f : α → α} {m m' : M α} {fr fr' : Val} (hf : VOk n fr) (hfr : fr' = fr.ren R.ρ)
    (h : Sim R n Q f m m') : Sim R n Q f (extendWith fr m) (extendWith fr' m') := by
  subst hfr
  refine ⟨.extendWith hf h.safe, fun s s' hi hr hn => ?_⟩
  have h1 := h.rel s s' hi hr hn
  rw [extendWith_run, extendWith_run]
  cases hms : m s <;> cases hms' : m' s' <;> rw [hms, hms'] at h1 <;> try (exact h1.elim)
  case err e s1 e' s1' =>
    obtain ⟨rfl, h1⟩ := h1
    exact ⟨(extendErr_ren _ _).symm, h1⟩
  all_goals exact h1

theorem Sim.extend {α : Type} {n : Nat} {Q : Nat → α → Prop} {f : α → α} {m m' : M α} {msg msg' : String}
    (h : Sim R n Q f m m') (hm : msg' = msg := by rfl) : Sim R n Q f (extend msg m) (extend msg' m') :=
  .extendWith (vok_msgList _ _) (by rw [hm, ren_msgList]) h

/-- Renumbering of an attempt's result. -/
def aren {α : Type} (R : Rn) (f : α → α) : Except Err α → Except Err α
  | .ok a => .ok (f a)
  | .error e => .error (e.ren R.ρ)

theorem Sim.attempt {α : Type} {n : Nat} {Q : Nat → α → Prop} {f : α → α} {m m' : M α} (h : Sim R n Q f m m') :
    Sim R n (AQ Q) (aren R f) (attempt m) (attempt m') := by
  refine ⟨.attempt h.safe, fun s s' hi hr hn => ?_⟩
  have h1 := h.rel s s' hi hr hn
  rw [attempt_run, attempt_run]
  cases hms : m s <;> cases hms' : m' s' <;> rw [hms, hms'] at h1 <;> try (exact h1.elim)
  case err e s1 e' s1' =>
    obtain ⟨rfl, h1⟩ := h1
    exact ⟨rfl, h1⟩
  case ok e s1 e' s1' =>
    obtain ⟨rfl, h1⟩ := h1
    exact ⟨rfl, h1⟩
  all_goals exact h1

/-! ### Scopes -/

theorem SR.parent {s s' : St} (hi : Inv s) {i p : Nat} {f : Frame} (hf : s.heap[i]? = some f) (hp : f.parent = some p) : p < i := by
  have := hi.heap.parent i f hf
  rw [hp] at this
  exact this

theorem SR.lookupAux {s s' : St} (h : SR R s s') (hi : Inv s) (x : String) :
    ∀ k k' e : Nat, e < k → R.ρ e < k' → lookupAux s'.heap k' (R.ρ e) x = (lookupAux s.heap k e x).map (Val.ren R.ρ) := by
  intro k
  induction k with
  | zero => intro k' e h1; omega
  | succ k ih =>
    intro k' e h1 h2
    cases k' with
    | zero => omega
    | succ k' =>
      simp only [L1.lookupAux, h.frame e]
      cases hf : s.heap[e]? with
      | none => rfl
      | some f =>
        simp only [Option.map_some, Frame.ren, ren_alGet]
        cases alGet x f.syms with
        | some v => rfl
        | none =>
          simp only [Option.map_none]
          cases hp : f.parent with
          | none => rfl
          | some p =>
            have := SR.parent (s' := s') hi hf hp
            have := h.up e f p hf hp
            exact ih k' p (by omega) (by omega)

theorem SR.lookup {s s' : St} (h : SR R s s') (hi : Inv s) (e : Nat) (x : String) :
    lookup s'.heap (R.ρ e) x = (lookup s.heap e x).map (Val.ren R.ρ) :=
  h.lookupAux hi x _ _ e (by omega) (by omega)

theorem SR.ownerAux {s s' : St} (h : SR R s s') (hi : Inv s) (x : String) :
    ∀ k k' e : Nat, e < k → R.ρ e < k' → ownerAux s'.heap k' (R.ρ e) x = (ownerAux s.heap k e x).map R.ρ := by
  intro k
  induction k with
  | zero => intro k' e h1; omega
  | succ k ih =>
    intro k' e h1 h2
    cases k' with
    | zero => omega
    | succ k' =>
      simp only [L1.ownerAux, h.frame e]
      cases hf : s.heap[e]? with
      | none => rfl
      | some f =>
        simp only [Option.map_some, Frame.ren, ren_alGet]
        cases alGet x f.syms with
        | some v => rfl
        | none =>
          simp only [Option.map_none]
          cases hp : f.parent with
          | none => rfl
          | some p =>
            have := SR.parent (s' := s') hi hf hp
            have := h.up e f p hf hp
            exact ih k' p (by omega) (by omega)

theorem SR.owner {s s' : St} (h : SR R s s') (hi : Inv s) (e : Nat) (x : String) :
    owner s'.heap (R.ρ e) x = (owner s.heap e x).map R.ρ :=
  h.ownerAux hi x _ _ e (by omega) (by omega)

theorem SR.rootAux {s s' : St} (h : SR R s s') (hi : Inv s) :
    ∀ k k' e : Nat, e < k → R.ρ e < k' → rootAux s'.heap k' (R.ρ e) = R.ρ (rootAux s.heap k e) := by
  intro k
  induction k with
  | zero => intro k' e h1; omega
  | succ k ih =>
    intro k' e h1 h2
    cases k' with
    | zero => omega
    | succ k' =>
      simp only [L1.rootAux, h.frame e]
      cases hf : s.heap[e]? with
      | none => rfl
      | some f =>
        simp only [Option.map_some, Frame.ren]
        cases hp : f.parent with
        | none => rfl
        | some p =>
          have := SR.parent (s' := s') hi hf hp
          have := h.up e f p hf hp
          exact ih k' p (by omega) (by omega)

theorem SR.root {s s' : St} (h : SR R s s') (hi : Inv s) (e : Nat) : root s'.heap (R.ρ e) = R.ρ (root s.heap e) :=
  h.rootAux hi _ _ e (by omega) (by omega)

theorem SR.envKeys {s s' : St} (h : SR R s s') (hi : Inv s) :
    ∀ k k' e : Nat, e < k → R.ρ e < k' → envKeysAux s'.heap k' (R.ρ e) = envKeysAux s.heap k e := by
  intro k
  induction k with
  | zero => intro k' e h1; omega
  | succ k ih =>
    intro k' e h1 h2
    cases k' with
    | zero => omega
    | succ k' =>
      simp only [L1.envKeysAux, h.frame e]
      cases hf : s.heap[e]? with
      | none => rfl
      | some f =>
        simp only [Option.map_some, Frame.ren, List.map_map, Function.comp_def]
        cases hp : f.parent with
        | none => rfl
        | some p =>
          have := SR.parent (s' := s') hi hf hp
          have := h.up e f p hf hp
          simp only [Option.map_some]
          rw [ih k' p (by omega) (by omega)]

theorem SR.heapSet {s s' : St} (h : SR R s s') (e : Nat) (x : String) (v : Val) :
    SR R { s with heap := heapSet s.heap e x v } { s' with heap := heapSet s'.heap (R.ρ e) x (v.ren R.ρ) } where
  inj := h.inj
  up i f p hf hp := by
    have hf : (L1.heapSet s.heap e x v)[i]? = some f := hf
    simp only [L1.heapSet, List.getElem?_modify] at hf
    obtain ⟨g, hg, rfl⟩ := Option.map_eq_some_iff.1 hf
    exact h.up i g p hg (by split at hp <;> exact hp)
  frame i := by
    show (L1.heapSet s'.heap (R.ρ e) x (v.ren R.ρ))[R.ρ i]? = ((L1.heapSet s.heap e x v)[i]?).map (Frame.ren R.ρ)
    simp only [L1.heapSet, List.getElem?_modify, h.frame i]
    by_cases hei : e = i
    · subst hei
      simp only [if_true]
      cases s.heap[e]? with
      | none => rfl
      | some f => simp [Frame.ren, ren_alSet]
    · have h' : ¬ R.ρ e = R.ρ i := fun h' => hei (h.inj _ _ h')
      simp only [h', hei, if_false]
      cases s.heap[i]? <;> rfl
  len k := by
    show R.ρ ((L1.heapSet s.heap e x v).length + k) = (L1.heapSet s'.heap (R.ρ e) x (v.ren R.ρ)).length + k
    simp only [L1.heapSet, List.length_modify]
    exact h.len k
  rest j hj := by
    show (L1.heapSet s'.heap (R.ρ e) x (v.ren R.ρ))[j]? = _
    simp only [L1.heapSet, List.getElem?_modify, if_neg (hj e)]
    rw [h.rest j hj]
    simp
  out := h.out
  inp := h.inp
  gensym := h.gensym
  tick := h.tick
  screen := h.screen
  issued := h.issued

theorem SR.newEnv {s s' : St} (h : SR R s s') (p : Nat) (hp : p < s.heap.length) :
    SR R { s with heap := s.heap ++ [⟨[], some p⟩] } { s' with heap := s'.heap ++ [⟨[], some (R.ρ p)⟩] } where
  inj := h.inj
  up i f q hf hq := by
    have hf : (s.heap ++ [⟨[], some p⟩])[i]? = some f := hf
    rcases Nat.lt_trichotomy i s.heap.length with hl | rfl | hl
    · rw [List.getElem?_append_left hl] at hf
      exact h.up i f q hf hq
    · rw [List.getElem?_append_right (Nat.le_refl _)] at hf
      simp at hf
      subst hf
      cases hq
      have := h.lt hp
      have h2 := h.len 0
      simp only [Nat.add_zero] at h2
      omega
    · rw [List.getElem?_eq_none (by simp; omega)] at hf; cases hf
  frame i := by
    show (s'.heap ++ [⟨[], some (R.ρ p)⟩])[R.ρ i]? = ((s.heap ++ [⟨[], some p⟩])[i]?).map (Frame.ren R.ρ)
    by_cases hi : i < s.heap.length
    · have h1 : R.ρ i < s'.heap.length := h.lt hi
      rw [List.getElem?_append_left h1, List.getElem?_append_left hi, h.frame i]
    · obtain ⟨k, rfl⟩ : ∃ k, i = s.heap.length + k := ⟨i - s.heap.length, by omega⟩
      rw [h.len k, List.getElem?_append_right (by omega), List.getElem?_append_right (by omega)]
      simp only [Nat.add_sub_cancel_left]
      cases k <;> rfl
  len k := by
    show R.ρ ((s.heap ++ [_]).length + k) = (s'.heap ++ [_]).length + k
    simp only [List.length_append, List.length_singleton]
    have := h.len (1 + k)
    rw [show s.heap.length + 1 + k = s.heap.length + (1 + k) by omega, this]; omega
  rest j hj := by
    show (s'.heap ++ [⟨[], some (R.ρ p)⟩])[j]? = _
    have h1 : j < s'.heap.length := by
      refine Classical.byContradiction fun hn => ?_
      have := h.len (j - s'.heap.length)
      exact hj _ (this.trans (by omega))
    rw [List.getElem?_append_left h1, h.rest j hj]
  out := h.out
  inp := h.inp
  gensym := h.gensym
  tick := h.tick
  screen := h.screen
  issued := h.issued

/-! ### Primitives -/

theorem Sim.lookupM {n : Nat} (e : Nat) (x : String) :
    Sim R n (fun k o => ∀ v, o = some v → VOk k v) (Option.map (Val.ren R.ρ)) (lookupM e x) (lookupM (R.ρ e) x) :=
  ⟨.lookupM e x, fun _ _ hi hr _ => ⟨hr.lookup hi e x, hr⟩⟩

theorem Sim.isMacroCallM {n : Nat} (x : Val) (e : Nat) : Sim R n TQ id (isMacroCallM x e) (isMacroCallM (x.ren R.ρ) (R.ρ e)) :=
  ⟨.isMacroCallM x e, fun _ _ hi hr _ => ⟨ren_isMacroCallIn (fun f => hr.lookup hi e f) x, hr⟩⟩

theorem Sim.newEnvM {n p : Nat} (hp : p < n) : Sim R n (fun k i => i < k) R.ρ (newEnvM p) (newEnvM (R.ρ p)) := by
  refine ⟨.newEnvM hp, fun s s' hi hr hn => ⟨?_, hr.newEnv p (Nat.lt_of_lt_of_le hp hn)⟩⟩
  have := hr.len 0
  simp only [Nat.add_zero] at this
  exact this.symm

theorem Sim.setM {n e : Nat} {x : String} {v : Val} (hv : VOk n v) : Sim R n TQ id (setM e x v) (setM (R.ρ e) x (v.ren R.ρ)) := by
  refine ⟨.setM hv, fun s s' hi hr hn => ?_⟩
  unfold L1.setM
  by_cases hx : x = "t"
  · simp only [hx, if_true]
    exact (Sim.throwBase (n := n) (Q := TQ) (f := (id : Unit → Unit)) rfl).rel s s' hi hr hn
  · simp only [hx, if_false]
    exact ⟨rfl, hr.heapSet e x v⟩

theorem Sim.setTopM {n e : Nat} {x : String} {v : Val} (hv : VOk n v) : Sim R n TQ id (setTopM e x v) (setTopM (R.ρ e) x (v.ren R.ρ)) := by
  refine ⟨.setTopM hv, fun s s' hi hr hn => ?_⟩
  unfold L1.setTopM
  rw [hr.root hi e]
  exact (Sim.setM hv).rel s s' hi hr hn

theorem Sim.updateM {n e : Nat} {x : String} {v : Val} (hv : VOk n v) : Sim R n TQ id (updateM e x v) (updateM (R.ρ e) x (v.ren R.ρ)) := by
  refine ⟨.updateM hv, fun s s' hi hr hn => ?_⟩
  unfold L1.updateM
  by_cases hx : x = "t"
  · simp only [hx, if_true]
    exact (Sim.throwBase (n := n) (Q := TQ) (f := (id : Unit → Unit)) rfl).rel s s' hi hr hn
  · simp only [hx, if_false]
    rw [hr.owner hi e x]
    cases L1.owner s.heap e x with
    | none => exact (Sim.throwBase (n := n) (Q := TQ) (f := (id : Unit → Unit)) rfl).rel s s' hi hr hn
    | some o => exact ⟨rfl, hr.heapSet o x v⟩

theorem Sim.printM {n : Nat} {cs cs' : List Char} (h : cs' = cs := by rfl) : Sim R n TQ id (printM cs) (printM cs') := by
  subst h
  refine ⟨.printM, fun s s' _ hr _ => ⟨rfl, ?_⟩⟩
  obtain ⟨d, h1, h2⟩ := hr.out
  exact ⟨hr.inj, hr.up, hr.frame, hr.len, hr.rest, ⟨d ++ cs', by simp [h1], by simp [h2]⟩, hr.inp, hr.gensym, hr.tick, hr.screen, hr.issued⟩

theorem Sim.askM {α : Type} {n : Nat} {f : Nat → α} {Q : Nat → α → Prop} (h : ∀ k t, n ≤ k → Q k (f t)) : Sim R n Q id (askM f) (askM f) := by
  refine ⟨.askM h, fun s s' _ hr _ => ⟨by rw [hr.tick]; rfl, ?_⟩⟩
  exact ⟨hr.inj, hr.up, hr.frame, hr.len, hr.rest, hr.out, hr.inp, hr.gensym, by show s'.tick + 1 = s.tick + 1; rw [hr.tick], hr.screen, hr.issued⟩

theorem Sim.getScreenM {n : Nat} : Sim R n TQ id getScreenM getScreenM := ⟨.getScreenM, fun _ _ _ hr _ => ⟨congrArg Device.on hr.screen, hr⟩⟩

theorem Sim.actsM {n : Nat} {as : List Act} : Sim R n TQ id (actsM as) (actsM as) :=
  ⟨.actsM, fun s s' _ hr _ => ⟨rfl, hr.inj, hr.up, hr.frame, hr.len, hr.rest, hr.out, hr.inp, hr.gensym, hr.tick,
    by show Device.mk s'.screen.on (s'.screen.acts ++ as) = ⟨s.screen.on, s.screen.acts ++ as⟩; rw [hr.screen], hr.issued⟩⟩

theorem Sim.setScreenM {n : Nat} {b : Bool} : Sim R n TQ id (setScreenM b) (setScreenM b) :=
  ⟨.setScreenM, fun s s' _ hr _ => ⟨rfl, hr.inj, hr.up, hr.frame, hr.len, hr.rest, hr.out, hr.inp, hr.gensym, hr.tick,
    by show Device.mk b s'.screen.acts = ⟨b, s.screen.acts⟩; rw [hr.screen], hr.issued⟩⟩

theorem Sim.gensymM {n : Nat} {p : List Char} : Sim R n VQ (Val.ren R.ρ) (gensymM p) (gensymM p) := by
  refine ⟨.gensymM, fun s s' _ hr _ => ⟨?_, hr.inj, hr.up, hr.frame, hr.len, hr.rest, hr.out, hr.inp, ?_, hr.tick, hr.screen, ?_⟩⟩
  · rw [hr.gensym]; rfl
  · show s'.gensym + 1 = s.gensym + 1; rw [hr.gensym]
  · obtain ⟨d, h1, h2⟩ := hr.issued
    refine ⟨d ++ [gensymName p (s.gensym + 1)], ?_, ?_⟩
    · show s.issued ++ _ = _; rw [h1, List.append_assoc]
    · show s'.issued ++ _ = _; rw [h2, List.append_assoc, hr.gensym]

theorem Sim.readLineM {n : Nat} : Sim R n TQ id readLineM readLineM := by
  refine ⟨.readLineM, fun s s' _ hr _ => ?_⟩
  unfold L1.readLineM
  rw [hr.inp]
  cases s.inp with
  | nil => exact ⟨rfl, hr⟩
  | cons l ls => exact ⟨rfl, hr.inj, hr.up, hr.frame, hr.len, hr.rest, hr.out, rfl, hr.gensym, hr.tick, hr.screen, hr.issued⟩

theorem Sim.envKeysM {n e : Nat} : Sim R n TQ id (envKeysM e) (envKeysM (R.ρ e)) :=
  ⟨.envKeysM, fun _ _ hi hr _ => ⟨hr.envKeys hi _ _ e (by omega) (by omega), hr⟩⟩

theorem Sim.liftParse {n : Nat} {r : PRes (List Val)} (h : PNoLam (fun r : List Val => r.all noLam = true) r) :
    Sim R n LQ (List.map (Val.ren R.ρ)) (liftParse r) (liftParse r) := by
  refine ⟨.liftParse h, fun s s' hi hr hn => ?_⟩
  cases r with
  | ok a => exact ⟨(ren_map_noLam h).symm, hr⟩
  | err e =>
    obtain ⟨xs, h1, rfl, h3⟩ := h
    exact ⟨by rw [Err.ren, ren_vlist, ren_map_noLam h3], hr⟩
  | crash => exact ⟨rfl, hr⟩
  | fuel => trivial

end L1
