import Verif.Spec.Straight
import Verif.Lemmas.Within
import Verif.Props.Forms
import Verif.Spec.Status
/-
C82: code without calls of functions of the program ends, in a stack no deeper than its parentheses.
-/
set_option autoImplicit false
namespace L1

variable {W : World} {N : String → Prop}

/-- What `Original` scopes there are stay so. -/
def Kp (N : String → Prop) (h h' : Heap) : Prop := ∀ e, Original N h e → Original N h' e

theorem Kp.refl (h : Heap) : Kp N h h := fun _ h => h
theorem Kp.trans {a b c : Heap} (h : Kp N a b) (h' : Kp N b c) : Kp N a c := fun e he => h' e (h e he)

theorem Kp.grow {h : Heap} (f : Frame) : Kp N h (h ++ [f]) := fun _ he =>
  ⟨he.nested.mono (List.prefix_append _ _), fun a ha => (he.nested.lookup_prefix (List.prefix_append _ _) a).trans (he.free a ha)⟩

theorem Kp.set {h : Heap} {o : Nat} {x : String} {v : Val} (hx : ¬ N x) : Kp N h (heapSet h o x v) := fun e he =>
  ⟨he.nested.set o x v, fun a ha => by
    have := he.free a ha
    unfold lookup at this ⊢
    rw [lookupAux_heapSet_ne (fun h => hx (by rw [← h]; exact ha))]; exact this⟩

theorem Original.inner {h : Heap} {e : Nat} (ho : Original N h e) : Original N (h ++ [⟨[], some e⟩]) h.length :=
  ⟨ho.nested.last _, fun a ha => by rw [lookup_last ho.nested]; exact ho.free a ha⟩

/-- The outcome is an end, and the scopes are kept. -/
def GoodEnd {α : Type} (N : String → Prop) (h : Heap) : Res α → Prop
  | .ok _ s => Kp N h s.heap
  | .err _ s => Kp N h s.heap
  | .crash _ _ => True
  | .exit _ _ => True
  | .overflow _ => False
  | .oof => False

/-- From every state where scope `e` is original. -/
def EndsIn {α : Type} (N : String → Prop) (e : Nat) (m : M α) : Prop := ∀ s, Original N s.heap e → GoodEnd N s.heap (m s)

theorem EndsIn.bind {α β : Type} {e : Nat} {m : M α} {f : α → M β} (hm : EndsIn N e m) (hf : ∀ a, EndsIn N e (f a)) : EndsIn N e (m >>= f) := by
  intro s ho
  have h1 := hm s ho
  rw [M.bind_run]
  cases hr : m s with
  | ok a s1 =>
    rw [hr] at h1
    have h2 := hf a s1 (h1 e ho)
    show GoodEnd N s.heap (f a s1)
    cases hr2 : f a s1 with
    | ok b s2 => rw [hr2] at h2; exact Kp.trans h1 h2
    | err b s2 => rw [hr2] at h2; exact Kp.trans h1 h2
    | _ => rw [hr2] at h2; exact h2
  | _ => rw [hr] at h1; exact h1

theorem EndsIn.extendWith {α : Type} {e : Nat} {v : Val} {m : M α} (h : EndsIn N e m) : EndsIn N e (extendWith v m) := by
  intro s ho
  have h1 := h s ho
  rw [extendWith_run]
  cases hr : m s <;> rw [hr] at h1 <;> exact h1

theorem EndsIn.extend {α : Type} {e : Nat} {msg : String} {m : M α} (h : EndsIn N e m) : EndsIn N e (extend msg m) := h.extendWith

theorem EndsIn.attempt {α : Type} {e : Nat} {m : M α} (h : EndsIn N e m) : EndsIn N e (attempt m) := by
  intro s ho
  have h1 := h s ho
  rw [attempt_run]
  cases hr : m s <;> rw [hr] at h1 <;> exact h1

/-- Steps that leave the scopes alone. -/
theorem EndsIn.still {α : Type} {e : Nat} {m : M α} (h : ∀ s, (∃ a s', m s = .ok a s' ∧ s'.heap = s.heap) ∨ (∃ er s', m s = .err er s' ∧ s'.heap = s.heap) ∨
    (∃ w s', m s = .crash w s') ∨ ∃ c s', m s = .exit c s') : EndsIn N e m := by
  intro s _
  rcases h s with ⟨a, s', h, hh⟩ | ⟨a, s', h, hh⟩ | ⟨a, s', h⟩ | ⟨a, s', h⟩ <;> rw [h]
  · show Kp N _ _; rw [hh]; exact .refl _
  · show Kp N _ _; rw [hh]; exact .refl _
  · trivial
  · trivial

section
variable {e : Nat}
theorem EndsIn.pure {α : Type} {a : α} : EndsIn N e (pure a : M α) := .still fun s => .inl ⟨a, s, rfl, rfl⟩
theorem EndsIn.throwBase {α : Type} {m : String} : EndsIn N e (throwBase m : M α) := .still fun s => .inr (.inl ⟨_, s, rfl, rfl⟩)
theorem EndsIn.throwUser {α : Type} {m : Val} : EndsIn N e (throwUser m : M α) := .still fun s => .inr (.inl ⟨_, s, rfl, rfl⟩)
theorem EndsIn.throwForeign {α : Type} {m : String} : EndsIn N e (throwForeign m : M α) := .still fun s => .inr (.inl ⟨_, s, rfl, rfl⟩)
theorem EndsIn.throwErr {α : Type} {m : Err} : EndsIn N e (throwErr m : M α) := .still fun s => .inr (.inl ⟨_, s, rfl, rfl⟩)
theorem EndsIn.crash {α : Type} {m : String} : EndsIn N e (crash m : M α) := .still fun s => .inr (.inr (.inl ⟨_, s, rfl⟩))
theorem EndsIn.exitM {α : Type} {c : Nat} : EndsIn N e (exitM c : M α) := .still fun s => .inr (.inr (.inr ⟨_, s, rfl⟩))
theorem EndsIn.printM {cs : List Char} : EndsIn N e (printM cs) := .still fun _ => .inl ⟨_, _, rfl, rfl⟩
theorem EndsIn.askM {α : Type} {f : Nat → α} : EndsIn N e (askM f) := .still fun _ => .inl ⟨_, _, rfl, rfl⟩
theorem EndsIn.getScreenM : EndsIn N e getScreenM := .still fun _ => .inl ⟨_, _, rfl, rfl⟩
theorem EndsIn.actsM {as : List Act} : EndsIn N e (actsM as) := .still fun _ => .inl ⟨_, _, rfl, rfl⟩
theorem EndsIn.setScreenM {b : Bool} : EndsIn N e (setScreenM b) := .still fun _ => .inl ⟨_, _, rfl, rfl⟩
theorem EndsIn.gensymM {p : List Char} : EndsIn N e (gensymM p) := .still fun _ => .inl ⟨_, _, rfl, rfl⟩
theorem EndsIn.readLineM : EndsIn N e readLineM := .still fun s => by
  unfold L1.readLineM
  cases s.inp with
  | nil => exact .inr (.inl ⟨_, _, rfl, rfl⟩)
  | cons l ls => exact .inl ⟨_, _, rfl, rfl⟩
theorem EndsIn.ite {α : Type} {c : Prop} [Decidable c] {a b : M α} (h1 : EndsIn N e a) (h2 : EndsIn N e b) : EndsIn N e (if c then a else b) := by
  split <;> assumption
theorem EndsIn.setM {o : Nat} {x : String} {v : Val} (hx : ¬ N x) : EndsIn N e (setM o x v) := by
  intro s _
  unfold L1.setM
  split
  · exact Kp.refl _
  · exact Kp.set hx
theorem EndsIn.setTopM {o : Nat} {x : String} {v : Val} (hx : ¬ N x) : EndsIn N e (setTopM o x v) := fun s ho => EndsIn.setM hx s ho
theorem EndsIn.updateM {o : Nat} {x : String} {v : Val} (hx : ¬ N x) : EndsIn N e (updateM o x v) := by
  intro s _
  unfold L1.updateM
  split
  · exact Kp.refl _
  · split
    · exact Kp.set hx
    · exact Kp.refl _
end

/-- Close goals about `EndsIn`. -/
macro "ends" : tactic => `(tactic| repeat' (first
  | with_reducible assumption
  | exact EndsIn.pure | exact EndsIn.throwBase | exact EndsIn.throwForeign | exact EndsIn.throwErr | exact EndsIn.crash | exact EndsIn.exitM | exact EndsIn.printM | exact EndsIn.askM
  | exact EndsIn.getScreenM | exact EndsIn.setScreenM | exact EndsIn.actsM | exact EndsIn.gensymM
  | apply EndsIn.extend
  | split
  | refine EndsIn.bind ?_ (fun _ => ?_)))

theorem ends_shuffleLoop {α : Type} (W : World) (e : Nat) (i : Nat) : ∀ xs : List α, EndsIn N e (shuffleLoop W i xs) := by
  induction i with
  | zero => intro xs; exact EndsIn.pure
  | succ i ih => intro xs; exact EndsIn.bind EndsIn.askM fun _ => ih _

theorem ends_readlist {e : Nat} : EndsIn N e bReadlist := by
  unfold bReadlist
  refine EndsIn.bind (EndsIn.extend EndsIn.readLineM) fun line => EndsIn.bind (EndsIn.extend ?_) fun _ => EndsIn.pure
  have hf : lexAndParse (splitOnChar '\n' line) ≠ .fuel := by unfold lexAndParse; exact parseTop_ne_fuel _
  generalize lexAndParse (splitOnChar '\n' line) = r at hf
  cases r with
  | ok a => exact EndsIn.pure
  | err er => exact EndsIn.throwErr
  | crash => exact EndsIn.crash
  | fuel => exact absurd rfl hf


/-- The native functions that evaluate nothing. -/
theorem ends_native {e : Nat} (W : World) (call : Task → M Val) (b : BI) (args : List Val) (e1 : Nat) (hb : ¬ Evaluates b) : EndsIn N e (biFn W call b args e1) := by
  have hloop1 : ∀ args k, EndsIn N e (bAddLoop k args) := by
    intro args; induction args with
    | nil => intro k; exact EndsIn.pure
    | cons a as ih => intro k; cases a <;> first | exact ih _ | exact EndsIn.throwBase
  have hloop2 : ∀ args k, EndsIn N e (bSubLoop k args) := by
    intro args; induction args with
    | nil => intro k; exact EndsIn.pure
    | cons a as ih => intro k; cases a <;> first | exact ih _ | exact EndsIn.throwBase
  have hloop3 : ∀ args k, EndsIn N e (bMulLoop k args) := by
    intro args; induction args with
    | nil => intro k; exact EndsIn.pure
    | cons a as ih => intro k; cases a <;> first | exact ih _ | exact EndsIn.throwBase
  have hloop4 : ∀ args k, EndsIn N e (bDivLoop k args) := by
    intro args; induction args with
    | nil => intro k; exact EndsIn.pure
    | cons a as ih => intro k; unfold bDivLoop; refine EndsIn.ite EndsIn.throwBase ?_; split; exact ih _; exact EndsIn.throwBase
  have hlen : ∀ v k, EndsIn N e (bLenLoop k v) := by
    intro v; induction v with
    | nil => intro k; exact EndsIn.pure
    | cons a d _ ih => intro k; exact ih _
    | _ => intro k; exact EndsIn.crash
  have hcmp : ∀ cmp, EndsIn N e (bCmp cmp args) := by
    intro cmp
    have : ∀ args k, EndsIn N e (bCmpLoop cmp k args) := by
      intro args; induction args with
      | nil => intro k; exact EndsIn.pure
      | cons a as ih => intro k; cases a <;> first | exact EndsIn.ite (ih _) EndsIn.pure | exact EndsIn.throwBase
    unfold bCmp; split
    · exact EndsIn.throwBase
    · exact this _ _
    · exact EndsIn.throwBase
  have hscr : ∀ {α : Type} {m : M α}, EndsIn N e m → EndsIn N e (needScreen m) := fun h =>
    EndsIn.bind EndsIn.getScreenM fun _ => EndsIn.ite h EndsIn.throwBase
  cases b
  case apply => exfalso; exact hb (by unfold Evaluates; simp)
  case eval => exfalso; exact hb (by unfold Evaluates; simp)
  case load => exfalso; exact hb (by unfold Evaluates; simp)
  case macroexpand1 => exfalso; exact hb (by unfold Evaluates; simp)
  case sortBy => exfalso; exact hb (by unfold Evaluates; simp)
  case forms => exfalso; exact hb (by unfold Evaluates; simp)
  case help => exfalso; exact hb (by unfold Evaluates; simp)
  all_goals simp only [biFn]
  case len => unfold bLen; split; exact EndsIn.ite (hlen _ _) EndsIn.throwBase; exact EndsIn.throwBase
  case fuse => unfold bFuse; ends
  case isqrt => unfold bIsqrt; ends
  case randint =>
    unfold bRandint
    split
    · exact EndsIn.ite EndsIn.throwBase (EndsIn.ite EndsIn.crash (EndsIn.bind EndsIn.askM fun _ => EndsIn.pure))
    all_goals exact EndsIn.throwBase
  case readlist => exact ends_readlist
  case add => exact hloop1 _ _
  case sub => unfold bSub; split <;> first | exact hloop2 _ _ | exact EndsIn.pure | exact EndsIn.throwBase
  case mul => exact hloop3 _ _
  case div => unfold bDiv; split <;> first | exact hloop4 _ _ | exact EndsIn.throwBase
  case eq => unfold bEq; ends
  case rem => unfold bRem; ends
  case lt => exact hcmp _
  case le => exact hcmp _
  case gt => exact hcmp _
  case ge => exact hcmp _
  case atomP => unfold bPred; ends
  case body => unfold bBody; ends
  case car => unfold bCar; ends
  case cdr => unfold bCdr; ends
  case cons => ends
  case doc => unfold bDoc; ends
  case downcase => ends
  case exit => exact EndsIn.exitM
  case gensym => unfold bGensym; ends
  case list => exact EndsIn.pure
  case listP => unfold bPred; ends
  case not => unfold bPred; ends
  case numberP => unfold bPred; ends
  case print => ends
  case println => ends
  case printl => ends
  case screenStart => refine EndsIn.bind (EndsIn.extend ?_) fun _ => EndsIn.pure; unfold termStart; ends
  case screenEnd => unfold termEnd; ends
  case screenSize => exact EndsIn.bind (EndsIn.extend (hscr EndsIn.askM)) fun _ => EndsIn.pure
  case screenClear => exact EndsIn.bind (EndsIn.extend (hscr EndsIn.actsM)) fun _ => EndsIn.pure
  case screenGetKey =>
    split
    · exact EndsIn.bind (EndsIn.extend (hscr EndsIn.askM)) fun _ => EndsIn.pure
    · exact EndsIn.throwBase
  case screenWrite =>
    unfold bScreenWrite
    split
    · split
      · exact EndsIn.ite (EndsIn.bind (EndsIn.extend (hscr EndsIn.actsM)) fun _ => EndsIn.pure) EndsIn.throwBase
      all_goals exact EndsIn.throwBase
    · exact EndsIn.throwBase
  case shell => unfold doShell; ends
  case shuffle =>
    unfold bShuffle; split
    · refine EndsIn.ite ?_ EndsIn.throwBase
      split
      · exact EndsIn.bind (ends_shuffleLoop W _ _ _) fun _ => EndsIn.pure
      · exact EndsIn.extend EndsIn.throwBase
    · exact EndsIn.throwBase
  case sleep => unfold bSleep; ends
  case sort => unfold bSort bSortList; ends
  case source => unfold bSource; ends
  case split => unfold bSplit; ends
  case upcase => ends
  case version => exact EndsIn.pure

/-! ### Expressions -/

theorem nesting_mem {x : Val} {xs : List Val} (h : x ∈ xs) : x.nesting + 1 ≤ (vlist xs).nesting := by
  induction xs with
  | nil => cases h
  | cons y ys ih =>
    rw [vlist_cons]
    show _ ≤ max (y.nesting + 1) (vlist ys).nesting
    rcases List.mem_cons.1 h with rfl | h
    · omega
    · have := ih h; omega

theorem nesting_form {name : String} {x : Val} {xs : List Val} (h : x ∈ xs) : x.nesting + 1 ≤ (form name xs).nesting := by
  have := nesting_mem h
  show _ ≤ max (0 + 1) (vlist xs).nesting
  omega

theorem nesting_pos (name : String) (xs : List Val) : 1 ≤ (form name xs).nesting := by
  show _ ≤ max (0 + 1) (vlist xs).nesting; omega

/-- One step. -/
theorem ends_leaf {d : Nat} {t : Task} {e : Nat} (h : ∀ call tail, EndsIn N e (runStep W call tail t)) : EndsIn N e (performIn W d t) := by
  intro s ho
  have h1 := h (lower d (run W 0)) (run W 0 d) s ho
  have h2 : run W 1 d t s = runStep W (lower d (run W 0)) (run W 0 d) t s := rfl
  rw [performIn_of_run (n := 1) (by rw [h2]; intro h3; rw [h3] at h1; exact h1), h2]
  exact h1

theorem Original.notMacro {h : Heap} {e : Nat} {a : String} (ho : Original N h e) (ha : N a) : NotMacro h e a := by
  intro ps r b dc env he
  rw [ho.free a ha] at he; cases he

theorem ends_sf {d e : Nat} (f : SF) {name : String} {xs : List Val} (hn : name = f.name) (hN : N name)
    (h : EndsIn N e (evSpecial (performIn W d) (performIn W (d + 1)) f (vlist xs) e)) : EndsIn N e (evalWithin W (d + 1) (form name xs) e) := by
  intro s ho
  rw [within_sf f (ho.notMacro hN) hn]
  exact h s ho

theorem ends_mkLambda {e : Nat} {ps : Val} {body : List Val} (hp : ∀ a, ps ≠ .atom a) (m : Bool) : EndsIn N e (mkLambda (.cons ps (vlist body)) m e) := by
  have h1 : mkLambda (.cons ps (vlist body)) m e = mkLambdaNamed "" (.cons ps (vlist body)) m e := by
    cases ps <;> first | rfl | exact absurd rfl (hp _)
  rw [h1]
  simp only [mkLambdaNamed]
  split
  · split
    · exact EndsIn.throwBase
    · refine EndsIn.ite EndsIn.throwBase (EndsIn.ite (EndsIn.bind ?_ fun p => ?_) EndsIn.crash)
      · unfold splitDoc; ends
      · obtain ⟨dc, b'⟩ := p
        dsimp only
        rw [if_neg (by simp)]
        exact EndsIn.pure
  · exact EndsIn.throwBase

section
variable {d e : Nat}

theorem ends_args {xs : List Val} (h : ∀ x ∈ xs, EndsIn N e (evalWithin W d x e)) : EndsIn N e (evArgs (performIn W d) e (vlist xs)) := by
  induction xs with
  | nil => exact EndsIn.pure
  | cons x xs ih =>
    rw [vlist_cons]; simp only [evArgs]
    exact .bind (.extend (h x (by simp))) fun _ => .bind (ih fun y hy => h y (List.mem_cons_of_mem _ hy)) fun _ => .pure

theorem ends_and {xs : List Val} (h : ∀ x ∈ xs, EndsIn N e (evalWithin W d x e)) : EndsIn N e (evAnd (performIn W d) e (vlist xs)) := by
  induction xs with
  | nil => exact EndsIn.pure
  | cons x xs ih =>
    rw [vlist_cons]; simp only [evAnd]
    exact .bind (.extend (h x (by simp))) fun _ => .ite .pure (ih fun y hy => h y (List.mem_cons_of_mem _ hy))

theorem ends_or {xs : List Val} (h : ∀ x ∈ xs, EndsIn N e (evalWithin W d x e)) : EndsIn N e (evOr (performIn W d) e (vlist xs)) := by
  induction xs with
  | nil => exact EndsIn.pure
  | cons x xs ih =>
    rw [vlist_cons]; simp only [evOr]
    exact .bind (.extend (h x (by simp))) fun _ => .ite .pure (ih fun y hy => h y (List.mem_cons_of_mem _ hy))

theorem ends_swallow {xs : List Val} (h : ∀ x ∈ xs, EndsIn N e (evalWithin W d x e)) : EndsIn N e (evSwallow (performIn W d) e (vlist xs)) := by
  induction xs with
  | nil => exact EndsIn.pure
  | cons x xs ih =>
    rw [vlist_cons]; simp only [evSwallow]
    refine .bind (.attempt (h x (by simp))) fun r => ?_
    cases r with
    | error _ => exact .pure
    | ok _ => exact ih fun y hy => h y (List.mem_cons_of_mem _ hy)

theorem ends_test {xs : List Val} (h : ∀ x ∈ xs, EndsIn N e (evalWithin W d x e)) : EndsIn N e (evTest (performIn W d) e (vlist xs)) := by
  have hl : ∀ ys : List Val, (∀ y ∈ ys, y ∈ xs) → EndsIn N e (evTestLoop (performIn W d) e (vlist ys)) := by
    intro ys
    induction ys with
    | nil => exact fun _ => EndsIn.printM
    | cons y ys ih =>
      intro hy
      rw [vlist_cons]; simp only [evTestLoop]
      exact .bind (.extend (h y (hy y (by simp)))) fun _ => .bind .printM fun _ => ih fun z hz => hy z (List.mem_cons_of_mem _ hz)
  cases xs with
  | nil => exact EndsIn.pure
  | cons x xs =>
    rw [vlist_cons]; simp only [evTest]
    exact .bind (.extend (h x (by simp))) fun _ => .bind .printM fun _ => hl xs fun y hy => List.mem_cons_of_mem _ hy

theorem ends_cond {cl : List (Val × Val)} (h : ∀ c ∈ cl, EndsIn N e (evalWithin W d c.1 e)) (h' : ∀ c ∈ cl, EndsIn N e (evalWithin W (d + 1) c.2 e)) :
    EndsIn N e (evCond (performIn W d) (performIn W (d + 1)) e (vlist (cl.map fun c => vlist [c.1, c.2]))) := by
  induction cl with
  | nil => exact EndsIn.pure
  | cons c cl ih =>
    rw [List.map_cons, vlist_cons, vlist_cons, vlist_cons]; simp only [evCond]
    exact .bind (.extend (h c (by simp))) fun _ => .ite (ih (fun y hy => h y (List.mem_cons_of_mem _ hy)) fun y hy => h' y (List.mem_cons_of_mem _ hy)) (h' c (by simp))

theorem ends_letBinds {ne : Nat} {bs : List (String × Val)} (hN : ∀ b ∈ bs, ¬ N b.1) (h : ∀ b ∈ bs, EndsIn N e (evalWithin W d b.2 e)) :
    EndsIn N e (evLetBinds (performIn W d) e ne (vlist (bs.map fun b => vlist [.atom b.1, b.2]))) := by
  induction bs with
  | nil => exact EndsIn.pure
  | cons b bs ih =>
    rw [List.map_cons, vlist_cons, vlist_cons, vlist_cons]; simp only [evLetBinds]
    exact .bind (.extend (h b (by simp))) fun _ => .bind (.extend (.setM (hN b (by simp)))) fun _ =>
      ih (fun y hy => hN y (List.mem_cons_of_mem _ hy)) fun y hy => h y (List.mem_cons_of_mem _ hy)

theorem ends_body {wrap : Val → Val} {xs : List Val} (h : ∀ x ∈ xs, EndsIn N e (evalWithin W d x e)) (h' : ∀ x ∈ xs, EndsIn N e (evalWithin W (d + 1) x e)) :
    EndsIn N e (evBodyTail (performIn W d) (performIn W (d + 1)) wrap e (vlist xs)) := by
  induction xs with
  | nil => exact EndsIn.pure
  | cons x xs ih =>
    cases xs with
    | nil => exact h' x (by simp)
    | cons y ys =>
      rw [vlist_cons, vlist_cons]; simp only [evBodyTail]
      have := ih (fun y hy => h y (List.mem_cons_of_mem _ hy)) fun y hy => h' y (List.mem_cons_of_mem _ hy)
      rw [vlist_cons] at this
      exact .bind (.extendWith (h x (by simp))) fun _ => this

theorem ends_errorsLoop {args : Val} {er : List Char} {xs : List Val} (h : ∀ x ∈ xs, EndsIn N e (evalWithin W d x e)) :
    EndsIn N e (evErrorsLoop (performIn W d) e args er (vlist xs)) := by
  induction xs with
  | nil => exact EndsIn.throwBase
  | cons x xs ih =>
    rw [vlist_cons]; simp only [evErrorsLoop]
    refine .bind (.attempt (h x (by simp))) fun r => ?_
    cases r with
    | error _ => exact .ite .pure .throwBase
    | ok _ => exact ih fun y hy => h y (List.mem_cons_of_mem _ hy)

theorem ends_catchBody {ret : Val} {xs : List Val} (h : ∀ x ∈ xs, EndsIn N e (evalWithin W d x e)) : EndsIn N e (evCatchBody (performIn W d) e ret (vlist xs)) := by
  induction xs generalizing ret with
  | nil => exact EndsIn.pure
  | cons x xs ih =>
    rw [vlist_cons]; simp only [evCatchBody]
    exact .bind (.extend (h x (by simp))) fun _ => ih fun y hy => h y (List.mem_cons_of_mem _ hy)

/-- In a new scope. -/
theorem ends_inner {α : Type} {f : Nat → M α} (h : ∀ ne s, Original N s.heap e → Original N s.heap ne → GoodEnd N s.heap (f ne s)) : EndsIn N e (newEnvM e >>= f) := by
  intro s ho
  rw [M.bind_ok (newEnvM_run _ _)]
  have h1 := h s.heap.length { s with heap := s.heap ++ [⟨[], some e⟩] } (Kp.grow _ e ho) ho.inner
  cases hr : f s.heap.length { s with heap := s.heap ++ [⟨[], some e⟩] } with
  | ok v s1 => rw [hr] at h1; exact Kp.trans (.grow _) h1
  | err v s1 => rw [hr] at h1; exact Kp.trans (.grow _) h1
  | _ => rw [hr] at h1; exact h1

theorem ends_try {a : String} {ys : List Val} (hN : ¬ N a) (hy : ∀ ne, ∀ y ∈ ys, EndsIn N ne (evalWithin W d y ne)) {xs : List Val}
    (hc : ∀ x ∈ xs, startsWith x "catch" = false) (h : ∀ x ∈ xs, EndsIn N e (evalWithin W d x e)) :
    ∀ ret er, EndsIn N e (evTry (performIn W d) e ret er (vlist (xs ++ [form "catch" (.atom a :: ys)]))) := by
  induction xs with
  | nil =>
    intro ret er
    show EndsIn N e (evTry (performIn W d) e ret er (.cons (.cons (.atom "catch") (vlist (.atom a :: ys))) .nil))
    simp only [evTry, startsWith, beq_self_eq_true, if_true]
    cases er with
    | none => exact EndsIn.pure
    | some er =>
      dsimp only
      rw [vlist_cons]; simp only [evCatch]
      refine ends_inner fun ne s ho hno => ?_
      cases er with
      | foreign _ => exact Kp.refl _
      | list v =>
        dsimp only
        exact EndsIn.bind (e := ne) (.attempt (.setM hN)) (fun _ => ends_catchBody (hy ne)) s hno
  | cons x xs ih =>
    intro ret er
    rw [List.cons_append, vlist_cons]
    simp only [evTry]
    rw [hc x (by simp)]
    simp only [Bool.false_eq_true, if_false]
    have ih := ih (fun y hy => hc y (List.mem_cons_of_mem _ hy)) fun y hy => h y (List.mem_cons_of_mem _ hy)
    cases er with
    | some er => exact ih _ _
    | none =>
      refine .bind (.attempt (h x (by simp))) fun r => ?_
      cases r with
      | error _ => exact ih _ _
      | ok _ => exact ih _ _

end

theorem Straight.not_catch {x : Val} (h : Straight N x) : startsWith x "catch" = false := by
  cases h with
  | num | nil | atom | quote | cond | let_ | lambda | error | try_ | errors => rfl
  | all name xs _ hn _ => rcases hn with rfl | rfl | rfl | rfl <;> rfl
  | assign name a x _ hn _ _ => rcases hn with rfl | rfl <;> rfl
  | defn name a ps body _ hn _ _ => rcases hn with rfl | rfl <;> rfl
  | native b xs _ _ _ => cases b <;> rfl

/-- The main induction. -/
theorem straight_ends {x : Val} (h : Straight N x) : ∀ (d e : Nat), x.nesting ≤ d → EndsIn N e (evalWithin W d x e) := by
  have leaf : ∀ (y : Val) (d e : Nat), (∀ call tail, EndsIn N e (evalStep call tail y e)) → EndsIn N e (evalWithin W d y e) := fun y d e h => ends_leaf h
  have down : ∀ {x : Val} {name : String} {xs : List Val} {d : Nat}, (form name xs).nesting ≤ d + 1 → x ∈ xs → x.nesting ≤ d := fun {x name xs d} hn hx => by
    have := nesting_form (name := name) hx; omega
  have up : ∀ {name : String} {xs : List Val} {d : Nat}, (form name xs).nesting ≤ d → ∃ k, d = k + 1 := fun {name} {xs} {d} hn =>
    ⟨d - 1, by have := nesting_pos name xs; omega⟩
  have hatom : ∀ (a : String) (d e : Nat), EndsIn N e (evalWithin W d (.atom a) e) := by
    intro a d e
    refine leaf _ d e fun call tail s ho => ?_
    rw [evalStep_notMacro rfl]
    simp only [evExpr]
    refine (show EndsIn N e _ from EndsIn.ite EndsIn.pure ?_) s ho
    unfold evAtom
    refine EndsIn.ite EndsIn.pure (EndsIn.bind (.still fun s => .inl ⟨_, s, lookupM_run _ _ _, rfl⟩) fun r => ?_)
    ends
  induction h with
  | num n => intro d e _; exact leaf _ d e fun call tail s ho => by rw [evalStep_notMacro rfl]; exact Kp.refl _
  | nil => intro d e _; exact leaf _ d e fun call tail s ho => by rw [evalStep_notMacro rfl]; exact Kp.refl _
  | atom a => exact fun d e _ => hatom a d e
  | quote x hN =>
    intro d e hd
    obtain ⟨d, rfl⟩ := up hd
    exact ends_sf .quote rfl hN EndsIn.pure
  | all name xs hN hn _ ih =>
    intro d e hd
    obtain ⟨d, rfl⟩ := up hd
    have hx : ∀ x ∈ xs, EndsIn N e (evalWithin W d x e) := fun x hx => ih x hx d e (down hd hx)
    rcases hn with rfl | rfl | rfl | rfl
    · exact ends_sf .and rfl hN (ends_and hx)
    · exact ends_sf .or rfl hN (ends_or hx)
    · exact ends_sf .swallow rfl hN (ends_swallow hx)
    · exact ends_sf .test rfl hN (.bind (.extend (ends_test hx)) fun _ => .pure)
  | cond cl hN _ _ ih1 ih2 =>
    intro d e hd
    obtain ⟨d, rfl⟩ := up hd
    have hc : ∀ c ∈ cl, c.1.nesting + 1 ≤ d ∧ c.2.nesting + 1 ≤ d := fun c hc => by
      have h1 := down hd (List.mem_map.2 ⟨c, hc, rfl⟩)
      have h2 := nesting_mem (x := c.1) (xs := [c.1, c.2]) (by simp)
      have h3 := nesting_mem (x := c.2) (xs := [c.1, c.2]) (by simp)
      omega
    exact ends_sf .cond rfl hN (ends_cond (fun c h => ih1 c h d e (by have := hc c h; omega)) fun c h => ih2 c h (d + 1) e (by have := hc c h; omega))
  | let_ bs xs hN hb _ _ ih1 ih2 =>
    intro d e hd
    obtain ⟨d, rfl⟩ := up hd
    have hbs : ∀ b ∈ bs, b.2.nesting ≤ d := fun b hb => by
      have h1 := down hd (List.mem_cons_self ..)
      have h2 := nesting_mem (List.mem_map.2 ⟨b, hb, rfl⟩ : vlist [.atom b.1, b.2] ∈ bs.map fun b => vlist [.atom b.1, b.2])
      have h3 := nesting_mem (x := b.2) (xs := [.atom b.1, b.2]) (by simp)
      omega
    have hxs : ∀ x ∈ xs, x.nesting ≤ d := fun x hx => down hd (List.mem_cons_of_mem _ hx)
    refine ends_sf .let_ rfl hN ?_
    simp only [evSpecial]
    rw [vlist_cons]
    simp only [evLet, isList_vlist, if_true]
    refine ends_inner fun ne s ho hno => ?_
    have h1 := ends_letBinds (W := W) (d := d) (e := e) (ne := ne) hb (fun b h => ih1 b h d e (hbs b h)) s ho
    rw [M.bind_run]
    cases hr : evLetBinds (performIn W d) e ne (vlist (bs.map fun b => vlist [.atom b.1, b.2])) s with
    | ok b s1 =>
      rw [hr] at h1
      dsimp only
      cases b with
      | false => exact h1
      | true =>
        have h2 := ends_body (W := W) (d := d) (e := ne) (wrap := fun _ => msgList "evaluating let body") (xs := xs) (fun x h => ih2 x h d ne (hxs x h))
          (fun x h => ih2 x h (d + 1) ne (by have := hxs x h; omega)) s1 (h1 ne hno)
        rw [if_pos rfl]
        cases hr2 : evBodyTail (performIn W d) (performIn W (d + 1)) (fun _ => msgList "evaluating let body") ne (vlist xs) s1 with
        | ok v s2 => rw [hr2] at h2; exact Kp.trans h1 h2
        | err v s2 => rw [hr2] at h2; exact Kp.trans h1 h2
        | _ => rw [hr2] at h2; exact h2
    | _ => rw [hr] at h1; exact h1
  | assign name a x hN hn ha _ ih =>
    intro d e hd
    obtain ⟨d, rfl⟩ := up hd
    have hx := ih d e (down hd (by simp))
    rcases hn with rfl | rfl
    · exact ends_sf .def_ rfl hN (.bind (.extend hx) fun _ => .bind (.extend (.setTopM ha)) fun _ => .pure)
    · exact ends_sf .set rfl hN (.bind (.extend hx) fun _ => .bind (.extend (.updateM ha)) fun _ => .pure)
  | lambda ps body hN hp =>
    intro d e hd
    obtain ⟨d, rfl⟩ := up hd
    exact ends_sf .lambda rfl hN (ends_mkLambda hp false)
  | defn name a ps body hN hn ha hp =>
    intro d e hd
    obtain ⟨d, rfl⟩ := up hd
    have key : ∀ m, EndsIn N e (evDefn m e (vlist (.atom a :: ps :: body))) := by
      intro m
      rw [vlist_cons, vlist_cons]
      simp only [evDefn]
      exact .bind (.extend (ends_mkLambda hp m)) fun _ => .bind (.extend (.setTopM ha)) fun _ => .pure
    rcases hn with rfl | rfl
    · exact ends_sf .defn rfl hN (key _)
    · exact ends_sf .defmacro rfl hN (key _)
  | error x hN _ ih =>
    intro d e hd
    obtain ⟨d, rfl⟩ := up hd
    exact ends_sf .error rfl hN (.bind (.extend (ih d e (down hd (by simp)))) fun _ => .throwUser)
  | try_ xs a ys hN ha hx _ ih1 ih2 =>
    intro d e hd
    obtain ⟨d, rfl⟩ := up hd
    have hy : ∀ y ∈ ys, y.nesting ≤ d := fun y hy => by
      have h1 := down (x := form "catch" (.atom a :: ys)) hd (by simp)
      have h2 := nesting_form (name := "catch") (xs := .atom a :: ys) (List.mem_cons_of_mem _ hy)
      omega
    refine ends_sf .try_ rfl hN (ends_try ha (fun ne y h => ih2 y h d ne (hy y h)) (fun x h => (hx x h).not_catch) (fun x h => ih1 x h d e (down hd (by simp [h]))) _ _)
  | errors x xs hN _ _ ih1 ih2 =>
    intro d e hd
    obtain ⟨d, rfl⟩ := up hd
    refine ends_sf .errors rfl hN ?_
    simp only [evSpecial]
    rw [vlist_cons]
    simp only [evErrors]
    refine .ite (.bind (.extend (ih1 d e (down hd (by simp)))) fun v => ?_) .throwBase
    exact .ite (ends_errorsLoop fun y h => ih2 y h d e (down hd (List.mem_cons_of_mem _ h))) .throwBase
  | native b xs hN hb _ ih =>
    intro d e hd
    obtain ⟨d, rfl⟩ := up hd
    intro s ho
    have hh : CallHead s.heap e (.atom b.name) := callHead_of (by cases b <;> rfl) fun ps r bd dc env he => by
      rw [ho.free _ hN] at he; cases he
    have h1 : evalWithin W (d + 1) (form b.name xs) e s = _ := within_call hh (isList_vlist xs)
    rw [h1]
    unfold evCall
    have hf : performIn W d (.eval (.atom b.name) e) s = .ok (.bi b) s := within_bi (isCxr_builtin b) (builtin_ne_t b) (ho.free _ hN) (builtinOf_name b)
    rw [M.bind_ok (extend_ok hf)]
    refine EndsIn.bind (e := e) (ends_args fun x h => ih x h d e (down hd h)) (fun vs => ?_) s ho
    simp only [evApply]
    exact .extend (ends_leaf fun call tail => ends_native W call b vs e hb)

/-! ### The property -/

theorem GoodEnd.ended {α : Type} {h : Heap} {r : Res α} (hr : GoodEnd N h r) : Ended r := by
  cases r with
  | ok v s => exact .inl ⟨v, s, rfl⟩
  | err v s => exact .inr (.inl ⟨v, s, rfl⟩)
  | crash v s => exact .inr (.inr (.inl ⟨v, s, rfl⟩))
  | exit v s => exact .inr (.inr (.inr ⟨v, s, rfl⟩))
  | _ => exact hr.elim

/-- C82: code without calls of functions of the program ends, in every state and whatever the outside world does, as long as the names it uses have their original meaning. -/
theorem C82_ends (W : World) (N : String → Prop) (x : Val) (e : Nat) (s : St) (h : Straight N x) (ho : Original N s.heap e) : Ended (eval W x e s) := by
  have h1 := straight_ends (W := W) h _ e (Nat.le_refl _) s ho
  have h2 : evalWithin W x.nesting x e s ≠ .oof := fun h3 => by rw [h3] at h1; exact h1
  obtain ⟨n, hn⟩ := run_of_performIn h2
  have h3 : (run W n x.nesting (.eval x e) s).Definite := by
    rw [hn]
    show (evalWithin W x.nesting x e s).Definite
    cases hr : evalWithin W x.nesting x e s <;> rw [hr] at h1 <;> first | trivial | exact h1.elim
  show Ended (perform W (.eval x e) s)
  rw [perform_of_run h3, hn]
  exact h1.ended

/-- C82: and it needs no deeper stack than its parentheses are nested. -/
theorem C82_stack (W : World) (N : String → Prop) (x : Val) (e d : Nat) (s : St) (h : Straight N x) (ho : Original N s.heap e) (hd : x.nesting ≤ d) :
    evalWithin W d x e s = eval W x e s ∧ Ended (evalWithin W d x e s) := by
  have h1 := straight_ends (W := W) h d e hd s ho
  have h2 : evalWithin W d x e s ≠ .oof := fun h3 => by rw [h3] at h1; exact h1
  obtain ⟨n, hn⟩ := run_of_performIn h2
  have h3 : (run W n d (.eval x e) s).Definite := by
    rw [hn]
    show (evalWithin W d x e s).Definite
    cases hr : evalWithin W d x e s <;> rw [hr] at h1 <;> first | trivial | exact h1.elim
  refine ⟨?_, h1.ended⟩
  show _ = perform W (.eval x e) s
  rw [perform_of_run h3, hn]; rfl

/-- C82: afterwards the names still have their original meaning, so the next such expression ends as well. -/
theorem C82_sequence (W : World) (N : String → Prop) (xs : List Val) (e : Nat) (s : St) (h : ∀ x ∈ xs, Straight N x) (ho : Original N s.heap e) :
    (∃ vs s', EvalsTo W e xs s vs s') ∨ ∃ (before later : List Val) (vs : List Val) (x : Val) (s1 : St), xs = before ++ x :: later ∧ EvalsTo W e before s vs s1 ∧
      Ended (eval W x e s1) ∧ ∀ v s2, eval W x e s1 ≠ .ok v s2 := by
  induction xs generalizing s with
  | nil => exact .inl ⟨[], s, .nil⟩
  | cons x xs ih =>
    have he := C82_ends W N x e s (h x (by simp)) ho
    have h1 := straight_ends (W := W) (h x (by simp)) _ e (Nat.le_refl _) s ho
    rw [(C82_stack W N x e _ s (h x (by simp)) ho (Nat.le_refl _)).1] at h1
    by_cases hok : ∃ v s1, eval W x e s = .ok v s1
    · obtain ⟨v, s1, hx⟩ := hok
      rw [hx] at h1
      rcases ih s1 (fun y hy => h y (List.mem_cons_of_mem _ hy)) (h1 e ho) with ⟨vs, s', h2⟩ | ⟨before, later, vs, y, s2, h2, h3, h4, h5⟩
      · exact .inl ⟨v :: vs, s', .cons hx h2⟩
      · exact .inr ⟨x :: before, later, v :: vs, y, s2, by rw [h2]; rfl, .cons hx h3, h4, h5⟩
    · exact .inr ⟨[], xs, [], x, s, rfl, .nil, he, fun v s2 h => hok ⟨v, s2, h⟩⟩

/-- The names of the special forms and native functions, in a scope where the library is intact. -/
def standardName (a : String) : Prop := (∃ f : SF, a = f.name) ∨ ∃ b : BI, a = b.name

theorem original_core {h : Heap} {e : Nat} (hc : CoreAt h e) : Original standardName h e :=
  ⟨hc.nested, fun a ha => by
    rcases ha with ⟨f, rfl⟩ | ⟨b, rfl⟩
    · exact hc.sees _ _ (by cases f <;> decide +kernel)
    · exact hc.sees _ _ (by cases b <;> decide +kernel)⟩

/-- C82: so `l1 -e` ends, whatever the text is, if all its expressions are like that. -/
theorem C82_program (W : World) (n : Nat) (text : List Char) (files : List String) (inp : List (List Char))
    (h : ∀ gs, readText text = .ok gs → ∀ x ∈ gs, Straight standardName x) :
    ∃ c, exitStatus (mainWith W (perform W) n coreText (some text) files (initSt inp)) = some c := by
  have hf : readText text ≠ .fuel := parseTop_ne_fuel _
  have hc : CoreAt (topSt (initSt inp) coreEnv).heap 0 := coreAt_loaded _
  rw [main_starts]
  generalize topSt (initSt inp) coreEnv = s at hc
  dsimp only
  have hx : ∀ gs : List Val, (∀ x ∈ gs, Straight standardName x) → ∀ s : St, Original standardName s.heap 0 → Ended (evalExprs (perform W) false 0 gs s) := by
    intro gs
    induction gs with
    | nil => exact fun _ s _ => .inl ⟨_, _, rfl⟩
    | cons x gs ih =>
      intro hg s ho
      have h1 := straight_ends (W := W) (hg x (by simp)) _ 0 (Nat.le_refl _) s ho
      rw [(C82_stack W _ x 0 _ s (hg x (by simp)) ho (Nat.le_refl _)).1] at h1
      unfold evalExprs
      rw [M.bind_run, attempt_run]
      change GoodEnd standardName s.heap (perform W (.eval x 0) s) at h1
      cases hr : perform W (.eval x 0) s with
      | ok v s1 =>
        rw [hr] at h1
        exact ih (fun y hy => hg y (List.mem_cons_of_mem _ hy)) s1 (h1 0 ho)
      | err er s1 => exact .inr (.inl ⟨_, _, rfl⟩)
      | crash w s1 => exact .inr (.inr (.inl ⟨_, _, rfl⟩))
      | exit c s1 => exact .inr (.inr (.inr ⟨_, _, rfl⟩))
      | overflow => rw [hr] at h1; exact h1.elim
      | oof => rw [hr] at h1; exact h1.elim
  have h1 : Ended (lexParseEval (perform W) text 0 s) := by
    unfold lexParseEval
    rw [M.bind_run]
    cases hp : readText text with
    | ok gs => exact hx gs (h gs hp) s (original_core hc)
    | err er => exact .inr (.inl ⟨_, _, rfl⟩)
    | crash => exact .inr (.inr (.inl ⟨_, _, rfl⟩))
    | fuel => exact absurd hp hf
  unfold runExpr
  rw [M.bind_run, attempt_run]
  rcases h1 with ⟨v, s1, h1⟩ | ⟨er, s1, h1⟩ | ⟨w, s1, h1⟩ | ⟨c, s1, h1⟩ <;> rw [h1] <;> exact ⟨_, rfl⟩

/-! ### An example: definitions, bindings, branches, an error that is caught -/

def straightText : List Char :=
  "(def total (let ((x (+ 1 (* 2 3))) (y (randint 5))) (cond ((< x y) (error 'small)) (t (- x y))))) (try (println total (/ 1 0)) (catch er (printl er)))".toList

def straightForms : List Val :=
  [form "def" [.atom "total",
    form "let" [vlist [vlist [.atom "x", form "+" [.num 1, form "*" [.num 2, .num 3]]], vlist [.atom "y", form "randint" [.num 5]]],
      form "cond" [vlist [form "<" [.atom "x", .atom "y"], form "error" [form "quote" [.atom "small"]]], vlist [.atom "t", form "-" [.atom "x", .atom "y"]]]]],
   form "try" [form "println" [.atom "total", form "/" [.num 1, .num 0]], form "catch" [.atom "er", form "printl" [.atom "er"]]]]

theorem read_straight : readText straightText = .ok straightForms := by decide +kernel

theorem nat_straight (b : BI) {name : String} (hn : b.name = name) (hb : ¬ Evaluates b) {xs : List Val} (h : ∀ x ∈ xs, Straight standardName x) :
    Straight standardName (form name xs) := by
  subst hn; exact .native b xs (.inr ⟨b, rfl⟩) hb h

theorem not_standard {a : String} (h1 : ∀ f : SF, f.name ≠ a) (h2 : ∀ b : BI, b.name ≠ a) : ¬ standardName a := by
  rintro (⟨f, h⟩ | ⟨b, h⟩)
  · exact h1 f h.symm
  · exact h2 b h.symm

theorem straight_forms : ∀ x ∈ straightForms, Straight standardName x := by
  have sn : ∀ f : SF, standardName f.name := fun f => .inl ⟨f, rfl⟩
  have at_ : ∀ a, Straight standardName (.atom a) := fun a => .atom a
  have two : ∀ {a b : Val}, Straight standardName a → Straight standardName b → ∀ x ∈ [a, b], Straight standardName x := by
    intro a b ha hb x hx
    simp only [List.mem_cons, List.not_mem_nil, or_false] at hx
    rcases hx with rfl | rfl <;> assumption
  have one : ∀ {a : Val}, Straight standardName a → ∀ x ∈ [a], Straight standardName x := by
    intro a ha x hx
    simp only [List.mem_cons, List.not_mem_nil, or_false] at hx
    subst hx; exact ha
  have hx : ¬ standardName "x" := not_standard (fun f => by cases f <;> decide +kernel) fun f => by cases f <;> decide +kernel
  have hy : ¬ standardName "y" := not_standard (fun f => by cases f <;> decide +kernel) fun f => by cases f <;> decide +kernel
  have ht : ¬ standardName "total" := not_standard (fun f => by cases f <;> decide +kernel) fun f => by cases f <;> decide +kernel
  have he : ¬ standardName "er" := not_standard (fun f => by cases f <;> decide +kernel) fun f => by cases f <;> decide +kernel
  refine two ?_ ?_
  · refine .assign "def" "total" _ (sn .def_) (.inl rfl) ht ?_
    refine .let_ [("x", form "+" [.num 1, form "*" [.num 2, .num 3]]), ("y", form "randint" [.num 5])] _ (sn .let_) ?_ ?_ (one ?_)
    · intro b hb
      simp only [List.mem_cons, List.not_mem_nil, or_false] at hb
      rcases hb with rfl | rfl <;> assumption
    · intro b hb
      simp only [List.mem_cons, List.not_mem_nil, or_false] at hb
      rcases hb with rfl | rfl
      · exact nat_straight .add rfl (by unfold Evaluates; decide) (two (.num _) (nat_straight .mul rfl (by unfold Evaluates; decide) (two (.num _) (.num _))))
      · exact nat_straight .randint rfl (by unfold Evaluates; decide) (one (.num _))
    · refine .cond [(form "<" [.atom "x", .atom "y"], form "error" [form "quote" [.atom "small"]]), (.atom "t", form "-" [.atom "x", .atom "y"])] (sn .cond) ?_ ?_
      · intro b hb
        simp only [List.mem_cons, List.not_mem_nil, or_false] at hb
        rcases hb with rfl | rfl
        · exact nat_straight .lt rfl (by unfold Evaluates; decide) (two (at_ _) (at_ _))
        · exact at_ _
      · intro b hb
        simp only [List.mem_cons, List.not_mem_nil, or_false] at hb
        rcases hb with rfl | rfl
        · exact .error _ (sn .error) (.quote _ (sn .quote))
        · exact nat_straight .sub rfl (by unfold Evaluates; decide) (two (at_ _) (at_ _))
  · exact .try_ [form "println" [.atom "total", form "/" [.num 1, .num 0]]] "er" [form "printl" [.atom "er"]] (sn .try_) he
      (one (nat_straight .println rfl (by unfold Evaluates; decide) (two (at_ _) (nat_straight .div rfl (by unfold Evaluates; decide) (two (.num _) (.num _))))))
      (one (nat_straight .printl rfl (by unfold Evaluates; decide) (one (at_ _))))

/-- The example program ends in every world, whatever is typed. -/
example (W : World) (inp : List (List Char)) : ∃ c, exitStatus (mainWith W (perform W) 0 coreText (some straightText) [] (initSt inp)) = some c :=
  C82_program W 0 _ [] inp fun gs hg => by rw [read_straight] at hg; cases hg; exact straight_forms

/-- Its first expression needs a stack of six levels, as deep as its parentheses. -/
example (W : World) (inp : List (List Char)) (x : Val) (hx : x ∈ straightForms) : Ended (evalWithin W 6 x 0 (topSt (initSt inp) coreEnv)) :=
  (C82_stack W standardName x 0 6 _ (straight_forms x hx) (original_core (coreAt_loaded _)) (by
    simp only [straightForms, List.mem_cons, List.not_mem_nil, or_false] at hx
    rcases hx with rfl | rfl <;> decide +kernel)).2

/-- The names have their original meaning at the start, and one expression after the other ends. -/
example (W : World) (inp : List (List Char)) :
    (∃ vs s', EvalsTo W 0 straightForms (topSt (initSt inp) coreEnv) vs s') ∨ ∃ (before later : List Val) (vs : List Val) (x : Val) (s1 : St),
      straightForms = before ++ x :: later ∧ EvalsTo W 0 before (topSt (initSt inp) coreEnv) vs s1 ∧ Ended (eval W x 0 s1) ∧ ∀ v s2, eval W x 0 s1 ≠ .ok v s2 :=
  C82_sequence W standardName straightForms 0 _ straight_forms (original_core (coreAt_loaded _))

end L1
