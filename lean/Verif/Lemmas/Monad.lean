import Verif.Model.Main
/- Rewriting rules for the evaluator monad. -/
set_option autoImplicit false
namespace L1

@[simp] theorem M.pure_run {α : Type} (a : α) (s : St) : (pure a : M α) s = .ok a s := rfl

theorem M.ite_pos {α : Type} {c : Prop} [Decidable c] {a b : M α} {s : St} (h : c) :
    (if c then a else b : M α) s = a s := by rw [if_pos h]

theorem M.ite_neg {α : Type} {c : Prop} [Decidable c] {a b : M α} {s : St} (h : ¬ c) :
    (if c then a else b : M α) s = b s := by rw [if_neg h]

theorem M.bind_run {α β : Type} (m : M α) (f : α → M β) (s : St) :
    (m >>= f) s = match m s with
      | .ok a s' => f a s'
      | .err e s' => .err e s'
      | .crash w s' => .crash w s'
      | .exit c s' => .exit c s'
      | .overflow s' => .overflow s'
      | .oof => .oof := rfl

theorem M.bind_ok {α β : Type} {m : M α} {f : α → M β} {s s' : St} {a : α}
    (h : m s = .ok a s') : (m >>= f) s = f a s' := by rw [M.bind_run, h]

theorem M.bind_err {α β : Type} {m : M α} {f : α → M β} {s s' : St} {e : Err}
    (h : m s = .err e s') : (m >>= f) s = .err e s' := by rw [M.bind_run, h]

@[simp] theorem M.pure_bind {α β : Type} (a : α) (f : α → M β) : (pure a >>= f) = f a := rfl

theorem M.bind_eq_ok {α β : Type} {m : M α} {f : α → M β} {s s'' : St} {b : β} :
    (m >>= f) s = .ok b s'' ↔ ∃ a s', m s = .ok a s' ∧ f a s' = .ok b s'' := by
  rw [M.bind_run]; cases m s <;> simp
  constructor
  · intro h; exact ⟨_, _, ⟨rfl, rfl⟩, h⟩
  · rintro ⟨_, _, ⟨rfl, rfl⟩, h⟩; exact h

theorem M.bind_eq_err {α β : Type} {m : M α} {f : α → M β} {s s'' : St} {e : Err} :
    (m >>= f) s = .err e s'' ↔ m s = .err e s'' ∨ ∃ a s', m s = .ok a s' ∧ f a s' = .err e s'' := by
  rw [M.bind_run]; cases m s <;> simp
  constructor
  · intro h; exact ⟨_, _, ⟨rfl, rfl⟩, h⟩
  · rintro ⟨_, _, ⟨rfl, rfl⟩, h⟩; exact h

@[simp] theorem throwBase_run {α : Type} (msg : String) (s : St) :
    (throwBase msg : M α) s = .err (.list (.cons (msgList msg) .nil)) s := rfl
@[simp] theorem throwUser_run {α : Type} (v : Val) (s : St) :
    (throwUser v : M α) s = .err (.list (.cons v .nil)) s := rfl
@[simp] theorem throwForeign_run {α : Type} (m : String) (s : St) :
    (throwForeign m : M α) s = .err (.foreign m) s := rfl
@[simp] theorem throwErr_run {α : Type} (e : Err) (s : St) : (throwErr e : M α) s = .err e s := rfl
@[simp] theorem crash_run {α : Type} (w : String) (s : St) : (crash w : M α) s = .crash w s := rfl
@[simp] theorem exitM_run {α : Type} (c : Nat) (s : St) : (exitM c : M α) s = .exit c s := rfl
@[simp] theorem lookupM_run (e : Nat) (x : String) (s : St) :
    lookupM e x s = .ok (lookup s.heap e x) s := rfl
@[simp] theorem isMacroCallM_run (x : Val) (e : Nat) (s : St) :
    isMacroCallM x e s = .ok (isMacroCallIn (lookup s.heap e) x) s := rfl
@[simp] theorem newEnvM_run (p : Nat) (s : St) :
    newEnvM p s = .ok s.heap.length { s with heap := s.heap ++ [⟨[], some p⟩] } := rfl
@[simp] theorem printM_run (cs : List Char) (s : St) :
    printM cs s = .ok () { s with out := s.out ++ cs } := rfl
@[simp] theorem askM_run {α : Type} (f : Nat → α) (s : St) :
    askM f s = .ok (f s.tick) { s with tick := s.tick + 1 } := rfl
@[simp] theorem getScreenM_run (s : St) : getScreenM s = .ok s.screen.on s := rfl
@[simp] theorem setScreenM_run (b : Bool) (s : St) : setScreenM b s = .ok () { s with screen := { s.screen with on := b } } := rfl
@[simp] theorem actsM_run (as : List Act) (s : St) : actsM as s = .ok () { s with screen := { s.screen with acts := s.screen.acts ++ as } } := rfl
@[simp] theorem setInpM_run (l : List (List Char)) (s : St) :
    setInpM l s = .ok () { s with inp := l } := rfl

theorem extendWith_run {α : Type} (f : Val) (m : M α) (s : St) :
    extendWith f m s = match m s with
      | .err e s' => .err (extendErr f e) s'
      | r => r := rfl

theorem extendWith_ok {α : Type} {f : Val} {m : M α} {s s' : St} {a : α} (h : m s = .ok a s') :
    extendWith f m s = .ok a s' := by rw [extendWith_run, h]

theorem extend_ok {α : Type} {msg : String} {m : M α} {s s' : St} {a : α} (h : m s = .ok a s') :
    extend msg m s = .ok a s' := extendWith_ok h

theorem extendWith_err {α : Type} {f : Val} {m : M α} {s s' : St} {e : Err} (h : m s = .err e s') :
    extendWith f m s = .err (extendErr f e) s' := by rw [extendWith_run, h]

theorem extend_err {α : Type} {msg : String} {m : M α} {s s' : St} {e : Err} (h : m s = .err e s') :
    extend msg m s = .err (extendErr (msgList msg) e) s' := extendWith_err h

@[simp] theorem extendWith_eq_ok {α : Type} {f : Val} {m : M α} {s s' : St} {a : α} :
    extendWith f m s = .ok a s' ↔ m s = .ok a s' := by
  rw [extendWith_run]; cases m s <;> simp

@[simp] theorem extend_eq_ok {α : Type} {msg : String} {m : M α} {s s' : St} {a : α} :
    extend msg m s = .ok a s' ↔ m s = .ok a s' := extendWith_eq_ok

theorem extendWith_eq_err {α : Type} {f : Val} {m : M α} {s s' : St} {e : Err} :
    extendWith f m s = .err e s' ↔ ∃ e', m s = .err e' s' ∧ e = extendErr f e' := by
  rw [extendWith_run]; cases m s <;> simp
  constructor
  · rintro ⟨rfl, rfl⟩; exact ⟨_, ⟨rfl, rfl⟩, rfl⟩
  · rintro ⟨_, ⟨rfl, rfl⟩, rfl⟩; exact ⟨rfl, rfl⟩

theorem extend_eq_err {α : Type} {msg : String} {m : M α} {s s' : St} {e : Err} :
    extend msg m s = .err e s' ↔ ∃ e', m s = .err e' s' ∧ e = extendErr (msgList msg) e' :=
  extendWith_eq_err

theorem attempt_run {α : Type} (m : M α) (s : St) :
    attempt m s = match m s with
      | .ok a s' => .ok (.ok a) s'
      | .err e s' => .ok (.error e) s'
      | .crash w s' => .crash w s'
      | .exit c s' => .exit c s'
      | .overflow s' => .overflow s'
      | .oof => .oof := rfl

theorem attempt_ok {α : Type} {m : M α} {s s' : St} {a : α} (h : m s = .ok a s') :
    attempt m s = .ok (.ok a) s' := by rw [attempt_run, h]

theorem attempt_err {α : Type} {m : M α} {s s' : St} {e : Err} (h : m s = .err e s') :
    attempt m s = .ok (.error e) s' := by rw [attempt_run, h]

theorem run_succ (W : World) (n d : Nat) (t : Task) :
    run W (n + 1) d t = runStep W (lower d (run W n)) (run W n d) t := rfl

@[simp] theorem lower_succ (d : Nat) (f : Nat → Task → M Val) : lower (d + 1) f = f d := rfl

@[simp] theorem lower_zero (f : Nat → Task → M Val) (t : Task) (s : St) : lower 0 f t s = .overflow s := rfl

theorem evalStep_notMacro {call tail : Task → M Val} {x : Val} {e : Nat} {s : St}
    (h : isMacroCallIn (lookup s.heap e) x = false) :
    evalStep call tail x e s = evExpr call tail x e s := by
  unfold evalStep
  rw [M.bind_ok (isMacroCallM_run _ _ _)]
  simp [h]

theorem evalStep_macro {call tail : Task → M Val} {x : Val} {e : Nat} {s : St}
    (h : isMacroCallIn (lookup s.heap e) x = true) :
    evalStep call tail x e s
      = (extend "eval macroexpansion" (call (.mexpand x e)) >>= fun y => evExpr call tail y e) s := by
  unfold evalStep
  rw [M.bind_ok (isMacroCallM_run _ _ _)]
  simp [h]

@[simp] theorem vlist_nil : vlist [] = .nil := rfl
@[simp] theorem vlist_cons (x : Val) (xs : List Val) : vlist (x :: xs) = .cons x (vlist xs) := rfl

@[simp] theorem isList_nil : Val.nil.isList = true := rfl
@[simp] theorem isList_cons (a d : Val) : (Val.cons a d).isList = true := rfl

@[simp] theorem isList_vlist (xs : List Val) : (vlist xs).isList = true := by
  cases xs <;> rfl

@[simp] theorem toList?_vlist (xs : List Val) : (vlist xs).toList? = some xs := by
  induction xs with
  | nil => rfl
  | cons x xs ih => simp [Val.toList?, ih]

theorem toList?_eq_some {v : Val} {xs : List Val} : v.toList? = some xs ↔ v = vlist xs := by
  constructor
  · intro h
    induction v generalizing xs with
    | nil => simp [Val.toList?] at h; subst h; rfl
    | cons a d _ ih =>
      simp only [Val.toList?, Option.map_eq_some_iff] at h
      obtain ⟨ys, hy, rfl⟩ := h
      rw [ih hy]; rfl
    | _ => simp [Val.toList?] at h
  · rintro rfl; simp

theorem vlist_inj {xs ys : List Val} (h : vlist xs = vlist ys) : xs = ys := by
  have := congrArg Val.toList? h
  simpa using this

end L1
