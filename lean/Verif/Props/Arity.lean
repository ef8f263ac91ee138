import Verif.Spec.Arity
import Verif.Props.Forms
/-
C69: the documented numbers of arguments.
-/
set_option autoImplicit false
namespace L1

theorem native_run (W : World) (b : BI) (args : List Val) (e : Nat) (s : St) :
    perform W (.builtin b args e) s = biFn W (perform W) b args e s := by rw [perform_eq]; rfl

instance (b : BI) (n : Nat) : Decidable (AllowsArgs b n) := by unfold AllowsArgs; infer_instance

/-- C69: a native function called with a number of arguments that its documentation does not allow raises an error that can be caught, and does
nothing. -/
theorem C69_native (W : World) (b : BI) (args : List Val) (e : Nat) (s : St) (h : ¬ AllowsArgs b args.length) (h1 : b ∉ ignoresArgs)
    (h2 : b ∉ otherArity) : ∃ m, perform W (.builtin b args e) s = .err (.list m) s := by
  cases b <;> first
    | exact absurd (by decide) h1
    | exact absurd (by decide) h2
    | exact absurd (Nat.zero_le args.length) h
    | (rcases args with _ | ⟨a1, _ | ⟨a2, _ | ⟨a3, _ | ⟨a4, args⟩⟩⟩⟩ <;> first
        | (exfalso; apply h; simp only [AllowsArgs, biDoc, List.length_cons, List.length_nil]; simp; done)
        | exact ⟨_, (native_run W _ _ e s).trans rfl⟩
        | (cases a1 <;> exact ⟨_, (native_run W _ _ e s).trans rfl⟩)
        | (cases a1 <;> cases a2 <;> exact ⟨_, (native_run W _ _ e s).trans rfl⟩))

/-- C69: the other native functions without documented parameters do the same whatever they are given. -/
theorem C69_ignored (W : World) (b : BI) (h : b ∈ ignoresArgs) (args : List Val) (e : Nat) (s : St) :
    perform W (.builtin b args e) s = perform W (.builtin b [] e) s := by
  rw [native_run, native_run]
  cases b <;> first
    | rfl
    | exact absurd h (by decide)

/-- C69: the three functions that accept other numbers of arguments than documented: `/` needs one (and returns it if it is a number), `apply` at least
two, `gensym` at most one. -/
theorem C69_other (W : World) (args : List Val) (e : Nat) (s : St) :
    (args.length < 1 → ∃ m, perform W (.builtin .div args e) s = .err (.list m) s) ∧
    (∀ n, args = [.num n] → perform W (.builtin .div args e) s = .ok (.num n) s) ∧
    (args.length < 2 → ∃ m, perform W (.builtin .apply args e) s = .err (.list m) s) ∧
    (1 < args.length → ∃ m, perform W (.builtin .gensym args e) s = .err (.list m) s) := by
  rw [native_run, native_run, native_run]
  refine ⟨fun h => ?_, fun n h => by subst h; rfl, fun h => ?_, fun h => ?_⟩ <;>
    (rcases args with _ | ⟨a1, _ | ⟨a2, args⟩⟩ <;> first
      | exact ⟨_, rfl⟩
      | (exfalso; revert h; simp; done)
      | (cases a1 <;> exact ⟨_, rfl⟩))

/-- `(gensym (quote a) (quote b))`. -/
example : ∃ m, perform sampleWorld (.builtin .gensym [.atom "a", .atom "b"] 0) (initSt []) = .err (.list m) (initSt []) :=
  (C69_other _ _ _ _).2.2.2 (by decide)

/-- C69: a special form with fewer expressions than documented raises an error that can be caught, and does nothing.  (`(loop)` loops forever.) -/
theorem C69_special (W : World) (f : SF) (xs : List Val) (e : Nat) (s : St) (hm : NotMacro s.heap e f.name) (h : xs.length < neededBy f)
    (hl : f ≠ .loop) : ∃ m, eval W (form f.name xs) e s = .err (.list m) s := by
  rw [eval_named W f hm rfl]
  cases f <;> first
    | exact absurd rfl hl
    | (exfalso; exact absurd h (Nat.not_lt_zero _))
    | (rcases xs with _ | ⟨a1, _ | ⟨a2, xs⟩⟩ <;> first
        | exact ⟨_, rfl⟩
        | (exfalso; revert h; simp [neededBy, specialDocs, SF.name]; done)
        | (cases a1 <;> exact ⟨_, rfl⟩))

/-- C69: the special forms documented to take a fixed number of expressions ignore further ones. -/
theorem C69_extra (W : World) (f : SF) (hf : f ∈ fixedForms) (xs ys : List Val) (e : Nat) (s : St) (hm : NotMacro s.heap e f.name)
    (h : xs.length = neededBy f) : eval W (form f.name (xs ++ ys)) e s = eval W (form f.name xs) e s := by
  rw [eval_named W f hm rfl, eval_named W f hm rfl]
  cases f <;> first
    | exact absurd hf (by decide)
    | (rcases xs with _ | ⟨a1, _ | ⟨a2, _ | ⟨a3, xs⟩⟩⟩ <;> first
        | rfl
        | (exfalso; revert h; simp [neededBy, specialDocs, SF.name]; done)
        | (cases a1 <;> rfl))

example : ∃ m, perform sampleWorld (.builtin .car [.num 1, .num 2] 0) (initSt []) = .err (.list m) (initSt []) :=
  C69_native _ _ _ _ _ (by decide) (by decide) (by decide)

example : perform sampleWorld (.builtin .version [.num 1, .num 2] 0) (initSt []) = .ok versionVal (initSt []) := by
  rw [C69_ignored _ _ (by decide), native_run]; rfl

example : ∃ m, eval sampleWorld (form "set!" [.atom "x"]) 0 (initSt []) = .err (.list m) (initSt []) :=
  C69_special _ .set _ _ _ (notMacro_init [] _) (by decide) nofun

example : eval sampleWorld (form "quote" [.num 1, .num 2]) 0 (initSt []) = .ok (.num 1) (initSt []) := by
  refine (C69_extra sampleWorld .quote (by decide) [.num 1] [.num 2] 0 _ (notMacro_init [] _) (by decide)).trans ?_
  rw [eval_named sampleWorld .quote (notMacro_init [] _) rfl]; rfl

end L1
