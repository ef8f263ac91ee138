import Verif.Lemmas.Effects
import Verif.Props.Control
import Verif.Props.Screen
import Verif.Props.World
import Verif.Lemmas.Core
import Verif.Lemmas.WatchRun
/-
C65: effects come only from the functions and forms that have them.  C66: only assignments change variables.
`before x` (Spec/Effects.lean) stops an execution just before anything having effect `x`.
-/
set_option autoImplicit false
namespace L1

/-- `((lambda (n) (let ((k (* n n))) (list k (quote (println k))))) 7)`. -/
def calmExpr : Val :=
  vlist [form "lambda" [vlist [.atom "n"], form "let" [vlist [vlist [.atom "k", form "*" [.atom "n", .atom "n"]]],
    form "list" [.atom "k", form "quote" [form "println" [.atom "k"]]]]], .num 7]

/-- It has none of the effects. -/
theorem calm_run (x : Eff) : ∃ s', (runWatched sampleWorld (before x) 30 30 (.eval calmExpr 0) (initSt [])).final = some s' ∧ s'.heap.length = 3 := by
  have h : ((runChecked sampleWorld (beforePre x) (beforePost x) 30 30 (.eval calmExpr 0) (initSt [])).final.map fun s => s.heap.length) = some 3 := by
    cases x <;> decide +kernel
  rw [runBefore_eq] at h
  exact Option.map_eq_some_iff.1 h

/-- Watching changes nothing: a watched run is the real run, unless a check failed. -/
theorem watched_or_real (W : World) (P : Watch) (n d : Nat) (t : Task) (s : St) :
    (∃ s', runWatched W P n d t s = .crash "watch" s') ∨ runWatched W P n d t s = run W n d t s := by
  have key : ∀ (n d : Nat) (t : Task), Le { crash := fun m => m = "watch" } (runWatched W P n d t) (run W n d t) := by
    intro n
    induction n with
    | zero => intro d t s; exact .inr rfl
    | succ n ih =>
      intro d t s
      have h1 : Le { crash := fun m => m = "watch" } (runStep W (lower d (runWatched W P n)) (runWatched W P n d) t)
          (runStep W (lower d (run W n)) (run W n d) t) := by
        refine le_runStep ?_ (ih d) t
        intro t s
        cases d with
        | zero => exact .inr rfl
        | succ d => exact ih d t s
      simp only [runWatched, watched]
      split
      · split
        · exact h1 s
        · exact .inl rfl
      · exact .inl rfl
  rcases key n d t s with h | h
  · left
    cases hr : runWatched W P n d t s with
    | crash m s1 => rw [hr] at h; cases h; exact ⟨s1, rfl⟩
    | _ => rw [hr] at h; exact h.elim
  · exact .inr h

/-- C65: until something that prints is called (`print`, `println`, `printl`, `help`, the form `test`), nothing is written. -/
theorem C65_output (W : World) (n d : Nat) (t : Task) (s s' : St) (h : (runWatched W (before .output) n d t s).final = some s') :
    s'.out = s.out := kept_before .output W n d t s s' h

/-- `calmExpr` prints nothing. -/
example : ∃ s', (runWatched sampleWorld (before .output) 30 30 (.eval calmExpr 0) (initSt [])).final = some s' ∧ s'.out = (initSt []).out :=
  have ⟨s', h, _⟩ := calm_run .output; ⟨s', h, C65_output _ _ _ _ _ _ h⟩

/-- C65: until `readlist` is called, no input is consumed. -/
theorem C65_input (W : World) (n d : Nat) (t : Task) (s s' : St) (h : (runWatched W (before .input) n d t s).final = some s') :
    s'.inp = s.inp := kept_before .input W n d t s s' h

example : ∃ s', (runWatched sampleWorld (before .input) 30 30 (.eval calmExpr 0) (initSt [])).final = some s' ∧ s'.inp = (initSt []).inp :=
  have ⟨s', h, _⟩ := calm_run .input; ⟨s', h, C65_input _ _ _ _ _ _ h⟩

/-- C65: until a function that asks the outside world is called (`randint`, `shuffle`, `shell`, `load`, `forms`, `help`, `screen-start`,
`screen-size`, `screen-get-key`), the outside world is not asked anything. -/
theorem C65_world (W : World) (n d : Nat) (t : Task) (s s' : St) (h : (runWatched W (before .world) n d t s).final = some s') :
    s'.tick = s.tick := kept_before .world W n d t s s' h

example : ∃ s', (runWatched sampleWorld (before .world) 30 30 (.eval calmExpr 0) (initSt [])).final = some s' ∧ s'.tick = (initSt []).tick :=
  have ⟨s', h, _⟩ := calm_run .world; ⟨s', h, C65_world _ _ _ _ _ _ h⟩

/-- C65: until `gensym` is called, no name is issued. -/
theorem C65_names (W : World) (n d : Nat) (t : Task) (s s' : St) (h : (runWatched W (before .names) n d t s).final = some s') :
    s'.gensym = s.gensym ∧ s'.issued = s.issued := kept_before .names W n d t s s' h

example : ∃ s', (runWatched sampleWorld (before .names) 30 30 (.eval calmExpr 0) (initSt [])).final = some s' ∧
    s'.gensym = (initSt []).gensym ∧ s'.issued = (initSt []).issued :=
  have ⟨s', h, _⟩ := calm_run .names; ⟨s', h, C65_names _ _ _ _ _ _ h⟩

/-- C65: until `screen-start`, `screen-end`, `screen-clear`, `screen-write` or `sleep` is called, the terminal and the clock are not told anything. -/
theorem C65_device (W : World) (n d : Nat) (t : Task) (s s' : St) (h : (runWatched W (before .device) n d t s).final = some s') :
    s'.screen.acts = s.screen.acts := kept_before .device W n d t s s' h

example : ∃ s', (runWatched sampleWorld (before .device) 30 30 (.eval calmExpr 0) (initSt [])).final = some s' ∧ s'.screen.acts = (initSt []).screen.acts :=
  have ⟨s', h, _⟩ := calm_run .device; ⟨s', h, C65_device _ _ _ _ _ _ h⟩

/-- C65: in other words, a run after which something has been printed, read, asked, named, drawn or waited for, or the screen started or ended, has on its way called a
function or evaluated a form with that effect. -/
theorem C65_caused (x : Eff) (W : World) (n d : Nat) (t : Task) (s s' : St) (h : (run W n d t s).final = some s') (hx : ¬ Kept x s s') :
    ∃ s1, runWatched W (before x) n d t s = .crash "watch" s1 := by
  rcases watched_or_real W (before x) n d t s with h1 | h1
  · exact h1
  · exact absurd (kept_before x W n d t s s' (by rw [h1]; exact h)) hx

/-- C65: an evaluation that never reaches such a function has the same outcome whatever random numbers, files, subprocesses and terminal there are. -/
theorem C65_any_world (W W' : World) (x : Val) (e : Nat) (s s' : St) (h : (eval W x e s).final = some s')
    (hno : ∀ n d s1, runWatched W (before .world) n d (.eval x e) s ≠ .crash "watch" s1)
    (htab : W.badNum = W'.badNum ∧ W.upper = W'.upper ∧ W.lower = W'.lower ∧ W.digit = W'.digit ∧ W.width = W'.width ∧ W.sorter = W'.sorter) : eval W' x e s = eval W x e s := by
  refine C49_no_queries W W' x e s s' h ?_ htab
  have hne : eval W x e s ≠ .oof := by intro h'; rw [h'] at h; cases h
  obtain ⟨hd, k, hk⟩ := run_of_perform hne
  rcases watched_or_real W (before .world) k k (.eval x e) s with ⟨s1, h1⟩ | h1
  · exact absurd h1 (hno _ _ _)
  · exact C65_world W k k (.eval x e) s s' (by rw [h1, hk]; exact h)

/-- C65: a script (files or `-e`) consumes standard input only through `readlist`: until the first call of it, all input is still there. -/
theorem C65_script_input (W : World) (n d k : Nat) (core : List Char) (expr : Option (List Char)) (files : List String) (s s' : St)
    (hscript : expr ≠ none ∨ files ≠ [])
    (h : (mainWith W (runWatched W (before .input) n d) k core expr files s).final = some s') : s'.inp = s.inp := by
  have hc : ∀ t, NE .input 0 (runWatched W (before .input) n d t) := by
    intro t s s' _ h
    exact ⟨Nat.zero_le _, kept_before .input W n d t s s' h⟩
  have hl : ∀ text, NE .input 0 (lexParseEval (runWatched W (before .input) n d) text 0) := by
    intro text
    exact NE.bind NE.liftParse fun gs => ef_evalExprs hc gs
  have hp : ∀ cs, NE .input 0 (printM cs) := fun cs => NE.printM (by simp)
  have hf : ∀ fs, NE .input 0 (runFiles W (runWatched W (before .input) n d) 0 fs) := by
    intro fs
    induction fs with
    | nil => exact NE.pure
    | cons f fs ih =>
      refine NE.bind (NE.attempt (ef_loadFile hc (by simp))) fun r => ?_
      cases r with
      | error er => exact NE.bind (hp _) fun _ => NE.exitM
      | ok _ => exact ih
  have hm : NE .input 0 (mainWith W (runWatched W (before .input) n d) k core expr files) := by
    refine NE.bind (NE.attempt (hl _)) fun r => ?_
    cases r with
    | error er => exact NE.bind (hp _) fun _ => NE.exitM
    | ok _ =>
      cases expr with
      | some text =>
        refine NE.bind (NE.attempt (hl _)) fun r => ?_
        cases r with
        | error er => exact NE.bind (hp _) fun _ => NE.exitM
        | ok _ => exact NE.exitM
      | none =>
        cases files with
        | nil => simp at hscript
        | cons f fs => exact hf _
  exact (hm s s' (Nat.zero_le _) h).2

/-- `l1 -e '(+ 1 2)'` with a line of standard input. -/
example : ∃ s', (mainWith sampleWorld (runWatched sampleWorld (before .input) 9 9) 9 [] (some "(+ 1 2)".toList) [] (initSt [['a']])).final = some s' ∧ s'.inp = [['a']] := by
  have h : (mainWith sampleWorld (runChecked sampleWorld (beforePre .input) (beforePost .input) 9 9) 9 [] (some "(+ 1 2)".toList) [] (initSt [['a']])).final.isSome = true := by
    decide +kernel
  rw [runBefore_eq] at h
  obtain ⟨s', hs⟩ := Option.isSome_iff_exists.1 h
  exact ⟨s', hs, C65_script_input _ _ _ _ _ _ _ _ _ (.inl (by simp)) hs⟩

/-- C66: until a `def`, `defn`, `defmacro`, `set!` or named `lambda` is evaluated, every scope that exists keeps exactly its variables and their
values: new scopes are added after the existing ones, and that is all. -/
theorem C66_variables (W : World) (n d : Nat) (t : Task) (s s' : St) (h : (runWatched W (before .vars) n d t s).final = some s') :
    s.heap <+: s'.heap := kept_before .vars W n d t s s' h

/-- `calmExpr` adds two scopes and changes none. -/
example : ∃ s', (runWatched sampleWorld (before .vars) 30 30 (.eval calmExpr 0) (initSt [])).final = some s' ∧ (initSt []).heap <+: s'.heap ∧ s'.heap.length = 3 :=
  have ⟨s', h, hl⟩ := calm_run .vars; ⟨s', h, C66_variables _ _ _ _ _ _ h, hl⟩

/-- C66: so a run after which a name means something else in a scope that existed before evaluated an assignment on its way. -/
theorem C66_caused (W : World) (n d : Nat) (t : Task) (s s' : St) (ho : Older s.heap) (e : Nat) (y : String) (he : e < s.heap.length)
    (h : (run W n d t s).final = some s') (hx : lookup s'.heap e y ≠ lookup s.heap e y) :
    ∃ s1, runWatched W (before .vars) n d t s = .crash "watch" s1 :=
  C65_caused .vars W n d t s s' h fun hk => hx (lookup_prefix hk ho he y)

/-! The hypotheses are met. -/

/-- `(println 1)` prints, and so is stopped. -/
example : ∃ s1, runWatched sampleWorld (before .output) 9 9 (.eval (form "println" [.num 1]) 0) (initSt []) = .crash "watch" s1 :=
  C65_caused .output sampleWorld 9 9 _ (initSt []) { initSt [] with out := "1\n".toList } rfl (by simp [Kept, initSt])

/-- `(set! SPACE 1)` changes what `SPACE` means, and so is stopped. -/
example : ∃ s1, runWatched sampleWorld (before .vars) 9 9 (.eval (form "set!" [.atom "SPACE", .num 1]) 0) (initSt []) = .crash "watch" s1 := by
  refine C66_caused sampleWorld 9 9 _ (initSt []) _ ?_ 0 "SPACE" (by simp [initSt]) rfl ?_
  · exact older_init []
  · decide +kernel

/-- `(let ((x 1)) x)` is not stopped: it changes no variable, although it makes a scope with one. -/
example : (run sampleWorld 9 9 (.eval (form "let" [vlist [vlist [.atom "x", .num 1]], .atom "x"]) 0) (initSt [])).final
    = some { initSt [] with heap := [initGlobals, ⟨[("x", .num 1)], some 0⟩] } := rfl

/-- `(quote (randint 10))` asks nothing. -/
example (W W' : World) (htab : W.badNum = W'.badNum ∧ W.upper = W'.upper ∧ W.lower = W'.lower ∧ W.digit = W'.digit ∧ W.width = W'.width ∧ W.sorter = W'.sorter) :
    eval W' (form "quote" [form "randint" [.num 10]]) 0 (initSt []) = eval W (form "quote" [form "randint" [.num 10]]) 0 (initSt []) := by
  have hr : ∀ (W : World) (call tail : Task → M Val),
      runStep W call tail (.eval (form "quote" [form "randint" [.num 10]]) 0) (initSt []) = .ok (form "randint" [.num 10]) (initSt []) := fun _ _ _ => rfl
  refine C65_any_world W W' _ 0 (initSt []) (initSt []) ?_ ?_ htab
  · show (perform W _ _).final = _
    rw [perform_eq, hr]; rfl
  · intro n d s1 h
    cases n with
    | zero => cases h
    | succ n =>
      have h1 : (before .world).pre (.eval (form "quote" [form "randint" [.num 10]]) 0) (initSt []) := by simp [before, form, vlist, Val.formEffects]
      rw [runWatched, watched_pass h1 trivial, hr] at h
      cases h

end L1
