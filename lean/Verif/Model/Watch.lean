import Verif.Model.Main
/-
Specification device, not part of the code: saying that something holds at *every* point of *every* execution.

`runWatched` is `run` with a check before and after every task (every call of `eval`, every macro
expansion step, every turn of a loop, every call of a native function).  When a check fails, the run ends at
once with the outcome `crash "watch"`, which nothing in the interpreter produces or catches.  "The run never
ends with `crash "watch"`, whatever the budgets" therefore says that all checks succeed at every point,
including in executions that never end.
-/
set_option autoImplicit false
namespace L1

/-- What to check: `pre` when a task starts, `post` when it ends (start state and outcome). -/
structure Watch where
  pre : Task → St → Prop := fun _ _ => True
  post : Task → St → Res Val → Prop := fun _ _ _ => True

open Classical in
/-- Perform a task with the checks. -/
noncomputable def watched (P : Watch) (f : Task → M Val) : Task → M Val := fun t s =>
  if P.pre t s then
    if P.post t s (f t s) then f t s else .crash "watch" s
  else .crash "watch" s

/-- `run` with the checks at every task. -/
noncomputable def runWatched (W : World) (P : Watch) : Nat → Nat → Task → M Val
  | 0, _, _ => fun _ => .oof
  | n + 1, d, t => watched P (runStep W (lower d (runWatched W P n)) (runWatched W P n d)) t

/-- The whole program started with any input, core library, `-e` text or files: at every task of its
execution, the checks succeed. -/
def Always (W : World) (P : Watch) : Prop :=
  ∀ (n d : Nat) (inp : List (List Char)) (core : List Char) (expr : Option (List Char)) (files : List String) (s : St),
    mainWith W (runWatched W P n d) n core expr files (initSt inp) ≠ .crash "watch" s

/-- The state at the end, if the computation ended. -/
def Res.final {α : Type} : Res α → Option St
  | .ok _ s => some s
  | .err _ s => some s
  | .crash _ s => some s
  | .exit _ s => some s
  | .overflow s => some s
  | .oof => none

end L1
