import Verif.Spec.Effects
/-
For the examples only: `runWatched` with decidable checks, computable.
-/
set_option autoImplicit false
namespace L1

/-- `runWatched` with the checks `pre` and `post`. -/
def runChecked (W : World) (pre : Task → St → Bool) (post : Task → St → Res Val → Bool) : Nat → Nat → Task → M Val
  | 0, _, _ => fun _ => .oof
  | n + 1, d, t => fun s =>
    let r := runStep W (lower d (runChecked W pre post n)) (runChecked W pre post n d) t s
    if pre t s then if post t s r then r else .crash "watch" s else .crash "watch" s

theorem runChecked_eq (W : World) (P : Watch) (pre : Task → St → Bool) (post : Task → St → Res Val → Bool)
    (h1 : ∀ t s, P.pre t s ↔ pre t s = true) (h2 : ∀ t s r, P.post t s r ↔ post t s r = true) (n : Nat) :
    ∀ d, runChecked W pre post n d = runWatched W P n d := by
  induction n with
  | zero => intro d; rfl
  | succ n ih =>
    intro d
    funext t s
    have e : runChecked W pre post n = runWatched W P n := funext ih
    show (if pre t s = true then if post t s (runStep W (lower d (runChecked W pre post n)) (runChecked W pre post n d) t s) = true
        then runStep W (lower d (runChecked W pre post n)) (runChecked W pre post n d) t s else .crash "watch" s else .crash "watch" s)
      = watched P (runStep W (lower d (runWatched W P n)) (runWatched W P n d)) t s
    rw [e]
    unfold watched
    by_cases hp : P.pre t s
    · rw [if_pos hp, if_pos ((h1 t s).1 hp)]
      by_cases hq : P.post t s (runStep W (lower d (runWatched W P n)) (runWatched W P n d) t s)
      · rw [if_pos hq, if_pos ((h2 _ _ _).1 hq)]
      · rw [if_neg hq, if_neg fun h => hq ((h2 _ _ _).2 h)]
    · rw [if_neg hp, if_neg fun h => hp ((h1 t s).2 h)]

/-- The checks of `before x`, computable. -/
def beforePre (x : Eff) : Task → St → Bool
  | .builtin b _ _, _ => decide (x ∉ b.effects)
  | .eval v _, _ => decide (x ∉ v.formEffects)
  | _, _ => true

def beforePost (x : Eff) : Task → St → Res Val → Bool
  | .mexpand _ _, _, .ok v _ => decide (x ∉ v.formEffects)
  | _, _, _ => true

theorem runBefore_eq (W : World) (x : Eff) (n d : Nat) : runChecked W (beforePre x) (beforePost x) n d = runWatched W (before x) n d := by
  refine runChecked_eq W (before x) _ _ ?_ ?_ n d
  · intro t s
    cases t <;> simp [before, beforePre]
  · intro t s r
    cases t <;> cases r <;> simp [before, beforePost]

end L1
