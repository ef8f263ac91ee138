import Verif.Lemmas.Frame
import Verif.Lemmas.Limit
/- Scopes are never discarded, from any state. -/
set_option autoImplicit false
namespace L1

/-- There are at least as many scopes. -/
def HeapLe (s s' : St) : Prop := s.heap.length ≤ s'.heap.length

theorem hlF : Frm HeapLe where
  refl _ := Nat.le_refl _
  trans _ _ _ h h' := Nat.le_trans h h'
  heap _ _ h := h
  out _ _ := Nat.le_refl _
  inp _ _ := Nat.le_refl _
  tick _ := Nat.le_refl _
  acts _ _ := Nat.le_refl _
  gensym _ _ := Nat.le_refl _

theorem FR.setScreenH {b : Bool} : FR HeapLe (setScreenM b) := fun s s' h => by cases h; exact Nat.le_refl _

theorem fr_termStartH {W : World} : FR HeapLe (termStart W) := by
  refine FR.bind hlF (FR.getScreenM hlF) fun b => FR.ite (FR.throwBase hlF) (FR.bind hlF (FR.askM hlF) fun o => ?_)
  cases o with
  | ok => exact FR.bind hlF FR.setScreenH fun _ => FR.actsM hlF
  | newFail m => exact FR.bind hlF FR.setScreenH fun _ => FR.extend hlF (FR.throwForeign hlF)
  | initFail m => exact FR.bind hlF FR.setScreenH fun _ => FR.extend hlF (FR.throwForeign hlF)

theorem grows_step {W : World} {call tail : Task → M Val} (hc : ∀ t, FR HeapLe (call t)) (ht : ∀ t, FR HeapLe (tail t)) (t : Task) :
    FR HeapLe (runStep W call tail t) := by
  by_cases hb : ∀ args e, t ≠ .builtin .screenStart args e ∧ t ≠ .builtin .screenEnd args e
  · exact fr_runStep hlF hc ht t hb
  · cases t with
    | builtin b args e =>
      cases b
      case screenStart => exact FR.bind hlF (FR.extend hlF fr_termStartH) fun _ => FR.pure hlF
      case screenEnd =>
        exact FR.bind hlF (FR.bind hlF (FR.getScreenM hlF) fun _ => FR.ite (FR.bind hlF (FR.actsM hlF) fun _ => FR.setScreenH) (FR.pure hlF)) fun _ => FR.pure hlF
      all_goals exact absurd (fun _ _ => by simp) hb
    | _ => exact absurd (fun _ _ => by simp) hb

theorem grows_run (W : World) (k : Nat) : ∀ (d : Nat) (t : Task), FR HeapLe (run W k d t) := by
  induction k with
  | zero => intro d t s s' h; cases h
  | succ k ih =>
    intro d t
    refine grows_step (fun t => ?_) (ih d) t
    cases d with
    | zero => intro s s' h; cases h; exact Nat.le_refl _
    | succ d => exact ih d t

/-- Evaluation never discards a scope. -/
theorem grows (W : World) (t : Task) (s s' : St) (h : (perform W t s).final = some s') : s.heap.length ≤ s'.heap.length := by
  by_cases ho : perform W t s = .oof
  · rw [ho] at h; cases h
  · obtain ⟨_, k, hk⟩ := run_of_perform ho
    rw [← hk] at h
    exact grows_run W k k t s s' h

end L1
