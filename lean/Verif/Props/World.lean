import Verif.Lemmas.World
import Verif.Lemmas.Limit
import Verif.Props.Invariants
import Verif.Lemmas.Calls
/-
Property C49: the outside world is the only source of nondeterminism, and it is consulted only through counted queries.
-/
set_option autoImplicit false
namespace L1

/-- C49.  Running the whole program again with the same arguments and input, in any world that gives the same answers to the
queries the first run made, gives the same outcome, output and final state - whatever that world would answer later. -/
theorem C49_replay_program (W W' : World) (n d : Nat) (core : List Char) (expr : Option (List Char)) (files : List String)
    (inp : List (List Char)) (s' : St) (hend : (mainProg W n d core expr files (initSt inp)).final = some s')
    (hW : Agree 0 s'.tick W W') :
    mainProg W' n d core expr files (initSt inp) = mainProg W n d core expr files (initSt inp) := by
  rcases (det_mainWith hW (fun t => det_run hW n d t) n core expr files).same (initSt inp) (Nat.zero_le _) with h | h
  · exact absurd (h s' hend) (Nat.lt_irrefl _)
  · exact h.symm

/-- A session of one line that asks the outside nothing. -/
example (W' : World) (h : Agree 0 0 sampleWorld W') :
    mainProg W' 9 9 [] none [] (initSt ["5".toList]) = mainProg sampleWorld 9 9 [] none [] (initSt ["5".toList]) :=
  C49_replay_program sampleWorld W' 9 9 [] none [] ["5".toList] { initSt [] with out := "> 5\n> \n".toList } rfl h

/-- C49.  The same for any single evaluation, from any state. -/
theorem C49_replay (W W' : World) (x : Val) (e : Nat) (s s' : St) (hend : (eval W x e s).final = some s')
    (hW : Agree s.tick s'.tick W W') : eval W' x e s = eval W x e s := by
  have hne : eval W x e s ≠ .oof := by intro h; rw [h] at hend; cases hend
  obtain ⟨hd, k, hk⟩ := run_of_perform hne
  have hk' : run W k k (.eval x e) s = eval W x e s := hk
  rcases (det_run hW k k (.eval x e)).same s (Nat.le_refl _) with h | h
  · exact absurd (h s' (by rw [hk']; exact hend)) (Nat.lt_irrefl _)
  · have hd' : (run W' k k (.eval x e) s).Definite := by rw [← h, hk]; exact hd
    exact (perform_of_run hd').trans (h.symm.trans hk')

/-- C49.  An evaluation that asks nothing of the outside has the same outcome in every world (with the same fixed tables). -/
theorem C49_no_queries (W W' : World) (x : Val) (e : Nat) (s s' : St) (hend : (eval W x e s).final = some s')
    (hno : s'.tick = s.tick) (htab : W.badNum = W'.badNum ∧ W.upper = W'.upper ∧ W.lower = W'.lower ∧ W.digit = W'.digit ∧ W.width = W'.width ∧ W.sorter = W'.sorter) :
    eval W' x e s = eval W x e s := by
  refine C49_replay W W' x e s s' hend ?_
  rw [hno]
  have h : ∀ t, s.tick ≤ t → ¬ t < s.tick := fun t h1 h2 => absurd (Nat.lt_of_le_of_lt h1 h2) (Nat.lt_irrefl _)
  exact ⟨fun t h1 h2 => absurd h2 (h t h1), fun t h1 h2 => absurd h2 (h t h1), fun t h1 h2 => absurd h2 (h t h1),
    fun t h1 h2 => absurd h2 (h t h1), fun t h1 h2 => absurd h2 (h t h1), fun t h1 h2 => absurd h2 (h t h1),
    htab.1, htab.2.1, htab.2.2.1, htab.2.2.2.1, htab.2.2.2.2.1, htab.2.2.2.2.2⟩

/-! The hypotheses are met, and matter: `(randint 10)` asks one question. -/

/-- A world whose random numbers are `f 0`, `f 1`, ... -/
def randWorld (f : Nat → Nat) : World := { sampleWorld with rand := f }

/-- `(+ 1 2)` asks the outside nothing. -/
example (f g : Nat → Nat) : eval (randWorld g) (form "+" [.num 1, .num 2]) 0 (initSt []) = eval (randWorld f) (form "+" [.num 1, .num 2]) 0 (initSt []) :=
  C49_no_queries _ _ _ _ _ (initSt []) (by rw [eval_of_run (n := 3) (d := 3) (r := .ok (.num 3) (initSt [])) rfl trivial]; rfl) rfl ⟨rfl, rfl, rfl, rfl, rfl, rfl⟩

theorem randint10 (f : Nat → Nat) (s : St) :
    perform (randWorld f) (.builtin .randint [.num 10] 0) s = .ok (.num (f s.tick % 10 : Nat)) { s with tick := s.tick + 1 } := by
  rw [perform_eq]; rfl

theorem eval_randint10 (f : Nat → Nat) :
    eval (randWorld f) (form "randint" [.num 10]) 0 (initSt []) = .ok (.num (f 0 % 10 : Nat)) { initSt [] with tick := 1 } := by
  refine (eval_native (b := .randint) rfl (.cons (v := .num 10) (by rw [eval_eq]; rfl) .nil)).trans ?_
  exact extend_ok (randint10 f _)

/-- Worlds that agree on the first random number only: the same result. -/
example (f g : Nat → Nat) (h : f 0 = g 0) :
    eval (randWorld g) (form "randint" [.num 10]) 0 (initSt []) = eval (randWorld f) (form "randint" [.num 10]) 0 (initSt []) := by
  refine C49_replay _ _ _ _ _ { initSt [] with tick := 1 } (by rw [eval_randint10]; rfl) ?_
  have h1 : ∀ t, (0 : Nat) ≤ t → t < 1 → f t = g t := fun t _ ht => by
    obtain rfl : t = 0 := by omega
    exact h
  exact ⟨fun _ _ _ => rfl, h1, fun _ _ _ => rfl, fun _ _ _ => rfl, fun _ _ _ => rfl, fun _ _ _ => rfl, rfl, rfl, rfl, rfl, rfl, rfl⟩

/-- Worlds that differ there: different results. -/
example : eval (randWorld fun _ => 3) (form "randint" [.num 10]) 0 (initSt []) ≠
    eval (randWorld fun _ => 4) (form "randint" [.num 10]) 0 (initSt []) := by
  rw [eval_randint10, eval_randint10]
  intro h
  cases h

end L1
