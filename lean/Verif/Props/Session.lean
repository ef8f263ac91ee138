import Verif.Spec.Session
import Verif.Props.Reader
import Verif.Props.Errors
import Verif.Lemmas.CoreLoad
import Verif.Props.Forms
import Mathlib.Data.Nat.Find
import Mathlib.Tactic.ByContra
/- C62: a whole session with the REPL. -/
set_option autoImplicit false
namespace L1

theorem groupRun_iff (W : World) (e : Nat) (vs : List Val) (s : St) (r : Res Unit) :
    GroupRun W e vs s r ↔ (attempt (evalExprs (perform W) true e vs) >>= fun _ => pure ()) s = r ∧ r ≠ .oof := by
  constructor
  · intro h
    induction h with
    | done => exact ⟨rfl, by simp⟩
    | value h1 _ ih =>
      refine ⟨Eq.trans ?_ ih.1, ih.2⟩
      rw [M.bind_run, M.bind_run, attempt_run, attempt_run]
      simp only [evalExprs, perform_eval]
      rw [M.bind_ok (attempt_ok h1)]
      rfl
    | error h1 =>
      refine ⟨?_, by simp⟩
      rw [M.bind_run, attempt_run]
      simp only [evalExprs, perform_eval]
      rw [M.bind_ok (attempt_err h1)]
      rfl
    | exit h1 =>
      refine ⟨?_, by simp⟩
      rw [M.bind_run, attempt_run]
      simp only [evalExprs, perform_eval]
      rw [M.bind_run, attempt_run, h1]
    | crash h1 =>
      refine ⟨?_, by simp⟩
      rw [M.bind_run, attempt_run]
      simp only [evalExprs, perform_eval]
      rw [M.bind_run, attempt_run, h1]
  · rintro ⟨h, hne⟩
    induction vs generalizing s with
    | nil => cases h; exact .done
    | cons x xs ih =>
      cases hx : eval W x e s with
      | ok v s1 =>
        refine .value hx (ih _ (Eq.trans ?_ h))
        rw [M.bind_run, M.bind_run, attempt_run, attempt_run]
        simp only [evalExprs, perform_eval]
        rw [M.bind_ok (attempt_ok hx)]
        rfl
      | err er s1 =>
        rw [M.bind_run, attempt_run] at h
        simp only [evalExprs, perform_eval] at h
        rw [M.bind_ok (attempt_err hx)] at h
        cases h; exact .error hx
      | crash w s1 =>
        rw [M.bind_run, attempt_run] at h
        simp only [evalExprs, perform_eval] at h
        rw [M.bind_run, attempt_run, hx] at h
        cases h; exact .crash hx
      | exit c s1 =>
        rw [M.bind_run, attempt_run] at h
        simp only [evalExprs, perform_eval] at h
        rw [M.bind_run, attempt_run, hx] at h
        cases h; exact .exit hx
      | overflow s1 => exact absurd hx perform_not_overflow
      | oof =>
        rw [M.bind_run, attempt_run] at h
        simp only [evalExprs, perform_eval] at h
        rw [M.bind_run, attempt_run, hx] at h
        exact absurd h.symm hne

/-- Any lines are an unfinished group, or begin with a complete or an over-closed one. -/
theorem lines_cases (ls : List (List Char)) : Unfinished ls ∨ ∃ as rest, ls = as ++ rest ∧ (CompleteGroup as ∨ OverClosed as) := by
  by_cases h : Unfinished ls
  · exact .inl h
  right
  unfold Unfinished at h
  have h : ∃ m, 0 < m ∧ m ≤ ls.length ∧ balance (replTokens (ls.take m)) ≤ 0 := by
    by_contra hc
    exact h fun m h1 h2 => by
      by_contra h3
      exact hc ⟨m, h1, h2, by omega⟩
  classical
  have hm := Nat.find_spec h
  have hmin : ∀ j, j < Nat.find h → ¬ (0 < j ∧ j ≤ ls.length ∧ balance (replTokens (ls.take j)) ≤ 0) := fun j hj => Nat.find_min h hj
  generalize Nat.find h = m at hm hmin
  have hlen : (ls.take m).length = m := by rw [List.length_take]; omega
  have hne : ls.take m ≠ [] := by
    intro e; rw [e] at hlen; simp at hlen; omega
  have hpos : ∀ j, 0 < j → j < (ls.take m).length → 0 < balance (replTokens ((ls.take m).take j)) := by
    intro j h1 h2
    rw [hlen] at h2
    rw [List.take_take, Nat.min_eq_left (by omega)]
    by_contra h3
    exact hmin j h2 ⟨h1, by omega, by omega⟩
  refine ⟨ls.take m, ls.drop m, (List.take_append_drop m ls).symm, ?_⟩
  by_cases hz : balance (replTokens (ls.take m)) = 0
  · exact .inl ⟨hne, hz, hpos⟩
  · exact .inr ⟨hne, by omega, hpos⟩

theorem repl_succ (call : Task → M Val) (e k : Nat) (s : St) :
    repl call e (k + 1) s = match replTurn call e s with
      | .ok true s1 => repl call e k s1
      | .ok false s1 => .ok () s1
      | .err er s1 => .err er s1
      | .crash w s1 => .crash w s1
      | .exit c s1 => .exit c s1
      | .overflow s1 => .overflow s1
      | .oof => .oof := by
  show (replTurn call e >>= fun b => if b then repl call e k else pure ()) s = _
  rw [M.bind_run]
  cases replTurn call e s with
  | ok b s1 => cases b <;> rfl
  | _ => rfl

/-- One turn on a complete group. -/
theorem turn_group (W : World) (e : Nat) (s : St) (as rest : List (List Char)) (vs : List Val) (hi : s.inp = as ++ rest) (hg : CompleteGroup as)
    (hp : Program (replTokens as) vs) : replTurn (perform W) e s =
      match (attempt (evalExprs (perform W) true e vs) >>= fun _ => pure ()) (prompted s rest) with
      | .ok () s1 => .ok true s1
      | .err er s1 => .err er s1
      | .crash w s1 => .crash w s1
      | .exit c s1 => .exit c s1
      | .overflow s1 => .overflow s1
      | .oof => .oof := by
  have h0 := C07_complete as rest hg.1 hg.2.1 hg.2.2
  rw [← hi] at h0
  rw [(C07_turn (perform W) e s).1 _ _ vs h0 ((C02_grammar _ _).2 hp), M.bind_run, M.bind_run]
  unfold prompted
  cases attempt (evalExprs (perform W) true e vs) { s with inp := rest, out := s.out ++ "> ".toList } <;> rfl

/-- C62: every session that ends is one of `Session`, and the program's outcome is the one given there. -/
theorem C62_session (W : World) (e : Nat) (s : St) (r : Res Unit) :
    Session W e s r ↔ r ≠ .oof ∧ ∃ n, repl (perform W) e n s = r := by
  constructor
  · intro h
    induction h with
    | eof hu =>
      refine ⟨by simp, 1, ?_⟩
      rw [repl_succ, (C07_turn (perform W) e _).2.2 (C07_eof _ hu)]
    | @tooMany s as rest r hi ho _ ih =>
      obtain ⟨h1, n, h2⟩ := ih
      refine ⟨h1, n + 1, ?_⟩
      have h0 := C07_too_many as rest ho.1 ho.2.1 ho.2.2
      rw [← hi] at h0
      rw [repl_succ, (C07_turn (perform W) e s).2.1 rest h0]; exact h2
    | @syntaxError s as rest er r hi hg hp _ ih =>
      obtain ⟨h1, n, h2⟩ := ih
      refine ⟨h1, n + 1, ?_⟩
      have h0 := C07_complete as rest hg.1 hg.2.1 hg.2.2
      rw [← hi] at h0
      rw [repl_succ, C04_repl (perform W) e s _ rest er h0 hp]; exact h2
    | @readerCrash s as rest hi hg hp =>
      refine ⟨by simp, 1, ?_⟩
      have h0 := C07_complete as rest hg.1 hg.2.1 hg.2.2
      rw [← hi] at h0
      have ht : replTurn (perform W) e s = .crash "index out of range" (prompted s rest) := by
        unfold replTurn; rw [M.bind_ok (printM_run _ _)]; simp only [h0]; rw [M.bind_ok (setInpM_run _ _)]; simp only [hp]; rfl
      rw [repl_succ, ht]
    | @group s s1 as rest vs r hi hg hp hr _ ih =>
      obtain ⟨h1, n, h2⟩ := ih
      refine ⟨h1, n + 1, ?_⟩
      rw [repl_succ, turn_group W e s as rest vs hi hg hp, ((groupRun_iff _ _ _ _ _).1 hr).1]; exact h2
    | @ended s as rest vs r hi hg hp hr hne =>
      obtain ⟨h1, h2⟩ := (groupRun_iff _ _ _ _ _).1 hr
      refine ⟨h2, 1, ?_⟩
      rw [repl_succ, turn_group W e s as rest vs hi hg hp, h1]
      cases r with
      | ok u s1 => exact absurd rfl (hne s1)
      | _ => rfl
  · rintro ⟨hne, n, h⟩
    induction n generalizing s with
    | zero => exact absurd h.symm hne
    | succ n ih =>
      rw [repl_succ] at h
      rcases lines_cases s.inp with hu | ⟨as, rest, hi, hg | ho⟩
      · rw [(C07_turn (perform W) e _).2.2 (C07_eof _ hu)] at h
        cases h; exact .eof hu
      · have h0 := C07_complete as rest hg.1 hg.2.1 hg.2.2
        rw [← hi] at h0
        cases hp : parseTop (replTokens as) with
        | ok vs =>
          have hp' := (C02_grammar _ _).1 hp
          rw [turn_group W e s as rest vs hi hg hp'] at h
          generalize hr : (attempt (evalExprs (perform W) true e vs) >>= fun _ => pure ()) (prompted s rest) = r' at h
          by_cases hr0 : r' = .oof
          · rw [hr0] at h; exact absurd h.symm hne
          have hg' := (groupRun_iff _ _ _ _ _).2 ⟨hr, hr0⟩
          cases r' with
          | ok u s1 => exact .group hi hg hp' hg' (ih s1 h)
          | err er s1 => cases h; exact .ended hi hg hp' hg' (by simp)
          | crash w s1 => cases h; exact .ended hi hg hp' hg' (by simp)
          | exit c s1 => cases h; exact .ended hi hg hp' hg' (by simp)
          | overflow s1 => cases h; exact .ended hi hg hp' hg' (by simp)
          | oof => exact absurd rfl hr0
        | err er =>
          rw [C04_repl (perform W) e s _ rest er h0 hp] at h
          exact .syntaxError hi hg hp (ih _ h)
        | crash =>
          have ht : replTurn (perform W) e s = .crash "index out of range" (prompted s rest) := by
            unfold replTurn; rw [M.bind_ok (printM_run _ _)]; simp only [h0]; rw [M.bind_ok (setInpM_run _ _)]; simp only [hp]; rfl
          rw [ht] at h; cases h; exact .readerCrash hi hg hp
        | fuel => exact absurd hp (parseTop_ne_fuel _)
      · have h0 := C07_too_many as rest ho.1 ho.2.1 ho.2.2
        rw [← hi] at h0
        rw [(C07_turn (perform W) e s).2.1 rest h0] at h
        exact .tooMany hi ho (ih _ h)

theorem repl_more (call : Task → M Val) (e n : Nat) (s : St) (h : repl call e n s ≠ .oof) : repl call e (n + 1) s = repl call e n s := by
  induction n generalizing s with
  | zero => exact absurd rfl h
  | succ n ih =>
    rw [repl_succ] at h ⊢
    rw [repl_succ]
    cases ht : replTurn call e s with
    | ok b s1 =>
      cases b with
      | true => rw [ht] at h; exact ih s1 h
      | false => rfl
    | _ => rfl

/-- C62: a session has only one outcome. -/
theorem C62_unique (W : World) (e : Nat) (s : St) (r r' : Res Unit) (h : Session W e s r) (h' : Session W e s r') : r = r' := by
  obtain ⟨h1, n, h2⟩ := (C62_session W e s r).1 h
  obtain ⟨h3, m, h4⟩ := (C62_session W e s r').1 h'
  have up : ∀ (r : Res Unit) (n k : Nat), r ≠ .oof → repl (perform W) e n s = r → repl (perform W) e (n + k) s = r := by
    intro r n k hr hn
    induction k with
    | zero => exact hn
    | succ k ih => rw [← Nat.add_assoc, repl_more _ _ _ _ (by rw [ih]; exact hr), ih]
  have e1 := up r n m h1 h2
  have e2 := up r' m n h3 h4
  rw [Nat.add_comm] at e2
  exact e1.symm.trans e2

/-- An empty input ends the session at once, and no other way. -/
example (r : Res Unit) (h : Session sampleWorld 0 (initSt []) r) : r = .ok () { initSt [] with out := "> \n".toList } :=
  C62_unique _ _ _ _ _ h (.eof (fun m h1 h2 => by simp [initSt] at h2; omega))

/-- C62: started without arguments, the program loads the core library and then is such a session. -/
theorem C62_main (W : World) (inp : List (List Char)) (r : Res Unit) :
    Session W 0 (topSt (initSt inp) coreEnv) r ↔ r ≠ .oof ∧ ∃ n, mainWith W (perform W) n coreText none [] (initSt inp) = r := by
  rw [C62_session]
  simp only [(C58_modes W _ inp).2]

/-- A session of three lines: `(list 1` and `2)` give `(1 2)`; then the input ends. -/
example : Session sampleWorld 0 (initSt ["(list 1".toList, "2)".toList])
    (.ok () { initSt [] with out := "> (1 2)\n> \n".toList }) := by
  refine .group (as := ["(list 1".toList, "2)".toList]) (rest := []) (vs := [vlist [.atom "list", .num 1, .num 2]])
    (s1 := { initSt [] with out := "> (1 2)\n".toList }) rfl
    ⟨by decide, by decide +kernel, fun m h1 h2 => by
      have : m = 1 := by simp at h2; omega
      subst this; decide +kernel⟩
    ((C02_grammar _ _).1 (by decide +kernel)) ?_ ?_
  · refine .value (v := vlist [.num 1, .num 2]) (s1 := prompted (initSt []) []) ?_ .done
    refine (eval_native (W := sampleWorld) (b := .list) (e := 0) (s := prompted (initSt []) []) (s1 := prompted (initSt []) []) (xs := [.num 1, .num 2])
      (vs := [.num 1, .num 2]) rfl (.cons (s1 := prompted (initSt []) []) (by rw [eval_eq]; rfl) (.cons (s1 := prompted (initSt []) []) (by rw [eval_eq]; rfl) .nil))).trans ?_
    show extend _ (perform sampleWorld (.builtin .list [.num 1, .num 2] 0)) _ = _
    unfold extend; rw [perform_eq]; rfl
  · exact .eof (fun m h1 h2 => by simp [initSt] at h2; omega)

end L1
