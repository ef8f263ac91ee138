import Verif.Spec.Status
import Verif.Props.Session
import Verif.Props.Docs
import Verif.Lemmas.CoreEnum
/-
C76: the exit status.
-/
set_option autoImplicit false
namespace L1

variable {W : World}

/-- What an outcome means for what comes after the text. -/
def endingOf : Res Unit → Option (Ending × St)
  | .ok _ s => some (.finished, s)
  | .err er s => some (.failed er, s)
  | .exit c s => some (.stopped c, s)
  | .crash _ s => some (.stopped 2, s)
  | .overflow s => some (.stopped 2, s)
  | .oof => none

/-- The forms all have values, or one is the first that does not. -/
theorem evalExprs_split (W : World) (e : Nat) (gs : List Val) : ∀ s : St,
    (∃ vs s1, EvalsTo W e gs s vs s1 ∧ evalExprs (perform W) false e gs s = .ok () s1) ∨
    ∃ before x later vs s1, gs = before ++ x :: later ∧ EvalsTo W e before s vs s1 ∧ (∀ v s2, eval W x e s1 ≠ .ok v s2) ∧
      evalExprs (perform W) false e gs s = (perform W (.eval x e) >>= fun _ => (pure () : M Unit)) s1 := by
  induction gs with
  | nil => exact fun s => .inl ⟨[], s, .nil, rfl⟩
  | cons g gs ih =>
    intro s
    cases hr : perform W (.eval g e) s with
    | ok v s1 =>
      have h1 : evalExprs (perform W) false e (g :: gs) s = evalExprs (perform W) false e gs s1 := by
        simp only [evalExprs]
        rw [M.bind_ok (attempt_ok hr)]; rfl
      rw [h1]
      rcases ih s1 with ⟨vs, s2, h2, h3⟩ | ⟨before, x, later, vs, s2, h2, h3, h4, h5⟩
      · exact .inl ⟨v :: vs, s2, .cons hr h2, h3⟩
      · exact .inr ⟨g :: before, x, later, v :: vs, s2, by rw [h2]; rfl, .cons hr h3, h4, h5⟩
    | err er s1 =>
      refine .inr ⟨[], g, gs, [], s, rfl, .nil, fun v s2 h => ?_, ?_⟩
      · rw [show eval W g e s = perform W (.eval g e) s from rfl, hr] at h; cases h
      · simp only [evalExprs]
        rw [M.bind_ok (attempt_err hr), M.bind_err hr]; rfl
    | _ =>
      refine .inr ⟨[], g, gs, [], s, rfl, .nil, fun v s2 h => ?_, ?_⟩
      · rw [show eval W g e s = perform W (.eval g e) s from rfl, hr] at h; cases h
      · simp only [evalExprs]
        rw [M.bind_run, M.bind_run, attempt_run, hr]

/-- The text of forms, as described. -/
theorem textRun_iff (text : List Char) (s s' : St) (en : Ending) :
    TextRun W text s en s' ↔ endingOf (lexParseEval (perform W) text 0 s) = some (en, s') := by
  unfold lexParseEval
  constructor
  · intro h
    cases h with
    | syntaxError h => rw [h]; rfl
    | readerPanic h => rw [h]; rfl
    | finished h1 h2 =>
      rw [h1]
      show endingOf (evalExprs (perform W) false 0 _ s) = _
      rw [C42_all W 0 _ _ _ _ h2]; rfl
    | error h1 h2 h3 =>
      rw [h1]
      show endingOf (evalExprs (perform W) false 0 _ s) = _
      rw [C42_stops W 0 _ _ _ _ _ _ _ _ h2 h3]; rfl
    | exit h1 h2 h3 =>
      rw [h1]
      show endingOf (evalExprs (perform W) false 0 _ s) = _
      rw [(C42_crash W 0 _ _ _ _ _ _ h2).2 _ _ h3, perform_exit h3]; rfl
    | panic h1 h2 h3 =>
      rw [h1]
      show endingOf (evalExprs (perform W) false 0 _ s) = _
      rw [(C42_crash W 0 _ _ _ _ _ _ h2).1 _ _ h3]; rfl
  · intro h
    cases hp : readText text with
    | fuel => exact absurd hp (C03_terminates text)
    | crash => rw [hp] at h; cases h; exact .readerPanic hp
    | err er => rw [hp] at h; cases h; exact .syntaxError hp
    | ok gs =>
      rw [hp] at h
      change endingOf (evalExprs (perform W) false 0 gs s) = _ at h
      rcases evalExprs_split W 0 gs s with ⟨vs, s1, h2, h3⟩ | ⟨before, x, later, vs, s1, h2, h3, h4, h5⟩
      · rw [h3] at h; cases h; exact .finished hp h2
      · rw [h5, M.bind_run] at h
        subst h2
        cases hx : perform W (.eval x 0) s1 with
        | ok v s2 => exact absurd hx (h4 v s2)
        | err er s2 => rw [hx] at h; cases h; exact .error hp h3 hx
        | exit c s2 => rw [hx] at h; cases h; cases perform_exit hx; exact .exit hp h3 hx
        | crash w s2 => rw [hx] at h; cases h; exact .panic hp h3 hx
        | overflow s2 => exact absurd hx perform_not_overflow
        | oof => rw [hx] at h; cases h

/-- C76: running script files ends with exactly the exit status and the state described by `ScriptRun`: status 0 when every form of every file had a
value (or `(exit)` was called before the first failure), status 1 after the first file that cannot be read, has a syntax error, or has a form that
fails, and status 2 after a panic; and only then does it end. -/
theorem C76_script (W : World) (n : Nat) (inp : List (List Char)) (f : String) (fs : List String) (c : Nat) (s' : St) :
    ScriptRun W (f :: fs) (topSt (initSt inp) coreEnv) c s' ↔
      exitStatus (mainWith W (perform W) n coreText none (f :: fs) (initSt inp)) = some c ∧
      finalState (mainWith W (perform W) n coreText none (f :: fs) (initSt inp)) = some s' := by
  rw [main_starts]
  dsimp only
  generalize f :: fs = fs
  generalize topSt (initSt inp) coreEnv = s
  have load : ∀ (f : String) (s : St) (text : List Char), W.readFile s.tick f = .ok text →
      loadFile W (perform W) f 0 s = lexParseEval (perform W) text 0 { s with tick := s.tick + 1 } := by
    intro f s text h
    unfold loadFile
    rw [M.bind_ok (askM_run _ _), h]
  induction fs generalizing s with
  | nil =>
    constructor
    · intro h; cases h; exact ⟨rfl, rfl⟩
    · rintro ⟨h1, h2⟩; cases h1; cases h2; exact .done
  | cons f fs ih =>
    simp only [runFiles]
    rw [M.bind_run, attempt_run]
    cases hf : W.readFile s.tick f with
    | error m =>
      have hl : loadFile W (perform W) f 0 s = .err (.foreign m) { s with tick := s.tick + 1 } := by
        unfold loadFile
        rw [M.bind_ok (askM_run _ _), hf]; rfl
      rw [hl]
      constructor
      · intro h
        cases h with
        | unreadable h => rw [hf] at h; cases h; exact ⟨rfl, rfl⟩
        | next h => rw [hf] at h; cases h
        | failed h => rw [hf] at h; cases h
        | stopped h => rw [hf] at h; cases h
      · rintro ⟨h1, h2⟩; cases h1; cases h2; exact .unreadable hf
    | ok text =>
      rw [load f s text hf]
      have ht := textRun_iff (W := W) text { s with tick := s.tick + 1 }
      constructor
      · intro h
        cases h with
        | unreadable h => rw [hf] at h; cases h
        | next h h2 h3 =>
          rw [hf] at h; cases h
          rw [ht] at h2
          cases hr : lexParseEval (perform W) text 0 { s with tick := s.tick + 1 } <;> rw [hr] at h2 <;> cases h2
          exact (ih _).1 h3
        | failed h h2 =>
          rw [hf] at h; cases h
          rw [ht] at h2
          cases hr : lexParseEval (perform W) text 0 { s with tick := s.tick + 1 } <;> rw [hr] at h2 <;> cases h2
          exact ⟨rfl, rfl⟩
        | stopped h h2 =>
          rw [hf] at h; cases h
          rw [ht] at h2
          cases hr : lexParseEval (perform W) text 0 { s with tick := s.tick + 1 } <;> rw [hr] at h2 <;> cases h2 <;> exact ⟨rfl, rfl⟩
      · rintro ⟨h1, h2⟩
        cases hr : lexParseEval (perform W) text 0 { s with tick := s.tick + 1 } with
        | ok u s1 => rw [hr] at h1 h2; exact .next hf ((ht _ _).2 (by rw [hr]; rfl)) ((ih s1).2 ⟨h1, h2⟩)
        | err er s1 => rw [hr] at h1 h2; cases h1; cases h2; exact .failed hf ((ht _ _).2 (by rw [hr]; rfl))
        | exit c s1 => rw [hr] at h1 h2; cases h1; cases h2; exact .stopped hf ((ht _ _).2 (by rw [hr]; rfl))
        | crash w s1 => rw [hr] at h1 h2; cases h1; cases h2; exact .stopped hf ((ht _ _).2 (by rw [hr]; rfl))
        | overflow s1 => rw [hr] at h1 h2; cases h1; cases h2; exact .stopped hf ((ht _ _).2 (by rw [hr]; rfl))
        | oof => rw [hr] at h1; cases h1

/-- C76: and so does `-e text`. -/
theorem C76_expr (W : World) (n : Nat) (inp : List (List Char)) (text : List Char) (fs : List String) (c : Nat) (s' : St) :
    ExprRun W text (topSt (initSt inp) coreEnv) c s' ↔
      exitStatus (mainWith W (perform W) n coreText (some text) fs (initSt inp)) = some c ∧
      finalState (mainWith W (perform W) n coreText (some text) fs (initSt inp)) = some s' := by
  rw [main_starts]
  dsimp only
  generalize topSt (initSt inp) coreEnv = s
  have ht := textRun_iff (W := W) text s
  unfold runExpr
  rw [M.bind_run, attempt_run]
  constructor
  · intro h
    cases h with
    | finished h2 =>
      rw [ht] at h2
      cases hr : lexParseEval (perform W) text 0 s <;> rw [hr] at h2 <;> cases h2
      exact ⟨rfl, rfl⟩
    | failed h2 =>
      rw [ht] at h2
      cases hr : lexParseEval (perform W) text 0 s <;> rw [hr] at h2 <;> cases h2
      exact ⟨rfl, rfl⟩
    | stopped h2 =>
      rw [ht] at h2
      cases hr : lexParseEval (perform W) text 0 s <;> rw [hr] at h2 <;> cases h2 <;> exact ⟨rfl, rfl⟩
  · rintro ⟨h1, h2⟩
    cases hr : lexParseEval (perform W) text 0 s with
    | ok u s1 => rw [hr] at h1 h2; cases h1; cases h2; exact .finished ((ht _ _).2 (by rw [hr]; rfl))
    | err er s1 => rw [hr] at h1 h2; cases h1; cases h2; exact .failed ((ht _ _).2 (by rw [hr]; rfl))
    | exit c s1 => rw [hr] at h1 h2; cases h1; cases h2; exact .stopped ((ht _ _).2 (by rw [hr]; rfl))
    | crash w s1 => rw [hr] at h1 h2; cases h1; cases h2; exact .stopped ((ht _ _).2 (by rw [hr]; rfl))
    | overflow s1 => rw [hr] at h1 h2; cases h1; cases h2; exact .stopped ((ht _ _).2 (by rw [hr]; rfl))
    | oof => rw [hr] at h1; cases h1

/-- C76: the REPL never ends with status 1: whatever fails in it, it ends with status 0, at the end of the input or by `(exit)`, or by a panic with
status 2. -/
theorem C76_repl (W : World) (s : St) (r : Res Unit) (h : Session W 0 s r) : exitStatus r = some 0 ∨ exitStatus r = some 2 := by
  have hg : ∀ (vs : List Val) (s : St) (r : Res Unit), GroupRun W 0 vs s r → exitStatus r = some 0 ∨ exitStatus r = some 2 := by
    intro vs s r h
    induction h with
    | done => exact .inl rfl
    | value _ _ ih => exact ih
    | error _ => exact .inl rfl
    | exit h => cases perform_exit h; exact .inl rfl
    | crash _ => exact .inr rfl
  induction h with
  | eof _ => exact .inl rfl
  | tooMany _ _ _ ih => exact ih
  | syntaxError _ _ _ _ ih => exact ih
  | readerCrash _ _ _ => exact .inr rfl
  | group _ _ _ _ _ ih => exact ih
  | ended _ _ _ h _ => exact hg _ _ _ h

theorem textRun_status {text : List Char} {s s' : St} {c : Nat} (h : TextRun W text s (.stopped c) s') : c = 0 ∨ c = 2 := by
  cases h with
  | readerPanic _ => exact .inr rfl
  | exit _ _ _ => exact .inl rfl
  | panic _ _ _ => exact .inr rfl

theorem scriptRun_status {fs : List String} {s s' : St} {c : Nat} (h : ScriptRun W fs s c s') : c ≤ 2 := by
  induction h with
  | done => omega
  | unreadable _ => omega
  | next _ _ _ ih => exact ih
  | failed _ _ => omega
  | stopped _ h => have := textRun_status h; omega

/-- C76: without `-doc` and `-longdoc`, the program goes on for ever or ends with one of the statuses 0, 1 and 2; with `-v` it is 0, and for the REPL
it is not 1. -/
theorem C76_range (W : World) (n : Nat) (inp : List (List Char)) (fl : Flags) (hd : fl.doc = false) (hl : fl.longdoc = false) :
    mainFlags W (perform W) n coreText fl (initSt inp) = .oof ∨
      ∃ c, exitStatus (mainFlags W (perform W) n coreText fl (initSt inp)) = some c ∧ c ≤ 2 ∧ (fl.version = true → c = 0) ∧
        (fl.expr = [] → fl.files = [] → c ≠ 1) := by
  cases hv : fl.version with
  | true => exact .inr ⟨0, by rw [C58_version _ _ _ _ _ _ hv]; rfl, by omega, fun _ => rfl, fun _ _ => by omega⟩
  | false =>
    rw [C58_no_flags _ _ _ _ _ ⟨hv, hd, hl⟩]
    by_cases hx : fl.expr = []
    · rw [if_pos hx]
      cases hf : fl.files with
      | nil =>
        rw [main_starts]
        dsimp only
        by_cases ho : repl (perform W) 0 n (topSt (initSt inp) coreEnv) = .oof
        · exact .inl ho
        · rcases C76_repl W _ _ ((C62_session W 0 _ _).2 ⟨ho, n, rfl⟩) with h | h
          · exact .inr ⟨0, h, by omega, nofun, fun _ _ => by omega⟩
          · exact .inr ⟨2, h, by omega, nofun, fun _ _ => by omega⟩
      | cons f fs =>
        cases hr : mainWith W (perform W) n coreText none (f :: fs) (initSt inp) with
        | oof => exact .inl rfl
        | err er s => exact absurd hr (by
            rw [main_starts]
            dsimp only
            generalize f :: fs = fs
            generalize topSt (initSt inp) coreEnv = s0
            induction fs generalizing s0 with
            | nil => intro h; cases h
            | cons f fs ih =>
              simp only [runFiles]
              rw [M.bind_run, attempt_run]
              cases loadFile W (perform W) f 0 s0 with
              | ok u s1 => exact ih s1
              | _ => intro h; cases h)
        | ok u s =>
          have h1 := (C76_script W n inp f fs 0 s).2 (by rw [hr]; exact ⟨rfl, rfl⟩)
          exact .inr ⟨_, rfl, scriptRun_status h1, nofun, fun _ h => by cases h⟩
        | exit c s =>
          have h1 := (C76_script W n inp f fs c s).2 (by rw [hr]; exact ⟨rfl, rfl⟩)
          exact .inr ⟨_, rfl, scriptRun_status h1, nofun, fun _ h => by cases h⟩
        | crash w s =>
          have h1 := (C76_script W n inp f fs 2 s).2 (by rw [hr]; exact ⟨rfl, rfl⟩)
          exact .inr ⟨_, rfl, scriptRun_status h1, nofun, fun _ h => by cases h⟩
        | overflow s =>
          have h1 := (C76_script W n inp f fs 2 s).2 (by rw [hr]; exact ⟨rfl, rfl⟩)
          exact .inr ⟨_, rfl, scriptRun_status h1, nofun, fun _ h => by cases h⟩
    · rw [if_neg hx, main_starts]
      dsimp only
      unfold runExpr
      rw [M.bind_run, attempt_run]
      have ht := textRun_iff (W := W) fl.expr (topSt (initSt inp) coreEnv)
      cases hr : lexParseEval (perform W) fl.expr 0 (topSt (initSt inp) coreEnv) with
      | oof => exact .inl rfl
      | ok u s => exact .inr ⟨0, rfl, by omega, nofun, fun h => absurd h hx⟩
      | err er s => exact .inr ⟨1, rfl, by omega, nofun, fun h => absurd h hx⟩
      | exit c s =>
        have := textRun_status ((ht s (.stopped c)).2 (by rw [hr]; rfl))
        exact .inr ⟨c, rfl, by omega, nofun, fun h => absurd h hx⟩
      | crash w s => exact .inr ⟨2, rfl, by omega, nofun, fun h => absurd h hx⟩
      | overflow s => exact .inr ⟨2, rfl, by omega, nofun, fun h => absurd h hx⟩

/-- C76: `(exit)`, whatever its arguments are, evaluates them and ends the process with status 0 there and then. -/
theorem C76_exit (W : World) (e : Nat) (xs vs : List Val) (s s1 : St) (hl : lookup s.heap e "exit" = none) (h : EvalsTo W e xs s vs s1) :
    eval W (form "exit" xs) e s = .exit 0 s1 := by
  rw [show ("exit" : String) = BI.name .exit from rfl, eval_native hl h]
  unfold extend
  rw [extendWith_run, perform_eq]; rfl

/-- `(exit '3)`: the argument is not the status. -/
example (W : World) : eval W (form "exit" [form "quote" [.num 3]]) 0 (initSt []) = .exit 0 (initSt []) :=
  C76_exit W 0 [form "quote" [.num 3]] [.num 3] _ _ (by decide +kernel) (.cons (C27_quote _ _ _ _ (notMacro_init _ _)) .nil)

/-- `l1 -e '1 oops 2'` ends with status 1 after printing the error. -/
example (W : World) (n : Nat) (inp : List (List Char)) :
    exitStatus (mainWith W (perform W) n coreText (some "1 oops 2".toList) [] (initSt inp)) = some 1 := by
  have hl : lookup (topSt (initSt inp) coreEnv).heap 0 "oops" = none := by simp [topSt, lookup, lookupAux, show alGet "oops" coreEnv = none by decide +kernel]
  refine ((C76_expr W n inp _ [] 1 _).1 (.failed (er := .list (vlist [msgList "unknown symbol: oops"])) (s1 := topSt (initSt inp) coreEnv)
    (.error (before := [.num 1]) (x := .atom "oops") (later := [.num 2]) (by decide +kernel) (.cons (by rw [eval_eq]; rfl) .nil) ?_))).1
  rw [eval_atom W _ 0 _ (by rw [← isCxr_iff]; decide), evAtom_run (by decide), hl]; rfl

/-- A script file `1 (exit) oops` ends with status 0: the text after `(exit)` is not evaluated, nor is the next file read. -/
example (W : World) (n : Nat) (inp : List (List Char)) (h : W.readFile 0 "a.l1" = .ok "1 (exit) oops".toList) :
    exitStatus (mainWith W (perform W) n coreText none ["a.l1", "b.l1"] (initSt inp)) = some 0 := by
  refine ((C76_script W n inp _ _ 0 _).1 (.stopped (text := "1 (exit) oops".toList) h
    (.exit (before := [.num 1]) (x := vlist [.atom "exit"]) (later := [.atom "oops"]) (c := 0) (s1 := { topSt (initSt inp) coreEnv with tick := 1 })
      (s2 := { topSt (initSt inp) coreEnv with tick := 1 })
      (by decide +kernel) (.cons (by rw [eval_eq]; rfl) .nil) ?_))).1
  have key : ∀ s : St, Sc s.heap 0 [] → eval W (vlist [.atom "exit"]) 0 s = .exit 0 s := by
    intro s hs
    refine eval_callCore (W := W) (s := s) (s1 := s) (L := []) (vs := []) (xs := []) hs rfl hd_exit (fun s0 _ h => by subst h; exact .nil) ?_
    unfold callFn
    simp only [evApply]
    unfold extend
    rw [extendWith_run, perform_eq]; rfl
  exact key _ (.globals (coreAt_loaded (initSt inp)).base (fun _ _ h => by cases h))

/-- A session at the end of its input. -/
example : exitStatus (.ok () { initSt [] with out := "> \n".toList } : Res Unit) = some 0 ∨
    exitStatus (.ok () { initSt [] with out := "> \n".toList } : Res Unit) = some 2 :=
  C76_repl sampleWorld (initSt []) _ (.eof (fun m h1 h2 => by simp [initSt] at h2; omega))

end L1
