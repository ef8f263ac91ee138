import Verif.Lemmas.Effects
import Verif.Props.Control
import Verif.Spec.Device
/-
C48 and C74: the screen functions and `sleep`.  `s.screen.on` says whether there is an initialised screen; `s.screen.acts` are the orders given to the
terminal and the clock.
-/
set_option autoImplicit false
namespace L1

/-- C48: without a screen, `screen-clear`, `screen-size`, `screen-get-key` and `screen-write` (called with arguments of the right types) give the
error "screen not initialized" and do nothing. -/
theorem C48_not_initialised (W : World) (e : Nat) (s : St) (h : s.screen.on = false) (args : List Val) (x y : Int) (l : Val) (hl : l.isList = true) :
    perform W (.builtin .screenClear args e) s
      = .err (.list (vlist [msgList "screen-clear termClear", msgList "screen not initialized"])) s ∧
    perform W (.builtin .screenSize args e) s
      = .err (.list (vlist [msgList "screen-size termSize", msgList "screen not initialized"])) s ∧
    perform W (.builtin .screenGetKey [] e) s
      = .err (.list (vlist [msgList "screen-get-key termGetKey", msgList "screen not initialized"])) s ∧
    perform W (.builtin .screenWrite [.num x, .num y, l] e) s
      = .err (.list (vlist [msgList "screen-write termDrawText", msgList "screen not initialized"])) s := by
  have hn : ∀ {α : Type} (m : M α), needScreen m s = .err (.list (.cons (msgList "screen not initialized") .nil)) s := by
    intro α m
    unfold needScreen
    rw [M.bind_ok (getScreenM_run s), M.ite_neg (by simp [h])]; rfl
  refine ⟨?_, ?_, ?_, ?_⟩ <;> rw [perform_eq] <;> simp only [runStep, biFn, bScreenWrite, termClear, termDrawText, hl, if_true] <;>
    rw [M.bind_err (extend_err (hn _))] <;> rfl

/-- C48: with a screen they succeed: `screen-clear` clears it, the size is what the terminal says, the key is the next one (`keyTable`; C74_key), and `screen-write`
gives the orders of C74_write. -/
theorem C48_initialised (W : World) (e : Nat) (s : St) (h : s.screen.on = true) (args : List Val) (x y : Int) (l : Val) (hl : l.isList = true) :
    perform W (.builtin .screenClear args e) s = .ok .nil (ordered s [.clear, .show]) ∧
    perform W (.builtin .screenSize args e) s
      = .ok (vlist [.num (W.size s.tick).1, .num (W.size s.tick).2]) { s with tick := s.tick + 1 } ∧
    (∃ k, perform W (.builtin .screenGetKey [] e) s = .ok (.atom k) { s with tick := s.tick + 1 }) ∧
    (∃ as, perform W (.builtin .screenWrite [.num x, .num y, l] e) s = .ok .nil (ordered s as)) := by
  have hn : ∀ {α : Type} (m : M α), needScreen m s = m s := by
    intro α m
    unfold needScreen
    rw [M.bind_ok (getScreenM_run s), M.ite_pos h]
  refine ⟨?_, ?_, ?_, ?_⟩ <;> rw [perform_eq] <;> simp only [runStep, biFn, bScreenWrite, termClear, termDrawText, hl, if_true]
  · rw [M.bind_ok (extend_ok ((hn _).trans (actsM_run _ _)))]; rfl
  · rw [M.bind_ok (extend_ok ((hn _).trans (askM_run _ _)))]; rfl
  · rw [M.bind_ok (extend_ok ((hn _).trans (askM_run _ _)))]; exact ⟨_, rfl⟩
  · rw [M.bind_ok (extend_ok ((hn _).trans (actsM_run _ _)))]; exact ⟨_, rfl⟩

/-- A state with a screen. -/
def withTerminal : St := screenIs true (initSt [])

example : ∃ as, perform sampleWorld (.builtin .screenWrite [.num 1, .num 2, vlist [.atom "hi"]] 0) withTerminal = .ok .nil (ordered withTerminal as) :=
  (C48_initialised sampleWorld 0 withTerminal rfl [] 1 2 (vlist [.atom "hi"]) rfl).2.2.2

/-- C48: wrong arguments are errors whether or not there is a screen. -/
theorem C48_bad_arguments (W : World) (e : Nat) (s : St) :
    (∀ a args, ∃ v, perform W (.builtin .screenGetKey (a :: args) e) s = .err (.list v) s) ∧
    (∀ args, (∀ x y l, args = [.num x, .num y, l] → l.isList = false) → ∃ v, perform W (.builtin .screenWrite args e) s = .err (.list v) s) := by
  constructor
  · intro a args; rw [perform_eq]; exact ⟨_, rfl⟩
  · intro args h
    rw [perform_eq]
    show ∃ v, bScreenWrite W args s = .err (.list v) s
    unfold bScreenWrite
    split
    · rename_i x y l
      split
      · rename_i x y
        rw [M.ite_neg (by simp [h x y l rfl])]; exact ⟨_, rfl⟩
      · exact ⟨_, rfl⟩
      · exact ⟨_, rfl⟩
    · exact ⟨_, rfl⟩

/-- C48: `screen-start` with a screen already there is an error and changes nothing. -/
theorem C48_second_start (W : World) (e : Nat) (args : List Val) (s : St) (h : s.screen.on = true) :
    perform W (.builtin .screenStart args e) s
      = .err (.list (vlist [msgList "starting screen", msgList "screen already initialized"])) s := by
  have h1 : termStart W s = .err (.list (.cons (msgList "screen already initialized") .nil)) s := by
    unfold termStart
    rw [M.bind_ok (getScreenM_run s), M.ite_pos h]; rfl
  rw [perform_eq]
  simp only [runStep, biFn]
  rw [M.bind_err (extend_err h1)]; rfl

example : ∃ v, perform sampleWorld (.builtin .screenStart [] 0) withTerminal = .err v withTerminal :=
  ⟨_, C48_second_start _ _ _ _ rfl⟩

/-- C48: `screen-start` without a screen.  If the terminal opens there is a screen afterwards.  If it does not, the operating system's error is passed
on; and then, if it is the initialisation that failed, the screen nevertheless counts as initialised. -/
theorem C48_start (W : World) (e : Nat) (args : List Val) (s : St) (h : s.screen.on = false) :
    perform W (.builtin .screenStart args e) s = match W.openScreen s.tick with
      | .ok => .ok .nil (ordered (screenIs true { s with tick := s.tick + 1 }) [.init])
      | .newFail m => .err (.foreign m) { s with tick := s.tick + 1 }
      | .initFail m => .err (.foreign m) (screenIs true { s with tick := s.tick + 1 }) := by
  rw [perform_eq]
  simp only [runStep, biFn]
  have h1 : termStart W s = match W.openScreen s.tick with
      | .ok => .ok () (ordered (screenIs true { s with tick := s.tick + 1 }) [.init])
      | .newFail m => .err (.foreign m) { s with tick := s.tick + 1 }
      | .initFail m => .err (.foreign m) (screenIs true { s with tick := s.tick + 1 }) := by
    unfold termStart
    rw [M.bind_ok (getScreenM_run s), M.ite_neg (by simp [h]), M.bind_ok (askM_run _ _)]
    cases W.openScreen s.tick with
    | ok => rfl
    | newFail m =>
      show Res.err (Err.foreign m) { s with tick := s.tick + 1, screen := ⟨false, s.screen.acts⟩ } = _
      rw [← h]
    | initFail m => rfl
  cases ho : W.openScreen s.tick with
  | ok => rw [ho] at h1; rw [M.bind_ok (extend_ok h1)]; rfl
  | newFail m => rw [ho] at h1; rw [M.bind_err (extend_err h1)]; rfl
  | initFail m => rw [ho] at h1; rw [M.bind_err (extend_err h1)]; rfl

example : perform { sampleWorld with openScreen := fun _ => .newFail "no terminal" } (.builtin .screenStart [] 0) (initSt [])
    = .err (.foreign "no terminal") { initSt [] with tick := 1 } := C48_start _ _ _ _ rfl

/-- C48: `screen-end` always succeeds; a screen that is there is closed, and afterwards there is none. -/
theorem C48_end (W : World) (e : Nat) (args : List Val) (s : St) :
    perform W (.builtin .screenEnd args e) s = .ok .nil (screenClosed s) ∧ (screenClosed s).screen.on = false := by
  rw [perform_eq]
  simp only [runStep, biFn, termEnd, screenClosed]
  cases h : s.screen.on with
  | false =>
    rw [M.bind_ok (show (getScreenM >>= fun b => if b then (do actsM [.fini]; setScreenM false) else pure ()) s = .ok () s by
      rw [M.bind_ok (getScreenM_run s), M.ite_neg (by simp [h])]; rfl), if_neg (by simp)]
    exact ⟨rfl, h⟩
  | true =>
    rw [M.bind_ok (show (getScreenM >>= fun b => if b then (do actsM [.fini]; setScreenM false) else pure ()) s = .ok () (screenIs false (ordered s [.fini])) by
      rw [M.bind_ok (getScreenM_run s), M.ite_pos (by simp [h])]; rfl), if_pos rfl]
    exact ⟨rfl, rfl⟩

/-- Stop at the first call of `screen-start` or `screen-end`. -/
def untilScreenOp : Watch := { pre := fun t _ => ∀ args e, t ≠ .builtin .screenStart args e ∧ t ≠ .builtin .screenEnd args e }

/-- C48: nothing else creates or removes the screen.  Start anything anywhere and let it run up to the first call of `screen-start` or `screen-end` (or to
its end, if there is none): the screen is initialised then exactly when it was at the start. -/
theorem C48_nothing_else (W : World) (n d : Nat) (t : Task) (s s' : St) (h : (runWatched W untilScreenOp n d t s).final = some s') :
    s'.screen.on = s.screen.on := by
  have hw : untilScreenOp = before .screen := by
    unfold untilScreenOp before
    congr 1
    · funext t s
      refine propext ⟨fun h => ?_, fun h args e => ?_⟩
      · cases t with
        | eval v e => simp only; unfold Val.formEffects; split <;> simp
        | builtin b args e =>
          have := h args e
          cases b <;> simp_all [BI.effects]
        | _ => trivial
      · constructor <;> (rintro rfl; simp [BI.effects] at h)
    · funext t s r
      refine propext ⟨fun _ => ?_, fun _ => trivial⟩
      split
      · unfold Val.formEffects; split <;> simp
      · trivial
  rw [hw] at h
  exact kept_before .screen W n d t s s' h

theorem watched_pass {P : Watch} {f : Task → M Val} {t : Task} {s : St} (h1 : P.pre t s) (h2 : P.post t s (f t s)) : watched P f t s = f t s := by
  unfold watched; rw [if_pos h1, if_pos h2]

/-- `untilScreenOp` stops nothing else: in a run where neither is called it is the real run. -/
theorem watched_println : runWatched sampleWorld untilScreenOp 3 3 (.eval (form "println" [.num 1]) 0) (initSt [])
    = run sampleWorld 3 3 (.eval (form "println" [.num 1]) 0) (initSt []) := by
  have hw : ∀ (t : Task) (v : Val) (s' : St), untilScreenOp.pre t (initSt []) → (∀ call tail, runStep sampleWorld call tail t (initSt []) = .ok v s') →
      runWatched sampleWorld untilScreenOp 2 2 t (initSt []) = .ok v s' := by
    intro t v s' hp hr
    exact (watched_pass hp trivial).trans (hr _ _)
  have hl : run sampleWorld 3 3 (.eval (form "println" [.num 1]) 0) (initSt []) = .ok .nil { initSt [] with out := "1\n".toList } := rfl
  rw [hl]
  refine (watched_pass (by intro _ _; simp) trivial).trans ?_
  show evalStep _ _ _ _ _ = _
  rw [evalStep_notMacro rfl]
  show evCall (runWatched sampleWorld untilScreenOp 2 2) _ (.atom "println") (vlist [.num 1]) 0 (initSt []) = _
  unfold evCall
  rw [M.bind_ok (extend_ok (hw _ (.bi .println) (initSt []) (by intro _ _; simp) fun _ _ => rfl))]
  simp only [vlist_cons, vlist_nil, evArgs]
  rw [M.bind_run, M.bind_ok (extend_ok (hw _ (.num 1) (initSt []) (by intro _ _; simp) fun _ _ => rfl))]
  simp only [M.pure_bind, M.pure_run, evApply]
  exact extend_ok (hw _ _ _ (by intro _ _; simp) fun _ _ => rfl)

example : ({ initSt [] with out := "1\n".toList } : St).screen.on = (initSt []).screen.on :=
  C48_nothing_else sampleWorld 3 3 (.eval (form "println" [.num 1]) 0) (initSt []) _ (by rw [watched_println]; rfl)

/-- `(screen-size)` at the start of a program. -/
example : ∃ v, perform sampleWorld (.builtin .screenSize [] 0) (initSt []) = .err v (initSt []) :=
  ⟨_, (C48_not_initialised sampleWorld 0 (initSt []) rfl [] 0 0 .nil rfl).2.1⟩

/-! ### C74: what the terminal and the clock are told -/

theorem goInt_id {i : Int} (h1 : 0 ≤ i) (h2 : i < 2 ^ 63) : goInt i = i := by unfold goInt; omega

theorem intOf_id {x : Int} (h : x.natAbs < 2 ^ 63) : intOf x = x.natAbs := by
  unfold intOf
  rw [show (x.natAbs : Int) % 2 ^ 64 = x.natAbs by omega]
  exact goInt_id (by omega) (by omega)

theorem drawActs_cells (W : World) (y : Int) (cs : List Char) : ∀ (x : Int), 0 ≤ x → x + columnsOf W cs < 2 ^ 63 →
    drawActs W x y cs = cs.mapIdx fun k c => cellAt W (x + columnsOf W (cs.take k)) y c := by
  induction cs with
  | nil => intro x _ _; rfl
  | cons c cs ih =>
    intro x h0 h1
    have hc : columnsOf W (c :: cs) = cellColumns W c + columnsOf W cs := by simp [columnsOf]
    have hcol : 1 ≤ cellColumns W c := by unfold cellColumns; omega
    rw [hc] at h1
    have hstep : ∀ w : Nat, cellColumns W c = w → drawActs W (goInt (x + w)) y cs
        = cs.mapIdx fun k d => cellAt W (x + columnsOf W ((c :: cs).take (k + 1))) y d := by
      rintro w rfl
      rw [goInt_id (by omega) (by omega), ih (x + cellColumns W c) (by omega) (by omega)]
      congr 1
      funext k d
      simp only [List.take_succ_cons, columnsOf, List.map_cons, List.sum_cons]
      congr 1
      push_cast
      omega
    rw [List.mapIdx_cons]
    unfold drawActs
    by_cases hw : W.width c = 0
    · rw [if_pos hw]
      refine List.cons_eq_cons.2 ⟨by simp [cellAt, hw, columnsOf], ?_⟩
      exact hstep 1 (by unfold cellColumns; omega)
    · rw [if_neg hw]
      refine List.cons_eq_cons.2 ⟨by simp [cellAt, hw, columnsOf], ?_⟩
      exact hstep (W.width c) (by unfold cellColumns; omega)

/-- C74: `(screen-write x y l)` writes the text of the list (as printed, without the parentheses) into row `|y|`: every character in its order, the first in column
`|x|`, each next one behind the columns taken by those before it; and then the screen is shown.  (As long as the numbers are within Go's integers.) -/
theorem C74_write (W : World) (e : Nat) (s : St) (h : s.screen.on = true) (x y : Int) (l : Val) (text : List Char)
    (hl : l.isList = true) (ht : l.str = '(' :: (text ++ [')'])) (hx : x.natAbs + columnsOf W text < 2 ^ 63) (hy : y.natAbs < 2 ^ 63) :
    perform W (.builtin .screenWrite [.num x, .num y, l] e) s
      = .ok .nil (ordered s ((text.mapIdx fun k c => cellAt W (x.natAbs + columnsOf W (text.take k)) y.natAbs c) ++ [.show])) := by
  have hn : ∀ {α : Type} (m : M α), needScreen m s = m s := by
    intro α m
    unfold needScreen
    rw [M.bind_ok (getScreenM_run s), M.ite_pos h]
  rw [perform_eq]
  simp only [runStep, biFn, bScreenWrite, termDrawText, hl, if_true]
  rw [M.bind_ok (extend_ok ((hn _).trans (actsM_run _ _)))]
  have hu : unwrap l = text := by unfold unwrap; rw [ht]; simp
  rw [hu, intOf_id (by omega), intOf_id hy, drawActs_cells W _ _ _ (by omega) (by omega)]
  rfl

/-- `(screen-write 3 -2 '(a b))`: three characters in row 2, from column 3. -/
example : perform sampleWorld (.builtin .screenWrite [.num 3, .num (-2), vlist [.atom "a", .atom "b"]] 0) withTerminal
    = .ok .nil (ordered withTerminal [.put 3 2 'a' [], .put 4 2 ' ' [], .put 5 2 'b' [], .show]) :=
  C74_write sampleWorld 0 withTerminal rfl 3 (-2) (vlist [.atom "a", .atom "b"]) "a b".toList rfl (by decide +kernel) (by decide) (by decide)

/-- C74: the printed form of a list is a text between parentheses, so that C74_write covers every list. -/
theorem C74_write_any (l : Val) (hl : l.isList = true) : ∃ text, l.str = '(' :: (text ++ [')']) := by
  have hend : ∀ d : Val, ∃ t, strAux true d = t ++ [')'] := by
    intro d
    induction d with
    | nil => exact ⟨[], rfl⟩
    | cons a d _ ih =>
      obtain ⟨t, ht⟩ := ih
      exact ⟨' ' :: (strAux false a ++ t), by simp [strAux, ht]⟩
    | _ => exact ⟨_, rfl⟩
  cases l with
  | nil => exact ⟨[], rfl⟩
  | cons a d =>
    obtain ⟨t, ht⟩ := hend d
    exact ⟨strAux false a ++ t, by simp [Val.str, strAux, ht]⟩
  | _ => cases hl

example : ∃ text, (Val.cons (.atom "a") (.num 1)).str = '(' :: (text ++ [')']) := C74_write_any _ rfl

/-- C74: `(sleep n)` asks the clock to wait `|n|` milliseconds, once (within the range of Go's durations, 292 years), and returns `()`; anything but one number is an
error without waiting. -/
theorem C74_sleep (W : World) (e : Nat) (s : St) :
    (∀ n : Int, n.natAbs * 1000000 < 2 ^ 63 → perform W (.builtin .sleep [.num n] e) s = .ok .nil (ordered s [.sleep (n.natAbs * 1000000)])) ∧
    (∀ args, (∀ n, args ≠ [.num n]) → ∃ v, perform W (.builtin .sleep args e) s = .err (.list v) s) := by
  refine ⟨fun n hn => ?_, fun args h => ?_⟩
  · rw [perform_eq]
    simp only [runStep, biFn, bSleep]
    rw [M.bind_ok (actsM_run _ _), intOf_id (by omega), goInt_id (by omega) (by omega)]
    rfl
  · rw [perform_eq]
    simp only [runStep, biFn]
    unfold bSleep
    split
    · exact absurd rfl (h _)
    · exact ⟨_, rfl⟩
    · exact ⟨_, rfl⟩

example : perform sampleWorld (.builtin .sleep [.num 250] 0) (initSt []) = .ok .nil (ordered (initSt []) [.sleep 250000000]) :=
  (C74_sleep sampleWorld 0 (initSt [])).1 250 (by decide)

/-- C74: `(screen-get-key)` with a screen: the next key of the terminal, by its name; a key that is a character is that character; if the terminal has no more events, the
empty name. -/
theorem C74_key (W : World) (e : Nat) (s : St) (h : s.screen.on = true) :
    (∀ c, W.key s.tick = some (.rune c) → perform W (.builtin .screenGetKey [] e) s = .ok (.atom (String.ofList [c])) { s with tick := s.tick + 1 }) ∧
    (∀ k name, W.key s.tick = some k → (k, name) ∈ keyTable → perform W (.builtin .screenGetKey [] e) s = .ok (.atom name) { s with tick := s.tick + 1 }) ∧
    (W.key s.tick = none → perform W (.builtin .screenGetKey [] e) s = .ok (.atom "") { s with tick := s.tick + 1 }) ∧
    (∀ k, (∃ c, k = .rune c) ∨ ∃ name, (k, name) ∈ keyTable) := by
  have hn : perform W (.builtin .screenGetKey [] e) s = .ok (.atom (keyName (W.key s.tick))) { s with tick := s.tick + 1 } := by
    have hm : needScreen (askM W.key) s = askM W.key s := by
      unfold needScreen
      rw [M.bind_ok (getScreenM_run s), M.ite_pos h]
    rw [perform_eq]
    simp only [runStep, biFn]
    rw [M.bind_ok (extend_ok (hm.trans (askM_run _ _)))]; rfl
  refine ⟨fun c hk => by rw [hn, hk]; rfl, fun k name hk hm => ?_, fun hk => by rw [hn, hk]; rfl, fun k => ?_⟩
  · rw [hn, hk]
    revert hm
    cases k <;> simp [keyTable, keyName] <;> (rintro rfl; rfl)
  · cases k <;> simp [keyTable]

/-- The example world's next key is `a`. -/
example : perform sampleWorld (.builtin .screenGetKey [] 0) withTerminal = .ok (.atom "a") { withTerminal with tick := 1 } :=
  (C74_key sampleWorld 0 withTerminal rfl).1 'a' rfl

/-- C74: in every execution the orders already given stay as they are; further ones come after them. -/
theorem C74_append_only (W : World) : Always W
    { post := fun _ s r => ∀ s', r.final = some s' → ∃ more, s'.screen.acts = s.screen.acts ++ more } := by
  refine always_of_watchOk W ⟨fun _ _ _ _ => trivial, ?_⟩
  intro t s r hs _ hr s' hf
  cases r <;> simp only [Res.final, Option.some.injEq, reduceCtorEq] at hf <;> subst hf <;>
    first | exact hr.2.1.acts | exact hr.2.acts | exact hr.2.2.acts

/-- C74: only `screen-start`, `screen-end`, `screen-clear`, `screen-write` and `sleep` give orders: until one of them is called, none is given. -/
theorem C74_only (W : World) (n d : Nat) (t : Task) (s s' : St)
    (h : (runWatched W { pre := fun t _ => ∀ b args e, t = .builtin b args e → b ∉ [.screenStart, .screenEnd, .screenClear, .screenWrite, .sleep] } n d t s).final = some s') :
    s'.screen.acts = s.screen.acts := by
  have hw : ({ pre := fun t _ => ∀ b args e, t = .builtin b args e → b ∉ [.screenStart, .screenEnd, .screenClear, .screenWrite, .sleep] } : Watch) = before .device := by
    unfold before
    congr 1
    · funext t s
      refine propext ⟨fun h => ?_, fun h b args e ht => ?_⟩
      · cases t with
        | eval v e => simp only; unfold Val.formEffects; split <;> simp
        | builtin b args e =>
          have := h b args e rfl
          cases b <;> simp_all [BI.effects]
        | _ => trivial
      · subst ht
        revert h
        cases b <;> simp [BI.effects]
    · funext t s r
      refine propext ⟨fun _ => ?_, fun _ => trivial⟩
      split
      · unfold Val.formEffects; split <;> simp
      · trivial
  rw [hw] at h
  exact kept_before .device W n d t s s' h

end L1
