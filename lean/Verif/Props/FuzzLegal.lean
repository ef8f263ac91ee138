import Verif.Lemmas.FuzzLoop
import Verif.Lemmas.FuzzForever
import Verif.Props.Programs
import Verif.Props.Sentences
/-
C90: examples/fuzz-legal.l1.
-/
set_option autoImplicit false
namespace L1

variable {W : World}

set_option maxRecDepth 100000 in
theorem read_fuzzLegal : readText fuzzLegalText = .ok fuzzLegalForms := by decide +kernel

theorem fz_defs : Steps W [] (fuzzLegalForms.take 18) fuzzDefs [] :=
  have st : ∀ {U : List (String × Val)} {x : Val} {name : String} {f : Val}, defOf x = some (name, f) → known name = none → name ≠ "t" → (∃ r, x = .cons (.atom "defn") r) →
    ∀ {V : List (String × Val)} {xs : List Val}, Steps W ((name, f) :: U) xs V [] → Steps W U (x :: xs) V [] := fun h1 h2 h3 h4 _ _ h => .cons (t := []) (step_defn h1 h2 h3 h4) h
  st (f := f_one_of) rfl (by decide +kernel) (by decide) ⟨_, rfl⟩ <| st (f := f_randpos) rfl (by decide +kernel) (by decide) ⟨_, rfl⟩ <|
  st (f := f_cool) rfl (by decide +kernel) (by decide) ⟨_, rfl⟩ <| st (f := f_randnum) rfl (by decide +kernel) (by decide) ⟨_, rfl⟩ <|
  st (f := f_num) rfl (by decide +kernel) (by decide) ⟨_, rfl⟩ <| st (f := f_nums_first) rfl (by decide +kernel) (by decide) ⟨_, rfl⟩ <|
  st (f := f_atom) rfl (by decide +kernel) (by decide) ⟨_, rfl⟩ <| st (f := f_atoms) rfl (by decide +kernel) (by decide) ⟨_, rfl⟩ <|
  st (f := f_quoteatom) rfl (by decide +kernel) (by decide) ⟨_, rfl⟩ <| st (f := f_nums) rfl (by decide +kernel) (by decide) ⟨_, rfl⟩ <|
  st (f := f_slashnot0) rfl (by decide +kernel) (by decide) ⟨_, rfl⟩ <| st (f := f_arith) rfl (by decide +kernel) (by decide) ⟨_, rfl⟩ <|
  st (f := f_quote_atom) rfl (by decide +kernel) (by decide) ⟨_, rfl⟩ <| st (f := f_quote_list) rfl (by decide +kernel) (by decide) ⟨_, rfl⟩ <|
  st (f := f_boolean) rfl (by decide +kernel) (by decide) ⟨_, rfl⟩ <| st (f := f_dolen) rfl (by decide +kernel) (by decide) ⟨_, rfl⟩ <|
  st (f := f_dosplit) rfl (by decide +kernel) (by decide) ⟨_, rfl⟩ <| st (f := f_expr) rfl (by decide +kernel) (by decide) ⟨_, rfl⟩ .nil

/-- C90: the text of examples/fuzz-legal.l1 is a sequence of definitions, which are made without writing, reading or drawing anything, and a loop. -/
theorem C90_definitions (s : St) (hc : CoreAt s.heap 0) :
    ∃ defs, readText fuzzLegalText = .ok (defs ++ [form "while" [.atom "t", fuzzTurn]]) ∧ ∃ vs s', EvalsTo W 0 defs s vs s' ∧ FuzzAt s'.heap ∧ Wrote s s' [] := by
  obtain ⟨vs, s', h1, h2, h3⟩ := (fz_defs (W := W)).evals s ⟨hc, fun _ _ h => by cases h⟩
  exact ⟨fuzzLegalForms.take 18, read_fuzzLegal.trans rfl, vs, s', h1, h2, h3⟩

/-- The state after loading the library meets the hypotheses. -/
theorem fuzz_state (W : World) : ∃ s : St, FuzzAt s.heap := by
  obtain ⟨_, _, _, s', _, h, _⟩ := C90_definitions (W := W) (topSt (initSt []) coreEnv) (coreAt_loaded _)
  exact ⟨s', h⟩

theorem call_fz {s0 s : St} (hs : FuzzAt s.heap) {a : String} {f : Val} {e : Nat} {args vs : List Val} (hf : alGet a fuzzDefs = some f) (hok : (f.notMacro && (specialOf a).isNone && !isCxr a && (a != "t")) = true)
    (hl : lookup s0.heap e a = lookup s.heap 0 a) (ha : EvalsTo W e args s0 vs s) : eval W (form a args) e s0 = callFn W f vs e s := by
  have hl' : lookup s0.heap e a = some f := hl.trans (hs.binds _ _ hf)
  simp only [Bool.and_eq_true, Option.isNone_iff_eq_none, Bool.not_eq_true', bne_iff_ne] at hok
  refine eval_reaches (callHead_of hok.1.1.2 fun ps r b dc env he => ?_) ⟨s0, eval_atom_bound hok.1.2 hok.2 hl', ha⟩
  rw [hl'] at he
  cases he
  exact absurd hok.1.1.1 (by simp [Val.notMacro])

/-- C90: a call of `expr`, whatever the random numbers are: if it ends, it returns a legal expression, and has taken at least one random number and done nothing else; otherwise it
goes on forever (and so it never fails). -/
theorem C90_expr (n : Nat) (hn : n < 2 ^ 62) (e : Nat) (args : List Val) (s0 s : St) (hl : lookup s0.heap e "expr" = lookup s.heap 0 "expr") (ha : EvalsTo W e args s0 [.num n] s)
    (hs : FuzzAt s.heap) :
    eval W (form "expr" args) e s0 = .oof ∨ ∃ x v m s', eval W (form "expr" args) e s0 = .ok x s' ∧ LegalForm x v ∧ 0 < m ∧ Draws m s s' := by
  rw [call_fz hs (f := f_expr) rfl rfl hl ha]
  rcases expr_ends (W := W) hs n hn e with h | ⟨s', x, v, m, h1, h2, h3, h4⟩
  · exact .inl h
  · exact .inr ⟨x, v, m, s', h1, h4, h3, h2⟩

/-- `(expr 100)` at the top level. -/
example : ∃ s : St, FuzzAt s.heap ∧ (eval W (form "expr" [.num 100]) 0 s = .oof ∨ ∃ x v m s', eval W (form "expr" [.num 100]) 0 s = .ok x s' ∧ LegalForm x v ∧ 0 < m ∧ Draws m s s') := by
  obtain ⟨s, hs⟩ := fuzz_state W
  exact ⟨s, hs, C90_expr 100 (by decide) 0 [.num 100] s s rfl (.cons (by rw [eval_eq]; rfl) .nil) hs⟩

/-- C90: there are random numbers with which a call of `expr` goes on forever (it always chooses `arith`, which needs a number, which is always made from further numbers). -/
theorem C90_forever (h5 : ∀ t, W.rand t % 5 = 0) (h3 : ∀ t, W.rand t % 3 = 1) (n : Nat) (hn : n < 2 ^ 62) (e : Nat) (args : List Val) (s0 s : St)
    (hl : lookup s0.heap e "expr" = lookup s.heap 0 "expr") (ha : EvalsTo W e args s0 [.num n] s) (hs : FuzzAt s.heap) : eval W (form "expr" args) e s0 = .oof := by
  rw [call_fz hs (f := f_expr) rfl rfl hl ha]
  exact expr_forever h5 h3 hs n hn e

/-- A world in which the random numbers are all the same. -/
def sameRand (k : Nat) : World := { sampleWorld with rand := fun _ => k }

theorem sameRand_rand (k t : Nat) : (sameRand k).rand t = k := rfl

/-- In a world where every random number is 10, `(expr 100)` goes on forever. -/
example : ∃ s : St, FuzzAt s.heap ∧ eval (sameRand 10) (form "expr" [.num 100]) 0 s = .oof := by
  obtain ⟨s, hs⟩ := fuzz_state sampleWorld
  exact ⟨s, hs, C90_forever (W := sameRand 10) (fun t => by rw [sameRand_rand]) (fun t => by rw [sameRand_rand]) 100 (by decide) 0 [.num 100] s s rfl (.cons (by rw [eval_eq]; rfl) .nil) hs⟩

/-- C90: and some with which it ends: if the first one is 4 modulo 5, then the next one decides between `t` and `()`. -/
theorem C90_boolean (v : Val) (e : Nat) (args : List Val) (s0 s : St) (hl : lookup s0.heap e "expr" = lookup s.heap 0 "expr") (ha : EvalsTo W e args s0 [v] s) (hs : FuzzAt s.heap)
    (h5 : W.rand s.tick % 5 = 4) : ∃ s', eval W (form "expr" args) e s0 = .ok (if W.rand (s.tick + 1) % 2 = 0 then .atom "t" else .nil) s' ∧ Draws 2 s s' := by
  rw [call_fz hs (f := f_expr) rfl rfl hl ha]
  exact expr_boolean hs v e h5

/-- In a world where every random number is 9, `(expr 100)` returns (). -/
example : ∃ s : St, FuzzAt s.heap ∧ ∃ s', eval (sameRand 9) (form "expr" [.num 100]) 0 s = .ok .nil s' ∧ Draws 2 s s' := by
  obtain ⟨s, hs⟩ := fuzz_state sampleWorld
  obtain ⟨s', h1, h2⟩ := C90_boolean (W := sameRand 9) (.num 100) 0 [.num 100] s s rfl (.cons (by rw [eval_eq]; rfl) .nil) hs (by rw [sameRand_rand])
  rw [sameRand_rand, if_neg (by decide)] at h1
  exact ⟨s, hs, s', h1, h2⟩

/-- C90: the value of a legal expression, evaluated in a scope that sees the script's `/not0` and in which the other names of such expressions have their usual meaning: it has that
value, and evaluating it does nothing else (so there are no errors: no division by zero, no unknown names, no wrong arguments). -/
theorem C90_value {s : St} (hs : FuzzAt s.heap) {x v : Val} (h : LegalForm x v) : ∃ s', eval W x 0 s = .ok v s' ∧ Quiet s s' := by
  obtain ⟨s', h1, h2⟩ := legal_value (W := W) (L := fuzzDefs) hs hs.top ⟨rfl, rfl, rfl, rfl, rfl, rfl, rfl⟩ h s (.refl _)
  exact ⟨s', h1, h2⟩

/-- `(/not0 7 (- 3 3))` is 1, `(/not0 7 (- 2))` is -3, `(len (split (* 25 4)))` is 3. -/
example : LegalForm (form "/not0" [.num 7, form "-" [.num 3, .num 3]]) (.num 1) ∧ LegalForm (form "/not0" [.num 7, form "-" [.num 2]]) (.num (-3)) ∧
    LegalForm (form "len" [form "split" [form "*" [.num 25, .num 4]]]) (.num 3) := by
  have h1 : NumForm (form "-" [.num 3, .num 3]) 0 := .op .sub [(.num 3, 3), (.num 3, 3)] (by simp) (by simpa using .lit 3)
  have h2 : NumForm (form "-" [.num 2]) (-2) := .op .sub [(.num 2, 2)] (by simp) (by simpa using .lit 2)
  have h3 : NumForm (form "*" [.num 25, .num 4]) 100 := .op .mul [(.num 25, 25), (.num 4, 4)] (by simp) (by simpa using ⟨.lit 25, .lit 4⟩)
  have h4 : NumForm (form "/not0" [.num 7, form "-" [.num 2]]) (-3) := by
    rw [show (-3 : Int) = Op.div.value [7, -2] by simp [Op.value]]
    exact .op .div [(.num 7, 7), (_, -2)] (by simp) (by simpa using ⟨.lit 7, h2⟩)
  refine ⟨.num _ _ (.op .div [(.num 7, 7), (_, 0)] (by simp) (by simpa using ⟨.lit 7, h1⟩)), .num _ _ h4, .num _ _ (.lenNum _ 100 h3)⟩

/-- The values of legal expressions are unique. -/
theorem C90_unique {x v w : Val} (h : LegalForm x v) (h' : LegalForm x w) : v = w := by
  obtain ⟨s, hs⟩ := fuzz_state sampleWorld
  obtain ⟨_, h1, _⟩ := C90_value (W := sampleWorld) hs h
  obtain ⟨_, h2, _⟩ := C90_value (W := sampleWorld) hs h'
  rw [h1] at h2
  cases h2; rfl

/-- C90: one turn of the script's loop, in any scope that sees its definitions: it writes a legal expression and its value, or goes on forever. -/
theorem C90_turn {s : St} (hs : FuzzAt s.heap) :
    eval W fuzzTurn 0 s = .oof ∨ ∃ x v s', eval W fuzzTurn 0 s = .ok .nil s' ∧ LegalForm x v ∧ FuzzAt s'.heap ∧ s'.out = s.out ++ fuzzLines x v ∧ s'.inp = s.inp ∧ s.tick < s'.tick ∧
      s'.screen = s.screen := by
  rcases fuzz_turn (W := W) hs hs.top with h | ⟨x, v, m, s1, h1, h2, h3, h4, h5, h6, h7, h8⟩
  · exact .inl h
  · exact .inr ⟨x, v, s1, h3, h1, hs.mono h4, h5, h6, by omega, h8⟩

example : fuzzLines (form "len" [form "quote" [vlist [.num 1, .num 2]]]) (.num 2) = "(len (quote (1 2))) ==> 2\n\n".toList := by decide

/-- C90: the loop of the script never ends and never fails: after any number of turns, what was written is as many legal expressions, each with its value; and there is always a next turn, or
one that goes on forever. -/
theorem C90_loop {s : St} (hs : FuzzAt s.heap) :
    eval W (form "while" [.atom "t", fuzzTurn]) 0 s = .oof ∧ ∃ g F s1,
      (Endless (WhileTurn W (.atom "t") [fuzzTurn] 0 g F) s1 ∨ ∃ n s2, After (WhileTurn W (.atom "t") [fuzzTurn] 0 g F) n s1 s2 ∧ WhileTurn W (.atom "t") [fuzzTurn] 0 g F s2 (.ends .oof)) ∧
      ∀ n s2, After (WhileTurn W (.atom "t") [fuzzTurn] 0 g F) n s1 s2 →
        ∃ ps : List (Val × Val), ps.length = n ∧ (∀ p ∈ ps, LegalForm p.1 p.2) ∧ s2.out = s.out ++ ps.flatMap (fun p => fuzzLines p.1 p.2) ∧ s2.inp = s.inp ∧ s2.screen = s.screen := by
  obtain ⟨h1, g, F, s1, h2, h3, h4, h5, h6, h7⟩ := fuzz_loop (W := W) hs
  refine ⟨h1, g, F, s1, h7, fun n s2 ha => ?_⟩
  obtain ⟨_, ps, h8, h9, h10, h11, h12⟩ := fuzz_after ha h5 ⟨h5.core, h5.core⟩ h6
  exact ⟨ps, h8, h9, by rw [h10, h2], h11.trans h3, h12.trans h4⟩

/-- C90: the script never ends, whatever the random numbers and the input are: there is no exit status. -/
theorem C90_script (W : World) (n : Nat) (inp : List (List Char)) (f : String) (hf : W.readFile 0 f = .ok fuzzLegalText) :
    exitStatus (mainWith W (perform W) n coreText none [f] (initSt inp)) = none := by
  have hst : W.readFile (topSt (initSt inp) coreEnv).tick f = .ok fuzzLegalText := hf
  obtain ⟨defs, hr, vs, s1, h1, h2, h3⟩ := C90_definitions (W := W) { topSt (initSt inp) coreEnv with tick := 1 } (coreAt_loaded (initSt inp))
  have hno := stuck_text hr h1 (C90_loop (W := W) h2).1
  cases hx : exitStatus (mainWith W (perform W) n coreText none [f] (initSt inp)) with
  | none => rfl
  | some c =>
    exfalso
    obtain ⟨s', hs'⟩ : ∃ s', finalState (mainWith W (perform W) n coreText none [f] (initSt inp)) = some s' := by
      revert hx
      cases mainWith W (perform W) n coreText none [f] (initSt inp) <;> intro hx <;> first | exact ⟨_, rfl⟩ | cases hx
    have hrun := (C76_script W n inp f [] c s').2 ⟨hx, hs'⟩
    clear hx hs'
    cases hrun with
    | unreadable h => rw [hst] at h; cases h
    | next h h7 _ => rw [hst] at h; cases h; exact hno _ _ h7
    | failed h h7 => rw [hst] at h; cases h; exact hno _ _ h7
    | stopped h h7 => rw [hst] at h; cases h; exact hno _ _ h7

/-- A world in which the file has that text. -/
example : { sampleWorld with readFile := fun _ _ => .ok fuzzLegalText }.readFile 0 "examples/fuzz-legal.l1" = .ok fuzzLegalText := rfl

end L1
