import Verif.Props.ScreenTest
import Verif.Props.Galax
import Verif.Props.Written
import Verif.Props.Command
import Verif.Props.Input
import Verif.Props.Docs

/-! Concrete cases of theorems whose hypotheses are about a call, a state or a text: the hypotheses are met, and what the
theorem says is what happens.  Nothing else depends on this file. -/

set_option autoImplicit false

namespace L1

/-- C06: a comment between two lines of a form. -/
example : (lexItems (["(a".toList] ++ "  ; x".toList :: ["b)".toList])).map (fun t => (t.typ, t.val)) = (lexItems (["(a".toList] ++ ["b)".toList])).map (fun t => (t.typ, t.val)) :=
  C06_blank_line_tokens _ _ _ ⟨"  ".toList, " x".toList, by decide, by decide, .inr (by decide)⟩

theorem case_quote (W : World) (v : Val) (s : St) (h : lookup s.heap 0 "quote" = none) : eval W (form "quote" [v]) 0 s = .ok v s :=
  eval_sform W .quote [v] 0 s (fun _ _ _ _ _ he => by rw [show lookup s.heap 0 SF.quote.name = none from h] at he; cases he)

theorem case_num (W : World) (n : Int) (s : St) : eval W (.num n) 0 s = .ok (.num n) s := by rw [eval_eq]; rfl

/-- C09: `(+ 1 2 'a 3)`. -/
example (W : World) : eval W (form "+" [.num 1, .num 2, form "quote" [.atom "a"], .num 3]) 0 (initSt []) =
    .err (nativeErr "+" (fmt1 "expected number, got '" (.atom "a") "'")) (initSt []) :=
  C09_written_error (W := W) (s := initSt []) "+" (by decide) [1, 2] (.atom "a") [.num 3] (fun ⟨_, h⟩ => by cases h) 0 _ (initSt []) rfl
    (.cons (case_num W 1 _) (.cons (case_num W 2 _) (.cons (case_quote W _ _ rfl) (.cons (case_num W 3 _) .nil))))

/-- C36: `(macroexpand-1 3)`. -/
example (W : World) : eval W (form "macroexpand-1" [.num 3]) 0 (initSt []) = .ok (.num 3) (initSt []) :=
  (C36_written (W := W) (s := initSt []) 0 (.num 3) (.num 3) (initSt []) rfl (case_num W 3 _)).2 (fun _ _ h => by cases h)

/-- C51: `(shell '(ls 1))` in a world whose commands print `ok` and end with status 2. -/
example (W : World) : ∃ vo ve, eval { W with shell := fun _ _ => .ok ("ok\n".toList, [], 2) } (form "shell" [form "quote" [vlist [.atom "ls", .num 1]]]) 0 (initSt []) =
    .ok (vlist [vo, ve, .num 2]) { initSt [] with tick := 1 } ∧ Shape "ok\n".toList vo ∧ Shape [] ve := by
  obtain ⟨vo, ve, h, h1, h2⟩ := (C51_written (W := { W with shell := fun _ _ => .ok ("ok\n".toList, [], 2) }) (s := initSt []) (vlist [.atom "ls", .num 1]) ["ls", toString (1 : Int)]
    (.atom (.num .nil)) (by simp)).1 "ok\n".toList [] 2 rfl
  exact ⟨vo, ve, h 0 _ _ rfl (.cons (case_quote _ _ _ rfl) .nil), h1, h2⟩

/-- C52: `(readlist)` when the next line is `a (b 1)`. -/
example (W : World) : eval W (form "readlist" []) 0 (initSt ["a (b 1)".toList, "c".toList]) = .ok (vlist [.atom "a", vlist [.atom "b", .num 1]]) (initSt ["c".toList]) :=
  (C52_written (W := W) (s := initSt ["a (b 1)".toList, "c".toList]) [] "a (b 1)".toList ["c".toList] rfl).1 [.atom "a", vlist [.atom "b", .num 1]]
    ((C02_grammar _ _).1 (by decide +kernel)) 0 [] _ rfl .nil

/-- C57: `(load 'f)` where the file `f` holds `1 'a`. -/
example (W : World) : eval { W with readFile := fun _ _ => .ok "1 'a".toList } (form "load" [form "quote" [.atom "f"]]) 0 (initSt []) = .ok .nil (asked (initSt [])) :=
  (C57_written (W := { W with readFile := fun _ _ => .ok "1 'a".toList }) (s := initSt []) 0 (form "quote" [.atom "f"]) "f" "1 'a".toList (initSt []) rfl (case_quote _ _ _ rfl) rfl).1
    [.num 1, form "quote" [.atom "a"]] [.num 1, .atom "a"] (asked (initSt [])) (by decide +kernel) (.cons (case_num _ 1 _) (.cons (case_quote _ _ _ rfl) .nil))

/-- C78: `((cond (() 5) (1 +)) 1 2)`: the head is a form whose value is a native function. -/
example (W : World) : eval W (.cons (form "cond" ([vlist [.nil, .num 5]] ++ clause (.num 1) (.atom "+") [] :: [])) (vlist [.num 1, .num 2])) 0 (initSt []) = .ok (.num 3) (initSt []) :=
  (C78_any_head .add 0 _ [.num 1, .num 2] [.num 1, .num 2] [.num 1, .num 2] (initSt []) (initSt []) (show CallHead _ _ (form "cond" ([vlist [.nil, .num 5]] ++ clause (.num 1) (.atom "+") [] :: [])) from trivial)
    ⟨_, (C28_first_true W 0 [vlist [.nil, .num 5]] [] (.num 1) (.atom "+") (.num 1) [] _ _ _ (notMacro_init _ _) (.cons (by rw [eval_eq]; rfl) .nil) (case_num W 1 _) (by simp)).trans
      (C78_value .add 0 rfl), .cons (case_num W 1 _) (.cons (case_num W 2 _) .nil)⟩ rfl (.cons (case_num W 1 _) (.cons (case_num W 2 _) .nil))).trans <|
  (C09_written (W := W) [1, 2] 0 0).1 0 _ _ rfl (.cons (case_num W 1 _) (.cons (case_num W 2 _) .nil))

/-- C80: `l1 -e '(println 1)' prog.l1`. -/
example (W : World) (can : String → Bool) (n : Nat) (s : St) : program W can (perform W) n coreText ["-e".toList, "(println 1)".toList, "prog.l1".toList] s =
    mainWith W (perform W) n coreText (some "(println 1)".toList) ["prog.l1"] s :=
  C80_expr W can (perform W) n coreText "(println 1)".toList (by decide) ["prog.l1".toList] (fun f hf => by
    cases hf; rintro ⟨c, cs, h⟩; have := congrArg List.head? h; exact absurd this (show ¬ (some 'p' = some '-') by decide)) s

/-- C81: a line that comes in two reads, the second of which also holds the start of the next line. -/
example : delivered [[40], [41, 13, 10]] = [[40, 41]] :=
  C81_line [40, 41] [13, 10] [41, 13, 10] [[40]] [] ⟨by decide, by decide⟩ (.inr rfl) (by decide) (by decide) (by decide)

/-- C81: text at the end of the input without a newline. -/
example : delivered [[40], [41]] = [[40, 41]] := C81_last [[40], [41]] (by decide) (by decide) (by decide)

/-- C91: the states in which C91_news speaks are those after the definitions of examples/galax.l1. -/
example (W : World) : ∃ s, Prog s.heap galaxDefs ∧ ∃ vs bs s', EvalsTo W 0 (galaxForms.take 6 ++ (galaxForms.drop 8).take 8) (topSt (initSt []) coreEnv) vs s ∧
    callFn W g_itsalive [.atom "mars"] 0 s = .ok (vlist (List.map Val.atom bs)) s' ∧ Sentence W "!" (galaxNews W "mars" s.tick) bs ∧ Draws 21 s s' := by
  obtain ⟨vs1, s1, h1, p1, w1⟩ := (galax_defs1 (W := W)).evals (topSt (initSt []) coreEnv) (prog_start _)
  obtain ⟨vs2, s2, h2, p2, w2⟩ := (galax_defs2 (W := W)).evals s1 p1
  obtain ⟨bs, s', h3, h4, h5⟩ := C91_news (W := W) p2 "mars" (by decide +kernel) 0
  exact ⟨s2, p2, _, bs, s', evalsTo_append h1 h2, h3, h4, h5⟩

/-- C92: where there is no terminal, examples/screen-test.l1 fails. -/
example : ∃ s', TextRun { sampleWorld with openScreen := fun _ => .newFail "no terminal" } screenTestText (topSt (initSt []) coreEnv) (.failed (.foreign "no terminal")) s' := by
  obtain ⟨s', h, _⟩ := C92_no_terminal (W := { sampleWorld with openScreen := fun _ => .newFail "no terminal" }) (topSt (initSt []) coreEnv) (coreAt_loaded _) rfl "no terminal" (.inl rfl)
  exact ⟨s', h⟩

/-- C77: the programs that fail, in the state the program starts them in. -/
example (W : World) : ∃ er s', TextRun W badlexText (topSt (initSt []) coreEnv) (.failed er) s' :=
  ⟨_, _, C77_badlex _ (coreAt_loaded _) (by simp [topSt, lookup, lookupAux, show alGet "&" coreEnv = none by decide +kernel])⟩

end L1
