import Verif.Props.Errors
import Verif.Props.Scopes
import Verif.Props.Reader
import Verif.Lemmas.Calls
import Verif.Lemmas.CoreLoad
/-
C26 (a let binding without a value), C27 (eval), C52 (readlist), C54 (errors), C55 (test), C57 (load), C58 (the ways to start the program),
C59 (predefined names).
-/
set_option autoImplicit false
namespace L1

/-! ### C26: a binding without a value -/

theorem evLetBinds_no_value {W : World} {e ne : Nat} {bs : List (String × Val)} {s0 s1 : St} (name : String) (more : List Val)
    (hb : LetBinds W e ne bs s0 s1) :
    evLetBinds (perform W) e ne (vlist (bs.map (fun b => vlist [.atom b.1, b.2]) ++ vlist [.atom name] :: more)) s0 = .ok false s1 := by
  induction hb with
  | nil => rfl
  | @cons y ey v bs s s1 s2 h h1 hne ho hh _ ih =>
    refine Eq.trans ?_ ih
    simp only [List.cons_append, List.map_cons, vlist_cons, evLetBinds, perform_eval]
    rw [M.bind_ok (extend_ok h1)]
    have hset : setM ne y v s1 = .ok () { s1 with heap := h } := by
      unfold setM; rw [if_neg hne]; subst hh; rfl
    rw [M.bind_ok (extend_ok hset)]

/-- C26: a binding without a value ends the whole `let` at once with `()`: later bindings and the body are not evaluated. -/
theorem C26_no_value (W : World) (bs : List (String × Val)) (name : String) (more : List Val) (body : List Val) (e : Nat) (s s1 : St)
    (hm : NotMacro s.heap e "let") (hb : LetBinds W e s.heap.length bs (newScope s e) s1) :
    eval W (form "let" (vlist (bs.map (fun b => vlist [.atom b.1, b.2]) ++ vlist [.atom name] :: more) :: body)) e s = .ok .nil s1 := by
  rw [eval_named W .let_ hm rfl]
  simp only [evSpecial]
  rw [vlist_cons]
  simp only [evLet]
  rw [M.ite_pos (isList_vlist _), M.ite_pos (isList_vlist _), M.bind_ok (newEnvM_newScope _ _), M.bind_ok (evLetBinds_no_value name more hb),
    M.ite_neg (by simp)]
  rfl

/-- `(let ((a)) (undefined))` is `()`. -/
example : eval sampleWorld (form "let" [vlist [vlist [.atom "a"]], form "undefined" []]) 0 (initSt []) = .ok .nil (newScope (initSt []) 0) :=
  C26_no_value sampleWorld [] "a" [] _ 0 _ _ (notMacro_init _ _) .nil

/-! ### C27: eval -/

/-- C27: `(eval x)` evaluates `x` to a value and evaluates that value as an expression in the scope of the call. -/
theorem C27_eval (W : World) (x v : Val) (e : Nat) (s s1 : St) (hb : lookup s.heap e "eval" = none) (hx : eval W x e s = .ok v s1) :
    eval W (form "eval" [x]) e s = extend "builtin function eval" (eval W v e) s1 := by
  refine (eval_native (b := .eval) hb (.cons hx .nil)).trans ?_
  have : perform W (.builtin .eval [v] e) = eval W v e := by
    funext s; rw [perform_eq]; rfl
  rw [this]; rfl

/-- `(eval (list 'car ''(1 2)))`. -/
example : eval sampleWorld (form "eval" [form "list" [form "quote" [.atom "car"], form "quote" [form "quote" [vlist [.num 1, .num 2]]]]]) 0 (initSt [])
    = .ok (.num 1) (initSt []) :=
  (C27_eval _ _ (form "car" [form "quote" [vlist [.num 1, .num 2]]]) 0 (initSt []) (initSt []) rfl (eval_of_run (n := 9) (d := 9) rfl trivial)).trans
    (extend_ok (eval_of_run (n := 9) (d := 9) rfl trivial))

/-- C27: so `eval` undoes `quote`: `(eval (quote x))` is what `x` is (an error gets one frame in front). -/
theorem C27_eval_quote (W : World) (x : Val) (e : Nat) (s : St) (hb : lookup s.heap e "eval" = none) (hm : NotMacro s.heap e "quote") :
    (∀ v s', eval W x e s = .ok v s' → eval W (form "eval" [form "quote" [x]]) e s = .ok v s') ∧
    (∀ er s', eval W x e s = .err er s' →
      eval W (form "eval" [form "quote" [x]]) e s = .err (er.under (msgList "builtin function eval")) s') := by
  rw [C27_eval W (form "quote" [x]) x e s s hb (C27_quote W x e s hm)]
  exact ⟨fun v s' h => extend_ok h, fun er s' h => by rw [extend_err h, extendErr_under]⟩

example : eval sampleWorld (form "eval" [form "quote" [.atom "COMMA"]]) 0 (initSt []) = .ok (.atom ",") (initSt []) :=
  (C27_eval_quote _ _ _ _ rfl (notMacro_init _ _)).1 _ _ (by rw [eval_eq]; rfl)

/-! ### C52: readlist -/

/-- C52: `readlist` takes exactly one line of input and returns the list of the forms the reader finds in it, unevaluated. -/
theorem C52_forms (W : World) (args : List Val) (e : Nat) (s : St) (line : List Char) (rest : List (List Char)) (vs : List Val)
    (hi : s.inp = line :: rest) (hr : Program (lexItems (splitOnChar '\n' line)) vs) :
    perform W (.builtin .readlist args e) s = .ok (vlist vs) { s with inp := rest } := by
  rw [perform_eq]
  show bReadlist s = _
  unfold bReadlist
  have h1 : readLineM s = .ok line { s with inp := rest } := by unfold readLineM; rw [hi]
  have h2 : lexAndParse (splitOnChar '\n' line) = .ok vs := (C02_grammar _ _).2 hr
  rw [M.bind_ok (extend_ok h1), h2]
  rfl

/-- C52: if the line is not a sequence of forms, that is an error; the line is used up all the same. -/
theorem C52_syntax (W : World) (args : List Val) (e : Nat) (s : St) (line : List Char) (rest : List (List Char)) (er : Val)
    (hi : s.inp = line :: rest) (hr : readText line = .err er) :
    perform W (.builtin .readlist args e) s = .err (.list (.cons (msgList "parsing readlist input") er)) { s with inp := rest } := by
  rw [perform_eq]
  show bReadlist s = _
  unfold bReadlist
  have h1 : readLineM s = .ok line { s with inp := rest } := by unfold readLineM; rw [hi]
  have h2 : lexAndParse (splitOnChar '\n' line) = .err er := hr
  rw [M.bind_ok (extend_ok h1), h2]
  rfl

/-- The line `a (b`. -/
example : perform sampleWorld (.builtin .readlist [] 0) (initSt ["a (b".toList, "c".toList])
    = .err (.list (vlist [msgList "parsing readlist input", msgList "parse parseNext", msgList "parseNext itemLeftParen parseList", msgList "unbalanced parens"])) (initSt ["c".toList]) :=
  C52_syntax _ _ _ _ "a (b".toList _ (vlist [msgList "parse parseNext", msgList "parseNext itemLeftParen parseList", msgList "unbalanced parens"]) rfl (by decide +kernel)

/-- C52: at the end of the input it is an error, which no `catch` can bind (an error of the operating system). -/
theorem C52_eof (W : World) (args : List Val) (e : Nat) (s : St) (hi : s.inp = []) :
    perform W (.builtin .readlist args e) s = .err (.foreign "EOF") s := by
  rw [perform_eq]
  show bReadlist s = _
  unfold bReadlist
  have h1 : readLineM s = .err (.foreign "EOF") s := by unfold readLineM; rw [hi]
  rw [M.bind_err (extend_err h1)]
  rfl

/-- No more input. -/
example : perform sampleWorld (.builtin .readlist [] 0) (initSt []) = .err (.foreign "EOF") (initSt []) := C52_eof _ _ _ _ rfl

example : perform sampleWorld (.builtin .readlist [] 0) (initSt ["a (b 1)".toList, "c".toList])
    = .ok (vlist [.atom "a", vlist [.atom "b", .num 1]]) (initSt ["c".toList]) :=
  C52_forms _ _ _ _ _ _ _ rfl ((C02_grammar _ _).1 (by decide +kernel))

/-! ### C54: errors -/

theorem containsC_iff (sub : List Char) (t : List Char) : containsC sub t = true ↔ sub <:+: t := by
  induction t with
  | nil => simp [containsC, List.isEmpty_iff]
  | cons c t ih => simp only [containsC, Bool.or_eq_true, List.isPrefixOf_iff_prefix, ih, List.infix_cons_iff]

theorem unwrap_of {v : Val} {t : List Char} (h : v.str = '(' :: (t ++ [')'])) : unwrap v = t := by
  unfold unwrap; rw [h]; simp

theorem evErrorsLoop_ok {W : World} {e : Nat} {args : Val} {sig : List Char} {rest : Val} {xs vs : List Val} {s s' : St}
    (h : EvalsTo W e xs s vs s') :
    evErrorsLoop (perform W) e args sig (mkList xs rest) s = evErrorsLoop (perform W) e args sig rest s' := by
  induction h with
  | nil => rfl
  | cons h1 _ ih =>
    simp only [mkList, List.foldr, evErrorsLoop, perform_eval]
    rw [M.bind_ok (attempt_ok h1)]
    exact ih

/-- C54: `(errors sig x1 ... xn)`, where `sig` is a list and evaluates to a list printed as `(text)`, evaluates the forms from left to right up to
the first one that fails.  It is `()` if `text` occurs in that error as printed, and else an error; later forms are not evaluated. -/
theorem C54_errors (W : World) (e : Nat) (sig sv : Val) (text : List Char) (xs vs later : List Val) (x : Val) (er : Err) (s s1 s2 s3 : St)
    (hm : NotMacro s.heap e "errors") (hsig : sig.isList = true) (h0 : eval W sig e s = .ok sv s1) (hsv : sv.isList = true)
    (ht : sv.str = '(' :: (text ++ [')'])) (h : EvalsTo W e xs s1 vs s2) (hx : eval W x e s2 = .err er s3) :
    (text <:+: er.str → eval W (form "errors" (sig :: (xs ++ x :: later))) e s = .ok .nil s3) ∧
    (¬ text <:+: er.str → ∃ er', eval W (form "errors" (sig :: (xs ++ x :: later))) e s = .err er' s3) := by
  have hstart : eval W (form "errors" (sig :: (xs ++ x :: later))) e s
      = evErrorsLoop (perform W) e (vlist (sig :: (xs ++ x :: later))) text (.cons x (vlist later)) s2 := by
    rw [eval_named W .errors hm rfl]
    simp only [evSpecial, vlist_cons, evErrors]
    rw [M.ite_pos hsig, M.bind_ok (extend_ok (by exact h0)), M.ite_pos hsv, unwrap_of ht]
    rw [show vlist (xs ++ x :: later) = mkList xs (.cons x (vlist later)) from vlist_append xs (x :: later), evErrorsLoop_ok h]
  rw [hstart]
  simp only [evErrorsLoop, perform_eval]
  rw [M.bind_ok (attempt_err hx)]
  constructor
  · intro hin
    dsimp only
    rw [M.ite_pos ((containsC_iff _ _).2 hin)]; rfl
  · intro hin
    dsimp only
    rw [M.ite_neg (fun hh => hin ((containsC_iff _ _).1 hh))]; exact ⟨_, rfl⟩

/-- C54: if no form fails, that is an error. -/
theorem C54_none (W : World) (e : Nat) (sig sv : Val) (xs vs : List Val) (s s1 s2 : St)
    (hm : NotMacro s.heap e "errors") (hsig : sig.isList = true) (h0 : eval W sig e s = .ok sv s1) (hsv : sv.isList = true)
    (h : EvalsTo W e xs s1 vs s2) :
    eval W (form "errors" (sig :: xs)) e s
      = .err (.list (vlist [msgList ("error not found in " ++ (vlist (sig :: xs)).toStr)])) s2 := by
  rw [eval_named W .errors hm rfl]
  simp only [evSpecial, vlist_cons, evErrors]
  rw [M.ite_pos hsig, M.bind_ok (extend_ok (by exact h0)), M.ite_pos hsv]
  rw [show vlist xs = mkList xs .nil from rfl, evErrorsLoop_ok h]
  rfl

/-- `(errors '(oops) 1 2)`. -/
example : eval sampleWorld (form "errors" (form "quote" [vlist [.atom "oops"]] :: [.num 1, .num 2])) 0 (initSt [])
    = .err (.list (vlist [msgList ("error not found in " ++ (vlist [form "quote" [vlist [.atom "oops"]], .num 1, .num 2]).toStr)])) (initSt []) :=
  C54_none _ _ _ (vlist [.atom "oops"]) _ [.num 1, .num 2] (initSt []) (initSt []) _ (notMacro_init _ _) rfl (C27_quote _ _ _ _ (notMacro_init _ _)) rfl
    (.cons (by rw [eval_eq]; rfl) (.cons (by rw [eval_eq]; rfl) .nil))

/-- C54: a signature that is not a list, or does not evaluate to one, is an error, and the forms are not evaluated. -/
theorem C54_signature (W : World) (e : Nat) (sig : Val) (xs : List Val) (s : St) (hm : NotMacro s.heap e "errors") :
    (sig.isList = false → eval W (form "errors" (sig :: xs)) e s = .err (.list (vlist [msgList "error signature must be a list"])) s) ∧
    (∀ sv s1, sig.isList = true → eval W sig e s = .ok sv s1 → sv.isList = false →
      eval W (form "errors" (sig :: xs)) e s = .err (.list (vlist [msgList "error signature must be a list"])) s1) := by
  rw [eval_named W .errors hm rfl]
  simp only [evSpecial, vlist_cons, evErrors]
  constructor
  · intro h; rw [M.ite_neg (by simp [h])]; rfl
  · intro sv s1 h h0 h1
    rw [M.ite_pos h, M.bind_ok (extend_ok (by exact h0)), M.ite_neg (by simp [h1])]; rfl

/-- `(errors 7 oops)` and `(errors '7 oops)`. -/
example : eval sampleWorld (form "errors" [.num 7, .atom "oops"]) 0 (initSt []) = .err (.list (vlist [msgList "error signature must be a list"])) (initSt []) ∧
    eval sampleWorld (form "errors" [form "quote" [.num 7], .atom "oops"]) 0 (initSt []) = .err (.list (vlist [msgList "error signature must be a list"])) (initSt []) :=
  ⟨(C54_signature _ _ _ _ _ (notMacro_init _ _)).1 rfl, (C54_signature _ _ _ _ _ (notMacro_init _ _)).2 (.num 7) _ rfl (C27_quote _ _ _ _ (notMacro_init _ _)) rfl⟩

/-- `(errors '(unknown symbol) 1 undefined (loop))` is `()`. -/
example : eval sampleWorld (form "errors" (form "quote" [vlist [.atom "unknown", .atom "symbol"]] :: ([.num 1] ++ .atom "undefined" :: [form "loop" []])))
    0 (initSt []) = .ok .nil (initSt []) :=
  (C54_errors sampleWorld 0 _ (vlist [.atom "unknown", .atom "symbol"]) "unknown symbol".toList [.num 1] [.num 1] _ _
    (.list (vlist [msgList "unknown symbol: undefined"])) _ (initSt []) (initSt []) (initSt [])
    (notMacro_init _ _) rfl (C27_quote _ _ _ _ (notMacro_init _ _)) rfl (by decide +kernel) (.cons (by rw [eval_eq]; rfl) .nil)
    (by rw [eval_eq]; rfl)).1 ((containsC_iff _ _).1 (by decide +kernel))

/-! ### C55: test -/

/-- The forms of a test, each evaluated and then marked with a dot in the output. -/
inductive Dotted (W : World) (e : Nat) : List Val → St → St → Prop
  | nil {s : St} : Dotted W e [] s s
  | cons {x v : Val} {xs : List Val} {s s1 s2 : St} : eval W x e s = .ok v s1 → Dotted W e xs (printed s1 ['.']) s2 → Dotted W e (x :: xs) s s2

theorem evTestLoop_ok {W : World} {e : Nat} {rest : Val} {xs : List Val} {s s' : St} (h : Dotted W e xs s s') :
    evTestLoop (perform W) e (mkList xs rest) s = evTestLoop (perform W) e rest s' := by
  induction h with
  | nil => rfl
  | cons h1 _ ih =>
    simp only [mkList, List.foldr, evTestLoop, perform_eval]
    rw [M.bind_ok (extend_ok (by exact h1)), M.bind_ok (printM_run _ _)]
    exact ih

/-- C55: `(test d x1 ... xn)` evaluates the description `d`, prints `TEST`, its value and a space, evaluates the forms in order, printing a dot after
each, prints a check mark and a newline, and is `()`. -/
theorem C55_pass (W : World) (e : Nat) (d dv : Val) (xs : List Val) (s s1 s2 : St) (hm : NotMacro s.heap e "test")
    (hd : eval W d e s = .ok dv s1) (h : Dotted W e xs (printed s1 ("TEST ".toList ++ dv.str ++ [' '])) s2) :
    eval W (form "test" (d :: xs)) e s = .ok .nil (printed s2 "✓\n".toList) := by
  rw [eval_named W .test hm rfl]
  simp only [evSpecial, vlist_cons, evTest]
  have : (do
      let v ← extend "evaluating test description" (perform W (.eval d e))
      printM ("TEST ".toList ++ v.str ++ [' '])
      evTestLoop (perform W) e (vlist xs) : M Unit) s = .ok () (printed s2 "✓\n".toList) := by
    rw [M.bind_ok (extend_ok (by exact hd)), M.bind_ok (printM_run _ _)]
    rw [show vlist xs = mkList xs .nil from rfl]
    refine (evTestLoop_ok h).trans ?_
    rfl
  rw [M.bind_ok (extend_ok this)]
  rfl

/-- C55: at the first form that fails the test ends with its error: the dots of the forms before it have been printed, and nothing after. -/
theorem C55_fail (W : World) (e : Nat) (d dv : Val) (xs later : List Val) (x : Val) (er : Err) (s s1 s2 s3 : St) (hm : NotMacro s.heap e "test")
    (hd : eval W d e s = .ok dv s1) (h : Dotted W e xs (printed s1 ("TEST ".toList ++ dv.str ++ [' '])) s2) (hx : eval W x e s2 = .err er s3) :
    eval W (form "test" (d :: (xs ++ x :: later))) e s
      = .err ((er.under (msgList ("evaluating test " ++ x.toStr))).under (msgList "test")) s3 := by
  rw [eval_named W .test hm rfl]
  simp only [evSpecial, vlist_cons, evTest]
  have : (do
      let v ← extend "evaluating test description" (perform W (.eval d e))
      printM ("TEST ".toList ++ v.str ++ [' '])
      evTestLoop (perform W) e (vlist (xs ++ x :: later)) : M Unit) s = .err (er.under (msgList ("evaluating test " ++ x.toStr))) s3 := by
    rw [M.bind_ok (extend_ok (by exact hd)), M.bind_ok (printM_run _ _)]
    rw [show vlist (xs ++ x :: later) = mkList xs (.cons x (vlist later)) from vlist_append xs (x :: later)]
    refine (evTestLoop_ok h).trans ?_
    simp only [evTestLoop, perform_eval]
    rw [M.bind_err (extend_err hx), extendErr_under]
  rw [M.bind_err (extend_err this), extendErr_under]

/-- `(test 'sums 1 oops 2)`. -/
example : eval sampleWorld (form "test" (form "quote" [.atom "sums"] :: ([.num 1] ++ .atom "oops" :: [.num 2]))) 0 (initSt [])
    = .err (.list (vlist [msgList "test", msgList "evaluating test oops", msgList "unknown symbol: oops"])) (printed (initSt []) "TEST sums .".toList) :=
  (C55_fail sampleWorld 0 _ (.atom "sums") [.num 1] _ _ (.list (vlist [msgList "unknown symbol: oops"])) (initSt []) (initSt []) (printed (initSt []) "TEST sums .".toList) _
    (notMacro_init _ _) (C27_quote _ _ _ _ (notMacro_init _ _)) (.cons (v := .num 1) (by rw [eval_eq]; rfl) .nil) (by rw [eval_eq]; rfl)).trans rfl

/-- C55: `(test)` is `()` and prints nothing. -/
theorem C55_empty (W : World) (e : Nat) (s : St) (hm : NotMacro s.heap e "test") : eval W (form "test" []) e s = .ok .nil s := by
  rw [eval_named W .test hm rfl]; rfl

/-- `(test)`. -/
example : eval sampleWorld (form "test" []) 0 (initSt []) = .ok .nil (initSt []) := C55_empty _ _ _ (notMacro_init _ _)

/-- `(test '(sums) 1 2)` prints `TEST (sums) ..✓`. -/
example : eval sampleWorld (form "test" [form "quote" [vlist [.atom "sums"]], .num 1, .num 2]) 0 (initSt [])
    = .ok .nil (printed (initSt []) "TEST (sums) ..✓\n".toList) :=
  (C55_pass sampleWorld 0 _ _ [.num 1, .num 2] (initSt []) (initSt []) _ (notMacro_init _ _) (C27_quote _ _ _ _ (notMacro_init _ _))
    (.cons (v := .num 1) (by rw [eval_eq]; rfl) (.cons (v := .num 2) (by rw [eval_eq]; rfl) .nil))).trans rfl

/-! ### C57: load -/

/-- C57: `(load f)` evaluates the forms of the file in order in the scope of the call, prints nothing itself, and is `()`. -/
theorem C57_load (W : World) (name : String) (text : List Char) (gs vs : List Val) (e : Nat) (s s1 : St)
    (hr : W.readFile s.tick name = .ok text) (hp : readText text = .ok gs) (h : EvalsTo W e gs (asked s) vs s1) :
    perform W (.builtin .load [.atom name] e) s = .ok .nil s1 := by
  have h1 : loadFile W (perform W) name e s = .ok () s1 := by
    unfold loadFile
    rw [M.bind_ok (askM_run _ _), hr]
    show lexParseEval (perform W) text e (asked s) = _
    unfold lexParseEval
    rw [hp]
    exact C42_all W e gs vs (asked s) s1 h
  rw [perform_eq]
  show bLoad W (perform W) [.atom name] e s = _
  unfold bLoad
  dsimp only
  rw [M.bind_ok (extend_ok h1)]
  rfl

/-- C57: the first form that fails ends it, with that form's error (one frame in front); what was done before remains. -/
theorem C57_error (W : World) (name : String) (text : List Char) (before vs later : List Val) (x : Val) (er : Err) (e : Nat) (s s1 s2 : St)
    (hr : W.readFile s.tick name = .ok text) (hp : readText text = .ok (before ++ x :: later)) (h : EvalsTo W e before (asked s) vs s1)
    (hx : eval W x e s1 = .err er s2) :
    perform W (.builtin .load [.atom name] e) s = .err (er.under (msgList "load file")) s2 := by
  have h1 : loadFile W (perform W) name e s = .err er s2 := by
    unfold loadFile
    rw [M.bind_ok (askM_run _ _), hr]
    show lexParseEval (perform W) text e (asked s) = _
    unfold lexParseEval
    rw [hp]
    exact C42_stops W e before vs later x er (asked s) s1 s2 h hx
  rw [perform_eq]
  show bLoad W (perform W) [.atom name] e s = _
  unfold bLoad
  dsimp only
  rw [M.bind_err (extend_err h1), extendErr_under]

/-- A file with the text `1 oops 2`. -/
example : perform { sampleWorld with readFile := fun _ _ => .ok "1 oops 2".toList } (.builtin .load [.atom "f"] 0) (initSt [])
    = .err (.list (vlist [msgList "load file", msgList "unknown symbol: oops"])) (asked (initSt [])) :=
  C57_error _ "f" "1 oops 2".toList [.num 1] [.num 1] [.num 2] (.atom "oops") (.list (vlist [msgList "unknown symbol: oops"])) 0 _ (asked (initSt [])) _ rfl (by decide +kernel)
    (.cons (by rw [eval_eq]; rfl) .nil) (by rw [eval_eq]; rfl)

/-- C57: a file that cannot be read is an error of the operating system; anything but one atom is an error, and no file is read. -/
theorem C57_unreadable (W : World) (e : Nat) (s : St) :
    (∀ name msg, W.readFile s.tick name = .error msg →
      perform W (.builtin .load [.atom name] e) s = .err (.foreign msg) (asked s)) ∧
    (∀ args, (¬ ∃ name, args = [.atom name]) → ∃ er, perform W (.builtin .load args e) s = .err (.list er) s) := by
  simp only [perform_eq]
  constructor
  · intro name msg hr
    show bLoad W (perform W) [.atom name] e s = _
    unfold bLoad
    dsimp only
    have h1 : loadFile W (perform W) name e s = .err (.foreign msg) (asked s) := by
      unfold loadFile
      rw [M.bind_ok (askM_run _ _), hr]
      rfl
    rw [M.bind_err (extend_err h1)]
    rfl
  · intro args hn
    match args, hn with
    | [], _ => exact ⟨_, rfl⟩
    | [.atom n], hn => exact absurd ⟨n, rfl⟩ hn
    | [.nil], _ => exact ⟨_, rfl⟩
    | [.num _], _ => exact ⟨_, rfl⟩
    | [.cons _ _], _ => exact ⟨_, rfl⟩
    | [.lam ..], _ => exact ⟨_, rfl⟩
    | [.bi _], _ => exact ⟨_, rfl⟩
    | v :: _ :: _, _ =>
      refine ⟨vlist [msgList "load expects a single argument"], ?_⟩
      cases v <;> rfl

/-- A file that cannot be read, and `(load 7)`. -/
example : perform sampleWorld (.builtin .load [.atom "f"] 0) (initSt []) = .err (.foreign "no file") (asked (initSt [])) ∧
    ∃ er, perform sampleWorld (.builtin .load [.num 7] 0) (initSt []) = .err (.list er) (initSt []) :=
  ⟨(C57_unreadable _ _ _).1 _ _ rfl, (C57_unreadable _ _ _).2 _ (by simp)⟩

/-- The hypotheses are met: a file with one form. -/
example : perform { sampleWorld with readFile := fun _ _ => .ok "(quote a) 2".toList } (.builtin .load [.atom "f"] 0) (initSt []) = .ok .nil (asked (initSt [])) :=
  C57_load _ "f" "(quote a) 2".toList [form "quote" [.atom "a"], .num 2] [.atom "a", .num 2] 0 _ _ rfl (by decide +kernel)
    (.cons (C27_quote _ _ _ _ (notMacro_init [] _)) (.cons (by rw [eval_eq]; rfl) .nil))

/-! ### C58: starting the program -/

/-- The state in which user code starts: the core library loaded into the top-level scope. -/
theorem main_starts (W : World) (n : Nat) (expr : Option (List Char)) (files : List String) (inp : List (List Char)) :
    mainWith W (perform W) n coreText expr files (initSt inp) =
      (match expr with
        | some text => runExpr (perform W) 0 text
        | none => match files with
          | f :: fs => runFiles W (perform W) 0 (f :: fs)
          | [] => repl (perform W) 0 n) (topSt (initSt inp) coreEnv) := by
  unfold mainWith
  rw [M.bind_ok (attempt_ok (load_core inp))]
  cases expr <;> cases files <;> rfl

/-- C58: with `-e text` the program evaluates the forms of the text in order, prints nothing of its own, and ends without reading input or
files; after an error it prints the error and ends. -/
theorem C58_expr (W : World) (n : Nat) (text : List Char) (files : List String) (inp : List (List Char)) (gs : List Val)
    (hp : readText text = .ok gs) :
    (∀ vs s1, EvalsTo W 0 gs (topSt (initSt inp) coreEnv) vs s1 →
      mainWith W (perform W) n coreText (some text) files (initSt inp) = .exit 0 s1) ∧
    (∀ before x later vs er s1 s2, gs = before ++ x :: later → EvalsTo W 0 before (topSt (initSt inp) coreEnv) vs s1 → eval W x 0 s1 = .err er s2 →
      mainWith W (perform W) n coreText (some text) files (initSt inp) = .exit 1 (printed s2 (er.str ++ ['\n']))) := by
  rw [main_starts]
  dsimp only
  unfold runExpr lexParseEval
  rw [hp]
  constructor
  · intro vs s1 h
    have h1 : (do
        let forms ← liftParse (.ok gs)
        evalExprs (perform W) false 0 forms : M Unit) (topSt (initSt inp) coreEnv) = .ok () s1 := C42_all W 0 gs vs _ s1 h
    rw [M.bind_ok (attempt_ok h1)]
    rfl
  · intro before x later vs er s1 s2 hg h hx
    have h1 : (do
        let forms ← liftParse (.ok gs)
        evalExprs (perform W) false 0 forms : M Unit) (topSt (initSt inp) coreEnv) = .err er s2 := by
      subst hg; exact C42_stops W 0 before vs later x er _ s1 s2 h hx
    rw [M.bind_ok (attempt_err h1)]
    rfl

/-- `l1 -e '1 oops 2'` prints the error and exits. -/
example (W : World) (n : Nat) (files : List String) (inp : List (List Char)) :
    mainWith W (perform W) n coreText (some "1 oops 2".toList) files (initSt inp)
      = .exit 1 (printed (topSt (initSt inp) coreEnv) "((unknown symbol: oops))\n".toList) := by
  have hl : lookup (topSt (initSt inp) coreEnv).heap 0 "oops" = none := by simp [topSt, lookup, lookupAux, show alGet "oops" coreEnv = none by decide +kernel]
  exact ((C58_expr W n "1 oops 2".toList files inp [.num 1, .atom "oops", .num 2] (by decide +kernel)).2 [.num 1] (.atom "oops") [.num 2] [.num 1]
    (.list (vlist [msgList "unknown symbol: oops"])) _ _ rfl (.cons (by rw [eval_eq]; rfl) .nil)
    (by rw [eval_atom W _ 0 _ (by rw [← isCxr_iff]; decide), evAtom_run (by decide), hl]; rfl)).trans rfl

/-- C58: with file names the program runs them as scripts and does not start the REPL; with neither, it starts the REPL. -/
theorem C58_modes (W : World) (n : Nat) (inp : List (List Char)) :
    (∀ f fs, mainWith W (perform W) n coreText none (f :: fs) (initSt inp) = runFiles W (perform W) 0 (f :: fs) (topSt (initSt inp) coreEnv)) ∧
    mainWith W (perform W) n coreText none [] (initSt inp) = repl (perform W) 0 n (topSt (initSt inp) coreEnv) :=
  ⟨fun f fs => main_starts W n none (f :: fs) inp, main_starts W n none [] inp⟩

/-- C58: if the text of the core library were broken (syntax error, or a form that fails) the program would print the error and a notice and end:
no user code is read or run. -/
theorem C58_broken_core (W : World) (n : Nat) (core : List Char) (expr : Option (List Char)) (files : List String) (s s1 : St) (er : Err)
    (h : lexParseEval (perform W) core 0 s = .err er s1) :
    mainWith W (perform W) n core expr files s = .exit 1 (printed s1 (er.str ++ "\nFailed to load l1 core library!\n".toList)) := by
  unfold mainWith
  rw [M.bind_ok (attempt_err h)]
  rfl

example (W : World) : lexParseEval (perform W) "(car".toList 0 (initSt [])
    = .err (.list (vlist [msgList "parse parseNext", msgList "parseNext itemLeftParen parseList", msgList "unbalanced parens"])) (initSt []) :=
  C04_text _ _ _ _ _ (by decide +kernel)

/-! ### C59: predefined names -/

/-- C59: the fifteen predefined names have these values from the start, and still when the core library has been loaded. -/
theorem C59_constants (W : World) (inp : List (List Char)) :
    ∀ p ∈ [("SPACE", " "), ("NEWLINE", "\n"), ("TAB", "\t"), ("BANG", "!"), ("QMARK", "?"), ("PERIOD", "."), ("COMMA", ","), ("COLON", ":"),
        ("HASH", "#"), ("ATSIGN", "@"), ("CHECK", "✓"), ("QUOTE", "'"), ("BQUOTE", "`"), ("DQUOTE", "\""), ("UPLINE", "\x1b[F")],
      eval W (.atom p.1) 0 (initSt inp) = .ok (.atom p.2) (initSt inp) ∧
      eval W (.atom p.1) 0 (topSt (initSt inp) coreEnv) = .ok (.atom p.2) (topSt (initSt inp) coreEnv) := by
  have key : ∀ (x a : String) (s : St), x ≠ "t" → isCxr x = false → lookup s.heap 0 x = some (.atom a) → eval W (.atom x) 0 s = .ok (.atom a) s := by
    intro x a s h1 h2 h3
    rw [eval_eq]
    unfold evalStep
    rw [M.bind_ok (isMacroCallM_run _ _ _)]
    rw [show isMacroCallIn (lookup s.heap 0) (.atom x) = false from rfl, M.ite_neg (by simp)]
    have hx : evExpr (perform W) (perform W) (.atom x) 0 = evAtom x 0 := by simp [evExpr, h2]
    rw [hx]
    unfold evAtom
    rw [M.ite_neg h1, M.bind_ok (lookupM_run _ _ _), h3]
    rfl
  have h1 : ∀ p ∈ [("SPACE", " "), ("NEWLINE", "\n"), ("TAB", "\t"), ("BANG", "!"), ("QMARK", "?"), ("PERIOD", "."), ("COMMA", ","), ("COLON", ":"),
        ("HASH", "#"), ("ATSIGN", "@"), ("CHECK", "✓"), ("QUOTE", "'"), ("BQUOTE", "`"), ("DQUOTE", "\""), ("UPLINE", "\x1b[F")],
      p.1 ≠ "t" ∧ isCxr p.1 = false ∧ alGet p.1 initGlobals.syms = some (.atom p.2) ∧ alGet p.1 coreEnv = some (.atom p.2) := by decide +kernel
  intro p hp
  obtain ⟨a, b, c, d⟩ := h1 p hp
  constructor
  · exact key _ _ _ a b (by simpa [initSt, lookup, lookupAux] using by rw [c])
  · exact key _ _ _ a b (by simpa [topSt, lookup, lookupAux] using by rw [d])

end L1
