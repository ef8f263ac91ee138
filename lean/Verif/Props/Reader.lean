import Verif.Lemmas.Lexer
import Verif.Spec.Reading
import Verif.Props.Control
/- C02–C07: the reader. -/
set_option autoImplicit false
namespace L1

/-! ### C02 -/

/-- C02: a token sequence is accepted exactly if the grammar derives it, with exactly the forms the grammar gives. -/
theorem C02_grammar (ts : List Token) (vs : List Val) : parseTop ts = .ok vs ↔ Program ts vs := parseTop_iff ts vs

/-- The tokens of `(a . b)`. -/
example : Program (lexItems ["(a . b)".toList]) [.cons (.atom "a") (.atom "b")] := (C02_grammar _ _).1 (by decide +kernel)

/-- C02: no token sequence has two readings. -/
theorem C02_unambiguous {ts : List Token} {vs ws : List Val} (h1 : Program ts vs) (h2 : Program ts ws) : vs = ws := by
  have := ((C02_grammar ts vs).2 h1).symm.trans ((C02_grammar ts ws).2 h2)
  cases this; rfl

example (vs : List Val) (h : Program (lexItems ["(a . b)".toList]) vs) : vs = [.cons (.atom "a") (.atom "b")] :=
  C02_unambiguous h ((C02_grammar _ _).1 (by decide +kernel))

/-- C02: reading one program after another gives the forms of both in order. -/
theorem C02_append {ts us : List Token} {vs ws : List Val} (h1 : parseTop ts = .ok vs) (h2 : Forms us ws) : parseTop (ts ++ us) = .ok (vs ++ ws) := by
  rw [C02_grammar] at h1 ⊢
  have app : ∀ {ts vs}, Forms ts vs → Forms (ts ++ us) (vs ++ ws) := by
    intro ts vs h
    generalize hn : ts.length = n
    induction n using Nat.strongRecOn generalizing ts vs with
    | ind n ih =>
      cases h with
      | nil => exact h2
      | @cons as bs v vs h3 h4 =>
        rw [List.append_assoc, List.cons_append]
        refine .cons h3 (ih bs.length ?_ h4 rfl)
        have := h3.ne_nil
        rw [List.length_append] at hn; omega
  cases h1 with
  | plain h => exact .plain (app h)
  | shebang ht h => exact .shebang ht (app h)

/-- The tokens of `(a)` followed by an atom. -/
example (t : Token) (ht : t.typ = .atom) : parseTop (lexItems ["(a)".toList] ++ [t]) = .ok [vlist [.atom "a"], .atom (String.ofList t.val)] :=
  C02_append (vs := [vlist [.atom "a"]]) (by decide +kernel) (.cons (us := []) (.atom ht) .nil)

/-- `(a . b)` and `'(1 (2))` are programs. -/
example : readText "(a . b) '(1 (2))".toList
    = .ok [.cons (.atom "a") (.atom "b"), vlist [.atom "quote", vlist [.num 1, vlist [.num 2]]]] := by decide +kernel

/-! ### C03 -/

/-- C03: reading always ends. -/
theorem C03_terminates (cs : List Char) : readText cs ≠ .fuel := parseTop_ne_fuel _

theorem DotGap.embed {a ts b : List Token} (h : DotGap ts) : DotGap (a ++ (ts ++ b)) := by
  obtain ⟨a', d, sh, r, b', h1, h2⟩ := h
  exact ⟨a ++ a', d, sh, r, b' ++ b, by rw [h1]; simp, h2⟩

theorem content_nil {us : List Token} (h : Content us []) : us = [] ∨ ∃ t, us = [t] ∧ t.typ = .shebang := by
  cases h with
  | plain h => cases h; exact .inl rfl
  | shebang ht h => cases h; exact .inr ⟨_, rfl, ht⟩

theorem PRes.bind_eq_crash {α β : Type} {r : PRes α} {f : α → PRes β} (h : r.bind f = .crash) : r = .crash ∨ ∃ a, r = .ok a ∧ f a = .crash := by
  cases r with
  | ok a => exact .inr ⟨a, rfl, h⟩
  | crash => exact .inl rfl
  | err e => cases h
  | fuel => cases h

theorem PRes.extend_crash {α : Type} {m : String} {r : PRes α} (h : r.extend m = .crash) : r = .crash := by
  cases r <;> first | rfl | cases h

theorem parse_crash (k : Nat) :
    (∀ ts, parseNext k ts = .crash → DotGap ts) ∧ (∀ l ts, l.typ = .lparen → parseList k (l :: ts) = .crash → DotGap ts) ∧
    (∀ ts, parse k ts = .crash → DotGap ts) ∧ (∀ ts, parseForms k ts = .crash → DotGap ts) := by
  induction k with
  | zero =>
    refine ⟨fun ts h => ?_, fun l ts hl h => ?_, fun ts h => ?_, fun ts h => ?_⟩
    · rw [parseNext] at h; cases h
    · rw [parseList] at h; cases h
    · rw [parse] at h; cases h
    · rw [parseForms] at h; cases h
  | succ k ih =>
    obtain ⟨ih1, ih2, ih3, ih4⟩ := ih
    have tail : ∀ {t : Token} {ts : List Token}, DotGap ts → DotGap (t :: ts) := by
      intro t ts h
      have := DotGap.embed (a := [t]) (b := []) h
      simpa using this
    refine ⟨fun ts h => ?_, fun l ts hl h => ?_, fun ts h => ?_, fun ts h => ?_⟩
    · cases ts with
      | nil => rw [parseNext] at h; cases h
      | cons t ts =>
        cases hs : sugar t.typ with
        | some op =>
          rw [parseNext_sugar hs] at h
          rcases PRes.bind_eq_crash h with h | ⟨r, _, h⟩
          · have h := PRes.extend_crash h
            cases ts with
            | nil => cases h
            | cons t' ts => exact tail (ih1 _ (PRes.extend_crash h))
          · cases h
        | none =>
          by_cases ht : t.typ = .lparen
          · rw [parseNext_lparen ht] at h
            exact tail (ih2 _ _ ht (PRes.extend_crash h))
          · rw [parseNext.eq_def] at h; simp only [] at h; rw [prefixName_sugar, hs] at h
            cases h' : t.typ <;> rw [h'] at h <;> first | exact absurd h' ht | cases h
    · rcases parseList_cases hl k (ts := ts) with ⟨h1, _⟩ | ⟨mid, r, rest, h1, h2, _, h3⟩ | ⟨mid, d, rest, h1, h2, _, _, h3⟩ |
          ⟨mid, d, mid2, r, rest, h1, h2, h3, _, _, h4⟩
      · rw [h1] at h; cases h
      · rw [h3] at h
        rcases PRes.bind_eq_crash h with h | ⟨_, _, h⟩
        · rw [h1]; exact DotGap.embed (a := []) (ih3 _ h)
        · cases h
      · rw [h3] at h
        rcases PRes.bind_eq_crash h with h | ⟨_, _, h⟩
        · rw [h1]; exact DotGap.embed (a := []) (ih3 _ h)
        · cases h
      · rw [h4] at h
        rcases PRes.bind_eq_crash h with h | ⟨vs, hvs, h⟩
        · rw [h1]; exact DotGap.embed (a := []) (ih3 _ h)
        · rcases PRes.bind_eq_crash h with h | ⟨ws, hws, h⟩
          · have := DotGap.embed (a := mid ++ [d]) (b := r :: rest) (ih3 _ h)
            rw [h1]; simpa using this
          · cases ws with
            | nil =>
              have := content_nil ((parse_sound k).2.2.1 _ _ hws)
              exact ⟨mid, d, mid2, r, rest, h1, h2, h3, this⟩
            | cons w ws => cases h
    · rw [parse.eq_def] at h; simp only [] at h
      cases ts with
      | nil => cases h
      | cons t ts =>
        simp only [] at h
        by_cases hs : t.typ = .shebang
        · rw [if_pos hs] at h; exact tail (ih4 _ h)
        · rw [if_neg hs] at h; exact ih4 _ h
    · rw [parseForms.eq_def] at h; simp only [] at h
      cases ts with
      | nil => cases h
      | cons t ts =>
        simp only [] at h
        rcases PRes.bind_eq_crash h with h | ⟨r, hr, h⟩
        · exact ih1 _ (PRes.extend_crash h)
        · rcases PRes.bind_eq_crash h with h | ⟨_, _, h⟩
          · have := DotGap.embed (a := (t :: ts).take r.2) (b := []) (ih4 _ h)
            simpa using this
          · cases h

/-- C03: the only crash is a dot with nothing between it and the closing parenthesis. -/
theorem C03_crash_only (cs : List Char) (h : readText cs = .crash) : DotGap (lexItems (splitOnChar '\n' cs)) := (parse_crash _).2.2.1 _ h

example : DotGap (lexItems (splitOnChar '\n' "(a . )".toList)) := C03_crash_only _ (by decide +kernel)

theorem forms_crash {pre : List Token} {ws : List Val} (h : Forms pre ws) {x : Token} {X : List Token} (hx : ∃ K, ∀ k, K ≤ k → parseForms k (x :: X) = .crash) :
    ∃ K, ∀ k, K ≤ k → parseForms k (pre ++ x :: X) = .crash := by
  generalize hn : pre.length = n
  induction n using Nat.strongRecOn generalizing pre ws with
  | ind n ih =>
    cases h with
    | nil => exact hx
    | @cons as bs v vs h3 h4 =>
      have hne := h3.ne_nil
      obtain ⟨K, hK⟩ := ih bs.length (by rw [List.length_append] at hn; omega) h4 rfl
      obtain ⟨J, hJ⟩ := h3.complete
      refine ⟨K + J + 1, fun k hk => ?_⟩
      obtain ⟨k, rfl⟩ : ∃ j, k = j + 1 := ⟨k - 1, by omega⟩
      have e1 := hJ k (by omega) (bs ++ x :: X)
      have e2 := hK k (by omega)
      have e3 : (as ++ (bs ++ x :: X)).drop as.length = bs ++ x :: X := by simp
      rw [List.append_assoc]
      cases as with
      | nil => exact absurd hne (by decide)
      | cons t ts =>
        rw [parseForms.eq_def]
        rw [List.cons_append] at e1 e3 ⊢
        simp only [e1, PRes.extend, PRes.bind, e3, e2]

/-- C03: and such a list does crash, whatever follows it. -/
theorem C03_crash (pre ts us rest : List Token) (vs ws : List Val) (l d r : Token) (hl : l.typ = .lparen) (hd : d.typ = .dot) (hr : r.typ = .rparen)
    (hp : Forms pre ws) (hi : Content ts vs) (hu : Content us []) : parseTop (pre ++ l :: (ts ++ d :: (us ++ r :: rest))) = .crash := by
  obtain ⟨K1, h1⟩ := hi.complete
  obtain ⟨K2, h2⟩ := hu.complete
  have key : ∃ K, ∀ k, K ≤ k → parseForms k (l :: (ts ++ d :: (us ++ r :: rest))) = .crash := by
    refine ⟨K1 + K2 + 3, fun k hk => ?_⟩
    obtain ⟨k, rfl⟩ : ∃ j, k = j + 3 := ⟨k - 3, by omega⟩
    rw [parseForms.eq_def]; simp only []
    rw [parseNext_lparen hl, parseList_dotted hl hd hr hi hu, h1 k (by omega), PRes.bind, h2 k (by omega)]
    rfl
  obtain ⟨K, hK⟩ := forms_crash hp key
  have hne : ∀ k, parse (k + 1) (pre ++ l :: (ts ++ d :: (us ++ r :: rest))) = parseForms k (pre ++ l :: (ts ++ d :: (us ++ r :: rest))) := by
    intro k
    rw [parse.eq_def]; simp only []
    cases pre with
    | nil => simp only [List.nil_append]; rw [if_neg (by rw [hl]; decide)]
    | cons t pre => simp only [List.cons_append]; rw [if_neg hp.not_shebang]
  generalize hX : pre ++ l :: (ts ++ d :: (us ++ r :: rest)) = X at *
  have h3 := hne (K + (4 * X.length + 4))
  rw [hK _ (by omega), parse_mono (k := 4 * X.length + 4) (by omega) (parseTop_ne_fuel X)] at h3
  exact h3

/-- `(` `.` `)` after any forms and before any tokens. -/
example (pre rest : List Token) (ws : List Val) (l d r : Token) (hl : l.typ = .lparen) (hd : d.typ = .dot) (hr : r.typ = .rparen) (hp : Forms pre ws) :
    parseTop (pre ++ l :: ([] ++ d :: ([] ++ r :: rest))) = .crash :=
  C03_crash pre [] [] rest [] ws l d r hl hd hr hp (.plain .nil) (.plain .nil)

example : readText "(a . )".toList = .crash := by decide +kernel
example : readText "x (1 2 (a b .) 3".toList = .err (vlist [msgList "parse parseNext", msgList "parseNext itemLeftParen parseList", msgList "unbalanced parens"]) := by
  decide +kernel

/-! ### C04 -/

/-- An unreadable text and the error it gives. -/
theorem unbalanced_text : readText "(println 1)\n(x (".toList
    = .err (vlist [msgList "parse parseNext", msgList "parseNext itemLeftParen parseList", msgList "unbalanced parens"]) := by decide +kernel

/-- C04: evaluating a text that does not read: the read error, and nothing happens. -/
theorem C04_text (call : Task → M Val) (text : List Char) (e : Nat) (s : St) (er : Val) (h : readText text = .err er) :
    lexParseEval call text e s = .err (.list er) s := by
  unfold lexParseEval; rw [h]; rfl

/-- The first form of the unreadable text is not evaluated: nothing is printed. -/
example : lexParseEval (perform sampleWorld) "(println 1)\n(x (".toList 0 (initSt [])
    = .err (.list (vlist [msgList "parse parseNext", msgList "parseNext itemLeftParen parseList", msgList "unbalanced parens"])) (initSt []) :=
  C04_text _ _ _ _ _ unbalanced_text

/-- C04: the same for `load` (apart from the count of files read). -/
theorem C04_load (W : World) (name : String) (text : List Char) (e : Nat) (s : St) (er : Val) (hf : W.readFile s.tick name = .ok text)
    (h : readText text = .err er) :
    perform W (.builtin .load [.atom name] e) s = .err (.list (.cons (msgList "load file") er)) { s with tick := s.tick + 1 } := by
  rw [perform_eq]
  show bLoad W (perform W) [.atom name] e s = _
  unfold bLoad
  simp only []
  have : loadFile W (perform W) name e s = .err (.list er) { s with tick := s.tick + 1 } := by
    unfold loadFile
    rw [M.bind_ok (askM_run _ _)]
    simp only [hf]
    exact C04_text _ _ _ _ _ h
  rw [M.bind_err (extend_err this)]; rfl

example : ∃ er, perform { sampleWorld with readFile := fun _ _ => .ok "(println 1)\n(x (".toList } (.builtin .load [.atom "f"] 0) (initSt [])
    = .err er { initSt [] with tick := 1 } :=
  ⟨_, C04_load { sampleWorld with readFile := fun _ _ => .ok "(println 1)\n(x (".toList } "f" _ 0 (initSt []) _ rfl unbalanced_text⟩

/-- C04: the same for `l1 -e`: the error is printed and the program ends. -/
theorem C04_command_line (call : Task → M Val) (text : List Char) (e : Nat) (s : St) (er : Val) (h : readText text = .err er) :
    runExpr call e text s = .exit 1 { s with out := s.out ++ (er.str ++ ['\n']) } := by
  unfold runExpr
  rw [M.bind_ok (attempt_err (C04_text call text e s er h))]
  rfl

example : runExpr (perform sampleWorld) 0 "(println 1)\n(x (".toList (initSt [])
    = .exit 1 { initSt [] with out := "((parse parseNext) (parseNext itemLeftParen parseList) (unbalanced parens))\n".toList } :=
  (C04_command_line _ _ _ _ _ unbalanced_text).trans rfl

/-- C04: the same for a script: later scripts are not even opened. -/
theorem C04_script (W : World) (call : Task → M Val) (name : String) (files : List String) (text : List Char) (e : Nat) (s : St) (er : Val)
    (hf : W.readFile s.tick name = .ok text) (h : readText text = .err er) :
    runFiles W call e (name :: files) s = .exit 1 { s with tick := s.tick + 1, out := s.out ++ ("ERROR:\n".toList ++ er.str ++ ['\n']) } := by
  unfold runFiles
  have : loadFile W call name e s = .err (.list er) { s with tick := s.tick + 1 } := by
    unfold loadFile
    rw [M.bind_ok (askM_run _ _)]
    simp only [hf]
    exact C04_text _ _ _ _ _ h
  rw [M.bind_ok (attempt_err this)]
  rfl

example : runFiles { sampleWorld with readFile := fun _ _ => .ok "(println 1)\n(x (".toList } (perform sampleWorld) 0 ["f", "g"] (initSt [])
    = .exit 1 { initSt [] with tick := 1, out := "ERROR:\n((parse parseNext) (parseNext itemLeftParen parseList) (unbalanced parens))\n".toList } :=
  (C04_script { sampleWorld with readFile := fun _ _ => .ok "(println 1)\n(x (".toList } _ "f" ["g"] _ 0 (initSt []) _ rfl unbalanced_text).trans rfl

/-- C04: the same in the REPL, which goes on with the next lines. -/
theorem C04_repl (call : Task → M Val) (e : Nat) (s : St) (ts : List Token) (rest : List (List Char)) (er : Val)
    (hg : groupLines [] s.inp = .complete ts rest) (h : parseTop ts = .err er) :
    replTurn call e s = .ok true { s with inp := rest, out := s.out ++ "> ".toList ++ (er.str ++ ['\n']) } := by
  unfold replTurn
  rw [M.bind_ok (printM_run _ _)]
  simp only [hg]
  rw [M.bind_ok (setInpM_run _ _)]
  simp only [h]
  rfl

/-- The line `'` is unreadable; the line after it is kept. -/
example : ∃ er : Val, replTurn (perform sampleWorld) 0 (initSt ["'".toList, "1".toList])
    = .ok true { initSt ["1".toList] with out := "> ".toList ++ (er.str ++ ['\n']) } := by
  have hg : groupLines [] (initSt ["'".toList, "1".toList]).inp = .complete (replTokens ["'".toList]) ["1".toList] := rfl
  exact ⟨_, C04_repl _ _ _ _ _ _ hg rfl⟩

/-- `x` would be an error when evaluated, but the text is rejected first. -/
example : readText "(println 1)\n(x (".toList
    = .err (vlist [msgList "parse parseNext", msgList "parseNext itemLeftParen parseList", msgList "unbalanced parens"]) := by decide +kernel

/-! ### C05 -/

/-- The five prefixes and what they stand for. -/
def Prefix (p : List Char) (op : String) : Prop :=
  (p = ['\''] ∧ op = "quote") ∨ (p = ['`'] ∧ op = "syntax-quote") ∨ (p = ['~'] ∧ op = "unquote") ∨ (p = ['~', '@'] ∧ op = "splicing-unquote") ∨
  (p = ['#', '_'] ∧ op = "comment")

theorem splitOnChar_cons_ne {sep c : Char} (h : c ≠ sep) (cs : List Char) :
    ∃ l ls, splitOnChar sep cs = l :: ls ∧ splitOnChar sep (c :: cs) = (c :: l) :: ls := by
  have hne : splitOnChar sep cs ≠ [] := by
    cases cs with
    | nil => intro h; cases h
    | cons d cs =>
      rw [splitOnChar]
      by_cases hd : d = sep
      · rw [if_pos hd]; intro h; cases h
      · rw [if_neg hd]; split <;> (intro h; cases h)
  cases hs : splitOnChar sep cs with
  | nil => exact absurd hs hne
  | cons l ls => exact ⟨l, ls, rfl, by rw [splitOnChar, if_neg h, hs]⟩

theorem splitOnChar_append {sep : Char} (p cs : List Char) (h : sep ∉ p) :
    ∃ l ls, splitOnChar sep cs = l :: ls ∧ splitOnChar sep (p ++ cs) = (p ++ l) :: ls := by
  induction p with
  | nil =>
    obtain ⟨l, ls, h1, _⟩ := splitOnChar_cons_ne (sep := 'a') (c := 'b') (by decide) cs
    have hne : splitOnChar sep cs ≠ [] := by
      cases cs with
      | nil => intro h; cases h
      | cons d cs =>
        rw [splitOnChar]
        by_cases hd : d = sep
        · rw [if_pos hd]; intro h; cases h
        · rw [if_neg hd]; split <;> (intro h; cases h)
    cases hs : splitOnChar sep cs with
    | nil => exact absurd hs hne
    | cons l ls => exact ⟨l, ls, rfl, hs⟩
  | cons c p ih =>
    simp only [List.mem_cons, not_or] at h
    obtain ⟨l, ls, h1, h2⟩ := ih h.2
    obtain ⟨l', ls', h3, h4⟩ := splitOnChar_cons_ne (sep := sep) (c := c) (Ne.symm h.1) (p ++ cs)
    rw [h2] at h3; cases h3
    exact ⟨l, ls, h1, h4⟩

/-- The grammar knows no error tokens. -/
def noError (ts : List Token) : Prop := ∀ t ∈ ts, t.typ ≠ .error

mutual
theorem Form.noError {ts : List Token} {v : Val} (h : Form ts v) : noError ts := by
  match ts, v, h with
  | _, _, Form.number h => intro t ht; simp at ht; subst ht; rw [h]; decide
  | _, _, Form.atom h => intro t ht; simp at ht; subst ht; rw [h]; decide
  | _, _, Form.sugared hs hf =>
    intro t ht
    rcases List.mem_cons.1 ht with rfl | ht
    · intro e; rw [e] at hs; cases hs
    · exact hf.noError t ht
  | _, _, Form.list hl hr hi =>
    intro t ht
    rcases List.mem_cons.1 ht with rfl | ht
    · rw [hl]; decide
    · rcases List.mem_append.1 ht with ht | ht
      · exact hi.noError t ht
      · simp at ht; subst ht; rw [hr]; decide
  | _, _, Form.dotted hl hd hr hi hj =>
    intro t ht
    rcases List.mem_cons.1 ht with rfl | ht
    · rw [hl]; decide
    · rcases List.mem_append.1 ht with ht | ht
      · exact hi.noError t ht
      · rcases List.mem_cons.1 ht with rfl | ht
        · rw [hd]; decide
        · rcases List.mem_append.1 ht with ht | ht
          · exact hj.noError t ht
          · simp at ht; subst ht; rw [hr]; decide

theorem Content.noError {ts : List Token} {vs : List Val} (h : Content ts vs) : noError ts := by
  match ts, vs, h with
  | _, _, Content.plain h => exact h.noError
  | _, _, Content.shebang ht h =>
    intro t ht'
    rcases List.mem_cons.1 ht' with rfl | ht'
    · rw [ht]; decide
    · exact h.noError t ht'

theorem Forms.noError {ts : List Token} {vs : List Val} (h : Forms ts vs) : noError ts := by
  match ts, vs, h with
  | _, _, Forms.nil => intro t ht; cases ht
  | _, _, Forms.cons h1 h2 =>
    intro t ht
    rcases List.mem_append.1 ht with ht | ht
    · exact h1.noError t ht
    · exact h2.noError t ht
end

theorem lex_prefix {p : List Char} {op : String} (hp : Prefix p op) (line : Nat) (l : List Char) (hl : p = ['~'] → l.head? ≠ some '@') :
    ∃ t, lexLine line (p ++ l) = t :: lexLine line l ∧ sugar t.typ = some op := by
  simp only [lexLine_eq]
  rcases hp with ⟨rfl, rfl⟩ | ⟨rfl, rfl⟩ | ⟨rfl, rfl⟩ | ⟨rfl, rfl⟩ | ⟨rfl, rfl⟩
  · exact ⟨_, lexAll_cons _ _ _ _, rfl⟩
  · exact ⟨_, lexAll_cons _ _ _ _, rfl⟩
  · have : lexStep line [] '~' l = (some ⟨.unquote, ['~'], line⟩, [], l) := by
      unfold lexStep
      rw [if_neg (by decide), if_neg (by decide), if_neg (by decide), if_neg (by decide), if_neg (by decide), if_neg (by decide),
        if_neg (by decide), if_neg (by decide), if_neg (by decide), if_pos rfl]
      split
      · exact absurd rfl (hl rfl)
      · rfl
    refine ⟨⟨.unquote, ['~'], line⟩, ?_, rfl⟩
    rw [List.singleton_append, lexAll_cons, this]; rfl
  · exact ⟨_, lexAll_cons _ _ _ _, rfl⟩
  · exact ⟨_, lexAll_cons _ _ _ _, rfl⟩

/-- C05: a prefix character (or two) before any text that reads as a form `v` and then others gives `(op v)` and then the same others.  (A shebang
line may only come first, so the text must not start with one.) -/
theorem C05_sugar (p : List Char) (op : String) (hp : Prefix p op) (cs : List Char) (v : Val) (vs : List Val) (h : readText cs = .ok (v :: vs))
    (hs : ∀ t ∈ (lexItems (splitOnChar '\n' cs)).head?, t.typ ≠ .shebang) :
    readText (p ++ cs) = .ok (vlist [.atom op, v] :: vs) := by
  have hnl : '\n' ∉ p := by
    rcases hp with ⟨rfl, rfl⟩ | ⟨rfl, rfl⟩ | ⟨rfl, rfl⟩ | ⟨rfl, rfl⟩ | ⟨rfl, rfl⟩ <;> decide
  obtain ⟨l, ls, h1, h2⟩ := splitOnChar_append p cs hnl
  unfold readText lexAndParse lexItems at h ⊢
  unfold lexItems at hs
  rw [C02_grammar] at h ⊢
  rw [h1] at h hs
  rw [h2]
  simp only [lexFrom] at h hs ⊢
  have hat : p = ['~'] → l.head? ≠ some '@' := by
    intro _ hh
    cases l with
    | nil => cases hh
    | cons c l =>
      cases hh
      have := Content.noError h
      rw [lexLine_eq, lexAll_cons] at this
      exact this ⟨.error, badCharMsg (some '@'), 1⟩ (List.mem_append_left _ (List.mem_append_left _ (by simp [lexStep, isSpaceC, isDigitC, isAtomStartC, isAtomCont]))) rfl
  obtain ⟨t, h3, h4⟩ := lex_prefix hp 1 l hat
  rw [h3, List.cons_append]
  generalize lexLine 1 l ++ lexFrom (1 + 1) ls = ts at h hs
  have hf : Forms ts (v :: vs) := by
    cases h with
    | plain h => exact h
    | shebang ht h => exact absurd ht (hs _ (by simp))
  generalize hw : v :: vs = ws at hf
  cases hf with
  | nil => cases hw
  | cons h5 h6 => cases hw; exact .plain (.cons (.sugared h4 h5) h6)

example : readText "'(a b) c".toList = .ok [vlist [.atom "quote", vlist [.atom "a", .atom "b"]], .atom "c"] :=
  C05_sugar ['\''] "quote" (.inl ⟨rfl, rfl⟩) "(a b) c".toList (vlist [.atom "a", .atom "b"]) [.atom "c"] (by decide +kernel)
    (by decide +kernel)

/-! ### C06 -/

/-- C06: white space at the end of a line changes nothing. -/
theorem C06_trailing_space (n : Nat) (l w : List Char) (hl : CleanLine n l) (hw : ∀ c ∈ w, c = ' ' ∨ c = '\t' ∨ c = '\r') :
    lexLine n (l ++ w) = lexLine n l := by
  have hsp : ∀ c ∈ w, isSpaceC c = true := by
    intro c hc
    rcases hw c hc with h | h | h <;> subst h <;> rfl
  cases w with
  | nil => rw [List.append_nil]
  | cons y ys =>
    refine lexAll_append n y ys (by unfold isSepC; rw [hsp y (by simp)]; rfl) ?_ (fun pre => ?_) _ [] l (Nat.le_refl _) hl.1 hl.2
    · intro hm
      rcases hw _ hm with h | h | h <;> exact absurd h (by decide)
    · exact lexAll_blank n _ (List.all_eq_true.2 (fun c hc => hsp c hc)) pre

example : lexLine 1 ("(foo 'x)".toList ++ "  \t".toList) = lexLine 1 "(foo 'x)".toList := C06_trailing_space _ _ _ (by unfold CleanLine; decide +kernel) (by decide)

/-- C06: a comment at the end of a line changes nothing. -/
theorem C06_comment (n : Nat) (l c : List Char) (hl : CleanLine n l) (hc : '\n' ∉ c) : lexLine n (l ++ ';' :: c) = lexLine n l :=
  lexAll_append n ';' c rfl (by simp [hc]) (fun pre => lexAll_comment n c hc pre) _ [] l (Nat.le_refl _) hl.1 hl.2

example : lexLine 1 ("(foo 'x)".toList ++ ';' :: " (bar".toList) = lexLine 1 "(foo 'x)".toList :=
  C06_comment _ _ _ (by unfold CleanLine; decide +kernel) (by decide)

/-- C06: white space at the start of a line changes nothing. -/
theorem C06_leading_space (n : Nat) (l w : List Char) (hw : ∀ c ∈ w, c = ' ' ∨ c = '\t' ∨ c = '\r') : lexLine n (w ++ l) = lexLine n l := by
  refine lexAll_blank_append n w l (List.all_eq_true.2 (fun c hc => ?_))
  rcases hw c hc with h | h | h <;> subst h <;> rfl

/-- A line with nothing but white space and possibly a comment. -/
def BlankLine (l : List Char) : Prop := ∃ w c, (∀ x ∈ w, x = ' ' ∨ x = '\t' ∨ x = '\r') ∧ '\n' ∉ c ∧ (l = w ∨ l = w ++ ';' :: c)

theorem lexLine_blank {n : Nat} {l : List Char} (h : BlankLine l) : lexLine n l = [] := by
  obtain ⟨w, c, h1, h2, h3⟩ := h
  have hsp : w.all isSpaceC = true := List.all_eq_true.2 (fun x hx => by rcases h1 x hx with h | h | h <;> subst h <;> rfl)
  rcases h3 with rfl | rfl
  · exact lexAll_blank n _ hsp []
  · rw [C06_leading_space n _ _ h1]; exact lexAll_comment n c h2 []

/-- C06: blank and comment lines may be inserted anywhere: the tokens stay the same, except for their line numbers. -/
theorem C06_blank_line_tokens (as bs : List (List Char)) (b : List Char) (h : BlankLine b) :
    (lexItems (as ++ b :: bs)).map (fun t => (t.typ, t.val)) = (lexItems (as ++ bs)).map (fun t => (t.typ, t.val)) := by
  have key : ∀ (as : List (List Char)) (n : Nat), (lexFrom n (as ++ b :: bs)).map Token.key = (lexFrom n (as ++ bs)).map Token.key := by
    intro as
    induction as with
    | nil =>
      intro n
      simp only [List.nil_append, lexFrom, lexLine_blank h]
      exact lexFrom_line _ _ _
    | cons a as ih => intro n; simp only [List.cons_append, lexFrom, List.map_append, ih]
  exact key as 1

/-- C06: so a program means the same with and without them. -/
theorem C06_blank_line (as bs : List (List Char)) (b : List Char) (h : BlankLine b) (vs : List Val) :
    lexAndParse (as ++ b :: bs) = .ok vs ↔ lexAndParse (as ++ bs) = .ok vs := by
  have hk := C06_blank_line_tokens as bs b h
  unfold lexAndParse
  rw [C02_grammar, C02_grammar]
  exact ⟨fun h => Content.congr h hk, fun h => Content.congr h hk.symm⟩

example (vs : List Val) : lexAndParse ["(a".toList, "  ; x".toList, "b)".toList] = .ok vs ↔ lexAndParse ["(a".toList, "b)".toList] = .ok vs :=
  C06_blank_line ["(a".toList] ["b)".toList] _ ⟨"  ".toList, " x".toList, by decide, by decide, .inr (by decide)⟩ vs

example : CleanLine 1 "(foo 'x ~@y #_z) -1 +".toList := by unfold CleanLine; decide +kernel
example : BlankLine "  ; x".toList := ⟨"  ".toList, " x".toList, by decide, by decide, .inr (by decide)⟩

/-- The conditions of `CleanLine` are needed: after `#` the text is not a comment, and a shebang goes to the end of the line. -/
example : lexLine 1 "#;x".toList ≠ lexLine 1 "#".toList ∧ lexLine 1 "#! ;x".toList ≠ lexLine 1 "#! ".toList := by decide +kernel

/-! ### C07 -/

theorem parenLevel_balance (ts : List Token) : parenLevel ts = balance ts := by
  induction ts with
  | nil => rfl
  | cons t ts ih =>
    rw [parenLevel, ih]
    unfold balance
    simp only [List.countP_cons]
    cases t.typ <;> simp <;> omega

theorem replTokens_append (as bs : List (List Char)) : replTokens (as ++ bs) = replTokens as ++ replTokens bs := by simp [replTokens]

theorem replTokens_cons (a : List Char) (bs : List (List Char)) : replTokens (a :: bs) = lexItems [a] ++ replTokens bs := rfl

theorem groupLines_pass (as : List (List Char)) : ∀ (ts : List Token) (ls : List (List Char)),
    (∀ m, 0 < m → m ≤ as.length → 0 < balance (ts ++ replTokens (as.take m))) → groupLines ts (as ++ ls) = groupLines (ts ++ replTokens as) ls := by
  induction as with
  | nil => intro ts ls _; simp [replTokens]
  | cons l as ih =>
    intro ts ls h
    have hb : 0 < balance (ts ++ lexItems [l]) := by
      have := h 1 (by omega) (by simp)
      simpa [replTokens] using this
    have hg : groupLines ts (l :: as ++ ls) = groupLines (ts ++ lexItems [l]) (as ++ ls) := by
      rw [List.cons_append, groupLines]
      unfold isBalanced; rw [parenLevel_balance, if_neg (by omega)]
      have : decide (balance (ts ++ lexItems [l]) = 0) = false := by simp; omega
      rw [this]
    rw [hg, ih, replTokens_cons, List.append_assoc]
    intro m h1 h2
    have := h (m + 1) (by omega) (by simp; omega)
    rw [List.take_succ_cons, replTokens_cons, ← List.append_assoc] at this
    exact this

theorem groupLines_last (as rest : List (List Char)) (l : List Char)
    (hpos : ∀ m, 0 < m → m < (as ++ [l]).length → 0 < balance (replTokens ((as ++ [l]).take m))) :
    groupLines [] (as ++ [l] ++ rest) = groupLines (replTokens as) (l :: rest) := by
  rw [List.append_assoc, List.singleton_append, groupLines_pass]
  · rfl
  · intro m h1 h2
    have := hpos m h1 (by simp; omega)
    rw [List.take_append_of_le_length h2] at this
    exact this

/-- C07: the group of lines ends at the first line at which opening and closing parentheses balance. -/
theorem C07_complete (as rest : List (List Char)) (hne : as ≠ []) (hb : balance (replTokens as) = 0)
    (hpos : ∀ m, 0 < m → m < as.length → 0 < balance (replTokens (as.take m))) : groupLines [] (as ++ rest) = .complete (replTokens as) rest := by
  obtain ⟨bs, l, rfl⟩ : ∃ bs l, as = bs ++ [l] := ⟨as.dropLast, as.getLast hne, (List.dropLast_concat_getLast hne).symm⟩
  rw [groupLines_last _ _ _ hpos, replTokens_append] at *
  have h1 : replTokens [l] = lexItems [l] := by simp [replTokens]
  rw [h1] at hb ⊢
  rw [groupLines]
  unfold isBalanced; rw [parenLevel_balance, hb]; rfl

/-- C07: at the first line with more closing than opening parentheses there is an error, and the group is dropped. -/
theorem C07_too_many (as rest : List (List Char)) (hne : as ≠ []) (hb : balance (replTokens as) < 0)
    (hpos : ∀ m, 0 < m → m < as.length → 0 < balance (replTokens (as.take m))) : groupLines [] (as ++ rest) = .tooMany rest := by
  obtain ⟨bs, l, rfl⟩ : ∃ bs l, as = bs ++ [l] := ⟨as.dropLast, as.getLast hne, (List.dropLast_concat_getLast hne).symm⟩
  rw [groupLines_last _ _ _ hpos]
  rw [replTokens_append] at hb
  have h1 : replTokens [l] = lexItems [l] := by simp [replTokens]
  rw [h1] at hb
  rw [groupLines]
  unfold isBalanced; rw [parenLevel_balance, if_pos hb]

/-- C07: as long as some parenthesis is open the REPL goes on reading, to the end of the input. -/
theorem C07_eof (ls : List (List Char)) (hpos : ∀ m, 0 < m → m ≤ ls.length → 0 < balance (replTokens (ls.take m))) : groupLines [] ls = .eof := by
  have := groupLines_pass ls [] [] hpos
  rw [List.append_nil] at this
  rw [this]; rfl

example : groupLines [] ["(a".toList, "(b)".toList] = .eof :=
  C07_eof _ (by intro m h1 h2; have : m = 1 ∨ m = 2 := by simp at h2; omega
                rcases this with rfl | rfl <;> decide +kernel)

/-- C07: what the REPL does with each outcome: it evaluates the forms of a complete group, reports too many closing parentheses and drops the
group, stops at the end of the input. -/
theorem C07_turn (call : Task → M Val) (e : Nat) (s : St) :
    (∀ ts rest vs, groupLines [] s.inp = .complete ts rest → parseTop ts = .ok vs →
      replTurn call e s = (attempt (evalExprs call true e vs) >>= fun _ => pure true) { s with inp := rest, out := s.out ++ "> ".toList }) ∧
    (∀ rest, groupLines [] s.inp = .tooMany rest →
      replTurn call e s = .ok true { s with inp := rest, out := s.out ++ "> ".toList ++ "ERROR:\ntoo many right parens\n".toList }) ∧
    (groupLines [] s.inp = .eof → replTurn call e s = .ok false { s with inp := [], out := s.out ++ "> ".toList ++ ['\n'] }) := by
  refine ⟨fun ts rest vs h hp => ?_, fun rest h => ?_, fun h => ?_⟩ <;>
    (unfold replTurn; rw [M.bind_ok (printM_run _ _)]; simp only [h]; rw [M.bind_ok (setInpM_run _ _)])
  · simp only [hp]
  · rfl
  · rfl

/-- A line `)` is answered with an error. -/
example : replTurn (perform sampleWorld) 0 (initSt [")".toList, "1".toList])
    = .ok true { initSt ["1".toList] with out := "> ".toList ++ "ERROR:\ntoo many right parens\n".toList } :=
  (C07_turn _ _ _).2.1 ["1".toList] rfl

example : groupLines [] ["(a".toList, "  b".toList, ") c".toList, "d".toList]
    = .complete (replTokens ["(a".toList, "  b".toList, ") c".toList]) ["d".toList] :=
  C07_complete ["(a".toList, "  b".toList, ") c".toList] ["d".toList] (by decide) (by decide +kernel)
    (by intro m h1 h2; have : m = 1 ∨ m = 2 := by simp at h2; omega
        rcases this with rfl | rfl <;> decide +kernel)
example : groupLines [] ["(a".toList, "))".toList, "d".toList] = .tooMany ["d".toList] :=
  C07_too_many ["(a".toList, "))".toList] ["d".toList] (by decide) (by decide +kernel)
    (by intro m h1 h2; have : m = 1 := by simp at h2; omega
        subst this; decide +kernel)

end L1
