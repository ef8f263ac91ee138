import Verif.Model.Examples5
import Verif.Spec.ScreenTest
import Verif.Props.Programs
import Verif.Props.Screen
import Verif.Props.Docs
import Verif.Props.LibraryCtl
import Verif.Props.Written
/-
C92: examples/screen-test.l1 and examples/help.l1.
-/
set_option autoImplicit false
namespace L1

variable {W : World}

set_option maxRecDepth 100000 in
theorem read_screenTest : readText screenTestText = .ok screenTestForms := by decide +kernel

set_option maxRecDepth 100000 in
theorem read_help : readText helpText = .ok helpForms := by decide +kernel

theorem call_perform {b : BI} {vs : List Val} {e : Nat} {s s' : St} {v : Val} (h : perform W (.builtin b vs e) s = .ok v s') : callFn W (.bi b) vs e s = .ok v s' :=
  extend_ok h

theorem prefix_of_still {own : Nat → Prop} {h : Heap} {s s' : St} (hp : h <+: s.heap) (hq : Still own s s') (ho : ∀ j, own j → h.length ≤ j) : h <+: s'.heap := by
  rw [List.prefix_iff_getElem?]
  intro i hi
  have hlt : i < s.heap.length := Nat.lt_of_lt_of_le hi hp.length_le
  rw [hq.heap i hlt fun h1 => absurd (ho i h1) (by omega), prefix_get hp (List.getElem?_eq_getElem hi)]

/-- The text on the screen fits the arithmetic of the terminal if no character is wider than two columns. -/
theorem columns_le (hw : ∀ c, W.width c ≤ 2) (cs : List Char) : columnsOf W cs ≤ 2 * cs.length := by
  unfold columnsOf
  induction cs with
  | nil => simp
  | cons c cs ih =>
    have := hw c
    simp only [List.map_cons, List.sum_cons, List.length_cons, cellColumns]
    omega

/-- The forms in `with-screen`. -/
def screenTestBody : List Val := [form "screen-clear" [], form "screen-write" [.num 10, .num 10, vlist [.atom "quote", vlist [.atom "hello", .atom "this", .atom "is", .atom "a", .atom "test"]]],
  form "screen-write" [.num 10, .num 12, vlist [.atom "quote", vlist [.atom "press", .atom "any", .atom "key", .atom "to", .atom "continue"]]],
  form "list" [form "screen-get-key" [], form "screen-size" []]]

/-- The orders of the forms in `with-screen`. -/
def screenTestActs (W : World) : List Act := [.clear, .show] ++ textAt W 10 10 "hello this is a test".toList ++ textAt W 10 12 "press any key to continue".toList

theorem write_at {s : St} {e : Nat} {x y : Nat} {ws : List String} {text : List Char} (hs : Sc s.heap e []) (hon : s.screen.on = true)
    (hw : ∀ c, W.width c ≤ 2) (ht : (vlist (ws.map .atom)).str = '(' :: (text ++ [')'])) (hx : x + 2 * text.length < 2 ^ 63) (hy : y < 2 ^ 63) :
    eval W (form "screen-write" [.num x, .num y, vlist [.atom "quote", vlist (ws.map .atom)]]) e s = .ok .nil (ordered s (textAt W x y text)) := by
  have hc := columns_le hw text
  have h1 := C74_write W e s hon (x : Int) (y : Int) (vlist (ws.map .atom)) text (isList_vlist _) ht (by simp only [Int.natAbs_natCast]; omega) (by simpa using hy)
  refine eval_callCore (xs := [_, _, _]) (vs := [_, _, _]) hs rfl hd_screen_write (fun s0 _ h0 => ?_) (call_perform (h1.trans ?_))
  · subst h0
    refine .cons (by rw [eval_eq]; rfl) (.cons (by rw [eval_eq]; rfl) (.cons ?_ .nil))
    exact (eval_sf W .quote _ e s0 (hs.notMacro_sf rfl known_quote) rfl).trans rfl
  · simp [textAt]

theorem seenAs_key {s : St} (e : Nat) (h : s.screen.on = true) : ∃ name, SeenAs (W.key s.tick) name ∧ perform W (.builtin .screenGetKey [] e) s = .ok (.atom name) { s with tick := s.tick + 1 } := by
  obtain ⟨h1, h2, h3, h4⟩ := C74_key W e s h
  cases hk : W.key s.tick with
  | none => exact ⟨"", rfl, h3 hk⟩
  | some k =>
    rcases h4 k with ⟨c, rfl⟩ | ⟨name, hn⟩
    · exact ⟨_, rfl, h1 c hk⟩
    · refine ⟨name, ?_, h2 k name hk hn⟩
      cases k <;> first | exact hn | (exact absurd hn (by simp [keyTable]))

/-- The forms in `with-screen`, evaluated one after the other. -/
theorem body_run {s : St} {e : Nat} (hs : Sc s.heap e []) (hon : s.screen.on = true) (hw : ∀ c, W.width c ≤ 2) :
    ∃ name, SeenAs (W.key s.tick) name ∧ inOrder W e screenTestBody s =
      .ok (vlist [.atom name, vlist [.num (W.size (s.tick + 1)).1, .num (W.size (s.tick + 1)).2]]) { ordered s (screenTestActs W) with tick := s.tick + 2 } := by
  have e1 : eval W (form "screen-clear" []) e s = .ok .nil (ordered s [.clear, .show]) :=
    eval_callCore (xs := []) hs rfl hd_screen_clear (fun _ _ h => h ▸ EvalsTo.nil) (call_perform (C48_initialised W e s hon [] 0 0 .nil rfl).1)
  have e2 := write_at (W := W) (s := ordered s [.clear, .show]) (e := e) (x := 10) (y := 10) (ws := ["hello", "this", "is", "a", "test"]) (text := "hello this is a test".toList) hs hon hw (by decide +kernel) (by decide +kernel) (by decide)
  have e3 := write_at (W := W) (s := ordered (ordered s [.clear, .show]) (textAt W 10 10 "hello this is a test".toList)) (e := e) (x := 10) (y := 12) (ws := ["press", "any", "key", "to", "continue"])
    (text := "press any key to continue".toList) hs hon hw (by decide +kernel) (by decide +kernel) (by decide)
  have hacts : ordered (ordered (ordered s [.clear, .show]) (textAt W 10 10 "hello this is a test".toList)) (textAt W 10 12 "press any key to continue".toList) = ordered s (screenTestActs W) := by
    unfold ordered screenTestActs; simp only [List.append_assoc]
  rw [hacts] at e3
  obtain ⟨name, hn, hk⟩ := seenAs_key (W := W) (s := ordered s (screenTestActs W)) e hon
  refine ⟨name, hn, ?_⟩
  have hsize := (C48_initialised W e { ordered s (screenTestActs W) with tick := s.tick + 1 } hon [] 0 0 .nil rfl).2.1
  have e4 : eval W (form "list" [form "screen-get-key" [], form "screen-size" []]) e (ordered s (screenTestActs W)) =
      .ok (vlist [.atom name, vlist [.num (W.size (s.tick + 1)).1, .num (W.size (s.tick + 1)).2]]) { ordered s (screenTestActs W) with tick := s.tick + 2 } := by
    refine eval_callCore (s := ordered s (screenTestActs W)) (xs := [_, _]) (vs := [_, _]) hs rfl hd_list (fun s0 _ h0 => ?_) (call_bi rfl)
    rw [h0]
    exact .cons (eval_callCore (s := ordered s (screenTestActs W)) (xs := []) hs rfl hd_screen_get_key (fun _ _ h => h ▸ EvalsTo.nil) (call_perform hk))
      (.cons (eval_callCore (s := { ordered s (screenTestActs W) with tick := s.tick + 1 }) (xs := []) hs rfl hd_screen_size (fun _ _ h => h ▸ EvalsTo.nil) (call_perform hsize)) .nil)
  unfold inOrder screenTestBody
  simp only [sequence]
  rw [e1]; simp only [Res.andThen]
  have e2' : eval W (form "screen-write" [.num 10, .num 10, vlist [.atom "quote", vlist [.atom "hello", .atom "this", .atom "is", .atom "a", .atom "test"]]]) e (ordered s [.clear, .show]) = _ := e2
  rw [e2']; simp only
  have e3' : eval W (form "screen-write" [.num 10, .num 12, vlist [.atom "quote", vlist [.atom "press", .atom "any", .atom "key", .atom "to", .atom "continue"]]]) e
    (ordered (ordered s [.clear, .show]) (textAt W 10 10 "hello this is a test".toList)) = _ := e3
  rw [e3']; simp only
  exact e4

/-- What the program writes at the end. -/
def screenTestLine (name : String) (w h : Int) : List Char :=
  "I received the ".toList ++ name.toList ++ " key! The screen is (".toList ++ (Val.num w).str ++ [' '] ++ (Val.num h).str ++ ") in size.\n".toList

theorem screenTestLine_eq (name : String) (w h : Int) :
    [' '].intercalate ([.atom "I", .atom "received", .atom "the", .atom name, .atom "key!", .atom "The", .atom "screen", .atom "is", vlist [.num w, .num h], .atom "in", .atom "size."].map Val.str) ++ ['\n']
      = screenTestLine name w h := by
  have a : ∀ x : String, (Val.atom x).str = x.toList := fun _ => rfl
  have h1 : "I received the ".toList = "I".toList ++ ([' '] ++ ("received".toList ++ ([' '] ++ ("the".toList ++ [' '])))) := by decide +kernel
  have h2 : " key! The screen is (".toList = [' '] ++ ("key!".toList ++ ([' '] ++ ("The".toList ++ ([' '] ++ ("screen".toList ++ ([' '] ++ ("is".toList ++ ([' '] ++ ['('])))))))) := by decide +kernel
  have h3 : ") in size.\n".toList = [')'] ++ ([' '] ++ ("in".toList ++ ([' '] ++ ("size.".toList ++ ['\n'])))) := by decide +kernel
  have h4 : (vlist [.num w, .num h]).str = ['('] ++ ((Val.num w).str ++ ([' '] ++ ((Val.num h).str ++ [')']))) := by rw [str_vlist]; simp [List.intercalate]
  unfold screenTestLine
  rw [h1, h2, h3]
  simp only [List.map_cons, List.map_nil, a, h4]
  generalize "I".toList = x1
  generalize "received".toList = x2
  generalize "the".toList = x3
  generalize "key!".toList = x4
  generalize "The".toList = x5
  generalize "screen".toList = x6
  generalize "is".toList = x7
  generalize "in".toList = x8
  generalize "size.".toList = x9
  simp [List.intercalate]

theorem start_ok {s : St} (hoff : s.screen.on = false) (hop : W.openScreen s.tick = .ok) :
    callFn W (.bi .screenStart) [] 0 s = .ok .nil (ordered (screenIs true { s with tick := s.tick + 1 }) [.init]) := by
  refine call_perform ?_
  rw [C48_start W 0 [] s hoff, hop]

/-- C92: examples/screen-test.l1, where the terminal opens: it is cleared, the two texts appear in their places, one key and the size are asked for, the terminal is closed, and then one line
is written with the name of the key and the size. -/
theorem C92_screen (s : St) (hc : CoreAt s.heap 0) (hoff : s.screen.on = false) (hop : W.openScreen s.tick = .ok) (hw : ∀ c, W.width c ≤ 2) :
    ∃ name s', SeenAs (W.key (s.tick + 1)) name ∧ TextRun W screenTestText s .finished s' ∧ s'.tick = s.tick + 3 ∧ s'.inp = s.inp ∧
      s'.out = s.out ++ screenTestLine name (W.size (s.tick + 2)).1 (W.size (s.tick + 2)).2 ∧
      s'.screen.on = false ∧ s'.screen.acts = s.screen.acts ++ ([.init] ++ screenTestActs W ++ [.fini]) := by
  have hh : CoreHere (withScope s 0).heap 0 := ⟨hc.mono (List.prefix_append _ _), hc.mono (List.prefix_append _ _)⟩
  obtain ⟨s0, s1, q0, rfl, -, h2⟩ := withScreen_run (W := W) hh screenTestBody
  have hoff1 : (withScope s0 0).screen.on = false := by rw [show (withScope s0 0).screen = s0.screen from rfl, q0.screen]; exact hoff
  have ht1 : (withScope s0 0).tick = s.tick := q0.tick
  obtain ⟨s3, hs3, hc3, _, _, h3⟩ := h2 _ _ (start_ok (s := withScope s0 0) hoff1 (by rw [ht1]; exact hop))
  obtain ⟨s4, q4, e4⟩ := C41_progn (W := W) hc3 screenTestBody
  have hon4 : (withScope s4 s0.heap.length).screen.on = true := by rw [show (withScope s4 s0.heap.length).screen = s4.screen from rfl, q4.screen, hs3]; rfl
  have hbase : Sc (withScope s4 s0.heap.length).heap s4.heap.length [] :=
    .frame (syms := []) (by show (s4.heap ++ [_])[s4.heap.length]? = _; simp) (Nat.lt_of_lt_of_le hc3.2.lt q4.heap.length_le) (.base ((hc3.mono q4.heap).2.base.mono (List.prefix_append _ _)))
  obtain ⟨name, hn, e5⟩ := body_run (W := W) hbase hon4 hw
  rw [e5] at e4
  have ht4 : (withScope s4 s0.heap.length).tick = s.tick + 1 := by
    rw [show (withScope s4 s0.heap.length).tick = s4.tick from rfl, q4.tick, hs3]
    show (withScope s0 0).tick + 1 = _
    rw [ht1]
  rw [ht4] at hn e4
  have hpre : s3.heap <+: (withScope s4 s0.heap.length).heap := q4.heap.trans (List.prefix_append _ _)
  obtain ⟨s5, st5, e6⟩ := h3 _ _ e4 (hc3.mono hpre) (fun j hj => by
    have hj2 : j < s3.heap.length := hj.2
    show (withScope s4 s0.heap.length).heap[j]? = _
    rw [List.getElem?_eq_getElem hj2, prefix_get hpre (List.getElem?_eq_getElem hj2)])
  have hp3 : (withScope s 0).heap <+: s3.heap := by
    rw [hs3]; exact (q0.heap.trans (List.prefix_append _ _)).trans (List.prefix_append _ _)
  have hp5 : (withScope s 0).heap <+: s5.heap := prefix_of_still (s' := s5) (by exact hp3.trans hpre) st5 fun j hj => (q0.heap.trans (List.prefix_append _ _)).length_le.trans hj.1
  have ec := letBody_run (W := W) (s := s) (e := 0) (n := "result") (form "with-screen" screenTestBody)
    [form "printl" [vlist [.atom "syntax-quote", vlist [.atom "I", .atom "received", .atom "the", vlist [.atom "unquote", vlist [.atom "car", .atom "result"]], .atom "key!", .atom "The", .atom "screen", .atom "is",
      vlist [.atom "unquote", vlist [.atom "car", vlist [.atom "cdr", .atom "result"]]], .atom "in", .atom "size."]]]] (.base hc.base) rfl (by decide)
  rw [e6] at ec
  generalize hv : vlist [.atom name, vlist [.num (W.size (s.tick + 1 + 1)).1, .num (W.size (s.tick + 1 + 1)).2]] = v at *
  have h5c : (screenClosed s5).heap = s5.heap := screenClosed_heap s5
  have hrk : ∀ x r, known x = some r → x ≠ "result" := by
    rintro _ r hx rfl
    exact absurd hx (by rw [show known "result" = none by decide +kernel]; simp)
  let s6 : St := { screenClosed s5 with heap := heapSet (screenClosed s5).heap s.heap.length "result" v }
  have hc6 : CoreAt s6.heap 0 := (h5c ▸ (hh.1.mono hp5) : CoreAt (screenClosed s5).heap 0).set hrk _ v
  have hfr : s6.heap[s.heap.length]? = some ⟨[("result", v)], some 0⟩ := by
    have h1 : (screenClosed s5).heap[s.heap.length]? = some ⟨[], some 0⟩ := by
      rw [h5c]
      exact prefix_get hp5 (by show (s.heap ++ [_])[s.heap.length]? = _; simp)
    exact (heapSet_at h1).trans rfl
  have hs6 : Sc s6.heap s.heap.length ([("result", v)] ++ []) := .frame hfr hc.lt (.base hc6.base)
  have hg : G W s6 s.heap.length (vlist [.atom "syntax-quote", vlist [.atom "I", .atom "received", .atom "the", vlist [.atom "unquote", vlist [.atom "car", .atom "result"]], .atom "key!", .atom "The", .atom "screen", .atom "is",
      vlist [.atom "unquote", vlist [.atom "car", vlist [.atom "cdr", .atom "result"]]], .atom "in", .atom "size."]])
      (vlist [.atom "I", .atom "received", .atom "the", .atom name, .atom "key!", .atom "The", .atom "screen", .atom "is", vlist [.num (W.size (s.tick + 1 + 1)).1, .num (W.size (s.tick + 1 + 1)).2], .atom "in", .atom "size."]) := by
    have hcons : alGet "cons" ([("result", v)] ++ []) = none := rfl
    have q : ∀ x : Val, G W s6 s.heap.length (vlist [.atom "quote", x]) x := fun x => .quote hs6 rfl known_quote
    have r : G W s6 s.heap.length (.atom "result") (vlist [.atom name, vlist [.num (W.size (s.tick + 1 + 1)).1, .num (W.size (s.tick + 1 + 1)).2]]) := by
      rw [hv]; exact .v hs6 rfl rfl
    have c : ∀ {x y u w : Val}, G W s6 s.heap.length x u → G W s6 s.heap.length y w → G W s6 s.heap.length (vlist [.atom "cons", x, y]) (.cons u w) := fun a b => .cons hs6 hcons a b
    refine .template hs6 rfl known_syntax_quote rfl (c (q _) (c (q _) (c (q _) (c (.car hs6 rfl r) (c (q _) (c (q _) (c (q _) (c (q _) (c (.car hs6 rfl (.cdr hs6 rfl r)) (c (q _) (c (q _) (.nil _ _))))))))))))
  obtain ⟨s7, e7, q7⟩ := hg s6 (.refl _)
  have e8 := C43_printl W 0 0 s.heap.length s7 [.atom "I", .atom "received", .atom "the", .atom name, .atom "key!", .atom "The", .atom "screen", .atom "is", vlist [.num (W.size (s.tick + 1 + 1)).1, .num (W.size (s.tick + 1 + 1)).2], .atom "in", .atom "size."]
  rw [screenTestLine_eq] at e8
  have e9 := eval_callCore (W := W) (s := s6) (a := "printl") (xs := [_]) hs6 rfl hd_printl (fun s0 _ h0 => by rw [h0]; exact .cons e7 .nil) (call_bi (b := .printl) (by exact e8))
  have e10 := ec.trans ((show _ = eval W _ s.heap.length s6 from rfl).trans e9)
  have hscr5 : s5.screen = ⟨true, s.screen.acts ++ ([.init] ++ screenTestActs W)⟩ := by
    rw [st5.screen]
    show (ordered (withScope s4 s0.heap.length) (screenTestActs W)).screen = _
    unfold ordered
    show (⟨s4.screen.on, s4.screen.acts ++ _⟩ : Device) = _
    rw [q4.screen, hs3]
    show (⟨true, (s0.screen.acts ++ [.init]) ++ _⟩ : Device) = _
    rw [q0.screen, List.append_assoc]
    rfl
  have hclosed : screenClosed s5 = screenIs false (ordered s5 [.fini]) := by unfold screenClosed; rw [if_pos (by rw [hscr5])]
  refine ⟨name, _, hn, .finished read_screenTest (.cons e10 .nil), ?_, ?_, ?_, ?_, ?_⟩
  · show s7.tick = _
    rw [q7.tick]; show (screenClosed s5).tick = _
    rw [hclosed]; show s5.tick = _
    rw [st5.tick]
  · show s7.inp = _
    rw [q7.inp]; show (screenClosed s5).inp = _
    rw [hclosed]; show s5.inp = _
    rw [st5.inp]; show s4.inp = _
    rw [q4.inp, hs3]; exact q0.inp
  · show s7.out ++ _ = _
    have h1 : s7.out = s.out := by
      rw [q7.out]; show (screenClosed s5).out = _
      rw [hclosed]; show s5.out = _
      rw [st5.out]; show s4.out = _
      rw [q4.out, hs3]; exact q0.out
    rw [h1]
  · show s7.screen.on = _
    rw [q7.screen]; show (screenClosed s5).screen.on = _
    rw [hclosed]; rfl
  · show s7.screen.acts = _
    rw [q7.screen]; show (screenClosed s5).screen.acts = _
    rw [hclosed]; show s5.screen.acts ++ [.fini] = _
    rw [hscr5]; simp

/-- C92: where the terminal does not open, nothing is shown and nothing written: the program ends with the error of the operating system. -/
theorem C92_no_terminal (s : St) (hc : CoreAt s.heap 0) (hoff : s.screen.on = false) (m : String) (hop : W.openScreen s.tick = .newFail m ∨ W.openScreen s.tick = .initFail m) :
    ∃ s', TextRun W screenTestText s (.failed (.foreign m)) s' ∧ s'.out = s.out ∧ s'.inp = s.inp ∧ s'.tick = s.tick + 1 ∧ s'.screen.acts = s.screen.acts := by
  have hh : CoreHere (withScope s 0).heap 0 := ⟨hc.mono (List.prefix_append _ _), hc.mono (List.prefix_append _ _)⟩
  obtain ⟨s0, s1, q0, rfl, h1, -⟩ := withScreen_run (W := W) hh screenTestBody
  have hoff1 : (withScope s0 0).screen.on = false := by rw [show (withScope s0 0).screen = s0.screen from rfl, q0.screen]; exact hoff
  have ht1 : (withScope s0 0).tick = s.tick := q0.tick
  obtain ⟨s2, hs2, ho2, hi2, ht2, ha2⟩ : ∃ s2, callFn W (.bi .screenStart) [] 0 (withScope s0 0) = .err (.foreign m) s2 ∧ s2.out = s.out ∧ s2.inp = s.inp ∧ s2.tick = s.tick + 1 ∧
      s2.screen.acts = s.screen.acts := by
    have h2 := C48_start W 0 [] (withScope s0 0) hoff1
    rw [ht1] at h2
    have hscr : (withScope s0 0).screen.acts = s.screen.acts := by rw [show (withScope s0 0).screen = s0.screen from rfl, q0.screen]; rfl
    rcases hop with hop | hop <;> rw [hop] at h2
    · exact ⟨_, extend_err h2, q0.out, q0.inp, rfl, hscr⟩
    · exact ⟨_, extend_err h2, q0.out, q0.inp, rfl, hscr⟩
  have hu := h1 _ hs2 fun v s2 h => by cases h
  have hf : eval W (form "with-screen" screenTestBody) 0 (withScope s 0) = .err (.foreign m) s2 := by
    rcases hu with hu | ⟨er, s3, fr, h2, h3⟩
    · exact hu
    · cases h2
      rw [h3]
      congr 1
      clear h3
      induction fr with
      | nil => rfl
      | cons f fr ih => show Err.under f (Err.underAll fr _) = _; rw [ih]; rfl
  have ec := letBody_run (W := W) (s := s) (e := 0) (n := "result") (form "with-screen" screenTestBody)
    [form "printl" [vlist [.atom "syntax-quote", vlist [.atom "I", .atom "received", .atom "the", vlist [.atom "unquote", vlist [.atom "car", .atom "result"]], .atom "key!", .atom "The", .atom "screen", .atom "is",
      vlist [.atom "unquote", vlist [.atom "car", vlist [.atom "cdr", .atom "result"]]], .atom "in", .atom "size."]]]] (.base hc.base) rfl (by decide)
  rw [hf] at ec
  exact ⟨s2, .error (before := []) (later := []) read_screenTest .nil ec, ho2, hi2, ht2, ha2⟩

/-- C92: as a script: with a terminal the line is the whole output and the exit status is 0; without one the error is the whole output and the exit status is 1. -/
theorem C92_script (W : World) (n : Nat) (inp : List (List Char)) (f : String) (hf : W.readFile 0 f = .ok screenTestText) :
    (W.openScreen 1 = .ok → (∀ c, W.width c ≤ 2) → exitStatus (mainWith W (perform W) n coreText none [f] (initSt inp)) = some 0 ∧
      ∃ name s', SeenAs (W.key 2) name ∧ finalState (mainWith W (perform W) n coreText none [f] (initSt inp)) = some s' ∧
        s'.out = screenTestLine name (W.size 3).1 (W.size 3).2 ∧ s'.inp = inp ∧ s'.screen = ⟨false, [.init] ++ screenTestActs W ++ [.fini]⟩) ∧
    (∀ m, W.openScreen 1 = .newFail m ∨ W.openScreen 1 = .initFail m → exitStatus (mainWith W (perform W) n coreText none [f] (initSt inp)) = some 1 ∧
      ∃ s', finalState (mainWith W (perform W) n coreText none [f] (initSt inp)) = some s' ∧ s'.out = "ERROR:\n".toList ++ m.toList ++ ['\n'] ∧ s'.screen.acts = []) := by
  have hc : CoreAt { topSt (initSt inp) coreEnv with tick := 1 }.heap 0 := coreAt_loaded (initSt inp)
  refine ⟨fun hop hw => ?_, fun m hop => ?_⟩
  · obtain ⟨name, s', h0, h1, h2, h3, h4, h5, h6⟩ := C92_screen (W := W) _ hc rfl hop hw
    obtain ⟨h7, h8⟩ := (C76_script W n inp f [] 0 s').1 (.next hf h1 .done)
    exact ⟨h7, name, s', h0, h8, h4, h3, by rw [← h5, show [Act.init] ++ screenTestActs W ++ [Act.fini] = s'.screen.acts from h6.symm]⟩
  · obtain ⟨s', h1, h2, h3, h4, h5⟩ := C92_no_terminal (W := W) _ hc rfl m hop
    obtain ⟨h7, h8⟩ := (C76_script W n inp f [] 1 _).1 (.failed hf h1)
    refine ⟨h7, _, h8, ?_, h5⟩
    show s'.out ++ _ = _
    rw [h2]
    rfl

/-- `with-screen` is there, the terminal opens, the Enter key is pressed. -/
example : ∃ s', TextRun { sampleWorld with openScreen := fun _ => .ok, key := fun _ => some .enter, size := fun _ => (80, 24), width := fun _ => 1 } screenTestText (topSt (initSt []) coreEnv) .finished s' ∧
    s'.out = "I received the ENTER key! The screen is (80 24) in size.\n".toList := by
  obtain ⟨name, s', h0, h1, _, _, h4, _⟩ := C92_screen (W := { sampleWorld with openScreen := fun _ => .ok, key := fun _ => some .enter, size := fun _ => (80, 24), width := fun _ => 1 })
    (topSt (initSt []) coreEnv) (coreAt_loaded _) rfl rfl (fun _ => by show 1 ≤ 2; decide)
  have h0 : (KeyEvent.enter, name) ∈ keyTable := h0
  have hn : name = "ENTER" := by simpa [keyTable] using h0
  subst hn
  exact ⟨s', h1, by rw [h4]; show [] ++ screenTestLine "ENTER" 80 24 = _; decide +kernel⟩

/-- C92: examples/help.l1, run wherever `help` has not been redefined, does what `(help)` does: if it finishes, it has printed the table of all special forms and native functions at least, in order. -/
theorem C92_help (s s' : St) (hl : lookup s.heap 0 "help" = none) (h : TextRun W helpText s .finished s') :
    ∃ s1 ls text, BasicListing W ls ∧ HelpText W ls text ∧ s' = printed s1 (text ++ " <nil>\n".toList) := by
  cases h with
  | finished hr he =>
    rw [read_help] at hr
    cases hr
    cases he with
    | cons h1 h2 =>
      cases h2
      rw [show vlist [Val.atom "help"] = form BI.help.name [] from rfl, native_written .help hl .nil] at h1
      obtain ⟨_, h3⟩ := C68_help_any W [] 0 s _ _ (extend_eq_ok.1 h1)
      exact h3

example : ∃ s', TextRun sampleWorld helpText (initSt []) .finished s' := by
  have h : (run sampleWorld 60 60 (.builtin .help [] 0) (initSt [])).isOk = true := by decide +kernel
  obtain ⟨v, s', hv⟩ := Res.isOk_iff h
  have hv' : perform sampleWorld (.builtin .help [] 0) (initSt []) = .ok v s' := (perform_of_run (by rw [hv]; trivial)).trans hv
  have h1 : eval sampleWorld (vlist [Val.atom "help"]) 0 (initSt []) = .ok v s' := by
    rw [show vlist [Val.atom "help"] = form BI.help.name [] from rfl, native_written .help (e := 0) (by rfl) .nil]
    exact extend_ok hv'
  exact ⟨s', .finished read_help (.cons h1 .nil)⟩

example : lookup (topSt (initSt []) coreEnv).heap 0 "help" = none := by
  rw [(coreAt_loaded (initSt [])).sees "help" none (by decide +kernel)]

end L1
