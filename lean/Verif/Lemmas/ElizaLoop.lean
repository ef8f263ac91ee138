import Verif.Lemmas.ElizaTalk
import Verif.Props.Forms
import Verif.Props.Control
import Verif.Props.Sentences
/-
The conversation of examples/eliza.l1.
-/
set_option autoImplicit false
namespace L1

variable {W : World}

/-! ### What is read is data -/

theorem isData_mkList {xs : List Val} {d : Val} (h : ∀ x ∈ xs, IsData x) (hd : IsData d) : IsData (mkList xs d) := by
  induction xs with
  | nil => exact hd
  | cons x xs ih => exact .cons (h x (by simp)) (ih fun y hy => h y (by simp [hy]))

theorem content_data {ts : List Token} {vs : List Val} (h : Content ts vs) : ∀ v ∈ vs, IsData v := by
  induction h using Content.rec (motive_1 := fun _ v _ => IsData v) (motive_3 := fun _ vs _ => ∀ v ∈ vs, IsData v) with
  | number _ => exact .num _
  | atom _ => exact .atom _
  | sugared _ _ ih => exact .cons (.atom _) (.cons ih .nil)
  | list _ _ _ ih => exact isData_vlist ih
  | dotted _ _ _ _ _ ih ih' => exact isData_mkList ih (ih' _ (by simp))
  | plain _ ih => exact ih
  | shebang _ _ ih => exact ih
  | nil => rename_i v hv; cases hv
  | cons _ _ ih ih' =>
    rename_i v hv
    rcases List.mem_cons.1 hv with rfl | hv
    · exact ih
    · exact ih' v hv

theorem read_data {cs : List Char} {vs : List Val} (h : readText cs = .ok vs) : ∀ v ∈ vs, IsData v :=
  content_data ((C02_grammar _ _).1 h : Content _ vs)

theorem call_bi_err {b : BI} {vs : List Val} {e : Nat} {s s' : St} {er : Err} (h : biFn W (perform W) b vs e s = .err er s') :
    callFn W (.bi b) vs e s = .err (er.under (msgList ("builtin function " ++ b.name))) s' := by
  unfold callFn
  simp only [evApply]
  refine (extend_err ?_).trans (by rw [extendErr_under])
  rw [perform_eq]; exact h

/-! ### One turn -/

/-- `(print 'eliza>)`. -/
def form1 : Val := vlist [.atom "print", vlist [.atom "quote", .atom "eliza>"]]
/-- `(print SPACE)`. -/
def form2 : Val := vlist [.atom "print", .atom "SPACE"]
/-- `(printl (flatten (use-eliza-rules (readlist))))`. -/
def form3 : Val := vlist [.atom "printl", vlist [.atom "flatten", vlist [.atom "use-eliza-rules", vlist [.atom "readlist"]]]]

theorem el_print {s : St} {E : Nat} {L : List (String × Val)} {x v : Val} (hs : Sc s.heap E L) (hx : alGet "print" L = none) (h : G W s E x v) :
    ∃ s1, eval W (vlist [.atom "print", x]) E s = .ok .nil s1 ∧ s.heap <+: s1.heap ∧ s1.out = s.out ++ v.str ∧ s1.inp = s.inp ∧ s1.tick = s.tick ∧ s1.screen = s.screen := by
  obtain ⟨s1, q1, e1⟩ := core_call (W := W) (a := "print") (xs := [x]) hs hx hd_print (.one h)
  refine ⟨{ s1 with out := s1.out ++ v.str }, e1.trans ?_, q1.heap, by rw [← q1.out], q1.inp, q1.tick, q1.screen⟩
  refine call_bi ?_
  exact (C43_print W 0 0 E s1 [v]).1.trans (by simp)

theorem el_prompt {s : St} {E : Nat} (hs : Sc s.heap E elizaDefs) :
    ∃ s1, EvalsTo W E [form1, form2] s [.nil, .nil] s1 ∧ s.heap <+: s1.heap ∧ s1.out = s.out ++ elizaPrompt ∧ s1.inp = s.inp ∧ s1.tick = s.tick ∧ s1.screen = s.screen := by
  obtain ⟨s1, e1, h1, o1, i1, t1, n1⟩ := el_print (W := W) hs rfl (.quote (v := .atom "eliza>") hs rfl known_quote)
  have hs1 := hs.mono h1
  obtain ⟨s2, e2, h2, o2, i2, t2, n2⟩ := el_print (W := W) (x := .atom "SPACE") (v := .atom " ") hs1 rfl (.v hs1 rfl rfl)
  refine ⟨s2, .cons e1 (.cons e2 .nil), h1.trans h2, ?_, i2.trans i1, t2.trans t1, n2.trans n1⟩
  rw [o2, o1, List.append_assoc]
  rfl

theorem form3_run {s : St} {E : Nat} (hs : Sc s.heap E elizaDefs) : eval W form3 E s =
    (((eval W (vlist [.atom "readlist"]) E s).andThen (msgList "evaluating function arguments") fun v s' => callFn W z_use_eliza_rules [v] E s').andThen
      (msgList "evaluating function arguments") fun v s' => callFn W k_flatten [v] E s').andThen (msgList "evaluating function arguments") fun v s' => callFn W (.bi .printl) [v] E s' := by
  obtain ⟨g1, g2⟩ := hs.reaches (W := W) rfl hd_printl
  obtain ⟨g3, g4⟩ := hs.reaches (W := W) rfl hd_flatten
  have hl : lookup s.heap E "use-eliza-rules" = some z_use_eliza_rules := hs.lookup_some rfl
  have g5 : CallHead s.heap E (.atom "use-eliza-rules") := callHead_of rfl fun ps r b dc env he => by rw [hl] at he; cases he
  unfold form3
  rw [eval_call1 g1 g2, eval_call1 g3 g4, eval_call1 g5 (eval_atom_bound (by decide) (by decide) hl)]

theorem el_turn {s : St} (hp : ElAt s.heap) {E : Nat} (hs : Sc s.heap E elizaDefs) {line : List Char} {rest : List (List Char)} (hi : s.inp = line :: rest) {xs : List Val}
    (hr : readText line = .ok xs) (hx : Spoken xs) :
    ∃ s1, EvalsTo W E [form1, form2, form3] s [.nil, .nil, .nil] s1 ∧ s.heap <+: s1.heap ∧ s1.out = s.out ++ (elizaPrompt ++ answerLine (elizaAnswer xs (W.rand s.tick))) ∧ s1.inp = rest ∧
      s1.tick = s.tick + 1 ∧ s1.screen = s.screen := by
  obtain ⟨s1, e1, h1, o1, i1, t1, n1⟩ := el_prompt (W := W) hs
  have hs1 := hs.mono h1
  obtain ⟨s2, q2, e2⟩ := core_call (W := W) (a := "readlist") (xs := []) hs1 rfl hd_readlist .nil
  have e3 : callFn W (.bi .readlist) [] E s2 = .ok (vlist xs) { s2 with inp := rest } :=
    call_bi (by
      have := C52_forms W [] E s2 line rest xs (by rw [q2.inp, i1, hi]) ((C02_grammar _ _).1 hr)
      rw [perform_eq] at this
      exact this)
  have hp2 : ElAt ({ s2 with inp := rest } : St).heap := hp.mono (h1.trans q2.heap)
  obtain ⟨v, s4, e4, d4, hv⟩ := el_use_rules (W := W) hp2 hx E
  obtain ⟨s5, e5, q5⟩ := ret_flatten (W := W) (hp2.mono d4.heap).prog.core.base v s4 E (.refl _)
  refine ⟨{ s5 with out := s5.out ++ answerLine (leaves v) }, ?_, ((h1.trans q2.heap).trans d4.heap).trans q5.heap, ?_, ?_, ?_, ?_⟩
  · have : EvalsTo W E [form3] s1 [.nil] { s5 with out := s5.out ++ answerLine (leaves v) } := by
      refine .cons ?_ .nil
      rw [form3_run hs1, show eval W (vlist [.atom "readlist"]) E s1 = _ from e2.trans e3]
      show ((callFn W z_use_eliza_rules [vlist xs] E _).andThen _ _).andThen _ _ = _
      rw [e4]
      show (callFn W k_flatten [v] E s4).andThen _ _ = _
      rw [e5]
      exact call_bi (C43_printl W 0 0 E s5 (leaves v))
    have := evalsTo_append e1 this
    exact this
  · show s5.out ++ _ = _
    rw [q5.out, d4.out, hv, show ({ s2 with inp := rest } : St).out = s2.out from rfl, q2.out, o1, List.append_assoc]
    show _ ++ (_ ++ answerLine (elizaAnswer xs (W.rand s2.tick))) = _
    rw [q2.tick, t1]
  · show s5.inp = _; rw [q5.inp, d4.inp]
  · show s5.tick = _; rw [q5.tick, d4.tick]; show s2.tick + 1 = _; rw [q2.tick, t1]
  · show s5.screen = _; rw [q5.screen, d4.screen]; show s2.screen = _; rw [q2.screen, n1]

/-! ### The loop -/

/-- The loop of `eliza`. -/
def elizaLoop : Val := form "loop" [form1, form2, form3]

theorem el_talk {E : Nat} {rest : List (List Char)} {ls : List (List Char)} {xss : List (List Val)} (h : List.Forall₂ (fun l xs => readText l = .ok xs ∧ Spoken xs) ls xss) :
    ∀ {s : St}, ElAt s.heap → Sc s.heap E elizaDefs → s.inp = ls ++ rest →
    ∃ s1, eval W elizaLoop E s = eval W elizaLoop E s1 ∧ s.heap <+: s1.heap ∧ s1.out = s.out ++ elizaTalk W.rand s.tick xss ∧ s1.inp = rest ∧ s1.tick = s.tick + xss.length ∧ s1.screen = s.screen := by
  induction h with
  | nil =>
    intro s _ _ hi
    exact ⟨s, rfl, List.prefix_refl _, (List.append_nil _).symm, hi, rfl, rfl⟩
  | cons h1 _ ih =>
    intro s hp hs hi
    obtain ⟨s1, e1, p1, o1, i1, t1, n1⟩ := el_turn (W := W) hp hs hi h1.1 h1.2
    have hs1 := hs.mono p1
    have e2 : eval W elizaLoop E s = eval W elizaLoop E s1 := C34_turn W E [form1, form2, form3] _ s s1 (hs.notMacro_sf rfl known_loop) (hs1.notMacro_sf rfl known_loop) e1
    obtain ⟨s2, e3, p2, o2, i2, t2, n2⟩ := ih (hp.mono p1) hs1 i1
    refine ⟨s2, e2.trans e3, p1.trans p2, ?_, i2, by rw [t2, t1, List.length_cons]; omega, n2.trans n1⟩
    rw [o2, o1, t1, List.append_assoc]; rfl

/-- An error when the next line is read ends the loop. -/
theorem el_stop {E : Nat} {s : St} (hs : Sc s.heap E elizaDefs) {er : Err} {rest : List (List Char)}
    (hr : ∀ s1 : St, s1.inp = s.inp → callFn W (.bi .readlist) [] E s1 = .err er { s1 with inp := rest }) :
    ∃ fr s1, eval W elizaLoop E s = .err (Err.underAll fr er) s1 ∧ s1.out = s.out ++ elizaPrompt ∧ s1.inp = rest ∧ s1.tick = s.tick ∧ s1.screen = s.screen := by
  obtain ⟨s1, e1, h1, o1, i1, t1, n1⟩ := el_prompt (W := W) hs
  have hs1 := hs.mono h1
  obtain ⟨s2, q2, e2⟩ := core_call (W := W) (a := "readlist") (xs := []) hs1 rfl hd_readlist .nil
  have e3 := hr s2 (by rw [q2.inp, i1])
  have e4 : eval W form3 E s1 = .err (Err.underAll (List.replicate 3 (msgList "evaluating function arguments")) er) { s2 with inp := rest } := by
    rw [form3_run hs1, show eval W (vlist [.atom "readlist"]) E s1 = _ from e2.trans e3]
    rfl
  have e5 := C34_error W E [form1, form2] _ [] form3 _ s s1 _ (hs.notMacro_sf rfl known_loop) e1 e4
  refine ⟨msgList "loop operator" :: List.replicate 3 (msgList "evaluating function arguments"), { s2 with inp := rest }, e5, ?_, rfl, ?_, ?_⟩
  · show s2.out = _; rw [q2.out, o1]
  · show s2.tick = _; rw [q2.tick, t1]
  · show s2.screen = _; rw [q2.screen, n1]

theorem under_foreign (fr : List Val) (m : String) : Err.underAll fr (.foreign m) = .foreign m := by
  induction fr with
  | nil => rfl
  | cons f fr ih => exact (congrArg (Err.under f) ih).trans rfl

/-- The conversation ends when there are no lines any more, or when the next one cannot be read. -/
theorem el_eliza {s : St} (hp : ElAt s.heap) {ls rest : List (List Char)} {xss : List (List Val)} (h : List.Forall₂ (fun l xs => readText l = .ok xs ∧ Spoken xs) ls xss) (hi : s.inp = ls ++ rest) (e : Nat) :
    (rest = [] → ∃ s1, callFn W z_eliza [] e s = .err (.foreign "EOF") s1 ∧ s1.out = s.out ++ (elizaTalk W.rand s.tick xss ++ elizaPrompt) ∧ s1.inp = [] ∧ s1.screen = s.screen) ∧
    (∀ bad later er, rest = bad :: later → readText bad = .err er →
      ∃ fr s1, callFn W z_eliza [] e s = .err (Err.underAll fr (.list er)) s1 ∧ s1.out = s.out ++ (elizaTalk W.rand s.tick xss ++ elizaPrompt) ∧ s1.inp = later ∧ s1.screen = s.screen) := by
  rw [show callFn W z_eliza [] e s = eval W elizaLoop _ _ from callFn_lam (ps := []) (r := "") (vs := []) rfl (by decide) e s]
  have q1 := Quiet.callSt s 0 [] "" []
  have hs : Sc (callSt s 0 [] "" []).heap s.heap.length elizaDefs := Sc.callSt hp.prog.sc [] "" []
  obtain ⟨s1, e1, p1, o1, i1, t1, n1⟩ := el_talk (W := W) (rest := rest) h (hp.mono q1.heap) hs hi
  rw [e1]
  have hs1 := hs.mono p1
  have o2 : s1.out = s.out ++ elizaTalk W.rand s.tick xss := o1
  constructor
  · rintro rfl
    obtain ⟨fr, s2, e2, o3, i3, t3, n3⟩ := el_stop (W := W) (er := .foreign "EOF") (rest := []) hs1 fun s2 h2 => by
      have h3 : s2.inp = [] := h2.trans i1
      have := C52_eof W [] s.heap.length s2 h3
      rw [perform_eq] at this
      rw [show ({ s2 with inp := [] } : St) = s2 by rw [← h3]]
      exact call_bi_err (b := .readlist) this
    rw [under_foreign] at e2
    exact ⟨s2, e2, by rw [o3, o2, List.append_assoc], i3, n3.trans n1⟩
  · rintro bad later er rfl hr
    obtain ⟨fr, s2, e2, o3, i3, t3, n3⟩ := el_stop (W := W) (er := Err.underAll [msgList ("builtin function " ++ BI.readlist.name), msgList "parsing readlist input"] (.list er)) (rest := later) hs1 fun s2 h2 => by
      have := C52_syntax W [] s.heap.length s2 bad later er (h2.trans i1) hr
      rw [perform_eq] at this
      exact call_bi_err (b := .readlist) this
    exact ⟨fr ++ [msgList ("builtin function " ++ BI.readlist.name), msgList "parsing readlist input"], s2, by rw [e2]; unfold Err.underAll; rw [List.foldr_append], by rw [o3, o2, List.append_assoc], i3, n3.trans n1⟩

end L1
