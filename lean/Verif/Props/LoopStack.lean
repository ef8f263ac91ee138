import Verif.Lemmas.WithinLoop
import Verif.Lemmas.CoreLoad
/-
C84, C85: loops on a fixed stack.
-/
set_option autoImplicit false
namespace L1

variable {W : World} {s : St} {e : Nat}

/-- C84: (range n) for every `n`, on a stack of 20. -/
theorem C84_range (h : CoreAt s.heap 0) (d : Nat) (n : Int) :
    GivesWithin W (d + 19) s "range" [.num n] (vlist ((List.range n.toNat).map fun (i : Nat) => .num (i : Int))) := (rw_range h.base n).gives hd_range

example (inp : List (List Char)) : GivesWithin W 19 (topSt (initSt inp) coreEnv) "range" [.num 1000000]
    (vlist ((List.range 1000000).map fun (i : Nat) => .num (i : Int))) := C84_range (coreAt_loaded _) 0 1000000

/-- C85: the rule for `while`.  Let `I g n y` be a property of the states `y` in which a turn begins (`g` is the new name of the loop's function), with a bound `n` on
the number of turns to come.  If it holds when the loop begins, and a turn that begins with it, on a stack of `d`, either finds the condition () and ends with `Q`, or
leads to the next turn with a smaller bound, then `(while c x ...)` is () and ends with `Q`, on a stack of `d + 1`, however many turns there are. -/
theorem C85_while (h : CoreHere s.heap e) (c : Val) (xs : List Val) (d : Nat) (hd : xs.length + 16 ≤ d) (I : String → Nat → St → Prop) (Q : St → Prop)
    (hstart : ∀ k s1, Quiet s s1 → ∃ n, I (gensymName "-inner".toList k) n (loopSt s1 e (gensymName "-inner".toList k) (whileFn (gensymName "-inner".toList k) c xs e)))
    (hturn : ∀ k n y, I (gensymName "-inner".toList k) n y →
      TurnWithin W d c xs e (gensymName "-inner".toList k) Q (fun s4 => ∃ m, m < n ∧ I (gensymName "-inner".toList k) m s4) y) :
    ∃ s', evalWithin W (d + 1) (form "while" (c :: xs)) e s = .ok .nil s' ∧ Q s' :=
  while_rule hd h.ready hstart (fun _ _ q1 => ready_loopSt (h.1.base.mono q1.heap) (h.2.base.mono q1.heap) _ _ _) hturn

/-- A loop that counts down a variable `n` of scope `e`. -/
def countdown : Val := form "while" [vlist [.atom "pos?", .atom "n"], vlist [.atom "set!", .atom "n", vlist [.atom "dec", .atom "n"]]]

theorem Ready.sc {h : Heap} (hr : Ready h e) : Sc h e [] := .base hr.coreHere.2.base

theorem look1 {h : Heap} {k i : Nat} {f : Frame} {x : String} {v : Val} (h1 : h[k]? = some ⟨[], some i⟩) (hi : i < k) (h2 : h[i]? = some f) (h3 : alGet x f.syms = some v) :
    lookup h k x = some v := by
  obtain ⟨k, rfl⟩ : ∃ j, k = j + 1 := ⟨k - 1, by omega⟩
  unfold lookup
  simp [lookupAux, h1, h2, h3, alGet]

theorem look2 {h : Heap} {k i j : Nat} {f : Frame} {x : String} {v : Val} (h1 : h[k]? = some ⟨[], some i⟩) (h2 : h[i]? = some ⟨[], some j⟩) (hi : i < k) (hj : j < i)
    (h3 : h[j]? = some f) (h4 : alGet x f.syms = some v) : lookup h k x = some v := by
  obtain ⟨k, rfl⟩ : ∃ j, k = j + 2 := ⟨k - 2, by omega⟩
  unfold lookup
  simp [lookupAux, h1, h2, h3, h4, alGet]

/-- C85: it takes the same stack for every value of `n`, and `n` is 0 then. -/
theorem C85_countdown (h : CoreHere s.heap e) (f : Frame) (N : Nat) (hf : s.heap[e]? = some f) (hn : alGet "n" f.syms = some (.num N)) :
    ∃ s', evalWithin W 20 countdown e s = .ok .nil s' ∧ lookup s'.heap e "n" = some (.num 0) := by
  have look : ∀ (hp : Heap) (f : Frame) (v : Val) (x : String), hp[e]? = some f → alGet x f.syms = some v → lookup hp e x = some v := by
    intro hp f v x h1 h2
    unfold lookup
    rw [lookupAux, h1]
    dsimp only
    rw [h2]
  have hnk : ∀ x r, known x = some r → x ≠ "n" := by
    rintro x r hx rfl
    exact absurd hx (by rw [show known "n" = none by decide +kernel]; simp)
  refine C85_while (W := W) h _ _ 19 (by simp)
    (fun g m y => CoreHere y.heap e ∧ ∃ f, y.heap[e]? = some f ∧ alGet "n" f.syms = some (.num m) ∧
      alGet g f.syms = some (whileFn g (vlist [.atom "pos?", .atom "n"]) [vlist [.atom "set!", .atom "n", vlist [.atom "dec", .atom "n"]]] e))
    (fun s' => lookup s'.heap e "n" = some (.num 0)) ?_ ?_
  · intro k s1 q1
    have hlt : e < s1.heap.length := (h.mono q1.heap).2.nested.lt
    refine ⟨N, (ready_loopSt (h.1.base.mono q1.heap) (h.2.base.mono q1.heap) _ _ _).coreHere, ⟨alSet (gensymName "-inner".toList k) (whileFn (gensymName "-inner".toList k) (vlist [.atom "pos?", .atom "n"])
      [vlist [.atom "set!", .atom "n", vlist [.atom "dec", .atom "n"]]] e) f.syms, f.parent⟩, ?_, ?_, ?_⟩
    · exact heapSet_other (by omega) (heapSet_at (prefix_get (List.prefix_append _ _) (prefix_get q1.heap hf)))
    · rw [alGet_alSet_ne (gensymName_ne (by decide))]; exact hn
    · rw [alGet_alSet, if_pos rfl]
  · intro k m y
    generalize hg : gensymName "-inner".toList k = g
    rintro ⟨hc, f, hf, hn, hF⟩ s1 q1
    have hlt : e < y.heap.length := hc.2.nested.lt
    have hfw : (withScope y e).heap[y.heap.length]? = some ⟨[], some e⟩ := by simp [withScope]
    have hf1 : s1.heap[e]? = some f := prefix_get q1.heap (prefix_get (List.prefix_append _ _) hf)
    have hk1 : s1.heap[y.heap.length]? = some ⟨[], some e⟩ := prefix_get q1.heap hfw
    have q0 : y.heap <+: s1.heap := (List.prefix_append _ _).trans q1.heap
    have hc1 : CoreHere s1.heap y.heap.length := (hc.frame (syms := []) fun _ _ _ => rfl).mono q1.heap
    have hs1 := hc1.ready.sc
    have hv1 : ∀ d, GW W d s1 y.heap.length (.atom "n") (.num m) := fun d => .of_eval fun s' h' => by
      refine within_atom rfl (by decide) ?_
      exact look1 (prefix_get h'.heap hk1) hlt (prefix_get h'.heap hf1) hn
    cases m with
    | zero =>
      left
      obtain ⟨s2, e2, q2⟩ := GW.posF (W := W) (d := 18) hs1 rfl hc1.1.base (hv1 _) (by decide) s1 (.refl _)
      exact ⟨s2, e2, look _ f _ _ (prefix_get q2.heap hf1) hn⟩
    | succ m =>
      right
      obtain ⟨s2, e2, q2⟩ := GW.posT (W := W) (d := 18) hs1 rfl hc1.1.base (hv1 _) (by omega) s1 (.refl _)
      refine ⟨_, s2, e2, by decide, hc1.mono q2.heap, fun s2' q2' => ?_⟩
      have q3 : s1.heap <+: (withScope s2' y.heap.length).heap := (q2.trans q2').heap.trans (List.prefix_append _ _)
      have hc3 : CoreHere (withScope s2' y.heap.length).heap s2'.heap.length := (hc1.mono (q2.trans q2').heap).frame (syms := []) fun _ _ _ => rfl
      have hs3 := hc3.ready.sc
      have hke : y.heap.length < s2'.heap.length := (hc1.mono (q2.trans q2').heap).2.nested.lt
      have hf3 : (withScope s2' y.heap.length).heap[s2'.heap.length]? = some ⟨[], some y.heap.length⟩ := by simp [withScope]
      have hk3 := prefix_get q3 hk1
      have he3 := prefix_get q3 hf1
      have hv3 : ∀ d, GW W d (withScope s2' y.heap.length) s2'.heap.length (.atom "n") (.num ((m + 1 : Nat) : Int)) := fun d => .of_eval fun s' h' => by
        refine within_atom rfl (by decide) ?_
        exact look2 (prefix_get h'.heap hf3) (prefix_get h'.heap hk3) hke hlt (prefix_get h'.heap he3) hn
      have hd := GW.dec (W := W) (d := 16) hs3 rfl hc3.1.base (hv3 _)
      rw [show (((m + 1 : Nat) : Int)) - 1 = m by omega] at hd
      obtain ⟨s4, q4, e4⟩ := set_within (o := e) (n := "n") hs3 rfl hd (by decide) fun s4 q4 =>
        owner_two (prefix_get q4.heap hf3) (prefix_get q4.heap hk3) (prefix_get q4.heap he3) hke hlt hn
      have he4 := prefix_get q4.heap he3
      have hkey := heapSet_at (x := "n") (v := .num m) he4
      refine ⟨_, _, .cons e4 .nil, ?_, ?_, m, Nat.lt_succ_self _, ?_, _, hkey, ?_, ?_⟩
      · exact (hc.mono (q0.trans (q3.trans q4.heap))).set hnk _ _
      · show lookup (heapSet s4.heap e "n" (.num m)) s2'.heap.length g = _
        have hgn : g ≠ "n" := by rw [← hg]; exact gensymName_ne (by decide)
        have h1 := heapSet_other (x := "n") (v := .num m) (show s2'.heap.length ≠ e by omega) (prefix_get q4.heap hf3)
        have h2 := heapSet_other (x := "n") (v := .num m) (show y.heap.length ≠ e by omega) (prefix_get q4.heap hk3)
        exact look2 h1 h2 hke hlt hkey ((alGet_alSet_ne hgn.symm _).trans hF)
      · exact (hc.mono (q0.trans (q3.trans q4.heap))).set hnk _ _
      · rw [alGet_alSet, if_pos rfl]
      · have hgn : g ≠ "n" := by rw [← hg]; exact gensymName_ne (by decide)
        rw [alGet_alSet_ne hgn.symm, hF]

/-- From a million, on a stack of 20, at top level. -/
example (inp : List (List Char)) : ∃ s', evalWithin W 20 countdown 0 { topSt (initSt inp) coreEnv with heap := heapSet (topSt (initSt inp) coreEnv).heap 0 "n" (.num (1000000 : Nat)) } = .ok .nil s' ∧
    lookup s'.heap 0 "n" = some (.num 0) := by
  have hc := coreAt_loaded (initSt inp)
  have hnk : ∀ x r, known x = some r → x ≠ "n" := by
    rintro x r hx rfl
    exact absurd hx (by rw [show known "n" = none by decide +kernel]; simp)
  have h0 : ∃ f, (topSt (initSt inp) coreEnv).heap[0]? = some f := ⟨_, List.getElem?_eq_getElem hc.nested.lt⟩
  obtain ⟨f, hf⟩ := h0
  exact C85_countdown (CoreHere.set ⟨hc, hc⟩ hnk 0 _) _ 1000000 (heapSet_at hf) (by rw [alGet_alSet, if_pos rfl])

end L1
