import Verif.Lemmas.GalaxScript
import Verif.Lemmas.CoreText
import Verif.Props.FuzzLegal
/-
C91: examples/galax.l1.
-/
set_option autoImplicit false
namespace L1

variable {W : World}

/-! ### The text -/

set_option maxRecDepth 100000 in
/-- The lines of examples/galax.l1. -/
noncomputable def galaxChars : List (List Char) := chars_of galaxLines

set_option maxRecDepth 100000 in
theorem galaxLines_chars : galaxLines.map String.toList = galaxChars := by
  have : galaxLines = galaxChars.map String.ofList := by
    unfold galaxLines galaxChars
    exact rfl
  rw [this, List.map_map]
  have : (String.toList ∘ String.ofList) = id := by funext c; simp
  rw [this, List.map_id]

set_option maxRecDepth 100000 in
theorem galaxChars_ok : galaxChars.all (fun s => s.all fun c => !(Nat.beq c.toNat 10)) = true := by decide +kernel

set_option maxRecDepth 100000 in
theorem galaxChars_read : lexAndParse galaxChars = .ok galaxForms := by decide +kernel

theorem read_galax : readText galaxText = .ok galaxForms := by
  unfold readText galaxText
  rw [galaxLines_chars, splitOnChar_joinNl _ (by decide +kernel) fun l hl hm => ?_]
  · exact galaxChars_read
  · have := List.all_eq_true.1 (List.all_eq_true.1 galaxChars_ok l hl) _ hm
    revert this; decide

/-! ### The program -/

/-- C91: examples/galax.l1, loaded wherever the library is intact: it finishes, having taken 222 random numbers and written ten lines, which the random numbers
after the first two determine, and done nothing else. -/
theorem C91_text (s : St) (hc : CoreAt s.heap 0) :
    ∃ s', TextRun W galaxText s .finished s' ∧ s'.tick = s.tick + 222 ∧ s'.out = s.out ++ galaxLineList W 10 (s.tick + 2) ∧ s'.inp = s.inp ∧ s'.screen = s.screen := by
  obtain ⟨vs1, s1, h1, p1, w1⟩ := (galax_defs1 (W := W)).evals s ⟨hc, fun _ _ h => by cases h⟩
  obtain ⟨s2, h2, d2⟩ := EX.own (W := W) (k := s1.tick) (a := "color") p1.sc rfl rfl (cx_color p1 rfl rfl) s1 (List.prefix_refl _) rfl
  have p2 := p1.mono d2.heap
  obtain ⟨s3, h3, d3⟩ := EX.own (W := W) (k := s2.tick) (a := "lifeforms") p2.sc rfl rfl (cx_lifeforms p2 rfl rfl rfl rfl) s2 (List.prefix_refl _) rfl
  obtain ⟨vs4, s4, h4, p4, w4⟩ := (galax_defs2 (W := W)).evals s3 (p2.mono d3.heap)
  obtain ⟨s5, h5, t5, o5, i5, n5⟩ := turns_run (W := W) p4 10
  have ht : s4.tick = s.tick + 2 := by rw [w4.tick, d3.tick, d2.tick, w1.tick]
  have hall : EvalsTo W 0 galaxForms s (vs1 ++ ([.atom (pick W galaxColors s1.tick), words (pick W galaxLife s2.tick)] ++ (vs4 ++ [.nil]))) s5 := by
    rw [show galaxForms = galaxForms.take 6 ++ ([vlist [.atom "color"], vlist [.atom "lifeforms"]] ++ ((galaxForms.drop 8).take 8 ++ [form "dotimes" [.num 10, galaxTurn]])) from rfl]
    exact evalsTo_append h1 (evalsTo_append (.cons h2 (.cons h3 .nil)) (evalsTo_append h4 (.cons h5 .nil)))
  refine ⟨s5, .finished read_galax hall, by rw [t5, ht], ?_, ?_, ?_⟩
  · rw [o5, w4.out, d3.out, d2.out, w1.out, ht]; simp
  · rw [i5, w4.inp, d3.inp, d2.inp, w1.inp]
  · rw [n5, w4.screen, d3.screen, d2.screen, w1.screen]

/-- The state after loading the library meets the hypothesis. -/
example : ∃ s', TextRun W galaxText (topSt (initSt []) coreEnv) .finished s' ∧ s'.out = galaxLineList W 10 2 := by
  obtain ⟨s', h1, _, h2, _⟩ := C91_text (W := W) (topSt (initSt []) coreEnv) (coreAt_loaded _)
  exact ⟨s', h1, h2⟩

/-- C91: run as a script: the ten lines are the whole output, and the exit status is 0, whatever the random numbers are. -/
theorem C91_script (W : World) (n : Nat) (inp : List (List Char)) (f : String) (hf : W.readFile 0 f = .ok galaxText) :
    exitStatus (mainWith W (perform W) n coreText none [f] (initSt inp)) = some 0 ∧
    ∃ s', finalState (mainWith W (perform W) n coreText none [f] (initSt inp)) = some s' ∧ s'.out = galaxLineList W 10 3 ∧ s'.inp = inp := by
  obtain ⟨s', h1, h2, h3, h4, _⟩ := C91_text (W := W) { topSt (initSt inp) coreEnv with tick := 1 } (coreAt_loaded (initSt inp))
  obtain ⟨h5, h6⟩ := (C76_script W n inp f [] 0 s').1 (.next hf h1 .done)
  exact ⟨h5, s', h6, h3, h4⟩

/-- C91: the calls: `(itsalive 'planet)` is, for any word that begins with a letter, the sentence the random numbers choose, its first letter in upper case and an exclamation mark
at its end; 21 random numbers are taken. -/
theorem C91_news {s : St} (hp : Prog s.heap galaxDefs) (planet : String) (hpl : startsLetter planet = true) (e : Nat) :
    ∃ bs s', callFn W g_itsalive [.atom planet] e s = .ok (vlist (bs.map .atom)) s' ∧ Sentence W "!" (galaxNews W planet s.tick) bs ∧ Draws 21 s s' := by
  obtain ⟨hne, hlet⟩ := news_letter (W := W) hpl s.tick
  obtain ⟨bs, h1, h2, _⟩ := bang_of (W := W) hne hlet
  have hcx : CX W s.heap s.tick g_itsalive [.atom planet] 21 (words bs) := .lam rfl (by decide) hp.sc fun h' e' hh hs =>
    .call1 (m := 21) (n := 0) (.core hs rfl hd_exclaim) (ex_either (L := []) (hp.mono hh) planet hpl hs) (.ret fun s h4 =>
      ret_exclaim (hp.mono (hh.trans h4)).core.base fun _ hq => ret_sentence ((hp.mono (hh.trans h4)).core.base.mono hq.heap) rfl
        (fun a ha => ret_bang ((hp.mono (hh.trans h4)).core.base.mono hq.heap) a (noDigit_of ha)) h1 h2)
  obtain ⟨s', h3, h4⟩ := hcx s e (List.prefix_refl _) rfl
  exact ⟨bs, s', h3, h1, h4⟩

/-- C91: what a sentence can be: there are two kinds. -/
theorem C91_forms (planet : String) (k : Nat) :
    ∃ adj ∈ galaxColors ++ galaxPairs ++ ["slimy", "oozing", "gaseous", "vitreous", "microscopic", "metallic"], ∃ life ∈ galaxLife, ∃ deed ∈ galaxDeeds, ∃ place,
      (∃ p ∈ galaxPlaces, (∃ x ∈ galaxOn, place = ["on", "the", p, x]) ∨ ∃ x ∈ galaxIn, place = ["in", "the", p, x]) ∧
      (galaxNews W planet k = [adj] ++ life ++ ["have"] ++ deed ++ place ++ ["of", "planet", upFirst planet] ∨
       galaxNews W planet k = place ++ ["of", "planet", upFirst planet ++ ",", adj] ++ life ++ ["have"] ++ deed) := by
  have adj : ∀ k, galaxAdjective W k ∈ galaxColors ++ galaxPairs ++ ["slimy", "oozing", "gaseous", "vitreous", "microscopic", "metallic"] := fun k => by
    have h1 := pick_mem (W := W) (l := galaxColors) (by decide) k
    have h2 := pick_mem (W := W) (l := galaxPairs) (by decide) (k + 1)
    have h3 := pick_mem (W := W) (l := [pick W galaxColors k, pick W galaxPairs (k + 1), "slimy", "oozing", "gaseous", "vitreous", "microscopic", "metallic"]) (by simp) (k + 2)
    rw [show pick W [pick W galaxColors k, pick W galaxPairs (k + 1), "slimy", "oozing", "gaseous", "vitreous", "microscopic", "metallic"] (k + 2) = galaxAdjective W k from rfl] at h3
    generalize galaxAdjective W k = a at *
    simp only [List.mem_append]
    rcases List.mem_cons.1 h3 with rfl | h3
    · exact .inl (.inl h1)
    rcases List.mem_cons.1 h3 with rfl | h3
    · exact .inl (.inr h2)
    · exact .inr h3
  have phr : ∀ k, ∃ p ∈ galaxPlaces, (∃ x ∈ galaxOn, galaxPhrase W k = ["on", "the", p, x]) ∨ ∃ x ∈ galaxIn, galaxPhrase W k = ["in", "the", p, x] := fun k => by
    have h3 := pick_mem (W := W) (l := [["on", "the", pick W galaxPlaces k, pick W galaxOn (k + 1)], ["in", "the", pick W galaxPlaces (k + 2), pick W galaxIn (k + 3)]]) (by simp) (k + 4)
    rw [show pick W [["on", "the", pick W galaxPlaces k, pick W galaxOn (k + 1)], ["in", "the", pick W galaxPlaces (k + 2), pick W galaxIn (k + 3)]] (k + 4) = galaxPhrase W k from rfl] at h3
    simp only [List.mem_cons, List.not_mem_nil, or_false] at h3
    rcases h3 with h3 | h3
    · exact ⟨_, pick_mem (by decide) _, .inl ⟨_, pick_mem (by decide) _, h3⟩⟩
    · exact ⟨_, pick_mem (by decide) _, .inr ⟨_, pick_mem (by decide) _, h3⟩⟩
  have h3 := pick_mem (W := W) (l := [galaxAdjective W k :: (pick W galaxLife (k + 3) ++ "have" :: (pick W galaxDeeds (k + 4) ++ (galaxPhrase W (k + 5) ++ ["of", "planet", upFirst planet]))),
     galaxPhrase W (k + 10) ++ "of" :: "planet" :: (upFirst planet ++ ",") :: galaxAdjective W (k + 15) :: (pick W galaxLife (k + 18) ++ "have" :: pick W galaxDeeds (k + 19))]) (by simp) (k + 20)
  change galaxNews W planet k ∈ _ at h3
  simp only [List.mem_cons, List.not_mem_nil, or_false] at h3
  rcases h3 with h3 | h3
  · exact ⟨_, adj k, _, pick_mem (W := W) (by decide) (k + 3), _, pick_mem (W := W) (by decide) (k + 4), _, phr (k + 5), .inl (by rw [h3]; simp)⟩
  · exact ⟨_, adj (k + 15), _, pick_mem (W := W) (by decide) (k + 18), _, pick_mem (W := W) (by decide) (k + 19), _, phr (k + 10), .inr (by rw [h3]; simp)⟩

/-- When all random numbers are 9, the third line is this (the names of planets are counted from 0, and 9 is 2 modulo 7, and so on). -/
example : galaxLine (sameRand 9) 47 = "In the lava-filled craters of planet Theodora, reddish-black complex molecules have evolved!\n".toList := by decide +kernel

end L1
