import Verif.Model.Version
import Verif.Spec.Version
import Verif.Lemmas.Digits
import Verif.Props.Status
/-
C83: the version as a list.
-/
set_option autoImplicit false
namespace L1

theorem VerNum.digits (p : VerNum) : ∀ c ∈ p.text, isDigitC c = true := by
  intro c hc
  rcases List.mem_append.1 hc with h | h
  · obtain ⟨_, rfl⟩ := List.mem_replicate.1 h; rfl
  · have := Nat.isDigit_of_mem_toDigits (by omega) (by omega) h
    simpa [isDigitC, Char.isDigit, Char.le_def, UInt32.le_iff_toNat_le] using this

theorem VerNum.ne_nil (p : VerNum) : p.text ≠ [] := by
  unfold VerNum.text
  intro h
  have := (List.append_eq_nil_iff.1 h).2
  exact absurd this (Nat.toDigits_ne_nil)

theorem VerNum.val (p : VerNum) : digitsVal p.text = p.value := by
  unfold VerNum.text digitsVal
  rw [List.foldl_append]
  have : ∀ k : Nat, (List.replicate k '0').foldl (fun n c => n * 10 + (c.toNat - '0'.toNat)) 0 = 0 := by
    intro k
    induction k with
    | zero => rfl
    | succ k ih => rw [List.replicate_succ, List.foldl_cons]; exact ih
  rw [this]
  exact digitsVal_toDigits p.value

/-- The text after the digits does not go on with a digit. -/
def NoDigit (cs : List Char) : Prop := ∀ c ∈ cs.head?, isDigitC c = false

theorem take_text (p : VerNum) {r : List Char} (h : NoDigit r) : (p.text ++ r).takeWhile isDigitC = p.text ∧ (p.text ++ r).dropWhile isDigitC = r := by
  have h0 : r.takeWhile isDigitC = [] ∧ r.dropWhile isDigitC = r := by
    cases r with
    | nil => exact ⟨rfl, rfl⟩
    | cons c r => have := h c rfl; simp [this]
  rw [List.takeWhile_append_of_pos p.digits, List.dropWhile_append_of_pos p.digits, h0.1, h0.2]
  simp

theorem of_mem_takeWhile (p : Char → Bool) (c : Char) (cs : List Char) (h : c ∈ cs.takeWhile p) : p c = true := by
  induction cs with
  | nil => cases h
  | cons d cs ih =>
    rw [List.takeWhile_cons] at h
    split at h
    · rcases List.mem_cons.1 h with rfl | h
      · assumption
      · exact ih h
    · cases h

theorem dirty_ne (p : VerNum) : p.text ≠ "dirty".toList := by
  intro h
  have := p.digits 'd' (by rw [h]; decide)
  exact absurd this (by decide)

theorem verPart_text (p : VerNum) {r : List Char} (h : NoDigit r) : verPart ('.' :: (p.text ++ r)) = ([p.text], r) := by
  rw [show verPart ('.' :: (p.text ++ r)) = if (p.text ++ r).takeWhile isDigitC = [] then ([], '.' :: (p.text ++ r))
    else ([(p.text ++ r).takeWhile isDigitC], (p.text ++ r).dropWhile isDigitC) from rfl]
  rw [(take_text p h).1, (take_text p h).2, if_neg p.ne_nil]

theorem verPart_other {r : List Char} (h : r.head? ≠ some '.') : verPart r = ([], r) := by
  unfold verPart
  split
  · exact absurd rfl h
  · rfl

/-- The end of a version: nothing, or `-dirty`. -/
def verEnd (dirty : Bool) : List Char := if dirty then "-dirty".toList else []

theorem verMatch_text {ps : List VerNum} (h1 : 1 ≤ ps.length) (h2 : ps.length ≤ 3) (dirty : Bool) :
    verMatch (dotted ps ++ verEnd dirty) = some (ps.map VerNum.text ++ if dirty then ["dirty".toList] else []) := by
  have he : NoDigit (verEnd dirty) := by cases dirty <;> intro c hc <;> simp [verEnd] at hc; subst hc; decide
  have hp : (verEnd dirty).head? ≠ some '.' := by cases dirty <;> decide
  have hd : ∀ r : List Char, NoDigit ('.' :: r) := fun r c hc => by cases hc; decide
  have hx : "-dirty".toList.isPrefixOf (verEnd dirty) = dirty := by cases dirty <;> decide
  match ps, h1, h2 with
  | [p], _, _ =>
    unfold verMatch dotted
    rw [(take_text p he).1, (take_text p he).2, if_neg p.ne_nil, verPart_other hp]
    dsimp only
    rw [verPart_other hp]
    dsimp only
    rw [hx]; rfl
  | [p, q], _, _ =>
    unfold verMatch dotted dotted
    rw [List.append_assoc, List.cons_append]
    rw [(take_text p (hd _)).1, (take_text p (hd _)).2, if_neg p.ne_nil, verPart_text q he]
    dsimp only
    rw [verPart_other hp]
    dsimp only
    rw [hx]; rfl
  | [p, q, r], _, _ =>
    unfold verMatch dotted dotted dotted
    rw [List.append_assoc, List.cons_append, List.append_assoc, List.cons_append]
    rw [(take_text p (hd _)).1, (take_text p (hd _)).2, if_neg p.ne_nil, verPart_text q (hd _)]
    dsimp only
    rw [verPart_text r he]
    dsimp only
    rw [hx]; rfl

theorem dotted_head {ps : List VerNum} (h1 : 1 ≤ ps.length) : ∃ c cs, dotted ps = c :: cs ∧ isDigitC c = true := by
  match ps, h1 with
  | [p], _ =>
    cases ht : p.text with
    | nil => exact absurd ht p.ne_nil
    | cons c cs => exact ⟨c, cs, ht, p.digits c (by rw [ht]; simp)⟩
  | p :: q :: ps, _ =>
    cases ht : p.text with
    | nil => exact absurd ht p.ne_nil
    | cons c cs => exact ⟨c, cs ++ '.' :: dotted (q :: ps), by rw [show dotted (p :: q :: ps) = p.text ++ '.' :: dotted (q :: ps) from rfl, ht]; rfl, p.digits c (by rw [ht]; simp)⟩

/-- C83: of a version of one to three numbers, with or without a `v` before it and `-dirty` after it, the list has the numbers in order and, if so, the atom `dirty`. -/
theorem C83_list (v dirty : Bool) (ps : List VerNum) (h1 : 1 ≤ ps.length) (h2 : ps.length ≤ 3) :
    semverAsExprs ((if v then ['v'] else []) ++ dotted ps ++ if dirty then "-dirty".toList else []) =
      ps.map (fun p => .num p.value) ++ if dirty then [.atom "dirty"] else [] := by
  have hm := verMatch_text h1 h2 dirty
  have hf : verFind ((if v then ['v'] else []) ++ dotted ps ++ verEnd dirty) = some (ps.map VerNum.text ++ if dirty then ["dirty".toList] else []) := by
    cases v with
    | true =>
      show verFind ('v' :: (dotted ps ++ verEnd dirty)) = _
      rw [show verFind ('v' :: (dotted ps ++ verEnd dirty)) = match verMatch (dotted ps ++ verEnd dirty) with
        | some gs => some gs
        | none => verSearch ('v' :: (dotted ps ++ verEnd dirty)) from rfl, hm]
    | false =>
      obtain ⟨c, cs, hc, hd⟩ := dotted_head h1
      show verFind (dotted ps ++ verEnd dirty) = _
      rw [hc] at hm ⊢
      have hv : c ≠ 'v' := fun h => by subst h; exact absurd hd (by decide)
      rw [List.cons_append] at hm ⊢
      unfold verFind
      split
      · rename_i h; cases h; exact absurd rfl hv
      · unfold verSearch; rw [hm]
  unfold semverAsExprs
  change (match verFind ((if v then ['v'] else []) ++ dotted ps ++ verEnd dirty) with
    | none => []
    | some gs => gs.map fun m => if m = "dirty".toList then (.atom "dirty" : Val) else .num (digitsVal m)) = _
  rw [hf]
  dsimp only
  rw [List.map_append, List.map_map]
  congr 1
  · refine List.map_congr_left fun p _ => ?_
    show (if p.text = "dirty".toList then (.atom "dirty" : Val) else .num (digitsVal p.text)) = _
    rw [if_neg (dirty_ne p), p.val]
  · cases dirty <;> rfl

/-- A version as released, and one with zeros. -/
example : semverAsExprs "v1.22.3".toList = [.num 1, .num 22, .num 3] := C83_list true false [⟨0, 1⟩, ⟨0, 22⟩, ⟨0, 3⟩] (by decide) (by decide)
example : semverAsExprs "01.02-dirty".toList = [.num 1, .num 2, .atom "dirty"] := C83_list false true [⟨1, 1⟩, ⟨1, 2⟩] (by decide) (by decide)

/-- C83: a text without digits gives the empty list. -/
theorem C83_none (text : List Char) (h0 : ∀ c ∈ text, ¬ ('0' ≤ c ∧ c ≤ '9')) : semverAsExprs text = [] := by
  have h : ∀ c ∈ text, isDigitC c = false := fun c hc => by
    have := h0 c hc
    unfold isDigitC
    simpa using this
  have hm : ∀ cs : List Char, (∀ c ∈ cs, isDigitC c = false) → verMatch cs = none := by
    intro cs h
    unfold verMatch
    rw [if_pos]
    cases cs with
    | nil => rfl
    | cons c cs => rw [List.takeWhile_cons, h c (by simp)]; rfl
  have hs : ∀ cs : List Char, (∀ c ∈ cs, isDigitC c = false) → verSearch cs = none := by
    intro cs
    induction cs with
    | nil => exact fun _ => rfl
    | cons c cs ih =>
      intro h
      unfold verSearch
      rw [hm _ h]
      exact ih fun x hx => h x (List.mem_cons_of_mem _ hx)
  have hf : verFind text = none := by
    unfold verFind
    split
    · rename_i rest
      rw [hm rest fun x hx => h x (List.mem_cons_of_mem _ hx)]
      exact hs _ h
    · exact hs _ h
  unfold semverAsExprs
  rw [hf]

example : semverAsExprs "dev".toList = [] := C83_none _ (by decide)

/-- C83: whatever the text is, the list has at most three natural numbers and then, if it has a number, perhaps `dirty`. -/
theorem C83_shape (text : List Char) : ∃ (ns : List Nat) (dirty : Bool), semverAsExprs text = ns.map (fun n => .num (n : Int)) ++ (if dirty then [.atom "dirty"] else []) ∧
    ns.length ≤ 3 ∧ (dirty = true → ns ≠ []) := by
  have hdig : ∀ cs : List Char, cs.takeWhile isDigitC ≠ "dirty".toList := by
    intro cs h
    have h1 : 'd' ∈ cs.takeWhile isDigitC := by rw [h]; decide
    exact absurd (of_mem_takeWhile _ _ _ h1) (by decide)
  have hpart : ∀ cs : List Char, (verPart cs).1.length ≤ 1 ∧ ∀ m ∈ (verPart cs).1, m ≠ "dirty".toList := by
    intro cs
    unfold verPart
    split
    · split
      · exact ⟨by simp, fun m hm => by cases hm⟩
      · exact ⟨by simp, fun m hm => by simp only [List.mem_singleton] at hm; subst hm; exact hdig _⟩
    · exact ⟨by simp, fun m hm => by cases hm⟩
  have hmatch : ∀ (cs : List Char) (gs : List (List Char)), verMatch cs = some gs → ∃ (ds : List (List Char)) (dirty : Bool),
      gs = ds ++ (if dirty then ["dirty".toList] else []) ∧ ds.length ≤ 3 ∧ ds ≠ [] ∧ ∀ m ∈ ds, m ≠ "dirty".toList := by
    intro cs gs h
    unfold verMatch at h
    split at h
    · cases h
    · simp only [Option.some.injEq] at h
      have h2 := hpart (cs.dropWhile isDigitC)
      have h3 := hpart (verPart (cs.dropWhile isDigitC)).2
      refine ⟨cs.takeWhile isDigitC :: ((verPart (cs.dropWhile isDigitC)).1 ++ (verPart (verPart (cs.dropWhile isDigitC)).2).1),
        "-dirty".toList.isPrefixOf (verPart (verPart (cs.dropWhile isDigitC)).2).2, by rw [← h]; simp, ?_, by simp, ?_⟩
      · simp only [List.length_cons, List.length_append]; omega
      · intro m hm
        simp only [List.mem_cons, List.mem_append] at hm
        rcases hm with rfl | hm | hm
        · exact hdig _
        · exact h2.2 m hm
        · exact h3.2 m hm
  have hsearch : ∀ (cs : List Char) (gs : List (List Char)), verSearch cs = some gs → ∃ cs', verMatch cs' = some gs := by
    intro cs
    induction cs with
    | nil => intro gs h; cases h
    | cons c cs ih =>
      intro gs h
      unfold verSearch at h
      split at h
      · rename_i gs' h'; cases h; exact ⟨_, h'⟩
      · exact ih gs h
  have hfind : ∀ gs : List (List Char), verFind text = some gs → ∃ cs', verMatch cs' = some gs := by
    intro gs h
    unfold verFind at h
    split at h
    · split at h
      · rename_i gs' h'; cases h; exact ⟨_, h'⟩
      · exact hsearch _ _ h
    · exact hsearch _ _ h
  unfold semverAsExprs
  cases hf : verFind text with
  | none => exact ⟨[], false, rfl, by simp, by simp⟩
  | some gs =>
    obtain ⟨cs, hm⟩ := hfind gs hf
    obtain ⟨ds, dirty, rfl, h1, h2, h3⟩ := hmatch cs gs hm
    refine ⟨ds.map digitsVal, dirty, ?_, by simpa using h1, fun _ h => h2 (by simpa using h)⟩
    dsimp only
    rw [List.map_append, List.map_map]
    congr 1
    · refine List.map_congr_left fun m hm => ?_
      rw [if_neg (h3 m hm)]; rfl
    · cases dirty <;> rfl

/-- C83: `(version)`, whatever its arguments are, is that list for the version of the interpreter, the one that `l1 -v` prints. -/
theorem C83_version (W : World) (e : Nat) (xs vs : List Val) (s s1 : St) (hl : lookup s.heap e "version" = none) (h : EvalsTo W e xs s vs s1) :
    eval W (form "version" xs) e s = .ok (vlist (semverAsExprs "v0.0.57-dirty".toList)) s1 ∧
    vlist (semverAsExprs "v0.0.57-dirty".toList) = vlist [.num 0, .num 0, .num 57, .atom "dirty"] := by
  refine ⟨?_, by decide +kernel⟩
  rw [show ("version" : String) = BI.name .version from rfl, eval_native hl h]
  unfold extend
  rw [extendWith_run, perform_eq]; rfl

/-- At the start. -/
example (W : World) : eval W (form "version" []) 0 (initSt []) = .ok (vlist [.num 0, .num 0, .num 57, .atom "dirty"]) (initSt []) :=
  (C83_version W 0 [] [] _ _ (by decide +kernel) .nil).1.trans (by rw [(C83_version W 0 [] [] (initSt []) _ (by decide +kernel) .nil).2])

end L1
