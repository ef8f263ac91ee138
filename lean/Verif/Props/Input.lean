import Verif.Spec.Input
import Verif.Props.Session
/-
C81: what of the standard input reaches the program.
-/
set_option autoImplicit false
namespace L1

theorem dropCR_append_cr (l : Bytes) : dropCR (l ++ [13]) = l := by
  induction l with
  | nil => rfl
  | cons c l ih =>
    cases h : l ++ [13] with
    | nil => simp at h
    | cons d m =>
      rw [List.cons_append, h]
      show c :: dropCR (d :: m) = _
      rw [← h, ih]

theorem dropCR_plain {l : Bytes} (h : l.getLast? ≠ some 13) : dropCR l = l := by
  induction l with
  | nil => rfl
  | cons c l ih =>
    cases l with
    | nil =>
      have : c ≠ 13 := fun hc => h (by rw [hc]; rfl)
      show (if c = carriage then [] else [c]) = _
      exact if_neg this
    | cons d m =>
      show c :: dropCR (d :: m) = _
      rw [ih (by simpa using h)]

theorem dropCR_sublist (l : Bytes) : (dropCR l).Sublist l := by
  induction l with
  | nil => exact .slnil
  | cons c l ih =>
    cases l with
    | nil =>
      show (if c = carriage then [] else [c]).Sublist [c]
      split
      · exact List.nil_sublist _
      · exact .refl _
    | cons d m => exact .cons_cons c ih

theorem cutLine_none {buf : Bytes} (h : (10 : UInt8) ∉ buf) : cutLine buf = none := if_neg h

theorem takeWhile_line {l rest : Bytes} (h : (10 : UInt8) ∉ l) : (l ++ 10 :: rest).takeWhile (· != newline) = l := by
  induction l with
  | nil => rfl
  | cons c l ih =>
    simp only [List.mem_cons, not_or] at h
    rw [List.cons_append, List.takeWhile_cons]
    have : (c != newline) = true := by simpa [newline] using Ne.symm h.1
    rw [this, ih h.2]
    rfl

/-- The first line of a buffer. -/
theorem cutLine_line {l e rest : Bytes} (hl : PlainLine l) (he : LineEnd e) : cutLine (l ++ e ++ rest) = some l := by
  have hm : newline ∈ l ++ e ++ rest := by rcases he with rfl | rfl <;> simp [newline]
  unfold cutLine
  rw [if_pos hm]
  rcases he with rfl | rfl
  · rw [List.append_assoc]
    show some (dropCR ((l ++ 10 :: rest).takeWhile _)) = _
    rw [takeWhile_line hl.1, dropCR_plain hl.2]
  · rw [show l ++ [13, 10] ++ rest = (l ++ [13]) ++ 10 :: rest by simp, takeWhile_line (by simpa using hl.1), dropCR_append_cr]

/-- Reads without a newline that fit into the buffer are put together. -/
theorem readB_pieces (ps : List Bytes) (src : List Bytes) : ∀ buf : Bytes, (10 : UInt8) ∉ buf → (∀ p ∈ ps, (10 : UInt8) ∉ p) → (buf ++ ps.flatten).length < bufSize →
    readB buf (ps ++ src) = readB (buf ++ ps.flatten) src := by
  induction ps with
  | nil => intro buf _ _ _; simp
  | cons p ps ih =>
    intro buf hb hp hl
    simp only [List.flatten_cons, List.length_append] at hl
    rw [List.cons_append, readB, cutLine_none hb]
    dsimp only
    rw [if_neg (by omega), if_pos (by omega), ih (buf ++ p) (by simp [hb, hp p (by simp)]) (fun q hq => hp q (List.mem_cons_of_mem _ hq)) (by simp only [List.length_append]; omega)]
    simp

/-- A read with a newline. -/
theorem readB_line {buf c line : Bytes} (src : List Bytes) (hb : (10 : UInt8) ∉ buf) (hlen : buf.length + c.length ≤ bufSize) (hlt : buf.length < bufSize) (h : cutLine (buf ++ c) = some line) :
    readB buf (c :: src) = some (line, src) := by
  rw [readB, cutLine_none hb]
  dsimp only
  rw [if_neg (by omega), if_pos hlen]
  cases src <;> rw [readB, h]

/-! ### Taking bytes -/

theorem cutLine_sublist {buf line : Bytes} (h : cutLine buf = some line) : line.Sublist buf ∧ newline ∈ buf := by
  unfold cutLine at h
  split at h
  · cases h; exact ⟨(dropCR_sublist _).trans (List.takeWhile_sublist _), by assumption⟩
  · cases h

theorem fullLine_sublist (buf : Bytes) : (fullLine buf).Sublist buf := by
  unfold fullLine
  cases h : cutLine buf with
  | none => exact dropCR_sublist _
  | some l => exact (cutLine_sublist h).1

/-- One line: it is in order among what was taken from the input, and something was taken. -/
theorem readB_taken (src : List Bytes) : ∀ (buf line : Bytes) (rest : List Bytes), readB buf src = some (line, rest) →
    ∃ taken : Bytes, buf ++ src.flatten = taken ++ rest.flatten ∧ line.Sublist taken ∧ taken ≠ [] := by
  induction src with
  | nil =>
    intro buf line rest h
    rw [readB] at h
    cases hc : cutLine buf with
    | some l =>
      rw [hc] at h; cases h
      exact ⟨buf, rfl, (cutLine_sublist hc).1, List.ne_nil_of_mem (cutLine_sublist hc).2⟩
    | none =>
      rw [hc] at h
      dsimp only at h
      split at h
      · cases h
      · split at h
        · cases h; exact ⟨buf, rfl, dropCR_sublist _, by assumption⟩
        · cases h; exact ⟨buf, rfl, .refl _, by assumption⟩
  | cons c cs ih =>
    intro buf line rest h
    rw [readB] at h
    cases hc : cutLine buf with
    | some l =>
      rw [hc] at h; cases h
      exact ⟨buf, rfl, (cutLine_sublist hc).1, List.ne_nil_of_mem (cutLine_sublist hc).2⟩
    | none =>
      rw [hc] at h
      dsimp only at h
      split at h
      · rename_i hb
        cases h
        refine ⟨buf, rfl, dropCR_sublist _, ?_⟩
        rintro rfl
        simp [bufSize] at hb
      · rename_i hb
        split at h
        · obtain ⟨taken, h1, h2⟩ := ih _ _ _ h
          exact ⟨taken, by rw [← h1]; simp, h2⟩
        · rename_i hlen
          cases h
          refine ⟨_, ?_, fullLine_sublist _, ?_⟩
          · simp [List.append_assoc, ← List.append_assoc (c.take _)]
          · intro h
            have := congrArg List.length h
            simp only [List.length_append, List.length_take, List.length_nil] at this
            omega

theorem deliver_more (n : Nat) : ∀ (m : Nat) (src : List Bytes), src.flatten.length < n → src.flatten.length < m → deliver n src = deliver m src := by
  induction n with
  | zero => intro m src h; omega
  | succ n ih =>
    intro m src hn hm
    cases m with
    | zero => omega
    | succ m =>
      simp only [deliver]
      cases h : readB [] src with
      | none => rfl
      | some p =>
        obtain ⟨line, rest⟩ := p
        obtain ⟨taken, h1, -, h3⟩ := readB_taken src [] line rest h
        have := congrArg List.length h1
        have h4 : 0 < taken.length := List.length_pos_iff.2 h3
        simp only [List.nil_append, List.length_append] at this
        dsimp only
        rw [ih m rest (by omega) (by omega)]

theorem delivered_some {src rest : List Bytes} {line : Bytes} (h : readB [] src = some (line, rest)) : delivered src = line :: delivered rest := by
  obtain ⟨taken, h1, -, h3⟩ := readB_taken src [] line rest h
  have := congrArg List.length h1
  have h4 : 0 < taken.length := List.length_pos_iff.2 h3
  simp only [List.nil_append, List.length_append] at this
  unfold delivered
  rw [deliver, h]
  dsimp only
  rw [deliver_more _ (rest.flatten.length + 1) rest (by omega) (by omega)]

theorem delivered_nil : delivered [] = [] := rfl

/-! ### The property -/

/-- C81: a line that arrives in one or several reads, the last of which ends with it, is delivered without its end, and the next line is what comes after. -/
theorem C81_line (l e last : Bytes) (ps src : List Bytes) (hl : PlainLine l) (he : LineEnd e) (hp : ps.flatten ++ last = l ++ e) (hlast : (10 : UInt8) ∈ last)
    (hlen : (l ++ e).length ≤ 4096) : delivered (ps ++ last :: src) = l :: delivered src := by
  have hne : ∀ p ∈ ps, (10 : UInt8) ∉ p := by
    intro p hpp h10
    have h1 : (10 : UInt8) ∈ ps.flatten := List.mem_flatten.2 ⟨p, hpp, h10⟩
    have h2 : (ps.flatten ++ last).count 10 = 1 := by
      rw [hp, List.count_append, List.count_eq_zero.2 hl.1]
      rcases he with rfl | rfl <;> rfl
    rw [List.count_append] at h2
    have := List.count_pos_iff.2 h1
    have := List.count_pos_iff.2 hlast
    omega
  have hlen' := congrArg List.length hp
  rw [List.length_append] at hlen'
  have hpos : 0 < last.length := List.length_pos_iff.2 (List.ne_nil_of_mem hlast)
  apply delivered_some
  have hb : bufSize = 4096 := rfl
  rw [readB_pieces ps _ [] (by simp) hne (by simp only [List.nil_append]; omega)]
  refine readB_line src ?_ (by simp only [List.nil_append]; omega) (by simp only [List.nil_append]; omega) ?_
  · simp only [List.nil_append, List.mem_flatten, not_exists, not_and]; exact hne
  · rw [List.nil_append, hp]
    simpa using cutLine_line (rest := []) hl he

/-- C81: at a terminal, where every read delivers one line, all lines are delivered in order. -/
theorem C81_terminal (ls : List Bytes) (h : ∀ l ∈ ls, PlainLine l ∧ l.length < 4096) : delivered (ls.map (· ++ [10])) = ls := by
  induction ls with
  | nil => rfl
  | cons l ls ih =>
    have := C81_line l [10] (l ++ [10]) [] (ls.map (· ++ [10])) (h l (by simp)).1 (.inl rfl) rfl (by simp) (by have := (h l (by simp)).2; simp; omega)
    simp only [List.nil_append] at this
    rw [List.map_cons, this, ih fun l hl => h l (List.mem_cons_of_mem _ hl)]

/-- C81: what has been read together with a line is lost: of a read with several lines (at most 4096 bytes) only the first is delivered. -/
theorem C81_lost (l e lost : Bytes) (src : List Bytes) (hl : PlainLine l) (he : LineEnd e) (hlen : (l ++ e ++ lost).length ≤ 4096) :
    delivered ((l ++ e ++ lost) :: src) = l :: delivered src :=
  delivered_some (readB_line src (by simp) (by simpa [bufSize] using hlen) (by decide) (cutLine_line hl he))

/-- C81: text at the end of the input that has no newline is delivered as it is. -/
theorem C81_last (ps : List Bytes) (h : ∀ p ∈ ps, (10 : UInt8) ∉ p) (hne : ps.flatten ≠ []) (hlen : ps.flatten.length < 4096) : delivered ps = [ps.flatten] := by
  have h1 : readB [] ps = some (ps.flatten, []) := by
    have := readB_pieces ps [] [] (by simp) h (by simpa [bufSize] using hlen)
    simp only [List.append_nil, List.nil_append] at this
    rw [this, readB, cutLine_none (by simpa [List.mem_flatten] using h)]
    dsimp only
    rw [if_neg hne, if_neg (by unfold bufSize; omega)]
  rw [delivered_some h1, delivered_nil]

/-- C81: a longer line is delivered in pieces of 4096 bytes. -/
theorem C81_long (l more : Bytes) (src : List Bytes) (hl : PlainLine l) (hlen : l.length = 4096) (hm : more ≠ []) :
    delivered ((l ++ more) :: src) = l :: delivered (more :: src) := by
  apply delivered_some
  have hpos : 0 < more.length := List.length_pos_iff.2 hm
  rw [readB, cutLine_none (by simp)]
  dsimp only
  rw [if_neg (by decide), if_neg (by simp [bufSize]; omega)]
  have h1 : (l ++ more).take (bufSize - ([] : Bytes).length) = l := by simp [bufSize, ← hlen]
  have h2 : (l ++ more).drop (bufSize - ([] : Bytes).length) = more := by simp [bufSize, ← hlen]
  rw [h1, h2]
  unfold fullLine
  rw [List.nil_append, cutLine_none hl.1]
  simp [dropCR_plain hl.2]

/-- C81: whatever the input does, nothing is invented or moved: the bytes of the lines are among the bytes of the input, in the same order. -/
theorem C81_order (src : List Bytes) : (delivered src).flatten.Sublist src.flatten := by
  unfold delivered
  generalize src.flatten.length + 1 = n
  induction n generalizing src with
  | zero => exact List.nil_sublist _
  | succ n ih =>
    simp only [deliver]
    cases h : readB [] src with
    | none => exact List.nil_sublist _
    | some p =>
      obtain ⟨line, rest⟩ := p
      obtain ⟨taken, h1, h2, -⟩ := readB_taken src [] line rest h
      simp only [List.nil_append] at h1
      rw [h1]
      exact h2.append (ih rest)

/-- C81: no line contains a newline. -/
theorem C81_no_newline (src : List Bytes) : ∀ l ∈ delivered src, (10 : UInt8) ∉ l := by
  have hd : ∀ b : Bytes, (10 : UInt8) ∉ b → (10 : UInt8) ∉ dropCR b := fun b h h' => h ((dropCR_sublist b).mem h')
  have hc : ∀ b l : Bytes, cutLine b = some l → (10 : UInt8) ∉ l := by
    intro b l h
    unfold cutLine at h
    split at h
    · cases h
      refine hd _ fun h => ?_
      have := List.all_takeWhile (p := (· != newline)) (l := b)
      rw [List.all_eq_true] at this
      have := this _ h
      simp [newline] at this
    · cases h
  have hnone : ∀ b : Bytes, cutLine b = none → (10 : UInt8) ∉ b := by
    intro b h
    unfold cutLine at h
    split at h
    · cases h
    · assumption
  have hf : ∀ b : Bytes, (10 : UInt8) ∉ fullLine b := by
    intro b
    unfold fullLine
    cases h : cutLine b with
    | none => exact hd _ (hnone _ h)
    | some l => exact hc _ _ h
  have hr : ∀ (src : List Bytes) (buf line : Bytes) (rest : List Bytes), readB buf src = some (line, rest) → (10 : UInt8) ∉ line := by
    intro src
    induction src with
    | nil =>
      intro buf line rest h
      rw [readB] at h
      cases hcb : cutLine buf with
      | some l => rw [hcb] at h; cases h; exact hc _ _ hcb
      | none =>
        rw [hcb] at h
        dsimp only at h
        split at h
        · cases h
        · split at h
          · cases h; exact hd _ (hnone _ hcb)
          · cases h; exact hnone _ hcb
    | cons c cs ih =>
      intro buf line rest h
      rw [readB] at h
      cases hcb : cutLine buf with
      | some l => rw [hcb] at h; cases h; exact hc _ _ hcb
      | none =>
        rw [hcb] at h
        dsimp only at h
        split at h
        · cases h; exact hd _ (hnone _ hcb)
        · split at h
          · exact ih _ _ _ h
          · cases h; exact hf _
  unfold delivered
  generalize src.flatten.length + 1 = n
  induction n generalizing src with
  | zero => intro l h; cases h
  | succ n ih =>
    simp only [deliver]
    cases h : readB [] src with
    | none => intro l h; cases h
    | some p =>
      obtain ⟨line, rest⟩ := p
      intro l hl
      rcases List.mem_cons.1 hl with rfl | hl
      · exact hr _ _ _ _ h
      · exact ih rest l hl

/-- C81: a program whose whole input comes in one read (of at most 4096 bytes), as from a pipe that was filled at once, behaves as if it had been given the first line only; one
whose input is typed line by line gets all lines. -/
theorem C81_program (W : World) (n : Nat) (core : List Char) (fl : Flags) (decode : Bytes → List Char) :
    (∀ l e lost, PlainLine l → LineEnd e → (l ++ e ++ lost).length ≤ 4096 →
      mainFlags W (perform W) n core fl (startSt decode [l ++ e ++ lost]) = mainFlags W (perform W) n core fl (initSt [decode l])) ∧
    (∀ ls : List Bytes, (∀ l ∈ ls, PlainLine l ∧ l.length < 4096) →
      mainFlags W (perform W) n core fl (startSt decode (ls.map (· ++ [10]))) = mainFlags W (perform W) n core fl (initSt (ls.map decode))) := by
  refine ⟨fun l e lost hl he hlen => ?_, fun ls h => ?_⟩
  · rw [startSt, C81_lost l e lost [] hl he hlen]; rfl
  · rw [startSt, C81_terminal ls h]

/-- Three lines typed one by one, three lines piped at once, and a line in two reads with a last one without an end. -/
example : delivered ["1\n".toUTF8.data.toList, "2\n".toUTF8.data.toList, "3\n".toUTF8.data.toList] = [[49], [50], [51]] ∧
    delivered ["1\n2\n3\n".toUTF8.data.toList] = [[49]] ∧ delivered [[40, 43], [41, 13, 10], [55]] = [[40, 43, 41], [55]] := by decide +kernel

/-! ### Characters -/

theorem encode_small {c : Char} {b : UInt8} (hb : b < 128) : b ∈ String.utf8EncodeChar c ↔ c.val.toNat = b.toNat := by
  have hv : c.val.toNat < 0x110000 := by
    have := c.valid
    simp only [UInt32.isValidChar, Nat.isValidChar] at this
    omega
  have hb' : b.toNat < 128 := by simpa [UInt8.lt_iff_toNat_lt] using hb
  unfold String.utf8EncodeChar
  dsimp only
  split
  · simp only [List.mem_singleton]
    constructor
    · rintro rfl; simp only [UInt8.toNat_ofNat']; omega
    · intro h; rw [h]; simp
  · split
    · simp only [List.mem_cons, List.not_mem_nil, or_false]
      constructor
      · rintro (rfl | rfl) <;> simp only [UInt8.toNat_ofNat'] at hb' <;> omega
      · intro h; omega
    · split
      · simp only [List.mem_cons, List.not_mem_nil, or_false]
        constructor
        · rintro (rfl | rfl | rfl) <;> simp only [UInt8.toNat_ofNat'] at hb' <;> omega
        · intro h; omega
      · simp only [List.mem_cons, List.not_mem_nil, or_false]
        constructor
        · rintro (rfl | rfl | rfl | rfl) <;> simp only [UInt8.toNat_ofNat'] at hb' <;> omega
        · intro h; omega

theorem char_of_toNat {c d : Char} (h : c.val.toNat = d.val.toNat) : c = d := Char.ext (UInt32.toNat_inj.1 h)

theorem newline_bytesOf {l : List Char} (h : '\n' ∉ l) : (10 : UInt8) ∉ bytesOf l := by
  unfold bytesOf
  rw [List.mem_flatMap]
  rintro ⟨c, hc, hb⟩
  rw [encode_small (by decide)] at hb
  exact h ((char_of_toNat (d := '\n') hb) ▸ hc)

theorem getLast_bytesOf {l : List Char} (h : l.getLast? ≠ some '\r') : (bytesOf l).getLast? ≠ some 13 := by
  rcases List.eq_nil_or_concat l with rfl | ⟨m, c, rfl⟩
  · simp [bytesOf]
  · rw [List.concat_eq_append] at h ⊢
    intro h13
    rw [bytesOf, List.flatMap_append, List.getLast?_append] at h13
    simp only [List.flatMap_cons, List.flatMap_nil, List.append_nil] at h13
    have hne : (String.utf8EncodeChar c) ≠ [] := String.utf8EncodeChar_ne_nil
    rw [List.getLast?_eq_some_getLast hne, Option.some_or] at h13
    have hm : (13 : UInt8) ∈ String.utf8EncodeChar c := by
      rw [← Option.some.inj h13]; exact List.getLast_mem hne
    rw [encode_small (by decide)] at hm
    exact h (by rw [char_of_toNat (d := '\r') hm]; simp)

theorem plain_bytesOf {l : List Char} (h : PlainText l) : PlainLine (bytesOf l) := ⟨newline_bytesOf h.1, getLast_bytesOf h.2⟩

/-- C81: text typed line by line, in UTF-8, reaches the program character by character, whatever the characters are; of text that comes in one read the first line does. -/
theorem C81_text (W : World) (n : Nat) (core : List Char) (fl : Flags) (decode : Bytes → List Char) (hd : ReadsUTF8 decode) :
    (∀ ls : List (List Char), (∀ l ∈ ls, PlainText l ∧ (bytesOf l).length < 4096) →
      mainFlags W (perform W) n core fl (startSt decode (ls.map fun l => bytesOf (l ++ ['\n']))) = mainFlags W (perform W) n core fl (initSt ls)) ∧
    (∀ l more : List Char, PlainText l → (bytesOf (l ++ '\n' :: more)).length ≤ 4096 →
      mainFlags W (perform W) n core fl (startSt decode [bytesOf (l ++ '\n' :: more)]) = mainFlags W (perform W) n core fl (initSt [l])) := by
  refine ⟨fun ls h => ?_, fun l more hl hlen => ?_⟩
  · have h2 := (C81_program W n core fl decode).2 (ls.map bytesOf) (by
      intro b hb
      obtain ⟨l, hl, rfl⟩ := List.mem_map.1 hb
      exact ⟨plain_bytesOf (h l hl).1, (h l hl).2⟩)
    rw [List.map_map, List.map_map] at h2
    have e1 : (fun l => bytesOf (l ++ ['\n'])) = (fun x : Bytes => x ++ [10]) ∘ bytesOf := by
      funext l; simp only [bytesOf, List.flatMap_append, Function.comp]; rfl
    have e2 : decode ∘ bytesOf = id := funext hd
    rw [e1, h2, e2, List.map_id]
  · have e1 : bytesOf (l ++ '\n' :: more) = bytesOf l ++ [10] ++ bytesOf more := by
      simp only [bytesOf, List.flatMap_append, List.flatMap_cons, List.append_assoc]; rfl
    have h1 := (C81_program W n core fl decode).1 (bytesOf l) [10] (bytesOf more) (plain_bytesOf hl) (.inl rfl) (by rw [← e1]; exact hlen)
    rw [e1, h1, hd]

/-- Lean's own decoder of UTF-8 reads UTF-8; two lines with characters of one to four bytes. -/
example : ReadsUTF8 (fun b => ((ByteArray.mk b.toArray).utf8Decode?.getD #[]).toList) ∧ PlainText "(λ é)".toList ∧
    bytesOf "aé€😀".toList = [97, 195, 169, 226, 130, 172, 240, 159, 152, 128] := by
  refine ⟨fun text => ?_, ⟨by decide, by decide⟩, by decide⟩
  have : ByteArray.mk (bytesOf text).toArray = text.utf8Encode := by
    rw [List.utf8Encode, bytesOf]; simp [ByteArray.ext_iff]
  simp only [this, List.utf8Decode?_utf8Encode]; rfl

end L1
