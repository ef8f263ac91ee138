import Verif.Lemmas.Eliza
/-
`pat-match` of examples/eliza.l1.
-/
set_option autoImplicit false
namespace L1

variable {W : World}

/-- A sentence a pattern can be compared with: data, without elements that look like a piece `(?* v)`; if the pattern ends with a word, without lists. -/
structure Fit (ps : List Piece) (xs : List Val) : Prop where
  data : ∀ x ∈ xs, IsData x
  word : ∀ x ∈ xs, ∀ v, x ≠ Piece.val (.many v)
  plain : EndsOpen ps ∨ ∀ x ∈ xs, x.isList = false

theorem Fit.sub {ps qs : List Piece} {xs ys : List Val} (h : Fit ps xs) (hs : ∀ y ∈ ys, y ∈ xs) (hq : EndsOpen ps → EndsOpen qs) : Fit qs ys :=
  ⟨fun y hy => h.data y (hs y hy), fun y hy => h.word y (hs y hy), h.plain.imp hq fun h y hy => h y (hs y hy)⟩

theorem EndsOpen.tail {p q : Piece} {ps : List Piece} (h : EndsOpen (p :: q :: ps)) : EndsOpen (q :: ps) := by
  obtain ⟨qs, v, h⟩ := h
  cases qs with
  | nil => cases h
  | cons r qs =>
    simp only [List.cons_append, List.cons.injEq] at h
    exact ⟨qs, v, h.2⟩

theorem EndsOpen.word {a : String} {ps : List Piece} (h : EndsOpen (.word a :: ps)) : EndsOpen ps := by
  cases ps with
  | nil =>
    obtain ⟨qs, v, h⟩ := h
    cases qs with
    | nil => cases h
    | cons r qs => cases qs <;> simp at h
  | cons => exact h.tail

theorem isData_vlist {xs : List Val} (h : ∀ x ∈ xs, IsData x) : IsData (vlist xs) := by
  induction xs with
  | nil => exact .nil
  | cons x xs ih => exact .cons (h x (by simp)) (ih fun y hy => h y (by simp [hy]))

theorem isData_piece (p : Piece) : IsData p.val := by
  cases p with
  | word a => exact .atom a
  | many v => exact .cons (.atom _) (.cons (.atom _) .nil)

theorem equal_pat (ps : List Piece) (x : Val) : (patVal ps).equal x = decide (patVal ps = x) := by
  rw [Bool.eq_iff_iff, equal_iff, decide_eq_true_eq]
  refine ⟨fun h => h.1, fun h => ⟨h, isData_vlist fun y hy => ?_⟩⟩
  obtain ⟨p, _, rfl⟩ := List.mem_map.1 hy
  exact isData_piece p

/-- A pattern of words and the same words. -/
theorem fits_same {ps : List Piece} {xs : List Val} (h : patVal ps = vlist xs) (hx : ∀ x ∈ xs, ∀ v, x ≠ Piece.val (.many v)) (b : Named) : fits ps xs b = [b] := by
  have h1 := vlist_inj h
  clear h
  subst h1
  induction ps with
  | nil => rfl
  | cons p ps ih =>
    cases p with
    | word a =>
      rw [List.map_cons, fits]
      exact (if_pos rfl).trans (ih fun x hm => hx x (by simp [hm]))
    | many v => exact absurd rfl (hx _ (by simp) v)

theorem fitVal_append (l m : List Named) : fitVal (l ++ m) = if fitVal l = .nil then fitVal m else fitVal l := by
  cases l with
  | nil => simp [fitVal, Named.result]
  | cons b l => simp [fitVal, Named.result, Named.val_ne]

theorem fitVal_nil {l : List Named} (h : fitVal l = .nil) : l = [] := by
  cases l with
  | nil => rfl
  | cons b l => exact absurd h (Named.val_ne b)

/-! ### The places where a piece `(?* v)` can end -/

/-- The ways to fit when the piece stands for `n` words. -/
def fitsAt (v : String) (ps : List Piece) (xs : List Val) (b : Named) (n : Nat) : List Named :=
  match b.add v (xs.take n) with
  | none => []
  | some b' => fits ps (xs.drop n) b'

/-- ... for `n` words or more. -/
def fitsFrom (v : String) (ps : List Piece) (xs : List Val) (b : Named) (n : Nat) : List Named :=
  (List.range' n (xs.length + 1 - n)).flatMap (fitsAt v ps xs b)

theorem fits_many (v : String) (ps : List Piece) (xs : List Val) (b : Named) : fits (.many v :: ps) xs b = fitsFrom v ps xs b 0 := by
  rw [fits, fitsFrom, List.range_eq_range']
  rfl

theorem fitsFrom_step {v : String} {ps : List Piece} {xs : List Val} {b : Named} {n : Nat} (h : n ≤ xs.length) :
    fitsFrom v ps xs b n = fitsAt v ps xs b n ++ fitsFrom v ps xs b (n + 1) := by
  rw [fitsFrom, show xs.length + 1 - n = (xs.length + 1 - (n + 1)) + 1 by omega, List.range'_succ, List.flatMap_cons]
  rfl

theorem fitsFrom_end {v : String} {ps : List Piece} {xs : List Val} {b : Named} {n : Nat} (h : xs.length < n) : fitsFrom v ps xs b n = [] := by
  rw [fitsFrom, show xs.length + 1 - n = 0 by omega]; rfl

theorem fitsFrom_skip {v : String} {ps : List Piece} {xs : List Val} {b : Named} {n k : Nat} (h : n + k ≤ xs.length + 1) (hk : ∀ j < k, fitsAt v ps xs b (n + j) = []) :
    fitsFrom v ps xs b n = fitsFrom v ps xs b (n + k) := by
  induction k generalizing n with
  | zero => rfl
  | succ k ih =>
    rw [fitsFrom_step (by omega), show fitsAt v ps xs b n = [] from hk 0 (by omega), List.nil_append, ih (n := n + 1) (by omega) fun j hj => by
      rw [show n + 1 + j = n + (j + 1) by omega]; exact hk _ (by omega)]
    congr 1; omega

theorem fitsAt_word {v a : String} {ps : List Piece} {xs : List Val} {b : Named} {n : Nat} (h : (xs.drop n).head? ≠ some (.atom a)) : fitsAt v (.word a :: ps) xs b n = [] := by
  unfold fitsAt
  cases b.add v (xs.take n) with
  | none => rfl
  | some b' =>
    show fits (.word a :: ps) (xs.drop n) b' = []
    revert h
    cases xs.drop n with
    | nil => intro _; rfl
    | cons x ys =>
      intro h
      rw [fits, if_neg (by simpa using h)]

theorem place_none {a : String} {xs : List Val} (h : place a xs = none) (j : Nat) : (xs.drop j).head? ≠ some (.atom a) := by
  induction xs generalizing j with
  | nil => simp
  | cons x xs ih =>
    rw [place] at h
    split at h
    · cases h
    · next hx =>
      cases j with
      | zero => simpa using hx
      | succ j => exact ih (by simpa using h) j

theorem place_some {a : String} {xs : List Val} {p : Nat} (h : place a xs = some p) : p < xs.length ∧ ∀ j < p, (xs.drop j).head? ≠ some (.atom a) := by
  induction xs generalizing p with
  | nil => cases h
  | cons x xs ih =>
    rw [place] at h
    split at h
    · cases h; exact ⟨by simp, fun j hj => absurd hj (by omega)⟩
    · next hx =>
      obtain ⟨q, hq, rfl⟩ := Option.map_eq_some_iff.1 h
      obtain ⟨h1, h2⟩ := ih hq
      refine ⟨by simp; omega, fun j hj => ?_⟩
      cases j with
      | zero => simpa using hx
      | succ j => exact h2 j (by omega)

/-! ### The functions -/

theorem G.listP_yes {s : St} {e : Nat} {L : List (String × Val)} {x v : Val} (hs : Sc s.heap e L) (hx : alGet "list?" L = none) (h : G W s e x v) (hv : v.isList = true) :
    G W s e (vlist [.atom "list?", x]) (.atom "t") := by
  have := G.listP hs hx h
  rwa [hv] at this

theorem G.eq_yes {s : St} {e : Nat} {L : List (String × Val)} {x y v w : Val} (hs : Sc s.heap e L) (hx : alGet "=" L = none) (h1 : G W s e x v) (h2 : G W s e y w) (hv : v.equal w = true) :
    G W s e (vlist [.atom "=", x, y]) (.atom "t") := by
  have := G.eq hs hx h1 h2
  rwa [hv] at this

theorem G.eq_no {s : St} {e : Nat} {L : List (String × Val)} {x y v w : Val} (hs : Sc s.heap e L) (hx : alGet "=" L = none) (h1 : G W s e x v) (h2 : G W s e y w) (hv : v.equal w = false) :
    G W s e (vlist [.atom "=", x, y]) .nil := by
  have := G.eq hs hx h1 h2
  rwa [hv] at this

/-- Whether a pattern begins with `(?* v)`. -/
def isMany : List Piece → Bool
  | .many _ :: _ => true
  | _ => false

theorem el_segment_pattern {s : St} (hp : ElAt s.heap) (ps : List Piece) : Returns W s z_segment_patternP [patVal ps] (if isMany ps then .atom "t" else .nil) := by
  refine .lam rfl (by decide) hp.prog.sc fun s1 e1 hq hs => .and_ (xs := [_, _, _]) hs rfl (.cons (w := .atom "t") ?_ (by simp) ?_)
  · exact G.listP_yes (W := W) (x := .atom "pattern") hs rfl (.v hs rfl rfl) (by cases ps <;> rfl)
  · match ps, hs with
    | [], hs =>
      refine .cons (w := .atom "t") (.listP_yes (v := .nil) hs rfl (.car_nil hs rfl (.v (a := "pattern") hs rfl rfl)) rfl) (by simp) (.stop ?_)
      exact .eq_no (v := .nil) (w := .atom "?*") hs rfl (.car_nil hs rfl (.car_nil hs rfl (.v (a := "pattern") hs rfl rfl))) (.quote hs rfl known_quote) rfl
    | .word a :: ps, hs =>
      exact .stop (.listP_no (v := .atom a) hs rfl (.car (v := .atom a) hs rfl (.v (a := "pattern") hs rfl rfl)) rfl)
    | .many v :: ps, hs =>
      refine .cons (w := .atom "t") (.listP_yes (v := Piece.val (.many v)) hs rfl (.car (v := Piece.val (.many v)) hs rfl (.v (a := "pattern") hs rfl rfl)) rfl) (by simp) (.cons (w := .atom "t") ?_ (by simp) .nil)
      exact .eq_yes (v := .atom "?*") (w := .atom "?*") hs rfl (.car (v := .atom "?*") hs rfl (.car (v := Piece.val (.many v)) hs rfl (.v (a := "pattern") hs rfl rfl))) (.quote hs rfl known_quote) rfl

theorem el_segment_pattern_no {s : St} (hp : ElAt s.heap) {x : Val} (hx : x.isList = false) : Returns W s z_segment_patternP [x] .nil :=
  .lam rfl (by decide) hp.prog.sc fun s1 e1 hq hs => .and_ (xs := [_, _, _]) hs rfl (.stop (.listP_no hs rfl (.v hs rfl rfl) hx))

/-- When a comparison has failed already. -/
theorem el_pat_fail {s : St} (hp : ElAt s.heap) (p x : Val) : Returns W s z_pat_match [p, x, .nil] .nil :=
  .lam rfl (by decide) hp.prog.sc fun s1 e1 hq hs => .cond_ hs rfl (.hit (w := .atom "t") (.eq_yes (v := .nil) (w := .nil) hs rfl (.v (a := "bindings") hs rfl rfl) (.v (a := "fail") hs rfl rfl) rfl) (by simp) (.v (a := "fail") hs rfl rfl))

theorem val_not_nil (b : Named) : b.val.equal .nil = false := by
  rw [Bool.eq_false_iff, Ne, equal_iff]; exact fun h => b.val_ne h.1

/-- A word and anything. -/
theorem el_pat_word {s : St} (hp : ElAt s.heap) (a : String) (x : Val) (b : Named) : Returns W s z_pat_match [.atom a, x, b.val] (if x = .atom a then b.val else .nil) := by
  refine .lam rfl (by decide) hp.prog.sc fun s1 e1 hq hs => .cond_ hs rfl ?_
  have h1 := G.eq (W := W) (x := .atom "bindings") (y := .atom "fail") hs rfl (.v hs rfl rfl) (.v hs rfl rfl)
  rw [val_not_nil] at h1
  refine .skip h1 ?_
  have h2 := G.eq (W := W) (x := .atom "pattern") (y := .atom "input") hs rfl (.v hs rfl rfl) (.v hs rfl rfl)
  rw [equal_atom] at h2
  by_cases h : x = .atom a
  · rw [if_pos h]
    exact .hit (w := .atom "t") (by simpa [h, vBool, vTrue] using h2) (by simp) (.v hs rfl rfl)
  · rw [if_neg h]
    refine .skip (by simpa [h, vBool, vTrue] using h2) (.skip (.user (xs := [_]) hs rfl rfl (.one (.v hs rfl rfl)) (el_segment_pattern_no (hp.mono hq.heap) (x := .atom a) rfl)) (.skip ?_ (.hit (.t _ _) (by decide) (.v hs rfl rfl))))
    exact .and_ (xs := [_, _]) hs rfl (.stop (.listP_no hs rfl (.v hs rfl rfl) rfl))

/-- The empty pattern and something that is not a list. -/
theorem el_pat_nil {s : St} (hp : ElAt s.heap) {x : Val} (hx : x.isList = false) (b : Named) : Returns W s z_pat_match [.nil, x, b.val] .nil := by
  refine .lam rfl (by decide) hp.prog.sc fun s1 e1 hq hs => .cond_ hs rfl ?_
  have h1 := G.eq (W := W) (x := .atom "bindings") (y := .atom "fail") hs rfl (.v hs rfl rfl) (.v hs rfl rfl)
  rw [val_not_nil] at h1
  refine .skip h1 ?_
  have h2 := G.eq (W := W) (x := .atom "pattern") (y := .atom "input") hs rfl (.v hs rfl rfl) (.v hs rfl rfl)
  rw [show Val.equal .nil x = false by cases x <;> first | rfl | cases hx] at h2
  refine .skip h2 (.skip (.user (xs := [_]) hs rfl rfl (.one (.v hs rfl rfl)) (el_segment_pattern (hp.mono hq.heap) [])) (.skip ?_ (.hit (.t _ _) (by decide) (.v hs rfl rfl))))
  exact .and_ (xs := [_, _]) hs rfl (.cons (w := .atom "t") (.listP_yes (v := .nil) hs rfl (.v hs rfl rfl) rfl) (by simp) (.stop (.listP_no hs rfl (.v hs rfl rfl) hx)))

/-- What `pat-match` returns for a pattern. -/
def Matches (W : World) (ps : List Piece) : Prop := ∀ (xs : List Val) (b : Named) {s : St}, ElAt s.heap → Fit ps xs → Returns W s z_pat_match [patVal ps, vlist xs, b.val] (fitVal (fits ps xs b))

/-- ... also when the comparison may have failed already. -/
theorem Matches.result {ps : List Piece} (h : Matches W ps) (xs : List Val) (o : Option Named) {s : St} (hp : ElAt s.heap) (hf : Fit ps xs) :
    Returns W s z_pat_match [patVal ps, vlist xs, Named.result o] (fitVal (match o with | none => [] | some b => fits ps xs b)) := by
  cases o with
  | none => exact el_pat_fail hp _ _
  | some b => exact h xs b hp hf

/-- The expression `pat-match` continues with. -/
def nextForm (m : Bool) : Val :=
  if m then vlist [.atom "segment-match", .atom "pattern", .atom "input", .atom "bindings", .num 0]
  else vlist [.atom "pat-match", vlist [.atom "cdr", .atom "pattern"], vlist [.atom "cdr", .atom "input"],
    vlist [.atom "pat-match", vlist [.atom "car", .atom "pattern"], vlist [.atom "car", .atom "input"], .atom "bindings"]]

/-- The cases of `pat-match` up to the test for a segment. -/
theorem el_pat_match {s : St} (hp : ElAt s.heap) {ps : List Piece} {xs : List Val} {b : Named} {v : Val} (hv : patVal ps = vlist xs → v = b.val)
    (h : patVal ps ≠ vlist xs → ∀ s1 e1, Quiet s s1 → Sc s1.heap e1 (paramSyms ["pattern", "input", "bindings"] "" [patVal ps, vlist xs, b.val] ++ elizaDefs) →
      G W s1 e1 (nextForm (isMany ps)) v) :
    Returns W s z_pat_match [patVal ps, vlist xs, b.val] v := by
  refine .lam rfl (by decide) hp.prog.sc fun s1 e1 hq hs => .cond_ hs rfl ?_
  have h1 := G.eq (W := W) (x := .atom "bindings") (y := .atom "fail") hs rfl (.v hs rfl rfl) (.v hs rfl rfl)
  rw [val_not_nil] at h1
  refine .skip h1 ?_
  have h2 := G.eq (W := W) (x := .atom "pattern") (y := .atom "input") hs rfl (.v hs rfl rfl) (.v hs rfl rfl)
  rw [equal_pat] at h2
  by_cases hpx : patVal ps = vlist xs
  · rw [hv hpx]
    exact .hit (w := .atom "t") (by simpa [hpx, vBool, vTrue] using h2) (by simp) (.v hs rfl rfl)
  · refine .skip (by simpa [hpx, vBool, vTrue] using h2) ?_
    have h3 := h hpx s1 e1 hq hs
    have h4 := el_segment_pattern (W := W) (hp.mono hq.heap) ps
    have h5 : G W s1 e1 (vlist [.atom "and", vlist [.atom "list?", .atom "pattern"], vlist [.atom "list?", .atom "input"]]) (.atom "t") := by
      refine .and_ (xs := [_, _]) hs rfl (.cons (w := .atom "t") ?_ (by simp) (.cons (w := .atom "t") ?_ (by simp) .nil))
      · exact G.listP_yes (W := W) (x := .atom "pattern") hs rfl (.v hs rfl rfl) (by cases ps <;> rfl)
      · exact G.listP_yes (W := W) (x := .atom "input") hs rfl (.v hs rfl rfl) (by cases xs <;> rfl)
    cases hm : isMany ps with
    | false =>
      rw [hm] at h3 h4
      exact .skip (.user (xs := [_]) hs rfl rfl (.one (.v hs rfl rfl)) h4) (.hit h5 (by simp) h3)
    | true =>
      rw [hm] at h3 h4
      exact .hit (.user (xs := [_]) hs rfl rfl (.one (.v hs rfl rfl)) h4) (by simp) h3

theorem matches_nil : Matches W [] := by
  intro xs b s hp hf
  refine el_pat_match hp (fun h => by rw [fits_same h hf.word]; rfl) fun h s1 e1 hq hs => ?_
  cases xs with
  | nil => exact absurd rfl h
  | cons x xs =>
    have hx : x.isList = false := by
      rcases hf.plain with ⟨qs, v, h⟩ | h
      · cases qs <;> cases h
      · exact h x (by simp)
    have hp1 := hp.mono hq.heap
    exact .user (xs := [_, _, _]) hs rfl rfl (.three (.cdr_nil hs rfl (.v hs rfl rfl)) (.cdr hs rfl (.v hs rfl rfl))
      (.user (xs := [_, _, _]) hs rfl rfl (.three (.car_nil hs rfl (.v hs rfl rfl)) (.car hs rfl (.v hs rfl rfl)) (.v hs rfl rfl)) (el_pat_nil hp1 hx b))) (el_pat_fail hp1 _ _)

theorem matches_word {a : String} {ps : List Piece} (ih : Matches W ps) : Matches W (.word a :: ps) := by
  intro xs b s hp hf
  refine el_pat_match hp (fun h => by rw [fits_same h hf.word]; rfl) fun h s1 e1 hq hs => ?_
  have hp1 := hp.mono hq.heap
  have hc : G W s1 e1 (vlist [.atom "car", .atom "pattern"]) (.atom a) := .car hs rfl (.v hs rfl rfl)
  have hd : G W s1 e1 (vlist [.atom "cdr", .atom "pattern"]) (patVal ps) := .cdr hs rfl (.v hs rfl rfl)
  have hi := G.car' (W := W) (x := .atom "input") hs rfl (.v hs rfl rfl)
  have hj := G.cdr' (W := W) (x := .atom "input") hs rfl (.v hs rfl rfl)
  have h6 := G.user (W := W) (a := "pat-match") (xs := [_, _, .atom "bindings"]) hs rfl rfl (.three hc hi (.v hs rfl rfl)) (el_pat_word hp1 a _ b)
  refine .user (xs := [_, _, _]) hs rfl rfl (.three hd hj h6) ?_
  cases xs with
  | nil =>
    rw [if_neg (by simp)]
    exact el_pat_fail hp1 _ _
  | cons x xs =>
    rw [fits]
    by_cases hx : x = .atom a
    · rw [if_pos hx, if_pos (by simpa using hx)]
      exact ih xs b hp1 (hf.sub (fun y hy => by simp [hy]) EndsOpen.word)
    · rw [if_neg hx, if_neg (by simpa using hx)]
      exact el_pat_fail hp1 _ _

/-- The scope of the body of `segment-match`. -/
theorem el_segment_match {s : St} (hp : ElAt s.heap) {v : String} {ps : List Piece} {xs : List Val} {b : Named} {n : Nat} {w : Val} {body : Val}
    (h : ∀ s1 e1, Quiet s s1 → Sc s1.heap e1 ([("pat", patVal ps), ("var", .atom v)].reverse ++ (paramSyms ["pattern", "input", "bindings", "start"] "" [patVal (.many v :: ps), vlist xs, b.val, .num n] ++ elizaDefs)) →
      G W s1 e1 body w) :
    ∀ doc, Returns W s (.lam ["pattern", "input", "bindings", "start"] "" (vlist [vlist [.atom "let", vlist [vlist [.atom "var", vlist [.atom "cadr", vlist [.atom "car", .atom "pattern"]]],
      vlist [.atom "pat", vlist [.atom "cdr", .atom "pattern"]]], body]]) doc false 0) [patVal (.many v :: ps), vlist xs, b.val, .num n] w := by
  intro doc
  refine .lamN rfl (by decide) hp.prog fun s1 e1 hq hs hl => ?_
  have hp1 := hp.mono hq.heap
  have hc : G W s1 e1 (vlist [.atom "cadr", vlist [.atom "car", .atom "pattern"]]) (.atom v) :=
    .cxr (p := ['a', 'd']) (v := Piece.val (.many v)) hs hp1.prog.core.base rfl rfl (by decide) (by decide) (by decide)
      (fun s' hh ps r b dc env he => by
        rw [hl s' _ hh rfl] at he
        have hb : lookup s.heap 0 (String.ofList (['c', 'a', 'd'] ++ ['r'])) = some z_cadr := hp.prog.binds "cadr" z_cadr rfl
        rw [hb] at he
        cases he) (.car hs rfl (.v hs rfl rfl)) rfl
  exact .let1 hs rfl known_let (.cons (by decide) hc (.cons (by decide) (.cdr (w := patVal ps) hs rfl (.v hs rfl rfl)) .nil)) fun s2 e2 hq2 hs2 => h s2 e2 (hq.trans hq2) hs2

theorem matches_last {v : String} (hv : v ≠ "t") : Matches W [.many v] := by
  intro xs b s hp hf
  refine el_pat_match hp (fun h => by rw [fits_same h hf.word]; rfl) fun h s1 e1 hq hs => ?_
  have hp1 := hp.mono hq.heap
  refine .user (xs := [_, _, _, _]) hs rfl rfl (.cons (.v hs rfl rfl) (.three (.v hs rfl rfl) (.v hs rfl rfl) (.num _ _ 0))) (el_segment_match (ps := []) (n := 0) hp1 (fun s2 e2 hq2 hs2 => ?_) _)
  refine .ifT hs2 (plain_of rfl) (.not_nil hs2 rfl (.v hs2 rfl rfl)) (by decide) ?_
  have : fitVal (fits [.many v] xs b) = Named.result (b.add v xs) := by
    rw [fits_many, fitsFrom_skip (k := xs.length) (by omega) fun j hj => ?_, fitsFrom_step (by omega), fitsFrom_end (by omega), List.append_nil]
    · unfold fitsAt
      rw [Nat.zero_add, List.take_length, List.drop_length]
      cases b.add v xs <;> rfl
    · unfold fitsAt
      rw [Nat.zero_add]
      cases b.add v (xs.take j) with
      | none => rfl
      | some b' =>
        show fits [] (xs.drop j) b' = []
        cases hd : xs.drop j with
        | nil => rw [List.drop_eq_nil_iff] at hd; omega
        | cons => rfl
  rw [this]
  exact .user (xs := [_, _, _]) hs2 rfl rfl (.three (.v hs2 rfl rfl) (.v hs2 rfl rfl) (.v hs2 rfl rfl)) (el_match_variable (hp1.mono hq2.heap) hv (isData_vlist hf.data) b)

theorem segment_from {v a : String} {ps : List Piece} (hv : v ≠ "t") (ih : Matches W (.word a :: ps)) {xs : List Val} (b : Named) (hf : Fit (.many v :: .word a :: ps) xs) (k : Nat) :
    ∀ (n : Nat) {s : St}, ElAt s.heap → xs.length + 1 ≤ n + k → Returns W s z_segment_match [patVal (.many v :: .word a :: ps), vlist xs, b.val, .num n] (fitVal (fitsFrom v (.word a :: ps) xs b n)) := by
  induction k with
  | zero =>
    intro n s hp hn
    refine el_segment_match (ps := .word a :: ps) hp (fun s2 e2 hq2 hs2 => ?_) _
    have hp2 := hp.mono hq2.heap
    refine .ifF hs2 (plain_of rfl) (.not_cons hs2 rfl (.v hs2 rfl rfl) (by simp [patVal])) ?_
    have hpos := el_position (W := W) hp2 a xs n
    rw [List.drop_eq_nil_of_le (by omega)] at hpos
    refine .let1 hs2 rfl known_let (.cons (by decide) (.user (xs := [_, _, _]) hs2 rfl rfl (.three (.car (v := .atom a) hs2 rfl (.v hs2 rfl rfl)) (.v hs2 rfl rfl) (.v hs2 rfl rfl)) hpos) .nil) fun s3 e3 hq3 hs3 => ?_
    rw [fitsFrom_end (by omega)]
    exact .cond_ hs3 rfl (.hit (.not_nil hs3 rfl (.v hs3 rfl rfl)) (by decide) (.v hs3 rfl rfl))
  | succ k ihk =>
    intro n s hp hn
    refine el_segment_match (ps := .word a :: ps) hp (fun s2 e2 hq2 hs2 => ?_) _
    have hp2 := hp.mono hq2.heap
    refine .ifF hs2 (plain_of rfl) (.not_cons hs2 rfl (.v hs2 rfl rfl) (by simp [patVal])) ?_
    refine .let1 hs2 rfl known_let (.cons (by decide) (.user (xs := [_, _, _]) hs2 rfl rfl (.three (.car (v := .atom a) hs2 rfl (.v hs2 rfl rfl)) (.v hs2 rfl rfl) (.v hs2 rfl rfl)) (el_position hp2 a xs n)) .nil) fun s3 e3 hq3 hs3 => ?_
    have hp3 := hp2.mono hq3.heap
    cases hpl : place a (xs.drop n) with
    | none =>
      rw [hpl] at hs3
      have hnil : fitsFrom v (.word a :: ps) xs b n = [] := by
        by_cases h : n ≤ xs.length
        · rw [fitsFrom_skip (k := xs.length + 1 - n) (by omega) fun j _ => fitsAt_word (by rw [← List.drop_drop]; exact place_none hpl j), fitsFrom_end (by omega)]
        · exact fitsFrom_end (by omega)
      rw [hnil]
      exact .cond_ hs3 rfl (.hit (.not_nil hs3 rfl (.v hs3 rfl rfl)) (by decide) (.v hs3 rfl rfl))
    | some p =>
      rw [hpl] at hs3
      obtain ⟨h1, h2⟩ := place_some hpl
      rw [List.length_drop] at h1
      rw [fitsFrom_skip (k := p) (by omega) fun j hj => fitsAt_word (by rw [← List.drop_drop]; exact h2 j hj), fitsFrom_step (by omega), fitVal_append]
      refine .cond_ hs3 rfl (.skip (.not_cons hs3 rfl (.v hs3 rfl rfl) (by simp [optNum])) (.hit (.t _ _) (by decide) ?_))
      have hq1 : G W s3 e3 (.atom "pos") (.num ((n + p : Nat) : Int)) := .v hs3 rfl rfl
      have hsub : G W s3 e3 (vlist [.atom "subseq", .atom "input", .atom "pos", .nil]) (vlist (xs.drop (n + p))) :=
        .user (xs := [_, _, _]) hs3 rfl rfl (.three (.v hs3 rfl rfl) hq1 (.nil _ _)) (el_subseq_from hp3 xs (n + p))
      have hto : G W s3 e3 (vlist [.atom "subseq", .atom "input", .num 0, .atom "pos"]) (vlist (xs.take (n + p))) :=
        .user (xs := [_, _, _]) hs3 rfl rfl (.three (.v hs3 rfl rfl) (.num _ _ _) hq1) (el_subseq_to hp3 xs (n + p))
      have hmv := G.user (W := W) (a := "match-variable") (xs := [.atom "var", _, .atom "bindings"]) hs3 rfl rfl (.three (.v hs3 rfl rfl) hto (.v hs3 rfl rfl))
        (el_match_variable hp3 hv (isData_vlist fun x hx => hf.data x (List.mem_of_mem_take hx)) b)
      have hmt := G.user (W := W) (a := "pat-match") (xs := [.atom "pat", _, _]) hs3 rfl rfl (.three (.v (v := patVal (.word a :: ps)) hs3 rfl rfl) hsub hmv)
        (ih.result (xs.drop (n + p)) (b.add v (xs.take (n + p))) hp3 (hf.sub (fun y hy => List.mem_of_mem_drop hy) EndsOpen.tail))
      refine .let1 hs3 rfl known_let (.cons (by decide) hmt .nil) fun s4 e4 hq4 hs4 => ?_
      have he := G.eq (W := W) (x := .atom "b2") (y := .atom "fail") hs4 rfl (.v hs4 rfl rfl) (.v hs4 rfl rfl)
      have hfa : (match b.add v (xs.take (n + p)) with | none => [] | some b => fits (.word a :: ps) (xs.drop (n + p)) b) = fitsAt v (.word a :: ps) xs b (n + p) := rfl
      rw [hfa] at hs4 he
      by_cases hb : fitVal (fitsAt v (.word a :: ps) xs b (n + p)) = .nil
      · rw [if_pos hb]
        rw [hb] at he
        refine .ifT hs4 (plain_of rfl) he (by decide) ?_
        have ha := G.add (W := W) (x := .atom "pos") (y := .num 1) (m := ((n + p : Nat) : Int)) (n := 1) hs4 rfl (.v hs4 rfl rfl) (.num _ _ _)
        rw [show ((n + p : Nat) : Int) + 1 = ((n + p + 1 : Nat) : Int) by omega] at ha
        exact .user (xs := [_, _, _, _]) hs4 rfl rfl (.cons (.v hs4 rfl rfl) (.three (.v hs4 rfl rfl) (.v hs4 rfl rfl) ha)) (ihk (n + p + 1) (hp3.mono hq4.heap) (by omega))
      · rw [if_neg hb]
        rw [show Val.equal (fitVal (fitsAt v (.word a :: ps) xs b (n + p))) .nil = false by
          rw [Bool.eq_false_iff, Ne, equal_iff]; exact fun h => hb h.1] at he
        exact .ifF hs4 (plain_of rfl) he (.v hs4 rfl rfl)

theorem matches_many {v a : String} {ps : List Piece} (hv : v ≠ "t") (ih : Matches W (.word a :: ps)) : Matches W (.many v :: .word a :: ps) := by
  intro xs b s hp hf
  refine el_pat_match hp (fun h => by rw [fits_same h hf.word]; rfl) fun h s1 e1 hq hs => ?_
  rw [fits_many]
  exact .user (xs := [_, _, _, _]) hs rfl rfl (.cons (.v hs rfl rfl) (.three (.v hs rfl rfl) (.v hs rfl rfl) (.num _ _ 0))) (segment_from hv ih b hf (xs.length + 1) 0 (hp.mono hq.heap) (by omega))

theorem matches_all : ∀ ps : List Piece, Separate ps → Matches W ps
  | [], _ => matches_nil
  | .word _ :: ps, h => matches_word (matches_all ps h)
  | [.many _], h => matches_last h
  | .many _ :: .many _ :: _, h => h.elim
  | .many _ :: .word _ :: ps, h => matches_many h.1 (matches_word (matches_all ps h.2))

end L1
