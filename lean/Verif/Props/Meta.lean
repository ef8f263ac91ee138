import Verif.Lemmas.MetaReport
/-
C89: examples/meta.l1.
-/
set_option autoImplicit false
namespace L1

variable {W : World}

set_option maxRecDepth 100000 in
/-- The lines of examples/meta.l1. -/
noncomputable def metaChars : List (List Char) := chars_of metaLines

set_option maxRecDepth 100000 in
theorem metaLines_chars : metaLines.map String.toList = metaChars := by
  have : metaLines = metaChars.map String.ofList := by
    unfold metaLines metaChars
    exact rfl
  rw [this, List.map_map]
  have : (String.toList ∘ String.ofList) = id := by funext c; simp
  rw [this, List.map_id]

set_option maxRecDepth 100000 in
theorem metaChars_ok : metaChars.all (fun s => s.all fun c => !(Nat.beq c.toNat 10)) = true := by decide +kernel

set_option maxRecDepth 100000 in
theorem metaChars_read : lexAndParse metaChars = .ok metaForms := by decide +kernel

theorem read_meta : readText metaText = .ok metaForms := by
  unfold readText metaText
  rw [metaLines_chars, splitOnChar_joinNl _ (by decide +kernel) fun l hl hm => ?_]
  · exact metaChars_read
  · have := List.all_eq_true.1 (List.all_eq_true.1 metaChars_ok l hl) _ hm
    revert this; decide

theorem me_defs : SenSteps W [("COLON", .atom ":"), ("TAB", .atom "\t")] (metaForms.take 5) metaDefs :=
  .cons (sen_defn (f := m_member) rfl rfl (by decide) (by decide +kernel) (by decide) (by decide))
  (.cons (sen_defn (f := m_assoc) rfl rfl (by decide) (by decide +kernel) (by decide) (by decide))
  (.cons (sen_defn (f := m_increment_key) rfl rfl (by decide) (by decide +kernel) (by decide) (by decide))
  (.cons (sen_defn (f := m_clear_dup_keys) rfl rfl (by decide) (by decide +kernel) (by decide) (by decide))
  (.cons (sen_defn (f := m_frequencies) rfl rfl (by decide) (by decide +kernel) (by decide) (by decide)) .nil))))

/-- C89: the forms of examples/meta.l1 before the last one define its functions and do nothing else; the last one is the report on `(forms)`. -/
theorem C89_definitions (s : St) (hc : CoreAt s.heap 0) (h1 : lookup s.heap 0 "caar" = none) (h2 : lookup s.heap 0 "cddr" = none)
    (h3 : lookup s.heap 0 "COLON" = some (.atom ":")) (h4 : lookup s.heap 0 "TAB" = some (.atom "\t")) :
    ∃ defs, readText metaText = .ok (defs ++ [reportForm (form "forms" [])]) ∧ ∃ vs s', EvalsTo W 0 defs s vs s' ∧ MetaAt s'.heap ∧ Wrote s s' [] := by
  obtain ⟨vs, s', h5, h6, h7⟩ := me_defs.evals (W := W) s ⟨⟨hc, fun x v h => by
    simp only [alGet] at h
    split at h
    · next hx => subst hx; cases h; exact h3
    · split at h
      · next hx => subst hx; cases h; exact h4
      · cases h⟩, h1, h2⟩
  exact ⟨metaForms.take 5, read_meta.trans rfl, vs, s', h5, ⟨h6.prog, h6.caar⟩, h7⟩

/-- The state after loading the library meets the hypotheses. -/
theorem meta_state (W : World) : ∃ s : St, MetaAt s.heap := by
  obtain ⟨_, _, _, s', _, h, _⟩ := C89_definitions (W := W) (topSt (initSt []) coreEnv) (coreAt_loaded _) (by decide +kernel) (by decide +kernel)
    (by decide +kernel) (by decide +kernel)
  exact ⟨s', h⟩

theorem call_me {s0 s : St} (hs : MetaAt s.heap) {a : String} {f : Val} {e : Nat} {args vs : List Val} (hf : alGet a metaDefs = some f) (hok : (f.notMacro && (specialOf a).isNone && !isCxr a && (a != "t")) = true)
    (hl : lookup s0.heap e a = lookup s.heap 0 a) (ha : EvalsTo W e args s0 vs s) : eval W (form a args) e s0 = callFn W f vs e s := by
  have hl' : lookup s0.heap e a = some f := hl.trans (hs.prog.binds _ _ hf)
  simp only [Bool.and_eq_true, Option.isNone_iff_eq_none, Bool.not_eq_true', bne_iff_ne] at hok
  refine eval_reaches (callHead_of hok.1.1.2 fun ps r b dc env he => ?_) ⟨s0, eval_atom_bound hok.1.2 hok.2 hl', ha⟩
  rw [hl'] at he
  exact notMacro_val hok.1.1.1 ps r b dc env (Option.some.inj he)

/-- C89: `(frequencies l)`, for any list of data: the different elements of `l`, in the order of their last occurrences, each in a pair with the number of its repetitions, which is
one less than the number of its occurrences. -/
theorem C89_frequencies (l : List Val) (hd : ∀ x ∈ l, IsData x) (e : Nat) (args : List Val) (s0 s : St) (hl : lookup s0.heap e "frequencies" = lookup s.heap 0 "frequencies")
    (ha : EvalsTo W e args s0 [vlist l] s) (hs : MetaAt s.heap) :
    ∃ s', eval W (form "frequencies" args) e s0 = .ok (vlist ((repetitions l).map fun p => .cons p.1 (.num p.2))) s' ∧ Quiet s s' := by
  rw [call_me hs (f := m_frequencies) rfl rfl hl ha]
  obtain ⟨s', h1, h2⟩ := me_frequencies (W := W) hs l hd s e (.refl _)
  refine ⟨s', ?_, h2⟩
  rw [h1]
  simp [pairList, countPairs, Function.comp_def]

/-- C89: what is in the list of repetitions: each element of `l`, once, and nothing else; with the number of its occurrences less one; in the order of the last occurrences. -/
theorem C89_repetitions (l : List Val) :
    ((repetitions l).map (·.1)).Nodup ∧ (∀ x, x ∈ (repetitions l).map (·.1) ↔ x ∈ l) ∧ (∀ p ∈ repetitions l, p.2 + 1 = l.count p.1) ∧ ((repetitions l).map (·.1)).Sublist l := by
  have hk : (repetitions l).map (·.1) = lastOnes l := by simp [repetitions, Function.comp_def]
  have hm : ∀ (l : List Val) (x : Val), x ∈ lastOnes l ↔ x ∈ l := by
    intro l x
    induction l with
    | nil => rfl
    | cons y l ih =>
      rw [lastOnes]
      split
      · rename_i h
        rw [ih, List.mem_cons]
        exact ⟨.inr, fun h' => h'.elim (fun h' => h' ▸ h) id⟩
      · rw [List.mem_cons, List.mem_cons, ih]
  rw [hk]
  refine ⟨?_, hm l, ?_, ?_⟩
  · induction l with
    | nil => exact .nil
    | cons y l ih =>
      rw [lastOnes]
      have ih' := ih (by simp [repetitions, Function.comp_def])
      split
      · exact ih'
      · rename_i h
        exact List.nodup_cons.2 ⟨fun h' => h ((hm l y).1 h'), ih'⟩
  · intro p hp
    obtain ⟨x, hx, rfl⟩ := List.mem_map.1 hp
    have : 0 < l.count x := List.count_pos_iff.2 ((hm l x).1 hx)
    show l.count x - 1 + 1 = l.count x
    omega
  · clear hk
    induction l with
    | nil => exact .slnil
    | cons y l ih =>
      rw [lastOnes]
      split
      · exact ih.cons _
      · exact ih.cons_cons _

/-- `(frequencies '(a b a c a b))`: `((c . 0) (a . 2) (b . 1))`. -/
example : repetitions [.atom "a", .atom "b", .atom "a", .atom "c", .atom "a", .atom "b"] = [(.atom "c", 0), (.atom "a", 2), (.atom "b", 1)] := by decide

example (W : World) : ∃ s s' : St, eval W (form "frequencies" [form "quote" [vlist [.atom "a", .atom "b", .atom "a", .atom "c", .atom "a", .atom "b"]]]) 0 s
    = .ok (vlist [.cons (.atom "c") (.num 0), .cons (.atom "a") (.num 2), .cons (.atom "b") (.num 1)]) s' := by
  obtain ⟨s, hs⟩ := meta_state W
  obtain ⟨s', h, _⟩ := C89_frequencies (W := W) [.atom "a", .atom "b", .atom "a", .atom "c", .atom "a", .atom "b"] (by intro x hx; simp at hx; rcases hx with rfl | rfl | rfl | rfl | rfl | rfl <;> exact .atom _) 0
    [form "quote" [vlist [.atom "a", .atom "b", .atom "a", .atom "c", .atom "a", .atom "b"]]] s s rfl
    (.cons (eval_sf W .quote _ 0 _ (hs.prog.core.base.notMacro_sf known_quote) rfl) .nil) hs
  exact ⟨s, s', h⟩

/-- C89: the report: if the list of forms is found, and its elements are lists whose second elements are data, the number of forms is written, and a line for each different second element,
with the number of its repetitions, the largest number first; nothing else is done.  (The order of lines with the same number depends on the sorting algorithm.) -/
theorem C89_report (hW : W.Sorts) (s s1 : St) (x : Val) (ls : List (List Val)) (hs : MetaAt s.heap) (hd : ∀ l ∈ ls, IsData (l.getD 1 .nil))
    (hx : eval W x 0 (withScope s 0) = .ok (vlist (ls.map vlist)) s1) (h1 : (withScope s 0).heap <+: s1.heap) :
    ∃ ys s', eval W (reportForm x) 0 s = .ok .nil s' ∧ ys.Perm (repetitions (ls.map fun l => l.getD 1 .nil)) ∧ (ys.Pairwise fun a b => b.2 ≤ a.2) ∧
      Wrote s1 s' (metaReport ls.length ys) := meta_report hW hs hd hx h1

/-- A report on three forms, two of them functions. -/
example (hW : W.Sorts) : ∃ s s' : St, eval W (reportForm (form "quote" [vlist [vlist [.atom "f", .atom "function"], vlist [.atom "m", .atom "macro"], vlist [.atom "g", .atom "function"]]])) 0 s = .ok .nil s' ∧
    s'.out = s.out ++ "There are 3 forms :\n\t type function : 1\n\t type macro : 0\n".toList := by
  obtain ⟨s, hs⟩ := meta_state W
  have hp : MetaAt (withScope s 0).heap := hs.mono (List.prefix_append _ _)
  obtain ⟨ys, s', h1, h2, h3, h4⟩ := C89_report (W := W) hW s (withScope s 0) (form "quote" [vlist [vlist [.atom "f", .atom "function"], vlist [.atom "m", .atom "macro"], vlist [.atom "g", .atom "function"]]])
    [[.atom "f", .atom "function"], [.atom "m", .atom "macro"], [.atom "g", .atom "function"]] hs (by intro l hl; simp at hl; rcases hl with rfl | rfl | rfl <;> exact .atom _)
    (eval_sf W .quote _ 0 _ (hp.prog.core.base.notMacro_sf known_quote) rfl) List.prefix_rfl
  have hy : repetitions ([[.atom "f", .atom "function"], [.atom "m", .atom "macro"], [.atom "g", .atom "function"]].map fun l : List Val => l.getD 1 .nil) = [(.atom "macro", 0), (.atom "function", 1)] := by decide
  rw [hy] at h2
  have : ys = [(.atom "function", 1), (.atom "macro", 0)] := by
    have hlen := h2.length_eq
    match ys, hlen with
    | [a, b], _ =>
      have hm : ∀ q ∈ [a, b], q = (Val.atom "macro", 0) ∨ q = (Val.atom "function", 1) := fun q hq => by simpa using h2.subset hq
      have hnd : [a, b].Nodup := h2.nodup_iff.2 (by decide)
      rcases hm a (by simp) with rfl | rfl <;> rcases hm b (by simp) with rfl | rfl <;> simp_all
  subst this
  refine ⟨s, s', h1, h4.out.trans ?_⟩
  show s.out ++ _ = _
  congr 1

end L1
