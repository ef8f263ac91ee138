import Verif.Lemmas.Exact
import Verif.Lemmas.SenScript
import Verif.Spec.Galax
/-
examples/galax.l1: its functions.
-/
set_option autoImplicit false
namespace L1

variable {W : World}

/-- What the definitions of the program put at the top level, last first. -/
def galaxDefs : List (String × Val) := [("all-names", vlist (galaxNames.map .atom)), ("itsalive", g_itsalive), ("place-phrase", g_place_phrase), ("in-place-noun", g_in_place_noun),
  ("on-place-noun", g_on_place_noun), ("place-adj", g_place_adj), ("evolved", g_evolved), ("adjective", g_adjective), ("lifeforms", g_lifeforms), ("color-pair", g_color_pair),
  ("color", g_color), ("either", g_either), ("one-of", g_one_of), ("defnth", g_defnth)]

/-- Words as a value. -/
def words (ws : List String) : Val := vlist (ws.map .atom)

theorem pick_map {α : Type} [Inhabited α] (f : α → Val) (l : List α) (h : l ≠ []) (k : Nat) : (l.map f).getD (W.rand k % (l.map f).length) .nil = f (pick W l k) := by
  have hlt : W.rand k % l.length < l.length := Nat.mod_lt _ (List.length_pos_iff.2 h)
  rw [List.length_map, pick, List.getD_eq_getElem?_getD, List.getElem?_map, List.getD_eq_getElem?_getD, List.getElem?_eq_getElem hlt]
  rfl

section
variable {h : Heap} {e k m n l : Nat}

theorem galax_sc (hp : Prog h galaxDefs) : Sc h 0 galaxDefs := hp.sc

/-- A random choice among the elements of a list. -/
theorem EX.choice {α : Type} [Inhabited α] {L : List (String × Val)} {x : Val} (hb : Base h 0) (hs : Sc h e L) (hl : alGet "randchoice" L = none) (f : α → Val) (xs : List α) (h0 : xs ≠ []) (hlen : xs.length < 2 ^ 63)
    (hx : EX W h e k x m (vlist (xs.map f))) : EX W h e k (vlist [.atom "randchoice", x]) (m + 1) (f (pick W xs (k + m))) :=
  .call1 (.core hs hl hd_randchoice) hx (by
    have := CX.draws (W := W) (h := h) (k := k + m) fun s hh => draws_randchoice (W := W) (hb.mono hh) (xs.map f) (by simpa using h0) (by simpa using hlen)
    rwa [pick_map f xs h0] at this)

/-- A function made by `defnth`. -/
theorem CX.nth {α : Type} [Inhabited α] {x : Val} {U : List (String × Val)} (hp : Prog h U) (hr : alGet "randchoice" U = none) (f : α → Val) (xs : List α) (h0 : xs ≠ []) (hlen : xs.length < 2 ^ 63)
    (hx : ∀ h' e', h <+: h' → Sc h' e' U → EX W h' e' k x m (vlist (xs.map f))) :
    CX W h k (.lam [] "" (vlist [vlist [.atom "randchoice", x]]) .nil false 0) [] (m + 1) (f (pick W xs (k + m))) :=
  .lam rfl (by decide) hp.sc fun h' e' hh hs => .choice (hp.core.base.mono hh) hs hr f xs h0 hlen (hx h' e' hh hs)

theorem cx_color {U : List (String × Val)} (hp : Prog h U) (hr : alGet "randchoice" U = none) (hq : alGet "quote" U = none) : CX W h k g_color [] 1 (.atom (pick W galaxColors k)) :=
  .nth (m := 0) hp hr .atom galaxColors (by decide) (by decide) fun _ _ _ hs => .quote hs hq

/-- A template of which all elements stand for themselves. -/
theorem EX.plain {L : List (String × Val)} (hs : Sc h e L) (h1 : alGet "cons" L = none) (h2 : alGet "quote" L = none) (ws : List String) {y v : Val} (hy : EX W h e k y n v) :
    EX W h e k (ws.foldr (fun a r => vlist [.atom "cons", vlist [.atom "quote", .atom a], r]) y) n (mkList (ws.map .atom) v) := by
  induction ws with
  | nil => exact hy
  | cons a ws ih => exact (EX.cons hs h1 (.quote hs h2) (by exact ih)).cast (by omega) rfl rfl

theorem cx_color_pair (hp : Prog h galaxDefs) : CX W h k g_color_pair [] 1 (.atom (pick W galaxPairs k)) :=
  .nth (m := 0) hp rfl .atom galaxPairs (by decide) (by decide) fun _ _ _ hs => .template hs rfl rfl (.plain hs rfl rfl galaxPairs .nil)

theorem cx_lifeforms {U : List (String × Val)} (hp : Prog h U) (hr : alGet "randchoice" U = none) (hq : alGet "quote" U = none) (h1 : alGet "cons" U = none) (h2 : alGet "syntax-quote" U = none) : CX W h k g_lifeforms [] 1 (words (pick W galaxLife k)) :=
  .nth (m := 0) hp hr words galaxLife (by decide) (by decide) fun _ _ _ hs => .template hs h2 rfl
    (.cons hs h1 (.plain hs h1 hq ["algae"] .nil) (.cons hs h1 (.plain hs h1 hq ["nanobes"] .nil) (.cons hs h1 (.plain hs h1 hq ["viruses"] .nil)
      (.cons hs h1 (.plain hs h1 hq ["carbon", "chains"] .nil) (.cons hs h1 (.plain hs h1 hq ["complex", "molecules"] .nil) .nil)))))

theorem cx_evolved (hp : Prog h galaxDefs) : CX W h k g_evolved [] 1 (words (pick W galaxDeeds k)) :=
  .nth (m := 0) hp rfl words galaxDeeds (by decide) (by decide) fun _ _ _ hs => .quote hs rfl

theorem cx_place_adj (hp : Prog h galaxDefs) : CX W h k g_place_adj [] 1 (.atom (pick W galaxPlaces k)) :=
  .nth (m := 0) hp rfl .atom galaxPlaces (by decide) (by decide) fun _ _ _ hs => .quote hs rfl

theorem cx_on (hp : Prog h galaxDefs) : CX W h k g_on_place_noun [] 1 (.atom (pick W galaxOn k)) :=
  .nth (m := 0) hp rfl .atom galaxOn (by decide) (by decide) fun _ _ _ hs => .quote hs rfl

theorem cx_in (hp : Prog h galaxDefs) : CX W h k g_in_place_noun [] 1 (.atom (pick W galaxIn k)) :=
  .nth (m := 0) hp rfl .atom galaxIn (by decide) (by decide) fun _ _ _ hs => .quote hs rfl

/-- A call without arguments of a function of the program. -/
theorem EX.own {L : List (String × Val)} {a : String} {f v : Val} (hs : Sc h e L) (hl : alGet a L = some f) (hm : (f.notMacro && (specialOf a).isNone && !isCxr a && a != "t") = true)
    (hk : CX W h k f [] n v) : EX W h e k (vlist [.atom a]) n v := .call0 (.var hs hl hm) hk

theorem cx_adjective (hp : Prog h galaxDefs) : CX W h k g_adjective [] 3 (.atom (galaxAdjective W k)) :=
  .nth (m := 2) hp rfl .atom [pick W galaxColors k, pick W galaxPairs (k + 1), "slimy", "oozing", "gaseous", "vitreous", "microscopic", "metallic"] (by simp) (by simp) fun _ _ hh hs =>
    .template hs rfl rfl ((EX.cons hs rfl (.own hs (a := "color") rfl rfl (cx_color (hp.mono hh) rfl rfl)) (.cons hs rfl (.own hs (a := "color-pair") rfl rfl (cx_color_pair (hp.mono hh)))
      (.plain hs rfl rfl ["slimy", "oozing", "gaseous", "vitreous", "microscopic", "metallic"] .nil))).cast rfl rfl rfl)

theorem cx_one_of {α : Type} [Inhabited α] (hp : Prog h galaxDefs) (f : α → Val) (xs : List α) (h0 : xs ≠ []) (hlen : xs.length < 2 ^ 63) : CX W h k g_one_of (xs.map f) 1 (f (pick W xs k)) :=
  .lam (by simp [ArityOk]) (by decide) hp.sc fun _ _ hh hs => .choice (m := 0) (hp.core.base.mono hh) hs rfl f xs h0 hlen (.v hs rfl rfl)

theorem cx_either {α : Type} [Inhabited α] (hp : Prog h galaxDefs) (f : α → Val) (a b : α) : CX W h k g_either [f a, f b] 1 (f (pick W [a, b] k)) :=
  .lam rfl (by decide) hp.sc fun _ _ hh hs => (EX.call2 (m := 0) (n := 0) (l := 1) (.var hs (a := "one-of") rfl rfl) (.v hs (v := f a) rfl rfl) (.v hs (v := f b) rfl rfl)
    (cx_one_of (hp.mono hh) f [a, b] (by simp) (by simp))).cast rfl rfl rfl

theorem cx_phrase (hp : Prog h galaxDefs) : CX W h k g_place_phrase [] 5 (words (galaxPhrase W k)) :=
  .lam rfl (by decide) hp.sc fun _ _ hh hs => (EX.call2 (m := 2) (n := 2) (l := 1) (.var hs (a := "either") rfl rfl)
    (v := words ["on", "the", pick W galaxPlaces k, pick W galaxOn (k + 1)]) (w := words ["in", "the", pick W galaxPlaces (k + 2), pick W galaxIn (k + 3)])
    (.template hs rfl rfl (.plain hs rfl rfl ["on", "the"] (.cons hs rfl (.own hs (a := "place-adj") rfl rfl (cx_place_adj (hp.mono hh))) (.cons hs rfl (.own hs (a := "on-place-noun") rfl rfl (cx_on (hp.mono hh))) .nil))))
    (.template hs rfl rfl (.plain hs rfl rfl ["in", "the"] (.cons hs rfl (.own hs (a := "place-adj") rfl rfl (cx_place_adj (hp.mono hh))) (.cons hs rfl (.own hs (a := "in-place-noun") rfl rfl (cx_in (hp.mono hh))) .nil))))
    (cx_either (hp.mono hh) words _ _)).cast rfl rfl rfl

/-! ### The news -/

theorem EX.wcons {L : List (String × Val)} {x y : Val} {a : String} {ws : List String} (hs : Sc h e L) (hl : alGet "cons" L = none) (hx : EX W h e k x m (.atom a)) (hy : EX W h e (k + m) y n (words ws)) :
    EX W h e k (vlist [.atom "cons", x, y]) (m + n) (words (a :: ws)) := .cons hs hl hx hy

theorem EX.wq {L : List (String × Val)} {y : Val} {a : String} {ws : List String} (hs : Sc h e L) (hl : alGet "cons" L = none) (hq : alGet "quote" L = none) (hy : EX W h e k y n (words ws)) :
    EX W h e k (vlist [.atom "cons", vlist [.atom "quote", .atom a], y]) n (words (a :: ws)) := (EX.wcons (m := 0) hs hl (.quote hs hq) hy).cast (by omega) rfl rfl

theorem EX.wcat {L : List (String × Val)} {x y : Val} {us ws : List String} (hs : Sc h e L) (hb : Base h 0) (hl : alGet "concat2" L = none) (hx : EX W h e k x m (words us)) (hy : EX W h e (k + m) y n (words ws)) :
    EX W h e k (vlist [.atom "concat2", x, y]) (m + n) (words (us ++ ws)) := by
  unfold words
  rw [List.map_append]
  exact .concat2 hs hb hl hx hy

theorem EX.wnil : EX W h e k .nil 0 (words []) := .nil

/-- The word begins with a letter of the Latin alphabet. -/
def startsLetter (w : String) : Bool :=
  match w.toList with
  | [] => false
  | c :: _ => (decide (65 ≤ c.toNat) && decide (c.toNat ≤ 90)) || (decide (97 ≤ c.toNat) && decide (c.toNat ≤ 122))

theorem startsLetter_cons {w : String} (hw : startsLetter w = true) : ∃ c cs, w.toList = c :: cs ∧ ((65 ≤ c.toNat ∧ c.toNat ≤ 90) ∨ (97 ≤ c.toNat ∧ c.toNat ≤ 122)) := by
  unfold startsLetter at hw
  cases hl : w.toList with
  | nil => rw [hl] at hw; cases hw
  | cons c cs =>
    rw [hl] at hw
    simp only [Bool.and_eq_true, Bool.or_eq_true, decide_eq_true_eq] at hw
    exact ⟨c, cs, rfl, hw⟩

theorem startsLetter_noDigit {w : String} (hw : startsLetter w = true) : ¬ StartsWithDigit W w := by
  obtain ⟨c, cs, h1, h2⟩ := startsLetter_cons hw
  refine noDigit_ascii w fun c' cs' hc => ?_
  rw [h1] at hc; cases hc; omega

theorem startsLetter_append {w : String} (hw : startsLetter w = true) (t : String) : startsLetter (w ++ t) = true := by
  obtain ⟨c, cs, h1, h2⟩ := startsLetter_cons hw
  unfold startsLetter
  rw [String.toList_append, h1]
  simp only [List.cons_append, Bool.and_eq_true, Bool.or_eq_true, decide_eq_true_eq]
  exact h2

theorem toUpper_letter {c : Char} (hc : (65 ≤ c.toNat ∧ c.toNat ≤ 90) ∨ (97 ≤ c.toNat ∧ c.toNat ≤ 122)) : 65 ≤ c.toUpper.toNat ∧ c.toUpper.toNat ≤ 90 := by
  have key : ∀ n : Fin 128, ((65 ≤ n.val ∧ n.val ≤ 90) ∨ (97 ≤ n.val ∧ n.val ≤ 122)) → 65 ≤ (Char.ofNat n.val).toUpper.toNat ∧ (Char.ofNat n.val).toUpper.toNat ≤ 90 := by decide +kernel
  have := key ⟨c.toNat, by omega⟩ hc
  rwa [show Char.ofNat c.toNat = c by simp] at this

theorem upFirst_of {w : String} (hw : startsLetter w = true) : FirstCapital W w (upFirst w) ∧ startsLetter (upFirst w) = true := by
  obtain ⟨c, cs, h1, h2⟩ := startsLetter_cons hw
  have h3 : upFirst w = String.ofList (c.toUpper :: cs) := by unfold upFirst; rw [h1]
  refine ⟨⟨c, c.toUpper, cs, h1, by rw [h3, String.toList_ofList], (upperOf_toUpper h2).1⟩, ?_⟩
  rw [h3]
  unfold startsLetter
  rw [String.toList_ofList]
  simp only [Bool.and_eq_true, Bool.or_eq_true, decide_eq_true_eq]
  exact .inl (toUpper_letter h2)

/-- The sentence with an exclamation mark. -/
theorem bang_of {ws : List String} (hn : ws ≠ []) (hw : ∀ w ∈ ws, startsLetter w = true) :
    ∃ bs, Sentence W "!" ws bs ∧ (∀ w ∈ ws ++ bs, ¬ StartsWithDigit W w) ∧ [' '].intercalate (bs.map String.toList) ++ ['\n'] = exclaimLine ws := by
  cases ws with
  | nil => exact absurd rfl hn
  | cons w ws =>
    obtain ⟨c, cs, h1, h2⟩ := startsLetter_cons (hw w (by simp))
    obtain ⟨hu, hu1, hu2⟩ := upperOf_toUpper (W := W) h2
    rcases List.eq_nil_or_concat ws with rfl | ⟨ws, y, rfl⟩
    · refine ⟨[String.ofList (c.toUpper :: cs ++ ['!'])], .one ⟨c, c.toUpper, cs ++ ['!'], by rw [String.toList_append, h1]; rfl, by simp, hu⟩, ?_, ?_⟩
      · intro v hv
        simp only [List.cons_append, List.nil_append, List.mem_cons, List.not_mem_nil, or_false] at hv
        rcases hv with rfl | rfl
        · exact startsLetter_noDigit (hw _ (by simp))
        · refine noDigit_ascii _ fun c' cs' hc => ?_
          rw [String.toList_ofList] at hc; cases hc; exact ⟨hu1, hu2⟩
      · simp [exclaimLine, h1, List.intercalate]
    · rw [List.concat_eq_append] at *
      refine ⟨String.ofList (c.toUpper :: cs) :: (ws ++ [y ++ "!"]), .more ⟨c, c.toUpper, cs, h1, by simp, hu⟩, ?_, ?_⟩
      · intro v hv
        have hin : v = String.ofList (c.toUpper :: cs) ∨ v = y ++ "!" ∨ v ∈ w :: (ws ++ [y]) := by
          simp only [List.cons_append, List.mem_cons, List.mem_append, List.not_mem_nil, or_false] at hv ⊢
          tauto
        rcases hin with rfl | rfl | hv
        · refine noDigit_ascii _ fun c' cs' hc => ?_
          rw [String.toList_ofList] at hc; cases hc; exact ⟨hu1, hu2⟩
        · exact startsLetter_noDigit (startsLetter_append (hw y (by simp)) _)
        · exact startsLetter_noDigit (hw v hv)
      · have hi : ∀ (a : List Char) (l : List (List Char)) (b t : List Char), [' '].intercalate (a :: (l ++ [b ++ t])) = [' '].intercalate (a :: (l ++ [b])) ++ t := by
          intro a l
          induction l generalizing a with
          | nil => intro b t; simp [List.intercalate]
          | cons d l ih =>
            intro b t
            have := ih d b t
            simp only [List.cons_append, List.intercalate_cons_cons] at this ⊢
            rw [this]; simp
        have hc : ∀ (u : Char) (cs : List Char) (l : List (List Char)) (hl : l ≠ []), [' '].intercalate ((u :: cs) :: l) = u :: (cs ++ [' '] ++ [' '].intercalate l) := by
          intro u cs l hl
          obtain ⟨d, l, rfl⟩ := List.exists_cons_of_ne_nil hl
          simp [List.intercalate_cons_cons]
        simp only [List.map_cons, List.map_append, List.map_nil, String.toList_ofList, String.toList_append, exclaimLine, h1]
        rw [hi, hc _ _ _ (by simp), hc _ _ _ (by simp)]
        simp

theorem pick_mem {α : Type} [Inhabited α] {l : List α} (h0 : l ≠ []) (k : Nat) : pick W l k ∈ l := by
  have hlt : W.rand k % l.length < l.length := Nat.mod_lt _ (List.length_pos_iff.2 h0)
  rw [pick, List.getD_eq_getElem?_getD, List.getElem?_eq_getElem hlt]
  exact List.getElem_mem hlt

theorem pick_all {α : Type} [Inhabited α] {l : List α} {P : α → Prop} (hp : ∀ x ∈ l, P x) (h0 : l ≠ []) (k : Nat) : P (pick W l k) := hp _ (pick_mem h0 k)

theorem adjective_letter (k : Nat) : startsLetter (galaxAdjective W k) = true := by
  refine pick_all (P := fun w => startsLetter w = true) ?_ (by simp) _
  intro x hx
  simp only [List.mem_cons, List.not_mem_nil, or_false] at hx
  rcases hx with rfl | rfl | rfl | rfl | rfl | rfl | rfl | rfl
  · exact pick_all (P := fun w => startsLetter w = true) (by decide +kernel) (by decide) _
  · exact pick_all (P := fun w => startsLetter w = true) (by decide +kernel) (by decide) _
  all_goals decide +kernel

theorem phrase_letter (k : Nat) : ∀ w ∈ galaxPhrase W k, startsLetter w = true := by
  refine pick_all (P := fun l => ∀ w ∈ l, startsLetter w = true) ?_ (by simp) _
  intro x hx w hw
  simp only [List.mem_cons, List.not_mem_nil, or_false] at hx
  rcases hx with rfl | rfl <;> simp only [List.mem_cons, List.not_mem_nil, or_false] at hw <;> rcases hw with rfl | rfl | rfl | rfl
  all_goals first
    | exact pick_all (P := fun w => startsLetter w = true) (by decide +kernel) (by decide) _
    | decide +kernel

theorem life_letter (k : Nat) : ∀ w ∈ pick W galaxLife k, startsLetter w = true := pick_all (P := fun l => ∀ w ∈ l, startsLetter w = true) (by decide +kernel) (by decide) _
theorem deeds_letter (k : Nat) : ∀ w ∈ pick W galaxDeeds k, startsLetter w = true := pick_all (P := fun l => ∀ w ∈ l, startsLetter w = true) (by decide +kernel) (by decide) _

theorem news_letter {planet : String} (hp : startsLetter planet = true) (k : Nat) : galaxNews W planet k ≠ [] ∧ ∀ w ∈ galaxNews W planet k, startsLetter w = true := by
  have hc := (upFirst_of (W := W) hp).2
  refine pick_all (P := fun l => l ≠ [] ∧ ∀ w ∈ l, startsLetter w = true) ?_ (by simp) _
  intro x hx
  simp only [List.mem_cons, List.not_mem_nil, or_false] at hx
  rcases hx with rfl | rfl
  · refine ⟨by simp, fun w hw => ?_⟩
    simp only [List.mem_cons, List.mem_append, List.not_mem_nil, or_false] at hw
    rcases hw with rfl | hw | rfl | hw | hw | rfl | rfl | rfl
    · exact adjective_letter _
    · exact life_letter _ _ hw
    · decide +kernel
    · exact deeds_letter _ _ hw
    · exact phrase_letter _ _ hw
    · decide +kernel
    · decide +kernel
    · exact hc
  · refine ⟨by simp, fun w hw => ?_⟩
    simp only [List.mem_cons, List.mem_append, List.not_mem_nil, or_false] at hw
    rcases hw with hw | rfl | rfl | rfl | rfl | hw | rfl | hw
    · exact phrase_letter _ _ hw
    · decide +kernel
    · decide +kernel
    · exact startsLetter_append hc _
    · exact adjective_letter _
    · exact life_letter _ _ hw
    · decide +kernel
    · exact deeds_letter _ _ hw

theorem ex_either (hp : Prog h galaxDefs) {L : List (String × Val)} (planet : String) (hpl : startsLetter planet = true) (hs : Sc h e (("planet", .atom planet) :: galaxDefs)) :
    EX W h e k (vlist [.atom "either",
      vlist [.atom "syntax-quote", vlist [vlist [.atom "unquote", vlist [.atom "adjective"]], vlist [.atom "splicing-unquote", vlist [.atom "lifeforms"]], .atom "have", vlist [.atom "splicing-unquote", vlist [.atom "evolved"]],
        vlist [.atom "splicing-unquote", vlist [.atom "place-phrase"]], .atom "of", .atom "planet", vlist [.atom "unquote", vlist [.atom "capitalize", .atom "planet"]]]],
      vlist [.atom "syntax-quote", vlist [vlist [.atom "splicing-unquote", vlist [.atom "place-phrase"]], .atom "of", .atom "planet", vlist [.atom "unquote", vlist [.atom "comma", vlist [.atom "capitalize", .atom "planet"]]],
        vlist [.atom "unquote", vlist [.atom "adjective"]], vlist [.atom "splicing-unquote", vlist [.atom "lifeforms"]], .atom "have", vlist [.atom "splicing-unquote", vlist [.atom "evolved"]]]]]) 21 (words (galaxNews W planet k)) := by
  have hb := hp.core.base
  have hcap : ∀ {k}, EX W h e k (vlist [.atom "capitalize", .atom "planet"]) 0 (.atom (upFirst planet)) := .of fun s hh =>
    .fn (xs := [_]) (hs.mono hh) rfl hd_capitalize (.one (.v (hs.mono hh) rfl rfl)) (ret_firstCapital (hb.mono hh) (upFirst_of hpl).1 (startsLetter_noDigit (upFirst_of (W := W) hpl).2))
  have hcom : ∀ {k}, EX W h e k (vlist [.atom "comma", vlist [.atom "capitalize", .atom "planet"]]) 0 (.atom (upFirst planet ++ ",")) :=
    .call1 (m := 0) (n := 0) (.core hs rfl hd_comma) hcap (.ret fun s hh => ret_comma (hb.mono hh) _ (noDigit_of (startsLetter_noDigit (upFirst_of (W := W) hpl).2)))
  have hadj : ∀ {k}, EX W h e k (vlist [.atom "adjective"]) 3 (.atom (galaxAdjective W k)) := .own hs rfl rfl (cx_adjective hp)
  have hlife : ∀ {k}, EX W h e k (vlist [.atom "lifeforms"]) 1 (words (pick W galaxLife k)) := .own hs rfl rfl (cx_lifeforms hp rfl rfl rfl rfl)
  have hdeed : ∀ {k}, EX W h e k (vlist [.atom "evolved"]) 1 (words (pick W galaxDeeds k)) := .own hs rfl rfl (cx_evolved hp)
  have hphr : ∀ {k}, EX W h e k (vlist [.atom "place-phrase"]) 5 (words (galaxPhrase W k)) := .own hs rfl rfl (cx_phrase hp)
  refine (EX.call2 (m := 10) (n := 10) (l := 1) (.var hs (a := "either") rfl rfl)
    (v := words (galaxAdjective W k :: (pick W galaxLife (k + 3) ++ "have" :: (pick W galaxDeeds (k + 4) ++ (galaxPhrase W (k + 5) ++ ["of", "planet", upFirst planet])))))
    (w := words (galaxPhrase W (k + 10) ++ "of" :: "planet" :: (upFirst planet ++ ",") :: galaxAdjective W (k + 15) :: (pick W galaxLife (k + 18) ++ "have" :: pick W galaxDeeds (k + 19))))
    (.template hs rfl rfl ?_) (.template hs rfl rfl ?_) (cx_either hp words _ _)).cast rfl rfl rfl
  · exact (EX.wcons (n := 7) hs rfl hadj (.wcat (n := 6) hs hb rfl hlife (.wq hs rfl rfl (.wcat (n := 5) hs hb rfl hdeed (.wcat (n := 0) hs hb rfl hphr (.wq hs rfl rfl (.wq hs rfl rfl (.wcons (n := 0) hs rfl hcap .wnil)))))))).cast rfl rfl rfl
  · refine (EX.wcat (n := 5) hs hb rfl hphr (.wq hs rfl rfl (.wq hs rfl rfl (.wcons (m := 0) hs rfl hcom (.wcons (n := 2) hs rfl hadj (.wcat (n := 1) hs hb rfl hlife (.wq hs rfl rfl (.wcat (n := 0) hs hb rfl hdeed .wnil)))))))).cast rfl ?_ rfl
    simp only [List.append_nil]

/-- `itsalive`: the words of a sentence about the planet. -/
theorem cx_itsalive (hp : Prog h galaxDefs) (planet : String) (hpl : startsLetter planet = true) :
    ∃ bs, CX W h k g_itsalive [.atom planet] 21 (words bs) ∧ [' '].intercalate (bs.map String.toList) ++ ['\n'] = exclaimLine (galaxNews W planet k) := by
  obtain ⟨hne, hlet⟩ := news_letter (W := W) hpl k
  obtain ⟨bs, h1, h2, h3⟩ := bang_of (W := W) hne hlet
  refine ⟨bs, .lam rfl (by decide) hp.sc fun h' e' hh hs => .call1 (m := 21) (n := 0) (.core hs rfl hd_exclaim) (ex_either (L := []) (hp.mono hh) planet hpl hs) (.ret fun s h4 => ?_), h3⟩
  have hb := (hp.mono (hh.trans h4)).core.base
  exact ret_exclaim hb fun _ hq => ret_sentence (hb.mono hq.heap) rfl (fun a ha => ret_bang (hb.mono hq.heap) a (noDigit_of ha)) h1 h2
end

end L1
