import Verif.Lemmas.CoreCtl
/- Templates. -/
set_option autoImplicit false
namespace L1

variable {W : World}

theorem startsWith_splice {t : Val} (h : ¬ isSplice t) : startsWith t "splicing-unquote" = false := by
  cases t with
  | cons a d =>
    cases a <;> try rfl
    rename_i a
    by_cases ha : a = "splicing-unquote"
    · subst ha; exact absurd ⟨d, rfl⟩ h
    · simp [startsWith, ha]
  | _ => rfl

theorem startsWith_unquote {ts : List Val} (h : ts.head? ≠ some (.atom "unquote")) : startsWith (vlist ts) "unquote" = false := by
  cases ts with
  | nil => rfl
  | cons a d =>
    cases a <;> try rfl
    rename_i a
    by_cases ha : a = "unquote"
    · subst ha; exact absurd rfl h
    · simp [startsWith, ha]

/-- A template that is a list. -/
theorem syntaxQuote_list {ts : List Val} {c : Val} (h : ts.head? ≠ some (.atom "unquote")) (hc : splicingUnquote (vlist ts) = some c) :
    syntaxQuote (vlist ts) = some c := by
  have hu := startsWith_unquote h
  cases ts with
  | nil => simp only [vlist_nil, splicingUnquote] at hc; simp only [vlist_nil, syntaxQuote, hc]
  | cons t ts =>
    rw [vlist_cons] at hc hu ⊢
    rw [splicingUnquote] at hc
    rw [syntaxQuote, hu]
    simpa using hc

theorem splicingUnquote_cons {t q n : Val} {ts : List Val} (h : ¬ isSplice t) (hq : syntaxQuote t = some q) (hn : splicingUnquote (vlist ts) = some n) :
    splicingUnquote (vlist (t :: ts)) = some (vlist [.atom "cons", q, n]) := by
  rw [vlist_cons, splicingUnquote]
  simp only [isList_vlist, if_true, hn, startsWith_splice h, Bool.false_eq_true, if_false, hq]

theorem splicingUnquote_splice {x n : Val} {ts : List Val} (hn : splicingUnquote (vlist ts) = some n) :
    splicingUnquote (vlist (vlist [.atom "splicing-unquote", x] :: ts)) = some (vlist [.atom "concat2", x, n]) := by
  rw [vlist_cons, splicingUnquote]
  simp only [isList_vlist, if_true, hn]
  rfl

/-! ### Quietly -/

mutual
theorem Fill.code {s : St} {e : Nat} (hc : Base s.heap 0) (he : Base s.heap e) {T v : Val} (h : Fill W s e T v) :
    ∃ c, syntaxQuote T = some c ∧ G W s e c v :=
  match h with
  | .num => ⟨_, by rw [syntaxQuote], .quote (.base he) rfl known_quote⟩
  | .atom => ⟨_, by rw [syntaxQuote], .quote (.base he) rfl known_quote⟩
  | .unquote hx => ⟨_, by rw [vlist_cons, syntaxQuote]; rfl, hx⟩
  | .list hu hs => by
    obtain ⟨c, h1, h2⟩ := Fills.code hc he hs
    exact ⟨c, syntaxQuote_list hu h1, h2⟩

theorem Fills.code {s : St} {e : Nat} (hc : Base s.heap 0) (he : Base s.heap e) {ts vs : List Val} (h : Fills W s e ts vs) :
    ∃ c, splicingUnquote (vlist ts) = some c ∧ G W s e c (vlist vs) :=
  match h with
  | .nil => ⟨.nil, by rw [vlist_nil, splicingUnquote], .nil _ _⟩
  | .cons hn ht hs => by
    obtain ⟨q, h1, h2⟩ := Fill.code hc he ht
    obtain ⟨n, h3, h4⟩ := Fills.code hc he hs
    exact ⟨_, splicingUnquote_cons hn h1 h3, .cons (.base he) rfl h2 h4⟩
  | .splice (us := us) (vs := vs) hx hs => by
    obtain ⟨n, h3, h4⟩ := Fills.code hc he hs
    refine ⟨_, splicingUnquote_splice h3, ?_⟩
    have := G.concat2 (.base he) (Cc.core hc rfl) hx h4
    rwa [show mkList us (vlist vs) = vlist (us ++ vs) by simp [vlist, mkList]] at this
end

/-! ### With effects -/

theorem Base.notMacro_sf {h : Heap} {e : Nat} (hs : Base h e) {x : String} (hk : known x = some none) : NotMacro h e x :=
  (Sc.base hs).notMacro_sf rfl hk

mutual
theorem FillE.code {e : Nat} {T v : Val} {s s' : St} (h : FillE W e T s v s') : ∃ c, syntaxQuote T = some c ∧ eval W c e s = .ok v s' :=
  match h with
  | .num he => ⟨_, by rw [syntaxQuote]; rfl, eval_sform W .quote [_] e _ (he.base.notMacro_sf known_quote)⟩
  | .atom he => ⟨_, by rw [syntaxQuote]; rfl, eval_sform W .quote [_] e _ (he.base.notMacro_sf known_quote)⟩
  | .unquote hx => ⟨_, by rw [vlist_cons, syntaxQuote]; rfl, hx⟩
  | .list hu hs => by
    obtain ⟨c, h1, h2⟩ := FillsE.code hs
    exact ⟨c, syntaxQuote_list hu h1, h2⟩

theorem FillsE.code {e : Nat} {ts vs : List Val} {s s' : St} (h : FillsE W e ts s vs s') :
    ∃ c, splicingUnquote (vlist ts) = some c ∧ eval W c e s = .ok (vlist vs) s' :=
  match h with
  | .nil => ⟨.nil, by rw [vlist_nil, splicingUnquote], by rw [eval_eq]; rfl⟩
  | .cons he hn ht hs => by
    obtain ⟨q, h1, h2⟩ := FillE.code ht
    obtain ⟨n, h3, h4⟩ := FillsE.code hs
    refine ⟨_, splicingUnquote_cons hn h1 h3, ?_⟩
    have hcons : eval W (.atom "cons") e _ = .ok (.bi .cons) _ := eval_atom_bi rfl (by decide) (he.sees "cons" none (by decide +kernel)) rfl
    refine (eval_reaches (xs := [_, _]) (callHead_of rfl ?_) ⟨_, hcons, .cons h2 (.cons h4 .nil)⟩).trans ?_
    · intro ps r b dc env hl
      rw [he.sees "cons" none (by decide +kernel)] at hl; cases hl
    · simp only [evApply]
      refine extend_ok ?_
      rw [perform_eq]; rfl
  | .splice he hx hs hc hcc => by
    obtain ⟨n, h3, h4⟩ := FillsE.code hs
    refine ⟨_, splicingUnquote_splice h3, ?_⟩
    have hl := he.sees _ _ known_concat2
    have hcons : eval W (.atom "concat2") e _ = .ok k_concat2 _ := eval_atom_bound rfl (by decide) hl
    refine (eval_reaches (xs := [_, _]) (callHead_of rfl ?_) ⟨_, hcons, .cons hx (.cons h4 .nil)⟩).trans hcc
    intro ps r b dc env h'
    rw [hl] at h'
    exact notMacro_val (f := k_concat2) rfl ps r b dc env (Option.some.inj h')
end

end L1
