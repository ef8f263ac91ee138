import Verif.Spec.Command
import Verif.Props.Status
import Verif.Props.Programs
/-
C79: programs made by `l1c`; C80: the command line.
-/
set_option autoImplicit false
namespace L1

variable {W : World}

/-! ### C79 -/

/-- C79: a program made by `l1c` ends exactly as `CompiledRun` says, starting with the library loaded. -/
theorem C79_compiled (W : World) (inp : List (List Char)) (text : List Char) (c : Nat) (s' : St) :
    CompiledRun W text (topSt (initSt inp) coreEnv) c s' ↔
      exitStatus (compiledMain (perform W) coreText text (initSt inp)) = some c ∧ finalState (compiledMain (perform W) coreText text (initSt inp)) = some s' := by
  have h0 : compiledMain (perform W) coreText text (initSt inp) = (attempt (lexParseEval (perform W) text 0) >>= fun _ => (pure () : M Unit)) (topSt (initSt inp) coreEnv) := by
    unfold compiledMain
    rw [M.bind_ok (attempt_ok (load_core inp))]
  rw [h0]
  generalize topSt (initSt inp) coreEnv = s
  have ht := textRun_iff (W := W) text s
  rw [M.bind_run, attempt_run]
  constructor
  · intro h
    cases h with
    | finished h2 =>
      rw [ht] at h2
      cases hr : lexParseEval (perform W) text 0 s <;> rw [hr] at h2 <;> cases h2
      exact ⟨rfl, rfl⟩
    | failed h2 =>
      rw [ht] at h2
      cases hr : lexParseEval (perform W) text 0 s <;> rw [hr] at h2 <;> cases h2
      exact ⟨rfl, rfl⟩
    | stopped h2 =>
      rw [ht] at h2
      cases hr : lexParseEval (perform W) text 0 s <;> rw [hr] at h2 <;> cases h2 <;> exact ⟨rfl, rfl⟩
  · rintro ⟨h1, h2⟩
    cases hr : lexParseEval (perform W) text 0 s with
    | ok u s1 => rw [hr] at h1 h2; cases h1; cases h2; exact .finished ((ht _ _).2 (by rw [hr]; rfl))
    | err er s1 => rw [hr] at h1 h2; cases h1; cases h2; exact .failed ((ht _ _).2 (by rw [hr]; rfl))
    | exit c s1 => rw [hr] at h1 h2; cases h1; cases h2; exact .stopped ((ht _ _).2 (by rw [hr]; rfl))
    | crash w s1 => rw [hr] at h1 h2; cases h1; cases h2; exact .stopped ((ht _ _).2 (by rw [hr]; rfl))
    | overflow s1 => rw [hr] at h1 h2; cases h1; cases h2; exact .stopped ((ht _ _).2 (by rw [hr]; rfl))
    | oof => rw [hr] at h1; cases h1

/-- C79: compared with `l1 -e text`, the compiled program does the same, except that an error is neither printed nor visible in the exit status. -/
theorem C79_expr (W : World) (s : St) (text : List Char) (c : Nat) (s' : St) :
    (ExprRun W text s c s' → c ≠ 1 → CompiledRun W text s c s') ∧
    (ExprRun W text s 1 s' → ∃ er s1, CompiledRun W text s 0 s1 ∧ s' = { s1 with out := s1.out ++ (er ++ ['\n']) }) ∧
    (CompiledRun W text s c s' → c ≠ 1) := by
  have h2 : ∀ c s', TextRun W text s (.stopped c) s' → c ≠ 1 := by intro c s' h; cases h <;> decide
  refine ⟨?_, ?_, ?_⟩
  · intro h hc
    cases h with
    | finished h => exact .finished h
    | failed h => exact absurd rfl hc
    | stopped h => exact .stopped h
  · intro h
    cases h with
    | failed h => exact ⟨_, _, .failed h, rfl⟩
    | stopped h => exact absurd rfl (h2 _ _ h)
  · intro h
    cases h with
    | finished h => decide
    | failed h => decide
    | stopped h => exact h2 _ _ h

/-- examples/fails.l1, compiled: it prints its line, says nothing about the failed assertion, and ends with status 0. -/
example (W : World) (inp : List (List Char)) : ∃ s', finalState (compiledMain (perform W) coreText failsText (initSt inp)) = some s' ∧
    exitStatus (compiledMain (perform W) coreText failsText (initSt inp)) = some 0 ∧ s'.out = "This statement should fail:\n".toList := by
  obtain ⟨s', h1, h2⟩ := C77_fails (W := W) (topSt (initSt inp) coreEnv) (coreAt_loaded _)
  obtain ⟨h3, h4⟩ := (C79_compiled W inp failsText 0 s').1 (.failed h1)
  exact ⟨s', h4, h3, h2.out⟩

/-! ### C80 -/

theorem cutName_some : ∀ {cs n v : List Char}, cutName cs = (n, some v) ↔ cs = n ++ '=' :: v ∧ '=' ∉ n := by
  intro cs
  induction cs with
  | nil => intro n v; simp [cutName]
  | cons c cs ih =>
    intro n v
    simp only [cutName]
    by_cases hc : c = '='
    · subst hc
      rw [if_pos rfl]
      constructor
      · intro h; cases h; simp
      · rintro ⟨h1, h2⟩
        cases n with
        | nil => simp at h1; simp [h1]
        | cons a n => simp at h1; simp [← h1.1] at h2
    · rw [if_neg hc]
      cases hcn : cutName cs with
      | mk n' v' =>
        dsimp only
        constructor
        · intro h
          cases h
          obtain ⟨h1, h2⟩ := ih.1 hcn
          exact ⟨by rw [h1]; rfl, by simp [h2, Ne.symm hc]⟩
        · rintro ⟨h1, h2⟩
          cases n with
          | nil => simp at h1; exact absurd h1.1 hc
          | cons a n =>
            simp only [List.cons_append, List.cons.injEq] at h1
            simp only [List.mem_cons, not_or] at h2
            have := ih.2 ⟨h1.2, h2.2⟩
            rw [hcn] at this
            cases this
            rw [h1.1]

theorem cutName_none : ∀ {cs n : List Char}, cutName cs = (n, none) ↔ cs = n ∧ '=' ∉ n := by
  intro cs
  induction cs with
  | nil => intro n; constructor
           · intro h; cases h; simp
           · rintro ⟨rfl, -⟩; rfl
  | cons c cs ih =>
    intro n
    simp only [cutName]
    by_cases hc : c = '='
    · subst hc
      rw [if_pos rfl]
      constructor
      · intro h; cases h
      · rintro ⟨rfl, h2⟩; simp at h2
    · rw [if_neg hc]
      cases hcn : cutName cs with
      | mk n' v' =>
        dsimp only
        constructor
        · intro h
          cases h
          obtain ⟨h1, h2⟩ := ih.1 hcn
          exact ⟨by rw [h1], by simp [h2, Ne.symm hc]⟩
        · rintro ⟨rfl, h2⟩
          simp only [List.mem_cons, not_or] at h2
          have := ih.2 ⟨rfl, h2.2⟩
          rw [hcn] at this
          cases this
          rfl

theorem nameValue_iff {t n : List Char} {v : Option (List Char)} :
    nameValue t = some (n, v) ↔ t = n ++ v.elim [] ('=' :: ·) ∧ n ≠ [] ∧ '=' ∉ n ∧ n.head? ≠ some '-' := by
  cases t with
  | nil =>
    simp only [nameValue]
    constructor
    · intro h; cases h
    · rintro ⟨h1, h2, -⟩
      cases n with
      | nil => exact absurd rfl h2
      | cons => cases h1
  | cons c cs =>
    simp only [nameValue]
    by_cases hc : c = '-' ∨ c = '='
    · rw [if_pos hc]
      constructor
      · intro h; cases h
      · rintro ⟨h1, h2, h3, h4⟩
        cases n with
        | nil => exact absurd rfl h2
        | cons a n =>
          cases h1
          rcases hc with rfl | rfl
          · simp at h4
          · simp at h3
    · rw [if_neg hc]
      rw [not_or] at hc
      cases hcn : cutName cs with
      | mk n' v' =>
        dsimp only
        constructor
        · intro h
          cases h
          cases v with
          | none =>
            obtain ⟨h1, h2⟩ := cutName_none.1 hcn
            exact ⟨by simp [h1], by simp, by simp [h2, Ne.symm hc.2], by simp [hc.1]⟩
          | some v =>
            obtain ⟨h1, h2⟩ := cutName_some.1 hcn
            exact ⟨by simp [h1], by simp, by simp [h2, Ne.symm hc.2], by simp [hc.1]⟩
        · rintro ⟨h1, h2, h3, h4⟩
          cases n with
          | nil => exact absurd rfl h2
          | cons a n =>
            simp only [List.cons_append, List.cons.injEq] at h1
            obtain ⟨rfl, h1⟩ := h1
            simp only [List.mem_cons, not_or] at h3
            cases v with
            | none =>
              have := cutName_none.2 ⟨h1.trans (List.append_nil _), h3.2⟩
              rw [hcn] at this; cases this; rfl
            | some v =>
              have := cutName_some.2 ⟨h1, h3.2⟩
              rw [hcn] at this; cases this; rfl

/-- The texts of arguments. -/
theorem flagText_cases (a : List Char) :
    (flagText a = none ∧ ¬ DashArg a) ∨ (flagText a = some none ∧ a = ['-', '-']) ∨
    ∃ t, flagText a = some (some t) ∧ DashArg a ∧ a ≠ ['-', '-'] ∧ ∀ n v, FlagArg a n v ↔ nameValue t = some (n, v) := by
  unfold flagText
  split
  · exact .inr (.inl ⟨rfl, rfl⟩)
  · rename_i cs hne
    refine .inr (.inr ⟨cs, rfl, ⟨'-', cs, rfl⟩, fun h => hne (by cases h; rfl), fun n v => ?_⟩)
    rw [nameValue_iff]
    constructor
    · rintro ⟨h1 | h1, h2, h3, h4⟩
      · cases n with
        | nil => exact absurd rfl h2
        | cons x n => cases h1; simp at h4
      · cases h1; exact ⟨rfl, h2, h3, h4⟩
    · rintro ⟨rfl, h⟩; exact ⟨.inr rfl, h⟩
  · rename_i c cs h1 h2
    have hc : c ≠ '-' := by
      rintro rfl
      cases cs with
      | nil => exact h1 rfl rfl
      | cons x cs => exact h2 rfl
    refine .inr (.inr ⟨c :: cs, rfl, ⟨c, cs, rfl⟩, fun h => hc (by cases h; rfl), fun n v => ?_⟩)
    rw [nameValue_iff]
    constructor
    · rintro ⟨h1 | h1, h⟩
      · exact ⟨(List.cons.inj h1).2, h⟩
      · exact absurd (List.cons.inj (List.cons.inj h1).2).1 hc
    · rintro ⟨h1, h⟩; exact ⟨.inl (by rw [← h1]), h⟩
  · rename_i h1 h2 h3
    refine .inl ⟨rfl, ?_⟩
    rintro ⟨c, cs, rfl⟩
    exact h3 c cs rfl

theorem parseBool_iff (w : List Char) (b : Bool) : parseBool w = some b ↔ TruthWord w b := by
  have hw : ∀ t : String, w = t.toList ↔ String.ofList w = t := fun t => by
    constructor
    · rintro rfl; simp
    · intro h; rw [← h]; simp
  unfold parseBool TruthWord
  simp only [List.mem_cons, List.not_mem_nil, or_false, hw]
  split
  · rename_i h
    constructor
    · intro hb; cases hb; exact .inl ⟨rfl, h⟩
    · rintro (⟨rfl, -⟩ | ⟨-, h'⟩)
      · rfl
      · exfalso; rcases h with h | h | h | h | h | h <;> rw [h] at h' <;> revert h' <;> decide
  · rename_i h
    split
    · rename_i h2
      constructor
      · intro hb; cases hb; exact .inr ⟨rfl, h2⟩
      · rintro (⟨-, h'⟩ | ⟨rfl, -⟩)
        · exact absurd h' h
        · rfl
    · rename_i h2
      constructor
      · intro hb; cases hb
      · rintro (⟨-, h'⟩ | ⟨-, h'⟩)
        · exact absurd h' h
        · exact absurd h' h2

theorem setFlag_other {fl : CmdFlags} {name : String} {value : Option (List Char)} {rest : List (List Char)}
    (h : name ∉ ["v", "doc", "longdoc", "p", "e"]) : setFlag fl name.toList value rest = none := by
  have hw : ∀ t : String, name ≠ t → name.toList ≠ t.toList := fun t ht h => ht (String.toList_injective h)
  simp only [List.mem_cons, List.not_mem_nil, or_false, not_or] at h
  unfold setFlag
  dsimp only
  rw [if_neg (fun hh => hw "v" h.1 (hh.trans rfl)), if_neg (hw "doc" h.2.1), if_neg (hw "longdoc" h.2.2.1), if_neg (fun hh => hw "p" h.2.2.2.1 (hh.trans rfl)),
    if_neg (fun hh => hw "e" h.2.2.2.2 (hh.trans rfl))]

theorem Switch.inv {name : String} {b : Bool} {fl y : CmdFlags} (h : Switch name b fl y) :
    (name = "v" ∧ y = { fl with version := b }) ∨ (name = "doc" ∧ y = { fl with doc := b }) ∨ (name = "longdoc" ∧ y = { fl with longdoc := b }) := by
  cases h <;> simp

theorem Takes.inv {name : String} {t : List Char} {fl y : CmdFlags} (h : Takes name t fl y) :
    (name = "p" ∧ y = { fl with profile := t }) ∨ (name = "e" ∧ y = { fl with expr := t }) := by
  cases h <;> simp

/-- The kind of a flag. -/
theorem flag_kinds (name : String) (fl : CmdFlags) :
    (∃ f : Bool → CmdFlags, (∀ b, Switch name b fl (f b)) ∧ (∀ b y, Switch name b fl y → y = f b) ∧ (∀ b y, ¬ Takes name b fl y) ∧ name ∈ ["v", "doc", "longdoc", "p", "e"] ∧
      ∀ value rest, setFlag fl name.toList value rest = match value with | none => some (f true, rest) | some v => (parseBool v).map fun b => (f b, rest)) ∨
    (∃ f : List Char → CmdFlags, (∀ t, Takes name t fl (f t)) ∧ (∀ b y, Takes name b fl y → y = f b) ∧ (∀ b y, ¬ Switch name b fl y) ∧ name ∈ ["v", "doc", "longdoc", "p", "e"] ∧
      ∀ value rest, setFlag fl name.toList value rest = match value, rest with | some v, _ => some (f v, rest) | none, v :: rest => some (f v, rest) | none, [] => none) ∨
    ((∀ b y, ¬ Switch name b fl y) ∧ (∀ b y, ¬ Takes name b fl y) ∧ name ∉ ["v", "doc", "longdoc", "p", "e"] ∧ ∀ value rest, setFlag fl name.toList value rest = none) := by
  by_cases h1 : name = "v"
  · subst h1; exact .inl ⟨_, fun b => .v b fl, fun b y h => by rcases h.inv with ⟨hn, rfl⟩ | ⟨hn, rfl⟩ | ⟨hn, rfl⟩ <;> first | rfl | exact absurd hn (by decide), fun b y h => by rcases h.inv with ⟨hn, rfl⟩ | ⟨hn, rfl⟩ <;> exact absurd hn (by decide), by decide, fun _ _ => rfl⟩
  by_cases h2 : name = "doc"
  · subst h2; exact .inl ⟨_, fun b => .doc b fl, fun b y h => by rcases h.inv with ⟨hn, rfl⟩ | ⟨hn, rfl⟩ | ⟨hn, rfl⟩ <;> first | rfl | exact absurd hn (by decide), fun b y h => by rcases h.inv with ⟨hn, rfl⟩ | ⟨hn, rfl⟩ <;> exact absurd hn (by decide), by decide, fun _ _ => rfl⟩
  by_cases h3 : name = "longdoc"
  · subst h3; exact .inl ⟨_, fun b => .longdoc b fl, fun b y h => by rcases h.inv with ⟨hn, rfl⟩ | ⟨hn, rfl⟩ | ⟨hn, rfl⟩ <;> first | rfl | exact absurd hn (by decide), fun b y h => by rcases h.inv with ⟨hn, rfl⟩ | ⟨hn, rfl⟩ <;> exact absurd hn (by decide), by decide, fun _ _ => rfl⟩
  by_cases h4 : name = "p"
  · subst h4; exact .inr (.inl ⟨_, fun b => .p b fl, fun b y h => by rcases h.inv with ⟨hn, rfl⟩ | ⟨hn, rfl⟩ <;> first | rfl | exact absurd hn (by decide), fun b y h => by rcases h.inv with ⟨hn, rfl⟩ | ⟨hn, rfl⟩ | ⟨hn, rfl⟩ <;> exact absurd hn (by decide), by decide, fun value rest => by cases value <;> cases rest <;> rfl⟩)
  by_cases h5 : name = "e"
  · subst h5; exact .inr (.inl ⟨_, fun b => .e b fl, fun b y h => by rcases h.inv with ⟨hn, rfl⟩ | ⟨hn, rfl⟩ <;> first | rfl | exact absurd hn (by decide), fun b y h => by rcases h.inv with ⟨hn, rfl⟩ | ⟨hn, rfl⟩ | ⟨hn, rfl⟩ <;> exact absurd hn (by decide), by decide, fun value rest => by cases value <;> cases rest <;> rfl⟩)
  · have h : name ∉ ["v", "doc", "longdoc", "p", "e"] := by simp [h1, h2, h3, h4, h5]
    refine .inr (.inr ⟨fun b y hs => ?_, fun b y hs => ?_, h, fun _ _ => setFlag_other h⟩)
    · cases hs <;> simp at h
    · cases hs <;> simp at h

theorem not_help {nm : String} (h : nm ∈ ["v", "doc", "longdoc", "p", "e"]) : ¬ (nm.toList = "help".toList ∨ nm.toList = ['h']) := by
  simp only [List.mem_cons, List.not_mem_nil, or_false] at h
  rcases h with rfl | rfl | rfl | rfl | rfl <;> decide

theorem parseArgs_means (fuel : Nat) : ∀ (fl : CmdFlags) (args : List (List Char)), args.length < fuel → Means fl args (parseArgs fl fuel args) := by
  induction fuel with
  | zero => intro fl args h; omega
  | succ fuel ih =>
    intro fl args h
    cases args with
    | nil => exact .none fl
    | cons a rest =>
      simp only [List.length_cons] at h
      simp only [parseArgs]
      rcases flagText_cases a with ⟨h1, h2⟩ | ⟨h1, rfl⟩ | ⟨t, h1, h2, h3, h4⟩
      · rw [h1]; exact .files h2
      · rw [h1]; exact .dashes
      · rw [h1]
        dsimp only
        cases hn : nameValue t with
        | none => exact .bad h2 h3 fun n v hf => by rw [h4, hn] at hf; cases hf
        | some p =>
          obtain ⟨name, value⟩ := p
          dsimp only
          obtain ⟨nm, rfl⟩ : ∃ nm : String, name = nm.toList := ⟨String.ofList name, by simp⟩
          have hfa := (h4 _ _).2 hn
          rcases flag_kinds nm fl with ⟨f, hf, -, -, hk, hset⟩ | ⟨f, hf, -, -, hk, hset⟩ | ⟨-, -, hk, hset⟩
          · rw [hset]
            cases value with
            | none => exact .switchOn hfa (hf true) (ih _ _ (by omega))
            | some w =>
              dsimp only
              cases hb : parseBool w with
              | some b => exact .switchTo hfa ((parseBool_iff _ _).1 hb) (hf b) (ih _ _ (by omega))
              | none =>
                simp only [Option.map_none]
                rw [if_neg (not_help hk)]
                exact .switchWrong hfa (fun b h => by rw [← parseBool_iff, hb] at h; cases h) (hf true)
          · rw [hset]
            cases value with
            | some w => exact .textIn hfa (hf w) (ih _ _ (by omega))
            | none =>
              cases rest with
              | cons w rest => exact .textNext hfa (hf w) (ih _ _ (by simp only [List.length_cons] at h; omega))
              | nil =>
                dsimp only
                rw [if_neg (not_help hk)]
                exact .textMissing hfa (hf [])
          · rw [hset]
            dsimp only
            split
            · rename_i hh
              refine .help hfa ?_
              rcases hh with hh | hh
              · exact .inr (String.toList_injective hh)
              · exact .inl (String.toList_injective (hh.trans rfl))
            · rename_i hh
              rw [not_or] at hh
              refine .unknown hfa ?_
              simp only [List.mem_cons, List.not_mem_nil, or_false, not_or] at hk ⊢
              exact ⟨hk.1, hk.2.1, hk.2.2.1, hk.2.2.2.1, hk.2.2.2.2, fun h => hh.2 (by rw [h]; rfl), fun h => hh.1 (by rw [h])⟩

/-- A flag argument has one reading. -/
theorem FlagArg.unique {a n n' : List Char} {v v' : Option (List Char)} (h : FlagArg a n v) (h' : FlagArg a n' v') : n = n' ∧ v = v' := by
  rcases flagText_cases a with ⟨h1, h2⟩ | ⟨h1, rfl⟩ | ⟨t, h1, h2, h3, h4⟩
  · exfalso
    obtain ⟨h | h, hn, -⟩ := h
    · cases n with
      | nil => exact hn rfl
      | cons c n => exact h2 ⟨_, _, h⟩
    · exact h2 ⟨_, _, h⟩
  · exfalso
    obtain ⟨h | h, hn, -, hd⟩ := h
    · cases n with
      | nil => exact hn rfl
      | cons c n => exact hd (by rw [← (List.cons.inj (List.cons.inj h).2).1]; rfl)
    · cases n with
      | nil => exact hn rfl
      | cons c n => exact absurd (List.cons.inj (List.cons.inj h).2).2 (by simp)
  · rw [h4] at h h'
    rw [h] at h'
    cases h'
    exact ⟨rfl, rfl⟩


theorem FlagArg.dash {a n : List Char} {v : Option (List Char)} (h : FlagArg a n v) : DashArg a ∧ a ≠ ['-', '-'] := by
  rcases flagText_cases a with ⟨h1, h2⟩ | ⟨h1, rfl⟩ | ⟨t, h1, h2, h3, h4⟩
  · exfalso
    obtain ⟨h | h, hn, -⟩ := h
    · cases n with
      | nil => exact hn rfl
      | cons c n => exact h2 ⟨_, _, h⟩
    · exact h2 ⟨_, _, h⟩
  · exfalso
    obtain ⟨h | h, hn, -, hd⟩ := h
    · cases n with
      | nil => exact hn rfl
      | cons c n => exact hd (by rw [← (List.cons.inj (List.cons.inj h).2).1]; rfl)
    · cases n with
      | nil => exact hn rfl
      | cons c n => exact absurd (List.cons.inj (List.cons.inj h).2).2 (by simp)
  · exact ⟨h2, h3⟩

/-- Reading a flag. -/
theorem parseArgs_flag {a : List Char} {nm : String} {value : Option (List Char)} (h : FlagArg a nm.toList value) (fl : CmdFlags) (fuel : Nat) (rest : List (List Char)) :
    parseArgs fl (fuel + 1) (a :: rest) = match setFlag fl nm.toList value rest with
      | some (fl', rest') => parseArgs fl' fuel rest'
      | none => if nm.toList = "help".toList ∨ nm.toList = ['h'] then .help else .wrong := by
  obtain ⟨hd, hne⟩ := h.dash
  rcases flagText_cases a with ⟨h1, h2⟩ | ⟨h1, h2⟩ | ⟨t, h1, h2, h3, h4⟩
  · exact absurd hd h2
  · exact absurd h2 hne
  · simp only [parseArgs]
    rw [h1]
    dsimp only
    rw [(h4 _ _).1 h]
    rfl

theorem means_parseArgs {fl : CmdFlags} {args : List (List Char)} {p : Parsed} (h : Means fl args p) : ∀ fuel, args.length < fuel → parseArgs fl fuel args = p := by
  induction h with
  | none fl => intro fuel hf; cases fuel with | zero => cases hf | succ n => rfl
  | files h =>
    intro fuel hf
    cases fuel with
    | zero => cases hf
    | succ n =>
      rename_i fl a rest
      rcases flagText_cases a with ⟨h1, h2⟩ | ⟨h1, rfl⟩ | ⟨t, h1, h2, -⟩
      · simp only [parseArgs]; rw [h1]
      · exact absurd ⟨_, _, rfl⟩ h
      · exact absurd h2 h
  | dashes => intro fuel hf; cases fuel with | zero => cases hf | succ n => rfl
  | switchOn h1 h2 _ ih =>
    intro fuel hf
    cases fuel with
    | zero => cases hf
    | succ n =>
      rename_i fl fl' a name rest p _
      rw [parseArgs_flag h1]
      rcases flag_kinds name fl with ⟨f, h3, h4, h5, h6, h7⟩ | ⟨f, h3, h4, h5, h6, h7⟩ | ⟨h3, h4, h5, h6⟩
      · rw [h7, ← h4 _ _ h2]
        exact ih n (by simp only [List.length_cons] at hf; omega)
      · exact absurd h2 (h5 _ _)
      · exact absurd h2 (h3 _ _)
  | switchTo h1 hb h2 _ ih =>
    intro fuel hf
    cases fuel with
    | zero => cases hf
    | succ n =>
      rename_i fl fl' a w b name rest p _
      rw [parseArgs_flag h1]
      rcases flag_kinds name fl with ⟨f, h3, h4, h5, h6, h7⟩ | ⟨f, h3, h4, h5, h6, h7⟩ | ⟨h3, h4, h5, h6⟩
      · rw [h7]
        dsimp only
        rw [(parseBool_iff _ _).2 hb, h4 _ _ h2] at *
        exact ih n (by simp only [List.length_cons] at hf; omega)
      · exact absurd h2 (h5 _ _)
      · exact absurd h2 (h3 _ _)
  | switchWrong h1 hb h2 =>
    intro fuel hf
    cases fuel with
    | zero => cases hf
    | succ n =>
      rename_i fl fl' a w name rest
      rw [parseArgs_flag h1]
      rcases flag_kinds name fl with ⟨f, h3, h4, h5, h6, h7⟩ | ⟨f, h3, h4, h5, h6, h7⟩ | ⟨h3, h4, h5, h6⟩
      · rw [h7]
        dsimp only
        cases hp : parseBool w with
        | some b => exact absurd ((parseBool_iff _ _).1 hp) (hb b)
        | none => exact if_neg (not_help h6)
      · exact absurd h2 (h5 _ _)
      · exact absurd h2 (h3 _ _)
  | textIn h1 h2 _ ih =>
    intro fuel hf
    cases fuel with
    | zero => cases hf
    | succ n =>
      rename_i fl fl' a w name rest p _
      rw [parseArgs_flag h1]
      rcases flag_kinds name fl with ⟨f, h3, h4, h5, h6, h7⟩ | ⟨f, h3, h4, h5, h6, h7⟩ | ⟨h3, h4, h5, h6⟩
      · exact absurd h2 (h5 _ _)
      · rw [h7]
        dsimp only
        rw [← h4 _ _ h2]
        exact ih n (by simp only [List.length_cons] at hf; omega)
      · exact absurd h2 (h4 _ _)
  | textNext h1 h2 _ ih =>
    intro fuel hf
    cases fuel with
    | zero => cases hf
    | succ n =>
      rename_i fl fl' a w name rest p _
      rw [parseArgs_flag h1]
      rcases flag_kinds name fl with ⟨f, h3, h4, h5, h6, h7⟩ | ⟨f, h3, h4, h5, h6, h7⟩ | ⟨h3, h4, h5, h6⟩
      · exact absurd h2 (h5 _ _)
      · rw [h7]
        dsimp only
        rw [← h4 _ _ h2]
        exact ih n (by simp only [List.length_cons] at hf; omega)
      · exact absurd h2 (h4 _ _)
  | textMissing h1 h2 =>
    intro fuel hf
    cases fuel with
    | zero => cases hf
    | succ n =>
      rename_i fl fl' a name
      rw [parseArgs_flag h1]
      rcases flag_kinds name fl with ⟨f, h3, h4, h5, h6, h7⟩ | ⟨f, h3, h4, h5, h6, h7⟩ | ⟨h3, h4, h5, h6⟩
      · exact absurd h2 (h5 _ _)
      · rw [h7]; exact if_neg (not_help h6)
      · exact absurd h2 (h4 _ _)
  | help h1 h2 =>
    intro fuel hf
    cases fuel with
    | zero => cases hf
    | succ n =>
      rw [parseArgs_flag h1]
      rcases h2 with rfl | rfl <;> rfl
  | unknown h1 h2 =>
    intro fuel hf
    cases fuel with
    | zero => cases hf
    | succ n =>
      rw [parseArgs_flag h1, setFlag_other (fun h => h2 (by simp only [List.mem_cons, List.not_mem_nil, or_false] at h ⊢; tauto))]
      refine if_neg ?_
      rintro (h | h)
      · exact h2 (by rw [String.toList_injective h]; decide)
      · exact h2 (by rw [String.toList_injective (h.trans (show _ = "h".toList from rfl))]; decide)
  | bad h1 h2 h3 =>
    intro fuel hf
    cases fuel with
    | zero => cases hf
    | succ n =>
      rename_i fl a rest
      rcases flagText_cases a with ⟨h4, h5⟩ | ⟨h4, h5⟩ | ⟨t, h4, h5, h6, h7⟩
      · exact absurd h1 h5
      · exact absurd h5 h2
      · simp only [parseArgs]
        rw [h4]
        dsimp only
        cases hn : nameValue t with
        | none => rfl
        | some p => exact absurd ((h7 _ _).2 hn) (h3 _ _)

/-- C80: the command line means what `Means` says, and just that. -/
theorem C80_parse (args : List (List Char)) (p : Parsed) : Means {} args p ↔ parseArgs {} (args.length + 1) args = p :=
  ⟨fun h => means_parseArgs h _ (Nat.lt_succ_self _), fun h => h ▸ parseArgs_means _ _ _ (Nat.lt_succ_self _)⟩

/-- C80: the program does what the flags say: nothing but end with status 0 after `-h`, with status 2 after a wrong command line; with status 2 also if a profile is wanted
(and not just the version) and its file cannot be created. -/
theorem C80_program (W : World) (can : String → Bool) (call : Task → M Val) (n : Nat) (core : List Char) (args : List (List Char)) (s : St) (p : Parsed) (h : Means {} args p) :
    program W can call n core args s = match p with
      | .help => .exit 0 s
      | .wrong => .exit 2 s
      | .flags fl => if fl.version = false ∧ fl.profile ≠ [] ∧ can (String.ofList fl.profile) = false then .crash "open profile" s
          else mainFlags W call n core ⟨fl.version, fl.doc, fl.longdoc, fl.expr, fl.files.map String.ofList⟩ s := by
  unfold program
  rw [(C80_parse _ _).1 h]
  cases p with
  | help => rfl
  | wrong => rfl
  | flags fl => dsimp only; split <;> rfl

/-- C80: whatever the command line is, the program ends with status 0, 1 or 2 or goes on for ever (the documentation flags are C68). -/
theorem C80_status (W : World) (can : String → Bool) (n : Nat) (args : List (List Char)) (inp : List (List Char))
    (hd : ∀ fl, Means {} args (.flags fl) → fl.doc = false ∧ fl.longdoc = false) :
    program W can (perform W) n coreText args (initSt inp) = .oof ∨
      ∃ c, exitStatus (program W can (perform W) n coreText args (initSt inp)) = some c ∧ c ≤ 2 := by
  have hm := (C80_parse args _).2 rfl
  rw [C80_program W can (perform W) n coreText args (initSt inp) _ hm]
  revert hm
  cases parseArgs {} (args.length + 1) args with
  | help => exact fun _ => .inr ⟨0, rfl, by decide⟩
  | wrong => exact fun _ => .inr ⟨2, rfl, by decide⟩
  | flags fl =>
    intro hm
    dsimp only
    split
    · exact .inr ⟨2, rfl, by decide⟩
    · rcases C76_range W n inp ⟨fl.version, fl.doc, fl.longdoc, fl.expr, fl.files.map String.ofList⟩ (hd fl hm).1 (hd fl hm).2 with h | ⟨c, h1, h2, -⟩
      · exact .inl h
      · exact .inr ⟨c, h1, h2⟩

/-- C80: the files of the command line are run in order, whatever they are called. -/
theorem C80_files (W : World) (can : String → Bool) (call : Task → M Val) (n : Nat) (core : List Char) (f : List Char) (fs : List (List Char)) (hf : ¬ DashArg f) (s : St) :
    program W can call n core (f :: fs) s = mainWith W call n core none ((f :: fs).map String.ofList) s ∧
    program W can call n core (['-', '-'] :: fs) s = mainWith W call n core none (fs.map String.ofList) s := by
  rw [C80_program W can call n core _ s _ (.files hf), C80_program W can call n core _ s _ .dashes]
  exact ⟨rfl, rfl⟩

/-- C80: `l1 -e text` evaluates the text; what else is on the command line is not looked at, if it is not a flag. -/
theorem C80_expr (W : World) (can : String → Bool) (call : Task → M Val) (n : Nat) (core : List Char) (text : List Char) (ht : text ≠ []) (fs : List (List Char)) (hf : ∀ f ∈ fs.head?, ¬ DashArg f) (s : St) :
    program W can call n core ("-e".toList :: text :: fs) s = mainWith W call n core (some text) (fs.map String.ofList) s := by
  have h1 : FlagArg "-e".toList "e".toList none := ⟨.inl rfl, by decide, by decide, by decide⟩
  have key : Means {} ("-e".toList :: text :: fs) (.flags { expr := text, files := fs }) := by
    refine .textNext h1 (.e text {}) ?_
    cases fs with
    | nil => exact .none _
    | cons f fs => exact .files (hf f rfl)
  rw [C80_program W can call n core _ s _ key]
  unfold mainFlags
  simp only [Bool.false_eq_true, if_false, Bool.or_self, ht, false_and, and_false]
  rfl

/-- C80: `-v` prints the version, whatever other flags and files are given. -/
theorem C80_version (W : World) (can : String → Bool) (call : Task → M Val) (n : Nat) (core : List Char) (args : List (List Char)) (fl : CmdFlags) (h : Means {} args (.flags fl)) (hv : fl.version = true) (s : St) :
    program W can call n core args s = .exit 0 { s with out := s.out ++ "v0.0.57-dirty\n".toList } := by
  rw [C80_program W can call n core _ s _ h]
  dsimp only
  rw [hv, if_neg (by simp)]
  rfl

/-- `l1 --v=T -doc prog.l1`, `l1 -x`, `l1 -e`, `l1 -`. -/
example : Means {} ["--v=T".toList, "-doc".toList, "prog.l1".toList, "-e".toList] (.flags { version := true, doc := true, files := ["prog.l1".toList, "-e".toList] }) ∧
    Means {} ["-x".toList] .wrong ∧ Means {} ["-e".toList] .wrong ∧ Means {} ["---v".toList] .wrong ∧ Means {} ["-v=maybe".toList] .wrong ∧ Means {} ["-help".toList, "f".toList] .help ∧
    Means {} ["-".toList] (.flags { files := ["-".toList] }) := by
  simp only [C80_parse]
  decide +kernel

end L1
