import Verif.Spec.Text
import Verif.Lemmas.Limit
import Verif.Lemmas.Calls
import Verif.Props.Invariants
/-
C13 (predicates), C50 (upcase, downcase), C51 (shell), C53 (version, body, doc).
-/
set_option autoImplicit false
namespace L1

/-! ### C13: predicates -/

/-- C13.  `not` holds of `()` only; `atom?` of the atoms, `number?` of the numbers and `list?` of `()` and the cells, and
of nothing else; none of them has an effect. -/
theorem C13_predicates (W : World) (v : Val) (e : Nat) (s : St) :
    perform W (.builtin .not [v] e) s = .ok (if v = .nil then .atom "t" else .nil) s ∧
    ((∃ a, v = .atom a) → perform W (.builtin .atomP [v] e) s = .ok (.atom "t") s) ∧
    ((¬ ∃ a, v = .atom a) → perform W (.builtin .atomP [v] e) s = .ok .nil s) ∧
    ((∃ n, v = .num n) → perform W (.builtin .numberP [v] e) s = .ok (.atom "t") s) ∧
    ((¬ ∃ n, v = .num n) → perform W (.builtin .numberP [v] e) s = .ok .nil s) ∧
    ((v = .nil ∨ ∃ a d, v = .cons a d) → perform W (.builtin .listP [v] e) s = .ok (.atom "t") s) ∧
    (¬ (v = .nil ∨ ∃ a d, v = .cons a d) → perform W (.builtin .listP [v] e) s = .ok .nil s) := by
  simp only [perform_eq]
  refine ⟨?_, ?_, ?_, ?_, ?_, ?_, ?_⟩
  · show Res.ok (vBool (v == .nil)) s = _
    by_cases h : v = .nil
    · subst h; rfl
    · rw [if_neg h, beq_eq_false_iff_ne.2 h]; rfl
  · rintro ⟨a, rfl⟩; rfl
  · intro h
    cases v with
    | atom a => exact absurd ⟨a, rfl⟩ h
    | _ => rfl
  · rintro ⟨a, rfl⟩; rfl
  · intro h
    cases v with
    | num a => exact absurd ⟨a, rfl⟩ h
    | _ => rfl
  · rintro (rfl | ⟨a, d, rfl⟩) <;> rfl
  · intro h
    cases v with
    | nil => exact absurd (.inl rfl) h
    | cons a d => exact absurd (.inr ⟨a, d, rfl⟩) h
    | _ => rfl

example : perform sampleWorld (.builtin .listP [vlist [.num 1]] 0) (initSt []) = .ok (.atom "t") (initSt []) :=
  (C13_predicates _ _ _ _).2.2.2.2.2.1 (.inr ⟨_, _, rfl⟩)

/-- C13.  With any other number of arguments the predicates are errors. -/
theorem C13_predicates_arity (W : World) (vs : List Val) (e : Nat) (s : St) (h : vs.length ≠ 1) :
    perform W (.builtin .not vs e) s = .err (.list (vlist [msgList "not expects a single argument"])) s ∧
    perform W (.builtin .atomP vs e) s = .err (.list (vlist [msgList "atom? expects a single argument"])) s ∧
    perform W (.builtin .numberP vs e) s = .err (.list (vlist [msgList "number? expects a single argument"])) s ∧
    perform W (.builtin .listP vs e) s = .err (.list (vlist [msgList "list? expects a single argument"])) s := by
  simp only [perform_eq]
  match vs, h with
  | [], _ => exact ⟨rfl, rfl, rfl, rfl⟩
  | [_], h => exact absurd rfl h
  | _ :: _ :: _, _ => exact ⟨rfl, rfl, rfl, rfl⟩

example : perform sampleWorld (.builtin .not [] 0) (initSt []) = .err (.list (vlist [msgList "not expects a single argument"])) (initSt []) :=
  (C13_predicates_arity _ _ _ _ (by decide)).1

/-! ### C50: case -/

/-- Every ASCII character (all 128 of them). -/
theorem ascii_case : ∀ n < 128, (Char.ofNat n).toUpper.toNat = (if 97 ≤ n ∧ n ≤ 122 then n - 32 else n) ∧
    (Char.ofNat n).toLower.toNat = (if 65 ≤ n ∧ n ≤ 90 then n + 32 else n) := by decide

theorem char_ext {a b : Char} (h : a.toNat = b.toNat) : a = b := by
  rw [← Char.ofNat_toNat a, ← Char.ofNat_toNat b, h]

theorem upperC_spec (W : World) (c : Char) (h : c.toNat < 128) :
    CapitalOf (upperC W c) c ∨ (upperC W c = c ∧ ¬ ∃ u, CapitalOf u c) := by
  have h1 := (ascii_case _ h).1
  rw [Char.ofNat_toNat] at h1
  unfold upperC
  rw [if_pos h]
  by_cases hc : 97 ≤ c.toNat ∧ c.toNat ≤ 122
  · rw [if_pos hc] at h1
    exact .inl ⟨hc.1, hc.2, by omega⟩
  · rw [if_neg hc] at h1
    exact .inr ⟨char_ext h1, fun ⟨u, a, b, _⟩ => hc ⟨a, b⟩⟩

theorem lowerC_spec (W : World) (c : Char) (h : c.toNat < 128) :
    CapitalOf c (lowerC W c) ∨ (lowerC W c = c ∧ ¬ ∃ u, CapitalOf c u) := by
  have h1 := (ascii_case _ h).2
  rw [Char.ofNat_toNat] at h1
  unfold lowerC
  rw [if_pos h]
  by_cases hc : 65 ≤ c.toNat ∧ c.toNat ≤ 90
  · rw [if_pos hc] at h1
    exact .inl ⟨by omega, by omega, by omega⟩
  · rw [if_neg hc] at h1
    exact .inr ⟨char_ext h1, fun ⟨u, a, b, d⟩ => hc (by omega)⟩

/-- C50.  `upcase` of an atom is an atom with as many characters; each ASCII character of the result is the capital of the one
in its place if that is a small letter, and else the same character; every character outside ASCII is mapped by the fixed
Unicode table. -/
theorem C50_upcase (W : World) (a : String) (e : Nat) (s : St) :
    ∃ b : String, perform W (.builtin .upcase [.atom a] e) s = .ok (.atom b) s ∧
      List.Forall₂ (fun c u => if c.toNat < 128 then CapitalOf u c ∨ (u = c ∧ ¬ ∃ u', CapitalOf u' c) else u = W.upper c)
        a.toList b.toList := by
  refine ⟨String.ofList (a.toList.map (upperC W)), by rw [perform_eq]; rfl, ?_⟩
  rw [String.toList_ofList, List.forall₂_map_right_iff]
  refine List.forall₂_same.2 fun c _ => ?_
  by_cases h : c.toNat < 128
  · rw [if_pos h]; exact upperC_spec W c h
  · rw [if_neg h]; unfold upperC; rw [if_neg h]

/-- C50.  `downcase` likewise. -/
theorem C50_downcase (W : World) (a : String) (e : Nat) (s : St) :
    ∃ b : String, perform W (.builtin .downcase [.atom a] e) s = .ok (.atom b) s ∧
      List.Forall₂ (fun c l => if c.toNat < 128 then CapitalOf c l ∨ (l = c ∧ ¬ ∃ l', CapitalOf c l') else l = W.lower c)
        a.toList b.toList := by
  refine ⟨String.ofList (a.toList.map (lowerC W)), by rw [perform_eq]; rfl, ?_⟩
  rw [String.toList_ofList, List.forall₂_map_right_iff]
  refine List.forall₂_same.2 fun c _ => ?_
  by_cases h : c.toNat < 128
  · rw [if_pos h]; exact lowerC_spec W c h
  · rw [if_neg h]; unfold lowerC; rw [if_neg h]

/-- C50.  Anything but one atom is an error, without effect. -/
theorem C50_error (W : World) (vs : List Val) (e : Nat) (s : St) (h : ¬ ∃ a, vs = [.atom a]) :
    (∃ er, perform W (.builtin .upcase vs e) s = .err (.list er) s) ∧ ∃ er, perform W (.builtin .downcase vs e) s = .err (.list er) s := by
  simp only [perform_eq]
  match vs, h with
  | [], _ => exact ⟨⟨_, rfl⟩, ⟨_, rfl⟩⟩
  | [.atom a], h => exact absurd ⟨a, rfl⟩ h
  | [.nil], _ => exact ⟨⟨_, rfl⟩, ⟨_, rfl⟩⟩
  | [.num _], _ => exact ⟨⟨_, rfl⟩, ⟨_, rfl⟩⟩
  | [.cons _ _], _ => exact ⟨⟨_, rfl⟩, ⟨_, rfl⟩⟩
  | [.lam ..], _ => exact ⟨⟨_, rfl⟩, ⟨_, rfl⟩⟩
  | [.bi _], _ => exact ⟨⟨_, rfl⟩, ⟨_, rfl⟩⟩
  | v :: w :: vs, _ =>
    refine ⟨⟨vlist [msgList "upcase expects a single argument"], ?_⟩, ⟨vlist [msgList "downcase requires one argument"], ?_⟩⟩ <;>
      cases v <;> rfl

example : ∃ er, perform sampleWorld (.builtin .upcase [.num 1] 0) (initSt []) = .err (.list er) (initSt []) := (C50_error _ _ _ _ (by rintro ⟨a, h⟩; cases h)).1

example (W : World) (s : St) : perform W (.builtin .upcase [.atom "aZ-9"] 0) s = .ok (.atom "AZ-9") s := by
  rw [perform_eq]; rfl

/-! ### C51: shell -/

theorem intStr_toString (n : Int) : String.ofList (intStr n) = toString n := by
  cases n with
  | ofNat k => rfl
  | negSucc k =>
    show String.ofList ('-' :: Nat.toDigits 10 (k + 1)) = "-" ++ String.ofList (Nat.toDigits 10 (k + 1))
    rw [← String.toList_inj]
    simp

theorem shellArgs_iff {v : Val} {ws : List String} : shellArgs v = some ws ↔ Words v ws := by
  constructor
  · intro h
    induction v generalizing ws with
    | nil => cases h; exact .nil
    | cons a d _ ih =>
      cases a with
      | atom a =>
        simp only [shellArgs, Option.map_eq_some_iff] at h
        obtain ⟨ws', h1, rfl⟩ := h
        exact .atom (ih h1)
      | num n =>
        simp only [shellArgs, Option.map_eq_some_iff] at h
        obtain ⟨ws', h1, rfl⟩ := h
        rw [intStr_toString]
        exact .num (ih h1)
      | _ => cases h
    | _ => cases h
  · intro h
    induction h with
    | nil => rfl
    | atom _ ih => simp [shellArgs, ih]
    | num _ ih => simp [shellArgs, ih, intStr_toString]

theorem fieldsAux_spec (cs : List Char) : ∀ cur, (∀ c ∈ cur, ¬ Blank c) →
    ∃ w rest ws, cs = w ++ rest ∧ (∀ c ∈ w, ¬ Blank c) ∧ (∀ c ∈ rest.head?, Blank c) ∧ Fields rest ws ∧
      fieldsAux cur cs = if cur.reverse ++ w = [] then ws else (cur.reverse ++ w) :: ws := by
  induction cs with
  | nil =>
    intro cur _
    refine ⟨[], [], [], rfl, by simp, by simp, .none (by simp), ?_⟩
    simp [fieldsAux]
  | cons c cs ih =>
    intro cur hcur
    by_cases hb : Blank c
    · obtain ⟨w, rest, ws, h1, h2, h3, h4, h5⟩ := ih [] (by simp)
      have hif : (c = ' ' || c = '\t') = true := by
        rcases hb with h | h <;> simp [h]
      refine ⟨[], c :: cs, if w = [] then ws else w :: ws, rfl, by simp, by simpa using hb, ?_, ?_⟩
      · by_cases hw : w = []
        · subst hw
          simp only [List.nil_append] at h1
          rw [if_pos rfl, h1]
          cases h4 with
          | none hg => exact .none (by simp only [List.mem_cons]; rintro x (rfl | hx); exacts [hb, hg x hx])
          | @cons g w' rest' ws' hg hw' hw2 hr hf =>
            exact .cons (g := c :: g) (by simp only [List.mem_cons]; rintro x (rfl | hx); exacts [hb, hg x hx]) hw' hw2 hr hf
        · rw [if_neg hw, h1]
          exact .cons (g := [c]) (by simpa using hb) hw h2 h3 h4
      · simp only [fieldsAux, hif, if_true, List.append_nil]
        rw [h5]
        by_cases hc : cur = []
        · by_cases hw : w = [] <;> simp [hc, hw]
        · by_cases hw : w = [] <;> simp [hc, hw]
    · obtain ⟨w, rest, ws, h1, h2, h3, h4, h5⟩ := ih (c :: cur) (by
        simp only [List.mem_cons]; rintro x (rfl | hx); exacts [hb, hcur x hx])
      have hif : (c = ' ' || c = '\t') = false := by
        have : ¬ (c = ' ' ∨ c = '\t') := hb
        simpa using this
      refine ⟨c :: w, rest, ws, by rw [h1]; rfl, ?_, h3, h4, ?_⟩
      · simp only [List.mem_cons]; rintro x (rfl | hx); exacts [hb, h2 x hx]
      · simp only [fieldsAux, hif]
        rw [if_neg (by simp), h5]
        simp

theorem fields_of (l : List Char) : Fields l (fieldsAux [] l) := by
  obtain ⟨w, rest, ws, h1, h2, h3, h4, h5⟩ := fieldsAux_spec l [] (by simp)
  rw [h5, h1]
  by_cases hw : w = []
  · rw [if_pos (by simp [hw]), hw]; exact h4
  · rw [if_neg (by simpa using hw)]; exact .cons (g := []) (by simp) hw h2 h3 h4

theorem split_lines (t : List Char) : Lines t (splitOnChar '\n' t) := by
  induction t with
  | nil => exact .last (by simp)
  | cons c t ih =>
    simp only [splitOnChar]
    by_cases hc : c = '\n'
    · rw [if_pos hc, hc]; exact .cons (l := []) (by simp) ih
    · rw [if_neg hc]
      cases hs : splitOnChar '\n' t with
      | nil => rw [hs] at ih; cases ih
      | cons w ws =>
        rw [hs] at ih
        cases ih with
        | last h => exact .last (by simp only [List.mem_cons, not_or]; exact ⟨Ne.symm hc, h⟩)
        | @cons l u ls h1 h2 =>
          exact .cons (l := c :: w) (by simp only [List.mem_cons, not_or]; exact ⟨Ne.symm hc, h1⟩) h2

theorem dropWhile_split (p : Char → Bool) (l : List Char) :
    ∃ a, l = a ++ l.dropWhile p ∧ (∀ c ∈ a, p c = true) ∧ ∀ c ∈ (l.dropWhile p).head?, p c = false := by
  refine ⟨l.takeWhile p, (List.takeWhile_append_dropWhile).symm, fun c h => (List.all_eq_true.1 (List.all_takeWhile)) c h, ?_⟩
  intro c hc
  have := List.head?_dropWhile_not p l
  rw [Option.mem_def.1 hc] at this
  simpa using this

theorem trimNl_spec (o : List Char) : Trimmed o (trimNl o) := by
  unfold trimNl
  obtain ⟨a, h1, h2, h3⟩ := dropWhile_split (· = '\n') o
  obtain ⟨b, g1, g2, g3⟩ := dropWhile_split (· = '\n') (o.dropWhile (· = '\n')).reverse
  generalize hu : o.dropWhile (fun x => decide (x = '\n')) = u at *
  generalize hv : u.reverse.dropWhile (fun x => decide (x = '\n')) = v at *
  have hu' : u = v.reverse ++ b.reverse := by rw [← List.reverse_reverse u, g1, List.reverse_append]
  refine ⟨a, b.reverse, ?_, fun c hc => by simpa using h2 c hc, fun c hc => by simpa using g2 c (by simpa using hc), ?_, ?_⟩
  · rw [← hu']; exact h1
  · intro h
    have : u.head? = some '\n' := by
      rw [hu']
      cases hr : v.reverse with
      | nil => rw [hr] at h; cases h
      | cons x xs => rw [hr] at h; simpa using h
    simpa using h3 _ this
  · intro h
    rw [List.getLast?_reverse] at h
    simpa using g3 _ h

theorem shape_of (o : List Char) : Shape o (shapeOutput o) := by
  refine ⟨trimNl o, splitOnChar '\n' (trimNl o), (splitOnChar '\n' (trimNl o)).map (fieldsAux []), trimNl_spec o, split_lines _, ?_, ?_⟩
  · rw [List.forall₂_map_right_iff]
    exact List.forall₂_same.2 fun l _ => fields_of l
  · simp only [shapeOutput, List.map_map]; rfl

/-- C51.  `shell` of a nonempty list of atoms and numbers runs exactly one command, with their texts as its words, and returns a list
of three: the lines of what it wrote to standard output, each as the list of its words, the same for standard error, and the exit status. -/
theorem C51_shell (W : World) (v : Val) (ws : List String) (e : Nat) (s : St) (o er : List Char) (st : Int) (hv : Words v ws) (hne : ws ≠ [])
    (hrun : W.shell s.tick ws = .ok (o, er, st)) :
    ∃ vo ve, perform W (.builtin .shell [v] e) s = .ok (vlist [vo, ve, .num st]) { s with tick := s.tick + 1 } ∧
      Shape o vo ∧ Shape er ve := by
  refine ⟨shapeOutput o, shapeOutput er, ?_, shape_of o, shape_of er⟩
  rw [perform_eq]
  show doShell W v s = _
  unfold doShell
  rw [shellArgs_iff.2 hv]
  cases ws with
  | nil => exact absurd rfl hne
  | cons c cs =>
    dsimp only
    have : askM (fun t => W.shell t (c :: cs)) s = .ok (.ok (o, er, st)) { s with tick := s.tick + 1 } := by
      unfold askM; dsimp only; rw [hrun]
    rw [M.bind_ok this]
    rfl

/-- In a world where every command prints `hi there`. -/
example : ∃ vo ve, perform { sampleWorld with shell := fun _ _ => .ok ("hi there\n".toList, [], 0) } (.builtin .shell [vlist [.atom "ls", .num (-5)]] 0) (initSt [])
    = .ok (vlist [vo, ve, .num 0]) { initSt [] with tick := 1 } :=
  have ⟨vo, ve, h, _⟩ := C51_shell { sampleWorld with shell := fun _ _ => .ok ("hi there\n".toList, [], 0) } _ ["ls", "-5"] 0 (initSt []) _ _ _ (.atom (.num .nil)) (by simp) rfl
  ⟨vo, ve, h⟩

/-- C51.  A command that cannot be run is an error. -/
theorem C51_cannot_run (W : World) (v : Val) (ws : List String) (e : Nat) (s : St) (msg : String) (hv : Words v ws) (hne : ws ≠ [])
    (hrun : W.shell s.tick ws = .error msg) :
    perform W (.builtin .shell [v] e) s
      = .err (.list (vlist [msgList ("error running shell command: " ++ msg)])) { s with tick := s.tick + 1 } := by
  rw [perform_eq]
  show doShell W v s = _
  unfold doShell
  rw [shellArgs_iff.2 hv]
  cases ws with
  | nil => exact absurd rfl hne
  | cons c cs =>
    dsimp only
    have : askM (fun t => W.shell t (c :: cs)) s = .ok (.error msg) { s with tick := s.tick + 1 } := by
      unfold askM; dsimp only; rw [hrun]
    rw [M.bind_ok this]
    rfl

example : perform sampleWorld (.builtin .shell [vlist [.atom "ls"]] 0) (initSt [])
    = .err (.list (vlist [msgList "error running shell command: no shell"])) { initSt [] with tick := 1 } :=
  C51_cannot_run _ _ ["ls"] _ _ "no shell" (.atom .nil) (by simp) rfl

/-- C51.  Anything else is an error, and nothing is run. -/
theorem C51_error (W : World) (vs : List Val) (e : Nat) (s : St) (h : ¬ ∃ v ws, vs = [v] ∧ Words v ws ∧ ws ≠ []) :
    ∃ er, perform W (.builtin .shell vs e) s = .err (.list er) s := by
  rw [perform_eq]
  match vs, h with
  | [], _ => exact ⟨_, rfl⟩
  | [v], h =>
    show ∃ er, doShell W v s = _
    unfold doShell
    cases ha : shellArgs v with
    | none => exact ⟨_, rfl⟩
    | some ws =>
      cases ws with
      | nil => exact ⟨_, rfl⟩
      | cons c cs => exact absurd ⟨v, _, rfl, shellArgs_iff.1 ha, by simp⟩ h
  | _ :: _ :: _, _ => exact ⟨_, rfl⟩

example : ∃ er, perform sampleWorld (.builtin .shell [.nil] 0) (initSt []) = .err (.list er) (initSt []) :=
  C51_error _ _ _ _ (by rintro ⟨v, ws, h, hw, hne⟩; cases h; cases hw; exact hne rfl)

/-- The hypotheses are met; what a two-line output with blanks gives. -/
example : Words (vlist [.atom "ls", .num (-5)]) ["ls", "-5"] := .atom (.num .nil)
example : shapeOutput "\n a  bc\n\nd\n".toList = vlist [vlist [.atom "a", .atom "bc"], .nil, vlist [.atom "d"]] := by decide +kernel

/-! ### C53: version, body, doc -/

/-- C53.  `body` and `doc` give the body and the documentation a function was made with; other values are errors; no effects. -/
theorem C53_body (W : World) (ps : List String) (r : String) (b d : Val) (m : Bool) (env e : Nat) (s : St) :
    perform W (.builtin .body [.lam ps r b d m env] e) s = .ok b s ∧
    perform W (.builtin .doc [.lam ps r b d m env] e) s = .ok d s := by
  simp only [perform_eq]
  exact ⟨rfl, rfl⟩

example : perform sampleWorld (.builtin .body [.lam ["x"] "" (vlist [.atom "x"]) .nil false 0] 0) (initSt []) = .ok (vlist [.atom "x"]) (initSt []) := (C53_body ..).1

/-- C53.  What is not a function has no body and no documentation. -/
theorem C53_body_error (W : World) (v : Val) (e : Nat) (s : St) (h : ∀ ps r b d m env, v ≠ .lam ps r b d m env) :
    (∃ er, perform W (.builtin .body [v] e) s = .err (.list er) s) ∧
    ((∀ b, v ≠ .bi b) → ∃ er, perform W (.builtin .doc [v] e) s = .err (.list er) s) := by
  simp only [perform_eq]
  cases v with
  | lam ps r b d m env => exact absurd rfl (h ps r b d m env)
  | bi b => exact ⟨⟨_, rfl⟩, fun h => absurd rfl (h b)⟩
  | _ => exact ⟨⟨_, rfl⟩, fun _ => ⟨_, rfl⟩⟩

example : ∃ er, perform sampleWorld (.builtin .body [.bi .car] 0) (initSt []) = .err (.list er) (initSt []) := (C53_body_error _ _ _ _ (by intros; simp)).1

/-- C53.  `version` is a constant, whatever its arguments. -/
theorem C53_version (W : World) (vs : List Val) (e : Nat) (s : St) :
    perform W (.builtin .version vs e) s = .ok (vlist [.num 0, .num 0, .num 57, .atom "dirty"]) s := by
  rw [perform_eq]; rfl

end L1
