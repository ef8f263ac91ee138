import Verif.Lemmas.Docs
import Verif.Props.Effects
import Verif.Props.Forms
import Mathlib.Data.List.Forall2
/-
C68: the listing of operators (`forms`, `help`, `-doc`, `-longdoc`).  C58: the flags.
-/
set_option autoImplicit false
namespace L1

/-- Did it return? -/
def Res.isOk {α : Type} : Res α → Bool | .ok _ _ => true | _ => false

theorem Res.isOk_iff {α : Type} {r : Res α} (h : r.isOk = true) : ∃ a s, r = .ok a s := by
  cases r <;> first | exact ⟨_, _, rfl⟩ | cases h

variable {W : World}

theorem names_of_sorted {fs : List FormRec} (h : fs.Pairwise RecLe) : NamesInOrder (fs.map FormRec.listing) :=
  List.pairwise_map.2 (h.imp fun hab h' => hab h')

theorem mem_all (b : BI) : b ∈ BI.all := by cases b <;> decide

theorem formListings_iff {l : Listing} : l ∈ formListings ↔ DescribesForm l := by
  constructor
  · intro h
    obtain ⟨⟨n, a, m, d, g⟩, hx, rfl⟩ := List.mem_map.1 h
    exact ⟨n, a, m, d, g, hx, rfl⟩
  · rintro ⟨n, a, m, d, g, hx, rfl⟩
    exact List.mem_map.2 ⟨_, hx, rfl⟩

theorem nativeListings_iff {l : Listing} {bs : List BI} (hb : bs.Perm BI.all) : l ∈ bs.map (nativeListing W) ↔ DescribesNative W l := by
  constructor
  · intro h
    obtain ⟨b, _, rfl⟩ := List.mem_map.1 h
    exact ⟨b, rfl⟩
  · rintro ⟨b, rfl⟩
    exact List.mem_map.2 ⟨b, hb.mem_iff.2 (mem_all b), rfl⟩

theorem keyListings_iff {h : Heap} {e : Nat} (ho : Older h) (he : e < h.length) {ks : List String} (hk : ks.Perm (envKeysAux h (e + 1) e).flatten)
    {l : Listing} : l ∈ ks.filterMap (keyListing h e) ↔ DescribesFn h e l := by
  rw [List.mem_filterMap]
  constructor
  · rintro ⟨k, _, h1⟩
    unfold keyListing at h1
    rcases nearest_or_unbound ho he k with hu | ⟨i, hn⟩
    · rw [lookup_unbound ho hu] at h1; cases h1
    rw [lookup_nearest ho hn] at h1
    split at h1
    · rename_i ps r body doc m c hb
      split at h1
      · rename_i hd
        cases h1
        exact ⟨i, ps, r, body, doc, m, c, hn, hb, hd, rfl⟩
      · cases h1
    · cases h1
  · rintro ⟨i, ps, r, body, doc, m, c, hn, hb, hd, hl⟩
    have hlk : lookup h e l.name = some (.lam ps r body doc m c) := (lookup_nearest ho hn).trans hb
    refine ⟨l.name, hk.mem_iff.2 ((mem_envKeys ho _ _ e he (by omega)).2 ?_), ?_⟩
    · show (lookup h e l.name).isSome
      rw [hlk]; rfl
    · unfold keyListing
      rw [hlk]
      simp only [ne_eq, hd, not_false_eq_true, if_true]
      rw [hl]

theorem complete_of {call : Task → M Val} {e : Nat} {s s' : St} {fs : List FormRec} (ho : Older s.heap) (he : e < s.heap.length)
    (hc : KeepsVars call e s.heap) (h : availableForms W call e s = .ok fs s') : CompleteListing W s.heap e (fs.map FormRec.listing) := by
  obtain ⟨bs, ks, hb, hk, hp, hs⟩ := availableForms_ok ho he hc h
  refine ⟨names_of_sorted hs, fun l => ?_⟩
  rw [hp.mem_iff, List.mem_append, List.mem_append, formListings_iff, nativeListings_iff hb, keyListings_iff ho he hk, or_assoc]

theorem values_of (fs : List FormRec) : vlist (fs.map formVal) = vlist ((fs.map FormRec.listing).map Listing.value) := by
  rw [List.map_map]
  congr 1

/-- Calls under the watch `keeping` keep the variables. -/
theorem keeping_keeps (n d e : Nat) (h : Heap) : KeepsVars (lower d (runWatched W (keeping h) n)) e h := by
  have key : ∀ n d t s1 s2 (r : Res Val), runWatched W (keeping h) n d t s1 = r → r.final = some s2 → (∀ m s, r ≠ .crash m s) → h <+: s2.heap := by
    intro n d t s1 s2 r hr hf hcr
    cases n with
    | zero => cases hr; cases hf
    | succ n =>
      simp only [runWatched, watched] at hr
      split at hr
      · split at hr
        · rename_i hpost
          rw [hr] at hpost
          exact hpost s2 hf
        · exact absurd hr.symm (hcr _ _)
      · exact absurd hr.symm (hcr _ _)
  intro x s1 s2 h1
  cases d with
  | zero => rcases h1 with ⟨v, h1⟩ | ⟨er, h1⟩ <;> cases h1
  | succ d =>
    rcases h1 with ⟨v, h1⟩ | ⟨er, h1⟩
    · exact key n d _ s1 s2 _ h1 rfl (by simp)
    · exact key n d _ s1 s2 _ h1 rfl (by simp)

/-- Undo one step of a watched run. -/
theorem watched_step {P : Watch} {n d : Nat} {t : Task} {s s' : St} {v : Val} (h : runWatched W P n d t s = .ok v s') :
    ∃ k, n = k + 1 ∧ runStep W (lower d (runWatched W P k)) (runWatched W P k d) t s = .ok v s' := by
  cases n with
  | zero => cases h
  | succ k =>
    refine ⟨k, rfl, ?_⟩
    simp only [runWatched, watched] at h
    split at h
    · split at h
      · exact h
      · cases h
    · cases h

attribute [local irreducible] L1.availableForms in
theorem bForms_ok {call : Task → M Val} {e : Nat} {s s' : St} {v : Val} (h : bForms W call e s = .ok v s') :
    ∃ fs, availableForms W call e s = .ok fs s' ∧ v = vlist (fs.map formVal) := by
  unfold bForms at h
  obtain ⟨fs, s1, h1, h⟩ := M.bind_eq_ok.1 h
  cases h
  refine ⟨fs, ?_, rfl⟩
  unfold extend at h1
  rw [extendWith_run, extendWith_run] at h1
  cases ha : availableForms W call e s <;> rw [ha] at h1 <;> first | exact h1 | cases h1

/-- C68: `(forms)` is a list, in the order of the names, of the special forms, the native functions and the documented functions and macros visible
in the calling scope, all of them and nothing else, in every execution in which the examples in the documentation (which are evaluated on the way)
leave the variables as they are. -/
theorem C68_forms (W : World) (n d : Nat) (args : List Val) (e : Nat) (s s' : St) (v : Val) (ho : Older s.heap) (he : e < s.heap.length)
    (h : runWatched W (keeping s.heap) n d (.builtin .forms args e) s = .ok v s') :
    ∃ ls : List Listing, v = vlist (ls.map Listing.value) ∧ CompleteListing W s.heap e ls := by
  obtain ⟨k, rfl, h1⟩ := watched_step h
  obtain ⟨fs, h2, rfl⟩ := bForms_ok (show bForms W (lower d (runWatched W (keeping s.heap) k)) e s = .ok v s' from h1)
  exact ⟨fs.map FormRec.listing, values_of fs, complete_of ho he (keeping_keeps k d e _) h2⟩

/-- What is listed whatever the examples do: in order, every special form and every native function, each as often as it should, and functions and
macros. -/
def BasicListing (W : World) (ls : List Listing) : Prop :=
  NamesInOrder ls ∧ ∃ natives fns : List Listing, ls.Perm (formListings ++ natives ++ fns) ∧ natives.Perm (BI.all.map (nativeListing W)) ∧
    ∀ l ∈ fns, l.kind = "macro" ∨ l.kind = "function"

theorem basic_of {call : Task → M Val} {e : Nat} {s s' : St} {fs : List FormRec}
    (h : availableForms W call e s = .ok fs s') : BasicListing W (fs.map FormRec.listing) := by
  obtain ⟨bs, fk, hk, hb, hp, hs⟩ := availableForms_any h
  refine ⟨names_of_sorted hs, bs.map (nativeListing W), fk.map FormRec.listing, hp, hb.map _, ?_⟩
  intro l hl
  obtain ⟨f, hf, rfl⟩ := List.mem_map.1 hl
  rcases hk f hf with h | h
  · left; simp only [FormRec.listing, h]; decide +kernel
  · right; simp only [FormRec.listing, h]; decide +kernel

/-- C68: whatever the examples do, the list of `(forms)` is in order and contains every special form and every native function. -/
theorem C68_forms_any (W : World) (args : List Val) (e : Nat) (s s' : St) (v : Val) (h : perform W (.builtin .forms args e) s = .ok v s') :
    ∃ ls : List Listing, v = vlist (ls.map Listing.value) ∧ BasicListing W ls := by
  rw [perform_eq] at h
  obtain ⟨fs, h2, rfl⟩ := bForms_ok (show bForms W (perform W) e s = .ok v s' from h)
  exact ⟨fs.map FormRec.listing, values_of fs, basic_of h2⟩

/-- The example below (`documented`) meets the hypothesis; here, from the initial state. -/
example : ∃ v s', perform sampleWorld (.builtin .forms [] 0) (initSt []) = .ok v s' ∧ ∃ ls : List Listing, v = vlist (ls.map Listing.value) ∧ BasicListing sampleWorld ls := by
  have h : (run sampleWorld 60 60 (.builtin .forms [] 0) (initSt [])).isOk = true := by decide +kernel
  obtain ⟨v, s', hv⟩ := Res.isOk_iff h
  have hv' : perform sampleWorld (.builtin .forms [] 0) (initSt []) = .ok v s' := (perform_of_run (by rw [hv]; trivial)).trans hv
  exact ⟨v, s', hv', C68_forms_any _ _ _ _ _ _ hv'⟩

/-- C68: there is a description of every special form the evaluator knows, and only of these. -/
theorem C68_special : (∀ f : SF, ∃ l, DescribesForm l ∧ l.name = f.name) ∧ (∀ l, DescribesForm l → ∃ f : SF, l.name = f.name) := by
  have h : specialDocs.map (·.1) = ["and", "cond", "def", "defn", "defmacro", "error", "errors", "lambda", "let", "loop", "or", "quote", "set!",
    "swallow", "syntax-quote", "try", "test"] := rfl
  constructor
  · intro f
    have hm : f.name ∈ specialDocs.map (·.1) := by rw [h]; cases f <;> decide +kernel
    obtain ⟨⟨n, a, m, d, g⟩, hx, hn⟩ := List.mem_map.1 hm
    exact ⟨_, ⟨n, a, m, d, g, hx, rfl⟩, hn⟩
  · rintro l ⟨n, a, m, d, g, hx, rfl⟩
    have hm : n ∈ specialDocs.map (·.1) := List.mem_map.2 ⟨_, hx, rfl⟩
    rw [h] at hm
    simp only [List.mem_cons, List.not_mem_nil, or_false] at hm
    rcases hm with rfl | rfl | rfl | rfl | rfl | rfl | rfl | rfl | rfl | rfl | rfl | rfl | rfl | rfl | rfl | rfl | rfl
    exacts [⟨.and, rfl⟩, ⟨.cond, rfl⟩, ⟨.def_, rfl⟩, ⟨.defn, rfl⟩, ⟨.defmacro, rfl⟩, ⟨.error, rfl⟩, ⟨.errors, rfl⟩, ⟨.lambda, rfl⟩, ⟨.let_, rfl⟩,
      ⟨.loop, rfl⟩, ⟨.or, rfl⟩, ⟨.quote, rfl⟩, ⟨.set, rfl⟩, ⟨.swallow, rfl⟩, ⟨.syntaxQuote, rfl⟩, ⟨.try_, rfl⟩, ⟨.test, rfl⟩]

example : ∃ l, DescribesForm l ∧ l.name = "try" := C68_special.1 .try_

theorem docToString_some {v : Val} {cs : List Char} (h : docToString v = some cs) : ∃ d more, v = .cons d more ∧ cs = (d.str.drop 1).dropLast := by
  cases v with
  | cons d more =>
    refine ⟨d, more, rfl, ?_⟩
    simp only [docToString] at h
    split at h
    · cases h
    · rename_i c hc
      split at h
      · cases h
      · cases h; rw [hc]; rfl
    · cases h; rfl
  | _ => cases h

theorem formLine_help {f : FormRec} {d : List Char} (hk : f.Kind) (hd : docToString f.doc = some d) : HelpLine W f.listing (formLine W f d) := by
  obtain ⟨x, more, hx, hdd⟩ := docToString_some hd
  refine ⟨capitalizeC W d, ⟨x, more, hx, by rw [hdd]⟩, ?_⟩
  have hl : kindLetter f.listing = if f.isSpecial then 'S' else if f.isMacro then 'M' else if f.isNative then 'N' else 'F' := by
    unfold kindLetter FormRec.listing
    rcases hk with ⟨h1, h2⟩ | ⟨h1, h2, h3⟩ | ⟨h1, h2, h3, h4⟩ | ⟨h1, h2, h3, h4⟩ <;> simp only [h1, h2, *]
    all_goals
      generalize f.isMacro = a
      generalize f.isNative = b
      revert a b
      decide +kernel
  rw [hl]
  unfold formLine columns
  have e1 : (Nat.toDigits 10 f.farity) = f.farity.repr.toList := by simp [Nat.repr]
  rw [e1]
  show _ = rightAligned 14 f.name.toList ++ [' '] ++ rightAligned 2 _ ++ [' '] ++ rightAligned 5 (f.farity.repr.toList ++ [if f.multi then '+' else ' ']) ++ _ ++ _
  cases f.isSpecial <;> cases f.isMacro <;> cases f.isNative <;> cases f.multi <;> rfl

theorem formLines_help (fs : List FormRec) (hk : ∀ f ∈ fs, f.Kind) : ∀ {ls : List (List Char)}, formLines W fs = some ls →
    List.Forall₂ (HelpLine W) (fs.map FormRec.listing) ls := by
  induction fs with
  | nil => intro ls h; cases h; exact .nil
  | cons f fs ih =>
    intro ls h
    simp only [formLines] at h
    cases hd : docToString f.doc with
    | none => rw [hd] at h; cases h
    | some d =>
      rw [hd] at h
      cases hl : formLines W fs with
      | none => rw [hl] at h; cases h
      | some ls' =>
        rw [hl] at h; cases h
        exact .cons (formLine_help (hk f (by simp)) hd) (ih (fun g hg => hk g (by simp [hg])) hl)

theorem joinNl_eq (xs : List (List Char)) : joinNl xs = ['\n'].intercalate xs := by
  induction xs with
  | nil => rfl
  | cons x xs ih =>
    cases xs with
    | nil => simp [joinNl, List.intercalate]
    | cons y ys =>
      rw [joinNl, ih]
      · simp [List.intercalate]
      · simp

theorem helpHeader_eq : helpHeader = helpTop.map String.toList := by decide +kernel

attribute [local irreducible] L1.availableForms in
theorem bHelp_ok {call : Task → M Val} {e : Nat} {s s' : St} {v : Val} (h : bHelp W call e s = .ok v s') :
    v = .nil ∧ ∃ fs s1 text, availableForms W call e s = .ok fs s1 ∧ HelpText W (fs.map FormRec.listing) text ∧
      s' = printed s1 (text ++ " <nil>\n".toList) := by
  unfold bHelp at h
  obtain ⟨fs, s1, h1, h⟩ := M.bind_eq_ok.1 h
  cases hl : formLines W fs with
  | none => rw [hl] at h; cases h
  | some ls =>
    rw [hl] at h
    cases h
    refine ⟨rfl, fs, s1, joinNl (helpHeader ++ ls), h1, ⟨ls, formLines_help fs (availableForms_kind h1) hl, ?_⟩, rfl⟩
    rw [joinNl_eq, helpHeader_eq]

/-- C68: `(help)` is `()` and prints the same listing as a table, in every execution in which the examples leave the variables as they are ... -/
theorem C68_help (W : World) (n d : Nat) (args : List Val) (e : Nat) (s s' : St) (v : Val) (ho : Older s.heap) (he : e < s.heap.length)
    (h : runWatched W (keeping s.heap) n d (.builtin .help args e) s = .ok v s') :
    v = .nil ∧ ∃ s1 ls text, CompleteListing W s.heap e ls ∧ HelpText W ls text ∧ s' = printed s1 (text ++ " <nil>\n".toList) := by
  obtain ⟨k, rfl, h1⟩ := watched_step h
  obtain ⟨hv, fs, s1, text, h2, h3, h4⟩ := bHelp_ok (show bHelp W (lower d (runWatched W (keeping s.heap) k)) e s = .ok v s' from h1)
  exact ⟨hv, s1, _, text, complete_of ho he (keeping_keeps k d e _) h2, h3, h4⟩

/-- ... and whatever the examples do, at least all special forms and native functions, in order. -/
theorem C68_help_any (W : World) (args : List Val) (e : Nat) (s s' : St) (v : Val) (h : perform W (.builtin .help args e) s = .ok v s') :
    v = .nil ∧ ∃ s1 ls text, BasicListing W ls ∧ HelpText W ls text ∧ s' = printed s1 (text ++ " <nil>\n".toList) := by
  rw [perform_eq] at h
  obtain ⟨hv, fs, s1, text, h2, h3, h4⟩ := bHelp_ok (show bHelp W (perform W) e s = .ok v s' from h)
  exact ⟨hv, s1, _, text, basic_of h2, h3, h4⟩

example : ∃ s', perform sampleWorld (.builtin .help [] 0) (initSt []) = .ok .nil s' := by
  have h : (run sampleWorld 60 60 (.builtin .help [] 0) (initSt [])).isOk = true := by decide +kernel
  obtain ⟨v, s', hv⟩ := Res.isOk_iff h
  have hv' : perform sampleWorld (.builtin .help [] 0) (initSt []) = .ok v s' := (perform_of_run (by rw [hv]; trivial)).trans hv
  obtain ⟨rfl, -⟩ := C68_help_any _ _ _ _ _ _ hv'
  exact ⟨s', hv'⟩

/-! ### C58: the flags -/

/-- C58: `-v` prints the version and ends at once: nothing is loaded, read or evaluated, whatever else is on the command line. -/
theorem C58_version (W : World) (call : Task → M Val) (n : Nat) (core : List Char) (fl : Flags) (s : St) (h : fl.version = true) :
    mainFlags W call n core fl s = .exit 0 (printed s "v0.0.57-dirty\n".toList) := by
  unfold mainFlags
  rw [M.ite_pos h]
  rfl

/-- `l1 -v -doc -e (undefined) file`. -/
example : mainFlags sampleWorld (perform sampleWorld) 9 coreText { version := true, doc := true, expr := "(undefined)".toList, files := ["file"] } (initSt [])
    = .exit 0 (printed (initSt []) "v0.0.57-dirty\n".toList) :=
  C58_version _ _ _ _ _ _ rfl

/-- C58: `-doc` and `-longdoc` ignore `-e`, files and the REPL; `-doc` is preferred. -/
theorem C58_doc_first (W : World) (call : Task → M Val) (n m : Nat) (core : List Char) (fl : Flags) (hv : fl.version = false)
    (h : fl.doc = true ∨ fl.longdoc = true) :
    mainFlags W call n core fl = mainFlags W call m core { doc := fl.doc, longdoc := !fl.doc } := by
  obtain ⟨v, d, l, x, f⟩ := fl
  cases hv
  cases d with
  | true => cases l <;> rfl
  | false =>
    rcases h with h | h
    · cases h
    · cases h; rfl

/-- `l1 -doc -longdoc file` does what `l1 -doc` does. -/
example : mainFlags sampleWorld (perform sampleWorld) 9 coreText { doc := true, longdoc := true, files := ["file"] }
    = mainFlags sampleWorld (perform sampleWorld) 9 coreText { doc := true } :=
  C58_doc_first _ _ _ _ _ _ rfl (.inl rfl)

/-- C58: without these three flags the program is as described by the other theorems; `-e` with an empty text counts as no `-e`. -/
theorem C58_no_flags (W : World) (call : Task → M Val) (n : Nat) (core : List Char) (fl : Flags)
    (h : fl.version = false ∧ fl.doc = false ∧ fl.longdoc = false) :
    mainFlags W call n core fl = mainWith W call n core (if fl.expr = [] then none else some fl.expr) fl.files := by
  obtain ⟨v, d, l, x, f⟩ := fl
  obtain ⟨h1, h2, h3⟩ := h
  cases h1; cases h2; cases h3
  rfl

/-- `l1 -e "" file`. -/
example : mainFlags sampleWorld (perform sampleWorld) 9 coreText { expr := [], files := ["file"] } = mainWith sampleWorld (perform sampleWorld) 9 coreText none ["file"] :=
  C58_no_flags _ _ _ _ _ ⟨rfl, rfl, rfl⟩

/-- The start of the program with a documentation flag. -/
theorem main_doc (W : World) (n : Nat) (inp : List (List Char)) (fl : Flags) (hv : fl.version = false) (h : fl.doc = true ∨ fl.longdoc = true) :
    mainFlags W (perform W) n coreText fl (initSt inp)
      = (if fl.doc then shortDoc W (perform W) 0 else longDoc W (perform W) 0) (topSt (initSt inp) coreEnv) := by
  unfold mainFlags
  have h2 : (fl.doc || fl.longdoc) = true := by simpa using h
  rw [M.ite_neg (by simp [hv]), M.ite_pos h2]
  rw [M.bind_ok (attempt_ok (load_core inp))]

/-- C58, C68: `-doc` does what `(help)` does, and ends. -/
theorem C68_doc_flag (W : World) (n : Nat) (inp : List (List Char)) (fl : Flags) (v : Val) (s' : St) (hv : fl.version = false) (h : fl.doc = true)
    (hh : perform W (.builtin .help [] 0) (topSt (initSt inp) coreEnv) = .ok v s') :
    mainFlags W (perform W) n coreText fl (initSt inp) = .exit 0 s' := by
  rw [main_doc W n inp fl hv (.inl h), h]
  simp only [if_true]
  unfold shortDoc
  rw [perform_eq] at hh
  have hb : bHelp W (perform W) 0 (topSt (initSt inp) coreEnv) = .ok v s' := hh
  rw [M.bind_ok hb]
  rfl

theorem escapeMarks_eq (cs : List Char) : escapeMarks cs = cs.flatMap markSpelled := by
  induction cs with
  | nil => rfl
  | cons c cs ih => rw [escapeMarks, ih, List.flatMap_cons]; rfl

theorem toDigits_repr (n : Nat) : Nat.toDigits 10 n = n.repr.toList := by simp [Nat.repr]

theorem kind_cases {f : FormRec} (hk : f.Kind) :
    (f.ftype = "special form" ∧ f.listing.kind = "special-form") ∨ (f.ftype = "macro" ∧ f.listing.kind = "macro") ∨
    (f.ftype = "native function" ∧ f.listing.kind = "native-function") ∨ (f.ftype = "function" ∧ f.listing.kind = "function") := by
  have h1 : String.ofList ("special form".toList.map fun c => if c = ' ' then '-' else c) = "special-form" := by decide +kernel
  have h2 : String.ofList ("macro".toList.map fun c => if c = ' ' then '-' else c) = "macro" := by decide +kernel
  have h3 : String.ofList ("native function".toList.map fun c => if c = ' ' then '-' else c) = "native-function" := by decide +kernel
  have h4 : String.ofList ("function".toList.map fun c => if c = ' ' then '-' else c) = "function" := by decide +kernel
  rcases hk with ⟨h, _⟩ | ⟨h, _⟩ | ⟨h, _⟩ | ⟨h, _⟩
  · exact .inl ⟨h, by simp only [FormRec.listing, h, h1]⟩
  · exact .inr (.inl ⟨h, by simp only [FormRec.listing, h, h2]⟩)
  · exact .inr (.inr (.inl ⟨h, by simp only [FormRec.listing, h, h3]⟩))
  · exact .inr (.inr (.inr ⟨h, by simp only [FormRec.listing, h, h4]⟩))

theorem indexLine_eq {f : FormRec} (hk : f.Kind) : indexLine f = indexEntry f.listing := by
  unfold indexLine indexEntry
  rw [escapeMarks_eq]
  have hn : f.listing.name = f.name := rfl
  rw [hn]
  rcases kind_cases hk with ⟨h1, h2⟩ | ⟨h1, h2⟩ | ⟨h1, h2⟩ | ⟨h1, h2⟩ <;> rw [h1, h2] <;> simp

theorem kindWords_eq {f : FormRec} (hk : f.Kind) : kindWords f.listing = f.ftype := by
  unfold kindWords
  rcases kind_cases hk with ⟨h1, h2⟩ | ⟨h1, h2⟩ | ⟨h1, h2⟩ | ⟨h1, h2⟩ <;> rw [h1, h2] <;> simp

theorem docSection_eq {f : FormRec} {d : List Char} (hk : f.Kind) (hd : docToString f.doc = some d) : DocSection W f.listing (docSection W f d) := by
  obtain ⟨x, more, hx, hdd⟩ := docToString_some hd
  refine ⟨capitalizeC W d, f.examples, ⟨x, more, hx, by rw [hdd]⟩, ?_⟩
  rw [kindWords_eq hk]
  unfold docSection
  rw [escapeMarks_eq, toDigits_repr]
  obtain ⟨nm, b1, b2, b3, ar, mu, dc, ft, ag, ex⟩ := f
  cases mu <;> cases ex <;> rfl

theorem docSections_ok (fs : List FormRec) (hk : ∀ f ∈ fs, f.Kind) : ∀ {ls : List (List Char)}, docSections W fs = some ls →
    List.Forall₂ (DocSection W) (fs.map FormRec.listing) ls := by
  induction fs with
  | nil => intro ls h; cases h; exact .nil
  | cons f fs ih =>
    intro ls h
    simp only [docSections] at h
    cases hd : docToString f.doc with
    | none => rw [hd] at h; cases h
    | some d =>
      rw [hd] at h
      cases hl : docSections W fs with
      | none => rw [hl] at h; cases h
      | some ls' =>
        rw [hl] at h; cases h
        exact .cons (docSection_eq (hk f (by simp)) hd) (ih (fun g hg => hk g (by simp [hg])) hl)

theorem docSummary_eq (fs : List FormRec) (hk : ∀ f ∈ fs, f.Kind) : docSummary fs =
    "# API Index\n".toList ++ (fs.map FormRec.listing).length.repr.toList ++ " forms available:".toList
      ++ (fs.map FormRec.listing).flatMap indexEntry ++ "\n# Operators\n".toList := by
  unfold docSummary
  have e : fs.map indexLine = (fs.map FormRec.listing).map indexEntry := by
    rw [List.map_map]
    exact List.map_congr_left fun f hf => indexLine_eq (hk f hf)
  rw [toDigits_repr, List.length_map, List.flatMap_def, e]

attribute [local irreducible] L1.availableForms in
/-- C58, C68: `-longdoc` prints, for the operators `(forms)` lists, their number, an index and a section about each, and ends; it crashes if some
documentation does not begin with a list (and so may print as a single character). -/
theorem C68_longdoc_flag (W : World) (n : Nat) (inp : List (List Char)) (fl : Flags) (v : Val) (s' : St) (hv : fl.version = false)
    (hd : fl.doc = false) (h : fl.longdoc = true) (hf : perform W (.builtin .forms [] 0) (topSt (initSt inp) coreEnv) = .ok v s') :
    ∃ ls, v = vlist (ls.map Listing.value) ∧
      ((∃ text, LongText W ls text ∧ mainFlags W (perform W) n coreText fl (initSt inp) = .exit 0 (printed s' (text ++ ['\n']))) ∨
       (∃ l ∈ ls, ∀ d more, l.doc = .cons d more → d.isList = false) ∧ ∃ m, mainFlags W (perform W) n coreText fl (initSt inp) = .crash m s') := by
  rw [perform_eq] at hf
  obtain ⟨fs, h2, rfl⟩ := bForms_ok (show bForms W (perform W) 0 _ = .ok v s' from hf)
  refine ⟨fs.map FormRec.listing, values_of fs, ?_⟩
  rw [main_doc W n inp fl hv (.inr h), hd]
  simp only [Bool.false_eq_true, if_false]
  unfold longDoc
  rw [M.bind_ok h2]
  have hk := availableForms_kind h2
  cases hs : docSections W fs with
  | some ss =>
    left
    refine ⟨joinNl (docSummary fs :: ss), ⟨ss, docSections_ok fs hk hs, ?_⟩, rfl⟩
    rw [joinNl_eq, docSummary_eq fs hk]
  | none =>
    right
    refine ⟨?_, _, rfl⟩
    have : ∃ f ∈ fs, docToString f.doc = none := by
      clear hk h2 hf
      induction fs with
      | nil => cases hs
      | cons f fs ih =>
        simp only [docSections] at hs
        cases hd : docToString f.doc with
        | none => exact ⟨f, by simp, hd⟩
        | some d =>
          rw [hd] at hs
          cases hl : docSections W fs with
          | none =>
            obtain ⟨g, hg, hgn⟩ := ih hl
            exact ⟨g, by simp [hg], hgn⟩
          | some ls' => rw [hl] at hs; cases hs
    obtain ⟨f, hf, hn⟩ := this
    refine ⟨f.listing, List.mem_map.2 ⟨f, hf, rfl⟩, ?_⟩
    intro d more hdm
    have hdm : f.doc = .cons d more := hdm
    rw [hdm] at hn
    simp only [docToString] at hn
    cases d with
    | nil => rw [show Val.nil.str = ['(', ')'] from rfl] at hn; cases hn
    | cons a b =>
      exfalso
      split at hn
      · rename_i hc; simp [Val.str, strAux] at hc
      · rename_i c hc; cases b <;> simp [Val.str, strAux] at hc
      · cases hn
    | _ => rfl

/-! The hypotheses are met: with one documented function, `(forms)` and `(help)` keep the variables and return. -/

/-- `runWatched` for `keeping h`, computable. -/
def runKept (W : World) (h : Heap) : Nat → Nat → Task → M Val
  | 0, _, _ => fun _ => .oof
  | n + 1, d, t => fun s =>
    let r := runStep W (lower d (runKept W h n)) (runKept W h n d) t s
    if ∀ s1 ∈ r.final, h <+: s1.heap then r else .crash "watch" s

theorem watched_keeping (h : Heap) (f : Task → M Val) (t : Task) (s : St) :
    watched (keeping h) f t s = (if ∀ s1 ∈ (f t s).final, h <+: s1.heap then f t s else .crash "watch" s : Res Val) := by
  have h0 : (keeping h).pre t s := trivial
  by_cases hc : ∀ s1 ∈ (f t s).final, h <+: s1.heap
  · have h1 : (keeping h).post t s (f t s) := fun s1 e => hc s1 e
    exact ((if_pos h0).trans (if_pos h1)).trans (if_pos hc).symm
  · have h1 : ¬ (keeping h).post t s (f t s) := fun g => hc fun s1 e => g s1 e
    exact ((if_pos h0).trans (if_neg h1)).trans (if_neg hc).symm

theorem runKept_eq (W : World) (h : Heap) (n : Nat) : ∀ d, runKept W h n d = runWatched W (keeping h) n d := by
  induction n with
  | zero => intro d; rfl
  | succ n ih =>
    intro d
    funext t s
    have e : runKept W h n = runWatched W (keeping h) n := funext ih
    refine Eq.trans ?_ (watched_keeping h (runStep W (lower d (runWatched W (keeping h) n)) (runWatched W (keeping h) n d)) t s).symm
    rw [← e]
    rfl

/-- A state with a documented function `f`. -/
def documented : St :=
  { heap := [⟨[("f", .lam ["x"] "more" .nil (vlist [vlist [.atom "does", .atom "things"], vlist [.atom "examples", .num 1]]) false 0)], none⟩] }

example : ∃ v s', runWatched sampleWorld (keeping documented.heap) 60 60 (.builtin .forms [] 0) documented = .ok v s' ∧
    ∃ ls : List Listing, v = vlist (ls.map Listing.value) ∧
      (⟨"f", "function", 1, true, .cons (.atom "x") (.atom "more"), vlist [vlist [.atom "does", .atom "things"], vlist [.atom "examples", .num 1]]⟩ : Listing) ∈ ls := by
  have h : (runKept sampleWorld documented.heap 60 60 (.builtin .forms [] 0) documented).isOk = true := by decide +kernel
  rw [runKept_eq] at h
  obtain ⟨v, s', hv⟩ := Res.isOk_iff h
  refine ⟨v, s', hv, ?_⟩
  have hold : Older documented.heap := by
    intro i f hf p hp
    match i, hf with
    | 0, hf => cases hf; cases hp
  obtain ⟨ls, h1, h2⟩ := C68_forms _ _ _ _ _ _ _ _ hold (by decide) hv
  refine ⟨ls, h1, (h2.2 _).2 (.inr (.inr ⟨0, ["x"], "more", .nil, _, false, 0, ⟨[], [], .top rfl rfl, by simp, by simp [bindingIn, documented, alGet]⟩, rfl, by nofun, rfl⟩))⟩

example : ∃ v s', runWatched sampleWorld (keeping documented.heap) 60 60 (.builtin .help [] 0) documented = .ok v s' := by
  have h : (runKept sampleWorld documented.heap 60 60 (.builtin .help [] 0) documented).isOk = true := by decide +kernel
  rw [runKept_eq] at h
  exact Res.isOk_iff h

end L1
