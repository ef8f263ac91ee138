import Verif.Lemmas.Effects
import Verif.Lemmas.Core
import Verif.Lemmas.Scopes
import Verif.Props.Data
import Verif.Spec.Docs
/-
The listing of operators (C68): what `availableForms` returns.
-/
set_option autoImplicit false
namespace L1

variable {W : World} {call : Task → M Val}

/-- The listing in a record. -/
def FormRec.listing (f : FormRec) : Listing :=
  ⟨f.name, String.ofList (f.ftype.toList.map fun c => if c = ' ' then '-' else c), f.farity, f.multi, f.args, f.doc⟩

theorem formVal_listing (f : FormRec) : formVal f = f.listing.value := by
  cases f; rfl

theorem insertForm_perm (x : FormRec) (ys : List FormRec) : (insertForm x ys).Perm (x :: ys) := by
  induction ys with
  | nil => exact .refl _
  | cons y ys ih =>
    simp only [insertForm]
    split
    · exact .refl _
    · exact (ih.cons y).trans (.swap x y ys)

/-- The order of two records. -/
def RecLe (a b : FormRec) : Prop := ¬ b.name.toList < a.name.toList

theorem RecLe.trans {a b c : FormRec} (h1 : RecLe a b) (h2 : RecLe b c) : RecLe a c :=
  List.not_lt.2 (List.le_trans (List.not_lt.1 h1) (List.not_lt.1 h2))

theorem insertForm_sorted (x : FormRec) (ys : List FormRec) (h : ys.Pairwise RecLe) : (insertForm x ys).Pairwise RecLe := by
  induction ys with
  | nil => simp [insertForm]
  | cons y ys ih =>
    simp only [insertForm]
    rw [List.pairwise_cons] at h
    split
    · rename_i hlt
      have hxy : RecLe x y := by
        rw [charsLt_iff] at hlt
        exact fun h' => absurd (List.lt_trans hlt h') (List.lt_irrefl _)
      refine List.pairwise_cons.2 ⟨fun z hz => ?_, List.pairwise_cons.2 h⟩
      rcases List.mem_cons.1 hz with rfl | hz
      · exact hxy
      · exact hxy.trans (h.1 z hz)
    · rename_i hlt
      have hyx : RecLe y x := by rw [charsLt_iff] at hlt; exact hlt
      refine List.pairwise_cons.2 ⟨fun z hz => ?_, ih h.2⟩
      rcases List.mem_cons.1 ((insertForm_perm x ys).mem_iff.1 hz) with rfl | hz
      · exact hyx
      · exact h.1 z hz

theorem foldForms (xs : List FormRec) : ∀ acc : List FormRec, acc.Pairwise RecLe →
    (xs.foldl (fun acc x => insertForm x acc) acc).Perm (xs ++ acc) ∧ (xs.foldl (fun acc x => insertForm x acc) acc).Pairwise RecLe := by
  induction xs with
  | nil => intro acc h; exact ⟨.refl _, h⟩
  | cons x xs ih =>
    intro acc h
    obtain ⟨h1, h2⟩ := ih _ (insertForm_sorted x acc h)
    exact ⟨h1.trans (((insertForm_perm x acc).append_left xs).trans List.perm_middle), h2⟩

theorem mapOrder_ok {α : Type} (xs : List α) (s : St) :
    ∃ ys s1, mapOrder W xs s = .ok ys s1 ∧ ys.Perm xs ∧ s1.heap = s.heap := by
  obtain ⟨ys, h1, h2⟩ := shuffleLoop_perm W (xs.length - 1) xs s
  exact ⟨ys, _, h1, h2, rfl⟩

theorem mapOrders_ok (ks : List (List String)) : ∀ s : St, ∃ ys s1, mapOrders W ks s = .ok ys s1 ∧ ys.Perm ks.flatten ∧ s1.heap = s.heap := by
  induction ks with
  | nil => intro s; exact ⟨[], s, rfl, .refl _, rfl⟩
  | cons k ks ih =>
    intro s
    obtain ⟨ys, s1, h1, p1, e1⟩ := mapOrder_ok (W := W) k s
    obtain ⟨zs, s2, h2, p2, e2⟩ := ih s1
    refine ⟨ys ++ zs, s2, ?_, p1.append p2, e2.trans e1⟩
    simp only [mapOrders]
    rw [M.bind_ok h1, M.bind_ok h2]; rfl

/-- The listing of a native function. -/
def nativeListing (W : World) (b : BI) : Listing :=
  ⟨b.name, "native-function", (biDoc b).fixedArity, (biDoc b).nary, (biDoc b).args, vlist [biDocList W b]⟩

theorem formsOfBuiltins_ok {e : Nat} (bs : List BI) : ∀ {s s' : St} {fs : List FormRec}, formsOfBuiltins W call e bs s = .ok fs s' →
    fs.map FormRec.listing = bs.map (nativeListing W) := by
  induction bs with
  | nil => intro s s' fs h; cases h; rfl
  | cons b bs ih =>
    intro s s' fs h
    simp only [formsOfBuiltins] at h
    obtain ⟨ex, s1, h1, h⟩ := M.bind_eq_ok.1 h
    obtain ⟨rest, s2, h2, h⟩ := M.bind_eq_ok.1 h
    cases h
    rw [List.map_cons, List.map_cons, ih h2]
    congr 1
    simp only [FormRec.listing, nativeListing, Listing.mk.injEq, true_and, and_true]
    decide +kernel

/-- The listing of what a name is bound to. -/
def keyListing (h : Heap) (e : Nat) (k : String) : Option Listing :=
  match lookup h e k with
  | some (.lam ps r _ doc m _) =>
    if doc ≠ .nil then some ⟨k, if m then "macro" else "function", ps.length, decide (r ≠ ""), paramsShown ps r, doc⟩ else none
  | _ => none

theorem combineArgs_shown {ps : List String} {r : String} : (if r ≠ "" then combineArgs ps (.atom r) else vlist (ps.map .atom)) = paramsShown ps r := by
  unfold paramsShown
  by_cases hr : r = ""
  · rw [if_neg (by simpa using hr), if_pos hr]
  · rw [if_pos hr, if_neg hr]
    cases ps with
    | nil => rfl
    | cons p ps =>
      rw [if_neg (by simp)]
      induction ps generalizing p with
      | nil => rfl
      | cons q ps ih => rw [combineArgs, ih]; · rfl
                        simp

/-- Evaluations keep the variables there were. -/
def KeepsVars (call : Task → M Val) (e : Nat) (h0 : Heap) : Prop :=
  ∀ x s1 s2, ((∃ v, call (.eval x e) s1 = .ok v s2) ∨ ∃ er, call (.eval x e) s1 = .err er s2) → h0 <+: s2.heap

theorem runExamples_keeps {e : Nat} {h0 : Heap} (hc : KeepsVars call e h0) (v : Val) :
    ∀ {s s' : St} {cs : List Char}, h0 <+: s.heap → runExamples call e v s = .ok cs s' → h0 <+: s'.heap := by
  induction v with
  | cons x d _ ih =>
    intro s s' cs hp h
    simp only [runExamples] at h
    by_cases hx : x = .nil
    · rw [M.ite_pos hx] at h; cases h; exact hp
    · rw [M.ite_neg hx] at h
      obtain ⟨r, s1, h1, h⟩ := M.bind_eq_ok.1 h
      obtain ⟨rest, s2, h2, h⟩ := M.bind_eq_ok.1 h
      cases h
      refine ih (hc x s s1 ?_) h2
      rw [attempt_run] at h1
      cases hr : call (.eval x e) s <;> rw [hr] at h1 <;> cases h1
      · exact .inl ⟨_, rfl⟩
      · exact .inr ⟨_, rfl⟩
  | _ => intro s s' cs hp h; cases h; exact hp

theorem formsOfBuiltins_keeps {e : Nat} {h0 : Heap} (hc : KeepsVars call e h0) (bs : List BI) :
    ∀ {s s' : St} {fs : List FormRec}, h0 <+: s.heap → formsOfBuiltins W call e bs s = .ok fs s' → h0 <+: s'.heap := by
  induction bs with
  | nil => intro s s' fs hp h; cases h; exact hp
  | cons b bs ih =>
    intro s s' fs hp h
    simp only [formsOfBuiltins] at h
    obtain ⟨ex, s1, h1, h⟩ := M.bind_eq_ok.1 h
    obtain ⟨rest, s2, h2, h⟩ := M.bind_eq_ok.1 h
    cases h
    exact ih (runExamples_keeps hc _ hp h1) h2

theorem formsOfKeys_ok {e : Nat} {h0 : Heap} (ho : Older h0) (he : e < h0.length) (hc : KeepsVars call e h0) (ks : List String) :
    ∀ {s s' : St} {fs : List FormRec}, h0 <+: s.heap → formsOfKeys call e ks s = .ok fs s' →
    fs.map FormRec.listing = ks.filterMap (keyListing h0 e) := by
  induction ks with
  | nil => intro s s' fs _ h; cases h; rfl
  | cons k ks ih =>
    intro s s' fs hp h
    simp only [formsOfKeys] at h
    rw [M.bind_ok (lookupM_run _ _ _)] at h
    have hl : lookup s.heap e k = lookup h0 e k := lookup_prefix hp ho he k
    rw [hl] at h
    cases hv : lookup h0 e k with
    | none =>
      rw [hv] at h
      rw [List.filterMap_cons_none (by simp [keyListing, hv])]
      exact ih hp h
    | some v =>
      rw [hv] at h
      cases v with
      | lam ps r body doc m c =>
        dsimp only at h
        by_cases hd : doc ≠ .nil
        · rw [M.ite_pos hd] at h
          cases hex : examplesOf doc with
          | none => rw [hex] at h; cases h
          | some ex =>
            rw [hex] at h
            dsimp only at h
            obtain ⟨txt, s1, h1, h⟩ := M.bind_eq_ok.1 h
            obtain ⟨rest, s2, h2, h⟩ := M.bind_eq_ok.1 h
            cases h
            have hp1 : h0 <+: s1.heap := runExamples_keeps hc ex hp h1
            rw [List.filterMap_cons_some (b := ⟨k, if m then "macro" else "function", ps.length, decide (r ≠ ""), paramsShown ps r, doc⟩) (by simp [keyListing, hv, hd])]
            rw [List.map_cons, ih hp1 h2]
            congr 1
            simp only [FormRec.listing, Listing.mk.injEq, true_and]
            refine ⟨?_, ?_⟩
            · cases m <;> rfl
            · exact ⟨combineArgs_shown, trivial⟩
        · rw [M.ite_neg hd] at h
          rw [List.filterMap_cons_none (by simp [keyListing, hv]; simpa using hd)]
          exact ih hp h
      | _ =>
        rw [List.filterMap_cons_none (by simp [keyListing, hv])]
        exact ih hp h

theorem envKeysAux_prefix {h h' : Heap} (hp : h <+: h') (ho : Older h) (k : Nat) :
    ∀ e, e < h.length → envKeysAux h' k e = envKeysAux h k e := by
  induction k with
  | zero => intro e _; rfl
  | succ k ih =>
    intro e he
    have hf := List.getElem?_eq_getElem he
    have hf' := prefix_get hp hf
    simp only [envKeysAux, hf, hf']
    cases hpar : h[e].parent with
    | none => rfl
    | some p => simp only; rw [ih p (Nat.lt_trans (ho e _ hf p hpar) he)]

theorem alGet_isSome {x : String} {l : List (String × Val)} : (alGet x l).isSome ↔ x ∈ l.map (·.1) := by
  induction l with
  | nil => simp [alGet]
  | cons a l ih =>
    obtain ⟨y, v⟩ := a
    simp only [alGet, List.map_cons, List.mem_cons]
    by_cases h : y = x
    · simp [h]
    · simp [h, ih, Ne.symm h]

theorem mem_envKeys {h : Heap} (ho : Older h) (x : String) (k : Nat) : ∀ e, e < h.length → e < k →
    (x ∈ (envKeysAux h k e).flatten ↔ (lookupAux h k e x).isSome) := by
  induction k with
  | zero => intro e _ hk; omega
  | succ k ih =>
    intro e he hk
    have hf := List.getElem?_eq_getElem he
    simp only [envKeysAux, lookupAux, hf, List.flatten_cons, List.mem_append]
    rw [← alGet_isSome]
    cases hg : alGet x h[e].syms with
    | some v => simp
    | none =>
      cases hpar : h[e].parent with
      | none => simp
      | some p =>
        have hlt := ho e _ hf p hpar
        simp only [Option.isSome_none, Bool.false_eq_true, false_or]
        exact ih p (by omega) (by omega)

/-- The special forms. -/
def formListings : List Listing :=
  specialDocs.map fun (n, a, m, d, g) => ⟨n, "special-form", a, m, g, vlist [atomList (splitOnChar ' ' d.toList)]⟩

theorem specialRecs_listing : specialRecs.map FormRec.listing = formListings := by
  unfold specialRecs formListings
  rw [List.map_map]
  refine List.map_congr_left fun x _ => ?_
  obtain ⟨n, a, m, d, g⟩ := x
  simp only [Function.comp, FormRec.listing, Listing.mk.injEq, true_and, and_true]
  decide +kernel

/-- The kinds of records. -/
def FormRec.Kind (f : FormRec) : Prop :=
  (f.ftype = "special form" ∧ f.isSpecial = true) ∨ (f.ftype = "macro" ∧ f.isSpecial = false ∧ f.isMacro = true) ∨
  (f.ftype = "native function" ∧ f.isSpecial = false ∧ f.isMacro = false ∧ f.isNative = true) ∨
  (f.ftype = "function" ∧ f.isSpecial = false ∧ f.isMacro = false ∧ f.isNative = false)

theorem formsOfKeys_kind {e : Nat} (ks : List String) : ∀ {s s' : St} {fs : List FormRec}, formsOfKeys call e ks s = .ok fs s' →
    ∀ f ∈ fs, f.Kind ∧ (f.ftype = "macro" ∨ f.ftype = "function") := by
  induction ks with
  | nil => intro s s' fs h; cases h; intro f hf; cases hf
  | cons k ks ih =>
    intro s s' fs h
    simp only [formsOfKeys] at h
    rw [M.bind_ok (lookupM_run _ _ _)] at h
    cases hv : lookup s.heap e k with
    | none => rw [hv] at h; exact ih h
    | some v =>
      rw [hv] at h
      cases v with
      | lam ps r body doc m c =>
        dsimp only at h
        by_cases hd : doc ≠ .nil
        · rw [M.ite_pos hd] at h
          cases hex : examplesOf doc with
          | none => rw [hex] at h; cases h
          | some ex =>
            rw [hex] at h
            dsimp only at h
            obtain ⟨txt, s1, h1, h⟩ := M.bind_eq_ok.1 h
            obtain ⟨rest, s2, h2, h⟩ := M.bind_eq_ok.1 h
            cases h
            intro f hf
            rcases List.mem_cons.1 hf with rfl | hf
            · cases m <;> simp [FormRec.Kind]
            · exact ih h2 f hf
        · rw [M.ite_neg hd] at h
          exact ih h
      | _ => exact ih h

theorem formsOfBuiltins_kind {e : Nat} (bs : List BI) : ∀ {s s' : St} {fs : List FormRec}, formsOfBuiltins W call e bs s = .ok fs s' →
    ∀ f ∈ fs, f.Kind := by
  induction bs with
  | nil => intro s s' fs h; cases h; intro f hf; cases hf
  | cons b bs ih =>
    intro s s' fs h
    simp only [formsOfBuiltins] at h
    obtain ⟨ex, s1, h1, h⟩ := M.bind_eq_ok.1 h
    obtain ⟨rest, s2, h2, h⟩ := M.bind_eq_ok.1 h
    cases h
    intro f hf
    rcases List.mem_cons.1 hf with rfl | hf
    · simp [FormRec.Kind]
    · exact ih h2 f hf

attribute [local irreducible] L1.mapOrder in
theorem availableForms_kind {e : Nat} {s s' : St} {fs : List FormRec} (h : availableForms W call e s = .ok fs s') : ∀ f ∈ fs, f.Kind := by
  unfold availableForms at h
  obtain ⟨bs, s1, h1, h⟩ := M.bind_eq_ok.1 h
  obtain ⟨fb, s2, h2, h⟩ := M.bind_eq_ok.1 h
  obtain ⟨ks, s3, h3, h⟩ := M.bind_eq_ok.1 h
  obtain ⟨ks', s4, h4, h⟩ := M.bind_eq_ok.1 h
  obtain ⟨fk, s5, h5, h⟩ := M.bind_eq_ok.1 h
  cases h
  intro f hf
  have := (foldForms (specialRecs ++ fb ++ fk) [] .nil).1.mem_iff.1 hf
  rw [List.append_nil, List.mem_append, List.mem_append] at this
  rcases this with (hf | hf) | hf
  · obtain ⟨⟨n, a, m, d, g⟩, hx, rfl⟩ := List.mem_map.1 hf
    simp [FormRec.Kind]
  · exact formsOfBuiltins_kind _ h2 f hf
  · exact (formsOfKeys_kind _ h5 f hf).1

attribute [local irreducible] L1.mapOrder in
/-- What `availableForms` returns, in general ... -/
theorem availableForms_any {e : Nat} {s s' : St} {fs : List FormRec} (h : availableForms W call e s = .ok fs s') :
    ∃ bs : List BI, ∃ fk : List FormRec, (∀ f ∈ fk, f.ftype = "macro" ∨ f.ftype = "function") ∧ bs.Perm BI.all ∧ (fs.map FormRec.listing).Perm (formListings ++ bs.map (nativeListing W) ++ fk.map FormRec.listing) ∧
      fs.Pairwise RecLe := by
  unfold availableForms at h
  obtain ⟨bs, s1, h1, h⟩ := M.bind_eq_ok.1 h
  obtain ⟨fb, s2, h2, h⟩ := M.bind_eq_ok.1 h
  obtain ⟨ks, s3, h3, h⟩ := M.bind_eq_ok.1 h
  obtain ⟨ks', s4, h4, h⟩ := M.bind_eq_ok.1 h
  obtain ⟨fk, s5, h5, h⟩ := M.bind_eq_ok.1 h
  cases h
  obtain ⟨ys, t, hy, hp, _⟩ := mapOrder_ok (W := W) BI.all s
  rw [hy] at h1; cases h1
  obtain ⟨p1, p2⟩ := foldForms (specialRecs ++ fb ++ fk) [] .nil
  refine ⟨_, fk, fun f hf => (formsOfKeys_kind _ h5 f hf).2, hp, ?_, p2⟩
  have := p1.map FormRec.listing
  rw [List.append_nil, List.map_append, List.map_append, specialRecs_listing, formsOfBuiltins_ok _ h2] at this
  exact this

attribute [local irreducible] L1.mapOrder in
/-- ... and if no variable is changed meanwhile. -/
theorem availableForms_ok {e : Nat} {s s' : St} {fs : List FormRec} (ho : Older s.heap) (he : e < s.heap.length)
    (hc : KeepsVars call e s.heap) (h : availableForms W call e s = .ok fs s') :
    ∃ bs : List BI, ∃ ks : List String, bs.Perm BI.all ∧ ks.Perm (envKeysAux s.heap (e + 1) e).flatten ∧
      (fs.map FormRec.listing).Perm (formListings ++ bs.map (nativeListing W) ++ ks.filterMap (keyListing s.heap e)) ∧ fs.Pairwise RecLe := by
  unfold availableForms at h
  obtain ⟨bs, s1, h1, h⟩ := M.bind_eq_ok.1 h
  obtain ⟨fb, s2, h2, h⟩ := M.bind_eq_ok.1 h
  obtain ⟨ks, s3, h3, h⟩ := M.bind_eq_ok.1 h
  obtain ⟨ks', s4, h4, h⟩ := M.bind_eq_ok.1 h
  obtain ⟨fk, s5, h5, h⟩ := M.bind_eq_ok.1 h
  cases h
  obtain ⟨ys, t, hy, hp, hh⟩ := mapOrder_ok (W := W) BI.all s
  rw [hy] at h1; cases h1
  have hp2 : s.heap <+: s2.heap := formsOfBuiltins_keeps hc bs (by rw [hh]; exact List.prefix_refl _) h2
  cases h3
  obtain ⟨zs, t2, hz, hpz, hhz⟩ := mapOrders_ok (W := W) (envKeysAux s2.heap (e + 1) e) s2
  rw [hz] at h4; cases h4
  rw [envKeysAux_prefix hp2 ho _ _ he] at hpz
  obtain ⟨p1, p2⟩ := foldForms (specialRecs ++ fb ++ fk) [] .nil
  refine ⟨_, _, hp, hpz, ?_, p2⟩
  have := p1.map FormRec.listing
  rw [List.append_nil, List.map_append, List.map_append, specialRecs_listing, formsOfBuiltins_ok _ h2,
    formsOfKeys_ok ho he hc _ (by rw [hhz]; exact hp2) h5] at this
  exact this

end L1
