import Verif.Lemmas.CoreFns
import Verif.Lemmas.CoreCxr
/-
From the behaviour of a library function to that of a call of it.
-/
set_option autoImplicit false
namespace L1
variable {W : World}

theorem known_some_none {a : String} (h : known a = some none) : alGet a coreEnv = none := by
  unfold known at h
  split at h
  · cases h
  · assumption

theorem known_some_some {a : String} {v : Val} (h : known a = some (some v)) : alGet a coreEnv = some v := by
  unfold known at h
  split at h
  · cases h; assumption
  · split at h <;> cases h

theorem Head.reaches {a : String} {f : Val} (hk : Head a f) {s0 : St} {e : Nat} (hl : lookup s0.heap e a = alGet a coreEnv) :
    CallHead s0.heap e (.atom a) ∧ eval W (.atom a) e s0 = .ok f s0 := by
  have hk2 := hk.val
  unfold coreVal at hk2
  cases hkn : known a with
  | none => rw [hkn] at hk2; cases hk2
  | some r =>
    rw [hkn] at hk2
    cases r with
    | some w =>
      cases hk2
      rw [known_some_some hkn] at hl
      refine ⟨callHead_of hk.special fun ps r b dc env he => ?_, eval_atom_bound hk.cxr hk.t hl⟩
      rw [hl] at he
      exact notMacro_val hk.notMacro ps r b dc env (Option.some.inj he)
    | none =>
      rw [known_some_none hkn] at hl
      simp only [Option.map_eq_some_iff] at hk2
      obtain ⟨b, hb, rfl⟩ := hk2
      refine ⟨callHead_of hk.special fun ps r b dc env he => ?_, eval_atom_bi hk.cxr hk.t hl hb⟩
      rw [hl] at he; cases he

theorem Returns.gives {s : St} {f v : Val} {vs : List Val} (h : Returns W s f vs v) {a : String} (hk : Head a f) : Gives W s a vs v := by
  intro e args s0 hl ha
  obtain ⟨h1, h2⟩ := hk.reaches (W := W) hl
  obtain ⟨s', h3, h4⟩ := h s e (.refl _)
  exact ⟨s', (eval_reaches h1 ⟨s0, h2, ha⟩).trans h3, h4⟩

theorem Makes.gives {s : St} {f : Val} {vs : List Val} {P : St → Val → Prop} (h : Makes W s f vs P) {a : String} (hk : Head a f) : GivesSome W s a vs P := by
  intro e args s0 hl ha
  obtain ⟨h1, h2⟩ := hk.reaches (W := W) hl
  obtain ⟨v, s', h3, h4⟩ := h s e (.refl _)
  exact ⟨v, s', (eval_reaches h1 ⟨s0, h2, ha⟩).trans h3, h4⟩

theorem Fails.gives {s : St} {f : Val} {vs : List Val} (h : Fails W s f vs) {a : String} (hk : Head a f) : GivesError W s a vs := by
  intro e args s0 hl ha
  obtain ⟨h1, h2⟩ := hk.reaches (W := W) hl
  obtain ⟨er, s', h3, h4⟩ := h s e (.refl _)
  exact ⟨er, s', (eval_reaches h1 ⟨s0, h2, ha⟩).trans h3, h4⟩

end L1
