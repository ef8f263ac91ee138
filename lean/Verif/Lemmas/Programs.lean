import Verif.Lemmas.ExampleText
import Verif.Lemmas.CoreRest
import Verif.Props.LibraryRest
/-
Running programs written on top of the core library.
-/
set_option autoImplicit false
namespace L1

variable {W : World}

/-- The top-level scope binds, besides the library, `U`. -/
structure Prog (h : Heap) (U : List (String × Val)) : Prop where
  core : CoreAt h 0
  binds : ∀ x v, alGet x U = some v → lookup h 0 x = some v

theorem Prog.sc {h : Heap} {U : List (String × Val)} (hp : Prog h U) : Sc h 0 U := .globals hp.core.base hp.binds

theorem Prog.mono {h h' : Heap} {U : List (String × Val)} (hp : Prog h U) (hh : h <+: h') : Prog h' U :=
  ⟨hp.core.mono hh, fun x v hx => (hp.core.nested.lookup_prefix hh x).trans (hp.binds x v hx)⟩

theorem Prog.top {h : Heap} {U : List (String × Val)} (hp : Prog h U) : ∃ f, h[0]? = some f ∧ f.parent = none := by
  cases hp.core.nested with
  | top hf hq => exact ⟨_, hf, hq⟩
  | inside _ _ hlt => exact absurd hlt (by omega)

theorem Prog.same0 {h h' : Heap} {U : List (String × Val)} (hp : Prog h U) (hh : h'[0]? = h[0]?) : Prog h' U := by
  obtain ⟨f, h1, h2⟩ := hp.top
  refine ⟨hp.core.same0 hh, fun x v hx => ?_⟩
  have := hp.binds x v hx
  unfold lookup at this ⊢
  simpa only [lookupAux, hh] using this

theorem prog_start (s : St) : Prog (topSt s coreEnv).heap [] := ⟨coreAt_loaded s, fun _ _ h => by cases h⟩

/-- A top-level definition. -/
theorem Prog.defn {s : St} {U : List (String × Val)} {x : Val} {name : String} {f : Val} (hp : Prog s.heap U) (hd : defOf x = some (name, f))
    (hk : known name = none) (ht : name ≠ "t") (hf : ∃ r, x = .cons (.atom "defn") r) :
    ∃ s1, eval W x 0 s = .ok .nil s1 ∧ Prog s1.heap ((name, f) :: U) ∧ s1.out = s.out ∧ s1.tick = s.tick ∧ s1.inp = s.inp ∧ s1.screen = s.screen := by
  obtain ⟨r, rfl⟩ := hf
  unfold defOf at hd
  split at hd
  · rename_i hd0 nm a d heq
    injection heq with h1 h2
    injection h1 with h1
    subst h1; subst h2
    rw [if_neg (by decide), if_pos (.inl rfl)] at hd
    by_cases ha : a.isList = true
    · rw [if_pos ha] at hd
      split at hd
      · rename_i g s' hmk
        cases hd
        have hmk' := mkLambda_any ha hmk s
        rw [show decide ("defn" = "defmacro") = false from rfl] at hmk'
        have e1 : eval W (.cons (.atom "defn") (.cons (.atom name) (.cons a d))) 0 s = evDefn false 0 (.cons (.atom name) (.cons a d)) s :=
          eval_sf W .defn _ 0 _ (hp.core.base.notMacro_sf known_defn) rfl
        have hset : setTopM 0 name f s = .ok () { s with heap := heapSet s.heap 0 name f } := by
          have hr : root s.heap 0 = 0 := by
            obtain ⟨fr, h1, h2⟩ := hp.top
            simp [root, rootAux, h1, h2]
          unfold setTopM setM
          rw [hr, if_neg ht]
        refine ⟨{ s with heap := heapSet s.heap 0 name f }, ?_, ?_, rfl, rfl, rfl, rfl⟩
        · rw [e1]
          simp only [evDefn]
          rw [M.bind_ok (extend_ok hmk'), M.bind_ok (extend_ok hset)]; rfl
        · have hkn : ∀ x r, known x = some r → x ≠ name := fun x r h hx => by rw [hx, hk] at h; cases h
          refine ⟨hp.core.set hkn 0 f, fun x v hx => ?_⟩
          by_cases hxn : name = x
          · subst hxn
            rw [show alGet name ((name, f) :: U) = some f by simp [alGet]] at hx
            cases hx
            obtain ⟨fr, h1, h2⟩ := hp.top
            simp [lookup, lookupAux, heapSet_get, h1, alGet_alSet]
          · rw [show alGet x ((name, f) :: U) = alGet x U by simp [alGet, hxn]] at hx
            rw [← hp.binds x v hx]
            unfold lookup
            exact lookupAux_heapSet_ne (Ne.symm hxn) _ _
      · cases hd
    · rw [if_neg ha] at hd; cases hd
  · cases hd

end L1
