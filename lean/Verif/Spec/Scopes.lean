import Verif.Model.Limit
/-
Specification of scopes, independent of how the interpreter walks them.
-/
set_option autoImplicit false
namespace L1

/-- What scope number `i` itself binds `x` to. -/
def bindingIn (h : Heap) (i : Nat) (x : String) : Option Val :=
  match h[i]? with
  | some f => alGet x f.syms
  | none => none

/-- `Chain h e is`: `is` are the scope `e` and its enclosing scopes, innermost first, ending with the top level. -/
inductive Chain (h : Heap) : Nat → List Nat → Prop
  | top {e : Nat} {f : Frame} : h[e]? = some f → f.parent = none → Chain h e [e]
  | step {e p : Nat} {f : Frame} {is : List Nat} : h[e]? = some f → f.parent = some p → Chain h p is → Chain h e (e :: is)

/-- Scope `i` is the nearest one enclosing `e` (or `e` itself) that binds `x`. -/
def NearestIn (h : Heap) (e : Nat) (x : String) (i : Nat) : Prop :=
  ∃ inner outer, Chain h e (inner ++ i :: outer) ∧ (∀ j ∈ inner, bindingIn h j x = none) ∧ bindingIn h i x ≠ none

/-- No scope visible from `e` binds `x`. -/
def Unbound (h : Heap) (e : Nat) (x : String) : Prop :=
  ∃ is, Chain h e is ∧ ∀ j ∈ is, bindingIn h j x = none

/-- Parents are older than their children and exist: true in every reachable state (C22). -/
def Older (h : Heap) : Prop := ∀ (i : Nat) (f : Frame), h[i]? = some f → ∀ p, f.parent = some p → p < i

/-- `h'` is `h` except that scope `i` now binds `x` to `v`: same scopes, same parents, every other binding of every scope as
before. -/
structure OnlyBinding (h h' : Heap) (i : Nat) (x : String) (v : Val) : Prop where
  count : h'.length = h.length
  parents : ∀ j : Nat, (h'[j]?).map Frame.parent = (h[j]?).map Frame.parent
  here : bindingIn h' i x = some v
  others : ∀ j y, ¬ (j = i ∧ y = x) → bindingIn h' j y = bindingIn h j y

end L1
