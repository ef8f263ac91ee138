import Verif.Model.State
/-
Specification vocabulary: worlds that give the same answers.
-/
set_option autoImplicit false
namespace L1

/-- Two worlds that answer the queries number `L`, ..., `N - 1` alike (file contents, random numbers, subprocess results, keys, screen size, opening the
screen), and have the same fixed tables (case and digit tables for characters outside ASCII, the widths of characters, what a failed number parse leaves) and sorting algorithm. -/
structure Agree (L N : Nat) (W W' : World) : Prop where
  readFile : ∀ t, L ≤ t → t < N → W.readFile t = W'.readFile t
  rand : ∀ t, L ≤ t → t < N → W.rand t = W'.rand t
  shell : ∀ t, L ≤ t → t < N → W.shell t = W'.shell t
  key : ∀ t, L ≤ t → t < N → W.key t = W'.key t
  size : ∀ t, L ≤ t → t < N → W.size t = W'.size t
  openScreen : ∀ t, L ≤ t → t < N → W.openScreen t = W'.openScreen t
  badNum : W.badNum = W'.badNum
  upper : W.upper = W'.upper
  lower : W.lower = W'.lower
  digit : W.digit = W'.digit
  width : W.width = W'.width
  sorter : W.sorter = W'.sorter

end L1
