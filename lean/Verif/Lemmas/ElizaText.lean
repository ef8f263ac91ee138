import Verif.Lemmas.CoreText
import Verif.Model.Examples2
/-
Reading the text of examples/eliza.l1.
-/
set_option autoImplicit false
namespace L1

set_option maxRecDepth 100000 in
/-- The lines of examples/eliza.l1. -/
noncomputable def elizaChars : List (List Char) := chars_of elizaLines

set_option maxRecDepth 100000 in
theorem elizaLines_chars : elizaLines.map String.toList = elizaChars := by
  have : elizaLines = elizaChars.map String.ofList := by
    unfold elizaLines elizaChars
    exact rfl
  rw [this, List.map_map]
  have : (String.toList ∘ String.ofList) = id := by funext c; simp
  rw [this, List.map_id]

set_option maxRecDepth 100000 in
theorem elizaChars_ok : elizaChars.all (fun s => s.all fun c => !(Nat.beq c.toNat 10)) = true := by decide +kernel

set_option maxRecDepth 100000 in
theorem elizaChars_read : lexAndParse elizaChars = .ok elizaForms := by decide +kernel

theorem read_eliza : readText elizaText = .ok elizaForms := by
  unfold readText elizaText
  rw [elizaLines_chars, splitOnChar_joinNl _ (by decide +kernel) fun l hl hm => ?_]
  · exact elizaChars_read
  · have := List.all_eq_true.1 (List.all_eq_true.1 elizaChars_ok l hl) _ hm
    revert this; decide

end L1
