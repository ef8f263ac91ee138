import Lean
import Verif.Model.CoreLib
/-
The lines of the core library as lists of characters.  Computing `String.toList` in the kernel is very expensive (it goes through UTF-8); a string
literal is however by definition `String.ofList` of its characters, which the kernel checks at once.
-/
set_option autoImplicit false
namespace L1

open Lean Elab Term Meta in
/-- The value of a definition, with every string literal replaced by the list of its characters. -/
elab "chars_of " n:ident : term => do
  let some (.defnInfo d) := (← getEnv).find? (← resolveGlobalConstNoOverload n) | throwError "not a definition"
  let ty := mkApp (mkConst ``List [Level.zero]) (mkConst ``Char)
  return d.value.replace fun e => match e with
    | .lit (.strVal s) => some (toExpr s.toList)
    | .const ``String _ => some ty
    | _ => none

set_option maxRecDepth 100000 in
/-- The lines of the core library, grouped by form. -/
noncomputable def coreChars : List (List (List Char)) := chars_of coreChunks

set_option maxRecDepth 100000 in
theorem coreChunks_chars : coreChunks = coreChars.map (fun c => c.map String.ofList) := by
  unfold coreChunks coreChars
  exact rfl

theorem coreChars_eq : coreChunks.map (fun c => c.map String.toList) = coreChars := by
  rw [coreChunks_chars, List.map_map]
  have : ((fun c => c.map String.toList) ∘ fun c : List (List Char) => c.map String.ofList) = id := by
    funext c
    simp [Function.comp_def]
  rw [this, List.map_id]

theorem coreLines_chars : coreChunks.flatten.map String.toList = coreChars.flatten := by
  rw [← coreChars_eq, List.map_flatten]

set_option maxRecDepth 100000 in
theorem coreChars_ok : coreChars.all (fun ch => ch.all fun s => s.all fun c => !(Nat.beq c.toNat 10)) = true := by decide +kernel

end L1
