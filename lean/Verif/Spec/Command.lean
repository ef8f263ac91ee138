import Verif.Model.Command
import Verif.Spec.Status
/-
The command line of `l1`, and programs made by `l1c`, as a user sees them.
-/
set_option autoImplicit false
namespace L1

/-- The argument `a` gives the flag `name`: `-name`, `--name`, `-name=value` or `--name=value`. -/
def FlagArg (a name : List Char) (value : Option (List Char)) : Prop :=
  (a = '-' :: (name ++ value.elim [] ('=' :: ·)) ∨ a = '-' :: '-' :: (name ++ value.elim [] ('=' :: ·))) ∧
    name ≠ [] ∧ '=' ∉ name ∧ name.head? ≠ some '-'

/-- The argument is meant as a flag: it begins with `-` and is longer than that. -/
def DashArg (a : List Char) : Prop := ∃ c cs, a = '-' :: c :: cs

/-- The words for yes and no. -/
def TruthWord (w : List Char) (b : Bool) : Prop :=
  (b = true ∧ String.ofList w ∈ ["1", "t", "T", "TRUE", "true", "True"]) ∨ (b = false ∧ String.ofList w ∈ ["0", "f", "F", "FALSE", "false", "False"])

/-- The flag `name` is switched on or off. -/
inductive Switch : String → Bool → CmdFlags → CmdFlags → Prop
  | v (b : Bool) (fl : CmdFlags) : Switch "v" b fl { fl with version := b }
  | doc (b : Bool) (fl : CmdFlags) : Switch "doc" b fl { fl with doc := b }
  | longdoc (b : Bool) (fl : CmdFlags) : Switch "longdoc" b fl { fl with longdoc := b }

/-- The flag `name` gets a text. -/
inductive Takes : String → List Char → CmdFlags → CmdFlags → Prop
  | p (t : List Char) (fl : CmdFlags) : Takes "p" t fl { fl with profile := t }
  | e (t : List Char) (fl : CmdFlags) : Takes "e" t fl { fl with expr := t }

/-- What the arguments mean, read from left to right; later flags override earlier ones. -/
inductive Means : CmdFlags → List (List Char) → Parsed → Prop
  | none (fl : CmdFlags) : Means fl [] (.flags { fl with files := [] })
  /-- The first argument that is not a flag and all after it are files. -/
  | files {fl : CmdFlags} {a : List Char} {rest : List (List Char)} : ¬ DashArg a → Means fl (a :: rest) (.flags { fl with files := a :: rest })
  /-- `--` ends the flags. -/
  | dashes {fl : CmdFlags} {rest : List (List Char)} : Means fl (['-', '-'] :: rest) (.flags { fl with files := rest })
  | switchOn {fl fl' : CmdFlags} {a : List Char} {name : String} {rest : List (List Char)} {p : Parsed} : FlagArg a name.toList none →
    Switch name true fl fl' → Means fl' rest p → Means fl (a :: rest) p
  | switchTo {fl fl' : CmdFlags} {a w : List Char} {b : Bool} {name : String} {rest : List (List Char)} {p : Parsed} : FlagArg a name.toList (some w) →
    TruthWord w b → Switch name b fl fl' → Means fl' rest p → Means fl (a :: rest) p
  | switchWrong {fl fl' : CmdFlags} {a w : List Char} {name : String} {rest : List (List Char)} : FlagArg a name.toList (some w) →
    (∀ b, ¬ TruthWord w b) → Switch name true fl fl' → Means fl (a :: rest) .wrong
  | textIn {fl fl' : CmdFlags} {a t : List Char} {name : String} {rest : List (List Char)} {p : Parsed} : FlagArg a name.toList (some t) →
    Takes name t fl fl' → Means fl' rest p → Means fl (a :: rest) p
  | textNext {fl fl' : CmdFlags} {a t : List Char} {name : String} {rest : List (List Char)} {p : Parsed} : FlagArg a name.toList none →
    Takes name t fl fl' → Means fl' rest p → Means fl (a :: t :: rest) p
  | textMissing {fl fl' : CmdFlags} {a : List Char} {name : String} : FlagArg a name.toList none → Takes name [] fl fl' → Means fl [a] .wrong
  | help {fl : CmdFlags} {a : List Char} {value : Option (List Char)} {name : String} {rest : List (List Char)} : FlagArg a name.toList value →
    name = "h" ∨ name = "help" → Means fl (a :: rest) .help
  | unknown {fl : CmdFlags} {a : List Char} {value : Option (List Char)} {name : String} {rest : List (List Char)} : FlagArg a name.toList value →
    name ∉ ["v", "doc", "longdoc", "p", "e", "h", "help"] → Means fl (a :: rest) .wrong
  | bad {fl : CmdFlags} {a : List Char} {rest : List (List Char)} : DashArg a → a ≠ ['-', '-'] → (∀ name value, ¬ FlagArg a name value) →
    Means fl (a :: rest) .wrong

/-- A program made by `l1c` from the text: it ends with status 0 after all forms and also, without a word, after the first form that fails. -/
inductive CompiledRun (W : World) (text : List Char) (s : St) : Nat → St → Prop
  | finished {s1 : St} : TextRun W text s .finished s1 → CompiledRun W text s 0 s1
  | failed {er : Err} {s1 : St} : TextRun W text s (.failed er) s1 → CompiledRun W text s 0 s1
  | stopped {c : Nat} {s1 : St} : TextRun W text s (.stopped c) s1 → CompiledRun W text s c s1

end L1
