import Verif.Model.Watch
/-
Specification for C65: which functions and special forms have which effects, and what "no such effect" means.  Nothing here is used by the model.
-/
set_option autoImplicit false
namespace L1

/-- The kinds of effects an execution can have. -/
inductive Eff where
  /-- writing to standard output -/
  | output
  /-- consuming standard input -/
  | input
  /-- asking the outside world: random numbers, files, the shell, the terminal, Go's map order -/
  | world
  /-- making fresh names -/
  | names
  /-- starting or ending the screen -/
  | screen
  /-- orders to the terminal (drawing, clearing, opening, closing) and to the clock (`sleep`) -/
  | device
  /-- changing or adding variables in scopes that already exist -/
  | vars
  deriving DecidableEq

/-- The native functions with effects of their own.  (Functions that call others or evaluate code, such as `apply`, `eval` and `load`, have in
addition whatever effects that code has.) -/
def BI.effects : BI → List Eff
  | .print => [.output]
  | .println => [.output]
  | .printl => [.output]
  | .help => [.output, .world]
  | .readlist => [.input]
  | .gensym => [.names]
  | .randint => [.world]
  | .shuffle => [.world]
  | .shell => [.world]
  | .load => [.world]
  | .forms => [.world]
  | .screenSize => [.world]
  | .screenGetKey => [.world]
  | .screenStart => [.world, .screen, .device]
  | .screenEnd => [.screen, .device]
  | .screenClear => [.device]
  | .screenWrite => [.device]
  | .sleep => [.device]
  | _ => []

/-- The special forms with effects of their own: `test` writes a report; `def`, `defn`, `defmacro`, `set!` and named `lambda`s assign variables. -/
def Val.formEffects : Val → List Eff
  | .cons (.atom "test") _ => [.output]
  | .cons (.atom "def") _ => [.vars]
  | .cons (.atom "defn") _ => [.vars]
  | .cons (.atom "defmacro") _ => [.vars]
  | .cons (.atom "set!") _ => [.vars]
  | .cons (.atom "lambda") (.cons (.atom _) _) => [.vars]
  | _ => []

/-- Stop an execution just before it calls a native function having the effect, or evaluates (before or after macro expansion) a special form
having it. -/
def before (x : Eff) : Watch where
  pre
    | .builtin b _ _, _ => x ∉ b.effects
    | .eval v _, _ => x ∉ v.formEffects
    | _, _ => True
  post
    | .mexpand _ _, _, .ok v _ => x ∉ v.formEffects
    | _, _, _ => True

/-- What an execution without the effect leaves as it was. -/
def Kept : Eff → St → St → Prop
  | .output, s, s' => s'.out = s.out
  | .input, s, s' => s'.inp = s.inp
  | .world, s, s' => s'.tick = s.tick
  | .names, s, s' => s'.gensym = s.gensym ∧ s'.issued = s.issued
  | .screen, s, s' => s'.screen.on = s.screen.on
  | .device, s, s' => s'.screen.acts = s.screen.acts
  | .vars, s, s' => s.heap <+: s'.heap

end L1
