import Verif.Model.State
/-
Scopes have no names in the language: a program can only reach a scope through a closure.  `ren ρ` replaces every scope number `i` in a value by `ρ i`;
values that differ by such a renumbering are the same to the user.
-/
set_option autoImplicit false
namespace L1

/-- The value with every closure's scope `i` replaced by `ρ i`. -/
def Val.ren (ρ : Nat → Nat) : Val → Val
  | .cons a d => .cons (a.ren ρ) (d.ren ρ)
  | .lam ps r b dc m e => .lam ps r (b.ren ρ) (dc.ren ρ) m (ρ e)
  | .nil => .nil
  | .atom a => .atom a
  | .num n => .num n
  | .bi b => .bi b

/-- The same for the value in an error. -/
def Err.ren (ρ : Nat → Nat) : Err → Err
  | .list v => .list (v.ren ρ)
  | .foreign m => .foreign m

/-- The same for a scope: the values of its variables and its parent. -/
def Frame.ren (ρ : Nat → Nat) (f : Frame) : Frame := ⟨f.syms.map fun p => (p.1, p.2.ren ρ), f.parent.map ρ⟩

/-- The two states are the same to the program but for the numbers of the scopes and what was printed before (`o` and `o'`): every scope of `s` is in
`s'` under its new number, both printed the same since, and all else is equal. -/
structure Alike (ρ : Nat → Nat) (o o' : List Char) (s s' : St) : Prop where
  scopes : ∀ (i : Nat) (f : Frame), s.heap[i]? = some f → s'.heap[ρ i]? = some (f.ren ρ)
  out : ∃ more, s.out = o ++ more ∧ s'.out = o' ++ more
  inp : s'.inp = s.inp
  gensym : s'.gensym = s.gensym
  tick : s'.tick = s.tick
  screen : s'.screen = s.screen
  issued : s'.issued = s.issued

/-- The two outcomes are the same to the program. -/
def Res.Alike (ρ : Nat → Nat) (o o' : List Char) : Res Val → Res Val → Prop
  | .ok v s, .ok v' s' => v' = v.ren ρ ∧ L1.Alike ρ o o' s s'
  | .err e s, .err e' s' => e' = e.ren ρ ∧ L1.Alike ρ o o' s s'
  | .crash w s, .crash w' s' => w' = w ∧ L1.Alike ρ o o' s s'
  | .exit c s, .exit c' s' => c = c' ∧ L1.Alike ρ o o' s s'
  | .overflow s, .overflow s' => L1.Alike ρ o o' s s'
  | .oof, .oof => True
  | _, _ => False

/-- `s'` is `s` but for `k` more scopes at the end and what was printed. -/
structure OnlyAdds (k : Nat) (s s' : St) : Prop where
  heap : ∃ g : Heap, g.length = k ∧ s'.heap = s.heap ++ g
  rest : s' = { s with heap := s'.heap, out := s'.out }

/-- Scopes from `n` on get numbers higher by `k`. -/
def shiftFrom (n k : Nat) (i : Nat) : Nat := if i < n then i else i + k

end L1
