import Verif.Model.Syntax
/- Parts of values. -/
set_option autoImplicit false
namespace L1

/-- `Inside v w`: the value `v` occurs in `w`: it is `w`, or inside a part of a cell, or inside the body or the
documentation of a function. -/
inductive Inside (v : Val) : Val → Prop
  | here : Inside v v
  | car {a d : Val} : Inside v a → Inside v (.cons a d)
  | cdr {a d : Val} : Inside v d → Inside v (.cons a d)
  | body {ps r b dc m e} : Inside v b → Inside v (.lam ps r b dc m e)
  | doc {ps r b dc m e} : Inside v dc → Inside v (.lam ps r b dc m e)

end L1
