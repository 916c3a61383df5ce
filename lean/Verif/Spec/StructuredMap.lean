import Verif.Spec.Structured

/-!
# Structured programs with other variables
-/

namespace Verif.Spec.Structured

variable {ι κ : Type}

/-- The assignment with its variables replaced. -/
def Act.map (f : ι → κ) : Act ι → Act κ
  | .set x k => .set (f x) k
  | .add x k => .add (f x) k
  | .copy x y => .copy (f x) (f y)
  | .or x y => .or (f x) (f y)
  | .and x y => .and (f x) (f y)
  | .xor x y => .xor (f x) (f y)

/-- The condition with its variables replaced. -/
def Guard.map (f : ι → κ) : Guard ι → Guard κ
  | .eqK x k => .eqK (f x) k
  | .neK x k => .neK (f x) k
  | .eq x y => .eq (f x) (f y)
  | .ne x y => .ne (f x) (f y)

/-- The program with its variables replaced. -/
def Cmd.map (f : ι → κ) : Cmd ι → Cmd κ
  | .skip => .skip
  | .act a => .act (a.map f)
  | .seq c d => .seq (c.map f) (d.map f)
  | .ite g c d => .ite (g.map f) (c.map f) (d.map f)
  | .loop g c => .loop (g.map f) (c.map f)

end Verif.Spec.Structured
