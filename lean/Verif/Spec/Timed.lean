import Verif.Spec.Recursive

/-!
# The running time of recursive structured programs

Nothing here refers to a CPU. `C100` gives the times for the 6502.
-/

namespace Verif.Spec.Recursive

open Verif.Spec.Structured

/-- The times of the parts of a program. That of a test depends on where it lies and on its outcome.
`M` is what time is measured in. -/
structure Times (ι M : Type) where
  act : Act ι → M
  testTrue : Nat → Guard ι → M
  testFalse : Nat → Guard ι → M
  jump : M
  call : M
  ret : M
  save : M
  restore : M

section
variable {ι φ W M : Type} [DecidableEq ι] [Zero M] [Add M]

/-- With at most `d` bytes of stack, the program whose code lies at `p` takes the store `s` to `s'` in
the time `n`. -/
inductive Takes (T : RTarget ι W) (k : Times ι M) (body : φ → Prog ι φ) (entry : φ → Nat) :
    Nat → Nat → Prog ι φ → Store ι → M → Store ι → Prop
  | skip {d p s} : Takes T k body entry d p .skip s 0 s
  | act {d p a s} : Takes T k body entry d p (.act a) s (k.act a) (a.eval s)
  | seq {d p c c' s s' s'' n m} (h : Takes T k body entry d p c s n s')
      (h' : Takes T k body entry d (p + T.size c) c' s' m s'') :
      Takes T k body entry d p (.seq c c') s (n + m) s''
  | iteTrue {d p g c c' s s' n} (hg : g.Holds s)
      (h : Takes T k body entry d (p + T.bytes (T.test g) + T.jumpSize) c s n s') :
      Takes T k body entry d p (.ite g c c') s (k.testTrue p g + n + k.jump) s'
  | iteFalse {d p g c c' s s' n} (hg : ¬ g.Holds s)
      (h : Takes T k body entry d (p + T.bytes (T.test g) + T.jumpSize + T.size c + T.jumpSize) c' s n s') :
      Takes T k body entry d p (.ite g c c') s (k.testFalse p g + k.jump + n) s'
  | loopTrue {d p g c s s' s'' n m} (hg : g.Holds s)
      (h : Takes T k body entry d (p + T.bytes (T.test g) + T.jumpSize) c s n s')
      (h' : Takes T k body entry d p (.loop g c) s' m s'') :
      Takes T k body entry d p (.loop g c) s (k.testTrue p g + n + k.jump + m) s''
  | loopFalse {d p g c s} (hg : ¬ g.Holds s) :
      Takes T k body entry d p (.loop g c) s (k.testFalse p g + k.jump) s
  | call {d p f s s' n} (h : Takes T k body entry d (entry f) (body f) s n s') :
      Takes T k body entry (d + 2) p (.call f) s (k.call + n + k.ret) s'
  | keeping {d p x c s s' n} (h : Takes T k body entry d (p + T.bytes (T.save x)) c s n s') :
      Takes T k body entry (d + 1) p (.keeping x c) s (k.save + n + k.restore) (put s' x (s x))

end

end Verif.Spec.Recursive
