import Verif.Spec.Flow

/-!
# The running time of structured programs with arrays

Nothing here refers to a CPU. `C143` gives the times for the 6502.
-/

namespace Verif.Spec.Flow

/-- The times of the parts of a program. That of an action depends on the state it starts in, that of
a test on where it lies and on its outcome. `M` is what time is measured in. -/
structure Times (A G S M : Type) where
  act : A → S → M
  testTrue : Nat → G → M
  testFalse : Nat → G → M
  jump : M

section
variable {A G S W M : Type} [Zero M] [Add M]

/-- The program whose code lies at `p` takes the state `s` to `s'` in the time `n`. -/
inductive Takes (D : Meaning A G S) (T : Target A G W) (k : Times A G S M) : Nat → Flow A G → S → M → S → Prop
  | skip {p s} : Takes D T k p .skip s 0 s
  | act {p a s} : Takes D T k p (.act a) s (k.act a s) (D.eval a s)
  | seq {p c d s s' s'' n m} (h : Takes D T k p c s n s') (h' : Takes D T k (p + T.size c) d s' m s'') :
      Takes D T k p (.seq c d) s (n + m) s''
  | iteTrue {p g c d s s' n} (hg : D.holds g s)
      (h : Takes D T k (p + T.bytes (T.test g) + T.jumpSize) c s n s') :
      Takes D T k p (.ite g c d) s (k.testTrue p g + n + k.jump) s'
  | iteFalse {p g c d s s' n} (hg : ¬ D.holds g s)
      (h : Takes D T k (p + T.bytes (T.test g) + T.jumpSize + T.size c + T.jumpSize) d s n s') :
      Takes D T k p (.ite g c d) s (k.testFalse p g + k.jump + n) s'
  | loopTrue {p g c s s' s'' n m} (hg : D.holds g s)
      (h : Takes D T k (p + T.bytes (T.test g) + T.jumpSize) c s n s')
      (h' : Takes D T k p (.loop g c) s' m s'') :
      Takes D T k p (.loop g c) s (k.testTrue p g + n + k.jump + m) s''
  | loopFalse {p g c s} (hg : ¬ D.holds g s) :
      Takes D T k p (.loop g c) s (k.testFalse p g + k.jump) s

end

end Verif.Spec.Flow
