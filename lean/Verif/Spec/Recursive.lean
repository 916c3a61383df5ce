import Verif.Spec.Structured

/-!
# The structured language with recursive procedures and local variables

Nothing here refers to a CPU. `C95` compiles these programs for the 6502.
-/

namespace Verif.Spec.Recursive

open Verif.Spec.Structured

/-- Programs over the variables `ι` and the procedures `φ`. `keeping x c` runs `c` and then gives `x`
the value it had before. -/
inductive Prog (ι φ : Type)
  | skip
  | act (a : Act ι)
  | seq (c d : Prog ι φ)
  | ite (g : Guard ι) (c d : Prog ι φ)
  | loop (g : Guard ι) (c : Prog ι φ)
  | call (f : φ)
  | keeping (x : ι) (c : Prog ι φ)

section
variable {ι φ : Type} [DecidableEq ι]

/-- With at most `d` bytes of stack, the program takes the store `s` to `s'` in `n` instructions. A
call takes two bytes for the return address and two instructions, the call and the return; keeping a
variable takes one byte and four instructions, two to save and two to restore. -/
inductive Exec (k : Costs ι) (body : φ → Prog ι φ) : Nat → Prog ι φ → Store ι → Nat → Store ι → Prop
  | skip {d s} : Exec k body d .skip s 0 s
  | act {d a s} : Exec k body d (.act a) s (k.act a) (a.eval s)
  | seq {d c c' s s' s'' n m} (h : Exec k body d c s n s') (h' : Exec k body d c' s' m s'') :
      Exec k body d (.seq c c') s (n + m) s''
  | iteTrue {d g c c' s s' n} (hg : g.Holds s) (h : Exec k body d c s n s') :
      Exec k body d (.ite g c c') s (k.test g + n + 1) s'
  | iteFalse {d g c c' s s' n} (hg : ¬ g.Holds s) (h : Exec k body d c' s n s') :
      Exec k body d (.ite g c c') s (k.test g + 1 + n) s'
  | loopTrue {d g c s s' s'' n m} (hg : g.Holds s) (h : Exec k body d c s n s')
      (h' : Exec k body d (.loop g c) s' m s'') : Exec k body d (.loop g c) s (k.test g + n + 1 + m) s''
  | loopFalse {d g c s} (hg : ¬ g.Holds s) : Exec k body d (.loop g c) s (k.test g + 1) s
  | call {d f s s' n} (h : Exec k body d (body f) s n s') : Exec k body (d + 2) (.call f) s (1 + n + 1) s'
  | keeping {d x c s s' n} (h : Exec k body d c s n s') :
      Exec k body (d + 1) (.keeping x c) s (2 + n + 2) (put s' x (s x))

/-- The program ends with at most `d` bytes of stack. -/
def Ends (k : Costs ι) (body : φ → Prog ι φ) (d : Nat) (c : Prog ι φ) (s : Store ι) : Prop :=
  ∃ n s', Exec k body d c s n s'

/-- The program comes to a call or a variable to keep for which `d` bytes of stack do not suffice. -/
inductive Overflows (k : Costs ι) (body : φ → Prog ι φ) : Nat → Prog ι φ → Store ι → Prop
  | seqLeft {d c c' s} (h : Overflows k body d c s) : Overflows k body d (.seq c c') s
  | seqRight {d c c' s s' n} (h : Exec k body d c s n s') (h' : Overflows k body d c' s') :
      Overflows k body d (.seq c c') s
  | iteTrue {d g c c' s} (hg : g.Holds s) (h : Overflows k body d c s) : Overflows k body d (.ite g c c') s
  | iteFalse {d g c c' s} (hg : ¬ g.Holds s) (h : Overflows k body d c' s) : Overflows k body d (.ite g c c') s
  | loopBody {d g c s} (hg : g.Holds s) (h : Overflows k body d c s) : Overflows k body d (.loop g c) s
  | loopNext {d g c s s' n} (hg : g.Holds s) (h : Exec k body d c s n s')
      (h' : Overflows k body d (.loop g c) s') : Overflows k body d (.loop g c) s
  | callHere {d f s} (h : d < 2) : Overflows k body d (.call f) s
  | callBody {d f s} (h : Overflows k body d (body f) s) : Overflows k body (d + 2) (.call f) s
  | keepingHere {x c s} : Overflows k body 0 (.keeping x c) s
  | keepingBody {d x c s} (h : Overflows k body d c s) : Overflows k body (d + 1) (.keeping x c) s

end

/-- A target machine with a stack: also the words for a call, for a return, for saving a variable on
the stack and for restoring it. -/
structure RTarget (ι W : Type) extends Target ι W where
  call : Nat → List W
  callSize : Nat
  ret : List W
  save : ι → List W
  restore : ι → List W

section
variable {ι φ W : Type}

/-- The length of the code of a program, in bytes. -/
def RTarget.size (T : RTarget ι W) : Prog ι φ → Nat
  | .skip => 0
  | .act a => T.bytes (T.act a)
  | .seq c d => T.size c + T.size d
  | .ite g c d => T.bytes (T.test g) + T.jumpSize + T.size c + T.jumpSize + T.size d
  | .loop g c => T.bytes (T.test g) + T.jumpSize + T.size c + T.jumpSize
  | .call _ => T.callSize
  | .keeping x c => T.bytes (T.save x) + T.size c + T.bytes (T.restore x)

/-- The code of a program that is to lie at the address `p`, with the procedures at `entry`. -/
def RTarget.compile (T : RTarget ι W) (entry : φ → Nat) (p : Nat) : Prog ι φ → List W
  | .skip => []
  | .act a => T.act a
  | .seq c d => T.compile entry p c ++ T.compile entry (p + T.size c) d
  | .ite g c d =>
    let body := p + T.bytes (T.test g) + T.jumpSize
    let other := body + T.size c + T.jumpSize
    T.test g ++ (T.jump other ++ (T.compile entry body c ++ (T.jump (other + T.size d) ++ T.compile entry other d)))
  | .loop g c =>
    let body := p + T.bytes (T.test g) + T.jumpSize
    T.test g ++ (T.jump (body + T.size c + T.jumpSize) ++ (T.compile entry body c ++ T.jump p))
  | .call f => T.call (entry f)
  | .keeping x c => T.save x ++ (T.compile entry (p + T.bytes (T.save x)) c ++ T.restore x)

end

end Verif.Spec.Recursive
