/-!
# A small structured language

Programs with assignments, conditionals and loops over byte variables, and what they mean. Nothing
here refers to either CPU. `C91` and `C92` compile these programs for the two machines.
-/

namespace Verif.Spec.Structured

/-- The values of the variables. -/
abbrev Store (ι : Type) : Type := ι → BitVec 8

/-- The assignments `x := k`, `x := x + k`, `x := y`, `x := x or y`, `x := x and y`, `x := x xor y`. -/
inductive Act (ι : Type)
  | set (x : ι) (k : BitVec 8)
  | add (x : ι) (k : BitVec 8)
  | copy (x y : ι)
  | or (x y : ι)
  | and (x y : ι)
  | xor (x y : ι)
  deriving DecidableEq

/-- The conditions `x = k`, `x ≠ k`, `x = y`, `x ≠ y`. -/
inductive Guard (ι : Type)
  | eqK (x : ι) (k : BitVec 8)
  | neK (x : ι) (k : BitVec 8)
  | eq (x y : ι)
  | ne (x y : ι)
  deriving DecidableEq

/-- Programs. -/
inductive Cmd (ι : Type)
  | skip
  | act (a : Act ι)
  | seq (c d : Cmd ι)
  | ite (g : Guard ι) (c d : Cmd ι)
  | loop (g : Guard ι) (c : Cmd ι)
  deriving DecidableEq

section
variable {ι : Type} [DecidableEq ι]

/-- The store with one variable replaced. -/
def put (s : Store ι) (x : ι) (v : BitVec 8) : Store ι := fun y => if y = x then v else s y

/-- What an assignment does. -/
def Act.eval (s : Store ι) : Act ι → Store ι
  | .set x k => put s x k
  | .add x k => put s x (BitVec.ofNat 8 ((s x).toNat + k.toNat))
  | .copy x y => put s x (s y)
  | .or x y => put s x (s x ||| s y)
  | .and x y => put s x (s x &&& s y)
  | .xor x y => put s x (s x ^^^ s y)

omit [DecidableEq ι] in
/-- Whether a condition holds. -/
def Guard.Holds (s : Store ι) : Guard ι → Prop
  | .eqK x k => s x = k
  | .neK x k => s x ≠ k
  | .eq x y => s x = s y
  | .ne x y => s x ≠ s y

instance (s : Store ι) (g : Guard ι) : Decidable (g.Holds s) := by
  cases g <;> unfold Guard.Holds <;> infer_instance

/-- What the parts of a program cost, in instructions; a jump costs one. -/
structure Costs (ι : Type) where
  act : Act ι → Nat
  test : Guard ι → Nat

/-- From the store `s` the program ends with the store `s'`, after `n` instructions. A conditional
tests, and jumps once: past the other branch, or to it. A loop tests; it jumps back after the body
and out at the end. -/
inductive Exec (k : Costs ι) : Cmd ι → Store ι → Nat → Store ι → Prop
  | skip {s} : Exec k .skip s 0 s
  | act {a s} : Exec k (.act a) s (k.act a) (a.eval s)
  | seq {c d s s' s'' n m} (h : Exec k c s n s') (h' : Exec k d s' m s'') :
      Exec k (.seq c d) s (n + m) s''
  | iteTrue {g c d s s' n} (hg : g.Holds s) (h : Exec k c s n s') :
      Exec k (.ite g c d) s (k.test g + n + 1) s'
  | iteFalse {g c d s s' n} (hg : ¬ g.Holds s) (h : Exec k d s n s') :
      Exec k (.ite g c d) s (k.test g + 1 + n) s'
  | loopTrue {g c s s' s'' n m} (hg : g.Holds s) (h : Exec k c s n s') (h' : Exec k (.loop g c) s' m s'') :
      Exec k (.loop g c) s (k.test g + n + 1 + m) s''
  | loopFalse {g c s} (hg : ¬ g.Holds s) : Exec k (.loop g c) s (k.test g + 1) s

/-- The program ends when started with the store `s`. -/
def Ends (k : Costs ι) (c : Cmd ι) (s : Store ι) : Prop := ∃ n s', Exec k c s n s'

end

/-- A target machine: the words for an assignment, for a test that skips the jump behind it when the
condition holds, and for a jump; the bytes per word and per jump. -/
structure Target (ι W : Type) where
  width : Nat
  act : Act ι → List W
  test : Guard ι → List W
  jump : Nat → List W
  jumpSize : Nat

section
variable {ι W : Type}

/-- The length of a list of words, in bytes. -/
def Target.bytes (T : Target ι W) (ws : List W) : Nat := T.width * ws.length

/-- The length of the code of a program, in bytes. -/
def Target.size (T : Target ι W) : Cmd ι → Nat
  | .skip => 0
  | .act a => T.bytes (T.act a)
  | .seq c d => T.size c + T.size d
  | .ite g c d => T.bytes (T.test g) + T.jumpSize + T.size c + T.jumpSize + T.size d
  | .loop g c => T.bytes (T.test g) + T.jumpSize + T.size c + T.jumpSize

/-- The code of a program that is to lie at the address `p`: a conditional is `test; jump else; c;
jump end; else: d; end:`, a loop is `start: test; jump end; c; jump start; end:`. -/
def Target.compile (T : Target ι W) (p : Nat) : Cmd ι → List W
  | .skip => []
  | .act a => T.act a
  | .seq c d => T.compile p c ++ T.compile (p + T.size c) d
  | .ite g c d =>
    let body := p + T.bytes (T.test g) + T.jumpSize
    let other := body + T.size c + T.jumpSize
    T.test g ++ (T.jump other ++ (T.compile body c ++ (T.jump (other + T.size d) ++ T.compile other d)))
  | .loop g c =>
    let body := p + T.bytes (T.test g) + T.jumpSize
    T.test g ++ (T.jump (body + T.size c + T.jumpSize) ++ (T.compile body c ++ T.jump p))

end

end Verif.Spec.Structured
