import Verif.Model.Chip8.Cpu

/-!
# Proofs: the pixel range of a microcode operation
-/

namespace Verif.Chip8

open Verif

variable {B R : Type}

/-- The two numbers `SetDisplayRange` computes. -/
def rangeCounts (b : Build) (start stop : Nat × Nat) : Res (Nat × Nat) := do
  let rows_before ← mulUsize b start.2 Display.xMax
  let start_offset ← addUsize b rows_before start.1
  let dy ← subUsize b stop.2 start.2
  let rows ← mulUsize b dy Display.xMax
  let dx ← subUsize b stop.1 start.1
  let last ← addUsize b rows dx
  let modified ← addUsize b last 1
  .ok (start_offset, modified)

theorem setDisplayRange_eq (b : Build) (cpu : Chip8 B R) (p q : Nat × Nat) (v : Bool) :
    setDisplayRange b cpu p q v =
      (rangeCounts b p q).map fun n => { cpu with display := cpu.display.fillRange n.1 n.2 v } := by
  unfold setDisplayRange rangeCounts
  cases mulUsize b p.2 Display.xMax with
  | error e => rfl
  | ok n1 =>
  simp only [Res.ok_bind]
  cases addUsize b n1 p.1 with
  | error e => rfl
  | ok n2 =>
  simp only [Res.ok_bind]
  cases subUsize b q.2 p.2 with
  | error e => rfl
  | ok n3 =>
  simp only [Res.ok_bind]
  cases mulUsize b n3 Display.xMax with
  | error e => rfl
  | ok n4 =>
  simp only [Res.ok_bind]
  cases subUsize b q.1 p.1 with
  | error e => rfl
  | ok n5 =>
  simp only [Res.ok_bind]
  cases addUsize b n4 n5 with
  | error e => rfl
  | ok n6 =>
  simp only [Res.ok_bind]
  cases addUsize b n6 1 <;> rfl

theorem setDisplayRange_display {b : Build} {cpu cpu' : Chip8 B R} {p q : Nat × Nat} {v : Bool}
    (h : setDisplayRange b cpu p q v = .ok cpu') : ∃ d, cpu' = { cpu with display := d } := by
  rw [setDisplayRange_eq] at h
  cases hc : rangeCounts b p q with
  | error e => rw [hc] at h; cases h
  | ok n => rw [hc] at h; cases h; exact ⟨_, rfl⟩

theorem rangeCounts_cls (b : Build) : rangeCounts b (0, 0) (64, 32) = .ok (0, 32 * 64 + 64 + 1) := by
  rcases b with ⟨_ | _⟩ <;> decide +kernel

end Verif.Chip8
