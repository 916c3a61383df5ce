import Verif.Proofs.MosSample
import Verif.Props.Chip8.Decode

/-!
# Machines that meet the hypotheses of the CHIP-8 theorems

`place cpu op` puts an instruction at the program counter of any state of a CHIP-8 with 64K of RAM.
-/

namespace Verif.Chip8

open Verif Verif.Spec.Chip8
open Verif.Mos (FlatRam)
open Verif.Spec.Mos (Mem BusView)

/-- Memory with the two bytes of `op` at `pc`. -/
def placeMem (mem : Mem) (pc : Word) (op : Opcode) : Mem := fun a =>
  if a = pc then BitVec.ofNat 8 (encode op / 256)
  else if a = pc + 1 then BitVec.ofNat 8 (encode op % 256)
  else mem a

/-- A state with `op` at its program counter. -/
def place {R : Type} (cpu : Chip8 FlatRam R) (op : Opcode) : Chip8 FlatRam R :=
  { cpu with address_space := ⟨placeMem cpu.address_space.mem cpu.pc op⟩ }

theorem view {R : Type} (b : Build) (cpu : Chip8 FlatRam R) :
    BusView b cpu.address_space cpu.address_space.mem := fun _ => rfl

/-- Every instruction in front of every state, in both builds. -/
theorem at_place {R : Type} (b : Build) (cpu : Chip8 FlatRam R) {op : Opcode} (hv : Valid op)
    (hpc : cpu.pc.toNat < 65535) : At b (place cpu op) op := by
  refine (C40_fetch (cpu := place cpu op) (view b _) hpc op).2 ⟨hv, ?_⟩
  have hlt := encode_lt op hv
  have h1 : cpu.pc + 1 ≠ cpu.pc := by
    intro h
    have := congrArg BitVec.toNat h
    rw [BitVec.toNat_add] at this
    change (cpu.pc.toNat + 1) % 65536 = _ at this
    omega
  simp only [wordAt, place, placeMem, if_true, if_neg h1, BitVec.toNat_ofNat]
  omega

/-- A state for the examples. -/
def sample : Chip8 FlatRam Unit where
  stack := Ring.new 16
  address_space := ⟨fun _ => 0⟩
  dt := ⟨3, 9⟩
  st := ⟨5, 7⟩
  pc := 0x200
  sp := ⟨3⟩
  i := 0x300
  gp_registers := #v[0x11, 0xfe, 0x0c, 0x33, 0x44, 0x55, 0x66, 0x77, 0x88, 0x99, 0xaa, 0xbb, 0xcc,
    0xdd, 0xee]
  display := Display.default
  interrupt := none
  rng := ()

theorem sample_wellFormed : WellFormed sample := ⟨rfl, rfl⟩

end Verif.Chip8
