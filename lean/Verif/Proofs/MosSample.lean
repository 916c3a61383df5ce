import Verif.Proofs.MosStep

/-!
# Machines that meet the hypotheses of the 6502 theorems

`FlatRam` is a user-defined device (the trait `Addressable` is open): 64K of RAM. With it every
documented instruction can be placed in front of every register state. The emulator's own address
maps of memory segments also satisfy the hypothesis `BusView` (`busView_of_trace`).
-/

namespace Verif.Mos

open Verif Verif.Spec.Mos

/-- 64K of RAM as one device. -/
structure FlatRam where
  mem : Word → Byte

/-- Every address can be read and written; this is a bus for examples, not part of the crate. -/
instance : Addressable FlatRam where
  read _ d a := .ok (d.mem a)
  write _ d a v := .ok (.ok v, ⟨fun x => if x = a then v else d.mem x⟩)

/-- Memory with three given bytes at `pc` and `fill` elsewhere. -/
def codeAt (pc : Word) (o1 o2 o3 : Byte) (fill : Mem) : Mem := fun a =>
  if a = pc then o1 else if a = pc + 1 then o2 else if a = pc + 2 then o3 else fill a

/-- A machine with given registers in front of three given bytes. -/
def machine (r : Regs) (o1 o2 o3 : Byte) (fill : Mem := fun _ => 0) : Mos6502 FlatRam :=
  withRegs r ⟨codeAt r.pc o1 o2 o3 fill⟩

theorem machine_view (b : Build) (r : Regs) (o1 o2 o3 : Byte) (fill : Mem) :
    BusView b (machine r o1 o2 o3 fill).address_map (codeAt r.pc o1 o2 o3 fill) := fun _ => rfl

theorem machine_at (b : Build) (r : Regs) (o1 o2 o3 : Byte) (fill : Mem) {i : InstructionVariant}
    (hpc : r.pc.toNat < 65534) (hp : Isa.parseInstruction o1 o2 o3 = some i) :
    At b (machine r o1 o2 o3 fill) i := by
  have e0 : codeAt r.pc o1 o2 o3 fill r.pc = o1 := by simp [codeAt]
  have e1 : codeAt r.pc o1 o2 o3 fill (r.pc + 1) = o2 := by
    simp [codeAt]
  have e2 : codeAt r.pc o1 o2 o3 fill (r.pc + 2) = o3 := by
    simp [codeAt]
  have epc : (machine r o1 o2 o3 fill).pc = r.pc := rfl
  unfold At
  rw [fetch_eq (machine_view b r o1 o2 o3 fill), epc, if_neg (by omega), e0, e1, e2, hp]

/-- Every documented instruction, in front of every register state, in both builds. -/
theorem exists_at (b : Build) (r : Regs) (o1 o2 o3 : Byte) {i : InstructionVariant}
    (hpc : r.pc.toNat < 65534) (hp : Isa.parseInstruction o1 o2 o3 = some i) (fill : Mem) :
    ∃ (cpu : Mos6502 FlatRam) (mem : Mem), regs cpu = r ∧ At b cpu i ∧
      BusView b cpu.address_map mem :=
  ⟨machine r o1 o2 o3 fill, _, rfl, machine_at b r o1 o2 o3 fill hpc hp,
    machine_view b r o1 o2 o3 fill⟩

/-- The emulator's own buses: after any history of registrations and writes. -/
theorem busView_of_trace {b : Build} {h : List Spec.BusEvent} {m : AddressMap Memory}
    (ht : Spec.MemTrace b h m) : BusView b m (Spec.Bus.after h).val :=
  fun a => ht.inv.read b a

/-- Some registers, for the examples. -/
def sampleRegs : Regs where
  a := 0x8f
  x := 0x01
  y := 0xfe
  sp := 0x01
  pc := 0x80fd
  p := ⟨true, false, true, false, false, true, false, true⟩

end Verif.Mos
