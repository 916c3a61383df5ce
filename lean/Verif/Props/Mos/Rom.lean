import Verif.Proofs.BusStores
import Verif.Props.Bus
import Verif.Props.Mos.Traffic

/-!
# C84: no program can change read-only memory

The 6502 on the project's own bus: an address map of RAM and ROM segments, after any history of
registrations and writes.
-/

namespace Verif.Props

open Verif Verif.Mos Verif.Spec Verif.Spec.Mos

variable {b : Build} {h : List BusEvent} {c c' : Mos6502 (AddressMap Memory)} {l : List Operations}

/-- C84: the instructions of an execution store to RAM only, and afterwards every address of the bus
reads as the byte last stored there, or else as before. -/
theorem C84_memory (ht : MemTrace b h c.address_map) (hx : Instructions b c l c') :
    (∀ w ∈ programStores l, (Bus.after h).owner w.1 = some .readWrite) ∧
    ∀ a, c'.address_map.read b a =
      .ok ((lastWrite a (programStores l)).getD ((Bus.after h).val a)) := by
  obtain ⟨h1, h2⟩ := writeAll_trace _ ht (C67_bus_is_stores hx)
  exact ⟨h1, fun a => by rw [C01_read_is_flat_memory h2, val_asEvents h _ h1]⟩

/-- C84: whatever a program does and however long it runs, an address of a read-only segment reads the
byte the segment was loaded with. -/
theorem C84_rom (ht : MemTrace b h c.address_map) (hx : Instructions b c l c') {r : AddrRange}
    {data : List Byte} (hreg : BusEvent.register .readOnly r data ∈ h) {a : Word} (ha : InRange r a) :
    ∃ v, data[a.toNat - r.start.toNat]? = some v ∧ c.address_map.read b a = .ok v ∧
      c'.address_map.read b a = .ok v := by
  obtain ⟨-, h2⟩ := writeAll_trace _ ht (C67_bus_is_stores hx)
  obtain ⟨⟨v, e1, e2⟩, -⟩ := C03_rom_is_immutable ht hreg a ha
  obtain ⟨⟨v', e1', e2'⟩, -⟩ := C03_rom_is_immutable h2 (List.mem_append_left _ hreg) a ha
  rw [e1] at e1'
  cases e1'
  exact ⟨v, e1, e2, e2'⟩

/-- C84: the same for `run`. -/
theorem C84_run {n : Nat} {s : StepState (Mos6502 (AddressMap Memory))}
    (ht : MemTrace b h c.address_map) (hx : run b c n = .ok s) {r : AddrRange}
    {data : List Byte} (hreg : BusEvent.register .readOnly r data ∈ h) {a : Word} (ha : InRange r a) :
    ∃ v, data[a.toNat - r.start.toNat]? = some v ∧ c.address_map.read b a = .ok v ∧
      s.unwrap.address_map.read b a = .ok v := by
  obtain ⟨l, h1, -, -⟩ := C67_run hx
  exact C84_rom ht h1 hreg ha

/-- The address belongs to a read-only segment. -/
def InRom (h : List BusEvent) (a : Word) : Prop :=
  ∃ r data, BusEvent.register .readOnly r data ∈ h ∧ InRange r a

/-- C84: code in read-only memory does not modify itself: whenever an execution comes back to an
address there, it finds the same instruction. -/
theorem C84_code (ht : MemTrace b h c.address_map) (hx : Instructions b c l c') (hpc : c'.pc = c.pc)
    (h0 : InRom h c.pc) (h1 : InRom h (c.pc + 1)) (h2 : InRom h (c.pc + 2)) (i : InstructionVariant) :
    At b c i ↔ At b c' i := by
  obtain ⟨-, ht'⟩ := writeAll_trace _ ht (C67_bus_is_stores hx)
  have key : ∀ a, InRom h a → (Bus.after h).val a = (Bus.after (h ++ asEvents (programStores l))).val a := by
    rintro a ⟨r, data, hreg, ha⟩
    obtain ⟨v, -, e1, e2⟩ := C84_rom ht hx hreg ha
    rw [C01_read_is_flat_memory ht] at e1
    rw [C01_read_is_flat_memory ht'] at e2
    rw [Except.ok.inj e1, Except.ok.inj e2]
  unfold At
  rw [fetch_eq (busView_of_trace ht), fetch_eq (busView_of_trace ht'), hpc, key _ h0, key _ h1, key _ h2]

/-- C84: an instruction that stores to read-only memory or to an unmapped address does not complete:
it panics with the error of the bus. -/
theorem C84_store_panics {i : InstructionVariant} (ht : MemTrace b h c.address_map) (hat : At b c i)
    (hok : AddrOk b (regs c) (Bus.after h).val (view i).2) {a : Word}
    (ha : a ∈ writable (regs c) (Bus.after h).val (view i).1 (view i).2)
    (hrom : (Bus.after h).owner a ≠ some .readWrite) :
    next b c = .error (.unwrapErr "memory is read-only") ∨
    ∃ x ∈ writable (regs c) (Bus.after h).val (view i).1 (view i).2, (Bus.after h).owner x = none ∧
      next b c = .error (.unwrapErr s!"address space {x.toNat} unallocated") := by
  have hv := busView_of_trace ht
  rw [← codeEffect_writes] at ha ⊢
  obtain ⟨w, hm, rfl⟩ := List.mem_map.1 ha
  rw [step_ok hat hv hok]
  obtain ⟨x, hx, ⟨-, q⟩ | ⟨q1, q2⟩⟩ := writeAll_refused _ ht ⟨w, hm, hrom⟩
  · rw [q]; exact .inl rfl
  · rw [q2]; exact .inr ⟨x.1, List.mem_map_of_mem hx, q1, rfl⟩

/-! ### Concrete cases -/

/-- `NOP; NOP; JMP` in read-only memory goes round: after 7 cycles the program is at its start again,
three instructions later. The hypotheses of `C84_memory`, `C84_rom`, `C84_run` and `C84_code` hold. -/
example : ∃ l c', Instructions .debug (withRegs sampleRegs romMap) l c' ∧ l ≠ [] ∧
    c'.pc = (withRegs sampleRegs romMap).pc ∧ MemTrace .debug romHistory romMap ∧
    InRom romHistory 0x80fd ∧ InRom romHistory (0x80fd + 1) ∧ InRom romHistory (0x80fd + 2) := by
  have hr : ((run .debug (withRegs sampleRegs romMap) 7).map fun s => s.unwrap.pc) = .ok 0x80fd := by
    decide +kernel
  cases hx : run .debug (withRegs sampleRegs romMap) 7 with
  | error p => rw [hx] at hr; cases hr
  | ok s =>
    rw [hx] at hr
    obtain ⟨l, c', h2, h4, rfl, h5⟩ := C12_run_ok hx
    have hn : ∃ ops d, next .debug (withRegs sampleRegs romMap) = .ok (ops, d) ∧ ops.cycles ≤ 7 := by
      cases hy : next .debug (withRegs sampleRegs romMap) with
      | error p =>
        have : ((next .debug (withRegs sampleRegs romMap)).map fun x => decide (x.1.cycles ≤ 7)) = .ok true := by
          decide +kernel
        rw [hy] at this; cases this
      | ok x =>
        have : ((next .debug (withRegs sampleRegs romMap)).map fun x => decide (x.1.cycles ≤ 7)) = .ok true := by
          decide +kernel
        rw [hy] at this
        exact ⟨x.1, x.2, rfl, of_decide_eq_true (Except.ok.inj this)⟩
    obtain ⟨ops, d, hy, hc⟩ := hn
    have hp := h5 [ops] d (.cons hy (.nil _)) (by simpa [totalCycles] using hc)
    refine ⟨l, _, h2, ?_, Except.ok.inj hr, romMap_trace _, ?_, ?_, ?_⟩
    · rintro rfl
      simp at hp
    all_goals exact ⟨_, _, .head _, by decide⟩

/-- `STA 0x80fd; PHA` in read-only memory at 0x80fd, and nothing else on the bus. -/
def storeMap : AddressMap Memory :=
  ⟨[(⟨0x80fd, 0x8101⟩, ⟨.readOnly, 0x80fd, 0x8101, [0x8d, 0xfd, 0x80, 0x48, 0xea]⟩)]⟩

theorem storeMap_trace (b : Build) :
    MemTrace b [.register .readOnly ⟨0x80fd, 0x8101⟩ [0x8d, 0xfd, 0x80, 0x48, 0xea]] storeMap :=
  .register (h := []) (fresh := ⟨.readOnly, 0x80fd, 0x8101, [0, 0, 0, 0, 0]⟩) .new rfl rfl
    (by intro e he; cases he) ⟨storeMap, rfl, List.Perm.refl _⟩

/-- Non-vacuity of `C84_store_panics`: the program tries to overwrite itself. -/
example : At .debug (withRegs sampleRegs storeMap) (.StaAbsolute 0x80fd) ∧
    (0x80fd : Word) ∈ writable (regs (withRegs sampleRegs storeMap)) (Bus.after
      [.register .readOnly ⟨0x80fd, 0x8101⟩ [0x8d, 0xfd, 0x80, 0x48, 0xea]]).val .Sta (.absolute 0x80fd) ∧
    (Bus.after [.register .readOnly ⟨0x80fd, 0x8101⟩ [0x8d, 0xfd, 0x80, 0x48, 0xea]]).owner 0x80fd ≠
      some .readWrite ∧
    next .debug (withRegs sampleRegs storeMap) = .error (.unwrapErr "memory is read-only") := by
  refine ⟨rfl, by decide +kernel, by decide +kernel, ?_⟩
  rcases C84_store_panics (i := .StaAbsolute 0x80fd) (storeMap_trace .debug) (c := withRegs sampleRegs storeMap)
    rfl trivial (a := 0x80fd) (by decide +kernel) (by decide +kernel) with h | ⟨x, hx, ho, -⟩
  · exact h
  · have : x = 0x80fd := by
      change x ∈ [(0x80fd : Word)] at hx
      simpa using hx
    subst this
    exact absurd ho (by decide +kernel)

end Verif.Props
