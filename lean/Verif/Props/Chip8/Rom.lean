import Verif.Proofs.Chip8Range
import Verif.Proofs.BusStores
import Verif.Model.Chip8.Cpu
import Verif.Props.Bus
import Verif.Props.Mos.Alike
import Verif.Proofs.Chip8Sample

/-!
# Property C84 for the CHIP-8

`run` executes every microcode on a copy of the CPU inside the iterator and on the CPU it returns. The
bus meant here is that of the CPU it returns.
-/

namespace Verif.Props.Chip8

open Verif Verif.Chip8 Verif.Spec
open Verif.Spec.Mos (writeAll)

/-- The stores of a list of microcode, in order. -/
def storesOf : List Microcode → List (Word × Byte)
  | [] => []
  | .WriteMemory a v :: mcs => (a, v) :: storesOf mcs
  | _ :: mcs => storesOf mcs

theorem storesOf_append (l l' : List Microcode) : storesOf (l ++ l') = storesOf l ++ storesOf l' := by
  induction l with
  | nil => rfl
  | cons mc l ih => cases mc <;> simp [storesOf, ih]

variable {B R : Type} [Addressable B] {b : Build}

/-- The microcode of `n` instructions, taken from the iterator over the CPU. -/
def emitted (b : Build) (env : Nat → Env) : Nat → Nat → Chip8 B R → Res (List Microcode)
  | 0, _, _ => .ok []
  | n + 1, k, it => do
    let (mcs, it) ← next b (env k) it
    let rest ← emitted b env n (k + 1) it
    .ok (mcs ++ rest)

theorem other_bus {now : Instant} {cpu cpu' : Chip8 B R} {mc : Microcode}
    (h : executeMut b now cpu mc = .ok cpu') (hm : ∀ a v, mc ≠ .WriteMemory a v) :
    cpu'.address_space = cpu.address_space := by
  cases mc with
  | WriteMemory a v => exact absurd rfl (hm a v)
  | Write8bitRegister r v =>
    cases r with
    | GpRegisters r =>
      change (setGp cpu.gp_registers r v).bind _ = _ at h
      cases hg : setGp cpu.gp_registers r v with
      | error p => rw [hg] at h; cases h
      | ok g => rw [hg] at h; cases h; rfl
    | TimerRegisters r => cases r <;> · cases h; rfl
  | Inc8bitRegister r v =>
    cases r with
    | GpRegisters r =>
      change (readGpRegister cpu r).bind _ = _ at h
      cases hr : readGpRegister cpu r with
      | error p => rw [hr] at h; cases h
      | ok w =>
        rw [hr] at h
        change (setGp cpu.gp_registers r (w + v)).bind _ = _ at h
        cases hg : setGp cpu.gp_registers r (w + v) with
        | error p => rw [hg] at h; cases h
        | ok g => rw [hg] at h; cases h; rfl
    | TimerRegisters r =>
      cases r with
      | Delay =>
        change (cpu.dt.read b now).bind _ = _ at h
        cases hr : cpu.dt.read b now with
        | error p => rw [hr] at h; cases h
        | ok w => rw [hr] at h; cases h; rfl
      | Sound =>
        change (cpu.st.read b now).bind _ = _ at h
        cases hr : cpu.st.read b now with
        | error p => rw [hr] at h; cases h
        | ok w => rw [hr] at h; cases h; rfl
  | Dec8bitRegister r v => cases h; rfl
  | Write16bitRegister r v => cases r <;> · cases h; rfl
  | Inc16bitRegister r v => cases r <;> · cases h; rfl
  | Dec16bitRegister r v => cases h; rfl
  | PushStack v =>
    change (cpu.stack.write cpu.sp.read.toNat v).bind _ = _ at h
    cases hs : cpu.stack.write cpu.sp.read.toNat v with
    | error p => rw [hs] at h; cases h
    | ok x =>
      obtain ⟨r, stack⟩ := x
      rw [hs] at h
      cases r with
      | error m => cases h
      | ok u => cases h; rfl
  | PopStack v => cases h; rfl
  | KeyPress k => cases h; rfl
  | KeyRelease => cases h; rfl
  | SetDisplayPixel p v => cases h; rfl
  | SetDisplayRange s e v =>
    obtain ⟨d, rfl⟩ := setDisplayRange_display h
    rfl

theorem executeAll_bus (now : Instant) (mcs : List Microcode) {cpu cpu' : Chip8 B R}
    (h : executeAll b now cpu mcs = .ok cpu') :
    writeAll b cpu.address_space (storesOf mcs) = .ok cpu'.address_space := by
  induction mcs generalizing cpu with
  | nil => cases h; rfl
  | cons mc mcs ih =>
    change (executeMut b now cpu mc).bind _ = _ at h
    cases hm : executeMut b now cpu mc with
    | error p => rw [hm] at h; cases h
    | ok c =>
      rw [hm] at h
      have h2 := ih h
      by_cases hw : ∃ a v, mc = .WriteMemory a v
      · obtain ⟨a, v, rfl⟩ := hw
        change (Addressable.write b cpu.address_space a v).bind _ = _ at hm
        rw [storesOf, writeAll]
        cases hx : Addressable.write b cpu.address_space a v with
        | error p => rw [hx] at hm; cases hm
        | ok x =>
          obtain ⟨r, am⟩ := x
          rw [hx] at hm
          cases r with
          | error m => cases hm
          | ok u => cases hm; exact h2
      · have hw : ∀ a v, mc ≠ .WriteMemory a v := fun a v e => hw ⟨a, v, e⟩
        rw [other_bus hm hw] at h2
        cases mc <;> first | exact h2 | exact absurd rfl (hw _ _)

theorem writeAll_append {x y : B} (ws ws' : List (Word × Byte)) (h : writeAll b x ws = .ok y) :
    writeAll b x (ws ++ ws') = writeAll b y ws' := by
  induction ws generalizing x with
  | nil => cases h; rfl
  | cons w ws ih =>
    obtain ⟨a, v⟩ := w
    rw [writeAll] at h
    rw [List.cons_append, writeAll]
    cases hx : Addressable.write b x a v with
    | error p => rw [hx] at h; cases h
    | ok q =>
      obtain ⟨r, am⟩ := q
      rw [hx] at h
      cases r with
      | error m => cases h
      | ok u => exact ih h

/-- C84: the bus of the CPU that `run` returns is the one it was given after the stores of the
emitted microcode, in order, and nothing else. -/
theorem C84_chip8_bus {env : Nat → Env} {cpu : Chip8 B R} {n : Nat} {s : StepState (Chip8 B R)}
    (h : run b env cpu n = .ok s) : ∃ mcs, emitted b env n 0 cpu = .ok mcs ∧
      writeAll b cpu.address_space (storesOf mcs) = .ok s.unwrap.address_space := by
  have key : ∀ n k (it acc c : Chip8 B R), runLoop b env n k it acc = .ok c →
      ∃ mcs, emitted b env n k it = .ok mcs ∧
        writeAll b acc.address_space (storesOf mcs) = .ok c.address_space := by
    intro n
    induction n with
    | zero => intro k it acc c h; cases h; exact ⟨[], rfl, rfl⟩
    | succ n ih =>
      intro k it acc c h
      change (next b (env k) it).bind _ = _ at h
      cases hn : next b (env k) it with
      | error p => rw [hn] at h; cases h
      | ok x =>
        obtain ⟨mcs, it'⟩ := x
        rw [hn] at h
        change (executeAll b (env k).foldAt acc mcs).bind _ = _ at h
        cases he : executeAll b (env k).foldAt acc mcs with
        | error p => rw [he] at h; cases h
        | ok acc' =>
          rw [he] at h
          obtain ⟨l, h1, h2⟩ := ih _ _ _ _ h
          refine ⟨mcs ++ l, ?_, ?_⟩
          · show (next b (env k) it).bind _ = _
            rw [hn]
            show (emitted b env n (k + 1) it').bind _ = _
            rw [h1]; rfl
          · rw [storesOf_append, writeAll_append _ _ (executeAll_bus _ _ he)]
            exact h2
  change (runLoop b env n 0 cpu cpu).bind _ = _ at h
  cases hl : runLoop b env n 0 cpu cpu with
  | error p => rw [hl] at h; cases h
  | ok c =>
    rw [hl] at h
    cases h
    exact key _ _ _ _ _ hl

variable {env : Nat → Env} {h : List BusEvent} {cpu : Chip8 (AddressMap Memory) R} {n : Nat}
  {s : StepState (Chip8 (AddressMap Memory) R)}

/-- C84: a run stores to RAM only, and afterwards every address of the bus reads as the byte last
stored there, or else as before. -/
theorem C84_chip8_memory (ht : MemTrace b h cpu.address_space) (hx : run b env cpu n = .ok s) :
    ∃ mcs, emitted b env n 0 cpu = .ok mcs ∧
      (∀ w ∈ storesOf mcs, (Bus.after h).owner w.1 = some .readWrite) ∧
      ∀ a, s.unwrap.address_space.read b a =
        .ok ((lastWrite a (storesOf mcs)).getD ((Bus.after h).val a)) := by
  obtain ⟨mcs, h1, h2⟩ := C84_chip8_bus hx
  obtain ⟨h3, h4⟩ := writeAll_trace _ ht h2
  exact ⟨mcs, h1, h3, fun a => by rw [C01_read_is_flat_memory h4, val_asEvents h _ h3]⟩

/-- C84: whatever a CHIP-8 program does and however long it runs, an address of a read-only segment
reads the byte the segment was loaded with. -/
theorem C84_chip8_rom (ht : MemTrace b h cpu.address_space) (hx : run b env cpu n = .ok s)
    {r : AddrRange} {data : List Byte} (hreg : BusEvent.register .readOnly r data ∈ h) {a : Word}
    (ha : InRange r a) :
    ∃ v, data[a.toNat - r.start.toNat]? = some v ∧ cpu.address_space.read b a = .ok v ∧
      s.unwrap.address_space.read b a = .ok v := by
  obtain ⟨mcs, -, h2⟩ := C84_chip8_bus hx
  obtain ⟨-, h4⟩ := writeAll_trace _ ht h2
  obtain ⟨⟨v, e1, e2⟩, -⟩ := C03_rom_is_immutable ht hreg a ha
  obtain ⟨⟨v', e1', e2'⟩, -⟩ := C03_rom_is_immutable h4 (List.mem_append_left _ hreg) a ha
  rw [e1] at e1'
  cases e1'
  exact ⟨v, e1, e2, e2'⟩

/-! ### A concrete case -/

/-- `LD V1, 123; LD I, 0x300; LD B, V1` in read-only memory at 0x200, and 16 bytes of RAM at 0x300. -/
def bcdHistory : List BusEvent :=
  [.register .readOnly ⟨0x200, 0x205⟩ [0x61, 123, 0xa3, 0x00, 0xf1, 0x33],
   .register .readWrite ⟨0x300, 0x30f⟩ (List.replicate 16 0)]

/-- The bus that the registrations of the example lead to. -/
def bcdMap : AddressMap Memory :=
  ⟨[(⟨0x300, 0x30f⟩, ⟨.readWrite, 0x300, 0x30f, List.replicate 16 0⟩),
    (⟨0x200, 0x205⟩, ⟨.readOnly, 0x200, 0x205, [0x61, 123, 0xa3, 0x00, 0xf1, 0x33]⟩)]⟩

theorem bcdMap_trace (b : Build) : MemTrace b bcdHistory bcdMap := by
  have h1 : MemTrace b [.register .readOnly ⟨0x200, 0x205⟩ [0x61, 123, 0xa3, 0x00, 0xf1, 0x33]]
      ⟨[(⟨0x200, 0x205⟩, ⟨.readOnly, 0x200, 0x205, [0x61, 123, 0xa3, 0x00, 0xf1, 0x33]⟩)]⟩ :=
    .register (h := []) (fresh := ⟨.readOnly, 0x200, 0x205, List.replicate 6 0⟩) .new rfl rfl
      (by intro e he; cases he) ⟨_, rfl, List.Perm.refl _⟩
  refine .register (fresh := ⟨.readWrite, 0x300, 0x30f, List.replicate 16 0⟩) h1 rfl rfl ?_
    ⟨bcdMap, rfl, List.Perm.refl _⟩
  intro e he
  simp at he
  subst he
  rintro ⟨a, h1, h2⟩
  have e1 : (768 : Word).toNat ≤ a.toNat := h1.1
  have e2 : a.toNat ≤ (517 : Word).toNat := h2.2
  exact absurd (Nat.le_trans e1 e2) (by decide)

/-- A CHIP-8 on that bus, about to run the program in read-only memory. -/
def bcdCpu : Chip8 (AddressMap Memory) Unit :=
  { stack := sample.stack, address_space := bcdMap, dt := sample.dt, st := sample.st, pc := 0x200
    sp := sample.sp, i := 0, gp_registers := sample.gp_registers, display := sample.display
    interrupt := none, rng := () }

/-- The program runs, stores the digits 1, 2, 3 in RAM, and the theorems apply to it. -/
example : MemTrace .debug bcdHistory bcdCpu.address_space ∧
    ((run .debug (fun _ => ⟨0, 0, 0, 0⟩) bcdCpu 3).map fun s =>
      (s.unwrap.address_space.read .debug 0x300, s.unwrap.address_space.read .debug 0x301,
        s.unwrap.address_space.read .debug 0x302)) = .ok (.ok 1, .ok 2, .ok 3) ∧
    BusEvent.register .readOnly ⟨0x200, 0x205⟩ [0x61, 123, 0xa3, 0x00, 0xf1, 0x33] ∈ bcdHistory :=
  ⟨bcdMap_trace _, by decide +kernel, by simp [bcdHistory]⟩

end Verif.Props.Chip8
