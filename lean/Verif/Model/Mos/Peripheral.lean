import Verif.Model.Mos.Capture

/-!
# `examples/custom_peripheral_addr_space.rs` and `examples/custom_peripheral_microcode_hook.rs`

Two ways of attaching a peripheral to the CPU: as a device on the bus, and by intercepting the
captured microcode.
-/

namespace Verif.Mos

open Verif

/-- The ROM image of both examples, `examples/custom_peripheral_addr_space.rs:66-69` and
`examples/custom_peripheral_microcode_hook.rs:38-41`. -/
def peripheralRom : List Byte :=
  [0xa9, 0xff, 0x8d, 0x02, 0x80, 0xa9, 0x55, 0x8d, 0x00, 0x80, 0xa9, 0xaa, 0x8d, 0x00, 0x80,
   0x4c, 0xef, 0xff, 0xea, 0xff, 0x00, 0x00]

/-! ## The device on the bus -/

/-- `VIA`, `examples/custom_peripheral_addr_space.rs:15-23`. The standard output of the program is
modelled by the added field `printed`: the bytes handed to `println!` (line 50), oldest first. -/
structure Via where
  port_a_addr : Word
  port_b_addr : Word
  port_a_mask : Word
  port_b_mask : Word
  port_a : Byte
  port_b : Byte
  printed : List Byte
  deriving DecidableEq

/-- `VIA::new`, `examples/custom_peripheral_addr_space.rs:26-35`: checked additions. -/
def Via.new (b : Build) (base : Word) : Res Via := do
  let pb ← addU16 b base 1
  let ma ← addU16 b base 2
  let mb ← addU16 b base 3
  .ok { port_a_addr := base, port_b_addr := pb, port_a_mask := ma, port_b_mask := mb,
        port_a := 0, port_b := 0, printed := [] }

/-- `<VIA as Addressable>::read`, `examples/custom_peripheral_addr_space.rs:41-43`. -/
def Via.read (_ : Via) (_ : Word) : Byte := 0

/-- `<VIA as Addressable>::write`, `examples/custom_peripheral_addr_space.rs:47-60`. -/
def Via.write (v : Via) (addr : Word) (value : Byte) : Except String Byte × Via :=
  if addr = v.port_a_addr then
    (.ok value, { v with port_a := value, printed := v.printed ++ [value] })
  else if addr = v.port_b_addr then (.ok value, { v with port_b := value })
  else if (AddrRange.mk v.port_a_mask v.port_b_mask).contains addr then (.ok value, v)
  else (.error s!"unknown VIA write addrress: {addr.toNat}", v)

/-- What the `Box<dyn Addressable>` entries of the example's address map can be,
`examples/custom_peripheral_addr_space.rs:72-79`. -/
inductive Device where
  | memory (m : Memory)
  | via (v : Via)

/-- Dynamic dispatch: `Memory`'s implementation, `src/address_map/memory.rs:76-105`, or the VIA's. -/
instance : Addressable Device where
  read b d a := match d with
    | .memory m => Addressable.read b m a
    | .via v => .ok (v.read a)
  write b d a x := match d with
    | .memory m => do
      let (r, m') ← Addressable.write b m a x
      .ok (r, .memory m')
    | .via v => let (r, v') := v.write a x; .ok (r, .via v')

/-- `Mos6502::default`, `src/cpu/mos6502/mod.rs:199-215`, as in `defaultCpu`, with its two memories
boxed into the type `D` of devices of the map. -/
def defaultCpuOf {D : Type} (box : Memory → D) (b : Build) : Res (Mos6502 (AddressMap D)) := do
  let stack ← Memory.new b .readWrite 0x00 0xff
  let am₁ ← unwrapResult (AddressMap.new.register ⟨0x0000, 0x00ff⟩ (box stack))
  let ram ← Memory.new b .readWrite 0x0100 0x01ff
  let am₂ ← unwrapResult (am₁.register ⟨0x0100, 0x01ff⟩ (box ram))
  .ok (withAddressmap am₂)

/-- The CPU before the reset, `examples/custom_peripheral_addr_space.rs:66-79`. -/
def viaCpu (b : Build) : Res (Mos6502 (AddressMap Device)) := do
  let rom ← Memory.new b .readOnly 0xffea 0xffff
  let via ← Via.new b 0x8000
  let cpu ← defaultCpuOf Device.memory b
  let cpu₁ ← unwrapResult
    (registerAddressSpace cpu ⟨0xffea, 0xffff⟩ (.memory (rom.load peripheralRom)))
  unwrapResult (registerAddressSpace cpu₁ ⟨0x8000, 0x8003⟩ (.via via))

section
variable {B : Type} [Addressable B]

/-- `cpu.into_iter().flat_map(..).take(n).flatten().for_each(drop)`,
`examples/custom_peripheral_addr_space.rs:87-91`: as `captureLoop`, but keeping the state of the
instruction iterator (which holds the device) instead of the microcode. -/
def drainLoop (b : Build) : Nat → Mos6502 B → List (List Microcode) → Res (Mos6502 B)
  | 0, it, _ => .ok it
  | n + 1, it, _ :: rest => drainLoop b n it rest
  | n + 1, it, [] => do
    let (mops, it') ← next b it
    let steps ← mops.intoSteps b
    match steps with
    | _ :: rest => drainLoop b n it' rest
    | [] => .ok it' -- not reachable: `intoSteps` never yields an empty list

/-- The whole chain, on a fresh iterator, `examples/custom_peripheral_addr_space.rs:87-91`. -/
def drain (b : Build) (cpu : Mos6502 B) (cycles : Nat) : Res (Mos6502 B) :=
  drainLoop b cycles cpu []

end

/-! ## The microcode hook -/

/-- `Via`, `examples/custom_peripheral_microcode_hook.rs:16-22`, with the standard output added as
above (line 75). -/
structure HookVia where
  port_a_addr : Word
  port_b_addr : Word
  port_a : Byte
  port_b : Byte
  printed : List Byte
  deriving DecidableEq

/-- `Via::new`, `examples/custom_peripheral_microcode_hook.rs:25-32`. -/
def HookVia.new (b : Build) (base : Word) : Res HookVia := do
  let pb ← addU16 b base 1
  .ok { port_a_addr := base, port_b_addr := pb, port_a := 0, port_b := 0, printed := [] }

/-- The state change in the closure, `examples/custom_peripheral_microcode_hook.rs:73-78`. -/
def HookVia.write (v : HookVia) (addr : Word) (value : Byte) : HookVia :=
  if addr = v.port_a_addr then { v with port_a := value, printed := v.printed ++ [value] }
  else if addr = v.port_b_addr then { v with port_b := value }
  else v

/-- `states.iter().filter(|mc| ..).fold(cpu, |c, mc| mc.execute(c))`,
`examples/custom_peripheral_microcode_hook.rs:69-83`, for any hooked address range and any
intercepting function: `filter` is lazy, so each step of microcode is first shown to the closure
and then executed or not. -/
def hookLoop {B V : Type} [Addressable B] (b : Build) (range : AddrRange) (hook : V → Word → Byte → V) :
    List Microcode → V → Mos6502 B → Res (V × Mos6502 B)
  | [], via, cpu => .ok (via, cpu)
  | .WriteMemory addr value :: mcs, via, cpu =>
    if range.contains addr then hookLoop b range hook mcs (hook via addr value) cpu
    else do
      let cpu' ← executeMut b cpu (.WriteMemory addr value)
      hookLoop b range hook mcs via cpu'
  | mc :: mcs, via, cpu => do
    let cpu' ← executeMut b cpu mc
    hookLoop b range hook mcs via cpu'

/-- The CPU before the reset, `examples/custom_peripheral_microcode_hook.rs:38-52`. -/
def hookCpu (b : Build) : Res (Mos6502 (AddressMap Memory)) := do
  let rom ← Memory.new b .readOnly 0xffea 0xffff
  let cpu ← defaultCpu b
  let cpu₁ ← unwrapResult
    (registerAddressSpace cpu ⟨0xffea, 0xffff⟩ (rom.load peripheralRom))
  let ram ← Memory.new b .readWrite 0x8000 0x8003
  unwrapResult (registerAddressSpace cpu₁ ⟨0x8000, 0x8003⟩ ram)

/-- `main` after the reset, `examples/custom_peripheral_microcode_hook.rs:60-83`, for any number of
cycles (the example uses 80). -/
def hookRun (b : Build) (via : HookVia) (cpu : Mos6502 (AddressMap Memory)) (cycles : Nat) :
    Res (HookVia × Mos6502 (AddressMap Memory)) := do
  let states ← capture b cpu cycles
  hookLoop b ⟨0x8000, 0x8003⟩ HookVia.write states via cpu

/-! ## What the devices are told -/

section
variable {B : Type} [Addressable B]

/-- The calls of `Addressable::write` a list of microcode makes
(`src/cpu/mos6502/mod.rs:327-331`). -/
def writeCalls (mcs : List Microcode) : List (Word × Byte) :=
  mcs.filterMap fun
    | .WriteMemory a v => some (a, v)
    | _ => none

/-- `Mos6502::run`, `src/cpu/mos6502/mod.rs:217-228`, as in `runLoop`, also logging the calls of
`Addressable::write` in the order in which they are made: by the instruction iterator on its clone
of the CPU (lines 273-275) and by the `fold` (line 225). The log is what a device that shares its
state between clones (as with `Rc<RefCell<..>>`, or a console) observes. -/
def runLogLoop (b : Build) : Nat → Mos6502 B → List (List Microcode) → Mos6502 B →
    Res (Mos6502 B × List (Word × Byte))
  | 0, _, _, cpu => .ok (cpu, [])
  | n + 1, it, step :: rest, cpu => do
    let cpu' ← executeAll b step cpu
    let (c, log) ← runLogLoop b n it rest cpu'
    .ok (c, writeCalls step ++ log)
  | n + 1, it, [], cpu => do
    let (mops, it') ← next b it
    let steps ← mops.intoSteps b
    match steps with
    | step :: rest => do
      let cpu' ← executeAll b step cpu
      let (c, log) ← runLogLoop b n it' rest cpu'
      .ok (c, writeCalls steps.flatten ++ (writeCalls step ++ log))
    | [] => .ok (cpu, []) -- not reachable: `intoSteps` never yields an empty list

/-- `run`, `src/cpu/mos6502/mod.rs:217-228`, with the log of write calls. -/
def runLog (b : Build) (cpu : Mos6502 B) (cycles : Nat) :
    Res (StepState (Mos6502 B) × List (Word × Byte)) := do
  let (state, log) ← runLogLoop b cycles cpu [] cpu
  .ok (StepState.ofState state, log)

end

end Verif.Mos
