import Verif.Spec.BusCalls
import Verif.Model.Mos.Cpu

/-!
# Access to the bus of a 6502 from outside (C76)
-/

namespace Verif.Props

open Verif Verif.Spec Verif.Mos

/-- Any sequence of bus calls on a CPU gives the answers, errors and panics of the same calls on its
address map alone; the CPU that comes back has the map that results and its old registers. -/
theorem C76_calls {D X : Type} (cpu : Mos6502 (AddressMap D)) (calls : List (BusCall D X)) :
    callsOnCpu cpu calls = (callsOnMap cpu.address_map calls).map
      (Except.map fun p => (p.1, { cpu with address_map := p.2 })) := by
  induction calls generalizing cpu with
  | nil => rfl
  | cons c cs ih =>
    cases c with
    | look f =>
      simp only [callsOnCpu, callsOnMap, withAddressMap]
      cases h : f cpu.address_map with
      | error e => rfl
      | ok x =>
        simp only [Res.ok_bind, ih]
        cases callsOnMap cpu.address_map cs with
        | error e => rfl
        | ok r => cases r <;> rfl
    | change f =>
      simp only [callsOnCpu, callsOnMap, withAddressMapMut]
      cases h : f cpu.address_map with
      | error e => rfl
      | ok p =>
        simp only [Res.ok_bind, ih]
        cases callsOnMap p.2 cs with
        | error e => rfl
        | ok r => cases r <;> rfl
    | owned f =>
      simp only [callsOnCpu, callsOnMap, withOwnedAddressMap]
      cases h : f cpu.address_map with
      | error e => rfl
      | ok am => simp only [Res.ok_bind, ih]
    | register space dev =>
      simp only [callsOnCpu, callsOnMap, registerAddressSpace]
      cases h : cpu.address_map.register space dev with
      | error e => rfl
      | ok am => exact ih _

/-- In particular the registers never change. -/
theorem C76_registers {D X : Type} (cpu cpu' : Mos6502 (AddressMap D))
    (calls : List (BusCall D X)) (xs : List X) (h : callsOnCpu cpu calls = .ok (.ok (xs, cpu'))) :
    cpu'.acc = cpu.acc ∧ cpu'.x = cpu.x ∧ cpu'.y = cpu.y ∧ cpu'.sp = cpu.sp ∧ cpu'.pc = cpu.pc ∧
      cpu'.ps = cpu.ps ∧ callsOnMap cpu.address_map calls = .ok (.ok (xs, cpu'.address_map)) := by
  rw [C76_calls] at h
  cases hm : callsOnMap cpu.address_map calls with
  | error e => rw [hm] at h; cases h
  | ok r =>
    cases r with
    | error e => rw [hm] at h; cases h
    | ok p =>
      rw [hm] at h
      cases h
      exact ⟨rfl, rfl, rfl, rfl, rfl, rfl, rfl⟩

/-- A CPU made from an address map has that map and the registers of a new CPU. -/
theorem C76_with_addressmap (b : Build) (am : AddressMap Memory) (cpu : Mos6502 (AddressMap Memory))
    (h : defaultCpu b = .ok cpu) :
    withAddressmap am = { cpu with address_map := am } := by
  have : ∃ m, defaultCpu b = .ok (withAddressmap m) := ⟨_, rfl⟩
  obtain ⟨m, hm⟩ := this
  rw [h] at hm
  cases hm
  rfl

/-- On the default CPU: a write through `with_address_map_mut`, a look at the byte, and a new RAM. -/
example : (do
    let cpu ← defaultCpu .debug
    let ram ← Memory.new .debug .readWrite 0x0200 0x02ff
    let r ← callsOnCpu (X := Byte) (withPcRegister cpu 0x0200)
      [.change (fun am => do
          let (_, am') ← am.write .debug 0x0010 0x5a
          .ok (0, am')),
        .register ⟨0x0200, 0x02ff⟩ ram,
        .look (fun am => am.read .debug 0x0010)]
    match r with
    | .ok (xs, cpu') => .ok (xs, cpu'.pc, cpu'.address_map.inner.length)
    | .error _ => .error .unwrapNone)
      = (.ok ([0, 0x5a], 0x0200, 3) : Res (List Byte × Word × Nat)) := by
  decide +kernel

/-- A second device over the same range: the error of the registration, the CPU is gone. -/
example : (do
    let cpu ← defaultCpu .debug
    let ram ← Memory.new .debug .readWrite 0x0000 0x00ff
    let r ← callsOnCpu (X := Byte) cpu [.register ⟨0x0000, 0x00ff⟩ ram]
    .ok r.toBool) = (.ok false : Res Bool) := by
  decide +kernel

end Verif.Props
