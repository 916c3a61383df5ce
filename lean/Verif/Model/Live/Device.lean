import Verif.Model.AddressMap
import Verif.Model.Live.Bus

/-!
# Live devices and address maps of them
-/

namespace Verif.Live

open Verif

/-- The trait `Addressable<u16, u8>`, `src/address_map/mod.rs:34-42`, for devices that share a world
`W`: `D` is what each clone has for itself, `W` what all devices and clones reach. -/
class Device (W D : Type) where
  /-- `fn read(&self, offset) -> V`, `src/address_map/mod.rs:40`; a device may change itself through a
  `Cell` -/
  read : Build → D → Word → W → Res (Byte × D) × W
  /-- `fn write(&mut self, offset, data) -> Result<V, WriteError>`, `src/address_map/mod.rs:41` -/
  write : Build → D → Word → Byte → W → Res (Except String Byte × D) × W

section
variable {W D : Type} [Device W D]

/-- The lookup part of `read` on the entry list, `src/address_map/mod.rs:134-139`, as `Verif.AddressMap.read` finds the entry; the entry's
device may change. -/
def mapReadEntries (b : Build) (addr : Word) (w : W) :
    List (AddrRange × D) → Res (Byte × List (AddrRange × D)) × W
  | [] => (.ok (0, []), w)
  | (r, d) :: es =>
    if r.contains addr then
      match Device.read b d addr w with
      | (.ok (v, d'), w') => (.ok (v, (r, d') :: es), w')
      | (.error e, w') => (.error e, w')
    else
      match mapReadEntries b addr w es with
      | (.ok (v, es'), w') => (.ok (v, (r, d) :: es'), w')
      | (.error e, w') => (.error e, w')

/-- `<AddressMap as Addressable>::read`, `src/address_map/mod.rs:133-140`. -/
def mapRead (b : Build) (m : AddressMap D) (addr : Word) (w : W) : Res (Byte × AddressMap D) × W :=
  match mapReadEntries b addr w m.inner with
  | (.ok (v, es), w') => (.ok (v, ⟨es⟩), w')
  | (.error e, w') => (.error e, w')

/-- The lookup-and-update part of `write` on the entry list, `src/address_map/mod.rs:144-154`, as in `Verif.AddressMap.writeEntries`. -/
def mapWriteEntries (b : Build) (addr : Word) (value : Byte) (w : W) :
    List (AddrRange × D) → Res (Except String Byte × List (AddrRange × D)) × W
  | [] => (.ok (.error s!"address space {addr.toNat} unallocated", []), w)
  | (r, d) :: es =>
    if r.contains addr then
      match Device.write b d addr value w with
      | (.ok (res, d'), w') => (.ok (res, (r, d') :: es), w')
      | (.error e, w') => (.error e, w')
    else
      match mapWriteEntries b addr value w es with
      | (.ok (res, es'), w') => (.ok (res, (r, d) :: es'), w')
      | (.error e, w') => (.error e, w')

/-- `<AddressMap as Addressable>::write`, `src/address_map/mod.rs:143-155`. -/
def mapWrite (b : Build) (m : AddressMap D) (addr : Word) (value : Byte) (w : W) :
    Res (Except String Byte × AddressMap D) × W :=
  match mapWriteEntries b addr value w m.inner with
  | (.ok (res, es), w') => (.ok (res, ⟨es⟩), w')
  | (.error e, w') => (.error e, w')

/-- `impl Addressable for AddressMap`, `src/address_map/mod.rs:127-156`. -/
instance : Device W (AddressMap D) where
  read := mapRead
  write := mapWrite

end

/-- A device that is a value: cloning it gives an equal, independent one, as `src/address_map/memory.rs:30`. -/
structure Value (D : Type) where
  /-- the device -/
  dev : D

/-- The methods of such a device, `src/address_map/mod.rs:40-41`, do not touch the world. -/
instance {W D : Type} [Addressable D] : Device W (Value D) where
  read b d a w := ((Addressable.read b d.dev a).map fun v => (v, d), w)
  write b d a v w := ((Addressable.write b d.dev a v).map fun p => (p.1, ⟨p.2⟩), w)

/-- A device all of whose clones are the same device, `Rc<RefCell<D>>` with `read` and `write` passed
on; the world is that device. Such devices are not in the crate; they implement `src/address_map/mod.rs:34-42`. -/
structure Shared where

/-- The methods of such a device, `src/address_map/mod.rs:40-41`, work on the world only. -/
instance {D : Type} [Addressable D] : Device D Shared where
  read b s a w := ((Addressable.read b w a).map fun v => (v, s), w)
  write b s a v w := match Addressable.write b w a v with
    | .ok (r, w') => (.ok (r, s), w')
    | .error e => (.error e, w)

/-- Devices of two kinds in one map (`Box<dyn Addressable>`, `src/address_map/mod.rs:77`). -/
instance {W D E : Type} [Device W D] [Device W E] : Device W (D ⊕ E) where
  read b d a w := match d with
    | .inl d => match Device.read b d a w with
      | (.ok (v, d'), w') => (.ok (v, .inl d'), w')
      | (.error e, w') => (.error e, w')
    | .inr e => match Device.read b e a w with
      | (.ok (v, e'), w') => (.ok (v, .inr e'), w')
      | (.error e, w') => (.error e, w')
  write b d a v w := match d with
    | .inl d => match Device.write b d a v w with
      | (.ok (r, d'), w') => (.ok (r, .inl d'), w')
      | (.error e, w') => (.error e, w')
    | .inr e => match Device.write b e a v w with
      | (.ok (r, e'), w') => (.ok (r, .inr e'), w')
      | (.error e, w') => (.error e, w')

/-- The two clones of the bus during `run`, `src/cpu/mos6502/mod.rs:217-228`, and the world. -/
structure Site (W D : Type) where
  /-- the clone of the iterator -/
  iterator : D
  /-- the bus of the CPU itself -/
  own : D
  /-- what the clones share -/
  world : W

/-- The clone that is called: by `src/cpu/mos6502/mod.rs:273-275` that of the iterator, by `:225` the own. -/
def Site.on {W D : Type} (s : Site W D) : Copy → D
  | .iterator => s.iterator
  | .own => s.own

/-- One clone changed, as by `src/cpu/mos6502/mod.rs:329`. -/
def Site.update {W D : Type} (s : Site W D) (who : Copy) (d : D) (w : W) : Site W D :=
  match who with
  | .iterator => { s with iterator := d, world := w }
  | .own => { s with own := d, world := w }

/-- The computation on actual devices: every call is answered by the clone it is made on,
`src/address_map/mod.rs:40-41`. -/
def Bus.exec {W D α : Type} [Device W D] (b : Build) : Bus α → Site W D → Res α × Site W D
  | .done r, s => (r, s)
  | .read who addr k, s =>
    match Device.read b (s.on who) addr s.world with
    | (.ok (v, d), w) => exec b (k v) (s.update who d w)
    | (.error e, w) => (.error e, { s with world := w })
  | .write who addr value k, s =>
    match Device.write b (s.on who) addr value s.world with
    | (.ok (r, d), w) => exec b (k r) (s.update who d w)
    | (.error e, w) => (.error e, { s with world := w })

end Verif.Live
