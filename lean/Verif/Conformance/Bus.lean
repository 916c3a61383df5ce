import Verif.Conformance.Basic
import Verif.Model.Memory

/-!
# `src/address_map/tests/`
-/

namespace Verif.Conformance

open Verif

/-- `u16_address_map!()` followed by `unwrap`, `src/address_map/tests/mod.rs:8-25`, with the last
address (`std::u16::MAX` there) as a parameter. -/
def mapOf (b : Build) (stop : Word) : Res (AddressMap Memory) := do
  unwrapResult (AddressMap.new.register ⟨0, stop⟩ (← Memory.new b .readWrite 0 stop))

/-- `mem.write(addr, value).unwrap()`, throughout the tests. -/
def storeMem (b : Build) (mem : Memory) (addr : Word) (value : Byte) : Res Memory := do
  let (r, mem) ← mem.write b addr value
  let _ ← unwrapResult r
  .ok mem

/-- A memory that starts at 0, as in the tests below. -/
theorem new_range (b : Build) (k : MemKind) (n : Nat) (h : n < 65536) :
    Memory.new b k 0 (BitVec.ofNat 16 n)
      = .ok ⟨k, 0, BitVec.ofNat 16 n, List.replicate (n + 1) 0⟩ := by
  rw [Memory.new, if_pos (by simp)]
  simp [Nat.mod_eq_of_lt h]

/-- A write into such a memory. -/
theorem storeMem_at (b : Build) (n a : Nat) (l : List Byte) (v : Byte) (ha : a < 65536)
    (h : a < l.length) :
    storeMem b ⟨.readWrite, 0, BitVec.ofNat 16 n, l⟩ (BitVec.ofNat 16 a) v
      = .ok ⟨.readWrite, 0, BitVec.ofNat 16 n, l.set a v⟩ := by
  cases b with
  | mk c =>
    cases c <;>
    simp [storeMem, Memory.write, subU16, indexSet, h, unwrapResult, bind, Except.bind,
      Nat.mod_eq_of_lt ha]

/-- A read of such a memory. -/
theorem read_at (b : Build) (k : MemKind) (n a : Nat) (l : List Byte) (v : Byte) (ha : a < 65536)
    (h : l[a]? = some v) :
    Memory.read b ⟨k, 0, BitVec.ofNat 16 n, l⟩ (BitVec.ofNat 16 a) = .ok v := by
  cases b with
  | mk c => cases c <;> simp [Memory.read, subU16, index, h, bind, Except.bind, Nat.mod_eq_of_lt ha]

/-- `should_initialize_memory_to_zeroes` for any size and address. -/
theorem zeroes (n a : Nat) (hn : n < 65536) (ha : a ≤ n) : passes (fun b => do
    let mem ← Memory.new b .readOnly 0 (BitVec.ofNat 16 n)
    check (decide (0x00 = (← mem.read b (BitVec.ofNat 16 a))))) := by
  have h : ∀ b, Memory.read b ⟨.readOnly, 0, BitVec.ofNat 16 n, List.replicate (n + 1) 0⟩
      (BitVec.ofNat 16 a) = .ok 0 :=
    fun b => read_at b _ n a _ 0 (by omega) (by rw [List.getElem?_replicate, if_pos (by omega)])
  constructor <;>
  simp only [new_range _ _ n hn, bind, Except.bind, h, check, decide_true, if_true, Except.toBool]

/-- `should_persist_values_in_memory_when_written` for any size, address and value. -/
theorem persists (n a : Nat) (v : Byte) (hn : n < 65536) (ha : a ≤ n) : passes (fun b => do
    let mem ← Memory.new b .readWrite 0 (BitVec.ofNat 16 n)
    let mem ← storeMem b mem (BitVec.ofNat 16 a) v
    check (decide (v = (← mem.read b (BitVec.ofNat 16 a))))) := by
  have h : ∀ b, storeMem b ⟨.readWrite, 0, BitVec.ofNat 16 n, List.replicate (n + 1) 0⟩
      (BitVec.ofNat 16 a) v
        = .ok ⟨.readWrite, 0, BitVec.ofNat 16 n, (List.replicate (n + 1) 0).set a v⟩ :=
    fun b => storeMem_at b n a _ v (by omega) (by simp; omega)
  have h' : ∀ b, Memory.read b ⟨.readWrite, 0, BitVec.ofNat 16 n,
      (List.replicate (n + 1) 0).set a v⟩ (BitVec.ofNat 16 a) = .ok v :=
    fun b => read_at b _ n a _ v (by omega) (List.getElem?_set_self (by simp; omega))
  constructor <;>
  simp only [new_range _ _ n hn, bind, Except.bind, h, h', check, decide_true, if_true,
    Except.toBool]

/-- `should_dump_entire_state_of_memory` for any size, address and value. -/
theorem dumps (n a : Nat) (v : Byte) (hn : n < 65536) (ha : a ≤ n) : passes (fun b => do
    let expected : List Byte := (List.replicate (n + 1) 0).set a v
    let mem ← Memory.new b .readWrite 0 (BitVec.ofNat 16 n)
    let mem ← storeMem b mem (BitVec.ofNat 16 a) v
    check (decide (expected = mem.dump))) := by
  have h : ∀ b, storeMem b ⟨.readWrite, 0, BitVec.ofNat 16 n, List.replicate (n + 1) 0⟩
      (BitVec.ofNat 16 a) v
        = .ok ⟨.readWrite, 0, BitVec.ofNat 16 n, (List.replicate (n + 1) 0).set a v⟩ :=
    fun b => storeMem_at b n a _ v (by omega) (by simp; omega)
  constructor <;>
  simp only [new_range _ _ n hn, bind, Except.bind, h, Memory.dump, check, decide_true, if_true,
    Except.toBool]

/-- `should_load_memory_of_correct_size` for any size and contents. -/
theorem loads (n : Nat) (rom : List Byte) (hn : n < 65536) : passes (fun b => do
    let mem := (← Memory.new b .readWrite 0 (BitVec.ofNat 16 n)).load rom
    check (decide (rom = mem.dump))) := by
  constructor <;>
  simp only [new_range _ _ n hn, bind, Except.bind, Memory.load, Memory.dump, check, decide_true,
    if_true, Except.toBool]

/-- The map of the two tests below. -/
theorem mapOf_eq (b : Build) (n : Nat) (hn : n < 65536) :
    mapOf b (BitVec.ofNat 16 n) = .ok (AddressMap.mk [(⟨0, BitVec.ofNat 16 n⟩,
      ⟨.readWrite, 0, BitVec.ofNat 16 n, List.replicate (n + 1) 0⟩)]) := by
  rw [mapOf, new_range _ _ n hn]
  rfl

/-- `should_read_valid_memory` for any size and address. -/
theorem mapReads (n a : Nat) (hn : n < 65536) (ha : a ≤ n) : passes (fun b => do
    let am ← mapOf b (BitVec.ofNat 16 n)
    check (decide (0x00 = (← Addressable.read b am (BitVec.ofNat 16 a))))) := by
  have h : ∀ b k, Memory.read b ⟨k, 0, BitVec.ofNat 16 n, List.replicate (n + 1) 0⟩
      (BitVec.ofNat 16 a) = .ok 0 :=
    fun b k => read_at b k n a _ 0 (by omega) (by rw [List.getElem?_replicate, if_pos (by omega)])
  have hc : AddrRange.contains ⟨0, BitVec.ofNat 16 n⟩ (BitVec.ofNat 16 a) = true := by
    simp [AddrRange.contains]; omega
  have hr : ∀ b, Addressable.read b (AddressMap.mk [(⟨0, BitVec.ofNat 16 n⟩,
      (⟨.readWrite, 0, BitVec.ofNat 16 n, List.replicate (n + 1) 0⟩ : Memory))])
      (BitVec.ofNat 16 a) = .ok 0 := by
    intro b
    change AddressMap.read b _ _ = _
    simp only [AddressMap.read, List.find?_cons, hc]
    exact h b _
  constructor <;>
  simp only [mapOf_eq _ n hn, bind, Except.bind, hr, check, decide_true, if_true, Except.toBool]

/-- `should_write_valid_memory` for any size, address and value. -/
theorem mapWrites (n a : Nat) (v : Byte) (hn : n < 65536) (ha : a ≤ n) : passes (fun b => do
    let am ← mapOf b (BitVec.ofNat 16 n)
    let (r, am) ← Addressable.write b am (BitVec.ofNat 16 a) v
    check r.toBool
    check (decide (v = (← Addressable.read b am (BitVec.ofNat 16 a))))) := by
  have h : ∀ b, Memory.write b ⟨.readWrite, 0, BitVec.ofNat 16 n, List.replicate (n + 1) 0⟩
      (BitVec.ofNat 16 a) v = .ok (.ok v, ⟨.readWrite, 0, BitVec.ofNat 16 n,
        (List.replicate (n + 1) 0).set a v⟩) := by
    intro b
    have : a < n + 1 := by omega
    have h2 : a < 65536 := by omega
    cases b with
    | mk c =>
      cases c <;> simp [Memory.write, subU16, indexSet, this, bind, Except.bind,
        Nat.mod_eq_of_lt h2]
  have h' : ∀ b, Memory.read b ⟨.readWrite, 0, BitVec.ofNat 16 n,
      (List.replicate (n + 1) 0).set a v⟩ (BitVec.ofNat 16 a) = .ok v :=
    fun b => read_at b _ n a _ v (by omega) (List.getElem?_set_self (by simp; omega))
  have hc : AddrRange.contains ⟨0, BitVec.ofNat 16 n⟩ (BitVec.ofNat 16 a) = true := by
    simp [AddrRange.contains]; omega
  have hw : ∀ b, Addressable.write b (AddressMap.mk [(⟨0, BitVec.ofNat 16 n⟩,
      (⟨.readWrite, 0, BitVec.ofNat 16 n, List.replicate (n + 1) 0⟩ : Memory))])
      (BitVec.ofNat 16 a) v = .ok (.ok v, AddressMap.mk [(⟨0, BitVec.ofNat 16 n⟩,
      (⟨.readWrite, 0, BitVec.ofNat 16 n, (List.replicate (n + 1) 0).set a v⟩ : Memory))]) := by
    intro b
    change AddressMap.write b _ _ _ = _
    simp only [AddressMap.write, AddressMap.writeEntries, hc, if_true]
    change (do
      let x ← (do
        let y ← Memory.write b _ _ _
        Except.ok (y.1, [((_ : AddrRange), y.2)]))
      Except.ok (x.1, AddressMap.mk x.2)) = _
    rw [h]
    rfl
  have hr : ∀ b, Addressable.read b (AddressMap.mk [(⟨0, BitVec.ofNat 16 n⟩,
      (⟨.readWrite, 0, BitVec.ofNat 16 n, (List.replicate (n + 1) 0).set a v⟩ : Memory))])
      (BitVec.ofNat 16 a) = .ok v := by
    intro b
    change AddressMap.read b _ _ = _
    simp only [AddressMap.read, List.find?_cons, hc]
    exact h' b
  constructor <;>
  simp only [mapOf_eq _ n hn, bind, Except.bind, hw, hr, check, decide_true, if_true, Except.toBool]

/-- `should_register_valid_memory`, `src/address_map/tests/mod.rs:27-34`. -/
example : passes (fun b => do
  let am := AddressMap.new.register ⟨0, 0xffff⟩ (← Memory.new b .readOnly 0 0xffff)
  check am.toBool) := by
  decide +kernel

/-- `should_fail_when_registering_overlapping_address_space`, `src/address_map/tests/mod.rs:36-45`.
    -/
example : passes (fun b => do
  let am ← unwrapResult
    (AddressMap.new.register ⟨0, 0x7fff⟩ (← Memory.new b .readOnly 0 0x7fff))
  check (!(am.register ⟨0, 0x7fff⟩ (← Memory.new b .readOnly 0 0x7fff)).toBool)) := by
  decide +kernel

/-- `should_read_valid_memory`, `src/address_map/tests/mod.rs:47-51`. -/
example : passes (fun b => do
  let am ← mapOf b 0xffff
  check (decide (0x00 = (← Addressable.read b am 0xffff)))) :=
  mapReads 0xffff 0xffff (by decide) (by decide)

/-- `should_write_valid_memory`, `src/address_map/tests/mod.rs:53-58`. -/
example : passes (fun b => do
  let am ← mapOf b 0xffff
  let (r, am) ← Addressable.write b am 0xaaaa 0xff
  check r.toBool
  check (decide (0xff = (← Addressable.read b am 0xaaaa)))) :=
  mapWrites 0xffff 0xaaaa 0xff (by decide) (by decide)

/-- `should_initialize_memory_to_zeroes`, `src/address_map/tests/memory.rs:6-11`. -/
example : passes (fun b => do
  let mem ← Memory.new b .readOnly 0 0xffff
  check (decide (0x00 = (← mem.read b 65534)))) :=
  zeroes 0xffff 65534 (by decide) (by decide)

/-- `should_persist_values_in_memory_when_written`, `src/address_map/tests/memory.rs:13-19`. -/
example : passes (fun b => do
  let mem ← Memory.new b .readWrite 0 0xffff
  let mem ← storeMem b mem 0x8000 0xff
  check (decide (0xff = (← mem.read b 0x8000)))) :=
  persists 0xffff 0x8000 0xff (by decide) (by decide)

/-- `should_throw_error_when_write_is_attempted_on_readonly_memory`,
    `src/address_map/tests/memory.rs:21-28`. -/
example : passes (fun b => do
  let mem ← Memory.new b .readOnly 0 0xffff
  check (decide (Except.error "memory is read-only" = (← mem.write b 0x8000 0xff).1))) := by
  decide +kernel

/-- `should_dump_entire_state_of_memory`, `src/address_map/tests/memory.rs:30-44`. -/
example : passes (fun b => do
  let expected : List Byte := (List.replicate (0xffff + 1) 0).set 0x8000 0xff
  let mem ← Memory.new b .readWrite 0 0xffff
  let mem ← storeMem b mem 0x8000 0xff
  check (decide (expected = mem.dump))) :=
  dumps 0xffff 0x8000 0xff (by decide) (by decide)

/-- `should_load_memory_of_correct_size`, `src/address_map/tests/memory.rs:46-60`. -/
example : passes (fun b => do
  let expected : List Byte := (List.replicate (0xffff + 1) 0).set 0x8000 0xff
  let rom := expected
  let mem := (← Memory.new b .readWrite 0 0xffff).load rom
  check (decide (expected = mem.dump))) :=
  loads 0xffff _ (by decide)

/-- `should_correctly_calculate_offsets`, `src/address_map/tests/memory.rs:62-72`. -/
example : passes (fun b => do
  let mem ← Memory.new b .readWrite 0x8000 0xffff
  let mem ← storeMem b mem 0x8000 0xff
  let data := mem.dump
  let first_value ← index data 0
  check (decide (0xff = first_value))
  check (decide (0x8000 = data.length))) := by
  decide +kernel

end Verif.Conformance
