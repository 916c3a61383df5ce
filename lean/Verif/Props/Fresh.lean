import Verif.Props.Chip8.Panic
import Verif.Props.PanicText
import Verif.Props.Mos.Demo
import Verif.Props.Mos.Throughput

/-!
# Property C97: the machines as they come from `new`
-/

namespace Verif.Props

open Verif

/-! ## The 6502 -/

section
open Verif.Mos Verif.Spec.Mos

/-- The status byte of a new 6502 and, after a BRK, with B and I set. -/
def freshStatus (k : Nat) : Byte := if k = 0 then 0x20 else 0x34

/-- The `m`-th byte pushed by BRKs at address 0: low byte and high byte of the address 1, then the
status at the time. -/
def freshPush (m : Nat) : Byte :=
  if m % 3 = 0 then 1 else if m % 3 = 1 then 0 else freshStatus (m / 3)

/-- Memory after `m` of these bytes were pushed from 0x1ff downwards, round and round the stack page:
each byte of the page holds the last byte pushed there, everything else is 0. -/
def freshMem (m : Nat) : Mem := fun a =>
  if 256 ≤ a.toNat ∧ a.toNat < 512 ∧ 511 - a.toNat < m then
    freshPush (511 - a.toNat + 256 * ((m - 1 - (511 - a.toNat)) / 256))
  else 0

theorem freshMem_push (m : Nat) :
    upd (freshMem m) (stack (BitVec.ofNat 8 255 - BitVec.ofNat 8 m).toNat) (freshPush m) =
      freshMem (m + 1) := by
  funext a
  unfold upd freshMem
  have hs : (stack (BitVec.ofNat 8 255 - BitVec.ofNat 8 m).toNat).toNat = 511 - m % 256 := by
    unfold stack
    rw [toNat_word, BitVec.toNat_sub, BitVec.toNat_ofNat, BitVec.toNat_ofNat]
    omega
  by_cases ha : a = stack (BitVec.ofNat 8 255 - BitVec.ofNat 8 m).toNat
  · rw [if_pos ha, ha, hs, if_pos (by omega)]
    congr 1
    omega
  · have hne : a.toNat ≠ 511 - m % 256 := fun h => ha (BitVec.eq_of_toNat_eq (h.trans hs.symm))
    rw [if_neg ha]
    by_cases hp : 256 ≤ a.toNat ∧ a.toNat < 512 ∧ 511 - a.toNat < m
    · rw [if_pos hp, if_pos (by omega)]
      congr 1
      omega
    · rw [if_neg hp, if_neg (by omega)]

theorem freshMem_out (m : Nat) (a : Word) (h : a.toNat < 256 ∨ 512 ≤ a.toNat) : freshMem m a = 0 := by
  unfold freshMem
  rw [if_neg (by omega)]

/-- The flags after `k` BRKs. -/
def freshFlags (k : Nat) : ProcessorStatus :=
  { resetStatus with brk := decide (k ≠ 0), interrupt_disable := decide (k ≠ 0) }

theorem freshFlags_read (k : Nat) : (freshFlags k).read = freshStatus k := by
  unfold freshFlags freshStatus
  by_cases hk : k = 0
  · rw [if_pos hk, hk]; rfl
  · rw [if_neg hk, decide_eq_true hk]; rfl

/-- The bus of a new 6502: RAM below 0x200 and nothing else. -/
def FreshBus (b : Build) (m : AddressMap Memory) (mem : Mem) : Prop :=
  ∃ h, Spec.MemTrace b h m ∧ mem = (Spec.Bus.after h).val ∧
    ∀ a, (Spec.Bus.after h).owner a = if a.toNat < 512 then some .readWrite else none

theorem freshBus_coherent (b : Build) : Coherent b (FreshBus b) := by
  rintro m mem ⟨h, ht, rfl, ho⟩
  obtain ⟨hv, hw⟩ := trace_coherent b m _ ⟨h, ht, rfl⟩
  refine ⟨hv, ?_⟩
  intro a v r m' hwr
  obtain ⟨h', ht', e'⟩ := hw a v r m' hwr
  refine ⟨h ++ [.write a v], .write ht hwr, ?_, ?_⟩
  · funext x
    have q1 := (ht.write hwr).inv.read b x
    have q2 := ht'.inv.read b x
    rw [e']
    rw [q1] at q2
    simpa using q2.symm
  · intro x
    rw [Spec.Bus.after_append, owner_step_write]
    exact ho x

/-- The map of a new 6502, entry by entry. -/
def freshMap : AddressMap Memory :=
  ⟨[(⟨0x0100, 0x01ff⟩, ⟨.readWrite, 0x0100, 0x01ff, List.replicate 256 0⟩),
    (⟨0x0000, 0x00ff⟩, ⟨.readWrite, 0x0000, 0x00ff, List.replicate 256 0⟩)]⟩

theorem freshMap_new (b : Build) :
    Memory.new b .readWrite 0x00 0xff =
      .ok ⟨.readWrite, 0x0000, 0x00ff, List.replicate 256 0⟩ ∧
    Memory.new b .readWrite 0x0100 0x01ff =
      .ok ⟨.readWrite, 0x0100, 0x01ff, List.replicate 256 0⟩ := by
  constructor
  · unfold Memory.new; rw [if_pos (by decide)]; rfl
  · unfold Memory.new; rw [if_pos (by decide)]; rfl

theorem fresh_eq (b : Build) : Mos.defaultCpu b = .ok (withAddressmap freshMap) := by
  obtain ⟨n1, n2⟩ := freshMap_new b
  simp only [Mos.defaultCpu, n1, n2, Res.ok_bind]
  rfl

theorem freshBus_new (b : Build) {m : AddressMap Memory} (hm : freshMap.inner.Perm m.inner) :
    FreshBus b m (freshMem 0) := by
  obtain ⟨n1, n2⟩ := freshMap_new b
  have t1 : Spec.MemTrace b [.register .readWrite ⟨0x0000, 0x00ff⟩ (List.replicate 256 0)]
      ⟨freshMap.inner.drop 1⟩ :=
    .register (h := []) (r := ⟨0x0000, 0x00ff⟩) .new n1 rfl (by intro e he; cases he)
      ⟨_, rfl, List.Perm.refl _⟩
  have t2 : Spec.MemTrace b [.register .readWrite ⟨0x0000, 0x00ff⟩ (List.replicate 256 0),
      .register .readWrite ⟨0x0100, 0x01ff⟩ (List.replicate 256 0)] freshMap :=
    .register (h := [_]) (r := ⟨0x0100, 0x01ff⟩) t1 n2 rfl
      (by intro e he; apply not_overlap
          simp only [freshMap, List.drop, List.mem_cons, List.not_mem_nil, or_false] at he
          subst he; decide)
      ⟨_, rfl, List.Perm.refl _⟩
  have h1 : (0x00ff : Word).toNat = 0x00ff := rfl
  have h2 : (0x0100 : Word).toNat = 0x0100 := rfl
  have h3 : (0x01ff : Word).toNat = 0x01ff := rfl
  refine ⟨_, .rehash t2 hm, ?_, ?_⟩
  · funext a
    have z : ∀ n i : Nat, (List.replicate n (0 : Byte)).getD i 0 = 0 := by
      intro n i
      rw [List.getD_eq_getElem?_getD, List.getElem?_replicate]
      split <;> rfl
    have e : freshMem 0 a = 0 := by unfold freshMem; rw [if_neg (by omega)]
    rw [e]
    simp only [Spec.Bus.after, List.foldl, Spec.Bus.step, Spec.Bus.empty, z]
    split
    · rfl
    · split <;> rfl
  · intro a
    simp only [Spec.Bus.after, List.foldl, Spec.Bus.step, Spec.Bus.empty, Spec.InRange, h1, h2, h3]
    by_cases ha : a.toNat < 512
    · rw [if_pos ha]
      by_cases hb : 256 ≤ a.toNat
      · rw [if_pos (by omega)]
      · rw [if_neg (by omega), if_pos ⟨Nat.zero_le _, by omega⟩]
    · rw [if_neg ha, if_neg (by omega), if_neg]
      rintro ⟨-, h⟩
      omega

/-- The registers of a new 6502 after `k` instructions. -/
def freshRegs (k : Nat) : Regs := ⟨0, 0, 0, byte 255 - byte (3 * k), 0, freshFlags k⟩

theorem fresh_step {b : Build} {k : Nat} {c : Mos6502 (AddressMap Memory)}
    (hb : FreshBus b c.address_map (freshMem (3 * k))) (hr : regs c = freshRegs k) :
    ∃ ops c', next b c = .ok (ops, c') ∧ ops.cycles = 7 ∧
      FreshBus b c'.address_map (freshMem (3 * (k + 1))) ∧ regs c' = freshRegs (k + 1) := by
  have hv := (freshBus_coherent b _ _ hb).1
  have hpc : c.pc = 0 := congrArg Regs.pc hr
  have n1 : (1 : Byte).toNat = 1 := rfl
  have n2 : (2 : Byte).toNat = 2 := rfl
  have n3 : (3 : Byte).toNat = 3 := rfl
  have hat : At b c .BrkImplied := by
    unfold At
    rw [fetch_eq hv, hpc, if_neg (fun h => absurd h.2 (by decide)), freshMem_out _ _ (by decide),
      freshMem_out _ _ (by decide), freshMem_out _ _ (by decide)]
    rfl
  have hs := step_ok hat hv trivial
  obtain ⟨h, ht, hmem, ho⟩ := hb
  have hstack : ∀ j, (stack j).toNat < 512 := by
    intro j; unfold stack; rw [toNat_word]; omega
  have hacc : ∃ m', writeAll b c.address_map
      (codeEffect (regs c) (freshMem (3 * k)) .Brk .implied).writes = .ok m' := by
    cases hx : writeAll b c.address_map
      (codeEffect (regs c) (freshMem (3 * k)) .Brk .implied).writes with
    | ok m' => exact ⟨m', rfl⟩
    | error p =>
      exfalso
      have := writeAll_accepted (b := b)
        (codeEffect (regs c) (freshMem (3 * k)) .Brk .implied).writes ht (by
          intro w hw
          rw [ho, if_pos]
          simp only [codeEffect, List.mem_cons, List.not_mem_nil, or_false] at hw
          rcases hw with rfl | rfl | rfl <;> exact hstack _)
      obtain ⟨m', hm'⟩ := this
      rw [hx] at hm'
      cases hm'
  obtain ⟨m', hm'⟩ := hacc
  have hs' := hs.trans (congrArg _ hm')
  have hco := writeAll_coherent (freshBus_coherent b) _ (⟨h, ht, hmem, ho⟩ : FreshBus b _ _) hm'
  refine ⟨_, _, hs', rfl, ?_, ?_⟩
  · show FreshBus b m' _
    have e : List.foldl (fun m (w : Word × Byte) => upd m w.1 w.2) (freshMem (3 * k))
        (codeEffect (regs c) (freshMem (3 * k)) .Brk .implied).writes = freshMem (3 * (k + 1)) := by
      rw [hr, show 3 * (k + 1) = 3 * k + 1 + 1 + 1 by omega, ← freshMem_push, ← freshMem_push,
        ← freshMem_push]
      have p0 : freshPush (3 * k) = 1 := by unfold freshPush; rw [if_pos (by omega)]
      have p1 : freshPush (3 * k + 1) = 0 := by
        unfold freshPush; rw [if_neg (by omega), if_pos (by omega)]
      have p2 : freshPush (3 * k + 1 + 1) = freshStatus k := by
        unfold freshPush; rw [if_neg (by omega), if_neg (by omega)]; congr 1; omega
      have s1 : byte 255 - byte (3 * k) - 1 = BitVec.ofNat 8 255 - BitVec.ofNat 8 (3 * k + 1) := by
        apply BitVec.eq_of_toNat_eq
        simp only [byte, BitVec.toNat_sub, BitVec.toNat_ofNat, n1]
        omega
      have s2 : byte 255 - byte (3 * k) - 2 = BitVec.ofNat 8 255 - BitVec.ofNat 8 (3 * k + 1 + 1) := by
        apply BitVec.eq_of_toNat_eq
        simp only [byte, BitVec.toNat_sub, BitVec.toNat_ofNat, n2]
        omega
      simp only [codeEffect, List.foldl, freshRegs, freshFlags_read, p0, p1, p2, s1, s2]
      rfl
    rw [← e]
    exact hco
  · show (codeEffect (regs c) (freshMem (3 * k)) .Brk .implied).regs = _
    rw [hr]
    have s3 : byte 255 - byte (3 * k) - 3 = byte 255 - byte (3 * (k + 1)) := by
      apply BitVec.eq_of_toNat_eq
      simp only [byte, BitVec.toNat_sub, BitVec.toNat_ofNat, n3]
      omega
    have v1 : freshMem (3 * k) 0xfffe = 0 := freshMem_out _ _ (by decide)
    have v2 : freshMem (3 * k) 0xffff = 0 := freshMem_out _ _ (by decide)
    simp only [codeEffect, freshRegs, s3, v1, v2, freshFlags]
    simp
    rfl

theorem fresh_instructions {b : Build} (k : Nat) : ∀ {j : Nat} {c : Mos6502 (AddressMap Memory)},
    FreshBus b c.address_map (freshMem (3 * j)) → regs c = freshRegs j →
    ∃ l c', Instructions b c l c' ∧ totalCycles l = 7 * k ∧
      FreshBus b c'.address_map (freshMem (3 * (j + k))) ∧ regs c' = freshRegs (j + k) := by
  induction k with
  | zero => intro j c hb hr; exact ⟨[], c, .nil c, rfl, hb, hr⟩
  | succ k ih =>
    intro j c hb hr
    obtain ⟨ops, d, h1, h2, h3, h4⟩ := fresh_step hb hr
    obtain ⟨l, e, i1, i2, i3, i4⟩ := ih h3 h4
    rw [show j + 1 + k = j + (k + 1) by omega] at i3 i4
    refine ⟨ops :: l, e, .cons h1 i1, ?_, i3, i4⟩
    rw [totalCycles_cons, i2, h2]
    omega

/-- C97, the 6502. `Mos6502::new` does not panic; A, X, Y and `pc` are 0, the stack pointer is 0xff and
the status byte 0x20. Its memory reads 0 everywhere and accepts writes below 0x200 only. A reset gives
the same machine again after 6 cycles. -/
theorem C97_mos (b : Build) : ∃ cpu, Mos.defaultCpu b = .ok cpu ∧
    cpu.acc = 0 ∧ cpu.x = 0 ∧ cpu.y = 0 ∧ cpu.pc = 0 ∧ cpu.sp = 0xff ∧ cpu.ps.read = 0x20 ∧
    ∀ m : AddressMap Memory, cpu.address_map.inner.Perm m.inner →
      (∀ a, m.read b a = .ok 0) ∧
      (∀ a v, a.toNat < 512 → ∃ m', m.write b a v = .ok (.ok v, m') ∧
        ∀ a', m'.read b a' = .ok (if a' = a then v else 0)) ∧
      (∀ a v, 512 ≤ a.toNat → ∃ m', m.write b a v =
        .ok (.error s!"address space {a.toNat} unallocated", m') ∧ ∀ a', m'.read b a' = .ok 0) ∧
      reset b { cpu with address_map := m } =
        .ok (.notReady 5 { cpu with address_map := m }) := by
  refine ⟨_, fresh_eq b, rfl, rfl, rfl, rfl, rfl, rfl, fun m hp => ?_⟩
  have hb := freshBus_new b hp
  have hz : ∀ a, freshMem 0 a = 0 := fun a => by unfold freshMem; rw [if_neg (by omega)]
  have hv : ∀ a, m.read b a = .ok 0 := fun a => by
    have := (freshBus_coherent b _ _ hb).1 a
    rw [hz] at this
    exact this
  obtain ⟨h, ht, hmem, ho⟩ := hb
  refine ⟨hv, fun a v ha => ?_, fun a v ha => ?_, ?_⟩
  · obtain ⟨res, m', hw, hi, hres⟩ := ht.inv.write b a v
    have ho' := ho a
    rw [if_pos ha] at ho'
    rw [ho'] at hres
    subst hres
    refine ⟨m', hw, fun a' => ?_⟩
    rw [hi.read, Spec.Bus.step, if_pos ho', ← hmem]
    simp only [hz]
  · obtain ⟨res, m', hw, hi, hres⟩ := ht.inv.write b a v
    have ho' := ho a
    rw [if_neg (by omega)] at ho'
    rw [ho'] at hres
    subst hres
    refine ⟨m', hw, fun a' => ?_⟩
    rw [hi.read, Spec.Bus.step, if_neg (by rw [ho']; simp), ← hmem, hz]
  · exact C34_reset (cpu := { withAddressmap freshMap with address_map := m }) (hv _) (hv _)

/-- C97: and it runs for ever, without a panic in either build, doing BRKs at address 0: after `n`
cycles there were `n / 7` of them; registers and memory are as documented for them. -/
theorem C97_mos_runs (b : Build) : ∃ cpu, Mos.defaultCpu b = .ok cpu ∧
    ∀ m : AddressMap Memory, cpu.address_map.inner.Perm m.inner → ∀ n,
      ∃ c', run b { cpu with address_map := m } n = .ok (.ready c') ∧
        c'.acc = 0 ∧ c'.x = 0 ∧ c'.y = 0 ∧ c'.pc = 0 ∧ c'.sp = byte 255 - byte (3 * (n / 7)) ∧
        c'.ps.read = freshStatus (n / 7) ∧
        ∀ a, c'.address_map.read b a = .ok (freshMem (3 * (n / 7)) a) := by
  refine ⟨_, fresh_eq b, fun m hp n => ?_⟩
  obtain ⟨l, c', h1, h2, h3, h4⟩ := fresh_instructions (b := b) (n / 7) (j := 0)
    (c := { withAddressmap freshMap with address_map := m }) (freshBus_new b hp) rfl
  obtain ⟨ops, d, i1, i2, -⟩ := fresh_step h3 h4
  rw [Nat.zero_add] at h3 h4
  refine ⟨c', C12_run_eq h1 (by omega) (.inr ⟨ops, d, i1, by omega⟩), congrArg Regs.a h4,
    congrArg Regs.x h4, congrArg Regs.y h4, congrArg Regs.pc h4, congrArg Regs.sp h4, ?_,
    (freshBus_coherent b _ _ h3).1⟩
  rw [← freshFlags_read]
  exact congrArg (fun r => r.p.read) h4

/-- After 100 BRKs the last three bytes pushed are at 0x1d6, 0x1d5 and 0x1d4. -/
example : freshMem 300 0x1d6 = 1 ∧ freshMem 300 0x1d5 = 0 ∧ freshMem 300 0x1d4 = 0x34 ∧
    freshMem 300 0x1fd = 1 ∧ freshMem 3 0x1fd = 0x20 := by decide +kernel

end

/-! ## The CHIP-8 -/

section
open Verif.Chip8 Verif.Spec.Chip8 Verif.Props.Chip8
open Verif.Spec.Mos (BusView Coherent)

variable {R : Type}

/-- C97, the CHIP-8. `Chip8::default` (and `reset`) does not panic; `pc` is 0x200, I, the stack pointer
and V0..VE are 0, the timers read 0 at every later instant, no key is pending, the display is dark and
the 16 places of the stack hold 0. Its memory reads 0 everywhere and accepts writes below 0x1000 only. -/
theorem C97_chip8 (b : Build) (now : Instant) (rng : R) : ∃ cpu, Chip8.defaultCpu b now rng = .ok cpu ∧
    cpu.pc.toNat = 0x200 ∧ cpu.i = 0 ∧ cpu.sp.read = 0 ∧ cpu.rng = rng ∧ cpu.interrupt = none ∧
    (∀ x, x ≠ .Vf → readGpRegister cpu x = .ok 0) ∧
    (∀ t, cpu.dt.read b t = .ok 0 ∧ cpu.st.read b t = .ok 0) ∧
    (∀ x y, cpu.display.pixel x y = if x < 64 ∧ y < 32 then some false else none) ∧
    (∀ j, cpu.stack.read j = .ok 0) ∧
    ∀ m : AddressMap Memory, cpu.address_space.inner.Perm m.inner →
      (∀ a, m.read b a = .ok 0) ∧
      (∀ a v, a.toNat < 4096 → ∃ m', m.write b a v = .ok (.ok v, m') ∧
        ∀ a', m'.read b a' = .ok (if a' = a then v else 0)) ∧
      (∀ a v, 4096 ≤ a.toNat → ∃ m', m.write b a v =
        .ok (.error s!"address space {a.toNat} unallocated", m') ∧ ∀ a', m'.read b a' = .ok 0) := by
  refine ⟨_, defaultCpu_eq b now rng, rfl, rfl, rfl, rfl, rfl, ?_, ?_, ?_, ?_, fun m hp => ?_⟩
  · intro x hx
    cases x <;> first | rfl | exact absurd rfl hx
  · intro t
    exact ⟨rfl, rfl⟩
  · intro x y
    have e : Display.default.pixel x y =
        if decide (x < 64) && decide (y < 32) then Display.default.get x y else none := rfl
    show Display.default.pixel x y = _
    rw [e]
    by_cases h : x < 64 ∧ y < 32
    · rw [if_pos h]
      simp [Display.default, Display.get, h.1, h.2]
    · rw [if_neg h]
      simp only [Bool.and_eq_true, decide_eq_true_eq, if_neg h]
  · intro j
    show Except.ok ((List.replicate 16 (0 : Word))[j % 16]?.getD 0) = _
    rw [List.getElem?_replicate]
    split <;> rfl
  · have hb := defaultBus_default b hp
    have hv : ∀ a, m.read b a = .ok 0 := (defaultBus_coherent b _ _ hb).1
    obtain ⟨h, ht, hmem, ho⟩ := hb
    refine ⟨hv, fun a v ha => ?_, fun a v ha => ?_⟩
    · obtain ⟨res, m', hw, hi, hres⟩ := ht.inv.write b a v
      have ho' := ho a
      rw [if_pos ha] at ho'
      rw [ho'] at hres
      subst hres
      refine ⟨m', hw, fun a' => ?_⟩
      rw [hi.read, Spec.Bus.step, if_pos ho', ← hmem]
    · obtain ⟨res, m', hw, hi, hres⟩ := ht.inv.write b a v
      have ho' := ho a
      rw [if_neg (by omega)] at ho'
      rw [ho'] at hres
      subst hres
      refine ⟨m', hw, fun a' => ?_⟩
      rw [hi.read, Spec.Bus.step, if_neg (by rw [ho']; simp), ← hmem]

theorem same_swap {B : Type} {c d : Chip8 B R} (h : SameButInstants c d) : SameButInstants d c := by
  obtain ⟨t, u, rfl⟩ := h
  exact ⟨c.dt.written_at, c.st.written_at, rfl⟩

theorem same_chain {B : Type} {c d e : Chip8 B R} (h : SameButInstants c d) (h' : SameButInstants d e) :
    SameButInstants c e := by
  obtain ⟨t, u, rfl⟩ := h
  obtain ⟨t', u', rfl⟩ := h'
  exact ⟨t', u', rfl⟩

theorem same_advance {B : Type} {c d : Chip8 B R} (h : SameButInstants c d) (n : Nat) :
    SameButInstants (advance c n) (advance d n) := by
  obtain ⟨t, u, rfl⟩ := h
  exact ⟨t, u, rfl⟩

/-- One SYS 0. -/
theorem fresh_sys {b : Build} {e : Env} {m : AddressMap Memory} {it : Chip8 (AddressMap Memory) R}
    (hm : DefaultBus b m (fun _ => 0)) (ha : it.address_space = m) (hpc : it.pc.toNat % 2 = 0) :
    ∃ mcs it', next b e it = .ok (mcs, it') ∧ SameButInstants it' (advance it 2) := by
  have hv : BusView b it.address_space (fun _ => 0) := by
    rw [ha]; exact (defaultBus_coherent b _ _ hm).1
  have hat : At b it (.Sys ⟨0⟩) := by
    refine (fetch_iff hv ?_ _).2 ⟨⟨by decide, by decide, by decide⟩, sys_word _⟩
    right
    have := it.pc.isLt
    omega
  exact next_of_step (step_to (mem := fun _ => 0) hat ⟨id, fun h => h.2⟩ (by simp) (by simp) rfl)

theorem fresh_iterates {b : Build} {env : Nat → Env} {m : AddressMap Memory}
    (hm : DefaultBus b m (fun _ => 0)) (n : Nat) : ∀ (k : Nat) (it : Chip8 (AddressMap Memory) R),
    it.address_space = m → it.pc.toNat % 2 = 0 → ∃ it', iterates b env n k it = .ok it' ∧
      SameButInstants it' (advance it (2 * n)) := by
  induction n with
  | zero =>
    intro k it _ _
    refine ⟨it, rfl, it.dt.written_at, it.st.written_at, ?_⟩
    simp [advance]
  | succ n ih =>
    intro k it ha hpc
    obtain ⟨mcs, it₁, h1, t, u, h2⟩ := fresh_sys (b := b) (e := env k) hm ha hpc
    have e1 : it₁.pc = (advance it 2).pc := by rw [h2]
    have e2 : it₁.address_space = m := by
      have := congrArg Chip8.address_space h2
      exact this.symm.trans ha
    obtain ⟨it₂, h3, t', u', h4⟩ := ih (k + 1) it₁ e2 (by rw [e1, advance_pc, BitVec.toNat_ofNat]; omega)
    refine ⟨it₂, by simp only [iterates, h1, Res.ok_bind, h3], ?_⟩
    have e3 : advance it (2 * (n + 1)) = advance (advance it 2) (2 * n) := by
      unfold advance
      congr 1
      apply BitVec.eq_of_toNat_eq
      simp only [BitVec.toNat_ofNat]
      omega
    rw [e3]
    exact same_chain ⟨t', u', h4⟩ (same_advance ⟨t, u, h2⟩ _)

/-- C97: and it runs for ever, without a panic in either build, skipping over zeros (SYS 0): after `n`
instructions `pc` has moved by `2 * n` and everything else is as at the start. -/
theorem C97_chip8_runs (b : Build) (env : Nat → Env) (now : Instant) (rng : R) :
    ∃ cpu, Chip8.defaultCpu b now rng = .ok cpu ∧
      ∀ m : AddressMap Memory, cpu.address_space.inner.Perm m.inner → ∀ n,
        ∃ c', run b env { cpu with address_space := m } n = .ok (.ready c') ∧
          c'.pc.toNat = (0x200 + 2 * n) % 65536 ∧
          SameButInstants { cpu with address_space := m, pc := c'.pc } c' := by
  refine ⟨_, defaultCpu_eq b now rng, fun m hp n => ?_⟩
  have hm := defaultBus_default b hp
  obtain ⟨it, h1, t, u, h2⟩ := fresh_iterates (env := env) hm n 0
    { defaultState now rng with address_space := m } rfl (by show (0x200 : Word).toNat % 2 = 0; decide)
  rcases C59_iterator_agrees_partial (b := b) (env := env)
    (cpu := { defaultState now rng with address_space := m }) n with ⟨p, h3, -⟩ | ⟨it', c', h3, h4, t', u', h5⟩
  · rw [h1] at h3; cases h3
  · rw [h1] at h3
    cases h3
    have h6 := same_chain (same_swap (⟨t, u, h2⟩ : SameButInstants _ _)) ⟨t', u', h5⟩
    have h7 : c'.pc = (advance { defaultState now rng with address_space := m } (2 * n)).pc := by
      obtain ⟨_, _, h6⟩ := h6
      rw [h6]
    refine ⟨c', h4, ?_, ?_⟩
    · rw [h7, advance_pc, BitVec.toNat_ofNat]
      rfl
    · rw [h7]
      exact h6

end

end Verif.Props
