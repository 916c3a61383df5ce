import Verif.Props.Mos.Traffic
import Verif.Props.Mos.Demo

/-!
# Properties C70, C71: the programs of `examples/custom_peripheral_addr_space.rs` and
`examples/custom_peripheral_microcode_hook.rs`
-/

namespace Verif.Props

open Verif Verif.Mos Verif.Spec.Mos

/-! ## The program -/

/-- What the machines show initially: the ROM, and zeros. -/
def periInitial : Mem := fun a =>
  if 0xffea ≤ a.toNat then peripheralRom.getD (a.toNat - 0xffea) 0 else 0

/-- The place in the program of the `k`-th executed instruction: two instructions, then a loop of
five. -/
def periIdx (k : Nat) : Nat := if k < 2 then k else 2 + (k - 2) % 5

/-- Address, instruction, cycles, A before it, and stores of the instruction at a place. -/
def periCode : Nat → Word × InstructionVariant × Nat × Byte × List (Word × Byte)
  | 0 => (0xffea, .LdaImmediate 0xff, 2, 0, [])
  | 1 => (0xffec, .StaAbsolute 0x8002, 4, 0xff, [(0x8002, 0xff)])
  | 2 => (0xffef, .LdaImmediate 0x55, 2, 0, [])
  | 3 => (0xfff1, .StaAbsolute 0x8000, 4, 0x55, [(0x8000, 0x55)])
  | 4 => (0xfff4, .LdaImmediate 0xaa, 2, 0, [])
  | 5 => (0xfff6, .StaAbsolute 0x8000, 4, 0xaa, [(0x8000, 0xaa)])
  | _ => (0xfff9, .JmpAbsolute 0xffef, 3, 0, [])

/-- The cycles of the first `k` instructions. -/
def periCycles (k : Nat) : Nat :=
  if k < 2 then 2 * k else 6 + 15 * ((k - 2) / 5) +
    (if (k - 2) % 5 = 0 then 0 else if (k - 2) % 5 = 1 then 2 else if (k - 2) % 5 = 2 then 6 else
      if (k - 2) % 5 = 3 then 8 else 12)

/-- How many of the first `k` instructions write to port A. -/
def periCount (k : Nat) : Nat :=
  if k < 2 then 0 else 2 * ((k - 2) / 5) +
    (if (k - 2) % 5 < 2 then 0 else if (k - 2) % 5 < 4 then 1 else 2)

/-- The byte of the `i`-th write to port A. -/
def blink (i : Nat) : Byte := if i % 2 = 0 then 0x55 else 0xaa

/-- The first `p` bytes written to port A. -/
def blinks (p : Nat) : List Byte := (List.range p).map blink

/-- The stores to port A. -/
def portA (ws : List (Word × Byte)) : List Byte := (ws.filter fun w => w.1 == 0x8000).map Prod.snd

theorem periIdx_lt (k : Nat) : periIdx k < 7 := by
  unfold periIdx; split <;> omega

theorem periCode_parse (j : Nat) (hj : j < 7) :
    Isa.parseInstruction (periInitial (periCode j).1) (periInitial ((periCode j).1 + 1))
      (periInitial ((periCode j).1 + 2)) = some (periCode j).2.1 ∧
    0xffea ≤ (periCode j).1.toNat ∧ (periCode j).1.toNat + 2 < 65535 ∧
    0xffea ≤ ((periCode j).1 + 1).toNat ∧ 0xffea ≤ ((periCode j).1 + 2).toNat := by
  revert j; decide +kernel

theorem peri_cases (k : Nat) :
    (k = 0 ∧ periIdx k = 0 ∧ periIdx (k + 1) = 1) ∨
    (k = 1 ∧ periIdx k = 1 ∧ periIdx (k + 1) = 2) ∨
    (2 ≤ k ∧ (k - 2) % 5 = 0 ∧ periIdx k = 2 ∧ periIdx (k + 1) = 3) ∨
    (2 ≤ k ∧ (k - 2) % 5 = 1 ∧ periIdx k = 3 ∧ periIdx (k + 1) = 4) ∨
    (2 ≤ k ∧ (k - 2) % 5 = 2 ∧ periIdx k = 4 ∧ periIdx (k + 1) = 5) ∨
    (2 ≤ k ∧ (k - 2) % 5 = 3 ∧ periIdx k = 5 ∧ periIdx (k + 1) = 6) ∨
    (2 ≤ k ∧ (k - 2) % 5 = 4 ∧ periIdx k = 6 ∧ periIdx (k + 1) = 2) := by
  have lo : ∀ j, j < 2 → periIdx j = j := fun j hj => if_pos hj
  have hi : ∀ j, 2 ≤ j → periIdx j = 2 + (j - 2) % 5 := fun j hj => if_neg (by omega)
  have hk : k = 0 ∨ k = 1 ∨ 2 ≤ k := by omega
  rcases hk with rfl | rfl | hk
  · exact .inl ⟨rfl, rfl, rfl⟩
  · exact .inr (.inl ⟨rfl, rfl, rfl⟩)
  · rw [hi k hk, hi (k + 1) (by omega)]
    omega

theorem periCycles_succ (k : Nat) :
    periCycles (k + 1) = periCycles k + (periCode (periIdx k)).2.2.1 := by
  rcases peri_cases k with ⟨h, e, -⟩ | ⟨h, e, -⟩ | ⟨h, h', e, -⟩ | ⟨h, h', e, -⟩ | ⟨h, h', e, -⟩ |
    ⟨h, h', e, -⟩ | ⟨h, h', e, -⟩ <;> rw [e] <;> simp only [periCode] <;> unfold periCycles <;>
    (repeat' split) <;> omega

theorem periCycles_lt (k : Nat) : periCycles k < periCycles (k + 1) := by
  rw [periCycles_succ]
  have : ∀ j < 7, 0 < (periCode j).2.2.1 := by decide
  have := this _ (periIdx_lt k)
  omega

theorem periCycles_mono {j k : Nat} (h : j ≤ k) : periCycles j ≤ periCycles k := by
  induction k with
  | zero => rw [Nat.le_zero.1 h]; exact Nat.le_refl _
  | succ k ih =>
    rcases Nat.lt_or_ge j (k + 1) with h' | h'
    · exact Nat.le_trans (ih (by omega)) (Nat.le_of_lt (periCycles_lt k))
    · rw [show j = k + 1 by omega]; exact Nat.le_refl _

/-- The stores of the first `k` instructions. -/
def periStores (k : Nat) : List (Word × Byte) :=
  (List.range k).flatMap fun j => (periCode (periIdx j)).2.2.2.2

theorem periStores_succ (k : Nat) :
    periStores (k + 1) = periStores k ++ (periCode (periIdx k)).2.2.2.2 := by
  simp [periStores, List.range_succ]

theorem portA_append (ws ws' : List (Word × Byte)) : portA (ws ++ ws') = portA ws ++ portA ws' := by
  simp [portA]

theorem periStores_portA (k : Nat) : portA (periStores k) = blinks (periCount k) := by
  induction k with
  | zero => rfl
  | succ k ih =>
    rw [periStores_succ, portA_append, ih]
    have same : periCount (k + 1) = periCount k → portA (periCode (periIdx k)).2.2.2.2 = [] →
        blinks (periCount k) ++ portA (periCode (periIdx k)).2.2.2.2 = blinks (periCount (k + 1)) := by
      intro h1 h2; rw [h1, h2, List.append_nil]
    have more : periCount (k + 1) = periCount k + 1 →
        portA (periCode (periIdx k)).2.2.2.2 = [blink (periCount k)] →
        blinks (periCount k) ++ portA (periCode (periIdx k)).2.2.2.2 = blinks (periCount (k + 1)) := by
      intro h1 h2; rw [h1, h2]; simp [blinks, List.range_succ]
    rcases peri_cases k with ⟨h, e, -⟩ | ⟨h, e, -⟩ | ⟨h, h', e, -⟩ | ⟨h, h', e, -⟩ | ⟨h, h', e, -⟩ |
      ⟨h, h', e, -⟩ | ⟨h, h', e, -⟩
    · exact same (by unfold periCount; (repeat' split) <;> omega) (by rw [e]; decide)
    · exact same (by unfold periCount; (repeat' split) <;> omega) (by rw [e]; decide)
    · exact same (by unfold periCount; (repeat' split) <;> omega) (by rw [e]; decide)
    · refine more (by unfold periCount; (repeat' split) <;> omega) ?_
      rw [e, show blink (periCount k) = 0x55 by unfold blink periCount; rw [if_pos (by (repeat' split) <;> omega)]]
      decide
    · exact same (by unfold periCount; (repeat' split) <;> omega) (by rw [e]; decide)
    · refine more (by unfold periCount; (repeat' split) <;> omega) ?_
      rw [e, show blink (periCount k) = 0xaa by unfold blink periCount; rw [if_neg (by (repeat' split) <;> omega)]]
      decide
    · exact same (by unfold periCount; (repeat' split) <;> omega) (by rw [e]; decide)

/-- The place among the executed instructions of the `i`-th write to port A. -/
def periPlace (i : Nat) : Nat := 3 + 5 * (i / 2) + 2 * (i % 2)

theorem lt_periCount (i k : Nat) : i < periCount k ↔ periPlace i < k := by
  unfold periCount periPlace; (repeat' split) <;> omega

theorem periPlace_cycles (i : Nat) : periCycles (periPlace i) = 8 + 15 * (i / 2) + 6 * (i % 2) ∧
    periCycles (periPlace i + 1) = 12 + 15 * (i / 2) + 6 * (i % 2) := by
  unfold periCycles periPlace; (repeat' split) <;> omega

section
variable {B : Type} [Addressable B] {b : Build} {J : B → Prop}

/-- The bus shows the ROM. -/
def ShowsRom (b : Build) (J : B → Prop) : Prop :=
  ∀ bus, J bus → ∃ mem, BusView b bus mem ∧ ∀ a : Word, 0xffea ≤ a.toNat → mem a = periInitial a

/-- The bus takes writes to the device. -/
def TakesPort (b : Build) (J : B → Prop) : Prop :=
  ∀ bus, J bus → ∀ a ∈ [(0x8000 : Word), 0x8002], ∀ v,
    ∃ r bus', Addressable.write b bus a v = .ok (.ok r, bus') ∧ J bus'

/-- The state after `k` instructions. -/
structure PeriInv (J : B → Prop) (k : Nat) (c : Mos6502 B) : Prop where
  bus : J c.address_map
  pc : c.pc = (periCode (periIdx k)).1
  acc : periIdx k = 1 ∨ periIdx k = 3 ∨ periIdx k = 5 → c.acc = (periCode (periIdx k)).2.2.2.1

theorem peri_step (hJ : ShowsRom b J) (hacc : TakesPort b J) {k : Nat} {c : Mos6502 B}
    (h : PeriInv J k c) :
    ∃ ops c', next b c = .ok (ops, c') ∧ ops.cycles = (periCode (periIdx k)).2.2.1 ∧
      storesOf ops = (periCode (periIdx k)).2.2.2.2 ∧ PeriInv J (k + 1) c' := by
  obtain ⟨mem, hv, hrom⟩ := hJ _ h.bus
  obtain ⟨h1, h2, h3, h5, h6⟩ := periCode_parse (periIdx k) (periIdx_lt k)
  have hat : At b c (periCode (periIdx k)).2.1 := by
    unfold At
    rw [fetch_eq hv, h.pc, if_neg (by omega), hrom _ h2, hrom _ h5, hrom _ h6, h1]
  have hpc := h.pc
  have ha := h.acc
  have hbus := h.bus
  clear h1 h2 h3 h5 h6
  have lda : ∀ (v : Byte) (j : Nat), periIdx k = j → periIdx (k + 1) = j + 1 →
      (periCode j).2.1 = .LdaImmediate v → (periCode j).2.2.1 = 2 → (periCode j).2.2.2.2 = [] →
      (periCode (j + 1)).1 = (periCode j).1 + 2 → (periCode (j + 1)).2.2.2.1 = v →
      ∃ ops c', next b c = .ok (ops, c') ∧ ops.cycles = (periCode (periIdx k)).2.2.1 ∧
        storesOf ops = (periCode (periIdx k)).2.2.2.2 ∧ PeriInv J (k + 1) c' := by
    intro v j hj hj1 e1 e2 e3 e4 e5
    rw [hj] at hat hpc ⊢
    rw [e1] at hat
    rw [e2, e3]
    have hn := step_ok hat hv trivial
    refine ⟨_, _, hn, rfl, ?_, hbus, ?_, ?_⟩
    · rw [stores_code]; rfl
    · rw [hj1, e4, ← hpc]
      exact (add_size c.pc 2).symm
    · intro _; rw [hj1, e5]; rfl
  have sta : ∀ (w : Word) (v : Byte) (j : Nat), periIdx k = j → periIdx (k + 1) = j + 1 →
      w ∈ [(0x8000 : Word), 0x8002] → (j = 1 ∨ j = 3 ∨ j = 5) →
      (periCode j).2.1 = .StaAbsolute w → (periCode j).2.2.1 = 4 → (periCode j).2.2.2.1 = v →
      (periCode j).2.2.2.2 = [(w, v)] →
      (periCode (j + 1)).1 = (periCode j).1 + 3 →
      ∃ ops c', next b c = .ok (ops, c') ∧ ops.cycles = (periCode (periIdx k)).2.2.1 ∧
        storesOf ops = (periCode (periIdx k)).2.2.2.2 ∧ PeriInv J (k + 1) c' := by
    intro w v j hj hj1 hw hodd e1 e2 e0 e3 e4
    rw [hj] at hat hpc ha ⊢
    rw [e1] at hat
    rw [e2, e3]
    have hn := step_ok hat hv trivial
    have hav : c.acc = v := by rw [ha hodd, e0]
    obtain ⟨r, bus', hwr, hJ'⟩ := hacc _ hbus w hw c.acc
    have hwa : writeAll b c.address_map (codeEffect (regs c) mem (view (.StaAbsolute w)).1
        (view (.StaAbsolute w)).2).writes = .ok bus' := by
      show writeAll b c.address_map [(w, c.acc)] = _
      simp only [writeAll, hwr]
    rw [hwa] at hn
    refine ⟨_, _, hn, rfl, ?_, hJ', ?_, ?_⟩
    · rw [stores_code, ← hav]; rfl
    · rw [hj1, e4, ← hpc]
      exact (add_size c.pc 3).symm
    · intro hx; rw [hj1] at hx; omega
  rcases peri_cases k with ⟨-, e, e'⟩ | ⟨-, e, e'⟩ | ⟨-, -, e, e'⟩ | ⟨-, -, e, e'⟩ | ⟨-, -, e, e'⟩ |
    ⟨-, -, e, e'⟩ | ⟨-, -, e, e'⟩
  · exact lda 0xff 0 e e' rfl rfl rfl rfl rfl
  · exact sta 0x8002 0xff 1 e e' (by simp) (by omega) rfl rfl rfl rfl rfl
  · exact lda 0x55 2 e e' rfl rfl rfl rfl rfl
  · exact sta 0x8000 0x55 3 e e' (by simp) (by omega) rfl rfl rfl rfl rfl
  · exact lda 0xaa 4 e e' rfl rfl rfl rfl rfl
  · exact sta 0x8000 0xaa 5 e e' (by simp) (by omega) rfl rfl rfl rfl rfl
  · rw [e] at hat ⊢
    have hn := step_ok (i := .JmpAbsolute 0xffef) hat hv trivial
    refine ⟨_, _, hn, rfl, ?_, hbus, ?_, ?_⟩
    · rw [stores_code]; rfl
    · rw [e']; rfl
    · rw [e']; intro h; omega

theorem peri_instructions (hJ : ShowsRom b J) (hacc : TakesPort b J) {l : List Operations}
    {c c' : Mos6502 B} (hl : Instructions b c l c') : ∀ {k : Nat}, PeriInv J k c →
      PeriInv J (k + l.length) c' ∧ periCycles k + totalCycles l = periCycles (k + l.length) ∧
      periStores k ++ programStores l = periStores (k + l.length) := by
  induction hl with
  | nil c => intro k h; exact ⟨h, rfl, List.append_nil _⟩
  | @cons c d e ops l hx _ ih =>
    intro k h
    obtain ⟨ops', d', hx', hc, hs, hd⟩ := peri_step hJ hacc h
    rw [hx] at hx'
    simp only [Except.ok.injEq, Prod.mk.injEq] at hx'
    obtain ⟨rfl, rfl⟩ := hx'
    obtain ⟨h1, h2, h3⟩ := ih hd
    rw [show k + (ops :: l).length = k + 1 + l.length by simp; omega]
    refine ⟨h1, ?_, ?_⟩
    · rw [← h2, totalCycles_cons, periCycles_succ, hc]
      omega
    · rw [← h3, programStores_cons, periStores_succ, hs, List.append_assoc]

/-- Draining `n` cycles: never a panic, and the stores are those of the instructions started. -/
theorem peri_drain (hJ : ShowsRom b J) (hacc : TakesPort b J) {c : Mos6502 B} (h : PeriInv J 0 c)
    (n : Nat) : ∃ c' k, drain b c n = .ok c' ∧
      writeAll b c.address_map (periStores k) = .ok c'.address_map ∧
      ∀ i, i < periCount k ↔ 8 + 15 * (i / 2) + 6 * (i % 2) < n := by
  rcases drain_cases (b := b) n c with ⟨l, d, h1, h2, h3, h4⟩ | ⟨l, d, p, h1, h2, h3, h4⟩
  · obtain ⟨hd, hc, hs⟩ := peri_instructions hJ hacc h1 h
    have h0 : periCycles 0 = 0 := rfl
    simp only [Nat.zero_add, h0] at hc hs
    refine ⟨d, l.length, h4, ?_, fun i => ?_⟩
    · rw [← hs]; exact instructions_stores h1
    · rw [lt_periCount, ← (periPlace_cycles i).1]
      constructor
      · intro hi
        obtain ⟨l', o, hl⟩ : ∃ l' o, l = l' ++ [o] := by
          rcases List.eq_nil_or_concat l with rfl | ⟨l', o, rfl⟩
          · simp at hi
          · exact ⟨l', o, by simp⟩
        have hlt := h3 l' o hl
        have hlen : l.length = l'.length + 1 := by rw [hl]; simp
        have h1' : ∃ d', Instructions b c l' d' := by
          clear h4 h3 h2 hc hs hd hi hlt hlen
          subst hl
          clear h
          induction l' generalizing c with
          | nil => exact ⟨c, .nil c⟩
          | cons o' l' ih =>
            cases h1 with
            | cons hx hr =>
              obtain ⟨d', hd'⟩ := ih hr
              exact ⟨d', .cons hx hd'⟩
        obtain ⟨d', h1'⟩ := h1'
        obtain ⟨-, hc', -⟩ := peri_instructions hJ hacc h1' h
        simp only [Nat.zero_add, h0] at hc'
        have := periCycles_mono (show periPlace i ≤ l'.length by omega)
        omega
      · intro hi
        apply Classical.byContradiction
        intro hge
        have := periCycles_mono (show l.length ≤ periPlace i by omega)
        omega
  · exfalso
    obtain ⟨hd, -⟩ := peri_instructions hJ hacc h1 h
    obtain ⟨ops', d', hx', -⟩ := peri_step hJ hacc hd
    rw [h3] at hx'; cases hx'

/-- Capturing `n` cycles: never a panic, and the stores are those of the instructions completed. -/
theorem peri_capture (hJ : ShowsRom b J) (hacc : TakesPort b J) {c : Mos6502 B} (h : PeriInv J 0 c)
    (n : Nat) : ∃ mcs c' k, capture b c n = .ok mcs ∧ replay b mcs c = .ok c' ∧
      run b c n = .ok (.ready c') ∧ stores mcs = periStores k ∧
      ∀ i, i < periCount k ↔ 12 + 15 * (i / 2) + 6 * (i % 2) ≤ n := by
  rcases capture_cases (b := b) n c with ⟨l, d, h1, h2, h3, h4⟩ | ⟨l, d, p, h1, h2, h3, h4⟩
  · obtain ⟨hd, hc, hs⟩ := peri_instructions hJ hacc h1 h
    have h0 : periCycles 0 = 0 := rfl
    simp only [Nat.zero_add, h0] at hc hs hd
    refine ⟨_, d, l.length, h4, C14_iterator_state h1, C12_run_eq h1 h2 h3, ?_, fun i => ?_⟩
    · rw [stores_flatMap, ← hs]; rfl
    · rw [lt_periCount, ← (periPlace_cycles i).2]
      obtain ⟨ops', d', hx', hc', -⟩ := peri_step hJ hacc hd
      have hn : n < periCycles (l.length + 1) := by
        rw [periCycles_succ]
        rcases h3 with h3 | ⟨ops, e, h3, h3'⟩
        · have := (next_inv hx').1; omega
        · rw [hx'] at h3
          simp only [Except.ok.injEq, Prod.mk.injEq] at h3
          rw [← h3.1] at h3'
          omega
      constructor
      · intro hi
        have := periCycles_mono (show periPlace i + 1 ≤ l.length by omega)
        omega
      · intro hi
        apply Classical.byContradiction
        intro hge
        have := periCycles_mono (show l.length + 1 ≤ periPlace i + 1 by omega)
        omega
  · exfalso
    obtain ⟨hd, -⟩ := peri_instructions hJ hacc h1 h
    obtain ⟨ops', d', hx', -⟩ := peri_step hJ hacc hd
    rw [h3] at hx'; cases hx'

end

/-! ## C70 The device on the bus -/

/-- The VIA of the example after some output. -/
def viaAfter (out : List Byte) : Via where
  port_a_addr := 0x8000
  port_b_addr := 0x8001
  port_a_mask := 0x8002
  port_b_mask := 0x8003
  port_a := out.getLast?.getD 0
  port_b := 0
  printed := out

/-- The entries of the example's address map. -/
def viaEntries (v : Via) : List (AddrRange × Device) :=
  [(⟨0x8000, 0x8003⟩, .via v),
   (⟨0xffea, 0xffff⟩, .memory ⟨.readOnly, 0xffea, 0xffff, peripheralRom⟩),
   (⟨0x0100, 0x01ff⟩, .memory ⟨.readWrite, 0x0100, 0x01ff, List.replicate 256 0⟩),
   (⟨0x0000, 0x00ff⟩, .memory ⟨.readWrite, 0x0000, 0x00ff, List.replicate 256 0⟩)]

theorem viaCpu_eq (b : Build) : viaCpu b = .ok (withAddressmap ⟨viaEntries (viaAfter [])⟩) := by
  have n1 : Memory.new b .readOnly 0xffea 0xffff =
      .ok ⟨.readOnly, 0xffea, 0xffff, List.replicate 22 0⟩ := by
    unfold Memory.new; rw [if_pos (by decide)]; rfl
  have n3 : Memory.new b .readWrite 0x00 0xff =
      .ok ⟨.readWrite, 0x0000, 0x00ff, List.replicate 256 0⟩ := by
    unfold Memory.new; rw [if_pos (by decide)]; rfl
  have n4 : Memory.new b .readWrite 0x0100 0x01ff =
      .ok ⟨.readWrite, 0x0100, 0x01ff, List.replicate 256 0⟩ := by
    unfold Memory.new; rw [if_pos (by decide)]; rfl
  have n5 : Via.new b 0x8000 = .ok (viaAfter []) := by
    rcases b with ⟨⟨⟩⟩ <;> rfl
  simp only [viaCpu, defaultCpuOf, n1, n3, n4, n5, Res.ok_bind]
  rfl

theorem viaEntries_disjoint (v : Via) : Spec.DisjointEntries (viaEntries v) := by
  rw [AddressMap.disjoint_iff_map_fst]
  show List.Pairwise _ [(⟨0x8000, 0x8003⟩ : AddrRange), ⟨0xffea, 0xffff⟩, ⟨0x0100, 0x01ff⟩, ⟨0x0000, 0x00ff⟩]
  simp only [List.pairwise_cons, List.mem_cons, List.not_mem_nil, or_false, forall_eq_or_imp, forall_eq,
    List.Pairwise.nil, and_true, false_implies, implies_true]
  refine ⟨⟨?_, ?_, ?_⟩, ⟨?_, ?_⟩, ?_⟩ <;> exact not_overlap (by decide)

/-- Reading an in-range address of a memory segment. -/
theorem memory_read (b : Build) (kind : MemKind) (start stop : Word) (data : List Byte) (a : Word)
    (h1 : start.toNat ≤ a.toNat) (h2 : a.toNat - start.toNat < data.length) :
    Memory.read b ⟨kind, start, stop, data⟩ a = .ok (data.getD (a.toNat - start.toNat) 0) := by
  rw [Memory.read_of_le b ⟨kind, start, stop, data⟩ a h1]
  unfold index
  rw [List.getElem?_eq_getElem h2]
  simp [List.getD, h2]

theorem via_read (b : Build) (v : Via) (m : AddressMap Device) (hm : m.inner.Perm (viaEntries v)) :
    BusView b m periInitial := by
  intro a
  have hd := AddressMap.disjoint_perm hm.symm (viaEntries_disjoint v)
  have ha := a.isLt
  have z : ∀ n i : Nat, (List.replicate n (0 : Byte)).getD i 0 = 0 := by
    intro n i
    rw [List.getD_eq_getElem?_getD, List.getElem?_replicate]
    split <;> rfl
  have c0 : (0x0000 : Word).toNat = 0 := rfl
  have c1 : (0x00ff : Word).toNat = 0xff := rfl
  have c2 : (0x0100 : Word).toNat = 0x100 := rfl
  have c3 : (0x01ff : Word).toNat = 0x1ff := rfl
  have c4 : (0x8000 : Word).toNat = 0x8000 := rfl
  have c5 : (0x8003 : Word).toNat = 0x8003 := rfl
  have c6 : (0xffea : Word).toNat = 0xffea := rfl
  have c7 : (0xffff : Word).toNat = 0xffff := rfl
  show m.read b a = _
  by_cases h1 : a.toNat ≤ 0xff
  · rw [AddressMap.read_of_mem b m a hd (hm.mem_iff.2 (show _ ∈ viaEntries v from
      .tail _ (.tail _ (.tail _ (.head _))))) ⟨by rw [c0]; omega, by rw [c1]; omega⟩]
    show Memory.read b _ a = _
    rw [memory_read b _ _ _ _ _ (by rw [c0]; omega) (by rw [c0, List.length_replicate]; omega), z]
    unfold periInitial; rw [if_neg (by omega)]
  by_cases h2 : a.toNat ≤ 0x1ff
  · rw [AddressMap.read_of_mem b m a hd (hm.mem_iff.2 (show _ ∈ viaEntries v from
      .tail _ (.tail _ (.head _)))) ⟨by rw [c2]; omega, by rw [c3]; omega⟩]
    show Memory.read b _ a = _
    rw [memory_read b _ _ _ _ _ (by rw [c2]; omega) (by rw [c2, List.length_replicate]; omega), z]
    unfold periInitial; rw [if_neg (by omega)]
  by_cases h3 : 0xffea ≤ a.toNat
  · rw [AddressMap.read_of_mem b m a hd (hm.mem_iff.2 (show _ ∈ viaEntries v from
      .tail _ (.head _))) ⟨by rw [c6]; omega, by rw [c7]; omega⟩]
    show Memory.read b _ a = _
    have hl : peripheralRom.length = 22 := rfl
    rw [memory_read b _ _ _ _ _ (by rw [c6]; omega) (by rw [c6, hl]; omega), c6]
    unfold periInitial; rw [if_pos h3]
  by_cases h4 : 0x8000 ≤ a.toNat ∧ a.toNat ≤ 0x8003
  · rw [AddressMap.read_of_mem b m a hd (hm.mem_iff.2 (show _ ∈ viaEntries v from .head _))
      ⟨by rw [c4]; omega, by rw [c5]; omega⟩]
    unfold periInitial; rw [if_neg (by omega)]
    rfl
  · rw [AddressMap.read_of_find_none b m a]
    · unfold periInitial; rw [if_neg (by omega)]
    · intro e he
      have he := hm.mem_iff.1 he
      simp only [viaEntries, List.mem_cons, List.not_mem_nil, or_false] at he
      unfold Spec.InRange
      rcases he with rfl | rfl | rfl | rfl <;> simp only [c0, c1, c2, c3, c4, c5, c6, c7] <;> omega

/-- A write to port A or the mask of port A of the VIA on the bus. -/
theorem via_write (b : Build) (out : List Byte) (m : AddressMap Device)
    (hm : m.inner.Perm (viaEntries (viaAfter out))) (a : Word) (ha : a ∈ [(0x8000 : Word), 0x8002])
    (x : Byte) : ∃ m', m.write b a x = .ok (.ok x, m') ∧
      m'.inner.Perm (viaEntries (viaAfter (out ++ portA [(a, x)]))) := by
  have hd := AddressMap.disjoint_perm hm.symm (viaEntries_disjoint _)
  have hin : Spec.InRange ⟨0x8000, 0x8003⟩ a := by
    simp only [List.mem_cons, List.not_mem_nil, or_false] at ha
    rcases ha with rfl | rfl <;> decide
  have hw := AddressMap.write_of_mem b a x m hd
    (hm.mem_iff.2 (show _ ∈ viaEntries (viaAfter out) from .head _)) hin
  have hv : (viaAfter out).write a x = (.ok x, viaAfter (out ++ portA [(a, x)])) := by
    simp only [List.mem_cons, List.not_mem_nil, or_false] at ha
    rcases ha with rfl | rfl
    · simp [Via.write, viaAfter, portA]
    · simp [Via.write, viaAfter, portA, AddrRange.contains]
  have hdv : Addressable.write b (Device.via (viaAfter out)) a x =
      .ok (.ok x, Device.via (viaAfter (out ++ portA [(a, x)]))) := by
    show (let (r, v') := (viaAfter out).write a x; (Except.ok (r, Device.via v') : Res _)) = _
    rw [hv]
  rw [hdv] at hw
  refine ⟨_, hw, ?_⟩
  have hp := hm.map (fun e => if e.1.contains a then (e.1, Device.via (viaAfter (out ++ portA [(a, x)]))) else e)
  refine List.Perm.trans hp (List.Perm.of_eq ?_)
  simp only [List.mem_cons, List.not_mem_nil, or_false] at ha
  rcases ha with rfl | rfl <;> rfl

/-- The bus of the example at some time. -/
def ViaBus (m : AddressMap Device) : Prop := ∃ out, m.inner.Perm (viaEntries (viaAfter out))

theorem viaBus_shows (b : Build) : ShowsRom b ViaBus := by
  rintro m ⟨out, hm⟩
  exact ⟨periInitial, via_read b _ m hm, fun _ _ => rfl⟩

theorem viaBus_takes (b : Build) : TakesPort b ViaBus := by
  rintro m ⟨out, hm⟩ a ha v
  obtain ⟨m', h1, h2⟩ := via_write b out m hm a ha v
  exact ⟨v, m', h1, _, h2⟩

theorem via_writeAll (b : Build) (ws : List (Word × Byte))
    (hws : ∀ w ∈ ws, w.1 ∈ [(0x8000 : Word), 0x8002]) : ∀ (out : List Byte) (m m' : AddressMap Device),
      m.inner.Perm (viaEntries (viaAfter out)) → writeAll b m ws = .ok m' →
      m'.inner.Perm (viaEntries (viaAfter (out ++ portA ws))) := by
  induction ws with
  | nil => intro out m m' hm h; cases h; simpa [portA] using hm
  | cons w ws ih =>
    intro out m m' hm h
    obtain ⟨a, x⟩ := w
    obtain ⟨m₁, h1, h2⟩ := via_write b out m hm a (hws _ (.head _)) x
    have h1 : Addressable.write b m a x = .ok (.ok x, m₁) := h1
    simp only [writeAll, h1] at h
    have := ih (fun w hw => hws w (.tail _ hw)) _ m₁ m' h2 h
    rwa [List.append_assoc, ← portA_append] at this

theorem periStores_targets (k : Nat) : ∀ w ∈ periStores k, w.1 ∈ [(0x8000 : Word), 0x8002] := by
  intro w hw
  obtain ⟨j, -, hj⟩ := List.mem_flatMap.1 hw
  have : ∀ i < 7, ∀ w ∈ (periCode i).2.2.2.2, w.1 ∈ [(0x8000 : Word), 0x8002] := by decide
  exact this _ (periIdx_lt j) w hj

/-- `examples/custom_peripheral_addr_space.rs`, with its map in any iteration order and for any number
`n` of cycles: nothing panics, and the program prints 0x55, 0xaa, 0x55, … – the `i`-th line exactly
if the store that prints it starts before cycle `n` – and changes nothing else on the bus. -/
theorem C70_blink (b : Build) : ∃ cpu, viaCpu b = .ok cpu ∧
    ∀ m : AddressMap Device, cpu.address_map.inner.Perm m.inner →
      ∃ s, reset b { cpu with address_map := m } = .ok s ∧
        ∀ n, ∃ c' p, drain b s.unwrap n = .ok c' ∧
          c'.address_map.inner.Perm (viaEntries (viaAfter (blinks p))) ∧
          ∀ i, i < p ↔ 8 + 15 * (i / 2) + 6 * (i % 2) < n := by
  refine ⟨_, viaCpu_eq b, fun m hm => ?_⟩
  have hm' : m.inner.Perm (viaEntries (viaAfter [])) := hm.symm
  have hv := via_read b _ m hm'
  have hreset : reset b { withAddressmap (AddressMap.mk (viaEntries (viaAfter []))) with address_map := m } =
      .ok (.notReady 5 (afterReset m 0xea 0xff)) :=
    C34_reset (cpu := { withAddressmap (AddressMap.mk (viaEntries (viaAfter []))) with address_map := m })
      (show Addressable.read b m 0xfffc = .ok 0xea by
        rw [hv]; exact congrArg _ (by decide : periInitial 0xfffc = 0xea))
      (show Addressable.read b m 0xfffd = .ok 0xff by
        rw [hv]; exact congrArg _ (by decide : periInitial 0xfffd = 0xff))
  refine ⟨_, hreset, fun n => ?_⟩
  have hinv : PeriInv ViaBus 0 (afterReset m 0xea 0xff) := by
    refine ⟨⟨[], hm'⟩, rfl, fun h => ?_⟩
    have : periIdx 0 = 0 := rfl
    omega
  obtain ⟨c', k, h1, h2, h3⟩ := peri_drain (viaBus_shows b) (viaBus_takes b) hinv n
  refine ⟨c', periCount k, h1, ?_, h3⟩
  have := via_writeAll b _ (periStores_targets k) [] m c'.address_map hm' h2
  rwa [List.nil_append, periStores_portA] at this

/-- The 80 cycles of `main` print ten lines. -/
theorem C70_main (b : Build) : ∃ cpu s c', viaCpu b = .ok cpu ∧ reset b cpu = .ok s ∧
    drain b s.unwrap 80 = .ok c' ∧
    (⟨0x8000, 0x8003⟩, Device.via (viaAfter [0x55, 0xaa, 0x55, 0xaa, 0x55, 0xaa, 0x55, 0xaa, 0x55, 0xaa]))
      ∈ c'.address_map.inner := by
  obtain ⟨cpu, h1, h2⟩ := C70_blink b
  obtain ⟨s, h3, h4⟩ := h2 cpu.address_map (List.Perm.refl _)
  obtain ⟨c', p, h5, h6, h7⟩ := h4 80
  have hp : p = 10 := by
    have a := (h7 9).2 (by omega)
    have c : ¬ 10 < p := fun h => absurd ((h7 10).1 h) (by omega)
    omega
  subst hp
  exact ⟨cpu, s, c', h1, h3, h5, h6.mem_iff.2 (.head _)⟩

/-! ## C71 The device as a microcode hook -/

/-- The hooked VIA of the example after some output. -/
def hookAfter (out : List Byte) : HookVia where
  port_a_addr := 0x8000
  port_b_addr := 0x8001
  port_a := out.getLast?.getD 0
  port_b := 0
  printed := out

/-- The map the example builds. -/
def hookMap : AddressMap Memory :=
  ⟨[(⟨0x8000, 0x8003⟩, ⟨.readWrite, 0x8000, 0x8003, List.replicate 4 0⟩),
    (⟨0xffea, 0xffff⟩, ⟨.readOnly, 0xffea, 0xffff, peripheralRom⟩),
    (⟨0x0100, 0x01ff⟩, ⟨.readWrite, 0x0100, 0x01ff, List.replicate 256 0⟩),
    (⟨0x0000, 0x00ff⟩, ⟨.readWrite, 0x0000, 0x00ff, List.replicate 256 0⟩)]⟩

/-- What happens to the bus while the machine is built. -/
def hookHistory : List Spec.BusEvent :=
  [.register .readWrite ⟨0x0000, 0x00ff⟩ (List.replicate 256 0),
   .register .readWrite ⟨0x0100, 0x01ff⟩ (List.replicate 256 0),
   .register .readOnly ⟨0xffea, 0xffff⟩ peripheralRom,
   .register .readWrite ⟨0x8000, 0x8003⟩ (List.replicate 4 0)]

theorem hookCpu_eq (b : Build) : hookCpu b = .ok (withAddressmap hookMap) := by
  have n1 : Memory.new b .readOnly 0xffea 0xffff =
      .ok ⟨.readOnly, 0xffea, 0xffff, List.replicate 22 0⟩ := by
    unfold Memory.new; rw [if_pos (by decide)]; rfl
  have n2 : Memory.new b .readWrite 0x8000 0x8003 =
      .ok ⟨.readWrite, 0x8000, 0x8003, List.replicate 4 0⟩ := by
    unfold Memory.new; rw [if_pos (by decide)]; rfl
  have n3 : Memory.new b .readWrite 0x00 0xff =
      .ok ⟨.readWrite, 0x0000, 0x00ff, List.replicate 256 0⟩ := by
    unfold Memory.new; rw [if_pos (by decide)]; rfl
  have n4 : Memory.new b .readWrite 0x0100 0x01ff =
      .ok ⟨.readWrite, 0x0100, 0x01ff, List.replicate 256 0⟩ := by
    unfold Memory.new; rw [if_pos (by decide)]; rfl
  simp only [hookCpu, defaultCpu, n1, n2, n3, n4, Res.ok_bind]
  rfl

theorem hookMap_trace (b : Build) : Spec.MemTrace b hookHistory hookMap := by
  have n1 : Memory.new b .readOnly 0xffea 0xffff =
      .ok ⟨.readOnly, 0xffea, 0xffff, List.replicate 22 0⟩ := by
    unfold Memory.new; rw [if_pos (by decide)]; rfl
  have n2 : Memory.new b .readWrite 0x8000 0x8003 =
      .ok ⟨.readWrite, 0x8000, 0x8003, List.replicate 4 0⟩ := by
    unfold Memory.new; rw [if_pos (by decide)]; rfl
  have n3 : Memory.new b .readWrite 0x00 0xff =
      .ok ⟨.readWrite, 0x0000, 0x00ff, List.replicate 256 0⟩ := by
    unfold Memory.new; rw [if_pos (by decide)]; rfl
  have n4 : Memory.new b .readWrite 0x0100 0x01ff =
      .ok ⟨.readWrite, 0x0100, 0x01ff, List.replicate 256 0⟩ := by
    unfold Memory.new; rw [if_pos (by decide)]; rfl
  have t1 : Spec.MemTrace b (hookHistory.take 1) ⟨hookMap.inner.drop 3⟩ :=
    .register (h := []) (r := ⟨0x0000, 0x00ff⟩) .new n3 rfl (by intro e he; cases he)
      ⟨_, rfl, List.Perm.refl _⟩
  have t2 : Spec.MemTrace b (hookHistory.take 2) ⟨hookMap.inner.drop 2⟩ :=
    .register (h := hookHistory.take 1) (r := ⟨0x0100, 0x01ff⟩) t1 n4 rfl
      (by intro e he; apply not_overlap
          simp only [hookMap, List.drop, List.mem_cons, List.not_mem_nil, or_false] at he
          subst he; decide)
      ⟨_, rfl, List.Perm.refl _⟩
  have t3 : Spec.MemTrace b (hookHistory.take 3) ⟨hookMap.inner.drop 1⟩ :=
    .register (h := hookHistory.take 2) (r := ⟨0xffea, 0xffff⟩) t2 n1 rfl
      (by intro e he; apply not_overlap
          simp only [hookMap, List.drop, List.mem_cons, List.not_mem_nil, or_false] at he
          rcases he with rfl | rfl <;> decide)
      ⟨_, rfl, List.Perm.refl _⟩
  exact .register (h := hookHistory.take 3) (r := ⟨0x8000, 0x8003⟩) t3 n2 rfl
      (by intro e he; apply not_overlap
          simp only [hookMap, List.drop, List.mem_cons, List.not_mem_nil, or_false] at he
          rcases he with rfl | rfl | rfl <;> decide)
      ⟨_, rfl, List.Perm.refl _⟩

theorem hookHistory_rom (a : Word) (h : 0xffea ≤ a.toNat) :
    (Spec.Bus.after hookHistory).val a = periInitial a := by
  have h3 : (0xffea : Word).toNat = 0xffea := rfl
  have h4 : (0xffff : Word).toNat = 0xffff := rfl
  have h5 : (0x8003 : Word).toNat = 0x8003 := rfl
  have := a.isLt
  simp only [Spec.Bus.after, hookHistory, List.foldl, Spec.Bus.step, Spec.Bus.empty, periInitial,
    Spec.InRange, h3, h4, h5]
  rw [if_neg (by omega), if_pos (by omega), if_pos h]

/-- The bus of the hook example at some time: the placeholder is RAM, the ROM is there. -/
def HookBus (b : Build) (m : AddressMap Memory) : Prop :=
  ∃ h, Spec.MemTrace b h m ∧
    (∀ a ∈ [(0x8000 : Word), 0x8002], (Spec.Bus.after h).owner a = some .readWrite) ∧
    ∀ a : Word, 0xffea ≤ a.toNat → (Spec.Bus.after h).val a = periInitial a

theorem hookBus_shows (b : Build) : ShowsRom b (HookBus b) := by
  rintro m ⟨h, ht, -, hr⟩
  exact ⟨_, busView_of_trace ht, hr⟩

theorem hookBus_takes (b : Build) : TakesPort b (HookBus b) := by
  rintro m ⟨h, ht, ho, hr⟩ a ha v
  obtain ⟨res, m', hw, -, hres⟩ := ht.inv.write b a v
  rw [ho a ha] at hres
  subst hres
  refine ⟨v, m', hw, h ++ [.write a v], .write ht hw, fun x hx => ?_, fun x hx => ?_⟩
  · rw [Spec.Bus.after_append]
    simp only [Spec.Bus.step]
    split <;> exact ho x hx
  · rw [Spec.Bus.after_append]
    simp only [Spec.Bus.step, ho a ha, if_true]
    rw [if_neg]
    · exact hr x hx
    · rintro rfl
      simp only [List.mem_cons, List.not_mem_nil, or_false] at ha
      rcases ha with rfl | rfl <;> revert hx <;> decide

theorem hook_told (ws : List (Word × Byte)) (hws : ∀ w ∈ ws, w.1 ∈ [(0x8000 : Word), 0x8002])
    (out : List Byte) : told HookVia.write (hookAfter out) ws = hookAfter (out ++ portA ws) := by
  induction ws generalizing out with
  | nil => simp [told, portA]
  | cons w ws ih =>
    obtain ⟨a, x⟩ := w
    have hw : (hookAfter out).write a x = hookAfter (out ++ portA [(a, x)]) := by
      have := hws _ (.head _)
      simp only [List.mem_cons, List.not_mem_nil, or_false] at this
      rcases this with rfl | rfl <;> simp [HookVia.write, hookAfter, portA]
    show told HookVia.write ((hookAfter out).write a x) ws = _
    rw [hw, ih (fun w hw => hws w (.tail _ hw)), List.append_assoc, ← portA_append]
    rfl

/-- `examples/custom_peripheral_microcode_hook.rs`, with its map in any iteration order and for any
number `n` of cycles: nothing panics, the program prints 0x55, 0xaa, 0x55, … – the `i`-th line exactly
if the store that prints it is completed within `n` cycles –, the registers are those of `run`, and
the placeholder memory (with the rest of the bus) is left as it was. -/
theorem C71_hook_blink (b : Build) : ∃ cpu via, hookCpu b = .ok cpu ∧ HookVia.new b 0x8000 = .ok via ∧
    ∀ m : AddressMap Memory, cpu.address_map.inner.Perm m.inner →
      ∃ s, reset b { cpu with address_map := m } = .ok s ∧
        ∀ n, ∃ r p, run b s.unwrap n = .ok r ∧
          hookRun b via s.unwrap n = .ok (hookAfter (blinks p), { r.unwrap with address_map := m }) ∧
          ∀ i, i < p ↔ 12 + 15 * (i / 2) + 6 * (i % 2) ≤ n := by
  have hvia : HookVia.new b 0x8000 = .ok (hookAfter []) := by rcases b with ⟨⟨⟩⟩ <;> rfl
  refine ⟨_, _, hookCpu_eq b, hvia, fun m hm => ?_⟩
  have hbus : HookBus b m := by
    refine ⟨hookHistory, .rehash (hookMap_trace b) hm, fun a ha => ?_, hookHistory_rom⟩
    simp only [List.mem_cons, List.not_mem_nil, or_false] at ha
    rcases ha with rfl | rfl <;> rfl
  obtain ⟨mem, hv, hrom⟩ := hookBus_shows b m hbus
  have hreset : reset b { withAddressmap hookMap with address_map := m } =
      .ok (.notReady 5 (afterReset m 0xea 0xff)) :=
    C34_reset (cpu := { withAddressmap hookMap with address_map := m })
      (show Addressable.read b m 0xfffc = .ok 0xea by
        rw [hv, hrom _ (by decide)]; exact congrArg _ (by decide : periInitial 0xfffc = 0xea))
      (show Addressable.read b m 0xfffd = .ok 0xff by
        rw [hv, hrom _ (by decide)]; exact congrArg _ (by decide : periInitial 0xfffd = 0xff))
  refine ⟨_, hreset, fun n => ?_⟩
  have hinv : PeriInv (HookBus b) 0 (afterReset m 0xea 0xff) := by
    refine ⟨hbus, rfl, fun h => ?_⟩
    have : periIdx 0 = 0 := rfl
    omega
  obtain ⟨mcs, c', k, h1, h2, h3, h4, h5⟩ := peri_capture (hookBus_shows b) (hookBus_takes b) hinv n
  refine ⟨_, periCount k, h3, ?_, h5⟩
  have hin : ∀ w ∈ periStores k, ((0x8000 : Word).toNat ≤ w.1.toNat ∧ w.1.toNat ≤ (0x8003 : Word).toNat) := by
    intro w hw
    have := periStores_targets k w hw
    simp only [List.mem_cons, List.not_mem_nil, or_false] at this
    rcases this with h | h <;> rw [h] <;> decide
  have e1 : outside ⟨0x8000, 0x8003⟩ (stores mcs) = [] := by
    rw [h4]
    unfold outside
    rw [List.filter_eq_nil_iff]
    intro w hw
    simp only [Bool.not_eq_true', Bool.not_eq_false, decide_eq_true_eq]
    exact hin w hw
  have e2 : inside ⟨0x8000, 0x8003⟩ (stores mcs) = periStores k := by
    rw [h4]
    unfold inside
    rw [List.filter_eq_self]
    intro w hw
    simp only [decide_eq_true_eq]
    exact hin w hw
  show ((capture b (afterReset m 0xea 0xff) n).bind fun states =>
    hookLoop b ⟨0x8000, 0x8003⟩ HookVia.write states (hookAfter []) (afterReset m 0xea 0xff)) = _
  rw [h1]
  show hookLoop b ⟨0x8000, 0x8003⟩ HookVia.write mcs (hookAfter []) (afterReset m 0xea 0xff) = _
  rw [C68_hook _ _ _ h2, e1, e2, hook_told _ (periStores_targets k), periStores_portA]
  rfl

/-- The two examples print the same lines for `n` cycles exactly unless the `n` cycles end within a
store to port A; in particular for the 80 cycles of both `main` functions. -/
theorem C71_same_output (n p q : Nat) (hp : ∀ i, i < p ↔ 8 + 15 * (i / 2) + 6 * (i % 2) < n)
    (hq : ∀ i, i < q ↔ 12 + 15 * (i / 2) + 6 * (i % 2) ≤ n) :
    p = q ↔ ∀ i, ¬ (8 + 15 * (i / 2) + 6 * (i % 2) < n ∧ n < 12 + 15 * (i / 2) + 6 * (i % 2)) := by
  constructor
  · rintro rfl i ⟨h1, h2⟩
    have := (hq i).1 ((hp i).2 h1)
    omega
  · intro h
    have hle : q ≤ p := by
      apply Classical.byContradiction
      intro hlt
      have h1 := (hq p).1 (by omega)
      have h2 := (hp p).2 (by omega)
      omega
    apply Classical.byContradiction
    intro hne
    have h1 := (hp q).1 (by omega)
    apply h q
    refine ⟨h1, ?_⟩
    apply Classical.byContradiction
    intro h2
    have := (hq q).2 (by omega)
    omega

/-- 80 cycles end in a JMP, not in a store. -/
example : ∀ i, ¬ (8 + 15 * (i / 2) + 6 * (i % 2) < 80 ∧ 80 < 12 + 15 * (i / 2) + 6 * (i % 2)) := by
  intro i; omega

/-- 10 cycles end in the first store to port A: the device on the bus has printed, the hook has not. -/
example : (8 + 15 * (0 / 2) + 6 * (0 % 2) < 10 ∧ 10 < 12 + 15 * (0 / 2) + 6 * (0 % 2)) := by decide

end Verif.Props
