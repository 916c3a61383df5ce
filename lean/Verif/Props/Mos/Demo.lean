import Verif.Model.Mos.Demo
import Verif.Props.Mos.Run
import Verif.Props.Mos.Reset

/-!
# Property C38: the program of `examples/basic.rs`
-/

namespace Verif.Props

open Verif Verif.Mos Verif.Spec.Mos

/-- What the demo machine shows before the program runs: the ROM, and zeros. -/
def demoInitial : Mem := fun a =>
  if 0xffea ≤ a.toNat then demoRom.getD (a.toNat - 0xffea) 0 else 0

/-- The memory after the first `k` instructions. -/
def demoMem (k : Nat) : Mem := fun a =>
  if a = 0x0200 ∧ 2 ≤ k then 1 else if a = 0x0201 ∧ 4 ≤ k then 2 else if a = 0x0202 ∧ 6 ≤ k then 3
  else demoInitial a

/-- Address, instruction and cycles of the `j`-th instruction of the loop; A before it. -/
def demoCode : Nat → Word × InstructionVariant × Nat × Byte
  | 0 => (0xffea, .LdaImmediate 1, 2, 3)
  | 1 => (0xffec, .StaAbsolute 0x0200, 4, 1)
  | 2 => (0xffef, .LdaImmediate 2, 2, 1)
  | 3 => (0xfff1, .StaAbsolute 0x0201, 4, 2)
  | 4 => (0xfff4, .LdaImmediate 3, 2, 2)
  | 5 => (0xfff6, .StaAbsolute 0x0202, 4, 3)
  | _ => (0xfff9, .JmpAbsolute 0xffea, 3, 3)

section
variable {B : Type} [Addressable B] {b : Build} {I : B → Mem → Prop}

/-- The state after `k` instructions of the demo program. -/
structure DemoInv (I : B → Mem → Prop) (k : Nat) (c : Mos6502 B) : Prop where
  bus : I c.address_map (demoMem k)
  pc : c.pc = (demoCode (k % 7)).1
  acc : k % 7 ≠ 0 → c.acc = (demoCode (k % 7)).2.2.2

theorem demoMem_rom (k : Nat) (a : Word) (h : 0xffea ≤ a.toNat) : demoMem k a = demoInitial a := by
  have ne : ∀ w : Word, w.toNat < 0xffea → a ≠ w := by rintro w hw rfl; omega
  simp only [demoMem, ne 0x0200 (by decide), ne 0x0201 (by decide), ne 0x0202 (by decide), false_and,
    if_false]

theorem demoCode_parse (j : Nat) (hj : j < 7) :
    Isa.parseInstruction (demoInitial (demoCode j).1) (demoInitial ((demoCode j).1 + 1))
      (demoInitial ((demoCode j).1 + 2)) = some (demoCode j).2.1 ∧
    0xffea ≤ (demoCode j).1.toNat ∧ (demoCode j).1.toNat + 2 < 65535 ∧
    (demoCode j).1.toNat < 0xfffe ∧ 0xffea ≤ ((demoCode j).1 + 1).toNat ∧
    0xffea ≤ ((demoCode j).1 + 2).toNat := by
  revert j; decide +kernel

/-- The instruction the program is at. -/
theorem demo_at (hI : Coherent b I) {k : Nat} {c : Mos6502 B} (h : DemoInv I k c) :
    At b c (demoCode (k % 7)).2.1 := by
  obtain ⟨h1, h2, h3, h4, h5, h6⟩ := demoCode_parse (k % 7) (by omega)
  unfold At
  rw [fetch_eq (hI _ _ h.bus).1, h.pc, if_neg (by omega), demoMem_rom k _ h2, demoMem_rom k _ h5,
    demoMem_rom k _ h6, h1]

theorem demoMem_lda {k : Nat} (h : k % 7 = 0 ∨ k % 7 = 2 ∨ k % 7 = 4 ∨ k % 7 = 6) :
    demoMem (k + 1) = demoMem k := by
  funext a
  unfold demoMem
  have e1 : (2 ≤ k + 1) = (2 ≤ k) := by apply propext; omega
  have e2 : (4 ≤ k + 1) = (4 ≤ k) := by apply propext; omega
  have e3 : (6 ≤ k + 1) = (6 ≤ k) := by apply propext; omega
  simp only [e1, e2, e3]

theorem demoMem_sta1 {k : Nat} (h : k % 7 = 1) : upd (demoMem k) 0x0200 1 = demoMem (k + 1) := by
  funext a
  unfold upd demoMem
  have e1 : (2 ≤ k + 1) = True := by simp; omega
  have e2 : (4 ≤ k + 1) = (4 ≤ k) := by apply propext; omega
  have e3 : (6 ≤ k + 1) = (6 ≤ k) := by apply propext; omega
  simp only [e1, e2, e3, and_true]
  by_cases ha : a = 0x0200
  · simp only [ha, if_true]
  · simp only [ha, if_false, false_and]

theorem demoMem_sta2 {k : Nat} (h : k % 7 = 3) : upd (demoMem k) 0x0201 2 = demoMem (k + 1) := by
  funext a
  unfold upd demoMem
  have e1 : (2 ≤ k + 1) = (2 ≤ k) := by apply propext; omega
  have e2 : (4 ≤ k + 1) = True := by simp; omega
  have e3 : (6 ≤ k + 1) = (6 ≤ k) := by apply propext; omega
  simp only [e1, e2, e3, and_true]
  by_cases ha : a = 0x0201
  · subst ha; rfl
  · simp only [ha, if_false, false_and]

theorem demoMem_sta3 {k : Nat} (h : k % 7 = 5) : upd (demoMem k) 0x0202 3 = demoMem (k + 1) := by
  funext a
  unfold upd demoMem
  have e1 : (2 ≤ k + 1) = (2 ≤ k) := by apply propext; omega
  have e2 : (4 ≤ k + 1) = (4 ≤ k) := by apply propext; omega
  have e3 : (6 ≤ k + 1) = True := by simp; omega
  simp only [e1, e2, e3, and_true]
  by_cases ha : a = 0x0202
  · subst ha; rfl
  · simp only [ha, if_false, false_and]

/-- One instruction of the demo program. -/
theorem demo_step (hI : Coherent b I)
    (hacc : ∀ bus mem, I bus mem → ∀ a ∈ [(0x0200 : Word), 0x0201, 0x0202], ∀ v,
      ∃ r bus', Addressable.write b bus a v = .ok (.ok r, bus'))
    {k : Nat} {c : Mos6502 B} (h : DemoInv I k c) :
    ∃ ops c', next b c = .ok (ops, c') ∧ ops.cycles = (demoCode (k % 7)).2.2.1 ∧
      DemoInv I (k + 1) c' := by
  have hat := demo_at hI h
  have hv := (hI _ _ h.bus).1
  have hk : k % 7 = 0 ∨ k % 7 = 1 ∨ k % 7 = 2 ∨ k % 7 = 3 ∨ k % 7 = 4 ∨ k % 7 = 5 ∨ k % 7 = 6 := by omega
  have hpc := h.pc
  have ha := h.acc
  have hbus := h.bus
  have lda : ∀ (v : Byte) (j : Nat), k % 7 = j → (k + 1) % 7 = j + 1 → j = 0 ∨ j = 2 ∨ j = 4 →
      (demoCode j).2.1 = .LdaImmediate v →
      (demoCode (j + 1)).1 = (demoCode j).1 + 2 → (demoCode j).2.2.1 = 2 →
      (demoCode (j + 1)).2.2.2 = v →
      ∃ ops c', next b c = .ok (ops, c') ∧ ops.cycles = 2 ∧ DemoInv I (k + 1) c' := by
    intro v j hj hj1 hj' e1 e2 e3 e4
    rw [hj, e1] at hat
    have hn := step_ok hat hv trivial
    refine ⟨_, _, hn, rfl, ?_, ?_, ?_⟩
    · rw [demoMem_lda (by omega)]; exact hbus
    · rw [hj1, e2, ← (by rw [hpc, hj] : c.pc = (demoCode j).1)]
      exact (add_size c.pc 2).symm
    · intro _; rw [hj1, e4]; rfl
  have sta : ∀ (w : Word) (v : Byte) (j : Nat), k % 7 = j → (k + 1) % 7 = j + 1 → j ≠ 0 →
      w ∈ [(0x0200 : Word), 0x0201, 0x0202] →
      (demoCode j).2.1 = .StaAbsolute w → (demoCode j).2.2.2 = v →
      upd (demoMem k) w v = demoMem (k + 1) →
      (demoCode (j + 1)).1 = (demoCode j).1 + 3 → (demoCode j).2.2.1 = 4 →
      (demoCode (j + 1)).2.2.2 = v →
      ∃ ops c', next b c = .ok (ops, c') ∧ ops.cycles = 4 ∧ DemoInv I (k + 1) c' := by
    intro w v j hj hj1 hj0 hw e1 e0 eu e2 e3 e4
    rw [hj, e1] at hat
    have hn := step_ok hat hv trivial
    have hav : c.acc = v := by rw [ha (by omega), hj, e0]
    obtain ⟨r, bus', hwr⟩ := hacc _ _ hbus w hw c.acc
    have hwa : writeAll b c.address_map (codeEffect (regs c) (demoMem k) (view (.StaAbsolute w)).1
        (view (.StaAbsolute w)).2).writes = .ok bus' := by
      show writeAll b c.address_map [(w, c.acc)] = _
      simp only [writeAll, hwr]
    rw [hwa] at hn
    refine ⟨_, _, hn, rfl, ?_, ?_, ?_⟩
    · show I bus' _
      rw [← eu, ← hav]
      exact (hI _ _ hbus).2 _ _ _ _ hwr
    · rw [hj1, e2, ← (by rw [hpc, hj] : c.pc = (demoCode j).1)]
      exact (add_size c.pc 3).symm
    · intro _; rw [hj1, e4, ← hav]; rfl
  rcases hk with hj | hj | hj | hj | hj | hj | hj
  · rw [hj]; exact lda 1 0 hj (by omega) (by omega) rfl rfl rfl rfl
  · rw [hj]; exact sta 0x0200 1 1 hj (by omega) (by omega) (by simp) rfl rfl (demoMem_sta1 hj) rfl rfl rfl
  · rw [hj]; exact lda 2 2 hj (by omega) (by omega) rfl rfl rfl rfl
  · rw [hj]; exact sta 0x0201 2 3 hj (by omega) (by omega) (by simp) rfl rfl (demoMem_sta2 hj) rfl rfl rfl
  · rw [hj]; exact lda 3 4 hj (by omega) (by omega) rfl rfl rfl rfl
  · rw [hj]; exact sta 0x0202 3 5 hj (by omega) (by omega) (by simp) rfl rfl (demoMem_sta3 hj) rfl rfl rfl
  · rw [hj] at hat ⊢
    have hn := step_ok (i := .JmpAbsolute 0xffea) hat hv trivial
    refine ⟨_, _, hn, rfl, ?_, ?_, ?_⟩
    · rw [demoMem_lda (by omega)]; exact hbus
    · rw [show (k + 1) % 7 = 0 by omega]; rfl
    · intro h0; omega

/-- The cycles of the first `k` instructions. -/
def demoCycles : Nat → Nat
  | 0 => 0
  | k + 1 => demoCycles k + (demoCode (k % 7)).2.2.1

theorem demo_instructions (hI : Coherent b I)
    (hacc : ∀ bus mem, I bus mem → ∀ a ∈ [(0x0200 : Word), 0x0201, 0x0202], ∀ v,
      ∃ r bus', Addressable.write b bus a v = .ok (.ok r, bus'))
    {l : List Operations} {c c' : Mos6502 B} (hl : Instructions b c l c') :
    ∀ {k : Nat}, DemoInv I k c → DemoInv I (k + l.length) c' ∧
      demoCycles k + totalCycles l = demoCycles (k + l.length) := by
  induction hl with
  | nil c => intro k h; exact ⟨h, rfl⟩
  | @cons c d e ops l hx _ ih =>
    intro k h
    obtain ⟨ops', d', hx', hc, hd⟩ := demo_step hI hacc h
    rw [hx] at hx'
    simp only [Except.ok.injEq, Prod.mk.injEq] at hx'
    obtain ⟨rfl, rfl⟩ := hx'
    obtain ⟨h1, h2⟩ := ih hd
    rw [show k + (ops :: l).length = k + 1 + l.length by simp; omega]
    refine ⟨h1, ?_⟩
    rw [← h2, totalCycles_cons, demoCycles, hc]
    omega

/-- On any machine whose memory shows the demo program and takes writes to 0x0200–0x0202: no run
panics, the memory is always one of the expected ones, and from cycle 18 on it is the final one. -/
theorem demo_run (hI : Coherent b I)
    (hacc : ∀ bus mem, I bus mem → ∀ a ∈ [(0x0200 : Word), 0x0201, 0x0202], ∀ v,
      ∃ r bus', Addressable.write b bus a v = .ok (.ok r, bus'))
    {c : Mos6502 B} (h : DemoInv I 0 c) (n : Nat) :
    ∃ c' k, run b c n = .ok (.ready c') ∧ I c'.address_map (demoMem k) ∧ (18 ≤ n → 6 ≤ k) := by
  rcases runLoop_cases (b := b) n c with ⟨l, d, h1, h2, h3, h4⟩ | ⟨l, d, p, h1, h2, h3, h4⟩
  · obtain ⟨hd, hc⟩ := demo_instructions hI hacc h1 h
    refine ⟨d, 0 + l.length, by rw [run_eq, h4]; rfl, hd.bus, ?_⟩
    intro hn
    have hcyc : demoCycles (l.length + 1) ≤ 18 ∨ 6 ≤ l.length := by
      by_cases hlen : 6 ≤ l.length
      · exact .inr hlen
      · left
        have : ∀ j < 6, demoCycles (j + 1) ≤ 18 := by decide
        exact this _ (by omega)
    rcases hcyc with hcyc | hcyc
    · exfalso
      simp only [Nat.zero_add] at hc hd
      have h0 : demoCycles 0 = 0 := rfl
      obtain ⟨ops', d', hx', hc', -⟩ := demo_step hI hacc hd
      have hpos : 0 < ops'.cycles := (next_inv hx').1
      rw [demoCycles, ← hc, h0] at hcyc
      rcases h3 with h3 | ⟨ops, d'', h3, h3'⟩
      · omega
      · rw [hx'] at h3
        simp only [Except.ok.injEq, Prod.mk.injEq] at h3
        rw [← h3.1] at h3'
        omega
    · omega
  · exfalso
    obtain ⟨hd, -⟩ := demo_instructions hI hacc h1 h
    obtain ⟨ops', d', hx', -⟩ := demo_step hI hacc hd
    rw [h3] at hx'; cases hx'

end

/-! ## C38 The demo program -/

/-- What happens to the bus while the demo machine is built. -/
def demoHistory : List Spec.BusEvent :=
  [.register .readWrite ⟨0x0000, 0x00ff⟩ (List.replicate 256 0),
   .register .readWrite ⟨0x0100, 0x01ff⟩ (List.replicate 256 0),
   .register .readOnly ⟨0xffea, 0xffff⟩ demoRom,
   .register .readWrite ⟨0x0200, 0x7fff⟩ (List.replicate 32256 0)]

/-- The map the example builds, entry by entry. -/
def demoMap : AddressMap Memory :=
  ⟨[(⟨0x0200, 0x7fff⟩, ⟨.readWrite, 0x0200, 0x7fff, List.replicate 32256 0⟩),
    (⟨0xffea, 0xffff⟩, ⟨.readOnly, 0xffea, 0xffff, demoRom⟩),
    (⟨0x0100, 0x01ff⟩, ⟨.readWrite, 0x0100, 0x01ff, List.replicate 256 0⟩),
    (⟨0x0000, 0x00ff⟩, ⟨.readWrite, 0x0000, 0x00ff, List.replicate 256 0⟩)]⟩

theorem demoCpu_eq (b : Build) : demoCpu b = .ok (withAddressmap demoMap) := by
  have n1 : Memory.new b .readOnly 0xffea 0xffff =
      .ok ⟨.readOnly, 0xffea, 0xffff, List.replicate 22 0⟩ := by
    unfold Memory.new; rw [if_pos (by decide)]; rfl
  have n2 : Memory.new b .readWrite 0x0200 0x7fff =
      .ok ⟨.readWrite, 0x0200, 0x7fff, List.replicate 32256 0⟩ := by
    unfold Memory.new; rw [if_pos (by decide)]; rfl
  have n3 : Memory.new b .readWrite 0x00 0xff =
      .ok ⟨.readWrite, 0x0000, 0x00ff, List.replicate 256 0⟩ := by
    unfold Memory.new; rw [if_pos (by decide)]; rfl
  have n4 : Memory.new b .readWrite 0x0100 0x01ff =
      .ok ⟨.readWrite, 0x0100, 0x01ff, List.replicate 256 0⟩ := by
    unfold Memory.new; rw [if_pos (by decide)]; rfl
  simp only [demoCpu, defaultCpu, n1, n2, n3, n4, Res.ok_bind]
  rfl

theorem not_overlap {r s : AddrRange} (h : r.stop.toNat < s.start.toNat ∨ s.stop.toNat < r.start.toNat) :
    ¬ Spec.Overlap r s := by
  rintro ⟨a, h1, h2⟩
  unfold Spec.InRange at h1 h2
  omega

theorem demoMap_trace (b : Build) : Spec.MemTrace b demoHistory demoMap := by
  have n1 : Memory.new b .readOnly 0xffea 0xffff =
      .ok ⟨.readOnly, 0xffea, 0xffff, List.replicate 22 0⟩ := by
    unfold Memory.new; rw [if_pos (by decide)]; rfl
  have n2 : Memory.new b .readWrite 0x0200 0x7fff =
      .ok ⟨.readWrite, 0x0200, 0x7fff, List.replicate 32256 0⟩ := by
    unfold Memory.new; rw [if_pos (by decide)]; rfl
  have n3 : Memory.new b .readWrite 0x00 0xff =
      .ok ⟨.readWrite, 0x0000, 0x00ff, List.replicate 256 0⟩ := by
    unfold Memory.new; rw [if_pos (by decide)]; rfl
  have n4 : Memory.new b .readWrite 0x0100 0x01ff =
      .ok ⟨.readWrite, 0x0100, 0x01ff, List.replicate 256 0⟩ := by
    unfold Memory.new; rw [if_pos (by decide)]; rfl
  have t1 : Spec.MemTrace b (demoHistory.take 1) ⟨demoMap.inner.drop 3⟩ :=
    .register (h := []) (r := ⟨0x0000, 0x00ff⟩) .new n3 rfl (by intro e he; cases he)
      ⟨_, rfl, List.Perm.refl _⟩
  have t2 : Spec.MemTrace b (demoHistory.take 2) ⟨demoMap.inner.drop 2⟩ :=
    .register (h := demoHistory.take 1) (r := ⟨0x0100, 0x01ff⟩) t1 n4 rfl
      (by intro e he; apply not_overlap
          simp only [demoMap, List.drop, List.mem_cons, List.not_mem_nil, or_false] at he
          subst he; decide)
      ⟨_, rfl, List.Perm.refl _⟩
  have t3 : Spec.MemTrace b (demoHistory.take 3) ⟨demoMap.inner.drop 1⟩ :=
    .register (h := demoHistory.take 2) (r := ⟨0xffea, 0xffff⟩) t2 n1 rfl
      (by intro e he; apply not_overlap
          simp only [demoMap, List.drop, List.mem_cons, List.not_mem_nil, or_false] at he
          rcases he with rfl | rfl <;> decide)
      ⟨_, rfl, List.Perm.refl _⟩
  exact .register (h := demoHistory.take 3) (r := ⟨0x0200, 0x7fff⟩) t3 n2 rfl
      (by intro e he; apply not_overlap
          simp only [demoMap, List.drop, List.mem_cons, List.not_mem_nil, or_false] at he
          rcases he with rfl | rfl | rfl <;> decide)
      ⟨_, rfl, List.Perm.refl _⟩

theorem demoHistory_val : (Spec.Bus.after demoHistory).val = demoMem 0 := by
  funext a
  have e : demoMem 0 a = demoInitial a := by simp [demoMem]
  rw [e]
  simp only [Spec.Bus.after, demoHistory, List.foldl, Spec.Bus.step, Spec.Bus.empty, demoInitial,
    Spec.InRange]
  have h1 : (0x0200 : Word).toNat = 0x0200 := rfl
  have h2 : (0x7fff : Word).toNat = 0x7fff := rfl
  have h3 : (0xffea : Word).toNat = 0xffea := rfl
  have h4 : (0xffff : Word).toNat = 0xffff := rfl
  have z : ∀ n i : Nat, (List.replicate n (0 : Byte)).getD i 0 = 0 := by
    intro n i
    rw [List.getD_eq_getElem?_getD, List.getElem?_replicate]
    split <;> rfl
  simp only [h1, h2, h3, h4, z]
  have := a.isLt
  by_cases h : 0xffea ≤ a.toNat
  · rw [if_neg (by omega), if_pos (by omega), if_pos h]
  · rw [if_neg h]
    split
    · rfl
    · rw [if_neg (by omega)]; split
      · rfl
      · split <;> rfl

/-- The demo bus: some history whose cells 0x0200–0x0202 are RAM. -/
def DemoBus (b : Build) (m : AddressMap Memory) (mem : Mem) : Prop :=
  ∃ h, Spec.MemTrace b h m ∧ mem = (Spec.Bus.after h).val ∧
    ∀ a ∈ [(0x0200 : Word), 0x0201, 0x0202], (Spec.Bus.after h).owner a = some .readWrite

theorem demoBus_coherent (b : Build) : Coherent b (DemoBus b) := by
  rintro m mem ⟨h, ht, rfl, ho⟩
  obtain ⟨hv, hw⟩ := trace_coherent b m _ ⟨h, ht, rfl⟩
  refine ⟨hv, ?_⟩
  intro a v r m' hwr
  obtain ⟨h', ht', e'⟩ := hw a v r m' hwr
  refine ⟨h ++ [.write a v], .write ht hwr, ?_, ?_⟩
  · funext x
    have q1 := (ht.write hwr).inv.read b x
    have q2 := ht'.inv.read b x
    rw [e']
    rw [q1] at q2
    simpa using q2.symm
  · intro x hx
    rw [Spec.Bus.after_append]
    simp only [Spec.Bus.step]
    split
    · exact ho x hx
    · exact ho x hx

theorem demoBus_accepts (b : Build) : ∀ bus mem, DemoBus b bus mem →
    ∀ a ∈ [(0x0200 : Word), 0x0201, 0x0202], ∀ v,
      ∃ r bus', Addressable.write b bus a v = .ok (.ok r, bus') := by
  rintro m mem ⟨h, ht, rfl, ho⟩ a ha v
  obtain ⟨res, m', hw, -, hres⟩ := ht.inv.write b a v
  rw [ho a ha] at hres
  subst hres
  exact ⟨v, m', hw⟩

/-- The example's machine, with its map in any iteration order: the reset and every run succeed; every
address but 0x0200–0x0202 always reads as initially (the ROM, and zeros); from cycle 18 on these
three read 1, 2 and 3. -/
theorem C38_demo (b : Build) : ∃ cpu, demoCpu b = .ok cpu ∧
    ∀ m : AddressMap Memory, cpu.address_map.inner.Perm m.inner →
      ∃ s, reset b { cpu with address_map := m } = .ok s ∧
        ∀ n, ∃ c', run b s.unwrap n = .ok (.ready c') ∧
          (∀ a, a ∉ [(0x0200 : Word), 0x0201, 0x0202] →
            c'.address_map.read b a = .ok (demoInitial a) ∧ m.read b a = .ok (demoInitial a)) ∧
          (18 ≤ n → c'.address_map.read b 0x0200 = .ok 1 ∧ c'.address_map.read b 0x0201 = .ok 2 ∧
            c'.address_map.read b 0x0202 = .ok 3) := by
  refine ⟨_, demoCpu_eq b, fun m hm => ?_⟩
  have hbus : DemoBus b m (demoMem 0) := by
    refine ⟨demoHistory, .rehash (demoMap_trace b) hm, demoHistory_val.symm, ?_⟩
    intro a ha
    simp only [List.mem_cons, List.not_mem_nil, or_false] at ha
    rcases ha with rfl | rfl | rfl <;> rfl
  have hv := (demoBus_coherent b _ _ hbus).1
  have hlo : Addressable.read b m 0xfffc = .ok 0xea := by
    have e : demoMem 0 0xfffc = 0xea := by decide
    rw [hv, e]
  have hhi : Addressable.read b m 0xfffd = .ok 0xff := by
    have e : demoMem 0 0xfffd = 0xff := by decide
    rw [hv, e]
  have hreset : reset b { withAddressmap demoMap with address_map := m } =
      .ok (.notReady 5 (afterReset m 0xea 0xff)) :=
    C34_reset (cpu := { withAddressmap demoMap with address_map := m }) hlo hhi
  refine ⟨_, hreset, fun n => ?_⟩
  have hinv : DemoInv (DemoBus b) 0 (afterReset m 0xea 0xff) := ⟨hbus, rfl, fun h => absurd rfl h⟩
  obtain ⟨c', k, hr, hb, hk⟩ := demo_run (demoBus_coherent b) (demoBus_accepts b) hinv n
  have hv' := (demoBus_coherent b _ _ hb).1
  refine ⟨c', hr, fun a ha => ⟨?_, ?_⟩, fun hn => ?_⟩
  · have := hv' a
    rw [show demoMem k a = demoInitial a by
      simp only [List.mem_cons, List.not_mem_nil, or_false, not_or] at ha
      simp only [demoMem, ha.1, ha.2.1, ha.2.2, false_and, if_false]] at this
    exact this
  · have := hv a
    rw [show demoMem 0 a = demoInitial a by simp [demoMem]] at this
    exact this
  · have h6 := hk hn
    refine ⟨?_, ?_, ?_⟩
    · have := hv' 0x0200
      rw [show demoMem k 0x0200 = 1 by unfold demoMem; rw [if_pos ⟨rfl, by omega⟩]] at this
      exact this
    · have := hv' 0x0201
      rw [show demoMem k 0x0201 = 2 by
        unfold demoMem; rw [if_neg (fun h => absurd h.1 (by decide)), if_pos ⟨rfl, by omega⟩]] at this
      exact this
    · have := hv' 0x0202
      rw [show demoMem k 0x0202 = 3 by
        unfold demoMem; rw [if_neg (fun h => absurd h.1 (by decide)),
          if_neg (fun h => absurd h.1 (by decide)), if_pos ⟨rfl, by omega⟩]] at this
      exact this

/-- `main` itself, with the 1,000,000 cycles it asks for, does not panic. -/
theorem C38_main (b : Build) : ∃ c', demo b 1000000 = .ok c' ∧
    c'.address_map.read b 0x0200 = .ok 1 ∧ c'.address_map.read b 0x0201 = .ok 2 ∧
    c'.address_map.read b 0x0202 = .ok 3 := by
  obtain ⟨cpu, h1, h2⟩ := C38_demo b
  obtain ⟨s, h3, h4⟩ := h2 cpu.address_map (List.Perm.refl _)
  obtain ⟨c', h5, -, h6⟩ := h4 1000000
  refine ⟨c', ?_, h6 (by omega)⟩
  have h3 : reset b cpu = .ok s := h3
  simp only [demo, h1, h3, h5, Res.ok_bind]
  rfl

end Verif.Props
