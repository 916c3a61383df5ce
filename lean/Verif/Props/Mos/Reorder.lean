import Verif.Proofs.MosReorder
import Verif.Props.Listing

/-!
# C119: independent instructions of the 6502 can be executed in either order

Two instructions that follow one another, and the same two written the other way round. If neither looks at
what the other one gives a value (`dataUses` and `sets` of `Verif.Spec.MosUses`), both orders do the same, in
the same number of cycles, but in what both give a value: there the instruction executed last decides.
-/

namespace Verif.Props

open Verif Verif.Mos Verif.Spec Verif.Spec.Mos

section
variable {B B' : Type} [Addressable B] [Addressable B'] {b : Build} {I : B → Mem → Prop}
  {I' : B' → Mem → Prop} {W : Word → Prop} {D : Part → Prop} {c c1 c2 : Mos6502 B}
  {e : Mos6502 B'} {mem mem' : Mem} {i j : InstructionVariant} {ops ops' : Operations}
  {bi bj : List Byte}

/-- C119: one machine executes `i` and then `j`; in the memory of another one `j` is written before `i`. `D`
is where the machines may differ at first, the bytes of the two instructions among it. -/
theorem C119_either_order (hI : Coherent b I) (hI' : Coherent b I') (hacc : AcceptsAt b I' W)
    (hm : I c.address_map mem) (hm' : I' e.address_map mem') (h : Agree D (regs c) (regs e) mem mem')
    (hi : transfersControl (view i).1 = false) (hj : transfersControl (view j).1 = false)
    (hat : At b c i) (hn : next b c = .ok (ops, c1)) (hat' : At b c1 j) (hn' : next b c1 = .ok (ops', c2))
    (hei : Encodes bi (view i)) (hej : Encodes bj (view j)) (hh : HoldsAt mem' c.pc (bj ++ bi))
    (hb : b.overflowChecks = false ∨ c.pc.toNat + bj.length < 65534)
    (hDi : ∀ p ∈ dataUses (regs c) mem i, ¬D p) (hDj : ∀ p ∈ dataUses (regs c) mem j, ¬D p)
    (hij : ∀ p ∈ dataUses (regs c) mem j, p ∉ sets (regs c) mem i)
    (hji : ∀ p ∈ dataUses (regs c) mem i, p ∉ sets (regs c) mem j)
    (hsp : ∀ k < bi.length, Part.mem (word (c.pc.toNat + (bj.length + k))) ∉ sets (regs c) mem j)
    (hW : ∀ a, .mem a ∈ sets (regs c) mem i ∨ .mem a ∈ sets (regs c) mem j → W a) :
    ∃ i' j' e1 e2 o o' m m', view i' = view i ∧ view j' = view j ∧
      At b e j' ∧ next b e = .ok (o', e1) ∧ At b e1 i' ∧ next b e1 = .ok (o, e2) ∧
      o'.cycles = ops'.cycles ∧ o.cycles = ops.cycles ∧ I c2.address_map m ∧ I' e2.address_map m' ∧
      Agree (fun p => (D p ∧ p ∉ sets (regs c) mem i ∧ p ∉ sets (regs c) mem j) ∨
        (p ∈ sets (regs c) mem i ∧ p ∈ sets (regs c) mem j)) (regs c2) (regs e2) m m' := by
  have hpc : e.pc = c.pc := h.pc
  have hv := (hI _ _ hm).1
  have hv' := (hI' _ _ hm').1
  obtain ⟨hok, hops, hr, hws⟩ := step_inv hat hv (mn := (view i).1) (am := (view i).2) rfl hn
  have hm1 := writeAll_coherent hI _ hm hws
  obtain ⟨hok1, hops1, hr1, hws1⟩ :=
    step_inv hat' (hI _ _ hm1).1 (mn := (view j).1) (am := (view j).2) rfl hn'
  have hm2 := writeAll_coherent hI _ hm1 hws1
  obtain ⟨k1, k2, k3, k4, k5⟩ := reorder hi hj h.value hDi hDj hij hji
  -- the first instruction of the other machine
  obtain ⟨j', haj, hvj⟩ := (C117_fetch hv' hej (by rw [hpc]; exact hh)).2
    (hb.imp id fun h => by rw [hpc]; omega)
  have hokj : AddrOk b (regs e) mem' (view j).2 := by
    rw [hr] at hok1
    refine addrOk_used (fun p hp => ?_) hok1
    have hpj : ∀ q ∈ pointerUses (regs c) (view j).2,
        value (regsAfter (regs c) mem i) (memAfter (regs c) mem i) q = value (regs c) mem q := fun q hq =>
      effect_keeps_all (regs c) mem i (hij q (by simp only [dataUses, List.mem_append]; simp [hq]))
    have hp' : p ∈ pointerUses (regs c) (view j).2 := by
      revert hp hpj
      show p ∈ pointerUses (regsAfter (regs c) mem i) (view j).2 → _
      cases (view j).2 <;> intro hp hpj <;> try exact hp
      have := hpj .x (by simp [pointerUses])
      simp only [value] at this
      simpa only [pointerUses, this] using hp
    rw [h.value p (hDj p (by simp only [dataUses, List.mem_append]; simp [hp']))]
    exact (hpj p hp').symm
  rw [← hvj] at hokj
  obtain ⟨bus, hbus⟩ := writeAll_accepted hI' hacc
    (codeEffect (regs e) mem' (view j').1 (view j').2).writes hm' fun w hw => by
      refine hW _ (.inr ?_)
      rw [hvj, k4] at hw
      unfold sets
      rw [← codeEffect_writes]
      exact List.mem_append.2 (.inr (List.mem_map_of_mem (List.mem_map_of_mem hw)))
  have hst := step_ok haj hv' hokj
  rw [hbus] at hst
  have hme := writeAll_coherent hI' _ hm' hbus
  rw [hvj] at hst hme
  simp only [Except.map] at hst
  -- the second one
  generalize he1 : withRegs (codeEffect (regs e) mem' (view j).1 (view j).2).regs bus = e1 at hst
  have hre1 : regs e1 = regsAfter (regs e) mem' j := by rw [← he1]; rfl
  have hbe1 : e1.address_map = bus := by rw [← he1]; rfl
  rw [← hbe1] at hme
  have hpc1 : e1.pc = word (c.pc.toNat + bj.length) := by
    have : (regs e1).pc = nextPc (regs e) (view j).2 := by rw [hre1, effect_pc hj]
    rw [hej.1, ← hpc]
    exact this
  have hh1 : HoldsAt (memAfter (regs e) mem' j) e1.pc (bi ++ []) := by
    intro k v hk
    rw [List.append_nil] at hk
    have hkl : k < bi.length := by
      apply Classical.byContradiction
      intro hn
      rw [List.getElem?_eq_none (by omega)] at hk
      cases hk
    have hkeep := effect_keeps_all (regs e) mem' j (p := .mem (word (c.pc.toNat + (bj.length + k))))
      (by rw [sets_eq k4]; exact hsp k hkl)
    rw [hpc1, word_add_add]
    refine Eq.trans hkeep ?_
    have := holds_tail hh k v hk
    rwa [word_add_add] at this
  obtain ⟨i', hai, hvi⟩ := (C117_fetch (hI' _ _ hme).1 hei hh1).2
    (hb.imp id fun h => by
      rw [hpc1]
      unfold word
      rw [BitVec.toNat_ofNat]
      omega)
  have hoki : AddrOk b (regs e1) (memAfter (regs e) mem' j) (view i).2 := by
    rw [hre1]
    refine addrOk_used (fun p hp => ?_) hok
    have hp' : p ∈ dataUses (regs c) mem i := by simp only [dataUses, List.mem_append]; simp [hp]
    rw [effect_keeps_all (regs e) mem' j (by rw [sets_eq k4]; exact hji p hp')]
    exact h.value p (hDi p hp')
  rw [← hvi] at hoki
  rw [← hre1] at k1 k3 k5
  obtain ⟨bus2, hbus2⟩ := writeAll_accepted hI' hacc
    (codeEffect (regs e1) (memAfter (regs e) mem' j) (view i').1 (view i').2).writes hme fun w hw => by
      refine hW _ (.inl ?_)
      rw [hvi, k3] at hw
      unfold sets
      rw [← codeEffect_writes]
      exact List.mem_append.2 (.inr (List.mem_map_of_mem (List.mem_map_of_mem hw)))
  have hst2 := step_ok hai (hI' _ _ hme).1 hoki
  rw [hbus2] at hst2
  have hme2 := writeAll_coherent hI' _ hme hbus2
  rw [hvi] at hst2 hme2
  simp only [Except.map] at hst2
  refine ⟨i', j', e1, _, _, _, _, _, hvi, hvj, haj, hst, hai, hst2, ?_, ?_, hm2, hme2, ?_, ?_⟩
  · rw [hops1, hr]; exact k2
  · rw [hops]; exact k1
  · show (regsAfter (regs e1) _ i).pc = (regs c2).pc
    rw [effect_pc hi, hr1, hr]
    show _ = (regsAfter (regsAfter (regs c) mem i) (memAfter (regs c) mem i) j).pc
    rw [effect_pc hj, hre1]
    show word ((regsAfter (regs e) mem' j).pc.toNat + _) = word ((regsAfter (regs c) mem i).pc.toNat + _)
    rw [effect_pc hi, effect_pc hj]
    show word ((word (e.pc.toNat + _)).toNat + _) = word ((word (c.pc.toNat + _)).toNat + _)
    rw [word_add_add, word_add_add, hpc, Nat.add_comm (size _)]
  · intro p hp
    rw [not_or] at hp
    rw [hr1, hr]
    exact k5 p hp.1 hp.2

end

/-! ### Concrete cases -/

/-- The addresses of a program of four bytes at 0x200. -/
def fourBytes : Part → Prop := fun p => ∃ a : Word, p = .mem a ∧ 0x200 ≤ a.toNat ∧ a.toNat < 0x204

theorem four_bytes {l l' : List Byte} (h : l.length = 4) (h' : l'.length = 4) :
    Agree fourBytes (regs (loadedAt 0x200 l)) (regs (loadedAt 0x200 l')) (loaded 0x200 l fun _ => 0)
      (loaded 0x200 l' fun _ => 0) := by
  refine ⟨rfl, fun p hp => ?_⟩
  cases p with
  | mem a =>
    have ha : ¬(0x200 ≤ a.toNat ∧ a.toNat < 0x204) := fun ha => hp ⟨a, rfl, ha⟩
    simp only [value, loaded, h, h', if_neg ha]
  | flag f => cases f <;> rfl
  | _ => rfl

/-- The hypotheses of `C119_either_order`: `LDA #5; STX $10` and `STX $10; LDA #5` give the same in all but
their own bytes. -/
example : ∃ c1 c2 e1 e2 : Mos6502 FlatRam, ∃ i' j',
    Executes .debug (loadedAt 0x200 [0xa9, 5, 0x86, 0x10])
      [(loadedAt 0x200 [0xa9, 5, 0x86, 0x10], .LdaImmediate 5), (c1, .StxZeroPage 0x10)] c2 ∧
    Executes .debug (loadedAt 0x200 [0x86, 0x10, 0xa9, 5])
      [(loadedAt 0x200 [0x86, 0x10, 0xa9, 5], j'), (e1, i')] e2 ∧
    view j' = (.Stx, .zeroPage 0x10) ∧ view i' = (.Lda, .immediate 5) ∧
    Agree fourBytes (regs c2) (regs e2) c2.address_map.mem e2.address_map.mem := by
  have s1 : Step .debug (loadedAt 0x200 [0xa9, 5, 0x86, 0x10]) (.LdaImmediate 5) _ :=
    flat_step (by decide) (by decide +kernel) trivial
  obtain ⟨a1, o1, n1⟩ := s1
  obtain ⟨a2, o2, n2⟩ : Step .debug _ (.StxZeroPage 0x10) _ :=
    flat_step (r := regsAfter (regs (loadedAt 0x200 [0xa9, 5, 0x86, 0x10]))
      (loadedAt 0x200 [0xa9, 5, 0x86, 0x10]).address_map.mem (.LdaImmediate 5))
      (mem := memAfter (regs (loadedAt 0x200 [0xa9, 5, 0x86, 0x10]))
      (loadedAt 0x200 [0xa9, 5, 0x86, 0x10]).address_map.mem (.LdaImmediate 5)) (by decide +kernel)
      (by decide +kernel) trivial
  obtain ⟨i', j', e1, e2, o, o', m, m', h1, h2, h3, h4, h5, h6, -, -, h7, h8, h9⟩ :=
    C119_either_order (W := fun _ => True) (D := fourBytes) (b := .debug)
      (c := loadedAt 0x200 [0xa9, 5, 0x86, 0x10]) (e := loadedAt 0x200 [0x86, 0x10, 0xa9, 5])
      (flatRam_coherent .debug) (flatRam_coherent .debug) (flat_acceptsAt .debug _) rfl rfl
      (four_bytes rfl rfl) rfl rfl a1 n1 a2 n2 (bi := [0xa9, 5]) (bj := [0x86, 0x10]) ⟨rfl, rfl⟩ ⟨rfl, rfl⟩
      (by
        intro k v hk
        match k, hk with
        | 0, hk | 1, hk | 2, hk | 3, hk => cases hk; decide +kernel
        | k + 4, hk => cases hk) (.inr (by decide)) (fun p hp => by cases hp) (by
        intro p hp
        obtain rfl : p = .x := by
          revert hp
          simp [dataUses, view, modeUses, pointerUses, operandUses, mnemonicUses]
        rintro ⟨a, ha, -⟩
        cases ha)
      (by decide +kernel) (by decide +kernel) (by decide +kernel) fun _ _ => trivial
  have h7 : _ = m := h7
  have h8 : _ = m' := h8
  subst h7 h8
  refine ⟨_, _, e1, e2, i', j', .cons ⟨a1, o1, n1⟩ (.cons ⟨a2, o2, n2⟩ (.nil _)),
    .cons ⟨h3, o', h4⟩ (.cons ⟨h5, o, h6⟩ (.nil _)), h2, h1, agree_mono (fun p hp => ?_) h9⟩
  rcases hp with hp | ⟨hp, hq⟩
  · exact hp.1
  · exfalso
    have hx : ∀ p ∈ sets (regs (loadedAt 0x200 [0xa9, 5, 0x86, 0x10]))
        (loadedAt 0x200 [0xa9, 5, 0x86, 0x10]).address_map.mem (.LdaImmediate 5),
        p ∉ sets (regs (loadedAt 0x200 [0xa9, 5, 0x86, 0x10]))
        (loadedAt 0x200 [0xa9, 5, 0x86, 0x10]).address_map.mem (.StxZeroPage 0x10) := by decide +kernel
    exact hx p hp hq

/-- C119: what both instructions set is left as the last one sets it: after `LDX #1; LDY #0` the zero flag is
set, after `LDY #0; LDX #1` it is clear. -/
theorem C119_last_decides : ∃ c1 c2 e1 e2 : Mos6502 FlatRam,
    Executes .debug (loadedAt 0x200 [0xa2, 1, 0xa0, 0])
      [(loadedAt 0x200 [0xa2, 1, 0xa0, 0], .LdxImmediate 1), (c1, .LdyImmediate 0)] c2 ∧
    Executes .debug (loadedAt 0x200 [0xa0, 0, 0xa2, 1])
      [(loadedAt 0x200 [0xa0, 0, 0xa2, 1], .LdyImmediate 0), (e1, .LdxImmediate 1)] e2 ∧
    c2.x = e2.x ∧ c2.y = e2.y ∧ c2.ps.zero = true ∧ e2.ps.zero = false :=
  ⟨_, _, _, _, .cons (flat_step (by decide) (by decide +kernel) trivial)
      (.cons (flat_step (by decide) (by decide +kernel) trivial) (.nil _)),
    .cons (flat_step (by decide) (by decide +kernel) trivial)
      (.cons (flat_step (by decide) (by decide +kernel) trivial) (.nil _)),
    by decide +kernel, by decide +kernel, by decide +kernel, by decide +kernel⟩

/-- C119: the order matters where one instruction looks at what the other one sets: `LDA #5; STA $10` stores
5, `STA $10; LDA #5` does not. -/
theorem C119_dependent : ∃ c1 c2 e1 e2 : Mos6502 FlatRam,
    Executes .debug (loadedAt 0x200 [0xa9, 5, 0x85, 0x10])
      [(loadedAt 0x200 [0xa9, 5, 0x85, 0x10], .LdaImmediate 5), (c1, .StaZeroPage 0x10)] c2 ∧
    Executes .debug (loadedAt 0x200 [0x85, 0x10, 0xa9, 5])
      [(loadedAt 0x200 [0x85, 0x10, 0xa9, 5], .StaZeroPage 0x10), (e1, .LdaImmediate 5)] e2 ∧
    c2.address_map.mem 0x10 = 5 ∧ e2.address_map.mem 0x10 ≠ 5 :=
  ⟨_, _, _, _, .cons (flat_step (by decide) (by decide +kernel) trivial)
      (.cons (flat_step (by decide) (by decide +kernel) trivial) (.nil _)),
    .cons (flat_step (by decide) (by decide +kernel) trivial)
      (.cons (flat_step (by decide) (by decide +kernel) trivial) (.nil _)),
    by decide +kernel, by decide +kernel⟩

end Verif.Props
