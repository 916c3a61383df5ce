import Verif.Props.Mos.Inverse

/-!
# C122: an instruction whose results are not looked at can be replaced by NOPs

One machine executes an instruction that does not transfer control; in the memory of another one its bytes are
overwritten with `NOP`. If what follows looks at nothing that the instruction gives a value (before giving it
another one), nor at the bytes of the instruction, it is executed in the same way by both machines.
-/

namespace Verif.Props

open Verif Verif.Mos Verif.Spec Verif.Spec.Mos

section
variable {B B' : Type} [Addressable B] [Addressable B'] {b : Build} {I : B → Mem → Prop}
  {I' : B' → Mem → Prop} {W : Word → Prop} {D D' : Part → Prop} {c c1 c' : Mos6502 B}
  {e : Mos6502 B'} {mem mem' : Mem} {i : InstructionVariant} {ops : Operations}
  {tr : List (Mos6502 B × InstructionVariant)}

/-- A row of `NOP`s is executed without any effect but on the program counter. -/
theorem nop_row (hI : Coherent b I') (hm : I' e.address_map mem') (n : Nat)
    (hh : HoldsAt mem' e.pc (List.replicate n 0xea)) (hb : b.overflowChecks = false ∨ e.pc.toNat + n < 65535) :
    ∃ tr e', Executes b e tr e' ∧ tr.map (fun x => view x.2) = List.replicate n (.Nop, .implied) ∧
      regs e' = { regs e with pc := word (e.pc.toNat + n) } ∧ I' e'.address_map mem' := by
  induction n generalizing e with
  | zero =>
    refine ⟨[], e, .nil e, rfl, ?_, hm⟩
    rw [word_add_ofNat]
    simp [regs]
  | succ n ih =>
    have hv := (hI _ _ hm).1
    obtain ⟨i, hat, hvi⟩ := (C117_fetch (bs := [0xea]) (cs := List.replicate n 0xea) (l := (.Nop, .implied)) hv
      ⟨rfl, rfl⟩ hh).2 (hb.imp id fun h => by omega)
    have hst := step_ok hat hv (by rw [hvi]; trivial)
    rw [hvi] at hst
    simp only [codeEffect, writeAll, Except.map] at hst
    generalize he1 : withRegs _ _ = e1 at hst
    have hr : regs e1 = { regs e with pc := word (e.pc.toNat + 1) } := by rw [← he1]; rfl
    have hbus : e1.address_map = e.address_map := by rw [← he1]; rfl
    have hpc : e1.pc = word (e.pc.toNat + 1) := congrArg Regs.pc hr
    obtain ⟨tr, e', h1, h2, h3, h4⟩ := ih (e := e1) (hbus ▸ hm) (by
      intro k v hk
      rw [hpc, word_add_add]
      have := holds_tail (bs := [0xea]) hh k v hk
      rwa [word_add_add] at this) (hb.imp id fun h => by
      rw [hpc]
      unfold word
      rw [BitVec.toNat_ofNat]
      omega)
    refine ⟨(e, i) :: tr, e', .cons ⟨hat, _, hst⟩ h1, ?_, ?_, h4⟩
    · rw [List.map_cons, h2, hvi]
      rfl
    · rw [h3, hr, hpc, word_add_add, Nat.add_comm 1 n]

/-- C122: `D` is where the machines may differ at first, the bytes of the instruction among it, and what the
instruction sets. -/
theorem C122_nops (hI : Coherent b I) (hI' : Coherent b I') (hacc : AcceptsAt b I' W)
    (hm : I c.address_map mem) (hm' : I' e.address_map mem') (h : Agree D (regs c) (regs e) mem mem')
    (hf : transfersControl (view i).1 = false) (hat : At b c i) (hn : next b c = .ok (ops, c1))
    (hh : HoldsAt mem' c.pc (List.replicate (size (view i).2) 0xea))
    (hb : b.overflowChecks = false ∨ c.pc.toNat + size (view i).2 < 65535)
    (hx : Executes b c1 tr c') (hu : Unseen I (fun p => D p ∨ p ∈ sets (regs c) mem i) tr D')
    (hW : ∀ p ∈ tr, ∀ m, I p.1.address_map m → ∀ a ∈ writable (regs p.1) m (view p.2).1 (view p.2).2, W a) :
    ∃ nops tr' e' m m', Executes b e (nops ++ tr') e' ∧
      nops.map (fun x => view x.2) = List.replicate (size (view i).2) (.Nop, .implied) ∧
      tr'.map Prod.snd = tr.map Prod.snd ∧ I c'.address_map m ∧ I' e'.address_map m' ∧
      Agree D' (regs c') (regs e') m m' := by
  have hpc : e.pc = c.pc := h.pc
  obtain ⟨hr, hm1⟩ := one_step hI hm hat hn
  obtain ⟨nops, e1, k1, k2, k3, k4⟩ := nop_row (e := e) hI' hm' (size (view i).2) (by rw [hpc]; exact hh)
    (by rw [hpc]; exact hb)
  have hag : Agree (fun p => D p ∨ p ∈ sets (regs c) mem i) (regs c1) (regs e1) (memAfter (regs c) mem i) mem' := by
    refine ⟨?_, fun p hp => ?_⟩
    · rw [hr, k3, effect_pc hf]
      show word (e.pc.toNat + _) = word (c.pc.toNat + _)
      rw [hpc]
    · rw [not_or] at hp
      rw [hr, effect_keeps_all (regs c) mem i hp.2, ← h.value p hp.1, k3]
      cases p with
      | flag f => cases f <;> rfl
      | _ => rfl
  obtain ⟨tr', e', m, m', q1, q2, q3, q4, q5⟩ := C113_executes hI hI' hacc hm1 k4 hag hx hu hW
  have happ : ∀ {e e1 : Mos6502 B'} {l l' : List (Mos6502 B' × InstructionVariant)} {e2 : Mos6502 B'},
      Executes b e l e1 → Executes b e1 l' e2 → Executes b e (l ++ l') e2 := fun h h' => by
    induction h with
    | nil c => exact h'
    | cons hs _ ih => exact .cons hs (ih h')
  exact ⟨nops, tr', e', m, m', happ k1 q1, k2, q2, q3, q4, q5⟩

end

/-! ### Concrete cases -/

/-- `LDA #5; LDA #7; TAX` at 0x200. -/
def deadCode : Mos6502 FlatRam := loadedAt 0x200 [0xa9, 5, 0xa9, 7, 0xaa]

/-- The machine after one instruction of it. -/
def deadCode1 : Mos6502 FlatRam :=
  withRegs (regsAfter (regs deadCode) deadCode.address_map.mem (.LdaImmediate 5))
    ⟨memAfter (regs deadCode) deadCode.address_map.mem (.LdaImmediate 5)⟩

/-- After two. -/
def deadCode2 : Mos6502 FlatRam :=
  withRegs (regsAfter (regs deadCode1) deadCode1.address_map.mem (.LdaImmediate 7))
    ⟨memAfter (regs deadCode1) deadCode1.address_map.mem (.LdaImmediate 7)⟩

/-- After all three. -/
def deadCode3 : Mos6502 FlatRam :=
  withRegs (regsAfter (regs deadCode2) deadCode2.address_map.mem .TaxImplied)
    ⟨memAfter (regs deadCode2) deadCode2.address_map.mem .TaxImplied⟩

theorem loadedAt_regs (p : Nat) (l l' : List Byte) : regs (loadedAt p l) = regs (loadedAt p l') := rfl

theorem dead_agree : Agree (fun p => p = .mem 0x200 ∨ p = .mem 0x201) (regs deadCode)
    (regs (loadedAt 0x200 [0xea, 0xea, 0xa9, 7, 0xaa])) (deadCode.address_map.mem)
    (loadedAt 0x200 [0xea, 0xea, 0xa9, 7, 0xaa]).address_map.mem := by
  have hr := loadedAt_regs 0x200 [0xa9, 5, 0xa9, 7, 0xaa] [0xea, 0xea, 0xa9, 7, 0xaa]
  rw [show deadCode = loadedAt 0x200 [0xa9, 5, 0xa9, 7, 0xaa] from rfl, ← hr]
  generalize regs (loadedAt 0x200 [0xa9, 5, 0xa9, 7, 0xaa]) = r
  refine ⟨rfl, fun p hp => ?_⟩
  cases p with
  | mem a =>
    simp only [Part.mem.injEq, not_or] at hp
    show loaded 0x200 [0xea, 0xea, 0xa9, 7, 0xaa] (fun _ => 0) a = loaded 0x200 [0xa9, 5, 0xa9, 7, 0xaa] (fun _ => 0) a
    simp only [loaded, List.length_cons, List.length_nil]
    by_cases ha : 0x200 ≤ a.toNat ∧ a.toNat < 0x200 + 5
    · have h0 : a.toNat ≠ 0x200 := fun h => hp.1 (BitVec.eq_of_toNat_eq h)
      have h1 : a.toNat ≠ 0x201 := fun h => hp.2 (BitVec.eq_of_toNat_eq h)
      obtain hk | hk | hk : a.toNat - 0x200 = 2 ∨ a.toNat - 0x200 = 3 ∨ a.toNat - 0x200 = 4 := by omega
      all_goals
        rw [if_pos ha, if_pos ha, hk]
        rfl
    · rw [if_neg ha, if_neg ha]
  | flag f => cases f <;> simp only [value]
  | _ => simp only [value]

/-- The hypotheses of `C122_nops`: in `LDA #5; LDA #7; TAX` the first instruction can be replaced. -/
example : ∃ nops tr' e', Executes .debug (loadedAt 0x200 [0xea, 0xea, 0xa9, 7, 0xaa]) (nops ++ tr') e' ∧
    nops.map (fun x => view x.2) = List.replicate 2 (.Nop, .implied) ∧
    tr'.map Prod.snd = [.LdaImmediate 7, .TaxImplied] ∧ e'.x = 7 := by
  obtain ⟨a1, o1, n1⟩ : Step .debug deadCode (.LdaImmediate 5) deadCode1 :=
    flat_step (by decide) (by decide +kernel) trivial
  have s2 : Step .debug deadCode1 (.LdaImmediate 7) deadCode2 :=
    flat_step (by decide +kernel) (by decide +kernel) trivial
  have s3 : Step .debug deadCode2 .TaxImplied deadCode3 :=
    flat_step (by decide +kernel) (by decide +kernel) trivial
  have hu : Unseen (fun (d : FlatRam) mem => d.mem = mem)
      (fun p => (p = .mem 0x200 ∨ p = .mem 0x201) ∨
        p ∈ sets (regs deadCode) deadCode.address_map.mem (.LdaImmediate 5))
      [(deadCode1, .LdaImmediate 7), (deadCode2, .TaxImplied)] _ :=
    .cons (mem := deadCode1.address_map.mem) rfl (by decide +kernel)
      (.cons (mem := deadCode2.address_map.mem) rfl (by decide +kernel) .nil)
  obtain ⟨nops, tr', e', m, m', h1, h2, h3, h4, h5, h6⟩ :=
    C122_nops (W := fun _ => True) (e := loadedAt 0x200 [0xea, 0xea, 0xa9, 7, 0xaa])
      (flatRam_coherent .debug) (flatRam_coherent .debug) (flat_acceptsAt .debug _) rfl rfl
      dead_agree rfl a1 n1
      (by
        intro k v hk
        match k, hk with
        | 0, hk | 1, hk => cases hk; decide +kernel
        | k + 2, hk => cases hk) (.inr (by decide)) (.cons s2 (.cons s3 (.nil _))) hu fun _ _ _ _ _ _ => trivial
  refine ⟨nops, tr', e', h1, h2, h3, ?_⟩
  subst h4
  have := h6.value .x (by decide +kernel)
  exact Eq.trans this (by decide +kernel)

/-- C122: that the results are not looked at is needed: after `LDA #5; TAX` X is 5, after `NOP; NOP; TAX` it is
not. -/
theorem C122_needed : ∃ (c1 c2 e1 e2 e3 : Mos6502 FlatRam),
    Executes .debug (loadedAt 0x200 [0xa9, 5, 0xaa])
      [(loadedAt 0x200 [0xa9, 5, 0xaa], .LdaImmediate 5), (c1, .TaxImplied)] c2 ∧
    Executes .debug (loadedAt 0x200 [0xea, 0xea, 0xaa])
      [(loadedAt 0x200 [0xea, 0xea, 0xaa], .NopImplied), (e1, .NopImplied), (e2, .TaxImplied)] e3 ∧
    c2.x = 5 ∧ e3.x ≠ 5 :=
  ⟨_, _, _, _, _,
    .cons (flat_step (by decide) (by decide +kernel) trivial)
      (.cons (flat_step (by decide +kernel) (by decide +kernel) trivial) (.nil _)),
    .cons (flat_step (by decide) (by decide +kernel) trivial)
      (.cons (flat_step (by decide +kernel) (by decide +kernel) trivial)
        (.cons (flat_step (by decide +kernel) (by decide +kernel) trivial) (.nil _))),
    by decide +kernel, by decide +kernel⟩

end Verif.Props
