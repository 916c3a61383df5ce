import Verif.Spec.MosUses
import Verif.Proofs.MosRelocate

/-!
# One instruction in two states that agree in what it uses
-/

namespace Verif.Mos

open Verif Verif.Spec.Mos Verif.Props

theorem bitByte_inj {v w : Bool} (h : bitByte v = bitByte w) : v = w := by
  revert h; revert v w; decide

theorem bitByte_eq {v w : Bool} : bitByte v = bitByte w ↔ v = w := ⟨bitByte_inj, fun h => by rw [h]⟩

theorem word_toNat_self (w : Word) : word w.toNat = w := by
  unfold word; exact BitVec.ofNat_toNat 16 w |>.trans (by simp)

section
variable {r r' : Regs} {mem mem' : Mem} {mn : Mnemonic} {am : AddrMode}

theorem ea_used (h1 : ∀ p ∈ modeUses am, value r' mem' p = value r mem p)
    (h2 : ∀ p ∈ pointerUses r am, value r' mem' p = value r mem p) : ea r' mem' am = ea r mem am := by
  cases am <;>
    simp only [modeUses, pointerUses, List.mem_cons, List.not_mem_nil, or_false, forall_eq_or_imp, forall_eq,
      value] at h1 h2 <;> simp only [ea, le]
  case zeroPageX z => rw [h1]
  case zeroPageY z => rw [h1]
  case absoluteX z => rw [h1]
  case absoluteY z => rw [h1]
  case indirect w => rw [word_toNat_self, h1.1, h1.2]
  case indexedIndirect z => rw [h2.1, h2.2.1, h2.2.2]
  case indirectIndexed z => rw [h2.1, h2.2.1, h2.2.2]

theorem baseAddr_used (h2 : ∀ p ∈ pointerUses r am, value r' mem' p = value r mem p) :
    baseAddr mem' am = baseAddr mem am := by
  cases am <;>
    simp only [pointerUses, List.mem_cons, List.not_mem_nil, or_false, forall_eq_or_imp, forall_eq,
      value] at h2 <;> simp only [baseAddr, le]
  case indirectIndexed z => rw [h2.2.1, h2.2.2]

theorem addrOk_used {b : Build} (h2 : ∀ p ∈ pointerUses r am, value r' mem' p = value r mem p)
    (h : AddrOk b r mem am) : AddrOk b r' mem' am := by
  have hb := baseAddr_used h2
  cases am <;>
    simp only [pointerUses, List.mem_cons, List.not_mem_nil, or_false, forall_eq_or_imp, forall_eq,
      value] at h2 <;> simp only [AddrOk] at h ⊢
  case indexedIndirect z => rw [h2.1]; exact h
  case indirectIndexed z => rw [hb, h2.1]; exact h
  case indirect w => exact h

theorem operand_used (h1 : ∀ p ∈ modeUses am, value r' mem' p = value r mem p)
    (h2 : ∀ p ∈ pointerUses r am, value r' mem' p = value r mem p)
    (h3 : ∀ p ∈ operandUses r mem mn am, value r' mem' p = value r mem p) (hr : readsByte mn = true)
    (hm : am ≠ .implied ∧ ∀ z, am ≠ .relative z) : operand r' mem' am = operand r mem am := by
  have he := ea_used h1 h2
  have hmem : (∀ v, am ≠ .immediate v) → am ≠ .accumulator → mem' (ea r mem am) = mem (ea r mem am) := by
    intro n1 n2
    refine h3 (.mem (ea r mem am)) ?_
    cases mn <;> simp only [readsByte, Bool.false_eq_true] at hr <;> cases am <;>
      first
      | exact absurd rfl hm.1
      | exact absurd rfl (hm.2 _)
      | exact absurd rfl (n1 _)
      | exact absurd rfl n2
      | exact List.mem_singleton.2 rfl
  cases am with
  | immediate v => rfl
  | accumulator => exact h1 .a (by simp [modeUses])
  | implied => exact absurd rfl hm.1
  | relative z => exact absurd rfl (hm.2 z)
  | _ =>
    simp only [operand]
    rw [he]
    exact hmem (by intro v; simp) (by simp)

theorem stack_add (x : Byte) (n : Byte) : stack (x + n).toNat = stack (x.toNat + n.toNat) := by
  simp only [stack, BitVec.toNat_add]
  congr 1
  omega

theorem stack_add1 (x : Byte) : stack (x + 1).toNat = stack (x.toNat + 1) := stack_add x 1

theorem stack_add2 (x : Byte) : stack (x + 2).toNat = stack (x.toNat + 2) := stack_add x 2

theorem stack_add3 (x : Byte) : stack (x + 3).toNat = stack (x.toNat + 3) := stack_add x 3

theorem nextPc_used (hpc : r'.pc = r.pc) : nextPc r' am = nextPc r am := by
  simp only [nextPc, hpc]

end

section
variable {r r' : Regs} {mem mem' : Mem} {i : InstructionVariant}

/-- What an instruction does besides keeping what it does not set: the same operations, the same writes,
the same program counter and the same values of what it sets. -/
theorem effect_data (hpc : r'.pc = r.pc) (h : ∀ p ∈ dataUses r mem i, value r' mem' p = value r mem p) :
    code r' mem' (view i).1 (view i).2 = code r mem (view i).1 (view i).2 ∧
    (codeEffect r' mem' (view i).1 (view i).2).writes = (codeEffect r mem (view i).1 (view i).2).writes ∧
    (codeEffect r' mem' (view i).1 (view i).2).regs.pc = (codeEffect r mem (view i).1 (view i).2).regs.pc ∧
    ∀ p ∈ registersSet (view i).2 (view i).1, ∀ m m',
      value (codeEffect r' mem' (view i).1 (view i).2).regs m' p =
        value (codeEffect r mem (view i).1 (view i).2).regs m p := by
  have h1 : ∀ p ∈ modeUses (view i).2, value r' mem' p = value r mem p := fun p hp => h p (by simp [dataUses, hp])
  have h2 : ∀ p ∈ pointerUses r (view i).2, value r' mem' p = value r mem p :=
    fun p hp => h p (by simp [dataUses, hp])
  have h3 : ∀ p ∈ operandUses r mem (view i).1 (view i).2, value r' mem' p = value r mem p :=
    fun p hp => h p (by simp [dataUses, hp])
  have h4 : ∀ p ∈ mnemonicUses r (view i).1, value r' mem' p = value r mem p :=
    fun p hp => h p (by simp [dataUses, hp])
  have hm := readsByte_mode i
  clear h
  revert h1 h2 h3 h4 hm
  generalize (view i).1 = mn
  generalize (view i).2 = am
  intro h1 h2 h3 h4 hm
  have he := ea_used h1 h2
  have hb := baseAddr_used h2
  have hv := fun hr => operand_used h1 h2 h3 hr (hm hr)
  have hp := nextPc_used (am := am) hpc
  clear h1 h2 h3 hm
  have ht : taken mn r'.p = taken mn r.p := by
    cases mn <;> simp only [taken] <;>
      (simp only [mnemonicUses, List.mem_singleton, forall_eq, value, bitByte_eq] at h4; rw [h4])
  have hpen : codePenalty r' mem' mn am = codePenalty r mem mn am := by
    cases am <;> simp only [codePenalty, ht, hpc, he, hb]
  cases mn
  all_goals
    simp only [mnemonicUses, statusParts, List.mem_cons, List.not_mem_nil, or_false, forall_eq_or_imp,
      forall_eq, value, bitByte_eq, false_implies, implies_true] at h4
    simp only [readsByte, forall_const, Bool.false_eq_true, false_implies] at hv
    refine ⟨?_, ?_, ?_, ?_⟩
    · simp only [code, codeMcs, hpen, he, hv, h4, hpc, shifted, branchCode, stackPointerFromByteValue_eq,
        stack_add1, stack_add2, stack_add3, ProcessorStatus.read]
    · first
      | (simp only [codeEffect, he, hv, h4, hpc, ProcessorStatus.read]; done)
      | (cases am <;> simp only [codeEffect, he, hv, h4, shiftEffect, branchEffect])
    · first
      | (simp only [codeEffect, hp, he, hv, h4, hpc, arithRegs, compareRegs, stack_add1, stack_add2,
          stack_add3]; done)
      | (cases am <;> simp only [codeEffect, hp, hpc, hv, h4, shiftEffect, branchEffect])
    · first
      | (simp only [registersSet, statusParts, List.mem_cons, List.not_mem_nil, or_false, forall_eq_or_imp,
          forall_eq, value, codeEffect, hv, h4, arithRegs, compareRegs, setNZ,
          implies_true, and_self, false_implies, stack_add1]; done)
      | (cases am <;> simp [registersSet, value, codeEffect, hv, h4, shiftEffect, setNZ])

theorem effect_used (hpc : r'.pc = r.pc) (h : ∀ p ∈ uses r mem i, value r' mem' p = value r mem p) :
    code r' mem' (view i).1 (view i).2 = code r mem (view i).1 (view i).2 ∧
    (codeEffect r' mem' (view i).1 (view i).2).writes = (codeEffect r mem (view i).1 (view i).2).writes ∧
    (codeEffect r' mem' (view i).1 (view i).2).regs.pc = (codeEffect r mem (view i).1 (view i).2).regs.pc ∧
    ∀ p ∈ registersSet (view i).2 (view i).1, ∀ m m',
      value (codeEffect r' mem' (view i).1 (view i).2).regs m' p =
        value (codeEffect r mem (view i).1 (view i).2).regs m p :=
  effect_data hpc fun p hp => h p (by
    simp only [dataUses, List.mem_append] at hp
    simp only [uses, List.mem_append]
    rcases hp with ((hp | hp) | hp) | hp <;> simp [hp])

/-- What an instruction does not set it keeps. -/
theorem effect_keeps (r : Regs) (mem m : Mem) (mn : Mnemonic) (am : AddrMode) {p : Part}
    (hp : p ∉ registersSet am mn) : value (codeEffect r mem mn am).regs m p = value r m p := by
  cases p with
  | mem a => rfl
  | flag f =>
    cases mn <;> cases f <;> first
      | (exfalso; apply hp; simp only [registersSet, statusParts, List.mem_cons, List.mem_append, true_or,
          or_true]; done)
      | rfl
      | (cases am <;> rfl)
  | _ =>
    cases mn <;> first
      | (exfalso; apply hp; simp only [registersSet, statusParts, List.mem_cons, List.mem_append, true_or,
          or_true]; done)
      | rfl
      | (cases am <;> first | rfl | (exfalso; apply hp; simp [registersSet]; done))

/-- The same bytes written to two memories: they agree where they agreed and where they were written. -/
theorem writes_agree (ws : List (Word × Byte)) (a : Word) : ∀ {mem mem' : Mem},
    (mem' a = mem a ∨ a ∈ ws.map Prod.fst) →
    ws.foldl (fun m w => upd m w.1 w.2) mem' a = ws.foldl (fun m w => upd m w.1 w.2) mem a := by
  induction ws with
  | nil => intro mem mem' h; exact h.resolve_right (by simp)
  | cons w ws ih =>
    intro mem mem' h
    refine ih ?_
    simp only [upd]
    by_cases e : a = w.1
    · left; rw [if_pos e, if_pos e]
    · rw [if_neg e, if_neg e]
      rcases h with h | h
      · exact .inl h
      · right
        simpa [e] using h

theorem agree_mono {D D' : Part → Prop} (hD : ∀ p, D p → D' p) (h : Agree D r r' mem mem') :
    Agree D' r r' mem mem' := ⟨h.pc, fun p hp => h.value p fun hd => hp (hD p hd)⟩

/-- What an instruction does not set it keeps, memory included. -/
theorem effect_keeps_all (r : Regs) (mem : Mem) (i : InstructionVariant) {p : Part} (hp : p ∉ sets r mem i) :
    value (codeEffect r mem (view i).1 (view i).2).regs
      ((codeEffect r mem (view i).1 (view i).2).writes.foldl (fun m w => upd m w.1 w.2) mem) p =
      value r mem p := by
  have h1 : p ∉ registersSet (view i).2 (view i).1 := fun h => hp (List.mem_append.2 (.inl h))
  rw [effect_keeps r mem _ _ _ h1]
  cases p with
  | mem a =>
    have h2 : a ∉ (codeEffect r mem (view i).1 (view i).2).writes.map Prod.fst := by
      rw [codeEffect_writes]
      exact fun h => hp (List.mem_append.2 (.inr (List.mem_map_of_mem h)))
    show List.foldl _ mem _ a = mem a
    revert h2
    generalize (codeEffect r mem (view i).1 (view i).2).writes = ws
    clear hp h1
    induction ws generalizing mem with
    | nil => intro _; rfl
    | cons w ws ih =>
      intro h
      simp only [List.map_cons, List.mem_cons, not_or] at h
      rw [List.foldl_cons, ih _ h.2]
      exact if_neg h.1
  | flag f => cases f <;> rfl
  | _ => rfl

/-- One instruction on two memories. -/
theorem agree_step {D : Part → Prop} (h : Agree D r r' mem mem') (hu : ∀ p ∈ uses r mem i, ¬D p) :
    Agree (fun p => D p ∧ p ∉ sets r mem i) (codeEffect r mem (view i).1 (view i).2).regs
      (codeEffect r' mem' (view i).1 (view i).2).regs
      ((codeEffect r mem (view i).1 (view i).2).writes.foldl (fun m w => upd m w.1 w.2) mem)
      ((codeEffect r mem (view i).1 (view i).2).writes.foldl (fun m w => upd m w.1 w.2) mem') := by
  obtain ⟨-, -, hpc, hset⟩ := effect_used h.pc fun p hp => h.value p (hu p hp)
  refine ⟨hpc, fun p hp => ?_⟩
  by_cases hs : p ∈ registersSet (view i).2 (view i).1
  · exact hset p hs _ _
  · rw [effect_keeps r' mem' _ _ _ hs, effect_keeps r mem _ _ _ hs]
    have hd : ¬D p ∨ p ∈ (writable r mem (view i).1 (view i).2).map Part.mem := by
      apply Classical.byContradiction
      intro hn
      refine hp ⟨Classical.byContradiction fun hd => hn (.inl hd), fun hm => ?_⟩
      rcases List.mem_append.1 hm with hm | hm
      · exact hs hm
      · exact hn (.inr hm)
    cases p with
    | mem a =>
      refine writes_agree _ a ?_
      rcases hd with hd | hd
      · exact .inl (h.value (.mem a) hd)
      · right
        rw [codeEffect_writes]
        obtain ⟨x, hx, he⟩ := List.mem_map.1 hd
        cases he
        exact hx
    | flag f =>
      have := h.value (.flag f) (hd.resolve_right (by simp))
      cases f <;> exact this
    | a => exact h.value .a (hd.resolve_right (by simp))
    | x => exact h.value .x (hd.resolve_right (by simp))
    | y => exact h.value .y (hd.resolve_right (by simp))
    | sp => exact h.value .sp (hd.resolve_right (by simp))
    | unused => exact h.value .unused (hd.resolve_right (by simp))

end

end Verif.Mos
