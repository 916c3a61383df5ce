import Verif.Spec.MosMirror
import Verif.Proofs.MosUses

/-!
# One instruction and its counterpart for the other index register
-/

namespace Verif.Mos

open Verif Verif.Spec.Mos Verif.Props

/-- The counterpart of an instruction, as an instruction. -/
def mirror : InstructionVariant → InstructionVariant
  | .LdxImmediate o => .LdyImmediate o
  | .LdxZeroPage o => .LdyZeroPage o
  | .LdxZeroPageIndexedWithY o => .LdyZeroPageIndexedWithX o
  | .LdxAbsolute o => .LdyAbsolute o
  | .LdxAbsoluteIndexedWithY o => .LdyAbsoluteIndexedWithX o
  | .LdyImmediate o => .LdxImmediate o
  | .LdyZeroPage o => .LdxZeroPage o
  | .LdyZeroPageIndexedWithX o => .LdxZeroPageIndexedWithY o
  | .LdyAbsolute o => .LdxAbsolute o
  | .LdyAbsoluteIndexedWithX o => .LdxAbsoluteIndexedWithY o
  | .StxZeroPage o => .StyZeroPage o
  | .StxZeroPageIndexedWithY o => .StyZeroPageIndexedWithX o
  | .StxAbsolute o => .StyAbsolute o
  | .StyZeroPage o => .StxZeroPage o
  | .StyZeroPageIndexedWithX o => .StxZeroPageIndexedWithY o
  | .StyAbsolute o => .StxAbsolute o
  | .CpxImmediate o => .CpyImmediate o
  | .CpxZeroPage o => .CpyZeroPage o
  | .CpxAbsolute o => .CpyAbsolute o
  | .CpyImmediate o => .CpxImmediate o
  | .CpyZeroPage o => .CpxZeroPage o
  | .CpyAbsolute o => .CpxAbsolute o
  | .InxImplied => .InyImplied
  | .InyImplied => .InxImplied
  | .DexImplied => .DeyImplied
  | .DeyImplied => .DexImplied
  | .TaxImplied => .TayImplied
  | .TayImplied => .TaxImplied
  | .TxaImplied => .TyaImplied
  | .TyaImplied => .TxaImplied
  | .OraAbsoluteIndexedWithX o => .OraAbsoluteIndexedWithY o
  | .OraAbsoluteIndexedWithY o => .OraAbsoluteIndexedWithX o
  | .AndAbsoluteIndexedWithX o => .AndAbsoluteIndexedWithY o
  | .AndAbsoluteIndexedWithY o => .AndAbsoluteIndexedWithX o
  | .EorAbsoluteIndexedWithX o => .EorAbsoluteIndexedWithY o
  | .EorAbsoluteIndexedWithY o => .EorAbsoluteIndexedWithX o
  | .AdcAbsoluteIndexedWithX o => .AdcAbsoluteIndexedWithY o
  | .AdcAbsoluteIndexedWithY o => .AdcAbsoluteIndexedWithX o
  | .StaAbsoluteIndexedWithX o => .StaAbsoluteIndexedWithY o
  | .StaAbsoluteIndexedWithY o => .StaAbsoluteIndexedWithX o
  | .LdaAbsoluteIndexedWithX o => .LdaAbsoluteIndexedWithY o
  | .LdaAbsoluteIndexedWithY o => .LdaAbsoluteIndexedWithX o
  | .CmpAbsoluteIndexedWithX o => .CmpAbsoluteIndexedWithY o
  | .CmpAbsoluteIndexedWithY o => .CmpAbsoluteIndexedWithX o
  | .SbcAbsoluteIndexedWithX o => .SbcAbsoluteIndexedWithY o
  | .SbcAbsoluteIndexedWithY o => .SbcAbsoluteIndexedWithX o
  | i => i

/-- The instructions with a counterpart. -/
def paired (i : InstructionVariant) : Bool :=
  match view i with
  | (.Tsx, _) | (.Txs, _) | (_, .indexedIndirect _) | (_, .indirectIndexed _) => false
  | (mn, .zeroPageX _) => mn = .Ldy || mn = .Sty
  | (mn, .absoluteX _) => !isRmw mn
  | _ => true

/-- The counterpart of a mnemonic. -/
def mirrorMn : Mnemonic → Mnemonic
  | .Ldx => .Ldy | .Ldy => .Ldx | .Stx => .Sty | .Sty => .Stx | .Cpx => .Cpy | .Cpy => .Cpx
  | .Inx => .Iny | .Iny => .Inx | .Dex => .Dey | .Dey => .Dex | .Tax => .Tay | .Tay => .Tax
  | .Txa => .Tya | .Tya => .Txa
  | mn => mn

/-- The counterpart of an addressing mode. -/
def mirrorMode : AddrMode → AddrMode
  | .zeroPageX z => .zeroPageY z
  | .zeroPageY z => .zeroPageX z
  | .absoluteX w => .absoluteY w
  | .absoluteY w => .absoluteX w
  | am => am

/-- The modes with a counterpart. -/
def unindirect : AddrMode → Bool
  | .indexedIndirect _ | .indirectIndexed _ => false
  | _ => true

theorem view_mirror {i : InstructionVariant} (h : paired i = true) :
    view (mirror i) = (mirrorMn (view i).1, mirrorMode (view i).2) := by
  revert h; cases i <;> first | exact fun _ => rfl | (intro h; cases h; done)

theorem unindirect_paired {i : InstructionVariant} (h : paired i = true) : unindirect (view i).2 = true := by
  revert h; cases i <;> first | exact fun _ => rfl | (intro h; cases h; done)

theorem parse_counterpart {o1 o2 o3 o : Byte} {i : InstructionVariant}
    (hp : Isa.parseInstruction o1 o2 o3 = some i) (hc : counterpart o1 = some o) :
    paired i = true ∧ Isa.parseInstruction o o2 o3 = some (mirror i) := by
  unfold Isa.parseInstruction at hp
  split at hp
  all_goals first
    | (cases hp; done)
    | (rename_i h
       have h' := congrArg (BitVec.ofNat 8) h
       rw [BitVec.ofNat_toNat, BitVec.setWidth_eq] at h'
       subst h'
       obtain rfl := Option.some.inj hp
       first
         | (obtain rfl := Option.some.inj hc; exact ⟨rfl, rfl⟩)
         | exact absurd (hc.symm.trans (rfl : _ = none)) nofun)

theorem size_mirror (i : InstructionVariant) : size (view (mirror i)).2 = size (view i).2 := by
  cases i <;> rfl

section
variable {r : Regs} {mem mem' : Mem} {i : InstructionVariant} {am : AddrMode}

/-- An effect depends on the memory only in what the instruction looks at. -/
theorem effect_mem (h : ∀ a, .mem a ∈ dataUses r mem i → mem' a = mem a) :
    code r mem' (view i).1 (view i).2 = code r mem (view i).1 (view i).2 ∧
    codeEffect r mem' (view i).1 (view i).2 = codeEffect r mem (view i).1 (view i).2 := by
  obtain ⟨h1, h2, h3, h4⟩ := effect_data (r := r) (r' := r) (mem := mem) (mem' := mem') (i := i) rfl
    fun p hp => by
      cases p with
      | mem a => exact h a hp
      | flag f => cases f <;> rfl
      | _ => rfl
  refine ⟨h1, ?_⟩
  have hv : ∀ p, (∀ a, p ≠ .mem a) → value (codeEffect r mem' (view i).1 (view i).2).regs mem p =
      value (codeEffect r mem (view i).1 (view i).2).regs mem p := by
    intro p hp
    by_cases hs : p ∈ registersSet (view i).2 (view i).1
    · exact h4 p hs _ _
    · rw [effect_keeps r mem' _ _ _ hs, effect_keeps r mem _ _ _ hs]
  revert h2 h3 hv
  generalize codeEffect r mem' (view i).1 (view i).2 = e1
  generalize codeEffect r mem (view i).1 (view i).2 = e2
  obtain ⟨⟨a1, x1, y1, sp1, pc1, ⟨n1, v1, u1, b1, d1, i1, z1, c1⟩⟩, w1⟩ := e1
  obtain ⟨⟨a2, x2, y2, sp2, pc2, ⟨n2, v2, u2, b2, d2, i2, z2, c2⟩⟩, w2⟩ := e2
  intro h2 h3 hv
  have ha := hv .a nofun
  have hx := hv .x nofun
  have hy := hv .y nofun
  have hsp := hv .sp nofun
  have hN := hv (.flag .Negative) nofun
  have hV := hv (.flag .Overflow) nofun
  have hB := hv (.flag .Break) nofun
  have hD := hv (.flag .Decimal) nofun
  have hI := hv (.flag .Interrupt) nofun
  have hZ := hv (.flag .Zero) nofun
  have hC := hv (.flag .Carry) nofun
  have hU := hv .unused nofun
  simp only [value, bitByte_eq] at ha hx hy hsp hN hV hB hD hI hZ hC hU h2 h3
  subst ha hx hy hsp hN hV hB hD hI hZ hC hU h2 h3
  rfl

theorem addrOk_mem {b : Build} (h : ∀ a, .mem a ∈ dataUses r mem i → mem' a = mem a)
    (hok : AddrOk b r mem (view i).2) : AddrOk b r mem' (view i).2 :=
  addrOk_used (r := r) (r' := r) (mem := mem) (fun p hp => by
    cases p with
    | mem a => exact h a (by simp only [dataUses, List.mem_append]; exact .inl (.inl (.inr hp)))
    | flag f => cases f <;> rfl
    | _ => rfl) hok

theorem addrOk_mirror {b : Build} (hp : paired i = true) (hok : AddrOk b r mem (view i).2) :
    AddrOk b (exchanged r) mem (view (mirror i)).2 := by
  have hpl := unindirect_paired hp
  rw [view_mirror hp]
  clear hp
  revert hok hpl
  generalize (view i).2 = am
  intro hok hpl
  cases am <;> first | exact hok | trivial | cases hpl

theorem ea_mirror (hp : unindirect am = true) : ea (exchanged r) mem (mirrorMode am) = ea r mem am := by
  cases am <;> first | rfl | cases hp

theorem operand_mirror (hp : unindirect am = true) :
    operand (exchanged r) mem (mirrorMode am) = operand r mem am := by
  cases am <;> first | rfl | cases hp

theorem nextPc_mirror : nextPc (exchanged r) (mirrorMode am) = nextPc r am := by cases am <;> rfl

theorem cycles_mirror (hp : paired i = true) :
    (code (exchanged r) mem (view (mirror i)).1 (view (mirror i)).2).cycles =
      (code r mem (view i).1 (view i).2).cycles := by
  have hpl := unindirect_paired hp
  rw [view_mirror hp]
  simp only [code]
  have hb : baseCycles (mirrorMn (view i).1) (mirrorMode (view i).2) = baseCycles (view i).1 (view i).2 := by
    clear hpl; revert hp; cases i <;> first | exact fun _ => rfl | (intro h; cases h; done)
  rw [hb]
  congr 1
  revert hpl
  generalize (view i).1 = mn
  generalize (view i).2 = am
  intro hpl
  have hw : writesMem (mirrorMn mn) (mirrorMode am) = writesMem mn am := by
    cases mn <;> cases am <;> rfl
  have ht : ∀ p, taken (mirrorMn mn) p = taken mn p := by cases mn <;> exact fun _ => rfl
  have he := ea_mirror (r := r) (mem := mem) hpl
  cases am <;> simp only [mirrorMode] at hw he <;>
    simp only [codePenalty, mirrorMode, canCross, hw, ht, he, baseAddr] <;> first | rfl | cases hpl

/-- The counterpart does to the exchanged registers what the instruction does, and writes the same. -/
theorem effect_mirror (hp : paired i = true) (hd : DecrementsAlike r (view i).1) :
    codeEffect (exchanged r) mem (view (mirror i)).1 (view (mirror i)).2 =
      ⟨exchanged (codeEffect r mem (view i).1 (view i).2).regs,
        (codeEffect r mem (view i).1 (view i).2).writes⟩ := by
  have hpl := unindirect_paired hp
  have hmn : (view i).1 ≠ .Tsx ∧ (view i).1 ≠ .Txs := by
    clear hpl hd; revert hp; cases i <;> first | (intro h; cases h; done) | exact fun _ => ⟨nofun, nofun⟩
  rw [view_mirror hp]
  clear hp
  revert hpl hmn hd
  generalize (view i).1 = mn
  generalize (view i).2 = am
  intro hd hpl hmn
  have he := ea_mirror (r := r) (mem := mem) hpl
  have hv := operand_mirror (r := r) (mem := mem) hpl
  have hn := nextPc_mirror (r := r) (am := am)
  cases mn
  case Tsx => exact absurd rfl hmn.1
  case Txs => exact absurd rfl hmn.2
  case Dex =>
    simp only [mirrorMn, codeEffect, hn]
    have := hd (.inl rfl)
    simp only [exchanged, this]
  case Dey =>
    simp only [mirrorMn, codeEffect, hn]
    have := hd (.inr rfl)
    simp only [exchanged, this]
  case Rts => simp only [mirrorMn, codeEffect]; cases am <;> first | rfl | cases hpl
  case Rti => simp only [mirrorMn, codeEffect]; cases am <;> first | rfl | cases hpl
  all_goals
    simp only [mirrorMn, codeEffect, he, hv, hn, arithRegs, compareRegs]
    first
      | rfl
      | (cases am <;> first | rfl | cases hpl)

end

end Verif.Mos
