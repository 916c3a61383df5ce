import Verif.Proofs.LiveGenerate
import Verif.Proofs.MosTraffic

/-!
# Instructions that go through a pointer, as trees of bus calls
-/

namespace Verif.Mos

open Verif Verif.Spec.Mos Verif.Spec.Live Verif.Live Verif.Live.Bus

/-- An instruction that goes through a pointer (found by `d`) and its absolute form: the same microcode,
made of the byte read at the address; proof device. -/
def Pointer (b : Build) (cpu : Mos6502 Copy) (i : InstructionVariant) (d : Bus Word) : Prop :=
  ∃ F : Word → Byte → Operations,
    (∀ a v v', (F a v).offset = 2 ∧ (F a v).cycles = (F a v').cycles ∧
      ∀ r : Regs, ((F a v).microcode.foldl regAct r).pc = r.pc) ∧
    ∀ a, ∃ j, view j = ((view i).1, .absolute a) ∧
      ((usesOperand (view i).1 = true ∧
        Live.generate b cpu i = (d >>= fun a => get cpu.address_map a >>= fun v => pure (F a v)) ∧
        Live.generate b cpu j =
          (get cpu.address_map a >>= fun v => pure { F a v with offset := 3, cycles := 4 })) ∨
       (usesOperand (view i).1 = false ∧
        Live.generate b cpu i = (d >>= fun a => pure (F a 0)) ∧
        Live.generate b cpu j = pure { F a 0 with offset := 3, cycles := 4 }))

theorem index_zero (a : Word) : addIndexToAddress a 0 = a := by
  rw [addIndexToAddress_eq, zero_toNat, Nat.add_zero, word_toNat]

theorem get_zero (cpu : Mos6502 Copy) (a : Word) :
    Live.dereferenceAddressToOperand cpu a 0 = (get cpu.address_map a >>= fun v => pure (Operand.new v)) := by
  rw [Live.dereferenceAddressToOperand, index_zero]

theorem sub_ok (b : Build) (o p : Operand) (c : Bool) : Operand.twosComplementSub b o p c =
    .ok (o.twosComplementAdd ((Operand.new (255 - p.unwrap)).add (Operand.new (boolAsU8 c))) c) := by
  rw [Operand.twosComplementSub, subU8_255]
  rfl

theorem pointer_indexed (b : Build) (cpu : Mos6502 Copy) (i : InstructionVariant) (z : Byte)
    (h : (view i).2 = .indexedIndirect z) :
    Pointer b cpu i (Live.dereferenceIndexedIndirectAddress b cpu z cpu.x) := by
  cases i <;> simp only [view, reduceCtorEq, AddrMode.indexedIndirect.injEq] at h
  all_goals subst h
  case AdcXIndexedIndirect =>
    exact ⟨_, fun _ _ _ => ⟨rfl, rfl, fun _ => rfl⟩, fun a => ⟨.AdcAbsolute a, rfl, .inl ⟨rfl, rfl, by
      simp only [Live.generate, Live.adcAbsolute, get_zero]; rfl⟩⟩⟩
  case SbcXIndexedIndirect z =>
    let d (v : Byte) := (Operand.new cpu.acc).twosComplementAdd ((Operand.new (255 - (Operand.new v).unwrap)).add
      (Operand.new (boolAsU8 cpu.ps.carry))) cpu.ps.carry
    refine ⟨fun a v => ⟨2, 6, [
      .SetProgramStatusFlagState .Carry (d v).1.carry, .SetProgramStatusFlagState .Negative (d v).1.negative,
      .SetProgramStatusFlagState .Overflow (d v).2, .SetProgramStatusFlagState .Zero (d v).1.zero,
      .Write8bitRegister .Acc (d v).1.unwrap]⟩, fun _ _ _ => ⟨rfl, rfl, fun _ => rfl⟩, fun a => ⟨.SbcAbsolute a, rfl, .inl ⟨rfl, ?_, ?_⟩⟩⟩
    · simp only [Live.generate, Live.sbcXIndexedIndirect, sub_ok, lift_eq, ok_bind]; rfl
    · simp only [Live.generate, Live.sbcAbsolute, get_zero, sub_ok, lift_eq, ok_bind]; rfl
  case AndXIndexedIndirect =>
    exact ⟨_, fun _ _ _ => ⟨rfl, rfl, fun _ => rfl⟩, fun a => ⟨.AndAbsolute a, rfl, .inl ⟨rfl, rfl, by
      simp only [Live.generate, Live.andAbsolute, get_zero]; rfl⟩⟩⟩
  case EorXIndexedIndirect =>
    exact ⟨_, fun _ _ _ => ⟨rfl, rfl, fun _ => rfl⟩, fun a => ⟨.EorAbsolute a, rfl, .inl ⟨rfl, rfl, by
      simp only [Live.generate, Live.eorAbsolute, get_zero]; rfl⟩⟩⟩
  case OraXIndexedIndirect =>
    exact ⟨_, fun _ _ _ => ⟨rfl, rfl, fun _ => rfl⟩, fun a => ⟨.OraAbsolute a, rfl, .inl ⟨rfl, rfl, by
      simp only [Live.generate, Live.oraAbsolute, get_zero]; rfl⟩⟩⟩
  case CmpXIndexedIndirect z =>
    refine ⟨fun a v => ⟨2, 6, [
      .SetProgramStatusFlagState .Carry (Operand.ge (Operand.new cpu.acc) (Operand.new v)),
      .SetProgramStatusFlagState .Negative (Operand.sub (Operand.new cpu.acc) (Operand.new v)).negative,
      .SetProgramStatusFlagState .Zero (Operand.sub (Operand.new cpu.acc) (Operand.new v)).zero]⟩,
      fun _ _ _ => ⟨rfl, rfl, fun _ => rfl⟩, fun a => ⟨.CmpAbsolute a, rfl, .inl ⟨rfl, ?_, ?_⟩⟩⟩
    · simp only [Live.generate, Live.cmpXIndexedIndirect, get_zero]; rfl
    · simp only [Live.generate, Live.cmpAbsolute, get_zero]; rfl
  case LdaXIndexedIndirect =>
    exact ⟨_, fun _ _ _ => ⟨rfl, rfl, fun _ => rfl⟩, fun a => ⟨.LdaAbsolute a, rfl, .inl ⟨rfl, rfl, by
      simp only [Live.generate, Live.ldaAbsolute]; rfl⟩⟩⟩
  case StaXIndexedIndirect =>
    exact ⟨fun a _ => ⟨2, 6, [.WriteMemory a cpu.acc]⟩, fun _ _ _ => ⟨rfl, rfl, fun _ => rfl⟩, fun a => ⟨.StaAbsolute a, rfl, .inr ⟨rfl, rfl, rfl⟩⟩⟩

theorem pointer_indirect (b : Build) (cpu : Mos6502 Copy) (i : InstructionVariant) (z : Byte)
    (h : (view i).2 = .indirectIndexed z) :
    Pointer b cpu i (Live.dereferenceIndirectIndexedAddress b cpu z cpu.y) := by
  cases i <;> simp only [view, reduceCtorEq, AddrMode.indirectIndexed.injEq] at h
  all_goals subst h
  case AdcIndirectYIndexed =>
    exact ⟨_, fun _ _ _ => ⟨rfl, rfl, fun _ => rfl⟩, fun a => ⟨.AdcAbsolute a, rfl, .inl ⟨rfl, rfl, by
      simp only [Live.generate, Live.adcAbsolute, get_zero]; rfl⟩⟩⟩
  case SbcIndirectYIndexed z =>
    let d (v : Byte) := (Operand.new cpu.acc).twosComplementAdd ((Operand.new (255 - (Operand.new v).unwrap)).add
      (Operand.new (boolAsU8 cpu.ps.carry))) cpu.ps.carry
    refine ⟨fun a v => ⟨2, 5 + usizeFromBool (!(Page.ofU8 z).contains a), [
      .SetProgramStatusFlagState .Carry (d v).1.carry, .SetProgramStatusFlagState .Negative (d v).1.negative,
      .SetProgramStatusFlagState .Overflow (d v).2, .SetProgramStatusFlagState .Zero (d v).1.zero,
      .Write8bitRegister .Acc (d v).1.unwrap]⟩, fun _ _ _ => ⟨rfl, rfl, fun _ => rfl⟩, fun a => ⟨.SbcAbsolute a, rfl, .inl ⟨rfl, ?_, ?_⟩⟩⟩
    · simp only [Live.generate, Live.sbcIndirectYIndexed, sub_ok, lift_eq, ok_bind]; rfl
    · simp only [Live.generate, Live.sbcAbsolute, get_zero, sub_ok, lift_eq, ok_bind]; rfl
  case AndIndirectYIndexed =>
    exact ⟨_, fun _ _ _ => ⟨rfl, rfl, fun _ => rfl⟩, fun a => ⟨.AndAbsolute a, rfl, .inl ⟨rfl, rfl, by
      simp only [Live.generate, Live.andAbsolute, get_zero]; rfl⟩⟩⟩
  case EorIndirectYIndexed =>
    exact ⟨_, fun _ _ _ => ⟨rfl, rfl, fun _ => rfl⟩, fun a => ⟨.EorAbsolute a, rfl, .inl ⟨rfl, rfl, by
      simp only [Live.generate, Live.eorAbsolute, get_zero]; rfl⟩⟩⟩
  case OraIndirectYIndexed =>
    exact ⟨_, fun _ _ _ => ⟨rfl, rfl, fun _ => rfl⟩, fun a => ⟨.OraAbsolute a, rfl, .inl ⟨rfl, rfl, by
      simp only [Live.generate, Live.oraAbsolute, get_zero]; rfl⟩⟩⟩
  case CmpIndirectYIndexed z =>
    refine ⟨fun a v => ⟨2, 5 + usizeFromBool (!(Page.ofU8 z).contains a), [
      .SetProgramStatusFlagState .Carry (Operand.ge (Operand.new cpu.acc) (Operand.new v)),
      .SetProgramStatusFlagState .Negative (Operand.sub (Operand.new cpu.acc) (Operand.new v)).negative,
      .SetProgramStatusFlagState .Zero (Operand.sub (Operand.new cpu.acc) (Operand.new v)).zero]⟩,
      fun _ _ _ => ⟨rfl, rfl, fun _ => rfl⟩, fun a => ⟨.CmpAbsolute a, rfl, .inl ⟨rfl, ?_, ?_⟩⟩⟩
    · simp only [Live.generate, Live.cmpIndirectYIndexed, get_zero]; rfl
    · simp only [Live.generate, Live.cmpAbsolute, get_zero]; rfl
  case LdaIndirectYIndexed =>
    exact ⟨_, fun _ _ _ => ⟨rfl, rfl, fun _ => rfl⟩, fun a => ⟨.LdaAbsolute a, rfl, .inl ⟨rfl, rfl, by
      simp only [Live.generate, Live.ldaAbsolute]; rfl⟩⟩⟩
  case StaIndirectYIndexed =>
    exact ⟨fun a _ => ⟨2, 6, [.WriteMemory a cpu.acc]⟩, fun _ _ _ => ⟨rfl, rfl, fun _ => rfl⟩, fun a => ⟨.StaAbsolute a, rfl, .inr ⟨rfl, rfl, rfl⟩⟩⟩

theorem asked_lift {α : Type} {r : Except Panic α} {l : List Call} {a : α} :
    Asked (liftM r : Bus α) l (.ok a) ↔ l = [] ∧ r = .ok a := by
  rw [lift_eq, asked_done]
  constructor <;> (rintro ⟨h, h'⟩; exact ⟨h, h'.symm⟩)

/-- Calls of a sequence that returns. -/
theorem asked_bind_ok {α β : Type} {x : Bus α} {f : α → Bus β} {l : List Call} {a : β} :
    Asked (x >>= f) l (.ok a) ↔
      ∃ l₁ l₂ y, l = l₁ ++ l₂ ∧ Asked x l₁ (.ok y) ∧ Asked (f y) l₂ (.ok a) := by
  rw [asked_bind]
  constructor
  · rintro (h | ⟨e, h, _⟩)
    · exact h
    · cases h
  · exact .inl

/-- What finding the pointer reads. -/
theorem asked_indexed {b : Build} {cpu : Mos6502 Copy} {z i : Byte} {l : List Call} {a : Word}
    (h : Asked (Live.dereferenceIndexedIndirectAddress b cpu z i) l (.ok a)) :
    ∃ p p' lo hi, l = readCalls cpu.address_map [(p, lo), (p', hi)] ∧
      a = word (lo.toNat + 256 * hi.toNat) := by
  simp only [Live.dereferenceIndexedIndirectAddress, Bus.get, read_bind, pure_eq, ok_bind] at h
  obtain ⟨lo, l₁, rfl, h1⟩ := asked_read.1 h
  rcases asked_bind_ok.1 h1 with ⟨l₂, l₃, x, rfl, h0, h2⟩
  obtain ⟨rfl, -⟩ := asked_lift.1 h0
  obtain ⟨hi, l₄, rfl, h3⟩ := asked_read.1 h2
  obtain ⟨rfl, h4⟩ := asked_done.1 h3
  cases h4
  exact ⟨_, _, lo, hi, rfl, u16FromLeBytes_eq lo hi⟩

theorem asked_indirect {b : Build} {cpu : Mos6502 Copy} {z i : Byte} {l : List Call} {a : Word}
    (h : Asked (Live.dereferenceIndirectIndexedAddress b cpu z i) l (.ok a)) :
    ∃ p p' lo hi, l = readCalls cpu.address_map [(p, lo), (p', hi)] ∧
      a = word (lo.toNat + 256 * hi.toNat + i.toNat) := by
  simp only [Live.dereferenceIndirectIndexedAddress, Bus.get, read_bind, pure_eq, ok_bind] at h
  obtain ⟨lo, l₁, rfl, h1⟩ := asked_read.1 h
  obtain ⟨hi, l₄, rfl, h2⟩ := asked_read.1 h1
  obtain ⟨rfl, h3⟩ := asked_lift.1 h2
  refine ⟨_, _, lo, hi, rfl, ?_⟩
  rw [addU16_val h3, u16FromLeBytes_eq, u16OfU8_eq]
  apply BitVec.eq_of_toNat_eq
  rw [BitVec.toNat_add, toNat_word, toNat_word, toNat_word]
  omega

/-- The registers after an instruction with this microcode, for two lengths. -/
theorem fold_ops (ops : Operations) (r : Regs) (h : (ops.microcode.foldl regAct r).pc = r.pc) :
    (microcodeOf ops).foldl regAct r =
      { ops.microcode.foldl regAct r with pc := word (r.pc.toNat + ops.offset) } := by
  rw [microcodeOf, List.foldl_append]
  show ({ ops.microcode.foldl regAct r with pc := _ + _ } : Regs) = _
  have e : r.pc + word ops.offset = word (r.pc.toNat + ops.offset) := by
    apply BitVec.eq_of_toNat_eq
    rw [BitVec.toNat_add, toNat_word, toNat_word]
    omega
  rw [h, e]

theorem through {b : Build} {cpu : Mos6502 Copy} {i : InstructionVariant} {d : Bus Word}
    {p p' : Word × Byte} {rs : List (Word × Byte)} {ops : Operations} {a : Word}
    (hp : Pointer b cpu i d)
    (hd : ∀ l a, Asked d l (.ok a) → l.length = 2)
    (hda : ∀ a', Asked d (readCalls cpu.address_map [p, p']) (.ok a') → a' = a)
    (h : Asked (Live.generate b cpu i) (readCalls cpu.address_map (p :: p' :: rs)) (.ok ops)) :
    ((microcodeOf ops).foldl regAct (regs cpu)).pc = word ((regs cpu).pc.toNat + 2) ∧
    (∃ j, view j = ((view i).1, .absolute a) ∧ ∀ (B : Type) [Addressable B] (bus bus' : B),
      (∀ v ∈ rs.map Prod.snd, Addressable.read b bus a = .ok v) → writeAll b bus (storesOf ops) = .ok bus' →
      ∃ ops', j.generate b (withRegs (regs cpu) bus) = .ok ops' ∧ storesOf ops' = storesOf ops ∧
        executeAll b (microcodeOf ops') (withRegs (regs cpu) bus) =
          .ok (withRegs { (microcodeOf ops).foldl regAct (regs cpu) with
            pc := word ((regs cpu).pc.toNat + 3) } bus')) ∧
    ∀ (B : Type) [Addressable B] (bus : B) (ops' : Operations),
      (∀ x ∈ [p, p'], Addressable.read b bus x.1 = .ok x.2) →
      i.generate b (withRegs (regs cpu) bus) = .ok ops' → ops'.cycles = ops.cycles := by
  obtain ⟨F, hF, hj⟩ := hp
  obtain ⟨j, hv, hj⟩ := hj a
  -- the byte the microcode is made of
  have key : ∃ v, ops = F a v ∧ Asked d (readCalls cpu.address_map [p, p']) (.ok a) ∧
      (∀ (B : Type) [Addressable B] (bus : B), (∀ v ∈ rs.map Prod.snd, Addressable.read b bus a = .ok v) →
        j.generate b (withRegs (regs cpu) bus) = .ok { F a v with offset := 3, cycles := 4 }) ∧
      (∀ (B : Type) [Addressable B] (bus : B) (ops' : Operations),
        (∀ x ∈ [p, p'], Addressable.read b bus x.1 = .ok x.2) →
        i.generate b (withRegs (regs cpu) bus) = .ok ops' → ∃ v', ops' = F a v') := by
    rcases hj with ⟨hu, hi, hjj⟩ | ⟨hu, hi, hjj⟩
    · rw [hi] at h
      rcases asked_bind_ok.1 h with ⟨l₁, l₂, a', hl, h0, h1⟩
      have hlen := hd _ _ h0
      obtain ⟨rfl, rfl⟩ : l₁ = readCalls cpu.address_map [p, p'] ∧ l₂ = readCalls cpu.address_map rs := by
        have : readCalls cpu.address_map [p, p'] ++ readCalls cpu.address_map rs = l₁ ++ l₂ := hl
        exact (List.append_inj this (by rw [hlen]; rfl)).imp Eq.symm Eq.symm
      obtain rfl := hda _ h0
      simp only [Bus.get, read_bind, pure_eq, ok_bind] at h1
      obtain ⟨v, l₃, hl3, h1⟩ := asked_read.1 h1
      obtain ⟨rfl, h1⟩ := asked_done.1 h1
      cases h1
      obtain ⟨x, rfl, hx⟩ : ∃ x, rs = [x] ∧ x = (a', v) := by
        match rs, hl3 with
        | [x], hl3 => simp only [readCalls, List.map_cons, List.map_nil, List.cons.injEq, Call.read.injEq] at hl3
                      exact ⟨x, rfl, Prod.ext hl3.1.2.1 hl3.1.2.2⟩
      subst hx
      refine ⟨v, rfl, h0, fun B _ bus hr => ?_, fun B _ bus ops' hr hg => ?_⟩
      · rw [← interp_generate (withRegs (regs cpu) bus) cpu.address_map j]
        show interp b bus (Live.generate b cpu j) = _
        rw [hjj, interp_bind, interp_get, hr v (by simp)]
        rfl
      · rw [← interp_generate (withRegs (regs cpu) bus) cpu.address_map i] at hg
        change interp b bus (Live.generate b cpu i) = _ at hg
        rw [hi, interp_bind, interp_asked h0 hr] at hg
        change interp b bus _ = _ at hg
        rw [interp_bind, interp_get] at hg
        cases hb : Addressable.read b bus a' with
        | error e => rw [hb] at hg; cases hg
        | ok v' => rw [hb] at hg; cases hg; exact ⟨v', rfl⟩
    · rw [hi] at h
      rcases asked_bind_ok.1 h with ⟨l₁, l₂, a', hl, h0, h1⟩
      have hlen := hd _ _ h0
      obtain ⟨rfl, rfl⟩ : l₁ = readCalls cpu.address_map [p, p'] ∧ l₂ = readCalls cpu.address_map rs := by
        have : readCalls cpu.address_map [p, p'] ++ readCalls cpu.address_map rs = l₁ ++ l₂ := hl
        exact (List.append_inj this (by rw [hlen]; rfl)).imp Eq.symm Eq.symm
      obtain rfl := hda _ h0
      obtain ⟨hl3, h1⟩ := asked_done.1 h1
      cases h1
      refine ⟨0, rfl, h0, fun B _ bus hr => ?_, fun B _ bus ops' hr hg => ?_⟩
      · rw [← interp_generate (withRegs (regs cpu) bus) cpu.address_map j]
        show interp b bus (Live.generate b cpu j) = _
        rw [hjj]
        rfl
      · rw [← interp_generate (withRegs (regs cpu) bus) cpu.address_map i] at hg
        change interp b bus (Live.generate b cpu i) = _ at hg
        rw [hi, interp_bind, interp_asked h0 hr] at hg
        cases hg
        exact ⟨0, rfl⟩
  obtain ⟨v, rfl, -, k1, k2⟩ := key
  obtain ⟨o1, -, o3⟩ := hF a v v
  have f1 := fold_ops (F a v) (regs cpu) (o3 _)
  refine ⟨by rw [f1, o1], ⟨j, hv, fun B _ bus bus' hr hw => ⟨_, k1 B bus hr, ?_, ?_⟩⟩, ?_⟩
  · simp [storesOf, microcodeOf, stores_append, stores]
  · rw [exec_split]
    have : stores (microcodeOf { F a v with offset := 3, cycles := 4 }) = storesOf (F a v) := by
      simp [storesOf, microcodeOf, stores_append, stores]
    rw [this]
    show (writeAll b bus (storesOf (F a v))).map _ = _
    rw [hw]
    show Except.ok _ = _
    rw [show regs (withRegs (regs cpu) bus) = regs cpu from rfl,
      fold_ops { F a v with offset := 3, cycles := 4 } (regs cpu) (o3 _), f1]
  · intro B _ bus ops' hr hg
    obtain ⟨v', rfl⟩ := k2 B bus ops' hr hg
    exact (hF a v' v).2.1

theorem through_pointer {b : Build} {cpu : Mos6502 Copy} {i : InstructionVariant} {q1 q2 q3 : Word × Byte}
    {rs : List (Word × Byte)} {ops : Operations}
    (h : Asked (Live.generate b cpu i) (readCalls cpu.address_map rs) (.ok ops)) :
    ThroughPointer b (regs cpu) i (q1 :: q2 :: q3 :: rs) ops ((microcodeOf ops).foldl regAct (regs cpu)) := by
  intro lo hi vs a hvs ha
  obtain ⟨p, p', rs', rfl, rfl, rfl, rfl⟩ : ∃ p p' rs', rs = p :: p' :: rs' ∧ lo = p.2 ∧ hi = p'.2 ∧
      vs = rs'.map Prod.snd := by
    match rs, hvs with
    | p :: p' :: rs', hvs =>
      simp only [List.drop_succ_cons, List.drop_zero, List.map_cons, List.cons.injEq] at hvs
      exact ⟨p, p', rs', rfl, hvs.1.symm, hvs.2.1.symm, hvs.2.2.symm⟩
  cases hm : (view i).2 with
  | indexedIndirect z =>
    rw [hm] at ha
    cases ha
    refine through (pointer_indexed b cpu i z hm) ?_ ?_ h
    · intro l a h0
      obtain ⟨_, _, _, _, rfl, -⟩ := asked_indexed h0
      rfl
    · intro a' h0
      obtain ⟨_, _, _, _, e, rfl⟩ := asked_indexed h0
      simp only [readCalls, List.map_cons, List.map_nil, List.cons.injEq, Call.read.injEq] at e
      rw [e.1.2.2, e.2.1.2.2]
  | indirectIndexed z =>
    rw [hm] at ha
    cases ha
    refine through (pointer_indirect b cpu i z hm) ?_ ?_ h
    · intro l a h0
      obtain ⟨_, _, _, _, rfl, -⟩ := asked_indirect h0
      rfl
    · intro a' h0
      obtain ⟨_, _, _, _, e, rfl⟩ := asked_indirect h0
      simp only [readCalls, List.map_cons, List.map_nil, List.cons.injEq, Call.read.injEq] at e
      rw [e.1.2.2, e.2.1.2.2]
      rfl
  | _ => rw [hm] at ha; cases ha

/-! ## Whether a memory holds what was read -/

theorem mem_of_nodup (rs : List (Word × Byte)) (h : (rs.map Prod.fst).Nodup) :
    ∃ mem : Mem, ∀ p ∈ rs, mem p.1 = p.2 := by
  induction rs with
  | nil => exact ⟨fun _ => 0, nofun⟩
  | cons q rs ih =>
    rw [List.map_cons, List.nodup_cons] at h
    obtain ⟨mem, hm⟩ := ih h.2
    refine ⟨fun a => if a = q.1 then q.2 else mem a, fun p hp => ?_⟩
    rcases List.mem_cons.1 hp with rfl | hp
    · exact if_pos rfl
    · have : p.1 ≠ q.1 := fun e => h.1 (e ▸ List.mem_map_of_mem hp)
      show (if p.1 = q.1 then q.2 else mem p.1) = p.2
      rw [if_neg this, hm p hp]

/-- The addresses of complete reads that do not depend on the answers. -/
theorem complete_fixed {ask : List Byte → Option Word} {rs : List (Word × Byte)} {L : List Word}
    (h : Complete ask rs) (ha : ∀ vs, ask vs = L[vs.length]?) : rs.map Prod.fst = L := by
  obtain ⟨h1, h2⟩ := h
  have hlen : L.length ≤ rs.length := by
    rw [ha, List.length_map] at h2
    exact List.getElem?_eq_none_iff.1 h2
  apply List.ext_getElem?
  intro k
  by_cases hk : k < rs.length
  · have := h1 k hk
    rw [ha, List.length_map, List.length_take, Nat.min_eq_left (by omega)] at this
    rw [this, List.getElem?_map, List.getElem?_eq_getElem hk]
    rfl
  · rw [List.getElem?_eq_none_iff.2 (by rw [List.length_map]; omega), List.getElem?_eq_none_iff.2 (by omega)]

theorem direct_fixed (mn : Mnemonic) (a : Word) (vs : List Byte) :
    direct mn a vs = (if usesOperand mn then [a] else [])[vs.length]? := by
  cases h : usesOperand mn <;> cases vs <;> simp [direct, h]

theorem word_ne {x y : Nat} (hx : x < 65536) (hy : y < 65536) (h : x ≠ y) : word x ≠ word y := by
  intro e
  have := congrArg BitVec.toNat e
  rw [toNat_word, toNat_word] at this
  omega

/-- Complete reads through a pointer. -/
theorem pointer_reads {ask : List Byte → Option Word} {rs : List (Word × Byte)} {p p' : Word} {mn : Mnemonic}
    {f : Byte → Byte → Word} (h : Complete ask rs) (h0 : ask [] = some p) (h1 : ∀ lo, ask [lo] = some p')
    (h2 : ∀ lo hi vs, ask (lo :: hi :: vs) = direct mn (f lo hi) vs) (hp : p ≠ p') :
    (∃ mem : Mem, ∀ q ∈ rs, mem q.1 = q.2) ∨ ∃ lo hi v, rs.map Prod.snd = [lo, hi, v] := by
  obtain ⟨k1, k2⟩ := h
  match rs, k1, k2 with
  | [], _, k2 => rw [List.map_nil, h0] at k2; cases k2
  | [q], _, k2 => rw [List.map_cons, List.map_nil, h1] at k2; cases k2
  | [q, q'], k1, _ =>
    refine .inl (mem_of_nodup _ ?_)
    have e0 := k1 0 (by simp)
    have e1 := k1 1 (by simp)
    simp only [List.take_zero, List.map_nil, h0, Option.some.injEq, List.getElem_cons_zero] at e0
    simp only [List.take_succ_cons, List.take_zero, List.map_cons, List.map_nil, h1, Option.some.injEq,
      List.getElem_cons_succ, List.getElem_cons_zero] at e1
    simp [← e0, ← e1, hp]
  | [q, q', q''], _, _ => exact .inr ⟨_, _, _, rfl⟩
  | q :: q' :: q'' :: x :: rs, k1, _ =>
    have e3 := k1 3 (by simp)
    simp [h2, direct] at e3

theorem stack_apart (x : Byte) {k l : Nat} (h : k % 256 ≠ l % 256) :
    stack (x.toNat + k) ≠ stack (x.toNat + l) := by
  unfold stack
  exact word_ne (by omega) (by omega) (by omega)

/-- Operations that read the stack or a vector. -/
def readsFixed : Mnemonic → Bool
  | .Pla | .Plp | .Rts | .Rti | .Brk => true
  | _ => false

theorem fixed_reads {r : Regs} {mn : Mnemonic} {am : AddrMode} {rs : List (Word × Byte)}
    (hs : readsFixed mn = true) (h : Complete (nextRead r mn am) rs) : (rs.map Prod.fst).Nodup := by
  cases mn <;> first | (exact absurd hs (by decide)) | skip
  case Pla => rw [complete_fixed h (L := [stack (r.sp.toNat + 1)]) fun _ => rfl]; simp
  case Plp => rw [complete_fixed h (L := [stack (r.sp.toNat + 1)]) fun _ => rfl]; simp
  case Rts =>
    rw [complete_fixed h (L := [stack (r.sp.toNat + 1), stack (r.sp.toNat + 2)]) fun _ => rfl]
    simp [stack_apart r.sp (k := 1) (l := 2) (by decide)]
  case Rti =>
    rw [complete_fixed h (L := [stack (r.sp.toNat + 1), stack (r.sp.toNat + 2), stack (r.sp.toNat + 3)])
      fun _ => rfl]
    simp [stack_apart r.sp (k := 1) (l := 2) (by decide), stack_apart r.sp (k := 1) (l := 3) (by decide),
      stack_apart r.sp (k := 2) (l := 3) (by decide)]
  case Brk => rw [complete_fixed h (L := [word 0xfffe, word 0xffff]) fun _ => rfl]; decide

theorem next_mode {r : Regs} {mn : Mnemonic} (hs : readsFixed mn = false) (am : AddrMode) (vs : List Byte) :
    nextRead r mn am vs =
    match am with
    | .zeroPage z => direct mn (word z.toNat) vs
    | .zeroPageX z => direct mn (word ((z.toNat + r.x.toNat) % 256)) vs
    | .zeroPageY z => direct mn (word ((z.toNat + r.y.toNat) % 256)) vs
    | .absolute w => direct mn w vs
    | .absoluteX w => direct mn (word (w.toNat + r.x.toNat)) vs
    | .absoluteY w => direct mn (word (w.toNat + r.y.toNat)) vs
    | .indirect w => [w, word (w.toNat + 1)][vs.length]?
    | .indexedIndirect z =>
      match vs with
      | [] => some (word ((z.toNat + r.x.toNat) % 256))
      | [_] => some (word ((z.toNat + r.x.toNat + 1) % 256))
      | lo :: hi :: vs => direct mn (word (lo.toNat + 256 * hi.toNat)) vs
    | .indirectIndexed z =>
      match vs with
      | [] => some (word z.toNat)
      | [_] => some (word ((z.toNat + 1) % 256))
      | lo :: hi :: vs => direct mn (word (lo.toNat + 256 * hi.toNat + r.y.toNat)) vs
    | .implied | .accumulator | .immediate _ | .relative _ => none := by
  cases mn <;> first | (exact absurd hs (by decide)) | (cases am <;> rfl)

theorem reads_consistent {r : Regs} {mn : Mnemonic} {am : AddrMode} {rs : List (Word × Byte)}
    (h : Complete (nextRead r mn am) rs) :
    (∃ mem : Mem, ∀ p ∈ rs, mem p.1 = p.2) ∨
    ∃ lo hi v a, rs.map Prod.snd = [lo, hi, v] ∧ pointed r am lo hi = some a := by
  cases hs : readsFixed mn with
  | true => exact .inl (mem_of_nodup _ (fixed_reads hs h))
  | false =>
    have hn := next_mode (r := r) hs am
    have one (a : Word) (ha : ∀ vs, nextRead r mn am vs = direct mn a vs) :
        ∃ mem : Mem, ∀ p ∈ rs, mem p.1 = p.2 := by
      apply mem_of_nodup
      rw [complete_fixed h (L := if usesOperand mn then [a] else []) fun vs => by rw [ha, direct_fixed]]
      split <;> simp
    have none' (ha : ∀ vs, nextRead r mn am vs = none) : ∃ mem : Mem, ∀ p ∈ rs, mem p.1 = p.2 := by
      apply mem_of_nodup
      rw [complete_fixed h (L := []) fun vs => by rw [ha]; rfl]
      simp
    cases am with
    | zeroPage z => exact .inl (one _ hn)
    | zeroPageX z => exact .inl (one _ hn)
    | zeroPageY z => exact .inl (one _ hn)
    | absolute w => exact .inl (one _ hn)
    | absoluteX w => exact .inl (one _ hn)
    | absoluteY w => exact .inl (one _ hn)
    | implied => exact .inl (none' hn)
    | accumulator => exact .inl (none' hn)
    | immediate v => exact .inl (none' hn)
    | relative d => exact .inl (none' hn)
    | indirect w =>
      refine .inl (mem_of_nodup _ ?_)
      rw [complete_fixed h (L := [w, word (w.toNat + 1)]) hn]
      have : w ≠ word (w.toNat + 1) := by
        intro e
        have := congrArg BitVec.toNat e
        rw [toNat_word] at this
        have := w.isLt
        omega
      simp [this]
    | indexedIndirect z =>
      rcases pointer_reads (f := fun lo hi => word (lo.toNat + 256 * hi.toNat)) h (hn []) (fun lo => hn [lo])
        (fun lo hi vs => hn (lo :: hi :: vs)) (word_ne (by omega) (by omega) (by omega)) with h | ⟨lo, hi, v, h⟩
      · exact .inl h
      · exact .inr ⟨lo, hi, v, _, h, rfl⟩
    | indirectIndexed z =>
      rcases pointer_reads (f := fun lo hi => word (lo.toNat + 256 * hi.toNat + r.y.toNat)) h (hn [])
        (fun lo => hn [lo]) (fun lo hi vs => hn (lo :: hi :: vs))
        (word_ne (by omega) (by omega) (by omega)) with h | ⟨lo, hi, v, h⟩
      · exact .inl h
      · exact .inr ⟨lo, hi, v, _, h, rfl⟩

end Verif.Mos
