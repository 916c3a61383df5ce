import Verif.Spec.Relocate
import Verif.Props.Mos.Frame

/-!
# One instruction at two places
-/

namespace Verif.Mos

open Verif Verif.Spec.Mos Verif.Props

/-- The mnemonics that use the byte at the effective address. -/
def readsByte : Mnemonic → Bool
  | .Adc | .Sbc | .And | .Ora | .Eor | .Bit | .Asl | .Lsr | .Rol | .Ror | .Cmp | .Cpx | .Cpy | .Dec | .Inc
  | .Lda | .Ldx | .Ldy => true
  | _ => false

theorem readsByte_mode (i : InstructionVariant) (h : readsByte (view i).1 = true) :
    (view i).2 ≠ .implied ∧ ∀ z, (view i).2 ≠ .relative z := by
  cases i <;> simp_all [view, readsByte]

theorem nextPc_moved (d : Word) (r : Regs) (am : AddrMode) :
    nextPc (movedRegs d r) am = nextPc r am + d := by
  apply BitVec.eq_of_toNat_eq
  simp only [nextPc, movedRegs, word, BitVec.toNat_ofNat, BitVec.toNat_add]
  omega

theorem codeTarget_moved (d pc : Word) (z : Byte) : codeTarget (pc + d) z = codeTarget pc z + d := by
  unfold codeTarget
  ac_rfl

theorem branchEffect_moved (d : Word) (r : Regs) (am : AddrMode) (t : Bool) :
    branchEffect (movedRegs d r) am t =
      ⟨movedRegs d (branchEffect r am t).regs, (branchEffect r am t).writes⟩ := by
  cases am with
  | relative z =>
    have hp := nextPc_moved d r (.relative z)
    cases t
    · simp only [branchEffect, hp, Bool.false_eq_true, if_false]; rfl
    · simp only [branchEffect, if_true]
      rw [show (movedRegs d r).pc = r.pc + d from rfl, codeTarget_moved]; rfl
  | _ => rfl

theorem stack_succ (x : Byte) : stack (x + 1).toNat = stack (x.toNat + 1) := by
  have := x.isLt
  have h : (1 : Byte).toNat = 1 := rfl
  simp only [stack, BitVec.toNat_add, h]
  congr 1
  omega

section
variable {d : Word} {r : Regs} {mem mem' : Mem} {i : InstructionVariant}

theorem ea_moved (hf : positionFree (view i).1 = true)
    (h : ∀ a ∈ dataAddresses r mem (view i).1 (view i).2, mem' a = mem a) :
    ea (movedRegs d r) mem' (view i).2 = ea r mem (view i).2 := by
  revert hf h
  cases i <;> simp +contextual [view, positionFree, dataAddresses, ea, movedRegs, le]

theorem operand_moved (hf : positionFree (view i).1 = true)
    (h : ∀ a ∈ dataAddresses r mem (view i).1 (view i).2, mem' a = mem a)
    (hr : readsByte (view i).1 = true) :
    operand (movedRegs d r) mem' (view i).2 = operand r mem (view i).2 := by
  have he := ea_moved (d := d) hf h
  revert hf h hr he
  cases i <;> simp +contextual only [view, positionFree, dataAddresses, ea, movedRegs, operand, readsByte,
    List.mem_cons, List.not_mem_nil, or_false, forall_eq_or_imp, forall_eq,
    Bool.false_eq_true, false_implies, implies_true]

theorem effect_moved (hf : positionFree (view i).1 = true)
    (h : ∀ a ∈ dataAddresses r mem (view i).1 (view i).2, mem' a = mem a) :
    codeEffect (movedRegs d r) mem' (view i).1 (view i).2 =
      ⟨movedRegs d (codeEffect r mem (view i).1 (view i).2).regs,
        (codeEffect r mem (view i).1 (view i).2).writes⟩ := by
  have he := ea_moved (d := d) hf h
  have hv := operand_moved (d := d) hf h
  have hm := readsByte_mode i
  revert hf h he hv hm
  generalize (view i).1 = mn
  generalize (view i).2 = am
  intro hf h he hv hm
  have hp := nextPc_moved d r am
  cases mn <;> simp only [positionFree, Bool.false_eq_true] at hf <;>
    simp only [readsByte, Bool.false_eq_true, false_implies, forall_const] at hv <;>
    first
    | (simp only [codeEffect, hp, he, hv, arithRegs, compareRegs]; rfl)
    | (simp only [codeEffect, hp, he, hv, shiftEffect]; cases am <;> rfl)
    | exact branchEffect_moved d r am _
    | (have e := h (stack (r.sp.toNat + 1)) (by cases am <;> simp [dataAddresses])
       rw [← stack_succ] at e
       simp only [codeEffect, hp]
       show (⟨_, _⟩ : Effect) = ⟨_, _⟩
       simp only [movedRegs, e])

theorem addrOk_moved {b : Build} (hf : positionFree (view i).1 = true)
    (h : ∀ a ∈ dataAddresses r mem (view i).1 (view i).2, mem' a = mem a)
    (hok : AddrOk b r mem (view i).2) : AddrOk b (movedRegs d r) mem' (view i).2 := by
  revert hf h hok
  cases i <;>
    simp +contextual only [view, positionFree, dataAddresses, AddrOk, movedRegs, baseAddr, le,
      List.mem_cons, List.not_mem_nil, or_false, forall_eq_or_imp, forall_eq, Bool.false_eq_true,
      false_implies, implies_true]

theorem writable_data (hf : positionFree (view i).1 = true) {a : Word}
    (ha : a ∈ writable r mem (view i).1 (view i).2) : a ∈ dataAddresses r mem (view i).1 (view i).2 := by
  revert hf ha
  cases i <;>
    simp +contextual [view, positionFree, dataAddresses, writable, writesMem, isStore, isRmw]

theorem relocated_agree {code : Word → Prop} (hrel : Relocated d code mem mem')
    (h : ∀ a ∈ dataAddresses r mem (view i).1 (view i).2, ¬code a ∧ ¬code (a - d)) :
    ∀ a ∈ dataAddresses r mem (view i).1 (view i).2, mem' a = mem a :=
  fun a ha => hrel.rest a (h a ha).1 (h a ha).2

theorem relocated_upd {code : Word → Prop} (hrel : Relocated d code mem mem') {a : Word}
    (h1 : ¬code a) (h2 : ¬code (a - d)) (v : Byte) : Relocated d code (upd mem a v) (upd mem' a v) where
  moved x hx := by
    unfold upd
    rw [if_neg, if_neg, hrel.moved x hx]
    · rintro rfl; exact h1 hx
    · rintro rfl; rw [BitVec.add_sub_cancel] at h2; exact h2 hx
  rest x hx hx' := by
    unfold upd
    rw [hrel.rest x hx hx']

theorem relocated_writes {code : Word → Prop} (ws : List (Word × Byte)) :
    ∀ {mem mem' : Mem}, Relocated d code mem mem' → (∀ w ∈ ws, ¬code w.1 ∧ ¬code (w.1 - d)) →
    Relocated d code (ws.foldl (fun m w => upd m w.1 w.2) mem) (ws.foldl (fun m w => upd m w.1 w.2) mem') := by
  induction ws with
  | nil => intro _ _ h _; exact h
  | cons w ws ih =>
    intro mem mem' h hw
    exact ih (relocated_upd h (hw w (by simp)).1 (hw w (by simp)).2 _) fun x hx => hw x (by simp [hx])

/-- The bytes of an instruction that the decoder looks at decide. -/
theorem parse_own {o1 o2 o3 p1 p2 p3 : Byte} (hp : Isa.parseInstruction o1 o2 o3 = some i)
    (h1 : p1 = o1) (h2 : 2 ≤ size (view i).2 → p2 = o2) (h3 : 3 ≤ size (view i).2 → p3 = o3) :
    Isa.parseInstruction p1 p2 p3 = some i := by
  subst h1
  obtain ⟨q1, q2, q3, q4⟩ := C15_length _ _ _ hp
  rcases (by omega : size (view i).2 = 1 ∨ size (view i).2 = 2 ∨ size (view i).2 = 3) with e | e | e
  · exact q1 e _ _
  · rw [h2 (by omega)]; exact q2 e _
  · rw [h2 (by omega), h3 (by omega)]; exact hp

theorem baseAddr_moved (hf : positionFree (view i).1 = true)
    (h : ∀ a ∈ dataAddresses r mem (view i).1 (view i).2, mem' a = mem a) :
    baseAddr mem' (view i).2 = baseAddr mem (view i).2 := by
  revert hf h
  cases i <;>
    simp +contextual only [view, positionFree, dataAddresses, baseAddr, le,
      List.mem_cons, List.not_mem_nil, or_false, forall_eq_or_imp, forall_eq, Bool.false_eq_true,
      false_implies, implies_true]

theorem crosses_le (x y : Nat) : crosses x y ≤ 1 := by unfold crosses; split <;> omega

theorem penalty_moved (hf : positionFree (view i).1 = true)
    (h : ∀ a ∈ dataAddresses r mem (view i).1 (view i).2, mem' a = mem a) :
    let n := baseCycles (view i).1 (view i).2 + codePenalty r mem (view i).1 (view i).2
    let n' := baseCycles (view i).1 (view i).2 + codePenalty (movedRegs d r) mem' (view i).1 (view i).2
    (taken (view i).1 r.p ≠ some true → n' = n) ∧ n' ≤ n + 1 ∧ n ≤ n' + 1 := by
  intro n n'
  have he := ea_moved (d := d) hf h
  cases hr : (view i).2 with
  | relative z =>
    have hc : ∀ pc : Word, crosses (codeTarget pc z).toNat pc.toNat ≤ 1 := fun pc => crosses_le _ _
    have h1 := hc r.pc
    have h2 := hc (movedRegs d r).pc
    have e1 : codePenalty r mem (view i).1 (.relative z) =
      if taken (view i).1 r.p = some true then 1 + crosses (codeTarget r.pc z).toNat r.pc.toNat else 0 := rfl
    have e2 : codePenalty (movedRegs d r) mem' (view i).1 (.relative z) =
      if taken (view i).1 r.p = some true then
        1 + crosses (codeTarget (movedRegs d r).pc z).toNat (movedRegs d r).pc.toNat else 0 := rfl
    simp only [n, n', hr, e1, e2]
    by_cases ht : taken (view i).1 r.p = some true
    · rw [if_pos ht, if_pos ht]
      exact ⟨fun hn => absurd ht hn, by omega, by omega⟩
    · rw [if_neg ht, if_neg ht]
      exact ⟨fun _ => rfl, by omega, by omega⟩
  | _ =>
    have hb := baseAddr_moved hf h
    rw [hr] at he hb
    have : n' = n := by simp only [n, n', hr, codePenalty, he, hb]
    rw [this]
    exact ⟨fun _ => rfl, by omega, by omega⟩

theorem crosses_aligned (h : d.toNat % 256 = 0) (x y : Word) :
    crosses (x + d).toNat (y + d).toNat = crosses x.toNat y.toNat := by
  have := x.isLt
  have := y.isLt
  have := d.isLt
  have e : ((x + d).toNat / 256 = (y + d).toNat / 256) = (x.toNat / 256 = y.toNat / 256) := by
    simp only [BitVec.toNat_add]
    apply propext
    omega
  simp only [crosses, e]

/-- Moving by whole pages keeps the cycles. -/
theorem penalty_aligned (hd : d.toNat % 256 = 0) (hf : positionFree (view i).1 = true)
    (h : ∀ a ∈ dataAddresses r mem (view i).1 (view i).2, mem' a = mem a) :
    codePenalty (movedRegs d r) mem' (view i).1 (view i).2 = codePenalty r mem (view i).1 (view i).2 := by
  cases hr : (view i).2 with
  | relative z =>
    show (if taken (view i).1 r.p = some true then
        1 + crosses (codeTarget (r.pc + d) z).toNat (r.pc + d).toNat else 0) =
      if taken (view i).1 r.p = some true then 1 + crosses (codeTarget r.pc z).toNat r.pc.toNat else 0
    rw [codeTarget_moved, crosses_aligned hd]
  | _ =>
    have he := ea_moved (d := d) hf h
    have hb := baseAddr_moved hf h
    rw [hr] at he hb
    simp only [codePenalty, he, hb]

end

end Verif.Mos
