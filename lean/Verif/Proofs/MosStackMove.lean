import Verif.Spec.MosStackMove
import Verif.Proofs.MosLink

/-!
# One instruction with the stack elsewhere
-/

namespace Verif.Mos

open Verif Verif.Spec.Mos Verif.Props

theorem turned_stack (k : Byte) (n : Nat) : turned k (stack n) = stack (n + k.toNat) := by
  have h : (stack n).toNat = 256 + n % 256 := by
    simp only [stack, word, BitVec.toNat_ofNat]; omega
  unfold turned
  rw [if_pos (by omega), h]
  unfold stack
  congr 1
  omega

theorem turned_free {k : Byte} {a : Word} (h : ¬InStack a) : turned k a = a := if_neg h

theorem turned_inj {k : Byte} {a a' : Word} (h : turned k a = turned k a') : a = a' := by
  have h := congrArg BitVec.toNat h
  apply BitVec.eq_of_toNat_eq
  unfold turned at h
  have := k.isLt
  split at h <;> split at h <;> try simp only [stack, word, BitVec.toNat_ofNat] at h
  all_goals omega

theorem stack_moved (k x : Byte) : stack (x + k).toNat = turned k (stack x.toNat) := by
  rw [turned_stack, stack_add]

section
variable {k : Byte} {r : Regs} {mem mem' : Mem} {i : InstructionVariant}

theorem stackMoved_free (h : StackMoved k mem mem') {a : Word} (ha : ¬InStack a) : mem' a = mem a := by
  have := h a
  rwa [turned_free ha] at this

theorem stackMoved_stack (h : StackMoved k mem mem') (x : Byte) :
    mem' (stack (x + k).toNat) = mem (stack x.toNat) := by
  rw [stack_moved]; exact h _

theorem stackMoved_writes (ws : List (Word × Byte)) : ∀ {mem mem' : Mem}, StackMoved k mem mem' →
    StackMoved k (ws.foldl (fun m w => upd m w.1 w.2) mem)
      ((ws.map fun w => (turned k w.1, w.2)).foldl (fun m w => upd m w.1 w.2) mem') := by
  induction ws with
  | nil => intro _ _ h; exact h
  | cons w ws ih =>
    intro mem mem' h
    refine ih fun a => ?_
    simp only [upd]
    by_cases e : a = w.1
    · rw [if_pos e, if_pos (by rw [e])]
    · rw [if_neg e, if_neg (fun e' => e (turned_inj e')), h]

theorem ea_stackMoved (h : ∀ a ∈ addressed r mem (view i).1 (view i).2, mem' a = mem a) :
    ea (spMoved k r) mem' (view i).2 = ea r mem (view i).2 := by
  revert h
  cases i <;> simp +contextual [view, addressed, ea, spMoved, le, word_toNat_self]

theorem operand_stackMoved (h : ∀ a ∈ addressed r mem (view i).1 (view i).2, mem' a = mem a)
    (hr : readsByte (view i).1 = true) :
    operand (spMoved k r) mem' (view i).2 = operand r mem (view i).2 := by
  have he := ea_stackMoved (k := k) h
  revert h hr he
  cases i <;> simp +contextual only [view, addressed, ea, spMoved, operand, readsByte,
    List.mem_cons, List.not_mem_nil, or_false, forall_eq_or_imp, forall_eq,
    Bool.false_eq_true, false_implies, implies_true]

theorem baseAddr_stackMoved (h : ∀ a ∈ addressed r mem (view i).1 (view i).2, mem' a = mem a) :
    baseAddr mem' (view i).2 = baseAddr mem (view i).2 := by
  revert h
  cases i <;>
    simp +contextual [view, addressed, baseAddr, le]

theorem addrOk_stackMoved {b : Build} (h : ∀ a ∈ addressed r mem (view i).1 (view i).2, mem' a = mem a)
    (hok : AddrOk b r mem (view i).2) : AddrOk b (spMoved k r) mem' (view i).2 := by
  revert h hok
  cases i <;>
    simp +contextual [view, addressed, AddrOk, spMoved, baseAddr, le]

theorem cycles_stackMoved (h : ∀ a ∈ addressed r mem (view i).1 (view i).2, mem' a = mem a) :
    (code (spMoved k r) mem' (view i).1 (view i).2).cycles = (code r mem (view i).1 (view i).2).cycles := by
  have he := ea_stackMoved (k := k) h
  have hb := baseAddr_stackMoved h
  simp only [code]
  congr 1
  revert he hb
  generalize (view i).2 = am
  intro he hb
  cases am <;> simp only [codePenalty, he, hb] <;> rfl

theorem writable_addressed {a : Word} (ha : a ∈ writable r mem (view i).1 (view i).2) :
    a ∈ addressed r mem (view i).1 (view i).2 ∨ ∃ n, a = stack n := by
  revert ha
  cases i <;>
    simp +contextual [view, addressed, writable, writesMem, isStore, isRmw]
  all_goals
    first
    | (rintro rfl; exact ⟨_, rfl⟩)
    | (rintro (rfl | rfl) <;> exact ⟨_, rfl⟩)
    | (rintro (rfl | rfl | rfl) <;> exact ⟨_, rfl⟩)

theorem effect_stackMoved (hs : StackMoved k mem mem') (hf : StackFree r mem i) :
    codeEffect (spMoved k r) mem' (view i).1 (view i).2 =
      ⟨spMoved k (codeEffect r mem (view i).1 (view i).2).regs,
        (codeEffect r mem (view i).1 (view i).2).writes.map fun w => (turned k w.1, w.2)⟩ := by
  have h : ∀ a ∈ addressed r mem (view i).1 (view i).2, mem' a = mem a :=
    fun a ha => stackMoved_free hs (hf.data a ha)
  have he := ea_stackMoved (k := k) h
  have hv := operand_stackMoved (k := k) h
  have ht := hf.transfer
  have hmem : ea r mem (view i).2 ∈ addressed r mem (view i).1 (view i).2 →
      turned k (ea r mem (view i).2) = ea r mem (view i).2 := fun h => turned_free (hf.data _ h)
  have hw : (view i).1 ∈ [.Sta, .Stx, .Sty, .Inc, .Dec] → turned k (ea r mem (view i).2) = ea r mem (view i).2 := by
    intro hw
    refine hmem ?_
    revert hw
    cases i <;> simp [view, addressed]
  have hw' : (view i).1 ∈ [.Asl, .Lsr, .Rol, .Ror] → (view i).2 = .accumulator ∨
      turned k (ea r mem (view i).2) = ea r mem (view i).2 := by
    intro hw
    by_cases ha : (view i).2 = .accumulator
    · exact .inl ha
    refine .inr (hmem ?_)
    revert hw ha
    cases i <;> simp [view, addressed]
  revert h he hv ht hw hw'
  generalize (view i).1 = mn
  generalize (view i).2 = am
  intro h he hv ht hw hw'
  have add : ∀ n : Byte, r.sp + k + n = r.sp + n + k := fun n => by ac_rfl
  have sub : ∀ n : Byte, r.sp + k - n = r.sp - n + k := fun n => by
    simp only [BitVec.sub_eq_add_neg]; ac_rfl
  have v1 : mem' 0xfffe = mem 0xfffe := stackMoved_free hs fun h => absurd h.2 (by decide)
  have v2 : mem' 0xffff = mem 0xffff := stackMoved_free hs fun h => absurd h.2 (by decide)
  have st : ∀ a, mem' (turned k a) = mem a := hs
  have stm := stack_moved k
  cases mn <;>
    simp only [readsByte, Bool.false_eq_true, false_implies, forall_const] at hv <;>
    first
    | exact absurd rfl ht.1
    | exact absurd rfl ht.2
    | (simp only [codeEffect, he, hv, arithRegs, compareRegs]; rfl)
    | (simp only [codeEffect, he, hv, List.map_cons, List.map_nil, hw (by simp)]; rfl)
    | (rcases hw' (by simp) with e | e
       · subst e; simp only [codeEffect, shiftEffect, he, hv]; rfl
       · simp only [codeEffect, shiftEffect, he, hv]; cases am <;> simp only [List.map_cons, List.map_nil, e] <;> rfl)
    | (simp only [codeEffect, branchEffect]; cases am <;> rfl)
    | (simp only [codeEffect, he]
       simp only [spMoved, add, sub, stm, st, v1, v2, List.map_cons, List.map_nil]
       done)
    | (simp only [codeEffect, he]
       simp only [spMoved, add, sub, stm, st, v1, v2, List.map_cons, List.map_nil]
       rfl)

end

end Verif.Mos
