import Verif.Spec.MosLink
import Verif.Proofs.MosReorder

/-!
# One instruction of a program and of the moved program
-/

namespace Verif.Mos

open Verif Verif.Spec.Mos Verif.Props

theorem jump_forms (i : InstructionVariant) (h : positionFree (view i).1 = false) :
    (∃ w, view i = (.Jmp, .absolute w)) ∨ (∃ w, view i = (.Jmp, .indirect w)) ∨
    (∃ w, view i = (.Jsr, .absolute w)) ∨ view i = (.Rts, .implied) ∨ view i = (.Rti, .implied) ∨
    view i = (.Brk, .implied) := by
  revert h
  cases i <;> simp [view, positionFree]

theorem patch_free (d : Word) (l : Line) (h : positionFree l.1 = true) : patch d l = l := by
  obtain ⟨mn, am⟩ := l
  cases mn <;> first | rfl | cases h

theorem size_patch (d : Word) (l : Line) : size (patch d l).2 = size l.2 := by
  unfold patch
  split <;> rfl

theorem jumpsBy_free (r : Regs) (l : Line) (h : positionFree l.1 = true) : jumpsBy r l = none := by
  obtain ⟨mn, am⟩ := l
  cases mn <;> first | rfl | cases h

theorem pushesTo_free (r : Regs) (l : Line) (h : positionFree l.1 = true) : pushesTo r l = none := by
  obtain ⟨mn, am⟩ := l
  cases mn <;> first | rfl | cases h

/-- Writes to the same places, of the same bytes outside `Q`. -/
theorem writes_alike {Q : Word → Prop} : ∀ {ws ws' : List (Word × Byte)},
    ws'.map Prod.fst = ws.map Prod.fst →
    (∀ (k : Nat) (w w' : Word × Byte), ws[k]? = some w → ws'[k]? = some w' → w'.2 = w.2 ∨ Q w.1) → ∀ {mem mem' : Mem} (a : Word), ¬Q a →
    (mem' a = mem a ∨ a ∈ ws.map Prod.fst) →
    ws'.foldl (fun m w => upd m w.1 w.2) mem' a = ws.foldl (fun m w => upd m w.1 w.2) mem a := by
  intro ws
  induction ws with
  | nil =>
    intro ws' h _ mem mem' a _ hm
    have : ws' = [] := by simpa using h
    subst this
    exact hm.resolve_right (by simp)
  | cons w ws ih =>
    intro ws' h hv mem mem' a ha hm
    cases ws' with
    | nil => simp at h
    | cons w' ws' =>
      simp only [List.map_cons, List.cons.injEq] at h
      refine ih h.2 (fun k x x' hx hx' => hv (k + 1) x x' (by simpa using hx) (by simpa using hx')) a ha ?_
      by_cases e : a = w.1
      · left
        rcases hv 0 w w' rfl rfl with hv | hv
        · simp only [upd, h.1, e, if_true, hv]
        · rw [← e] at hv; exact absurd hv ha
      · rcases hm with hm | hm
        · left; simp only [upd, h.1, if_neg e, hm]
        · right
          simp only [List.map_cons, List.mem_cons] at hm
          exact hm.resolve_left e

theorem writes_untouched (ws : List (Word × Byte)) (a : Word) : ∀ {mem : Mem}, a ∉ ws.map Prod.fst →
    ws.foldl (fun m w => upd m w.1 w.2) mem a = mem a := by
  induction ws with
  | nil => intro mem _; rfl
  | cons w ws ih =>
    intro mem h
    simp only [List.map_cons, List.mem_cons, not_or] at h
    simp only [List.foldl_cons]
    rw [ih h.2, upd, if_neg h.1]

section
variable {d : Word} {P : Program} {S : Word → Word → Prop} {D : Word → Prop} {r : Regs} {mem mem' : Mem}
  {i : InstructionVariant}

/-- What is left to show of the memories after an instruction: the writes go to the same places, differ in
what is pushed alone, and what is pushed is a code address. -/
theorem linked_after {ws ws' : List (Word × Byte)} (hl : LinkedMem d P S D mem mem')
    (hw : ∀ a ∈ writable r mem (view i).1 (view i).2, ¬CodeOf P (a - d))
    (h1 : ws.map Prod.fst = writable r mem (view i).1 (view i).2) (h2 : ws'.map Prod.fst = ws.map Prod.fst)
    (h3 : ∀ (k : Nat) (w w' : Word × Byte), ws[k]? = some w → ws'[k]? = some w' → w'.2 = w.2 ∨
      ∃ lo hi, pushesTo r (view i) = some (lo, hi) ∧ (w.1 = lo ∨ w.1 = hi))
    (h4 : ∀ lo hi, pushesTo r (view i) = some (lo, hi) →
      addressIn (ws'.foldl (fun m w => upd m w.1 w.2) mem') lo hi =
        addressIn (ws.foldl (fun m w => upd m w.1 w.2) mem) lo hi + d) :
    LinkedMem d P (addressesAfter S r mem i) (differAfter D r mem i)
      (ws.foldl (fun m w => upd m w.1 w.2) mem) (ws'.foldl (fun m w => upd m w.1 w.2) mem') where
  code p l hp := by
    obtain ⟨bs, hb, hh⟩ := hl.code p l hp
    refine ⟨bs, hb, fun k v hk => ?_⟩
    rw [writes_untouched, hh k v hk]
    intro hm
    rw [h2, h1] at hm
    refine hw _ hm ⟨p, l, k, hp, ?_, ?_⟩
    · obtain ⟨hlt, -⟩ := List.getElem?_eq_some_iff.1 hk
      rw [hb.1, size_patch] at hlt
      exact hlt
    · apply BitVec.eq_of_toNat_eq
      simp only [word, BitVec.toNat_sub, BitVec.toNat_ofNat, BitVec.toNat_add]
      have := d.isLt
      have := p.isLt
      omega
  address lo hi hs := by
    rcases hs with ⟨hs, n1, n2⟩ | hs
    · rw [← h1] at n1 n2
      simp only [addressIn]
      rw [writes_untouched ws lo n1, writes_untouched ws hi n2, writes_untouched ws' lo (by rw [h2]; exact n1),
        writes_untouched ws' hi (by rw [h2]; exact n2)]
      exact hl.address lo hi hs
    · exact h4 lo hi hs
  data a ha := by
    simp only [differAfter, not_or, not_and, Classical.not_not] at ha
    refine writes_alike (Q := fun a => ∃ lo hi, pushesTo r (view i) = some (lo, hi) ∧ (a = lo ∨ a = hi)) h2 h3 a
      (by rintro ⟨lo, hi, h, h'⟩; exact ha.2 ⟨lo, hi, h, h'⟩) ?_
    by_cases hd : D a
    · right; rw [h1]; exact ha.1 hd
    · exact .inl (hl.data a hd)

theorem regs_eq {r r' : Regs} {m m' : Mem} (hpc : r'.pc = r.pc)
    (h : ∀ p, (∀ a, p ≠ .mem a) → value r' m' p = value r m p) : r' = r := by
  obtain ⟨a, x, y, sp, pc, p⟩ := r
  obtain ⟨a', x', y', sp', pc', p'⟩ := r'
  obtain ⟨n, o, u, bk, de, it, z, ca⟩ := p
  obtain ⟨n', o', u', bk', de', it', z', ca'⟩ := p'
  have h1 := h .a (by simp)
  have h2 := h .x (by simp)
  have h3 := h .y (by simp)
  have h4 := h .sp (by simp)
  have f1 := bitByte_inj (h (.flag .Negative) (by simp))
  have f2 := bitByte_inj (h (.flag .Overflow) (by simp))
  have f3 := bitByte_inj (h (.flag .Break) (by simp))
  have f4 := bitByte_inj (h (.flag .Decimal) (by simp))
  have f5 := bitByte_inj (h (.flag .Interrupt) (by simp))
  have f6 := bitByte_inj (h (.flag .Zero) (by simp))
  have f7 := bitByte_inj (h (.flag .Carry) (by simp))
  have f8 := bitByte_inj (h .unused (by simp))
  simp only [value] at h1 h2 h3 h4 f1 f2 f3 f4 f5 f6 f7 f8 hpc
  subst h1 h2 h3 h4 hpc f1 f2 f3 f4 f5 f6 f7 f8
  rfl

/-- An instruction that is not a jump: the same on memories that agree in what it looks at. -/
theorem free_effect (h : ∀ a, .mem a ∈ dataUses r mem i → mem' a = mem a) :
    codeEffect r mem' (view i).1 (view i).2 = codeEffect r mem (view i).1 (view i).2 ∧
    code r mem' (view i).1 (view i).2 = code r mem (view i).1 (view i).2 := by
  have hv : ∀ p ∈ dataUses r mem i, value r mem' p = value r mem p := by
    intro p hp
    cases p with
    | mem a => exact h a hp
    | flag f => cases f <;> rfl
    | _ => rfl
  obtain ⟨g1, g2, g3, g4⟩ := effect_data rfl hv
  refine ⟨?_, g1⟩
  have hr : (codeEffect r mem' (view i).1 (view i).2).regs = (codeEffect r mem (view i).1 (view i).2).regs := by
    refine regs_eq (m := mem) (m' := mem) g3 fun p hp => ?_
    by_cases hset : p ∈ registersSet (view i).2 (view i).1
    · exact g4 p hset _ _
    · rw [effect_keeps r mem' _ _ _ hset, effect_keeps r mem _ _ _ hset]
  revert hr g2
  generalize codeEffect r mem' (view i).1 (view i).2 = e
  generalize codeEffect r mem (view i).1 (view i).2 = e'
  intro g2 hr
  cases e; cases e'
  simp only at hr g2
  rw [hr, g2]

theorem addressIn_word (mem : Mem) (lo hi : Word) : u16FromLeBytes (mem lo) (mem hi) = addressIn mem lo hi :=
  u16FromLeBytes_eq _ _

theorem le_bytes (w : Word) : word ((u16ToLeBytes w).1.toNat + 256 * (u16ToLeBytes w).2.toNat) = w := by
  rw [← u16FromLeBytes_eq]
  have := w.isLt
  obtain ⟨h1, h2⟩ := hi_lo_word w
  rw [u16FromLeBytes_eq, h1, h2]
  apply BitVec.eq_of_toNat_eq
  simp only [word, byte, BitVec.toNat_ofNat]
  omega

theorem stack_ne (x : Byte) (k l : Nat) (h : k % 256 ≠ l % 256) : stack (x.toNat + k) ≠ stack (x.toNat + l) := by
  intro e
  have e := congrArg BitVec.toNat e
  have := x.isLt
  simp only [stack, word, BitVec.toNat_ofNat] at e
  omega

theorem stack_sub1 (x : Byte) : stack (x - 1).toNat = stack (x.toNat + 255) := by
  have h := stack_add x 255
  rwa [show x + 255 = x - 1 by rw [BitVec.sub_eq_add_neg]; rfl] at h

theorem stack_sub2 (x : Byte) : stack (x - 2).toNat = stack (x.toNat + 254) := by
  have h := stack_add x 254
  rwa [show x + 254 = x - 2 by rw [BitVec.sub_eq_add_neg]; rfl] at h

/-- The registers and the writes of an instruction and of its moved counterpart. -/
theorem link_effect (hl : LinkedMem d P S D mem mem') (hm : Movable d P S D r mem i) :
    (codeEffect (movedRegs d r) mem' (patch d (view i)).1 (patch d (view i)).2).regs =
      movedRegs d (codeEffect r mem (view i).1 (view i).2).regs ∧
    (codeEffect (movedRegs d r) mem' (patch d (view i)).1 (patch d (view i)).2).writes.map Prod.fst =
      (codeEffect r mem (view i).1 (view i).2).writes.map Prod.fst ∧
    LinkedMem d P (addressesAfter S r mem i) (differAfter D r mem i)
      ((codeEffect r mem (view i).1 (view i).2).writes.foldl (fun m w => upd m w.1 w.2) mem)
      ((codeEffect (movedRegs d r) mem' (patch d (view i)).1 (patch d (view i)).2).writes.foldl
        (fun m w => upd m w.1 w.2) mem') := by
  have hW := codeEffect_writes r mem (i := i)
  have add : ∀ (n : Word), r.pc + d + n = r.pc + n + d := fun n => by ac_rfl
  cases hf : positionFree (view i).1 with
  | true =>
    have hp := pushesTo_free r (view i) hf
    have hv : ∀ a, .mem a ∈ dataUses r mem i → mem' a = mem a := fun a ha => hl.data a fun hd => by
      obtain ⟨lo, hi, h, -⟩ := hm.reads a ha hd
      rw [jumpsBy_free r (view i) hf] at h
      cases h
    rw [patch_free d (view i) hf, effect_moved (d := d) (mem := mem') (mem' := mem') hf fun _ _ => rfl,
      (free_effect hv).1]
    refine ⟨rfl, rfl, linked_after hl hm.writes hW rfl (fun k w w' h h' => .inl ?_) fun lo hi h => ?_⟩
    · rw [h] at h'; cases h'; rfl
    · rw [hp] at h; cases h
  | false =>
    rcases jump_forms i hf with ⟨w, hi⟩ | ⟨w, hi⟩ | ⟨w, hi⟩ | hi | hi | hi <;> rw [hi] at hW ⊢
    · -- JMP absolute
      refine ⟨rfl, rfl, linked_after hl hm.writes (by rw [hi]; exact hW) rfl (fun k w w' h h' => ?_)
        fun lo h h' => ?_⟩
      · simp [codeEffect] at h
      · rw [hi] at h'; cases h'
    · -- JMP indirect
      have ha := hl.address _ _ (hm.jumps w (word (w.toNat + 1)) (by rw [hi]; rfl))
      refine ⟨?_, rfl, linked_after hl hm.writes (by rw [hi]; exact hW) rfl (fun k w w' h h' => ?_)
        fun lo h h' => ?_⟩
      · show ({ movedRegs d r with pc := ea (movedRegs d r) mem' (.indirect w) } : Regs) =
          { r with pc := ea r mem (.indirect w) + d }
        have e : ∀ (r : Regs) (m : Mem), ea r m (.indirect w) = addressIn m w (word (w.toNat + 1)) := fun r m => by
          simp only [ea, le, addressIn, word_toNat_self]
        rw [e, e, ha]; rfl
      · simp [codeEffect] at h
      · rw [hi] at h'; cases h'
    · -- JSR
      refine ⟨rfl, rfl, linked_after hl hm.writes (by rw [hi]; exact hW) rfl (fun k w' w'' h h' => ?_)
        fun lo h h' => ?_⟩
      · right
        refine ⟨_, _, by rw [hi]; rfl, ?_⟩
        rcases k with _ | _ | k
        · cases h; exact .inr rfl
        · cases h; left; exact stack_sub1 _
        · simp [codeEffect] at h
      · rw [hi] at h'
        simp only [pushesTo, Option.some.injEq, Prod.mk.injEq] at h'
        obtain ⟨rfl, rfl⟩ := h'
        have hne : stack r.sp.toNat ≠ stack (r.sp.toNat + 255) := stack_ne r.sp 0 255 (by decide)
        simp only [codeEffect, patch, List.foldl_cons, List.foldl_nil, movedRegs, addressIn, stack_sub1, upd,
          if_neg hne, if_true, le_bytes]
        exact add 2
    · -- RTS
      have ha := hl.address _ _ (hm.jumps _ _ (by rw [hi]; rfl))
      refine ⟨?_, rfl, linked_after hl hm.writes (by rw [hi]; exact hW) rfl (fun k w w' h h' => ?_)
        fun lo h h' => ?_⟩
      · simp only [codeEffect, patch, movedRegs, stack_add1, stack_add2, addressIn_word, ha]
        congr 1
        ac_rfl
      · simp [codeEffect] at h
      · rw [hi] at h'; cases h'
    · -- RTI
      have ha := hl.address _ _ (hm.jumps _ _ (by rw [hi]; rfl))
      have hs : mem' (stack (r.sp.toNat + 1)) = mem (stack (r.sp.toNat + 1)) := hl.data _ fun hd => by
        obtain ⟨lo, h, h1, h2⟩ := hm.reads (stack (r.sp.toNat + 1)) (by
          simp [dataUses, hi, mnemonicUses, modeUses, pointerUses, operandUses]) hd
        rw [hi] at h1
        simp only [jumpsBy, Option.some.injEq, Prod.mk.injEq] at h1
        obtain ⟨rfl, rfl⟩ := h1
        rcases h2 with h2 | h2
        · exact stack_ne r.sp 1 2 (by decide) h2
        · exact stack_ne r.sp 1 3 (by decide) h2
      refine ⟨?_, rfl, linked_after hl hm.writes (by rw [hi]; exact hW) rfl (fun k w w' h h' => ?_)
        fun lo h h' => ?_⟩
      · simp only [codeEffect, patch, movedRegs, stack_add1, stack_add2, stack_add3, addressIn_word, ha, hs]
        congr 1
        ac_rfl
      · simp [codeEffect] at h
      · rw [hi] at h'; cases h'
    · -- BRK
      have ha := hl.address _ _ (hm.jumps _ _ (by rw [hi]; rfl))
      refine ⟨?_, rfl, linked_after hl hm.writes (by rw [hi]; exact hW) rfl (fun k w w' h h' => ?_)
        fun lo h h' => ?_⟩
      · simp only [codeEffect, patch, movedRegs, addressIn_word, ha]
      · rcases k with _ | _ | _ | k
        · right
          cases h
          exact ⟨_, _, by rw [hi]; rfl, .inl rfl⟩
        · right
          cases h
          exact ⟨_, _, by rw [hi]; rfl, .inr (stack_sub1 _)⟩
        · left
          cases h
          cases h'
          rfl
        · simp [codeEffect] at h
      · rw [hi] at h'
        simp only [pushesTo, Option.some.injEq, Prod.mk.injEq] at h'
        obtain ⟨rfl, rfl⟩ := h'
        have n1 : stack r.sp.toNat ≠ stack (r.sp.toNat + 255) := stack_ne r.sp 0 255 (by decide)
        have n2 : stack r.sp.toNat ≠ stack (r.sp.toNat + 254) := stack_ne r.sp 0 254 (by decide)
        have n3 : stack (r.sp.toNat + 255) ≠ stack (r.sp.toNat + 254) := stack_ne r.sp 255 254 (by decide)
        simp only [codeEffect, patch, List.foldl_cons, List.foldl_nil, movedRegs, addressIn, stack_sub1,
          stack_sub2, upd, if_neg n1, if_neg n2, if_neg n3, if_true, le_bytes]
        exact add 1

/-- The moved instruction finds its operand if the instruction does. -/
theorem link_addrOk {b : Build} (hl : LinkedMem d P S D mem mem') (hm : Movable d P S D r mem i)
    (h : AddrOk b r mem (view i).2) : AddrOk b (movedRegs d r) mem' (patch d (view i)).2 := by
  cases hf : positionFree (view i).1 with
  | true =>
    rw [patch_free d (view i) hf]
    refine addrOk_moved (mem := mem') hf (fun _ _ => rfl) (addrOk_used (fun p hp => ?_) h)
    cases p with
    | mem a =>
      refine hl.data a fun hd => ?_
      obtain ⟨lo, hi, h, -⟩ := hm.reads a (by simp [dataUses, hp]) hd
      rw [jumpsBy_free r (view i) hf] at h
      cases h
    | flag f => cases f <;> rfl
    | _ => rfl
  | false =>
    rcases jump_forms i hf with ⟨w, hi⟩ | ⟨w, hi⟩ | ⟨w, hi⟩ | hi | hi | hi <;> rw [hi] at h ⊢ <;> exact h

/-- The cycles of an instruction and of its moved counterpart. -/
theorem link_cycles (hl : LinkedMem d P S D mem mem') (hm : Movable d P S D r mem i) :
    (taken (view i).1 r.p ≠ some true →
      (code (movedRegs d r) mem' (patch d (view i)).1 (patch d (view i)).2).cycles =
        (code r mem (view i).1 (view i).2).cycles) ∧
    (code (movedRegs d r) mem' (patch d (view i)).1 (patch d (view i)).2).cycles ≤
      (code r mem (view i).1 (view i).2).cycles + 1 ∧
    (code r mem (view i).1 (view i).2).cycles ≤
      (code (movedRegs d r) mem' (patch d (view i)).1 (patch d (view i)).2).cycles + 1 ∧
    (d.toNat % 256 = 0 → (code (movedRegs d r) mem' (patch d (view i)).1 (patch d (view i)).2).cycles =
      (code r mem (view i).1 (view i).2).cycles) := by
  cases hf : positionFree (view i).1 with
  | true =>
    have hv : ∀ a, .mem a ∈ dataUses r mem i → mem' a = mem a := fun a ha => hl.data a fun hd => by
      obtain ⟨lo, hi, h, -⟩ := hm.reads a ha hd
      rw [jumpsBy_free r (view i) hf] at h
      cases h
    rw [patch_free d (view i) hf, ← (free_effect hv).2]
    obtain ⟨p1, p2, p3⟩ := penalty_moved (d := d) (r := r) (mem := mem') (mem' := mem') hf fun _ _ => rfl
    refine ⟨p1, p2, p3, fun hd => ?_⟩
    show _ + _ = _ + _
    rw [penalty_aligned hd hf fun _ _ => rfl]
  | false =>
    have : (code (movedRegs d r) mem' (patch d (view i)).1 (patch d (view i)).2).cycles =
        (code r mem (view i).1 (view i).2).cycles := by
      rcases jump_forms i hf with ⟨w, hi⟩ | ⟨w, hi⟩ | ⟨w, hi⟩ | hi | hi | hi <;> rw [hi] <;> rfl
    exact ⟨fun _ => this, by omega, by omega, fun _ => this⟩

end

end Verif.Mos
