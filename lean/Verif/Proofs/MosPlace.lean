import Verif.Spec.MosPlace
import Verif.Proofs.MosStackMove

/-!
# One instruction with its data elsewhere
-/

namespace Verif.Mos

open Verif Verif.Spec.Mos Verif.Props

section
variable {f : Word → Word} {P Q : Program} {r : Regs} {mem mem' : Mem} {i : InstructionVariant} {l' : Line}

theorem stack_in (n : Nat) : InStack (stack n) := by
  have h : (stack n).toNat = 256 + n % 256 := by
    simp only [stack, word, BitVec.toNat_ofNat]; omega
  constructor <;> omega

/-- The two forms of a counterpart. -/
theorem replacedLine_cases {l l' : Line} (h : ReplacedLine f r mem l l') :
    ((∃ w, l = (.Jmp, .absolute w) ∨ l = (.Jsr, .absolute w)) ∧ l' = l) ∨
    (l'.1 = l.1 ∧ Replaced f r mem l.2 l'.2 ∧ ∀ w, l ≠ (.Jmp, .absolute w) ∧ l ≠ (.Jsr, .absolute w)) := by
  obtain ⟨h1, h2⟩ := h
  obtain ⟨mn', am'⟩ := l'
  split at h2
  · next w =>
    simp only at h1 h2
    subst h1 h2
    exact .inl ⟨⟨w, .inl rfl⟩, rfl⟩
  · next w =>
    simp only at h1 h2
    subst h1 h2
    exact .inl ⟨⟨w, .inr rfl⟩, rfl⟩
  · next mn am n1 n2 =>
    exact .inr ⟨h1, h2, fun w => ⟨fun e => by cases e; exact n1 w rfl rfl, fun e => by cases e; exact n2 w rfl rfl⟩⟩

theorem size_replaced' {am am' : AddrMode} (h : Replaced f r mem am am') : size am' = size am := by
  cases am <;> first
    | (have h : am' = _ := h; subst h; rfl)
    | (obtain ⟨_, rfl, -⟩ := h; rfl)

theorem size_replaced {l l' : Line} (h : ReplacedLine f r mem l l') : size l'.2 = size l.2 := by
  rcases replacedLine_cases h with ⟨-, h⟩ | ⟨-, h, -⟩
  · rw [h]
  · exact size_replaced' h

/-- The modes that name a byte of data. -/
def isData : AddrMode → Bool
  | .implied | .accumulator | .immediate _ | .relative _ | .indirect _ => false
  | _ => true

theorem shift_data {am : AddrMode} (h : isData am = true) (r : Regs) (e : Word) (s : Byte) (c : Bool) :
    shiftEffect r am e s c =
      { regs := { r with p := { setNZ r.p s with carry := c }, pc := nextPc r am }, writes := [(e, s)] } := by
  cases am <;> first | rfl | exact absurd h (by decide)

theorem isData_replaced {am am' : AddrMode} (h : Replaced f r mem am am') : isData am' = isData am := by
  cases am <;> first
    | (have h : am' = _ := h; subst h; rfl)
    | (obtain ⟨_, rfl, -⟩ := h; rfl)

theorem ea_replaced {am am' : AddrMode} (h : Replaced f r mem am am')
    (hd : ∀ a, .mem a ∈ modeUses am ++ pointerUses r am → mem' (f a) = mem a) :
    (isData am = true → ea r mem' am' = f (ea r mem am)) ∧ (isData am = false → ea r mem' am' = ea r mem am) := by
  have two : ∀ {a a' : Word} {l : List Part}, .mem a ∈ l → .mem a' ∈ l → (∀ a, .mem a ∈ l → mem' (f a) = mem a) →
      mem' (f a) = mem a ∧ mem' (f a') = mem a' := fun h1 h2 h => ⟨h _ h1, h _ h2⟩
  cases am with
  | zeroPage z => obtain ⟨z', rfl, h⟩ := h; exact ⟨fun _ => h, fun h => by cases h⟩
  | zeroPageX z => obtain ⟨z', rfl, h⟩ := h; exact ⟨fun _ => h, fun h => by cases h⟩
  | zeroPageY z => obtain ⟨z', rfl, h⟩ := h; exact ⟨fun _ => h, fun h => by cases h⟩
  | absolute w => cases h; exact ⟨fun _ => rfl, fun h => by cases h⟩
  | absoluteX w => obtain ⟨z', rfl, h⟩ := h; exact ⟨fun _ => h, fun h => by cases h⟩
  | absoluteY w => obtain ⟨z', rfl, h⟩ := h; exact ⟨fun _ => h, fun h => by cases h⟩
  | indexedIndirect z =>
    obtain ⟨z', rfl, h1, h2, h3⟩ := h
    obtain ⟨d1, d2⟩ := two (a := word ((z.toNat + r.x.toNat) % 256)) (a' := word ((z.toNat + r.x.toNat + 1) % 256))
      (by simp [pointerUses]) (by simp [pointerUses]) hd
    refine ⟨fun _ => ?_, fun h => by cases h⟩
    rw [h3]
    simp only [ea, le, h1, h2, d1, d2]
  | indirectIndexed z =>
    obtain ⟨z', rfl, h1, h2, h3⟩ := h
    obtain ⟨d1, d2⟩ := two (a := word z.toNat) (a' := word ((z.toNat + 1) % 256))
      (by simp [pointerUses]) (by simp [pointerUses]) hd
    refine ⟨fun _ => ?_, fun h => by cases h⟩
    rw [h3]
    simp only [ea, le, h1, h2, d1, d2]
  | indirect w =>
    obtain ⟨w', rfl, h1, h2, h3⟩ := h
    obtain ⟨d1, d2⟩ := two (a := w) (a' := word (w.toNat + 1)) (by simp [modeUses]) (by simp [modeUses]) hd
    refine ⟨fun h => (by cases h), fun _ => ?_⟩
    simp only [ea, le, word_toNat_self, h3, d1, d2]
    rw [h2, d1]
  | implied => cases h; exact ⟨fun h => (by cases h), fun _ => rfl⟩
  | accumulator => cases h; exact ⟨fun h => (by cases h), fun _ => rfl⟩
  | immediate v => cases h; exact ⟨fun h => (by cases h), fun _ => rfl⟩
  | relative v => cases h; exact ⟨fun h => (by cases h), fun _ => rfl⟩

theorem baseAddr_replaced {am am' : AddrMode} (h : Replaced f r mem am am')
    (hd : ∀ a, .mem a ∈ modeUses am ++ pointerUses r am → mem' (f a) = mem a) {z z' : Byte}
    (e : am = .indirectIndexed z) (e' : am' = .indirectIndexed z') :
    baseAddr mem' (.indirectIndexed z') = baseAddr mem (.indirectIndexed z) := by
  subst e e'
  obtain ⟨_, e, h1, h2, -⟩ := h
  cases e
  simp only [modeUses, pointerUses, List.append_nil, List.nil_append, List.mem_cons, List.not_mem_nil,
    or_false, reduceCtorEq, false_or, Part.mem.injEq, forall_eq_or_imp, forall_eq] at hd
  simp only [baseAddr, le, h1, h2, hd.1, hd.2]

theorem addrOk_replaced {b : Build} {am am' : AddrMode} (h : Replaced f r mem am am')
    (hd : ∀ a, .mem a ∈ modeUses am ++ pointerUses r am → mem' (f a) = mem a) (hok : AddrOk b r mem am) :
    AddrOk b r mem' am' := by
  cases am with
  | indirect w => obtain ⟨w', rfl, h1, -⟩ := h; exact .inr h1
  | indirectIndexed z =>
    have h' := h
    obtain ⟨z', rfl, -⟩ := h'
    simp only [AddrOk] at hok ⊢
    rwa [baseAddr_replaced h hd rfl rfl]
  | absolute w => cases h; trivial
  | implied => cases h; trivial
  | accumulator => cases h; trivial
  | immediate v => cases h; trivial
  | relative v => cases h; trivial
  | indexedIndirect z => obtain ⟨_, rfl, -⟩ := h; exact hok
  | _ => obtain ⟨_, rfl, -⟩ := h; trivial

/-- Writes to the new places. -/
theorem placed_writes (hf : Placement f) : ∀ (ws : List (Word × Byte)) {mem mem' : Mem}, Placed f P Q mem mem' →
    (∀ w ∈ ws, ¬CodeOf Q (f w.1)) → (∀ p l, Q p = some l → ∃ bs, Encodes bs l ∧ HoldsAt mem' p bs) →
    Placed f P Q (ws.foldl (fun m w => upd m w.1 w.2) mem)
      ((ws.map fun w => (f w.1, w.2)).foldl (fun m w => upd m w.1 w.2) mem') := by
  intro ws
  induction ws with
  | nil => intro _ _ h _ _; exact h
  | cons w ws ih =>
    intro mem mem' h hw hc
    have hcode : ∀ p l, Q p = some l → ∃ bs, Encodes bs l ∧ HoldsAt (upd mem' (f w.1) w.2) p bs := by
      intro p l hp
      obtain ⟨bs, hb, hh⟩ := hc p l hp
      refine ⟨bs, hb, fun k v hk => ?_⟩
      simp only [upd]
      rw [if_neg, hh k v hk]
      intro e
      refine hw w (by simp) ⟨p, l, k, hp, ?_, e.symm⟩
      obtain ⟨hlt, -⟩ := List.getElem?_eq_some_iff.1 hk
      rw [← hb.1]; exact hlt
    refine ih ⟨hcode, fun a ha => ?_⟩ (fun x hx => hw x (by simp [hx])) hcode
    simp only [upd]
    by_cases e : a = w.1
    · rw [if_pos e, if_pos (by rw [e])]
    · rw [if_neg e, if_neg (fun e' => e (hf.inj _ _ e')), h.data a ha]

/-- The instruction works on the same byte. -/
theorem operand_replaced {mn : Mnemonic} {am am' : AddrMode} (h : Replaced f r mem am am')
    (hd : ∀ a, .mem a ∈ modeUses am ++ pointerUses r am ++ operandUses r mem mn am → mem' (f a) = mem a)
    (hr : readsByte mn = true) (hm : am ≠ .implied ∧ (∀ z, am ≠ .relative z) ∧ ∀ w, am ≠ .indirect w) :
    operand r mem' am' = operand r mem am := by
  have he := (ea_replaced h fun a ha => hd a (List.mem_append_left _ ha)).1
  have key : isData am = true → mem' (ea r mem' am') = mem (ea r mem am) := by
    intro hda
    rw [he hda]
    refine hd _ (List.mem_append_right _ ?_)
    revert hda
    cases am <;> simp only [isData, Bool.false_eq_true, false_implies, true_implies] <;> cases mn <;>
      first | exact absurd hr (by decide) | exact List.mem_singleton.2 rfl
  cases am with
  | implied => exact absurd rfl hm.1
  | relative v => exact absurd rfl (hm.2.1 _)
  | indirect w => exact absurd rfl (hm.2.2 _)
  | accumulator => cases h; rfl
  | immediate v => cases h; rfl
  | absolute w => cases h; exact key rfl
  | _ => obtain ⟨_, rfl, -⟩ := h; exact key rfl

/-- The mnemonics that store, besides the shifts. -/
def storing : Mnemonic → Bool
  | .Sta | .Stx | .Sty | .Inc | .Dec => true
  | _ => false

/-- The shifts and rotates. -/
def shifting : Mnemonic → Bool
  | .Asl | .Lsr | .Rol | .Ror => true
  | _ => false

/-- The branches. -/
def branching : Mnemonic → Bool
  | .Bcc | .Bcs | .Bne | .Beq | .Bpl | .Bmi | .Bvc | .Bvs => true
  | _ => false

/-- The registers, the writes and the cycles of an instruction and of its counterpart. -/
theorem effect_placed (hf : Placement f) (hd : ∀ a, .mem a ∈ dataUses r mem i → mem' (f a) = mem a)
    (h : ReplacedLine f r mem (view i) l') :
    codeEffect r mem' l'.1 l'.2 = ⟨(codeEffect r mem (view i).1 (view i).2).regs,
      (codeEffect r mem (view i).1 (view i).2).writes.map fun w => (f w.1, w.2)⟩ := by
  have hst : ∀ n, f (stack n) = stack n := fun n => hf.stack _ (stack_in n)
  rcases replacedLine_cases h with ⟨⟨w, hw | hw⟩, rfl⟩ | ⟨h1, h2, h3⟩
  · rw [hw]; rfl
  · rw [hw]
    simp only [codeEffect, List.map_cons, List.map_nil, hst, ea]
  obtain ⟨mn', am'⟩ := l'
  simp only at h1 h2 ⊢
  subst h1
  have hsz := size_replaced' h2
  have he := ea_replaced (mem' := mem') h2 fun a ha => hd a (by
    simp only [dataUses, List.mem_append] at ha ⊢
    exact .inl (.inl ha))
  have hmode : readsByte (view i).1 = true →
      (view i).2 ≠ .implied ∧ (∀ z, (view i).2 ≠ .relative z) ∧ ∀ w, (view i).2 ≠ .indirect w := by
    cases i <;> simp [view, readsByte]
  have hv : readsByte (view i).1 = true → operand r mem' am' = operand r mem (view i).2 := fun hr =>
    operand_replaced h2 (fun a ha => hd a (by
      simp only [dataUses, List.mem_append] at ha ⊢
      exact .inl ha)) hr (hmode hr)
  have hw : storing (view i).1 = true → isData (view i).2 = true := by
    cases i <;> simp [view, isData, storing, shifting]
  have hw' : shifting (view i).1 = true → (view i).2 = .accumulator ∨ isData (view i).2 = true := by
    cases i <;> simp [view, isData, storing, shifting]
  have hj : (view i).1 = .Jmp → isData (view i).2 = false := by
    intro hj
    revert h3 hj
    cases i <;> simp [view, isData, storing, shifting]
  have hjs : (view i).1 ≠ .Jsr := by
    intro hj
    revert h3 hj
    cases i <;> simp [view]
  have hb : ∀ z, (view i).2 = .relative z → am' = .relative z := by
    intro z hz
    rw [hz] at h2
    exact h2
  have hac : (view i).2 = .accumulator → am' = .accumulator := by
    intro e
    rw [e] at h2
    exact h2
  have hda := isData_replaced h2
  have hu : ∀ a, .mem a ∈ mnemonicUses r (view i).1 → mem' (f a) = mem a := fun a ha => hd a (by
    simp only [dataUses, List.mem_append]
    exact .inr ha)
  have hs : ∀ n, .mem (stack n) ∈ mnemonicUses r (view i).1 → mem' (stack n) = mem (stack n) := fun n hn => by
    have := hu _ hn
    rwa [hst] at this
  have hbr : branching (view i).1 = true → ∃ z, (view i).2 = .relative z := by
    cases i <;> simp [view, branching]
  clear hd h h2 h3
  revert hsz he hv hw hw' hj hjs hb hac hda hu hmode hs hbr
  generalize (view i).1 = mn
  generalize (view i).2 = am
  intro hsz he hmode hv hw hw' hj hjs hb hac hda hu hs hbr
  have hpc : nextPc r am' = nextPc r am := by simp only [nextPc, hsz]
  cases mn <;>
    simp only [readsByte, Bool.false_eq_true, false_implies, forall_const] at hv
  all_goals
    first
    | exact absurd rfl hjs
    | (simp only [codeEffect, hpc, hv, arithRegs, compareRegs]; rfl)
    | (simp only [codeEffect, hpc, hv, List.map_cons, List.map_nil, he.1 (hw rfl)]; rfl)
    | (simp only [codeEffect, he.2 (hj rfl)]; rfl)
    | (simp only [codeEffect, hpc, List.map_cons, List.map_nil, hst]; rfl)
    | (simp only [codeEffect, hpc, List.map_cons, List.map_nil, hst]; done)
    | (obtain ⟨z, rfl⟩ := hbr rfl
       rw [hb z rfl]
       rfl)
    | (have e := he.1 (hw rfl)
       simp only [codeEffect, hpc, hv, List.map_cons, List.map_nil, e]
       done)
    | (rcases hw' rfl with e | e
       · have e' := hac e
         subst e e'
         simp only [codeEffect, shiftEffect, hpc, hv]
         rfl
       · have e' := hda.trans e
         have e'' := he.1 e
         simp only [codeEffect, shift_data e, shift_data e', hpc, hv, e'']
         rfl)
    | (have u1 := hs (r.sp.toNat + 1); simp only [mnemonicUses, statusParts, List.mem_cons, true_or, or_true, forall_const] at u1
       simp only [codeEffect, hpc, hsz, stack_add1, u1]
       rfl)
    | (have u1 := hs (r.sp.toNat + 1); simp only [mnemonicUses, statusParts, List.mem_cons, true_or, or_true, forall_const] at u1
       have u2 := hs (r.sp.toNat + 2); simp only [mnemonicUses, statusParts, List.mem_cons, true_or, or_true, forall_const] at u2
       simp only [codeEffect, hpc, hsz, stack_add1, stack_add2, u1, u2]
       rfl)
    | (have u1 := hs (r.sp.toNat + 1); simp only [mnemonicUses, statusParts, List.mem_cons, true_or, or_true, forall_const] at u1
       have u2 := hs (r.sp.toNat + 2); simp only [mnemonicUses, statusParts, List.mem_cons, true_or, or_true, forall_const] at u2
       have u3 := hs (r.sp.toNat + 3); simp only [mnemonicUses, statusParts, List.mem_cons, true_or, or_true, forall_const] at u3
       simp only [codeEffect, hpc, hsz, stack_add1, stack_add2, stack_add3, u1, u2, u3]
       rfl)
    | (have u1 := hu 0xfffe; simp only [mnemonicUses, statusParts, List.mem_cons, true_or, or_true, forall_const] at u1
       have u2 := hu 0xffff; simp only [mnemonicUses, statusParts, List.mem_cons, true_or, or_true, forall_const] at u2
       rw [hf.vector.1] at u1
       rw [hf.vector.2] at u2
       simp only [codeEffect, u1, u2, List.map_cons, List.map_nil, hst]
       done)

theorem addrOk_placed {b : Build} (hd : ∀ a, .mem a ∈ dataUses r mem i → mem' (f a) = mem a)
    (h : ReplacedLine f r mem (view i) l') (hok : AddrOk b r mem (view i).2) : AddrOk b r mem' l'.2 := by
  rcases replacedLine_cases h with ⟨⟨w, hw | hw⟩, rfl⟩ | ⟨-, h, -⟩
  · rw [hw]; trivial
  · rw [hw]; trivial
  · exact addrOk_replaced h (fun a ha => hd a (by
      simp only [dataUses, List.mem_append] at ha ⊢
      exact .inl (.inl ha))) hok

theorem crosses_offset {w w' : Word} (h : w'.toNat % 256 = w.toNat % 256) (x : Byte) :
    crosses w'.toNat (word (w'.toNat + x.toNat)).toNat = crosses w.toNat (word (w.toNat + x.toNat)).toNat := by
  have := w.isLt
  have := w'.isLt
  have := x.isLt
  have e : (w'.toNat / 256 = (word (w'.toNat + x.toNat)).toNat / 256) =
      (w.toNat / 256 = (word (w.toNat + x.toNat)).toNat / 256) := by
    simp only [word, BitVec.toNat_ofNat]
    apply propext
    omega
  simp only [crosses, e]

/-- The cycles: the same, but for operands with an absolute address and an index. -/
theorem cycles_placed (hd : ∀ a, .mem a ∈ dataUses r mem i → mem' (f a) = mem a)
    (h : ReplacedLine f r mem (view i) l') :
    (code r mem' l'.1 l'.2).cycles ≤ (code r mem (view i).1 (view i).2).cycles + 1 ∧
    (code r mem (view i).1 (view i).2).cycles ≤ (code r mem' l'.1 l'.2).cycles + 1 ∧
    (SameOffset (view i).2 l'.2 → (code r mem' l'.1 l'.2).cycles = (code r mem (view i).1 (view i).2).cycles) := by
  rcases replacedLine_cases h with ⟨⟨w, hw | hw⟩, rfl⟩ | ⟨h1, h2, -⟩
  · have : (code r mem' (view i).1 (view i).2).cycles = (code r mem (view i).1 (view i).2).cycles := by
      rw [hw]; rfl
    rw [this]
    exact ⟨by omega, by omega, fun _ => rfl⟩
  · have : (code r mem' (view i).1 (view i).2).cycles = (code r mem (view i).1 (view i).2).cycles := by
      rw [hw]; rfl
    rw [this]
    exact ⟨by omega, by omega, fun _ => rfl⟩
  · obtain ⟨mn', am'⟩ := l'
    simp only at h1 h2 ⊢
    subst h1
    have hd' : ∀ a, .mem a ∈ modeUses (view i).2 ++ pointerUses r (view i).2 → mem' (f a) = mem a := fun a ha =>
      hd a (by
        simp only [dataUses, List.mem_append] at ha ⊢
        exact .inl (.inl ha))
    have he := ea_replaced h2 hd'
    clear hd h
    revert h2 hd' he
    generalize (view i).1 = mn
    generalize (view i).2 = am
    intro h2 hd' he
    have same : ∀ {n m : Nat}, n = m → n ≤ m + 1 ∧ m ≤ n + 1 ∧ (SameOffset am am' → n = m) :=
      fun e => ⟨by omega, by omega, fun _ => e⟩
    cases am with
    | zeroPage z => obtain ⟨z', rfl, h⟩ := h2; exact same rfl
    | zeroPageX z => obtain ⟨z', rfl, h⟩ := h2; exact same rfl
    | zeroPageY z => obtain ⟨z', rfl, h⟩ := h2; exact same rfl
    | absolute w => cases h2; exact same rfl
    | absoluteX w =>
      obtain ⟨w', rfl, h⟩ := h2
      have c1 := crosses_le w.toNat (ea r mem (.absoluteX w)).toNat
      have c2 := crosses_le w'.toNat (ea r mem' (.absoluteX w')).toNat
      have c3 : w'.toNat % 256 = w.toNat % 256 → crosses w'.toNat (ea r mem' (.absoluteX w')).toNat =
          crosses w.toNat (ea r mem (.absoluteX w)).toNat := fun e => crosses_offset e r.x
      have c4 : writesMem mn (.absoluteX w') = writesMem mn (.absoluteX w) := by cases mn <;> rfl
      have c5 : baseCycles mn (.absoluteX w') = baseCycles mn (.absoluteX w) := by cases mn <;> rfl
      have e1 : codePenalty r mem mn (.absoluteX w) = if writesMem mn (.absoluteX w) then 0 else
          crosses w.toNat (ea r mem (.absoluteX w)).toNat := by
        cases hx : writesMem mn (.absoluteX w) <;> simp [codePenalty, canCross, hx, baseAddr]
      have e2 : codePenalty r mem' mn (.absoluteX w') = if writesMem mn (.absoluteX w) then 0 else
          crosses w'.toNat (ea r mem' (.absoluteX w')).toNat := by
        cases hx : writesMem mn (.absoluteX w) <;> simp [codePenalty, canCross, c4, hx, baseAddr]
      simp only [code, c5, e1, e2, SameOffset]
      cases writesMem mn (.absoluteX w)
      · simp only [Bool.false_eq_true, if_false]
        exact ⟨by omega, by omega, fun e => by rw [c3 e]⟩
      · exact ⟨by simp, by simp, fun _ => rfl⟩
    | absoluteY w =>
      obtain ⟨w', rfl, h⟩ := h2
      have c1 := crosses_le w.toNat (ea r mem (.absoluteY w)).toNat
      have c2 := crosses_le w'.toNat (ea r mem' (.absoluteY w')).toNat
      have c3 : w'.toNat % 256 = w.toNat % 256 → crosses w'.toNat (ea r mem' (.absoluteY w')).toNat =
          crosses w.toNat (ea r mem (.absoluteY w)).toNat := fun e => crosses_offset e r.y
      have c4 : writesMem mn (.absoluteY w') = writesMem mn (.absoluteY w) := by cases mn <;> rfl
      have c5 : baseCycles mn (.absoluteY w') = baseCycles mn (.absoluteY w) := by cases mn <;> rfl
      have e1 : codePenalty r mem mn (.absoluteY w) = if writesMem mn (.absoluteY w) then 0 else
          crosses w.toNat (ea r mem (.absoluteY w)).toNat := by
        cases hx : writesMem mn (.absoluteY w) <;> simp [codePenalty, canCross, hx, baseAddr]
      have e2 : codePenalty r mem' mn (.absoluteY w') = if writesMem mn (.absoluteY w) then 0 else
          crosses w'.toNat (ea r mem' (.absoluteY w')).toNat := by
        cases hx : writesMem mn (.absoluteY w) <;> simp [codePenalty, canCross, c4, hx, baseAddr]
      simp only [code, c5, e1, e2, SameOffset]
      cases writesMem mn (.absoluteY w)
      · simp only [Bool.false_eq_true, if_false]
        exact ⟨by omega, by omega, fun e => by rw [c3 e]⟩
      · exact ⟨by simp, by simp, fun _ => rfl⟩
    | indexedIndirect z => obtain ⟨z', rfl, h⟩ := h2; exact same rfl
    | indirectIndexed z =>
      have h := h2
      obtain ⟨z', rfl, h1, h2', h3⟩ := h
      refine same ?_
      have e := he.1 rfl
      rw [h3] at e
      simp only [code, codePenalty, e]
      rfl
    | indirect w => obtain ⟨z', rfl, h⟩ := h2; exact same rfl
    | implied => cases h2; exact same rfl
    | accumulator => cases h2; exact same rfl
    | immediate v => cases h2; exact same rfl
    | relative v => cases h2; exact same rfl

end

end Verif.Mos
