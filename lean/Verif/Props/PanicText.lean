import Verif.Spec.PanicText
import Verif.Props.MapText
import Verif.Props.Chip8.U12Fmt
import Verif.Props.Chip8.Decode
import Verif.Props.Mos.Opcodes
import Verif.Props.Mos.Rom

/-!
# Property C96: the message of a panic tells what went wrong
-/

namespace Verif.Props

open Verif Verif.Spec

theorem between_self (first last s : List Char) : between first last (first ++ s ++ last) = some s := by
  unfold between
  rw [List.append_assoc, List.take_left, if_pos rfl]
  simp only [List.drop_left, List.length_append]
  have e : s.length + last.length - last.length = s.length := by omega
  rw [e, List.drop_left, List.take_left, if_pos ⟨by omega, rfl⟩]

theorem cause_opcode (n : Nat) : cause (.unwrapErr s!"No match found for {n}") = some (.opcode n) := by
  have e : (s!"No match found for {n}").toList = "No match found for ".toList ++ (toString n).toList ++ [] := by
    show ("No match found for " ++ toString n).toList = _
    rw [String.toList_append, List.append_nil]
  unfold cause
  simp only
  rw [e, if_neg]
  · have : numberBetween 10 "No match found for " "" ("No match found for ".toList ++ (toString n).toList ++ []) = some n := by
      unfold numberBetween
      rw [show "".toList = [] from rfl, between_self, Option.bind_some, decimal_reads]
    rw [this]
  · intro h
    have := congrArg List.head? h
    rw [List.append_nil, List.head?_append,
      show "No match found for ".toList.head? = some 'N' by decide +kernel,
      show "memory is read-only".toList.head? = some 'm' by decide +kernel] at this
    cases this

theorem cause_unmapped (n : Nat) : cause (.unwrapErr s!"address space {n} unallocated") = some (.unmapped n) := by
  have e : (s!"address space {n} unallocated").toList =
      "address space ".toList ++ (toString n).toList ++ " unallocated".toList := by
    show ("address space " ++ toString n ++ " unallocated").toList = _
    rw [String.toList_append, String.toList_append]
  have hh : ("address space ".toList ++ (toString n).toList ++ " unallocated".toList).head? = some 'a' := by
    rw [List.append_assoc, List.head?_append, show "address space ".toList.head? = some 'a' by decide +kernel]
    rfl
  unfold cause
  simp only
  rw [e, if_neg]
  · have h1 : numberBetween 10 "No match found for " ""
        ("address space ".toList ++ (toString n).toList ++ " unallocated".toList) = none := by
      unfold numberBetween between
      rw [if_neg]
      · rfl
      · intro h
        have h2 := congrArg List.head? h
        rw [List.head?_take, if_neg (by decide +kernel), hh,
          show "No match found for ".toList.head? = some 'N' by decide +kernel] at h2
        cases h2
    have h2 : numberBetween 16 "No match found for 0x" ""
        ("address space ".toList ++ (toString n).toList ++ " unallocated".toList) = none := by
      unfold numberBetween between
      rw [if_neg]
      · rfl
      · intro h
        have h2 := congrArg List.head? h
        rw [List.head?_take, if_neg (by decide +kernel), hh,
          show "No match found for 0x".toList.head? = some 'N' by decide +kernel] at h2
        cases h2
    rw [h1, h2]
    unfold numberBetween
    rw [between_self, Option.bind_some, decimal_reads]
    rfl
  · intro h
    have := congrArg List.head? h
    rw [hh, show "memory is read-only".toList.head? = some 'm' by decide +kernel] at this
    cases this

theorem cause_readOnly : cause (.unwrapErr "memory is read-only") = some .readOnly := by
  unfold cause
  simp only
  rw [if_pos trivial]

section
open Verif.Mos Verif.Spec.Mos
variable {b : Build} {h : List BusEvent} {c : Mos6502 (AddressMap Memory)}

/-- What a cause says about a 6502 on a bus with the history `h`. -/
def Holds (b : Build) (h : List BusEvent) (c : Mos6502 (AddressMap Memory)) : Cause → Prop
  | .overflow => b.overflowChecks = true ∧ (0xfffe ≤ c.pc.toNat ∨
      ∃ i, At b c i ∧ AddressOverflows c (Bus.after h).val (view i).2)
  | .word _ | .register => False
  | .opcode n => ((Bus.after h).val c.pc).toNat = n ∧ ∀ b1 b2, documented n b1 b2 = none
  | .readOnly => ∃ i, At b c i ∧
      ∃ a ∈ writable (regs c) (Bus.after h).val (view i).1 (view i).2, (Bus.after h).owner a = some .readOnly
  | .unmapped n => ∃ i, At b c i ∧
      ∃ a ∈ writable (regs c) (Bus.after h).val (view i).1 (view i).2,
        a.toNat = n ∧ (Bus.after h).owner a = none

set_option maxRecDepth 8000 in
/-- Whether an opcode is documented does not depend on its operand. -/
theorem documented_operand (n : Byte) (b1 b2 c1 c2 : Byte) (hd : documented n.toNat b1 b2 = none) :
    documented n.toNat c1 c2 = none := by
  have key : ((List.range 256).filter fun k => (documented k b1 b2).isSome) =
      (List.range 256).filter fun k => (documented k c1 c2).isSome := rfl
  have h1 : n.toNat ∉ (List.range 256).filter fun k => (documented k b1 b2).isSome := by
    rw [List.mem_filter, hd]
    rintro ⟨-, h⟩; cases h
  rw [key, List.mem_filter, List.mem_range] at h1
  cases hc : documented n.toNat c1 c2 with
  | none => rfl
  | some x => rw [hc] at h1; exact absurd ⟨n.isLt, rfl⟩ h1

/-- Stores to RAM are accepted. -/
theorem writeAll_accepted (ws : List (Word × Byte)) : ∀ {h : List BusEvent} {m : AddressMap Memory},
    MemTrace b h m → (∀ w ∈ ws, (Bus.after h).owner w.1 = some .readWrite) →
    ∃ m', writeAll b m ws = .ok m' := by
  induction ws with
  | nil => intro h m _ _; exact ⟨m, rfl⟩
  | cons w ws ih =>
    obtain ⟨a, v⟩ := w
    intro h m ht hx
    obtain ⟨res, m1, h1, -, h3⟩ := ht.inv.write b a v
    have h1' : Addressable.write b m a v = .ok (res, m1) := h1
    rw [hx (a, v) (by simp)] at h3
    rw [writeAll, h1', h3]
    rw [h3] at h1
    refine ih (.write ht h1) fun w hm => ?_
    rw [Bus.after_append, owner_step_write]
    exact hx w (List.mem_cons_of_mem _ hm)

/-- C96: a step of a 6502 on a bus of memory segments that panics says why, and it is so. -/
theorem C96_step (ht : MemTrace b h c.address_map) {p : Panic} (hp : next b c = .error p) :
    ∃ x, cause p = some x ∧ Holds b h c x := by
  have hv := busView_of_trace ht
  have hf := fetch_eq hv
  rcases (next_error_iff hv).1 hp with ⟨h1, h2, rfl⟩ | ⟨h0, ⟨h1, rfl⟩ | ⟨i, hi, ⟨h1, rfl, h3⟩ | ⟨-, h1⟩⟩⟩
  · exact ⟨.overflow, rfl, h1, .inl h2⟩
  · refine ⟨.opcode _, cause_opcode _, rfl, fun b1 b2 => documented_operand _
      ((Bus.after h).val (c.pc + 1)) ((Bus.after h).val (c.pc + 2)) _ _ ?_⟩
    rw [← C64_matrix, h1]; rfl
  · rw [if_neg h0, hi] at hf
    exact ⟨.overflow, rfl, h1, .inr ⟨i, hf, h3⟩⟩
  · rw [if_neg h0, hi] at hf
    have hne : ∃ w ∈ (codeEffect (regs c) (Bus.after h).val (view i).1 (view i).2).writes,
        (Bus.after h).owner w.1 ≠ some .readWrite := by
      by_contra hcon
      obtain ⟨m', hm⟩ := writeAll_accepted _ ht fun w hw => by
        by_contra h'
        exact hcon ⟨w, hw, h'⟩
      rw [hm] at h1; cases h1
    obtain ⟨w, hw, ⟨q1, q2⟩ | ⟨q1, q2⟩⟩ := writeAll_refused _ ht hne
    · rw [q2] at h1; cases h1
      refine ⟨.readOnly, cause_readOnly, i, hf, w.1, ?_, q1⟩
      rw [← codeEffect_writes]; exact List.mem_map_of_mem hw
    · rw [q2] at h1; cases h1
      refine ⟨.unmapped _, cause_unmapped _, i, hf, w.1, ?_, rfl, q1⟩
      rw [← codeEffect_writes]; exact List.mem_map_of_mem hw

/-- C96: a run that panics says why: some instructions are completed within the cycles, and the
message is right in the state they lead to. -/
theorem C96_run (ht : MemTrace b h c.address_map) {n : Nat} {p : Panic} (hp : run b c n = .error p) :
    ∃ l c', Instructions b c l c' ∧ totalCycles l < n ∧
      ∃ x, cause p = some x ∧ Holds b (h ++ asEvents (programStores l)) c' x := by
  obtain ⟨l, c', h1, h2, h3⟩ := C12_panic.1 hp
  obtain ⟨-, ht'⟩ := writeAll_trace _ ht (C67_bus_is_stores h1)
  exact ⟨l, c', h1, h2, C96_step ht' h3⟩

end

section
open Verif.Chip8 Verif.Spec.Chip8
open Verif.Spec.Mos (Mem BusView)
variable {B R : Type} [Addressable B] {b : Build} {cpu : Chip8 B R} {mem : Mem} {env : Nat → Env}

theorem noMatch_reads (b0 b1 : Byte) :
    numberBetween 16 "No match found for 0x" "" (noMatch b0 b1).toList = some (b0.toNat * 256 + b1.toNat) := by
  have hw : (b0 ++ b1).toNat = b0.toNat * 256 + b1.toNat := by
    rw [BitVec.toNat_append, Nat.shiftLeft_eq, ← Nat.shiftLeft_eq, ← Nat.shiftLeft_add_eq_or_of_lt b1.isLt,
      Nat.shiftLeft_eq]
  have hlt : (b0 ++ b1).toNat < 16 ^ 128 := Nat.lt_trans (b0 ++ b1).isLt (by decide)
  have hne := digitLoop_ne_nil 16 lowerDigit 127 (b0 ++ b1).toNat []
  have e : (noMatch b0 b1).toList = "No match found for 0x".toList ++
      digitLoop 16 lowerDigit 128 (b0 ++ b1).toNat [] ++ [] := by
    unfold noMatch padIntegral
    rw [String.toList_append, String.toList_ofList, if_pos rfl, List.append_nil]
    simp only
    have : 2 - (['0', 'x'].length + (digitLoop 16 lowerDigit 128 (b0 ++ b1).toNat []).length) = 0 := by
      simp
    rw [this, List.replicate_zero, List.nil_append, String.toList_ofList]
    rfl
  rw [e]
  unfold numberBetween
  rw [show "".toList = [] from rfl, between_self, Option.bind_some]
  unfold numeral
  rw [if_neg hne, digitLoop_reads (by omega) writes_lower16 _ _ _ hlt (by omega)]
  rw [hw]; rfl

/-- C96: a CHIP-8 that comes to a word that is no instruction panics with a message that names the
word, in hexadecimal. -/
theorem C96_chip8 (hv : BusView b cpu.address_space mem)
    (hpc : b.overflowChecks = false ∨ cpu.pc ≠ 0xffff)
    (hno : ¬∃ op, Valid op ∧ encode op = wordAt mem cpu.pc) {n : Nat} (hn : 0 < n) :
    ∃ msg, run b env cpu n = .error (.unwrapErr msg) ∧
      numberBetween 16 "No match found for 0x" "" msg.toList = some (wordAt mem cpu.pc) := by
  obtain ⟨n, rfl⟩ : ∃ k, n = k + 1 := ⟨n - 1, by omega⟩
  obtain ⟨msg, hm⟩ := (C40_rejects (mem cpu.pc) (mem (cpu.pc + 1))).2.2 hno
  obtain ⟨x, y, a, kk, i, -, -, -, -, -, hd⟩ := decode_fields (mem cpu.pc) (mem (cpu.pc + 1))
  have hmsg : msg = noMatch (mem cpu.pc) (mem (cpu.pc + 1)) := by
    rw [hd] at hm
    split at hm
    · cases hm
    · cases hm; rfl
  have ha : addU16 b cpu.pc 1 = .ok (cpu.pc + 1) := by
    unfold addU16
    rw [if_neg]
    rintro ⟨h', h⟩
    have h : cpu.pc.toNat + 1 ≥ 65536 := h
    rcases hpc with hpc | hpc
    · rw [hpc] at h'; cases h'
    · have := cpu.pc.isLt
      exact hpc (BitVec.eq_of_toNat_eq (show cpu.pc.toNat = 65535 by omega))
  have hf : Chip8.fetch b cpu = .error (.unwrapErr msg) := by
    unfold Chip8.fetch
    simp only
    rw [hv cpu.pc, Res.ok_bind, ha, Res.ok_bind, hv (cpu.pc + 1), Res.ok_bind, hm]
    rfl
  refine ⟨msg, ?_, by rw [hmsg]; exact noMatch_reads _ _⟩
  unfold Chip8.run Chip8.runLoop Chip8.next
  rw [hf]; rfl

/-- C96: so different words have different messages. -/
theorem C96_chip8_words {b0 b1 c0 c1 : Byte} {msg : String}
    (h : decodeBytesToOpcode b0 b1 = .ok (.error msg)) (h' : decodeBytesToOpcode c0 c1 = .ok (.error msg)) :
    b0 = c0 ∧ b1 = c1 := by
  have key : ∀ {b0 b1 : Byte}, decodeBytesToOpcode b0 b1 = .ok (.error msg) → msg = noMatch b0 b1 := by
    intro b0 b1 hm
    obtain ⟨x, y, a, kk, i, -, -, -, -, -, hd⟩ := decode_fields b0 b1
    rw [hd] at hm
    split at hm
    · cases hm
    · cases hm; rfl
  have h1 := noMatch_reads b0 b1
  rw [← key h, key h', noMatch_reads c0 c1] at h1
  have h1 := Option.some.inj h1
  have := b1.isLt
  have := c1.isLt
  constructor <;> apply BitVec.eq_of_toNat_eq <;> omega

/-- C96: the decoder looks at the first two bytes it is given, and panics if there are fewer. -/
theorem C96_slice (l : List Byte) :
    (∀ b0 b1 rest, l = b0 :: b1 :: rest → decodeSlice l = decodeBytesToOpcode b0 b1) ∧
    (l.length < 2 ↔ ∃ p, decodeSlice l = .error p) := by
  refine ⟨fun b0 b1 rest h => by rw [h]; rfl, ?_⟩
  match l with
  | [] => exact ⟨fun _ => ⟨_, rfl⟩, fun _ => by simp⟩
  | [_] => exact ⟨fun _ => ⟨_, rfl⟩, fun _ => by simp⟩
  | b0 :: b1 :: rest =>
    constructor
    · intro h
      have h : rest.length + 1 + 1 < 2 := h
      omega
    · rintro ⟨p, hp⟩
      obtain ⟨r, hr⟩ := (C40_rejects b0 b1).1
      change decodeBytesToOpcode b0 b1 = _ at hp
      rw [hr] at hp; cases hp

end

/-! ### Concrete cases -/

section
open Verif.Mos Verif.Spec.Mos

/-- The program of `storeMap`, `STA 0x80fd` in read-only memory at 0x80fd, panics and says so; so does
`run`. -/
example : MemTrace .debug [.register .readOnly ⟨0x80fd, 0x8101⟩ [0x8d, 0xfd, 0x80, 0x48, 0xea]]
      (withRegs sampleRegs storeMap).address_map ∧
    run .debug (withRegs sampleRegs storeMap) 10 = .error (.unwrapErr "memory is read-only") ∧
    cause (.unwrapErr "memory is read-only") = some .readOnly :=
  ⟨storeMap_trace _, rfl, cause_readOnly⟩

/-- The opcode 0x02 is not documented. -/
example : MemTrace .debug [.register .readOnly ⟨0x80fd, 0x80fd⟩ [0x02]]
      (⟨[(⟨0x80fd, 0x80fd⟩, ⟨.readOnly, 0x80fd, 0x80fd, [0x02]⟩)]⟩ : AddressMap Memory) ∧
    next .debug (withRegs sampleRegs (⟨[(⟨0x80fd, 0x80fd⟩, ⟨.readOnly, 0x80fd, 0x80fd, [0x02]⟩)]⟩ :
      AddressMap Memory)) = .error (.unwrapErr "No match found for 2") ∧
    cause (.unwrapErr "No match found for 2") = some (.opcode 2) ∧
    cause (.unwrapErr "address space 512 unallocated") = some (.unmapped 512) ∧
    cause (.unwrapErr "address space unallocated") = none :=
  ⟨.register (h := []) (fresh := ⟨.readOnly, 0x80fd, 0x80fd, [0]⟩) .new rfl rfl
    (by intro e he; cases he) ⟨_, rfl, List.Perm.refl _⟩, rfl, by decide +kernel,
    by decide +kernel, by decide +kernel⟩

end

section
open Verif.Chip8

/-- The word 0x8008 is no instruction, and its message names it. -/
example : decodeBytesToOpcode 0x80 0x08 = .ok (.error "No match found for 0x8008") ∧
    numberBetween 16 "No match found for 0x" "" "No match found for 0x8008".toList = some 0x8008 ∧
    decodeSlice [0x80] = .error .bounds := by
  refine ⟨rfl, by decide +kernel, rfl⟩

end

end Verif.Props
