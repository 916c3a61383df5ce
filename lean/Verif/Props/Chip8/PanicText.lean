import Verif.Proofs.Chip8Causes
import Verif.Proofs.Chip8Finite
import Verif.Props.PanicText
import Verif.Props.Chip8.Rom

/-!
# C96 for the CHIP-8: the message of a panic tells what went wrong; C84: stores to read-only memory
-/

namespace Verif.Props.Chip8

open Verif Verif.Chip8 Verif.Spec Verif.Spec.Chip8
open Verif.Spec.Mos (Mem BusView writeAll)
open Verif.Mos (busView_of_trace)

variable {R : Type} {b : Build} {e : Env} {env : Nat → Env} {h : List BusEvent}
  {cpu : Chip8 (AddressMap Memory) R} {op : Opcode}

theorem cause_word (b0 b1 : Byte) :
    cause (.unwrapErr (noMatch b0 b1)) = some (.word (b0.toNat * 256 + b1.toNat)) := by
  obtain ⟨s, hs⟩ : ∃ s, (noMatch b0 b1).toList = "No match found for ".toList ++ '0' :: 'x' :: s := by
    refine ⟨digitLoop 16 lowerDigit 128 (b0 ++ b1).toNat [], ?_⟩
    unfold noMatch padIntegral
    rw [String.toList_append, String.toList_ofList, if_pos rfl]
    simp only
    have : 2 - (['0', 'x'].length + (digitLoop 16 lowerDigit 128 (b0 ++ b1).toNat []).length) = 0 := by
      simp
    rw [this, List.replicate_zero, List.nil_append, String.toList_ofList]
    rfl
  have hx : numeral 10 ('0' :: 'x' :: s) = none := rfl
  have h1 : numberBetween 10 "No match found for " "" (noMatch b0 b1).toList = none := by
    rw [hs]
    unfold numberBetween
    have := between_self "No match found for ".toList [] ('0' :: 'x' :: s)
    rw [List.append_nil] at this
    rw [show "".toList = [] from rfl, this, Option.bind_some, hx]
  unfold cause
  simp only
  rw [h1, noMatch_reads, if_neg]
  intro h'
  rw [hs] at h'
  have := congrArg List.head? h'
  rw [List.head?_append,
    show "No match found for ".toList.head? = some 'N' by decide +kernel,
    show "memory is read-only".toList.head? = some 'm' by decide +kernel] at this
  cases this

/-- What a cause says about a CHIP-8 on a bus with the history `h`. -/
def Holds (b : Build) (h : List BusEvent) (cpu : Chip8 (AddressMap Memory) R) : Cause → Prop
  | .overflow => b.overflowChecks = true ∧ (cpu.pc = 0xffff ∨ ∃ op, At b cpu op ∧
      (Overflows cpu op ∨ ∃ x y n, op = .Drw x y n ∧ 65536 ≤ cpu.i.toNat + n.toNat))
  | .word n => wordAt (Bus.after h).val cpu.pc = n ∧ ¬∃ op, Valid op ∧ encode op = n
  | .register => ∃ op, At b cpu op ∧ UsesVf cpu op
  | .readOnly => ∃ op n k, At b cpu op ∧ memSpan op = some n ∧ k ≤ n ∧
      (Bus.after h).owner (iPlus cpu k) = some .readOnly
  | .unmapped a => ∃ op n k, At b cpu op ∧ memSpan op = some n ∧ k ≤ n ∧ (iPlus cpu k).toNat = a ∧
      (Bus.after h).owner (iPlus cpu k) = none
  | .opcode _ => False

/-- C96: a step of a CHIP-8 on a bus of memory segments that panics says why, and it is so. -/
theorem C96_chip8_step (ht : MemTrace b h cpu.address_space) (hw : WellFormed cpu) {p : Panic}
    (hp : next b e cpu = .error p) : ∃ x, cause p = some x ∧ Holds b h cpu x := by
  have hv := busView_of_trace ht
  cases hf : fetch b cpu with
  | error q =>
    unfold next at hp
    rw [hf] at hp
    cases hp
    unfold fetch at hf
    simp only at hf
    rw [hv cpu.pc, Res.ok_bind] at hf
    cases ha : addU16 b cpu.pc 1 with
    | error q =>
      rw [ha] at hf
      cases hf
      obtain ⟨rfl, h1, h2⟩ := only_addU16 _ _ _ ha
      have h2 : 65536 ≤ cpu.pc.toNat + 1 := h2
      have := cpu.pc.isLt
      exact ⟨.overflow, rfl, h1, .inl (BitVec.eq_of_toNat_eq (show cpu.pc.toNat = 65535 by omega))⟩
    | ok a =>
      have : a = cpu.pc + 1 := by
        unfold addU16 at ha
        split at ha <;> cases ha
        rfl
      subst this
      rw [ha, Res.ok_bind, hv (cpu.pc + 1), Res.ok_bind] at hf
      obtain ⟨x, y, a, kk, i, -, -, -, -, -, hd⟩ :=
        decode_fields ((Bus.after h).val cpu.pc) ((Bus.after h).val (cpu.pc + 1))
      have hno := C40_rejects ((Bus.after h).val cpu.pc) ((Bus.after h).val (cpu.pc + 1))
      rw [hd] at hf
      split at hf
      · cases hf
      · rename_i hc
        cases hf
        exact ⟨.word _, cause_word _ _, rfl, hno.2.1 ⟨_, by rw [hd, hc]⟩⟩
  | ok op =>
    by_cases hr : Runs b cpu op
    · have hs := step_ok (e := e) hf hr (fun _ => hv) (fun _ => hw)
      unfold StepWrites at hs
      rw [run_one, hp, Res.error_bind] at hs
      have hne : ∃ w ∈ writes cpu op, (Bus.after h).owner w.1 ≠ some .readWrite := by
        by_contra hcon
        obtain ⟨m', hm⟩ := writeAll_accepted _ ht fun w hw => by
          by_contra h'
          exact hcon ⟨w, hw, h'⟩
        rw [hm] at hs; cases hs
      obtain ⟨w, hm, ⟨q1, q2⟩ | ⟨q1, q2⟩⟩ := writeAll_refused _ ht hne
      · obtain ⟨n, k, h1, h2, h3⟩ := writes_span cpu op w hm
        rw [q2] at hs; cases hs
        exact ⟨.readOnly, cause_readOnly, op, n, k, hf, h1, h2, by rw [← h3]; exact q1⟩
      · obtain ⟨n, k, h1, h2, h3⟩ := writes_span cpu op w hm
        rw [q2] at hs; cases hs
        exact ⟨.unmapped _, cause_unmapped _, op, n, k, hf, h1, h2, by rw [← h3], by rw [← h3]; exact q1⟩
    · rcases not_runs_only hf hv hr p hp with ⟨rfl | rfl, h1⟩ | ⟨rfl, h1, h2⟩
      · exact ⟨.register, rfl, op, hf, h1⟩
      · exact ⟨.register, rfl, op, hf, h1⟩
      · exact ⟨.overflow, rfl, h1, .inr ⟨op, hf, h2⟩⟩

/-- The iterator after some instructions: its bus is the one it was given after the stores of the
microcode it has emitted, and its stack still has 16 cells. -/
theorem iterates_trace (ht : MemTrace b h cpu.address_space) (hw : WellFormed cpu) (n k : Nat)
    {it : Chip8 (AddressMap Memory) R} (hi : iterates b env n k cpu = .ok it) :
    ∃ mcs, emitted b env n k cpu = .ok mcs ∧ WellFormed it ∧
      MemTrace b (h ++ asEvents (storesOf mcs)) it.address_space := by
  induction n generalizing k cpu h with
  | zero => cases hi; exact ⟨[], rfl, hw, by simpa [storesOf, asEvents] using ht⟩
  | succ n ih =>
    unfold iterates at hi
    cases hn : next b (env k) cpu with
    | error p => rw [hn] at hi; cases hi
    | ok x =>
      obtain ⟨l, c⟩ := x
      rw [hn, Res.ok_bind] at hi
      have hx := next_exec hn
      obtain ⟨-, ht'⟩ := writeAll_trace _ ht (executeAll_bus _ _ hx)
      have hc : WellFormed c := by
        have := within_next (S := Set.univ) (T := Set.univ) (fun _ _ _ _ _ _ _ => Set.mem_univ _)
          (Set.mem_univ _) ⟨Set.mem_univ _, Set.mem_univ _, Set.mem_univ _, hw.1, hw.2, rfl⟩ hn
        exact ⟨this.capacity, this.length⟩
      obtain ⟨mcs, h1, h2, h3⟩ := ih ht' hc (k + 1) hi
      refine ⟨l ++ mcs, ?_, h2, ?_⟩
      · show (next b (env k) cpu).bind _ = _
        rw [hn]
        show (emitted b env n (k + 1) c).bind _ = _
        rw [h1]; rfl
      · rw [storesOf_append]
        simpa [asEvents, List.append_assoc] using h3

/-- C96: a run of a CHIP-8 that panics says why: some instructions are completed, and the message is
right in the state they lead to. -/
theorem C96_chip8_run (ht : MemTrace b h cpu.address_space) (hw : WellFormed cpu) {n : Nat} {p : Panic}
    (hp : run b env cpu n = .error p) :
    ∃ k it mcs, k < n ∧ iterates b env k 0 cpu = .ok it ∧ emitted b env k 0 cpu = .ok mcs ∧
      ∃ x, cause p = some x ∧ Holds b (h ++ asEvents (storesOf mcs)) it x := by
  have hi : iterates b env n 0 cpu = .error p := by
    rcases C59_iterator_agrees_partial (b := b) (env := env) (cpu := cpu) n with
      ⟨q, h1, h2⟩ | ⟨it, c, -, h2, -⟩
    · rw [hp] at h2; cases h2; exact h1
    · rw [hp] at h2; cases h2
  clear hp
  induction n with
  | zero => cases hi
  | succ n ih =>
    rw [iterates_add] at hi
    cases hn : iterates b env n 0 cpu with
    | error q =>
      rw [hn] at hi
      cases hi
      obtain ⟨k, it, mcs, h1, h2⟩ := ih hn
      exact ⟨k, it, mcs, by omega, h2⟩
    | ok it =>
      rw [hn, Res.ok_bind] at hi
      have hx : next b (env (0 + n)) it = .error p := by
        simp only [iterates] at hi
        cases hq : next b (env (0 + n)) it with
        | error q => rw [hq] at hi; cases hi; rfl
        | ok x => rw [hq] at hi; cases hi
      obtain ⟨mcs, h1, h2, h3⟩ := iterates_trace ht hw n 0 hn
      exact ⟨n, it, mcs, by omega, hn, h1, C96_chip8_step h3 h2 hx⟩

/-- C84: code of a CHIP-8 in read-only memory does not modify itself: whenever an execution comes back
to an address there, it finds the same instruction. -/
theorem C84_chip8_code {n : Nat} {s : StepState (Chip8 (AddressMap Memory) R)}
    (ht : MemTrace b h cpu.address_space) (hx : run b env cpu n = .ok s) (hpc : s.unwrap.pc = cpu.pc)
    (h0 : InRom h cpu.pc) (h1 : InRom h (cpu.pc + 1)) (op : Opcode) : At b cpu op ↔ At b s.unwrap op := by
  have key : ∀ a, InRom h a → s.unwrap.address_space.read b a = cpu.address_space.read b a := by
    rintro a ⟨r, data, hreg, ha⟩
    obtain ⟨v, -, e1, e2⟩ := C84_chip8_rom ht hx hreg ha
    rw [e1, e2]
  have k0 : Addressable.read b s.unwrap.address_space cpu.pc = Addressable.read b cpu.address_space cpu.pc :=
    key _ h0
  have k1 : Addressable.read b s.unwrap.address_space (cpu.pc + 1) =
      Addressable.read b cpu.address_space (cpu.pc + 1) := key _ h1
  unfold At fetch
  simp only
  rw [hpc, k0]
  unfold addU16
  split
  · rfl
  · cases Addressable.read b cpu.address_space cpu.pc with
    | error q => rfl
    | ok v => rw [Res.ok_bind, Res.ok_bind, Res.ok_bind, Res.ok_bind, k1]

theorem writes_all {B : Type} (cpu : Chip8 B R) {n k : Nat} (hs : memSpan op = some n) (hk : k ≤ n) :
    ∃ w ∈ writes cpu op, w.1 = iPlus cpu k := by
  cases op <;> simp only [memSpan, reduceCtorEq, Option.some.injEq] at hs
  case LdBcd x =>
    subst hs
    unfold writes
    match k, hk with
    | 0, _ => exact ⟨_, List.mem_cons_self, by rw [← iPlus_eq]; simp⟩
    | 1, _ => exact ⟨_, List.mem_cons_of_mem _ List.mem_cons_self, iPlus_eq cpu 1⟩
    | 2, _ => exact ⟨_, List.mem_cons_of_mem _ (List.mem_cons_of_mem _ List.mem_cons_self), iPlus_eq cpu 2⟩
  case StoreRegistersToMemory x =>
    subst hs
    exact ⟨_, List.mem_map.2 ⟨k, List.mem_range.2 (by omega), rfl⟩, iPlus_eq cpu k⟩

/-- C84: a CHIP-8 instruction that stores to read-only memory or to an unmapped address does not
complete: it panics with the error of the bus. -/
theorem C84_chip8_store_panics {n k : Nat} (ht : MemTrace b h cpu.address_space) (hat : At b cpu op)
    (hr : Runs b cpu op) (hs : memSpan op = some n) (hk : k ≤ n)
    (hrom : (Bus.after h).owner (iPlus cpu k) ≠ some .readWrite) :
    run b (fun _ => e) cpu 1 = .error (.unwrapErr "memory is read-only") ∨
    ∃ j ≤ n, (Bus.after h).owner (iPlus cpu j) = none ∧
      run b (fun _ => e) cpu 1 = .error (.unwrapErr s!"address space {(iPlus cpu j).toNat} unallocated") := by
  have hst := step_ok (e := e) hat hr (fun _ => busView_of_trace ht) (fun h => by
    rcases h with rfl | ⟨a, rfl⟩ <;> cases hs)
  obtain ⟨w, hw, hwk⟩ := writes_all cpu hs hk
  rw [← hwk] at hrom
  unfold StepWrites at hst
  rw [hst]
  obtain ⟨x, hx, ⟨-, q⟩ | ⟨q1, q2⟩⟩ := writeAll_refused _ ht ⟨w, hw, hrom⟩
  · rw [q]; exact .inl rfl
  · obtain ⟨n', j, g1, g2, g3⟩ := writes_span cpu op x hx
    rw [hs] at g1
    cases g1
    rw [q2]
    exact .inr ⟨j, g2, by rw [← g3]; exact q1, by rw [← g3]; rfl⟩

/-! ### Concrete cases -/

/-- `LD B, V1` of the program `bcdCpu` with `I` in read-only memory. -/
example : run .debug (fun _ => ⟨0, 0, 0, 0⟩) { bcdCpu with pc := 0x204, i := 0x200 } 1 =
      .error (.unwrapErr "memory is read-only") ∧
    MemTrace .debug bcdHistory bcdCpu.address_space ∧ WellFormed bcdCpu :=
  ⟨rfl, bcdMap_trace _, rfl, rfl⟩

/-- With `I` two bytes before the end of the RAM: the third store goes to the unmapped address 0x310.
The hypotheses of `C84_chip8_store_panics` hold. -/
example : run .debug (fun _ => ⟨0, 0, 0, 0⟩) { bcdCpu with pc := 0x204, i := 0x30e } 1 =
      .error (.unwrapErr "address space 784 unallocated") ∧
    At .debug { bcdCpu with pc := 0x204, i := 0x30e } (.LdBcd .V1) ∧
    Runs .debug { bcdCpu with pc := 0x204, i := 0x30e } (.LdBcd .V1) ∧
    iPlus { bcdCpu with pc := 0x204, i := 0x30e } 2 = 0x310 ∧
    (Bus.after bcdHistory).owner 0x310 = none ∧
    cause (.unwrapErr "address space 784 unallocated") = some (.unmapped 784) := by
  refine ⟨rfl, rfl, ⟨GpRegisters.noConfusion, ?_⟩, rfl, by decide +kernel, by decide +kernel⟩
  rintro ⟨-, h⟩
  have h : 65536 ≤ (0x30e : Word).toNat + 2 := h
  revert h
  decide

/-- `JP 0x200` at 0x200 in read-only memory comes back to itself. -/
example : ∃ (h : List BusEvent) (m : AddressMap Memory), MemTrace .debug h m ∧
    (run .debug (fun _ => ⟨0, 0, 0, 0⟩) { bcdCpu with address_space := m } 3).map (fun s => s.unwrap.pc) =
      .ok bcdCpu.pc ∧ InRom h bcdCpu.pc ∧ InRom h (bcdCpu.pc + 1) :=
  ⟨[.register .readOnly ⟨0x200, 0x201⟩ [0x12, 0x00]],
    ⟨[(⟨0x200, 0x201⟩, ⟨.readOnly, 0x200, 0x201, [0x12, 0x00]⟩)]⟩,
    .register (h := []) (fresh := ⟨.readOnly, 0x200, 0x201, [0, 0]⟩) .new rfl rfl
      (by intro e he; cases he) ⟨_, rfl, List.Perm.refl _⟩, rfl,
    ⟨_, _, List.mem_cons_self, by decide⟩, ⟨_, _, List.mem_cons_self, by decide⟩⟩

/-- `ADD V0, V1` needs VF, which is missing. -/
example : ∃ (h : List BusEvent) (m : AddressMap Memory), MemTrace .release h m ∧
    next .release ⟨0, 0, 0, 0⟩ { bcdCpu with address_space := m } = .error .bounds ∧
    cause .bounds = some .register :=
  ⟨[.register .readOnly ⟨0x200, 0x201⟩ [0x80, 0x14]],
    ⟨[(⟨0x200, 0x201⟩, ⟨.readOnly, 0x200, 0x201, [0x80, 0x14]⟩)]⟩,
    .register (h := []) (fresh := ⟨.readOnly, 0x200, 0x201, [0, 0]⟩) .new rfl rfl
      (by intro e he; cases he) ⟨_, rfl, List.Perm.refl _⟩, rfl, rfl⟩

end Verif.Props.Chip8
