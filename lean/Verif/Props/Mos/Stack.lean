import Verif.Proofs.MosStack
import Verif.Props.Mos.Status

/-!
# Properties C27 – C29: calls, pushes and pulls, break and return from interrupt

The theorems hold on every bus that is `Coherent`: 64K of RAM (`flatRam_coherent`) and every bus of
the emulator's own memory segments after any history (`trace_coherent`). `StackHolds mem sp []` is
true of every state, so a theorem with a list `l` of bytes already on the stack applies to every
state with `l = []`.
-/

namespace Verif.Props

open Verif Verif.Mos Verif.Spec.Mos

variable {B : Type} [Addressable B] {b : Build} {I : B → Mem → Prop}
  {c c₀ c₁ c₂ c₃ : Mos6502 B} {mem : Mem} {l l₁ : List Byte} {i j : InstructionVariant}

/-- Every state has a stack. -/
example (mem : Mem) (sp : Byte) : StackHolds mem sp [] := ⟨by decide, fun _ h => nomatch h⟩

/-! ## C27 JSR and RTS -/

/-- A routine called by JSR that uses the stack as a stack (any pushes, pulls and further calls and
returns, to any depth that fits) and reaches an RTS with the stack as JSR left it, returns to the
instruction after the three-byte JSR, with the stack pointer, and all bytes that were on the stack,
as they were. -/
theorem C27_call_return {w : Word} (hI : Coherent b I) (hm : I c₀.address_map mem)
    (hl : StackHolds mem c₀.sp l) (hroom : l.length + 2 ≤ 256)
    (hcall : Step b c₀ i c₁) (hi : view i = (.Jsr, .absolute w))
    (hbody : StackRun b c₁
      (byte (c₀.pc.toNat + 2) :: byte ((c₀.pc.toNat + 2) % 65536 / 256) :: l) c₂
      (byte (c₀.pc.toNat + 2) :: byte ((c₀.pc.toNat + 2) % 65536 / 256) :: l))
    (hret : Step b c₂ j c₃) (hj : view j = (.Rts, .implied)) :
    c₁.pc = w ∧
    regs c₃ = { regs c₂ with pc := word (c₀.pc.toNat + 3), sp := c₀.sp } ∧
    ∃ mem', I c₃.address_map mem' ∧ StackHolds mem' c₃.sp l := by
  obtain ⟨m1, hm1, h1, e1⟩ := push_holds hI hm hcall (bs := [byte ((c₀.pc.toNat + 2) % 65536 / 256),
    byte (c₀.pc.toNat + 2)]) (by rw [hi]; rfl) (by simp; omega) hl
  obtain ⟨m2, hm2, h2, e2⟩ := stackRun_holds hI hbody hm1 h1
  obtain ⟨hm3, h3, e3⟩ := pull_holds hI (bs := [byte (c₀.pc.toNat + 2),
    byte ((c₀.pc.toNat + 2) % 65536 / 256)]) hm2 hret (by rw [hj]; rfl) h2
  obtain ⟨hr1, -⟩ := step_mem hI hm hcall
  obtain ⟨hr3, -⟩ := step_mem hI hm2 hret
  rw [hi] at hr1
  rw [hj] at hr3
  have hsp : c₃.sp = c₀.sp := by
    apply BitVec.eq_of_toNat_eq
    have := c₀.sp.isLt
    simp only [List.length_cons, List.length_nil] at e1 e2 e3
    omega
  refine ⟨congrArg Regs.pc hr1, ?_, m2, hm3, h3⟩
  have hpc : c₃.pc = word (c₀.pc.toNat + 3) := by
    have hpc : c₃.pc = u16FromLeBytes (m2 (stack (c₂.sp + 1).toNat)) (m2 (stack (c₂.sp + 2).toNat)) +
      BitVec.ofNat 16 1 := congrArg Regs.pc hr3
    have b0 := h2.2 0 (by simp)
    have b1 := h2.2 1 (by simp)
    simp only [List.getElem_cons_zero, List.getElem_cons_succ] at b0 b1
    have s1 : stack (c₂.sp + 1).toNat = stack (c₂.sp.toNat + 1 + 0) := by
      have : (c₂.sp + 1).toNat = (c₂.sp.toNat + 1) % 256 := toNat_add_byte c₂.sp 1 (by omega)
      exact stack_congr (by omega)
    have s2 : stack (c₂.sp + 2).toNat = stack (c₂.sp.toNat + 1 + 1) := by
      have : (c₂.sp + 2).toNat = (c₂.sp.toNat + 2) % 256 := toNat_add_byte c₂.sp 2 (by omega)
      exact stack_congr (by omega)
    rw [hpc, s1, s2, b0, b1]
    apply BitVec.eq_of_toNat_eq
    rw [BitVec.toNat_add, toNat_u16FromLeBytes, toNat_word, toNat_byte, toNat_byte, BitVec.toNat_ofNat]
    omega
  rw [← hpc, ← hsp]
  have ea : c₃.acc = c₂.acc := congrArg Regs.a hr3
  have ex : c₃.x = c₂.x := congrArg Regs.x hr3
  have ey : c₃.y = c₂.y := congrArg Regs.y hr3
  have ep : c₃.ps = c₂.ps := congrArg Regs.p hr3
  simp only [regs, ea, ex, ey, ep]

/-- The program JSR 0x9000 … 0x9000: JSR 0xa000; RTS … 0xa000: PHA; PLA; RTS. -/
def callProgram : Mem := fun a =>
  if a = 0x80fd then 0x20 else if a = 0x80ff then 0x90 else
  if a = 0x9000 then 0x20 else if a = 0x9002 then 0xa0 else if a = 0x9003 then 0x60 else
  if a = 0xa000 then 0x48 else if a = 0xa001 then 0x68 else if a = 0xa002 then 0x60 else 0

/-- The sample registers in front of it. -/
def callProgramStart : Mos6502 FlatRam := withRegs sampleRegs ⟨callProgram⟩

/-- The hypotheses of `C27_call_return` are met by a routine that itself calls a routine that pushes
and pulls, with the stack pointer wrapping around. -/
example : ∃ c₀ c₁ c₂ c₃ : Mos6502 FlatRam, regs c₀ = sampleRegs ∧
    Step .debug c₀ (.JsrAbsolute 0x9000) c₁ ∧
    StackRun .debug c₁ [0xff, 0x80] c₂ [0xff, 0x80] ∧ Step .debug c₂ .RtsImplied c₃ ∧
    c₂.pc = 0x9003 ∧ c₃.pc = 0x8100 := by
  refine ⟨afterN .debug callProgramStart 0, afterN .debug callProgramStart 1, afterN .debug callProgramStart 5,
    afterN .debug callProgramStart 6, rfl, step_afterN (by decide +kernel), ?_, step_afterN (by decide +kernel),
    by decide +kernel, by decide +kernel⟩
  refine .push (c' := afterN .debug callProgramStart 2) (i := .JsrAbsolute 0xa000) (step_afterN (by decide +kernel)) rfl (by decide) ?_
  refine .push (c' := afterN .debug callProgramStart 3) (i := .PhaImplied) (step_afterN (by decide +kernel)) rfl (by decide) ?_
  refine .pull (c' := afterN .debug callProgramStart 4) (i := .PlaImplied) (bs := [0x8f]) (step_afterN (by decide +kernel)) rfl ?_
  refine .pull (c' := afterN .debug callProgramStart 5) (i := .RtsImplied) (bs := [0x02, 0x90]) (step_afterN (by decide +kernel)) rfl ?_
  exact .done

/-! ## C28 Pushes and pulls -/

/-- After any execution that uses the stack as a stack, PLA loads the byte that the execution left on
top (the one pushed last and not yet pulled). -/
theorem C28_pla {v : Byte} (hI : Coherent b I) (hm : I c₀.address_map mem)
    (hl : StackHolds mem c₀.sp l) (hrun : StackRun b c₀ l c₁ (v :: l₁))
    (hpull : Step b c₁ i c₂) (hi : view i = (.Pla, .implied)) :
    regs c₂ = { regs c₁ with
      a := v, sp := c₁.sp + 1, p := setNZ c₁.ps v, pc := word (c₁.pc.toNat + 1) } ∧
    ∃ mem', I c₂.address_map mem' ∧ StackHolds mem' c₂.sp l₁ := by
  obtain ⟨m1, hm1, h1, -⟩ := stackRun_holds hI hrun hm hl
  obtain ⟨hm2, h2, -⟩ := pull_holds hI (bs := [v]) hm1 hpull (by rw [hi]; rfl) h1
  obtain ⟨hr, -⟩ := step_mem hI hm1 hpull
  refine ⟨?_, m1, hm2, h2⟩
  have hv : m1 (stack (c₁.sp + 1).toNat) = v := by
    have b0 := h1.2 0 (by simp)
    simp only [List.getElem_cons_zero] at b0
    rw [← b0]
    congr 1
    have : (c₁.sp + 1).toNat = (c₁.sp.toNat + 1) % 256 := toNat_add_byte c₁.sp 1 (by omega)
    exact stack_congr (by omega)
  rw [hr, hi]
  have : (regs c₁).sp = c₁.sp := rfl
  simp only [codeEffect, this, hv]
  rfl

/-- The same for PLP. -/
theorem C28_plp {v : Byte} (hI : Coherent b I) (hm : I c₀.address_map mem)
    (hl : StackHolds mem c₀.sp l) (hrun : StackRun b c₀ l c₁ (v :: l₁))
    (hpull : Step b c₁ i c₂) (hi : view i = (.Plp, .implied)) :
    regs c₂ = { regs c₁ with
      sp := c₁.sp + 1, p := ProcessorStatus.withValue v, pc := word (c₁.pc.toNat + 1) } ∧
    ∃ mem', I c₂.address_map mem' ∧ StackHolds mem' c₂.sp l₁ := by
  obtain ⟨m1, hm1, h1, -⟩ := stackRun_holds hI hrun hm hl
  obtain ⟨hm2, h2, -⟩ := pull_holds hI (bs := [v]) hm1 hpull (by rw [hi]; rfl) h1
  obtain ⟨hr, -⟩ := step_mem hI hm1 hpull
  refine ⟨?_, m1, hm2, h2⟩
  have hv : m1 (stack (c₁.sp + 1).toNat) = v := by
    have b0 := h1.2 0 (by simp)
    simp only [List.getElem_cons_zero] at b0
    rw [← b0]
    congr 1
    have : (c₁.sp + 1).toNat = (c₁.sp.toNat + 1) % 256 := toNat_add_byte c₁.sp 1 (by omega)
    exact stack_congr (by omega)
  rw [hr, hi]
  have : (regs c₁).sp = c₁.sp := rfl
  simp only [codeEffect, this, hv]
  rfl

/-- PHA, then any balanced use of the stack, then PLA: A and the stack pointer are back. -/
theorem C28_pha_pla (hI : Coherent b I) (hm : I c₀.address_map mem)
    (hl : StackHolds mem c₀.sp l) (hroom : l.length + 1 ≤ 256)
    (hpush : Step b c₀ i c₁) (hi : view i = (.Pha, .implied))
    (hrun : StackRun b c₁ (c₀.acc :: l) c₂ (c₀.acc :: l))
    (hpull : Step b c₂ j c₃) (hj : view j = (.Pla, .implied)) :
    c₃.acc = c₀.acc ∧ c₃.sp = c₀.sp ∧ c₃.x = c₂.x ∧ c₃.y = c₂.y ∧ c₃.ps = setNZ c₂.ps c₀.acc := by
  obtain ⟨m1, hm1, h1, e1⟩ := push_holds hI hm hpush (bs := [c₀.acc]) (by rw [hi]; rfl)
    (by simp; omega) hl
  obtain ⟨m2, hm2, h2, e2⟩ := stackRun_holds hI hrun hm1 h1
  obtain ⟨-, -, e3⟩ := pull_holds hI (bs := [c₀.acc]) hm2 hpull (by rw [hj]; rfl) h2
  obtain ⟨hr, -⟩ := C28_pla hI hm1 h1 hrun hpull hj
  refine ⟨congrArg Regs.a hr, ?_, congrArg Regs.x hr, congrArg Regs.y hr, congrArg Regs.p hr⟩
  apply BitVec.eq_of_toNat_eq
  have := c₀.sp.isLt
  simp only [List.length_cons, List.length_nil] at e1 e2 e3
  omega

/-- PHP, then any balanced use of the stack, then PLP: all flags and the stack pointer are back. -/
theorem C28_php_plp (hI : Coherent b I) (hm : I c₀.address_map mem)
    (hl : StackHolds mem c₀.sp l) (hroom : l.length + 1 ≤ 256)
    (hpush : Step b c₀ i c₁) (hi : view i = (.Php, .implied))
    (hrun : StackRun b c₁ (c₀.ps.read :: l) c₂ (c₀.ps.read :: l))
    (hpull : Step b c₂ j c₃) (hj : view j = (.Plp, .implied)) :
    c₃.ps = c₀.ps ∧ c₃.sp = c₀.sp ∧ c₃.acc = c₂.acc ∧ c₃.x = c₂.x ∧ c₃.y = c₂.y := by
  obtain ⟨m1, hm1, h1, e1⟩ := push_holds hI hm hpush (bs := [c₀.ps.read]) (by rw [hi]; rfl)
    (by simp; omega) hl
  obtain ⟨m2, hm2, h2, e2⟩ := stackRun_holds hI hrun hm1 h1
  obtain ⟨-, -, e3⟩ := pull_holds hI (bs := [c₀.ps.read]) hm2 hpull (by rw [hj]; rfl) h2
  obtain ⟨hr, -⟩ := C28_plp hI hm1 h1 hrun hpull hj
  refine ⟨(congrArg Regs.p hr).trans (C11_flags_round_trip _), ?_, congrArg Regs.a hr,
    congrArg Regs.x hr, congrArg Regs.y hr⟩
  apply BitVec.eq_of_toNat_eq
  have := c₀.sp.isLt
  simp only [List.length_cons, List.length_nil] at e1 e2 e3
  omega

/-- Pushes really push: the byte lands on top of everything that was there. -/
theorem C28_push {bs : List Byte} (hI : Coherent b I) (hm : I c₀.address_map mem)
    (hl : StackHolds mem c₀.sp l) (hpush : Step b c₀ i c₁)
    (hp : pushed (regs c₀) (view i).1 = some bs) (hroom : bs.length + l.length ≤ 256) :
    (c₁.sp.toNat + bs.length) % 256 = c₀.sp.toNat ∧
    ∃ mem', I c₁.address_map mem' ∧ StackHolds mem' c₁.sp (bs.reverse ++ l) := by
  obtain ⟨m1, hm1, h1, e1⟩ := push_holds hI hm hpush hp hroom hl
  exact ⟨e1, m1, hm1, h1⟩

/-- An execution PHA; PHP; NOP; STA 0x0200; PLP; PLA from stack pointer 1 (it wraps). -/
def pushProgram : Mem := fun a =>
  if a = 0x80fd then 0x48 else if a = 0x80fe then 0x08 else if a = 0x80ff then 0xea else
  if a = 0x8100 then 0x8d else if a = 0x8101 then 0x00 else if a = 0x8102 then 0x02 else
  if a = 0x8103 then 0x28 else if a = 0x8104 then 0x68 else 0

/-- The sample registers in front of it. -/
def pushProgramStart : Mos6502 FlatRam := withRegs sampleRegs ⟨pushProgram⟩

theorem writable_none {r : Regs} {mem : Mem} {mn : Mnemonic} {am : AddrMode} {p : Word → Prop}
    (h : writable r mem mn am = []) : ∀ a ∈ writable r mem mn am, p a := by
  rw [h]; intro a ha; cases ha

/-- The hypotheses of `C28_pha_pla` and `C28_php_plp` are met. -/
example : ∃ c₀ c₁ c₂ c₃ : Mos6502 FlatRam, regs c₀ = sampleRegs ∧
    Step .debug c₀ .PhaImplied c₁ ∧ StackRun .debug c₁ [0x8f] c₂ [0x8f] ∧
    Step .debug c₂ .PlaImplied c₃ ∧ c₁.sp = 0 ∧ c₂.pc = 0x8104 := by
  refine ⟨afterN .debug pushProgramStart 0, afterN .debug pushProgramStart 1, afterN .debug pushProgramStart 5,
    afterN .debug pushProgramStart 6, rfl, step_afterN (by decide +kernel), ?_, step_afterN (by decide +kernel),
    by decide +kernel, by decide +kernel⟩
  refine .push (c' := afterN .debug pushProgramStart 2) (i := .PhpImplied) (step_afterN (by decide +kernel)) rfl (by decide) ?_
  refine .other (c' := afterN .debug pushProgramStart 3) (i := .NopImplied) (step_afterN (by decide +kernel)) rfl
    (fun _ _ => writable_none rfl) ?_
  refine .other (c' := afterN .debug pushProgramStart 4) (i := .StaAbsolute 0x0200) (step_afterN (by decide +kernel)) rfl ?_ ?_
  · intro mem _ a ha k hk he
    have ha' : a = 0x0200 := by
      have : a ∈ ([0x0200] : List Word) := ha
      simpa using this
    subst ha'
    have := congrArg BitVec.toNat he
    unfold stack at this
    rw [toNat_word] at this
    have h2 : (0x0200 : Word).toNat = 512 := rfl
    omega
  · refine .pull (c' := afterN .debug pushProgramStart 5) (i := .PlpImplied) (bs := [0xa5]) (step_afterN (by decide +kernel)) rfl ?_
    exact .done

/-! ## C29 BRK and RTI -/

/-- What C29 claims: after BRK, a handler that uses the stack as a stack, and RTI, the machine is
back at the BRK address plus 2 with the flags and stack pointer it had. -/
def C29_statement : Prop :=
  ∀ (B : Type) [Addressable B] (b : Build) (I : B → Mem → Prop) (c₀ c₁ c₂ c₃ : Mos6502 B)
    (mem₁ : Mem) (l : List Byte), Coherent b I → (∃ mem, I c₀.address_map mem) →
    Step b c₀ .BrkImplied c₁ → I c₁.address_map mem₁ → StackHolds mem₁ c₁.sp l → l.length = 3 →
    StackRun b c₁ l c₂ l → Step b c₂ .RtiImplied c₃ →
    c₃.ps = c₀.ps ∧ c₃.sp = c₀.sp ∧ c₃.pc = word (c₀.pc.toNat + 2)

/-- The program BRK at 0x80fd, with the vector pointing at an RTI at 0x9000. -/
def brkProgram : Mem := fun a => if a = 0xffff then 0x90 else if a = 0x9000 then 0x40 else 0

/-- The sample registers in front of it. -/
def brkProgramStart : Mos6502 FlatRam := withRegs sampleRegs ⟨brkProgram⟩

theorem brkProgram_stack : StackHolds (afterN .debug brkProgramStart 1).address_map.mem
    (afterN .debug brkProgramStart 1).sp [0xa5, 0x80, 0xfe] := by
  refine ⟨by decide, ?_⟩
  have : ∀ k : Fin 3, (afterN .debug brkProgramStart 1).address_map.mem
      (stack ((afterN .debug brkProgramStart 1).sp.toNat + 1 + k.val)) =
      ([0xa5, 0x80, 0xfe] : List Byte)[k] := by decide +kernel
  intro k hk
  exact this ⟨k, hk⟩

/-- RTI resumes at 0xfe81 instead of 0x80ff. -/
theorem C29_resumes_wrong : ¬ C29_statement := by
  intro h
  have h' := h FlatRam .debug _ (afterN .debug brkProgramStart 0) (afterN .debug brkProgramStart 1)
    (afterN .debug brkProgramStart 1) (afterN .debug brkProgramStart 2) _ _
    (flatRam_coherent .debug) ⟨_, rfl⟩ (step_afterN (by decide +kernel)) rfl brkProgram_stack rfl .done
    (step_afterN (by decide +kernel))
  have h'' := h'.2.2
  revert h''; decide +kernel

/-- What holds: the flags and the stack pointer are restored; execution resumes at the address made
of the swapped bytes of `pc + 1`, plus 1; this is the documented address exactly if the two bytes of
`pc + 1` are equal. -/
theorem C29_partial {mem₁ : Mem} (hI : Coherent b I) (hm : I c₀.address_map mem)
    (hbrk : Step b c₀ i c₁) (hi : view i = (.Brk, .implied))
    (hm1 : I c₁.address_map mem₁) (hl : StackHolds mem₁ c₁.sp l) (hlen : 3 ≤ l.length)
    (hrun : StackRun b c₁ l c₂ l) (hrti : Step b c₂ j c₃) (hj : view j = (.Rti, .implied)) :
    c₁.pc = word ((mem 0xfffe).toNat + 256 * (mem 0xffff).toNat) ∧
    c₁.ps = { c₀.ps with brk := true, interrupt_disable := true } ∧
    c₃.ps = c₀.ps ∧ c₃.sp = c₀.sp ∧ c₃.acc = c₂.acc ∧ c₃.x = c₂.x ∧ c₃.y = c₂.y ∧
    c₃.pc = word ((c₀.pc.toNat + 1) % 65536 / 256 + 256 * ((c₀.pc.toNat + 1) % 256) + 1) ∧
    (c₃.pc = word (c₀.pc.toNat + 2) ↔
      (c₀.pc.toNat + 1) % 65536 / 256 = (c₀.pc.toNat + 1) % 256) := by
  obtain ⟨hr1, hm1'⟩ := step_mem hI hm hbrk
  obtain ⟨m2, hm2, h2, e2⟩ := stackRun_holds hI hrun hm1 hl
  obtain ⟨hr3, -⟩ := step_mem hI hm2 hrti
  rw [hi] at hr1 hm1'
  rw [hj] at hr3
  have hmem := busView_unique (hI _ _ hm1).1 (hI _ _ hm1').1
  have s1 : c₁.sp = c₀.sp - 3 := congrArg Regs.sp hr1
  have s3 : c₃.sp = c₂.sp + 3 := congrArg Regs.sp hr3
  have n0 := c₀.sp.isLt
  have n1 := c₁.sp.isLt
  have n2 := c₂.sp.isLt
  have e1 : c₁.sp.toNat = (c₀.sp.toNat + 253) % 256 := by
    rw [s1]; exact toNat_sub_byte c₀.sp 3 (by omega)
  have e3 : c₃.sp.toNat = (c₂.sp.toNat + 3) % 256 := by
    rw [s3]; exact toNat_add_byte c₂.sp 3 (by omega)
  have d1 : (c₀.sp - 1).toNat = (c₀.sp.toNat + 255) % 256 := toNat_sub_byte c₀.sp 1 (by omega)
  have d2 : (c₀.sp - 2).toNat = (c₀.sp.toNat + 254) % 256 := toNat_sub_byte c₀.sp 2 (by omega)
  have u1 : (c₂.sp + 1).toNat = (c₂.sp.toNat + 1) % 256 := toNat_add_byte c₂.sp 1 (by omega)
  have u2 : (c₂.sp + 2).toNat = (c₂.sp.toNat + 2) % 256 := toNat_add_byte c₂.sp 2 (by omega)
  have u3 : (c₂.sp + 3).toNat = (c₂.sp.toNat + 3) % 256 := toNat_add_byte c₂.sp 3 (by omega)
  -- what BRK pushed
  have hlw := hi_lo_word (c₀.pc + 1)
  have e4 : (c₀.pc + 1).toNat = (c₀.pc.toNat + 1) % 65536 := by rw [BitVec.toNat_add]; rfl
  have v0 : l[0] = c₀.ps.read := by
    rw [← hl.2 0 (by omega), hmem]
    simp only [codeEffect, List.foldl, upd, regs]
    rw [if_pos (stack_congr (by omega))]
  have v1 : l[1] = (u16ToLeBytes (c₀.pc + 1)).2 := by
    rw [← hl.2 1 (by omega), hmem]
    simp only [codeEffect, List.foldl, upd, regs]
    rw [if_neg (fun h => by have := stack_inj h; omega), if_pos (stack_congr (by omega))]
  have v2 : l[2] = (u16ToLeBytes (c₀.pc + 1)).1 := by
    rw [← hl.2 2 (by omega), hmem]
    simp only [codeEffect, List.foldl, upd, regs]
    rw [if_neg (fun h => by have := stack_inj h; omega),
      if_neg (fun h => by have := stack_inj h; omega), if_pos (stack_congr (by omega))]
  have w0 : m2 (stack (c₂.sp + 1).toNat) = c₀.ps.read := by
    rw [← v0, ← h2.2 0 (by omega)]; congr 1; exact stack_congr (by omega)
  have w1 : m2 (stack (c₂.sp + 2).toNat) = (u16ToLeBytes (c₀.pc + 1)).2 := by
    rw [← v1, ← h2.2 1 (by omega)]; congr 1; exact stack_congr (by omega)
  have w2 : m2 (stack (c₂.sp + 3).toNat) = (u16ToLeBytes (c₀.pc + 1)).1 := by
    rw [← v2, ← h2.2 2 (by omega)]; congr 1; exact stack_congr (by omega)
  have hps : c₃.ps = ProcessorStatus.withValue (m2 (stack (c₂.sp + 1).toNat)) := congrArg Regs.p hr3
  have hpc : c₃.pc = u16FromLeBytes (m2 (stack (c₂.sp + 2).toNat)) (m2 (stack (c₂.sp + 3).toNat)) +
    BitVec.ofNat 16 1 := congrArg Regs.pc hr3
  have hpc' : c₃.pc = word ((c₀.pc.toNat + 1) % 65536 / 256 + 256 * ((c₀.pc.toNat + 1) % 256) + 1) := by
    rw [hpc, w1, w2, hlw.1, hlw.2, e4]
    apply BitVec.eq_of_toNat_eq
    rw [BitVec.toNat_add, toNat_u16FromLeBytes, toNat_word, toNat_byte, toNat_byte]
    have q1 : (c₀.pc.toNat + 1) % 256 = (c₀.pc.toNat + 1) % 65536 % 256 := by omega
    have q2 : (c₀.pc.toNat + 1) % 65536 / 256 % 256 = (c₀.pc.toNat + 1) % 65536 / 256 := by omega
    rw [q1, q2]
    rfl
  refine ⟨?_, congrArg Regs.p hr1, ?_, ?_, congrArg Regs.a hr3, congrArg Regs.x hr3,
    congrArg Regs.y hr3, hpc', ?_⟩
  · have : c₁.pc = u16FromLeBytes (mem 0xfffe) (mem 0xffff) := congrArg Regs.pc hr1
    rw [this, u16FromLeBytes_eq]
  · rw [hps, w0]; exact C11_flags_round_trip _
  · apply BitVec.eq_of_toNat_eq; omega
  · have hlt := c₀.pc.isLt
    rw [hpc']
    have q1 : (c₀.pc.toNat + 1) % 256 = (c₀.pc.toNat + 1) % 65536 % 256 := by omega
    have q2 : word (c₀.pc.toNat + 2) = word ((c₀.pc.toNat + 1) % 65536 + 1) := by
      apply BitVec.eq_of_toNat_eq; rw [toNat_word, toNat_word]; omega
    rw [q1, q2]
    have q3 : (c₀.pc.toNat + 1) % 65536 < 65536 := by omega
    generalize (c₀.pc.toNat + 1) % 65536 = q at *
    constructor
    · intro h
      have := congrArg BitVec.toNat h
      rw [toNat_word, toNat_word] at this
      have q4 : q / 256 + 256 * (q % 256) + 1 ≤ 65536 := by omega
      by_cases q5 : q = 65535
      · subst q5; rfl
      · by_cases q6 : q / 256 + 256 * (q % 256) + 1 = 65536
        · omega
        · omega
    · intro h
      apply BitVec.eq_of_toNat_eq
      rw [toNat_word, toNat_word]
      omega

/-- BRK at 0x80fd followed at once by RTI meets the hypotheses. -/
example : ∃ (c₀ c₁ c₃ : Mos6502 FlatRam), regs c₀ = sampleRegs ∧ Step .debug c₀ .BrkImplied c₁ ∧
    StackHolds c₁.address_map.mem c₁.sp [0xa5, 0x80, 0xfe] ∧ Step .debug c₁ .RtiImplied c₃ := by
  exact ⟨afterN .debug brkProgramStart 0, afterN .debug brkProgramStart 1,
    afterN .debug brkProgramStart 2, rfl, step_afterN (by decide +kernel), brkProgram_stack,
    step_afterN (by decide +kernel)⟩

end Verif.Props
