import Verif.Proofs.Chip8Effect
import Verif.Proofs.Chip8Sample

/-!
# CHIP-8: calls, flags, screen clearing, waiting for keys, timers (C42 – C44, C53, C55, C56)

C42, C43, C44 and C55 are false of the code: each full statement is refuted by a concrete machine,
and a `_partial` theorem says exactly what the code does.
-/

namespace Verif.Props.Chip8

open Verif Verif.Chip8 Verif.Spec.Chip8
open Verif.Mos (FlatRam)
open Verif.Spec.Mos (Mem BusView writeAll)

variable {B R : Type} [Addressable B] {b : Build} {e e' : Env} {cpu cpu' : Chip8 B R} {mem : Mem}
  {x y : GpRegisters} {a : U12}

/-! ## C42 CALL and RET -/

/-- C42 in full: CALL nnn goes to nnn, and a RET with the stack as CALL left it goes to the
instruction after the CALL. -/
def C42_statement : Prop :=
  ∀ (B R : Type) [Addressable B] (b : Build) (e e' : Env) (c₀ c₁ c₂ c₃ : Chip8 B R) (mem : Mem)
    (a : U12), BusView b c₂.address_space mem → WellFormed c₀ →
    At b c₀ (.Call a) → StepsTo b e c₀ c₁ →
    At b c₂ .Ret → c₂.stack = c₁.stack → c₂.sp = c₁.sp → StepsTo b e' c₂ c₃ →
    c₁.pc = a.val ∧ c₃.pc.toNat = (c₀.pc.toNat + 2) % 65536

/-- CALL nnn: goes to nnn and writes its own address to the stack cell `sp`; `sp` and everything
else stay as they are. -/
theorem C42_call (hat : At b cpu (.Call a)) (hw : WellFormed cpu) :
    StepsTo b e cpu { cpu with
      pc := a.val
      stack := { cpu.stack with inner := cpu.stack.inner.set (cpu.sp.inner.toNat % 16) cpu.pc } } :=
  step_to (mem := fun _ => 0) hat ⟨id, fun h => h.2⟩ (by simp) (fun _ => hw) rfl

/-- RET: goes to the address in the stack cell `sp`; everything else stays as it is. -/
theorem C42_ret (hat : At b cpu .Ret) (hw : WellFormed cpu) :
    StepsTo b e cpu { cpu with pc := cpu.stack.inner[cpu.sp.inner.toNat % 16]?.getD 0 } :=
  step_to (mem := fun _ => 0) hat ⟨id, fun h => h.2⟩ (by simp) (fun _ => hw) rfl

/-- What the code does: CALL goes to nnn, and RET goes back to the CALL itself, which then runs
again. Missing for C42: the return address is not the one after the CALL. -/
theorem C42_partial {c₀ c₁ c₂ c₃ : Chip8 B R} (hw : WellFormed c₀)
    (h₀ : At b c₀ (.Call a)) (s₀ : StepsTo b e c₀ c₁)
    (h₂ : At b c₂ .Ret) (hst : c₂.stack = c₁.stack) (hsp : c₂.sp = c₁.sp)
    (s₂ : StepsTo b e' c₂ c₃) : c₁.pc = a.val ∧ c₃.pc = c₀.pc := by
  have k₀ := C42_call (e := e) h₀ hw
  unfold StepsTo at k₀ s₀ s₂
  rw [s₀] at k₀
  have k₀ : c₁ = { c₀ with
      pc := a.val
      stack := { c₀.stack with inner := c₀.stack.inner.set (c₀.sp.inner.toNat % 16) c₀.pc } } := by
    simpa using k₀
  subst k₀
  simp only at hst hsp
  have hw₂ : WellFormed c₂ := by
    unfold WellFormed
    rw [hst]
    exact ⟨hw.1, by simp [hw.2]⟩
  have k₂ := C42_ret (e := e') h₂ hw₂
  unfold StepsTo at k₂
  rw [s₂] at k₂
  have k₂ : c₃ = { c₂ with pc := c₂.stack.inner[c₂.sp.inner.toNat % 16]?.getD 0 } := by
    simpa using k₂
  subst k₂
  refine ⟨rfl, ?_⟩
  simp only [hst, hsp]
  rw [List.getElem?_set_self (by rw [hw.2]; omega)]
  rfl

/-- A machine that calls 0x210 from 0x200, with a RET at 0x210. -/
def callSample : Chip8 FlatRam Unit :=
  let c := place sample (.Call ⟨0x210⟩)
  { c with address_space := { mem := placeMem c.address_space.mem 0x210 .Ret } }

/-- C42 is false: after `2210` at 0x200 and RET at 0x210 execution continues at 0x200. -/
theorem C42_ret_to_call_itself : ¬ C42_statement := by
  intro h
  have h₀ : At .debug callSample (.Call ⟨0x210⟩) :=
    (C40_fetch (view _ callSample) (by decide) _).2 ⟨show (0x210 : Nat) < 0x1000 by decide, by decide⟩
  have s₀ := C42_call (e := ⟨0, 0, 0, 0⟩) h₀ ⟨rfl, rfl⟩
  let c₁ : Chip8 FlatRam Unit := { callSample with
    pc := 0x210
    stack := { callSample.stack with inner := callSample.stack.inner.set 3 0x200 } }
  have h₂ : At .debug c₁ .Ret := (C40_fetch (view _ c₁) (by decide) _).2 ⟨trivial, by decide⟩
  have s₂ := C42_ret (e := ⟨0, 0, 0, 0⟩) h₂ ⟨rfl, rfl⟩
  have := (h FlatRam Unit .debug _ _ _ c₁ c₁ _ _ _ (view _ c₁) ⟨rfl, rfl⟩ h₀ s₀ h₂ rfl rfl s₂).2
  revert this
  decide

/-! ## C43 Nested calls -/

/-- A sequence of calls; between them anything may happen that leaves the stack and its pointer
alone. The list holds the addresses of the calls, the latest first. -/
inductive Calls (b : Build) : Chip8 B R → List Word → Chip8 B R → Prop
  | nil {c c' : Chip8 B R} : c'.stack = c.stack → c'.sp = c.sp → Calls b c [] c'
  | call {c c₁ c₂ c₃ : Chip8 B R} {l : List Word} {a : U12} {e : Env} :
      Calls b c l c₁ → At b c₁ (.Call a) → StepsTo b e c₁ c₂ →
      c₃.stack = c₂.stack → c₃.sp = c₂.sp → Calls b c (c₁.pc :: l) c₃

/-- A sequence of returns, as `Calls`. The list holds the addresses at which execution continued,
the first return first. -/
inductive Returns (b : Build) : Chip8 B R → List Word → Chip8 B R → Prop
  | nil {c c' : Chip8 B R} : c'.stack = c.stack → c'.sp = c.sp → Returns b c [] c'
  | ret {c c₁ c₂ c₃ c' : Chip8 B R} {l : List Word} {e : Env} :
      c₁.stack = c.stack → c₁.sp = c.sp → At b c₁ .Ret → StepsTo b e c₁ c₂ →
      c₃.stack = c₂.stack → c₃.sp = c₂.sp → Returns b c₃ l c' → Returns b c (c₂.pc :: l) c'

/-- C43 in full, with `after` the address a return from the call at a given address goes to: up to
16 calls can be nested, as many returns go back in reverse order, and the stack pointer counts the
depth. -/
def C43_statement (after : Word → Word) : Prop :=
  ∀ (B R : Type) [Addressable B] (b : Build) (c₀ c₁ c₂ : Chip8 B R) (l l' : List Word),
    WellFormed c₀ → Calls b c₀ l c₁ → l.length ≤ 16 → Returns b c₁ l' c₂ → l'.length = l.length →
    l' = l.map after ∧ c₁.sp.read.toNat = (c₀.sp.read.toNat + l.length) % 16 ∧
    c₂.sp.read = c₀.sp.read

omit [Addressable B] in
theorem stepsTo_inj [Addressable B] {c c₁ c₂ : Chip8 B R} (h₁ : StepsTo b e c c₁)
    (h₂ : StepsTo b e c c₂) : c₁ = c₂ := by
  unfold StepsTo at h₁ h₂
  rw [h₁] at h₂
  simpa using h₂

/-- Calls leave the stack pointer where it was, and the cell it selects holds the address of the
latest call. -/
theorem calls_stack {c c' : Chip8 B R} {l : List Word} (hw : WellFormed c) (h : Calls b c l c') :
    WellFormed c' ∧ c'.sp = c.sp ∧
    ∀ w l', l = w :: l' → c'.stack.inner[c'.sp.inner.toNat % 16]?.getD 0 = w := by
  induction h with
  | nil h1 h2 =>
    refine ⟨by unfold WellFormed; rw [h1]; exact hw, h2, ?_⟩
    intro w l' h
    cases h
  | @call c₁ c₂ c₃ l a e hc hat hs h1 h2 ih =>
    obtain ⟨ih1, ih2, -⟩ := ih
    have := stepsTo_inj hs (C42_call (e := e) hat ih1)
    subst this
    simp only at h1 h2
    refine ⟨by unfold WellFormed; rw [h1]; exact ⟨ih1.1, by simp [ih1.2]⟩, by rw [h2, ih2], ?_⟩
    intro w l' hl
    cases hl
    rw [h1, h2, List.getElem?_set_self (by rw [ih1.2]; omega)]
    rfl

/-- What the code does: the stack pointer never moves, every return goes to the latest call, and
so only calls of depth one return where they came from. Missing for C43: all deeper levels. -/
theorem C43_partial {c₀ c₁ c₂ : Chip8 B R} {w : Word} {l l' : List Word} (hw : WellFormed c₀)
    (hc : Calls b c₀ (w :: l) c₁) (hr : Returns b c₁ l' c₂) :
    l' = List.replicate l'.length w ∧ c₁.sp = c₀.sp ∧ c₂.sp = c₀.sp := by
  obtain ⟨hw₁, hsp, hcell⟩ := calls_stack hw hc
  replace hcell := hcell w l rfl
  rw [← hsp]
  have key : WellFormed c₁ → c₁.stack.inner[c₁.sp.inner.toNat % 16]?.getD 0 = w →
      l' = List.replicate l'.length w ∧ c₂.sp = c₁.sp := by
    clear hcell hsp hw₁ hc hw
    intro hw₁ hcell
    induction hr with
    | nil h1 h2 => exact ⟨rfl, h2⟩
    | @ret c c₁ c₂ c₃ c' l e h1 h2 hat hs h3 h4 hr ih =>
      have hw' : WellFormed c₁ := by unfold WellFormed; rw [h1]; exact hw₁
      have := stepsTo_inj hs (C42_ret (e := e) hat hw')
      subst this
      simp only at h3 h4
      obtain ⟨ih1, ih2⟩ := ih (by unfold WellFormed; rw [h3, h1]; exact hw₁)
        (by rw [h3, h4, h1, h2]; exact hcell)
      refine ⟨?_, by rw [ih2, h4, h2]⟩
      have e1 : c₁.stack.inner[c₁.sp.inner.toNat % 16]?.getD 0 = w := by rw [h1, h2]; exact hcell
      simp only [List.length_cons, List.replicate_succ, e1]
      rw [← ih1]
  obtain ⟨k1, k2⟩ := key hw₁ hcell
  exact ⟨k1, rfl, k2⟩

/-- No instruction ever moves the stack pointer. -/
theorem C43_sp_never_moves_partial {op : Opcode} (hat : At b cpu op) (hv : BusView b cpu.address_space mem)
    (hw : WellFormed cpu) (hs : StepsTo b e cpu cpu') : cpu'.sp = cpu.sp := by
  obtain ⟨-, bus, -, rfl⟩ := step_inv hat hv hw hs
  show (after e mem cpu op).sp = _
  cases op <;> first | rfl | (simp only [after]; split <;> rfl)

/-- A machine that calls 0x210 from 0x200, with `2220` at 0x210 and a RET at 0x220. -/
def nestedSample : Chip8 FlatRam Unit :=
  let c := place sample (.Call ⟨0x210⟩)
  let m := placeMem (placeMem c.address_space.mem 0x210 (.Call ⟨0x220⟩)) 0x220 .Ret
  { c with address_space := { mem := m } }

/-- The two calls of that machine and two returns after them. -/
theorem nestedSample_runs : ∃ c : Chip8 FlatRam Unit, c.sp = nestedSample.sp ∧
    Calls .debug nestedSample [0x210, 0x200] c ∧ Returns .debug c [0x210, 0x210] c := by
  have h₀ : At .debug nestedSample (.Call ⟨0x210⟩) :=
    (C40_fetch (view _ nestedSample) (by decide) _).2
      ⟨show (0x210 : Nat) < 0x1000 by decide, by decide⟩
  have s₀ := C42_call (e := ⟨0, 0, 0, 0⟩) h₀ ⟨rfl, rfl⟩
  let c₁ : Chip8 FlatRam Unit := { nestedSample with
    pc := 0x210
    stack := { nestedSample.stack with inner := nestedSample.stack.inner.set 3 0x200 } }
  have h₁ : At .debug c₁ (.Call ⟨0x220⟩) := (C40_fetch (view _ c₁) (by decide) _).2
    ⟨show (0x220 : Nat) < 0x1000 by decide, by decide⟩
  have s₁ := C42_call (e := ⟨0, 0, 0, 0⟩) h₁ ⟨rfl, rfl⟩
  let c₂ : Chip8 FlatRam Unit := { c₁ with
    pc := 0x220
    stack := { c₁.stack with inner := c₁.stack.inner.set 3 0x210 } }
  have h₂ : At .debug c₂ .Ret := (C40_fetch (view _ c₂) (by decide) _).2 ⟨trivial, by decide⟩
  have s₂ := C42_ret (e := ⟨0, 0, 0, 0⟩) h₂ ⟨rfl, rfl⟩
  exact ⟨c₂, rfl, .call (c₁ := c₁) (.call (.nil rfl rfl) h₀ s₀ rfl rfl) h₁ s₁ rfl rfl,
    .ret (c₁ := c₂) (c₃ := c₂) rfl rfl h₂ s₂ rfl rfl
      (.ret (c₁ := c₂) (c₃ := c₂) rfl rfl h₂ s₂ rfl rfl (.nil rfl rfl))⟩

/-- C43 is false, whatever the rule `after` for the address after a call: the stack pointer does
not count. -/
theorem C43_sp_does_not_count (after : Word → Word) : ¬ C43_statement after := by
  intro h
  obtain ⟨c, hsp, hc, hr⟩ := nestedSample_runs
  have := (h FlatRam Unit .debug _ _ _ _ _ ⟨rfl, rfl⟩ hc (by decide) hr rfl).2.1
  rw [hsp] at this
  revert this
  decide

/-- Nor does the order of the returns hold: two nested calls both return to the same place, so no
rule under which they return to different places is met. -/
theorem C43_second_call_overwrites (after : Word → Word) (hne : after 0x210 ≠ after 0x200) :
    ¬ ∀ (c₁ c₂ : Chip8 FlatRam Unit) (l' : List Word), Calls .debug nestedSample [0x210, 0x200] c₁ →
      Returns .debug c₁ l' c₂ → l'.length = 2 → l' = [after 0x210, after 0x200] := by
  intro h
  obtain ⟨c, -, hc, hr⟩ := nestedSample_runs
  have := h _ _ _ hc hr rfl
  simp only [List.cons.injEq, and_true] at this
  exact hne (this.1.symm.trans this.2)

/-! ## C44 Arithmetic with flags -/

/-- The documented result and flag of the instructions that set VF. -/
def flagOp (cpu : Chip8 B R) : Opcode → Option (GpRegisters × Byte × Byte)
  | .AddVxVy x y => some (x, BitVec.ofNat 8 ((V cpu x).toNat + (V cpu y).toNat),
      if 255 < (V cpu x).toNat + (V cpu y).toNat then 1 else 0)
  | .Sub x y => some (x, BitVec.ofNat 8 ((V cpu x).toNat + 256 - (V cpu y).toNat),
      if (V cpu y).toNat ≤ (V cpu x).toNat then 1 else 0)
  | .Subn x y => some (x, BitVec.ofNat 8 ((V cpu y).toNat + 256 - (V cpu x).toNat),
      if (V cpu x).toNat ≤ (V cpu y).toNat then 1 else 0)
  | .Shr x _ => some (x, BitVec.ofNat 8 ((V cpu x).toNat / 2), BitVec.ofNat 8 ((V cpu x).toNat % 2))
  | .Shl x _ => some (x, BitVec.ofNat 8 ((V cpu x).toNat * 2), BitVec.ofNat 8 ((V cpu x).toNat / 128))
  | _ => none

/-- The registers named by an instruction that sets VF. -/
def flagRegs : Opcode → List GpRegisters
  | .AddVxVy x y | .Sub x y | .Subn x y => [x, y]
  | .Shr x _ | .Shl x _ => [x]
  | _ => []

/-- C44 in full. -/
def C44_statement : Prop :=
  ∀ (B R : Type) [Addressable B] (b : Build) (e : Env) (cpu : Chip8 B R) (op : Opcode)
    (x : GpRegisters) (v f : Byte), At b cpu op → flagOp cpu op = some (x, v, f) →
    (∀ r ∈ flagRegs op, r ≠ .Vf) → ∃ c, StepsTo b e cpu c ∧ V c x = v ∧ V c .Vf = f

/-- Every execution of these instructions panics: the emulator has no register VF. -/
theorem C44_always_panics_partial {op : Opcode} {r : GpRegisters × Byte × Byte} (hat : At b cpu op)
    (hv : BusView b cpu.address_space mem) (hop : flagOp cpu op = some r) : StepPanics b e cpu := by
  refine step_panics hat hv fun hr => hr.1 ?_
  cases op <;> first | trivial | (exfalso; simp only [flagOp] at hop; cases hop)

/-- C44 is false: `8124` panics. -/
theorem C44_add_panics : ¬ C44_statement := by
  intro h
  have hat := at_place .debug sample (op := .AddVxVy .V1 .V2) trivial (by decide)
  obtain ⟨c, hs, -⟩ := h _ _ .debug ⟨0, 0, 0, 0⟩ _ _ _ _ _ hat rfl (by decide)
  obtain ⟨p, hp⟩ := C44_always_panics_partial (e := ⟨0, 0, 0, 0⟩) hat (view _ _) rfl
  unfold StepsTo at hs
  rw [hs] at hp
  cases hp

/-- What is right: the instruction computes the documented result and flag; the two register writes
it hands to the executor are exactly these. Missing for C44: the executor has no VF to write. -/
theorem C44_partial {op : Opcode} {v f : Byte} (hop : flagOp cpu op = some (x, v, f))
    (hr : ∀ r ∈ flagRegs op, r ≠ .Vf) :
    ∃ l, generate b e cpu op = .ok l ∧
      (l = [writeGp x v, writeGp .Vf f] ∨ l = [writeGp .Vf f, writeGp x v]) := by
  cases op <;> simp only [flagOp, Option.some.injEq, Prod.mk.injEq, reduceCtorEq] at hop
  case AddVxVy x' y' =>
    obtain ⟨rfl, rfl, rfl⟩ := hop
    have hx := hr x' (by simp [flagRegs])
    have hy := hr y' (by simp [flagRegs])
    refine ⟨_, by simp only [generate, genAddVxVy, read_gp hx, read_gp hy, Res.ok_bind]; rfl, .inl ?_⟩
    congr 2
    · congr 1
      unfold flagU8
      congr 2
      simp only [decide_eq_true_eq, eq_iff_iff]
      omega
  case Sub x' y' =>
    obtain ⟨rfl, rfl, rfl⟩ := hop
    have hx := hr x' (by simp [flagRegs])
    have hy := hr y' (by simp [flagRegs])
    refine ⟨_, by simp only [generate, genSub, read_gp hx, read_gp hy, Res.ok_bind]; rfl, .inl ?_⟩
    congr 2
    · apply BitVec.eq_of_toNat_eq
      have := (V cpu y').isLt
      rw [BitVec.toNat_sub, BitVec.toNat_ofNat]
      omega
    · unfold flagU8
      congr 2
      simp only [Bool.not_eq_true', decide_eq_false_iff_not, eq_iff_iff]
      omega
  case Subn x' y' =>
    obtain ⟨rfl, rfl, rfl⟩ := hop
    have hx := hr x' (by simp [flagRegs])
    have hy := hr y' (by simp [flagRegs])
    refine ⟨_, by simp only [generate, genSubn, read_gp hx, read_gp hy, Res.ok_bind]; rfl, .inl ?_⟩
    congr 2
    · apply BitVec.eq_of_toNat_eq
      have := (V cpu x').isLt
      rw [BitVec.toNat_sub, BitVec.toNat_ofNat]
      omega
    · unfold flagU8
      congr 2
      simp only [Bool.not_eq_true', decide_eq_false_iff_not, eq_iff_iff]
      omega
  case Shl x' y' =>
    obtain ⟨rfl, rfl, rfl⟩ := hop
    have hx := hr x' (by simp [flagRegs])
    refine ⟨_, by simp only [generate, genShl, read_gp hx, Res.ok_bind]; rfl, .inr ?_⟩
    congr 2
    · apply BitVec.eq_of_toNat_eq
      have := (V cpu x').isLt
      simp [Nat.shiftRight_eq_div_pow]
      omega
    · congr 1
      apply BitVec.eq_of_toNat_eq
      simp [Nat.shiftLeft_eq]
  case Shr x' y' =>
    obtain ⟨rfl, rfl, rfl⟩ := hop
    have hx := hr x' (by simp [flagRegs])
    refine ⟨_, by simp only [generate, genShr, read_gp hx, Res.ok_bind]; rfl, .inr ?_⟩
    congr 2
    · apply BitVec.eq_of_toNat_eq
      simp [Nat.and_one_is_mod]
      omega
    · congr 1
      apply BitVec.eq_of_toNat_eq
      have := (V cpu x').isLt
      simp [Nat.shiftRight_eq_div_pow]
      omega

/-- `8124` with 0xfe + 0x0c: result 0x0a and carry. -/
example : generate .debug ⟨0, 0, 0, 0⟩ sample (.AddVxVy .V1 .V2) =
    .ok [writeGp .V1 0x0a, writeGp .Vf 1] := rfl

/-! ## C53 CLS -/

/-- 00E0: every pixel is off, and nothing else changes but `pc`. -/
theorem C53_cls (hat : At b cpu .Cls) :
    ∃ d, StepsTo b e cpu (advance { cpu with display := d } 2) ∧ ∀ x y, lit d x y = false := by
  refine ⟨Display.default, step_to (mem := fun _ => 0) hat ⟨id, fun h => h.2⟩ (by simp) (by simp) rfl,
    fun x y => ?_⟩
  unfold lit Display.default
  split
  · simp
  · rfl

/-- A screen with a lit pixel in each corner. -/
example : ∃ cpu : Chip8 FlatRam Unit, At .debug cpu .Cls ∧ lit cpu.display 63 31 = true ∧
    lit cpu.display 0 0 = true :=
  ⟨place { sample with display := ((sample.display.put 63 31 true).put 0 0 true) } .Cls,
    at_place _ _ trivial (by decide), by decide, by decide⟩

/-! ## C55 Waiting for a key -/

/-- C55 in full. -/
def C55_statement : Prop :=
  ∀ (B R : Type) [Addressable B] (b : Build) (e : Env) (cpu c : Chip8 B R) (x : GpRegisters),
    At b cpu (.LdK x) → x ≠ .Vf → StepsTo b e cpu c →
    (cpu.interrupt = none → c = cpu) ∧
    ∀ key, cpu.interrupt = some (.KeyPress key) →
      c = advance (setV cpu x (BitVec.ofNat 8 (keyNum key))) 2

/-- What the code does: with a key pressed Fx0A stores it and continues, as documented; without
one it also continues, with nothing stored. Missing for C55: the wait. -/
theorem C55_partial (hat : At b cpu (.LdK x)) (hx : x ≠ .Vf) :
    (∀ key, cpu.interrupt = some (.KeyPress key) →
      StepsTo b e cpu (advance (setV cpu x (BitVec.ofNat 8 (keyNum key))) 2)) ∧
    (cpu.interrupt = none → StepsTo b e cpu (advance cpu 2)) := by
  have := step_to (e := e) (mem := fun _ => 0) hat ⟨fun h => hx h.1, fun h => h.2⟩ (by simp) (by simp) rfl
  simp only [after] at this
  constructor
  · intro key hk
    rw [hk] at this
    exact this
  · intro hk
    rw [hk] at this
    exact this

/-- C55 is false: `F10A` with no key pressed does not wait. -/
theorem C55_does_not_wait : ¬ C55_statement := by
  intro h
  have hat := at_place .debug sample (op := .LdK .V1) trivial (by decide)
  have hs := (C55_partial (e := ⟨0, 0, 0, 0⟩) hat (by decide)).2 rfl
  have := (h _ _ .debug _ _ _ _ hat (by decide) hs).1 rfl
  have := congrArg Chip8.pc this
  revert this
  decide

example :
    let cpu := place { sample with interrupt := some (.KeyPress .Key7) } (.LdK .V1)
    ∃ c, StepsTo .debug ⟨0, 0, 0, 0⟩ cpu c ∧ V c .V1 = 7 ∧ c.pc = 0x202 :=
  ⟨_, (C55_partial (at_place _ _ trivial (by decide)) (by decide)).1 .Key7 rfl, rfl, rfl⟩

/-! ## C56 Timers -/

/-- A timer written with `v` at the instant `t` reads, at any instant, as `v` less the whole
seconds since `t`, and not below 0; the read never panics. (Instants are in nanoseconds; a clock
that shows an instant before `t` counts as no time passed.) -/
theorem C56_value (b : Build) (t now : Instant) (v : Byte) :
    ∃ w, (ClockDecrementing.withValue t v).read b now = .ok w ∧
      w.toNat = v.toNat - (now - t) / 1000000000 := by
  refine ⟨_, timer_read _ _, ?_⟩
  unfold timerAt ClockDecrementing.withValue
  have := v.isLt
  rw [BitVec.toNat_ofNat]
  simp only
  omega

/-- Every timer is such a timer. -/
theorem C56_every_timer (r : ClockDecrementing) : ∃ t v, r = ClockDecrementing.withValue t v :=
  ⟨r.written_at, r.inner, rfl⟩

/-- Between writes a timer never goes up. -/
theorem C56_nonincreasing (b b' : Build) (r : ClockDecrementing) {now now' : Instant}
    (h : now ≤ now') {w w' : Byte} (hr : r.read b now = .ok w) (hr' : r.read b' now' = .ok w') :
    w'.toNat ≤ w.toNat := by
  rw [timer_read] at hr hr'
  cases hr
  cases hr'
  unfold timerAt
  have := r.inner.isLt
  rw [BitVec.toNat_ofNat, BitVec.toNat_ofNat]
  have h : @LE.le Nat _ now now' := h
  have : (now - r.written_at) / 1000000000 ≤ (now' - r.written_at) / 1000000000 :=
    Nat.div_le_div_right (by omega)
  omega

/-- One second later a running timer shows exactly one less. -/
theorem C56_one_per_second (b : Build) (r : ClockDecrementing) {now : Instant}
    (h : r.written_at ≤ now) {w w' : Byte} (hr : r.read b now = .ok w)
    (hr' : r.read b (now + 1000000000) = .ok w') : w'.toNat = w.toNat - 1 := by
  rw [timer_read] at hr hr'
  cases hr
  cases hr'
  unfold timerAt
  have h : @LE.le Nat _ r.written_at now := h
  have := r.inner.isLt
  rw [BitVec.toNat_ofNat, BitVec.toNat_ofNat]
  omega

/-- Fx15 and a later Fx07: the register gets Vx less the seconds between the write and the read. -/
theorem C56_program {c₀ c₁ c₂ c₃ : Chip8 B R} (hx : x ≠ .Vf) (hy : y ≠ .Vf)
    (h₀ : At b c₀ (.LdDelayTimerDestTx x)) (s₀ : StepsTo b e c₀ c₁) (hdt : c₂.dt = c₁.dt)
    (h₂ : At b c₂ (.LdDelayTimerSrcTx y)) (s₂ : StepsTo b e' c₂ c₃) :
    (V c₃ y).toNat = (V c₀ x).toNat - (e'.readAt - e.foldAt) / 1000000000 := by
  have k₀ := step_to (e := e) (mem := fun _ => 0) h₀ ⟨hx, fun h => h.2⟩ (by simp) (by simp) rfl
  have := stepsTo_inj s₀ k₀
  subst this
  have k₂ := step_to (e := e') (mem := fun _ => 0) h₂ ⟨hy, fun h => h.2⟩ (by simp) (by simp) rfl
  have := stepsTo_inj s₂ k₂
  subst this
  have : V (after e' (fun _ => 0) c₂ (.LdDelayTimerSrcTx y)) y = timerAt c₂.dt e'.readAt := by
    have := V_setV c₂ hy (timerAt c₂.dt e'.readAt) y
    rw [if_pos rfl] at this
    exact this
  rw [this, hdt]
  show (timerAt ⟨e.foldAt, V c₀ x⟩ e'.readAt).toNat = _
  unfold timerAt
  have := (V c₀ x).isLt
  rw [BitVec.toNat_ofNat]
  simp only
  omega

/-- The timer of `sample`, written with 9 at instant 3, shows 7 after 2.5 seconds. -/
example : sample.dt.read .debug 2500000003 = .ok 7 := by
  rw [timer_read]; rfl

end Verif.Props.Chip8
