import Verif.Spec.Builds
import Verif.Model.Mos.Peripheral
import Verif.Model.Mos.Capture
import Verif.Model.Chip8.Cpu

/-!
# Checked and unchecked builds, function by function
-/

namespace Verif.Spec

open Verif

section
variable {α β : Type}

theorem agree_refl (x : Res α) : Agree x x := .inl rfl

theorem agree_bind {x y : Res α} {f g : α → Res β} (h : Agree x y) (hf : ∀ a, Agree (f a) (g a)) :
    Agree (x >>= f) (y >>= g) := by
  rcases h with rfl | rfl
  · cases x with
    | ok a => exact hf a
    | error e => exact .inl rfl
  · exact .inr rfl

theorem agree_map {x y : Res α} (f : α → β) (h : Agree x y) : Agree (x.map f) (y.map f) := by
  rcases h with rfl | rfl
  · exact .inl rfl
  · exact .inr rfl

theorem agree_if {p : Prop} [Decidable p] {x : Res α} :
    Agree (if (Build.debug.overflowChecks : Prop) ∧ p then .error .overflow else x)
      (if (Build.release.overflowChecks : Prop) ∧ p then .error .overflow else x) := by
  by_cases h : p
  · exact .inr (by simp [Build.debug, h])
  · exact .inl (by simp [Build.debug, Build.release, h])

end

theorem agree_addU16 (x y : Word) : Agree (addU16 .debug x y) (addU16 .release x y) :=
  agree_if

theorem agree_subU16 (x y : Word) : Agree (subU16 .debug x y) (subU16 .release x y) :=
  agree_if

theorem agree_addU8 (x y : Byte) : Agree (addU8 .debug x y) (addU8 .release x y) :=
  agree_if

theorem agree_subU8 (x y : Byte) : Agree (subU8 .debug x y) (subU8 .release x y) :=
  agree_if

theorem agree_mulU8 (x y : Byte) : Agree (mulU8 .debug x y) (mulU8 .release x y) :=
  agree_if

theorem agree_usizeResult (c : Bool) (n : Nat) : Agree (usizeResult .debug c n) (usizeResult .release c n) :=
  agree_if

theorem agree_addUsize (x y : Nat) : Agree (addUsize .debug x y) (addUsize .release x y) :=
  agree_usizeResult _ _

theorem agree_mulUsize (x y : Nat) : Agree (mulUsize .debug x y) (mulUsize .release x y) :=
  agree_usizeResult _ _

theorem agree_subUsize (x y : Nat) : Agree (subUsize .debug x y) (subUsize .release x y) :=
  agree_usizeResult _ _

theorem agree_shlU8 (x n : Byte) : Agree (Mos.shlU8 .debug x n) (Mos.shlU8 .release x n) :=
  agree_if

theorem agree_shrU8 (x n : Byte) : Agree (Mos.shrU8 .debug x n) (Mos.shrU8 .release x n) :=
  agree_if

theorem agree_page (a : Word) : Agree (Page.ofU16 .debug a) (Page.ofU16 .release a) :=
  agree_bind (agree_addU16 _ _) fun _ => agree_bind (agree_subU16 _ _) fun _ =>
    agree_bind (agree_addU16 _ _) fun _ => agree_bind (agree_subU16 _ _) fun _ => agree_refl _

theorem agree_shl (o p : Mos.Operand) : Agree (o.shl .debug p) (o.shl .release p) :=
  agree_bind (agree_shlU8 _ _) fun _ => agree_refl _

theorem agree_shr (o p : Mos.Operand) : Agree (o.shr .debug p) (o.shr .release p) :=
  agree_bind (agree_shrU8 _ _) fun _ => agree_refl _

theorem agree_rol (o p : Mos.Operand) (c : Bool) : Agree (o.rol .debug p c) (o.rol .release p c) :=
  agree_bind (agree_shlU8 _ _) fun _ => agree_refl _

theorem agree_ror (o p : Mos.Operand) (c : Bool) : Agree (o.ror .debug p c) (o.ror .release p c) :=
  agree_bind (agree_shrU8 _ _) fun _ => agree_refl _

theorem agree_tcs (o p : Mos.Operand) (c : Bool) :
    Agree (o.twosComplementSub .debug p c) (o.twosComplementSub .release p c) :=
  agree_bind (agree_subU8 _ _) fun _ => agree_refl _

theorem agree_intoSteps (o : Mos.Operations) : Agree (o.intoSteps .debug) (o.intoSteps .release) := by
  unfold Mos.Operations.intoSteps
  by_cases h : o.cycles = 0
  · simp only [h, if_true]; exact .inr rfl
  · simp only [h, if_false]; exact .inl rfl

theorem agree_mapM {α β : Type} {f g : α → Res β} (h : ∀ a, Agree (f a) (g a)) (l : List α) :
    Agree (l.mapM f) (l.mapM g) := by
  induction l with
  | nil => exact agree_refl _
  | cons a l ih =>
    simp only [List.mapM_cons]
    exact agree_bind (h a) fun _ => agree_bind ih fun _ => agree_refl _

/-! ## Devices -/

instance : BuildsAgree Memory where
  read d a := agree_bind (agree_subU16 _ _) fun _ => agree_refl _
  write d a v := by
    show Agree (Memory.write .debug d a v) (Memory.write .release d a v)
    unfold Memory.write
    cases d.kind with
    | readOnly => exact agree_refl _
    | readWrite => exact agree_bind (agree_subU16 _ _) fun _ => agree_refl _

instance {D : Type} [Addressable D] [BuildsAgree D] : BuildsAgree (AddressMap D) where
  read d a := by
    show Agree (AddressMap.read .debug d a) (AddressMap.read .release d a)
    unfold AddressMap.read
    split
    · exact BuildsAgree.read _ _
    · exact agree_refl _
  write d a v := by
    show Agree (AddressMap.write .debug d a v) (AddressMap.write .release d a v)
    unfold AddressMap.write
    refine agree_bind ?_ fun _ => agree_refl _
    induction d.inner with
    | nil => exact agree_refl _
    | cons e es ih =>
      obtain ⟨r, d⟩ := e
      simp only [AddressMap.writeEntries]
      split
      · exact agree_bind (BuildsAgree.write _ _ _) fun _ => agree_refl _
      · exact agree_bind ih fun _ => agree_refl _

/-! ## The 6502 -/

section
open Mos
variable {B : Type} [Addressable B] [BuildsAgree B]

theorem agree_indexedIndirect (cpu : Mos6502 B) (x y : Byte) :
    Agree (dereferenceIndexedIndirectAddress .debug cpu x y)
      (dereferenceIndexedIndirectAddress .release cpu x y) :=
  agree_bind (BuildsAgree.read _ _) fun _ => agree_bind (agree_addU8 _ _) fun _ =>
    agree_bind (BuildsAgree.read _ _) fun _ => agree_refl _

theorem agree_indirectIndexed (cpu : Mos6502 B) (x y : Byte) :
    Agree (dereferenceIndirectIndexedAddress .debug cpu x y)
      (dereferenceIndirectIndexedAddress .release cpu x y) :=
  agree_bind (BuildsAgree.read _ _) fun _ => agree_bind (BuildsAgree.read _ _) fun _ => agree_addU16 _ _

theorem agree_operand (cpu : Mos6502 B) (a : Word) (i : Byte) :
    Agree (dereferenceAddressToOperand .debug cpu a i) (dereferenceAddressToOperand .release cpu a i) :=
  agree_bind (BuildsAgree.read _ _) fun _ => agree_refl _

/-- One step through the `do` block of an instruction. -/
macro "agree_step" : tactic => `(tactic| first
  | with_reducible exact agree_refl _
  | with_reducible exact agree_operand _ _ _
  | with_reducible exact agree_indexedIndirect _ _ _
  | with_reducible exact agree_indirectIndexed _ _ _
  | with_reducible exact BuildsAgree.read _ _
  | with_reducible exact agree_page _
  | with_reducible exact agree_addU16 _ _
  | with_reducible exact agree_subU16 _ _
  | with_reducible exact agree_addU8 _ _
  | with_reducible exact agree_subU8 _ _
  | with_reducible exact agree_shl _ _
  | with_reducible exact agree_shr _ _
  | with_reducible exact agree_rol _ _ _
  | with_reducible exact agree_ror _ _ _
  | with_reducible exact agree_tcs _ _ _
  | with_reducible apply agree_bind
  | intro _)

theorem agree_generate (cpu : Mos6502 B) (i : InstructionVariant) :
    Agree (i.generate .debug cpu) (i.generate .release cpu) := by
  cases i
  all_goals
    simp only [InstructionVariant.generate, branchOnCase, jmpIndirect,
    adcAbsolute, adcAbsoluteIndexedWithX, adcAbsoluteIndexedWithY, adcIndirectYIndexed,
    adcImmediate, adcXIndexedIndirect, adcZeroPage, adcZeroPageIndexedWithX, sbcAbsolute,
    sbcAbsoluteIndexedWithX, sbcAbsoluteIndexedWithY, sbcIndirectYIndexed, sbcImmediate,
    sbcXIndexedIndirect, sbcZeroPage, sbcZeroPageIndexedWithX, bccRelative, bcsRelative,
    beqRelative, bmiRelative, bneRelative, bplRelative, bvcRelative, bvsRelative,
    cmpAbsolute, cmpAbsoluteIndexedWithX, cmpAbsoluteIndexedWithY, cmpIndirectYIndexed,
    cmpImmediate, cmpXIndexedIndirect, cmpZeroPage, cmpZeroPageIndexedWithX, cpxAbsolute,
    cpxImmediate, cpxZeroPage, cpyAbsolute, cpyImmediate, cpyZeroPage, clcImplied,
    cldImplied, cliImplied, clvImplied, secImplied, sedImplied, seiImplied, decAbsolute,
    decAbsoluteIndexedWithX, decZeroPage, decZeroPageIndexedWithX, dexImplied, deyImplied,
    incAbsolute, incAbsoluteIndexedWithX, incZeroPage, incZeroPageIndexedWithX, inxImplied,
    inyImplied, jmpAbsolute, jsrAbsolute, rtsImplied, rtiImplied, brkImplied, nopImplied,
    ldaImmediate, ldaZeroPage, ldaZeroPageIndexedWithX, ldaAbsolute,
    ldaAbsoluteIndexedWithX, ldaAbsoluteIndexedWithY, ldaIndirectYIndexed,
    ldaXIndexedIndirect, ldxAbsolute, ldxAbsoluteIndexedWithY, ldxImmediate, ldxZeroPage,
    ldxZeroPageIndexedWithY, ldyAbsolute, ldyAbsoluteIndexedWithX, ldyImmediate,
    ldyZeroPage, ldyZeroPageIndexedWithX, andAbsolute, andAbsoluteIndexedWithX,
    andAbsoluteIndexedWithY, andIndirectYIndexed, andImmediate, andXIndexedIndirect,
    andZeroPage, andZeroPageIndexedWithX, bitAbsolute, bitZeroPage, eorAbsolute,
    eorAbsoluteIndexedWithX, eorAbsoluteIndexedWithY, eorIndirectYIndexed, eorImmediate,
    eorXIndexedIndirect, eorZeroPage, eorZeroPageIndexedWithX, oraAbsolute,
    oraAbsoluteIndexedWithX, oraAbsoluteIndexedWithY, oraIndirectYIndexed, oraImmediate,
    oraXIndexedIndirect, oraZeroPage, oraZeroPageIndexedWithX, aslAbsolute,
    aslAbsoluteIndexedWithX, aslAccumulator, aslZeroPage, aslZeroPageIndexedWithX,
    lsrAbsolute, lsrAbsoluteIndexedWithX, lsrAccumulator, lsrZeroPage,
    lsrZeroPageIndexedWithX, rolAbsolute, rolAbsoluteIndexedWithX, rolAccumulator,
    rolZeroPage, rolZeroPageIndexedWithX, rorAbsolute, rorAbsoluteIndexedWithX,
    rorAccumulator, rorZeroPage, rorZeroPageIndexedWithX, phaImplied, phpImplied,
    plaImplied, plpImplied, staAbsolute, staAbsoluteIndexedWithX, staAbsoluteIndexedWithY,
    staIndirectYIndexed, staXIndexedIndirect, staZeroPage, staZeroPageIndexedWithX,
    stxAbsolute, stxZeroPage, stxZeroPageIndexedWithY, styAbsolute, styZeroPage,
    styZeroPageIndexedWithX, taxImplied, tayImplied, tsxImplied, txaImplied, txsImplied,
    tyaImplied]
    repeat' agree_step

theorem agree_writeMemory (cpu : Mos6502 B) (a : Word) (v : Byte) :
    Agree (writeMemory .debug cpu a v) (writeMemory .release cpu a v) :=
  agree_bind (BuildsAgree.write _ _ _) fun _ => agree_refl _

theorem agree_executeMut (cpu : Mos6502 B) (mc : Microcode) :
    Agree (executeMut .debug cpu mc) (executeMut .release cpu mc) := by
  unfold executeMut
  split
  · exact agree_writeMemory _ _ _
  all_goals exact agree_refl _

theorem agree_executeAll (mcs : List Microcode) (cpu : Mos6502 B) :
    Agree (executeAll .debug mcs cpu) (executeAll .release mcs cpu) := by
  induction mcs generalizing cpu with
  | nil => exact agree_refl _
  | cons mc mcs ih => exact agree_bind (agree_executeMut _ _) fun _ => ih _

theorem agree_fetch (cpu : Mos6502 B) : Agree (fetch .debug cpu) (fetch .release cpu) :=
  agree_bind (BuildsAgree.read _ _) fun _ => agree_bind (agree_addU16 _ _) fun _ =>
    agree_bind (BuildsAgree.read _ _) fun _ => agree_bind (agree_addU16 _ _) fun _ =>
    agree_bind (BuildsAgree.read _ _) fun _ => agree_refl _

theorem agree_next (cpu : Mos6502 B) : Agree (next .debug cpu) (next .release cpu) :=
  agree_bind (agree_fetch _) fun _ => agree_bind (agree_generate _ _) fun _ =>
    agree_bind (agree_intoSteps _) fun _ => agree_bind (agree_executeAll _ _) fun _ => agree_refl _

theorem agree_runLoop (n : Nat) (it cpu : Mos6502 B) (pending : List (List Microcode)) :
    Agree (runLoop .debug n it pending cpu) (runLoop .release n it pending cpu) := by
  induction n generalizing it cpu pending with
  | zero => exact agree_refl _
  | succ n ih =>
    cases pending with
    | cons step rest => exact agree_bind (agree_executeAll _ _) fun _ => ih _ _ _
    | nil =>
      refine agree_bind (agree_next _) fun p => agree_bind (agree_intoSteps _) fun steps => ?_
      cases steps with
      | nil => exact agree_refl _
      | cons step rest => exact agree_bind (agree_executeAll _ _) fun _ => ih _ _ _

theorem agree_run (cpu : Mos6502 B) (n : Nat) : Agree (run .debug cpu n) (run .release cpu n) :=
  agree_bind (agree_runLoop _ _ _ _) fun _ => agree_refl _

theorem agree_capture (n : Nat) (it : Mos6502 B) (pending : List (List Microcode)) :
    Agree (captureLoop .debug n it pending) (captureLoop .release n it pending) := by
  induction n generalizing it pending with
  | zero => exact agree_refl _
  | succ n ih =>
    cases pending with
    | cons step rest => exact agree_bind (ih _ _) fun _ => agree_refl _
    | nil =>
      refine agree_bind (agree_next _) fun p => agree_bind (agree_intoSteps _) fun steps => ?_
      cases steps with
      | nil => exact agree_refl _
      | cons step rest => exact agree_bind (ih _ _) fun _ => agree_refl _

theorem agree_runLog (n : Nat) (it cpu : Mos6502 B) (pending : List (List Microcode)) :
    Agree (runLogLoop .debug n it pending cpu) (runLogLoop .release n it pending cpu) := by
  induction n generalizing it cpu pending with
  | zero => exact agree_refl _
  | succ n ih =>
    cases pending with
    | cons step rest =>
      exact agree_bind (agree_executeAll _ _) fun _ => agree_bind (ih _ _ _) fun _ => agree_refl _
    | nil =>
      refine agree_bind (agree_next _) fun p => agree_bind (agree_intoSteps _) fun steps => ?_
      cases steps with
      | nil => exact agree_refl _
      | cons step rest =>
        exact agree_bind (agree_executeAll _ _) fun _ => agree_bind (ih _ _ _) fun _ => agree_refl _

theorem agree_reset (cpu : Mos6502 B) : Agree (reset .debug cpu) (reset .release cpu) :=
  agree_bind (BuildsAgree.read _ _) fun _ => agree_bind (BuildsAgree.read _ _) fun _ => agree_refl _

theorem agree_resetAsMops (cpu : Mos6502 B) :
    Agree (resetAsMops .debug cpu) (resetAsMops .release cpu) :=
  agree_bind (BuildsAgree.read _ _) fun _ => agree_bind (BuildsAgree.read _ _) fun _ => agree_refl _

end

/-- Memories are made alike. -/
theorem agree_memory (k : MemKind) (lo hi : Word) :
    Agree (Memory.new .debug k lo hi) (Memory.new .release k lo hi) := by
  unfold Memory.new
  split
  · exact agree_refl _
  · exact .inr rfl

theorem agree_stepState {T : Type} [Cpu T]
    (h : ∀ (cpu : T) (n : Nat), Agree (Cpu.run .debug cpu n) (Cpu.run .release cpu n))
    (s : StepState T) (n : Nat) : Agree (s.run .debug n) (s.run .release n) := by
  unfold StepState.run
  split
  · exact h _ _
  · split
    · exact agree_refl _
    · exact h _ _

theorem agree_mosDefault : Agree (Mos.defaultCpu .debug) (Mos.defaultCpu .release) :=
  agree_bind (agree_memory _ _ _) fun _ => agree_bind (agree_refl _) fun _ =>
    agree_bind (agree_memory _ _ _) fun _ => agree_refl _

/-! ## The CHIP-8 -/

section
open Chip8
variable {B R : Type}

theorem agree_timer (r : ClockDecrementing) (now : Instant) :
    Agree (r.read .debug now) (r.read .release now) := by
  unfold ClockDecrementing.read
  dsimp only
  split
  · split
    · exact agree_subU8 _ _
    · exact agree_refl _
  · exact agree_refl _

theorem agree_chip8Generate [Addressable B] [BuildsAgree B] (e : Env) (cpu : Chip8 B R) (o : Opcode) :
    Agree (generate .debug e cpu o) (generate .release e cpu o) := by
  cases o with
  | Drw x y size =>
    exact agree_bind (agree_bind (agree_addU16 _ _) fun _ =>
      agree_mapM (fun _ => BuildsAgree.read _ _) _) fun _ => agree_refl _
  | LdDelayTimerSrcTx r => exact agree_bind (agree_timer _ _) fun _ => agree_refl _
  | LdBcd r =>
    exact agree_bind (agree_refl _) fun _ => agree_bind (agree_addU16 _ _) fun _ =>
      agree_bind (agree_addU16 _ _) fun _ => agree_refl _
  | LdSpriteLocation r =>
    exact agree_bind (agree_refl _) fun _ => agree_bind (agree_mulU8 _ _) fun _ => agree_refl _
  | ReadRegistersFromMemory r =>
    exact agree_mapM (fun _ => agree_bind (agree_refl _) fun _ => agree_bind (agree_addU16 _ _) fun _ =>
      agree_bind (BuildsAgree.read _ _) fun _ => agree_refl _) _
  | StoreRegistersToMemory r =>
    exact agree_mapM (fun _ => agree_bind (agree_refl _) fun _ => agree_bind (agree_refl _) fun _ =>
      agree_bind (agree_addU16 _ _) fun _ => agree_refl _) _
  | _ => exact agree_refl _

theorem agree_inc8 (now : Instant) (cpu : Chip8 B R) (reg : ByteRegisters) (v : Byte) :
    Agree (inc8 .debug now cpu reg v) (inc8 .release now cpu reg v) := by
  unfold inc8
  split
  · exact agree_refl _
  · exact agree_bind (agree_timer _ _) fun _ => agree_refl _
  · exact agree_bind (agree_timer _ _) fun _ => agree_refl _

theorem agree_setDisplayRange (cpu : Chip8 B R) (p q : Nat × Nat) (v : Bool) :
    Agree (setDisplayRange .debug cpu p q v) (setDisplayRange .release cpu p q v) :=
  agree_bind (agree_mulUsize _ _) fun _ => agree_bind (agree_addUsize _ _) fun _ =>
    agree_bind (agree_subUsize _ _) fun _ => agree_bind (agree_mulUsize _ _) fun _ =>
    agree_bind (agree_subUsize _ _) fun _ => agree_bind (agree_addUsize _ _) fun _ =>
    agree_bind (agree_addUsize _ _) fun _ => agree_refl _

variable [Addressable B] [BuildsAgree B]

theorem agree_chip8ExecuteMut (now : Instant) (cpu : Chip8 B R) (mc : Microcode) :
    Agree (executeMut .debug now cpu mc) (executeMut .release now cpu mc) := by
  unfold executeMut
  split
  · exact agree_bind (BuildsAgree.write _ _ _) fun _ => agree_refl _
  · exact agree_refl _
  · exact agree_inc8 _ _ _ _
  all_goals first
    | with_reducible exact agree_refl _
    | exact agree_setDisplayRange _ _ _ _

theorem agree_chip8ExecuteAll (now : Instant) (mcs : List Microcode) (cpu : Chip8 B R) :
    Agree (executeAll .debug now cpu mcs) (executeAll .release now cpu mcs) := by
  induction mcs generalizing cpu with
  | nil => exact agree_refl _
  | cons mc mcs ih => exact agree_bind (agree_chip8ExecuteMut _ _ _) fun _ => ih _

theorem agree_chip8Fetch (cpu : Chip8 B R) : Agree (fetch .debug cpu) (fetch .release cpu) :=
  agree_bind (BuildsAgree.read _ _) fun _ => agree_bind (agree_addU16 _ _) fun _ =>
    agree_bind (BuildsAgree.read _ _) fun _ => agree_refl _

theorem agree_chip8Next (e : Env) (cpu : Chip8 B R) : Agree (next .debug e cpu) (next .release e cpu) :=
  agree_bind (agree_chip8Fetch _) fun _ => agree_bind (agree_chip8Generate _ _ _) fun _ =>
    agree_bind (agree_chip8ExecuteAll _ _ _) fun _ => agree_refl _

theorem agree_chip8RunLoop (env : Nat → Env) (n k : Nat) (it cpu : Chip8 B R) :
    Agree (runLoop .debug env n k it cpu) (runLoop .release env n k it cpu) := by
  induction n generalizing k it cpu with
  | zero => exact agree_refl _
  | succ n ih =>
    exact agree_bind (agree_chip8Next _ _) fun _ => agree_bind (agree_chip8ExecuteAll _ _ _) fun _ =>
      ih _ _ _

theorem agree_chip8Run (env : Nat → Env) (cpu : Chip8 B R) (n : Nat) :
    Agree (run .debug env cpu n) (run .release env cpu n) :=
  agree_bind (agree_chip8RunLoop _ _ _ _ _) fun _ => agree_refl _

end

theorem agree_chip8Default {R : Type} (now : Chip8.Instant) (rng : R) :
    Agree (Chip8.defaultCpu .debug now rng) (Chip8.defaultCpu .release now rng) :=
  agree_bind (agree_memory _ _ _) fun _ => agree_bind (agree_refl _) fun _ =>
    agree_bind (agree_memory _ _ _) fun _ => agree_refl _

end Verif.Spec
