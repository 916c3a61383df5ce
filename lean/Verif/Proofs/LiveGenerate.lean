import Verif.Proofs.LiveBus
import Verif.Proofs.MosGenerate
import Verif.Proofs.MosRef

/-!
# The `generate` implementations as trees of bus calls
-/

namespace Verif.Live.Bus

open Verif Verif.Mos Verif.Spec.Mos Verif.Spec.Live

variable {α β : Type}

/-- The computation with its reads answered by one value device (of any kind); proof device. -/
def interp {B : Type} [Addressable B] (b : Build) (bus : B) : Bus α → Res α
  | .done r => r
  | .read _ a k => (Addressable.read b bus a).bind fun v => interp b bus (k v)
  | .write _ _ _ _ => .error .overflow

/-- The reads of a computation go to `who`, are the ones asked for by `ask`, and there is no write;
proof device. -/
def Follows (who : Copy) (ask : List Byte → Option Word) : List Byte → Bus α → Prop
  | vs, .done (.ok _) => ask vs = none
  | _, .done (.error _) => True
  | vs, .read who' a k => who' = who ∧ ask vs = some a ∧ ∀ v, Follows who ask (vs ++ [v]) (k v)
  | _, .write _ _ _ _ => False

section
variable {B : Type} [Addressable B] {b : Build} {bus : B}

@[simp] theorem interp_done (r : Res α) : interp b bus (.done r) = r := rfl

@[simp] theorem interp_pure (a : α) : interp b bus (pure a : Bus α) = .ok a := rfl

theorem interp_bind (x : Bus α) (f : α → Bus β) :
    interp b bus (x >>= f) = interp b bus x >>= fun a => interp b bus (f a) := by
  induction x with
  | done r => cases r <;> rfl
  | read who a k ih =>
    rw [read_bind]
    simp only [interp, ih]
    cases Addressable.read b bus a <;> rfl
  | write who a x k ih => rfl

theorem interp_get (who : Copy) (a : Word) : interp b bus (get who a) = Addressable.read b bus a := by
  simp only [get, interp, pure_eq]
  cases Addressable.read b bus a <;> rfl

theorem interp_lift (r : Except Panic α) : interp b bus (liftM r : Bus α) = r := rfl

/-- Answers that agree with a device give its result. -/
theorem interp_asked {x : Bus α} {who : Copy} {rs : List (Word × Byte)} {r : Res α}
    (h : Asked x (readCalls who rs) r) (hr : ∀ p ∈ rs, Addressable.read b bus p.1 = .ok p.2) :
    interp b bus x = r := by
  generalize hl : readCalls who rs = l at h
  induction h generalizing rs with
  | done r => rfl
  | @read who' a k v l r _ ih =>
    cases rs with
    | nil => simp [readCalls] at hl
    | cons p rs =>
      simp only [readCalls, List.map_cons, List.cons.injEq, Call.read.injEq] at hl
      obtain ⟨⟨_, rfl, rfl⟩, rfl⟩ := hl
      simp only [interp, hr p (by simp)]
      exact ih (fun q hq => hr q (by simp [hq])) rfl
  | write _ _ =>
    cases rs <;> simp [readCalls] at hl

end

/-- The reads of a computation that follows `ask`. -/
theorem asked_follows {who : Copy} {ask : List Byte → Option Word} {x : Bus α} {vs : List Byte}
    {l : List Call} {a : α} (hf : Follows who ask vs x) (h : Asked x l (.ok a)) :
    ∃ rs, l = readCalls who rs ∧
      (∀ k (hk : k < rs.length), ask (vs ++ (rs.take k).map Prod.snd) = some rs[k].1) ∧
      ask (vs ++ rs.map Prod.snd) = none := by
  generalize hr : (Except.ok a : Res α) = r at h
  induction h generalizing vs with
  | done r =>
    subst hr
    exact ⟨[], rfl, fun k hk => by simp at hk, by simpa [Follows] using hf⟩
  | @read who' ad k v l r _ ih =>
    obtain ⟨rfl, h1, h2⟩ := hf
    obtain ⟨rs, rfl, h3, h4⟩ := ih (h2 v) hr
    refine ⟨(ad, v) :: rs, rfl, ?_, by simpa using h4⟩
    intro j hj
    cases j with
    | zero => simpa using h1
    | succ j => simpa using h3 j (by simpa using hj)
  | write _ _ => exact absurd hf (by simp [Follows])

theorem follows_lift {who : Copy} {ask : List Byte → Option Word} {vs : List Byte} {r : Except Panic α}
    {f : α → Bus β} :
    Follows who ask vs ((liftM r : Bus α) >>= f) ↔ ∀ a, r = .ok a → Follows who ask vs (f a) := by
  cases r with
  | ok a => simp
  | error e => simp [Follows]

theorem follows_lift_last {who : Copy} {ask : List Byte → Option Word} {vs : List Byte}
    {r : Except Panic α} :
    Follows who ask vs (liftM r : Bus α) ↔ ∀ a, r = .ok a → ask vs = none := by
  cases r with
  | ok a => simp [Follows]
  | error e => simp [Follows]

theorem follows_get {who who' : Copy} {ask : List Byte → Option Word} {vs : List Byte} {a : Word}
    {f : Byte → Bus β} :
    Follows who ask vs (get who' a >>= f) ↔
      who' = who ∧ ask vs = some a ∧ ∀ v, Follows who ask (vs ++ [v]) (f v) := by
  simp [get, Follows]

theorem follows_pure {who : Copy} {ask : List Byte → Option Word} {vs : List Byte} {a : α} :
    Follows who ask vs (pure a : Bus α) ↔ ask vs = none := Iff.rfl

end Verif.Live.Bus

namespace Verif.Mos

open Verif Verif.Spec.Mos Verif.Spec.Live Verif.Live Verif.Live.Bus

section
variable {B : Type} [Addressable B] {b : Build}

/-- A CPU with the name of a clone for its bus. -/
def named (who : Copy) (cpu : Mos6502 B) : Mos6502 Copy := { cpu with address_map := who }

theorem interp_deref_operand (cpu : Mos6502 B) (who : Copy) (a : Word) (i : Byte) :
    interp b cpu.address_map (Live.dereferenceAddressToOperand (named who cpu) a i) =
      dereferenceAddressToOperand b cpu a i := by
  simp only [Live.dereferenceAddressToOperand, interp_bind, interp_get, interp_pure,
    dereferenceAddressToOperand]

theorem interp_deref_indexed (cpu : Mos6502 B) (who : Copy) (z i : Byte) :
    interp b cpu.address_map (Live.dereferenceIndexedIndirectAddress b (named who cpu) z i) =
      dereferenceIndexedIndirectAddress b cpu z i := by
  simp only [Live.dereferenceIndexedIndirectAddress, interp_bind, interp_get, interp_pure, interp_lift,
    dereferenceIndexedIndirectAddress]

theorem interp_deref_indirect (cpu : Mos6502 B) (who : Copy) (z i : Byte) :
    interp b cpu.address_map (Live.dereferenceIndirectIndexedAddress b (named who cpu) z i) =
      dereferenceIndirectIndexedAddress b cpu z i := by
  simp only [Live.dereferenceIndirectIndexedAddress, interp_bind, interp_get, interp_lift,
    dereferenceIndirectIndexedAddress]

theorem interp_branch (cpu : Mos6502 B) (who : Copy) (c : Bool) (d : Byte) (n m : Nat) :
    interp b cpu.address_map (Live.branchOnCase b c d n m (named who cpu)) =
      branchOnCase b c d n m cpu := by
  simp only [Live.branchOnCase, interp_bind, interp_pure, interp_lift, branchOnCase, named]
  rfl

set_option maxHeartbeats 1600000 in
/-- With its reads answered by a value device an instruction generates what it does there. -/
theorem interp_generate (cpu : Mos6502 B) (who : Copy) (i : InstructionVariant) :
    interp b cpu.address_map (Live.generate b (named who cpu) i) = i.generate b cpu := by
  cases i
  all_goals
    simp only [InstructionVariant.generate, Live.generate,
    adcAbsolute, Live.adcAbsolute, adcAbsoluteIndexedWithX, Live.adcAbsoluteIndexedWithX,
    adcAbsoluteIndexedWithY, Live.adcAbsoluteIndexedWithY, adcIndirectYIndexed,
    Live.adcIndirectYIndexed, adcImmediate, Live.adcImmediate, adcXIndexedIndirect,
    Live.adcXIndexedIndirect, adcZeroPage, Live.adcZeroPage, adcZeroPageIndexedWithX,
    Live.adcZeroPageIndexedWithX, sbcAbsolute, Live.sbcAbsolute, sbcAbsoluteIndexedWithX,
    Live.sbcAbsoluteIndexedWithX, sbcAbsoluteIndexedWithY, Live.sbcAbsoluteIndexedWithY,
    sbcIndirectYIndexed, Live.sbcIndirectYIndexed, sbcImmediate, Live.sbcImmediate,
    sbcXIndexedIndirect, Live.sbcXIndexedIndirect, sbcZeroPage, Live.sbcZeroPage,
    sbcZeroPageIndexedWithX, Live.sbcZeroPageIndexedWithX, bccRelative, Live.bccRelative,
    bcsRelative, Live.bcsRelative, beqRelative, Live.beqRelative, bmiRelative, Live.bmiRelative,
    bneRelative, Live.bneRelative, bplRelative, Live.bplRelative, bvcRelative, Live.bvcRelative,
    bvsRelative, Live.bvsRelative, cmpAbsolute, Live.cmpAbsolute, cmpAbsoluteIndexedWithX,
    Live.cmpAbsoluteIndexedWithX, cmpAbsoluteIndexedWithY, Live.cmpAbsoluteIndexedWithY,
    cmpIndirectYIndexed, Live.cmpIndirectYIndexed, cmpImmediate, Live.cmpImmediate,
    cmpXIndexedIndirect, Live.cmpXIndexedIndirect, cmpZeroPage, Live.cmpZeroPage,
    cmpZeroPageIndexedWithX, Live.cmpZeroPageIndexedWithX, cpxAbsolute, Live.cpxAbsolute,
    cpxImmediate, Live.cpxImmediate, cpxZeroPage, Live.cpxZeroPage, cpyAbsolute,
    Live.cpyAbsolute, cpyImmediate, Live.cpyImmediate, cpyZeroPage, Live.cpyZeroPage, clcImplied,
    Live.clcImplied, cldImplied, Live.cldImplied, cliImplied, Live.cliImplied, clvImplied,
    Live.clvImplied, secImplied, Live.secImplied, sedImplied, Live.sedImplied, seiImplied,
    Live.seiImplied, decAbsolute, Live.decAbsolute, decAbsoluteIndexedWithX,
    Live.decAbsoluteIndexedWithX, decZeroPage, Live.decZeroPage, decZeroPageIndexedWithX,
    Live.decZeroPageIndexedWithX, dexImplied, Live.dexImplied, deyImplied, Live.deyImplied,
    incAbsolute, Live.incAbsolute, incAbsoluteIndexedWithX, Live.incAbsoluteIndexedWithX,
    incZeroPage, Live.incZeroPage, incZeroPageIndexedWithX, Live.incZeroPageIndexedWithX,
    inxImplied, Live.inxImplied, inyImplied, Live.inyImplied, jmpAbsolute, Live.jmpAbsolute,
    jsrAbsolute, Live.jsrAbsolute, rtsImplied, Live.rtsImplied, rtiImplied, Live.rtiImplied,
    brkImplied, Live.brkImplied, nopImplied, Live.nopImplied, ldaImmediate, Live.ldaImmediate,
    ldaZeroPage, Live.ldaZeroPage, ldaZeroPageIndexedWithX, Live.ldaZeroPageIndexedWithX,
    ldaAbsolute, Live.ldaAbsolute, ldaAbsoluteIndexedWithX, Live.ldaAbsoluteIndexedWithX,
    ldaAbsoluteIndexedWithY, Live.ldaAbsoluteIndexedWithY, ldaIndirectYIndexed,
    Live.ldaIndirectYIndexed, ldaXIndexedIndirect, Live.ldaXIndexedIndirect, ldxAbsolute,
    Live.ldxAbsolute, ldxAbsoluteIndexedWithY, Live.ldxAbsoluteIndexedWithY, ldxImmediate,
    Live.ldxImmediate, ldxZeroPage, Live.ldxZeroPage, ldxZeroPageIndexedWithY,
    Live.ldxZeroPageIndexedWithY, ldyAbsolute, Live.ldyAbsolute, ldyAbsoluteIndexedWithX,
    Live.ldyAbsoluteIndexedWithX, ldyImmediate, Live.ldyImmediate, ldyZeroPage, Live.ldyZeroPage,
    ldyZeroPageIndexedWithX, Live.ldyZeroPageIndexedWithX, andAbsolute, Live.andAbsolute,
    andAbsoluteIndexedWithX, Live.andAbsoluteIndexedWithX, andAbsoluteIndexedWithY,
    Live.andAbsoluteIndexedWithY, andIndirectYIndexed, Live.andIndirectYIndexed, andImmediate,
    Live.andImmediate, andXIndexedIndirect, Live.andXIndexedIndirect, andZeroPage,
    Live.andZeroPage, andZeroPageIndexedWithX, Live.andZeroPageIndexedWithX, bitAbsolute,
    Live.bitAbsolute, bitZeroPage, Live.bitZeroPage, eorAbsolute, Live.eorAbsolute,
    eorAbsoluteIndexedWithX, Live.eorAbsoluteIndexedWithX, eorAbsoluteIndexedWithY,
    Live.eorAbsoluteIndexedWithY, eorIndirectYIndexed, Live.eorIndirectYIndexed, eorImmediate,
    Live.eorImmediate, eorXIndexedIndirect, Live.eorXIndexedIndirect, eorZeroPage,
    Live.eorZeroPage, eorZeroPageIndexedWithX, Live.eorZeroPageIndexedWithX, oraAbsolute,
    Live.oraAbsolute, oraAbsoluteIndexedWithX, Live.oraAbsoluteIndexedWithX,
    oraAbsoluteIndexedWithY, Live.oraAbsoluteIndexedWithY, oraIndirectYIndexed,
    Live.oraIndirectYIndexed, oraImmediate, Live.oraImmediate, oraXIndexedIndirect,
    Live.oraXIndexedIndirect, oraZeroPage, Live.oraZeroPage, oraZeroPageIndexedWithX,
    Live.oraZeroPageIndexedWithX, aslAbsolute, Live.aslAbsolute, aslAbsoluteIndexedWithX,
    Live.aslAbsoluteIndexedWithX, aslAccumulator, Live.aslAccumulator, aslZeroPage,
    Live.aslZeroPage, aslZeroPageIndexedWithX, Live.aslZeroPageIndexedWithX, lsrAbsolute,
    Live.lsrAbsolute, lsrAbsoluteIndexedWithX, Live.lsrAbsoluteIndexedWithX, lsrAccumulator,
    Live.lsrAccumulator, lsrZeroPage, Live.lsrZeroPage, lsrZeroPageIndexedWithX,
    Live.lsrZeroPageIndexedWithX, rolAbsolute, Live.rolAbsolute, rolAbsoluteIndexedWithX,
    Live.rolAbsoluteIndexedWithX, rolAccumulator, Live.rolAccumulator, rolZeroPage,
    Live.rolZeroPage, rolZeroPageIndexedWithX, Live.rolZeroPageIndexedWithX, rorAbsolute,
    Live.rorAbsolute, rorAbsoluteIndexedWithX, Live.rorAbsoluteIndexedWithX, rorAccumulator,
    Live.rorAccumulator, rorZeroPage, Live.rorZeroPage, rorZeroPageIndexedWithX,
    Live.rorZeroPageIndexedWithX, phaImplied, Live.phaImplied, phpImplied, Live.phpImplied,
    plaImplied, Live.plaImplied, plpImplied, Live.plpImplied, staAbsolute, Live.staAbsolute,
    staAbsoluteIndexedWithX, Live.staAbsoluteIndexedWithX, staAbsoluteIndexedWithY,
    Live.staAbsoluteIndexedWithY, staIndirectYIndexed, Live.staIndirectYIndexed,
    staXIndexedIndirect, Live.staXIndexedIndirect, staZeroPage, Live.staZeroPage,
    staZeroPageIndexedWithX, Live.staZeroPageIndexedWithX, stxAbsolute, Live.stxAbsolute,
    stxZeroPage, Live.stxZeroPage, stxZeroPageIndexedWithY, Live.stxZeroPageIndexedWithY,
    styAbsolute, Live.styAbsolute, styZeroPage, Live.styZeroPage, styZeroPageIndexedWithX,
    Live.styZeroPageIndexedWithX, taxImplied, Live.taxImplied, tayImplied, Live.tayImplied,
    tsxImplied, Live.tsxImplied, txaImplied, Live.txaImplied, txsImplied, Live.txsImplied,
    tyaImplied, Live.tyaImplied, jmpIndirect, Live.jmpIndirect,
      interp_branch, interp_deref_operand, interp_deref_indexed, interp_deref_indirect, interp_bind,
      interp_get, interp_lift, interp_pure]
  all_goals rfl

end

theorem addU8_val {b : Build} {x y z : Byte} (h : addU8 b x y = .ok z) : z = x + y := by
  unfold addU8 at h
  split at h <;> simp_all

theorem addU16_val {b : Build} {x y z : Word} (h : addU16 b x y = .ok z) : z = x + y := by
  unfold addU16 at h
  split at h <;> simp_all

section
variable {β : Type} {b : Build} {who : Copy} {ask : List Byte → Option Word} {vs : List Byte}

theorem follows_operand {cpu : Mos6502 Copy} {a : Word} {i : Byte} {f : Operand → Bus β} :
    Follows who ask vs (Live.dereferenceAddressToOperand cpu a i >>= f) ↔
      cpu.address_map = who ∧ ask vs = some (addIndexToAddress a i) ∧
        ∀ v, Follows who ask (vs ++ [v]) (f (Operand.new v)) := by
  simp only [Live.dereferenceAddressToOperand, Bus.bind_assoc, follows_get]
  rfl

theorem follows_indexed {cpu : Mos6502 Copy} {z i : Byte} {f : Word → Bus β} :
    Follows who ask vs (Live.dereferenceIndexedIndirectAddress b cpu z i >>= f) ↔
      cpu.address_map = who ∧ ask vs = some (word ((z.toNat + i.toNat) % 256)) ∧
        ∀ lo, addU8 b i 1 = .ok (i + 1) →
          ask (vs ++ [lo]) = some (word ((z.toNat + i.toNat + 1) % 256)) ∧
          ∀ hi, Follows who ask (vs ++ [lo] ++ [hi]) (f (word (lo.toNat + 256 * hi.toNat))) := by
  have e1 : u16OfU8 (z + i) = word ((z.toNat + i.toNat) % 256) := by rw [u16OfU8_eq, BitVec.toNat_add]
  have e2 : u16OfU8 (z + (i + 1)) = word ((z.toNat + i.toNat + 1) % 256) := by
    rw [u16OfU8_eq, BitVec.toNat_add, BitVec.toNat_add]
    congr 1
    simp only [show (1 : Byte).toNat = 1 from rfl]
    omega
  simp only [Live.dereferenceIndexedIndirectAddress, Bus.bind_assoc, follows_get, follows_lift, e1]
  constructor
  · rintro ⟨h, h1, h2⟩
    refine ⟨h, h1, fun lo hlo => ?_⟩
    obtain ⟨_, h3, h4⟩ := h2 lo _ hlo
    rw [e2] at h3
    exact ⟨h3, fun hi => by have := h4 hi; rwa [← u16FromLeBytes_eq]⟩
  · rintro ⟨h, h1, h2⟩
    refine ⟨h, h1, fun lo j hj => ?_⟩
    obtain rfl := addU8_val hj
    obtain ⟨h3, h4⟩ := h2 lo hj
    rw [e2]
    exact ⟨h, h3, fun hi => by have := h4 hi; rwa [← u16FromLeBytes_eq] at this⟩

theorem follows_indirect {cpu : Mos6502 Copy} {z i : Byte} {f : Word → Bus β} :
    Follows who ask vs (Live.dereferenceIndirectIndexedAddress b cpu z i >>= f) ↔
      cpu.address_map = who ∧ ask vs = some (word z.toNat) ∧
        ∀ lo, ask (vs ++ [lo]) = some (word ((z.toNat + 1) % 256)) ∧
          ∀ hi, addU16 b (u16FromLeBytes lo hi) (u16OfU8 i) =
              .ok (word (lo.toNat + 256 * hi.toNat + i.toNat)) →
            Follows who ask (vs ++ [lo] ++ [hi]) (f (word (lo.toNat + 256 * hi.toNat + i.toNat))) := by
  have e2 : u16OfU8 (z + 1) = word ((z.toNat + 1) % 256) := by
    rw [u16OfU8_eq, BitVec.toNat_add]; rfl
  have e3 (lo hi : Byte) : u16FromLeBytes lo hi + u16OfU8 i =
      word (lo.toNat + 256 * hi.toNat + i.toNat) := by
    rw [u16FromLeBytes_eq, u16OfU8_eq]
    apply BitVec.eq_of_toNat_eq
    rw [BitVec.toNat_add, toNat_word, toNat_word, toNat_word]
    omega
  simp only [Live.dereferenceIndirectIndexedAddress, Bus.bind_assoc, follows_get, follows_lift, e2,
    u16OfU8_eq z]
  constructor
  · rintro ⟨h, h1, h2⟩
    refine ⟨h, h1, fun lo => ⟨(h2 lo).2.1, fun hi hj => (h2 lo).2.2 hi _ hj⟩⟩
  · rintro ⟨h, h1, h2⟩
    refine ⟨h, h1, fun lo => ⟨h, (h2 lo).1, fun hi j hj => ?_⟩⟩
    have := addU16_val hj
    rw [e3] at this
    subst this
    exact (h2 lo).2 hi hj

end

theorem word_add_one (w : Word) : w + 1 = word (w.toNat + 1) := by
  apply BitVec.eq_of_toNat_eq
  rw [BitVec.toNat_add, toNat_word]; rfl

theorem byte_mod (x : Byte) : x.toNat % 256 = x.toNat := Nat.mod_eq_of_lt x.isLt

theorem zero_toNat : (0 : Byte).toNat = 0 := rfl

theorem stack_one (x : Byte) : stack (x + 1).toNat = stack (x.toNat + 1) :=
  stack_plus x 1 (by omega)

theorem stack_two (x : Byte) : stack (x + 2).toNat = stack (x.toNat + 2) :=
  stack_plus x 2 (by omega)

theorem stack_three (x : Byte) : stack (x + 3).toNat = stack (x.toNat + 3) :=
  stack_plus x 3 (by omega)

/-- `JMP (w)`. -/
theorem follows_jmp (b : Build) (cpu : Mos6502 Copy) (w : Word) :
    Follows cpu.address_map (nextRead (regs cpu) .Jmp (.indirect w)) [] (Live.jmpIndirect b cpu w) := by
  simp only [Live.jmpIndirect, follows_get, follows_lift, follows_pure]
  refine ⟨trivial, rfl, fun v a ha => ⟨trivial, ?_, fun _ => rfl⟩⟩
  rw [addU16_val ha, word_add_one]
  rfl

set_option maxHeartbeats 3200000 in
/-- What an instruction reads. -/
theorem follows_generate (b : Build) (cpu : Mos6502 Copy) (i : InstructionVariant) :
    Follows cpu.address_map (nextRead (regs cpu) (view i).1 (view i).2) [] (Live.generate b cpu i) := by
  cases i
  all_goals
    simp only [view, Live.generate,
    Live.adcAbsolute, Live.adcAbsoluteIndexedWithX, Live.adcAbsoluteIndexedWithY,
    Live.adcIndirectYIndexed, Live.adcImmediate, Live.adcXIndexedIndirect, Live.adcZeroPage,
    Live.adcZeroPageIndexedWithX, Live.sbcAbsolute, Live.sbcAbsoluteIndexedWithX,
    Live.sbcAbsoluteIndexedWithY, Live.sbcIndirectYIndexed, Live.sbcImmediate,
    Live.sbcXIndexedIndirect, Live.sbcZeroPage, Live.sbcZeroPageIndexedWithX, Live.bccRelative,
    Live.bcsRelative, Live.beqRelative, Live.bmiRelative, Live.bneRelative, Live.bplRelative,
    Live.bvcRelative, Live.bvsRelative, Live.cmpAbsolute, Live.cmpAbsoluteIndexedWithX,
    Live.cmpAbsoluteIndexedWithY, Live.cmpIndirectYIndexed, Live.cmpImmediate,
    Live.cmpXIndexedIndirect, Live.cmpZeroPage, Live.cmpZeroPageIndexedWithX, Live.cpxAbsolute,
    Live.cpxImmediate, Live.cpxZeroPage, Live.cpyAbsolute, Live.cpyImmediate, Live.cpyZeroPage,
    Live.clcImplied, Live.cldImplied, Live.cliImplied, Live.clvImplied, Live.secImplied,
    Live.sedImplied, Live.seiImplied, Live.decAbsolute, Live.decAbsoluteIndexedWithX,
    Live.decZeroPage, Live.decZeroPageIndexedWithX, Live.dexImplied, Live.deyImplied,
    Live.incAbsolute, Live.incAbsoluteIndexedWithX, Live.incZeroPage,
    Live.incZeroPageIndexedWithX, Live.inxImplied, Live.inyImplied, Live.jmpAbsolute,
    Live.jsrAbsolute, Live.rtsImplied, Live.rtiImplied, Live.brkImplied, Live.nopImplied,
    Live.ldaImmediate, Live.ldaZeroPage, Live.ldaZeroPageIndexedWithX, Live.ldaAbsolute,
    Live.ldaAbsoluteIndexedWithX, Live.ldaAbsoluteIndexedWithY, Live.ldaIndirectYIndexed,
    Live.ldaXIndexedIndirect, Live.ldxAbsolute, Live.ldxAbsoluteIndexedWithY, Live.ldxImmediate,
    Live.ldxZeroPage, Live.ldxZeroPageIndexedWithY, Live.ldyAbsolute,
    Live.ldyAbsoluteIndexedWithX, Live.ldyImmediate, Live.ldyZeroPage,
    Live.ldyZeroPageIndexedWithX, Live.andAbsolute, Live.andAbsoluteIndexedWithX,
    Live.andAbsoluteIndexedWithY, Live.andIndirectYIndexed, Live.andImmediate,
    Live.andXIndexedIndirect, Live.andZeroPage, Live.andZeroPageIndexedWithX, Live.bitAbsolute,
    Live.bitZeroPage, Live.eorAbsolute, Live.eorAbsoluteIndexedWithX,
    Live.eorAbsoluteIndexedWithY, Live.eorIndirectYIndexed, Live.eorImmediate,
    Live.eorXIndexedIndirect, Live.eorZeroPage, Live.eorZeroPageIndexedWithX, Live.oraAbsolute,
    Live.oraAbsoluteIndexedWithX, Live.oraAbsoluteIndexedWithY, Live.oraIndirectYIndexed,
    Live.oraImmediate, Live.oraXIndexedIndirect, Live.oraZeroPage, Live.oraZeroPageIndexedWithX,
    Live.aslAbsolute, Live.aslAbsoluteIndexedWithX, Live.aslAccumulator, Live.aslZeroPage,
    Live.aslZeroPageIndexedWithX, Live.lsrAbsolute, Live.lsrAbsoluteIndexedWithX,
    Live.lsrAccumulator, Live.lsrZeroPage, Live.lsrZeroPageIndexedWithX, Live.rolAbsolute,
    Live.rolAbsoluteIndexedWithX, Live.rolAccumulator, Live.rolZeroPage,
    Live.rolZeroPageIndexedWithX, Live.rorAbsolute, Live.rorAbsoluteIndexedWithX,
    Live.rorAccumulator, Live.rorZeroPage, Live.rorZeroPageIndexedWithX, Live.phaImplied,
    Live.phpImplied, Live.plaImplied, Live.plpImplied, Live.staAbsolute,
    Live.staAbsoluteIndexedWithX, Live.staAbsoluteIndexedWithY, Live.staIndirectYIndexed,
    Live.staXIndexedIndirect, Live.staZeroPage, Live.staZeroPageIndexedWithX, Live.stxAbsolute,
    Live.stxZeroPage, Live.stxZeroPageIndexedWithY, Live.styAbsolute, Live.styZeroPage,
    Live.styZeroPageIndexedWithX, Live.taxImplied, Live.tayImplied, Live.tsxImplied,
    Live.txaImplied, Live.txsImplied, Live.tyaImplied, 
      Live.branchOnCase, follows_operand, follows_indexed, follows_indirect, follows_get,
      follows_lift, follows_pure, true_and, addIndexToAddress_eq,
      addIndexToZeropageAddress_eq, stackPointerFromByteValue_eq, IRQ_VECTOR_LL, IRQ_VECTOR_HH]
  case JmpIndirect => exact follows_jmp b cpu _
  all_goals
    try simp only [u16OfU8_eq, zero_toNat, Nat.add_zero, word_toNat, byte_mod, stack_one, stack_two,
      stack_three]
  case BrkImplied => exact ⟨rfl, fun _ => ⟨rfl, fun _ => rfl⟩⟩
  all_goals simp [nextRead, direct, usesOperand, regs]

end Verif.Mos
