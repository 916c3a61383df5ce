import Verif.Spec.BuildsLive
import Verif.Model.Chip8.Live.Cpu
import Verif.Proofs.Builds

/-!
# Checked and unchecked builds on devices with a life of their own, function by function
-/

namespace Verif.Spec.Live

open Verif Verif.Live

/-- The trees of calls are the same but for branches cut off by an overflow. -/
inductive Pruned {α : Type} : Bus α → Bus α → Prop
  | refl (x : Bus α) : Pruned x x
  | overflow (y : Bus α) : Pruned (.done (.error .overflow)) y
  | read {who : Copy} {a : Word} {k k' : Byte → Bus α} : (∀ v, Pruned (k v) (k' v)) →
      Pruned (.read who a k) (.read who a k')
  | write {who : Copy} {a : Word} {x : Byte} {k k' : Except String Byte → Bus α} :
      (∀ v, Pruned (k v) (k' v)) → Pruned (.write who a x k) (.write who a x k')

section
variable {α β : Type}

/-- Every computation comes to an end, whatever it is answered. -/
theorem asked_exists (x : Bus α) : ∃ l r, Asked x l r := by
  induction x with
  | done r => exact ⟨[], r, .done r⟩
  | read who a k ih =>
    obtain ⟨l, r, h⟩ := ih 0
    exact ⟨_, r, .read h⟩
  | write who a x k ih =>
    obtain ⟨l, r, h⟩ := ih (.ok 0)
    exact ⟨_, r, .write h⟩

theorem pruned_same {x y : Bus α} (h : Pruned x y) : ∀ l r, Asked x l r → r ≠ .error .overflow → Asked y l r := by
  induction h with
  | refl x => exact fun _ _ hx _ => hx
  | overflow y =>
    intro l r hx hr
    cases hx
    exact absurd rfl hr
  | read _ ih =>
    intro l r hx hr
    cases hx with
    | read hx => exact .read (ih _ _ _ hx hr)
  | write _ ih =>
    intro l r hx hr
    cases hx with
    | write hx => exact .write (ih _ _ _ hx hr)

theorem pruned_further {x y : Bus α} (h : Pruned x y) :
    ∀ l, Asked x l (.error .overflow) → ∃ l' r, Asked y (l ++ l') r := by
  induction h with
  | refl x => exact fun l hx => ⟨[], _, by rw [List.append_nil]; exact hx⟩
  | overflow y =>
    intro l hx
    cases hx
    exact asked_exists y
  | read _ ih =>
    intro l hx
    cases hx with
    | read hx =>
      obtain ⟨l', r, h⟩ := ih _ _ hx
      exact ⟨l', r, .read h⟩
  | write _ ih =>
    intro l hx
    cases hx with
    | write hx =>
      obtain ⟨l', r, h⟩ := ih _ _ hx
      exact ⟨l', r, .write h⟩

theorem pruned_back {x y : Bus α} (h : Pruned x y) :
    ∀ l r, Asked y l r → Asked x l r ∨ ∃ l', l' <+: l ∧ Asked x l' (.error .overflow) := by
  induction h with
  | refl x => exact fun _ _ hy => .inl hy
  | overflow y => exact fun l r _ => .inr ⟨[], List.nil_prefix, .done _⟩
  | read _ ih =>
    intro l r hy
    cases hy with
    | read hy =>
      rcases ih _ _ _ hy with h | ⟨l', h1, h2⟩
      · exact .inl (.read h)
      · exact .inr ⟨_, (List.prefix_cons_inj _).2 h1, .read h2⟩
  | write _ ih =>
    intro l r hy
    cases hy with
    | write hy =>
      rcases ih _ _ _ hy with h | ⟨l', h1, h2⟩
      · exact .inl (.write h)
      · exact .inr ⟨_, (List.prefix_cons_inj _).2 h1, .write h2⟩

theorem pruned_agree {x y : Bus α} (h : Pruned x y) : AgreeCalls x y :=
  ⟨pruned_same h, pruned_further h, pruned_back h⟩

theorem pruned_bind {x y : Bus α} {f g : α → Bus β} (h : Pruned x y) (hf : ∀ a, Pruned (f a) (g a)) :
    Pruned (x >>= f) (y >>= g) := by
  show Pruned (Bus.bind x f) (Bus.bind y g)
  induction h with
  | refl x =>
    induction x with
    | done r =>
      cases r with
      | ok a => exact hf a
      | error e => exact .refl _
    | read who a k ih => exact .read fun v => ih v
    | write who a x k ih => exact .write fun v => ih v
  | overflow y => exact .overflow _
  | read _ ih => exact .read fun v => ih v
  | write _ ih => exact .write fun v => ih v

/-- Computations without calls. -/
theorem pruned_lift {x y : Res α} (h : Agree x y) : Pruned (.done x : Bus α) (.done y) := by
  rcases h with rfl | rfl
  · exact .refl _
  · exact .overflow _

/-- The same, as the `do` blocks of the code write it. -/
theorem pruned_liftM {x y : Res α} (h : Agree x y) : Pruned (liftM x : Bus α) (liftM y) := pruned_lift h

end

section
open Mos

theorem pruned_indexedIndirect (cpu : Mos6502 Copy) (x y : Byte) :
    Pruned (Mos.Live.dereferenceIndexedIndirectAddress .debug cpu x y)
      (Mos.Live.dereferenceIndexedIndirectAddress .release cpu x y) :=
  pruned_bind (.refl _) fun _ => pruned_bind (pruned_lift (agree_addU8 _ _)) fun _ => .refl _

theorem pruned_indirectIndexed (cpu : Mos6502 Copy) (x y : Byte) :
    Pruned (Mos.Live.dereferenceIndirectIndexedAddress .debug cpu x y)
      (Mos.Live.dereferenceIndirectIndexedAddress .release cpu x y) :=
  pruned_bind (.refl _) fun _ => pruned_bind (.refl _) fun _ => pruned_lift (agree_addU16 _ _)

/-- One step through the `do` block of an instruction. -/
macro "pruned_step" : tactic => `(tactic| first
  | with_reducible exact Pruned.refl _
  | with_reducible exact pruned_indexedIndirect _ _ _
  | with_reducible exact pruned_indirectIndexed _ _ _
  | with_reducible exact pruned_liftM (agree_page _)
  | with_reducible exact pruned_liftM (agree_addU16 _ _)
  | with_reducible exact pruned_liftM (agree_subU16 _ _)
  | with_reducible exact pruned_liftM (agree_addU8 _ _)
  | with_reducible exact pruned_liftM (agree_subU8 _ _)
  | with_reducible exact pruned_liftM (agree_shl _ _)
  | with_reducible exact pruned_liftM (agree_shr _ _)
  | with_reducible exact pruned_liftM (agree_rol _ _ _)
  | with_reducible exact pruned_liftM (agree_ror _ _ _)
  | with_reducible exact pruned_liftM (agree_tcs _ _ _)
  | with_reducible apply pruned_bind
  | intro _)

theorem pruned_generate (cpu : Mos6502 Copy) (i : InstructionVariant) :
    Pruned (Mos.Live.generate .debug cpu i) (Mos.Live.generate .release cpu i) := by
  cases i
  all_goals
    simp only [Mos.Live.generate, Mos.Live.branchOnCase, Mos.Live.jmpIndirect,
    Mos.Live.adcAbsolute, Mos.Live.adcAbsoluteIndexedWithX, Mos.Live.adcAbsoluteIndexedWithY,
    Mos.Live.adcIndirectYIndexed, Mos.Live.adcImmediate, Mos.Live.adcXIndexedIndirect, Mos.Live.adcZeroPage,
    Mos.Live.adcZeroPageIndexedWithX, Mos.Live.sbcAbsolute, Mos.Live.sbcAbsoluteIndexedWithX,
    Mos.Live.sbcAbsoluteIndexedWithY, Mos.Live.sbcIndirectYIndexed, Mos.Live.sbcImmediate,
    Mos.Live.sbcXIndexedIndirect, Mos.Live.sbcZeroPage, Mos.Live.sbcZeroPageIndexedWithX,
    Mos.Live.bccRelative, Mos.Live.bcsRelative, Mos.Live.beqRelative, Mos.Live.bmiRelative,
    Mos.Live.bneRelative, Mos.Live.bplRelative, Mos.Live.bvcRelative, Mos.Live.bvsRelative,
    Mos.Live.cmpAbsolute, Mos.Live.cmpAbsoluteIndexedWithX, Mos.Live.cmpAbsoluteIndexedWithY,
    Mos.Live.cmpIndirectYIndexed, Mos.Live.cmpImmediate, Mos.Live.cmpXIndexedIndirect, Mos.Live.cmpZeroPage,
    Mos.Live.cmpZeroPageIndexedWithX, Mos.Live.cpxAbsolute, Mos.Live.cpxImmediate, Mos.Live.cpxZeroPage,
    Mos.Live.cpyAbsolute, Mos.Live.cpyImmediate, Mos.Live.cpyZeroPage, Mos.Live.clcImplied,
    Mos.Live.cldImplied, Mos.Live.cliImplied, Mos.Live.clvImplied, Mos.Live.secImplied, Mos.Live.sedImplied,
    Mos.Live.seiImplied, Mos.Live.decAbsolute, Mos.Live.decAbsoluteIndexedWithX, Mos.Live.decZeroPage,
    Mos.Live.decZeroPageIndexedWithX, Mos.Live.dexImplied, Mos.Live.deyImplied, Mos.Live.incAbsolute,
    Mos.Live.incAbsoluteIndexedWithX, Mos.Live.incZeroPage, Mos.Live.incZeroPageIndexedWithX,
    Mos.Live.inxImplied, Mos.Live.inyImplied, Mos.Live.jmpAbsolute, Mos.Live.jsrAbsolute, Mos.Live.rtsImplied,
    Mos.Live.rtiImplied, Mos.Live.brkImplied, Mos.Live.nopImplied, Mos.Live.ldaImmediate,
    Mos.Live.ldaZeroPage, Mos.Live.ldaZeroPageIndexedWithX, Mos.Live.ldaAbsolute,
    Mos.Live.ldaAbsoluteIndexedWithX, Mos.Live.ldaAbsoluteIndexedWithY, Mos.Live.ldaIndirectYIndexed,
    Mos.Live.ldaXIndexedIndirect, Mos.Live.ldxAbsolute, Mos.Live.ldxAbsoluteIndexedWithY,
    Mos.Live.ldxImmediate, Mos.Live.ldxZeroPage, Mos.Live.ldxZeroPageIndexedWithY, Mos.Live.ldyAbsolute,
    Mos.Live.ldyAbsoluteIndexedWithX, Mos.Live.ldyImmediate, Mos.Live.ldyZeroPage,
    Mos.Live.ldyZeroPageIndexedWithX, Mos.Live.andAbsolute, Mos.Live.andAbsoluteIndexedWithX,
    Mos.Live.andAbsoluteIndexedWithY, Mos.Live.andIndirectYIndexed, Mos.Live.andImmediate,
    Mos.Live.andXIndexedIndirect, Mos.Live.andZeroPage, Mos.Live.andZeroPageIndexedWithX,
    Mos.Live.bitAbsolute, Mos.Live.bitZeroPage, Mos.Live.eorAbsolute, Mos.Live.eorAbsoluteIndexedWithX,
    Mos.Live.eorAbsoluteIndexedWithY, Mos.Live.eorIndirectYIndexed, Mos.Live.eorImmediate,
    Mos.Live.eorXIndexedIndirect, Mos.Live.eorZeroPage, Mos.Live.eorZeroPageIndexedWithX,
    Mos.Live.oraAbsolute, Mos.Live.oraAbsoluteIndexedWithX, Mos.Live.oraAbsoluteIndexedWithY,
    Mos.Live.oraIndirectYIndexed, Mos.Live.oraImmediate, Mos.Live.oraXIndexedIndirect, Mos.Live.oraZeroPage,
    Mos.Live.oraZeroPageIndexedWithX, Mos.Live.aslAbsolute, Mos.Live.aslAbsoluteIndexedWithX,
    Mos.Live.aslAccumulator, Mos.Live.aslZeroPage, Mos.Live.aslZeroPageIndexedWithX, Mos.Live.lsrAbsolute,
    Mos.Live.lsrAbsoluteIndexedWithX, Mos.Live.lsrAccumulator, Mos.Live.lsrZeroPage,
    Mos.Live.lsrZeroPageIndexedWithX, Mos.Live.rolAbsolute, Mos.Live.rolAbsoluteIndexedWithX,
    Mos.Live.rolAccumulator, Mos.Live.rolZeroPage, Mos.Live.rolZeroPageIndexedWithX, Mos.Live.rorAbsolute,
    Mos.Live.rorAbsoluteIndexedWithX, Mos.Live.rorAccumulator, Mos.Live.rorZeroPage,
    Mos.Live.rorZeroPageIndexedWithX, Mos.Live.phaImplied, Mos.Live.phpImplied, Mos.Live.plaImplied,
    Mos.Live.plpImplied, Mos.Live.staAbsolute, Mos.Live.staAbsoluteIndexedWithX,
    Mos.Live.staAbsoluteIndexedWithY, Mos.Live.staIndirectYIndexed, Mos.Live.staXIndexedIndirect,
    Mos.Live.staZeroPage, Mos.Live.staZeroPageIndexedWithX, Mos.Live.stxAbsolute, Mos.Live.stxZeroPage,
    Mos.Live.stxZeroPageIndexedWithY, Mos.Live.styAbsolute, Mos.Live.styZeroPage,
    Mos.Live.styZeroPageIndexedWithX, Mos.Live.taxImplied, Mos.Live.tayImplied, Mos.Live.tsxImplied,
    Mos.Live.txaImplied, Mos.Live.txsImplied, Mos.Live.tyaImplied]
    repeat' pruned_step

theorem pruned_fetch (cpu : Mos6502 Copy) : Pruned (Mos.Live.fetch .debug cpu) (Mos.Live.fetch .release cpu) :=
  pruned_bind (.refl _) fun _ => pruned_bind (pruned_lift (agree_addU16 _ _)) fun _ =>
    pruned_bind (.refl _) fun _ => pruned_bind (pruned_lift (agree_addU16 _ _)) fun _ =>
    pruned_bind (.refl _) fun _ => .refl _

theorem pruned_next (cpu : Mos6502 Copy) : Pruned (Mos.Live.next .debug cpu) (Mos.Live.next .release cpu) :=
  pruned_bind (pruned_fetch _) fun _ => pruned_bind (pruned_generate _ _) fun _ =>
    pruned_bind (pruned_lift (agree_intoSteps _)) fun _ => .refl _

theorem pruned_runLoop (n : Nat) (it cpu : Mos6502 Copy) (pending : List (List Microcode)) :
    Pruned (Mos.Live.runLoop .debug n it pending cpu) (Mos.Live.runLoop .release n it pending cpu) := by
  induction n generalizing it cpu pending with
  | zero => exact .refl _
  | succ n ih =>
    cases pending with
    | cons step rest => exact pruned_bind (.refl _) fun _ => ih _ _ _
    | nil =>
      refine pruned_bind (pruned_next _) fun p => pruned_bind (pruned_lift (agree_intoSteps _)) fun steps => ?_
      cases steps with
      | nil => exact .refl _
      | cons step rest => exact pruned_bind (.refl _) fun _ => ih _ _ _

theorem pruned_run (cpu : Mos6502 Copy) (n : Nat) :
    Pruned (Mos.Live.run .debug cpu n) (Mos.Live.run .release cpu n) :=
  pruned_bind (pruned_runLoop _ _ _ _) fun _ => .refl _

end

section
open Chip8
variable {R : Type}

theorem pruned_mapCalls {α β : Type} {f g : α → Bus β} (h : ∀ a, Pruned (f a) (g a)) (l : List α) :
    Pruned (Chip8.Live.mapCalls f l) (Chip8.Live.mapCalls g l) := by
  induction l with
  | nil => exact .refl _
  | cons a l ih => exact pruned_bind (h a) fun _ => pruned_bind ih fun _ => .refl _

theorem pruned_chip8Generate (e : Env) (cpu : Chip8 Copy R) (o : Opcode) :
    Pruned (Chip8.Live.generate .debug e cpu o) (Chip8.Live.generate .release e cpu o) := by
  cases o with
  | Drw x y size =>
    exact pruned_bind (pruned_bind (pruned_lift (agree_addU16 _ _)) fun _ => .refl _) fun _ => .refl _
  | LdDelayTimerSrcTx r => exact pruned_lift (agree_bind (agree_timer _ _) fun _ => agree_refl _)
  | LdBcd r =>
    exact pruned_lift (agree_bind (agree_refl _) fun _ => agree_bind (agree_addU16 _ _) fun _ =>
      agree_bind (agree_addU16 _ _) fun _ => agree_refl _)
  | LdSpriteLocation r =>
    exact pruned_lift (agree_bind (agree_refl _) fun _ => agree_bind (agree_mulU8 _ _) fun _ => agree_refl _)
  | ReadRegistersFromMemory r =>
    exact pruned_mapCalls (fun _ => pruned_bind (.refl _) fun _ =>
      pruned_bind (pruned_lift (agree_addU16 _ _)) fun _ => .refl _) _
  | StoreRegistersToMemory r =>
    exact pruned_lift (agree_mapM (fun _ => agree_bind (agree_refl _) fun _ => agree_bind (agree_refl _) fun _ =>
      agree_bind (agree_addU16 _ _) fun _ => agree_refl _) _)
  | _ => exact .refl _

theorem pruned_chip8ExecuteMut (now : Instant) (cpu : Chip8 Copy R) (mc : Microcode) :
    Pruned (Chip8.Live.executeMut .debug now cpu mc) (Chip8.Live.executeMut .release now cpu mc) := by
  unfold Chip8.Live.executeMut
  split
  all_goals first
    | with_reducible exact .refl _
    | exact pruned_lift (agree_inc8 _ _ _ _)
    | exact pruned_lift (agree_setDisplayRange _ _ _ _)

theorem pruned_chip8ExecuteAll (now : Instant) (mcs : List Microcode) (cpu : Chip8 Copy R) :
    Pruned (Chip8.Live.executeAll .debug now cpu mcs) (Chip8.Live.executeAll .release now cpu mcs) := by
  induction mcs generalizing cpu with
  | nil => exact .refl _
  | cons mc mcs ih => exact pruned_bind (pruned_chip8ExecuteMut _ _ _) fun _ => ih _

theorem pruned_chip8Fetch (cpu : Chip8 Copy R) :
    Pruned (Chip8.Live.fetch .debug cpu) (Chip8.Live.fetch .release cpu) :=
  pruned_bind (.refl _) fun _ => pruned_bind (pruned_lift (agree_addU16 _ _)) fun _ => .refl _

theorem pruned_chip8Next (e : Env) (cpu : Chip8 Copy R) :
    Pruned (Chip8.Live.next .debug e cpu) (Chip8.Live.next .release e cpu) :=
  pruned_bind (pruned_chip8Fetch _) fun _ => pruned_bind (pruned_chip8Generate _ _ _) fun _ =>
    pruned_bind (pruned_chip8ExecuteAll _ _ _) fun _ => .refl _

theorem pruned_chip8RunLoop (env : Nat → Env) (n k : Nat) (it cpu : Chip8 Copy R) :
    Pruned (Chip8.Live.runLoop .debug env n k it cpu) (Chip8.Live.runLoop .release env n k it cpu) := by
  induction n generalizing k it cpu with
  | zero => exact .refl _
  | succ n ih =>
    exact pruned_bind (pruned_chip8Next _ _) fun _ => pruned_bind (pruned_chip8ExecuteAll _ _ _) fun _ => ih _ _ _

theorem pruned_chip8Run (env : Nat → Env) (cpu : Chip8 Copy R) (n : Nat) :
    Pruned (Chip8.Live.run .debug env cpu n) (Chip8.Live.run .release env cpu n) :=
  pruned_bind (pruned_chip8RunLoop _ _ _ _ _) fun _ => .refl _

end

/-! ## Devices -/

instance {W D : Type} [Addressable D] [BuildsAgree D] : DevicesAgree W (Value D) where
  read d a w := by
    rcases BuildsAgree.read d.dev a with h | h
    · left; show ((Addressable.read .debug d.dev a).map _, w) = _; rw [h]; rfl
    · right; show (Addressable.read .debug d.dev a).map _ = _; rw [h]; rfl
  write d a v w := by
    rcases BuildsAgree.write d.dev a v with h | h
    · left; show ((Addressable.write .debug d.dev a v).map _, w) = _; rw [h]; rfl
    · right; show (Addressable.write .debug d.dev a v).map _ = _; rw [h]; rfl

instance {D : Type} [Addressable D] [BuildsAgree D] : DevicesAgree D Shared where
  read s a w := by
    rcases BuildsAgree.read w a with h | h
    · left; show ((Addressable.read .debug w a).map _, w) = _; rw [h]; rfl
    · right; show (Addressable.read .debug w a).map _ = _; rw [h]; rfl
  write s a v w := by
    rcases BuildsAgree.write w a v with h | h
    · left; simp only [Device.write, h]
    · right; simp only [Device.write, h]

instance {W D E : Type} [Device W D] [Device W E] [DevicesAgree W D] [DevicesAgree W E] :
    DevicesAgree W (D ⊕ E) where
  read d a w := by
    cases d with
    | inl d =>
      rcases DevicesAgree.read d a w with h | h
      · left; simp only [Device.read, h]
      · right
        simp only [Device.read]
        generalize Device.read .debug d a w = x at h ⊢
        obtain ⟨x, w'⟩ := x
        cases h
        rfl
    | inr d =>
      rcases DevicesAgree.read d a w with h | h
      · left; simp only [Device.read, h]
      · right
        simp only [Device.read]
        generalize Device.read .debug d a w = x at h ⊢
        obtain ⟨x, w'⟩ := x
        cases h
        rfl
  write d a v w := by
    cases d with
    | inl d =>
      rcases DevicesAgree.write d a v w with h | h
      · left; simp only [Device.write, h]
      · right
        simp only [Device.write]
        generalize Device.write .debug d a v w = x at h ⊢
        obtain ⟨x, w'⟩ := x
        cases h
        rfl
    | inr d =>
      rcases DevicesAgree.write d a v w with h | h
      · left; simp only [Device.write, h]
      · right
        simp only [Device.write]
        generalize Device.write .debug d a v w = x at h ⊢
        obtain ⟨x, w'⟩ := x
        cases h
        rfl

section
variable {W D : Type} [Device W D] [DevicesAgree W D]

theorem agree_mapReadEntries (a : Word) (w : W) (es : List (AddrRange × D)) :
    AgreeCall (mapReadEntries .debug a w es) (mapReadEntries .release a w es) := by
  induction es with
  | nil => exact .inl rfl
  | cons p es ih =>
    obtain ⟨r, d⟩ := p
    simp only [mapReadEntries]
    split
    · rcases DevicesAgree.read d a w with h | h
      · left; rw [h]
      · right
        generalize Device.read .debug d a w = x at h ⊢
        obtain ⟨x, w'⟩ := x
        cases h
        rfl
    · rcases ih with h | h
      · left; rw [h]
      · right
        generalize mapReadEntries .debug a w es = x at h ⊢
        obtain ⟨x, w'⟩ := x
        cases h
        rfl

theorem agree_mapWriteEntries (a : Word) (v : Byte) (w : W) (es : List (AddrRange × D)) :
    AgreeCall (mapWriteEntries .debug a v w es) (mapWriteEntries .release a v w es) := by
  induction es with
  | nil => exact .inl rfl
  | cons p es ih =>
    obtain ⟨r, d⟩ := p
    simp only [mapWriteEntries]
    split
    · rcases DevicesAgree.write d a v w with h | h
      · left; rw [h]
      · right
        generalize Device.write .debug d a v w = x at h ⊢
        obtain ⟨x, w'⟩ := x
        cases h
        rfl
    · rcases ih with h | h
      · left; rw [h]
      · right
        generalize mapWriteEntries .debug a v w es = x at h ⊢
        obtain ⟨x, w'⟩ := x
        cases h
        rfl

instance : DevicesAgree W (AddressMap D) where
  read m a w := by
    show AgreeCall (mapRead .debug m a w) (mapRead .release m a w)
    unfold mapRead
    rcases agree_mapReadEntries a w m.inner with h | h
    · left; rw [h]
    · right
      generalize mapReadEntries .debug a w m.inner = x at h ⊢
      obtain ⟨x, w'⟩ := x
      cases h
      rfl
  write m a v w := by
    show AgreeCall (mapWrite .debug m a v w) (mapWrite .release m a v w)
    unfold mapWrite
    rcases agree_mapWriteEntries a v w m.inner with h | h
    · left; rw [h]
    · right
      generalize mapWriteEntries .debug a v w m.inner = x at h ⊢
      obtain ⟨x, w'⟩ := x
      cases h
      rfl

/-- On devices of which both builds agree. -/
theorem pruned_exec {α : Type} {x y : Bus α} (h : Pruned x y) :
    ∀ s : Site W D, AgreeCall (x.exec .debug s) (y.exec .release s) := by
  have refl : ∀ (x : Bus α) (s : Site W D), AgreeCall (x.exec .debug s) (x.exec .release s) := by
    intro x
    induction x with
    | done r => exact fun s => .inl rfl
    | read who a k ih =>
      intro s
      simp only [Bus.exec]
      rcases DevicesAgree.read (s.on who) a s.world with h | h
      · rw [h]
        split
        · exact ih _ _
        · exact .inl rfl
      · generalize Device.read .debug (s.on who) a s.world = x at h ⊢
        obtain ⟨x, w'⟩ := x
        cases h
        exact .inr rfl
    | write who a v k ih =>
      intro s
      simp only [Bus.exec]
      rcases DevicesAgree.write (s.on who) a v s.world with h | h
      · rw [h]
        split
        · exact ih _ _
        · exact .inl rfl
      · generalize Device.write .debug (s.on who) a v s.world = x at h ⊢
        obtain ⟨x, w'⟩ := x
        cases h
        exact .inr rfl
  induction h with
  | refl x => exact refl x
  | overflow y => exact fun s => .inr rfl
  | @read who a k k' _ ih =>
    intro s
    simp only [Bus.exec]
    rcases DevicesAgree.read (s.on who) a s.world with h | h
    · rw [h]
      split
      · exact ih _ _
      · exact .inl rfl
    · generalize Device.read .debug (s.on who) a s.world = x at h ⊢
      obtain ⟨x, w'⟩ := x
      cases h
      exact .inr rfl
  | @write who a v k k' _ ih =>
    intro s
    simp only [Bus.exec]
    rcases DevicesAgree.write (s.on who) a v s.world with h | h
    · rw [h]
      split
      · exact ih _ _
      · exact .inl rfl
    · generalize Device.write .debug (s.on who) a v s.world = x at h ⊢
      obtain ⟨x, w'⟩ := x
      cases h
      exact .inr rfl

end

end Verif.Spec.Live
