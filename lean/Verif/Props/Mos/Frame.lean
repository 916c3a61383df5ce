import Verif.Spec.MosExec
import Verif.Props.Mos.Stack
import Verif.Props.Mos.Rom

/-!
# C86: what no executed instruction touches stays (6502)
-/

namespace Verif.Props

open Verif Verif.Mos Verif.Spec Verif.Spec.Mos

section
variable {B : Type} [Addressable B] {b : Build} {I : B → Mem → Prop} {c c' : Mos6502 B} {mem : Mem}
  {tr : List (Mos6502 B × InstructionVariant)}

/-- The instructions of a `run`. -/
theorem executes_of_instructions {l : List Operations} (h : Instructions b c l c') :
    ∃ tr, Executes b c tr c' ∧ tr.length = l.length := by
  induction h with
  | nil c => exact ⟨[], .nil c, rfl⟩
  | @cons c d e ops l hx _ ih =>
    obtain ⟨tr, h1, h2⟩ := ih
    cases hf : fetch b c with
    | error p =>
      exfalso
      unfold next at hx
      rw [hf] at hx
      cases hx
    | ok i => exact ⟨(c, i) :: tr, .cons ⟨hf, ops, hx⟩ h1, by simp [h2]⟩

/-- C86: the instructions of every run that does not panic are such an execution. -/
theorem C86_run {n : Nat} {s : StepState (Mos6502 B)} (h : run b c n = .ok s) :
    ∃ tr, Executes b c tr s.unwrap := by
  obtain ⟨l, d, h1, -, rfl, -⟩ := C12_run_ok h
  obtain ⟨tr, h2, -⟩ := executes_of_instructions h1
  exact ⟨tr, h2⟩

theorem executes_induction (hI : Coherent b I) (h : Executes b c tr c') (hm : I c.address_map mem)
    {P : Mos6502 B → Mem → Prop} (h0 : P c mem)
    (hs : ∀ d d' i mem, (d, i) ∈ tr → I d.address_map mem → Step b d i d' → P d mem →
      P d' ((codeEffect (regs d) mem (view i).1 (view i).2).writes.foldl
        (fun m w => upd m w.1 w.2) mem)) :
    ∃ mem', I c'.address_map mem' ∧ P c' mem' := by
  induction h generalizing mem with
  | nil c => exact ⟨mem, hm, h0⟩
  | @cons c d e i tr hx _ ih =>
    exact ih (step_mem hI hm hx).2 (hs _ _ _ _ (by simp) hm hx h0)
      fun d d' j m hj => hs d d' j m (by simp [hj])

/-- C86: a register keeps its value through every execution none of whose instructions is documented
to change it. -/
theorem C86_registers (hI : Coherent b I) (hm : I c.address_map mem) (h : Executes b c tr c') :
    ((∀ p ∈ tr, (changes (view p.2).2 (view p.2).1).1 = false) → c'.acc = c.acc) ∧
    ((∀ p ∈ tr, (changes (view p.2).2 (view p.2).1).2.1 = false) → c'.x = c.x) ∧
    ((∀ p ∈ tr, (changes (view p.2).2 (view p.2).1).2.2.1 = false) → c'.y = c.y) ∧
    ((∀ p ∈ tr, (changes (view p.2).2 (view p.2).1).2.2.2 = false) → c'.sp = c.sp) := by
  have key : ∀ (d d' : Mos6502 B) i m, I d.address_map m → Step b d i d' → _ :=
    fun d d' i m hd hst => C16_registers (mem := m) hst.1 (hI _ _ hd).1 (mn := (view i).1) (am := (view i).2) rfl
      hst.2.choose_spec
  refine ⟨fun hp => ?_, fun hp => ?_, fun hp => ?_, fun hp => ?_⟩
  · obtain ⟨-, -, e⟩ := executes_induction hI h hm (P := fun d _ => d.acc = c.acc) rfl
      fun d d' i m hi hd hst e => ((key d d' i m hd hst).1 (hp _ hi)).trans e
    exact e
  · obtain ⟨-, -, e⟩ := executes_induction hI h hm (P := fun d _ => d.x = c.x) rfl
      fun d d' i m hi hd hst e => ((key d d' i m hd hst).2.1 (hp _ hi)).trans e
    exact e
  · obtain ⟨-, -, e⟩ := executes_induction hI h hm (P := fun d _ => d.y = c.y) rfl
      fun d d' i m hi hd hst e => ((key d d' i m hd hst).2.2.1 (hp _ hi)).trans e
    exact e
  · obtain ⟨-, -, e⟩ := executes_induction hI h hm (P := fun d _ => d.sp = c.sp) rfl
      fun d d' i m hi hd hst e => ((key d d' i m hd hst).2.2.2 (hp _ hi)).trans e
    exact e

/-- C86: likewise a flag. -/
theorem C86_flags (hI : Coherent b I) (hm : I c.address_map mem) (h : Executes b c tr c')
    (f : ProgramStatusFlags) (hf : ∀ p ∈ tr, f ∉ flagsOf (view p.2).1) :
    flag c'.ps f = flag c.ps f := by
  obtain ⟨-, -, e⟩ := executes_induction hI h hm (P := fun d _ => flag d.ps f = flag c.ps f) rfl
    fun d d' i m hi hd hst e => (C16_flags (mem := m) hst.1 (hI _ _ hd).1 (mn := (view i).1) (am := (view i).2) rfl
      hst.2.choose_spec f (hf _ hi)).trans e
  exact e

/-- Writes elsewhere. -/
theorem foldl_upd_other (a : Word) (ws : List (Word × Byte)) (mem : Mem) (h : a ∉ ws.map Prod.fst) :
    ws.foldl (fun m w => upd m w.1 w.2) mem a = mem a := by
  induction ws generalizing mem with
  | nil => rfl
  | cons w ws ih =>
    rw [List.foldl_cons, ih _ fun hx => h (by simp at hx ⊢; exact .inr hx)]
    unfold upd
    rw [if_neg fun e => h (by simp [e])]

/-- C86: a byte of memory keeps its value through every execution that never stores there. -/
theorem C86_memory (hI : Coherent b I) (hm : I c.address_map mem) (h : Executes b c tr c') (a : Word)
    (ha : ∀ p ∈ tr, ∀ m, I p.1.address_map m → a ∉ writable (regs p.1) m (view p.2).1 (view p.2).2) :
    ∃ mem', I c'.address_map mem' ∧ mem' a = mem a :=
  executes_induction hI h hm (P := fun _ m => m a = mem a) rfl fun d d' i m hi hd _ e => by
    rw [foldl_upd_other a _ _ (by rw [codeEffect_writes]; exact ha _ hi m hd)]
    exact e

/-- The instructions that store at an effective address. -/
def storesToOperand (i : InstructionVariant) : Bool := writesMem (view i).1 (view i).2

/-- The instructions that push. -/
def pushes : Mnemonic → Bool
  | .Pha | .Php | .Jsr | .Brk => true
  | _ => false

/-- C86: an execution whose only stores are pushes changes nothing outside page one. -/
theorem C86_page_one (hI : Coherent b I) (hm : I c.address_map mem) (h : Executes b c tr c')
    (hs : ∀ p ∈ tr, storesToOperand p.2 = false) :
    ∃ mem', I c'.address_map mem' ∧ ∀ a : Word, a.toNat < 0x100 ∨ 0x200 ≤ a.toNat → mem' a = mem a :=
  executes_induction hI h hm
    (P := fun _ m => ∀ a : Word, a.toNat < 0x100 ∨ 0x200 ≤ a.toNat → m a = mem a)
    (fun _ _ => rfl) fun d d' i m hi hd _ e a ha => by
      rw [foldl_upd_other a, e a ha]
      rw [codeEffect_writes]
      have hst : ∀ n, a ≠ stack n := by
        rintro n rfl
        unfold stack at ha
        rw [toNat_word] at ha
        omega
      have hno := hs _ hi
      unfold storesToOperand at hno
      simp only at hno
      unfold writable
      split <;> simp_all

/-- C86: an execution of instructions that neither push nor store leaves the whole bus, devices
included, as it is. -/
theorem C86_bus (hv : BusView b c.address_map mem) (h : Executes b c tr c')
    (hs : ∀ p ∈ tr, storesToOperand p.2 = false ∧ pushes (view p.2).1 = false) :
    c'.address_map = c.address_map := by
  induction h with
  | nil c => rfl
  | @cons c d e i tr hx _ ih =>
    have hd : d.address_map = c.address_map := by
      obtain ⟨ws, h1, h2⟩ := C16_writes hx.1 hv (mn := (view i).1) (am := (view i).2) rfl hx.2.choose_spec
      obtain ⟨q1, q2⟩ := hs (c, i) (by simp)
      have : writable (regs c) mem (view i).1 (view i).2 = [] := by
        unfold storesToOperand at q1
        simp only at q1 q2
        revert q2
        unfold writable
        split <;> simp_all [pushes]
      rw [this] at h1
      rw [List.map_eq_nil_iff.1 h1] at h2
      exact (Except.ok.inj h2).symm
    rw [ih (by rw [hd]; exact hv) fun p hp => hs p (by simp [hp]), hd]

end

/-! ### Concrete cases -/

/-- `PHA; PHP; NOP` on 64K of RAM: X, Y, A, all flags and everything outside page one must stay, but the
stack pointer and page one change. -/
example : ∃ tr c', Executes .debug pushProgramStart tr c' ∧ tr.length = 3 ∧
    (∀ p ∈ tr, (changes (view p.2).2 (view p.2).1).1 = false) ∧
    (∀ p ∈ tr, storesToOperand p.2 = false) ∧
    (∀ p ∈ tr, ProgramStatusFlags.Decimal ∉ flagsOf (view p.2).1) ∧
    c'.sp ≠ pushProgramStart.sp ∧ c'.address_map.mem 0x101 ≠ pushProgramStart.address_map.mem 0x101 := by
  refine ⟨[(_, .PhaImplied), (_, .PhpImplied), (_, .NopImplied)], afterN .debug pushProgramStart 3,
    .cons (c' := afterN .debug pushProgramStart 1) (step_after1 (by decide +kernel))
      (.cons (c' := afterN .debug pushProgramStart 2) (step_afterN (by decide +kernel))
        (.cons (step_afterN (by decide +kernel)) (.nil _))), rfl, ?_, ?_, ?_, by decide +kernel,
    by decide +kernel⟩ <;>
  · intro p hp
    simp only [List.mem_cons, List.not_mem_nil, or_false] at hp
    rcases hp with rfl | rfl | rfl <;> decide

/-- `NOP; NOP; JMP` meets the hypothesis of `C86_bus`. -/
example : ∃ tr c', Executes .debug runProgram tr c' ∧ tr.length = 3 ∧
    ∀ p ∈ tr, storesToOperand p.2 = false ∧ pushes (view p.2).1 = false := by
  refine ⟨[(_, .NopImplied), (_, .NopImplied), (_, .JmpAbsolute 0x80fd)], afterN .debug runProgram 3,
    .cons (c' := afterN .debug runProgram 1) (step_after1 (by decide +kernel))
      (.cons (c' := afterN .debug runProgram 2) (step_afterN (by decide +kernel))
        (.cons (step_afterN (by decide +kernel)) (.nil _))), rfl, ?_⟩
  intro p hp
  simp only [List.mem_cons, List.not_mem_nil, or_false] at hp
  rcases hp with rfl | rfl | rfl <;> decide

end Verif.Props
