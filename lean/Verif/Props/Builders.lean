import Verif.Spec.Builders
import Verif.Spec.Chip8
import Verif.Proofs.Chip8Sample
import Verif.Proofs.Chip8Effect

/-!
# The builder methods of the two CPUs (C63)
-/

namespace Verif.Props

open Verif Verif.Spec

theorem lastOr_nil {C α : Type} (named : C → Option α) (old : α) : lastOr named [] old = old := rfl

theorem lastOr_cons {C α : Type} (named : C → Option α) (c : C) (cs : List C) (old : α) :
    lastOr named (c :: cs) old = lastOr named cs ((named c).getD old) := by
  unfold lastOr
  cases h : named c with
  | none => rw [List.filterMap_cons_none h]; rfl
  | some v =>
    rw [List.filterMap_cons_some h, List.getLast?_cons]
    rfl

/-! ### 6502 -/

/-- 6502: after any sequence of builder calls every register has the value of the last call that
names it, or its old one, and the bus is untouched. In particular calls for different components
commute. -/
theorem C63_mos {B : Type} (cpu : Mos.Mos6502 B) (calls : List MosCall) :
    let c := calls.foldl MosCall.exec cpu
    c.acc = lastOr (MosCall.forGp .Acc) calls cpu.acc ∧
    c.x = lastOr (MosCall.forGp .X) calls cpu.x ∧
    c.y = lastOr (MosCall.forGp .Y) calls cpu.y ∧
    c.sp = lastOr MosCall.forSp calls cpu.sp ∧
    c.pc = lastOr MosCall.forPc calls cpu.pc ∧
    c.ps = lastOr MosCall.forPs calls cpu.ps ∧
    c.address_map = cpu.address_map := by
  induction calls generalizing cpu with
  | nil => exact ⟨rfl, rfl, rfl, rfl, rfl, rfl, rfl⟩
  | cons c cs ih =>
    simp only [List.foldl_cons, lastOr_cons]
    have := ih (c.exec cpu)
    cases c with
    | gp r v => cases r <;> exact this
    | sp v => exact this
    | pc v => exact this
    | ps v => exact this

/-- Two sequences of calls whose last calls for each component agree build the same CPU: the order
of calls for different components does not matter. -/
theorem C63_mos_order {B : Type} (cpu : Mos.Mos6502 B) (calls calls' : List MosCall)
    (hg : ∀ r, (calls.filterMap (MosCall.forGp r)).getLast? =
      (calls'.filterMap (MosCall.forGp r)).getLast?)
    (hs : (calls.filterMap MosCall.forSp).getLast? = (calls'.filterMap MosCall.forSp).getLast?)
    (hp : (calls.filterMap MosCall.forPc).getLast? = (calls'.filterMap MosCall.forPc).getLast?)
    (hf : (calls.filterMap MosCall.forPs).getLast? = (calls'.filterMap MosCall.forPs).getLast?) :
    calls.foldl MosCall.exec cpu = calls'.foldl MosCall.exec cpu := by
  obtain ⟨a1, a2, a3, a4, a5, a6, a7⟩ := C63_mos cpu calls
  obtain ⟨b1, b2, b3, b4, b5, b6, b7⟩ := C63_mos cpu calls'
  generalize calls.foldl MosCall.exec cpu = c at *
  generalize calls'.foldl MosCall.exec cpu = c' at *
  cases c
  cases c'
  simp only [lastOr, hg, hs, hp, hf] at *
  simp_all

/-- X and A set in either order, A twice. -/
example (cpu : Mos.Mos6502 Unit) :
    [MosCall.gp .Acc 1, .gp .X 7, .gp .Acc 2].foldl MosCall.exec cpu =
      [MosCall.gp .Acc 2, .gp .X 7].foldl MosCall.exec cpu :=
  C63_mos_order cpu _ _ (fun r => by cases r <;> rfl) rfl rfl rfl

/-! ### CHIP-8 -/

open Verif.Chip8 Verif.Spec.Chip8

/-- C63 for the CHIP-8 in full: after any sequence of builder calls every component has the value of
the last call that names it, or its old one. -/
def C63_statement : Prop :=
  ∀ (B R : Type) (cpu : Chip8 B R) (calls : List (Chip8Call R)), ∃ c, execCalls cpu calls = .ok c ∧
    c.pc = lastOr Chip8Call.forPc calls cpu.pc ∧
    c.sp = lastOr Chip8Call.forSp calls cpu.sp ∧
    c.dt = lastOr Chip8Call.forDelay calls cpu.dt ∧
    c.st = lastOr Chip8Call.forSound calls cpu.st ∧
    c.i = lastOr Chip8Call.forI calls cpu.i ∧
    (∀ r, V c r = lastOr (Chip8Call.forGp r) calls (V cpu r)) ∧
    c.rng = lastOr Chip8Call.forRng calls cpu.rng ∧
    c.interrupt = lastOr Chip8Call.forInterrupt calls cpu.interrupt ∧
    c.display = calls.foldl Chip8Call.onDisplay cpu.display ∧
    c.stack = cpu.stack ∧ c.address_space = cpu.address_space

/-- C63 is false: `with_display` drops the pending key. -/
theorem C63_display_clears_key : ¬ C63_statement := by
  intro h
  obtain ⟨c, h1, -, -, -, -, -, -, -, h2, -⟩ := h _ _ sample
    [.interrupt (some (.KeyPress .Key5)), .display id]
  cases h1
  cases h2

/-- C63 is false a second time: `with_gp_register` panics for VF. -/
theorem C63_vf_panics {B R : Type} (cpu : Chip8 B R) (v : Byte) :
    execCalls cpu [.gp .Vf v] = .error .bounds := by
  simp only [execCalls, Chip8Call.exec, withGpRegister, set_gp_Vf]
  rfl

/-- The pending key the call installs: `with_display` installs none. -/
def keyAfter {R : Type} : Chip8Call R → Option (Option Interrupt)
  | .display _ => some none
  | c => c.forInterrupt

/-- What the code does, for all sequences that do not name VF: all of C63, except that `with_display`
counts as `with_interrupt` with no interrupt. -/
theorem C63_chip8_partial {B R : Type} (cpu : Chip8 B R) (calls : List (Chip8Call R))
    (hvf : ∀ v, Chip8Call.gp .Vf v ∉ calls) : ∃ c, execCalls cpu calls = .ok c ∧
    c.pc = lastOr Chip8Call.forPc calls cpu.pc ∧
    c.sp = lastOr Chip8Call.forSp calls cpu.sp ∧
    c.dt = lastOr Chip8Call.forDelay calls cpu.dt ∧
    c.st = lastOr Chip8Call.forSound calls cpu.st ∧
    c.i = lastOr Chip8Call.forI calls cpu.i ∧
    (∀ r, V c r = lastOr (Chip8Call.forGp r) calls (V cpu r)) ∧
    c.rng = lastOr Chip8Call.forRng calls cpu.rng ∧
    c.interrupt = lastOr keyAfter calls cpu.interrupt ∧
    c.display = calls.foldl Chip8Call.onDisplay cpu.display ∧
    c.stack = cpu.stack ∧ c.address_space = cpu.address_space := by
  induction calls generalizing cpu with
  | nil => exact ⟨cpu, rfl, rfl, rfl, rfl, rfl, rfl, fun _ => rfl, rfl, rfl, rfl, rfl, rfl⟩
  | cons k ks ih =>
    have hks : ∀ v, Chip8Call.gp .Vf v ∉ ks := fun v h => hvf v (by simp [h])
    simp only [execCalls, lastOr_cons, List.foldl_cons]
    cases k with
    | timer t v => cases t <;> exact ih _ hks
    | gp r v =>
      have hr : r ≠ .Vf := by
        rintro rfl
        exact hvf v (by simp)
      simp only [Chip8Call.exec, withGpRegister, set_gp hr, Res.ok_bind]
      obtain ⟨c, h0, h1, h2, h3, h4, h5, h6, h7⟩ := ih (setV cpu r v) hks
      refine ⟨c, h0, h1, h2, h3, h4, h5, fun r' => ?_, h7⟩
      rw [h6, V_setV cpu hr]
      simp only [Chip8Call.forGp]
      by_cases h : r = r'
      · subst h; simp
      · rw [if_neg h, if_neg (fun h' => h h'.symm)]; rfl
    | pc v => exact ih _ hks
    | sp v => exact ih _ hks
    | i v => exact ih _ hks
    | rng v => exact ih _ hks
    | interrupt v => exact ih _ hks
    | display f => exact ih _ hks

/-- So C63 holds for sequences without VF and without `with_display`. -/
theorem C63_no_display_partial {B R : Type} (cpu : Chip8 B R) (calls : List (Chip8Call R))
    (hvf : ∀ v, Chip8Call.gp .Vf v ∉ calls) (hd : ∀ f, Chip8Call.display f ∉ calls) :
    ∃ c, execCalls cpu calls = .ok c ∧
      c.interrupt = lastOr Chip8Call.forInterrupt calls cpu.interrupt := by
  obtain ⟨c, h0, -, -, -, -, -, -, -, h, -⟩ := C63_chip8_partial cpu calls hvf
  refine ⟨c, h0, ?_⟩
  rw [h]
  unfold lastOr
  have : ∀ ks : List (Chip8Call R), (∀ f, Chip8Call.display f ∉ ks) →
      ks.filterMap keyAfter = ks.filterMap Chip8Call.forInterrupt := by
    intro ks
    induction ks with
    | nil => intro _; rfl
    | cons k ks ih =>
      intro h
      have hk : keyAfter k = k.forInterrupt := by
        cases k <;> first | rfl | exact absurd List.mem_cons_self (h _)
      rw [List.filterMap_cons, List.filterMap_cons, hk, ih fun f hf => h f (by simp [hf])]
  rw [this calls hd]

/-- `with_rng` with a generator of another type keeps everything else. -/
theorem C63_rng_other_type {B R R' : Type} (cpu : Chip8 B R) (rng : R') :
    (withRng cpu rng).rng = rng ∧ withRng (withRng cpu rng) cpu.rng = cpu := ⟨rfl, rfl⟩

/-- A sequence that meets the hypotheses. -/
example : ∃ c, execCalls sample [.gp .V3 9, .pc 0x300, .timer .Delay ⟨0, 4⟩, .gp .V3 8,
    .interrupt (some (.KeyPress .Key5))] = .ok c ∧ V c .V3 = 8 ∧ c.pc = 0x300 := by
  obtain ⟨c, h0, h1, -, -, -, -, h2, -⟩ := C63_chip8_partial sample [.gp .V3 9, .pc 0x300,
    .timer .Delay ⟨0, 4⟩, .gp .V3 8, .interrupt (some (.KeyPress .Key5))] (by simp)
  exact ⟨c, h0, by rw [h2]; rfl, h1⟩

end Verif.Props
