import Verif.Proofs.MosCycles
import Verif.Props.Mos.Run

/-!
# Property C77: how many instructions a number of cycles is
-/

namespace Verif.Props

open Verif Verif.Mos Verif.Spec.Mos

section
variable {B : Type} [Addressable B] {b : Build} {c c' : Mos6502 B}

/-- On any bus, in any state: an instruction takes at least 2 and at most 7 cycles. -/
theorem C77_cycles {ops : Operations} (h : next b c = .ok (ops, c')) :
    2 ≤ ops.cycles ∧ ops.cycles ≤ 7 := next_cyc h

/-- A `run` of `n` cycles that does not panic executes at most `n / 2` and at least `n / 7`
instructions, and loses at most the last 6 cycles. -/
theorem C77_throughput {n : Nat} {s : StepState (Mos6502 B)} (h : run b c n = .ok s) :
    ∃ l c', Instructions b c l c' ∧ s = .ready c' ∧ n / 7 ≤ l.length ∧ l.length ≤ n / 2 ∧
      totalCycles l ≤ n ∧ n ≤ totalCycles l + 6 := by
  rw [run_eq] at h
  rcases runLoop_cases (b := b) n c with ⟨l, d, h1, h2, h3, h4⟩ | ⟨l, d, p, h1, h2, h3, h4⟩
  · rw [h4] at h
    simp only [Except.map, Except.ok.injEq] at h
    have hc := instructions_cyc h1
    have h6 : n ≤ totalCycles l + 6 := by
      rcases h3 with h3 | ⟨ops', e', h3, h3'⟩
      · omega
      · have := next_cyc h3; omega
    exact ⟨l, d, h1, h.symm, by omega, by omega, h2, h6⟩
  · rw [h4] at h; cases h

/-- A `run` of fewer than 2 cycles does nothing, unless the first fetch panics; a `run` of at least
7 cycles that does not panic executes at least one instruction. -/
theorem C77_small {s : StepState (Mos6502 B)} :
    (run b c 1 = .ok s → s = .ready c) ∧
    (∀ n, 7 ≤ n → run b c n = .ok s → ∃ ops c₁, next b c = .ok (ops, c₁)) := by
  constructor
  · intro h
    obtain ⟨l, d, h1, h2, -, h3, -⟩ := C77_throughput h
    cases l with
    | nil => cases h1; exact h2
    | cons x l => simp at h3
  · intro n hn h
    obtain ⟨l, d, h1, -, h3, -⟩ := C77_throughput h
    cases h1 with
    | nil => rw [List.length_nil] at h3; omega
    | cons hx _ => exact ⟨_, _, hx⟩

/-- Instructions that always take `k` cycles. -/
theorem steady {P : Mos6502 B → Prop} {k : Nat} (hk : 0 < k)
    (hP : ∀ c, P c → ∃ ops c', next b c = .ok (ops, c') ∧ ops.cycles = k ∧ P c') :
    ∀ (n : Nat) (c : Mos6502 B), P c →
    ∃ l c', Instructions b c l c' ∧ run b c n = .ok (.ready c') ∧ l.length = n / k := by
  have key : ∀ (m : Nat) (c : Mos6502 B), P c →
      ∃ l c', Instructions b c l c' ∧ l.length = m ∧ totalCycles l = m * k ∧ P c' := by
    intro m
    induction m with
    | zero => intro c hc; exact ⟨[], c, .nil c, rfl, by simp [totalCycles], hc⟩
    | succ m ih =>
      intro c hc
      obtain ⟨ops, d, hn, hk', hd⟩ := hP c hc
      obtain ⟨l, e, h1, h2, h3, h4⟩ := ih d hd
      refine ⟨ops :: l, e, .cons hn h1, by simp [h2], ?_, h4⟩
      rw [totalCycles_cons, h3, hk', Nat.succ_mul, Nat.add_comm]
  intro n c hc
  obtain ⟨l, d, h1, h2, h3, h4⟩ := key (n / k) c hc
  obtain ⟨ops, e, hn, hk', -⟩ := hP d h4
  have hdm := Nat.div_add_mod n k
  have hml := Nat.mod_lt n hk
  have hmc : k * (n / k) = n / k * k := Nat.mul_comm _ _
  refine ⟨l, d, h1, C12_run_eq h1 (by omega) (.inr ⟨ops, e, hn, by omega⟩), h2⟩

end

/-- The upper bound is reached for every `n`: 64K of NOP (in a build where `pc` wraps). -/
theorem C77_fastest (n : Nat) (c : Mos6502 FlatRam) (h : ∀ a, c.address_map.mem a = 0xea) :
    ∃ l c', Instructions .release c l c' ∧ run .release c n = .ok (.ready c') ∧ l.length = n / 2 := by
  refine steady (P := fun c => ∀ a, c.address_map.mem a = 0xea) (by decide) ?_ n c h
  intro c hc
  refine ⟨⟨1, 2, []⟩, { c with pc := c.pc + 1 }, ?_, rfl, hc⟩
  have hf : fetch .release c = .ok .NopImplied := by
    unfold fetch
    simp only [Addressable.read, hc, Res.ok_bind, addU16, Build.release]
    rfl
  unfold next
  rw [hf]
  rfl

/-- The lower bound is reached for every `n`, in both builds: cleared memory, from `pc` = 0. Every
instruction is a BRK through the vector 0. -/
theorem C77_slowest (b : Build) (n : Nat) (c : Mos6502 FlatRam) (hpc : c.pc = 0)
    (h : ∀ a, c.address_map.mem a = 0) :
    ∃ l c', Instructions b c l c' ∧ run b c n = .ok (.ready c') ∧ l.length = n / 7 := by
  refine steady (P := fun c => c.pc = 0 ∧
    ∀ a : Word, (a.toNat < 256 ∨ 512 ≤ a.toNat) → c.address_map.mem a = 0) (by decide) ?_ n c
      ⟨hpc, fun a _ => h a⟩
  intro c ⟨hpc, hc⟩
  have hv : BusView b c.address_map c.address_map.mem := fun _ => rfl
  have hat : At b c .BrkImplied := by
    unfold At
    rw [fetch_eq hv, hpc, if_neg (fun h => absurd h.2 (by decide)), hc _ (by decide), hc _ (by decide), hc _ (by decide)]
    rfl
  have hs := step_ok hat hv trivial
  have hw := fun bus : FlatRam => writeAll_coherent (flatRam_coherent b)
    (codeEffect (regs c) c.address_map.mem .Brk .implied).writes (mem := c.address_map.mem)
    (bus := c.address_map) (bus' := bus) rfl
  cases hx : writeAll b c.address_map (codeEffect (regs c) c.address_map.mem .Brk .implied).writes with
  | error e => cases hx
  | ok bus =>
    have hs' := hs.trans (congrArg _ hx)
    refine ⟨_, _, hs', rfl, ?_, ?_⟩
    · show u16FromLeBytes (c.address_map.mem 0xfffe) (c.address_map.mem 0xffff) = 0
      rw [hc _ (by decide), hc _ (by decide)]; rfl
    · intro a ha
      have hb : bus.mem = _ := hw bus hx
      show bus.mem a = 0
      rw [hb]
      have hne : ∀ k, a ≠ stack k := by
        rintro k rfl
        unfold stack at ha
        rw [toNat_word] at ha
        omega
      simp only [codeEffect, List.foldl, upd, if_neg (hne _)]
      exact hc a ha

/-- Machines that meet the hypotheses of the two: 64K of NOP, and 64K of zeros. -/
example : (∃ c : Mos6502 FlatRam, ∀ a, c.address_map.mem a = 0xea) ∧
    ∃ c : Mos6502 FlatRam, c.pc = 0 ∧ ∀ a, c.address_map.mem a = 0 :=
  ⟨⟨withRegs sampleRegs ⟨fun _ => 0xea⟩, fun _ => rfl⟩,
    ⟨withRegs { sampleRegs with pc := 0 } ⟨fun _ => 0⟩, rfl, fun _ => rfl⟩⟩

/-- Between the bounds: 5 cycles of NOP, NOP, JMP are 2 instructions. -/
example : ∃ s, run .debug runProgram 5 = .ok s ∧ s.unwrap.pc = 0x80ff := ⟨_, rfl, by decide +kernel⟩

end Verif.Props
