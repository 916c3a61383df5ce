import Verif.Props.ArraysAgree
import Verif.Proofs.Chart
import Verif.Proofs.CopyText

/-!
# C145: programs with gotos run as drawn on both machines; C146: a text is copied on both machines
-/

namespace Verif.Props

open Verif Verif.Spec.Flow Verif.Flow
open Verif.Spec.Structured (Act Guard)
open Verif.Spec.Mos (Mem Coherent AcceptsAt word regs Instructions totalCycles)

section
variable {ι κ : Type} [DecidableEq ι] [DecidableEq κ] {B R : Type} [Addressable B] {b : Build} {I : B → Mem → Prop}
  {mem : Mem} {p : Nat} {base : κ → Nat} {ch : Chart (Action ι κ) (Guard ι)}

section chip8
variable {c : Chip8.Chip8 B R} {reg : ι → Fin 15}

/-- C145 on the CHIP-8: whenever a chart gets to a block (or to its end) by `n` instructions, `run(n)` gets
to the beginning of the code of that block, with the state of the chart in registers and arrays; nothing
else has changed but I. -/
theorem C145_chip8_follows (hI : Coherent b I) (hacc : AcceptsAt b I fun a => InArray base a.toNat)
    (hP : Placed base 0 4096) (hr : ∀ x y, reg x = reg y → x = y) (h0 : ∀ x, reg x ≠ 0)
    (hm : I c.address_space mem) (hpc : c.pc = BitVec.ofNat 16 p)
    (hcode : Chip8.CodeIn base mem p ((Chip8.chip8Arrays reg base).assemble p ch))
    (hp : p + (Chip8.chip8Arrays reg base).chartSize ch < 4096) {n l : Nat} {s : State ι κ}
    (h : Follows (arrays ι κ) (Chip8.chip8ArrayCosts ι κ) ch 0 (Chip8.stateOf reg base c mem) n l s)
    (env : Nat → Chip8.Env) :
    ∃ σ i bus mem', Chip8.run b env c n = .ok (.ready (Chip8.withVars (Chip8.over c i bus) σ
        ((Chip8.chip8Arrays reg base).entry p ch l))) ∧
      I bus mem' ∧ Chip8.HoldsVars reg (Chip8.vars c) s σ ∧ Chip8.HoldsArrays base mem s mem' := by
  obtain ⟨t, ht, σ, i, bus, mem', rfl, h1, h2, h3⟩ := chart_path (Chip8.chip8Arrays_works hI hacc hP hr h0) hcode
    (by omega) h (Chip8.arraysAt_self hm hpc)
  refine ⟨σ, i, bus, mem', ?_, h1, h2, h3⟩
  have := Chip8.flow_run ht env 0 0
  unfold Chip8.run
  rw [Nat.add_zero] at this
  rw [this]
  rfl

/-- C145 on the CHIP-8: a chart that does not end runs for ever without a panic, inside its code; memory
outside the arrays is unchanged. -/
theorem C145_chip8_endless (hI : Coherent b I) (hacc : AcceptsAt b I fun a => InArray base a.toNat)
    (hP : Placed base 0 4096) (hr : ∀ x y, reg x = reg y → x = y) (h0 : ∀ x, reg x ≠ 0)
    (hm : I c.address_space mem) (hpc : c.pc = BitVec.ofNat 16 p)
    (hcode : Chip8.CodeIn base mem p ((Chip8.chip8Arrays reg base).assemble p ch))
    (hp : p + (Chip8.chip8Arrays reg base).chartSize ch < 4096)
    (h : ¬ ChartEnds (arrays ι κ) (Chip8.chip8ArrayCosts ι κ) ch (Chip8.stateOf reg base c mem))
    (env : Nat → Chip8.Env) (n : Nat) :
    ∃ σ i bus mem' q, Chip8.run b env c n = .ok (.ready (Chip8.withVars (Chip8.over c i bus) σ q)) ∧ p ≤ q ∧
      q < p + (Chip8.chip8Arrays reg base).chartSize ch ∧ I bus mem' ∧
      ∀ a : Word, ¬ InArray base a.toNat → mem' a = mem a := by
  obtain ⟨t, q, ht, ⟨σ, i, bus, mem', rfl, h1, h2⟩, h3, h4⟩ :=
    chart_endless (Chip8.chip8Arrays_works hI hacc hP hr h0) hcode (by omega) h (Chip8.arraysAt_self hm hpc) n
  refine ⟨σ, i, bus, mem', q, ?_, h3, h4, h1, h2⟩
  have := Chip8.flow_run ht env 0 0
  unfold Chip8.run
  rw [Nat.add_zero] at this
  rw [this]
  rfl

/-- C145 on the CHIP-8: the emulator gets behind the code exactly if the chart ends. -/
theorem C145_chip8_ends_iff (hI : Coherent b I) (hacc : AcceptsAt b I fun a => InArray base a.toNat)
    (hP : Placed base 0 4096) (hr : ∀ x y, reg x = reg y → x = y) (h0 : ∀ x, reg x ≠ 0)
    (hm : I c.address_space mem) (hpc : c.pc = BitVec.ofNat 16 p)
    (hcode : Chip8.CodeIn base mem p ((Chip8.chip8Arrays reg base).assemble p ch))
    (hp : p + (Chip8.chip8Arrays reg base).chartSize ch < 4096) (env : Nat → Chip8.Env) :
    (∃ n d, Chip8.run b env c n = .ok (.ready d) ∧ d.pc.toNat = p + (Chip8.chip8Arrays reg base).chartSize ch) ↔
      ChartEnds (arrays ι κ) (Chip8.chip8ArrayCosts ι κ) ch (Chip8.stateOf reg base c mem) := by
  constructor
  · rintro ⟨n, d, hd, hq⟩
    refine Classical.byContradiction fun hno => ?_
    obtain ⟨σ, i, bus, mem', q, hr, h1, h2, -⟩ := C145_chip8_endless hI hacc hP hr h0 hm hpc hcode hp hno env n
    rw [hd] at hr
    injection hr with hr
    injection hr with hr
    subst hr
    change (BitVec.ofNat 16 q).toNat = _ at hq
    rw [BitVec.toNat_ofNat, Nat.mod_eq_of_lt (by omega)] at hq
    omega
  · rintro ⟨n, l, s, h, hl⟩
    obtain ⟨σ, i, bus, mem', h1, -⟩ := C145_chip8_follows hI hacc hP hr h0 hm hpc hcode hp h env
    refine ⟨n, _, h1, ?_⟩
    show (BitVec.ofNat 16 _).toNat = _
    rw [entry_out hl, BitVec.toNat_ofNat, Nat.mod_eq_of_lt (by omega)]

end chip8

section mos
variable {c : Mos.Mos6502 B} {loc : ι → Byte}

/-- C145 on the 6502: whenever a chart gets to a block (or to its end) by `n` instructions, the emulator gets
to the beginning of the code of that block by `n` instructions, with the state of the chart in variables and
arrays; the other memory, Y, the stack pointer and the other flags are unchanged. -/
theorem C145_mos_follows (hI : Coherent b I) (hacc : AcceptsAt b I (Mos.Written base)) (hP : Placed base 256 65536)
    (hl : ∀ x y, loc x = loc y → x = y) (hm : I c.address_map mem) (hpc : c.pc = word p)
    (hcode : Mos.ProgramIn base mem p ((Mos.mosArrays loc base).assemble p ch))
    (hp : p + (Mos.mosArrays loc base).chartSize ch ≤ 65532) {n l : Nat} {s : State ι κ}
    (h : Follows (arrays ι κ) (Mos.mosArrayCosts ι κ) ch 0 (Mos.stateOf loc base mem) n l s) :
    ∃ ops d, Instructions b c ops d ∧ ops.length = n ∧ Mos.run b c (totalCycles ops) = .ok (.ready d) ∧
      d.pc = word ((Mos.mosArrays loc base).entry p ch l) ∧ Mos.KeptButX (regs c) (regs d) ∧
      ∃ mem', I d.address_map mem' ∧ Mos.Holds loc base mem s mem' := by
  obtain ⟨d, hd, h1, h2, h3⟩ := chart_path (Mos.mosArrays_works hI hacc hP hl) hcode hp h (Mos.arraysAt_self hm hpc)
  obtain ⟨ops, hl, hn⟩ := Mos.flow_instructions hd
  exact ⟨ops, d, hl, hn, C12_run_eq hl (Nat.le_refl _) (.inl rfl), h1, h2, h3⟩

/-- C145 on the 6502: a chart that does not end runs for ever without a panic, inside its code; memory
outside the zero page and the arrays, Y, the stack pointer and the other flags are unchanged. -/
theorem C145_mos_endless (hI : Coherent b I) (hacc : AcceptsAt b I (Mos.Written base)) (hP : Placed base 256 65536)
    (hl : ∀ x y, loc x = loc y → x = y) (hm : I c.address_map mem) (hpc : c.pc = word p)
    (hcode : Mos.ProgramIn base mem p ((Mos.mosArrays loc base).assemble p ch))
    (hp : p + (Mos.mosArrays loc base).chartSize ch ≤ 65532)
    (h : ¬ ChartEnds (arrays ι κ) (Mos.mosArrayCosts ι κ) ch (Mos.stateOf loc base mem)) (cycles : Nat) :
    ∃ d q, Mos.run b c cycles = .ok (.ready d) ∧ d.pc = word q ∧ p ≤ q ∧
      q < p + (Mos.mosArrays loc base).chartSize ch ∧ Mos.KeptButX (regs c) (regs d) ∧ ∃ mem', I d.address_map mem' ∧
        ∀ a : Word, 256 ≤ a.toNat → ¬ InArray base a.toNat → mem' a = mem a := by
  have key := chart_endless (Mos.mosArrays_works hI hacc hP hl) hcode hp h (Mos.arraysAt_self hm hpc)
  cases hr : Mos.run b c cycles with
  | error e =>
    obtain ⟨l, d, h1, -, h3⟩ := C12_panic.1 hr
    obtain ⟨t, q, ht, -⟩ := key (l.length + 1)
    obtain ⟨l', hl', hlen⟩ := Mos.flow_instructions ht
    obtain ⟨ops, f, hf⟩ := Mos.instructions_go_on h1 hl' hlen
    rw [hf] at h3
    cases h3
  | ok s =>
    obtain ⟨l, d, h1, -, rfl, -⟩ := C12_run_ok hr
    obtain ⟨t, q, ht, hat, hq⟩ := key l.length
    obtain ⟨l', hl', hlen⟩ := Mos.flow_instructions ht
    obtain ⟨-, rfl⟩ := Mos.instructions_same h1 hl' hlen.symm
    exact ⟨d, q, rfl, hat.pc, hq.1, hq.2, hat.kept, hat.memory⟩

/-- C145 on the 6502: the emulator gets behind the code exactly if the chart ends. -/
theorem C145_mos_ends_iff (hI : Coherent b I) (hacc : AcceptsAt b I (Mos.Written base)) (hP : Placed base 256 65536)
    (hl : ∀ x y, loc x = loc y → x = y) (hm : I c.address_map mem) (hpc : c.pc = word p)
    (hcode : Mos.ProgramIn base mem p ((Mos.mosArrays loc base).assemble p ch))
    (hp : p + (Mos.mosArrays loc base).chartSize ch ≤ 65532) :
    (∃ cycles d, Mos.run b c cycles = .ok (.ready d) ∧ d.pc = word (p + (Mos.mosArrays loc base).chartSize ch)) ↔
      ChartEnds (arrays ι κ) (Mos.mosArrayCosts ι κ) ch (Mos.stateOf loc base mem) := by
  constructor
  · rintro ⟨n, d, hd, hq⟩
    refine Classical.byContradiction fun hno => ?_
    obtain ⟨d', q, hr, h1, h2, h3, -⟩ := C145_mos_endless hI hacc hP hl hm hpc hcode hp hno n
    rw [hd] at hr
    injection hr with hr
    injection hr with hr
    subst hr
    rw [hq] at h1
    have := congrArg BitVec.toNat h1
    rw [Mos.toNat_word_lt _ (by omega), Mos.toNat_word_lt _ (by omega)] at this
    omega
  · rintro ⟨n, l, s, h, hend⟩
    obtain ⟨ops, d, -, -, h3, h4, -⟩ := C145_mos_follows hI hacc hP hl hm hpc hcode hp h
    rw [entry_out hend] at h4
    exact ⟨_, d, h3, h4⟩

end mos

/-- C145: started with the same variables and arrays, the CHIP-8 gets behind its code exactly if the 6502
gets behind its own; and then both have the variables and arrays of the chart's end. -/
theorem C145_agree {B' : Type} [Addressable B'] {b' : Build} {I' : B' → Mem → Prop} {mem' : Mem} {q : Nat}
    {base' : κ → Nat} {c : Chip8.Chip8 B R} {d : Mos.Mos6502 B'} {reg : ι → Fin 15} {loc : ι → Byte}
    (hI : Coherent b I) (hacc : AcceptsAt b I fun a => InArray base a.toNat) (hP : Placed base 0 4096)
    (hr : ∀ x y, reg x = reg y → x = y) (h0 : ∀ x, reg x ≠ 0) (hm : I c.address_space mem)
    (hpc : c.pc = BitVec.ofNat 16 p) (hcode : Chip8.CodeIn base mem p ((Chip8.chip8Arrays reg base).assemble p ch))
    (hp : p + (Chip8.chip8Arrays reg base).chartSize ch < 4096)
    (hI' : Coherent b' I') (hacc' : AcceptsAt b' I' (Mos.Written base')) (hP' : Placed base' 256 65536)
    (hl : ∀ x y, loc x = loc y → x = y) (hm' : I' d.address_map mem') (hpc' : d.pc = word q)
    (hcode' : Mos.ProgramIn base' mem' q ((Mos.mosArrays loc base').assemble q ch))
    (hp' : q + (Mos.mosArrays loc base').chartSize ch ≤ 65532)
    (hsame : Chip8.stateOf reg base c mem = Mos.stateOf loc base' mem') (env : Nat → Chip8.Env) :
    ((∃ n c', Chip8.run b env c n = .ok (.ready c') ∧
        c'.pc.toNat = p + (Chip8.chip8Arrays reg base).chartSize ch) ↔
      ∃ cycles d', Mos.run b' d cycles = .ok (.ready d') ∧
        d'.pc = word (q + (Mos.mosArrays loc base').chartSize ch)) ∧
    ((∃ n c', Chip8.run b env c n = .ok (.ready c') ∧
        c'.pc.toNat = p + (Chip8.chip8Arrays reg base).chartSize ch) →
      ∃ n c' m cycles d' m' l s, Follows (arrays ι κ) (Chip8.chip8ArrayCosts ι κ) ch 0
          (Chip8.stateOf reg base c mem) n l s ∧ ch.length ≤ l ∧
        Chip8.run b env c n = .ok (.ready c') ∧ Mos.run b' d cycles = .ok (.ready d') ∧
        c'.pc.toNat = p + (Chip8.chip8Arrays reg base).chartSize ch ∧
        d'.pc = word (q + (Mos.mosArrays loc base').chartSize ch) ∧ I c'.address_space m ∧ I' d'.address_map m' ∧
        (∀ x, Chip8.vars c' (reg x) = State.var s x ∧ m' (Mos.zp (loc x)) = s.var x) ∧
        ∀ t (j : Byte), m (word (base t + j.toNat)) = s.arr t j ∧ m' (word (base' t + j.toNat)) = s.arr t j) := by
  have e1 := C145_chip8_ends_iff hI hacc hP hr h0 hm hpc hcode hp env
  have e2 := C145_mos_ends_iff hI' hacc' hP' hl hm' hpc' hcode' hp'
  refine ⟨?_, fun h => ?_⟩
  · rw [e1, e2, hsame]
    constructor <;> rintro ⟨n, l, s, h, he⟩ <;> obtain ⟨n', h'⟩ := follows_costs h <;> exact ⟨n', l, s, h', he⟩
  · obtain ⟨n, l, s, h, he⟩ := e1.1 h
    obtain ⟨σ, i, bus, m, f1, f2, f3, f4⟩ := C145_chip8_follows hI hacc hP hr h0 hm hpc hcode hp h env
    obtain ⟨n', h'⟩ := follows_costs (k' := Mos.mosArrayCosts ι κ) h
    rw [hsame] at h'
    obtain ⟨ops, d', -, -, g1, g2, -, m', g3, g4⟩ := C145_mos_follows hI' hacc' hP' hl hm' hpc' hcode' hp' h'
    rw [entry_out he] at f1 g2
    refine ⟨n, _, m, _, d', m', l, s, h, he, f1, g1, ?_, g2, f2, g3, fun x => ⟨?_, g4.var x⟩,
      fun t j => ⟨f4.arr t j, g4.arr t j⟩⟩
    · show (BitVec.ofNat 16 _).toNat = _
      rw [BitVec.toNat_ofNat, Nat.mod_eq_of_lt (by omega)]
    · rw [← f3.var x]
      show (Vector.ofFn σ)[reg x] = σ (reg x)
      simp

/-- C145: a chart that ends has one result and one number of instructions. -/
theorem C145_unique {K : Costs (Action ι κ) (Guard ι)} {s s₁ s₂ : State ι κ} {n₁ n₂ l₁ l₂ : Nat}
    (h₁ : Follows (arrays ι κ) K ch 0 s n₁ l₁ s₁) (h₂ : Follows (arrays ι κ) K ch 0 s n₂ l₂ s₂)
    (e₁ : ch.length ≤ l₁) (e₂ : ch.length ≤ l₂) : n₁ = n₂ ∧ l₁ = l₂ ∧ s₁ = s₂ :=
  follows_unique h₁ h₂ e₁ e₂

end

/-! ### Copying a text -/

section
open Verif.Spec.CopyText Verif.CopyText
variable {B R : Type} [Addressable B] {b : Build} {I : B → Mem → Prop} {mem : Mem} {p : Nat} {base : Arr → Nat}

/-- C146 on the CHIP-8: the assembled chart gets behind its code and has then copied the text up to the first
zero; the source, the rest of the destination and all memory but the two arrays are unchanged. With the zero
at `z` this takes 13z + 12 instructions, without a zero 3330. -/
theorem C146_chip8 {c : Chip8.Chip8 B R} {reg : Var → Fin 15}
    (hI : Coherent b I) (hacc : AcceptsAt b I fun a => InArray base a.toNat) (hP : Placed base 0 4096)
    (hr : ∀ x y, reg x = reg y → x = y) (h0 : ∀ x, reg x ≠ 0) (hm : I c.address_space mem)
    (hpc : c.pc = BitVec.ofNat 16 p)
    (hcode : Chip8.CodeIn base mem p ((Chip8.chip8Arrays reg base).assemble p copyText))
    (hp : p + (Chip8.chip8Arrays reg base).chartSize copyText < 4096) (env : Nat → Chip8.Env) :
    ∃ n c' m, Chip8.run b env c n = .ok (.ready c') ∧
      c'.pc.toNat = p + (Chip8.chip8Arrays reg base).chartSize copyText ∧ I c'.address_space m ∧
      Copied (fun j => mem (word (base .src + j.toNat))) (fun j => mem (word (base .dst + j.toNat)))
        (fun j => m (word (base .dst + j.toNat))) ∧
      (∀ j : Byte, m (word (base .src + j.toNat)) = mem (word (base .src + j.toNat))) ∧
      (∀ a : Word, ¬ InArray base a.toNat → m a = mem a) ∧
      (∀ z, EndsAt (fun j => mem (word (base .src + j.toNat))) z → n = 13 * z.toNat + 12) ∧
      ((∀ j : Byte, mem (word (base .src + j.toNat)) ≠ 0) → n = 3330) := by
  obtain ⟨n, s, h, hs, hc, hz, hno⟩ := copies (K := Chip8.chip8ArrayCosts Var Arr) (Chip8.stateOf reg base c mem)
  obtain ⟨σ, i, bus, m, e1, e2, e3, e4⟩ := C145_chip8_follows hI hacc hP hr h0 hm hpc hcode hp h env
  rw [entry_out (by decide)] at e1
  refine ⟨n, _, m, e1, ?_, e2, ?_, fun j => ?_, e4.other, fun z h => ?_, fun h => hno h⟩
  · show (BitVec.ofNat 16 _).toNat = _
    rw [BitVec.toNat_ofNat]
    omega
  · rw [show (fun j : Byte => m (word (base .dst + j.toNat))) = s.arr .dst from funext (e4.arr .dst)]
    exact hc
  · exact (e4.arr .src j).trans (congrFun hs j)
  · have := hz z h
    change n = 2 + (z.toNat * 13 + 10) at this
    omega

/-- C146 on the 6502: with the zero at `z` this takes 18z + 13 instructions, without a zero 4611. -/
theorem C146_mos {c : Mos.Mos6502 B} {loc : Var → Byte}
    (hI : Coherent b I) (hacc : AcceptsAt b I (Mos.Written base)) (hP : Placed base 256 65536)
    (hl : ∀ x y, loc x = loc y → x = y) (hm : I c.address_map mem) (hpc : c.pc = word p)
    (hcode : Mos.ProgramIn base mem p ((Mos.mosArrays loc base).assemble p copyText))
    (hp : p + (Mos.mosArrays loc base).chartSize copyText ≤ 65532) :
    ∃ ops c' m, Instructions b c ops c' ∧ Mos.run b c (totalCycles ops) = .ok (.ready c') ∧
      c'.pc = word (p + (Mos.mosArrays loc base).chartSize copyText) ∧ I c'.address_map m ∧
      Copied (fun j => mem (word (base .src + j.toNat))) (fun j => mem (word (base .dst + j.toNat)))
        (fun j => m (word (base .dst + j.toNat))) ∧
      (∀ j : Byte, m (word (base .src + j.toNat)) = mem (word (base .src + j.toNat))) ∧
      (∀ a : Word, (∀ x, a ≠ Mos.zp (loc x)) → ¬ InArray base a.toNat → m a = mem a) ∧
      (∀ z, EndsAt (fun j => mem (word (base .src + j.toNat))) z → ops.length = 18 * z.toNat + 13) ∧
      ((∀ j : Byte, mem (word (base .src + j.toNat)) ≠ 0) → ops.length = 4611) := by
  obtain ⟨n, s, h, hs, hc, hz, hno⟩ := copies (K := Mos.mosArrayCosts Var Arr) (Mos.stateOf loc base mem)
  obtain ⟨ops, d, f0, fn, f1, f2, -, m, f3, f4⟩ := C145_mos_follows hI hacc hP hl hm hpc hcode hp h
  rw [entry_out (by decide)] at f2
  subst fn
  refine ⟨ops, d, m, f0, f1, f2, f3, ?_, fun j => ?_, f4.other, fun z h => ?_, fun h => hno h⟩
  · rw [show (fun j : Byte => m (word (base .dst + j.toNat))) = s.arr .dst from funext (f4.arr .dst)]
    exact hc
  · exact (f4.arr .src j).trans (congrFun hs j)
  · have := hz z h
    change ops.length = 3 + (z.toNat * 18 + 10) at this
    omega

end

/-! ### Concrete cases -/

section
open Verif.Spec.CopyText Verif.CopyText
open Verif.Mos (FlatRam)

/-- Where the cases have the variables and arrays. -/
def copyLoc : Var → Byte
  | .i => 0x10 | .v => 0x11

def copyReg : Var → Fin 15
  | .i => 1 | .v => 2

def copyMosBase : Arr → Nat
  | .src => 0x200 | .dst => 0x300

def copyChip8Base : Arr → Nat
  | .src => 0x800 | .dst => 0x900

theorem copyMosBase_placed : Placed copyMosBase 256 65536 := ⟨by rintro ⟨⟩ <;> decide, by rintro ⟨⟩ <;> decide,
  by rintro ⟨⟩ ⟨⟩ h <;> first | exact absurd rfl h | decide⟩

theorem copyChip8Base_placed : Placed copyChip8Base 0 4096 := ⟨by rintro ⟨⟩ <;> decide, by rintro ⟨⟩ <;> decide,
  by rintro ⟨⟩ ⟨⟩ h <;> first | exact absurd rfl h | decide⟩

theorem copyLoc_inj (x y : Var) (h : copyLoc x = copyLoc y) : x = y := by revert h; cases x <;> cases y <;> decide

theorem copyReg_inj (x y : Var) (h : copyReg x = copyReg y) : x = y := by revert h; cases x <;> cases y <;> decide

/-- Three characters, a zero, and something behind it. -/
def text : List Byte := [72, 105, 33, 0, 99]

/-- The 6502 with the chart, the text, 9 in the variables, and 7 in the rest of the arrays. -/
def copyMos : Mos.Mos6502 FlatRam :=
  mosAt400 (fun a => if a.toNat < 0x200 then 9 else text.getD (a.toNat - 0x200) 7)
    ((Mos.mosArrays copyLoc copyMosBase).assemble 0x400 copyText)

/-- The CHIP-8 with the chart and the same bytes. -/
def copyChip8 : Chip8.Chip8 FlatRam Unit :=
  chip8At200 (fun _ => 9) (fun a => text.getD (a.toNat - 0x800) 7)
    ((Chip8.chip8Arrays copyReg copyChip8Base).assemble 0x200 copyText)

theorem copyMos_code : Mos.ProgramIn copyMosBase copyMos.address_map.mem 0x400
    ((Mos.mosArrays copyLoc copyMosBase).assemble 0x400 copyText) :=
  mosAt400_code (by decide +kernel) (by rintro ⟨⟩ <;> decide)

theorem copyChip8_code : Chip8.CodeIn copyChip8Base copyChip8.address_space.mem 0x200
    ((Chip8.chip8Arrays copyReg copyChip8Base).assemble 0x200 copyText) :=
  chip8At200_code (by decide +kernel) (by decide +kernel) (by rintro ⟨⟩ <;> decide)

/-- The 6502 copies the three characters and the zero, and not the byte behind, with 67 instructions. -/
example : ∃ ops d, Instructions .debug copyMos ops d ∧ ops.length = 67 ∧
    Mos.run .debug copyMos (totalCycles ops) = .ok (.ready d) ∧
    d.address_map.mem 0x300 = 72 ∧ d.address_map.mem 0x303 = 0 ∧ d.address_map.mem 0x304 = 7 := by
  obtain ⟨ops, d, m, h0, h1, -, rfl, h2, -, -, h3, -⟩ := C146_mos (b := .debug) (c := copyMos) (Mos.flatRam_coherent _)
    (flatRam_acceptsAt _ _) copyMosBase_placed copyLoc_inj rfl rfl copyMos_code (by decide +kernel)
  exact ⟨ops, d, h0, h3 3 ⟨by decide +kernel, by decide +kernel⟩, h1,
    (h2.text 0 (by decide +kernel)).trans (by decide +kernel),
    (h2.text 3 (by decide +kernel)).trans (by decide +kernel),
    (h2.rest 3 4 (by decide) (by decide +kernel)).trans (by decide +kernel)⟩

/-- So does the CHIP-8, with 51. -/
example (env : Nat → Chip8.Env) : ∃ c, Chip8.run .release env copyChip8 51 = .ok (.ready c) ∧
    c.address_space.mem 0x900 = 72 ∧ c.address_space.mem 0x903 = 0 ∧ c.address_space.mem 0x904 = 7 := by
  obtain ⟨n, c, m, h1, -, rfl, h2, -, -, h3, -⟩ := C146_chip8 (b := .release) (c := copyChip8) (Mos.flatRam_coherent _)
    (flatRam_acceptsAt _ _) copyChip8Base_placed copyReg_inj (by rintro ⟨⟩ <;> decide) rfl rfl copyChip8_code
    (by decide +kernel) env
  rw [h3 3 ⟨by decide +kernel, by decide +kernel⟩] at h1
  exact ⟨c, h1, (h2.text 0 (by decide +kernel)).trans (by decide +kernel),
    (h2.text 3 (by decide +kernel)).trans (by decide +kernel),
    (h2.rest 3 4 (by decide) (by decide +kernel)).trans (by decide +kernel)⟩

/-- Two blocks that go to one another: `i := i + 1; goto 1` and `dst[i] := v; if i = v goto 0 else goto 0`. -/
def pingPong : Chart (Action Var Arr) (Guard Var) :=
  [⟨[.base (.add .i 1)], .goto 1⟩, ⟨[.write .dst .i .v], .branch (.eq .i .v) 0 0⟩]

theorem pingPong_endless {K : Costs (Action Var Arr) (Guard Var)} (s : State Var Arr) :
    ¬ ChartEnds (arrays Var Arr) K pingPong s := by
  have : ∀ {l₀ l : Nat} {s₀ s' : State Var Arr} {n : Nat}, Follows (arrays Var Arr) K pingPong l₀ s₀ n l s' →
      l₀ < 2 → l < 2 := by
    intro l₀ l s₀ s' n h
    induction h with
    | here => exact id
    | @block l₁ s₁ b l₂ n l₃ s₃ hb hg _ ih =>
      intro hlt
      refine ih ?_
      match l₁, hlt with
      | 0, _ => cases hb; cases hg; decide
      | 1, _ => cases hb; cases hg <;> decide
  rintro ⟨n, l, s', h, hl⟩
  exact absurd (this h (by decide)) (Nat.not_lt.2 hl)

/-- The 6502 runs it for ever without leaving the code or touching the stack page. -/
example (cycles : Nat) : ∃ d q, Mos.run .release
      (mosAt400 (fun _ => 3) ((Mos.mosArrays copyLoc copyMosBase).assemble 0x400 pingPong)) cycles = .ok (.ready d) ∧
    d.pc = word q ∧ 0x400 ≤ q ∧ q < 0x41d ∧ d.address_map.mem 0x1ff = 3 := by
  obtain ⟨d, q, h1, h2, h3, h4, -, m, rfl, h5⟩ := C145_mos_endless (b := .release) (ch := pingPong)
    (c := mosAt400 (fun _ => 3) ((Mos.mosArrays copyLoc copyMosBase).assemble 0x400 pingPong)) (Mos.flatRam_coherent _)
    (flatRam_acceptsAt _ _) copyMosBase_placed copyLoc_inj rfl rfl
    (mosAt400_code (by decide +kernel) (by rintro ⟨⟩ <;> decide)) (by decide +kernel) (pingPong_endless _) cycles
  refine ⟨d, q, h1, h2, h3, h4, h5 0x1ff (by decide) ?_⟩
  rintro ⟨⟨⟩, h⟩ <;> revert h <;> decide

/-- And the CHIP-8. -/
example (env : Nat → Chip8.Env) (n : Nat) : ∃ c, Chip8.run .debug env
      (chip8At200 (fun _ => 3) (fun _ => 3) ((Chip8.chip8Arrays copyReg copyChip8Base).assemble 0x200 pingPong)) n =
        .ok (.ready c) ∧ 0x200 ≤ c.pc.toNat ∧ c.pc.toNat < 0x212 ∧ c.address_space.mem 0xa00 = 3 := by
  obtain ⟨σ, i, bus, m, q, h1, h2, h3, rfl, h5⟩ := C145_chip8_endless (b := .debug) (ch := pingPong)
    (c := chip8At200 (fun _ => 3) (fun _ => 3) ((Chip8.chip8Arrays copyReg copyChip8Base).assemble 0x200 pingPong))
    (Mos.flatRam_coherent _) (flatRam_acceptsAt _ _) copyChip8Base_placed copyReg_inj (by rintro ⟨⟩ <;> decide) rfl rfl
    (chip8At200_code (by decide +kernel) (by decide +kernel) (by rintro ⟨⟩ <;> decide)) (by decide +kernel)
    (pingPong_endless _) env n
  change q < 0x200 + 18 at h3
  have e : (BitVec.ofNat 16 q).toNat = q := by rw [BitVec.toNat_ofNat]; omega
  refine ⟨_, h1, ?_, ?_, h5 0xa00 ?_⟩
  · show 0x200 ≤ (BitVec.ofNat 16 q).toNat
    rw [e]
    exact h2
  · show (BitVec.ofNat 16 q).toNat < 0x212
    rw [e]
    exact h3
  · rintro ⟨⟨⟩, h⟩ <;> revert h <;> decide

/-- The two machines with the text, and their common end. -/
example (env : Nat → Chip8.Env) : ∃ n c cycles d, Chip8.run .debug env copyChip8 n = .ok (.ready c) ∧
    Mos.run .debug copyMos cycles = .ok (.ready d) ∧
    ∀ j : Byte, c.address_space.mem (word (0x900 + j.toNat)) = d.address_map.mem (word (0x300 + j.toNat)) := by
  have hsame : Chip8.stateOf copyReg copyChip8Base copyChip8 copyChip8.address_space.mem =
      Mos.stateOf copyLoc copyMosBase copyMos.address_map.mem := by
    show State.mk _ _ = State.mk _ _
    congr 1
    · funext x
      cases x <;> decide +kernel
    · funext t
      cases t <;> (funext j; revert j; decide +kernel)
  obtain ⟨n', c', m', e1, e2, -⟩ := C146_chip8 (b := .debug) (c := copyChip8)
    (Mos.flatRam_coherent _) (flatRam_acceptsAt _ _) copyChip8Base_placed copyReg_inj (by rintro ⟨⟩ <;> decide) rfl rfl
    copyChip8_code (by decide +kernel) env
  obtain ⟨-, h⟩ := C145_agree (b := .debug) (b' := .debug)
    (Mos.flatRam_coherent _) (flatRam_acceptsAt _ _) copyChip8Base_placed copyReg_inj (by rintro ⟨⟩ <;> decide) rfl rfl
    copyChip8_code (by decide +kernel)
    (Mos.flatRam_coherent _) (flatRam_acceptsAt _ _) copyMosBase_placed copyLoc_inj (d := copyMos) rfl rfl copyMos_code
    (by decide +kernel) hsame env
  obtain ⟨n, c, m, cycles, d, m', l, s, -, -, h1, h2, -, -, rfl, rfl, -, h3⟩ := h ⟨n', c', e1, e2⟩
  exact ⟨n, c, cycles, d, h1, h2, fun j => (h3 .dst j).1.trans (h3 .dst j).2.symm⟩

end

end Verif.Props
