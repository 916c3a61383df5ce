import Verif.Proofs.StructuredMap
import Verif.Props.Chip8.Structured
import Verif.Props.Mos.Structured

/-!
# C128: the two emulators agree with each other

One structured program, compiled for both machines: on the CHIP-8 its variables are registers, on the 6502 bytes of
the zero page.
-/

namespace Verif.Props

open Verif Verif.Spec.Structured
open Verif.Spec.Mos (Mem BusView Coherent AcceptsAt word Kept regs)

variable {B B' R : Type} [Addressable B] [Addressable B'] {b b' : Build} {c : Chip8.Chip8 B R}
  {d : Mos.Mos6502 B'} {I : B' → Mem → Prop} {mem mem' : Mem} {p q : Nat} {prog : Cmd (Fin 15)}
  {f : Fin 15 → Byte}

/-- C128: the CHIP-8 gets to the end of its code exactly if the 6502 gets to the end of its. -/
theorem C128_ends (hf : ∀ x y, f x = f y → x = y) (hv : BusView b c.address_space mem)
    (hc : Chip8.CodeAt mem p (Chip8.chip8Target.compile p prog))
    (hp : p + Chip8.chip8Target.size prog < 4096) (hpc : c.pc = BitVec.ofNat 16 p)
    (hI : Coherent b' I) (hacc : AcceptsAt b' I fun a => a.toNat < 256) (hm : I d.address_map mem')
    (hd : Mos.ProgramAt mem' q ((Mos.mosTarget 5).compile q (prog.map f)))
    (hq : q + (Mos.mosTarget 5).size (prog.map f) ≤ 65532) (hdp : d.pc = word q)
    (hsame : ∀ x, Chip8.vars c x = Mos.zeroPage mem' (f x)) (env : Nat → Chip8.Env) :
    (∃ n c', Chip8.run b env c n = .ok (.ready c') ∧ c'.pc.toNat = p + Chip8.chip8Target.size prog) ↔
      ∃ cycles d', Mos.run b' d cycles = .ok (.ready d') ∧
        d'.pc = word (q + (Mos.mosTarget 5).size (prog.map f)) := by
  rw [Chip8.C91_ends_iff hv hc hp hpc env, C92_ends_iff_partial hI hacc hm hdp hd hq]
  have e : (fun y => Mos.zeroPage mem' (f y)) = Chip8.vars c := funext fun x => (hsame x).symm
  constructor
  · rintro ⟨n, s, h⟩
    obtain ⟨n', σ, h', -⟩ := exec_map hf h _ e
    exact ⟨n', σ, h'⟩
  · rintro ⟨n, σ, h⟩
    obtain ⟨n', h'⟩ := exec_unmap (k := Chip8.chip8Costs) hf h prog rfl
    rw [e] at h'
    exact ⟨n', _, h'⟩

/-- C128: and when they do, they find the same values in the variables. -/
theorem C128_result (hf : ∀ x y, f x = f y → x = y) (hv : BusView b c.address_space mem)
    (hc : Chip8.CodeAt mem p (Chip8.chip8Target.compile p prog))
    (hp : p + Chip8.chip8Target.size prog < 4096) (hpc : c.pc = BitVec.ofNat 16 p)
    (hI : Coherent b' I) (hacc : AcceptsAt b' I fun a => a.toNat < 256) (hm : I d.address_map mem')
    (hd : Mos.ProgramAt mem' q ((Mos.mosTarget 5).compile q (prog.map f)))
    (hq : q + (Mos.mosTarget 5).size (prog.map f) ≤ 65532) (hdp : d.pc = word q)
    (hsame : ∀ x, Chip8.vars c x = Mos.zeroPage mem' (f x)) (env : Nat → Chip8.Env)
    (hends : ∃ n c', Chip8.run b env c n = .ok (.ready c') ∧
      c'.pc.toNat = p + Chip8.chip8Target.size prog) :
    ∃ n c' cycles d' m', Chip8.run b env c n = .ok (.ready c') ∧ Mos.run b' d cycles = .ok (.ready d') ∧
      c'.pc.toNat = p + Chip8.chip8Target.size prog ∧
      d'.pc = word (q + (Mos.mosTarget 5).size (prog.map f)) ∧ I d'.address_map m' ∧
      (∀ x, Chip8.vars c' x = Mos.zeroPage m' (f x)) ∧
      (∀ z, (∀ x, f x ≠ z) → Mos.zeroPage m' z = Mos.zeroPage mem' z) ∧
      ∀ a, 256 ≤ a.toNat → m' a = mem' a := by
  obtain ⟨n, s, h⟩ := (Chip8.C91_ends_iff hv hc hp hpc env).1 hends
  have e : (fun y => Mos.zeroPage mem' (f y)) = Chip8.vars c := funext fun x => (hsame x).symm
  obtain ⟨n', σ, h', hσ, ho⟩ := exec_map (k' := Mos.mosCosts) hf h _ e
  obtain ⟨l, d', -, -, h3, h4, -, m', h5, h6, h7⟩ := C92_result_partial hI hacc hm hdp hd hq h'
  refine ⟨n, _, _, d', m', Chip8.C91_result hv hc hp hpc h env, h3, ?_, h4, h5, fun x => ?_, fun z hz => ?_, h7⟩
  · show (BitVec.ofNat 16 _).toNat = _
    rw [BitVec.toNat_ofNat]
    omega
  · rw [h6, ← show (fun y => σ (f y)) x = σ (f x) from rfl, hσ]
    show (Vector.ofFn s)[x] = s x
    simp
  · rw [h6]
    exact ho z hz

/-- C128 applied: the multiplication proved for the CHIP-8, carried over to the 6502. -/
theorem C128_multiply (hf : ∀ x y, f x = f y → x = y)
    (hI : Coherent b' I) (hacc : AcceptsAt b' I fun a => a.toNat < 256) (hm : I d.address_map mem')
    (hd : Mos.ProgramAt mem' q ((Mos.mosTarget 5).compile q (Chip8.multiply.map f)))
    (hq : q + (Mos.mosTarget 5).size (Chip8.multiply.map f) ≤ 65532) (hdp : d.pc = word q) :
    ∃ cycles d' m', Mos.run b' d cycles = .ok (.ready d') ∧
      d'.pc = word (q + (Mos.mosTarget 5).size (Chip8.multiply.map f)) ∧ I d'.address_map m' ∧
      Mos.zeroPage m' (f 2) =
        BitVec.ofNat 8 ((Mos.zeroPage mem' (f 0)).toNat * (Mos.zeroPage mem' (f 1)).toNat) ∧
      Mos.zeroPage m' (f 1) = Mos.zeroPage mem' (f 1) := by
  obtain ⟨v3, h⟩ := Chip8.outer_exec (Mos.zeroPage mem' (f 0)).toNat
    (put (fun x => Mos.zeroPage mem' (f x)) 2 0) rfl
  have h0 := Exec.act (k := Chip8.chip8Costs) (a := .set 2 0) (s := fun x => Mos.zeroPage mem' (f x))
  obtain ⟨n, σ, h', hσ, -⟩ := exec_map (k' := Mos.mosCosts) hf (.seq h0 h) (Mos.zeroPage mem') rfl
  obtain ⟨l, d', -, -, h3, h4, -, m', h5, h6, -⟩ :=
    C92_result_partial (prog := Chip8.multiply.map f) hI hacc hm hdp hd hq h'
  refine ⟨_, d', m', h3, h4, h5, ?_, ?_⟩
  · rw [h6, ← show (fun y => σ (f y)) 2 = σ (f 2) from rfl, hσ]
    show BitVec.ofNat 8 (0 + _) = _
    rw [Nat.zero_add]
    rfl
  · rw [h6, ← show (fun y => σ (f y)) 1 = σ (f 1) from rfl, hσ]
    rfl

/-- The registers at 0x10, 0x11, … -/
def at10 (x : Fin 15) : Byte := BitVec.ofNat 8 (0x10 + x)

theorem at10_inj : ∀ x y, at10 x = at10 y → x = y := by decide

/-- The machine of the sample of C91, and a 6502 with its registers at 0x10 and the code at 0x300. -/
def onChip8 : Chip8.Chip8 Mos.FlatRam Unit := Chip8.codeSample (Chip8.chip8Target.compile 0x200 Chip8.multiply)

def onMos : Mos.Mos6502 Mos.FlatRam :=
  Spec.Mos.withRegs { Mos.sampleRegs with pc := word 0x300 } ⟨fun a =>
    if a.toNat < 0x300 then
      (if a = 0x10 then 12 else if a = 0x11 then 21 else if h : 0x10 ≤ a.toNat ∧ a.toNat < 0x1f then
        Chip8.vars onChip8 ⟨a.toNat - 0x10, by omega⟩ else 0)
    else ((Mos.mosTarget 5).compile 0x300 (Chip8.multiply.map at10)).getD (a.toNat - 0x300) 0⟩

theorem onMos_code : Mos.ProgramAt onMos.address_map.mem 0x300
    ((Mos.mosTarget 5).compile 0x300 (Chip8.multiply.map at10)) := by
  refine ⟨by decide, fun i hi => ?_⟩
  have hlen : ((Mos.mosTarget 5).compile 0x300 (Chip8.multiply.map at10)).length = 53 := by decide +kernel
  have e : (word (0x300 + i)).toNat = 0x300 + i := Mos.toNat_word_lt _ (by omega)
  show (if (word (0x300 + i)).toNat < 0x300 then _ else List.getD _ ((word (0x300 + i)).toNat - 0x300) 0) = _
  rw [if_neg (by omega), e, Nat.add_sub_cancel_left, List.getD_eq_getElem?_getD, List.getElem?_eq_getElem hi]
  rfl

theorem both_start : ∀ x, Chip8.vars onChip8 x = Mos.zeroPage onMos.address_map.mem (at10 x) := by decide +kernel

theorem onChip8_ends : ∃ n c', Chip8.run .debug (fun _ => ⟨7, 1, 2, 3⟩) onChip8 n = .ok (.ready c') ∧
    c'.pc.toNat = 0x200 + Chip8.chip8Target.size Chip8.multiply := by
  obtain ⟨v, h⟩ := Chip8.C91_multiply (b := .debug) (c := onChip8) (Chip8.view _ _) Chip8.multiplySample_code
    (by decide) (by decide +kernel) fun _ => ⟨7, 1, 2, 3⟩
  exact ⟨_, _, h, rfl⟩

/-- Both machines multiply, and find the same. -/
example : ∃ n c cycles d, Chip8.run .debug (fun _ => ⟨7, 1, 2, 3⟩) onChip8 n = .ok (.ready c) ∧
    Mos.run .release onMos cycles = .ok (.ready d) ∧ c.pc = 0x216 ∧ d.pc = 0x335 ∧
    Chip8.vars c 2 = d.address_map.mem 0x12 := by
  obtain ⟨n, c, cycles, d, m, h1, h2, h3, h4, rfl, h5, -⟩ := C128_result (p := 0x200) (q := 0x300)
    (prog := Chip8.multiply) (c := onChip8) (d := onMos) at10_inj (Chip8.view _ _) Chip8.multiplySample_code
    (by decide) (by decide +kernel) (Mos.flatRam_coherent .release) (flatRam_acceptsAt _ _) rfl onMos_code
    (by decide) rfl both_start _ onChip8_ends
  exact ⟨n, c, cycles, d, h1, h2, BitVec.eq_of_toNat_eq h3, by rw [h4]; decide, h5 2⟩

/-- On the 6502 too 12 · 21 = 252. -/
example : ∃ cycles d, Mos.run .release onMos cycles = .ok (.ready d) ∧ d.address_map.mem 0x12 = 252 := by
  obtain ⟨cycles, d, m, h1, -, rfl, h2, -⟩ := C128_multiply (d := onMos) (q := 0x300) at10_inj
    (Mos.flatRam_coherent .release) (flatRam_acceptsAt _ _) rfl onMos_code (by decide) rfl
  refine ⟨cycles, d, h1, h2.trans (by decide +kernel)⟩

/-- And where the CHIP-8 never ends, the 6502 does not: `while x = x do y := y + 1`. -/
example (d : Mos.Mos6502 Mos.FlatRam) (hd : Mos.ProgramAt d.address_map.mem 0x300
    ((Mos.mosTarget 5).compile 0x300 (Chip8.forever.map at10))) (hpc : d.pc = word 0x300) (cycles : Nat)
    (e : Mos.Mos6502 Mos.FlatRam) (he : Mos.run .debug d cycles = .ok (.ready e)) : e.pc ≠ 0x313 := by
  intro h
  obtain ⟨n, σ, hx⟩ := (C92_ends_iff_partial (Mos.flatRam_coherent .debug) (flatRam_acceptsAt _ _) rfl hpc hd
    (by decide)).1 ⟨cycles, e, he, by rw [h]; decide⟩
  obtain ⟨n', hx⟩ := exec_unmap (k := Chip8.chip8Costs) at10_inj hx Chip8.forever rfl
  exact Chip8.forever_endless _ ⟨_, _, hx⟩

end Verif.Props
