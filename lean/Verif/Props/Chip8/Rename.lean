import Verif.Proofs.Chip8Rename
import Verif.Props.Chip8.Link

/-!
# C116: the registers of a CHIP-8 program can be renamed

A program with its registers renamed, started with the registers renamed, does what the original does: same
program counter, stack, timers, display and data; the registers are renamed.
-/

namespace Verif.Props.Chip8

open Verif Verif.Chip8 Verif.Spec.Chip8
open Verif.Mos (FlatRam flatRam_coherent writeAll_coherent writeAll_accepted)
open Verif.Spec.Mos (Mem BusView writeAll Coherent upd)

section
variable {B B' R R' : Type} [Addressable B] [Addressable B'] {b : Build} {I : B → Mem → Prop}
  {I' : B' → Mem → Prop} {W : Word → Prop} {P : Word → Prop} {π : GpRegisters → GpRegisters}
  {c c' : Chip8 B R} {d : Chip8 B' R'} {mem mem' : Mem} {op : Opcode} {e : Env} {env : Nat → Env}
  {l : List (Env × Opcode)}

/-- What is fetched does not run over the end of memory, or the build does not check. -/
theorem at_fetchOk (hv : BusView b c.address_space mem) (hat : At b c op) : FetchOk b c.pc := by
  cases hb : b.overflowChecks
  · exact .inl hb
  · right
    have := c.pc.isLt
    rcases Nat.lt_or_ge c.pc.toNat 65535 with h | h
    · exact h
    exfalso
    have ha : addU16 b c.pc 1 = .error .overflow := if_pos ⟨hb, by show c.pc.toNat + 1 ≥ 65536; omega⟩
    unfold At fetch at hat
    simp only [hv _, ha, Res.ok_bind] at hat
    cases hat

omit [Addressable B] in
/-- What an instruction writes are the bytes of `memSpan`. -/
theorem writes_memSpan {w : Word × Byte} (hw : w ∈ writes c op) :
    ∃ n j, memSpan op = some n ∧ j ≤ n ∧ w.1 = iPlus c j := by
  have := List.mem_map_of_mem (f := Prod.fst) hw
  rw [mem_writes] at this
  cases op <;> simp only [sets, List.mem_cons, List.not_mem_nil, or_false, reduceCtorEq] at this
  case LdK x => split at this <;> simp at this
  case LdBcd x =>
    obtain ⟨j, hj, he⟩ := List.mem_map.1 this
    exact ⟨2, j, rfl, by have := List.mem_range.1 hj; omega, (Part.mem.inj he).symm⟩
  case StoreRegistersToMemory x =>
    obtain ⟨j, hj, he⟩ := List.mem_map.1 this
    exact ⟨num x, j, rfl, by have := List.mem_range.1 hj; omega, (Part.mem.inj he).symm⟩
  case ReadRegistersFromMemory x =>
    obtain ⟨r, he, -⟩ := upTo_v this
    cases he

/-- C116: one instruction. -/
theorem C116_step (hπ : Renaming π) (hI : Coherent b I) (hI' : Coherent b I')
    (hacc : Spec.Mos.AcceptsAt b I' W) (hm : I c.address_space mem) (hm' : I' d.address_space mem')
    (hw : WellFormed c) (hw' : WellFormed d) (h : Renamed π c d) (hl : RenamedMem π P mem mem')
    (hat : At b c op) (hmv : Renamable π P c op)
    (hW : ∀ n j, memSpan op = some n → j ≤ n → W (iPlus c j)) (hs : StepsTo b e c c') :
    ∃ d' m m', At b d (rename π op) ∧ StepsTo b e d d' ∧ I c'.address_space m ∧
      I' d'.address_space m' ∧ WellFormed c' ∧ WellFormed d' ∧ RenamedMem π P m m' ∧
      Renamed π c' d' := by
  have hv := (hI _ _ hm).1
  have hv' := (hI' _ _ hm').1
  obtain ⟨hva, hword⟩ := at_word hv hat
  have hat' : At b d (rename π op) := by
    refine (fetch_iff hv' (by rw [h.pc]; exact at_fetchOk hv hat) _).2 ?_
    rw [h.pc]
    exact ⟨valid_rename hva, hl.code _ hmv.own op hva hword⟩
  obtain ⟨hr, bus, hb, hc⟩ := step_inv hat hv hw hs
  have hr' := runs_rename hπ h hmv hr
  have hwr := writes_rename h hmv
  have hlk := renamed_after (e := e) hπ h hl.data hmv hr
  have hlm := renamedMem_write hmv hl
  obtain ⟨bus', hb'⟩ := writeAll_accepted hI' hacc (writes c op) hm' fun w hw => by
    obtain ⟨n, j, h1, h2, h3⟩ := writes_memSpan hw
    rw [h3]
    exact hW n j h1 h2
  have hst := step_ok (e := e) hat' hr' (fun _ => hv') (fun _ => hw')
  unfold StepWrites at hst
  rw [hwr, hb'] at hst
  have hst : StepsTo b e d { after e mem' d (rename π op) with address_space := bus' } := hst
  have hcm : I c'.address_space ((writes c op).foldl (fun m w => upd m w.1 w.2) mem) := by
    rw [hc]
    exact writeAll_coherent hI _ hm hb
  refine ⟨_, _, _, hat', hst, hcm, writeAll_coherent hI' _ hm' hb', wellFormed_step hat hv hw hs,
    wellFormed_step hat' hv' hw' hst, hlm, ?_⟩
  rw [hc]
  exact ⟨hlk.pc, hlk.v, hlk.i, hlk.sp, hlk.stack, hlk.delay, hlk.sound, hlk.display, hlk.key⟩

/-- C116: any execution of the program, in the same worlds. -/
theorem C116_renames (hπ : Renaming π) (hI : Coherent b I) (hI' : Coherent b I')
    (hacc : Spec.Mos.AcceptsAt b I' W) (hm : I c.address_space mem) (hm' : I' d.address_space mem')
    (hw : WellFormed c) (hw' : WellFormed d) (h : Renamed π c d) (hl : RenamedMem π P mem mem')
    (hx : Renames b π P c l c')
    (hW : ∀ i c1 op, Does b c (l.take i) c1 → At b c1 op → ∀ n j, memSpan op = some n → j ≤ n →
      W (iPlus c1 j)) :
    ∃ d' m m', Does b d (l.map fun x => (x.1, rename π x.2)) d' ∧ I c'.address_space m ∧
      I' d'.address_space m' ∧ RenamedMem π P m m' ∧ Renamed π c' d' := by
  induction hx generalizing d mem mem' with
  | nil c => exact ⟨d, mem, mem', .nil d, hm, hm', hl, h⟩
  | @cons c c1 c2 e op l hat hs hmv _ ih =>
    obtain ⟨d1, m, m', q1, q2, q3, q4, q5, q6, q7, q8⟩ :=
      C116_step hπ hI hI' hacc hm hm' hw hw' h hl hat hmv (hW 0 c op (.nil c) hat) hs
    obtain ⟨d2, m2, m2', r1, r2⟩ := ih q3 q4 q5 q6 q8 q7 fun i c3 o hd =>
      hW (i + 1) c3 o (.cons hat hs hd)
    exact ⟨d2, m2, m2', .cons q1 q2 r1, r2⟩

/-- C116: `run` for any number of cycles and however the clock moves. -/
theorem C116_run {n : Nat} (hπ : Renaming π) (hI : Coherent b I) (hI' : Coherent b I')
    (hacc : Spec.Mos.AcceptsAt b I' W) (hm : I c.address_space mem) (hm' : I' d.address_space mem')
    (hw : WellFormed c) (hw' : WellFormed d) (h : Renamed π c d) (hl : RenamedMem π P mem mem')
    (hr : run b env c n = .ok (.ready c'))
    (hin : ∀ i c1 op, i < n → run b env c i = .ok (.ready c1) → At b c1 op →
      Renamable π P c1 op ∧ ∀ n j, memSpan op = some n → j ≤ n → W (iPlus c1 j)) :
    ∃ d' m m', run b env d n = .ok (.ready d') ∧ I c'.address_space m ∧ I' d'.address_space m' ∧
      RenamedMem π P m m' ∧ Renamed π c' d' := by
  have key := run_related (b := b) (env := env) (c := c) (d := d) (n := n) (c' := c')
    (Rel := fun _ c d => ∃ m m', I c.address_space m ∧ I' d.address_space m' ∧ WellFormed c ∧
      WellFormed d ∧ RenamedMem π P m m' ∧ Renamed π c d)
    (fun _ _ _ ⟨_, _, _, _, _, _, _, h⟩ => h.delay) ?_ ⟨mem, mem', hm, hm', hw, hw', hl, h⟩ hr
  · obtain ⟨d', h1, m, m', h2, h3, -, -, h4, h5⟩ := key
    exact ⟨d', m, m', h1, h2, h3, h4, h5⟩
  · rintro i c1 it it' d1 e hi hc1 hsame ⟨m, m', g1, g2, g3, g4, g5, g6⟩ hs
    cases hfe : fetch b it with
    | error p =>
      exfalso
      unfold StepsTo at hs
      rw [run_one] at hs
      unfold next at hs
      rw [hfe] at hs
      cases hs
    | ok op =>
      have : Renamable π P it op ∧ ∀ n j, memSpan op = some n → j ≤ n → W (iPlus it j) := by
        obtain ⟨t, u, rfl⟩ := hsame
        obtain ⟨⟨a1, a2, a3, a4⟩, a6⟩ := hin i _ op hi hc1 hfe
        exact ⟨⟨a1, a2, a3, a4⟩, a6⟩
      obtain ⟨q1, q3⟩ := this
      obtain ⟨d', m1, m1', r1, r2, r3, r4, r5, r6, r7, r8⟩ :=
        C116_step hπ hI hI' hacc g1 g2 g3 g4 g6 g5 hfe q1 q3 hs
      exact ⟨d', r2, m1, m1', r3, r4, r5, r6, r7, r8⟩
end

/-! ### A concrete case -/

/-- V1 and V2 exchanged. -/
def swap12 : GpRegisters → GpRegisters
  | .V1 => .V2
  | .V2 => .V1
  | r => r

theorem swap12_renaming : Renaming swap12 :=
  ⟨fun r s => by cases r <;> cases s <;> first | exact fun _ => rfl | (intro h; cases h), rfl⟩

/-- `LD V1, 5; OR V2, V1; LD B, V2` at 0x200. -/
def twoRegs : Chip8 FlatRam Unit :=
  { sample with address_space := ⟨fun a =>
      if a = 0x200 then 0x61 else if a = 0x201 then 0x05 else if a = 0x202 then 0x82 else
      if a = 0x203 then 0x11 else if a = 0x204 then 0xf2 else if a = 0x205 then 0x33 else 0⟩ }

/-- The same with V1 and V2 exchanged. -/
def twoRegs' : Chip8 FlatRam Bool :=
  { stack := sample.stack
    address_space := ⟨fun a =>
      if a = 0x200 then 0x62 else if a = 0x201 then 0x05 else if a = 0x202 then 0x81 else
      if a = 0x203 then 0x21 else if a = 0x204 then 0xf1 else if a = 0x205 then 0x33 else 0⟩
    dt := sample.dt, st := sample.st, pc := 0x200, sp := sample.sp, i := sample.i
    gp_registers := (sample.gp_registers.setIfInBounds 1 (V sample .V2)).setIfInBounds 2 (V sample .V1)
    display := sample.display, interrupt := none, rng := false }

/-- Its instructions. -/
def twoRegsAt (a : Word) : Prop := a = 0x200 ∨ a = 0x202 ∨ a = 0x204

theorem twoRegs_renamed : Renamed swap12 twoRegs twoRegs' :=
  ⟨rfl, fun r => by cases r <;> decide +kernel, rfl, rfl, rfl, rfl, rfl, rfl, rfl⟩

theorem twoRegs_mem :
    RenamedMem swap12 twoRegsAt twoRegs.address_space.mem twoRegs'.address_space.mem := by
  refine ⟨fun p hp op hv hw => ?_, fun a h1 => ?_⟩
  · rcases hp with rfl | rfl | rfl
    · have : op = .LdImmediate .V1 5 := C40_unambiguous _ _ hv trivial (hw.symm.trans (by decide))
      subst this
      decide
    · have : op = .Or .V2 .V1 := C40_unambiguous _ _ hv trivial (hw.symm.trans (by decide))
      subst this
      decide
    · have : op = .LdBcd .V2 := C40_unambiguous _ _ hv trivial (hw.symm.trans (by decide))
      subst this
      decide
  · have n1 : ∀ x : Word, twoRegsAt x → a ≠ x ∧ a ≠ x + 1 := fun x hx =>
      ⟨fun h => h1 (.inl (h ▸ hx)), fun h => h1 (.inr (by rw [h, BitVec.add_sub_cancel]; exact hx))⟩
    have a1 := n1 0x200 (.inl rfl)
    have a2 := n1 0x202 (.inr (.inl rfl))
    have a3 := n1 0x204 (.inr (.inr rfl))
    simp only [twoRegs, twoRegs']
    exact ((if_neg a1.1).trans <| (if_neg a1.2).trans <| (if_neg a2.1).trans <| (if_neg a2.2).trans <|
      (if_neg a3.1).trans (if_neg a3.2)).trans ((if_neg a1.1).trans <| (if_neg a1.2).trans <|
      (if_neg a2.1).trans <| (if_neg a2.2).trans <| (if_neg a3.1).trans (if_neg a3.2)).symm

/-- `twoRegs` after one instruction. -/
def twoRegs1 : Chip8 FlatRam Unit := after1 .debug ⟨0, 0, 0, 0⟩ twoRegs

/-- `twoRegs` after two instructions. -/
def twoRegs2 : Chip8 FlatRam Unit := after1 .debug ⟨0, 0, 0, 0⟩ twoRegs1

theorem twoRegs_renames : Renames .debug swap12 twoRegsAt twoRegs
    [(⟨0, 0, 0, 0⟩, .LdImmediate .V1 5), (⟨0, 0, 0, 0⟩, .Or .V2 .V1), (⟨0, 0, 0, 0⟩, .LdBcd .V2)]
    (after1 .debug ⟨0, 0, 0, 0⟩ twoRegs2) := by
  have h0 : At .debug twoRegs (.LdImmediate .V1 5) :=
    (C40_fetch (view _ _) (by decide +kernel) _).2 ⟨trivial, by decide +kernel⟩
  have h1 : At .debug twoRegs1 (.Or .V2 .V1) :=
    (C40_fetch (view _ _) (by decide +kernel) _).2 ⟨trivial, by decide +kernel⟩
  have h2 : At .debug twoRegs2 (.LdBcd .V2) :=
    (C40_fetch (view _ _) (by decide +kernel) _).2 ⟨trivial, by decide +kernel⟩
  refine .cons (c' := twoRegs1) h0 (steps_after1 (by decide +kernel)) ⟨.inl rfl, nofun, nofun, nofun⟩
    (.cons (c' := twoRegs2) h1 (steps_after1 (by decide +kernel))
      ⟨.inr (.inl (by decide +kernel)), nofun, nofun, nofun⟩
      (.cons h2 (steps_after1 (by decide +kernel))
        ⟨.inr (.inr (by decide +kernel)), fun n j h hj => ?_, nofun, nofun⟩ (.nil _)))
  cases h
  match j, hj with
  | 0, _ | 1, _ | 2, _ =>
    rintro ((h | h | h) | (h | h | h)) <;> exact absurd h (by decide +kernel)

/-- The renamed program does the same with V1 and V2 exchanged. -/
example : ∃ l d', Does .debug twoRegs' l d' ∧ l.length = 3 ∧ V d' .V2 = 5 ∧
    V d' .V1 = V sample .V2 ||| 5 := by
  obtain ⟨d', m, m', h1, h2, h3, h4, h5⟩ := C116_renames (d := twoRegs') swap12_renaming
    (flatRam_coherent _) (flatRam_coherent _) (flat_accepts _) rfl rfl ⟨rfl, rfl⟩ ⟨rfl, rfl⟩
    twoRegs_renamed twoRegs_mem twoRegs_renames fun _ _ _ _ _ _ _ _ _ => trivial
  exact ⟨_, d', h1, rfl, (h5.v .V1).trans (by decide +kernel), (h5.v .V2).trans (by decide +kernel)⟩

/-- A run of the first instruction, in any world. -/
example (env : Nat → Env) (c' : Chip8 FlatRam Unit) (hr : run .debug env twoRegs 1 = .ok (.ready c')) :
    ∃ d', run .debug env twoRegs' 1 = .ok (.ready d') ∧ V d' .V2 = V c' .V1 := by
  have h0 : At .debug twoRegs (.LdImmediate .V1 5) :=
    (C40_fetch (view _ _) (by decide +kernel) _).2 ⟨trivial, by decide +kernel⟩
  obtain ⟨d', m, m', h1, h2, h3, h4, h5⟩ := C116_run (b := .debug) (c := twoRegs) (d := twoRegs')
    (π := swap12) (P := twoRegsAt) (n := 1) (env := env) swap12_renaming
    (flatRam_coherent _) (flatRam_coherent _) (flat_accepts _) rfl rfl ⟨rfl, rfl⟩ ⟨rfl, rfl⟩
    twoRegs_renamed twoRegs_mem hr fun i c1 op hi q1 q2 => by
      obtain rfl : i = 0 := by omega
      cases run_ok_iff.1 q1
      cases (show fetch .debug twoRegs = .ok op from q2).symm.trans h0
      exact ⟨⟨.inl rfl, nofun, nofun, nofun⟩, nofun⟩
  exact ⟨d', h1, h5.v .V1⟩

end Verif.Props.Chip8
