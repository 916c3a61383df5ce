import Verif.Props.Automata
import Verif.Proofs.Turing

/-!
# C150: every Turing machine on a ring of 256 cells runs on both machines
-/

namespace Verif.Props

open Verif Verif.Spec.Flow Verif.Flow
open Verif.Spec.Turing Verif.Turing
open Verif.Spec.CopyText (Var)
open Verif.Spec.Mos (Mem Coherent AcceptsAt word regs Instructions totalCycles)

section
variable {B R : Type} [Addressable B] {b : Build} {I : B → Mem → Prop} {mem : Mem} {p : Nat} {base : Unit → Nat}
  {tm : Machine}

/-- The machine at its start: the state 0, the given head, and the array as the tape. -/
def startOf (head : Byte) (base : Unit → Nat) (mem : Mem) : Config := ⟨0, head, fun j => mem (word (base () + j.toNat))⟩

/-- C150 on the CHIP-8, step by step: whatever configuration the Turing machine gets to, the emulator gets to
it, at the code of its state, with at least one instruction for each step; memory outside the tape is
unchanged. -/
theorem C150_chip8_steps {c : Chip8.Chip8 B R} {reg : Var → Fin 15}
    (hI : Coherent b I) (hacc : AcceptsAt b I fun a => InArray base a.toNat) (hP : Placed base 0 4096)
    (hr : ∀ x y, reg x = reg y → x = y) (h0 : ∀ x, reg x ≠ 0) (hm : I c.address_space mem)
    (hpc : c.pc = BitVec.ofNat 16 p) (hcode : Chip8.CodeIn base mem p ((Chip8.chip8Arrays reg base).assemble p tm.chart))
    (hp : p + (Chip8.chip8Arrays reg base).chartSize tm.chart < 4096) {k : Nat} {t : Config}
    (h : tm.Steps k (startOf (Chip8.vars c (reg .i)) base mem) t) (env : Nat → Chip8.Env) :
    ∃ n c' m, k ≤ n ∧ Chip8.run b env c n = .ok (.ready c') ∧
      c'.pc.toNat = (Chip8.chip8Arrays reg base).entry p tm.chart (rowAt tm t.state) ∧
      Chip8.vars c' (reg .i) = t.head ∧ I c'.address_space m ∧
      (∀ j : Byte, m (word (base () + j.toNat)) = t.tape j) ∧
      ∀ x : Word, ¬ InArray base x.toNat → m x = mem x := by
  obtain ⟨n, s, hn, f, hs⟩ := follow_steps (K := Chip8.chip8ArrayCosts Var Unit) h
    (s := Chip8.stateOf reg base c mem) ⟨rfl, rfl⟩
  obtain ⟨σ, i, bus, m, e1, e2, e3, e4⟩ := C145_chip8_follows hI hacc hP hr h0 hm hpc hcode hp f env
  have := (entry_le (T := Chip8.chip8Arrays reg base) (ch := tm.chart) p (rowAt tm t.state)).2
  refine ⟨n, _, m, hn, e1, ?_, ?_, e2, fun j => (e4.arr () j).trans (congrFun hs.2 j), e4.other⟩
  · show (BitVec.ofNat 16 _).toNat = _
    rw [BitVec.toNat_ofNat, Nat.mod_eq_of_lt (by omega)]
  · rw [← hs.1, ← e3.var .i]
    show (Vector.ofFn σ)[reg .i] = σ (reg .i)
    simp

/-- C150 on the CHIP-8: a Turing machine that halts is run to its end, behind the code, and tape and head are
those it halts with. -/
theorem C150_chip8 {c : Chip8.Chip8 B R} {reg : Var → Fin 15}
    (hI : Coherent b I) (hacc : AcceptsAt b I fun a => InArray base a.toNat) (hP : Placed base 0 4096)
    (hr : ∀ x y, reg x = reg y → x = y) (h0 : ∀ x, reg x ≠ 0) (hm : I c.address_space mem)
    (hpc : c.pc = BitVec.ofNat 16 p) (hcode : Chip8.CodeIn base mem p ((Chip8.chip8Arrays reg base).assemble p tm.chart))
    (hp : p + (Chip8.chip8Arrays reg base).chartSize tm.chart < 4096) {k : Nat} {t : Config}
    (h : tm.Steps k (startOf (Chip8.vars c (reg .i)) base mem) t) (hh : tm.step t = none) (env : Nat → Chip8.Env) :
    ∃ n c' m, Chip8.run b env c n = .ok (.ready c') ∧
      c'.pc.toNat = p + (Chip8.chip8Arrays reg base).chartSize tm.chart ∧
      Chip8.vars c' (reg .i) = t.head ∧ I c'.address_space m ∧
      (∀ j : Byte, m (word (base () + j.toNat)) = t.tape j) ∧
      ∀ x : Word, ¬ InArray base x.toNat → m x = mem x := by
  obtain ⟨n, s, f, hs⟩ := follow_halt (K := Chip8.chip8ArrayCosts Var Unit)
    (s := Chip8.stateOf reg base c mem) ⟨rfl, rfl⟩ rfl h hh
  obtain ⟨σ, i, bus, m, e1, e2, e3, e4⟩ := C145_chip8_follows hI hacc hP hr h0 hm hpc hcode hp f env
  rw [entry_out (Nat.le_refl _)] at e1
  refine ⟨n, _, m, e1, ?_, ?_, e2, fun j => (e4.arr () j).trans (congrFun hs.2 j), e4.other⟩
  · show (BitVec.ofNat 16 _).toNat = _
    rw [BitVec.toNat_ofNat, Nat.mod_eq_of_lt (by omega)]
  · rw [← hs.1, ← e3.var .i]
    show (Vector.ofFn σ)[reg .i] = σ (reg .i)
    simp

/-- C150 on the CHIP-8: the emulator gets behind the code exactly if the Turing machine halts. -/
theorem C150_chip8_halts_iff {c : Chip8.Chip8 B R} {reg : Var → Fin 15}
    (hI : Coherent b I) (hacc : AcceptsAt b I fun a => InArray base a.toNat) (hP : Placed base 0 4096)
    (hr : ∀ x y, reg x = reg y → x = y) (h0 : ∀ x, reg x ≠ 0) (hm : I c.address_space mem)
    (hpc : c.pc = BitVec.ofNat 16 p) (hcode : Chip8.CodeIn base mem p ((Chip8.chip8Arrays reg base).assemble p tm.chart))
    (hp : p + (Chip8.chip8Arrays reg base).chartSize tm.chart < 4096) (env : Nat → Chip8.Env) :
    (∃ n d, Chip8.run b env c n = .ok (.ready d) ∧
        d.pc.toNat = p + (Chip8.chip8Arrays reg base).chartSize tm.chart) ↔
      tm.Halts (startOf (Chip8.vars c (reg .i)) base mem) :=
  (C145_chip8_ends_iff hI hacc hP hr h0 hm hpc hcode hp env).trans (ends_iff ⟨rfl, rfl⟩ rfl)

/-- C150 on the 6502, step by step. -/
theorem C150_mos_steps {c : Mos.Mos6502 B} {loc : Var → Byte}
    (hI : Coherent b I) (hacc : AcceptsAt b I (Mos.Written base)) (hP : Placed base 256 65536)
    (hl : ∀ x y, loc x = loc y → x = y) (hm : I c.address_map mem) (hpc : c.pc = word p)
    (hcode : Mos.ProgramIn base mem p ((Mos.mosArrays loc base).assemble p tm.chart))
    (hp : p + (Mos.mosArrays loc base).chartSize tm.chart ≤ 65532) {k : Nat} {t : Config}
    (h : tm.Steps k (startOf (mem (Mos.zp (loc .i))) base mem) t) :
    ∃ ops c' m, Instructions b c ops c' ∧ k ≤ ops.length ∧ Mos.run b c (totalCycles ops) = .ok (.ready c') ∧
      c'.pc = word ((Mos.mosArrays loc base).entry p tm.chart (rowAt tm t.state)) ∧ I c'.address_map m ∧
      m (Mos.zp (loc .i)) = t.head ∧ (∀ j : Byte, m (word (base () + j.toNat)) = t.tape j) ∧
      ∀ x : Word, (∀ y, x ≠ Mos.zp (loc y)) → ¬ InArray base x.toNat → m x = mem x := by
  obtain ⟨n, s, hn, f, hs⟩ := follow_steps (K := Mos.mosArrayCosts Var Unit) h (s := Mos.stateOf loc base mem) ⟨rfl, rfl⟩
  obtain ⟨ops, d, f0, rfl, f1, f2, -, m, f3, f4⟩ := C145_mos_follows hI hacc hP hl hm hpc hcode hp f
  exact ⟨ops, d, m, f0, hn, f1, f2, f3, (f4.var .i).trans hs.1, fun j => (f4.arr () j).trans (congrFun hs.2 j), f4.other⟩

/-- C150 on the 6502: a Turing machine that halts is run to its end, and tape and head are those it halts
with. -/
theorem C150_mos {c : Mos.Mos6502 B} {loc : Var → Byte}
    (hI : Coherent b I) (hacc : AcceptsAt b I (Mos.Written base)) (hP : Placed base 256 65536)
    (hl : ∀ x y, loc x = loc y → x = y) (hm : I c.address_map mem) (hpc : c.pc = word p)
    (hcode : Mos.ProgramIn base mem p ((Mos.mosArrays loc base).assemble p tm.chart))
    (hp : p + (Mos.mosArrays loc base).chartSize tm.chart ≤ 65532) {k : Nat} {t : Config}
    (h : tm.Steps k (startOf (mem (Mos.zp (loc .i))) base mem) t) (hh : tm.step t = none) :
    ∃ cycles c' m, Mos.run b c cycles = .ok (.ready c') ∧
      c'.pc = word (p + (Mos.mosArrays loc base).chartSize tm.chart) ∧ I c'.address_map m ∧
      m (Mos.zp (loc .i)) = t.head ∧ (∀ j : Byte, m (word (base () + j.toNat)) = t.tape j) ∧
      ∀ x : Word, (∀ y, x ≠ Mos.zp (loc y)) → ¬ InArray base x.toNat → m x = mem x := by
  obtain ⟨n, s, f, hs⟩ := follow_halt (K := Mos.mosArrayCosts Var Unit) (s := Mos.stateOf loc base mem) ⟨rfl, rfl⟩ rfl h hh
  obtain ⟨ops, d, -, -, f1, f2, -, m, f3, f4⟩ := C145_mos_follows hI hacc hP hl hm hpc hcode hp f
  rw [entry_out (Nat.le_refl _)] at f2
  exact ⟨_, d, m, f1, f2, f3, (f4.var .i).trans hs.1, fun j => (f4.arr () j).trans (congrFun hs.2 j), f4.other⟩

/-- C150 on the 6502: the emulator gets behind the code exactly if the Turing machine halts. -/
theorem C150_mos_halts_iff {c : Mos.Mos6502 B} {loc : Var → Byte}
    (hI : Coherent b I) (hacc : AcceptsAt b I (Mos.Written base)) (hP : Placed base 256 65536)
    (hl : ∀ x y, loc x = loc y → x = y) (hm : I c.address_map mem) (hpc : c.pc = word p)
    (hcode : Mos.ProgramIn base mem p ((Mos.mosArrays loc base).assemble p tm.chart))
    (hp : p + (Mos.mosArrays loc base).chartSize tm.chart ≤ 65532) :
    (∃ cycles d, Mos.run b c cycles = .ok (.ready d) ∧
        d.pc = word (p + (Mos.mosArrays loc base).chartSize tm.chart)) ↔
      tm.Halts (startOf (mem (Mos.zp (loc .i))) base mem) :=
  (C145_mos_ends_iff hI hacc hP hl hm hpc hcode hp).trans (ends_iff ⟨rfl, rfl⟩ rfl)

/-- The sizes of the blocks, if every state costs `st` bytes and every rule `rl`. -/
theorem turing_size {W : Type} {T : Target (Action Var Unit) (Spec.Structured.Guard Var) W} {st rl : Nat}
    (hr : ∀ l, T.blockSize ⟨[.read .v () .i], .goto l⟩ + T.jumpSize = st)
    (hc : ∀ u x l w d l', T.blockSize ⟨[], .branch (.eqK .v u) x l⟩ +
      T.blockSize ⟨[.base (.set .v w), .write () .i .v, .base (.add .i d)], .goto l'⟩ = rl)
    (hj : ∀ l, T.blockSize ⟨[], .goto l⟩ = T.jumpSize) (t : Nat → Nat) (out : Nat) (m : Machine) (k : Nat) :
    T.chartSize (rowsBlocks t out k m) = (m.map fun rs => st + rl * rs.length).sum := by
  have key : ∀ (rs : List Rule) k, T.chartSize (ruleBlocks t out k rs) = rl * rs.length + T.jumpSize := by
    intro rs
    induction rs with
    | nil =>
      intro k
      show T.blockSize ⟨[], .goto out⟩ + 0 = _
      rw [hj]
      simp
    | cons r rs ih =>
      intro k
      show T.blockSize ⟨[], .branch (.eqK .v r.seen) (k + 1) (k + 2)⟩ + (T.blockSize ⟨[.base (.set .v r.written),
        .write () .i .v, .base (.add .i r.move.shift)], .goto (t r.next)⟩ + T.chartSize (ruleBlocks t out (k + 2) rs)) = _
      rw [← Nat.add_assoc, hc, ih, List.length_cons, Nat.mul_succ]
      omega
  induction m generalizing k with
  | nil => rfl
  | cons rs m ih =>
    simp only [rowsBlocks, List.map_cons, List.sum_cons]
    rw [chartSize_append, ih]
    show T.blockSize ⟨[.read .v () .i], .goto (k + 1)⟩ + T.chartSize (ruleBlocks t out (k + 1) rs) + _ = _
    rw [key, ← hr (k + 1)]
    omega

/-- C150: the code for the CHIP-8 has 12 bytes for each state and 20 for each rule. -/
theorem C150_chip8_size (reg : Var → Fin 15) (base : Unit → Nat) (tm : Machine) :
    (Chip8.chip8Arrays reg base).chartSize tm.chart = (tm.map fun rs => 12 + 20 * rs.length).sum :=
  turing_size (T := Chip8.chip8Arrays reg base) (fun _ => rfl) (fun _ _ _ _ _ _ => rfl) (fun _ => rfl) _ _ tm 0

/-- C150: that for the 6502 has 13 bytes for each state and 33 for each rule. -/
theorem C150_mos_size (loc : Var → Byte) (base : Unit → Nat) (tm : Machine) :
    (Mos.mosArrays loc base).chartSize tm.chart = (tm.map fun rs => 13 + 33 * rs.length).sum :=
  turing_size (T := Mos.mosArrays loc base) (fun _ => rfl) (fun _ _ _ _ _ _ => rfl) (fun _ => rfl) _ _ tm 0

end

/-! ### Concrete cases -/

section
open Verif.Mos (FlatRam)

/-- Adds one to a binary number written with the characters 48 and 49; the head is at its last digit. -/
def increment : Machine := [[⟨49, 48, .left, 0⟩, ⟨48, 49, .stay, 1⟩, ⟨0, 49, .stay, 1⟩]]

/-- The digits of eleven. -/
def eleven : List Byte := [49, 48, 49, 49]

/-- The 6502 with the machine and the number, and the head at 3. -/
def incrementMos : Mos.Mos6502 FlatRam :=
  mosAt400 (fun a => if a.toNat < 0x200 then 3 else eleven.getD (a.toNat - 0x200) 0)
    ((Mos.mosArrays copyLoc fun _ => 0x200).assemble 0x400 increment.chart)

/-- The CHIP-8 with the same. -/
def incrementChip8 : Chip8.Chip8 FlatRam Unit :=
  chip8At200 (fun _ => 3) (fun a => eleven.getD (a.toNat - 0x800) 0)
    ((Chip8.chip8Arrays copyReg fun _ => 0x800).assemble 0x200 increment.chart)

/-- What the machine does with a tape that begins with the number. -/
theorem increment_steps {tape : Byte → Byte} (h3 : tape 3 = 49) (h2 : tape 2 = 49) (h1 : tape 1 = 48) :
    ∃ t, increment.Steps 3 ⟨0, 3, tape⟩ t ∧ increment.step t = none ∧ t.head = 1 ∧
      t.tape 0 = tape 0 ∧ t.tape 1 = 49 ∧ t.tape 2 = 48 ∧ t.tape 3 = 48 := by
  have one : ∀ c : Config, c.state = 0 → c.tape c.head = 49 → increment.step c = some (Rule.apply ⟨49, 48, .left, 0⟩ c) := by
    intro c hs h
    simp only [Machine.step, hs]
    show Option.map _ (List.find? (fun r : Rule => decide (r.seen = c.tape c.head)) [_, _, _]) = _
    rw [h]; rfl
  have zero : ∀ c : Config, c.state = 0 → c.tape c.head = 48 → increment.step c = some (Rule.apply ⟨48, 49, .stay, 1⟩ c) := by
    intro c hs h
    simp only [Machine.step, hs]
    show Option.map _ (List.find? (fun r : Rule => decide (r.seen = c.tape c.head)) [_, _, _]) = _
    rw [h]; rfl
  refine ⟨_, .step (one _ rfl h3) (.step (one _ rfl ?_) (.step (zero _ rfl ?_) .here)), rfl, ?_⟩
  · simpa [Rule.apply, Move.head] using h2
  · simpa [Rule.apply, Move.head] using h1
  · simp [Rule.apply, Move.head]

/-- The 6502 makes twelve of eleven. -/
example : ∃ cycles d, Mos.run .debug incrementMos cycles = .ok (.ready d) ∧ d.address_map.mem 0x200 = 49 ∧
    d.address_map.mem 0x201 = 49 ∧ d.address_map.mem 0x202 = 48 ∧ d.address_map.mem 0x203 = 48 := by
  obtain ⟨t, h, hh, -, t0, t1, t2, t3⟩ := increment_steps
    (tape := fun j => incrementMos.address_map.mem (word (0x200 + j.toNat)))
    (by decide +kernel) (by decide +kernel) (by decide +kernel)
  obtain ⟨n, d, m, h1, -, rfl, -, h2, -⟩ := C150_mos (b := .debug) (c := incrementMos) (tm := increment)
    (base := fun _ => 0x200) (loc := copyLoc) (p := 0x400) (Mos.flatRam_coherent _) (flatRam_acceptsAt _ _)
    (srcBase_placed 0x200 (by decide) (by decide)).2 copyLoc_inj rfl rfl
    (mosAt400_code (by decide +kernel) (fun _ => by decide)) (by decide +kernel) h hh
  exact ⟨n, d, h1, (h2 0).trans (t0.trans (by decide +kernel)), (h2 1).trans t1, (h2 2).trans t2, (h2 3).trans t3⟩

/-- So does the CHIP-8. -/
example (env : Nat → Chip8.Env) : ∃ n d, Chip8.run .release env incrementChip8 n = .ok (.ready d) ∧
    Chip8.vars d 1 = 1 ∧ d.address_space.mem 0x801 = 49 ∧ d.address_space.mem 0x803 = 48 := by
  obtain ⟨t, h, hh, hd, t0, t1, t2, t3⟩ := increment_steps
    (tape := fun j => incrementChip8.address_space.mem (word (0x800 + j.toNat)))
    (by decide +kernel) (by decide +kernel) (by decide +kernel)
  obtain ⟨n, d, m, h1, -, h2, rfl, h3, -⟩ := C150_chip8 (b := .release) (c := incrementChip8) (tm := increment)
    (base := fun _ => 0x800) (reg := copyReg) (p := 0x200) (Mos.flatRam_coherent _) (flatRam_acceptsAt _ _)
    (srcBase_placed 0x800 (by decide) (by decide)).1 copyReg_inj (by rintro ⟨⟩ <;> decide) rfl rfl
    (chip8At200_code (by decide +kernel) (by decide +kernel) (fun _ => by decide)) (by decide +kernel) h hh env
  exact ⟨n, d, h1, h2.trans hd, (h3 1).trans t1, (h3 3).trans t3⟩

/-- A machine that runs round the ring for ever: the 6502 never gets behind its code. -/
example : ¬ ∃ cycles d, Mos.run .release (mosAt400 (fun _ => 7)
      ((Mos.mosArrays copyLoc fun _ => 0x200).assemble 0x400 (Machine.chart [[⟨7, 7, .right, 0⟩]]))) cycles =
        .ok (.ready d) ∧ d.pc = word (0x400 + 46) := by
  rw [show 0x400 + 46 = 0x400 + (Mos.mosArrays copyLoc fun _ : Unit => 0x200).chartSize (Machine.chart [[⟨7, 7, .right, 0⟩]])
      from by rw [C150_mos_size]; rfl,
    C150_mos_halts_iff (b := .release) (base := fun _ => 0x200) (loc := copyLoc) (p := 0x400) (Mos.flatRam_coherent _)
      (flatRam_acceptsAt _ _) (srcBase_placed 0x200 (by decide) (by decide)).2 copyLoc_inj rfl rfl
      (mosAt400_code (by decide +kernel) (fun _ => by decide)) (by decide +kernel)]
  have key : ∀ {k c t}, Machine.Steps [[⟨7, 7, .right, 0⟩]] k c t → c.state = 0 → (∀ j, c.tape j = 7) →
      Machine.step [[⟨7, 7, .right, 0⟩]] t ≠ none := by
    intro k c t h
    have one : ∀ c : Config, c.state = 0 → (∀ j, c.tape j = 7) →
        Machine.step [[⟨7, 7, .right, 0⟩]] c = some (Rule.apply ⟨7, 7, .right, 0⟩ c) := by
      intro c h1 h2
      simp [Machine.step, h1, h2]
    induction h with
    | here => intro h1 h2; rw [one _ h1 h2]; simp
    | step h _ ih =>
      intro h1 h2
      rw [one _ h1 h2] at h
      cases h
      refine ih rfl fun j => ?_
      simp [Rule.apply, h2]
  rintro ⟨k, t, h1, h2⟩
  refine key h1 rfl (fun j => ?_) h2
  revert j
  decide +kernel

end

end Verif.Props
