import Verif.Props.Charts
import Verif.Proofs.Automaton

/-!
# C148: every finite automaton runs on both machines
-/

namespace Verif.Props

open Verif Verif.Spec.Flow Verif.Flow
open Verif.Spec.Automaton Verif.Automaton
open Verif.Spec.CopyText (Var)
open Verif.Spec.Mos (Mem Coherent AcceptsAt word regs Instructions totalCycles)

section
variable {B R : Type} [Addressable B] {b : Build} {I : B → Mem → Prop} {mem : Mem} {p : Nat} {base : Unit → Nat}
  {a : Spec.Automaton.Automaton} {w : List Byte}

/-- C148 on the CHIP-8: the chart of an automaton, assembled, gets behind its code, and then the register of
`v` is 1 if the automaton accepts the word in memory and 0 if not; no memory has changed. -/
theorem C148_chip8 {c : Chip8.Chip8 B R} {reg : Var → Fin 15}
    (hI : Coherent b I) (hacc : AcceptsAt b I fun a => InArray base a.toNat) (hP : Placed base 0 4096)
    (hr : ∀ x y, reg x = reg y → x = y) (h0 : ∀ x, reg x ≠ 0) (hm : I c.address_space mem)
    (hpc : c.pc = BitVec.ofNat 16 p) (hcode : Chip8.CodeIn base mem p ((Chip8.chip8Arrays reg base).assemble p a.chart))
    (hp : p + (Chip8.chip8Arrays reg base).chartSize a.chart < 4096) (hw : w.length < 256)
    (ht : TextAt (fun j => mem (word (base () + j.toNat))) 0 w) (env : Nat → Chip8.Env) :
    ∃ n c', Chip8.run b env c n = .ok (.ready c') ∧
      c'.pc.toNat = p + (Chip8.chip8Arrays reg base).chartSize a.chart ∧
      Chip8.vars c' (reg .v) = (if a.accepts 0 w then 1 else 0) ∧ I c'.address_space mem := by
  obtain ⟨n, s, h, hv, harr⟩ := decides (K := Chip8.chip8ArrayCosts Var Unit) (a := a) w
    (Chip8.stateOf reg base c mem) hw ht
  obtain ⟨σ, i, bus, m, e1, e2, e3, e4⟩ := C145_chip8_follows hI hacc hP hr h0 hm hpc hcode hp h env
  rw [entry_out (Nat.le_refl _)] at e1
  have em : m = mem := by
    funext x
    by_cases hx : InArray base x.toNat
    · obtain ⟨u, h1, h2⟩ := hx
      change base () ≤ _ at h1
      change _ < base () + 256 at h2
      have e := e4.arr () (BitVec.ofNat 8 (x.toNat - base ()))
      rw [harr] at e
      change _ = mem (word (base () + (BitVec.ofNat 8 (x.toNat - base ())).toNat)) at e
      have e' : (BitVec.ofNat 16 (base () + (BitVec.ofNat 8 (x.toNat - base ())).toNat) : Word) = x := by
        apply BitVec.eq_of_toNat_eq
        rw [BitVec.toNat_ofNat, BitVec.toNat_ofNat]
        have := x.isLt
        omega
      unfold Spec.Mos.word at e
      rw [e'] at e
      exact e
    · exact e4.other x hx
  subst em
  refine ⟨n, _, e1, ?_, ?_, e2⟩
  · show (BitVec.ofNat 16 _).toNat = _
    rw [BitVec.toNat_ofNat]
    omega
  · rw [← hv, ← e3.var .v]
    show (Vector.ofFn σ)[reg .v] = σ (reg .v)
    simp

/-- C148 on the 6502: the cell of `v` is 1 if the automaton accepts the word and 0 if not; but for the two
variables no memory has changed. -/
theorem C148_mos {c : Mos.Mos6502 B} {loc : Var → Byte}
    (hI : Coherent b I) (hacc : AcceptsAt b I (Mos.Written base)) (hP : Placed base 256 65536)
    (hl : ∀ x y, loc x = loc y → x = y) (hm : I c.address_map mem) (hpc : c.pc = word p)
    (hcode : Mos.ProgramIn base mem p ((Mos.mosArrays loc base).assemble p a.chart))
    (hp : p + (Mos.mosArrays loc base).chartSize a.chart ≤ 65532) (hw : w.length < 256)
    (ht : TextAt (fun j => mem (word (base () + j.toNat))) 0 w) :
    ∃ cycles c' m, Mos.run b c cycles = .ok (.ready c') ∧
      c'.pc = word (p + (Mos.mosArrays loc base).chartSize a.chart) ∧ I c'.address_map m ∧
      m (Mos.zp (loc .v)) = (if a.accepts 0 w then 1 else 0) ∧
      ∀ x : Word, (∀ y, x ≠ Mos.zp (loc y)) → m x = mem x := by
  obtain ⟨n, s, h, hv, harr⟩ := decides (K := Mos.mosArrayCosts Var Unit) (a := a) w (Mos.stateOf loc base mem) hw ht
  obtain ⟨ops, d, -, -, f1, f2, -, m, f3, f4⟩ := C145_mos_follows hI hacc hP hl hm hpc hcode hp h
  rw [entry_out (Nat.le_refl _)] at f2
  refine ⟨_, d, m, f1, f2, f3, (f4.var .v).trans hv, fun x hx => ?_⟩
  by_cases hin : InArray base x.toNat
  · obtain ⟨u, h1, h2⟩ := hin
    change base () ≤ _ at h1
    change _ < base () + 256 at h2
    have e := f4.arr () (BitVec.ofNat 8 (x.toNat - base ()))
    rw [harr] at e
    change _ = mem (word (base () + (BitVec.ofNat 8 (x.toNat - base ())).toNat)) at e
    have e' : word (base () + (BitVec.ofNat 8 (x.toNat - base ())).toNat) = x := by
      apply BitVec.eq_of_toNat_eq
      unfold Spec.Mos.word
      rw [BitVec.toNat_ofNat, BitVec.toNat_ofNat]
      have := x.isLt
      omega
    rw [e'] at e
    exact e
  · exact f4.other x hx hin

/-- The sizes of the blocks of the automaton, if every state costs `st` bytes and every case `cs`. -/
theorem rows_size {W : Type} {T : Target (Action Var Unit) (Spec.Structured.Guard Var) W} {st cs : Nat}
    (hr : ∀ x l, T.blockSize ⟨[.read .v () .i, .base (.add .i 1)], .branch (.eqK .v 0) x l⟩ + T.jumpSize = st)
    (hc : ∀ u x l, T.blockSize ⟨[], .branch (.eqK .v u) x l⟩ = cs)
    (hj : ∀ l, T.blockSize ⟨[], .goto l⟩ = T.jumpSize) (t : Nat → Nat) (m : Nat) (rs : List Row) :
    T.chartSize (rowsBlocks t m rs) = (rs.map fun r => st + cs * r.cases.length).sum := by
  have key : ∀ (l : List (BitVec 8 × Nat)) m other,
      T.chartSize (caseBlocks t m l other) = cs * l.length + T.jumpSize := by
    intro l
    induction l with
    | nil =>
      intro m other
      show T.blockSize ⟨[], .goto (t other)⟩ + 0 = _
      rw [hj]
      simp
    | cons x l ih =>
      obtain ⟨u, q⟩ := x
      intro m other
      show T.blockSize ⟨[], .branch (.eqK .v u) (t q) (m + 1)⟩ + T.chartSize (caseBlocks t (m + 1) l other) = _
      rw [hc, ih, List.length_cons, Nat.mul_succ]
      omega
  induction rs generalizing m with
  | nil => rfl
  | cons r rs ih =>
    simp only [rowsBlocks, List.map_cons, List.sum_cons]
    rw [chartSize_append, ih]
    show T.blockSize ⟨_, .branch _ (if r.accepting then 1 else 2) (m + 1)⟩ + T.chartSize (caseBlocks t (m + 1) r.cases r.other) +
      _ = _
    rw [key, ← hr (if r.accepting then 1 else 2) (m + 1)]
    omega

/-- C148: the code for the CHIP-8 has 12 bytes, 18 for each state and 6 for each case. -/
theorem C148_chip8_size (reg : Var → Fin 15) (base : Unit → Nat) (a : Spec.Automaton.Automaton) :
    (Chip8.chip8Arrays reg base).chartSize a.chart = 12 + (a.map fun r => 18 + 6 * r.cases.length).sum := by
  rw [← rows_size (T := Chip8.chip8Arrays reg base) (st := 18) (cs := 6) (fun _ _ => rfl) (fun _ _ _ => rfl) (fun _ => rfl)
    (target a) 3 a]
  show 4 + (4 + (4 + (Chip8.chip8Arrays reg base).chartSize (rowsBlocks (target a) 3 a))) = _
  omega

/-- C148: that for the 6502 has 21 bytes, 29 for each state and 12 for each case. -/
theorem C148_mos_size (loc : Var → Byte) (base : Unit → Nat) (a : Spec.Automaton.Automaton) :
    (Mos.mosArrays loc base).chartSize a.chart = 21 + (a.map fun r => 29 + 12 * r.cases.length).sum := by
  rw [← rows_size (T := Mos.mosArrays loc base) (st := 29) (cs := 12) (fun _ _ => rfl) (fun _ _ _ => rfl) (fun _ => rfl)
    (target a) 3 a]
  show 7 + (7 + (7 + (Mos.mosArrays loc base).chartSize (rowsBlocks (target a) 3 a))) = _
  omega

end

/-! ### Concrete cases -/

section
open Verif.Mos (FlatRam)

/-- Words with an even number of the byte 97. -/
def evenA : Spec.Automaton.Automaton := [⟨[(97, 1)], 0, true⟩, ⟨[(97, 0)], 1, false⟩]

/-- Two words: one is accepted, the other not. -/
def abca : List Byte := [97, 98, 99, 97]

def abaca : List Byte := [97, 98, 97, 99, 97]

theorem srcBase_placed (x : Nat) (h : 256 ≤ x) (h' : x + 256 ≤ 4096) : Placed (fun _ : Unit => x) 0 4096 ∧
    Placed (fun _ : Unit => x) 256 65536 :=
  ⟨⟨fun _ => Nat.zero_le _, fun _ => h', fun t u h => absurd (Subsingleton.elim t u) h⟩,
    ⟨fun _ => h, fun _ => by omega, fun t u h => absurd (Subsingleton.elim t u) h⟩⟩

/-- The 6502 with the automaton and a word. -/
def automatonMos (w : List Byte) : Mos.Mos6502 FlatRam :=
  mosAt400 (fun a => w.getD (a.toNat - 0x200) 0)
    ((Mos.mosArrays copyLoc fun _ => 0x200).assemble 0x400 evenA.chart)

/-- The CHIP-8 with the automaton and a word. -/
def automatonChip8 (w : List Byte) : Chip8.Chip8 FlatRam Unit :=
  chip8At200 (fun _ => 9) (fun a => w.getD (a.toNat - 0x800) 0)
    ((Chip8.chip8Arrays copyReg fun _ => 0x800).assemble 0x200 evenA.chart)

/-- The 6502 accepts the word. -/
example : ∃ cycles d, Mos.run .debug (automatonMos abca) cycles = .ok (.ready d) ∧ d.address_map.mem 0x11 = 1 := by
  obtain ⟨n, d, m, h1, -, rfl, h2, -⟩ := C148_mos (b := .debug) (c := automatonMos abca) (a := evenA) (w := abca)
    (base := fun _ => 0x200) (loc := copyLoc) (p := 0x400) (Mos.flatRam_coherent _) (flatRam_acceptsAt _ _)
    (srcBase_placed 0x200 (by decide) (by decide)).2 copyLoc_inj rfl rfl
    (mosAt400_code (by decide +kernel) (fun _ => by decide)) (by decide +kernel) (by decide)
    ⟨by decide +kernel, by decide, by decide +kernel, by decide, by decide +kernel, by decide, by decide +kernel, by decide,
      by show _ = (0 : Byte); decide +kernel⟩
  exact ⟨n, d, h1, h2⟩

/-- The CHIP-8 refuses the other. -/
example (env : Nat → Chip8.Env) : ∃ n c, Chip8.run .release env (automatonChip8 abaca) n = .ok (.ready c) ∧
    Chip8.vars c 2 = 0 := by
  obtain ⟨n, c, h1, -, h2, -⟩ := C148_chip8 (b := .release) (c := automatonChip8 abaca) (a := evenA) (w := abaca)
    (base := fun _ => 0x800) (reg := copyReg) (p := 0x200) (Mos.flatRam_coherent _) (flatRam_acceptsAt _ _)
    (srcBase_placed 0x800 (by decide) (by decide)).1 copyReg_inj (by rintro ⟨⟩ <;> decide) rfl rfl
    (chip8At200_code (by decide +kernel) (by decide +kernel) (fun _ => by decide)) (by decide +kernel) (by decide)
    ⟨by decide +kernel, by decide, by decide +kernel, by decide, by decide +kernel, by decide, by decide +kernel, by decide,
      by decide +kernel, by decide, by show _ = (0 : Byte); decide +kernel⟩ env
  exact ⟨n, c, h1, h2⟩

end

end Verif.Props
