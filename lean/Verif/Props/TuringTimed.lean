import Verif.Props.Turing
import Verif.Props.Mos.ChartsTimed
import Verif.Proofs.TuringTimed

/-!
# C151: the exact running time of every Turing machine on a ring, on both machines
-/

namespace Verif.Props

open Verif Verif.Spec.Flow Verif.Flow
open Verif.Spec.Turing Verif.Turing
open Verif.Spec.CopyText (Var)
open Verif.Spec.Sort (indexPenalty branchPenalty)
open Verif.Spec.Mos (Mem Coherent AcceptsAt word regs Instructions totalCycles)

section
variable {B R : Type} [Addressable B] {b : Build} {I : B → Mem → Prop} {mem : Mem} {p : Nat} {base : Unit → Nat}
  {tm : Machine}

/-! ### The CHIP-8 -/

theorem chip8_prices (reg : Var → Fin 15) (base : Unit → Nat) :
    Prices (Chip8.chip8Arrays reg base) (ofCosts (Chip8.chip8ArrayCosts Var Unit)) (fun _ => 5) 2 (fun _ => 2) 7 1 where
  read _ := rfl
  no _ _ := rfl
  yes _ _ := rfl
  apply _ _ _ := rfl
  jump := rfl

theorem chip8_stepPrice (reg : Var → Fin 15) (base : Unit → Nat) (p : Nat) (tm : Machine) :
    stepPrice (Chip8.chip8Arrays reg base) (fun _ => 5) 2 (fun _ => 2) 7 p tm = chip8Step tm := by
  funext c
  unfold stepPrice chip8Step
  dsimp only
  omega

theorem chip8_haltPrice (tm : Machine) : haltPrice (fun _ => 5) 2 1 tm = chip8Halt tm := by
  funext c
  unfold haltPrice chip8Halt
  dsimp only
  split <;> omega

/-- C151 on the CHIP-8, step by step: `k` steps of the Turing machine take exactly the instructions of the
formula. -/
theorem C151_chip8_steps {c : Chip8.Chip8 B R} {reg : Var → Fin 15}
    (hI : Coherent b I) (hacc : AcceptsAt b I fun a => InArray base a.toNat) (hP : Placed base 0 4096)
    (hr : ∀ x y, reg x = reg y → x = y) (h0 : ∀ x, reg x ≠ 0) (hm : I c.address_space mem)
    (hpc : c.pc = BitVec.ofNat 16 p) (hcode : Chip8.CodeIn base mem p ((Chip8.chip8Arrays reg base).assemble p tm.chart))
    (hp : p + (Chip8.chip8Arrays reg base).chartSize tm.chart < 4096) {k : Nat} {t : Config}
    (h : tm.Steps k (startOf (Chip8.vars c (reg .i)) base mem) t) (env : Nat → Chip8.Env) :
    ∃ c' m, Chip8.run b env c (tm.stepsTime (chip8Step tm) k (startOf (Chip8.vars c (reg .i)) base mem)) =
        .ok (.ready c') ∧
      c'.pc.toNat = (Chip8.chip8Arrays reg base).entry p tm.chart (rowAt tm t.state) ∧
      Chip8.vars c' (reg .i) = t.head ∧ I c'.address_space m ∧
      (∀ j : Byte, m (word (base () + j.toNat)) = t.tape j) ∧
      ∀ x : Word, ¬ InArray base x.toNat → m x = mem x := by
  obtain ⟨s, f, hs⟩ := steps_take (p := p) (chip8_prices reg base) h (s := Chip8.stateOf reg base c mem) ⟨rfl, rfl⟩
  rw [chip8_stepPrice] at f
  obtain ⟨σ, i, bus, m, e1, e2, e3, e4⟩ := C145_chip8_follows hI hacc hP hr h0 hm hpc hcode hp (follows_of_takes f) env
  have := (entry_le (T := Chip8.chip8Arrays reg base) (ch := tm.chart) p (rowAt tm t.state)).2
  refine ⟨_, m, e1, ?_, ?_, e2, fun j => (e4.arr () j).trans (congrFun hs.2 j), e4.other⟩
  · show (BitVec.ofNat 16 _).toNat = _
    rw [BitVec.toNat_ofNat, Nat.mod_eq_of_lt (by omega)]
  · rw [← hs.1, ← e3.var .i]
    show (Vector.ofFn σ)[reg .i] = σ (reg .i)
    simp

/-- C151 on the CHIP-8: a Turing machine that halts after `k` steps takes exactly the instructions of the
formula: then the emulator is behind the code, with the tape and the head of the machine; after any smaller
number it is still inside. -/
theorem C151_chip8 {c : Chip8.Chip8 B R} {reg : Var → Fin 15}
    (hI : Coherent b I) (hacc : AcceptsAt b I fun a => InArray base a.toNat) (hP : Placed base 0 4096)
    (hr : ∀ x y, reg x = reg y → x = y) (h0 : ∀ x, reg x ≠ 0) (hm : I c.address_space mem)
    (hpc : c.pc = BitVec.ofNat 16 p) (hcode : Chip8.CodeIn base mem p ((Chip8.chip8Arrays reg base).assemble p tm.chart))
    (hp : p + (Chip8.chip8Arrays reg base).chartSize tm.chart < 4096) {k n : Nat} {t : Config}
    (h : tm.Steps k (startOf (Chip8.vars c (reg .i)) base mem) t) (hh : tm.step t = none)
    (hn : n = tm.stepsTime (chip8Step tm) k (startOf (Chip8.vars c (reg .i)) base mem) + chip8Halt tm t)
    (env : Nat → Chip8.Env) :
    (∃ c' m, Chip8.run b env c n = .ok (.ready c') ∧
      c'.pc.toNat = p + (Chip8.chip8Arrays reg base).chartSize tm.chart ∧
      Chip8.vars c' (reg .i) = t.head ∧ I c'.address_space m ∧
      (∀ j : Byte, m (word (base () + j.toNat)) = t.tape j) ∧
      ∀ x : Word, ¬ InArray base x.toNat → m x = mem x) ∧
    ∀ n' < n, ∃ c', Chip8.run b env c n' = .ok (.ready c') ∧ p ≤ c'.pc.toNat ∧
      c'.pc.toNat < p + (Chip8.chip8Arrays reg base).chartSize tm.chart := by
  obtain ⟨s, f, hs⟩ := halt_takes (p := p) (chip8_prices reg base) (s := Chip8.stateOf reg base c mem) ⟨rfl, rfl⟩ rfl h hh
  rw [chip8_stepPrice, chip8_haltPrice, ← hn] at f
  have f := follows_of_takes f
  constructor
  · obtain ⟨σ, i, bus, m, e1, e2, e3, e4⟩ := C145_chip8_follows hI hacc hP hr h0 hm hpc hcode hp f env
    rw [entry_out (Nat.le_refl _)] at e1
    refine ⟨_, m, e1, ?_, ?_, e2, fun j => (e4.arr () j).trans (congrFun hs.2 j), e4.other⟩
    · show (BitVec.ofNat 16 _).toNat = _
      rw [BitVec.toNat_ofNat, Nat.mod_eq_of_lt (by omega)]
    · rw [← hs.1, ← e3.var .i]
      show (Vector.ofFn σ)[reg .i] = σ (reg .i)
      simp
  · intro n' hlt
    obtain ⟨d, hd, -⟩ := chart_path (Chip8.chip8Arrays_works hI hacc hP hr h0) hcode (by omega) f (Chip8.arraysAt_self hm hpc)
    obtain ⟨u, hu⟩ := hd.take (m := n' + 1) hlt
    obtain ⟨v, q, hv, ⟨σ, i, bus, mem', rfl, -⟩, hq1, hq2⟩ := hu.last
    have := Chip8.flow_run hv env 0 0
    rw [Nat.add_zero] at this
    refine ⟨Chip8.withVars (Chip8.over c i bus) σ q, by unfold Chip8.run; rw [this]; rfl, ?_⟩
    show _ ≤ (BitVec.ofNat 16 q).toNat ∧ (BitVec.ofNat 16 q).toNat < _
    rw [BitVec.toNat_ofNat, Nat.mod_eq_of_lt (by omega)]
    exact ⟨hq1, hq2⟩

/-- C151: if no state has more than `r` rules, `k` steps take between `14 k` and `(12 + 2 r) k` instructions. -/
theorem C151_chip8_bounds {r k : Nat} (hr : ∀ rs ∈ tm, rs.length ≤ r) {c t : Config} (h : tm.Steps k c t) :
    14 * k ≤ tm.stepsTime (chip8Step tm) k c ∧ tm.stepsTime (chip8Step tm) k c ≤ (12 + 2 * r) * k := by
  refine stepsTime_bounds (fun c c' hc => ?_) h
  obtain ⟨rs, h1, -, h2⟩ := tried_lt hc
  have := hr rs h1
  unfold chip8Step
  omega

/-! ### The 6502 -/

theorem mos_prices (loc : Var → Byte) (base : Unit → Nat) :
    Prices (Mos.mosArrays loc base) (Mos.mosArrayTimes Var base) (fun j => 13 + indexPenalty (base ()) j.toNat) 10
      (fun q => 11 + branchPenalty q) 29 3 where
  read s := by
    show 3 + (4 + indexPenalty (base ()) (s.var .i).toNat) + 3 + 0 + 3 = _
    omega
  no _ _ := rfl
  yes q _ := by
    show 7 + 1 + branchPenalty q + 3 = _
    omega
  apply _ _ _ := rfl
  jump := rfl

/-- The tests lie where they should. -/
theorem mos_testPlace (loc : Var → Byte) (base : Unit → Nat) (p : Nat) {q j : Nat} {rs : List Rule} (h : tm[q]? = some rs)
    (hj : j < rs.length) : (Mos.mosArrays loc base).entry p tm.chart (rowAt tm q + 1 + 2 * j) = testPlace tm p q j := by
  unfold Target.entry Machine.chart testPlace
  rw [Nat.add_assoc (rowAt tm q), rowsBlocks_take _ _ h _ _ (by unfold rowLength; omega), chartSize_append,
    turing_size (T := Mos.mosArrays loc base) (st := 13) (rl := 33) (fun _ => rfl) (fun _ _ _ _ _ _ => rfl) (fun _ => rfl)]
  rw [Nat.add_comm 1 (2 * j)]
  show p + (_ + ((Mos.mosArrays loc base).blockSize ⟨[.read .v () .i], .goto _⟩ +
    (Mos.mosArrays loc base).chartSize ((ruleBlocks _ _ _ rs).take (2 * j)))) = _
  rw [ruleBlocks_take_size (T := Mos.mosArrays loc base) (rl := 33) (fun _ _ _ _ _ _ => rfl) _ _ rs _ (by omega)]
  show p + (_ + (10 + 33 * j)) = _
  omega

theorem mos_stepPrice (loc : Var → Byte) (base : Unit → Nat) (p k : Nat) (c : Config) :
    tm.stepsTime (stepPrice (Mos.mosArrays loc base) (fun j => 13 + indexPenalty (base ()) j.toNat) 10
      (fun q => 11 + branchPenalty q) 29 p tm) k c = tm.stepsTime (mosStep tm p (base ())) k c := by
  refine stepsTime_congr (fun c c' hc => ?_) k c
  obtain ⟨rs, -, h1, h2⟩ := tried_lt hc
  unfold stepPrice mosStep
  rw [mos_testPlace loc base p h1 h2]
  dsimp only
  omega

theorem mos_haltPrice (base : Unit → Nat) (tm : Machine) :
    haltPrice (fun j => 13 + indexPenalty (base ()) j.toNat) 10 3 tm = mosHalt tm (base ()) := by
  funext c
  unfold haltPrice mosHalt
  dsimp only
  split <;> omega

/-- C151 on the 6502, step by step: `k` steps of the Turing machine take exactly the cycles of the formula. -/
theorem C151_mos_steps {c : Mos.Mos6502 B} {loc : Var → Byte}
    (hI : Coherent b I) (hacc : AcceptsAt b I (Mos.Written base)) (hP : Placed base 256 65536)
    (hl : ∀ x y, loc x = loc y → x = y) (hm : I c.address_map mem) (hpc : c.pc = word p)
    (hcode : Mos.ProgramIn base mem p ((Mos.mosArrays loc base).assemble p tm.chart))
    (hp : p + (Mos.mosArrays loc base).chartSize tm.chart ≤ 65532) {k : Nat} {t : Config}
    (h : tm.Steps k (startOf (mem (Mos.zp (loc .i))) base mem) t) :
    ∃ c' m, Mos.run b c (tm.stepsTime (mosStep tm p (base ())) k (startOf (mem (Mos.zp (loc .i))) base mem)) =
        .ok (.ready c') ∧
      c'.pc = word ((Mos.mosArrays loc base).entry p tm.chart (rowAt tm t.state)) ∧ I c'.address_map m ∧
      m (Mos.zp (loc .i)) = t.head ∧ (∀ j : Byte, m (word (base () + j.toNat)) = t.tape j) ∧
      ∀ x : Word, (∀ y, x ≠ Mos.zp (loc y)) → ¬ InArray base x.toNat → m x = mem x := by
  obtain ⟨s, f, hs⟩ := steps_take (p := p) (mos_prices loc base) h (s := Mos.stateOf loc base mem) ⟨rfl, rfl⟩
  rw [mos_stepPrice] at f
  obtain ⟨ops, d, -, -, f1, f2, -, m, f3, f4⟩ := C147_time hI hacc hP hl hm hpc hcode hp f
  exact ⟨d, m, f1, f2, f3, (f4.var .i).trans hs.1, fun j => (f4.arr () j).trans (congrFun hs.2 j), f4.other⟩

/-- C151 on the 6502: a Turing machine that halts after `k` steps takes exactly the cycles of the formula: `run`
with them ends behind the code, with the tape and the head of the machine. As long as the executed
instructions take fewer, the emulator is inside. -/
theorem C151_mos {c : Mos.Mos6502 B} {loc : Var → Byte}
    (hI : Coherent b I) (hacc : AcceptsAt b I (Mos.Written base)) (hP : Placed base 256 65536)
    (hl : ∀ x y, loc x = loc y → x = y) (hm : I c.address_map mem) (hpc : c.pc = word p)
    (hcode : Mos.ProgramIn base mem p ((Mos.mosArrays loc base).assemble p tm.chart))
    (hp : p + (Mos.mosArrays loc base).chartSize tm.chart ≤ 65532) {k n : Nat} {t : Config}
    (h : tm.Steps k (startOf (mem (Mos.zp (loc .i))) base mem) t) (hh : tm.step t = none)
    (hn : n = tm.stepsTime (mosStep tm p (base ())) k (startOf (mem (Mos.zp (loc .i))) base mem) + mosHalt tm (base ()) t) :
    (∃ c' m, Mos.run b c n = .ok (.ready c') ∧ c'.pc = word (p + (Mos.mosArrays loc base).chartSize tm.chart) ∧
      I c'.address_map m ∧ m (Mos.zp (loc .i)) = t.head ∧ (∀ j : Byte, m (word (base () + j.toNat)) = t.tape j) ∧
      ∀ x : Word, (∀ y, x ≠ Mos.zp (loc y)) → ¬ InArray base x.toNat → m x = mem x) ∧
    ∀ {ops d}, Instructions b c ops d → totalCycles ops < n →
      ∃ q, d.pc = word q ∧ p ≤ q ∧ q < p + (Mos.mosArrays loc base).chartSize tm.chart := by
  obtain ⟨s, f, hs⟩ := halt_takes (p := p) (mos_prices loc base) (s := Mos.stateOf loc base mem) ⟨rfl, rfl⟩ rfl h hh
  rw [mos_stepPrice, mos_haltPrice, ← hn] at f
  refine ⟨?_, fun hi ht => C147_not_before hI hacc hP hl hm hpc hcode hp f hi ht⟩
  obtain ⟨ops, d, -, -, f1, f2, -, m, f3, f4⟩ := C147_time hI hacc hP hl hm hpc hcode hp f
  rw [entry_out (Nat.le_refl _)] at f2
  exact ⟨d, m, f1, f2, f3, (f4.var .i).trans hs.1, fun j => (f4.arr () j).trans (congrFun hs.2 j), f4.other⟩

/-- C151: if no state has more than `r` rules, `k` steps take between `53 k` and `(45 + 10 r) k` cycles. -/
theorem C151_mos_bounds {r k p a : Nat} (hr : ∀ rs ∈ tm, rs.length ≤ r) {c t : Config} (h : tm.Steps k c t) :
    53 * k ≤ tm.stepsTime (mosStep tm p a) k c ∧ tm.stepsTime (mosStep tm p a) k c ≤ (45 + 10 * r) * k := by
  refine stepsTime_bounds (fun c c' hc => ?_) h
  obtain ⟨rs, h1, -, h2⟩ := tried_lt hc
  have := hr rs h1
  unfold mosStep indexPenalty branchPenalty
  split <;> split <;> omega

end

/-! ### Concrete cases -/

section
open Verif.Mos (FlatRam)

/-- What adding one to eleven does, and how long it takes if `f` is the time of a step. -/
theorem increment_times {tape : Byte → Byte} (h3 : tape 3 = 49) (h2 : tape 2 = 49) (h1 : tape 1 = 48) (f : Config → Nat) :
    ∃ c₁ c₂ t : Config, increment.Steps 3 ⟨0, 3, tape⟩ t ∧ increment.step t = none ∧ t.state = 1 ∧ t.tape 1 = 49 ∧
      c₁.state = 0 ∧ c₂.state = 0 ∧ c₁.head = 2 ∧ c₂.head = 1 ∧
      increment.tried ⟨0, 3, tape⟩ = 0 ∧ increment.tried c₁ = 0 ∧ increment.tried c₂ = 1 ∧
      increment.stepsTime f 3 ⟨0, 3, tape⟩ = f ⟨0, 3, tape⟩ + (f c₁ + f c₂) := by
  have one : ∀ c : Config, c.state = 0 → c.tape c.head = 49 →
      increment.step c = some (Rule.apply ⟨49, 48, .left, 0⟩ c) ∧ increment.tried c = 0 := by
    intro c hs h
    simp only [Machine.step, Machine.tried, hs]
    constructor
    · show Option.map _ (List.find? (fun r : Rule => decide (r.seen = c.tape c.head)) [_, _, _]) = _
      rw [h]; rfl
    · show List.findIdx (fun r : Rule => decide (r.seen = c.tape c.head)) [_, _, _] = _
      rw [h]; rfl
  have zero : ∀ c : Config, c.state = 0 → c.tape c.head = 48 →
      increment.step c = some (Rule.apply ⟨48, 49, .stay, 1⟩ c) ∧ increment.tried c = 1 := by
    intro c hs h
    simp only [Machine.step, Machine.tried, hs]
    constructor
    · show Option.map _ (List.find? (fun r : Rule => decide (r.seen = c.tape c.head)) [_, _, _]) = _
      rw [h]; rfl
    · show List.findIdx (fun r : Rule => decide (r.seen = c.tape c.head)) [_, _, _] = _
      rw [h]; rfl
  have s1 := one ⟨0, 3, tape⟩ rfl h3
  obtain ⟨c₁, e1⟩ : ∃ c, Rule.apply ⟨49, 48, .left, 0⟩ ⟨0, 3, tape⟩ = c := ⟨_, rfl⟩
  have s2 := one c₁ (by rw [← e1]; rfl) (by rw [← e1]; simpa [Rule.apply, Move.head] using h2)
  obtain ⟨c₂, e2⟩ : ∃ c, Rule.apply ⟨49, 48, .left, 0⟩ c₁ = c := ⟨_, rfl⟩
  have s3 := zero c₂ (by rw [← e2]; rfl) (by rw [← e2, ← e1]; simpa [Rule.apply, Move.head] using h1)
  have hd : c₂.head = 1 := by rw [← e2, ← e1]; simp [Rule.apply, Move.head]
  rw [e1] at s1
  rw [e2] at s2
  refine ⟨c₁, c₂, Rule.apply ⟨48, 49, .stay, 1⟩ c₂, .step s1.1 (.step s2.1 (.step s3.1 .here)), rfl, rfl, ?_,
    by rw [← e1]; rfl, by rw [← e2]; rfl,
    by rw [← e1]; simp [Rule.apply, Move.head], hd, s1.2, s2.2, s3.2, ?_⟩
  · simp [Rule.apply, hd]
  · simp only [Machine.stepsTime, s1.1, s2.1, s3.1, Nat.add_zero]

/-- On the CHIP-8 it takes 14 + 14 + 16 instructions; there is no state 1. -/
example (env : Nat → Chip8.Env) : (∃ d, Chip8.run .release env incrementChip8 44 = .ok (.ready d) ∧
      d.pc.toNat = 0x200 + 72 ∧ d.address_space.mem 0x801 = 49) ∧
    ∃ d, Chip8.run .release env incrementChip8 43 = .ok (.ready d) ∧ d.pc.toNat < 0x200 + 72 := by
  obtain ⟨c₁, c₂, t, h, hh, hs, ht, -, -, -, -, e0, e1, e2, e⟩ := increment_times
    (tape := fun j => incrementChip8.address_space.mem (word (0x800 + j.toNat)))
    (by decide +kernel) (by decide +kernel) (by decide +kernel) (chip8Step increment)
  have key := C151_chip8 (b := .release) (c := incrementChip8) (tm := increment) (n := 44)
    (base := fun _ => 0x800) (reg := copyReg) (p := 0x200) (Mos.flatRam_coherent _) (flatRam_acceptsAt _ _)
    (srcBase_placed 0x800 (by decide) (by decide)).1 copyReg_inj (by rintro ⟨⟩ <;> decide) rfl rfl
    (chip8At200_code (by decide +kernel) (by decide +kernel) (fun _ => by decide)) (by decide +kernel) h hh
    (by
      refine Eq.trans ?_ (congrArg (· + chip8Halt increment t) e.symm)
      simp only [chip8Step, chip8Halt, e0, e1, e2, hs]
      rfl) env
  rw [C150_chip8_size] at key
  obtain ⟨⟨d, m, h1, h2, -, rfl, h3, -⟩, h4⟩ := key
  obtain ⟨d', h5, -, h6⟩ := h4 43 (by decide)
  exact ⟨⟨d, h1, h2, (h3 1).trans ht⟩, d', h5, h6⟩

/-- On the 6502 it takes 53 + 53 + 63 cycles: no page is left. -/
example : ∃ d, Mos.run .debug incrementMos 169 = .ok (.ready d) ∧ d.pc = word (0x400 + 112) ∧
    d.address_map.mem 0x201 = 49 := by
  obtain ⟨c₁, c₂, t, h, hh, hs, ht, z1, z2, a1, a2, e0, e1, e2, e⟩ := increment_times
    (tape := fun j => incrementMos.address_map.mem (word (0x200 + j.toNat)))
    (by decide +kernel) (by decide +kernel) (by decide +kernel) (mosStep increment 0x400 0x200)
  obtain ⟨⟨d, m, h1, h2, rfl, -, h3, -⟩, -⟩ := C151_mos (b := .debug) (c := incrementMos) (tm := increment) (n := 169)
    (base := fun _ => 0x200) (loc := copyLoc) (p := 0x400) (Mos.flatRam_coherent _) (flatRam_acceptsAt _ _)
    (srcBase_placed 0x200 (by decide) (by decide)).2 copyLoc_inj rfl rfl
    (mosAt400_code (by decide +kernel) (fun _ => by decide)) (by decide +kernel) h hh
    (by
      refine Eq.trans ?_ (congrArg (· + mosHalt increment 0x200 t) e.symm)
      simp only [mosStep, mosHalt, e0, e1, e2, z1, z2, a1, a2, hs]
      rw [if_neg (by decide)]
      decide +kernel)
  rw [C150_mos_size] at h2
  exact ⟨d, h1, h2, (h3 1).trans ht⟩

/-- The bounds for this machine: a step takes 14 to 18 instructions, or 53 to 75 cycles. -/
example {k : Nat} {c t : Config} (h : increment.Steps k c t) :
    increment.stepsTime (chip8Step increment) k c ≤ 18 * k ∧ increment.stepsTime (mosStep increment 0x400 0x200) k c ≤ 75 * k :=
  ⟨(C151_chip8_bounds (r := 3) (by simp [increment]) h).2, (C151_mos_bounds (r := 3) (by simp [increment]) h).2⟩

end

end Verif.Props
