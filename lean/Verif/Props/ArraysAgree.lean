import Verif.Props.Chip8.Arrays
import Verif.Props.Mos.Arrays
import Verif.Proofs.Sort

/-!
# C134, C135: the two emulators agree on programs with arrays, and sort with the same one
-/

namespace Verif.Props

open Verif Verif.Spec.Flow Verif.Flow Verif.Spec.Structured
open Verif.Spec.Mos (Mem BusView Coherent AcceptsAt word regs)

section
variable {ι κ : Type} [DecidableEq ι] [DecidableEq κ] {B B' R : Type} [Addressable B] [Addressable B'] {b b' : Build}
  {c : Chip8.Chip8 B R} {d : Mos.Mos6502 B'} {I : B → Mem → Prop} {I' : B' → Mem → Prop} {mem mem' : Mem} {p q : Nat}
  {reg : ι → Fin 15} {loc : ι → Byte} {base base' : κ → Nat} {prog : Program ι κ}

/-- C134: started with the same variables and arrays, the CHIP-8 gets behind its code exactly if the
6502 gets behind its own. -/
theorem C134_agree_ends
    (hI : Coherent b I) (hacc : AcceptsAt b I fun a => InArray base a.toNat) (hP : Placed base 0 4096)
    (hr : ∀ x y, reg x = reg y → x = y) (h0 : ∀ x, reg x ≠ 0) (hm : I c.address_space mem)
    (hpc : c.pc = BitVec.ofNat 16 p) (hcode : Chip8.CodeIn base mem p ((Chip8.chip8Arrays reg base).compile p prog))
    (hp : p + (Chip8.chip8Arrays reg base).size prog < 4096)
    (hI' : Coherent b' I') (hacc' : AcceptsAt b' I' (Mos.Written base')) (hP' : Placed base' 256 65536)
    (hl : ∀ x y, loc x = loc y → x = y) (hm' : I' d.address_map mem') (hpc' : d.pc = word q)
    (hcode' : Mos.ProgramIn base' mem' q ((Mos.mosArrays loc base').compile q prog))
    (hp' : q + (Mos.mosArrays loc base').size prog ≤ 65532)
    (hsame : Chip8.stateOf reg base c mem = Mos.stateOf loc base' mem') (env : Nat → Chip8.Env) :
    (∃ n c', Chip8.run b env c n = .ok (.ready c') ∧ c'.pc.toNat = p + (Chip8.chip8Arrays reg base).size prog) ↔
      ∃ cycles d', Mos.run b' d cycles = .ok (.ready d') ∧ d'.pc = word (q + (Mos.mosArrays loc base').size prog) := by
  rw [Chip8.C134_chip8_ends_iff hI hacc hP hr h0 hm hpc hcode hp env,
    C134_mos_ends_iff hI' hacc' hP' hl hm' hpc' hcode' hp', hsame]
  constructor <;> rintro ⟨n, s, h⟩ <;> obtain ⟨n', h'⟩ := exec_costs h <;> exact ⟨n', s, h'⟩

/-- C134: and when they do, they find the same variables and arrays, those the program computes. -/
theorem C134_agree
    (hI : Coherent b I) (hacc : AcceptsAt b I fun a => InArray base a.toNat) (hP : Placed base 0 4096)
    (hr : ∀ x y, reg x = reg y → x = y) (h0 : ∀ x, reg x ≠ 0) (hm : I c.address_space mem)
    (hpc : c.pc = BitVec.ofNat 16 p) (hcode : Chip8.CodeIn base mem p ((Chip8.chip8Arrays reg base).compile p prog))
    (hp : p + (Chip8.chip8Arrays reg base).size prog < 4096)
    (hI' : Coherent b' I') (hacc' : AcceptsAt b' I' (Mos.Written base')) (hP' : Placed base' 256 65536)
    (hl : ∀ x y, loc x = loc y → x = y) (hm' : I' d.address_map mem') (hpc' : d.pc = word q)
    (hcode' : Mos.ProgramIn base' mem' q ((Mos.mosArrays loc base').compile q prog))
    (hp' : q + (Mos.mosArrays loc base').size prog ≤ 65532)
    (hsame : Chip8.stateOf reg base c mem = Mos.stateOf loc base' mem') (env : Nat → Chip8.Env)
    (hends : ∃ n c', Chip8.run b env c n = .ok (.ready c') ∧
      c'.pc.toNat = p + (Chip8.chip8Arrays reg base).size prog) :
    ∃ n c' m cycles d' m', Chip8.run b env c n = .ok (.ready c') ∧ Mos.run b' d cycles = .ok (.ready d') ∧
      c'.pc.toNat = p + (Chip8.chip8Arrays reg base).size prog ∧
      d'.pc = word (q + (Mos.mosArrays loc base').size prog) ∧
      I c'.address_space m ∧ I' d'.address_map m' ∧
      Chip8.stateOf reg base c' m = Mos.stateOf loc base' m' ∧
      Exec (arrays ι κ) (Chip8.chip8ArrayCosts ι κ) prog (Chip8.stateOf reg base c mem) n
        (Chip8.stateOf reg base c' m) := by
  obtain ⟨n, s, h⟩ := (Chip8.C134_chip8_ends_iff hI hacc hP hr h0 hm hpc hcode hp env).1 hends
  obtain ⟨σ, i, bus, m, e1, e2, e3, e4⟩ := Chip8.C134_chip8_result hI hacc hP hr h0 hm hpc hcode hp h env
  obtain ⟨k, h'⟩ := exec_costs (k' := Mos.mosArrayCosts ι κ) h
  rw [hsame] at h'
  obtain ⟨l, d', -, -, f1, f2, -, m', f3, f4⟩ := C134_mos_result hI' hacc' hP' hl hm' hpc' hcode' hp' h'
  have ea : Chip8.stateOf reg base (Chip8.withVars (Chip8.over c i bus) σ (p + (Chip8.chip8Arrays reg base).size prog)) m
      = s := by
    have hv : (fun x => Chip8.vars (Chip8.withVars (Chip8.over c i bus) σ
        (p + (Chip8.chip8Arrays reg base).size prog)) (reg x)) = s.var := by
      funext x
      rw [← e3.var x]
      show (Vector.ofFn σ)[reg x] = σ (reg x)
      simp
    have ha : (fun t (j : Byte) => m (BitVec.ofNat 16 (base t + j.toNat))) = s.arr := by
      funext t j
      exact e4.arr t j
    show State.mk _ _ = _
    rw [hv, ha]
  have eb : Mos.stateOf loc base' m' = s := by
    show State.mk _ _ = _
    rw [show (fun x => Mos.zeroPage m' (loc x)) = s.var from funext f4.var,
      show (fun t (j : Byte) => m' (word (base' t + j.toNat))) = s.arr from funext fun t => funext (f4.arr t)]
  refine ⟨n, _, m, _, d', m', e1, f1, ?_, f2, e2, f3, ea.trans eb.symm, ?_⟩
  · show (BitVec.ofNat 16 _).toNat = _
    rw [BitVec.toNat_ofNat]
    omega
  · rw [ea]
    exact h

end

/-! ### Counting sort -/

section
open Verif.Spec.Sort Verif.Sort
variable {B R : Type} [Addressable B] {b : Build} {I : B → Mem → Prop} {mem : Mem} {p : Nat} {base : Arr → Nat}

/-- C135 on the CHIP-8: the compiled counting sort gets behind its code, and then the first `n` bytes of
the array are those of before in ascending order; the rest of the array and all memory but the two
arrays is unchanged. `n` is the value of a register, from 0 to 255. -/
theorem C135_chip8 {c : Chip8.Chip8 B R} {reg : Var → Fin 15}
    (hI : Coherent b I) (hacc : AcceptsAt b I fun a => InArray base a.toNat) (hP : Placed base 0 4096)
    (hr : ∀ x y, reg x = reg y → x = y) (h0 : ∀ x, reg x ≠ 0) (hm : I c.address_space mem)
    (hpc : c.pc = BitVec.ofNat 16 p) (hcode : Chip8.CodeIn base mem p ((Chip8.chip8Arrays reg base).compile p sort))
    (hp : p + (Chip8.chip8Arrays reg base).size sort < 4096) (env : Nat → Chip8.Env) :
    ∃ n c' m, Chip8.run b env c n = .ok (.ready c') ∧
      c'.pc.toNat = p + (Chip8.chip8Arrays reg base).size sort ∧ I c'.address_space m ∧
      Sorted (Chip8.vars c (reg .n)).toNat (fun j => mem (word (base .data + j.toNat)))
        (fun j => m (word (base .data + j.toNat))) ∧
      ∀ a : Word, ¬ InArray base a.toNat → m a = mem a := by
  obtain ⟨s, ⟨n, h⟩, -, hs⟩ := sort_does (k := Chip8.chip8ArrayCosts Var Arr) (Chip8.stateOf reg base c mem)
  obtain ⟨σ, i, bus, m, e1, e2, e3, e4⟩ := Chip8.C134_chip8_result hI hacc hP hr h0 hm hpc hcode hp h env
  refine ⟨n, _, m, e1, ?_, e2, ?_, e4.other⟩
  · show (BitVec.ofNat 16 _).toNat = _
    rw [BitVec.toNat_ofNat]
    omega
  · rw [show (fun j : Byte => m (word (base .data + j.toNat))) = s.arr .data from funext (e4.arr .data)]
    exact hs

/-- C135 on the 6502. -/
theorem C135_mos {c : Mos.Mos6502 B} {loc : Var → Byte}
    (hI : Coherent b I) (hacc : AcceptsAt b I (Mos.Written base)) (hP : Placed base 256 65536)
    (hl : ∀ x y, loc x = loc y → x = y) (hm : I c.address_map mem) (hpc : c.pc = word p)
    (hcode : Mos.ProgramIn base mem p ((Mos.mosArrays loc base).compile p sort))
    (hp : p + (Mos.mosArrays loc base).size sort ≤ 65532) :
    ∃ cycles c' m, Mos.run b c cycles = .ok (.ready c') ∧
      c'.pc = word (p + (Mos.mosArrays loc base).size sort) ∧ I c'.address_map m ∧
      Sorted (mem (Mos.zp (loc .n))).toNat (fun j => mem (word (base .data + j.toNat)))
        (fun j => m (word (base .data + j.toNat))) ∧
      (∀ a : Word, (∀ x, a ≠ Mos.zp (loc x)) → ¬ InArray base a.toNat → m a = mem a) := by
  obtain ⟨s, ⟨n, h⟩, -, hs⟩ := sort_does (k := Mos.mosArrayCosts Var Arr) (Mos.stateOf loc base mem)
  obtain ⟨l, d, -, -, f1, f2, -, m, f3, f4⟩ := C134_mos_result hI hacc hP hl hm hpc hcode hp h
  refine ⟨_, d, m, f1, f2, f3, ?_, f4.other⟩
  rw [show (fun j : Byte => m (word (base .data + j.toNat))) = s.arr .data from funext (f4.arr .data)]
  exact hs

end

/-! ### Concrete cases -/

section
open Verif.Spec.Sort Verif.Sort
open Verif.Mos (FlatRam sampleRegs)

/-- A sorted array is determined by the unsorted one. -/
theorem sorted_eq {k : Nat} {a₀ a : Byte → Byte} (h : Sorted k a₀ a) {l l' : List Byte} (h0 : first a₀ k = l')
    (hp : l'.Perm l) (hl : l.Pairwise (·.toNat ≤ ·.toNat)) : first a k = l := by
  have h1 := h.perm
  rw [h0] at h1
  refine (h1.trans hp).eq_of_pairwise (fun u v _ _ h h' => ?_) h.ascending hl
  exact BitVec.eq_of_toNat_eq (Nat.le_antisymm h h')

/-- A 6502 with `ws` at 0x400 and `low` below. -/
def mosAt400 (low : Mem) (ws : List Byte) : Mos.Mos6502 FlatRam :=
  Spec.Mos.withRegs { sampleRegs with pc := word 0x400 } ⟨fun a =>
    if a.toNat < 0x400 then low a else ws.getD (a.toNat - 0x400) 0⟩

theorem mosAt400_code {κ : Type} {base : κ → Nat} {low : Mem} {ws : List Byte} (hws : 0x400 + ws.length ≤ 65536)
    (hb : ∀ t, base t + 256 ≤ 0x400) : Mos.ProgramIn base (mosAt400 low ws).address_map.mem 0x400 ws := by
  refine ⟨⟨by omega, fun i hi => ?_⟩, hws, fun k _ ⟨t, h1, h2⟩ => ?_⟩
  · have e : (word (0x400 + i)).toNat = 0x400 + i := Mos.toNat_word_lt _ (by omega)
    show (if (word (0x400 + i)).toNat < 0x400 then _ else List.getD _ ((word (0x400 + i)).toNat - 0x400) 0) = _
    rw [if_neg (by omega), e, Nat.add_sub_cancel_left, List.getD_eq_getElem?_getD, List.getElem?_eq_getElem hi]
    rfl
  · have := hb t
    omega

/-- A CHIP-8 with `ws` at 0x200 and `high` from 0x800 on. -/
def chip8At200 (vs : Fin 15 → Byte) (high : Mem) (ws : List Nat) : Chip8.Chip8 FlatRam Unit :=
  { Chip8.sample with
    pc := 0x200
    gp_registers := Vector.ofFn vs
    address_space := ⟨fun a =>
      if a.toNat < 0x800 then
        let w := ws.getD ((a.toNat - 0x200) / 2) 0
        if (a.toNat - 0x200) % 2 = 0 then BitVec.ofNat 8 (w / 256) else BitVec.ofNat 8 w
      else high a⟩ }

theorem chip8At200_code {κ : Type} {base : κ → Nat} {vs : Fin 15 → Byte} {high : Mem} {ws : List Nat}
    (hlen : 2 * ws.length ≤ 0x600) (hws : ∀ w ∈ ws, w < 65536) (hb : ∀ t, 0x800 ≤ base t) :
    Chip8.CodeIn base (chip8At200 vs high ws).address_space.mem 0x200 ws := by
  refine ⟨⟨by omega, fun k w hw => ?_⟩, fun k hk ⟨t, h1, h2⟩ => ?_⟩
  · obtain ⟨hk, ew⟩ := List.getElem?_eq_some_iff.1 hw
    have hlt : w < 65536 := hws w (ew ▸ List.getElem_mem hk)
    have e1 : (BitVec.ofNat 16 (0x200 + 2 * k)).toNat = 0x200 + 2 * k := by
      rw [BitVec.toNat_ofNat]; omega
    have e2 : (BitVec.ofNat 16 (0x200 + 2 * k) + 1).toNat = 0x200 + 2 * k + 1 := by
      rw [BitVec.toNat_add, e1]
      show (_ + 1) % _ = _
      omega
    have eg : ws.getD k 0 = w := by rw [List.getD_eq_getElem?_getD, hw]; rfl
    unfold Spec.Chip8.wordAt
    simp only [chip8At200, e1, e2]
    rw [if_pos (by omega), if_pos (by omega), show (0x200 + 2 * k - 0x200) / 2 = k by omega,
      show (0x200 + 2 * k + 1 - 0x200) / 2 = k by omega, if_pos (by omega), if_neg (by omega), eg, BitVec.toNat_ofNat,
      BitVec.toNat_ofNat]
    omega
  · have := hb t
    omega

/-- The bytes to sort. -/
def unsorted : List Byte := [9, 3, 200, 3, 0]

/-- Where the cases have the variables and arrays. -/
def locOf : Var → Byte
  | .i => 0x10 | .v => 0x11 | .c => 0x12 | .n => 0x13 | .z => 0x14

def regOf : Var → Fin 15
  | .i => 1 | .v => 2 | .c => 3 | .n => 4 | .z => 5

def mosBase : Arr → Nat
  | .data => 0x200 | .count => 0x300

def chip8Base : Arr → Nat
  | .data => 0x800 | .count => 0x900

/-- The 6502 with the sort, five bytes to sort, and arbitrary bytes behind them and in the variables. -/
def sortMos : Mos.Mos6502 FlatRam :=
  mosAt400 (fun a => if a = 0x13 then 5 else unsorted.getD (a.toNat - 0x200) 7) ((Mos.mosArrays locOf mosBase).compile 0x400 sort)

/-- The CHIP-8 with the sort and the same bytes. -/
def sortChip8 : Chip8.Chip8 FlatRam Unit :=
  chip8At200 (fun x => if x = 4 then 5 else 9) (fun a => unsorted.getD (a.toNat - 0x800) 7)
    ((Chip8.chip8Arrays regOf chip8Base).compile 0x200 sort)

theorem mosBase_placed : Placed mosBase 256 65536 := ⟨by rintro ⟨⟩ <;> decide, by rintro ⟨⟩ <;> decide,
  by rintro ⟨⟩ ⟨⟩ h <;> first | exact absurd rfl h | decide⟩

theorem chip8Base_placed : Placed chip8Base 0 4096 := ⟨by rintro ⟨⟩ <;> decide, by rintro ⟨⟩ <;> decide,
  by rintro ⟨⟩ ⟨⟩ h <;> first | exact absurd rfl h | decide⟩

theorem locOf_inj (x y : Var) (h : locOf x = locOf y) : x = y := by revert h; cases x <;> cases y <;> decide

theorem regOf_inj (x y : Var) (h : regOf x = regOf y) : x = y := by revert h; cases x <;> cases y <;> decide

theorem sortMos_code : Mos.ProgramIn mosBase sortMos.address_map.mem 0x400
    ((Mos.mosArrays locOf mosBase).compile 0x400 sort) :=
  mosAt400_code (by decide +kernel) (by rintro ⟨⟩ <;> decide)

theorem sortChip8_code : Chip8.CodeIn chip8Base sortChip8.address_space.mem 0x200
    ((Chip8.chip8Arrays regOf chip8Base).compile 0x200 sort) :=
  chip8At200_code (by decide +kernel) (by decide +kernel) (by rintro ⟨⟩ <;> decide)

/-- The 6502 sorts 9, 3, 200, 3, 0. -/
example : ∃ cycles d, Mos.run .debug sortMos cycles = .ok (.ready d) ∧
    first (fun j => d.address_map.mem (word (0x200 + j.toNat))) 5 = [0, 3, 3, 9, 200] ∧
    d.address_map.mem 0x205 = 7 := by
  obtain ⟨cycles, d, m, h1, -, rfl, h2, -⟩ := C135_mos (b := .debug) (c := sortMos) (Mos.flatRam_coherent _)
    (flatRam_acceptsAt _ _) mosBase_placed locOf_inj rfl rfl sortMos_code (by decide +kernel)
  exact ⟨cycles, d, h1, sorted_eq h2 (l' := unsorted) (by decide +kernel) (by decide +kernel) (by decide +kernel),
    (h2.rest 5 (by decide +kernel)).trans (by decide +kernel)⟩

/-- So does the CHIP-8. -/
example (env : Nat → Chip8.Env) : ∃ n c, Chip8.run .release env sortChip8 n = .ok (.ready c) ∧
    first (fun j => c.address_space.mem (word (0x800 + j.toNat))) 5 = [0, 3, 3, 9, 200] ∧
    c.address_space.mem 0x805 = 7 := by
  obtain ⟨n, c, m, h1, -, rfl, h2, -⟩ := C135_chip8 (b := .release) (c := sortChip8) (Mos.flatRam_coherent _)
    (flatRam_acceptsAt _ _) chip8Base_placed regOf_inj (by rintro ⟨⟩ <;> decide) rfl rfl sortChip8_code
    (by decide +kernel) env
  exact ⟨n, c, h1, sorted_eq h2 (l' := unsorted) (by decide +kernel) (by decide +kernel) (by decide +kernel),
    (h2.rest 5 (by decide +kernel)).trans (by decide +kernel)⟩

/-- `while i = i { data[i] := v }`, which does not end. -/
def stuck : Program Var Arr := .loop (.eq .i .i) (.act (.write .data .i .v))

theorem stuck_endless {k : Costs (Action Var Arr) (Guard Var)} (s : State Var Arr) :
    ¬ Ends (arrays Var Arr) k stuck s := by
  rintro ⟨n, s', h⟩
  have : ∀ {c : Program Var Arr} {s s' : State Var Arr} {n : Nat}, Exec (arrays Var Arr) k c s n s' → c = stuck → False := by
    intro c s s' n h
    induction h with
    | loopTrue _ _ _ _ ih => intro e; exact ih e
    | loopFalse hg => intro e; cases e; exact hg rfl
    | _ => intro e; cases e
  exact this h rfl

/-- The 6502 runs it for ever without leaving the code or touching the memory above the arrays. -/
example (cycles : Nat) : ∃ d q, Mos.run .release (mosAt400 (fun _ => 3) ((Mos.mosArrays locOf mosBase).compile 0x400 stuck))
    cycles = .ok (.ready d) ∧ d.pc = word q ∧ 0x400 ≤ q ∧ q < 0x413 ∧ d.address_map.mem 0x1ff = 3 := by
  obtain ⟨d, q, h1, h2, h3, h4, -, m, rfl, h5⟩ := C134_mos_endless (b := .release) (prog := stuck)
    (c := mosAt400 (fun _ => 3) ((Mos.mosArrays locOf mosBase).compile 0x400 stuck)) (Mos.flatRam_coherent _)
    (flatRam_acceptsAt _ _) mosBase_placed locOf_inj rfl rfl
    (mosAt400_code (by decide +kernel) (by rintro ⟨⟩ <;> decide)) (by decide +kernel) (stuck_endless _) cycles
  refine ⟨d, q, h1, h2, h3, h4, h5 0x1ff (by decide) ?_⟩
  rintro ⟨⟨⟩, h⟩ <;> revert h <;> decide

/-- And the CHIP-8. -/
example (env : Nat → Chip8.Env) (n : Nat) : ∃ c, Chip8.run .debug env
      (chip8At200 (fun _ => 3) (fun _ => 3) ((Chip8.chip8Arrays regOf chip8Base).compile 0x200 stuck)) n = .ok (.ready c) ∧
    0x200 ≤ c.pc.toNat ∧ c.pc.toNat < 0x20e ∧ c.address_space.mem 0xa00 = 3 := by
  obtain ⟨σ, i, bus, m, q, h1, h2, h3, rfl, h5⟩ := Chip8.C134_chip8_endless (b := .debug) (prog := stuck)
    (c := chip8At200 (fun _ => 3) (fun _ => 3) ((Chip8.chip8Arrays regOf chip8Base).compile 0x200 stuck))
    (Mos.flatRam_coherent _) (flatRam_acceptsAt _ _) chip8Base_placed regOf_inj (by rintro ⟨⟩ <;> decide) rfl rfl
    (chip8At200_code (by decide +kernel) (by decide +kernel) (by rintro ⟨⟩ <;> decide)) (by decide +kernel)
    (stuck_endless _) env n
  change q < 0x200 + 14 at h3
  have e : (BitVec.ofNat 16 q).toNat = q := by rw [BitVec.toNat_ofNat]; omega
  refine ⟨_, h1, ?_, ?_, h5 0xa00 ?_⟩
  · show 0x200 ≤ (BitVec.ofNat 16 q).toNat
    rw [e]
    exact h2
  · show (BitVec.ofNat 16 q).toNat < 0x20e
    rw [e]
    exact h3
  · rintro ⟨⟨⟩, h⟩ <;> revert h <;> decide

/-- Two machines with the same start, and their common result: the variables differ in where they lie only. -/
example (env : Nat → Chip8.Env) : ∃ n c cycles d, Chip8.run .debug env sortChip8 n = .ok (.ready c) ∧
    Mos.run .debug sortMos cycles = .ok (.ready d) ∧
    Chip8.stateOf regOf chip8Base c c.address_space.mem = Mos.stateOf locOf mosBase d.address_map.mem := by
  have hsame : Chip8.stateOf regOf chip8Base sortChip8
      sortChip8.address_space.mem =
      Mos.stateOf locOf mosBase sortMos.address_map.mem := by
    show State.mk _ _ = State.mk _ _
    congr 1
    · funext x
      cases x <;> decide +kernel
    · funext t
      cases t <;> (funext j; revert j; decide +kernel)
  obtain ⟨n', c', m', e1, e2, -⟩ := C135_chip8 (b := .debug) (c := sortChip8)
    (Mos.flatRam_coherent _) (flatRam_acceptsAt _ _) chip8Base_placed regOf_inj (by rintro ⟨⟩ <;> decide) rfl rfl
    sortChip8_code (by decide +kernel) env
  obtain ⟨n, c, m, cycles, d, m', h1, h2, -, -, rfl, rfl, h3, -⟩ := C134_agree (b := .debug) (b' := .debug)
    (Mos.flatRam_coherent _) (flatRam_acceptsAt _ _) chip8Base_placed regOf_inj (by rintro ⟨⟩ <;> decide) rfl rfl
    sortChip8_code (by decide +kernel)
    (Mos.flatRam_coherent _) (flatRam_acceptsAt _ _) mosBase_placed locOf_inj (d := sortMos) rfl rfl sortMos_code
    (by decide +kernel) hsame env ⟨n', c', e1, e2⟩
  exact ⟨n, c, cycles, d, h1, h2, h3⟩

end

end Verif.Props
