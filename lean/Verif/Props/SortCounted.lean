import Verif.Props.Mos.ArraysTimed

/-!
# C144: how many instructions the counting sort takes on the two machines
-/

namespace Verif.Props

open Verif Verif.Spec.Flow Verif.Flow Verif.Spec.Sort Verif.Sort
open Verif.Spec.Mos (Mem Coherent AcceptsAt word)

section
variable {B R : Type} [Addressable B] {b : Build} {I : B → Mem → Prop} {mem : Mem} {p : Nat} {base : Arr → Nat}

theorem chip8_uniform : Uniform (Chip8.chip8ArrayCosts Var Arr) 1 1 4 4 1 :=
  ⟨fun _ _ => rfl, fun _ _ => rfl, fun _ _ _ => rfl, fun _ _ _ => rfl, fun _ => rfl⟩

theorem mos_uniform : Uniform (Mos.mosArrayCosts Var Arr) 2 4 3 3 3 :=
  ⟨fun _ _ => rfl, fun _ _ => rfl, fun _ _ _ => rfl, fun _ _ _ => rfl, fun _ => rfl⟩

/-- C144 on the CHIP-8: `run` with exactly the steps of the formula ends exactly behind the code, with the
values sorted. With fewer steps the machine is still inside the code. -/
theorem C144_chip8 {c : Chip8.Chip8 B R} {reg : Var → Fin 15}
    (hI : Coherent b I) (hacc : AcceptsAt b I fun a => InArray base a.toNat) (hP : Placed base 0 4096)
    (hr : ∀ x y, reg x = reg y → x = y) (h0 : ∀ x, reg x ≠ 0) (hm : I c.address_space mem)
    (hpc : c.pc = BitVec.ofNat 16 p) (hcode : Chip8.CodeIn base mem p ((Chip8.chip8Arrays reg base).compile p sort))
    (hp : p + (Chip8.chip8Arrays reg base).size sort < 4096) {l : List Byte}
    (hl : l = first (fun j => mem (word (base .data + j.toNat))) (Chip8.vars c (reg .n)).toNat)
    (env : Nat → Chip8.Env) :
    (∃ c' m, Chip8.run b env c (chip8SortInstructions l) = .ok (.ready c') ∧
      c'.pc.toNat = p + (Chip8.chip8Arrays reg base).size sort ∧ I c'.address_space m ∧
      Sorted (Chip8.vars c (reg .n)).toNat (fun j => mem (word (base .data + j.toNat)))
        (fun j => m (word (base .data + j.toNat))) ∧
      ∀ a : Word, ¬ InArray base a.toNat → m a = mem a) ∧
    ∀ n, n < chip8SortInstructions l → ∃ c', Chip8.run b env c n = .ok (.ready c') ∧
      p ≤ c'.pc.toNat ∧ c'.pc.toNat < p + (Chip8.chip8Arrays reg base).size sort := by
  obtain ⟨s, h⟩ := sort_counts chip8_uniform (Chip8.stateOf reg base c mem) hl
  replace h := exec_cast h (m := chip8SortInstructions l) (by unfold chip8SortInstructions; omega)
  obtain ⟨s', ⟨n, h'⟩, -, hs⟩ := sort_does (k := Chip8.chip8ArrayCosts Var Arr) (Chip8.stateOf reg base c mem)
  obtain rfl := (exec_unique h' h).2
  refine ⟨?_, fun n hn => ?_⟩
  · obtain ⟨σ, i, bus, m, e1, e2, e3, e4⟩ := Chip8.C134_chip8_result hI hacc hP hr h0 hm hpc hcode hp h env
    refine ⟨_, m, e1, ?_, e2, ?_, e4.other⟩
    · show (BitVec.ofNat 16 _).toNat = _
      rw [BitVec.toNat_ofNat]
      omega
    · rw [show (fun j : Byte => m (word (base .data + j.toNat))) = s'.arr .data from funext (e4.arr .data)]
      exact hs
  · obtain ⟨d, hw, -⟩ := compile_exec (Chip8.chip8Arrays_works hI hacc hP hr h0) h hcode (by omega)
      (Chip8.arraysAt_self hm hpc)
    obtain ⟨u, hu⟩ := hw.take (m := n + 1) (by omega)
    obtain ⟨v, q, hv, hq, h1, h2⟩ := hu.last
    have hrun := Chip8.flow_run hv env 0 0
    rw [Nat.add_zero] at hrun
    obtain ⟨σ, i, bus, m, rfl, -⟩ := hq
    refine ⟨_, by unfold Chip8.run; rw [hrun]; rfl, ?_⟩
    show p ≤ (BitVec.ofNat 16 q).toNat ∧ (BitVec.ofNat 16 q).toNat < _
    rw [BitVec.toNat_ofNat, Nat.mod_eq_of_lt (by omega)]
    exact ⟨h1, h2⟩

/-- C144 on the 6502: the cycles of `C143` are those of exactly as many instructions as the other formula
says. -/
theorem C144_mos {c : Mos.Mos6502 B} {loc : Var → Byte}
    (hI : Coherent b I) (hacc : AcceptsAt b I (Mos.Written base)) (hP : Placed base 256 65536)
    (hloc : ∀ x y, loc x = loc y → x = y) (hm : I c.address_map mem) (hpc : c.pc = word p)
    (hcode : Mos.ProgramIn base mem p ((Mos.mosArrays loc base).compile p sort))
    (hp : p + (Mos.mosArrays loc base).size sort ≤ 65532) {l : List Byte}
    (hl : l = first (fun j => mem (word (base .data + j.toNat))) (mem (Mos.zp (loc .n))).toNat) :
    ∃ ls d m, Spec.Mos.Instructions b c ls d ∧ ls.length = mosSortInstructions l ∧
      Spec.Mos.totalCycles ls = sortCycles p (base .data) (base .count) l ∧
      d.pc = word (p + (Mos.mosArrays loc base).size sort) ∧ I d.address_map m ∧
      Sorted (mem (Mos.zp (loc .n))).toNat (fun j => mem (word (base .data + j.toNat)))
        (fun j => m (word (base .data + j.toNat))) := by
  obtain ⟨s, h⟩ := sort_counts mos_uniform (Mos.stateOf loc base mem) hl
  replace h := exec_cast h (m := mosSortInstructions l) (by unfold mosSortInstructions; omega)
  obtain ⟨s', ⟨n, h'⟩, -, hs⟩ := sort_does (k := Mos.mosArrayCosts Var Arr) (Mos.stateOf loc base mem)
  obtain rfl := (exec_unique h' h).2
  obtain ⟨t, ht⟩ := sort_takes (loc := loc) (base := base) p (Mos.stateOf loc base mem)
  obtain ⟨k, hk, hk'⟩ := takes_counted (K := Mos.mosArrayCosts Var Arr) ht
  obtain ⟨rfl, rfl⟩ := exec_unique hk h
  obtain ⟨d, ⟨ls, h1, h2, h3⟩, h4, -, m, h5, h6⟩ := takes_reaches (Mos.mosArrays_tworks hI hacc hP hloc) hk' hcode hp
    (Mos.arraysAt_self hm hpc)
  refine ⟨ls, d, m, h1, h3, ?_, h4, h5, ?_⟩
  · rw [hl]
    exact h2
  · rw [show (fun j : Byte => m (word (base .data + j.toNat))) = t.arr .data from funext (h6.arr .data)]
    exact hs

/-- C144: how long the sort takes does not depend on the order of the values, on neither machine, wherever
code and arrays lie. -/
theorem C144_order {l l' : List Byte} (h : l.Perm l') (p data count : Nat) :
    chip8SortInstructions l = chip8SortInstructions l' ∧ mosSortInstructions l = mosSortInstructions l' ∧
      sortCycles p data count l = sortCycles p data count l' := by
  have e : (l.map fun v => indexPenalty count v.toNat).sum = (l'.map fun v => indexPenalty count v.toNat).sum :=
    (h.map _).sum_nat
  unfold chip8SortInstructions mosSortInstructions sortCycles
  rw [h.length_eq, rounds_perm h, e]
  exact ⟨rfl, rfl, rfl⟩

/-- C144: an instruction of the 6502 sort takes between 2.8 and 3.03 cycles on average, with any page
crossings. -/
theorem C144_cycles_per_instruction (p data count : Nat) (l : List Byte) :
    14 * mosSortInstructions l ≤ 5 * sortCycles p data count l ∧
      100 * sortCycles p data count l ≤ 303 * mosSortInstructions l := by
  have := C143_bounds p data count l
  unfold mosSortInstructions
  omega

end

/-! ### Concrete cases -/

section
open Verif.Mos (FlatRam)

/-- The CHIP-8 sorts 9, 3, 200, 3, 0 in 1801 + 5 · 24 + 201 · 9 = 3730 steps. -/
example (env : Nat → Chip8.Env) : ∃ c, Chip8.run .release env sortChip8 3730 = .ok (.ready c) ∧
    first (fun j => c.address_space.mem (word (0x800 + j.toNat))) 5 = [0, 3, 3, 9, 200] := by
  obtain ⟨c, m, h1, -, rfl, h2, -⟩ := (C144_chip8 (b := .release) (c := sortChip8) (Mos.flatRam_coherent _)
    (flatRam_acceptsAt _ _) chip8Base_placed regOf_inj (by rintro ⟨⟩ <;> decide) rfl rfl sortChip8_code
    (by decide +kernel) (l := unsorted) (by decide +kernel) env).1
  exact ⟨c, h1, sorted_eq h2 (l' := unsorted) (by decide +kernel) (by decide +kernel) (by decide +kernel)⟩

/-- With one step less it is not behind the code. -/
example (env : Nat → Chip8.Env) : ∃ c, Chip8.run .debug env sortChip8 3729 = .ok (.ready c) ∧
    0x200 ≤ c.pc.toNat ∧ c.pc.toNat < 0x200 + (Chip8.chip8Arrays regOf chip8Base).size sort :=
  (C144_chip8 (b := .debug) (c := sortChip8) (Mos.flatRam_coherent _)
    (flatRam_acceptsAt _ _) chip8Base_placed regOf_inj (by rintro ⟨⟩ <;> decide) rfl rfl sortChip8_code
    (by decide +kernel) (l := unsorted) (by decide +kernel) env).2 3729 (by decide)

/-- The 6502 executes 2834 + 5 · 36 + 201 · 15 = 6029 instructions for them. -/
example : ∃ ls d, Spec.Mos.Instructions .debug sortMos ls d ∧ ls.length = 6029 ∧ Spec.Mos.totalCycles ls = 17205 ∧ d.pc = 0x4a6 := by
  obtain ⟨ls, d, m, h1, h2, h3, h4, -⟩ := C144_mos (b := .debug) (c := sortMos) (p := 0x400) (Mos.flatRam_coherent _)
    (flatRam_acceptsAt _ _) mosBase_placed locOf_inj rfl rfl sortMos_code (by decide +kernel) (l := unsorted)
    (by decide +kernel)
  exact ⟨ls, d, h1, h2, h3.trans (C143_aligned (by decide) (by decide) (by decide) (by decide)), h4⟩

/-- The same time for the values in ascending order. -/
example : chip8SortInstructions unsorted = chip8SortInstructions [0, 3, 3, 9, 200] :=
  (C144_order (by decide) 0 0 0).1

end

end Verif.Props
