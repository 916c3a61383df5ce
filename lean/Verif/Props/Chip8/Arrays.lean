import Verif.Proofs.Flow
import Verif.Proofs.StructuredMap
import Verif.Props.Chip8.Structured
import Verif.Proofs.MosProgram

/-!
# C134: structured programs with arrays on the CHIP-8
-/

namespace Verif.Props.Chip8

open Verif Verif.Chip8 Verif.Spec.Chip8 Verif.Spec.Flow Verif.Flow
open Verif.Spec.Structured (Act Guard Store put)
open Verif.Spec.Mos (Mem BusView Coherent AcceptsAt upd)

section
variable {ι κ : Type}

/-- The CHIP-8 as a target for programs with arrays: variables are V1 to VE, an array access is
`LD I, t; ADD I, Vi; LD V0, [I]; LD Vx, V0` or `LD I, t; ADD I, Vi; LD V0, Vx; LD [I], V0`. -/
def chip8Arrays (reg : ι → Fin 15) (base : κ → Nat) : Target (Action ι κ) (Guard ι) Nat where
  width := 2
  jumpSize := 2
  act
    | .base a => chip8Target.act (a.map reg)
    | .read x t i => [0xA000 + base t, 0xF01E + reg i * 0x100, 0xF065, 0x8000 + reg x * 0x100]
    | .write t i x => [0xA000 + base t, 0xF01E + reg i * 0x100, 0x8000 + reg x * 0x10, 0xF055]
  test g := chip8Target.test (g.map reg)
  jump l := [0x1000 + l]

/-- The instructions of the actions and tests. -/
def chip8ArrayCosts (ι κ : Type) : Costs (Action ι κ) (Guard ι) where
  act
    | .base _ => 1
    | .read _ _ _ | .write _ _ _ => 4
  test _ := 1

end

/-- The machine `c` with another I and another bus. -/
def over {B R : Type} (c : Chip8 B R) (i : Word) (bus : B) : Chip8 B R := { c with i := i, address_space := bus }

section
variable {ι κ : Type} {B R : Type}

/-- The machine is at `q`; but for V0 to VE, I, the program counter and the arrays it is as `c` with
the memory `mem₀`. -/
def Here (I : B → Mem → Prop) (base : κ → Nat) (c : Chip8 B R) (mem₀ : Mem) (q : Nat) (d : Chip8 B R) : Prop :=
  ∃ σ i bus mem, d = withVars (over c i bus) σ q ∧ I bus mem ∧
    ∀ a : Word, ¬ InArray base a.toNat → mem a = mem₀ a

/-- The memory `mem` holds the arrays of the state `s`; outside it is as in `mem₀`. -/
structure HoldsArrays (base : κ → Nat) (mem₀ : Mem) (s : State ι κ) (mem : Mem) : Prop where
  arr : ∀ t j, mem (BitVec.ofNat 16 (base t + j.toNat)) = s.arr t j
  other : ∀ a : Word, ¬ InArray base a.toNat → mem a = mem₀ a

/-- The registers `σ` hold the variables of the state `s`; apart from V0, the others are as `σ₀`. -/
structure HoldsVars (reg : ι → Fin 15) (σ₀ : Store (Fin 15)) (s : State ι κ) (σ : Store (Fin 15)) : Prop where
  var : ∀ x, σ (reg x) = s.var x
  other : ∀ y, y ≠ 0 → (∀ x, reg x ≠ y) → σ y = σ₀ y

/-- The machine is at `q`, and registers and memory hold the state `s`; the rest is as in `c`. -/
def ArraysAt (I : B → Mem → Prop) (reg : ι → Fin 15) (base : κ → Nat) (c : Chip8 B R) (mem₀ : Mem) (s : State ι κ)
    (q : Nat) (d : Chip8 B R) : Prop :=
  ∃ σ i bus mem, d = withVars (over c i bus) σ q ∧ I bus mem ∧ HoldsVars reg (vars c) s σ ∧ HoldsArrays base mem₀ s mem

/-- The words `ws` lie at `p`, outside the arrays. -/
def CodeIn (base : κ → Nat) (mem : Mem) (p : Nat) (ws : List Nat) : Prop :=
  CodeAt mem p ws ∧ ∀ k, k < 2 * ws.length → ¬ InArray base (p + k)

variable [Addressable B] {b : Build} {I : B → Mem → Prop} {c : Chip8 B R} {mem₀ mem : Mem} {p q : Nat}
  {reg : ι → Fin 15} {base : κ → Nat} {s : State ι κ} {σ : Store (Fin 15)} {i : Word} {bus : B}

omit [Addressable B] in
theorem here_of (hm : I bus mem) (h : HoldsArrays base mem₀ s mem) :
    Here I base c mem₀ q (withVars (over c i bus) σ q) := ⟨σ, i, bus, mem, rfl, hm, h.other⟩

theorem CodeIn.current {ws : List Nat} (h : CodeIn base mem₀ p ws) (hm : HoldsArrays base mem₀ s mem) : CodeAt mem p ws := by
  obtain ⟨⟨h1, h2⟩, h3⟩ := h
  refine ⟨h1, fun k w hw => ?_⟩
  have hk : k < ws.length := by
    rw [List.getElem?_eq_some_iff] at hw
    exact hw.1
  rw [← h2 k w hw]
  unfold wordAt
  rw [hm.other, hm.other]
  · have e : (BitVec.ofNat 16 (p + 2 * k) + 1).toNat = p + (2 * k + 1) := by
      rw [BitVec.toNat_add, BitVec.toNat_ofNat]
      show (_ + 1) % _ = _
      omega
    rw [e]
    exact h3 _ (by omega)
  · rw [toNat_ofNat_lt (by omega)]
    exact h3 _ (by omega)

theorem CodeIn.split {u v : List Nat} (h : CodeIn base mem₀ p (u ++ v)) :
    CodeIn base mem₀ p u ∧ CodeIn base mem₀ (p + 2 * u.length) v := by
  obtain ⟨⟨h1, h2⟩, h3⟩ := h
  rw [List.length_append] at h1 h3
  refine ⟨⟨⟨by omega, fun i w h => h2 i w ?_⟩, fun k hk => h3 k (by omega)⟩, ⟨⟨by omega, fun i w h => ?_⟩, fun k hk => ?_⟩⟩
  · rw [List.getElem?_append_left (by rw [List.getElem?_eq_some_iff] at h; exact h.1)]
    exact h
  · have := h2 (u.length + i) w (by rw [List.getElem?_append_right (by omega)]; simpa using h)
    rw [show p + 2 * (u.length + i) = p + 2 * u.length + 2 * i by omega] at this
    exact this
  · have := h3 (2 * u.length + k) (by omega)
    rwa [← Nat.add_assoc] at this

theorem inArray_word (hP : Placed base 0 4096) (t : κ) (j : Byte) :
    (BitVec.ofNat 16 (base t + j.toNat)).toNat = base t + j.toNat ∧
      InArray base (BitVec.ofNat 16 (base t + j.toNat)).toNat := by
  have := hP.top t
  have hj := j.isLt
  have e : (BitVec.ofNat 16 (base t + j.toNat)).toNat = base t + j.toNat := toNat_ofNat_lt (by omega)
  exact ⟨e, t, by omega, by omega⟩

theorem holds_arr [DecidableEq κ] (hP : Placed base 0 4096) (h : HoldsArrays base mem₀ s mem) (t : κ) (i v : Byte) :
    HoldsArrays base mem₀ (ι := ι) { s with arr := fun t' j => if t' = t ∧ j = i then v else s.arr t' j }
      (upd mem (BitVec.ofNat 16 (base t + i.toNat)) v) where
  arr t' j := by
    show (if BitVec.ofNat 16 (base t' + j.toNat) = BitVec.ofNat 16 (base t + i.toNat) then v
      else mem (BitVec.ofNat 16 (base t' + j.toNat))) = if t' = t ∧ j = i then v else s.arr t' j
    by_cases e : t' = t ∧ j = i
    · rw [if_pos e, if_pos (by rw [e.1, e.2])]
    · rw [if_neg e, if_neg, h.arr]
      intro e'
      have e' := congrArg BitVec.toNat e'
      rw [(inArray_word hP t i).1, (inArray_word hP t' j).1] at e'
      have hi := i.isLt
      have hj := j.isLt
      by_cases ht : t' = t
      · subst ht
        exact e ⟨rfl, BitVec.eq_of_toNat_eq (by omega)⟩
      · have := hP.apart _ _ ht
        omega
  other a hn := by
    show (if a = BitVec.ofNat 16 (base t + i.toNat) then v else mem a) = _
    rw [if_neg, h.other a hn]
    rintro rfl
    exact hn (inArray_word hP t i).2

theorem holdsVars_put [DecidableEq ι] {σ₀ : Store (Fin 15)} (hr : ∀ x y, reg x = reg y → x = y)
    (h : HoldsVars reg σ₀ s σ) (x : ι) (v : Byte) :
    HoldsVars reg σ₀ { s with var := put s.var x v } (put σ (reg x) v) where
  var y := by
    show (if reg y = reg x then v else σ (reg y)) = if y = x then v else s.var y
    by_cases e : y = x
    · rw [if_pos e, if_pos (by rw [e])]
    · rw [if_neg e, if_neg (fun e' => e (hr _ _ e')), h.var]
  other y hy hn := by
    show (if y = reg x then v else σ y) = _
    rw [if_neg (fun e => hn x e.symm), h.other y hy hn]

theorem holdsVars_scratch {σ₀ : Store (Fin 15)} (h0 : ∀ x, reg x ≠ 0) (h : HoldsVars reg σ₀ s σ) (v : Byte) :
    HoldsVars reg σ₀ s (put σ 0 v) where
  var y := by
    show (if reg y = 0 then v else σ (reg y)) = _
    rw [if_neg (h0 y), h.var]
  other y hy hn := by
    show (if y = 0 then v else σ y) = _
    rw [if_neg hy, h.other y hy hn]

/-! ### The instructions -/

theorem next_ldI (hv : BusView b bus mem) {w : Nat} (hw : w < 4096) (hp : p < 4096)
    (hc : CodeAt mem p [0xA000 + w]) :
    Next b (withVars (over c i bus) σ p) (withVars (over c (BitVec.ofNat 16 w) bus) σ (p + 2)) := by
  have e : (BitVec.ofNat 16 w).toNat = w := toNat_ofNat_lt (by omega)
  refine next_op (op := .LdAbsolute ⟨BitVec.ofNat 16 w⟩) hv (code_eq (by simp only [encode, nnn, e]) hc)
    (by show (BitVec.ofNat 16 w).toNat < 4096; omega) ⟨fun h => h, fun h => h.2⟩ rfl
    (by rintro (h | ⟨a, h⟩) <;> cases h) fun e => ?_
  show advance (withVars (over c (BitVec.ofNat 16 w) bus) σ p) 2 = _
  rw [advance_withVars hp]

theorem next_addI (hv : BusView b bus mem) (hp : p < 4096) {x : Fin 15}
    (hc : CodeAt mem p [0xF01E + x * 0x100]) :
    Next b (withVars (over c i bus) σ p)
      (withVars (over c (BitVec.ofNat 16 (i.toNat + (σ x).toNat)) bus) σ (p + 2)) := by
  have hx := num_regOf (k := x) (by omega)
  refine next_op (op := .AddIRegisterIndexed (regOf x)) hv (code_eq (by
      have e : (0x1E : Byte).toNat = 0x1E := rfl
      simp only [encode, xkk, hx, e]; omega) hc)
    trivial ⟨regOf_ne_Vf x.isLt, fun h => h.2⟩ rfl (by rintro (h | ⟨a, h⟩) <;> cases h) fun e => ?_
  show advance (withVars (over c (BitVec.ofNat 16 (i.toNat + (V (withVars (over c i bus) σ p) (regOf x)).toNat)) bus) σ p) 2 = _
  rw [advance_withVars hp, V_withVars]

theorem load_first (v : Nat → Byte) : loadRegs (Vector.ofFn σ) 1 v = Vector.ofFn (put σ 0 (v 0)) := by
  apply Vector.ext
  intro k hk
  unfold loadRegs
  rw [Vector.getElem_mapFinIdx]
  simp only [Vector.getElem_ofFn, put, Fin.ext_iff]
  rcases k with _ | k
  · rfl
  · rw [if_neg (by omega), if_neg (by show ¬ (k + 1 = 0); omega)]

theorem next_load (hv : BusView b bus mem) (hp : p < 4096) (hi : i.toNat < 65536) (hc : CodeAt mem p [0xF065]) :
    Next b (withVars (over c i bus) σ p) (withVars (over c i bus) (put σ 0 (mem i)) (p + 2)) := by
  refine next_op (op := .ReadRegistersFromMemory .V0) hv (code_eq rfl hc)
    trivial ⟨(by intro h; cases h), fun h => ?_⟩ rfl (by rintro (h | ⟨a, h⟩) <;> cases h) fun e => ?_
  · have h2 : 65536 ≤ i.toNat + 0 := h.2
    omega
  · show advance { withVars (over c i bus) σ p with
      gp_registers := loadRegs (Vector.ofFn σ) 1 (fun k => mem (i + BitVec.ofNat 16 k)) } 2 = _
    rw [load_first]
    show advance (withVars (over c i bus) (put σ 0 (mem (i + 0#16))) p) 2 = _
    rw [advance_withVars hp, BitVec.add_zero]

theorem next_copy (hv : BusView b bus mem) (hp : p < 4096) {x y : Fin 15}
    (hc : CodeAt mem p [0x8000 + x * 0x100 + y * 0x10]) :
    Next b (withVars (over c i bus) σ p) (withVars (over c i bus) (put σ x (σ y)) (p + 2)) := by
  have hx := num_regOf (k := x) (by omega)
  have hy := num_regOf (k := y) (by omega)
  refine next_op (op := .LdVxVy (regOf x) (regOf y)) hv (code_eq (by simp only [encode, xyn, hx, hy]; omega) hc)
    trivial ⟨fun h => h.elim (regOf_ne_Vf x.isLt) (regOf_ne_Vf y.isLt), fun h => h.2⟩ rfl
    (by rintro (h | ⟨a, h⟩) <;> cases h) fun e => ?_
  show advance (setV _ _ (V _ _)) 2 = _
  rw [setV_withVars, advance_withVars hp, V_withVars]

theorem next_store {W : Word → Prop} (hI : Coherent b I) (hacc : AcceptsAt b I W) (hm : I bus mem) (hp : p < 4096)
    (hi : i.toNat < 65536) (hW : W i) (hc : CodeAt mem p [0xF055]) :
    ∃ bus', Next b (withVars (over c i bus) σ p) (withVars (over c i bus') σ (p + 2)) ∧ I bus' (upd mem i (σ 0)) := by
  have hv := (hI _ _ hm).1
  obtain ⟨r, bus', hw⟩ := hacc bus mem hm i hW (σ 0)
  refine ⟨bus', ?_, (hI _ _ hm).2 i (σ 0) r bus' hw⟩
  have hpc : (withVars (over c i bus) σ p).pc = BitVec.ofNat 16 p := rfl
  have hat : At b (withVars (over c i bus) σ p) (.StoreRegistersToMemory .V0) := by
    refine (C40_fetch hv ?_ _).2 ⟨trivial, ?_⟩
    · rw [hpc, toNat_ofNat_lt (by omega)]; omega
    · rw [hpc]
      exact hc.2 0 _ rfl
  intro env k n
  refine loop_step (fun t => ?_) n
  have := step_ok (e := { env k with foldAt := t }) (mem := mem) hat
    ⟨(by intro h; cases h), fun h => absurd (show 65536 ≤ i.toNat + 0 from h.2) (by omega)⟩ (fun _ => hv)
    (by rintro (h | ⟨a, h⟩) <;> cases h)
  unfold StepWrites at this
  unfold StepsTo
  rw [this]
  have e1 : writes (withVars (over c i bus) σ p) (.StoreRegistersToMemory .V0) = [(i, σ 0)] := by
    show [(i + BitVec.ofNat 16 0, V (withVars (over c i bus) σ p) (regOf (0 : Fin 15)))] = _
    rw [V_withVars]
    show [(i + 0#16, _)] = _
    rw [BitVec.add_zero]
  rw [e1]
  show (Spec.Mos.writeAll b bus [(i, σ 0)]).map _ = _
  rw [Spec.Mos.writeAll, hw]
  show Except.ok (Verif.StepState.ready { advance (withVars (over c i bus) σ p) 2 with address_space := bus' }) = _
  rw [advance_withVars hp]
  rfl

/-- The parts of the code work on the emulator. -/
theorem chip8Arrays_works [DecidableEq ι] [DecidableEq κ] (hI : Coherent b I)
    (hacc : AcceptsAt b I fun a => InArray base a.toNat) (hP : Placed base 0 4096)
    (hr : ∀ x y, reg x = reg y → x = y) (h0 : ∀ x, reg x ≠ 0) :
    Works (arrays ι κ) (chip8Arrays reg base) (chip8ArrayCosts ι κ) (Next b) (ArraysAt I reg base c mem₀)
      (Here I base c mem₀) (CodeIn base mem₀) 4095 where
  jumpSize l := rfl
  append h := h.split
  act := by
    rintro p a s d hc hp ⟨σ, i, bus, mem, rfl, hm, hσ, hmem⟩
    have hv := (hI _ _ hm).1
    have hcode := hc.current hmem
    cases a with
    | base a =>
      obtain ⟨t, h1, rfl⟩ := (chip8_works (b := b) (c := over c i bus) hv).act (a := a.map reg) (σ := σ) hcode hp rfl
      have h2 : Path (Next b) (Here I base c mem₀) p (p + (chip8Arrays reg base).bytes (chip8Target.act (a.map reg)))
          (chip8Costs.act (a.map reg)) (withVars (over c i bus) σ p)
          (withVars (over c i bus) ((a.map reg).eval σ) (p + (chip8Arrays reg base).bytes (chip8Target.act (a.map reg)))) := by
        refine Path.of h1 ?_
        rintro σ' q d rfl
        exact here_of hm hmem
      have h3 : HoldsVars reg (vars c) ((arrays ι κ).eval (.base a) s) ((a.map reg).eval σ) := by
        refine ⟨fun x => ?_, fun y hy hn => ?_⟩
        · have := congrFun (Spec.Structured.eval_map hr a σ) x
          rw [show (fun y => σ (reg y)) = s.var from funext hσ.var] at this
          exact this
        · rw [Spec.Structured.eval_map_other a σ hn]
          exact hσ.other y hy hn
      exact ⟨_, h2, _, i, bus, mem, rfl, hm, h3, hmem.arr, hmem.other⟩
    | read x t i' =>
      change p + 8 ≤ 4095 at hp
      have ht := hP.top t
      obtain ⟨c1, hc⟩ := CodeIn.split (u := [0xA000 + base t]) (v := [_, _, _]) hc
      obtain ⟨c2, hc⟩ := CodeIn.split (u := [0xF01E + reg i' * 0x100]) (v := [_, _]) hc
      obtain ⟨c3, c4⟩ := CodeIn.split (u := [0xF065]) (v := [_]) hc
      have n1 := next_ldI (c := c) (i := i) (σ := σ) hv (by omega) (by omega) (c1.current hmem)
      have n2 := next_addI (c := c) (i := BitVec.ofNat 16 (base t)) (σ := σ) hv (by show p + 2 < 4096; omega)
        (c2.current hmem)
      rw [toNat_ofNat_lt (by omega), hσ.var] at n2
      have n3 := next_load (c := c) (i := BitVec.ofNat 16 (base t + (s.var i').toNat)) (σ := σ) hv
        (by show p + 2 + 2 < 4096; omega) (BitVec.isLt _) (c3.current hmem)
      rw [hmem.arr] at n3
      have n4 := next_copy (c := c) (i := BitVec.ofNat 16 (base t + (s.var i').toNat)) (x := reg x) (y := 0)
        (σ := put σ 0 (s.arr t (s.var i'))) hv (by show p + 2 + 2 + 2 < 4096; omega) (c4.current hmem)
      refine ⟨_, .cons (here_of hm hmem) (Nat.le_refl _) (by show p < p + 8; omega) n1 (.cons (here_of hm hmem)
        (by omega) (by show p + 2 < p + 8; omega) n2 (.cons (here_of hm hmem) (by show p ≤ p + 2 + 2; omega)
        (by show p + 2 + 2 < p + 8; omega) n3 (.cons (here_of hm hmem) (by show p ≤ p + 2 + 2 + 2; omega)
        (by show p + 2 + 2 + 2 < p + 8; omega) n4 .nil))), _, _, bus, mem, rfl, hm, ?_, hmem.arr, hmem.other⟩
      exact holdsVars_put hr (holdsVars_scratch h0 hσ _) x _
    | write t i' x =>
      change p + 8 ≤ 4095 at hp
      have ht := hP.top t
      obtain ⟨c1, hc⟩ := CodeIn.split (u := [0xA000 + base t]) (v := [_, _, _]) hc
      obtain ⟨c2, hc⟩ := CodeIn.split (u := [0xF01E + reg i' * 0x100]) (v := [_, _]) hc
      obtain ⟨c3, c4⟩ := CodeIn.split (u := [0x8000 + reg x * 0x10]) (v := [_]) hc
      have n1 := next_ldI (c := c) (i := i) (σ := σ) hv (by omega) (by omega) (c1.current hmem)
      have n2 := next_addI (c := c) (i := BitVec.ofNat 16 (base t)) (σ := σ) hv (by show p + 2 < 4096; omega)
        (c2.current hmem)
      rw [toNat_ofNat_lt (by omega), hσ.var] at n2
      have n3 := next_copy (c := c) (i := BitVec.ofNat 16 (base t + (s.var i').toNat)) (x := 0) (y := reg x)
        (σ := σ) hv (by show p + 2 + 2 < 4096; omega) (c3.current hmem)
      rw [hσ.var] at n3
      obtain ⟨bus', n4, hm'⟩ := next_store (c := c) (i := BitVec.ofNat 16 (base t + (s.var i').toNat))
        (σ := put σ 0 (s.var x)) hI hacc hm (by show p + 2 + 2 + 2 < 4096; omega) (BitVec.isLt _)
        (inArray_word hP t _).2 (c4.current hmem)
      refine ⟨_, .cons (here_of hm hmem) (Nat.le_refl _) (by show p < p + 8; omega) n1 (.cons (here_of hm hmem)
        (by omega) (by show p + 2 < p + 8; omega) n2 (.cons (here_of hm hmem) (by show p ≤ p + 2 + 2; omega)
        (by show p + 2 + 2 < p + 8; omega) n3 (.cons (here_of hm hmem) (by show p ≤ p + 2 + 2 + 2; omega)
        (by show p + 2 + 2 + 2 < p + 8; omega) n4 .nil))), _, _, bus', _, rfl, hm', ?_, holds_arr hP hmem t _ _⟩
      exact ⟨(holdsVars_scratch h0 hσ _).var, (holdsVars_scratch h0 hσ _).other⟩
  test := by
    rintro p g s d hc hp ⟨σ, i, bus, mem, rfl, hm, hσ, hmem⟩
    have hv := (hI _ _ hm).1
    obtain ⟨t, h1, h2⟩ := (chip8_works (b := b) (c := over c i bus) hv).test (g := g.map reg) (σ := σ)
      (hc.current hmem) hp rfl
    have eg : (g.map reg).Holds σ ↔ g.Holds s.var := by
      rw [Spec.Structured.holds_map, show (fun y => σ (reg y)) = s.var from funext hσ.var]
    refine ⟨t, Path.of h1 ?_, fun hg => ?_, fun hg => ?_⟩
    · rintro σ' q d rfl
      exact here_of hm hmem
    · rw [if_pos (eg.2 hg)] at h2
      exact ⟨σ, i, bus, mem, h2, hm, hσ, hmem⟩
    · rw [if_neg (fun h => hg (eg.1 h))] at h2
      exact ⟨σ, i, bus, mem, h2, hm, hσ, hmem⟩
  jump := by
    rintro p l s d hc hp hl ⟨σ, i, bus, mem, rfl, hm, hσ, hmem⟩
    obtain ⟨t, h1, h2⟩ := (chip8_works (b := b) (c := over c i bus) (hI _ _ hm).1).jump (l := l) (σ := σ)
      (hc.current hmem) hp hl rfl
    refine ⟨t, Path.of h1 ?_, σ, i, bus, mem, h2, hm, hσ, hmem⟩
    rintro σ' q d rfl
    exact here_of hm hmem

theorem flow_run {here : Nat → Chip8 B R → Prop} {lo hi n : Nat} {d e : Chip8 B R}
    (h : Path (Next b) here lo hi n d e) (env : Nat → Env) (k m : Nat) :
    runLoop b env (n + m) k d d = runLoop b env m (k + n) e e := by
  induction h generalizing k with
  | nil => rw [Nat.zero_add, Nat.add_zero]
  | cons _ _ _ hs _ ih =>
    rw [Nat.add_right_comm, hs env k _, ih, Nat.add_right_comm, Nat.add_assoc]

/-- What registers and memory mean for a program with arrays. -/
def stateOf (reg : ι → Fin 15) (base : κ → Nat) (c : Chip8 B R) (mem : Mem) : State ι κ where
  var x := vars c (reg x)
  arr t j := mem (BitVec.ofNat 16 (base t + j.toNat))

omit [Addressable B] in
theorem arraysAt_self (hm : I c.address_space mem) (hpc : c.pc = BitVec.ofNat 16 p) :
    ArraysAt I reg base c mem (stateOf reg base c mem) p c :=
  ⟨vars c, c.i, c.address_space, mem, (withVars_self hpc).symm, hm, ⟨fun _ => rfl, fun _ _ _ => rfl⟩,
    fun _ _ => rfl, fun _ _ => rfl⟩

variable [DecidableEq ι] [DecidableEq κ] {prog : Program ι κ}

/-- C134 for the CHIP-8, programs that end: if a program ends after `n` instructions in the state
`s'`, then `run(n)` ends behind its code, with this state in registers and arrays; the other registers
but V0, the other memory and everything else but I are unchanged, whatever the clock. -/
theorem C134_chip8_result (hI : Coherent b I) (hacc : AcceptsAt b I fun a => InArray base a.toNat)
    (hP : Placed base 0 4096) (hr : ∀ x y, reg x = reg y → x = y) (h0 : ∀ x, reg x ≠ 0)
    (hm : I c.address_space mem) (hpc : c.pc = BitVec.ofNat 16 p)
    (hcode : CodeIn base mem p ((chip8Arrays reg base).compile p prog))
    (hp : p + (chip8Arrays reg base).size prog < 4096) {n : Nat} {s' : State ι κ}
    (h : Exec (arrays ι κ) (chip8ArrayCosts ι κ) prog (stateOf reg base c mem) n s') (env : Nat → Env) :
    ∃ σ i bus mem', run b env c n =
        .ok (.ready (withVars (over c i bus) σ (p + (chip8Arrays reg base).size prog))) ∧
      I bus mem' ∧ HoldsVars reg (vars c) s' σ ∧ HoldsArrays base mem s' mem' := by
  obtain ⟨t, ht, σ, i, bus, mem', rfl, h1, h2, h3⟩ := compile_exec (chip8Arrays_works hI hacc hP hr h0) h hcode
    (by omega) (arraysAt_self hm hpc)
  refine ⟨σ, i, bus, mem', ?_, h1, h2, h3⟩
  have := flow_run ht env 0 0
  unfold run
  rw [Nat.add_zero] at this
  rw [this]
  rfl

/-- C134 for the CHIP-8, programs that do not end: after any number of instructions the machine is
still inside the code of the program and has changed nothing but V0 to VE, I and the arrays. -/
theorem C134_chip8_endless (hI : Coherent b I) (hacc : AcceptsAt b I fun a => InArray base a.toNat)
    (hP : Placed base 0 4096) (hr : ∀ x y, reg x = reg y → x = y) (h0 : ∀ x, reg x ≠ 0)
    (hm : I c.address_space mem) (hpc : c.pc = BitVec.ofNat 16 p)
    (hcode : CodeIn base mem p ((chip8Arrays reg base).compile p prog))
    (hp : p + (chip8Arrays reg base).size prog < 4096)
    (h : ¬ Ends (arrays ι κ) (chip8ArrayCosts ι κ) prog (stateOf reg base c mem)) (env : Nat → Env) (n : Nat) :
    ∃ σ i bus mem' q, run b env c n = .ok (.ready (withVars (over c i bus) σ q)) ∧ p ≤ q ∧
      q < p + (chip8Arrays reg base).size prog ∧ I bus mem' ∧
      ∀ a : Word, ¬ InArray base a.toNat → mem' a = mem a := by
  obtain ⟨t, q, ht, ⟨σ, i, bus, mem', rfl, h1, h2⟩, h3, h4⟩ :=
    compile_endless (chip8Arrays_works hI hacc hP hr h0) h hcode (by omega) (arraysAt_self hm hpc) n
  refine ⟨σ, i, bus, mem', q, ?_, h3, h4, h1, h2⟩
  have := flow_run ht env 0 0
  unfold run
  rw [Nat.add_zero] at this
  rw [this]
  rfl

/-- C134 for the CHIP-8: the machine gets behind the code exactly if the program ends. -/
theorem C134_chip8_ends_iff (hI : Coherent b I) (hacc : AcceptsAt b I fun a => InArray base a.toNat)
    (hP : Placed base 0 4096) (hr : ∀ x y, reg x = reg y → x = y) (h0 : ∀ x, reg x ≠ 0)
    (hm : I c.address_space mem) (hpc : c.pc = BitVec.ofNat 16 p)
    (hcode : CodeIn base mem p ((chip8Arrays reg base).compile p prog))
    (hp : p + (chip8Arrays reg base).size prog < 4096) (env : Nat → Env) :
    (∃ n d, run b env c n = .ok (.ready d) ∧ d.pc.toNat = p + (chip8Arrays reg base).size prog) ↔
      Ends (arrays ι κ) (chip8ArrayCosts ι κ) prog (stateOf reg base c mem) := by
  constructor
  · rintro ⟨n, d, hd, hq⟩
    refine Classical.byContradiction fun hno => ?_
    obtain ⟨σ, i, bus, mem', q, hr, h1, h2, -⟩ := C134_chip8_endless hI hacc hP hr h0 hm hpc hcode hp hno env n
    rw [hd] at hr
    injection hr with hr
    injection hr with hr
    subst hr
    change (BitVec.ofNat 16 q).toNat = _ at hq
    rw [toNat_ofNat_lt (by omega)] at hq
    omega
  · rintro ⟨n, σ', h⟩
    obtain ⟨σ, i, bus, mem', h1, -⟩ := C134_chip8_result hI hacc hP hr h0 hm hpc hcode hp h env
    refine ⟨n, _, h1, ?_⟩
    show (BitVec.ofNat 16 _).toNat = _
    rw [toNat_ofNat_lt (by omega)]

end

end Verif.Props.Chip8
