import Verif.Proofs.Structured
import Verif.Props.Chip8.Loops

/-!
# C91: structured programs on the CHIP-8
-/

namespace Verif.Props.Chip8

open Verif Verif.Chip8 Verif.Spec.Chip8 Verif.Spec.Structured Verif.Structured
open Verif.Mos (FlatRam flatRam_coherent)
open Verif.Spec.Mos (Mem BusView)

/-- The CHIP-8 as a target: the variables are V0 to VE, an assignment is one instruction, a test is
the skip instruction for its condition, a jump is `1nnn`. -/
def chip8Target : Target (Fin 15) Nat where
  width := 2
  jumpSize := 2
  act
    | .set x k => [0x6000 + x * 0x100 + k.toNat]
    | .add x k => [0x7000 + x * 0x100 + k.toNat]
    | .copy x y => [0x8000 + x * 0x100 + y * 0x10]
    | .or x y => [0x8001 + x * 0x100 + y * 0x10]
    | .and x y => [0x8002 + x * 0x100 + y * 0x10]
    | .xor x y => [0x8003 + x * 0x100 + y * 0x10]
  test
    | .eqK x k => [0x3000 + x * 0x100 + k.toNat]
    | .neK x k => [0x4000 + x * 0x100 + k.toNat]
    | .eq x y => [0x5000 + x * 0x100 + y * 0x10]
    | .ne x y => [0x9000 + x * 0x100 + y * 0x10]
  jump l := [0x1000 + l]

/-- Every assignment and every test is one instruction. -/
def chip8Costs : Costs (Fin 15) := ⟨fun _ => 1, fun _ => 1⟩

/-- The state `c` with other values in V0 to VE and another program counter. -/
def withVars {B R : Type} (c : Chip8 B R) (σ : Store (Fin 15)) (q : Nat) : Chip8 B R :=
  { c with gp_registers := Vector.ofFn σ, pc := BitVec.ofNat 16 q }

/-- The values of V0 to VE. -/
def vars {B R : Type} (c : Chip8 B R) : Store (Fin 15) := fun x => c.gp_registers[x]

section
variable {B R : Type} [Addressable B] {b : Build} {c : Chip8 B R} {mem : Mem} {p : Nat}
  {σ : Store (Fin 15)}

/-- One instruction, whatever the clock and the random numbers. -/
def Next (b : Build) (c d : Chip8 B R) : Prop :=
  ∀ (env : Nat → Env) (k n : Nat), runLoop b env (n + 1) k c c = runLoop b env n (k + 1) d d

/-- The machine `c` apart from its variables and its program counter. -/
def Rel (c : Chip8 B R) (σ : Store (Fin 15)) (q : Nat) (d : Chip8 B R) : Prop := d = withVars c σ q

omit [Addressable B] in
theorem V_withVars (x : Fin 15) (q : Nat) : V (withVars c σ q) (regOf x) = σ x := by
  unfold V withVars
  rw [num_regOf (by omega)]
  simp

omit [Addressable B] in
theorem setV_withVars (x : Fin 15) (v : Byte) (q : Nat) :
    setV (withVars c σ q) (regOf x) v = withVars c (put σ x v) q := by
  have : (Vector.ofFn σ).setIfInBounds x v = Vector.ofFn (put σ x v) := by
    apply Vector.ext
    intro i hi
    rw [Vector.getElem_setIfInBounds]
    simp only [Vector.getElem_ofFn, put, Fin.ext_iff]
    by_cases h : (x : Nat) = i
    · rw [if_pos h, if_pos h.symm]
    · rw [if_neg h, if_neg (fun e => h e.symm)]
  unfold setV withVars
  rw [num_regOf (by omega), this]

omit [Addressable B] in
theorem advance_withVars {q : Nat} (hq : q < 4096) (n : Nat) :
    advance (withVars c σ q) n = withVars c σ (q + n) := by
  unfold advance withVars
  rw [toNat_ofNat_lt (by omega)]

theorem next_op {op : Opcode} {d : Chip8 B R} (hv : BusView b c.address_space mem)
    (hcode : CodeAt mem p [encode op]) (hval : Valid op) (hr : Runs b (withVars c σ p) op)
    (hn : writes (withVars c σ p) op = []) (hw : ¬(op = .Ret ∨ ∃ a, op = .Call a))
    (hd : ∀ e, after e mem (withVars c σ p) op = d) : Next b (withVars c σ p) d := by
  intro env k n
  rw [code_step (c := withVars c σ p) (op := op) (i := 0) (ws := [encode op]) hv hcode
    (by rw [Nat.mul_zero, Nat.add_zero]; rfl) (by simp) hval hr hn hw (fun t => by rw [hd, hd]), hd]

omit [Addressable B] in
theorem code_eq {w w' : Nat} (h : w' = w) (hc : CodeAt mem p [w]) : CodeAt mem p [w'] := by
  rw [h]; exact hc

theorem one {lo hi : Nat} {σ' : Store (Fin 15)} {q : Nat} (h : Next b (withVars c σ p) (withVars c σ' q))
    (h1 : lo ≤ p) (h2 : p < hi) :
    ∃ t, Path (Next b) (Rel c) lo hi 1 (withVars c σ p) t ∧ Rel c σ' q t :=
  ⟨_, .cons rfl h1 h2 h .nil, rfl⟩

/-- The parts of the code work on the CHIP-8. -/
theorem chip8_works (hv : BusView b c.address_space mem) :
    Works chip8Target chip8Costs (Next b) (Rel c) (CodeAt mem) 4095 where
  jumpSize l := rfl
  append := by
    rintro p u v ⟨h1, h2⟩
    rw [List.length_append] at h1
    refine ⟨⟨by omega, fun i w h => h2 i w ?_⟩, ⟨?_, fun i w h => ?_⟩⟩
    · rw [List.getElem?_append_left (by rw [List.getElem?_eq_some_iff] at h; exact h.1)]
      exact h
    · show p + 2 * u.length + 2 * v.length ≤ 4096
      omega
    · have := h2 (u.length + i) w (by rw [List.getElem?_append_right (by omega)]; simpa using h)
      rw [show p + 2 * (u.length + i) = p + 2 * u.length + 2 * i by omega] at this
      exact this
  act := by
    rintro p a σ s hc hp rfl
    have h0 : p < 4096 := by have := hc.1; cases a <;> simp [chip8Target] at this <;> omega
    cases a with
    | set x k =>
      have hx := num_regOf (k := x) (by omega)
      refine one (next_op (op := .LdImmediate (regOf x) k) hv (code_eq (by simp only [encode, xkk, hx]) hc)
        trivial ⟨regOf_ne_Vf x.isLt, fun h => h.2⟩ rfl (by rintro (h | ⟨a, h⟩) <;> cases h) fun e => ?_)
        (Nat.le_refl _) (by show p < p + 2 * 1; omega)
      show advance (setV _ _ _) 2 = _
      rw [setV_withVars, advance_withVars h0]; rfl
    | add x k =>
      have hx := num_regOf (k := x) (by omega)
      refine one (next_op (op := .AddImmediate (regOf x) k) hv (code_eq (by simp only [encode, xkk, hx]) hc)
        trivial ⟨regOf_ne_Vf x.isLt, fun h => h.2⟩ rfl (by rintro (h | ⟨a, h⟩) <;> cases h) fun e => ?_)
        (Nat.le_refl _) (by show p < p + 2 * 1; omega)
      show advance (setV _ _ (V _ _ + k)) 2 = _
      rw [setV_withVars, advance_withVars h0, V_withVars]
      have : σ x + k = BitVec.ofNat 8 ((σ x).toNat + k.toNat) := by
        apply BitVec.eq_of_toNat_eq
        rw [BitVec.toNat_add, BitVec.toNat_ofNat]
      rw [this]; rfl
    | copy x y =>
      have hx := num_regOf (k := x) (by omega)
      have hy := num_regOf (k := y) (by omega)
      refine one (next_op (op := .LdVxVy (regOf x) (regOf y)) hv (code_eq (by simp only [encode, xyn, hx, hy]; omega) hc)
        trivial ⟨fun h => h.elim (regOf_ne_Vf x.isLt) (regOf_ne_Vf y.isLt), fun h => h.2⟩ rfl
        (by rintro (h | ⟨a, h⟩) <;> cases h) fun e => ?_)
        (Nat.le_refl _) (by show p < p + 2 * 1; omega)
      show advance (setV _ _ (V _ _)) 2 = _
      rw [setV_withVars, advance_withVars h0, V_withVars]; rfl
    | or x y =>
      have hx := num_regOf (k := x) (by omega)
      have hy := num_regOf (k := y) (by omega)
      refine one (next_op (op := .Or (regOf x) (regOf y)) hv
        (code_eq (by simp only [encode, xyn, hx, hy]; omega) hc)
        trivial ⟨fun h => h.elim (regOf_ne_Vf x.isLt) (regOf_ne_Vf y.isLt), fun h => h.2⟩ rfl
        (by rintro (h | ⟨a, h⟩) <;> cases h) fun e => ?_)
        (Nat.le_refl _) (by show p < p + 2 * 1; omega)
      show advance (setV _ _ (V _ _ ||| V _ _)) 2 = _
      rw [setV_withVars, advance_withVars h0, V_withVars, V_withVars]; rfl
    | and x y =>
      have hx := num_regOf (k := x) (by omega)
      have hy := num_regOf (k := y) (by omega)
      refine one (next_op (op := .And (regOf x) (regOf y)) hv
        (code_eq (by simp only [encode, xyn, hx, hy]; omega) hc)
        trivial ⟨fun h => h.elim (regOf_ne_Vf x.isLt) (regOf_ne_Vf y.isLt), fun h => h.2⟩ rfl
        (by rintro (h | ⟨a, h⟩) <;> cases h) fun e => ?_)
        (Nat.le_refl _) (by show p < p + 2 * 1; omega)
      show advance (setV _ _ (V _ _ &&& V _ _)) 2 = _
      rw [setV_withVars, advance_withVars h0, V_withVars, V_withVars]; rfl
    | xor x y =>
      have hx := num_regOf (k := x) (by omega)
      have hy := num_regOf (k := y) (by omega)
      refine one (next_op (op := .Xor (regOf x) (regOf y)) hv
        (code_eq (by simp only [encode, xyn, hx, hy]; omega) hc)
        trivial ⟨fun h => h.elim (regOf_ne_Vf x.isLt) (regOf_ne_Vf y.isLt), fun h => h.2⟩ rfl
        (by rintro (h | ⟨a, h⟩) <;> cases h) fun e => ?_)
        (Nat.le_refl _) (by show p < p + 2 * 1; omega)
      show advance (setV _ _ (V _ _ ^^^ V _ _)) 2 = _
      rw [setV_withVars, advance_withVars h0, V_withVars, V_withVars]; rfl
  test := by
    rintro p g σ s hc hp rfl
    have h0 : p < 4096 := by have := hc.1; cases g <;> simp [chip8Target] at this <;> omega
    cases g with
    | eqK x k =>
      have hx := num_regOf (k := x) (by omega)
      refine one (next_op (op := .SeImmediate (regOf x) k) hv (code_eq (by simp only [encode, xkk, hx]) hc)
        trivial ⟨regOf_ne_Vf x.isLt, fun h => h.2⟩ rfl (by rintro (h | ⟨a, h⟩) <;> cases h) fun e => ?_)
        (Nat.le_refl _) (by show p < p + 2 * 1; omega)
      show advance _ (if V _ _ = k then 4 else 2) = _
      rw [V_withVars, advance_withVars h0]
      by_cases h : σ x = k
      · rw [if_pos h, if_pos (show Guard.Holds σ (.eqK x k) from h)]; rfl
      · rw [if_neg h, if_neg (show ¬ Guard.Holds σ (.eqK x k) from h)]; rfl
    | neK x k =>
      have hx := num_regOf (k := x) (by omega)
      refine one (next_op (op := .SneImmediate (regOf x) k) hv (code_eq (by simp only [encode, xkk, hx]) hc)
        trivial ⟨regOf_ne_Vf x.isLt, fun h => h.2⟩ rfl (by rintro (h | ⟨a, h⟩) <;> cases h) fun e => ?_)
        (Nat.le_refl _) (by show p < p + 2 * 1; omega)
      show advance _ (if V _ _ = k then 2 else 4) = _
      rw [V_withVars, advance_withVars h0]
      by_cases h : σ x = k
      · rw [if_pos h, if_neg (show ¬ Guard.Holds σ (.neK x k) from fun n => n h)]; rfl
      · rw [if_neg h, if_pos (show Guard.Holds σ (.neK x k) from h)]; rfl
    | eq x y =>
      have hx := num_regOf (k := x) (by omega)
      have hy := num_regOf (k := y) (by omega)
      refine one (next_op (op := .SeVxVy (regOf x) (regOf y)) hv (code_eq (by simp only [encode, xyn, hx, hy]; omega) hc)
        trivial ⟨fun h => h.elim (regOf_ne_Vf x.isLt) (regOf_ne_Vf y.isLt), fun h => h.2⟩ rfl
        (by rintro (h | ⟨a, h⟩) <;> cases h) fun e => ?_)
        (Nat.le_refl _) (by show p < p + 2 * 1; omega)
      show advance _ (if V _ _ = V _ _ then 4 else 2) = _
      rw [V_withVars, V_withVars, advance_withVars h0]
      by_cases h : σ x = σ y
      · rw [if_pos h, if_pos (show Guard.Holds σ (.eq x y) from h)]; rfl
      · rw [if_neg h, if_neg (show ¬ Guard.Holds σ (.eq x y) from h)]; rfl
    | ne x y =>
      have hx := num_regOf (k := x) (by omega)
      have hy := num_regOf (k := y) (by omega)
      refine one (next_op (op := .SneVxVy (regOf x) (regOf y)) hv (code_eq (by simp only [encode, xyn, hx, hy]; omega) hc)
        trivial ⟨fun h => h.elim (regOf_ne_Vf x.isLt) (regOf_ne_Vf y.isLt), fun h => h.2⟩ rfl
        (by rintro (h | ⟨a, h⟩) <;> cases h) fun e => ?_)
        (Nat.le_refl _) (by show p < p + 2 * 1; omega)
      show advance _ (if V _ _ = V _ _ then 2 else 4) = _
      rw [V_withVars, V_withVars, advance_withVars h0]
      by_cases h : σ x = σ y
      · rw [if_pos h, if_neg (show ¬ Guard.Holds σ (.ne x y) from fun n => n h)]; rfl
      · rw [if_neg h, if_pos (show Guard.Holds σ (.ne x y) from h)]; rfl
  jump := by
    rintro p l σ s hc hp hl rfl
    have hl' : (BitVec.ofNat 16 l).toNat = l := toNat_ofNat_lt (by omega)
    exact one (next_op (op := .JpNonV0Indexed ⟨BitVec.ofNat 16 l⟩) hv
      (code_eq (by simp only [encode, nnn, hl']) hc) (by show (BitVec.ofNat 16 l).toNat < 4096; rw [hl']; omega)
      ⟨fun h => h, fun h => h.2⟩ rfl (by rintro (h | ⟨a, h⟩) <;> cases h) fun e => rfl)
      (Nat.le_refl _) (by show p < p + 2; omega)

theorem path_run {lo hi n : Nat} {s t : Chip8 B R} (h : Path (Next b) (Rel c) lo hi n s t)
    (env : Nat → Env) (k m : Nat) : runLoop b env (n + m) k s s = runLoop b env m (k + n) t t := by
  induction h generalizing k with
  | nil => rw [Nat.zero_add, Nat.add_zero]
  | cons _ _ _ hs _ ih =>
    rw [Nat.add_right_comm, hs env k _, ih, Nat.add_right_comm, Nat.add_assoc]

omit [Addressable B] in
theorem withVars_self (hpc : c.pc = BitVec.ofNat 16 p) : withVars c (vars c) p = c := by
  unfold withVars vars
  rw [← hpc]
  have : Vector.ofFn (fun x : Fin 15 => c.gp_registers[x]) = c.gp_registers := by
    apply Vector.ext
    intro i hi
    simp
  rw [this]

variable {prog : Cmd (Fin 15)}

/-- C91, programs that end: if a program, started with the values of V0 to VE, ends after `n`
instructions with the values `σ'`, then `run(n)` ends behind its code with these values in V0 to VE
and everything else unchanged, whatever the clock and the random numbers. -/
theorem C91_result (hv : BusView b c.address_space mem)
    (hcode : CodeAt mem p (chip8Target.compile p prog)) (hp : p + chip8Target.size prog < 4096)
    (hpc : c.pc = BitVec.ofNat 16 p) {n : Nat} {σ' : Store (Fin 15)}
    (h : Exec chip8Costs prog (vars c) n σ') (env : Nat → Env) :
    run b env c n = .ok (.ready (withVars c σ' (p + chip8Target.size prog))) := by
  obtain ⟨t, ht, rfl⟩ := compile_exec (chip8_works hv) h hcode (by omega) (withVars_self hpc).symm
  have := path_run ht env 0 0
  unfold run
  rw [Nat.add_zero] at this
  rw [this]
  rfl

/-- C91, programs that do not end: after any number of instructions the machine is still inside the
code of the program and has changed nothing but V0 to VE; it does not panic. -/
theorem C91_endless (hv : BusView b c.address_space mem)
    (hcode : CodeAt mem p (chip8Target.compile p prog)) (hp : p + chip8Target.size prog < 4096)
    (hpc : c.pc = BitVec.ofNat 16 p) (h : ¬ Ends chip8Costs prog (vars c)) (env : Nat → Env) (n : Nat) :
    ∃ σ q, run b env c n = .ok (.ready (withVars c σ q)) ∧ p ≤ q ∧ q < p + chip8Target.size prog := by
  obtain ⟨t, σ, q, ht, rfl, h1, h2⟩ :=
    compile_endless (chip8_works hv) h hcode (by omega) (withVars_self hpc).symm n
  refine ⟨σ, q, ?_, h1, h2⟩
  have := path_run ht env 0 0
  unfold run
  rw [Nat.add_zero] at this
  rw [this]
  rfl

/-- C91: the machine gets behind the code exactly if the program ends. -/
theorem C91_ends_iff (hv : BusView b c.address_space mem)
    (hcode : CodeAt mem p (chip8Target.compile p prog)) (hp : p + chip8Target.size prog < 4096)
    (hpc : c.pc = BitVec.ofNat 16 p) (env : Nat → Env) :
    (∃ n d, run b env c n = .ok (.ready d) ∧ d.pc.toNat = p + chip8Target.size prog) ↔
      Ends chip8Costs prog (vars c) := by
  constructor
  · rintro ⟨n, d, hd, hq⟩
    refine Classical.byContradiction fun hno => ?_
    obtain ⟨σ, q, hr, h1, h2⟩ := C91_endless hv hcode hp hpc hno env n
    rw [hd] at hr
    injection hr with hr
    injection hr with hr
    subst hr
    change (BitVec.ofNat 16 q).toNat = _ at hq
    rw [toNat_ofNat_lt (by omega)] at hq
    omega
  · rintro ⟨n, σ', h⟩
    refine ⟨n, _, C91_result hv hcode hp hpc h env, ?_⟩
    show (BitVec.ofNat 16 _).toNat = _
    rw [toNat_ofNat_lt (by omega)]

end

/-! ### Concrete cases -/

/-- `V2 := V0 * V1`: `V2 := 0; while V0 ≠ 0 do (V0 := V0 - 1; V3 := V1; while V3 ≠ 0 do (V3 := V3 - 1;
V2 := V2 + 1))`. -/
def multiply : Cmd (Fin 15) :=
  .seq (.act (.set 2 0)) (.loop (.neK 0 0) (.seq (.act (.add 0 0xff)) (.seq (.act (.copy 3 1))
    (.loop (.neK 3 0) (.seq (.act (.add 3 0xff)) (.act (.add 2 1)))))))

theorem dec_byte {v : Byte} {n : Nat} (h : v.toNat = n + 1) :
    BitVec.ofNat 8 (v.toNat + (0xff : Byte).toNat) = BitVec.ofNat 8 n := by
  apply BitVec.eq_of_toNat_eq
  have := v.isLt
  have e : (0xff : Byte).toNat = 255 := rfl
  simp only [BitVec.toNat_ofNat, e]
  omega

theorem put_put {ι : Type} [DecidableEq ι] (σ : Store ι) (x : ι) (u v : Byte) :
    put (put σ x u) x v = put σ x v := by
  funext y
  unfold put
  split <;> rfl

theorem put_comm {ι : Type} [DecidableEq ι] (σ : Store ι) {x y : ι} (h : x ≠ y) (u v : Byte) :
    put (put σ x u) y v = put (put σ y v) x u := by
  funext z
  unfold put
  split
  · rename_i hz
    subst hz
    rw [if_neg (fun e => h e.symm)]
  · rfl

theorem put_same {ι : Type} [DecidableEq ι] (σ : Store ι) {x : ι} {v : Byte} (h : σ x = v) : put σ x v = σ := by
  funext y
  unfold put
  split
  · rename_i hy; rw [hy, h]
  · rfl

/-- The inner loop of the multiplication. -/
theorem inner_exec (m : Nat) : ∀ σ : Store (Fin 15), (σ 3).toNat = m →
    Exec chip8Costs (.loop (.neK 3 0) (.seq (.act (.add 3 0xff)) (.act (.add 2 1)))) σ (4 * m + 2)
      (put (put σ 2 (BitVec.ofNat 8 ((σ 2).toNat + m))) 3 0) := by
  induction m with
  | zero =>
    intro σ h
    have h3 : σ 3 = 0 := BitVec.eq_of_toNat_eq h
    have := Exec.loopFalse (k := chip8Costs) (g := .neK 3 0)
      (c := .seq (.act (.add 3 0xff)) (.act (.add 2 1))) (s := σ) (fun hn => hn h3)
    rw [show BitVec.ofNat 8 ((σ 2).toNat + 0) = σ 2 by simp, put_same σ rfl, put_same σ h3]
    exact this
  | succ m ih =>
    intro σ h
    have hg : Guard.Holds σ (.neK 3 0) := by
      intro h0
      change σ 3 = 0 at h0
      rw [h0] at h
      cases h
    have body : Exec chip8Costs (.seq (.act (.add 3 0xff)) (.act (.add 2 1))) σ (1 + 1)
        (put (put σ 3 (BitVec.ofNat 8 m)) 2 (BitVec.ofNat 8 ((σ 2).toNat + 1))) := by
      have h1 := Exec.act (k := chip8Costs) (a := .add 3 0xff) (s := σ)
      rw [Act.eval, dec_byte h] at h1
      exact .seq h1 .act
    have hm : m < 256 := by have := (σ 3).isLt; omega
    have rest := ih (put (put σ 3 (BitVec.ofNat 8 m)) 2 (BitVec.ofNat 8 ((σ 2).toNat + 1)))
      (by show (BitVec.ofNat 8 m).toNat = m
          rw [BitVec.toNat_ofNat]; omega)
    have := Exec.loopTrue hg body rest
    have e1 : 4 * (m + 1) + 2 = chip8Costs.test (.neK (3 : Fin 15) 0) + (1 + 1) + 1 + (4 * m + 2) := by
      show _ = 1 + (1 + 1) + 1 + (4 * m + 2); omega
    rw [e1]
    have e2 : BitVec.ofNat 8 ((put (put σ 3 (BitVec.ofNat 8 m)) 2 (BitVec.ofNat 8 ((σ 2).toNat + 1)) 2).toNat + m) =
        BitVec.ofNat 8 ((σ 2).toNat + (m + 1)) := by
      show BitVec.ofNat 8 ((BitVec.ofNat 8 ((σ 2).toNat + 1)).toNat + m) = _
      apply BitVec.eq_of_toNat_eq
      simp only [BitVec.toNat_ofNat]
      omega
    rw [e2, put_put, put_comm (put σ 3 _) (by decide), put_put, put_comm σ (by decide)] at this
    exact this

/-- The outer loop of the multiplication. -/
theorem outer_exec (m : Nat) : ∀ σ : Store (Fin 15), (σ 0).toNat = m → ∃ v3,
    Exec chip8Costs (.loop (.neK 0 0) (.seq (.act (.add 0 0xff)) (.seq (.act (.copy 3 1))
      (.loop (.neK 3 0) (.seq (.act (.add 3 0xff)) (.act (.add 2 1))))))) σ (m * (4 * (σ 1).toNat + 6) + 2)
      (put (put (put σ 0 0) 2 (BitVec.ofNat 8 ((σ 2).toNat + m * (σ 1).toNat))) 3 v3) := by
  induction m with
  | zero =>
    intro σ h
    have h0 : σ 0 = 0 := BitVec.eq_of_toNat_eq h
    refine ⟨σ 3, ?_⟩
    rw [Nat.zero_mul, Nat.zero_mul, put_same σ h0, show BitVec.ofNat 8 ((σ 2).toNat + 0) = σ 2 by simp,
      put_same σ rfl, put_same σ rfl]
    exact Exec.loopFalse (k := chip8Costs) (fun hn => hn h0)
  | succ m ih =>
    intro σ h
    have hg : Guard.Holds σ (.neK 0 0) := by
      intro h0
      change σ 0 = 0 at h0
      rw [h0] at h
      cases h
    have h1 := Exec.act (k := chip8Costs) (a := .add 0 0xff) (s := σ)
    rw [Act.eval, dec_byte h] at h1
    have h2 := Exec.act (k := chip8Costs) (a := .copy 3 1) (s := put σ 0 (BitVec.ofNat 8 m))
    have h3 := inner_exec (σ 1).toNat (Act.eval (put σ 0 (BitVec.ofNat 8 m)) (.copy 3 1)) rfl
    have body := Exec.seq h1 (Exec.seq h2 h3)
    have hm : m < 256 := by have := (σ 0).isLt; omega
    obtain ⟨σ₁, hσ₁⟩ : ∃ σ₁, σ₁ = put (put (Act.eval (put σ 0 (BitVec.ofNat 8 m)) (.copy 3 1)) 2
      (BitVec.ofNat 8 ((σ 2).toNat + (σ 1).toNat))) 3 0 := ⟨_, rfl⟩
    have body' : Exec chip8Costs _ σ _ σ₁ := hσ₁ ▸ body
    have e0 : (σ₁ 0).toNat = m := by
      rw [hσ₁]
      show (BitVec.ofNat 8 m).toNat = m
      rw [BitVec.toNat_ofNat]; omega
    have e1 : σ₁ 1 = σ 1 := by rw [hσ₁]; rfl
    have e2 : σ₁ 2 = BitVec.ofNat 8 ((σ 2).toNat + (σ 1).toNat) := by rw [hσ₁]; rfl
    obtain ⟨v3, rest⟩ := ih σ₁ e0
    refine ⟨v3, ?_⟩
    have := Exec.loopTrue hg body' rest
    rw [e1, e2] at this
    have e3 : (m + 1) * (4 * (σ 1).toNat + 6) + 2 = chip8Costs.test (.neK (0 : Fin 15) 0) +
        (chip8Costs.act (.add 0 0xff) + (chip8Costs.act (.copy 3 1) + (4 * (σ 1).toNat + 2))) + 1 +
        (m * (4 * (σ 1).toNat + 6) + 2) := by
      show _ = 1 + (1 + (1 + (4 * (σ 1).toNat + 2))) + 1 + (m * (4 * (σ 1).toNat + 6) + 2)
      rw [Nat.add_mul]
      omega
    rw [e3]
    have e4 : put (put (put σ₁ 0 0) 2 (BitVec.ofNat 8 ((BitVec.ofNat 8 ((σ 2).toNat + (σ 1).toNat)).toNat +
        m * (σ 1).toNat))) 3 v3 =
        put (put (put σ 0 0) 2 (BitVec.ofNat 8 ((σ 2).toNat + (m + 1) * (σ 1).toNat))) 3 v3 := by
      have : BitVec.ofNat 8 ((BitVec.ofNat 8 ((σ 2).toNat + (σ 1).toNat)).toNat + m * (σ 1).toNat) =
          BitVec.ofNat 8 ((σ 2).toNat + (m + 1) * (σ 1).toNat) := by
        apply BitVec.eq_of_toNat_eq
        simp only [BitVec.toNat_ofNat, Nat.add_mul]
        omega
      rw [this, hσ₁]
      funext y
      simp only [put, Act.eval]
      split
      · rfl
      · split
        · rfl
        · split
          · rfl
          · rfl
    rw [e4] at this
    exact this

section
variable {B R : Type} [Addressable B] {b : Build} {c : Chip8 B R} {mem : Mem} {p : Nat}

/-- C91 applied to all inputs of one program: the compiled multiplication leaves V0 · V1 modulo 256
in V2 and 0 in V0 after V0 · (4 V1 + 6) + 3 instructions, whatever the clock. -/
theorem C91_multiply (hv : BusView b c.address_space mem)
    (hcode : CodeAt mem p (chip8Target.compile p multiply)) (hp : p + 22 < 4096)
    (hpc : c.pc = BitVec.ofNat 16 p) (env : Nat → Env) : ∃ v3,
    run b env c ((vars c 0).toNat * (4 * (vars c 1).toNat + 6) + 3) = .ok (.ready
      (withVars c (put (put (put (vars c) 0 0) 2 (BitVec.ofNat 8 ((vars c 0).toNat * (vars c 1).toNat))) 3 v3)
        (p + 22))) := by
  obtain ⟨v3, h⟩ := outer_exec (vars c 0).toNat (put (vars c) 2 0) rfl
  have h0 := Exec.act (k := chip8Costs) (a := .set 2 0) (s := vars c)
  have := C91_result (prog := multiply) hv hcode hp hpc (.seq h0 h) env
  refine ⟨v3, ?_⟩
  have e1 : (vars c 0).toNat * (4 * (vars c 1).toNat + 6) + 3 = chip8Costs.act (.set 2 0) +
      ((vars c 0).toNat * (4 * (put (vars c) 2 0 1).toNat + 6) + 2) := by
    show _ = 1 + ((vars c 0).toNat * (4 * (vars c 1).toNat + 6) + 2)
    omega
  rw [e1, this]
  have e2 : put (put (put (vars c) 2 0) 0 0) 2 (BitVec.ofNat 8 ((put (vars c) 2 0 2).toNat +
      (vars c 0).toNat * (put (vars c) 2 0 1).toNat)) =
      put (put (vars c) 0 0) 2 (BitVec.ofNat 8 ((vars c 0).toNat * (vars c 1).toNat)) := by
    rw [put_comm (vars c) (by decide), put_put]
    show put _ _ (BitVec.ofNat 8 (0 + _)) = _
    rw [Nat.zero_add]
    rfl
  rw [e2]
  rfl

end

/-- A machine with the words `ws` at 0x200. -/
def codeSample (ws : List Nat) : Chip8 FlatRam Unit :=
  { setV (setV sample .V0 12) .V1 21 with
    pc := 0x200
    address_space := ⟨fun a =>
      let k := a.toNat - 0x200
      let w := ws.getD (k / 2) 0
      if k % 2 = 0 then BitVec.ofNat 8 (w / 256) else BitVec.ofNat 8 w⟩ }

/-- The code of the multiplication, as an assembler listing. -/
example : chip8Target.compile 0x200 multiply =
    [0x6200, 0x4000, 0x1216, 0x70FF, 0x8310, 0x4300, 0x1214, 0x73FF, 0x7201, 0x120A, 0x1202] := by
  decide +kernel

theorem multiplySample_code : CodeAt (codeSample (chip8Target.compile 0x200 multiply)).address_space.mem
    0x200 (chip8Target.compile 0x200 multiply) := by
  refine ⟨by decide, fun i w h => ?_⟩
  have hi : i < 11 := by
    rw [List.getElem?_eq_some_iff] at h
    exact h.1
  match i, hi with
  | 0, _ | 1, _ | 2, _ | 3, _ | 4, _ | 5, _ | 6, _ | 7, _ | 8, _ | 9, _ | 10, _ => cases h; decide +kernel

/-- 12 · 21 = 252, after 12 · 90 + 3 = 1083 instructions. -/
example : ∃ v3, run .debug (fun k => ⟨BitVec.ofNat 8 k, k, k + 1, k + 2⟩)
    (codeSample (chip8Target.compile 0x200 multiply)) 1083 = .ok (.ready
      (withVars (codeSample (chip8Target.compile 0x200 multiply))
        (put (put (put (vars (codeSample (chip8Target.compile 0x200 multiply))) 0 0) 2 252) 3 v3) 0x216)) :=
  C91_multiply (view _ _) multiplySample_code (by decide) (by decide +kernel) _

/-- `while V0 = V0 do V5 := V5 + 1`. -/
def forever : Cmd (Fin 15) := .loop (.eq 0 0) (.act (.add 5 1))

theorem forever_endless (σ : Store (Fin 15)) : ¬ Ends chip8Costs forever σ := by
  rintro ⟨n, σ', h⟩
  have : ∀ {c : Cmd (Fin 15)} {σ σ' : Store (Fin 15)} {n : Nat}, Exec chip8Costs c σ n σ' →
      c = forever → False := by
    intro c σ σ' n h
    induction h with
    | loopTrue _ _ _ _ ih => intro e; exact ih e
    | loopFalse hg => intro e; cases e; exact hg rfl
    | _ => intro e; cases e
  exact this h rfl

theorem foreverSample_code : CodeAt (codeSample (chip8Target.compile 0x200 forever)).address_space.mem
    0x200 (chip8Target.compile 0x200 forever) := by
  refine ⟨by decide, fun i w h => ?_⟩
  have hi : i < 4 := by
    rw [List.getElem?_eq_some_iff] at h
    exact h.1
  match i, hi with
  | 0, _ | 1, _ | 2, _ | 3, _ => cases h; decide +kernel

example (n : Nat) : ∃ σ q, run .release (fun k => ⟨0, k, k, k⟩)
    (codeSample (chip8Target.compile 0x200 forever)) n = .ok (.ready
      (withVars (codeSample (chip8Target.compile 0x200 forever)) σ q)) ∧ 0x200 ≤ q ∧ q < 0x208 :=
  C91_endless (view _ _) foreverSample_code (by decide) (by decide +kernel) (forever_endless _) _ n

end Verif.Props.Chip8
