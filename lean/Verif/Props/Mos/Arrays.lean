import Verif.Proofs.Flow
import Verif.Spec.FlowTimed
import Verif.Proofs.StructuredMap
import Verif.Props.Mos.Structured

/-!
# C134: structured programs with arrays on the 6502
-/

namespace Verif.Mos

open Verif Verif.Spec.Mos Verif.Spec.Flow Verif.Flow
open Verif.Spec.Structured (Act Guard Store put)

section
variable {ι κ : Type}

/-- The 6502 as a target for programs with arrays: variables are cells of the zero page, an array
access is `LDX i; LDA t,X; STA x` or `LDX i; LDA x; STA t,X`. -/
def mosArrays (loc : ι → Byte) (base : κ → Nat) : Target (Action ι κ) (Guard ι) Byte where
  width := 1
  jumpSize := 3
  act
    | .base a => (mosTarget 5).act (a.map loc)
    | .read x t i => [0xa6, loc i] ++ (op16 0xbd (base t) ++ [0x85, loc x])
    | .write t i x => [0xa6, loc i] ++ ([0xa5, loc x] ++ op16 0x9d (base t))
  test g := (mosTarget 5).test (g.map loc)
  jump l := op16 0x4c l

/-- The instructions of the actions and tests. -/
def mosArrayCosts (ι κ : Type) : Costs (Action ι κ) (Guard ι) where
  act
    | .base a => mosCosts.act (a.map fun _ => 0)
    | .read _ _ _ | .write _ _ _ => 3
  test _ := 3

/-- The cycles of the actions, tests and jumps: the sums of the documented cycles of their instructions.
A read takes one more if the element lies in another page than the beginning of the array, a write does
not. A test is a load, a comparison and a branch: two cycles if not taken, three if taken, and one more
if the target lies in another page than the branch. -/
def mosArrayTimes (ι : Type) {κ : Type} (base : κ → Nat) : Times (Action ι κ) (Guard ι) (State ι κ) Nat where
  act
    | .base (.set _ _), _ => 2 + 3
    | .base (.copy _ _), _ => 3 + 3
    | .base (.add _ _), _ => 3 + 2 + 2 + 3
    | .base (.or _ _), _ | .base (.and _ _), _ | .base (.xor _ _), _ => 3 + 3 + 3
    | .read _ t i, s => 3 + (4 + if base t % 256 + (s.var i).toNat < 256 then 0 else 1) + 3
    | .write _ _ _, _ => 3 + 3 + 5
  testTrue p g := untaken g + 1 + (if (p + 9) / 256 = (p + 4) / 256 then 0 else 1)
  testFalse _ g := untaken g
  jump := 3
where
  /-- A load, a comparison with a constant or a variable, a branch that is not taken. -/
  untaken : Guard ι → Nat
    | .eqK _ _ | .neK _ _ => 3 + 2 + 2
    | .eq _ _ | .ne _ _ => 3 + 3 + 2

end

section
variable {ι κ : Type} {B : Type}

/-- The registers and flags that programs with arrays do not touch: all but A, X, pc and N, V, Z, C. -/
def KeptButX (r r' : Regs) : Prop := Kept { r with x := r'.x } r'

/-- The CPU is at `q`; memory outside the zero page and the arrays, and the registers programs do not
touch, are as in `mem₀` and `r₀`. -/
structure Here (I : B → Mem → Prop) (base : κ → Nat) (r₀ : Regs) (mem₀ : Mem) (q : Nat) (c : Mos6502 B) : Prop where
  pc : c.pc = word q
  kept : KeptButX r₀ (regs c)
  memory : ∃ mem, I c.address_map mem ∧ ∀ a : Word, 256 ≤ a.toNat → ¬ InArray base a.toNat → mem a = mem₀ a

/-- The memory `mem` holds the state `s`; outside the variables and arrays it is as in `mem₀`. -/
structure Holds (loc : ι → Byte) (base : κ → Nat) (mem₀ : Mem) (s : State ι κ) (mem : Mem) : Prop where
  var : ∀ x, mem (zp (loc x)) = s.var x
  arr : ∀ t j, mem (word (base t + j.toNat)) = s.arr t j
  other : ∀ a : Word, (∀ x, a ≠ zp (loc x)) → ¬ InArray base a.toNat → mem a = mem₀ a

/-- The CPU is at `q` and memory holds the state `s`. -/
structure ArraysAt (I : B → Mem → Prop) (loc : ι → Byte) (base : κ → Nat) (r₀ : Regs) (mem₀ : Mem)
    (s : State ι κ) (q : Nat) (c : Mos6502 B) : Prop where
  pc : c.pc = word q
  kept : KeptButX r₀ (regs c)
  memory : ∃ mem, I c.address_map mem ∧ Holds loc base mem₀ s mem

/-- The bytes `ws` lie at `p`, above the zero page and outside the arrays. -/
def ProgramIn (base : κ → Nat) (mem : Mem) (p : Nat) (ws : List Byte) : Prop :=
  ProgramAt mem p ws ∧ p + ws.length ≤ 65536 ∧ ∀ k, k < ws.length → ¬ InArray base (p + k)

variable [Addressable B] {b : Build} {I : B → Mem → Prop} {r₀ : Regs} {mem₀ mem : Mem} {q : Nat} {c : Mos6502 B}
  {loc : ι → Byte} {base : κ → Nat} {s : State ι κ}

theorem keptButX_trans {r r' r'' : Regs} (h : KeptButX r r') (h' : KeptButX r' r'') : KeptButX r r'' :=
  ⟨rfl, h'.y.trans h.y, h'.sp.trans h.sp, h'.decimal.trans h.decimal, h'.interrupt.trans h.interrupt,
    h'.brk.trans h.brk, h'.unused.trans h.unused⟩

theorem keptButX_of {r r' : Regs} (h : Kept r r') : KeptButX r r' :=
  ⟨rfl, h.y, h.sp, h.decimal, h.interrupt, h.brk, h.unused⟩

omit [Addressable B] in
theorem ArraysAt.here (h : ArraysAt I loc base r₀ mem₀ s q c) : Here I base r₀ mem₀ q c := by
  obtain ⟨mem, h1, h2⟩ := h.memory
  refine ⟨h.pc, h.kept, mem, h1, fun a ha hn => h2.other a (fun x e => ?_) hn⟩
  have := zp_lt (loc x)
  rw [← e] at this
  omega

theorem ProgramIn.current {p : Nat} {ws : List Byte} (h : ProgramIn base mem₀ p ws)
    (hm : Holds loc base mem₀ s mem) : ProgramAt mem p ws := by
  obtain ⟨⟨h1, h2⟩, h3, h4⟩ := h
  refine ⟨h1, fun k hk => ?_⟩
  have e : (word (p + k)).toNat = p + k := toNat_word_lt _ (by omega)
  rw [hm.other, h2 k hk]
  · intro x hx
    have := zp_lt (loc x)
    rw [← hx, e] at this
    omega
  · rw [e]
    exact h4 k hk

/-- One instruction from any state. -/
theorem raw_step {W : Word → Prop} (hI : Coherent b I) (hacc : AcceptsAt b I W) (hpc : c.pc = word q)
    (hm : I c.address_map mem) (hq : q ≤ 65532) {i : InstructionVariant} {mn : Mnemonic} {am : AddrMode}
    (hp : Isa.parseInstruction (mem (word q)) (mem (word q + 1)) (mem (word q + 2)) = some i)
    (hi : view i = (mn, am)) (hok : AddrOk b (regs c) mem am)
    (hW : ∀ w ∈ (codeEffect (regs c) mem mn am).writes, W w.1) :
    ∃ d, StepIn b (baseCycles mn am + codePenalty (regs c) mem mn am) c d ∧ regs d = (codeEffect (regs c) mem mn am).regs ∧
      I d.address_map (store mem (codeEffect (regs c) mem mn am).writes) := by
  have hpc' : (regs c).pc = word q := hpc
  have := reaches_one (b := b) (I := I) (r := regs c) (mem := mem) hI hacc (i := i) (mn := mn) (am := am)
    (pcOk_of hpc' (by omega)) (by rw [hpc']; exact hp) hi hok hW
  obtain ⟨l, d, k1, k2, k3, k4, k5⟩ := this c rfl hm
  cases k1 with
  | nil => cases k2
  | cons hn hr =>
    cases hr with
    | nil => exact ⟨d, ⟨_, hn, by simpa [totalCycles] using k3⟩, k4, k5⟩
    | cons => simp at k2

theorem raw_ldx {W : Word → Prop} (hI : Coherent b I) (hacc : AcceptsAt b I W) (hpc : c.pc = word q)
    (hm : I c.address_map mem) (hq : q ≤ 65532) {z : Byte} (hc : CodeAt mem q [0xa6, z]) :
    ∃ d, StepIn b 3 c d ∧ d.pc = word (q + 2) ∧ KeptButX (regs c) (regs d) ∧ (regs d).x = mem (zp z) ∧
      I d.address_map mem := by
  obtain ⟨e1, e2⟩ := code2 hc
  obtain ⟨d, h1, h2, h3⟩ := raw_step (i := .LdxZeroPage z) (mn := .Ldx) (am := .zeroPage z) hI hacc hpc hm hq
    (by rw [e1, e2]; rfl) rfl trivial (by intro w hw; cases hw)
  refine ⟨d, h1, ?_, ?_, ?_, h3⟩
  · show (regs d).pc = _
    rw [h2]
    exact nextPc_of hpc (by omega) (.zeroPage z)
  · rw [h2]; exact ⟨rfl, rfl, rfl, rfl, rfl, rfl, rfl⟩
  · rw [h2]; rfl

theorem raw_lda {W : Word → Prop} (hI : Coherent b I) (hacc : AcceptsAt b I W) (hpc : c.pc = word q)
    (hm : I c.address_map mem) (hq : q ≤ 65532) {z : Byte} (hc : CodeAt mem q [0xa5, z]) :
    ∃ d, StepIn b 3 c d ∧ d.pc = word (q + 2) ∧ KeptButX (regs c) (regs d) ∧ (regs d).x = (regs c).x ∧
      (regs d).a = mem (zp z) ∧ I d.address_map mem := by
  obtain ⟨e1, e2⟩ := code2 hc
  obtain ⟨d, h1, h2, h3⟩ := raw_step (i := .LdaZeroPage z) (mn := .Lda) (am := .zeroPage z) hI hacc hpc hm hq
    (by rw [e1, e2]; rfl) rfl trivial (by intro w hw; cases hw)
  refine ⟨d, h1, ?_, ?_, ?_, ?_, h3⟩
  · show (regs d).pc = _
    rw [h2]
    exact nextPc_of hpc (by omega) (.zeroPage z)
  · rw [h2]; exact ⟨rfl, rfl, rfl, rfl, rfl, rfl, rfl⟩
  · rw [h2]; rfl
  · rw [h2]; rfl

theorem raw_ldaX {W : Word → Prop} (hI : Coherent b I) (hacc : AcceptsAt b I W) (hpc : c.pc = word q)
    (hm : I c.address_map mem) (hq : q ≤ 65532) {w : Nat} (hw : w < 65536) (hc : CodeAt mem q (op16 0xbd w)) :
    ∃ d, StepIn b (4 + crosses w (word (w + (regs c).x.toNat)).toNat) c d ∧ d.pc = word (q + 3) ∧ KeptButX (regs c) (regs d) ∧
      (regs d).a = mem (word (w + (regs c).x.toNat)) ∧ I d.address_map mem := by
  obtain ⟨e1, e2, e3⟩ := code3 hc
  obtain ⟨d, h1, h2, h3⟩ := raw_step (i := .LdaAbsoluteIndexedWithX (word w)) (mn := .Lda) (am := .absoluteX (word w)) hI
    hacc hpc hm hq (by rw [e1, e2, e3]
                       show some (InstructionVariant.LdaAbsoluteIndexedWithX _) = _
                       rw [word_lohi]) rfl trivial (by intro w hw; cases hw)
  have et : baseCycles .Lda (.absoluteX (word w)) + codePenalty (regs c) mem .Lda (.absoluteX (word w)) =
      4 + crosses w (word (w + (regs c).x.toNat)).toNat := by
    show 4 + crosses (word w).toNat (word ((word w).toNat + (regs c).x.toNat)).toNat = _
    rw [toNat_word_lt _ hw]
  rw [et] at h1
  refine ⟨d, h1, ?_, ?_, ?_, h3⟩
  · show (regs d).pc = _
    rw [h2]
    exact nextPc_of hpc (by omega) (.absoluteX (word w))
  · rw [h2]; exact ⟨rfl, rfl, rfl, rfl, rfl, rfl, rfl⟩
  · rw [h2]
    show mem (word ((word w).toNat + (regs c).x.toNat)) = _
    rw [toNat_word_lt _ hw]

theorem raw_sta {W : Word → Prop} (hI : Coherent b I) (hacc : AcceptsAt b I W) (hpc : c.pc = word q)
    (hm : I c.address_map mem) (hq : q ≤ 65532) {z : Byte} (hW : W (zp z)) (hc : CodeAt mem q [0x85, z]) :
    ∃ d, StepIn b 3 c d ∧ d.pc = word (q + 2) ∧ KeptButX (regs c) (regs d) ∧
      I d.address_map (upd mem (zp z) (regs c).a) := by
  obtain ⟨e1, e2⟩ := code2 hc
  obtain ⟨d, h1, h2, h3⟩ := raw_step (i := .StaZeroPage z) (mn := .Sta) (am := .zeroPage z) hI hacc hpc hm hq
    (by rw [e1, e2]; rfl) rfl trivial (by
      intro w hw
      change w ∈ [(zp z, c.acc)] at hw
      rw [List.mem_singleton] at hw
      subst hw
      exact hW)
  refine ⟨d, h1, ?_, ?_, h3⟩
  · show (regs d).pc = _
    rw [h2]
    exact nextPc_of hpc (by omega) (.zeroPage z)
  · rw [h2]; exact ⟨rfl, rfl, rfl, rfl, rfl, rfl, rfl⟩

theorem raw_staX {W : Word → Prop} (hI : Coherent b I) (hacc : AcceptsAt b I W) (hpc : c.pc = word q)
    (hm : I c.address_map mem) (hq : q ≤ 65532) {w : Nat} (hw : w < 65536) (hW : W (word (w + (regs c).x.toNat)))
    (hc : CodeAt mem q (op16 0x9d w)) :
    ∃ d, StepIn b 5 c d ∧ d.pc = word (q + 3) ∧ KeptButX (regs c) (regs d) ∧
      I d.address_map (upd mem (word (w + (regs c).x.toNat)) (regs c).a) := by
  obtain ⟨e1, e2, e3⟩ := code3 hc
  have ew : word ((word w).toNat + (regs c).x.toNat) = word (w + (regs c).x.toNat) := by
    rw [toNat_word_lt _ hw]
  obtain ⟨d, h1, h2, h3⟩ := raw_step (i := .StaAbsoluteIndexedWithX (word w)) (mn := .Sta) (am := .absoluteX (word w)) hI
    hacc hpc hm hq (by rw [e1, e2, e3]
                       show some (InstructionVariant.StaAbsoluteIndexedWithX _) = _
                       rw [word_lohi]) rfl trivial (by
      intro v hv
      change v ∈ [(word ((word w).toNat + (regs c).x.toNat), c.acc)] at hv
      rw [List.mem_singleton] at hv
      subst hv
      show W (word ((word w).toNat + (regs c).x.toNat))
      rw [ew]
      exact hW)
  refine ⟨d, h1, ?_, ?_, ?_⟩
  · show (regs d).pc = _
    rw [h2]
    exact nextPc_of hpc (by omega) (.absoluteX (word w))
  · rw [h2]; exact ⟨rfl, rfl, rfl, rfl, rfl, rfl, rfl⟩
  · rw [← ew]
    exact h3

/-- The addresses programs write to. -/
def Written (base : κ → Nat) (a : Word) : Prop := a.toNat < 256 ∨ InArray base a.toNat

theorem inArray_word (hP : Placed base 256 65536) (t : κ) (j : Byte) :
    (word (base t + j.toNat)).toNat = base t + j.toNat ∧ InArray base (word (base t + j.toNat)).toNat := by
  have := hP.top t
  have hj := j.isLt
  have e : (word (base t + j.toNat)).toNat = base t + j.toNat := toNat_word_lt _ (by omega)
  exact ⟨e, t, by omega, by omega⟩

theorem holds_var [DecidableEq ι] (hP : Placed base 256 65536) (hl : ∀ x y, loc x = loc y → x = y)
    (h : Holds loc base mem₀ s mem) (x : ι) (v : Byte) :
    Holds loc base mem₀ { s with var := put s.var x v } (upd mem (zp (loc x)) v) where
  var y := by
    show (if zp (loc y) = zp (loc x) then v else mem (zp (loc y))) = if y = x then v else s.var y
    by_cases e : y = x
    · rw [if_pos e, if_pos (by rw [e])]
    · rw [if_neg e, if_neg (fun e' => e (hl _ _ (zp_inj e'))), h.var]
  arr t j := by
    show (if word (base t + j.toNat) = zp (loc x) then v else mem (word (base t + j.toNat))) = s.arr t j
    rw [if_neg, h.arr]
    intro e
    have := zp_lt (loc x)
    rw [← e, (inArray_word hP t j).1] at this
    have := hP.bottom t
    omega
  other a ha hn := by
    show (if a = zp (loc x) then v else mem a) = _
    rw [if_neg (ha x), h.other a ha hn]

theorem holds_arr [DecidableEq κ] (hP : Placed base 256 65536) (h : Holds loc base mem₀ s mem) (t : κ) (i v : Byte) :
    Holds loc base mem₀ { s with arr := fun t' j => if t' = t ∧ j = i then v else s.arr t' j }
      (upd mem (word (base t + i.toNat)) v) where
  var y := by
    show (if zp (loc y) = word (base t + i.toNat) then v else mem (zp (loc y))) = s.var y
    rw [if_neg, h.var]
    intro e
    have := zp_lt (loc y)
    rw [e, (inArray_word hP t i).1] at this
    have := hP.bottom t
    omega
  arr t' j := by
    show (if word (base t' + j.toNat) = word (base t + i.toNat) then v else mem (word (base t' + j.toNat))) =
      if t' = t ∧ j = i then v else s.arr t' j
    by_cases e : t' = t ∧ j = i
    · rw [if_pos e, if_pos (by rw [e.1, e.2])]
    · rw [if_neg e, if_neg, h.arr]
      intro e'
      have e' := congrArg BitVec.toNat e'
      rw [(inArray_word hP t i).1, (inArray_word hP t' j).1] at e'
      have hi := i.isLt
      have hj := j.isLt
      by_cases ht : t' = t
      · subst ht
        exact e ⟨rfl, BitVec.eq_of_toNat_eq (by omega)⟩
      · have := hP.apart _ _ ht
        omega
  other a ha hn := by
    show (if a = word (base t + i.toNat) then v else mem a) = _
    rw [if_neg, h.other a ha hn]
    rintro rfl
    exact hn (inArray_word hP t i).2

theorem ProgramIn.split {p : Nat} {u v : List Byte} (h : ProgramIn base mem₀ p (u ++ v)) :
    ProgramIn base mem₀ p u ∧ ProgramIn base mem₀ (p + u.length) v := by
  obtain ⟨h1, h2, h3⟩ := h
  rw [List.length_append] at h2 h3
  refine ⟨⟨⟨h1.1, h1.split.1⟩, by omega, fun k hk => h3 k (by omega)⟩, h1.split.2, by omega, fun k hk => ?_⟩
  have := h3 (u.length + k) (by omega)
  rwa [← Nat.add_assoc] at this

omit [Addressable B] in
theorem raw_here {d : Mos6502 B} (hm : I d.address_map mem) (hmem : Holds loc base mem₀ s mem) (hpc : d.pc = word q)
    (hk : KeptButX r₀ (regs d)) : Here I base r₀ mem₀ q d :=
  ArraysAt.here (loc := loc) (s := s) ⟨hpc, hk, mem, hm, hmem⟩

/-- The instructions of an action. -/
theorem array_act [DecidableEq ι] [DecidableEq κ] (hI : Coherent b I) (hacc : AcceptsAt b I (Written base))
    (hP : Placed base 256 65536) (hl : ∀ x y, loc x = loc y → x = y) {p : Nat} {a : Action ι κ}
    (hc : ProgramIn base mem₀ p ((mosArrays loc base).act a)) (hp : p + (mosArrays loc base).bytes ((mosArrays loc base).act a) ≤ 65532)
    (hs : ArraysAt I loc base r₀ mem₀ s p c) :
    ∃ t, Path (OneStep b) (Here I base r₀ mem₀) p (p + (mosArrays loc base).bytes ((mosArrays loc base).act a)) ((mosArrayCosts ι κ).act a) c t ∧
      Lasts b ((mosArrayTimes ι base).act a s) ((mosArrayCosts ι κ).act a) c t ∧
      ArraysAt I loc base r₀ mem₀ ((arrays ι κ).eval a s) (p + (mosArrays loc base).bytes ((mosArrays loc base).act a)) t := by
  have hacc' : AcceptsAt b I fun a => a.toNat < 256 := fun bus mem hm a ha => hacc bus mem hm a (.inl ha)
  obtain ⟨mem, hm, hmem⟩ := hs.memory
  have h0 := hc.1.1
  cases a with
  | base a =>
    have hcode : ProgramAt mem p ((mosTarget 5).act (a.map loc)) := hc.current hmem
    obtain ⟨t, h1, ht, h3⟩ := act_part (a := a.map loc) hI hacc' hcode hp (Props.isAt_self hm hs.pc)
    have ec : (mosArrayCosts ι κ).act (.base a) = mosCosts.act (a.map loc) := by cases a <;> rfl
    have et : (mosArrayTimes ι base).act (.base a) s = actTime (a.map loc) := by cases a <;> rfl
    refine ⟨t, ?_, by rw [ec, et]; exact ht, h3.pc, keptButX_trans hs.kept (keptButX_of h3.kept), ?_⟩
    · rw [ec]
      refine Path.of h1 fun σ q d hd => ⟨hd.pc, keptButX_trans hs.kept (keptButX_of hd.kept), ?_⟩
      obtain ⟨mem', e1, -, e3⟩ := hd.memory
      obtain ⟨mem'', f1, f2⟩ := hs.here.memory
      refine ⟨mem', e1, fun a ha hn => ?_⟩
      rw [e3 a ha, hmem.other a (fun x e => ?_) hn]
      have := zp_lt (loc x)
      rw [← e] at this
      omega
    · obtain ⟨mem', e1, e2, e3⟩ := h3.memory
      refine ⟨mem', e1, fun x => ?_, fun t j => ?_, fun z hz hn => ?_⟩
      · have : (fun y => (a.map loc).eval (zeroPage mem) (loc y)) = a.eval (fun y => zeroPage mem (loc y)) :=
          Spec.Structured.eval_map hl a _
        have h4 := congrFun this x
        rw [← e2] at h4
        have e5 : (fun y => zeroPage mem (loc y)) = s.var := funext hmem.var
        rw [e5] at h4
        exact h4
      · rw [e3 _ (by have := hP.bottom t; rw [(inArray_word hP t j).1]; omega)]
        exact hmem.arr t j
      · by_cases hz' : z.toNat < 256
        · have ez : z = zp (BitVec.ofNat 8 z.toNat) := by
            apply BitVec.eq_of_toNat_eq
            unfold zp
            rw [toNat_word_lt _ (by have := (BitVec.ofNat 8 z.toNat).isLt; omega), BitVec.toNat_ofNat]
            omega
          have h5 : mem' (zp (BitVec.ofNat 8 z.toNat)) = zeroPage mem (BitVec.ofNat 8 z.toNat) := by
            show zeroPage mem' _ = _
            rw [e2]
            exact Spec.Structured.eval_map_other a _ fun x e => hz x (by rw [ez, ← e])
          rw [← hmem.other z hz hn, ez]
          exact h5
        · rw [e3 z (by omega), hmem.other z hz hn]
  | read x t i =>
    change p + 7 ≤ 65532 at hp
    have hcode := hc.current hmem
    obtain ⟨c1, hcode⟩ := ProgramAt.split (u := [0xa6, loc i]) (v := op16 0xbd (base t) ++ [0x85, loc x]) hcode
    obtain ⟨c2, c3⟩ := hcode.split
    have ht := hP.top t
    obtain ⟨d, s1, p1, k1, x1, m1⟩ := raw_ldx hI hacc hs.pc hm (by omega) c1
    obtain ⟨e, s2, p2, k2, a2, m2⟩ := raw_ldaX hI hacc p1 m1 (by omega) (by omega) c2
    obtain ⟨f, s3, p3, k3, m3⟩ := raw_sta hI hacc p2 m2 (by omega) (.inl (zp_lt _)) c3.2
    rw [a2, x1, hmem.var i, hmem.arr t] at m3
    rw [x1, hmem.var i, (inArray_word hP t _).1] at s2
    have ex : crosses (base t) (base t + (s.var i).toNat) = if base t % 256 + (s.var i).toNat < 256 then 0 else 1 := by
      have := (s.var i).isLt
      unfold crosses
      by_cases h : base t % 256 + (s.var i).toNat < 256
      · rw [if_pos h, if_pos (by omega)]
      · rw [if_neg h, if_neg (by omega)]
    rw [ex] at s2
    have j1 := keptButX_trans hs.kept k1
    have j2 := keptButX_trans j1 k2
    refine ⟨f, .cons hs.here (Nat.le_refl _) (by show p < p + 7; omega) s1.one (.cons (raw_here m1 hmem p1 j1) (by omega)
      (by show p + 2 < p + 7; omega) s2.one (.cons (raw_here m2 hmem p2 j2) (by omega)
      (by show p + 2 + 3 < p + 7; omega) s3.one .nil)), (s1.lasts.trans s2.lasts).trans s3.lasts, p3, keptButX_trans j2 k3, _, m3, holds_var hP hl hmem _ _⟩
  | write t i x =>
    change p + 7 ≤ 65532 at hp
    have hcode := hc.current hmem
    obtain ⟨c1, hcode⟩ := ProgramAt.split (u := [0xa6, loc i]) (v := [0xa5, loc x] ++ op16 0x9d (base t)) hcode
    obtain ⟨c2, c3⟩ := hcode.split
    have ht := hP.top t
    obtain ⟨d, s1, p1, k1, x1, m1⟩ := raw_ldx hI hacc hs.pc hm (by omega) c1
    obtain ⟨e, s2, p2, k2, x2, a2, m2⟩ := raw_lda hI hacc p1 m1 (by omega) c2
    obtain ⟨f, s3, p3, k3, m3⟩ := raw_staX hI hacc p2 m2 (by omega) (w := base t) (by omega)
      (by rw [x2, x1]; exact .inr (inArray_word hP t _).2) c3.2
    rw [x2, a2, x1, hmem.var i, hmem.var x] at m3
    have j1 := keptButX_trans hs.kept k1
    have j2 := keptButX_trans j1 k2
    refine ⟨f, .cons hs.here (Nat.le_refl _) (by show p < p + 7; omega) s1.one (.cons (raw_here m1 hmem p1 j1) (by omega)
      (by show p + 2 < p + 7; omega) s2.one (.cons (raw_here m2 hmem p2 j2) (by omega)
      (by show p + 2 + 2 < p + 7; omega) s3.one .nil)), (s1.lasts.trans s2.lasts).trans s3.lasts, p3, keptButX_trans j2 k3, _, m3, holds_arr hP hmem _ _ _⟩

/-- The instructions of a test. -/
theorem array_test [DecidableEq ι] [DecidableEq κ] (hI : Coherent b I) (hacc : AcceptsAt b I (Written base)) {p : Nat} {g : Guard ι}
    (hc : ProgramIn base mem₀ p ((mosArrays loc base).test g)) (hp : p + (mosArrays loc base).bytes ((mosArrays loc base).test g) + (mosArrays loc base).jumpSize ≤ 65532)
    (hs : ArraysAt I loc base r₀ mem₀ s p c) :
    ∃ t, Path (OneStep b) (Here I base r₀ mem₀) p (p + (mosArrays loc base).bytes ((mosArrays loc base).test g)) 3 c t ∧
      (g.Holds s.var → Lasts b ((mosArrayTimes ι base).testTrue p g) 3 c t ∧
        ArraysAt I loc base r₀ mem₀ s (p + (mosArrays loc base).bytes ((mosArrays loc base).test g) + (mosArrays loc base).jumpSize) t) ∧
      (¬ g.Holds s.var → Lasts b ((mosArrayTimes ι base).testFalse p g) 3 c t ∧
        ArraysAt I loc base r₀ mem₀ s (p + (mosArrays loc base).bytes ((mosArrays loc base).test g)) t) := by
  have hacc' : AcceptsAt b I fun a => a.toNat < 256 := fun bus mem hm a ha => hacc bus mem hm a (.inl ha)
  obtain ⟨mem, hm, hmem⟩ := hs.memory
  have : p + 6 ≤ 65532 := by
    cases g <;> (change p + 9 ≤ 65532 at hp; omega)
  obtain ⟨t, h1, ht, h3⟩ := test_lands (d := 5) (g := g.map loc) (by decide) hI hacc' (hc.current hmem) this
    (Props.isAt_self hm hs.pc)
  have el : (mosArrays (κ := κ) loc base).bytes ((mosArrays (κ := κ) loc base).test g) = 6 := by cases g <;> rfl
  have e5 : (fun y => zeroPage mem (loc y)) = s.var := funext hmem.var
  have eg : (g.map loc).Holds (zeroPage mem) ↔ g.Holds s.var := by rw [Spec.Structured.holds_map, e5]
  have fin : ∀ q, IsAt I (regs c) mem (zeroPage mem) q t → ArraysAt I loc base r₀ mem₀ s q t := by
    intro q hq
    obtain ⟨mem', e1, e2, e3⟩ := hq.memory
    have em : mem' = mem := by
      funext z
      by_cases hz : z.toNat < 256
      · have ez : z = zp (BitVec.ofNat 8 z.toNat) := by
          apply BitVec.eq_of_toNat_eq
          unfold zp
          rw [toNat_word_lt _ (by have := (BitVec.ofNat 8 z.toNat).isLt; omega), BitVec.toNat_ofNat]
          omega
        rw [ez]
        exact congrFun e2 _
      · exact e3 z (by omega)
    subst em
    exact ⟨hq.pc, keptButX_trans hs.kept (keptButX_of hq.kept), _, e1, hmem⟩
  rw [el]
  have et : compareTime (g.map loc) = (mosArrayTimes.untaken ι g) - 5 := by cases g <;> rfl
  have eu : 5 ≤ mosArrayTimes.untaken ι g := by cases g <;> simp [mosArrayTimes.untaken]
  have e5' : (5 : Byte).toNat = 5 := rfl
  rw [et, e5', Nat.mod_eq_of_lt (by omega)] at ht
  refine ⟨t, ?_, fun hg => ?_, fun hg => ?_⟩
  · refine Path.of h1 fun σ q d hd => ⟨hd.pc, keptButX_trans hs.kept (keptButX_of hd.kept), ?_⟩
    obtain ⟨mem', e1, -, e3⟩ := hd.memory
    refine ⟨mem', e1, fun a ha hn => ?_⟩
    rw [e3 a ha, hmem.other a (fun x e => ?_) hn]
    have := zp_lt (loc x)
    rw [← e] at this
    omega
  · rw [if_pos (eg.2 hg)] at h3 ht
    refine ⟨?_, fin _ h3⟩
    have e : 3 + (mosArrayTimes.untaken ι g - 5) + (3 + crosses (p + 4 + 5) (p + 4)) =
        (mosArrayTimes ι base).testTrue p g := by
      show _ = mosArrayTimes.untaken ι g + 1 + crosses (p + 9) (p + 4)
      rw [show p + 4 + 5 = p + 9 by omega]
      omega
    rw [← e]
    exact ht
  · rw [if_neg (fun h => hg (eg.1 h))] at h3 ht
    refine ⟨?_, fin _ h3⟩
    have e : 3 + (mosArrayTimes.untaken ι g - 5) + 2 = (mosArrayTimes ι base).testFalse p g := by
      show _ = mosArrayTimes.untaken ι g
      omega
    rw [← e]
    exact ht

/-- A jump. -/
theorem array_jump (hI : Coherent b I) (hacc : AcceptsAt b I (Written base)) {p l : Nat} (hc : ProgramIn base mem₀ p ((mosArrays loc base).jump l))
    (hp : p + (mosArrays loc base).jumpSize ≤ 65532) (hs : ArraysAt I loc base r₀ mem₀ s p c) :
    ∃ t, Path (OneStep b) (Here I base r₀ mem₀) p (p + (mosArrays loc base).jumpSize) 1 c t ∧
      Lasts b (mosArrayTimes ι base).jump 1 c t ∧ ArraysAt I loc base r₀ mem₀ s l t := by
  change p + 3 ≤ 65532 at hp
  obtain ⟨mem, hm, hmem⟩ := hs.memory
  obtain ⟨e1, e2, e3⟩ := code3 (hc.current hmem).2
  obtain ⟨d, h1, h2, h3⟩ := raw_step (i := .JmpAbsolute (word l)) (mn := .Jmp) (am := .absolute (word l)) hI hacc
    hs.pc hm (by omega) (by rw [e1, e2, e3]
                            show some (InstructionVariant.JmpAbsolute _) = _
                            rw [word_lohi]) rfl trivial (by intro w hw; cases hw)
  refine ⟨d, .cons hs.here (Nat.le_refl _) (by show p < p + 3; omega) h1.one .nil, h1.lasts, ?_, ?_, mem, h3, hmem⟩
  · show (regs d).pc = _
    rw [h2]; rfl
  · refine keptButX_trans hs.kept ?_
    rw [h2]
    exact ⟨rfl, rfl, rfl, rfl, rfl, rfl, rfl⟩

/-- The parts of the code work on the emulator. -/
theorem mosArrays_works [DecidableEq ι] [DecidableEq κ] (hI : Coherent b I) (hacc : AcceptsAt b I (Written base))
    (hP : Placed base 256 65536) (hl : ∀ x y, loc x = loc y → x = y) :
    Works (arrays ι κ) (mosArrays loc base) (mosArrayCosts ι κ) (OneStep b) (ArraysAt I loc base r₀ mem₀)
      (Here I base r₀ mem₀) (ProgramIn base mem₀) 65532 where
  jumpSize l := rfl
  append := by
    rintro p u v h
    rw [show p + (mosArrays loc base).bytes u = p + u.length by show p + 1 * u.length = _; omega]
    exact h.split
  act := by
    rintro p a s c hc hp hs
    obtain ⟨t, h1, -, h3⟩ := array_act hI hacc hP hl hc hp hs
    exact ⟨t, h1, h3⟩
  test := by
    rintro p g s c hc hp hs
    obtain ⟨t, h1, h2, h3⟩ := array_test hI hacc hc hp hs
    exact ⟨t, h1, fun hg => (h2 hg).2, fun hg => (h3 hg).2⟩
  jump := by
    rintro p l s c hc hp _ hs
    obtain ⟨t, h1, -, h3⟩ := array_jump hI hacc hc hp hs
    exact ⟨t, h1, h3⟩

theorem flow_instructions {here : Nat → Mos6502 B → Prop} {lo hi n : Nat} {e : Mos6502 B}
    (h : Path (OneStep b) here lo hi n c e) : ∃ l, Instructions b c l e ∧ l.length = n := by
  induction h with
  | nil => exact ⟨[], .nil _, rfl⟩
  | cons _ _ _ hs _ ih =>
    obtain ⟨ops, hn⟩ := hs
    obtain ⟨l, hl, rfl⟩ := ih
    exact ⟨ops :: l, .cons hn hl, rfl⟩

/-- What memory means for a program with arrays. -/
def stateOf (loc : ι → Byte) (base : κ → Nat) (mem : Mem) : State ι κ where
  var x := zeroPage mem (loc x)
  arr t j := mem (word (base t + j.toNat))

omit [Addressable B] in
theorem arraysAt_self {p : Nat} (hm : I c.address_map mem) (hpc : c.pc = word p) :
    ArraysAt I loc base (regs c) mem (stateOf loc base mem) p c :=
  ⟨hpc, ⟨rfl, rfl, rfl, rfl, rfl, rfl, rfl⟩, mem, hm, fun _ => rfl, fun _ _ => rfl, fun _ _ _ => rfl⟩

end

end Verif.Mos

namespace Verif.Props

open Verif Verif.Mos Verif.Spec.Mos Verif.Spec.Flow Verif.Flow

section
variable {ι κ : Type} {B : Type} [Addressable B] {b : Build} {I : B → Mem → Prop} {mem : Mem} {p : Nat} {c : Mos6502 B}
  {loc : ι → Byte} {base : κ → Nat} [DecidableEq ι] [DecidableEq κ] {prog : Program ι κ}

/-- C134 for the 6502, programs that end: if a program ends after `n` instructions in the state `s'`,
the emulator is behind its code after `n` instructions, with this state in variables and arrays; the
other memory, Y, the stack pointer and the other flags are unchanged. -/
theorem C134_mos_result (hI : Coherent b I) (hacc : AcceptsAt b I (Written base)) (hP : Placed base 256 65536)
    (hl : ∀ x y, loc x = loc y → x = y) (hm : I c.address_map mem) (hpc : c.pc = word p)
    (hcode : ProgramIn base mem p ((mosArrays loc base).compile p prog))
    (hp : p + (mosArrays loc base).size prog ≤ 65532) {n : Nat} {s' : State ι κ}
    (h : Exec (arrays ι κ) (mosArrayCosts ι κ) prog (stateOf loc base mem) n s') :
    ∃ l d, Instructions b c l d ∧ l.length = n ∧ run b c (totalCycles l) = .ok (.ready d) ∧
      d.pc = word (p + (mosArrays loc base).size prog) ∧ KeptButX (regs c) (regs d) ∧
      ∃ mem', I d.address_map mem' ∧ Holds loc base mem s' mem' := by
  obtain ⟨d, hd, h1, h2, h3⟩ := compile_exec (mosArrays_works hI hacc hP hl) h hcode hp (arraysAt_self hm hpc)
  obtain ⟨l, hl, hn⟩ := flow_instructions hd
  exact ⟨l, d, hl, hn, C12_run_eq hl (Nat.le_refl _) (.inl rfl), h1, h2, h3⟩

/-- C134 for the 6502, programs that do not end: for any number of cycles the emulator is inside the
code, without a panic; memory outside the zero page and the arrays, Y, the stack pointer and the other
flags are unchanged. -/
theorem C134_mos_endless (hI : Coherent b I) (hacc : AcceptsAt b I (Written base)) (hP : Placed base 256 65536)
    (hl : ∀ x y, loc x = loc y → x = y) (hm : I c.address_map mem) (hpc : c.pc = word p)
    (hcode : ProgramIn base mem p ((mosArrays loc base).compile p prog))
    (hp : p + (mosArrays loc base).size prog ≤ 65532)
    (h : ¬ Ends (arrays ι κ) (mosArrayCosts ι κ) prog (stateOf loc base mem)) (cycles : Nat) :
    ∃ d q, run b c cycles = .ok (.ready d) ∧ d.pc = word q ∧ p ≤ q ∧ q < p + (mosArrays loc base).size prog ∧
      KeptButX (regs c) (regs d) ∧ ∃ mem', I d.address_map mem' ∧
        ∀ a : Word, 256 ≤ a.toNat → ¬ InArray base a.toNat → mem' a = mem a := by
  have key := compile_endless (mosArrays_works hI hacc hP hl) h hcode hp (arraysAt_self hm hpc)
  cases hr : run b c cycles with
  | error e =>
    obtain ⟨l, d, h1, -, h3⟩ := C12_panic.1 hr
    obtain ⟨t, q, ht, -⟩ := key (l.length + 1)
    obtain ⟨l', hl', hlen⟩ := flow_instructions ht
    obtain ⟨ops, f, hf⟩ := instructions_go_on h1 hl' hlen
    rw [hf] at h3
    cases h3
  | ok s =>
    obtain ⟨l, d, h1, -, rfl, -⟩ := C12_run_ok hr
    obtain ⟨t, q, ht, hat, hq⟩ := key l.length
    obtain ⟨l', hl', hlen⟩ := flow_instructions ht
    obtain ⟨-, rfl⟩ := instructions_same h1 hl' hlen.symm
    exact ⟨d, q, rfl, hat.pc, hq.1, hq.2, hat.kept, hat.memory⟩

/-- C134 for the 6502: the emulator gets behind the code exactly if the program ends. -/
theorem C134_mos_ends_iff (hI : Coherent b I) (hacc : AcceptsAt b I (Written base)) (hP : Placed base 256 65536)
    (hl : ∀ x y, loc x = loc y → x = y) (hm : I c.address_map mem) (hpc : c.pc = word p)
    (hcode : ProgramIn base mem p ((mosArrays loc base).compile p prog))
    (hp : p + (mosArrays loc base).size prog ≤ 65532) :
    (∃ cycles d, run b c cycles = .ok (.ready d) ∧ d.pc = word (p + (mosArrays loc base).size prog)) ↔
      Ends (arrays ι κ) (mosArrayCosts ι κ) prog (stateOf loc base mem) := by
  constructor
  · rintro ⟨n, d, hd, hq⟩
    refine Classical.byContradiction fun hno => ?_
    obtain ⟨d', q, hr, h1, h2, h3, -⟩ := C134_mos_endless hI hacc hP hl hm hpc hcode hp hno n
    rw [hd] at hr
    injection hr with hr
    injection hr with hr
    subst hr
    rw [hq] at h1
    have := congrArg BitVec.toNat h1
    rw [toNat_word_lt _ (by omega), toNat_word_lt _ (by omega)] at this
    omega
  · rintro ⟨n, σ, h⟩
    obtain ⟨l, d, -, -, h3, h4, -⟩ := C134_mos_result hI hacc hP hl hm hpc hcode hp h
    exact ⟨_, d, h3, h4⟩

end

end Verif.Props
