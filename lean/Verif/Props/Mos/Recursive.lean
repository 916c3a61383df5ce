import Verif.Proofs.Recursive
import Verif.Proofs.MosStack
import Verif.Props.Mos.Structured

/-!
# C95: recursive programs on the 6502

Procedures are called with `JSR` and return with `RTS`; a variable is kept by pushing it with `PHA`
and pulling it with `PLA`. The rest of the code is that of C92, with branches as the emulator counts
them.
-/

namespace Verif.Mos

open Verif Verif.Spec.Mos Verif.Spec.Structured Verif.Spec.Recursive Verif.Structured Verif.Recursive

/-- The 6502 with its stack as a target. -/
def mosRTarget : RTarget Byte Byte where
  toTarget := mosTarget 5
  call := op16 0x20
  callSize := 3
  ret := [0x60]
  save x := [0xa5, x] ++ [0x48]
  restore x := [0x68] ++ [0x85, x]

/-- The bytes of the frames, top first; a return address is stored less 1, low byte on top. -/
def frameBytes : List Frame → List Byte
  | [] => []
  | .ret r :: fs => byte (r + 65535) :: byte ((r + 65535) / 256) :: frameBytes fs
  | .val v :: fs => v :: frameBytes fs

theorem frameBytes_length (fs : List Frame) : (frameBytes fs).length = room fs := by
  induction fs with
  | nil => rfl
  | cons f fs ih =>
    cases f with
    | ret r => simp only [frameBytes, room, List.length_cons, ih]; omega
    | val v => simp only [frameBytes, room, List.length_cons, ih]; omega

section
variable {B : Type} [Addressable B]

/-- The CPU is at `q`, the zero page holds `σ`, the stack holds the frames on top of `l`; memory from
512 on and the registers other than A, pc, the stack pointer and the arithmetic flags are as in
`mem₀` and `r₀`. -/
structure Within (I : B → Mem → Prop) (r₀ : Regs) (mem₀ : Mem) (l : List Byte) (fs : List Frame)
    (σ : Store Byte) (q : Nat) (c : Mos6502 B) : Prop where
  pc : c.pc = word q
  kept : Kept r₀ { regs c with sp := r₀.sp }
  sp : (c.sp.toNat + room fs) % 256 = r₀.sp.toNat
  memory : ∃ mem, I c.address_map mem ∧ zeroPage mem = σ ∧ (∀ a : Word, 512 ≤ a.toNat → mem a = mem₀ a) ∧
    StackHolds mem c.sp (frameBytes fs ++ l)

variable {b : Build} {I : B → Mem → Prop} {r₀ : Regs} {mem₀ : Mem} {l : List Byte} {fs : List Frame}
  {σ : Store Byte} {q : Nat} {c : Mos6502 B}

/-- The program bytes `ws` lie at `p`, above the zero page and the stack. -/
def ProgramAbove (mem : Mem) (p : Nat) (ws : List Byte) : Prop := 512 ≤ p ∧ CodeAt mem p ws

theorem ProgramAbove.split {p : Nat} {u v : List Byte} (h : ProgramAbove mem₀ p (u ++ v)) :
    ProgramAbove mem₀ p u ∧ ProgramAbove mem₀ (p + u.length) v :=
  ⟨⟨h.1, (codeAt_append h.2).1⟩, ⟨by have := h.1; omega, (codeAt_append h.2).2⟩⟩

theorem ProgramAbove.at {mem : Mem} {p : Nat} {ws : List Byte} (h : ProgramAbove mem₀ p ws)
    (hp : p + ws.length ≤ 65536) (hm : ∀ a : Word, 512 ≤ a.toNat → mem a = mem₀ a) : ProgramAt mem p ws := by
  refine ⟨by have := h.1; omega, fun k hk => ?_⟩
  have h1 := h.1
  rw [hm _ (by rw [toNat_word_lt _ (by omega)]; omega)]
  exact h.2 k hk

theorem stack_ge (n : Nat) : 256 ≤ (stack n).toNat ∧ (stack n).toNat < 512 := by
  unfold stack
  rw [toNat_word]
  omega

omit [Addressable B] in
/-- The state as C92 sees it. -/
theorem Within.isAt (h : Within I r₀ mem₀ l fs σ q c) :
    ∃ mem, IsAt I (regs c) mem σ q c ∧ (∀ a : Word, 512 ≤ a.toNat → mem a = mem₀ a) ∧
      ∀ {σ' q' d}, IsAt I (regs c) mem σ' q' d → Within I r₀ mem₀ l fs σ' q' d := by
  obtain ⟨mem, h1, h2, h3, h4⟩ := h.memory
  refine ⟨mem, ⟨h.pc, ⟨rfl, rfl, rfl, rfl, rfl, rfl, rfl⟩, mem, h1, h2, fun _ _ => rfl⟩, h3, ?_⟩
  intro σ' q' d k
  obtain ⟨mem', m1, m2, m3⟩ := k.memory
  have hsp : d.sp = c.sp := k.kept.sp
  have k1 : Kept r₀ { regs d with sp := r₀.sp } :=
    ⟨k.kept.x.trans h.kept.x, k.kept.y.trans h.kept.y, rfl, k.kept.decimal.trans h.kept.decimal,
      k.kept.interrupt.trans h.kept.interrupt, k.kept.brk.trans h.kept.brk, k.kept.unused.trans h.kept.unused⟩
  refine ⟨k.pc, k1, by rw [hsp]; exact h.sp, mem', m1, m2, ?_, ?_⟩
  · intro a ha
    rw [m3 a (by omega), h3 a ha]
  · rw [hsp]
    refine ⟨h4.1, fun i hi => ?_⟩
    rw [m3 _ (stack_ge _).1]
    exact h4.2 i hi

/-- One instruction of the program that may write to the zero page and the stack. -/
theorem next_within (hI : Coherent b I) (hacc : AcceptsAt b I fun a => a.toNat < 512) {mem : Mem}
    (hm : I c.address_map mem) (hpc : c.pc = word q) {i : InstructionVariant} {mn : Mnemonic} {am : AddrMode}
    (hq' : q ≤ 65532)
    (hp : Isa.parseInstruction (mem (word q)) (mem (word q + 1)) (mem (word q + 2)) = some i)
    (hi : view i = (mn, am)) (hok : AddrOk b (regs c) mem am)
    (hW : ∀ w ∈ (codeEffect (regs c) mem mn am).writes, w.1.toNat < 512) :
    ∃ d, StepIn b (baseCycles mn am + codePenalty (regs c) mem mn am) c d ∧
      regs d = (codeEffect (regs c) mem mn am).regs ∧
      I d.address_map (store mem (codeEffect (regs c) mem mn am).writes) := by
  have hpc' : (regs c).pc = word q := hpc
  have := reaches_one (b := b) (I := I) (r := regs c) (mem := mem) hI hacc (i := i) (mn := mn) (am := am)
    (pcOk_of hpc' (by omega)) (by rw [hpc']; exact hp) hi hok hW
  obtain ⟨l, d, k1, k2, k3, k4, k5⟩ := this c rfl hm
  cases k1 with
  | nil => cases k2
  | cons hn hr =>
    cases hr with
    | nil => exact ⟨d, ⟨_, hn, by simpa [totalCycles] using k3⟩, k4, k5⟩
    | cons => simp at k2

theorem accepts_zero_page (hacc : AcceptsAt b I fun a => a.toNat < 512) :
    AcceptsAt b I fun a => a.toNat < 256 :=
  fun bus mem h a ha v => hacc bus mem h a (Nat.lt_trans ha (by decide)) v

theorem zeroPage_upd (mem : Mem) (n : Nat) (v : Byte) : zeroPage (upd mem (stack n) v) = zeroPage mem := by
  funext x
  show (if zp x = stack n then v else mem (zp x)) = mem (zp x)
  rw [if_neg]
  intro e
  have h1 := zp_lt x
  have h2 := (stack_ge n).1
  rw [e] at h1
  omega

theorem above_upd {mem : Mem} (n : Nat) (v : Byte) {a : Word} (ha : 512 ≤ a.toNat) :
    upd mem (stack n) v a = mem a := by
  unfold upd
  rw [if_neg]
  rintro rfl
  have := (stack_ge n).2
  omega

omit [Addressable B] in
theorem map_path {step : Mos6502 B → Mos6502 B → Prop} {rel rel' : Store Byte → Nat → Mos6502 B → Prop}
    {lo hi n : Nat} {d : Mos6502 B}
    (hr : ∀ {σ q e}, rel σ q e → rel' σ q e) (h : Path step rel lo hi n c d) : Path step rel' lo hi n c d := by
  induction h with
  | nil => exact .nil
  | cons h h1 h2 hs _ ih => exact .cons (hr h) h1 h2 hs ih

theorem jsrStep (hI : Coherent b I) (hacc : AcceptsAt b I fun a => a.toNat < 512)
    (h : Within I r₀ mem₀ l fs σ q c) {e : Nat} (hc : ProgramAbove mem₀ q (op16 0x20 e)) (hq : q + 3 ≤ 65532)
    (hroom : room fs + 2 + l.length ≤ 256) :
    ∃ d, StepIn b 6 c d ∧ Within I r₀ mem₀ l (.ret (q + 3) :: fs) σ e d := by
  obtain ⟨mem, h1, h2, h3, h4⟩ := h.memory
  obtain ⟨e1, e2, e3⟩ := code3 (hc.at (by show q + 3 ≤ 65536; omega) h3).2
  obtain ⟨d, s1, s2, s3⟩ := next_within (i := .JsrAbsolute (word e)) (mn := .Jsr) (am := .absolute (word e)) hI hacc
    h1 h.pc (by omega) (by rw [e1, e2, e3]; show some (InstructionVariant.JsrAbsolute _) = _; rw [word_lohi]) rfl
    trivial (by
      intro w hw
      change w ∈ [(stack c.sp.toNat, _), (stack (c.sp - 1).toNat, _)] at hw
      rcases List.mem_cons.1 hw with rfl | hw
      · exact (stack_ge _).2
      · rw [List.mem_singleton] at hw
        subst hw
        exact (stack_ge _).2)
  change regs d = { regs c with sp := c.sp - 2, pc := word e } at s2
  have hsp : d.sp = c.sp - 2 := congrArg Regs.sp s2
  have e4 : (c.sp - 2).toNat = (c.sp.toNat + 254) % 256 := toNat_sub_byte c.sp 2 (by omega)
  have e5 : (c.sp - 1).toNat = (c.sp.toNat + 255) % 256 := toNat_sub_byte c.sp 1 (by omega)
  have e6 : (c.sp - 1 - 1 : Byte) = c.sp - 2 := by
    apply BitVec.eq_of_toNat_eq
    have h' : (c.sp - 1 - 1).toNat = ((c.sp - 1).toNat + 255) % 256 := toNat_sub_byte (c.sp - 1) 1 (by omega)
    rw [h', e5, e4]; omega
  have hlt := c.sp.isLt
  have hlt' := r₀.sp.isLt
  have hlen : (frameBytes fs ++ l).length = room fs + l.length := by
    rw [List.length_append, frameBytes_length]
  have ew : c.pc + 2 = word (q + 2) := by rw [h.pc]; exact word_add q 2
  have b1 : (u16ToLeBytes (c.pc + 2)).2 = byte ((q + 3 + 65535) / 256) := by
    rw [(hi_lo_word _).1, ew, toNat_word_lt _ (by omega)]
    apply BitVec.eq_of_toNat_eq
    rw [toNat_byte, toNat_byte]
    omega
  have b2 : (u16ToLeBytes (c.pc + 2)).1 = byte (q + 3 + 65535) := by
    rw [(hi_lo_word _).2, ew, toNat_word_lt _ (by omega)]
    apply BitVec.eq_of_toNat_eq
    rw [toNat_byte, toNat_byte]
    omega
  refine ⟨d, s1, congrArg Regs.pc s2, ?_, ?_, _, s3, ?_, ?_, ?_⟩
  · rw [s2]; exact ⟨h.kept.x, h.kept.y, rfl, h.kept.decimal, h.kept.interrupt, h.kept.brk, h.kept.unused⟩
  · have := h.sp
    rw [hsp, e4]
    simp only [room]
    omega
  · show zeroPage (upd (upd mem (stack c.sp.toNat) _) (stack (c.sp - 1).toNat) _) = σ
    rw [zeroPage_upd, zeroPage_upd, h2]
  · intro a ha
    show upd (upd mem (stack c.sp.toNat) _) (stack (c.sp - 1).toNat) _ a = _
    rw [above_upd _ _ ha, above_upd _ _ ha, h3 a ha]
  · have := (h4.push (by omega) (u16ToLeBytes (c.pc + 2)).2).push (by simp only [List.length_cons, hlen]; omega)
      (u16ToLeBytes (c.pc + 2)).1
    rw [e6, ← hsp] at this
    show StackHolds (upd (upd mem (stack c.sp.toNat) (u16ToLeBytes (c.pc + 2)).2) (stack (c.sp - 1).toNat)
      (u16ToLeBytes (c.pc + 2)).1) d.sp (byte (q + 3 + 65535) :: byte ((q + 3 + 65535) / 256) ::
        (frameBytes fs ++ l))
    rw [← b1, ← b2]
    exact this

theorem rtsStep (hI : Coherent b I) (hacc : AcceptsAt b I fun a => a.toNat < 512) {r : Nat}
    (h : Within I r₀ mem₀ l (.ret r :: fs) σ q c) (hc : ProgramAbove mem₀ q [0x60]) (hq : q + 1 ≤ 65532) :
    ∃ d, StepIn b 6 c d ∧ Within I r₀ mem₀ l fs σ r d := by
  obtain ⟨mem, h1, h2, h3, h4⟩ := h.memory
  have e1 : mem (word q) = 0x60 := (hc.at (by show q + 1 ≤ 65536; omega) h3).2 0 (by simp)
  obtain ⟨d, s1, s2, s3⟩ := next_within (i := .RtsImplied) (mn := .Rts) (am := .implied) hI hacc
    h1 h.pc (by omega) (by rw [e1]; rfl) rfl trivial (fun w hw => by cases hw)
  change regs d = { regs c with
    sp := c.sp + 2
    pc := u16FromLeBytes (mem (stack (c.sp + 1).toNat)) (mem (stack (c.sp + 2).toNat)) + BitVec.ofNat 16 1 } at s2
  have hsp : d.sp = c.sp + 2 := congrArg Regs.sp s2
  have e4 : (c.sp + 2).toNat = (c.sp.toNat + 2) % 256 := toNat_add_byte c.sp 2 (by omega)
  have e5 : (c.sp + 1).toNat = (c.sp.toNat + 1) % 256 := toNat_add_byte c.sp 1 (by omega)
  have g0 : mem (stack (c.sp.toNat + 1 + 0)) = byte (r + 65535) := h4.2 0 (by simp [frameBytes])
  have g1 : mem (stack (c.sp.toNat + 1 + 1)) = byte ((r + 65535) / 256) := h4.2 1 (by simp [frameBytes])
  refine ⟨d, s1, ?_, ?_, ?_, mem, s3, h2, h3, ?_⟩
  · show (regs d).pc = _
    rw [s2]
    show u16FromLeBytes (mem (stack (c.sp + 1).toNat)) (mem (stack (c.sp + 2).toNat)) + BitVec.ofNat 16 1 = _
    rw [stack_congr (m := (c.sp + 1).toNat) (n := c.sp.toNat + 1 + 0) (by omega),
      stack_congr (m := (c.sp + 2).toNat) (n := c.sp.toNat + 1 + 1) (by omega), g0, g1, word_lohi, word_add]
    apply BitVec.eq_of_toNat_eq
    rw [toNat_word, toNat_word]
    omega
  · rw [s2]; exact ⟨h.kept.x, h.kept.y, rfl, h.kept.decimal, h.kept.interrupt, h.kept.brk, h.kept.unused⟩
  · have := h.sp
    rw [hsp, e4]
    simp only [room] at this
    omega
  · rw [hsp]
    exact StackHolds.pull (bs := [byte (r + 65535), byte ((r + 65535) / 256)]) h4 2 rfl (by omega)

theorem phaStep (hI : Coherent b I) (hacc : AcceptsAt b I fun a => a.toNat < 512)
    (h : Within I r₀ mem₀ l fs σ q c) (hc : ProgramAbove mem₀ q [0x48]) (hq : q + 1 ≤ 65532)
    (hroom : room fs + 1 + l.length ≤ 256) :
    ∃ d, StepIn b 3 c d ∧ Within I r₀ mem₀ l (.val c.acc :: fs) σ (q + 1) d := by
  obtain ⟨mem, h1, h2, h3, h4⟩ := h.memory
  have e1 : mem (word q) = 0x48 := (hc.at (by show q + 1 ≤ 65536; omega) h3).2 0 (by simp)
  obtain ⟨d, s1, s2, s3⟩ := next_within (i := .PhaImplied) (mn := .Pha) (am := .implied) hI hacc
    h1 h.pc (by omega) (by rw [e1]; rfl) rfl trivial (by
      intro w hw
      change w ∈ [(stack c.sp.toNat, _)] at hw
      rw [List.mem_singleton] at hw
      subst hw
      exact (stack_ge _).2)
  change regs d = { regs c with sp := c.sp - 1, pc := nextPc (regs c) .implied } at s2
  have hsp : d.sp = c.sp - 1 := congrArg Regs.sp s2
  have e5 : (c.sp - 1).toNat = (c.sp.toNat + 255) % 256 := toNat_sub_byte c.sp 1 (by omega)
  have hlen : (frameBytes fs ++ l).length = room fs + l.length := by
    rw [List.length_append, frameBytes_length]
  have hlt := c.sp.isLt
  have hlt' := r₀.sp.isLt
  refine ⟨d, s1, ?_, ?_, ?_, _, s3, ?_, ?_, ?_⟩
  · show (regs d).pc = _
    rw [s2]
    exact nextPc_of h.pc (by omega) .implied
  · rw [s2]; exact ⟨h.kept.x, h.kept.y, rfl, h.kept.decimal, h.kept.interrupt, h.kept.brk, h.kept.unused⟩
  · have := h.sp
    rw [hsp, e5]
    simp only [room]
    omega
  · show zeroPage (upd mem (stack c.sp.toNat) _) = σ
    rw [zeroPage_upd, h2]
  · intro a ha
    show upd mem (stack c.sp.toNat) _ a = _
    rw [above_upd _ _ ha, h3 a ha]
  · rw [hsp]
    exact h4.push (by omega) c.acc

theorem plaStep (hI : Coherent b I) (hacc : AcceptsAt b I fun a => a.toNat < 512) {v : Byte}
    (h : Within I r₀ mem₀ l (.val v :: fs) σ q c) (hc : ProgramAbove mem₀ q [0x68]) (hq : q + 1 ≤ 65532) :
    ∃ d, StepIn b 4 c d ∧ Within I r₀ mem₀ l fs σ (q + 1) d ∧ d.acc = v := by
  obtain ⟨mem, h1, h2, h3, h4⟩ := h.memory
  have e1 : mem (word q) = 0x68 := (hc.at (by show q + 1 ≤ 65536; omega) h3).2 0 (by simp)
  obtain ⟨d, s1, s2, s3⟩ := next_within (i := .PlaImplied) (mn := .Pla) (am := .implied) hI hacc
    h1 h.pc (by omega) (by rw [e1]; rfl) rfl trivial (fun w hw => by cases hw)
  change regs d = { regs c with
    a := mem (stack (c.sp + 1).toNat)
    sp := c.sp + 1
    p := setNZ (regs c).p (mem (stack (c.sp + 1).toNat))
    pc := nextPc (regs c) .implied } at s2
  have hsp : d.sp = c.sp + 1 := congrArg Regs.sp s2
  have e5 : (c.sp + 1).toNat = (c.sp.toNat + 1) % 256 := toNat_add_byte c.sp 1 (by omega)
  have g0 : mem (stack (c.sp.toNat + 1 + 0)) = v := h4.2 0 (by simp [frameBytes])
  refine ⟨d, s1, ⟨?_, ?_, ?_, mem, s3, h2, h3, ?_⟩, ?_⟩
  · show (regs d).pc = _
    rw [s2]
    exact nextPc_of h.pc (by omega) .implied
  · rw [s2]; exact ⟨h.kept.x, h.kept.y, rfl, h.kept.decimal, h.kept.interrupt, h.kept.brk, h.kept.unused⟩
  · have := h.sp
    rw [hsp, e5]
    simp only [room] at this
    omega
  · rw [hsp]
    exact StackHolds.pull (bs := [v]) h4 1 rfl (by omega)
  · show (regs d).a = v
    rw [s2]
    show mem (stack (c.sp + 1).toNat) = v
    rw [stack_congr (m := (c.sp + 1).toNat) (n := c.sp.toNat + 1 + 0) (by omega), g0]

/-- The instructions that save a variable. -/
theorem save_part (hI : Coherent b I) (hacc : AcceptsAt b I fun a => a.toNat < 512) {p : Nat} {x : Byte}
    (hs : Within I r₀ mem₀ l fs σ p c) (hc : ProgramAbove mem₀ p ([0xa5, x] ++ [0x48])) (hp : p + 3 ≤ 65532)
    (hroom : room fs + 1 + l.length ≤ 256) :
    ∃ e, Path (OneStep b) (Within I r₀ mem₀ l fs) p (p + 3) 2 c e ∧ Lasts b 6 2 c e ∧
      Within I r₀ mem₀ l (.val (σ x) :: fs) σ (p + 3) e := by
  obtain ⟨c1, c2⟩ := hc.split
  obtain ⟨mem, k1, k2, k3⟩ := hs.isAt
  have h0 := hc.1
  obtain ⟨d, s1, i1, a1⟩ := ldaZp hI (accepts_zero_page hacc) k1 (by omega) (by omega)
    (c1.at (by show p + 2 ≤ 65536; omega) k2).2
  obtain ⟨e, s2, i2⟩ := phaStep hI hacc (k3 i1) c2 (by show p + 2 + 1 ≤ 65532; omega) (by omega)
  rw [a1] at i2
  exact ⟨e, .cons hs (Nat.le_refl _) (by omega) s1.one (.cons (k3 i1) (by omega) (by omega) s2.one .nil),
    s1.lasts.trans s2.lasts, i2⟩

/-- The instructions that restore a variable. -/
theorem restore_part (hI : Coherent b I) (hacc : AcceptsAt b I fun a => a.toNat < 512) {p : Nat} {x v : Byte}
    (hs : Within I r₀ mem₀ l (.val v :: fs) σ p c) (hc : ProgramAbove mem₀ p ([0x68] ++ [0x85, x]))
    (hp : p + 3 ≤ 65532) :
    ∃ d e, StepIn b 4 c d ∧ Within I r₀ mem₀ l fs σ (p + 1) d ∧ StepIn b 3 d e ∧
      Within I r₀ mem₀ l fs (put σ x v) (p + 3) e := by
  obtain ⟨c1, c2⟩ := hc.split
  obtain ⟨d, s1, i1, a1⟩ := plaStep hI hacc hs c1 (by omega)
  obtain ⟨mem, k1, k2, k3⟩ := i1.isAt
  have h0 := hc.1
  obtain ⟨e, s2, i2⟩ := staZp hI (accepts_zero_page hacc) k1 (by omega) (by omega)
    (c2.at (by show p + 1 + 2 ≤ 65536; omega) k2).2
  rw [a1] at i2
  exact ⟨d, e, s1, i1, s2, k3 i2⟩

/-- The parts of the code work on the emulator. -/
theorem mos_rworks (hI : Coherent b I) (hacc : AcceptsAt b I fun a => a.toNat < 512) (hl : l.length ≤ 256) :
    RWorks mosRTarget mosCosts (OneStep b) (Within I r₀ mem₀ l) (ProgramAbove mem₀) 65532 (256 - l.length) where
  base fs :=
    { jumpSize := fun _ => rfl
      append := by
        rintro p u v h
        have := h.split
        rw [show p + mosRTarget.bytes u = p + u.length by show p + 1 * u.length = _; omega]
        exact this
      act := by
        rintro p a σ s hc hp hs
        obtain ⟨mem, k1, k2, k3⟩ := hs.isAt
        have hlen : (mosTarget 5).bytes ((mosTarget 5).act a) = ((mosTarget 5).act a).length := Nat.one_mul _
        change p + (mosTarget 5).bytes ((mosTarget 5).act a) ≤ 65532 at hp
        obtain ⟨t, t1, t2⟩ := (mos_works hI (accepts_zero_page hacc)).act (hc.at (by
          show p + ((mosTarget 5).act a).length ≤ 65536
          omega) k2) hp k1
        exact ⟨t, map_path (fun h => k3 h) t1, k3 t2⟩
      test := by
        rintro p g σ s hc hp hs
        obtain ⟨mem, k1, k2, k3⟩ := hs.isAt
        have hlen : (mosTarget 5).bytes ((mosTarget 5).test g) = ((mosTarget 5).test g).length := Nat.one_mul _
        change p + (mosTarget 5).bytes ((mosTarget 5).test g) + 3 ≤ 65532 at hp
        obtain ⟨t, t1, t2⟩ := (mos_works hI (accepts_zero_page hacc)).test (hc.at (by
          show p + ((mosTarget 5).test g).length ≤ 65536
          omega) k2) hp k1
        exact ⟨t, map_path (fun h => k3 h) t1, k3 t2⟩
      jump := by
        rintro p e σ s hc hp he hs
        obtain ⟨mem, k1, k2, k3⟩ := hs.isAt
        change p + 3 ≤ 65532 at hp
        obtain ⟨t, t1, t2⟩ := (mos_works hI (accepts_zero_page hacc)).jump (hc.at (by
          show p + 3 ≤ 65536
          omega) k2) hp he k1
        exact ⟨t, map_path (fun h => k3 h) t1, k3 t2⟩ }
  callSize _ := rfl
  retPos := by decide
  callPos := by decide
  call := by
    rintro p e fs σ s hc hp - hroom hs
    obtain ⟨t, h1, h2⟩ := jsrStep hI hacc hs hc hp (by omega)
    exact ⟨t, h1.one, h2⟩
  ret := by
    rintro p r fs σ s hc hp hs
    obtain ⟨t, h1, h2⟩ := rtsStep hI hacc hs hc hp
    exact ⟨t, h1.one, h2⟩
  save := by
    rintro p x fs σ s hc hp hroom hs
    obtain ⟨t, h1, -, h3⟩ := save_part hI hacc hs hc hp (by omega)
    exact ⟨t, h1, h3⟩
  restore := by
    rintro p x v fs σ s hc hp hs
    obtain ⟨d, e, h1, h2, h3, h4⟩ := restore_part hI hacc hs hc hp
    exact ⟨d, e, p + 1, hs, h1.one, h2, by omega, by show p + 1 < p + 3; omega, h3.one, h4⟩

theorem walk_instructions {In : Nat → Prop} {n : Nat} {e : Mos6502 B}
    (h : Walk (OneStep b) (Within I r₀ mem₀ l) In n c e) : ∃ ls, Instructions b c ls e ∧ ls.length = n := by
  induction h with
  | nil => exact ⟨[], .nil _, rfl⟩
  | cons _ _ hs _ ih =>
    obtain ⟨ops, hn⟩ := hs
    obtain ⟨l, hl, rfl⟩ := ih
    exact ⟨ops :: l, .cons hn hl, rfl⟩

end

end Verif.Mos

namespace Verif.Props

open Verif Verif.Mos Verif.Spec.Mos Verif.Spec.Structured Verif.Spec.Recursive Verif.Structured Verif.Recursive

section
variable {B : Type} [Addressable B] {b : Build} {I : B → Mem → Prop} {c : Mos6502 B} {mem : Mem} {p : Nat}
  {φ : Type} {body : φ → Prog Byte φ} {entry : φ → Nat} {prog : Prog Byte φ} {l : List Byte}

/-- Main program and procedures are in memory from 512 on: the program at `p`, each procedure at its
entry with a return behind it, anywhere below 65532. -/
structure InMemory (mem : Mem) (body : φ → Prog Byte φ) (entry : φ → Nat) (p : Nat) (prog : Prog Byte φ) : Prop where
  main : ProgramAbove mem p (mosRTarget.compile entry p prog)
  mainFits : p + mosRTarget.size prog ≤ 65532
  procs : ∀ f, ProgramAbove mem (entry f) (mosRTarget.compile entry (entry f) (body f) ++ [0x60])
  procsFit : ∀ f, entry f + mosRTarget.size (body f) + 1 ≤ 65532

/-- The addresses of the program and the procedures. -/
def Inside (body : φ → Prog Byte φ) (entry : φ → Nat) (p : Nat) (prog : Prog Byte φ) (q : Nat) : Prop :=
  (p ≤ q ∧ q < p + mosRTarget.size prog) ∨ ∃ f, entry f ≤ q ∧ q < entry f + mosRTarget.size (body f) + 1

theorem inMemory_loaded (h : InMemory mem body entry p prog) :
    Loaded mosRTarget (ProgramAbove mem) 65532 body entry (Inside body entry p prog) :=
  ⟨h.procs, h.procsFit, fun f _ h1 h2 => .inr ⟨f, h1, h2⟩⟩

omit [Addressable B] in
theorem within_self (hm : I c.address_map mem) (hpc : c.pc = word p) (hl : StackHolds mem c.sp l) :
    Within I (regs c) mem l [] (zeroPage mem) p c :=
  ⟨hpc, ⟨rfl, rfl, rfl, rfl, rfl, rfl, rfl⟩, Nat.mod_eq_of_lt c.sp.isLt, mem, hm, rfl, fun _ _ => rfl, hl⟩

/-- C95: a program with recursive procedures that ends within the free bytes of the stack page, ends
on the emulator behind its code with the values it means in the zero page, after as many instructions
as counted. Stack pointer, the bytes on the stack, X, Y, the other flags and memory from 512 on are
as before. -/
theorem C95_result (hI : Coherent b I) (hacc : AcceptsAt b I fun a => a.toNat < 512)
    (hm : I c.address_map mem) (hpc : c.pc = word p) (hcode : InMemory mem body entry p prog)
    (hl : StackHolds mem c.sp l) {d n : Nat} {σ : Store Byte} (hd : d + l.length ≤ 256)
    (h : Exec mosCosts body d prog (zeroPage mem) n σ) :
    ∃ ls c', Instructions b c ls c' ∧ ls.length = n ∧ run b c (totalCycles ls) = .ok (.ready c') ∧
      c'.pc = word (p + mosRTarget.size prog) ∧ Kept (regs c) (regs c') ∧
      ∃ mem', I c'.address_map mem' ∧ zeroPage mem' = σ ∧ StackHolds mem' c'.sp l ∧
        ∀ a : Word, 512 ≤ a.toNat → mem' a = mem a := by
  obtain ⟨c', hc', h1, h2, h3, mem', h4, h5, h6, h7⟩ := rcompile_exec (mos_rworks hI hacc hl.1)
    (inMemory_loaded hcode) h hcode.main hcode.mainFits (fun q a b => .inl ⟨a, b⟩)
    (by simp only [room]; omega) (within_self hm hpc hl)
  obtain ⟨ls, hls, hn⟩ := walk_instructions hc'
  have hsp : c'.sp = c.sp := by
    apply BitVec.eq_of_toNat_eq
    have e : (c'.sp.toNat + 0) % 256 = c.sp.toNat := h3
    rw [← e, Nat.add_zero, Nat.mod_eq_of_lt c'.sp.isLt]
  exact ⟨ls, c', hls, hn, C12_run_eq hls (Nat.le_refl _) (.inl rfl), h1,
    ⟨h2.x, h2.y, hsp, h2.decimal, h2.interrupt, h2.brk, h2.unused⟩, mem', h4, h5, h7, h6⟩

/-- C95: a program that does not end, and whose calls fit the stack page, keeps the emulator inside
its code for any number of cycles, without a panic and with the bytes below its own on the stack and
memory from 512 on unchanged. -/
theorem C95_endless (hI : Coherent b I) (hacc : AcceptsAt b I fun a => a.toNat < 512)
    (hm : I c.address_map mem) (hpc : c.pc = word p) (hcode : InMemory mem body entry p prog)
    (hl : StackHolds mem c.sp l) {d : Nat} (hd : d + l.length ≤ 256)
    (h : ¬ Ends mosCosts body d prog (zeroPage mem)) (ho : ¬ Overflows mosCosts body d prog (zeroPage mem))
    (cycles : Nat) :
    ∃ c' q own, run b c cycles = .ok (.ready c') ∧ c'.pc = word q ∧ Inside body entry p prog q ∧
      ∃ mem', I c'.address_map mem' ∧ StackHolds mem' c'.sp (own ++ l) ∧
        ∀ a : Word, 512 ≤ a.toNat → mem' a = mem a := by
  have key := rcompile_endless (mos_rworks hI hacc hl.1) (inMemory_loaded hcode) h ho hcode.main hcode.mainFits
    (fun q a b => .inl ⟨a, b⟩) (by simp only [room]; omega) (within_self hm hpc hl)
  cases hr : run b c cycles with
  | error e =>
    obtain ⟨ls, c', h1, -, h3⟩ := C12_panic.1 hr
    obtain ⟨t, fs, σ, q, ht, -⟩ := key (ls.length + 1)
    obtain ⟨l', hl', hlen⟩ := walk_instructions ht
    obtain ⟨ops, f, hf⟩ := instructions_go_on h1 hl' hlen
    rw [hf] at h3
    cases h3
  | ok s =>
    obtain ⟨ls, c', h1, -, rfl, -⟩ := C12_run_ok hr
    obtain ⟨t, fs, σ, q, ht, hat, hq⟩ := key ls.length
    obtain ⟨l', hl', hlen⟩ := walk_instructions ht
    obtain ⟨-, rfl⟩ := instructions_same h1 hl' hlen.symm
    obtain ⟨mem', e1, -, e3, e4⟩ := hat.memory
    exact ⟨c', q, _, rfl, hat.pc, hq, mem', e1, e4, e3⟩

/-- C95: a program has one result and one number of instructions whatever the free stack, and one that
ends within the free stack does not run out of it; so the cases of `C95_result` and `C95_endless` are
apart. -/
theorem C95_apart {d d' n n' : Nat} {σ σ' σ'' : Store Byte} (h : Exec mosCosts body d prog σ n σ') :
    ¬ Overflows mosCosts body d prog σ ∧ (Exec mosCosts body d' prog σ n' σ'' → n' = n ∧ σ'' = σ') :=
  ⟨exec_not_overflows h, fun h' => rexec_unique h' h⟩

/-- C95: if the calls fit the stack page and the end of the program is not itself inside a procedure,
the emulator gets behind the code exactly if the program ends. -/
theorem C95_ends_iff (hI : Coherent b I) (hacc : AcceptsAt b I fun a => a.toNat < 512)
    (hm : I c.address_map mem) (hpc : c.pc = word p) (hcode : InMemory mem body entry p prog)
    (hl : StackHolds mem c.sp l) {d : Nat} (hd : d + l.length ≤ 256)
    (ho : ¬ Overflows mosCosts body d prog (zeroPage mem))
    (hend : ¬ Inside body entry p prog (p + mosRTarget.size prog)) :
    (∃ cycles c', run b c cycles = .ok (.ready c') ∧ c'.pc = word (p + mosRTarget.size prog)) ↔
      Ends mosCosts body d prog (zeroPage mem) := by
  constructor
  · rintro ⟨n, c', hd', hq⟩
    refine Classical.byContradiction fun hno => ?_
    obtain ⟨c'', q, own, hr, h1, h2, -⟩ := C95_endless hI hacc hm hpc hcode hl hd hno ho n
    rw [hd'] at hr
    injection hr with hr
    injection hr with hr
    subst hr
    rw [hq] at h1
    have e := congrArg BitVec.toNat h1
    have hfit := hcode.mainFits
    have hq' : q < 65536 := by
      rcases h2 with ⟨-, h2⟩ | ⟨f, -, h2⟩
      · omega
      · have := hcode.procsFit f
        omega
    rw [toNat_word_lt _ (by omega), toNat_word_lt _ hq'] at e
    exact hend (e ▸ h2)
  · rintro ⟨n, σ, h⟩
    obtain ⟨l, d, -, -, h3, h4, -⟩ := C95_result hI hacc hm hpc hcode hl hd h
    exact ⟨_, d, h3, h4⟩

end

/-! ### Concrete cases -/

/-- `if x ≠ 0 then (keeping x do (x := x - 1; call f); y := y xor x)`, x at address 0, y at address 1. -/
def xorBody : Unit → Prog Byte Unit := fun _ =>
  .ite (.neK 0 0) (.seq (.keeping 0 (.seq (.act (.add 0 0xff)) (.call ()))) (.act (.xor 1 0))) .skip

/-- 1 xor 2 xor … xor m. -/
def xorTo : Nat → Byte
  | 0 => 0
  | m + 1 => xorTo m ^^^ BitVec.ofNat 8 (m + 1)

/-- The recursion goes x levels deep and needs three bytes of stack for each. -/
theorem xorBody_exec (m : Nat) : ∀ σ : Store Byte, (σ 0).toNat = m →
    Exec mosCosts xorBody (3 * m) (xorBody ()) σ (17 * m + 4) (put σ 1 (σ 1 ^^^ xorTo m)) := by
  induction m with
  | zero =>
    intro σ h
    have h0 : σ 0 = 0 := BitVec.eq_of_toNat_eq h
    have e : put σ 1 (σ 1 ^^^ xorTo 0) = σ := by
      funext y
      unfold put
      split
      · rename_i hy; rw [hy]; simp [xorTo]
      · rfl
    rw [e]
    exact .iteFalse (g := .neK 0 0) (fun hn => hn h0) .skip
  | succ m ih =>
    intro σ h
    have hg : Guard.Holds σ (.neK 0 0) := by
      intro h0
      change σ 0 = 0 at h0
      rw [h0] at h
      cases h
    have hm : m < 256 := by have := (σ 0).isLt; omega
    obtain ⟨σ₁, hσ⟩ : ∃ σ₁, σ₁ = Act.eval σ (.add 0 0xff) := ⟨_, rfl⟩
    have e0 : (σ₁ 0).toNat = m := by
      rw [hσ]
      show (BitVec.ofNat 8 ((σ 0).toNat + (0xff : Byte).toNat)).toNat = m
      rw [BitVec.toNat_ofNat, show (0xff : Byte).toNat = 255 from rfl]
      omega
    have k1 : Exec mosCosts xorBody (3 * m + 2) (.act (.add 0 0xff)) σ 4 σ₁ := hσ ▸ .act
    have k2 := Exec.keeping (x := (0 : Byte)) (Exec.seq k1 (Exec.call (f := ()) (ih σ₁ e0)))
    have k3 := Exec.iteTrue (c' := .skip) hg (Exec.seq k2 (Exec.act (a := .xor 1 0)))
    have ev : Act.eval (put (put σ₁ 1 (σ₁ 1 ^^^ xorTo m)) 0 (σ 0)) (.xor 1 0) =
        put σ 1 (σ 1 ^^^ xorTo (m + 1)) := by
      have hx : σ 0 = BitVec.ofNat 8 (m + 1) := by rw [← h]; simp
      funext y
      rw [hσ]
      simp only [Act.eval, put, xorTo, ← hx]
      by_cases h1 : y = 1
      · subst h1
        simp only [if_true, if_neg (show ¬ (1 : Byte) = 0 by decide)]
        rw [BitVec.xor_assoc]
      · by_cases h2 : y = 0
        · subst h2
          simp
        · rw [if_neg h1, if_neg h2, if_neg h1, if_neg h2, if_neg h1]
    have ec : 17 * (m + 1) + 4 = mosCosts.test (.neK 0 0) + (2 + (4 + (1 + (17 * m + 4) + 1)) + 2 +
        mosCosts.act (.xor 1 0)) + 1 := by
      show _ = 3 + (2 + (4 + (1 + (17 * m + 4) + 1)) + 2 + 3) + 1
      omega
    rw [ec, ← ev]
    exact k3

/-- The procedure's code at 0x304. -/
example : mosRTarget.compile (fun _ => 0x304) 0x304 (xorBody ()) ++ [0x60] =
    [0xa5, 0, 0xc9, 0, 0xd0, 5, 0x4c, 0x26, 0x03, 0xa5, 0, 0x48, 0xa5, 0, 0x18, 0x69, 0xff, 0x85, 0,
     0x20, 0x04, 0x03, 0x68, 0x85, 0, 0xa5, 1, 0x45, 0, 0x85, 1, 0x4c, 0x26, 0x03, 0x60] := by decide +kernel

/-- The main program calls the procedure, which lies behind it, one byte apart. -/
def recSample (f : Unit → Prog Byte Unit) : Mos6502 FlatRam :=
  bytesSample 0x300 (mosRTarget.compile (fun _ => 0x304) 0x300 (Prog.call ()) ++ ([0xea] ++
    (mosRTarget.compile (fun _ => 0x304) 0x304 (f ()) ++ [0x60])))

theorem recSample_inMemory (f : Unit → Prog Byte Unit) (hf : mosRTarget.size (f ()) ≤ 1000) :
    InMemory (recSample f).address_map.mem f (fun _ => 0x304) 0x300 (.call ()) := by
  have hlen : ((mosRTarget.compile (fun _ => 0x304) 0x304 (f ()))).length = mosRTarget.size (f ()) := by
    have := rcompile_size (T := mosRTarget) (entry := fun _ : Unit => 0x304) (fun _ => rfl) (fun _ => rfl) (f ()) 0x304
    rw [← this]
    exact (Nat.one_mul _).symm
  have hcode := bytesSample_code (p := 0x300) (ws := mosRTarget.compile (fun _ => 0x304) 0x300 (Prog.call ()) ++ ([0xea] ++
    (mosRTarget.compile (fun _ => 0x304) 0x304 (f ()) ++ [0x60]))) (by omega)
    (by rw [List.length_append, List.length_append, List.length_append, hlen]; show 0x300 + (3 + (1 + (_ + 1))) ≤ 65536; omega)
  have habove : ProgramAbove (recSample f).address_map.mem 0x300 _ := ⟨by omega, hcode.2⟩
  exact ⟨habove.split.1, by show 0x300 + 3 ≤ 65532; omega, fun _ => habove.split.2.split.2,
    fun _ => by show 0x304 + mosRTarget.size (f ()) + 1 ≤ 65532; omega⟩

/-- Twelve levels of recursion, with four bytes on the stack already: 21 xor 1 xor … xor 12. -/
example : ∃ ls d, Instructions .debug (recSample xorBody) ls d ∧ ls.length = 210 ∧ d.pc = 0x303 ∧
    d.address_map.mem 0 = 12 ∧ d.address_map.mem 1 = 25 := by
  obtain ⟨ls, d, h1, h2, -, h4, -, mem, rfl, h6, -⟩ := C95_result (b := .debug) (p := 0x300) (prog := .call ())
    (c := recSample xorBody) (body := xorBody) (l := [0, 0, 0, 0]) (d := 38) (flatRam_coherent _)
    (flatRam_acceptsAt _ _) rfl rfl (recSample_inMemory xorBody (by decide)) ⟨by decide, by decide +kernel⟩ (by decide)
    (.call (xorBody_exec 12 _ (by decide +kernel)))
  refine ⟨ls, d, h1, h2, h4, ?_, ?_⟩
  · have := congrFun h6 0
    change d.address_map.mem 0 = _ at this
    rw [this]
    decide +kernel
  · have := congrFun h6 1
    change d.address_map.mem 1 = _ at this
    rw [this]
    decide +kernel

/-- A procedure that loops for ever. -/
def stuckBody : Unit → Prog Byte Unit := fun _ => .loop (.eq 0 0) .skip

theorem stuckBody_endless (σ : Store Byte) : ¬ Ends mosCosts stuckBody 2 (.call ()) σ := by
  rintro ⟨n, σ', h⟩
  have : ∀ {d : Nat} {c : Prog Byte Unit} {σ σ' : Store Byte} {n : Nat}, Exec mosCosts stuckBody d c σ n σ' →
      c = .loop (.eq 0 0) .skip → False := by
    intro d c σ σ' n h
    induction h with
    | loopTrue _ _ _ _ ih => intro e; exact ih e
    | loopFalse hg => intro e; cases e; exact hg rfl
    | _ => intro e; cases e
  cases h with
  | call h => exact this h rfl

theorem stuckBody_fits (σ : Store Byte) : ¬ Overflows mosCosts stuckBody 2 (.call ()) σ := by
  intro h
  have : ∀ {d : Nat} {c : Prog Byte Unit} {σ : Store Byte}, Overflows mosCosts stuckBody d c σ →
      c = .loop (.eq 0 0) .skip → False := by
    intro d c σ h
    induction h with
    | loopNext _ _ _ ih => intro e; exact ih e
    | loopBody _ h => intro e; cases e; cases h
    | _ => intro e; cases e
  cases h with
  | callHere h => omega
  | callBody h => exact this h rfl

example (n : Nat) : ∃ d, run .release (recSample stuckBody) n = .ok (.ready d) ∧
    0x300 ≤ d.pc.toNat ∧ d.pc.toNat < 0x311 := by
  obtain ⟨d, q, own, h1, h2, h3, -⟩ := C95_endless (b := .release) (p := 0x300) (prog := .call ())
    (c := recSample stuckBody) (body := stuckBody) (l := []) (d := 2) (flatRam_coherent _)
    (flatRam_acceptsAt _ _) rfl rfl (recSample_inMemory stuckBody (by decide)) ⟨by decide, fun k hk => by cases hk⟩
    (by decide) (stuckBody_endless _) (stuckBody_fits _) n
  have h4 : 0x300 ≤ q ∧ q < 0x311 := by
    rcases h3 with ⟨a, b⟩ | ⟨_, a, b⟩
    · have b' : q < 0x300 + 3 := b
      omega
    · have b' : q < 0x304 + 12 + 1 := b
      have a' : 0x304 ≤ q := a
      omega
  refine ⟨d, h1, ?_⟩
  rw [h2, toNat_word_lt _ (by omega)]
  exact h4

/-- Both directions: the emulator gets to 0x303 with the first procedure and not with the second. -/
example : (∃ cycles d, run .debug (recSample xorBody) cycles = .ok (.ready d) ∧ d.pc = word 0x303) ∧
    ¬ ∃ cycles d, run .debug (recSample stuckBody) cycles = .ok (.ready d) ∧ d.pc = word 0x303 := by
  have hend : ∀ f : Unit → Prog Byte Unit, ¬ Inside f (fun _ => 0x304) 0x300 (.call ())
      (0x300 + mosRTarget.size (.call () : Prog Byte Unit)) := by
    rintro f (⟨-, h⟩ | ⟨_, h, -⟩)
    · exact Nat.lt_irrefl _ h
    · change 0x304 ≤ 0x300 + 3 at h
      omega
  constructor
  · exact (C95_ends_iff (b := .debug) (p := 0x300) (prog := .call ()) (c := recSample xorBody) (body := xorBody)
      (l := []) (d := 38) (flatRam_coherent _) (flatRam_acceptsAt _ _) rfl rfl
      (recSample_inMemory xorBody (by decide)) ⟨by decide, fun k hk => by cases hk⟩ (by decide)
      (C95_apart (d' := 38) (n' := 0) (σ'' := fun _ => 0) (.call (xorBody_exec 12 _ (by decide +kernel)))).1
      (hend _)).2 ⟨_, _, .call (xorBody_exec 12 _ (by decide +kernel))⟩
  · intro h
    exact stuckBody_endless _ ((C95_ends_iff (b := .debug) (p := 0x300) (prog := .call ()) (c := recSample stuckBody)
      (body := stuckBody) (l := []) (d := 2) (flatRam_coherent _) (flatRam_acceptsAt _ _) rfl rfl
      (recSample_inMemory stuckBody (by decide)) ⟨by decide, fun k hk => by cases hk⟩ (by decide)
      (stuckBody_fits _) (hend _)).1 h)

end Verif.Props
