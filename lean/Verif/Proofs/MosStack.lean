import Verif.Proofs.MosControl
import Verif.Spec.MosStack

/-!
# The stack discipline is an invariant
-/

namespace Verif.Mos

open Verif Verif.Spec.Mos

section
variable {B : Type} [Addressable B] {b : Build} {I : B → Mem → Prop}

/-- A bus shows one memory. -/
theorem busView_unique {bus : B} {m m' : Mem} (h : BusView b bus m) (h' : BusView b bus m') :
    m = m' := by
  funext a
  have := (h a).symm.trans (h' a)
  simpa using this

theorem writeAll_coherent (hI : Coherent b I) {bus bus' : B} {mem : Mem} (ws : List (Word × Byte))
    (h : I bus mem) (hw : writeAll b bus ws = .ok bus') :
    I bus' (ws.foldl (fun m w => upd m w.1 w.2) mem) := by
  induction ws generalizing bus mem with
  | nil => simp only [writeAll, Except.ok.injEq] at hw; subst hw; exact h
  | cons w ws ih =>
    obtain ⟨a, v⟩ := w
    simp only [writeAll] at hw
    cases hr : Addressable.write b bus a v with
    | error e => rw [hr] at hw; cases hw
    | ok p =>
      rw [hr] at hw
      obtain ⟨r, bus₁⟩ := p
      cases r with
      | error e => cases hw
      | ok r => exact ih ((hI _ _ h).2 a v r bus₁ hr) hw

/-- A step seen on the memory. -/
theorem step_mem (hI : Coherent b I) {cpu cpu' : Mos6502 B} {mem : Mem} {i : InstructionVariant}
    (hm : I cpu.address_map mem) (hs : Step b cpu i cpu') :
    regs cpu' = (codeEffect (regs cpu) mem (view i).1 (view i).2).regs ∧
    I cpu'.address_map ((codeEffect (regs cpu) mem (view i).1 (view i).2).writes.foldl
      (fun m w => upd m w.1 w.2) mem) := by
  obtain ⟨hat, ops, hn⟩ := hs
  obtain ⟨-, -, hr, hw⟩ := step_inv hat (hI _ _ hm).1 (mn := (view i).1) (am := (view i).2) rfl hn
  exact ⟨hr, writeAll_coherent hI _ hm hw⟩

theorem stack_inj {m n : Nat} (h : stack m = stack n) : m % 256 = n % 256 := by
  have := congrArg BitVec.toNat h
  unfold stack at this
  rw [toNat_word, toNat_word] at this
  omega

theorem stack_congr {m n : Nat} (h : m % 256 = n % 256) : stack m = stack n := by
  unfold stack; rw [h]

theorem toNat_sub_byte (x : Byte) (n : Nat) (hn : n ≤ 255) :
    (x - BitVec.ofNat 8 n).toNat = (x.toNat + (256 - n)) % 256 := by
  rw [BitVec.toNat_sub, BitVec.toNat_ofNat]; congr 1; omega

theorem toNat_add_byte (x : Byte) (n : Nat) (hn : n ≤ 255) :
    (x + BitVec.ofNat 8 n).toNat = (x.toNat + n) % 256 := by
  rw [BitVec.toNat_add, BitVec.toNat_ofNat]; congr 1; omega

/-- Pushing one byte. -/
theorem _root_.Verif.Spec.Mos.StackHolds.push {mem : Mem} {sp : Byte} {l : List Byte} (h : StackHolds mem sp l)
    (hl : l.length < 256) (v : Byte) : StackHolds (upd mem (stack sp.toNat) v) (sp - 1) (v :: l) := by
  have e : (sp - 1).toNat = (sp.toNat + 255) % 256 := toNat_sub_byte sp 1 (by omega)
  refine ⟨by simp; omega, ?_⟩
  intro k hk
  rw [e]
  cases k with
  | zero =>
    simp only [upd, List.getElem_cons_zero]
    rw [if_pos (stack_congr (by omega))]
  | succ k =>
    simp only [List.getElem_cons_succ, upd]
    simp only [List.length_cons] at hk
    rw [if_neg, ← h.2 k (by omega)]
    · congr 1; exact stack_congr (by omega)
    · intro he
      have := stack_inj he
      omega

/-- Pulling bytes. -/
theorem _root_.Verif.Spec.Mos.StackHolds.pull {mem : Mem} {sp : Byte} {bs l : List Byte} (h : StackHolds mem sp (bs ++ l))
    (n : Nat) (hn : bs.length = n) (hn' : n ≤ 255) :
    StackHolds mem (sp + BitVec.ofNat 8 n) l := by
  subst hn
  refine ⟨by have := h.1; simp at this; omega, ?_⟩
  intro k hk
  rw [toNat_add_byte _ _ hn']
  have := h.2 (bs.length + k) (by simp; omega)
  simp only [List.getElem_append_right (Nat.le_add_right _ _), Nat.add_sub_cancel_left] at this
  rw [← this]
  congr 1; exact stack_congr (by omega)

theorem _root_.Verif.Spec.Mos.StackHolds.upd_other {mem : Mem} {sp : Byte} {l : List Byte} (h : StackHolds mem sp l)
    {a : Word} {v : Byte} (ha : ∀ k < l.length, a ≠ stack (sp.toNat + 1 + k)) :
    StackHolds (upd mem a v) sp l := by
  refine ⟨h.1, ?_⟩
  intro k hk
  simp only [upd]
  rw [if_neg (fun e => ha k hk e.symm), h.2 k hk]

theorem _root_.Verif.Spec.Mos.StackHolds.foldl_other {mem : Mem} {sp : Byte} {l : List Byte} (h : StackHolds mem sp l)
    (ws : List (Word × Byte)) (ha : ∀ w ∈ ws, ∀ k < l.length, w.1 ≠ stack (sp.toNat + 1 + k)) :
    StackHolds (ws.foldl (fun m w => upd m w.1 w.2) mem) sp l := by
  induction ws generalizing mem with
  | nil => exact h
  | cons w ws ih =>
    exact ih (h.upd_other (ha w (by simp))) (fun w' hw' => ha w' (by simp [hw']))

/-- The addresses the code writes are the documented ones. -/
theorem codeEffect_writes {i : InstructionVariant} (r : Regs) (mem : Mem) :
    (codeEffect r mem (view i).1 (view i).2).writes.map Prod.fst =
      writable r mem (view i).1 (view i).2 := by
  have e1 : stack (r.sp - 1).toNat = stack (r.sp.toNat + 255) := by
    have : (r.sp - 1).toNat = (r.sp.toNat + 255) % 256 := toNat_sub_byte r.sp 1 (by omega)
    exact stack_congr (by omega)
  have e2 : stack (r.sp - 2).toNat = stack (r.sp.toNat + 254) := by
    have : (r.sp - 2).toNat = (r.sp.toNat + 254) % 256 := toNat_sub_byte r.sp 2 (by omega)
    exact stack_congr (by omega)
  cases i <;> first
    | rfl
    | (simp only [codeEffect, writable, List.map, view, e1, e2])

theorem keepsStack_sp {mn : Mnemonic} (h : keepsStack mn = true) (r : Regs) (mem : Mem)
    (am : AddrMode) : (codeEffect r mem mn am).regs.sp = r.sp := by
  cases mn <;> first
    | (exfalso; revert h; decide)
    | rfl
    | (cases am <;> rfl)

theorem hi_lo_word (w : Word) : (u16ToLeBytes w).2 = byte (w.toNat / 256) ∧
    (u16ToLeBytes w).1 = byte w.toNat := by
  constructor <;> apply BitVec.eq_of_toNat_eq
  · simp [u16ToLeBytes, toNat_byte, Nat.shiftRight_eq_div_pow]
  · simp [u16ToLeBytes, toNat_byte]

/-- After a push the stack holds the pushed bytes. -/
theorem push_holds (hI : Coherent b I) {c c' : Mos6502 B} {mem : Mem} {l bs : List Byte}
    {i : InstructionVariant} (hm : I c.address_map mem) (hs : Step b c i c')
    (hp : pushed (regs c) (view i).1 = some bs) (hl : bs.length + l.length ≤ 256)
    (h : StackHolds mem c.sp l) :
    ∃ mem', I c'.address_map mem' ∧ StackHolds mem' c'.sp (bs.reverse ++ l) ∧
      (c'.sp.toNat + bs.length) % 256 = c.sp.toNat := by
  obtain ⟨hr, hm'⟩ := step_mem hI hm hs
  refine ⟨_, hm', ?_⟩
  have hsp : c'.sp = _ := congrArg Regs.sp hr
  have hlt := c.sp.isLt
  generalize view i = q at *
  obtain ⟨mn, am⟩ := q
  cases mn <;> simp only [pushed, Option.some.injEq, reduceCtorEq] at hp <;> subst hp <;>
    simp only [List.length_cons, List.length_nil] at hl
  · -- JSR
    have e1 : (c.sp - 1).toNat = (c.sp.toNat + 255) % 256 := toNat_sub_byte c.sp 1 (by omega)
    have e2 : c'.sp = c.sp - 2 := hsp
    have e3 : (c.sp - 2).toNat = (c.sp.toNat + 254) % 256 := toNat_sub_byte c.sp 2 (by omega)
    have e4 : (c.sp - 1 - 1 : Byte) = c.sp - 2 := by
      apply BitVec.eq_of_toNat_eq
      have := toNat_sub_byte (c.sp - 1) 1 (by omega)
      have h' : (c.sp - 1 - 1).toNat = ((c.sp - 1).toNat + 255) % 256 := this
      rw [h', e1, e3]; omega
    constructor
    · have h1 := (h.push (by omega) (u16ToLeBytes ((regs c).pc + 2)).2).push
        (by simp; omega) (u16ToLeBytes ((regs c).pc + 2)).1
      rw [e4, ← e2] at h1
      rw [(hi_lo_word _).1, (hi_lo_word _).2] at h1
      have e5 : ((regs c).pc + 2).toNat = ((regs c).pc.toNat + 2) % 65536 := by
        rw [BitVec.toNat_add]; rfl
      have e6 : byte (((regs c).pc.toNat + 2) % 65536) = byte ((regs c).pc.toNat + 2) := by
        apply BitVec.eq_of_toNat_eq; rw [toNat_byte, toNat_byte]; omega
      have e7 : (u16ToLeBytes ((regs c).pc + 2)).2 = byte (((regs c).pc.toNat + 2) % 65536 / 256) := by
        rw [(hi_lo_word _).1, e5]
      have e8 : (u16ToLeBytes ((regs c).pc + 2)).1 = byte ((regs c).pc.toNat + 2) := by
        rw [(hi_lo_word _).2, e5, e6]
      rw [e5, e6] at h1
      simp only [codeEffect, List.foldl, e7, e8]
      exact h1
    · rw [e2, e3]; simp only [List.length_cons, List.length_nil]; omega
  · -- PHA
    have e2 : c'.sp = c.sp - 1 := hsp
    have e1 : (c.sp - 1).toNat = (c.sp.toNat + 255) % 256 := toNat_sub_byte c.sp 1 (by omega)
    constructor
    · rw [e2]; exact h.push (by omega) _
    · rw [e2, e1]; simp only [List.length_cons, List.length_nil]; omega
  · -- PHP
    have e2 : c'.sp = c.sp - 1 := hsp
    have e1 : (c.sp - 1).toNat = (c.sp.toNat + 255) % 256 := toNat_sub_byte c.sp 1 (by omega)
    constructor
    · rw [e2]; exact h.push (by omega) _
    · rw [e2, e1]; simp only [List.length_cons, List.length_nil]; omega

/-- After a pull the stack holds the rest. -/
theorem pull_holds (hI : Coherent b I) {c c' : Mos6502 B} {mem : Mem} {l bs : List Byte}
    {i : InstructionVariant} (hm : I c.address_map mem) (hs : Step b c i c')
    (hp : pulls (view i).1 = some bs.length) (h : StackHolds mem c.sp (bs ++ l)) :
    I c'.address_map mem ∧ StackHolds mem c'.sp l ∧ c'.sp.toNat = (c.sp.toNat + bs.length) % 256 := by
  obtain ⟨hr, hm'⟩ := step_mem hI hm hs
  have hsp : c'.sp = _ := congrArg Regs.sp hr
  generalize view i = q at *
  obtain ⟨mn, am⟩ := q
  cases mn <;> simp only [pulls, Option.some.injEq, reduceCtorEq] at hp
  all_goals
    refine ⟨hm', ?_, ?_⟩
    · rw [hsp]
      first
        | exact h.pull 1 hp.symm (by omega)
        | exact h.pull 2 hp.symm (by omega)
        | exact h.pull 3 hp.symm (by omega)
    · rw [hsp, ← hp]
      first
        | exact toNat_add_byte c.sp 1 (by omega)
        | exact toNat_add_byte c.sp 2 (by omega)
        | exact toNat_add_byte c.sp 3 (by omega)

/-- The invariant over a whole execution. -/
theorem stackRun_holds (hI : Coherent b I) {c c' : Mos6502 B} {l l' : List Byte}
    (h : StackRun b c l c' l') : ∀ {mem : Mem}, I c.address_map mem → StackHolds mem c.sp l →
    ∃ mem', I c'.address_map mem' ∧ StackHolds mem' c'.sp l' ∧
      (c'.sp.toNat + l'.length) % 256 = (c.sp.toNat + l.length) % 256 := by
  induction h with
  | done => intro mem hm hl; exact ⟨mem, hm, hl, rfl⟩
  | push hs hp hl _ ih =>
    intro mem hm h0
    obtain ⟨m1, hm1, h1, e1⟩ := push_holds hI hm hs hp hl h0
    obtain ⟨m2, hm2, h2, e2⟩ := ih hm1 h1
    refine ⟨m2, hm2, h2, ?_⟩
    rw [e2]
    simp only [List.length_append, List.length_reverse]
    omega
  | pull hs hp _ ih =>
    intro mem hm h0
    obtain ⟨hm1, h1, e1⟩ := pull_holds hI hm hs hp h0
    obtain ⟨m2, hm2, h2, e2⟩ := ih hm1 h1
    refine ⟨m2, hm2, h2, ?_⟩
    rw [e2, e1]
    simp only [List.length_append]
    omega
  | @other c0 c1 c2 l l'' i hs hk hw _ ih =>
    intro mem hm h0
    obtain ⟨hr, hm'⟩ := step_mem hI hm hs
    have hsp : c1.sp = c0.sp := (congrArg Regs.sp hr).trans (keepsStack_sp hk _ _ _)
    have h1 : StackHolds ((codeEffect (regs c0) mem (view i).1 (view i).2).writes.foldl
        (fun m w => upd m w.1 w.2) mem) c1.sp l := by
      rw [hsp]
      refine h0.foldl_other _ ?_
      intro w hw' k hk'
      refine hw mem (hI _ _ hm).1 w.1 ?_ k hk'
      rw [← codeEffect_writes]
      exact List.mem_map_of_mem hw'
    obtain ⟨m2, hm2, h2, e2⟩ := ih hm' h1
    exact ⟨m2, hm2, h2, by rw [e2, hsp]⟩

end

/-- The CPU after one step (for examples). -/
def after1 {B : Type} [Addressable B] (b : Build) (c : Mos6502 B) : Mos6502 B :=
  match next b c with
  | .ok (_, c') => c'
  | .error _ => c

/-- The CPU after `n` steps (for examples). -/
def afterN {B : Type} [Addressable B] (b : Build) (c : Mos6502 B) : Nat → Mos6502 B
  | 0 => c
  | n + 1 => after1 b (afterN b c n)

/-- Is this the instruction, and does the step succeed? (for examples) -/
def stepsOk {B : Type} [Addressable B] (b : Build) (c : Mos6502 B) (i : InstructionVariant) : Bool :=
  match fetch b c, next b c with
  | .ok j, .ok _ => decide (j = i)
  | _, _ => false

theorem step_after1 {B : Type} [Addressable B] {b : Build} {c : Mos6502 B} {i : InstructionVariant}
    (hok : stepsOk b c i = true) : Step b c i (after1 b c) := by
  unfold stepsOk at hok
  split at hok
  · rename_i j p h1 h2
    have := of_decide_eq_true hok
    subst this
    refine ⟨h1, p.1, ?_⟩
    unfold after1
    rw [h2]
  · cases hok

theorem step_afterN {B : Type} [Addressable B] {b : Build} {c : Mos6502 B} {n : Nat}
    {i : InstructionVariant} (hok : stepsOk b (afterN b c n) i = true) :
    Step b (afterN b c n) i (afterN b c (n + 1)) := step_after1 hok

/-- 64K of RAM is coherent. -/
theorem flatRam_coherent (b : Build) : Coherent b (fun (d : FlatRam) mem => d.mem = mem) := by
  rintro bus mem rfl
  refine ⟨fun _ => rfl, ?_⟩
  intro a v r bus' h
  simp only [Addressable.write, Except.ok.injEq, Prod.mk.injEq] at h
  rw [← h.2]
  rfl

/-- So is the emulator's own bus of memory segments, after any history. -/
theorem trace_coherent (b : Build) : Coherent b (fun (m : AddressMap Memory) mem =>
    ∃ h, Spec.MemTrace b h m ∧ mem = (Spec.Bus.after h).val) := by
  rintro m mem ⟨h, ht, rfl⟩
  refine ⟨busView_of_trace ht, ?_⟩
  intro a v r m' hw
  refine ⟨h ++ [.write a v], .write ht hw, ?_⟩
  obtain ⟨res, m'', hw', -, hres⟩ := ht.inv.write b a v
  have hw : m.write b a v = .ok (.ok r, m') := hw
  rw [hw] at hw'
  simp only [Except.ok.injEq, Prod.mk.injEq] at hw'
  rw [← hw'.1] at hres
  have ho : (Spec.Bus.after h).owner a = some .readWrite := by
    revert hres
    split
    · intro _; assumption
    · intro h; cases h
    · intro h; cases h
  rw [Spec.Bus.after_append]
  simp only [Spec.Bus.step, if_pos ho]
  rfl

end Verif.Mos
