import Verif.Proofs.Chip8Uses
import Verif.Spec.Chip8Link

/-!
# Moved CHIP-8 programs: lemmas for C115
-/

namespace Verif.Chip8

open Verif Verif.Spec.Chip8 Verif.Props.Chip8
open Verif.Spec.Mos (Mem BusView writeAll upd)

variable {B B' R R' : Type} {b : Build} {e : Env} {c : Chip8 B R} {d : Chip8 B' R'} {mem mem' : Mem}
  {op : Opcode} {k : Word} {P : Word → Prop} {S : Nat → Prop}

/-- The instructions that only move on the program counter. -/
def stepsOn : Opcode → Bool
  | .Ret | .Call _ | .JpNonV0Indexed _ | .JpV0Indexed _ => false
  | _ => true

theorem patch_stepsOn (h : stepsOn op = true) : patch k op = op := by
  cases op <;> first | rfl | (cases h; done)

theorem ofNat_add (w v : Word) (n : Nat) :
    BitVec.ofNat 16 ((w + v).toNat + n) = BitVec.ofNat 16 (w.toNat + n) + v := by
  apply BitVec.eq_of_toNat_eq
  simp only [BitVec.toNat_ofNat, BitVec.toNat_add]
  omega

/-- Such an instruction does the same elsewhere. -/
theorem after_moved (h : stepsOn op = true) (hr : Runs b c op) (k : Word) :
    after e mem { c with pc := c.pc + k } op =
      { after e mem c op with pc := (after e mem c op).pc + k } := by
  have hvf := hr.1
  cases op <;> first | (cases h; done) | exact absurd trivial hvf | skip
  case LdK x =>
    simp only [after, advance, setV]
    cases c.interrupt <;> simp only [ofNat_add]
  case Skp x =>
    by_cases hq : Pressed c (V c x).toNat
    · have hq' : Pressed { c with pc := c.pc + k } (V { c with pc := c.pc + k } x).toNat := hq
      simp only [after, advance, if_pos hq, if_pos hq', ofNat_add]
    · have hq' : ¬Pressed { c with pc := c.pc + k } (V { c with pc := c.pc + k } x).toNat := hq
      simp only [after, advance, if_neg hq, if_neg hq', ofNat_add]
  case Sknp x =>
    by_cases hq : Pressed c (V c x).toNat
    · have hq' : Pressed { c with pc := c.pc + k } (V { c with pc := c.pc + k } x).toNat := hq
      simp only [after, advance, if_pos hq, if_pos hq', ofNat_add]
    · have hq' : ¬Pressed { c with pc := c.pc + k } (V { c with pc := c.pc + k } x).toNat := hq
      simp only [after, advance, if_neg hq, if_neg hq', ofNat_add]
  all_goals
    simp only [after, advance, setV, V, ofNat_add]
    try rfl

theorem writes_other (ws : List (Word × Byte)) (a : Word) : ∀ {mem : Mem}, a ∉ ws.map Prod.fst →
    ws.foldl (fun m w => upd m w.1 w.2) mem a = mem a := by
  induction ws with
  | nil => intro mem _; rfl
  | cons w ws ih =>
    intro mem h
    simp only [List.map_cons, List.mem_cons, not_or] at h
    rw [List.foldl_cons, ih h.2]
    exact if_neg h.1

/-- The bytes an instruction writes are among its data. -/
theorem writes_data {a : Word} (h : a ∈ (writes c op).map Prod.fst) :
    ∃ n j, dataSpan op = some n ∧ j ≤ n ∧ a = iPlus c j := by
  rw [mem_writes] at h
  cases op <;> simp only [sets, List.mem_cons, List.not_mem_nil, or_false, reduceCtorEq] at h
  case LdK x => split at h <;> simp at h
  case LdBcd x =>
    obtain ⟨j, hj, he⟩ := List.mem_map.1 h
    cases he
    exact ⟨2, j, rfl, by have := List.mem_range.1 hj; omega, rfl⟩
  case StoreRegistersToMemory x =>
    obtain ⟨j, hj, he⟩ := List.mem_map.1 h
    cases he
    exact ⟨num x, j, rfl, by have := List.mem_range.1 hj; omega, rfl⟩
  case ReadRegistersFromMemory x =>
    obtain ⟨r, he, -⟩ := upTo_v h
    cases he

/-- In which parts the state of a moved program may differ. -/
def linkDiff (k : Word) (P : Word → Prop) : Part → Prop
  | .cell _ => True
  | .mem a => Code P a ∨ Code P (a - k)
  | _ => False

theorem linked_agree (h : Linked k S c d) (hm : LinkedMem k P mem mem') :
    Agree (linkDiff k P) { c with pc := c.pc + k } d mem mem' := by
  refine ⟨h.pc, fun p hp => ?_⟩
  cases p with
  | v r => exact h.v r
  | i => exact h.i
  | sp => exact h.sp
  | cell j => exact absurd trivial hp
  | delay => exact h.delay
  | sound => exact h.sound
  | display => exact h.display
  | key => exact h.key
  | mem a => exact hm.data a (fun h => hp (.inl h)) fun h => hp (.inr h)

/-- An instruction that only moves on looks at nothing in which the machines differ, its own bytes
aside. -/
theorem movable_looks (h : Movable k P S c op) (hs : stepsOn op = true) (hr : Runs b c op) :
    ∀ p ∈ looksAt c op, ¬linkDiff k P p := by
  have hvf := hr.1
  intro p hp
  cases op <;> simp only [looksAt, List.mem_cons, List.not_mem_nil, or_false] at hp <;>
    first | (cases hs; done) | exact absurd trivial hvf | skip
  case StoreRegistersToMemory x =>
    rcases hp with rfl | hp
    · exact id
    · obtain ⟨r, rfl, -⟩ := upTo_v hp; exact id
  case ReadRegistersFromMemory x =>
    rcases hp with rfl | hp
    · exact id
    · obtain ⟨j, hj, rfl⟩ := List.mem_map.1 hp
      obtain ⟨h1, h2⟩ := h.data (num x) j rfl (by have := List.mem_range.1 hj; omega)
      rintro (h | h)
      · exact h1 h
      · exact h2 h
  all_goals
    first
    | (rcases hp with rfl | rfl <;> exact id)
    | (subst hp; exact id)

theorem linkedMem_write (h : Movable k P S c op) (hm : LinkedMem k P mem mem') :
    LinkedMem k P ((writes c op).foldl (fun m w => upd m w.1 w.2) mem)
      ((writes c op).foldl (fun m w => upd m w.1 w.2) mem') := by
  have hcode : ∀ a, Code P a → a ∉ (writes c op).map Prod.fst := by
    intro a ha hw
    obtain ⟨n, j, h1, h2, rfl⟩ := writes_data hw
    exact (h.data n j h1 h2).1 ha
  have himg : ∀ a, Code P a → a + k ∉ (writes c op).map Prod.fst := by
    intro a ha hw
    obtain ⟨n, j, h1, h2, h3⟩ := writes_data hw
    refine (h.data n j h1 h2).2 ?_
    rw [← h3, BitVec.add_sub_cancel]
    exact ha
  refine ⟨fun p hp op' hv hw => ?_, fun a h1 h2 => ?_⟩
  · have hp1 : Code P (p + 1) := .inr (by rw [BitVec.add_sub_cancel]; exact hp)
    have e1 := writes_other (mem := mem) _ _ (hcode p (.inl hp))
    have e2 := writes_other (mem := mem) _ _ (hcode (p + 1) hp1)
    have e3 := writes_other (mem := mem') _ _ (himg p (.inl hp))
    have e4 := writes_other (mem := mem') _ _ (himg (p + 1) hp1)
    have e5 : p + 1 + k = p + k + 1 := by rw [BitVec.add_assoc, BitVec.add_comm 1 k, BitVec.add_assoc]
    rw [e5] at e4
    unfold wordAt at hw ⊢
    rw [e1, e2] at hw
    rw [e3, e4]
    exact hm.code p hp op' hv hw
  · exact Verif.Mos.writes_agree _ _ (.inl (hm.data a h1 h2))

/-- One instruction. -/
theorem linked_after (h : Linked k S c d) (hm : LinkedMem k P mem mem') (hv : Valid op)
    (hmv : Movable k P S c op) (hr : Runs b c op) (hw : WellFormed c) (hw' : WellFormed d) :
    Runs b d (patch k op) ∧ writes d (patch k op) = writes c op ∧
      Linked k (pushed S c op) (after e mem c op) (after e mem' d (patch k op)) := by
  cases hs : stepsOn op with
  | true =>
    rw [patch_stepsOn hs]
    have hag := linked_agree h hm
    have hlook := movable_looks hmv hs hr
    have e1 : looksAt { c with pc := c.pc + k } op = looksAt c op := by cases op <;> rfl
    have hr0 : Runs b { c with pc := c.pc + k } op := by
      cases op <;> exact hr
    have e2 : writes { c with pc := c.pc + k } op = writes c op := by cases op <;> rfl
    have hw0 : WellFormed { c with pc := c.pc + k } := hw
    rw [← e1] at hlook
    have hsame := fun p hp => hag.same p (hlook p hp)
    have hst := agree_step (e := e) hr0 hw0 hw' hag hlook
    rw [after_moved hs hr] at hst
    have hD : ∀ {p}, ¬linkDiff k P p → ¬(linkDiff k P p ∧ p ∉ sets { c with pc := c.pc + k } op) :=
      fun h h' => h h'.1
    refine ⟨runs_used hsame hr0, (writes_used hsame).trans e2, ⟨hst.pc, fun r => hst.same (.v r) (hD id),
      hst.same .i (hD id), hst.same .sp (hD id), hst.same .delay (hD id), hst.same .sound (hD id),
      hst.same .display (hD id), hst.same .key (hD id), fun j hj => ?_⟩⟩
    have f1 : (after e mem c op).stack = c.stack := by
      cases op <;> first | (cases hs; done) | rfl | (simp only [after]; split <;> rfl)
    have f2 : (after e mem' d op).stack = d.stack := by
      cases op <;> first | (cases hs; done) | rfl | (simp only [after]; split <;> rfl)
    rw [f1, f2]
    refine h.cell j ?_
    cases op <;> first | (cases hs; done) | exact hj
  | false =>
    cases op <;> first | (cases hs; done) | skip
    case Ret =>
      refine ⟨⟨id, fun h => h.2⟩, rfl, ⟨?_, h.v, h.i, h.sp, h.delay, h.sound, h.display, h.key, h.cell⟩⟩
      have := h.cell _ (hmv.ret rfl)
      simp only [patch, after, h.sp]
      exact this
    case Call a =>
      refine ⟨⟨id, fun h => h.2⟩, rfl, ⟨rfl, h.v, h.i, h.sp, h.delay, h.sound, h.display, h.key,
        fun j hj => ?_⟩⟩
      simp only [patch, after, h.sp, h.pc]
      by_cases hj' : c.sp.inner.toNat % 16 = j
      · subst hj'
        rw [List.getElem?_set_self (by rw [hw'.2]; omega), List.getElem?_set_self (by rw [hw.2]; omega)]
        rfl
      · rw [List.getElem?_set_ne hj', List.getElem?_set_ne hj']
        exact h.cell j (hj.resolve_right fun h => hj' h.symm)
    case JpNonV0Indexed a =>
      exact ⟨⟨id, fun h => h.2⟩, rfl, ⟨rfl, h.v, h.i, h.sp, h.delay, h.sound, h.display, h.key, h.cell⟩⟩
    case JpV0Indexed a =>
      refine ⟨⟨id, fun h => h.2⟩, rfl, ⟨?_, h.v, h.i, h.sp, h.delay, h.sound, h.display, h.key, h.cell⟩⟩
      obtain ⟨h1, h2⟩ := hmv.indexed a rfl
      simp only [patch, after, h.v]
      rw [Nat.mod_eq_of_lt h1, Nat.mod_eq_of_lt h2, ofNat_add]

end Verif.Chip8
