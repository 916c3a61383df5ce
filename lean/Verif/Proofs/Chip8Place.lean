import Verif.Proofs.Chip8Link
import Verif.Spec.Chip8Place

/-!
# Data of a CHIP-8 program elsewhere: lemmas for C127
-/

namespace Verif.Chip8

open Verif Verif.Spec.Chip8 Verif.Props.Chip8
open Verif.Spec.Mos (Mem BusView writeAll upd)

variable {B B' R R' : Type} {b : Build} {e : Env} {c : Chip8 B R} {d : Chip8 B' R'} {mem mem' : Mem}
  {op : Opcode} {f : Word → Word} {P : Word → Prop}

/-- The instructions that neither look at I nor set it. -/
def noData : Opcode → Bool
  | .LdAbsolute _ | .AddIRegisterIndexed _ | .LdSpriteLocation _ | .LdBcd _ | .StoreRegistersToMemory _
  | .ReadRegistersFromMemory _ => false
  | _ => true

/-- The parts in which the machines differ. -/
def placeDiff : Part → Prop
  | .i | .mem _ => True
  | _ => False

theorem placed_agree (h : Placed f c d) : Agree placeDiff c d mem mem' := by
  refine ⟨h.pc, fun p hp => ?_⟩
  cases p with
  | v r => exact h.v r
  | i => exact absurd trivial hp
  | sp => exact h.sp
  | cell j => exact h.cell j
  | delay => exact h.delay
  | sound => exact h.sound
  | display => exact h.display
  | key => exact h.key
  | mem a => exact absurd trivial hp

theorem noData_looks (hs : noData op = true) (hr : Runs b c op) : ∀ p ∈ looksAt c op, ¬placeDiff p := by
  have hvf := hr.1
  intro p hp
  cases op <;> simp only [looksAt, List.mem_cons, List.not_mem_nil, or_false] at hp <;>
    first | (cases hs; done) | exact absurd trivial hvf | skip
  all_goals
    first
    | (rcases hp with rfl | rfl <;> exact id)
    | (subst hp; exact id)

/-- The state after an instruction on the machine with its data elsewhere. -/
theorem placed_after (h : Placed f c d) (hm : PlacedMem f P mem mem') (hp : Placeable b f P c op)
    (hr : Runs b c op) (hw : WellFormed c) (hw' : WellFormed d) :
    Runs b d (readdress f op) ∧ writes d (readdress f op) = (writes c op).map (fun w => (f w.1, w.2)) ∧
      Placed f (after e mem c op) (after e mem' d (readdress f op)) := by
  cases hs : noData op with
  | true =>
    have hpl : readdress f op = op := by cases op <;> first | rfl | (cases hs; done)
    rw [hpl]
    have hag := placed_agree (mem := mem) (mem' := mem') h
    have hlook := noData_looks hs hr
    have hst := agree_step (e := e) hr hw hw' hag hlook
    have hD : ∀ {p}, ¬placeDiff p → ¬(placeDiff p ∧ p ∉ sets c op) := fun h h' => h h'.1
    have hwr : writes c op = [] := by cases op <;> first | rfl | (cases hs; done)
    have hwr' : writes d op = [] := by cases op <;> first | rfl | (cases hs; done)
    refine ⟨runs_used (fun p hp => hag.same p (hlook p hp)) hr, by rw [hwr, hwr']; rfl,
      ⟨hst.pc, fun r => hst.same (.v r) (hD id), ?_, hst.same .sp (hD id), fun j => hst.same (.cell j) (hD id), hst.same .delay (hD id),
      hst.same .sound (hD id), hst.same .display (hD id), hst.same .key (hD id)⟩⟩
    have f1 : (after e mem c op).i = c.i := by
      cases op <;> first | (cases hs; done) | rfl | (simp only [after]; split <;> rfl)
    have f2 : (after e mem' d op).i = d.i := by
      cases op <;> first | (cases hs; done) | rfl | (simp only [after]; split <;> rfl)
    rw [f1, f2, h.i]
  | false =>
    have hvf := hr.1
    cases op <;> first | (cases hs; done) | skip
    case LdAbsolute a =>
      refine ⟨⟨id, fun h => h.2⟩, rfl, ⟨?_, h.v, rfl, h.sp, h.cell, h.delay, h.sound, h.display, h.key⟩⟩
      simp only [readdress, after, advance, h.pc]
    case AddIRegisterIndexed x =>
      refine ⟨⟨hvf, fun h => h.2⟩, rfl, ⟨?_, h.v, ?_, h.sp, h.cell, h.delay, h.sound, h.display, h.key⟩⟩
      · simp only [readdress, after, advance, h.pc]
      · have := hp.add x rfl
        simp only [readdress, after, advance, h.i, h.v]
        rw [show BitVec.ofNat 16 (c.i.toNat + (V c x).toNat) = iPlus c (V c x).toNat from rfl, this]
        apply BitVec.eq_of_toNat_eq
        simp only [BitVec.toNat_ofNat, BitVec.toNat_add]
        omega
    case LdSpriteLocation x =>
      refine ⟨⟨hvf, fun ho => hr.2 ?_⟩, rfl,
        ⟨?_, h.v, ?_, h.sp, h.cell, h.delay, h.sound, h.display, h.key⟩⟩
      · simp only [readdress, Overflows, h.v] at ho ⊢
        exact ho
      · simp only [readdress, after, advance, h.pc]
      · simp only [readdress, after, advance, h.v]
        exact (hp.glyph x rfl).symm
    case LdBcd x =>
      refine ⟨⟨hvf, fun ho => ?_⟩, ?_, ⟨?_, h.v, h.i, h.sp, h.cell, h.delay, h.sound, h.display, h.key⟩⟩
      · have := hp.fits ho.1 2 rfl
        have := ho.2
        simp only [readdress, Overflows, h.i] at this
        omega
      · have h0 := (hp.data 2 0 rfl (by omega)).1
        have h1 := (hp.data 2 1 rfl (by omega)).1
        have h2 := (hp.data 2 2 rfl (by omega)).1
        rw [iPlus_eq] at h0 h1 h2
        simp only [readdress, writes, List.map_cons, List.map_nil, h.i, h.v]
        rw [show c.i + 1 = c.i + BitVec.ofNat 16 1 from rfl, h1,
          show c.i + 2 = c.i + BitVec.ofNat 16 2 from rfl, h2]
        rfl
      · simp only [readdress, after, advance, h.pc]
    case StoreRegistersToMemory x =>
      refine ⟨⟨hvf, fun ho => ?_⟩, ?_, ⟨?_, h.v, h.i, h.sp, h.cell, h.delay, h.sound, h.display, h.key⟩⟩
      · have := hp.fits ho.1 _ rfl
        have := ho.2
        simp only [readdress, Overflows, h.i] at this
        omega
      · simp only [readdress, writes, List.map_map]
        refine List.map_congr_left fun j hj => ?_
        have hj := List.mem_range.1 hj
        have h0 := (hp.data _ j rfl (by omega)).1
        rw [iPlus_eq] at h0
        simp only [Function.comp, h.i, h.v, h0]
      · simp only [readdress, after, advance, h.pc]
    case ReadRegistersFromMemory x =>
      refine ⟨⟨hvf, fun ho => ?_⟩, rfl,
        ⟨?_, fun r => ?_, h.i, h.sp, h.cell, h.delay, h.sound, h.display, h.key⟩⟩
      · have := hp.fits ho.1 _ rfl
        have := ho.2
        simp only [readdress, Overflows, h.i] at this
        omega
      · simp only [readdress, after, advance, h.pc]
      · have hv : ∀ j, j ≤ num x → mem' (d.i + BitVec.ofNat 16 j) = mem (c.i + BitVec.ofNat 16 j) := by
          intro j hj
          obtain ⟨h1, h2, -⟩ := hp.data _ j rfl hj
          rw [h.i, ← h1, hm.data _ h2, iPlus_eq]
        simp only [readdress, after, advance]
        by_cases hr : num r ≤ num x
        · exact (V_load_of d hvf _ hr).trans ((hv _ hr).trans
            (V_load_of c hvf (fun k => mem (c.i + BitVec.ofNat 16 k)) hr).symm)
        · exact (V_load d _ _ (by omega)).trans ((h.v r).trans (V_load c _ _ (by omega)).symm)

theorem placedMem_write {ws : List (Word × Byte)} (hf : ∀ a a', f a = f a' → a = a')
    (h1 : ∀ w ∈ ws, ¬Code P w.1 ∧ ¬Code P (f w.1)) (hm : PlacedMem f P mem mem') :
    PlacedMem f P (ws.foldl (fun m w => upd m w.1 w.2) mem)
      ((ws.map fun w => (f w.1, w.2)).foldl (fun m w => upd m w.1 w.2) mem') := by
  induction ws generalizing mem mem' with
  | nil => exact hm
  | cons w ws ih =>
    simp only [List.map_cons, List.foldl_cons]
    refine ih (fun w hw => h1 w (List.mem_cons_of_mem _ hw)) ?_
    obtain ⟨g1, g2⟩ := h1 w (List.mem_cons_self ..)
    refine ⟨fun p hp op hv hw => ?_, fun a ha => ?_⟩
    · have hp1 : Code P (p + 1) := .inr (by rw [BitVec.add_sub_cancel]; exact hp)
      have n1 : p ≠ w.1 := fun h => g1 (h ▸ .inl hp)
      have n2 : p + 1 ≠ w.1 := fun h => g1 (h ▸ hp1)
      have n3 : p ≠ f w.1 := fun h => g2 (h ▸ .inl hp)
      have n4 : p + 1 ≠ f w.1 := fun h => g2 (h ▸ hp1)
      simp only [wordAt, upd, if_neg n1, if_neg n2, if_neg n3, if_neg n4] at hw ⊢
      exact hm.code p hp op hv hw
    · by_cases ha' : a = w.1
      · subst ha'
        simp only [upd, if_true]
      · have : f a ≠ f w.1 := fun h => ha' (hf _ _ h)
        simp only [upd, if_neg this, if_neg ha']
        exact hm.data a ha

end Verif.Chip8
