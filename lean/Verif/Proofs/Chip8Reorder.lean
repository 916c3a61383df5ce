import Verif.Proofs.Chip8Uses
import Verif.Spec.Listing

/-!
# Two CHIP-8 instructions in either order, as effects on the state
-/

namespace Verif.Chip8

open Verif Verif.Spec.Chip8 Verif.Props.Chip8
open Verif.Mos (writes_agree)
open Verif.Spec.Mos (Mem BusView writeAll upd)

variable {B B' R R' : Type} {b : Build} {e e' : Env} {c : Chip8 B R} {d : Chip8 B' R'} {mem mem' : Mem}
  {op op' : Opcode} {D : Part → Prop}

/-- The memory after an instruction. -/
abbrev memAfter (mem : Mem) (c : Chip8 B R) (op : Opcode) : Mem :=
  (writes c op).foldl (fun m w => upd m w.1 w.2) mem

theorem same_trans {B'' R'' : Type} {f : Chip8 B'' R''} {mem'' : Mem} {p : Part} (h : Same c d mem mem' p)
    (h' : Same d f mem' mem'' p) : Same c f mem mem'' p := by
  cases p <;> exact Eq.trans h' h

theorem same_symm {p : Part} (h : Same c d mem mem' p) : Same d c mem' mem p := by
  cases p <;> exact Eq.symm h

theorem foldl_upd (ws : List (Word × Byte)) (mem : Mem) {a : Word} (h : a ∉ ws.map Prod.fst) :
    ws.foldl (fun m w => upd m w.1 w.2) mem a = mem a := by
  induction ws generalizing mem with
  | nil => rfl
  | cons w ws ih =>
    simp only [List.map_cons, List.mem_cons, not_or] at h
    rw [List.foldl_cons, ih _ h.2]
    exact if_neg h.1

/-- What an instruction does not set it keeps. -/
theorem kept_all {p : Part} (hp : p ∉ sets c op) : Same c (after e mem c op) mem (memAfter mem c op) p := by
  cases p with
  | mem a =>
    exact foldl_upd _ _ fun h => hp (mem_writes.1 h)
  | v r =>
    cases op <;> simp only [sets, List.mem_cons, List.not_mem_nil, or_false, Part.v.injEq] at hp
    case LdK x =>
      simp only [Same, after]
      cases hi : c.interrupt with
      | none => simp only [V_advance]
      | some k =>
        obtain ⟨k⟩ := k
        rw [if_neg (by rw [hi]; simp)] at hp
        have hne : r ≠ x := by simpa using hp
        simp only [V_advance, V_setV_ne _ hne]
    case ReadRegistersFromMemory x =>
      rw [mem_upTo] at hp
      simp only [Same, after, V_advance]
      rw [V_load _ _ _ (by omega)]
    all_goals first
      | rfl
      | (simp only [Same, after, V_advance, V_setV_ne _ hp])
  | cell k =>
    cases op <;> first | rfl | skip
    case Call a =>
      simp only [sets, List.mem_cons, List.not_mem_nil, or_false, Part.cell.injEq] at hp
      simp only [Same, after]
      rw [List.getElem?_set_ne (fun h => hp h.symm)]
    case LdK x =>
      simp only [Same, after]
      cases c.interrupt <;> rfl
  | _ =>
    cases op <;> first | rfl | (simp [sets] at hp; done) | skip
    case LdK x =>
      simp only [Same, after]
      cases hi : c.interrupt <;> first | rfl | exact hi

theorem sets_used (hf : transfersControl op = false) (h : ∀ p ∈ looksAt c op, Same c d mem mem' p) :
    sets d op = sets c op := by
  cases op <;> first | rfl | (cases hf; done) | skip
  case LdK x =>
    have := h .key (by simp [looksAt])
    simp only [Same] at this
    simp only [sets, this]
  case LdBcd x =>
    have := h .i (by simp [looksAt])
    simp only [Same] at this
    simp only [sets, span, iPlus, this]
  case StoreRegistersToMemory x =>
    have := h .i (by simp [looksAt])
    simp only [Same] at this
    simp only [sets, span, iPlus, this]

theorem after_pc (hr : Runs b c op) (hf : transfersControl op = false) :
    (after e mem c op).pc = c.pc + BitVec.ofNat 16 2 := by
  have h : (advance c 2).pc = c.pc + BitVec.ofNat 16 2 := by
    apply BitVec.eq_of_toNat_eq
    simp only [advance, BitVec.toNat_ofNat, BitVec.toNat_add]
  cases op <;> first | exact h | (cases hf; done) | exact absurd trivial hr.1 | skip
  case LdK x =>
    simp only [after]
    cases c.interrupt <;> exact h

theorem after_wellFormed (hw : WellFormed c) (hf : transfersControl op = false) :
    WellFormed (after e mem c op) := by
  obtain ⟨h1, h2⟩ := hw
  cases op <;> first | exact ⟨h1, h2⟩ | (cases hf; done) | skip
  case LdK x =>
    simp only [after]
    cases c.interrupt <;> exact ⟨h1, h2⟩

/-- An instruction that does not transfer control, at any two places, on states that agree in what it looks
at. -/
theorem data_step (hf : transfersControl op = false) (hr : Runs b c op) (hw : WellFormed c) (hw' : WellFormed d)
    (h : ∀ p, ¬D p → Same c d mem mem' p) (hu : ∀ p ∈ looksAt c op, ¬D p) :
    Runs b d op ∧ writes d op = writes c op ∧ sets d op = sets c op ∧
    ∀ p, ¬(D p ∧ p ∉ sets c op) →
      Same (after e mem c op) (after e mem' d op) (memAfter mem c op) (memAfter mem' d op) p := by
  have hs : ∀ p ∈ looksAt c op, Same c d mem mem' p := fun p hp => h p (hu p hp)
  refine ⟨runs_used hs hr, writes_used hs, sets_used hf hs, fun p hp => ?_⟩
  unfold memAfter
  rw [writes_used hs]
  by_cases hp' : p ∈ sets c op
  · refine set_used hr (fun hc => ?_) hw hw' hs hp' ?_
    · obtain ⟨a, rfl⟩ := hc
      cases hf
    · rintro a rfl
      exact writes_agree _ _ (.inr (mem_writes.2 hp'))
  · have hD : ¬D p := fun hd => hp ⟨hd, hp'⟩
    refine kept_used hs hp' ?_ (h p hD)
    rintro a rfl
    exact writes_agree _ _ (.inl (h (.mem a) hD))

/-- Two instructions of which neither looks at what the other one sets: in either order, at any places, on
states that agree in all but `D`, at which neither looks, they give the same but in what both set and in what
of `D` neither sets. -/
theorem reorder (hf : transfersControl op = false) (hf' : transfersControl op' = false)
    (hr : Runs b c op) (hr' : Runs b (after e mem c op) op') (hw : WellFormed c) (hw' : WellFormed d)
    (h : ∀ p, ¬D p → Same c d mem mem' p)
    (hD : ∀ p ∈ looksAt c op, ¬D p) (hD' : ∀ p ∈ looksAt c op', ¬D p)
    (h1 : ∀ p ∈ looksAt c op', p ∉ sets c op) (h2 : ∀ p ∈ looksAt c op, p ∉ sets c op') :
    let s := after e mem c op
    let m := memAfter mem c op
    let t := after e' mem' d op'
    let n := memAfter mem' d op'
    Runs b d op' ∧ Runs b t op ∧ writes d op' = writes c op' ∧ writes t op = writes c op ∧
    ∀ p, ¬(D p ∧ p ∉ sets c op ∧ p ∉ sets c op') → ¬(p ∈ sets c op ∧ p ∈ sets c op') →
      Same (after e' m s op') (after e n t op) (memAfter m s op') (memAfter n t op) p := by
  intro s m t n
  have hws : WellFormed s := after_wellFormed hw hf
  -- the second instruction on the first state and after the first instruction
  have hrc : Runs b c op' := runs_used (c := s) (d := c) (mem := m) (mem' := mem) (op := op') (fun p hp => by
    refine same_symm (kept_all fun hs => ?_)
    have : ∀ q ∈ looksAt c op', Same c s mem m q := fun q hq => kept_all (h1 q hq)
    have hl : looksAt s op' = looksAt c op' := by
      cases op' <;> first | rfl | (cases hf'; done) | skip
      · have := this .i (by simp [looksAt])
        simp only [Same] at this
        simp only [looksAt, span, iPlus, this]
      · have := this .i (by simp [looksAt])
        simp only [Same] at this
        simp only [looksAt, span, iPlus, this]
    exact h1 p (hl ▸ hp) hs) hr'
  obtain ⟨-, a2, a3, a4⟩ := data_step (e := e') (D := fun p => p ∈ sets c op) (c := c) (mem := mem) (d := s) (mem' := m)
    hf' hrc hw hws (fun p hp => kept_all hp) h1
  -- the second instruction on the two first states
  obtain ⟨b1, b2, b3, b4⟩ := data_step (e := e') (c := c) (mem := mem) hf' hrc hw hw' h hD'
  have hwt : WellFormed t := after_wellFormed hw' hf'
  -- the first instruction after the second one and on the first state
  obtain ⟨c1, c2, c3, c4⟩ := data_step (e := e) (D := fun p => D p ∨ p ∈ sets c op') (c := c) (mem := mem) (d := t)
    (mem' := n) hf hr hw hwt
    (fun p hp => by
      rw [not_or] at hp
      exact same_trans (kept_all (e := e') hp.2) (b4 p fun h => hp.1 h.1))
    (fun p hp => by
      rw [not_or]
      exact ⟨hD p hp, h2 p hp⟩)
  refine ⟨b1, c1, b2, c2, fun p hp hb => ?_⟩
  by_cases hpi : p ∈ sets c op
  · have hpj : p ∉ sets c op' := fun h => hb ⟨hpi, h⟩
    exact same_trans (same_symm (kept_all (by rw [a3]; exact hpj))) (c4 p fun h => h.2 hpi)
  · have k1 : Same (after e' m s op') t (memAfter m s op') n p :=
      same_trans (same_symm (a4 p fun h => hpi h.1)) (b4 p fun h => hp ⟨h.1, hpi, h.2⟩)
    exact same_trans k1 (kept_all (by rw [c3]; exact hpi))

/-! ### The bus is not looked at -/

theorem runs_bus (bus : B) : Runs b { c with address_space := bus } op ↔ Runs b c op := by
  cases op <;> exact Iff.rfl

theorem writes_bus (bus : B) : writes { c with address_space := bus } op = writes c op := by
  cases op <;> rfl

theorem after_bus (bus : B) :
    after e mem { c with address_space := bus } op = { after e mem c op with address_space := bus } := by
  cases op <;> try rfl
  case LdK x =>
    obtain ⟨_, _, _, _, _, _, _, _, _, _ | _, _⟩ := c <;> rfl

theorem same_bus {p : Part} (h : Same c d mem mem' p) (bus : B) (bus' : B') :
    Same { c with address_space := bus } { d with address_space := bus' } mem mem' p := by
  cases p <;> exact h

end Verif.Chip8
