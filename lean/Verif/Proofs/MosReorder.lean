import Verif.Proofs.MosUses
import Verif.Proofs.Listing

/-!
# Two instructions in either order, as effects on registers and memory
-/

namespace Verif.Mos

open Verif Verif.Spec.Mos Verif.Props

/-- The registers after an instruction. -/
abbrev regsAfter (r : Regs) (mem : Mem) (i : InstructionVariant) : Regs :=
  (codeEffect r mem (view i).1 (view i).2).regs

/-- The memory after an instruction. -/
abbrev memAfter (r : Regs) (mem : Mem) (i : InstructionVariant) : Mem :=
  (codeEffect r mem (view i).1 (view i).2).writes.foldl (fun m w => upd m w.1 w.2) mem

theorem value_moved (d : Word) (r : Regs) (mem : Mem) (p : Part) : value (movedRegs d r) mem p = value r mem p := by
  cases p with
  | flag f => cases f <;> rfl
  | _ => rfl

theorem free_positionFree {mn : Mnemonic} (h : transfersControl mn = false) : positionFree mn = true := by
  cases mn <;> first | rfl | cases h

theorem free_taken {mn : Mnemonic} (h : transfersControl mn = false) (p : ProcessorStatus) : taken mn p = none := by
  cases mn <;> first | rfl | cases h

section
variable {r r' : Regs} {mem mem' : Mem} {i j : InstructionVariant} {D : Part → Prop}

theorem effect_pc (h : transfersControl (view i).1 = false) : (regsAfter r mem i).pc = nextPc r (view i).2 := by
  revert h
  show transfersControl (view i).1 = false → (codeEffect r mem (view i).1 (view i).2).regs.pc = _
  generalize (view i).1 = mn
  generalize (view i).2 = am
  intro h
  cases mn <;> first | rfl | (cases h; done) | (cases am <;> rfl)

/-- An instruction that does not transfer control, at any two places, on states that agree in what it looks
at. -/
theorem data_step (hf : transfersControl (view i).1 = false)
    (h : ∀ p, ¬D p → value r' mem' p = value r mem p) (hu : ∀ p ∈ dataUses r mem i, ¬D p) :
    (code r' mem' (view i).1 (view i).2).cycles = (code r mem (view i).1 (view i).2).cycles ∧
    (codeEffect r' mem' (view i).1 (view i).2).writes = (codeEffect r mem (view i).1 (view i).2).writes ∧
    ∀ p, ¬(D p ∧ p ∉ sets r mem i) →
      value (regsAfter r' mem' i) (memAfter r' mem' i) p = value (regsAfter r mem i) (memAfter r mem i) p := by
  obtain ⟨d, hd⟩ : ∃ d, r' = movedRegs d { r' with pc := r.pc } := by
    refine ⟨r'.pc - r.pc, ?_⟩
    show r' = { r' with pc := r.pc + (r'.pc - r.pc) }
    rw [show r.pc + (r'.pc - r.pc) = r'.pc by rw [BitVec.add_comm]; exact BitVec.sub_add_cancel _ _]
  revert h
  generalize hs : ({ r' with pc := r.pc } : Regs) = s at hd
  have hpc : s.pc = r.pc := by rw [← hs]
  clear hs
  subst hd
  intro h
  have h : ∀ p, ¬D p → value s mem' p = value r mem p := fun p hp => by rw [← h p hp, value_moved]
  have hm := effect_moved (d := d) (r := s) (mem := mem') (mem' := mem') (free_positionFree hf) fun _ _ => rfl
  obtain ⟨g1, g2, g3, g4⟩ := effect_data hpc fun p hp => h p (hu p hp)
  have hc := (penalty_moved (d := d) (r := s) (mem := mem') (mem' := mem') (i := i) (free_positionFree hf)
    fun _ _ => rfl).1 (by rw [free_taken hf]; nofun)
  refine ⟨?_, by rw [hm, ← g2], fun p hp => ?_⟩
  · show baseCycles _ _ + codePenalty _ _ _ _ = _
    rw [hc, ← g1]; rfl
  · simp only [regsAfter, memAfter]
    rw [hm]
    simp only [g2]
    rw [value_moved]
    by_cases hset : p ∈ registersSet (view i).2 (view i).1
    · exact g4 p hset _ _
    · rw [effect_keeps s mem' _ _ _ hset, effect_keeps r mem _ _ _ hset]
      have hd : ¬D p ∨ p ∈ (writable r mem (view i).1 (view i).2).map Part.mem := by
        apply Classical.byContradiction
        intro hn
        refine hp ⟨Classical.byContradiction fun hd => hn (.inl hd), fun hm => ?_⟩
        rcases List.mem_append.1 hm with hm | hm
        · exact hset hm
        · exact hn (.inr hm)
      cases p with
      | mem a =>
        refine writes_agree _ a ?_
        rcases hd with hd | hd
        · exact .inl (h (.mem a) hd)
        · right
          rw [codeEffect_writes]
          obtain ⟨x, hx, he⟩ := List.mem_map.1 hd
          cases he
          exact hx
      | flag f =>
        have := h (.flag f) (hd.resolve_right (by simp))
        cases f <;> exact this
      | a => exact h .a (hd.resolve_right (by simp))
      | x => exact h .x (hd.resolve_right (by simp))
      | y => exact h .y (hd.resolve_right (by simp))
      | sp => exact h .sp (hd.resolve_right (by simp))
      | unused => exact h .unused (hd.resolve_right (by simp))

theorem sets_eq (h : (codeEffect r' mem' (view i).1 (view i).2).writes =
    (codeEffect r mem (view i).1 (view i).2).writes) : sets r' mem' i = sets r mem i := by
  unfold sets
  rw [← codeEffect_writes, ← codeEffect_writes, h]

/-- Two instructions of which neither looks at what the other one sets: in either order, at any places, on
states that agree in all but `D`, at which neither looks, they give the same but in what both set and in what
of `D` neither sets. -/
theorem reorder (hi : transfersControl (view i).1 = false) (hj : transfersControl (view j).1 = false)
    (h : ∀ p, ¬D p → value r' mem' p = value r mem p)
    (hDi : ∀ p ∈ dataUses r mem i, ¬D p) (hDj : ∀ p ∈ dataUses r mem j, ¬D p)
    (hij : ∀ p ∈ dataUses r mem j, p ∉ sets r mem i) (hji : ∀ p ∈ dataUses r mem i, p ∉ sets r mem j) :
    let s := regsAfter r mem i
    let m := memAfter r mem i
    let t := regsAfter r' mem' j
    let n := memAfter r' mem' j
    (code t n (view i).1 (view i).2).cycles = (code r mem (view i).1 (view i).2).cycles ∧
    (code r' mem' (view j).1 (view j).2).cycles = (code s m (view j).1 (view j).2).cycles ∧
    (codeEffect t n (view i).1 (view i).2).writes = (codeEffect r mem (view i).1 (view i).2).writes ∧
    (codeEffect r' mem' (view j).1 (view j).2).writes = (codeEffect r mem (view j).1 (view j).2).writes ∧
    ∀ p, ¬(D p ∧ p ∉ sets r mem i ∧ p ∉ sets r mem j) → ¬(p ∈ sets r mem i ∧ p ∈ sets r mem j) →
      value (regsAfter t n i) (memAfter t n i) p = value (regsAfter s m j) (memAfter s m j) p := by
  intro s m t n
  -- the second instruction on the first state and after the first instruction
  obtain ⟨a1, a2, a3⟩ := data_step (D := fun p => p ∈ sets r mem i) (r := r) (mem := mem) (r' := s) (mem' := m) hj
    (fun p hp => effect_keeps_all r mem i hp) hij
  -- the second instruction on the two first states
  obtain ⟨b1, b2, b3⟩ := data_step (r := r) (mem := mem) hj h hDj
  -- the first instruction after the second one and on the first state
  obtain ⟨c1, c2, c3⟩ := data_step (D := fun p => D p ∨ p ∈ sets r mem j) (r := r) (mem := mem) (r' := t)
    (mem' := n) hi
    (fun p hp => by
      rw [not_or] at hp
      rw [b3 p (fun h => hp.1 h.1)]
      exact effect_keeps_all r mem j hp.2)
    (fun p hp => by
      rw [not_or]
      exact ⟨hDi p hp, hji p hp⟩)
  refine ⟨c1, by rw [b1, a1], c2, b2, fun p hp hb => ?_⟩
  by_cases hpi : p ∈ sets r mem i
  · have hpj : p ∉ sets r mem j := fun h => hb ⟨hpi, h⟩
    rw [c3 p (fun h => h.2 hpi), effect_keeps_all s m j (by rw [sets_eq a2]; exact hpj)]
  · rw [effect_keeps_all t n i (by rw [sets_eq c2]; exact hpi), a3 p (fun h => hpi h.1),
      b3 p (fun h => hp ⟨h.1, hpi, h.2⟩)]

end

end Verif.Mos
