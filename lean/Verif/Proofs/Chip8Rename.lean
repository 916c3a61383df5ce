import Verif.Proofs.Chip8Link
import Verif.Props.Chip8.Frame
import Verif.Spec.Chip8Rename

/-!
# Renamed registers: lemmas for C116
-/

namespace Verif.Chip8

open Verif Verif.Spec.Chip8 Verif.Props.Chip8
open Verif.Spec.Mos (Mem BusView writeAll upd)

variable {B B' R R' : Type} {b : Build} {e : Env} {c : Chip8 B R} {d : Chip8 B' R'} {mem mem' : Mem}
  {op : Opcode} {P : Word → Prop} {π : GpRegisters → GpRegisters}

theorem valid_rename (h : Valid op) : Valid (rename π op) := by
  cases op <;> exact h

theorem rename_vf (hπ : Renaming π) {x : GpRegisters} (h : x ≠ .Vf) : π x ≠ .Vf := fun h' =>
  h (hπ.inj _ _ (h'.trans hπ.vf.symm))

theorem renamed_setV (hπ : Renaming π) (h : Renamed π c d) {x : GpRegisters} (hx : x ≠ .Vf) (v : Byte)
    (r : GpRegisters) : V (setV d (π x) v) (π r) = V (setV c x v) r := by
  rw [V_setV _ hx, V_setV _ (rename_vf hπ hx)]
  by_cases hr : r = x
  · rw [if_pos hr, if_pos (by rw [hr])]
  · rw [if_neg hr, if_neg fun h => hr (hπ.inj _ _ h), h.v]

theorem renamed_pressed (h : Renamed π c d) (n : Nat) : Pressed d n ↔ Pressed c n := by
  unfold Pressed
  rw [h.key]

theorem runs_rename (hπ : Renaming π) (h : Renamed π c d) (hm : Renamable π P c op) (hr : Runs b c op) :
    Runs b d (rename π op) := by
  obtain ⟨hvf, hov⟩ := hr
  have hne : ∀ x : GpRegisters, π x = .Vf → x = .Vf := fun x h => hπ.inj _ _ (h.trans hπ.vf.symm)
  refine ⟨fun hu => hvf ?_, fun ho => hov ⟨ho.1, ?_⟩⟩
  · cases op <;> simp only [rename, UsesVf] at hu ⊢ <;>
      first
      | exact hne _ hu
      | exact hu.imp (hne _) (hne _)
      | (rw [h.key] at hu; exact ⟨hne _ hu.1, hu.2⟩)
  · replace ho := ho.2
    cases op <;> simp only [rename, Overflows, h.i, h.v] at ho ⊢
    case LdBcd x => exact ho
    case LdSpriteLocation x => exact ho
    case StoreRegistersToMemory x => rw [hm.block x x (.inl rfl) (Nat.le_refl _)] at ho; exact ho
    case ReadRegistersFromMemory x => rw [hm.block x x (.inr rfl) (Nat.le_refl _)] at ho; exact ho

theorem writes_rename (h : Renamed π c d) (hm : Renamable π P c op) :
    writes d (rename π op) = writes c op := by
  cases op <;> first | rfl | skip
  case LdBcd x => simp only [rename, writes, h.i, h.v]
  case StoreRegistersToMemory x =>
    simp only [rename, writes, h.i, hm.block x x (.inl rfl) (Nat.le_refl _)]
    apply List.map_congr_left
    intro k hk
    have hk := List.mem_range.1 hk
    have hn := num_lt x
    have := h.v (regOf k)
    rw [hm.block x _ (.inl rfl) (by rw [num_regOf (by omega)]; omega)] at this
    rw [this]

/-- One instruction. -/
theorem renamed_after (hπ : Renaming π) (h : Renamed π c d) (hd : ∀ a, ¬Code P a → mem' a = mem a)
    (hm : Renamable π P c op) (hr : Runs b c op) :
    Renamed π (after e mem c op) (after e mem' d (rename π op)) := by
  have hvf := hr.1
  have adv : ∀ {c : Chip8 B R} {d : Chip8 B' R'} (n : Nat), Renamed π c d →
      Renamed π (advance c n) (advance d n) := fun n h =>
    ⟨by simp only [advance, h.pc], h.v, h.i, h.sp, h.stack, h.delay, h.sound, h.display, h.key⟩
  have set : ∀ {x : GpRegisters} (v v' : Byte), x ≠ .Vf → v' = v →
      Renamed π (setV c x v) (setV d (π x) v') := fun v v' hx hv => by
    subst hv
    exact ⟨h.pc, fun r => renamed_setV hπ h hx v' r, h.i, h.sp, h.stack, h.delay, h.sound, h.display,
      h.key⟩
  cases op <;> simp only [UsesVf, not_true, not_or, not_and, not_false_eq_true] at hvf <;>
    simp only [rename, after]
  case Cls => exact adv 2 ⟨h.pc, h.v, h.i, h.sp, h.stack, h.delay, h.sound, rfl, h.key⟩
  case Ret =>
    exact ⟨by simp only [h.stack, h.sp], h.v, h.i, h.sp, h.stack, h.delay, h.sound, h.display, h.key⟩
  case Call a =>
    exact ⟨rfl, h.v, h.i, h.sp, by simp only [h.stack, h.sp, h.pc], h.delay, h.sound, h.display, h.key⟩
  case JpNonV0Indexed a => exact ⟨rfl, h.v, h.i, h.sp, h.stack, h.delay, h.sound, h.display, h.key⟩
  case JpV0Indexed a =>
    have := h.v .V0
    rw [hm.indexed a rfl] at this
    exact ⟨by simp only [this], h.v, h.i, h.sp, h.stack, h.delay, h.sound, h.display, h.key⟩
  case LdAbsolute a => exact adv 2 ⟨h.pc, h.v, rfl, h.sp, h.stack, h.delay, h.sound, h.display, h.key⟩
  case LdImmediate x kk => exact adv 2 (set _ _ hvf rfl)
  case LdVxVy x y => exact adv 2 (set _ _ hvf.1 (h.v y))
  case LdSoundTimerDestTx x =>
    exact adv 2 ⟨h.pc, h.v, h.i, h.sp, h.stack, h.delay, by simp only [h.v], h.display, h.key⟩
  case LdDelayTimerDestTx x =>
    exact adv 2 ⟨h.pc, h.v, h.i, h.sp, h.stack, by simp only [h.v], h.sound, h.display, h.key⟩
  case LdDelayTimerSrcTx x => exact adv 2 (set _ _ hvf (by rw [h.delay]))
  case LdK x =>
    rw [h.key]
    cases hk : c.interrupt with
    | none => exact adv 2 h
    | some i =>
      cases i
      exact adv 2 (set _ _ (fun hx => by simpa [hk] using hvf hx) rfl)
  case LdSpriteLocation x =>
    exact adv 2 ⟨h.pc, h.v, by simp only [h.v], h.sp, h.stack, h.delay, h.sound, h.display, h.key⟩
  case AddImmediate x kk => exact adv 2 (set _ _ hvf (by rw [h.v]))
  case AddIRegisterIndexed x =>
    exact adv 2 ⟨h.pc, h.v, by simp only [h.v, h.i], h.sp, h.stack, h.delay, h.sound, h.display, h.key⟩
  case And x y => exact adv 2 (set _ _ hvf.1 (by rw [h.v, h.v]))
  case Or x y => exact adv 2 (set _ _ hvf.1 (by rw [h.v, h.v]))
  case Xor x y => exact adv 2 (set _ _ hvf.1 (by rw [h.v, h.v]))
  case SeVxVy x y => rw [h.v, h.v]; exact adv _ h
  case SneVxVy x y => rw [h.v, h.v]; exact adv _ h
  case SeImmediate x kk => rw [h.v]; exact adv _ h
  case SneImmediate x kk => rw [h.v]; exact adv _ h
  case Skp x => simp only [h.v, renamed_pressed h]; exact adv _ h
  case Sknp x => simp only [h.v, renamed_pressed h]; exact adv _ h
  case ReadRegistersFromMemory x =>
    have hx := hm.block x x (.inr rfl) (Nat.le_refl _)
    rw [hx]
    refine adv 2 ⟨h.pc, fun r => ?_, h.i, h.sp, h.stack, h.delay, h.sound, h.display, h.key⟩
    by_cases hr : num r ≤ num x
    · rw [hm.block x r (.inr rfl) hr, V_load_of _ hvf _ hr, V_load_of _ hvf _ hr, h.i, ← iPlus_eq]
      exact hd _ (hm.data _ _ rfl hr)
    · have hr' : ¬num (π r) ≤ num x := fun h' => by
        have := hm.block x (π r) (.inr rfl) h'
        rw [hπ.inj _ _ this] at h'
        exact hr h'
      rw [V_load _ _ _ (by omega), V_load _ _ _ (by omega), h.v]
  case Rnd x kk => exact adv 2 (set _ _ hvf rfl)
  case Sys a => exact adv 2 h
  case LdBcd x => exact adv 2 h
  case StoreRegistersToMemory x => exact adv 2 h

theorem renamedMem_write (h : Renamable π P c op) (hm : RenamedMem π P mem mem') :
    RenamedMem π P ((writes c op).foldl (fun m w => upd m w.1 w.2) mem)
      ((writes c op).foldl (fun m w => upd m w.1 w.2) mem') := by
  have hcode : ∀ a, Code P a → a ∉ (writes c op).map Prod.fst := by
    intro a ha hw
    obtain ⟨n, j, h1, h2, rfl⟩ := writes_data hw
    exact h.data n j h1 h2 ha
  refine ⟨fun p hp op' hv hw => ?_, fun a h1 => ?_⟩
  · have hp1 : Code P (p + 1) := .inr (by rw [BitVec.add_sub_cancel]; exact hp)
    unfold wordAt at hw ⊢
    rw [writes_other _ _ (hcode p (.inl hp)), writes_other _ _ (hcode (p + 1) hp1)] at hw ⊢
    exact hm.code p hp op' hv hw
  · exact Verif.Mos.writes_agree _ _ (.inl (hm.data a h1))

end Verif.Chip8
