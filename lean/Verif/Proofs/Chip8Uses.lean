import Verif.Proofs.Chip8Effect
import Verif.Proofs.MosUses
import Verif.Spec.Chip8Uses
import Verif.Props.Chip8.Frame

/-!
# What the CHIP-8 looks at: lemmas for C114
-/

namespace Verif.Chip8

open Verif Verif.Spec.Chip8 Verif.Props.Chip8
open Verif.Mos (writes_agree)
open Verif.Spec.Mos (Mem BusView writeAll upd)

variable {B B' R R' : Type} {b : Build} {e : Env} {c : Chip8 B R} {d : Chip8 B' R'} {mem mem' : Mem}
  {op : Opcode}

theorem mem_upTo {x r : GpRegisters} : Part.v r ∈ upTo x ↔ num r ≤ num x := by
  cases r <;> cases x <;> decide

theorem upTo_v {x : GpRegisters} {p : Part} (h : p ∈ upTo x) : ∃ r, p = .v r ∧ num r ≤ num x := by
  obtain ⟨r, -, rfl⟩ := List.mem_map.1 h
  exact ⟨r, rfl, mem_upTo.1 h⟩

theorem iPlus_eq (k : Nat) : iPlus c k = c.i + BitVec.ofNat 16 k := by
  apply BitVec.eq_of_toNat_eq
  simp only [iPlus, BitVec.toNat_ofNat, BitVec.toNat_add]
  omega

theorem mem_writes {a : Word} : a ∈ (writes c op).map Prod.fst ↔ Part.mem a ∈ sets c op := by
  cases op <;> simp only [writes, sets, List.map_nil, List.not_mem_nil, List.mem_cons, reduceCtorEq, or_self]
  case LdK x => split <;> simp
  case LdBcd x =>
    have e0 : iPlus c 0 = c.i := by rw [iPlus_eq]; exact BitVec.add_zero _
    have e1 : iPlus c 1 = c.i + 1 := iPlus_eq 1
    have e2 : iPlus c 2 = c.i + 2 := iPlus_eq 2
    simp [span, List.range_succ, e0, e1, e2]
  case StoreRegistersToMemory x =>
    simp only [span, List.map_map, List.mem_map, Function.comp, Part.mem.injEq, iPlus_eq]
  case ReadRegistersFromMemory x =>
    refine ⟨False.elim, fun h => ?_⟩
    obtain ⟨r, h, -⟩ := upTo_v h
    cases h

theorem runs_used (h : ∀ p ∈ looksAt c op, Same c d mem mem' p) (hr : Runs b c op) : Runs b d op := by
  obtain ⟨h1, h2⟩ := hr
  refine ⟨fun hu => h1 ?_, fun ho => h2 ⟨ho.1, ?_⟩⟩
  · cases op <;> first | exact hu | skip
    case LdK x =>
      have := h .key (by simp [looksAt])
      simp only [Same] at this
      simp only [UsesVf, this] at hu ⊢
      exact hu
  · obtain ⟨-, ho⟩ := ho
    cases op <;> first | exact ho | skip
    case LdBcd x =>
      have := h .i (by simp [looksAt])
      simp only [Same] at this
      simpa only [Overflows, this] using ho
    case StoreRegistersToMemory x =>
      have := h .i (by simp [looksAt])
      simp only [Same] at this
      simpa only [Overflows, this] using ho
    case ReadRegistersFromMemory x =>
      have := h .i (by simp [looksAt])
      simp only [Same] at this
      simpa only [Overflows, this] using ho
    case LdSpriteLocation x =>
      have := h (.v x) (by simp [looksAt])
      simp only [Same] at this
      simpa only [Overflows, this] using ho

theorem writes_used (h : ∀ p ∈ looksAt c op, Same c d mem mem' p) : writes d op = writes c op := by
  cases op <;> first | rfl | skip
  case LdBcd x =>
    have h1 := h .i (by simp [looksAt])
    have h2 := h (.v x) (by simp [looksAt])
    simp only [Same] at h1 h2
    simp only [writes, h1, h2]
  case StoreRegistersToMemory x =>
    have h1 := h .i (by simp [looksAt])
    simp only [Same] at h1
    simp only [writes, h1]
    apply List.map_congr_left
    intro k hk
    have hk := List.mem_range.1 hk
    have hn := num_lt x
    have h2 := h (.v (regOf k)) (by
      simp only [looksAt, List.mem_cons, reduceCtorEq, false_or, mem_upTo]
      rw [num_regOf (by omega)]; omega)
    simp only [Same] at h2
    rw [h2]

theorem pc_used (hpc : d.pc = c.pc) (h : ∀ p ∈ looksAt c op, Same c d mem mem' p) :
    (after e mem' d op).pc = (after e mem c op).pc := by
  cases op <;> simp only [after, advance, setV, hpc]
  case Ret =>
    have h1 := h .sp (by simp [looksAt])
    have h2 := h (.cell (c.sp.inner.toNat % 16)) (by simp [looksAt])
    simp only [Same] at h1 h2
    rw [h1, h2]
  case JpV0Indexed a =>
    have h1 := h (.v .V0) (by simp [looksAt])
    simp only [Same] at h1
    rw [h1]
  case LdK x =>
    cases d.interrupt <;> cases c.interrupt <;> simp only
  case SeVxVy x y =>
    have h1 := h (.v x) (by simp [looksAt])
    have h2 := h (.v y) (by simp [looksAt])
    simp only [Same] at h1 h2
    rw [h1, h2]
  case SneVxVy x y =>
    have h1 := h (.v x) (by simp [looksAt])
    have h2 := h (.v y) (by simp [looksAt])
    simp only [Same] at h1 h2
    rw [h1, h2]
  case SeImmediate x kk =>
    have h1 := h (.v x) (by simp [looksAt])
    simp only [Same] at h1
    rw [h1]
  case SneImmediate x kk =>
    have h1 := h (.v x) (by simp [looksAt])
    simp only [Same] at h1
    rw [h1]
  case Skp x =>
    have h1 := h (.v x) (by simp [looksAt])
    have h2 := h .key (by simp [looksAt])
    simp only [Same] at h1 h2
    have h3 : Pressed d (V d x).toNat ↔ Pressed c (V c x).toNat := by
      rw [h1]; unfold Pressed; rw [h2]
    by_cases h4 : Pressed c (V c x).toNat
    · rw [if_pos h4, if_pos (h3.2 h4)]
    · rw [if_neg h4, if_neg fun h => h4 (h3.1 h)]
  case Sknp x =>
    have h1 := h (.v x) (by simp [looksAt])
    have h2 := h .key (by simp [looksAt])
    simp only [Same] at h1 h2
    have h3 : Pressed d (V d x).toNat ↔ Pressed c (V c x).toNat := by
      rw [h1]; unfold Pressed; rw [h2]
    by_cases h4 : Pressed c (V c x).toNat
    · rw [if_pos h4, if_pos (h3.2 h4)]
    · rw [if_neg h4, if_neg fun h => h4 (h3.1 h)]

theorem V_load_of (c : Chip8 B R) {x r : GpRegisters} (hx : x ≠ .Vf) (v : Nat → Byte)
    (h : num r ≤ num x) :
    V { c with gp_registers := loadRegs c.gp_registers (num x + 1) v } r = v (num r) := by
  have := num_lt_15 hx
  unfold V loadRegs
  rw [Vector.getElem?_eq_getElem (by omega), Vector.getElem_mapFinIdx, if_pos (by omega)]
  rfl

/-- What an instruction that runs gives a value, memory aside, it gives the same value. -/
theorem set_used (hr : Runs b c op) (hpc : (∃ a, op = .Call a) → d.pc = c.pc) (hw : WellFormed c) (hw' : WellFormed d)
    (h : ∀ p ∈ looksAt c op, Same c d mem mem' p) {p : Part} (hp : p ∈ sets c op) {m m' : Mem}
    (hm : ∀ a, p = .mem a → m' a = m a) :
    Same (after e mem c op) (after e mem' d op) m m' p := by
  have hvf := hr.1
  cases op <;> simp only [sets, List.mem_cons, List.not_mem_nil, or_false] at hp
  case Call a =>
    subst hp
    have h1 := h .sp (by simp [looksAt])
    simp only [Same] at h1
    simp only [Same, after, h1, hpc ⟨a, rfl⟩]
    rw [List.getElem?_set_self (by rw [hw'.2]; omega), List.getElem?_set_self (by rw [hw.2]; omega)]
  case LdK x =>
    have h1 := h .key (by simp [looksAt])
    simp only [Same] at h1
    split at hp
    · cases hp
    next hn =>
    obtain rfl := List.mem_singleton.1 hp
    simp only [Same, after, h1]
    have hx : x ≠ .Vf := fun hx => hvf ⟨hx, hn⟩
    cases hi : c.interrupt with
    | none => exact absurd hi hn
    | some k =>
      obtain ⟨k⟩ := k
      simp only [V_advance, V_setV _ hx, if_true]
  case LdBcd x =>
    obtain ⟨k, -, rfl⟩ := List.mem_map.1 hp
    exact hm _ rfl
  case StoreRegistersToMemory x =>
    obtain ⟨k, -, rfl⟩ := List.mem_map.1 hp
    exact hm _ rfl
  case ReadRegistersFromMemory x =>
    obtain ⟨r, rfl, hr⟩ := upTo_v hp
    have hx : x ≠ .Vf := hvf
    simp only [Same, after, V_advance, V_load_of _ hx _ hr]
    have h1 := h .i (by simp [looksAt])
    have h2 := h (.mem (iPlus c (num r))) (by
      simp only [looksAt, span, List.mem_cons, List.mem_map, List.mem_range]
      exact .inr ⟨num r, by omega, rfl⟩)
    simp only [Same] at h1 h2
    rw [h1, ← iPlus_eq, h2]
  case AddIRegisterIndexed x =>
    subst hp
    have h1 := h .i (by simp [looksAt])
    have h2 := h (.v x) (by simp [looksAt])
    simp only [Same] at h1 h2
    simp only [Same, after, advance, h1, h2]
  case LdDelayTimerSrcTx x =>
    subst hp
    have h1 := h .delay (by simp [looksAt])
    simp only [Same] at h1
    have hx : x ≠ .Vf := hvf
    simp only [Same, after, V_advance, V_setV _ hx, if_true, h1]
  case LdVxVy x y =>
    subst hp
    have h1 := h (.v y) (by simp [looksAt])
    simp only [Same] at h1
    have hx : x ≠ .Vf := fun hx => hvf (.inl hx)
    simp only [Same, after, V_advance, V_setV _ hx, if_true, h1]
  case And x y =>
    subst hp
    have h1 := h (.v x) (by simp [looksAt])
    have h2 := h (.v y) (by simp [looksAt])
    simp only [Same] at h1 h2
    have hx : x ≠ .Vf := fun hx => hvf (.inl hx)
    simp only [Same, after, V_advance, V_setV _ hx, if_true, h1, h2]
  case Or x y =>
    subst hp
    have h1 := h (.v x) (by simp [looksAt])
    have h2 := h (.v y) (by simp [looksAt])
    simp only [Same] at h1 h2
    have hx : x ≠ .Vf := fun hx => hvf (.inl hx)
    simp only [Same, after, V_advance, V_setV _ hx, if_true, h1, h2]
  case Xor x y =>
    subst hp
    have h1 := h (.v x) (by simp [looksAt])
    have h2 := h (.v y) (by simp [looksAt])
    simp only [Same] at h1 h2
    have hx : x ≠ .Vf := fun hx => hvf (.inl hx)
    simp only [Same, after, V_advance, V_setV _ hx, if_true, h1, h2]
  case AddImmediate x kk =>
    subst hp
    have h1 := h (.v x) (by simp [looksAt])
    simp only [Same] at h1
    have hx : x ≠ .Vf := hvf
    simp only [Same, after, V_advance, V_setV _ hx, if_true, h1]
  case LdImmediate x kk =>
    subst hp
    have hx : x ≠ .Vf := hvf
    simp only [Same, after, V_advance, V_setV _ hx, if_true]
  case Rnd x kk =>
    subst hp
    have hx : x ≠ .Vf := hvf
    simp only [Same, after, V_advance, V_setV _ hx, if_true]
  case LdSpriteLocation x =>
    subst hp
    have h1 := h (.v x) (by simp [looksAt])
    simp only [Same] at h1
    simp only [Same, after, advance, h1]
  case LdSoundTimerDestTx x =>
    subst hp
    have h1 := h (.v x) (by simp [looksAt])
    simp only [Same] at h1
    simp only [Same, after, advance, h1]
  case LdDelayTimerDestTx x =>
    subst hp
    have h1 := h (.v x) (by simp [looksAt])
    simp only [Same] at h1
    simp only [Same, after, advance, h1]
  case LdAbsolute a =>
    subst hp
    rfl
  case Cls =>
    subst hp
    rfl

/-- What an instruction does not give a value stays the same. -/
theorem kept_used (h : ∀ p ∈ looksAt c op, Same c d mem mem' p) {p : Part} (hp : p ∉ sets c op)
    {m m' : Mem} (hm : ∀ a, p = .mem a → m' a = m a) (hs : Same c d mem mem' p) :
    Same (after e mem c op) (after e mem' d op) m m' p := by
  cases p with
  | mem a => exact hm a rfl
  | v r =>
    simp only [Same] at hs
    cases op <;> simp only [sets, List.mem_cons, List.not_mem_nil, or_false, Part.v.injEq] at hp
    case LdK x =>
      have h1 := h .key (by simp [looksAt])
      simp only [Same] at h1
      simp only [Same, after, h1]
      cases hi : c.interrupt with
      | none => simpa only [V_advance] using hs
      | some k =>
        obtain ⟨k⟩ := k
        rw [if_neg (by rw [hi]; simp)] at hp
        have hne : r ≠ x := by simpa using hp
        simp only [V_advance, V_setV_ne _ hne, hs]
    case ReadRegistersFromMemory x =>
      rw [mem_upTo] at hp
      simp only [Same, after, V_advance]
      rw [V_load _ _ _ (by omega), V_load _ _ _ (by omega), hs]
    all_goals first
      | exact hs
      | (simp only [Same, after, V_advance, V_setV_ne _ hp, hs])
  | cell k =>
    simp only [Same] at hs
    cases op <;> first | exact hs | skip
    case Call a =>
      have h1 := h .sp (by simp [looksAt])
      simp only [Same] at h1
      simp only [sets, List.mem_cons, List.not_mem_nil, or_false, Part.cell.injEq] at hp
      simp only [Same, after, h1]
      rw [List.getElem?_set_ne (fun h => hp h.symm), List.getElem?_set_ne (fun h => hp h.symm), hs]
    case LdK x =>
      simp only [Same, after]
      cases d.interrupt <;> cases c.interrupt <;> exact hs
  | i =>
    simp only [Same] at hs
    cases op <;> first | exact hs | (simp [sets] at hp; done) | skip
    case LdK x =>
      simp only [Same, after]
      cases d.interrupt <;> cases c.interrupt <;> exact hs
  | sp =>
    simp only [Same] at hs
    cases op <;> first | exact hs | (simp [sets] at hp; done) | skip
    case LdK x =>
      simp only [Same, after]
      cases d.interrupt <;> cases c.interrupt <;> exact hs
  | delay =>
    simp only [Same] at hs
    cases op <;> first | exact hs | (simp [sets] at hp; done) | skip
    case LdK x =>
      simp only [Same, after]
      cases d.interrupt <;> cases c.interrupt <;> exact hs
  | sound =>
    simp only [Same] at hs
    cases op <;> first | exact hs | (simp [sets] at hp; done) | skip
    case LdK x =>
      simp only [Same, after]
      cases d.interrupt <;> cases c.interrupt <;> exact hs
  | display =>
    simp only [Same] at hs
    cases op <;> first | exact hs | (simp [sets] at hp; done) | skip
    case LdK x =>
      simp only [Same, after]
      cases d.interrupt <;> cases c.interrupt <;> exact hs
  | key =>
    simp only [Same] at hs
    cases op <;> first | exact hs | (simp [sets] at hp; done) | skip
    case LdK x =>
      simp only [Same, after]
      cases h1 : d.interrupt <;> cases h2 : c.interrupt <;>
        simp only [advance, setV, h1, h2] at hs ⊢ <;> first | exact hs | cases hs

/-- One instruction that runs, on two machines. -/
theorem agree_step {D : Part → Prop} (hr : Runs b c op) (hw : WellFormed c) (hw' : WellFormed d)
    (h : Agree D c d mem mem') (hu : ∀ p ∈ looksAt c op, ¬D p) :
    Agree (fun p => D p ∧ p ∉ sets c op) (after e mem c op) (after e mem' d op)
      ((writes c op).foldl (fun m w => upd m w.1 w.2) mem)
      ((writes c op).foldl (fun m w => upd m w.1 w.2) mem') := by
  have hs : ∀ p ∈ looksAt c op, Same c d mem mem' p := fun p hp => h.same p (hu p hp)
  refine ⟨pc_used h.pc hs, fun p hp => ?_⟩
  by_cases hp' : p ∈ sets c op
  · refine set_used hr (fun _ => h.pc) hw hw' hs hp' ?_
    rintro a rfl
    exact writes_agree _ _ (.inr (mem_writes.2 hp'))
  · have hD : ¬D p := fun hd => hp ⟨hd, hp'⟩
    refine kept_used hs hp' ?_ (h.same p hD)
    rintro a rfl
    exact writes_agree _ _ (.inl (h.same (.mem a) hD))

theorem agree_mono {D D' : Part → Prop} (hD : ∀ p, D p → D' p) (h : Agree D c d mem mem') :
    Agree D' c d mem mem' := ⟨h.pc, fun p hp => h.same p fun hd => hp (hD p hd)⟩

/-- The bus is not among the parts. -/
theorem agree_bus {D : Part → Prop} (h : Agree D c d mem mem') (bus : B) (bus' : B') :
    Agree D { c with address_space := bus } { d with address_space := bus' } mem mem' := by
  refine ⟨h.pc, fun p hp => ?_⟩
  have := h.same p hp
  cases p <;> exact this

variable [Addressable B] [Addressable B']

/-- The other machine is at the same instruction. -/
theorem fetch_used (hv : BusView b c.address_space mem) (hv' : BusView b d.address_space mem')
    (hpc : d.pc = c.pc) (h : ∀ p ∈ ownBytes c, Same c d mem mem' p) : fetch b d = fetch b c := by
  have h1 := h (.mem c.pc) (by simp [ownBytes])
  have h2 := h (.mem (c.pc + 1)) (by simp [ownBytes])
  simp only [Same] at h1 h2
  unfold fetch
  simp only [hpc, hv _, hv' _, Res.ok_bind, h1]
  cases ha : addU16 b c.pc 1 with
  | error p => rfl
  | ok q =>
    have : q = c.pc + 1 := by
      unfold addU16 at ha
      split at ha
      · cases ha
      · exact (Except.ok.inj ha).symm
    subst this
    simp only [Res.ok_bind, h2]

/-- Only `LD Vx, DT` asks when the delay timer is read. -/
theorem stepsTo_readAt {c c' : Chip8 B R} {t : Instant} (hat : At b c op)
    (hop : ∀ x, op ≠ .LdDelayTimerSrcTx x) :
    StepsTo b { e with readAt := t } c c' ↔ StepsTo b e c c' := by
  have hg : generate b { e with readAt := t } c op = generate b e c op := by
    cases op <;> first | rfl | exact absurd rfl (hop _)
  have hat : fetch b c = .ok op := hat
  unfold StepsTo
  rw [run_one, run_one]
  unfold next
  rw [hat]
  simp only [Res.ok_bind, hg]

end Verif.Chip8
