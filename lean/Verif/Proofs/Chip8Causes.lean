import Verif.Props.Chip8.Panic

/-!
# Which panics a CHIP-8 instruction can cause
-/

namespace Verif.Props.Chip8

open Verif Verif.Chip8 Verif.Spec.Chip8
open Verif.Spec.Mos (Mem BusView writeAll)

variable {B R : Type} [Addressable B] {b : Build} {e : Env} {cpu : Chip8 B R} {mem : Mem} {op : Opcode}

/-- The computation panics with a value in `P`, if it panics. -/
def Only {α : Type} (P : Panic → Prop) (r : Res α) : Prop := ∀ p, r = .error p → P p

section
variable {α β : Type} {P Q : Panic → Prop}

theorem only_ok (a : α) : Only P (.ok a : Res α) := fun _ h => by cases h

theorem only_bind {r : Res α} {f : α → Res β} (h : Only P r) (h' : ∀ a, r = .ok a → Only P (f a)) :
    Only P (r >>= f) := by
  intro p hp
  cases hr : r with
  | error q => rw [hr] at hp; cases hp; exact h _ hr
  | ok a => rw [hr] at hp; exact h' a hr p hp

theorem only_mono (hPQ : ∀ p, P p → Q p) {r : Res α} (h : Only P r) : Only Q r :=
  fun p hp => hPQ p (h p hp)

theorem only_mapM {f : α → Res β} (l : List α) (h : ∀ a ∈ l, Only P (f a)) : Only P (l.mapM f) := by
  induction l with
  | nil => exact only_ok _
  | cons a l ih =>
    rw [List.mapM_cons]
    refine only_bind (h a (by simp)) fun x _ => only_bind (ih fun a ha => h a (by simp [ha])) fun y _ => only_ok _

theorem only_foldlM {γ : Type} {f : γ → α → Res γ} (h : ∀ s a, Only P (f s a)) (l : List α) :
    ∀ s, Only P (l.foldlM f s) := by
  induction l with
  | nil => exact fun s => only_ok _
  | cons a l ih =>
    intro s
    rw [List.foldlM_cons]
    exact only_bind (h s a) fun x _ => ih x
end

/-- An index that is out of bounds, in one of the two ways in which Rust says so. -/
def Missing (p : Panic) : Prop := p = .bounds ∨ p = .unwrapNone

omit [Addressable B] in
theorem only_read (r : GpRegisters) : Only Missing (readGpRegister cpu r) := by
  intro p h
  unfold readGpRegister at h
  split at h <;> cases h
  exact .inr rfl

theorem only_set (gp : Vector Byte 15) (r : GpRegisters) (v : Byte) : Only Missing (setGp gp r v) := by
  intro p h
  unfold setGp at h
  split at h <;> cases h
  exact .inl rfl

/-- The microcode touches registers and pixels only. -/
def Plain : Microcode → Prop
  | .Write8bitRegister _ _ | .Inc8bitRegister (.GpRegisters _) _ | .Write16bitRegister _ _
  | .Inc16bitRegister _ _ | .Dec16bitRegister _ _ | .SetDisplayPixel _ _ => True
  | _ => False

theorem only_exec {mc : Microcode} (hm : Plain mc) (t : Instant) (c : Chip8 B R) :
    Only Missing (executeMut b t c mc) := by
  cases mc <;> simp only [Plain] at hm
  case Write8bitRegister r v =>
    cases r with
    | GpRegisters r => exact only_bind (only_set _ _ _) fun _ _ => only_ok _
    | TimerRegisters r => cases r <;> exact only_ok _
  case Inc8bitRegister r v =>
    cases r with
    | GpRegisters r =>
      exact only_bind (only_read _) fun _ _ => only_bind (only_set _ _ _) fun _ _ => only_ok _
    | TimerRegisters r => simp only at hm
  case Write16bitRegister r v => cases r <;> exact only_ok _
  case Inc16bitRegister r v => cases r <;> exact only_ok _
  case Dec16bitRegister r v => exact only_ok _
  case SetDisplayPixel p v => exact only_ok _

theorem only_execAll (t : Instant) (mcs : List Microcode) (hm : ∀ mc ∈ mcs, Plain mc) :
    ∀ c : Chip8 B R, Only Missing (executeAll b t c mcs) := by
  induction mcs with
  | nil => exact fun c => only_ok _
  | cons mc mcs ih =>
    exact fun c => only_bind (only_exec (hm mc (by simp)) t c) fun c' _ =>
      ih (fun mc h => hm mc (by simp [h])) c'

/-- The computation panics with `P` only, and otherwise gives plain microcode. -/
def Good (P : Panic → Prop) (r : Res (List Microcode)) : Prop :=
  Only P r ∧ ∀ mcs, r = .ok mcs → ∀ mc ∈ mcs, Plain mc

theorem good_ok {P : Panic → Prop} {mcs : List Microcode} (h : ∀ mc ∈ mcs, Plain mc) : Good P (.ok mcs) :=
  ⟨only_ok _, fun _ h' => by cases h'; exact h⟩

theorem good_bind {α : Type} {P : Panic → Prop} {r : Res α} {f : α → Res (List Microcode)} (h : Only P r)
    (h' : ∀ a, r = .ok a → Good P (f a)) : Good P (r >>= f) := by
  refine ⟨only_bind h fun a ha => (h' a ha).1, fun mcs hm => ?_⟩
  cases hr : r with
  | error q => rw [hr] at hm; cases hm
  | ok a => rw [hr] at hm; exact (h' a hr).2 mcs hm

/-- A step panics with `P` if the microcode is plain. -/
theorem only_next {P : Panic → Prop} (hat : At b cpu op) (hP : ∀ p, Missing p → P p)
    (hg : Good P (generate b e cpu op)) : Only P (next b e cpu) := by
  unfold next
  rw [show fetch b cpu = _ from hat, Res.ok_bind]
  refine only_bind hg.1 fun mcs h => only_bind (only_mono hP (only_execAll _ _ ?_ _)) fun _ _ => only_ok _
  intro mc hmc
  rcases List.mem_append.1 hmc with h' | h'
  · exact hg.2 mcs h mc h'
  · simp only [List.mem_singleton] at h'
    subst h'
    trivial

/-- Building the microcode of the simple instructions. -/
theorem good_simple (hu : UsesVf cpu op) (h1 : ∀ x, op ≠ .LdBcd x) (h2 : ∀ x, op ≠ .StoreRegistersToMemory x)
    (h3 : ∀ x, op ≠ .ReadRegistersFromMemory x) (h4 : ∀ x, op ≠ .LdSpriteLocation x)
    (h5 : ∀ x y n, op ≠ .Drw x y n) : Good Missing (generate b e cpu op) := by
  cases op <;> simp only [UsesVf] at hu <;>
    first
    | exact absurd rfl (h1 _) | exact absurd rfl (h2 _) | exact absurd rfl (h3 _)
    | exact absurd rfl (h4 _) | exact absurd rfl (h5 _ _ _) | skip
  case LdDelayTimerSrcTx x =>
    simp only [generate, genLdFromDelayTimer, timer_read, Res.ok_bind]
    exact good_ok (by simp [writeGp, Plain])
  case LdK x =>
    refine good_ok ?_
    unfold genLdK
    split <;> simp [writeGp, Plain]
  case Skp x =>
    refine good_bind (only_read _) fun _ _ => ?_
    split
    · split <;> exact good_ok (by simp [incPc2, Plain])
    · exact good_ok (by simp)
  case Sknp x =>
    refine good_bind (only_read _) fun _ _ => ?_
    split
    · split <;> exact good_ok (by simp [incPc2, Plain])
    · exact good_ok (by simp [incPc2, Plain])
  all_goals first
    | exact good_ok (by simp [genLdImmediate, genAddImmediate, genRnd, writeGp, Plain])
    | (refine good_bind (only_read _) fun _ _ => ?_
       first
       | exact good_ok (by simp [writeGp, Plain])
       | (split <;> exact good_ok (by simp [incPc2, Plain]))
       | (refine good_bind (only_read _) fun _ _ => ?_
          first
          | exact good_ok (by simp [writeGp, Plain])
          | (split <;> exact good_ok (by simp [incPc2, Plain]))))

/-- A panic of an instruction that does not keep to the rules. -/
def RuleBroken (b : Build) (cpu : Chip8 B R) (op : Opcode) (p : Panic) : Prop :=
  (Missing p ∧ UsesVf cpu op) ∨ (p = .overflow ∧ b.overflowChecks = true ∧
    (Overflows cpu op ∨ ∃ x y n, op = .Drw x y n ∧ 65536 ≤ cpu.i.toNat + n.toNat))

theorem only_addU16 (x y : Word) : Only (fun p => p = .overflow ∧ b.overflowChecks = true ∧
    65536 ≤ x.toNat + y.toNat) (addU16 b x y) := by
  intro p h
  unfold addU16 at h
  split at h <;> cases h
  rename_i h
  exact ⟨rfl, h⟩

/-- A step whose microcode cannot be built. -/
theorem next_generate {P : Panic → Prop} (hat : At b cpu op) (hg : Only P (generate b e cpu op))
    (hn : ∃ p, generate b e cpu op = .error p) : Only P (next b e cpu) := by
  obtain ⟨q, hq⟩ := hn
  intro p hp
  unfold next at hp
  rw [show fetch b cpu = _ from hat, Res.ok_bind, hq] at hp
  cases hp
  exact hg _ hq

theorem only_sprite (n : Byte) (hv : BusView b cpu.address_space mem) :
    Only (fun p => p = .overflow ∧ b.overflowChecks = true ∧ 65536 ≤ cpu.i.toNat + n.toNat)
      (drwSprite b cpu n) := by
  unfold drwSprite
  refine only_bind ?_ fun _ _ => only_mapM _ fun a _ => ?_
  · have h := only_addU16 (b := b) cpu.i (u16OfU8 n)
    rw [show (u16OfU8 n).toNat = n.toNat from BitVec.toNat_setWidth_of_le (by decide)] at h
    exact h
  · rw [hv]; exact only_ok _

theorem index_only {α : Type} (l : List α) (k : Nat) : Only Missing (index l k) := by
  intro p h
  unfold index at h
  split at h <;> cases h
  exact .inl rfl

theorem not_runs_only (hat : At b cpu op) (hv : BusView b cpu.address_space mem) (hr : ¬ Runs b cpu op) :
    Only (RuleBroken b cpu op) (next b e cpu) := by
  replace hr : UsesVf cpu op ∨ (b.overflowChecks = true ∧ Overflows cpu op) := by
    by_cases h : UsesVf cpu op
    · exact .inl h
    · exact .inr (Classical.not_not.1 fun h' => hr ⟨h, h'⟩)
  by_cases h1 : ∃ x, op = .LdBcd x
  · obtain ⟨x, rfl⟩ := h1
    rcases read_gp_cases (cpu := cpu) x with ⟨h2, h2'⟩ | ⟨h2, h2'⟩
    · refine next_generate hat ?_ ⟨.unwrapNone, ?_⟩
      · refine only_bind (only_mono (fun p h => .inl ⟨h, h2'⟩) (only_read _)) fun a ha => ?_
        rw [h2] at ha; cases ha
      · simp only [generate, genLdBcd, h2, Res.error_bind]
    · have hr : b.overflowChecks = true ∧ 65536 ≤ cpu.i.toNat + 2 := hr.resolve_left h2'
      have hP : ∀ y : Word, Only (RuleBroken b cpu (.LdBcd x)) (addU16 b cpu.i y) := fun y =>
        only_mono (fun p h => .inr ⟨h.1, hr.1, .inl hr.2⟩) (only_addU16 _ y)
      refine next_generate hat ?_ ⟨.overflow, ?_⟩
      · simp only [generate, genLdBcd, h2, Res.ok_bind]
        exact only_bind (hP _) fun _ _ => only_bind (hP _) fun _ _ => only_ok _
      · have h : addU16 b cpu.i 2 = .error .overflow := if_pos hr
        simp only [generate, genLdBcd, h2, Res.ok_bind, h, Res.error_bind]
        by_cases h1 : 65536 ≤ cpu.i.toNat + 1
        · have : addU16 b cpu.i 1 = .error .overflow := if_pos ⟨hr.1, h1⟩
          rw [this]; rfl
        · rw [addU16_ok (.inr (by show cpu.i.toNat + 1 < 65536; omega))]; rfl
  by_cases h2 : ∃ x, op = .StoreRegistersToMemory x
  · obtain ⟨x, rfl⟩ := h2
    have key : Only (RuleBroken b cpu (.StoreRegistersToMemory x)) (generate b e cpu (.StoreRegistersToMemory x)) := by
      simp only [generate, genStoreRegisters]
      rw [regRange_eq, mapM_map]
      refine only_mapM _ fun k hk => ?_
      have hk : k < num x + 1 := List.mem_range.1 hk
      have := num_lt x
      rw [Res.ok_bind]
      refine only_bind ?_ fun _ _ => only_bind ?_ fun _ _ => only_ok _
      · intro p hp
        rcases read_gp_cases (cpu := cpu) (regOf k) with ⟨h2, h2'⟩ | ⟨h2, h2'⟩
        · refine .inl ⟨only_read _ p hp, ?_⟩
          have : num (regOf k) = 15 := by rw [h2']; rfl
          rw [num_regOf (by omega)] at this
          show x = .Vf
          rw [← regOf_num x, show num x = 15 by omega]; rfl
        · rw [h2] at hp; cases hp
      · rw [asUsize_eq_num, num_regOf (by omega)]
        refine only_mono (fun p h => .inr ⟨h.1, h.2.1, .inl ?_⟩) (only_addU16 _ _)
        have h3 := h.2.2
        rw [BitVec.toNat_ofNat, Nat.mod_eq_of_lt (by omega)] at h3
        show 65536 ≤ cpu.i.toNat + num x
        omega
    refine next_generate hat key ?_
    simp only [generate, genStoreRegisters]
    rw [regRange_eq, mapM_map]
    refine mapM_error _ _ ⟨num x, List.mem_range.2 (Nat.lt_succ_self _), ?_⟩
    rw [Res.ok_bind, regOf_num]
    rcases read_gp_cases (cpu := cpu) x with ⟨h3, -⟩ | ⟨h3, h3'⟩
    · rw [h3]; exact ⟨_, rfl⟩
    · rw [h3, Res.ok_bind, asUsize_eq_num, addU16_panic (addr_panics (hr.resolve_left h3'))]
      exact ⟨_, rfl⟩
  by_cases h3 : ∃ x, op = .ReadRegistersFromMemory x
  · obtain ⟨x, rfl⟩ := h3
    by_cases ho : b.overflowChecks = true ∧ 65536 ≤ cpu.i.toNat + num x
    · have key : Only (RuleBroken b cpu (.ReadRegistersFromMemory x))
          (generate b e cpu (.ReadRegistersFromMemory x)) := by
        simp only [generate, genReadRegisters]
        rw [regRange_eq, mapM_map]
        refine only_mapM _ fun k hk => ?_
        rw [Res.ok_bind]
        refine only_bind (only_mono (fun p h => .inr ⟨h.1, ho.1, .inl ho.2⟩) (only_addU16 _ _)) fun a _ => ?_
        rw [hv]
        exact only_ok _
      refine next_generate hat key ?_
      simp only [generate, genReadRegisters]
      rw [regRange_eq, mapM_map]
      refine mapM_error _ _ ⟨num x, List.mem_range.2 (Nat.lt_succ_self _), .overflow, ?_⟩
      rw [Res.ok_bind, asUsize_eq_num, regOf_num, addU16_panic (addr_panics ho)]
      rfl
    · have hu : x = .Vf := hr.resolve_right ho
      refine only_next hat (fun p h => .inl ⟨h, hu⟩) ?_
      rw [readRegs_gen hv fun hc => Nat.lt_of_not_le fun h => ho ⟨hc, h⟩]
      refine good_ok fun mc hm => ?_
      obtain ⟨k, -, rfl⟩ := List.mem_map.1 hm
      trivial
  by_cases h4 : ∃ x, op = .LdSpriteLocation x
  · obtain ⟨x, rfl⟩ := h4
    rcases read_gp_cases (cpu := cpu) x with ⟨h2, h2'⟩ | ⟨h2, h2'⟩
    · refine only_next hat (fun p h => .inl ⟨h, h2'⟩) ?_
      refine good_bind (only_mono (fun p h => .inl ⟨h, h2'⟩) (only_read _)) fun a ha => ?_
      rw [h2] at ha; cases ha
    · have hr : b.overflowChecks = true ∧ 256 ≤ (V cpu x).toNat * 5 := hr.resolve_left h2'
      have hm : mulU8 b (V cpu x) 5 = .error .overflow := if_pos hr
      refine next_generate hat ?_ ⟨.overflow, by
        simp only [generate, genLdSpriteLocation, h2, Res.ok_bind, hm, Res.error_bind]⟩
      simp only [generate, genLdSpriteLocation, h2, Res.ok_bind, hm, Res.error_bind]
      intro p hp
      cases hp
      exact .inr ⟨rfl, hr.1, .inl hr.2⟩
  by_cases h5 : ∃ x y n, op = .Drw x y n
  · obtain ⟨x, y, n, rfl⟩ := h5
    have hM : ∀ p, Missing p → RuleBroken b cpu (.Drw x y n) p := fun p h => .inl ⟨h, trivial⟩
    refine only_next hat hM ?_
    show Good _ (genDrw b cpu x y n)
    unfold genDrw
    refine good_bind (only_mono (fun p h => .inr ⟨h.1, h.2.1, .inr ⟨x, y, n, rfl, h.2.2⟩⟩) (only_sprite n hv))
      fun sprite _ => ?_
    refine good_bind (only_mono hM (only_read _)) fun vx _ => ?_
    refine good_bind (only_mono hM (only_read _)) fun vy _ => ?_
    refine good_bind (only_mono hM (only_foldlM (fun s a => ?_) _ _)) fun s hs => ?_
    · exact only_bind (index_only _ _) fun _ _ => only_ok _
    · refine good_ok fun mc hm => ?_
      rcases List.mem_append.1 hm with h | h
      · obtain ⟨q, v, rfl⟩ := drw_pixels _ _ _ _ _ _ _ hs (by simp) mc h
        trivial
      · simp only [List.mem_singleton] at h
        subst h
        trivial
  have hu : UsesVf cpu op := by
    refine hr.resolve_right fun h => ?_
    cases op <;> first | exact h.2 | exact h1 ⟨_, rfl⟩ | exact h2 ⟨_, rfl⟩ | exact h3 ⟨_, rfl⟩ | exact h4 ⟨_, rfl⟩
  refine only_mono (fun p h => .inl ⟨h, hu⟩) (only_next hat (fun _ h => h) (good_simple hu ?_ ?_ ?_ ?_ ?_))
  · exact fun x h => h1 ⟨x, h⟩
  · exact fun x h => h2 ⟨x, h⟩
  · exact fun x h => h3 ⟨x, h⟩
  · exact fun x h => h4 ⟨x, h⟩
  · exact fun x y n h => h5 ⟨x, y, n, h⟩

end Verif.Props.Chip8
