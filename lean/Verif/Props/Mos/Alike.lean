import Verif.Proofs.BusAlike
import Verif.Props.Mos.Run
import Verif.Props.BusNest

/-!
# Property C81: a program cannot tell apart buses that answer alike
-/

namespace Verif.Props

open Verif Verif.Mos Verif.Spec Verif.Spec.Mos

section
variable {B₁ B₂ : Type} [Addressable B₁] [Addressable B₂] {b : Build}

theorem writeAll_alike (ws : List (Word × Byte)) {x : B₁} {y : B₂} (h : Alike b x y) :
    (∃ p, writeAll b x ws = .error p ∧ writeAll b y ws = .error p) ∨
    ∃ x' y', writeAll b x ws = .ok x' ∧ writeAll b y ws = .ok y' ∧ Alike b x' y' := by
  induction ws generalizing x y with
  | nil => exact .inr ⟨x, y, rfl, rfl, h⟩
  | cons w ws ih =>
    obtain ⟨a, v⟩ := w
    simp only [writeAll]
    rcases h.write a v with ⟨p, h1, h2⟩ | ⟨r, x', y', h1, h2, h'⟩
    · exact .inl ⟨p, by rw [h1], by rw [h2]⟩
    · rw [h1, h2]
      cases r with
      | error s => exact .inl ⟨_, rfl, rfl⟩
      | ok u => exact ih h'

/-- One instruction of two CPUs with equal registers on buses that answer alike: the same panic, or
the same operations (with their cycles), equal registers, and buses that answer alike. -/
theorem C81_step {c₁ : Mos6502 B₁} {c₂ : Mos6502 B₂} (hr : regs c₁ = regs c₂)
    (ha : Alike b c₁.address_map c₂.address_map) :
    (∃ p, next b c₁ = .error p ∧ next b c₂ = .error p) ∨
    ∃ ops d₁ d₂, next b c₁ = .ok (ops, d₁) ∧ next b c₂ = .ok (ops, d₂) ∧ regs d₁ = regs d₂ ∧
      Alike b d₁.address_map d₂.address_map := by
  obtain ⟨out, h1, h2⟩ := C37_step hr ha.read
  cases out with
  | error p => exact .inl ⟨p, h1, h2⟩
  | ok oe =>
    obtain ⟨ops, e⟩ := oe
    simp only [Except.bind] at h1 h2
    rcases writeAll_alike e.writes ha with ⟨p, w1, w2⟩ | ⟨x, y, w1, w2, h'⟩
    · rw [w1] at h1; rw [w2] at h2; exact .inl ⟨p, h1, h2⟩
    · rw [w1] at h1; rw [w2] at h2; exact .inr ⟨ops, _, _, h1, h2, rfl, h'⟩

/-- Any number of instructions. -/
theorem C81_instructions {c₁ c₁' : Mos6502 B₁} {l : List Operations}
    (hx : Instructions b c₁ l c₁') : ∀ {c₂ : Mos6502 B₂}, regs c₁ = regs c₂ →
    Alike b c₁.address_map c₂.address_map →
    ∃ c₂', Instructions b c₂ l c₂' ∧ regs c₁' = regs c₂' ∧
      Alike b c₁'.address_map c₂'.address_map := by
  induction hx with
  | nil c => intro c₂ hr ha; exact ⟨c₂, .nil c₂, hr, ha⟩
  | cons hn _ ih =>
    intro c₂ hr ha
    rcases C81_step hr ha with ⟨p, h1, _⟩ | ⟨ops, d₁, d₂, h1, h2, hr', ha'⟩
    · rw [hn] at h1; cases h1
    · rw [hn] at h1
      simp only [Except.ok.injEq, Prod.mk.injEq] at h1
      obtain ⟨rfl, rfl⟩ := h1
      obtain ⟨c₂', q1, q2, q3⟩ := ih hr' ha'
      exact ⟨c₂', .cons h2 q1, q2, q3⟩

/-- `run` for any number of cycles: the same panic, or CPUs with equal registers on buses that answer
alike. -/
theorem C81_run (n : Nat) : ∀ {c₁ : Mos6502 B₁} {c₂ : Mos6502 B₂}, regs c₁ = regs c₂ →
    Alike b c₁.address_map c₂.address_map →
    (∃ p, run b c₁ n = .error p ∧ run b c₂ n = .error p) ∨
    ∃ d₁ d₂, run b c₁ n = .ok (.ready d₁) ∧ run b c₂ n = .ok (.ready d₂) ∧ regs d₁ = regs d₂ ∧
      Alike b d₁.address_map d₂.address_map := by
  simp only [run_eq]
  induction n using Nat.strongRecOn with
  | ind n ih =>
    intro c₁ c₂ hr ha
    by_cases hn : n = 0
    · subst hn
      exact .inr ⟨c₁, c₂, rfl, rfl, hr, ha⟩
    · rw [runLoop_step n (by omega) c₁, runLoop_step n (by omega) c₂]
      rcases C81_step hr ha with ⟨p, h1, h2⟩ | ⟨ops, d₁, d₂, h1, h2, hr', ha'⟩
      · rw [h1, h2]; exact .inl ⟨p, rfl, rfl⟩
      · rw [h1, h2]
        simp only
        by_cases hc : n < ops.cycles
        · rw [if_pos hc, if_pos hc]; exact .inr ⟨c₁, c₂, rfl, rfl, hr, ha⟩
        · rw [if_neg hc, if_neg hc]
          have := (next_inv h1).1
          exact ih _ (by omega) hr' ha'

end

/-! ## Buses that answer alike -/

/-- The iteration order of the hash map. -/
theorem C81_order {D : Type} [Addressable D] (b : Build) {m m' : AddressMap D}
    (hp : m.inner.Perm m'.inner) (hd : DisjointEntries m.inner) : Alike b m m' :=
  C06_order_irrelevant b hp hd

/-- Nesting. -/
theorem C81_nesting {D : Type} [Addressable D] (b : Build) {m : AddressMap (AddressMap D)}
    (hd : DisjointEntries m.inner) : Alike b m (flatten m) := by
  intro ops
  rw [C78_nested ops m hd]
  cases runOps b m ops <;> rfl

/-- How memory is cut into segments, and how it came to hold what it holds: two maps of memory
segments with any histories that lead to the same kind of memory and the same byte at every
address. -/
theorem C81_segments {b : Build} {h h' : List BusEvent} {m m' : AddressMap Memory}
    (hm : MemTrace b h m) (hm' : MemTrace b h' m')
    (ho : (Bus.after h).owner = (Bus.after h').owner) (hv : (Bus.after h).val = (Bus.after h').val) :
    Alike b m m' := by
  refine alike_of (R := fun x y => ∃ s, BusInv x s ∧ BusInv y s) ?_ ?_ ⟨_, hm.inv, ?_⟩
  · rintro x y ⟨s, hx, hy⟩ a
    exact (hx.read b a).trans (hy.read b a).symm
  · rintro x y ⟨s, hx, hy⟩ a v
    obtain ⟨r, x', h1, h2, h3⟩ := hx.write b a v
    obtain ⟨r', y', h1', h2', h3'⟩ := hy.write b a v
    refine .inr ⟨r, x', y', h1, ?_, _, h2, h2'⟩
    rw [h3, ← h3']; exact h1'
  · have : Bus.after h = Bus.after h' := by
      cases h1 : Bus.after h; cases h2 : Bus.after h'; rw [h1, h2] at ho hv
      simp only at ho hv
      rw [ho, hv]
    rw [this]; exact hm'.inv

/-- One `Memory` over all 64K behaves as 64K of independent cells. -/
theorem C81_flat (b : Build) (m : Memory) (hk : m.kind = .readWrite) (hs : m.start = 0)
    (hl : m.inner.length = 65536) : Alike b m (⟨fun a => m.inner.getD a.toNat 0⟩ : FlatRam) := by
  refine alike_of (R := fun (x : Memory) (y : FlatRam) => x.kind = .readWrite ∧ x.start = 0 ∧
    x.inner.length = 65536 ∧ ∀ a, y.mem a = x.inner.getD a.toNat 0) ?_ ?_ ⟨hk, hs, hl, fun _ => rfl⟩
  · rintro x y ⟨-, h2, h3, h4⟩ a
    have ha := a.isLt
    show Memory.read b x a = .ok (y.mem a)
    rw [Memory.read_of_le b x a (by rw [h2]; exact Nat.zero_le _), h4, h2]
    show index x.inner (a.toNat - 0) = _
    rw [Nat.sub_zero, index, List.getD_eq_getElem?_getD, List.getElem?_eq_getElem (by omega)]
    rfl
  · rintro x y ⟨h1, h2, h3, h4⟩ a v
    have ha := a.isLt
    refine .inr ⟨.ok v, { x with inner := x.inner.set a.toNat v },
      ⟨fun z => if z = a then v else y.mem z⟩, ?_, rfl, h1, h2, ?_, ?_⟩
    · show Memory.write b x a v = _
      rw [Memory.write_rw_of_le b x a v h1 (by rw [h2]; exact Nat.zero_le _)
        (by rw [h2]; show a.toNat - 0 < _; omega), h2]
      rfl
    · rw [List.length_set]; exact h3
    · intro z
      have hz := z.isLt
      show (if z = a then v else y.mem z) = (x.inner.set a.toNat v).getD z.toNat 0
      rw [List.getD_eq_getElem?_getD, List.getElem?_set]
      by_cases hza : z = a
      · subst hza
        rw [if_pos rfl, if_pos rfl, if_pos (by omega)]; rfl
      · rw [if_neg hza, if_neg (fun h => hza (BitVec.eq_of_toNat_eq h.symm)), h4,
          List.getD_eq_getElem?_getD]

/-! ## Examples -/

/-- The RAM of `sampleMap` cut in two. -/
def cutMap : AddressMap Memory :=
  ⟨[(⟨0x12, 0x13⟩, ⟨.readWrite, 0x12, 0x13, [0, 0]⟩), (⟨0x10, 0x11⟩, ⟨.readWrite, 0x10, 0x11, [0, 0]⟩)]⟩

/-- The RAM of `sampleMap` in one piece. -/
def wholeMap : AddressMap Memory := ⟨[(⟨0x10, 0x13⟩, ⟨.readWrite, 0x10, 0x13, [0, 0, 0, 0]⟩)]⟩

theorem whole_trace (b : Build) :
    MemTrace b [.register .readWrite ⟨0x10, 0x13⟩ [0, 0, 0, 0]] wholeMap :=
  MemTrace.register (h := []) (m := AddressMap.new)
    (fresh := ⟨.readWrite, 0x10, 0x13, [0, 0, 0, 0]⟩) MemTrace.new rfl rfl
    (by simp [AddressMap.new]) ⟨_, rfl, List.Perm.refl _⟩

theorem cut_trace (b : Build) : MemTrace b [.register .readWrite ⟨0x10, 0x11⟩ [0, 0],
    .register .readWrite ⟨0x12, 0x13⟩ [0, 0]] cutMap := by
  have h1 : MemTrace b [.register .readWrite ⟨0x10, 0x11⟩ [0, 0]]
      ⟨[(⟨0x10, 0x11⟩, ⟨.readWrite, 0x10, 0x11, [0, 0]⟩)]⟩ :=
    MemTrace.register (h := []) (m := AddressMap.new)
      (fresh := ⟨.readWrite, 0x10, 0x11, [0, 0]⟩) MemTrace.new rfl rfl
      (by simp [AddressMap.new]) ⟨_, rfl, List.Perm.refl _⟩
  refine MemTrace.register (h := [.register .readWrite ⟨0x10, 0x11⟩ [0, 0]])
    (fresh := ⟨.readWrite, 0x12, 0x13, [0, 0]⟩) h1 rfl rfl ?_ ⟨_, rfl, List.Perm.refl _⟩
  intro e he
  simp at he
  subst he
  rintro ⟨a, ⟨h1, -⟩, ⟨-, h2⟩⟩
  simp at h1 h2
  omega

/-- The two are alike. -/
theorem cut_alike (b : Build) : Alike b wholeMap cutMap := by
  refine C81_segments (whole_trace b) (cut_trace b) ?_ ?_
  · funext a
    have t0 : (0x10 : Word).toNat = 16 := rfl
    have t1 : (0x11 : Word).toNat = 17 := rfl
    have t2 : (0x12 : Word).toNat = 18 := rfl
    have t3 : (0x13 : Word).toNat = 19 := rfl
    simp only [Bus.after, List.foldl, Bus.step, InRange, Bus.empty, t0, t1, t2, t3]
    repeat' split
    all_goals first | rfl | omega
  · funext a
    simp only [Bus.after, List.foldl, Bus.step, InRange, Bus.empty]
    have hz : ∀ n : Nat, List.getD [(0 : Byte), 0] n 0 = 0 := by
      intro n; match n with
      | 0 => rfl
      | 1 => rfl
      | n + 2 => rfl
    have hz' : ∀ n : Nat, List.getD [(0 : Byte), 0, 0, 0] n 0 = 0 := by
      intro n; match n with
      | 0 => rfl
      | 1 => rfl
      | 2 => rfl
      | 3 => rfl
      | n + 4 => rfl
    simp only [hz, hz', ite_self]

/-- Any run of two 6502s on them, and of one on `boards` and one on the flattened `boards`. -/
example (b : Build) (r : Regs) (n : Nat) :
    ((run b (withRegs r wholeMap) n).map fun s => regs s.unwrap) =
      (run b (withRegs r cutMap) n).map fun s => regs s.unwrap := by
  rcases C81_run (b := b) n (c₁ := withRegs r wholeMap) (c₂ := withRegs r cutMap) rfl (cut_alike b) with
    ⟨p, h1, h2⟩ | ⟨d₁, d₂, h1, h2, h3, -⟩
  · rw [h1, h2]
  · rw [h1, h2]; exact congrArg Except.ok h3

/-- Buses that are not alike, and a program that tells them apart in one instruction. -/
example : ∃ c₁ c₂ : Mos6502 FlatRam, regs c₁ = regs c₂ ∧
    ¬ Alike .debug c₁.address_map c₂.address_map ∧
    ((run .debug c₁ 3).map fun s => s.unwrap.acc) ≠ (run .debug c₂ 3).map fun s => s.unwrap.acc := by
  refine ⟨machine { sampleRegs with pc := 0x0200 } 0xa5 0x10 0 (fun _ => 1),
    machine { sampleRegs with pc := 0x0200 } 0xa5 0x10 0 (fun _ => 2), rfl, ?_, ?_⟩
  · intro h
    have h : (Except.ok 1 : Res Byte) = .ok 2 := h.read 0x10
    exact absurd (Except.ok.inj h) (by decide)
  · intro h
    have h : (Except.ok 1 : Res Byte) = .ok 2 := h
    exact absurd (Except.ok.inj h) (by decide)

end Verif.Props
