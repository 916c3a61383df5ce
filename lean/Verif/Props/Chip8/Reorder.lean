import Verif.Proofs.Chip8Reorder
import Verif.Props.Listing

/-!
# C119 for the CHIP-8: independent instructions can be executed in either order

As for the 6502 (`Verif.Props.Mos.Reorder`). What an instruction takes from the world (the random number, the
time) goes with the instruction.
-/

namespace Verif.Props.Chip8

open Verif Verif.Chip8 Verif.Spec.Chip8
open Verif.Mos (FlatRam flatRam_coherent writeAll_coherent writeAll_accepted)
open Verif.Spec.Mos (Mem BusView writeAll Coherent upd AcceptsAt)

section
variable {B B' R R' : Type} [Addressable B] [Addressable B'] {b : Build} {I : B → Mem → Prop}
  {I' : B' → Mem → Prop} {W : Word → Prop} {D : Part → Prop} {c c1 c2 : Chip8 B R} {d : Chip8 B' R'}
  {mem mem' : Mem} {op op' : Opcode} {e e' : Env}

/-- C119: one machine executes `op` and then `op'`; in the memory of another one `op'` is written before `op`.
`D` is where the machines may differ at first, the bytes of the two instructions among it. -/
theorem C119_chip8_either_order (hI : Coherent b I) (hI' : Coherent b I') (hacc : AcceptsAt b I' W)
    (hm : I c.address_space mem) (hm' : I' d.address_space mem') (hw : WellFormed c) (hw' : WellFormed d)
    (h : Agree D c d mem mem') (hf : transfersControl op = false) (hf' : transfersControl op' = false)
    (hx : Does b c [(e, op), (e', op')] c2) (hl : Listed mem' c.pc [op', op])
    (hb : b.overflowChecks = false ∨ c.pc.toNat + 2 < 65535)
    (hD : ∀ p ∈ looksAt c op, ¬D p) (hD' : ∀ p ∈ looksAt c op', ¬D p)
    (h1 : ∀ p ∈ looksAt c op', p ∉ sets c op) (h2 : ∀ p ∈ looksAt c op, p ∉ sets c op')
    (hsp : Part.mem (c.pc + 2) ∉ sets c op' ∧ Part.mem (c.pc + 3) ∉ sets c op')
    (hW : ∀ a, .mem a ∈ sets c op ∨ .mem a ∈ sets c op' → W a) :
    ∃ d2 m m', Does b d [(e', op'), (e, op)] d2 ∧ I c2.address_space m ∧ I' d2.address_space m' ∧
      Agree (fun p => (D p ∧ p ∉ sets c op ∧ p ∉ sets c op') ∨ (p ∈ sets c op ∧ p ∈ sets c op')) c2 d2 m m' := by
  cases hx with
  | @cons _ c1 _ _ _ _ hat hs hx =>
  cases hx with
  | @cons _ c2' _ _ _ _ hat' hs' hx =>
  cases hx
  have hv := (hI _ _ hm).1
  have hv' := (hI' _ _ hm').1
  obtain ⟨hr, bus, hbus, rfl⟩ := step_inv hat hv hw hs
  have hm1 := writeAll_coherent hI _ hm hbus
  have hw1 : WellFormed { after e mem c op with address_space := bus } := wellFormed_step hat hv hw hs
  obtain ⟨hr1, bus1, hbus1, rfl⟩ := step_inv hat' (hI _ _ hm1).1 hw1 hs'
  have hm2 := writeAll_coherent hI _ hm1 hbus1
  rw [runs_bus] at hr1
  obtain ⟨k1, k2, k3, k4, k5⟩ := reorder (e' := e') hf hf' hr hr1 hw hw' h.same hD hD' h1 h2
  -- the first instruction of the other machine
  have w0 : wordAt mem' c.pc = encode op' := by simpa using hl 0 op' rfl
  have w1 : wordAt mem' (c.pc + 2) = encode op := hl 1 op rfl
  have hva := (at_word hv hat).1
  have hva' := (at_word (hI _ _ hm1).1 hat').1
  have hatd : At b d op' := (fetch_iff hv' (hb.imp id fun h' => by rw [h.pc]; omega) op').2
    ⟨hva', by rw [h.pc]; exact w0⟩
  obtain ⟨busd, hbusd⟩ := writeAll_accepted hI' hacc (writes d op') hm' fun w hw =>
    hW _ (.inr (mem_writes.1 (k3 ▸ List.mem_map_of_mem hw)))
  have hst := step_ok (e := e') hatd k1 (fun _ => hv') (fun _ => hw')
  unfold StepWrites at hst
  rw [hbusd] at hst
  have hst : StepsTo b e' d { after e' mem' d op' with address_space := busd } := hst
  have hmd := writeAll_coherent hI' _ hm' hbusd
  have hwd := wellFormed_step hatd hv' hw' hst
  -- the second one
  have hpcd : (after e' mem' d op').pc = c.pc + 2 := by
    rw [after_pc k1 hf', h.pc]
    rfl
  have hkeep : ∀ a, Part.mem a ∉ sets c op' → memAfter mem' d op' a = mem' a := fun a ha =>
    foldl_upd _ _ fun hn => ha (mem_writes.1 (k3 ▸ hn))
  have hatd1 : At b { after e' mem' d op' with address_space := busd } op := by
    refine (fetch_iff (mem := memAfter mem' d op') (hI' _ _ hmd).1 (hb.imp id fun h' => ?_) op).2 ⟨hva, ?_⟩
    · show (after e' mem' d op').pc.toNat < _
      rw [hpcd, BitVec.toNat_add]
      show (c.pc.toNat + 2) % 65536 < _
      omega
    · show wordAt _ (after e' mem' d op').pc = _
      rw [hpcd, ← w1]
      unfold wordAt
      have e3 : c.pc + 2 + 1 = c.pc + 3 := by rw [BitVec.add_assoc]; rfl
      rw [hkeep _ hsp.1, e3, hkeep _ hsp.2]
  obtain ⟨bus2, hbus2⟩ := writeAll_accepted hI' hacc
    (writes { after e' mem' d op' with address_space := busd } op) hmd fun w hw => by
      rw [writes_bus, k4] at hw
      exact hW _ (.inl (mem_writes.1 (List.mem_map_of_mem hw)))
  have hst2 := step_ok (e := e) hatd1 ((runs_bus busd).2 k2) (fun _ => (hI' _ _ hmd).1) (fun _ => hwd)
  unfold StepWrites at hst2
  rw [hbus2] at hst2
  have hmd2 := writeAll_coherent hI' _ hmd hbus2
  have a1 := after_bus (e := e) (mem := memAfter mem' d op') (c := after e' mem' d op') (op := op) busd
  have a2 := after_bus (e := e') (mem := memAfter mem c op) (c := after e mem c op) (op := op') bus
  have b1 := writes_bus (c := after e' mem' d op') (op := op) busd
  have b2 := writes_bus (c := after e mem c op) (op := op') bus
  refine ⟨_, _, _, .cons hatd hst (.cons hatd1 hst2 (.nil _)), hm2, hmd2, ?_, fun p hp => ?_⟩
  · rw [a1, a2]
    show (after e _ (after e' mem' d op') op).pc = (after e' _ (after e mem c op) op').pc
    rw [after_pc k2 hf, after_pc hr1 hf', hpcd, after_pc hr hf]
    rfl
  · rw [not_or] at hp
    rw [a1, a2, b1, b2]
    exact same_bus (k5 p hp.1 hp.2) _ _

end

/-! ### Concrete cases -/

/-- A machine with four bytes at 0x200. -/
def withFour (b0 b1 b2 b3 : Byte) : Chip8 FlatRam Unit :=
  { sample with address_space := ⟨fun a => if a = 0x200 then b0 else if a = 0x201 then b1 else
      if a = 0x202 then b2 else if a = 0x203 then b3 else 0⟩ }

/-- The four bytes. -/
def theFour : Part → Prop := fun p => p = .mem 0x200 ∨ p = .mem 0x201 ∨ p = .mem 0x202 ∨ p = .mem 0x203

/-- The hypotheses of `C119_chip8_either_order`: `RND V1, 0x0f; LD DT, V2` and `LD DT, V2; RND V1, 0x0f`, with
any random number and at any times, give the same in all but their own bytes. -/
example (e e' : Env) (c2 : Chip8 FlatRam Unit)
    (hx : Does .debug (withFour 0xc1 0x0f 0xf2 0x15) [(e, .Rnd .V1 0x0f), (e', .LdDelayTimerDestTx .V2)] c2) :
    ∃ d2, Does .debug (withFour 0xf2 0x15 0xc1 0x0f) [(e', .LdDelayTimerDestTx .V2), (e, .Rnd .V1 0x0f)] d2 ∧
      Agree theFour c2 d2 c2.address_space.mem d2.address_space.mem := by
  obtain ⟨d2, m, m', h1, h2, h3, h4⟩ := C119_chip8_either_order (W := fun _ => True) (D := theFour)
    (c := withFour 0xc1 0x0f 0xf2 0x15) (d := withFour 0xf2 0x15 0xc1 0x0f) (op := .Rnd .V1 0x0f)
    (op' := .LdDelayTimerDestTx .V2)
    (flatRam_coherent _) (flatRam_coherent _) (fun bus m _ a _ v => ⟨v, _, rfl⟩) rfl rfl ⟨rfl, rfl⟩ ⟨rfl, rfl⟩
    ⟨rfl, fun p hp => by
      cases p with
      | mem a =>
        simp only [theFour, Part.mem.injEq, not_or] at hp
        simp only [Same, withFour, if_neg hp.1, if_neg hp.2.1, if_neg hp.2.2.1, if_neg hp.2.2.2]
      | _ => rfl⟩ rfl rfl hx
    (by
      intro k op hk
      match k, hk with
      | 0, hk | 1, hk => cases hk; decide +kernel
      | k + 2, hk => cases hk)
    (.inr (by decide +kernel)) (fun p hp => by cases hp) (fun p hp => by
      obtain rfl := List.mem_singleton.1 hp
      simp [theFour])
    (by decide) (by decide) (by decide) (fun _ _ => trivial)
  have h2 : _ = m := h2
  have h3 : _ = m' := h3
  subst h2 h3
  refine ⟨d2, h1, agree_mono (fun p hp => ?_) h4⟩
  rcases hp with hp | ⟨hp, hq⟩
  · exact hp.1
  · obtain rfl := List.mem_singleton.1 hp
    exact absurd hq (by decide)

/-- The execution of the example exists. -/
example : ∃ c2, Does .debug (withFour 0xc1 0x0f 0xf2 0x15)
    [(⟨7, 0, 0, 0⟩, .Rnd .V1 0x0f), (⟨0, 0, 9, 9⟩, .LdDelayTimerDestTx .V2)] c2 := by
  have h0 : At .debug (withFour 0xc1 0x0f 0xf2 0x15) (.Rnd .V1 0x0f) :=
    (C40_fetch (view _ _) (by decide +kernel) _).2 ⟨trivial, by decide +kernel⟩
  have h1 : At .debug (after1 .debug ⟨7, 0, 0, 0⟩ (withFour 0xc1 0x0f 0xf2 0x15)) (.LdDelayTimerDestTx .V2) :=
    (C40_fetch (view _ _) (by decide +kernel) _).2 ⟨trivial, by decide +kernel⟩
  exact ⟨_, .cons h0 (steps_after1 (by decide +kernel)) (.cons h1 (steps_after1 (by decide +kernel)) (.nil _))⟩

/-- C119: the order matters where one instruction looks at what the other one sets: `LD V1, 5; LD V2, V1` puts
5 into V2, `LD V2, V1; LD V1, 5` does not. -/
theorem C119_chip8_dependent : ∃ c2 d2,
    Does .debug (withFour 0x61 5 0x82 0x10) [(⟨0, 0, 0, 0⟩, .LdImmediate .V1 5), (⟨0, 0, 0, 0⟩, .LdVxVy .V2 .V1)] c2 ∧
    Does .debug (withFour 0x82 0x10 0x61 5) [(⟨0, 0, 0, 0⟩, .LdVxVy .V2 .V1), (⟨0, 0, 0, 0⟩, .LdImmediate .V1 5)] d2 ∧
    V c2 .V2 = 5 ∧ V d2 .V2 ≠ 5 := by
  have h0 : At .debug (withFour 0x61 5 0x82 0x10) (.LdImmediate .V1 5) :=
    (C40_fetch (view _ _) (by decide +kernel) _).2 ⟨trivial, by decide +kernel⟩
  have h1 : At .debug (after1 .debug ⟨0, 0, 0, 0⟩ (withFour 0x61 5 0x82 0x10)) (.LdVxVy .V2 .V1) :=
    (C40_fetch (view _ _) (by decide +kernel) _).2 ⟨trivial, by decide +kernel⟩
  have h2 : At .debug (withFour 0x82 0x10 0x61 5) (.LdVxVy .V2 .V1) :=
    (C40_fetch (view _ _) (by decide +kernel) _).2 ⟨trivial, by decide +kernel⟩
  have h3 : At .debug (after1 .debug ⟨0, 0, 0, 0⟩ (withFour 0x82 0x10 0x61 5)) (.LdImmediate .V1 5) :=
    (C40_fetch (view _ _) (by decide +kernel) _).2 ⟨trivial, by decide +kernel⟩
  exact ⟨_, _, .cons h0 (steps_after1 (by decide +kernel)) (.cons h1 (steps_after1 (by decide +kernel)) (.nil _)),
    .cons h2 (steps_after1 (by decide +kernel)) (.cons h3 (steps_after1 (by decide +kernel)) (.nil _)),
    by decide +kernel, by decide +kernel⟩

end Verif.Props.Chip8
