import Verif.Props.Chip8.Inverse

/-!
# C122 for the CHIP-8: an instruction whose results are not looked at can be replaced

The CHIP-8 has no NOP; `SYS`, which this interpreter steps over, serves.
-/

namespace Verif.Props.Chip8

open Verif Verif.Chip8 Verif.Spec.Chip8
open Verif.Mos (FlatRam flatRam_coherent writeAll_coherent writeAll_accepted)
open Verif.Spec.Mos (Mem BusView writeAll Coherent upd AcceptsAt)

section
variable {B B' R R' : Type} [Addressable B] [Addressable B'] {b : Build} {I : B → Mem → Prop}
  {I' : B' → Mem → Prop} {W : Word → Prop} {D D' : Part → Prop} {c c1 c' : Chip8 B R} {d : Chip8 B' R'}
  {mem mem' : Mem} {op : Opcode} {e : Env} {l : List (Env × Opcode)}

/-- C122: one machine executes `op`, which does not transfer control, and then `l`; in the memory of another
one there is a `SYS` instead of `op`. If no instruction of `l` looks at what `op` sets, nor at `D`, where the
machines differ at first, then the other machine executes `l` as well and the machines agree in the end
outside `D'`, which is what of it has not been set anew. -/
theorem C122_chip8_sys {a : U12} (e' : Env) (hI : Coherent b I) (hI' : Coherent b I') (hacc : AcceptsAt b I' W)
    (hm : I c.address_space mem) (hm' : I' d.address_space mem') (hw : WellFormed c) (hw' : WellFormed d)
    (h : Agree D c d mem mem') (hf : transfersControl op = false) (hat : At b c op) (hs : StepsTo b e c c1)
    (hb : b.overflowChecks = false ∨ c.pc.toNat < 65535)
    (hsys : Listed mem' c.pc [.Sys a]) (ha : Valid (.Sys a)) (hx : Unseen b (fun p => D p ∨ p ∈ sets c op) c1 l c' D')
    (hW : ∀ k c2 o, Does b c1 (l.take k) c2 → At b c2 o → ∀ q, .mem q ∈ sets c2 o → W q) :
    ∃ d' m m', Does b d ((e', .Sys a) :: l) d' ∧ I c'.address_space m ∧ I' d'.address_space m' ∧
      Agree D' c' d' m m' := by
  have hv := (hI _ _ hm).1
  have hv' := (hI' _ _ hm').1
  obtain ⟨hr, bus, hbus, rfl⟩ := step_inv hat hv hw hs
  have hm1 := writeAll_coherent hI _ hm hbus
  have hw1 : WellFormed { after e mem c op with address_space := bus } := wellFormed_step hat hv hw hs
  have w0 : wordAt mem' c.pc = encode (.Sys a) := by simpa using hsys 0 (.Sys a) rfl
  have hatd : At b d (.Sys a) := (fetch_iff hv' (hb.imp id fun h' => by rw [h.pc]; exact h') _).2
    ⟨ha, by rw [h.pc]; exact w0⟩
  have hrd : Runs b d (.Sys a) := ⟨id, fun h => h.2⟩
  have hst := step_ok (e := e') hatd hrd (fun _ => hv') (fun _ => hw')
  have hst : StepsTo b e' d { after e' mem' d (.Sys a) with address_space := d.address_space } := hst
  have hwd := wellFormed_step hatd hv' hw' hst
  have hag : Agree (fun p => D p ∨ p ∈ sets c op) { after e mem c op with address_space := bus }
      { after e' mem' d (.Sys a) with address_space := d.address_space } (memAfter mem c op) mem' := by
    refine agree_bus ⟨?_, fun p hp => ?_⟩ _ _
    · rw [after_pc hr hf, after_pc hrd rfl, h.pc]
    · rw [not_or] at hp
      exact same_trans (same_symm (kept_all hp.2)) (same_trans (h.same p hp.1)
        (kept_all (op := .Sys a) (by simp [sets])))
  obtain ⟨d', m, m', q1, q2⟩ := C114_does (c := { after e mem c op with address_space := bus })
    (d := { after e' mem' d (.Sys a) with address_space := d.address_space }) hI hI' hacc hm1 hm' hw1 hwd hag hx hW
  exact ⟨d', m, m', .cons hatd hst q1, q2⟩

end

/-! ### Concrete cases -/

/-- The first two of the four bytes. -/
def firstTwo : Part → Prop := fun p => p = .mem 0x200 ∨ p = .mem 0x201

/-- The hypotheses of `C122_chip8_sys`: in `LD V1, 5; LD V1, 7` the first instruction can be replaced by
`SYS 0`. -/
example : ∃ d', Does .debug (withFour 0 0 0x61 7)
    [(⟨0, 0, 0, 0⟩, .Sys ⟨0⟩), (⟨0, 0, 0, 0⟩, .LdImmediate .V1 7)] d' ∧ V d' .V1 = 7 := by
  have h0 : At .debug (withFour 0x61 5 0x61 7) (.LdImmediate .V1 5) :=
    (C40_fetch (view _ _) (by decide +kernel) _).2 ⟨trivial, by decide +kernel⟩
  have h1 : At .debug (after1 .debug ⟨0, 0, 0, 0⟩ (withFour 0x61 5 0x61 7)) (.LdImmediate .V1 7) :=
    (C40_fetch (view _ _) (by decide +kernel) _).2 ⟨trivial, by decide +kernel⟩
  have s0 := steps_after1 (b := .debug) (e := ⟨0, 0, 0, 0⟩) (c := withFour 0x61 5 0x61 7) (by decide +kernel)
  have s1 := steps_after1 (b := .debug) (e := ⟨0, 0, 0, 0⟩)
    (c := after1 .debug ⟨0, 0, 0, 0⟩ (withFour 0x61 5 0x61 7)) (by decide +kernel)
  obtain ⟨d', m, m', q1, q2, q3, q4⟩ := C122_chip8_sys (a := ⟨0⟩) (W := fun _ => True) (D := firstTwo)
    (c := withFour 0x61 5 0x61 7) (op := .LdImmediate .V1 5)
    (d := withFour 0 0 0x61 7) ⟨0, 0, 0, 0⟩
    (flatRam_coherent _) (flatRam_coherent _) (fun bus m _ a _ v => ⟨v, _, rfl⟩) rfl rfl ⟨rfl, rfl⟩ ⟨rfl, rfl⟩
    ⟨rfl, fun p hp => by
      cases p with
      | mem a =>
        simp only [firstTwo, Part.mem.injEq, not_or] at hp
        simp only [Same, withFour, if_neg hp.1, if_neg hp.2]
      | _ => rfl⟩ rfl h0 s0 (.inr (by decide +kernel))
    (by
      intro k op hk
      match k, hk with
      | 0, hk => cases hk; decide +kernel
      | k + 1, hk => cases hk)
    ⟨by decide, by decide, by decide⟩ (.cons h1 s1 (fun p hp => by
      have e : uses (after1 .debug ⟨0, 0, 0, 0⟩ (withFour 0x61 5 0x61 7)) (.LdImmediate .V1 7) =
        [.mem 0x202, .mem 0x203] := by decide +kernel
      rw [e] at hp
      simp only [List.mem_cons, List.not_mem_nil, or_false] at hp
      rcases hp with rfl | rfl <;> simp [firstTwo, sets]) (.nil _)) (fun _ _ _ _ _ _ _ => trivial)
  refine ⟨d', q1, Eq.trans (q4.same (.v .V1) (fun h => h.2 (by simp [sets]))) (by decide +kernel)⟩

/-- C122: that the results are not looked at is needed: after `LD V1, 5; LD V2, V1` V2 is 5, after
`SYS 0; LD V2, V1` it is not. -/
theorem C122_chip8_needed : ∃ c2 d2,
    Does .debug (withFour 0x61 5 0x82 0x10) [(⟨0, 0, 0, 0⟩, .LdImmediate .V1 5), (⟨0, 0, 0, 0⟩, .LdVxVy .V2 .V1)] c2 ∧
    Does .debug (withFour 0 0 0x82 0x10) [(⟨0, 0, 0, 0⟩, .Sys ⟨0⟩), (⟨0, 0, 0, 0⟩, .LdVxVy .V2 .V1)] d2 ∧
    V c2 .V2 = 5 ∧ V d2 .V2 ≠ 5 := by
  have h0 : At .debug (withFour 0x61 5 0x82 0x10) (.LdImmediate .V1 5) :=
    (C40_fetch (view _ _) (by decide +kernel) _).2 ⟨trivial, by decide +kernel⟩
  have h1 : At .debug (after1 .debug ⟨0, 0, 0, 0⟩ (withFour 0x61 5 0x82 0x10)) (.LdVxVy .V2 .V1) :=
    (C40_fetch (view _ _) (by decide +kernel) _).2 ⟨trivial, by decide +kernel⟩
  have h2 : At .debug (withFour 0 0 0x82 0x10) (.Sys ⟨0⟩) :=
    (C40_fetch (view _ _) (by decide +kernel) _).2 ⟨⟨by decide, by decide, by decide⟩, by decide +kernel⟩
  have h3 : At .debug (after1 .debug ⟨0, 0, 0, 0⟩ (withFour 0 0 0x82 0x10)) (.LdVxVy .V2 .V1) :=
    (C40_fetch (view _ _) (by decide +kernel) _).2 ⟨trivial, by decide +kernel⟩
  exact ⟨_, _, .cons h0 (steps_after1 (by decide +kernel)) (.cons h1 (steps_after1 (by decide +kernel)) (.nil _)),
    .cons h2 (steps_after1 (by decide +kernel)) (.cons h3 (steps_after1 (by decide +kernel)) (.nil _)),
    by decide +kernel, by decide +kernel⟩

end Verif.Props.Chip8
