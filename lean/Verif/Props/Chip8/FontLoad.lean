import Verif.Props.Chip8.Panic
import Verif.Props.Chip8.Memory
import Verif.Proofs.Chip8Display

/-!
# CHIP-8: the font in memory (C75)

C75 is false of the code: the default machine does not hold the font.
-/

namespace Verif.Props.Chip8

open Verif Verif.Chip8 Verif.Spec.Chip8
open Verif.Mos (FlatRam)
open Verif.Spec.Mos (Mem BusView writeAll Coherent upd)

/-- The bus of the default machine with a program at 0x200 and nothing stored below. -/
def ProgramLoaded (b : Build) (m : AddressMap Memory) (mem : Mem) : Prop :=
  DefaultBus b m mem ∧ ∀ a : Word, a.toNat < 0x200 → mem a = 0

/-- What C75 claims: on the default machine with a program loaded, Fx29 with a digit in Vx leaves I
at the glyph of the digit. -/
def C75_statement : Prop :=
  ∀ (R : Type) (b : Build) (e : Env) (cpu c : Chip8 (AddressMap Memory) R) (mem : Mem)
    (x : GpRegisters) (f : Font), ProgramLoaded b cpu.address_space mem →
    At b cpu (.LdSpriteLocation x) → x ≠ .Vf → (V cpu x).toNat = digit f → StepsTo b e cpu c →
    GlyphAt mem c.i f

/-- The freshly built machine is such a machine, in whichever order its map lists its devices, and
remains one when bytes are written at 0x200 or above. -/
theorem C75_loaded (b : Build) : (∀ {m : AddressMap Memory}, defaultMap.inner.Perm m.inner →
      ProgramLoaded b m (fun _ => 0)) ∧
    ∀ {m m' : AddressMap Memory} {mem : Mem} {a : Word} {v r : Byte}, ProgramLoaded b m mem →
      0x200 ≤ a.toNat → m.write b a v = .ok (.ok r, m') → ProgramLoaded b m' (upd mem a v) := by
  refine ⟨fun hp => ⟨defaultBus_default b hp, fun _ _ => rfl⟩, ?_⟩
  intro m m' mem a v r ⟨h1, h2⟩ ha hw
  refine ⟨(defaultBus_coherent b _ _ h1).2 a v r m' hw, fun a' ha' => ?_⟩
  have : a' ≠ a := fun h => by subst h; omega
  unfold upd
  rw [if_neg this]
  exact h2 a' ha'

theorem digit_lt (f : Font) : digit f < 16 := by cases f <;> decide

section
variable {B R : Type} [Addressable B] {b : Build} {e : Env} {cpu c : Chip8 B R} {mem : Mem}
  {x : GpRegisters} {f : Font}

theorem glyph_i (hat : At b cpu (.LdSpriteLocation x)) (hx : x ≠ .Vf)
    (hd : (V cpu x).toNat = digit f) (hs : StepsTo b e cpu c) :
    c.i = BitVec.ofNat 16 (5 * digit f) := by
  have h := C50_glyph (e := e) hat hx (by have := digit_lt f; omega)
  obtain rfl : c = _ := by
    have := hs.symm.trans h
    simpa using this
  show BitVec.ofNat 16 _ = _
  rw [hd]

/-- The five bytes at 5 times the digit. -/
theorem glyph_iff (i : Word) : GlyphAt mem i f ↔
    ∀ row (h : row < 5), mem (BitVec.ofNat 16 (i.toNat + row)) = f.bytes[row] := by
  constructor
  · intro h row hr
    apply BitVec.eq_of_getMsbD_eq
    intro col hc
    have h1 := h col row hc hr
    rw [← Display.fontBit_eq f col hc row hr] at h1
    unfold Display.fontBit at h1
    rw [Display.spriteBit_eq _ _ hc] at h1
    simpa [rowPixel, hr] using h1
  · intro h col row hc hr
    rw [← Display.fontBit_eq f col hc row hr]
    unfold Display.fontBit
    rw [Display.spriteBit_eq _ _ hc]
    simp [hr, h row hr]

/-- What holds: on any bus, the glyph is at I exactly if memory holds, at five times the digit, the
bytes the font gives for it. -/
theorem C75_partial (hat : At b cpu (.LdSpriteLocation x)) (hx : x ≠ .Vf)
    (hd : (V cpu x).toNat = digit f) (hs : StepsTo b e cpu c) :
    GlyphAt mem c.i f ↔
      ∀ row (h : row < 5), mem (BitVec.ofNat 16 (5 * digit f + row)) = f.bytes[row] := by
  rw [glyph_iff, glyph_i hat hx hd hs]
  have := digit_lt f
  have h16 : (BitVec.ofNat 16 (5 * digit f)).toNat = 5 * digit f := by
    rw [BitVec.toNat_ofNat]
    omega
  rw [h16]

end

/-- The digits in order. -/
def digits : List Font :=
  [.Zero, .One, .Two, .Three, .Four, .Five, .Six, .Seven, .Eight, .Nine, .A, .B, .C, .D, .E, .F]

theorem digits_bytes (f : Font) (row : Nat) (h : row < 5) :
    (digits.flatMap Font.toVec)[5 * digit f + row]? = some f.bytes[row] := by
  have : row = 0 ∨ row = 1 ∨ row = 2 ∨ row = 3 ∨ row = 4 := by omega
  rcases this with rfl | rfl | rfl | rfl | rfl <;> cases f <;> rfl

/-- A machine whose memory begins with the font, digit after digit, each as the `Vec<u8>` it converts to:
Fx29 with a digit in Vx leaves I at its glyph. Whatever follows the font, and for memory of either
kind. -/
theorem C75_font_partial {R : Type} {b : Build} {e : Env} {cpu c : Chip8 Memory R} {m : Memory}
    {rest : List Byte} {x : GpRegisters} {f : Font} (hm : m.start = 0)
    (hc : cpu.address_space = m.load (digits.flatMap Font.toVec ++ rest))
    (hat : At b cpu (.LdSpriteLocation x)) (hx : x ≠ .Vf) (hd : (V cpu x).toNat = digit f)
    (hs : StepsTo b e cpu c) {mem : Mem} (hv : ∀ a, a.toNat < 80 → cpu.address_space.read b a = .ok (mem a)) :
    GlyphAt mem c.i f := by
  refine (C75_partial hat hx hd hs).2 fun row hr => ?_
  have hf := digit_lt f
  have h16 : (BitVec.ofNat 16 (5 * digit f + row)).toNat = 5 * digit f + row := by
    rw [BitVec.toNat_ofNat]
    omega
  have h1 := hv (BitVec.ofNat 16 (5 * digit f + row)) (by rw [h16]; omega)
  have h2 : cpu.address_space.read b (BitVec.ofNat 16 (5 * digit f + row)) = .ok f.bytes[row] := by
    rw [hc]
    unfold Memory.read Memory.load
    have hsub : subU16 b (BitVec.ofNat 16 (5 * digit f + row)) m.start =
        .ok (BitVec.ofNat 16 (5 * digit f + row)) := by
      rw [hm]
      unfold subU16
      simp
    simp only [hsub, Except.bind, bind]
    unfold index
    rw [h16, List.getElem?_append_left (by
      show _ < 80
      omega), digits_bytes f row hr]
  rw [h1] at h2
  exact Except.ok.inj h2

/-- Such a machine: `F029` behind the font, where the machine is. -/
example : ∃ (cpu c : Chip8 Memory Unit) (rest : List Byte),
    cpu.address_space = (Memory.mk .readWrite 0 0xfff []).load (digits.flatMap Font.toVec ++ rest) ∧
    At .debug cpu (.LdSpriteLocation .V0) ∧ (V cpu .V0).toNat = digit .Seven ∧
    StepsTo .debug ⟨0, 0, 0, 0⟩ cpu c ∧ c.i = 35 :=
  ⟨{ defaultState 0 () with
      gp_registers := Vector.replicate 15 7
      address_space := (Memory.mk .readWrite 0 0xfff []).load
        (digits.flatMap Font.toVec ++ [0xF0, 0x29])
      pc := 80 },
    _, _, rfl, rfl, rfl, rfl, rfl⟩

/-- On the default machine with a program loaded no digit has its glyph. -/
theorem C75_no_glyph {R : Type} {b : Build} {e : Env} {cpu c : Chip8 (AddressMap Memory) R}
    {mem : Mem} {x : GpRegisters} {f : Font} (hm : ProgramLoaded b cpu.address_space mem)
    (hat : At b cpu (.LdSpriteLocation x)) (hx : x ≠ .Vf) (hd : (V cpu x).toNat = digit f)
    (hs : StepsTo b e cpu c) : ¬ GlyphAt mem c.i f := by
  intro h
  have h0 := (C75_partial hat hx hd hs).1 h 0 (by decide)
  have := digit_lt f
  rw [hm.2 _ (by
    rw [BitVec.toNat_ofNat, Nat.add_zero]
    exact Nat.lt_of_le_of_lt (Nat.mod_le _ _) (by omega))] at h0
  revert h0
  cases f <;> decide

/-- The default machine with `F029` at 0x200: V0 is 0 and I is set to 0, where there is no glyph. -/
theorem C75_refuted : ¬ C75_statement := by
  intro h
  have h0 := (C75_loaded .debug).1 (List.Perm.refl _)
  obtain ⟨r1, m1, w1⟩ := C62_default_accepts .debug _ _ h0.1 0x200 (by decide) 0xF0
  have h1 := (C75_loaded .debug).2 h0 (by decide) w1
  obtain ⟨r2, m2, w2⟩ := C62_default_accepts .debug _ _ h1.1 0x201 (by decide) 0x29
  have h2 := (C75_loaded .debug).2 h1 (by decide) w2
  have hv := (defaultBus_coherent .debug _ _ h2.1).1
  have hat : At .debug { defaultState 0 () with address_space := m2 } (.LdSpriteLocation .V0) :=
    (C40_fetch hv (show (0x200 : Word).toNat < 65535 by decide) _).2 ⟨trivial, by
      show wordAt _ 0x200 = _
      decide⟩
  have hs := C50_glyph (e := ⟨0, 0, 0, 0⟩) hat (by decide) (Nat.zero_le _)
  exact C75_no_glyph (f := .Zero) h2 hat (by decide) rfl hs
    (h _ _ _ _ _ _ _ .Zero h2 hat (by decide) rfl hs)

/-- With the font bytes of the digit 7 in memory at 35, `F029` with V0 = 7 finds its glyph. -/
example : ∃ (cpu c : Chip8 FlatRam Unit) (mem : Mem), At .debug cpu (.LdSpriteLocation .V0) ∧
    (V cpu .V0).toNat = digit .Seven ∧ StepsTo .debug ⟨0, 0, 0, 0⟩ cpu c ∧
    cpu.address_space.mem = mem ∧ GlyphAt mem c.i .Seven := by
  let cpu : Chip8 FlatRam Unit := place { sample with
    gp_registers := Vector.replicate 15 7
    address_space := ⟨fun a => ([0xF0, 0x10, 0x20, 0x40, 0x40][a.toNat - 35]?).getD 0⟩ }
      (.LdSpriteLocation .V0)
  have hat : At .debug cpu (.LdSpriteLocation .V0) := at_place _ _ trivial (by decide)
  have hs := C50_glyph (e := ⟨0, 0, 0, 0⟩) hat (by decide) (by decide)
  refine ⟨cpu, _, _, hat, rfl, hs, rfl, (C75_partial hat (by decide) rfl hs).2 ?_⟩
  decide

end Verif.Props.Chip8
