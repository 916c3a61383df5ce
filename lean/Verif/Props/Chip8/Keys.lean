import Verif.Spec.Frames
import Verif.Props.Chip8.Loops

/-!
# C155: a program that waits for a key, run frame by frame

The instruction that should wait for a key does not (C55). The loop `p: SKP Vx; JP p` does: here it runs
under a front end that sets the key that is held down before each frame and then runs any number of
instructions. No key press is missed if every frame has at least two instructions.
-/

namespace Verif.Props.Chip8

open Verif Verif.Chip8 Verif.Spec.Chip8
open Verif.Mos (FlatRam)
open Verif.Spec.Mos (Mem BusView)

section
variable {B R : Type} [Addressable B] {b : Build} {env : Nat → Env} {c : Chip8 B R} {mem : Mem}
  {p : Nat} {x : GpRegisters} {fs gs : List (Option Interrupt × Nat)} {key : Option Interrupt}

/-- At the first (0) or second (1) instruction of the loop, or behind it (2). -/
def inKeyLoop (c : Chip8 B R) (p i : Nat) : Chip8 B R := { c with pc := BitVec.ofNat 16 (p + 2 * i) }

theorem key_first (hv : BusView b c.address_space mem) (hcode : CodeAt mem p (keyLoop p x))
    (hx : x ≠ .Vf) (k n : Nat) :
    runLoop b env (n + 1) k (inKeyLoop c p 0) (inKeyLoop c p 0) =
      runLoop b env n (k + 1) (inKeyLoop c p (if Pressed c (V c x).toNat then 2 else 1))
        (inKeyLoop c p (if Pressed c (V c x).toNat then 2 else 1)) := by
  have h1 : p + 2 * 2 ≤ 4096 := hcode.1
  rw [code_step (op := .Skp x) (i := 0) (c := inKeyLoop c p 0) hv hcode rfl
    (by simp [keyLoop, encode, xkk]; omega) trivial ⟨hx, fun h => h.2⟩ rfl
    (by rintro (h | ⟨a, h⟩) <;> cases h) (fun _ => rfl)]
  have : after (env k) mem (inKeyLoop c p 0) (.Skp x) =
      inKeyLoop c p (if Pressed c (V c x).toNat then 2 else 1) := by
    show ({ c with pc := BitVec.ofNat 16 ((BitVec.ofNat 16 (p + 2 * 0)).toNat +
      if Pressed c (V c x).toNat then 4 else 2) } : Chip8 B R) = _
    rw [toNat_ofNat_lt (by omega)]
    unfold inKeyLoop
    split <;> rfl
  rw [this]

theorem key_second (hv : BusView b c.address_space mem) (hcode : CodeAt mem p (keyLoop p x))
    (k n : Nat) :
    runLoop b env (n + 1) k (inKeyLoop c p 1) (inKeyLoop c p 1) =
      runLoop b env n (k + 1) (inKeyLoop c p 0) (inKeyLoop c p 0) := by
  have h1 : p + 2 * 2 ≤ 4096 := hcode.1
  rw [code_step (op := .JpNonV0Indexed ⟨BitVec.ofNat 16 p⟩) (i := 1) (c := inKeyLoop c p 1) hv
    hcode rfl (by simp [keyLoop, encode, nnn]; omega)
    (by show (BitVec.ofNat 16 p).toNat < 4096; rw [toNat_ofNat_lt (by omega)]; omega)
    ⟨fun h => h, fun h => h.2⟩ rfl (by rintro (h | ⟨a, h⟩) <;> cases h) (fun _ => rfl)]
  rfl

theorem key_stays (hv : BusView b c.address_space mem) (hcode : CodeAt mem p (keyLoop p x))
    (hx : x ≠ .Vf) (hk : ¬ Pressed c (V c x).toNat) (n : Nat) : ∀ k i, i < 2 →
    runLoop b env n k (inKeyLoop c p i) (inKeyLoop c p i) = .ok (inKeyLoop c p ((i + n) % 2)) := by
  induction n with
  | zero =>
    intro k i hi
    rw [Nat.add_zero, Nat.mod_eq_of_lt hi]
    rfl
  | succ n ih =>
    intro k i hi
    match i with
    | 0 =>
      rw [key_first hv hcode hx, if_neg hk, ih (k + 1) 1 (by omega)]
      congr 2
      omega
    | 1 =>
      rw [key_second hv hcode, ih (k + 1) 0 (by omega)]
      congr 2
      omega

/-- Behind the loop after `1 + i` instructions, with the key held down. -/
theorem key_leaves (hv : BusView b c.address_space mem) (hcode : CodeAt mem p (keyLoop p x))
    (hx : x ≠ .Vf) (hk : Pressed c (V c x).toNat) (n k i : Nat) (hi : i < 2) :
    runLoop b env (1 + i + n) k (inKeyLoop c p i) (inKeyLoop c p i) =
      runLoop b env n (k + (1 + i)) (inKeyLoop c p 2) (inKeyLoop c p 2) := by
  match i with
  | 0 =>
    rw [show 1 + 0 + n = n + 1 by omega, key_first hv hcode hx, if_pos hk]
  | 1 =>
    rw [show 1 + 1 + n = n + 1 + 1 by omega, key_second hv hcode, key_first hv hcode hx, if_pos hk]

theorem key_shift (m n : Nat) : ∀ (k : Nat) (it c : Chip8 B R),
    runLoop b env n (m + k) it c = runLoop b (fun k => env (m + k)) n k it c := by
  induction n with
  | zero => intro k it c; rfl
  | succ n ih =>
    intro k it c
    unfold runLoop
    cases next b (env (m + k)) it with
    | error p => rfl
    | ok x =>
      simp only [Res.ok_bind]
      cases executeAll b (env (m + k)).foldAt c x.1 with
      | error p => rfl
      | ok d => exact ih (k + 1) x.2 d

/-- C155: while the key is not held down, any frames leave the program in the loop and change nothing;
the last frame's key is still set. -/
theorem C155_waits (hv : BusView b c.address_space mem) (hcode : CodeAt mem p (keyLoop p x))
    (hx : x ≠ .Vf) {i : Nat} (hi : i < 2) (hpc : c.pc = BitVec.ofNat 16 (p + 2 * i))
    (hk : ∀ f ∈ fs, ¬ Holds f.1 (V c x).toNat) :
    frames b env c fs = .ok { c with
      pc := BitVec.ofNat 16 (p + 2 * ((i + frameSum fs) % 2))
      interrupt := (fs.map Prod.fst).getLast?.getD c.interrupt } := by
  induction fs generalizing env c i with
  | nil =>
    simp only [frames, frameSum, List.map_nil, List.sum_nil, Nat.add_zero, Nat.mod_eq_of_lt hi, ← hpc]
    rfl
  | cons f fs ih =>
    obtain ⟨key, n⟩ := f
    have h1 : withInterrupt c key = inKeyLoop (withInterrupt c key) p i := by
      unfold inKeyLoop
      rw [← hpc]
      rfl
    have h2 : run b env (withInterrupt c key) n =
        .ok (.ready (inKeyLoop (withInterrupt c key) p ((i + n) % 2))) := by
      unfold run
      rw [h1, key_stays (c := withInterrupt c key) hv hcode hx
        (fun h => hk (key, n) (by simp) h) n 0 i hi]
      rfl
    simp only [frames, h2, Res.ok_bind]
    show frames b (fun k => env (n + k)) (inKeyLoop (withInterrupt c key) p ((i + n) % 2)) fs = _
    rw [ih (c := inKeyLoop (withInterrupt c key) p ((i + n) % 2)) hv (Nat.mod_lt _ (by omega)) rfl
      (fun f hf => hk f (by simp [hf]))]
    have e1 : ((i + n) % 2 + frameSum fs) % 2 = (i + frameSum ((key, n) :: fs)) % 2 := by
      simp only [frameSum, List.map_cons, List.sum_cons]
      omega
    have e2 : (fs.map Prod.fst).getLast?.getD key =
        (((key, n) :: fs).map Prod.fst).getLast?.getD c.interrupt := by
      rw [List.map_cons, List.getLast?_cons]
      rfl
    rw [e1, ← e2]
    rfl

theorem frames_append (gs : List (Option Interrupt × Nat)) : ∀ (fs : List (Option Interrupt × Nat))
    (env : Nat → Env) (c : Chip8 B R),
    frames b env c (fs ++ gs) =
      (frames b env c fs >>= fun d => frames b (fun k => env (frameSum fs + k)) d gs) := by
  intro fs
  induction fs with
  | nil =>
    intro env c
    simp [frames, frameSum]
  | cons f fs ih =>
    intro env c
    obtain ⟨key, n⟩ := f
    simp only [List.cons_append, frames]
    cases run b env (withInterrupt c key) n with
    | error p => rfl
    | ok s =>
      simp only [Res.ok_bind]
      rw [ih]
      simp only [frameSum, List.map_cons, List.sum_cons, Nat.add_assoc]

/-- C155: the first frame of at least two instructions with the key held down leaves the loop, after one
instruction, or two if the frames before it end at the jump, however the clock moves; the rest of the frame
runs from behind the loop, with nothing else changed. -/
theorem C155_noticed (hv : BusView b c.address_space mem) (hcode : CodeAt mem p (keyLoop p x))
    (hx : x ≠ .Vf) (hpc : c.pc = BitVec.ofNat 16 p) (hk : ∀ f ∈ fs, ¬ Holds f.1 (V c x).toNat)
    (hkey : Holds key (V c x).toNat) {m : Nat} (hm : 2 ≤ m) :
    frames b env c (fs ++ (key, m) :: gs) =
      (run b (fun k => env (frameSum fs + (1 + frameSum fs % 2) + k))
          { c with pc := BitVec.ofNat 16 (p + 4), interrupt := key } (m - (1 + frameSum fs % 2)) >>= fun s =>
        frames b (fun k => env (frameSum fs + m + k)) s.unwrap gs) := by
  have hi : frameSum fs % 2 < 2 := Nat.mod_lt _ (by omega)
  rw [frames_append, C155_waits (i := 0) hv hcode hx (by omega) (by simpa using hpc) hk, Res.ok_bind]
  simp only [frames, Nat.zero_add]
  have h1 : ∀ k : Option Interrupt, withInterrupt ({ c with
      pc := BitVec.ofNat 16 (p + 2 * (frameSum fs % 2))
      interrupt := k } : Chip8 B R) key =
      inKeyLoop (withInterrupt c key) p (frameSum fs % 2) := fun _ => rfl
  rw [h1]
  have h2 : run b (fun k => env (frameSum fs + k)) (inKeyLoop (withInterrupt c key) p (frameSum fs % 2)) m =
      run b (fun k => env (frameSum fs + (1 + frameSum fs % 2) + k))
        { c with pc := BitVec.ofNat 16 (p + 4), interrupt := key } (m - (1 + frameSum fs % 2)) := by
    unfold run
    conv => lhs; rw [show m = 1 + frameSum fs % 2 + (m - (1 + frameSum fs % 2)) by omega]
    rw [key_leaves (c := withInterrupt c key) hv hcode hx hkey _ _ _ hi, Nat.zero_add]
    have h3 := key_shift (b := b) (env := fun k => env (frameSum fs + k)) (1 + frameSum fs % 2)
      (m - (1 + frameSum fs % 2)) 0 (inKeyLoop (withInterrupt c key) p 2)
      (inKeyLoop (withInterrupt c key) p 2)
    rw [Nat.add_zero] at h3
    rw [h3]
    simp only [Nat.add_assoc]
    rfl
  rw [h2]
  simp only [Nat.add_assoc]

/-- C155: a frame of one instruction can miss the key: if the jump is next, the key is not looked at. -/
theorem C155_missed (hv : BusView b c.address_space mem) (hcode : CodeAt mem p (keyLoop p x))
    (hpc : c.pc = BitVec.ofNat 16 (p + 2)) (key : Option Interrupt) :
    frames b env c [(key, 1)] = .ok { c with pc := BitVec.ofNat 16 p, interrupt := key } := by
  have h1 : withInterrupt c key = inKeyLoop (withInterrupt c key) p 1 := by
    unfold inKeyLoop
    show _ = ({ withInterrupt c key with pc := BitVec.ofNat 16 (p + 2) } : Chip8 B R)
    rw [← hpc]
    rfl
  have h2 : run b env (withInterrupt c key) 1 =
      .ok (.ready (inKeyLoop (withInterrupt c key) p 0)) := by
    unfold run
    rw [h1, key_second (c := withInterrupt c key) hv hcode]
    rfl
  simp only [frames, h2, Res.ok_bind]
  rfl

end

/-! ### Cases that meet the hypotheses -/

/-- The loop for V3 at 0x200, waiting for key 5. -/
def keySample : Chip8 FlatRam Unit :=
  { setV sample .V3 5 with
    pc := 0x200
    address_space := ⟨fun a =>
      if a = 0x200 then 0xe3 else if a = 0x201 then 0x9e else if a = 0x202 then 0x12 else 0⟩ }

theorem keySample_code : CodeAt keySample.address_space.mem 0x200 (keyLoop 0x200 .V3) := by
  refine ⟨by decide, fun i w h => ?_⟩
  match i with
  | 0 => cases h; decide +kernel
  | 1 => cases h; decide +kernel
  | n + 2 => cases h

/-- With key 5 held for one instruction only, when the jump is next, the loop goes on. -/
example (env : Nat → Env) : frames .debug env { keySample with pc := 0x202 } [(some (.KeyPress .Key5), 1)] =
    .ok { keySample with pc := 0x200, interrupt := some (.KeyPress .Key5) } :=
  C155_missed (c := { keySample with pc := 0x202 }) (view _ keySample) keySample_code rfl _

/-- No key for seven instructions, key 6 for ten, then key 5: the second instruction of that frame leaves
the loop. -/
example (env : Nat → Env) : frames .debug env keySample
    [(none, 7), (some (.KeyPress .Key6), 10), (some (.KeyPress .Key5), 2)] =
    .ok { keySample with pc := 0x204, interrupt := some (.KeyPress .Key5) } := by
  have hV : (V keySample .V3).toNat = 5 := by decide +kernel
  have h := C155_noticed (b := .debug) (env := env) (fs := [(none, 7), (some (.KeyPress .Key6), 10)])
    (gs := []) (key := some (.KeyPress .Key5)) (view _ keySample) keySample_code (by decide) rfl
    (by
      intro f hf
      rw [hV]
      rintro ⟨k, h1, h2⟩
      rcases List.mem_cons.1 hf with rfl | hf
      · cases h1
      · rw [List.mem_singleton.1 hf] at h1
        cases h1
        cases h2)
    ⟨.Key5, rfl, by rw [hV]; rfl⟩ (Nat.le_refl 2)
  exact h

end Verif.Props.Chip8
