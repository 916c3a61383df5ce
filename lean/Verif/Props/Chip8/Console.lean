import Verif.Proofs.Console
import Verif.Props.Chip8.Checksum

/-!
# C138 on the CHIP-8: programs that talk to other devices
-/

namespace Verif.Props.Chip8

open Verif Verif.Chip8 Verif.Spec Verif.Spec.Chip8 Verif.Spec.Live Verif.Live Verif.Live.Bus
open Verif.Mos (FlatRam)
open Verif.Spec.Mos (Mem BusView word upd store)

variable {b : Build} {R : Type} {env : Nat → Env}

section
variable {W : Type} [Wire W]

theorem talks_loop (hclock : ∀ k, (env k).iterAt = (env k).foldAt) {m k : Nat}
    {x y : Chip8 Unit R × Console × W} (h : Chip8Talks b env 2 m k x y) (n : Nat) :
    exec b (Chip8.Live.runLoop b env (m + n) k (onBus x.1 .iterator) (onBus x.1 .own)) (atStart x.2.1 x.2.2) =
      exec b (Chip8.Live.runLoop b env n (k + m) (onBus y.1 .iterator) (onBus y.1 .own)) (atStart y.2.1 y.2.2) := by
  induction h with
  | stop k x => rw [Nat.zero_add, Nat.add_zero]
  | @step c d w op mcs c' k m j z hn hop henc hj hj1 _ ih =>
    rw [show m + 1 + n = m + n + 1 by omega, console_step (hclock k) hn hop henc hj hj1, ih,
      show k + 1 + m = k + (m + 1) by omega]

omit [Wire W] in
theorem run_exec {c : Chip8 Copy R} (n : Nat) {D : Type} [Device W D] (s : Site W D) :
    exec b (Chip8.Live.run b env c n) s =
      ((exec b (Chip8.Live.runLoop b env n 0 { c with address_space := .iterator } c) s).1.map .ready,
        (exec b (Chip8.Live.runLoop b env n 0 { c with address_space := .iterator } c) s).2) := by
  unfold Chip8.Live.run
  rw [exec_bind]
  rcases exec b (Chip8.Live.runLoop b env n 0 { c with address_space := .iterator } c) s with ⟨e | c, s'⟩ <;> rfl

/-- C138 on the CHIP-8, whatever is behind the ports: the state and the memory are as expected, every byte is
taken once, and what an instruction gives, it gives twice (if the clock does not move within a step). -/
theorem C138_chip8_partial (hclock : ∀ k, (env k).iterAt = (env k).foldAt) {m : Nat} {c c' : Chip8 Unit R}
    {d d' : Console} {w w' : W} (h : Chip8Talks b env 2 m 0 (c, d, w) (c', d', w')) :
    exec b (Chip8.Live.run b env (onBus c .own) m) (atStart d w) =
      (.ok (.ready (onBus c' .own)), atStart d' w') := by
  rw [run_exec]
  have := talks_loop hclock h 0
  simp only [Nat.add_zero] at this
  rw [show ({ onBus c Copy.own with address_space := .iterator } : Chip8 Copy R) = onBus c .iterator from rfl, this]
  rfl

/-- Where giving the same bytes again changes nothing, every byte is as good as given once. -/
theorem C138_chip8_once_partial (hclock : ∀ k, (env k).iterAt = (env k).foldAt)
    (hw : ∀ (w : W) (vs : List Byte), gives w (vs ++ vs) = gives w vs) {m : Nat} {c c' : Chip8 Unit R}
    {d d' : Console} {w w' : W} (h : Chip8Talks b env 1 m 0 (c, d, w) (c', d', w')) :
    exec b (Chip8.Live.run b env (onBus c .own) m) (atStart d w) =
      (.ok (.ready (onBus c' .own)), atStart d' w') := by
  have key : ∀ {m k : Nat} {x y : Chip8 Unit R × Console × W}, Chip8Talks b env 1 m k x y →
      Chip8Talks b env 2 m k x y := by
    intro m k x y h
    induction h with
    | stop k x => exact .stop k x
    | step hn hop henc hj hj1 _ ih =>
      refine .step hn hop henc hj hj1 ?_
      have e : ∀ (w : W) (vs : List Byte), gives w (List.replicate 2 vs).flatten =
          gives w (List.replicate 1 vs).flatten := by
        intro w vs
        have := hw w vs
        simpa [List.replicate] using this
      rw [e]
      exact ih
  exact C138_chip8_partial hclock (key h)

/-! ## A program -/

variable {d : Console} {w : W}

/-- One instruction that does not read its own bytes from the port. -/
theorem talk_one {n m k j q : Nat} {c : Chip8 Unit R} {z : Chip8 Unit R × Console × W} (op : Opcode)
    (hpc : c.pc = BitVec.ofNat 16 q) (hq : q < 65535) (h0 : word q ≠ d.inp) (h1 : word (q + 1) ≠ d.inp)
    (hop : Valid op) (henc : wordAt d.mem (BitVec.ofNat 16 q) = encode op) {ms : List Microcode}
    (hg : generate b (env k) (onBus c (⟨d.seen w⟩ : FlatRam)) op = .ok ms) {c' : Chip8 FlatRam R}
    (hx : executeAll b (env k).iterAt (onBus c (⟨d.seen w⟩ : FlatRam))
      (ms ++ [.Inc16bitRegister .ProgramCounter 2]) = .ok c')
    (hj : (cellsFrom c.i (readCount op)).count d.inp = j) (hj1 : j ≤ 1)
    (h : Chip8Talks b env n m (k + 1) (onBus c' (), d.keep (byteStores ms),
      gives (takes j w) (List.replicate n (shownAt d.outp (byteStores ms))).flatten) z) :
    Chip8Talks b env n (m + 1) k (c, d, w) z := by
  have hq' : c.pc.toNat = q := by rw [hpc, toNat_ofNat_lt (by omega)]
  have e1 : word (c.pc.toNat + 1) = word (q + 1) := by rw [hq']
  have e0 : c.pc = word q := hpc
  have s0 : d.seen w c.pc = d.mem (word q) := by rw [e0]; simp [Console.seen, upd, h0]
  have s1 : d.seen w (word (c.pc.toNat + 1)) = d.mem (word (q + 1)) := by rw [e1]; simp [Console.seen, upd, h1]
  have e1' : word (c.pc.toNat + 1) = c.pc + 1 := by
    apply BitVec.eq_of_toNat_eq
    rw [BitVec.toNat_add, word, BitVec.toNat_ofNat]; rfl
  have q1 : BitVec.ofNat 16 q + 1 = word (q + 1) := by
    rw [← e1, e1', hpc]
  have henc' : encode op = (d.seen w c.pc).toNat * 256 + (d.seen w (word (c.pc.toNat + 1))).toNat := by
    rw [s0, s1, ← henc, wordAt, q1]; rfl
  have hat : At b (onBus c (⟨d.seen w⟩ : FlatRam)) op := by
    refine (C40_fetch (mem := d.seen w) (fun _ => rfl) (by show c.pc.toNat < _; omega) op).2 ⟨hop, ?_⟩
    rw [henc', wordAt, e1']; rfl
  have hn : next b (env k) (onBus c (⟨d.seen w⟩ : FlatRam)) = .ok (ms ++ [.Inc16bitRegister .ProgramCounter 2], c') := by
    unfold next
    rw [show fetch b (onBus c (⟨d.seen w⟩ : FlatRam)) = .ok op from hat, Res.ok_bind, hg, Res.ok_bind]
    simp only
    rw [hx]
    rfl
  have hb : byteStores (ms ++ [.Inc16bitRegister .ProgramCounter 2]) = byteStores ms := by
    rw [byteStores_append]; simp [byteStores]
  refine .step hn hop henc' (j := j) ?_ hj1 (by rw [hb]; exact h)
  rw [e1, e0, List.count_cons_of_ne h0, List.count_cons_of_ne h1]
  exact hj

end

/-- The state of `echo`: V0 and the program counter. -/
def echoing {B : Type} (c : Chip8 B R) (v : Byte) (q : Nat) : Chip8 B R :=
  { setV c .V0 v with pc := BitVec.ofNat 16 q }

theorem setV_echoing (c : Chip8 Unit R) (u v : Byte) (q : Nat) : setV (echoing c u q) .V0 v = echoing c v q := by
  simp [echoing, setV]

theorem advance_echoing {c : Chip8 Unit R} {v : Byte} {q k : Nat} (hq : q < 65536) :
    advance (echoing c v q) k = echoing c v (q + k) := by
  unfold advance echoing
  simp only [toNat_ofNat_lt hq]

section
variable {p : Nat} {port : Word} {mem : Mem} {c : Chip8 Unit R}

/-- One round of `echo`. -/
theorem echo_round {W : Type} [Wire W] {w : W} {n m k : Nat} {z : Chip8 Unit R × Console × W}
    (hcode : CodeAt mem p (echo p)) (hfree : ∀ j < 6, word (p + j) ≠ port) (hi : c.i = port) {u : Byte}
    (h : Chip8Talks b env n m (k + 3) (echoing c (Wire.take w).1 p, ⟨mem, port, port⟩,
      gives (Wire.take w).2 (List.replicate n (Wire.take w).1)) z) :
    Chip8Talks b env n (m + 3) k (echoing c u p, ⟨mem, port, port⟩, w) z := by
  have hlen : p + 6 ≤ 4096 := hcode.1
  have c0 := hcode.2 0 _ rfl
  have c1 := hcode.2 1 _ rfl
  have c2 := hcode.2 2 _ rfl
  have f : ∀ j, j < 6 → word (p + j) ≠ (⟨mem, port, port⟩ : Console).inp := hfree
  generalize hv : (Wire.take w).1 = v at h
  have hseen : ∀ w' : W, (⟨mem, port, port⟩ : Console).seen w' (port + BitVec.ofNat 16 0) = (Wire.take w').1 := by
    intro w'
    rw [show port + BitVec.ofNat 16 0 = port from BitVec.add_zero port]
    simp [Console.seen, upd]
  refine talk_one (d := ⟨mem, port, port⟩) (.ReadRegistersFromMemory .V0) (q := p) rfl (by omega) (f 0 (by omega))
    (f 1 (by omega)) trivial c0 (ms := [writeGp .V0 v]) (c' := onBus (echoing c v (p + 2))
      ⟨(⟨mem, port, port⟩ : Console).seen w⟩) ?_ ?_ (j := 1) ?_ (by omega) ?_
  · rw [readRegs_gen (mem := (⟨mem, port, port⟩ : Console).seen w) (fun _ => rfl)
      (fun _ => by show c.i.toNat + 0 < _; have := c.i.isLt; omega)]
    have e : (onBus (echoing c u p) (⟨(⟨mem, port, port⟩ : Console).seen w⟩ : FlatRam)).i = port := hi
    simp only [e, num]
    show Except.ok [writeGp .V0 ((⟨mem, port, port⟩ : Console).seen w (port + BitVec.ofNat 16 0))] = _
    rw [hseen, hv]
  · rw [exec_append, exec_gp (by decide), Res.ok_bind]
    refine (exec_skip _ _).trans ?_
    rw [show setV (onBus (echoing c u p) (⟨(⟨mem, port, port⟩ : Console).seen w⟩ : FlatRam)) .V0 v =
      onBus (echoing c v p) ⟨(⟨mem, port, port⟩ : Console).seen w⟩ from congrArg (onBus · _) (setV_echoing c u v p)]
    show Except.ok (onBus (advance (echoing c v p) 2) _) = _
    rw [advance_echoing (by omega)]
    rfl
  · show (cellsFrom c.i 1).count port = 1
    rw [hi]
    simp [cellsFrom]
  have g1 : gives (takes 1 w) (List.replicate n (shownAt port (byteStores [writeGp .V0 v]))).flatten =
      (Wire.take w).2 := by simp [byteStores, writeGp, shownAt, gives, takes]
  have g2 : (⟨mem, port, port⟩ : Console).keep (byteStores [writeGp .V0 v]) = ⟨mem, port, port⟩ := rfl
  rw [g1, g2]
  refine talk_one (d := ⟨mem, port, port⟩) (.StoreRegistersToMemory .V0) (q := p + 2) rfl (by omega) (f 2 (by omega))
    (f 3 (by omega)) trivial c1 (ms := [.WriteMemory port v])
    (c' := onBus (echoing c v (p + 4)) ⟨upd ((⟨mem, port, port⟩ : Console).seen (Wire.take w).2) port v⟩) ?_ ?_
    (j := 0) rfl (by omega) ?_
  · rw [storeRegs_gen (by decide) (fun _ => by show c.i.toNat + 0 < _; have := c.i.isLt; omega)]
    have e : V (onBus (onBus (onBus (echoing c v (p + 2)) (⟨(⟨mem, port, port⟩ : Console).seen w⟩ : FlatRam)) ())
      (⟨(⟨mem, port, port⟩ : Console).seen (Wire.take w).2⟩ : FlatRam)) .V0 = v := by
      simp [V, echoing, setV, num, onBus]
    have e' : port + BitVec.ofNat 16 0 = port := BitVec.add_zero port
    show Except.ok [Microcode.WriteMemory (c.i + BitVec.ofNat 16 0) _] = _
    rw [hi, e']
    exact congrArg (fun x => Except.ok [Microcode.WriteMemory port x]) e
  · refine (exec_skip (b := b) (env (k + 1)).iterAt (onBus (echoing c v (p + 2))
      (⟨upd ((⟨mem, port, port⟩ : Console).seen (Wire.take w).2) port v⟩ : FlatRam))).trans ?_
    show Except.ok (onBus (advance (echoing c v (p + 2)) 2) _) = _
    rw [advance_echoing (by omega)]
    rfl
  have g3 : gives (takes 0 (Wire.take w).2) (List.replicate n (shownAt port (byteStores [.WriteMemory port v]))).flatten =
      gives (Wire.take w).2 (List.replicate n v) := by
    have : shownAt port (byteStores [.WriteMemory port v]) = [v] := by simp [shownAt, byteStores]
    rw [this, List.flatten_replicate_singleton]
    rfl
  have g4 : (⟨mem, port, port⟩ : Console).keep (byteStores [.WriteMemory port v]) = ⟨mem, port, port⟩ := by
    simp [Console.keep, byteStores, store]
  rw [g3, g4]
  refine talk_one (d := ⟨mem, port, port⟩) (.JpNonV0Indexed ⟨BitVec.ofNat 16 p⟩) (q := p + 4) rfl (by omega)
    (f 4 (by omega)) (f 5 (by omega)) (by show (BitVec.ofNat 16 p).toNat < 4096; rw [toNat_ofNat_lt (by omega)]; omega)
    (by rw [c2]; simp [encode, nnn]; omega) rfl
    (c' := onBus (echoing c v p) ⟨(⟨mem, port, port⟩ : Console).seen (gives (Wire.take w).2 (List.replicate n v))⟩) ?_
    (j := 0) rfl (by omega) ?_
  · show Except.ok { onBus (echoing c v (p + 4)) _ with pc := (BitVec.ofNat 16 p - 2) + 2 } = _
    rw [BitVec.sub_add_cancel]
    rfl
  have g5 : ∀ w' : W, gives (takes 0 w') (List.replicate n (shownAt port (byteStores []))).flatten = w' := by
    intro w'; simp [byteStores, shownAt, gives, takes]
  have g6 : (⟨mem, port, port⟩ : Console).keep (byteStores []) = ⟨mem, port, port⟩ := rfl
  exact (by
    have := h
    rw [← g5 (gives (Wire.take w).2 (List.replicate n v)), ← g6] at this
    exact this)

theorem echo_talks {n k : Nat} (hcode : CodeAt mem p (echo p)) (hfree : ∀ j < 6, word (p + j) ≠ port)
    (hi : c.i = port) (xs rest out : List Byte) (u : Byte) :
    Chip8Talks b env n (3 * xs.length) k (echoing c u p, (⟨mem, port, port⟩ : Console), (⟨xs ++ rest, out⟩ : Line))
      (echoing c (xs.getLastD u) p, ⟨mem, port, port⟩, ⟨rest, out ++ xs.flatMap (List.replicate n)⟩) := by
  induction xs generalizing out u k with
  | nil =>
    simp only [List.flatMap_nil, List.append_nil, List.nil_append, List.length_nil, Nat.mul_zero]
    exact .stop _ _
  | cons x xs ih =>
    have e : 3 * (x :: xs).length = 3 * xs.length + 3 := by simp only [List.length_cons]; omega
    rw [e]
    refine echo_round hcode hfree hi ?_
    have g : ∀ (vs : List Byte) (w : Line), gives w vs = { w with output := w.output ++ vs } := by
      intro vs
      induction vs with
      | nil => intro w; simp [gives]
      | cons v vs ih =>
        intro w
        have : gives w (v :: vs) = gives (Wire.give w v) vs := rfl
        rw [this, ih]
        simp [Wire.give]
    have l : (x :: xs).getLastD u = xs.getLastD x := List.getLastD_cons ..
    rw [g, l]
    simp only [List.flatMap_cons, ← List.append_assoc]
    exact ih (k := k + 3) (out ++ List.replicate n x) x

/-- A CHIP-8 program that gives back every byte it takes: after three instructions for each byte, exactly these
bytes are taken and each of them has been printed twice. -/
theorem C138_chip8_echo_partial (hclock : ∀ k, (env k).iterAt = (env k).foldAt) (hcode : CodeAt mem p (echo p))
    (hfree : ∀ j < 6, word (p + j) ≠ port) (hi : c.i = port) (hpc : c.pc = word p) (xs rest out : List Byte) :
    ∃ v, exec b (Chip8.Live.run b env (onBus c .own) (3 * xs.length))
      (atStart (⟨mem, port, port⟩ : Console) (⟨xs ++ rest, out⟩ : Line)) =
      (.ok (.ready (setV (onBus c .own) .V0 v)), atStart ⟨mem, port, port⟩
        ⟨rest, out ++ xs.flatMap fun v => [v, v]⟩) := by
  have e : ∀ v, echoing c v p = setV c .V0 v := by
    intro v
    unfold echoing setV
    rw [← show c.pc = BitVec.ofNat 16 p from hpc]
  have ec : c = setV c .V0 (V c .V0) := by
    unfold setV V
    simp only [num]
    have : c.gp_registers.setIfInBounds 0 (c.gp_registers[0]?.getD 0) = c.gp_registers := by
      apply Vector.ext
      intro k hk
      rw [Vector.getElem_setIfInBounds]
      split
      · rename_i h; subst h; simp
      · rfl
    rw [this]
  have h := echo_talks (b := b) (env := env) (n := 2) (k := 0) hcode hfree hi xs rest out (V c .V0)
  rw [e, e, ← ec] at h
  exact ⟨_, C138_chip8_partial hclock h⟩

end

/-! ### Concrete cases -/

/-- `echo` at 0x200. -/
def echoRam : Mem := fun a =>
  if a = 0x200 then 0xf0 else if a = 0x201 then 0x65 else if a = 0x202 then 0xf0 else if a = 0x203 then 0x55
  else if a = 0x204 then 0x12 else 0

theorem echoRam_code : CodeAt echoRam 0x200 (echo 0x200) := by
  refine ⟨by decide, fun i w h => ?_⟩
  rcases i with _ | _ | _ | i
  · cases h; decide +kernel
  · cases h; decide +kernel
  · cases h; decide +kernel
  · cases h

/-- The hypotheses of `C138_chip8_echo_partial`: "ok" is printed as "ookk". -/
example (rest out : List Byte) : ∃ v, exec .debug
    (Chip8.Live.run .debug (fun k => { rand := 0, readAt := k, iterAt := k, foldAt := k }) (onBus sample .own) 6)
    (atStart (⟨echoRam, 0x300, 0x300⟩ : Console) (⟨[0x6f, 0x6b] ++ rest, out⟩ : Line)) =
    (.ok (.ready (setV (onBus sample .own) .V0 v)), atStart ⟨echoRam, 0x300, 0x300⟩
      ⟨rest, out ++ [0x6f, 0x6f, 0x6b, 0x6b]⟩) :=
  C138_chip8_echo_partial (c := onBus sample ()) (fun _ => rfl)
    echoRam_code (by decide) rfl rfl [0x6f, 0x6b] rest out

/-- The hypotheses of `C138_chip8_once_partial`: with a lamp at the port, every byte taken is shown. -/
example (v u l : Byte) (rest : List Byte) : exec .debug
    (Chip8.Live.run .debug (fun k => { rand := 0, readAt := k, iterAt := k, foldAt := k })
      (onBus (echoing (onBus sample ()) u 0x200) .own) 3)
    (atStart (⟨echoRam, 0x300, 0x300⟩ : Console) (⟨v :: rest, l⟩ : Lamp)) =
    (.ok (.ready (onBus (echoing (onBus sample ()) v 0x200) .own)), atStart ⟨echoRam, 0x300, 0x300⟩ ⟨rest, v⟩) :=
  C138_chip8_once_partial (fun _ => rfl) Mos.lamp_again
    (echo_round (m := 0) echoRam_code (by decide) rfl (.stop _ _))

end Verif.Props.Chip8
