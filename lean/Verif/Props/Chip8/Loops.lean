import Verif.Props.Chip8.Frame
import Verif.Props.Chip8.Run
import Verif.Props.Chip8.Reference

/-!
# C87: two loops of CHIP-8 programs, for all inputs and all clocks
-/

namespace Verif.Props.Chip8

open Verif Verif.Chip8 Verif.Spec.Chip8
open Verif.Mos (FlatRam flatRam_coherent)
open Verif.Spec.Mos (Mem BusView)

/-- The words `ws` lie one after the other from the address `p` on, within the 4K of CHIP-8. -/
def CodeAt (mem : Mem) (p : Nat) (ws : List Nat) : Prop :=
  p + 2 * ws.length ≤ 4096 ∧ ∀ i w, ws[i]? = some w → wordAt mem (BitVec.ofNat 16 (p + 2 * i)) = w

/-- `p: LD Vx, DT; SE Vx, 0; JP p`: wait for the delay timer. -/
def waitLoop (p : Nat) (x : GpRegisters) : List Nat :=
  [0xF007 + num x * 0x100, 0x3000 + num x * 0x100, 0x1000 + p]

/-- `p: ADD Vy, kk; ADD Vx, 0xFF; SE Vx, 0; JP p`: add `kk` to Vy as many times as Vx says. -/
def countLoop (p : Nat) (x y : GpRegisters) (kk : Byte) : List Nat :=
  [0x7000 + num y * 0x100 + kk.toNat, 0x70FF + num x * 0x100, 0x3000 + num x * 0x100, 0x1000 + p]

section
variable {B R : Type} [Addressable B] {b : Build} {env : Nat → Env} {c d : Chip8 B R} {mem : Mem}
  {p : Nat} {x y : GpRegisters} {kk : Byte} {op : Opcode}

/-- One iteration of the loop of `run`, when the instant of the fold does not matter. -/
theorem loop_step {k : Nat} (h : ∀ t, StepsTo b { env k with foldAt := t } c d) (n : Nat) :
    runLoop b env (n + 1) k c c = runLoop b env n (k + 1) d d := by
  have h1 := h (env k).foldAt
  have h2 := h (env k).iterAt
  unfold StepsTo at h1 h2
  rw [run_one, next_foldAt] at h1 h2
  conv => lhs; unfold runLoop
  cases hn : next b (env k) c with
  | error p => rw [hn] at h1; cases h1
  | ok z =>
    obtain ⟨mcs, it⟩ := z
    rw [hn] at h1 h2
    simp only [Res.ok_bind] at h1 h2
    rw [Res.ok_bind]
    cases h3 : executeAll b (env k).foldAt c mcs with
    | error p => rw [h3] at h1; cases h1
    | ok c₁ =>
      cases h4 : executeAll b (env k).iterAt c mcs with
      | error p => rw [h4] at h2; cases h2
      | ok c₂ =>
        rw [h3] at h1
        rw [h4] at h2
        cases h1
        cases h2
        have : it = d := by
          unfold next at hn
          cases hf : fetch b c with
          | error p => rw [hf] at hn; cases hn
          | ok ops =>
            rw [hf] at hn
            simp only [Res.ok_bind] at hn
            cases hg : generate b (env k) c ops with
            | error p => rw [hg] at hn; cases hn
            | ok ms =>
              rw [hg] at hn
              simp only [Res.ok_bind] at hn
              cases he : executeAll b (env k).iterAt c (ms ++ [.Inc16bitRegister .ProgramCounter 2]) with
              | error p => rw [he] at hn; cases hn
              | ok z =>
                rw [he] at hn
                cases hn
                rw [h4] at he
                exact (Except.ok.inj he).symm
        rw [this]
        show (executeAll b (env k).foldAt c mcs >>= fun cpu => runLoop b env n (k + 1) d cpu) = _
        rw [h3, Res.ok_bind]

/-- One instruction of a program that lies at `p`: it neither writes memory nor sets a timer. -/
theorem code_step {k i : Nat} {ws : List Nat} (hv : BusView b c.address_space mem)
    (hcode : CodeAt mem p ws) (hpc : c.pc = BitVec.ofNat 16 (p + 2 * i))
    (hi : ws[i]? = some (encode op)) (hval : Valid op) (hr : Runs b c op) (hn : writes c op = [])
    (hw : ¬(op = .Ret ∨ ∃ a, op = .Call a))
    (ht : ∀ t, after { env k with foldAt := t } mem c op = after (env k) mem c op) (n : Nat) :
    runLoop b env (n + 1) k c c =
      runLoop b env n (k + 1) (after (env k) mem c op) (after (env k) mem c op) := by
  have hlt : i < ws.length := by
    rw [List.getElem?_eq_some_iff] at hi
    exact hi.1
  have hat : At b c op := by
    refine (C40_fetch hv ?_ op).2 ⟨hval, ?_⟩
    · have := hcode.1
      rw [hpc, BitVec.toNat_ofNat]
      omega
    · rw [hpc]
      exact hcode.2 _ _ hi
  refine loop_step (fun t => ?_) n
  rw [← ht t]
  exact step_to hat hr (fun _ => hv) (fun h => absurd h hw) hn

omit [Addressable B] in
theorem setV_setV (c : Chip8 B R) (x : GpRegisters) (u v : Byte) :
    setV (setV c x u) x v = setV c x v := by
  simp [setV]

theorem toNat_ofNat_lt {n : Nat} (h : n < 65536) : (BitVec.ofNat 16 n).toNat = n := by
  rw [BitVec.toNat_ofNat]
  omega

/-- What the delay timer of `c` shows when iteration `k` reads it. -/
def shown (env : Nat → Env) (c : Chip8 B R) (k : Nat) : Byte := timerAt c.dt (env k).readAt

/-- The state in the wait loop. -/
def waiting (c : Chip8 B R) (x : GpRegisters) (v : Byte) (p : Nat) : Chip8 B R :=
  { setV c x v with pc := BitVec.ofNat 16 p }

theorem wait_first (hv : BusView b c.address_space mem) (hcode : CodeAt mem p (waitLoop p x))
    (hx : x ≠ .Vf) (hpc : c.pc = BitVec.ofNat 16 p) (k n : Nat) :
    runLoop b env (n + 1) k c c = runLoop b env n (k + 1) (waiting c x (shown env c k) (p + 2))
      (waiting c x (shown env c k) (p + 2)) := by
  have h1 : p + 2 * 3 ≤ 4096 := hcode.1
  rw [code_step (op := .LdDelayTimerSrcTx x) (i := 0) hv hcode (by simpa using hpc)
    (by simp [waitLoop, encode, xkk]; omega) trivial ⟨hx, fun h => h.2⟩ rfl
    (by rintro (h | ⟨a, h⟩) <;> cases h) (fun _ => rfl)]
  have : after (env k) mem c (.LdDelayTimerSrcTx x) = waiting c x (shown env c k) (p + 2) := by
    unfold waiting shown
    show ({ setV c x _ with pc := BitVec.ofNat 16 (c.pc.toNat + 2) } : Chip8 B R) = _
    rw [hpc, toNat_ofNat_lt (by omega)]
  rw [this]

omit [Addressable B] in
theorem waiting_V (hx : x ≠ .Vf) (v : Byte) (q : Nat) : V (waiting c x v q) x = v := by
  show V (setV c x v) x = v
  rw [V_setV _ hx, if_pos rfl]

theorem wait_second (hv : BusView b c.address_space mem) (hcode : CodeAt mem p (waitLoop p x))
    (hx : x ≠ .Vf) (v : Byte) (k n : Nat) :
    runLoop b env (n + 1) k (waiting c x v (p + 2)) (waiting c x v (p + 2)) =
      runLoop b env n (k + 1) (waiting c x v (if v = 0 then p + 6 else p + 4))
        (waiting c x v (if v = 0 then p + 6 else p + 4)) := by
  have h1 : p + 2 * 3 ≤ 4096 := hcode.1
  rw [code_step (op := .SeImmediate x 0) (i := 1) (c := waiting c x v (p + 2)) hv hcode rfl
    (by simp [waitLoop, encode, xkk]) trivial ⟨hx, fun h => h.2⟩ rfl
    (by rintro (h | ⟨a, h⟩) <;> cases h) (fun _ => rfl)]
  have : after (env k) mem (waiting c x v (p + 2)) (.SeImmediate x 0) =
      waiting c x v (if v = 0 then p + 6 else p + 4) := by
    show ({ setV c x v with pc := BitVec.ofNat 16 ((BitVec.ofNat 16 (p + 2)).toNat +
      if V (waiting c x v (p + 2)) x = 0 then 4 else 2) } : Chip8 B R) = _
    rw [waiting_V hx, toNat_ofNat_lt (by omega)]
    unfold waiting
    split <;> rfl
  rw [this]

theorem wait_third (hv : BusView b c.address_space mem) (hcode : CodeAt mem p (waitLoop p x))
    (v : Byte) (k n : Nat) :
    runLoop b env (n + 1) k (waiting c x v (p + 4)) (waiting c x v (p + 4)) =
      runLoop b env n (k + 1) (waiting c x v p) (waiting c x v p) := by
  have h1 : p + 2 * 3 ≤ 4096 := hcode.1
  rw [code_step (op := .JpNonV0Indexed ⟨BitVec.ofNat 16 p⟩) (i := 2) (c := waiting c x v (p + 4)) hv
    hcode rfl (by simp [waitLoop, encode, nnn]; omega)
    (by show (BitVec.ofNat 16 p).toNat < 4096; rw [toNat_ofNat_lt (by omega)]; omega)
    ⟨fun h => h, fun h => h.2⟩ rfl (by rintro (h | ⟨a, h⟩) <;> cases h) (fun _ => rfl)]
  rfl

theorem wait_rounds (hv : BusView b c.address_space mem) (hcode : CodeAt mem p (waitLoop p x))
    (hx : x ≠ .Vf) (hpc : c.pc = BitVec.ofNat 16 p) (m : Nat)
    (hm : ∀ j < m, shown env c (3 * j) ≠ 0) (n : Nat) :
    ∃ d, (d = c ∨ ∃ v, d = waiting c x v p) ∧ (m ≠ 0 → d = waiting c x (shown env c (3 * (m - 1))) p) ∧
      runLoop b env (3 * m + n) 0 c c = runLoop b env n (3 * m) d d := by
  induction m generalizing n with
  | zero => exact ⟨c, .inl rfl, fun h => absurd rfl h, by rw [Nat.mul_zero, Nat.zero_add]⟩
  | succ m ih =>
    obtain ⟨d, h1, -, h3⟩ := ih (fun j hj => hm j (by omega)) (n + 3)
    have hdv : BusView b d.address_space mem := by
      rcases h1 with rfl | ⟨v, rfl⟩ <;> exact hv
    have hdp : d.pc = BitVec.ofNat 16 p := by
      rcases h1 with rfl | ⟨v, rfl⟩
      · exact hpc
      · rfl
    have hsh : shown env d (3 * m) = shown env c (3 * m) := by
      rcases h1 with rfl | ⟨v, rfl⟩ <;> rfl
    have hwt : ∀ w q, waiting d x w q = waiting c x w q := by
      intro w q
      rcases h1 with rfl | ⟨v, rfl⟩
      · rfl
      · simp [waiting, setV]
    refine ⟨waiting c x (shown env c (3 * m)) p, .inr ⟨_, rfl⟩, fun _ => rfl, ?_⟩
    rw [show 3 * (m + 1) + n = 3 * m + (n + 3) by omega, h3, wait_first hdv hcode hx hdp, hsh, hwt,
      wait_second hv hcode hx, if_neg (hm m (by omega)), wait_third hv hcode,
      show 3 * m + 1 + 1 + 1 = 3 * (m + 1) by omega]

/-- C87, the wait loop leaves: when the timer is first read as 0 by its m-th reading (from 0), the
loop is left after 3m + 2 instructions with Vx = 0 and nothing else changed, whatever the timer
showed before and however the clock moves. -/
theorem C87_wait_leaves (hv : BusView b c.address_space mem) (hcode : CodeAt mem p (waitLoop p x))
    (hx : x ≠ .Vf) (hpc : c.pc = BitVec.ofNat 16 p) {m : Nat}
    (hm : ∀ j < m, timerAt c.dt (env (3 * j)).readAt ≠ 0)
    (h0 : timerAt c.dt (env (3 * m)).readAt = 0) :
    run b env c (3 * m + 2) = .ok (.ready { setV c x 0 with pc := BitVec.ofNat 16 (p + 6) }) := by
  obtain ⟨d, h1, -, h3⟩ := wait_rounds hv hcode hx hpc m hm 2
  have hdv : BusView b d.address_space mem := by
    rcases h1 with rfl | ⟨v, rfl⟩ <;> exact hv
  have hdp : d.pc = BitVec.ofNat 16 p := by
    rcases h1 with rfl | ⟨v, rfl⟩
    · exact hpc
    · rfl
  have hsh : shown env d (3 * m) = 0 := by
    rcases h1 with rfl | ⟨v, rfl⟩ <;> exact h0
  have hwt : ∀ w q, waiting d x w q = waiting c x w q := by
    intro w q
    rcases h1 with rfl | ⟨v, rfl⟩
    · rfl
    · simp [waiting, setV]
  unfold run
  rw [h3, wait_first hdv hcode hx hdp, hsh, hwt, wait_second hv hcode hx, if_pos rfl]
  rfl

/-- C87, the wait loop stays: as long as no reading shows 0 the program counter is in the loop, at the
instruction that follows from the number of instructions, and only Vx changes. -/
theorem C87_wait_stays (hv : BusView b c.address_space mem) (hcode : CodeAt mem p (waitLoop p x))
    (hx : x ≠ .Vf) (hpc : c.pc = BitVec.ofNat 16 p) (n : Nat)
    (hn : ∀ j, 3 * j < n → timerAt c.dt (env (3 * j)).readAt ≠ 0) :
    ∃ v, run b env c n =
      .ok (.ready { setV c x v with pc := BitVec.ofNat 16 (p + 2 * (n % 3)) }) := by
  have hself : ∃ v, c = waiting c x v p := by
    refine ⟨V c x, ?_⟩
    unfold waiting setV V
    have hlt := num_lt_15 hx
    have : c.gp_registers.setIfInBounds (num x) (c.gp_registers[num x]?.getD 0) = c.gp_registers := by
      apply Vector.ext
      intro i hi
      rw [Vector.getElem_setIfInBounds]
      split
      · rename_i h
        subst h
        simp [hi]
      · rfl
    rw [this, ← hpc]
  obtain ⟨m, r, hr, rfl⟩ : ∃ m r, r < 3 ∧ n = 3 * m + r := ⟨n / 3, n % 3, by omega, by omega⟩
  obtain ⟨d, h1, -, h3⟩ := wait_rounds hv hcode hx hpc m (fun j hj => hn j (by omega)) r
  have hd : ∃ v, d = waiting c x v p := by
    rcases h1 with rfl | h
    · exact hself
    · exact h
  obtain ⟨v, rfl⟩ := hd
  have hmod : (3 * m + r) % 3 = r := by omega
  have hwt : ∀ w q, waiting (waiting c x v p) x w q = waiting c x w q := by
    intro w q
    simp [waiting, setV]
  unfold run
  rw [h3, hmod]
  rcases (show r = 0 ∨ r = 1 ∨ r = 2 by omega) with rfl | rfl | rfl
  · exact ⟨v, rfl⟩
  · rw [wait_first (c := waiting c x v p) hv hcode hx rfl, hwt]
    exact ⟨_, rfl⟩
  · rw [wait_first (c := waiting c x v p) hv hcode hx rfl, hwt, wait_second hv hcode hx,
      if_neg (show shown env (waiting c x v p) (3 * m) ≠ 0 from hn m (by omega))]
    exact ⟨_, rfl⟩

/-- C87, the wait loop ends: if some reading happens a timer value of seconds after the timer was
written, the loop is left at that reading or before. -/
theorem C87_wait_ends (hv : BusView b c.address_space mem) (hcode : CodeAt mem p (waitLoop p x))
    (hx : x ≠ .Vf) (hpc : c.pc = BitVec.ofNat 16 p) {m : Nat}
    (hm : c.dt.written_at + c.dt.inner.toNat * 1000000000 ≤ (env (3 * m)).readAt) :
    ∃ j ≤ m, run b env c (3 * j + 2) =
      .ok (.ready { setV c x 0 with pc := BitVec.ofNat 16 (p + 6) }) := by
  have h0 : timerAt c.dt (env (3 * m)).readAt = 0 := by
    unfold timerAt
    have : c.dt.inner.toNat ≤ ((env (3 * m)).readAt - c.dt.written_at) / 1000000000 := by
      rw [Nat.le_div_iff_mul_le (by omega)]
      exact Nat.le_sub_of_add_le' hm
    rw [Nat.sub_eq_zero_of_le this]
    rfl
  have hfirst : ∀ m, timerAt c.dt (env (3 * m)).readAt = 0 → ∃ j ≤ m,
      timerAt c.dt (env (3 * j)).readAt = 0 ∧ ∀ i < j, timerAt c.dt (env (3 * i)).readAt ≠ 0 := by
    intro m
    induction m using Nat.strongRecOn with
    | ind m ih =>
      intro h
      by_cases hex : ∃ i, i < m ∧ timerAt c.dt (env (3 * i)).readAt = 0
      · obtain ⟨i, hi, h2⟩ := hex
        obtain ⟨j, h3, h4⟩ := ih i hi h2
        exact ⟨j, by omega, h4⟩
      · exact ⟨m, Nat.le_refl _, h, fun i hi h2 => hex ⟨i, hi, h2⟩⟩
  obtain ⟨j, h1, h2, h3⟩ := hfirst m h0
  exact ⟨j, h1, C87_wait_leaves hv hcode hx hpc h3 h2⟩

/-- The state in the counting loop: Vx, Vy and the program counter. -/
def counting (c : Chip8 B R) (x y : GpRegisters) (u v : Byte) (q : Nat) : Chip8 B R :=
  { setV (setV c x u) y v with pc := BitVec.ofNat 16 q }

omit [Addressable B] in
theorem counting_Vx (hx : x ≠ .Vf) (hy : y ≠ .Vf) (hxy : x ≠ y) (u v : Byte) (q : Nat) :
    V (counting c x y u v q) x = u := by
  show V (setV (setV c x u) y v) x = u
  rw [V_setV _ hy, if_neg hxy, V_setV _ hx, if_pos rfl]

omit [Addressable B] in
theorem counting_Vy (hy : y ≠ .Vf) (u v : Byte) (q : Nat) : V (counting c x y u v q) y = v := by
  show V (setV (setV c x u) y v) y = v
  rw [V_setV _ hy, if_pos rfl]

omit [Addressable B] in
theorem setV_comm (hxy : x ≠ y) (u v : Byte) : setV (setV c x u) y v = setV (setV c y v) x u := by
  unfold setV
  simp only
  congr 1
  apply Vector.ext
  intro i hi
  simp only [Vector.getElem_setIfInBounds]
  have : num x ≠ num y := fun h => hxy (num_inj h)
  split <;> split <;> first | rfl | omega

theorem count_round (hv : BusView b c.address_space mem) (hcode : CodeAt mem p (countLoop p x y kk))
    (hx : x ≠ .Vf) (hy : y ≠ .Vf) (hxy : x ≠ y) (u v : Byte) (k n : Nat) :
    runLoop b env (n + 3) k (counting c x y u v p) (counting c x y u v p) =
      runLoop b env n (k + 3) (counting c x y (u - 1) (v + kk) (if u = 1 then p + 8 else p + 6))
        (counting c x y (u - 1) (v + kk) (if u = 1 then p + 8 else p + 6)) := by
  have h1 : p + 2 * 4 ≤ 4096 := hcode.1
  have hb := kk.isLt
  rw [code_step (op := .AddImmediate y kk) (i := 0) (c := counting c x y u v p) hv hcode rfl
    (by simp [countLoop, encode, xkk]) trivial ⟨hy, fun h => h.2⟩ rfl
    (by rintro (h | ⟨a, h⟩) <;> cases h) (fun _ => rfl)]
  have e1 : after (env k) mem (counting c x y u v p) (.AddImmediate y kk) =
      counting c x y u (v + kk) (p + 2) := by
    show ({ setV (counting c x y u v p) y (V (counting c x y u v p) y + kk) with
      pc := BitVec.ofNat 16 ((BitVec.ofNat 16 p).toNat + 2) } : Chip8 B R) = _
    rw [counting_Vy hy, toNat_ofNat_lt (by omega)]
    simp [counting, setV]
  rw [e1, code_step (op := .AddImmediate x 0xFF) (i := 1) (c := counting c x y u (v + kk) (p + 2)) hv
    hcode rfl (by simp [countLoop, encode, xkk]; omega) trivial ⟨hx, fun h => h.2⟩ rfl
    (by rintro (h | ⟨a, h⟩) <;> cases h) (fun _ => rfl)]
  have e2 : after (env (k + 1)) mem (counting c x y u (v + kk) (p + 2)) (.AddImmediate x 0xFF) =
      counting c x y (u - 1) (v + kk) (p + 4) := by
    show ({ setV (setV (setV c x u) y (v + kk)) x (V (counting c x y u (v + kk) (p + 2)) x + 0xFF)
      with pc := BitVec.ofNat 16 ((BitVec.ofNat 16 (p + 2)).toNat + 2) } : Chip8 B R) = _
    rw [counting_Vx hx hy hxy, toNat_ofNat_lt (by omega), setV_comm hxy, setV_setV, ← setV_comm hxy]
    have : u + 0xFF = u - 1 := by
      rw [BitVec.sub_eq_add_neg]; rfl
    rw [this]
    rfl
  rw [e2, code_step (op := .SeImmediate x 0) (i := 2) (c := counting c x y (u - 1) (v + kk) (p + 4))
    hv hcode rfl (by simp [countLoop, encode, xkk]) trivial ⟨hx, fun h => h.2⟩ rfl
    (by rintro (h | ⟨a, h⟩) <;> cases h) (fun _ => rfl)]
  have e3 : after (env (k + 1 + 1)) mem (counting c x y (u - 1) (v + kk) (p + 4)) (.SeImmediate x 0) =
      counting c x y (u - 1) (v + kk) (if u = 1 then p + 8 else p + 6) := by
    show ({ setV (setV c x (u - 1)) y (v + kk) with
      pc := BitVec.ofNat 16 ((BitVec.ofNat 16 (p + 4)).toNat +
        if V (counting c x y (u - 1) (v + kk) (p + 4)) x = 0 then 4 else 2) } : Chip8 B R) = _
    rw [counting_Vx hx hy hxy, toNat_ofNat_lt (by omega)]
    unfold counting
    by_cases hu : u = 1
    · subst hu
      rfl
    · have : u - 1 ≠ 0 := fun h => hu (by
        have := congrArg (· + 1#8) h
        simpa [BitVec.sub_add_cancel] using this)
      rw [if_neg hu, if_neg this]
  rw [e3]

theorem count_back (hv : BusView b c.address_space mem) (hcode : CodeAt mem p (countLoop p x y kk))
    (u v : Byte) (k n : Nat) :
    runLoop b env (n + 1) k (counting c x y u v (p + 6)) (counting c x y u v (p + 6)) =
      runLoop b env n (k + 1) (counting c x y u v p) (counting c x y u v p) := by
  have h1 : p + 2 * 4 ≤ 4096 := hcode.1
  rw [code_step (op := .JpNonV0Indexed ⟨BitVec.ofNat 16 p⟩) (i := 3)
    (c := counting c x y u v (p + 6)) hv hcode rfl (by simp [countLoop, encode, nnn]; omega)
    (by show (BitVec.ofNat 16 p).toNat < 4096; rw [toNat_ofNat_lt (by omega)]; omega)
    ⟨fun h => h, fun h => h.2⟩ rfl (by rintro (h | ⟨a, h⟩) <;> cases h) (fun _ => rfl)]
  rfl

theorem count_rounds (hv : BusView b c.address_space mem) (hcode : CodeAt mem p (countLoop p x y kk))
    (hx : x ≠ .Vf) (hy : y ≠ .Vf) (hxy : x ≠ y) (m : Nat) :
    ∀ (u v : Byte) (k : Nat), (u.toNat + 255) % 256 = m →
      runLoop b env (4 * m + 3) k (counting c x y u v p) (counting c x y u v p) =
        .ok (counting c x y 0 (v + BitVec.ofNat 8 ((m + 1) * kk.toNat)) (p + 8)) := by
  induction m with
  | zero =>
    intro u v k hm
    have hu : u = 1 := BitVec.eq_of_toNat_eq (by
      have := u.isLt
      show u.toNat = 1
      omega)
    subst hu
    rw [show 4 * 0 + 3 = 0 + 3 by rfl, count_round hv hcode hx hy hxy, if_pos rfl]
    have : BitVec.ofNat 8 ((0 + 1) * kk.toNat) = kk := by
      apply BitVec.eq_of_toNat_eq
      rw [BitVec.toNat_ofNat]
      have := kk.isLt
      omega
    rw [this]
    rfl
  | succ m ih =>
    intro u v k hm
    have hu : u ≠ 1 := by
      rintro rfl
      have : ((1 : Byte).toNat + 255) % 256 = 0 := by decide
      omega
    have hlt := u.isLt
    have hu1 : (u - 1).toNat = (u.toNat + 255) % 256 := by
      rw [BitVec.toNat_sub]
      show (256 - 1 + u.toNat) % 256 = _
      omega
    rw [show 4 * (m + 1) + 3 = (4 * m + 3 + 1) + 3 by omega, count_round hv hcode hx hy hxy,
      if_neg hu, count_back hv hcode, ih _ _ _ (by rw [hu1]; omega)]
    congr 2
    apply BitVec.eq_of_toNat_eq
    simp only [BitVec.toNat_add, BitVec.toNat_ofNat, Nat.add_mul]
    omega

/-- How often the counting loop runs for the value `u` of the counter: 0 counts as 256. -/
def times (u : Byte) : Nat := if u = 0 then 256 else u.toNat

/-- C87, the counting loop: after 4t - 1 instructions, t being Vx or 256 for 0, the loop is left with
Vx = 0 and Vy increased by t · kk modulo 256; nothing else changes, and the clock plays no part. -/
theorem C87_count (hv : BusView b c.address_space mem) (hcode : CodeAt mem p (countLoop p x y kk))
    (hx : x ≠ .Vf) (hy : y ≠ .Vf) (hxy : x ≠ y) (hpc : c.pc = BitVec.ofNat 16 p) :
    run b env c (4 * times (V c x) - 1) = .ok (.ready
      { setV (setV c x 0) y (V c y + BitVec.ofNat 8 (times (V c x) * kk.toNat)) with
        pc := BitVec.ofNat 16 (p + 8) }) := by
  have hself : counting c x y (V c x) (V c y) p = c := by
    have hkeep : ∀ (d : Chip8 B R) (z : GpRegisters), z ≠ .Vf → setV d z (V d z) = d := by
      intro d z hz
      have hlt := num_lt_15 hz
      unfold setV V
      have : d.gp_registers.setIfInBounds (num z) (d.gp_registers[num z]?.getD 0) = d.gp_registers := by
        apply Vector.ext
        intro i hi
        rw [Vector.getElem_setIfInBounds]
        split
        · rename_i h
          subst h
          simp [hi]
        · rfl
      rw [this]
    unfold counting
    rw [hkeep c x hx, hkeep c y hy, ← hpc]
  have htn : times (V c x) = ((V c x).toNat + 255) % 256 + 1 := by
    unfold times
    have := (V c x).isLt
    split
    · rename_i h
      rw [h]
      rfl
    · rename_i h
      have : (V c x).toNat ≠ 0 := fun h' => h (BitVec.eq_of_toNat_eq h')
      omega
  have := count_rounds (env := env) hv hcode hx hy hxy _ (V c x) (V c y) 0 rfl
  rw [hself] at this
  unfold run
  rw [htn, show 4 * (((V c x).toNat + 255) % 256 + 1) - 1 = 4 * (((V c x).toNat + 255) % 256) + 3 by
    omega, this]
  rfl

end

/-! ### Concrete cases -/

/-- A machine with the wait loop for V3 at 0x200, the timer set to 2 at the instant 0. -/
def waitSample : Chip8 FlatRam Unit :=
  { sample with
    dt := ⟨0, 2⟩
    address_space := ⟨fun a =>
      if a = 0x200 then 0xf3 else if a = 0x201 then 0x07 else if a = 0x202 then 0x33 else
      if a = 0x203 then 0 else if a = 0x204 then 0x12 else 0⟩ }

theorem waitSample_code : CodeAt waitSample.address_space.mem 0x200 (waitLoop 0x200 .V3) := by
  refine ⟨by decide, fun i w h => ?_⟩
  match i with
  | 0 => cases h; decide +kernel
  | 1 => cases h; decide +kernel
  | 2 => cases h; decide +kernel
  | n + 3 => cases h

/-- With a clock of half a second per instruction the loop needs eight instructions: the readings
show 2, 1 and 0 at the instants 0, 1.5 s and 3 s. -/
example : run .debug (fun k => ⟨0, k * 500000000, 0, 7⟩) waitSample 8 =
    .ok (.ready { setV waitSample .V3 0 with pc := 0x206 }) :=
  C87_wait_leaves (m := 2) (view _ _) waitSample_code (by decide) (by decide +kernel)
    (by
      intro j hj
      match j with
      | 0 => decide +kernel
      | 1 => decide +kernel
      | n + 2 => omega)
    (by decide +kernel)

/-- With a clock that stands still it never ends. -/
example (n : Nat) : ∃ v, run .debug (fun _ => ⟨0, 0, 0, 7⟩) waitSample n =
    .ok (.ready { setV waitSample .V3 v with pc := BitVec.ofNat 16 (0x200 + 2 * (n % 3)) }) :=
  C87_wait_stays (view _ _) waitSample_code (by decide) (by decide +kernel) n
    fun _ _ => by decide +kernel

/-- A machine with the counting loop for V2 and V5 at 0x200: V5 += 7, V2 times. -/
def countSample : Chip8 FlatRam Unit :=
  { setV (setV sample .V2 50) .V5 3 with
    address_space := ⟨fun a =>
      if a = 0x200 then 0x75 else if a = 0x201 then 7 else if a = 0x202 then 0x72 else
      if a = 0x203 then 0xff else if a = 0x204 then 0x32 else if a = 0x206 then 0x12 else 0⟩ }

theorem countSample_code : CodeAt countSample.address_space.mem 0x200 (countLoop 0x200 .V2 .V5 7) := by
  refine ⟨by decide, fun i w h => ?_⟩
  match i with
  | 0 => cases h; decide +kernel
  | 1 => cases h; decide +kernel
  | 2 => cases h; decide +kernel
  | 3 => cases h; decide +kernel
  | n + 4 => cases h

/-- 3 + 50 · 7 = 353 = 256 + 97, in 199 instructions. -/
example : run .debug (fun _ => ⟨0, 0, 0, 0⟩) countSample 199 = .ok (.ready
    { setV (setV countSample .V2 0) .V5 97 with pc := 0x208 }) :=
  C87_count (x := .V2) (y := .V5) (view _ _) countSample_code (by decide) (by decide) (by decide)
    (by decide +kernel)

end Verif.Props.Chip8
