import Verif.Spec.Chip8Time
import Verif.Props.Chip8.Run
import Verif.Proofs.Chip8Sample

/-!
# C112: all that counts of a timer is what it shows

The CHIP-8 stores when a timer was set and to what. A program cannot tell two machines apart whose
timers show the same, and shifting the clock together with the timers shifts everything else along.
-/

namespace Verif.Props.Chip8

open Verif Verif.Chip8 Verif.Spec.Chip8
open Verif.Mos (FlatRam)

section
variable {B R : Type} [Addressable B] {b : Build} {t : Instant} {c c' : Chip8 B R} {e : Env}

/-- Both fail alike, or both succeed with machines that differ at most in how the timers are kept. -/
def TimersAlike (b : Build) (t : Instant) (x y : Res (Chip8 B R)) : Prop :=
  (∃ c c', x = .ok c ∧ y = .ok c' ∧ SameTimers b t c c') ∨ ∃ p, x = .error p ∧ y = .error p

omit [Addressable B] in
theorem sameTimers_refl (c : Chip8 B R) : SameTimers b t c c :=
  ⟨rfl, rfl, rfl, rfl, rfl, rfl, rfl, rfl, rfl, fun _ _ => rfl, fun _ _ => rfl⟩

omit [Addressable B] in
/-- The second machine is the first one with other timers. -/
theorem sameTimers_eq (h : SameTimers b t c c') : c' = { c with dt := c'.dt, st := c'.st } := by
  obtain ⟨h1, h2, h3, h4, h5, h6, h7, h8, h9, -, -⟩ := h
  cases c'
  simp only at *
  simp only [h1, h2, h3, h4, h5, h6, h7, h8, h9]

theorem fetch_sameTimers (h : SameTimers b t c c') : fetch b c' = fetch b c := by
  rw [sameTimers_eq h]; rfl

theorem generate_sameTimers (h : SameTimers b t c c') (ht : NotBefore t e) (op : Opcode) :
    generate b e c' op = generate b e c op := by
  have hd := h.dt e.readAt ht.1
  rw [sameTimers_eq h]
  generalize c'.dt = d at hd
  generalize c'.st = s
  cases op <;> try rfl
  simp only [generate, genLdFromDelayTimer, hd]

/-- The microcode concerns a timer. -/
def OnTimer : Microcode → Prop
  | .Write8bitRegister (.TimerRegisters _) _ | .Inc8bitRegister (.TimerRegisters _) _ => True
  | _ => False

/-- Microcode that does not concern a timer does the same whatever the timers and the clock. -/
theorem executeMut_timers {mc : Microcode} (hm : ¬ OnTimer mc) (c : Chip8 B R) (now now' : Instant)
    (d s : ClockDecrementing) :
    executeMut b now' { c with dt := d, st := s } mc =
      (executeMut b now c mc).map fun x => { x with dt := d, st := s } := by
  cases mc with
  | Write8bitRegister reg v =>
    cases reg with
    | GpRegisters r =>
      simp only [executeMut, write8]
      cases setGp c.gp_registers r v <;> rfl
    | TimerRegisters r => exact (hm trivial).elim
  | Inc8bitRegister reg v =>
    cases reg with
    | GpRegisters r =>
      simp only [executeMut, inc8, readGpRegister]
      cases c.gp_registers[r.asUsize]? with
      | none => rfl
      | some w =>
        simp only [Res.ok_bind]
        cases setGp c.gp_registers r (w + v) <;> rfl
    | TimerRegisters r => exact (hm trivial).elim
  | WriteMemory a v =>
    simp only [executeMut, writeMemory]
    rcases Addressable.write b c.address_space a v with p | ⟨_ | _, bus⟩ <;> rfl
  | PushStack v =>
    simp only [executeMut, pushStack]
    rcases c.stack.write c.sp.read.toNat v with p | ⟨_ | _, bus⟩ <;> rfl
  | SetDisplayRange x y v =>
    simp only [executeMut, setDisplayRange_eq]
    cases rangeCounts b x y <;> rfl
  | Write16bitRegister r v => cases r <;> rfl
  | Inc16bitRegister r v => cases r <;> rfl
  | _ => rfl

/-- Microcode that does not concern a timer leaves both alone. -/
theorem executeMut_keepsTimers {mc : Microcode} (hm : ¬ OnTimer mc) {now : Instant} {x : Chip8 B R}
    (h : executeMut b now c mc = .ok x) : x.dt = c.dt ∧ x.st = c.st := by
  have h' := executeMut_timers (b := b) hm c now now c.dt c.st
  change executeMut b now c mc = _ at h'
  rw [h] at h'
  have h'' := Except.ok.inj h'
  exact ⟨by rw [h''], by rw [h'']⟩

theorem executeMut_sameTimers (h : SameTimers b t c c') {now : Instant} (ht : t ≤ now) (mc : Microcode) :
    TimersAlike b t (executeMut b now c mc) (executeMut b now c' mc) := by
  by_cases hm : OnTimer mc
  · have hd := h.dt now ht
    have hs := h.st now ht
    have hd' := h.dt
    have hs' := h.st
    rw [sameTimers_eq h]
    generalize c'.dt = d at hd hd'
    generalize c'.st = s at hs hs'
    cases mc with
    | Write8bitRegister reg v =>
      cases reg with
      | GpRegisters r => exact hm.elim
      | TimerRegisters r =>
        cases r with
        | Delay =>
          exact .inl ⟨_, _, rfl, rfl, rfl, rfl, rfl, rfl, rfl, rfl, rfl, rfl, rfl, fun _ _ => rfl, hs'⟩
        | Sound =>
          exact .inl ⟨_, _, rfl, rfl, rfl, rfl, rfl, rfl, rfl, rfl, rfl, rfl, rfl, hd', fun _ _ => rfl⟩
    | Inc8bitRegister reg v =>
      cases reg with
      | GpRegisters r => exact hm.elim
      | TimerRegisters r =>
        cases r with
        | Delay =>
          simp only [executeMut, inc8]
          rw [← hd]
          cases c.dt.read b now with
          | error p => exact .inr ⟨p, rfl, rfl⟩
          | ok w =>
            exact .inl ⟨_, _, rfl, rfl, rfl, rfl, rfl, rfl, rfl, rfl, rfl, rfl, rfl, fun _ _ => rfl, hs'⟩
        | Sound =>
          simp only [executeMut, inc8]
          rw [← hs]
          cases c.st.read b now with
          | error p => exact .inr ⟨p, rfl, rfl⟩
          | ok w =>
            exact .inl ⟨_, _, rfl, rfl, rfl, rfl, rfl, rfl, rfl, rfl, rfl, rfl, rfl, hd', fun _ _ => rfl⟩
    | _ => exact hm.elim
  · rw [sameTimers_eq h, executeMut_timers hm c now now c'.dt c'.st]
    cases hx : executeMut b now c mc with
    | error p => exact .inr ⟨p, rfl, rfl⟩
    | ok x =>
      obtain ⟨h1, h2⟩ := executeMut_keepsTimers hm hx
      refine .inl ⟨x, _, rfl, rfl, rfl, rfl, rfl, rfl, rfl, rfl, rfl, rfl, rfl, ?_, ?_⟩
      · rw [h1]; exact h.dt
      · rw [h2]; exact h.st

theorem executeAll_sameTimers {now : Instant} (ht : t ≤ now) (mcs : List Microcode) :
    ∀ {c c' : Chip8 B R}, SameTimers b t c c' → TimersAlike b t (executeAll b now c mcs) (executeAll b now c' mcs) := by
  induction mcs with
  | nil => intro c c' h; exact .inl ⟨c, c', rfl, rfl, h⟩
  | cons mc mcs ih =>
    intro c c' h
    rcases executeMut_sameTimers h ht mc with ⟨d, d', h1, h2, h3⟩ | ⟨p, h1, h2⟩
    · simp only [executeAll, h1, h2]; exact ih h3
    · exact .inr ⟨p, by simp only [executeAll, h1]; rfl, by simp only [executeAll, h2]; rfl⟩

/-- C112: one instruction of two machines whose timers show the same from `t` on, when the clock is past
`t`: the same panic, or the same microcode and again such machines. -/
theorem C112_next (h : SameTimers b t c c') (ht : NotBefore t e) :
    (∃ p, next b e c = .error p ∧ next b e c' = .error p) ∨
    ∃ mcs d d', next b e c = .ok (mcs, d) ∧ next b e c' = .ok (mcs, d') ∧ SameTimers b t d d' := by
  unfold next
  rw [fetch_sameTimers h]
  cases fetch b c with
  | error p => exact .inl ⟨p, rfl, rfl⟩
  | ok op =>
    simp only [Res.ok_bind, generate_sameTimers h ht op]
    cases generate b e c op with
    | error p => exact .inl ⟨p, rfl, rfl⟩
    | ok mcs =>
      simp only [Res.ok_bind]
      rcases executeAll_sameTimers (now := e.iterAt) ht.2.1 (mcs ++ [.Inc16bitRegister .ProgramCounter 2]) h with
        ⟨d, d', h1, h2, h3⟩ | ⟨p, h1, h2⟩
      · rw [h1, h2]; exact .inr ⟨_, d, d', rfl, rfl, h3⟩
      · rw [h1, h2]; exact .inl ⟨p, rfl, rfl⟩

theorem runLoop_sameTimers {env : Nat → Env} (ht : ∀ k, NotBefore t (env k)) (n : Nat) :
    ∀ (k : Nat) {it it' c c' : Chip8 B R}, SameTimers b t it it' → SameTimers b t c c' →
    TimersAlike b t (runLoop b env n k it c) (runLoop b env n k it' c') := by
  induction n with
  | zero => intro k it it' c c' _ h; exact .inl ⟨c, c', rfl, rfl, h⟩
  | succ n ih =>
    intro k it it' c c' hi h
    simp only [runLoop]
    rcases C112_next hi (ht k) with ⟨p, h1, h2⟩ | ⟨mcs, d, d', h1, h2, h3⟩
    · exact .inr ⟨p, by rw [h1]; rfl, by rw [h2]; rfl⟩
    · rw [h1, h2]
      simp only [Res.ok_bind]
      rcases executeAll_sameTimers (now := (env k).foldAt) (ht k).2.2 mcs h with ⟨x, x', g1, g2, g3⟩ | ⟨p, g1, g2⟩
      · rw [g1, g2]; exact ih (k + 1) h3 g3
      · exact .inr ⟨p, by rw [g1]; rfl, by rw [g2]; rfl⟩

/-- C112: any number of instructions. -/
theorem C112_run (h : SameTimers b t c c') {env : Nat → Env} (ht : ∀ k, NotBefore t (env k)) (n : Nat) :
    (∃ p, Chip8.run b env c n = .error p ∧ Chip8.run b env c' n = .error p) ∨
    ∃ d d', Chip8.run b env c n = .ok (.ready d) ∧ Chip8.run b env c' n = .ok (.ready d') ∧
      SameTimers b t d d' := by
  unfold Chip8.run
  rcases runLoop_sameTimers ht n 0 h h with ⟨d, d', h1, h2, h3⟩ | ⟨p, h1, h2⟩
  · exact .inr ⟨d, d', by rw [h1]; rfl, by rw [h2]; rfl, h3⟩
  · exact .inl ⟨p, by rw [h1]; rfl, by rw [h2]; rfl⟩

/-! ### The clock shifted -/

omit [Addressable B] in
theorem read_later (r : ClockDecrementing) (now : Instant) (d : Nat) :
    ClockDecrementing.read b ⟨r.written_at + d, r.inner⟩ (now + d) = r.read b now := by
  unfold ClockDecrementing.read ClockDecrementing.elapsedSecs
  rw [Nat.add_sub_add_right]

theorem executeMut_later (d : Nat) (now : Instant) (c : Chip8 B R) (mc : Microcode) :
    executeMut b (now + d) (laterCpu d c) mc = (executeMut b now c mc).map (laterCpu d) := by
  by_cases hm : OnTimer mc
  · cases mc with
    | Write8bitRegister reg v =>
      cases reg with
      | GpRegisters r => exact hm.elim
      | TimerRegisters r => cases r <;> rfl
    | Inc8bitRegister reg v =>
      cases reg with
      | GpRegisters r => exact hm.elim
      | TimerRegisters r =>
        cases r with
        | Delay =>
          simp only [executeMut, inc8]
          rw [show (laterCpu d c).dt.read b (now + d) = c.dt.read b now from read_later c.dt now d]
          cases c.dt.read b now <;> rfl
        | Sound =>
          simp only [executeMut, inc8]
          rw [show (laterCpu d c).st.read b (now + d) = c.st.read b now from read_later c.st now d]
          cases c.st.read b now <;> rfl
    | _ => exact hm.elim
  · unfold laterCpu
    rw [executeMut_timers hm c now]
    cases hx : executeMut b now c mc with
    | error p => rfl
    | ok x =>
      obtain ⟨h1, h2⟩ := executeMut_keepsTimers hm hx
      simp only [Except.map, h1, h2]

theorem executeAll_later (d : Nat) (now : Instant) (mcs : List Microcode) :
    ∀ c : Chip8 B R, executeAll b (now + d) (laterCpu d c) mcs = (executeAll b now c mcs).map (laterCpu d) := by
  induction mcs with
  | nil => intro c; rfl
  | cons mc mcs ih =>
    intro c
    simp only [executeAll, executeMut_later]
    cases executeMut b now c mc with
    | error p => rfl
    | ok x => exact ih x

theorem generate_later (d : Nat) (e : Env) (c : Chip8 B R) (op : Opcode) :
    generate b (laterEnv d e) (laterCpu d c) op = generate b e c op := by
  cases op <;> try rfl
  simp only [generate, genLdFromDelayTimer]
  rw [show (laterCpu d c).dt.read b (laterEnv d e).readAt = c.dt.read b e.readAt from read_later c.dt e.readAt d]

/-- C112: if the timers were set `d` later and the clock shows `d` more, an instruction has the same
microcode and the same effect, save that what it stores as the instant of setting a timer is `d` later. -/
theorem C112_later_next (d : Nat) (e : Env) (c : Chip8 B R) :
    next b (laterEnv d e) (laterCpu d c) = (next b e c).map fun x => (x.1, laterCpu d x.2) := by
  unfold next
  rw [show fetch b (laterCpu d c) = fetch b c from rfl]
  cases fetch b c with
  | error p => rfl
  | ok op =>
    simp only [Res.ok_bind, generate_later]
    cases generate b e c op with
    | error p => rfl
    | ok mcs =>
      simp only [Res.ok_bind]
      rw [show (laterEnv d e).iterAt = e.iterAt + d from rfl, executeAll_later]
      cases executeAll b e.iterAt c (mcs ++ [.Inc16bitRegister .ProgramCounter 2]) <;> rfl

theorem runLoop_later (d : Nat) (env : Nat → Env) (n : Nat) : ∀ (k : Nat) (it c : Chip8 B R),
    runLoop b (fun k => laterEnv d (env k)) n k (laterCpu d it) (laterCpu d c) =
      (runLoop b env n k it c).map (laterCpu d) := by
  induction n with
  | zero => intro k it c; rfl
  | succ n ih =>
    intro k it c
    simp only [runLoop, C112_later_next]
    cases next b (env k) it with
    | error p => rfl
    | ok x =>
      simp only [Except.map, Res.ok_bind]
      rw [show (laterEnv d (env k)).foldAt = (env k).foldAt + d from rfl, executeAll_later]
      cases executeAll b (env k).foldAt c x.1 with
      | error p => rfl
      | ok y => exact ih (k + 1) x.2 y

/-- C112: any number of instructions. -/
theorem C112_later_run (d : Nat) (env : Nat → Env) (c : Chip8 B R) (n : Nat) :
    Chip8.run b (fun k => laterEnv d (env k)) (laterCpu d c) n =
      (Chip8.run b env c n).map fun s => .ready (laterCpu d s.unwrap) := by
  unfold Chip8.run
  rw [runLoop_later]
  cases runLoop b env n 0 c c <;> rfl

/-! ### The sound timer -/

theorem executeMut_butSound {mc : Microcode} (hm : NoTimerInc mc) (h : ButSound c c') (now : Instant) :
    (∃ p, executeMut b now c mc = .error p ∧ executeMut b now c' mc = .error p) ∨
    ∃ d d', executeMut b now c mc = .ok d ∧ executeMut b now c' mc = .ok d' ∧ ButSound d d' := by
  obtain ⟨s, rfl⟩ := h
  by_cases ht : OnTimer mc
  · cases mc with
    | Write8bitRegister reg v =>
      cases reg with
      | GpRegisters r => exact ht.elim
      | TimerRegisters r =>
        cases r with
        | Delay => exact .inr ⟨_, _, rfl, rfl, s, rfl⟩
        | Sound => exact .inr ⟨_, _, rfl, rfl, _, rfl⟩
    | Inc8bitRegister reg v =>
      cases reg with
      | GpRegisters r => exact ht.elim
      | TimerRegisters r => exact hm.elim
    | _ => exact ht.elim
  · have h1 := executeMut_timers (b := b) ht c now now c.dt s
    cases hx : executeMut b now c mc with
    | error p => exact .inl ⟨p, rfl, by rw [hx] at h1; exact h1⟩
    | ok x =>
      have h2 := executeMut_keepsTimers ht hx
      refine .inr ⟨x, _, rfl, ?_, s, rfl⟩
      rw [hx] at h1
      rw [← h2.1] at h1
      rw [← h2.1]
      exact h1

theorem executeAll_butSound {mcs : List Microcode} (hm : ∀ mc ∈ mcs, NoTimerInc mc) (now : Instant) :
    ∀ {c c' : Chip8 B R}, ButSound c c' →
    (∃ p, executeAll b now c mcs = .error p ∧ executeAll b now c' mcs = .error p) ∨
    ∃ d d', executeAll b now c mcs = .ok d ∧ executeAll b now c' mcs = .ok d' ∧ ButSound d d' := by
  induction mcs with
  | nil => intro c c' h; exact .inr ⟨c, c', rfl, rfl, h⟩
  | cons mc mcs ih =>
    intro c c' h
    rcases executeMut_butSound (b := b) (hm mc (by simp)) h now with ⟨p, h1, h2⟩ | ⟨d, d', h1, h2, h3⟩
    · exact .inl ⟨p, by simp only [executeAll, h1]; rfl, by simp only [executeAll, h2]; rfl⟩
    · simp only [executeAll, h1, h2]; exact ih (fun m h => hm m (by simp [h])) h3

/-- C112: nothing an instruction does depends on the sound timer: from machines that differ in it alone,
the same panic, or the same microcode and again such machines. -/
theorem C112_sound_next (h : ButSound c c') (e : Env) :
    (∃ p, next b e c = .error p ∧ next b e c' = .error p) ∨
    ∃ mcs d d', next b e c = .ok (mcs, d) ∧ next b e c' = .ok (mcs, d') ∧ ButSound d d' := by
  obtain ⟨s, rfl⟩ := h
  unfold next
  rw [show fetch b { c with st := s } = fetch b c from rfl]
  cases fetch b c with
  | error p => exact .inl ⟨p, rfl, rfl⟩
  | ok op =>
    simp only [Res.ok_bind]
    rw [show generate b e { c with st := s } op = generate b e c op by cases op <;> rfl]
    cases hg : generate b e c op with
    | error p => exact .inl ⟨p, rfl, rfl⟩
    | ok mcs =>
      simp only [Res.ok_bind]
      have hm : ∀ mc ∈ mcs ++ [.Inc16bitRegister .ProgramCounter 2], NoTimerInc mc := by
        intro mc h
        rcases List.mem_append.1 h with h | h
        · exact generate_noTimerInc hg mc h
        · rw [List.mem_singleton.1 h]; trivial
      rcases executeAll_butSound (b := b) hm e.iterAt (c := c) ⟨s, rfl⟩ with ⟨p, h1, h2⟩ | ⟨d, d', h1, h2, h3⟩
      · rw [h1, h2]; exact .inl ⟨p, rfl, rfl⟩
      · rw [h1, h2]; exact .inr ⟨_, d, d', rfl, rfl, h3⟩

theorem runLoop_butSound (env : Nat → Env) (n : Nat) :
    ∀ (k : Nat) {it it' c c' : Chip8 B R}, ButSound it it' → ButSound c c' →
    (∃ p, runLoop b env n k it c = .error p ∧ runLoop b env n k it' c' = .error p) ∨
    ∃ d d', runLoop b env n k it c = .ok d ∧ runLoop b env n k it' c' = .ok d' ∧ ButSound d d' := by
  induction n with
  | zero => intro k it it' c c' _ h; exact .inr ⟨c, c', rfl, rfl, h⟩
  | succ n ih =>
    intro k it it' c c' hi h
    simp only [runLoop]
    rcases C112_sound_next (b := b) hi (env k) with ⟨p, h1, h2⟩ | ⟨mcs, d, d', h1, h2, h3⟩
    · exact .inl ⟨p, by rw [h1]; rfl, by rw [h2]; rfl⟩
    · rcases executeAll_butSound (b := b) (next_noTimerInc h1) (env k).foldAt h with
        ⟨p, g1, g2⟩ | ⟨x, x', g1, g2, g3⟩
      · rw [h1, h2]
        exact .inl ⟨p, by simp only [Res.ok_bind]; rw [g1]; rfl, by simp only [Res.ok_bind]; rw [g2]; rfl⟩
      · rw [h1, h2]
        simp only [Res.ok_bind]
        rw [g1, g2]
        exact ih (k + 1) h3 g3

/-- C112: any number of instructions. -/
theorem C112_sound_run (h : ButSound c c') (env : Nat → Env) (n : Nat) :
    (∃ p, Chip8.run b env c n = .error p ∧ Chip8.run b env c' n = .error p) ∨
    ∃ d d', Chip8.run b env c n = .ok (.ready d) ∧ Chip8.run b env c' n = .ok (.ready d') ∧ ButSound d d' := by
  unfold Chip8.run
  rcases runLoop_butSound (b := b) env n 0 h h with ⟨p, h1, h2⟩ | ⟨d, d', h1, h2, h3⟩
  · exact .inl ⟨p, by rw [h1]; rfl, by rw [h2]; rfl⟩
  · exact .inr ⟨d, d', by rw [h1]; rfl, by rw [h2]; rfl, h3⟩

/-! ### A timer rewritten -/

theorem secs_split (now w k : Nat) (h : w + k * 1000000000 ≤ now) :
    (now - w) / 1000000000 = (now - (w + k * 1000000000)) / 1000000000 + k := by omega

theorem secs_ge (now w k t : Nat) (h : w + k * 1000000000 ≤ t) (h' : t ≤ now) :
    ¬ k > (now - w) / 1000000000 := by omega

omit [Addressable B] in
/-- C112: a timer set to `v` shows, from `k` seconds on, what a timer shows that was set `k` seconds
later to `v - k`. -/
theorem C112_rewritten (b : Build) (w : Nat) (v : Byte) (k : Nat) (hk : k ≤ v.toNat) :
    SameFrom b (w + k * 1000000000) ⟨w, v⟩ ⟨w + k * 1000000000, BitVec.ofNat 8 (v.toNat - k)⟩ := by
  intro now hn
  have hv := v.isLt
  have e1 : (now - w) / 1000000000 = (now - (w + k * 1000000000)) / 1000000000 + k :=
    secs_split now w k hn
  have e2 : (BitVec.ofNat 8 (v.toNat - k)).toNat = v.toNat - k := by
    rw [BitVec.toNat_ofNat]; omega
  unfold ClockDecrementing.read ClockDecrementing.elapsedSecs
  simp only [e1, e2]
  generalize (now - (w + k * 1000000000)) / 1000000000 = q
  by_cases h : v.toNat > q + k
  · rw [if_pos h, if_pos (by omega), if_pos (by omega), if_pos (by omega)]
    unfold subU8
    have g1 : (BitVec.ofNat 8 (q + k)).toNat = q + k := by rw [BitVec.toNat_ofNat]; omega
    have g2 : (BitVec.ofNat 8 q).toNat = q := by rw [BitVec.toNat_ofNat]; omega
    have g3 : v - BitVec.ofNat 8 (q + k) = BitVec.ofNat 8 (v.toNat - k) - BitVec.ofNat 8 q := by
      apply BitVec.eq_of_toNat_eq
      rw [BitVec.toNat_sub, BitVec.toNat_sub, e2, g1, g2]
      omega
    rw [g3, g1, g2, e2, if_neg (by omega), if_neg (by omega)]
  · rw [if_neg h, if_neg (by omega)]

omit [Addressable B] in
/-- C112: a timer that has run down is as good as one set to nought at any time. -/
theorem C112_expired (b : Build) (r : ClockDecrementing) (t w : Instant)
    (ht : r.written_at + r.inner.toNat * 1000000000 ≤ t) : SameFrom b t r ⟨w, 0⟩ := by
  intro now hn
  unfold ClockDecrementing.read ClockDecrementing.elapsedSecs
  rw [if_neg (secs_ge now r.written_at r.inner.toNat t ht hn), if_neg (by simp)]

end

/-! ### Cases that meet the hypotheses -/

/-- The delay timer of `sample` was set to 9 at the instant 3; five seconds later it shows what one shows
that is then set to 4. The sound timer, set to 7 at the instant 5, has run down after 8 seconds. -/
example : SameTimers (B := FlatRam) (R := Unit) .debug 8000000003 sample
    { sample with dt := ⟨5000000003, 4⟩, st := ⟨0, 0⟩ } :=
  ⟨rfl, rfl, rfl, rfl, rfl, rfl, rfl, rfl, rfl,
    fun now h => C112_rewritten .debug 3 9 5 (by decide) now (Nat.le_trans (by decide) h),
    C112_expired .debug ⟨5, 7⟩ 8000000003 0 (by decide)⟩

example : NotBefore 8000000003 ⟨0, 8000000003, 8000000004, 9000000000⟩ := by
  refine ⟨?_, ?_, ?_⟩ <;> decide

/-- Before that the two can be told apart: `LD V0, DT` after one second. -/
example :
    let e : Env := ⟨0, 1000000003, 1000000003, 1000000003⟩
    let c : Chip8 FlatRam Unit := { sample with address_space := ⟨fun a => if a = 0x200 then 0xf0 else 0x07⟩ }
    ((next .debug e c).map fun x => V x.2 .V0) = .ok 8 ∧
    ((next .debug e { c with dt := ⟨5000000003, 4⟩ }).map fun x => V x.2 .V0) = .ok 4 := by
  decide +kernel

/-- Shifting the timers alone changes what is seen; `C112_later_next` shifts the clock as well. -/
example :
    let e : Env := ⟨0, 3000000003, 3000000003, 3000000003⟩
    let c : Chip8 FlatRam Unit := { sample with address_space := ⟨fun a => if a = 0x200 then 0xf0 else 0x07⟩ }
    ((next .debug e c).map fun x => V x.2 .V0) = .ok 6 ∧
    ((next .debug e (laterCpu 1000000000 c)).map fun x => V x.2 .V0) = .ok 7 ∧
    ((next .debug (laterEnv 1000000000 e) (laterCpu 1000000000 c)).map fun x => V x.2 .V0) = .ok 6 := by
  decide +kernel

end Verif.Props.Chip8
