import Verif.Proofs.Chip8Random
import Verif.Props.Chip8.Run

/-!
# Property C106: the random bytes of successive runs
-/

namespace Verif.Props.Chip8

open Verif Verif.Chip8 Verif.Chip8.Live Verif.Spec.Chip8
open Verif.Mos (FlatRam)

variable {B : Type} [Addressable B] {b : Build} {env : Nat → Env}

/-- What one expects of a machine whose clock stands still during a step: a run of `m` and then a run of
`n` instructions are a run of `m + n`, with the same machine, the same use of the generator and the same
panics. -/
def C106_statement : Prop :=
  ∀ (b : Build) (B W G : Type) [Addressable B] [Generator W G] (env : Nat → Env) (c c' : Chip8 B G)
    (w w' : W) (m n : Nat), (∀ k, (env k).iterAt = (env k).foldAt) →
    runR b env c m w = (.ok (.ready c'), w') →
    runR b env c (m + n) w = runR b (fun k => env (m + k)) c' n w'

section
variable {W G : Type} [Generator W G]

/-- Within one run all is well, for every generator: the run asks the generator once for every `Cxkk` it
executes, in order, and for nothing else; the instructions get these bytes. The machine that is returned
has the generator it had before. -/
theorem C106_bytes_partial {c c' : Chip8 B G} {n : Nat} {w w' : W} :
    runR b env c n w = (.ok (.ready c'), w') ↔ c'.rng = c.rng ∧ ∃ rs g', Bytes c.rng w rs g' w' ∧
      GivenBytes b env n 0 (withRng c ()) (withRng c ()) rs (withRng c' ()) := by
  rw [← runLoopR_iff]
  unfold runR
  rcases runLoopR b env n 0 c c w with ⟨p | d, w₁⟩
  · simp
  · show (Except.ok (StepState.ready d), w₁) = _ ↔ _
    simp only [Prod.mk.injEq, Except.ok.injEq, StepState.ready.injEq]

/-- The bytes a run gets are bytes of the environment in the model without generators: everything proved
of `run` for all environments holds for every generator. -/
theorem C106_environment_partial {c c' : Chip8 B G} {n : Nat} {w w' : W}
    (h : runR b env c n w = (.ok (.ready c'), w')) :
    ∃ env' : Nat → Env, (∀ j, ∃ r, env' j = { env j with rand := r }) ∧
      run b env' (withRng c ()) n = .ok (.ready (withRng c' ())) := by
  obtain ⟨-, rs, g', -, hg⟩ := C106_bytes_partial.1 h
  obtain ⟨env', h1, h2⟩ := givenBytes_run hg
  refine ⟨env', h1, ?_⟩
  unfold Verif.Chip8.run
  rw [h2]
  rfl

theorem runR_eq (c : Chip8 B G) (n : Nat) (w : W) :
    runR b env c n w = ((runLoopR b env n 0 c c w).1.map StepState.ready, (runLoopR b env n 0 c c w).2) := by
  unfold runR
  rcases runLoopR b env n 0 c c w with ⟨p | d, w₁⟩ <;> rfl

/-- C106 holds for generators that keep nothing in the clone: what they are asked changes the world, or
nothing. -/
theorem C106_shared_partial (hG : ∀ (g : G) (w : W), (Generator.random g w).2.1 = g)
    (hc : ∀ k, (env k).iterAt = (env k).foldAt) {c c' : Chip8 B G} {w w' : W} (m n : Nat)
    (h : runR b env c m w = (.ok (.ready c'), w')) :
    runR b env c (m + n) w = runR b (fun k => env (m + k)) c' n w' := by
  -- the iterator's machine and the machine stay equal
  have same : ∀ (k : Nat) (c it : Chip8 B G) (mcs : List Microcode) (w w₁ : W),
      nextR b (env k) c w = (.ok (mcs, it), w₁) → executeAll b (env k).foldAt c mcs = .ok it := by
    intro k c it mcs w w₁ h
    obtain ⟨op, v, g, d', hop, ha, hn, rfl⟩ := nextR_ok h
    have hg : g = c.rng := by
      have : (ask op c.rng w).2.1 = c.rng := by
        cases op <;> first | rfl | exact hG _ _
      rw [ha] at this
      exact this
    rw [next_at hop] at hn
    obtain ⟨x, -, hn⟩ := bind_inv hn
    obtain ⟨y, hy, hn⟩ := bind_inv hn
    cases hn
    have hk : executeAll b (env k).foldAt c (x ++ [.Inc16bitRegister .ProgramCounter 2]) = .ok d' := by
      rw [← hc]; exact hy
    rw [hk, hg, ← executeAll_keeps_rng hk]
    rfl
  have split : ∀ (m k : Nat) (c c' : Chip8 B G) (w w' : W),
      runLoopR b env m k c c w = (.ok c', w') →
      runLoopR b env (m + n) k c c w = runLoopR b env n (k + m) c' c' w' := by
    intro m
    induction m with
    | zero =>
      intro k c c' w w' h
      simp only [runLoopR, Prod.mk.injEq, Except.ok.injEq] at h
      obtain ⟨rfl, rfl⟩ := h
      rw [Nat.zero_add]; rfl
    | succ m ih =>
      intro k c c' w w' h
      rw [Nat.succ_add]
      simp only [runLoopR] at h ⊢
      rcases hn : nextR b (env k) c w with ⟨p | ⟨mcs, it⟩, w₁⟩
      · rw [hn] at h; simp at h
      · rw [hn] at h
        simp only [same _ _ _ _ _ _ hn] at h ⊢
        rw [ih _ _ _ _ _ h, Nat.add_assoc, Nat.add_comm 1 m]
  have shift : ∀ (n k : Nat) (it c : Chip8 B G) (w : W),
      runLoopR b env n (m + k) it c w = runLoopR b (fun j => env (m + j)) n k it c w := by
    intro n
    induction n with
    | zero => intro k it c w; rfl
    | succ n ih =>
      intro k it c w
      unfold runLoopR
      simp only [Nat.add_assoc, ih]
  rw [runR_eq] at h
  have h' : runLoopR b env m 0 c c w = (.ok c', w') := by
    rcases hx : runLoopR b env m 0 c c w with ⟨p | d, w₁⟩
    · rw [hx] at h; cases h
    · rw [hx] at h; cases h; rfl
  rw [runR_eq, runR_eq, split m 0 c c' w w' h', Nat.zero_add]
  have := shift n 0 c' c' w'
  rw [Nat.add_zero] at this
  rw [this]

/-- For every generator: however often `run` has been called, it starts again with the generator the
machine had in the beginning. -/
theorem C106_restart_partial {c c' c'' : Chip8 B G} {m n : Nat} {env' : Nat → Env} {w w' w₁ w₂ : W}
    (h : runR b env c m w = (.ok (.ready c'), w')) (h' : runR b env' c' n w₁ = (.ok (.ready c''), w₂)) :
    ∃ rs g', Bytes c.rng w₁ rs g' w₂ ∧
      GivenBytes b env' n 0 (withRng c' ()) (withRng c' ()) rs (withRng c'' ()) := by
  obtain ⟨-, rs, g', h2, h3⟩ := C106_bytes_partial.1 h'
  rw [(C106_bytes_partial.1 h).1] at h2
  exact ⟨rs, g', h2, h3⟩

end

/-- `/dev/random` keeps nothing in the clone. -/
theorem C106_unix_partial (hc : ∀ k, (env k).iterAt = (env k).foldAt) {c c' : Chip8 B UnixRng}
    {w w' : DevRandom} (m n : Nat) (h : runR b env c m w = (.ok (.ready c'), w')) :
    runR b env c (m + n) w = runR b (fun k => env (m + k)) c' n w' :=
  C106_shared_partial (fun _ _ => rfl) hc m n h

/-- The bytes of a run are the next answers of the system, and no more of them are used up. -/
theorem C106_unix_bytes_partial {c c' : Chip8 B UnixRng} {n : Nat} {w w' : DevRandom}
    (h : runR b env c n w = (.ok (.ready c'), w')) :
    ∃ rs : List Byte, (∀ k (hk : k < rs.length), w k = .ok rs[k]) ∧ w' = (fun k => w (rs.length + k)) ∧
      GivenBytes b env n 0 (withRng c ()) (withRng c ()) rs (withRng c' ()) := by
  obtain ⟨-, rs, g', hb, hg⟩ := C106_bytes_partial.1 h
  refine ⟨rs, ?_, ?_, hg⟩
  all_goals
    clear hg h
    generalize c.rng = g at hb
    induction hb with
    | nil g w =>
      first
        | (intro k hk; simp at hk; done)
        | (funext k; simp; done)
    | @cons g g₁ g₂ w₀ w₁ w₂ r rs hr _ ih =>
      have hw : w₁ = fun k => w₀ (k + 1) := by
        have := congrArg (fun p => p.2.2) hr
        exact this.symm
      have hr0 : w₀ 0 = .ok r := by
        have := congrArg (fun p => p.1) hr
        simp only [Generator.random] at this
        cases h0 : w₀ 0 with
        | error msg => rw [h0] at this; simp at this
        | ok v =>
          rw [h0] at this
          simp only [Except.ok.injEq] at this
          rw [this]
      subst hw
      first
        | (intro k hk
           cases k with
           | zero => exact hr0
           | succ k => exact ih k (by simpa using hk))
        | (rw [ih]
           funext k
           simp only [List.length_cons]
           congr 1
           omega)

/-- A `Cxkk` panics if `/dev/random` cannot be read. -/
theorem C106_unix_refused_partial {c : Chip8 B UnixRng} {x : GpRegisters} {kk : Byte} {w : DevRandom}
    {msg : String} (n : Nat) (h : At b c (.Rnd x kk)) (hw : w 0 = .error msg) :
    (runR b env c (n + 1) w).1 =
      .error (.unwrapErr ("cannot read exactly one byte from /dev/random.: " ++ msg)) := by
  have h' : fetch b c = .ok (.Rnd x kk) := h
  unfold runR runLoopR nextR
  rw [h']
  simp [ask, Generator.random, hw]

/-- The machine driven one instruction at a time. -/
inductive StepsR {W G : Type} [Generator W G] (b : Build) (env : Nat → Env) :
    Nat → Chip8 B G → W → Chip8 B G → W → Prop
  | zero (c : Chip8 B G) (w : W) : StepsR b env 0 c w c w
  | succ {n : Nat} {c c' c'' : Chip8 B G} {w w' w'' : W} :
      StepsR b env n c w c' w' → runR b (fun _ => env n) c' 1 w' = (.ok (.ready c''), w'') →
      StepsR b env (n + 1) c w c'' w''

/-- A machine with a closure that is driven one instruction at a time: every `Cxkk` gets the first byte
of the closure, for ever. -/
theorem C106_same_byte_partial {S : Type} {n : Nat} {c c' : Chip8 B (Closure S)}
    {w w' : Unit} (h : StepsR b env n c w c' w') :
    c'.rng = c.rng ∧
      Steps b (fun k => { env k with rand := (c.rng.call c.rng.state).1 }) n (withRng c ()) (withRng c' ()) := by
  induction h with
  | zero c w => exact ⟨rfl, .zero _⟩
  | @succ n c c' c'' w w' w'' _ hr ih =>
    obtain ⟨h1, h2⟩ := ih
    obtain ⟨h3, rs, g', hb, hg⟩ := C106_bytes_partial.1 hr
    refine ⟨h3.trans h1, .succ h2 ?_⟩
    unfold StepsTo Verif.Chip8.run Verif.Chip8.runLoop Verif.Chip8.runLoop
    generalize hd : withRng c'' () = d at hg
    generalize hc : withRng c' () = c₀ at hg
    cases hg with
    | rnd hop hn he hg =>
      cases hg
      cases hb with
      | cons hb1 hb2 =>
        rw [h1] at hb1
        have e1 := congrArg Prod.fst hb1
        simp only [Generator.random, Except.ok.injEq] at e1
        rw [e1, hn, Res.ok_bind]
        simp only
        rw [he]
        rfl
    | other hop hrnd hn he hg =>
      cases hg
      rw [next_rand (env n) _ hop hrnd, hn, Res.ok_bind]
      simp only
      rw [he]
      rfl

/-- A closure that counts. -/
def countingClosure : Closure Byte := ⟨fun s => (s + 1, s + 1), 0⟩

/-- The sample machine with `C0FF` and `C1FF`. -/
def dice : Chip8 FlatRam (Closure Byte) :=
  withRng { sample with address_space := ⟨fun a => if a = 0x200 then 0xc0 else if a = 0x202 then 0xc1 else 0xff⟩ }
    countingClosure

/-- A clock that stands still. -/
def still : Nat → Env := fun _ => ⟨0, 0, 0, 0⟩

/-- One run of both gives two bytes. -/
theorem dice_two (b : Build) : ∃ c', runR b still dice 2 () = (.ok (.ready c'), ()) ∧
    (V c' .V0, V c' .V1) = (1, 2) := by
  rcases b with ⟨_ | _⟩ <;> exact ⟨_, rfl, rfl⟩

/-- Two runs give the first byte twice. -/
theorem dice_again (b : Build) : ∃ c₁ c₂, runR b still dice 1 () = (.ok (.ready c₁), ()) ∧
    runR b (fun k => still (1 + k)) c₁ 1 () = (.ok (.ready c₂), ()) ∧ (V c₂ .V0, V c₂ .V1) = (1, 1) := by
  rcases b with ⟨_ | _⟩ <;> exact ⟨_, _, rfl, rfl, rfl⟩

/-- C106 fails. -/
theorem C106_false : ¬ C106_statement := by
  intro h
  obtain ⟨c₁, c₂, h1, h2, h3⟩ := dice_again .debug
  obtain ⟨c', h4, h5⟩ := dice_two .debug
  have := h .debug FlatRam Unit (Closure Byte) _ _ _ _ _ 1 1 (fun _ => rfl) h1
  rw [h2] at this
  rw [h4] at this
  cases this
  rw [h3] at h5
  exact absurd h5 (by decide)

/-- Two steps that meet the hypotheses of `C106_same_byte_partial`. -/
example (b : Build) : ∃ c', StepsR b still 2 dice () c' () := by
  obtain ⟨c₁, c₂, h1, h2, -⟩ := dice_again b
  exact ⟨c₂, .succ (.succ (.zero _ _) h1) h2⟩

/-- A machine with `/dev/random`. -/
example (b : Build) : ∃ c' w', runR b still (withRng dice UnixRng.mk) 2
    ((fun k => if k = 0 then .ok 0x77 else .ok 0x99) : DevRandom) = (.ok (.ready c'), w') ∧
    (V c' .V0, V c' .V1) = (0x77, 0x99) := by
  rcases b with ⟨_ | _⟩ <;> exact ⟨_, _, rfl, rfl⟩

example (b : Build) : At b (withRng dice UnixRng.mk) (.Rnd .V0 0xff) := by
  rcases b with ⟨_ | _⟩ <;> rfl

end Verif.Props.Chip8
