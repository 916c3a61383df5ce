import Verif.Proofs.Chip8Finite
import Verif.Props.Fresh

/-!
# C98: what a CHIP-8 program that does not ask the world can do
-/

namespace Verif.Props.Chip8

open Verif Verif.Chip8 Verif.Spec.Chip8
open Verif.Mos (FlatRam ClosedUnderWrites flatRam_finite sameFrame sameFrame_finite sameFrame_closed)

variable {B R : Type} [Addressable B] {b : Build} {env env' : Nat → Env} {c : Chip8 B R}

/-- The two worlds give the instruction the same answer, whatever the timers are: it does not read the
delay timer, and if it asks for a random byte, this is the same. -/
def SameAnswer (e e' : Env) (op : Opcode) : Prop :=
  (∀ r, op ≠ .LdDelayTimerSrcTx r) ∧ ∀ r v, op = .Rnd r v → e.rand = e'.rand

/-- The instruction asks neither the clock nor the generator. -/
def AsksNothing (op : Opcode) : Prop := (∀ r, op ≠ .LdDelayTimerSrcTx r) ∧ ∀ r v, op ≠ .Rnd r v

theorem asksNothing_same {op : Opcode} (h : AsksNothing op) (e e' : Env) : SameAnswer e e' op :=
  ⟨h.1, fun r v hr => absurd hr (h.2 r v)⟩

theorem generate_same {d : Chip8 B R} (h : SameButInstants c d) {e e' : Env} {op : Opcode}
    (ha : SameAnswer e e' op) : generate b e d op = generate b e' c op := by
  obtain ⟨t, u, rfl⟩ := h
  cases op
  case LdDelayTimerSrcTx r => exact absurd rfl (ha.1 r)
  case Rnd r v =>
    have := ha.2 r v rfl
    simp only [generate, genRnd, this]
  all_goals rfl

theorem next_same {d : Chip8 B R} (h : SameButInstants c d) {e e' : Env}
    (ha : ∀ op, At b c op → SameAnswer e e' op) :
    (∃ p, next b e c = .error p ∧ next b e' d = .error p) ∨
    ∃ l c' d', next b e c = .ok (l, c') ∧ next b e' d = .ok (l, d') ∧ SameButInstants c' d' := by
  have hf : fetch b d = fetch b c := by obtain ⟨t, u, rfl⟩ := h; rfl
  unfold next
  rw [hf]
  cases h1 : fetch b c with
  | error p => exact .inl ⟨p, rfl, rfl⟩
  | ok op =>
    have ha' := ha op h1
    have hg : generate b e' d op = generate b e c op :=
      generate_same h ⟨ha'.1, fun r v hr => (ha'.2 r v hr).symm⟩
    simp only [Res.ok_bind, hg]
    cases h2 : generate b e c op with
    | error p => exact .inl ⟨p, rfl, rfl⟩
    | ok l =>
      simp only [Res.ok_bind]
      have hl : ∀ mc ∈ l ++ [.Inc16bitRegister .ProgramCounter 2], NoTimerInc mc := by
        intro mc hm
        rcases List.mem_append.1 hm with hm | hm
        · exact generate_noTimerInc h2 mc hm
        · rw [List.mem_singleton.1 hm]
          trivial
      rcases same_execAll (b := b) h e.iterAt e'.iterAt hl with ⟨p, h3, h4⟩ | ⟨c', d', h3, h4, h5⟩
      · exact .inl ⟨p, by rw [h3]; rfl, by rw [h4]; rfl⟩
      · exact .inr ⟨_, c', d', by rw [h3]; rfl, by rw [h4]; rfl, h5⟩

/-- The iterator in two worlds. -/
theorem iterates_same (n : Nat)
    (ha : ∀ k < n, ∀ it op, iterates b env k 0 c = .ok it → At b it op → SameAnswer (env k) (env' k) op) :
    (∃ p, iterates b env n 0 c = .error p ∧ iterates b env' n 0 c = .error p) ∨
    ∃ d d', iterates b env n 0 c = .ok d ∧ iterates b env' n 0 c = .ok d' ∧ SameButInstants d d' := by
  induction n with
  | zero => exact .inr ⟨c, c, rfl, rfl, same_refl c⟩
  | succ n ih =>
    rw [iterates_add, iterates_add]
    rcases ih fun k hk => ha k (by omega) with ⟨p, h1, h2⟩ | ⟨d, d', h1, h2, h3⟩
    · exact .inl ⟨p, by rw [h1]; rfl, by rw [h2]; rfl⟩
    · simp only [h1, h2, Res.ok_bind, iterates, Nat.zero_add]
      rcases next_same (b := b) h3 (fun op hop => ha n (by omega) d op h1 hop) with
        ⟨p, h4, h5⟩ | ⟨l, d₁, d₁', h4, h5, h6⟩
      · exact .inl ⟨p, by rw [h4]; rfl, by rw [h5]; rfl⟩
      · exact .inr ⟨d₁, d₁', by rw [h4]; rfl, by rw [h5]; rfl, h6⟩

/-- C98: as long as the executed instructions do not read the delay timer, and are given the same
random bytes, a program does the same in every world: it panics in both or in none, with the same
panic, and ends in the same state but for the instants at which timers were written. -/
theorem C98_world (n : Nat)
    (ha : ∀ k < n, ∀ it op, iterates b env k 0 c = .ok it → At b it op → SameAnswer (env k) (env' k) op) :
    (∃ p, run b env c n = .error p ∧ run b env' c n = .error p) ∨
    ∃ d d', run b env c n = .ok (.ready d) ∧ run b env' c n = .ok (.ready d') ∧ SameButInstants d d' := by
  rcases iterates_same n ha with ⟨p, h1, h2⟩ | ⟨d, d', h1, h2, h3⟩ <;>
    rcases C59_iterator_agrees_partial (b := b) (env := env) (cpu := c) n with
      ⟨q, h4, h5⟩ | ⟨i, e, h4, h5, h6⟩ <;>
    rcases C59_iterator_agrees_partial (b := b) (env := env') (cpu := c) n with
      ⟨q', h7, h8⟩ | ⟨i', e', h7, h8, h9⟩ <;>
    rw [h1] at h4 <;> rw [h2] at h7 <;> cases h4 <;> cases h7
  · exact .inl ⟨_, h5, h8⟩
  · exact .inr ⟨e, e', h5, h8, same_chain (same_swap h6) (same_chain h3 h9)⟩

/-- In a world that stands still, the iterator is a sequence of equal steps. -/
theorem iterates_still (e : Env) (n k : Nat) :
    iterates b (fun _ => e) n k c = iterates b (fun _ => e) n 0 c := by
  have := iterates_shift (b := b) (env := fun _ => e) k n 0 c
  simpa using this

theorem still_add (e : Env) (m n : Nat) : iterates b (fun _ => e) (m + n) 0 c =
    (iterates b (fun _ => e) m 0 c >>= fun d => iterates b (fun _ => e) n 0 d) := by
  rw [iterates_add]
  congr 1
  funext d
  exact iterates_still e n _

theorem within_iterates {S : Set B} {T : Set Instant} (hS : ClosedUnderWrites b S) {cap len : Nat} {r : R}
    {e : Env} (ht : e.iterAt ∈ T) (hc : Within S T cap len r c) (n : Nat) {d : Chip8 B R}
    (h : iterates b (fun _ => e) n 0 c = .ok d) : Within S T cap len r d := by
  induction n generalizing d with
  | zero => cases h; exact hc
  | succ n ih =>
    rw [still_add] at h
    obtain ⟨d', h1, h2⟩ := bind_ok h
    obtain ⟨⟨l, x⟩, h3, h4⟩ := bind_ok h2
    cases h4
    exact within_next hS ht (ih h1) h3

/-- On a bus with finitely many states, in a world that stands still, the iterator panics or ends in
a loop. -/
theorem still_period {S : Set B} (hfin : S.Finite) (hS : ClosedUnderWrites b S)
    (hc : c.address_space ∈ S) (e : Env) :
    (∃ n p, iterates b (fun _ => e) n 0 c = .error p) ∨
    ∃ m t, 0 < t ∧ ∀ n, m ≤ n →
      iterates b (fun _ => e) (n + t) 0 c = iterates b (fun _ => e) n 0 c := by
  by_cases hp : ∃ n p, iterates b (fun _ => e) n 0 c = .error p
  · exact .inl hp
  have hok : ∀ n, ∃ d, iterates b (fun _ => e) n 0 c = .ok d := by
    intro n
    cases h : iterates b (fun _ => e) n 0 c with
    | error p => exact absurd ⟨n, p, h⟩ hp
    | ok d => exact ⟨d, rfl⟩
  choose f hf using hok
  have hT : ({c.dt.written_at, c.st.written_at, e.iterAt} : Set Instant).Finite :=
    Set.toFinite _
  have hw : Within S {c.dt.written_at, c.st.written_at, e.iterAt} c.stack.capacity c.stack.inner.length
      c.rng c := ⟨hc, by simp, by simp, rfl, rfl, rfl⟩
  obtain ⟨i, -, j, -, hne, he⟩ := Set.infinite_univ.exists_ne_map_eq_of_mapsTo (f := f)
    (fun k _ => within_iterates hS (by simp) hw k (hf k))
    (within_finite hfin hT c.stack.capacity c.stack.inner.length c.rng)
  have key : ∀ i j, i < j → f i = f j → ∃ m t, 0 < t ∧ ∀ n, m ≤ n →
      iterates b (fun _ => e) (n + t) 0 c = iterates b (fun _ => e) n 0 c := by
    intro i j hij he
    refine ⟨i, j - i, by omega, fun n hn => ?_⟩
    obtain ⟨k, rfl⟩ := Nat.exists_eq_add_of_le hn
    rw [show i + k + (j - i) = j + k by omega, still_add, still_add, hf, hf, he]
  rcases Nat.lt_or_gt_of_ne hne with h | h
  · exact .inr (key i j h he)
  · exact .inr (key j i h he.symm)

/-- C98: while the clock stands still and the generator repeats one byte, a program that never panics
runs into a loop: from some number of instructions on `run` depends on their number modulo a period
only. -/
theorem C98_still {S : Set B} (hfin : S.Finite) (hS : ClosedUnderWrites b S) (hc : c.address_space ∈ S)
    {e : Env} (he : e.iterAt = e.foldAt) : (∃ n p, run b (fun _ => e) c n = .error p) ∨
    ∃ m t, 0 < t ∧ ∀ n, m ≤ n → run b (fun _ => e) c (n + t) = run b (fun _ => e) c n := by
  have hr := fun n => run_eq_iterates (b := b) (env := fun _ => e) (fun _ => he) n c
  rcases still_period (b := b) hfin hS hc e with ⟨n, p, h⟩ | ⟨m, t, ht, h⟩
  · exact .inl ⟨n, p, by rw [hr, h]; rfl⟩
  · exact .inr ⟨m, t, ht, fun n hn => by rw [hr, hr, h n hn]⟩

/-- C98: a program that asks neither the clock nor the generator either panics after some number of
instructions or runs into a loop, whatever the world does: from some number of instructions on the
states repeat, but for the instants at which timers were written. -/
theorem C98_repeats {S : Set B} (hfin : S.Finite) (hS : ClosedUnderWrites b S) (hc : c.address_space ∈ S)
    (ha : ∀ k it op, iterates b env k 0 c = .ok it → At b it op → AsksNothing op) :
    (∃ n p, run b env c n = .error p) ∨
    ∃ m t, 0 < t ∧ ∀ n, m ≤ n → ∃ d d', run b env c n = .ok (.ready d) ∧
      run b env c (n + t) = .ok (.ready d') ∧ SameButInstants d d' := by
  let e : Env := ⟨0, 0, 0, 0⟩
  have hw := fun n => C98_world (b := b) (env := env) (env' := fun _ => e) (c := c) n
    fun k _ it op h1 h2 => asksNothing_same (ha k it op h1 h2) _ _
  rcases C98_still (b := b) hfin hS hc (e := e) rfl with ⟨n, p, h⟩ | ⟨m, t, ht, h⟩
  · left
    rcases hw n with ⟨q, h1, -⟩ | ⟨d, d', -, h2, -⟩
    · exact ⟨n, q, h1⟩
    · rw [h] at h2; cases h2
  · by_cases hp : ∃ n p, run b env c n = .error p
    · exact .inl hp
    right
    refine ⟨m, t, ht, fun n hn => ?_⟩
    rcases hw n with ⟨q, h1, -⟩ | ⟨d, d', h1, h2, h3⟩
    · exact absurd ⟨n, q, h1⟩ hp
    rcases hw (n + t) with ⟨q, h4, -⟩ | ⟨d₁, d₁', h4, h5, h6⟩
    · exact absurd ⟨n + t, q, h4⟩ hp
    rw [h n hn, h2] at h5
    cases h5
    exact ⟨d, d₁, h1, h4, same_chain h3 (same_swap h6)⟩

/-- C98: and once such a program is back in a state it was in, but for the instants, it never panics
and repeats. -/
theorem C98_returns {m t : Nat} {d d' : Chip8 B R} (ht : 0 < t)
    (ha : ∀ k < m + t, ∀ it op, iterates b env k 0 c = .ok it → At b it op → AsksNothing op)
    (h : run b env c m = .ok (.ready d)) (h' : run b env c (m + t) = .ok (.ready d'))
    (hs : SameButInstants d d') (n : Nat) (hn : m ≤ n) :
    ∃ x x', run b env c n = .ok (.ready x) ∧ run b env c (n + t) = .ok (.ready x') ∧
      SameButInstants x x' := by
  have toIter : ∀ {k : Nat} {y : Chip8 B R}, run b env c k = .ok (.ready y) →
      ∃ x, iterates b env k 0 c = .ok x ∧ SameButInstants x y := by
    intro k y hy
    rcases C59_iterator_agrees_partial (b := b) (env := env) (cpu := c) k with
      ⟨q, -, h2⟩ | ⟨i, y', h1, h2, h3⟩
    · rw [hy] at h2; cases h2
    · rw [hy] at h2; cases h2
      exact ⟨i, h1, h3⟩
  have toRun : ∀ {k : Nat} {x : Chip8 B R}, iterates b env k 0 c = .ok x →
      ∃ y, run b env c k = .ok (.ready y) ∧ SameButInstants x y := by
    intro k x hx
    rcases C59_iterator_agrees_partial (b := b) (env := env) (cpu := c) k with
      ⟨q, h2, -⟩ | ⟨i, y', h1, h2, h3⟩
    · rw [hx] at h2; cases h2
    · rw [hx] at h1; cases h1
      exact ⟨y', h2, h3⟩
  obtain ⟨x₀, i0, s0⟩ := toIter h
  obtain ⟨x₁, i1, s1⟩ := toIter h'
  have hlow : ∀ k, k ≤ m + t → ∃ x, iterates b env k 0 c = .ok x := by
    intro k hk
    rw [show m + t = k + (m + t - k) by omega, iterates_add] at i1
    obtain ⟨x, hx, -⟩ := bind_ok i1
    exact ⟨x, hx⟩
  have key : ∀ n, m ≤ n → ∃ x x', iterates b env n 0 c = .ok x ∧ iterates b env (n + t) 0 c = .ok x' ∧
      SameButInstants x x' ∧ ∀ op, At b x op → AsksNothing op := by
    intro n
    induction n using Nat.strongRecOn with
    | ind n ih =>
      intro hn
      by_cases hm : n = m
      · subst hm
        exact ⟨x₀, x₁, i0, i1, same_chain s0 (same_chain hs (same_swap s1)),
          fun op => ha n (by omega) x₀ op i0⟩
      · have hthis : ∃ x, iterates b env n 0 c = .ok x ∧ ∀ op, At b x op → AsksNothing op := by
          by_cases hlt : n < m + t
          · obtain ⟨x, hx⟩ := hlow n (by omega)
            exact ⟨x, hx, fun op => ha n hlt x op hx⟩
          · obtain ⟨x, x', -, h2, h3, h4⟩ := ih (n - t) (by omega) (by omega)
            rw [show n - t + t = n by omega] at h2
            refine ⟨x', h2, fun op hop => h4 op ?_⟩
            obtain ⟨u, v, rfl⟩ := h3
            exact hop
        obtain ⟨x, hx, hask⟩ := hthis
        obtain ⟨y, y', h1, h2, h3, h4⟩ := ih (n - 1) (by omega) (by omega)
        have e1 : iterates b env n 0 c = next b (env (n - 1)) y >>= fun r => .ok r.2 := by
          rw [show n = n - 1 + 1 by omega, iterates_add, h1]
          simp only [Res.ok_bind, iterates, Nat.zero_add, Nat.add_sub_cancel]
        have e2 : iterates b env (n + t) 0 c = next b (env (n - 1 + t)) y' >>= fun r => .ok r.2 := by
          rw [show n + t = n - 1 + t + 1 by omega, iterates_add, h2]
          simp only [Res.ok_bind, iterates, Nat.zero_add]
        rcases next_same (b := b) (e := env (n - 1)) (e' := env (n - 1 + t)) h3
          (fun op hop => asksNothing_same (h4 op hop) _ _) with ⟨p, h5, -⟩ | ⟨l, z, z', h5, h6, h7⟩
        · rw [e1, h5] at hx; cases hx
        · have e3 : iterates b env n 0 c = .ok z := by rw [e1, h5]; rfl
          refine ⟨z, z', e3, by rw [e2, h6]; rfl, h7, ?_⟩
          rw [e3] at hx
          cases hx
          exact hask
  obtain ⟨x, x', h1, h2, h3, -⟩ := key n hn
  obtain ⟨y, h4, h5⟩ := toRun h1
  obtain ⟨y', h6, h7⟩ := toRun h2
  exact ⟨y, y', h4, h6, same_chain (same_swap h5) (same_chain h3 h7)⟩

/-- C98 on the project's bus: an address map of memory segments, whatever they are. -/
theorem C98_map {c : Chip8 (AddressMap Memory) R}
    (ha : ∀ k it op, iterates b env k 0 c = .ok it → At b it op → AsksNothing op) :
    (∃ n p, run b env c n = .error p) ∨
    ∃ m t, 0 < t ∧ ∀ n, m ≤ n → ∃ d d', run b env c n = .ok (.ready d) ∧
      run b env c (n + t) = .ok (.ready d') ∧ SameButInstants d d' :=
  C98_repeats (sameFrame_finite c.address_space) (sameFrame_closed _) rfl ha

/-- C98 on 64K of RAM. -/
theorem C98_flat {c : Chip8 FlatRam R}
    (ha : ∀ k it op, iterates b env k 0 c = .ok it → At b it op → AsksNothing op) :
    (∃ n p, run b env c n = .error p) ∨
    ∃ m t, 0 < t ∧ ∀ n, m ≤ n → ∃ d d', run b env c n = .ok (.ready d) ∧
      run b env c (n + t) = .ok (.ready d') ∧ SameButInstants d d' :=
  C98_repeats flatRam_finite (fun _ _ _ _ _ _ _ => Set.mem_univ _) (Set.mem_univ _) ha

/-! ### Concrete cases -/

/-- The program `V0 to the sound timer; jump back`: it writes a timer in every round. -/
def beeper : Chip8 FlatRam Unit :=
  let c := place sample (.LdSoundTimerDestTx .V0)
  { c with address_space := ⟨placeMem c.address_space.mem 0x202 (.JpNonV0Indexed ⟨0x200⟩)⟩ }

/-- `beeper` at its first and at its second instruction, with any sound timer. -/
def beepAt (first : Bool) (st : ClockDecrementing) : Chip8 FlatRam Unit :=
  { beeper with pc := if first then 0x200 else 0x202, st := st }

theorem beep_at (first : Bool) (st : ClockDecrementing) : At b (beepAt first st)
    (if first then .LdSoundTimerDestTx .V0 else .JpNonV0Indexed ⟨0x200⟩) := by
  have h : (0x200 : Word).toNat < 65535 ∧ (0x202 : Word).toNat < 65535 := by decide
  cases first
  · exact (C40_fetch (view _ _) h.2 (.JpNonV0Indexed ⟨0x200⟩)).2 
      ⟨by show (0x200 : Word).toNat < 4096; decide,
        show wordAt beeper.address_space.mem 0x202 = encode _ by decide⟩
  · exact (C40_fetch (view _ _) h.1 (.LdSoundTimerDestTx .V0)).2 
      ⟨trivial, show wordAt beeper.address_space.mem 0x200 = encode _ by decide⟩

theorem beep_next (e : Env) (first : Bool) (st : ClockDecrementing) :
    ∃ mcs st', next b e (beepAt first st) = .ok (mcs, beepAt (!first) st') := by
  have h := beep_at (b := b) first st
  cases first
  · obtain ⟨o⟩ := b
    cases o <;>
    · constructor
      refine ⟨st, ?_⟩
      unfold next
      rw [show fetch _ (beepAt false st) = _ from h]
      rfl
  · exact ⟨_, _, by unfold next; rw [show fetch b (beepAt true st) = _ from h]; rfl⟩

theorem beep_iterates (n k : Nat) (first : Bool) (st : ClockDecrementing) :
    ∃ f st', iterates b env n k (beepAt first st) = .ok (beepAt f st') := by
  induction n generalizing k first st with
  | zero => exact ⟨first, st, rfl⟩
  | succ n ih =>
    obtain ⟨mcs, st', h⟩ := beep_next (b := b) (env k) first st
    obtain ⟨f, st'', h2⟩ := ih (k + 1) (!first) st'
    exact ⟨f, st'', by unfold iterates; rw [h]; exact h2⟩

/-- `beeper` asks nothing, in every world. -/
theorem beep_asks (k : Nat) (it : Chip8 FlatRam Unit) (op : Opcode)
    (h : iterates b env k 0 beeper = .ok it) (hat : At b it op) : AsksNothing op := by
  obtain ⟨f, st, h2⟩ := beep_iterates (b := b) (env := env) k 0 true beeper.st
  rw [show beeper = beepAt true beeper.st from rfl, h2] at h
  cases h
  have h3 := (beep_at f st).symm.trans hat
  cases h3
  cases f <;> exact ⟨fun _ => nofun, fun _ _ => nofun⟩

example : (∃ n p, run b env beeper n = .error p) ∨
    ∃ m t, 0 < t ∧ ∀ n, m ≤ n → ∃ d d', run b env beeper n = .ok (.ready d) ∧
      run b env beeper (n + t) = .ok (.ready d') ∧ SameButInstants d d' :=
  C98_flat beep_asks

/-- C98_world: `beeper` in the world of C59 and in one that stands still. -/
example (n : Nat) : (∃ p, run b timerEnv beeper n = .error p ∧
      run b (fun _ => ⟨7, 8, 9, 10⟩) beeper n = .error p) ∨
    ∃ d d', run b timerEnv beeper n = .ok (.ready d) ∧
      run b (fun _ => ⟨7, 8, 9, 10⟩) beeper n = .ok (.ready d') ∧ SameButInstants d d' :=
  C98_world n fun k _ it op h1 h2 => asksNothing_same (beep_asks k it op h1 h2) _ _

/-- C98_still: a program that asks, in a world that stands still. -/
example : (∃ n p, run b (fun _ => ⟨7, 8, 9, 9⟩) timerSample n = .error p) ∨
    ∃ m t, 0 < t ∧ ∀ n, m ≤ n → run b (fun _ => ⟨7, 8, 9, 9⟩) timerSample (n + t) =
      run b (fun _ => ⟨7, 8, 9, 9⟩) timerSample n :=
  C98_still flatRam_finite (fun _ _ _ _ _ _ _ => Set.mem_univ _) (Set.mem_univ _) rfl

/-- C98_returns: `beeper` is back two instructions after the second, in the world of C59 as in every other. -/
example (n : Nat) (hn : 2 ≤ n) : ∃ x x', run b timerEnv beeper n = .ok (.ready x) ∧
    run b timerEnv beeper (n + 2) = .ok (.ready x') ∧ SameButInstants x x' := by
  obtain ⟨o⟩ := b
  cases o <;>
  exact C98_returns (m := 2) (d := beepAt true ⟨500000000, 0x11⟩) (d' := beepAt true ⟨1200000000, 0x11⟩)
    (by decide) (fun k _ it op => beep_asks k it op) rfl rfl ⟨beeper.dt.written_at, 1200000000, rfl⟩ n hn

/-- A program that asks the generator goes different ways in different worlds. -/
example : endV1 (run .debug (fun _ => ⟨0x55, 0, 0, 0⟩) (place sample (.Rnd .V1 0xff)) 1) = some 0x55 ∧
    endV1 (run .debug (fun _ => ⟨0x77, 0, 0, 0⟩) (place sample (.Rnd .V1 0xff)) 1) = some 0x77 := by
  decide +kernel

end Verif.Props.Chip8
