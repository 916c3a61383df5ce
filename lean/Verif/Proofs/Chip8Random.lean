import Verif.Spec.Chip8Random
import Verif.Proofs.LiveChip8

/-!
# Lemmas for C106: the machine does not depend on its generator but for the bytes
-/

namespace Verif.Chip8

open Verif Verif.Chip8.Live Verif.Spec.Chip8

variable {B R S : Type} [Addressable B] {b : Build}

theorem fetch_rng (c : Chip8 B R) (r : S) : fetch b (withRng c r) = fetch b c := rfl

theorem generate_rng (e : Env) (c : Chip8 B R) (r : S) (op : Opcode) :
    generate b e (withRng c r) op = generate b e c op := by
  cases op <;> rfl

theorem generate_rand (e : Env) (v : Byte) (c : Chip8 B R) {op : Opcode} (h : ∀ x kk, op ≠ .Rnd x kk) :
    generate b { e with rand := v } c op = generate b e c op := by
  cases op <;> first | rfl | exact absurd rfl (h _ _)

theorem executeMut_rng (t : Instant) (c : Chip8 B R) (r : S) (mc : Microcode) :
    executeMut b t (withRng c r) mc = (executeMut b t c mc).map (withRng · r) := by
  cases mc with
  | WriteMemory a v =>
    simp only [executeMut, writeMemory]
    have : (withRng c r).address_space = c.address_space := rfl
    rw [this]
    rcases Addressable.write b c.address_space a v with p | ⟨msg | y, bus⟩ <;> rfl
  | Write8bitRegister reg v =>
    rcases reg with reg | reg
    · simp only [executeMut, write8]
      have : (withRng c r).gp_registers = c.gp_registers := rfl
      rw [this]
      cases setGp c.gp_registers reg v <;> rfl
    · cases reg <;> rfl
  | Inc8bitRegister reg v =>
    rcases reg with reg | reg
    · simp only [executeMut, inc8]
      have h1 : (withRng c r).gp_registers = c.gp_registers := rfl
      have h2 : readGpRegister (withRng c r) reg = readGpRegister c reg := rfl
      rw [h1, h2]
      cases readGpRegister c reg with
      | error p => rfl
      | ok x =>
        simp only [Res.ok_bind]
        cases setGp c.gp_registers reg (x + v) <;> rfl
    · cases reg
      · simp only [executeMut, inc8]
        have h1 : (withRng c r).st = c.st := rfl
        try rw [h1]
        have h2 : (withRng c r).dt = c.dt := rfl
        try rw [h2]
        first
          | (cases c.dt.read b t <;> rfl)
          | (cases c.st.read b t <;> rfl)
      · simp only [executeMut, inc8]
        have h1 : (withRng c r).st = c.st := rfl
        try rw [h1]
        have h2 : (withRng c r).dt = c.dt := rfl
        try rw [h2]
        first
          | (cases c.dt.read b t <;> rfl)
          | (cases c.st.read b t <;> rfl)
  | Dec8bitRegister reg v => rfl
  | Write16bitRegister reg v => cases reg <;> rfl
  | Inc16bitRegister reg v => cases reg <;> rfl
  | Dec16bitRegister reg v => rfl
  | PushStack v =>
    simp only [executeMut, pushStack]
    have h1 : (withRng c r).stack = c.stack := rfl
    have h2 : (withRng c r).sp = c.sp := rfl
    rw [h1, h2]
    rcases c.stack.write c.sp.read.toNat v with p | ⟨msg | y, s⟩ <;> rfl
  | PopStack v => rfl
  | KeyPress k => rfl
  | KeyRelease => rfl
  | SetDisplayPixel p v => rfl
  | SetDisplayRange s e v =>
    simp only [executeMut, setDisplayRange]
    have h1 : (withRng c r).display = c.display := rfl
    rw [h1]
    cases mulUsize b s.2 Display.xMax with
    | error p => rfl
    | ok x1 =>
      simp only [Res.ok_bind]
      cases addUsize b x1 s.1 with
      | error p => rfl
      | ok x2 =>
        simp only [Res.ok_bind]
        cases subUsize b e.2 s.2 with
        | error p => rfl
        | ok x3 =>
          simp only [Res.ok_bind]
          cases mulUsize b x3 Display.xMax with
          | error p => rfl
          | ok x4 =>
            simp only [Res.ok_bind]
            cases subUsize b e.1 s.1 with
            | error p => rfl
            | ok x5 =>
              simp only [Res.ok_bind]
              cases addUsize b x4 x5 with
              | error p => rfl
              | ok x6 =>
                simp only [Res.ok_bind]
                cases addUsize b x6 1 <;> rfl

theorem executeAll_rng (t : Instant) (mcs : List Microcode) (c : Chip8 B R) (r : S) :
    executeAll b t (withRng c r) mcs = (executeAll b t c mcs).map (withRng · r) := by
  induction mcs generalizing c with
  | nil => rfl
  | cons mc mcs ih =>
    simp only [executeAll, executeMut_rng]
    cases executeMut b t c mc with
    | error p => rfl
    | ok d => exact ih d

theorem executeAll_keeps_rng {t : Instant} {mcs : List Microcode} {c d : Chip8 B R}
    (h : executeAll b t c mcs = .ok d) : d.rng = c.rng := by
  have : executeAll b t (withRng c c.rng) mcs = .ok d := h
  rw [executeAll_rng, h] at this
  have e : withRng d c.rng = d := by simpa [Except.map] using this
  rw [← e]
  rfl

/-- What `next` does, said with the fetch. -/
theorem next_at {e : Env} {c : Chip8 B R} {op : Opcode} (h : At b c op) :
    next b e c = (generate b e c op >>= fun m =>
      executeAll b e.iterAt c (m ++ [.Inc16bitRegister .ProgramCounter 2]) >>= fun d =>
        .ok (m ++ [.Inc16bitRegister .ProgramCounter 2], d)) := by
  unfold next
  have h' : fetch b c = .ok op := h
  rw [h']
  rfl

theorem next_rng (e : Env) (c : Chip8 B R) (r : S) :
    next b e (withRng c r) = (next b e c).map fun p => (p.1, withRng p.2 r) := by
  unfold next
  rw [fetch_rng]
  cases fetch b c with
  | error p => rfl
  | ok op =>
    simp only [Res.ok_bind, generate_rng]
    cases generate b e c op with
    | error p => rfl
    | ok m =>
      simp only [Res.ok_bind, executeAll_rng]
      cases executeAll b e.iterAt c (m ++ [.Inc16bitRegister .ProgramCounter 2]) <;> rfl

section
variable {W G : Type} [Generator W G]

/-- One instruction with the generator, by what it asks. -/
theorem nextR_eq {e : Env} {c : Chip8 B G} {op : Opcode} {w w' : W} {v : Byte} {g : G} (h : At b c op)
    (ha : ask op c.rng w = (.ok v, g, w')) :
    nextR b e c w = ((next b { e with rand := v } c).map fun p => (p.1, withRng p.2 g), w') := by
  have h' : fetch b c = .ok op := h
  unfold nextR
  rw [h']
  simp only [ha]
  rw [next_at h]
  cases generate b { e with rand := v } c op with
  | error p => rfl
  | ok m =>
    simp only [Res.ok_bind]
    have : ({ c with rng := g } : Chip8 B G) = withRng c g := rfl
    rw [this, executeAll_rng]
    cases executeAll b e.iterAt c (m ++ [.Inc16bitRegister .ProgramCounter 2]) <;> rfl

theorem nextR_ok {e : Env} {c d : Chip8 B G} {mcs : List Microcode} {w w' : W}
    (h : nextR b e c w = (.ok (mcs, d), w')) :
    ∃ op v g d', At b c op ∧ ask op c.rng w = (.ok v, g, w') ∧
      next b { e with rand := v } c = .ok (mcs, d') ∧ d = withRng d' g := by
  have hop : ∃ op, fetch b c = .ok op := by
    unfold nextR at h
    cases hf : fetch b c with
    | error p => rw [hf] at h; simp at h
    | ok op => exact ⟨op, rfl⟩
  obtain ⟨op, hop⟩ := hop
  rcases ha : ask op c.rng w with ⟨p | v, g, w₁⟩
  · unfold nextR at h
    rw [hop] at h
    simp [ha] at h
  · rw [nextR_eq hop ha] at h
    simp only [Prod.mk.injEq] at h
    obtain ⟨h1, rfl⟩ := h
    cases hn : next b { e with rand := v } c with
    | error p => rw [hn] at h1; cases h1
    | ok x =>
      obtain ⟨m, d'⟩ := x
      rw [hn] at h1
      simp only [Except.map, Except.ok.injEq, Prod.mk.injEq] at h1
      obtain ⟨rfl, rfl⟩ := h1
      exact ⟨op, v, g, d', hop, ha, hn, rfl⟩

theorem next_rand (e : Env) (v : Byte) {c : Chip8 B R} {op : Opcode} (h : At b c op)
    (hn : ∀ x kk, op ≠ .Rnd x kk) : next b { e with rand := v } c = next b e c := by
  rw [next_at h, next_at h, generate_rand e v c hn]

theorem runLoopR_iff (env : Nat → Env) (n : Nat) : ∀ (k : Nat) (it c c' : Chip8 B G) (w w' : W),
    runLoopR b env n k it c w = (.ok c', w') ↔ c'.rng = c.rng ∧ ∃ rs g', Bytes it.rng w rs g' w' ∧
      GivenBytes b env n k (withRng it ()) (withRng c ()) rs (withRng c' ()) := by
  induction n with
  | zero =>
    intro k it c c' w w'
    constructor
    · intro h
      simp only [runLoopR, Prod.mk.injEq, Except.ok.injEq] at h
      obtain ⟨rfl, rfl⟩ := h
      exact ⟨rfl, [], _, .nil _ _, .stop _ _ _⟩
    · rintro ⟨hr, rs, g', hb, hg⟩
      generalize hd : withRng c' () = d at hg
      generalize hc : withRng c () = c₀ at hg
      cases hg with
      | stop _ _ _ =>
        cases hb
        have : c' = c := by
          rw [← hc] at hd
          have e1 : withRng (withRng c' ()) c'.rng = withRng (withRng c ()) c.rng := by rw [hd, hr]
          exact e1
        subst this
        rfl
  | succ n ih =>
    intro k it c c' w w'
    constructor
    · intro h
      unfold runLoopR at h
      rcases hn : nextR b (env k) it w with ⟨p | ⟨mcs, it'⟩, w₁⟩
      · rw [hn] at h; simp at h
      · rw [hn] at h
        simp only at h
        cases hc : executeAll b (env k).foldAt c mcs with
        | error p => rw [hc] at h; simp at h
        | ok c₁ =>
          rw [hc] at h
          simp only at h
          obtain ⟨hr, rs, g', hb, hg⟩ := (ih _ _ _ _ _ _).1 h
          obtain ⟨op, v, g, d', hop, ha, hnext, rfl⟩ := nextR_ok hn
          have hc' : executeAll b (env k).foldAt (withRng c ()) mcs = .ok (withRng c₁ ()) := by
            rw [executeAll_rng, hc]; rfl
          have hnext' : next b { env k with rand := v } (withRng it ()) = .ok (mcs, withRng d' ()) := by
            rw [next_rng, hnext]; rfl
          refine ⟨hr.trans (executeAll_keeps_rng hc), ?_⟩
          by_cases hrnd : ∃ x kk, op = .Rnd x kk
          · obtain ⟨x, kk, rfl⟩ := hrnd
            exact ⟨v :: rs, g', .cons ha hb, .rnd hop hnext' hc' hg⟩
          · have hrnd' : ∀ x kk, op ≠ .Rnd x kk := fun x kk he => hrnd ⟨x, kk, he⟩
            have ha' : ask op it.rng w = (.ok 0, it.rng, w) := by
              cases op <;> first | rfl | exact absurd rfl (hrnd' _ _)
            rw [ha'] at ha
            cases ha
            refine ⟨rs, g', hb, .other hop hrnd' ?_ hc' hg⟩
            have hop' : At b (withRng it ()) op := hop
            rw [← next_rand (env k) 0 hop' hrnd']
            exact hnext'
    · rintro ⟨hr, rs, g', hb, hg⟩
      have fin : ∀ {op v g w₁ mcs it₁ c₁ rs}, At b it op → ask op it.rng w = (.ok v, g, w₁) →
          next b { env k with rand := v } (withRng it ()) = .ok (mcs, it₁) →
          executeAll b (env k).foldAt (withRng c ()) mcs = .ok c₁ → Bytes g w₁ rs g' w' →
          GivenBytes b env n (k + 1) it₁ c₁ rs (withRng c' ()) →
          runLoopR b env (n + 1) k it c w = (.ok c', w') := by
        intro op v g w₁ mcs it₁ c₁ rs hop ha hn hc hb hg
        unfold runLoopR
        rw [nextR_eq hop ha]
        rw [next_rng] at hn
        cases hn' : next b { env k with rand := v } it with
        | error p => rw [hn'] at hn; cases hn
        | ok x =>
          obtain ⟨m, d⟩ := x
          rw [hn'] at hn
          simp only [Except.map, Except.ok.injEq, Prod.mk.injEq] at hn
          obtain ⟨rfl, rfl⟩ := hn
          rw [executeAll_rng] at hc
          cases hc' : executeAll b (env k).foldAt c m with
          | error p => rw [hc'] at hc; cases hc
          | ok c₂ =>
            rw [hc'] at hc
            simp only [Except.map, Except.ok.injEq] at hc
            subst hc
            simp only [Except.map, hc']
            refine (ih _ _ _ _ _ _).2 ⟨hr.trans (executeAll_keeps_rng hc').symm, rs, g', hb, hg⟩
      generalize hd : withRng c' () = d at hg fin
      generalize hc₀ : withRng c () = c₀ at hg fin
      generalize hi₀ : withRng it () = it₀ at hg fin
      cases hg with
      | @rnd _ _ _ _ _ _ _ x kk _ _ _ hop hn hc hg =>
        have hop' : At b it (.Rnd x kk) := by rw [← hi₀] at hop; exact hop
        cases hb with
        | cons hb1 hb2 => exact fin hop' hb1 hn hc hb2 hg
      | @other _ _ _ _ _ _ _ op _ _ hop hrnd hn hc hg =>
        have hop' : At b it op := by rw [← hi₀] at hop; exact hop
        have ha' : ask op it.rng w = (.ok 0, it.rng, w) := by
          cases op <;> first | rfl | exact absurd rfl (hrnd _ _)
        refine fin hop' ha' ?_ hc hb hg
        rw [next_rand (env k) 0 hop hrnd]
        exact hn

/-- The same run in the model with the bytes in the environment. -/
theorem givenBytes_run {env : Nat → Env} {n k : Nat} {it c c' : Chip8 B R} {rs : List Byte}
    (h : GivenBytes b env n k it c rs c') :
    ∃ env' : Nat → Env, (∀ j, ∃ r, env' j = { env j with rand := r }) ∧
      runLoop b env' n k it c = .ok c' := by
  have lift : ∀ {n k : Nat} {it c c' : Chip8 B R} {env₁ env₂ : Nat → Env},
      (∀ j, k ≤ j → env₁ j = env₂ j) → runLoop b env₁ n k it c = .ok c' →
      runLoop b env₂ n k it c = .ok c' := by
    intro n
    induction n with
    | zero => intro k it c c' e1 e2 _ h; exact h
    | succ n ih =>
      intro k it c c' e1 e2 he h
      unfold runLoop at h ⊢
      rw [← he k (Nat.le_refl _)]
      obtain ⟨x, hx, h⟩ := bind_inv h
      obtain ⟨y, hy, h⟩ := bind_inv h
      rw [hx, Res.ok_bind]
      simp only
      rw [hy, Res.ok_bind]
      exact ih (fun j hj => he j (by omega)) h
  induction h with
  | stop k it c => exact ⟨env, fun j => ⟨(env j).rand, rfl⟩, rfl⟩
  | @rnd n k it it' c c' c'' x kk r rs mcs hop hn hc hg ih =>
    obtain ⟨env₁, h1, h2⟩ := ih
    refine ⟨fun j => if j = k then { env k with rand := r } else env₁ j, fun j => ?_, ?_⟩
    · by_cases hj : j = k
      · subst hj; exact ⟨r, by simp⟩
      · simpa [hj] using h1 j
    · unfold runLoop
      simp only [if_pos, hn, Res.ok_bind, hc]
      exact lift (fun j hj => by rw [if_neg (by omega)]) h2
  | @other n k it it' c c' c'' op rs mcs hop hrnd hn hc hg ih =>
    obtain ⟨env₁, h1, h2⟩ := ih
    refine ⟨fun j => if j = k then env k else env₁ j, fun j => ?_, ?_⟩
    · by_cases hj : j = k
      · subst hj; exact ⟨(env j).rand, by simp⟩
      · simpa [hj] using h1 j
    · unfold runLoop
      simp only [if_pos, hn, Res.ok_bind, hc]
      exact lift (fun j hj => by rw [if_neg (by omega)]) h2

end

end Verif.Chip8
