import Verif.Props.Mos.BoundTight
import Verif.Props.Chip8.Arrays
import Verif.Props.Chip8.Bound
import Verif.Spec.Chip8Counter

/-!
# C137: some CHIP-8 programs do have to run for long
-/

namespace Verif.Props.Chip8

open Verif Verif.Chip8 Verif.Spec Verif.Spec.Chip8
open Verif.Spec.Structured (Act Guard Store put)
open Verif.Spec.Mos (Mem BusView Coherent AcceptsAt upd number InArea word byte)
open Verif.Mos (OnlyAt number_low number_lt number_congr upd_other upd_same toNat_word_lt word_ne)

theorem counterWords_length (p i n : Nat) : (counterWords p i n).length = 6 * n + 1 := by
  induction n generalizing i with
  | zero => rfl
  | succ n ih =>
    simp only [counterWords, List.length_append, List.length_cons, List.length_nil, ih]
    omega

theorem bytesOfWords_length (ws : List Nat) : (bytesOfWords ws).length = 2 * ws.length := by
  induction ws with
  | nil => rfl
  | cons w ws ih =>
    simp only [bytesOfWords, List.flatMap_cons, List.length_append, List.length_cons, List.length_nil] at ih ⊢
    omega

theorem bytesOfWords_get (ws : List Nat) (k w : Nat) (h : ws[k]? = some w) :
    (bytesOfWords ws)[2 * k]? = some (byte (w / 256)) ∧ (bytesOfWords ws)[2 * k + 1]? = some (byte w) := by
  induction ws generalizing k with
  | nil => cases h
  | cons v ws ih =>
    cases k with
    | zero => cases h; exact ⟨rfl, rfl⟩
    | succ k =>
      rw [List.getElem?_cons_succ] at h
      exact ih k h

theorem counterWords_lt {p i n w : Nat} (hp : p < 4096) (hi : i + n ≤ 4096) (h : w ∈ counterWords p i n) :
    w < 65536 := by
  induction n generalizing i with
  | zero =>
    rw [counterWords, List.mem_singleton] at h
    omega
  | succ n ih =>
    simp only [counterWords, List.cons_append, List.nil_append, List.mem_cons] at h
    rcases h with h | h | h | h | h | h | h
    · omega
    · omega
    · omega
    · omega
    · omega
    · omega
    · exact ih (by omega) h

/-- The bytes of a program are the words of the program. -/
theorem codeAt_words {mem : Mem} {p : Nat} {ws : List Nat} (hl : p + 2 * ws.length ≤ 4096)
    (hw : ∀ w ∈ ws, w < 65536) (h : Mos.CodeAt mem p (bytesOfWords ws)) : CodeAt mem p ws := by
  refine ⟨hl, fun k w hk => ?_⟩
  obtain ⟨h1, h2⟩ := bytesOfWords_get ws k w hk
  have hb := bytesOfWords_length ws
  have hk' := (List.getElem?_eq_some_iff.1 hk).1
  have g1 := h (2 * k) (by omega)
  have g2 := h (2 * k + 1) (by omega)
  rw [(List.getElem_eq_iff _).2 h1] at g1
  rw [(List.getElem_eq_iff _).2 h2] at g2
  have e : (BitVec.ofNat 16 (p + 2 * k) + 1 : Word) = word (p + (2 * k + 1)) := by
    rw [show (1 : Word) = BitVec.ofNat 16 1 from rfl]
    exact Mos.word_add ..
  unfold wordAt
  rw [e, g2]
  change (mem (word (p + 2 * k))).toNat * 256 + _ = _
  rw [g1]
  have := hw w (List.mem_of_getElem? hk)
  show (w / 256) % 2 ^ 8 * 256 + w % 2 ^ 8 = w
  omega

section
variable {B R : Type} [Addressable B] {b : Build} {I : B → Mem → Prop} {W : Word → Prop}

/-- `n` instructions, whatever the clock and the random numbers. -/
def Nexts (b : Build) (n : Nat) (c d : Chip8 B R) : Prop :=
  ∀ (env : Nat → Env) (k m : Nat), runLoop b env (n + m) k c c = runLoop b env m (k + n) d d

theorem Nexts.cons {n : Nat} {c d e : Chip8 B R} (h : Next b c d) (h' : Nexts b n d e) :
    Nexts b (n + 1) c e := by
  intro env k m
  rw [show n + 1 + m = n + m + 1 by omega, h env k, h' env, show k + 1 + n = k + (n + 1) by omega]

theorem Nexts.refl {c : Chip8 B R} : Nexts b 0 c c := by
  intro env k m
  rw [Nat.zero_add, Nat.add_zero]

theorem Nexts.trans {n n' : Nat} {c d e : Chip8 B R} (h : Nexts b n c d) (h' : Nexts b n' d e) :
    Nexts b (n + n') c e := by
  intro env k m
  rw [Nat.add_assoc, h env k, h' env, Nat.add_assoc]

theorem codeAt_cons {mem : Mem} {p w : Nat} {ws : List Nat} (h : CodeAt mem p (w :: ws)) :
    CodeAt mem p [w] ∧ CodeAt mem (p + 2) ws := by
  obtain ⟨h1, h2⟩ := h
  rw [List.length_cons] at h1
  refine ⟨⟨by show p + 2 * 1 ≤ 4096; omega, ?_⟩, by omega, ?_⟩
  · intro k v hk
    cases k with
    | zero => exact h2 0 v hk
    | succ k => cases hk
  · intro k v hk
    have := h2 (k + 1) v hk
    rwa [show p + 2 * (k + 1) = p + 2 + 2 * k by omega] at this

theorem codeAt_only {mem mem' : Mem} {q i n : Nat} {ws : List Nat} (h : OnlyAt i n mem mem')
    (hc : CodeAt mem q ws) (hq : i + n ≤ q) : CodeAt mem' q ws := by
  refine ⟨hc.1, fun k w hk => ?_⟩
  have hk' := (List.getElem?_eq_some_iff.1 hk).1
  have hl := hc.1
  rw [← hc.2 k w hk]
  have e : (BitVec.ofNat 16 (q + 2 * k)).toNat = q + 2 * k := toNat_word_lt _ (by omega)
  have e' : (BitVec.ofNat 16 (q + 2 * k) + 1 : Word).toNat = q + 2 * k + 1 := by
    rw [BitVec.toNat_add, e]
    show (_ + 1) % 65536 = _
    omega
  unfold wordAt
  rw [h _ (by unfold InArea; omega), h _ (by unfold InArea; omega)]

variable {c : Chip8 B R} {mem : Mem} {p q : Nat} {σ : Store (Fin 15)} {i : Word} {bus : B}

theorem next_add1 (hv : BusView b bus mem) (hp : p < 4096) (hc : CodeAt mem p [0x7001]) :
    Next b (withVars (over c i bus) σ p) (withVars (over c i bus) (put σ 0 (σ 0 + 1)) (p + 2)) := by
  refine next_op (op := .AddImmediate .V0 1) hv (code_eq rfl hc) trivial
    ⟨(by intro h; cases h), fun h => h.2⟩ rfl (by rintro (h | ⟨a, h⟩) <;> cases h) fun e => ?_
  show advance (setV (withVars (over c i bus) σ p) (regOf (0 : Fin 15))
    (V (withVars (over c i bus) σ p) (regOf (0 : Fin 15)) + 1)) 2 = _
  rw [setV_withVars, advance_withVars hp, V_withVars]

theorem next_zero (hv : BusView b bus mem) (hp : p < 4096) (hc : CodeAt mem p [0x3000]) :
    Next b (withVars (over c i bus) σ p) (withVars (over c i bus) σ (p + if σ 0 = 0 then 4 else 2)) := by
  refine next_op (op := .SeImmediate .V0 0) hv (code_eq rfl hc) trivial
    ⟨(by intro h; cases h), fun h => h.2⟩ rfl (by rintro (h | ⟨a, h⟩) <;> cases h) fun e => ?_
  show advance (withVars (over c i bus) σ p)
    (if V (withVars (over c i bus) σ p) (regOf (0 : Fin 15)) = 0 then 4 else 2) = _
  rw [V_withVars, advance_withVars hp]

theorem next_jp (hv : BusView b bus mem) (hq : q < 4096) (hc : CodeAt mem p [0x1000 + q]) :
    Next b (withVars (over c i bus) σ p) (withVars (over c i bus) σ q) := by
  have e : (BitVec.ofNat 16 q).toNat = q := toNat_ofNat_lt (by omega)
  exact next_op (op := .JpNonV0Indexed ⟨BitVec.ofNat 16 q⟩) hv (code_eq (by simp only [encode, nnn, e]) hc)
    (by show (BitVec.ofNat 16 q).toNat < 4096; omega) ⟨fun h => h, fun h => h.2⟩ rfl
    (by rintro (h | ⟨a, h⟩) <;> cases h) fun e => rfl

/-- One pass, as on the 6502 (`Mos.counter_pass`). -/
theorem counter_pass (hI : Coherent b I) (hacc : AcceptsAt b I W) (hp : p < 4096) :
    ∀ (n j q : Nat) (σ : Store (Fin 15)) (i : Word) (bus : B) (mem : Mem), I bus mem →
      CodeAt mem q (counterWords p j n) → j + n ≤ q → (∀ k, k < n → W (word (j + k))) →
      ∃ k q' σ' i' bus' mem', Nexts b k (withVars (over c i bus) σ q) (withVars (over c i' bus') σ' q') ∧
        I bus' mem' ∧ OnlyAt j n mem mem' ∧ (0 < n → 5 ≤ k) ∧
        (number mem j n + 1 < 256 ^ n ∧ q' = p ∧ number mem' j n = number mem j n + 1 ∨
         number mem j n + 1 = 256 ^ n ∧ q' = q + 12 * n) := by
  intro n
  induction n with
  | zero =>
    intro j q σ i bus mem hm _ _ _
    exact ⟨0, q, σ, i, bus, mem, .refl, hm, fun _ _ => rfl, fun h => absurd h (by decide), .inr ⟨rfl, rfl⟩⟩
  | succ n ih =>
    intro j q σ i bus mem hm hc hjq hW
    have hlen := hc.1
    rw [counterWords_length] at hlen
    have hlow := number_low mem j n
    have hpow : 256 ^ (n + 1) = 256 * 256 ^ n := by rw [Nat.pow_succ, Nat.mul_comm]
    have hnl := number_lt mem (j + 1) n
    have hb := (mem (word j)).isLt
    have hv := (hI _ _ hm).1
    obtain ⟨c1, hc1⟩ := codeAt_cons hc
    obtain ⟨c2, hc1⟩ := codeAt_cons hc1
    obtain ⟨c3, hc1⟩ := codeAt_cons hc1
    obtain ⟨c4, -⟩ := codeAt_cons hc1
    have n1 := next_ldI (c := c) (i := i) (σ := σ) hv (by omega) (by omega) c1
    have n2 := next_load (c := c) (i := word j) (σ := σ) hv (by omega) (BitVec.isLt _) c2
    have n3 := next_add1 (c := c) (i := word j) (σ := put σ 0 (mem (word j))) hv (by omega) c3
    generalize hw : mem (word j) + 1 = w at n3
    generalize hσ : put (put σ 0 (mem (word j))) 0 (put σ 0 (mem (word j)) 0 + 1) = τ at n3
    have hτ : τ 0 = w := by rw [← hσ, ← hw]; rfl
    have hwn : w.toNat = ((mem (word j)).toNat + 1) % 256 := by rw [← hw]; exact BitVec.toNat_add ..
    obtain ⟨bus1, n4, hm1⟩ := next_store (c := c) (i := word j) (σ := τ) hI hacc hm (by omega)
      (BitVec.isLt _) (hW 0 (by omega)) c4
    rw [hτ] at hm1
    have only : OnlyAt j (n + 1) mem (upd mem (word j) w) := by
      intro x hx
      apply upd_other
      rintro rfl
      apply hx
      unfold InArea; rw [toNat_word_lt _ (by omega)]; omega
    have hc' := codeAt_only only hc hjq
    obtain ⟨-, hc1⟩ := codeAt_cons hc'
    obtain ⟨-, hc1⟩ := codeAt_cons hc1
    obtain ⟨-, hc1⟩ := codeAt_cons hc1
    obtain ⟨-, hc1⟩ := codeAt_cons hc1
    obtain ⟨c5, hc1⟩ := codeAt_cons hc1
    obtain ⟨c6, c7⟩ := codeAt_cons hc1
    have hv1 := (hI _ _ hm1).1
    have n5 := next_zero (c := c) (i := word j) (σ := τ) hv1 (by omega) c5
    rw [hτ] at n5
    have hj1 : upd mem (word j) w (word j) = w := upd_same ..
    have hhigh : number (upd mem (word j) w) (j + 1) n = number mem (j + 1) n := by
      apply number_congr
      intro k hk
      rw [upd_other _ _ (word_ne (by omega) (by omega) (by omega))]
    by_cases h255 : (mem (word j)).toNat = 255
    · have w0 : w = 0 := by apply BitVec.eq_of_toNat_eq; rw [hwn, h255]; rfl
      rw [if_pos w0] at n5
      obtain ⟨k, q', σ', i', bus', mem', r, hm', ho, -, hcase⟩ := ih (j + 1) (q + 2 + 2 + 2 + 2 + 4) τ (word j) bus1
        (upd mem (word j) w) hm1 c7 (by omega)
        (fun k hk => by have := hW (k + 1) (by omega); rwa [show j + 1 + k = j + (k + 1) by omega])
      have hlow' := number_low mem' j n
      have hj' : mem' (word j) = w := by
        rw [ho _ (by unfold InArea; rw [toNat_word_lt _ (by omega)]; omega), hj1]
      rw [hj', w0] at hlow'
      change _ = 0 + _ at hlow'
      refine ⟨_, q', σ', i', bus', mem', .cons n1 (.cons n2 (.cons n3 (.cons n4 (.cons n5 r)))), hm', ?_,
        fun _ => by omega, ?_⟩
      · intro x hx
        rw [ho x (by unfold InArea at hx ⊢; omega), only x hx]
      · rw [hhigh] at hcase
        rcases hcase with ⟨e1, e2, e3⟩ | ⟨e1, e2⟩
        · exact .inl ⟨by omega, e2, by omega⟩
        · exact .inr ⟨by omega, by omega⟩
    · have w0 : w ≠ 0 := by rintro rfl; change 0 = _ at hwn; omega
      rw [if_neg w0] at n5
      have n6 := next_jp (c := c) (i := word j) (σ := τ) hv1 hp c6
      have hlow' := number_low (upd mem (word j) w) j n
      rw [hj1, hhigh] at hlow'
      exact ⟨_, p, _, _, bus1, _, .cons n1 (.cons n2 (.cons n3 (.cons n4 (.cons n5 (.cons n6 .refl))))), hm1, only,
        fun _ => by omega, .inl ⟨by omega, rfl, by omega⟩⟩

/-- All passes. -/
theorem counter_all (hI : Coherent b I) (hacc : AcceptsAt b I W) {r : Nat} (hr : 0 < r) (hrp : r ≤ p)
    (hp : p < 4096) (hW : ∀ k, k < r → W (word k)) :
    ∀ (m : Nat) (σ : Store (Fin 15)) (i : Word) (bus : B) (mem : Mem), I bus mem →
      CodeAt mem p (counterWords p 0 r) → number mem 0 r + m = 256 ^ r →
      ∃ k σ' i' bus' mem', Nexts b k (withVars (over c i bus) σ p) (withVars (over c i' bus') σ' (p + 12 * r)) ∧
        I bus' mem' ∧ OnlyAt 0 r mem mem' ∧ 5 * m ≤ k := by
  intro m
  induction m with
  | zero =>
    intro σ i bus mem _ _ hm
    have := number_lt mem 0 r
    omega
  | succ m ih =>
    intro σ i bus mem hi hc hm
    obtain ⟨k, q', σ', i', bus', mem', h1, h2, h3, h4, h5⟩ := counter_pass (c := c) hI hacc hp r 0 p σ i bus mem hi hc
      (by omega) (fun k hk => by rw [Nat.zero_add]; exact hW k hk)
    have h4 := h4 hr
    rcases h5 with ⟨e1, rfl, e3⟩ | ⟨e1, rfl⟩
    · obtain ⟨k', σ'', i'', bus'', mem'', g1, g2, g3, g4⟩ := ih σ' i' bus' mem' h2 (codeAt_only h3 hc (by omega))
        (by omega)
      exact ⟨_, σ'', i'', bus'', mem'', h1.trans g1, g2, fun x hx => (g3 x hx).trans (h3 x hx), by omega⟩
    · exact ⟨k, σ', i', bus', mem', h1, h2, h3, by omega⟩

end

/-- C137, from below: for every number `r` of bytes of RAM up to 314 there is a CHIP-8 program, in ROM,
that panics in every world, whatever the registers, the display, the stack and the timers are, but not
within `5 * 256^r` instructions. -/
theorem C137_chip8_needed {R : Type} (b : Build) (env : Nat → Env) {r : Nat} (hr : 0 < r) (hr' : r ≤ 314)
    (c : Chip8 (AddressMap Memory) R)
    (hb : c.address_space = counterMap r (bytesOfWords (counterWords r 0 r))) (hs : c.pc = word r) :
    ramBytes c.address_space = r ∧ (∃ n p, run b env c n = .error p) ∧
    ∀ n, n ≤ 5 * 256 ^ r → ∃ d, run b env c n = .ok d := by
  have hlen : (bytesOfWords (counterWords r 0 r)).length = 2 * (6 * r + 1) := by
    rw [bytesOfWords_length, counterWords_length]
  refine ⟨by rw [hb]; simp [ramBytes, counterMap], ?_⟩
  obtain ⟨mem, hm, hc, hz⟩ := counterBus_start b (code := bytesOfWords (counterWords r 0 r)) hr (by omega) (by omega)
  have hc := codeAt_words (by rw [counterWords_length]; omega)
    (fun w hw => counterWords_lt (by omega) (by omega) hw) hc
  obtain ⟨k, σ, i, bus, mem', h1, h2, h3, h4⟩ := counter_all (c := c) (counterBus_coherent b r)
    (counterBus_accepts b r) hr (Nat.le_refl r) (by omega)
    (fun k hk => by show (word k).toNat < r; rw [toNat_word_lt _ (by omega)]; exact hk) (256 ^ r) (vars c) c.i _ mem
    hm hc (by omega)
  have e : withVars (over c c.i (counterMap r (bytesOfWords (counterWords r 0 r)))) (vars c) r = c := by
    rw [← hb]
    have e1 : Vector.ofFn (vars c) = c.gp_registers := by
      apply Vector.ext; intro k hk; rw [Vector.getElem_ofFn]; rfl
    unfold withVars over
    rw [e1]
    change { c with pc := word r } = c
    rw [← hs]
  rw [e] at h1
  generalize hd : withVars (over c i bus) σ (r + 12 * r) = d at h1
  have hlast : wordAt mem' d.pc = 0x6F01 := by
    have hc' := codeAt_only h3 hc (by omega)
    have : ∀ n j q, CodeAt mem' q (counterWords r j n) → wordAt mem' (BitVec.ofNat 16 (q + 12 * n)) = 0x6F01 := by
      intro n
      induction n with
      | zero => intro j q h; exact h.2 0 _ rfl
      | succ n ih =>
        intro j q h
        obtain ⟨-, h⟩ := codeAt_cons h
        obtain ⟨-, h⟩ := codeAt_cons h
        obtain ⟨-, h⟩ := codeAt_cons h
        obtain ⟨-, h⟩ := codeAt_cons h
        obtain ⟨-, h⟩ := codeAt_cons h
        obtain ⟨-, h⟩ := codeAt_cons h
        have := ih (j + 1) _ h
        rwa [show q + 2 + 2 + 2 + 2 + 2 + 2 + 12 * n = q + 12 * (n + 1) by omega] at this
    rw [← hd]
    exact this r 0 r hc'
  have hv : BusView b d.address_space mem' := by rw [← hd]; exact (counterBus_coherent b r _ _ h2).1
  obtain ⟨x, hx⟩ := C62_panics (e := env k) hv
    (.inr (.inr ⟨.LdImmediate .Vf 1, trivial, hlast, .inl rfl⟩))
  have hk : runLoop b env k 0 c c = .ok d := h1 env 0 0
  have hk1 : runLoop b env (k + 1) 0 c c = .error x := by
    rw [h1 env 0 1, Nat.zero_add]
    change (runLoop b (fun _ => env k) 1 0 d d >>= _) = _ at hx
    have : runLoop b env 1 k d d = runLoop b (fun _ => env k) 1 0 d d := rfl
    rw [this]
    cases hy : runLoop b (fun _ => env k) 1 0 d d with
    | ok y => rw [hy] at hx; cases hx
    | error y => rw [hy] at hx; cases hx; rfl
  refine ⟨⟨k + 1, x, ?_⟩, fun n hn => ?_⟩
  · show (runLoop b env (k + 1) 0 c c >>= _) = _
    rw [hk1]; rfl
  · cases hy : run b env c n with
    | ok y => exact ⟨y, rfl⟩
    | error y =>
      exfalso
      have := C137_chip8_panic_stays (show n ≤ k by omega) hy
      change (runLoop b env k 0 c c >>= _) = _ at this
      rw [hk] at this
      cases this

/-! ### A concrete case -/

/-- A machine with one byte of RAM, its stack and display as the constructor makes them. -/
example : ∃ c : Chip8 (AddressMap Memory) Unit, ∀ env : Nat → Env,
    (∃ n p, run .debug env c n = .error p) ∧ ∃ d, run .debug env c 1280 = .ok d := by
  refine ⟨{ romSample with
    address_space := counterMap 1 (bytesOfWords (counterWords 1 0 1)), pc := word 1 }, fun env => ?_⟩
  obtain ⟨-, h1, h2⟩ := C137_chip8_needed .debug env (r := 1) (by decide) (by decide)
    { romSample with address_space := counterMap 1 (bytesOfWords (counterWords 1 0 1)), pc := word 1 } rfl rfl
  exact ⟨h1, h2 1280 (by decide)⟩

end Verif.Props.Chip8
