import Verif.Proofs.Timed
import Verif.Props.Mos.Recursive

/-!
# C100: how long recursive structured programs take on the 6502
-/

namespace Verif.Mos

open Verif Verif.Spec.Mos Verif.Spec.Structured Verif.Spec.Recursive Verif.Structured Verif.Recursive

/-- The cycles of the parts of a program: the sums of the documented cycles of their instructions. A
test is a load, a comparison and a branch: two cycles if not taken, three if taken, and one more if
the target lies in another page than the branch. -/
def mosTimes : Times Byte Nat where
  act
    | .set _ _ => 2 + 3
    | .copy _ _ => 3 + 3
    | .add _ _ => 3 + 2 + 2 + 3
    | .or _ _ | .and _ _ | .xor _ _ => 3 + 3 + 3
  testTrue p g := untaken g + 1 + (if (p + 9) / 256 = (p + 4) / 256 then 0 else 1)
  testFalse _ g := untaken g
  jump := 3
  call := 6
  ret := 6
  save := 3 + 3
  restore := 4 + 3
where
  /-- A load, a comparison with a constant or a variable, a branch that is not taken. -/
  untaken : Guard Byte → Nat
    | .eqK _ _ | .neK _ _ => 3 + 2 + 2
    | .eq _ _ | .ne _ _ => 3 + 3 + 2

section
variable {B : Type} [Addressable B] {b : Build} {I : B → Mem → Prop} {r₀ : Regs} {mem₀ : Mem} {l : List Byte}

/-- The parts of the code work and take their times. -/
theorem mos_tworks (hI : Coherent b I) (hacc : AcceptsAt b I fun a => a.toNat < 512) (hl : l.length ≤ 256) :
    TWorks mosRTarget (counted mosTimes mosCosts) (fun n => Lasts (B := B) b n.time n.count) (Within I r₀ mem₀ l) (ProgramAbove mem₀) 65532 (256 - l.length) where
  nil := Lasts.nil
  trans := Lasts.trans
  jumpSize _ := rfl
  callSize _ := rfl
  append := by
    rintro p u v h
    have := h.split
    rw [show p + mosRTarget.bytes u = p + u.length by show p + 1 * u.length = _; omega]
    exact this
  act := by
    rintro p a fs σ s hc hp hs
    obtain ⟨mem, k1, k2, k3⟩ := hs.isAt
    have hlen : (mosTarget 5).bytes ((mosTarget 5).act a) = ((mosTarget 5).act a).length := Nat.one_mul _
    change p + (mosTarget 5).bytes ((mosTarget 5).act a) ≤ 65532 at hp
    obtain ⟨t, -, t1, t2⟩ := act_part hI (accepts_zero_page hacc) (hc.at (by
      show p + ((mosTarget 5).act a).length ≤ 65536
      omega) k2) hp k1
    refine ⟨t, ?_, k3 t2⟩
    cases a <;> exact t1
  test := by
    rintro p g fs σ s hc hp hs
    obtain ⟨mem, k1, k2, k3⟩ := hs.isAt
    have hp' : p + 9 ≤ 65532 := by cases g <;> exact hp
    obtain ⟨t, -, t1, t2⟩ := test_lands (d := 5) (by decide) hI (accepts_zero_page hacc) (hc.at (by
      cases g <;> (show p + 6 ≤ 65536; omega)) k2) (by omega) k1
    have e5 : (5 : Byte).toNat = 5 := rfl
    rw [e5] at t1 t2
    refine ⟨t, ?_, k3 ?_⟩
    · have e : (3 + compareTime g + if g.Holds σ then 3 + crosses ((p + 4 + 5) % 65536) (p + 4) else 2) =
          (if g.Holds σ then (counted mosTimes mosCosts).testTrue p g else
            (counted mosTimes mosCosts).testFalse p g).time := by
        rw [Nat.mod_eq_of_lt (by omega)]
        by_cases hg : g.Holds σ
        · rw [if_pos hg, if_pos hg]
          show _ = mosTimes.untaken g + 1 + crosses (p + 9) (p + 4)
          rw [show p + 4 + 5 = p + 9 by omega]
          cases g <;> (simp only [compareTime, mosTimes.untaken]; omega)
        · rw [if_neg hg, if_neg hg]
          show _ = mosTimes.untaken g
          cases g <;> rfl
      have e' : 3 = (if g.Holds σ then (counted mosTimes mosCosts).testTrue p g else
            (counted mosTimes mosCosts).testFalse p g).count := by split <;> rfl
      rw [← e, ← e']
      exact t1
    · cases g <;> exact t2
  jump := by
    rintro p e fs σ s hc hp he hs
    obtain ⟨mem, k1, k2, k3⟩ := hs.isAt
    change p + 3 ≤ 65532 at hp
    have h0 := hc.1
    obtain ⟨d, s1, i1⟩ := jmpStep hI (accepts_zero_page hacc) k1 (by omega) (by omega) (hc.at (by
      show p + 3 ≤ 65536
      omega) k2).2
    exact ⟨d, s1.lasts, k3 i1⟩
  call := by
    rintro p e fs σ s hc hp - hroom hs
    obtain ⟨t, h1, h2⟩ := jsrStep hI hacc hs hc hp (by omega)
    exact ⟨t, h1.lasts, h2⟩
  ret := by
    rintro p r fs σ s hc hp hs
    obtain ⟨t, h1, h2⟩ := rtsStep hI hacc hs hc hp
    exact ⟨t, h1.lasts, h2⟩
  save := by
    rintro p x fs σ s hc hp hroom hs
    obtain ⟨t, -, h2, h3⟩ := save_part hI hacc hs hc hp (by omega)
    exact ⟨t, h2, h3⟩
  restore := by
    rintro p x v fs σ s hc hp hs
    obtain ⟨d, e, h1, -, h3, h4⟩ := restore_part hI hacc hs hc hp
    exact ⟨e, h1.lasts.trans h3.lasts, h4⟩

end

end Verif.Mos

namespace Verif.Props

open Verif Verif.Mos Verif.Spec.Mos Verif.Spec.Structured Verif.Spec.Recursive Verif.Structured Verif.Recursive

section
variable {B : Type} [Addressable B] {b : Build} {I : B → Mem → Prop} {c : Mos6502 B} {mem : Mem} {p : Nat}
  {φ : Type} {body : φ → Prog Byte φ} {entry : φ → Nat} {prog : Prog Byte φ} {l : List Byte}

theorem timed_reaches (hI : Coherent b I) (hacc : AcceptsAt b I fun a => a.toNat < 512)
    (hm : I c.address_map mem) (hpc : c.pc = word p) (hcode : InMemory mem body entry p prog)
    (hl : StackHolds mem c.sp l) {d t : Nat} {σ : Store Byte} (hd : d + l.length ≤ 256)
    (h : Takes mosRTarget mosTimes body entry d p prog (zeroPage mem) t σ) :
    ∃ c' n, Exec mosCosts body d prog (zeroPage mem) n σ ∧ Lasts b t n c c' ∧
      Within I (regs c) mem l [] σ (p + mosRTarget.size prog) c' := by
  obtain ⟨n, he⟩ := takes_exec (K := mosCosts) h
  obtain ⟨c', h1, h2⟩ := takes_reaches (mos_tworks hI hacc hl.1)
    (inMemory_loaded hcode) (takes_counted h he) hcode.main hcode.mainFits (by simp only [room]; omega)
    (within_self hm hpc hl)
  exact ⟨c', n, he, h1, h2⟩

/-- C100: if a program with recursive procedures, started with the values of the zero page, takes `t`
cycles, then `run(t)` ends exactly behind its code with the values it means in the zero page. Stack
pointer, the bytes on the stack, X, Y, the other flags and memory from 512 on are as before. -/
theorem C100_time (hI : Coherent b I) (hacc : AcceptsAt b I fun a => a.toNat < 512)
    (hm : I c.address_map mem) (hpc : c.pc = word p) (hcode : InMemory mem body entry p prog)
    (hl : StackHolds mem c.sp l) {d t : Nat} {σ : Store Byte} (hd : d + l.length ≤ 256)
    (h : Takes mosRTarget mosTimes body entry d p prog (zeroPage mem) t σ) :
    ∃ ls c', Instructions b c ls c' ∧ totalCycles ls = t ∧ run b c t = .ok (.ready c') ∧
      c'.pc = word (p + mosRTarget.size prog) ∧ Kept (regs c) (regs c') ∧
      ∃ mem', I c'.address_map mem' ∧ zeroPage mem' = σ ∧ StackHolds mem' c'.sp l ∧
        ∀ a : Word, 512 ≤ a.toNat → mem' a = mem a := by
  obtain ⟨c', n, -, ⟨ls, hls, rfl, -⟩, h1, h2, h3, mem', h4, h5, h6, h7⟩ := timed_reaches hI hacc hm hpc hcode hl hd h
  have hsp : c'.sp = c.sp := by
    apply BitVec.eq_of_toNat_eq
    have e : (c'.sp.toNat + 0) % 256 = c.sp.toNat := h3
    rw [← e, Nat.add_zero, Nat.mod_eq_of_lt c'.sp.isLt]
  exact ⟨ls, c', hls, rfl, C12_run_eq hls (Nat.le_refl _) (.inl rfl), h1,
    ⟨h2.x, h2.y, hsp, h2.decimal, h2.interrupt, h2.brk, h2.unused⟩, mem', h4, h5, h7, h6⟩

/-- C100: a program that ends has exactly one running time at each address. -/
theorem C100_unique {d n : Nat} {σ σ' : Store Byte} (h : Exec mosCosts body d prog σ n σ') (p : Nat) :
    ∃ t, Takes mosRTarget mosTimes body entry d p prog σ t σ' ∧
      ∀ d' t' σ'', Takes mosRTarget mosTimes body entry d' p prog σ t' σ'' → t' = t ∧ σ'' = σ' := by
  obtain ⟨t, ht⟩ := exec_takes (T := mosRTarget) (k := mosTimes) (entry := entry) h p
  exact ⟨t, ht, fun _ _ _ h' => takes_unique h' ht⟩

theorem prefix_cycles {ls ls' : List Operations} {d e : Mos6502 B} (h : Instructions b c ls d)
    (h' : Instructions b c ls' e) (hlen : ls.length ≤ ls'.length) : totalCycles ls ≤ totalCycles ls' := by
  induction h generalizing ls' with
  | nil => exact Nat.zero_le _
  | cons hn _ ih =>
    cases h' with
    | nil => simp at hlen
    | cons hn' hr' =>
      rw [hn] at hn'
      injection hn' with hn'
      injection hn' with h1 h2
      subst h1
      subst h2
      have := ih hr' (by simpa using hlen)
      simp only [totalCycles_cons]
      omega

/-- C100: as long as the executed instructions take less than that time, the emulator is inside the
code of program and procedures. -/
theorem C100_not_before (hI : Coherent b I) (hacc : AcceptsAt b I fun a => a.toNat < 512)
    (hm : I c.address_map mem) (hpc : c.pc = word p) (hcode : InMemory mem body entry p prog)
    (hl : StackHolds mem c.sp l) {d t : Nat} {σ : Store Byte} (hd : d + l.length ≤ 256)
    (h : Takes mosRTarget mosTimes body entry d p prog (zeroPage mem) t σ)
    {ls : List Operations} {c' : Mos6502 B} (hi : Instructions b c ls c') (ht : totalCycles ls < t) :
    ∃ q, c'.pc = word q ∧ Inside body entry p prog q := by
  obtain ⟨c₁, n, he, ⟨ls', h1, h2, h3⟩, -⟩ := timed_reaches hI hacc hm hpc hcode hl hd h
  obtain ⟨c₂, hw, -⟩ := rcompile_exec (mos_rworks hI hacc hl.1) (inMemory_loaded hcode) he hcode.main hcode.mainFits
    (fun q a b => .inl ⟨a, b⟩) (by simp only [room]; omega) (within_self hm hpc hl)
  by_cases hlen : ls.length < n
  · obtain ⟨u, hu⟩ := hw.take (m := ls.length + 1) (by omega)
    obtain ⟨v, fs, σ', q, hv, hr, hq⟩ := hu.last
    obtain ⟨ls₄, h6, h7⟩ := walk_instructions hv
    obtain ⟨-, rfl⟩ := instructions_same hi h6 h7.symm
    exact ⟨q, hr.pc, hq⟩
  · have := prefix_cycles h1 hi (by omega)
    omega

end

/-- The recursion of `C95`: ten cycles for the last call and 55 for each level above it; one more for
each if the page ends in the test. -/
theorem xorBody_takes (e k : Nat) (hk : k = if (e + 9) / 256 = (e + 4) / 256 then 55 else 56) (m : Nat) :
    ∀ σ : Store Byte, (σ 0).toNat = m →
    Takes mosRTarget mosTimes xorBody (fun _ => e) (3 * m) e (xorBody ()) σ (k * m + 10)
      (put σ 1 (σ 1 ^^^ xorTo m)) := by
  induction m with
  | zero =>
    intro σ h
    have h0 : σ 0 = 0 := BitVec.eq_of_toNat_eq h
    have e' : put σ 1 (σ 1 ^^^ xorTo 0) = σ := by
      funext y
      unfold put
      split
      · rename_i hy; rw [hy]; simp [xorTo]
      · rfl
    rw [e']
    exact .iteFalse (g := .neK 0 0) (fun hn => hn h0) .skip
  | succ m ih =>
    intro σ h
    have hg : Guard.Holds σ (.neK 0 0) := by
      intro h0
      change σ 0 = 0 at h0
      rw [h0] at h
      cases h
    have hm : m < 256 := by have := (σ 0).isLt; omega
    have hx : σ 0 = BitVec.ofNat 8 (m + 1) := by rw [← h]; simp
    obtain ⟨σ₁, hσ⟩ : ∃ σ₁, σ₁ = Act.eval σ (.add 0 0xff) := ⟨_, rfl⟩
    have e0 : (σ₁ 0).toNat = m := by
      rw [hσ]
      show (BitVec.ofNat 8 ((σ 0).toNat + (0xff : Byte).toNat)).toNat = m
      rw [BitVec.toNat_ofNat, show (0xff : Byte).toNat = 255 from rfl]
      omega
    have ev : Act.eval (put (put σ₁ 1 (σ₁ 1 ^^^ xorTo m)) 0 (σ 0)) (.xor 1 0) =
        put σ 1 (σ 1 ^^^ xorTo (m + 1)) := by
      funext y
      rw [hσ]
      simp only [Act.eval, put, xorTo, ← hx]
      by_cases h1 : y = 1
      · subst h1
        simp only [if_true, if_neg (show ¬ (1 : Byte) = 0 by decide)]
        rw [BitVec.xor_assoc]
      · by_cases h2 : y = 0
        · subst h2
          simp
        · rw [if_neg h1, if_neg h2, if_neg h1, if_neg h2, if_neg h1]
    have ec : k * (m + 1) + 10 = mosTimes.testTrue e (.neK 0 0) +
        (mosTimes.save + (mosTimes.act (.add 0 0xff) + (mosTimes.call + (k * m + 10) + mosTimes.ret)) +
          mosTimes.restore + mosTimes.act (.xor 1 0)) + mosTimes.jump := by
      show _ = 7 + 1 + (if (e + 9) / 256 = (e + 4) / 256 then 0 else 1) +
        (6 + (10 + (6 + (k * m + 10) + 6)) + 7 + 9) + 3
      have : k * (m + 1) = k * m + k := Nat.mul_succ ..
      by_cases hc : (e + 9) / 256 = (e + 4) / 256
      · rw [if_pos hc] at hk ⊢; omega
      · rw [if_neg hc] at hk ⊢; omega
    rw [ec, ← ev]
    refine .iteTrue (c' := .skip) hg (.seq (.keeping (.seq ?_ (.call (f := ()) (ih σ₁ e0)))) .act)
    rw [hσ]
    exact .act

/-- Twelve levels of recursion take 12 · 55 + 10 cycles, call and return 12 more. -/
example : ∃ d, run .debug (recSample xorBody) 682 = .ok (.ready d) ∧ d.pc = 0x303 ∧ d.address_map.mem 1 = 25 := by
  obtain ⟨ls, d, -, -, h3, h4, -, mem, rfl, h6, -⟩ := C100_time (b := .debug) (p := 0x300) (prog := .call ())
    (c := recSample xorBody) (body := xorBody) (l := [0, 0, 0, 0]) (d := 38) (flatRam_coherent _)
    (flatRam_acceptsAt _ _) rfl rfl (recSample_inMemory xorBody (by decide)) ⟨by decide, by decide +kernel⟩ (by decide)
    (.call (xorBody_takes 0x304 55 (by decide) 12 _ (by decide +kernel)))
  refine ⟨d, h3, h4, ?_⟩
  have := congrFun h6 1
  change d.address_map.mem 1 = _ at this
  rw [this]
  decide +kernel

/-- Where a page ends in the test, twelve levels take twelve cycles more. -/
example (σ : Store Byte) (h : (σ 0).toNat = 12) :
    Takes mosRTarget mosTimes xorBody (fun _ => 0x3f8) 36 0x3f8 (xorBody ()) σ 682 (put σ 1 (σ 1 ^^^ xorTo 12)) :=
  xorBody_takes 0x3f8 56 (by decide) 12 σ h

/-- Instructions of less than 682 cycles do not lead to 0x303. -/
example (ls : List Operations) (d : Mos6502 FlatRam) (h : Instructions .release (recSample xorBody) ls d)
    (ht : totalCycles ls < 682) : d.pc ≠ word 0x303 := by
  obtain ⟨q, h1, h2⟩ := C100_not_before (b := .release) (p := 0x300) (prog := .call ())
    (c := recSample xorBody) (body := xorBody) (l := []) (d := 38) (flatRam_coherent _)
    (flatRam_acceptsAt _ _) rfl rfl (recSample_inMemory xorBody (by decide)) ⟨by decide, fun k hk => by cases hk⟩
    (by decide) (.call (xorBody_takes 0x304 55 (by decide) 12 _ (by decide +kernel))) h ht
  rw [h1]
  intro e
  have e := congrArg BitVec.toNat e
  have hq : (q < 0x303 ∨ 0x304 ≤ q) ∧ q < 0x400 := by
    rcases h2 with ⟨a, b⟩ | ⟨_, a, b⟩
    · have b' : q < 0x300 + 3 := b
      omega
    · have b' : q < 0x304 + 34 + 1 := b
      have a' : 0x304 ≤ q := a
      omega
  rw [toNat_word_lt _ (by omega), toNat_word_lt _ (by omega)] at e
  omega

/-- Every program that ends has its time: the twelve levels have no other. -/
example (σ : Store Byte) (h : (σ 0).toNat = 12) (d t : Nat) (σ' : Store Byte)
    (ht : Takes mosRTarget mosTimes xorBody (fun _ => 0x304) d 0x304 (xorBody ()) σ t σ') : t = 670 := by
  obtain ⟨t₀, h0, hu⟩ := C100_unique (entry := fun _ => 0x304) (xorBody_exec 12 σ h) 0x304
  rw [(hu _ _ _ ht).1]
  exact ((hu _ _ _ (xorBody_takes 0x304 55 (by decide) 12 σ h)).1).symm

end Verif.Props
