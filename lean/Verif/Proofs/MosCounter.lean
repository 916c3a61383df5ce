import Verif.Props.Mos.Structured
import Verif.Spec.MosCounter

/-!
# Counting up, a pass at a time
-/

namespace Verif.Mos

open Verif Verif.Spec.Mos Verif.Props

section
variable {B : Type} [Addressable B] {b : Build} {I : B → Mem → Prop} {W : Word → Prop}

theorem counterCode_length (p i n : Nat) : (counterCode p i n).length = 8 * n + 1 := by
  induction n generalizing i with
  | zero => rfl
  | succ n ih =>
    simp only [counterCode, op16, List.length_append, List.length_cons, List.length_nil, ih]
    omega

theorem number_low (mem : Mem) (a n : Nat) :
    number mem a (n + 1) = (mem (word a)).toNat + 256 * number mem (a + 1) n := by
  induction n with
  | zero => simp [number]
  | succ n ih =>
    rw [number, ih, number, Nat.pow_succ, Nat.mul_add, show a + (n + 1) = a + 1 + n by omega]
    rw [Nat.mul_comm (256 ^ n) 256, Nat.mul_assoc]
    omega

theorem number_lt (mem : Mem) (a n : Nat) : number mem a n < 256 ^ n := by
  induction n generalizing a with
  | zero => simp [number]
  | succ n ih =>
    rw [number_low, Nat.pow_succ]
    have := ih (a + 1)
    have := (mem (word a)).isLt
    omega

theorem number_congr {mem mem' : Mem} {a n : Nat} (h : ∀ k, k < n → mem' (word (a + k)) = mem (word (a + k))) :
    number mem' a n = number mem a n := by
  induction n with
  | zero => rfl
  | succ n ih => rw [number, number, ih fun k hk => h k (by omega), h n (by omega)]

/-- Nothing but `n` bytes from `i` on has changed. -/
def OnlyAt (i n : Nat) (mem mem' : Mem) : Prop := ∀ x : Word, ¬ InArea i n x → mem' x = mem x

theorem codeAt_only {mem mem' : Mem} {q i n : Nat} {c : List Byte} (h : OnlyAt i n mem mem')
    (hc : CodeAt mem q c) (hq : i + n ≤ q) (hl : q + c.length ≤ 65536) : CodeAt mem' q c := by
  intro k hk
  rw [h _ (by unfold InArea; rw [toNat_word_lt _ (by omega)]; omega)]
  exact hc k hk

section steps
variable {mem : Mem} {s : Regs}

theorem counter_inc (hI : Coherent b I) (hacc : AcceptsAt b I W) {q i : Nat}
    (hc : CodeAt mem q (op16 0xee i)) (hq : q < 65534) (hW : W (word i)) (hpc : s.pc = word q) :
    Reaches b I s mem 1 6
      { s with p := setNZ s.p (byte ((mem (word i)).toNat + 1)), pc := word (q + 3) }
      (upd mem (word i) (byte ((mem (word i)).toNat + 1))) := by
  obtain ⟨h0, h1, h2⟩ := code3 hc
  have := reaches_one (b := b) (I := I) (r := s) (mem := mem) hI hacc (mn := .Inc)
    (am := .absolute (word i)) (i := .IncAbsolute (word i)) (pcOk_of hpc hq)
    (by rw [hpc, h0, h1, h2]
        show some (InstructionVariant.IncAbsolute _) = _
        rw [word_lohi]) rfl trivial (fun w hw => by
          change w ∈ [(word i, _)] at hw
          rw [List.mem_singleton] at hw
          subst hw; exact hW)
  have e : codeEffect s mem .Inc (.absolute (word i)) =
      { regs := { s with p := setNZ s.p (byte ((mem (word i)).toNat + 1)), pc := word (q + 3) }
        writes := [(word i, byte ((mem (word i)).toNat + 1))] } := by
    show ({ regs := { s with p := setNZ s.p (byte ((mem (word i)).toNat + 1))
                             pc := nextPc s (.absolute (word i)) }
            writes := [(word i, byte ((mem (word i)).toNat + 1))] } : Effect) = _
    rw [nextPc_of hpc hq]; rfl
  rw [e] at this
  exact this

theorem counter_beq (hI : Coherent b I) (hacc : AcceptsAt b I W) {q : Nat}
    (hc : CodeAt mem q [0xf0, 0x05]) (hq : q < 65534) (hpc : s.pc = word q) :
    (s.p.zero = false → Reaches b I s mem 1 2 { s with pc := word (q + 2) } mem) ∧
    (s.p.zero = true → ∃ c, 3 ≤ c ∧ Reaches b I s mem 1 c { s with pc := word (q + 5) } mem) := by
  obtain ⟨h0, h1⟩ := code2 hc
  have := reaches_one (b := b) (I := I) (r := s) (mem := mem) hI hacc (mn := .Beq)
    (am := .relative 0x05) (i := .BeqRelative 0x05) (pcOk_of hpc hq)
    (by rw [hpc, h0, h1]; rfl) rfl trivial (fun w hw => by cases hw)
  constructor
  · intro hz
    have e : (codeEffect s mem .Beq (.relative 0x05)).regs = { s with pc := word (q + 2) } := by
      show ({ s with pc := if s.p.zero then codeTarget s.pc 0x05 else nextPc s (.relative 0x05) } : Regs) = _
      rw [hz, nextPc_of hpc hq]; rfl
    have c : codePenalty s mem .Beq (.relative 0x05) = 0 := by
      show (if some s.p.zero = some true then _ else 0) = 0
      rw [hz]; rfl
    rw [e, c] at this
    exact this
  · intro hz
    have e : (codeEffect s mem .Beq (.relative 0x05)).regs = { s with pc := word (q + 5) } := by
      show ({ s with pc := if s.p.zero then codeTarget s.pc 0x05 else nextPc s (.relative 0x05) } : Regs) = _
      rw [hz, hpc, codeTarget_of (by decide)]; rfl
    have c : codePenalty s mem .Beq (.relative 0x05) =
        1 + crosses (codeTarget s.pc 0x05).toNat s.pc.toNat := by
      show (if some s.p.zero = some true then _ else 0) = _
      rw [hz]; rfl
    rw [e, c] at this
    refine ⟨_, ?_, this⟩
    show 3 ≤ 2 + _
    omega

theorem counter_jmp (hI : Coherent b I) (hacc : AcceptsAt b I W) {q p : Nat}
    (hc : CodeAt mem q (op16 0x4c p)) (hq : q < 65534) (hpc : s.pc = word q) :
    Reaches b I s mem 1 3 { s with pc := word p } mem := by
  obtain ⟨h0, h1, h2⟩ := code3 hc
  have := reaches_one (b := b) (I := I) (r := s) (mem := mem) hI hacc (mn := .Jmp)
    (am := .absolute (word p)) (i := .JmpAbsolute (word p)) (pcOk_of hpc hq)
    (by rw [hpc, h0, h1, h2]
        show some (InstructionVariant.JmpAbsolute _) = _
        rw [word_lohi]) rfl trivial (fun w hw => by cases hw)
  exact this

end steps

/-- One pass: the number counts up and the CPU is back at the beginning, or the number was all ones, is
0 and the CPU is at the end. -/
theorem counter_pass (hI : Coherent b I) (hacc : AcceptsAt b I W) {p : Nat} :
    ∀ (n i q : Nat) (s : Regs) (mem : Mem), CodeAt mem q (counterCode p i n) → i + n ≤ q →
      q + 8 * n < 65534 → (∀ k, k < n → W (word (i + k))) → s.pc = word q →
      ∃ k c s' mem', Reaches b I s mem k c s' mem' ∧ OnlyAt i n mem mem' ∧ (0 < n → 9 ≤ c) ∧
        (number mem i n + 1 < 256 ^ n ∧ s'.pc = word p ∧ number mem' i n = number mem i n + 1 ∨
         number mem i n + 1 = 256 ^ n ∧ s'.pc = word (q + 8 * n)) := by
  intro n
  induction n with
  | zero =>
    intro i q s mem _ _ _ _ hpc
    exact ⟨0, 0, s, mem, .refl, fun _ _ => rfl, fun h => absurd h (by decide), .inr ⟨rfl, hpc⟩⟩
  | succ n ih =>
    intro i q s mem hc hiq hq hW hpc
    have hlen := counterCode_length p i (n + 1)
    have hlow := number_low mem i n
    have hpow : 256 ^ (n + 1) = 256 * 256 ^ n := by rw [Nat.pow_succ, Nat.mul_comm]
    have hnl := number_lt mem (i + 1) n
    have hv := (mem (word i)).isLt
    obtain ⟨c1, -⟩ := codeAt_append hc
    have r1 := counter_inc hI hacc c1 (by omega) (hW 0 (by omega)) hpc
    generalize hw : byte ((mem (word i)).toNat + 1) = w at r1
    have hwn : w.toNat = ((mem (word i)).toNat + 1) % 256 := by rw [← hw]; exact BitVec.toNat_ofNat ..
    have only : OnlyAt i (n + 1) mem (upd mem (word i) w) := by
      intro x hx
      apply upd_other
      rintro rfl
      apply hx
      unfold InArea; rw [toNat_word_lt _ (by omega)]; omega
    have hc' := codeAt_only only hc hiq (by omega)
    obtain ⟨-, c2⟩ := codeAt_append hc'
    obtain ⟨c2, c3⟩ := codeAt_append c2
    obtain ⟨c3, c4⟩ := codeAt_append c3
    change CodeAt _ (q + 3) _ at c2
    change CodeAt _ (q + 3 + 2) _ at c3
    change CodeAt _ (q + 3 + 2 + 3) _ at c4
    have hi1 : upd mem (word i) w (word i) = w := upd_same ..
    have hhigh : number (upd mem (word i) w) (i + 1) n = number mem (i + 1) n := by
      apply number_congr
      intro k hk
      rw [upd_other _ _ (word_ne (by omega) (by omega) (by omega))]
    obtain ⟨b1, b2⟩ := counter_beq (s := { s with p := setNZ s.p w, pc := word (q + 3) })
      hI hacc c2 (by omega) rfl
    have hz : (setNZ s.p w).zero = decide (w.toNat = 0) := rfl
    by_cases h255 : (mem (word i)).toNat = 255
    · have w0 : w = 0 := by apply BitVec.eq_of_toNat_eq; rw [hwn, h255]; rfl
      obtain ⟨c, h3, r2⟩ := b2 (by show (setNZ s.p w).zero = _; rw [hz, w0]; rfl)
      obtain ⟨k, c', s', mem', r3, ho, -, hcase⟩ := ih (i + 1) (q + 8)
        { s with p := setNZ s.p w, pc := word (q + 3 + 5) } (upd mem (word i) w) c4 (by omega) (by omega)
        (fun k hk => by have := hW (k + 1) (by omega); rwa [show i + 1 + k = i + (k + 1) by omega]) rfl
      have hlow' := number_low mem' i n
      have hi' : mem' (word i) = w := by
        rw [ho _ (by unfold InArea; rw [toNat_word_lt _ (by omega)]; omega), hi1]
      rw [hi', w0] at hlow'
      change _ = 0 + _ at hlow'
      refine ⟨_, _, s', mem', (r1.trans r2).trans r3, ?_, fun _ => by omega, ?_⟩
      · intro x hx
        rw [ho x (by unfold InArea at hx ⊢; omega), only x hx]
      · rw [hhigh] at hcase
        rcases hcase with ⟨e1, e2, e3⟩ | ⟨e1, e2⟩
        · exact .inl ⟨by omega, e2, by omega⟩
        · exact .inr ⟨by omega, by rw [e2]; congr 1; omega⟩
    · have w0 : w ≠ 0 := by rintro rfl; change 0 = _ at hwn; omega
      have r2 := b1 (by show (setNZ s.p w).zero = _; rw [hz]; exact decide_eq_false fun h => w0 (BitVec.eq_of_toNat_eq h))
      have r3 := counter_jmp (s := { s with p := setNZ s.p w, pc := word (q + 3 + 2) }) hI hacc c3
        (by omega) rfl
      have hlow' := number_low (upd mem (word i) w) i n
      rw [hi1, hhigh] at hlow'
      exact ⟨_, _, _, _, (r1.trans r2).trans r3, only, fun _ => by omega,
        .inl ⟨by omega, rfl, by omega⟩⟩

/-- All passes. -/
theorem counter_all (hI : Coherent b I) (hacc : AcceptsAt b I W) {p r : Nat} (hr : 0 < r) (hrp : r ≤ p)
    (hp : p + 8 * r < 65534) (hW : ∀ k, k < r → W (word k)) :
    ∀ (m : Nat) (s : Regs) (mem : Mem), CodeAt mem p (counterCode p 0 r) → s.pc = word p →
      number mem 0 r + m = 256 ^ r →
      ∃ k c s' mem', Reaches b I s mem k c s' mem' ∧ OnlyAt 0 r mem mem' ∧ 9 * m ≤ c ∧
        s'.pc = word (p + 8 * r) := by
  intro m
  induction m with
  | zero =>
    intro s mem _ _ hm
    have := number_lt mem 0 r
    omega
  | succ m ih =>
    intro s mem hc hpc hm
    obtain ⟨k, c, s', mem', h1, h2, h3, h4⟩ := counter_pass hI hacc r 0 p s mem hc (by omega) hp
      (fun k hk => by rw [Nat.zero_add]; exact hW k hk) hpc
    have h3 := h3 hr
    rcases h4 with ⟨e1, e2, e3⟩ | ⟨e1, e2⟩
    · have hc' := codeAt_only h2 hc (by omega) (by rw [counterCode_length]; omega)
      obtain ⟨k', c', s'', mem'', g1, g2, g3, g4⟩ := ih s' mem' hc' e2 (by omega)
      exact ⟨_, _, s'', mem'', h1.trans g1, fun x hx => (g2 x hx).trans (h2 x hx), by omega, g4⟩
    · exact ⟨k, c, s', mem', h1, h2, by omega, e2⟩

end

end Verif.Mos
