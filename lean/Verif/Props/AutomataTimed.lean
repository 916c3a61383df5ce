import Verif.Props.Automata
import Verif.Props.Mos.ChartsTimed
import Verif.Proofs.AutomatonTimed

/-!
# C153: the exact running time of every finite automaton, on both machines
-/

namespace Verif.Props

open Verif Verif.Spec.Flow Verif.Flow
open Verif.Spec.Automaton Verif.Automaton
open Verif.Spec.CopyText (Var)
open Verif.Spec.Sort (indexPenalty branchPenalty)
open Verif.Spec.Mos (Mem Coherent AcceptsAt word regs Instructions totalCycles)
open Verif.Turing (ofCosts follows_of_takes)

section
variable {B R : Type} [Addressable B] {b : Build} {I : B → Mem → Prop} {mem : Mem} {p : Nat} {base : Unit → Nat}
  {a : Spec.Automaton.Automaton} {w : List Byte}

/-- An array with the same elements is the same memory. -/
theorem array_unchanged {m mem : Mem} (h : ∀ j : Byte, m (word (base () + j.toNat)) = mem (word (base () + j.toNat)))
    {x : Word} (hx : InArray base x.toNat) : m x = mem x := by
  obtain ⟨u, h1, h2⟩ := hx
  change base () ≤ _ at h1
  change _ < base () + 256 at h2
  have e := h (BitVec.ofNat 8 (x.toNat - base ()))
  have e' : word (base () + (BitVec.ofNat 8 (x.toNat - base ())).toNat) = x := by
    apply BitVec.eq_of_toNat_eq
    unfold Spec.Mos.word
    rw [BitVec.toNat_ofNat, BitVec.toNat_ofNat]
    have := x.isLt
    omega
  rw [e'] at e
  exact e

/-! ### The CHIP-8 -/

theorem automaton_chip8_prices (reg : Var → Fin 15) (base : Unit → Nat) :
    Prices (Chip8.chip8Arrays reg base) (ofCosts (Chip8.chip8ArrayCosts Var Unit)) 2 2 (fun _ => 5) 2 (fun _ => 2) 1 10 where
  start _ := rfl
  fin _ _ := rfl
  read _ := rfl
  no _ _ := rfl
  yes _ _ := rfl
  jump := rfl
  bytes := rfl

theorem automaton_chip8_time (reg : Var → Fin 15) (base : Unit → Nat) (p : Nat) (a : Spec.Automaton.Automaton) (w : List Byte) :
    2 + a.wordTime 2 (stopPrice (Chip8.chip8Arrays reg base) p a 2 (fun _ => 5) (fun _ => 2) 10)
      (bytePrice (Chip8.chip8Arrays reg base) p a (fun _ => 5) 2 (fun _ => 2) 1) 0 0 w = chip8Time a w := by
  unfold chip8Time
  congr 1
  refine wordTime_congr (fun q r hq k => rfl) (fun q r hq k b => ?_) w 0 0
  unfold bytePrice
  dsimp only
  omega

/-- C153 on the CHIP-8: the automaton decides the word in exactly the instructions of the formula. Then the
emulator is behind the code with the answer; after any smaller number it is still inside. -/
theorem C153_chip8 {c : Chip8.Chip8 B R} {reg : Var → Fin 15}
    (hI : Coherent b I) (hacc : AcceptsAt b I fun a => InArray base a.toNat) (hP : Placed base 0 4096)
    (hr : ∀ x y, reg x = reg y → x = y) (h0 : ∀ x, reg x ≠ 0) (hm : I c.address_space mem)
    (hpc : c.pc = BitVec.ofNat 16 p) (hcode : Chip8.CodeIn base mem p ((Chip8.chip8Arrays reg base).assemble p a.chart))
    (hp : p + (Chip8.chip8Arrays reg base).chartSize a.chart < 4096) (hw : w.length < 256)
    (ht : TextAt (fun j => mem (word (base () + j.toNat))) 0 w) (env : Nat → Chip8.Env) :
    (∃ c', Chip8.run b env c (chip8Time a w) = .ok (.ready c') ∧
      c'.pc.toNat = p + (Chip8.chip8Arrays reg base).chartSize a.chart ∧
      Chip8.vars c' (reg .v) = (if a.accepts 0 w then 1 else 0) ∧ I c'.address_space mem) ∧
    ∀ n < chip8Time a w, ∃ c', Chip8.run b env c n = .ok (.ready c') ∧ p ≤ c'.pc.toNat ∧
      c'.pc.toNat < p + (Chip8.chip8Arrays reg base).chartSize a.chart := by
  obtain ⟨s, f, hv, harr⟩ := decides_takes (p := p) (a := a) (automaton_chip8_prices reg base) w
    (Chip8.stateOf reg base c mem) hw ht
  rw [automaton_chip8_time] at f
  have f := follows_of_takes f
  constructor
  · obtain ⟨σ, i, bus, m, e1, e2, e3, e4⟩ := C145_chip8_follows hI hacc hP hr h0 hm hpc hcode hp f env
    rw [entry_out (Nat.le_refl _)] at e1
    have em : m = mem := by
      funext x
      by_cases hx : InArray base x.toNat
      · refine array_unchanged (fun j => ?_) hx
        have e := e4.arr () j
        rw [harr] at e
        exact e
      · exact e4.other x hx
    subst em
    refine ⟨_, e1, ?_, ?_, e2⟩
    · show (BitVec.ofNat 16 _).toNat = _
      rw [BitVec.toNat_ofNat]
      omega
    · rw [← hv, ← e3.var .v]
      show (Vector.ofFn σ)[reg .v] = σ (reg .v)
      simp
  · intro n' hlt
    obtain ⟨d, hd, -⟩ := chart_path (Chip8.chip8Arrays_works hI hacc hP hr h0) hcode (by omega) f (Chip8.arraysAt_self hm hpc)
    obtain ⟨u, hu⟩ := hd.take (m := n' + 1) hlt
    obtain ⟨v, q, hv, ⟨σ, i, bus, mem', rfl, -⟩, hq1, hq2⟩ := hu.last
    have := Chip8.flow_run hv env 0 0
    rw [Nat.add_zero] at this
    refine ⟨Chip8.withVars (Chip8.over c i bus) σ q, by unfold Chip8.run; rw [this]; rfl, ?_⟩
    show _ ≤ (BitVec.ofNat 16 q).toNat ∧ (BitVec.ofNat 16 q).toNat < _
    rw [BitVec.toNat_ofNat, Nat.mod_eq_of_lt (by omega)]
    exact ⟨hq1, hq2⟩

theorem vain_le (r : Row) (b : Byte) : vain r b ≤ r.cases.length := List.findIdx_le_length

/-- C153: the time is linear in the length of the word, with at most `8 + 2 r` instructions for each byte if no
state has more than `r` cases. -/
theorem C153_chip8_linear {r : Nat} (hr : ∀ x ∈ a, x.cases.length ≤ r) (w : List Byte) :
    chip8Time a w ≤ 11 + (8 + 2 * r) * w.length := by
  have := wordTime_le (a := a) (gone := 2) (e := 9) (x := 8 + 2 * r) (stop := fun _ _ => 7 + 2)
    (step := fun r _ _ b => 7 + 2 * vain r b + (if found r b then 2 else 1)) (by omega) (fun _ _ => by omega)
    (fun x hx _ _ b => by
      have h1 := hr x hx
      have h2 := vain_le x b
      by_cases hf : found x b
      · rw [if_pos hf]
        unfold found at hf
        omega
      · rw [if_neg hf]
        omega) w 0 0
  unfold chip8Time
  omega

/-- C153: an automaton whose states are all there reads the whole word, with at least eight instructions for
each byte. -/
theorem C153_chip8_whole (ha : a.complete) (w : List Byte) : 11 + 8 * w.length ≤ chip8Time a w := by
  have := le_wordTime (a := a) (gone := 2) (e := 9) (x := 8) (stop := fun _ _ => 7 + 2)
    (step := fun r _ _ b => 7 + 2 * vain r b + (if found r b then 2 else 1)) ha (fun _ _ => by omega)
    (fun x _ _ b => by split <;> omega) w 0 0 ha.1
  unfold chip8Time
  omega

/-! ### The 6502 -/

theorem automaton_mos_prices (loc : Var → Byte) (base : Unit → Nat) :
    Prices (Mos.mosArrays loc base) (Mos.mosArrayTimes Var base) 8 8 (fun k => 20 + indexPenalty (base ()) k) 10
      (fun q => 11 + branchPenalty q) 3 14 where
  start _ := rfl
  fin _ _ := rfl
  read s := by
    show 3 + (4 + indexPenalty (base ()) (s.var .i).toNat) + 3 + (10 + 0) = _
    omega
  no _ _ := rfl
  yes q _ := by
    show 7 + 1 + branchPenalty q + 3 = _
    omega
  jump := rfl
  bytes := rfl

/-- The blocks of the states lie where they should. -/
theorem mos_rowPlace (loc : Var → Byte) (base : Unit → Nat) (p : Nat) {q : Nat} {r : Row} (h : a[q]? = some r) :
    (Mos.mosArrays loc base).entry p a.chart (rowAt a q) = rowPlace a p q ∧
    ∀ j < r.cases.length, (Mos.mosArrays loc base).entry p a.chart (rowAt a q + 1 + j) = rowPlace a p q + 26 + 12 * j := by
  have size := rows_size (T := Mos.mosArrays loc base) (st := 29) (cs := 12) (fun _ _ => rfl) (fun _ _ _ => rfl)
    (fun _ => rfl) (target a) 3 (a.take q)
  have key : ∀ x ≤ rowLength r, (Mos.mosArrays loc base).entry p a.chart (rowAt a q + x) = rowPlace a p q +
      (Mos.mosArrays loc base).chartSize ((rowBlocks (target a) (rowAt a q) r).take x) := by
    intro x hx
    unfold Target.entry rowAt rowPlace
    rw [show 3 + ((a.take q).map rowLength).sum + x = (((a.take q).map rowLength).sum + x) + 3 by omega]
    show p + (7 + (7 + (7 + (Mos.mosArrays loc base).chartSize ((rowsBlocks (target a) 3 a).take _)))) = _
    rw [rowsBlocks_take _ h _ _ hx, chartSize_append, size]
    omega
  refine ⟨key 0 (Nat.zero_le _), fun j hj => ?_⟩
  rw [Nat.add_assoc, key _ (by unfold rowLength; omega), Nat.add_comm 1 j]
  show _ + ((Mos.mosArrays loc base).blockSize ⟨[.read .v () .i, .base (.add .i 1)], .branch _ _ _⟩ +
    (Mos.mosArrays loc base).chartSize ((caseBlocks _ _ r.cases r.other).take j)) = _
  rw [caseBlocks_take_size (T := Mos.mosArrays loc base) (cl := 12) (fun _ _ _ => rfl) _ r.cases r.other _ (by omega)]
  show _ + (26 + 12 * j) = _
  omega

theorem automaton_mos_time (loc : Var → Byte) (base : Unit → Nat) (p : Nat) (a : Spec.Automaton.Automaton) (w : List Byte) :
    8 + a.wordTime 8 (stopPrice (Mos.mosArrays loc base) p a 8 (fun k => 20 + indexPenalty (base ()) k)
        (fun q => 11 + branchPenalty q) 14)
      (bytePrice (Mos.mosArrays loc base) p a (fun k => 20 + indexPenalty (base ()) k) 10
        (fun q => 11 + branchPenalty q) 3) 0 0 w = mosTime a p (base ()) w := by
  unfold mosTime
  congr 1
  refine wordTime_congr (fun q r hq k => ?_) (fun q r hq k b => ?_) w 0 0
  · unfold stopPrice
    rw [(mos_rowPlace loc base p hq).1]
  · unfold bytePrice
    by_cases hf : found r b
    · rw [if_pos hf, if_pos hf, (mos_rowPlace loc base p hq).2 _ hf]
      dsimp only
      omega
    · rw [if_neg hf, if_neg hf]
      dsimp only
      omega

/-- C153 on the 6502: the automaton decides the word in exactly the cycles of the formula. `run` with them ends
behind the code with the answer; as long as the executed instructions take fewer, the emulator is inside. -/
theorem C153_mos {c : Mos.Mos6502 B} {loc : Var → Byte}
    (hI : Coherent b I) (hacc : AcceptsAt b I (Mos.Written base)) (hP : Placed base 256 65536)
    (hl : ∀ x y, loc x = loc y → x = y) (hm : I c.address_map mem) (hpc : c.pc = word p)
    (hcode : Mos.ProgramIn base mem p ((Mos.mosArrays loc base).assemble p a.chart))
    (hp : p + (Mos.mosArrays loc base).chartSize a.chart ≤ 65532) (hw : w.length < 256)
    (ht : TextAt (fun j => mem (word (base () + j.toNat))) 0 w) :
    (∃ c' m, Mos.run b c (mosTime a p (base ()) w) = .ok (.ready c') ∧
      c'.pc = word (p + (Mos.mosArrays loc base).chartSize a.chart) ∧ I c'.address_map m ∧
      m (Mos.zp (loc .v)) = (if a.accepts 0 w then 1 else 0) ∧
      ∀ x : Word, (∀ y, x ≠ Mos.zp (loc y)) → m x = mem x) ∧
    ∀ {ops d}, Instructions b c ops d → totalCycles ops < mosTime a p (base ()) w →
      ∃ q, d.pc = word q ∧ p ≤ q ∧ q < p + (Mos.mosArrays loc base).chartSize a.chart := by
  obtain ⟨s, f, hv, harr⟩ := decides_takes (p := p) (a := a) (automaton_mos_prices loc base) w
    (Mos.stateOf loc base mem) hw ht
  rw [automaton_mos_time] at f
  refine ⟨?_, fun hi ht => C147_not_before hI hacc hP hl hm hpc hcode hp f hi ht⟩
  obtain ⟨ops, d, -, -, f1, f2, -, m, f3, f4⟩ := C147_time hI hacc hP hl hm hpc hcode hp f
  rw [entry_out (Nat.le_refl _)] at f2
  refine ⟨d, m, f1, f2, f3, (f4.var .v).trans hv, fun x hx => ?_⟩
  by_cases hin : InArray base x.toNat
  · refine array_unchanged (fun j => ?_) hin
    have e := f4.arr () j
    rw [harr] at e
    exact e
  · exact f4.other x hx hin

/-- C153: at most `34 + 10 r` cycles for each byte if no state has more than `r` cases. -/
theorem C153_mos_linear {r p t : Nat} (hr : ∀ x ∈ a, x.cases.length ≤ r) (w : List Byte) :
    mosTime a p t w ≤ 49 + (34 + 10 * r) * w.length := by
  have hi : ∀ k, indexPenalty t k ≤ 1 := fun k => by unfold indexPenalty; split <;> omega
  have hb : ∀ q, branchPenalty q ≤ 1 := fun q => by unfold branchPenalty; split <;> omega
  have := wordTime_le (a := a) (gone := 8) (e := 41) (x := 34 + 10 * r)
    (stop := fun q k => 20 + indexPenalty t k + (11 + branchPenalty (rowPlace a p q + 14)) + 8)
    (step := fun r q k b => 20 + indexPenalty t k + 10 + 10 * vain r b +
      (if found r b then 11 + branchPenalty (rowPlace a p q + 26 + 12 * vain r b) else 3)) (by omega)
    (fun q k => by have := hi k; have := hb (rowPlace a p q + 14); omega)
    (fun x hx q k b => by
      have h1 := hr x hx
      have h2 := vain_le x b
      have := hi k
      have := hb (rowPlace a p q + 26 + 12 * vain x b)
      by_cases hf : found x b
      · rw [if_pos hf]
        unfold found at hf
        omega
      · rw [if_neg hf]
        omega) w 0 0
  unfold mosTime
  omega

/-- C153: at least 33 cycles for each byte if all states are there. -/
theorem C153_mos_whole {p t : Nat} (ha : a.complete) (w : List Byte) : 47 + 33 * w.length ≤ mosTime a p t w := by
  have := le_wordTime (a := a) (gone := 8) (e := 39) (x := 33)
    (stop := fun q k => 20 + indexPenalty t k + (11 + branchPenalty (rowPlace a p q + 14)) + 8)
    (step := fun r q k b => 20 + indexPenalty t k + 10 + 10 * vain r b +
      (if found r b then 11 + branchPenalty (rowPlace a p q + 26 + 12 * vain r b) else 3)) ha
    (fun _ _ => by omega)
    (fun x _ _ b => by split <;> omega) w 0 0 ha.1
  unfold mosTime
  omega

end

/-! ### Concrete cases -/

section
open Verif.Mos (FlatRam)

theorem evenA_complete : evenA.complete := ⟨by decide, by decide⟩

/-- The CHIP-8 needs 58 instructions to refuse `abaca`: 11, nine for each `a` and ten for each other byte. -/
example (env : Nat → Chip8.Env) : (∃ c, Chip8.run .release env (automatonChip8 abaca) 58 = .ok (.ready c) ∧
      c.pc.toNat = 0x200 + 60 ∧ Chip8.vars c 2 = 0) ∧
    ∃ c, Chip8.run .release env (automatonChip8 abaca) 57 = .ok (.ready c) ∧ c.pc.toNat < 0x200 + 60 := by
  have key := C153_chip8 (b := .release) (c := automatonChip8 abaca) (a := evenA) (w := abaca)
    (base := fun _ => 0x800) (reg := copyReg) (p := 0x200) (Mos.flatRam_coherent _) (flatRam_acceptsAt _ _)
    (srcBase_placed 0x800 (by decide) (by decide)).1 copyReg_inj (by rintro ⟨⟩ <;> decide) rfl rfl
    (chip8At200_code (by decide +kernel) (by decide +kernel) (fun _ => by decide)) (by decide +kernel) (by decide)
    ⟨by decide +kernel, by decide, by decide +kernel, by decide, by decide +kernel, by decide, by decide +kernel, by decide,
      by decide +kernel, by decide, by show _ = (0 : Byte); decide +kernel⟩ env
  rw [C148_chip8_size, show chip8Time evenA abaca = 58 by decide +kernel] at key
  obtain ⟨⟨c, h1, h2, h3, -⟩, h4⟩ := key
  obtain ⟨c', h5, -, h6⟩ := h4 57 (by decide)
  exact ⟨⟨c, h1, h2, h3⟩, c', h5, h6⟩

/-- The 6502 needs 215 cycles to accept `abca`: no page is left. -/
example : ∃ d, Mos.run .debug (automatonMos abca) 215 = .ok (.ready d) ∧ d.pc = word (0x400 + 103) ∧
    d.address_map.mem 0x11 = 1 := by
  have key := (C153_mos (b := .debug) (c := automatonMos abca) (a := evenA) (w := abca)
    (base := fun _ => 0x200) (loc := copyLoc) (p := 0x400) (Mos.flatRam_coherent _) (flatRam_acceptsAt _ _)
    (srcBase_placed 0x200 (by decide) (by decide)).2 copyLoc_inj rfl rfl
    (mosAt400_code (by decide +kernel) (fun _ => by decide)) (by decide +kernel) (by decide)
    ⟨by decide +kernel, by decide, by decide +kernel, by decide, by decide +kernel, by decide, by decide +kernel, by decide,
      by show _ = (0 : Byte); decide +kernel⟩).1
  rw [C148_mos_size, show mosTime evenA 0x400 0x200 abca = 215 by decide +kernel] at key
  obtain ⟨d, m, h1, h2, rfl, h3, -⟩ := key
  exact ⟨d, h1, h2, h3⟩

/-- The bounds for this automaton and all words. -/
example (w : List Byte) : 11 + 8 * w.length ≤ chip8Time evenA w ∧ chip8Time evenA w ≤ 11 + 10 * w.length ∧
    47 + 33 * w.length ≤ mosTime evenA 0x400 0x200 w ∧ mosTime evenA 0x400 0x200 w ≤ 49 + 44 * w.length :=
  ⟨C153_chip8_whole evenA_complete w, C153_chip8_linear (r := 1) (by simp [evenA]) w, C153_mos_whole evenA_complete w,
    C153_mos_linear (r := 1) (by simp [evenA]) w⟩

end

end Verif.Props
