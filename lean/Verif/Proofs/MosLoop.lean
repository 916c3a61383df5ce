import Verif.Proofs.MosChain

/-!
# Executing the copy loop
-/

namespace Verif.Mos

open Verif Verif.Spec.Mos

section
variable {B : Type} [Addressable B] {b : Build} {I : B → Mem → Prop}

/-- The bytes of the copy program. -/
structure CopyCode (mem : Mem) (d : Byte) (p n src dst : Nat) : Prop where
  ldx : mem (word p) = 0xa2 ∧ mem (word p + 1) = byte n
  lda : mem (word (p + 2)) = 0xbd ∧ mem (word (p + 2) + 1) = byte (src - 1) ∧
    mem (word (p + 2) + 2) = byte ((src - 1) / 256)
  sta : mem (word (p + 5)) = 0x9d ∧ mem (word (p + 5) + 1) = byte (dst - 1) ∧
    mem (word (p + 5) + 2) = byte ((dst - 1) / 256)
  dex : mem (word (p + 8)) = 0xca
  bne : mem (word (p + 9)) = 0xd0 ∧ mem (word (p + 9) + 1) = d

theorem copyCode {mem : Mem} {d : Byte} {p n src dst : Nat}
    (h : CodeAt mem p (copyProgram d n src dst)) : CopyCode mem d p n src dst := by
  obtain ⟨h1, h⟩ := codeAt_append h
  obtain ⟨h2, h⟩ := codeAt_append h
  obtain ⟨h3, h4⟩ := codeAt_append h
  change CodeAt mem (p + 2) _ at h2
  change CodeAt mem (p + 2 + 3) _ at h3
  change CodeAt mem (p + 2 + 3 + 3) _ at h4
  refine ⟨⟨h1 0 (by simp), ?_⟩, code3 h2, code3 h3, h4 0 (by simp), h4 1 (by simp), ?_⟩
  · have := h1 1 (by simp); rwa [← word_add] at this
  · have := h4 2 (by simp)
    have e : word (p + 9) + 1 = word (p + 2 + 3 + 3 + 2) := by
      rw [show (1 : Word) = BitVec.ofNat 16 1 from rfl, word_add]
    rw [e]; exact this

theorem pcOk_of {t : Regs} {q : Nat} (ht : t.pc = word q) (hq : q < 65534) : PcOk b t :=
  .inr (by rw [ht, toNat_word_lt q (by omega)]; exact hq)

theorem nextPc_of {t : Regs} {q : Nat} (ht : t.pc = word q) (hq : q < 65534) (am : AddrMode) :
    nextPc t am = word (q + size am) := by
  unfold nextPc; rw [ht, toNat_word_lt q (by omega)]

variable {W : Word → Prop} {mem : Mem} {d : Byte} {p n src dst : Nat} {s : Regs}

theorem copy_ldx (hI : Coherent b I) (hacc : AcceptsAt b I W) (hc : CopyCode mem d p n src dst)
    (hp : p + 11 ≤ 65532) (hpc : s.pc = word p) :
    Reaches b I s mem 1 2 { s with x := byte n, p := setNZ s.p (byte n), pc := word (p + 2) } mem := by
  have := reaches_one (b := b) (I := I) (r := s) (mem := mem) hI hacc (mn := .Ldx)
    (am := .immediate (byte n)) (i := .LdxImmediate (byte n)) (pcOk_of hpc (by omega))
    (by rw [hpc, hc.ldx.1, hc.ldx.2]; rfl) rfl trivial (fun w hw => by cases hw)
  have e : (codeEffect s mem .Ldx (.immediate (byte n))).regs =
      { s with x := byte n, p := setNZ s.p (byte n), pc := word (p + 2) } := by
    show ({ s with x := byte n, p := setNZ s.p (byte n), pc := nextPc s (.immediate (byte n)) } : Regs) = _
    rw [nextPc_of hpc (by omega)]; rfl
  rw [e] at this
  exact this

theorem word_index {w : Nat} {x : Byte} (h : w < 65536) (hx : 1 ≤ x.toNat) (hw : 1 ≤ w) :
    word ((word (w - 1)).toNat + x.toNat) = word (w + (x.toNat - 1)) := by
  rw [toNat_word_lt _ (by omega)]; congr 1; omega

theorem copy_lda (hI : Coherent b I) (hacc : AcceptsAt b I W) (hc : CopyCode mem d p n src dst)
    (hp : p + 11 ≤ 65532) (hs : 1 ≤ src ∧ src < 65536) (hpc : s.pc = word (p + 2)) (hx : 1 ≤ s.x.toNat) :
    Reaches b I s mem 1 (4 + crosses (src - 1) (word (src + (s.x.toNat - 1))).toNat)
      { s with a := mem (word (src + (s.x.toNat - 1)))
               p := setNZ s.p (mem (word (src + (s.x.toNat - 1)))), pc := word (p + 5) } mem := by
  have := reaches_one (b := b) (I := I) (r := s) (mem := mem) hI hacc (mn := .Lda)
    (am := .absoluteX (word (src - 1))) (i := .LdaAbsoluteIndexedWithX (word (src - 1)))
    (pcOk_of hpc (by omega))
    (by rw [hpc, hc.lda.1, hc.lda.2.1, hc.lda.2.2]
        show some (InstructionVariant.LdaAbsoluteIndexedWithX _) = _
        rw [word_lohi]) rfl trivial (fun w hw => by cases hw)
  have e : (codeEffect s mem .Lda (.absoluteX (word (src - 1)))).regs =
      { s with a := mem (word (src + (s.x.toNat - 1)))
               p := setNZ s.p (mem (word (src + (s.x.toNat - 1)))), pc := word (p + 5) } := by
    show ({ s with a := mem (word ((word (src - 1)).toNat + s.x.toNat))
                   p := setNZ s.p (mem (word ((word (src - 1)).toNat + s.x.toNat)))
                   pc := nextPc s (.absoluteX (word (src - 1))) } : Regs) = _
    rw [nextPc_of hpc (by omega), word_index hs.2 hx hs.1]; rfl
  rw [e] at this
  have c : codePenalty s mem .Lda (.absoluteX (word (src - 1))) =
      crosses (src - 1) (word (src + (s.x.toNat - 1))).toNat := by
    show crosses (word (src - 1)).toNat (word ((word (src - 1)).toNat + s.x.toNat)).toNat = _
    rw [word_index hs.2 hx hs.1, toNat_word_lt _ (by omega)]
  rw [c] at this
  exact this

theorem copy_sta (hI : Coherent b I) (hacc : AcceptsAt b I W) (hc : CopyCode mem d p n src dst)
    (hp : p + 11 ≤ 65532) (hs : 1 ≤ dst ∧ dst < 65536) (hpc : s.pc = word (p + 5)) (hx : 1 ≤ s.x.toNat)
    (hW : W (word (dst + (s.x.toNat - 1)))) :
    Reaches b I s mem 1 5 { s with pc := word (p + 8) }
      (upd mem (word (dst + (s.x.toNat - 1))) s.a) := by
  have ei : ea s mem (.absoluteX (word (dst - 1))) = word (dst + (s.x.toNat - 1)) := word_index hs.2 hx hs.1
  have := reaches_one (b := b) (I := I) (r := s) (mem := mem) hI hacc (mn := .Sta)
    (am := .absoluteX (word (dst - 1))) (i := .StaAbsoluteIndexedWithX (word (dst - 1)))
    (pcOk_of hpc (by omega))
    (by rw [hpc, hc.sta.1, hc.sta.2.1, hc.sta.2.2]
        show some (InstructionVariant.StaAbsoluteIndexedWithX _) = _
        rw [word_lohi]) rfl trivial (fun w hw => by
          change w ∈ [(ea s mem (.absoluteX (word (dst - 1))), s.a)] at hw
          rw [List.mem_singleton, ei] at hw
          subst hw; exact hW)
  have e : codeEffect s mem .Sta (.absoluteX (word (dst - 1))) =
      { regs := { s with pc := word (p + 8) }, writes := [(word (dst + (s.x.toNat - 1)), s.a)] } := by
    show ({ regs := { s with pc := nextPc s (.absoluteX (word (dst - 1))) }
            writes := [(ea s mem (.absoluteX (word (dst - 1))), s.a)] } : Effect) = _
    rw [ei, nextPc_of hpc (by omega)]; rfl
  rw [e] at this
  exact this

theorem copy_dex (hI : Coherent b I) (hacc : AcceptsAt b I W) (hc : CopyCode mem d p n src dst)
    (hp : p + 11 ≤ 65532) (hpc : s.pc = word (p + 8)) :
    Reaches b I s mem 1 2 { s with x := s.x - 1, p := setNZ s.p (s.x - 1), pc := word (p + 9) } mem := by
  have := reaches_one (b := b) (I := I) (r := s) (mem := mem) hI hacc (mn := .Dex)
    (am := .implied) (i := .DexImplied) (pcOk_of hpc (by omega))
    (by rw [hpc, hc.dex]; rfl) rfl trivial (fun w hw => by cases hw)
  have e : (codeEffect s mem .Dex .implied).regs =
      { s with x := s.x - 1, p := setNZ s.p (s.x - 1), pc := word (p + 9) } := by
    show ({ s with x := s.x - 1, p := setNZ s.p (s.x - 1), pc := nextPc s .implied } : Regs) = _
    rw [nextPc_of hpc (by omega)]; rfl
  rw [e] at this
  exact this

theorem copy_bne (hI : Coherent b I) (hacc : AcceptsAt b I W) (hc : CopyCode mem d p n src dst)
    (hp : p + 11 ≤ 65532) (hpc : s.pc = word (p + 9)) :
    (s.p.zero = true → Reaches b I s mem 1 2 { s with pc := word (p + 11) } mem) ∧
    (s.p.zero = false → Reaches b I s mem 1 (3 + crosses (codeTarget (word (p + 9)) d).toNat (p + 9))
      { s with pc := codeTarget (word (p + 9)) d } mem) := by
  have := reaches_one (b := b) (I := I) (r := s) (mem := mem) hI hacc (mn := .Bne)
    (am := .relative d) (i := .BneRelative d) (pcOk_of hpc (by omega))
    (by rw [hpc, hc.bne.1, hc.bne.2]; rfl) rfl trivial (fun w hw => by cases hw)
  constructor
  · intro hz
    have e : (codeEffect s mem .Bne (.relative d)).regs = { s with pc := word (p + 11) } := by
      show ({ s with pc := if !s.p.zero then codeTarget s.pc d else nextPc s (.relative d) } : Regs) = _
      rw [hz, nextPc_of hpc (by omega)]; rfl
    have c : codePenalty s mem .Bne (.relative d) = 0 := by
      show (if some (!s.p.zero) = some true then _ else 0) = 0
      rw [hz]; rfl
    rw [e, c] at this
    exact this
  · intro hz
    have e : (codeEffect s mem .Bne (.relative d)).regs = { s with pc := codeTarget (word (p + 9)) d } := by
      show ({ s with pc := if !s.p.zero then codeTarget s.pc d else nextPc s (.relative d) } : Regs) = _
      rw [hz, hpc]; rfl
    have c : codePenalty s mem .Bne (.relative d) = 1 + crosses (codeTarget s.pc d).toNat s.pc.toNat := by
      show (if some (!s.p.zero) = some true then _ else 0) = _
      rw [hz]; rfl
    rw [e, c] at this
    have e4 : p + 9 = s.pc.toNat := by rw [hpc, toNat_word_lt _ (by omega)]
    have e5 : word (p + 9) = s.pc := hpc.symm
    rw [e5] at this ⊢
    rw [e4]
    have e3 : 3 + crosses (codeTarget s.pc d).toNat s.pc.toNat =
      baseCycles .Bne (.relative d) + (1 + crosses (codeTarget s.pc d).toNat s.pc.toNat) := by
        show _ = 2 + _; omega
    rw [e3]; exact this

theorem word_congr {x y : Nat} (h : x % 65536 = y % 65536) : word x = word y := by
  apply BitVec.eq_of_toNat_eq; rw [toNat_word, toNat_word]; exact h

theorem codeTarget_back7 (p : Nat) : codeTarget (word (p + 9)) back7 = word (p + 2) := by
  have e : back7.signExtend 16 = BitVec.ofNat 16 65529 := by decide
  unfold codeTarget
  rw [e, word_add]
  exact word_congr (by omega)

theorem codeTarget_back9 (p : Nat) : codeTarget (word (p + 9)) back9 = word p := by
  have e : back9.signExtend 16 = BitVec.ofNat 16 65527 := by decide
  unfold codeTarget
  rw [e, word_add]
  exact word_congr (by omega)

/-- Memory after `i` rounds of the loop, the last byte first. -/
def copyMem (src dst : Nat) : Nat → Mem → Mem
  | 0, mem => mem
  | i + 1, mem => copyMem src dst i (upd mem (word (dst + i)) (mem (word (src + i))))

theorem upd_same (mem : Mem) (x : Word) (v : Byte) : upd mem x v x = v := by
  show (if x = x then v else mem x) = v
  rw [if_pos rfl]

theorem upd_other (mem : Mem) {x y : Word} (v : Byte) (h : y ≠ x) : upd mem x v y = mem y := by
  show (if y = x then v else mem y) = mem y
  rw [if_neg h]

theorem word_ne {x y : Nat} (hx : x < 65536) (hy : y < 65536) (h : x ≠ y) : word x ≠ word y := by
  intro e
  have := congrArg BitVec.toNat e
  rw [toNat_word_lt x hx, toNat_word_lt y hy] at this
  exact h this

theorem copyMem_outside (i : Nat) : ∀ (mem : Mem) (x : Word), dst + i ≤ 65536 → ¬ InArea dst i x →
    copyMem src dst i mem x = mem x := by
  induction i with
  | zero => intros; rfl
  | succ i ih =>
    intro mem x h hx
    rw [copyMem, ih _ _ (by omega) (fun q => hx ⟨q.1, by have := q.2; omega⟩), upd_other]
    intro e
    have := congrArg BitVec.toNat e
    rw [toNat_word_lt _ (by omega)] at this
    exact hx ⟨by omega, by omega⟩

theorem copyMem_copied (i : Nat) : ∀ (mem : Mem) (j : Nat), dst + i ≤ 65536 → src + i ≤ 65536 →
    (src ≤ dst ∨ dst + i ≤ src) → j < i → copyMem src dst i mem (word (dst + j)) = mem (word (src + j)) := by
  induction i with
  | zero => intro mem j _ _ _ hj; omega
  | succ i ih =>
    intro mem j hd hs ho hj
    rw [copyMem]
    by_cases h : j = i
    · subst h
      rw [copyMem_outside _ _ _ (by omega) (fun q => by
        have := q.2
        rw [toNat_word_lt _ (by omega)] at this
        omega), upd_same]
    · rw [ih _ _ (by omega) (by omega) (by omega) (by omega),
        upd_other _ _ (word_ne (by omega) (by omega) (by omega))]

theorem copyCode_upd (hc : CopyCode mem d p n src dst) (hp : p + 11 ≤ 65532) {i k : Nat}
    (hi : dst + k ≤ 65536) (hik : i < k) (ha : Apart dst k p 11) (v : Byte) :
    CopyCode (upd mem (word (dst + i)) v) d p n src dst := by
  have key : ∀ q, q < 11 → upd mem (word (dst + i)) v (word (p + q)) = mem (word (p + q)) := by
    intro q hq
    refine upd_other _ _ (word_ne (by omega) (by omega) ?_)
    rcases ha with h | h <;> omega
  have e1 : word p + 1 = word (p + 1) := word_add p 1
  have e2 : ∀ q, word (p + q) + 1 = word (p + (q + 1)) := fun q => word_add (p + q) 1
  have e3 : ∀ q, word (p + q) + 2 = word (p + (q + 2)) := fun q => word_add (p + q) 2
  obtain ⟨h1, h2, h3, h4, h5⟩ := hc
  rw [e1] at h1
  rw [e2, e3] at h2 h3
  rw [e2] at h5
  constructor
  · rw [e1, key 1 (by omega)]
    have := key 0 (by omega)
    rw [Nat.add_zero] at this
    rw [this]; exact h1
  · rw [e2, e3, key _ (by omega), key _ (by omega), key _ (by omega)]; exact h2
  · rw [e2, e3, key _ (by omega), key _ (by omega), key _ (by omega)]; exact h3
  · rw [key _ (by omega)]; exact h4
  · rw [e2, key _ (by omega), key _ (by omega)]; exact h5

/-- `LDA / STA / DEX`: from the head of the loop with `X = i + 1`. -/
theorem copy_body (hI : Coherent b I) (hl : CopyLayout p n src dst) (hacc : AcceptsAt b I (InArea dst n))
    (hc : CopyCode mem d p n src dst) {i : Nat} (hi : i < n) (hpc : s.pc = word (p + 2))
    (hx : s.x.toNat = i + 1) :
    ∃ s', Reaches b I s mem 3 (11 + crosses (src - 1) (src + i)) s'
      (upd mem (word (dst + i)) (mem (word (src + i)))) ∧ s'.pc = word (p + 9) ∧ s'.x.toNat = i ∧
      s'.p.zero = decide (i = 0) ∧ s'.y = s.y ∧ s'.sp = s.sp ∧
      CopyCode (upd mem (word (dst + i)) (mem (word (src + i)))) d p n src dst := by
  have hp := hl.code
  have h1 := hl.source
  have h2 := hl.target
  have hn := hl.count
  have r1 := copy_lda hI hacc hc hp ⟨h1.1, by omega⟩ hpc (by omega)
  have hi' : s.x.toNat - 1 = i := by omega
  rw [hi', toNat_word_lt _ (by omega)] at r1
  have r2 := copy_sta (s := { s with
      a := mem (word (src + i)), p := setNZ s.p (mem (word (src + i))), pc := word (p + 5) })
    hI hacc hc hp ⟨h2.1, by omega⟩ rfl (by show 1 ≤ s.x.toNat; omega)
    (by show InArea dst n (word (dst + (s.x.toNat - 1)))
        rw [hi']
        constructor <;> rw [toNat_word_lt _ (by omega)] <;> omega)
  change Reaches b I _ mem 1 5 _ (upd mem (word (dst + (s.x.toNat - 1))) (mem (word (src + i)))) at r2
  rw [hi'] at r2
  have hc' := copyCode_upd hc hp h2.2 hi hl.safe (mem (word (src + i)))
  have r3 := copy_dex hI hacc hc' hp (s := { s with
      a := mem (word (src + i)), p := setNZ s.p (mem (word (src + i))), pc := word (p + 8) }) rfl
  have hx1 : (s.x - 1).toNat = i := by
    rw [BitVec.toNat_sub]
    have : (1 : Byte).toNat = 1 := rfl
    rw [this, hx]; omega
  refine ⟨{ s with a := mem (word (src + i)), x := s.x - 1,
                      p := setNZ (setNZ s.p (mem (word (src + i)))) (s.x - 1), pc := word (p + 9) },
    ?_, rfl, hx1, ?_, rfl, rfl, hc'⟩
  rotate_left
  · show decide ((s.x - 1).toNat = 0) = _
    rw [hx1]
  · have := (r1.trans r2).trans r3
    have e : 11 + crosses (src - 1) (src + i) = 4 + crosses (src - 1) (src + i) + 5 + 2 := by omega
    rw [e]; exact this

/-- The cycles of the loop with `i + 1` bytes to go. -/
theorem copyLoopCycles_succ (p src i : Nat) : copyLoopCycles p (i + 2) src =
    copyLoopCycles p (i + 1) src + (14 + crosses (src - 1) (src + (i + 1)) + crosses (p + 2) (p + 9)) := by
  unfold copyLoopCycles
  rw [List.range_succ (n := i + 1), List.map_append, List.sum_append]
  simp only [List.map_cons, List.map_nil, List.sum_cons, List.sum_nil, Nat.add_sub_cancel,
    show i + 2 - 1 = i + 1 by omega, Nat.succ_mul]
  omega

/-- The loop with the displacement that leads to its head. -/
theorem copy_loop (hI : Coherent b I) (hl : CopyLayout p n src dst) (hacc : AcceptsAt b I (InArea dst n))
    (i : Nat) : ∀ (s : Regs) (mem : Mem), CopyCode mem back7 p n src dst → i < n → s.pc = word (p + 2) →
      s.x.toNat = i + 1 →
    ∃ c s', c + 2 = copyLoopCycles p (i + 1) src ∧
      Reaches b I s mem (4 * i + 4) c s' (copyMem src dst (i + 1) mem) ∧
      s'.pc = word (p + 11) ∧ s'.x = 0 ∧ s'.y = s.y ∧ s'.sp = s.sp := by
  induction i with
  | zero =>
    intro s mem hc hi hpc hx
    obtain ⟨s1, r1, q1, q2, q3, q4, q5, hc'⟩ := copy_body hI hl hacc hc hi hpc hx
    have r2 := (copy_bne hI hacc hc' hl.code q1).1 (by rw [q3]; rfl)
    refine ⟨_, { s1 with pc := word (p + 11) }, ?_, r1.trans r2, rfl, ?_, q4, q5⟩
    · show 11 + crosses (src - 1) (src + 0) + 2 + 2 = 14 * 1 + 1 + (crosses (src - 1) (src + 0) + 0) + 0 * _
      omega
    · exact BitVec.eq_of_toNat_eq (by rw [q2]; rfl)
  | succ i ih =>
    intro s mem hc hi hpc hx
    obtain ⟨s1, r1, q1, q2, q3, q4, q5, hc'⟩ := copy_body hI hl hacc hc hi hpc hx
    have r2 := (copy_bne hI hacc hc' hl.code q1).2 (by rw [q3]; simp)
    have hp := hl.code
    rw [codeTarget_back7, toNat_word_lt _ (by omega)] at r2
    obtain ⟨c3, s', h1, r3, t1, t2, t3, t4⟩ := ih { s1 with pc := word (p + 2) } _ hc' (by omega) rfl q2
    refine ⟨11 + crosses (src - 1) (src + (i + 1)) + (3 + crosses (p + 2) (p + 9)) + c3, s', ?_, ?_, t1, t2,
      t3.trans q4, t4.trans q5⟩
    rotate_left
    · have := (r1.trans r2).trans r3
      have e : 4 * (i + 1) + 4 = 3 + 1 + (4 * i + 4) := by omega
      rw [e]; exact this
    · rw [copyLoopCycles_succ]
      omega

end

end Verif.Mos
