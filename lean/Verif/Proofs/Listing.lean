import Verif.Proofs.MosUses
import Verif.Props.Mos.Control
import Verif.Props.Mos.Opcodes
import Verif.Spec.Listing

/-!
# Listings: lemmas for C117
-/

namespace Verif.Mos

open Verif Verif.Spec.Mos

/-- The kind of an addressing mode. -/
def kind : AddrMode → Nat
  | .implied => 0
  | .accumulator => 1
  | .immediate _ => 2
  | .zeroPage _ => 3
  | .zeroPageX _ => 4
  | .zeroPageY _ => 5
  | .absolute _ => 6
  | .absoluteX _ => 7
  | .absoluteY _ => 8
  | .indirect _ => 9
  | .indexedIndirect _ => 10
  | .indirectIndexed _ => 11
  | .relative _ => 12

/-- An addressing mode with another operand. -/
def fill (b1 b2 : Byte) : AddrMode → AddrMode
  | .implied => .implied
  | .accumulator => .accumulator
  | .immediate _ => .immediate b1
  | .zeroPage _ => .zeroPage b1
  | .zeroPageX _ => .zeroPageX b1
  | .zeroPageY _ => .zeroPageY b1
  | .absolute _ => .absolute (operand16 b1 b2)
  | .absoluteX _ => .absoluteX (operand16 b1 b2)
  | .absoluteY _ => .absoluteY (operand16 b1 b2)
  | .indirect _ => .indirect (operand16 b1 b2)
  | .indexedIndirect _ => .indexedIndirect b1
  | .indirectIndexed _ => .indirectIndexed b1
  | .relative _ => .relative b1

theorem documented_fill (op : Nat) (h : op < 256) (b1 b2 : Byte) :
    documented op b1 b2 = (documented op 0 0).map fun i => (i.1, fill b1 b2 i.2) := by
  interval_cases op <;> rfl

theorem kind_fill (b1 b2 : Byte) (am : AddrMode) : kind (fill b1 b2 am) = kind am := by
  cases am <;> rfl

theorem size_fill (b1 b2 : Byte) (am : AddrMode) : size (fill b1 b2 am) = size am := by
  cases am <;> rfl

/-- No two opcodes stand for the same mnemonic and kind of addressing mode. -/
theorem opcodes_differ : ∀ op < 256, ∀ op' < 256,
    (documented op 0 0).map (fun i => (i.1, kind i.2)) = (documented op' 0 0).map (fun i => (i.1, kind i.2)) →
    (documented op 0 0).isSome → op = op' := by
  decide +kernel

theorem operand16_inj {a b c d : Byte} (h : operand16 a b = operand16 c d) : a = c ∧ b = d := by
  unfold operand16 at h
  have h := congrArg BitVec.toNat h
  simp only [BitVec.toNat_ofNat] at h
  have := a.isLt
  have := b.isLt
  have := c.isLt
  have := d.isLt
  constructor <;> apply BitVec.eq_of_toNat_eq <;> omega

theorem documented_inj {x y : Byte} {b1 b2 c1 c2 : Byte} {i : Line}
    (h : documented x.toNat b1 b2 = some i) (h' : documented y.toNat c1 c2 = some i) :
    x = y ∧ (1 < size i.2 → b1 = c1) ∧ (2 < size i.2 → b2 = c2) := by
  rw [documented_fill _ x.isLt, Option.map_eq_some_iff] at h
  rw [documented_fill _ y.isLt, Option.map_eq_some_iff] at h'
  obtain ⟨j, h1, h2⟩ := h
  obtain ⟨k, h3, h4⟩ := h'
  have hk : (j.1, kind j.2) = (k.1, kind k.2) := by
    rw [← kind_fill b1 b2 j.2, ← kind_fill c1 c2 k.2]
    subst h2
    exact congrArg (fun i : Line => (i.1, kind i.2)) h4.symm
  have hxy : x = y := BitVec.eq_of_toNat_eq <| opcodes_differ _ x.isLt _ y.isLt
    (by rw [h1, h3]; exact congrArg some hk) (by rw [h1]; rfl)
  subst hxy
  rw [h1] at h3
  cases h3
  subst h2
  obtain ⟨mn, am⟩ := j
  have h4 := congrArg Prod.snd h4
  refine ⟨rfl, ?_, ?_⟩ <;> intro hs
  · cases am <;> simp only [fill, size, AddrMode.immediate.injEq, AddrMode.zeroPage.injEq,
      AddrMode.zeroPageX.injEq, AddrMode.zeroPageY.injEq, AddrMode.absolute.injEq,
      AddrMode.absoluteX.injEq, AddrMode.absoluteY.injEq, AddrMode.indirect.injEq,
      AddrMode.indexedIndirect.injEq, AddrMode.indirectIndexed.injEq, AddrMode.relative.injEq] at h4 hs <;>
      first | exact h4.symm | exact (operand16_inj h4).1.symm | (exfalso; omega)
  · cases am <;> simp only [fill, size, AddrMode.absolute.injEq,
      AddrMode.absoluteX.injEq, AddrMode.absoluteY.injEq, AddrMode.indirect.injEq] at h4 hs <;>
      first | exact (operand16_inj h4).2.symm | (exfalso; omega)

/-- Only the bytes of the instruction count. -/
theorem documented_prefix {x : Byte} {b1 b2 c1 c2 : Byte} {i : Line}
    (h : documented x.toNat b1 b2 = some i) (h1 : 1 < size i.2 → c1 = b1)
    (h2 : 2 < size i.2 → c2 = b2) : documented x.toNat c1 c2 = some i := by
  rw [documented_fill _ x.isLt, Option.map_eq_some_iff] at h ⊢
  obtain ⟨j, h3, rfl⟩ := h
  refine ⟨j, h3, ?_⟩
  obtain ⟨mn, am⟩ := j
  rw [size_fill] at h1 h2
  cases am <;> simp only [size, Nat.reduceLT, forall_const, false_implies] at h1 h2 <;>
    simp only [fill, *]

theorem size_pos (am : AddrMode) : 1 ≤ size am ∧ size am ≤ 3 := by
  cases am <;> simp only [size] <;> omega

theorem encodes_inj {bs cs : List Byte} {i : Line} (h : Encodes bs i) (h' : Encodes cs i) : bs = cs := by
  obtain ⟨h1, h2⟩ := h
  obtain ⟨h3, h4⟩ := h'
  obtain ⟨e0, e1, e2⟩ := documented_inj h2 h4
  have hs := size_pos i.2
  apply List.ext_getElem?
  intro k
  rcases Nat.lt_or_ge k (size i.2) with hk | hk
  · rw [List.getElem?_eq_getElem (by omega), List.getElem?_eq_getElem (by omega)]
    have get : ∀ l : List Byte, ∀ h : k < l.length, l[k]'h = l[k]?.getD 0 := fun l h => by
      rw [List.getElem?_eq_getElem h]; rfl
    rw [get bs, get cs]
    congr 1
    match k, hk with
    | 0, _ => exact e0
    | 1, hk => exact e1 hk
    | 2, hk => exact e2 hk
    | k + 3, hk => omega
  · rw [List.getElem?_eq_none (by omega), List.getElem?_eq_none (by omega)]

/-- No instruction is the beginning of another. -/
theorem encodes_prefix {bs cs bs' cs' : List Byte} {i j : Line} (h : Encodes bs i) (h' : Encodes cs j)
    (he : bs ++ bs' = cs ++ cs') : i = j ∧ bs = cs ∧ bs' = cs' := by
  obtain ⟨h1, h2⟩ := h
  obtain ⟨h3, h4⟩ := h'
  have s1 := size_pos i.2
  have s2 := size_pos j.2
  have get : ∀ k, k < size i.2 → k < size j.2 → bs[k]?.getD 0 = cs[k]?.getD 0 := fun k hk hk' => by
    have := congrArg (fun l => l[k]?.getD 0) he
    simpa only [List.getElem?_append_left (by omega : k < bs.length),
      List.getElem?_append_left (by omega : k < cs.length)] using this
  have e0 := get 0 (by omega) (by omega)
  have hsz : size i.2 = size j.2 := by
    rw [e0, documented_fill _ (BitVec.isLt _), Option.map_eq_some_iff] at h2
    rw [documented_fill _ (BitVec.isLt _), Option.map_eq_some_iff] at h4
    obtain ⟨k, hk, rfl⟩ := h2
    obtain ⟨k', hk', rfl⟩ := h4
    rw [hk] at hk'
    cases hk'
    rw [size_fill, size_fill]
  have hij : i = j := by
    rw [e0] at h2
    have := documented_prefix h2 (fun h => (get 1 h (by omega)).symm) fun h => (get 2 h (by omega)).symm
    rw [this] at h4
    exact Option.some.inj h4
  obtain ⟨e1, e2⟩ := List.append_inj he (by omega)
  exact ⟨hij, e1, e2⟩

theorem word_add_add (pc : Word) (n k : Nat) :
    word ((word (pc.toNat + n)).toNat + k) = word (pc.toNat + (n + k)) := by
  unfold word
  apply BitVec.eq_of_toNat_eq
  simp only [BitVec.toNat_ofNat]
  omega

theorem word_add_ofNat (pc : Word) (k : Nat) : word (pc.toNat + k) = pc + BitVec.ofNat 16 k := by
  unfold word
  apply BitVec.eq_of_toNat_eq
  simp only [BitVec.toNat_ofNat, BitVec.toNat_add]
  omega

/-- The first instruction of a listing at `pc`. -/
theorem holds_documented {mem : Mem} {pc : Word} {bs cs : List Byte} {i : Line} (h : Encodes bs i)
    (hh : HoldsAt mem pc (bs ++ cs)) :
    documented (mem pc).toNat (mem (pc + 1)) (mem (pc + 2)) = some i := by
  obtain ⟨h1, h2⟩ := h
  have hs := size_pos i.2
  have get : ∀ k, k < size i.2 → mem (pc + BitVec.ofNat 16 k) = bs[k]?.getD 0 := fun k hk => by
    rw [← word_add_ofNat]
    refine hh k _ ?_
    rw [List.getElem?_append_left (by omega), List.getElem?_eq_getElem (by omega)]
    rfl
  have e0 := get 0 (by omega)
  have : pc + BitVec.ofNat 16 0 = pc := by simp
  rw [this] at e0
  rw [e0]
  exact documented_prefix h2 (fun h => get 1 h) fun h => get 2 h

theorem holds_tail {mem : Mem} {pc : Word} {bs cs : List Byte} (hh : HoldsAt mem pc (bs ++ cs)) :
    HoldsAt mem (word (pc.toNat + bs.length)) cs := by
  intro k v hk
  rw [word_add_add]
  refine hh _ v ?_
  rw [List.getElem?_append_right (by omega), Nat.add_sub_cancel_left, hk]

end Verif.Mos
