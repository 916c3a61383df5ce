import Verif.Spec.Chip8Ref
import Verif.Proofs.Chip8Effect
import Verif.Proofs.Chip8Display
import Verif.Props.Chip8.Decode
import Verif.Props.Chip8.Memory

/-!
# The emulated CHIP-8 against the reference interpreter: lemmas
-/

namespace Verif.Chip8

open Verif Verif.Spec.Chip8
open Verif.Spec.Mos (Mem BusView writeAll upd Coherent)

/-! ### Words and their digits -/

/-- The six fields of a word. -/
structure Fields (c p x y n kk nnn : Nat) : Prop where
  p : c / 0x1000 = p
  x : c / 0x100 % 16 = x
  y : c / 0x10 % 16 = y
  n : c % 16 = n
  kk : c % 0x100 = kk
  nnn : c % 0x1000 = nnn

theorem fields_nnn (p : Nat) (a : U12) (ha : a.val.toNat < 0x1000) :
    Fields (nnn p a) p (a.val.toNat / 0x100) (a.val.toNat / 0x10 % 16) (a.val.toNat % 16)
      (a.val.toNat % 0x100) a.val.toNat := by
  constructor <;> (unfold nnn; omega)

theorem fields_xkk (p : Nat) (x : GpRegisters) (kk : Byte) :
    Fields (xkk p x kk) p (num x) (kk.toNat / 16) (kk.toNat % 16) kk.toNat
      (num x * 0x100 + kk.toNat) := by
  have := num_lt x
  have := kk.isLt
  constructor <;> (unfold xkk; omega)

theorem fields_xyn (p : Nat) (x y : GpRegisters) (n : Nat) (hn : n < 16) :
    Fields (xyn p x y n) p (num x) (num y) n (num y * 16 + n)
      (num x * 0x100 + num y * 0x10 + n) := by
  have := num_lt x
  have := num_lt y
  constructor <;> (unfold xyn; omega)

/-- The register with the number `k % 16`. -/
theorem num_reg (k : Nat) : num (regOf (k % 16)) = k % 16 := num_regOf (by omega)

/-- Where the reference machine has an instruction, so has the emulator. -/
theorem ref_op {w : World} {s s' : Vip} {c : Nat} (hc : c < 65536)
    (h : s.exec w (c / 0x1000) (c / 0x100 % 16) (c / 0x10 % 16) (c % 16) (c % 0x100) (c % 0x1000) =
      some s') : ∃ op, Valid op ∧ encode op = c := by
  have h1 := num_reg (c / 0x100)
  have h2 := num_reg (c / 0x10)
  have hb : ∀ k, k < 256 → (BitVec.ofNat 8 k).toNat = k := fun k hk => by
    rw [BitVec.toNat_ofNat]; omega
  have ha : (BitVec.ofNat 16 (c % 0x1000)).toNat = c % 0x1000 := by
    rw [BitVec.toNat_ofNat]; omega
  have hk := hb (c % 0x100) (by omega)
  have hp : c / 0x1000 < 16 := by omega
  generalize hx : regOf (c / 0x100 % 16) = x at h1
  generalize hy : regOf (c / 0x10 % 16) = y at h2
  generalize hq : c / 0x1000 = p at h hp
  have hcases : p = 0 ∨ p = 1 ∨ p = 2 ∨ p = 3 ∨ p = 4 ∨ p = 5 ∨ p = 6 ∨ p = 7 ∨ p = 8 ∨ p = 9 ∨
    p = 10 ∨ p = 11 ∨ p = 12 ∨ p = 13 ∨ p = 14 ∨ p = 15 := by omega
  rcases hcases with rfl | rfl | rfl | rfl | rfl | rfl | rfl | rfl | rfl | rfl | rfl | rfl | rfl |
    rfl | rfl | rfl
  · by_cases e1 : c % 0x1000 = 0xE0
    · exact ⟨.Cls, trivial, by show 0x00E0 = c; omega⟩
    by_cases e2 : c % 0x1000 = 0xEE
    · exact ⟨.Ret, trivial, by show 0x00EE = c; omega⟩
    exact ⟨.Sys ⟨BitVec.ofNat 16 (c % 0x1000)⟩, by simp only [Valid, ha]; omega,
      by simp only [encode, nnn, ha]; omega⟩
  · exact ⟨.JpNonV0Indexed ⟨BitVec.ofNat 16 (c % 0x1000)⟩, by simp only [Valid, ha]; omega,
      by simp only [encode, nnn, ha]; omega⟩
  · exact ⟨.Call ⟨BitVec.ofNat 16 (c % 0x1000)⟩, by simp only [Valid, ha]; omega,
      by simp only [encode, nnn, ha]; omega⟩
  · exact ⟨.SeImmediate x (BitVec.ofNat 8 (c % 0x100)), trivial,
      by simp only [encode, xkk, hk, h1]; omega⟩
  · exact ⟨.SneImmediate x (BitVec.ofNat 8 (c % 0x100)), trivial,
      by simp only [encode, xkk, hk, h1]; omega⟩
  · simp only [Vip.exec] at h
    split at h
    · exact ⟨.SeVxVy x y, trivial, by simp only [encode, xyn, h1, h2]; omega⟩
    · cases h
  · exact ⟨.LdImmediate x (BitVec.ofNat 8 (c % 0x100)), trivial,
      by simp only [encode, xkk, hk, h1]; omega⟩
  · exact ⟨.AddImmediate x (BitVec.ofNat 8 (c % 0x100)), trivial,
      by simp only [encode, xkk, hk, h1]; omega⟩
  · simp only [Vip.exec, Vip.arith] at h
    split at h
    · exact ⟨.LdVxVy x y, trivial, by simp only [encode, xyn, h1, h2]; omega⟩
    · exact ⟨.Or x y, trivial, by simp only [encode, xyn, h1, h2]; omega⟩
    · exact ⟨.And x y, trivial, by simp only [encode, xyn, h1, h2]; omega⟩
    · exact ⟨.Xor x y, trivial, by simp only [encode, xyn, h1, h2]; omega⟩
    · exact ⟨.AddVxVy x y, trivial, by simp only [encode, xyn, h1, h2]; omega⟩
    · exact ⟨.Sub x y, trivial, by simp only [encode, xyn, h1, h2]; omega⟩
    · exact ⟨.Shr x y, trivial, by simp only [encode, xyn, h1, h2]; omega⟩
    · exact ⟨.Subn x y, trivial, by simp only [encode, xyn, h1, h2]; omega⟩
    · exact ⟨.Shl x y, trivial, by simp only [encode, xyn, h1, h2]; omega⟩
    · cases h
  · simp only [Vip.exec] at h
    split at h
    · exact ⟨.SneVxVy x y, trivial, by simp only [encode, xyn, h1, h2]; omega⟩
    · cases h
  · exact ⟨.LdAbsolute ⟨BitVec.ofNat 16 (c % 0x1000)⟩, by simp only [Valid, ha]; omega,
      by simp only [encode, nnn, ha]; omega⟩
  · exact ⟨.JpV0Indexed ⟨BitVec.ofNat 16 (c % 0x1000)⟩, by simp only [Valid, ha]; omega,
      by simp only [encode, nnn, ha]; omega⟩
  · exact ⟨.Rnd x (BitVec.ofNat 8 (c % 0x100)), trivial,
      by simp only [encode, xkk, hk, h1]; omega⟩
  · have hn := hb (c % 16) (by omega)
    exact ⟨.Drw x y (BitVec.ofNat 8 (c % 16)), by simp only [Valid, hn]; omega,
      by simp only [encode, xyn, hn, h1, h2]; omega⟩
  · simp only [Vip.exec] at h
    split at h
    · rename_i e
      exact ⟨.Skp x, trivial, by
        simp only [encode, xkk, h1, show (0x9E : Byte).toNat = 0x9E from rfl]; omega⟩
    · split at h
      · rename_i e
        exact ⟨.Sknp x, trivial, by
          simp only [encode, xkk, h1, show (0xA1 : Byte).toNat = 0xA1 from rfl]; omega⟩
      · cases h
  · have key : ∀ (k : Byte), c % 0x100 = k.toNat → xkk 0xF x k = c := by
      intro k hk'
      unfold xkk
      omega
    simp only [Vip.exec, Vip.misc] at h
    split at h
    · rename_i e; exact ⟨.LdDelayTimerSrcTx x, trivial, key _ e⟩
    · rename_i e; exact ⟨.LdK x, trivial, key _ e⟩
    · rename_i e; exact ⟨.LdDelayTimerDestTx x, trivial, key _ e⟩
    · rename_i e; exact ⟨.LdSoundTimerDestTx x, trivial, key _ e⟩
    · rename_i e; exact ⟨.AddIRegisterIndexed x, trivial, key _ e⟩
    · rename_i e; exact ⟨.LdSpriteLocation x, trivial, key _ e⟩
    · rename_i e; exact ⟨.LdBcd x, trivial, key _ e⟩
    · rename_i e; exact ⟨.StoreRegistersToMemory x, trivial, key _ e⟩
    · rename_i e; exact ⟨.ReadRegistersFromMemory x, trivial, key _ e⟩
    · cases h

/-! ### Agreement, memory aside -/

section
variable {B R : Type} {cpu : Chip8 B R} {s : Vip}

/-- Agreement in everything but memory. -/
abbrev Shows (cpu : Chip8 B R) (s : Vip) : Prop := Agrees (fun _ _ => True) cpu s

theorem Shows.of {I : B → Mem → Prop} (h : Agrees I cpu s) : Shows cpu s :=
  ⟨h.v, h.i, h.pc, trivial, h.screen, h.dt, h.st, h.key⟩

theorem Shows.with {I : B → Mem → Prop} (h : Shows cpu s) (hm : I cpu.address_space s.mem) :
    Agrees I cpu s := ⟨h.v, h.i, h.pc, hm, h.screen, h.dt, h.st, h.key⟩

theorem Shows.on (h : Shows cpu s) (n : Nat) : Shows (advance cpu n) (s.on n) :=
  ⟨h.v, h.i, by show BitVec.ofNat 16 _ = BitVec.ofNat 16 _; rw [h.pc], trivial, h.screen, h.dt, h.st,
    h.key⟩

theorem Shows.set (h : Shows cpu s) {x : GpRegisters} (hx : x ≠ .Vf) {v v' : Byte} (hv : v = v') :
    Shows (setV cpu x v) (s.set (num x) v') := by
  refine ⟨?_, h.i, h.pc, trivial, h.screen, h.dt, h.st, h.key⟩
  intro r hr
  rw [V_setV cpu hx]
  subst hv
  show _ = if num r = num x then v else s.v (num r)
  by_cases e : r = x
  · rw [if_pos e, if_pos (by rw [e])]
  · rw [if_neg e, if_neg (fun e' => e (num_inj e')), h.v r hr]

theorem Shows.setI (h : Shows cpu s) {i i' : Word} (hi : i = i') :
    Shows { cpu with i := i } { s with i := i' } :=
  ⟨h.v, hi, h.pc, trivial, h.screen, h.dt, h.st, h.key⟩

theorem Shows.setPc (h : Shows cpu s) {pc pc' : Word} (hp : pc = pc') {st st'} :
    Shows { cpu with pc := pc, stack := st } { s with pc := pc', stack := st' } :=
  ⟨h.v, h.i, hp, trivial, h.screen, h.dt, h.st, h.key⟩

theorem Shows.setMem (h : Shows cpu s) (m : Mem) : Shows cpu { s with mem := m } :=
  ⟨h.v, h.i, h.pc, trivial, h.screen, h.dt, h.st, h.key⟩

theorem num_ne {x : GpRegisters} : x ≠ .Vf ↔ num x ≠ 15 :=
  ⟨fun h e => h (num_inj e), fun h e => h (by rw [e]; rfl)⟩

/-- The two clocks agree. -/
theorem timer_iff (t : Timer) (now : Nat) :
    timerAt ⟨t.since, t.value⟩ now = BitVec.ofNat 8 (t.shows now) ↔
      ((now - t.since) * 60 < 1000000000 ∨ t.value.toNat ≤ (now - t.since) / 1000000000) := by
  unfold timerAt Timer.shows
  have := t.value.isLt
  simp only
  generalize now - t.since = d
  have h1 : 60 * (d / 1000000000) ≤ d * 60 / 1000000000 := by omega
  have h2 : d * 60 < 1000000000 ↔ d * 60 / 1000000000 = 0 := by omega
  rw [h2]
  generalize d * 60 / 1000000000 = p at h1
  generalize d / 1000000000 = q at h1
  constructor
  · intro h
    have := congrArg BitVec.toNat h
    rw [BitVec.toNat_ofNat, BitVec.toNat_ofNat] at this
    omega
  · intro h
    apply congrArg
    omega

variable {b : Build} {e : Env}

/-- The instruction `c` in the reference machine. -/
def execWord (w : World) (s : Vip) (c : Nat) : Option Vip :=
  s.exec w (c / 0x1000) (c / 0x100 % 16) (c / 0x10 % 16) (c % 16) (c % 0x100) (c % 0x1000)

/-- The condition for the instruction `c`. -/
def FaithfulWord (w : World) (s : Vip) (ret : Word) (c : Nat) : Prop :=
  Faithful w s ret (c / 0x1000) (c / 0x100 % 16) (c / 0x10 % 16) (c % 16) (c % 0x100) (c % 0x1000)

theorem execWord_eq {w : World} {c p x y n kk nnn : Nat} (F : Fields c p x y n kk nnn) :
    execWord w s c = s.exec w p x y n kk nnn := by
  unfold execWord
  rw [F.p, F.x, F.y, F.n, F.kk, F.nnn]

theorem faithfulWord_eq {w : World} {ret : Word} {c p x y n kk nnn : Nat}
    (F : Fields c p x y n kk nnn) : FaithfulWord w s ret c = Faithful w s ret p x y n kk nnn := by
  unfold FaithfulWord
  rw [F.p, F.x, F.y, F.n, F.kk, F.nnn]

/-- An instruction that never deviates once its registers exist. -/
theorem good_iff {op : Opcode} {s' : Vip} {P : Prop} (hP : P ↔ ¬ UsesVf cpu op)
    (hov : ¬ Overflows cpu op) (hgo : P → Shows (after e s.mem cpu op) s') :
    (Runs b cpu op ∧ Shows (after e s.mem cpu op) s') ↔ P :=
  ⟨fun h => hP.2 h.1.1, fun h => ⟨⟨hP.1 h, fun h' => hov h'.2⟩, hgo h⟩⟩

/-- An instruction of the reference machine, and when the emulator does the same. -/
theorem core_iff {op : Opcode} {s' : Vip} (hval : Valid op) (h : Shows cpu s)
    (hs : execWord (worldOf e) s (encode op) = some s') :
    (Runs b cpu op ∧ Shows (after e s.mem cpu op) s') ↔
      FaithfulWord (worldOf e) s (returnTarget cpu) (encode op) := by
  have hpcne : ∀ n, n < 65536 → 0 < n → BitVec.ofNat 16 (cpu.pc.toNat + n) ≠ s.pc := by
    intro n h1 h2 he
    have := congrArg BitVec.toNat he
    rw [BitVec.toNat_ofNat, h.pc] at this
    have := s.pc.isLt
    omega
  cases op
  case Cls =>
    have F : Fields 0x00E0 0 0 0xE 0 0xE0 0x0E0 := by constructor <;> rfl
    rw [show encode .Cls = 0x00E0 from rfl] at hs ⊢
    rw [execWord_eq F] at hs
    rw [faithfulWord_eq F]
    obtain rfl := Option.some.inj hs
    refine good_iff ⟨fun _ h => h, fun _ h => by cases h⟩ (fun h => h) fun _ => ?_
    refine Shows.on (s := { s with screen := fun _ _ => false }) ?_ 2
    refine ⟨h.v, h.i, h.pc, trivial, ?_, h.dt, h.st, h.key⟩
    intro x y hx hy
    simp [lit, Display.default, hx, hy]
  case Ret =>
    have F : Fields 0x00EE 0 0 0xE 0xE 0xEE 0x0EE := by constructor <;> rfl
    rw [show encode .Ret = 0x00EE from rfl] at hs ⊢
    rw [execWord_eq F] at hs
    rw [faithfulWord_eq F]
    cases hst : s.stack with
    | nil => simp [Vip.exec, hst] at hs
    | cons a l =>
      simp [Vip.exec, hst] at hs
      subst hs
      simp only [Faithful, hst, List.head?_cons, Option.some.injEq, forall_const]
      constructor
      · rintro ⟨-, h'⟩
        exact h'.pc.symm
      · intro ha
        exact ⟨⟨fun h => h, fun h => h.2⟩, h.setPc ha.symm⟩
  case Sys a =>
    have F := fields_nnn 0 a hval.1
    rw [show encode (.Sys a) = nnn 0 a from rfl] at hs ⊢
    rw [execWord_eq F] at hs
    rw [faithfulWord_eq F]
    obtain ⟨-, h1, h2⟩ := hval
    simp only [Vip.exec, if_neg h1, if_neg h2, Option.some.injEq] at hs
    subst hs
    exact good_iff ⟨fun _ h => h, fun _ h => absurd h h2⟩ (fun h => h) fun _ => h.on 2
  case JpNonV0Indexed a =>
    have F := fields_nnn 1 a hval
    rw [show encode (.JpNonV0Indexed a) = nnn 1 a from rfl] at hs ⊢
    rw [execWord_eq F] at hs
    rw [faithfulWord_eq F]
    obtain rfl := Option.some.inj hs
    exact good_iff ⟨fun _ h => h, fun _ => trivial⟩ (fun h => h) fun _ => h.setPc (by simp)
  case Call a =>
    have F := fields_nnn 2 a hval
    rw [show encode (.Call a) = nnn 2 a from rfl] at hs ⊢
    rw [execWord_eq F] at hs
    rw [faithfulWord_eq F]
    simp only [Vip.exec] at hs
    split at hs
    · obtain rfl := Option.some.inj hs
      exact good_iff ⟨fun _ h => h, fun _ => trivial⟩ (fun h => h) fun _ => h.setPc (by simp)
    · cases hs
  case LdAbsolute a =>
    have F := fields_nnn 0xA a hval
    rw [show encode (.LdAbsolute a) = nnn 0xA a from rfl] at hs ⊢
    rw [execWord_eq F] at hs
    rw [faithfulWord_eq F]
    obtain rfl := Option.some.inj hs
    exact good_iff ⟨fun _ h => h, fun _ => trivial⟩ (fun h => h) fun _ =>
      (h.setI (by simp)).on 2
  case JpV0Indexed a =>
    have F := fields_nnn 0xB a hval
    rw [show encode (.JpV0Indexed a) = nnn 0xB a from rfl] at hs ⊢
    rw [execWord_eq F] at hs
    rw [faithfulWord_eq F]
    obtain rfl := Option.some.inj hs
    have hv0 := h.v .V0 (by decide)
    rw [show num .V0 = 0 from rfl] at hv0
    have ha : a.val.toNat < 4096 := hval
    have hb := (s.v 0).isLt
    simp only [Faithful]
    constructor
    · rintro ⟨-, h'⟩
      have := congrArg BitVec.toNat h'.pc
      simp only [after, BitVec.toNat_ofNat, hv0] at this
      omega
    · intro hlt
      refine ⟨⟨fun h => h, fun h => h.2⟩, h.setPc ?_⟩
      rw [hv0, Nat.mod_eq_of_lt hlt]
  case SeImmediate x kk =>
    have F := fields_xkk 3 x kk
    rw [show encode (.SeImmediate x kk) = xkk 3 x kk from rfl] at hs ⊢
    rw [execWord_eq F] at hs
    rw [faithfulWord_eq F]
    obtain rfl := Option.some.inj hs
    refine good_iff num_ne.symm (fun h => h) fun hx => ?_
    have := h.v x (num_ne.2 hx)
    have e1 : V cpu x = kk ↔ (s.v (num x)).toNat = kk.toNat := by
      rw [this]; exact ⟨fun e => by rw [e], BitVec.eq_of_toNat_eq⟩
    simp only [after, e1, Vip.skipIf, decide_eq_true_eq]
    exact h.on _
  case SneImmediate x kk =>
    have F := fields_xkk 4 x kk
    rw [show encode (.SneImmediate x kk) = xkk 4 x kk from rfl] at hs ⊢
    rw [execWord_eq F] at hs
    rw [faithfulWord_eq F]
    obtain rfl := Option.some.inj hs
    refine good_iff num_ne.symm (fun h => h) fun hx => ?_
    have := h.v x (num_ne.2 hx)
    have e1 : V cpu x = kk ↔ (s.v (num x)).toNat = kk.toNat := by
      rw [this]; exact ⟨fun e => by rw [e], BitVec.eq_of_toNat_eq⟩
    simp only [after, e1, Vip.skipIf, decide_eq_true_eq, ite_not]
    exact h.on _
  case SeVxVy x y =>
    have F := fields_xyn 5 x y 0 (by omega)
    rw [show encode (.SeVxVy x y) = xyn 5 x y 0 from rfl] at hs ⊢
    rw [execWord_eq F] at hs
    rw [faithfulWord_eq F]
    obtain rfl := Option.some.inj hs
    refine good_iff ?_ (fun h => h) fun hx => ?_
    · simp only [Faithful, UsesVf, not_or, ← num_ne, ne_eq]
    · have h1 := h.v x (num_ne.2 hx.1)
      have h2 := h.v y (num_ne.2 hx.2)
      simp only [after, h1, h2, Vip.skipIf, decide_eq_true_eq]
      exact h.on _
  case SneVxVy x y =>
    have F := fields_xyn 9 x y 0 (by omega)
    rw [show encode (.SneVxVy x y) = xyn 9 x y 0 from rfl] at hs ⊢
    rw [execWord_eq F] at hs
    rw [faithfulWord_eq F]
    obtain rfl := Option.some.inj hs
    refine good_iff ?_ (fun h => h) fun hx => ?_
    · simp only [Faithful, UsesVf, not_or, ← num_ne, ne_eq]
    · have h1 := h.v x (num_ne.2 hx.1)
      have h2 := h.v y (num_ne.2 hx.2)
      simp only [after, h1, h2, Vip.skipIf, decide_eq_true_eq, ite_not]
      exact h.on _
  case LdImmediate x kk =>
    have F := fields_xkk 6 x kk
    rw [show encode (.LdImmediate x kk) = xkk 6 x kk from rfl] at hs ⊢
    rw [execWord_eq F] at hs
    rw [faithfulWord_eq F]
    obtain rfl := Option.some.inj hs
    exact good_iff num_ne.symm (fun h => h) fun hx => (h.set (num_ne.2 hx) (by simp)).on 2
  case AddImmediate x kk =>
    have F := fields_xkk 7 x kk
    rw [show encode (.AddImmediate x kk) = xkk 7 x kk from rfl] at hs ⊢
    rw [execWord_eq F] at hs
    rw [faithfulWord_eq F]
    obtain rfl := Option.some.inj hs
    refine good_iff num_ne.symm (fun h => h) fun hx => (h.set (num_ne.2 hx) ?_).on 2
    rw [h.v x (num_ne.2 hx)]
    apply BitVec.eq_of_toNat_eq
    rw [BitVec.toNat_add, BitVec.toNat_ofNat]
  case LdVxVy x y =>
    have F := fields_xyn 8 x y 0 (by omega)
    rw [show encode (.LdVxVy x y) = xyn 8 x y 0 from rfl] at hs ⊢
    rw [execWord_eq F] at hs
    rw [faithfulWord_eq F]
    obtain rfl := Option.some.inj hs
    refine good_iff ?_ (fun h => h) fun hx => ?_
    · simp [Faithful, UsesVf, not_or, ← num_ne]
    · exact (h.set (num_ne.2 hx.2.1) (h.v y (num_ne.2 hx.2.2))).on 2
  case Or x y =>
    have F := fields_xyn 8 x y 1 (by omega)
    rw [show encode (.Or x y) = xyn 8 x y 1 from rfl] at hs ⊢
    rw [execWord_eq F] at hs
    rw [faithfulWord_eq F]
    obtain rfl := Option.some.inj hs
    refine good_iff ?_ (fun h => h) fun hx => ?_
    · simp [Faithful, UsesVf, not_or, ← num_ne]
    · exact (h.set (num_ne.2 hx.2.1) (by rw [h.v x (num_ne.2 hx.2.1), h.v y (num_ne.2 hx.2.2)])).on 2
  case And x y =>
    have F := fields_xyn 8 x y 2 (by omega)
    rw [show encode (.And x y) = xyn 8 x y 2 from rfl] at hs ⊢
    rw [execWord_eq F] at hs
    rw [faithfulWord_eq F]
    obtain rfl := Option.some.inj hs
    refine good_iff ?_ (fun h => h) fun hx => ?_
    · simp [Faithful, UsesVf, not_or, ← num_ne]
    · exact (h.set (num_ne.2 hx.2.1) (by rw [h.v x (num_ne.2 hx.2.1), h.v y (num_ne.2 hx.2.2)])).on 2
  case Xor x y =>
    have F := fields_xyn 8 x y 3 (by omega)
    rw [show encode (.Xor x y) = xyn 8 x y 3 from rfl] at hs ⊢
    rw [execWord_eq F] at hs
    rw [faithfulWord_eq F]
    obtain rfl := Option.some.inj hs
    refine good_iff ?_ (fun h => h) fun hx => ?_
    · simp [Faithful, UsesVf, not_or, ← num_ne]
    · exact (h.set (num_ne.2 hx.2.1) (by rw [h.v x (num_ne.2 hx.2.1), h.v y (num_ne.2 hx.2.2)])).on 2
  case AddVxVy x y =>
    rw [show encode (.AddVxVy x y) = xyn 8 x y 4 from rfl, faithfulWord_eq (fields_xyn 8 x y 4 (by omega))]
    exact ⟨fun h => absurd trivial h.1.1, fun h => absurd h.1 (by omega)⟩
  case Sub x y =>
    rw [show encode (.Sub x y) = xyn 8 x y 5 from rfl, faithfulWord_eq (fields_xyn 8 x y 5 (by omega))]
    exact ⟨fun h => absurd trivial h.1.1, fun h => absurd h.1 (by omega)⟩
  case Shr x y =>
    rw [show encode (.Shr x y) = xyn 8 x y 6 from rfl, faithfulWord_eq (fields_xyn 8 x y 6 (by omega))]
    exact ⟨fun h => absurd trivial h.1.1, fun h => absurd h.1 (by omega)⟩
  case Subn x y =>
    rw [show encode (.Subn x y) = xyn 8 x y 7 from rfl, faithfulWord_eq (fields_xyn 8 x y 7 (by omega))]
    exact ⟨fun h => absurd trivial h.1.1, fun h => absurd h.1 (by omega)⟩
  case Shl x y =>
    rw [show encode (.Shl x y) = xyn 8 x y 0xE from rfl,
      faithfulWord_eq (fields_xyn 8 x y 0xE (by omega))]
    exact ⟨fun h => absurd trivial h.1.1, fun h => absurd h.1 (by omega)⟩
  case Drw x y n =>
    rw [show encode (.Drw x y n) = xyn 0xD x y n.toNat from rfl,
      faithfulWord_eq (fields_xyn 0xD x y n.toNat hval)]
    exact ⟨fun h => absurd trivial h.1.1, fun h => h.elim⟩
  case Rnd x kk =>
    have F := fields_xkk 0xC x kk
    rw [show encode (.Rnd x kk) = xkk 0xC x kk from rfl] at hs ⊢
    rw [execWord_eq F] at hs
    rw [faithfulWord_eq F]
    obtain rfl := Option.some.inj hs
    exact good_iff num_ne.symm (fun h => h) fun hx =>
      (h.set (num_ne.2 hx) (by simp [worldOf])).on 2
  case Skp x =>
    have F := fields_xkk 0xE x 0x9E
    rw [show encode (.Skp x) = xkk 0xE x 0x9E from rfl] at hs ⊢
    rw [execWord_eq F] at hs
    rw [faithfulWord_eq F]
    simp only [Vip.exec, show (0x9E : Byte).toNat = 0x9E from rfl, true_and] at hs
    split at hs
    · obtain rfl := Option.some.inj hs
      refine good_iff num_ne.symm (fun h => h) fun hx => ?_
      simp only [after, h.v x (num_ne.2 hx), h.key, Vip.skipIf, decide_eq_true_eq]
      exact h.on _
    · simp at hs
  case Sknp x =>
    have F := fields_xkk 0xE x 0xA1
    rw [show encode (.Sknp x) = xkk 0xE x 0xA1 from rfl] at hs ⊢
    rw [execWord_eq F] at hs
    rw [faithfulWord_eq F]
    simp only [Vip.exec, show (0xA1 : Byte).toNat = 0xA1 from rfl, true_and] at hs
    rw [if_neg (by simp)] at hs
    split at hs
    · obtain rfl := Option.some.inj hs
      refine good_iff num_ne.symm (fun h => h) fun hx => ?_
      simp only [after, h.v x (num_ne.2 hx), h.key, Vip.skipIf, decide_eq_true_eq, ite_not]
      exact h.on _
    · cases hs
  case LdDelayTimerSrcTx x =>
    have F := fields_xkk 0xF x 0x07
    rw [show encode (.LdDelayTimerSrcTx x) = xkk 0xF x 0x07 from rfl] at hs ⊢
    rw [execWord_eq F] at hs
    rw [faithfulWord_eq F]
    obtain rfl := Option.some.inj hs
    have ht := timer_iff s.dt (worldOf e).readAt
    rw [← h.dt] at ht
    constructor
    · rintro ⟨⟨hx, -⟩, h'⟩
      refine ⟨num_ne.1 hx, fun h => absurd h (by decide), fun _ => ht.1 ?_⟩
      have := h'.v x hx
      simp only [after] at this
      rw [show V (advance (setV cpu x (timerAt cpu.dt e.readAt)) 2) x =
        V (setV cpu x (timerAt cpu.dt e.readAt)) x from rfl, V_setV cpu hx, if_pos rfl] at this
      rw [show (worldOf e).readAt = e.readAt from rfl, this]
      simp [Vip.on, Vip.set, worldOf]
    · rintro ⟨hx, -, h2⟩
      exact ⟨⟨num_ne.2 hx, fun h => h.2⟩, (h.set (num_ne.2 hx) (ht.2 (h2 rfl))).on 2⟩
  case LdK x =>
    have F := fields_xkk 0xF x 0x0A
    rw [show encode (.LdK x) = xkk 0xF x 0x0A from rfl] at hs ⊢
    rw [execWord_eq F] at hs
    rw [faithfulWord_eq F]
    simp only [Vip.exec, Vip.misc, show (0x0A : Byte).toNat = 0x0A from rfl] at hs
    cases hk : cpu.interrupt with
    | none =>
      have hkey : s.key = none := by
        cases hk' : s.key with
        | none => rfl
        | some k => exact absurd ((h.key k).2 hk') (pressed_none hk k)
      rw [hkey] at hs
      obtain rfl := Option.some.inj hs
      constructor
      · rintro ⟨-, h'⟩
        have := h'.pc
        simp only [after, hk] at this
        exact absurd this (hpcne 2 (by omega) (by omega))
      · rintro ⟨-, h1, -⟩
        exact absurd hkey (h1 rfl)
    | some k =>
      obtain ⟨key⟩ := k
      have hkey : s.key = some (keyNum key) := (h.key _).1 ((pressed_some hk _).2 rfl)
      rw [hkey] at hs
      obtain rfl := Option.some.inj hs
      constructor
      · rintro ⟨⟨hx, -⟩, -⟩
        refine ⟨?_, fun _ h => ?_, fun h => absurd h (by decide)⟩
        · rw [← num_ne]
          exact fun e => hx ⟨e, by rw [hk]; exact fun h => by cases h⟩
        · rw [hkey] at h; cases h
      · rintro ⟨hx, -, -⟩
        refine ⟨⟨fun h => num_ne.2 hx h.1, fun h => h.2⟩, ?_⟩
        simp only [after, hk]
        exact (h.set (num_ne.2 hx) rfl).on 2
  case LdDelayTimerDestTx x =>
    have F := fields_xkk 0xF x 0x15
    rw [show encode (.LdDelayTimerDestTx x) = xkk 0xF x 0x15 from rfl] at hs ⊢
    rw [execWord_eq F] at hs
    rw [faithfulWord_eq F]
    obtain rfl := Option.some.inj hs
    refine good_iff (by simp [Faithful, UsesVf, ← num_ne]) (fun h => h) fun hx => ?_
    refine Shows.on (s := { s with dt := ⟨s.v (num x), (worldOf e).writeAt⟩ }) ?_ 2
    refine ⟨h.v, h.i, h.pc, trivial, h.screen, ?_, h.st, h.key⟩
    show (⟨e.foldAt, V cpu x⟩ : ClockDecrementing) = _
    rw [h.v x (num_ne.2 hx.1)]
    rfl
  case LdSoundTimerDestTx x =>
    have F := fields_xkk 0xF x 0x18
    rw [show encode (.LdSoundTimerDestTx x) = xkk 0xF x 0x18 from rfl] at hs ⊢
    rw [execWord_eq F] at hs
    rw [faithfulWord_eq F]
    obtain rfl := Option.some.inj hs
    refine good_iff (by simp [Faithful, UsesVf, ← num_ne]) (fun h => h) fun hx => ?_
    refine Shows.on (s := { s with st := ⟨s.v (num x), (worldOf e).writeAt⟩ }) ?_ 2
    refine ⟨h.v, h.i, h.pc, trivial, h.screen, h.dt, ?_, h.key⟩
    show (⟨e.foldAt, V cpu x⟩ : ClockDecrementing) = _
    rw [h.v x (num_ne.2 hx.1)]
    rfl
  case AddIRegisterIndexed x =>
    have F := fields_xkk 0xF x 0x1E
    rw [show encode (.AddIRegisterIndexed x) = xkk 0xF x 0x1E from rfl] at hs ⊢
    rw [execWord_eq F] at hs
    rw [faithfulWord_eq F]
    obtain rfl := Option.some.inj hs
    refine good_iff (by simp [Faithful, UsesVf, ← num_ne]) (fun h => h) fun hx =>
      (h.setI ?_).on 2
    rw [h.v x (num_ne.2 hx.1), h.i]
  case LdSpriteLocation x =>
    have F := fields_xkk 0xF x 0x29
    rw [show encode (.LdSpriteLocation x) = xkk 0xF x 0x29 from rfl] at hs ⊢
    rw [execWord_eq F] at hs
    rw [faithfulWord_eq F]
    simp only [Vip.exec, Vip.misc, show (0x29 : Byte).toNat = 0x29 from rfl] at hs
    split at hs
    · rename_i hlt
      obtain rfl := Option.some.inj hs
      constructor
      · rintro ⟨⟨hx, -⟩, -⟩
        exact ⟨num_ne.1 hx, fun h => absurd h (by decide), fun h => absurd h (by decide)⟩
      · rintro ⟨hx, -, -⟩
        have hv := h.v x (num_ne.2 hx)
        refine ⟨⟨num_ne.2 hx, fun h => ?_⟩, (h.setI ?_).on 2⟩
        · have := h.2
          simp only [Overflows, hv] at this
          omega
        · rw [hv]
          apply congrArg
          omega
    · cases hs
  case LdBcd x =>
    have F := fields_xkk 0xF x 0x33
    rw [show encode (.LdBcd x) = xkk 0xF x 0x33 from rfl] at hs ⊢
    rw [execWord_eq F] at hs
    rw [faithfulWord_eq F]
    simp only [Vip.exec, Vip.misc, show (0x33 : Byte).toNat = 0x33 from rfl] at hs
    split at hs
    · rename_i hroom
      obtain rfl := Option.some.inj hs
      have hroom : s.i.toNat + 2 < 4096 := hroom
      exact good_iff (by simp [Faithful, UsesVf, ← num_ne])
        (fun h' => by simp only [Overflows, h.i] at h'; omega) fun hx => (h.setMem _).on 2
    · cases hs
  case StoreRegistersToMemory x =>
    have F := fields_xkk 0xF x 0x55
    rw [show encode (.StoreRegistersToMemory x) = xkk 0xF x 0x55 from rfl] at hs ⊢
    rw [execWord_eq F] at hs
    rw [faithfulWord_eq F]
    simp only [Vip.exec, Vip.misc, show (0x55 : Byte).toNat = 0x55 from rfl] at hs
    split at hs
    · rename_i hroom
      obtain rfl := Option.some.inj hs
      have hroom : s.i.toNat + num x < 4096 := hroom
      exact good_iff (by simp [Faithful, UsesVf, ← num_ne])
        (fun h' => by simp only [Overflows, h.i] at h'; omega) fun hx => (h.setMem _).on 2
    · cases hs
  case ReadRegistersFromMemory x =>
    have F := fields_xkk 0xF x 0x65
    rw [show encode (.ReadRegistersFromMemory x) = xkk 0xF x 0x65 from rfl] at hs ⊢
    rw [execWord_eq F] at hs
    rw [faithfulWord_eq F]
    simp only [Vip.exec, Vip.misc, show (0x65 : Byte).toNat = 0x65 from rfl] at hs
    split at hs
    · rename_i hroom
      obtain rfl := Option.some.inj hs
      have hroom : s.i.toNat + num x < 4096 := hroom
      refine good_iff (by simp [Faithful, UsesVf, ← num_ne])
        (fun h' => by simp only [Overflows, h.i] at h'; omega) fun hx => ?_
      refine Shows.on (s := { s with v := _ }) ?_ 2
      refine ⟨?_, h.i, h.pc, trivial, h.screen, h.dt, h.st, h.key⟩
      intro r hr
      have := num_lt_15 hr
      simp only [V, loadRegs, Vector.getElem?_eq_getElem this, Vector.getElem_mapFinIdx,
        Option.getD_some]
      have hv := h.v r hr
      simp only [V, Vector.getElem?_eq_getElem this, Option.getD_some] at hv
      rw [Props.Chip8.iPlus_eq cpu, hv]
      unfold iPlus
      rw [h.i]
      by_cases hle : num r ≤ num x
      · rw [if_pos hle, if_pos (by omega)]
      · rw [if_neg hle, if_neg (by omega)]
    · cases hs

/-- The memory after the instruction. -/
theorem core_mem {op : Opcode} {s' : Vip} (hval : Valid op) (h : Shows cpu s)
    (hs : execWord (worldOf e) s (encode op) = some s') (hvf : ¬ UsesVf cpu op) :
    (writes cpu op).foldl (fun m w => upd m w.1 w.2) s.mem = s'.mem ∧
      ∀ w ∈ writes cpu op, w.1.toNat < 4096 := by
  have hb : ∀ (v : Byte) (k : Nat), v.toNat = k → v = BitVec.ofNat 8 k := by
    rintro v k rfl
    simp
  have block : ∀ (n : Nat) (f : Nat → Byte), n < 16 → s.i.toNat + n < 4096 →
      ((List.range (n + 1)).map fun k => (cpu.i + BitVec.ofNat 16 k, f k)).foldl
        (fun m w => upd m w.1 w.2) s.mem = (s.store n f).mem ∧
      ∀ w ∈ (List.range (n + 1)).map fun k => (cpu.i + BitVec.ofNat 16 k, f k),
        w.1.toNat < 4096 := by
    intro n f hn hroom
    have hi : ∀ k, k ≤ n → (cpu.i + BitVec.ofNat 16 k).toNat = s.i.toNat + k := by
      intro k hk
      rw [BitVec.toNat_add, BitVec.toNat_ofNat, h.i]
      omega
    constructor
    · obtain ⟨g1, g2⟩ := Props.Chip8.block_get s.mem (n + 1) (fun k => cpu.i + BitVec.ofNat 16 k) f
        (fun j k hj hk he => by
          have := congrArg BitVec.toNat he
          rw [hi j (by omega), hi k (by omega)] at this
          omega)
      funext a
      simp only [Vip.store]
      by_cases ha : s.i.toNat ≤ a.toNat ∧ a.toNat ≤ s.i.toNat + n
      · rw [if_pos ha]
        have := g1 (a.toNat - s.i.toNat) (by omega)
        have ea : cpu.i + BitVec.ofNat 16 (a.toNat - s.i.toNat) = a := by
          apply BitVec.eq_of_toNat_eq
          rw [hi _ (by omega)]
          omega
        rw [ea] at this
        exact this
      · rw [if_neg ha]
        refine g2 a fun k hk he => ha ?_
        rw [he, hi k (by omega)]
        omega
    · intro w hw
      obtain ⟨k, hk, rfl⟩ := List.mem_map.1 hw
      have hk := List.mem_range.1 hk
      show (cpu.i + BitVec.ofNat 16 k).toNat < 4096
      rw [hi k (by omega)]
      omega
  cases op
  case LdBcd x =>
    have F := fields_xkk 0xF x 0x33
    rw [show encode (.LdBcd x) = xkk 0xF x 0x33 from rfl, execWord_eq F] at hs
    simp only [Vip.exec, Vip.misc, show (0x33 : Byte).toNat = 0x33 from rfl] at hs
    split at hs
    · rename_i hroom
      obtain rfl := Option.some.inj hs
      have hv := h.v x hvf
      have := block 2 (fun k => BitVec.ofNat 8
        (if k = 0 then (s.v (num x)).toNat / 100
         else if k = 1 then (s.v (num x)).toNat / 10 % 10 else (s.v (num x)).toNat % 10))
        (by omega) hroom
      have e : ((List.range (2 + 1)).map fun k => (cpu.i + BitVec.ofNat 16 k, BitVec.ofNat 8
        (if k = 0 then (s.v (num x)).toNat / 100
         else if k = 1 then (s.v (num x)).toNat / 10 % 10 else (s.v (num x)).toNat % 10))) =
          writes cpu (.LdBcd x) := by
        have d0 := hb (V cpu x / 100) ((s.v (num x)).toNat / 100) (by rw [hv, BitVec.toNat_udiv]; rfl)
        have d1 := hb (V cpu x % 100 / 10) ((s.v (num x)).toNat / 10 % 10) (by
          rw [hv, BitVec.toNat_udiv, BitVec.toNat_umod]
          show (s.v (num x)).toNat % 100 / 10 = _
          omega)
        have d2 := hb (V cpu x % 100 % 10) ((s.v (num x)).toNat % 10) (by
          rw [hv, BitVec.toNat_umod, BitVec.toNat_umod]
          show (s.v (num x)).toNat % 100 % 10 = _
          omega)
        simp only [writes, d0, d1, d2]
        simp [List.range_succ]
      rw [e] at this
      exact this
    · cases hs
  case StoreRegistersToMemory x =>
    have F := fields_xkk 0xF x 0x55
    rw [show encode (.StoreRegistersToMemory x) = xkk 0xF x 0x55 from rfl, execWord_eq F] at hs
    simp only [Vip.exec, Vip.misc, show (0x55 : Byte).toNat = 0x55 from rfl] at hs
    split at hs
    · rename_i hroom
      obtain rfl := Option.some.inj hs
      have hx := num_lt_15 hvf
      have := block (num x) s.v (by omega) hroom
      have e : ((List.range (num x + 1)).map fun k => (cpu.i + BitVec.ofNat 16 k, s.v k)) =
          writes cpu (.StoreRegistersToMemory x) := by
        refine List.map_congr_left fun k hk => ?_
        have hk := List.mem_range.1 hk
        rw [h.v (regOf k) (regOf_ne_Vf (by omega)), num_regOf (by omega)]
      rw [e] at this
      exact this
    · cases hs
  all_goals
    refine ⟨?_, fun w hw => by cases hw⟩
    show s.mem = s'.mem
  case Cls =>
    have F : Fields 0x00E0 0 0 0xE 0 0xE0 0x0E0 := by constructor <;> rfl
    rw [show encode .Cls = 0x00E0 from rfl, execWord_eq F] at hs
    obtain rfl := Option.some.inj hs
    rfl
  case Ret =>
    have F : Fields 0x00EE 0 0 0xE 0xE 0xEE 0x0EE := by constructor <;> rfl
    rw [show encode .Ret = 0x00EE from rfl, execWord_eq F] at hs
    cases hst : s.stack with
    | nil => simp [Vip.exec, hst] at hs
    | cons a l =>
      simp [Vip.exec, hst] at hs
      subst hs
      rfl
  case Sys a =>
    rw [show encode (.Sys a) = nnn 0 a from rfl, execWord_eq (fields_nnn 0 a hval.1)] at hs
    simp only [Vip.exec, if_neg hval.2.1, if_neg hval.2.2, Option.some.injEq] at hs
    subst hs
    rfl
  case Call a =>
    rw [show encode (.Call a) = nnn 2 a from rfl, execWord_eq (fields_nnn 2 a hval)] at hs
    simp only [Vip.exec] at hs
    split at hs
    · obtain rfl := Option.some.inj hs
      rfl
    · cases hs
  case Skp x =>
    rw [show encode (.Skp x) = xkk 0xE x 0x9E from rfl, execWord_eq (fields_xkk 0xE x 0x9E)] at hs
    simp only [Vip.exec] at hs
    split at hs
    · obtain rfl := Option.some.inj hs
      rfl
    · split at hs
      · obtain rfl := Option.some.inj hs
        rfl
      · cases hs
  case Sknp x =>
    rw [show encode (.Sknp x) = xkk 0xE x 0xA1 from rfl, execWord_eq (fields_xkk 0xE x 0xA1)] at hs
    simp only [Vip.exec] at hs
    split at hs
    · obtain rfl := Option.some.inj hs
      rfl
    · split at hs
      · obtain rfl := Option.some.inj hs
        rfl
      · cases hs
  case LdK x =>
    rw [show encode (.LdK x) = xkk 0xF x 0x0A from rfl, execWord_eq (fields_xkk 0xF x 0x0A)] at hs
    simp only [Vip.exec, Vip.misc, show (0x0A : Byte).toNat = 0x0A from rfl] at hs
    split at hs <;> (obtain rfl := Option.some.inj hs; rfl)
  case LdSpriteLocation x =>
    rw [show encode (.LdSpriteLocation x) = xkk 0xF x 0x29 from rfl,
      execWord_eq (fields_xkk 0xF x 0x29)] at hs
    simp only [Vip.exec, Vip.misc, show (0x29 : Byte).toNat = 0x29 from rfl] at hs
    split at hs
    · obtain rfl := Option.some.inj hs
      rfl
    · cases hs
  case ReadRegistersFromMemory x =>
    rw [show encode (.ReadRegistersFromMemory x) = xkk 0xF x 0x65 from rfl,
      execWord_eq (fields_xkk 0xF x 0x65)] at hs
    simp only [Vip.exec, Vip.misc, show (0x65 : Byte).toNat = 0x65 from rfl] at hs
    split at hs
    · obtain rfl := Option.some.inj hs
      rfl
    · cases hs
  all_goals first
    | exact absurd trivial hvf
    | (simp only [encode] at hs
       first
         | rw [execWord_eq (fields_nnn _ _ hval)] at hs
         | rw [execWord_eq (fields_xkk _ _ _)] at hs
         | rw [execWord_eq (fields_xyn _ _ _ _ (by omega))] at hs
       obtain rfl := Option.some.inj hs
       rfl)

end

end Verif.Chip8
