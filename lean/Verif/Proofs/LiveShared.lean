import Verif.Proofs.LiveRun

/-!
# Memory that all clones share
-/

namespace Verif.Live

open Verif Verif.Mos Verif.Spec.Mos Verif.Spec.Live

section
variable {D : Type} [Addressable D] {b : Build}

theorem stores_det {d d₁ d₂ : D} {a : Word} {v : Byte} (h₁ : Stores b d a v d₁) (h₂ : Stores b d a v d₂) :
    d₁ = d₂ := by
  obtain ⟨r, h₁⟩ := h₁
  obtain ⟨r', h₂⟩ := h₂
  rw [h₁] at h₂
  cases h₂
  rfl

theorem writeAll_step {d d' : D} {a : Word} {v : Byte} {ws : List (Word × Byte)} :
    writeAll b d ((a, v) :: ws) = .ok d' ↔ ∃ d₁, Stores b d a v d₁ ∧ writeAll b d₁ ws = .ok d' := by
  simp only [writeAll, Stores]
  rcases Addressable.write b d a v with p | ⟨_ | r, d₁⟩
  · simp
  · simp
  · simp

/-- A store that is replaced later on makes no difference. -/
theorem absorb (hD : Cells b D) {ws : List (Word × Byte)} {x x₁ y : D} {a : Word} {v : Byte}
    (ha : a ∈ ws.map Prod.fst) (h : Stores b x a v x₁) (hw : writeAll b x ws = .ok y) :
    writeAll b x₁ ws = .ok y := by
  induction ws generalizing x x₁ with
  | nil => simp at ha
  | cons w ws ih =>
    obtain ⟨a', v'⟩ := w
    obtain ⟨x', h1, h2⟩ := writeAll_step.1 hw
    by_cases e : a = a'
    · subst e
      exact writeAll_step.2 ⟨x', hD.replace h h1, h2⟩
    · obtain ⟨z, h3, h4⟩ := hD.exchange e h h1
      have ha' : a ∈ ws.map Prod.fst := by
        simp only [List.map_cons, List.mem_cons] at ha
        rcases ha with ha | ha
        · exact absurd ha e
        · exact ha
      exact writeAll_step.2 ⟨z, h3, ih ha' h4 h2⟩

/-- A store at another address can be made later. -/
theorem postpone (hD : Cells b D) {ws : List (Word × Byte)} {x x₁ y : D} {a : Word} {v : Byte}
    (ha : a ∉ ws.map Prod.fst) (h : Stores b x a v x₁) (hw : writeAll b x ws = .ok y) :
    ∃ y₁, writeAll b x₁ ws = .ok y₁ ∧ Stores b y a v y₁ := by
  induction ws generalizing x x₁ with
  | nil => cases hw; exact ⟨x₁, rfl, h⟩
  | cons w ws ih =>
    obtain ⟨a', v'⟩ := w
    obtain ⟨x', h1, h2⟩ := writeAll_step.1 hw
    simp only [List.map_cons, List.mem_cons, not_or] at ha
    obtain ⟨z, h3, h4⟩ := hD.exchange ha.1 h h1
    obtain ⟨y₁, h5, h6⟩ := ih ha.2 h4 h2
    exact ⟨y₁, writeAll_step.2 ⟨z, h3, h5⟩, h6⟩

/-- Accepted before, accepted after. -/
theorem still_accepted (hD : Cells b D) {ws : List (Word × Byte)} {x x₁ y : D} {a : Word} {v : Byte}
    (h : Stores b x a v x₁) (hw : writeAll b x ws = .ok y) : ∃ y₁, Stores b y a v y₁ := by
  induction ws generalizing x x₁ with
  | nil => cases hw; exact ⟨x₁, h⟩
  | cons w ws ih =>
    obtain ⟨a', v'⟩ := w
    obtain ⟨x', h1, h2⟩ := writeAll_step.1 hw
    by_cases e : a = a'
    · subst e
      exact ih (hD.replace h1 h) h2
    · obtain ⟨z, _, h4⟩ := hD.exchange e h h1
      exact ih h4 h2

/-- Storing the same bytes once more changes nothing. -/
theorem writeAll_again (hD : Cells b D) {ws : List (Word × Byte)} {d d' : D}
    (h : writeAll b d ws = .ok d') : writeAll b d' ws = .ok d' := by
  induction ws generalizing d with
  | nil => rfl
  | cons w ws ih =>
    obtain ⟨a, v⟩ := w
    obtain ⟨d₁, h1, h2⟩ := writeAll_step.1 h
    have h3 : Stores b d₁ a v d₁ := hD.replace h1 h1
    have h4 := ih h2
    by_cases ha : a ∈ ws.map Prod.fst
    · obtain ⟨e, h5⟩ := still_accepted hD h3 h2
      exact writeAll_step.2 ⟨e, h5, absorb hD ha h5 h4⟩
    · obtain ⟨y₁, h5, h6⟩ := postpone hD ha h3 h2
      rw [h2] at h5
      cases h5
      exact writeAll_step.2 ⟨d', h6, h4⟩

end

/-- The emulator's memory is made of cells. -/
theorem cells_memory (b : Build) : Cells b Memory := by
  have key : ∀ {d d' : Memory} {a : Word} {v : Byte}, Stores b d a v d' ↔
      d.kind = .readWrite ∧ subU16 b a d.start = .ok (a - d.start) ∧
        (a - d.start).toNat < d.inner.length ∧
        d' = { d with inner := d.inner.set (a - d.start).toNat v } := by
    intro d d' a v
    obtain ⟨kind, start, stop, inner⟩ := d
    show (∃ r, Memory.write b _ a v = _) ↔ _
    cases kind with
    | readOnly => simp [Memory.write]
    | readWrite =>
      simp only [Memory.write, subU16, indexSet]
      by_cases h1 : b.overflowChecks = true ∧ a.toNat < start.toNat
      · simp [h1]
      · rw [if_neg h1]
        simp only [Res.ok_bind, true_and]
        by_cases h2 : (a - start).toNat < inner.length
        · rw [if_pos h2]
          simp only [Res.ok_bind, Except.ok.injEq, Prod.mk.injEq]
          constructor
          · rintro ⟨r, rfl, rfl⟩; exact ⟨h2, rfl⟩
          · rintro ⟨_, rfl⟩; exact ⟨v, rfl, rfl⟩
        · rw [if_neg h2]
          constructor
          · rintro ⟨r, h⟩; cases h
          · rintro ⟨h, _⟩; exact absurd h h2
  constructor
  · intro d d₁ d₂ a v v' h h'
    rw [key] at h h' ⊢
    obtain ⟨h1, h2, h3, rfl⟩ := h
    obtain ⟨-, -, -, rfl⟩ := h'
    exact ⟨h1, h2, by simpa using h3, by simp⟩
  · intro d d₁ d₂ a a' v v' ha h h'
    rw [key] at h h'
    obtain ⟨h1, h2, h3, rfl⟩ := h
    obtain ⟨-, h2', h3', rfl⟩ := h'
    have hne : (a - d.start).toNat ≠ (a' - d.start).toNat := by
      intro e
      apply ha
      have := BitVec.eq_of_toNat_eq e
      have h5 : a - d.start + d.start = a' - d.start + d.start := by rw [this]
      simpa using h5
    refine ⟨_, key.2 ⟨h1, h2', by simpa using h3', rfl⟩, key.2 ⟨h1, h2, by simpa using h3, ?_⟩⟩
    simp only [Memory.mk.injEq, true_and]
    exact List.set_comm _ _ hne

/-- An address map of devices made of cells is. -/
theorem cells_map {b : Build} {D : Type} [Addressable D] (hD : Cells b D) : Cells b (AddressMap D) := by
  have key : ∀ {m m' : AddressMap D} {a : Word} {v : Byte}, Stores b m a v m' ↔
      ∃ l r d d' l', m.inner = l ++ (r, d) :: l' ∧ (∀ e ∈ l, e.1.contains a = false) ∧
        r.contains a = true ∧ Stores b d a v d' ∧ m' = ⟨l ++ (r, d') :: l'⟩ := by
    intro m m' a v
    obtain ⟨es⟩ := m
    obtain ⟨es'⟩ := m'
    have entries : ∀ (es es' : List (AddrRange × D)),
        (∃ x, AddressMap.writeEntries b a v es = .ok (.ok x, es')) ↔
        ∃ l r d d' l', es = l ++ (r, d) :: l' ∧ (∀ e ∈ l, e.1.contains a = false) ∧
          r.contains a = true ∧ Stores b d a v d' ∧ es' = l ++ (r, d') :: l' := by
      intro es
      induction es with
      | nil =>
        intro es'
        simp [AddressMap.writeEntries]
      | cons e es ih =>
        obtain ⟨r, d⟩ := e
        intro es'
        simp only [AddressMap.writeEntries]
        by_cases hr : r.contains a = true
        · rw [if_pos hr]
          constructor
          · rintro ⟨x, h⟩
            cases hw : Addressable.write b d a v with
            | error p => rw [hw] at h; cases h
            | ok q =>
              obtain ⟨res, d'⟩ := q
              rw [hw, Res.ok_bind] at h
              simp only [Except.ok.injEq, Prod.mk.injEq] at h
              obtain ⟨rfl, rfl⟩ := h
              exact ⟨[], r, d, d', es, rfl, by simp, hr, ⟨x, hw⟩, rfl⟩
          · rintro ⟨l, r₁, d₁, d', l', he, hl, hr₁, ⟨x, hw⟩, rfl⟩
            cases l with
            | nil =>
              simp only [List.nil_append, List.cons.injEq, Prod.mk.injEq] at he
              obtain ⟨⟨rfl, rfl⟩, rfl⟩ := he
              exact ⟨x, by rw [hw]; rfl⟩
            | cons e l =>
              simp only [List.cons_append, List.cons.injEq] at he
              obtain ⟨rfl, rfl⟩ := he
              have := hl (r, d) (by simp)
              simp only at this
              rw [hr] at this
              cases this
        · rw [if_neg hr]
          constructor
          · rintro ⟨x, h⟩
            cases hw : AddressMap.writeEntries b a v es with
            | error p => rw [hw] at h; cases h
            | ok q =>
              obtain ⟨res, es₁⟩ := q
              rw [hw, Res.ok_bind] at h
              simp only [Except.ok.injEq, Prod.mk.injEq] at h
              obtain ⟨rfl, rfl⟩ := h
              obtain ⟨l, r₁, d₁, d', l', rfl, hl, hr₁, hs, rfl⟩ := (ih es₁).1 ⟨x, hw⟩
              refine ⟨(r, d) :: l, r₁, d₁, d', l', rfl, ?_, hr₁, hs, rfl⟩
              intro e he
              simp only [List.mem_cons] at he
              rcases he with rfl | he
              · simpa using hr
              · exact hl e he
          · rintro ⟨l, r₁, d₁, d', l', he, hl, hr₁, hs, rfl⟩
            cases l with
            | nil =>
              simp only [List.nil_append, List.cons.injEq, Prod.mk.injEq] at he
              obtain ⟨⟨rfl, rfl⟩, rfl⟩ := he
              exact absurd hr₁ hr
            | cons e l =>
              simp only [List.cons_append, List.cons.injEq] at he
              obtain ⟨rfl, rfl⟩ := he
              obtain ⟨x, hx⟩ := (ih _).2 ⟨l, r₁, d₁, d', l', rfl, fun e he => hl e (by simp [he]), hr₁, hs, rfl⟩
              exact ⟨x, by rw [hx]; rfl⟩
    have hmap : Stores b (⟨es⟩ : AddressMap D) a v ⟨es'⟩ ↔
        ∃ x, AddressMap.writeEntries b a v es = .ok (.ok x, es') := by
      show (∃ x, AddressMap.write b _ a v = _) ↔ _
      simp only [AddressMap.write]
      cases AddressMap.writeEntries b a v es with
      | error p => constructor <;> (rintro ⟨x, h⟩; cases h)
      | ok q =>
        obtain ⟨res, es₁⟩ := q
        simp [Res.ok_bind]
    rw [hmap, entries]
    simp
  have split_eq : ∀ {a : Word} {l₁ l₂ l₁' l₂' : List (AddrRange × D)} {r₁ r₂ : AddrRange} {d₁ d₂ : D},
      l₁ ++ (r₁, d₁) :: l₁' = l₂ ++ (r₂, d₂) :: l₂' → (∀ e ∈ l₁, e.1.contains a = false) →
      r₁.contains a = true → (∀ e ∈ l₂, e.1.contains a = false) → r₂.contains a = true →
      l₁ = l₂ ∧ r₁ = r₂ ∧ d₁ = d₂ ∧ l₁' = l₂' := by
    intro a l₁
    induction l₁ with
    | nil =>
      intro l₂ l₁' l₂' r₁ r₂ d₁ d₂ he _ hr₁ hl₂ _
      cases l₂ with
      | nil => simpa [and_assoc] using he
      | cons e l₂ =>
        simp only [List.nil_append, List.cons_append, List.cons.injEq] at he
        obtain ⟨rfl, rfl⟩ := he
        have := hl₂ (r₁, d₁) (by simp)
        simp only at this
        rw [hr₁] at this
        cases this
    | cons e l₁ ih =>
      intro l₂ l₁' l₂' r₁ r₂ d₁ d₂ he hl₁ hr₁ hl₂ hr₂
      cases l₂ with
      | nil =>
        simp only [List.nil_append, List.cons_append, List.cons.injEq] at he
        obtain ⟨rfl, rfl⟩ := he
        have := hl₁ (r₂, d₂) (by simp)
        simp only at this
        rw [hr₂] at this
        cases this
      | cons e' l₂ =>
        simp only [List.cons_append, List.cons.injEq] at he
        obtain ⟨rfl, he⟩ := he
        obtain ⟨rfl, h2, h3, h4⟩ := ih he (fun e h => hl₁ e (by simp [h])) hr₁
          (fun e h => hl₂ e (by simp [h])) hr₂
        exact ⟨rfl, h2, h3, h4⟩
  constructor
  · intro m m₁ m₂ a v v' h h'
    obtain ⟨l, r, d, d', l', he, hl, hr, hs, rfl⟩ := key.1 h
    obtain ⟨k, r₁, e, e', k', he', hk, hr', hs', rfl⟩ := key.1 h'
    rw [he] at he'
    obtain ⟨rfl, rfl, rfl, rfl⟩ := split_eq he' hl hr hk hr'
    exact key.2 ⟨l, r, d', e', l', rfl, hl, hr, hD.replace hs hs', rfl⟩
  · intro m m₁ m₂ a a' v v' ha h h'
    obtain ⟨l, r, d, d', l', he, hl, hr, hs, rfl⟩ := key.1 h
    obtain ⟨k, r₁, e, e', k', he', hk, hr', hs', rfl⟩ := key.1 h'
    rw [he] at he'
    -- the two entries are the same one, or one of them is in front of the other
    rcases List.append_eq_append_iff.1 he' with ⟨t, rfl, ht⟩ | ⟨t, rfl, ht⟩
    · cases t with
      | nil =>
        simp only [List.nil_append, List.cons.injEq, Prod.mk.injEq] at ht
        obtain ⟨⟨rfl, rfl⟩, rfl⟩ := ht
        obtain ⟨d₃, h1, h2⟩ := hD.exchange ha hs hs'
        simp only [List.append_nil] at hk ⊢
        exact ⟨_, key.2 ⟨l, r, d', d₃, l', rfl, hk, hr', h1, rfl⟩,
          key.2 ⟨l, r, e', d₃, l', rfl, hl, hr, h2, rfl⟩⟩
      | cons p t =>
        simp only [List.cons_append, List.cons.injEq] at ht
        obtain ⟨rfl, rfl⟩ := ht
        have hk' : ∀ x ∈ l ++ (r, d') :: t, x.1.contains a' = false := by
          intro x hx
          simp only [List.mem_append, List.mem_cons] at hx
          rcases hx with hx | rfl | hx
          · exact hk x (by simp [hx])
          · exact hk (r, d) (by simp)
          · exact hk x (by simp [hx])
        refine ⟨⟨l ++ (r, d') :: (t ++ (r₁, e') :: k')⟩, ?_, ?_⟩
        · exact key.2 ⟨l ++ (r, d') :: t, r₁, e, e', k', by simp, hk', hr', hs', by simp⟩
        · exact key.2 ⟨l, r, d, d', t ++ (r₁, e') :: k', by simp, hl, hr, hs, rfl⟩
    · cases t with
      | nil =>
        simp only [List.nil_append, List.cons.injEq, Prod.mk.injEq] at ht
        obtain ⟨⟨rfl, rfl⟩, rfl⟩ := ht
        obtain ⟨d₃, h1, h2⟩ := hD.exchange ha hs hs'
        simp only [List.append_nil] at hl ⊢
        exact ⟨_, key.2 ⟨k, r₁, d', d₃, k', rfl, hk, hr', h1, rfl⟩,
          key.2 ⟨k, r₁, e', d₃, k', rfl, hl, hr, h2, rfl⟩⟩
      | cons p t =>
        simp only [List.cons_append, List.cons.injEq] at ht
        obtain ⟨rfl, rfl⟩ := ht
        have hl' : ∀ x ∈ k ++ (r₁, e') :: t, x.1.contains a = false := by
          intro x hx
          simp only [List.mem_append, List.mem_cons] at hx
          rcases hx with hx | rfl | hx
          · exact hl x (by simp [hx])
          · exact hl (r₁, e) (by simp)
          · exact hl x (by simp [hx])
        refine ⟨⟨k ++ (r₁, e') :: (t ++ (r, d') :: l')⟩, ?_, ?_⟩
        · exact key.2 ⟨k, r₁, e, e', t ++ (r, d') :: l', by simp, hk, hr', hs', rfl⟩
        · exact key.2 ⟨k ++ (r₁, e') :: t, r, d, d', l', by simp, hl', hr, hs, by simp⟩

/-! ## `run` on shared devices -/

open Verif.Live.Bus

section
variable {B : Type} [Addressable B] {b : Build}

theorem shared_readOnly {α : Type} {who : Copy} {x : Bus α} {s : Site B Shared} (hx : ReadOnly who x) :
    exec b x s = (interp b s.world x, s) := by
  induction x with
  | done r => rfl
  | read who' a k ih =>
    have hr : Device.read b (s.on who') a s.world =
        ((Addressable.read b s.world a).map fun v => (v, s.on who'), s.world) := rfl
    have hsame : s.update who' (s.on who') s.world = s := by cases who' <;> rfl
    simp only [exec, hr, interp]
    cases Addressable.read b s.world a with
    | error e => rfl
    | ok v =>
      show exec b (k v) (s.update who' (s.on who') s.world) = _
      rw [hsame]
      exact ih v (hx.2 v)
  | write _ _ _ _ _ => exact hx.elim

/-- The two clones and the device they share. -/
def together (bus : B) : Site B Shared := ⟨⟨⟩, ⟨⟩, bus⟩

omit [Addressable B] in
theorem together_eq (s : Site B Shared) : s = together s.world := rfl

theorem shared_microcode (mcs : List Microcode) (c : Mos6502 Copy) (bus : B) :
    (∀ bus', writeAll b bus (stores mcs) = .ok bus' →
      exec b (Mos.Live.executeAll mcs c) (together bus) =
        (.ok (withRegs (mcs.foldl regAct (regs c)) c.address_map), together bus')) ∧
    (∀ e, writeAll b bus (stores mcs) = .error e →
      (exec b (Mos.Live.executeAll mcs c) (together bus)).1 = .error e) := by
  induction mcs generalizing c bus with
  | nil =>
    refine ⟨fun bus' h => ?_, fun e h => by cases h⟩
    cases h
    rfl
  | cons mc mcs ih =>
    cases mc with
    | WriteMemory a v =>
      simp only [Mos.Live.executeAll, Mos.Live.executeMut, Mos.Live.writeMemory, Bus.put, write_bind, pure_eq,
        ok_bind, stores, writeAll, exec]
      have hw : Device.write b ((together bus).on c.address_map) a v (together bus).world =
          (match Addressable.write b bus a v with
            | .ok (r, w') => (.ok (r, (⟨⟩ : Shared)), w')
            | .error e => (.error e, bus)) := rfl
      rw [hw]
      rcases Addressable.write b bus a v with p | ⟨e | x, bus₁⟩
      · exact ⟨fun _ h => (by simp at h), fun e h => by cases h; rfl⟩
      · refine ⟨fun _ h => (by simp at h), fun e' h => ?_⟩
        simp only [Except.error.injEq] at h
        subst h
        rfl
      · have hu : (together bus).update c.address_map ⟨⟩ bus₁ = together bus₁ := by
          cases c.address_map <;> rfl
        have := ih c bus₁
        rw [← hu] at this
        exact this
    | SetProgramStatusFlagState f v =>
      have := ih (setFlag c f v) bus
      cases f <;> exact this
    | Write8bitRegister r v =>
      have := ih (write8 c r v) bus
      cases r <;> exact this
    | Inc8bitRegister r v =>
      have := ih (inc8 c r v) bus
      cases r <;> exact this
    | Dec8bitRegister r v =>
      have := ih (dec8 c r v) bus
      cases r <;> exact this
    | Write16bitRegister r v =>
      cases r
      exact ih { c with pc := v } bus
    | Inc16bitRegister r v =>
      cases r
      exact ih { c with pc := c.pc + v } bus
    | Dec16bitRegister r v =>
      cases r
      exact ih { c with pc := c.pc - v } bus

theorem shared_next (c : Mos6502 B) (who : Copy) :
    (∀ ops c', next b c = .ok (ops, c') → exec b (Mos.Live.next b (named who c)) (together c.address_map) =
      (.ok (ops, named who c'), together c'.address_map)) ∧
    (∀ e, next b c = .error e →
      (exec b (Mos.Live.next b (named who c)) (together c.address_map)).1 = .error e) := by
  unfold next Mos.Live.next
  have hf : interp b (together c.address_map).world (Mos.Live.fetch b (named who c)) = fetch b c :=
    interp_fetch c who
  rw [exec_bind, shared_readOnly (readOnly_fetch _), hf]
  cases fetch b c with
  | error e => exact ⟨fun _ _ h => (by cases h), fun e' h => by cases h; rfl⟩
  | ok i =>
    simp only [Res.ok_bind]
    have hg : interp b (together c.address_map).world (Mos.Live.generate b (named who c) i) = i.generate b c :=
      interp_generate c who i
    rw [exec_bind, shared_readOnly (readOnly_follows (follows_generate b (named who c) i)), hg]
    cases i.generate b c with
    | error e => exact ⟨fun _ _ h => (by cases h), fun e' h => by cases h; rfl⟩
    | ok mops =>
      simp only [Res.ok_bind, lift_eq]
      cases mops.intoSteps b with
      | error e => exact ⟨fun _ _ h => (by cases h), fun e' h => by cases h; rfl⟩
      | ok steps =>
        simp only [Res.ok_bind, ok_bind]
        rw [exec_bind, exec_split]
        obtain ⟨h1, h2⟩ := shared_microcode (b := b) steps.flatten (named who c) c.address_map
        cases hw : writeAll b c.address_map (stores steps.flatten) with
        | error e =>
          refine ⟨fun _ _ h => (by cases h), fun e' h => ?_⟩
          cases h
          have := h2 e hw
          rcases hx : exec b (Mos.Live.executeAll steps.flatten (named who c)) (together c.address_map) with
            ⟨r, s'⟩
          rw [hx] at this
          simp only at this
          subst this
          rfl
        | ok bus' =>
          rw [h1 bus' hw]
          refine ⟨fun ops c' h => ?_, fun e h => (by cases h)⟩
          cases h
          rfl

/-- The first instruction of `run` on a shared device. -/
theorem shared_step (hB : Cells b B) {c c' : Mos6502 B} {ops : Operations} {n : Nat} (hn : 0 < n)
    (hx : next b c = .ok (ops, c')) :
    exec b (Mos.Live.runLoop b n (named .iterator c) [] (named .own c)) (together c.address_map) =
      if n < ops.cycles then (.ok (named .own c), together c'.address_map) else
        exec b (Mos.Live.runLoop b (n - ops.cycles) (named .iterator c') [] (named .own c'))
          (together c'.address_map) := by
  obtain ⟨hc, hs, he⟩ := next_microcode hx
  obtain ⟨hw, hr⟩ := exec_split_ok he
  rw [live_step n hn, exec_bind, (shared_next (b := b) c .iterator).1 ops c' hx]
  simp only [hs, lift_eq, ok_bind]
  by_cases hlt : n < ops.cycles
  · rw [if_pos hlt, if_pos hlt]; rfl
  · rw [if_neg hlt, if_neg hlt, exec_bind,
      (shared_microcode (b := b) (microcodeOf ops) (named .own c) c'.address_map).1 _ (writeAll_again hB hw)]
    have : withRegs ((microcodeOf ops).foldl regAct (regs (named .own c))) (named .own c).address_map =
        named .own c' := by
      show withRegs ((microcodeOf ops).foldl regAct (regs c)) _ = _
      rw [← hr]; rfl
    simp only [this]

theorem shared_instructions (hB : Cells b B) {c c' : Mos6502 B} {l : List Operations}
    (h : Instructions b c l c') : ∀ n, totalCycles l ≤ n →
    exec b (Mos.Live.runLoop b n (named .iterator c) [] (named .own c)) (together c.address_map) =
      exec b (Mos.Live.runLoop b (n - totalCycles l) (named .iterator c') [] (named .own c'))
        (together c'.address_map) := by
  induction h with
  | nil c => intro n _; rfl
  | @cons c c' c'' ops l hx _ ih =>
    intro n hn
    rw [totalCycles_cons] at hn ⊢
    obtain ⟨hc, -⟩ := next_inv hx
    rw [shared_step hB (by omega) hx, if_neg (by omega), ih _ (by omega)]
    have : n - ops.cycles - totalCycles l = n - (ops.cycles + totalCycles l) := by omega
    rw [this]

end

end Verif.Live
