import Verif.Spec.LiveChip8
import Verif.Proofs.LiveShared
import Verif.Proofs.Chip8Effect
import Verif.Props.Chip8.Decode

/-!
# The CHIP-8 as trees of bus calls
-/

namespace Verif.Live.Bus

open Verif Verif.Spec.Live

variable {α β : Type}

/-- The reads of a computation that follows `ask`, whatever its result. -/
theorem asked_follows_any {who : Copy} {ask : List Byte → Option Word} {x : Bus α} {vs : List Byte}
    {l : List Call} {r : Res α} (hf : Follows who ask vs x) (h : Asked x l r) :
    ∃ rs, l = readCalls who rs ∧
      (∀ k (hk : k < rs.length), ask (vs ++ (rs.take k).map Prod.snd) = some rs[k].1) := by
  induction h generalizing vs with
  | done r => exact ⟨[], rfl, fun k hk => by simp at hk⟩
  | @read who' ad k v l r _ ih =>
    obtain ⟨rfl, h1, h2⟩ := hf
    obtain ⟨rs, rfl, h3⟩ := ih (h2 v)
    refine ⟨(ad, v) :: rs, rfl, ?_⟩
    intro j hj
    cases j with
    | zero => simpa using h1
    | succ j => simpa using h3 j (by simpa using hj)
  | write _ _ => exact absurd hf (by simp [Follows])

/-- Asking for a fixed list of addresses; proof device. -/
def askL (addrs : List Word) : List Byte → Option Word := fun vs => addrs[vs.length]?

theorem prefix_of_ask {addrs : List Word} {rs : List (Word × Byte)}
    (h : ∀ k (hk : k < rs.length), askL addrs ([] ++ (rs.take k).map Prod.snd) = some rs[k].1) :
    rs.map Prod.fst <+: addrs := by
  rw [List.prefix_iff_eq_take]
  apply List.ext_getElem?
  intro k
  rw [List.getElem?_take]
  simp only [List.length_map]
  by_cases hk : k < rs.length
  · rw [if_pos hk]
    have := h k hk
    simp only [askL, List.nil_append, List.length_map, List.length_take, Nat.min_eq_left (Nat.le_of_lt hk)]
      at this
    rw [this]
    simp [hk]
  · rw [if_neg hk]
    simp [Nat.le_of_not_lt hk]

theorem all_of_ask {addrs : List Word} {rs : List (Word × Byte)}
    (h : ∀ k (hk : k < rs.length), askL addrs ([] ++ (rs.take k).map Prod.snd) = some rs[k].1)
    (he : askL addrs ([] ++ rs.map Prod.snd) = none) : rs.map Prod.fst = addrs := by
  have hp := prefix_of_ask h
  refine hp.eq_of_length_le ?_
  simpa [askL] using he

/-- One read after the other. -/
theorem follows_mapCalls {γ : Type} {who : Copy} {addrs : List Word} {f : α → Bus β} {g : α → Word}
    {k : List β → Bus γ} (xs : List α)
    (hf : ∀ x ∈ xs, (∃ e, f x = .done (.error e)) ∨ ∃ h : Byte → β, f x = .read who (g x) fun v => .done (.ok (h v))) :
    ∀ {vs : List Byte} {tl : List Word}, addrs.drop vs.length = xs.map g ++ tl →
      (∀ ys vs', ys.length = xs.length → vs'.length = vs.length + xs.length → Follows who (askL addrs) vs' (k ys)) →
      Follows who (askL addrs) vs (Chip8.Live.mapCalls f xs >>= k) := by
  induction xs generalizing k with
  | nil =>
    intro vs tl _ hk
    exact hk [] vs rfl rfl
  | cons x xs ih =>
    intro vs tl ha hk
    simp only [Chip8.Live.mapCalls]
    rcases hf x (by simp) with ⟨e, he⟩ | ⟨h, he⟩
    · rw [he]; trivial
    · rw [he]
      refine ⟨rfl, ?_, fun v => ?_⟩
      · have : (addrs.drop vs.length)[0]? = some (g x) := by rw [ha]; rfl
        simpa [askL] using this
      · show Follows who (askL addrs) (vs ++ [v])
          ((Chip8.Live.mapCalls f xs >>= fun ys => Bus.done (.ok (h v :: ys))) >>= k)
        rw [bind_assoc]
        refine ih (fun y hy => hf y (by simp [hy])) (tl := tl) ?_ ?_
        · have : (addrs.drop vs.length).drop 1 = xs.map g ++ tl := by rw [ha]; rfl
          simpa [List.drop_drop] using this
        · intro ys vs' h1 h2
          exact hk (h v :: ys) vs' (by simp [h1]) (by simp at h2; simp; omega)

theorem bind_pure (x : Bus α) : (x >>= fun a => Bus.done (.ok a)) = x := by
  induction x with
  | done r => cases r <;> rfl
  | read who a k ih => simp only [read_bind, ih]
  | write who a x k ih => simp only [write_bind, ih]

theorem mapCalls_map {γ : Type} (f : β → Bus γ) (g : α → β) (xs : List α) :
    Chip8.Live.mapCalls f (xs.map g) = Chip8.Live.mapCalls (fun x => f (g x)) xs := by
  induction xs with
  | nil => rfl
  | cons x xs ih => simp only [List.map_cons, Chip8.Live.mapCalls, ih]

theorem interp_mapCalls {B : Type} [Addressable B] {b : Build} {bus : B} (f : α → Bus β) (xs : List α) :
    interp b bus (Chip8.Live.mapCalls f xs) = xs.mapM fun x => interp b bus (f x) := by
  induction xs with
  | nil => rfl
  | cons x xs ih =>
    rw [List.mapM_cons, Chip8.Live.mapCalls, interp_bind]
    congr 1
    funext y
    rw [interp_bind, ih]
    rfl

end Verif.Live.Bus

namespace Verif.Chip8

open Verif Verif.Spec.Chip8 Verif.Spec.Live Verif.Live Verif.Live.Bus
open Verif.Mos (addU16_val asked_bind_ok asked_lift asked_get ReadOnly readOnly_follows exec_readOnly update_on update_update
  update_world)
open Verif.Spec.Mos (writeAll)

variable {B R : Type} [Addressable B] {b : Build} {e : Env}

omit [Addressable B] in
theorem onBus_rest (c : Chip8 B R) : onBus (rest c) c.address_space = c := rfl

omit [Addressable B] in
theorem read_onBus (c : Chip8 Unit R) (bus : B) (r : GpRegisters) :
    readGpRegister (onBus c bus) r = readGpRegister c r := rfl

theorem interp_generate (c : Chip8 Unit R) (bus : B) (who : Copy) (op : Opcode) :
    interp b bus (Live.generate b e (onBus c who) op) = generate b e (onBus c bus) op := by
  cases op with
  | Drw x y n =>
    simp only [Live.generate, Live.genDrw, Live.drwSprite, generate, genDrw, drwSprite, interp_bind,
      interp_mapCalls, interp_lift, interp_get, interp_pure]
    rfl
  | ReadRegistersFromMemory x =>
    simp only [Live.generate, Live.genReadRegisters, generate, genReadRegisters, interp_bind,
      interp_mapCalls, interp_lift, interp_get, interp_pure]
    rfl
  | _ => rfl

theorem follows_none {α : Type} {who : Copy} (r : Res α) : Follows who (askL []) [] (.done r) := by
  cases r <;> simp [Follows, askL]

theorem cellsFrom_zero (i : Word) : cellsFrom i 0 = [] := rfl

theorem drw_short (d : Display) (x y n : Nat) (hn : 0 < n) :
    ∃ p, (Display.offsets n).foldlM (drwStep d [] x y) (false, []) = .error p := by
  obtain ⟨n, rfl⟩ : ∃ m, n = m + 1 := ⟨n - 1, by omega⟩
  refine ⟨.bounds, ?_⟩
  have : Display.offsets (n + 1) = (0, 0) :: (Display.offsets (n + 1)).tail := by
    simp [Display.offsets, List.range_succ_eq_map]
  rw [this]
  rfl

theorem follows_generate (c : Chip8 Unit R) (who : Copy) (op : Opcode) :
    Follows who (askL (cellsFrom c.i (readCount op))) [] (Live.generate b e (onBus c who) op) := by
  cases op with
  | Drw x y n =>
    simp only [Live.generate, Live.genDrw, Live.drwSprite, bind_assoc]
    rw [follows_lift]
    intro stop hs
    have hst := addU16_val hs
    have hsum : stop.toNat = (c.i.toNat + n.toNat) % 65536 := by
      rw [hst, BitVec.toNat_add]
      simp [onBus, u16OfU8]
    have hi := c.i.isLt
    have hn := n.isLt
    by_cases hw : c.i.toNat + n.toNat < 65536
    · rw [Nat.mod_eq_of_lt hw] at hsum
      refine follows_mapCalls (g := fun a => BitVec.ofNat 16 a) (tl := []) _ ?_ ?_ ?_
      · intro a _
        exact .inr ⟨id, rfl⟩
      · simp only [List.length_nil, List.drop_zero, List.append_nil, readCount, cellsFrom]
        show _ = (List.range' c.i.toNat (stop.toNat - c.i.toNat)).map _
        rw [hsum, Nat.add_sub_cancel_left, List.range'_eq_map_range, List.map_map]
        rfl
      · intro ys vs' h1 h2
        have hl : vs'.length = n.toNat := by
          rw [h2]
          show 0 + (List.range' c.i.toNat (stop.toNat - c.i.toNat)).length = _
          rw [List.length_range']
          omega
        rw [follows_lift]
        intro vx _
        rw [follows_lift]
        intro vy _
        rw [follows_lift]
        intro s _
        show askL _ vs' = none
        simp [askL, cellsFrom, readCount, hl]
    · have h0 : stop.toNat - c.i.toNat = 0 := by omega
      have hpos : 0 < n.toNat := by omega
      show Follows _ _ _ (Live.mapCalls _ (List.range' c.i.toNat (stop.toNat - c.i.toNat)) >>= _)
      rw [h0]
      show Follows _ _ _ ((liftM (readGpRegister _ x) : Bus Byte) >>= _)
      rw [follows_lift]
      intro vx _
      rw [follows_lift]
      intro vy _
      rw [follows_lift]
      intro s hs'
      obtain ⟨p, hp⟩ := drw_short (onBus c who).display vx.toNat vy.toNat n.toNat hpos
      rw [hp] at hs'
      cases hs'
  | ReadRegistersFromMemory x =>
    simp only [Live.generate, Live.genReadRegisters, regRange_eq, mapCalls_map]
    rw [← bind_pure (Live.mapCalls _ _)]
    refine follows_mapCalls (g := fun k => BitVec.ofNat 16 (c.i.toNat + k)) (tl := []) _ ?_ ?_ ?_
    · intro k hk
      have hk : k < num x + 1 := List.mem_range.1 hk
      have hx := num_lt x
      simp only [lift_eq, ok_bind]
      cases ha : addU16 b (onBus c who).i (BitVec.ofNat 16 (regOf k).asUsize) with
      | error p => exact .inl ⟨p, rfl⟩
      | ok a =>
        refine .inr ⟨fun v => writeGp (regOf k) v, ?_⟩
        have : a = BitVec.ofNat 16 (c.i.toNat + k) := by
          rw [addU16_val ha, asUsize_eq_num, num_regOf (by omega)]
          apply BitVec.eq_of_toNat_eq
          rw [BitVec.toNat_add, BitVec.toNat_ofNat, BitVec.toNat_ofNat]
          show (c.i.toNat + _) % _ = _
          omega
        rw [this]
        rfl
    · simp [cellsFrom, readCount]
    · intro ys vs' h1 h2
      show askL _ vs' = none
      simp only [List.length_range, List.length_nil] at h2
      simp [askL, cellsFrom, readCount, h2]
  | _ => exact follows_none _

/-! ## Microcode -/

/-- A microcode is a memory write or does not concern the bus. -/
theorem plain_mc (t : Instant) (c : Chip8 Unit R) (mc : Microcode) :
    (∃ a v, mc = .WriteMemory a v) ∨
    ((∀ mcs, byteStores (mc :: mcs) = byteStores mcs) ∧ ∃ r : Res (Chip8 Unit R),
      (∀ who, Live.executeMut b t (onBus c who) mc = .done (r.map fun d => onBus d who)) ∧
      ∀ (B : Type) [Addressable B] (bus : B), executeMut b t (onBus c bus) mc = r.map fun d => onBus d bus) := by
  cases mc with
  | WriteMemory a v => exact .inl ⟨a, v, rfl⟩
  | Write8bitRegister reg v =>
    refine .inr ⟨fun _ => rfl, write8 t c reg v, fun who => ?_, fun B _ bus => ?_⟩
    all_goals
      rcases reg with g | ⟨_ | _⟩
      · simp only [Live.executeMut, executeMut, write8, onBus]
        cases setGp c.gp_registers g v <;> rfl
      · rfl
      · rfl
  | Inc8bitRegister reg v =>
    refine .inr ⟨fun _ => rfl, inc8 b t c reg v, fun who => ?_, fun B _ bus => ?_⟩
    all_goals
      rcases reg with g | ⟨_ | _⟩
      · simp only [Live.executeMut, executeMut, inc8, readGpRegister, onBus]
        cases c.gp_registers[g.asUsize]? with
        | none => rfl
        | some w =>
          simp only [Res.ok_bind]
          cases setGp c.gp_registers g (w + v) <;> rfl
      · simp only [Live.executeMut, executeMut, inc8, onBus]
        first
          | cases c.dt.read b t <;> rfl
          | cases c.st.read b t <;> rfl
      · simp only [Live.executeMut, executeMut, inc8, onBus]
        first
          | cases c.st.read b t <;> rfl
          | cases c.dt.read b t <;> rfl
  | PushStack w =>
    refine .inr ⟨fun _ => rfl, pushStack c w, fun who => ?_, fun B _ bus => ?_⟩
    all_goals
      simp only [Live.executeMut, executeMut, pushStack, onBus]
      cases c.stack.write c.sp.read.toNat w with
      | error p => rfl
      | ok x =>
        obtain ⟨r, st⟩ := x
        simp only [Res.ok_bind]
        cases unwrapResult r <;> rfl
  | SetDisplayRange s s' v =>
    refine .inr ⟨fun _ => rfl, setDisplayRange b c s s' v, fun who => ?_, fun B _ bus => ?_⟩
    all_goals
      simp only [Live.executeMut, executeMut, setDisplayRange, onBus]
      cases mulUsize b s.2 Display.xMax with
      | error p => rfl
      | ok r1 =>
      cases h2 : addUsize b r1 s.1 with
      | error p => simp only [Res.ok_bind, h2]; rfl
      | ok r2 =>
      cases subUsize b s'.2 s.2 with
      | error p => simp only [Res.ok_bind, h2]; rfl
      | ok r3 =>
      cases h4 : mulUsize b r3 Display.xMax with
      | error p => simp only [Res.ok_bind, h2, h4]; rfl
      | ok r4 =>
      cases subUsize b s'.1 s.1 with
      | error p => simp only [Res.ok_bind, h2, h4]; rfl
      | ok r5 =>
      cases h6 : addUsize b r4 r5 with
      | error p => simp only [Res.ok_bind, h2, h4, h6]; rfl
      | ok r6 =>
      cases h7 : addUsize b r6 1 with
      | error p => simp only [Res.ok_bind, h2, h4, h6, h7]; rfl
      | ok r7 => simp only [Res.ok_bind, h2, h4, h6, h7]; rfl
  | Write16bitRegister reg v =>
    cases reg
    · exact .inr ⟨fun _ => rfl, .ok { c with i := v }, fun _ => rfl, fun _ _ _ => rfl⟩
    · exact .inr ⟨fun _ => rfl, .ok { c with pc := v }, fun _ => rfl, fun _ _ _ => rfl⟩
  | Inc16bitRegister reg v =>
    cases reg
    · exact .inr ⟨fun _ => rfl, .ok { c with i := c.i + v }, fun _ => rfl, fun _ _ _ => rfl⟩
    · exact .inr ⟨fun _ => rfl, .ok { c with pc := c.pc + v }, fun _ => rfl, fun _ _ _ => rfl⟩
  | Dec8bitRegister reg v => exact .inr ⟨fun _ => rfl, .ok c, fun _ => rfl, fun _ _ _ => rfl⟩
  | Dec16bitRegister reg v => exact .inr ⟨fun _ => rfl, .ok c, fun _ => rfl, fun _ _ _ => rfl⟩
  | PopStack w => exact .inr ⟨fun _ => rfl, .ok c, fun _ => rfl, fun _ _ _ => rfl⟩
  | KeyPress key =>
    exact .inr ⟨fun _ => rfl, .ok { c with interrupt := some (.KeyPress key) }, fun _ => rfl, fun _ _ _ => rfl⟩
  | KeyRelease => exact .inr ⟨fun _ => rfl, .ok { c with interrupt := none }, fun _ => rfl, fun _ _ _ => rfl⟩
  | SetDisplayPixel p v =>
    exact .inr ⟨fun _ => rfl, .ok { c with display := (c.display.writePixel p.1 p.2 v).1 }, fun _ => rfl,
      fun _ _ _ => rfl⟩

/-- The calls of a list of microcode, whatever the result. -/
theorem asked_executeAll (t : Instant) (mcs : List Microcode) : ∀ (c : Chip8 Unit R) (who : Copy)
    (l : List Call) (r : Res (Chip8 Copy R)), Asked (Live.executeAll b t (onBus c who) mcs) l r →
    ∃ ws, l = anyPuts who ws ∧ ws.map (fun p => (p.1, p.2.1)) <+: byteStores mcs ∧
      ∀ q, r = .ok q → ∃ c' vs, q = onBus c' who ∧ vs.length = (byteStores mcs).length ∧
        l = putCalls who (byteStores mcs) vs ∧ Folds b t c mcs c' := by
  induction mcs with
  | nil =>
    intro c who l r h
    simp only [Live.executeAll, pure_eq, asked_done] at h
    obtain ⟨rfl, rfl⟩ := h
    refine ⟨[], rfl, List.nil_prefix, fun q hq => ?_⟩
    cases hq
    refine ⟨c, [], rfl, rfl, rfl, fun B _ bus bus' hw => ?_⟩
    cases hw
    rfl
  | cons mc mcs ih =>
    intro c who l r h
    rcases plain_mc (b := b) t c mc with ⟨a, v, rfl⟩ | ⟨hst, x, hx, hx'⟩
    · simp only [Live.executeAll, Live.executeMut, Live.writeMemory, Bus.put, write_bind, pure_eq, ok_bind,
        asked_write] at h
      obtain ⟨y, l', rfl, h⟩ := h
      cases y with
      | error msg =>
        simp only [unwrapResult, lift_eq, error_bind, asked_done] at h
        obtain ⟨rfl, rfl⟩ := h
        refine ⟨[(a, v, .error msg)], rfl, by simp [byteStores], fun q hq => (by cases hq)⟩
      | ok y =>
        simp only [unwrapResult, lift_eq, ok_bind] at h
        obtain ⟨ws, rfl, hp, hok⟩ := ih c who l' r h
        refine ⟨(a, v, .ok y) :: ws, rfl, by simpa [byteStores] using hp, fun q hq => ?_⟩
        obtain ⟨c', vs, h1, h2, h3, h4⟩ := hok q hq
        refine ⟨c', y :: vs, h1, by simp [byteStores, h2], by rw [h3]; rfl, fun B _ bus bus' hw => ?_⟩
        simp only [byteStores] at hw
        obtain ⟨bus₁, ⟨y', hy⟩, hw'⟩ := writeAll_step.1 hw
        simp only [executeAll, executeMut, writeMemory]
        have : Addressable.write b (onBus c bus).address_space a v = .ok (.ok y', bus₁) := hy
        rw [this]
        exact h4 B bus₁ bus' hw'
    · simp only [Live.executeAll, hx] at h
      rw [hst]
      cases x with
      | error p =>
        simp only [Except.map, error_bind, asked_done] at h
        obtain ⟨rfl, rfl⟩ := h
        exact ⟨[], rfl, List.nil_prefix, fun q hq => (by cases hq)⟩
      | ok d =>
        simp only [Except.map, ok_bind] at h
        obtain ⟨ws, rfl, hp, hok⟩ := ih d who l r h
        refine ⟨ws, rfl, hp, fun q hq => ?_⟩
        obtain ⟨c', vs, h1, h2, h3, h4⟩ := hok q hq
        refine ⟨c', vs, h1, h2, h3, fun B _ bus bus' hw => ?_⟩
        simp only [executeAll, hx']
        rw [hst] at hw
        exact h4 B bus bus' hw

/-! ## Instructions -/

/-- The calls of the fetch, whatever the result. -/
theorem asked_fetch {c : Chip8 Unit R} {who : Copy} {l : List Call} {r : Res Opcode}
    (h : Asked (Live.fetch b (onBus c who)) l r) :
    (∃ b0 p, l = [.read who c.pc b0] ∧ r = .error p) ∨
    ∃ b0 b1, l = [.read who c.pc b0, .read who (BitVec.ofNat 16 (c.pc.toNat + 1)) b1] ∧
      addU16 b c.pc 1 = .ok (BitVec.ofNat 16 (c.pc.toNat + 1)) ∧
      r = decodeBytesToOpcode b0 b1 >>= unwrapResult := by
  simp only [Live.fetch, Bus.get, read_bind, pure_eq, ok_bind, lift_eq, asked_read] at h
  obtain ⟨b0, l₁, rfl, h⟩ := h
  cases hp : addU16 b (onBus c who).pc 1 with
  | error p =>
    rw [hp, error_bind, asked_done] at h
    obtain ⟨rfl, rfl⟩ := h
    exact .inl ⟨b0, p, rfl, rfl⟩
  | ok p1 =>
    rw [hp, ok_bind, asked_read] at h
    obtain ⟨b1, l₂, rfl, h⟩ := h
    have e1 : p1 = BitVec.ofNat 16 (c.pc.toNat + 1) := by
      rw [addU16_val hp]
      apply BitVec.eq_of_toNat_eq
      rw [BitVec.toNat_add, BitVec.toNat_ofNat]
      rfl
    subst e1
    refine .inr ⟨b0, b1, ?_, hp, ?_⟩
    · cases hd : decodeBytesToOpcode b0 b1 with
      | error p =>
        rw [hd, error_bind, asked_done] at h
        rw [h.1]; rfl
      | ok x =>
        rw [hd, ok_bind, asked_done] at h
        rw [h.1]; rfl
    · cases hd : decodeBytesToOpcode b0 b1 with
      | error p =>
        rw [hd, error_bind, asked_done] at h
        rw [h.2]; rfl
      | ok x =>
        rw [hd, ok_bind, asked_done] at h
        rw [h.2]; rfl

theorem byteStores_append (l l' : List Microcode) : byteStores (l ++ l') = byteStores l ++ byteStores l' := by
  induction l with
  | nil => rfl
  | cons mc l ih => cases mc <;> simp [byteStores, ih]

theorem byteStores_none {l : List Microcode} (h : ∀ mc ∈ l, ∀ a v, mc ≠ .WriteMemory a v) : byteStores l = [] := by
  induction l with
  | nil => rfl
  | cons mc l ih =>
    have := ih fun m hm => h m (by simp [hm])
    cases mc <;> first | exact this | exact absurd rfl (h _ List.mem_cons_self _ _)

theorem asked_mapCalls {α β : Type} {f : α → Bus β} {xs : List α} : ∀ {l : List Call} {ys : List β},
    Asked (Live.mapCalls f xs) l (.ok ys) → ∀ y ∈ ys, ∃ x ∈ xs, ∃ l', Asked (f x) l' (.ok y) := by
  induction xs with
  | nil =>
    intro l ys h y hy
    simp only [Live.mapCalls, pure_eq, asked_done, Except.ok.injEq] at h
    rw [h.2] at hy
    simp at hy
  | cons x xs ih =>
    intro l ys h y hy
    simp only [Live.mapCalls] at h
    obtain ⟨l₁, l₂, z, rfl, h1, h2⟩ := asked_bind_ok.1 h
    obtain ⟨l₃, l₄, zs, rfl, h3, h4⟩ := asked_bind_ok.1 h2
    simp only [pure_eq, asked_done, Except.ok.injEq] at h4
    rw [h4.2, List.mem_cons] at hy
    rcases hy with rfl | hy
    · exact ⟨x, by simp, l₁, h1⟩
    · obtain ⟨x', hx', r⟩ := ih h3 y hy
      exact ⟨x', by simp [hx'], r⟩

theorem bind_inv {α β : Type} {x : Res α} {f : α → Res β} {y : β} (h : (x >>= f) = .ok y) :
    ∃ a, x = .ok a ∧ f a = .ok y := by
  cases x with
  | error p => cases h
  | ok a => exact ⟨a, rfl, h⟩

/-- The instructions store at I and behind it. -/
theorem stores_generate {c : Chip8 Unit R} {who : Copy} {op : Opcode} {l : List Call} {mcs : List Microcode}
    (h : Asked (Live.generate b e (onBus c who) op) l (.ok mcs)) :
    (byteStores mcs).map Prod.fst = cellsFrom c.i (storeCount op) := by
  have none : ∀ {mcs : List Microcode}, (∀ mc ∈ mcs, ∀ a v, mc ≠ .WriteMemory a v) →
      (byteStores mcs).map Prod.fst = cellsFrom c.i 0 := fun h => by rw [byteStores_none h]; rfl
  cases op with
  | Drw x y n =>
    simp only [Live.generate, Live.genDrw] at h
    obtain ⟨_, _, sp, rfl, -, h⟩ := asked_bind_ok.1 h
    obtain ⟨_, _, vx, rfl, -, h⟩ := asked_bind_ok.1 h
    obtain ⟨_, _, vy, rfl, -, h⟩ := asked_bind_ok.1 h
    obtain ⟨_, _, s, rfl, h1, h⟩ := asked_bind_ok.1 h
    simp only [pure_eq, asked_done, Except.ok.injEq] at h
    rw [h.2]
    have := drw_pixels _ _ _ _ _ _ _ (asked_lift.1 h1).2 (by simp)
    refine none fun mc hm a v he => ?_
    rcases List.mem_append.1 hm with hm | hm
    · obtain ⟨_, _, hh⟩ := this mc hm
      rw [hh] at he
      cases he
    · rw [List.mem_singleton.1 hm] at he
      cases he
  | ReadRegistersFromMemory x =>
    simp only [Live.generate, Live.genReadRegisters] at h
    refine none fun mc hm a v he => ?_
    obtain ⟨r, -, l', h'⟩ := asked_mapCalls h mc hm
    obtain ⟨_, _, reg, rfl, -, h'⟩ := asked_bind_ok.1 h'
    obtain ⟨_, _, idx, rfl, -, h'⟩ := asked_bind_ok.1 h'
    obtain ⟨_, _, val, rfl, -, h'⟩ := asked_bind_ok.1 h'
    simp only [pure_eq, asked_done, Except.ok.injEq] at h'
    rw [h'.2] at he
    cases he
  | LdBcd x =>
    simp only [Live.generate, genLdBcd] at h
    obtain ⟨-, h⟩ := asked_lift.1 h
    obtain ⟨v, -, h⟩ := bind_inv h
    obtain ⟨i1, h1, h⟩ := bind_inv h
    obtain ⟨i2, h2, h⟩ := bind_inv h
    cases h
    rw [addU16_val h1, addU16_val h2]
    simp only [byteStores, List.map_cons, List.map_nil, cellsFrom, storeCount]
    have a1 : c.i + 1 = BitVec.ofNat 16 (c.i.toNat + 1) := by
      apply BitVec.eq_of_toNat_eq; rw [BitVec.toNat_add, BitVec.toNat_ofNat]; rfl
    show [c.i, c.i + 1, c.i + 2] = _
    rw [a1, add_two]
    simp [List.range_succ]
  | StoreRegistersToMemory x =>
    simp only [Live.generate, genStoreRegisters, regRange_eq] at h
    obtain ⟨-, h⟩ := asked_lift.1 h
    rw [mapM_map] at h
    have hx := num_lt x
    have key : ∀ (ks : List Nat) (ms : List Microcode), (∀ k ∈ ks, k < 16) →
        (ks.mapM fun k => (do
          let reg ← (.ok (regOf k) : Res GpRegisters)
          let v ← readGpRegister (onBus c who) reg
          let a ← addU16 b (onBus c who).i (BitVec.ofNat 16 reg.asUsize)
          .ok (Microcode.WriteMemory a v))) = .ok ms →
        (byteStores ms).map Prod.fst = ks.map fun k => BitVec.ofNat 16 (c.i.toNat + k) := by
      intro ks
      induction ks with
      | nil => intro ms _ hf; cases hf; rfl
      | cons k ks ih =>
        intro ms hk hf
        rw [List.mapM_cons, Res.ok_bind] at hf
        obtain ⟨y, h1, hf⟩ := bind_inv hf
        obtain ⟨ys, hys, hf⟩ := bind_inv hf
        obtain ⟨v, -, h1⟩ := bind_inv h1
        obtain ⟨a, h2, h1⟩ := bind_inv h1
        cases h1
        cases hf
        simp only [byteStores, List.map_cons, ih ys (fun j hj => hk j (by simp [hj])) hys]
        congr 1
        rw [addU16_val h2, asUsize_eq_num, num_regOf (hk k (by simp))]
        apply BitVec.eq_of_toNat_eq
        rw [BitVec.toNat_add, BitVec.toNat_ofNat, BitVec.toNat_ofNat]
        show (c.i.toNat + _) % _ = _
        omega
    exact key (List.range (num x + 1)) _ (fun k hk => by have := List.mem_range.1 hk; omega) h
  | Skp x =>
    simp only [Live.generate, genSkp] at h
    obtain ⟨-, h⟩ := asked_lift.1 h
    obtain ⟨v, -, h⟩ := bind_inv h
    refine none ?_
    revert h
    rcases (onBus c who).interrupt with _ | ⟨key⟩
    · rintro ⟨⟩; simp
    · simp only
      split <;> (rintro ⟨⟩; simp [incPc2])
  | Sknp x =>
    simp only [Live.generate, genSknp] at h
    obtain ⟨-, h⟩ := asked_lift.1 h
    obtain ⟨v, -, h⟩ := bind_inv h
    refine none ?_
    revert h
    rcases (onBus c who).interrupt with _ | ⟨key⟩
    · rintro ⟨⟩; simp [incPc2]
    · simp only
      split <;> (rintro ⟨⟩; simp [incPc2])
  | LdK x =>
    simp only [Live.generate, genLdK, pure_eq, asked_done, Except.ok.injEq] at h
    rw [h.2]
    refine none ?_
    rcases (onBus c who).interrupt with _ | ⟨key⟩ <;> simp [writeGp]
  | SeImmediate x v =>
    simp only [Live.generate, genSeImmediate] at h
    obtain ⟨-, h⟩ := asked_lift.1 h
    obtain ⟨v, -, h⟩ := bind_inv h
    refine none ?_
    split at h <;> (cases h; simp [incPc2])
  | SneImmediate x v =>
    simp only [Live.generate, genSneImmediate] at h
    obtain ⟨-, h⟩ := asked_lift.1 h
    obtain ⟨v, -, h⟩ := bind_inv h
    refine none ?_
    split at h <;> (cases h; simp [incPc2])
  | SeVxVy x y =>
    simp only [Live.generate, genSeVxVy] at h
    obtain ⟨-, h⟩ := asked_lift.1 h
    obtain ⟨v, -, h⟩ := bind_inv h
    obtain ⟨w, -, h⟩ := bind_inv h
    refine none ?_
    split at h <;> (cases h; simp [incPc2])
  | SneVxVy x y =>
    simp only [Live.generate, genSneVxVy] at h
    obtain ⟨-, h⟩ := asked_lift.1 h
    obtain ⟨v, -, h⟩ := bind_inv h
    obtain ⟨w, -, h⟩ := bind_inv h
    refine none ?_
    split at h <;> (cases h; simp [incPc2])
  | _ =>
    simp only [Live.generate, genRet, genJpV0, genLdVxVy, genLdSoundTimer, genLdDelayTimer,
      genLdFromDelayTimer, genLdSpriteLocation, genAddI, genAddVxVy, genSub, genSubn, genAnd, genOr, genXor,
      genShl, genShr, pure_eq] at h
    obtain ⟨-, h⟩ := asked_done.1 h
    replace h := h.symm
    refine none ?_
    first
      | (cases h; simp [genCls, genCall, genJp, genLdAbsolute, genLdImmediate, genAddImmediate, genRnd, writeGp]; done)
      | (obtain ⟨_, -, h⟩ := bind_inv h
         cases h; simp [writeGp]; done)
      | (obtain ⟨_, -, h⟩ := bind_inv h
         obtain ⟨_, -, h⟩ := bind_inv h
         cases h; simp [writeGp]; done)
      | (obtain ⟨_, -, h⟩ := bind_inv h
         obtain ⟨_, -, h⟩ := bind_inv h
         obtain ⟨_, -, h⟩ := bind_inv h
         cases h; simp; done)

/-- The calls of one instruction that returns. -/
theorem asked_next {c : Chip8 Unit R} {who : Copy} {l : List Call} {mcs : List Microcode} {q : Chip8 Copy R}
    (h : Asked (Live.next b e (onBus c who)) l (.ok (mcs, q))) :
    ∃ c' reads vs, q = onBus c' who ∧ OneOpcode b e c reads mcs c' ∧ vs.length = (byteStores mcs).length ∧
      l = readCalls who reads ++ putCalls who (byteStores mcs) vs := by
  unfold Live.next at h
  obtain ⟨_, _, op, rfl, h0, k1⟩ := asked_bind_ok.1 h
  obtain ⟨_, _, m, rfl, h1, k2⟩ := asked_bind_ok.1 k1
  obtain ⟨_, _, q', rfl, h2, k3⟩ := asked_bind_ok.1 k2
  rw [pure_eq, asked_done] at k3
  obtain ⟨rfl, k3⟩ := k3
  simp only [Except.ok.injEq, Prod.mk.injEq] at k3
  obtain ⟨rfl, rfl⟩ := k3
  rcases asked_fetch h0 with ⟨_, _, -, hf⟩ | ⟨b0, b1, rfl, -, hd⟩
  · cases hf
  obtain ⟨x, hx, hx'⟩ := bind_inv hd.symm
  cases x with
  | error msg => cases hx'
  | ok op' =>
    cases hx'
    obtain ⟨hv, henc⟩ := C40_encode_decode _ _ _ hx
    obtain ⟨rs, rfl, hr1, hr2⟩ := asked_follows (follows_generate c who op) h1
    obtain ⟨ws, -, -, hok⟩ := asked_executeAll e.iterAt _ c who _ _ h2
    obtain ⟨c', vs, rfl, hvs, rfl, hF⟩ := hok _ rfl
    refine ⟨c', _ :: _ :: rs, vs, rfl, ⟨op, b0, b1, rs, hv, henc, all_of_ask hr1 hr2, rfl, ?_, ?_⟩, hvs, ?_⟩
    · rw [byteStores_append]
      simpa [byteStores] using stores_generate h1
    · intro B _ bus bus' hread hw
      refine ⟨?_, hF B bus bus' hw⟩
      rw [← interp_generate c bus who op, interp_asked (bus := bus) h1 hread]
      rfl
    · simp [readCalls]

/-- The calls of one instruction that panics. -/
theorem asked_next_error {c : Chip8 Unit R} {who : Copy} {l : List Call} {p : Panic}
    (h : Asked (Live.next b e (onBus c who)) l (.error p)) :
    (∃ b0, l = [.read who c.pc b0]) ∨
    ∃ b0 b1, (l = [.read who c.pc b0, .read who (BitVec.ofNat 16 (c.pc.toNat + 1)) b1] ∧
        ¬ ∃ op, Valid op ∧ encode op = b0.toNat * 256 + b1.toNat) ∨
      ∃ op rs ws, Valid op ∧ encode op = b0.toNat * 256 + b1.toNat ∧
        l = readCalls who ((c.pc, b0) :: (BitVec.ofNat 16 (c.pc.toNat + 1), b1) :: rs) ++ anyPuts who ws ∧
        rs.map Prod.fst <+: cellsFrom c.i (readCount op) ∧
        ws.map Prod.fst <+: cellsFrom c.i (storeCount op) ∧
        (ws ≠ [] → rs.map Prod.fst = cellsFrom c.i (readCount op)) := by
  unfold Live.next at h
  rcases asked_bind.1 h with ⟨l₁, l₂, op, rfl, h0, k1⟩ | ⟨p', -, h0⟩
  · rcases asked_fetch h0 with ⟨_, _, -, hf⟩ | ⟨b0, b1, rfl, -, hd⟩
    · cases hf
    obtain ⟨x, hx, hx'⟩ := bind_inv hd.symm
    cases x with
    | error msg => cases hx'
    | ok op' =>
      cases hx'
      obtain ⟨hv, henc⟩ := C40_encode_decode _ _ _ hx
      refine .inr ⟨b0, b1, .inr ⟨op, ?_⟩⟩
      rcases asked_bind.1 k1 with ⟨l₃, l₄, m, rfl, h1, k2⟩ | ⟨p', -, h1⟩
      · obtain ⟨rs, rfl, hr1, hr2⟩ := asked_follows (follows_generate c who op) h1
        rcases asked_bind.1 k2 with ⟨l₅, l₆, q, rfl, h2, k3⟩ | ⟨p', -, h2⟩
        · rw [pure_eq, asked_done] at k3
          cases k3.2
        · obtain ⟨ws, rfl, hp, -⟩ := asked_executeAll e.iterAt _ c who _ _ h2
          refine ⟨rs, ws, hv, henc, by simp [readCalls], ?_, ?_, fun _ => all_of_ask hr1 hr2⟩
          · rw [all_of_ask hr1 hr2]
            exact List.prefix_rfl
          · have := stores_generate h1
            have hp' := hp.map Prod.fst
            rw [byteStores_append] at hp'
            simp only [byteStores, List.append_nil, List.map_map] at hp'
            rw [this] at hp'
            exact hp'
      · obtain ⟨rs, rfl, hr1⟩ := asked_follows_any (follows_generate c who op) h1
        exact ⟨rs, [], hv, henc, by simp [readCalls, anyPuts], prefix_of_ask hr1, List.nil_prefix,
          fun h => absurd rfl h⟩
  · rcases asked_fetch h0 with ⟨b0, _, rfl, -⟩ | ⟨b0, b1, rfl, -, hd⟩
    · exact .inl ⟨b0, rfl⟩
    · refine .inr ⟨b0, b1, .inl ⟨rfl, ?_⟩⟩
      rintro ⟨op, hv, henc⟩
      rw [C40_decode_encode op hv b0 b1 henc.symm] at hd
      cases hd

/-- The calls of `run`. -/
theorem asked_runLoop (env : Nat → Env) (n : Nat) : ∀ (k : Nat) (it c : Chip8 Unit R) (l : List Call)
    (q : Chip8 Copy R), Asked (Live.runLoop b env n k (onBus it .iterator) (onBus c .own)) l (.ok q) →
    ∃ c', q = onBus c' .own ∧ RanOpcodes b env n k it c l c' := by
  induction n with
  | zero =>
    intro k it c l q h
    simp only [Live.runLoop, pure_eq, asked_done, Except.ok.injEq] at h
    obtain ⟨rfl, rfl⟩ := h
    exact ⟨c, rfl, .stop k it c⟩
  | succ n ih =>
    intro k it c l q h
    unfold Live.runLoop at h
    obtain ⟨_, _, ⟨mcs, it'⟩, rfl, h0, k1⟩ := asked_bind_ok.1 h
    obtain ⟨_, _, c₁, rfl, h1, k2⟩ := asked_bind_ok.1 k1
    obtain ⟨it₁, reads, vs, rfl, hone, hvs, rfl⟩ := asked_next h0
    obtain ⟨ws, -, -, hok⟩ := asked_executeAll _ _ c .own _ _ h1
    obtain ⟨c₂, vs', rfl, hvs', rfl, hF⟩ := hok _ rfl
    obtain ⟨c', rfl, hr⟩ := ih _ _ _ _ _ k2
    refine ⟨c', rfl, ?_⟩
    have := RanOpcodes.step hone hF hvs hvs' hr
    simp only [List.append_assoc]
    exact this

/-! ## On actual devices -/

/-- What microcode does, apart from the bus. -/
theorem folds_or_panics (t : Instant) (mcs : List Microcode) (c : Chip8 Unit R) :
    (∃ c', Folds b t c mcs c') ∨
    ∃ p, ∀ (B : Type) [Addressable B] (bus bus' : B), writeAll b bus (byteStores mcs) = .ok bus' →
      executeAll b t (onBus c bus) mcs = .error p := by
  induction mcs generalizing c with
  | nil => exact .inl ⟨c, fun B _ bus bus' hw => by cases hw; rfl⟩
  | cons mc mcs ih =>
    rcases plain_mc (b := b) t c mc with ⟨a, v, rfl⟩ | ⟨hst, x, -, hx⟩
    · have step : ∀ (B : Type) [Addressable B] (bus bus' : B),
          writeAll b bus (byteStores (.WriteMemory a v :: mcs)) = .ok bus' → ∃ bus₁ : B,
            writeAll b bus₁ (byteStores mcs) = .ok bus' ∧
            executeAll b t (onBus c bus) (.WriteMemory a v :: mcs) = executeAll b t (onBus c bus₁) mcs := by
        intro B _ bus bus' hw
        simp only [byteStores] at hw
        obtain ⟨bus₁, ⟨y', hy⟩, hw'⟩ := writeAll_step.1 hw
        refine ⟨bus₁, hw', ?_⟩
        simp only [executeAll, executeMut, writeMemory]
        have : Addressable.write b (onBus c bus).address_space a v = .ok (.ok y', bus₁) := hy
        rw [this]
        rfl
      rcases ih c with ⟨c', h⟩ | ⟨p, h⟩
      · refine .inl ⟨c', fun B _ bus bus' hw => ?_⟩
        obtain ⟨bus₁, h1, h2⟩ := step B bus bus' hw
        rw [h2]
        exact h B bus₁ bus' h1
      · refine .inr ⟨p, fun B _ bus bus' hw => ?_⟩
        obtain ⟨bus₁, h1, h2⟩ := step B bus bus' hw
        rw [h2]
        exact h B bus₁ bus' h1
    · cases x with
      | error p =>
        refine .inr ⟨p, fun B _ bus bus' _ => ?_⟩
        simp only [executeAll, hx]
        rfl
      | ok d =>
        rcases ih d with ⟨c', h⟩ | ⟨p, h⟩
        · refine .inl ⟨c', fun B _ bus bus' hw => ?_⟩
          rw [hst] at hw
          simp only [executeAll, hx]
          exact h B bus bus' hw
        · refine .inr ⟨p, fun B _ bus bus' hw => ?_⟩
          rw [hst] at hw
          simp only [executeAll, hx]
          exact h B bus bus' hw

/-- Microcode that runs has made its stores. -/
theorem exec_stores (t : Instant) (mcs : List Microcode) (c : Chip8 Unit R) (bus : B) (d : Chip8 B R)
    (h : executeAll b t (onBus c bus) mcs = .ok d) : writeAll b bus (byteStores mcs) = .ok d.address_space := by
  induction mcs generalizing c bus with
  | nil => cases h; rfl
  | cons mc mcs ih =>
    rcases plain_mc (b := b) t c mc with ⟨a, v, rfl⟩ | ⟨hst, x, -, hx⟩
    · simp only [executeAll, executeMut, writeMemory] at h
      rw [byteStores, writeAll_step]
      cases hw : Addressable.write b (onBus c bus).address_space a v with
      | error p => rw [hw] at h; cases h
      | ok y =>
        obtain ⟨r, bus₁⟩ := y
        rw [hw] at h
        cases r with
        | error msg => cases h
        | ok y => exact ⟨bus₁, ⟨y, hw⟩, ih c bus₁ h⟩
    · simp only [executeAll, hx] at h
      rw [hst]
      cases x with
      | error p => cases h
      | ok d' => exact ih d' bus h

section
variable {W : Type}

theorem exec_executeAll (t : Instant) (mcs : List Microcode) (c : Chip8 Unit R) (who : Copy) (bus : B)
    (s : Site W (Value B)) (hs : s.on who = ⟨bus⟩) :
    (∀ d, executeAll b t (onBus c bus) mcs = .ok d →
      exec b (Live.executeAll b t (onBus c who) mcs) s =
        (.ok (onBus d who), s.update who ⟨d.address_space⟩ s.world)) ∧
    (∀ p, executeAll b t (onBus c bus) mcs = .error p →
      (exec b (Live.executeAll b t (onBus c who) mcs) s).1 = .error p) := by
  induction mcs generalizing c bus s with
  | nil =>
    refine ⟨fun d h => ?_, fun p h => (by cases h)⟩
    cases h
    have : s.update who ⟨bus⟩ s.world = s := by rw [← hs]; cases who <;> rfl
    show _ = (_, s.update who ⟨bus⟩ s.world)
    rw [this]
    rfl
  | cons mc mcs ih =>
    rcases plain_mc (b := b) t c mc with ⟨a, v, rfl⟩ | ⟨-, x, hx', hx⟩
    · simp only [Live.executeAll, Live.executeMut, Live.writeMemory, Bus.put, write_bind, pure_eq, ok_bind,
        exec, executeAll, executeMut, writeMemory]
      have hw : Device.write b (s.on (onBus c who).address_space) a v s.world =
          ((Addressable.write b bus a v).map fun p => (p.1, (⟨p.2⟩ : Value B)), s.world) := by
        show Device.write b (s.on who) a v s.world = _
        rw [hs]; rfl
      rw [hw]
      have hb : (onBus c bus).address_space = bus := rfl
      rw [hb]
      rcases Addressable.write b bus a v with p | ⟨msg | y, bus₁⟩
      · exact ⟨fun _ h => (by cases h), fun p h => by cases h; rfl⟩
      · exact ⟨fun _ h => (by cases h), fun p h => by cases h; rfl⟩
      · have := ih c bus₁ (s.update who ⟨bus₁⟩ s.world) (update_on _ _ _ _)
        simp only [update_update, update_world] at this
        exact this
    · simp only [Live.executeAll, hx', executeAll, hx]
      cases x with
      | error p => exact ⟨fun _ h => (by cases h), fun p h => by cases h; rfl⟩
      | ok d => exact ih d bus s hs

theorem readOnly_fetch (c : Chip8 Unit R) (who : Copy) : ReadOnly who (Live.fetch b (onBus c who)) := by
  simp only [Live.fetch, Bus.get, read_bind, pure_eq, ok_bind, lift_eq]
  refine ⟨rfl, fun b0 => ?_⟩
  cases addU16 b (onBus c who).pc 1 with
  | error e => trivial
  | ok p1 =>
    refine ⟨rfl, fun b1 => ?_⟩
    show ReadOnly who ((Bus.done (decodeBytesToOpcode b0 b1) : Bus _) >>= _)
    cases decodeBytesToOpcode b0 b1 <;> trivial

theorem interp_fetch (c : Chip8 Unit R) (who : Copy) (bus : B) :
    interp b bus (Live.fetch b (onBus c who)) = fetch b (onBus c bus) := by
  simp only [Live.fetch, interp_bind, interp_get, interp_lift, fetch]
  rfl

theorem exec_next (c : Chip8 Unit R) (who : Copy) (bus : B) (s : Site W (Value B)) (hs : s.on who = ⟨bus⟩) :
    (∀ mcs d, next b e (onBus c bus) = .ok (mcs, d) → exec b (Live.next b e (onBus c who)) s =
      (.ok (mcs, onBus d who), s.update who ⟨d.address_space⟩ s.world)) ∧
    (∀ p, next b e (onBus c bus) = .error p → (exec b (Live.next b e (onBus c who)) s).1 = .error p) := by
  unfold next Live.next
  rw [exec_bind, exec_readOnly (readOnly_fetch c who) hs, interp_fetch]
  cases fetch b (onBus c bus) with
  | error p => exact ⟨fun _ _ h => (by cases h), fun p h => by cases h; rfl⟩
  | ok op =>
    simp only [Res.ok_bind]
    rw [exec_bind, exec_readOnly (readOnly_follows (follows_generate c who op)) hs, interp_generate]
    cases generate b e (onBus c bus) op with
    | error p => exact ⟨fun _ _ h => (by cases h), fun p h => by cases h; rfl⟩
    | ok mcs =>
      simp only [Res.ok_bind]
      rw [exec_bind]
      obtain ⟨h1, h2⟩ := exec_executeAll (b := b) e.iterAt (mcs ++ [.Inc16bitRegister .ProgramCounter 2]) c who
        bus s hs
      cases hx : executeAll b e.iterAt (onBus c bus) (mcs ++ [.Inc16bitRegister .ProgramCounter 2]) with
      | error p =>
        refine ⟨fun _ _ h => (by cases h), fun p' h => ?_⟩
        cases h
        have := h2 p hx
        rcases hy : exec b (Live.executeAll b e.iterAt (onBus c who)
          (mcs ++ [.Inc16bitRegister .ProgramCounter 2])) s with ⟨r, s'⟩
        rw [hy] at this
        simp only at this
        subst this
        rw [hy]
      | ok d =>
        refine ⟨fun m d' h => ?_, fun p h => (by cases h)⟩
        cases h
        rw [h1 d hx]
        rfl

/-- `run` on devices that are values. -/
theorem exec_runLoop (env : Nat → Env) (n : Nat) : ∀ (k : Nat) (it c : Chip8 B R) (s : Site W (Value B)),
    s.iterator = ⟨it.address_space⟩ → s.own = ⟨c.address_space⟩ →
    (∀ d, runLoop b env n k it c = .ok d → ∃ s', exec b (Live.runLoop b env n k (onBus it .iterator)
      (onBus c .own)) s = (.ok (onBus d .own), s') ∧ s'.own = ⟨d.address_space⟩ ∧ s'.world = s.world) ∧
    (∀ p, runLoop b env n k it c = .error p →
      (exec b (Live.runLoop b env n k (onBus it .iterator) (onBus c .own)) s).1 = .error p) := by
  induction n with
  | zero =>
    intro k it c s _ ho
    refine ⟨fun d h => ?_, fun p h => (by cases h)⟩
    cases h
    exact ⟨s, rfl, ho, rfl⟩
  | succ n ih =>
    intro k it c s hi ho
    unfold runLoop Live.runLoop
    rw [exec_bind]
    obtain ⟨h1, h2⟩ := exec_next (b := b) (e := env k) (rest it) .iterator it.address_space s hi
    cases hn : next b (env k) it with
    | error p =>
      refine ⟨fun _ h => (by cases h), fun p' h => ?_⟩
      cases h
      have := h2 p hn
      rcases hy : exec b (Live.next b (env k) (onBus (rest it) .iterator)) s with ⟨r, s'⟩
      rw [hy] at this
      simp only at this
      subst this
      have hy' : exec b (Live.next b (env k) (onBus it .iterator)) s = _ := hy
      rw [hy']
    | ok x =>
      obtain ⟨mcs, it'⟩ := x
      have hx := h1 mcs it' hn
      have hx' : exec b (Live.next b (env k) (onBus it .iterator)) s = _ := hx
      rw [hx']
      simp only [Res.ok_bind]
      rw [exec_bind]
      obtain ⟨h3, h4⟩ := exec_executeAll (b := b) (env k).foldAt mcs (rest c) .own c.address_space
        (s.update .iterator ⟨it'.address_space⟩ s.world) ho
      cases hc : executeAll b (env k).foldAt c mcs with
      | error p =>
        refine ⟨fun _ h => (by cases h), fun p' h => ?_⟩
        cases h
        have := h4 p hc
        rcases hy : exec b (Live.executeAll b (env k).foldAt (onBus (rest c) .own) mcs)
          (s.update .iterator ⟨it'.address_space⟩ s.world) with ⟨r, s'⟩
        rw [hy] at this
        simp only at this
        subst this
        have hy' : exec b (Live.executeAll b (env k).foldAt (onBus c .own) mcs)
          (s.update .iterator ⟨it'.address_space⟩ s.world) = _ := hy
        rw [hy']
      | ok c' =>
        have hy := h3 c' hc
        have hy' : exec b (Live.executeAll b (env k).foldAt (onBus c .own) mcs)
          (s.update .iterator ⟨it'.address_space⟩ s.world) = _ := hy
        rw [hy']
        exact ih (k + 1) it' c' _ rfl rfl

end

/-! ## On shared memory -/

theorem shared_executeAll (t : Instant) (mcs : List Microcode) (c : Chip8 Unit R) (who : Copy) (bus : B) :
    (∀ d, executeAll b t (onBus c bus) mcs = .ok d →
      exec b (Live.executeAll b t (onBus c who) mcs) (together bus) =
        (.ok (onBus d who), together d.address_space)) ∧
    (∀ p, executeAll b t (onBus c bus) mcs = .error p →
      (exec b (Live.executeAll b t (onBus c who) mcs) (together bus)).1 = .error p) := by
  induction mcs generalizing c bus with
  | nil =>
    refine ⟨fun d h => ?_, fun p h => (by cases h)⟩
    cases h
    rfl
  | cons mc mcs ih =>
    rcases plain_mc (b := b) t c mc with ⟨a, v, rfl⟩ | ⟨-, x, hx', hx⟩
    · simp only [Live.executeAll, Live.executeMut, Live.writeMemory, Bus.put, write_bind, pure_eq, ok_bind,
        exec, executeAll, executeMut, writeMemory]
      have hw : Device.write b ((together bus).on (onBus c who).address_space) a v (together bus).world =
          match Addressable.write b bus a v with
          | .ok (r, w') => (.ok (r, Shared.mk), w')
          | .error e => (.error e, bus) := by
        cases who <;> rfl
      rw [hw]
      have hb : (onBus c bus).address_space = bus := rfl
      rw [hb]
      rcases Addressable.write b bus a v with p | ⟨msg | y, bus₁⟩
      · exact ⟨fun _ h => (by cases h), fun p h => by cases h; rfl⟩
      · exact ⟨fun _ h => (by cases h), fun p h => by cases h; rfl⟩
      · have := ih c bus₁
        cases who <;> exact this
    · simp only [Live.executeAll, hx', executeAll, hx]
      cases x with
      | error p => exact ⟨fun _ h => (by cases h), fun p h => by cases h; rfl⟩
      | ok d => exact ih d bus

theorem shared_next (c : Chip8 Unit R) (who : Copy) (bus : B) :
    (∀ mcs d, next b e (onBus c bus) = .ok (mcs, d) → exec b (Live.next b e (onBus c who)) (together bus) =
      (.ok (mcs, onBus d who), together d.address_space)) ∧
    (∀ p, next b e (onBus c bus) = .error p →
      (exec b (Live.next b e (onBus c who)) (together bus)).1 = .error p) := by
  unfold next Live.next
  rw [exec_bind, shared_readOnly (readOnly_fetch c who)]
  have hf : interp b (together bus).world (Live.fetch b (onBus c who)) = fetch b (onBus c bus) :=
    interp_fetch c who bus
  rw [hf]
  cases fetch b (onBus c bus) with
  | error p => exact ⟨fun _ _ h => (by cases h), fun p h => by cases h; rfl⟩
  | ok op =>
    simp only [Res.ok_bind]
    rw [exec_bind, shared_readOnly (readOnly_follows (follows_generate c who op))]
    have hg : interp b (together bus).world (Live.generate b e (onBus c who) op) =
        generate b e (onBus c bus) op := interp_generate c bus who op
    rw [hg]
    cases generate b e (onBus c bus) op with
    | error p => exact ⟨fun _ _ h => (by cases h), fun p h => by cases h; rfl⟩
    | ok mcs =>
      simp only [Res.ok_bind]
      rw [exec_bind]
      obtain ⟨h1, h2⟩ := shared_executeAll (b := b) e.iterAt (mcs ++ [.Inc16bitRegister .ProgramCounter 2]) c
        who bus
      cases hx : executeAll b e.iterAt (onBus c bus) (mcs ++ [.Inc16bitRegister .ProgramCounter 2]) with
      | error p =>
        refine ⟨fun _ _ h => (by cases h), fun p' h => ?_⟩
        cases h
        have := h2 p hx
        rcases hy : exec b (Live.executeAll b e.iterAt (onBus c who)
          (mcs ++ [.Inc16bitRegister .ProgramCounter 2])) (together bus) with ⟨r, s'⟩
        rw [hy] at this
        simp only at this
        subst this
        rw [hy]
      | ok d =>
        refine ⟨fun m d' h => ?_, fun p h => (by cases h)⟩
        cases h
        rw [h1 d hx]
        rfl

/-- `run` on memory shared by the clones. -/
theorem shared_runLoop (hB : Cells b B) (env : Nat → Env) (n : Nat) : ∀ (k : Nat) (it c : Chip8 B R),
    it.address_space = c.address_space →
    (∀ d, runLoop b env n k it c = .ok d → exec b (Live.runLoop b env n k (onBus it .iterator)
      (onBus c .own)) (together c.address_space) = (.ok (onBus d .own), together d.address_space)) ∧
    (∀ p, runLoop b env n k it c = .error p →
      (exec b (Live.runLoop b env n k (onBus it .iterator) (onBus c .own)) (together c.address_space)).1 =
        .error p) := by
  induction n with
  | zero =>
    intro k it c _
    refine ⟨fun d h => ?_, fun p h => (by cases h)⟩
    cases h
    rfl
  | succ n ih =>
    intro k it c hic
    unfold runLoop Live.runLoop
    rw [exec_bind, ← hic]
    obtain ⟨h1, h2⟩ := shared_next (b := b) (e := env k) (rest it) .iterator it.address_space
    cases hn : next b (env k) it with
    | error p =>
      refine ⟨fun _ h => (by cases h), fun p' h => ?_⟩
      cases h
      have := h2 p hn
      rcases hy : exec b (Live.next b (env k) (onBus (rest it) .iterator)) (together it.address_space) with ⟨r, s'⟩
      rw [hy] at this
      simp only at this
      subst this
      have hy' : exec b (Live.next b (env k) (onBus it .iterator)) (together it.address_space) = _ := hy
      rw [hy']
    | ok x =>
      obtain ⟨mcs, it'⟩ := x
      have hx' : exec b (Live.next b (env k) (onBus it .iterator)) (together it.address_space) = _ := h1 mcs it' hn
      rw [hx']
      simp only [Res.ok_bind]
      rw [exec_bind]
      have hw : writeAll b it.address_space (byteStores mcs) = .ok it'.address_space := by
        unfold next at hn
        obtain ⟨op, -, hn⟩ := bind_inv hn
        obtain ⟨m, -, hn⟩ := bind_inv hn
        obtain ⟨d, hd, hn⟩ := bind_inv hn
        cases hn
        exact exec_stores _ _ (rest it) _ _ hd
      have hw' := writeAll_again hB hw
      rcases folds_or_panics (b := b) (env k).foldAt mcs (rest c) with ⟨c', hF⟩ | ⟨p, hF⟩
      · have e1 : executeAll b (env k).foldAt c mcs = .ok (onBus c' it'.address_space) := by
          have := hF B c.address_space it'.address_space (by rw [← hic]; exact hw)
          exact this
        have e2 := hF B it'.address_space it'.address_space hw'
        have e3 : exec b (Live.executeAll b (env k).foldAt (onBus c .own) mcs) (together it'.address_space) = _ :=
          (shared_executeAll (b := b) (env k).foldAt mcs (rest c) .own it'.address_space).1 _ e2
        rw [e1, e3]
        exact ih (k + 1) it' (onBus c' it'.address_space) rfl
      · have e1 : executeAll b (env k).foldAt c mcs = .error p := by
          have := hF B c.address_space it'.address_space (by rw [← hic]; exact hw)
          exact this
        have e2 := hF B it'.address_space it'.address_space hw'
        have e3 := (shared_executeAll (b := b) (env k).foldAt mcs (rest c) .own it'.address_space).2 p e2
        rw [e1]
        refine ⟨fun _ h => (by cases h), fun p' h => ?_⟩
        cases h
        rcases hy : exec b (Live.executeAll b (env k).foldAt (onBus (rest c) .own) mcs)
          (together it'.address_space) with ⟨r, s'⟩
        rw [hy] at e3
        simp only at e3
        subst e3
        have hy' : exec b (Live.executeAll b (env k).foldAt (onBus c .own) mcs)
          (together it'.address_space) = _ := hy
        rw [hy']

end Verif.Chip8
