import Verif.Model.Protocol3
import Verif.Lemmas.Bytes
import Verif.Lemmas.Encoding
/-! # Facts about counters, key rotation and OTRv3 encryption -/

namespace Otrr

open KeyManager

/-! ## Counters -/

theorem incLE_spec : ∀ (c r : Bytes), incLE c = some r → r.length = c.length ∧ leNat r = leNat c + 1
  | [], _, h => by simp [incLE] at h
  | b :: bs, r, h => by
    simp only [incLE] at h
    split at h
    · rename_i hb
      simp only [Option.map_eq_some_iff] at h
      obtain ⟨t, ht, rfl⟩ := h
      obtain ⟨hl, hv⟩ := incLE_spec bs t ht
      subst hb
      refine ⟨by simp [hl], ?_⟩
      simp only [leNat, hv]
      have : (0 : UInt8).toNat = 0 := rfl
      have : (0xFF : UInt8).toNat = 255 := rfl
      omega
    · rename_i hb
      simp only [Option.some.injEq] at h
      subst h
      refine ⟨by simp, ?_⟩
      simp only [leNat]
      have h1 : b.toNat ≠ 255 := fun h => hb (UInt8.toNat_inj.mp h)
      have h2 := b.toNat_lt
      have h3 : (b + 1).toNat = b.toNat + 1 := by
        rw [UInt8.toNat_add]
        have : (1 : UInt8).toNat = 1 := rfl
        omega
      omega

theorem incLE_none : ∀ c : Bytes, incLE c = .none → leNat c + 1 = 256 ^ c.length
  | [], _ => by simp [leNat]
  | b :: bs, h => by
    simp only [incLE] at h
    split at h
    · rename_i hb
      simp only [Option.map_eq_none_iff] at h
      have := incLE_none bs h
      subst hb
      simp only [leNat, List.length_cons, Nat.pow_succ, ← this]
      have : (0xFF : UInt8).toNat = 255 := rfl
      omega
    · simp at h

theorem allZero_iff_mem {d : Bytes} : allZero d = true ↔ ∀ b ∈ d, b = 0 := by
  simp [allZero]

theorem leNat_zero_iff : ∀ {d : Bytes}, leNat d = 0 ↔ ∀ b ∈ d, b = 0
  | [] => by simp [leNat]
  | b :: bs => by
    simp only [leNat, List.mem_cons, forall_eq_or_imp]
    rw [← leNat_zero_iff (d := bs)]
    have : b = 0 ↔ b.toNat = 0 := ⟨fun h => by rw [h]; rfl, fun h => UInt8.toNat_inj.mp h⟩
    rw [this]
    omega

theorem beNat_eq_zero {d : Bytes} : beNat d = 0 ↔ allZero d = true := by
  rw [allZero_iff_mem, beNat_eq_leNat_reverse, leNat_zero_iff]
  simp

theorem counterTake_ok {c r : Bytes} (h : counterTake c = .ok r) :
    r.length = c.length ∧ beNat r = beNat c + 1 := by
  simp only [counterTake] at h
  split at h
  · simp at h
  · rename_i t ht
    simp only [Res.bind_eq_ok, Res.assert_eq_ok, Res.pure_def, Res.ok.injEq, exists_const] at h
    obtain ⟨_, rfl⟩ := h
    obtain ⟨hl, hv⟩ := incLE_spec _ _ ht
    rw [List.length_reverse] at hl
    refine ⟨by simp [hl], ?_⟩
    rw [beNat_eq_leNat_reverse, List.reverse_reverse, hv, ← beNat_eq_leNat_reverse]

theorem counterTake_not_ok {c : Bytes} (h : ∀ r, counterTake c ≠ .ok r) :
    counterTake c = .panic ∧ beNat c + 1 = 256 ^ c.length := by
  simp only [counterTake] at h ⊢
  split
  · rename_i hn
    refine ⟨rfl, ?_⟩
    have := incLE_none _ hn
    rw [List.length_reverse] at this
    rw [beNat_eq_leNat_reverse]
    exact this
  · rename_i t ht
    rw [ht] at h
    simp only at h
    have hz : anyNonzero t.reverse = true := by
      obtain ⟨_, hv⟩ := incLE_spec _ _ ht
      simp only [anyNonzero, Bool.not_eq_true', ← Bool.not_eq_true]
      rw [← beNat_eq_zero, beNat_eq_leNat_reverse, List.reverse_reverse, hv]
      omega
    have ha : Res.assert (anyNonzero t.reverse) = .ok () := by simp [hz]
    exact absurd (by rw [ha]; rfl) (h t.reverse)

theorem cmpBytesLoop_spec : ∀ (a b : Bytes), a.length = b.length →
    (cmpBytesLoop a b = .gt ↔ beNat b < beNat a)
  | [], [], _ => by simp [cmpBytesLoop]
  | [], _ :: _, h => by simp at h
  | _ :: _, [], h => by simp at h
  | a :: as, b :: bs, h => by
    simp only [List.length_cons, Nat.add_right_cancel_iff] at h
    simp only [cmpBytesLoop, beNat_cons]
    have ha := beNat_lt as
    have hb := beNat_lt bs
    rw [h] at ha ⊢
    generalize 256 ^ bs.length = M at *
    split
    · rename_i hl
      simp only [reduceCtorEq, false_iff, Nat.not_lt]
      have hl' : a.toNat < b.toNat := hl
      have : (a.toNat + 1) * M ≤ b.toNat * M := Nat.mul_le_mul_right _ hl'
      rw [Nat.add_mul] at this
      omega
    · split
      · rename_i hl
        simp only [true_iff]
        have hl' : b.toNat < a.toNat := hl
        have : (b.toNat + 1) * M ≤ a.toNat * M := Nat.mul_le_mul_right _ hl'
        rw [Nat.add_mul] at this
        omega
      · rename_i h1 h2
        have e : a.toNat = b.toNat := by
          have h1' : ¬ a.toNat < b.toNat := h1
          have h2' : ¬ b.toNat < a.toNat := h2
          omega
        rw [cmpBytesLoop_spec as bs h, e]
        omega

/-- `Counter::verify` accepts exactly the strictly larger values. -/
theorem counterVerify_eq {c ctr : Bytes} (hc : c.length = 8) (ht : ctr.length = 8) :
    counterVerify c ctr = if beNat c < beNat ctr then .ok ctr else .err .protocolViolation := by
  simp only [counterVerify]
  by_cases hz : allZero ctr = true
  · rw [if_pos hz, if_neg]
    rw [beNat_eq_zero.mpr hz]
    omega
  · rw [if_neg hz]
    have hl : ctr.length = c.length := by omega
    have hs := cmpBytesLoop_spec ctr c hl
    have hcmp : cmpBytes ctr c = .ok (cmpBytesLoop ctr c) := by simp [cmpBytes, hl]
    rw [hcmp, Res.bind_ok]
    by_cases hlt : beNat c < beNat ctr
    · rw [if_pos hlt, hs.mpr hlt]; rfl
    · rw [if_neg hlt]
      have : cmpBytesLoop ctr c ≠ .gt := fun h => hlt (hs.mp h)
      cases h : cmpBytesLoop ctr c <;> simp_all

/-! ## Running methods -/

namespace StM

@[simp] theorem bind_ok {x : StM σ α} {f : α → StM σ β} {s s'' : σ} {b : β} :
    (x >>= f) s = (.ok b, s'') ↔ ∃ a s', x s = (.ok a, s') ∧ f a s' = (.ok b, s'') := by
  rw [bind_run]
  constructor
  · intro h
    split at h
    · exact ⟨_, _, by assumption, h⟩
    · simp at h
    · simp at h
  · rintro ⟨a, s', h1, h2⟩
    rw [h1]
    exact h2

theorem bind_err {x : StM σ α} {f : α → StM σ β} {s s'' : σ} {e : OTRError} :
    (x >>= f) s = (.err e, s'') ↔
      x s = (.err e, s'') ∨ ∃ a s', x s = (.ok a, s') ∧ f a s' = (.err e, s'') := by
  rw [bind_run]
  constructor
  · intro h
    split at h
    · exact .inr ⟨_, _, by assumption, h⟩
    · rename_i hx
      rw [hx]
      simp only [Prod.mk.injEq, Res.err.injEq] at h
      exact .inl (by rw [h.1, h.2])
    · simp at h
  · rintro (h | ⟨a, s', h1, h2⟩)
    · rw [h]
    · rw [h1]
      exact h2

theorem bind_panic {x : StM σ α} {f : α → StM σ β} {s s'' : σ} :
    (x >>= f) s = (.panic, s'') ↔
      x s = (.panic, s'') ∨ ∃ a s', x s = (.ok a, s') ∧ f a s' = (.panic, s'') := by
  rw [bind_run]
  constructor
  · intro h
    split at h
    · exact .inr ⟨_, _, by assumption, h⟩
    · simp at h
    · rename_i hx
      rw [hx]
      simp only [Prod.mk.injEq, true_and] at h
      exact .inl (by rw [h])
  · rintro (h | ⟨a, s', h1, h2⟩)
    · rw [h]
    · rw [h1]
      exact h2

@[simp] theorem lift_eq {r x : Res α} {s s' : σ} : (lift r : StM σ α) s = (x, s') ↔ r = x ∧ s = s' := by
  simp [lift]

@[simp] theorem query_eq {f : σ → Res α} {x : Res α} {s s' : σ} :
    query f s = (x, s') ↔ f s = x ∧ s = s' := by
  simp [query]

@[simp] theorem gets_eq {f : σ → α} {x : Res α} {s s' : σ} :
    gets f s = (x, s') ↔ .ok (f s) = x ∧ s = s' := by
  simp [gets]

@[simp] theorem modify_eq {f : σ → σ} {x : Res Unit} {s s' : σ} :
    modify f s = (x, s') ↔ x = .ok () ∧ f s = s' := by
  simp [modify, eq_comm (a := x)]

@[simp] theorem pure_eq {a : α} {x : Res α} {s s' : σ} :
    (pure a : StM σ α) s = (x, s') ↔ .ok a = x ∧ s = s' := by
  rw [pure_run]
  simp

/-- Continue after a step that succeeded. -/
theorem bind_of {x : StM σ α} {f : α → StM σ β} {s s' : σ} {a : α} (h : x s = (.ok a, s')) :
    (x >>= f) s = f a s' := by
  rw [bind_run, h]

theorem bind_of_err {x : StM σ α} {f : α → StM σ β} {s s' : σ} {e : OTRError} (h : x s = (.err e, s')) :
    (x >>= f) s = (.err e, s') := by
  rw [bind_run, h]

theorem bind_of_panic {x : StM σ α} {f : α → StM σ β} {s s' : σ} (h : x s = (.panic, s')) :
    (x >>= f) s = (.panic, s') := by
  rw [bind_run, h]

end StM

theorem compareBytes_ok {a b : Bytes} : compareBytes a b = .ok () ↔ a = b ∧ anyNonzero a = true := by
  simp only [compareBytes, verifyNonzero]
  by_cases ha : anyNonzero a <;> by_cases hb : anyNonzero b <;> by_cases h : a = b <;> simp_all

theorem compareBytes_not_panic {a b : Bytes} : compareBytes a b ≠ .panic := by
  simp only [compareBytes, verifyNonzero]
  by_cases ha : anyNonzero a <;> by_cases hb : anyNonzero b <;> by_cases h : a = b <;> simp_all

theorem takeCounter_ok {k k' : KeyManager} {c : Bytes} :
    takeCounter k = (.ok c, k') ↔ counterTake k.ourCtr = .ok c ∧ k' = { k with ourCtr := c } := by
  simp only [takeCounter]
  split
  · rename_i h; rw [h]; simp only [Prod.mk.injEq, Res.ok.injEq]
    constructor
    · rintro ⟨rfl, rfl⟩; exact ⟨rfl, rfl⟩
    · rintro ⟨rfl, rfl⟩; exact ⟨rfl, rfl⟩
  · rename_i h; rw [h]; simp
  · rename_i h; rw [h]; simp

theorem getRevealMacs_ok {k k' : KeyManager} {c : Bytes} :
    getRevealMacs k = (.ok c, k') ↔ k.oldMacs.length % 20 = 0 ∧ c = k.oldMacs ∧ k' = { k with oldMacs := [] } := by
  simp only [getRevealMacs]
  split
  · rename_i h; simp only [Prod.mk.injEq, Res.ok.injEq, h, true_and]
    constructor
    · rintro ⟨rfl, rfl⟩; exact ⟨rfl, rfl⟩
    · rintro ⟨rfl, rfl⟩; exact ⟨rfl, rfl⟩
  · rename_i h; simp [h]

theorem incId_ok {a b : UInt32} : incId a = .ok b ↔ a.toNat + 1 = b.toNat := by
  simp only [incId]
  have ha := a.toNat_lt
  have hb := b.toNat_lt
  split
  · rename_i h
    subst h
    have : (0xFFFFFFFF : UInt32).toNat = 4294967295 := rfl
    simp only [reduceCtorEq, false_iff]
    omega
  · rename_i h
    have h1 : a.toNat ≠ 4294967295 := fun e => h (UInt32.toNat_inj.mp e)
    rw [Res.ok.injEq, ← UInt32.toNat_inj, UInt32.toNat_add]
    have : (1 : UInt32).toNat = 1 := rfl
    omega

theorem incId_panic {a : UInt32} : incId a = .panic ↔ a.toNat = 4294967295 := by
  simp only [incId]
  split
  · rename_i h; subst h; simp
  · rename_i h
    have h1 : a.toNat ≠ 4294967295 := fun e => h (UInt32.toNat_inj.mp e)
    simp [h1]

theorem incId_ne_err {a : UInt32} {e : OTRError} : incId a ≠ .err e := by
  simp only [incId]; split <;> simp

/-- The message `encrypt3` builds. -/
def built3 (E : Env) (our their : UInt32) (flags : UInt8) (plain : Bytes) (k : KeyManager) (sec : DataSecrets)
    (ctr : Bytes) : DataMessage :=
  let m : DataMessage :=
    ⟨flags, k.ours.acknowledged, k.theirs.id, (k.ours.keys.getNext k.ours.acknowledged).pub, ctr,
      aesCrypt E sec.sendkey (ctrNonce ctr) plain, List.replicate 20 0, k.oldMacs⟩
  { m with authenticator := E.hmacSha1 (sec.senderMac E) (authenticatorData 3 our their m) }

theorem encrypt3_ok {E : Env} {our their : UInt32} {flags : UInt8} {plain : Bytes} {k k' : KeyManager}
    {m : DataMessage} (h : encrypt3 E our their flags plain k = (.ok m, k')) :
    ∃ sec, dataSecrets E k.ours.current.2 k.theirs.current.2 = .ok sec ∧
      k.ours.acknowledged.toNat < 4294967295 ∧ counterTake k.ourCtr = .ok m.ctr ∧
      m = built3 E our their flags plain k sec m.ctr ∧ anyNonzero m.encrypted = true ∧
      anyNonzero m.authenticator = true ∧ k.oldMacs.length % 20 = 0 ∧
      k' = { k with ourCtr := m.ctr, oldMacs := [] } := by
  simp only [encrypt3, StM.bind_ok, takeCounter_ok, StM.gets_eq, StM.query_eq, StM.lift_eq, getRevealMacs_ok,
    Res.assert_eq_ok, StM.pure_eq, Res.ok.injEq] at h
  obtain ⟨ctr, _, ⟨hc, rfl⟩, _, _, ⟨rfl, rfl⟩, _, _, ⟨rfl, rfl⟩, ⟨nid, nk⟩, _, ⟨hn, rfl⟩, sec, _, ⟨hs, rfl⟩,
    _, _, ⟨he, rfl⟩, old, _, ⟨ho, rfl, rfl⟩, _, _, ⟨ho2, rfl⟩, _, _, ⟨ho3, rfl⟩, _, _, ⟨ha, rfl⟩, rfl, rfl⟩ := h
  simp only [KeypairRotation.next, Res.bind_eq_ok, Res.pure_def, Res.ok.injEq, Prod.mk.injEq] at hn
  obtain ⟨n, hi, rfl, rfl⟩ := hn
  refine ⟨sec, hs, ?_, hc, rfl, he, ha, ho, rfl⟩
  have := incId_ok.mp hi
  have := n.toNat_lt
  omega

/-- The MAC keys that are revealed are not all zero. -/
theorem encrypt3_macs {E : Env} {our their : UInt32} {flags : UInt8} {plain : Bytes} {k k' : KeyManager}
    {m : DataMessage} (h : encrypt3 E our their flags plain k = (.ok m, k')) : k.oldMacs = [] ∨ anyNonzero k.oldMacs = true := by
  simp only [encrypt3, StM.bind_ok, takeCounter_ok, StM.gets_eq, StM.query_eq, StM.lift_eq, getRevealMacs_ok,
    Res.assert_eq_ok, StM.pure_eq, Res.ok.injEq] at h
  obtain ⟨ctr, _, ⟨hc, rfl⟩, _, _, ⟨rfl, rfl⟩, _, _, ⟨rfl, rfl⟩, ⟨nid, nk⟩, _, ⟨hn, rfl⟩, sec, _, ⟨hs, rfl⟩,
    _, _, ⟨he, rfl⟩, old, _, ⟨ho, rfl, rfl⟩, _, _, ⟨ho2, rfl⟩, _, _, ⟨ho3, rfl⟩, _, _, ⟨ha, rfl⟩, rfl, rfl⟩ := h
  simpa using ho3

theorem dataSecrets_cases (E : Env) (o : DH.Keypair) (t : Nat) :
    (o.pub = t ∧ dataSecrets E o t = .panic) ∨ (o.pub ≠ t ∧ ∃ sec, dataSecrets E o t = .ok sec) := by
  simp only [dataSecrets, DataSecrets.derive]
  split
  · rename_i h; exact .inl ⟨h, rfl⟩
  · rename_i h; exact .inr ⟨h, _, rfl⟩

theorem encrypt3_ne_err {E : Env} {our their : UInt32} {flags : UInt8} {plain : Bytes} {k k' : KeyManager}
    (e : OTRError) : encrypt3 E our their flags plain k ≠ (.err e, k') := by
  intro h
  simp only [encrypt3, StM.bind_err, StM.gets_eq, StM.query_eq, StM.lift_eq, StM.pure_eq] at h
  have hassert : ∀ c e, Res.assert c ≠ .err e := fun c e => by cases c <;> simp [Res.assert]
  rcases h with h | ⟨_, _, _, ⟨h, _⟩ | ⟨_, _, _, ⟨h, _⟩ | ⟨_, _, _, ⟨h, _⟩ | ⟨_, _, _, ⟨h, _⟩ | ⟨_, _, _, ⟨h, _⟩ |
    ⟨_, _, _, h | ⟨_, _, _, ⟨h, _⟩ | ⟨_, _, _, ⟨h, _⟩ | ⟨_, _, _, ⟨h, _⟩ | ⟨_, _, _, h, _⟩⟩⟩⟩⟩⟩⟩⟩⟩⟩
  · simp only [takeCounter] at h
    split at h
    · simp at h
    · rename_i e' hc
      simp only [counterTake] at hc
      split at hc
      · simp at hc
      · by_cases hz : anyNonzero (List.reverse ‹Bytes›) <;> simp_all [Res.assert]
    · simp at h
  · simp at h
  · simp at h
  · simp only [KeypairRotation.next] at h
    cases hi : incId _ with
    | ok n => rw [hi] at h; simp at h
    | err e => exact incId_ne_err hi
    | panic => rw [hi] at h; simp at h
  · rcases dataSecrets_cases E _ _ with ⟨_, h'⟩ | ⟨_, _, h'⟩ <;> rw [h'] at h <;> simp at h
  · exact hassert _ _ h
  · simp only [getRevealMacs] at h
    split at h <;> simp at h
  · exact hassert _ _ h
  · exact hassert _ _ h
  · exact hassert _ _ h
  · simp at h

theorem anyNonzero_of_mem {d : Bytes} (h : ∃ b ∈ d, b ≠ 0) : anyNonzero d = true := by
  obtain ⟨b, hb, hz⟩ := h
  simp only [anyNonzero, Bool.not_eq_true', ← Bool.not_eq_true, allZero_iff_mem]
  exact fun hx => hz (hx b hb)

/-- When encryption succeeds. -/
theorem encrypt3_total {E : Env} {our their : UInt32} {flags : UInt8} {plain : Bytes} {k : KeyManager}
    (hl : k.ourCtr.length = 8) (ho : k.oldMacs.length % 20 = 0)
    (h1 : k.ours.acknowledged.toNat < 4294967295) (h2 : beNat k.ourCtr < 2 ^ 64 - 1)
    (h3 : k.ours.current.2.pub ≠ k.theirs.current.2)
    (h4 : ∀ sec ctr, dataSecrets E k.ours.current.2 k.theirs.current.2 = .ok sec → counterTake k.ourCtr = .ok ctr →
      ∃ b ∈ aesCrypt E sec.sendkey (ctrNonce ctr) plain, b ≠ 0)
    (h5 : ∀ sec ctr, dataSecrets E k.ours.current.2 k.theirs.current.2 = .ok sec → counterTake k.ourCtr = .ok ctr →
      ∃ b ∈ (built3 E our their flags plain k sec ctr).authenticator, b ≠ 0)
    (h6 : k.oldMacs = [] ∨ ∃ b ∈ k.oldMacs, b ≠ 0) :
    ∃ m k', encrypt3 E our their flags plain k = (.ok m, k') := by
  obtain ⟨ctr, hc⟩ : ∃ ctr, counterTake k.ourCtr = .ok ctr := by
    refine Classical.byContradiction fun hno => ?_
    have := (counterTake_not_ok fun r hr => hno ⟨r, hr⟩).2
    rw [hl] at this
    omega
  have hn : incId k.ours.acknowledged = .ok (k.ours.acknowledged + 1) := by
    rw [incId_ok, UInt32.toNat_add]
    have : (1 : UInt32).toNat = 1 := rfl
    omega
  obtain ⟨sec, hsec⟩ : ∃ sec, dataSecrets E k.ours.current.2 k.theirs.current.2 = .ok sec := by
    rcases dataSecrets_cases E k.ours.current.2 k.theirs.current.2 with ⟨h, _⟩ | ⟨_, h⟩
    · exact absurd h h3
    · exact h
  simp only [encrypt3, StM.bind_ok, takeCounter_ok, StM.gets_eq, StM.query_eq, StM.lift_eq, getRevealMacs_ok,
    Res.assert_eq_ok, StM.pure_eq, Res.ok.injEq]
  refine ⟨_, _, ctr, _, ⟨hc, rfl⟩, _, _, ⟨rfl, rfl⟩, _, _, ⟨rfl, rfl⟩, (k.ours.acknowledged + 1, k.ours.keys.getNext k.ours.acknowledged), _, ⟨?_, rfl⟩, sec, _, ⟨hsec, rfl⟩,
    (), _, ⟨anyNonzero_of_mem (h4 _ _ hsec hc), rfl⟩, _, _, ⟨ho, rfl, rfl⟩, (), _, ⟨?_, rfl⟩, (), _, ⟨?_, rfl⟩, (), _,
    ⟨anyNonzero_of_mem (h5 _ _ hsec hc), rfl⟩, rfl, rfl⟩
  · simp only [KeypairRotation.next, hn, Res.bind_ok, Res.pure_def]
  · simpa using ho
  · rcases h6 with h | h
    · simp [h]
    · simp [anyNonzero_of_mem h]

/-! ## Effects of decryption -/

theorem theirs_select_ok {t : PublicKeyRotation} {s : UInt32} {key : Nat} :
    t.select s = .ok key ↔ s ≠ 0 ∧ t.id ≠ 0 ∧ (t.id.toNat = s.toNat + 1 ∨ t.id = s) ∧ key = t.keys.get s := by
  simp only [PublicKeyRotation.select, Res.bind_eq_ok, Res.assert_eq_ok, bne_iff_ne, exists_const]
  have h1 : ∀ x : UInt32, x > 0 ↔ x ≠ 0 := fun x => by
    rw [gt_iff_lt, UInt32.lt_iff_toNat_lt, Ne, ← UInt32.toNat_inj]
    have : (0 : UInt32).toNat = 0 := rfl
    omega
  have h2 : t.id ≠ 0 → (t.id - 1 = s ↔ t.id.toNat = s.toNat + 1) := fun h => by
    rw [← UInt32.toNat_inj, UInt32.toNat_sub]
    have : (1 : UInt32).toNat = 1 := rfl
    have : t.id.toNat ≠ 0 := fun e => h (UInt32.toNat_inj.mp e)
    have := t.id.toNat_lt
    have := s.toNat_lt
    omega
  constructor
  · rintro ⟨hs, ht, h⟩
    split at h
    · rename_i hc
      simp only [Res.pure_def, Res.ok.injEq] at h
      refine ⟨hs, ht, ?_, h.symm⟩
      rcases hc with ⟨_, hc⟩ | hc
      · exact .inl ((h2 ht).mp hc)
      · exact .inr hc
    · simp at h
  · rintro ⟨hs, ht, hc, rfl⟩
    refine ⟨hs, ht, ?_⟩
    rw [if_pos]
    · rfl
    · rcases hc with hc | hc
      · exact .inl ⟨(h1 s).mpr hs, (h2 ht).mpr hc⟩
      · exact .inr hc

theorem theirs_select_not_ok {t : PublicKeyRotation} {s : UInt32} (hs : s ≠ 0) (ht : t.id ≠ 0)
    (h : ∀ key, t.select s ≠ .ok key) : t.select s = .err .protocolViolation := by
  simp only [PublicKeyRotation.select] at h ⊢
  have a1 : Res.assert (s != 0) = .ok () := by simp [hs]
  have a2 : Res.assert (t.id != 0) = .ok () := by simp [ht]
  rw [a1, a2] at h ⊢
  simp only [Res.bind_ok] at h ⊢
  split
  · rename_i hc
    rw [if_pos hc] at h
    exact absurd rfl (h _)
  · rfl

theorem ours_select_ok {t : KeypairRotation} {r : UInt32} {key : DH.Keypair} :
    t.select r = .ok key ↔
      r ≠ 0 ∧ (t.acknowledged = r ∨ r.toNat = t.acknowledged.toNat + 1) ∧ key = t.keys.get r := by
  simp only [KeypairRotation.select, Res.bind_eq_ok, Res.assert_eq_ok, bne_iff_ne, exists_const]
  have h1 : r ≠ 0 → r > 0 := fun h => by
    rw [gt_iff_lt, UInt32.lt_iff_toNat_lt]
    have : (0 : UInt32).toNat = 0 := rfl
    have : r.toNat ≠ 0 := fun e => h (UInt32.toNat_inj.mp e)
    omega
  constructor
  · rintro ⟨hs, h⟩
    split at h
    · rename_i hc
      simp only [Res.pure_def, Res.ok.injEq] at h
      exact ⟨hs, .inl hc.2, h.symm⟩
    · simp only [Res.bind_eq_ok] at h
      obtain ⟨n, hn, h⟩ := h
      split at h
      · rename_i he
        simp only [Res.pure_def, Res.ok.injEq] at h
        subst he
        exact ⟨hs, .inr (incId_ok.mp hn).symm, h.symm⟩
      · simp at h
  · rintro ⟨hs, hc, rfl⟩
    refine ⟨hs, ?_⟩
    by_cases h : t.acknowledged = r
    · rw [if_pos ⟨h1 hs, h⟩]; rfl
    · rw [if_neg (fun x => h x.2)]
      rcases hc with hc | hc
      · exact absurd hc h
      · rw [incId_ok.mpr hc.symm]
        simp

theorem ours_select_not_ok {t : KeypairRotation} {r : UInt32} (hr : r ≠ 0)
    (h : ∀ key, t.select r ≠ .ok key) :
    t.select r = .err .protocolViolation ∨ (t.select r = .panic ∧ t.acknowledged.toNat = 4294967295) := by
  simp only [KeypairRotation.select] at h ⊢
  have a1 : Res.assert (r != 0) = .ok () := by simp [hr]
  rw [a1] at h ⊢
  simp only [Res.bind_ok] at h ⊢
  split
  · rename_i hc
    rw [if_pos hc] at h
    exact absurd rfl (h _)
  · rename_i hc
    rw [if_neg hc] at h
    cases hi : incId t.acknowledged with
    | ok n =>
      rw [hi] at h
      simp only [Res.bind_ok] at h ⊢
      split
      · rename_i hc
        rw [if_pos hc] at h
        exact absurd rfl (h _)
      · exact .inl rfl
    | err e => exact absurd hi incId_ne_err
    | panic => exact .inr ⟨rfl, incId_panic.mp hi⟩

/-- Remember a MAC key as used. -/
def KeyManager.useMac (k : KeyManager) (mac : Bytes) : KeyManager :=
  if mac ∈ k.usedMacs then k else { k with usedMacs := k.usedMacs ++ [mac] }

/-- Remember the counter of an accepted message. -/
def KeyManager.seeCtr (k : KeyManager) (ctr : Bytes) : KeyManager := { k with theirCtr := ctr }

/-- The effect of acknowledging our key `r`. -/
def KeyManager.ackStep (G : DHGroup) (k : KeyManager) (r : UInt32) (fresh : Bytes) : KeyManager :=
  if r = k.ours.acknowledged then k
  else { k with ours := ⟨k.ours.keys.setNext r (DH.Keypair.generate G fresh), r⟩ }.rotated

/-- The effect of registering their key `id`. -/
def KeyManager.regStep (k : KeyManager) (id : UInt32) (key : Nat) : KeyManager :=
  if k.theirs.id = id then k else { k with theirs := ⟨k.theirs.keys.setNext k.theirs.id key, id⟩ }.rotated

theorem acknowledgeOurs_ok {G : DHGroup} {k k' : KeyManager} {r : UInt32} {fresh : Bytes} :
    acknowledgeOurs G r fresh k = (.ok (), k') ↔
      (k.ours.acknowledged = r ∨ r.toNat = k.ours.acknowledged.toNat + 1) ∧ k' = k.ackStep G r fresh := by
  simp only [acknowledgeOurs, KeypairRotation.acknowledge, ackStep]
  by_cases h : r = k.ours.acknowledged
  · simp only [h, if_true, true_or, true_and, Prod.mk.injEq]
    exact eq_comm
  · simp only [h, if_false]
    have h' : ¬ k.ours.acknowledged = r := fun e => h e.symm
    simp only [h', false_or]
    cases hi : incId k.ours.acknowledged with
    | ok n =>
      have hn := incId_ok.mp hi
      simp only [Res.bind_ok]
      by_cases he : r = n
      · subst he
        simp only [if_true, Res.pure_def, Prod.mk.injEq, true_and, hn]
        exact eq_comm
      · simp only [he, if_false, Prod.mk.injEq, reduceCtorEq, false_and, false_iff, not_and]
        intro hc
        exact absurd (UInt32.toNat_inj.mp (hc.trans hn)) he
    | err e => exact absurd hi incId_ne_err
    | panic =>
      have := incId_panic.mp hi
      have := r.toNat_lt
      simp only [Res.bind_panic, Prod.mk.injEq, reduceCtorEq, false_and, false_iff, not_and]
      omega

theorem registerTheirKey_ok {k k' : KeyManager} {id : UInt32} {key : Nat} :
    registerTheirKey id key k = (.ok (), k') ↔
      id ≠ 0 ∧ key ≠ 0 ∧
      ((k.theirs.id = id ∧ k.theirs.keys.get id = key) ∨ id.toNat = k.theirs.id.toNat + 1) ∧
      k' = k.regStep id key := by
  simp only [registerTheirKey, PublicKeyRotation.register, regStep]
  by_cases hz : id = 0
  · simp [hz, Res.assert]
  by_cases hk : key = 0
  · have a1 : Res.assert (id != 0) = .ok () := by simp [hz]
    rw [a1]
    simp [hk, Res.assert]
  have a1 : Res.assert (id != 0) = .ok () := by simp [hz]
  have a2 : Res.assert (key != 0) = .ok () := by simp [hk]
  simp only [a1, a2, Res.bind_ok, ne_eq, hz, not_false_eq_true, hk, true_and]
  by_cases h : k.theirs.id = id
  · have hne : ¬ id.toNat = k.theirs.id.toNat + 1 := by rw [h]; omega
    simp only [h, if_true, true_and]
    by_cases hg : k.theirs.keys.get id = key
    · simp only [hg, if_true, Res.pure_def, Prod.mk.injEq, true_and, true_or]
      have : ({ k with theirs := k.theirs } : KeyManager) = k := rfl
      rw [eq_comm]
    · simp [hg]
  · simp only [h, if_false, false_and, false_or]
    cases hi : incId k.theirs.id with
    | ok n =>
      have hn := incId_ok.mp hi
      simp only [Res.bind_ok]
      by_cases he : n = id
      · subst he
        simp only [if_true, Res.pure_def, Prod.mk.injEq, true_and, hn]
        exact eq_comm
      · simp only [he, if_false, Prod.mk.injEq, reduceCtorEq, false_and, false_iff, not_and]
        intro hc
        exact absurd (UInt32.toNat_inj.mp (hn.symm.trans hc.symm)) he
    | err e => exact absurd hi incId_ne_err
    | panic =>
      have := incId_panic.mp hi
      have := id.toNat_lt
      simp only [Res.bind_panic, Prod.mk.injEq, reduceCtorEq, false_and, false_iff, not_and]
      omega

theorem verifyCounter_ok {k k' : KeyManager} {ctr : Bytes} (h1 : k.theirCtr.length = 8) (h2 : ctr.length = 8) :
    verifyCounter ctr k = (.ok (), k') ↔ beNat k.theirCtr < beNat ctr ∧ k' = k.seeCtr ctr := by
  simp only [verifyCounter, counterVerify_eq h1 h2]
  by_cases h : beNat k.theirCtr < beNat ctr
  · simp only [h, if_true, Prod.mk.injEq, true_and, seeCtr]
    exact eq_comm
  · simp [h]

/-- Bookkeeping that every key manager keeps up. -/
structure KeyManager.WF (k : KeyManager) : Prop where
  ack : k.ours.acknowledged ≠ 0
  id : k.theirs.id ≠ 0
  ourCtr : k.ourCtr.length = 8
  theirCtr : k.theirCtr.length = 8
  used : ∀ m ∈ k.usedMacs, m.length = 20
  old : k.oldMacs.length % 20 = 0

theorem registerUsedMac_eq {mac : Bytes} {k k' : KeyManager} {x : Res Unit} :
    registerUsedMac mac k = (x, k') ↔ x = .ok () ∧ k.useMac mac = k' := by
  simp [registerUsedMac, useMac]

theorem useMac_theirCtr (k : KeyManager) (mac : Bytes) : (k.useMac mac).theirCtr = k.theirCtr := by
  unfold useMac; split <;> rfl

theorem useMac_ours (k : KeyManager) (mac : Bytes) : (k.useMac mac).ours = k.ours := by
  unfold useMac; split <;> rfl

theorem useMac_theirs (k : KeyManager) (mac : Bytes) : (k.useMac mac).theirs = k.theirs := by
  unfold useMac; split <;> rfl

theorem useMac_ourCtr (k : KeyManager) (mac : Bytes) : (k.useMac mac).ourCtr = k.ourCtr := by
  unfold useMac; split <;> rfl

theorem useMac_old (k : KeyManager) (mac : Bytes) : (k.useMac mac).oldMacs = k.oldMacs := by
  unfold useMac; split <;> rfl

theorem anyNonzero_of_pos {d : Bytes} (h : 0 < beNat d) : anyNonzero d = true := by
  simp only [anyNonzero, Bool.not_eq_true', ← Bool.not_eq_true]
  rw [← beNat_eq_zero]
  omega

theorem ctrNonce_nonzero {d : Bytes} (h : 0 < beNat d) : verifyNonzero (ctrNonce d) = .ok () := by
  have : anyNonzero (ctrNonce d) = true := by
    have h' := anyNonzero_of_pos h
    simp only [anyNonzero, allZero, ctrNonce, List.all_append] at h' ⊢
    simp_all
  simp [verifyNonzero, this]

/-- The state after an accepted data message. -/
def KeyManager.afterAccept (E : Env) (k : KeyManager) (m : DataMessage) (mac fresh : Bytes) : KeyManager :=
  ((((k.useMac mac).seeCtr m.ctr).ackStep E.dh m.receiverKeyid fresh)).regStep (m.senderKeyid + 1) m.dhY

theorem ackStep_theirs (G : DHGroup) (k : KeyManager) (r : UInt32) (fresh : Bytes) :
    (k.ackStep G r fresh).theirs = k.theirs := by
  unfold ackStep; split <;> rfl

theorem regStep_ours (k : KeyManager) (id : UInt32) (key : Nat) : (k.regStep id key).ours = k.ours := by
  unfold regStep; split <;> rfl

/-- When decryption succeeds: the message named keys in the window, its MAC verified, its counter was
larger than the last; and the resulting state. -/
theorem decrypt3_ok {E : Env} {m : DataMessage} {ad fresh : Bytes} {k k' : KeyManager} {p : Bytes}
    (hk : k.theirCtr.length = 8) (hm : m.ctr.length = 8) :
    decrypt3 E m ad fresh k = (.ok p, k') ↔
      ∃ sec, m.senderKeyid ≠ 0 ∧ m.receiverKeyid ≠ 0 ∧ k.theirs.id ≠ 0 ∧
        (k.theirs.id.toNat = m.senderKeyid.toNat + 1 ∨ k.theirs.id = m.senderKeyid) ∧
        (k.ours.acknowledged = m.receiverKeyid ∨ m.receiverKeyid.toNat = k.ours.acknowledged.toNat + 1) ∧
        dataSecrets E (k.ours.keys.get m.receiverKeyid) (k.theirs.keys.get m.senderKeyid) = .ok sec ∧
        m.authenticator = E.hmacSha1 (sec.receiverMac E) ad ∧ anyNonzero m.authenticator = true ∧
        beNat k.theirCtr < beNat m.ctr ∧ m.senderKeyid.toNat < 4294967295 ∧ m.dhY ≠ 0 ∧
        (k.theirs.id.toNat = m.senderKeyid.toNat + 1 → k.theirs.keys.get k.theirs.id = m.dhY) ∧
        p = aesCrypt E sec.recvkey (ctrNonce m.ctr) m.encrypted ∧
        k' = k.afterAccept E m (sec.receiverMac E) fresh := by
  have hu : ∀ mac, (k.useMac mac).theirCtr.length = 8 := fun mac => by rw [useMac_theirCtr]; exact hk
  have hinc : ∀ {n : UInt32}, m.senderKeyid.toNat + 1 = n.toNat → n = m.senderKeyid + 1 := fun {n} h => by
    have h2 := n.toNat_lt
    rw [← UInt32.toNat_inj, UInt32.toNat_add]
    have : (1 : UInt32).toNat = 1 := rfl
    omega
  simp only [decrypt3, StM.bind_ok, StM.query_eq, theirs_select_ok, ours_select_ok, StM.lift_eq,
    registerUsedMac_eq, StM.pure_eq, Res.ok.injEq]
  constructor
  · rintro ⟨_, _, ⟨⟨hs0, ht0, hs, rfl⟩, rfl⟩, _, _, ⟨⟨hr0, hr, rfl⟩, rfl⟩, sec, _, ⟨hsec, rfl⟩, _, _, ⟨hcmp, rfl⟩,
      _, _, ⟨_, rfl⟩, _, _, hv, _, _, ⟨_, rfl⟩, _, _, hack, nid, _, ⟨hn, rfl⟩, _, _, hreg, rfl, rfl⟩
    obtain ⟨hauth, hnz⟩ := compareBytes_ok.mp hcmp
    have hv' := (verifyCounter_ok (hu (sec.receiverMac E)) hm).mp hv
    obtain ⟨hlt, rfl⟩ := hv'
    rw [useMac_theirCtr] at hlt
    obtain ⟨_, rfl⟩ := acknowledgeOurs_ok.mp hack
    obtain ⟨hn0, hy, hreg', rfl⟩ := registerTheirKey_ok.mp hreg
    have hn' := incId_ok.mp hn
    obtain rfl := hinc hn'
    have := (m.senderKeyid + 1).toNat_lt
    refine ⟨sec, hs0, hr0, ht0, hs, hr, hsec, hauth, hnz, hlt, by omega, hy, ?_, rfl, rfl⟩
    intro hid
    rw [ackStep_theirs] at hreg'
    simp only [seeCtr, useMac_theirs] at hreg'
    rcases hreg' with ⟨e, hg⟩ | e
    · rw [e]; exact hg
    · omega
  · rintro ⟨sec, hs0, hr0, ht0, hs, hr, hsec, hauth, hnz, hlt, hmax, hy, hg, rfl, rfl⟩
    have hn : incId m.senderKeyid = .ok (m.senderKeyid + 1) := by
      rw [incId_ok, UInt32.toNat_add]
      have : (1 : UInt32).toNat = 1 := rfl
      omega
    have hn' := incId_ok.mp hn
    refine ⟨_, k, ⟨⟨hs0, ht0, hs, rfl⟩, rfl⟩, _, k, ⟨⟨hr0, hr, rfl⟩, rfl⟩, sec, k, ⟨hsec, rfl⟩, (), k,
      ⟨compareBytes_ok.mpr ⟨hauth, hnz⟩, rfl⟩, (), k.useMac (sec.receiverMac E), ⟨trivial, rfl⟩, (),
      (k.useMac (sec.receiverMac E)).seeCtr m.ctr,
      (verifyCounter_ok (hu _) hm).mpr ⟨by rw [useMac_theirCtr]; exact hlt, rfl⟩, (), _,
      ⟨ctrNonce_nonzero (by omega), rfl⟩, (), _, acknowledgeOurs_ok.mpr ⟨?_, rfl⟩, _, _, ⟨hn, rfl⟩, (), _,
      registerTheirKey_ok.mpr ⟨?_, hy, ?_, rfl⟩, rfl, rfl⟩
    · simp only [seeCtr, useMac_ours]
      exact hr
    · intro e
      rw [e] at hn'
      have : (0 : UInt32).toNat = 0 := rfl
      omega
    · rw [ackStep_theirs]
      simp only [seeCtr, useMac_theirs]
      rcases hs with h | h
      · have e : k.theirs.id = m.senderKeyid + 1 := UInt32.toNat_inj.mp (by omega)
        exact .inl ⟨e, by rw [← e]; exact hg h⟩
      · right
        rw [h]
        omega

/-- The message names keys that the state holds. -/
def KeyManager.InWindow (k : KeyManager) (m : DataMessage) : Prop :=
  (k.theirs.id.toNat = m.senderKeyid.toNat + 1 ∨ k.theirs.id = m.senderKeyid) ∧
  (k.ours.acknowledged = m.receiverKeyid ∨ m.receiverKeyid.toNat = k.ours.acknowledged.toNat + 1)

theorem compareBytes_cases (a b : Bytes) :
    compareBytes a b = .ok () ∨ compareBytes a b = .err .cryptographicViolation := by
  simp only [compareBytes, verifyNonzero]
  by_cases ha : anyNonzero a <;> by_cases hb : anyNonzero b <;> by_cases h : a = b <;> simp_all

theorem queryTheirs {k : KeyManager} {id : UInt32} {x : Res Nat} (h : k.theirs.select id = x) :
    StM.query (fun k : KeyManager => k.theirs.select id) k = (x, k) := by rw [StM.query, h]

theorem queryOurs {k : KeyManager} {id : UInt32} {x : Res DH.Keypair} (h : k.ours.select id = x) :
    StM.query (fun k : KeyManager => k.ours.select id) k = (x, k) := by rw [StM.query, h]

/-- Decryption depends on the state only after the keys were found. -/
theorem decrypt3_start {E : Env} {m : DataMessage} {ad fresh : Bytes} {k : KeyManager} {sec : DataSecrets}
    (hs0 : m.senderKeyid ≠ 0) (hr0 : m.receiverKeyid ≠ 0) (ht0 : k.theirs.id ≠ 0) (hw : k.InWindow m)
    (hsec : dataSecrets E (k.ours.keys.get m.receiverKeyid) (k.theirs.keys.get m.senderKeyid) = .ok sec) :
    decrypt3 E m ad fresh k = (do
      StM.lift (compareBytes m.authenticator (E.hmacSha1 (sec.receiverMac E) ad))
      KeyManager.registerUsedMac (sec.receiverMac E)
      KeyManager.verifyCounter m.ctr
      StM.lift (verifyNonzero (ctrNonce m.ctr))
      KeyManager.acknowledgeOurs E.dh m.receiverKeyid fresh
      let nextId ← StM.lift (incId m.senderKeyid)
      KeyManager.registerTheirKey nextId m.dhY
      return aesCrypt E sec.recvkey (ctrNonce m.ctr) m.encrypted : StM KeyManager Bytes) k := by
  have h1 : k.theirs.select m.senderKeyid = .ok (k.theirs.keys.get m.senderKeyid) :=
    theirs_select_ok.mpr ⟨hs0, ht0, hw.1, rfl⟩
  have h2 : k.ours.select m.receiverKeyid = .ok (k.ours.keys.get m.receiverKeyid) :=
    ours_select_ok.mpr ⟨hr0, hw.2, rfl⟩
  rw [decrypt3, StM.bind_of (queryTheirs h1), StM.bind_of (queryOurs h2),
    StM.bind_of (StM.lift_eq.mpr ⟨hsec, rfl⟩)]

/-- The keys of the peer that are known are looked up before the own keys. -/
theorem decrypt3_unknown {E : Env} (m : DataMessage) (ad fresh : Bytes) {k : KeyManager} (hs0 : m.senderKeyid ≠ 0) (hk : k.WF)
    (h1 : ¬ (k.theirs.id.toNat = m.senderKeyid.toNat + 1 ∨ k.theirs.id = m.senderKeyid)) :
    decrypt3 E m ad fresh k = (.err .protocolViolation, k) := by
  have hno : ∀ key, k.theirs.select m.senderKeyid ≠ .ok key := fun key h => h1 (theirs_select_ok.mp h).2.2.1
  rw [decrypt3, StM.bind_of_err (queryTheirs (theirs_select_not_ok hs0 hk.id hno))]

/-- The own key ids have come to their end. -/
theorem decrypt3_ids {E : Env} (m : DataMessage) (ad fresh : Bytes) {k : KeyManager} (hs0 : m.senderKeyid ≠ 0) (hr0 : m.receiverKeyid ≠ 0)
    (hk : k.WF) (h1 : k.theirs.id.toNat = m.senderKeyid.toNat + 1 ∨ k.theirs.id = m.senderKeyid)
    (h2 : k.ours.acknowledged.toNat = 4294967295) (h3 : m.receiverKeyid ≠ k.ours.acknowledged) :
    decrypt3 E m ad fresh k = (.panic, k) := by
  have hsel : k.theirs.select m.senderKeyid = .ok (k.theirs.keys.get m.senderKeyid) :=
    theirs_select_ok.mpr ⟨hs0, hk.id, h1, rfl⟩
  have h : k.ours.select m.receiverKeyid = .panic := by
    have hi : incId k.ours.acknowledged = .panic := by
      rw [incId, if_pos]
      exact UInt32.toNat_inj.mp h2
    unfold KeypairRotation.select
    rw [if_neg fun h => h3 h.2.symm, hi]
    simp [Res.assert, hr0, bind, Res.bind]
  rw [decrypt3, StM.bind_of (queryTheirs hsel), StM.bind_of_panic (queryOurs h)]

/-- All outcomes of decrypting a decoded message (its key ids are not 0 and its counter has 8 bytes). -/
theorem decrypt3_cases {E : Env} (m : DataMessage) (ad fresh : Bytes) {k : KeyManager}
    (hs0 : m.senderKeyid ≠ 0) (hr0 : m.receiverKeyid ≠ 0) (hm : m.ctr.length = 8) (hk : k.WF) :
    -- the keys it names are not in the window
    (¬ k.InWindow m ∧ (decrypt3 E m ad fresh k = (.err .protocolViolation, k) ∨
      (decrypt3 E m ad fresh k = (.panic, k) ∧ k.ours.acknowledged.toNat = 4294967295))) ∨
    -- our public key equals theirs
    (k.InWindow m ∧ (k.ours.keys.get m.receiverKeyid).pub = k.theirs.keys.get m.senderKeyid ∧
      decrypt3 E m ad fresh k = (.panic, k)) ∨
    (k.InWindow m ∧ ∃ sec,
      dataSecrets E (k.ours.keys.get m.receiverKeyid) (k.theirs.keys.get m.senderKeyid) = .ok sec ∧
      -- the MAC is wrong
      ((¬ (m.authenticator = E.hmacSha1 (sec.receiverMac E) ad ∧ anyNonzero m.authenticator = true) ∧
        decrypt3 E m ad fresh k = (.err .cryptographicViolation, k)) ∨
      (m.authenticator = E.hmacSha1 (sec.receiverMac E) ad ∧ anyNonzero m.authenticator = true ∧
        -- the counter is not larger than the last
        ((beNat m.ctr ≤ beNat k.theirCtr ∧
          decrypt3 E m ad fresh k = (.err .protocolViolation, k.useMac (sec.receiverMac E))) ∨
        (beNat k.theirCtr < beNat m.ctr ∧
          -- the next key is missing or its id overflows
          (((m.senderKeyid.toNat = 4294967295 ∨ m.dhY = 0) ∧ (decrypt3 E m ad fresh k).1 = .panic) ∨
          (m.senderKeyid.toNat < 4294967295 ∧ m.dhY ≠ 0 ∧
            -- the next key contradicts an earlier one
            ((k.theirs.id.toNat = m.senderKeyid.toNat + 1 ∧ k.theirs.keys.get k.theirs.id ≠ m.dhY ∧
              decrypt3 E m ad fresh k = (.err .protocolViolation,
                ((k.useMac (sec.receiverMac E)).seeCtr m.ctr).ackStep E.dh m.receiverKeyid fresh)) ∨
            -- accepted
            ((k.theirs.id.toNat = m.senderKeyid.toNat + 1 → k.theirs.keys.get k.theirs.id = m.dhY) ∧
              decrypt3 E m ad fresh k = (.ok (aesCrypt E sec.recvkey (ctrNonce m.ctr) m.encrypted),
                k.afterAccept E m (sec.receiverMac E) fresh)))))))))) := by
  by_cases hw : k.InWindow m
  rotate_left
  · refine .inl ⟨hw, ?_⟩
    by_cases h1 : k.theirs.id.toNat = m.senderKeyid.toNat + 1 ∨ k.theirs.id = m.senderKeyid
    · have h2 : ¬ (k.ours.acknowledged = m.receiverKeyid ∨
        m.receiverKeyid.toNat = k.ours.acknowledged.toNat + 1) := fun h => hw ⟨h1, h⟩
      have hsel : k.theirs.select m.senderKeyid = .ok (k.theirs.keys.get m.senderKeyid) :=
        theirs_select_ok.mpr ⟨hs0, hk.id, h1, rfl⟩
      have hno : ∀ key, k.ours.select m.receiverKeyid ≠ .ok key := fun key h =>
        h2 (ours_select_ok.mp h).2.1
      rcases ours_select_not_ok hr0 hno with h | ⟨h, hmax⟩
      · left
        rw [decrypt3, StM.bind_of (queryTheirs hsel), StM.bind_of_err (queryOurs h)]
      · right
        refine ⟨?_, hmax⟩
        rw [decrypt3, StM.bind_of (queryTheirs hsel),
          StM.bind_of_panic (queryOurs h)]
    · left
      have hno : ∀ key, k.theirs.select m.senderKeyid ≠ .ok key := fun key h =>
        h1 (theirs_select_ok.mp h).2.2.1
      rw [decrypt3, StM.bind_of_err (queryTheirs (theirs_select_not_ok hs0 hk.id hno))]
  · right
    rcases dataSecrets_cases E (k.ours.keys.get m.receiverKeyid) (k.theirs.keys.get m.senderKeyid) with
      ⟨he, hp⟩ | ⟨_, sec, hsec⟩
    · left
      refine ⟨hw, he, ?_⟩
      have h1 : k.theirs.select m.senderKeyid = .ok (k.theirs.keys.get m.senderKeyid) :=
        theirs_select_ok.mpr ⟨hs0, hk.id, hw.1, rfl⟩
      have h2 : k.ours.select m.receiverKeyid = .ok (k.ours.keys.get m.receiverKeyid) :=
        ours_select_ok.mpr ⟨hr0, hw.2, rfl⟩
      rw [decrypt3, StM.bind_of (queryTheirs h1), StM.bind_of (queryOurs h2),
        StM.bind_of_panic (StM.lift_eq.mpr ⟨hp, rfl⟩)]
    · right
      refine ⟨hw, sec, hsec, ?_⟩
      have hstart := decrypt3_start (ad := ad) (fresh := fresh) hs0 hr0 hk.id hw hsec
      by_cases hmac : m.authenticator = E.hmacSha1 (sec.receiverMac E) ad ∧ anyNonzero m.authenticator = true
      rotate_left
      · refine .inl ⟨hmac, ?_⟩
        have hc : compareBytes m.authenticator (E.hmacSha1 (sec.receiverMac E) ad) =
            .err .cryptographicViolation := by
          rcases compareBytes_cases m.authenticator (E.hmacSha1 (sec.receiverMac E) ad) with h | h
          · exact absurd (compareBytes_ok.mp h) hmac
          · exact h
        rw [hstart, StM.bind_of_err (StM.lift_eq.mpr ⟨hc, rfl⟩)]
      · refine .inr ⟨hmac.1, hmac.2, ?_⟩
        have hu : (k.useMac (sec.receiverMac E)).theirCtr.length = 8 := by rw [useMac_theirCtr]; exact hk.theirCtr
        rw [StM.bind_of (StM.lift_eq.mpr ⟨compareBytes_ok.mpr hmac, rfl⟩),
          StM.bind_of (registerUsedMac_eq.mpr ⟨rfl, rfl⟩)] at hstart
        by_cases hc : beNat k.theirCtr < beNat m.ctr
        rotate_left
        · refine .inl ⟨by omega, ?_⟩
          have hv : verifyCounter m.ctr (k.useMac (sec.receiverMac E)) =
              (.err .protocolViolation, k.useMac (sec.receiverMac E)) := by
            simp only [verifyCounter, useMac_theirCtr, counterVerify_eq hk.theirCtr hm, hc, if_false]
          rw [hstart, StM.bind_of_err hv]
        · refine .inr ⟨hc, ?_⟩
          have hv := (verifyCounter_ok (k := k.useMac (sec.receiverMac E)) hu hm).mpr
            ⟨by rw [useMac_theirCtr]; exact hc, rfl⟩
          have ha : acknowledgeOurs E.dh m.receiverKeyid fresh ((k.useMac (sec.receiverMac E)).seeCtr m.ctr) =
              (.ok (), ((k.useMac (sec.receiverMac E)).seeCtr m.ctr).ackStep E.dh m.receiverKeyid fresh) :=
            acknowledgeOurs_ok.mpr ⟨by simp only [seeCtr, useMac_ours]; exact hw.2, rfl⟩
          rw [StM.bind_of hv, StM.bind_of (StM.lift_eq.mpr ⟨ctrNonce_nonzero (by omega), rfl⟩),
            StM.bind_of ha] at hstart
          by_cases hmax : m.senderKeyid.toNat = 4294967295
          · refine .inl ⟨.inl hmax, ?_⟩
            rw [hstart, StM.bind_of_panic (StM.lift_eq.mpr ⟨incId_panic.mpr hmax, rfl⟩)]
          · have hlt := m.senderKeyid.toNat_lt
            have hn : incId m.senderKeyid = .ok (m.senderKeyid + 1) := by
              rw [incId_ok, UInt32.toNat_add]
              have : (1 : UInt32).toNat = 1 := rfl
              omega
            have hn' := incId_ok.mp hn
            have hnz : m.senderKeyid + 1 ≠ 0 := by
              intro e
              rw [e] at hn'
              have : (0 : UInt32).toNat = 0 := rfl
              omega
            rw [StM.bind_of (StM.lift_eq.mpr ⟨hn, rfl⟩)] at hstart
            by_cases hy : m.dhY = 0
            · refine .inl ⟨.inr hy, ?_⟩
              have hp : registerTheirKey (m.senderKeyid + 1) m.dhY
                  (((k.useMac (sec.receiverMac E)).seeCtr m.ctr).ackStep E.dh m.receiverKeyid fresh) =
                  (.panic, ((k.useMac (sec.receiverMac E)).seeCtr m.ctr).ackStep E.dh m.receiverKeyid fresh) := by
                have a1 : Res.assert (m.senderKeyid + 1 != 0) = .ok () := by simp [hnz]
                have a2 : Res.assert (m.dhY != 0) = .panic := by simp [hy]
                simp only [registerTheirKey, PublicKeyRotation.register, a1, a2, Res.bind_ok, Res.bind_panic]
              rw [hstart, StM.bind_of_panic hp]
            · refine .inr ⟨by omega, hy, ?_⟩
              by_cases hg : k.theirs.id.toNat = m.senderKeyid.toNat + 1 → k.theirs.keys.get k.theirs.id = m.dhY
              · refine .inr ⟨hg, ?_⟩
                exact (decrypt3_ok hk.theirCtr hm).mpr ⟨sec, hs0, hr0, hk.id, hw.1, hw.2, hsec, hmac.1, hmac.2, hc,
                  by omega, hy, hg, rfl, rfl⟩
              · refine .inl ?_
                simp only [Classical.not_imp] at hg
                refine ⟨hg.1, hg.2, ?_⟩
                have e : k.theirs.id = m.senderKeyid + 1 := UInt32.toNat_inj.mp (by omega)
                have hp : registerTheirKey (m.senderKeyid + 1) m.dhY
                    (((k.useMac (sec.receiverMac E)).seeCtr m.ctr).ackStep E.dh m.receiverKeyid fresh) =
                    (.err .protocolViolation,
                      ((k.useMac (sec.receiverMac E)).seeCtr m.ctr).ackStep E.dh m.receiverKeyid fresh) := by
                  have a1 : Res.assert (m.senderKeyid + 1 != 0) = .ok () := by simp [hnz]
                  have a2 : Res.assert (m.dhY != 0) = .ok () := by simp [hy]
                  have e2 : (((k.useMac (sec.receiverMac E)).seeCtr m.ctr).ackStep E.dh m.receiverKeyid fresh).theirs =
                      k.theirs := by
                    rw [ackStep_theirs]; simp only [seeCtr, useMac_theirs]
                  simp only [registerTheirKey, PublicKeyRotation.register, a1, a2, Res.bind_ok, e2, e, if_true]
                  rw [if_neg (by rw [← e]; exact hg.2)]
                rw [hstart, StM.bind_of_err hp]

end Otrr
