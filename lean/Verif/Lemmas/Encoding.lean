import Verif.Model.Encoding
import Verif.Lemmas.Bytes
/-! Round-trip and totality lemmas for the wire primitives. -/

namespace Otrr

theorem Dec.bind_ok {x : Dec α} {f : α → Dec β} {s s' : Bytes} {a : α} (h : x s = .ok (a, s')) :
    (x >>= f) s = f a s' := by
  rw [Dec.bind_run, h]

theorem Dec.bind_err {x : Dec α} {f : α → Dec β} {s : Bytes} {e : OTRError} (h : x s = .err e) :
    (x >>= f) s = .err e := by
  rw [Dec.bind_run, h]

theorem Dec.bind_eq_ok {x : Dec α} {f : α → Dec β} {s : Bytes} {r : β × Bytes} :
    (x >>= f) s = .ok r ↔ ∃ a s', x s = .ok (a, s') ∧ f a s' = .ok r := by
  rw [Dec.bind_run]
  cases h : x s with
  | ok p =>
    obtain ⟨a, s'⟩ := p
    simp only [Res.ok.injEq, Prod.mk.injEq]
    constructor
    · intro hf; exact ⟨a, s', ⟨rfl, rfl⟩, hf⟩
    · rintro ⟨_, _, ⟨rfl, rfl⟩, hf⟩; exact hf
  | err e => simp
  | panic => simp

theorem Dec.bind_eq_panic {x : Dec α} {f : α → Dec β} {s : Bytes} :
    (x >>= f) s = .panic ↔ x s = .panic ∨ ∃ a s', x s = .ok (a, s') ∧ f a s' = .panic := by
  rw [Dec.bind_run]
  cases h : x s with
  | ok p =>
    obtain ⟨a, s'⟩ := p
    simp only [Res.ok.injEq, Prod.mk.injEq, reduceCtorEq, false_or]
    constructor
    · intro hf; exact ⟨a, s', ⟨rfl, rfl⟩, hf⟩
    · rintro ⟨_, _, ⟨rfl, rfl⟩, hf⟩; exact hf
  | err e => simp
  | panic => simp

@[simp] theorem readU8_cons (b : UInt8) (rest : Bytes) : readU8 (b :: rest) = .ok (b, rest) := rfl

@[simp] theorem readU8_w (b : UInt8) (rest : Bytes) : readU8 (wU8 b ++ rest) = .ok (b, rest) := rfl

theorem readN_append {n : Nat} {b : Bytes} (h : b.length = n) (rest : Bytes) :
    readN n (b ++ rest) = .ok (b, rest) := by
  subst h
  simp [readN]

@[simp] theorem readU16_w (v : UInt16) (rest : Bytes) : readU16 (wU16 v ++ rest) = .ok (v, rest) := by
  unfold readU16 wU16
  rw [Dec.bind_ok (readN_append (by simp) rest)]
  rw [beNat_beBytes_of_lt (by have := v.toNat_lt; omega)]
  simp

@[simp] theorem readU16LE_w (v : UInt16) (rest : Bytes) :
    readU16LE (wU16LE v ++ rest) = .ok (v, rest) := by
  unfold readU16LE wU16LE
  rw [Dec.bind_ok (readN_append (by simp) rest)]
  rw [leNat_leBytes_of_lt (by have := v.toNat_lt; omega)]
  simp

@[simp] theorem readU32_w (v : UInt32) (rest : Bytes) : readU32 (wU32 v ++ rest) = .ok (v, rest) := by
  unfold readU32 wU32
  rw [Dec.bind_ok (readN_append (by simp) rest)]
  rw [beNat_beBytes_of_lt (by have := v.toNat_lt; omega)]
  simp

@[simp] theorem readI64_w (v : UInt64) (rest : Bytes) : readI64 (wI64 v ++ rest) = .ok (v, rest) := by
  unfold readI64 wI64
  rw [Dec.bind_ok (readN_append (by simp) rest)]
  rw [beNat_beBytes_of_lt (by have := v.toNat_lt; omega)]
  simp

theorem UInt32.toNat_ofNat_len {n : Nat} (h : n < 2 ^ 32) : (UInt32.ofNat n).toNat = n := by
  rw [UInt32.toNat_ofNat']; exact Nat.mod_eq_of_lt h

theorem UInt16.toNat_ofNat_len {n : Nat} (h : n < 2 ^ 16) : (UInt16.ofNat n).toNat = n := by
  rw [UInt16.toNat_ofNat']; exact Nat.mod_eq_of_lt h

theorem readInstanceTag_w {v : UInt32} (h : verifyTag v = .ok v) (rest : Bytes) :
    readInstanceTag (wU32 v ++ rest) = .ok (v, rest) := by
  unfold readInstanceTag
  rw [Dec.bind_ok (readU32_w v rest), h]
  rfl

theorem readData_w {d : Bytes} (h : dataOk d) (rest : Bytes) :
    readData (wData d ++ rest) = .ok (d, rest) := by
  have h' : d.length < 2 ^ 32 := by simpa [dataOk] using h
  unfold readData wData
  rw [List.append_assoc, Dec.bind_ok (readU32_w _ _), UInt32.toNat_ofNat_len h']
  exact readN_append rfl rest

/-- MPIs that fit the 32-bit length prefix. -/
def mpiOk (v : Nat) : Bool := byteLen v < 2 ^ 32

theorem natToBE_length {v : Nat} (h : v ≠ 0) : (natToBE v).length = byteLen v := by
  simp [natToBE, h]

theorem readMpi_w {v : Nat} (h : mpiOk v) (rest : Bytes) :
    readMpi (wMpi v ++ rest) = .ok (v, rest) := by
  have h' : byteLen v < 2 ^ 32 := by simpa [mpiOk] using h
  unfold readMpi wMpi
  by_cases hv : v = 0
  · subst hv
    simp only [if_true]
    rw [Dec.bind_ok (readU32_w _ _)]
    simp
  · simp only [hv, if_false]
    have hlen : (UInt32.ofNat (natToBE v).length).toNat = byteLen v := by
      rw [natToBE_length hv, UInt32.toNat_ofNat_len h']
    rw [List.append_assoc, Dec.bind_ok (readU32_w _ _)]
    have hne : UInt32.ofNat (natToBE v).length ≠ 0 := by
      intro hc
      rw [hc] at hlen
      have := byteLen_pos_iff.mpr hv
      simp at hlen
      omega
    rw [if_neg hne, hlen]
    rw [Dec.bind_ok (readN_append (natToBE_length hv) rest)]
    simp [beNat_natToBE]

theorem readMpis_w {ms : List Nat} (h : ∀ m ∈ ms, mpiOk m) (rest : Bytes) :
    readMpis ms.length ((ms.map wMpi).flatten ++ rest) = .ok (ms, rest) := by
  induction ms with
  | nil => rfl
  | cons m ms ih =>
    simp only [List.length_cons, readMpis, List.map_cons, List.flatten_cons, List.append_assoc]
    rw [Dec.bind_ok (readMpi_w (h m (by simp)) _)]
    rw [Dec.bind_ok (ih (fun x hx => h x (by simp [hx])))]
    rfl

theorem readMpiSequence_w {ms : List Nat} (hl : ms.length < 2 ^ 32) (h : ∀ m ∈ ms, mpiOk m)
    (rest : Bytes) : readMpiSequence (wMpiSequence ms ++ rest) = .ok (ms, rest) := by
  unfold readMpiSequence wMpiSequence
  rw [List.append_assoc, Dec.bind_ok (readU32_w _ _), UInt32.toNat_ofNat_len hl]
  exact readMpis_w h rest

theorem readTlv_w {t : TLV} (h : tlvOk t) (rest : Bytes) :
    readTlv (wTlv t ++ rest) = .ok (t, rest) := by
  have h' : t.value.length < 2 ^ 16 := by simpa [tlvOk] using h
  unfold readTlv wTlv
  rw [List.append_assoc, List.append_assoc, Dec.bind_ok (readU16_w _ _), Dec.bind_ok (readU16_w _ _),
    UInt16.toNat_ofNat_len h', Dec.bind_ok (readN_append rfl rest)]
  rfl

theorem wTlv_length (t : TLV) : (wTlv t).length = 4 + t.value.length := by
  simp [wTlv, wU16]; omega

/-- The fuel of `readTlvsFuel` is never the limiting factor. -/
theorem readTlvs_fuel (n m : Nat) (s : Bytes) (hn : s.length ≤ n) (hm : s.length ≤ m) :
    readTlvsFuel n s = readTlvsFuel m s := by
  induction n generalizing m s with
  | zero =>
    have : s = [] := List.length_eq_zero_iff.mp (by omega)
    subst this
    cases m <;> rfl
  | succ n ih =>
    cases m with
    | zero =>
      have : s = [] := List.length_eq_zero_iff.mp (by omega)
      subst this
      rfl
    | succ m =>
      unfold readTlvsFuel
      by_cases hs : s = []
      · simp [hs]
      · rw [if_neg hs, if_neg hs]
        simp only [Dec.bind_run]
        cases hr : readTlv s with
        | err e => rfl
        | panic => rfl
        | ok p =>
          obtain ⟨t, s'⟩ := p
          have hlt : s'.length < s.length := by
            unfold readTlv readU16 at hr
            simp only [Dec.bind_eq_ok, readN, Dec.pure_run] at hr
            obtain ⟨a, s1, ⟨b, s2, h1, h2⟩, c, s3, ⟨d, s4, h3, h4⟩, e, s5, h5, h6⟩ := hr
            split at h1 <;> simp at h1
            split at h3 <;> simp at h3
            split at h5 <;> simp at h5
            simp at h2 h4 h6
            obtain ⟨_, rfl⟩ := h1
            obtain ⟨_, rfl⟩ := h2
            obtain ⟨_, rfl⟩ := h3
            obtain ⟨_, rfl⟩ := h4
            obtain ⟨_, rfl⟩ := h5
            obtain ⟨_, rfl⟩ := h6
            simp at *
            omega
          simp only
          rw [ih m s' (by omega) (by omega)]

theorem readTlvsFuel_w {ts : List TLV} (h : ∀ t ∈ ts, tlvOk t) (n : Nat)
    (hn : ((ts.map wTlv).flatten).length ≤ n) :
    readTlvsFuel n ((ts.map wTlv).flatten) = .ok (ts, []) := by
  induction ts generalizing n with
  | nil => cases n <;> rfl
  | cons t ts ih =>
    simp only [List.map_cons, List.flatten_cons, List.length_append] at hn ⊢
    have hl := wTlv_length t
    cases n with
    | zero => omega
    | succ n =>
      unfold readTlvsFuel
      have hne : wTlv t ++ (ts.map wTlv).flatten ≠ [] := by
        intro hc
        have := congrArg List.length hc
        simp only [List.length_append, List.length_nil] at this
        omega
      rw [if_neg hne]
      rw [Dec.bind_ok (readTlv_w (h t (by simp)) _)]
      rw [Dec.bind_ok (ih (fun x hx => h x (by simp [hx])) n (by omega))]
      rfl

theorem readTlvs_w {ts : List TLV} (h : ∀ t ∈ ts, tlvOk t) :
    readTlvs ((ts.map wTlv).flatten) = .ok (ts, []) :=
  readTlvsFuel_w h _ (Nat.le_refl _)

theorem readNullTerminated_w {d : Bytes} (h : ∀ b ∈ d, b ≠ 0) (rest : Bytes) :
    readNullTerminated (wNullTerminated d ++ rest) = .ok (d, rest) := by
  unfold readNullTerminated wNullTerminated
  induction d with
  | nil => simp
  | cons b d ih =>
    have hb : b ≠ 0 := h b (by simp)
    have := ih (fun x hx => h x (by simp [hx]))
    simp only [Res.ok.injEq, Prod.mk.injEq] at this
    obtain ⟨h1, h2⟩ := this
    have hb' : (b != 0) = true := by simp [hb]
    simp only [List.cons_append, List.takeWhile_cons, List.dropWhile_cons, hb', if_true]
    rw [h1, h2]


/-! ## Totality -/

/-- A decoder is safe: it never panics, and when it succeeds it has consumed a prefix of the input
and its value depends only on that prefix. -/
def Dec.Safe (d : Dec α) : Prop :=
  ∀ s, d s ≠ .panic ∧ ∀ a s', d s = .ok (a, s') →
    ∃ pre, s = pre ++ s' ∧ ∀ rest, d (pre ++ rest) = .ok (a, rest)

theorem Dec.Safe.pure (a : α) : Dec.Safe (Pure.pure a : Dec α) := by
  intro s
  refine ⟨by simp, ?_⟩
  intro b s' h
  simp at h
  obtain ⟨rfl, rfl⟩ := h
  exact ⟨[], by simp⟩

theorem Dec.Safe.fail (e : OTRError) : Dec.Safe (Dec.fail e : Dec α) := by
  intro s
  simp

theorem Dec.Safe.lift {r : Res α} (h : r ≠ .panic) : Dec.Safe (Dec.lift r) := by
  intro s
  cases r with
  | ok a => exact Dec.Safe.pure a s
  | err e => exact Dec.Safe.fail e s
  | panic => exact absurd rfl h

theorem Dec.Safe.bind {x : Dec α} {f : α → Dec β} (hx : x.Safe) (hf : ∀ a, (f a).Safe) :
    Dec.Safe (x >>= f) := by
  intro s
  constructor
  · rw [Ne, Dec.bind_eq_panic]
    rintro (h | ⟨a, s', _, h⟩)
    · exact (hx s).1 h
    · exact (hf a s').1 h
  · intro b s' h
    rw [Dec.bind_eq_ok] at h
    obtain ⟨a, s1, h1, h2⟩ := h
    obtain ⟨p1, rfl, e1⟩ := (hx s).2 _ _ h1
    obtain ⟨p2, rfl, e2⟩ := (hf a s1).2 _ _ h2
    refine ⟨p1 ++ p2, by simp, ?_⟩
    intro rest
    rw [List.append_assoc, Dec.bind_ok (e1 _), e2]

theorem Dec.Safe.ite {c : Prop} [Decidable c] {x y : Dec α} (hx : x.Safe) (hy : y.Safe) :
    Dec.Safe (if c then x else y) := by
  split <;> assumption

theorem readN_safe (n : Nat) : (readN n).Safe := by
  intro s
  unfold readN
  constructor
  · split <;> simp
  · intro a s' h
    split at h
    · simp at h
    · simp at h
      obtain ⟨rfl, rfl⟩ := h
      refine ⟨s.take n, by simp, ?_⟩
      intro rest
      have : (s.take n).length = n := by simp; omega
      exact readN_append this rest

theorem readU8_safe : readU8.Safe := by
  intro s
  cases s with
  | nil => simp [readU8]
  | cons b s =>
    refine ⟨by simp, ?_⟩
    intro a s' h
    simp at h
    obtain ⟨rfl, rfl⟩ := h
    exact ⟨[b], rfl, fun rest => rfl⟩

theorem readU16_safe : readU16.Safe := (readN_safe 2).bind fun _ => .pure _
theorem readU16LE_safe : readU16LE.Safe := (readN_safe 2).bind fun _ => .pure _
theorem readU32_safe : readU32.Safe := (readN_safe 4).bind fun _ => .pure _
theorem readI64_safe : readI64.Safe := (readN_safe 8).bind fun _ => .pure _

theorem verifyTag_ne_panic (t : UInt32) : verifyTag t ≠ .panic := by
  unfold verifyTag; split <;> simp

theorem readInstanceTag_safe : readInstanceTag.Safe :=
  readU32_safe.bind fun _ => .lift (verifyTag_ne_panic _)

theorem readData_safe : readData.Safe := readU32_safe.bind fun _ => readN_safe _

theorem readMpi_safe : readMpi.Safe :=
  readU32_safe.bind fun _ => .ite (.pure _) ((readN_safe _).bind fun _ => .pure _)

theorem readMpis_safe (n : Nat) : (readMpis n).Safe := by
  induction n with
  | zero => exact .pure _
  | succ n ih => exact readMpi_safe.bind fun _ => ih.bind fun _ => .pure _

theorem readMpiSequence_safe : readMpiSequence.Safe := readU32_safe.bind fun _ => readMpis_safe _
theorem readCtr_safe : readCtr.Safe := readN_safe 8
theorem readMac_safe : readMac.Safe := readN_safe 20
theorem readMac4_safe : readMac4.Safe := readN_safe 64

theorem readTlv_safe : readTlv.Safe :=
  readU16_safe.bind fun _ => readU16_safe.bind fun _ => (readN_safe _).bind fun _ => .pure _

/-- The two readers that read to the end of the buffer never panic and leave a suffix. -/
theorem readTlvsFuel_total (n : Nat) (s : Bytes) :
    readTlvsFuel n s ≠ .panic ∧
      ∀ ts s', readTlvsFuel n s = .ok (ts, s') → s' = [] := by
  induction n generalizing s with
  | zero =>
    unfold readTlvsFuel
    by_cases h : s = [] <;> simp [h]
  | succ n ih =>
    unfold readTlvsFuel
    by_cases h : s = []
    · simp [h]
    · rw [if_neg h]
      constructor
      · rw [Ne, Dec.bind_eq_panic]
        rintro (h1 | ⟨a, s1, _, h2⟩)
        · exact (readTlv_safe s).1 h1
        · rw [Dec.bind_eq_panic] at h2
          rcases h2 with h3 | ⟨_, _, _, h3⟩
          · exact (ih s1).1 h3
          · simp at h3
      · intro ts s' h
        rw [Dec.bind_eq_ok] at h
        obtain ⟨a, s1, _, h2⟩ := h
        rw [Dec.bind_eq_ok] at h2
        obtain ⟨b, s2, h3, h4⟩ := h2
        simp at h4
        obtain ⟨_, rfl⟩ := h4
        exact (ih s1).2 _ _ h3

end Otrr
