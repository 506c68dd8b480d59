import Verif.Spec.Schedule
import Verif.Lemmas.Hist4
/-! # The key schedule of OTRv4 -/

namespace Otrr
open Spec

variable {E : Env} {k : Bytes}

theorem kdf_input (usage : UInt8) (d : Bytes) : kdf E 64 usage d = E.shake 64 (kdfInput usage d) := rfl
theorem kdf2_input (usage : UInt8) (d e : Bytes) : kdf2 E 64 usage d e = E.shake 64 (kdfInput usage (d ++ e)) := by
  simp only [kdf2, kdfInput, List.append_assoc]

theorem rootKey_snoc (ks : List Bytes) (s : Bytes) : rootKey E k (ks ++ [s]) = kdf2 E 64 0x12 (rootKey E k ks) s := by
  rw [kdf2_input]
  simp [rootKey]

theorem rootKey_length (ks : List Bytes) : (rootKey E k ks).length = 64 := by
  rcases List.eq_nil_or_concat ks with rfl | ⟨l, a, rfl⟩
  · exact E.shake_len _ _
  · rw [List.concat_eq_append, rootKey_snoc]; exact E.shake_len _ _

/-- Keys are not changed by secrets that are mixed in later. -/
theorem chainKey_append {ks ext : List Bytes} {n : Nat} (h : n < ks.length) :
    ∀ j, chainKey E k (ks ++ ext) n j = chainKey E k ks n j
  | 0 => by
    unfold chainKey
    rw [List.take_append_of_le_length (by omega)]
    have : (ks ++ ext).getD n [] = ks.getD n [] := by simp only [List.getD, List.getElem?_append_left h]
    rw [this]
  | j + 1 => by
    unfold chainKey
    rw [chainKey_append h j]

theorem messageKey_append {ks ext : List Bytes} {p : Nat × Nat} (h : p.1 < ks.length) :
    messageKey E k (ks ++ ext) p = messageKey E k ks p := by
  unfold messageKey
  rw [chainKey_append h]

theorem macKey_append {ks ext : List Bytes} {p : Nat × Nat} (h : p.1 < ks.length) : macKey E k (ks ++ ext) p = macKey E k ks p := by
  unfold macKey
  rw [messageKey_append h]

theorem chainKey_new {ks : List Bytes} {s : Bytes} {n : Nat} (h : n = ks.length) :
    chainKey E k (ks ++ [s]) n 0 = kdf2 E 64 0x13 (rootKey E k ks) s := by
  subst h
  rw [kdf2_input]
  unfold chainKey
  have : (ks ++ [s]).getD ks.length [] = s := by simp [List.getD]
  rw [this, List.take_left']
  rfl

theorem chainFwd_key (ks : List Bytes) (n j : Nat) : ∀ i, chainFwd E i (chainKey E k ks n j) = chainKey E k ks n (j + i)
  | 0 => rfl
  | i + 1 => by
    rw [chainFwd_succ, chainFwd_key ks n j i]
    rfl

/-! ## Invariant of the double ratchet -/

/-- The ratchet of the keys for received messages. -/
def recvNo (d : DoubleRatchet) : Nat := if d.next = .sender then d.i.toNat else d.i.toNat - 1

/-- The double ratchet follows the schedule. -/
structure Sched (E : Env) (k : Bytes) (ks : List Bytes) (d : DoubleRatchet) : Prop where
  len : ks.length = d.i.toNat + 1
  sizes : ∀ s ∈ ks, s.length = 64
  root : d.root = rootKey E k ks
  send : d.next = .receiver → d.sender.chain = chainKey E k ks d.i.toNat d.sender.id.toNat
  recv : d.next = .sender ∨ 0 < d.i.toNat → d.receiver.chain = chainKey E k ks (recvNo d) d.receiver.id.toNat
  old : d.next = .sender → 0 < d.i.toNat → d.sender.chain = chainKey E k ks (d.i.toNat - 1) d.sender.id.toNat
  blank : d.i.toNat = 0 → (d.next = .receiver → d.receiver.chain = List.replicate 64 0) ∧ (d.next = .sender → d.sender.chain = List.replicate 64 0)
  last : ks.getLast? = some d.shared.k

/-- The keys at these positions are not used again. -/
def Spent (ps : List (Nat × Nat)) (d : DoubleRatchet) : Prop :=
  ∀ p ∈ ps, p.1 ≤ d.i.toNat ∧ (d.next = .receiver → p.1 = d.i.toNat → p.2 < d.sender.id.toNat) ∧
    (d.next = .sender ∨ 0 < d.i.toNat → p.1 = recvNo d → p.2 < d.receiver.id.toNat) ∧
    (d.next = .sender → 0 < d.i.toNat → p.1 = d.i.toNat - 1 → p.2 < d.sender.id.toNat)

theorem mixed_size {ecdh : ECDHKeyPair} {dh : DH.Keypair} {pe : Point} {pd : Nat} {third : Bool} {prev : Bytes} {s : Mixed}
    (h : Mixed.next E ecdh dh pe pd third prev = .ok s) : s.k.length = 64 := by
  rw [(Mixed.next_ok h).2.2.2.2]
  exact kdf2_length ..

theorem Sched.sendRotated {ks : List Bytes} {ps : List (Nat × Nat)} {d d' : DoubleRatchet} (I : Sched E k ks d) (hs : Spent ps d) {r : Rand} {now : Nat}
    (h : d.rotateSender E r now = .ok d') : Sched E k (ks ++ [d'.shared.k]) d' ∧ Spent ps d' := by
  obtain ⟨h1, ⟨_, h2, _⟩, h3, h4, h5, h6, h7, _, _⟩ := DoubleRatchet.rotateSender_ok h
  have rn : recvNo d' = recvNo d := by simp only [recvNo, h1, h6, reduceCtorEq, if_false, if_true]; omega
  have rn' : recvNo d = d.i.toNat := by simp only [recvNo, h1, if_true]
  have h0 : (0 : UInt32).toNat = 0 := rfl
  refine ⟨⟨?_, ?_, ?_, ?_, ?_, (fun e => by rw [h6] at e; cases e), (fun e => by omega), List.getLast?_concat⟩, ?_⟩
  · rw [List.length_append, I.len, h7]; rfl
  · intro s hm
    rcases List.mem_append.mp hm with hm | hm
    · exact I.sizes s hm
    · rw [List.mem_singleton.mp hm]; exact mixed_size h2
  · rw [h3, I.root, rootKey_snoc]
  · intro _
    rw [h4, h7]
    show _ = chainKey E k _ _ 0
    rw [chainKey_new I.len.symm, I.root]
  · intro _
    rw [rn, h5, chainKey_append (by rw [rn', I.len]; omega)]
    exact I.recv (.inl h1)
  · intro p hp
    obtain ⟨a1, a2, a3, _⟩ := hs p hp
    refine ⟨by omega, fun _ e => by omega, fun _ e => ?_, fun e => by rw [h6] at e; cases e⟩
    rw [h5]
    exact a3 (.inl h1) (by rw [e, rn])

theorem Sched.recvRotated {ks : List Bytes} {ps : List (Nat × Nat)} {d d' : DoubleRatchet} (I : Sched E k ks d) (hs : Spent ps d) {pe : Point} {pd now : Nat}
    (h : d.rotateReceiver E pe pd now = .ok d') : Sched E k (ks ++ [d'.shared.k]) d' ∧ Spent ps d' := by
  obtain ⟨h1, _, _, h2, h3, h4, h5, h6, h7, _, _⟩ := DoubleRatchet.rotateReceiver_ok h
  have rn : recvNo d' = d.i.toNat + 1 := by simp only [recvNo, h6, if_true]; omega
  have en : d'.i.toNat - 1 = d.i.toNat := by omega
  refine ⟨⟨?_, ?_, ?_, ?_, ?_, (fun _ _ => ?_), (fun e => by omega), List.getLast?_concat⟩, ?_⟩
  · rw [List.length_append, I.len, h7]; rfl
  · intro s hm
    rcases List.mem_append.mp hm with hm | hm
    · exact I.sizes s hm
    · rw [List.mem_singleton.mp hm]; exact mixed_size h2
  · rw [h3, I.root, rootKey_snoc]
  · intro e
    rw [h6] at e
    cases e
  · intro _
    rw [rn, h4]
    show _ = chainKey E k _ _ 0
    rw [chainKey_new I.len.symm, I.root]
  · rw [en, h5, chainKey_append (by rw [I.len]; omega)]
    exact I.send h1
  · intro p hp
    obtain ⟨a1, a2, _⟩ := hs p hp
    refine ⟨by omega, fun e => ?_, fun _ e => by omega, fun _ _ e => ?_⟩
    · rw [h6] at e
      cases e
    · rw [h5]
      exact a2 h1 (by omega)

theorem Sched.reveals {ks : List Bytes} {d : DoubleRatchet} (I : Sched E k ks d) (x : Bytes) : Sched E k ks { d with reveals := x } :=
  ⟨I.len, I.sizes, I.root, I.send, I.recv, I.old, I.blank, I.last⟩

/-- Sending uses new keys. -/
theorem Sched.encrypt_key {ks : List Bytes} {ps : List (Nat × Nat)} {d d' : DoubleRatchet} (I : Sched E k ks d) (hs : Spent ps d) {our their : UInt32}
    {flags : UInt8} {content reveals : Bytes} {r : Rand} {now : Nat} {m : DataMessage4}
    (h : encrypt4 E our their flags content reveals r now d = .ok (m, d')) :
    ∃ ext p, Sched E k (ks ++ ext) d' ∧ Spent (ps ++ [p]) d' ∧ p ∉ ps ∧ p.1 < (ks ++ ext).length ∧
      m.i.toNat = p.1 - 1 ∧ m.j.toNat = p.2 ∧ m.encrypted = chachaCrypt E ((messageKey E k (ks ++ ext) p).take 32) content ∧
      m.authenticator = kdf2 E 64 0x18 (macKey E k (ks ++ ext) p) (authenticatorData4 4 our their m) ∧
      ∃ rv d1 keys, ratchetForSend E d reveals r now = .ok (rv, d1) ∧ d1.sender.keys E = .ok keys ∧
        encKey keys.enc = (messageKey E k (ks ++ ext) p).take 32 := by
  obtain ⟨rv, d1, keys, h1, h2, h3, _, h5⟩ := encrypt4_ok h
  obtain ⟨h6, h7, h8, h9, h10⟩ := DoubleRatchet.rotateSenderChain_ok h5
  obtain ⟨_, k1, k2⟩ := Ratchet.keys_ok h2
  obtain ⟨ext, J, hs1⟩ : ∃ ext, Sched E k (ks ++ ext) d1 ∧ Spent ps d1 := by
    rcases ratchetForSend_ok h1 with ⟨n1, _, n3⟩ | ⟨_, _, n3⟩
    · exact ⟨_, (I.reveals []).sendRotated hs n3⟩
    · subst n3
      exact ⟨[], by rw [List.append_nil]; exact I, hs⟩
  have hc := J.send h6
  have ei : d'.i = d1.i := by rw [h7]
  have en : d'.next = d1.next := by rw [h7]
  have er : d'.receiver = d1.receiver := by rw [h7]
  have ern : recvNo d' = recvNo d1 := by simp only [recvNo, ei, en]
  have hrn : 0 < d1.i.toNat → recvNo d1 ≠ d1.i.toNat := by
    intro h0
    simp only [recvNo, h6, reduceCtorEq, if_false]
    omega
  refine ⟨ext, (d1.i.toNat, d1.sender.id.toNat), ⟨?_, J.sizes, ?_, ?_, ?_, (fun e => by rw [en, h6] at e; cases e),
    (fun e => ⟨fun _ => by rw [er]; exact (J.blank (by rw [← ei]; exact e)).1 h6, fun e' => by rw [en, h6] at e'; cases e'⟩),
    (by rw [h7]; exact J.last)⟩, ?_, ?_, ?_, ?_, ?_, ?_, ?_, rv, d1, keys, h1, h2, ?_⟩
  · rw [ei]; exact J.len
  · rw [h7]; exact J.root
  · intro _
    rw [h8, ei, h9, hc]
    rfl
  · intro e
    rw [ern, er]
    exact J.recv (by rw [ei, en] at e; exact e)
  · intro p hp
    rcases List.mem_append.mp hp with hp | hp
    · obtain ⟨a1, a2, a3, _⟩ := hs1 p hp
      rw [ei, en, er, ern, h9]
      exact ⟨a1, fun e f => Nat.lt_succ_of_lt (a2 e f), a3, fun e => by rw [h6] at e; cases e⟩
    · rw [List.mem_singleton.mp hp]
      refine ⟨by rw [ei], fun _ _ => by rw [h9]; exact Nat.lt_succ_self _, fun e f => ?_, fun e => by rw [en, h6] at e; cases e⟩
      rw [ern] at f
      rw [ei, en, h6] at e
      exact absurd f.symm (hrn (by simpa using e))
  · intro hp
    exact absurd ((hs1 _ hp).2.1 h6 rfl) (Nat.lt_irrefl _)
  · rw [J.len]; exact Nat.lt_succ_self _
  · rw [h3]; exact predSat_toNat _
  · rw [h3]; rfl
  · rw [h3]
    show chachaCrypt E (encKey keys.enc) content = _
    rw [k1, hc]
    rfl
  · rw [h3]
    show kdf2 E 64 0x18 keys.mac _ = _
    rw [k2, hc]
    rfl
  · rw [k1, hc]; rfl

theorem Sched.encrypt {ks : List Bytes} {ps : List (Nat × Nat)} {d d' : DoubleRatchet} (I : Sched E k ks d) (hs : Spent ps d) {our their : UInt32}
    {flags : UInt8} {content reveals : Bytes} {r : Rand} {now : Nat} {m : DataMessage4}
    (h : encrypt4 E our their flags content reveals r now d = .ok (m, d')) :
    ∃ ext p, Sched E k (ks ++ ext) d' ∧ Spent (ps ++ [p]) d' ∧ p ∉ ps ∧ p.1 < (ks ++ ext).length ∧
      m.i.toNat = p.1 - 1 ∧ m.j.toNat = p.2 ∧ m.encrypted = chachaCrypt E ((messageKey E k (ks ++ ext) p).take 32) content ∧
      m.authenticator = kdf2 E 64 0x18 (macKey E k (ks ++ ext) p) (authenticatorData4 4 our their m) := by
  obtain ⟨ext, p, h1, h2, h3, h4, h5, h6, h7, h8, _⟩ := I.encrypt_key hs h
  exact ⟨ext, p, h1, h2, h3, h4, h5, h6, h7, h8⟩

/-- Accepting uses new keys. -/
theorem Sched.decrypt_key {ks : List Bytes} {ps : List (Nat × Nat)} {d d' : DoubleRatchet} (I : Sched E k ks d) (hs : Spent ps d) {m : DataMessage4}
    {ad plain : Bytes} {now : Nat} (h : decrypt4 E m ad now d = .ok (plain, d')) :
    ∃ ext p, Sched E k (ks ++ ext) d' ∧ Spent (ps ++ [p]) d' ∧ p ∉ ps ∧ p.1 < (ks ++ ext).length ∧
      m.j.toNat = p.2 ∧ plain = chachaCrypt E ((messageKey E k (ks ++ ext) p).take 32) m.encrypted ∧
      m.authenticator = kdf2 E 64 0x18 (macKey E k (ks ++ ext) p) ad ∧ d'.reveals = d.reveals ++ macKey E k (ks ++ ext) p ∧
      ∃ s keys, speculate4 E m now d = .ok s ∧
        (⟨chainFwd E (m.j.toNat - s.receiver.id.toNat) s.receiver.chain, m.j⟩ : Ratchet).keys E = .ok keys ∧
        encKey keys.enc = (messageKey E k (ks ++ ext) p).take 32 := by
  obtain ⟨s, keys, h1, h2, h3, h4, _, h6, h7, h8⟩ := decrypt4_ok h
  obtain ⟨_, k1, k2⟩ := Ratchet.keys_ok h3
  obtain ⟨ext, J, hs1, act, hrev⟩ : ∃ ext, Sched E k (ks ++ ext) s ∧ Spent ps s ∧ (s.next = .sender ∨ 0 < s.i.toNat) ∧ s.reveals = d.reveals := by
    rcases speculate4_ok h1 with ⟨_, _, _, _, s3⟩ | ⟨s1, _, s3⟩
    · obtain ⟨_, _, _, _, _, _, _, r3, _, _, r5⟩ := DoubleRatchet.rotateReceiver_ok s3
      obtain ⟨J, hs1⟩ := I.recvRotated hs s3
      exact ⟨_, J, hs1, .inl r3, r5⟩
    · subst s3
      exact ⟨[], by rw [List.append_nil]; exact I, hs, .inr (by omega), rfl⟩
  have hc := J.recv act
  have hj := (incId_of_lt h7).2
  have ei : d'.i = s.i := by rw [h8]
  have en : d'.next = s.next := by rw [h8]
  have es : d'.sender = s.sender := by rw [h8]
  have ern : recvNo d' = recvNo s := by simp only [recvNo, ei, en]
  have er : d'.receiver = ⟨chainFwd E (m.j.toNat - s.receiver.id.toNat + 1) s.receiver.chain, m.j + 1⟩ := by rw [h8]
  have hle : recvNo s ≤ s.i.toNat := by simp only [recvNo]; split <;> omega
  simp only at k1 k2
  rw [hc, chainFwd_key, Nat.add_sub_cancel' h2] at k1 k2
  refine ⟨ext, (recvNo s, m.j.toNat), ⟨?_, J.sizes, ?_, ?_, ?_, (fun e f => by rw [es, ei]; exact J.old (en ▸ e) (ei ▸ f)),
    (fun e => ⟨fun e' => ?_, fun e' => by rw [es]; exact (J.blank (by rw [← ei]; exact e)).2 (en ▸ e')⟩),
    (by rw [h8]; exact J.last)⟩, ?_, ?_, ?_, rfl, ?_, ?_, ?_, s, keys, h1, h3, ?_⟩
  · rw [ei]; exact J.len
  · rw [h8]; exact J.root
  · intro e
    rw [es, ei]
    exact J.send (by rw [en] at e; exact e)
  · intro _
    rw [ern, er]
    simp only
    rw [hj, hc, chainFwd_key, ← Nat.add_assoc, Nat.add_sub_cancel' h2]
  · rw [en] at e'
    rw [ei] at e
    rw [e'] at act
    exact absurd act (by simp [e])
  · intro p hp
    rw [ei, en, es, ern, er]
    simp only
    rw [hj]
    rcases List.mem_append.mp hp with hp | hp
    · obtain ⟨a1, a2, a3, a4⟩ := hs1 p hp
      exact ⟨a1, a2, (fun e f => by have := a3 e f; omega), a4⟩
    · rw [List.mem_singleton.mp hp]
      refine ⟨hle, fun e f => ?_, (fun _ _ => Nat.lt_succ_self _), fun e f g => by
        simp only [recvNo, e, if_true] at g; omega⟩
      exfalso
      rw [e] at act
      have : 0 < s.i.toNat := by simpa using act
      simp only [recvNo, e, reduceCtorEq, if_false] at f
      omega
  · intro hp
    have := (hs1 _ hp).2.2.1 act rfl
    simp only at this
    omega
  · rw [J.len]; exact Nat.lt_succ_of_le hle
  · rw [h6, k1]; rfl
  · rw [← h4, k2]; rfl
  · rw [h8]
    simp only
    rw [hrev, k2]
    rfl
  · rw [k1]; rfl

theorem Sched.decrypt {ks : List Bytes} {ps : List (Nat × Nat)} {d d' : DoubleRatchet} (I : Sched E k ks d) (hs : Spent ps d) {m : DataMessage4}
    {ad plain : Bytes} {now : Nat} (h : decrypt4 E m ad now d = .ok (plain, d')) :
    ∃ ext p, Sched E k (ks ++ ext) d' ∧ Spent (ps ++ [p]) d' ∧ p ∉ ps ∧ p.1 < (ks ++ ext).length ∧
      m.j.toNat = p.2 ∧ plain = chachaCrypt E ((messageKey E k (ks ++ ext) p).take 32) m.encrypted ∧
      m.authenticator = kdf2 E 64 0x18 (macKey E k (ks ++ ext) p) ad ∧ d'.reveals = d.reveals ++ macKey E k (ks ++ ext) p := by
  obtain ⟨ext, p, h1, h2, h3, h4, h5, h6, h7, h8, _⟩ := I.decrypt_key hs h
  exact ⟨ext, p, h1, h2, h3, h4, h5, h6, h7, h8⟩

theorem sched_fresh {s : Enc4} (h : FreshFrom E k s) : ∃ ks, Sched E k ks s.ratchet ∧ Spent [] s.ratchet := by
  obtain ⟨_, _, _, _, shared, now, h0, h⟩ := h
  have hk := mixed_size h0
  have hr : kdf E 64 0x0b k = rootKey E k [] := rfl
  rcases h with h | ⟨rnd, now', h⟩
  · refine ⟨[shared.k], ?_, fun p hp => by cases hp⟩
    rw [h]
    refine ⟨rfl, fun s hs => by rw [List.mem_singleton.mp hs]; exact hk, ?_, fun _ => ?_, fun e => ?_, (fun e => by cases e),
      (fun _ => ⟨(fun _ => rfl), fun e => by cases e⟩), rfl⟩
    · simp only [DoubleRatchet.init]
      rw [hr, ← rootKey_snoc]
      rfl
    · simp only [DoubleRatchet.init]
      rw [hr]
      exact (chainKey_new (ks := []) rfl).symm
    · rcases e with e | e
      · cases e
      · exact absurd e (by show ¬ 0 < (0 : UInt32).toNat; decide)
  · have I : Sched E k [shared.k] (DoubleRatchet.init E .receiver shared (kdf E 64 0x0b k) now) := by
      refine ⟨rfl, fun s hs => by rw [List.mem_singleton.mp hs]; exact hk, ?_, (fun e => by cases e), fun _ => ?_,
        (fun _ e => absurd e (by show ¬ 0 < (0 : UInt32).toNat; decide)), (fun _ => ⟨(fun e => by cases e), fun _ => rfl⟩), rfl⟩
      · simp only [DoubleRatchet.init]
        rw [hr, ← rootKey_snoc]
        rfl
      · simp only [DoubleRatchet.init]
        rw [hr]
        exact (chainKey_new (ks := []) rfl).symm
    exact ⟨_, I.sendRotated (ps := []) (fun p hp => by cases hp) h⟩

/-! ## Histories -/

theorem KeyedAt.append {s₀ : Enc4} {ks ext : List Bytes} {u : Use4} {p : Nat × Nat} (h : p.1 < ks.length) (hk : KeyedAt E k ks s₀ u p) :
    KeyedAt E k (ks ++ ext) s₀ u p := by
  cases u with
  | sent m plain => simpa only [KeyedAt, messageKey_append h, macKey_append h] using hk
  | read m ad r => simpa only [KeyedAt, messageKey_append h, macKey_append h] using hk

theorem keyed_append {s₀ : Enc4} {ks : List Bytes} {us : List Use4} {ps : List (Nat × Nat)} (ext : List Bytes)
    (h : List.Forall₂ (KeyedAt E k ks s₀) us ps) (hp : ∀ p ∈ ps, p.1 < ks.length) : List.Forall₂ (KeyedAt E k (ks ++ ext) s₀) us ps := by
  induction h with
  | nil => exact .nil
  | cons a _ ih => exact .cons (KeyedAt.append (hp _ List.mem_cons_self) a) (ih fun p h => hp p (List.mem_cons_of_mem _ h))

theorem readAt_snoc {us : List Use4} {ps : List (Nat × Nat)} {u : Use4} {p : Nat × Nat} (h : us.length = ps.length) :
    readAt (us ++ [u]) (ps ++ [p]) = readAt us ps ++ readAt [u] [p] := by
  unfold readAt
  rw [List.zip_append h, List.filterMap_append]

theorem readAt_sub : ∀ {us : List Use4} {ps : List (Nat × Nat)}, (readAt us ps).Sublist ps
  | [], ps => by simp [readAt]
  | _ :: _, [] => by simp [readAt]
  | .sent _ _ :: us, p :: ps => by
    have : readAt (.sent ‹_› ‹_› :: us) (p :: ps) = readAt us ps := rfl
    rw [this]
    exact .cons _ readAt_sub
  | .read m ad r :: us, p :: ps => by
    have : readAt (.read m ad r :: us) (p :: ps) = p :: readAt us ps := rfl
    rw [this]
    exact .cons_cons _ readAt_sub

/-- What is known of a session that did these things. -/
structure Logged (E : Env) (k : Bytes) (s₀ : Enc4) (us : List Use4) (s : Enc4) (ks : List Bytes) (ps : List (Nat × Nat)) : Prop where
  tags : s.our = s₀.our ∧ s.their = s₀.their
  sched : Sched E k ks s.ratchet
  spent : Spent ps s.ratchet
  distinct : ps.Nodup
  bound : ∀ p ∈ ps, p.1 < ks.length
  keyed : List.Forall₂ (KeyedAt E k ks s₀) us ps
  reveals : revealedBy us ++ s.ratchet.reveals = ((readAt us ps).map (macKey E k ks)).flatten

theorem map_macKey_append {ks ext : List Bytes} {ps : List (Nat × Nat)} (h : ∀ p ∈ ps, p.1 < ks.length) :
    ps.map (macKey E k (ks ++ ext)) = ps.map (macKey E k ks) :=
  List.map_congr_left fun p hp => macKey_append (h p hp)

theorem nodup_snoc {α : Type} {l : List α} {x : α} (h : l.Nodup) (hx : x ∉ l) : (l ++ [x]).Nodup := by
  rw [List.nodup_append]
  exact ⟨h, by simp, fun a ha b hb e => hx (by rw [← List.mem_singleton.mp hb, ← e]; exact ha)⟩

theorem Logged.bound_snoc {s₀ s : Enc4} {us : List Use4} {ks ext : List Bytes} {ps : List (Nat × Nat)} (L : Logged E k s₀ us s ks ps) {p : Nat × Nat}
    (hp : p.1 < (ks ++ ext).length) : ∀ q ∈ ps ++ [p], q.1 < (ks ++ ext).length := by
  intro q hq
  rcases List.mem_append.mp hq with h | h
  · exact Nat.lt_of_lt_of_le (L.bound q h) (by simp)
  · rw [List.mem_singleton.mp h]; exact hp

theorem Logged.sent {s₀ s s' : Enc4} {us : List Use4} {ks : List Bytes} {ps : List (Nat × Nat)} (L : Logged E k s₀ us s ks ps)
    {flags : UInt8} {content reveals : Bytes} {d : DoubleRatchet} {r : Rand} {now : Nat} {m : DataMessage4}
    (h : encrypt4 E s.our s.their flags content reveals r now d = .ok (m, s'.ratchet)) (hs : s' = { s with ratchet := s'.ratchet })
    (hd : d = { s.ratchet with reveals := d.reveals }) (hr : reveals ++ d.reveals = s.ratchet.reveals) :
    ∃ ext p, Logged E k s₀ (us ++ [.sent m content]) s' (ks ++ ext) (ps ++ [p]) ∧
      ∃ rv d1 keys, ratchetForSend E d reveals r now = .ok (rv, d1) ∧ d1.sender.keys E = .ok keys ∧
        encKey keys.enc = (messageKey E k (ks ++ ext) p).take 32 := by
  have I : Sched E k ks d := by rw [hd]; exact L.sched.reveals _
  have S : Spent ps d := by rw [hd]; exact L.spent
  obtain ⟨ext, p, h1, h2, h3, h4, h5, h6, h7, h8, hk⟩ := I.encrypt_key S h
  obtain ⟨_, _, _, _, _, _, h9, _⟩ := encrypt4_step h
  refine ⟨ext, p, ⟨by rw [hs]; exact L.tags, h1, h2, nodup_snoc L.distinct h3, L.bound_snoc h4, ?_, ?_⟩, hk⟩
  · refine forall2_snoc (keyed_append ext L.keyed L.bound) ⟨h5, h6, h7, ?_⟩
    rw [← L.tags.1, ← L.tags.2]
    exact h8
  · rw [readAt_snoc L.keyed.length_eq]
    have e1 : readAt [.sent m content] [p] = [] := rfl
    have e2 : revealedBy (us ++ [.sent m content]) = revealedBy us ++ m.revealed := by simp [revealedBy]
    rw [e1, List.append_nil, map_macKey_append fun p hp => L.bound p (readAt_sub.subset hp), ← L.reveals, e2, List.append_assoc, h9, hr]

theorem Logged.read {s₀ s s' : Enc4} {us : List Use4} {ks : List Bytes} {ps : List (Nat × Nat)} (L : Logged E k s₀ us s ks ps)
    {m : DataMessage4} {ad : Bytes} {now : Nat} {r : Res (PMessage × Bool)} (he : Enc4.handle E m ad now s = (r, s')) (hnp : r ≠ .panic)
    (hnu : ∀ t, r ≠ .err (.unreadableMessage t)) : ∃ ext p, Logged E k s₀ (us ++ [.read m ad r]) s' (ks ++ ext) (ps ++ [p]) ∧
      ∃ x keys, speculate4 E m now s.ratchet = .ok x ∧
        (⟨chainFwd E (m.j.toNat - x.receiver.id.toNat) x.receiver.chain, m.j⟩ : Ratchet).keys E = .ok keys ∧
        encKey keys.enc = (messageKey E k (ks ++ ext) p).take 32 := by
  rcases handle4_cases he hnp with ⟨h1, _, _⟩ | ⟨plain, d', h1, h2, h3⟩
  · exact absurd h1 (hnu _)
  have hd : s'.ratchet = d' := by rw [h2]
  rw [← hd] at h1
  obtain ⟨ext, p, a1, a2, a3, a4, a5, a6, a7, a8, hk⟩ := L.sched.decrypt_key L.spent h1
  refine ⟨ext, p, ⟨by rw [h2]; exact L.tags, a1, a2, nodup_snoc L.distinct a3, L.bound_snoc a4, ?_, ?_⟩, hk⟩
  · refine forall2_snoc (keyed_append ext L.keyed L.bound) ⟨a5, a7, ?_⟩
    rw [← a6]
    cases hp : parseMessage plain with
    | ok q => rw [hp] at h3; cases q <;> exact h3
    | err e => rw [hp] at h3; exact h3
    | panic => rw [hp] at h3; exact hnp h3
  · rw [readAt_snoc L.keyed.length_eq]
    have e1 : readAt [.read m ad r] [p] = [p] := rfl
    have e2 : revealedBy (us ++ [.read m ad r]) = revealedBy us := by simp [revealedBy]
    rw [e1, List.map_append, List.flatten_append, map_macKey_append fun p hp => L.bound p (readAt_sub.subset hp), ← L.reveals, e2, a8]
    simp

/-- A message that is reported as unreadable changes nothing. -/
theorem refused_same {s s' : Enc4} {m : DataMessage4} {ad : Bytes} {now : Nat} {t : UInt32}
    (he : Enc4.handle E m ad now s = (.err (.unreadableMessage t), s')) : s' = s := by
  rcases handle4_cases he (by simp) with ⟨_, h, _⟩ | ⟨plain, d', _, _, h3⟩
  · exact h
  · exfalso
    cases hp : parseMessage plain with
    | ok p => rw [hp] at h3; cases h3
    | panic => rw [hp] at h3; cases h3
    | err e =>
      rw [hp] at h3
      simp only [Res.bind, Res.err.injEq] at h3
      exact parse_ne_unreadable (h3 ▸ hp)

theorem logged {s₀ s : Enc4} {us : List Use4} (hf : FreshFrom E k s₀) (hl : Log4 E s₀ us s) : ∃ ks ps, Logged E k s₀ us s ks ps := by
  induction hl with
  | start =>
    obtain ⟨ks, h1, h2⟩ := sched_fresh hf
    refine ⟨ks, [], ⟨rfl, rfl⟩, h1, h2, .nil, fun p hp => (by cases hp), .nil, ?_⟩
    rw [(fresh4_zero ⟨k, hf⟩).2]
    rfl
  | send _ he ih =>
    obtain ⟨ks, ps, L⟩ := ih
    obtain ⟨h1, h2⟩ := encrypt4_enc he
    obtain ⟨_, _, h, _⟩ := L.sent h1 h2 rfl rfl
    exact ⟨_, _, h⟩
  | bye _ he ih =>
    obtain ⟨ks, ps, L⟩ := ih
    obtain ⟨h1, h2⟩ := disconnect4_enc he
    obtain ⟨_, _, h, _⟩ := L.sent h1 h2 rfl (List.append_nil _)
    exact ⟨_, _, h⟩
  | refuse _ he ih => rw [refused_same he]; exact ih
  | accept _ he hnp hnu ih =>
    obtain ⟨ks, ps, L⟩ := ih
    obtain ⟨_, _, h, _⟩ := L.read he hnp hnu
    exact ⟨_, _, h⟩

/-- Every life of a session can be told in this way. -/
theorem log_of_life {s₀ s : Enc4} {h : List Ev4} (hl : Life4 E s₀ h s) :
    ∃ us, Log4 E s₀ us s ∧ accepted4 h = us.filterMap readOf ∧ sent4 h = us.filterMap sentOf := by
  induction hl with
  | start => exact ⟨[], .start, rfl, rfl⟩
  | @send h s s' flags plain rnd now m _ he ih =>
    obtain ⟨us, h1, h2, h3⟩ := ih
    refine ⟨_, .send h1 he, ?_, ?_⟩
    · rw [accepted4_snoc, List.filterMap_append, h2]; rfl
    · rw [sent4_snoc, List.filterMap_append, h3]; rfl
  | bye _ he ih =>
    obtain ⟨us, h1, h2, h3⟩ := ih
    refine ⟨_, .bye h1 he, ?_, ?_⟩
    · rw [accepted4_snoc, List.filterMap_append, h2]; rfl
    · rw [sent4_snoc, List.filterMap_append, h3]; rfl
  | @recv h s s' m ad now r _ he hp ih =>
    obtain ⟨us, h1, h2, h3⟩ := ih
    by_cases hu : ∃ t, r = .err (.unreadableMessage t)
    · obtain ⟨t, rfl⟩ := hu
      refine ⟨us, .refuse h1 he, ?_, ?_⟩
      · rw [accepted4_snoc, h2]; simp [accepted4]
      · rw [sent4_snoc, h3]; simp [sent4]
    · refine ⟨_, .accept h1 he hp fun t ht => hu ⟨t, ht⟩, ?_, ?_⟩
      · rw [accepted4_snoc, List.filterMap_append, h2]
        have : accepted4 [.got m ad r] = [(m, ad)] := by
          cases r with
          | ok _ => rfl
          | panic => rfl
          | err e => cases e <;> first | rfl | exact absurd ⟨_, rfl⟩ hu
        rw [this]; rfl
      · rw [sent4_snoc, List.filterMap_append, h3]; rfl

/-! ## Distinct keys -/

theorem kdfInput_inj {u v : UInt8} {d e : Bytes} (h : kdfInput u d = kdfInput v e) : u = v ∧ d = e := by
  simpa [kdfInput] using h

variable {ks : List Bytes} {J : Nat}

theorem hashed_first : kdfInput 0x0b k ∈ hashed E k ks J := List.mem_cons_self

theorem hashed_at {n : Nat} (h : n < ks.length) {x : Bytes}
    (hx : x ∈ (let d := rootKey E k (ks.take n) ++ ks.getD n []
      kdfInput 0x12 d :: kdfInput 0x13 d :: (List.range (J + 1)).flatMap fun j =>
        [kdfInput 0x14 (chainKey E k ks n j), kdfInput 0x15 (chainKey E k ks n j), kdfInput 0x16 (messageKey E k ks (n, j))])) :
    x ∈ hashed E k ks J :=
  List.mem_cons_of_mem _ (List.mem_flatMap.mpr ⟨n, List.mem_range.mpr h, hx⟩)

theorem hashed_root {n : Nat} (h : n < ks.length) : kdfInput 0x12 (rootKey E k (ks.take n) ++ ks.getD n []) ∈ hashed E k ks J :=
  hashed_at h List.mem_cons_self

theorem hashed_chain {n : Nat} (h : n < ks.length) : kdfInput 0x13 (rootKey E k (ks.take n) ++ ks.getD n []) ∈ hashed E k ks J :=
  hashed_at h (List.mem_cons_of_mem _ List.mem_cons_self)

theorem hashed_msg {n j : Nat} (h : n < ks.length) (hj : j ≤ J) {x : Bytes}
    (hx : x ∈ [kdfInput 0x14 (chainKey E k ks n j), kdfInput 0x15 (chainKey E k ks n j), kdfInput 0x16 (messageKey E k ks (n, j))]) :
    x ∈ hashed E k ks J :=
  hashed_at h (List.mem_cons_of_mem _ (List.mem_cons_of_mem _ (List.mem_flatMap.mpr ⟨j, List.mem_range.mpr (by omega), hx⟩)))

theorem Spec.NoCollision.of_eq {xs : List Bytes} (hn : NoCollision E xs) {x y : Bytes} (hx : x ∈ xs) (hy : y ∈ xs) (h : E.shake 64 x = E.shake 64 y) :
    x = y := hn x hx y hy (by rw [h])

/-- The root key after `n` secrets. -/
theorem rootKey_take {n : Nat} (h : n < ks.length) :
    rootKey E k (ks.take (n + 1)) = E.shake 64 (kdfInput 0x12 (rootKey E k (ks.take n) ++ ks.getD n [])) := by
  rw [List.take_succ_eq_append_getElem h, rootKey_snoc, kdf2_input]
  have : ks.getD n [] = ks[n] := by simp [List.getD, h]
  rw [this]

theorem rootKey_inj (hn : NoCollision E (hashed E k ks J)) : ∀ {n m : Nat}, n ≤ ks.length → m ≤ ks.length →
    rootKey E k (ks.take n) = rootKey E k (ks.take m) → n = m
  | 0, 0, _, _, _ => rfl
  | 0, m + 1, _, h, e => by
    rw [rootKey_take (by omega)] at e
    have := kdfInput_inj (hn.of_eq hashed_first (hashed_root (by omega)) e)
    exact absurd this.1 (by decide)
  | n + 1, 0, h, _, e => by
    rw [rootKey_take (by omega)] at e
    have := kdfInput_inj (hn.of_eq (hashed_root (by omega)) hashed_first e)
    exact absurd this.1 (by decide)
  | n + 1, m + 1, h, h', e => by
    rw [rootKey_take (by omega), rootKey_take (by omega)] at e
    have := (kdfInput_inj (hn.of_eq (hashed_root (by omega)) (hashed_root (by omega)) e)).2
    have := (List.append_inj this (by rw [rootKey_length, rootKey_length])).1
    rw [rootKey_inj hn (by omega) (by omega) this]

theorem chainKey_inj (hn : NoCollision E (hashed E k ks J)) {n m : Nat} (h : n < ks.length) (h' : m < ks.length) :
    ∀ {i j : Nat}, i ≤ J → j ≤ J → chainKey E k ks n i = chainKey E k ks m j → n = m ∧ i = j
  | 0, 0, _, _, e => by
    unfold chainKey at e
    have := (kdfInput_inj (hn.of_eq (hashed_chain h) (hashed_chain h') e)).2
    have := (List.append_inj this (by rw [rootKey_length, rootKey_length])).1
    exact ⟨rootKey_inj hn (by omega) (by omega) this, rfl⟩
  | 0, j + 1, _, hj, e => by
    unfold chainKey at e
    have := kdfInput_inj (hn.of_eq (hashed_chain h) (hashed_msg h' (j := j) (by omega) List.mem_cons_self) e)
    exact absurd this.1 (by decide)
  | i + 1, 0, hi, _, e => by
    unfold chainKey at e
    have := kdfInput_inj (hn.of_eq (hashed_msg h (j := i) (by omega) List.mem_cons_self) (hashed_chain h') e)
    exact absurd this.1 (by decide)
  | i + 1, j + 1, hi, hj, e => by
    unfold chainKey at e
    have := (kdfInput_inj (hn.of_eq (hashed_msg h (j := i) (by omega) List.mem_cons_self)
      (hashed_msg h' (j := j) (by omega) List.mem_cons_self) e)).2
    obtain ⟨h1, h2⟩ := chainKey_inj hn h h' (by omega) (by omega) this
    exact ⟨h1, by rw [h2]⟩

/-- Keys at different positions differ, even the part that is used for encryption. -/
theorem messageKey_inj (hn : NoCollision E (hashed E k ks J)) {p q : Nat × Nat} (hp : p.1 < ks.length ∧ p.2 ≤ J) (hq : q.1 < ks.length ∧ q.2 ≤ J)
    (h : (messageKey E k ks p).take 32 = (messageKey E k ks q).take 32) : p = q := by
  have := (kdfInput_inj (hn _ (hashed_msg hp.1 hp.2 (List.mem_cons_of_mem _ List.mem_cons_self)) _
    (hashed_msg hq.1 hq.2 (List.mem_cons_of_mem _ List.mem_cons_self)) h)).2
  obtain ⟨h1, h2⟩ := chainKey_inj hn hp.1 hq.1 hp.2 hq.2 this
  exact Prod.ext h1 h2

theorem macKey_inj (hn : NoCollision E (hashed E k ks J)) {p q : Nat × Nat} (hp : p.1 < ks.length ∧ p.2 ≤ J) (hq : q.1 < ks.length ∧ q.2 ≤ J)
    (h : macKey E k ks p = macKey E k ks q) : p = q := by
  have := (kdfInput_inj (hn.of_eq (hashed_msg hp.1 hp.2 (List.mem_cons_of_mem _ (List.mem_cons_of_mem _ List.mem_cons_self)))
    (hashed_msg hq.1 hq.2 (List.mem_cons_of_mem _ (List.mem_cons_of_mem _ List.mem_cons_self))) h)).2
  exact messageKey_inj hn hp hq (by rw [this])

end Otrr
