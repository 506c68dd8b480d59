import Verif.Spec.Healing
import Verif.Props.ForwardSecrecy
/-! C106: an OTRv4 session recovers from a theft of its keys. -/

namespace Otrr.Props
open Otrr Otrr.Spec

theorem encrypt_renews {E : Env} {our their : UInt32} {flags : UInt8} {content reveals : Bytes} {r : Rand} {now : Nat} {d d' : DoubleRatchet}
    {m : DataMessage4} (h : encrypt4 E our their flags content reveals r now d = .ok (m, d')) :
    (d.next = .sender ∧ d'.i.toNat = d.i.toNat + 1 ∧ d'.next = .receiver ∧ ∃ theirs brace,
      d'.shared.k = kdf2 E 64 0x03 ((ECDHKeyPair.generate E (r.bytes [1] 57)).sharedSecret E theirs).encode brace) ∨
    (d.next = .receiver ∧ d'.i.toNat = d.i.toNat ∧ d'.next = .receiver) := by
  obtain ⟨rv, d1, keys, h1, h2, h3, _, h5⟩ := encrypt4_ok h
  obtain ⟨h6, h7, _⟩ := DoubleRatchet.rotateSenderChain_ok h5
  rcases ratchetForSend_ok h1 with ⟨n1, _, n3⟩ | ⟨n1, _, n3⟩
  · obtain ⟨_, ⟨_, g, _⟩, _, _, _, g2, g3, _⟩ := DoubleRatchet.rotateSender_ok n3
    refine .inl ⟨n1, by rw [h7]; exact g3, by rw [h7]; exact g2, d.shared.publicEcdh, d1.shared.brace, ?_⟩
    rw [h7]
    exact congrArg Mixed.k (Mixed.next_ok g).2.2.2.2
  · subst n3
    exact .inr ⟨n1, by rw [h7], by rw [h7]; exact n1⟩

theorem decrypt_turns {E : Env} {m : DataMessage4} {ad plain : Bytes} {now : Nat} {d d' : DoubleRatchet}
    (h : decrypt4 E m ad now d = .ok (plain, d')) :
    (d.next = .receiver ∧ d'.i.toNat = d.i.toNat + 1 ∧ d'.next = .sender) ∨ (d'.i.toNat = d.i.toNat ∧ d'.next = d.next) := by
  obtain ⟨s, keys, h1, _, _, _, _, _, _, h8⟩ := decrypt4_ok h
  rcases speculate4_ok h1 with ⟨_, _, _, _, s3⟩ | ⟨_, _, s3⟩
  · obtain ⟨r1, _, _, _, _, _, _, r3, r4, _⟩ := DoubleRatchet.rotateReceiver_ok s3
    exact .inl ⟨r1, by rw [h8]; exact r4, by rw [h8]; exact r3⟩
  · subst s3
    exact .inr ⟨by rw [h8], by rw [h8]⟩

/-- Since the theft: the client did not begin a ratchet yet, or it did. -/
def Turned (E : Env) (d₁ : DoubleRatchet) (rs : List Rand) (ks : List Bytes) (d : DoubleRatchet) : Prop :=
  (d.i.toNat = d₁.i.toNat ∧ d.next = d₁.next) ∨ (d₁.next = .receiver ∧ d.i.toNat = d₁.i.toNat + 1 ∧ d.next = .sender) ∨
    (nextOwn d₁ ≤ d.i.toNat ∧ Renewed E rs ks (nextOwn d₁))

theorem renewed_mono {E : Env} {rs rs' : List Rand} {ks ext : List Bytes} {n : Nat} (h : Renewed E rs ks n) :
    Renewed E (rs ++ rs') (ks ++ ext) n := by
  obtain ⟨r, hr, t, b, hk⟩ := h
  refine ⟨r, List.mem_append_left _ hr, t, b, ?_⟩
  have hn : n < ks.length := by
    rcases Nat.lt_or_ge n ks.length with h | h
    · exact h
    · rw [List.getElem?_eq_none h] at hk; cases hk
  rw [List.getElem?_append_left hn]
  exact hk

theorem last_at {ks : List Bytes} {n : Nat} {x : Bytes} (hl : ks.length = n + 1) (h : ks.getLast? = some x) : ks[n]? = some x := by
  rw [List.getLast?_eq_getElem?, hl] at h
  exact h

theorem Turned.sent {E : Env} {d₁ d d' : DoubleRatchet} {rs : List Rand} {ks ext : List Bytes} (T : Turned E d₁ rs ks d) {our their : UInt32}
    {flags : UInt8} {content reveals x : Bytes} {r : Rand} {now : Nat} {m : DataMessage4}
    (h : encrypt4 E our their flags content reveals r now { d with reveals := x } = .ok (m, d')) (hl : (ks ++ ext).length = d'.i.toNat + 1)
    (hk : (ks ++ ext).getLast? = some d'.shared.k) : Turned E d₁ (rs ++ [r]) (ks ++ ext) d' := by
  rcases encrypt_renews h with ⟨h1, h2, h3, t, b, h4⟩ | ⟨h1, h2, h3⟩
  · have fresh : d'.i.toNat = nextOwn d₁ → Turned E d₁ (rs ++ [r]) (ks ++ ext) d' := fun e =>
      .inr (.inr ⟨Nat.le_of_eq e.symm, r, by simp, t, b, by rw [← e, last_at hl hk, h4]⟩)
    simp only at h1 h2
    rcases T with ⟨a, b⟩ | ⟨a, b, c⟩ | ⟨a, b⟩
    · exact fresh (by simp only [nextOwn, ← b, h1, if_true]; omega)
    · exact fresh (by simp only [nextOwn, a, reduceCtorEq, if_false]; omega)
    · exact .inr (.inr ⟨by omega, renewed_mono b⟩)
  · simp only at h1 h2
    rcases T with ⟨a, b⟩ | ⟨a, b, c⟩ | ⟨a, b⟩
    · exact .inl ⟨h2.trans a, h3.trans (h1.symm.trans b)⟩
    · rw [c] at h1; cases h1
    · exact .inr (.inr ⟨by omega, renewed_mono b⟩)

theorem Turned.read {E : Env} {d₁ d d' : DoubleRatchet} {rs : List Rand} {ks ext : List Bytes} (T : Turned E d₁ rs ks d) {m : DataMessage4}
    {ad plain : Bytes} {now : Nat} (h : decrypt4 E m ad now d = .ok (plain, d')) : Turned E d₁ rs (ks ++ ext) d' := by
  have mono : ∀ {n}, Renewed E rs ks n → Renewed E rs (ks ++ ext) n := fun h => by simpa using renewed_mono (rs' := []) (ext := ext) h
  rcases decrypt_turns h with ⟨h1, h2, h3⟩ | ⟨h1, h2⟩
  · rcases T with ⟨a, b⟩ | ⟨a, b, c⟩ | ⟨a, b⟩
    · exact .inr (.inl ⟨b.symm.trans h1, by omega, h3⟩)
    · rw [c] at h1; cases h1
    · exact .inr (.inr ⟨by omega, mono b⟩)
  · rcases T with ⟨a, b⟩ | ⟨a, b, c⟩ | ⟨a, b⟩
    · exact .inl ⟨h1.trans a, h2.trans b⟩
    · exact .inr (.inl ⟨a, h1.trans b, h2.trans c⟩)
    · exact .inr (.inr ⟨by omega, mono b⟩)

theorem logged_on {E : Env} {k : Bytes} {s₀ s₁ s : Enc4} {us us' : List Use4} {rs : List Rand} {ks : List Bytes} {ps : List (Nat × Nat)}
    (L : Logged E k s₀ us s₁ ks ps) (hl : LogDrawn E s₁ us' rs s) :
    ∃ ext ps', Logged E k s₀ (us ++ us') s (ks ++ ext) (ps ++ ps') ∧ Turned E s₁.ratchet rs (ks ++ ext) s.ratchet := by
  induction hl with
  | start => exact ⟨[], [], by simpa using L, .inl ⟨rfl, rfl⟩⟩
  | send _ he ih =>
    obtain ⟨ext, ps', L', T⟩ := ih
    obtain ⟨h1, h2⟩ := encrypt4_enc he
    obtain ⟨ext', p, L'', _⟩ := L'.sent h1 h2 rfl rfl
    have T' := T.sent (ext := ext') h1 L''.sched.len L''.sched.last
    rw [List.append_assoc] at L'' T'
    rw [List.append_assoc, List.append_assoc] at L''
    exact ⟨_, _, L'', T'⟩
  | bye _ he ih =>
    obtain ⟨ext, ps', L', T⟩ := ih
    obtain ⟨h1, h2⟩ := disconnect4_enc he
    obtain ⟨ext', p, L'', _⟩ := L'.sent h1 h2 rfl (List.append_nil _)
    have T' := T.sent (ext := ext') h1 L''.sched.len L''.sched.last
    rw [List.append_assoc] at L'' T'
    rw [List.append_assoc, List.append_assoc] at L''
    exact ⟨_, _, L'', T'⟩
  | refuse _ he ih => rw [refused_same he]; exact ih
  | accept _ he hnp hnu ih =>
    obtain ⟨ext, ps', L', T⟩ := ih
    obtain ⟨ext', p, L'', _⟩ := L'.read he hnp hnu
    rcases handle4_cases he hnp with ⟨h1, _, _⟩ | ⟨plain, d', h1, h2, _⟩
    · exact absurd h1 (hnu _)
    have T' := T.read (ext := ext') h1
    have hd : d' = _ := (congrArg Enc4.ratchet h2).symm
    rw [hd] at T'
    rw [List.append_assoc] at L'' T'
    rw [List.append_assoc, List.append_assoc] at L''
    exact ⟨_, _, L'', T'⟩

/-- A secret that does not depend on the secret of ratchet `n`. -/
def Before (n : Nat) : Secret → Prop
  | .root a => a ≤ n
  | .chain a _ => a < n
  | .message a _ => a < n
  | .mixed a => a ≠ n
  | .mac _ _ => True

/-- Without the secret of ratchet `n`, nothing of this ratchet and of later ones can be computed. -/
theorem computable_before {K : Secret → Prop} {n : Nat} (hK : ∀ x, K x → Before n x) {x : Secret} (h : Computable K x) : Before n x := by
  induction h with
  | known h => exact hK _ h
  | root _ _ ih1 ih2 => simp only [Before] at ih1 ih2 ⊢; omega
  | first _ _ ih1 ih2 => simp only [Before] at ih1 ih2 ⊢; omega
  | next _ ih => exact ih
  | message _ ih => exact ih
  | mac _ _ => trivial

/-- A secret of the first ratchets has the same value, whatever is mixed in later. -/
theorem value_append {E : Env} {k : Bytes} {ks : List Bytes} (ext : List Bytes) {x : Secret}
    (h : match x with
      | .root a => a ≤ ks.length
      | .chain a _ => a < ks.length
      | .message a _ => a < ks.length
      | .mixed a => a < ks.length
      | .mac a _ => a < ks.length) : x.value E k (ks ++ ext) = x.value E k ks := by
  cases x with
  | root a => simp only [Secret.value]; rw [List.take_append_of_le_length h]
  | chain a j => exact chainKey_append h j
  | message a j => exact messageKey_append h
  | mac a j => exact macKey_append h
  | mixed a => simp only [Secret.value, List.getD, List.getElem?_append_left h]

theorem HeldBy.append {E : Env} {k : Bytes} {ks : List Bytes} {d : DoubleRatchet} {ps : List (Nat × Nat)} (ext : List Bytes)
    (hl : ks.length = d.i.toNat + 1) (hp : ∀ p ∈ ps, p.1 < ks.length) (h : HeldBy E k ks (heldSecrets d ps) d) :
    HeldBy E k (ks ++ ext) (heldSecrets d ps) d := by
  have hr : recvNo d ≤ d.i.toNat := by simp only [recvNo]; split <;> omega
  have val : ∀ x ∈ heldSecrets d ps, x.value E k (ks ++ ext) = x.value E k ks := by
    intro x hx
    refine value_append ext ?_
    revert hx
    simp only [heldSecrets, List.mem_append, List.mem_map, List.mem_ite_nil_right, List.mem_singleton]
    rintro ((((rfl | ⟨h, rfl⟩) | ⟨h, rfl⟩) | ⟨h, rfl⟩) | ⟨p, hm, rfl⟩)
    · simp only; omega
    · simp only; omega
    · simp only; omega
    · simp only; omega
    · exact hp p hm
  refine ⟨?_, ?_, ?_, ?_⟩
  · obtain ⟨x, hx, e⟩ := h.root
    exact ⟨x, hx, e.trans (val x hx).symm⟩
  · rcases h.sender with e | ⟨x, hx, e⟩
    · exact .inl e
    · exact .inr ⟨x, hx, e.trans (val x hx).symm⟩
  · rcases h.receiver with e | ⟨x, hx, e⟩
    · exact .inl e
    · exact .inr ⟨x, hx, e.trans (val x hx).symm⟩
  · obtain ⟨qs, hq, e⟩ := h.reveals
    refine ⟨qs, hq, ?_⟩
    rw [List.map_congr_left fun p hp => val _ (hq p hp)]
    exact e

/-- C106: somebody steals the keys that a client holds in the state `s₁` of a session, and the session goes on.  The keys of all messages that
are then sent or accepted, from the next ratchet on that the client begins itself, cannot be computed from the stolen keys, even by somebody
who also learns the secrets of all key agreements but the one of this ratchet; and that secret comes from a key pair which the client
generated after the theft. -/
theorem C106_heals (E : Env) (k : Bytes) (s₀ s₁ s : Enc4) (us us' : List Use4) (rs : List Rand) (hf : FreshFrom E k s₀) (hl : Log4 E s₀ us s₁)
    (hl' : LogDrawn E s₁ us' rs s) :
    ∃ ks ps ps' K, List.Forall₂ (KeyedAt E k ks s₀) us ps ∧ List.Forall₂ (KeyedAt E k ks s₀) us' ps' ∧ HeldBy E k ks K s₁.ratchet ∧
      ∀ p ∈ ps', nextOwn s₁.ratchet ≤ p.1 → Renewed E rs ks (nextOwn s₁.ratchet) ∧
        ¬ Computable (fun x => x ∈ K ∨ ∃ n, n ≠ nextOwn s₁.ratchet ∧ x = .mixed n) (.message p.1 p.2) := by
  obtain ⟨ks, ps, L⟩ := logged hf hl
  obtain ⟨ext, ps', L', T⟩ := logged_on L hl'
  have hr : recvNo s₁.ratchet ≤ s₁.ratchet.i.toNat := by simp only [recvNo]; split <;> omega
  have ho : s₁.ratchet.i.toNat < nextOwn s₁.ratchet := by simp only [nextOwn]; split <;> omega
  refine ⟨ks ++ ext, ps, ps', heldSecrets s₁.ratchet (readAt us ps), keyed_append ext L.keyed L.bound, ?_,
    HeldBy.append ext L.sched.len (fun p hp => L.bound p (readAt_sub.subset hp)) (Logged.heldBy L), fun p hp hn => ⟨?_, fun hc => ?_⟩⟩
  · have := List.forall₂_drop_append _ _ _ L'.keyed
    rwa [← L.keyed.length_eq, List.drop_left] at this
  · have := (L'.spent p (List.mem_append_right _ hp)).1
    rcases T with ⟨a, b⟩ | ⟨a, b, c⟩ | ⟨a, b⟩
    · omega
    · simp only [nextOwn, a, reduceCtorEq, if_false] at hn; omega
    · exact b
  · have := computable_before (n := nextOwn s₁.ratchet) (fun x hx => ?_) hc
    · exact absurd this (Nat.not_lt.mpr hn)
    · rcases hx with hx | ⟨n, hn, rfl⟩
      · revert hx
        simp only [heldSecrets, List.mem_append, List.mem_map, List.mem_ite_nil_right, List.mem_singleton]
        rintro ((((rfl | ⟨h, rfl⟩) | ⟨h, rfl⟩) | ⟨h, rfl⟩) | ⟨p, hm, rfl⟩)
        · exact ho
        · exact ho
        · simp only [Before]; omega
        · simp only [Before]; omega
        · trivial
      · exact hn

theorem drawn_of_life {E : Env} {s₁ s : Enc4} {h : List Ev4} (hl : Life4 E s₁ h s) :
    ∃ us rs, LogDrawn E s₁ us rs s ∧ us.filterMap readOf = accepted4 h ∧ us.filterMap sentOf = sent4 h := by
  induction hl with
  | start => exact ⟨[], [], .start, rfl, rfl⟩
  | send _ he ih =>
    obtain ⟨us, rs, h1, h2, h3⟩ := ih
    refine ⟨_, _, .send h1 he, ?_, ?_⟩
    · rw [accepted4_snoc, List.filterMap_append, h2]; rfl
    · rw [sent4_snoc, List.filterMap_append, h3]; rfl
  | bye _ he ih =>
    obtain ⟨us, rs, h1, h2, h3⟩ := ih
    refine ⟨_, _, .bye h1 he, ?_, ?_⟩
    · rw [accepted4_snoc, List.filterMap_append, h2]; rfl
    · rw [sent4_snoc, List.filterMap_append, h3]; rfl
  | @recv h s s' m ad now r _ he hp ih =>
    obtain ⟨us, rs, h1, h2, h3⟩ := ih
    by_cases hu : ∃ t, r = .err (.unreadableMessage t)
    · obtain ⟨t, rfl⟩ := hu
      refine ⟨us, rs, .refuse h1 he, ?_, ?_⟩
      · rw [accepted4_snoc, h2]; simp [accepted4]
      · rw [sent4_snoc, h3]; simp [sent4]
    · refine ⟨_, _, .accept h1 he hp fun t ht => hu ⟨t, ht⟩, ?_, ?_⟩
      · rw [accepted4_snoc, List.filterMap_append, h2]
        have : accepted4 [.got m ad r] = [(m, ad)] := by
          cases r with
          | ok _ => rfl
          | panic => rfl
          | err e => cases e <;> first | rfl | exact absurd ⟨_, rfl⟩ hu
        rw [this]; rfl
      · rw [sent4_snoc, List.filterMap_append, h3]; rfl

/-- C106, the session: whatever calls a client made before and after the theft, as long as no new session with the instance is reported, the
keys of an OTRv4 session have a history of this kind. -/
theorem C106_session (E : Env) (A : Account) (h h' : List Ev) (s s' : Session) (hh : Hist E A h s) (tag : UInt32)
    (hl : Later E A s h' s') (hn : SameSession tag h') (x' : Enc4) (smp' : SMP4Context) (hs' : stateOf s' tag = .encrypted4 x' smp') :
    ∃ x smp k s₀ us us' rs, stateOf s tag = .encrypted4 x smp ∧ FreshFrom E k s₀ ∧ Log4 E s₀ us x ∧ LogDrawn E x us' rs x' := by
  obtain ⟨x, smp, l, hs, hl, _⟩ := (later_goes hh hl hn).2 x' smp' hs'
  obtain ⟨k, s₀, us, hf, hu⟩ := C97_session E A h s hh tag x smp hs
  obtain ⟨us', rs, hd, _, _⟩ := drawn_of_life hl
  exact ⟨x, smp, k, s₀, us, us', rs, hs, hf, hu, hd⟩

open Toy4

/-- The keys of the client `a` are stolen after it accepted a message; it accepts a second one, of the same ratchet, and sends one.  The latter is
the first that the thief cannot read. -/
theorem toy_theft : FreshFrom toyEnv [1, 2, 3] a0 ∧
    Log4 toyEnv a0 ([] ++ [.read n1 (authenticatorData4 4 b2.our a0.our n1) (.ok (.confidential [104, 105] [], false))]) a1 ∧
    ∃ rs, LogDrawn toyEnv a1 ([] ++ [.read n2 (authenticatorData4 4 b2.our a1.our n2) (.ok (.confidential [104, 111] [], false))] ++
      [.sent m1 [111, 107]]) rs a3 :=
  ⟨toy_from, .accept .start rcv_n1 (by simp) (by simp), _, .send (.accept .start rcv_n2 (by simp) (by simp)) snd_m1⟩

example : nextOwn a1.ratchet = 2 ∧ m1.i.toNat = 2 - 1 := by decide +kernel

end Otrr.Props
