import Verif.Props.Secrecy
import Verif.Props.Schedule
import Verif.Props.Data3
import Verif.Lemmas.SessionMeetToy
/-! C120 for whole OTRv4 conversations. -/

namespace Otrr.Props
open Otrr Otrr.Spec

/-- What `decrypt4` does before it decrypts: the key and the new ratchet. -/
def openKey (E : Env) (m : DataMessage4) (authData : Bytes) (now : Nat) (d : DoubleRatchet) : Res (Bytes × DoubleRatchet) := do
  let s ← speculate4 E m now d
  let r ← s.receiver.forward E (m.j.toNat - s.receiver.id.toNat)
  let keys ← r.keys E
  compareBytes (kdf2 E 64 0x18 keys.mac authData) m.authenticator
  let s ← ({ s with receiver := r } : DoubleRatchet).confirmReceiver E
  return (encKey keys.enc, s)

theorem decrypt4_open (E : Env) (m : DataMessage4) (ad : Bytes) (now : Nat) (d : DoubleRatchet) :
    decrypt4 E m ad now d = (openKey E m ad now d).bind fun x => .ok (chachaCrypt E x.1 m.encrypted, x.2) := by
  unfold decrypt4 openKey
  cases speculate4 E m now d with
  | err e => rfl
  | panic => rfl
  | ok s =>
    simp only [Res.bind_ok]
    cases s.receiver.forward E (m.j.toNat - s.receiver.id.toNat) with
    | err e => rfl
    | panic => rfl
    | ok r =>
      simp only [Res.bind_ok]
      cases r.keys E with
      | err e => rfl
      | panic => rfl
      | ok keys =>
        simp only [Res.bind_ok]
        cases compareBytes (kdf2 E 64 0x18 keys.mac ad) m.authenticator with
        | err e => rfl
        | panic => rfl
        | ok u =>
          simp only [Res.bind_ok]
          cases ({ s with receiver := r } : DoubleRatchet).confirmReceiver E with
          | err e => rfl
          | panic => rfl
          | ok u => rfl

theorem forward_stream (E : Env) (f : Bytes → Nat → UInt8) : ∀ (n : Nat) (r : Ratchet), Ratchet.forward (withStream E f) n r = Ratchet.forward E n r
  | 0, _ => rfl
  | n + 1, r => by
    have e : r.rotate (withStream E f) = r.rotate E := rfl
    rw [Ratchet.forward, Ratchet.forward, e]
    congr 1
    funext x
    exact forward_stream E f n x

theorem chainFwd_stream (E : Env) (f : Bytes → Nat → UInt8) : ∀ (n : Nat) (c : Bytes), chainFwd (withStream E f) n c = chainFwd E n c
  | 0, _ => rfl
  | n + 1, c => chainFwd_stream E f n _

theorem openKey_stream (E : Env) (f : Bytes → Nat → UInt8) (m : DataMessage4) (ad : Bytes) (now : Nat) (d : DoubleRatchet) :
    openKey (withStream E f) m ad now d = openKey E m ad now d := by
  unfold openKey
  simp only [forward_stream]
  rfl

theorem decrypt4_stream {E : Env} {f : Bytes → Nat → UInt8} {m : DataMessage4} {ad plain : Bytes} {now : Nat} {d d' : DoubleRatchet}
    (h : decrypt4 E m ad now d = .ok (plain, d')) {x : DoubleRatchet} {keys : RatchetKeys} (h1 : speculate4 E m now d = .ok x)
    (h2 : (⟨chainFwd E (m.j.toNat - x.receiver.id.toNat) x.receiver.chain, m.j⟩ : Ratchet).keys E = .ok keys) :
    decrypt4 (withStream E f) m ad now d = .ok (xorStream (f (encKey keys.enc)) m.encrypted, d') := by
  rw [decrypt4_open] at h
  cases ho : openKey E m ad now d with
  | err e => rw [ho] at h; cases h
  | panic => rw [ho] at h; cases h
  | ok a =>
    rw [ho] at h
    simp only [Res.bind, Res.ok.injEq, Prod.mk.injEq] at h
    have h' : decrypt4 (withStream E f) m ad now d = .ok (xorStream (f a.1) m.encrypted, d') := by
      rw [decrypt4_open, openKey_stream, ho, ← h.2]
      rfl
    obtain ⟨s, keys', k1, -, k3, -, -, k6, -⟩ := decrypt4_ok h'
    have k1' : speculate4 E m now d = .ok s := k1
    rw [h1] at k1'
    cases k1'
    rw [chainFwd_stream] at k3
    have k3' : (⟨chainFwd E (m.j.toNat - x.receiver.id.toNat) x.receiver.chain, m.j⟩ : Ratchet).keys E = .ok keys' := k3
    rw [h2] at k3'
    cases k3'
    rw [h', k6]
    rfl

theorem decrypt4_refused {E : Env} {f : Bytes → Nat → UInt8} {m : DataMessage4} {ad : Bytes} {now : Nat} {d : DoubleRatchet} {e : OTRError}
    (h : decrypt4 E m ad now d = .err e) : decrypt4 (withStream E f) m ad now d = .err e := by
  rw [decrypt4_open] at h ⊢
  rw [openKey_stream]
  cases ho : openKey E m ad now d with
  | err e => rw [ho] at h; exact h
  | panic => rw [ho] at h; cases h
  | ok a => rw [ho] at h; cases h

theorem encrypt4_stream {E : Env} {f : Bytes → Nat → UInt8} {our their : UInt32} {flags : UInt8} {plain plain' reveals : Bytes} {r : Rand} {now : Nat}
    {d d' : DoubleRatchet} {m : DataMessage4} (h : encrypt4 E our their flags plain reveals r now d = .ok (m, d'))
    {rv : Bytes} {d1 : DoubleRatchet} {keys : RatchetKeys} (h1 : ratchetForSend E d reveals r now = .ok (rv, d1)) (h2 : d1.sender.keys E = .ok keys)
    (he : xorStream (f (encKey keys.enc)) plain' = m.encrypted) :
    encrypt4 (withStream E f) our their flags plain' reveals r now d = .ok (m, d') := by
  have hm : m.encrypted = chachaCrypt E (encKey keys.enc) plain := by
    obtain ⟨rv', d2, keys', k1, k2, k3, -⟩ := encrypt4_ok h
    rw [h1] at k1; cases k1
    rw [h2] at k2; cases k2
    rw [k3]; rfl
  have e1 : ratchetForSend (withStream E f) d reveals r now = ratchetForSend E d reveals r now := rfl
  have e2 : ∀ x : Ratchet, x.keys (withStream E f) = x.keys E := fun x => rfl
  have e3 : kdf2 (withStream E f) = kdf2 E := rfl
  have e4 : ∀ m : DataMessage4, m.validate (withStream E f) = m.validate E := fun x => rfl
  have e5 : ∀ x : DoubleRatchet, x.rotateSenderChain (withStream E f) = x.rotateSenderChain E := fun x => rfl
  have e6 : chachaCrypt (withStream E f) (encKey keys.enc) plain' = chachaCrypt E (encKey keys.enc) plain := he.trans hm
  generalize withStream E f = E' at *
  simp only [encrypt4, Res.bind_eq_ok, Res.assert_eq_ok, Res.pure_def, Res.ok.injEq, exists_const,
    Prod.mk.injEq, Prod.exists] at h ⊢
  obtain ⟨rv', d2, k1, keys', k2, k3, d3, k4, k5, rfl⟩ := h
  rw [h1] at k1; cases k1
  rw [h2] at k2; cases k2
  exact ⟨rv, d1, e1.trans h1, keys, (e2 _).trans h2, by rw [e6, e3, e4]; exact k3, d3, (e5 _).trans k4, by rw [e6, e3]; exact k5, rfl⟩

/-- The key stream fits the other story, for the key of the message. -/
def Fits (f : Bytes → Nat → UInt8) (key : Bytes) : Use4 → Use4 → Prop
  | .sent m plain, .sent m' plain' => m' = m ∧ xorStream (f key) plain' = m.encrypted ∧ (plain = disconnectPlain → plain' = plain)
  | .read m ad _, .read m' ad' r' => m' = m ∧ ad' = ad ∧ Reports (xorStream (f key) m.encrypted) r'
  | _, _ => False

theorem reports_ok {plain : Bytes} {r : Res (PMessage × Bool)} (h : Reports plain r) : r ≠ .panic ∧ (∀ t, r ≠ .err (.unreadableMessage t)) ∧
    r = (parseMessage plain).bind fun p => .ok (p, match p with | .confidentialFinished _ => true | .confidential _ _ => false) := by
  unfold Reports at h
  cases hp : parseMessage plain with
  | panic => rw [hp] at h; exact h.elim
  | err e =>
    rw [hp] at h
    subst h
    exact ⟨by simp, fun t ht => parse_ne_unreadable ((Res.err.inj ht) ▸ hp), rfl⟩
  | ok q => rw [hp] at h; cases q <;> (subst h; exact ⟨by simp, by simp, rfl⟩)

theorem handle4_stream {E : Env} {f : Bytes → Nat → UInt8} {m : DataMessage4} {ad plain : Bytes} {now : Nat} {s : Enc4} {d' : DoubleRatchet}
    {r : Res (PMessage × Bool)} (h : decrypt4 (withStream E f) m ad now s.ratchet = .ok (plain, d')) (hr : Reports plain r) :
    Enc4.handle (withStream E f) m ad now s = (r, { s with ratchet := d' }) := by
  unfold Reports at hr
  unfold Enc4.handle Enc4.onRatchet
  rw [h]
  cases hp : parseMessage plain with
  | panic => rw [hp] at hr; exact hr.elim
  | err e => rw [hp] at hr; subst hr; simp only [hp]
  | ok q => rw [hp] at hr; cases q <;> (subst hr; simp only [hp])

theorem zip_snoc_fits {f : Bytes → Nat → UInt8} {g : Nat × Nat → Bytes} {us us' : List Use4} {ps : List (Nat × Nat)} {u : Use4} {p : Nat × Nat}
    (hl : us.length = ps.length) (h : List.Forall₂ (fun (x : Use4 × (Nat × Nat)) u' => Fits f (g x.2) x.1 u') ((us ++ [u]).zip (ps ++ [p])) us') :
    ∃ us0 u', us' = us0 ++ [u'] ∧ List.Forall₂ (fun (x : Use4 × (Nat × Nat)) u' => Fits f (g x.2) x.1 u') (us.zip ps) us0 ∧ Fits f (g p) u u' := by
  rw [List.zip_append hl] at h
  have hlen := h.length_eq
  simp only [List.length_append, List.zip_cons_cons, List.zip_nil_right, List.length_cons, List.length_nil] at hlen
  have h1 := (List.forall₂_take_append _ _ _ h.flip).flip
  have h2 := (List.forall₂_drop_append _ _ _ h.flip).flip
  cases hd : us'.drop (us.zip ps).length with
  | nil => rw [hd] at h2; cases h2
  | cons u' t =>
    rw [hd] at h2
    cases h2 with
    | cons a b =>
      cases b
      exact ⟨_, u', by rw [← hd, List.take_append_drop], h1, a⟩

theorem fits_append {E : Env} {k : Bytes} {ks ext : List Bytes} {f : Bytes → Nat → UInt8} {us us' : List Use4} {ps : List (Nat × Nat)}
    (hb : ∀ p ∈ ps, p.1 < ks.length)
    (h : List.Forall₂ (fun (x : Use4 × (Nat × Nat)) u' => Fits f ((messageKey E k (ks ++ ext) x.2).take 32) x.1 u') (us.zip ps) us') :
    List.Forall₂ (fun (x : Use4 × (Nat × Nat)) u' => Fits f ((messageKey E k ks x.2).take 32) x.1 u') (us.zip ps) us' := by
  have : ∀ (l : List (Use4 × (Nat × Nat))) (us' : List Use4), (∀ x ∈ l, x.2.1 < ks.length) →
      List.Forall₂ (fun (x : Use4 × (Nat × Nat)) u' => Fits f ((messageKey E k (ks ++ ext) x.2).take 32) x.1 u') l us' →
      List.Forall₂ (fun (x : Use4 × (Nat × Nat)) u' => Fits f ((messageKey E k ks x.2).take 32) x.1 u') l us' := by
    intro l us' hl h
    induction h with
    | nil => exact .nil
    | cons a b ih =>
      refine .cons ?_ (ih fun x hx => hl x (List.mem_cons_of_mem _ hx))
      rw [messageKey_append (hl _ (List.mem_cons_self ..))] at a
      exact a
  exact this _ _ (fun x hx => hb _ (List.of_mem_zip hx).2) h

/-- With a key stream that fits, the other story is a log of the session too. -/
theorem retell {E : Env} {k : Bytes} {s₀ s : Enc4} {us : List Use4} (hf : FreshFrom E k s₀) (hl : Log4 E s₀ us s) :
    ∃ ks ps, Logged E k s₀ us s ks ps ∧ ∀ (f : Bytes → Nat → UInt8) (us' : List Use4),
      List.Forall₂ (fun (x : Use4 × (Nat × Nat)) u' => Fits f ((messageKey E k ks x.2).take 32) x.1 u') (us.zip ps) us' →
      Log4 (withStream E f) s₀ us' s := by
  induction hl with
  | start =>
    obtain ⟨ks, ps, L⟩ := logged hf .start
    refine ⟨ks, ps, L, fun f us' h => ?_⟩
    cases h
    exact .start
  | @send us s s' flags plain rnd now m _ he ih =>
    obtain ⟨ks, ps, L, hall⟩ := ih
    obtain ⟨h1, h2⟩ := encrypt4_enc he
    obtain ⟨ext, p, L', rv, d1, keys, k1, k2, k3⟩ := L.sent h1 h2 rfl rfl
    refine ⟨_, _, L', fun f us' h => ?_⟩
    obtain ⟨us0, u', rfl, hu, hfit⟩ := zip_snoc_fits (g := fun p => (messageKey E k (ks ++ ext) p).take 32) L.keyed.length_eq h
    have hlog := hall f us0 (fits_append L.bound hu)
    cases u' with
    | read => exact hfit.elim
    | sent m' plain' =>
      obtain ⟨rfl, hx, -⟩ := hfit
      rw [← k3] at hx
      have := encrypt4_stream h1 k1 k2 hx
      refine .send (flags := flags) (rnd := rnd) (now := now) hlog ?_
      unfold Enc4.encrypt Enc4.onRatchet
      rw [this, h2]
  | @bye us s s' rnd now m _ he ih =>
    obtain ⟨ks, ps, L, hall⟩ := ih
    obtain ⟨h1, h2⟩ := disconnect4_enc he
    obtain ⟨ext, p, L', rv, d1, keys, k1, k2, k3⟩ := L.sent h1 h2 rfl (List.append_nil _)
    refine ⟨_, _, L', fun f us' h => ?_⟩
    obtain ⟨us0, u', rfl, hu, hfit⟩ := zip_snoc_fits (g := fun p => (messageKey E k (ks ++ ext) p).take 32) L.keyed.length_eq h
    have hlog := hall f us0 (fits_append L.bound hu)
    cases u' with
    | read => exact hfit.elim
    | sent m' plain' =>
      obtain ⟨rfl, hx, hd⟩ := hfit
      obtain rfl := hd rfl
      rw [← k3] at hx
      have := encrypt4_stream h1 k1 k2 hx
      refine .bye (rnd := rnd) (now := now) hlog ?_
      unfold Enc4.disconnect Enc4.onRatchet
      dsimp only at this ⊢
      rw [this, h2]
  | @refuse us s s' m ad now t _ he ih =>
    obtain ⟨ks, ps, L, hall⟩ := ih
    have hsame := refused_same he
    subst hsame
    refine ⟨ks, ps, L, fun f us' h => ?_⟩
    refine .refuse (m := m) (ad := ad) (now := now) (t := s'.their) (hall f us' h) ?_
    rcases handle4_cases he (by simp) with ⟨_, _, e, h3⟩ | ⟨plain, d', h3, _, h5⟩
    · unfold Enc4.handle Enc4.onRatchet
      rw [decrypt4_refused h3]
    · exfalso
      cases hp : parseMessage plain with
      | ok p => rw [hp] at h5; cases h5
      | panic => rw [hp] at h5; cases h5
      | err e =>
        rw [hp] at h5
        simp only [Res.bind, Res.err.injEq] at h5
        exact parse_ne_unreadable (h5 ▸ hp)
  | @accept us s s' m ad now r _ he hnp hnu ih =>
    obtain ⟨ks, ps, L, hall⟩ := ih
    obtain ⟨ext, p, L', x, keys, k1, k2, k3⟩ := L.read he hnp hnu
    refine ⟨_, _, L', fun f us' h => ?_⟩
    obtain ⟨us0, u', rfl, hu, hfit⟩ := zip_snoc_fits (g := fun p => (messageKey E k (ks ++ ext) p).take 32) L.keyed.length_eq h
    have hlog := hall f us0 (fits_append L.bound hu)
    rcases handle4_cases he hnp with ⟨h1, _, _⟩ | ⟨plain, d', h1, h2, h3⟩
    · exact absurd h1 (hnu _)
    cases u' with
    | sent => exact hfit.elim
    | read m' ad' r' =>
      obtain ⟨rfl, rfl, hx⟩ := hfit
      rw [← k3] at hx
      obtain ⟨r1, r2, -⟩ := reports_ok hx
      rw [h2]
      exact .accept hlog (handle4_stream (decrypt4_stream h1 k1 k2) hx) r1 r2

theorem pad_exists {E : Env} {k : Bytes} {ks : List Bytes} {s₀ : Enc4} {u u' : Use4} {p : Nat × Nat} (hk : KeyedAt E k ks s₀ u p) (hr : Retold u u') :
    ∃ pad : Nat → UInt8, ∀ (f : Bytes → Nat → UInt8) (key : Bytes), f key = pad → Fits f key u u' := by
  cases u with
  | sent m plain =>
    cases u' with
    | read => exact hr.elim
    | sent m' plain' =>
      obtain ⟨rfl, h1, h2⟩ := hr
      have hl : plain'.length = m'.encrypted.length := by rw [hk.2.2.1, chachaCrypt, xorStream_length, h1]
      exact ⟨fun i => (padFor plain' m'.encrypted).getD i 0, fun f key hf => ⟨rfl, by rw [hf]; exact xorStream_pad hl, h2⟩⟩
  | read m ad r =>
    cases u' with
    | sent => exact hr.elim
    | read m' ad' r' =>
      obtain ⟨rfl, rfl, plain', h1, h2⟩ := hr
      exact ⟨fun i => (padFor m'.encrypted plain').getD i 0, fun f key hf => ⟨rfl, rfl, by rw [hf, xorStream_pad h1.symm]; exact h2⟩⟩

theorem fits_congr {f f' : Bytes → Nat → UInt8} {key : Bytes} (h : f' key = f key) {u u' : Use4} (hf : Fits f key u u') : Fits f' key u u' := by
  cases u <;> cases u' <;> simp only [Fits, h] at hf ⊢ <;> exact hf

theorem stream_exists {E : Env} {k : Bytes} {ks : List Bytes} {s₀ : Enc4} (g : Nat × Nat → Bytes) (base : Bytes → Nat → UInt8) {us : List Use4} {ps : List (Nat × Nat)}
    (hk : List.Forall₂ (KeyedAt E k ks s₀) us ps) : ∀ {us' : List Use4}, List.Forall₂ Retold us us' → (ps.map g).Nodup →
    ∃ f : Bytes → Nat → UInt8, (∀ key, key ∉ ps.map g → f key = base key) ∧
      List.Forall₂ (fun (x : Use4 × (Nat × Nat)) u' => Fits f (g x.2) x.1 u') (us.zip ps) us' := by
  induction hk with
  | nil => intro us' hr _; cases hr; exact ⟨base, fun _ _ => rfl, .nil⟩
  | @cons u p us ps h1 _ ih =>
    intro us' hr hn
    cases hr with
    | @cons _ u' _ us' r1 r2 =>
      rw [List.map_cons, List.nodup_cons] at hn
      obtain ⟨f, f1, f2⟩ := ih r2 hn.2
      obtain ⟨pad, hpad⟩ := pad_exists h1 r1
      refine ⟨fun key => if key = g p then pad else f key, fun key hkey => ?_, ?_⟩
      · rw [List.map_cons, List.mem_cons, not_or] at hkey
        dsimp only
        rw [if_neg hkey.1]
        exact f1 key hkey.2
      · rw [List.zip_cons_cons]
        refine .cons (hpad _ _ (by dsimp only; rw [if_pos rfl])) ?_
        have hz : ∀ x ∈ us.zip ps, g x.2 ≠ g p := fun x hx he =>
          hn.1 (he ▸ List.mem_map_of_mem (f := g) (List.of_mem_zip (a := x.1) (b := x.2) hx).2)
        clear ih r2
        generalize us.zip ps = l at f2 hz
        induction f2 with
        | nil => exact .nil
        | @cons x v l vs a b ih =>
          refine .cons (fits_congr ?_ a) (ih fun y hy => hz y (List.mem_cons_of_mem _ hy))
          rw [if_neg (hz x (List.mem_cons_self ..))]

/-- C120, whole OTRv4 conversations: the messages that a client sent and accepted since the key exchange fit every other story in which the texts in both directions
are others of the same lengths.  There is a key stream, changed only for the keys of these messages, with which the other texts lead to the very same messages,
and to the same state at the end.  This needs that the keys differ: that the inputs from which they are derived do not collide under the hash function. -/
theorem C120_conversation (E : Env) (k : Bytes) (s₀ s : Enc4) (us : List Use4) (hf : FreshFrom E k s₀) (hl : Log4 E s₀ us s) :
    ∃ ks ps, List.Forall₂ (KeyedAt E k ks s₀) us ps ∧ ps.Nodup ∧ (∀ p ∈ ps, p.1 < ks.length) ∧
      ∀ J, (∀ p ∈ ps, p.2 ≤ J) → NoCollision E (hashed E k ks J) → ∀ us', List.Forall₂ Retold us us' →
        ∃ stream, (∀ key, key ∉ ps.map (fun p => (messageKey E k ks p).take 32) → stream key = E.chachaStream key) ∧
          FreshFrom (withStream E stream) k s₀ ∧ Log4 (withStream E stream) s₀ us' s := by
  obtain ⟨ks, ps, L, hall⟩ := retell hf hl
  refine ⟨ks, ps, L.keyed, L.distinct, L.bound, fun J hJ hn us' hr => ?_⟩
  obtain ⟨f, f1, f2⟩ := stream_exists (fun p => (messageKey E k ks p).take 32) E.chachaStream L.keyed hr (positions_distinct L.distinct L.bound hJ hn).1
  exact ⟨f, f1, hf, hall f us' f2⟩

open Toy4

/-- The hypotheses are met by the log of C97, and another story about it: the client reported other texts of two letters, and sent `no` instead of `ok`. -/
example : FreshFrom toyEnv [1, 2, 3] a0 ∧ ∃ us us', Log4 toyEnv a0 us a3 ∧ List.Forall₂ Retold us us' ∧
    us'.filterMap (fun u => match u with | .sent _ p => some p | _ => .none) = [[110, 111]] ∧
    us'.filterMap (fun u => match u with | .read _ _ r => some r | _ => .none) = [.ok (.confidential [98, 121] [], false), .ok (.confidential [111, 110] [], false)] := by
  refine ⟨toy_from, _, [.read n1 (authenticatorData4 4 b2.our a0.our n1) (.ok (.confidential [98, 121] [], false)),
    .read n2 (authenticatorData4 4 b2.our a1.our n2) (.ok (.confidential [111, 110] [], false)), .sent m1 [110, 111]], toy_log,
    .cons ⟨rfl, rfl, [98, 121], ?_, ?_⟩ (.cons ⟨rfl, rfl, [111, 110], ?_, ?_⟩ (.cons ⟨rfl, rfl, by decide⟩ .nil)), rfl, rfl⟩
  · decide +kernel
  · unfold Reports; rw [show parseMessage [98, 121] = .ok (.confidential [98, 121] []) by decide +kernel]
  · decide +kernel
  · unfold Reports; rw [show parseMessage [111, 110] = .ok (.confidential [111, 110] []) by decide +kernel]

/-- The hypotheses of `C120_otr4`, `C120_otr3` and `C120_session` are met. -/
example : Enc4.encrypt toyEnv 0 [111, 107] (smallRand 3) 0 a2 = (.ok m1, a3) := snd_m1

example : Enc3.encrypt toyEnv 0 [104, 105] Toy3.a0 = (.ok Toy3.m1, Toy3.a1) := Toy3.snd_m1

open ToySession in
example : SomeVersion acB ∧ k3.after.status 0x100 = some .encrypted ∧
    ∃ out, ((Op.send 0x100 [104, 0, 105]).run tinyEnv acB (meetB 5000 6) k3.after).result = .ok (.texts out) := by
  refine ⟨by simp only [SomeVersion, AllowsV3, AllowsV4, PolicyBit]; decide, ?_, [text k6], ?_⟩
  · decide +kernel
  · have e : (Op.send 0x100 [104, 0, 105]).run tinyEnv acB (meetB 5000 6) k3.after = k6 := by unfold k6; rfl
    rw [e]; exact runTalk.2.2.2.2.2.1.1

end Otrr.Props
