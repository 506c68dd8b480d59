import Verif.Spec.SessionCrash
import Verif.Props.SessionInjects
import Verif.Props.SessionUse
import Verif.Props.SessionData
import Verif.Props.SessionLife
import Verif.Props.Fragment
import Verif.Props.Regex
import Verif.Props.Messages
import Verif.Props.Profile
import Verif.Props.Data3
import Verif.Props.Smp
import Verif.Props.SessionExchange3
import Verif.Lemmas.SessionFragments
import Verif.Lemmas.SessionPoints
import Verif.Props.Data4
import Verif.Props.Smp4
/-!
# Crashes of `receive`

What does not need a particular message size of the host.
-/

namespace Otrr
open Spec

/-- The computation has the same result, the same final state and the same messages sent, whatever was sent before. -/
def Uniform (f : StM (World σ) α) (st : σ) : Prop :=
  ∃ new, ∀ sent, f ⟨st, sent⟩ = ((f ⟨st, []⟩).1, ⟨(f ⟨st, []⟩).2.st, sent ++ new⟩)

theorem Uniform.of {f : StM (World σ) α} {st : σ} (h : ∀ sent, f ⟨st, sent⟩ = ((f ⟨st, []⟩).1, ⟨(f ⟨st, []⟩).2.st, sent⟩)) : Uniform f st :=
  ⟨[], fun sent => by rw [List.append_nil]; exact h sent⟩

/-- With a host that takes all messages that are to be sent, whole or in fragments, the computation does not depend on the
message size, except for what is sent, and if it crashes then for a cause. -/
def Lim (f : Nat → StM (World σ) α) (w : World σ) (P : Prop) : Prop :=
  ∃ (r : Res α) (st : σ) (new : List Bytes),
    (∀ n sent, (∀ t ∈ new, t.length ≤ n) → f n ⟨w.st, sent⟩ = (r, ⟨st, sent ++ new⟩)) ∧
    (∀ n sent, (∀ t ∈ new, Sendable n t) → ∃ sent', f n ⟨w.st, sent⟩ = (r, ⟨st, sent'⟩)) ∧ (r = .panic → P)

theorem fits (l : List Bytes) : ∃ n, ∀ t ∈ l, t.length ≤ n := by
  induction l with
  | nil => exact ⟨0, by simp⟩
  | cons x l ih =>
    obtain ⟨n, hn⟩ := ih
    refine ⟨max n x.length, fun t ht => ?_⟩
    rcases List.mem_cons.mp ht with rfl | ht
    · omega
    · have := hn t ht
      omega

namespace Lim
variable {σ α β : Type} {P : Prop} {w : World σ}

theorem const {f : StM (World σ) α} (h : (f w).1 = .panic → P)
    (hs : Uniform f w.st := by exact .of fun _ => rfl) : Lim (fun _ => f) w P := by
  obtain ⟨new, hs⟩ := hs
  refine ⟨(f ⟨w.st, []⟩).1, (f ⟨w.st, []⟩).2.st, new, fun _ sent _ => hs sent, fun _ sent _ => ⟨_, hs sent⟩, fun hp => h ?_⟩
  rw [show w = ⟨w.st, w.sent⟩ from rfl, hs]
  exact hp

theorem bind {f : Nat → StM (World σ) α} {g : Nat → α → StM (World σ) β} (hf : Lim f w P)
    (hg : ∀ n a w', f n w = (.ok a, w') → Lim (fun n => g n a) w' P) : Lim (fun n => f n >>= g n) w P := by
  obtain ⟨r, st, new, h0, h0', hp⟩ := hf
  obtain ⟨m, hm⟩ := fits new
  cases r with
  | ok a =>
    obtain ⟨r', st', new', h1, h1', hp'⟩ := hg m a _ (h0 _ w.sent hm)
    refine ⟨r', st', new ++ new', fun n sent hn => ?_, fun n sent hn => ?_, hp'⟩
    · show (f n >>= g n) _ = _
      rw [StM.bind_run, h0 n sent fun t ht => hn t (List.mem_append_left _ ht), ← List.append_assoc]
      exact h1 n (sent ++ new) fun t ht => hn t (List.mem_append_right _ ht)
    · obtain ⟨s1, e1⟩ := h0' n sent fun t ht => hn t (List.mem_append_left _ ht)
      obtain ⟨s2, e2⟩ := h1' n s1 fun t ht => hn t (List.mem_append_right _ ht)
      refine ⟨s2, ?_⟩
      show (f n >>= g n) _ = _
      rw [StM.bind_run, e1]
      exact e2
  | err e =>
    refine ⟨.err e, st, new, fun n sent hn => ?_, fun n sent hn => ?_, nofun⟩
    · show (f n >>= g n) _ = _
      rw [StM.bind_run, h0 n sent hn]
    · obtain ⟨s1, e1⟩ := h0' n sent hn
      refine ⟨s1, ?_⟩
      show (f n >>= g n) _ = _
      rw [StM.bind_run, e1]
  | panic =>
    refine ⟨.panic, st, new, fun n sent hn => ?_, fun n sent hn => ?_, fun _ => hp rfl⟩
    · show (f n >>= g n) _ = _
      rw [StM.bind_run, h0 n sent hn]
    · obtain ⟨s1, e1⟩ := h0' n sent hn
      refine ⟨s1, ?_⟩
      show (f n >>= g n) _ = _
      rw [StM.bind_run, e1]

theorem after {f : StM (World σ) α} {g : Nat → α → StM (World σ) β} (hf : (f w).1 = .panic → P)
    (hg : ∀ a w', f w = (.ok a, w') → Lim (fun n => g n a) w' P)
    (hs : Uniform f w.st := by exact .of fun _ => rfl) : Lim (fun n => f >>= g n) w P :=
  .bind (.const hf hs) fun _ => hg

theorem pure (a : α) : Lim (fun _ => (Pure.pure a : StM (World σ) α)) w P := .const nofun

theorem err (e : OTRError) : Lim (fun _ => (StM.lift (.err e) : StM (World σ) α)) w P := .const nofun

theorem cause {f : StM (World σ) α} (h : P) (hs : Uniform f w.st := by exact .of fun _ => rfl) :
    Lim (fun _ => f) w P := .const (fun _ => h) hs

end Lim

/-- The computation only adds to the messages sent, and does not depend on those. -/
def Grows (f : StM (World σ) α) : Prop := ∀ st, Uniform f st

namespace Grows
variable {σ α β : Type}

theorem of {f : StM (World σ) α} (h : ∀ st sent, f ⟨st, sent⟩ = ((f ⟨st, []⟩).1, ⟨(f ⟨st, []⟩).2.st, sent⟩)) : Grows f := fun st => .of (h st)

theorem bind {f : StM (World σ) α} {g : α → StM (World σ) β} (hf : Grows f) (hg : ∀ a, Grows (g a)) : Grows (f >>= g) := by
  intro st
  obtain ⟨n1, h1⟩ := hf st
  cases hx : f ⟨st, []⟩ with
  | mk r w' =>
    rw [hx] at h1
    cases r with
    | ok a =>
      obtain ⟨n2, h2⟩ := hg a w'.st
      refine ⟨n1 ++ n2, fun sent => ?_⟩
      rw [StM.bind_run, StM.bind_run, h1 sent, hx]
      simp only
      rw [h2, show w' = ⟨w'.st, w'.sent⟩ from rfl, h2 w'.sent, List.append_assoc]
    | err e => exact ⟨n1, fun sent => by rw [StM.bind_run, StM.bind_run, h1 sent, hx]⟩
    | panic => exact ⟨n1, fun sent => by rw [StM.bind_run, StM.bind_run, h1 sent, hx]⟩

theorem emit (ms : List Bytes) : Grows (Instance.emit ms : StM (World σ) Unit) := fun _ => ⟨ms, fun _ => rfl⟩

theorem attempt {f : StM (World σ) α} (h : Grows f) : Grows (Instance.attempt f) := by
  intro st
  obtain ⟨n, hn⟩ := h st
  refine ⟨n, fun sent => ?_⟩
  unfold Instance.attempt
  rw [hn sent]
  cases f ⟨st, []⟩ with
  | mk r w' => cases r <;> rfl

theorem ite {b : Prop} [Decidable b] {f g : StM (World σ) α} (hf : Grows f) (hg : Grows g) : Grows (if b then f else g) := by
  split
  · exact hf
  · exact hg

end Grows

namespace Session
open Instance
variable {E : Env} {A : Account} {c : Call} {P : Prop}

theorem lim_entry {k : UInt32} {f : Nat → InstM α} {w : World Session} (h : Lim f ⟨w.st.inst k, w.sent⟩ P) :
    Lim (fun n => entry k (f n)) w P := by
  obtain ⟨r, st, new, h0, h0', hp⟩ := h
  unfold Session.inst at h0 h0'
  refine ⟨r, { w.st with instances := insertKey w.st.instances k st }, new, fun n sent hn => ?_, fun n sent hn => ?_, hp⟩
  · have := h0 n sent hn
    simp only at this
    simp only [entry, this]
  · obtain ⟨s', this⟩ := h0' n sent hn
    simp only at this
    exact ⟨s', by simp only [entry, this]⟩

/-! ## Sending -/

theorem encodeMessage_ok {v : Version} (hv : v = .v3 ∨ v = .v4) {m : EncodedMessageType} (hm : ∀ b, m ≠ .unencoded b)
    (h4 : ∀ d, m = .data4 d → d.revealed.length % 64 = 0) (s r : UInt32) : ∃ text, encodeMessage v s r m = .ok text := by
  have h1 : ∃ x, encodeVersion v = .ok x := by rcases hv with rfl | rfl <;> exact ⟨_, rfl⟩
  have h2 : ∃ x, typeCode m = .ok x := by
    cases m with
    | unencoded b => exact absurd rfl (hm b)
    | _ => exact ⟨_, rfl⟩
  have h3 : ∃ x, wBody m = .ok x := by
    cases m with
    | unencoded b => exact absurd rfl (hm b)
    | data4 d => exact ⟨_, if_pos (h4 d rfl)⟩
    | _ => exact ⟨_, rfl⟩
  obtain ⟨x, h1⟩ := h1
  obtain ⟨y, h2⟩ := h2
  obtain ⟨z, h3⟩ := h3
  simp only [encodeMessage, serialize, encodeEncoded, h1, h2, h3, Res.bind_ok, Res.pure_def]
  exact ⟨_, rfl⟩

theorem payloads_ok {rnd : Rand} {v : Version} {k : UInt32} {n : Nat} {m : EncodedMessageType} {text : Bytes} (hA : 0x100 ≤ A.tag) (hv : v = .v3 ∨ v = .v4)
    (hk : ValidTag k) (ht : encodeMessage v A.tag k m = .ok text) (hn : Sendable n text) : ∃ out, payloads A (c.sized n) v k rnd text = .ok out := by
  by_cases hl : text.length ≤ n
  · exact ⟨_, if_pos hl⟩
  rcases hn with hn | ⟨h1, h2⟩
  · exact absurd hn hl
  have hh : headerSize v ≤ 45 := by rcases hv with rfl | rfl <;> decide
  have hc : text.length ≤ 65535 * (n - headerSize v) := Nat.le_trans h2 (Nat.mul_le_mul_left _ (by omega))
  have hbig : n < text.length := Nat.lt_of_not_le hl
  have heq := (Props.fragmentContent_eq (rnd := rnd.bytes [] 4) (sender := A.tag) (receiver := k) hv (by omega) hbig hc).1
  have F := Props.fragmented (fun _ => false) hv (rnd.length_bytes [] 4) (by omega) hbig hc hA
    (hk.imp_right UInt32.le_iff_toNat_le.mp) (Props.text_chars (m := ⟨v, A.tag, k, m⟩) ht) heq
  unfold payloads
  rw [show (c.sized n).messageSize = n from rfl, if_neg hl, heq]
  simp only [Res.bind_ok]
  have := F.fits
  revert this
  generalize numberFragments _ _ _ _ _ _ _ = fs
  clear heq F
  induction fs with
  | nil => intro _; exact ⟨[], rfl⟩
  | cons f fs ih =>
    intro hf
    obtain ⟨t, h1, _⟩ := hf f (by simp)
    obtain ⟨out, ho⟩ := ih fun g hg => hf g (by simp [hg])
    exact ⟨t :: out, by rw [List.mapM_cons, h1, ho]; rfl⟩

theorem lim_inject {rnd : Rand} {v : Version} {k : UInt32} {m : EncodedMessageType} {w : World Instance} (hT : 0x100 ≤ A.tag ∧ ValidTag k) (hv : v = .v3 ∨ v = .v4)
    (hk : w.st.receiver = k) (hm : ∀ b, m ≠ .unencoded b) (h4 : ∀ d, m = .data4 d → d.revealed.length % 64 = 0) :
    Lim (fun n => inject A (c.sized n) rnd v k m) w P := by
  refine .after nofun fun own w1 h1 => ?_
  cases h1
  have ha : Res.assert (k != 0 && w.st.receiver == 0 || w.st.receiver == k) = .ok () := by simp [hk, Res.assert]
  have hl : ∀ r, (StM.lift (Res.assert (k != 0 && w.st.receiver == 0 || w.st.receiver == k)) w : Res Unit × World Instance) = r →
      (.ok (), w) = r := fun r h => by rw [StM.lift, ha] at h; exact h
  refine .after (fun h => by cases (congrArg Prod.fst (hl _ rfl)).trans h) fun _ w2 h2 => ?_
  cases hl _ h2
  obtain ⟨text, ht⟩ := encodeMessage_ok hv hm h4 A.tag w.st.receiver
  refine .after (by rw [ht]; nofun) fun t w3 h3 => ?_
  rw [ht] at h3
  cases h3
  refine ⟨.ok (), w.st, [text], fun n sent hn => ?_, fun n sent hn => ?_, nofun⟩
  · have : payloads A (c.sized n) v w.st.receiver rnd text = .ok [text] := if_pos (hn text (List.mem_singleton_self _))
    simp only [StM.bind_run, this]
    rfl
  · obtain ⟨out, ho⟩ := payloads_ok (c := c) (rnd := rnd) hT.1 hv (hk ▸ hT.2) ht (hn text (List.mem_singleton_self _))
    refine ⟨sent ++ out, ?_⟩
    simp only [StM.bind_run, ho]
    rfl

theorem kind_unencoded {m : EncodedMessageType} (h : IsKeyExchange m) : (∀ b, m ≠ .unencoded b) ∧ ∀ d, m = .data4 d → d.revealed.length % 64 = 0 := by
  cases m <;> simp_all [IsKeyExchange]

theorem lim_kex {rnd : Rand} {v : Version} {k : UInt32} {m : EncodedMessageType} {w : World Instance} (hT : 0x100 ≤ A.tag ∧ ValidTag k) (hv : v = .v3 ∨ v = .v4)
    (hk : w.st.receiver = k) (hm : IsKeyExchange m) : Lim (fun n => inject A (c.sized n) rnd v k m) w P :=
  lim_inject hT hv hk (kind_unencoded hm).1 (kind_unencoded hm).2

/-! ## Texts -/

theorem parse_panic (hnd : ∀ n, E.nd n = true → n.isValidChar) {text : Bytes} (h : parse E text = .panic) : BadText E.nd text := by
  by_cases he : OTR_ENCODED_PREFIX <+: text ∧ [0x2e] <:+ text
  · obtain ⟨h1, h2⟩ := he
    have hc : (OTR_ENCODED_PREFIX.isPrefixOf text && OTR_ENCODED_SUFFIX.isSuffixOf text) = true := by
      rw [Bool.and_eq_true, List.isPrefixOf_iff_prefix, List.isSuffixOf_iff_suffix]; exact ⟨h1, h2⟩
    unfold parse at h
    rw [if_pos hc] at h
    obtain ⟨d, hd, hz⟩ := Props.C36_decode_partial E _ h
    obtain ⟨a, rfl⟩ := h1
    have ha : ∃ b, a = b ++ [0x2e] := by
      obtain ⟨b, hb⟩ := h2
      rcases List.eq_nil_or_concat a with rfl | ⟨b', x, rfl⟩
      · exfalso
        have := congrArg List.getLast? hb
        simp [OTR_ENCODED_PREFIX] at this
      · have := congrArg List.getLast? hb
        simp at this
        exact ⟨b', by rw [List.concat_eq_append, this]⟩
    obtain ⟨b, rfl⟩ := ha
    refine .zeros (List.append_assoc _ _ _).symm ?_ hz
    have : ((OTR_ENCODED_PREFIX ++ (b ++ [0x2e])).drop 5).take ((OTR_ENCODED_PREFIX ++ (b ++ [0x2e])).length - 6) = b := by
      have h5 : OTR_ENCODED_PREFIX.length = 5 := rfl
      rw [show (5 : Nat) = OTR_ENCODED_PREFIX.length from rfl, List.drop_left]
      have : (OTR_ENCODED_PREFIX ++ (b ++ [0x2e])).length - 6 = b.length := by simp [h5]; omega
      rw [this, List.take_left]
    rw [this] at hd
    exact hd
  · obtain ⟨h1, ⟨m, h2, h3⟩ | ⟨hn, m, h2, h3⟩⟩ := (Props.C10_exact E hnd text he).mp h
    · exact .query h1 h2 h3
    · exact .tag h1 hn h2 h3

theorem fragment_panic (hnd : ∀ n, E.nd n = true → n.isValidChar) {payload : Bytes} (h : parseFragment E.nd payload = .panic) :
    BadFragment E.nd payload := (Props.C09_exact hnd payload).mp h

/-! ## OTRv3 -/

/-- A state of an instance from which the theorems about sessions apply. -/
structure Ready (E : Env) (A : Account) (k : UInt32) (i : Instance) : Prop where
  tags : 0x100 ≤ A.tag ∧ ValidTag k
  receiver : i.receiver = k
  alive : Props.Alive E i.state
  ake : AkeOk E i.ake
  dake : DakeOk E i.dake
  pts : Pts E i

theorem lim_secure {mat : AKEMaterial} {g : Nat → Unit → InstM UserMessage} {k : UInt32} {w : World Instance}
    (ho : ¬ InRange E.dh mat.ourDh.pub → P) (ht : mat.theirDh ≠ 0) (h4 : ∀ x smp, w.st.state = .encrypted4 x smp → P)
    (hg : ∀ w' : World Instance, w'.st.receiver = w.st.receiver → Lim (fun n => g n ()) w' P) :
    Lim (fun n => secure E A (c.sized n) k mat >>= g n) w P := by
  by_cases hr : InRange E.dh mat.ourDh.pub
  · by_cases h4' : ∃ x smp, w.st.state = .encrypted4 x smp
    · obtain ⟨x, smp, h⟩ := h4'
      refine .after (f := secure E A (c.sized 0) k mat) (fun _ => h4 x smp h) fun _ w' h => hg w' ?_
      exact (congrArg (fun x => x.2.st.receiver) h).symm
    · obtain ⟨s', hs⟩ := Props.secure3_ok (E := E) (our := A.tag) (their := k) (rnd := c.rnd.sub 1) (mat := mat) (s := w.st.state)
        (fun x smp h => h4' ⟨x, smp, h⟩) hr ht
      refine .after (f := secure E A (c.sized 0) k mat) (fun h => ?_) fun _ w' h => hg w' ?_
      · simp only [secure, onState, Call.sized, hs] at h
        cases h
      · exact (congrArg (fun x => x.2.st.receiver) h).symm
  · refine .after (f := secure E A (c.sized 0) k mat) (fun _ => ho hr) fun _ w' h => hg w' ?_
    exact (congrArg (fun x => x.2.st.receiver) h).symm

theorem onAke_world {f : StM AKEState α} {w w' : World Instance} {r : Res α} (h : onAke f w = (r, w')) :
    f w.st.ake = (r, w'.st.ake) ∧ w'.st.receiver = w.st.receiver ∧ w'.st.state = w.st.state := by
  cases h; exact ⟨rfl, rfl, rfl⟩

/-- What is needed of the SMP and of the session in order to handle a TLV. -/
def SmpFine (E : Env) (c : Call) (v : Version) (s : PState) (t : TLV) (P : Prop) : Prop :=
  ((smpHandle E c (c.rnd.sub 1) v t s).1 = .panic → P) ∧
  ∀ reply s', smpHandle E c (c.rnd.sub 1) v t s = (.ok reply, s') → (P ∨ ∃ st, smpStatus v s' = .ok st ∧ st ≠ .initial) ∧
    ∀ r, reply = some r → (tlvOk r = false → P) ∧ ∀ res s'', PState.prepare E IGNORE_UNREADABLE (wU8 0 ++ wTlv r) ((c.rnd.sub 2).sub 0) c.now s' = (res, s'') →
      (res = .panic → P) ∧ ∀ m, res = .ok m → (∀ b, m ≠ .unencoded b) ∧ (∀ d, m = .data4 d → d.revealed.length % 64 = 0) ∧ s''.version = v ∧
        smpStatus v s'' = smpStatus v s'

theorem grows_status (v : Version) : Grows (do
    let own ← StM.gets fun w => w.st.receiver
    match ← StM.query fun w => smpStatus v w.st.state with
    | .inProgress => return .none
    | .completed => return .smpSucceeded own
    | .aborted => return .smpFailed own
    | .initial => StM.lift .panic : InstM UserMessage) := by
  refine .bind (.of fun _ _ => rfl) fun own => .bind (.of fun _ _ => rfl) fun st => ?_
  cases st <;> exact .of fun _ _ => rfl

theorem grows_unreadable (flags : UInt8) (own : UInt32) : Grows (do
    emit [← StM.lift (serialize (.error UNREADABLE))]
    if flags &&& IGNORE_UNREADABLE = IGNORE_UNREADABLE then return .none
    else StM.lift (.err (.unreadableMessage own)) : InstM UserMessage) :=
  .bind (.of fun _ _ => rfl) fun _ => .bind (.emit _) fun _ => .ite (.of fun _ _ => rfl) (.of fun _ _ => rfl)

theorem grows_error (E : Env) (A : Account) (c : Call) (v : Version) (k : UInt32) (flags : UInt8) (e : OTRError) :
    Grows (handleDecrypted E A c v k flags (.err e)) := by
  refine .bind (.of fun _ _ => rfl) fun own => ?_
  cases e with
  | unreadableMessage t => exact grows_unreadable flags own
  | _ => exact .of fun _ _ => rfl

theorem inject_state {rnd : Rand} {v : Version} {k : UInt32} {m : EncodedMessageType} {w w' : World Instance} {r : Res Unit}
    (h : inject A c rnd v k m w = (r, w')) : w'.st = w.st := by
  have : Keeps (fun a b : Instance => b = a) (inject A c rnd v k m) := by
    have hR : Pre (fun a b : Instance => b = a) := ⟨fun _ => rfl, fun h h' => h'.trans h⟩
    exact .bind hR (.gets hR _) fun _ => .bind hR (.lift hR _) fun _ => .bind hR (.lift hR _) fun _ => .bind hR (.lift hR _) fun _ => .emit hR _
  have := this w
  rw [h] at this
  exact this

theorem sendTlv_state {rnd : Rand} {k : UInt32} {t : TLV} {w w' : World Instance} {u : Unit}
    (h : sendTlv E A c rnd k t w = (.ok u, w')) :
    ∃ m, PState.prepare E IGNORE_UNREADABLE (wU8 0 ++ wTlv t) (rnd.sub 0) c.now w.st.state = (.ok m, w'.st.state) := by
  unfold sendTlv at h
  simp only [StM.bind_eq_ok] at h
  obtain ⟨plain, w1, h1, m, w2, h2, v, w3, h3, h4⟩ := h
  have hp : plain = wU8 0 ++ wTlv t ∧ w1 = w := by
    have e1 := congrArg Prod.fst h1
    have e2 := congrArg Prod.snd h1
    simp only [StM.lift, tlvPlain, Res.bind_eq_ok, Res.pure_def, Res.ok.injEq] at e1
    obtain ⟨_, _, e1⟩ := e1
    exact ⟨e1.symm, e2.symm⟩
  obtain ⟨rfl, rfl⟩ := hp
  cases h3
  refine ⟨m, ?_⟩
  have h5 := inject_state h4
  rw [h5]
  exact Prod.ext (congrArg (fun x => x.1) h2) (congrArg (fun x => x.2.st.state) h2)

theorem lim_sendTlv {v : Version} {k : UInt32} (hT : 0x100 ≤ A.tag ∧ ValidTag k) (hv : v = .v3 ∨ v = .v4) {rnd : Rand} {t : TLV} {w : World Instance} (hk : w.st.receiver = k)
    (ht : tlvOk t = false → P)
    (hpre : ∀ res s'', PState.prepare E IGNORE_UNREADABLE (wU8 0 ++ wTlv t) (rnd.sub 0) c.now w.st.state = (res, s'') →
      (res = .panic → P) ∧ ∀ m, res = .ok m → (∀ b, m ≠ .unencoded b) ∧ (∀ d, m = .data4 d → d.revealed.length % 64 = 0) ∧ s''.version = v) :
    Lim (fun n => sendTlv E A (c.sized n) rnd k t) w P := by
  unfold sendTlv
  refine .after (fun h => ?_) fun plain w1 h1 => ?_
  · refine ht ?_
    cases ho : tlvOk t with
    | false => rfl
    | true =>
      simp only [StM.lift, tlvPlain, ho, Res.assert, if_true, Res.bind_ok, Res.pure_def] at h
      cases h
  · have hp : plain = wU8 0 ++ wTlv t ∧ w1 = w := by
      have e1 := congrArg Prod.fst h1
      have e2 := congrArg Prod.snd h1
      simp only [StM.lift, tlvPlain, Res.bind_eq_ok, Res.pure_def, Res.ok.injEq] at e1
      obtain ⟨_, _, e1⟩ := e1
      exact ⟨e1.symm, e2.symm⟩
    obtain ⟨rfl, rfl⟩ := hp
    refine .after (f := onState (PState.prepare E IGNORE_UNREADABLE (wU8 0 ++ wTlv t) (rnd.sub 0) c.now)) (fun h => ?_) fun m w2 h2 => ?_
    · exact (hpre _ _ rfl).1 h
    · have hw : PState.prepare E IGNORE_UNREADABLE (wU8 0 ++ wTlv t) (rnd.sub 0) c.now w1.st.state = (.ok m, w2.st.state) :=
        Prod.ext (congrArg (fun x => x.1) h2) (congrArg (fun x => x.2.st.state) h2)
      have hr : w2.st.receiver = w1.st.receiver := (congrArg (fun x => x.2.st.receiver) h2).symm
      obtain ⟨h3, h4, h5⟩ := (hpre _ _ hw).2 m rfl
      refine .after nofun fun v' w3 h6 => ?_
      cases h6
      refine lim_inject hT ?_ (hr.trans hk) h3 h4
      show w2.st.state.version = .v3 ∨ w2.st.state.version = .v4
      rw [h5]; exact hv

theorem lim_handleSmp {v : Version} {k : UInt32} (hT : 0x100 ≤ A.tag ∧ ValidTag k) (hv : v = .v3 ∨ v = .v4) {tlvs : List TLV} {w : World Instance} (hk : w.st.receiver = k)
    (ha : tlvs.any (isSmpTlv v) = true) (hS : ∀ t, t ∈ tlvs → isSmpTlv v t = true → SmpFine E c v w.st.state t P) :
    Lim (fun n => handleSmp E A (c.sized n) v k tlvs) w P := by
  unfold handleSmp
  by_cases h1 : 1 < (tlvs.filter (isSmpTlv v)).length
  · simp only [if_pos h1]
    exact .err _
  · simp only [if_neg h1]
    cases hf : tlvs.find? (isSmpTlv v) with
    | none =>
      exfalso
      rw [List.find?_eq_none] at hf
      obtain ⟨t, h2, h3⟩ := List.any_eq_true.mp ha
      exact hf t h2 h3
    | some t =>
      obtain ⟨hp, hS⟩ := hS t (List.mem_of_find?_eq_some hf) (List.find?_some hf)
      simp only
      refine .after (f := onState (smpHandle E c (c.rnd.sub 1) v t)) hp fun reply w1 h1 => ?_
      have hw : smpHandle E c (c.rnd.sub 1) v t w.st.state = (.ok reply, w1.st.state) ∧ w1.st.receiver = w.st.receiver := by
        have h2 : w1 = (onState (smpHandle E c (c.rnd.sub 1) v t) w).2 := by rw [h1]
        exact ⟨Prod.ext (congrArg (fun x => x.1) h1) (by rw [h2]; rfl), by rw [h2]; rfl⟩
      obtain ⟨hst, hrep⟩ := hS reply w1.st.state hw.1
      have fin : ∀ w2 : World Instance, smpStatus v w2.st.state = smpStatus v w1.st.state → Lim (fun _ => (do
          let own ← StM.gets fun w => w.st.receiver
          match ← StM.query fun w => smpStatus v w.st.state with
          | .inProgress => return .none
          | .completed => return .smpSucceeded own
          | .aborted => return .smpFailed own
          | .initial => StM.lift .panic : InstM UserMessage)) w2 P := by
        intro w2 h2
        rcases hst with hp | ⟨st, hst, hne⟩
        · exact .cause hp (grows_status v w2.st)
        rw [hst] at h2
        refine .after nofun fun own w3 h3 => ?_
        cases h3
        refine .after (by show smpStatus v w2.st.state = .panic → P; rw [h2]; nofun) fun st' w4 h4 => ?_
        have : st' = st := by
          have := congrArg Prod.fst h4
          exact Res.ok.inj (this.symm.trans h2)
        subst this
        cases st' with
        | initial => exact absurd rfl hne
        | _ => exact .pure _
      cases reply with
      | none =>
        refine .after nofun fun own w2 h2 => ?_
        cases h2
        exact fin w1 rfl
      | some r =>
        obtain ⟨ht, hpre⟩ := hrep r rfl
        have hL : Lim (fun n => sendTlv E A (c.sized n) (c.rnd.sub 2) k r) w1 P :=
          lim_sendTlv hT hv (hw.2.trans hk) ht fun res s'' h => ⟨(hpre res s'' h).1, fun m hm =>
            ⟨((hpre res s'' h).2 m hm).1, ((hpre res s'' h).2 m hm).2.1, ((hpre res s'' h).2 m hm).2.2.1⟩⟩
        refine .bind hL fun n _ w2 h2 => ?_
        · obtain ⟨m, hm⟩ := sendTlv_state h2
          have := ((hpre _ _ hm).2 m rfl).2.2.2
          exact fin w2 this

theorem smp_prepare {x : Enc3} {smp : SMPContext} {plain : Bytes} {rnd : Rand} {res : Res EncodedMessageType} {s'' : PState}
    {x0 : Enc3} {l : List Ev3} (hf : Fresh3 E x0) (hl : Life3 E x0 l x) (hP : Stuck3 E x IGNORE_UNREADABLE plain → P)
    (h : PState.prepare E IGNORE_UNREADABLE plain rnd c.now (.encrypted3 x smp) = (res, s'')) :
    (res = .panic → P) ∧ ∀ m, res = .ok m → (∀ b, m ≠ .unencoded b) ∧ (∀ d, m = .data4 d → d.revealed.length % 64 = 0) ∧ s''.version = .v3 ∧
      smpStatus .v3 s'' = .ok smp.status := by
  simp only [PState.prepare, StM.bind_run] at h
  constructor
  · intro hp
    subst hp
    by_contra hn
    obtain ⟨m, x', he⟩ := (Props.C43_send_partial E x0 x l hf hl IGNORE_UNREADABLE plain).1 fun hx => hn (hP hx)
    rw [he] at h
    cases congrArg Prod.fst h
  · intro m hm
    subst hm
    revert h
    cases Enc3.encrypt E IGNORE_UNREADABLE plain x with
    | mk r x' =>
      cases r with
      | ok d =>
        intro h
        cases h
        exact ⟨nofun, nofun, rfl, rfl⟩
      | err e => intro h; cases congrArg Prod.fst h
      | panic => intro h; cases congrArg Prod.fst h

theorem lim_data3 (hG : SmpGroup E.dh) {snd rcv : UInt32} {d : DataMessage} {w : World Instance} (hr : Ready E A snd w.st)
    (hd : Decoded d) (hP : Crash3 E c w.st.ake ⟨.v3, snd, rcv, .data d⟩ w.st.state → P) :
    Lim (fun n => do
      let r ← attempt (onState (PState.handle3 E d (authenticatorData 3 snd rcv d) (c.rnd.bytes [0] 192)))
      handleDecrypted E A (c.sized n) .v3 snd d.flags r) w P := by
  have hst := hr.alive
  have herr : ∀ s e, PState.handle3 E d (authenticatorData 3 snd rcv d) (c.rnd.bytes [0] 192) w.st.state = (.err e, s) →
      Lim (fun n => do
        let r ← attempt (onState (PState.handle3 E d (authenticatorData 3 snd rcv d) (c.rnd.bytes [0] 192)))
        handleDecrypted E A (c.sized n) .v3 snd d.flags r) w P := by
    intro s e he
    have ha : attempt (onState (PState.handle3 E d (authenticatorData 3 snd rcv d) (c.rnd.bytes [0] 192))) w =
        (.ok (.err e), { w with st := { w.st with state := s } }) := by simp only [attempt, onState, he]
    refine .after (by rw [ha]; nofun) (hs := Grows.attempt (.of fun _ _ => rfl) w.st) fun r w1 h1 => ?_
    rw [ha] at h1
    cases h1
    have : ∀ n, handleDecrypted E A (c.sized n) .v3 snd d.flags (.err e) = handleDecrypted E A (c.sized 0) .v3 snd d.flags (.err e) := by
      intro n
      cases e <;> rfl
    simp only [this]
    refine .const (fun h => ?_) (grows_error _ _ _ _ _ _ _ _)
    exfalso
    cases e with
    | unreadableMessage t =>
      simp only [handleDecrypted, StM.bind_run, StM.gets, StM.lift, serialize, emit] at h
      split at h <;> cases h
    | _ => cases h
  have hx : (∃ x smp, w.st.state = .encrypted3 x smp) ∨ ∃ e, PState.handle3 E d (authenticatorData 3 snd rcv d) (c.rnd.bytes [0] 192) w.st.state = (.err e, w.st.state) := by
    cases w.st.state with
    | encrypted3 x smp => exact .inl ⟨x, smp, rfl⟩
    | _ => exact .inr ⟨_, rfl⟩
  rcases hx with ⟨x, smp, hx⟩ | ⟨e, he⟩
  swap
  · exact herr _ e he
  rw [hx] at hst hP
  obtain ⟨x0, l, l', hf, hl, hsl⟩ := hst.1 x smp rfl
  cases hh : Enc3.handle E d (authenticatorData 3 snd rcv d) (c.rnd.bytes [0] 192) x with
  | mk res x' =>
    have h3 : PState.handle3 E d (authenticatorData 3 snd rcv d) (c.rnd.bytes [0] 192) w.st.state =
        PState.transition (PState.with3 smp (res, x')) := by rw [hx]; simp only [PState.handle3, hh]
    cases res with
    | err e => exact herr _ e h3
    | panic =>
      have hp : P := by
        exact hP (.data rfl ((Props.C43_receive_partial E x0 x l hf hl d hd _ _).mp (congrArg Prod.fst hh)))
      have ha : attempt (onState (PState.handle3 E d (authenticatorData 3 snd rcv d) (c.rnd.bytes [0] 192))) w =
          (.panic, { w with st := { w.st with state := .encrypted3 x' smp } }) := by simp only [attempt, onState, h3]; rfl
      exact .after (fun _ => hp) (hs := Grows.attempt (.of fun _ _ => rfl) w.st) fun r w1 h1 => by rw [ha] at h1; cases h1
    | ok res =>
      obtain ⟨msg, last⟩ := res
      have ha : attempt (onState (PState.handle3 E d (authenticatorData 3 snd rcv d) (c.rnd.bytes [0] 192))) w =
          (.ok (.ok msg), { w with st := { w.st with state := if last then .finished else .encrypted3 x' smp } }) := by
        simp only [attempt, onState, h3]; cases last <;> rfl
      refine .after (by rw [ha]; nofun) (hs := Grows.attempt (.of fun _ _ => rfl) w.st) fun r w1 h1 => ?_
      rw [ha] at h1
      cases h1
      have hto : DecryptsTo E c ⟨.v3, snd, rcv, .data d⟩ (.encrypted3 x smp) msg (if last then .finished else .encrypted3 x' smp) :=
        .inl ⟨x, smp, d, x', last, rfl, rfl, rfl, hh, rfl⟩
      cases msg with
      | confidentialFinished content => exact .after nofun fun own w3 h3 => .pure _
      | confidential content tlvs =>
        refine .after nofun fun own w1 h1 => ?_
        cases h1
        simp only
        by_cases hany : tlvs.any (isSmpTlv .v3) = true
        swap
        · simp only [hany]
          exact .pure _
        simp only [hany, if_true]
        have hlast : last = false := by
          obtain ⟨rd, _, _, _, _, _, _, h4, h5⟩ := handle_decrypt hh
          obtain ⟨p, rfl⟩ := h4 _ rfl
          have h5 := h5 p rfl
          revert h5
          cases parseMessage p with
          | ok m => cases m <;> simp
          | _ => simp
        subst hlast
        simp only [Bool.false_eq_true, if_false] at hto ⊢
        refine lim_handleSmp hr.tags (.inl rfl) (show w.st.receiver = snd from hr.receiver) hany fun t ht hs => ?_
        have hl' : Life3 E x0 _ x' := .recv hl hd hh nofun
        by_cases hk : c.keypair = .none
        · have hp : P := hP (.smpKey hto hany hk)
          refine ⟨fun _ => hp, fun reply s' hr' => ⟨.inl hp, fun r hrep => ⟨fun _ => hp, fun res s'' hpre => ?_⟩⟩⟩
          obtain ⟨smp', rfl⟩ : ∃ smp', s' = .encrypted3 x' smp' := by
            simp only [smpHandle, PState.onSmp] at hr'
            exact ⟨_, (congrArg Prod.snd hr').symm⟩
          exact smp_prepare hf hl' (fun _ => hp) hpre
        · obtain ⟨r, smp', h1, h2⟩ := Props.C52_otr3_restart hG hsl.1 (host := c.smp) (by
            cases hc : c.keypair with
            | none => exact absurd hc hk
            | some dsa => simp [Call.smp, hc]) (t := t) (by
              have := (Props.isSmpTlv_iff (.inl rfl) t).mp hs
              simp only [SmpType, List.mem_cons, List.not_mem_nil, or_false, true_and] at this ⊢
              tauto) (c.rnd.sub 1)
          have h3 : smpHandle E c (c.rnd.sub 1) .v3 t (.encrypted3 x' smp) = (.ok r, .encrypted3 x' smp') := by
            simp only [smpHandle, PState.onSmp, h1]
          refine ⟨fun h => ?_, fun reply s' hr' => ?_⟩
          · rw [show smpHandle E c (c.rnd.sub 1) .v3 t _ = _ from h3] at h; cases h
          · rw [show smpHandle E c (c.rnd.sub 1) .v3 t _ = _ from h3] at hr'
            cases hr'
            refine ⟨.inr ⟨smp'.status, rfl, ?_⟩, fun answer hrep => ?_⟩
            · rcases h2 with h | ⟨h | h, _⟩ <;> rw [h] <;> nofun
            · subst hrep
              refine ⟨fun h => hP (.smpAnswer hto ht h1 (.inl ?_)), fun res s'' hpre => ?_⟩
              · simp only [tlvOk, decide_eq_false_iff_not] at h; omega
              · exact smp_prepare hf hl' (fun hx => hP (.smpAnswer hto ht h1 (.inr hx))) hpre

theorem lim_process3 (hG : SmpGroup E.dh) {m : EncodedMessage} {w : World Instance} (hr : Ready E A m.sender w.st) (hv : m.version = .v3)
    (hd : ∀ d, m.message = .data d → Decoded d) (hu : ∀ b, m.message ≠ .unencoded b) (hP : Crash3 E c w.st.ake m w.st.state → P) :
    Lim (fun n => process E A (c.sized n) m) w P := by
  obtain ⟨v, snd, rcv, msg⟩ := m
  simp only at hv
  subst hv
  refine .after nofun fun own w1 h1 => ?_
  cases h1
  have hlife := hr.ake
  cases msg with
  | dhCommit d =>
    refine .after (f := onAke (AKE.handleDhCommit E d (c.rnd.sub 0))) (fun h => ?_) fun r w1 h1 => ?_
    · exact absurd h ((Props.C67_no_panic (E := E) default w.st.ake).1 d _)
    · obtain ⟨ha, hrec, _⟩ := onAke_world h1
      exact .bind (lim_kex (rnd := c.rnd.sub 3) hr.tags (.inl rfl) (hrec.trans hr.receiver) (handleDhCommit_kind ha)) fun _ _ _ _ => .pure _
  | dhKey d =>
    refine .after (f := onAke (AKE.handleDhKey E c.keypair d)) (fun h => ?_) fun r w1 h1 => ?_
    · cases hk : c.keypair with
      | none => exact hP (.noKey hk (.inl ⟨d, rfl⟩))
      | some dsa => rw [hk] at h; exact absurd h ((Props.C67_no_panic (E := E) dsa w.st.ake).2.1 d)
    · obtain ⟨ha, hrec, _⟩ := onAke_world h1
      exact .bind (lim_kex (rnd := c.rnd.sub 3) hr.tags (.inl rfl) (hrec.trans hr.receiver) (handleDhKey_kind ha)) fun _ _ _ _ => .pure _
  | revealSignature d =>
    refine .after (f := onAke (AKE.handleRevealSignature E c.keypair d)) (fun h => ?_) fun r w1 h1 => ?_
    · cases hk : c.keypair with
      | none => exact hP (.noKey hk (.inr ⟨d, rfl⟩))
      | some dsa => rw [hk] at h; exact absurd h ((Props.C67_no_panic (E := E) dsa w.st.ake).2.2.1 d)
    · obtain ⟨ha, hrec, hst⟩ := onAke_world h1
      obtain ⟨mat, reply⟩ := r
      have hmat : OwnDh w.st.ake mat.ourDh ∧ mat.theirDh ≠ 0 := by
        have hx := ha
        rw [AKE.handleRevealSignature, transact_ok] at hx
        cases hs : w.st.ake with
        | awaitingRevealSignature kp enc hashed =>
          rw [hs] at hx
          simp only [Res.bind_eq_ok, Res.pure_def, Res.ok.injEq, Prod.mk.injEq] at hx
          obtain ⟨⟨mat', reply'⟩, hx, ⟨rfl, rfl⟩, _⟩ := hx
          obtain ⟨gx, pk, keyid, sig, dsa', rest, _, _, _, _, hgx, _, _, _, rfl, hrep⟩ := AKE.answerRevealSignature_ok hx
          exact ⟨.inl ⟨_, _, rfl⟩, by have := hgx.1; have := hG.two_le; simp only; omega⟩
        | _ => rw [hs] at hx; simp at hx
      simp only
      refine lim_secure (fun ho => hP (.badKey (.inl ⟨d, rfl⟩) hmat.1 ho)) hmat.2 (fun x smp h => ?_) fun w2 hw => ?_
      · rw [hst] at h
        exact hP (h ▸ .downgrade (.inl ⟨d, rfl⟩))
      · exact .bind (lim_kex (rnd := c.rnd.sub 3) hr.tags (.inl rfl) (hw.trans (hrec.trans hr.receiver)) (handleRevealSignature_kind ha)) fun _ _ _ _ => .pure _
  | signature d =>
    refine .after (f := onAke (AKE.handleSignature E d)) (fun h => ?_) fun mat w1 h1 => ?_
    · exact absurd h ((Props.C67_no_panic (E := E) default w.st.ake).2.2.2 d)
    · obtain ⟨ha, hrec, hst⟩ := onAke_world h1
      have hmat : OwnDh w.st.ake mat.ourDh ∧ mat.theirDh ≠ 0 := by
        have hx := ha
        obtain ⟨hist, hlife⟩ := hlife
        have hinv := AKE.life_inv hlife
        rw [AKE.handleSignature, transact_ok] at hx
        cases hs : w.st.ake with
        | awaitingSignature kp gy sec prev =>
          rw [hs] at hx hinv
          simp only [Res.bind_eq_ok, Res.pure_def, Res.ok.injEq, Prod.mk.injEq] at hx
          obtain ⟨mat', hx, rfl, _⟩ := hx
          obtain ⟨pk, keyid, sig, _, _, _, rfl⟩ := AKE.acceptSignature_ok hx
          obtain ⟨_, _, _, _, hgy⟩ := hinv
          exact ⟨.inr ⟨_, _, _, rfl⟩, by have := hgy.1; have := hG.two_le; simp only; omega⟩
        | _ => rw [hs] at hx; simp at hx
      refine lim_secure (fun ho => hP (.badKey (.inr ⟨d, rfl⟩) hmat.1 ho)) hmat.2 (fun x smp h => ?_) fun w2 hw => .pure _
      rw [hst] at h
      exact hP (h ▸ .downgrade (.inr ⟨d, rfl⟩))
  | data d => exact lim_data3 hG hr (hd d rfl) hP
  | unencoded b => exact absurd rfl (hu b)
  | identity d => exact .err _
  | authR d => exact .err _
  | authI d => exact .err _
  | data4 d => exact .err _

/-! ## OTRv4 -/

theorem validate_panic {d : DataMessage4} (h : d.validate E = .panic) : Valid4 E d ∧ ¬ NonZero d.authenticator := by
  have v1 : ∀ P, Point.verify E.curve P ≠ .panic := by intro P; unfold Point.verify; split <;> nofun
  have v2 : ∀ v, DH.verify3 E.dh3 v ≠ .panic := by intro v; unfold DH.verify3; split <;> nofun
  unfold DataMessage4.validate at h
  split at h
  · cases h
  · rename_i h0
    have h' : (∀ v, d.dh = some v → DH.verify3 E.dh3 v = .ok ()) ∧ Point.verify E.curve d.ecdh = .ok () ∧
        (if d.revealed.length % 64 ≠ 0 then .err .protocolViolation
          else if d.i > 0 ∧ d.j = 0 ∧ d.revealed.length / 64 = 0 then .err .protocolViolation
          else Res.assert (anyNonzero d.authenticator)) = .panic := by
      cases hd : d.dh with
      | none =>
        simp only [hd, Res.bind_eq_panic, v1, false_or, Res.pure_def, reduceCtorEq] at h
        obtain ⟨_, _, _, h2, h3⟩ := h
        exact ⟨by simp, h2, h3⟩
      | some w =>
        simp only [hd, Res.bind_eq_panic, v1, v2, false_or] at h
        obtain ⟨_, h1, _, h2, h3⟩ := h
        exact ⟨by rintro v hv; rw [← Option.some.inj hv]; exact h1, h2, h3⟩
    obtain ⟨h1, h2, h3⟩ := h'
    split at h3
    · cases h3
    · rename_i h4
      split at h3
      · cases h3
      · rename_i h5
        have h0 : (d.i % 3 == 0) = d.dh.isSome := by simpa using h0
        refine ⟨⟨?_, fun v hv => Props.verify3_iff.mp (h1 v hv), Props.pointVerify_iff.mp h2, by simpa using h4, ?_⟩, fun hz => ?_⟩
        · rw [← Option.isSome_iff_exists, ← h0, beq_iff_eq, ← UInt32.toNat_inj, UInt32.toNat_mod]
          rfl
        · intro hi hj hr
          apply h5
          refine ⟨?_, hj, by rw [hr]; rfl⟩
          rw [gt_iff_lt, UInt32.lt_iff_toNat_lt]
          exact hi
        · rw [anyNonzero_iff.mpr hz] at h3
          cases h3

theorem onDake_world {f : StM DAKEState α} {w w' : World Instance} {r : Res α} (h : onDake f w = (r, w')) :
    f w.st.dake = (r, w'.st.dake) ∧ w'.st.receiver = w.st.receiver ∧ w'.st.state = w.st.state := by
  cases h; exact ⟨rfl, rfl, rfl⟩

theorem smp_prepare4 (hc : GoodCurve E.curve) {x : Enc4} {smp : SMP4Context} {plain : Bytes} {rnd : Rand} {res : Res EncodedMessageType} {s'' : PState}
    (hx : Sound4 E x.ratchet) (hP : Stuck4 E x.our x.their IGNORE_UNREADABLE plain rnd c.now x.ratchet → P)
    (h : PState.prepare E IGNORE_UNREADABLE plain rnd c.now (.encrypted4 x smp) = (res, s'')) :
    (res = .panic → P) ∧ ∀ m, res = .ok m → (∀ b, m ≠ .unencoded b) ∧ (∀ d, m = .data4 d → d.revealed.length % 64 = 0) ∧ s''.version = .v4 ∧
      smpStatus .v4 s'' = .ok smp.status := by
  simp only [PState.prepare, StM.bind_run] at h
  constructor
  · intro hp
    subst hp
    by_contra hn
    obtain ⟨m, d', he⟩ := encrypt4_safe hc hx.1 (rv := []) rfl (fun hs => by simpa using hx.2 hs) x.our x.their IGNORE_UNREADABLE plain c.now
      fun hs => hn (hP hs)
    have he' : Enc4.encrypt E IGNORE_UNREADABLE plain rnd c.now x = (.ok m, { x with ratchet := d' }) := by
      unfold Enc4.encrypt Enc4.onRatchet
      rw [he]
    rw [he'] at h
    cases congrArg Prod.fst h
  · intro m hm
    subst hm
    revert h
    cases he : Enc4.encrypt E IGNORE_UNREADABLE plain rnd c.now x with
    | mk r x' =>
      cases r with
      | ok d =>
        intro h
        cases h
        obtain ⟨_, _, _, _, _, _, h4, _⟩ := encrypt4_ok (encrypt4_enc he).1
        refine ⟨nofun, fun d' e => ?_, rfl, rfl⟩
        cases e
        exact (validate_ok h4).2.2.2.1
      | err e => intro h; cases congrArg Prod.fst h
      | panic => intro h; cases congrArg Prod.fst h

theorem lim_data4 (hc : SmpCurve E.curve) (hg : GoodGroup E.dh3) {snd rcv : UInt32} {d : DataMessage4} {dake : DAKEState} {w : World Instance}
    (hr : Ready E A snd w.st) (hon : OnCurve E.curve d.ecdh) (hP : Crash4 E A c dake ⟨.v4, snd, rcv, .data4 d⟩ w.st.state → P) :
    Lim (fun n => do
      StM.lift (d.validate E)
      let r ← attempt (onState (PState.handle4 E d (authenticatorData4 4 snd rcv d) c.now))
      handleDecrypted E A (c.sized n) .v4 snd d.flags r) w P := by
  refine .after (f := StM.lift (d.validate E)) (fun h => ?_) fun _ w1 h1 => ?_
  · have hz := validate_panic h
    exact hP (.zero rfl hz.1 hz.2)
  have hval : d.validate E = .ok () := congrArg Prod.fst h1
  have hw : w1 = w := (congrArg Prod.snd h1).symm
  subst hw
  have hst := hr.pts.state
  have herr : ∀ s e, PState.handle4 E d (authenticatorData4 4 snd rcv d) c.now w1.st.state = (.err e, s) →
      Lim (fun n => do
        let r ← attempt (onState (PState.handle4 E d (authenticatorData4 4 snd rcv d) c.now))
        handleDecrypted E A (c.sized n) .v4 snd d.flags r) w1 P := by
    intro s e he
    have ha : attempt (onState (PState.handle4 E d (authenticatorData4 4 snd rcv d) c.now)) w1 =
        (.ok (.err e), { w1 with st := { w1.st with state := s } }) := by simp only [attempt, onState, he]
    refine .after (by rw [ha]; nofun) (hs := Grows.attempt (.of fun _ _ => rfl) w1.st) fun r w1 h1 => ?_
    rw [ha] at h1
    cases h1
    have : ∀ n, handleDecrypted E A (c.sized n) .v4 snd d.flags (.err e) = handleDecrypted E A (c.sized 0) .v4 snd d.flags (.err e) := by
      intro n
      cases e <;> rfl
    simp only [this]
    refine .const (fun h => ?_) (grows_error _ _ _ _ _ _ _ _)
    exfalso
    cases e with
    | unreadableMessage t =>
      simp only [handleDecrypted, StM.bind_run, StM.gets, StM.lift, serialize, emit] at h
      split at h <;> cases h
    | _ => cases h
  have hx : (∃ x smp, w1.st.state = .encrypted4 x smp) ∨ ∃ e, PState.handle4 E d (authenticatorData4 4 snd rcv d) c.now w1.st.state = (.err e, w1.st.state) := by
    cases w1.st.state with
    | encrypted4 x smp => exact .inl ⟨x, smp, rfl⟩
    | _ => exact .inr ⟨_, rfl⟩
  rcases hx with ⟨x, smp, hx⟩ | ⟨e, he⟩
  swap
  · exact herr _ e he
  rw [hx] at hst hP
  have hst := statePts4.mp hst
  cases hh : Enc4.handle E d (authenticatorData4 4 snd rcv d) c.now x with
  | mk res x' =>
    have h3 : PState.handle4 E d (authenticatorData4 4 snd rcv d) c.now w1.st.state =
        PState.transition (PState.with4 smp (res, x')) := by rw [hx]; simp only [PState.handle4, hh]
    cases res with
    | err e => exact herr _ e h3
    | panic =>
      have hp : P := by
        by_contra hn
        refine handle4_safe (decrypt4_safe hc.good hg hst.1 hval hon (authenticatorData4 4 snd rcv d) c.now fun hf => hn (hP (.data rfl hf))) ?_
        exact congrArg Prod.fst hh
      have ha : attempt (onState (PState.handle4 E d (authenticatorData4 4 snd rcv d) c.now)) w1 =
          (.panic, { w1 with st := { w1.st with state := .encrypted4 x' smp } }) := by simp only [attempt, onState, h3]; rfl
      exact .after (fun _ => hp) (hs := Grows.attempt (.of fun _ _ => rfl) w1.st) fun r w1 h1 => by rw [ha] at h1; cases h1
    | ok res =>
      obtain ⟨msg, last⟩ := res
      have ha : attempt (onState (PState.handle4 E d (authenticatorData4 4 snd rcv d) c.now)) w1 =
          (.ok (.ok msg), { w1 with st := { w1.st with state := if last then .finished else .encrypted4 x' smp } }) := by
        simp only [attempt, onState, h3]; cases last <;> rfl
      refine .after (by rw [ha]; nofun) (hs := Grows.attempt (.of fun _ _ => rfl) w1.st) fun r w2 h1 => ?_
      rw [ha] at h1
      cases h1
      have hto : DecryptsTo E c ⟨.v4, snd, rcv, .data4 d⟩ (.encrypted4 x smp) msg (if last then .finished else .encrypted4 x' smp) :=
        .inr ⟨x, smp, d, x', last, rfl, rfl, rfl, hval, hh, rfl⟩
      cases msg with
      | confidentialFinished content => exact .after nofun fun own w3 h3 => .pure _
      | confidential content tlvs =>
        refine .after nofun fun own w2 h1 => ?_
        cases h1
        simp only
        by_cases hany : tlvs.any (isSmpTlv .v4) = true
        swap
        · simp only [hany]
          exact .pure _
        simp only [hany, if_true]
        obtain ⟨plain, d', hdec, hx', hpm⟩ : ∃ plain d', decrypt4 E d (authenticatorData4 4 snd rcv d) c.now x.ratchet = .ok (plain, d') ∧
            x' = { x with ratchet := d' } ∧ Res.ok (PMessage.confidential content tlvs, last) = (parseMessage plain).bind fun p =>
              .ok (p, match p with | .confidentialFinished _ => true | .confidential _ _ => false) := by
          rcases handle4_cases hh nofun with ⟨h, _⟩ | h
          · cases h
          · exact h
        have hlast : last = false := by
          revert hpm
          cases parseMessage plain with
          | ok m => cases m <;> simp [Res.bind]
          | _ => simp [Res.bind]
        subst hlast
        simp only [Bool.false_eq_true, if_false] at hto ⊢
        have hsnd : Sound4 E x'.ratchet := by
          rw [hx']
          exact hst.1.recv hon hdec
        refine lim_handleSmp hr.tags (.inr rfl) (show w1.st.receiver = snd from hr.receiver) hany fun t ht hs => ?_
        by_cases hcr : t.typ = awaited4 smp.state ∧ Crashing E t smp.state
        · have hp : P := hP (.smp hto ht hcr.1 hcr.2)
          refine ⟨fun _ => hp, fun reply s' hr' => ⟨.inl hp, fun r hrep => ⟨fun _ => hp, fun res s'' hpre => ?_⟩⟩⟩
          obtain ⟨smp', rfl⟩ : ∃ smp', s' = .encrypted4 x' smp' := by
            simp only [smpHandle, PState.onSmp4] at hr'
            exact ⟨_, (congrArg Prod.snd hr').symm⟩
          exact smp_prepare4 hc.good hsnd (fun _ => hp) hpre
        · obtain ⟨r, smp', h1, h2⟩ := Props.C52_otr4_restart_partial hc smp c.smp (t := t) (by
              have := (Props.isSmpTlv_iff (.inr rfl) t).mp hs
              rcases this with h | ⟨h, _⟩
              · exact h
              · cases h) (fun ha hb => hcr ⟨ha, hb⟩) (c.rnd.sub 1)
          have h3 : smpHandle E c (c.rnd.sub 1) .v4 t (.encrypted4 x' smp) = (.ok r, .encrypted4 x' smp') := by
            simp only [smpHandle, PState.onSmp4, h1]
          refine ⟨fun h => ?_, fun reply s' hr' => ?_⟩
          · rw [show smpHandle E c (c.rnd.sub 1) .v4 t _ = _ from h3] at h; cases h
          · rw [show smpHandle E c (c.rnd.sub 1) .v4 t _ = _ from h3] at hr'
            cases hr'
            refine ⟨.inr ⟨smp'.status, rfl, ?_⟩, fun answer hrep => ?_⟩
            · rcases h2 with h | ⟨h | h, _⟩ <;> rw [h] <;> nofun
            · subst hrep
              refine ⟨fun h => hP (.smpAnswer hto ht h1 (.inl ?_)), fun res s'' hpre => ?_⟩
              · simp only [tlvOk, decide_eq_false_iff_not] at h; omega
              · exact smp_prepare4 hc.good hsnd (fun hx => hP (.smpAnswer hto ht h1 (.inr hx))) hpre

theorem lim_process4 (hc : SmpCurve E.curve) (hg : GoodGroup E.dh3) (hk : c.identity.pub = Point.mul E.curve E.curve.G c.identity.sk)
    {m : EncodedMessage} {w : World Instance} (hr : Ready E A m.sender w.st) (hv : m.version = .v4)
    (hm : PointsOk E m.message) (hu : ∀ b, m.message ≠ .unencoded b) (hP : Crash4 E A c w.st.dake m w.st.state → P) :
    Lim (fun n => process E A (c.sized n) m) w P := by
  obtain ⟨v, snd, rcv, msg⟩ := m
  simp only at hv
  subst hv
  refine .after nofun fun own w1 h1 => ?_
  cases h1
  obtain ⟨hist, hl⟩ := hr.dake
  cases msg with
  | identity d =>
    refine .after (f := onDake (DAKE.handleIdentity E (c.dake A) d (c.rnd.sub 0))) (fun h => ?_) fun r w1 h1 => ?_
    · exact hP (.identity rfl (Props.C36_identity_partial E hc.good (c.dake A) hk d hm _ _ h))
    · obtain ⟨ha, hrec, _⟩ := onDake_world h1
      exact .bind (lim_kex (rnd := c.rnd.sub 3) hr.tags (.inr rfl) (hrec.trans hr.receiver) (handleIdentity_kind ha)) fun _ _ _ _ => .pure _
  | authR d =>
    refine .after (f := onDake (DAKE.handleAuthR E (c.dake A) d (c.rnd.sub 0) c.now)) (fun h => ?_) fun r w1 h1 => ?_
    · rcases Props.authR_panic hc.good hk hm hl h with h | h | ⟨st, bob, alice, h1, _, h2, h3, h4⟩
      · exact hP (.authRKey rfl (.inl h))
      · exact hP (.authRKey rfl (.inr h))
      · exact hP (.authR rfl h1 h2 h3 h4)
    · obtain ⟨ha, hrec, _⟩ := onDake_world h1
      obtain ⟨mat, reply⟩ := r
      exact .bind (lim_kex (rnd := c.rnd.sub 3) hr.tags (.inr rfl) (hrec.trans hr.receiver) (handleAuthR_kind ha)) fun _ _ _ _ => .const nofun
  | authI d =>
    refine .after (f := onDake (DAKE.handleAuthI E (c.dake A) d c.now)) (fun h => ?_) fun r w1 h1 => .const nofun
    obtain ⟨st, bob, alice, h1, h2, h3, h4⟩ := Props.authI_panic hc.good hr.pts.dake h
    exact hP (.authI rfl h1 h2 h3 h4)
  | data4 d => exact lim_data4 hc hg hr hm hP
  | unencoded b => exact absurd rfl (hu b)
  | _ => exact .err _

/-! ## Sessions -/

theorem parse_unencoded {text : Bytes} {m : EncodedMessage} (h : parse E text = .ok (.encoded m)) (b : Bytes) : m.message ≠ .unencoded b := by
  obtain ⟨d, d', hr⟩ := parse_readEncoded h
  unfold readEncoded at hr
  simp only [Dec.bind_eq_ok, Dec.pure_run, Res.ok.injEq, Prod.mk.injEq] at hr
  obtain ⟨v, s1, _, t, s2, _, sn, s3, h3, rc, s4, h4, x, s5, h5, rfl, _⟩ := hr
  simp only
  rintro rfl
  unfold readContent at h5
  split at h5
  · repeat' split at h5
    all_goals simp only [Dec.bind_eq_ok, Dec.pure_run, Res.ok.injEq, Prod.mk.injEq, Dec.fail_run, reduceCtorEq] at h5
    all_goals obtain ⟨x, _, h1, h2, h3⟩ := h5
    all_goals cases h2
  · repeat' split at h5
    all_goals simp only [Dec.bind_eq_ok, Dec.pure_run, Res.ok.injEq, Prod.mk.injEq, Dec.fail_run, reduceCtorEq] at h5
    all_goals obtain ⟨x, _, h1, h2, h3⟩ := h5
    all_goals cases h2
  · cases h5

theorem crash_dhKey {a a' : AKEState} {m : EncodedMessage} {d : DHKeyMessage} {st : PState} (hm : m.message = .dhKey d)
    (h : Crash3 E c a m st) : Crash3 E c a' m st := by
  have no : ¬ ((∃ d, m.message = .revealSignature d) ∨ ∃ d, m.message = .signature d) := by
    rintro (⟨d, h⟩ | ⟨d, h⟩) <;> rw [hm] at h <;> cases h
  cases h with
  | noKey h1 h2 => exact .noKey h1 h2
  | downgrade h => exact absurd h no
  | badKey h _ _ => exact absurd h no
  | data h1 h2 => exact .data h1 h2
  | smpKey h1 h2 h3 => exact .smpKey h1 h2 h3
  | smpAnswer h1 h2 h3 h4 => exact .smpAnswer h1 h2 h3 h4

theorem lim_handle {m : EncodedMessage} {w : World Instance}
    (h : ∀ w' : World Instance, w'.st.receiver = w.st.receiver → w'.st.state = w.st.state → w'.st.ake = w.st.ake → w'.st.dake = w.st.dake → Lim (fun n => process E A (c.sized n) m) w' P) :
    Lim (fun n => handle E A (c.sized n) m) w P := by
  unfold Instance.handle clearAssembler
  by_cases hv : m.version = .v3
  · simp only [if_pos hv]
    refine .after nofun fun _ w' h' => h w' ?_ ?_ ?_ ?_ <;> cases h' <;> rfl
  · simp only [if_neg hv]
    refine .after nofun fun _ w' h' => h w' ?_ ?_ ?_ ?_ <;> cases h' <;> rfl

theorem verifyHeader_panic (m : EncodedMessage) : verifyHeader A m ≠ .panic := by
  intro h
  have hv : ∀ t e, (verifyTag t).mapErr e ≠ .panic := by
    intro t e
    unfold verifyTag
    split <;> nofun
  have hg : ∀ b e, Res.guard b e ≠ .panic := by
    intro b e
    cases b <;> nofun
  unfold verifyHeader at h
  revert h
  cases m.version <;> simp [Res.bind_eq_panic, hv, hg]

theorem verifyHeader_version {m : EncodedMessage} {u : Unit} (h : verifyHeader A m = .ok u) : m.version = .v3 ∨ m.version = .v4 := by
  unfold verifyHeader at h
  cases hv : m.version with
  | v3 => exact .inl rfl
  | v4 => exact .inr rfl
  | none => rw [hv] at h; cases h
  | unsupported v => rw [hv] at h; cases h

theorem verifyHeader_sender {m : EncodedMessage} {u : Unit} (h : verifyHeader A m = .ok u) : ValidTag m.sender := by
  have key : ∃ r, (verifyTag m.sender).mapErr .protocolViolation = .ok r := by
    rcases verifyHeader_version h with hv | hv
    all_goals
      unfold verifyHeader at h
      rw [hv] at h
      simp only [Res.bind_eq_ok] at h
      obtain ⟨_, _, _, h1, _⟩ := h
      exact ⟨_, h1⟩
  obtain ⟨r, h⟩ := key
  unfold verifyTag at h
  split at h
  · cases h
  · rename_i hn
    unfold ValidTag
    by_cases h0 : m.sender = 0
    · exact .inl h0
    · refine .inr (UInt32.not_lt.mp fun hl => hn ⟨?_, hl⟩)
      exact UInt32.pos_iff_ne_zero.mpr h0

theorem verifyHeader_addressed {m : EncodedMessage} {u : Unit} (h : verifyHeader A m = .ok u) : Addressed A m := by
  have hg : ∀ {b e v}, Res.guard b e = .ok v → b = true := by intro b e v h; cases b <;> first | rfl | cases h
  have key : ∃ a b c d, (Res.guard (m.sender != INSTANCE_ZERO) .protocolViolation = .ok a) ∧
      Res.guard (m.receiver != 0 || match m.message with
        | .dhCommit _ => true
        | .identity _ => true
        | _ => false) .protocolViolation = .ok b ∧
      Res.guard (!(decide (m.receiver > INSTANCE_ZERO) && m.receiver != A.tag)) .messageForOtherInstance = .ok c ∧ d = () := by
    rcases verifyHeader_version h with hv | hv
    all_goals
      unfold verifyHeader at h
      rw [hv] at h
      simp only [Res.bind_eq_ok] at h
      obtain ⟨_, _, _, _, _, h1, _, _, _, h2, h3⟩ := h
      exact ⟨_, _, _, (), h1, h2, h3, rfl⟩
  obtain ⟨_, _, _, _, h1, h2, h3, _⟩ := key
  have h1 := hg h1
  have h2 := hg h2
  have h3 := hg h3
  refine ⟨by simpa [INSTANCE_ZERO] using h1, ?_⟩
  by_cases h0 : m.receiver = 0
  · refine .inr ⟨h0, ?_⟩
    rw [h0] at h2
    cases hm : m.message with
    | dhCommit d => exact .inl ⟨d, rfl⟩
    | identity d => exact .inr ⟨d, rfl⟩
    | _ => rw [hm] at h2; cases h2
  · refine .inl ⟨h0, ?_⟩
    have : m.receiver > INSTANCE_ZERO := by
      have : m.receiver.toNat ≠ 0 := fun e => h0 (UInt32.toNat_inj.mp e)
      rw [gt_iff_lt, UInt32.lt_iff_toNat_lt]
      show 0 < _
      omega
    simpa [this] using h3

/-- What is needed of a session. -/
structure Sound (E : Env) (s : Session) : Prop where
  inv : Inv E s
  alive : ∀ k, Props.Alive E (s.inst k).state
  pts : ∀ k, Pts E (s.inst k)

theorem handOver_from {m : EncodedMessage} {s : Session} {sent : List Bytes} {h : Option AKEState × Option DAKEState}
    (hh : (handOver m ⟨s, sent⟩).1 = .ok h) {d : DAKEState} (hd : h.2 = some d) : d = (s.inst 0).dake := by
  unfold handOver StM.query at hh
  dsimp only at hh
  split at hh
  · rw [Res.bind_eq_ok] at hh
    obtain ⟨i, _, hh⟩ := hh
    split at hh <;> cases hh <;> cases hd
  · rw [Res.bind_eq_ok] at hh
    obtain ⟨i, hi, hh⟩ := hh
    split at hh
    · rename_i ht
      cases hh
      cases hd
      have : s.inst 0 = i := by
        split at hi
        · split at hi
          · cases hi
            exact inst_of_lookup ‹_›
          · cases hi
        · cases hi
      rw [this]
      unfold DAKE.transfer at ht
      split at ht
      · cases ht; rename_i e; exact e.symm
      · cases ht
    · cases hh; cases hd
  · cases hh; cases hd

theorem lim_receiveEncoded (hA : 0x100 ≤ A.tag) (hG : SmpGroup E.dh) (hc : SmpCurve E.curve) (hg : GoodGroup E.dh3) (hk : c.identity.pub = Point.mul E.curve E.curve.G c.identity.sk) {m : EncodedMessage} {w : World Session} (hs : Sound E w.st) (h0 : m.sender ≠ 0)
    (hd : ∀ d, m.message = .data d → Decoded d) (hu : ∀ b, m.message ≠ .unencoded b)
    (h3 : m.version = .v3 → AllowsV3 A → Addressed A m → Crash3 E c (akeOf w.st m.sender) m (stateOf w.st m.sender) → P)
    (hm : PointsOk E m.message)
    (h4 : m.version = .v4 → AllowsV4 A → Addressed A m → ∀ k, k = m.sender ∨ k = 0 → Crash4 E A c (dakeOf w.st k) m (stateOf w.st m.sender) → P) :
    Lim (fun n => receiveEncoded E A (c.sized n) m) w P := by
  obtain ⟨s, sent⟩ := w
  simp only at hs h3 h4
  refine .after (fun h => absurd h (verifyHeader_panic m)) fun _ w1 h1 => ?_
  have hv : verifyHeader A m = .ok () := congrArg Prod.fst h1
  have hadr := verifyHeader_addressed hv
  have hw : w1 = ⟨s, sent⟩ := (congrArg Prod.snd h1).symm
  subst hw
  cases ha : allowed A m.version with
  | false => exact .pure _
  | true =>
    simp only [Bool.not_true, Bool.false_eq_true, if_false]
    obtain ⟨o, ho, hoa, hod⟩ := handOver_ok (sent := sent) hs.inv m
    refine .after (by rw [ho]; nofun) fun o' w1 h1 => ?_
    rw [ho] at h1
    cases h1
    refine lim_entry ?_
    have hrec := hs.inv.receiver m.sender
    have key : ∀ w' : World Instance, w'.st.receiver = m.sender → w'.st.state = (s.inst m.sender).state →
        (w'.st.ake = (s.inst m.sender).ake ∨ AkeOk E w'.st.ake ∧ ∃ d, m.message = .dhKey d) →
        (∃ k, (k = m.sender ∨ k = 0) ∧ w'.st.dake = (s.inst k).dake) →
        Lim (fun n => process E A (c.sized n) m) w' P := by
      intro w' hr hst hake hdk
      obtain ⟨k, hk', hdk⟩ := hdk
      have hready : Ready E A m.sender w'.st := ⟨⟨hA, verifyHeader_sender hv⟩, hr, hst ▸ hs.alive m.sender, by
        rcases hake with hake | ⟨hake, _⟩
        · rw [hake]; exact hs.inv.ake _
        · exact hake, by rw [hdk]; exact hs.inv.dake _, by rw [hdk]; exact (hs.pts k).dake, by rw [hst]; exact (hs.pts _).state⟩
      rcases verifyHeader_version hv with hv | hv
      · have h3 := h3 hv (by rw [hv] at ha; exact (Props.allowsV3_iff A).mp ha) hadr
        rw [Props.stateOf_inst, Props.akeOf_inst, ← hst] at h3
        rcases hake with hake | ⟨hake, d, hm⟩
        · refine lim_process3 hG hready hv hd hu fun h => h3 ?_
          rw [← hake]; exact h
        · exact lim_process3 hG hready hv hd hu fun h => h3 (crash_dhKey hm h)
      · have h4 := h4 hv (by rw [hv] at ha; exact (Props.allowsV4_iff A).mp ha) hadr k hk'
        rw [Props.stateOf_inst, Props.dakeOf_inst, ← hst, ← hdk] at h4
        exact lim_process4 hc hg hk hready hv hm hu h4
    have adopt' : ∀ o : Option AKEState × Option DAKEState, (o.1 = .none ∨ ∃ a, o.1 = some a ∧ AkeOk E a ∧ ∃ d, m.message = .dhKey d) →
        (∀ d, o.2 = some d → d = (s.inst 0).dake) →
        Lim (fun n => do adopt o; Instance.handle E A (c.sized n) m) ⟨s.inst m.sender, sent⟩ P := by
      intro o h hd'
      obtain ⟨a, d⟩ := o
      have ha := adopt_eq (h := (a, d)) (i := s.inst m.sender) (sent := sent) (by rw [hrec]; exact h0)
      refine .bind (.const (by rw [ha]; nofun) (Uniform.of fun sent => by rw [adopt_eq (by rw [hrec]; exact h0), adopt_eq (by rw [hrec]; exact h0)])) fun _ _ w1 h1 => lim_handle fun w2 e1 e2 e3 e4 => key w2 ?_ ?_ ?_ ?_
      all_goals
        have h2 : w1.st.receiver = (s.inst m.sender).receiver ∧ w1.st.state = (s.inst m.sender).state ∧ w1.st.ake = a.getD (s.inst m.sender).ake ∧
            w1.st.dake = d.getD (s.inst m.sender).dake := by
          rw [ha] at h1; cases h1; exact ⟨rfl, rfl, rfl, rfl⟩
      · rw [e1, h2.1]; exact hrec
      · rw [e2, h2.2.1]
      · rw [e3, h2.2.2.1]
        rcases h with h | ⟨a', h, h5, h6⟩
        · simp only at h; subst h; exact .inl rfl
        · simp only at h; subst h; exact .inr ⟨h5, h6⟩
      · rw [e4, h2.2.2.2]
        cases d with
        | none => exact ⟨_, .inl rfl, rfl⟩
        | some x => exact ⟨0, .inr rfl, hd' x rfl⟩
    refine adopt' _ ?_ fun d hd => handOver_from (congrArg Prod.fst ho) hd
    cases hx : o.1 with
    | none => exact .inl rfl
    | some a =>
      refine .inr ⟨a, rfl, hoa a hx, ?_⟩
      obtain ⟨v, snd, rcv, msg⟩ := m
      have e := congrArg Prod.fst ho
      simp only [handOver, StM.query] at e
      cases v <;> cases msg <;> first | exact ⟨_, rfl⟩ | skip
      all_goals first
        | (cases e; cases hx)
        | (exfalso
           simp only [Res.bind_eq_ok] at e
           obtain ⟨i, _, e⟩ := e
           cases ht : DAKE.transfer i.dake <;> rw [ht] at e <;> cases e <;> cases hx)

theorem lim_reportPlain {content : Bytes} {w : World Session} (hs : Inv E w.st) : Lim (fun _ => reportPlain A content) w P := by
  obtain ⟨b, hb, _⟩ := hasSessionsIn_ok hs
  refine .const (fun h => ?_) (Grows.bind (.of fun _ _ => rfl) (fun _ => .ite (.of fun _ _ => rfl) (.of fun _ _ => rfl)) w.st)
  simp only [reportPlain, StM.bind_run, StM.query, hb] at h
  split at h <;> cases h

theorem lim_initiate {v : Version} (hv : v = .v3 ∨ v = .v4) {w : World Instance} (hT : 0x100 ≤ A.tag ∧ ValidTag w.st.receiver) : Lim (fun n => Instance.initiate E A (c.sized n) v) w P := by
  rcases hv with rfl | rfl
  · refine .after (f := onAke (AKE.initiate E (c.rnd.sub 0))) (fun h => ?_) fun m w1 h1 => .after nofun fun k w2 h2 => ?_
    · cases h
    · cases h2
      refine .bind (lim_kex (rnd := c.rnd.sub 1) (by show _ ∧ ValidTag w1.st.receiver; rw [(onAke_world h1).2.1]; exact hT) (.inl rfl) rfl ?_) fun _ _ _ _ => .pure _
      have := congrArg Prod.fst (onAke_world h1).1
      simp only [AKE.initiate] at this
      cases this
      trivial
  · refine .after (f := onDake (DAKE.initiate E (c.dake A) (c.rnd.sub 0))) (fun h => ?_) fun m w1 h1 => .after nofun fun k w2 h2 => ?_
    · exfalso
      have h : (DAKE.initiate E (c.dake A) (c.rnd.sub 0) w.st.dake).1 = .panic := h
      have := (transact_panic (s' := (DAKE.initiate E (c.dake A) (c.rnd.sub 0) w.st.dake).2)).mp (Prod.ext h rfl)
      have this := this.1
      split at this
      · simp only [Res.bind_eq_panic, Res.pure_def, reduceCtorEq, and_false, exists_false, or_false] at this
        unfold DAKE.ownPayload runDec at this
        revert this
        cases hx : (do let p ← readPayload E; decDone; pure p : Dec ClientProfilePayload) (c.dake A).profile with
        | panic =>
          rw [Dec.bind_eq_panic] at hx
          rcases hx with hx | ⟨p, s1, _, hx⟩
          · exact absurd hx (readPayload_safe E _).1
          · rw [Dec.bind_eq_panic] at hx
            rcases hx with hx | ⟨_, _, _, hx⟩
            · unfold decDone at hx; split at hx <;> cases hx
            · cases hx
        | _ => nofun
      · cases this
    · cases h2
      refine .bind (lim_kex (rnd := c.rnd.sub 1) (by show _ ∧ ValidTag w1.st.receiver; rw [(onDake_world h1).2.1]; exact hT) (.inr rfl) rfl ?_) fun _ _ _ _ => .pure _
      have h : DAKE.initiate E (c.dake A) (c.rnd.sub 0) w.st.dake = (.ok m, w1.st.dake) :=
        Prod.ext (congrArg (fun x => x.1) h1) (congrArg (fun x => x.2.st.dake) h1)
      rw [DAKE.initiate, transact_ok] at h
      split at h
      · simp only [Res.bind_eq_ok, Res.pure_def, Res.ok.injEq, Prod.mk.injEq] at h
        obtain ⟨_, _, rfl, _⟩ := h
        trivial
      · cases h

theorem lim_answerOffer (hA : 0x100 ≤ A.tag) {vs : List Version} {w : World Session} (hs : Inv E w.st) : Lim (fun n => answerOffer E A (c.sized n) vs) w P := by
  unfold answerOffer
  cases h : selectVersion A.policy vs with
  | none => exact .pure _
  | some v =>
    have hv : v = .v3 ∨ v = .v4 := by
      unfold selectVersion at h
      split at h
      · cases h; exact .inr rfl
      · split at h
        · cases h; exact .inl rfl
        · cases h
    exact .bind (lim_entry (lim_initiate hv ⟨hA, .inl (hs.receiver 0)⟩)) fun _ _ _ _ => .pure _

theorem lim_query {w : World Session} : Lim (fun _ => query A) w P := by
  refine .const (fun h => ?_) (Grows.ite (.of fun _ _ => rfl) (.bind (.of fun _ _ => rfl) fun _ => .emit _) w.st)
  unfold query at h
  by_cases hv : filterVersions A.policy SUPPORTED_VERSIONS = []
  · simp only [hv, if_true] at h; cases h
  · simp only [serialize, ne_eq, hv, not_false_eq_true, Props.filterVersions_legal, and_self, if_true] at h
    cases h

theorem lim_receiveWhole (hA : 0x100 ≤ A.tag) (hG : SmpGroup E.dh) (hc : SmpCurve E.curve) (hg : GoodGroup E.dh3) (hk : c.identity.pub = Point.mul E.curve E.curve.G c.identity.sk) {text : Bytes} {w : World Session} (hs : Sound E w.st) (hp : parse E text = .panic → P)
    (h3 : ∀ m, parse E text = .ok (.encoded m) → m.version = .v3 → AllowsV3 A → Addressed A m → Crash3 E c (akeOf w.st m.sender) m (stateOf w.st m.sender) → P)
    (h4 : ∀ m, parse E text = .ok (.encoded m) → m.version = .v4 → AllowsV4 A → Addressed A m → ∀ k, k = m.sender ∨ k = 0 →
      Crash4 E A c (dakeOf w.st k) m (stateOf w.st m.sender) → P) :
    Lim (fun n => receiveWhole E A (c.sized n) text) w P := by
  refine .after hp fun mt w1 h1 => ?_
  have hm : parse E text = .ok mt := congrArg Prod.fst h1
  have hw : w1 = w := (congrArg Prod.snd h1).symm
  subst hw
  cases mt with
  | error e =>
    simp only
    split
    · exact .bind lim_query fun _ _ _ _ => .pure _
    · exact .pure _
  | plaintext content => exact lim_reportPlain hs.inv
  | tagged vs content =>
    simp only
    split
    · refine .bind (lim_answerOffer hA hs.inv) fun n _ w2 h2 => lim_reportPlain (E := E) ?_
      have := calm_answerOffer (E := E) (A := A) (c := c.sized n) vs w1
      rw [h2] at this
      exact hs.inv.calm this
    · exact lim_reportPlain hs.inv
  | query vs => exact .bind (lim_answerOffer hA hs.inv) fun _ _ _ _ => .pure _
  | encoded m =>
    simp only
    split
    · exact .pure _
    · exact lim_receiveEncoded hA hG hc hg hk hs ‹_› (fun d hd => parse_decoded hm hd) (parse_unencoded hm) (h3 m hm) (parse_points hc.good.field hm) (h4 m hm)

theorem parseFragment_version {payload : Bytes} {f : Fragment} (h : parseFragment E.nd payload = .ok (some f)) : f.version = .v3 ∨ f.version = .v4 := by
  have key : ∀ v cap, fragFromCaptures v cap = .ok (some f) → f.version = v := by
    intro v cap h
    simp only [fragFromCaptures, Res.bind_eq_ok] at h
    obtain ⟨_, _, _, _, h⟩ := h
    split at h
    · cases h; rfl
    · cases h
  unfold parseFragment at h
  split at h
  · exact .inr (key _ _ h)
  · split at h
    · exact .inl (key _ _ h)
    · cases h

theorem lim_receive (hnd : ∀ n, E.nd n = true → n.isValidChar) (hA : 0x100 ≤ A.tag) (hG : SmpGroup E.dh) (hc : SmpCurve E.curve) (hg : GoodGroup E.dh3) {h : List Ev} {s : Session} (hh : Hist E A h s) (c : Call)
    (hk : c.identity.pub = Point.mul E.curve E.curve.G c.identity.sk) (payload : Bytes) :
    Lim (fun n => receive E A (c.sized n) payload) ⟨s, []⟩ (Crash E A c s payload) := by
  have hs : Sound E s := ⟨hist_inv hh, fun k => by rw [← Props.stateOf_inst]; exact Props.hist_alive hh k, hist_pts hc.good.field hh⟩
  unfold receive
  cases hd : disabled A with
  | true => exact .pure _
  | false =>
    simp only [Bool.false_eq_true, if_false]
    cases hf : matchFragment payload with
    | false =>
      have hr : Reads E A s payload payload := .inl ⟨hf, rfl⟩
      exact lim_receiveWhole hA hG hc hg hk hs (fun h => .text hr (parse_panic hnd h)) (fun m h1 h2 h3 h5 h4 => .otr3 hr h1 h2 h3 h5 h4)
        fun m h1 h2 h3 h5 k hk h4 => .otr4 hr h1 h2 h3 h5 hk h4
    | true =>
      simp only [if_true]
      unfold receiveFragment
      refine .after (fun h => .fragment hf (fragment_panic hnd h)) fun o w1 h1 => ?_
      have hp : parseFragment E.nd payload = .ok o := congrArg Prod.fst h1
      have hw : w1 = ⟨s, []⟩ := (congrArg Prod.snd h1).symm
      subst hw
      cases o with
      | none => exact .pure _
      | some f =>
        have guard : ∀ b e, (StM.lift (Res.guard b e) : SessM Unit) ⟨s, []⟩ = if b = true then (.ok (), ⟨s, []⟩) else (.err e, ⟨s, []⟩) := by
          intro b e; cases b <;> rfl
        refine .after (by rw [guard]; split <;> nofun) fun _ w2 h2 => ?_
        rw [guard] at h2
        split at h2
        swap
        · cases h2
        rename_i hvf
        cases h2
        refine .after (by rw [guard]; split <;> nofun) fun _ w3 h3 => ?_
        rw [guard] at h3
        split at h3
        swap
        · cases h3
        rename_i hrc
        cases h3
        refine .after nofun fun r w4 h4 => ?_
        have hres : ((s.inst f.sender).assembler.assemble f).1 = r := Res.ok.inj (congrArg Prod.fst h4)
        have hcalm := calm_assemble (E := E) f f.sender ⟨s, []⟩
        have hinst := fun k => inst_entry f.sender k (assemble f) ⟨s, []⟩
        rw [h4] at hcalm hinst
        have same : ∀ k, (w4.st.inst k).state = (s.inst k).state ∧ (w4.st.inst k).ake = (s.inst k).ake ∧ (w4.st.inst k).dake = (s.inst k).dake := by
          intro k
          have := hinst k
          split at this
          · rename_i he
            subst he
            rw [this]
            exact ⟨rfl, rfl, rfl⟩
          · rw [this]; exact ⟨rfl, rfl, rfl⟩
        cases r with
        | err e => cases e <;> exact .const nofun
        | panic =>
          refine .cause ?_
          rcases Option.eq_none_or_eq_some (lookup s.instances f.sender) with hl | ⟨i, hl⟩
          · exfalso
            have hnew : s.inst f.sender = .new f.sender := by simp [inst, hl]
            rw [hnew] at hres
            rcases parseFragment_version hp with hv | hv
            · simp only [Instance.new, Assembler.assemble, hv, Assembler.new, InOrder.assemble, InOrder.new, hvf] at hres
              simp only [Bool.not_true, Bool.false_eq_true, if_false] at hres
              repeat' split at hres
              all_goals first | cases hres | skip
              all_goals simp_all
            · simp only [Instance.new, Assembler.assemble, hv, Assembler.new] at hres
              have := Unordered.assemble_panic _ f (by simp [Unordered.new, MAX_MESSAGES]) hres
              simp [Unordered.new] at this
          · refine .assembler hf hp hvf (by simpa [INSTANCE_ZERO] using hrc) hl ?_
            rw [inst_of_lookup hl] at hres
            rcases parseFragment_version hp with hv | hv
            · rw [Full, if_pos hv]
              simp only [Assembler.assemble, hv, InOrder.assemble, hvf] at hres
              simp only [Bool.not_true, Bool.false_eq_true, if_false] at hres
              repeat' split at hres
              all_goals first | exact ⟨‹i.assembler.inorder.last = 65535›, ‹_›, ‹_›⟩ | cases hres
            · rw [Full, if_neg (by rw [hv]; nofun)]
              simp only [Assembler.assemble, hv] at hres
              obtain ⟨b, hb⟩ := hist_fed hh f.sender
              rw [inst_of_lookup hl] at hb
              show i.assembler.unordered.tick = _
              rw [hb] at hres ⊢
              exact Props.C08_assertions_hold b f hres
        | ok text =>
          simp only
          split
          · exact .err _
          · rename_i hnf
            have hr : Reads E A s payload text := by
              refine .inr ⟨hf, f, s.inst f.sender, ((s.inst f.sender).assembler.assemble f).2, hp, hvf, ?_, ?_, Prod.ext hres rfl, ?_⟩
              · simpa [INSTANCE_ZERO] using hrc
              · unfold inst
                cases lookup s.instances f.sender with
                | none => exact .inr ⟨rfl, rfl⟩
                | some i => exact .inl rfl
              · simpa using hnf
            refine lim_receiveWhole hA hG hc hg hk ⟨hs.inv.calm hcalm, fun k => (same k).1 ▸ hs.alive k, fun k => ⟨(same k).2.2 ▸ (hs.pts k).dake, (same k).1 ▸ (hs.pts k).state⟩⟩
              (fun h => .text hr (parse_panic hnd h)) (fun m h1 h2 h3 h5 h4 => .otr3 hr h1 h2 h3 h5 ?_) fun m h1 h2 h3 h5 k hk h4 => .otr4 hr h1 h2 h3 h5 hk ?_
            · rw [Props.stateOf_inst, Props.akeOf_inst] at h4 ⊢
              rw [← (same _).1, ← (same _).2.1]
              exact h4
            · rw [Props.stateOf_inst, Props.dakeOf_inst] at h4 ⊢
              rw [← (same _).1, ← (same _).2.2]
              exact h4

end Session
end Otrr
