import Verif.Lemmas.Session
/-!
Steps that may panic but give no error: encoding, fragmenting and encrypting.
-/

namespace Otrr

instance : LawfulMonad Res := LawfulMonad.mk'
  (id_map := fun x => by cases x <;> rfl)
  (pure_bind := fun _ _ => rfl)
  (bind_assoc := fun x _ _ => by cases x <;> rfl)

/-- The step gives no error (it may panic). -/
def Res.NoErr (x : Res α) : Prop := ∀ e, x ≠ .err e

namespace Res.NoErr

theorem ok (a : α) : (Res.ok a).NoErr := nofun
theorem panic : (Res.panic : Res α).NoErr := nofun
theorem pure (a : α) : (Pure.pure a : Res α).NoErr := nofun
theorem assert (b : Bool) : (Res.assert b).NoErr := by cases b <;> exact nofun
theorem expect (x : Res α) : x.expect.NoErr := by cases x <;> exact nofun

theorem bind {x : Res α} {f : α → Res β} (hx : x.NoErr) (hf : ∀ a, (f a).NoErr) : (x >>= f).NoErr := by
  cases x with
  | ok a => exact hf a
  | err e => exact absurd rfl (hx e)
  | panic => exact nofun

theorem ite {p : Prop} [Decidable p] {x y : Res α} (hx : x.NoErr) (hy : y.NoErr) : (if p then x else y).NoErr := by
  split <;> assumption

theorem mapM {f : α → Res β} (hf : ∀ a, (f a).NoErr) (l : List α) : (l.mapM f).NoErr := by
  induction l with
  | nil => exact .pure _
  | cons a l ih =>
    rw [List.mapM_cons]
    exact .bind (hf a) fun _ => .bind ih fun _ => .pure _

theorem encodeVersion (v : Version) : (Otrr.encodeVersion v).NoErr := by cases v <;> exact nofun
theorem typeCode (m : EncodedMessageType) : (Otrr.typeCode m).NoErr := by cases m <;> exact nofun

theorem wBody (m : EncodedMessageType) : (Otrr.wBody m).NoErr := by
  cases m with
  | data4 m => exact .ite (.ok _) .panic
  | _ => exact nofun

theorem encodeMessage (v : Version) (s r : UInt32) (m : EncodedMessageType) : (Otrr.encodeMessage v s r m).NoErr :=
  .bind (.bind (encodeVersion _) fun _ => .bind (typeCode _) fun _ => .bind (wBody _) fun _ => .pure _) fun _ => .pure _

theorem serialize (m : MessageType) : (Otrr.serialize m).NoErr := by
  cases m with
  | error e => exact nofun
  | plaintext e => exact nofun
  | tagged vs m => exact .ite (.ok _) .panic
  | query vs => exact .ite (.ok _) .panic
  | encoded m => exact encodeMessage _ _ _ _

theorem fragmentContent (rnd : Bytes) (n : Nat) (v : Version) (s r : UInt32) (content : Bytes) :
    (Otrr.fragmentContent rnd n v s r content).NoErr := by
  refine .bind (.assert _) fun _ => .bind (.assert _) fun _ => .bind (.assert _) fun _ => .bind ?_ fun _ =>
    .bind (.assert _) fun _ => .pure _
  cases v <;> exact nofun

theorem encodeFragment (f : Fragment) : (Otrr.encodeFragment f).NoErr :=
  .bind (.assert _) fun _ => .bind (.assert _) fun _ => .bind (.assert _) fun _ => .bind (.assert _) fun _ =>
  .bind (.assert _) fun _ => .bind (.assert _) fun _ => .bind (.assert _) fun _ => .bind (.assert _) fun _ => .pure _

theorem payloads (A : Account) (c : Call) (v : Version) (r : UInt32) (rnd : Rand) (content : Bytes) :
    (Instance.payloads A c v r rnd content).NoErr :=
  .ite (.ok _) (.bind (fragmentContent _ _ _ _ _ _) fun _ => mapM encodeFragment _)

theorem incId (id : UInt32) : (Otrr.incId id).NoErr := .ite .panic (.ok _)

theorem dataSecrets (E : Env) (k : DH.Keypair) (t : Nat) : (Otrr.dataSecrets E k t).NoErr := by
  unfold Otrr.dataSecrets DataSecrets.derive
  split <;> exact nofun

theorem keyManager (G : DHGroup) (i : UInt32) (o : DH.Keypair) (j : UInt32) (t : Nat) (r : Rand) :
    (KeyManager.new G i o j t r).NoErr :=
  .bind (.assert _) fun _ => .bind (.assert _) fun _ =>
    .bind (.bind (.assert _) fun _ => .bind (.assert _) fun _ => .pure _) fun _ =>
    .bind (.bind (.assert _) fun _ => .bind (.assert _) fun _ => .pure _) fun _ => .pure _

theorem enc3 (E : Env) (a b : UInt32) (o : DH.Keypair) (t : Nat) (r : Rand) : (Enc3.new E a b o t r).NoErr :=
  .bind (keyManager _ _ _ _ _ _) fun _ => .pure _

theorem secure3 (E : Env) (a b : UInt32) (m : AKEMaterial) (r : Rand) (s : PState) : (s.secure3 E a b m r).NoErr := by
  cases s with
  | encrypted4 x y => exact .panic
  | _ => exact .bind (enc3 _ _ _ _ _ _) fun _ => .pure _

theorem rotateSender (E : Env) (d : DoubleRatchet) (r : Rand) (now : Nat) : (d.rotateSender E r now).NoErr :=
  .bind (.assert _) fun _ => .bind (.expect _) fun _ => .bind (incId _) fun _ => .pure _

theorem encrypt4 (E : Env) (a b : UInt32) (fl : UInt8) (content reveals : Bytes) (r : Rand) (now : Nat)
    (d : DoubleRatchet) : (Otrr.encrypt4 E a b fl content reveals r now d).NoErr := by
  refine .bind ?_ fun x => .bind (.ite (.ok _) .panic) fun _ => .bind (.assert _) fun _ => .bind ?_ fun _ => .pure _
  · exact .ite (.bind (rotateSender _ _ _ _) fun _ => .pure _) (.ok _)
  · exact .bind (.assert _) fun _ => .bind (.bind (incId _) fun _ => .pure _) fun _ => .pure _

end Res.NoErr

/-- The call gives no error. -/
def StM.NoErr (f : StM σ α) : Prop := ∀ s, (f s).1.NoErr

namespace StM.NoErr

theorem bind {x : StM σ α} {f : α → StM σ β} (hx : x.NoErr) (hf : ∀ a, (f a).NoErr) : (x >>= f).NoErr := by
  intro s
  have h := hx s
  rw [StM.bind_run]
  cases hr : x s with
  | mk r s' =>
    rw [hr] at h
    cases r with
    | ok a => exact hf a s'
    | err e => exact absurd rfl (h e)
    | panic => exact .panic

theorem pure (a : α) : (Pure.pure a : StM σ α).NoErr := fun _ => .ok a
theorem lift {r : Res α} (h : r.NoErr) : (StM.lift r : StM σ α).NoErr := fun _ => h
theorem gets (f : σ → α) : (StM.gets f).NoErr := fun _ => .ok _
theorem modify (f : σ → σ) : (StM.modify f).NoErr := fun _ => .ok _
theorem query {f : σ → Res α} (h : ∀ s, (f s).NoErr) : (StM.query f).NoErr := h
theorem emit (ms : List Bytes) : (Instance.emit ms : StM (World σ) Unit).NoErr := fun _ => .ok _

theorem inject (A : Account) (c : Call) (rnd : Rand) (v : Version) (k : UInt32) (m : EncodedMessageType) :
    (Instance.inject A c rnd v k m).NoErr :=
  .bind (.gets _) fun _ => .bind (.lift (.assert _)) fun _ => .bind (.lift (.encodeMessage _ _ _ _)) fun _ =>
    .bind (.lift (.payloads _ _ _ _ _ _)) fun _ => .emit _

theorem encrypt3 (E : Env) (a b : UInt32) (fl : UInt8) (plain : Bytes) : (Otrr.encrypt3 E a b fl plain).NoErr := by
  refine .bind ?_ fun _ => .bind (.gets _) fun _ => .bind (.gets _) fun _ => .bind (.query fun _ => ?_) fun _ =>
    .bind (.lift (.dataSecrets _ _ _)) fun _ => .bind (.lift (.assert _)) fun _ => .bind ?_ fun _ =>
    .bind (.lift (.assert _)) fun _ => .bind (.lift (.assert _)) fun _ => .bind (.lift (.assert _)) fun _ => .pure _
  · intro k
    unfold KeyManager.takeCounter
    have h : (counterTake k.ourCtr).NoErr := by
      unfold counterTake
      split
      · exact .panic
      · exact .bind (.assert _) fun _ => .pure _
    split
    · exact .ok _
    · rename_i e he; exact absurd he (h e)
    · exact .panic
  · exact .bind (.incId _) fun _ => .pure _
  · intro k
    unfold KeyManager.getRevealMacs
    split
    · exact .ok _
    · exact .panic

theorem enc3 (E : Env) (fl : UInt8) (plain : Bytes) : (Enc3.encrypt E fl plain).NoErr := fun s =>
  encrypt3 E _ _ fl plain s.keys

theorem onRatchet {f : DoubleRatchet → Res (α × DoubleRatchet)} {s : Enc4} (h : (f s.ratchet).NoErr) :
    (Enc4.onRatchet f s).1.NoErr := by
  unfold Enc4.onRatchet
  split
  · exact .ok _
  · rename_i e he; exact absurd he (h e)
  · exact .panic

theorem enc4 (E : Env) (fl : UInt8) (plain : Bytes) (r : Rand) (now : Nat) : (Enc4.encrypt E fl plain r now).NoErr :=
  fun _ => onRatchet (.encrypt4 _ _ _ _ _ _ _ _ _)

theorem disconnect (E : Env) (r : Rand) (now : Nat) : (Enc4.disconnect E r now).NoErr :=
  fun _ => onRatchet (.encrypt4 _ _ _ _ _ _ _ _ _)

theorem finish (E : Env) (r : Rand) (now : Nat) : (PState.finish E r now).NoErr := by
  intro s
  cases s with
  | plaintext => exact .ok _
  | finished => exact .ok _
  | encrypted3 a b =>
    rw [PState.finish]
    have := enc3 E IGNORE_UNREADABLE disconnectPlain a
    split
    · exact .ok _
    · rename_i e _ he; rw [he] at this; exact absurd rfl (this e)
    · exact .panic
  | encrypted4 a b =>
    rw [PState.finish]
    have := disconnect E r now a
    split
    · exact .ok _
    · rename_i e _ he; rw [he] at this; exact absurd rfl (this e)
    · exact .panic

theorem expire (E : Env) (t : Nat) (r : Rand) (now : Nat) : (PState.expire E t r now).NoErr := by
  intro s
  cases s with
  | encrypted4 a b =>
    rw [PState.expire]
    split
    · have := disconnect E r now a
      split
      · exact .ok _
      · rename_i e _ he; rw [he] at this; exact absurd rfl (this e)
      · exact .panic
    · exact .ok _
  | _ => exact .ok _

/-- Only a finished session refuses to encrypt. -/
theorem prepare (E : Env) (fl : UInt8) (content : Bytes) (r : Rand) (now : Nat) {s : PState} (hs : s ≠ .finished) :
    (s.prepare E fl content r now).1.NoErr := by
  cases s with
  | plaintext => exact .ok _
  | finished => exact absurd rfl hs
  | encrypted3 a b => exact bind (enc3 E fl content) (fun _ => .pure _) a
  | encrypted4 a b => exact bind (enc4 E fl content r now) (fun _ => .pure _) a

end StM.NoErr

end Otrr
