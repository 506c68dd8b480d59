import Verif.Model.Session
/-!
# Model of `Account` in src/session.rs

Simplifications: log output is dropped; the map of sessions is an association list in which no key occurs twice, and
iteration follows the list.
-/

namespace Otrr

/-- What `Account::new` gets from the host (`Host`, src/lib.rs 207-253): the stored client profile, the key pairs, of which the
forging key is used as a public key only, and the time in seconds. -/
structure NewAccount where
  stored : Bytes
  identity : EdDSAKeyPair
  forging : Point
  keypair : Option DSAKeypair
  now : Nat

/-- `random_tag`, src/instancetag.rs 31-40: the first draw that is a valid tag.  The list has the draws of the loop; if none of
them is valid, the loop goes on, for which `panic` stands here. -/
def randomTag : List UInt32 → Res UInt32
  | [] => .panic
  | d :: ds => if 0x100 ≤ d then .ok d else randomTag ds

/-- `restore_clientprofile`, src/session.rs 57-64. -/
def restoreProfile (E : Env) (stored : Bytes) : Res ClientProfile := do
  let payload ← runDec (do let p ← readPayload E; decDone; pure p) stored
  payload.validate E

/-- The profile made in `generate_clientprofile`, src/session.rs 66-92, before it is signed.  The additions of the time cannot
overflow, unless the time does not fit an `i64`. -/
def freshProfile (E : Env) (h : NewAccount) (tag : UInt32) : Res ClientProfile := do
  let versions := .v4 :: (if h.keypair.isSome then [.v3] else [])
  Res.assert (h.now + 7 * 24 * 3600 < 2 ^ 63)
  (ClientProfile.new E h.now tag h.identity.pub h.forging versions (UInt64.ofNat (h.now + 7 * 24 * 3600))
    (h.keypair.map (·.pk))).expect

/-- `generate_clientprofile`, src/session.rs 66-97.  Returns the profile and what `update_client_profile` is called with. -/
def generateProfile (E : Env) (h : NewAccount) (draws : List UInt32) : Res (ClientProfile × Bytes) := do
  let tag ← randomTag draws
  let profile ← freshProfile E h tag
  let payload ← profile.sign E h.identity h.keypair
  return (profile, wPayload payload)

/-- `Account`, src/session.rs 21-26, with the fields of `AccountDetails`, 1106-1111, without the host. -/
structure AccountState where
  policy : Policy
  tag : UInt32
  name : Bytes
  profile : ClientProfile
  sessions : List (Bytes × Session)

namespace AccountState

/-- `Account::new`, src/session.rs 34-53.  Returns the account and the profiles handed to `update_client_profile`. -/
def new (E : Env) (name : Bytes) (policy : Policy) (h : NewAccount) (draws : List UInt32) : Res (AccountState × List Bytes) :=
  match restoreProfile E h.stored with
  | .ok p => .ok (⟨policy, p.ownerTag, name, p, []⟩, [])
  | .err _ => do
    let (p, stored) ← generateProfile E h draws
    return (⟨policy, p.ownerTag, name, p, []⟩, [stored])
  | .panic => .panic

/-- What a session with this address knows of the account: src/session.rs 113-117. -/
def details (acc : AccountState) (address : Bytes) : Account := ⟨acc.policy, acc.tag, acc.name, address⟩

/-- `session`, src/session.rs 110-118: the session with this address, made if needed. -/
def openSession (acc : AccountState) (address : Bytes) : AccountState :=
  match lookup acc.sessions address with
  | some _ => acc
  | .none => { acc with sessions := insertKey acc.sessions address .new }

end AccountState

/-- An account, and the calls `Host::inject(address, message)` so far. -/
structure AccountWorld where
  st : AccountState
  sent : List (Bytes × Bytes)

/-- Calls on an account. -/
abbrev AccM := StM AccountWorld

namespace AccountState

/-- `account.session(address)`, src/session.rs 110-118, followed by a call on the session, in which the session injects
messages with its own address. -/
def onSession (address : Bytes) (f : Account → SessM α) : AccM α := fun w =>
  let acc := w.st.openSession address
  let (r, v) := f (acc.details address) ⟨(lookup acc.sessions address).getD .new, []⟩
  (r, ⟨{ acc with sessions := insertKey acc.sessions address v.st }, w.sent ++ v.sent.map fun m => (address, m)⟩)

/-- The loop of `expire`, src/session.rs 125-127.  `calls` has the answers of the host, time and random bytes for each
session. -/
def expireSessions (E : Env) (calls : Bytes → Call) (timeout : Nat) : List Bytes → AccM Unit
  | [] => pure ()
  | a :: as => do
    onSession a (fun A => Session.expire E A (calls a) timeout)
    expireSessions E calls timeout as

/-- `expire`, src/session.rs 123-128. -/
def expire (E : Env) (calls : Bytes → Call) (timeout : Nat) : AccM Unit := do
  let as ← StM.gets fun w => w.st.sessions.map (·.1)
  expireSessions E calls timeout as

end AccountState

end Otrr
