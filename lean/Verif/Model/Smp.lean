import Verif.Model.KeyManager
import Verif.Model.Ed448
/-!
# Model of src/smp.rs: the OTRv3 Socialist Millionaires' Protocol

`host.keypair()` and `host.query_smp_secret()` are arguments.  `random()` draws from a `Rand`, with one site
per call.  Simplifications: the texts in `SMPStatus::Aborted` are dropped; the assertion of `write_mpi` that
the length fits 32 bits is not modelled (all values are below the group's modulus or are hashes).
-/

namespace Otrr

/-- What the protocol asks of the host: `keypair()` (its public key) and `query_smp_secret(question)`. -/
structure SMPHost where
  key : Option DSAPublicKey
  secret : Bytes → Option Bytes

/-- `SMPStatus`, src/smp.rs 733-742; also `SMP4Status`, src/smp4.rs 500-509. -/
inductive SMPStatus
  | initial
  | inProgress
  | aborted
  | completed
  deriving DecidableEq, Repr

/-- `SMPState`, src/smp.rs 670-691. -/
inductive SMPState
  | expect1
  | expect2 (x a2 a3 : Nat)
  | expect3 (g3a g2 g3 b3 Pb Qb : Nat)
  | expect4 (g3b PadivPb QadivQb a3 : Nat)
  deriving DecidableEq, Repr

/-- `SMPContext`, src/smp.rs 33-39. -/
structure SMPContext where
  status : SMPStatus
  state : SMPState
  ssid : Bytes
  their : Bytes
  deriving DecidableEq, Repr

namespace SMP

/-- `TLV_TYPE_SMP_MESSAGE_1`, `.._2`, `.._3`, `.._4`, `.._ABORT`, `.._1Q`, src/smp.rs 26-32. -/
def T1 : UInt16 := 2
def T2 : UInt16 := 3
def T3 : UInt16 := 4
def T4 : UInt16 := 5
def TAbort : UInt16 := 6
def T1Q : UInt16 := 7

/-- `is_smp_tlv`, src/smp.rs 16-23. -/
def isSmpTlv (t : TLV) : Bool :=
  t.typ == T1 || t.typ == T1Q || t.typ == T2 || t.typ == T3 || t.typ == T4 || t.typ == TAbort

/-- The abort TLV, src/smp.rs 144, 153, 160, 168, 665. -/
def abortTlv : TLV := ⟨TAbort, []⟩

/-- `SMPContext::new`, src/smp.rs 50-58. -/
def new (ssid their : Bytes) : SMPContext := ⟨.initial, .expect1, ssid, their⟩

/-- `random`, src/smp.rs 766-772. -/
def random (E : Env) (rnd : Rand) (site : Nat) : Nat := beNat (rnd.bytes [site] 192) % E.dh.q

/-- `hash_1_mpi`, src/smp.rs 774-779; `digest_with_prefix`, src/crypto.rs 564-569. -/
def hash1 (E : Env) (v : UInt8) (m : Nat) : Nat := beNat (E.sha256 (v :: wMpi m))

/-- `hash_2_mpi`, src/smp.rs 781-787; `digest_2_with_prefix`, src/crypto.rs 572-578. -/
def hash2 (E : Env) (v : UInt8) (m1 m2 : Nat) : Nat := beNat (E.sha256 (v :: (wMpi m1 ++ wMpi m2)))

/-- `compute_secret`, src/smp.rs 747-764; `SMP_VERSION` = 1. -/
def computeSecret (E : Env) (initiator responder ssid secret : Bytes) : Nat :=
  beNat (E.sha256 ([1] ++ initiator ++ responder ++ ssid ++ secret))

/-- The answer to a challenge: `(r + q - (a * c).mod_floor(q)).mod_floor(q)`, e.g. src/smp.rs 102. -/
def response (G : DHGroup) (r a c : Nat) : Nat := (r + G.q - (a * c) % G.q) % G.q

/-- `(a.modpow(x, MOD) * b.modpow(y, MOD)).mod_floor(MOD)`. -/
def pow2 (G : DHGroup) (a x b y : Nat) : Nat := (modpow a x G.p * modpow b y G.p) % G.p

/-- `(a.modpow(x, MOD) * b.modpow(y, MOD) * c.modpow(z, MOD)).mod_floor(MOD)`. -/
def pow3 (G : DHGroup) (a x b y c z : Nat) : Nat :=
  (modpow a x G.p * modpow b y G.p * modpow c z G.p) % G.p

/-- `otr::mod_inv`, src/crypto.rs 319-321: panics if there is no inverse. -/
def modInv (v m : Nat) : Res Nat :=
  match modInverse v m with
  | some i => .ok i
  | .none => .panic

/-- `(a * mod_inv(b, MOD)).mod_floor(MOD)`, src/smp.rs 445, 462, 551, 576. -/
def div (G : DHGroup) (a b : Nat) : Res Nat := do
  let i ← modInv b G.p
  return (a * i) % G.p

/-- The payload of SMP message 1 without question: `g2a, c2, D2, g3a, c3, D3`, src/smp.rs 97-113. -/
def values1 (E : Env) (a2 a3 r2 r3 : Nat) : List Nat :=
  let G := E.dh
  let c2 := hash1 E 1 (modpow G.g r2 G.p)
  let c3 := hash1 E 2 (modpow G.g r3 G.p)
  [modpow G.g a2 G.p, c2, response G r2 a2 c2, modpow G.g a3 G.p, c3, response G r3 a3 c3]

/-- `initiate`, src/smp.rs 69-117. -/
def start (E : Env) (host : SMPHost) (secret question : Bytes) (rnd : Rand) : StM SMPContext TLV := fun c =>
  match c.state with
  | .expect1 =>
    match host.key with
    | .none => (.panic, { c with status := .inProgress })
    | some key =>
      let x := computeSecret E (fingerprint3 E key) c.their c.ssid secret
      let a2 := random E rnd 0
      let a3 := random E rnd 1
      let r2 := random E rnd 2
      let r3 := random E rnd 3
      let payload := wMpiSequence (values1 E a2 a3 r2 r3)
      let tlv : TLV := if question.isEmpty then ⟨T1, payload⟩ else ⟨T1Q, wNullTerminated question ++ payload⟩
      (.ok tlv, { c with status := .inProgress, state := .expect2 x a2 a3 })
  | _ => (.err .smpInProgress, c)

/-- The payload of message 1, src/smp.rs 214-233: the question and the six numbers. -/
def readMessage1 (t : TLV) : Res (Bytes × List Nat) :=
  runDec (do
    let question ← if t.typ = T1Q then readNullTerminated else pure []
    let ms ← readMpiSequence
    if ms.length ≠ 6 then Dec.fail .protocolViolation
    else do
      decDone
      pure (question, ms)) t.value

/-- The payload of messages 2 to 4, src/smp.rs 354-359, 512-517, 618-623: the numbers; trailing bytes are
ignored. -/
def readNumbers (n : Nat) (t : TLV) : Res (List Nat) := do
  let ms ← runDec readMpiSequence t.value
  if ms.length ≠ n then .err .protocolViolation else return ms

/-- The checks on message 1, src/smp.rs 235-259. -/
def check1 (E : Env) (g2a c2 D2 g3a c3 D3 : Nat) : Res Unit := do
  let G := E.dh
  DH.verifyExponent G D2
  DH.verifyExponent G D3
  DH.verifyPublicKey G g2a
  DH.verifyPublicKey G g3a
  DH.verify (hash1 E 1 (pow2 G G.g D2 g2a c2)) c2
  DH.verify (hash1 E 2 (pow2 G G.g D3 g3a c3)) c3

/-- The seven random exponents of message 2, src/smp.rs 282-286. -/
structure Exps2 where
  b2 : Nat
  b3 : Nat
  r2 : Nat
  r3 : Nat
  r4 : Nat
  r5 : Nat
  r6 : Nat

def Exps2.draw (E : Env) (rnd : Rand) : Exps2 :=
  ⟨random E rnd 0, random E rnd 1, random E rnd 2, random E rnd 3, random E rnd 4, random E rnd 5, random E rnd 6⟩

/-- The payload of message 2, src/smp.rs 288-319: `g2b, c2, D2, g3b, c3, D3, Pb, Qb, cP, D5, D6`. -/
def values2 (E : Env) (g2 g3 y : Nat) (e : Exps2) : List Nat :=
  let G := E.dh
  let c2 := hash1 E 3 (modpow G.g e.r2 G.p)
  let c3 := hash1 E 4 (modpow G.g e.r3 G.p)
  let cP := hash2 E 5 (modpow g3 e.r5 G.p) (pow2 G G.g e.r5 g2 e.r6)
  [modpow G.g e.b2 G.p, c2, response G e.r2 e.b2 c2, modpow G.g e.b3 G.p, c3, response G e.r3 e.b3 c3,
    modpow g3 e.r4 G.p, pow2 G G.g e.r4 g2 y, cP, response G e.r5 e.r4 cP, response G e.r6 y cP]

/-- `handle_message_1`, src/smp.rs 203-329. -/
def handle1 (E : Env) (host : SMPHost) (t : TLV) (rnd : Rand) (c : SMPContext) : Res (TLV × SMPContext) :=
  match c.state with
  | .expect1 => do
    let (question, ms) ← readMessage1 t
    match ms with
    | [g2a, c2, D2, g3a, c3, D3] => do
      check1 E g2a c2 D2 g3a c3 D3
      match host.secret question with
      | .none => .err (.smpAborted true)
      | some answer =>
        match host.key with
        | .none => .panic
        | some key =>
          let G := E.dh
          let y := computeSecret E c.their (fingerprint3 E key) c.ssid answer
          let e := Exps2.draw E rnd
          let g2 := modpow g2a e.b2 G.p
          let g3 := modpow g3a e.b3 G.p
          .ok (⟨T2, wMpiSequence (values2 E g2 g3 y e)⟩,
            { c with
              status := .inProgress
              state := .expect3 g3a g2 g3 e.b3 (modpow g3 e.r4 G.p) (pow2 G G.g e.r4 g2 y) })
    | _ => .err .protocolViolation
  | _ => .err .protocolViolation

/-- The checks on message 2, src/smp.rs 384-423. -/
def check2 (E : Env) (a2 a3 g2b c2 D2 g3b c3 D3 Pb Qb cP D5 D6 : Nat) : Res Unit := do
  let G := E.dh
  DH.verifyExponent G D2
  DH.verifyExponent G D3
  DH.verifyExponent G D5
  DH.verifyExponent G D6
  DH.verifyPublicKey G g2b
  DH.verifyPublicKey G g3b
  DH.verifyPublicKey G Pb
  DH.verifyPublicKey G Qb
  DH.verify (hash1 E 3 (pow2 G G.g D2 g2b c2)) c2
  DH.verify (hash1 E 4 (pow2 G G.g D3 g3b c3)) c3
  DH.verify (hash2 E 5 (pow2 G (modpow g3b a3 G.p) D5 Pb cP) (pow3 G G.g D5 (modpow g2b a2 G.p) D6 Qb cP)) cP

/-- The four random exponents of message 3, src/smp.rs 429. -/
structure Exps3 where
  r4 : Nat
  r5 : Nat
  r6 : Nat
  r7 : Nat

def Exps3.draw (E : Env) (rnd : Rand) : Exps3 :=
  ⟨random E rnd 0, random E rnd 1, random E rnd 2, random E rnd 3⟩

/-- The payload of message 3, src/smp.rs 431-461: `Pa, Qa, cP, D5, D6, Ra, cR, D7`. -/
def values3 (E : Env) (g2 g3 x a3 QadivQb : Nat) (e : Exps3) : List Nat :=
  let G := E.dh
  let cP := hash2 E 6 (modpow g3 e.r5 G.p) (pow2 G G.g e.r5 g2 e.r6)
  let cR := hash2 E 7 (modpow G.g e.r7 G.p) (modpow QadivQb e.r7 G.p)
  [modpow g3 e.r4 G.p, pow2 G G.g e.r4 g2 x, cP, response G e.r5 e.r4 cP, response G e.r6 x cP,
    modpow QadivQb a3 G.p, cR, response G e.r7 a3 cR]

/-- `handle_message_2`, src/smp.rs 331-471. -/
def handle2 (E : Env) (t : TLV) (rnd : Rand) (c : SMPContext) : Res (TLV × SMPContext) :=
  match c.state with
  | .expect2 x a2 a3 => do
    let ms ← readNumbers 11 t
    match ms with
    | [g2b, c2, D2, g3b, c3, D3, Pb, Qb, cP, D5, D6] => do
      check2 E a2 a3 g2b c2 D2 g3b c3 D3 Pb Qb cP D5 D6
      let G := E.dh
      let g2 := modpow g2b a2 G.p
      let g3 := modpow g3b a3 G.p
      let e := Exps3.draw E rnd
      let QadivQb ← div G (pow2 G G.g e.r4 g2 x) Qb
      let PadivPb ← div G (modpow g3 e.r4 G.p) Pb
      .ok (⟨T3, wMpiSequence (values3 E g2 g3 x a3 QadivQb e)⟩,
        { c with state := .expect4 g3b PadivPb QadivQb a3 })
    | _ => .err .protocolViolation
  | _ => .err .protocolViolation

/-- The checks on message 3 but the last, src/smp.rs 528-549. -/
def check3 (E : Env) (g2 g3 Pa Qa cP D5 D6 Ra D7 : Nat) : Res Unit := do
  let G := E.dh
  DH.verifyExponent G D5
  DH.verifyExponent G D6
  DH.verifyExponent G D7
  DH.verifyPublicKey G Pa
  DH.verifyPublicKey G Qa
  DH.verifyPublicKey G Ra
  DH.verify cP (hash2 E 6 (pow2 G g3 D5 Pa cP) (pow3 G G.g D5 g2 D6 Qa cP))

/-- The payload of message 4, src/smp.rs 565-583: `Rb, cR, D7`. -/
def values4 (E : Env) (QadivQb b3 r7 : Nat) : List Nat :=
  let G := E.dh
  let cR := hash2 E 8 (modpow G.g r7 G.p) (modpow QadivQb r7 G.p)
  [modpow QadivQb b3 G.p, cR, response G r7 b3 cR]

/-- `handle_message_3`, src/smp.rs 473-589. -/
def handle3 (E : Env) (t : TLV) (rnd : Rand) (c : SMPContext) : Res (TLV × SMPContext) :=
  match c.state with
  | .expect3 g3a g2 g3 b3 Pb Qb => do
    let ms ← readNumbers 8 t
    match ms with
    | [Pa, Qa, cP, D5, D6, Ra, cR, D7] => do
      let G := E.dh
      check3 E g2 g3 Pa Qa cP D5 D6 Ra D7
      let QadivQb ← div G Qa Qb
      DH.verify cR (hash2 E 7 (pow2 G G.g D7 g3a cR) (pow2 G QadivQb D7 Ra cR))
      let PadivPb ← div G Pa Pb
      let tlv : TLV := ⟨T4, wMpiSequence (values4 E QadivQb b3 (random E rnd 0))⟩
      if PadivPb = modpow Ra b3 G.p then .err (.smpSuccess (some tlv)) else .err (.smpFailed (some tlv))
    | _ => .err .protocolViolation
  | _ => .err .protocolViolation

/-- `handle_message_4`, src/smp.rs 595-659. -/
def handle4 (E : Env) (t : TLV) (c : SMPContext) : Res (TLV × SMPContext) :=
  match c.state with
  | .expect4 g3b PadivPb QadivQb a3 => do
    let ms ← readNumbers 3 t
    match ms with
    | [Rb, cR, D7] => do
      let G := E.dh
      DH.verifyExponent G D7
      DH.verifyPublicKey G Rb
      DH.verify (hash2 E 8 (pow2 G G.g D7 g3b cR) (pow2 G QadivQb D7 Rb cR)) cR
      if PadivPb = modpow Rb a3 G.p then .err (.smpSuccess .none) else .err (.smpFailed .none)
    | _ => .err .protocolViolation
  | _ => .err .protocolViolation

/-- `dispatch`, src/smp.rs 181-200.  The context after an error is given by `handle`. -/
def dispatch (E : Env) (host : SMPHost) (t : TLV) (rnd : Rand) (c : SMPContext) : Res (TLV × SMPContext) :=
  if t.typ = T1 ∨ t.typ = T1Q then handle1 E host t rnd c
  else if t.typ = T2 then handle2 E t rnd c
  else if t.typ = T3 then handle3 E t rnd c
  else if t.typ = T4 then handle4 E t c
  else if t.typ = TAbort then .err (.smpAborted false)
  else .panic

/-- `handle`, src/smp.rs 127-179. -/
def handle (E : Env) (host : SMPHost) (t : TLV) (rnd : Rand) : StM SMPContext (Option TLV) := fun c =>
  let reset (s : SMPStatus) : SMPContext := { c with status := s, state := .expect1 }
  match dispatch E host t rnd c with
  | .ok (r, c') => (.ok (some r), c')
  | .err (.smpSuccess r) => (.ok r, reset .completed)
  | .err (.smpFailed r) => (.ok r, reset .aborted)
  | .err (.smpAborted true) => (.ok (some abortTlv), reset .aborted)
  | .err (.smpAborted false) => (.ok .none, reset .aborted)
  | .err .protocolViolation => (.ok (some abortTlv), reset .aborted)
  | .err .incompleteMessage => (.ok (some abortTlv), reset .aborted)
  | .err .cryptographicViolation => (.ok (some abortTlv), reset .aborted)
  | .err _ => (.panic, reset .aborted)
  | .panic => (.panic, c)

/-- `abort`, src/smp.rs 662-666. -/
def abort : StM SMPContext TLV := fun c => (.ok abortTlv, { c with status := .aborted, state := .expect1 })

end SMP

end Otrr
