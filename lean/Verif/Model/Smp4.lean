import Verif.Model.Smp
/-!
# Model of src/smp4.rs: the OTRv4 Socialist Millionaires' Protocol

`host.query_smp_secret()` is an argument.  Each `random_in_Zq()` draws from a `Rand` at its own site.
Simplifications: the texts in `SMP4Status::Aborted` are dropped; sums of points are defined (`addDefined`) for
points of the curve; the assertions that SHAKE output is not all zero and that a secret or question is shorter
than 4 GiB are not modelled.
-/

namespace Otrr

/-- `State`, src/smp4.rs 512-535. -/
inductive SMP4State
  | expect1
  | expect2 (x a2 a3 : Nat)
  | expect3 (G3a G2 G3 : Point) (b3 : Nat) (Pb Qb : Point)
  | expect4 (G3b deltaP deltaQ : Point) (a3 : Nat)
  deriving DecidableEq, Repr

/-- `SMP4Context`, src/smp4.rs 24-31. -/
structure SMP4Context where
  state : SMP4State
  status : SMPStatus
  us : Bytes
  them : Bytes
  ssid : Bytes
  deriving DecidableEq, Repr

namespace SMP4

/-- `TLV_SMP_MESSAGE_1`, `.._2`, `.._3`, `.._4`, `TLV_SMP_ABORT`, src/smp4.rs 39-43. -/
def T1 : UInt16 := 2
def T2 : UInt16 := 3
def T3 : UInt16 := 4
def T4 : UInt16 := 5
def TAbort : UInt16 := 6

/-- `is_smp_tlv`, src/smp4.rs 15-21. -/
def isSmpTlv (t : TLV) : Bool :=
  t.typ == T1 || t.typ == T2 || t.typ == T3 || t.typ == T4 || t.typ == TAbort

/-- The abort TLV, src/smp4.rs 476. -/
def abortTlv : TLV := ⟨TAbort, []⟩

/-- `SMP4Context::new`, src/smp4.rs 49-63. -/
def new (us them ssid : Bytes) : SMP4Context := ⟨.expect1, .initial, us, them, ssid⟩

/-- `random_in_Zq`. -/
def random (E : Env) (rnd : Rand) (site : Nat) : Nat := randomInZq E (rnd.bytes [site] 57)

/-- `hash_point_to_scalar`, src/crypto.rs 1302-1304. -/
def hash1 (E : Env) (u : UInt8) (P : Point) : Nat := hashToScalar E u P.encode

/-- `hash_point_to_scalar2`, src/crypto.rs 1307-1312. -/
def hash2 (E : Env) (u : UInt8) (P R : Point) : Nat := hashToScalar E u (P.encode ++ R.encode)

/-- `compute_secret`, src/smp4.rs 479-495; `USAGE_SMP_SECRET` = 0x19. -/
def computeSecret (E : Env) (initiator responder ssid secret : Bytes) : Nat :=
  leNat (prune (kdf E 57 0x19 (wU8 1 ++ initiator ++ responder ++ ssid ++ wData secret)))

/-- The answer to a challenge: `(r - (a * c).mod_floor(q)).mod_floor(q)`, e.g. src/smp4.rs 90. -/
def response (c : Curve) (r a ch : Nat) : Nat := modFloor ((r : Int) - ((a * ch % c.q : Nat) : Int)) c.q

/-- `P * x + R * y`. -/
def comb2 (c : Curve) (P : Point) (x : Nat) (R : Point) (y : Nat) : Point :=
  Point.add c (Point.mul c P x) (Point.mul c R y)

/-- `(P * x + R * y) + S * z`. -/
def comb3 (c : Curve) (P : Point) (x : Nat) (R : Point) (y : Nat) (S : Point) (z : Nat) : Point :=
  Point.add c (comb2 c P x R y) (Point.mul c S z)

/-- `P + -R`. -/
def sub (c : Curve) (P R : Point) : Point := Point.add c P (Point.neg c R)

/-- `.expect(..)`: errors become panics. -/
def expect (x : Res α) : Res α :=
  match x with
  | .ok a => .ok a
  | _ => .panic

/-- The payload of message 1, src/smp4.rs 89-110: question, `G2a, c2, d2, G3a, c3, d3`. -/
def message1 (E : Env) (question : Bytes) (a2 a3 r2 r3 : Nat) : Bytes :=
  let c := E.curve
  let c2 := hash1 E 1 (Point.mul c c.G r2)
  let c3 := hash1 E 2 (Point.mul c c.G r3)
  wData question ++ wPoint (Point.mul c c.G a2) ++ wScalar c2 ++ wScalar (response c r2 a2 c2) ++
    wPoint (Point.mul c c.G a3) ++ wScalar c3 ++ wScalar (response c r3 a3 c3)

/-- `initiate` and `initiate0`, src/smp4.rs 74-117. -/
def start (E : Env) (secret question : Bytes) (rnd : Rand) : StM SMP4Context TLV := fun s =>
  if s.status = .inProgress then (.err .smpInProgress, s)
  else
    let s' : SMP4Context := { s with status := .inProgress }
    let c := E.curve
    let a2 := random E rnd 0
    let a3 := random E rnd 1
    let r2 := random E rnd 2
    let r3 := random E rnd 3
    match (do expect (Point.verify c (Point.mul c c.G a2)); expect (Point.verify c (Point.mul c c.G a3)) : Res Unit) with
    | .ok () =>
      (.ok ⟨T1, message1 E question a2 a3 r2 r3⟩,
        { s' with state := .expect2 (computeSecret E s.us s.them s.ssid secret) a2 a3 })
    | .err e => (.err e, s')
    | .panic => (.panic, s')

/-- The values in message 1. -/
structure Msg1 where
  question : Bytes
  G2a : Point
  c2 : Nat
  d2 : Nat
  G3a : Point
  c3 : Nat
  d3 : Nat

/-- Decoding of message 1, with the checks of its points, src/smp4.rs 160-171. -/
def readMsg1 (c : Curve) : Dec Msg1 := do
  let question ← readData
  let G2a ← readPoint c
  Dec.lift (Point.verify c G2a)
  let c2 ← readScalar c
  let d2 ← readScalar c
  let G3a ← readPoint c
  Dec.lift (Point.verify c G3a)
  let c3 ← readScalar c
  let d3 ← readScalar c
  decDone
  pure ⟨question, G2a, c2, d2, G3a, c3, d3⟩

/-- The proofs in message 1, src/smp4.rs 175-180. -/
def check1 (E : Env) (m : Msg1) : Res Unit := do
  let c := E.curve
  compareScalars (hash1 E 1 (comb2 c c.G m.d2 m.G2a m.c2)) m.c2
  compareScalars (hash1 E 2 (comb2 c c.G m.d3 m.G3a m.c3)) m.c3

/-- The seven random scalars of message 2, src/smp4.rs 186-192. -/
def draw2 (E : Env) (rnd : Rand) : SMP.Exps2 :=
  ⟨random E rnd 0, random E rnd 1, random E rnd 2, random E rnd 3, random E rnd 4, random E rnd 5, random E rnd 6⟩

/-- The payload of message 2, src/smp4.rs 193-227. -/
def message2 (E : Env) (G2 G3 : Point) (y : Nat) (e : SMP.Exps2) : Bytes :=
  let c := E.curve
  let c2 := hash1 E 3 (Point.mul c c.G e.r2)
  let c3 := hash1 E 4 (Point.mul c c.G e.r3)
  let cp := hash2 E 5 (Point.mul c G3 e.r5) (comb2 c c.G e.r5 G2 e.r6)
  wPoint (Point.mul c c.G e.b2) ++ wScalar c2 ++ wScalar (response c e.r2 e.b2 c2) ++
    wPoint (Point.mul c c.G e.b3) ++ wScalar c3 ++ wScalar (response c e.r3 e.b3 c3) ++
    wPoint (Point.mul c G3 e.r4) ++ wPoint (comb2 c c.G e.r4 G2 y) ++
    wScalar cp ++ wScalar (response c e.r5 e.r4 cp) ++ wScalar (response c e.r6 y cp)

/-- `handle_message_1`, src/smp4.rs 151-237. -/
def handle1 (E : Env) (host : SMPHost) (t : TLV) (rnd : Rand) (s : SMP4Context) : Res (Option TLV × SMP4Context) :=
  match s.state with
  | .expect1 => do
    let c := E.curve
    let m ← runDec (readMsg1 c) t.value
    check1 E m
    match host.secret m.question with
    | .none => .err (.smpAborted true)
    | some secret => do
      let e := draw2 E rnd
      let G2 := Point.mul c m.G2a e.b2
      Point.verify c G2
      let G3 := Point.mul c m.G3a e.b3
      Point.verify c G3
      let y := computeSecret E s.them s.us s.ssid secret
      let Pb := Point.mul c G3 e.r4
      Point.verify c Pb
      let Qb := comb2 c c.G e.r4 G2 y
      Point.verify c Qb
      return (some ⟨T2, message2 E G2 G3 y e⟩, { s with state := .expect3 m.G3a G2 G3 e.b3 Pb Qb })
  | _ => .err .protocolViolation

/-- The values in message 2. -/
structure Msg2 where
  G2b : Point
  c2 : Nat
  d2 : Nat
  G3b : Point
  c3 : Nat
  d3 : Nat
  Pb : Point
  Qb : Point
  cp : Nat
  d5 : Nat
  d6 : Nat

/-- Decoding of message 2, src/smp4.rs 260-272. -/
def readMsg2 (c : Curve) : Dec Msg2 := do
  let G2b ← readPoint c
  let c2 ← readScalar c
  let d2 ← readScalar c
  let G3b ← readPoint c
  let c3 ← readScalar c
  let d3 ← readScalar c
  let Pb ← readPoint c
  let Qb ← readPoint c
  let cp ← readScalar c
  let d5 ← readScalar c
  let d6 ← readScalar c
  decDone
  pure ⟨G2b, c2, d2, G3b, c3, d3, Pb, Qb, cp, d5, d6⟩

/-- The checks on message 2, src/smp4.rs 275-299. -/
def check2 (E : Env) (a2 a3 : Nat) (m : Msg2) : Res Unit := do
  let c := E.curve
  Point.verify c m.G2b
  Point.verify c m.G3b
  compareScalars m.c2 (hash1 E 3 (comb2 c c.G m.d2 m.G2b m.c2))
  compareScalars m.c3 (hash1 E 4 (comb2 c c.G m.d3 m.G3b m.c3))
  let G2 := Point.mul c m.G2b a2
  Point.verify c G2
  let G3 := Point.mul c m.G3b a3
  Point.verify c G3
  compareScalars m.cp (hash2 E 5 (comb2 c G3 m.d5 m.Pb m.cp) (comb3 c c.G m.d5 G2 m.d6 m.Qb m.cp))

/-- The four random scalars of message 3, src/smp4.rs 301-304. -/
def draw3 (E : Env) (rnd : Rand) : SMP.Exps3 :=
  ⟨random E rnd 0, random E rnd 1, random E rnd 2, random E rnd 3⟩

/-- The payload of message 3, src/smp4.rs 305-325. -/
def message3 (E : Env) (G2 G3 : Point) (x a3 : Nat) (deltaQ : Point) (e : SMP.Exps3) : Bytes :=
  let c := E.curve
  let cp := hash2 E 6 (Point.mul c G3 e.r5) (comb2 c c.G e.r5 G2 e.r6)
  let cr := hash2 E 7 (Point.mul c c.G e.r7) (Point.mul c deltaQ e.r7)
  wPoint (Point.mul c G3 e.r4) ++ wPoint (comb2 c c.G e.r4 G2 x) ++
    wScalar cp ++ wScalar (response c e.r5 e.r4 cp) ++ wScalar (response c e.r6 x cp) ++
    wPoint (Point.mul c deltaQ a3) ++ wScalar cr ++ wScalar (response c e.r7 a3 cr)

/-- `handle_message_2`, src/smp4.rs 240-333. -/
def handle2 (E : Env) (t : TLV) (rnd : Rand) (s : SMP4Context) : Res (Option TLV × SMP4Context) :=
  match s.state with
  | .expect2 x0 a2 a3 => do
    let c := E.curve
    let x := x0 % c.q
    let m ← runDec (readMsg2 c) t.value
    check2 E a2 a3 m
    let G2 := Point.mul c m.G2b a2
    let G3 := Point.mul c m.G3b a3
    let e := draw3 E rnd
    let deltaP := sub c (Point.mul c G3 e.r4) m.Pb
    let deltaQ := sub c (comb2 c c.G e.r4 G2 x) m.Qb
    return (some ⟨T3, message3 E G2 G3 x a3 deltaQ e⟩, { s with state := .expect4 m.G3b deltaP deltaQ a3 })
  | _ => .err .protocolViolation

/-- The values in message 3. -/
structure Msg3 where
  Pa : Point
  Qa : Point
  cp : Nat
  d5 : Nat
  d6 : Nat
  Ra : Point
  cr : Nat
  d7 : Nat

/-- Decoding of message 3, src/smp4.rs 367-376. -/
def readMsg3 (c : Curve) : Dec Msg3 := do
  let Pa ← readPoint c
  let Qa ← readPoint c
  let cp ← readScalar c
  let d5 ← readScalar c
  let d6 ← readScalar c
  let Ra ← readPoint c
  let cr ← readScalar c
  let d7 ← readScalar c
  decDone
  pure ⟨Pa, Qa, cp, d5, d6, Ra, cr, d7⟩

/-- The checks on message 3, src/smp4.rs 379-400. -/
def check3 (E : Env) (G3a G2 G3 Qb : Point) (m : Msg3) : Res Unit := do
  let c := E.curve
  Point.verify c m.Pa
  Point.verify c m.Qa
  Point.verify c m.Ra
  compareScalars m.cp (hash2 E 6 (comb2 c G3 m.d5 m.Pa m.cp) (comb3 c c.G m.d5 G2 m.d6 m.Qa m.cp))
  compareScalars m.cr (hash2 E 7 (comb2 c c.G m.d7 G3a m.cr) (comb2 c (sub c m.Qa Qb) m.d7 m.Ra m.cr))

/-- The payload of message 4, src/smp4.rs 402-411. -/
def message4 (E : Env) (deltaQ : Point) (b3 r7 : Nat) : Bytes :=
  let c := E.curve
  let cr := hash2 E 8 (Point.mul c c.G r7) (Point.mul c deltaQ r7)
  wPoint (Point.mul c deltaQ b3) ++ wScalar cr ++ wScalar (response c r7 b3 cr)

/-- `handle_message_3`, src/smp4.rs 338-420. -/
def handle3 (E : Env) (t : TLV) (rnd : Rand) (s : SMP4Context) : Res (Option TLV × SMP4Context) :=
  match s.state with
  | .expect3 G3a G2 G3 b3 Pb Qb => do
    let c := E.curve
    let m ← runDec (readMsg3 c) t.value
    check3 E G3a G2 G3 Qb m
    let tlv : TLV := ⟨T4, message4 E (sub c m.Qa Qb) b3 (random E rnd 0)⟩
    let status := if comparePoints (Point.mul c m.Ra b3) (sub c m.Pa Pb) = .ok () then SMPStatus.completed else .aborted
    return (some tlv, { s with state := .expect1, status := status })
  | _ => .err .protocolViolation

/-- The values in message 4. -/
structure Msg4 where
  Rb : Point
  cr : Nat
  d7 : Nat

/-- Decoding of message 4, src/smp4.rs 447-451. -/
def readMsg4 (c : Curve) : Dec Msg4 := do
  let Rb ← readPoint c
  let cr ← readScalar c
  let d7 ← readScalar c
  decDone
  pure ⟨Rb, cr, d7⟩

/-- The checks on message 4, src/smp4.rs 454-463. -/
def check4 (E : Env) (G3b deltaQ : Point) (m : Msg4) : Res Unit := do
  let c := E.curve
  Point.verify c m.Rb
  compareScalars m.cr (hash2 E 8 (comb2 c c.G m.d7 G3b m.cr) (comb2 c deltaQ m.d7 m.Rb m.cr))

/-- `handle_message_4`, src/smp4.rs 424-470. -/
def handle4 (E : Env) (t : TLV) (s : SMP4Context) : Res (Option TLV × SMP4Context) :=
  match s.state with
  | .expect4 G3b deltaP deltaQ a3 => do
    let c := E.curve
    let m ← runDec (readMsg4 c) t.value
    check4 E G3b deltaQ m
    comparePoints (Point.mul c m.Rb a3) deltaP
    return (.none, { s with state := .expect1, status := .completed })
  | _ => .err .protocolViolation

/-- `abort`, src/smp4.rs 473-477. -/
def abort : StM SMP4Context TLV := fun s => (.ok abortTlv, { s with state := .expect1, status := .aborted })

/-- `dispatch`, src/smp4.rs 134-148.  The context after an error is given by `handle`. -/
def dispatch (E : Env) (host : SMPHost) (t : TLV) (rnd : Rand) (s0 : SMP4Context) : Res (Option TLV × SMP4Context) :=
  let s : SMP4Context := { s0 with status := .inProgress }
  if t.typ = TAbort then .ok (some abortTlv, { s with state := .expect1, status := .aborted })
  else if t.typ = T1 then handle1 E host t rnd s
  else if t.typ = T2 then handle2 E t rnd s
  else if t.typ = T3 then handle3 E t rnd s
  else if t.typ = T4 then handle4 E t s
  else .panic

/-- `handle`, src/smp4.rs 120-132. -/
def handle (E : Env) (host : SMPHost) (t : TLV) (rnd : Rand) : StM SMP4Context (Option TLV) := fun s =>
  match dispatch E host t rnd s with
  | .ok (r, s') => (.ok r, s')
  | .err _ => (.ok .none, { s with state := .expect1, status := .aborted })
  | .panic => (.panic, s)

end SMP4

end Otrr
