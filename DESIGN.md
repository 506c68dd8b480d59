# Formal model of cobratbq/otrr in Lean 4

Sources modelled: `/repo/src/*.rs` (Rust, version 0.7.4).  The model lives in `lean/Verif/`.
`properties.jsonl` lists the properties, `MANIFEST.json` maps each one to its theorems,
`seeded/LOG.jsonl` records the wrong programs against which the theorems were tested.

## Layout

* `Verif/Basic.lean` - result type (`ok | err | panic`), byte strings, big/little endian numbers.
* `Verif/Model/*.lean` - the model, function by function.  Every definition cites file and lines.
* `Verif/Spec/*.lean` - small specifications, used in the statements of the theorems.  `Spec/Toy.lean` has toy
  primitives that meet the laws assumed, for the non-vacuity examples.
* `Verif/Lemmas/*.lean` - helper lemmas, invariants and the toy runs used in examples.
* `Verif/Props/*.lean` - the property theorems (`C01_...`), each with a non-vacuity `example` beside it.

## Modelling conventions

* A Rust function that takes `&mut self` becomes a function that returns the new value.  A state change
  made before an `Err` is returned is kept (Rust does not roll back).
* `Result` becomes `Res`: `ok`, `err` and a third constructor `panic`.  Every `assert!`, `unwrap`, `expect`,
  `todo!`, `panic!`, slice index out of range and arithmetic overflow that a caller can reach is a `panic`,
  unless the list of omissions below says otherwise.  Overflow and `debug_assert!` are modelled as in a
  debug build (the profile in which the tests run).
* Fixed-width integers are `UInt8/16/32/64`; `BigUint`/`BigInt` are `Nat`/`Int`; `usize` is `Nat`.
* Randomness is an arbitrary stream given to each call (`Rand`, split with `Rand.sub`).  Theorems quantify
  over the stream; where a draw must not be degenerate, a hypothesis says so.
* Cryptographic primitives (SHA-1, SHA-256, HMAC, AES and ChaCha key streams, SHAKE-256, DSA) and the groups
  (two D-H groups, an Edwards curve) are an arbitrary value of the structure `Env`.  A theorem that needs a
  law about them has it as an explicit hypothesis (`GoodCurve`, `GoodGroup`, ...), and a toy instance shows that
  the hypotheses can be met.  For the real constants (MODP groups, Ed448) the laws that can be proved are
  proved (`ed448_goodCurve`, `C60_ring_signature_ed448`, `C63_eddsa_ed448`, `C03_transport_ed448`, `ed448_prime_q`, `ed448_smpCurve`, `C59_ranges`).
* The host (message size, key pairs, SMP secret, stored profile), the clock and the random bytes are arguments of
  each call (`Call`), so that they may differ from call to call; `inject` calls are collected in order.
* A session history (`Hist`) is any sequence of API calls, with arbitrary received bytes; the
  properties of sessions are invariants by induction over it, or pre/post conditions of a call after it.

## Trusted base

* Lean 4.33.0's kernel.  Every property theorem depends at most on the axioms `propext`, `Classical.choice` and
  `Quot.sound` (`#print axioms`).  There is no `sorry`, no `native_decide`, no `bv_decide` and no own axiom.
  `decide +kernel` is used for closed facts only (constants, byte tables over all 256 values, toy examples).
* The reading of the Rust sources (nothing ties the model to the code mechanically).
* Library behaviour: `num-bigint-dig`, `regex`, `base64`, `bitflags`, `std::collections::HashMap`.
  How each is modelled is said in the comment of the definition that stands for it.  The matchers that stand for the
  regular expressions are proved to be the patterns of the source under the semantics in `Spec/Regex.lean` (C93).

## What is modelled

| source | model | comment |
|---|---|---|
| `encoding.rs`, `utils.rs` | `Basic`, `Model/Encoding` | all readers and writers; byte comparisons |
| `fragment.rs` | `Model/Fragment` | parsing, encoding, splitting, both reassemblers with eviction |
| `messages.rs`, `instancetag.rs`, `lib.rs` (versions, policies) | `Model/Messages`, `Model/Session` | all message types, base64, text classification |
| `clientprofile.rs` | `Model/ClientProfile` | codec, validation, signing |
| `crypto.rs` | `Model/Crypto`, `Model/Ed448` | D-H, DSA wrappers, key derivation, Ed448 points, EdDSA, ring signatures; hashes and ciphers are parameters |
| `ake.rs`, `dake.rs` | `Model/Ake`, `Model/Dake` | all handlers |
| `keymanager.rs` | `Model/KeyManager`, `Model/Ratchet` | OTRv3 key manager, double ratchet |
| `protocol.rs` | `Model/Protocol3`, `Model/Protocol4`, `Model/Session` | all states and messages |
| `smp.rs`, `smp4.rs` | `Model/Smp`, `Model/Smp4` | all messages and states |
| `session.rs` | `Model/Session`, `Model/Account` | `Session`, `Instance` and `Account` |

## What is not modelled

* Logging; memory wiping, `Drop` and `zeroize` (the assertion in
  `Drop for DoubleRatchet` is `C91_drop`); constant-time behaviour; threads (the API takes `&mut self`).
* Texts in error values and in the SMP status `Aborted`.
* Assertions that a hash output, a derived key or a random value is not all zero, where the model's comment says so
  (they fail with probability 2^-160 or less); where such a check rejects input of a peer it is modelled.
* `write_mpi`/`write_data` lengths of 4 GiB and more, where all written values were read from a message or are bounded.
* The order in which `HashMap`s are iterated: lists in insertion order stand for them.  C116 proves that nothing depends on it for the
  instances of a session, for unfinished OTRv4 messages, and for the sessions of an account.
* Running time, except for the number of rounds of the loop over skipped OTRv4 message keys (C102).
* Probabilities: unforgeability of signatures and MACs, and the chance of guessing a challenge.  Theorems say what is checked,
  and that two answers yield the secret (C99).

## Defects found

Where the code violates a property, a theorem named `..._violated` (or `..._crash`) proves it with a witness, and
`..._partial` proves what does hold.  The witnesses are:

* C02, C36, C52: 57 zero bytes read as a scalar panic.  C36: a ring signature whose challenges sum to zero, or our own
  identity key as the peer's ephemeral or forging key, panics.  C48: an all-zero authenticator panics.
* C07: a message of 65535 fragments panics.  C09: fragment numbers over 65535 and non-ASCII digits panic.
* C10: `?OTR?` and a whitespace prefix without tags panic.  C12: only the last of two whitespace tags is read.
* C17, C26, C65: an OTRv4 exchange offered without a receiver is never closed; C35: Auth-I can be replayed.
* C113: a query is not authenticated, and the OTRv3 exchange does not tell which versions a client allows. Who injects `?OTRv3?` makes two clients
  that both allow OTRv4 use OTRv3 (`C113_violated`). Only a policy without OTRv3 prevents this.
* C114: the tags in the headers of key-exchange messages are not authenticated, and an OTRv4 sender tag is not compared with the owner tag of the
  profile: who changes them makes a client report a session with a tag that no client of the peer has.
* C31, C35, C103, C104, C110, C111: the context of an offer stays under tag 0, and every D-H Key or Auth-R message makes the instance of its sender
  adopt it again: exchanges under way are overwritten, completed ones can be replayed (texts are reported again, and keys encrypt two texts), and
  the private keys of the offer are never erased.
* C27: completing OTRv3 in an OTRv4 session panics.  C32: a repeated D-H Commit keeps the old commitment.
* C37, C39, C41: OTRv3 counters and revealed keys after key rotation; C82: so that a text of a conversation is unreadable.  C43: an empty OTRv3 message panics, an announced
  key of 0 panics.
* C47: OTRv4 messages in order are rejected after the receiver rotated.  C66: message id 2^32-1 panics.
* C50: a NUL in an OTRv3 SMP question.  C53: identity points in OTRv4 SMP message 2.  C54: abort answered by abort.
* C57: duplicate empty versions field.  C58: the expiration of a peer's profile is not checked.
* C81: a stored profile is used after it expired, and with other keys than those of the host.
* C118: what an OTRv3 key signs in a profile is not hashed but reduced modulo the order of the DSA group.  A signature from an OTRv3 key exchange
  can be put into a profile of somebody else whose versions are chosen to give the same remainder.
* C61: non-canonical point encodings.  C67: no DSA key pair while an AKE is answered panics.
* C90: each first fragment from a new tag makes a new instance, which is kept for ever.
* C94: a query of 58 bytes is sent even to a host whose messages are shorter.
* C69: when OTRv4 Identity messages cross, the repeated Identity message is answered with new keys, so that only the
  winner gets a session.
* C96: two clients that begin an exchange with each other at the same time end without a session (OTRv3), or with two
  different sessions (OTRv4): the tie-break is never reached.
* C98: a ring signature mostly tells its signer: the drawn scalars always have their second lowest bit set (`random_in_Zq`
  prunes before it reduces modulo q), the computed ones have it in about half of the cases.
* C107: for the same reason, each of the two OTRv4 SMP messages that depend on the secret excludes about half of all guesses at it:
  the peer in one run can test a dictionary offline.
* C109: OTRv3 publishes the MAC key of a message while it still accepts messages with it, and the counter starts again at the same
  time: who knows a text can write messages that the client reports as those of the peer.
* C102: a changed message id makes the client derive up to 2^32 - 1 keys before it rejects the message.
* C103: the client that answers an OTRv4 key exchange keeps the secrets of the exchange after it is complete, and so has no forward secrecy for its first messages.
* C15: a policy that requires encryption but allows no version sends plaintext.

## Results per property

Status, theorems (in `Verif/Props`), how they are proved.

* **C01** Wire primitives round-trip - proved, `Crypto.lean`, `Wire.lean`.  Round trip: encoder then decoder, by induction on the value.
* **C02** Decoding untrusted bytes is total and prefix-consuming - partial, `Crypto.lean`, `Profile.lean`, `Wire.lean`.  Case analysis of every reader and handler, with `panic` as an explicit outcome.  false of the code for one reader: 57 zero bytes read as a scalar panic; proved for all other readers.
* **C03** OTR messages survive transport encoding - proved, `Messages.lean`.  Round trip: encoder then decoder, by induction on the value.  well-formed: sizes fit their fields, key ids and ring scalars are not 0, points are on the curve, the profile validates.
* **C04** Fragment text round-trips - proved, `Fragment.lean`.  Round trip: encoder then decoder, by induction on the value.  for every valid fragment of either version.
* **C05** Fragmentation fits the transport and reassembles to the original - proved, `Fragment.lean`.  Feeding the fragments to the reassembler from any state, by induction on the pieces.  hypotheses name the limits the code itself imposes: at most 65535 parts, pieces of at most 250 KiB, content at most 100 MiB for OTRv4.
* **C06** OTRv4 reassembly is independent of arrival order - proved, `Fragment.lean`.  Feeding the fragments to the reassembler from any state, by induction on the pieces.  at most 100 messages in play; beyond that the code evicts.
* **C07** OTRv3 reassembly accepts only complete in-order sequences - partial, `Fragment.lean`.  Invariant of the reassembler over all sequences of fragments.  delivery condition proved in full; panic freedom is false for messages of 65535 parts (witness proved) and proved for all others.
* **C08** Reassembly state is bounded - proved, `Fragment.lean`.  Invariant of the reassembler over all sequences of fragments.
* **C09** Hostile fragment text cannot crash the client - partial, `Fragment.lean`, `Regex.lean`.  Explicit matchers that follow the regular expressions (see C93), by case analysis of the text.  the property is false of the code: two families of witnesses proved; C09_exact says exactly which texts crash; the partial theorem covers all other ASCII inputs.
* **C10** Hostile unencoded text cannot crash the client - partial, `Messages.lean`, `Regex.lean`.  Explicit matchers that follow the regular expressions (see C93), by case analysis of the text.  false of the code: ?OTR? and a whitespace prefix without tag panic; proved for all other text; C10_exact says exactly which texts crash.
* **C11** Plain text is delivered unchanged - proved, `Messages.lean`.  Explicit matchers that follow the regular expressions (see C93), by case analysis of the text.  at the level of classification; the session part is C17.
* **C12** Advertised versions are understood by the peer - partial, `Messages.lean`.  Explicit matchers that follow the regular expressions (see C93), by case analysis of the text.  queries proved; tags with two versions are false of the code (only the last is read); single-version tags proved.
* **C13** Encoded messages carry only allowed versions and verified tags - proved, `Messages.lean`.  Decision logic: the check is shown equivalent to its specification.
* **C14** OTR disabled means pass-through - proved, `Session.lean`.  Invariant over session histories (`Hist`), then one step by case analysis of the call.
* **C15** Required encryption never leaks plaintext - proved, `Session.lean`.  Invariant over session histories (`Hist`), then one step by case analysis of the call.  For policies that allow some version. If none is allowed, required encryption has no effect (C15_needs_version, and C14 says so too).
* **C16** Encrypted and finished sessions never send plaintext - proved, `Session.lean`.  Invariant over session histories (`Hist`), then one step by case analysis of the call.  A panic (C43, C66) is the only other outcome; it sends nothing.
* **C17** Unencrypted messages are flagged when security is expected - partial, `Session.lean`.  Invariant over session histories (`Hist`), then one step by case analysis of the call.  Proved for plaintext. For tagged messages false of the code: if the tag makes the client start a key exchange and that fails (OTRv4, second tag), the text is lost.
* **C18** Messages for other instances are ignored - proved, `Session.lean`.  Invariant over session histories (`Hist`), then one step by case analysis of the call.
* **C19** Disallowed protocol versions have no effect - proved, `Session.lean`.  Invariant over session histories (`Hist`), then one step by case analysis of the call.
* **C20** Instance zero never becomes encrypted and every instance is filed under its own tag - proved, `Session.lean`.  Invariant over session histories (`Hist`), then one step by case analysis of the call.
* **C21** Encryption starts only through a completed key exchange - proved, `Session.lean`.  Invariant over session histories (`Hist`), then one step by case analysis of the call.  What the final message of a key exchange was checked for is C29 and C34.
* **C22** Sessions end as announced - proved, `Session.lean`, `SessionFail.lean`.  Invariant over session histories (`Hist`), then one step by case analysis of the call.
* **C23** Expiry only finishes old OTRv4 sessions - proved, `Session.lean`.  Invariant over session histories (`Hist`), then one step by case analysis of the call.
* **C24** The whitespace tag is sent at most once per instance - proved, `SessionUse.lean`.  Invariant over session histories (`Hist`), then one step by case analysis of the call.  The flag is kept per session in the code, so the tag is sent once per session, to whichever instance comes first.
* **C25** NUL bytes cannot smuggle control data - proved, `Session.lean`, `SessionUse.lean`.  Invariant over session histories (`Hist`), then one step by case analysis of the call.  C16_encrypted says that the content sent is the content without NUL bytes.
* **C26** Version selection respects policy - partial, `SessionUse.lean`.  Invariant over session histories (`Hist`), then one step by case analysis of the call.  False of the code: an OTRv4 exchange that was opened without a receiver is never closed, so that the next offer of OTRv4 is answered with an error. Proved for clients that opened no such exchange before, and always for OTRv3.
* **C27** Receiving never crashes on a key exchange in any state - partial, `SessionUse.lean`.  Invariant over session histories (`Hist`), then one step by case analysis of the call.  False of the code: in an encrypted OTRv4 session the end of an OTRv3 exchange crashes the client. Proved in all other states.
* **C28** OTRv3 key exchange agrees - proved, `Ake.lean`.  Symbolic run of both clients, for all randomness.  Delivered unmodified, all four messages are accepted and SSID, long-term keys, D-H keys and data-message keys agree; the sessions are the starting point of C37. Assumed: working DSA keys, D-H public keys in range, hash and MACs not all zero (the code rejects all-zero values).
* **C29** OTRv3 key exchange authenticates - proved, `Ake.lean`.  State machine of the exchange over arbitrary received messages; inversion of the handlers.  Over every history of received messages. Unforgeability of MAC and DSA is not modelled: the theorem says what is checked.
* **C30** Simultaneous D-H Commits are resolved consistently - proved, `Ake.lean`.  State machine of the exchange over arbitrary received messages; inversion of the handlers.  For different hashes (equal hashes mean equal keys or a SHA-256 collision; then both yield).
* **C31** Unexpected AKE messages do not disturb an exchange - partial, `Ake.lean`, `Replay.lean`.  State machine of the exchange over arbitrary received messages; inversion of the handlers.  Proved for the AKE context that a message is handed to. False of the session: a D-H Key message makes the instance of its sender adopt the context of the offer (src/ake.rs transfer, src/session.rs 344-359) whatever exchange is under way there, so a D-H Key message that does not belong to the exchange, which anybody can write, overwrites it, and the genuine Signature message is refused (C31_violated).
* **C32** A repeated D-H Commit is honoured - partial, `Ake.lean`.  State machine of the exchange over arbitrary received messages; inversion of the handlers.  False as stated: the D-H Key is repeated but the old commitment is kept, so the Reveal Signature for the new one is rejected (src/ake.rs 120-128).
* **C33** OTRv4 key exchange agrees - proved, `Dake.lean`.  Symbolic run of both clients, for all randomness.  For clients whose keys are pairwise different where a signature needs it and signatures whose challenge is not 0 modulo q. The first data messages: C33_first_messages puts the pair into the states for which C47_calm proves delivery; it needs the fresh D-H key of the first rotation to differ from the first-ratchet key.
* **C34** OTRv4 key exchange authenticates - proved, `Dake.lean`.  State machine of the exchange over arbitrary received messages; inversion of the handlers.
* **C35** A finished OTRv4 key exchange cannot be replayed - partial, `Dake.lean`, `Replay.lean`.  State machine of the exchange over arbitrary received messages; inversion of the handlers.  False of the code for the client that receives Auth-I: src/dake.rs handle_auth_i does not leave its state, so the same Auth-I completes the exchange again. Proved for the context that receives Auth-R; but the session keeps the context of the offer under tag 0 and hands it to the instance of the sender again with every Auth-R message (src/dake.rs transfer), so a replayed Auth-R message restarts the session as well: C111_violated_began shows such a history.
* **C36** Hostile key-exchange messages cannot crash the client - partial, `DakeSafe.lean`, `Profile.lean`.  Case analysis of every reader and handler, with `panic` as an explicit outcome.  False of the code: a zero scalar, a ring signature whose challenges sum to zero, or our own identity key used as ephemeral or forging key panics. Proved for all other messages.
* **C37** OTRv3 messages are delivered intact - partial, `Data3.lean`.  Key manager with ghost histories (`Hist3`, `Pair3`), by induction over schedules.  false of the code: after a reply the counter of the sender restarts while the receiver still expects a larger one; proved: any schedule ends in intact delivery or rejection for the counter; intact delivery for clients that take turns and until the first reply.
* **C38** OTRv3 never reuses a counter with the same keys - proved, `Data3.lean`.  Key manager with ghost histories (`Hist3`, `Pair3`), by induction over schedules.
* **C39** OTRv3 replay is rejected - partial, `Data3.lean`.  Key manager with ghost histories (`Hist3`, `Pair3`), by induction over schedules.  false of the code: a message that introduced a new key is accepted a second time; never a third time, and never again if it introduced no key.
* **C40** OTRv3 rejects forged messages - proved, `Data3.lean`.  Key manager with ghost histories (`Hist3`, `Pair3`), by induction over schedules.
* **C41** Revealed MAC keys are spent - partial, `Data3.lean`.  Key manager with ghost histories (`Hist3`, `Pair3`), by induction over schedules.  false of the code: keys are accepted after they were revealed and revealed twice; proved: revealed keys verified an earlier message.
* **C42** OTRv3 key windows - proved, `Data3.lean`.  Key manager with ghost histories (`Hist3`, `Pair3`), by induction over schedules.
* **C43** OTRv3 encryption and data handling never crash - partial, `Data3.lean`.  Key manager with ghost histories (`Hist3`, `Pair3`), by induction over schedules.  false of the code: the empty message, and an announced key 0; C43_send_partial says exactly when a send panics (Spec.Stuck3), C43_receive_partial exactly when a receive does (Spec.Fatal3).
* **C44** OTRv4 message keys are never reused - proved, `Data4.lean`.  Double ratchet with ghost histories (`Hist4`, `Pair4`, `Safe4`), by induction over schedules.  Over every history of sends, disconnects and receptions of arbitrary messages the ids of sent messages increase strictly.
* **C45** OTRv4 rejects forged messages without effect - proved, `Data4.lean`.  Double ratchet with ghost histories (`Hist4`, `Pair4`, `Safe4`), by induction over schedules.  Unreadable messages leave the state as it was; every other outcome implies the id, ratchet, key and authenticator checks. A panic (message id 2^32-1 from an authenticated peer) is not an outcome of these theorems, see C66.
* **C46** OTRv4 replay is rejected - proved, `Data4.lean`.  Double ratchet with ghost histories (`Hist4`, `Pair4`, `Safe4`), by induction over schedules.  Every later delivery of a message with the ids of an accepted one is unreadable and without effect.
* **C47** OTRv4 messages are delivered intact - partial, `Data4.lean`.  Double ratchet with ghost histories (`Hist4`, `Pair4`, `Safe4`), by induction over schedules.  False as stated: after the receiver rotated its own keys, messages of the peer's current ratchet are rejected even in order. Proved exactly when a message is readable, and that all are if clients do not send while messages to them are under way.
* **C48** OTRv4 data messages are structurally validated - proved, `Data4.lean`, `SessionUse.lean`.  Decision logic: the check is shown equivalent to its specification.  The check is characterised, everything sent passes it, and the session rejects messages that do not pass it without effect. An authenticator that is all zero crashes the client in the check itself (C48_crash).
* **C49** OTRv4 revealed MAC keys are spent - proved, `Data4.lean`, `Schedule.lean`.  Double ratchet with ghost histories (`Hist4`, `Pair4`, `Safe4`), by induction over schedules.  Revealed keys are exactly the keys of accepted messages, in order, once each; accepted ids increase; the keys of accepted messages differ, unless two inputs of the key derivation collide under the hash function (an explicit hypothesis on the finite list of these inputs).
* **C50** SMP succeeds for equal secrets - partial, `Smp.lean`, `Smp4.lean`.  Algebra in a cyclic group of prime order, symbolic run of the four messages.  Proved for OTRv4 and, for questions without NUL bytes, for OTRv3; with a NUL in the question the OTRv3 exchange aborts. Conditions on random numbers (no zero, no identity) are explicit. The laws of the curve are proved for Ed448 (ed448_smpCurve).
* **C51** SMP fails for different secrets - proved, `Smp.lean`, `Smp4.lean`.  Algebra in a cyclic group of prime order, symbolic run of the four messages.  For honest peers, and for peers whose messages have the form that the zero-knowledge proofs in them claim (soundness of the proofs is an assumption).
* **C52** SMP errors reset the exchange - partial, `Smp.lean`, `Smp4.lean`.  State machine of the SMP, inversion of the handlers; two clients by induction over exchanged messages.  Proved for OTRv3. False for OTRv4: a zero scalar crashes the client; proved for all messages that do not crash it.
* **C53** SMP success requires valid proofs - partial, `Smp.lean`, `Smp4.lean`.  State machine of the SMP, inversion of the handlers; two clients by induction over exchanged messages.  Proved for OTRv3. False for OTRv4: the points Pb, Qb in message 2 are not checked, the identity is accepted; everything else is checked.
* **C54** Aborting SMP terminates - partial, `SessionAbort.lean`, `Smp.lean`, `Smp4.lean`.  State machine of the SMP, inversion of the handlers; two clients by induction over exchanged messages.  Proved for OTRv3. False for OTRv4: an abort is answered with an abort, without end; proved for exchanges without aborts.
* **C55** Only one SMP runs at a time - proved, `Smp.lean`, `Smp4.lean`.  State machine of the SMP, inversion of the handlers; two clients by induction over exchanged messages.
* **C56** Client profile payload round-trips - proved, `Profile.lean`.  Round trip: encoder then decoder, by induction on the value.  signature edge cases as in C63; correctness of the DSA library is a hypothesis.
* **C57** Only well-formed, signed profiles are accepted - partial, `Profile.lean`.  Decision logic: the check is shown equivalent to its specification.  everything but one corner: an empty versions field may be duplicated.
* **C58** Expired profiles are rejected - partial, `Dake.lean`.  Decision logic: the check is shown equivalent to its specification.  False of the code: validating a received profile does not look at the expiration time (src/clientprofile.rs ClientProfilePayload::validate). Only own profiles are checked.
* **C59** D-H public values are range-checked - proved, `Crypto.lean`.  Number theory; Edwards curve over `ZMod p` (completeness and group law proved in `Lemmas/Edwards*`).  with the constants of the code; which handlers apply the check is part of C29, C34, C53.
* **C60** Ring signatures verify for any signer in the ring - proved, `Crypto.lean`.  Number theory; Edwards curve over `ZMod p` (completeness and group law proved in `Lemmas/Edwards*`).  for every curve of this shape and for Ed448 itself; a transcript hash that is a multiple of q is excluded because the code rejects it.
* **C61** Ed448 point encoding is faithful - partial, `Crypto.lean`.  Number theory; Edwards curve over `ZMod p` (completeness and group law proved in `Lemmas/Edwards*`).  round trip proved; canonicity is false of the code (the low seven bits of the last byte are ignored).
* **C62** Equality checks decide equality - proved, `Crypto.lean`.  Number theory; Edwards curve over `ZMod p` (completeness and group law proved in `Lemmas/Edwards*`).
* **C63** EdDSA signatures verify - proved, `Crypto.lean`.  Number theory; Edwards curve over `ZMod p` (completeness and group law proved in `Lemmas/Edwards*`).  a zero nonce or response is excluded because the code rejects it.
* **C64** Mirrored data keys - proved, `Crypto.lean`.  Number theory; Edwards curve over `ZMod p` (completeness and group law proved in `Lemmas/Edwards*`).
* **C65** A client can establish OTRv4 again after ending a session - partial, `Dake.lean`.  State machine of the exchange over arbitrary received messages; inversion of the handlers.  False of the code for the client that received Auth-I: its context stays in AwaitingAuthI and initiate fails in every later state.
* **C66** OTRv4 data messages cannot crash the client - partial, `Data4Safe.lean`.  Double ratchet with ghost histories (`Hist4`, `Pair4`, `Safe4`), by induction over schedules.  False of the code: a peer can crash the client with an authentic message that carries the largest message id. The partial theorems say exactly when a receive (Spec.Fatal4), a send and an end (Spec.Stuck4) panic: a counter at its end, a derived key or authenticator that is all zero, improper keys drawn.
* **C67** Hostile OTRv3 key-exchange messages cannot crash the client - proved, `Ake.lean`.  Case analysis of every reader and handler, with `panic` as an explicit outcome.  Also shows that without a DSA key pair an expected D-H Key message panics.
* **C68** Reassembled OTRv4 messages consist of received parts - proved, `Reassembly.lean`.  Invariant of the reassembler over all sequences of fragments.  For histories in which the reassembler did not panic (a counter of 2^32 ticks).
* **C69** Crossing OTRv4 Identity messages resolve - partial, `Dake.lean`, `SessionCross.lean`.  State machine of the exchange over arbitrary received messages; inversion of the handlers.  The code violates this when the Identity message that the winner repeats arrives: the other answers it a second time with new keys, the winner completes with the first answer, and its Auth-I message is refused, so only the winner has a session. Proved: exactly one insists and the other yields, and the exchange completes with the same session if the repeated message does not arrive.
* **C70** Confidential messages are reported exactly when authentic - proved, `SessionUse.lean`.  Relation between a session and its instances' histories, carried through every API call.
* **C71** Unreadable data messages are answered and reported - proved, `SessionData.lean`.  Relation between a session and its instances' histories, carried through every API call.
* **C72** SMP messages in data messages reach the SMP of their session - proved, `SessionData.lean`.  Relation between a session and its instances' histories, carried through every API call.  The alternative that the call panics remains (random numbers and lengths out of range, known defects); see C66 for when it does not.
* **C73** Starting and aborting SMP in a session - proved, `SessionData.lean`.  Relation between a session and its instances' histories, carried through every API call.  The alternative that the call panics remains (for instance a question of 64 KiB).
* **C74** Two clients that offer OTRv4 to each other get connected and can talk - proved, `SessionExchange.lean`.  The runs of the DAKE (C33) and of the ratchet (C47) lifted to sessions; conversation by induction.  Hypotheses on random draws (ephemeral keys not degenerate, no zero scalar in the ring signatures, a new D-H key differs from the old one) are explicit; a text is sent as one piece, C78 is about pieces. Bob has no other offer pending and Alice is not waiting for an answer of Bob.
* **C75** Encryption ids are not reused in a session - proved, `SessionLife.lean`.  Relation between a session and its instances' histories, carried through every API call.
* **C76** OTRv4 messages are read once per session - proved, `SessionLife.lean`.  Relation between a session and its instances' histories, carried through every API call.  OTRv3 replays are a known defect, see C39.
* **C77** SMP succeeds only with the consent of the user - proved, `SessionConsent.lean`.  Relation between a session and its instances' histories, carried through every API call.  The user is the host interface: it is asked for the secret with the question of the peer.
* **C78** A message in fragments has the effect of the whole message - proved, `SessionFragments.lean`.  All methods of instances but two neither read nor change the reassembler (frame property); induction over the fragments, C05 and C06. That the store of a session comes from fragments is an invariant of all calls.  The sizes that the reassembler accepts are hypotheses: at most 65535 pieces of at most 250 KiB each, for OTRv4 at most 100 MiB, fewer than 100 other incomplete messages of that peer, another identifier than theirs, and no overflow of the counter of fragments (C08).
* **C79** An account keeps its instance tag and profile - proved, `Account.lean`.  Account model; C56 for the stored profile; map of sessions.
* **C80** The sessions of an account do not influence each other - proved, `Account.lean`.  Account model; C56 for the stored profile; map of sessions.  This carries all theorems about sessions over to the sessions of accounts.
* **C81** An account uses a current profile with its own keys - partial, `Account.lean`.  Account model; C56 for the stored profile; map of sessions.  False of the code: a stored profile is used after its expiration, and with other keys than those of the host. Proved for accounts made without a stored profile.
* **C82** Two clients that offer OTRv3 to each other get connected and can talk - partial, `SessionExchange3.lean`.  The run of the AKE (C28) and of the key manager (C36, C37) lifted to sessions; conversation by induction; the failure is a run of a toy instance.  The key exchange is proved in full, and that all texts arrive if the users take turns. Of other conversations the property does not hold: when one user sends two texts before the other answers, a later text is unreadable (C82_violated, the defect of C37). Proved of all conversations: each text arrives intact or is reported as unreadable, and the clients stay connected. That a new key pair is acceptable and that no hash is zero are explicit hypotheses.
* **C83** Two clients that run the SMP with each other get the same, right result - proved, `SessionExchange.lean`, `SessionExchange3.lean`, `SessionSmp.lean`.  The run of the SMP (C50, C51) lifted to sessions: each TLV arrives (C37, C47) and is handed to the SMP (C72, C73).  For both versions; each message must fit one text, and the calls must not crash (sizes, see C43). C82_exchange3 and C74_exchange4 establish the hypothesis Acquainted after the key exchange, C83_smp3 and C83_smp4 after an SMP, C83_talk4 after a conversation (OTRv3: after the exchange or another SMP). That numbers and points in the messages are not trivial, which fails with negligible probability, is an explicit hypothesis, as in C50. The OTRv3 hypotheses are met by a complete toy run; those of OTRv4 by the toy clients of C74 (Acquainted) and the toy run of C50 (the SMP itself).
* **C84** When one client ends a session, the other one learns it and stops sending - proved, `SessionEnd.lean`.  The disconnect message arrives: C37 for OTRv3; for OTRv4 the invariant of C47 carried over to a message that reveals the pending MAC keys. Then C22, C23 and C16.  The disconnect message must fit one text (C78 treats fragments), and the call must not crash (sizes, see C43). OTRv3 for the client whose turn it is (OTRv3 keys get lost otherwise, see C37); OTRv4 for either client. That a newly generated D-H key differs from the old one is an explicit hypothesis, as in C47. C84_expire4 is for the case that one session expires in the call. MaySend is established by the exchange, by conversations and by the SMP (C74, C82, C83).
* **C85** A call only changes the instance it is about - proved, `SessionIsolation.lean`.  Every computation of the session model is a sequence of steps on single instances; frame rule for each.  Expiry is about all instances.
* **C86** Instances do not influence each other - proved, `SessionIsolation.lean`.  A relation between two runs (same instances in the set), preserved by each computation; with C85, induction on the history.  Two-run property; the exceptions of the statement are those of the predicate Alike.
* **C87** A call injects at most one message, and never a text of the user - proved, `SessionInjects.lean`.  A Hoare logic with two judgements (sends nothing; sends nothing or one allowed message) for the computations of an instance; what each handler of the key exchanges returns; then the session.  Queries have exactly the text that the source states, and the TLVs of data messages that the user did not write are SMP TLVs. Expiry is treated by C23_expire.
* **C88** No received text crashes the client - partial, `SessionCrash.lean`.  A predicate on computations that depend on the message size of the host: if the host takes all that is sent, whole or in fragments, then the result and the state do not depend on it, and a panic has a cause. Proved for every computation of the session, using the panic-freedom theorems C09, C10, C36, C43, C52 of the layers below and the invariants of sessions.  False of the code (witnesses: C09_violated, C10_violated, C27_violated, C36_identity_crash, C48_crash, C66_violated). Proved: a crash has one of the causes listed in Spec.Crash: a fragment whose part or total is above 65535 or has non-ASCII digits, and a query or a whitespace tag without versions (these causes are stated with the patterns of the source, and are sufficient, too: C88_fragment, C88_text); an assembler at the end of its counter (sufficient, too: C88_assembler); an encoded message with 57 zero bytes in a row; an answer that the host takes neither at once nor in 65535 fragments; or, for a message that is addressed to this client, one of the causes listed in Spec.Crash3 (OTRv3) and Spec.Crash4 (OTRv4), of which those for data messages are sufficient, too (C88_data3, C88_data4, C48_crash). Hypotheses: the groups are as they should be (proved of Ed448), the instance tag of the client is at least 0x100, and the identity key pair of the host is a key pair.
* **C89** The list of instances is exactly the clients of the contact that were met - proved, `SessionList.lean`.  Exact effect of each call on the keys of the map of instances; induction on the history.  For a policy without any version, send is a pass-through (C14), hence the hypothesis of C89_unknown.
* **C90** The state kept for a contact is bounded - partial, `SessionList.lean`.  Counting with C89_step; the violation is a history built by induction from the first fragments of messages that never complete, one from each tag.  Violated by the code: n texts of 37 bytes, each ignored without a report, make it keep n instances, for any n up to the 2^32-256 legal tags (C90_violated). Proved: at most two instances per received text or opened conversation.
* **C91** Calls of the user never crash the client - partial, `SessionCalls.lean`.  Exact panic condition of each call, from those of encryption (C43, C66), of fragmenting, and of the SMP; invariants of the reachable states from C27 and C88.  False of the code (C91_violated). Proved: a call crashes if and only if one of the causes of Spec.CallCrash is present: a conversation opened for another version than 3 or 4, or with an illegal instance tag if the first message must be fragmented; a text that the host takes neither at once nor in 65535 fragments; a plaintext that cannot be encrypted (Stuck3, Stuck4: the causes of C43 and C66); the SMP started without a DSA key (OTRv3), with a zero random number (OTRv4), or with a question too long for a TLV. query never crashes. Hypotheses: the curve is as it should be (proved of Ed448) and the instance tag of the client is at least 0x100.
* **C92** A call that fails has no visible effect - proved, `SessionFail.lean`.  From C21 (an ssid changes only with a report), C22 (a session ends only with a report, or by expire), and for what is sent, an induction over the parts of each call: what sends is the last thing that can fail.  Keys and key exchanges of the instance may have changed even if the call fails: see C37 and C52.
* **C93** Texts are read by the documented patterns - proved, `Regex.lean`.  A specification of regular expressions (syntax, list of matches in order of preference, leftmost search) is applied to the pattern strings of the source; the matchers of the model are proved to find the same match. Key lemma: if what follows a repetition cannot begin with what is repeated, only the longest repetition counts. Digits beyond ASCII go through UTF-8 decoding of the Lean core library.  The patterns are the literal strings of the source, parsed and interpreted by the small specification in Spec/Regex.lean.
* **C94** What is sent respects the message size of the host - proved, `SessionSize.lean`.  From C87 (what is injected) and C16 (what send returns): a message in transit is whole or in fragments; the text of a fragment has 36 (OTRv3) or 45 (OTRv4) bytes besides its piece, and fragment() cuts pieces that leave room for them.  C94_needs_size: a query is sent whole, even if the host does not allow its 58 bytes (OTR itself works from 46 bytes on).
* **C95** Texts that are not genuine do not disturb an encrypted session - proved, `SessionForged.lean`.  One step: the instance relation Stays (state unchanged, session started, or Genuine) is carried through receive with the generic lemma behind C21; for data messages it rests on the case analysis of decrypt3/decrypt4. Sequences: a congruence (Alike) shows that every call about a session depends only on its protocol state and peer, so a history with noise is simulated by the same history without it: the results and the injected texts are part of the history.  C95_amid: the same calls with the same results are a history without the noise. Excluded: texts that crash the client (C88), and data messages received in fragments, between which noise can clear an assembler.
* **C96** Two clients that offer OTR to each other at the same moment get connected - partial, `SessionCross.lean`, `SessionCross3.lean`.  One lemma per step and role (begin, answer, go on with the own exchange, refuse), from the same facts as C74 and C82; composed for both clients at once. The witnesses instantiate them (OTRv3) or are computed by the kernel (OTRv4).  The code violates this, for every pair of clients: OTRv3 ends without a session (C96_deadlock3), OTRv4 with two different sessions (C96_split4). The tie-break of the protocol is not reached, because the context of an exchange that was begun without a receiver is kept in another instance than that which answers. Proved: with OTRv3 a later offer of one client alone connects them; and two clients that each begin with the instance of the other (so that the tie-break is reached) get connected although messages are repeated.
* **C97** Every OTRv4 message has keys of its own, from the key schedule - proved, `Schedule.lean`.  Refinement of the ratchet to a function of the mixed secrets (`Sched`), with the set of spent positions as an invariant (`Spent`) over logs of sends and receptions.  The ratchet code refines a small specification of the key schedule; positions are distinct. That keys at different positions differ has the explicit hypothesis that the hash function does not collide on the inputs of the schedule.
* **C98** A ring signature does not tell which of the three keys made it - partial, `Hiding.lean`.  Exact characterisation of the signatures that each holder can make (canMake_iff) from the drawn scalars; arithmetic on the range of pruned scalars modulo q; algebra of the curve for the converse.  The code violates this on its curve: random scalars are pruned before they are reduced, so that the second lowest bit of a drawn number is 1, while the numbers of the signer are computed. A number with a 0 there tells the signer (C98_reveals, for every signature). C98_hides_partial: otherwise the signature could be made by another holder as well, if the commitment can be drawn.
* **C99** Whoever makes valid proofs knows the secrets they are about - proved, `Soundness.lean`.  One lemma about linear combinations in a commutative monoid in which the elements are killed by a prime, with Fermat inverses; used for points and, on squares, for numbers modulo a safe prime.  Special soundness of each proof. That the client accepts only messages with such proofs is C53 and C34; what the secrets mean for the result of the SMP is C51. For points that the client checks to be in the group; in message 2 of OTRv4 it does not check two of them (C53).
* **C100** Revealed MAC keys make messages deniable - proved, `Deniable.lean`.  `forge` (Spec/Deniable.lean) changes the encrypted text by exclusive or and computes the MAC anew with the MAC key alone; by the iff-characterisation of decryption the receiver accepts it from the same state into the same state. That keys are kept until revealed is an induction over the life of the session.  The forger uses only the message, its text, and the MAC key (Spec/Deniable.lean). Texts have no NUL byte, and the forged MAC must not be all zero bytes, which clients reject. A session that the peer ends forgets keys without revealing them; see C108 for sessions that the client ends.
* **C101** Either side alone can make up an OTRv4 key exchange - proved, `DeniableKex.lean`.  `fakeIdentity`, `fakeAuthR`, `fakeAuthI` (Spec/DeniableKex.lean) take no secret of the other side; the completeness of ring signatures (C60) for each of the three places gives acceptance, as in C33.  The one who makes the messages up uses the published profile of the other and keys of their own (Spec/DeniableKex.lean); profiles accepted at the time. That the signature is accepted does not make it look the same as one by the peer: see C98 for what a signature of this code tells about the key that made it.
* **C102** A message that is not authentic costs little work - partial, `Work.lean`.  `Loop` (Spec/Work.lean) is the while loop as a big-step relation; by induction it is the bounded recursion of the model. The attack is proved for every state and every observed message.  False of the code: the loop runs before the authenticator is checked, so anyone who changes the message id of a message makes the client do up to 2^32 - 1 key derivations, again and again. Proved: the loop ends without a crash after exactly the number of rounds that the model makes; the number for every message; for accepted messages it is the number of ids passed over.
* **C103** Forward secrecy: what a client keeps does not open earlier messages - partial, `ForwardSecrecy.lean`, `Replay.lean`.  The keys of the schedule have names (`Secret`, Spec/ForwardSecrecy.lean) and derivations (`Computable`); the invariant of C97, extended by the chain that is no longer used, gives the names of the keys held; whatever is computable lies ahead of all spent positions. The violation is an induction over the messages sent on the first chain.  False of the code for the client that answers the key exchange: the state that waits for the Auth-I message, with the secret of the exchange and the private keys of the first ratchet, stays after the exchange is complete (and after the session ended), and opens every message that the client sent before it first received one (C103_violated). Proved: the ratchet itself keeps no root or chain key from which a key of an earlier message follows by the key schedule, even given all secrets of the key agreements; and the context of the client that began the exchange erases its state (C103_began), but only in the instance of the peer: the session keeps the context of the offer under tag 0, and it opens messages that the client read, even after the session ended (C103_violated_began). What can be computed is meant symbolically: by the derivations of the schedule, not by inverting the hash function.
* **C104** OTRv3 messages have the keys their ids name, and old keys are forgotten - partial, `KeyLog3.lean`, `Replay.lean`.  Invariant over logs of sends and receptions (`Logged3`): the lists of all key pairs and keys so far, of which the key manager holds the last two, and the positions of all messages in these lists.  False of the session of the client that began the exchange: the context of its offer, with the private key, stays under tag 0 after the exchange is complete, and opens the messages of the first key pair even after the session ended (C104_violated). Proved for the session state of the data messages and for the AKE context of the peer. That a private key is gone is meant up to two key pairs being equal by chance (explicit hypothesis in C104_forgets). Messages of the current key pairs can be opened by who gets hold of the state: this is so in the protocol.
* **C105** The SMP exposes a man in the middle - proved, `SmpBinding.lean`.  The chain of the four messages of C50/C51, for arbitrary contexts on both sides; the input of the hash has fields of fixed length, so it determines SSID, fingerprints and secret. That these are kept is carried through every step of a session by the invariant of C75/C78 (`Alive`, `SmpOn`).  Up to a collision of the hash, modulo the group order, of the two inputs at hand (explicit hypothesis); numbers and points in the messages not degenerate, as in C50/C51. That the sessions of a man in the middle have other SSIDs or fingerprints is what makes the views differ; it is not assumed.
* **C106** A session recovers from a theft of its keys - proved, `Healing.lean`, `Healing3.lean`.  The invariant of C97 carried on from the point of theft (`logged_on`), with the place of the first own rotation after it; `computable_before` by induction over derivations. OTRv3: the invariant of C104 carried on in the same way (`logged3_on`).  What can be computed is meant symbolically, as in C103. A thief who is also in the middle afterwards can announce keys of their own to the client (they have the MAC keys): the secret of the new ratchet is then one that they know; the theorem says that nothing but this secret helps. C106_session: every history of a session is one to which C106_heals applies.
* **C107** The SMP tells the peer nothing about the secret except whether it is the same - partial, `SmpLeak.lean`.  OTRv4: the code violates it. A message is read as fields of 57 bytes; the test `(answer + challenge * guess) mod q` gives back the random scalar for the right guess, which has the bit set (`random_not_telling`); as the challenge is invertible the test takes each value for one guess, so `2 ^ 445 - 2 ^ 226` guesses fail it. OTRv3: counting the residues of 192 random bytes.  False of the code in OTRv4: random scalars always have their second lowest bit set (see C98), and message 2 and message 3 contain such a scalar minus the public challenge times the number of the secret. Whoever has the message can subtract a guess and see whether this bit is set: each message excludes about half of all secrets, offline, and never the right one. OTRv3: the answers are compatible with every secret, equally; missing are the other numbers of the messages, which hide the secret only as far as the discrete logarithm is hard.
* **C108** A session that a client ends leaves no message undeniable - proved, `LastReveal.lean`.  OTRv4: the invariant of C49 at the last message. OTRv3: in every reachable state the MAC key of the newest own key pair in use and the older key of the peer is published or goes with the next message; all other keys cause a rotation, and so go with the next message, when they are first used (`decrypt3_pending`).  A session that the peer ends is not covered: the client sends nothing then, and forgets the keys of the messages since its last one. With OTRv3 keys are published early, while they are still accepted (see C41).
* **C109** What a session publishes does not help to write messages that a client still accepts - partial, `Forgery3.lean`.  OTRv3: the code violates it. The state after the message is accepted is computed (`afterAccept_reuse`): the key pairs of the message are still there, its MAC key is among those to publish, and the counter is 0; so the forged message passes all checks of `decrypt3_ok`. The witness is also run at the level of sessions. OTRv4: the key schedule of C97, the positions of all messages are distinct.  False of the code in OTRv3: the key of the message that first uses a key pair is published with the next message, but the client accepts messages with it until the rotation after, and the counter starts again. Anybody who knows the text of the message can write one with another text of the same length, and the client reports it as one of the peer (C109_violated_session: the whole attack by calls of the API and the two texts on the network). With OTRv4 it holds, unless there is a collision.
* **C110** Replays of a key exchange do not make a client encrypt two texts with the same key - partial, `Replay.lean`, `SessionLife.lean`.  The code violates it. OTRv4: the context of the answered exchange does not change when it is complete (C35), so the second Auth-I message gives the same ratchet; the keys of the first messages are computed from it (`sends_first` of C103). Sessions of both versions are run to the two texts (Lemmas/ReplayToy.lean), with histories of both clients that contain nothing but messages of the other.  False of the code: a replayed Auth-I message (OTRv4), or replayed D-H Key and Signature messages (OTRv3, to the client that began), restart the session with the same keys, and the next text is encrypted with the key stream of the first. Anybody on the network gets the sum of two texts. Within a session, from one session start to the next, it holds (C75).
* **C111** A text is reported at most as often as it was sent, also when messages of the key exchange are replayed - partial, `Replay.lean`, `SessionLife.lean`.  The code violates it: histories of both clients, in which the network delivers nothing but their messages, some of them twice, one text is sent once and reported twice; for both roles in OTRv4, and for the client that began in OTRv3.  False of the code: after the replay of the last messages of the key exchange of the peer, the messages of the session can be replayed, and are reported a second time. Within an OTRv4 session it holds (C76).
* **C112** The authenticator of a data message covers the whole message - proved, `Covered.lean`.  The authenticated bytes are decoded field by field (Props/Covered.lean), with what the decoder guarantees of the sizes of the fields; that the client checks the authenticator with the key of its session is C70 and the proof of C69.  The list of old keys that a message publishes is not covered, as in the protocol. That an altered message is refused holds unless the two named keys give the same authenticator to two different byte strings (no assumption on the hash functions is made).
* **C113** Clients that both allow OTRv4 are not made to use OTRv3 - partial, `Downgrade.lean`.  The violation follows from C82_exchange3, for all clients and histories. The partial theorem goes through all calls as C75 does, with the relation that no OTRv4 state becomes an OTRv3 state (the code panics where it would, see C27).  False of the code: a query that offers OTRv3 only, from anybody, makes two clients that allow OTRv4 complete the OTRv3 exchange (a query is not authenticated, and nothing in the exchange tells which versions the other allows). Proved: an OTRv4 session is never replaced by an OTRv3 session; it must have ended in between.
* **C114** The tag that a session is reported with is the tag of the peer - partial, `Relabel.lean`.  For texts from C112. The violations are runs of two clients in which the network exchanges two tags in all headers (Lemmas/RelabelToy.lean).  False of the code for sessions: the tags in the headers of key-exchange messages are not authenticated, and the sender tag is not compared with the tag in the OTRv4 profile. Who changes them makes a client report a session with a tag that the peer does not have, in which nothing can be read. Proved for texts: the tag of a reported text is the one that its sender authenticated, unless the named keys give two different byte strings the same authenticator.
* **C115** A signature of the OTRv4 key exchange is accepted in one exchange only - proved, `Transcript.lean`.  C34 gives what the accepted signatures are about, written in Spec/Dake.lean. The encodings of the parts are read back one by one, so the signed bytes determine the exchange.  Unless two byte strings, that the theorem names, have the same hash. The messages fit the wire format and the account names are shorter than 4 GB.
* **C116** Nothing a client does depends on the order in which its instances are kept - proved, `Order.lean`, `OrderAccount.lean`, `OrderParts.lean`.  A session is determined by what is looked up in it; every call other than expire looks up and inserts, or asks whether some instance has a session. The loop of expire does the same to every instance. Histories by induction (Spec/Order.lean). For accounts, `expire` crashes in one order if and only if it does in the other, and otherwise does to each session what `expire` of that session does.  For the map of instances, the map of sessions of an account, and the map of unfinished OTRv4 messages, of which the eldest is dropped. When sessions expire, each instance gets the same random numbers in both orders.
* **C117** A signature of the OTRv3 key exchange is accepted in the exchange it was made in - proved, `Agreement3.lean`.  The encoding of what is signed is injective, the two roles use different prefixes of the hashed secret, and D-H secrets commute; what was received and sent comes from the invariant over histories of C29 (Spec/Agreement3.lean).  That nobody but the owner makes signatures is a hypothesis: the number that is verified is one that the owner signed in an exchange. The first two theorems say what follows, the last two what the owner signs.
* **C118** The OTRv3 key in a client profile vouches for that profile - partial, `Vouching.lean`.  The part that holds from C57 and the definition of the remainder. That it is false follows from the check depending on the remainder only; a stranger's profile with the signature of an OTRv3 exchange is given (Spec/Vouching.lean).  False of the code: the text of the profile is not hashed but reduced modulo the order of the DSA group (prehash, src/crypto.rs 532-534), so that a signature made for any text, even in an OTRv3 key exchange, fits every profile with the same remainder. The list of versions may be long and gives enough freedom to choose the remainder, as the witness shows. Proved is that the remainder is the signed one.
* **C119** A signature of a profile cannot be changed, and does not expose the identity key - proved, `Signature.lean`.  Multiples of a point of prime order are the same only if the factors are the same modulo the order; the second half is checked to be below the order. The last part solves the two equations of the signatures.  For every curve whose base point has prime order, as Ed448 has (ed448_smpCurve).
* **C120** An encrypted message tells nothing about its text but the length - proved, `Secrecy.lean`, `SecrecyTalk.lean`.  Encryption depends on the text and the cipher only through the ciphertext; the pad for another text is the sum of text and ciphertext, and is unique. For conversations by induction over the log, with the keys of C97, which are distinct (Spec/Secrecy.lean).  Relative to the key stream: that the streams of AES and ChaCha20 look random is an assumption about the ciphers, which are parameters. C120_conversation needs that the inputs of the key derivation do not collide. NUL bytes do not count, since they are not sent. For OTRv3 the claim is about single messages: keys are used again there after counters restart (C37, C110).
* **C121** An OTRv3 key exchange does not show who takes part in it - proved, `SecrecyAke.lean`.  Pads for other identities as in C120; the exchange of C28 between the other owners, under the changed cipher, consists of the same messages.  For observers: a client that takes part learns the identity of the other. Relative to the key stream, as C120. Assumed: the two keys for the identities and the key that is revealed differ. OTRv4 is not covered: there the profiles are sent unencrypted.
