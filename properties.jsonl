{"id": "C01", "title": "Wire primitives round-trip", "statement": "Decoding what the encoder wrote gives back the value that was written and leaves exactly the bytes that follow it: for 8/16/32/64-bit integers, length-prefixed data, multi-precision integers, MPI sequences, TLVs and TLV lists, NUL-terminated text, counters, MACs, public keys and signatures.", "quantifier": "every value in the range of its type, every list length, every continuation of the byte stream", "why_tests_cant": "round-trip must hold for every value and length including boundaries (0, 2^16-1, 2^32-1, leading zero bytes); a test samples a few", "anchors": ["src/encoding.rs: OTRDecoder, OTREncoder"]}
{"id": "C02", "title": "Decoding untrusted bytes is total and prefix-consuming", "statement": "Every read from a received message either fails with an error or consumes a prefix of the remaining bytes and returns only data from that prefix; it never reads past the end and never panics.", "quantifier": "every byte string, every decoder position", "why_tests_cant": "inputs come from the network, so the claim is over all byte strings", "anchors": ["src/encoding.rs: OTRDecoder::read_*", "src/crypto.rs: ed448::decode_scalar"]}
{"id": "C03", "title": "OTR messages survive transport encoding", "statement": "Serialising any OTR message (D-H Commit, D-H Key, Reveal Signature, Signature, Data, Identity, Auth-R, Auth-I, Data v4) with any instance tags and parsing the resulting text yields a message with the same version, tags and contents.", "quantifier": "every well-formed message of every type, every pair of instance tags", "why_tests_cant": "message fields are arbitrary-length byte strings and integers", "anchors": ["src/messages.rs: parse, encode_message, serialize_message", "src/ake.rs: DHCommitMessage, DHKeyMessage, RevealSignatureMessage, SignatureMessage", "src/dake.rs: IdentityMessage, AuthRMessage, AuthIMessage"]}
{"id": "C04", "title": "Fragment text round-trips", "statement": "Parsing the textual form of a valid fragment gives back the same fragment (identifier, tags, part, total, payload), for OTRv3 and OTRv4 fragments.", "quantifier": "every identifier, tag pair, part/total pair and payload in range", "why_tests_cant": "the numeric and payload ranges are far too large to enumerate", "anchors": ["src/fragment.rs: Fragment, parse, verify, OTREncodable for Fragment"]}
{"id": "C05", "title": "Fragmentation fits the transport and reassembles to the original", "statement": "When an encoded message is longer than the host's message size, every injected fragment is at most that size, the parts are numbered 1..n of n, and feeding them in order to a receiver yields exactly the original message.", "quantifier": "every message content, every admissible size limit, both protocol versions", "why_tests_cant": "needs all lengths and all sizes, including exact multiples of the payload size", "anchors": ["src/fragment.rs: fragment, Assembler", "src/session.rs: Instance::inject"]}
{"id": "C06", "title": "OTRv4 reassembly is independent of arrival order", "statement": "All parts of a fragmented OTRv4 message, delivered in any order and interleaved with parts of other messages, yield exactly the original message once, when the last missing part arrives.", "quantifier": "every permutation and interleaving of fragment sets", "why_tests_cant": "number of orders is factorial", "anchors": ["src/fragment.rs: UnorderedAssembler"]}
{"id": "C07", "title": "OTRv3 reassembly accepts only complete in-order sequences", "statement": "The OTRv3 assembler delivers a message only when it has just received parts 1,2,..,n of the same total n consecutively, and the message is the concatenation of those payloads; any gap, repeat or change of total discards the partial message.", "quantifier": "every sequence of received fragments", "why_tests_cant": "quantifies over all histories of fragments", "anchors": ["src/fragment.rs: InOrderAssembler"]}
{"id": "C08", "title": "Reassembly state is bounded", "statement": "At no time does the OTRv4 reassembler of a peer hold more than 100 incomplete messages.", "quantifier": "every sequence of received fragments", "why_tests_cant": "an invariant over unbounded histories", "anchors": ["src/fragment.rs: UnorderedAssembler::assemble, MAX_MESSAGES"]}
{"id": "C09", "title": "Hostile fragment text cannot crash the client", "statement": "Handing any byte string to the fragment parser returns a fragment or 'not a fragment'; it never panics.", "quantifier": "every byte string", "why_tests_cant": "universal over network input", "anchors": ["src/fragment.rs: match_fragment, parse"]}
{"id": "C10", "title": "Hostile unencoded text cannot crash the client", "statement": "Classifying any received text that is not an encoded OTR message as error, query, tagged plaintext or plaintext never panics.", "quantifier": "every byte string", "why_tests_cant": "universal over network input", "anchors": ["src/messages.rs: parse_plain_message, QUERY_PATTERN, WHITESPACE_PATTERN"]}
{"id": "C11", "title": "Plain text is delivered unchanged", "statement": "A received text that carries no OTR marker is delivered to the user byte for byte; a whitespace-tagged text is delivered with exactly the tag removed.", "quantifier": "every text without OTR markers; every text around a tag", "why_tests_cant": "universal over message contents", "anchors": ["src/messages.rs: parse, parse_plain_message", "src/session.rs: Session::receive"]}
{"id": "C12", "title": "Advertised versions are understood by the peer", "statement": "The query message and whitespace tag that a client sends for a set of versions are parsed by a peer as offering exactly that set.", "quantifier": "every set of supported versions, every text the tag is prepended to", "why_tests_cant": "needs all sets and all surrounding texts", "anchors": ["src/messages.rs: serialize_message, parse_plain_message, parse_whitespace_tags", "src/session.rs: filter_versions, Instance::send, Session::query"]}
{"id": "C13", "title": "Encoded messages carry only allowed versions and verified tags", "statement": "Parsing an encoded message fails unless its version is 3 or 4, its message type is defined for that version and both instance tags are 0 or at least 0x100.", "quantifier": "every byte string", "why_tests_cant": "universal over network input", "anchors": ["src/messages.rs: parse_encoded_message, parse_encoded_content", "src/instancetag.rs: verify_instance_tag"]}
{"id": "C14", "title": "OTR disabled means pass-through", "statement": "If the policy allows no OTR version, receive returns any text unchanged as plaintext, send returns any text unchanged, and neither injects anything or changes any state.", "quantifier": "every text, every session state", "why_tests_cant": "universal over contents and states", "anchors": ["src/session.rs: Session::receive, Session::send"]}
{"id": "C15", "title": "Required encryption never leaks plaintext", "statement": "With encryption required, sending on an instance that is not encrypted returns no text for transport containing the user's message and injects only a query message.", "quantifier": "every message, every instance, every session history", "why_tests_cant": "safety over all histories", "anchors": ["src/session.rs: Session::send"]}
{"id": "C16", "title": "Encrypted and finished sessions never send plaintext", "statement": "While an instance is Encrypted, the output of send is an encoded data message carrying the ciphertext of the content; while Finished, send fails and produces nothing.", "quantifier": "every message, flags, state and history", "why_tests_cant": "safety over all histories", "anchors": ["src/session.rs: Instance::send", "src/protocol.rs: FinishedState::prepare"]}
{"id": "C17", "title": "Unencrypted messages are flagged when security is expected", "statement": "A plaintext (or tagged) message is reported as WarningUnencrypted exactly when some instance has an encrypted or finished session or policy requires encryption; otherwise it is reported as Plaintext.", "quantifier": "every session state and every text", "why_tests_cant": "depends on all instances in every reachable session state", "anchors": ["src/session.rs: Session::receive, has_sessions"]}
{"id": "C18", "title": "Messages for other instances are ignored", "statement": "An encoded message or fragment whose receiver tag is neither zero nor ours returns MessageForOtherInstance and changes no state and injects nothing.", "quantifier": "every message and every session state", "why_tests_cant": "universal over states", "anchors": ["src/session.rs: Session::receive, verify_encoded_message_header"]}
{"id": "C19", "title": "Disallowed protocol versions have no effect", "statement": "An encoded message of a version the policy does not allow is rejected without changing any state or injecting anything.", "quantifier": "every message of that version, every session state", "why_tests_cant": "universal over states", "anchors": ["src/session.rs: Session::receive, verify_encoded_message_header"]}
{"id": "C20", "title": "Instance zero never becomes encrypted and every instance is filed under its own tag", "statement": "In every reachable session the entry for tag 0 exists, is Plaintext, and each entry's peer tag equals its key; so querying sessions never trips the built-in assertions.", "quantifier": "every sequence of API calls", "why_tests_cant": "an invariant over all histories", "anchors": ["src/session.rs: Session::new, receive, has_sessions"]}
{"id": "C21", "title": "Encryption starts only through a completed key exchange", "statement": "The status of an instance changes to Encrypted only in a receive call that processed a final AKE/DAKE message whose signatures and MACs verified; the change is reported as ConfidentialSessionStarted.", "quantifier": "every sequence of API calls and received bytes", "why_tests_cant": "safety over all histories", "anchors": ["src/session.rs: Instance::handle", "src/protocol.rs: secure"]}
{"id": "C22", "title": "Sessions end as announced", "statement": "Ending an encrypted session emits one disconnect data message and moves the instance to Plaintext; receiving a disconnect moves it to Finished; ending a plaintext or finished session emits nothing. An encrypted session ends in no other way, except by expire: the call that ends it reports it.", "quantifier": "every session state, every call", "why_tests_cant": "universal over states", "anchors": ["src/session.rs: Instance::reset, end", "src/protocol.rs: finish"]}
{"id": "C23", "title": "Expiry only finishes old OTRv4 sessions", "statement": "expire leaves every session younger than the timeout and every OTRv3 session alone; an older OTRv4 session emits one disconnect message and becomes Finished.", "quantifier": "every instance map, timeout and age", "why_tests_cant": "universal over states and times", "anchors": ["src/session.rs: Session::expire, Instance::expire", "src/protocol.rs: expire"]}
{"id": "C24", "title": "The whitespace tag is sent at most once per instance", "statement": "Over any history, an instance prepends the whitespace tag to at most one sent message, and only if the policy asks for it while in Plaintext state.", "quantifier": "every sequence of API calls", "why_tests_cant": "history property", "anchors": ["src/session.rs: Instance::send, whitespace_tagged"]}
{"id": "C25", "title": "NUL bytes cannot smuggle control data", "statement": "The content sent over an encrypted session is the user's content with NUL bytes removed; the receiver splits it at the first NUL so that user content can never be interpreted as a TLV.", "quantifier": "every user content", "why_tests_cant": "universal over contents", "anchors": ["src/session.rs: Instance::send, prepare_payloads", "src/protocol.rs: parse_message"]}
{"id": "C26", "title": "Version selection respects policy", "statement": "In response to a query or tag, the client starts the key exchange of the highest offered version that its policy allows, and none if there is no such version.", "quantifier": "every offer list and policy", "why_tests_cant": "all lists", "anchors": ["src/session.rs: select_version, filter_versions, Session::initiate"]}
{"id": "C27", "title": "Receiving never crashes on a key exchange in any state", "statement": "A completed OTRv3 key exchange is processed without panic whatever the current protocol state of the instance.", "quantifier": "every protocol state", "why_tests_cant": "needs the full state space", "anchors": ["src/protocol.rs: EncryptedOTR4State::secure", "src/session.rs: Instance::handle"]}
{"id": "C28", "title": "OTRv3 key exchange agrees", "statement": "If two clients run the OTRv3 AKE with each other's unmodified messages, both end Encrypted with the same SSID, with each other's DSA public key and D-H public key, and with the same data-message keys in mirrored roles.", "quantifier": "all key pairs and random choices", "why_tests_cant": "universal over randomness", "anchors": ["src/ake.rs: AKEContext", "src/crypto.rs: otr::AKESecrets, dh"]}
{"id": "C29", "title": "OTRv3 key exchange authenticates", "statement": "The AKE yields session material only if the received gx matches the earlier hash commitment, the D-H values are in range, the MAC over the encrypted signature verifies and the DSA signature verifies under the reported public key on the transcript of this exchange.", "quantifier": "every received message and every AKE state", "why_tests_cant": "adversarial inputs", "anchors": ["src/ake.rs: handle_reveal_signature, handle_signature"]}
{"id": "C30", "title": "Simultaneous D-H Commits are resolved consistently", "statement": "If both clients send a D-H Commit at the same time, exactly one of them yields and the exchange proceeds with the other's commitment.", "quantifier": "all pairs of commitments with different hashes", "why_tests_cant": "universal over hashes", "anchors": ["src/ake.rs: handle_dhcommit"]}
{"id": "C31", "title": "Unexpected AKE messages do not disturb an exchange", "statement": "An AKE message that is not expected in the current state is rejected or ignored and leaves the AKE state unchanged.", "quantifier": "every AKE state and message", "why_tests_cant": "universal over states", "anchors": ["src/ake.rs: AKEContext::handle_*"]}
{"id": "C32", "title": "A repeated D-H Commit is honoured", "statement": "When a new D-H Commit arrives while waiting for Reveal Signature, the client answers with the same D-H Key and continues the exchange with the new commitment.", "quantifier": "every AKE state and commitment", "why_tests_cant": "history property", "anchors": ["src/ake.rs: handle_dhcommit (AwaitingRevealSignature)"]}
{"id": "C33", "title": "OTRv4 key exchange agrees", "statement": "If two clients run the interactive DAKE with each other's unmodified messages, both end Encrypted with the same SSID and with double ratchets in mirrored roles holding the same root, and the first data messages in both directions decrypt.", "quantifier": "all key pairs and random choices", "why_tests_cant": "universal over randomness", "anchors": ["src/dake.rs: DAKEContext", "src/crypto.rs: otr4::MixedSharedSecret, DoubleRatchet"]}
{"id": "C34", "title": "OTRv4 key exchange authenticates", "statement": "The DAKE yields session material only if the peer's profile validated and the ring signature over this exchange's transcript validated; the ring contains the peer's identity key, our forging key and our ephemeral key.", "quantifier": "every received message and every DAKE state", "why_tests_cant": "adversarial inputs", "anchors": ["src/dake.rs: handle_auth_r, handle_auth_i"]}
{"id": "C35", "title": "A finished OTRv4 key exchange cannot be replayed", "statement": "After a DAKE completed, receiving the same Auth-I (or Auth-R) message again does not restart the session.", "quantifier": "every history", "why_tests_cant": "history property", "anchors": ["src/dake.rs: handle_auth_i, DAKEContext state"]}
{"id": "C36", "title": "Hostile key-exchange messages cannot crash the client", "statement": "Decoding and validating any Identity, Auth-R or Auth-I message never panics.", "quantifier": "every byte string", "why_tests_cant": "universal over network input", "anchors": ["src/crypto.rs: ed448::decode_scalar, RingSignature::validate, constant::compare_scalars"]}
{"id": "C37", "title": "OTRv3 messages are delivered intact", "statement": "A data message delivered unmodified and in order is decrypted to exactly the text and TLVs that were sent.", "quantifier": "every schedule of sends and in-order deliveries between two clients", "why_tests_cant": "all interleavings and key rotations", "anchors": ["src/protocol.rs: EncryptedOTR3State::encrypt_message, decrypt_message", "src/keymanager.rs: KeyManager"]}
{"id": "C38", "title": "OTRv3 never reuses a counter with the same keys", "statement": "Over the life of a session no two sent data messages use the same (sender key, receiver key, counter).", "quantifier": "every history of sends and receives", "why_tests_cant": "history property", "anchors": ["src/keymanager.rs: KeyManager::take_counter, Counter::take"]}
{"id": "C39", "title": "OTRv3 replay is rejected", "statement": "A data message that was accepted once is rejected when delivered again.", "quantifier": "every history", "why_tests_cant": "history property", "anchors": ["src/keymanager.rs: KeyManager::verify_counter, Counter::verify, reset_counters"]}
{"id": "C40", "title": "OTRv3 rejects forged messages", "statement": "A data message whose authenticator does not equal the MAC under the keys it names is reported unreadable and leaves the keys, counters and MAC bookkeeping unchanged.", "quantifier": "every message and session state", "why_tests_cant": "adversarial inputs", "anchors": ["src/protocol.rs: EncryptedOTR3State::decrypt_message"]}
{"id": "C41", "title": "Revealed MAC keys are spent", "statement": "Every MAC key a client reveals was used to accept a message earlier and is revealed at most once, and after revealing it the client no longer accepts messages under it.", "quantifier": "every history", "why_tests_cant": "history property", "anchors": ["src/keymanager.rs: register_used_mac_key, reveal_used_mac_keys, get_reveal_macs"]}
{"id": "C42", "title": "OTRv3 key windows", "statement": "A client always holds exactly two consecutive own key ids (acknowledged and next) and the two most recent peer key ids; messages naming any other id are rejected without effect; ids only increase by one.", "quantifier": "every history", "why_tests_cant": "invariant over histories", "anchors": ["src/keymanager.rs: KeypairRotation, PublicKeyRotation"]}
{"id": "C43", "title": "OTRv3 encryption and data handling never crash", "statement": "Sending any content in an OTRv3 session, and receiving any authenticated data message, never panics.", "quantifier": "every content, every message", "why_tests_cant": "universal over contents and adversarial peers", "anchors": ["src/protocol.rs: encrypt_message", "src/keymanager.rs: PublicKeyRotation::register", "src/crypto.rs: otr::DataSecrets::derive"]}
{"id": "C44", "title": "OTRv4 message keys are never reused", "statement": "Over the life of a session no two sent data messages carry the same (ratchet id, message id), and ids increase lexicographically.", "quantifier": "every history of sends and receives", "why_tests_cant": "history property", "anchors": ["src/protocol.rs: EncryptedOTR4State::encrypt_message", "src/crypto.rs: otr4::DoubleRatchet"]}
{"id": "C45", "title": "OTRv4 rejects forged messages without effect", "statement": "A data message that fails any check (id, ratchet, MAC) leaves the double ratchet exactly as it was.", "quantifier": "every message and ratchet state", "why_tests_cant": "adversarial inputs", "anchors": ["src/protocol.rs: EncryptedOTR4State::decrypt_message"]}
{"id": "C46", "title": "OTRv4 replay is rejected", "statement": "A data message that was accepted once is rejected whenever it is delivered again.", "quantifier": "every history", "why_tests_cant": "history property", "anchors": ["src/protocol.rs: EncryptedOTR4State::decrypt_message", "src/crypto.rs: otr4::DoubleRatchet::confirm_receiver_keys"]}
{"id": "C47", "title": "OTRv4 messages are delivered intact", "statement": "A data message delivered unmodified and in order is decrypted to exactly the content that was sent.", "quantifier": "every schedule of sends and in-order deliveries between two clients", "why_tests_cant": "all interleavings and ratchet rotations", "anchors": ["src/protocol.rs: EncryptedOTR4State", "src/crypto.rs: otr4::DoubleRatchet, MixedSharedSecret"]}
{"id": "C48", "title": "OTRv4 data messages are structurally validated", "statement": "A data message is processed only if it carries a D-H public key exactly when its ratchet id is a multiple of three, its public keys are valid group elements, and its revealed MAC keys are a whole number of MACs; everything a client sends satisfies this.", "quantifier": "every message, every ratchet state", "why_tests_cant": "universal", "anchors": ["src/messages.rs: DataMessage4::validate", "src/protocol.rs: encrypt_message"]}
{"id": "C49", "title": "OTRv4 revealed MAC keys are spent", "statement": "Every MAC key revealed by a client was used to accept a received message, each is revealed at most once, and no later message can be accepted under it.", "quantifier": "every history", "why_tests_cant": "history property", "anchors": ["src/crypto.rs: otr4::DoubleRatchet::confirm_receiver_keys, collect_reveals, rotate_sender"]}
{"id": "C50", "title": "SMP succeeds for equal secrets", "statement": "If both users enter the same secret in the same session and all messages are delivered, both clients report SMP success (OTRv3 and OTRv4).", "quantifier": "all secrets, all random exponents", "why_tests_cant": "universal over randomness", "anchors": ["src/smp.rs: SMPContext", "src/smp4.rs: SMP4Context"]}
{"id": "C51", "title": "SMP fails for different secrets", "statement": "If the users' secrets hash to different values, no client reports SMP success (OTRv3 and OTRv4).", "quantifier": "all differing secrets, all random exponents", "why_tests_cant": "universal over randomness", "anchors": ["src/smp.rs: handle_message_3, handle_message_4", "src/smp4.rs: handle_message_3, handle_message_4"]}
{"id": "C52", "title": "SMP errors reset the exchange", "statement": "Any malformed, unexpected or unverifiable SMP message resets SMP to its initial state with a status telling the outcome; SMP can then be started afresh.", "quantifier": "every SMP state and message", "why_tests_cant": "universal over states", "anchors": ["src/smp.rs: SMPContext::handle", "src/smp4.rs: SMP4Context::handle"]}
{"id": "C53", "title": "SMP success requires valid proofs", "statement": "SMP reports success only after every received group element was checked to be in range and every zero-knowledge proof of the received messages verified.", "quantifier": "every sequence of received TLVs", "why_tests_cant": "adversarial inputs", "anchors": ["src/smp.rs: handle_message_*", "src/smp4.rs: handle_message_*"]}
{"id": "C54", "title": "Aborting SMP terminates", "statement": "After one client aborts SMP, a finite number of messages is exchanged because of it.", "quantifier": "every pair of SMP states", "why_tests_cant": "liveness over message exchanges", "anchors": ["src/smp.rs: handle, abort", "src/smp4.rs: dispatch, abort"]}
{"id": "C55", "title": "Only one SMP runs at a time", "statement": "Starting SMP while one is in progress fails with SMPInProgress and does not disturb the running exchange.", "quantifier": "every SMP state", "why_tests_cant": "universal over states", "anchors": ["src/smp.rs: initiate", "src/smp4.rs: initiate"]}
{"id": "C56", "title": "Client profile payload round-trips", "statement": "Decoding the encoding of a validated client profile payload yields a payload with the same fields; a freshly generated profile is accepted by a peer.", "quantifier": "every profile", "why_tests_cant": "universal over field values", "anchors": ["src/clientprofile.rs: ClientProfilePayload, Field, ClientProfile::sign"]}
{"id": "C57", "title": "Only well-formed, signed profiles are accepted", "statement": "A payload is accepted only if it has no duplicate fields, contains tag, identity key, forging key, versions, expiration and signature, its EdDSA signature verifies under the identity key it contains, and its transitional signature, if any, verifies under the legacy key.", "quantifier": "every byte string", "why_tests_cant": "adversarial inputs", "anchors": ["src/clientprofile.rs: ClientProfilePayload::validate, decode"]}
{"id": "C58", "title": "Expired profiles are rejected", "statement": "A peer's client profile whose expiration time has passed is not accepted in a key exchange.", "quantifier": "every profile and time", "why_tests_cant": "universal over time", "anchors": ["src/clientprofile.rs: ClientProfilePayload::validate", "src/dake.rs: handle_identity, handle_auth_r"]}
{"id": "C59", "title": "D-H public values are range-checked", "statement": "A received D-H public key or SMP group element is accepted only if 2 <= k <= p-2, and exponents only if 1 <= e < q.", "quantifier": "all integers", "why_tests_cant": "boundary over 1536-bit integers", "anchors": ["src/crypto.rs: dh::verify_public_key, verify_exponent, dh3072::verify"]}
{"id": "C60", "title": "Ring signatures verify for any signer in the ring", "statement": "A ring signature made with a key that is exactly one of the three ring keys validates for that ring and message.", "quantifier": "all keys, rings, messages and random choices", "why_tests_cant": "universal over randomness", "anchors": ["src/crypto.rs: ed448::RingSignature::sign, validate"]}
{"id": "C61", "title": "Ed448 point encoding is faithful", "statement": "Decoding the encoding of a curve point yields that point, and a byte string is accepted as a point only if it is the canonical encoding of that point.", "quantifier": "all curve points, all 57-byte strings", "why_tests_cant": "2^456 inputs", "anchors": ["src/crypto.rs: ed448::Point::encode, decode"]}
{"id": "C62", "title": "Equality checks decide equality", "statement": "The constant-time comparison succeeds exactly when both byte strings are equal and not all zero; it never panics, whatever their lengths.", "quantifier": "all byte strings", "why_tests_cant": "universal", "anchors": ["src/crypto.rs: constant::compare, diff"]}
{"id": "C63", "title": "EdDSA signatures verify", "statement": "A signature produced by a client's identity key validates under its public key for the signed message.", "quantifier": "all keys and messages", "why_tests_cant": "universal", "anchors": ["src/crypto.rs: ed448::EdDSAKeyPair::sign, ed448::validate"]}
{"id": "C64", "title": "Mirrored data keys", "statement": "Two clients deriving data-message keys from the same shared secret and distinct public keys get complementary roles: each one's sending keys are the other's receiving keys.", "quantifier": "all secrets and distinct public keys", "why_tests_cant": "universal", "anchors": ["src/crypto.rs: otr::DataSecrets::derive"]}
{"id": "C65", "title": "A client can establish OTRv4 again after ending a session", "statement": "After an OTRv4 session ended, a new query or initiate starts a new key exchange.", "quantifier": "every history", "why_tests_cant": "history property", "anchors": ["src/dake.rs: initiate, transfer", "src/session.rs: initiate, receive"]}
{"id": "C66", "title": "OTRv4 data messages cannot crash the client", "statement": "Receiving any validated OTRv4 data message in an encrypted session, and sending or ending the session, never panics.", "quantifier": "all session states reached from a completed key exchange, all messages that decode and validate", "why_tests_cant": "message ids range over all 32-bit numbers and the state over all histories", "anchors": ["src/protocol.rs EncryptedOTR4State::handle4, decrypt_message, encrypt_message", "src/crypto.rs otr4::DoubleRatchet, otr4::Ratchet, otr4::MixedSharedSecret"]}
{"id": "C67", "title": "Hostile OTRv3 key-exchange messages cannot crash the client", "statement": "Handling any D-H Commit, D-H Key, Reveal Signature or Signature message in any state of the key exchange never panics, if the host has a DSA key pair.", "quantifier": "all states of the key exchange, all messages that decode", "why_tests_cant": "contents of the messages are chosen by the network", "anchors": ["src/ake.rs AKEContext::handle_dhcommit, handle_dhkey, handle_reveal_signature, handle_signature"]}
{"id": "C68", "title": "Reassembled OTRv4 messages consist of received parts", "statement": "Whatever the OTRv4 reassembler delivers is the concatenation of parts 1..n of one message, each the first fragment that arrived for that part: a repeated or conflicting fragment cannot alter a message, parts of different messages are never mixed, and fragments of a delivered message are spent, so that no message is delivered again unless all its parts arrive again.", "quantifier": "every sequence of fragments in every order, with repetitions, conflicts and losses", "why_tests_cant": "the order, repetition and interleaving of fragments are chosen by the network", "anchors": ["src/fragment.rs: OutOfOrderAssembler::assemble"]}
{"id": "C69", "title": "Crossing OTRv4 Identity messages resolve", "statement": "If two clients begin an interactive DAKE at the same time and their Identity messages cross, exactly one of them insists on its message and the other yields, and the exchange then completes with both holding the same session.", "quantifier": "all key pairs and random choices with different hashes of the D-H keys", "why_tests_cant": "depends on the order of hashes of random keys and on the crossing of messages", "anchors": ["src/dake.rs: handle_identity, handle_auth_r, handle_auth_i"]}
{"id": "C70", "title": "Confidential messages are reported exactly when authentic", "statement": "Whatever receive reports as confidential came in a data message for this client that the encrypted session with the reported peer authenticated and decrypted to exactly that content; and every such message that is not part of SMP and does not end the session is reported with its content, leaves the session Encrypted and injects nothing.", "quantifier": "every sequence of API calls, every received bytes", "why_tests_cant": "safety over all histories and adversarial inputs", "anchors": ["src/session.rs: Session::receive, Instance::handle", "src/protocol.rs: handle"]}
{"id": "C71", "title": "Unreadable data messages are answered and reported", "statement": "A data message for this client that the session with its sender cannot authenticate, or that arrives without an encrypted session of its version, is never shown: it is reported as unreadable (or ignored, if it is flagged so), the error message is injected, and the status and SSID of every session stay as they are.", "quantifier": "every sequence of API calls, every data message, whole or in fragments", "why_tests_cant": "ranges over all states a client can get into and all forged, replayed or damaged messages", "anchors": ["src/session.rs: Instance::handle", "src/protocol.rs: handle"]}
{"id": "C72", "title": "SMP messages in data messages reach the SMP of their session", "statement": "When an authentic data message carries one SMP TLV, the TLV is handed to the SMP of the session with the sender, the SMP's reply, if any, is injected encrypted in that session and flagged as ignorable, and the status of the SMP is reported: nothing while in progress, success when completed, failure when aborted. A message with several SMP TLVs is refused with an error and nothing is injected.", "quantifier": "every sequence of API calls, every data message and every list of TLVs in it", "why_tests_cant": "ranges over all histories, positions of the TLV and states of the SMP", "anchors": ["src/session.rs: Instance::handle", "src/smp.rs: SMPContext::handle", "src/smp4.rs: SMP4Context::handle"]}
{"id": "C73", "title": "Starting and aborting SMP in a session", "statement": "start_smp in an encrypted session whose SMP is not in progress starts the SMP of that session and injects its first message encrypted; in progress it is refused without any effect; abort_smp resets the SMP and injects the abort TLV encrypted; in other sessions both are refused with an error and without any effect.", "quantifier": "every sequence of API calls, every secret and question", "why_tests_cant": "ranges over all states a client can get into", "anchors": ["src/session.rs: start_smp, abort_smp", "src/smp.rs: initiate", "src/smp4.rs: initiate"]}
{"id": "C74", "title": "Two clients that offer OTRv4 to each other get connected and can talk", "statement": "If Bob receives a query message that offers OTRv4, and the messages that both clients then inject are delivered unchanged, then both report that a session with the other started, and ssid returns the same value for both. After this, each text that one user sends and that is delivered to the other is reported to the other user, with the content that was sent (without NUL bytes), attributed to the sender's instance.", "quantifier": "every pair of accounts with valid profiles, non-degenerate keys and tags, every earlier history of both sessions in which no other exchange is pending, every conversation and its contents", "why_tests_cant": "two clients must meet from any earlier history and talk for any number of texts; tests have one or two turns", "anchors": ["src/session.rs: receive, send, ssid", "src/dake.rs", "src/protocol.rs: handle, prepare", "src/keymanager.rs"]}
{"id": "C75", "title": "Encryption ids are not reused in a session", "statement": "Two data messages that a client sends to the same instance in the same session never carry the same ids: in OTRv4 the pair of ratchet and message id of the later one is larger, in OTRv3 they never use the same counter with the same pair of keys.", "quantifier": "every sequence of API calls and received messages between the two", "why_tests_cant": "nonce reuse must be impossible in every interleaving of sending, receiving, SMP and key exchanges", "anchors": ["src/session.rs: send", "src/protocol.rs: prepare", "src/keymanager.rs"]}
{"id": "C76", "title": "OTRv4 messages are read once per session", "statement": "An OTRv4 data message that was authenticated once is never read again in the same session, however often and in whatever form a message with these ids is delivered: it is reported as unreadable, or ignored if flagged so.", "quantifier": "every sequence of API calls and received messages in between", "why_tests_cant": "the network chooses what to replay and when", "anchors": ["src/session.rs: receive", "src/protocol.rs: handle", "src/keymanager.rs: ratchet"]}
{"id": "C77", "title": "SMP succeeds only with the consent of the user", "statement": "When receive reports that the SMP with a peer succeeded, the report comes with an authentic data message of that peer that is the last message of an exchange of the SMP of that session, and in this session the user either started the SMP with that peer or answered the question of the peer's first SMP message.", "quantifier": "every sequence of API calls and received messages", "why_tests_cant": "a peer chooses all SMP messages and their order", "anchors": ["src/session.rs: Instance::handle, start_smp", "src/smp.rs: handle", "src/smp4.rs: handle"]}
{"id": "C78", "title": "A message in fragments has the effect of the whole message", "statement": "Receiving the fragments of an encoded message, each in a call of its own, does what receiving the whole message does: all calls but the last return nothing and send nothing, and the last one returns the same result, sends the same messages and leaves the same conversations and key exchanges with every instance of the peer. OTRv3 fragments arrive in order, OTRv4 fragments in any order.", "quantifier": "every session, every encoded message, every size of the fragments, every order of arrival (OTRv4), every behaviour of the host during each call", "why_tests_cant": "the number of fragments, their order and the state of the session are unbounded", "anchors": ["src/session.rs: Session::receive, Instance::handle", "src/fragment.rs: fragment, Assembler"]}
{"id": "C79", "title": "An account keeps its instance tag and profile", "statement": "If the host has no usable client profile, Account::new makes one with a valid instance tag, the host's keys, OTRv4 and (with a DSA key) OTRv3, valid for one week, and hands it to the host. Every account that is later made with those stored bytes has the same instance tag and profile and hands nothing to the host.", "quantifier": "every host with proper keys, every random draw, every later time, name, policy and draw", "why_tests_cant": "the stored bytes depend on all keys, signatures and draws, and must be read back for each of them", "anchors": ["src/session.rs: Account::new, restore_clientprofile, generate_clientprofile", "src/clientprofile.rs", "src/instancetag.rs: random_tag"]}
{"id": "C80", "title": "The sessions of an account do not influence each other", "statement": "Whatever calls are made on an account, the session with an address is in the state, and its calls return and inject what they would, if only the calls for that address (and the expirations since it was opened) had been made. A call injects messages only to the address of the session it is made on, or to sessions opened before when the account expires.", "quantifier": "every sequence of calls on an account, its sessions and addresses, every received message and answer of the host", "why_tests_cant": "isolation must hold for all interleavings of all sessions", "anchors": ["src/session.rs: Account::session, Account::expire"]}
{"id": "C81", "title": "An account uses a current profile with its own keys", "statement": "The client profile of an account that Account::new returns is not expired at that time, and has the keys that the host has.", "quantifier": "every stored profile, key and time", "why_tests_cant": "depends on the time and on any earlier stored profile", "anchors": ["src/session.rs: Account::new, restore_clientprofile", "src/clientprofile.rs: ClientProfilePayload::validate"]}
{"id": "C82", "title": "Two clients that offer OTRv3 to each other get connected and can talk", "statement": "If Bob receives a query message that selects OTRv3, and the messages that both clients then inject are delivered unchanged, then both report that a session with the other started, and ssid returns the same value for both. After this, each text that one user sends and that is delivered to the other is reported to the other user, with the content that was sent (without NUL bytes), attributed to the sender's instance.", "quantifier": "every pair of accounts with working long-term keys, acceptable D-H key pairs and tags, every earlier history of both sessions in which no other exchange is pending and no OTRv4 session exists, every conversation and its contents", "why_tests_cant": "two clients must meet from any earlier history and talk for any number of texts in any order of turns; tests have one or two turns, and the failure needs a certain order of turns", "anchors": ["src/session.rs: receive, send, ssid", "src/ake.rs", "src/protocol.rs: handle, prepare", "src/keymanager.rs"]}
{"id": "C83", "title": "Two clients that run the SMP with each other get the same, right result", "statement": "In a session that two clients established with each other, one user starts the SMP with a secret and a question, and the other user answers the question with a secret. If the messages that both clients then inject are delivered unchanged, then each user is told once that it succeeded, if the secrets are the same, and each user is told once that it failed, if they are different (if the numbers derived from them are); nothing else is reported to the users. Afterwards the session is as usable as before, and the SMP can be run again.", "quantifier": "every pair of clients that met, every earlier history of both sessions, every secret, answer and question, all random numbers that are acceptable", "why_tests_cant": "the result must be right for all secrets and random numbers, after any earlier history", "anchors": ["src/session.rs: start_smp, receive", "src/smp.rs", "src/smp4.rs", "src/protocol.rs: handle, prepare"]}
{"id": "C84", "title": "When one client ends a session, the other one learns it and stops sending", "statement": "In a session that two clients established with each other, one of them ends the session (or, in OTRv4, its session expires) and the text that this call injects is delivered. Then the other user is told that the session is finished, nothing is sent in reply, and every attempt to send in that session fails, without sending anything, until this user ends the session too; that sends nothing either, and leaves the session in plaintext. The client that ended the session is in plaintext at once; the one whose session expired is finished.", "quantifier": "every pair of clients that met, every earlier history of both sessions, every later text", "why_tests_cant": "the disconnect message must be readable after every history, and no later call may send a text unprotected", "anchors": ["src/session.rs: end, expire, receive, send", "src/protocol.rs: finish, expire, handle, encrypt_message"]}
{"id": "C85", "title": "A call only changes the instance it is about", "statement": "A contact may be logged in with several clients, told apart by instance tags. A call of the API changes only the instance it names; a received payload changes only the instance whose tag is the sender of the fragment or of the message read, or instance 0 if it offers to start a conversation. All else about other instances stays as it is: conversations, keys, key exchanges, stored fragments; and no other instance is created. A report that names an instance (session started or finished, confidential text, SMP result, reset) is only made by a call about this instance.", "quantifier": "every session, every call, every payload, every instance", "why_tests_cant": "an interaction between instances may need any history and any message", "anchors": ["src/session.rs: receive, send, initiate, end, start_smp, abort_smp, query, get_instance", "src/session.rs: Instance::handle"]}
{"id": "C86", "title": "Instances do not influence each other", "statement": "What a call does to some instances of a contact, and what it injects and returns, depends only on these instances and on instance 0, where key exchanges are kept until the tag of the contact is known. The only exceptions: whether a text received unencrypted is reported with a warning, and whether a text sent unencrypted gets a whitespace tag. Hence for every history there is a history, made of some of the same calls injecting the same messages, in which the other instances never existed and these instances end in the same state.", "quantifier": "every set of instances with instance 0, every history whose calls are each about instances in the set only or about others only (expiry concerns all; a fragment may carry the message of another instance)", "why_tests_cant": "it compares two executions, for all histories", "anchors": ["src/session.rs: Session, receive, send, initiate, end, start_smp, abort_smp", "src/session.rs: transfer_ake_context, adopt_ake_context, has_sessions"]}
{"id": "C87", "title": "A call injects at most one message, and never a text of the user", "statement": "What a call hands to the host to be sent is nothing, or one message (whole or in fragments) from this client to an instance of the contact that the call is about, which belongs to a key exchange, or is an encrypted message with no text and one TLV, or is the disconnect message; or the error text for unreadable messages; or a query message. This also holds of calls that fail. So texts of the user are never sent on but as what `send` returns, no message is amplified into several, and a message from one instance is never answered to another.", "quantifier": "every reachable session, every call but expiry (which injects one disconnect message for each expired instance, C23), every payload, all answers of the host", "why_tests_cant": "any message in any state could be answered by several messages or to the wrong instance", "anchors": ["src/session.rs: receive, send, initiate, end, query, start_smp, abort_smp", "src/session.rs: Instance::handle, inject"]}
{"id": "C88", "title": "No received text crashes the client", "statement": "`receive` never panics, whatever the network delivers: it returns a result or an error.", "quantifier": "every history of calls, every state of the session reached by it, every payload, every host", "why_tests_cant": "a crash may need any history and any payload; fuzzing samples both", "anchors": ["src/session.rs: receive, Instance::handle, inject", "src/fragment.rs", "src/messages.rs", "src/ake.rs", "src/keymanager.rs", "src/protocol.rs", "src/smp.rs"]}
{"id": "C89", "title": "The list of instances is exactly the clients of the contact that were met", "statement": "`instances` lists each instance of the contact once, never instance 0, and exactly those that have a status. An instance gets listed exactly when the user opens a conversation with it, or a sound fragment for this client comes from it, or a message for this client of an allowed version comes from it; no call ever removes one, not even a call that fails. Unless the user names an illegal tag, all listed tags are legal. Sending to, ending, or running SMP with an instance that is not listed is refused with UnknownInstance and has no effect.", "quantifier": "every history of calls, every call, every payload, every instance tag", "why_tests_cant": "the list depends on the whole history, and the network may deliver anything", "anchors": ["src/session.rs: instances, status, receive, initiate, get_instance, send, ssid", "src/instancetag.rs: verify"]}
{"id": "C90", "title": "The state kept for a contact is bounded", "statement": "What the network delivers cannot make the client keep an unbounded number of instances for a contact.", "quantifier": "every history of calls, every sequence of received texts", "why_tests_cant": "the bound must hold for sequences of any length", "anchors": ["src/session.rs: receive, instances"]}
{"id": "C91", "title": "Calls of the user never crash the client", "statement": "Opening a conversation, querying, sending, ending a session, starting or aborting the SMP, and expiring old sessions return a result or an error, and never panic, whatever happened before; and dropping a session does not panic either.", "quantifier": "every history of calls, every call other than receive, every argument, every message size and key of the host", "why_tests_cant": "a panic may need a rare state, a rare argument, or a rare size", "anchors": ["src/session.rs: initiate, query, send, end, start_smp, abort_smp, expire, inject, prepare_payloads, has_sessions", "src/fragment.rs: fragment, Fragment", "src/smp.rs: initiate", "src/smp4.rs: initiate", "src/crypto.rs: Drop for DoubleRatchet"]}
{"id": "C92", "title": "A call that fails has no visible effect", "statement": "A call that returns an error leaves the status and the ssid of every instance of the contact as they were; at most it lists a new instance, as plaintext. It sends nothing, except that a send refused because encryption is required sends a query, and a receive that reports an unreadable message sends the error text.", "quantifier": "every history of calls, every call with any arguments, every payload, every instance", "why_tests_cant": "the errors come from many places deep in the call, after parts of the state changed", "anchors": ["src/session.rs: receive, send, end, query, start_smp, abort_smp, initiate, handle", "src/protocol.rs: handle, prepare, finish"]}
{"id": "C93", "title": "Texts are read by the documented patterns", "statement": "A received text is read as a fragment, a query or a tagged text exactly when the regular expression of the source for it matches, with the leftmost match preferred, repetitions greedy, OTRv4 fragments before OTRv3 fragments, error texts before queries before tags; the fields are those of the groups of the match; and a tag is removed from the text wherever it matches.", "quantifier": "every byte string, every set of digits beyond ASCII", "why_tests_cant": "the patterns backtrack and match anywhere in texts of any length, in any script", "anchors": ["src/fragment.rs: FRAGMENT_V3_PATTERN, FRAGMENT_V4_PATTERN, parse", "src/messages.rs: QUERY_PATTERN, WHITESPACE_PATTERN, parse_plain_message"]}
{"id": "C94", "title": "What is sent respects the message size of the host", "statement": "No text that the client injects, and no encrypted text that `send` returns, is longer than the maximum size that the host states, if this is at least the 58 bytes of a query; what is longer is cut into fragments that are not. A text that is sent in plaintext is returned whole, with at most 24 bytes of whitespace tag added.", "quantifier": "every history of calls, every call, every content, every message size", "why_tests_cant": "the sizes of messages depend on the history, the keys and the content", "anchors": ["src/lib.rs: Host::message_size, Host::inject", "src/session.rs: Instance::inject, prepare_payloads, query", "src/fragment.rs: fragment"]}
{"id": "C95", "title": "Texts that are not genuine do not disturb an encrypted session", "statement": "A received text changes the session with a client (its keys, counters and SMP) only if it brings a data message of that client with an authenticator that the keys of the session give it, or completes a key exchange, which is then reported. So an attacker who sends, changes, repeats or reorders any other texts, as many as they like, has no influence on it unless the client crashes: the calls about that session (sending, ending, SMP, and receiving a data message that is not in fragments) return and inject exactly what they would without those texts.", "quantifier": "every history of calls, every session, every sequence of received texts interleaved with the calls", "why_tests_cant": "the texts an attacker may send, and where, are unbounded", "anchors": ["src/session.rs: Session::receive, Instance::handle", "src/protocol.rs: EncryptedOTR3State::handle, EncryptedOTR4State::handle4", "src/keymanager.rs"]}
{"id": "C96", "title": "Two clients that offer OTR to each other at the same moment get connected", "statement": "If two clients that can meet each receive a query before either has received a message of the other's key exchange, and every text that either sends is delivered, then at the end both have a session with the other, with the same SSID, and can read each other's messages.", "quantifier": "every pair of clients, every earlier history of each, and all randomness", "why_tests_cant": "depends on the interleaving of two exchanges and on the history of both sessions", "anchors": ["src/session.rs: receive, transfer of the context of instance zero", "src/ake.rs: handle_dhcommit, handle_dhkey, handle_reveal_signature", "src/dake.rs: handle_identity, handle_auth_r, handle_auth_i"]}
{"id": "C97", "title": "Every OTRv4 message has keys of its own, from the key schedule", "statement": "In a session with OTRv4, every message that the client sends or accepts is encrypted and authenticated with the keys at a position (ratchet, number of the message) of the double ratchet's key schedule, and no position is used for two messages, also not for one in each direction. So no two messages have the same encryption key or MAC key, unless inputs of the key derivation collide.", "quantifier": "every history of calls, sent and received messages, and all randomness", "why_tests_cant": "quantifies over unbounded histories, including messages that an attacker makes up, replays or reorders", "anchors": ["src/crypto.rs: otr4::DoubleRatchet, otr4::Ratchet, otr4::derive_*", "src/protocol.rs: EncryptedOTR4State::encrypt_message, decrypt_message"]}
{"id": "C98", "title": "A ring signature does not tell which of the three keys made it", "statement": "A ring signature that the holder of one of the three keys made could as well have been made by the holder of each of the two other keys, with other random numbers, so that it does not tell who took part in an OTRv4 key exchange.", "quantifier": "every three valid keys, every message, every signature and all randomness", "why_tests_cant": "says that other random numbers exist that lead to the same signature, for each of the possible signers", "anchors": ["src/crypto.rs: ed448::RingSignature::sign, ed448::random_in_Zq, ed448::prune", "src/dake.rs: sigma of Auth-R and Auth-I"]}
{"id": "C99", "title": "Whoever makes valid proofs knows the secrets they are about", "statement": "From valid answers to two different challenges for the same commitments, the secrets of a proof can be computed: the exponents and the compared number of the SMP proofs (in OTRv3 up to the sign of the group element), and the secret key of at least one member of the ring of a ring signature. So nobody can make such proofs for more than one challenge without knowing the secrets.", "quantifier": "every statement, every commitment, every two challenges with their responses, and every two hash functions", "why_tests_cant": "says that no maker of proofs, honest or not, gets by without the secret; tests only run honest makers", "anchors": ["src/smp.rs: verification of the proofs in messages 1 to 4", "src/smp4.rs: verification of the proofs in messages 1 to 4", "src/crypto.rs: ed448::RingSignature::validate"]}
{"id": "C100", "title": "Revealed MAC keys make messages deniable", "statement": "Once the MAC key of a data message is known, the message proves nothing about its text: anyone who knows the message, its text and that key, and no other secret, can write a message with any other text of the same length that the receiver would have accepted and reported in place of the original, with the same session afterwards. The receiver of a message keeps its MAC key until a message that it sends reveals it; with OTRv4, ending the session reveals all keys kept.", "quantifier": "every history, data message of either version, text and replacement text, and every later life of the session", "why_tests_cant": "quantifies over all states, messages and texts", "anchors": ["src/protocol.rs: decrypt_message, handle, handle4, finish", "src/keymanager.rs: register_used_mac_key, reveal_used_mac_keys, get_reveal_macs", "src/crypto.rs: confirm_receiver_keys, collect_reveals, aes128, chacha20", "src/messages.rs: encode_authenticator_data, encode_authenticator_data4"]}
{"id": "C101", "title": "Either side alone can make up an OTRv4 key exchange", "statement": "The messages of an OTRv4 key exchange with a peer do not prove that the peer took part: a client that has only the published client profile of the peer can make up the peer's messages, with ephemeral keys of its own making, and a ring signature by its own forging key or its own ephemeral key. The client itself accepts the messages and reports a session with the fingerprint of the peer, and the signature verifies over the transcript like one by the peer.", "quantifier": "every pair of profiles with acceptable keys, both roles, and all random choices, except with the probability 1/q that the challenge is zero", "why_tests_cant": "quantifies over all keys, profiles and random choices", "anchors": ["src/dake.rs: initiate, handle_identity, handle_auth_r, handle_auth_i", "src/crypto.rs: RingSignature::sign, RingSignature::validate"]}
{"id": "C102", "title": "A message that is not authentic costs little work", "statement": "The work a client does for one received OTRv4 data message is bounded by a small constant unless the message is authentic; finding the key of an authentic message takes one step for each message of the same ratchet that was passed over, and the search always ends.", "quantifier": "every state of an OTRv4 session and every data message, authentic or not", "why_tests_cant": "the work depends on a 32-bit number chosen by the sender and on all reachable states", "anchors": ["src/protocol.rs: EncryptedOTR4State::decrypt_message (lines 694-703)", "src/crypto.rs: DoubleRatchet::rotate_receiver_chainkey, Ratchet::rotate"]}
{"id": "C103", "title": "Forward secrecy: what a client keeps does not open earlier messages", "statement": "The keys that a client holds at some time do not allow anyone who then gets hold of them, and who recorded all traffic, to compute the encryption key of an OTRv4 message that the client sent or accepted before: chain keys and root keys are replaced by their successors, message keys are not kept, and the secrets of the key exchange are erased once it is complete.", "quantifier": "every history of an OTRv4 session, any messages lost, replayed or forged; both roles in the key exchange", "why_tests_cant": "a statement about everything that can be computed from the kept state, after any history", "anchors": ["src/crypto.rs: DoubleRatchet, Ratchet::rotate, Ratchet::keys", "src/protocol.rs: EncryptedOTR4State", "src/dake.rs: handle_auth_r, handle_auth_i (state AwaitingAuthI is kept)"]}
{"id": "C104", "title": "OTRv3 messages have the keys their ids name, and old keys are forgotten", "statement": "Every OTRv3 message that a client sent or accepted is encrypted and authenticated with the keys that follow from the client's key pair and the peer's public key that its key ids name. The first keys are those of the key exchange; each later key pair of the client is generated from random bytes of its own, and each later key of the peer was announced in an accepted message. The client never holds more than the last two of its key pairs: once it accepted a message for one of its key pairs, it no longer has the private keys of the messages exchanged with earlier key pairs; and the state of a completed key exchange is erased.", "quantifier": "every history of an OTRv3 session, any messages lost, replayed or forged; both roles in the key exchange", "why_tests_cant": "ranges over all histories; what is not kept can only be shown for all reachable states", "anchors": ["src/keymanager.rs: KeyManager, KeypairRotation, PublicKeyRotation", "src/protocol.rs: EncryptedOTR3State::encrypt_message, decrypt_message", "src/ake.rs: handle_reveal_signature, handle_signature"]}
{"id": "C105", "title": "The SMP exposes a man in the middle", "statement": "If somebody between two users, with a session of their own with each of them, passes the messages of the SMP on from one session to the other, both users are told that the SMP failed, even though they gave the same secret: it succeeds exactly if both clients see the same SSID, each sees the fingerprint of the other, and the secrets are equal. The SSID and the fingerprints that the SMP works with are those of the key exchange that began the session, and neither they nor the reported SSID change during the session.", "quantifier": "all keys, SSIDs, secrets, questions and randomness; every earlier use of the SMP by either client; every history of the session", "why_tests_cant": "ranges over all keys, secrets and earlier histories; that nothing compared can be traded for something else is a statement about all inputs of the hash", "anchors": ["src/smp.rs: compute_secret, SMPContext", "src/smp4.rs: SMP4Context::compute_secret", "src/session.rs: Session::ssid", "src/protocol.rs: ProtocolState::secure"]}
{"id": "C106", "title": "A session recovers from a theft of its keys", "statement": "If somebody steals all the keys that a client holds in an OTRv4 session, and the session goes on, the messages that the client sends and accepts from the next ratchet on that the client begins itself cannot be read with the stolen keys: the secret that is mixed in with this ratchet comes from a key pair that the client generates only then, and without this secret no key of this or of any later ratchet can be computed, even by somebody who learns all the other secrets. In an OTRv3 session, too, the keys of a message whose key id names a key pair of the client that it generated after the theft follow from this key pair; and once the client accepted a message that names such a key pair, all messages that it sends name this one or a later one.", "quantifier": "every history before and after the theft, any messages lost, replayed or forged; both roles in the key exchange; every point of theft", "why_tests_cant": "a statement about everything that can be computed from a stolen state, for all continuations", "anchors": ["src/crypto.rs: DoubleRatchet::rotate_sender, MixedSharedSecret::rotate_keypairs", "src/protocol.rs: EncryptedOTR4State::encrypt_message, decrypt_message", "src/keymanager.rs: KeyManager::acknowledge_ours, KeypairRotation::acknowledge"]}
{"id": "C107", "title": "The SMP tells the peer nothing about the secret except whether it is the same", "statement": "From the messages that a client sends in a run of the SMP, the peer (or somebody in the middle, who takes part in the run) learns only whether the secret they used is the one the user gave. In particular, with any other secret of the user the same answers in the proofs could have been sent, so that the peer cannot use one run to test more than one guess.", "quantifier": "every secret, every guess, every random number; the client that asks and the client that answers; OTRv3 and OTRv4", "why_tests_cant": "a statement about all secrets that a message is compatible with", "anchors": ["src/smp4.rs: SMP4Context::handle_message_1, handle_message_2", "src/smp.rs: SMPContext::handle_message_1, handle_message_2, random", "src/crypto.rs: ed448::random_in_Zq"]}
{"id": "C108", "title": "A session that a client ends leaves no message undeniable", "statement": "When a client ends a session, or an OTRv4 session expires, the last message that it sends publishes the MAC keys of all messages that it accepted in the session, as far as they were not published before. With OTRv4 the published keys are exactly these, each once and in order. With OTRv3 every message that the client sends publishes all keys of the messages that it accepted before.", "quantifier": "every history of a session, any messages lost, replayed, reordered or forged, and both ways in which a client ends a session", "why_tests_cant": "a statement about all messages accepted over all histories, and OTRv3 keys come up in all combinations of the key pairs of both clients", "anchors": ["src/protocol.rs: EncryptedOTR3State::finish, EncryptedOTR4State::finish, expire, encrypt_message, decrypt_message", "src/keymanager.rs: register_used_mac_key, reveal_used_mac_keys, get_reveal_macs, acknowledge_ours, register_their_key", "src/crypto.rs: DoubleRatchet::confirm_receiver_keys, collect_reveals"]}
{"id": "C109", "title": "What a session publishes does not help to write messages that a client still accepts", "statement": "The MAC keys that a client publishes are those of messages whose keys it no longer accepts. Somebody who sees all messages of a session, and also knows or guesses texts in it, cannot use the published keys to write a message that the client reports as one of the peer.", "quantifier": "every history of a session, any messages lost, replayed, reordered or forged; OTRv3 and OTRv4", "why_tests_cant": "a statement about all keys published and all messages accepted afterwards, over all histories", "anchors": ["src/keymanager.rs: register_used_mac_key, reveal_used_mac_keys, acknowledge_ours, register_their_key, verify_counter", "src/protocol.rs: EncryptedOTR3State::decrypt_message, encrypt_message", "src/crypto.rs: DoubleRatchet::confirm_receiver_keys, collect_reveals"]}
{"id": "C110", "title": "Replays of a key exchange do not make a client encrypt two texts with the same key", "statement": "Whatever messages of the peer the network delivers again, two texts that a client sends are not encrypted with the same part of a key stream: the messages on the network do not tell the sum of the texts.", "quantifier": "every history of two clients, in which the network delivers messages of the peer any number of times and in any order", "why_tests_cant": "a statement about all pairs of messages over all histories", "anchors": ["src/dake.rs: handle_auth_i, transfer", "src/ake.rs: transfer, handle_dhkey, handle_signature", "src/session.rs: handle_encoded_message"]}
{"id": "C111", "title": "A text is reported at most as often as it was sent, also when messages of the key exchange are replayed", "statement": "If the network delivers nothing but messages of the peer, possibly again, a text of the peer is reported at most as often as the peer sent it.", "quantifier": "every history of two clients, in which the network delivers messages of the peer any number of times and in any order", "why_tests_cant": "a statement about all histories and replays", "anchors": ["src/dake.rs: handle_auth_i, handle_auth_r, transfer", "src/ake.rs: transfer", "src/session.rs: handle_encoded_message"]}
{"id": "C112", "title": "The authenticator of a data message covers the whole message", "statement": "A message that differs from a genuine one in its version, instance tags, flags, key or ratchet or message ids, next public keys, counter or encrypted text, and has its authenticator, is not reported, unless two different byte strings have the same authenticator.", "quantifier": "every history of a session and every two messages, OTRv3 and OTRv4", "why_tests_cant": "universal over all alterations of all messages", "anchors": ["src/messages.rs: encode_authenticator_data, encode_authenticator_data4", "src/protocol.rs: decrypt_message", "src/session.rs: handle_encoded_message"]}
{"id": "C113", "title": "Clients that both allow OTRv4 are not made to use OTRv3", "statement": "If both clients allow OTRv4, then whatever somebody on the network injects, a session between them is an OTRv4 session; and an OTRv4 session is not replaced by an OTRv3 session unless it ended before.", "quantifier": "every history of the two clients, and every message injected by the network", "why_tests_cant": "universal over all injected messages and all histories", "anchors": ["src/session.rs: select_version, initiate, handle_encoded_message", "src/protocol.rs: EncryptedOTR4State::secure"]}
{"id": "C114", "title": "The tag that a session is reported with is the tag of the peer", "statement": "If a client reports a session, or a text, with an instance tag, then the client of the peer with which the key exchange ran has this tag (in OTRv4: it signed this tag in its profile), even if somebody on the network changes the tags in the headers of messages.", "quantifier": "every history of two clients, and every change of the headers of their messages", "why_tests_cant": "universal over all histories and all alterations", "anchors": ["src/session.rs: handle_encoded_message, verify_encoded_message_header", "src/dake.rs: generate phi from profile owner tags", "src/messages.rs: encode_authenticator_data, encode_authenticator_data4"]}
{"id": "C115", "title": "A signature of the OTRv4 key exchange is accepted in one exchange only", "statement": "If two OTRv4 clients, or one client twice, accept Auth-R messages with the same signature, or the same Auth-I message, then the two exchanges are the same in every part: the profiles, all eight public keys and the account names on both sides. A signature taken from an Auth-R message is not accepted in an Auth-I message. The only way out is a collision of the hash function between byte strings that the statement names.", "quantifier": "every two histories of clients, all messages, all random numbers, every hash function", "why_tests_cant": "universal over all pairs of exchanges and all bytes", "anchors": ["src/dake.rs: handle_auth_r, handle_auth_i, generate_phi", "src/crypto.rs: ed448 RingSignature::verify"]}
{"id": "C116", "title": "Nothing a client does depends on the order in which its instances are kept", "statement": "The contacts of an account, the instances of a contact, and the OTRv4 messages of which only some fragments arrived, are kept in hash maps, whose order is random. In whatever order they are gone through, each time, the calls return the same, the same messages are sent and the same instances result. Only the order of the list of instances, and the order in which the messages of expiring sessions are sent, may differ.", "quantifier": "every history of calls, every order of the instances before every call", "why_tests_cant": "universal over all histories and all orders of a randomised map", "anchors": ["src/session.rs: Account.sessions, Session.instances, expire, has_sessions", "src/fragment.rs: UnorderedAssembler::assemble"]}
{"id": "C117", "title": "A signature of the OTRv3 key exchange is accepted in the exchange it was made in", "statement": "If an OTRv3 client accepts a signature that the owner of the reported long-term key made in some exchange, then it is the same exchange: the owner used the D-H public key that the client received, received the one the client sent, has the same shared secret and played the other role. The only ways out are one number signed for two different texts, or a hash collision, both between byte strings that the statement names.", "quantifier": "every history of both clients, all messages, all random numbers, every MAC and hash function", "why_tests_cant": "universal over all pairs of exchanges and all bytes", "anchors": ["src/ake.rs: handle_dhkey, handle_reveal_signature, handle_signature", "src/crypto.rs: dsa sign, validate, prehash"]}
{"id": "C118", "title": "The OTRv3 key in a client profile vouches for that profile", "statement": "A client profile that names an OTRv3 key is accepted only if the owner of that key signed this profile. In particular a signature that the owner made for another profile, or in an OTRv3 key exchange, is not accepted in it.", "quantifier": "every profile, every identity key, every OTRv3 key, every signature made for any text", "why_tests_cant": "universal over all profiles and all texts ever signed", "anchors": ["src/clientprofile.rs: ClientProfile::sign, ClientProfilePayload::validate", "src/crypto.rs: dsa prehash, sign, validate"]}
{"id": "C119", "title": "A signature of a profile cannot be changed, and does not expose the identity key", "statement": "For a given identity key, text and first half of an EdDSA signature, at most one second half is accepted. A client that signs different texts uses different first halves, unless the hash function gives the same number modulo the group order for two different byte strings, that are named. This is needed: two accepted signatures with the same first half and different challenges give the private key.", "quantifier": "every key, all texts, all byte strings, every hash function", "why_tests_cant": "universal over all keys, texts and signatures", "anchors": ["src/crypto.rs: ed448::validate, EdDSAKeyPair::sign"]}
{"id": "C120", "title": "An encrypted message tells nothing about its text but the length", "statement": "What a client sends for a text in an encrypted session, and what it becomes, would be the same for every other text of the same length if the key stream of the cipher were another for the key of that message; for each text exactly one key stream fits, so that the message excludes none. This holds for whole OTRv4 conversations too: all messages in both directions fit all other texts of the same lengths. So nothing outside the cipher (headers, authenticators, revealed keys, later keys) depends on the texts.", "quantifier": "every session state, every text and every other text of the same length; every log of an OTRv4 session since its key exchange and every other list of texts of the same lengths", "why_tests_cant": "universal over all pairs of texts and all key streams; a test sees one ciphertext at a time", "anchors": ["src/protocol.rs: EncryptedOTR3State::encrypt_message, EncryptedOTR4State::encrypt_message, decrypt_message", "src/crypto.rs: aes128, chacha20", "src/session.rs: send"]}
{"id": "C121", "title": "An OTRv3 key exchange does not show who takes part in it", "statement": "Whoever only sees the four messages of an OTRv3 key exchange cannot exclude any pair of participants whose keys are as long: for all other owners of working DSA keys there are key streams of the cipher, for the two keys that encrypt the identities, with which these owners exchange the very same four messages, accept them and each other, and are in the same states. So neither the signatures nor the MACs of the messages depend on the long-term keys other than through what is encrypted.", "quantifier": "every completed OTRv3 key exchange, begun in any state, and every other pair of DSA keys of the same length", "why_tests_cant": "universal over all pairs of participants and all key streams; a test sees one exchange at a time", "anchors": ["src/ake.rs: AKEContext::handle_dhkey, handle_reveal_signature, handle_signature", "src/crypto.rs: AKESecrets::derive, aes128"]}
