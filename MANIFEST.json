{
 "claims": [
  {
   "property": "C01",
   "status": "proved",
   "theorems": [
    "Otrr.Props.C01_integers_roundtrip",
    "Otrr.Props.C01_big_endian",
    "Otrr.Props.C01_instance_tag_roundtrip",
    "Otrr.Props.C01_data_roundtrip",
    "Otrr.Props.C01_mpi_roundtrip",
    "Otrr.Props.C01_mpi_minimal",
    "Otrr.Props.C01_mpi_sequence_roundtrip",
    "Otrr.Props.C01_tlv_roundtrip",
    "Otrr.Props.C01_tlv_list_roundtrip",
    "Otrr.Props.C01_text_roundtrip",
    "Otrr.Props.C01_fixed_roundtrip",
    "Otrr.Props.C01_public_key_roundtrip",
    "Otrr.Props.C01_signature_roundtrip",
    "Otrr.Props.C01_point_scalar_ring_roundtrip"
   ],
   "note": ""
  },
  {
   "property": "C02",
   "status": "partial",
   "theorems": [
    "Otrr.Props.C02_primitive_readers_total",
    "Otrr.Props.C02_rest_readers_total",
    "Otrr.Props.C02_key_readers_total",
    "Otrr.Props.C02_violated_scalar",
    "Otrr.Props.C02_scalar_partial",
    "Otrr.Props.C02_message_readers_total"
   ],
   "note": "false of the code for one reader: 57 zero bytes read as a scalar panic; proved for all other readers"
  },
  {
   "property": "C03",
   "status": "proved",
   "theorems": [
    "Otrr.Props.C03_transport",
    "Otrr.Props.C03_transport_ed448",
    "Otrr.Props.C03_base64"
   ],
   "note": "well-formed: sizes fit their fields, key ids and ring scalars are not 0, points are on the curve, the profile validates"
  },
  {
   "property": "C04",
   "status": "proved",
   "theorems": [
    "Otrr.Props.C04_fragment_text_roundtrip"
   ],
   "note": "for every valid fragment of either version"
  },
  {
   "property": "C05",
   "status": "proved",
   "theorems": [
    "Otrr.Props.C05_fragmentation_v3",
    "Otrr.Props.C05_fragmentation_v4"
   ],
   "note": "hypotheses name the limits the code itself imposes: at most 65535 parts, pieces of at most 250 KiB, content at most 100 MiB for OTRv4"
  },
  {
   "property": "C06",
   "status": "proved",
   "theorems": [
    "Otrr.Props.C06_any_order"
   ],
   "note": "at most 100 messages in play; beyond that the code evicts"
  },
  {
   "property": "C07",
   "status": "partial",
   "theorems": [
    "Otrr.Props.C07_in_order_only",
    "Otrr.Props.C07_ill_formed_ignored",
    "Otrr.Props.C07_no_panic_partial",
    "Otrr.Props.C07_panic_after_65535_parts"
   ],
   "note": "delivery condition proved in full; panic freedom is false for messages of 65535 parts (witness proved) and proved for all others"
  },
  {
   "property": "C08",
   "status": "proved",
   "theorems": [
    "Otrr.Props.C08_bounded",
    "Otrr.Props.C08_assertions_hold"
   ],
   "note": ""
  },
  {
   "property": "C09",
   "status": "partial",
   "theorems": [
    "Otrr.Props.C09_violated",
    "Otrr.Props.C09_violated_unicode",
    "Otrr.Props.C09_no_panic_partial",
    "Otrr.Props.C09_exact"
   ],
   "note": "the property is false of the code: two families of witnesses proved; C09_exact says exactly which texts crash; the partial theorem covers all other ASCII inputs"
  },
  {
   "property": "C10",
   "status": "partial",
   "theorems": [
    "Otrr.Props.C10_violated",
    "Otrr.Props.C10_partial",
    "Otrr.Props.C10_exact"
   ],
   "note": "false of the code: ?OTR? and a whitespace prefix without tag panic; proved for all other text; C10_exact says exactly which texts crash"
  },
  {
   "property": "C100",
   "status": "proved",
   "theorems": [
    "Otrr.Props.C100_forged",
    "Otrr.Props.C100_reported",
    "Otrr.Props.C100_sendable",
    "Otrr.Props.C100_published3",
    "Otrr.Props.C100_published4",
    "Otrr.Props.C100_end4"
   ],
   "note": "The forger uses only the message, its text, and the MAC key (Spec/Deniable.lean). Texts have no NUL byte, and the forged MAC must not be all zero bytes, which clients reject. A session that the peer ends forgets keys without revealing them; see C108 for sessions that the client ends."
  },
  {
   "property": "C101",
   "status": "proved",
   "theorems": [
    "Otrr.Props.C101_begins",
    "Otrr.Props.C101_answers"
   ],
   "note": "The one who makes the messages up uses the published profile of the other and keys of their own (Spec/DeniableKex.lean); profiles accepted at the time. That the signature is accepted does not make it look the same as one by the peer: see C98 for what a signature of this code tells about the key that made it."
  },
  {
   "property": "C102",
   "status": "partial",
   "theorems": [
    "Otrr.Props.C102_loop",
    "Otrr.Props.C102_bounded_partial",
    "Otrr.Props.C102_violated"
   ],
   "note": "False of the code: the loop runs before the authenticator is checked, so anyone who changes the message id of a message makes the client do up to 2^32 - 1 key derivations, again and again. Proved: the loop ends without a crash after exactly the number of rounds that the model makes; the number for every message; for accepted messages it is the number of ids passed over."
  },
  {
   "property": "C103",
   "status": "partial",
   "theorems": [
    "Otrr.Props.C103_ratchet_partial",
    "Otrr.Props.C103_began",
    "Otrr.Props.C103_violated",
    "Otrr.Props.C103_violated_began"
   ],
   "note": "False of the code for the client that answers the key exchange: the state that waits for the Auth-I message, with the secret of the exchange and the private keys of the first ratchet, stays after the exchange is complete (and after the session ended), and opens every message that the client sent before it first received one (C103_violated). Proved: the ratchet itself keeps no root or chain key from which a key of an earlier message follows by the key schedule, even given all secrets of the key agreements; and the context of the client that began the exchange erases its state (C103_began), but only in the instance of the peer: the session keeps the context of the offer under tag 0, and it opens messages that the client read, even after the session ended (C103_violated_began). What can be computed is meant symbolically: by the derivations of the schedule, not by inverting the hash function."
  },
  {
   "property": "C104",
   "status": "partial",
   "theorems": [
    "Otrr.Props.C104_keys",
    "Otrr.Props.C104_forgets",
    "Otrr.Props.C104_session",
    "Otrr.Props.C104_exchange",
    "Otrr.Props.C104_violated"
   ],
   "note": "False of the session of the client that began the exchange: the context of its offer, with the private key, stays under tag 0 after the exchange is complete, and opens the messages of the first key pair even after the session ended (C104_violated). Proved for the session state of the data messages and for the AKE context of the peer. That a private key is gone is meant up to two key pairs being equal by chance (explicit hypothesis in C104_forgets). Messages of the current key pairs can be opened by who gets hold of the state: this is so in the protocol."
  },
  {
   "property": "C105",
   "status": "proved",
   "theorems": [
    "Otrr.Props.C105_otr3",
    "Otrr.Props.C105_otr4",
    "Otrr.Props.C105_session",
    "Otrr.Props.C105_ssid"
   ],
   "note": "Up to a collision of the hash, modulo the group order, of the two inputs at hand (explicit hypothesis); numbers and points in the messages not degenerate, as in C50/C51. That the sessions of a man in the middle have other SSIDs or fingerprints is what makes the views differ; it is not assumed."
  },
  {
   "property": "C106",
   "status": "proved",
   "theorems": [
    "Otrr.Props.C106_heals",
    "Otrr.Props.C106_session",
    "Otrr.Props.C106_otr3",
    "Otrr.Props.C106_otr3_order",
    "Otrr.Props.C106_otr3_session"
   ],
   "note": "What can be computed is meant symbolically, as in C103. A thief who is also in the middle afterwards can announce keys of their own to the client (they have the MAC keys): the secret of the new ratchet is then one that they know; the theorem says that nothing but this secret helps. C106_session: every history of a session is one to which C106_heals applies."
  },
  {
   "property": "C107",
   "status": "partial",
   "theorems": [
    "Otrr.Props.C107_violated",
    "Otrr.Props.C107_violated_asking",
    "Otrr.Props.C107_violated_case",
    "Otrr.Props.C107_otr3_partial",
    "Otrr.Props.C107_otr3_asking_partial"
   ],
   "note": "False of the code in OTRv4: random scalars always have their second lowest bit set (see C98), and message 2 and message 3 contain such a scalar minus the public challenge times the number of the secret. Whoever has the message can subtract a guess and see whether this bit is set: each message excludes about half of all secrets, offline, and never the right one. OTRv3: the answers are compatible with every secret, equally; missing are the other numbers of the messages, which hide the secret only as far as the discrete logarithm is hard."
  },
  {
   "property": "C108",
   "status": "proved",
   "theorems": [
    "Otrr.Props.C108_otr3",
    "Otrr.Props.C108_otr4",
    "Otrr.Props.C108_ends"
   ],
   "note": "A session that the peer ends is not covered: the client sends nothing then, and forgets the keys of the messages since its last one. With OTRv3 keys are published early, while they are still accepted (see C41)."
  },
  {
   "property": "C109",
   "status": "partial",
   "theorems": [
    "Otrr.Props.C109_violated_general",
    "Otrr.Props.C109_violated",
    "Otrr.Props.C109_violated_session",
    "Otrr.Props.C109_otr4",
    "Otrr.Props.C109_otr4_session"
   ],
   "note": "False of the code in OTRv3: the key of the message that first uses a key pair is published with the next message, but the client accepts messages with it until the rotation after, and the counter starts again. Anybody who knows the text of the message can write one with another text of the same length, and the client reports it as one of the peer (C109_violated_session: the whole attack by calls of the API and the two texts on the network). With OTRv4 it holds, unless there is a collision."
  },
  {
   "property": "C11",
   "status": "proved",
   "theorems": [
    "Otrr.Props.C11_plaintext",
    "Otrr.Props.C11_tagged"
   ],
   "note": "at the level of classification; the session part is C17"
  },
  {
   "property": "C110",
   "status": "partial",
   "theorems": [
    "Otrr.Props.C110_violated_otr4_general",
    "Otrr.Props.C110_sum",
    "Otrr.Props.C110_violated_otr4",
    "Otrr.Props.C110_violated_otr3",
    "Otrr.Props.C75_otr4",
    "Otrr.Props.C75_otr3"
   ],
   "note": "False of the code: a replayed Auth-I message (OTRv4), or replayed D-H Key and Signature messages (OTRv3, to the client that began), restart the session with the same keys, and the next text is encrypted with the key stream of the first. Anybody on the network gets the sum of two texts. Within a session, from one session start to the next, it holds (C75)."
  },
  {
   "property": "C111",
   "status": "partial",
   "theorems": [
    "Otrr.Props.C111_violated_answered",
    "Otrr.Props.C111_violated_began",
    "Otrr.Props.C111_violated_otr3",
    "Otrr.Props.C76_replay"
   ],
   "note": "False of the code: after the replay of the last messages of the key exchange of the peer, the messages of the session can be replayed, and are reported a second time. Within an OTRv4 session it holds (C76)."
  },
  {
   "property": "C112",
   "status": "proved",
   "theorems": [
    "Otrr.Props.C112_covered",
    "Otrr.Props.C112_checked",
    "Otrr.Props.C112_altered"
   ],
   "note": "The list of old keys that a message publishes is not covered, as in the protocol. That an altered message is refused holds unless the two named keys give the same authenticator to two different byte strings (no assumption on the hash functions is made)."
  },
  {
   "property": "C113",
   "status": "partial",
   "theorems": [
    "Otrr.Props.C113_partial",
    "Otrr.Props.C113_violated",
    "Otrr.Props.C113_violated_session"
   ],
   "note": "False of the code: a query that offers OTRv3 only, from anybody, makes two clients that allow OTRv4 complete the OTRv3 exchange (a query is not authenticated, and nothing in the exchange tells which versions the other allows). Proved: an OTRv4 session is never replaced by an OTRv3 session; it must have ended in between."
  },
  {
   "property": "C114",
   "status": "partial",
   "theorems": [
    "Otrr.Props.C114_text_partial",
    "Otrr.Props.C114_violated_otr3",
    "Otrr.Props.C114_violated_otr4"
   ],
   "note": "False of the code for sessions: the tags in the headers of key-exchange messages are not authenticated, and the sender tag is not compared with the tag in the OTRv4 profile. Who changes them makes a client report a session with a tag that the peer does not have, in which nothing can be read. Proved for texts: the tag of a reported text is the one that its sender authenticated, unless the named keys give two different byte strings the same authenticator."
  },
  {
   "property": "C115",
   "status": "proved",
   "theorems": [
    "Otrr.Props.C115_transcriptR",
    "Otrr.Props.C115_transcriptI",
    "Otrr.Props.C115_distinct",
    "Otrr.Props.C115_authR",
    "Otrr.Props.C115_authI"
   ],
   "note": "Unless two byte strings, that the theorem names, have the same hash. The messages fit the wire format and the account names are shorter than 4 GB."
  },
  {
   "property": "C116",
   "status": "proved",
   "theorems": [
    "Otrr.Props.C116_call",
    "Otrr.Props.C116_expire",
    "Otrr.Props.C116_answers",
    "Otrr.Props.C116_history",
    "Otrr.Props.C116_parts",
    "Otrr.Props.C116_account"
   ],
   "note": "For the map of instances, the map of sessions of an account, and the map of unfinished OTRv4 messages, of which the eldest is dropped. When sessions expire, each instance gets the same random numbers in both orders."
  },
  {
   "property": "C117",
   "status": "proved",
   "theorems": [
    "Otrr.Props.C117_reveal",
    "Otrr.Props.C117_signature",
    "Otrr.Props.C117_signs_reveal",
    "Otrr.Props.C117_signs_signature"
   ],
   "note": "That nobody but the owner makes signatures is a hypothesis: the number that is verified is one that the owner signed in an exchange. The first two theorems say what follows, the last two what the owner signs."
  },
  {
   "property": "C118",
   "status": "partial",
   "theorems": [
    "Otrr.Props.C118_partial",
    "Otrr.Props.C118_transplant",
    "Otrr.Props.C118_violated"
   ],
   "note": "False of the code: the text of the profile is not hashed but reduced modulo the order of the DSA group (prehash, src/crypto.rs 532-534), so that a signature made for any text, even in an OTRv3 key exchange, fits every profile with the same remainder. The list of versions may be long and gives enough freedom to choose the remainder, as the witness shows. Proved is that the remainder is the signed one."
  },
  {
   "property": "C119",
   "status": "proved",
   "theorems": [
    "Otrr.Props.C119_unique",
    "Otrr.Props.C119_nonce",
    "Otrr.Props.C119_exposed"
   ],
   "note": "For every curve whose base point has prime order, as Ed448 has (ed448_smpCurve)."
  },
  {
   "property": "C12",
   "status": "partial",
   "theorems": [
    "Otrr.Props.C12_query",
    "Otrr.Props.C12_violated",
    "Otrr.Props.C12_tag_partial"
   ],
   "note": "queries proved; tags with two versions are false of the code (only the last is read); single-version tags proved"
  },
  {
   "property": "C120",
   "status": "proved",
   "theorems": [
    "Otrr.Props.C120_otr3",
    "Otrr.Props.C120_otr4",
    "Otrr.Props.C120_session",
    "Otrr.Props.C120_conversation"
   ],
   "note": "Relative to the key stream: that the streams of AES and ChaCha20 look random is an assumption about the ciphers, which are parameters. C120_conversation needs that the inputs of the key derivation do not collide. NUL bytes do not count, since they are not sent. For OTRv3 the claim is about single messages: keys are used again there after counters restart (C37, C110)."
  },
  {
   "property": "C121",
   "status": "proved",
   "theorems": [
    "Otrr.Props.C121_anonymous"
   ],
   "note": "For observers: a client that takes part learns the identity of the other. Relative to the key stream, as C120. Assumed: the two keys for the identities and the key that is revealed differ. OTRv4 is not covered: there the profiles are sent unencrypted."
  },
  {
   "property": "C13",
   "status": "proved",
   "theorems": [
    "Otrr.Props.C13_header"
   ],
   "note": ""
  },
  {
   "property": "C14",
   "status": "proved",
   "theorems": [
    "Otrr.Props.C14_receive",
    "Otrr.Props.C14_send"
   ],
   "note": ""
  },
  {
   "property": "C15",
   "status": "proved",
   "theorems": [
    "Otrr.Props.C15_no_leak",
    "Otrr.Props.C15_needs_version"
   ],
   "note": "For policies that allow some version. If none is allowed, required encryption has no effect (C15_needs_version, and C14 says so too)."
  },
  {
   "property": "C16",
   "status": "proved",
   "theorems": [
    "Otrr.Props.C16_finished",
    "Otrr.Props.C16_encrypted"
   ],
   "note": "A panic (C43, C66) is the only other outcome; it sends nothing."
  },
  {
   "property": "C17",
   "status": "partial",
   "theorems": [
    "Otrr.Props.C17_plaintext",
    "Otrr.Props.C17_tagged_partial",
    "Otrr.Props.C17_violated"
   ],
   "note": "Proved for plaintext. For tagged messages false of the code: if the tag makes the client start a key exchange and that fails (OTRv4, second tag), the text is lost."
  },
  {
   "property": "C18",
   "status": "proved",
   "theorems": [
    "Otrr.Props.C18_message",
    "Otrr.Props.C18_fragment"
   ],
   "note": ""
  },
  {
   "property": "C19",
   "status": "proved",
   "theorems": [
    "Otrr.Props.C19_version"
   ],
   "note": ""
  },
  {
   "property": "C20",
   "status": "proved",
   "theorems": [
    "Otrr.Props.C20_instances"
   ],
   "note": ""
  },
  {
   "property": "C21",
   "status": "proved",
   "theorems": [
    "Otrr.Props.C21_started",
    "Otrr.Props.C21_reported"
   ],
   "note": "What the final message of a key exchange was checked for is C29 and C34."
  },
  {
   "property": "C22",
   "status": "proved",
   "theorems": [
    "Otrr.Props.C22_end_encrypted",
    "Otrr.Props.C22_end_other",
    "Otrr.Props.C22_disconnect",
    "Otrr.Props.C22_finished",
    "Otrr.Props.C22_reported",
    "Otrr.Props.C22_plaintext",
    "Otrr.Props.C22_ended"
   ],
   "note": ""
  },
  {
   "property": "C23",
   "status": "proved",
   "theorems": [
    "Otrr.Props.C23_expire"
   ],
   "note": ""
  },
  {
   "property": "C24",
   "status": "proved",
   "theorems": [
    "Otrr.Props.C24_once",
    "Otrr.Props.C24_only",
    "Otrr.Props.C24_first"
   ],
   "note": "The flag is kept per session in the code, so the tag is sent once per session, to whichever instance comes first."
  },
  {
   "property": "C25",
   "status": "proved",
   "theorems": [
    "Otrr.Props.C25_plain",
    "Otrr.Props.C25_text",
    "Otrr.Props.C16_encrypted"
   ],
   "note": "C16_encrypted says that the content sent is the content without NUL bytes."
  },
  {
   "property": "C26",
   "status": "partial",
   "theorems": [
    "Otrr.Props.C26_none",
    "Otrr.Props.C26_tag_none",
    "Otrr.Props.C26_query_partial",
    "Otrr.Props.C26_tag_partial",
    "Otrr.Props.C26_violated"
   ],
   "note": "False of the code: an OTRv4 exchange that was opened without a receiver is never closed, so that the next offer of OTRv4 is answered with an error. Proved for clients that opened no such exchange before, and always for OTRv3."
  },
  {
   "property": "C27",
   "status": "partial",
   "theorems": [
    "Otrr.Props.C27_partial",
    "Otrr.Props.C27_violated"
   ],
   "note": "False of the code: in an encrypted OTRv4 session the end of an OTRv3 exchange crashes the client. Proved in all other states."
  },
  {
   "property": "C28",
   "status": "proved",
   "theorems": [
    "Otrr.Props.C28_agree",
    "Otrr.Props.C28_session"
   ],
   "note": "Delivered unmodified, all four messages are accepted and SSID, long-term keys, D-H keys and data-message keys agree; the sessions are the starting point of C37. Assumed: working DSA keys, D-H public keys in range, hash and MACs not all zero (the code rejects all-zero values)."
  },
  {
   "property": "C29",
   "status": "proved",
   "theorems": [
    "Otrr.Props.C29_reveal",
    "Otrr.Props.C29_signature"
   ],
   "note": "Over every history of received messages. Unforgeability of MAC and DSA is not modelled: the theorem says what is checked."
  },
  {
   "property": "C30",
   "status": "proved",
   "theorems": [
    "Otrr.Props.C30_one_yields",
    "Otrr.Props.C30_completes"
   ],
   "note": "For different hashes (equal hashes mean equal keys or a SHA-256 collision; then both yield)."
  },
  {
   "property": "C31",
   "status": "partial",
   "theorems": [
    "Otrr.Props.C31_unchanged",
    "Otrr.Props.C31_ignored",
    "Otrr.Props.C31_accepted",
    "Otrr.Props.C31_violated"
   ],
   "note": "Proved for the AKE context that a message is handed to. False of the session: a D-H Key message makes the instance of its sender adopt the context of the offer (src/ake.rs transfer, src/session.rs 344-359) whatever exchange is under way there, so a D-H Key message that does not belong to the exchange, which anybody can write, overwrites it, and the genuine Signature message is refused (C31_violated)."
  },
  {
   "property": "C32",
   "status": "partial",
   "theorems": [
    "Otrr.Props.C32_partial",
    "Otrr.Props.C32_violated"
   ],
   "note": "False as stated: the D-H Key is repeated but the old commitment is kept, so the Reveal Signature for the new one is rejected (src/ake.rs 120-128)."
  },
  {
   "property": "C33",
   "status": "proved",
   "theorems": [
    "Otrr.Props.C33_agree",
    "Otrr.Props.C33_first_messages"
   ],
   "note": "For clients whose keys are pairwise different where a signature needs it and signatures whose challenge is not 0 modulo q. The first data messages: C33_first_messages puts the pair into the states for which C47_calm proves delivery; it needs the fresh D-H key of the first rotation to differ from the first-ratchet key."
  },
  {
   "property": "C34",
   "status": "proved",
   "theorems": [
    "Otrr.Props.C34_authR",
    "Otrr.Props.C34_authI"
   ],
   "note": ""
  },
  {
   "property": "C35",
   "status": "partial",
   "theorems": [
    "Otrr.Props.C35_partial",
    "Otrr.Props.C35_replay",
    "Otrr.Props.C35_violated",
    "Otrr.Props.C111_violated_began"
   ],
   "note": "False of the code for the client that receives Auth-I: src/dake.rs handle_auth_i does not leave its state, so the same Auth-I completes the exchange again. Proved for the context that receives Auth-R; but the session keeps the context of the offer under tag 0 and hands it to the instance of the sender again with every Auth-R message (src/dake.rs transfer), so a replayed Auth-R message restarts the session as well: C111_violated_began shows such a history."
  },
  {
   "property": "C36",
   "status": "partial",
   "theorems": [
    "Otrr.Props.C36_violated",
    "Otrr.Props.C36_decode_partial",
    "Otrr.Props.C02_message_readers_total",
    "Otrr.Props.C36_identity_partial",
    "Otrr.Props.C36_authR_partial",
    "Otrr.Props.C36_authI_partial",
    "Otrr.Props.C36_identity_crash",
    "Otrr.Props.C36_challenge_crash"
   ],
   "note": "False of the code: a zero scalar, a ring signature whose challenges sum to zero, or our own identity key used as ephemeral or forging key panics. Proved for all other messages."
  },
  {
   "property": "C37",
   "status": "partial",
   "theorems": [
    "Otrr.Props.C37_partial",
    "Otrr.Props.C37_partial'",
    "Otrr.Props.C37_turns",
    "Otrr.Props.C37_before_reply",
    "Otrr.Props.C37_violated"
   ],
   "note": "false of the code: after a reply the counter of the sender restarts while the receiver still expects a larger one; proved: any schedule ends in intact delivery or rejection for the counter; intact delivery for clients that take turns and until the first reply"
  },
  {
   "property": "C38",
   "status": "proved",
   "theorems": [
    "Otrr.Props.C38_counters"
   ],
   "note": ""
  },
  {
   "property": "C39",
   "status": "partial",
   "theorems": [
    "Otrr.Props.C39_violated",
    "Otrr.Props.C39_partial",
    "Otrr.Props.C39_no_new_keys_partial"
   ],
   "note": "false of the code: a message that introduced a new key is accepted a second time; never a third time, and never again if it introduced no key"
  },
  {
   "property": "C40",
   "status": "proved",
   "theorems": [
    "Otrr.Props.C40_forged"
   ],
   "note": ""
  },
  {
   "property": "C41",
   "status": "partial",
   "theorems": [
    "Otrr.Props.C41_violated",
    "Otrr.Props.C41_partial"
   ],
   "note": "false of the code: keys are accepted after they were revealed and revealed twice; proved: revealed keys verified an earlier message"
  },
  {
   "property": "C42",
   "status": "proved",
   "theorems": [
    "Otrr.Props.C42_own_window",
    "Otrr.Props.C42_peer_window",
    "Otrr.Props.C42_outside",
    "Otrr.Props.C42_ids",
    "Otrr.Props.C42_accepted"
   ],
   "note": ""
  },
  {
   "property": "C43",
   "status": "partial",
   "theorems": [
    "Otrr.Props.C43_violated_empty",
    "Otrr.Props.C43_violated_key",
    "Otrr.Props.C43_send_partial",
    "Otrr.Props.C43_receive_partial"
   ],
   "note": "false of the code: the empty message, and an announced key 0; C43_send_partial says exactly when a send panics (Spec.Stuck3), C43_receive_partial exactly when a receive does (Spec.Fatal3)"
  },
  {
   "property": "C44",
   "status": "proved",
   "theorems": [
    "Otrr.Props.C44_ids",
    "Otrr.Props.C44_distinct"
   ],
   "note": "Over every history of sends, disconnects and receptions of arbitrary messages the ids of sent messages increase strictly."
  },
  {
   "property": "C45",
   "status": "proved",
   "theorems": [
    "Otrr.Props.C45_no_effect",
    "Otrr.Props.C45_current",
    "Otrr.Props.C45_authentic"
   ],
   "note": "Unreadable messages leave the state as it was; every other outcome implies the id, ratchet, key and authenticator checks. A panic (message id 2^32-1 from an authenticated peer) is not an outcome of these theorems, see C66."
  },
  {
   "property": "C46",
   "status": "proved",
   "theorems": [
    "Otrr.Props.C46_replay"
   ],
   "note": "Every later delivery of a message with the ids of an accepted one is unreadable and without effect."
  },
  {
   "property": "C47",
   "status": "partial",
   "theorems": [
    "Otrr.Props.C47_partial",
    "Otrr.Props.C47_partial'",
    "Otrr.Props.C47_calm",
    "Otrr.Props.C47_calm'",
    "Otrr.Props.C47_violated"
   ],
   "note": "False as stated: after the receiver rotated its own keys, messages of the peer's current ratchet are rejected even in order. Proved exactly when a message is readable, and that all are if clients do not send while messages to them are under way."
  },
  {
   "property": "C48",
   "status": "proved",
   "theorems": [
    "Otrr.Props.C48_validate",
    "Otrr.Props.C48_sent",
    "Otrr.Props.C48_rejected",
    "Otrr.Props.C48_crash"
   ],
   "note": "The check is characterised, everything sent passes it, and the session rejects messages that do not pass it without effect. An authenticator that is all zero crashes the client in the check itself (C48_crash)."
  },
  {
   "property": "C49",
   "status": "proved",
   "theorems": [
    "Otrr.Props.C49_spent",
    "Otrr.Props.C49_increasing",
    "Otrr.Props.C49_once"
   ],
   "note": "Revealed keys are exactly the keys of accepted messages, in order, once each; accepted ids increase; the keys of accepted messages differ, unless two inputs of the key derivation collide under the hash function (an explicit hypothesis on the finite list of these inputs)."
  },
  {
   "property": "C50",
   "status": "partial",
   "theorems": [
    "Otrr.Props.C50_otr3",
    "Otrr.Props.C50_otr4",
    "Otrr.Props.C50_question_violated"
   ],
   "note": "Proved for OTRv4 and, for questions without NUL bytes, for OTRv3; with a NUL in the question the OTRv3 exchange aborts. Conditions on random numbers (no zero, no identity) are explicit. The laws of the curve are proved for Ed448 (ed448_smpCurve)."
  },
  {
   "property": "C51",
   "status": "proved",
   "theorems": [
    "Otrr.Props.C51_otr3",
    "Otrr.Props.C51_otr4",
    "Otrr.Props.C51_responder",
    "Otrr.Props.C51_initiator",
    "Otrr.Props.C51_otr4_responder",
    "Otrr.Props.C51_otr4_initiator"
   ],
   "note": "For honest peers, and for peers whose messages have the form that the zero-knowledge proofs in them claim (soundness of the proofs is an assumption)."
  },
  {
   "property": "C52",
   "status": "partial",
   "theorems": [
    "Otrr.Props.C52_otr3_restart",
    "Otrr.Props.C52_otr3_reject",
    "Otrr.Props.C52_otr3_abort",
    "Otrr.Props.C52_otr4_restart_partial",
    "Otrr.Props.C52_otr4_reject_partial",
    "Otrr.Props.C52_otr4_abort",
    "Otrr.Props.C52_otr4_violated"
   ],
   "note": "Proved for OTRv3. False for OTRv4: a zero scalar crashes the client; proved for all messages that do not crash it."
  },
  {
   "property": "C53",
   "status": "partial",
   "theorems": [
    "Otrr.Props.C53_otr3",
    "Otrr.Props.C53_otr4_partial",
    "Otrr.Props.C53_otr4_violated"
   ],
   "note": "Proved for OTRv3. False for OTRv4: the points Pb, Qb in message 2 are not checked, the identity is accepted; everything else is checked."
  },
  {
   "property": "C54",
   "status": "partial",
   "theorems": [
    "Otrr.Props.C54_otr3_reply",
    "Otrr.Props.C54_otr3",
    "Otrr.Props.C54_session3",
    "Otrr.Props.C54_otr4_reply_partial",
    "Otrr.Props.C54_otr4_partial",
    "Otrr.Props.C54_otr4_violated",
    "Otrr.Props.C54_session4_violated"
   ],
   "note": "Proved for OTRv3. False for OTRv4: an abort is answered with an abort, without end; proved for exchanges without aborts."
  },
  {
   "property": "C55",
   "status": "proved",
   "theorems": [
    "Otrr.Props.C55_otr3",
    "Otrr.Props.C55_otr4"
   ],
   "note": ""
  },
  {
   "property": "C56",
   "status": "proved",
   "theorems": [
    "Otrr.Props.C56_payload_roundtrip",
    "Otrr.Props.C56_fresh_profile_accepted"
   ],
   "note": "signature edge cases as in C63; correctness of the DSA library is a hypothesis"
  },
  {
   "property": "C57",
   "status": "partial",
   "theorems": [
    "Otrr.Props.C57_partial",
    "Otrr.Props.C57_violated"
   ],
   "note": "everything but one corner: an empty versions field may be duplicated"
  },
  {
   "property": "C58",
   "status": "partial",
   "theorems": [
    "Otrr.Props.C58_partial",
    "Otrr.Props.C58_violated"
   ],
   "note": "False of the code: validating a received profile does not look at the expiration time (src/clientprofile.rs ClientProfilePayload::validate). Only own profiles are checked."
  },
  {
   "property": "C59",
   "status": "proved",
   "theorems": [
    "Otrr.Props.C59_ranges",
    "Otrr.Props.C59_range_3072"
   ],
   "note": "with the constants of the code; which handlers apply the check is part of C29, C34, C53"
  },
  {
   "property": "C60",
   "status": "proved",
   "theorems": [
    "Otrr.Props.C60_ring_signature",
    "Otrr.Props.C60_ring_signature_ed448"
   ],
   "note": "for every curve of this shape and for Ed448 itself; a transcript hash that is a multiple of q is excluded because the code rejects it"
  },
  {
   "property": "C61",
   "status": "partial",
   "theorems": [
    "Otrr.Props.C61_point_roundtrip",
    "Otrr.Props.C61_violated",
    "Otrr.Props.C61_canonical_partial"
   ],
   "note": "round trip proved; canonicity is false of the code (the low seven bits of the last byte are ignored)"
  },
  {
   "property": "C62",
   "status": "proved",
   "theorems": [
    "Otrr.Props.C62_compare",
    "Otrr.Props.C62_compare_points"
   ],
   "note": ""
  },
  {
   "property": "C63",
   "status": "proved",
   "theorems": [
    "Otrr.Props.C63_eddsa",
    "Otrr.Props.C63_eddsa_ed448",
    "Otrr.Props.C63_public_key_accepted"
   ],
   "note": "a zero nonce or response is excluded because the code rejects it"
  },
  {
   "property": "C64",
   "status": "proved",
   "theorems": [
    "Otrr.Props.C64_mirrored",
    "Otrr.Props.C64_shared_secret",
    "Otrr.Props.C64_shared_point"
   ],
   "note": ""
  },
  {
   "property": "C65",
   "status": "partial",
   "theorems": [
    "Otrr.Props.C65_partial",
    "Otrr.Props.C65_stuck",
    "Otrr.Props.C65_violated"
   ],
   "note": "False of the code for the client that received Auth-I: its context stays in AwaitingAuthI and initiate fails in every later state."
  },
  {
   "property": "C66",
   "status": "partial",
   "theorems": [
    "Otrr.Props.C66_receive_partial",
    "Otrr.Props.C66_receive_hash_partial",
    "Otrr.Props.C66_send_partial",
    "Otrr.Props.C66_end_partial",
    "Otrr.Props.C66_overflow",
    "Otrr.Props.C66_violated"
   ],
   "note": "False of the code: a peer can crash the client with an authentic message that carries the largest message id. The partial theorems say exactly when a receive (Spec.Fatal4), a send and an end (Spec.Stuck4) panic: a counter at its end, a derived key or authenticator that is all zero, improper keys drawn."
  },
  {
   "property": "C67",
   "status": "proved",
   "theorems": [
    "Otrr.Props.C67_no_panic",
    "Otrr.Props.C67_needs_key"
   ],
   "note": "Also shows that without a DSA key pair an expected D-H Key message panics."
  },
  {
   "property": "C68",
   "status": "proved",
   "theorems": [
    "Otrr.Props.C68_first_parts",
    "Otrr.Props.C68_fresh"
   ],
   "note": "For histories in which the reassembler did not panic (a counter of 2^32 ticks)."
  },
  {
   "property": "C69",
   "status": "partial",
   "theorems": [
    "Otrr.Props.C69_violated",
    "Otrr.Props.C69_repeat",
    "Otrr.Props.C69_simultaneous_partial"
   ],
   "note": "The code violates this when the Identity message that the winner repeats arrives: the other answers it a second time with new keys, the winner completes with the first answer, and its Auth-I message is refused, so only the winner has a session. Proved: exactly one insists and the other yields, and the exchange completes with the same session if the repeated message does not arrive."
  },
  {
   "property": "C70",
   "status": "proved",
   "theorems": [
    "Otrr.Props.C70_reported",
    "Otrr.Props.C70_authentic"
   ],
   "note": ""
  },
  {
   "property": "C71",
   "status": "proved",
   "theorems": [
    "Otrr.Props.C71_unreadable"
   ],
   "note": ""
  },
  {
   "property": "C72",
   "status": "proved",
   "theorems": [
    "Otrr.Props.C72_smp",
    "Otrr.Props.C72_many"
   ],
   "note": "The alternative that the call panics remains (random numbers and lengths out of range, known defects); see C66 for when it does not."
  },
  {
   "property": "C73",
   "status": "proved",
   "theorems": [
    "Otrr.Props.C73_start",
    "Otrr.Props.C73_abort",
    "Otrr.Props.C73_refused"
   ],
   "note": "The alternative that the call panics remains (for instance a question of 64 KiB)."
  },
  {
   "property": "C74",
   "status": "proved",
   "theorems": [
    "Otrr.Props.C74_exchange4",
    "Otrr.Props.C74_talk4"
   ],
   "note": "Hypotheses on random draws (ephemeral keys not degenerate, no zero scalar in the ring signatures, a new D-H key differs from the old one) are explicit; a text is sent as one piece, C78 is about pieces. Bob has no other offer pending and Alice is not waiting for an answer of Bob."
  },
  {
   "property": "C75",
   "status": "proved",
   "theorems": [
    "Otrr.Props.C75_otr4",
    "Otrr.Props.C75_otr3"
   ],
   "note": ""
  },
  {
   "property": "C76",
   "status": "proved",
   "theorems": [
    "Otrr.Props.C76_replay"
   ],
   "note": "OTRv3 replays are a known defect, see C39."
  },
  {
   "property": "C77",
   "status": "proved",
   "theorems": [
    "Otrr.Props.C77_consent",
    "Otrr.Props.C77_exchange"
   ],
   "note": "The user is the host interface: it is asked for the secret with the question of the peer."
  },
  {
   "property": "C78",
   "status": "proved",
   "theorems": [
    "Otrr.Props.C78_fragments3",
    "Otrr.Props.C78_fragments4"
   ],
   "note": "The sizes that the reassembler accepts are hypotheses: at most 65535 pieces of at most 250 KiB each, for OTRv4 at most 100 MiB, fewer than 100 other incomplete messages of that peer, another identifier than theirs, and no overflow of the counter of fragments (C08)."
  },
  {
   "property": "C79",
   "status": "proved",
   "theorems": [
    "Otrr.Props.C79_restart",
    "Otrr.Props.C79_restored"
   ],
   "note": ""
  },
  {
   "property": "C80",
   "status": "proved",
   "theorems": [
    "Otrr.Props.C80_sessions",
    "Otrr.Props.C80_independent",
    "Otrr.Props.C80_addressed"
   ],
   "note": "This carries all theorems about sessions over to the sessions of accounts."
  },
  {
   "property": "C81",
   "status": "partial",
   "theorems": [
    "Otrr.Props.C81_partial",
    "Otrr.Props.C81_violated"
   ],
   "note": "False of the code: a stored profile is used after its expiration, and with other keys than those of the host. Proved for accounts made without a stored profile."
  },
  {
   "property": "C82",
   "status": "partial",
   "theorems": [
    "Otrr.Props.C82_exchange3",
    "Otrr.Props.C82_turns3",
    "Otrr.Props.C82_talk3_partial",
    "Otrr.Props.C82_violated"
   ],
   "note": "The key exchange is proved in full, and that all texts arrive if the users take turns. Of other conversations the property does not hold: when one user sends two texts before the other answers, a later text is unreadable (C82_violated, the defect of C37). Proved of all conversations: each text arrives intact or is reported as unreadable, and the clients stay connected. That a new key pair is acceptable and that no hash is zero are explicit hypotheses."
  },
  {
   "property": "C83",
   "status": "proved",
   "theorems": [
    "Otrr.Props.C83_smp3",
    "Otrr.Props.C83_smp4",
    "Otrr.Props.C83_talk4",
    "Otrr.Props.C82_exchange3",
    "Otrr.Props.C74_exchange4"
   ],
   "note": "For both versions; each message must fit one text, and the calls must not crash (sizes, see C43). C82_exchange3 and C74_exchange4 establish the hypothesis Acquainted after the key exchange, C83_smp3 and C83_smp4 after an SMP, C83_talk4 after a conversation (OTRv3: after the exchange or another SMP). That numbers and points in the messages are not trivial, which fails with negligible probability, is an explicit hypothesis, as in C50. The OTRv3 hypotheses are met by a complete toy run; those of OTRv4 by the toy clients of C74 (Acquainted) and the toy run of C50 (the SMP itself)."
  },
  {
   "property": "C84",
   "status": "proved",
   "theorems": [
    "Otrr.Props.C84_end3",
    "Otrr.Props.C84_end4",
    "Otrr.Props.C84_expire4"
   ],
   "note": "The disconnect message must fit one text (C78 treats fragments), and the call must not crash (sizes, see C43). OTRv3 for the client whose turn it is (OTRv3 keys get lost otherwise, see C37); OTRv4 for either client. That a newly generated D-H key differs from the old one is an explicit hypothesis, as in C47. C84_expire4 is for the case that one session expires in the call. MaySend is established by the exchange, by conversations and by the SMP (C74, C82, C83)."
  },
  {
   "property": "C85",
   "status": "proved",
   "theorems": [
    "Otrr.Props.C85_isolation",
    "Otrr.Props.C85_report"
   ],
   "note": "Expiry is about all instances."
  },
  {
   "property": "C86",
   "status": "proved",
   "theorems": [
    "Otrr.Props.C86_step",
    "Otrr.Props.C86_history"
   ],
   "note": "Two-run property; the exceptions of the statement are those of the predicate Alike."
  },
  {
   "property": "C87",
   "status": "proved",
   "theorems": [
    "Otrr.Props.C87_injects"
   ],
   "note": "Queries have exactly the text that the source states, and the TLVs of data messages that the user did not write are SMP TLVs. Expiry is treated by C23_expire."
  },
  {
   "property": "C88",
   "status": "partial",
   "theorems": [
    "Otrr.Props.C88_partial",
    "Otrr.Props.C88_fragment",
    "Otrr.Props.C88_text",
    "Otrr.Props.C88_assembler",
    "Otrr.Props.C88_data3",
    "Otrr.Props.C88_data4"
   ],
   "note": "False of the code (witnesses: C09_violated, C10_violated, C27_violated, C36_identity_crash, C48_crash, C66_violated). Proved: a crash has one of the causes listed in Spec.Crash: a fragment whose part or total is above 65535 or has non-ASCII digits, and a query or a whitespace tag without versions (these causes are stated with the patterns of the source, and are sufficient, too: C88_fragment, C88_text); an assembler at the end of its counter (sufficient, too: C88_assembler); an encoded message with 57 zero bytes in a row; an answer that the host takes neither at once nor in 65535 fragments; or, for a message that is addressed to this client, one of the causes listed in Spec.Crash3 (OTRv3) and Spec.Crash4 (OTRv4), of which those for data messages are sufficient, too (C88_data3, C88_data4, C48_crash). Hypotheses: the groups are as they should be (proved of Ed448), the instance tag of the client is at least 0x100, and the identity key pair of the host is a key pair."
  },
  {
   "property": "C89",
   "status": "proved",
   "theorems": [
    "Otrr.Props.C89_list",
    "Otrr.Props.C89_step",
    "Otrr.Props.C89_listed",
    "Otrr.Props.C89_legal",
    "Otrr.Props.C89_unknown"
   ],
   "note": "For a policy without any version, send is a pass-through (C14), hence the hypothesis of C89_unknown."
  },
  {
   "property": "C90",
   "status": "partial",
   "theorems": [
    "Otrr.Props.C90_partial",
    "Otrr.Props.C90_violated"
   ],
   "note": "Violated by the code: n texts of 37 bytes, each ignored without a report, make it keep n instances, for any n up to the 2^32-256 legal tags (C90_violated). Proved: at most two instances per received text or opened conversation."
  },
  {
   "property": "C91",
   "status": "partial",
   "theorems": [
    "Otrr.Props.C91_partial",
    "Otrr.Props.C91_violated",
    "Otrr.Props.C91_drop"
   ],
   "note": "False of the code (C91_violated). Proved: a call crashes if and only if one of the causes of Spec.CallCrash is present: a conversation opened for another version than 3 or 4, or with an illegal instance tag if the first message must be fragmented; a text that the host takes neither at once nor in 65535 fragments; a plaintext that cannot be encrypted (Stuck3, Stuck4: the causes of C43 and C66); the SMP started without a DSA key (OTRv3), with a zero random number (OTRv4), or with a question too long for a TLV. query never crashes. Hypotheses: the curve is as it should be (proved of Ed448) and the instance tag of the client is at least 0x100."
  },
  {
   "property": "C92",
   "status": "proved",
   "theorems": [
    "Otrr.Props.C92_status",
    "Otrr.Props.C92_sent"
   ],
   "note": "Keys and key exchanges of the instance may have changed even if the call fails: see C37 and C52."
  },
  {
   "property": "C93",
   "status": "proved",
   "theorems": [
    "Otrr.Props.C93_fragment",
    "Otrr.Props.C93_plain"
   ],
   "note": "The patterns are the literal strings of the source, parsed and interpreted by the small specification in Spec/Regex.lean."
  },
  {
   "property": "C94",
   "status": "proved",
   "theorems": [
    "Otrr.Props.C94_sent",
    "Otrr.Props.C94_encrypted",
    "Otrr.Props.C94_plain",
    "Otrr.Props.C94_needs_size"
   ],
   "note": "C94_needs_size: a query is sent whole, even if the host does not allow its 58 bytes (OTR itself works from 46 bytes on)."
  },
  {
   "property": "C95",
   "status": "proved",
   "theorems": [
    "Otrr.Props.C95_forged",
    "Otrr.Props.C95_undisturbed",
    "Otrr.Props.C95_amid"
   ],
   "note": "C95_amid: the same calls with the same results are a history without the noise. Excluded: texts that crash the client (C88), and data messages received in fragments, between which noise can clear an assembler."
  },
  {
   "property": "C96",
   "status": "partial",
   "theorems": [
    "Otrr.Props.C96_violated3",
    "Otrr.Props.C96_violated4",
    "Otrr.Props.C96_deadlock3",
    "Otrr.Props.C96_split4",
    "Otrr.Props.C96_retry3_partial",
    "Otrr.Props.C96_direct3_partial"
   ],
   "note": "The code violates this, for every pair of clients: OTRv3 ends without a session (C96_deadlock3), OTRv4 with two different sessions (C96_split4). The tie-break of the protocol is not reached, because the context of an exchange that was begun without a receiver is kept in another instance than that which answers. Proved: with OTRv3 a later offer of one client alone connects them; and two clients that each begin with the instance of the other (so that the tie-break is reached) get connected although messages are repeated."
  },
  {
   "property": "C97",
   "status": "proved",
   "theorems": [
    "Otrr.Props.C97_keys",
    "Otrr.Props.C97_complete",
    "Otrr.Props.C97_session"
   ],
   "note": "The ratchet code refines a small specification of the key schedule; positions are distinct. That keys at different positions differ has the explicit hypothesis that the hash function does not collide on the inputs of the schedule."
  },
  {
   "property": "C98",
   "status": "partial",
   "theorems": [
    "Otrr.Props.C98_reveals",
    "Otrr.Props.C98_violated",
    "Otrr.Props.C98_hides_partial"
   ],
   "note": "The code violates this on its curve: random scalars are pruned before they are reduced, so that the second lowest bit of a drawn number is 1, while the numbers of the signer are computed. A number with a 0 there tells the signer (C98_reveals, for every signature). C98_hides_partial: otherwise the signature could be made by another holder as well, if the commitment can be drawn."
  },
  {
   "property": "C99",
   "status": "proved",
   "theorems": [
    "Otrr.Props.C99_log4",
    "Otrr.Props.C99_pq4",
    "Otrr.Props.C99_r4",
    "Otrr.Props.C99_ring",
    "Otrr.Props.C99_log3",
    "Otrr.Props.C99_pq3",
    "Otrr.Props.C99_r3",
    "Otrr.Props.C99_challenge3"
   ],
   "note": "Special soundness of each proof. That the client accepts only messages with such proofs is C53 and C34; what the secrets mean for the result of the SMP is C51. For points that the client checks to be in the group; in message 2 of OTRv4 it does not check two of them (C53)."
  }
 ]
}