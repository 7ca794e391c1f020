# Formal model of google/s2a-core in Lean 4 — design

`/verif/properties.jsonl` lists the properties (C01 …).  `/verif/lean/Verif` holds
the model (`Model/`), the independent specifications (`Spec/`), helper lemmas
(`Lemmas/`) and the property theorems (`Props/`).  `/verif/MANIFEST.json` maps each
property to its theorems; `/verif/seeded/LOG.jsonl` logs the mutation experiments.

## 1. Modelling conventions

* **Outcome.** `Exec α = Except UB α`.  `UB` is a distinct outcome: null
  dereference, access outside a buffer, shift by a negative amount, unsigned
  wrap-around of a size the code relies on, failed `ABSL_ASSERT`, use after free,
  int conversion of a length of 2^31 or more.  An error `Status` is an ordinary
  result.  Status codes are kept.  Status messages and log lines are dropped; Model/Text.lean has
  the functions again with them, proved equal without them (Lemmas/Text.lean); Model/TextCrypto.lean
  does the same for the AEAD crypters and HKDF, Model/TextContext.lean for contexts.
* **Buffers.** An `Iovec` is either `null len` or `buf bytes` (its length is the
  number of bytes).  Any access at or beyond `iov_len` is out of bounds, even if the
  caller's allocation happens to be larger.  Output buffers are returned as new
  contents.  Input and output buffers do not alias (exception: `AdvanceSecret`, which
  the code calls in place and which is modelled in place).  Model/InPlace.lean has the functions
  that write to a buffer of the caller again, on one memory shared by all buffers (C104).
* **Integers.** `size_t` sums are unbounded `Nat`; Model/Size64.lean has the functions that add
  lengths up once more with sums modulo 2^64 (C114: no difference unless the lengths add up to
  2^64 bytes, which takes buffers that share memory).  Every `size_t` subtraction whose result could be
  negative is a checked subtraction that yields UB, and the theorems show it does
  not happen.  Sequence numbers are real 64-bit values with wrap-around.  Model/IntCast.lean has the
  conversions between `size_t` and `int` at the calls of the library, for either byte order (C115,
  C116); elsewhere a length of 2^31 or more given to the library counts as undefined.
* **Enums.** C++ enums get an additional `other n` case so that `default:` branches
  are reachable, as they are with `static_cast`.
* **Crypto library.** `Lib` (Model/Prims.lean) is a structure of parameters: an HMAC whose output
  has the digest's length, a key stream and a 16-byte MAC for each AEAD algorithm.
  The AEADs used (AES-GCM, ChaCha20-Poly1305) are stream cipher + MAC, so
  decrypt-after-encrypt is proved, not assumed.  Nothing about unforgeability is
  assumed: theorems say which tag equation must hold.  Only C61 to C63, C65, C98 and C100 speak of
  forgeries, and there as explicit hypotheses about the AEAD calls of the run
  (`Unforged`: what the receiver's AEAD accepted had been sealed by one of the two
  ends under the same key, nonce and header; `KeysDistinct`: the keys of different
  epochs and directions that the run reaches differ).  Every library call may fail:
  a *fault oracle* says which ones; theorems about safety quantify over all oracles,
  theorems about success take the oracle without faults.
* **Allocation.** The allocator/destroy callbacks are an event trace over fresh ids.
* **Histories.** `Op`/`Event`/`step`/`run` in HalfConnHist, RecordHist, Frame, Proxy,
  TlsOptions and TokenManager are all finite sequences of calls with arbitrary
  arguments and faults.  `Reach` is "created, then some history".
* **Observations.** Some results carry fields that the C++ values do not have: the AEAD
  call made and the key-update status (`Record.Result.call`, `.rekey`, `.inner`), the
  allocator trace and crypter results (`Frame.State.mem`, `.evs`), the questions to the
  token manager and the parsed response (`Proxy.Event`).  No model function reads them.
* **Concurrency.** Methods that touch shared memory are lists of atomic actions (lock,
  unlock, load a `unique_ptr`, dereference, install, free, read, write a member); any
  number of threads run any lists of calls in any schedule (Model/Machine.lean,
  Model/Race.lean).  Sequentially consistent interleaving; data races are detected as
  two enabled conflicting accesses.  For what the calls compute, Model/Threads.lean has each
  method of the frame protector, down to the half connections, as a program whose steps
  (lock, unlock, allocation, read or write the members of an object, AEAD call) threads
  interleave; alone, a program is the function of Model/Frame.lean (`prog_alone`).
  Model/ProxyThreads.lean has the methods of the proxy in the same way.
* **Protobuf.** Messages are encoded and parsed at the wire level (varints, tags,
  length-delimited fields) following upb's rules: proto3 defaults are not written, last value
  wins, sub-messages merge, unknown fields are skipped.  UTF-8 validation by upb's
  decoder is a parameter (a predicate on byte strings).

## 2. Plan per property

| Id | Modelled | Proof |
|---|---|---|
| C01 | frame protector, crypter, half connection, AEAD | refinement of `Unprotect∘Protect` to identity; induction over records and buffers |
| C02 | as C01, plus key updates | invariant "sender's outbound half = receiver's inbound half" by induction over the history |
| C03 | `NumberBytesToProtect`, `Protect` | arithmetic + output length lemma; `floor` of a double is exact below 2^53, modelled as integer division |
| C04 | as C03 | output equals a record-stream spec; spec's parser accepts it |
| C05 | `Protect` | equality with a function of the concatenation |
| C06 | `Unprotect` | refinement to a parser over one flat byte string |
| C07 | `Unprotect` with UB outcome | no-UB theorem for non-empty buffers; for empty buffers the code reads out of bounds at a header position: negation with witness, and the exact condition: an out-of-bounds read happens if and only if an empty buffer is at or inside a header after accepted records with at least 22 bytes left; in all other cases the empty buffers make no difference (Props/FrameEmpty.lean) |
| C08 | `Unprotect` | false of the code for fewer than 22 trailing bytes (witness); `_partial` for the rest |
| C09 | `Unprotect` (single) | false of the code (trailing bytes ignored; witness); `_partial` |
| C10 | allocation trace | false of the code: on every failing allocating `Protect` the buffer is destroyed twice (theorem + witness); `_partial` for success |
| C11 | allocation trace | false: leak when a bad header follows a good record (witness); `_partial` for all other outcomes |
| C12 | `Unprotect`, faults | soundness direction for every fault oracle |
| C13 | crypter `Unprotect` | case analysis on every path; two paths keep bytes (witness), `_partial` |
| C14 | half connection, instrumented with the AEAD call made | invariant over histories |
| C15 | 64-bit sequence | invariant and exact counting theorem |
| C16 | `NonceMask` | equality with RFC formula |
| C17 | key schedule | equality with RFC formula by induction on updates |
| C18 | HKDF loop | loop invariant = RFC 5869 `T(1) T(2) …` |
| C19 | crypter | invariant over continuations |
| C20 | crypter | decision logic, both sides of each boundary |
| C21 | crypter | record with padding built by the spec is decoded |
| C22 | handshake handler | refinement to a parser of the concatenated stream |
| C23 | handler + crypter | invariant relating stored tickets to parsed stream |
| C24 | crypter | phase monotone; counting invariant |
| C25 | crypter | false when a fragment of the next ticket is pending (witness); `_partial` |
| C26 | crypter | false when fragmented (witness); `_partial` for unfragmented |
| C27, C28 | handler | decision logic + sticky invariant |
| C29 | handler with UB outcome | false (zero-length message; message after key update; witnesses); `_partial` |
| C30 | crypter | case analysis |
| C31 | crypter/frame protector | commutation of steps, induction over interleavings |
| C32 | abstract two-thread machine of lock/read/free steps | false (witness schedule with inbound key update); `_partial` without key update; exact condition for one unprotecting thread (`C32_exact`). Data races by happens-before are C121 |
| C33 | half connection | sticky invariant |
| C34–C38 | OpenSSL streaming and BoringSSL one-shot AEAD wrappers | loop invariants; refinement to a flat AEAD spec |
| C39 | options | value semantics over two independent option objects |
| C40 | converters | case analysis |
| C41 | wire format + context | decode∘encode; false for strings with a NUL byte (witness), `_partial` |
| C42–C50, C53, C54 | proxy state machine | invariants over histories; C46, C49, C50, C53, C54 false in part (witnesses), `_partial` |
| C51 | token manager | induction over history |
| C52 | ticket request | decode∘encode |
| C55–C58 | frame protector, crypter, creation functions | case analysis and induction |
| C59 | lock machine | invariant: locks are taken in a fixed order, so the holder of the greatest one can go on |
| C60 | lock machine, proxy | as C32; false for `CreateFrameProtector` and `GetS2AContext`, which do not take the lock (witnesses); exact table of clashing calls (`C60_safe_iff`) |
| C61 | crypter at both ends, forgery and key collisions excluded by hypothesis | positions (epoch, sequence number) strictly increase at both ends; an accepted record was sealed at the same position |
| C62 | as C61, then the frame protector on top; the sender may also send tickets, alerts and key updates (Spec/Orderly) | no gaps: without errors the positions of the receiver are consecutive; a key update at the receiver happens exactly after the record after which the sender changed its key |
| C63 | as C62, the last call of the receiver reports close-notify | the alert opened is the next record of the sender, and no data follows it |
| C64 | frame protector, data handed out against data of accepted records (Spec/Loss) | by cases on a call; witness where a call holds a message and a close-notify |
| C65 | two proxies, the frame protectors they create | compose C46 (the options are those of the result), C58 and C02, C62 |
| C66 | threads as interleaved programs over the four mutexes, the allocator and the members of crypter and half connections (Model/Threads.lean) | the programs alone are the functions of Model/Frame.lean; a ghost sequential run in step with the threads, a call takes effect when it releases its mutex of the frame protector, or when it returns |
| C67 | as C66; every AEAD call and key update is logged in a step of its own | while the mutex of a half connection is free, its members and the log come from a history of calls on it; its holder restores that; then C14, C16, C17 |
| C68 | as C66 | a fault of a step is a fault of the ghost run; the holder of the mutex of a half connection goes on until it releases it, and so does then the holder of a mutex of the frame protector |
| C69 | handler and crypter | invariant of the message reader: pending bytes plus expected bytes are at most one message; the length in a header is read only with four pending bytes, otherwise the shift is negative |
| C70 | frame protector | close-notify flag is set when reported and never cleared; every path of `Unprotect` then fails |
| C71 | frame protector | no event of its histories updates the outbound key, then C17 |
| C72 | Model/Destroy: destructor, ticket sender as a function | C24: the sender is called at most once |
| C73 | Model/Destroy: `SendTicketsToS2A` | direct; negation of the full claim |
| C74 | half connection | C16 and C71: sequence numbers under one key are consecutive and below 2^64 |
| C75 | threads | C66 gives an order of the calls; in this order the positions of the records follow each other (`run_chain`), which is what the receiver expects (C02); the order of the log within a thread is an invariant of the schedule. Witness theorem: the order of the returns does not do |
| C76 | frame protector | RFC 8446 streams as an inductive predicate (`PeerRecords`), built from messages, not from a parser; the handler has read exactly the begun part of a message (`Rel`) and the connection expects no more bytes between messages (`Listening`), an invariant of every conformant record. Witness theorem for split key updates, and the general converse: after the first part of one the reader is at the updated keys (`Doomed`), so the next record of the peer is refused |
| C77 | `new[]`/`delete[]` as the proxy hands them to frame protectors (Model/Heap.lean); lives of connections: calls and releases by the caller (Spec/Heap.lean) | invariant over lives: the allocated arrays are those the caller holds and the lost ones; a failing `Protect` deletes twice: general theorem and witness; exact in both directions (`C77_exact`, `C77_leak_iff`) |
| C78 | allocator calls of `Protect` and `Unprotect` | induction over the loop: each buffer is paid for by a record of the input |
| C79 | `MaxPlaintextLength`, `MaxCiphertextAndTagLength` against `Encrypt`, `Decrypt`, also on 64-bit values (Model/Helpers.lean) | from the specifications of the two calls; arithmetic modulo 2^64 |
| C80 | the loop of `Unprotect` on a concatenation | induction over the records: the loop on records and a rest is the loop on the records, then on the rest |
| C81 | the decoder against a grammar of the wire format written as an inductive predicate; `GetBytesForPeer` on prefixes | decoder = grammar by induction on the message; a prefix that is a message has a proper prefix of the fields, so no status |
| C82 | `GetS2AContextFromSerializedContext` on prefixes of a serialization | false: proved exactly what every prefix gives (`C82_cut_exact`), and that a cut inside a field is refused |
| C83 | texts of the frame protector, the proxy, the AEAD crypters and the key derivation (Model/Text.lean, Model/TextCrypto.lean) | the list of all texts is an inductive predicate (Spec/Text.lean); by cases over every function, by induction over the loops |
| C84 | texts of the frame protector and the proxy | false in three cases: proved exactly, with general theorems for the exceptions |
| C85 | texts of `Unprotect` | false: all alerts get one text (general theorem, witness); proved that alerts and close_notify are told apart |
| C86 | the messages of Model/Proto.lean | for every message a relation over the wire grammar with the numbers of the .proto files (Spec/Schema.lean); the readers accept exactly these, and all that is written is one of these, in every history |
| C87 | all of the frame protector, on arbitrary buffers | a predicate "does not run out of iterations" closed under sequencing, one lemma per function; the bytes left decrease in every iteration, in `ProcessHandshakeMessage` by the invariant of the handler; independence of the bound; counting the calls of the crypter |
| C88 | histories of the proxy; the two streams it relays (Spec/Proxy.lean) | every request carries exactly what was passed (C42), every call hands out exactly what a good response said (C54); induction over the history |
| C89 | the frame protector with an allocator that may return short or null buffers, and library failures | `Protect` without memory: the connection is unchanged, so the repeated call gives the same records; false otherwise: exact count of the numbers spent, and witnesses |
| C90 | everything the crypter and the frame protector do in one thread, with a reference machine on byte strings (`Spec/Reference.lean`) and what the callers see (`Spec/Observed.lean`) | simulation: a relation between the state of the code and that of the machine holds after creation and is kept by every call, with equal answers; undefined behaviour is an answer of the machine too |
| C91 | the same as C90, with any set of failing library calls in each call | simulation with two outcomes: each call is the machine's step or one of its lapses, and for each lapse a failure is given that causes it |
| C92 | all calls on a frame protector, with their messages and log lines (`Model/Text.lean`) | a relation between two runs, proved function by function from the AEAD crypters up, then by induction on the histories |
| C93 | the frame protector with an allocator that gives more than it is asked for | false of the code for `Protect` (general theorem and witness); the rest by the simulation of C90, whose machine does not depend on spare room |
| C94 | all calls on two frame protectors, one of them created with what the other has come to | the simulation of C90: both are related to the same state of the reference machine; a key update leaves the machine in a state that a new connection can be in |
| C95 | all calls on the proxy, with their messages and log lines (`Proxy.runT`) | a relation between two runs whose token managers give related tokens, kept by every function of the proxy; any relation between tokens |
| C96 | the same | the same relation, with responses of the S2A that agree but for the traffic secrets |
| C97 | creation of a frame protector, all histories of the proxy | case analysis on all checks in their order; an exact lemma on when the key derivation fails; the history invariant of the proxy |
| C98 | runs of a connection and of a frame protector under an attacker; a protector whose output comes back | every opened record is under a key of a receiving epoch (`Follows`), every sealed one under a key of a sending epoch; for the witness, the session invariant of C03 with both ends the same protector |
| C99 | histories of the proxy | a response acts on four members through a function of the response alone, which is idempotent; no other call but `GetS2AContext` writes them |
| C100 | threads at both ends (C66) and the attacker of C61 | each end is explained by an order of its calls; the results in these orders are sequential runs, to which C61 and C62 apply; what a run with failures seals are fragments of the messages, in order |
| C101 | histories of the proxy, then calls on a protector it made | the factory is there exactly if no call took it away (induction over the history); the handler's request (invariant of C30) carries the constructor arguments |
| C102 | `evpEncrypt`, `evpDecrypt`, `boringEncrypt`, `boringDecrypt` with a failing library | each loop: why it stops, by induction over the buffers; which buffers it made a call for |
| C103 | calls as lists of actions and points where functions of the user are called, on the lock machine of C59; the functions make nested calls | with harmless functions every unfolding takes the locks in ascending order (induction over the unfolding); for each forbidden call a thread that waits for itself |
| C104 | Model/InPlace.lean: one memory, buffers are places in it; the AEAD crypters, the record functions and the two functions of the frame protector again, line by line, on that memory | what is already written agrees with the old memory wherever input is still to be read (invariant of each loop), so each function equals its counterpart on separate buffers; the round that breaks this is followed for an input of one byte more than a record |
| C105 | Model/HalfConn.lean and Model/Record.lean as for C17 and C33; Spec/Current.lean says what a direction may hold: what creating it anew gives | from the invariant that ties every field of a direction that has not failed to its position (Lemmas/Dir.lean); what an update leaves, per outcome. Only the objects are modelled, not heap memory that was freed |
| C106 | Model/HashTable.lean: `operator==`, `AbslHashValue` over an arbitrary combining function, hash tables that compare the hash first and then call `operator==`, the setters and the cache updates on such tables; Spec/HashTable.lean: which identities were added, and the map a cache stands for | induction over the calls, with the invariant that stored hashes are those of the keys; also that the lists of the rest of the model are the contents of these tables |
| C107 | Model/NoChacha.lean: the creation functions as compiled with an OpenSSL without ChaCha20-Poly1305 (chacha_poly_crypter_openssl.cc:421-424), up to `CreateFrameProtector` | equality with the other build for other suites; case split over the statuses of key derivation for this one |
| C108 | frame protector; reference machine of C90 | the reference machine answers both forms alike (Lemmas/Forms.lean: induction over the fragments for `Protect`; one record for `Unprotect`); with C90 for whole histories, and for a single call in every state that a history can lead to, also after failures of the library |
| C109 | AEAD operations | induction over the buffers: the loops are not defined exactly if a piece that they reach is too long; the loop of `Decrypt` stops before the tag, which is then read without a check for null pointers |
| C110 | threads as interleaved programs over the mutex and the members of the proxy, one step for each assignment of `GetBytesForPeer` and each member that `CreateFrameProtector` reads (Model/ProxyThreads.lean) | a ghost sequential run in step with the threads: calls take effect at their first access under the mutex, successful `CreateFrameProtector` and `GetS2AContext` when they empty the member; the state of the threads is that of the sequential run but for what the thread with the mutex is still going to write |
| C111 | the functions with their messages (Model/Text.lean, TextCrypto.lean, TextContext.lean); Spec/Blame.lean pairs each message with the fact it states | case analysis along each function; for the proxy with the invariant of its histories. One message is false: see section 4 |
| C112 | the functions with their messages (Model/Text.lean, Model/TextCrypto.lean); Spec/Says.lean gives the reference machine of C90 a voice: the texts for every call in every state | the simulation of C90 determines the states and the outcomes; then each function is followed to its text, by induction over the loops and histories |
| C113 | Model/ErrQueue.lean: every function once more, with the error queue of the thread as state; the library may add any errors where it fails; Spec/ErrQueue.lean says what a call may do to the queue | each function with the queue ends like the one with messages of Model/Text.lean and leaves one of the queues of the specification; loops and histories by induction |
| C114 | Model/Size64.lean: the functions that add lengths up, once more, with sums modulo 2^64; Spec/Size64.lean says when a call fits and what the first n bytes of a list of buffers are | each function equals the one with unbounded sums when the sums fit, by induction over the loops; `Protect` with a wrapped sum is `Protect` of a prefix; the `Unprotect` loop keeps the number of bytes left modulo 2^64; the claim itself is false, see section 4 |
| C115 | Model/IntCast.lean: the code from the crypters up to the frame protector once more, with the conversions between `size_t` and `int` as a 64-bit machine of either byte order does them; Spec/IntCast.lean says what a refused call is | a machine equals the main model with certain failures of the library, by induction over the loops; the claim itself is false of big-endian machines, see section 4 |
| C116 | the same model, crypters only, lengths of any size | what the loops do with a length that does not fit is what they do with the cut buffer (encryption) or never ends well (decryption), by induction; the claim itself is false of encryption, see section 4 |
| C117 | `PrepareResumptionTicketReq` on a memory of buffers that can be freed and changed; a request holds views (buffer and length) that serialising follows (Model/Views.lean) | invariant: read in the memory of the moment, the request says what copies would have said, and its views are those of the held buffers; induction over the history |
| C118 | the decoder of upb with groups, the limit on nesting and the limits of 32 bits (Model/Groups.lean); the messages for any decoder of fields; a grammar with groups and a list of what cannot go on as a message (Spec/Groups.lean) | decoder = grammar and failure = list, by induction on the fuel and on the message; skipping by computing past a prefix; agreement with the plain decoder by monotonicity of the messages in the decoder |
| C119 | the functions that call `memcpy` or `memset` once more, with a null pointer as undefined behaviour even for no bytes (Model/NullCopy.lean), and the record layer and frame protector over them (Model/NullCopyFrame.lean); which responses and contexts lead to it (Spec/NullCopy.lean) | case analysis on the response; a message is empty if it has no fields; the handler never keeps an empty fragment, by an invariant over all histories; `Decrypt` by induction on the buffers; the frame protector by a second induction over histories, as it asserts that the buffers of a record are not null; the claim itself is false of four functions, see section 4 |
| C120 | calls on one `HandshakeMessageHandler` (Model/HandlerCalls.lean) against what a reader of the byte stream expects (Spec/HandlerCalls.lean) | induction over the calls, with the invariant that the handler has read a given prefix of a message and keeps given tickets |
| C121 | happens-before of the C++ standard over the schedules of Model/Race.lean (Spec/HappensBefore.lean) | false (key updates; clashing calls on a proxy); who touches a place holds a lock in common with every other who does, and the lock is passed on by a release and an acquisition in between; conversely two threads about to touch one place make two steps one after the other that nothing orders. Exact for one unprotecting thread and for proxies |
| C122 | `CiphersuiteToHashFunction` with its output pointer (Model/Helpers.lean) against the table of ciphersuites (Spec/Tls.lean) | by cases; the secret sizes of `Create` |
| C123 | Encrypt and Decrypt of the crypters and HkdfDeriveSecret with their messages (Model/TextCrypto.lean) against a table of messages, each with the reason that must hold (Spec/AeadSays.lean) | case analysis of each operation; induction over the slices of the buffers and over the blocks of the derivation |
| C124 | Protect and Unprotect of a connection with their messages (Model/Text.lean) against a table of messages, each with the reason that must hold (Spec/RecordSays.lean); the same for a frame protector (Spec/FrameSays.lean), whose loops are reduced to the first record that fails | case analysis on C123 and on the content type; unlike C112 with library failures and for any state |

## 3. Trusted base

1. Lean 4.33.0's kernel (and the `lake build` that runs it).
2. The axioms `propext`, `Classical.choice` and `Quot.sound`.  AXIOMS.md lists which of
   them each property theorem uses.  No `sorry`, no `native_decide`, no `bv_decide`, no
   axiom of our own.  Concrete witnesses are evaluated by the kernel (`decide +kernel`,
   `rfl`).
3. The reading of /repo that the model records.  Every definition in `Model/` cites the
   lines it models or says that it has no counterpart.
4. The contracts of the libraries, as written in `Lib`: HMAC outputs have the length of the
   digest; the AEADs are a key stream and a 16-byte tag; a streaming update writes as many
   bytes as it reads; a failing call returns 0 and writes nothing that is used; the input and the
   output of a streaming update are the same place or apart (C104: anything else is undefined).
5. The statements: `Spec/` and the theorem statements in `Props/`.

`Conform/` supports item 3 by tests, not by proofs, and no claim rests on it.  Spec/Std.lean has
SHA-256, SHA-384, HMAC, AES-GCM and ChaCha20-Poly1305, and `Lib.std` (Conform/Lib.lean) is a `Lib`
made of them.  With it the kernel runs the model on the test vectors of /repo and compares the bytes:
97 vectors for AES-GCM (those the test does not skip) and 153 for ChaCha20-Poly1305, 17 of these also
as BoringSSL runs them; the expected keys, nonces and ciphertexts of the HKDF and half connection
tests; and the records of s2a_crypter_test.cc (data, padding, alerts, failures, key updates,
tickets).  The tests of the handshake message handler, the utilities, the context, the options, the
ticket sender, the proxy, the single token manager and the frame protector are replayed too, with the
messages and log lines they compare and with requests as the S2A reads them (Conform/Handler.lean,
Conform/Handshaker.lean, Conform/Frame.lean).  Left out are the tests with plaintexts or records of
16384 bytes or more, those that cut the buffers in many ways, the fake token manager, and what the
model leaves out (`DebugName`, null arenas, `ParseUpbStrview`, the unimplemented `SendTicketsToS2A`).
One constant disagrees: byte 25 of
`chacha_poly_key_bytes` (s2a_test_data.h:76-79) is 0x53 where HKDF gives 0x54.  No test uses the
constant, and the records that the tests do use decrypt with 0x54.

### Modelled

| File | Functions |
|---|---|
| crypto/hkdf.cc | all (`HkdfExpand`, `HkdfDeriveSecret`) |
| crypto/aes_gcm_crypter.cc | all |
| crypto/chacha_poly_crypter_openssl.cc, …_boringssl.cc | all |
| crypto/s2a_aead_crypter.cc | all but plain getters |
| record_protocol/s2a_crypter_util.cc | all |
| record_protocol/s2a_half_connection.cc | all |
| record_protocol/handshake_message_handler.cc | all |
| record_protocol/s2a_crypter.cc | all |
| record_protocol/s2a_upb_ticket_sender.cc | `PrepareResumptionTicketReq` |
| frame_protector/s2a_frame_protector.cc | all |
| options/s2a_options.cc | setters, `Copy`, identities |
| handshaker/s2a_util.cc, s2a_context.cc | all |
| handshaker/s2a_proxy.cc | all |
| token_manager/single_token_access_token_manager.cc | all but `DebugName` |
| proto/*.proto and upb-generated | the fields the code uses; upb's encoder and decoder |

### Not modelled

* What the library writes into its error queue where it fails (any list of texts, see
  Model/ErrQueue.lean); that `BIO_new` fails; `DebugName`.
* `absl`, `upb` and OpenSSL/BoringSSL themselves, but for the contracts above.
* Memory exhaustion; lifetime of the logger and of the user's callbacks; the C++ memory model, of
  which only happens-before is modelled (C121).  That a program without data races behaves as some
  interleaving of its threads is taken from the standard; programs with one have no meaning there,
  and what is said of them here is said of the interleavings.
* The probing and growing of hash tables (Model/HashTable.lean has entries with their hashes,
  for every hash function); the order of iteration over them is an arbitrary permutation.
* protobuf: groups are refused in Model/Wire.lean, on which all properties but C118 rest; C118
  has the decoder that skips them and says when the two agree.
* Merging of a `oneof` submessage that occurs twice; the map `attributes` of an identity is
  checked but has no value (the code never looks at it).
* `memcpy` with a null pointer and length 0 (formally undefined) counts as defined, but for C119
  (Model/NullCopy.lean, Model/NullCopyFrame.lean), which says when it happens.
* Buffers of the caller that share memory only in Model/InPlace.lean, for the functions named
  there; everywhere else the buffers are separate.
* Test helpers and fakes.

## 4. Where the code and the English property disagree

For each there is a theorem with a concrete witness, and a `_partial` theorem for what does
hold; nothing else is missing from the partial claims.

| Property | Disagreement | Witness |
|---|---|---|
| C07 | an empty buffer where a record header is expected is read out of bounds | `Frame.C07_counterexample`, exact condition `Frame.C07_empty_buffer_read_iff`, `Frame.C07_empty_buffer_read_into_iff` |
| C08 | up to 21 bytes of a partial record at the end are dropped silently | `Frame.C08_counterexample` |
| C09 | bytes after the first record are ignored | `Frame.C09_counterexample` |
| C10 | a failing `Protect` destroys its buffer twice; with a caller's buffer it destroys that | `Frame.C10_*` |
| C11 | a bad header after good records leaks their buffers | `Frame.C11_counterexample` |
| C77 | a failing `Protect` deletes its array twice, broken framing after good records loses arrays | `Frame.C77_failing_protect_deletes_twice`, `Frame.C77_counterexample`, `Frame.C77_lost_counterexample` |
| C89 | `Unprotect` that fails because the allocator has no memory, and `Protect` that fails in the library, spend a sequence number; repeating them fails, or gives records that the peer refuses | `Frame.C89_unprotect_cannot_be_repeated`, `Frame.C89_protect_cannot_be_repeated` |
| C93 | if the allocator gives more than it is asked for, `Protect` returns the whole buffer: the records are followed by what was in the memory before, which the caller then sends; the peer refuses it | `Frame.C93_*` |
| C98 | the two directions may be given the same secret and sequence number; then the connection accepts everything it has sent itself | `Frame.C98_own_records_accepted`, `Proxy.C98_proxy_does_not_check` |
| C99 | a result delivered again after a newer one replaces it; delivered again after `GetS2AContext` it gives the context again | `Proxy.C99_old_response_counts_again`, `Proxy.C99_context_again` |
| C101 | the channel factory is moved into the first protector, or lost in the first failed attempt; tickets of later protectors never reach the S2A | `Proxy.C101_later_protectors`, `Proxy.C101_counterexample` |
| C103 | the logger, the allocator, `destroy` and the access token manager are called with mutexes held, which are not reentrant: a logger that calls `Protect`, or a token manager that calls `IsHandshakeFinished`, never returns | `Race.C103_logger_deadlock`, `Race.C103_token_manager_deadlock`, exactly: `Race.C103_frame_protector_partial`, `Race.C103_proxy_partial` |
| C104 | `Protect` writes a whole record before it reads the input of the next, so a message of more than 16384 bytes that lies 5 bytes behind the start of its output is overwritten before it is read: 16385 bytes in place are sent with another last byte, and the status is OK; buffers that overlap in part are handed to `EVP_EncryptUpdate`/`EVP_DecryptUpdate`, which do not allow that | `InPlace.C104_protect_overwritten`, `InPlace.C104_protect_not_in_place`, `InPlace.C104_protect_clash`, `InPlace.C104_unprotect_clash` |
| C107 | (no disagreement, but notable) options accept ChaCha20-Poly1305 also in a build that cannot use it; if the S2A chooses it, the handshake is reported as finished and `CreateFrameProtector` fails (chacha_poly_crypter_openssl.cc:421-424) | `C107_offered_all_the_same` |
| C109 | (no disagreement, but notable) a null pointer with a length is refused with INVALID_ARGUMENT where the data is, but dereferenced where the tag is; lengths of 2^31 and more are cut by `static_cast<int>` | `Aead.C109_decrypt_exact`, `C109_encrypt_exact` |
| C110 | `CreateFrameProtector` and `GetS2AContext` hold the mutex only while they ask whether the handshake is finished: a frame protector can be made of parts of two handshake results, and two threads can both be given the one context or the one channel factory | `Proxy.C110_mixed_results_counterexample`, `C110_context_twice_counterexample`, `C110_factory_twice_counterexample` |
| C111 | after a handshake result with TLS 1.3 and an unknown ciphersuite, `CreateFrameProtector` reports "\|traffic_secret\| size is incorrect.", whatever the secrets in the result: it looks at a half-filled result (s2a_proxy.cc:265-302). `C111_wrong_blame` |
| C113 | `GetSSLErrors` prints and removes everything in the error queue of the thread (s2a_aead_crypter_util.cc:27-35), also what the application has left there: a message may quote errors that have nothing to do with the call. `C113_foreign_errors_quoted`, `C113_short_buffer_quotes` |
| C113 | a failing HMAC never asks for the errors (hkdf.cc:40-105), they stay in the queue and a later call quotes them as its own: `C113_update_errors_misplaced`, `C113_create_errors_left`. A key update that fails for its cipher asks for them and drops the message (s2a_crypter.cc, `UpdateKey`): `C113_update_errors_lost` |
| C114 | the lengths of a vector of buffers are added up in a `size_t` without a check (s2a_frame_protector.cc:70-76, s2a_crypter.cc:98-104, aes_gcm_crypter.cc:283-286). With buffers that share memory the sum can reach 2^64 (2^24 entries for one region of 2^40 bytes). Then the frame protector protects, and returns OK for, only the first bytes (`C114_protect_drops_bytes`) and ignores records (`C114_unprotect_ignores_records`) |
| C114 | on the record layer a payload of 2^64 + 17 bytes passes all checks for a header that announces 17, and `Decrypt` then copies the first buffer into the 16-byte array `tag` (aes_gcm_crypter.cc:377-390): `Record.C114_unprotect_overflow`. Not reachable through the frame protector, which cuts the payload to the announced length |
| C115 | the address of a `size_t` is passed to the library as an `int*` (aes_gcm_crypter.cc:116, 146, 345 and the same places of chacha_poly_crypter_openssl.cc). This breaks the aliasing rule of C++; where it does what was meant, on a big-endian machine it gives the length times 2^32. There every `Protect` and `Unprotect` of a protector that was created without error is refused (`Frame.C115_big`), except for ChaCha20-Poly1305 with BoringSSL |
| C116 | `static_cast<int>` of the length of a plaintext buffer (aes_gcm_crypter.cc:215) without a check that it fits: of 2^32 + 5 bytes `Encrypt` encrypts 5 and reports success (`Aead.C116_counterexample`). Not reachable through the frame protector |
| C119 | `GetBytesForPeer` copies the bytes for the peer and the traffic secrets without a check that there are any (s2a_proxy.cc:306-313, 359-360), `GetSerializedContext` likewise (s2a_context.cc:154-157), so `memcpy` gets a null pointer with length 0, for the first in an ordinary last response (`NullCopy.C119_last_response_copies_null`, exact conditions `NullCopy.C119_peer_exact`, `NullCopy.C119_context_exact`); `Decrypt` clears and copies through empty null buffers (`NullCopy.C119_decrypt_uses_null`), and so does `S2ACrypter::Unprotect` (`NullCopy.C119_record_uses_null`), but not the frame protector (`NullCopy.Frame.C119_frame_protector`). Nothing happens on common platforms |
| C121 | as C32 and C60: `RecordOverhead` reads `aead_crypter_` without its mutex, the one-record `Unprotect` takes no mutex, `CreateFrameProtector` and `GetS2AContext` read and move members after the mutex is released | `Race.C121_frame_protector_iff`, `C121_two_unprotect_counterexample`, `C121_proxy_iff` |
| C105 | `UpdateKey` that fails part way (s2a_half_connection.cc:201-254) leaves the AEAD object with the old key in place, next to the new secret; the direction is dead, but records protected before can be opened by whoever reads its memory | `C105_counterexample`, `C105_failed_update_keeps_key`; `C105_only_present_keys_partial` |
| C13 | application data refused inside a fragmented handshake message stays in the output | `Record.C13_app_data_inside_handshake_keeps_plaintext`, exactly: `Record.C13_every_rejection`, `Record.C13_plaintext_stays` |
| C22, C26, C76 | a key update cut over two records advances the key twice | `Record.C26_split_update_advances_twice`; in general once per record that has a byte of a key update: `Record.C26_advances_exactly`; the peer's next record is refused: `Frame.C76_split_update_never_understood` |
| C25 | tickets are lost if the record that completes the fifth one begins another message | `Record.C25_*`; exactly when: `Record.C25_lost_iff` |
| C27 | a key update without body need not be the last message | `Record.C27_empty_update_need_not_be_last`, exactly: `Record.C27_exact` |
| C28 | the request byte and the length of a key update are not checked | `Record.C28_*`, in general: `Record.C28_every_body_accepted` |
| C29 | shift by a negative amount: message with empty body, message after a refused one | `Record.C29_*`; exactly when: `Record.C29_undefined_only`, `Record.C29_undefined_if` |
| C30 | other records are accepted inside a message begun in the record of the fifth ticket | `Record.C30_*`; exactly when: `Record.C30_accepted_inside_iff` |
| C32 | `RecordOverhead` reads `aead_crypter_` without its lock | `Race.C32_*` |
| C37 | OpenSSL AEAD: output buffer too small for later input buffers keeps plaintext | `Aead.C37_too_small_output_keeps_plaintext`, exactly: `Aead.C37_too_small_output` |
| C40, C41, C43, C52 | strings go through `c_str()`: cut at the first NUL byte | `C40_identity_nul`, `C41_nul_lost`, … |
| C42, C45 | messages are sent and accepted after the handshake has finished | `Proxy.C42_not_refused_after_finish`, in general: `Proxy.C42_emitted_in_every_state`, `Proxy.C45_response_in_every_state` |
| C46 | null dereference or success after a result without state or identity; exact conditions proved for every history | `Proxy.C46_*` |
| C47 | if the token manager has none for the selected identity, other tokens are sent; that is the only cause and always has this effect | `Proxy.C47_other_tokens_sent`, `C47_others_iff_refused` |
| C49 | identities of the result are not compared with the configured ones in any history | `Proxy.C49_not_enforced`, `C49_never_checked` |
| C50 | the context can be fetched once; later calls return null with status OK | `Proxy.C50_context_once_partial`, `C50_every_history` |
| C51 | a manager can be made without a token | `TokenManager.C51_built_without_token` |
| C53 | two frame protectors of one proxy share key and nonces; so do any two made from one result | `Proxy.C53_shared_nonces`, `C53_all_share` |
| C54 | frames of an error response are dropped | `Proxy.C54_out_frames_dropped`, `C54_forwarded_iff` |
| C64 | a failing allocating `Unprotect` destroys the plaintext of the records before the bad one, whose positions are used up | `Frame.C64_counterexample`, exactly: `Frame.C64_every_call`, `Frame.C64_lost` |
| C70 | a frame protector reports a close-notify as `kInternal`, like a record that fails to authenticate | `Frame.C70_counterexample`, in general: `Frame.C70_two_failures`, `Frame.C70_close_looks_like_forgery` |
| C71 | a key update with `update_requested` is never answered, the sending key never changes | `Frame.C71_one_sending_key`, `Frame.C71_counterexample` |
| C73 | `SendTicketsToS2A` (s2a_upb_ticket_sender.cc:27-30) is a stub, so tickets go nowhere | `Frame.C73_nothing_sent`, `Frame.C73_counterexample` |
| C74 | nothing limits the use of a key below 2^64 records | `Frame.C74_counterexample`, in general: `Frame.C74_any_number` |
| C82 | a serialized context cut between two fields is accepted, what is missing is read as zero (TLS 1.2, no identity) | `C82_cut_accepted`, exactly: `C82_cut_exact` |
| C84 | `Unprotect` of too few bytes (s2a_frame_protector.cc:322-325, 381-385) and a failing `CreateFrameProtector` log nothing; a response without status gives an empty message (s2a_proxy.cc:232-243) | `C84_too_short_not_logged`, `C84_create_not_logged`, `C84_no_status_empty_text` |
| C85 | the message for an alert formats the content type of the record instead of the alert (s2a_crypter.cc:429-430) | `C85_alerts_indistinguishable`, in general: `C85_all_alerts_same_text` |
| C60 | `CreateFrameProtector` and `GetS2AContext` do not take the lock | `Race.C60_*` |

Also seen, and not against a listed property: after a record fails to authenticate, later
records are still accepted (`Record.C62_gap_after_error`); the single-record `Unprotect` does
not take `unprotect_mu_` (`Race.C32_two_unprotect_race`).  `GetSSLErrors` uses the result of
`BIO_new` without looking whether it is null (s2a_aead_crypter_util.cc:28-29).

## 5. Mutation experiments

Each line of seeded/LOG.jsonl is one edit of a model definition in a scratch copy, the claim
it breaks, the theorems that failed directly or because a lemma they use failed, and the
theorems that were tightened as a consequence.

seeded/AUTO.jsonl has 1273 more edits, made by a script: a comparison, a connective, a sign, a
number, a status or a field name is changed, or an update dropped, at a random place of a model
file.  146 do not type-check.  Of the others 1115 are caught, two of them
(`NoChacha.createChachaPoly`, the status for a key of the wrong size, and
`HalfConn.ciphersuiteToHash`, the status for an unknown ciphersuite) only since
`C107_crypter_refused` and `C122_hash_function` were added; the 12 that survive do not change what a caller can observe, and
the reason is given.  Three are caught only by the proof that a model
written a second time (Model/Text.lean, Model/InPlace.lean) agrees with the first.
