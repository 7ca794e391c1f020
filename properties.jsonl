{"id": "C01", "title": "Frame protector round trip", "statement": "If two frame protectors share keys and sequence number in one direction, then whatever plaintext one of them protects (any length, empty included, in any list of buffers), feeding the produced bytes to the other's Unprotect returns OK and buffers whose concatenation is exactly that plaintext.", "quantifier": "all plaintexts, all splits of the plaintext into input buffers, all splits of the protected bytes into non-empty input buffers, all supported ciphersuites, keys and sequence numbers that do not run out", "why_tests_cant": "Plaintext sizes and buffer splits are unbounded; the tests cover a handful of sizes with the plaintext in a few fixed splits.", "anchors": ["src/frame_protector/s2a_frame_protector.cc:S2AFrameProtector::Protect", "src/frame_protector/s2a_frame_protector.cc:S2AFrameProtector::Unprotect"]}
{"id": "C02", "title": "In-order session delivery", "statement": "For every sequence of messages protected by one endpoint and delivered in order to the other endpoint, the i-th Unprotect returns exactly the i-th message; both ends stay in step for the whole session, also across key updates sent between messages.", "quantifier": "all finite histories of Protect calls and key updates, of any length", "why_tests_cant": "Requires an invariant over unbounded histories; a test runs one short history.", "anchors": ["src/frame_protector/s2a_frame_protector.cc:S2AFrameProtector::Protect", "src/record_protocol/s2a_crypter.cc:S2ACrypter::UpdateOutboundKey", "src/record_protocol/s2a_crypter.cc:S2ACrypter::Unprotect"]}
{"id": "C03", "title": "Protected size is exact", "statement": "NumberBytesToProtect(n) is exactly the number of bytes a successful Protect of n bytes writes: n plus 22 bytes for each of max(1, ceil(n/16384)) records.", "quantifier": "every plaintext length n and every buffer split", "why_tests_cant": "Size arithmetic must be right at every multiple of 16384 and for every length, not at sampled ones.", "anchors": ["src/frame_protector/s2a_frame_protector.cc:S2AFrameProtector::NumberBytesToProtect", "src/frame_protector/s2a_frame_protector.cc:S2AFrameProtector::Protect"]}
{"id": "C04", "title": "Every emitted record is a well-formed TLS 1.3 record", "statement": "The bytes produced by Protect parse as a concatenation of records with header 17 03 03 and a length field equal to the payload that follows; each record is at most MaxRecordSize() bytes, its payload is at most 2^14+256 bytes, and all records but the last carry exactly 16384 plaintext bytes.", "quantifier": "every plaintext, split and state in which Protect succeeds", "why_tests_cant": "Must hold for every length including boundaries of the 16-bit length field.", "anchors": ["src/frame_protector/s2a_frame_protector.cc:S2AFrameProtector::Protect", "src/record_protocol/s2a_crypter.cc:WriteTls13RecordHeader", "src/record_protocol/s2a_crypter.cc:S2ACrypter::Protect"]}
{"id": "C05", "title": "Protect ignores how the plaintext is split", "statement": "The output and the state change of Protect depend only on the concatenation of the input buffers (empty and null zero-length buffers included).", "quantifier": "every pair of buffer lists with the same concatenation", "why_tests_cant": "Exponentially many splits of each plaintext.", "anchors": ["src/frame_protector/s2a_frame_protector.cc:S2AFrameProtector::Protect", "src/record_protocol/s2a_crypter.cc:S2ACrypter::Protect", "src/crypto/aes_gcm_crypter.cc:AesGcmS2AAeadCrypter::Encrypt"]}
{"id": "C06", "title": "Unprotect ignores how the protected bytes are split", "statement": "The result of Unprotect depends only on the concatenation of the (non-empty) input buffers: record headers, payloads and tags may straddle buffers anywhere.", "quantifier": "every pair of lists of non-empty buffers with the same concatenation", "why_tests_cant": "Exponentially many splits, each crossing header, payload and tag at different points.", "anchors": ["src/frame_protector/s2a_frame_protector.cc:ComputeTlsRecordSize", "src/frame_protector/s2a_frame_protector.cc:IsolateTlsPayload", "src/frame_protector/s2a_frame_protector.cc:S2AFrameProtector::Unprotect"]}
{"id": "C07", "title": "Unprotect never reads outside the supplied buffers", "statement": "Whatever bytes the peer sends and however they are split, Unprotect reads only inside the supplied buffers, never dereferences null and never underflows a size.", "quantifier": "every byte string and every list of well-formed buffers", "why_tests_cant": "Absence of out-of-bounds access for all inputs is not observable by running finitely many inputs.", "anchors": ["src/frame_protector/s2a_frame_protector.cc:ComputeTlsRecordSize", "src/frame_protector/s2a_frame_protector.cc:IsolateTlsPayload", "src/frame_protector/s2a_frame_protector.cc:S2AFrameProtector::Unprotect", "src/record_protocol/s2a_crypter.cc:S2ACrypter::Unprotect"]}
{"id": "C08", "title": "Partial records are rejected", "statement": "If the bytes given to the allocating Unprotect are not a concatenation of complete TLS records, Unprotect returns an error status (as the header file documents).", "quantifier": "every byte string that ends in a partial record", "why_tests_cant": "Every truncation point of every record sequence.", "anchors": ["include/s2a_frame_protector.h:Unprotect", "src/frame_protector/s2a_frame_protector.cc:S2AFrameProtector::Unprotect"]}
{"id": "C09", "title": "Single-record Unprotect rejects anything but one record", "statement": "The non-allocating Unprotect returns an error if its input is a partial record or more than one record (as the header file documents).", "quantifier": "every byte string that is not exactly one record", "why_tests_cant": "Every possible trailing byte string.", "anchors": ["include/s2a_frame_protector.h:Unprotect", "src/frame_protector/s2a_frame_protector.cc:S2AFrameProtector::Unprotect"]}
{"id": "C10", "title": "Protect's buffer is owned exactly once", "statement": "Every buffer Protect obtains from the allocator is either handed to the caller or passed to destroy exactly once, never both and never twice.", "quantifier": "every input, state and crypto-library failure", "why_tests_cant": "Failures at each encryption step must be covered; the existing tests never fail inside Protect.", "anchors": ["src/frame_protector/s2a_frame_protector.cc:S2AFrameProtector::Protect"]}
{"id": "C11", "title": "Unprotect's buffers are owned exactly once", "statement": "Every buffer Unprotect obtains from the allocator is returned in the Result or passed to destroy exactly once; on error no buffer is lost.", "quantifier": "every input, at every position of the first failing record", "why_tests_cant": "Failure can occur after any number of good records.", "anchors": ["src/frame_protector/s2a_frame_protector.cc:S2AFrameProtector::Unprotect"]}
{"id": "C12", "title": "Only authentic records are accepted", "statement": "Unprotect delivers application data from a record only if the record's last 16 bytes equal the AEAD tag for the current key, the nonce for the current sequence number, the received 5-byte header as associated data and the received ciphertext; and the data delivered is the decryption of that ciphertext.", "quantifier": "every received record, in every reachable state, with any crypto-library failures", "why_tests_cant": "Rejection must hold for every forged record, not sampled corruptions.", "anchors": ["src/record_protocol/s2a_crypter.cc:S2ACrypter::Unprotect", "src/record_protocol/s2a_half_connection.cc:S2AHalfConnection::Decrypt", "src/crypto/aes_gcm_crypter.cc:AesGcmS2AAeadCrypter::Decrypt"]}
{"id": "C13", "title": "Rejected records reveal no plaintext", "statement": "When the record layer's Unprotect rejects a record (does not return OK), it reports zero bytes written and leaves no decrypted byte in the caller's plaintext buffer.", "quantifier": "every record and every state", "why_tests_cant": "Must hold for every error path and every buffer size.", "anchors": ["src/record_protocol/s2a_crypter.cc:S2ACrypter::Unprotect", "src/record_protocol/s2a_crypter.cc:ZeroOutIovec"]}
{"id": "C14", "title": "No nonce is ever reused under one key", "statement": "Over the lifetime of a connection, no two encryptions made under the same traffic key use the same nonce, whatever the order of Protect, Unprotect and key-update calls and whatever fails.", "quantifier": "all histories of any length", "why_tests_cant": "Uniqueness over up to 2^64 operations cannot be tested.", "anchors": ["src/record_protocol/s2a_half_connection.cc:S2AHalfConnection::NonceMask", "src/record_protocol/s2a_half_connection.cc:S2AHalfConnection::Encrypt", "src/record_protocol/s2a_half_connection.cc:S2AHalfConnection::UpdateKey"]}
{"id": "C15", "title": "Sequence-number exhaustion is fail-stop", "statement": "Once the 64-bit sequence number has been used up, every further encryption or decryption in that direction fails without calling the AEAD, until the key is updated; the number of operations allowed from sequence s is exactly 2^64 - s.", "quantifier": "every starting sequence number and every history", "why_tests_cant": "Needs 2^64 operations to reach by running.", "anchors": ["src/record_protocol/s2a_half_connection.cc:S2AHalfConnection::NonceMask", "src/record_protocol/s2a_half_connection.cc:S2AHalfConnection::Encrypt", "src/record_protocol/s2a_half_connection.cc:S2AHalfConnection::Decrypt"]}
{"id": "C16", "title": "Per-record nonce follows RFC 8446 section 5.3", "statement": "The nonce of the record with sequence number s is the static IV XORed with s, encoded in 8 network-order bytes and left-padded with zeros to 12.", "quantifier": "every IV and every 64-bit sequence number", "why_tests_cant": "2^64 sequence numbers and 2^96 IVs.", "anchors": ["src/record_protocol/s2a_half_connection.cc:S2AHalfConnection::NonceMask"]}
{"id": "C17", "title": "Traffic keys follow RFC 8446 sections 7.2 and 7.3", "statement": "After n key updates the key and IV in use are HKDF-Expand-Label(secret_n, \"key\"/\"iv\"), where secret_{n+1} = HKDF-Expand-Label(secret_n, \"traffic upd\") with empty context and the hash of the ciphersuite.", "quantifier": "every ciphersuite, initial traffic secret and number n of updates", "why_tests_cant": "Unbounded number of updates; compatibility with the peer requires equality for every secret.", "anchors": ["src/record_protocol/s2a_half_connection.cc:AdvanceSecret", "src/record_protocol/s2a_half_connection.cc:DeriveSecret", "src/record_protocol/s2a_half_connection.cc:DeriveKey", "src/record_protocol/s2a_half_connection.cc:DeriveNonce", "src/record_protocol/s2a_half_connection.cc:S2AHalfConnection::UpdateKey"]}
{"id": "C18", "title": "Key derivation is RFC 5869 HKDF-Expand", "statement": "The key-derivation entry point fills its output with HKDF-Expand(prk, info, L) for every L up to 255 blocks, also when the output buffer is the prk buffer itself for one-block outputs, and fails without writing beyond the buffer otherwise.", "quantifier": "every prk, info, output length and hash function", "why_tests_cant": "All lengths and all inputs.", "anchors": ["src/crypto/hkdf.cc:HkdfDerivation", "src/crypto/hkdf.cc:HkdfDeriveSecret"]}
{"id": "C19", "title": "Close-notify is final", "statement": "After a close-notify alert has been received, every later Unprotect reports end of data, decrypts nothing and changes no state.", "quantifier": "every history containing a close_notify and every later input", "why_tests_cant": "All continuations of all histories.", "anchors": ["src/record_protocol/s2a_crypter.cc:S2ACrypter::Unprotect"]}
{"id": "C20", "title": "Record size limits are enforced", "statement": "Unprotect rejects a record whose payload exceeds 2^14+256 bytes or whose plaintext exceeds 2^14 bytes plus padding limits, and Protect refuses plaintexts above 2^14 bytes and output buffers that are too small, all without touching keys or sequence numbers of the refused call.", "quantifier": "every payload and plaintext length", "why_tests_cant": "All lengths, in particular each side of each boundary.", "anchors": ["src/record_protocol/s2a_crypter.cc:S2ACrypter::Protect", "src/record_protocol/s2a_crypter.cc:S2ACrypter::Unprotect"]}
{"id": "C21", "title": "Record padding is removed exactly", "statement": "For every content, content type and amount of zero padding, Unprotect strips exactly the padding and the type byte; content that itself ends in zeros is preserved; an all-zero inner plaintext is rejected as an invalid record.", "quantifier": "every content, every padding length", "why_tests_cant": "Content ending in zero bytes and every padding length.", "anchors": ["src/record_protocol/s2a_crypter.cc:S2ACrypter::Unprotect"]}
{"id": "C22", "title": "Handshake messages survive any fragmentation", "statement": "The session tickets and key updates recognised do not depend on how the peer's handshake byte stream is cut into records (for streams of non-empty messages with the key update last in its record).", "quantifier": "every list of handshake messages and every way of cutting the stream into records", "why_tests_cant": "Exponentially many cuts.", "anchors": ["src/record_protocol/handshake_message_handler.cc:HandshakeMessageHandler::ProcessHandshakeMessage", "src/record_protocol/handshake_message_handler.cc:HandshakeMessageHandler::StoreMessageFragment"]}
{"id": "C23", "title": "At most five tickets, each byte-exact", "statement": "The tickets handed to the ticket sender are the first at most five session tickets received, in order of arrival, each byte-for-byte the whole handshake message including its 4-byte header.", "quantifier": "every sequence of tickets, any count, size and fragmentation", "why_tests_cant": "Unbounded counts and sizes.", "anchors": ["src/record_protocol/handshake_message_handler.cc:HandshakeMessageHandler::AddTicketToStore", "src/record_protocol/handshake_message_handler.cc:HandshakeMessageHandler::GetStoredTickets", "src/record_protocol/s2a_crypter.cc:S2ACrypter::RetrieveStoredTicketsAndSendToS2A"]}
{"id": "C24", "title": "Tickets are sent at most once", "statement": "Over the life of a connection the ticket sender is invoked at most once, and never with an empty list of tickets.", "quantifier": "all histories of calls", "why_tests_cant": "All interleavings of tickets, data, alerts and key updates.", "anchors": ["src/record_protocol/s2a_crypter.cc:S2ACrypter::RetrieveStoredTicketsAndSendToS2A", "src/record_protocol/s2a_crypter.cc:S2ACrypter::HandleProcessHandshakeMessageResult"]}
{"id": "C25", "title": "Received tickets are not lost", "statement": "If complete tickets were received and then application data arrives (or the fifth ticket completes), the received tickets have been handed to the ticket sender.", "quantifier": "all histories", "why_tests_cant": "All fragmentations of the ticket that follows the fifth.", "anchors": ["src/record_protocol/s2a_crypter.cc:S2ACrypter::HandleProcessHandshakeMessageResult", "src/record_protocol/s2a_crypter.cc:S2ACrypter::RetrieveStoredTicketsAndSendToS2A", "src/record_protocol/handshake_message_handler.cc:HandshakeMessageHandler::GetStoredTickets"]}
{"id": "C26", "title": "A key update advances the receive key exactly once", "statement": "Each KeyUpdate message received from the peer advances the inbound key exactly once, at the end of the record that completes it, however the message is fragmented.", "quantifier": "every fragmentation of the key update and every state", "why_tests_cant": "All fragmentations.", "anchors": ["src/record_protocol/s2a_crypter.cc:S2ACrypter::HandleProcessHandshakeMessageResult", "src/record_protocol/handshake_message_handler.cc:HandshakeMessageHandler::ProcessHandshakeMessage"]}
{"id": "C27", "title": "A key update must be the last message of its record", "statement": "If handshake bytes follow a KeyUpdate in the same record, Unprotect fails and the inbound key is not advanced.", "quantifier": "every trailing byte string", "why_tests_cant": "All trailing byte strings and states.", "anchors": ["src/record_protocol/handshake_message_handler.cc:HandshakeMessageHandler::ProcessHandshakeMessage"]}
{"id": "C28", "title": "Unexpected handshake messages are refused for good", "statement": "A handshake message of any type other than NewSessionTicket or KeyUpdate, or a KeyUpdate whose request byte is not 0 or 1, makes Unprotect fail; after an unexpected type no later handshake record is accepted.", "quantifier": "all 254 other types, all 254 other request bytes, all continuations", "why_tests_cant": "All continuations.", "anchors": ["src/record_protocol/handshake_message_handler.cc:HandshakeMessageHandler::GetMessageType", "src/record_protocol/handshake_message_handler.cc:HandshakeMessageHandler::GetKeyUpdateType"]}
{"id": "C29", "title": "Handshake bytes cannot trigger undefined behaviour", "statement": "Whatever handshake bytes an authenticated peer sends, in whatever records, processing them has no undefined behaviour (no out-of-range read, no shift by a negative amount).", "quantifier": "every sequence of handshake records", "why_tests_cant": "All byte strings and all record boundaries.", "anchors": ["src/record_protocol/handshake_message_handler.cc:HandshakeMessageHandler::GetMessageDataSizeFromHeader", "src/record_protocol/handshake_message_handler.cc:HandshakeMessageHandler::ProcessHandshakeMessage"]}
{"id": "C30", "title": "No application data or alert inside a fragmented handshake message", "statement": "While a handshake message is incomplete, Unprotect of a record of another type fails; and it succeeds again only with handshake data.", "quantifier": "every state with an incomplete handshake message and every record", "why_tests_cant": "All states reached by fragmentation.", "anchors": ["src/record_protocol/s2a_crypter.cc:S2ACrypter::Unprotect"]}
{"id": "C31", "title": "The two directions are independent", "statement": "The results of the Protect calls of a connection and the results of its Unprotect calls do not depend on how the two sequences of calls are interleaved.", "quantifier": "every sequence of Protect calls, every sequence of Unprotect calls, every interleaving", "why_tests_cant": "Exponentially many interleavings.", "anchors": ["include/s2a_frame_protector.h:S2AFrameProtector", "src/record_protocol/s2a_crypter.cc:S2ACrypter::Protect", "src/record_protocol/s2a_crypter.cc:S2ACrypter::Unprotect"]}
{"id": "C32", "title": "Protect and Unprotect may run concurrently without touching freed memory", "statement": "In every schedule of one thread calling Protect and another calling Unprotect, no thread accesses an AEAD object that another thread has replaced and freed, and no unlocked read races with a locked write.", "quantifier": "every schedule of the two threads' atomic steps and every sequence of received records", "why_tests_cant": "Races depend on the schedule.", "anchors": ["src/record_protocol/s2a_crypter.cc:S2ACrypter::RecordOverhead", "src/record_protocol/s2a_half_connection.cc:S2AHalfConnection::TagLength", "src/record_protocol/s2a_half_connection.cc:S2AHalfConnection::UpdateKey"]}
{"id": "C33", "title": "A failed key update poisons the direction", "statement": "If a key update fails at any step, every later encryption and decryption in that direction fails, forever, even if a later key-update call reports success.", "quantifier": "every failing step and every continuation", "why_tests_cant": "All continuations.", "anchors": ["src/record_protocol/s2a_half_connection.cc:S2AHalfConnection::UpdateKey", "src/record_protocol/s2a_half_connection.cc:S2AHalfConnection::Encrypt"]}
{"id": "C34", "title": "AEAD ignores buffer splits", "statement": "AEAD Encrypt and Decrypt compute a function of the concatenations of associated data and input only, for every split into buffers, null empty buffers included.", "quantifier": "every split of associated data, plaintext and ciphertext", "why_tests_cant": "Exponentially many splits.", "anchors": ["src/crypto/aes_gcm_crypter.cc:AesGcmS2AAeadCrypter::Encrypt", "src/crypto/aes_gcm_crypter.cc:AesGcmS2AAeadCrypter::Decrypt", "src/crypto/chacha_poly_crypter_openssl.cc:ChachaPolyS2AAeadCrypter::Encrypt", "src/crypto/chacha_poly_crypter_boringssl.cc:ChachaPolyS2AAeadCrypter::Encrypt"]}
{"id": "C35", "title": "AEAD round trip", "statement": "Decrypt of Encrypt's output with the same nonce and associated data returns the plaintext; Encrypt writes exactly plaintext plus 16 bytes and Decrypt exactly ciphertext minus 16.", "quantifier": "every key, nonce, associated data, plaintext and split", "why_tests_cant": "All inputs.", "anchors": ["src/crypto/aes_gcm_crypter.cc:AesGcmS2AAeadCrypter::Encrypt", "src/crypto/aes_gcm_crypter.cc:AesGcmS2AAeadCrypter::Decrypt"]}
{"id": "C36", "title": "AEAD stays inside its buffers", "statement": "For well-formed buffers Encrypt and Decrypt read only the inputs and write only the output buffer; in particular the 16-byte tag is assembled exactly from the last 16 input bytes wherever buffer boundaries fall.", "quantifier": "every split, every output size, every library failure", "why_tests_cant": "All splits of the tag over buffers.", "anchors": ["src/crypto/aes_gcm_crypter.cc:AesGcmS2AAeadCrypter::Decrypt", "src/crypto/chacha_poly_crypter_openssl.cc:ChachaPolyS2AAeadCrypter::Decrypt", "src/crypto/chacha_poly_crypter_boringssl.cc:ChachaPolyS2AAeadCrypter::Decrypt"]}
{"id": "C37", "title": "AEAD decryption failure leaves no plaintext", "statement": "When AEAD Decrypt fails, it reports zero bytes and leaves the output buffer without decrypted bytes.", "quantifier": "every input and every failure point", "why_tests_cant": "All failure points.", "anchors": ["src/crypto/aes_gcm_crypter.cc:AesGcmS2AAeadCrypter::Decrypt", "src/crypto/chacha_poly_crypter_openssl.cc:ChachaPolyS2AAeadCrypter::Decrypt"]}
{"id": "C38", "title": "OpenSSL and BoringSSL builds interoperate", "statement": "The two ChaCha20-Poly1305 implementations compute the same function, so a record protected by either build is accepted by the other with the same plaintext.", "quantifier": "all inputs and splits", "why_tests_cant": "All inputs; no test runs both builds against each other.", "anchors": ["src/crypto/chacha_poly_crypter_openssl.cc", "src/crypto/chacha_poly_crypter_boringssl.cc"]}
{"id": "C39", "title": "Options copies are faithful and independent", "statement": "Copy() of options has equal observable contents, and later changes to either do not show in the other; setters accumulate in call order.", "quantifier": "every sequence of setter calls before and after the copy", "why_tests_cant": "All histories of setter calls.", "anchors": ["src/options/s2a_options.cc:S2AOptions::Copy", "src/options/s2a_options.cc"]}
{"id": "C40", "title": "Enum and identity conversions round trip", "statement": "Converting a TLS version, ciphersuite or identity to its protobuf form and back gives the original; values without a counterpart are refused.", "quantifier": "all values, all identity strings", "why_tests_cant": "Unbounded identity strings and every out-of-range integer.", "anchors": ["src/handshaker/s2a_util.cc"]}
{"id": "C41", "title": "Serialized contexts deserialize to the same context", "statement": "GetS2AContextFromSerializedContext(GetSerializedContext(c)) equals c for every context c.", "quantifier": "every context, i.e. every combination of strings, identities and enum values", "why_tests_cant": "All strings, including cert fingerprints with any bytes.", "anchors": ["src/handshaker/s2a_context.cc:S2AContext::GetSerializedContext", "src/handshaker/s2a_context.cc:S2AContext::GetS2AContextFromSerializedContext"]}
{"id": "C42", "title": "The proxy's first message starts the session and all later ones continue it", "statement": "In every history, the first successful GetBytesForS2A emits a client-start (client) or server-start (server) request, and every later one emits a next request carrying exactly the given bytes, until the handshake finishes, after which it is refused.", "quantifier": "all histories of GetBytesForS2A and GetBytesForPeer calls", "why_tests_cant": "All histories.", "anchors": ["src/handshaker/s2a_proxy.cc:S2AProxy::GetBytesForS2A", "src/handshaker/s2a_proxy.cc:S2AProxy::GetClientStart", "src/handshaker/s2a_proxy.cc:S2AProxy::GetServerStart", "src/handshaker/s2a_proxy.cc:S2AProxy::GetNext"]}
{"id": "C43", "title": "Start requests carry the configured options", "statement": "Parsing the emitted client-start or server-start request yields exactly the configured TLS versions, ciphersuites in order, each target identity exactly once, local identities, target name, application protocols and (server) the peer's bytes.", "quantifier": "every valid configuration", "why_tests_cant": "All configurations, any number of entries, any strings.", "anchors": ["src/handshaker/s2a_proxy.cc:S2AProxy::GetClientStart", "src/handshaker/s2a_proxy.cc:S2AProxy::GetServerStart"]}
{"id": "C44", "title": "A failed S2A response does not advance the handshake", "statement": "If the bytes from S2A do not parse, carry no status or carry a non-OK status, GetBytesForPeer returns an error, emits nothing for the peer and leaves the proxy's state unchanged.", "quantifier": "every byte string and every state", "why_tests_cant": "All byte strings.", "anchors": ["src/handshaker/s2a_proxy.cc:S2AProxy::GetBytesForPeer"]}
{"id": "C45", "title": "Handshake completion is monotone and only S2A can cause it", "statement": "IsHandshakeFinished becomes true only by processing a response with OK status that carries a result, and never becomes false again; after that no call sends or accepts handshake messages.", "quantifier": "all histories", "why_tests_cant": "All histories.", "anchors": ["src/handshaker/s2a_proxy.cc:S2AProxy::GetBytesForPeer", "src/handshaker/s2a_proxy.cc:S2AProxy::IsHandshakeFinished"]}
{"id": "C46", "title": "Frame protectors are created only from a complete, valid result", "statement": "CreateFrameProtector succeeds only after GetBytesForPeer reported success with a result, has no undefined behaviour otherwise, and uses the TLS version, ciphersuite, traffic secrets, sequence numbers and connection id of that result.", "quantifier": "all histories and all responses", "why_tests_cant": "All malformed responses.", "anchors": ["src/handshaker/s2a_proxy.cc:S2AProxy::CreateFrameProtector", "src/handshaker/s2a_proxy.cc:S2AProxy::GetBytesForPeer"]}
{"id": "C47", "title": "Tokens are presented for the right identity only", "statement": "A request to S2A carries, for each authentication mechanism, exactly the token the token manager gave for the identity named in that mechanism; once a local identity has been selected only that identity's token is sent.", "quantifier": "all configurations, token managers and histories", "why_tests_cant": "All token managers and histories.", "anchors": ["src/handshaker/s2a_proxy.cc:S2AProxy::PopulateTokenCache", "src/handshaker/s2a_proxy.cc:S2AProxy::GetNext", "src/handshaker/s2a_proxy.cc:S2AProxy::GetClientStart"]}
{"id": "C48", "title": "Invalid client configurations send nothing", "statement": "If a client is configured with more than one local identity, or with an identity or enum value that has no wire form, GetBytesForS2A fails, emits no bytes and leaves the proxy unstarted.", "quantifier": "all such configurations", "why_tests_cant": "All configurations.", "anchors": ["src/handshaker/s2a_proxy.cc:S2AProxy::GetClientStart"]}
{"id": "C49", "title": "Peer and local identity of the result agree with what was requested", "statement": "The identity in the final result is the local identity announced earlier in the handshake, and (client) the peer identity is one of the configured target identities.", "quantifier": "all responses", "why_tests_cant": "All responses.", "anchors": ["src/handshaker/s2a_proxy.cc:S2AProxy::GetBytesForPeer"]}
{"id": "C50", "title": "The S2A context reports the result faithfully, every time", "statement": "After a finished handshake, GetS2AContext returns a context with exactly the application protocol, TLS version, ciphersuite, identities, certificate fingerprints and resumption flag of the result, on every call.", "quantifier": "all results and call sequences", "why_tests_cant": "All results; repeated calls.", "anchors": ["src/handshaker/s2a_proxy.cc:S2AProxy::GetS2AContext", "src/handshaker/s2a_proxy.cc:S2AProxy::GetBytesForPeer"]}
{"id": "C51", "title": "Single-token manager is constant", "statement": "The single-token access token manager returns, for every identity and at any time, the token that was in the environment when it was created, and it cannot be created without one.", "quantifier": "all identities and later environment changes", "why_tests_cant": "All later environments.", "anchors": ["src/token_manager/s2a_single_token_access_token_manager.cc"]}
{"id": "C52", "title": "Ticket requests carry the tickets", "statement": "Parsing the resumption-ticket request yields exactly the given tickets in order, the connection id and the local identity.", "quantifier": "all lists of tickets, ids and identities", "why_tests_cant": "All lists.", "anchors": ["src/record_protocol/s2a_upb_ticket_sender.cc:PrepareResumptionTicketReq"]}
{"id": "C53", "title": "Frame protectors made from one handshake never share nonces", "statement": "No two records protected by frame protectors obtained from the same proxy use the same key and nonce.", "quantifier": "all histories of CreateFrameProtector and Protect", "why_tests_cant": "All histories.", "anchors": ["src/handshaker/s2a_proxy.cc:S2AProxy::CreateFrameProtector", "src/record_protocol/s2a_half_connection.cc:S2AHalfConnection::NonceMask"]}
{"id": "C54", "title": "Bytes from S2A for the peer are forwarded verbatim", "statement": "GetBytesForPeer returns exactly the out_frames of the response whenever the response parses, also if S2A reports an error status (s2a.proto says out_frames must be sent to the peer even then).", "quantifier": "all responses", "why_tests_cant": "All responses.", "anchors": ["src/handshaker/s2a_proxy.cc:S2AProxy::GetBytesForPeer", "proto/s2a.proto:SessionResp"]}
{"id": "C55", "title": "Frame-protector errors are real errors", "statement": "Unprotect of the frame protector reports an OK status only if every complete record was authentic application data or an accepted handshake record; alerts, forged records and malformed records never look like success.", "quantifier": "all inputs and states", "why_tests_cant": "All inputs.", "anchors": ["src/frame_protector/s2a_frame_protector.cc:ConvertStatusCode", "src/frame_protector/s2a_frame_protector.cc:S2AFrameProtector::Unprotect"]}
{"id": "C56", "title": "Unprotected size bound is sufficient", "statement": "A buffer of NumberBytesToUnprotect(record length) bytes is always large enough for the non-allocating Unprotect of a record of that length, and the allocating Unprotect never writes past the buffers it allocates.", "quantifier": "all records", "why_tests_cant": "All record sizes.", "anchors": ["src/frame_protector/s2a_frame_protector.cc:S2AFrameProtector::NumberBytesToUnprotect", "src/frame_protector/s2a_frame_protector.cc:S2AFrameProtector::Unprotect"]}
{"id": "C57", "title": "Losing, duplicating or reordering records is detected or harmless to integrity", "statement": "In any delivery schedule of the peer's records (dropped, repeated, reordered, forged), every record that Unprotect accepts verifies under the nonce of its own position in the receive order; a replay is accepted only if the AEAD tags of two different nonces collide.", "quantifier": "all delivery schedules", "why_tests_cant": "All schedules.", "anchors": ["src/record_protocol/s2a_crypter.cc:S2ACrypter::Unprotect", "src/record_protocol/s2a_half_connection.cc:S2AHalfConnection::Decrypt"]}
{"id": "C58", "title": "Bad creation parameters never yield a usable object", "statement": "Creating an AEAD crypter, half connection, crypter or frame protector fails for a wrong key size, a wrong traffic-secret size for the ciphersuite, a TLS version other than 1.3, an unknown ciphersuite, an empty S2A address or a missing callback; and succeeds for the right sizes when the crypto library does not fail.", "quantifier": "all keys, secrets, enum values", "why_tests_cant": "All sizes and values.", "anchors": ["src/crypto/aes_gcm_crypter.cc:CreateAesGcmAeadCrypter", "src/record_protocol/s2a_half_connection.cc:S2AHalfConnection::Create", "src/record_protocol/s2a_crypter.cc:S2ACrypter::Create", "src/frame_protector/s2a_frame_protector.cc:S2AFrameProtector::Create"]}
{"id": "C59", "title": "No deadlock", "statement": "Whatever methods of one frame protector or of one proxy any number of threads call, in any schedule, the threads never all wait for locks: as long as some thread has not finished, some thread can take its next step.", "quantifier": "any number of threads, all sequences of calls and outcomes per thread, every schedule", "why_tests_cant": "Deadlocks depend on the schedule.", "anchors": ["src/frame_protector/s2a_frame_protector.cc:S2AFrameProtector::Protect", "src/frame_protector/s2a_frame_protector.cc:S2AFrameProtector::Unprotect", "src/record_protocol/s2a_half_connection.cc:S2AHalfConnection::UpdateKey", "src/handshaker/s2a_proxy.cc:S2AProxy::GetBytesForPeer"]}
{"id": "C60", "title": "Threads may share a proxy", "statement": "In every schedule of threads that call the methods of one proxy, no thread uses a handshake result that another thread has replaced and freed, and there is no data race on the members of the proxy.", "quantifier": "any number of threads, all sequences of calls per thread, every schedule", "why_tests_cant": "Races depend on the schedule.", "anchors": ["src/handshaker/s2a_proxy.cc:S2AProxy::GetBytesForPeer", "src/handshaker/s2a_proxy.cc:S2AProxy::CreateFrameProtector", "src/handshaker/s2a_proxy.cc:S2AProxy::GetS2AContext", "src/handshaker/s2a_proxy.cc:S2AProxy::IsHandshakeFinished"]}
{"id": "C61", "title": "An attacker on the network can only withhold", "statement": "Whatever bytes reach a connection, in whatever order, and whatever its peer sends meanwhile (with key updates on either side, failed calls and library failures): unless the AEAD accepts a ciphertext that neither end produced under that key, nonce and header, or two traffic keys collide, the data the connection delivers is a subsequence of the data its peer protected: nothing is inserted, changed, delivered twice, reordered or reflected back to its sender.", "quantifier": "all histories of calls at both ends, all bytes given to the receiver, all ciphersuites, secrets, sequence numbers, crypto library results and failures", "why_tests_cant": "The attacker may answer with any bytes at any time; tests try a few manipulations.", "anchors": ["src/record_protocol/s2a_crypter.cc:S2ACrypter::Unprotect", "src/record_protocol/s2a_crypter.cc:S2ACrypter::Protect", "src/record_protocol/s2a_half_connection.cc:S2AHalfConnection::Decrypt", "src/record_protocol/s2a_half_connection.cc:S2AHalfConnection::UpdateKey"]}
{"id": "C62", "title": "Until the first error the receiver has a prefix of the stream", "statement": "Two frame protectors with matching keys; an attacker decides which bytes reach the receiver, in which pieces. As long as no Protect call of the sender and no Unprotect call of the receiver has reported an error (and no AEAD forgery or key collision happened), the bytes delivered are a prefix of the bytes sent: nothing is lost in the middle either.", "quantifier": "all histories of calls at both ends, all bytes given to the receiver and all ways of cutting them, allocating and in-place calls, all message sizes", "why_tests_cant": "Holds for every manipulation of the byte stream and every fragmentation.", "anchors": ["src/frame_protector/s2a_frame_protector.cc:S2AFrameProtector::Unprotect", "src/frame_protector/s2a_frame_protector.cc:S2AFrameProtector::Protect", "src/record_protocol/s2a_crypter.cc:S2ACrypter::Unprotect"]}
{"id": "C63", "title": "A truncated stream never looks complete", "statement": "Two connections with matching keys; an attacker decides which bytes reach the receiver. The sender sends data, tickets, alerts and key updates, and no data after an alert. If the first Unprotect call of the receiver that does not succeed reports close-notify (and no AEAD forgery or key collision happened), then the receiver has delivered every byte of application data the sender sent.", "quantifier": "all histories of the sender that follow RFC 8446 (a key update message is followed by the sender's own key update), all bytes given to the receiver, all library failures", "why_tests_cant": "Tests cut a stream at chosen places; the claim is about every way of dropping, replaying and reordering records, across key updates.", "anchors": ["src/record_protocol/s2a_crypter.cc:Unprotect", "src/record_protocol/s2a_crypter.cc:Protect", "src/record_protocol/s2a_crypter.cc:UpdateOutboundKey"]}
{"id": "C64", "title": "A failing Unprotect call loses no data", "statement": "What an accepted record carried is handed to the user, even if a later record in the same allocating Unprotect call is rejected or is a close-notify alert.", "quantifier": "all histories of calls on a frame protector, all bytes given to it, all ways of grouping records into calls", "why_tests_cant": "Which data is lost depends on how the network groups records into reads, and on where the first bad record is.", "anchors": ["src/frame_protector/s2a_frame_protector.cc:Unprotect"]}
{"id": "C65", "title": "From two handshakes to delivered data", "statement": "A client and a server complete the handshake through their proxies. If the last session states their S2As report belong to one session (same ciphersuite, keys and sequence numbers mirrored), then CreateFrameProtector succeeds at both ends for TLS 1.3 and keys of the right size, and the two frame protectors deliver what is sent, in order, in both directions, across key updates; with an attacker on the network, a prefix of it.", "quantifier": "all histories of calls on both proxies, all session states, all exchanges of messages and key updates, all bytes an attacker delivers", "why_tests_cant": "Tests use fixed keys and one fixed handshake; the claim composes every handshake history with every exchange of data.", "anchors": ["src/handshaker/s2a_proxy.cc:CreateFrameProtector", "src/handshaker/s2a_proxy.cc:GetBytesForPeer", "src/frame_protector/s2a_frame_protector.cc:Protect", "src/frame_protector/s2a_frame_protector.cc:Unprotect"]}
{"id": "C66", "title": "Concurrent calls behave as if made one after the other", "statement": "When several threads call Protect and Unprotect on one frame protector, and no thread is inside the non-allocating Unprotect while another is inside an Unprotect, there is an order of the calls, in which a call that returned before another began comes first, such that making the calls one after the other in this order gives every thread the results it got and leaves the connection in the same state.", "quantifier": "all numbers of threads, all lists of calls, all schedules, all failures of the library", "why_tests_cant": "A test runs few schedules; the interleavings are unbounded.", "anchors": ["include/s2a_frame_protector.h:S2AFrameProtector::Protect", "include/s2a_frame_protector.h:S2AFrameProtector::Unprotect", "src/frame_protector/s2a_frame_protector.cc:S2AFrameProtector::Protect", "src/frame_protector/s2a_frame_protector.cc:S2AFrameProtector::Unprotect"]}
{"id": "C67", "title": "No schedule makes threads reuse a nonce", "statement": "Whatever calls threads make on one frame protector at the same time, even calls that the documentation says must not overlap, no two AEAD operations of one direction under one key use the same nonce, and all of them use the keys and nonces of RFC 8446 in sequence.", "quantifier": "all numbers of threads, all lists of calls, all schedules, all failures of the library", "why_tests_cant": "A nonce is reused only in rare interleavings, if at all, and nothing fails visibly when it is.", "anchors": ["include/s2a_frame_protector.h:S2AFrameProtector::Protect", "include/s2a_frame_protector.h:S2AFrameProtector::Unprotect", "src/frame_protector/s2a_frame_protector.cc:S2AFrameProtector::Protect", "src/frame_protector/s2a_frame_protector.cc:S2AFrameProtector::Unprotect", "src/record_protocol/s2a_half_connection.cc:S2AHalfConnection::Encrypt", "src/record_protocol/s2a_half_connection.cc:S2AHalfConnection::UpdateKey"]}
{"id": "C68", "title": "Concurrency adds no undefined behaviour and no deadlock", "statement": "If threads that use one frame protector meet undefined behaviour (other than a data race), then so do some of their calls made one after the other; and in every state every call that has begun can be brought to return.", "quantifier": "all numbers of threads, all lists of calls, all schedules, all failures of the library", "why_tests_cant": "It quantifies over all schedules, and over all states they lead to.", "anchors": ["include/s2a_frame_protector.h:S2AFrameProtector::Protect", "include/s2a_frame_protector.h:S2AFrameProtector::Unprotect", "src/frame_protector/s2a_frame_protector.cc:S2AFrameProtector::Protect", "src/frame_protector/s2a_frame_protector.cc:S2AFrameProtector::Unprotect"]}
{"id": "C69", "title": "Memory held for the peer is bounded", "statement": "Whatever bytes a peer sends, in however many records, a connection never keeps more than a fixed number of bytes of unfinished and stored handshake messages (six messages of the largest size a TLS header can announce, plus three bytes), in no more pieces than bytes.", "quantifier": "all creation arguments, all histories of calls with any buffers and any library failures", "why_tests_cant": "The bound is about unbounded streams of records and about every way to cut messages; a test sends finitely many.", "anchors": ["src/record_protocol/handshake_message_handler.cc:ProcessHandshakeMessage", "src/record_protocol/s2a_crypter.cc:S2ACrypter::Unprotect", "src/frame_protector/s2a_frame_protector.cc:S2AFrameProtector::Unprotect"]}
{"id": "C70", "title": "The end of the stream is recognizable", "statement": "After the peer's close-notify alert, no Unprotect call on the frame protector returns OK or any data, and the status of the call that receives the alert tells the caller that the stream has ended, as opposed to a record that does not authenticate.", "quantifier": "all histories before and after the alert, all buffers, all library failures", "why_tests_cant": "Every continuation after an alert would have to be tried; unit tests look at the crypter's own code, not at the status the frame protector makes of it.", "anchors": ["src/frame_protector/s2a_frame_protector.cc:ConvertStatusCode,S2AFrameProtector::Unprotect", "src/record_protocol/s2a_crypter.cc:S2ACrypter::Unprotect"]}
{"id": "C71", "title": "Key update requests are honoured", "statement": "A frame protector encrypts with the traffic key of the secret it was created with until the peer asks for a key update; then its next record is a key update of its own and later ones use the next key.", "quantifier": "all histories of calls, with any buffers and any library failures", "why_tests_cant": "Which key a record is encrypted with is not visible in its length or status, and it must be right for every history of key updates.", "anchors": ["src/record_protocol/s2a_crypter.cc:S2ACrypter::HandleProcessHandshakeMessageResult,S2ACrypter::UpdateOutboundKey", "src/frame_protector/s2a_frame_protector.cc:S2AFrameProtector::Protect"]}
{"id": "C72", "title": "Destroying a connection waits for its ticket request", "statement": "The destructor of a connection waits exactly once for every ticket request that its ticket sender has started and not finished, and logs an error exactly if such a request failed.", "quantifier": "all histories of calls, all ticket senders", "why_tests_cant": "Whether a request is outstanding depends on the history of received messages.", "anchors": ["src/record_protocol/s2a_crypter.cc:S2ACrypter::~S2ACrypter,S2ACrypter::RetrieveStoredTicketsAndSendToS2A"]}
{"id": "C73", "title": "Tickets received by a frame protector reach S2A", "statement": "The session tickets that a frame protector has received are sent to S2A in one request that names the connection and the local identity.", "quantifier": "all histories of calls on a frame protector", "why_tests_cant": "No unit test connects a frame protector with an S2A, and tickets may arrive in any way.", "anchors": ["src/record_protocol/s2a_upb_ticket_sender.cc:SendTicketsToS2A,PrepareResumptionTicketReq", "src/frame_protector/s2a_frame_protector.cc:S2AFrameProtector::Create"]}
{"id": "C74", "title": "Key usage limits", "statement": "A frame protector refuses to encrypt more records under one AES-GCM key than RFC 8446 section 5.5 allows (2^24.5 records of full size).", "quantifier": "all histories of calls on a frame protector", "why_tests_cant": "A test would have to encrypt tens of millions of records.", "anchors": ["src/record_protocol/s2a_half_connection.cc:S2AHalfConnection::Encrypt", "src/frame_protector/s2a_frame_protector.cc:S2AFrameProtector::Protect"]}
{"id": "C75", "title": "Messages that several threads send over one connection arrive whole", "statement": "Several threads call Protect on one frame protector, in any interleaving, while others may call Unprotect on it; all calls have returned and the calls of Protect succeeded. Then there is an order of the messages in which each thread's messages are in the order the thread protected them, and a message whose call returned before another call began comes before it, such that the peer, given the protected bytes in this order, delivers every message whole and in this order. The order in which the calls return need not be such an order: a caller that transmits the bytes in the order of the returns can make the peer reject them.", "quantifier": "all sets of threads, calls, messages, schedules, allocators, failures of other calls, and ways to cut the bytes into non-empty pieces", "why_tests_cant": "the number of interleavings is unbounded, and a test observes the one the scheduler picks", "anchors": ["src/frame_protector/s2a_frame_protector.cc:S2AFrameProtector::Protect", "include/s2a_frame_protector.h:S2AFrameProtector::Protect", "src/frame_protector/s2a_frame_protector.cc:S2AFrameProtector::Unprotect"]}
{"id": "C76", "title": "Every conformant peer is understood", "statement": "Whatever a peer sends that follows RFC 8446 (application data in records of any size up to 2^14 bytes, session tickets in any fragmentation and number, key updates, all with any amount of padding), every Unprotect call on its records succeeds and delivers exactly the application data, record by record and in order, however the records are grouped into calls and buffers and whatever is protected in between.", "quantifier": "all record sequences of a conformant peer, all groupings of whole records into calls of both Unprotect variants and into non-empty buffers, all Protect calls in between, all sizes, paddings, numbers of tickets and key updates, all ciphersuites and starting positions", "why_tests_cant": "Tests use the records that the library itself produces: unpadded, full-sized, unfragmented. A conformant peer may choose sizes, padding and fragmentation freely; the combinations are infinite.", "anchors": ["src/frame_protector/s2a_frame_protector.cc:Unprotect", "src/record_protocol/s2a_crypter.cc:Unprotect", "src/record_protocol/handshake_message_handler.cc:ProcessHandshakeMessage"]}
{"id": "C77", "title": "Memory of a connection is released exactly once", "statement": "Whatever calls are made on a frame protector obtained from the proxy, with whatever input and results, and whenever the caller releases the buffers it was given: no memory is released twice or without having been allocated, and when the caller has released all its buffers nothing is left allocated.", "quantifier": "every history of calls, inputs and library failures, and every order in which the caller releases its buffers", "why_tests_cant": "Double frees and leaks depend on the combination of calls, failures and releases; a test covers one such history.", "anchors": ["src/handshaker/s2a_proxy.cc:Allocator", "src/handshaker/s2a_proxy.cc:Destroy", "src/frame_protector/s2a_frame_protector.cc:S2AFrameProtector::Protect", "src/frame_protector/s2a_frame_protector.cc:S2AFrameProtector::Unprotect"]}
{"id": "C78", "title": "Memory is asked for in proportion to the input", "statement": "Whatever bytes a peer sends, a call of Unprotect asks the allocator for fewer bytes than it was given and for at most one buffer for every 22 bytes; Protect asks for one buffer of the exact size of the records. The calls that write into a caller's buffer ask for nothing.", "quantifier": "every byte string, every split into buffers, every state and every library failure", "why_tests_cant": "A bound on resources for every input cannot be established by trying inputs.", "anchors": ["src/frame_protector/s2a_frame_protector.cc:S2AFrameProtector::Unprotect", "src/frame_protector/s2a_frame_protector.cc:S2AFrameProtector::Protect", "src/frame_protector/s2a_frame_protector.cc:NumberBytesToProtect"]}
{"id": "C79", "title": "The buffer sizes a crypter advertises are exact", "statement": "Encrypt of n bytes succeeds exactly when its output buffer has MaxCiphertextAndTagLength(n) bytes or more and then reports that many bytes written. Decrypt of a genuine ciphertext of m bytes, at least a tag, succeeds exactly when its output buffer has MaxPlaintextLength(m) bytes or more and then reports that many. A ciphertext shorter than a tag is refused whatever the output size. Computed in 64 bits, the two sizes are inverse for every argument, and right exactly for plaintexts of less than 2^64 - 16 bytes and ciphertexts of at least a tag; Encrypt of a longer plaintext into a buffer of the size that has wrapped around is refused.", "quantifier": "every cipher, key, associated data, plaintext or ciphertext, split into buffers and output size", "why_tests_cant": "A caller allocates by these sizes for any input length; a test tries a few lengths.", "anchors": ["src/crypto/s2a_aead_crypter.cc:MaxPlaintextLength", "src/crypto/s2a_aead_crypter.cc:MaxCiphertextAndTagLength", "src/crypto/aes_gcm_crypter.cc:Encrypt", "src/crypto/aes_gcm_crypter.cc:Decrypt", "src/crypto/chacha_poly_crypter_openssl.cc:Encrypt", "src/crypto/chacha_poly_crypter_boringssl.cc:Encrypt"]}
{"id": "C80", "title": "How records are grouped into Unprotect calls does not matter", "statement": "If complete records are passed to the allocating Unprotect in one call, the result is that of passing them in several calls, one after the other: the same plaintext buffers in the same order, the same state of the connection, and if one of the calls would fail, the one call fails with the same status (and destroys the buffers of the records before, unless the framing is broken).", "quantifier": "every reachable state, every sequence of complete records of 22 bytes or more and every way to cut it between records, whatever the contents of the records and of the buffers", "why_tests_cant": "Every grouping of every sequence of records, with the failure at any position.", "anchors": ["include/s2a_frame_protector.h:Unprotect", "src/frame_protector/s2a_frame_protector.cc:S2AFrameProtector::Unprotect"]}
{"id": "C81", "title": "A response of the S2A that is malformed or has lost its end is not acted upon", "statement": "GetBytesForPeer reads the bytes from the S2A by the grammar of protobuf messages: bytes that are no such message are refused. If a response has its status as last field, as the S2A writes it, then every proper prefix of it is refused too. A refused response gives an error, no bytes for the peer, and leaves the proxy exactly as it was. Of a field that occurs several times the last value counts, and a flag is set by every number but zero.", "quantifier": "every byte string from the S2A, every proper prefix of every response, every state of the proxy, every validation of strings", "why_tests_cant": "Every byte string and every point at which a message can be cut; a test tries a few.", "anchors": ["include/s2a_proxy.h:GetBytesForPeer", "src/handshaker/s2a_proxy.cc:S2AProxy::GetBytesForPeer", "src/proto/upb-generated/proto/s2a.upb.h:s2a_proto_SessionResp_parse", "src/proto/s2a.proto:SessionResp"]}
{"id": "C82", "title": "A serialized context that has lost its end is refused", "statement": "If some bytes at the end of a serialized S2AContext are missing, GetS2AContextFromSerializedContext fails instead of returning a context that differs from the one that was serialized.", "quantifier": "every context that can be serialized and every proper prefix of its serialization", "why_tests_cant": "Every context and every point at which its serialization can be cut.", "anchors": ["include/s2a_context.h:GetS2AContextFromSerializedContext", "src/handshaker/s2a_context.cc:GetS2AContextFromSerializedContext", "src/proto/s2a_context.proto:S2AContext"]}
{"id": "C83", "title": "Logs and error messages carry no keys, tokens or application data", "statement": "Every line a frame protector or a proxy passes to the logger, and every message of a status it returns, is one of a fixed list of sentences, in which the only variable parts are: the error queue of the cryptographic library and messages of the token manager, the one-byte content type of a record that has an unknown one, and the details of an error that the S2A sent in the response at hand. So traffic secrets, keys, access tokens, identities, plaintext and ciphertext never get into a log.", "quantifier": "every state, every call with any arguments, faults and texts of the libraries", "why_tests_cant": "A test looks at the texts of the runs it makes; that no run leaks is about all inputs.", "anchors": ["include/s2a_frame_protector.h:Protect", "include/s2a_frame_protector.h:Unprotect", "include/s2a_proxy.h:S2AProxy", "src/record_protocol/s2a_crypter.cc:S2ACrypter::Unprotect", "src/handshaker/s2a_proxy.cc:S2AProxy::GetBytesForPeer", "src/frame_protector/s2a_frame_protector.cc:logger_"]}
{"id": "C84", "title": "Every failure is explained, and success is silent", "statement": "A call on a frame protector or a proxy that fails returns a status with a non-empty message and logs at least one non-empty line. A call that succeeds returns no message and logs nothing but notices about session tickets, access tokens and missing identities.", "quantifier": "every state, every call with any arguments and faults", "why_tests_cant": "There are many ways to fail, in states a test does not reach.", "anchors": ["include/s2a_frame_protector.h:Unprotect", "include/s2a_proxy.h:GetBytesForPeer", "include/s2a_proxy.h:CreateFrameProtector", "src/frame_protector/s2a_frame_protector.cc:S2AFrameProtector::Unprotect", "src/handshaker/s2a_proxy.cc:S2AProxy::GetBytesForPeer", "src/handshaker/s2a_proxy.cc:S2AProxy::CreateFrameProtector"]}
{"id": "C85", "title": "The report of an alert says which alert it was", "statement": "If the peer sends a TLS alert other than close_notify, the message of the failing Unprotect says that an alert was received and its number, so that two different alerts give two different messages.", "quantifier": "every state, every record with an alert, every alert number", "why_tests_cant": "Every alert number, in every state and at every place in the input.", "anchors": ["include/s2a_frame_protector.h:Unprotect", "src/record_protocol/s2a_crypter.cc:S2ACrypter::Unprotect"]}
{"id": "C86", "title": "Messages on the wire are as the .proto files say", "statement": "Every request GetBytesForS2A emits, the request for resumption tickets and every serialized context is, byte for byte, a protobuf message whose fields have the numbers and types of s2a.proto, common.proto and s2a_context.proto; a request has exactly one member of its oneof. Conversely a response or a context is accepted exactly if it is such a message (with supported enum values), in any order of the fields, with unknown fields and with repeated ones, and what it does depends only on the values those files give its fields.", "quantifier": "all histories of a proxy, all configurations and byte strings, all contexts, all byte strings read", "why_tests_cant": "A test compares messages written and read by the same generated tables; a wrong number on both sides is invisible, and the encodings of one message are unboundedly many.", "anchors": ["src/proto/s2a.proto", "src/proto/common.proto", "src/proto/s2a_context.proto", "src/handshaker/s2a_proxy.cc:GetBytesForS2A,GetBytesForPeer", "src/handshaker/s2a_context.cc:GetSerializedContext,GetS2AContextFromSerializedContext", "src/record_protocol/s2a_upb_ticket_sender.cc:PrepareResumptionTicketReq"]}
{"id": "C87", "title": "Every call ends, after work in proportion to its input", "statement": "Creating a frame protector and every call on it return or reach undefined behaviour after finitely many steps, in every state the protector can be in and with any buffers, also null or inconsistent ones. Protect seals at most one record for every 16384 bytes begun (one for an empty message), Unprotect opens at most one record for every 22 bytes it is given, and the form for a single record at most one.", "quantifier": "every history of calls, every list of buffers, every byte string from a peer, every library failure", "why_tests_cant": "No finite number of inputs shows that a loop ends for all of them, or that the work stays in proportion.", "anchors": ["src/frame_protector/s2a_frame_protector.cc:S2AFrameProtector::Protect", "src/frame_protector/s2a_frame_protector.cc:S2AFrameProtector::Unprotect", "src/record_protocol/handshake_message_handler.cc:ProcessHandshakeMessage"]}
{"id": "C88", "title": "The proxy relays the handshake bytes unchanged", "statement": "In every history of calls, the bytes the user passes to successful GetBytesForS2A calls reach the S2A as one stream, and the bytes the S2A puts into its good responses reach the user as one stream, without loss, repetition, change or reordering; so what the S2A of one side says, the S2A of the other side hears, if the users carry the bytes.", "quantifier": "all histories of two proxies, all splits of the streams into calls, failing calls in between", "why_tests_cant": "All histories and all ways to cut the streams; a test sees a few messages.", "anchors": ["src/handshaker/s2a_proxy.cc:S2AProxy::GetBytesForS2A", "src/handshaker/s2a_proxy.cc:S2AProxy::GetBytesForPeer", "src/handshaker/s2a_proxy.cc:S2AProxy::GetNext", "src/handshaker/s2a_proxy.cc:S2AProxy::GetServerStart"]}
{"id": "C89", "title": "A call that failed for want of memory or in the library can be repeated", "statement": "If the allocator has no memory, or a function of the cryptographic library fails, Protect and Unprotect fail with an error status, without undefined behaviour and without other effects: the same call made again later gives what it would have given at first, and no data is lost.", "quantifier": "all reachable states, all messages and records, all places where the failure happens", "why_tests_cant": "Every state and every place of failure; allocation failures are not injected in tests.", "anchors": ["src/frame_protector/s2a_frame_protector.cc:S2AFrameProtector::Protect", "src/frame_protector/s2a_frame_protector.cc:S2AFrameProtector::Unprotect", "src/record_protocol/s2a_half_connection.cc:S2AHalfConnection::Encrypt", "src/record_protocol/s2a_half_connection.cc:S2AHalfConnection::Decrypt"]}
{"id": "C90", "title": "Every answer of a connection is determined by the bytes alone", "statement": "In every history of Protect, Unprotect and key update calls in which the library does not fail, each call returns exactly the status and the bytes that a reference machine on byte strings gives (fragments, records, key updates, handshake messages in any order and cut in any way, tickets, alerts), and hands on the same tickets; so the answers depend only on the cipher suite, the secrets, the sequence numbers, the bytes given and the space for the result, not on how the bytes are cut into buffers, on what the buffers contained, or on ids and addresses. Histories for which the machine says undefined behaviour are undefined behaviour, and no others.", "quantifier": "all created crypters and frame protectors, all histories of calls of any length, all bytes and all ways to cut them into buffers", "why_tests_cant": "The full behaviour over all histories; tests compare a few calls with stored answers.", "anchors": ["src/record_protocol/s2a_crypter.cc:S2ACrypter::Protect", "src/record_protocol/s2a_crypter.cc:S2ACrypter::Unprotect", "src/record_protocol/s2a_crypter.cc:S2ACrypter::HandleProcessHandshakeMessageResult", "src/record_protocol/handshake_message_handler.cc:HandshakeMessageHandler::ProcessHandshakeMessage", "src/frame_protector/s2a_frame_protector.cc:S2AFrameProtector::Protect", "src/frame_protector/s2a_frame_protector.cc:S2AFrameProtector::Unprotect"]}
{"id": "C91", "title": "What a failure of the cryptographic library can do is exactly known", "statement": "In every history of calls on a crypter in which the cryptographic library may fail anywhere, each call does what the reference machine of C90 does, or, only if the library fails in it, returns an internal error and no bytes; it then has used up at most one sequence number, and if a key update fails the direction never works again. Undefined behaviour occurs only where it occurs without failures. Each such lapse of the machine does happen for some failure.", "quantifier": "all created crypters, all histories of calls of any length, all places where calls of the library fail", "why_tests_cant": "Failures of the library are not injected in tests, and their effect on all later calls cannot be enumerated.", "anchors": ["src/record_protocol/s2a_crypter.cc:S2ACrypter::Protect", "src/record_protocol/s2a_crypter.cc:S2ACrypter::Unprotect", "src/record_protocol/s2a_crypter.cc:S2ACrypter::UpdateOutboundKey", "src/record_protocol/s2a_half_connection.cc:S2AHalfConnection::UpdateKey", "src/record_protocol/s2a_half_connection.cc:S2AHalfConnection::Encrypt", "src/record_protocol/s2a_half_connection.cc:S2AHalfConnection::Decrypt"]}
{"id": "C92", "title": "Of the data sent only the lengths have an effect", "statement": "Two histories of calls on the same frame protector that differ only in the bytes, not in the lengths, of the messages given to Protect go the same way: the same statuses, error messages, log lines, buffer sizes, memory requests and releases, the same answers of every Unprotect, the same tickets and the same keys and counters afterwards (or the same undefined behaviour). Only the bytes of the records that Protect made may differ.", "quantifier": "all frame protectors in any state, all pairs of histories of calls of any length that differ in the bytes of the messages sent, all allocators, all failures of the cryptographic library", "why_tests_cant": "It compares pairs of histories, and there are as many as there are messages; a test compares a few.", "anchors": ["src/frame_protector/s2a_frame_protector.cc:S2AFrameProtector::Protect", "src/frame_protector/s2a_frame_protector.cc:S2AFrameProtector::Unprotect", "src/record_protocol/s2a_crypter.cc:S2ACrypter::Protect", "src/record_protocol/s2a_half_connection.cc:S2AHalfConnection::Encrypt", "src/crypto/aes_gcm_crypter.cc:AesGcmS2AAeadCrypter::Encrypt", "src/crypto/chacha_poly_crypter_boringssl.cc"]}
{"id": "C93", "title": "Allocators may give more than they are asked for", "statement": "With an allocator that gives at least as many bytes as it is asked for (for instance one that rounds sizes up), every call on a frame protector answers as it does with an exact allocator; in particular what Protect returns is a sequence of records and nothing else.", "quantifier": "all frame protectors, all histories of calls of any length, all allocators that give at least what they are asked for", "why_tests_cant": "The tests' allocator is exact. Allocators, histories and what was in the memory before cannot be enumerated.", "anchors": ["include/s2a_frame_protector.h:S2AFrameProtectorOptions", "src/frame_protector/s2a_frame_protector.cc:S2AFrameProtector::Protect", "src/frame_protector/s2a_frame_protector.cc:S2AFrameProtector::Unprotect"]}
{"id": "C94", "title": "A connection can be handed over", "statement": "What a connection was doing before is in its two secrets and its two sequence numbers, and in nothing else: when no handshake message is half read, no ticket has come and nobody has closed it, a frame protector created with the secrets and sequence numbers that another one has come to answers every further call as that other one does. In particular the old secret is gone after a key update: the frame protector answers as one that was created with the next secret and sequence number 0 and never had the old one.", "quantifier": "every library, two allocators, every options, every history of calls before and after the handover, every request byte and padding of the key update", "why_tests_cant": "Tests compare a few calls on one connection; that no other state is left behind must hold for all histories before and after.", "anchors": ["src/frame_protector/s2a_frame_protector.cc: S2AFrameProtector::Create, Protect, Unprotect", "src/record_protocol/s2a_half_connection.cc: UpdateKey"]}
{"id": "C95", "title": "Access tokens go nowhere but into requests to the S2A", "statement": "What the token manager hands out shows up in the authentication mechanisms of the requests to the S2A and in nothing else: statuses, messages, log lines, frames for the peer, contexts and frame protectors, and the questions put to the token manager, do not depend on the tokens. If tokens are exchanged for others, the requests have the others in the same places.", "quantifier": "every library, configuration, pair of histories of calls that differ only in the tokens, and relation between the tokens", "why_tests_cant": "A test sees the outputs for some tokens; that no output depends on them is a statement about pairs of all histories.", "anchors": ["src/handshaker/s2a_proxy.cc: PopulateTokenCache, GetBytesForS2A, GetClientStart, GetServerStart, GetNext, GetBytesForPeer, CreateFrameProtector"]}
{"id": "C96", "title": "Traffic secrets go nowhere but into frame protectors", "statement": "The traffic secrets that the S2A sends with the result of the handshake affect nothing that the proxy returns, logs, or sends to the S2A or the peer, but the frame protectors it makes.", "quantifier": "every library, configuration, and pair of histories of calls that differ only in the traffic secrets in the responses", "why_tests_cant": "A test sees the outputs for some secrets; that no other output depends on them is a statement about pairs of all histories.", "anchors": ["src/handshaker/s2a_proxy.cc: GetBytesForPeer, CreateFrameProtector, GetS2AContext, GetBytesForS2A"]}
{"id": "C97", "title": "The status code of a refused call says why it was refused", "statement": "Creating a frame protector gives a protector, or INVALID_ARGUMENT (only if an argument is unusable: a missing callback or logger, an empty address, a TLS version other than 1.3, an unknown ciphersuite, a traffic secret of the wrong size), or INTERNAL (only if a call of the cryptographic library failed; always so if one failed and the arguments are usable). GetBytesForS2A reports FAILED_PRECONDITION exactly if there is nothing to send (no bytes from the peer after the first request; bytes given to a client before it; a configuration without wire form), INTERNAL exactly if there is and the request cannot be serialised, and OK with zero bytes consumed otherwise. GetBytesForPeer reports FAILED_PRECONDITION for no bytes and for an unknown TLS version or ciphersuite in the result, INTERNAL for bytes that are no response, a response whose status is missing or not OK and a result without local identity, INVALID_ARGUMENT for a result without session state, and OK with the numbers and bytes of the response otherwise. CreateFrameProtector and GetS2AContext report FAILED_PRECONDITION before the first result and not after it.", "quantifier": "all arguments, all library failures, all histories of calls on a proxy, all token managers and all bytes from the S2A", "why_tests_cant": "Which error is reported depends on the order of all checks and on the history; a test sees one faulty argument in one history.", "anchors": ["src/handshaker/s2a_proxy.cc:GetBytesForS2A", "src/handshaker/s2a_proxy.cc:GetBytesForPeer", "src/handshaker/s2a_proxy.cc:CreateFrameProtector", "src/frame_protector/s2a_frame_protector.cc:Create", "src/record_protocol/s2a_crypter.cc:Create", "src/record_protocol/s2a_half_connection.cc:Create"]}
{"id": "C98", "title": "A connection does not accept its own records", "statement": "Whatever bytes the network gives a connection, also records that the connection itself has sent (reflection), a record it accepts was never made by itself: nothing is opened under a key that the connection seals with, and if nothing was forged, everything accepted was sealed by the peer. (False of the code if both directions are given the same traffic secret and sequence number: neither creating a connection nor the proxy checks that they differ, and then everything that comes back is delivered as if the peer had sent it.)", "quantifier": "all runs of a connection and of a frame protector, all bytes from the network, all records and key updates; for the second half, all exchanges with a network that returns everything", "why_tests_cant": "The attacker chooses which of the connection's own bytes come back, when, and in which pieces, after any number of key updates; a test reflects one record.", "anchors": ["src/record_protocol/s2a_crypter.cc:Create", "src/record_protocol/s2a_crypter.cc:Unprotect", "src/frame_protector/s2a_frame_protector.cc:Unprotect", "src/handshaker/s2a_proxy.cc:CreateFrameProtector"]}
{"id": "C99", "title": "A response of the S2A that is delivered twice counts once", "statement": "Giving GetBytesForPeer a response it has been given before, at once or later, returns the same status, bytes and count as before and changes nothing. (False of the code if another result came in between: then the old result counts again, and the next frame protector is made from the old keys; and after GetS2AContext: then the context can be fetched once more.)", "quantifier": "every state of a proxy, every response (well-formed or not, with or without result), every history of calls between the two deliveries", "why_tests_cant": "What a repeated response does depends on everything that happened in between; a test repeats one response at one moment.", "anchors": ["src/handshaker/s2a_proxy.cc:S2AProxy::GetBytesForPeer", "src/handshaker/s2a_proxy.cc:S2AProxy::CreateFrameProtector", "src/handshaker/s2a_proxy.cc:S2AProxy::GetS2AContext"]}
{"id": "C100", "title": "Threads at both ends, and an attacker in between", "statement": "Any number of threads call Protect and Unprotect on each of two frame protectors with matching keys, in any schedules, and an attacker who is the network gives the receiver any bytes in any pieces. If no tag is forged, then at a moment when no call is in progress the messages given to the sender and the buffers handed out by the receiver can be listed in orders that agree with the orders in which the calls were made (of a thread, and of calls one of which returned before the other began), such that the non-empty buffers handed out are a subsequence of the fragments of the messages, whatever calls fail; and if no Protect of the sender and no Unprotect of the receiver has failed, the bytes handed out are a prefix of the bytes sent. (As the documentation asks, no thread is inside the non-allocating Unprotect while another is inside an Unprotect.)", "quantifier": "all schedules of any number of threads at both ends, all messages, all bytes from the network, all failures of the cryptographic library", "why_tests_cant": "Schedules at two ends and the choices of an attacker multiply; a test runs one schedule over a network that behaves.", "anchors": ["include/s2a_frame_protector.h:S2AFrameProtector", "src/frame_protector/s2a_frame_protector.cc:Protect", "src/frame_protector/s2a_frame_protector.cc:Unprotect", "src/record_protocol/s2a_crypter.cc:Protect", "src/record_protocol/s2a_crypter.cc:Unprotect"]}
{"id": "C101", "title": "Every frame protector a proxy makes can reach the S2A", "statement": "Every frame protector that a proxy makes can send session tickets to the S2A: the request it makes names the configured address of the S2A, the connection id and the local identity of the handshake's result, and comes with the channel factory the proxy was configured with.", "quantifier": "all configurations, all histories of the proxy with any library failures, all frame protectors created in them, all later calls on the protector", "why_tests_cant": "Which call of CreateFrameProtector comes first matters, and the loss shows only later, when tickets arrive; tests make one protector per proxy.", "anchors": ["src/handshaker/s2a_proxy.cc:CreateFrameProtector", "src/frame_protector/s2a_frame_protector.cc:Create", "src/record_protocol/s2a_crypter.cc", "src/record_protocol/s2a_upb_ticket_sender.cc"]}
{"id": "C102", "title": "The status of an AEAD operation tells a bad argument from a failure", "statement": "Encrypt and Decrypt of a crypter report one of three codes. OK: the arguments are usable (a nonce of 12 bytes, no null pointer with a length, room in the output, for Decrypt at least a tag), every call of the cryptographic library succeeded and, for Decrypt, the message opens. INVALID_ARGUMENT: the arguments are not usable. INTERNAL: a call of the library that was made failed or, for Decrypt, the message does not open.", "quantifier": "all libraries and their failures at any call, all keys, nonces, buffer lists (empty and null buffers included) and output buffers, both builds", "why_tests_cant": "The failures of the library are not under a test's control, and which calls are made depends on how the data is cut into buffers.", "anchors": ["src/crypto/aes_gcm_crypter.cc:Encrypt", "src/crypto/aes_gcm_crypter.cc:Decrypt", "src/crypto/chacha_poly_crypter_openssl.cc", "src/crypto/chacha_poly_crypter_boringssl.cc"]}
{"id": "C103", "title": "The functions a user supplies may use the connection", "statement": "A logger, allocator, destroy function, channel factory or access token manager that a user gives to a connection may itself call methods of that connection (for instance a logger that asks for sizes or sends its messages over the connection, a token manager that asks whether the handshake is finished): no thread then waits for ever.", "quantifier": "all sets of methods that the supplied functions may call, all nestings of such calls, any number of threads, all sequences of calls with all outcomes, all schedules", "why_tests_cant": "A unit test's logger is a no-op or appends to a string; the logger and destroy function are called in failure paths only, and a cycle of nested calls needs a particular failure inside a particular call, in one of infinitely many nestings and schedules.", "anchors": ["src/frame_protector/s2a_frame_protector.cc:Protect", "src/frame_protector/s2a_frame_protector.cc:Unprotect", "src/record_protocol/s2a_crypter.cc:RetrieveStoredTicketsAndSendToS2A", "src/handshaker/s2a_proxy.cc:PopulateTokenCache", "src/handshaker/s2a_proxy.cc:GetBytesForS2A"]}
{"id": "C104", "title": "Input and output may share memory", "statement": "A caller of the Protect and Unprotect that write into the caller's buffer may let that buffer share memory with the input (for instance to encrypt or decrypt in place): the call then does exactly what it does on copies of the input, and it changes no memory outside its output buffer.", "quantifier": "all placements of the buffers of the input and of the output in one memory, all contents of the memory, all sizes, all states of the protector, all failures of the crypto library", "why_tests_cant": "Tests give input and output separate vectors; which byte is overwritten before it is read depends on the sizes and the relative positions of all buffers.", "anchors": ["src/frame_protector/s2a_frame_protector.cc:Protect", "src/frame_protector/s2a_frame_protector.cc:Unprotect", "src/record_protocol/s2a_crypter.cc:Protect", "src/record_protocol/s2a_crypter.cc:Unprotect", "src/crypto/aes_gcm_crypter.cc:Encrypt", "src/crypto/aes_gcm_crypter.cc:Decrypt"]}
{"id": "C105", "title": "A connection keeps no key material of earlier keys", "statement": "After any history, the memory of a connection (frame protector or record-protocol crypter) holds, for each direction, nothing that earlier traffic secrets gave: what is kept of a direction is exactly what creating it anew with its present secret and sequence number gives, so whoever reads the memory of a connection after a key update learns nothing from it about records protected before the update. (False as stated: an update that fails part way leaves the old AEAD key in the object, although the direction can no longer be used.)", "quantifier": "All libraries, all ciphersuites, all creation arguments, all histories of calls with arbitrary input bytes and arbitrary library failures, both directions", "why_tests_cant": "Forward secrecy is a statement about everything an object retains after every possible history; a test can compare a few fields after a few updates, but cannot show that no history leaves a trace.", "anchors": ["src/record_protocol/s2a_half_connection.cc:S2AHalfConnection::UpdateKey", "src/record_protocol/s2a_half_connection.h:S2AHalfConnection", "src/record_protocol/s2a_crypter.cc:S2ACrypter::Unprotect", "src/record_protocol/s2a_crypter.cc:S2ACrypter::UpdateOutboundKey"]}
{"id": "C106", "title": "Identities are compared by kind and name, and sets and maps of identities do not depend on the hash", "statement": "Two identities are equal exactly if they were made by the same kind of factory from the same string (two empty identities are equal); equal identities have equal hashes. The local and the target identities of options are exactly those that were added, each of them once, and the token cache of a proxy has for each identity exactly the token that was set last since it was cleared, whatever values the hash function gives, in particular if different identities collide.", "quantifier": "All identities and strings, all hash functions, all sequences of setter calls and of cache updates.", "why_tests_cant": "Unit tests compare a few identities and use the one hash function of one process; collisions practically never happen in them.", "anchors": ["include/s2a_options.h:Identity", "include/s2a_options.h:AbslHashValue", "src/options/s2a_options.cc:Identity::operator==", "src/options/s2a_options.cc:add_local_spiffe_id", "include/s2a_proxy.h:token_cache_", "src/handshaker/s2a_proxy.cc:PopulateTokenCache"]}
{"id": "C107", "title": "Without ChaCha20-Poly1305 in the library that ciphersuite is refused and nothing else changes", "statement": "In a build against an OpenSSL that has no ChaCha20-Poly1305, no connection and no frame protector with this ciphersuite is ever created, also not after a handshake that has chosen it; if nothing else is wrong the status is failed precondition. With every other ciphersuite creation and key updates do what they do in other builds.", "quantifier": "All creation arguments, secrets, failures of the library, half connections and finished handshakes.", "why_tests_cant": "The branch is chosen when the code is compiled; a test run covers one build and a few arguments.", "anchors": ["src/crypto/chacha_poly_crypter_openssl.cc:CreateChachaPolyAeadCrypter", "src/record_protocol/s2a_half_connection.cc:S2AHalfConnection::Create", "src/record_protocol/s2a_half_connection.cc:S2AHalfConnection::UpdateKey", "src/record_protocol/s2a_crypter.cc:S2ACrypter::Create", "src/handshaker/s2a_proxy.cc:CreateFrameProtector"]}
{"id": "C108", "title": "The two forms of Protect and of Unprotect agree", "statement": "A frame protector has two forms of Protect and of Unprotect: one allocates the result, the other one writes it to a buffer of the caller. Given the same bytes and a buffer that is large enough (for Protect the message and 22 bytes for each record; for Unprotect the first record's payload without its tag, and input that holds no second record), both forms return the same status and the same bytes, and everything that happens on the connection afterwards is the same, whichever form was used; the writing Protect leaves the buffer behind its result as it was.", "quantifier": "every pair of histories that differ only in the forms of their calls, every state, every input, every buffer", "why_tests_cant": "The forms have separate code; agreement over all sizes and all later calls is not settled by samples.", "anchors": ["src/frame_protector/s2a_frame_protector.cc:S2AFrameProtector::Protect", "src/frame_protector/s2a_frame_protector.cc:S2AFrameProtector::Unprotect"]}
{"id": "C109", "title": "Exactly which arguments an AEAD crypter is not defined for", "statement": "Encrypt and Decrypt of an AEAD crypter do something defined for all arguments, whatever fails in the library, except for these: no buffer for the result (for Decrypt, if it is said to have a length); and, with an implementation that hands the buffers to the library one by one, a piece of 2^31 or more bytes, whose length does not fit an int, or for Decrypt a null pointer with a length where the tag is - in both cases only if no other argument makes the call fail before that point. If the library does not fail, the call is not defined for all of these.", "quantifier": "every key, nonce, list of buffers of any number and lengths, output buffer, library failure", "why_tests_cant": "Buffers of 2^31 bytes are out of the reach of unit tests, and the exact set is a statement about all arguments.", "anchors": ["src/crypto/aes_gcm_crypter.cc:AesGcmS2AAeadCrypter", "src/crypto/chacha_poly_crypter_openssl.cc:ChachaPolyS2AAeadCrypter", "src/crypto/chacha_poly_crypter_boringssl.cc:ChachaPolyS2AAeadCrypter"]}
{"id": "C110", "title": "Concurrent calls on a proxy behave as if made one after the other", "statement": "When several threads call methods of one S2AProxy, there is an order of the calls, in which a call that returned before another began comes first, such that making the calls one after the other in this order gives every thread the results it got and leaves the proxy in the same state; undefined behaviour that a schedule meets is also met by making calls one after the other; and every call that has begun can return. Conditions: no two threads are inside CreateFrameProtector at the same time, nor inside GetS2AContext, and none is inside one of these while the proxy is given a handshake result other than the first. GetBytesForS2A, GetBytesForPeer and IsHandshakeFinished need no condition among themselves.", "quantifier": "all numbers of threads, all lists of calls, all schedules, all responses of the S2A, all failures of the libraries", "why_tests_cant": "A test runs few schedules; the interleavings are unbounded, and the harmful ones are a few instructions wide.", "anchors": ["include/s2a_proxy.h:S2AProxy", "src/handshaker/s2a_proxy.cc:S2AProxy::GetBytesForS2A", "src/handshaker/s2a_proxy.cc:S2AProxy::GetBytesForPeer", "src/handshaker/s2a_proxy.cc:S2AProxy::IsHandshakeFinished", "src/handshaker/s2a_proxy.cc:S2AProxy::CreateFrameProtector", "src/handshaker/s2a_proxy.cc:S2AProxy::GetS2AContext"]}
{"id": "C111", "title": "What an error message says is so", "statement": "If creating a connection or a frame protector, serialising or reading a context, or a call on a proxy fails, the status has a message, and the fact stated by the message is true: the argument it names is missing or wrong, the configuration or S2A's response has the fault it names, the handshake is not finished, or the call of a library that it names failed; what it quotes is the library's error queue or the details S2A sent. Exceptions: a response without a status gives an empty message, and CreateFrameProtector blames the size of a secret when the last handshake result had an unknown ciphersuite.", "quantifier": "all arguments, all behaviours of the cryptographic library, the protobuf library and S2A, all histories of calls on the proxy", "why_tests_cant": "The messages are constants scattered over the code, each behind its own condition; which one is returned depends on all conditions before it and, in the proxy, on the history. A test checks one message for one fault.", "anchors": ["src/crypto/hkdf.cc HkdfDeriveSecret", "src/record_protocol/s2a_half_connection.cc Create", "src/record_protocol/s2a_crypter.cc S2ACrypter::Create", "src/frame_protector/s2a_frame_protector.cc S2AFrameProtector::Create", "src/handshaker/s2a_proxy.cc GetBytesForS2A, GetBytesForPeer, CreateFrameProtector, GetS2AContext", "src/handshaker/s2a_context.cc GetSerializedContext, GetS2AContextFromSerializedContext"]}
{"id": "C112", "title": "The log lines and messages of Protect and Unprotect state the actual reason", "statement": "Each Protect and Unprotect of a frame protector (and of the crypter beneath it) logs exactly the lines, and returns a status with exactly the message, that belong to its outcome according to a fixed table: for a record that is too short, too long, has a bad header, does not decrypt, does not fit the buffer, has no content type or an unknown one, is an alert, arrives in the middle of a handshake message, or holds an unexpected handshake message, after a close notification or at the end of the sequence numbers, and for bytes that are no record. The texts depend only on the bytes, not on how they are cut into buffers.", "quantifier": "all cipher suites, secrets, starting sequence numbers, histories of calls in which the cryptographic library does not fail, all ways to cut the bytes into buffers, both AEAD interfaces", "why_tests_cant": "which of the many texts is due depends on the whole history of the connection and on the order of the checks; tests compare a few messages", "anchors": ["src/record_protocol/s2a_crypter.cc Protect, Unprotect, HandleProcessHandshakeMessageResult", "src/frame_protector/s2a_frame_protector.cc Protect, Unprotect, ComputeTlsRecordSize, IsolateTlsPayload", "src/record_protocol/handshake_message_handler.cc ProcessHandshakeMessage, GetStoredTickets"]}
{"id": "C113", "title": "Errors of the cryptographic library stay with the call that caused them", "statement": "The cryptographic library keeps errors in a queue for each thread, shared by all code that runs in the thread. The message of a failing call quotes exactly the errors that the library reported for that call, never errors that another call or the application left in the queue; and a call leaves the queue as it found it: it leaves no errors of its own behind and takes none away that others left there. A successful call does not touch the queue. (False of the code in three ways; exact description proved.)", "quantifier": "all contents of the error queue before a call, all errors the library may report, all failures of the library, all calls on a frame protector, on an AEAD crypter and to CreateFrameProtector, all histories of a thread that alternates between calls and other use of the library", "why_tests_cant": "the error queue is hidden state shared with the whole thread; tests begin with an empty queue and let the library fail in very few places", "anchors": ["src/crypto/s2a_aead_crypter_util.cc GetSSLErrors", "src/crypto/aes_gcm_crypter.cc Encrypt, Decrypt, CreateAesGcmAeadCrypter", "src/crypto/hkdf.cc HkdfDeriveSecret", "src/record_protocol/s2a_half_connection.cc UpdateKey, Create", "src/record_protocol/s2a_crypter.cc Unprotect, HandleProcessHandshakeMessageResult"]}
{"id": "C114", "title": "Lengths that add up to more than 64 bits are handled or refused", "statement": "However large the lengths of the given buffers add up to, Protect protects every byte it is given or fails, Unprotect handles every record it is given or fails, and nothing outside a buffer is read or written; and whenever all sums fit in 64 bits, the wrap-around of size_t has no effect on any call.", "quantifier": "all lists of buffers, also such that share memory so that their lengths add up to 2^64 or more; all histories of calls", "why_tests_cant": "A test does not allocate 2^64 bytes, and a vector of millions of overlapping buffers is not something a test writer thinks of.", "anchors": ["src/frame_protector/s2a_frame_protector.cc: GetTotalIovecLength, Protect, Unprotect", "src/record_protocol/s2a_crypter.cc: GetTotalIovecLength, Protect, Unprotect", "src/crypto/aes_gcm_crypter.cc: Decrypt", "src/crypto/chacha_poly_crypter_openssl.cc: Decrypt"]}
{"id": "C115", "title": "The byte order of the machine makes no difference", "statement": "On 64-bit machines of either byte order the frame protector gives the same results for the same calls: a message protected on one machine is read on the other, and what works on one works on the other.", "quantifier": "every protector, history of Protect and Unprotect calls, buffers, library failure, both byte orders", "why_tests_cant": "Unit tests run on one machine, nearly always a little-endian one.", "anchors": ["src/crypto/aes_gcm_crypter.cc:SetAadForEncrypt", "src/crypto/aes_gcm_crypter.cc:AesGcmS2AAeadCrypter::Decrypt", "src/crypto/chacha_poly_crypter_openssl.cc:SetAadForDecrypt", "src/frame_protector/s2a_frame_protector.cc:S2AFrameProtector::Protect"]}
{"id": "C116", "title": "An AEAD crypter processes a long buffer wholly or refuses it", "statement": "If Encrypt or Decrypt of an AEAD crypter is given buffers of 2^31 bytes or more, the call either processes all their bytes or reports an error; it never reports success for a part of them.", "quantifier": "every key, nonce, list of buffers of any number and lengths, output buffer, library failure", "why_tests_cant": "No unit test has buffers of gigabytes, and the lengths for which the conversion to int loses bits begin at 2^31.", "anchors": ["src/crypto/aes_gcm_crypter.cc:AesGcmS2AAeadCrypter::Encrypt", "src/crypto/aes_gcm_crypter.cc:AesGcmS2AAeadCrypter::Decrypt", "src/crypto/chacha_poly_crypter_openssl.cc:ChachaPolyS2AAeadCrypter"]}
{"id": "C117", "title": "How long strings given to a ticket request must stay", "statement": "PrepareResumptionTicketReq copies nothing: the request it fills refers to the caller's strings until it is serialized. If the caller leaves alone the tickets of all successful calls and the identity of the last successful one until then, every call and every serialization is defined and says what was passed when it was passed, whatever else happens to memory; freeing one of them (if not empty) makes serializing read freed memory, and a ticket changed in place is sent as changed, cut to its old length.", "quantifier": "every history of PrepareResumptionTicketReq calls on one request, of serializing it, and of allocating, changing and freeing memory by the caller; every request to start from", "why_tests_cant": "A test serializes at once with its strings still on the stack; reading freed memory often gives the old bytes, so a run does not show it, and the histories of memory use are unbounded.", "anchors": ["src/record_protocol/s2a_upb_ticket_sender.cc:PrepareResumptionTicketReq", "src/record_protocol/s2a_ticket_sender.h"]}
{"id": "C118", "title": "Groups and the limits of the protobuf decoder", "statement": "A response of the S2A, or a serialized context, may contain protobuf groups between its fields, nested at most 64 deep: they change nothing about what the call does. Field tags of 2^32 and more, lengths of 2^31 - 1 and more, deeper nesting, groups that are not closed, are closed with another number or were not opened, and numbers and values that are cut short are refused wherever they stand, nothing else is, and a refused response leaves the proxy as it was. Messages without groups that keep the limits mean what they mean for a plain decoder; a response or context that is written is read back; a written response that has lost its end is refused.", "quantifier": "every string of bytes, every state of the proxy, every place for a group, every nesting", "why_tests_cant": "The messages of the tests come from a serializer that never writes groups; skipping a group wrongly shows only for particular nestings, and there are unboundedly many malformed strings.", "anchors": ["src/handshaker/s2a_proxy.cc:GetBytesForPeer", "src/handshaker/s2a_context.cc:GetS2AContextFromSerializedContext", "src/proto/upb-generated/proto/s2a.upb.h:s2a_proto_SessionResp_parse", "src/proto/upb-generated/proto/s2a_context.upb.h:s2a_proto_S2AContext_parse"]}
{"id": "C119", "title": "No null pointer is handed to memcpy or memset, even for no bytes", "statement": "No call of the library copies or clears memory through a null pointer, not even when there are zero bytes to copy (which the C and C++ standards the code is written for leave undefined). It holds of building requests to the S2A, of reading handshake messages, of taking out session tickets and of every call of the frame protector. It is false of GetBytesForPeer, exactly when an accepted response has an empty traffic secret or nothing to send to the peer; of GetSerializedContext, exactly for a context that says nothing; and of Decrypt of the AES-GCM and OpenSSL ChaCha crypters with empty null buffers, and so of S2ACrypter's Unprotect.", "quantifier": "every response, proxy state, context, history of calls on the handshake message handler, the crypter and the frame protector, list of buffers, key, nonce, library fault", "why_tests_cant": "On common platforms the copies of zero bytes do nothing and tests pass; which inputs cause them is a question about all responses and all histories.", "anchors": ["src/handshaker/s2a_proxy.cc: GetBytesForPeer, GetClientStart, GetServerStart, GetNext", "src/handshaker/s2a_context.cc: GetSerializedContext", "src/record_protocol/handshake_message_handler.cc: StoreMessageFragment", "src/record_protocol/s2a_crypter.cc: ticket merging", "src/crypto/aes_gcm_crypter.cc: Decrypt", "src/crypto/chacha_poly_crypter_openssl.cc: Decrypt", "src/record_protocol/s2a_crypter.cc: Unprotect", "src/frame_protector/s2a_frame_protector.cc: Unprotect"]}
{"id": "C120", "title": "The handshake message handler reports exactly what has arrived", "statement": "For every sequence of calls on a new handshake message handler, up to the first refusal and without messages that have an empty body, each ProcessHandshakeMessage says whether an unfinished message remains, whether the bytes just passed contain a session ticket or a key update or a piece of one, the request byte of the key update that ends them (0xff if none does), and how many tickets are kept: the first five, or none once fetched. It refuses exactly a message of another type and bytes behind a key update, and a null pointer is refused without effect. GetStoredTickets gives the tickets kept, each joining to the message that arrived, once, and fails without effect in the middle of a ticket.", "quantifier": "every sequence of calls on a handler, every byte stream, every way of cutting it into records, every moment of fetching the tickets", "why_tests_cant": "The unit tests pass two streams, each cut in two ways, and fetch the tickets at one moment.", "anchors": ["src/record_protocol/handshake_message_handler.h: Result", "src/record_protocol/handshake_message_handler.cc: ProcessHandshakeMessage, GetStoredTickets"]}
{"id": "C121", "title": "Threads that share a connection or a proxy have no data races", "statement": "When several threads call the methods of a frame protector, or of a proxy, every two accesses to the same memory of which at least one is a write are ordered by happens-before as the C++ standard defines it (order within a thread, and the release of a mutex before its next acquisition), so that the behaviour of the program is defined on hardware and compilers with weak memory too.", "quantifier": "all numbers of threads, all lists of calls of each thread, all outcomes of the calls (records accepted, refused, with key updates, handshake results), all schedules, all pairs of accesses in them", "why_tests_cant": "a test sees a few schedules on one machine; whether two accesses are ordered is a statement about all schedules, and an unordered pair is undefined even where every test gives the right result", "anchors": ["src/frame_protector/s2a_frame_protector.cc: S2AFrameProtector::Protect, S2AFrameProtector::Unprotect, S2AFrameProtector::NumberBytesToProtect", "src/record_protocol/s2a_crypter.cc: S2ACrypter::RecordOverhead, S2ACrypter::Protect, S2ACrypter::Unprotect", "src/record_protocol/s2a_half_connection.cc: S2AHalfConnection::Encrypt, S2AHalfConnection::Decrypt, S2AHalfConnection::UpdateKey, S2AHalfConnection::TagLength", "src/handshaker/s2a_proxy.cc: S2AProxy::GetBytesForS2A, S2AProxy::GetBytesForPeer, S2AProxy::CreateFrameProtector, S2AProxy::GetS2AContext"]}
{"id": "C122", "title": "The hash function of a ciphersuite is the right one for every value", "statement": "CiphersuiteToHashFunction succeeds exactly if its output pointer is not null and the ciphersuite is one of the three of TLS 1.3, and then writes the hash function that RFC 8446 appendix B.4 gives for it. Otherwise it returns INVALID_ARGUMENT with the message for the reason and leaves the output as it was. A half connection is created only with a traffic secret as long as a digest of that hash function.", "quantifier": "every value of the ciphersuite enumeration (also values without a name), null and other output pointers and previous contents; every library, failure, sequence number and secret", "why_tests_cant": "A test has the three named values; a caller can pass any value cast to the enumeration.", "anchors": ["src/record_protocol/s2a_crypter_util.cc:CiphersuiteToHashFunction", "src/record_protocol/s2a_half_connection.cc:S2AHalfConnection::Create"]}
{"id": "C123", "title": "What the message of a failing AEAD operation or key derivation says is so", "statement": "Encrypt and Decrypt of an AEAD crypter, and HkdfDeriveSecret, end with OK and no message, or with a status and a message that name one of the documented reasons; and that reason holds of the call: the null argument is null, the nonce has a wrong length, there is no room, the key is shorter than the digest, more than 255 blocks were asked for, or the library call that is named did fail.", "quantifier": "every crypter, all arguments (null or not, any lengths), every pattern of failing library calls, both builds (BoringSSL or OpenSSL), every hash function, key, info and output size", "why_tests_cant": "A test compares the messages of a few failing calls; that no other call gets a message that is untrue of it concerns all arguments and all failures of the library.", "anchors": ["src/crypto/aes_gcm_crypter.cc:AesGcmS2AAeadCrypter", "src/crypto/chacha_poly_crypter_boringssl.cc", "src/crypto/chacha_poly_crypter_openssl.cc", "src/crypto/hkdf.cc:HkdfDeriveSecret"]}
{"id": "C124", "title": "What the message of a failing Protect or Unprotect says is so, whatever the library does", "statement": "Each call of Protect or Unprotect of a connection that returns gives OK without a message, or a status and a message that name a reason, and that reason holds of this call: the plaintext or record is too long, the buffer too small, the header wrong, the named library call failed, the half connection had given up before, the record does not authenticate, its content has no or an unknown type, an alert or a close_notify arrived, a key update failed or was not the last message, or data came in the middle of a handshake message. The calls of a frame protector pass these messages on, about the first record that fails after any number of records that succeed, or name their own reason, which holds: too few bytes, a wrong header, a record that is not whole.", "quantifier": "every state of a connection (also states no history reaches), all arguments, every pattern of failing library calls, both builds, every library", "why_tests_cant": "Tests provoke a few errors without library failures and compare a few messages; the claim is about all calls and all failures, alone and together.", "anchors": ["src/record_protocol/s2a_crypter.cc:S2ACrypter::Protect", "src/record_protocol/s2a_crypter.cc:S2ACrypter::Unprotect", "src/record_protocol/s2a_crypter.cc:HandleProcessHandshakeMessageResult", "src/frame_protector/s2a_frame_protector.cc:S2AFrameProtector::Protect", "src/frame_protector/s2a_frame_protector.cc:S2AFrameProtector::Unprotect"]}
