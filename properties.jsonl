{"id": "C01", "title": "Request header is a bijection on one octet", "statement": "Parsing any first octet of a request yields the high nibble as version and the low nibble as action; serialising a parsed header gives the octet back, and parsing a serialised header whose version and action fit in 4 bits gives the same header. No input makes header parsing panic; only an empty stream is rejected.", "quantifier": "every octet, every (version, action) pair, every stream", "why_tests_cant": "The round trip must hold for all 256 octets and every continuation of the stream; the unit tests only send version 1 and four actions.", "anchors": ["protocol/request.go: ParseRequestCommon, RequestCommon.Bytes"]}
{"id": "C02", "title": "Setup request round trip and exact consumption", "statement": "For every 16-byte id and every ECDH public key, the bytes of a setup request parse back (on the server) to the same id and key, and exactly the bytes of the request are consumed, whatever follows on the stream.", "quantifier": "every id, every public key, every following byte sequence", "why_tests_cant": "An infinite family of keys and trailing data; tests use one generated key.", "anchors": ["protocol/action_002_setup.go: NewSetupRequest, SetupRequest.Bytes, ParseSetupRequest"]}
{"id": "C03", "title": "Setup response round trip", "statement": "For every server key, hash type and non-empty signature up to the documented limit, the bytes of the signed setup response parse back on the client to the same key, hash type and signature, consuming exactly those bytes. (A response carrying an empty signature is NOT self-delimiting: it does not parse back.)", "quantifier": "every key, hash type octet, signature of length 1..65536, every trailing stream", "why_tests_cant": "Signature sizes and trailing data are unbounded families; the empty-signature corner is never exercised by a test.", "anchors": ["protocol/action_002_setup.go: SetupResponse.Bytes, SetSignature, ParseSetupResponse"]}
{"id": "C04", "title": "Process request round trip", "statement": "For every id, counter, expect-reply option and ciphertext up to 1 GiB, the bytes of a process request parse back to the same id, counter, flag and ciphertext, and the parser stops exactly at the end of the message.", "quantifier": "every id, 64-bit counter, flag, message of length <= 2^30, every trailing stream", "why_tests_cant": "2^64 counters and arbitrary messages cannot be enumerated.", "anchors": ["protocol/action_003_process.go: NewProcessRequest, ProcessRequest.Bytes, ParseProcessRequest"]}
{"id": "C05", "title": "Process response round trip", "statement": "For every counter and ciphertext up to 1 GiB the bytes of a process response parse back to the same counter and ciphertext with success set, consuming exactly those bytes.", "quantifier": "every counter, every message of length <= 2^30, every trailing stream", "why_tests_cant": "Unbounded message family.", "anchors": ["protocol/action_003_process.go: NewProcessResponse, ProcessResponse.Bytes, ParseProcessResponse"]}
{"id": "C06", "title": "Fetch-key response round trip", "statement": "For every key algorithm octet and encoded public key up to 64 KiB the bytes of a fetch-key response parse back to the same algorithm and key bytes, consuming exactly those bytes.", "quantifier": "every algorithm octet, every key of length <= 65536, every trailing stream", "why_tests_cant": "Unbounded key family.", "anchors": ["protocol/action_004_fetch_key.go: NewFetchKeyResponse, FetchKeyResponse.Bytes, ParseFetchKeyResponse"]}
{"id": "C07", "title": "Error response round trip", "statement": "For every error code and every error message (length below 2^63) the bytes of an error response parse back, after the flag octet, to the same code and message with success cleared, consuming exactly those bytes; a declared size of 2^63 or more is rejected.", "quantifier": "every 32-bit code, every message, every trailing stream", "why_tests_cant": "Unbounded messages and the signed/unsigned size conversion corner are not covered by tests.", "anchors": ["protocol/error.go: NewErrorResponse, ErrorResponse.Bytes, ParseErrorResponse"]}
{"id": "C08", "title": "Success flag is exactly the top bit and reserved bits are ignored", "statement": "A response is treated as successful iff the most significant bit of its first octet is set; a process request expects a reply iff the most significant bit of its flag octet is set; the seven reserved bits never influence the success/expect-reply decision or any other parsed field.", "quantifier": "every flag octet, every stream", "why_tests_cant": "Reserved-bit combinations on every message type are not sampled by any test.", "anchors": ["protocol/response.go: ParseResponseCommon, ResponseCommon.Bytes", "protocol/action_003_process.go: ParseProcessRequest"]}
{"id": "C09", "title": "Declared sizes above the limits are refused before allocation", "statement": "Whatever bytes a peer sends, in whatever segmentation, every buffer that message parsing allocates from a peer-declared size is at most 64 KiB for keys and signatures and 1 GiB for messages, and a successfully parsed field never exceeds its limit. The claim is to hold for every message type.", "quantifier": "every byte stream, every segmentation, every parser", "why_tests_cant": "It is a claim about all adversarial inputs; tests send three hand-picked oversized headers.", "anchors": ["protocol/limits.go", "protocol/action_002_setup.go", "protocol/action_003_process.go", "protocol/action_004_fetch_key.go", "protocol/error.go: ParseErrorResponse"]}
{"id": "C10", "title": "Truncated messages are never accepted", "statement": "Feeding any proper prefix of a serialised message (followed by end of stream) to the corresponding parser returns an error: no truncation of a message is mistaken for a complete message.", "quantifier": "every message of every type, every cut point", "why_tests_cant": "Every cut point of every message; unit tests cannot enumerate them.", "anchors": ["protocol/*.go: all Parse functions"]}
{"id": "C11", "title": "Parsing is independent of how the transport segments the stream", "statement": "For every way the transport splits the same sequence of bytes (and interleaved transport errors) into read results, every parser returns the same result and leaves the same remaining bytes. The same holds whether the transport reports the end of the stream together with the last bytes or by a call of its own, as the contract of io.Reader allows.", "quantifier": "every byte/event sequence, every segmentation of it, every way of reporting its end, every parser", "why_tests_cant": "The number of segmentations is exponential and depends on network timing that tests do not control.", "anchors": ["protocol/*.go: all Parse functions", "io.ReadFull / io.Copy+LimitReader usage"]}
{"id": "C12", "title": "AEAD nonces are injective in direction and counter", "statement": "For every nonce size of at least 9 bytes, two nonces are equal only if direction and counter are both equal; client-to-server and server-to-client nonces never coincide; the nonce has exactly the requested size and follows the documented layout (direction octet, zeros, big-endian counter).", "quantifier": "all pairs of (direction, counter), all sizes >= 9", "why_tests_cant": "2^128 pairs.", "anchors": ["protocol/nonce.go: Nonce"]}
{"id": "C13", "title": "Handshake transcript is unambiguous", "statement": "Two handshake transcripts are equal only if client key, server key and id are all equal, so a signature over one exchange cannot be a signature over another.", "quantifier": "all pairs of (client key, server key, id)", "why_tests_cant": "A claim over all pairs of exchanges.", "anchors": ["protocol/action_002_setup.go: SetupTranscript"]}
{"id": "C14", "title": "Client accepts a handshake only with a valid signature over its own exchange", "statement": "DialTCP/DialUDP succeed only if the server's bytes form a setup response whose signature verifies, under the public key returned by the configured key fetcher for the dialled host, over the transcript of the client's own ephemeral key, the received server key and the client's own id; the session secret is then the ECDH of exactly those keys. Any other byte stream makes the dial fail.", "quantifier": "every server byte stream, every key fetcher result, every client randomness", "why_tests_cant": "The adversary controls all bytes; tests only try honest servers.", "anchors": ["client.go: handshake", "key/key.go: VerifySignature"]}
{"id": "C15", "title": "Honest handshake succeeds and both sides hold the same secret", "statement": "Against an honest server whose long-term key the client fetched, the handshake succeeds for each of RSA, ECDSA and Ed25519, and afterwards the secret stored by the server for (client host, id) is the secret in the client's session, whatever other sessions the server already holds.", "quantifier": "every id, every pair of ephemeral keys, every server state, each key type", "why_tests_cant": "Holds for all keys and all server states; tests do one random handshake per algorithm.", "anchors": ["client.go: handshake", "internal/server/action_setup.go: setupHandler", "key/server_manager.go: Sign", "key/key.go: VerifySignature"]}
{"id": "C16", "title": "Malformed handshake responses produce an error, never a crash", "statement": "No byte stream sent by a server (or a man in the middle) can make DialTCP/DialUDP panic; every unacceptable response is reported as an error.", "quantifier": "every server byte stream", "why_tests_cant": "All adversarial byte streams.", "anchors": ["client.go: handshake", "protocol/action_002_setup.go: HashType.CryptoHash"]}
{"id": "C17", "title": "Replay filter accepts exactly the fresh in-window counters", "statement": "For every sequence of counters presented to the replay filter, a counter is accepted iff it is non-zero, has not been accepted before, and is less than 64 behind the highest accepted counter.", "quantifier": "every finite sequence of 64-bit counters", "why_tests_cant": "All histories of 64-bit counters, including jumps and wrap-adjacent values.", "anchors": ["secret/secret.go: ReplayWindow.CheckAndUpdate"]}
{"id": "C18", "title": "Each client message is handed to the application at most once", "statement": "Over any number of TCP connections and UDP packets, any bytes, any interleaving of the server's goroutines and of the session garbage collector, the application handler is called at most once for each (session, counter) pair.", "quantifier": "every schedule, every set of connections, every byte stream, every handler behaviour", "why_tests_cant": "Schedules and adversarial replays are unbounded; the test replays one message on one connection.", "anchors": ["internal/server/action_process.go: processHandler", "secret/secret.go: CheckAndUpdate, InMemoryManager", "server.go"]}
{"id": "C19", "title": "Reordered messages inside the window are still delivered", "statement": "A well-formed, authentic process message for a stored session whose counter is fresh and within the 64-counter window is decrypted and handed to the handler, whatever order messages arrived in before.", "quantifier": "every earlier history of counters under every interleaving, every message; the message itself is served with no other request in progress", "why_tests_cant": "All reorderings.", "anchors": ["internal/server/action_process.go: processHandler", "secret/secret.go: CheckAndUpdate"]}
{"id": "C20", "title": "Messages that fail authentication do not affect later genuine messages", "statement": "A process request that does not decrypt under the session key leaves the session able to accept every genuine message that it could have accepted before.", "quantifier": "every forged request, every later genuine message", "why_tests_cant": "Requires reasoning on all forged inputs followed by all genuine ones.", "anchors": ["internal/server/action_process.go: processHandler (replay check precedes decryption)"]}
{"id": "C21", "title": "Client nonces are never reused under one session", "statement": "Across all connections sharing a session (a pool) and every interleaving of Write calls, no two messages are encrypted under the same nonce, for the whole life of the session.", "quantifier": "every number of connections and messages, every interleaving", "why_tests_cant": "Unbounded histories and schedules; exhaustion needs 2^64 messages.", "anchors": ["client.go: Write, clientSession", "client_pool.go: Get"]}
{"id": "C22", "title": "Server reply nonces are never reused under one session key", "statement": "Under every schedule and every adversarial traffic, the server never encrypts two replies with the same session key and nonce, and never uses a nonce that the client direction uses.", "quantifier": "every schedule, every traffic", "why_tests_cant": "All schedules and replays.", "anchors": ["internal/server/action_process.go: processHandler", "protocol/nonce.go"]}
{"id": "C23", "title": "Client.Read only returns data authenticated as the reply to the last request", "statement": "Client.Read returns plaintext only if the bytes received form a success response whose counter is the counter of the client's latest Write and whose ciphertext authenticates under the session key with the server-to-client nonce of that counter; the returned bytes are a prefix of that plaintext. Everything else yields an error and no data.", "quantifier": "every incoming byte stream, every client state", "why_tests_cant": "All adversarial streams.", "anchors": ["client.go: Read"]}
{"id": "C24", "title": "End-to-end conversation delivers exactly the handler's outputs", "statement": "After an honest handshake, for every sequence of messages (each within the size limit) written with Client.Write, the server's handler sees exactly those messages in order and the client reads back exactly the (non-empty) bytes the handler wrote for each.", "quantifier": "every list of messages, every (stateful) handler", "why_tests_cant": "All message sequences and handlers.", "anchors": ["client.go: Write, Read", "server.go: handleConnection", "internal/server/action_process.go"]}
{"id": "C25", "title": "Client.Write honours the io.Writer contract", "statement": "When Client.Write reports success it returns n = len(p); in particular 0 <= n <= len(p), so io.Copy and friends work on a Client.", "quantifier": "every payload", "why_tests_cant": "For all payload sizes.", "anchors": ["client.go: Write"]}
{"id": "C26", "title": "Client.Read returns each reply completely, in order and without duplication for any buffer sizes", "statement": "For every reply and every sequence of caller buffer sizes, the concatenation of the bytes returned by consecutive Read calls is exactly the reply, and io.EOF is reported exactly when the reply is exhausted (also for an empty reply).", "quantifier": "every reply, every sequence of buffer sizes", "why_tests_cant": "All buffer size sequences.", "anchors": ["client.go: Read"]}
{"id": "C27", "title": "Fire-and-forget requests get no response", "statement": "A process request with the expect-reply flag cleared never causes the server to send bytes back.", "quantifier": "every request with the flag cleared, every server state", "why_tests_cant": "All request/state combinations, including the error paths.", "anchors": ["internal/server/action_process.go: processHandler"]}
{"id": "C28", "title": "One response per answered request, in order", "statement": "For every sequence of well-formed requests with known actions on a connection, the server's output is the concatenation, in request order, of exactly one response for each hello, setup, fetch-key and expect-reply process request.", "quantifier": "every sequence of requests, every server state", "why_tests_cant": "All request sequences.", "anchors": ["internal/server/handler.go: Handle", "server.go: handleConnection"]}
{"id": "C29", "title": "Unsupported versions are refused without side effects", "statement": "A request whose version is not 1 never reaches a handler, never changes server state, ends the connection and is answered with an Unsupported-version error as the protocol specification requires.", "quantifier": "every octet with version != 1, every following stream", "why_tests_cant": "All octets and streams.", "anchors": ["server.go: handleConnection, handlePacketConnection", "protocol/error.go: ErrorCodeUnsupportedVersion"]}
{"id": "C30", "title": "The server survives every byte stream", "statement": "For every finite incoming stream the server loop terminates when the stream ends, and the library code itself (excluding the application handler) never panics.", "quantifier": "every byte stream, every segmentation, every server state", "why_tests_cant": "All streams.", "anchors": ["server.go: handleConnection", "internal/server/*.go"]}
{"id": "C31", "title": "Sessions are isolated by client host and id", "statement": "A process request is served only with a session established by a setup request from the same host with the same id; an unknown (host, id) is answered with Unknown-client and changes nothing; distinct (host, id) pairs never share a session unless the hash function collides.", "quantifier": "all pairs of hosts and ids, every server state", "why_tests_cant": "All pairs.", "anchors": ["internal/server/action_process.go", "internal/server/action_setup.go"]}
{"id": "C32", "title": "A failed setup leaves existing sessions untouched", "statement": "If a setup request is answered with an error, every session stored before is still stored and usable afterwards.", "quantifier": "every setup request, every failure point, every server state", "why_tests_cant": "Every failure point.", "anchors": ["internal/server/action_setup.go: setupHandler"]}
{"id": "C33", "title": "A successful setup installs its session and only that one", "statement": "After a setup request from (host, id) succeeds, process requests from (host, id) use the new secret with an empty replay history, and every session under a different (host, id) is unchanged.", "quantifier": "every server state, every setup request", "why_tests_cant": "All states.", "anchors": ["internal/server/action_setup.go: setupHandler", "secret/secret.go: Store, Load"]}
{"id": "C34", "title": "In-memory session store: latest store wins, idle sessions expire, active ones do not", "statement": "For every sequential history of Store, Load and collector ticks: Load returns the last stored session for that id unless a tick happened when the id had been idle for longer than the TTL; a session used at least once per TTL is never collected; with TTL <= 0 nothing is ever collected.", "quantifier": "every sequence of operations and times", "why_tests_cant": "All histories and time stamps.", "anchors": ["secret/secret.go: InMemoryManager"]}
{"id": "C35", "title": "In-memory session store: a stored session is never lost to concurrency", "statement": "Under every interleaving of Store, Load and the collector, after a Store for an id completes, later Loads of that id return that session (or a later stored one) until it has been idle for longer than the TTL.", "quantifier": "every interleaving", "why_tests_cant": "Interleavings of non-atomic load-then-store sequences are not controllable in tests.", "anchors": ["secret/secret.go: InMemoryManager.Load, NewInMemoryManager GC loop"]}
{"id": "C36", "title": "Key fetcher cache never serves a key older than its TTL and never caches failures", "statement": "For every history of Fetch calls and times, a key returned by the cache was returned by the underlying fetcher for the same host at most TTL ago (or ever, when TTL <= 0), an error is returned only when the underlying fetcher failed in that very call, and a hit within TTL makes no underlying call.", "quantifier": "every sequence of hosts, times, fetcher results and collector ticks", "why_tests_cant": "All histories.", "anchors": ["key/client_fetcher.go: ClientFetcherCache"]}
{"id": "C37", "title": "DNSKEY build/parse round trip", "statement": "For every RSA key (exponent 1..2^31-1, modulus 64..512 bytes), every P-256/P-384 point with coordinates in range and every 32-byte Ed25519 key, parsing the built DNSKEY text gives the same key back.", "quantifier": "every key in range", "why_tests_cant": "Infinitely many keys, including those with leading zero bytes.", "anchors": ["internal/dns/dnssec/dnssec.go: BuildDNSKEY, ParseDNSKEY"]}
{"id": "C38", "title": "DNSKEY parsing never panics and rejects every malformed record with an error", "statement": "For every input string, parsing returns either an error, 'not a zone signing key', or a usable key: a record whose key material is malformed for its algorithm is reported as an error.", "quantifier": "every input string", "why_tests_cant": "All strings; out-of-range indexing would be a crash.", "anchors": ["internal/dns/dnssec/dnssec.go: ParseDNSKEY, publicKeyRSA, publicKeyECDSA, publicKeyED25519"]}
{"id": "C39", "title": "DNS key retrieval trusts only DNSSEC-validated answers and returns the first usable zone key", "statement": "RetrievePublicKey returns a key only if the HTTP status is 200 and the AD flag is set, and the key is the first in answer order that parses; otherwise it returns an error and no key.", "quantifier": "every provider response", "why_tests_cant": "All responses and answer lists.", "anchors": ["internal/dns/doh/doh.go: RetrievePublicKey"]}
{"id": "C40", "title": "Signatures by the server key manager verify under the published key", "statement": "For every supported private key type, hash type and content, a signature returned by Sign verifies with the key returned by FetchKey, the algorithm tag names the key's type, and unsupported hash or key types are rejected with an error on both sides.", "quantifier": "every key of each type, every hash identifier, every content", "why_tests_cant": "All contents and hash identifiers.", "anchors": ["key/server_manager.go: FetchKey, Sign", "key/key.go: VerifySignature"]}
{"id": "C41", "title": "Pool never has more than maxOpenClients connections open", "statement": "Under every interleaving of Get and Close calls the number of open connections (borrowed plus idle) created by the pool never exceeds maxOpenClients.", "quantifier": "every interleaving, every number of borrowers, every limit", "why_tests_cant": "All schedules, including failures of borrowed connections.", "anchors": ["client_pool.go: Get, put"]}
{"id": "C42", "title": "Pool lends a connection to at most one borrower at a time", "statement": "Under every interleaving, provided every borrower closes its client once, no client is held by two borrowers and no borrowed client is also idle.", "quantifier": "every interleaving", "why_tests_cant": "All schedules.", "anchors": ["client_pool.go: Get, put"]}
{"id": "C43", "title": "A waiting Get is served when a connection is returned", "statement": "If a Get is waiting because the pool is full and a borrowed client is closed, the waiting Get can complete; the pool never reaches a state where a Get waits although no connection is borrowed.", "quantifier": "every interleaving", "why_tests_cant": "Lost wake-ups only appear in particular schedules.", "anchors": ["client_pool.go: Get, put"]}
{"id": "C44", "title": "Get discards dead idle connections and returns", "statement": "If idle connections have died (the borrow test fails) Get drops them and returns a fresh connection or an error; it terminates.", "quantifier": "every number of dead idle connections, every limit", "why_tests_cant": "Termination claim.", "anchors": ["client_pool.go: Get, put, testOnBorrow", "client.go: Close"]}
{"id": "C45", "title": "All pooled connections share one session established by one handshake", "statement": "Between creation and Close of the pool, at most one handshake succeeds, and every client handed out carries the session (secret, id, send counter) of that handshake.", "quantifier": "every interleaving", "why_tests_cant": "All schedules.", "anchors": ["client_pool.go: Get"]}
{"id": "C46", "title": "Closing the pool is safe while clients are borrowed or waiting", "statement": "Calling Close on the pool while clients are borrowed or callers wait in Get does not make later Client.Close or the waiting Get panic.", "quantifier": "every interleaving of pool Close with Get and Client.Close", "why_tests_cant": "Schedules.", "anchors": ["client_pool.go: Close, put, Get"]}
{"id": "C47", "title": "A borrower never sees data that belongs to a previous borrower", "statement": "Whatever a previous borrower left unread, a client obtained from Get starts with a clean stream: the first Read after a Write returns the reply to that Write or an error.", "quantifier": "every usage by previous borrowers", "why_tests_cant": "All usage histories.", "anchors": ["client_pool.go: put, testOnBorrow", "client.go: Read, buffer"]}
{"id": "C48", "title": "UDP packets are handled independently and answered to their sender in one datagram", "statement": "For every set of received datagrams the server parses each from its own bytes only, and whatever it writes for that datagram is sent as at most one datagram to the address the request came from.", "quantifier": "every datagram, every interleaving", "why_tests_cant": "All datagrams.", "anchors": ["internal/net/udp.go: UDPConn", "server.go: handlePacketConnection"]}
{"id": "C49", "title": "UDP client recovers from stray or duplicated datagrams", "statement": "A duplicated or late reply datagram does not prevent the client from reading the genuine reply to a later request.", "quantifier": "every sequence of datagrams", "why_tests_cant": "Datagram duplication and reordering.", "anchors": ["internal/net/udp.go: Read, Write", "client.go: Read"]}
{"id": "C50", "title": "Closing a client releases its socket", "statement": "After Client.Close on a non-pooled client returns nil the underlying network socket is closed, for TCP and UDP.", "quantifier": "every client state", "why_tests_cant": "Resource state is not observed by tests.", "anchors": ["client.go: close", "internal/net/udp.go: Close"]}
{"id": "C51", "title": "No request is processed after Server.Close returned", "statement": "Under every schedule, once Server.Close has returned no further request is handed to the application handler.", "quantifier": "every schedule, TCP and UDP", "why_tests_cant": "Schedules around shutdown.", "anchors": ["server.go: Close, handleConnection, handlePacketConnection, StartTCP"]}
{"id": "C52", "title": "The server never continues a connection after a partial response", "statement": "If a response or error response was only partially written, or writing timed out, the server closes the connection; it continues only if the last thing written was a complete response or complete error response.", "quantifier": "every write outcome sequence", "why_tests_cant": "All combinations of short writes and errors.", "anchors": ["internal/server/handler.go: writeResponse, writeErrorResponse"]}
{"id": "C53", "title": "Generated session ids are RFC 4122 version 4 identifiers with 122 free bits", "statement": "For every 16 random bytes, the id has version nibble 4 and variant bits 10 and keeps all the other random bits unchanged.", "quantifier": "every 16-byte random value", "why_tests_cant": "2^128 values.", "anchors": ["internal/client/uuid.go: UUID"]}
{"id": "C54", "title": "A rejected request does not let its body be interpreted as further requests", "statement": "When the server answers a request with Malformed-request, none of the bytes that belong to that request are interpreted as new requests.", "quantifier": "every malformed or oversized or timed-out request", "why_tests_cant": "All malformed requests.", "anchors": ["internal/server/action_process.go", "internal/server/action_setup.go", "server.go: handleConnection"]}
{"id": "C55", "title": "Key derivation gives both sides the same 32-byte key and rejects bad lengths", "statement": "For every secret, client and server derive the same AEAD key of exactly 32 bytes; DeriveKey fails exactly for lengths <= 0 or > 8160 and otherwise returns exactly the requested number of bytes, shorter requests being prefixes of longer ones.", "quantifier": "every secret, info and length", "why_tests_cant": "All secrets and lengths.", "anchors": ["internal/kdf/kdf.go: DeriveKey", "client.go: newGCM", "internal/server/action_process.go"]}
{"id": "C56", "title": "An idle pooled connection is usable after any idle time", "statement": "If the network and the server are healthy, Get on a pool with an idle client returns a working client however long the client has been idle.", "quantifier": "every idle time, every deadline left on the connection", "why_tests_cant": "Tests return and reuse connections within milliseconds, long before any deadline expires.", "anchors": ["client_pool.go: testOnBorrow, Get", "client.go: Read, Write"]}
{"id": "C57", "title": "A request within the read timeout is answered", "statement": "With the default timeouts, a request that arrives on an open connection before the server's read timeout expires is answered, if the transport accepts the response.", "quantifier": "every waiting time below the read timeout", "why_tests_cant": "Tests send their requests immediately; no test waits between two requests on one connection.", "anchors": ["server.go: handleConnection", "internal/server/handler.go: writeResponse"]}
{"id": "C58", "title": "Parsing loses nothing", "statement": "Whenever a request header, process request, process response, fetch-key response or error response is parsed successfully from a transport, Bytes of the parsed value is exactly the sequence of octets consumed, reserved bits included; and the top bit of the second octet of any encoded process request is set exactly if a reply is expected.", "quantifier": "every octet stream and every segmentation; every request value", "why_tests_cant": "Tests encode then parse; they never compare the re-encoding of arbitrary accepted input, reserved bits included, with that input.", "anchors": ["protocol/action_003_process.go: ParseProcessRequest, Bytes", "protocol/action_004_fetch_key.go", "protocol/request.go"]}
{"id": "C59", "title": "Hash identifiers mean the same on both sides", "statement": "For every hash function accepted by NewHashType, CryptoHash of the resulting identifier is that hash function and vice versa; exactly the identifiers 2, 3 and 4 are understood.", "quantifier": "every hash number and every identifier octet", "why_tests_cant": "Tests use one hash function.", "anchors": ["protocol/action_002_setup.go: NewHashType, CryptoHash"]}
{"id": "C60", "title": "A failed dial releases its socket", "statement": "When DialTCP or DialUDP returns an error, no network socket opened by the call stays open.", "quantifier": "every point of failure of the dial, every server answer, TCP and UDP", "why_tests_cant": "Resource state after an error is not observed by tests, and the points of failure are many.", "anchors": ["client.go: DialTCP, DialUDP, dialTCP, dialUDP", "internal/net/udp.go: Close"]}
{"id": "C61", "title": "The key cache never goes back to an older key", "statement": "Once a call of the caching fetcher's Fetch has returned a key for a host, a call that begins later returns a different key only if the underlying fetcher gave that key in between.", "quantifier": "every interleaving of any number of Fetch calls, hosts, times and collector visits", "why_tests_cant": "Needs two goroutines interleaved inside Fetch; tests call it sequentially.", "anchors": ["key/client_fetcher.go: ClientFetcherCache"]}
{"id": "C62", "title": "Keys published in DNS cannot crash the client", "statement": "For every answer of the DNS-over-HTTPS provider from which a key is retrieved, verifying a signature with that key returns (valid, not valid, or an error) and does not panic.", "quantifier": "every provider answer, hash type, content and signature", "why_tests_cant": "Tests publish well-formed records only.", "anchors": ["internal/dns/doh/doh.go: RetrievePublicKey", "internal/dns/dnssec/dnssec.go: ParseDNSKEY", "key/key.go: VerifySignature"]}
{"id": "C63", "title": "The protocol key fetcher obtains the server's published key", "statement": "If a server answers a fetch-key request and a client's protocol key fetcher (network tcp or udp) receives that answer, Fetch returns exactly the public key of the server's long-term private key; the fetcher sends exactly one fetch-key request.", "quantifier": "every long-term key that can be encoded in at most 64 KiB, every segmentation of the answer, every server state", "why_tests_cant": "Tests fetch a few generated keys over loopback connections that deliver answers in one piece.", "anchors": ["key/client_fetcher.go: ClientFetcherProtocol.Fetch", "internal/server/handler.go: fetchKey", "protocol/action_004_fetch_key.go"]}
{"id": "C64", "title": "The protocol key fetcher is robust and does not leak its socket", "statement": "Whatever the peer sends or fails to send, Fetch of the protocol key fetcher returns without panicking, returns a key only if the peer sent a successful fetch-key response carrying exactly that key (at most 64 KiB), and has closed the socket it opened when it returns.", "quantifier": "every stream of octets and errors, TCP or UDP, every failure of the environment", "why_tests_cant": "Tests exercise a handful of peers; the claim is about all peer behaviours and all return paths.", "anchors": ["key/client_fetcher.go: ClientFetcherProtocol.Fetch"]}
{"id": "C65", "title": "The pool's fields are only accessed under its mutex", "statement": "Whatever goroutines do with a pool (Get, Client.Close any number of times, Close of the pool), no two of them can be about to read or write fields of the pool at the same time, and a goroutine that accesses a field or unlocks the mutex holds it.", "quantifier": "every number of goroutines of every kind, every interleaving, every limit", "why_tests_cant": "A race detector only sees the schedules that happen.", "anchors": ["client_pool.go: Get, put, Close"]}
{"id": "C66", "title": "Closing a pooled client twice is harmless", "statement": "If a borrower calls Close on a pooled client more than once, the pool does not hold the client twice, and two later Get calls do not return the same client.", "quantifier": "every interleaving, every number of Close calls", "why_tests_cant": "Tests close clients once.", "anchors": ["client.go: Close", "client_pool.go: put"]}
{"id": "C67", "title": "The pool keeps at most maxIdleClients idle", "statement": "Under every interleaving of Get and Close calls the number of idle clients kept by the pool never exceeds maxIdleClients (or zero if that is negative).", "quantifier": "every interleaving, every number of borrowers, every limit", "why_tests_cant": "All schedules.", "anchors": ["client_pool.go: put"]}
{"id": "C68", "title": "Nobody blocks while holding the pool's mutex, except on the network", "statement": "Whenever the mutex of a pool is locked, the goroutine that locked it can move on: it waits for no other goroutine and has not ended, by return or panic, without unlocking it. If it does go on, the mutex becomes free.", "quantifier": "every number of goroutines of every kind, every interleaving", "why_tests_cant": "Deadlocks need particular schedules.", "anchors": ["client_pool.go: Get, put, Close"]}
{"id": "C69", "title": "A client that passes the borrow test is usable", "statement": "The borrow test passes when the server's answer to the hello request is what the connection delivers next, and only if the hello request was accepted and an octet with the success bit was received. A client that passes it can be used: when the server answers the hello request and the next message, Write succeeds and Read returns the reply, whatever previous borrowers left unread.", "quantifier": "every usage by previous borrowers, every octet sequence left on the connection", "why_tests_cant": "All leftovers; tests return clients after reading every reply.", "anchors": ["client_pool.go: testOnBorrow, Get", "protocol/response.go: ParseResponseCommon", "client.go: Read"]}
{"id": "C70", "title": "The TLS key fetcher returns only the key of a valid certificate for the host, and closes its connection", "statement": "When Fetch of the TLS key fetcher returns a key without an error, it had connected to the host at the configured port, the certificate matches the host name, the key is the one in the peer's first certificate, and that certificate was valid at some instant during the call. It does return the key when all this holds throughout the call. The connection is closed exactly once on every path.", "quantifier": "every server behaviour, certificate validity period, clock and failure of each step", "why_tests_cant": "Needs certificates that expire or become valid between two clock readings, and failures of single steps.", "anchors": ["key/client_fetcher.go: ClientFetcherTLS.Fetch"]}
{"id": "C71", "title": "The TLS key fetcher connects to the host it was asked for", "statement": "For every address that the client can split into host and port, the TLS key fetcher dials that host.", "quantifier": "every host string", "why_tests_cant": "Tests use host names and IPv4 addresses only.", "anchors": ["key/client_fetcher.go: ClientFetcherTLS.Fetch", "client.go: handshake"]}
{"id": "C72", "title": "A server key that was loaded or generated is usable", "statement": "A server manager that was loaded from PEM or generated can publish its key, with the requested algorithm if it was generated, and every signature it makes verifies with the published key; PEM blocks of other types, unsupported key types and unsupported algorithms are refused when loading or generating.", "quantifier": "every input, every algorithm number, every key, content and hash", "why_tests_cant": "All inputs and algorithm numbers.", "anchors": ["key/server_manager.go: ServerManagerParsePEM, ServerManagerGenerateOnTheFly, FetchKey, Sign"]}
{"id": "C73", "title": "A public key accepted from a PEM file can verify signatures", "statement": "When the client accepts a public key from a PEM file, verifying a server's signature with the fetched key gives a verdict, not an error about the key.", "quantifier": "every PEM input, every content and signature", "why_tests_cant": "Tests only load supported key types.", "anchors": ["key/client_fetcher.go: ParseClientFetcherPEM, ClientFetcherInMemory.Fetch", "key/key.go: VerifySignature"]}
{"id": "C74", "title": "Deadlines set by the application are observed", "statement": "After SetReadDeadline (SetWriteDeadline) returned without error, every Read that needs data from the network (every Write) that starts after the deadline fails with an error wrapping os.ErrDeadlineExceeded; SetDeadline does both.", "quantifier": "every history of the client, every deadline, every later time, every timeout option", "why_tests_cant": "Needs all combinations of deadlines, timeouts and times between calls.", "anchors": ["client.go: SetDeadline, SetReadDeadline, SetWriteDeadline, Read, Write"]}
{"id": "C75", "title": "Clients with timeouts do not wait for ever for a silent server", "statement": "If the options set positive timeouts, DialTCP, Read of the dialled client and the test of a pooled client before it is lent return, even if the server stops sending at any point without closing the connection.", "quantifier": "every point at which the server falls silent, every history of the client", "why_tests_cant": "A test cannot observe that a call never returns, nor try every point of silence.", "anchors": ["client.go: DialTCP, handshake, Read", "client_pool.go: testOnBorrow"]}
{"id": "C76", "title": "Closing the pool closes every idle connection", "statement": "ClientPool.Close closes the connection of every client that was idle when it was called, whatever the outcome of closing each of them; a later Get opens a new connection with a new session.", "quantifier": "every history of the pool and every outcome of closing each connection", "why_tests_cant": "Connections in tests close without errors; needs every combination of close outcomes and histories.", "anchors": ["client_pool.go: Close, Get"]}
{"id": "C77", "title": "A closed server accepts nothing", "statement": "After Server.Close returned, the server accepts no further TCP connection and receives no further datagram.", "quantifier": "every schedule, every number of connections and datagrams before and after Close", "why_tests_cant": "Depends on what the listeners do at the moment of Close, and on clients arriving afterwards.", "anchors": ["server.go: Close, StartTCP, handlePacketConnection, handleConnection"]}
{"id": "C78", "title": "Server.Close returns", "statement": "Server.Close returns without panicking, whatever the connected clients do and however often it is called, provided that every goroutine goes on sooner or later (reads end by the read timeout); the listeners may wait for clients for ever.", "quantifier": "every endless fair schedule, every number of connections, every behaviour of clients, session keys and application handler", "why_tests_cant": "Liveness over all endless schedules.", "anchors": ["server.go: Close, handleConnection, StartTCP"]}
{"id": "C79", "title": "Refused requests carry the error codes of the specification", "statement": "A Process request with an unknown session identifier is answered with error 0x03, one whose counter was already used or is too old with error 0x05, and one that does not decrypt with error 0x01; requests declaring sizes above the limits are answered with error 0x01 (Internet-Draft, Process and Error Response).", "quantifier": "every reachable state of the server, every host, identifier, counter, ciphertext and segmentation, with and without the expect-reply flag", "why_tests_cant": "The tests check only that some error comes back; the code depends on the whole history of the session.", "anchors": ["internal/server/action_process.go: processHandler", "internal/server/action_setup.go: setupHandler", "docs/draft-justo-goe2ee-latest.md: Process, Denial of Service"]}
{"id": "C80", "title": "The replay window is the one of the specification", "statement": "For every sequence of counters, a session accepts exactly the non-zero counters that were not accepted before and are not smaller than the highest accepted one minus 64 (Internet-Draft, Replay Protection: the highest counter and the 64 values immediately below it).", "quantifier": "every sequence of counters", "why_tests_cant": "The boundary depends on the whole sequence; a test tries a few.", "anchors": ["secret/secret.go: ReplayWindow.CheckAndUpdate", "docs/draft-justo-goe2ee-latest.md: Replay Protection"]}
{"id": "C81", "title": "A session outlives its connection", "statement": "Once a session is stored for a host and identifier and no request is in progress, Process requests for it that arrive on any connection from that host are served without a handshake, with the same secret and one replay history, whatever happens on this and all other connections, until a new Setup for the same host and identifier, and until the TTL has passed since the last use.", "quantifier": "every schedule of all goroutines, every traffic on every connection and every time within the TTL before the reuse; the request that reuses the session is served with no other request in progress", "why_tests_cant": "Needs arbitrary traffic and schedules between the setup and the reuse.", "anchors": ["secret/secret.go: InMemoryManager", "internal/server/action_process.go: processHandler", "docs/draft-justo-goe2ee-latest.md: Session Reuse"]}
{"id": "C82", "title": "The response to a datagram is sent, however long the handler takes", "statement": "Over UDP, with the default timeouts, whatever the server has written in response to a datagram is sent to the client as one datagram if the socket accepts it, whatever other datagrams are served at the same time.", "quantifier": "every datagram, every time the application handler takes, every schedule of the goroutines for other datagrams", "why_tests_cant": "Needs handlers slower than the write timeout, and schedules in which goroutines change the deadline of the socket they share.", "anchors": ["server.go: handlePacketConnection", "internal/net/udp.go: UDPConn.Close"]}
{"id": "C83", "title": "Nothing but fixed texts, public values and ciphertexts leaves the server", "statement": "Everything the server writes to a connection is a hello response, an error response with one of sixteen fixed texts, a setup response with the public half of a freshly generated key and the key manager's signature of the handshake transcript, the key manager's public key, or the application's reply encrypted with the key of the session its request was accepted for. Session secrets, private keys, plaintexts and the error values of the application, the key manager and the session manager never appear, and nothing but accepted writes is sent.", "quantifier": "every schedule, every traffic, every session manager, every behaviour of the application handler and the key manager", "why_tests_cant": "Tests look for expected responses; they cannot show that no schedule and no error path ever writes anything else.", "anchors": ["internal/server/handler.go", "internal/server/action_setup.go: Handler.setup", "internal/server/action_process.go: Handler.process", "internal/server/action_fetch_key.go: Handler.fetchKey"]}
{"id": "C84", "title": "What the application writes leaves the client only encrypted for an authenticated peer", "statement": "Everything a client writes to its connection is a setup request (a random id and the public half of a freshly generated key) or a process request whose body is an argument of Write encrypted with a key derived from a secret that was agreed in a handshake whose transcript, with this client's key and id, was signed with the key that the key fetcher returned for the host.", "quantifier": "every peer behaviour, every environment, every number of clients and goroutines and every interleaving", "why_tests_cant": "Needs all malicious server responses at once; tests try a few and cannot show that no answer makes the client send data in the clear or under an unauthenticated key.", "anchors": ["client.go: DialTCP, DialUDP, Client.Write, Client.Read", "client.go: Client.handshake"]}
{"id": "C85", "title": "There is a limit on the number of sessions", "statement": "There is a limit on the number of sessions a server with the default in-memory storage keeps at the same time, whatever its peers send.", "quantifier": "every run of the server: every number of peers, every sequence of requests, every interleaving; every proposed limit below 2^64", "why_tests_cant": "Shows that no limit exists, for an arbitrarily large number; a test can only try a number of sessions it can afford.", "anchors": ["internal/server/action_setup.go: Setup.Handle", "secret/secret.go: InMemoryManager.Store", "docs/draft-justo-goe2ee-latest.md: Denial of Service"]}
{"id": "C86", "title": "Closing a server closes its listening sockets", "statement": "Once Server.Close has returned and the server has come to rest, the sockets opened by StartTCP and StartUDP are closed.", "quantifier": "every choice of options, every sequence of calls of StartTCP, StartUDP and Close from any number of goroutines, every schedule, every behaviour of clients", "why_tests_cant": "Needs every interleaving of listeners, connections, collectors and calls of Close, and states in which nothing moves any more.", "anchors": ["server.go: StartTCP", "server.go: StartUDP", "server.go: Server.Close"]}
{"id": "C87", "title": "Closing a server ends its goroutines", "statement": "Once Server.Close has returned, the server has come to rest and its sockets are closed, no goroutine started by NewServer, StartTCP or StartUDP remains.", "quantifier": "every choice of options, every sequence of API calls, every schedule, every behaviour of clients", "why_tests_cant": "Needs every interleaving of listeners, connections, collectors and calls of Close, and states in which nothing moves any more.", "anchors": ["server.go: NewServer", "server.go: Server.Close", "secret/secret.go: NewInMemoryManager", "secret/secret.go: InMemoryManager.Close"]}
{"id": "C88", "title": "No choice of options crashes the process", "statement": "Whatever options are passed to NewServer and NewInMemoryManager, the process does not crash while the server runs and is closed once.", "quantifier": "every list of options, every sequence of API calls with at most one Close, every schedule, every behaviour of clients", "why_tests_cant": "Needs every interleaving of listeners, connections, collectors and calls of Close, and states in which nothing moves any more.", "anchors": ["server.go: ServerWithLogger", "secret/secret.go: InMemoryManagerWithGCTicker", "secret/secret.go: NewInMemoryManager"]}
{"id": "C89", "title": "Closing a server lets datagrams being served finish", "statement": "No response to a datagram is lost because the server closed its socket.", "quantifier": "every choice of options, every sequence of API calls, every schedule, every behaviour of clients", "why_tests_cant": "Needs every interleaving of listeners, connections, collectors and calls of Close, and states in which nothing moves any more.", "anchors": ["server.go: handlePacketConnection", "server.go: StartUDP", "server.go: Server.Close"]}
{"id": "C90", "title": "A successful dial implies a matching session at the server", "statement": "If a dial succeeds and the signature it received was made by the server's key manager, the server received a setup request with the client's id and ephemeral public key and holds, for that id and the address the request came from, a session with the same secret as the client's.", "quantifier": "every schedule and traffic of the server, every octet stream reaching the client, every id and ephemeral key, every session manager that only stores and deletes", "why_tests_cant": "Relates what two processes did, for every interleaving of both and every behaviour of the network between them; a test sees one exchange on a well-behaved loopback.", "anchors": ["client.go: Client.handshake", "internal/server/action_setup.go: setupHandler", "protocol/action_002_setup.go: SetupTranscript"]}
{"id": "C91", "title": "The application is called only with what a client wrote, and not more often", "statement": "If nothing is forged under a session's key, each call of the server's application for that session has a message that a client encrypted for it with that counter, received from the reported address; and the application is called with a message at most as often as Write was called with it.", "quantifier": "every schedule of both processes, every traffic (loss, duplication, reordering, replay, injection), every number of client goroutines and connections", "why_tests_cant": "Relates what two processes did, for every interleaving of both and every behaviour of the network between them; a test sees one exchange on a well-behaved loopback.", "anchors": ["internal/server/action_process.go: processHandler", "client.go: Client.Write", "secret/secret.go: ReplayWindow.CheckAndUpdate"]}
{"id": "C92", "title": "A reply read by the client is the application's reply to the message written", "statement": "If a Write without unread data is followed by a Read that returns data, and nothing is forged under the session's key, the server's application was called with exactly the message written and the data read is the beginning of what it replied to that call.", "quantifier": "every schedule and traffic of the server, every octet stream reaching the client, every message and buffer size", "why_tests_cant": "Relates what two processes did, for every interleaving of both and every behaviour of the network between them; a test sees one exchange on a well-behaved loopback.", "anchors": ["client.go: Client.Read", "client.go: Client.Write", "internal/server/action_process.go: processHandler"]}
{"id": "C93", "title": "A session is not lost because somebody else sends a setup request", "statement": "Once a client has set up a session, setup requests with other keys, from whomever, do not make the server refuse that client's genuine fresh messages.", "quantifier": "every state a server can reach by any schedule and traffic, every setup request, every fresh genuine message", "why_tests_cant": "The request that does the harm comes from somebody else and is well formed; a test of one client never sends it, and that nothing else can touch the entry needs every schedule.", "anchors": ["internal/server/action_setup.go: Setup", "secret/secret.go: InMemoryManager.Store", "server.go: handleConnection"]}
{"id": "C94", "title": "The server is no amplifier for datagrams", "statement": "A datagram that the server sends is not longer than the longest datagram it received.", "quantifier": "every schedule and traffic, every key manager, application and session manager", "why_tests_cant": "Quantifies over every request, response and schedule; a test compares the lengths of a few.", "anchors": ["internal/server/action_fetch_key.go: FetchKey", "internal/net/udp.go: UDPConn.Close", "server.go: handlePacketConnection"]}
{"id": "C95", "title": "A Read takes exactly one response from the connection", "statement": "A Client.Read that needs data from the network takes exactly one complete response from it, whatever that response says (an error, another counter, a ciphertext that does not open), and any sequence of Reads stops at a border between responses; data is returned exactly if the response is a genuine reply to the latest message, otherwise Read fails and the client is as before.", "quantifier": "every client, every complete response, every segmentation of the octets, whatever follows, every sequence of calls with any buffer sizes", "why_tests_cant": "An off-by-some in one branch only shows up in the response after the next; a test would have to combine every kind of response with every successor and segmentation.", "anchors": ["client.go: Client.Read", "protocol/response.go: ParseResponseCommon", "protocol/error.go: ParseErrorResponse", "protocol/action_003_process.go: ParseProcessResponse"]}
{"id": "C96", "title": "A Read that timed out can be repeated", "statement": "As the documentation of SetDeadline says, a connection whose deadline was exceeded can be refreshed: if a Read fails because its deadline passed, wherever in the reply that was, and the rest of the reply arrives, a second Read returns the reply.", "quantifier": "every client, every reply, every position at which the deadline passes", "why_tests_cant": "The position is chosen by the network; tests wait for complete timeouts or none.", "anchors": ["client.go: Client.Read", "client.go: Client.SetDeadline", "protocol/response.go: ParseResponseCommon"]}
{"id": "C97", "title": "Messages may be written before the reply to the previous one is read", "statement": "If two messages are written one after the other and both genuine replies arrive, the first Read returns the reply to the first message.", "quantifier": "every client, any two messages and replies", "why_tests_cant": "Tests alternate Write and Read.", "anchors": ["client.go: Client.Read", "client.go: Client.Write"]}
{"id": "C98", "title": "A Write that failed does not harm the next", "statement": "If a Write fails (for example because its deadline passed) and the next Write succeeds, the server hands the second message to the application.", "quantifier": "every client and every reachable server that share a session, any two messages, every number of octets the connection took in the first call", "why_tests_cant": "The number of octets that the transport takes before a deadline passes is not under a test's control.", "anchors": ["client.go: Client.Write", "server.go: handleConnection", "protocol/action_003_process.go: ParseProcessRequest"]}
{"id": "C99", "title": "A client recovers when the server has dropped its session", "statement": "After a pause, however long, the next message written by a client is handed to the server's application and the reply can be read, also if the server's session manager has dropped the session in the meantime because it was idle.", "quantifier": "every client, every reachable state of the server in which the session was set up at some time, every message and reply, every segmentation", "why_tests_cant": "The default idle time is fifteen minutes; tests use fresh sessions.", "anchors": ["client.go: Client.Write", "client.go: Client.Read", "internal/server/action_process.go: processHandler", "secret/secret.go: InMemory"]}
{"id": "C100", "title": "One user per name in the chat registry", "statement": "As long as a name is not unregistered, at most one POST /users for it is answered with 201; the others are answered with 409.", "quantifier": "every list of requests, every interleaving of the handlers, every order in which the map is visited", "why_tests_cant": "It takes two requests whose handlers overlap; sequential tests see the 409.", "anchors": ["examples/chat/cmd/registry/main.go: usersHandler"]}
{"id": "C101", "title": "The chat registry introduces users to each other", "statement": "When two registrations (of users who stay registered, under names nobody else uses) were both answered with 201 and both handlers have returned, each of the two users has been sent a notification that the other joined.", "quantifier": "every list of requests, every interleaving of the handlers, every order in which the map is visited", "why_tests_cant": "A missed introduction would need a particular interleaving of two handlers.", "anchors": ["examples/chat/cmd/registry/main.go: usersHandler", "examples/chat/notification.go: Notification.Notify"]}
{"id": "C102", "title": "Nobody is told twice that a user joined", "statement": "If all users have names and addresses of their own and register once, no user is sent more than one notification that a given user joined.", "quantifier": "every list of requests, every interleaving of the handlers, every order in which the map is visited", "why_tests_cant": "Tests register one user after the other.", "anchors": ["examples/chat/cmd/registry/main.go: usersHandler", "examples/chat/notification.go: Notification.Notify"]}
{"id": "C103", "title": "The chat registry answers every request", "statement": "Every request for /users or /users/… gets one response: no handler panics, none responds twice, and each has responded when it returns.", "quantifier": "every list of requests, every interleaving of the handlers", "why_tests_cant": "The requests that matter are not the ones a client of the package sends.", "anchors": ["examples/chat/cmd/registry/main.go: usersHandler"]}
{"id": "C104", "title": "The last news of a user who left is that they left", "statement": "When a user has been unregistered (204) and all handlers have returned, the last thing another registered user who knew of them was told about them is that they left.", "quantifier": "every list of requests, every interleaving of the handlers, every order in which the map is visited", "why_tests_cant": "It takes a DELETE while the POST is still sending notifications, which is after it was answered with 201.", "anchors": ["examples/chat/cmd/registry/main.go: usersHandler", "examples/chat/notification.go: Notification.Notify"]}
{"id": "C105", "title": "Server.Close returns although clients stay silent", "statement": "Server.Close returns also when the server has no read timeout (ServerWithReadTimeout(0)) and clients stay connected without sending anything.", "quantifier": "every endless schedule in which every goroutine goes on sooner or later, except that nobody needs to connect and connected clients need not send anything", "why_tests_cant": "Waiting for ever; tests use the default read timeout or close the client first.", "anchors": ["server.go: Close, handleConnection", "server.go: ServerWithReadTimeout", "examples/chat/cmd/user/main.go: main"]}
{"id": "C106", "title": "Messages of a session may overtake each other", "statement": "If a message written on one client of a pool reaches the server after messages written later on other clients of the pool, however many, the server still hands it to the application.", "quantifier": "every message, every number of messages that overtake it, every state of the server in which the session is stored", "why_tests_cant": "Needs many messages on one connection of a pool while another connection lags; tests keep few connections busy one at a time.", "anchors": ["client.go: Write", "client_pool.go: Get", "secret/secret.go: CheckAndUpdate", "internal/server/action_process.go: Process"]}
{"id": "C107", "title": "One goroutine may wait in Read while another calls Write", "statement": "If one goroutine calls Read on a TCP client and another calls Write, in either order and interleaved in any way, and the server sends the reply to that message in any pieces, then Read returns that reply (as much of it as fits, with EOF if all of it was returned) and nothing else; once the reply has arrived, Read returns without waiting for the other goroutine.", "quantifier": "every message, every reply up to the limit, every buffer size, every interleaving of the two calls, every segmentation of the reply", "why_tests_cant": "A test runs a handful of interleavings; which goroutine stores the counter or reads the socket first is up to the scheduler.", "anchors": ["client.go: Read", "client.go: Write"]}
{"id": "C108", "title": "Several goroutines may use one client at once", "statement": "Goroutines that share a TCP client and each call Write and then Read get the reply to their own message, as the documentation of net.Conn allows (several goroutines may call its methods simultaneously).", "quantifier": "every number of goroutines, every message, every interleaving, every server that answers every request in order", "why_tests_cant": "Needs two requests in flight at the moment the first reply is read; sequential tests never have that.", "anchors": ["client.go: Read", "client.go: Write"]}
{"id": "C109", "title": "Read and Write on one client do not race", "statement": "If one goroutine only calls Read and another only calls Write on the same TCP client, the two never access the same field of the client at the same time with one of them changing it.", "quantifier": "every sequence of messages and of reads, every interleaving, every server that answers every request in order", "why_tests_cant": "The race detector reports only races of the interleavings a test happens to run.", "anchors": ["client.go: Read", "client.go: Write"]}
{"id": "C110", "title": "A chat user survives whatever arrives", "statement": "No notification and no message that a chat user receives makes its process die.", "quantifier": "every user, every list of notifications and messages, every schedule of the goroutines, every failure of dials, writes and closes", "why_tests_cant": "A panic in the goroutine that chats needs a notification with an unknown network followed by a tick; tests send well-formed notifications.", "anchors": ["examples/chat/cmd/user/main.go: handleNotification", "examples/chat/cmd/user/main.go: handleMessage", "examples/chat/cmd/user/main.go: startChatting"]}
{"id": "C111", "title": "The list of peers never stays locked", "statement": "Whatever arrives, the lock of a chat user's list of peers can always become free again, so that later notifications are handled.", "quantifier": "every user, every list of notifications and messages, every schedule, every failure", "why_tests_cant": "The panic that leaves the lock held is recovered by net/http, so a test sees only one failed request; the effect is in the requests after it.", "anchors": ["examples/chat/cmd/user/main.go: handleNotification", "examples/chat/cmd/user/main.go: startChatting", "examples/chat/cmd/user/main.go: printer"]}
{"id": "C112", "title": "A message that was acknowledged is shown, once", "statement": "Every message of another user that a chat user has answered with \"ok\" is shown on the screen as often as it arrived, except possibly the last one that is just being printed; no message is shown more often than it arrived.", "quantifier": "every number of messages, also equal ones, every schedule", "why_tests_cant": "The messages pass through an unbuffered channel between goroutines; a test sees a few interleavings and different texts.", "anchors": ["examples/chat/cmd/user/main.go: handleMessage", "examples/chat/cmd/user/main.go: printer"]}
{"id": "C113", "title": "A line that looks like news of the registry is news of the registry", "statement": "If a line on the screen of a chat user reads like the news that somebody joined or left, the registry has sent that news.", "quantifier": "every hash function for the colours, every user, every list of notifications and messages, every schedule", "why_tests_cant": "A forged line needs a message whose sender's name or host is chosen so that the formatted lines coincide.", "anchors": ["examples/chat/message.go: String", "examples/chat/cmd/user/main.go: printer", "examples/chat/cmd/user/main.go: handleMessage"]}
{"id": "C114", "title": "A chat user ends after the signal", "statement": "After SIGINT or SIGTERM the process of a chat user can end.", "quantifier": "every user, every list of notifications and messages, every schedule", "why_tests_cant": "The hang needs a message that is being handled at the moment the signal arrives.", "anchors": ["examples/chat/cmd/user/main.go: main", "examples/chat/cmd/user/main.go: printer", "examples/chat/cmd/user/main.go: handleMessage"]}
{"id": "C115", "title": "No connection to a peer is lost", "statement": "Whenever a chat user is not handling a notification, every connection to a peer that it has opened and not closed belongs to a user who is in its list (and is closed when that user leaves).", "quantifier": "every user, every list of notifications and messages, every schedule, every failure of dials and closes", "why_tests_cant": "A leaked connection has no visible effect until the descriptors run out.", "anchors": ["examples/chat/cmd/user/main.go: handleNotification"]}
{"id": "C116", "title": "The list of peers is free of data races", "statement": "While one goroutine of a chat user is about to change the list of peers, no other goroutine is about to use it.", "quantifier": "every user, every list of notifications and messages, every schedule", "why_tests_cant": "The race detector reports only races of the interleavings a test happens to run.", "anchors": ["examples/chat/cmd/user/main.go: handleNotification", "examples/chat/cmd/user/main.go: startChatting"]}
{"id": "C117", "title": "A line under one's own name is one's own", "statement": "A line that a chat user shows under its own name is a message that it has generated itself.", "quantifier": "every user, every list of notifications and messages, every schedule", "why_tests_cant": "Needs a message with an empty or forged sender.", "anchors": ["examples/chat/cmd/user/main.go: printer", "examples/chat/cmd/user/main.go: handleMessage"]}
{"id": "C118", "title": "Everybody in the chat is told, once", "statement": "When a chat user says something, the message is written exactly once to the connection of every user who is in its list at that time, and nothing else is written meanwhile, whether or not some of the writes fail.", "quantifier": "every list of peers and every order in which the map is visited, every schedule, every failure of writes", "why_tests_cant": "The order of a map and the changes of the list while it is visited differ from run to run.", "anchors": ["examples/chat/cmd/user/main.go: startChatting"]}
{"id": "C119", "title": "A chat user writes to open connections only", "statement": "A chat user never writes a message to a connection that it has closed, so nothing is sent to a user who has left; and whenever it is not handling a notification, the connection of every user in its list is open.", "quantifier": "every user, every list of notifications and messages (users may join twice), every schedule, every failure of dials and closes", "why_tests_cant": "A write to a closed connection only gives an error that the program logs; a test would need the leaving to fall between two writes of one round.", "anchors": ["examples/chat/cmd/user/main.go: handleNotification", "examples/chat/cmd/user/main.go: startChatting"]}
{"id": "C120", "title": "A chat user is told who joins and who leaves", "statement": "When the handler of a notification has ended and the screen is up to date, the news have been shown, or (for a user who joins) the registry was answered with an error; the news that somebody left are shown in any case.", "quantifier": "every user, every list of notifications and messages, every schedule, every failure", "why_tests_cant": "The news pass through a channel shared with all messages; losing one needs a particular interleaving.", "anchors": ["examples/chat/cmd/user/main.go: handleNotification", "examples/chat/cmd/user/main.go: printer"]}
{"id": "C121", "title": "Who has left is not in the list", "statement": "If the news that a user joined arrive before the news that they left and both have been handled, the user is not in the list of peers any more.", "quantifier": "every user, every schedule of the two handlers", "why_tests_cant": "The dial takes long only when the peer is slow; in a test it returns at once.", "anchors": ["examples/chat/cmd/user/main.go: handleNotification"]}
{"id": "C122", "title": "Write returns although nobody reads the replies", "statement": "On a connection of a client that asks for replies, every Write returns (with or without an error), whether or not the application calls Read, provided that both ends keep running.", "quantifier": "every client after its handshake without timeouts, every list of messages, every capacity of the connection, every fair schedule, every behaviour of the application at the server", "why_tests_cant": "The buffers of the operating system take hundreds of kilobytes, so a test with a few messages never fills them.", "anchors": ["client.go: Client.Write", "server.go: handleConnection", "internal/server/action_process.go: processHandler", "examples/chat/cmd/user/main.go: startChatting"]}
{"id": "C123", "title": "Reading after each Write never deadlocks", "statement": "An application that calls Read after each Write gets a result for each of its messages, however few octets the connection takes at a time, unless the server closes the connection; a Write reports an error only if the server has closed the connection.", "quantifier": "every client after its handshake without timeouts that asks for replies, every list of messages, every capacity of at least one octet, every fair schedule, every behaviour of the application at the server (replies of at most 2^30 - 16 octets)", "why_tests_cant": "A deadlock would depend on the buffer sizes and the scheduling; a test has one of each.", "anchors": ["client.go: Client.Write", "server.go: handleConnection", "internal/server/action_process.go: processHandler", "client.go: Client.Read"]}
{"id": "C124", "title": "Each Read returns the reply to the last message", "statement": "An application that calls Read after each Write gets, message by message, exactly the reply that the application at the server gave to that message, in order and complete, no matter how sends and receives of the two ends interleave and how many octets the connection takes; and if both ends keep running it gets the replies to all its messages.", "quantifier": "every client after its handshake without timeouts that asks for replies, every list of messages, every reply function, every capacity, every schedule (for the last part: every fair schedule), provided the server knows the session and accepts the counters; messages and their replies of at most 2^30 - 16 octets", "why_tests_cant": "A test sees one interleaving and one buffer size.", "anchors": ["client.go: Client.Write", "client.go: Client.Read", "server.go: handleConnection", "internal/server/action_process.go: processHandler"]}
{"id": "C125", "title": "Memory is allocated only for octets that arrived", "statement": "Whoever sends octets to a server makes it allocate, for receiving one request, at most twice the number of octets sent (the message is held twice while it is decoded), whether the request is complete or not.", "quantifier": "every octet stream, every segmentation, every point where the sender stops", "why_tests_cant": "The machine of the tests has memory to spare, and the tests send complete requests.", "anchors": ["protocol/action_003_process.go: ParseProcessRequest", "protocol/action_002_setup.go: ParseSetupRequest"]}
{"id": "C126", "title": "Standard library writers work on a client", "statement": "io.Copy to a client sends all the data of the source and reports its length without an error, and a client can be one of the writers of an io.MultiWriter.", "quantifier": "every source, every division into chunks, every client with a working connection", "why_tests_cant": "Tests call Write themselves and ignore the count.", "anchors": ["client.go: Client.Write"]}
{"id": "C127", "title": "The documented way to read a reply returns the reply", "statement": "After a Write that succeeded, when the reply to it arrives, io.ReadAll on the client returns exactly the reply and no error (as README.md shows it), however long the reply is and however its buffer grows.", "quantifier": "every reply of at most 2^30 - 16 octets, every sequence of positive buffer sizes, every segmentation of the reply", "why_tests_cant": "Tests send a few short replies, so that io.ReadAll needs one round.", "anchors": ["client.go: Client.Read"]}
{"id": "C128", "title": "Dial, messages and replies work over any connection", "statement": "An application that dials a server whose key it knows, then calls Write and Read for each of its messages, never sees an error of the dial or of a Write, and gets message by message exactly the reply that the application at the server gave to it, no matter how sends and receives of the two ends interleave and how many octets the connection takes; and if both ends keep running the dial ends and it gets the replies to all its messages.", "quantifier": "all client options without timeouts that ask for replies, every key type, every list of messages, every reply function, every capacity, every schedule (for the last part: every fair schedule), provided the server is not closed, keeps the session and accepts the counters; messages and their replies of at most 2^30 - 16 octets", "why_tests_cant": "A test sees one interleaving and one buffer size.", "anchors": ["client.go: dialTCP", "client.go: Client.handshake", "internal/server/action_setup.go: setupHandler", "client.go: Client.Write", "client.go: Client.Read", "server.go: handleConnection"]}
{"id": "C129", "title": "Many clients at once get their own replies", "statement": "Any number of clients dial one server and call Write and Read for each of their messages, all at the same time, while anybody else at other addresses connects, sends anything over TCP or UDP, and sets up sessions. Each client gets, message by message, exactly the reply of the application to its own message; no dial and no Write fails; and if the goroutines keep running every client gets the replies to all its messages.", "quantifier": "every number of clients, every list of messages of each, every handler that is a function of host and message, every capacity of each connection, every input of anybody else, every schedule (for the last part: every schedule that is fair to the clients), provided the SHA-256 of host and session id differ; messages and their replies of at most 2^30 - 16 octets", "why_tests_cant": "A test runs a few clients in the interleavings that the scheduler happens to choose.", "anchors": ["server.go: handleConnection", "server.go: StartTCP", "internal/server/action_setup.go: setupHandler", "internal/server/action_process.go: processHandler", "secret/secret.go: Session", "client.go: Client.Write", "client.go: Client.Read"]}
{"id": "C130", "title": "Nobody else can spoil a client's conversation", "statement": "Whoever else sends something to the server, what a client with an established connection reads are the replies to its messages.", "quantifier": "every number of clients, every input of anybody else, every schedule; messages and their replies of at most 2^30 - 16 octets", "why_tests_cant": "A test would need the attacker to share the address of the client and to have seen its session id.", "anchors": ["internal/server/action_setup.go: setupHandler", "internal/server/action_process.go: processHandler", "secret/secret.go: InMemoryManager.Store"]}
{"id": "C131", "title": "The DNS-over-HTTPS request asks for the keys of exactly the given domain", "statement": "Whatever octets the domain has, a provider that reads the query of the request as the URL standard says finds the parameters of its own URL and in addition exactly two: the domain, unchanged, as name and DNSKEY as type. If its URL has no parameter called name then the domain is the only name. The query has only letters, digits and the characters -_.~%+&=.", "quantifier": "every query in the URL of the provider, every domain", "why_tests_cant": "A test asks for a few ordinary domains; a name that contains & = # % + or line breaks is not among them.", "anchors": ["internal/dns/doh/doh.go: DNSOverHTTPS.RetrievePublicKey", "key/client_fetcher.go: ClientFetcherDNSKEY.Fetch"]}
{"id": "C132", "title": "A chat user with any name can leave", "statement": "For a registered user whose name can be a part of a path, Unregister returns nil, the user is no longer registered, and all other users still are.", "quantifier": "every set of users, every name without a slash other than . and ..", "why_tests_cant": "Tests would use names made of letters.", "anchors": ["examples/chat/registry.go: Registry.Unregister", "examples/chat/cmd/registry/main.go: usersHandler"]}
{"id": "C133", "title": "A call that a deadline ended says so", "statement": "As the comment of SetDeadline promises: whenever a deadline passes during Read or Write, at whatever point of a reply, the error wraps os.ErrDeadlineExceeded and its Timeout method returns true; and Read reports a passed deadline only if there was one.", "quantifier": "every octet stream before the deadline, every transport, every state of the client", "why_tests_cant": "Tests would let a deadline pass before the first octet, not within each field of each kind of response.", "anchors": ["client.go: Read, Write, SetDeadline", "protocol/response.go: ParseResponseCommon", "protocol/action_003_process.go: ParseProcessResponse", "protocol/error.go: ParseErrorResponse"]}
{"id": "C134", "title": "End of file means that a reply was read to its end", "statement": "If errors.Is(err, io.EOF) holds for the error of a Read without buffered data, then a complete authentic reply to the latest message was received.", "quantifier": "every octet stream, every point where the connection is closed", "why_tests_cant": "Tests close connections between replies, if at all.", "anchors": ["client.go: Read", "protocol/action_003_process.go: ParseProcessResponse"]}
{"id": "C135", "title": "A lost datagram costs only its own exchange", "statement": "Over UDP, whatever requests and replies the network loses: a message whose request and reply arrive is handled once and its reply is read completely, whatever was lost before; otherwise Read returns an error that wraps os.ErrDeadlineExceeded; the application is called exactly for the messages whose request arrived, in order.", "quantifier": "every pattern of losses, every number of messages, every reachable state of the server, every application that replies", "why_tests_cant": "The tests run over the loopback interface, where nothing is lost.", "anchors": ["client.go: Read, Write", "internal/net/udp.go: Read, Write, Receive", "server.go: handlePacketConnection", "internal/server/action_process.go: processHandler"]}
{"id": "C136", "title": "The reply to a datagram is sent, or the client is told", "statement": "Over UDP, for a message that was handed to the application and every reply within the limits of the protocol, the client is sent one datagram: the reply, or an error response if it cannot be sent.", "quantifier": "every reachable state of the server, every message, every reply", "why_tests_cant": "Tests over UDP use short replies.", "anchors": ["internal/net/udp.go: Close", "server.go: handlePacketConnection", "internal/server/handler.go: writeResponse"]}
{"id": "C137", "title": "Every ephemeral key of the server serves one handshake", "statement": "Whatever clients send over TCP and UDP and however the server's goroutines interleave: every content the key manager is asked to sign is the transcript of a handshake with an ephemeral key that the server generated, every session secret is the Diffie-Hellman result of such a key, and no generated key is used for two signatures or for two sessions.", "quantifier": "every schedule, every traffic, every number of handshakes, every session table that stores and loads", "why_tests_cant": "Tests do one handshake at a time and cannot observe which key was used.", "anchors": ["internal/server/action_setup.go: setupHandler", "docs/draft-justo-goe2ee-latest.md: Forward Secrecy"]}
{"id": "C138", "title": "Message counters increase in the order of sending", "statement": "The process requests that the clients of a process send under one session carry strictly increasing counters, in the order in which they are written to the connections, as long as the counter is not exhausted.", "quantifier": "every number of goroutines, sessions and calls, every interleaving, every outcome of the calls", "why_tests_cant": "Tests cannot enumerate interleavings of goroutines between drawing a counter and writing the request.", "anchors": ["client.go: Write", "client_pool.go: ClientPool", "docs/draft-justo-goe2ee-latest.md: Counter Rules"]}
{"id": "C139", "title": "The handler reads the message, and the client learns what the handler did", "statement": "Whatever calls of Read and Write a ServerHandler makes: its Reads return the message that was sent, in order and completely, and io.EOF only after the last octet; its Writes succeed, and if it returns nil the reply is what it wrote, in order. In a conversation over TCP or UDP in which the handler returns nil or an error as it likes, every message is handed to it once and in order; reading after a Write gives the reply and io.EOF if it wrote something, no data and an error that wraps io.EOF if it wrote nothing, and no data and an error with the code and the message of the server's error response if it returned an error; the conversation goes on after each of these.", "quantifier": "every handler program, every message and reply that can be sent, every number of rounds and order of outcomes, every segmentation and sizes of buffers", "why_tests_cant": "Tests use handlers that read everything, write once and rarely fail, and no test goes on after a failure.", "anchors": ["internal/server/action_process.go: processHandler", "server.go: ServerHandler", "client.go: Read", "protocol/error.go: ParseErrorResponse"]}
{"id": "C140", "title": "Error responses are reported with their code and message", "statement": "If the server answers with an error response, with any code and any message, in any segmentation and over TCP or UDP: the error of DialTCP/DialUDP (answer to the setup request), of Read (answer to a message) and of ClientFetcherProtocol.Fetch (answer to the key request) contains its code and its complete message; exactly the response is taken from the connection; a failed dial leaves no counter behind and closes a TCP connection, Read leaves the client as it was, Fetch closes its socket.", "quantifier": "every code, message, reserved bits, segmentation and state of the client", "why_tests_cant": "Tests cover a few of the server's messages, delivered in one piece, and do not look at what is left on the connection.", "anchors": ["client.go: handshake", "client.go: Read", "key/client_fetcher.go: ClientFetcherProtocol", "protocol/error.go: ParseErrorResponse"]}
{"id": "C141", "title": "Whether the server replies is decided by the client", "statement": "If a genuine message arrives on which somebody on the path changed octets outside the ciphertext, and it is accepted and the application returns nil, a response is sent exactly if the client asked for one.", "quantifier": "every message, session, state of the server, and both values of the flag, sent and received", "why_tests_cant": "Tests have no attacker on the path.", "anchors": ["protocol/action_003_process.go: WithProcessRequestExpectReply", "internal/server/action_process.go: processHandler", "client.go: Write"]}
{"id": "C142", "title": "A panicking handler harms only its own request", "statement": "When the application handler panics, the client gets no response to that request, not one octet of it. Over TCP its connection is then closed. Sessions, other connections and other calls of the handler are unaffected: the session can still be used on another connection, and over UDP the same client goes on talking, its Read for that request failing at its deadline.", "quantifier": "every secret manager, schedule, timeout, state reached, connection and message; any mixture of panics, errors and replies over a conversation", "why_tests_cant": "Tests would have to make the handler panic at every point of every interleaving with other connections.", "anchors": ["server.go: handleConnection", "server.go: handlePacketConnection", "internal/server/action_process.go: processHandler", "client.go: Read"]}
{"id": "C143", "title": "Options do what they say", "statement": "Every option of DialTCP, DialUDP, NewServer, NewInMemoryManager, the key fetchers and NewProcessRequest sets its own parameter and no other; if it is given several times, the last one counts; a parameter without option has the documented default. A nil key fetcher panics before anything is sent.", "quantifier": "every list of options, in every order and with any repetition", "why_tests_cant": "Tests try single options, not their combinations, orders and repetitions.", "anchors": ["client.go: ClientWithKeyFetcher", "client.go: ClientWithReadTimeout", "client.go: ClientWithWriteTimeout", "client.go: ClientWithKeepAlive", "client.go: ClientWithExpectReply", "client.go: clientOptionsDefaults", "server.go: NewServer", "secret/secret.go: NewInMemoryManager", "key/client_fetcher.go: NewClientFetcherTLS", "key/client_fetcher.go: NewClientFetcherDNSKEY", "key/client_fetcher.go: NewClientFetcherCache", "internal/dns/doh/doh.go: NewDNSOverHTTPS", "protocol/action_003_process.go: NewProcessRequest"]}
{"id": "C144", "title": "After Close, every call fails and nobody waits", "statement": "Once Close of a TCP client (not from a pool) has returned, every goroutine completes its calls without waiting for the peer, and every Read, Write and Close that any goroutine calls afterwards returns an error and no data.", "quantifier": "every number of goroutines, sequence of calls, interleaving, outcome of the socket's Close, and everything the peer sends before or after", "why_tests_cant": "The failing schedule has to switch goroutines between two statements of Read; and tests cannot show that nobody waits for ever.", "anchors": ["client.go: Close", "client.go: close", "client.go: Read", "client.go: Write"]}
{"id": "C145", "title": "Close does not race with Read or Write", "statement": "If one goroutine calls Read and Write on a TCP client and another calls Close, the two never access the same field of the client at the same time with one of them changing it.", "quantifier": "every sequence of calls, every interleaving, everything the peer sends", "why_tests_cant": "A data race shows only under schedules that tests do not control.", "anchors": ["client.go: close", "client.go: Read", "client.go: Write"]}
{"id": "C146", "title": "The DNS fetcher finds the key that was published", "statement": "If a server's key is written as a DNSKEY record with the library's function and put into the zone of a domain, with no other zone signing key of a supported algorithm before it, Fetch of the DNS key fetcher for the domain returns exactly that key. Whatever the provider does, Fetch does not panic, sends at most one HTTP request (GET, Accept application/dns-json, the question for the domain's DNSKEY records), closes every response exactly once, reads a body only if the status is 200, and returns only a key that is in the validated answer to its own request.", "quantifier": "every provider URL, domain, zone, key in range, provider behaviour and failure of each step", "why_tests_cant": "Tests use one fixed answer and no failures, and do not observe whether bodies are closed.", "anchors": ["internal/dns/doh/doh.go: RetrievePublicKey", "internal/dns/doh/doh.go: dnsOverHTTPSJSONAPI", "key/client_fetcher.go: Fetch", "internal/dns/dnssec/dnssec.go: BuildDNSKEY"]}
{"id": "C147", "title": "The key comes from a DNSKEY record of the domain", "statement": "When Fetch of the DNS key fetcher for a domain returns a key, the key is in a record of type DNSKEY whose owner is the domain.", "quantifier": "every provider behaviour", "why_tests_cant": "Providers do not send other records in tests.", "anchors": ["internal/dns/doh/doh.go: RetrievePublicKey", "internal/dns/doh/doh.go: dnsOverHTTPSJSONAPI"]}
{"id": "C148", "title": "A generated key can be published for clients with default options", "statement": "For every algorithm for which a server manager generates a key there is a DNSKEY record such that clients with default options find exactly this key at a domain that publishes the record, and then a dial to the server succeeds.", "quantifier": "every algorithm, generated key, zone, provider that answers key questions, transport and segmentation", "why_tests_cant": "Tests publish no key in DNS; the tests of the record functions make their own keys on P-256 and P-384.", "anchors": ["key/server_manager.go: ServerManagerGenerateOnTheFly", "internal/dns/dnssec/dnssec.go: BuildDNSKEY", "internal/dns/dnssec/dnssec.go: ParseDNSKEY", "client.go: clientOptionsDefaults"]}
{"id": "C149", "title": "A chat user registers where it can be reached", "statement": "Whatever step of its start fails, the user program of the chat example sends the registry either nothing or exactly one user, with the name and network of its flags; at that moment its server listens with this network at the host and port of the user, its listener for notifications listens at the host and notification port of the user and is served, and messages are being printed. If a key can be generated and both listeners can be opened, the user is sent.", "quantifier": "every value of the flags, every port that the system chooses, every failure", "why_tests_cant": "The example has no tests; a start with failing steps needs fault injection.", "anchors": ["examples/chat/cmd/user/main.go: main", "examples/chat/registry.go: Register"]}
{"id": "C150", "title": "A user whose program has ended is not registered", "statement": "When the user program of the chat example has ended, by itself or by SIGINT or SIGTERM at any time, the registry no longer lists its user, provided that the registry is honest and requests to unregister succeed.", "quantifier": "every value of the flags, every failure, every time of a signal", "why_tests_cant": "The example has no tests; the time of a signal cannot be controlled.", "anchors": ["examples/chat/cmd/user/main.go: main", "examples/chat/registry.go: Register", "examples/chat/registry.go: Unregister"]}
{"id": "C151", "title": "The chat program closes every response and uses only successful ones", "statement": "Register returns no error exactly if the registry responded with status 201 and the body could be closed. GenerateMessage returns no error only with a message of the user that holds the first excuse of a successful response. Both close every response exactly once.", "quantifier": "every response, every failure", "why_tests_cant": "The example has no tests.", "anchors": ["examples/chat/registry.go: Register", "examples/chat/message.go: GenerateMessage"]}
{"id": "C152", "title": "The wire format is the documented one", "statement": "The messages that the library builds are, octet by octet, those of protocol/README.md and the Internet-Draft (field widths, octet order, action, error, hash and key codes, transcript, nonce and key derivation), and it understands every documented message; so an implementation written from the documentation can talk to it, in both roles.", "quantifier": "every message of every kind within the size limits, every segmentation of the stream", "why_tests_cant": "The tests of the repository use the library on both sides, so a deviation on both sides cancels out.", "anchors": ["protocol/README.md", "docs/draft-justo-goe2ee-latest.md", "protocol/action_002_setup.go: SetupResponse.Bytes", "protocol/action_002_setup.go: ParseSetupResponse", "protocol/action_004_fetch_key.go: FetchKeyResponse.Bytes", "protocol/action_004_fetch_key.go: ParseFetchKeyResponse", "protocol/nonce.go: Nonce"]}
{"id": "C153", "title": "The quick start of README.md works", "statement": "With the server of README.md's quick start, which sends back what it received, and its client, which fetches the server's key over the protocol, dials, writes one message and calls io.ReadAll: the fetcher gets the server's key, neither the dial nor Write fails, and io.ReadAll returns exactly the message without an error, no matter how sends and receives of the two ends interleave and how many octets the connection takes.", "quantifier": "every message that is not empty and has at most 2^30 - 16 octets, every growth of the buffers of io.ReadAll, all client options that ask for replies, every key type, every capacity of the connections, every schedule (to end: every fair schedule), provided no deadline passes", "why_tests_cant": "A test runs one message on one machine; how the two ends interleave, where the buffers of the operating system are full and how io.ReadAll grows its buffer are outside its control.", "anchors": ["README.md", "client.go: DialTCP", "client.go: Client.Write", "client.go: Client.Read", "server.go: Server.handleConnection", "key/client_fetcher.go: ClientFetcherProtocol.Fetch", "internal/server/action_process.go"]}
{"id": "C154", "title": "A client over UDP knows the address of its server", "statement": "After DialUDP returned a client, RemoteAddr of that client is the address of the server, and it stays so whatever is called on the client, whatever these calls return and whatever arrives.", "quantifier": "every queue of datagrams and errors of the socket, every outcome of the operating system's calls, every key fetcher, every sequence of calls; datagrams come from the peer of the connected socket", "why_tests_cant": "The address is nil until the first datagram arrives, so it depends on the order of calls and on which datagrams are lost; tests read it once, after a loopback handshake.", "anchors": ["client.go: DialUDP", "client.go: Client.RemoteAddr", "internal/net/udp.go: UDPConn.Read", "internal/net/udp.go: UDPConn.Write", "internal/net/udp.go: UDPConn.RemoteAddr"]}
{"id": "C155", "title": "Clients may connect while the server closes", "statement": "Whenever clients connect and disconnect, and whenever Server.Close is called (once), neither Close nor any goroutine of the server panics.", "quantifier": "every number of listeners and connections, every schedule at the granularity of the atomic operations of Go's wait group, every moment at which clients connect, connections end and Close is called", "why_tests_cant": "The panic needs a client that connects within microseconds of the end of the last connection while Close is waiting; a test cannot place it there, and the race detector sees only what happens to run.", "anchors": ["server.go: Server.StartTCP", "server.go: Server.handleConnection", "server.go: Server.Close"]}
{"id": "C156", "title": "The log blames the client only for what the client did", "statement": "If the server's log says that a client closed its connection, then the client closed it, or the connection broke: a deadline of the server itself is not logged as the doing of the client. If the client closes the connection between two requests, the log says so.", "quantifier": "every sequence of results that reads, writes, key manager, session manager and application may return during a request", "why_tests_cant": "The wrong line needs a response whose write deadline has passed; tests do not wait that long, use fake connections, and do not read the log.", "anchors": ["server.go: Server.handleConnection", "server.go: Server.handlePacketConnection", "internal/server/handler.go: HandlerV1.writeResponse", "internal/server/handler.go: HandlerV1.writeErrorResponse"]}
{"id": "C157", "title": "The log explains every refusal", "statement": "Every error response that the server sends is explained by a line in its log, which is written right before; a request that is served without an error response leaves no line; and no request leaves more than three lines.", "quantifier": "every sequence of results that reads, writes, key manager, session manager and application may return during a request, every session manager, connections and datagrams", "why_tests_cant": "There are sixteen kinds of refusals, most of which need a failing random source, key manager, session manager or transport; tests do not read the log.", "anchors": ["internal/server/handler.go: HandlerV1.writeResponse", "internal/server/handler.go: HandlerV1.writeErrorResponse", "internal/server/action_setup.go: HandlerV1.setupHandler", "internal/server/action_process.go: HandlerV1.processHandler", "internal/server/action_fetch_key.go: HandlerV1.fetchKeyHandler", "server.go: Server.handleConnection"]}
{"id": "C158", "title": "The production set-ups of README.md work", "statement": "With each of the three ways that README.md gives for a client in production to learn the server's key (the domain's DNSKEY records asked from the default resolver, the certificate of the server's host, a PEM file with the public key), the client connects to the server of the quick start and receives the reply of the application. With the certificate of the host, it connects only if the certificate is trusted, matches the host, is valid, and holds the key with which the server signs.", "quantifier": "every private key of the server, hostname, message, reply, zone with the key in front of the other usable ones, certificate that is valid for the host, file with the public key, and every splitting of the transport", "why_tests_cant": "A test would need a public resolver, a certificate that the system trusts and a DNSSEC zone; the repository's tests replace all three.", "anchors": ["client.go: NewClient", "key/client_fetcher.go: ClientFetcherTLS.Fetch", "key/client_fetcher.go: ParseClientFetcherPEM", "key/client_fetcher.go: ClientFetcherDNSKEY.Fetch"]}
{"id": "C159", "title": "A pool recovers when the server was restarted", "statement": "A pool whose sessions the server no longer knows (because it was restarted, or because they expired) eventually lends a client with a session that was set up afterwards, so that messages are accepted again.", "quantifier": "every configuration of the pool, number of users, schedule, and behaviour of the network", "why_tests_cant": "Needs a server that is restarted below a running pool; the tests of the pool use one server for the lifetime of the pool.", "anchors": ["client_pool.go: NewClientPool", "client_pool.go: ClientPool.Get", "internal/server/action_process.go: HandlerV1.processHandler"]}
{"id": "C160", "title": "The log of an idle server does not grow", "statement": "A server whose sockets work and to which nobody speaks writes no lines to its log, however long it runs.", "quantifier": "every read timeout, both transports, every schedule and passage of time", "why_tests_cant": "Lines appear only after the read timeout (a minute by default) has passed without traffic; tests end before and do not read the log.", "anchors": ["server.go: Server.StartTCP", "server.go: Server.StartUDP", "server.go: Server.handlePacketConnection"]}
{"id": "C161", "title": "A lost datagram does not block a client for ever", "statement": "If the options set positive timeouts, DialUDP and Fetch of the key fetcher that asks the server over UDP return, possibly with an error, even if the request or the response is lost.", "quantifier": "every network that loses any of the datagrams, every content of those that arrive, every key, options with positive timeouts", "why_tests_cant": "A test on the loopback interface loses no datagrams, and cannot observe that a call never returns.", "anchors": ["client.go: DialUDP", "client.go: Client.handshake", "key/client_fetcher.go: ClientFetcherProtocol.Fetch", "internal/net/udp.go: UDPConn.Read"]}
{"id": "C162", "title": "Clients follow a change of the server's key", "statement": "A client that uses the cache of keys gets the reply of a server whose key was replaced, as soon as the key fetcher behind the cache returns the new key.", "quantifier": "every key of the server, every content and age of the cache, every time to live, every key fetcher behind the cache, every message, schedule and splitting of the transport", "why_tests_cant": "The time to live is minutes (or unlimited), and no test replaces the key of a server.", "anchors": ["key/client_fetcher.go: ClientFetcherCache.Fetch", "key/client_fetcher.go: NewClientFetcherCache", "client.go: Client.handshake"]}
{"id": "C163", "title": "A client over UDP, from DialUDP to its last message", "statement": "Against an honest server whose long-term key the client holds, the datagram with which DialUDP begins is answered with one datagram; when that arrives, DialUDP succeeds; and whatever requests and replies the network loses afterwards, every message whose request and reply arrive gets its reply completely, every other Read returns an error that wraps os.ErrDeadlineExceeded, and the application is called for the messages of this client that arrived, in order, and for nothing else of this session.", "quantifier": "every reachable state of the server, every long-term key of the three types, every id and ephemeral keys, every pattern of losses, every number of messages, every application that replies in time", "why_tests_cant": "The tests run over the loopback interface, which loses nothing, with one message per client.", "anchors": ["client.go: DialUDP", "client.go: Client.handshake", "server.go: Server.handlePacketConnection", "client.go: Client.Read"]}
{"id": "C164", "title": "The server's long-term key only signs", "statement": "Two servers that differ only in their long-term key, given the same connections, data, ephemeral keys, times and application, are in the same state at every moment: the same sessions with the same secrets and replay windows, the same calls of the application and the same encrypted replies. What they send is the same octet for octet, except for the signature in the responses to Setup requests and for the response to Fetch Key. So the long-term key, learned later, says nothing about the session secrets beyond what the traffic says.", "quantifier": "every schedule of any number of connections, datagrams and goroutines, both transports, any data from the clients, every pair of long-term keys that can sign and can be published, with transports that take all of a Write or nothing", "why_tests_cant": "It compares two runs of the whole server for all keys; a test would have to run the same interleaving with the same random numbers twice.", "anchors": ["internal/server/action_setup.go: HandlerV1.setupHandler", "internal/server/action_fetch_key.go: HandlerV1.fetchKeyHandler", "key/server_manager.go: ServerManagerInMemory.Sign", "server.go: Server.handleConnection"]}
{"id": "C165", "title": "The pool loses neither connections nor places", "statement": "Whatever dials, borrow tests and closes of connections have failed before: whenever no call of the pool is being executed (calls of Get may be waiting), the open connections of the pool are exactly the idle ones and those the application has borrowed. And if the application has then borrowed fewer than maxOpenClients, Get returns: the first idle client if that is alive; if none is idle, a new client, or the error of the dial.", "quantifier": "every schedule of any number of goroutines that call Get and close each client once, every outcome of dials, borrow tests and closes, every limit that is not negative, before the pool is closed", "why_tests_cant": "A lost connection or place shows only after a particular failure in a particular interleaving; the tests of the pool have no failures.", "anchors": ["client_pool.go: ClientPool.Get", "client_pool.go: ClientPool.put", "client.go: Client.Close"]}
{"id": "C166", "title": "The application's replies show an observer nothing but their length", "statement": "Two servers whose applications answer the same calls with different replies of the same length, given the same connections, data, keys and times, take the same decisions at every moment: the same sessions, secrets and replay windows, the same requests accepted, the same calls with the same messages, the same keys and nonces, the same connections closed. Every goroutine has sent the same number of octets, and the octets are the same except for the encrypted replies. The same holds when both applications fail or both panic, whatever the error: the text of an application's error is not sent.", "quantifier": "every schedule of any number of connections, datagrams and goroutines, both transports, any data from the clients, any outcome of every Write, every pair of applications whose results for each call are replies of the same length, two errors or two panics", "why_tests_cant": "It compares two runs of the whole server for all replies; a test compares two outputs for the replies it tries, and cannot repeat the same interleaving.", "anchors": ["internal/server/action_process.go: HandlerV1.processHandler", "server.go: Server.handleConnection"]}
{"id": "C167", "title": "An error about an unsupported value says which value it was", "statement": "The errors that ServerManagerGenerateOnTheFly returns for two different unsupported key algorithms are different, and so are the errors that Sign and VerifySignature return for two different unsupported hashes.", "quantifier": "every value of protocol.KeyAlgorithm and every value of crypto.Hash", "why_tests_cant": "There are 2^64 values of crypto.Hash; tests of error texts look at one value, for which an error without a name looks complete.", "anchors": ["key/server_manager.go: ServerManagerGenerateOnTheFly", "key/server_manager.go: ServerManagerInMemory.Sign", "key/key.go: PublicKey.VerifySignature", "protocol/action_004_fetch_key.go: KeyAlgorithm.String", "protocol/action.go: Action.String", "protocol/action_002_setup.go: HashType.String"]}
{"id": "C168", "title": "The messages a client writes show an observer nothing but their length", "statement": "Two applications that dial and make the same calls of Read and Write, but write different messages of the same lengths, given the same data from the network, make the same writes on their connections: the same number, of the same lengths, at the same points of the schedule, and the same octets except for the ciphertext of each message. Keys, nonces and counters are the same, and so is what Read returns.", "quantifier": "every number of clients and goroutines, both transports, every sequence of calls, every schedule, any data received, any outcome of every effect, every pair of messages of the same length below 2^63", "why_tests_cant": "It compares two runs for all messages; a test compares the traffic of the messages it tries.", "anchors": ["client.go: Client.Write", "client.go: Client.Read", "client.go: DialTCP", "client.go: DialUDP"]}
{"id": "C169", "title": "One request, one Write and one Read do a bounded number of things", "statement": "Whatever a peer sends and whatever fails, a server with the session manager in memory does at most sixteen things outside the computation to serve one request: at most seven reads and allocations of fields, two writes, one key generation, one signature, one new session, one check of a message number, one call of the handler and one encryption. Generating a key, checking a number and fetching the long-term key exclude each other, and so do signing and calling the handler, and opening a session and encrypting. One Write of a client uses at most one message number, encrypts and writes at most once and reads nothing. One Read reads at most five fields, and writes, encrypts and numbers nothing.", "quantifier": "every environment: any octets received, any result of every effect, any state changed by other goroutines in between; every client, message and buffer size", "why_tests_cant": "It is a bound over all inputs and failures; a test measures the runs it makes.", "anchors": ["server.go: Server.handleConnection", "server.go: Server.handlePacketConnection", "internal/server/handler.go: HandlerV1.Handle", "internal/server/action_setup.go: HandlerV1.setupHandler", "internal/server/action_process.go: HandlerV1.processHandler", "internal/server/action_fetch_key.go: HandlerV1.fetchKeyHandler", "client.go: Client.Write", "client.go: Client.Read"]}
{"id": "C170", "title": "The server's log tells no secrets", "statement": "The lines that a server writes to its logger are determined by the octets it received, by how many octets it sent and how the writes ended, by the errors of key generation, signing and fetching the public key, by whether there was a session and whether the message number was new, and by the errors and panics (not the replies) of the application. Private keys, session secrets, decrypted messages, replies, signatures and the octets sent make no difference to the log.", "quantifier": "every pair of runs of a request, a datagram, the ends of both and the loops that accept and receive, in any two environments with any states; session manager in memory", "why_tests_cant": "It compares all pairs of runs that differ in secrets; a test searches the log of one run for the secrets it knows.", "anchors": ["server.go: Server.StartTCP", "server.go: Server.handleConnection", "server.go: Server.handlePacketConnection", "internal/server/handler.go: HandlerV1.writeResponse", "internal/server/handler.go: HandlerV1.writeErrorResponse", "internal/server/action_setup.go: HandlerV1.setupHandler", "internal/server/action_process.go: HandlerV1.processHandler", "internal/server/action_fetch_key.go: HandlerV1.fetchKeyHandler"]}
{"id": "C171", "title": "The cache of keys spares the source of the keys", "statement": "After the underlying fetcher of a ClientFetcherCache has given a key for a host, it is asked for that host again only when more than the TTL has passed since, and never again if the TTL is zero or less.", "quantifier": "every TTL, every number of goroutines that call Fetch, any sequence of hosts in each, every interleaving with the collector, every answer of the underlying fetcher and every passing of time", "why_tests_cant": "That a second goroutine looks before the first has stored, or that the collector deletes an entry renewed since it looked, takes a particular interleaving; a test counts calls of one goroutine.", "anchors": ["key/client_fetcher.go: ClientFetcherCache.Fetch", "key/client_fetcher.go: NewClientFetcherCache"]}
{"id": "C172", "title": "A session ends when its client falls silent", "statement": "When a client has neither sent an authentic message nor set up a session for longer than the TTL of the in-memory session manager, its session is not used any more; at the latest when the collector has come by, a message with its id is answered with Unknown-client.", "quantifier": "every TTL, every state of the server, every sequence of requests of others before and after the collector's visit, every point of time", "why_tests_cant": "It takes a clock that runs for the TTL while others send requests; a test that waits and then asks sees a session expire, because nobody else touches it.", "anchors": ["secret/secret.go: InMemoryManager.Load", "secret/secret.go: NewInMemoryManager", "internal/server/action_process.go: processHandler"]}
{"id": "C173", "title": "What one side sends without an error, the other side takes", "statement": "A message for which Client.Write reported success, all of which the connection took, is handed to the handler when it arrives at a server that holds the session and has not seen the counter; and a non-empty reply of the handler, all of which was sent, is what the client's Read returns.", "quantifier": "every message and reply shorter than 2^63 octets, every session, every reachable state of the server, every used client, every segmentation of the octets", "why_tests_cant": "The limits of the two sides differ only for messages of about 1 GiB, which no test sends.", "anchors": ["client.go: Client.Write", "client.go: Client.Read", "protocol/action_003_process.go: NewProcessRequest", "protocol/action_003_process.go: ParseProcessRequest", "protocol/action_003_process.go: ParseProcessResponse", "internal/server/action_process.go: processHandler"]}
{"id": "C174", "title": "A client that has asked nothing is told nothing", "statement": "On a client that was dialled, or opened by a client pool, and on which Write has not been called, every Read fails and returns no data, whatever arrives on the connection: also genuine replies of the server to requests that other connections with the same session have sent.", "quantifier": "every schedule and traffic of the server, every client, every number of earlier Reads, every octets received that are not forged", "why_tests_cant": "It needs a response with a counter that no server sends, or the reply to somebody else's request, on a connection that has sent nothing.", "anchors": ["client.go: Client.Read", "client.go: DialTCP", "client_pool.go: ClientPool.Get", "internal/server/action_process.go: processHandler"]}
{"id": "C175", "title": "A Get that waits for its server delays nobody else", "statement": "While one goroutine waits in ClientPool.Get for an answer of the server, because it connects or tests an idle client, a call of Get, of Close of a borrowed client, or of Close of the pool by another goroutine does not have to wait for it.", "quantifier": "every number of goroutines, every limit, every interleaving, every goroutine that waits and every other call", "why_tests_cant": "A test would need a server that stalls at the right moment, and could only show that a call has not returned yet.", "anchors": ["client_pool.go: ClientPool.Get", "client_pool.go: ClientPool.put", "client_pool.go: ClientPool.Close", "client_pool.go: ClientPool.testOnBorrow"]}
{"id": "C176", "title": "A client that sends its request slowly loses the connection", "statement": "With a read timeout, the server waits for the octets of one request on a TCP connection no longer than the timeout in total, however they are spread over time; a client whose request is not complete by then loses its connection.", "quantifier": "every read and write timeout, every content of the request, every time of arrival of each octet, every duration of the other steps", "why_tests_cant": "The arrival times of the octets are a continuum, and the second half depends on a relation between two options that tests leave at their defaults.", "anchors": ["server.go: Server.handleConnection", "internal/server/action_setup.go: setupHandler", "internal/server/action_process.go: processHandler", "protocol/request.go: ParseRequestCommon"]}
{"id": "C177", "title": "Read waits for a slow server as long as its timeout says, and no longer", "statement": "A Read with a positive read timeout returns when the timeout has expired at the latest, whatever octets the server sends and however it spreads them over time. If it returns later than the deadline, it returns no data, leaves the client as it was, and errors.Is finds the expired deadline in its error. If all octets of the genuine reply arrive before the deadline, in whatever pieces, Read returns the data of the reply as soon as the last octet has arrived, and consumes nothing of what follows. If any octet of the reply is missing at the deadline, Read returns just after the deadline with such an error.", "quantifier": "every read timeout, every sequence of octets with any arrival times, every moment at which Read is called, every size of the reply and of the buffer", "why_tests_cant": "The deadline counts for the call, not for the single reads below it; a test would need a server that sends octet by octet, with all spacings, close to the deadline.", "anchors": ["client.go: Client.Read", "client.go: ClientWithReadTimeout", "protocol/action_003_process.go: ParseProcessResponse", "protocol/response.go: ParseResponseCommon"]}
{"id": "C178", "title": "Client.Read honours the io.Reader contract", "statement": "Every Read returns at most len(p) octets; it returns no octets and no error only if len(p) is 0, and then loses no data; and after a Read has returned io.EOF the next returns no data and io.EOF.", "quantifier": "every client after any calls, every buffer size, everything the server or the network sends", "why_tests_cant": "For all replies and buffer sizes, the empty ones included, and for what follows the end of a reply.", "anchors": ["client.go: Client.Read"]}
{"id": "C179", "title": "An address returned by StartTCP or StartUDP is served", "statement": "If StartTCP or StartUDP returns an address and no error, clients of that address can get through to the server; a server that was closed reports an error instead.", "quantifier": "every option set, every number of calls of StartTCP, StartUDP and Close by any number of goroutines, every schedule, everything clients do", "why_tests_cant": "A test starts a server and uses it; the claim is about every order of the calls, also a start after Close or during it, and about all schedules.", "anchors": ["server.go: Server.StartTCP", "server.go: Server.StartUDP", "server.go: Server.Close"]}
{"id": "C180", "title": "Servers that share a session manager may be closed one by one", "statement": "If several servers are given one in-memory session manager, closing some of them changes nothing for the others: sessions that are used are found, and sessions that nobody used for longer than the TTL and one collector interval are dropped.", "quantifier": "every number of servers, every sequence of setups, messages, Close calls, ticks and points of time, every TTL and interval", "why_tests_cant": "It is about unbounded times and every order of the calls of several servers; tests use one server with one manager.", "anchors": ["server.go: Server.Close", "server.go: ServerWithSecretManager", "secret/secret.go: InMemoryManager.Close", "secret/secret.go: InMemoryManager.Load", "secret/secret.go: InMemoryManager.Store", "secret/secret.go: NewInMemoryManager"]}
{"id": "C181", "title": "A client that is heard of at least once per TTL keeps its session", "statement": "If, whenever the collector of the in-memory session manager comes to a client's entry, no more than the TTL has passed since the session was stored or last used, or since a process request of that client arrived, the session stays, and stays the same one, however long ago it was set up. The client's next message, if it decrypts and its counter is fresh, is handed to the application.", "quantifier": "every TTL, every state of the server, every sequence of requests of any clients and of visits of the collector to any entries, one after the other, at any times, as long as nobody sets up another session with the same host and id", "why_tests_cant": "Sessions that end too early show only when messages and visits fall at particular times; a test runs a few seconds with one client and one TTL.", "anchors": ["secret/secret.go: InMemoryManager.Load", "secret/secret.go: NewInMemoryManager", "internal/server/action_process.go: processHandler"]}
