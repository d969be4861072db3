# goe2ee — formal model and proofs

Subject: `/repo` (rafaeljusto/goe2ee v2, Go), read as text and never built.
Prover: Lean 4.33.0 with single-module imports from Mathlib.  Project: `/verif/lean`.

## 1. Layout

| directory | contents |
|---|---|
| `lean/Verif/Model/*` | the model of the code, function by function, every definition cites `/repo` file:lines |
| `lean/Verif/Spec/*` | small independent specifications used in the theorem statements (wire layouts, "accepted set" of a replay filter, …) |
| `lean/Verif/Proofs/*` | helper lemmas |
| `lean/Verif/Props/*` | the property theorems, with an `example` beside each showing that the hypotheses are satisfiable in a concrete, non-trivial case |
| `lean/Verif/Tests/*` | the repository's own tests, run on the model (not proofs; see section 7) |

## 2. Modelling decisions

* **Integers.** Go `uintN` is `BitVec N` (wrap-around arithmetic is real).  Go `int`/`int64` where sign matters is `Int`.  Bytes are `BitVec 8`, byte slices and strings are `List (BitVec 8)`.
* **Readers.** `io.Reader` is a state machine answering one `Read(k)` call; `io.ReadFull`, `binary.Read` and `io.Copy(&buf, io.LimitReader(r,n))` are loops over it.  A TCP connection is an arbitrary finite list of transport events (chunk of bytes / error), after which `Read` returns EOF.  A UDP socket is an arbitrary list of datagrams/errors behind the repository's own `UDPConn` wrapper.
* **Effects.** Server and client code is written once as a program tree over explicit effects (read, write, session map operations, replay check, clock, randomness, application handler, AEAD seal).  The same tree is executed sequentially (one connection) and interleaved (any number of goroutines, any schedule).
* **Cryptography is a parameter.** `Crypto` is a structure of functions (X25519, PKIX encoding, SHA-2, HKDF, AES-GCM, RSA/ECDSA/Ed25519).  Functional laws (decrypt-after-encrypt, ECDH agreement, verify-after-sign, parse-after-marshal, sizes) are explicit hypotheses (`Crypto.Lawful`) of the theorems that need them, and a concrete toy instance proves that they are satisfiable.  No computational security (unforgeability, secrecy) is modelled.
* **Time** is a natural number per event; **randomness** is an arbitrary stream.
* **Logging**: the programs of the server model do not log (no observable protocol effect). `Model/ServerLog` is the same programs with the calls of the logger, kept as format and arguments; that they are the same is proved (`C157_same_…`). `Model/IdleLog` is the listening loops with their lines and a clock (C160). Logging with a `nil` logger panics (C88). What the logger does with a line, and the log of the clients' examples, are not modelled.
* **Names and accessors**: the `String` methods are in `Model/Names` (C167); methods that only return a field (`RequestCommon.Action`, `SetupRequest.ID`, `ResponseCommon.Success` and so on) are the fields of the structures of `Model/Protocol`; constructors that only fill a structure (`NewServerManager`, `NewHandlerV1`, `NewSession`) are its parameters.
* **A server's life** (`NewServer` with options, `StartTCP`, `StartUDP`, `Close`, collectors; C86–C89, C179) is a transition system over program points, `Model/Lifecycle.lean`.  It abstracts from what is read and written, which `Model/Server.lean` models; steps that need an event outside are marked, so "at rest" can be stated.

## 3. Trusted base

* Lean's kernel, and the axioms `propext`, `Classical.choice`, `Quot.sound` (every property theorem is checked with `#print axioms`; see `Verif/Audit.lean`).  No axioms of our own, no `sorry`, no `native_decide`, no `bv_decide`.
* The reading of the Go source and of the Go standard library (`io`, `bytes.Buffer`, `encoding/binary`, `net`, `sync`, `strconv`, `strings`, `encoding/base64`, `math/big`) that the model's definitions state in their comments.
* The laws of `Crypto.Lawful` where a theorem takes them as hypothesis.
* C90–C92 take as hypothesis that nothing *received* is forged (`SignatureGenuine`, `MessagesGenuine`, `ReplyGenuine` in `Spec/EndToEnd.lean`): a signature or ciphertext that arrives and is valid under the key was made by a holder of the key.  These are statements about the octets of the run, not about all octets, so they are satisfiable by real primitives; `Props/EndToEnd.lean` gives runs in which they hold.
* C170 takes as hypothesis that the error of a failing X25519 does not depend on the private key (`EcdhErrors`; in Go it is a fixed text).

Not modelled: OS sockets and DNS resolution, the TLS handshake and certificate chains (`tls.Dial` succeeds or fails; what `ClientFetcherTLS` does around it is modelled), PEM/DER/ASN.1 internals (abstract parse functions), HTTP and the syntax of JSON in DNS-over-HTTPS (sending a request and decoding the answer succeed or fail; the request and what is kept of the answer are modelled, `Model/URL`, `Model/DoH`), what a logger does with its lines, of `examples/` everything but the handlers of the chat registry (`Model/ChatRegistry`), `Registry.Unregister` (`Model/ChatClient`) and the user program of the chat (its start and end with `Register` and `GenerateMessage` in `Model/ChatStart`, its goroutines in `Model/ChatUser`; JSON, HTTP, what happens inside the dials and writes, and the hash function and time of a line are not modelled there), Go memory-model data races below the level of the effects listed above, memory exhaustion, goroutine fairness.

## 4. Properties: what is modelled and how each is proved

See `properties.jsonl` for the English statements.

| id | model | proof |
|---|---|---|
| C01 | `ParseRequestCommon`, `RequestCommon.Bytes` | exhaustive over the octet by bit reasoning, for every stream |
| C02 | `SetupRequest.Bytes`, `ParseSetupRequest` | symbolic execution of the parser on `bytes ++ rest` |
| C03 | `SetupResponse.Bytes`, `ParseSetupResponse` | same; plus the corner case of the empty signature |
| C04–C07 | process / fetch-key / error codecs | same |
| C08 | flag parsing in all parsers | bit reasoning |
| C09 | allocation trace of the parser program trees | induction over the tree / case analysis; negated for the error message, which has no limit (`_partial` for all others) |
| C10 | all parsers | a proper prefix runs out of input in some read |
| C11 | reader interpreters, among them one that may report the end of the stream together with the last octets | simulation between chunked and item-wise readers, all programs |
| C12 | `Nonce` | list injectivity + big-endian injectivity |
| C13 | `SetupTranscript` | length-prefix injectivity |
| C14 | `handshake`, `VerifySignature` | inversion of a successful run |
| C15 | `handshake` against `setupHandler` | symbolic execution under `Crypto.Lawful` |
| C16 | `handshake` | NEGATED: unsupported hash-type octet reaches a `panic`; partial: no panic if the octet is 2, 3 or 4 and the fetched key is well-formed |
| C17 | `ReplayWindow.CheckAndUpdate` | invariant relating bitmap to the accepted set, induction on the history |
| C18 | interleaved server | token-linearity of handler programs + replay invariant, induction on the schedule |
| C19 | sequential server step | symbolic execution + C17 |
| C20 | sequential server step | NEGATED by witness (replay state is updated before authentication); partial: counters not touched by the forgery stay acceptable |
| C21 | interleaved `Client.Write` | counter monotonicity below 2^64; NEGATED at the wrap-around |
| C22 | interleaved server | as C18 with the seal log |
| C23 | `Client.Read` | inversion |
| C24 | client and server composed | induction on the message list |
| C25 | `Client.Write` | NEGATED: returns the wire length |
| C26 | `Client.Read` | induction on the buffer sizes; NEGATED for empty replies |
| C27 | `processHandler` | NEGATED on the error paths; partial on the success path |
| C28 | sequential server loop | induction on the request list |
| C29 | server loop | no effects proved; the required error response is NEGATED |
| C30 | server loop | measure: each iteration consumes input; no panic node is reachable |
| C31 | handlers' store key | injectivity of host‖id up to an explicit SHA-256 collision |
| C32 | `setupHandler` | NEGATED (session stored before signing); partial for failures before the store |
| C33 | `setupHandler` | symbolic execution |
| C34 | `InMemoryManager` sequential | invariant, induction on the history |
| C35 | `InMemoryManager` interleaved | NEGATED by schedules (lost update, collector race); partial for absence of the race |
| C36 | `ClientFetcherCache` | invariant, induction on the history |
| C37 | `BuildDNSKEY`, `ParseDNSKEY` incl. base64, decimal and big-endian codecs | round-trip lemmas |
| C38 | `ParseDNSKEY` | totality; NEGATED for malformed keys (typed nil); partial |
| C39 | `RetrievePublicKey` after JSON decoding | induction on the answers |
| C40 | `Sign`, `FetchKey`, `VerifySignature` | case analysis under `Crypto.Lawful` |
| C41 | `ClientPool` small-step model, goroutines interleaved | NEGATED by a schedule (the counter is decremented twice for a dead client); partial: the limit holds while no borrow test has failed |
| C42 | same | invariant: idle, in transit, borrowed and held clients are disjoint |
| C43 | same | NEGATED by a schedule (lost wakeup between unlock and receive); partial: a parked goroutine is served by the next Close |
| C44 | same, `Get` alone | NEGATED: a dead idle client makes `Get` loop for ever (`C44_diverges`, all numbers of steps); partial: live first client, or no idle client |
| C45 | same | invariant |
| C46 | same | NEGATED by schedules; partial before / without Close |
| C47 | `testOnBorrow` with `Client` | NEGATED by a run; partial for an empty client buffer |
| C48–C50 | `UDPConn` state machine | case analysis / counterexamples |
| C51 | server lifecycle in the interleaved model | invariant for TCP; NEGATED for UDP |
| C52 | `writeResponse`, `writeErrorResponse` | case analysis on the write outcomes |
| C53 | `UUID` | bit reasoning |
| C54 | server loop | NEGATED by witness; partial for well-delimited malformed bodies |
| C55 | `DeriveKey` with HKDF expand modelled over an abstract HMAC | length/prefix lemmas |
| C56 | `testOnBorrow` over a connection with clock and deadlines | NEGATED: deadlines of an idle connection expire; partial before the deadline and without timeouts |
| C57 | server loop with the write deadline | NEGATED: the write deadline is set before waiting for the request; what holds: every sequence of requests of all kinds is answered if none takes longer than the write timeout, the wait for it included |
| C58 | all parsers | re-encoding of parsed messages gives the octets read (inversion) |
| C59 | `NewHashType`, `CryptoHash` | case analysis |
| C60 | `DialTCP`, `DialUDP` | NEGATED (UDP; keep-alive failure); partial for a failed handshake over TCP |
| C61 | `ClientFetcherCache` interleaved | NEGATED by a schedule; partial for calls that do not overlap |
| C62 | `RetrievePublicKey` then `VerifySignature` | NEGATED (typed nil from `ParseDNSKEY`); partial for well-formed records |
| C63, C64 | `ClientFetcherProtocol` against the server's fetch-key handler | symbolic execution; effect trace |
| C65 | `ClientPool` | automaton: which goroutine holds the mutex, induction on the schedule |
| C66 | `ClientPool` | NEGATED by a schedule; with careful callers C42 |
| C67 | `ClientPool` | invariant |
| C68 | `ClientPool` | every program point that holds the mutex has an enabled effect; the holder is read off the run; release by induction on its program under fairness |
| C69 | `testOnBorrow` with `Client` | inversion; NEGATED by a run (unread reply); partial for a clean connection |
| C70 | `ClientFetcherTLS.Fetch` | inversion of the run; the two clock readings are separate effects |
| C71 | the dialled address with Go's `net.SplitHostPort` | NEGATED by an IPv6 host; partial for names and IPv4 |
| C72 | `ServerManagerParsePEM`, `ServerManagerGenerateOnTheFly` | inversion, with C40 |
| C73 | `ParseClientFetcherPEM`, `ClientFetcherInMemory.Fetch` | NEGATED by an X25519 key; partial for published keys |
| C74 | `SetDeadline`, `SetReadDeadline`, `SetWriteDeadline` before `Read`, `Write` over a connection with clock | NEGATED by a run with the default timeouts (in general: the deadline makes no difference); partial without timeouts |
| C75 | `DialTCP`, `Read`, `testOnBorrow` against a server that falls silent (`waitRun`) | NEGATED: the handshake sets no deadline; partial for `Read`, by induction on the program |
| C76 | `poolClose`, `poolGet` of one goroutine running alone; `C76_busy_partial`, `C76_stays_empty_partial`, `C76_fresh_sessions_partial`: any goroutines | NEGATED: the first failing close ends the loop; partial by symbolic execution from every pool state; under interleavings by the mutex invariant (nobody else touches the list or the session) and because a closed connection stays closed |
| C77 | all goroutines of the server under every schedule, `Sys.run` | NEGATED by a schedule; partial by an invariant over the kinds of the goroutines (`Proofs/Closing`) |
| C78 | the same under every endless fair schedule, `Sys.after` | NEGATED (second call); partial by well-founded induction on what the goroutines can still do (`Proofs/CloseReturns`) |
| C79 | one request served in every reachable state, `serveOne` | NEGATED by a forged request; partial by symbolic execution |
| C80 | `CheckAndUpdate` on every sequence of counters | NEGATED by `[65, 1]`; partial from the representation invariant of C17 |
| C81 | all goroutines of the server under every schedule, `Sys.run`; the request that reuses the session as a sequential step | ghost automaton per goroutine: what it has read from the table and the clock (`Proofs/Persist`) |
| C82 | goroutines for datagrams over one socket with a shared write deadline and clock | NEGATED by a slow response; partial within the write timeout, alone and under every schedule |
| C83 | every write of every goroutine of the server under every schedule, related to the environment's answers and the log | `C83_server_discloses`, `C83_wire_is_writes` |
| C84 | every write of every client goroutine (dial, then calls) under every interleaving, related to the environment's answers and the encryptions | `C84_client_discloses` |
| C85 | all goroutines interleaved with the session table | NEGATED: one connection with many setup requests; partial: at most one session per successful setup |
| C86 | transition system of NewServer, StartTCP, StartUDP, Close, connections, datagrams, collectors | NEGATED for TCP listeners; partial: which sockets stay open, that rest is reached, that the next client closes the listener |
| C87 | the same transition system | NEGATED with a secret manager of the application; partial: what remains, and nothing but TCP listeners with the default manager |
| C88 | the same transition system with unrecovered panics | NEGATED (tick of zero, nil logger); partial for every other choice of options |
| C89 | the same transition system with the sockets datagram goroutines answer on | NEGATED; partial: never before Close; for TCP nothing is unfinished when Close returns |
| C90 | interleaved server with the trace of its effects, client handshake | knowledge automaton over the server's programs (what was received, stored, computed before each effect), transcript injectivity, inversion of the handshake; assumes only that the signature received is not forged |
| C91 | interleaved server and interleaved clients | knowledge automaton, C18, C22, counting of client encryptions by induction on their schedule; assumes only that ciphertexts received are not forged |
| C92 | client Write/Read and interleaved server | inversion of both calls, knowledge automaton, C91, direction octet of the nonce, nonce uniqueness of the clients |
| C93 | sequential server in any reachable state; interleaved server with trace | NEGATED; partial: only connections or datagrams from the same address with the same id write an entry; if nobody else set up a session for an address and id the entry is the client's |
| C94 | interleaved server with datagrams | NEGATED; partial: one datagram holds one response, at most one datagram is sent, and its length is at most max(65, 54 + signature, 10 + encoded key, 33 + reply); automaton over the writes of a pass, C83 |
| C95 | client on the network model | one response: case analysis on its layout and the parser lemmas; sequences by induction |
| C96 | client on the network model | NEGATED; partial: a deadline before the first octet does no harm, and over UDP there is no other |
| C97 | client on the network model | NEGATED; partial: each reply to an earlier message is taken by one Read, which fails, and then the reply to the latest message is returned |
| C98 | client and server joined by what the connection took | NEGATED; partial: if nothing or all of the first request was taken, the second message is handled; C98_swallowed: otherwise (cut in the ciphertext) the server completes the first request with octets of the second, refuses it, and goes on in the middle of the second |
| C99 | client and server in conversation (TCP and UDP) | NEGATED; partial: a session that is still stored works (C24); C99_dead: a client whose session was dropped gets an error for every later message, however many, and never sets up another session |
| C100 | the registry's handlers interleaved, one goroutine per request | NEGATED; partial: a request that comes after the name was answered with 201 is refused, whatever else runs |
| C101 | the registry's handlers interleaved, one goroutine per request | program points of two handlers; invariant: once both users are stored they know each other or one of the handlers has the other's key still to visit |
| C102 | the registry's handlers interleaved, one goroutine per request | NEGATED; partial: if one handler returned before the other request came, at most once (with C101 exactly once) |
| C103 | the registry's handlers interleaved, one goroutine per request | NEGATED; partial: if no DELETE is for /users itself; automaton over the responses of a handler |
| C104 | the registry's handlers interleaved, one goroutine per request | NEGATED; partial: if the handlers of both registrations returned before the DELETE came |
| C105 | all goroutines of the server under every endless schedule, `Sys.after` | NEGATED; partial: if every connected client sooner or later sends something or hangs up (C78); C105_waits: as long as one goroutine that serves a connection does not go on, no call of Close returns |
| C106 | calls of Write on clients that share a session, then the server serving the requests in another order | NEGATED; C106_overtaken: delivered exactly if fewer than 64 messages overtake it, otherwise refused with error 5; partial: fewer than 64 |
| C107 | two goroutines on one client, small steps (`Model/SharedClient`) | invariant over every schedule: the reading call, run alone on what is still to arrive, returns the reply; the writing call follows an automaton; then induction on the reader's program for the liveness part |
| C108 | any goroutines on one client, small steps (`Model/SharedClient`) | NEGATED by a schedule of two goroutines; partial by an automaton on every goroutine: no octet is returned twice or made up, and all data are messages that open as replies to messages of this client |
| C109 | two goroutines on one client, small steps (`Model/SharedClient`) | NEGATED by a schedule (a second message is sent while the reply to the first is checked); partial: one message and one read, from the invariant of C107 |
| C110 | all goroutines of a chat user, small steps (`Model/ChatUser` over `Model/Loops`) | NEGATED by a schedule; partial: program points of every goroutine and an invariant (no nil connection is stored) over every schedule |
| C111 | all goroutines of a chat user, small steps (`Model/ChatUser` over `Model/Loops`) | NEGATED by a schedule; partial: bounds on the holder's own effects (writer: 5; reader: the number of peers; printer: 4) from the invariants of the mutex |
| C112 | all goroutines of a chat user, small steps (`Model/ChatUser` over `Model/Loops`) | counting invariant (handlers past the send = lines shown + message in the printer's hands) over every schedule |
| C113 | all goroutines of a chat user, small steps (`Model/ChatUser` over `Model/Loops`) | NEGATED by a message (for every hash function); partial: origin invariant over every schedule and injectivity of the formatting up to the first "]" |
| C114 | all goroutines of a chat user, small steps (`Model/ChatUser` over `Model/Loops`) | NEGATED by a schedule, and in general by an invariant (`C114_stuck`); partial: induction on the remaining effects of `main` |
| C115 | all goroutines of a chat user, small steps (`Model/ChatUser` over `Model/Loops`) | NEGATED by a schedule; partial: invariant that relates the open connections to the map and to the handlers that are between dialling and storing |
| C116 | all goroutines of a chat user, small steps (`Model/ChatUser` over `Model/Loops`) | invariant of the mutex (holders are counted by their program points) over every schedule |
| C117 | all goroutines of a chat user, small steps (`Model/ChatUser` over `Model/Loops`) | NEGATED by a message without a sender; partial: origin invariant over every schedule (as for C113) |
| C118 | all goroutines of a chat user, small steps (`Model/ChatUser` over `Model/Loops`) | invariant of one round (what was written plus what is left is a permutation of the map's connections), stable because no writer holds the mutex meanwhile |
| C119 | all goroutines of a chat user, small steps (`Model/ChatUser` over `Model/Loops`) | invariant that relates map, connections, handlers between dial and store, handlers between close and delete, and the round of the chatting goroutine |
| C120 | all goroutines of a chat user, small steps (`Model/ChatUser` over `Model/Loops`) | invariant: what was handed over is in the slot, in the printer's hands or on the screen; case analysis of how a handler ends |
| C121 | all goroutines of a chat user, small steps (`Model/ChatUser` over `Model/Loops`) | NEGATED by a schedule; partial: invariant (nobody with this name joins any more; gone or being removed) over every schedule |
| C122 | client and server of one TCP connection that takes a bounded number of octets in each direction, small steps, blocking writes and reads (`Model/Flow` over `Model/Loops`) | NEGATED by a fair schedule that reaches a state that no step changes (and in general at most roomUp + roomDown + 2 messages are accepted: an invariant that counts messages against octets under way); partial: potential argument over every fair schedule if the connection has room for all the replies |
| C123 | client and server of one TCP connection that takes a bounded number of octets in each direction, small steps, blocking writes and reads (`Model/Flow` over `Model/Loops`) | automaton on the client's program (messages and reads alternate), invariant over every schedule relating the octets under way to the phase of the exchange, then a potential argument under fairness; `C123_reads`: induction on the parser |
| C124 | client and server of one TCP connection that takes a bounded number of octets in each direction, small steps, blocking writes and reads (`Model/Flow` over `Model/Loops`) | exact input/output automata for both programs (the server reads one request and sends its reply; the client sends a request and reads its reply), one invariant over every schedule; liveness from C123 |
| C125 | parsers as programs with an explicit effect for each allocation, including the one inside `binary.Read` | NEGATED for every header (34 octets, any session id, nothing after it): the allocations are exactly the declared size twice; partial: inversion of a successful parse; for setup requests a bound on the sum over every stream |
| C126 | `io.Copy`, `io.MultiWriter` and writers that look at the error only, as programs over the client (`Model/StdIO`) | NEGATED for every client and every source: the result is computed from the exact run of `Write`; partial: induction over the chunks |
| C127 | `io.ReadAll` as a program over the client (`Model/StdIO`) | NEGATED with a concrete run for an empty reply; partial for every other reply: induction over the rounds |
| C128 | client and server of one TCP connection that takes a bounded number of octets in each direction, small steps, blocking writes and reads (`Model/Flow` over `Model/Loops`) | exact input/output automata for the handshake of both programs, one invariant over every schedule that hands over to that of C124; liveness: a measure of the octets that both still have to pass, then C123 on the rest of the run |
| C129 | one server with the in-memory manager, any number of clients over TCP connections of bounded capacity, and any number of other connections and datagrams, small steps in any order (`Model/System` over `Model/Flow`, `Model/ServerExec` and `Model/ClientExec`) | each goroutine for a client and each client obey an automaton (stage of the session; counter); one invariant over every schedule relates them to the shared table and replay windows, another automaton keeps all other goroutines off those sessions; then the run of every client is a run of C128 with honest answers |
| C130 | one server with the in-memory manager, any number of clients over TCP connections of bounded capacity, and any number of other connections and datagrams, small steps in any order (`Model/System` over `Model/Flow`, `Model/ServerExec` and `Model/ClientExec`) | NEGATED by a run in which somebody at the same host sends one setup request with the session id of the client; partial: C129 for everybody at other hosts |
| C131 | the URLs that the code builds (`Model/URL`: `url.Values`, `QueryEscape`, `Query`; `Model/ChatClient`) | escaping and decoding are inverse; what is written splits into what was written; sorting keeps the order of the values of one parameter; the code's parser reads what the standard's reads, or drops it |
| C132 | the URLs that the code builds (`Model/URL`: `url.Values`, `QueryEscape`, `Query`; `Model/ChatClient`) | NEGATED by the name "bob?x"; partial: names without `?`, `#`, `%` and control characters |
| C133 | errors with `errors.Is` as an inductive relation; a socket that fails after any octets | NEGATED by the `Timeout` method (no error of `Read` has one); partial: each parser hands on the error of the connection (induction over its tree), both directions; `Write` returns the result of the connection |
| C134 | as C133 | NEGATED for every reply cut after its first octet, its counter or its size; partial: inversion of a `Read` that returns `io.EOF` itself; a connection closed between replies |
| C135 | client and server of C24 over UDP with a fate for both datagrams of each exchange; a lost one is a passed read deadline | induction over the exchanges: the send counter runs ahead of the replay window by the requests lost, and the socket is empty between exchanges |
| C136 | the server of C135 on a socket that sends datagrams of at most 65507 octets | NEGATED by a reply of 65475 octets; partial: sent if and only if the reply has at most 65474 octets |
| C137 | the whole server of C21; the keys drawn, the contents signed and the sessions created are recorded per step | every goroutine holds at most one drawn key, a use consumes it; the uses with the keys unused are a permutation of the keys drawn |
| C138 | the process of C21; the requests written, with the goroutine that writes them, in the order of the schedule | NEGATED by two goroutines that draw in one order and write in the other; partial: no counter twice under a session, and increasing for each goroutine |
| C139 | `Model/Handler` (the handler as a program over Read and Write), `processHandler` and the client of C24 | induction on the program; symbolic execution of both ends, induction on the rounds |
| C140 | `handshake`, `Client.read` and `protocolExchange` on any transport | symbolic execution; parsing depends only on the stream |
| C141 | `processHandler` on a genuine message with a changed flag | NEGATED by an example; the flag that arrives decides (symbolic execution); partial: nobody changes the flag |
| C142 | the goroutines of the server with a call of the handler that panics | invariant over the transition system: the program of such a goroutine is its deferred functions; UDP conversation: exchange by exchange, induction |
| C143 | the option functions (`Model/Options`, `Model/Lifecycle`) | induction over the list of options, one parameter at a time; composition with C14 and C25 for what a dialled client does |
| C144 | any goroutines on one client that is closed, small steps (`Model/SharedClose`) | NEGATED by a schedule (Read stores the reply after Close emptied the buffer); partial: invariants on the log of calls and on the rest of every goroutine's program under the answers of a closed connection; completion by induction on programs under fairness |
| C145 | two goroutines on one client, one of them closes it (`Model/SharedClose`) | NEGATED by the schedule of C144; partial: an automaton on each goroutine (Write only accesses the counter, Close only the buffer) |
| C146 | `RetrievePublicKey` with its HTTP exchange (`Model/DoH`) | case analysis of the run; composition with C131 (the question), C37 (round trip) and C39 (choice of the record) |
| C147 | records with owner and type (`Model/DoH`) | NEGATED by an answer with a text record of another domain; partial: other records that are not written as zone signing keys are never used |
| C148 | `generateOnTheFly` with the sizes asked of the generators (`Model/KeySources`), the fetcher of the default options (`Model/DefaultFetcher`) | NEGATED by a generated P-521 key, which no answer of a provider can make a client find; partial: generated RSA and Ed25519 keys are found, and dials with default options to a server whose key is in range and published succeed (composition of C146, C143's options and C15) |
| C149 | `main` of the user program with its deferred calls (`Model/ChatStart`) | case analysis of the run; ports survive `FormatInt`, `SplitHostPort` and `ParseInt` by induction on decimal digits |
| C150 | `main` of the user program, interrupted after any number of effects (`Model/ChatStart`) | NEGATED by a signal between registering and `signal.Notify`, and by a lost response of the registry; partial: otherwise the user is gone |
| C151 | `Register`, `GenerateMessage` (`Model/ChatStart`) | NEGATED by a response with status 500; partial: everything but the status |
| C152 | a second specification of all messages, from the documentation alone (`Spec/Documented`) | NEGATED for setup and fetch-key responses: no response of the library is a documented one, and a documented setup response makes the dial fail; partial: all other messages, transcript, nonces, keys, codes |
| C153 | client and server of one TCP connection that takes a bounded number of octets in each direction, small steps (`Model/QuickStart` over `Model/Flow`); the handler of README.md as a program | one automaton per request and response (fetch key; setup; process), idle means waiting for the request of the next one; the phases of C128 one after another |
| C154 | client over the whole `UDPConn` (`Model/ClientUDP`) | simulation between the two connection types, effect by effect; invariant that the address is nil or the peer's; a handshake that succeeded has read an octet |
| C155 | listeners, connections and one call of `Close` over Go's `sync.WaitGroup`, step by step (`Model/WaitGroup` over `Model/Loops`) | NEGATED; partial: invariant with sums over all goroutines, if every accepted connection is counted before `Close` is called |
| C156 | one round of a connection with its lines (`Model/ServerLog`) under every interpreter of its effects | NEGATED; partial: assertions along all traces |
| C157 | as C156, with the programs that log proved equal to those of `Model/Server` after the lines are left out | NEGATED; partial: assertions along all traces |
| C158 | the fetchers (`Model/Production`, `Model/DefaultFetcher`) under the program of C153 | `C153`, `C146_published`, `C70_succeeds`, `C73_matching_files_partial` |
| C159 | concurrent model of the pool (`Model/Pool`) together with the round trips of C129 | NEGATED; `C45_one_session`, `C129_unknown_session` |
| C160 | the listening loops with a clock and their lines (`Model/IdleLog`) | NEGATED; partial: invariants over all schedules |
| C161 | `DialUDP` and the protocol fetcher at a socket at which only some datagrams arrive (`waitRun`) | NEGATED: no deadline, no retransmission; partial: one exchange per call, and one datagram ends it |
| C162 | the cache in front of any fetcher (`cachedCall` in `Model/Production`) under the program of C158 | NEGATED; `getsReply`, `C14_authenticated` |
| C163 | the handshake of C15 in datagrams, then the conversation of C135 | `answerUDP`, `Wire.setupRequest`, `lossyConverse`, `Outcomes`, `handledFor` |
| C164 | two runs of the whole server, related by what each goroutine has sent | `OtherKeys`, `AlikeOctets`, `AlikeDatagrams` |
| C165 | interleaved pool | the invariant of C41 (the count is exact up to failed tests), and: every open connection is idle, borrowed, handed over or in a hand; `WaitInv` for the hand-over |
| C166 | two runs of the whole server, related by what each goroutine has sent | `OtherReplies`, `VeiledOctets`, `VeiledDatagrams`, `Event.veil` |
| C167 | names of values, texts of errors (`Model/Names`) | NEGATED; `unsupportedAlgorithm`, `unsupportedHash` |
| C168 | two runs of all clients of a process, related by what each goroutine has written | `OtherUsers`, `VeiledRequest`, `sealVeil` |
| C169 | number of effects of each kind in the trace, for every interpreter of the effects | `performed`, `performedC` |
| C170 | two traces of the server's programs with log calls, in arbitrary environments, with equal views | `LogView`, `logView`, `logViews`, `logLines` |
| C171 | caching key fetcher, goroutines | NEGATED; `Spared` |
| C172 | serving requests one after the other, visits of the collector | NEGATED; `serveOne_table`: who touches an entry |
| C173 | one call of Write, one request served, one call of Read | NEGATED; `malformed_world`: a malformed request changes nothing; `delivered_answer`: the answer of the handler |
| C174 | the client after a dial or out of the pool, any Reads; the whole server | replies under the session's key that open were made by the server or a client (`Unforged`); the server never encrypts with the counter zero (`sealed_counter`) |
| C175 | pool of `Model/Pool` | NEGATED; `Holding.keepsOut`: nobody passes the mutex while its holder stands still; `Holding.letsGo`: a holder releases it by steps of its own |
| C176 | TCP connection whose octets arrive at given times, read deadline (`Model/SlowPeer`), one pass of the loop of a connection | NEGATED; `slow_bound`: time spent in reads within the time since the deadline was set; `givesUp_run`: a read that failed by the deadline is the last, and nothing can be written after it |
| C177 | client on a TCP connection whose octets arrive at given times, read deadline (`Model/SlowServer`), one call of Read | `run_overdue`: a read that ends after the deadline fails and the parsers pass the error on; `run_inTime`: a parser for which the octets in time suffice computes what it computes on them alone |
| C178 | client after any calls, any two Reads | NEGATED; `read_outcome`: what a Read did |
| C179 | any calls, any schedule | NEGATED; before Close every socket that was opened is open, and is ready for a client after at most two steps of its own goroutine |
| C180 | manager used by any servers, any sequence of events with their times | NEGATED; without Close a session unused for longer than TTL plus interval is gone (collector on time); sessions in use stay and Close may be called again, in any case |
| C181 | requests and visits of the collector one after the other, each as a whole, with any passing of time between and within them | induction over the events: the entry's time is at least the time at which the client's last message began (`alive`), so the collector's comparison fails; the replay windows go on representing the accepted counters (`after_tells`) |

The client (`Client.handshake`, `Read`, `Write`, `Close`, dialling) is in `Model/Client`, its sockets in
`Model/ClientExec`; the server in `Model/Server` (programs) and `Model/ServerExec` (effects, goroutines,
datagrams); what the application handler does with its reader and writer in `Model/Handler` (`io.Reader` and
`io.Writer` only, not after it has returned); the option functions in
`Model/Options` (as values, not as Go functions; a `nil` function is not modelled); sessions in `Model/ManagerExec`; the pool in `Model/Pool` over the loop semantics of
`Model/Loops`; the caching fetcher in `Model/FetcherCache` over `Model/Procs`; DNS in `Model/Dns`, with the HTTP exchange in `Model/DoH` (`client.Do` and decoding succeed or fail) and the default fetcher in `Model/DefaultFetcher`; the
borrow test with deadlines in `Model/Borrow`; the application's deadlines and silent servers in
`Model/Deadlines`; the TLS fetcher, PEM files and key generation (the generators are assumed to deliver the size or curve they are asked for) in
`Model/KeySources`; the registry of the chat example in `Model/ChatRegistry` over `Model/Procs`; one client
used by several goroutines in `Model/SharedClient` over `Model/Loops` (TCP only; every access to a field is one
atomic effect; no `Close` meanwhile, and no other client of the session sends meanwhile), and with `Close` in
`Model/SharedClose` (not for clients of a pool; `conn.Close()` closes the connection whatever it returns); the user program of the
chat example in `Model/ChatUser` over `Model/Loops`, its start and end in `Model/ChatStart` (every notification and message has its own goroutine that may
begin at any time; a recovered panic in a handler of net/http ends that goroutine only); the two ends of a
TCP connection of bounded capacity in `Model/Flow` over `Model/Loops` (no deadlines, the client does not close);
a server, its clients and anybody else at once in `Model/System` (the session table, the sessions and the clock are
shared; the collector of idle sessions does not run; clients share nothing with each other);
README.md's quick start, without the two calls of `Close`, in `Model/QuickStart` over `Model/Flow`;
a client over UDP with all of `UDPConn` in `Model/ClientUDP` (`C154_same` ties it to the abridged one in `Model/ClientExec`);
a TCP connection whose octets arrive at given times, with the server's read deadline, in `Model/SlowPeer` (a goroutine alone with
its connection; setting a deadline succeeds);
the same connection at the other end, with the client's read deadline, in `Model/SlowServer` (one call of Read; only reads take time);
an in-memory session manager that several servers share, with its clock and its ticker, in `Model/SharedManager` (each call and each
visit of the collector is one step);
the server's wait group in `Model/WaitGroup` (after the code of Go's `sync.WaitGroup`, trusted; everywhere else it is a
counter that is changed and tested in single steps);
`io.ReadAll`, `io.Copy` and `io.MultiWriter` of Go's standard library in `Model/StdIO` (written after their
documentation and code, trusted like the other library functions).

## 5. Findings (the code deviates from the property)

Each is a theorem (`¬ Cxx_claim`, or a theorem that describes the deviation in general) with a concrete
witness; what holds instead is the `_partial` theorem of the same property.

| property | finding | theorem |
|---|---|---|
| C03 | a setup response with an empty signature cannot be parsed back | `C03_empty_signature_not_parsed` |
| C09 | `ParseErrorResponse` allocates whatever length the peer announces | `C09_error_text_unbounded` |
| C16, C62 | an unknown hash octet, a nil key or an Ed25519 key of wrong length panics in the client | `C16_hash_octet_panics`, `C16_nil_key_panics`, `C62_crash` |
| C20 | the replay window is updated before decryption: a forged message burns counters | `C20_forged_counter_blocks` |
| C21 | the send counter wraps: after the refused value 0 it hands out 1 again, and the nonce is reused | `C21_reuse_after_exhaustion` |
| C23, C47 | data left in the client's buffer is returned after a later `Write`, also to the next borrower of a pooled client | `C23_stale_data`, `C47_refuted` |
| C25 | `Write` returns the length of the wire message, more than `len(p)` | `C25_returns_wire_length` |
| C26 | an empty reply makes `Read` fail with a wrapped error | `C26_empty_reply` |
| C27 | error responses are sent although the client expects no reply, and desynchronise the stream | `C27_error_responses_are_sent` |
| C29, C54 | unknown actions or versions are not answered; after a parse error the rest of the body is parsed as a request | `C29_no_error_response`, `C54_body_is_interpreted` |
| C32 | a failing setup overwrites the session stored under the same id | `C32_session_stored_before_signing` |
| C35 | concurrent `Set`/`Get`/collector of the session manager lose updates | `C35_lost_update`, `C35_collected_while_fresh` |
| C36, C61 | concurrent `Fetch` calls may store an older key over a newer one | `C36_age_refuted`, `C36_hit_refuted`, `C61_stale_store` |
| C38, C39, C62 | `ParseDNSKEY` returns a typed nil for malformed keys; the nil check never fires | `C38_malformed_accepted`, `C39_unusable`, `C62_crash` |
| C41, C44, C56 | `Get` returns a dead client to the idle list (`Client.Close` puts it back) and decrements the counter twice: endless loop, limits exceeded; expired deadlines make every idle client dead after the timeout | `C41_refuted`, `C44_diverges`, `C56_refuted` |
| C43 | lost wakeup: a goroutine may wait although a client is idle | `C43_refuted` |
| C46 | closing a client after `Pool.Close`, a waiting `Get`, and a second `Pool.Close` panic | `C46_refuted`, `C46_refuted_waiting` |
| C49 | one stale datagram makes all later replies mismatch | `C49_stale_blocks`, `C49_never_recovers` |
| C50, C60 | a UDP client never closes its socket | `C50_udp_stays_open`, `C60_udp_handshake`, `C60_tcp_keep_alive` |
| C51 | UDP datagrams are processed after `Server.Close` | `C51_datagram_after_close` |
| C57 | the write deadline is set before waiting for the request | `C57_late_request_unanswered` |
| C66 | a client closed twice is lent to two borrowers | `C66_lent_twice` |
| C71 | the TLS fetcher joins host and port without brackets, so it cannot connect to an IPv6 host | `C71_refuted` |
| C73 | a PEM file with a key type that cannot verify signatures is accepted; every handshake then fails | `C73_refuted` |
| C74 | `Read` and `Write` overwrite the deadline set by the application when the client has timeouts (default) | `C74_refuted`, `C74_default_client` |
| C75 | the timeouts do not cover the handshake and the borrow test: a server that accepts and stays silent blocks `DialTCP`, and in the pool everyone else, for ever | `C75_refuted`, `C75_dial_waits`, `C75_test_waits` |
| C76 | closing the pool stops at the first connection that fails to close: the remaining idle connections stay open, the session is kept and waiting callers are not woken | `C76_refuted` |
| C77 | the listening sockets stay open after `Server.Close`: a TCP listener that waits for clients takes one more connection (and closes it), the UDP loop one more datagram, which is served | `C77_refuted` |
| C78 | calling `Server.Close` twice panics | `C78_refuted` |
| C79 | a process request that does not decrypt is answered with error code 2 (server error); the Internet-Draft demands code 1 | `C79_refuted` |
| C80 | the replay window covers the highest counter and the 63 below it; the Internet-Draft says 64 below it | `C80_refuted` |
| C69 | an unread reply satisfies the borrow test and leaves the stream out of step | `C69_refuted` |
| C82 | the write deadline of the shared socket is set when the goroutine starts and the response is sent when it ends: a response more than five seconds later is lost (unless another datagram arrived meanwhile) | `C82_slow_response_lost` |
| C85 | one TCP connection that sends setup requests with different ids fills the session table without limit; only the collector (after the time to live) removes sessions | `C85_no_limit`, `C85_one_peer_fills` |
| C86 | Close does not close the listeners: a TCP listener waits in Accept and keeps its port until one more client connects | `C86_refuted` |
| C87 | NewServer starts the default session manager's collector before it looks at the options; with ServerWithSecretManager nothing ever stops it, one leaked goroutine per server | `C87_refuted` |
| C88 | InMemoryManagerWithGCTicker(0) makes the collector's goroutine panic, which nothing recovers; with ServerWithLogger(nil) any client that hangs up ends the process | `C88_refuted`, `C88_nil_logger` |
| C89 | Close does not wait for goroutines that serve datagrams, and the packet loop closes the socket they need for the response | `C89_refuted` |
| C93 | the id travels unencrypted and a setup request with it from the same address (another process, another host behind the same translator) replaces the session without any proof of knowledge | `C93_refuted` |
| C94 | one octet with a forged source address is answered with the server's public key (an Ed25519 key makes 54 octets, RSA several hundred) | `C94_refuted` |
| C96 | the octets already read are thrown away, the next Read takes the middle of the reply for the beginning of a response | `C96_refuted` |
| C97 | Read accepts only the counter of the latest message, the reply to every earlier one is read and thrown away with an error | `C97_refuted` |
| C98 | a request that was cut off by a deadline is completed with the beginning of the next one | `C98_refuted` |
| C99 | the client does not repeat the handshake, nor tell the application that it has to: every later Read returns an error with the server's code 3 and message | `C99_refuted` |
| C100 | looking for the name and storing it are two steps: two requests at the same time are both answered with 201 and the second replaces the first | `C100_refuted` |
| C102 | two users who register at the same time find each other in the map both times: each is told twice of the other | `C102_refuted` |
| C103 | DELETE /users slices the path beyond its end: the handler panics and the connection is closed without a response | `C103_refuted` |
| C104 | the handler of the registration still sends "joined" after the handler of the DELETE has sent "left" | `C104_refuted` |
| C105 | Close waits for the goroutines of all connections and does not close the connections: without a read timeout (as in the chat example) one idle client holds it up for ever, with the default for up to a minute | `C105_refuted`, `C105_waits` |
| C106 | all connections of a pool share one counter, and the server has one window of 64 counters for the session: a message that 64 messages written later (on other connections) overtake is refused as a replay, also over TCP | `C106_refuted`, `C106_overtaken` |
| C108 | a client remembers only the counter of its latest message: if two goroutines have sent a message, reading the reply to the first fails with "unexpected response counter" and the reply is lost | `C108_refuted` |
| C109 | `lastSentCounter` is read and written without synchronisation: sending a second message while the reply to the first is being read is a data race | `C109_refuted` |
| C110 | a notification that a user joined with an unknown network is answered with an error, but there is no `return`: the user is stored with a nil connection, and the next message to everybody dereferences it outside any recover: the process dies | `C110_refuted` |
| C111 | closing the nil connection of a user who leaves panics while the mutex is held (no `defer`): net/http recovers, and every later notification and message to others waits for ever | `C111_refuted` |
| C113 | the sender of a message is free to choose their name and host: with the robot as name and the receiver's host their line equals that of the registry, colour included | `C113_refuted` |
| C114 | the signal ends the printer first; a handler that is about to hand over its message then blocks for ever on the channel, and `server.Close` waits for it for ever | `C114_refuted`, `C114_stuck` |
| C115 | a second notification that the same user joined replaces the entry without closing its connection, which is never closed any more | `C115_refuted` |
| C117 | a message whose sender is empty is shown under the receiver's own name; the sender that a message gives is not checked against the connection | `C117_refuted` |
| C121 | notifications are handled concurrently: if a user leaves while the program is still dialling them, there is nothing to delete yet, and afterwards they are stored for ever | `C121_refuted` |
| C122 | replies that nobody reads fill the connection; the server blocks while sending and reads no more, then the client's `Write` blocks for ever (the chat example never reads and sets no timeout) | `C122_refuted`, `C122_bounded` |
| C125 | 34 octets from anybody (no session needed, one datagram is enough) make the server allocate up to 2 GiB at once, and they stay allocated while it waits for the rest | `C125_refuted`, `C125_header_allocates` |
| C126 | `Write` returns the length of the encrypted request, so `io.Copy` fails with "invalid write result" after the first chunk and reports 0 octets although the chunk was sent, and `io.MultiWriter` fails with `io.ErrShortWrite` | `C126_refuted`, `C126_copy_stops`, `C126_multi_writer_fails` |
| C127 | an empty reply makes `Read` return an error that wraps `io.EOF`, which `io.ReadAll` does not take for the end | `C127_refuted`, `C127_empty_reply` |
| C130 | one setup request from the client's host (the same machine, or behind the same NAT) with its session id, which is sent in clear, replaces its session; the following messages of the client are refused | `C130_refuted` |
| C132 | the name is put in the URL without escaping: when "bob?x" leaves, bob is removed; "100%" cannot leave | `C132_refuted` |
| C133 | errors of `Read` have no `Timeout` method, whatever the comment says: `err.(net.Error)` fails for every one of them | `C133_refuted`, `C133_no_timeout_method` |
| C134 | a reply cut off between two fields gives an error that wraps `io.EOF`, as the end of a reply does, while a connection closed between replies gives `io.ErrUnexpectedEOF` | `C134_refuted`, `C134_cut_reply` |
| C136 | over UDP a reply of more than 65474 octets is dropped without an error response (over TCP a response that cannot be written is replaced by one); the client waits until its deadline, or for ever | `C136_refuted`, `C136_within_partial` |
| C138 | clients of a pool may send requests of the shared session in the wrong order of their counters, against a MUST of the draft (Counter Rules): `Write` draws the counter and writes the request in two steps without a lock | `C138_refuted`, `C138_distinct_partial`, `C138_increasing_partial`, `C138_unshared_partial` |
| C141 | the expect-reply flag is not authenticated (the AEAD has no associated data): whoever changes one bit on the path makes the server call the application and send no reply, or reply to a message that wants none; the counter is used up, so the message cannot be repeated | `C141_refuted`, `C141_flag`, `C141_unchanged_partial` |
| C144 | `Read` in progress during `Close` may store its reply in the buffer after `Close` has emptied it; without a read timeout a later `Read` returns that data with no error, although the client is closed | `C144_refuted` |
| C145 | `Close` resets the buffer without synchronisation: it races with a `Read` in another goroutine, although closing is the usual way to end a waiting `Read` | `C145_refuted` |
| C147 | `RetrievePublicKey` ignores the owner's name and the type of the records in an answer: any record whose text looks like a zone signing key is used | `C147_refuted` |
| C148 | `ServerManagerGenerateOnTheFly` for ECDSA generates a key on P-521, for which there is no DNSKEY algorithm: it cannot be published, and no client with the DNS fetcher can verify the server | `C148_refuted`, `C148_never_found` |
| C150 | `main` of the chat user catches signals only after it has registered: a signal in between leaves the user in the registry; so does a response of the registry that is lost | `C150_refuted`, `C150_lost_response` |
| C151 | `GenerateMessage` does not look at the status of the response | `C151_refuted` |
| C152 | the size of the signature has 4 octets (documented: 8), the size of a fetched key 8 (documented: 4): an implementation written from the documentation cannot shake hands with the library, in either role | `C152_refuted`, `C152_setup_response_differs`, `C152_fetch_key_response_differs`, `C152_documented_server_refused` |
| C155 | the listeners call `s.wg.Add(1)` while `Close` is in `s.wg.Wait()`: when the last connection ends at that moment, a client that connects makes the listener panic, which nobody recovers, or makes `Close` panic | `C155_refuted`, `C155_close_panics` |
| C156 | a response that missed the server's write deadline is logged only as `connection closed by client`, with the address of a client that is still there | `C156_refuted` |
| C157 | the refusal of a message whose session is unknown leaves no line, and a request for an action that does not exist leaves neither a line nor a response | `C157_refuted`, `C157_unknown_action` |
| C159 | the session of the pool's first handshake is used for every later client, so after a restart of the server every message of every client is refused until the pool is closed | `C159_refuted`, `C159_never`, `C159_refused` |
| C160 | whenever the read timeout passes without a datagram, an idle UDP server logs a failure to read; and a socket that keeps failing makes either loop write lines without a pause | `C160_refuted`, `C160_no_pause` |
| C161 | neither the handshake over UDP nor the fetcher that asks the server sets a deadline or repeats its request: one lost datagram blocks the caller for ever, and so does, for the fetcher over TCP, a server that stays silent | `C161_refuted`, `C161_dial_waits`, `C161_fetch_waits` |
| C162 | a dial that fails because the cached key is not the server's any more leaves it in the cache: every dial fails until the time to live is over, and for ever if it is zero or negative | `C162_refuted`, `C162_stale` |
| C167 | `KeyAlgorithm.String` returns the empty string for every value it does not know: `unsupported algorithm ''`, whatever the value | `C167_refuted`, `C167_no_name` |
| C171 | Two goroutines that miss at the same time both ask; a collector that saw the expired entry deletes the one that replaced it, so that even one goroutine asks twice at the same instant | `C171_refuted`, `C171_collector_refuted` |
| C172 | Load renews the session before anything is authenticated: a request with the id, which every request carries in the clear, from the same address keeps a session alive for ever; and the age is looked at by the collector only, so that until its next tick an expired session is used (and thereby renewed) | `C172_refuted`, `C172_prompt_refuted` |
| C173 | Nothing limits the size of what is sent, but 2^30 octets of ciphertext is the most that is taken: a message longer than 2^30 - 16 octets is sent with success and refused as malformed, a reply of that size cannot be read; in both cases the ciphertext stays on the connection, where the next request or response is expected | `C173_refuted`, `C173_reply_refuted` |
| C175 | `Get` dials, handshake included, with the pool's mutex locked: as long as it does, every other `Get` (even if a client is idle), every `Close` of a borrowed client and `Close` of the pool wait; since a dial has no timeout (C75), a silent server blocks them for ever | `C175_refuted`, `C175_everybody_waits` |
| C176 | With a write timeout longer than the read timeout (for instance `ServerWithReadTimeout(time.Second)`) or none, the server answers a request that is not complete in time with an error response and goes on: what arrives late is taken for new requests | `C176_refuted` |
| C178 | `io.EOF` is the end of one reply: the next Read waits for another reply (until its deadline, or for ever without one) and reports its data or its error, where `io.Reader` demands another `io.EOF` | `C178_refuted`, `C178_after_eof` |
| C179 | `StartTCP` and `StartUDP` do not look at `quit`: after `Close` they open a socket and report its address, and its goroutine closes it without taking a single client | `C179_refuted`, `C179_late_partial` |
| C180 | `Server.Close` closes the manager it was given, whoever else uses it: the collector leaves, and from then on the other servers accept every session for ever, however long it was unused | `C180_refuted`, `C180_no_expiry` |

Seen while reading, not a theorem: every `NewClientFetcherCache` with a positive TTL starts a collector
goroutine that never ends (`key/client_fetcher.go:346-358`).

Also visible in the model: `Get` dials with the pool's mutex held, so a stalled dial blocks every user of
the pool.

## 6. Tests of the theorems

`seeded/LOG.jsonl` records edits of model definitions that imitate realistic bugs (made in a scratch copy),
the claim each breaks, which theorems then failed, and which theorems were tightened when none did.

How to read the entries:
* Entries without the field `affected` come from plain rebuilds. `failed` lists the first declarations that
  no longer compile; modules that import them were not checked. When only helper lemmas are listed (43 of
  the first 61 entries marked killed), the entry does not show that the theorem of the claim itself fails.
* Entries with the field `affected` come from a second harness. It stubs each failing declaration in the
  scratch copy, so that everything downstream is checked, and then lists the theorems of MANIFEST.json whose
  proof depends on a failing declaration. A theorem that is not listed still proves for the wrong program.
  A listed theorem has lost its proof; that it is false for the wrong program is certain only if an
  `example` or a concrete theorem fails too.

## 7. Tests of the model

`Verif/Tests/Repository.lean` runs on the model what the repository's own tests run on the code, and expects the same
results: the key derivation (with SHA-256 and HMAC written in Lean, `Spec/Sha256`, on the vectors of RFC 5869), the
replay window, the expiry of sessions, the limits of the parsers, signatures with each kind of key, keys in DNS, a
replayed message, a whole conversation with each kind of key, one over UDP, and a pool of ten clients shared by thirty
goroutines.  These are tests of single cases, evaluated by the
kernel; they support the claim that the model is the program, and prove nothing.
Not run: the tests of the TLS fetcher (certificates are not modelled).
