import Verif.Spec.Sha256
import Verif.Spec.Toy
import Verif.Spec.Hkdf
import Verif.Model.Dns
import Verif.Model.ManagerExec
import Verif.Props.Serve
import Verif.Props.System
import Verif.Props.ProtocolFetcher
import Verif.Props.Pool
import Verif.Props.Lossy

/-!
# The tests of the repository, run on the model

Not proofs of anything: a check that the model behaves as the code does where the repository's tests say how the code
behaves.  The key derivation runs with the real SHA-256; everything else with the toy primitives.
-/

set_option autoImplicit false

namespace Goe2ee

namespace RepositoryTests

/-! ## internal/kdf/kdf_test.go -/

/-- The toy primitives, with the real SHA-256. -/
def crypto256 : Crypto := { Toy.crypto with sha256 := Sha256.hash, hmac := Sha256.hmac }

/-- FIPS 180-4: the digest of "abc". -/
example : beDec (Sha256.hash (str "abc")) = 0xba7816bf8f01cfea414140de5dae2223b00361a396177a9cb410ff61f20015ad := by
  decide +kernel

/-- kdf_test.go:15-32 (RFC 5869, test case 1); with a salt, as `hkdf.Key` does it. -/
example : hkdfExpandLoop crypto256 (Sha256.hmac (beEnc 13 0x000102030405060708090a0b0c) (List.replicate 22 0x0b#8))
      (beEnc 10 0xf0f1f2f3f4f5f6f7f8f9) 42 42 0 [] [] =
    beEnc 42 0x3cb25f25faacd57a90434f64d0362f2a2d2d0a90cf1a5a4c5db02d56ecc4c5bf34007208d5b887185865 := by
  decide +kernel

def okOf (r : Except Err Bytes) : Option Bytes :=
  match r with
  | .ok b => some b
  | .error _ => none

/-- RFC 5869, test case 3: no salt, which is how `DeriveKey` uses it. -/
example : okOf (hkdfKey crypto256 (List.replicate 22 0x0b#8) [] 42) =
    some (beEnc 42 0x8da4e775a563c18f715f802a063c5a31b8a11f5c5ee1879ec3454e5f3c738d2d9d201395faa4b61a96c8) := by
  decide +kernel

/-- The specification that `C09` compares with agrees. -/
example : (hkdfBlocks Sha256.hmac (Sha256.hmac (List.replicate 32 0) (List.replicate 22 0x0b#8)) [] 2).take 42 =
    beEnc 42 0x8da4e775a563c18f715f802a063c5a31b8a11f5c5ee1879ec3454e5f3c738d2d9d201395faa4b61a96c8 := by
  decide +kernel

/-- kdf_test.go:36-62 -/
example : (okOf (deriveKey crypto256 (str "shared-secret-from-ecdh-exchange") kdfInfo aesKeySize)).map List.length =
      some 32 ∧
    okOf (deriveKey crypto256 (str "shared-secret-from-ecdh-exchange") kdfInfo aesKeySize) ≠
      okOf (deriveKey crypto256 (str "a-different-shared-secret-value!!") kdfInfo aesKeySize) := by decide +kernel

/-- kdf_test.go:64-71 -/
example : okOf (deriveKey crypto256 (str "secret") kdfInfo 0) = none ∧
    okOf (deriveKey crypto256 (str "secret") kdfInfo (255 * 32 + 1)) = none := by decide +kernel

/-! ## secret/secret_test.go -/

/-- What the calls return, one after the other. -/
def checks (w : ReplayWindow) : List (BitVec 64) → List Bool
  | [] => []
  | c :: cs => (w.checkAndUpdate c).1 :: checks (w.checkAndUpdate c).2 cs

/-- secret_test.go:40-77 -/
example : checks .fresh [0, 1, 2, 3, 10, 1, 2, 3, 10, 5, 5, 1000, 1000 - 64] =
    [false, true, true, true, true, false, false, false, false, true, false, true, false] := by decide +kernel

def loaded (r : Res (Option Ref)) : Option (Option Ref) :=
  match r with
  | .val x => some x
  | .panic _ => none

/-- secret_test.go:10-38: the lifetime is 100 ms and the collector comes every 50 ms; the session is there, and gone
after 200 ms. -/
def calls : List (MCall × Nat) :=
  [(.store (str "hello") 0, 0), (.load (str "hello"), 1), (.visit (str "hello"), 50), (.visit (str "hello"), 100),
   (.visit (str "hello"), 150)]

example : loaded (callAt Toy.crypto 100 (afterCalls Toy.crypto 100 .empty (calls.take 1)) (.load (str "hello"), 1)).1 =
      some (some 0) ∧
    loaded (callAt Toy.crypto 100 (afterCalls Toy.crypto 100 .empty calls) (.load (str "hello"), 201)).1 =
      some none := by decide +kernel

/-! ## protocol/limits_test.go -/

def errorOf {α : Type} (r : Res (Except Err α)) : Option Err :=
  match r with
  | .val (.error e) => some e
  | _ => none

/-- limits_test.go:13-31 -/
example : errorOf (runEv (parseProcessRequest ⟨0, 0⟩)
      [.data (List.replicate 25 0#8 ++ beEnc 8 (maxMessageSize + 1))]).1 =
    some (.other "message size exceeds maximum") := by decide +kernel

/-- limits_test.go:33-47 -/
example : errorOf (runEv (parseSetupRequest Toy.crypto ⟨0, 0⟩)
      [.data (List.replicate 16 0#8 ++ beEnc 4 (maxKeySize + 1))]).1 =
    some (.other "public key size exceeds maximum") := by decide +kernel

/-! ## key/key_test.go -/

def verdict (r : Res (Except Err Bool)) : Option (Option Bool) :=
  match r with
  | .val (.ok b) => some (some b)
  | .val (.error _) => some none
  | .panic _ => none

/-- A key checks what the other half signed, as `TestPublicKey_VerifySignature` does. -/
def signedVerdict (k : PrivateKey Toy.crypto) : Option (Option Bool) :=
  match fetchServerKey k, signServer k 3 cryptoSHA512 (str "hello world") with
  | .ok (_, pub), .ok s => verdict (verifySignature Toy.crypto pub cryptoSHA512 (str "hello world") s)
  | _, _ => none

/-- key_test.go:15-210: the three kinds of keys, a wrong signature for each, and a key of another kind. -/
example : [signedVerdict (.rsa (77 : Nat)), signedVerdict (.ecdsa ((7, 8) : Nat × Nat)),
      signedVerdict (.ed25519 (77 : BitVec 256)),
      verdict (verifySignature Toy.crypto (.rsa (some (Toy.crypto.rsaPub (77 : Nat)))) cryptoSHA512 (str "hello world")
        (str "invalid signature")),
      verdict (verifySignature Toy.crypto (.ecdsa (some (Toy.crypto.ecdsaPub ((7, 8) : Nat × Nat)))) cryptoSHA512
        (str "hello world") (str "invalid signature")),
      verdict (verifySignature Toy.crypto (.ed25519 (Toy.crypto.edPub (77 : BitVec 256))) cryptoSHA512
        (str "hello world") (str "invalid signature")),
      verdict (verifySignature Toy.crypto (.otherType 0) cryptoSHA512 (str "hello world") (str "something"))] =
    [some (some true), some (some true), some (some true), some (some false), some (some false), some (some false),
     some none] := by decide +kernel

/-! ## key/client_fetcher_test.go -/

def keyOf (r : Res (Except Err PublicKey)) : Option PublicKey :=
  match r with
  | .val (.ok k) => some k
  | _ => none

/-- A resolver answers with what `BuildDNSKEY` made of the key. -/
def fetched (k : PublicKey) : Option PublicKey :=
  match buildDNSKEY k with
  | .val (.ok record) =>
    keyOf (retrievePublicKey (.ok { status := 200, body := .ok { authenticatedData := true, answers := [record] } }))
  | _ => none

/-- client_fetcher_test.go:26-135: an RSA key of 1024 bits, an ECDSA key on P-256, an Ed25519 key. -/
def keys : List PublicKey :=
  [.rsa (some { n := some (2 ^ 1023 + 12345), e := 65537 }),
   .ecdsa (some { curve := .p256, x := some (2 ^ 255 + 5), y := some 77 }), .ed25519 (beEnc 32 77)]

example : keys.map fetched = keys.map some := by decide +kernel

/-! ## replay_test.go -/

/-- Setup, a message with counter 1, and the same octets again. -/
def replayed : List (Req Toy.crypto) :=
  [.setup ServeExample.id (5 : BitVec 256),
   .process true ServeExample.id 1 (Toy.crypto.aeadSeal ServeExample.key (Wire.nonce12 0 1) (str "hello")),
   .process true ServeExample.id 1 (Toy.crypto.aeadSeal ServeExample.key (Wire.nonce12 0 1) (str "hello"))]

/-- What the server sent in response to each of them. -/
def responses : List Bytes :=
  (serveConn Toy.crypto (inMemory _) 5000 (fun _ => { ServeExample.answer with handle := .reply (str "olleh") })
    (.ok (str "127.0.0.1")) 10 (ServeExample.start (replayed.flatMap Req.wire))).2.conn.writes.map (·.1)

/-- replay_test.go:24-127: the first two succeed, the third is rejected with the code 5. -/
example : responses.map (fun r => (r.take 5).map BitVec.toNat) = [[128, 0, 0, 0, 44], [128, 0, 0, 0, 0], [0, 0, 0, 0, 5]] ∧
    ((responses.getD 1 []).drop 17).take 5 = str "olleh" := by decide +kernel

/-! ## regression_test.go, client_test.go -/

/-- A client dials, writes "hello" and reads; the handler reverses the message. -/
def greeted (k : PrivateKey Toy.crypto) : List (Bytes × Option Err) :=
  match fetchServerKey k with
  | .ok (_, key) =>
    ((Network.after { privateKey := k, key, app := fun _ m => m.reverse }
      (fun _ : Fin 1 => SystemExample.party (str "127.0.0.1") 9 [str "hello"]) SystemExample.world
      (fun t => .go 0 (t % 2) 1) 700).links 0).flow.world.got
  | .error _ => []

/-- regression_test.go:19-78, client_test.go:15-63 -/
example : [greeted (.rsa (77 : Nat)), greeted (.ecdsa ((7, 8) : Nat × Nat)), greeted (.ed25519 (77 : BitVec 256))] =
    List.replicate 3 [(str "olleh", some .eof)] := by decide +kernel

/-- The server of `TestDialUDP`: its application reverses the message. -/
def reverser (message : Bytes) : Nat → Answer Toy.crypto := LossyExample.ans message.reverse

/-- client_test.go:65-119: the client fetches the key over UDP, dials over UDP, writes "hello" and reads. -/
def greetedUDP : Option (PublicKey × List (Bytes × Option Err)) :=
  let key := ProtocolFetchExample.fetched "udp"
    (.udp false [] [.ok (ProtocolFetchExample.served (.ed25519 (77 : BitVec 256)))])
  match key with
  | (some k, false) =>
    let env := { HandshakeExample.env with fetch := fun _ => .ok k }
    let s := serveOne 5000 (reverser (str "hello")) (str "127.0.0.1")
      (SessionExample.start SessionExample.world (Wire.setupRequest (uuidOf ⟨List.replicate 16 1, rfl⟩).val
        (Toy.crypto.marshalEPub (5 : BitVec 256))))
    match runClient env (dial true (.ok (str "127.0.0.1")) {}) (HandshakeExample.start (.udp false [] [.ok s.conn.output])) with
    | (.val (.ok c), cs) =>
      (lossyConverse env 5000 (reverser (str "hello")) (str "127.0.0.1") [⟨str "hello", .delivered, [5]⟩]
        { client := c, conn := cs.1, shared := cs.2, server := s }).map fun q => (k, q.1)
    | _ => none
  | _ => none

example : greetedUDP.map (·.2) = some [(str "olleh", some .eof)] := by decide +kernel

/-! ## client_pool_test.go -/

/-- client_pool_test.go:46-83: `n` goroutines call `Get` of a pool with at most 10 clients; the first ten get one, the
others wait.  Then each closes the client it got, whereupon the next goroutine gets it. -/
def pooled (n : Nat) : PoolSys :=
  careful ⟨10, 10⟩ n ((List.range n).flatMap (fun i => go i (if i < 10 then 13 else 8)) ++
    (List.range n).flatMap fun i =>
      if i + 10 < n then go i 5 { cmd := .close 0 } ++ go (i + 10) 3 else go i 7 { cmd := .close 0 })

/-- All of thirty calls (the test has a hundred) get a client; there are ten, one handshake was made, all are idle at the end, nobody waits. -/
example : (pooled 30).world.lent.length = 30 ∧ (pooled 30).world.clients.length = 10 ∧
    (pooled 30).world.handshakes = 1 ∧ (pooled 30).world.idle.length = 10 ∧ (pooled 30).world.waiting = [] ∧
    (pooled 30).world.held = [] := by decide +kernel

end RepositoryTests

end Goe2ee
