import Verif.Proofs.Agreement
import Verif.Proofs.Quota
import Verif.Props.Client
import Verif.Props.Counter
import Verif.Props.Once

/-!
# C90, C91, C92: what the two ends can conclude about each other
-/

set_option autoImplicit false

namespace Goe2ee

section
variable {C : Crypto}

/-! ## C90 -/

/-- **C90.** Agreement.  Whatever the schedule and traffic of the server, and whatever reaches the client:
if a dial succeeds, and the signature it received is not forged, then the server accepted a connection or
datagram carrying a setup request with the client's id and ephemeral public key, and has, for that id
and the address of that connection, a session with the same secret as the client's. -/
theorem C90_agreement (hC : C.Lawful) {M : Manager C} (hM : M.Passive) (timeout ttl closers : Nat)
    (acts : List (Nat × Answer C)) (env : CEnv C) (udp : Bool) (host : Except Err Bytes)
    (options : ClientOptions) (s s' : CConn × CShared) (c : Client)
    (h : runClient env (dial udp host options) s = (.val (.ok c), s'))
    (hsig : ∀ hostname key random priv, host = .ok hostname → env.fetch hostname = .ok key →
      env.random = .ok random → env.genKey = .ok priv →
      SignatureGenuine C ((Sys.start ttl closers).effects M timeout acts) key (C.epub priv)
        (uuidOf random).val s.1.net.written.stream) :
    let server := (Sys.run M timeout (Sys.start ttl closers) acts).world
    ∃ session priv p clientHost pk window, ∃ r : Nat, c.session = some session ∧ env.genKey = .ok priv ∧
      Accepts ((Sys.start ttl closers).effects M timeout acts) p ∧ p.host = .ok clientHost ∧
      SendsSetup p session.id.val pk ∧ C.parsePKIX pk = .ok (.inl (C.epub priv)) ∧
      server.heap[r]? = some (session.secret, window) ∧
      .established r clientHost session.id.val ∈ server.log := by
  obtain ⟨hostname, key, random, priv, header, pk, serverKey, hashOctet, hash, sig, rest, session, h1, h2,
    h3, h4, h5, -, h7, h8, h9, h10, h11, h12, -, -⟩ := C14_authenticated env udp host options s s' c h
  obtain ⟨hash', hs⟩ := hsig hostname key random priv h1 h2 h3 h4 header pk serverKey hashOctet hash sig rest
    h5 h7 h8 h9
  obtain ⟨g, hgood, hpre, hpeer, hfacts⟩ := know_run (strict := false) ⟨hM, fun h => nomatch h⟩ timeout ttl closers acts _ hs
  rcases hpre with hb | ⟨p, pk', k, clientKey, id, clientHost, r, secret, g1, g2, g3, g4, g5, g6, g7⟩
  · rw [hgood] at hb; cases hb
  obtain ⟨hacc, hwithin⟩ := hpeer p g1
  rw [← C13_transcript_layout] at g7
  obtain ⟨e1, e2, e3⟩ := C13_transcript_injective C hC _ _ _ _ _ _ g7
  obtain ⟨⟨window, hr⟩, hlog⟩ := hfacts _ g5
  have hsec : secret = session.secret := by
    have h6 := hC.ecdh_comm k priv secret (by rw [e1]; exact g6)
    rw [← e2, h12] at h6
    exact (Except.ok.inj h6).symm
  refine ⟨session, priv, p, clientHost, pk', window, r, h10, h4, hacc, g2, ?_, by rw [e1]; exact g4, ?_, ?_⟩
  · rw [h11, e3]
    exact hwithin _ g3
  · rw [← hsec]; exact hr
  · rw [h11, e3]; exact hlog

/-! ## C91 -/

/-- Where a call of the application comes from. -/
theorem invoked_origin {M : Manager C} (hM : M.Passive) (timeout ttl closers : Nat)
    (acts : List (Nat × Answer C)) {r : Nat} {c : BitVec 64} {host id m : Bytes} {res : HRes}
    (h : .invoked r c host id m res ∈ (Sys.run M timeout (Sys.start ttl closers) acts).world.log) :
    ∃ p ct secret window key, Accepts ((Sys.start ttl closers).effects M timeout acts) p ∧ p.host = .ok host ∧
      SendsMessage p id c.toNat ct ∧
      (Sys.run M timeout (Sys.start ttl closers) acts).world.heap[r]? = some (secret, window) ∧
      deriveKey C secret kdfInfo aesKeySize = .ok key ∧
      C.aeadOpen key (Wire.nonce12 0 c.toNat) ct = some m := by
  rcases run_event M timeout acts (Sys.start ttl closers) _ h with h | h
  · exact absurd h List.not_mem_nil
  obtain ⟨g, hgood, hpre, hpeer, hfacts⟩ := know_run (strict := false) ⟨hM, fun h => nomatch h⟩ timeout ttl closers acts _ h
  rcases hpre with hb | ⟨p, ct, secret, key, flags, g1, g2, g2', g3, g4, g5, g6⟩
  · rw [hgood] at hb; cases hb
  obtain ⟨hacc, hwithin⟩ := hpeer p g1
  obtain ⟨window, hr⟩ := hfacts _ g4
  exact ⟨p, ct, secret, window, key, hacc, g2, ⟨g2', flags, hwithin _ g3⟩, hr, g5, g6⟩

/-- **C91.** Authenticity.  If no message is forged under the key of a session, every call of the
application for that session has a message that a client encrypted with that key and the nonce of that
counter, and it came, with this id and counter, in a process request from the address reported to the
application. -/
theorem C91_authentic {M : Manager C} (hM : M.Passive) (timeout ttl closers : Nat)
    (acts : List (Nat × Answer C)) (sealed : List (Bytes × Bytes × Bytes)) (r : Nat) (secret key : Bytes)
    (window : ReplayWindow)
    (hr : (Sys.run M timeout (Sys.start ttl closers) acts).world.heap[r]? = some (secret, window))
    (hkey : deriveKey C secret kdfInfo aesKeySize = .ok key)
    (hgenuine : MessagesGenuine C ((Sys.start ttl closers).effects M timeout acts)
      (Sys.run M timeout (Sys.start ttl closers) acts).world.log sealed key)
    (c : BitVec 64) (host id m : Bytes) (res : HRes)
    (h : .invoked r c host id m res ∈ (Sys.run M timeout (Sys.start ttl closers) acts).world.log) :
    (key, Wire.nonce12 0 c.toNat, m) ∈ sealed ∧
    ∃ p ct, Accepts ((Sys.start ttl closers).effects M timeout acts) p ∧ p.host = .ok host ∧
      SendsMessage p id c.toNat ct ∧ C.aeadOpen key (Wire.nonce12 0 c.toNat) ct = some m := by
  obtain ⟨p, ct, secret', window', key', h1, h2, h3, h4, h5, h6⟩ := invoked_origin hM timeout ttl closers acts h
  rw [hr] at h4
  cases h4
  rw [hkey] at h5
  cases h5
  refine ⟨?_, p, ct, h1, h2, h3, h6⟩
  rcases hgenuine p id c.toNat ct m h1 h3 h6 with h7 | ⟨r', h7⟩
  · exact h7
  · exact absurd rfl (((C22_reply_nonces_unique hM timeout ttl closers acts).2 _ _ _ _ h7).2.2 _)

/-- **C91.** Each message is delivered at most as often as it was sent: if no message is forged under the
key of a session, the application is called with a message, for that session, at most as often as `Write`
is called with it on the clients with that key — whatever the network does (loss, duplication,
reordering, replay, injection) and however goroutines of both processes are interleaved. -/
theorem C91_at_most_as_often {M : Manager C} (hM : M.Passive) (timeout ttl closers : Nat)
    (acts : List (Nat × Answer C)) (k : Nat) (workers : List Worker) (hok : ∀ w ∈ workers, w.ok)
    (cacts : List (Nat × CEnv C)) (r : Nat) (secret key : Bytes) (window : ReplayWindow)
    (hr : (Sys.run M timeout (Sys.start ttl closers) acts).world.heap[r]? = some (secret, window))
    (hkey : deriveKey C secret kdfInfo aesKeySize = .ok key)
    (hgenuine : MessagesGenuine C ((Sys.start ttl closers).effects M timeout acts)
      (Sys.run M timeout (Sys.start ttl closers) acts).world.log
      ((CSys.start C k workers).run cacts).shared.sealed key) (m : Bytes) :
    (Sys.run M timeout (Sys.start ttl closers) acts).world.log.countP (isDelivery r m) ≤
      (workers.map (Worker.sends C key m)).sum := by
  refine Nat.le_trans ?_ (quota_bound k workers hok cacts key m).1
  have hauth := C91_authentic hM timeout ttl closers acts _ r secret key window hr hkey hgenuine
  have hnodup := (C18_handled_at_most_once hM timeout ttl closers acts).1
  revert hauth hnodup
  generalize (Sys.run M timeout (Sys.start ttl closers) acts).world.log = log
  generalize ((CSys.start C k workers).run cacts).shared.sealed = sealed
  intro hauth hnodup
  -- the counters of the deliveries
  let f : Event → Option (BitVec 64) := fun
    | .invoked r' c _ _ m' _ => if r' = r ∧ m' = m then some c else none
    | _ => none
  have hlen : log.countP (isDelivery r m) = (log.filterMap f).length := by
    clear hnodup hauth
    induction log with
    | nil => rfl
    | cons e log ih =>
      rw [List.countP_cons, List.filterMap_cons, ih]
      cases e with
      | invoked r' c host id m' res =>
        simp only [f, isDelivery]
        by_cases hm : r' = r ∧ m' = m
        · simp [hm]
        · simp [hm]
      | _ => simp [f, isDelivery]
  have hnd : (log.filterMap f).Nodup := by
    clear hauth hlen
    induction log with
    | nil => exact List.nodup_nil
    | cons e log ih =>
      rw [List.filterMap_cons]
      cases e with
      | invoked r' c host id m' res =>
        simp only [handled, List.filterMap_cons, List.nodup_cons] at hnodup
        have ih := ih hnodup.2
        by_cases hm : r' = r ∧ m' = m
        · simp only [f, if_pos hm]
          refine List.nodup_cons.mpr ⟨fun hmem => hnodup.1 ?_, ih⟩
          obtain ⟨e, he, hfe⟩ := List.mem_filterMap.mp hmem
          refine List.mem_filterMap.mpr ⟨e, he, ?_⟩
          cases e with
          | invoked r'' c'' _ _ m'' _ =>
            simp only [f] at hfe
            split at hfe
            · rename_i hm''
              cases hfe
              rw [hm.1, hm''.1]
            · cases hfe
          | _ => cases hfe
        · simp only [f, if_neg hm]
          exact ih
      | _ =>
        simp only [handled, List.filterMap_cons] at hnodup
        exact ih hnodup
  rw [hlen]
  have hmap : ((log.filterMap f).map fun c => (key, Wire.nonce12 0 c.toNat, m)).Nodup := by
    refine (List.pairwise_map).mpr (hnd.imp fun {a b} hne heq => hne ?_)
    simp only [Prod.mk.injEq] at heq
    exact (nonce12_inj heq.2.1).2
  have hle := List.Nodup.length_le_of_subset (l₂ := sealed.filter (isSealing key m)) hmap ?_
  · rw [List.length_map] at hle
    rw [List.countP_eq_length_filter]
    exact hle
  · intro x hx
    obtain ⟨c, hc, rfl⟩ := List.mem_map.mp hx
    obtain ⟨e, he, hfe⟩ := List.mem_filterMap.mp hc
    cases e with
    | invoked r' c' host id m' res =>
      simp only [f] at hfe
      split at hfe
      · rename_i hm
        cases hfe
        obtain ⟨rfl, rfl⟩ := hm
        rw [List.mem_filter]
        exact ⟨(hauth _ _ _ _ _ he).1, by simp [isSealing]⟩
      · cases hfe
    | _ => cases hfe

/-! ## C92 -/

/-- The clients of a process never reuse a nonce (C21), and their nonces have direction 0. -/
theorem clientNonces (k : Nat) (workers : List Worker) (hok : ∀ w ∈ workers, w.ok)
    (hS : Sessions C k workers)
    (hw : ∀ a, (workers.map fun w => if w.session.sendCounter = a then w.writes else 0).sum ≤ 2 ^ 64)
    (cacts : List (Nat × CEnv C)) : ClientNonces ((CSys.start C k workers).run cacts).shared.sealed :=
  ⟨C21_nonces_unique_partial C k workers hok hS hw cacts, (quota_bound k workers hok cacts [] []).2⟩

/-- **C92.** The reply is the reply.  If a `Write` of a client without unread octets is followed by a `Read`
that returns data, and nothing was forged under the session's key, then the server's application was
called with exactly the message of the `Write`, and the data is (the beginning of) what it replied to that
call. -/
theorem C92_reply_to_message (hC : C.Lawful) {M : Manager C} (hM : M.Passive) (timeout ttl closers : Nat)
    (acts : List (Nat × Answer C)) (env env' : CEnv C) (c c₁ c₂ : Client) (s s₁ s₂ : CConn × CShared)
    (p bs : Bytes) (n m : Nat) (err : Option Err) (hp : p.length < 2 ^ 63) (hb : c.buffer = [])
    (hw : runClient env (c.write p) s = (.val ((m, none), c₁), s₁))
    (hr : runClient env' (c₁.read n) s₁ = (.val ((bs, err), c₂), s₂)) (hne : bs ≠ [])
    (sealed : List (Bytes × Bytes × Bytes)) (hsub : ∀ e ∈ s₁.2.sealed, e ∈ sealed)
    (hnonces : ClientNonces sealed)
    (hgenuine : ∀ session key, c.session = some session →
      deriveKey C session.secret kdfInfo aesKeySize = .ok key →
      MessagesGenuine C ((Sys.start ttl closers).effects M timeout acts)
        (Sys.run M timeout (Sys.start ttl closers) acts).world.log sealed key ∧
      ReplyGenuine C (Sys.run M timeout (Sys.start ttl closers) acts).world.log sealed key s₁.1.net.stream) :
    ∃ r counter host id message,
      .invoked r counter host id p (.reply message) ∈
        (Sys.run M timeout (Sys.start ttl closers) acts).world.log ∧ bs = message.take n := by
  obtain ⟨session, key, counter, h1, h2, -, -, -, -, h7, h8, h9⟩ := write_ok hC hp hw
  obtain ⟨-, -, ⟨h, -, -⟩ | ⟨-, -, h, -⟩ | ⟨session', message, g1, -, ⟨key', header, ct, rest, g4, g5, -, g7⟩, g3, -⟩⟩ :=
    C23_only_authentic_partial env' c₁ c₂ s₁ s₂ n bs err hr
  · exact absurd h hne
  · rw [h7] at h; exact absurd hb h
  rw [h7] at g1 g5 g7
  rw [show c.session = some session' from g1] at h1
  cases h1
  rw [h2] at g4
  cases g4
  obtain ⟨hmsg, hrep⟩ := hgenuine session key g1 h2
  rcases hrep header counter ct rest message g5 g7 with hcl | ⟨r, hsv⟩
  · obtain ⟨v, hv⟩ := hnonces.2 _ hcl
    exact absurd (nonce12_inj hv).1 (by decide)
  rcases run_event M timeout acts (Sys.start ttl closers) _ hsv with he | he
  · exact absurd he List.not_mem_nil
  obtain ⟨g, hgood, hpre, -, hfacts⟩ := know_run (strict := false) ⟨hM, fun h => nomatch h⟩ timeout ttl closers acts _ he
  rcases hpre with hbad | ⟨c', secret, host, id, m', k1, k2, k3, k4⟩
  · rw [hgood] at hbad; cases hbad
  obtain ⟨-, rfl⟩ := nonce12_inj k3
  obtain ⟨window, hheap⟩ := hfacts _ k1
  have hinv := hfacts _ k4
  obtain ⟨hseal, -⟩ := C91_authentic hM timeout ttl closers acts sealed r secret key window hheap k2 hmsg
    counter host id m' _ hinv
  have hmine : (key, Wire.nonce12 0 counter.toNat, p) ∈ sealed := by
    refine hsub _ ?_
    rw [show s₁.2 = _ from h9]
    exact List.mem_append_right _ (List.mem_singleton.mpr rfl)
  have heq : m' = p := by
    have hinj := hnonces.1
    obtain ⟨i, hi, hi'⟩ := List.getElem_of_mem hseal
    obtain ⟨j, hj, hj'⟩ := List.getElem_of_mem hmine
    have hij : i = j := (List.getElem_inj (h₀ := by simpa using hi) (h₁ := by simpa using hj) hinj).mp (by
      rw [List.getElem_map, List.getElem_map, hi', hj'])
    subst hij
    rw [hi'] at hj'
    exact (Prod.mk.inj (Prod.mk.inj hj').2).2
  subst heq
  exact ⟨r, counter, host, id, message, hinv, g3⟩

end

namespace EndToEndExample
open HandshakeExample

/-- The server's long-term key. -/
def longTerm : PrivateKey Toy.crypto := .ed25519 (77 : BitVec 256)

def sign (hash : Nat) (content : Bytes) : Except Err Bytes := signServer longTerm 3 hash content

/-- The server's answers: ephemeral key 9, long-term Ed25519 key 77, the application replies "pong". -/
def answer (peer : Except Err Peer) : Answer Toy.crypto :=
  { OnceExample.answer peer with sign := sign }

/-- The id of the client. -/
def id : ID := uuidOf ⟨List.replicate 16 1, rfl⟩

/-- What the client sends: the setup request and, encrypted, "hi". -/
def message : Bytes :=
  (newProcessRequest id 1 (Toy.crypto.aeadSeal OnceExample.key (Wire.nonce12 0 1) (str "hi"))).bytes
def sent : Bytes := (newSetupRequest Toy.crypto id (5 : BitVec 256)).bytes ++ message

def address : Bytes := str "10.0.0.1"

/-- The connection of the client; somebody at the same address repeats everything on a second one. -/
def peer : Peer := .tcp (.ok address) [.data sent]

def schedule : List (Nat × Answer Toy.crypto) :=
  (List.replicate 10 (0, answer (.ok peer))) ++ (List.replicate 60 (2, answer (.error .eof))) ++
  (List.replicate 60 (3, { answer (.error .eof) with genKey := .ok (11 : BitVec 256) }))

def server : World := (Sys.run (inMemory Toy.crypto) 5000 (Sys.start 0 0) schedule).world
def ops : List SOp := (Sys.start (C := Toy.crypto) 0 0).effects (inMemory Toy.crypto) 5000 schedule

/-- What the server signed. -/
def signed : List Bytes := ops.filterMap fun
  | .sign _ content => some content
  | _ => none

def accepted : List Peer := ops.filterMap fun
  | .spawn p => some p
  | _ => none

/-- Is it the connection above? -/
def isPeer : Peer → Bool
  | .tcp (.ok host) [.data bs] => host == address && bs == sent
  | _ => false

theorem isPeer_eq {p : Peer} (h : isPeer p = true) : p = peer := by
  unfold isPeer at h
  split at h
  · simp only [Bool.and_eq_true, beq_iff_eq] at h
    rw [h.1, h.2]
    rfl
  · cases h

/-- Two connections, two sessions, one message delivered: the repeated one does not open under the
key of the second session. -/
example : accepted.map isPeer = [true, true] ∧ server.heap.map (·.1) = [beEnc 32 14, beEnc 32 16] ∧
    server.log = [.established 0 address id.val, .accepted 0 1,
      .invoked 0 1 address id.val (str "hi") (.reply (str "pong")),
      .sealed 0 OnceExample.key (Wire.nonce12 1 1) (str "pong"), .established 1 address id.val,
      .accepted 1 1] := by decide +kernel

theorem take_of_append {bs l : Bytes} {t : List (Byte ⊕ Err)} (h : bs.map Sum.inl = l.map Sum.inl ++ t) :
    l = bs.take l.length := by
  have h1 := congrArg (List.take l.length) h
  rw [← List.map_take, List.take_left' (by simp)] at h1
  exact ((List.map_inj_right fun _ _ h => Sum.inl.inj h).mp h1).symm

/-- The client's connection: the server's answer arrives. -/
def dialled : Bool := succeeds false (.tcp [.data (HandshakeExample.answer 4)])

/-- `C90_agreement` is not vacuous: its hypotheses hold for this client and server. -/
example : dialled = true ∧ SignatureGenuine Toy.crypto ops (.ed25519 (beEnc 32 77))
    (Toy.crypto.epub (5 : BitVec 256)) id.val ((HandshakeExample.answer 4).map Sum.inl) := by
  refine ⟨by decide +kernel, ?_⟩
  intro header pk serverKey hashOctet hash sig rest hs hpk _ _
  have h44 : pk.length = 44 := by
    have h := hpk
    simp only [Toy.crypto] at h
    split at h
    · rename_i h'; exact h'.1
    · split at h <;> cases h
  have hpk' : pk = ((HandshakeExample.answer 4).take 49).drop 5 := by
    have h1 := take_of_append (l := header :: (Wire.be32 pk.length ++ pk))
      (t := ([hashOctet] ++ Wire.be32 sig.length ++ sig).map Sum.inl ++ rest) (by rw [hs]; simp)
    have hl : (header :: (Wire.be32 pk.length ++ pk)).length = 49 := by simp [Wire.be32, h44]
    rw [hl] at h1
    rw [← h1]
    simp [Wire.be32]
  have hkey : serverKey = (9 : BitVec 256) := by
    rw [hpk'] at hpk
    have h9 : Toy.crypto.parsePKIX (((HandshakeExample.answer 4).take 49).drop 5) =
        .ok (.inl (9 : BitVec 256)) := by
      have : ((HandshakeExample.answer 4).take 49).drop 5 = Toy.crypto.marshalEPub (9 : BitVec 256) := by
        decide +kernel
      rw [this]
      exact Toy.lawful.parse_marshalEPub _
    rw [h9] at hpk
    exact (Sum.inl.inj (Except.ok.inj hpk)).symm
  subst hkey
  have hm : Wire.transcript (Toy.crypto.marshalEPub (Toy.crypto.epub (5 : BitVec 256)))
      (Toy.crypto.marshalEPub (9 : BitVec 256)) id.val ∈ signed := by decide +kernel
  obtain ⟨o, ho, hs⟩ := List.mem_filterMap.mp hm
  cases o with
  | sign hash content =>
    cases hs
    exact ⟨hash, ho⟩
  | _ => cases hs

/-- What the client encrypted. -/
def clientSealed : List (Bytes × Bytes × Bytes) := [(OnceExample.key, Wire.nonce12 0 1, str "hi")]

/-- The one place where a process request can start. -/
theorem only_there : ∀ i, i < sent.length → sent[i]? = some 0x13#8 → i = 65 := by decide +kernel

theorem sent_inv {ident ct : Bytes} {n : Nat} (h : SendsMessage peer ident n ct) :
    Wire.be64 n = Wire.be64 1 ∧ ct = sent.drop 99 := by
  obtain ⟨hid, flags, a, b, h⟩ := h
  have hstream : peer.stream = sent.map Sum.inl := by
    show sent.map Sum.inl ++ [] = _
    simp
  rw [hstream] at h
  -- as octets
  obtain ⟨x, bb, h1, h2, rfl⟩ := List.map_eq_append_iff.mp h.symm
  obtain ⟨aa, ff, rfl, rfl, hf⟩ := List.map_eq_append_iff.mp h2
  have hff : ff = 0x13#8 :: flags :: (ident ++ Wire.be64 n ++ Wire.be64 ct.length ++ ct) :=
    (List.map_inj_right fun _ _ h => Sum.inl.inj h).mp hf
  subst hff
  have hlen : sent.length = 117 := by decide +kernel
  have hpos : aa.length = 65 := by
    refine only_there _ ?_ ?_
    · rw [h1]; simp
    · rw [h1]; simp
  have hd : sent.drop 65 = 0x13#8 :: flags :: (ident ++ Wire.be64 n ++ Wire.be64 ct.length ++ ct) ++ bb := by
    rw [h1, ← hpos]; simp
  have hn : (sent.drop 83).take 8 = Wire.be64 n := by
    rw [show sent.drop 83 = (sent.drop 65).drop 18 by simp, hd]
    simp [Wire.be64, hid, List.drop_append, List.take_append]
  have hs : (sent.drop 91).take 8 = Wire.be64 ct.length := by
    rw [show sent.drop 91 = (sent.drop 65).drop 26 by simp, hd]
    simp [Wire.be64, hid, List.drop_append, List.take_append]
  have hct : ct ++ bb = sent.drop 99 := by
    rw [show sent.drop 99 = (sent.drop 65).drop 34 by simp, hd]
    simp [Wire.be64, hid, List.drop_append]
  refine ⟨by rw [← hn]; decide +kernel, ?_⟩
  have h20 : ct.length = 18 := by
    have h3 : Wire.be64 ct.length = Wire.be64 18 := by rw [← hs]; decide +kernel
    have h4 : ct.length ≤ 117 := by rw [← hlen, h1]; simp; omega
    rw [← beEnc_eight, ← beEnc_eight] at h3
    exact beEnc_inj (by omega) (by decide) h3
  have h5 := congrArg (List.take 18) hct
  rw [List.take_append_of_le_length (by omega), List.take_of_length_le (by omega)] at h5
  rw [h5]
  decide +kernel

/-- No message is forged in this run. -/
theorem messages_genuine : MessagesGenuine Toy.crypto ops server.log clientSealed OnceExample.key := by
  intro p ident n ct m hacc hsend hopen
  have hp : p = peer := by
    have hm : p ∈ accepted := List.mem_filterMap.mpr ⟨_, hacc, rfl⟩
    have hall : accepted.all isPeer = true := by decide +kernel
    exact isPeer_eq (List.all_eq_true.mp hall p hm)
  subst hp
  obtain ⟨h1, rfl⟩ := sent_inv hsend
  have h2 : Wire.nonce12 0 n = Wire.nonce12 0 1 := by rw [Wire.nonce12, h1]; rfl
  rw [h2] at hopen ⊢
  have h3 : Toy.crypto.aeadOpen OnceExample.key (Wire.nonce12 0 1) (sent.drop 99) = some (str "hi") := by
    decide +kernel
  rw [h3] at hopen
  cases hopen
  exact .inl (List.mem_singleton.mpr rfl)

theorem derived : deriveKey Toy.crypto (beEnc 32 14) kdfInfo aesKeySize = .ok OnceExample.key := by
  have h : (deriveKey Toy.crypto (beEnc 32 14) kdfInfo aesKeySize).toOption = some OnceExample.key := by
    decide +kernel
  revert h
  generalize deriveKey Toy.crypto (beEnc 32 14) kdfInfo aesKeySize = d
  intro h
  cases d with
  | error e => cases h
  | ok k => exact congrArg Except.ok (Option.some.inj h)

/-- The client's goroutine: it writes "hi" once. -/
def worker : Worker :=
  { client := { host := .ok (str "example.com"), readTimeout := 0, writeTimeout := 0,
                expectReply := true, session := some ⟨beEnc 32 14, id, 0⟩, lastSentCounter := 0, buffer := [] },
    session := ⟨beEnc 32 14, id, 0⟩, conn := ⟨.tcp [.data (ClientExample.reply 1 (str "pong"))], [], true⟩,
    calls := [.write (str "hi")] }

def clients : CSys Toy.crypto :=
  (CSys.start Toy.crypto 1 [worker]).run (List.replicate 10 (0, HandshakeExample.env))

/-- `C91_at_most_as_often` applied to this run: "hi" is delivered once, and `Write` was called once. -/
example : server.log.countP (isDelivery 0 (str "hi")) = 1 ∧
    server.log.countP (isDelivery 0 (str "hi")) ≤
      ([worker].map (Worker.sends Toy.crypto OnceExample.key (str "hi"))).sum ∧
    ([worker].map (Worker.sends Toy.crypto OnceExample.key (str "hi"))).sum = 1 := by
  refine ⟨by decide +kernel, ?_, by decide +kernel⟩
  obtain ⟨⟨secret, window⟩, hr⟩ : ∃ x, server.heap[0]? = some x :=
    Option.isSome_iff_exists.mp (by decide +kernel)
  have hs : server.heap[0]?.map (·.1) = some (beEnc 32 14) := by decide +kernel
  rw [hr] at hs
  have hsec : secret = beEnc 32 14 := by
    have h := hs
    rw [Option.map_some] at h
    exact Option.some.inj h
  clear hs
  have hsealed : clients.shared.sealed = clientSealed := by decide +kernel
  have hmsg := messages_genuine
  rw [← hsealed] at hmsg
  rw [server] at hr hmsg ⊢
  refine C91_at_most_as_often (inMemory_passive _) 5000 0 0 schedule 1 [worker] ?_
    (List.replicate 10 (0, HandshakeExample.env)) 0 _ OnceExample.key window hr (hsec ▸ derived) ?_ (str "hi")
  · intro w hw
    rw [List.mem_singleton] at hw
    subst hw
    rfl
  · rw [clients, ops] at hmsg
    exact hmsg

/-- The octets the client receives for its message. -/
def received : Bytes := ClientExample.reply 1 (str "pong")

/-- The reply that the client receives was made by the server. -/
theorem reply_genuine :
    ReplyGenuine Toy.crypto server.log clientSealed OnceExample.key (received.map Sum.inl) := by
  intro header n ct rest m hs hopen
  have h1 := take_of_append (l := header :: (Wire.be64 n.toNat ++ Wire.be64 ct.length)) (t := ct.map Sum.inl ++ rest)
    (by rw [hs]; simp)
  have h2 := take_of_append hs
  rw [show (header :: (Wire.be64 n.toNat ++ Wire.be64 ct.length)).length = 17 by simp [Wire.be64]] at h1
  have hn : Wire.be64 n.toNat = Wire.be64 1 := by
    have := congrArg (fun l => (l.drop 1).take 8) h1
    simp only [List.drop_succ_cons, List.drop_zero, List.take_append_of_le_length (show 8 ≤ (Wire.be64 n.toNat).length by simp [Wire.be64])] at this
    rw [List.take_of_length_le (by simp [Wire.be64])] at this
    rw [this]
    decide +kernel
  have hl : ct.length = 20 := by
    have h3 : Wire.be64 ct.length = Wire.be64 20 := by
      have := congrArg (fun l => l.drop 9) h1
      simp only [List.drop_succ_cons] at this
      rw [List.drop_append_of_le_length (by simp [Wire.be64]), List.drop_of_length_le (by simp [Wire.be64]),
        List.nil_append] at this
      rw [this]
      decide +kernel
    have h4 : ct.length ≤ 37 := by
      have h5 := congrArg List.length hs
      simp [show received.length = 37 by decide +kernel] at h5
      omega
    rw [← beEnc_eight, ← beEnc_eight] at h3
    exact beEnc_inj (by omega) (by decide) h3
  have hct : ct = (received.take 37).drop 17 := by
    rw [show (header :: (Wire.be64 n.toNat ++ Wire.be64 ct.length ++ ct)).length = 37 by simp [Wire.be64, hl]] at h2
    rw [← h2]
    simp [Wire.be64]
  have h6 : Wire.nonce12 1 n.toNat = Wire.nonce12 1 1 := by rw [Wire.nonce12, hn]; rfl
  rw [h6] at hopen ⊢
  have h7 : Toy.crypto.aeadOpen OnceExample.key (Wire.nonce12 1 1) ((received.take 37).drop 17) =
      some (str "pong") := by decide +kernel
  rw [hct, h7] at hopen
  cases hopen
  exact .inr ⟨0, by decide +kernel⟩

/-- `C92_reply_to_message` is not vacuous: the client's calls succeed and the assumptions hold. -/
example :
    (∃ c₁ s₁ c₂ s₂ err,
      runClient HandshakeExample.env (worker.client.write (str "hi")) (worker.conn, ⟨[0], []⟩) =
        (.val ((52, none), c₁), s₁) ∧
      runClient HandshakeExample.env (c₁.read 3) s₁ = (.val ((str "pon", err), c₂), s₂) ∧
      s₁.2.sealed = clientSealed ∧ s₁.1.net.stream = received.map Sum.inl) ∧
    ClientNonces clientSealed ∧
    MessagesGenuine Toy.crypto ops server.log clientSealed OnceExample.key ∧
    ReplyGenuine Toy.crypto server.log clientSealed OnceExample.key (received.map Sum.inl) := by
  refine ⟨?_, ⟨by decide +kernel, ?_⟩, messages_genuine, reply_genuine⟩
  · have h : (match runClient HandshakeExample.env (worker.client.write (str "hi")) (worker.conn, ⟨[0], []⟩) with
      | (.val ((52, none), c₁), s₁) =>
        s₁.2.sealed == clientSealed && decide (s₁.1.net.stream = received.map Sum.inl) &&
        match runClient HandshakeExample.env (c₁.read 3) s₁ with
        | (.val ((bs, _), _), _) => bs == str "pon"
        | _ => false
      | _ => false) = true := by decide +kernel
    split at h
    · rename_i c₁ s₁ h1
      simp only [Bool.and_eq_true, beq_iff_eq, decide_eq_true_eq] at h
      obtain ⟨⟨h2, h3⟩, h4⟩ := h
      split at h4
      · rename_i bs err c₂ s₂ h5
        rw [beq_iff_eq] at h4
        subst h4
        exact ⟨c₁, s₁, c₂, s₂, err, h1, h5, h2, h3⟩
      · cases h4
    · cases h
  · intro e he
    rw [clientSealed, List.mem_singleton] at he
    subst he
    exact ⟨1, rfl⟩

end EndToEndExample

end Goe2ee
