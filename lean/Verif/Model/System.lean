import Verif.Model.Flow
import Verif.Model.ServerExec
import Verif.Model.ClientExec
import Verif.Model.Keys

/-!
# A server and its clients, all at once

Any number of clients, each over its own TCP connection (`Verif.Model.Flow`), use one server with the in-memory
manager.  Anybody else may send anything to the server at the same time, over TCP and UDP.  The goroutines of all of
them take their steps in any order.  The session table, the sessions with their
replay windows, and the clock are shared by the goroutines of the server, as in `Verif.Model.ServerExec`; each client
has its own send counter, as in `Verif.Model.ClientExec`.

Simplifications: those of `Verif.Model.Flow`; the collector of idle sessions does not run; the clients are at different
machines or processes, so that they share nothing.
-/

set_option autoImplicit false

namespace Goe2ee

/-- What the owner of the server chose: the long-term key, and the handler as a function of the client's host and the
message.  `key` is what the key fetchers of the clients return for the server. -/
structure Site (C : Crypto) where
  privateKey : PrivateKey C
  key : PublicKey
  app : Bytes → Bytes → Bytes

/-- A client, its connection, and what is chosen at random in its handshake. -/
structure Party (C : Crypto) where
  /-- the address that the server sees -/
  host : Bytes
  /-- the name of the server -/
  hostname : Bytes
  options : ClientOptions
  /-- what the application at the client does: `dialAndExchange` -/
  msgs : List Bytes
  /-- how many octets may be under way -/
  roomUp : Nat
  roomDown : Nat
  /-- what `crypto/rand` gives to the client: the session id and the ephemeral key -/
  random : ID
  clientKey : C.EPriv
  /-- what it gives to the server: the ephemeral key, and the randomness of the signature -/
  serverKey : C.EPriv
  signRandom : Nat

/-- The two ends of one connection, and the memory of the client. -/
structure Link (C : Crypto) where
  flow : Flow C
  memory : CShared

/-- The server, `n` clients, and the goroutines of the server for anybody else (over TCP and UDP). -/
structure Network (C : Crypto) (n : Nat) where
  world : World
  links : Fin n → Link C
  others : List (Thread C)

section
variable {C : Crypto}

/-- An effect of the goroutine of the server for the client `x`.  (The write timeout is 0, and reading and writing are
not among these effects.) -/
def serverEffect (S : Site C) (x : Party C) (tick : Nat) (w : World) (o : SOp) : o.Ret C × World :=
  let answer : Answer C :=
    { genKey := .ok x.serverKey, sign := signServer S.privateKey x.signRandom, fetchKey := fetchServerKey S.privateKey,
      handle := match o with
        | .invoke _ _ host _ message => .reply (S.app host message)
        | _ => .reply [],
      write := (0, none), tick, key := [], choose := 0, peer := .error (.other "no peer") }
  let r := exec C 0 answer o (Conn.none, w)
  (r.1, r.2.2)

/-- An effect of the client `x`. -/
def clientEffect (S : Site C) (x : Party C) (memory : CShared) (o : COp) : o.Ret C × CShared :=
  let env : CEnv C :=
    { fetch := fun name => if name = x.hostname then .ok S.key else .error (.other "unknown server"),
      random := .ok x.random, genKey := .ok x.clientKey }
  let r := cexec env o (⟨.tcp [], [], true⟩, memory)
  (r.1, r.2.2)

/-- What the effects return at the moment. -/
def Network.env {n : Nat} (S : Site C) (X : Fin n → Party C) (s : Network C n) (i : Fin n) (tick : Nat) : FlowEnv C :=
  { server := fun o => (serverEffect S (X i) tick s.world o).1,
    client := fun o => (clientEffect S (X i) (s.links i).memory o).1 }

/-- What may happen next. -/
inductive Act (C : Crypto) (n : Nat) where
  /-- a goroutine of a connection goes on: side 0 is the client, 1 the server; `tick` is the time that passes -/
  | go (link : Fin n) (side tick : Nat)
  /-- somebody else connects to the server, or sends a datagram -/
  | joins (peer : Peer)
  /-- the goroutine of the server for somebody else goes on -/
  | serves (other : Nat) (answer : Answer C)

/-- One step. -/
def Network.step {n : Nat} (S : Site C) (X : Fin n → Party C) (s : Network C n) : Act C n → Network C n
  | .go i side tick =>
    let x := X i
    let l := s.links i
    let flow := Loops.step (flowBody (inMemory C) (.ok x.host)) (flowExec x.roomUp x.roomDown) l.flow
      (side, s.env S X i tick)
    { s with
      world := match l.flow.threads[side]? with
        | some (.op (.server o) _) => (serverEffect S x tick s.world o).2
        | _ => s.world
      links := fun j =>
        if j = i then
          { flow, memory := match l.flow.threads[side]? with
              | some (.op (.client o) _) => (clientEffect S x l.memory o).2
              | _ => l.memory }
        else s.links j }
  | .joins peer => { s with others := s.others ++ [Thread.ofPeer (inMemory C) peer] }
  | .serves j a =>
    match s.others[j]? with
    | none => s
    | some t =>
      let r := t.step 0 a s.world
      { s with world := r.2, others := s.others.set j r.1 }

/-- Nobody has dialled yet. -/
def Network.start {n : Nat} (X : Fin n → Party C) (w : World) : Network C n :=
  { world := w,
    links := fun i =>
      { flow := flowStart (dialAndExchange (.ok (X i).hostname) (X i).options (X i).msgs), memory := ⟨[], []⟩ },
    others := [] }

/-- After `t` steps of a schedule. -/
def Network.after {n : Nat} (S : Site C) (X : Fin n → Party C) (w : World) (σ : Nat → Act C n) : Nat → Network C n
  | 0 => Network.start X w
  | t + 1 => (Network.after S X w σ t).step S X (σ t)

/-- The goroutines of every client, and those of the server for them, go on sooner or later. -/
def NetworkFair {n : Nat} (σ : Nat → Act C n) : Prop :=
  ∀ i : Fin n, ∀ side < 2, ∀ t, ∃ u, t ≤ u ∧ ∃ tick, σ u = .go i side tick

end

end Goe2ee
