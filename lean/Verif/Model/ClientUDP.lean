import Verif.Model.ClientExec
import Verif.Model.UDP

/-!
# A client over UDP with the whole connection type

`Verif.Model.ClientExec` keeps only the fields of `UDPConn` that matter for what is read and written.  Here the client uses
the connection type as it is (`Verif.Model.UDP`), including the address that `RemoteAddr` returns.
-/

set_option autoImplicit false

namespace Goe2ee

/-- A UDP client's connection: `UDPConn` over a connected socket. -/
structure UDPSocket where
  conn : UDPConn
  /-- what `ReadFrom` will return -/
  queue : List (Except Err Datagram)
  /-- every `Write` call with its outcome, in order -/
  writes : List (Bytes × Nat × Option Err) := []
  isOpen : Bool := false

/-- client.go:215-219: the connection of a client that was just made. -/
def UDPSocket.fresh (queue : List (Except Err Datagram)) : UDPSocket := { conn := newUDPConn false, queue }

/-- client.go:441-443, internal/net/udp.go:109-111 -/
def UDPSocket.remoteAddr (u : UDPSocket) : Option Bytes := u.conn.addr

/-- `Read` of the connection. -/
def readUDP : ReadFn UDPSocket := fun u k =>
  let r := u.conn.read u.queue k
  (r.1, { u with conn := r.2.1, queue := r.2.2 })

section
variable {C : Crypto}

/-- One effect of the client; those that do not touch the connection are as in `cexec`.  The socket is connected, so
that `Write` does not need the address (internal/net/udp.go:69-72). -/
def uexec (env : CEnv C) : Interp (CSig C) (UDPSocket × CShared)
  | .connect, (u, w) => (env.connect, ({ u with isOpen := u.isOpen || env.connect.isNone }, w))
  | .setKeepAlive, s => (env.keepAlive, s)
  | .read o, (u, w) =>
    let r := readInterp readUDP o u
    (r.1, (r.2, w))
  | .write bs, (u, w) =>
    let r := u.conn.write true (bs.length - env.write.1, env.write.2) bs
    (r.1, ({ u with conn := r.2.2, writes := u.writes ++ [(bs, r.1)] }, w))
  | .setReadDeadline, s => (env.readDeadline, s)
  | .setWriteDeadline, s => (env.writeDeadline, s)
  | .close, (u, w) =>
    let r := u.conn.close (0, none)
    (r.1, ({ u with conn := r.2.2 }, w))
  | .closeSocket, (u, w) => (env.close, ({ u with isOpen := u.isOpen && env.close.isSome }, w))
  | .fetch host, s => (env.fetch host, s)
  | .random, s => (env.random, s)
  | .genKey, s => (env.genKey, s)
  | .newCounter, (u, w) => (w.counters.length, (u, { w with counters := w.counters ++ [0] }))
  | .addCounter a, (u, w) =>
    let v := w.counters.getD a 0 + 1
    (v, (u, { w with counters := w.counters.set a v }))
  | .aead key nonce plaintext, (u, w) =>
    (C.aeadSeal key nonce plaintext, (u, { w with sealed := w.sealed ++ [(key, nonce, plaintext)] }))

/-- A call of the API on a UDP client. -/
abbrev runUDP {α : Type} (env : CEnv C) (p : CProg C α) (s : UDPSocket × CShared) :
    Res α × (UDPSocket × CShared) := p.run (uexec env) s

end

end Goe2ee
