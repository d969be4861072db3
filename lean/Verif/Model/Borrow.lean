import Verif.Model.ClientExec

/-!
# The borrow test (`client_pool.go`) and deadlines that stay on a connection
-/

set_option autoImplicit false

namespace Goe2ee

section
variable {C : Crypto}

/-- client_pool.go:137-148: on the client's connection; the client itself is not used. -/
def testOnBorrow : CProg C Bool :=
  .op (.write helloRequest.bytes) fun (r : Nat × Option Err) =>
  match r with
  | (_, some _) => .ret false
  | (n, none) =>
  if n ≠ helloRequest.bytes.length then .ret false
  else
  (onClientConn parseResponseCommon).bind fun parsed =>
  match parsed with
  | .error _ => .ret false
  | .ok commonResponse => .ret commonResponse.success

/-- A client's connection with a clock and the deadlines set on it (nanoseconds).  The Go runtime
fails every read (write) after the read (write) deadline, whether or not data is available. -/
structure Timed where
  conn : CConn
  shared : CShared
  now : Nat
  readBy : Option Nat
  writeBy : Option Nat

/-- Has the deadline passed? -/
def passed (now : Nat) : Option Nat → Bool
  | none => false
  | some d => decide (d ≤ now)

/-- A read after the deadline. -/
def expiredRead : (o : ROp) → o.Ret
  | .alloc _ => ()
  | .readFull _ => (.error .timeout : Except Err Bytes)
  | .copyLimit _ => (([], some .timeout) : Bytes × Option Err)

/-- One effect, of a client with these timeouts.  Simplified: effects take no time (the time that
passes between calls is what matters here), and only deadlines of connected TCP sockets are
described. -/
def texec (readTimeout writeTimeout : Int) (env : CEnv C) : Interp (CSig C) Timed
  | .setReadDeadline, s =>
    (env.readDeadline,
      if env.readDeadline.isSome then s else { s with readBy := some (s.now + readTimeout.toNat) })
  | .setWriteDeadline, s =>
    (env.writeDeadline,
      if env.writeDeadline.isSome then s else { s with writeBy := some (s.now + writeTimeout.toNat) })
  | .read o, s =>
    if passed s.now s.readBy then (expiredRead o, s)
    else
      let r := cexec env (.read o) (s.conn, s.shared)
      (r.1, { s with conn := r.2.1, shared := r.2.2 })
  | .write bs, s =>
    if passed s.now s.writeBy then
      ((0, some .timeout), { s with conn := { s.conn with net := s.conn.net.written,
                                                          writes := s.conn.writes ++ [(bs, 0, some .timeout)] } })
    else
      let r := cexec env (.write bs) (s.conn, s.shared)
      (r.1, { s with conn := r.2.1, shared := r.2.2 })
  | o, s =>
    let r := cexec env o (s.conn, s.shared)
    (r.1, { s with conn := r.2.1, shared := r.2.2 })

end

end Goe2ee
