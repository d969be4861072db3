import Verif.Model.SlowPeer
import Verif.Model.ClientExec

/-!
# A client whose server takes its time

The same connection (`SlowConn`), read by a client (client.go:310-321; Go `net`).
-/

set_option autoImplicit false

namespace Goe2ee

section
variable (C : Crypto)

/-- The effects of a client on such a connection: `setReadDeadline` sets the read deadline if it succeeds
(client.go:311-316), reads are those of `readSlow`, and everything else is as in `cexec`.  `timeout` is the
client's read timeout.  Simplified: only reads take time. -/
def slowClientI (timeout : Nat) (env : CEnv C) : Interp (CSig C) (SlowConn × CConn × CShared)
  | .read o, (t, s) =>
    let r := readInterp readSlow o t
    (r.1, (r.2, s))
  | .setReadDeadline, (t, s) =>
    (env.readDeadline, ({ t with readBy := if env.readDeadline.isNone then t.now + timeout else t.readBy }, s))
  | o, (t, s) =>
    let r := cexec env o s
    (r.1, (t, r.2))

/-- `Read` with a buffer of `n` octets by a client with a positive read timeout. -/
def readFromSlow (env : CEnv C) (c : Client) (n : Nat) (t : SlowConn) (s : CConn × CShared) :
    Res ((Bytes × Option Err) × Client) × SlowConn :=
  let r := (c.read n).run (slowClientI C c.readTimeout.toNat env) (t, s)
  (r.1, r.2.1)

end

end Goe2ee
