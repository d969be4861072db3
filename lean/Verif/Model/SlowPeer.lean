import Verif.Model.ServerExec

/-!
# A TCP connection whose client takes its time

The octets of the client arrive at certain times, and after the last of them the client stays silent
without closing the connection.  A read waits for octets, until the read deadline at most
(server.go:194-199; Go `net`).
-/

set_option autoImplicit false

namespace Goe2ee

/-- What a read of the connection sees. -/
structure SlowConn where
  now : Nat
  /-- the read deadline -/
  readBy : Nat
  /-- the octets still to come, with the times at which they arrive -/
  arrivals : List (Nat × Byte)
  /-- a read has failed because the deadline passed -/
  late : Bool

/-- `net.TCPConn.Read` with a buffer of `k > 0` octets and a read deadline: what has arrived, otherwise
wait for the next octet; an error once the deadline has passed. -/
def readSlow : ReadFn SlowConn := fun s k =>
  if s.readBy < s.now then (([], some .timeout), { s with late := true })
  else
    match s.arrivals with
    | [] => (([], some .timeout), { s with now := s.readBy + 1, late := true })
    | (t, b) :: rest =>
      if s.readBy < t then (([], some .timeout), { s with now := s.readBy + 1, late := true })
      else
        let now := max s.now t
        let more := (rest.takeWhile fun x => x.1 ≤ now).take (k - 1)
        ((b :: more.map (·.2), none), { s with now, arrivals := rest.drop more.length })

/-- A goroutine alone with such a connection. -/
structure SlowState where
  seq : Seq
  readBy : Nat
  arrivals : List (Nat × Byte)
  late : Bool
  /-- the time spent in reads -/
  waited : Nat

section
variable (C : Crypto)

/-- The effects: reads as above; `setDeadlines` sets the read deadline, too (server.go:194-204); everything
else as in `seqI`.  `readTimeout` and `writeTimeout` are the server's; the read timeout is not zero.
Simplified: setting deadlines succeeds. -/
def slowI (readTimeout writeTimeout : Nat) (ans : Nat → Answer C) : Interp (SSig C) SlowState
  | .read o, s =>
    let r := readInterp readSlow o ⟨s.seq.world.now, s.readBy, s.arrivals, s.late⟩
    (r.1, { seq := { s.seq with world := { s.seq.world with now := r.2.now } }, readBy := s.readBy,
            arrivals := r.2.arrivals, late := r.2.late, waited := s.waited + (r.2.now - s.seq.world.now) })
  | o, s =>
    let r := exec C writeTimeout (ans s.seq.pos) o (s.seq.conn, s.seq.world)
    (r.1, { s with
      seq := { conn := r.2.1, world := r.2.2, pos := s.seq.pos + 1 },
      readBy := if o matches .setDeadlines then r.2.2.now + readTimeout else s.readBy })

end

end Goe2ee
