import Verif.Spec.Client

/-!
# Vocabulary for statements about many clients of one process
-/

set_option autoImplicit false

namespace Goe2ee

/-- A goroutine of the application: a client with its session and connection, and the calls it will
make. -/
structure Worker where
  client : Client
  session : ClientSession
  conn : CConn
  calls : List CCall

/-- Established: the client has the session. -/
def Worker.ok (w : Worker) : Prop := w.client.session = some w.session

/-- The number of calls of `Write` it will make. -/
def Worker.writes (w : Worker) : Nat :=
  w.calls.countP fun
    | .write _ => true
    | .read _ => false

/-- A process with `k` sessions, nothing sent yet. -/
def CSys.start (C : Crypto) (k : Nat) (workers : List Worker) : CSys C :=
  { shared := { counters := List.replicate k 0, sealed := [] },
    threads := workers.map fun w => { conn := w.conn, prog := w.client.calls w.calls } }

/-- Every session has a send counter, and sessions with different counters have different encryption
keys. -/
def Sessions (C : Crypto) (k : Nat) (workers : List Worker) : Prop :=
  (∀ w ∈ workers, w.session.sendCounter < k) ∧
  ∀ w ∈ workers, ∀ w' ∈ workers, ∀ key, deriveKey C w.session.secret kdfInfo aesKeySize = .ok key →
    deriveKey C w'.session.secret kdfInfo aesKeySize = .ok key →
    w.session.sendCounter = w'.session.sendCounter

end Goe2ee
