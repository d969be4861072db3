import Verif.Model.Borrow
import Verif.Spec.Client

/-!
# Vocabulary for statements about borrowed clients
-/

set_option autoImplicit false

namespace Goe2ee

/-- A client over TCP and its connection after a successful dial, any calls, borrow tests, and time
spent idle.  A new socket has no deadlines. -/
inductive UsedT {C : Crypto} : Client → Timed → Prop where
  | dialled {rt wt : Int} {env : CEnv C} {host : Except Err Bytes} {options : ClientOptions}
      {conn : CConn} {shared : CShared} {now : Nat} {c : Client} {s' : Timed} :
      (dial false host options).run (texec rt wt env) ⟨conn, shared, now, none, none⟩ =
        (.val (.ok c), s') → UsedT c s'
  | called {env : CEnv C} {call : CCall} {c c' : Client} {s s' : Timed} : UsedT (C := C) c s →
      (c.call call).run (texec c.readTimeout c.writeTimeout env) s = (.val c', s') → UsedT c' s'
  | tested {env : CEnv C} {c : Client} {s : Timed} : UsedT (C := C) c s →
      UsedT c (testOnBorrow.run (texec c.readTimeout c.writeTimeout env) s).2
  | idle {c : Client} {s : Timed} (time : Nat) : UsedT (C := C) c s →
      UsedT c { s with now := s.now + time }

end Goe2ee
