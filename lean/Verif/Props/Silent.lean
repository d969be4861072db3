import Verif.Proofs.Invert
import Verif.Props.Session
import Verif.Props.Manager

/-!
# C172: how long a session lasts
-/

set_option autoImplicit false

namespace Goe2ee

section
variable {C : Crypto}

/-- The octets that arrive begin a setup request with this id. -/
def BeginsSetup (input : List Ev) (id : Bytes) : Prop := ∃ rest, Delivers input (0x12#8 :: id) rest

/-- The octets that arrive begin a process request with this id. -/
def BeginsMessage (input : List Ev) (id : Bytes) : Prop :=
  ∃ flags rest, Delivers input (0x13#8 :: flags :: id) rest

/-- A request arrives: from where, on which connection, and what the environment does meanwhile. -/
structure Arrival (C : Crypto) where
  host : Bytes
  conn : Conn
  timeout : Nat
  ans : Nat → Answer C

/-- The server after serving it. -/
def Arrival.serve (x : Arrival C) (w : World) : World :=
  (serveOne x.timeout x.ans x.host { conn := x.conn, world := w, pos := 0 }).world

/-- The server after serving requests, one after the other. -/
def serveAll (xs : List (Arrival C)) (w : World) : World := xs.foldl (fun w x => x.serve w) w

/-- Serving the request neither hands a message of this client to the application nor sets up a session for it. -/
def Arrival.Idle (x : Arrival C) (host id : Bytes) (w : World) : Prop :=
  (∀ r c m res, .invoked r c host id m res ∈ (x.serve w).log → .invoked r c host id m res ∈ w.log) ∧
  ∀ r, .established r host id ∈ (x.serve w).log → .established r host id ∈ w.log

/-- **C172**, as one would want it: a session that was last used at time `t` is gone after a visit of the collector
that comes later than the TTL after that, if the one request served in between was not the client's. -/
def C172_claim : Prop :=
  ∀ (C : Crypto) (ttl v : Nat) (w : World) (host : Bytes) (id : ID) (r : Ref) (t : Nat) (x : Arrival C),
    C.Lawful → Reachable C w → 0 < ttl → w.table (sessionKey C host id) = some (r, t) → x.Idle host id.val w → v - t > ttl →
    (x.serve w).now ≤ v →
    (callAt C ttl (x.serve w) (.visit (sessionKey C host id), v)).2.table (sessionKey C host id) = none

/-- **C172**, the promptness one would want: a message that arrives later than the TTL after the last use of its
session is not handed to the application. -/
def C172_prompt_claim : Prop :=
  ∀ (C : Crypto) (ttl : Nat) (w : World) (host : Bytes) (id : ID) (r : Ref) (t : Nat) (x : Arrival C),
    C.Lawful → Reachable C w → 0 < ttl → w.table (sessionKey C host id) = some (r, t) → w.now - t > ttl → x.host = host →
    BeginsMessage x.conn.input id.val → x.Idle host id.val w

/-! ## Who touches an entry -/

/-- Effects that leave the entry for `k` alone. -/
def SOp.spares (k : Bytes) : SOp → Prop
  | .mapStore k' _ => k' ≠ k
  | .mapDelete k' => k' ≠ k
  | _ => True

theorem isRead_spares (k : Bytes) (o : SOp) (h : o.isRead) : o.spares k := by
  cases o <;> first | trivial | exact h.elim

theorem isWrite_spares (k : Bytes) (o : SOp) (h : o.isWrite) : o.spares k := by
  cases o <;> first | trivial | exact h.elim

theorem run_spares {α : Type} {k : Bytes} {p : SProg C α} (hp : Uses (S := SSig C) (SOp.spares k) p) (timeout : Nat)
    (ans : Nat → Answer C) (s : Seq) : (p.run (seqI C timeout ans) s).2.world.table k = s.world.table k := by
  refine hp.run (seqI C timeout ans) (fun s' => s'.world.table k = s.world.table k) (fun o s' ho h => ?_) s rfl
  cases o with
  | write bs => exact (congrFun (execWrite_onlyTime _ _ _ _).table k).trans h
  | mapStore k' v => exact (if_neg (Ne.symm ho)).trans h
  | mapDelete k' => exact (if_neg (Ne.symm ho)).trans h
  | check r c =>
    simp only [seqI, exec]
    split <;> exact h
  | flush =>
    simp only [seqI, exec]
    split <;> exact h
  | _ => exact h

theorem spares_failWith (k : Bytes) (code : ErrorCode) (text : String) :
    Uses (S := SSig C) (SOp.spares k) (failWith code text) := (uses_failWith code text).mono (isWrite_spares k)

theorem spares_respondWith (k : Bytes) (bs : Bytes) : Uses (S := SSig C) (SOp.spares k) (respondWith bs) :=
  (uses_respondWith bs).mono (isWrite_spares k)

theorem spares_setupParsed {k host : Bytes} {request : SetupRequest C} (hk : sessionKey C host request.id ≠ k) :
    Uses (S := SSig C) (SOp.spares k) (setupParsed (inMemory C) (.ok host) request) := by
  unfold setupParsed
  refine ⟨trivial, fun (generated : Except Err C.EPriv) => ?_⟩
  rcases generated with _ | serverPrivateKey
  · exact spares_failWith _ _ _
  dsimp only
  split
  · exact spares_failWith _ _ _
  refine ⟨trivial, fun session => ⟨trivial, fun t => ⟨hk, fun _ => ⟨trivial, fun (signed : Except Err Bytes) => ?_⟩⟩⟩⟩
  rcases signed with _ | signature
  · exact spares_failWith _ _ _
  exact spares_respondWith _ _

theorem spares_processParsed {k host : Bytes} {request : ProcessRequest} (hk : sessionKey C host request.id ≠ k) :
    Uses (S := SSig C) (SOp.spares k) (processParsed (inMemory C) (.ok host) request) := by
  unfold processParsed
  refine Uses.bind (⟨trivial, fun value => ?_⟩ : Uses (S := SSig C) _ (inMemoryLoad _)) fun loaded => ?_
  · rcases (value : Option (Ref × Nat)) with _ | ⟨session, _⟩
    · trivial
    · exact ⟨trivial, fun t => ⟨hk, fun _ => trivial⟩⟩
  split
  · exact spares_failWith _ _ _
  refine ⟨trivial, fun fresh => ?_⟩
  cases fresh with
  | false => exact spares_failWith _ _ _
  | true =>
    refine ⟨trivial, fun (secret : Bytes) => ?_⟩
    dsimp only
    split
    · exact spares_failWith _ _ _
    split
    · exact spares_failWith _ _ _
    split
    · exact spares_failWith _ _ _
    rw [show gcmNonceSize = 12 from rfl, C12_nonce_layout]
    dsimp only [ofRes, Prog.ret_bind]
    split
    · exact spares_failWith _ _ _
    unfold runHandler
    refine ⟨trivial, fun (handled : HRes) => ?_⟩
    rcases handled with written | e | m
    rotate_left
    · exact spares_failWith _ _ _
    · trivial
    dsimp only
    split
    · rw [show gcmNonceSize = 12 from rfl, C12_nonce_layout]
      exact ⟨trivial, fun _ => spares_respondWith _ _⟩
    · trivial

theorem spares_fetchKey (k : Bytes) : Uses (S := SSig C) (SOp.spares k) fetchKeyHandler := by
  refine ⟨trivial, fun (fetched : Except Err (KeyAlgorithm × PublicKey)) => ?_⟩
  rcases fetched with _ | ⟨a, pk⟩
  · exact spares_failWith _ _ _
  dsimp only
  split
  · exact spares_failWith _ _ _
  · exact spares_respondWith _ _

/-- What a parser that read the connection found there. -/
theorem runEv_inv {α : Type} {p : RProg α} {evs : List Ev} {r : Res α} {evs' : List Ev} (h : runEv p evs = (r, evs')) :
    runI p (flatten evs) = (r, flatten evs') := by
  rw [← runEv_flatten, h]

/-- Serving a request leaves the entry for `k` alone, unless it is a setup request or a process request whose key
is `k`; a process request for an entry that is not there leaves it so. -/
theorem serveOne_table (timeout : Nat) (ans : Nat → Answer C) (host k : Bytes) (s : Seq)
    (hs : ∀ id : ID, BeginsSetup s.conn.input id.val → sessionKey C host id ≠ k)
    (hm : s.world.table k = none ∨ ∀ id : ID, BeginsMessage s.conn.input id.val → sessionKey C host id ≠ k) :
    (serveOne timeout ans host s).world.table k = s.world.table k := by
  rw [serveOne, serveRequest_eq, Prog.run_bind, run_onConn]
  rcases hr : runEv parseRequestCommon s.conn.input with ⟨r, evs⟩
  rcases r with r | m
  swap
  · rfl
  rcases r with e | common
  · rfl
  have hcommon := parseRequestCommon_inv (runEv_inv hr)
  dsimp only
  split
  · rfl
  rename_i hv
  have hv : common.version = version1 := by simpa using hv
  rw [Prog.run_bind]
  have key : ((handle (inMemory C) (.ok host) common).run (seqI C timeout ans)
      { s with conn := { s.conn with input := evs } }).2.world.table k = s.world.table k := by
    unfold handle
    split
    · exact run_spares (spares_respondWith _ _) timeout ans _
    split
    · rename_i ha
      rw [setupHandler_eq, Prog.run_bind, run_onConn]
      rcases hr2 : runEv (parseSetupRequest C common) evs with ⟨r, evs2⟩
      dsimp only
      rcases r with (e | request) | m
      · exact run_spares (spares_failWith _ _ _) timeout ans _
      · obtain ⟨pk, -, -, -, hpk⟩ := parseSetupRequest_inv (runEv_inv hr2)
        refine run_spares (spares_setupParsed (hs request.id ⟨(beEnc 4 pk.length ++ pk).map Sum.inl ++ flatten evs2, ?_⟩))
          timeout ans _
        rw [Delivers, hcommon, hpk, RequestCommon.bytes, hv, ha]
        simp [version1, actionSetup]
      · rfl
    split
    · rename_i ha
      rw [processHandler_eq, Prog.run_bind, run_onConn]
      rcases hr2 : runEv (parseProcessRequest common) evs with ⟨r, evs2⟩
      dsimp only
      rcases r with (e | request) | m
      · exact run_spares (spares_failWith _ _ _) timeout ans _
      · obtain ⟨h1, h2, -, -⟩ := parseProcessRequest_inv (runEv_inv hr2)
        by_cases hk : sessionKey C host request.id = k
        · rcases hm with hm | hm
          · subst hk
            dsimp only
            rw [run_process_unknown timeout ans host request { s with conn := { s.conn with input := evs2 } } hm]
            exact congrFun (run_failWith_world (C := C) _ _ timeout ans _).table _
          · refine absurd hk (hm request.id ?_)
            refine ⟨if request.expectReply then ((request.reserved <<< 1) >>> 1) ||| (1#8 <<< 7)
                else (request.reserved <<< 1) >>> 1,
              (beEnc 8 request.counter.toNat ++ beEnc 8 request.messageSize.toNat ++ request.message).map Sum.inl ++
                flatten evs2, ?_⟩
            rw [Delivers, hcommon, h2, ProcessRequest.bytes, h1, RequestCommon.bytes, hv, ha]
            simp [version1, actionProcess]
        · exact run_spares (spares_processParsed hk) timeout ans _
      · rfl
    split
    · exact run_spares (spares_fetchKey _) timeout ans _
    · rfl
  revert key
  rcases (handle (inMemory C) (.ok host) common).run (seqI C timeout ans)
      { s with conn := { s.conn with input := evs } } with ⟨r, s'⟩
  intro key
  rcases r with (_ | _) | _ <;> exact key

/-! ## The theorems -/

/-- **C172**, what holds: after a visit of the collector that comes later than the TTL after the last use, if no
setup or process request of this client (same address and id, or a collision of SHA-256) was begun in between, the
session is gone, and stays so until a setup request of this client, whatever else is served; a message of the client
is then refused with error 3 (unknown client), and the application is not called. -/
theorem C172_silent_partial (hC : C.Lawful) (ttl v : Nat) (w : World) (host : Bytes) (id : ID) (r : Ref) (t : Nat)
    (before after : List (Arrival C)) (ht : w.table (sessionKey C host id) = some (r, t)) (hv : v - t > ttl)
    (hbefore : ∀ x ∈ before, ∀ id' : ID, BeginsSetup x.conn.input id'.val ∨ BeginsMessage x.conn.input id'.val →
      C.sha256 (x.host ++ id'.val) ≠ C.sha256 (host ++ id.val))
    (hafter : ∀ x ∈ after, ∀ id' : ID, BeginsSetup x.conn.input id'.val →
      C.sha256 (x.host ++ id'.val) ≠ C.sha256 (host ++ id.val))
    (timeout : Nat) (ans : Nat → Answer C) (s : Seq) (expectReply : Bool) (counter : BitVec 64) (ciphertext : Bytes)
    (rest : List (Byte ⊕ Err)) (hl : ciphertext.length ≤ 2 ^ 30)
    (h : Delivers s.conn.input (Wire.processRequest expectReply id.val counter.toNat ciphertext) rest)
    (hs : s.world = serveAll after (callAt C ttl (serveAll before w) (.visit (sessionKey C host id), v)).2) :
    s.world.table (sessionKey C host id) = none ∧ RefusedWith s (serveOne timeout ans host s) 3 ∧
    (serveOne timeout ans host s).world.log = s.world.log := by
  have h1 : ∀ (xs : List (Arrival C)) (w : World),
      (∀ x ∈ xs, ∀ id' : ID, BeginsSetup x.conn.input id'.val ∨ BeginsMessage x.conn.input id'.val →
        C.sha256 (x.host ++ id'.val) ≠ C.sha256 (host ++ id.val)) →
      (serveAll xs w).table (sessionKey C host id) = w.table (sessionKey C host id) := by
    intro xs
    induction xs with
    | nil => exact fun _ _ => rfl
    | cons x xs ih =>
      intro w hx
      refine (ih (x.serve w) fun y hy => hx y (List.mem_cons_of_mem _ hy)).trans ?_
      exact serveOne_table _ _ _ _ _ (fun id' hid hk => hx x List.mem_cons_self id' (.inl hid) (b64Encode_inj _ _ hk))
        (.inr fun id' hid hk => hx x List.mem_cons_self id' (.inr hid) (b64Encode_inj _ _ hk))
  have h2 : ∀ (xs : List (Arrival C)) (w : World),
      (∀ x ∈ xs, ∀ id' : ID, BeginsSetup x.conn.input id'.val → C.sha256 (x.host ++ id'.val) ≠ C.sha256 (host ++ id.val)) →
      w.table (sessionKey C host id) = none → (serveAll xs w).table (sessionKey C host id) = none := by
    intro xs
    induction xs with
    | nil => exact fun _ _ h => h
    | cons x xs ih =>
      intro w hx hw
      refine ih (x.serve w) (fun y hy => hx y (List.mem_cons_of_mem _ hy)) ?_
      exact (serveOne_table _ _ _ _ { conn := x.conn, world := w, pos := 0 }
        (fun id' hid hk => hx x List.mem_cons_self id' hid (b64Encode_inj _ _ hk)) (.inl hw)).trans hw
  have hnone : s.world.table (sessionKey C host id) = none := by
    rw [hs]
    refine h2 after _ hafter ?_
    rw [callAt_visit_some (C := C) ttl _ _ r t v ((h1 before w hbefore).trans ht)]
    exact if_pos ⟨rfl, hv⟩
  obtain ⟨evs, hp⟩ := serveOne_process hC timeout ans host s expectReply id counter ciphertext rest hl h
  rw [hp, run_process_unknown timeout ans host (parsedProcess expectReply id counter ciphertext)
    { s with conn := { s.conn with input := evs } } hnone]
  obtain ⟨n, e, hw⟩ := run_failWith_writes (C := C) codeUnknownClient
    "could not find a shared secret matching the given ID" timeout ans
    ⟨{ s.conn with input := evs }, s.world, s.pos + 1⟩
  refine ⟨hnone, ⟨str "could not find a shared secret matching the given ID", n, e, hw.trans ?_⟩,
    (run_failWith_world (C := C) codeUnknownClient "could not find a shared secret matching the given ID" timeout ans
      ⟨{ s.conn with input := evs }, s.world, s.pos + 1⟩).log⟩
  rw [show errorBytes codeUnknownClient "could not find a shared secret matching the given ID" =
    Wire.errorResponse 3 (str "could not find a shared secret matching the given ID") by decide +kernel]

namespace SilentExample
open OnceExample

/-- 50 pass before each step that takes time. -/
def slow : Nat → Answer Toy.crypto := fun _ => { answer (.error .eof) with tick := 50 }

def arrival (host : String) (bs : Bytes) : Arrival Toy.crypto :=
  { host := str host, conn := { Conn.none with input := [.data bs] }, timeout := 0, ans := slow }

/-- The server after a setup request that was answered slowly. -/
def world : World :=
  (Sys.run (inMemory Toy.crypto) 5000 (Sys.start 0 0)
    (List.replicate 4 (0, answer (.ok (.tcp (.ok (str "10.0.0.1")) [.data setup]))) ++
     List.replicate 20 (2, slow 0))).world

theorem reachable : Reachable Toy.crypto world := ⟨_, _, _, _, rfl⟩

end SilentExample

open SilentExample in
/-- **C172 is refuted**: a request with the client's id, which every request carries unencrypted, from the same address,
and garbage instead of a ciphertext, renews the session. -/
theorem C172_refuted : ¬ C172_claim := by
  intro h
  have hlog : ((arrival "10.0.0.1" SessionExample.forgery).serve SessionExample.world).log =
      SessionExample.world.log ++ [.accepted 0 (BitVec.ofNat 64 (2 ^ 64 - 1))] := by decide +kernel
  have := h Toy.crypto 100 110 SessionExample.world (str "10.0.0.1") OnceExample.id 0 2
    (arrival "10.0.0.1" SessionExample.forgery) Toy.lawful SessionExample.reachable (by decide) (by decide +kernel)
    ⟨fun r c m res hm => by rw [hlog] at hm; simpa using hm, fun r hm => by rw [hlog] at hm; simpa using hm⟩
    (by decide) (by decide +kernel)
  revert this
  decide +kernel

open SilentExample in
/-- **C172**, promptness is refuted: the age of a session is looked at by the collector only; until it comes, a session
that is older than the TTL is used. -/
theorem C172_prompt_refuted : ¬ C172_prompt_claim := by
  intro h
  have := (h Toy.crypto 10 SilentExample.world (str "10.0.0.1") OnceExample.id 0 100
    (arrival "10.0.0.1" SessionExample.genuine) Toy.lawful SilentExample.reachable (by decide) (by decide +kernel)
    (by decide +kernel) rfl ⟨0x80#8, (flatten [.data SessionExample.genuine]).drop 18, by unfold Delivers; decide +kernel⟩).1 0 1
    (str "ping") (.reply (str "pong")) (by decide +kernel)
  revert this
  decide +kernel

open SilentExample in
/-- `C172_silent_partial` on a concrete server: requests from another address with the same id, before and after; the
session of time 2 is gone at time 200, and the client's genuine message is refused. -/
example :
    let w := serveAll [arrival "10.0.0.2" SessionExample.forgery] SessionExample.world
    let w' := serveAll [arrival "10.0.0.2" SessionExample.forgery]
      (callAt Toy.crypto 100 w (.visit (sessionKey Toy.crypto (str "10.0.0.1") OnceExample.id), 200)).2
    w.table (sessionKey Toy.crypto (str "10.0.0.1") OnceExample.id) = some (0, 2) ∧
    w'.table (sessionKey Toy.crypto (str "10.0.0.1") OnceExample.id) = none ∧
    (serveOne 5000 SessionExample.env (str "10.0.0.1") (SessionExample.start w' SessionExample.genuine)).conn.output =
      Wire.errorResponse 3 (str "could not find a shared secret matching the given ID") := by
  decide +kernel

end

end Goe2ee
