import Verif.Proofs.Solo
import Verif.Proofs.Seq
import Verif.Proofs.Session
import Verif.Proofs.Isolation
import Verif.Proofs.Base64
import Verif.Proofs.Closing
import Verif.Spec.Toy

/-!
# C85: how many sessions the server keeps

The Internet-Draft (docs/draft-justo-goe2ee-latest.md:735-738) asks implementations to bound the number
of concurrent sessions.
-/

set_option autoImplicit false

namespace Goe2ee

section
variable {C : Crypto}

/-- **C85**, as one would want it: there is a limit (below 2⁶⁴) on the number of sessions a server
keeps at the same time, whatever its peers do. -/
def C85_claim : Prop :=
  ∃ N < 2 ^ 64, ∀ (C : Crypto), C.Lawful → ∀ (timeout ttl closers : Nat) (acts : List (Nat × Answer C))
    (names : List Bytes), names.Nodup →
    (∀ k ∈ names, ∃ r t, (Sys.run (inMemory C) timeout (Sys.start ttl closers) acts).world.table k =
      some (r, t)) →
    names.length ≤ N

/-- An environment in which nothing fails and no time passes. -/
structure Generous (a : Answer C) (clientKey : C.EPub) : Prop where
  key : ∃ k secret, a.genKey = .ok k ∧ C.ecdh k clientKey = .ok secret
  sign : ∀ n m, ∃ sig, a.sign n m = .ok sig
  write : a.write = (0, none)
  tick : a.tick = 0

/-- One setup request among others on a connection. -/
theorem pass_setup (hC : C.Lawful) (timeout : Nat) {a : Answer C} {clientKey : C.EPub}
    (ha : Generous a clientKey) (host : Bytes) (id : ID) (s : Seq) (rest : List (Byte ⊕ Err))
    (hq : s.world.quit = false)
    (h : flatten s.conn.input =
      (Wire.setupRequest id.val (C.marshalEPub clientKey)).map Sum.inl ++ rest)
    (hb : s.conn.buffered = false) (hd : ∀ d, s.conn.deadline = some d → s.world.now ≤ d) :
    ∃ s' r, (connPass (inMemory C) (.ok host)).run (seqI C timeout fun _ => a) s = (.val true, s') ∧
      flatten s'.conn.input = rest ∧ s'.world.quit = false ∧ s'.conn.buffered = false ∧
      (∀ d, s'.conn.deadline = some d → s'.world.now ≤ d) ∧
      s'.world.table = fun k => if k = sessionKey C host id then some r else s.world.table k := by
  obtain ⟨k, secret, hg, he⟩ := ha.key
  rw [run_connPass timeout _ _ _ s hq]
  obtain ⟨evs, h1, h2⟩ := run_serveRequest hC timeout (fun _ => a) (inMemory C) (.ok host)
    (.setup id clientKey) trivial (s.ready timeout fun _ => a) rest h
  rw [h2]
  have e : ∃ s1 : Seq, s1 = { (s.ready timeout fun _ => a) with
      conn := { (s.ready timeout fun _ => a).conn with input := evs } } ∧ s1.conn.input = evs ∧
      s1.world.quit = false ∧ s1.conn.buffered = false ∧ s1.world.table = s.world.table ∧
      ∀ d, s1.conn.deadline = some d → s1.world.now ≤ d := by
    refine ⟨_, rfl, rfl, hq, hb, rfl, ?_⟩
    intro d hd'
    simp only [Seq.ready, ha.tick] at hd' ⊢
    split at hd'
    · cases hd'; omega
    · exact hd d hd'
  obtain ⟨s1, e0, e1, e2, e3, e4, e5⟩ := e
  rw [← e0]
  clear h2 e0
  obtain ⟨now, hnow, h3⟩ := run_setup_stored timeout (fun _ => a) host (parsedSetup C id clientKey)
    s1 k secret hg he
  obtain ⟨sig, hs⟩ := ha.sign 7 (setupTranscript C clientKey (C.epub k) id)
  have hnow' : now = s1.world.now := by rw [hnow]; simp [ha.tick]
  rw [show (parsedSetup C id clientKey).publicKey = clientKey from rfl,
    show (parsedSetup C id clientKey).id = id from rfl, hs] at h3
  dsimp only at h3
  rw [run_respondWith _ _ _ _ _ (run_write_ok timeout (fun _ => a) _ _ ha.write (by
    intro d hd'
    show now + a.tick ≤ d
    rw [ha.tick, hnow']
    exact e5 d hd')), e3] at h3
  rw [Prog.run_bind, show afterParse (inMemory C) (.ok host) (.setup id clientKey) =
      setupParsed (inMemory C) (.ok host) (parsedSetup C id clientKey) from rfl, h3]
  refine ⟨_, (s1.world.heap.length, now), rfl, by rw [← h1, ← e1], e2, e3, ?_, by rw [← e4]; rfl⟩
  intro d hd'
  show now + a.tick ≤ d
  rw [ha.tick, hnow']
  exact e5 d hd'

theorem plain_alone (o : SOp) (h : o.plain) : o.alone := by
  cases o <;> first | trivial | exact h.elim

/-- A goroutine serving a connection with many setup requests, the others waiting. -/
theorem serve_setups (hC : C.Lawful) (timeout : Nat) {a : Answer C} {clientKey : C.EPub}
    (ha : Generous a clientKey) (host : Bytes) (deferred : SProg C Bool) (i : Nat) (ids : List ID) :
    ∀ (s : Sys C) (conn : Conn), s.threads[i]? = some ⟨conn, connPass (inMemory C) (.ok host),
        connPass (inMemory C) (.ok host), deferred⟩ →
      s.world.spawned = [] → s.world.quit = false → conn.buffered = false →
      (∀ d, conn.deadline = some d → s.world.now ≤ d) →
      flatten conn.input =
        (ids.flatMap fun id => Wire.setupRequest id.val (C.marshalEPub clientKey)).map Sum.inl →
      ∃ acts : List (Nat × Answer C), (∀ act ∈ acts, act = (i, a)) ∧
        ∀ k, ((∃ id ∈ ids, k = sessionKey C host id) ∨ (s.world.table k).isSome) →
          ((s.run (inMemory C) timeout acts).world.table k).isSome := by
  induction ids with
  | nil =>
    intro s conn _ _ _ _ _ _
    refine ⟨[], by simp, ?_⟩
    rintro k (⟨id, hm, -⟩ | h)
    · cases hm
    · exact h
  | cons id ids ih =>
    intro s conn hi hsp hq hb hd hin
    rw [List.flatMap_cons, List.map_append] at hin
    obtain ⟨x, r, hrun, h1, h2, h3, h4, h5⟩ := pass_setup hC timeout ha host id
      ⟨conn, s.world, 0⟩ _ hq hin hb hd
    obtain ⟨acts, hacts, hsys, hsp'⟩ := Sys.solo (inMemory C) timeout (fun _ => a)
      ((plain_connPass (inMemory_passive C) (.ok host)).mono plain_alone) s i _ deferred
      ⟨conn, s.world, 0⟩ rfl hi hsp
    rw [hrun] at hsys hsp'
    have hlen : i < s.threads.length := (List.getElem?_eq_some_iff.mp hi).1
    have hstep : (s.run (inMemory C) timeout acts).step (inMemory C) timeout (i, a) =
        { world := x.world,
          threads := s.threads.set i ⟨x.conn, connPass (inMemory C) (.ok host),
            connPass (inMemory C) (.ok host), deferred⟩ } := by
      rw [hsys]
      unfold Sys.step
      rw [List.getElem?_set_self hlen]
      simp only [rest, Thread.step, List.set_set]
      rw [hsp']
      simp only [List.map_nil, List.append_nil]
      congr 1
      generalize x.world = w at hsp'
      cases w
      cases hsp'
      rfl
    obtain ⟨acts', ha', hk⟩ := ih { world := x.world, threads := s.threads.set i ⟨x.conn,
        connPass (inMemory C) (.ok host), connPass (inMemory C) (.ok host), deferred⟩ } x.conn
      (List.getElem?_set_self hlen) hsp' h2 h3 h4 h1
    refine ⟨acts ++ (i, a) :: acts', ?_, ?_⟩
    · intro act hm
      rcases List.mem_append.mp hm with hm | hm
      · obtain ⟨e1, n, e2⟩ := hacts act hm
        exact Prod.ext e1 e2
      · rcases List.mem_cons.mp hm with rfl | hm
        · rfl
        · exact ha' act hm
    · intro k hk'
      rw [show s.run (inMemory C) timeout (acts ++ (i, a) :: acts') =
        ((s.run (inMemory C) timeout acts).step (inMemory C) timeout (i, a)).run (inMemory C) timeout acts' by
          simp [Sys.run, List.foldl_append], hstep]
      apply hk
      rw [h5]
      rcases hk' with ⟨id', hm, rfl⟩ | hk'
      · rcases List.mem_cons.mp hm with rfl | hm
        · right; simp
        · exact .inl ⟨id', hm, rfl⟩
      · right
        dsimp only
        split
        · rfl
        · exact hk'

/-- **C85**: one peer, with one TCP connection, makes the server keep as many sessions as the peer likes:
it sends setup requests with different ids, all with the same key, and need not even read the responses. -/
theorem C85_one_peer_fills (hC : C.Lawful) (timeout ttl closers : Nat) (a : Answer C)
    (clientKey : C.EPub) (ha : Generous a clientKey) (host : Bytes) (ids : List ID)
    (hp : a.peer = .ok (.tcp (.ok host)
      [.data (ids.flatMap fun id => Wire.setupRequest id.val (C.marshalEPub clientKey))])) :
    ∃ acts : List (Nat × Answer C), (∀ act ∈ acts, act.2 = a) ∧
      ∀ id ∈ ids, ∃ r t, (Sys.run (inMemory C) timeout (Sys.start ttl closers) acts).world.table
        (sessionKey C host id) = some (r, t) := by
  have hacc : ∃ threads : List (Thread C),
      Sys.run (inMemory C) timeout (Sys.start ttl closers) (List.replicate 4 (0, a)) =
        { world := { (Sys.start (C := C) ttl closers).world with wg := 1 },
          threads := threads ++ [Thread.ofPeer (inMemory C) (.tcp (.ok host)
            [.data (ids.flatMap fun id => Wire.setupRequest id.val (C.marshalEPub clientKey))])] } := by
    refine ⟨⟨Conn.none, .ret true, acceptPass, .ret false⟩ :: .repeating packetPass ::
      ((if ttl > 0 then [.repeating (gcVisit ttl)] else []) ++
      List.replicate closers { conn := .none, prog := closeServer, loop := .ret false,
                               deferred := .ret false }), ?_⟩
    simp [Sys.run, List.replicate, Sys.start, Sys.step, Thread.step, Thread.repeating, acceptPass, enabled,
      exec, hp]
  obtain ⟨threads, hacc⟩ := hacc
  obtain ⟨acts, h1, h2⟩ := serve_setups hC timeout ha host connDeferred threads.length ids
    (Sys.run (inMemory C) timeout (Sys.start ttl closers) (List.replicate 4 (0, a)))
    (Conn.ofPeer (.tcp (.ok host)
      [.data (ids.flatMap fun id => Wire.setupRequest id.val (C.marshalEPub clientKey))]))
    (by rw [hacc]; simp [Thread.ofPeer]) (by rw [hacc]; rfl) (by rw [hacc]; rfl) rfl
    (by intro d hd; cases hd) (by simp [Conn.ofPeer, flatten])
  refine ⟨List.replicate 4 (0, a) ++ acts, ?_, ?_⟩
  · intro act hm
    rcases List.mem_append.mp hm with hm | hm
    · rw [(List.mem_replicate.mp hm).2]
    · rw [h1 act hm]
  · intro id hm
    have := h2 (sessionKey C host id) (.inl ⟨id, hm, rfl⟩)
    rw [show Sys.run (inMemory C) timeout (Sys.start ttl closers) (List.replicate 4 (0, a) ++ acts) =
      (Sys.run (inMemory C) timeout (Sys.start ttl closers) (List.replicate 4 (0, a))).run (inMemory C)
        timeout acts by simp only [Sys.run, List.foldl_append]]
    obtain ⟨⟨r, t⟩, h⟩ := Option.isSome_iff_exists.mp this
    exact ⟨r, t, h⟩

/-- **C85**, what holds (`_partial`: the number of sessions is not bounded): each session kept is paid for
with its own successful setup, so there are at most as many as there were setups. -/
theorem C85_a_setup_each_partial (timeout ttl closers : Nat) (acts : List (Nat × Answer C))
    (names : List Bytes) (hn : names.Nodup)
    (h : ∀ k ∈ names, ∃ r t, (Sys.run (inMemory C) timeout (Sys.start ttl closers) acts).world.table k =
      some (r, t)) :
    names.length ≤ ((Sys.run (inMemory C) timeout (Sys.start ttl closers) acts).world.log.filter fun
      | .established _ _ _ => true
      | _ => false).length := by
  obtain ⟨gs, hinv⟩ := file_run timeout ttl closers acts
  generalize (Sys.run (inMemory C) timeout (Sys.start ttl closers) acts).world = w at h hinv ⊢
  have hsub : names ⊆ (w.log.filter fun
      | .established _ _ _ => true
      | _ => false).map fun
      | .established _ host id => fileName C host id
      | _ => [] := by
    intro k hk
    obtain ⟨r, t, hr⟩ := h k hk
    obtain ⟨host, id, he, rfl⟩ := hinv.table k r t hr
    exact List.mem_map.mpr ⟨_, List.mem_filter.mpr ⟨he, rfl⟩, rfl⟩
  have := List.Nodup.length_le_of_subset hn hsub
  rwa [List.length_map] at this

end

/-! ### The refutation -/

namespace CapacityExample

def host : Bytes := str "10.0.0.1"

def nthId (n : Nat) : ID := ⟨beEnc 16 n, beEnc_length 16 n⟩

def setups (N : Nat) : List ID := (List.range (N + 1)).map nthId

def answer (N : Nat) : Answer Toy.crypto :=
  { genKey := .ok (9 : BitVec 256), sign := fun _ _ => .ok [1, 2, 3], fetchKey := .error .eof,
    handle := .reply [], write := (0, none), tick := 0, key := [], choose := 0,
    peer := .ok (.tcp (.ok host) [.data ((setups N).flatMap fun id =>
      Wire.setupRequest id.val (Toy.crypto.marshalEPub (5 : BitVec 256)))]) }

theorem generous (N : Nat) : Generous (answer N) (5 : BitVec 256) :=
  ⟨⟨(9 : BitVec 256), beEnc 32 14, rfl, rfl⟩, fun _ _ => ⟨_, rfl⟩, rfl, rfl⟩

theorem host_length : host.length = 8 := by decide +kernel

theorem names_differ {m n : Nat} (hm : m < 2 ^ 128) (hn : n < 2 ^ 128)
    (h : sessionKey Toy.crypto host (nthId m) = sessionKey Toy.crypto host (nthId n)) : m = n := by
  have h1 := b64Encode_inj _ _ h
  have hlt : ∀ n, beDec (host ++ (nthId n).val) < 256 ^ 24 := by
    intro n
    have := beDec_lt (host ++ (nthId n).val)
    rwa [List.length_append, host_length, show (nthId n).val.length = 16 from (nthId n).property] at this
  have hl : ∀ n, (host ++ (nthId n).val).length = 24 := by
    intro n
    rw [List.length_append, host_length, show (nthId n).val.length = 16 from (nthId n).property]
  have h2 : beDec (host ++ (nthId m).val) * 31 + (host ++ (nthId m).val).length + 7 =
      beDec (host ++ (nthId n).val) * 31 + (host ++ (nthId n).val).length + 7 := by
    have a := hlt m
    have b := hlt n
    apply beEnc_inj (n := 32) _ _ h1 <;> rw [hl] <;> omega
  rw [hl, hl] at h2
  have h3 : beDec (host ++ (nthId m).val) = beDec (host ++ (nthId n).val) := by omega
  rw [beDec_append, beDec_append, show (nthId m).val.length = 16 from (nthId m).property,
    show (nthId n).val.length = 16 from (nthId n).property] at h3
  have h4 : beDec (beEnc 16 m) = beDec (beEnc 16 n) := Nat.add_left_cancel h3
  rw [beDec_beEnc, beDec_beEnc] at h4
  have : (256 : Nat) ^ 16 = 2 ^ 128 := by decide
  rwa [this, Nat.mod_eq_of_lt hm, Nat.mod_eq_of_lt hn] at h4

end CapacityExample

open CapacityExample in
/-- **C85 is refuted**: there is no limit (short of the 2¹²⁸ ids) on the number of sessions. -/
theorem C85_no_limit : ¬ C85_claim := by
  rintro ⟨N, hN, h⟩
  obtain ⟨acts, -, hacts⟩ := C85_one_peer_fills Toy.lawful 5000 0 0 (answer N) (5 : BitVec 256)
    (generous N) host (setups N) rfl
  have := h Toy.crypto Toy.lawful 5000 0 0 acts
    ((setups N).map fun id => sessionKey Toy.crypto host id) (by
      rw [setups, List.map_map]
      refine List.pairwise_map.mpr (List.nodup_range.imp_of_mem ?_)
      intro m n hm hn hne hmn
      rw [List.mem_range] at hm hn
      exact hne (names_differ (by omega) (by omega) hmn)) (by
      intro k hk
      obtain ⟨id, hid, rfl⟩ := List.mem_map.mp hk
      exact hacts id hid)
  rw [List.length_map, setups, List.length_map, List.length_range] at this
  omega

/-- Three sessions from one connection, four steps to accept it and fourteen for each request. -/
example :
    let s := Sys.run (inMemory Toy.crypto) 5000 (Sys.start 0 0)
      (List.replicate 4 (0, CapacityExample.answer 2) ++ List.replicate 60 (2, CapacityExample.answer 2))
    (CapacityExample.setups 2).map (fun id => s.world.table (sessionKey Toy.crypto CapacityExample.host id)) =
      [some (0, 0), some (1, 0), some (2, 0)] ∧
    s.world.log.length = 3 := by decide +kernel

end Goe2ee
