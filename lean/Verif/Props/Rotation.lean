import Verif.Props.Production

/-!
# C162: the key of the server is replaced

The client uses the cache of keys (`key.NewClientFetcherCache`) in front of any other key fetcher, which already returns
the new key.
-/

set_option autoImplicit false

namespace Goe2ee

section
variable {C : Crypto}

/-- Whatever the cache contains: a client whose key fetcher, behind the cache, returns the server's key gets its reply. -/
def C162_claim : Prop :=
  ∀ (C : Crypto) (privateKey : PrivateKey C) (key : PublicKey) (inner : Fetcher) (hostname : Bytes) (ttl : Int) (tick : Nat)
    (cache : KWorld), C.Lawful → inner hostname = .ok key →
    GetsReply C privateKey key (cachedFetcher ttl inner tick cache) hostname

/-- The call of `Fetch` finds nothing usable in the cache. -/
theorem cachedCall_miss {ttl : Int} {inner : Fetcher} {tick : Nat} {host : Bytes} {cache : KWorld} {key : PublicKey}
    (hin : inner host = .ok key)
    (hold : ∀ k t, cache.table host = some (k, t) → 0 < ttl ∧ (t : Int) + ttl < cache.now + 2 * tick) :
    ∃ cache' ts, cachedCall ttl inner tick host cache = (.val (.ok key), cache') ∧ cache'.table host = some (key, ts) ∧
      cache.now ≤ ts := by
  unfold cachedCall cacheFetch
  cases ht : cache.table host with
  | none =>
    simp only [Prog.run, kexec, ht, fetchAndStore, hin]
    exact ⟨_, _, rfl, if_pos rfl, by omega⟩
  | some entry =>
    obtain ⟨k, t⟩ := entry
    obtain ⟨h0, h1⟩ := hold k t ht
    have hu : useCached ttl host k t (cache.now + tick + tick) = .op (.delete host) fun _ => fetchAndStore host :=
      if_neg (by push_cast; omega)
    simp only [Prog.run, kexec, ht]
    rw [if_neg (by omega)]
    simp only [Prog.run, kexec, hu, fetchAndStore, hin]
    exact ⟨_, _, rfl, if_pos rfl, by omega⟩

/-- The call of `Fetch` finds a key in the cache that has not expired. -/
theorem cachedCall_hit {ttl : Int} {inner : Fetcher} {tick : Nat} {host : Bytes} {cache : KWorld} {key : PublicKey} {t : Nat}
    (ht : cache.table host = some (key, t)) (hage : ttl ≤ 0 ∨ (cache.now : Int) + 2 * tick ≤ t + ttl) :
    ∃ cache', cachedCall ttl inner tick host cache = (.val (.ok key), cache') ∧ cache'.table = cache.table ∧
      cache'.log = cache.log := by
  unfold cachedCall cacheFetch
  simp only [Prog.run, kexec, ht]
  by_cases h0 : ttl ≤ 0
  · rw [if_pos h0]
    exact ⟨_, rfl, rfl, rfl⟩
  · have hu : useCached ttl host key t (cache.now + tick + tick) = .ret (.ok key) := if_pos (by push_cast; omega)
    rw [if_neg h0]
    simp only [Prog.run, kexec, hu]
    exact ⟨_, rfl, rfl, rfl⟩

/-- **C162, what holds**: if the cache has no key of the server, or only one that is older than the time to live, the client
gets its reply; and from then on, the cache has the new key. -/
theorem C162_expired_partial (hC : C.Lawful) (privateKey : PrivateKey C) (key : PublicKey) (inner : Fetcher) (hostname : Bytes)
    (ttl : Int) (tick : Nat) (cache : KWorld) (hin : inner hostname = .ok key)
    (hold : ∀ k t, cache.table hostname = some (k, t) → 0 < ttl ∧ (t : Int) + ttl < cache.now + 2 * tick) :
    GetsReply C privateKey key (cachedFetcher ttl inner tick cache) hostname ∧
    ∃ t, (cachedCall ttl inner tick hostname cache).2.table hostname = some (key, t) ∧ cache.now ≤ t := by
  obtain ⟨cache', t, h1, h2, h3⟩ := cachedCall_miss hin hold
  refine ⟨getsReply hC ?_, t, ?_, h3⟩
  · rw [cachedFetcher, h1]
  · rw [h1]
    exact h2

/-- **C162, what holds**: a client gets its reply, too, if the key in the cache is the server's, whatever the fetcher behind
the cache does meanwhile. -/
theorem C162_cached_partial (hC : C.Lawful) (privateKey : PrivateKey C) (key : PublicKey) (inner : Fetcher) (hostname : Bytes)
    (ttl : Int) (tick : Nat) (cache : KWorld) (t : Nat) (ht : cache.table hostname = some (key, t))
    (hage : ttl ≤ 0 ∨ (cache.now : Int) + 2 * tick ≤ t + ttl) :
    GetsReply C privateKey key (cachedFetcher ttl inner tick cache) hostname := by
  obtain ⟨cache', h1, -⟩ := cachedCall_hit ht hage
  refine getsReply hC ?_
  rw [cachedFetcher, h1]

/-- **C162**, until the time to live is over: a dial asks nobody and uses the key that was replaced.  It succeeds only if
that key verifies the signature over the client's exchange in what it receives.  Either way the cache stays as it is, so
that the same is true of the next dial; if the time to live is zero or negative, for ever. -/
theorem C162_stale (old : PublicKey) (inner : Fetcher) (hostname : Bytes) (ttl : Int) (tick : Nat) (cache : KWorld) (t : Nat)
    (ht : cache.table hostname = some (old, t)) (hage : ttl ≤ 0 ∨ (cache.now : Int) + 2 * tick ≤ t + ttl) :
    (cachedCall ttl inner tick hostname cache).2.table = cache.table ∧
    (cachedCall ttl inner tick hostname cache).2.log = cache.log ∧
    ∀ (env : CEnv C) (udp : Bool) (options : ClientOptions) (cs cs' : CConn × CShared) (c : Client),
      env.fetch = cachedFetcher ttl inner tick cache →
      runClient env (dial udp (.ok hostname) options) cs = (.val (.ok c), cs') →
      ∃ random priv header pk serverKey hashOctet hash sig rest, env.random = .ok random ∧ env.genKey = .ok priv ∧
        cs.1.net.written.stream = (header :: (Wire.be32 pk.length ++ pk ++ [hashOctet] ++
          Wire.be32 sig.length ++ sig)).map Sum.inl ++ rest ∧
        C.parsePKIX pk = .ok (.inl serverKey) ∧ hashNumber hashOctet = some hash ∧
        Verifies C old hash (Wire.transcript (C.marshalEPub (C.epub priv)) (C.marshalEPub serverKey)
          (uuidOf random).val) sig := by
  obtain ⟨cache', h1, h2, h3⟩ := cachedCall_hit (inner := inner) ht hage
  rw [h1]
  refine ⟨h2, h3, fun env udp options cs cs' c henv h => ?_⟩
  obtain ⟨hostname', key, random, priv, header, pk, serverKey, hashOctet, hash, sig, rest, session, hh, hf, hr, hg, hs, -, hpk,
    hhash, hver, -⟩ := C14_authenticated env udp (.ok hostname) options cs cs' c h
  cases hh
  rw [henv, cachedFetcher, h1] at hf
  cases hf
  exact ⟨random, priv, header, pk, serverKey, hashOctet, hash, sig, rest, hr, hg, hs, hpk, hhash, hver⟩

end

/-! ## Examples -/

namespace RotationExample

open ProductionExample

/-- The cache has the key 78 of example.com, stored at time 10; now it is `now`. -/
def cacheAt (now : Nat) : KWorld :=
  { table := fun host => if host = str "example.com" then some (.ed25519 (beEnc 32 78), 10) else none, now, log := [] }

/-- The server's key is 77 now, and the fetcher behind the cache knows it. -/
def fetcherAt (ttl : Int) (now : Nat) : Fetcher :=
  cachedFetcher ttl (inMemoryFetch (.ed25519 (beEnc 32 77))) 1 (cacheAt now)

/-- Within the time to live the dial fails; afterwards the client gets its reply; without one the dial fails for ever. -/
example : result600 (fetcherAt 50 50) = (1, []) ∧ result600 (fetcherAt 50 59) = (0, [(str "hello", none)]) ∧
    result600 (fetcherAt 0 1000000) = (1, []) := by decide +kernel

end RotationExample

open RotationExample ProductionExample in
/-- **C162 is refuted**: during the time to live, the key that was replaced is used, and the dial fails. -/
theorem C162_refuted : ¬ C162_claim := by
  intro h
  have h1 := (h Toy.crypto (.ed25519 (77 : BitVec 256)) (.ed25519 (beEnc 32 77)) (inMemoryFetch (.ed25519 (beEnc 32 77)))
    (str "example.com") 50 1 (cacheAt 50) Toy.lawful rfl [] 16 12 {} QuickStartExample.grows 0
    ⟨List.replicate 16 1, rfl⟩ (5 : BitVec 256) (9 : BitVec 256) FlowDemo.agreed _ (str "hello")
    (fun n => (n % 2, envWith (fetcherAt 50 50))) rfl
    (fun n => ⟨by simp [QuickStartExample.grows], fun room h => by
      obtain ⟨-, rfl⟩ := List.mem_replicate.mp h
      decide⟩) (by decide) (by decide) ⟨⟨_, rfl⟩, rfl, rfl⟩ (by decide +kernel) (by decide +kernel)
    (fun _ => ⟨rfl, rfl, rfl, fun _ _ => rfl, fun _ => rfl, fun _ => rfl, fun _ _ => rfl, fun _ _ _ _ _ => rfl⟩)
    (fun _ => ⟨rfl, rfl, fun _ => rfl, rfl, rfl, rfl, rfl, fun _ => rfl⟩)).1 600
  exact absurd (congrArg List.length h1.1) (by decide +kernel)

end Goe2ee
