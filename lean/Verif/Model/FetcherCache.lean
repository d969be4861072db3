import Verif.Model.Procs
import Verif.Model.Keys

/-!
# The caching key fetcher (key/client_fetcher.go:301-385)

The `sync.Map` operations, reading the clock and calling the underlying fetcher are effects; any
number of goroutines may call `Fetch`.
-/

set_option autoImplicit false

namespace Goe2ee

/-- The effects.  `called` and `returned` do nothing: they mark the beginning and the end of a call of
`Fetch` in the log. -/
inductive KOp where
  | called (host : Bytes)
  /-- `c.cache.Load(host)` -/
  | load (host : Bytes)
  /-- `time.Now()`; also the clock reading of `time.Since` -/
  | now
  /-- `c.cache.Delete(host)` -/
  | delete (host : Bytes)
  /-- `c.fetcher.Fetch(host)` -/
  | fetch (host : Bytes)
  /-- `c.cache.Store(host, clientFetcherCacheItem{publicKey: key, storedAt: t})` -/
  | store (host : Bytes) (key : PublicKey) (storedAt : Nat)
  /-- the collector's next key -/
  | pickHost
  | returned (host : Bytes) (result : Except Err PublicKey)

def KOp.Ret : KOp → Type
  | .load _ => Option (PublicKey × Nat)
  | .now => Nat
  | .fetch _ => Except Err PublicKey
  | .pickHost => Bytes
  | _ => Unit

abbrev KSig : Sig := ⟨KOp, KOp.Ret⟩
abbrev KProg (α : Type) := Prog KSig α

/-- key/client_fetcher.go:375-384: ask the underlying fetcher and remember its answer. -/
def fetchAndStore (host : Bytes) : KProg (Except Err PublicKey) :=
  .op (.fetch host) fun (r : Except Err PublicKey) =>
  match r with
  | .error e => .ret (.error e)
  | .ok publicKey =>
    .op .now fun (t : Nat) =>
    .op (.store host publicKey t) fun _ =>
    .ret (.ok publicKey)

/-- key/client_fetcher.go:367-373: use the cached key if it is at most `ttl` old at time `t`. -/
def useCached (ttl : Int) (host : Bytes) (publicKey : PublicKey) (storedAt t : Nat) :
    KProg (Except Err PublicKey) :=
  if (t : Int) - storedAt ≤ ttl then .ret (.ok publicKey)
  else .op (.delete host) fun _ => fetchAndStore host

/-- key/client_fetcher.go:366-385.  `ttl` in nanoseconds; the clock is monotonic. -/
def cacheFetch (ttl : Int) (host : Bytes) : KProg (Except Err PublicKey) :=
  .op (.load host) fun (cached : Option (PublicKey × Nat)) =>
  match cached with
  | none => fetchAndStore host
  | some (publicKey, storedAt) =>
    if ttl ≤ 0 then .ret (.ok publicKey)
    else
      .op .now fun (t : Nat) => useCached ttl host publicKey storedAt t

/-- A call of `Fetch`, its beginning and end marked. -/
def fetchCall (ttl : Int) (host : Bytes) : KProg Unit :=
  .op (.called host) fun _ =>
  (cacheFetch ttl host).bind fun r =>
  .op (.returned host r) fun _ => .ret ()

/-- A goroutine that calls `Fetch` for these hosts in turn. -/
def fetchCalls (ttl : Int) : List Bytes → KProg Unit
  | [] => .ret ()
  | host :: hosts => (fetchCall ttl host).bind fun _ => fetchCalls ttl hosts

/-- key/client_fetcher.go:352-354: is the entry too old at time `t`? -/
def collectCached (ttl : Int) (host : Bytes) (storedAt t : Nat) : KProg Unit :=
  if (t : Int) - storedAt > ttl then .op (.delete host) fun _ => .ret () else .ret ()

/-- key/client_fetcher.go:351-356: the callback of the collector's `Range` for one key. -/
def cacheVisit (ttl : Int) : KProg Unit :=
  .op .pickHost fun (host : Bytes) =>
  .op (.load host) fun (cached : Option (PublicKey × Nat)) =>
  match cached with
  | none => .ret ()
  | some (_, storedAt) =>
    .op .now fun (t : Nat) => collectCached ttl host storedAt t

/-- The collector (key/client_fetcher.go:345-359), `n` visits.  Simplified: ticks and the order of
`Range` are not modelled: a visit may happen at any time for any key. -/
def cacheVisits (ttl : Int) : Nat → KProg Unit
  | 0 => .ret ()
  | n + 1 => (cacheVisit ttl).bind fun _ => cacheVisits ttl n

/-- What happened, with the goroutine and the time. -/
inductive KEvent where
  /-- a call of `Fetch` began -/
  | called (i : Nat) (host : Bytes) (t : Nat)
  /-- the underlying fetcher answered -/
  | asked (i : Nat) (host : Bytes) (result : Except Err PublicKey) (t : Nat)
  /-- the answer was stored with this time -/
  | stored (i : Nat) (host : Bytes) (key : PublicKey) (storedAt : Nat)
  /-- a call of `Fetch` returned -/
  | returned (i : Nat) (host : Bytes) (result : Except Err PublicKey) (t : Nat)

/-- The shared state of a cache. -/
structure KWorld where
  table : Bytes → Option (PublicKey × Nat)
  now : Nat
  log : List KEvent

/-- The environment's choices for one effect: the time that passes before it, the underlying
fetcher's answer, and the collector's next key. -/
structure KAnswer where
  tick : Nat
  fetch : Except Err PublicKey
  host : Bytes

/-- One effect of goroutine `i`. -/
def kexec (a : KAnswer) (i : Nat) : Interp KSig KWorld
  | .called host, w => ((), { w with now := w.now + a.tick, log := w.log ++ [.called i host (w.now + a.tick)] })
  | .load host, w => (w.table host, { w with now := w.now + a.tick })
  | .now, w => (w.now + a.tick, { w with now := w.now + a.tick })
  | .delete host, w =>
    ((), { w with now := w.now + a.tick, table := fun h => if h = host then none else w.table h })
  | .fetch host, w =>
    (a.fetch, { w with now := w.now + a.tick, log := w.log ++ [.asked i host a.fetch (w.now + a.tick)] })
  | .store host key t, w =>
    ((), { now := w.now + a.tick, table := fun h => if h = host then some (key, t) else w.table h,
           log := w.log ++ [.stored i host key t] })
  | .pickHost, w => (a.host, { w with now := w.now + a.tick })
  | .returned host r, w =>
    ((), { w with now := w.now + a.tick, log := w.log ++ [.returned i host r (w.now + a.tick)] })

/-- A new cache; goroutines that call `Fetch` for the given hosts, and collectors with the given
numbers of visits.  (`NewClientFetcherCache` starts one collector, and none for `ttl ≤ 0`; any number
is allowed here.) -/
def cacheStart (ttl : Int) (callers : List (List Bytes)) (collectors : List Nat) : Procs KSig KWorld :=
  { world := { table := fun _ => none, now := 0, log := [] },
    threads := callers.map (fetchCalls ttl) ++ collectors.map (cacheVisits ttl) }

/-- The log after a schedule. -/
def cacheLog (ttl : Int) (callers : List (List Bytes)) (collectors : List Nat)
    (acts : List (Nat × KAnswer)) : List KEvent :=
  ((cacheStart ttl callers collectors).run kexec acts).world.log

end Goe2ee
