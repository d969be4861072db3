import Verif.Model.DefaultFetcher
import Verif.Model.KeySources
import Verif.Model.FetcherCache

/-!
# The key fetchers that README.md names for production (README.md:122-138)

`defaultFetcher` (`Verif.Model.DefaultFetcher`) is the first of them.
-/

set_option autoImplicit false

namespace Goe2ee

/-- README.md:135-136: `Fetch` of `key.NewClientFetcherTLS()` (key/client_fetcher.go:123-163) as a function of the host;
a key that comes with an error is not used (client.go:234-237).  `s` is the state of the process when `Fetch` is called. -/
def tlsFetcher (trust : Option Nat → Bytes → Option Err) (env : TLSEnv) (s : TLSState) : Fetcher := fun host =>
  match ((newClientFetcherTLS []).fetch trust env host s).1 with
  | .val (key, none) => .ok key
  | .val (_, some e) => .error e
  | .panic m => .error (.other m)

/-- README.md:136-137: `key.ParseClientFetcherPEM(...)` and its `Fetch` (key/client_fetcher.go:271-296). -/
def pemFetcher {C : Crypto} (P : Pem C) (file : Except Err Bytes) : Except Err Fetcher :=
  (parseClientFetcherPEM P file).map inMemoryFetch

/-- A call of `Fetch` of `key.NewClientFetcherCache(inner)` (key/client_fetcher.go:366-385) by which nobody else is
interrupted: its result and the cache afterwards.  `tick` passes before each of its effects. -/
def cachedCall (ttl : Int) (inner : Fetcher) (tick : Nat) (host : Bytes) (cache : KWorld) : Res (Except Err PublicKey) × KWorld :=
  (cacheFetch ttl host).run (kexec ⟨tick, inner host, []⟩ 0) cache

/-- The fetcher that the client sees if the cache is in that state when it dials. -/
def cachedFetcher (ttl : Int) (inner : Fetcher) (tick : Nat) (cache : KWorld) : Fetcher := fun host =>
  match (cachedCall ttl inner tick host cache).1 with
  | .val r => r
  | .panic m => .error (.other m)

end Goe2ee
