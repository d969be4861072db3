import Verif.Model.ClientExec
import Verif.Model.KeySources
import Verif.Spec.Client

/-!
# Option functions

The functions that set options of `DialTCP`, `DialUDP`, the key fetchers, the packet connection and process requests,
applied to their arguments.  (Those of `NewServer` and `NewInMemoryManager` are in `Model/Lifecycle`.)  A `nil` function
among the options is not modelled, nor are functions that the application writes itself.
-/

set_option autoImplicit false

namespace Goe2ee

/-! ## Clients -/

/-- `key.ClientFetcher` (key/client_fetcher.go:33-35). -/
abbrev Fetcher := Bytes → Except Err PublicKey

/-- client.go:48-54 -/
structure ClientConfig where
  keyFetcher : Fetcher
  readTimeout : Int
  writeTimeout : Int
  keepAlive : Bool
  expectReply : Bool

/-- client.go:56-64; `google` is `key.NewClientFetcherDNSKEY(key.GoogleDNSProvider)`. -/
def clientOptionsDefaults (google : Fetcher) : ClientConfig :=
  { keyFetcher := google, readTimeout := 5000000000, writeTimeout := 5000000000, keepAlive := false,
    expectReply := true }

/-- client.go:66-108: the option functions applied to their arguments; `none` is `nil`. -/
inductive ClientOption where
  | keyFetcher (f : Option Fetcher)
  | readTimeout (d : Int)
  | writeTimeout (d : Int)
  | keepAlive (b : Bool)
  | expectReply (b : Bool)

/-- client.go:70-72: `ClientWithKeyFetcher(nil)` panics when it is called, that is before the dial. -/
def ClientOption.panics : ClientOption → Bool
  | .keyFetcher none => true
  | _ => false

/-- client.go:73-75, 81-83, 89-91, 97-99, 105-107. -/
def ClientOption.apply (o : ClientOption) (x : ClientConfig) : ClientConfig :=
  match o with
  | .keyFetcher f => match f with
    | some f => { x with keyFetcher := f }
    | none => x
  | .readTimeout d => { x with readTimeout := d }
  | .writeTimeout d => { x with writeTimeout := d }
  | .keepAlive b => { x with keepAlive := b }
  | .expectReply b => { x with expectReply := b }

/-- client.go:152-155 and 200-203. -/
def clientConfig (google : Fetcher) (opts : List ClientOption) : ClientConfig :=
  opts.foldl (fun x o => o.apply x) (clientOptionsDefaults google)

/-- client.go:173-180 and 215-224: what of the options becomes part of the client. -/
def ClientConfig.options (x : ClientConfig) : ClientOptions :=
  { readTimeout := x.readTimeout, writeTimeout := x.writeTimeout, expectReply := x.expectReply }

/-- `DialTCP` and `DialUDP` (client.go:137-225) with the options given to them.  The key is fetched with the configured
fetcher (client.go:234); `setKeepAlive` is what the connection answers to `SetKeepAlive` (client.go:169-171). -/
def dialWith {C : Crypto} (env : CEnv C) (google : Fetcher) (setKeepAlive : Bool → Option Err) (udp : Bool)
    (host : Except Err Bytes) (opts : List ClientOption) (s : CConn × CShared) :
    Res (Except Err Client) × (CConn × CShared) :=
  if opts.any ClientOption.panics then (.panic "keyFetcher cannot be nil", s)
  else
    let x := clientConfig google opts
    runClient { env with fetch := x.keyFetcher, keepAlive := setKeepAlive x.keepAlive } (dial udp host x.options) s

/-! ## Key fetchers -/

/-- key/client_fetcher.go:93-112: the options of `NewClientFetcherTLS`; a pool of root certificates is a number, `none`
the host's set. -/
inductive TLSOption where
  | port (p : BitVec 64)
  | rootCAs (pool : Option Nat)

/-- key/client_fetcher.go:93-96 and 117-120 -/
structure TLSConfig where
  tlsPort : BitVec 64
  rootCAs : Option Nat

/-- key/client_fetcher.go:101-103, 109-111. -/
def TLSOption.apply (o : TLSOption) (x : TLSConfig) : TLSConfig :=
  match o with
  | .port p => { x with tlsPort := p }
  | .rootCAs pool => { x with rootCAs := pool }

/-- key/client_fetcher.go:123-131 -/
def newClientFetcherTLS (opts : List TLSOption) : TLSConfig :=
  opts.foldl (fun x o => o.apply x) { tlsPort := 443, rootCAs := none }

/-- key/client_fetcher.go:135-163 for a fetcher: whether `tls.Dial` succeeds depends on the root certificates. -/
def TLSConfig.fetch (x : TLSConfig) (trust : Option Nat → Bytes → Option Err) (env : TLSEnv) (host : Bytes)
    (s : TLSState) : Res (PublicKey × Option Err) × TLSState :=
  (tlsFetch x.tlsPort.toNat host).run (tlsExec { env with dial := trust x.rootCAs }) s

/-- internal/dns/doh/doh.go:25-54: the provider and the timeout of the HTTP client. -/
def newDNSOverHTTPS (provider : Bytes) (opts : List Int) : Bytes × Int :=
  (provider, opts.foldl (fun _ d => d) 5000000000)

/-- key/client_fetcher.go:48-76: `NewClientFetcherDNSKEY` with timeouts as options. -/
def newClientFetcherDNSKEY (provider : Bytes) (opts : List Int) : Bytes × Int :=
  (provider, opts.foldl (fun _ d => d) 5000000000)

/-- key/client_fetcher.go:81: the HTTP client that `Fetch` uses. -/
def dnskeyClient (fetcher : Bytes × Int) : Bytes × Int := newDNSOverHTTPS fetcher.1 [fetcher.2]

/-- key/client_fetcher.go:308-345: the lifetime of entries of `NewClientFetcherCache`, and whether a collector is
started. -/
def newClientFetcherCache (opts : List Int) : Int × Bool :=
  let ttl := opts.foldl (fun _ d => d) 300000000000
  (ttl, decide (0 < ttl))

/-! ## Packet connections and process requests -/

/-- internal/net/udp.go:18-48: are writes buffered? -/
def newUDPConnBuffered (opts : List Bool) : Bool := opts.foldl (fun _ b => b) true

/-- client.go:217-219: the packet connection of a client. -/
def clientUDPBuffered : Bool := newUDPConnBuffered [false]

/-- server.go:280: the packet connection for a datagram. -/
def serverUDPBuffered : Bool := newUDPConnBuffered []

/-- protocol/action_003_process.go:18-63: `NewProcessRequest` with options. -/
def newProcessRequestWith (id : ID) (counter : BitVec 64) (message : Bytes) (opts : List Bool) : ProcessRequest :=
  newProcessRequest id counter message (opts.foldl (fun _ b => b) true)

end Goe2ee
