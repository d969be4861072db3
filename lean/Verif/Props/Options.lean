import Verif.Model.Options
import Verif.Model.Lifecycle
import Verif.Spec.Options
import Verif.Props.Handshake
import Verif.Props.Client

/-!
# C143: options
-/

set_option autoImplicit false

namespace Goe2ee

theorem lastGiven_cons {O V : Type} (kind : O → Option V) (o : O) (opts : List O) (d : V) :
    lastGiven kind (o :: opts) d = lastGiven kind opts ((kind o).getD d) := by
  unfold lastGiven
  cases hk : kind o with
  | none => rw [List.filterMap_cons_none hk]; rfl
  | some v =>
    rw [List.filterMap_cons_some hk, List.getLast?_cons]
    simp only [Option.getD_some]

/-- A field that each option of its kind sets and no other option changes has the value of the last. -/
theorem foldl_field {O X V : Type} (apply : O → X → X) (get : X → V) (kind : O → Option V)
    (h : ∀ o x, get (apply o x) = (kind o).getD (get x)) (opts : List O) (x : X) :
    get (opts.foldl (fun x o => apply o x) x) = lastGiven kind opts (get x) := by
  induction opts generalizing x with
  | nil => rfl
  | cons o opts ih => rw [List.foldl_cons, ih, lastGiven_cons, h]

theorem foldl_last {V : Type} (opts : List V) (d : V) :
    opts.foldl (fun _ v => v) d = lastGiven some opts d :=
  foldl_field (fun v (_ : V) => v) (fun x => x) some (fun _ _ => rfl) opts d

/-! ## Clients -/

namespace ClientOption

def fetcherOf : ClientOption → Option Fetcher | .keyFetcher f => f | _ => none
def readTimeoutOf : ClientOption → Option Int | .readTimeout d => some d | _ => none
def writeTimeoutOf : ClientOption → Option Int | .writeTimeout d => some d | _ => none
def keepAliveOf : ClientOption → Option Bool | .keepAlive b => some b | _ => none
def expectReplyOf : ClientOption → Option Bool | .expectReply b => some b | _ => none

end ClientOption

theorem clientConfig_fields (google : Fetcher) (opts : List ClientOption) :
    (clientConfig google opts).keyFetcher = lastGiven ClientOption.fetcherOf opts google ∧
    (clientConfig google opts).readTimeout = lastGiven ClientOption.readTimeoutOf opts 5000000000 ∧
    (clientConfig google opts).writeTimeout = lastGiven ClientOption.writeTimeoutOf opts 5000000000 ∧
    (clientConfig google opts).keepAlive = lastGiven ClientOption.keepAliveOf opts false ∧
    (clientConfig google opts).expectReply = lastGiven ClientOption.expectReplyOf opts true := by
  refine ⟨?_, ?_, ?_, ?_, ?_⟩
  · exact foldl_field ClientOption.apply (·.keyFetcher) ClientOption.fetcherOf
      (by intro o x; rcases o with (_ | _) | _ | _ | _ | _ <;> rfl) opts _
  · exact foldl_field ClientOption.apply (·.readTimeout) ClientOption.readTimeoutOf
      (by intro o x; rcases o with (_ | _) | _ | _ | _ | _ <;> rfl) opts _
  · exact foldl_field ClientOption.apply (·.writeTimeout) ClientOption.writeTimeoutOf
      (by intro o x; rcases o with (_ | _) | _ | _ | _ | _ <;> rfl) opts _
  · exact foldl_field ClientOption.apply (·.keepAlive) ClientOption.keepAliveOf
      (by intro o x; rcases o with (_ | _) | _ | _ | _ | _ <;> rfl) opts _
  · exact foldl_field ClientOption.apply (·.expectReply) ClientOption.expectReplyOf
      (by intro o x; rcases o with (_ | _) | _ | _ | _ | _ <;> rfl) opts _

section
variable {C : Crypto}

/-- **C143**, clients: a client that `DialTCP` or `DialUDP` returns has the timeouts of the last options that set them,
or five seconds; every request it writes asks for a reply as the last such option says, or else does; the key of the
server came from the last fetcher given, or else from DNS; and over TCP keep-alive was set as the last option says, or
else off. -/
theorem C143_client (hC : C.Lawful) (env : CEnv C) (google : Fetcher) (setKeepAlive : Bool → Option Err) (udp : Bool)
    (host : Except Err Bytes) (opts : List ClientOption) (s s' : CConn × CShared) (c : Client)
    (h : dialWith env google setKeepAlive udp host opts s = (.val (.ok c), s')) :
    c.readTimeout = lastGiven ClientOption.readTimeoutOf opts 5000000000 ∧
    c.writeTimeout = lastGiven ClientOption.writeTimeoutOf opts 5000000000 ∧
    (∀ (env' : CEnv C) (c' : Client) (t t' : CConn × CShared) (p : Bytes) (n : Nat), p.length < 2 ^ 63 →
      runClient env' (c.write p) t = (.val ((n, none), c'), t') →
      ∃ id counter ct, t'.1.writes = t.1.writes ++
        [(Wire.processRequest (lastGiven ClientOption.expectReplyOf opts true) id counter ct, n, none)]) ∧
    (∃ hostname key, host = .ok hostname ∧ lastGiven ClientOption.fetcherOf opts google hostname = .ok key ∧
      ∃ hash transcript sig, Verifies C key hash transcript sig) ∧
    (udp = false → setKeepAlive (lastGiven ClientOption.keepAliveOf opts false) = none) := by
  obtain ⟨hf, hr, hw, hk, he⟩ := clientConfig_fields google opts
  unfold dialWith at h
  split at h
  · cases h
  · dsimp only at h
    obtain ⟨session, -, hc⟩ := dial_ok h
    refine ⟨?_, ?_, ?_, ?_, ?_⟩
    · rw [hc, ← hr]; rfl
    · rw [hc, ← hw]; rfl
    · intro env' c' t t' p n hp hrun
      obtain ⟨-, session', key, counter, ct, -, -, -, hwr⟩ := C25_count_partial hC env' c c' t t' p n hp hrun
      refine ⟨session'.id.val, counter, ct, ?_⟩
      rw [hwr, hc, ← he]
      rfl
    · obtain ⟨hostname, key, random, priv, header, pk, serverKey, hashOctet, hash, sig, rest, session', h1, h2, -, -, -, -,
        -, -, h9, -⟩ := C14_authenticated _ udp host _ s s' c h
      rw [← hf]
      exact ⟨hostname, key, h1, h2, hash, _, sig, h9⟩
    · intro hu
      subst hu
      rw [← hk]
      cases hka : setKeepAlive (clientConfig google opts).keepAlive with
      | none => rfl
      | some e =>
        exfalso
        unfold runClient dial dialTCP at h
        simp only [if_false, Bool.false_eq_true, Prog.run, cexec] at h
        split at h
        · cases h
        · simp only [Prog.run, cexec, hka] at h
          cases h

/-- **C143**, clients: `ClientWithKeyFetcher(nil)` panics where it is called, before anything is sent; no other option
does. -/
theorem C143_nil_fetcher (env : CEnv C) (google : Fetcher) (setKeepAlive : Bool → Option Err) (udp : Bool)
    (host : Except Err Bytes) (opts : List ClientOption) (s : CConn × CShared) :
    ((∃ o ∈ opts, o = .keyFetcher none) → ∃ m, dialWith env google setKeepAlive udp host opts s = (.panic m, s)) ∧
    (¬ (∃ o ∈ opts, o = .keyFetcher none) →
      dialWith env google setKeepAlive udp host opts s =
        runClient { env with
          fetch := lastGiven ClientOption.fetcherOf opts google,
          keepAlive := setKeepAlive (lastGiven ClientOption.keepAliveOf opts false) }
        (dial udp host (ClientOptions.mk (lastGiven ClientOption.readTimeoutOf opts 5000000000)
          (lastGiven ClientOption.writeTimeoutOf opts 5000000000) (lastGiven ClientOption.expectReplyOf opts true))) s) := by
  have hany : opts.any ClientOption.panics = true ↔ ∃ o ∈ opts, o = .keyFetcher none := by
    rw [List.any_eq_true]
    constructor
    · rintro ⟨o, ho, hp⟩
      refine ⟨o, ho, ?_⟩
      rcases o with (_ | _) | _ | _ | _ | _
      · rfl
      all_goals cases hp
    · rintro ⟨o, ho, rfl⟩
      exact ⟨_, ho, rfl⟩
  obtain ⟨hf, hr, hw, hk, he⟩ := clientConfig_fields google opts
  constructor
  · intro h
    exact ⟨_, by unfold dialWith; rw [if_pos (hany.2 h)]⟩
  · intro h
    unfold dialWith
    rw [if_neg (fun h' => h (hany.1 h')), ← hf, ← hr, ← hw, ← hk, ← he]
    rfl

end

/-! ## Servers -/

namespace ServerOption

def loggerOf : ServerOption → Option Bool | .logger b => some b | _ => none
def secretManagerOf : ServerOption → Option SecretManager | .secretManager m => m | _ => none
def readTimeoutOf : ServerOption → Option Int | .readTimeout d => some d | _ => none
def writeTimeoutOf : ServerOption → Option Int | .writeTimeout d => some d | _ => none

end ServerOption

namespace ManagerOption

def gcTickerOf : ManagerOption → Option Int | .gcTicker d => some d | _ => none
def ttlOf : ManagerOption → Option Int | .ttl d => some d | _ => none

end ManagerOption

/-- **C143**, session managers: lifetime and ticker are those of the last options that set them, or 15 minutes and one
minute. -/
theorem C143_manager (opts : List ManagerOption) :
    (newInMemoryManager opts).ttl = lastGiven ManagerOption.ttlOf opts 900000000000 ∧
    (newInMemoryManager opts).gcTicker = lastGiven ManagerOption.gcTickerOf opts 60000000000 := by
  constructor
  · exact foldl_field (fun o (m : Mgr) => match o with
      | ManagerOption.gcTicker d => { m with gcTicker := d }
      | .ttl d => { m with ttl := d }) Mgr.ttl ManagerOption.ttlOf (by intro o x; cases o <;> rfl) opts _
  · exact foldl_field (fun o (m : Mgr) => match o with
      | ManagerOption.gcTicker d => { m with gcTicker := d }
      | .ttl d => { m with ttl := d }) Mgr.gcTicker ManagerOption.gcTickerOf (by intro o x; cases o <;> rfl) opts _

/-- The last manager given, as the server sees it: its sessions are kept in that manager, with its options; without one, in
an in-memory manager with the defaults. -/
def UsesManager (w : LWorld) (cfg : LConfig) : Option SecretManager → Prop
  | none => ∃ m, cfg.store = .inMemory m ∧ w.mgrs[m]? = some (newInMemoryManager [])
  | some (.inMemory mopts) => ∃ m, cfg.store = .inMemory m ∧ w.mgrs[m]? = some (newInMemoryManager mopts)
  | some .custom => cfg.store = .custom

/-- **C143**, servers: a server that `NewServer` returns has the timeouts of the last options that set them, or 60 and 5
seconds, the last logger given (or one of its own), and keeps its sessions in the last manager given (or one of its
own). -/
theorem C143_server (opts : List ServerOption) (keyOk : Bool) (users : List (List Call)) (cfg : LConfig) (s : LState)
    (h : newServer opts keyOk users = some (cfg, s)) :
    cfg.readTimeout = lastGiven ServerOption.readTimeoutOf opts 60000000000 ∧
    cfg.writeTimeout = lastGiven ServerOption.writeTimeoutOf opts 5000000000 ∧
    cfg.logger = lastGiven ServerOption.loggerOf opts true ∧
    UsesManager s.world cfg ((opts.filterMap ServerOption.secretManagerOf).getLast?) := by
  have hp : opts.any ServerOption.panics = false := by
    unfold newServer at h
    split at h
    · cases h
    · rename_i h'; exact Bool.eq_false_iff.2 h'
  have hr := foldl_field ServerOption.apply (·.readTimeout) ServerOption.readTimeoutOf
    (by intro o x; cases o <;> rfl) opts defaultOptions
  have hw := foldl_field ServerOption.apply (·.writeTimeout) ServerOption.writeTimeoutOf
    (by intro o x; cases o <;> rfl) opts defaultOptions
  have hl := foldl_field ServerOption.apply (·.logger) ServerOption.loggerOf
    (by intro o x; cases o <;> rfl) opts defaultOptions
  have hm : ∀ (opts : List ServerOption) (x : ServerOptions), opts.any ServerOption.panics = false →
      (opts.foldl (fun x o => o.apply x) x).secretManager =
        ((opts.filterMap ServerOption.secretManagerOf).getLast?).or x.secretManager := by
    intro opts
    induction opts with
    | nil => intro x _; rfl
    | cons o opts ih =>
      intro x hp
      rw [List.any_cons, Bool.or_eq_false_iff] at hp
      rw [List.foldl_cons, ih _ hp.2]
      rcases o with _ | _ | (_ | m) | _ | _
      · rfl
      · rfl
      · cases hp.1
      · rw [List.filterMap_cons_some (f := ServerOption.secretManagerOf) (a := .secretManager (some m)) (b := m) rfl,
          List.getLast?_cons]
        cases (opts.filterMap ServerOption.secretManagerOf).getLast? <;> rfl
      · rfl
      · rfl
  have hm' := hm opts defaultOptions hp
  have hor : ∀ x : Option SecretManager, x.or none = x := fun x => by cases x <;> rfl
  rw [show defaultOptions.secretManager = none from rfl, hor] at hm'
  rw [← hm']
  unfold newServer at h
  rw [hp] at h
  simp only [Bool.false_eq_true, if_false] at h
  split at h
  · cases h
  · split at h
    · rename_i mopts hs
      cases h
      exact ⟨hr, hw, hl, by rw [hs]; exact ⟨1, rfl, rfl⟩⟩
    · rename_i hs
      cases h
      exact ⟨hr, hw, hl, by rw [hs]; exact rfl⟩
    · rename_i hs
      cases h
      exact ⟨hr, hw, hl, by rw [hs]; exact ⟨0, rfl, rfl⟩⟩

/-! ## Key fetchers -/

namespace TLSOption

def portOf : TLSOption → Option (BitVec 64) | .port p => some p | _ => none
def rootCAsOf : TLSOption → Option (Option Nat) | .rootCAs pool => some pool | _ => none

end TLSOption

/-- **C143**, key fetchers: the TLS fetcher connects to the last port given, or 443, trusting the last pool of root
certificates given, or the host's; the DNS fetcher asks its provider with the last timeout given, or five seconds; the
cache keeps entries for the last time given, or five minutes, and starts a collector exactly if that is positive. -/
theorem C143_fetchers (tls : List TLSOption) (dns cache : List Int) (provider : Bytes)
    (trust : Option Nat → Bytes → Option Err) (env : TLSEnv) (host : Bytes) (s : TLSState) :
    (newClientFetcherTLS tls).fetch trust env host s =
      (tlsFetch (lastGiven TLSOption.portOf tls 443).toNat host).run
        (tlsExec { env with dial := trust (lastGiven TLSOption.rootCAsOf tls none) }) s ∧
    dnskeyClient (newClientFetcherDNSKEY provider dns) = (provider, lastGiven some dns 5000000000) ∧
    (newClientFetcherCache cache).1 = lastGiven some cache 300000000000 ∧
    ((newClientFetcherCache cache).2 = true ↔ 0 < lastGiven some cache 300000000000) := by
  have hp := foldl_field TLSOption.apply (·.tlsPort) TLSOption.portOf (by intro o x; cases o <;> rfl) tls
    { tlsPort := 443, rootCAs := none }
  have hr := foldl_field TLSOption.apply (·.rootCAs) TLSOption.rootCAsOf (by intro o x; cases o <;> rfl) tls
    { tlsPort := 443, rootCAs := none }
  refine ⟨?_, ?_, ?_, ?_⟩
  · unfold TLSConfig.fetch newClientFetcherTLS
    rw [hp, hr]
  · unfold dnskeyClient newDNSOverHTTPS newClientFetcherDNSKEY
    rw [← foldl_last]
    rfl
  · exact foldl_last cache 300000000000
  · rw [← foldl_last]
    exact decide_eq_true_iff

/-- **C143**, packets and requests: a client sends each `Write` at once, the server collects its response; a process
request asks for a reply as the last option says, or else does. -/
theorem C143_packets (id : ID) (counter : BitVec 64) (message : Bytes) (opts : List Bool) (hl : message.length < 2 ^ 64) :
    clientUDPBuffered = false ∧ serverUDPBuffered = true ∧
    (newProcessRequestWith id counter message opts).bytes =
      Wire.processRequest (lastGiven some opts true) id.val counter.toNat message := by
  refine ⟨rfl, rfl, ?_⟩
  unfold newProcessRequestWith
  rw [foldl_last]
  exact C04_process_request_layout id counter message _ hl

/-! ## Examples -/

namespace OptionsExample

/-- Options given twice, in between others; and none. -/
example : lastGiven ClientOption.readTimeoutOf [.readTimeout 7, .expectReply false, .readTimeout 9, .writeTimeout 1]
      5000000000 = 9 ∧
    lastGiven ClientOption.expectReplyOf [.readTimeout 7, .expectReply false, .writeTimeout 1] true = false ∧
    lastGiven ClientOption.keepAliveOf [.readTimeout 7] false = false := by decide

open HandshakeExample in
/-- What a dial over TCP gives: the timeouts of the client, and whether it expects replies. -/
def dialled (opts : List ClientOption) : Option (Int × Int × Bool) :=
  match (dialWith env (fun _ => .error .eof) (fun b => if b then none else some .eof) false (.ok (str "example.com")) opts
      (start (.tcp [.data (HandshakeExample.answer 4)]))).1 with
  | .val (.ok c) => some (c.readTimeout, c.writeTimeout, c.expectReply)
  | _ => none

/-- The theorem applies: a dial with the key given by the second of two fetchers, with keep-alive, without replies. -/
example : dialled [.keyFetcher (some fun _ => .error .timeout), .expectReply true, .keepAlive true,
      .keyFetcher (some HandshakeExample.env.fetch), .expectReply false, .readTimeout 0] = some (0, 5000000000, false) ∧
    dialled [.keepAlive true] = none ∧ dialled [.keyFetcher (some HandshakeExample.env.fetch)] = none ∧
    dialled [.keepAlive true, .keyFetcher (some HandshakeExample.env.fetch), .keyFetcher none] = none := by
  decide +kernel

example : (newServer [.readTimeout 5, .secretManager (some (.inMemory [.ttl 3, .ttl 4])), .readTimeout 6] true []).map
    (fun r => (r.1.readTimeout, r.1.writeTimeout, r.2.world.mgrs.map (·.ttl))) =
    some (6, 5000000000, [900000000000, 4]) := by decide

end OptionsExample

end Goe2ee
