import Verif.Model.KeySources
import Verif.Props.Sign

/-!
# C70–C73: where long-term keys come from
-/

set_option autoImplicit false

namespace Goe2ee

/-! ## C70: the TLS fetcher -/

theorem tlsAddress_eq (host : Bytes) (port : Nat) :
    tlsAddress host port = host ++ str ":" ++ formatUint port := by
  rw [tlsAddress, show str ":" = [58#8] by decide +kernel, List.append_assoc, List.singleton_append]

/-- From the host name to the key. -/
theorem tlsKey_run (env : TLSEnv) (host : Bytes) (s : TLSState) (cert : Cert)
    (hcert : env.certs.head? = some cert) :
    ∃ key err s', (tlsKey host).run (tlsExec env) s = (.val (key, err), s') ∧ s'.opened = s.opened ∧
      s'.closed = s.closed ∧
      (err = none → key = cert.publicKey ∧ env.verifyHostname host = none ∧
        s.now + env.tick ≤ cert.notAfter ∧ cert.notBefore ≤ s'.now ∧ s'.now = s.now + 2 * env.tick) ∧
      (env.verifyHostname host = none → s.now + env.tick ≤ cert.notAfter →
        cert.notBefore ≤ s.now + 2 * env.tick → key = cert.publicKey ∧ err = none) := by
  obtain ⟨certs, hcs⟩ : ∃ certs, env.certs = cert :: certs := by
    cases h : env.certs with
    | nil => rw [h] at hcert; cases hcert
    | cons c cs => rw [h] at hcert; cases hcert; exact ⟨cs, rfl⟩
  unfold tlsKey
  simp only [Prog.run, tlsExec]
  cases hv : env.verifyHostname host with
  | some e => exact ⟨_, _, _, rfl, rfl, rfl, (fun h => by cases h), (fun h => by cases h)⟩
  | none =>
  simp only [Prog.run, tlsExec, hcs]
  unfold tlsNotAfter
  split
  · rename_i h1
    exact ⟨_, _, _, rfl, rfl, rfl, (fun h => by cases h), (fun _ h => by omega)⟩
  rename_i h1
  simp only [Prog.run, tlsExec]
  unfold tlsNotBefore
  split
  · rename_i h2
    exact ⟨_, _, _, rfl, rfl, rfl, (fun h => by cases h), (fun _ _ h => by omega)⟩
  rename_i h2
  refine ⟨_, _, _, rfl, rfl, rfl, fun _ => ⟨rfl, trivial, ?_, ?_, ?_⟩, fun _ _ _ => ⟨rfl, rfl⟩⟩
  · omega
  · show cert.notBefore ≤ s.now + (env.tick : Int) + (env.tick : Int); omega
  · show s.now + (env.tick : Int) + (env.tick : Int) = _; omega

/-- **C70.** A key is returned without an error only if the connection was established to `host:port`,
the certificate matches the host, the key is that of the first certificate, and that certificate was
valid at some instant during the call. -/
theorem C70_key_is_certified (env : TLSEnv) (port : Nat) (host : Bytes) (s s' : TLSState)
    (key : PublicKey) (h : (tlsFetch port host).run (tlsExec env) s = (.val (key, none), s')) :
    env.dial (host ++ str ":" ++ formatUint port) = none ∧ env.verifyHostname host = none ∧
    ∃ cert, env.certs.head? = some cert ∧ key = cert.publicKey ∧
      (cert.notBefore ≤ cert.notAfter →
        ∃ t, s.now ≤ t ∧ t ≤ s'.now ∧ cert.notBefore ≤ t ∧ t ≤ cert.notAfter) := by
  unfold tlsFetch at h
  simp only [Prog.run, tlsExec, tlsAddress_eq] at h
  generalize host ++ str ":" ++ formatUint port = a at h ⊢
  cases hd : env.dial a with
  | some e => rw [hd] at h; cases h
  | none =>
  rw [hd] at h
  dsimp only at h
  rw [Prog.run_bind] at h
  cases hcs : env.certs with
  | nil =>
    have hp : ∀ s, (tlsKey host).run (tlsExec env) s = (.panic "index out of range", s) ∨
        ∃ e, (tlsKey host).run (tlsExec env) s = (.val (.nilIface, some e), s) := by
      intro s
      unfold tlsKey
      simp only [Prog.run, tlsExec]
      cases env.verifyHostname host with
      | some e => exact .inr ⟨e, rfl⟩
      | none => simp only [Prog.run, tlsExec, hcs]; exact .inl trivial
    obtain hp | ⟨e, hp⟩ := hp _
    · rw [hp] at h; cases h
    · rw [hp] at h
      simp only [Prog.run, tlsExec] at h
      cases hc : env.close <;> rw [hc] at h <;> cases h
  | cons cert certs =>
  obtain ⟨k, err, s₁, h1, -, -, h2, -⟩ := tlsKey_run env host
    (if (none : Option Err).isSome then s else { s with opened := s.opened + 1 }) cert (by rw [hcs]; rfl)
  rw [h1] at h
  simp only [Prog.run, tlsExec] at h
  cases hc : env.close with
  | some e => rw [hc] at h; cases h
  | none =>
  rw [hc] at h
  cases h
  obtain ⟨rfl, hv, h3, h4, h5⟩ := h2 rfl
  simp only [Option.isSome_none, Bool.false_eq_true, if_false] at h3 h5
  refine ⟨rfl, hv, cert, rfl, rfl, fun hle =>
    ⟨max (s.now + env.tick) cert.notBefore, ?_, ?_, ?_, ?_⟩⟩ <;> (try dsimp only) <;> omega

/-- **C70.** Conversely the key is returned if the server is reachable, its certificate matches and is
valid throughout the call, and closing the connection succeeds. -/
theorem C70_succeeds (env : TLSEnv) (port : Nat) (host : Bytes) (s : TLSState) (cert : Cert)
    (hd : env.dial (host ++ str ":" ++ formatUint port) = none) (hv : env.verifyHostname host = none)
    (hcert : env.certs.head? = some cert) (hb : cert.notBefore ≤ s.now)
    (ha : s.now + 2 * env.tick ≤ cert.notAfter) (hc : env.close = none) :
    ((tlsFetch port host).run (tlsExec env) s).1 = .val (cert.publicKey, none) := by
  unfold tlsFetch
  simp only [Prog.run, tlsExec, tlsAddress_eq]
  rw [hd]
  dsimp only
  rw [Prog.run_bind]
  obtain ⟨k, err, s₁, h1, -, -, -, h2⟩ := tlsKey_run env host
    (if (none : Option Err).isSome then s else { s with opened := s.opened + 1 }) cert hcert
  simp only [Option.isSome_none, Bool.false_eq_true, if_false] at h1 h2 ⊢
  rw [h1]
  obtain ⟨rfl, rfl⟩ := h2 hv (by omega) (by omega)
  simp only [Prog.run, tlsExec, hc]

/-- **C70.** Every connection is closed, exactly once, whatever goes wrong (after a TLS handshake there
is a peer certificate); and there is no panic. -/
theorem C70_closes (env : TLSEnv) (port : Nat) (host : Bytes) (s : TLSState) (hcerts : env.certs ≠ []) :
    ∃ r s', (tlsFetch port host).run (tlsExec env) s = (.val r, s') ∧
      ((s'.opened = s.opened ∧ s'.closed = s.closed) ∨
       (s'.opened = s.opened + 1 ∧ s'.closed = s.closed + 1)) := by
  unfold tlsFetch
  simp only [Prog.run, tlsExec]
  cases hd : env.dial (tlsAddress host port) with
  | some e => exact ⟨_, _, rfl, .inl ⟨rfl, rfl⟩⟩
  | none =>
  dsimp only
  rw [Prog.run_bind]
  obtain ⟨cert, hcert⟩ : ∃ cert, env.certs.head? = some cert := by
    cases h : env.certs with
    | nil => exact absurd h hcerts
    | cons c cs => exact ⟨c, rfl⟩
  obtain ⟨k, err, s₁, h1, h2, h3, -⟩ := tlsKey_run env host
    (if (none : Option Err).isSome then s else { s with opened := s.opened + 1 }) cert hcert
  rw [h1]
  simp only [Prog.run, tlsExec]
  simp only [Option.isSome_none, Bool.false_eq_true, if_false] at h2 h3
  cases env.close with
  | none => exact ⟨_, _, rfl, .inr ⟨h2, by show s₁.closed + 1 = _; rw [h3]⟩⟩
  | some e => exact ⟨_, _, rfl, .inr ⟨h2, by show s₁.closed + 1 = _; rw [h3]⟩⟩

namespace TLSExample
/-- A server with a certificate for "h", valid from 100 to 200; the clock takes 5 per reading. -/
def env : TLSEnv :=
  { dial := fun a => if a = str "h:443" then none else some .eof,
    verifyHostname := fun h => if h = str "h" then none else some (.other "x509"),
    certs := [⟨100, 200, .ed25519 [1, 2, 3]⟩, ⟨0, 1000, .nilIface⟩], tick := 5, close := none }
/-- The result of a fetch at time `t`: has it a key, has it an error, and the connections. -/
def fetch (port : Nat) (host : Bytes) (t : Int) : Option (PublicKey × Bool) × Nat × Nat :=
  let r := (tlsFetch port host).run (tlsExec env) ⟨t, 0, 0⟩
  (match r.1 with | .val x => some (x.1, x.2.isSome) | .panic _ => none, r.2.opened, r.2.closed)
end TLSExample

/-- In time; expired; too early; valid from the second reading of the clock on; wrong port. -/
example : TLSExample.fetch 443 (str "h") 150 = (some (.ed25519 [1, 2, 3], false), 1, 1) ∧
    TLSExample.fetch 443 (str "h") 196 = (some (.nilIface, true), 1, 1) ∧
    TLSExample.fetch 443 (str "h") 80 = (some (.nilIface, true), 1, 1) ∧
    TLSExample.fetch 443 (str "h") 90 = (some (.ed25519 [1, 2, 3], false), 1, 1) ∧
    TLSExample.fetch 444 (str "h") 150 = (some (.nilIface, true), 0, 0) := by decide +kernel

/-! ## C71: the address of the TLS fetcher -/

/-- **C71**, in full: for every host that the client takes from an address it was given, the TLS fetcher
dials that host (and the configured port). -/
def C71_claim : Prop :=
  ∀ (hostport host port' : Bytes) (port : Nat), splitHostPort hostport = .ok (host, port') →
    splitHostPort (tlsAddress host port) = .ok (host, formatUint port)

/-- **C71** fails for IPv6 addresses: `[::1]:8080` has the host `::1`, and the fetcher dials `::1:443`,
which is refused ("too many colons"). -/
theorem C71_refuted : ¬ C71_claim := by
  intro h
  have h0 : (splitHostPort (str "[::1]:8080")).toOption = some (str "::1", str "8080") := by
    decide +kernel
  have h1 := h (str "[::1]:8080") (str "::1") (str "8080") 443 (by
    cases hs : splitHostPort (str "[::1]:8080") with
    | error e => rw [hs] at h0; cases h0
    | ok r => rw [hs] at h0; exact congrArg Except.ok (Option.some.inj h0))
  have h2 : (splitHostPort (tlsAddress (str "::1") 443)).toOption = none := by decide +kernel
  rw [h1] at h2
  cases h2

theorem formatUint_digits (n : Nat) : ∀ b ∈ formatUint n, b ≠ 58#8 ∧ b ≠ 91#8 ∧ b ≠ 93#8 := by
  intro b hb
  obtain ⟨c, hc, rfl⟩ := List.mem_map.mp hb
  have hd := Nat.isDigit_of_mem_toDigits (by omega) (by omega) hc
  simp only [Char.isDigit, Bool.and_eq_true, decide_eq_true_eq, ge_iff_le] at hd
  have h1 : 48 ≤ c.toNat := hd.1
  have h2 : c.toNat ≤ 57 := hd.2
  have h3 : (BitVec.ofNat 8 c.toNat).toNat = c.toNat := by
    rw [BitVec.toNat_ofNat, Nat.mod_eq_of_lt (by omega)]
  refine ⟨?_, ?_, ?_⟩ <;> (intro h; rw [h] at h3; simp at h3; omega)

theorem idxOf?_append_cons (a : Byte) (xs ys : Bytes) (h : ∀ b ∈ xs, b ≠ a) :
    (xs ++ a :: ys).idxOf? a = some xs.length := by
  induction xs with
  | nil => simp [List.idxOf?, List.findIdx?_cons]
  | cons x xs ih =>
    have hx : x ≠ a := h x (by simp)
    have := ih fun b hb => h b (by simp [hb])
    simp only [List.idxOf?] at this
    simp [List.idxOf?, List.findIdx?_cons, hx, this]

/-- **C71**, what holds: a host without `:`, `[`, `]` (a name or an IPv4 address) is dialled as given. -/
theorem C71_names_partial (host : Bytes) (port : Nat)
    (h : ∀ b ∈ host, b ≠ 58#8 ∧ b ≠ 91#8 ∧ b ≠ 93#8) :
    splitHostPort (tlsAddress host port) = .ok (host, formatUint port) := by
  have hf := formatUint_digits port
  unfold tlsAddress
  generalize formatUint port = ds at hf
  have hidx : (host ++ 58#8 :: ds).reverse.idxOf? 58#8 = some ds.length := by
    have := idxOf?_append_cons 58#8 ds.reverse host.reverse fun b hb => (hf b (by simpa using hb)).1
    simpa using this
  have hi : (host ++ 58#8 :: ds).length - 1 - ds.length = host.length := by simp
  have hc (x : Byte) (hx : x ≠ 58#8) (h1 : ∀ b ∈ host, b ≠ x) (h2 : ∀ b ∈ ds, b ≠ x) :
      (host ++ 58#8 :: ds).contains x = false := by
    simp only [List.contains_eq_mem, decide_eq_false_iff_not, List.mem_append, List.mem_cons]
    rintro (hm | hm | hm)
    · exact h1 x hm rfl
    · exact hx hm
    · exact h2 x hm rfl
  have hb := hc 91#8 (by decide) (fun b hb => (h b hb).2.1) (fun b hb => (hf b hb).2.1)
  have he := hc 93#8 (by decide) (fun b hb => (h b hb).2.2) (fun b hb => (hf b hb).2.2)
  have hhead : (host ++ 58#8 :: ds).head? ≠ some 91#8 := by
    intro hh
    have := List.mem_of_mem_head? hh
    rw [List.contains_eq_mem, decide_eq_false_iff_not] at hb
    exact hb this
  have hcol : host.contains 58#8 = false := by
    rw [List.contains_eq_mem, decide_eq_false_iff_not]
    exact fun hm => (h _ hm).1 rfl
  unfold splitHostPort
  rw [hidx]
  dsimp only
  rw [hi, if_neg hhead, List.take_left, hcol, hb, he]
  simp

example : splitHostPort (tlsAddress (str "example.com") 443) = .ok (str "example.com", str "443") ∧
    tlsAddress (str "10.0.0.1") 8443 = str "10.0.0.1:8443" := by
  refine ⟨?_, by decide +kernel⟩
  rw [C71_names_partial _ _ (by decide +kernel), show formatUint 443 = str "443" by decide +kernel]

/-- What follows the bracket decides the error. -/
example : (match splitHostPort (str "[::1]:80:90") with | .error e => some e | .ok _ => none) =
      some (.other "too many colons in address") ∧
    (match splitHostPort (str "[::1]x:80") with | .error e => some e | .ok _ => none) =
      some (.other "missing port in address") := by
  decide +kernel

/-! ## C72: server keys from PEM files and generated keys -/

section
variable {C : Crypto}

/-- A key that every operation of the manager supports. -/
theorem C72_supported (privateKey : PrivateKey C) (h : ∀ tag, privateKey ≠ .otherType tag) :
    ∃ algorithm key, fetchServerKey privateKey = .ok (algorithm, key) ∧
      (algorithm = 1 ∨ algorithm = 2 ∨ algorithm = 3) := by
  cases privateKey with
  | rsa k => exact ⟨_, _, rfl, .inl rfl⟩
  | ecdsa k => exact ⟨_, _, rfl, .inr (.inl rfl)⟩
  | ed25519 k => exact ⟨_, _, rfl, .inr (.inr rfl)⟩
  | otherType t => exact absurd rfl (h t)

/-- **C72.** A manager loaded from PEM holds exactly the PKCS #8 key of the first block, which was a
block of type `PRIVATE KEY`; it can publish its key, and whatever it signs verifies with that key. -/
theorem C72_pem_manager_works (hC : C.Lawful) (P : Pem C) (input : Except Err Bytes)
    (privateKey : PrivateKey C) (h : serverManagerParsePEM P input = .ok privateKey) :
    (∃ data der, input = .ok data ∧ P.decode data = some (str "PRIVATE KEY", der) ∧
      P.parsePKCS8 der = .ok privateKey) ∧
    ∃ algorithm key, fetchServerKey privateKey = .ok (algorithm, key) ∧
      ∀ random hash content sig, signServer privateKey random hash content = .ok sig →
        verifySignature C key hash content sig = .val (.ok true) := by
  unfold serverManagerParsePEM at h
  cases input with
  | error e => cases h
  | ok data =>
  dsimp only at h
  cases hd : P.decode data with
  | none => rw [hd] at h; cases h
  | some b =>
  obtain ⟨type, der⟩ := b
  rw [hd] at h
  dsimp only at h
  split at h
  · cases h
  rename_i ht
  have ht : type = str "PRIVATE KEY" := Decidable.not_not.mp ht
  subst ht
  have hsup : P.parsePKCS8 der = .ok privateKey ∧ ∀ tag, privateKey ≠ .otherType tag := by
    cases hp : P.parsePKCS8 der with
    | error e => rw [hp] at h; cases h
    | ok k => rw [hp] at h; cases k <;> cases h <;> exact ⟨rfl, fun _ h => by cases h⟩
  refine ⟨⟨data, der, rfl, hd, hsup.1⟩, ?_⟩
  obtain ⟨algorithm, key, hk, -⟩ := C72_supported privateKey hsup.2
  refine ⟨algorithm, key, hk, fun random hash content sig hs => ?_⟩
  obtain ⟨a', k', h1, -, -, h2⟩ := C40_signature_verifies hC privateKey random hash content sig hs
  rw [hk] at h1
  cases h1
  exact h2

/-- **C72.** A key of a type that the server cannot use (X25519, say) is refused when it is loaded. -/
theorem C72_pem_refuses (P : Pem C) (data der type : Bytes) (tag : Nat)
    (hd : P.decode data = some (type, der)) (hk : P.parsePKCS8 der = .ok (.otherType tag)) :
    ∃ e, serverManagerParsePEM P (.ok data) = .error e := by
  unfold serverManagerParsePEM
  simp only [hd, hk]
  split <;> exact ⟨_, rfl⟩

/-- **C72.** A generated key has the requested algorithm (the tag that `FetchKey` reports); and
exactly the tags 1, 2, 3 are supported. -/
theorem C72_generated_algorithm (G : KeyGen C) (algorithm : KeyAlgorithm) (privateKey : PrivateKey C)
    (h : generateOnTheFly G algorithm = .ok privateKey) :
    ∃ key, fetchServerKey privateKey = .ok (algorithm, key) := by
  unfold generateOnTheFly at h
  split at h
  · rename_i ha; subst ha; cases hg : G.rsa 2048 <;> rw [hg] at h <;> cases h; exact ⟨_, rfl⟩
  split at h
  · rename_i ha; subst ha; cases hg : G.ecdsa curveP521 <;> rw [hg] at h <;> cases h; exact ⟨_, rfl⟩
  split at h
  · rename_i ha; subst ha; cases hg : G.ed25519 <;> rw [hg] at h <;> cases h; exact ⟨_, rfl⟩
  · cases h

theorem C72_generates (G : KeyGen C) (r : C.RSAPriv) (e : C.ECDSAPriv) (d : C.EdPriv)
    (hr : G.rsa 2048 = .ok r) (he : G.ecdsa curveP521 = .ok e) (hd : G.ed25519 = .ok d) (algorithm : KeyAlgorithm) :
    (∃ k, generateOnTheFly G algorithm = .ok k) ↔ algorithm = 1 ∨ algorithm = 2 ∨ algorithm = 3 := by
  unfold generateOnTheFly keyAlgorithmRSA keyAlgorithmECDSA keyAlgorithmED25519
  rw [hr, he, hd]
  by_cases h1 : algorithm = 1
  · simp [h1, Except.map]
  by_cases h2 : algorithm = 2
  · simp [h2, Except.map]
  by_cases h3 : algorithm = 3
  · simp [h3, Except.map]
  · rw [if_neg h1, if_neg h2, if_neg h3]
    exact ⟨fun ⟨k, h⟩ => (by cases h), by rintro (h | h | h) <;> contradiction⟩

/-! ## C73: client keys from PEM files -/

/-- **C73**, in full: a public key that is accepted from a PEM file can be used to verify the server's
signatures (with SHA-256, Go's number 5): verification gives a verdict rather than an error. -/
def C73_claim : Prop :=
  ∀ (C : Crypto) (P : Pem C) (input : Except Err Bytes) (key : PublicKey) (host content sig : Bytes),
    C.Lawful → parseClientFetcherPEM P input = .ok key →
    ∃ key', inMemoryFetch key host = .ok key' ∧ ∃ b, verifySignature C key' 5 content sig = .val (.ok b)

/-- **C73** fails: an X25519 public key in PEM form is accepted, and every handshake with it fails. -/
theorem C73_refuted : ¬ C73_claim := by
  intro h
  let P : Pem Toy.crypto :=
    { decode := fun d => some (str "PUBLIC KEY", d), parsePKCS8 := fun _ => .error .eof }
  obtain ⟨key, h1, b, h2⟩ := h Toy.crypto P (.ok (Toy.crypto.marshalEPub (5 : BitVec 256)))
    (.otherType 0) [] [] [] Toy.lawful (by
      have hp : Toy.crypto.parsePKIX (Toy.crypto.marshalEPub (5 : BitVec 256)) = .ok (.inl (5 : BitVec 256)) :=
        Toy.lawful.parse_marshalEPub _
      unfold parseClientFetcherPEM
      dsimp only [P]
      rw [if_neg (by simp), hp])
  cases h1
  simp [verifySignature] at h2
  split at h2 <;> cases h2

/-- **C73**, what holds: the key in the PEM file of a public key that the server's manager publishes is
fetched for every host, and every signature of that server verifies with it. -/
theorem C73_matching_files_partial (hC : C.Lawful) (P : Pem C) (data raw : Bytes)
    (privateKey : PrivateKey C) (algorithm : KeyAlgorithm) (key : PublicKey)
    (hk : fetchServerKey privateKey = .ok (algorithm, key)) (hraw : C.marshalPKIX key = .ok raw)
    (hpem : P.decode data = some (str "PUBLIC KEY", raw)) :
    parseClientFetcherPEM P (.ok data) = .ok key ∧ ∀ host, inMemoryFetch key host = .ok key ∧
      ∀ random hash content sig, signServer privateKey random hash content = .ok sig →
        verifySignature C key hash content sig = .val (.ok true) := by
  refine ⟨?_, fun host => ⟨rfl, fun random hash content sig hs => ?_⟩⟩
  · unfold parseClientFetcherPEM
    simp only [hpem, hC.parse_marshalPKIX _ _ hraw]
    rw [if_neg (by simp)]
  · obtain ⟨a', k', h1, -, -, h2⟩ := C40_signature_verifies hC privateKey random hash content sig hs
    rw [hk] at h1
    cases h1
    exact h2

/-- **C73**, what holds: a block of another type (a private key, a certificate) is refused. -/
theorem C73_block_type_partial (P : Pem C) (data type der : Bytes)
    (hpem : P.decode data = some (type, der)) (ht : type ≠ str "PUBLIC KEY") :
    ∃ e, parseClientFetcherPEM P (.ok data) = .error e := by
  unfold parseClientFetcherPEM
  simp only [hpem]
  rw [if_pos ht]
  exact ⟨_, rfl⟩

end

namespace PemExample
/-- Files whose first octet says what they contain. -/
def pem : Pem Toy.crypto :=
  { decode := fun d => match d with
      | 1 :: der => some (str "PRIVATE KEY", der)
      | 2 :: der => some (str "PUBLIC KEY", der)
      | _ => none,
    parsePKCS8 := fun der => match der with
      | [3, k] => .ok (.ed25519 (k.setWidth 256))
      | [9] => .ok (.otherType 0)
      | _ => .error (.other "asn1") }
end PemExample

/-- A server and a client that load matching files; unusable files are refused. -/
example :
    let published := (serverManagerParsePEM PemExample.pem (.ok [1, 3, 7])).toOption.bind
      fun k => (fetchServerKey k).toOption
    let raw := (Toy.crypto.marshalPKIX (.ed25519 (Toy.crypto.edPub (7 : BitVec 256)))).toOption.getD []
    published = some (3, .ed25519 (Toy.crypto.edPub (7 : BitVec 256))) ∧
    (parseClientFetcherPEM PemExample.pem (.ok (2 :: raw))).toOption =
      some (.ed25519 (Toy.crypto.edPub (7 : BitVec 256))) ∧
    (serverManagerParsePEM PemExample.pem (.ok [1, 9])).toOption.isNone ∧
    (serverManagerParsePEM PemExample.pem (.ok [2, 3, 7])).toOption.isNone ∧
    (parseClientFetcherPEM PemExample.pem (.ok (1 :: raw))).toOption.isNone := by decide +kernel

end Goe2ee
