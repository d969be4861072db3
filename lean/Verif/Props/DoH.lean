import Verif.Model.DoH
import Verif.Props.Dns
import Verif.Props.URL

/-!
# Fetching a key from DNS, with the HTTP exchange (C146, C147)
-/

set_option autoImplicit false

namespace Goe2ee

open Form

/-- The reply of the provider in terms of `Model/Dns`. -/
def DoHResponse.reply (r : DoHResponse) : DnsReply :=
  { status := r.status, body := match r.body with | .error e => .error e | .ok a => .ok a.decoded }

/-- The one request for the keys of a domain. -/
def keyRequest (provider providerQuery domain : Bytes) : HTTPRequest :=
  { method := str "GET", url := provider, query := dohQuery providerQuery domain, accept := str "application/dns-json" }

theorem loop_noPanic (answers : List Bytes) (key : PublicKey) (e : Option Err) :
    ∃ r, dnskeyLoop answers key e = .val r := by
  induction answers generalizing key e with
  | nil => exact ⟨_, rfl⟩
  | cons t answers ih =>
    obtain ⟨r, hr⟩ := C38_no_panic t
    unfold dnskeyLoop
    rw [hr]
    cases r with
    | error e' => exact ih _ _
    | ok k =>
      dsimp only
      split
      · exact ⟨_, rfl⟩
      · exact ih _ _

theorem dohAnswers_run (env : DoHEnv) (json : DnsJSON) (s : DoHState) :
    ∃ r, (dohAnswers json).run (dohExec env) s = (.val r, s) ∧
      retrievePublicKey (.ok { status := 200, body := .ok json }) = .val r := by
  unfold dohAnswers retrievePublicKey
  simp only [ne_eq, not_true_eq_false, if_false]
  split
  · exact ⟨_, rfl, rfl⟩
  · split
    · exact ⟨_, rfl, rfl⟩
    · obtain ⟨⟨k, e⟩, h⟩ := loop_noPanic json.answers .nilIface none
      rw [h]
      cases e with
      | some e => exact ⟨_, rfl, rfl⟩
      | none =>
        dsimp only
        split
        · exact ⟨_, rfl, rfl⟩
        · exact ⟨_, rfl, rfl⟩

theorem dohStatus_run (env : DoHEnv) (response : DoHResponse) (s : DoHState) (hs : s.current = some response) :
    ∃ r n, (dohStatus response.status).run (dohExec env) s = (.val r, { s with read := s.read + n }) ∧
      (response.status = 200 → n = 1) ∧ (response.status ≠ 200 → n = 0) ∧
      retrievePublicKey (.ok response.reply) = .val r := by
  obtain ⟨sent, current, received, read, closed⟩ := s
  cases hs
  obtain ⟨status, body⟩ := response
  by_cases h : status = 200
  · subst h
    cases body with
    | error e =>
      exact ⟨.error (.wrap "failed to decode DNS over HTTPS response" e), 1, rfl, fun _ => rfl, fun h => absurd rfl h, rfl⟩
    | ok a =>
      obtain ⟨r, h1, h2⟩ := dohAnswers_run env a.decoded
        { sent := sent, current := some ⟨200, .ok a⟩, received := received, read := read + 1, closed := closed }
      exact ⟨r, 1, h1, fun _ => rfl, fun h => absurd rfl h, h2⟩
  · refine ⟨.error (.other "DNS over HTTPS request returned status code"), 0, ?_, fun h' => absurd h' h, fun _ => rfl, ?_⟩
    · unfold dohStatus
      rw [if_pos h]
      rfl
    · unfold retrievePublicKey DoHResponse.reply
      simp only
      rw [if_pos h]

/-- Everything that `Fetch` does. -/
theorem dohFetch_run (env : DoHEnv) (provider domain : Bytes) (s : DoHState) :
    ∃ r s', (dohFetch provider domain).run (dohExec env) s = (.val r, s') ∧
      ((∃ e, env.parseURL provider = .error e ∧ s' = s ∧ ∃ e', r = .error e') ∨
       (∃ q e, env.parseURL provider = .ok q ∧ env.provider (keyRequest provider q domain) = .error e ∧
         s' = { s with sent := s.sent ++ [keyRequest provider q domain] } ∧ ∃ e', r = .error e') ∨
       (∃ q response n, env.parseURL provider = .ok q ∧ env.provider (keyRequest provider q domain) = .ok response ∧
         retrievePublicKey (.ok response.reply) = .val r ∧
         (response.status = 200 → n = 1) ∧ (response.status ≠ 200 → n = 0) ∧
         s' = { sent := s.sent ++ [keyRequest provider q domain], current := some response,
                received := s.received + 1, read := s.read + n, closed := s.closed + 1 })) := by
  cases hq : env.parseURL provider with
  | error e =>
    refine ⟨.error (.wrap "failed to create DNS over HTTPS" e), s, ?_, .inl ⟨e, rfl, rfl, _, rfl⟩⟩
    unfold dohFetch
    simp only [Prog.run, dohExec, hq]
  | ok q =>
    cases hp : env.provider (keyRequest provider q domain) with
    | error e =>
      refine ⟨.error (.wrap "failed to send DNS over HTTPS request" e), _, ?_,
        .inr (.inl ⟨q, e, rfl, hp, rfl, _, rfl⟩)⟩
      unfold dohFetch
      unfold keyRequest at hp
      simp only [Prog.run, dohExec, hq, hp]
      rfl
    | ok response =>
      obtain ⟨r, n, h1, h2, h3, h4⟩ := dohStatus_run env response
        { s with sent := s.sent ++ [keyRequest provider q domain], current := some response, received := s.received + 1 }
        rfl
      refine ⟨r, _, ?_, .inr (.inr ⟨q, response, n, rfl, hp, h4, h2, h3, rfl⟩)⟩
      unfold dohFetch
      unfold keyRequest at hp h1
      simp only [Prog.run, dohExec, hq, hp, Prog.run_bind, h1]
      rfl

/-! ## C146 -/

/-- **C146**, the exchange: there is no panic.  No more than one request is sent, and it is the one that asks for the keys
of the domain, unless the URL of the provider is not a URL.  Every response that is received is closed, once.  The body
is read only if the status is 200. -/
theorem C146_exchange (env : DoHEnv) (provider domain : Bytes) (s : DoHState) :
    ∃ r s', (dohFetch provider domain).run (dohExec env) s = (.val r, s') ∧
      (s'.sent = s.sent ∨ ∃ q request, env.parseURL provider = .ok q ∧ s'.sent = s.sent ++ [request] ∧
        request.method = str "GET" ∧ request.url = provider ∧ request.accept = str "application/dns-json" ∧
        ∃ kept, kept.Sublist (pairs q) ∧ ∀ k, valuesIn (pairs request.query) k = valuesIn (kept ++ keyQuestion domain) k) ∧
      (s'.received = s.received ∧ s'.closed = s.closed ∨
        s'.received = s.received + 1 ∧ s'.closed = s.closed + 1) ∧
      (s'.read ≠ s.read → s'.read = s.read + 1 ∧ ∃ response, s'.current = some response ∧ response.status = 200) := by
  obtain ⟨r, s', h, h'⟩ := dohFetch_run env provider domain s
  refine ⟨r, s', h, ?_⟩
  rcases h' with ⟨e, -, rfl, -⟩ | ⟨q, e, hq, -, rfl, -⟩ | ⟨q, response, n, hq, -, -, h1, h2, rfl⟩
  · exact ⟨.inl rfl, .inl ⟨rfl, rfl⟩, fun h => absurd rfl h⟩
  · exact ⟨.inr ⟨q, _, hq, rfl, rfl, rfl, rfl, C131_parameters q domain⟩, .inl ⟨rfl, rfl⟩, fun h => absurd rfl h⟩
  · refine ⟨.inr ⟨q, _, hq, rfl, rfl, rfl, rfl, C131_parameters q domain⟩, .inr ⟨rfl, rfl⟩, fun h => ?_⟩
    by_cases h200 : response.status = 200
    · exact ⟨by rw [h1 h200], response, rfl, h200⟩
    · exact absurd (by rw [h2 h200]; rfl) h

/-- **C146**, no key without an answer: a key that is returned is in the data of a record of the response to the request
of this call, with status 200 and validated. -/
theorem C146_only_answers (env : DoHEnv) (provider domain : Bytes) (s s' : DoHState) (key : PublicKey)
    (h : (dohFetch provider domain).run (dohExec env) s = (.val (.ok key), s')) :
    ∃ request response answer record, s'.sent = s.sent ++ [request] ∧ env.provider request = .ok response ∧
      response.status = 200 ∧ response.body = .ok answer ∧ answer.authenticatedData = true ∧
      record ∈ answer.records ∧ parseDNSKEY record.data = .val (.ok key) ∧ key ≠ .nilIface := by
  obtain ⟨r, s'', h1, h'⟩ := dohFetch_run env provider domain s
  rw [h] at h1
  cases h1
  rcases h' with ⟨e, -, -, e', h2⟩ | ⟨q, e, -, -, -, e', h2⟩ | ⟨q, response, n, hq, hp, h2, -, -, rfl⟩
  · cases h2
  · cases h2
  · obtain ⟨r, json, pre, text, post, hr, hs, hb, had, ha, hk, hn, -, -⟩ := C39_first_partial _ _ h2
    cases hr
    obtain ⟨status, body⟩ := response
    cases body with
    | error e => cases hb
    | ok answer =>
      cases hb
      have hm : text ∈ answer.records.map (·.data) := by
        show text ∈ answer.decoded.answers
        rw [ha]
        simp
      obtain ⟨record, h3, rfl⟩ := List.mem_map.mp hm
      exact ⟨_, _, answer, record, rfl, hp, hs, rfl, had, h3, hk, hn⟩

/-- A provider that answers questions for DNSKEY records with the validated records of the name that is asked for.  It
reads the query as the URL standard says. -/
def AnswersKeys (env : DoHEnv) (provider : Bytes) (zone : Bytes → List DnsRecord) : Prop :=
  ∀ (request : HTTPRequest) (name : Bytes), request.method = str "GET" → request.url = provider →
    request.accept = str "application/dns-json" → valuesIn (pairs request.query) (str "name") = [name] →
    valuesIn (pairs request.query) (str "type") = [str "DNSKEY"] →
    env.provider request = .ok { status := 200, body := .ok { authenticatedData := true, records := zone name } }

theorem one_type (providerQuery domain : Bytes) (h : ∀ p ∈ pairs providerQuery, p.1 ≠ str "type") :
    valuesIn (pairs (dohQuery providerQuery domain)) (str "type") = [str "DNSKEY"] := by
  obtain ⟨kept, h1, h2⟩ := C131_parameters providerQuery domain
  have h3 : valuesIn kept (str "type") = [] := by
    unfold valuesIn
    rw [List.filter_eq_nil_iff.mpr fun p hp => by simpa using h p (h1.subset hp)]
    rfl
  have h4 : str "name" ≠ str "type" := by decide +kernel
  rw [h2, valuesIn_append, h3]
  simp [valuesIn, keyQuestion, h4]

theorem usable_of_inRange {key : PublicKey} (h : InRange key) : Usable key := by
  unfold InRange at h
  split at h <;> simp_all [Usable]

/-- **C146**, published keys are found: if the operator of the server writes its key as a DNSKEY record, puts it into the
zone of the domain, and no other zone signing key of a supported algorithm comes before it, then `Fetch` for the domain
returns exactly this key. -/
theorem C146_published (env : DoHEnv) (provider providerQuery domain : Bytes) (zone : Bytes → List DnsRecord)
    (key : PublicKey) (pre post : List DnsRecord) (record : DnsRecord) (s : DoHState)
    (hurl : env.parseURL provider = .ok providerQuery)
    (hown : ∀ p ∈ pairs providerQuery, p.1 ≠ str "name" ∧ p.1 ≠ str "type")
    (henv : AnswersKeys env provider zone) (hkey : InRange key)
    (hrecord : buildDNSKEY key = .val (.ok record.data)) (hzone : zone domain = pre ++ record :: post)
    (hpre : ∀ r ∈ pre, ∀ alg raw, ZoneKey r.data alg raw → alg ∉ [5, 7, 8, 10, 13, 14, 15]) :
    ((dohFetch provider domain).run (dohExec env) s).1 = .val (.ok key) := by
  obtain ⟨r, s', h, h'⟩ := dohFetch_run env provider domain s
  rw [h]
  have hp := henv (keyRequest provider providerQuery domain) domain rfl rfl rfl
    (C131_one_name _ _ fun p hp => (hown p hp).1) (one_type _ _ fun p hp => (hown p hp).2)
  rcases h' with ⟨e, hu, -, -⟩ | ⟨q, e, hu, hp', -, -⟩ | ⟨q, response, n, hu, hp', h2, -, -, rfl⟩
  · rw [hurl] at hu
    cases hu
  · rw [hurl] at hu
    cases hu
    rw [hp] at hp'
    cases hp'
  · rw [hurl] at hu
    cases hu
    rw [hp] at hp'
    cases hp'
    obtain ⟨text, h3, h4⟩ := C37_round_trip key hkey
    rw [hrecord] at h3
    cases h3
    have hk : HoldsKey record.data key := (C38_accepts_partial _ _).1.mp ⟨h4, usable_of_inRange hkey⟩
    have h5 := C39_found (DoHResponse.reply { status := 200, body := .ok { authenticatedData := true, records := zone domain } })
      (DnsAnswer.decoded { authenticatedData := true, records := zone domain })
      (pre.map (·.data)) (post.map (·.data)) record.data key rfl rfl rfl (by simp [DnsAnswer.decoded, hzone]) hk
      (fun t ht => by
        obtain ⟨r, hr, rfl⟩ := List.mem_map.mp ht
        exact hpre r hr)
    rw [h5] at h2
    cases h2
    rfl

namespace DoHExample

def key : PublicKey := .ed25519 (List.replicate 32 7)

/-- The zone of "a.example": a key signing key with its signature, then the key. -/
def zone (name : Bytes) : List DnsRecord :=
  if name = str "a.example" then
    [⟨str "a.example.", 48, str "257 3 15 AAAA"⟩,
     ⟨str "a.example.", 46, str "DNSKEY 15 2 3600 1 1 1 a.example. AAAA"⟩,
     ⟨str "a.example.", 48, str "256 3 15 BwcHBwcHBwcHBwcHBwcHBwcHBwcHBwcHBwcHBwcHBwc="⟩]
  else []

/-- A provider whose URL has no query. -/
def env : DoHEnv :=
  { parseURL := fun _ => .ok []
    provider := fun request =>
      match valuesIn (pairs request.query) (str "name"), valuesIn (pairs request.query) (str "type") with
      | [name], [_] => .ok ⟨200, .ok ⟨true, zone name⟩⟩
      | _, _ => .ok ⟨400, .error (.other "bad request")⟩
    closeBody := none }

def result (domain : Bytes) : Res (Except Err PublicKey) × DoHState :=
  (dohFetch (str "https://dns.example/resolve") domain).run (dohExec env) {}

end DoHExample

open DoHExample in
example : AnswersKeys env (str "https://dns.example/resolve") zone := by
  intro request name _ _ _ h1 h2
  simp only [env, h1, h2]

open DoHExample in
example : (match (result (str "a.example")).1 with | .val (.ok k) => k == key | _ => false) = true ∧
    (result (str "a.example")).2.sent.map (·.query) = [str "name=a.example&type=DNSKEY"] ∧
    (result (str "a.example")).2.closed = 1 := by
  decide +kernel

open DoHExample in
example : buildDNSKEY key = .val (.ok (str "256 3 15 BwcHBwcHBwcHBwcHBwcHBwcHBwcHBwcHBwcHBwcHBwc=")) ∧ InRange key :=
  ⟨by decide +kernel, by simp [InRange, key]⟩

open DoHExample in
example : (match (result (str "b.example")).1 with | .val (.error _) => true | _ => false) = true ∧
    (result (str "b.example")).2.closed = 1 := by
  decide +kernel

/-! ## C147 -/

/-- The number of the type DNSKEY (RFC 4034, section 2). -/
def typeDNSKEY : Nat := 48

/-- Names as DNS compares them: without the dot at the end, and with small letters (RFC 4343). -/
def canonicalName (name : Bytes) : Bytes :=
  ((if name.getLast? = some 46#8 then name.dropLast else name)).map fun c =>
    if 65 ≤ c.toNat ∧ c.toNat ≤ 90 then c + 32 else c

/-- A key record of the domain. -/
def DnsRecord.IsKeyOf (r : DnsRecord) (domain : Bytes) : Prop :=
  r.type = typeDNSKEY ∧ canonicalName r.name = canonicalName domain

/-- **C147**, the full claim: a key that is returned is in a DNSKEY record of the domain. -/
def C147_claim : Prop :=
  ∀ (env : DoHEnv) (provider domain : Bytes) (s s' : DoHState) (key : PublicKey),
    (dohFetch provider domain).run (dohExec env) s = (.val (.ok key), s') →
    ∃ request response answer record, s'.sent = s.sent ++ [request] ∧ env.provider request = .ok response ∧
      response.body = .ok answer ∧ record ∈ answer.records ∧ record.IsKeyOf domain ∧
      parseDNSKEY record.data = .val (.ok key)

namespace ForeignExample

/-- The answer of a provider about any name: a text record of another domain. -/
def foreign : DnsRecord := ⟨str "b.example.", 16, str "256 3 15 BwcHBwcHBwcHBwcHBwcHBwcHBwcHBwcHBwcHBwcHBwc="⟩

def env : DoHEnv :=
  { parseURL := fun _ => .ok [], provider := fun _ => .ok ⟨200, .ok ⟨true, [foreign]⟩⟩, closeBody := none }

theorem parses : parseDNSKEY foreign.data = .val (.ok DoHExample.key) := by
  obtain ⟨text, h1, h2⟩ := C37_round_trip DoHExample.key (by simp [InRange, DoHExample.key])
  have h3 : buildDNSKEY DoHExample.key = .val (.ok foreign.data) := by decide +kernel
  rw [h3] at h1
  cases h1
  exact h2

end ForeignExample

/-- **C147 is refuted**: neither the name nor the type of a record is looked at. -/
theorem C147_refuted : ¬ C147_claim := by
  intro h
  obtain ⟨r, s', h1, h2⟩ := dohFetch_run ForeignExample.env [] (str "a.example") {}
  rcases h2 with ⟨e, h3, -, -⟩ | ⟨q, e, -, h3, -, -⟩ | ⟨q, response, n, -, h3, h4, -, -, -⟩
  · cases h3
  · cases h3
  · cases h3
    have h5 : retrievePublicKey (.ok (DoHResponse.reply ⟨200, .ok ⟨true, [ForeignExample.foreign]⟩⟩)) =
        .val (.ok DoHExample.key) := by
      simp only [retrievePublicKey, DoHResponse.reply, DnsAnswer.decoded, List.map_cons, List.map_nil, dnskeyLoop,
        ForeignExample.parses]
      rfl
    rw [h5] at h4
    cases h4
    obtain ⟨request, response, answer, record, -, h6, h7, h8, h9, -⟩ := h _ _ _ _ _ _ h1
    cases h6
    cases h7
    rcases List.mem_singleton.mp h8 with rfl
    exact absurd h9.1 (by decide +kernel)

/-- **C147**, what holds: the key is in a DNSKEY record of the domain if none of the other records in the answer is
written as a zone signing key.  Missing from the full claim: other records that are (`C147_refuted`). -/
theorem C147_partial (env : DoHEnv) (provider domain : Bytes) (s s' : DoHState) (key : PublicKey)
    (hother : ∀ request response answer record, env.provider request = .ok response → response.body = .ok answer →
      record ∈ answer.records → ¬ record.IsKeyOf domain → ∀ alg raw, ¬ ZoneKey record.data alg raw)
    (h : (dohFetch provider domain).run (dohExec env) s = (.val (.ok key), s')) :
    ∃ request response answer record, s'.sent = s.sent ++ [request] ∧ env.provider request = .ok response ∧
      response.body = .ok answer ∧ record ∈ answer.records ∧ record.IsKeyOf domain ∧
      parseDNSKEY record.data = .val (.ok key) := by
  obtain ⟨request, response, answer, record, h1, h2, -, h3, -, h4, h5, h6⟩ := C146_only_answers env provider domain s s' key h
  refine ⟨request, response, answer, record, h1, h2, h3, h4, ?_, h5⟩
  refine Classical.byContradiction fun hn => ?_
  rcases parse_cases record.data with ⟨e, he⟩ | ⟨_, he⟩ | ⟨alg, raw, hz⟩
  · rw [he] at h5
    cases h5
  · rw [he] at h5
    cases h5
    exact h6 rfl
  · exact hother request response answer record h2 h3 h4 hn alg raw hz

/-- Zone signing keys have four fields. -/
theorem zoneKey_spaces {text : Bytes} {alg : Nat} {raw : Bytes} (h : ZoneKey text alg raw) : text.count 32#8 = 3 := by
  obtain ⟨f, p, a, k, ⟨rfl, h1, h2, h3, h4⟩, -⟩ := h
  have h1 := List.count_eq_zero.mpr h1
  have h2 := List.count_eq_zero.mpr h2
  have h3 := List.count_eq_zero.mpr h3
  have h4 := List.count_eq_zero.mpr h4
  have h5 : List.count 32#8 [(32 : Byte)] = 1 := rfl
  have h6 : ∀ l : Bytes, List.count (32 : Byte) l = List.count 32#8 l := fun _ => rfl
  rw [h6] at h1 h2 h3 h4
  rw [List.count_append, List.count_append, List.count_append, List.count_append, List.count_append, List.count_append,
    h5, h1, h2, h3, h4]

/-- A signature and an alias, as they come with DNSKEY records, are not written as zone signing keys. -/
example : (∀ alg raw, ¬ ZoneKey (str "DNSKEY 15 2 3600 1 1 1 a.example. AAAA") alg raw) ∧
    (∀ alg raw, ¬ ZoneKey (str "b.example.") alg raw) :=
  ⟨fun _ _ h => absurd (zoneKey_spaces h) (by decide +kernel), fun _ _ h => absurd (zoneKey_spaces h) (by decide +kernel)⟩

/-- The zone of `DoHExample`: the signature is not a key record of the domain, and is not written as a zone signing key. -/
example : ∀ r ∈ DoHExample.zone (str "a.example"), r.type ≠ 46 → r.IsKeyOf (str "A.example") := by
  intro r hr
  have h1 : DoHExample.zone (str "a.example") =
      [⟨str "a.example.", 48, str "257 3 15 AAAA"⟩,
       ⟨str "a.example.", 46, str "DNSKEY 15 2 3600 1 1 1 a.example. AAAA"⟩,
       ⟨str "a.example.", 48, str "256 3 15 BwcHBwcHBwcHBwcHBwcHBwcHBwcHBwcHBwcHBwcHBwc="⟩] := by decide +kernel
  have h2 : canonicalName (str "a.example.") = canonicalName (str "A.example") := by decide +kernel
  rw [h1] at hr
  simp only [List.mem_cons, List.not_mem_nil, or_false] at hr
  rcases hr with rfl | rfl | rfl
  · exact fun _ => ⟨rfl, h2⟩
  · exact fun h => absurd rfl h
  · exact fun _ => ⟨rfl, h2⟩

end Goe2ee
