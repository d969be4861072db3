import Verif.Proofs.Dns
import Verif.Model.Keys
import Verif.Spec.Toy

/-!
# C37–C39, C62: keys published in DNS
-/

set_option autoImplicit false

namespace Goe2ee

/-- The keys C37 speaks of. -/
def InRange : PublicKey → Prop
  | .rsa (some ⟨some n, e⟩) => 1 ≤ e ∧ e < 2 ^ 31 ∧ 256 ^ 63 ≤ n ∧ n < 256 ^ 512
  | .ecdsa (some ⟨.p256, some x, some y⟩) => x < 2 ^ 256 ∧ y < 2 ^ 256
  | .ecdsa (some ⟨.p384, some x, some y⟩) => x < 2 ^ 384 ∧ y < 2 ^ 384
  | .ed25519 k => k.length = 32
  | _ => False

theorem rsa_material {n e : Nat} (he : 1 ≤ e) (he' : e < 2 ^ 31) (hn : 256 ^ 63 ≤ n)
    (hn' : n < 256 ^ 512) : RsaMaterial (exponentToBuf e ++ natBytes n) n e := by
  have hl : (natBytes e).length ≤ 4 := natBytes_length_le (by omega)
  have hg : 0 < (natBytes e).length := natBytes_length_ge (by simpa using he)
  refine ⟨natBytes e, natBytes n, Or.inl ?_, by omega, hl, natBytes_head e, beDec_natBytes e, he',
    natBytes_length_ge hn, natBytes_length_le hn', natBytes_head n, beDec_natBytes n⟩
  unfold exponentToBuf
  simp only [Int.natAbs_natCast]
  rw [if_pos (by omega)]
  simp

/-- C37: every key in range survives being written as a DNSKEY record and read back. -/
theorem C37_round_trip (key : PublicKey) (h : InRange key) :
    ∃ text, buildDNSKEY key = .val (.ok text) ∧ parseDNSKEY text = .val (.ok key) := by
  have s10 : str "256 3 10 " = [50, 53, 54] ++ [32] ++ [51] ++ [32] ++ [49, 48] ++ [32] := by
    decide +kernel
  have s13 : str "256 3 13 " = [50, 53, 54] ++ [32] ++ [51] ++ [32] ++ [49, 51] ++ [32] := by
    decide +kernel
  have s14 : str "256 3 14 " = [50, 53, 54] ++ [32] ++ [51] ++ [32] ++ [49, 52] ++ [32] := by
    decide +kernel
  have s15 : str "256 3 15 " = [50, 53, 54] ++ [32] ++ [51] ++ [32] ++ [49, 53] ++ [32] := by
    decide +kernel
  match key, h with
  | .rsa (some ⟨some n, e⟩), ⟨h1, h2, h3, h4⟩ =>
    obtain ⟨m, rfl⟩ : ∃ m : Nat, e = m := ⟨e.toNat, by omega⟩
    refine ⟨str "256 3 10 " ++ b64Encode (exponentToBuf m ++ natBytes n), ?_, ?_⟩
    · unfold buildDNSKEY
      simp only
      rw [if_neg (by omega)]
    · rw [s10, parse_zoneKey (zoneKey_build (alg := 10) (by unfold Numeral; decide) (by decide)
        (by decide))]
      exact material_accepts (.rsa (by decide) (rsa_material (by omega) (by omega) h3 h4))
  | .ecdsa (some ⟨.p256, some x, some y⟩), ⟨hx, hy⟩ =>
    refine ⟨_, rfl, ?_⟩
    rw [s13, parse_zoneKey (zoneKey_build (alg := 13) (by unfold Numeral; decide) (by decide)
      (by decide))]
    have := Material.p256 (x := intToBytes x 32) (y := intToBytes y 32)
      (intToBytes_length (by simpa using hx)) (intToBytes_length (by simpa using hy))
    rw [beDec_intToBytes, beDec_intToBytes] at this
    exact material_accepts this
  | .ecdsa (some ⟨.p384, some x, some y⟩), ⟨hx, hy⟩ =>
    refine ⟨_, rfl, ?_⟩
    rw [s14, parse_zoneKey (zoneKey_build (alg := 14) (by unfold Numeral; decide) (by decide)
      (by decide))]
    have hp : (2 : Nat) ^ 384 = 256 ^ 48 := by rw [show (256 : Nat) = 2 ^ 8 from rfl, ← Nat.pow_mul]
    have := Material.p384 (x := intToBytes x 48) (y := intToBytes y 48)
      (intToBytes_length (hp ▸ hx)) (intToBytes_length (hp ▸ hy))
    rw [beDec_intToBytes, beDec_intToBytes] at this
    exact material_accepts this
  | .ed25519 k, h =>
    have h : k.length = 32 := h
    refine ⟨str "256 3 15 " ++ b64Encode k, ?_, ?_⟩
    · unfold buildDNSKEY
      simp only
      rw [if_neg (by omega)]
    · rw [s15, parse_zoneKey (zoneKey_build (alg := 15) (by unfold Numeral; decide) (by decide)
        (by decide))]
      exact material_accepts (.ed25519 h)

/-- Leading zero octets: a point with small coordinates. -/
example : ∃ text, buildDNSKEY (.ecdsa (some ⟨.p256, some 1, some 0⟩)) = .val (.ok text) ∧
    parseDNSKEY text = .val (.ok (.ecdsa (some ⟨.p256, some 1, some 0⟩))) :=
  C37_round_trip _ ⟨by decide, by decide⟩

/-- Out of range: an exponent of 32 bits is written but not read back. -/
example : (match buildDNSKEY (.rsa (some ⟨some (256 ^ 63), 2 ^ 31⟩)) with
    | .val (.ok text) =>
      (match parseDNSKEY text with | .val (.ok (.rsa none)) => true | _ => false)
    | _ => false) = true := by decide +kernel

/-! ### C38 -/

/-- C38: parsing never panics. -/
theorem C38_no_panic (text : Bytes) : ∃ r, parseDNSKEY text = .val r := by
  rcases parse_cases text with ⟨e, h⟩ | ⟨_, h⟩ | ⟨alg, raw, h⟩
  · exact ⟨_, h⟩
  · exact ⟨_, h⟩
  · rw [parse_zoneKey h]
    exact material_total alg raw

/-- C38 as stated: parsing returns an error, "not a zone signing key", or a usable key.  False. -/
def C38_claim : Prop :=
  ∀ text key, parseDNSKEY text = .val (.ok key) → key = .nilIface ∨ Usable key

/-- C38: exactly the well-formed zone signing keys give a usable key, the key they encode; exactly
the four-field records with other flags are not zone signing keys.  Missing from the full claim: an
error for a malformed key (`C38_malformed`, `C38_malformed_accepted`). -/
theorem C38_accepts_partial (text : Bytes) (key : PublicKey) :
    (parseDNSKEY text = .val (.ok key) ∧ Usable key ↔
      ∃ alg raw, ZoneKey text alg raw ∧ Material alg raw key) ∧
    (parseDNSKEY text = .val (.ok .nilIface) ↔
      ∃ f p a k v, Fields text f p a k ∧ Numeral f v ∧ v ≠ 256 ∧ v < 2 ^ 16) := by
  have hmat : ∀ {alg : Nat} {raw : Bytes}, dnskeyMaterial alg raw ≠ .val (.ok .nilIface) := by
    intro alg raw h
    unfold dnskeyMaterial at h
    split at h
    · obtain ⟨k, hk⟩ := rsa_total raw
      rw [hk] at h
      cases h
    · split at h
      · cases h
      · split at h <;> cases h
  refine ⟨⟨?_, ?_⟩, ?_, ?_⟩
  · rintro ⟨h, hu⟩
    rcases parse_cases text with ⟨e, h'⟩ | ⟨_, h'⟩ | ⟨alg, raw, h'⟩
    · rw [h] at h'; cases h'
    · rw [h] at h'; cases h'; exact hu.elim
    · rw [parse_zoneKey h'] at h
      exact ⟨alg, raw, h', material_inv h hu⟩
  · rintro ⟨alg, raw, hz, hm⟩
    refine ⟨by rw [parse_zoneKey hz]; exact material_accepts hm, ?_⟩
    cases hm with
    | rsa => rfl
    | p256 => exact ⟨rfl, rfl⟩
    | p384 => exact ⟨rfl, rfl⟩
    | ed25519 h => exact h
  · intro h
    rcases parse_cases text with ⟨e, h'⟩ | ⟨h', _⟩ | ⟨alg, raw, h'⟩
    · rw [h] at h'; cases h'
    · exact h'
    · rw [parse_zoneKey h'] at h
      exact absurd h hmat
  · rintro ⟨f, p, a, k, v, hf, hn, hne, hlt⟩
    unfold parseDNSKEY
    rw [fields_iff.mpr hf]
    simp only
    rw [parseUint_iff.mpr ⟨hn, hlt⟩]
    simp [hne]

/-- C38, what happens instead of an error: a zone signing key of a supported algorithm with malformed
material is accepted, and the result is a key that is neither nil nor usable. -/
theorem C38_malformed (text raw : Bytes) (alg : Nat) (hz : ZoneKey text alg raw)
    (halg : alg ∈ [5, 7, 8, 10, 13, 14, 15]) (hbad : ∀ key, ¬ Material alg raw key) :
    ∃ key, parseDNSKEY text = .val (.ok key) ∧ key ≠ .nilIface ∧ ¬ Usable key := by
  rw [parse_zoneKey hz]
  have hex : ∃ key, dnskeyMaterial alg raw = .val (.ok key) ∧ key ≠ .nilIface := by
    obtain ⟨k, hk⟩ := rsa_total raw
    simp only [List.mem_cons, List.not_mem_nil, or_false] at halg
    unfold dnskeyMaterial
    rw [hk]
    rcases halg with rfl | rfl | rfl | rfl | rfl | rfl | rfl <;> exact ⟨_, rfl, by simp⟩
  obtain ⟨key, h, hn⟩ := hex
  exact ⟨key, h, hn, fun hu => hbad key (material_inv h hu)⟩

namespace DnsExample

/-- An Ed25519 key of three octets. -/
def short : Bytes := [50, 53, 54, 32, 51, 32, 49, 53, 32, 65, 65, 65, 65]

example : short = str "256 3 15 AAAA" := by decide +kernel

/-- An Ed25519 key of 32 zero octets. -/
def good : Bytes := [50, 53, 54, 32, 51, 32, 49, 53, 32] ++ b64Encode (List.replicate 32 0)

theorem short_parse : parseDNSKEY short = .val (.ok (.ed25519 [])) := rfl

theorem good_parse : parseDNSKEY good = .val (.ok (.ed25519 (List.replicate 32 0))) := rfl

end DnsExample
open DnsExample

/-- C38 fails: an Ed25519 record with a key of three octets is accepted. -/
theorem C38_malformed_accepted : ¬ C38_claim := by
  intro h
  rcases h short _ short_parse with h | h
  · cases h
  · simp [Usable] at h

/-- `C38_malformed` applies to it. -/
example : ∃ key, parseDNSKEY short = .val (.ok key) ∧ key ≠ .nilIface ∧ ¬ Usable key :=
  ⟨_, short_parse, by simp, by simp [Usable]⟩

example : (parseDNSKEY good = .val (.ok (.ed25519 (List.replicate 32 0)))
    ∧ Usable (.ed25519 (List.replicate 32 0))) := ⟨good_parse, rfl⟩

/-! ### C39 -/

/-- A record that holds a usable zone signing key. -/
def HoldsKey (text : Bytes) (key : PublicKey) : Prop :=
  ∃ alg raw, ZoneKey text alg raw ∧ Material alg raw key

/-- C39 as stated: a key is returned only from a validated answer with status 200, and it is the first
usable zone signing key.  False. -/
def C39_claim : Prop :=
  ∀ (reply : Except Err DnsReply) (key : PublicKey), retrievePublicKey reply = .val (.ok key) →
    ∃ r json pre text post, reply = .ok r ∧ r.status = 200 ∧ r.body = .ok json ∧
      json.authenticatedData = true ∧ json.answers = pre ++ text :: post ∧ HoldsKey text key ∧
      ∀ t ∈ pre, ∀ k, ¬ HoldsKey t k

theorem loop_ok {answers : List Bytes} {key0 key : PublicKey} {e0 : Option Err}
    (h : dnskeyLoop answers key0 e0 = .val (key, none)) (hk : key ≠ .nilIface) (h0 : key0 = .nilIface) :
    ∃ pre text post, answers = pre ++ text :: post ∧ parseDNSKEY text = .val (.ok key) ∧
      ∀ t ∈ pre, (∃ e, parseDNSKEY t = .val (.error e)) ∨ parseDNSKEY t = .val (.ok .nilIface) := by
  induction answers generalizing key0 e0 with
  | nil =>
    simp only [dnskeyLoop] at h
    cases h
    exact absurd h0 hk
  | cons a answers ih =>
    simp only [dnskeyLoop] at h
    split at h
    · cases h
    · rename_i e he
      obtain ⟨pre, text, post, h1, h2, h3⟩ := ih h rfl
      refine ⟨a :: pre, text, post, by rw [h1]; rfl, h2, ?_⟩
      intro t ht
      rcases List.mem_cons.mp ht with rfl | ht
      · exact Or.inl ⟨e, he⟩
      · exact h3 t ht
    · rename_i k he
      split at h
      · cases h
        exact ⟨[], a, answers, rfl, he, by simp⟩
      · rename_i hnn
        obtain ⟨pre, text, post, h1, h2, h3⟩ := ih h rfl
        refine ⟨a :: pre, text, post, by rw [h1]; rfl, h2, ?_⟩
        intro t ht
        rcases List.mem_cons.mp ht with rfl | ht
        · refine Or.inr ?_
          rw [he, Classical.not_not.mp hnn]
        · exact h3 t ht

/-- C39: a key is returned only from a validated answer with status 200.  If it is usable, it is the
first usable zone signing key; in any case all answers before it are rejected.  Missing from the full
claim: the key may be unusable (`C39_unusable`). -/
theorem C39_first_partial (reply : Except Err DnsReply) (key : PublicKey)
    (h : retrievePublicKey reply = .val (.ok key)) :
    ∃ r json pre text post, reply = .ok r ∧ r.status = 200 ∧ r.body = .ok json ∧
      json.authenticatedData = true ∧ json.answers = pre ++ text :: post ∧
      parseDNSKEY text = .val (.ok key) ∧ key ≠ .nilIface ∧ (Usable key → HoldsKey text key) ∧
      ∀ t ∈ pre, ∀ k, ¬ HoldsKey t k := by
  unfold retrievePublicKey at h
  split at h
  · cases h
  · rename_i r
    split at h
    · cases h
    rename_i hs
    split at h
    · cases h
    rename_i json hb
    split at h
    · cases h
    split at h
    · cases h
    rename_i had
    split at h
    · cases h
    · cases h
    · rename_i k hl
      split at h
      · cases h
      rename_i hne
      cases h
      obtain ⟨pre, text, post, h1, h2, h3⟩ := loop_ok hl hne rfl
      refine ⟨r, json, pre, text, post, rfl, by omega, hb, by simpa using had, h1, h2, hne, ?_, ?_⟩
      · intro hu
        exact (C38_accepts_partial text key).1.mp ⟨h2, hu⟩
      · intro t ht k hk
        have := (C38_accepts_partial t k).1.mpr hk
        rcases h3 t ht with ⟨e, he⟩ | he
        · rw [he] at this
          cases this.1
        · rw [he] at this
          cases this.1
          exact this.2.elim

/-- C39, the other direction: from a validated answer the first zone signing key is returned, if what
comes before it are not zone signing keys of a supported algorithm. -/
theorem C39_found (r : DnsReply) (json : DnsJSON) (pre post : List Bytes) (text : Bytes)
    (key : PublicKey) (hs : r.status = 200) (hb : r.body = .ok json)
    (had : json.authenticatedData = true) (ha : json.answers = pre ++ text :: post)
    (hk : HoldsKey text key)
    (hpre : ∀ t ∈ pre, ∀ alg raw, ZoneKey t alg raw → alg ∉ [5, 7, 8, 10, 13, 14, 15]) :
    retrievePublicKey (.ok r) = .val (.ok key) := by
  obtain ⟨hp, hu⟩ := (C38_accepts_partial text key).1.mpr hk
  have hn : key ≠ .nilIface := by rintro rfl; exact hu.elim
  have hloop : ∀ key0 e0, dnskeyLoop (pre ++ text :: post) key0 e0 = .val (key, none) := by
    clear ha
    induction pre with
    | nil =>
      intro key0 e0
      simp only [List.nil_append, dnskeyLoop, hp]
      rw [if_pos hn]
    | cons t pre ih =>
      intro key0 e0
      have ih := ih fun t' ht' => hpre t' (List.mem_cons_of_mem _ ht')
      simp only [List.cons_append, dnskeyLoop]
      rcases parse_cases t with ⟨e, he⟩ | ⟨_, he⟩ | ⟨alg, raw, hz⟩
      · rw [he]
        exact ih _ _
      · rw [he]
        simp only [ne_eq, not_true_eq_false, if_false]
        exact ih _ _
      · have halg := hpre t List.mem_cons_self alg raw hz
        simp only [List.mem_cons, List.not_mem_nil, or_false, not_or] at halg
        have he : parseDNSKEY t = .val (.error (.other "unsupported DNSKEY algorithm")) := by
          rw [parse_zoneKey hz]
          unfold dnskeyMaterial
          rw [if_neg (by omega), if_neg (by omega), if_neg (by omega)]
        rw [he]
        exact ih _ _
  unfold retrievePublicKey
  simp only
  rw [if_neg (by omega), hb]
  simp only
  rw [if_neg (by rw [ha]; simp), had, if_neg (by simp), ha, hloop]
  simp only
  rw [if_neg hn]

/-- C39 fails: after a malformed zone signing key, the usable one is not considered, and the malformed
one is returned as a key. -/
theorem C39_unusable : ¬ C39_claim := by
  intro h
  have hr : retrievePublicKey (.ok ⟨200, .ok ⟨true, [short, good]⟩⟩) = .val (.ok (.ed25519 [])) := by
    simp only [retrievePublicKey, dnskeyLoop, short_parse]
    rfl
  obtain ⟨r, json, pre, text, post, h1, h2, h3, h4, h5, h6, h7⟩ := h _ _ hr
  have hu := ((C38_accepts_partial text _).1.mpr h6).2
  simp [Usable] at hu

/-- Without the AD flag the same answer gives an error. -/
example : (match retrievePublicKey (.ok ⟨200, .ok ⟨false, [good]⟩⟩) with
    | .val (.error _) => true | _ => false) = true := by decide +kernel

example : (match retrievePublicKey (.ok ⟨200, .ok ⟨true, [str "257 3 8 AAAA", good]⟩⟩) with
    | .val (.ok k) => k == .ed25519 (List.replicate 32 0) | _ => false) = true := by decide +kernel

/-! ### C62 -/

/-- C62 as stated: whatever the DNS provider answers, verifying a signature with the retrieved key
does not panic.  False. -/
def C62_claim : Prop :=
  ∀ (C : Crypto) (reply : Except Err DnsReply) (key : PublicKey) (hashType : Nat)
    (content signature : Bytes), retrievePublicKey reply = .val (.ok key) →
    ∃ r, verifySignature C key hashType content signature = .val r

/-- C62: verifying with a usable key never panics, so retrieval is safe whenever no answer holds a
zone signing key of a supported algorithm with malformed material.  Missing from the full claim: the
malformed answers (`C62_crash`). -/
theorem C62_safe_partial (C : Crypto) (r : DnsReply) (json : DnsJSON) (key : PublicKey)
    (hashType : Nat) (content signature : Bytes) (hb : r.body = .ok json)
    (hwell : ∀ t ∈ json.answers, ∀ alg raw, ZoneKey t alg raw → alg ∈ [5, 7, 8, 10, 13, 14, 15] →
      ∃ k, Material alg raw k)
    (h : retrievePublicKey (.ok r) = .val (.ok key)) :
    ∃ v, verifySignature C key hashType content signature = .val v := by
  obtain ⟨r', json', pre, text, post, hr, _, hb', _, ha, hp, hn, _, _⟩ := C39_first_partial _ _ h
  cases hr
  rw [hb] at hb'
  cases hb'
  have hu : Usable key := by
    rcases parse_cases text with ⟨e, he⟩ | ⟨_, he⟩ | ⟨alg, raw, hz⟩
    · rw [he] at hp; cases hp
    · rw [he] at hp; cases hp; exact absurd rfl hn
    · have hz' := hz
      by_cases halg : alg ∈ [5, 7, 8, 10, 13, 14, 15]
      · obtain ⟨k, hk⟩ := hwell text (by rw [ha]; simp) alg raw hz halg
        have := (C38_accepts_partial text k).1.mpr ⟨alg, raw, hz, hk⟩
        rw [hp] at this
        cases this.1
        exact this.2
      · rw [parse_zoneKey hz] at hp
        simp only [List.mem_cons, List.not_mem_nil, or_false, not_or] at halg
        unfold dnskeyMaterial at hp
        rw [if_neg (by omega), if_neg (by omega), if_neg (by omega)] at hp
        cases hp
  unfold verifySignature
  split
  · match key, hu with
    | .rsa (some k), _ => exact ⟨_, rfl⟩
    | .ecdsa (some k), _ => exact ⟨_, rfl⟩
    | .ed25519 k, hu =>
      have hu : k.length = 32 := hu
      simp only [hu, ne_eq, not_true_eq_false, if_false]
      exact ⟨_, rfl⟩
  · exact ⟨_, rfl⟩

/-- C62 fails: one malformed record in DNS makes the client panic. -/
theorem C62_crash : ¬ C62_claim := by
  intro h
  have hr : retrievePublicKey (.ok ⟨200, .ok ⟨true, [short]⟩⟩) = .val (.ok (.ed25519 [])) := by
    simp only [retrievePublicKey, dnskeyLoop, short_parse]
    rfl
  obtain ⟨r, hv⟩ := h Toy.crypto _ _ cryptoSHA256 [] [] hr
  have : verifySignature Toy.crypto (.ed25519 []) cryptoSHA256 [] []
      = .panic "ed25519: bad public key length" := rfl
  rw [this] at hv
  cases hv

example : ∃ v, verifySignature Toy.crypto (.ed25519 (List.replicate 32 0)) cryptoSHA256 [] [] = .val v :=
  ⟨_, rfl⟩

end Goe2ee
