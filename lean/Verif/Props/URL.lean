import Verif.Proofs.URL
import Verif.Proofs.ChatRegistry
import Verif.Model.ChatClient

/-!
# What is asked of HTTP servers (C131, C132)
-/

set_option autoImplicit false

namespace Goe2ee

open Form

/-! ## C131 -/

/-- The two parameters that ask for the keys of a domain. -/
def keyQuestion (domain : Bytes) : List (Bytes × Bytes) := [(str "name", domain), (str "type", str "DNSKEY")]

theorem dohQuery_values (providerQuery domain k : Bytes) :
    valuesIn (pairs (dohQuery providerQuery domain)) k =
      valuesIn ((split 38#8 providerQuery).filterMap readPair ++ keyQuestion domain) k := by
  obtain ⟨h1, h2⟩ := foldl_parsePair (split 38#8 providerQuery) [] List.nodup_nil
  have h3 : parseQuery providerQuery = (split 38#8 providerQuery).foldl parsePair [] :=
    parseQueryLoop_eq _ _ _ (Nat.le_refl _)
  unfold dohQuery Values.encode
  rw [encodeEntries_eq, pairs_encodePairs, valuesIn_sortKeys, h3, valuesIn_add (h1.add _ _), valuesIn_add h1, h2 k,
    valuesIn_append, keyQuestion]
  simp only [flatValues, List.flatMap_nil, List.append_assoc]
  show [] ++ _ = _
  rw [List.nil_append]
  congr 1
  unfold valuesIn
  by_cases ha : str "name" = k
  · by_cases hb : str "type" = k
    · simp [ha, hb]
    · simp [ha, hb]
  · by_cases hb : str "type" = k
    · simp [ha, hb]
    · simp [ha, hb]

/-- **C131**, any provider: the request asks for the keys of the domain, whatever octets the domain has.  To what is
left of the parameters in the URL of the provider it adds exactly two: the domain as "name", and "DNSKEY" as "type". -/
theorem C131_parameters (providerQuery domain : Bytes) :
    ∃ kept, kept.Sublist (pairs providerQuery) ∧
      ∀ k, valuesIn (pairs (dohQuery providerQuery domain)) k = valuesIn (kept ++ keyQuestion domain) k :=
  ⟨_, readPairs_sublist _, dohQuery_values providerQuery domain⟩

/-- No parameter of the provider is lost, unless there are errors in its URL. -/
theorem C131_own_parameters (providerQuery domain : Bytes) (h : WellFormed providerQuery) (k : Bytes) :
    valuesIn (pairs (dohQuery providerQuery domain)) k = valuesIn (pairs providerQuery ++ keyQuestion domain) k := by
  rw [dohQuery_values, Form.WellFormed.readPairs h.split]
  rfl

/-- In particular there is one name to look up, the domain, if the URL of the provider does not have another. -/
theorem C131_one_name (providerQuery domain : Bytes) (h : ∀ p ∈ pairs providerQuery, p.1 ≠ str "name") :
    valuesIn (pairs (dohQuery providerQuery domain)) (str "name") = [domain] := by
  obtain ⟨kept, h1, h2⟩ := C131_parameters providerQuery domain
  have h3 : valuesIn kept (str "name") = [] := by
    unfold valuesIn
    rw [List.filter_eq_nil_iff.mpr fun p hp => by simpa using h p (h1.subset hp)]
    rfl
  have h4 : str "type" ≠ str "name" := by decide +kernel
  rw [h2, valuesIn_append, h3]
  simp [valuesIn, keyQuestion, h4]

/-- The query has letters, digits and `-_.~%+&=` only: nothing that ends the query, the line or the URL. -/
theorem C131_octets (providerQuery domain : Bytes) : ∀ c ∈ dohQuery providerQuery domain,
    (97 ≤ c.toNat ∧ c.toNat ≤ 122) ∨ (65 ≤ c.toNat ∧ c.toNat ≤ 90) ∨ (48 ≤ c.toNat ∧ c.toNat ≤ 57) ∨ c ∈ str "-_.~%+&=" := by
  intro c hc
  unfold dohQuery Values.encode at hc
  rw [encodeEntries_eq] at hc
  have h := encodePairs_octets _ [] (fun c h => by cases h) c hc
  clear hc
  revert h c
  decide +kernel

/-- A domain that looks like more parameters. -/
example : dohQuery [] (str "a.example&name=b.example#") = str "name=a.example%26name%3Db.example%23&type=DNSKEY" := by
  decide +kernel

example : pairs (dohQuery (str "ct=x&do=1") (str "a b+c%")) =
    [(str "ct", str "x"), (str "do", str "1"), (str "name", str "a b+c%"), (str "type", str "DNSKEY")] := by decide +kernel

example : WellFormed (str "ct=x%2Fy&do=1") := by
  have h : str "ct=x%2Fy&do=1" = [99, 116, 61, 120, 37, 50, 70, 121, 38, 100, 111, 61, 49] := by decide +kernel
  rw [h]
  simp [WellFormed, hexDigit?]

/-- A name in the URL of the provider is kept, and comes first. -/
example : valuesIn (pairs (dohQuery (str "name=own") (str "a"))) (str "name") = [str "own", str "a"] := by decide +kernel

/-! ## C132 -/

/-- **C132**, the full claim: a user with any name that can be a part of a path can leave. -/
def C132_claim : Prop :=
  ∀ (w : RegWorld) (order : List Bytes) (userName : Bytes) (user : ChatUser),
    47#8 ∉ userName → userName ≠ str "." → userName ≠ str ".." → w.get userName = some user →
    (chatUnregister order userName w).1 = none ∧
      ∀ n, (chatUnregister order userName w).2.get n = if n = userName then none else w.get n

namespace UnregisterExample

def bob : ChatUser := { name := str "bob", network := str "tcp", host := str "10.0.0.1", serverPort := 1, notifyPort := 2 }
def bobX : ChatUser := { name := str "bob?x", network := str "tcp", host := str "10.0.0.2", serverPort := 1, notifyPort := 2 }

def registry : RegWorld := { users := [(str "bob", bob), (str "bob?x", bobX)] }

end UnregisterExample

open UnregisterExample

/-- **C132 is refuted**: when "bob?x" leaves, bob is removed. -/
theorem C132_refuted : ¬ C132_claim := by
  intro h
  have h1 := (h registry [] (str "bob?x") bobX (by decide +kernel) (by decide +kernel) (by decide +kernel)
    (by decide +kernel)).2 (str "bob")
  revert h1
  decide +kernel

theorem unescapeURL_plain {s : Bytes} (h : 37#8 ∉ s) : unescapeURL false s = some s := by
  induction s with
  | nil => rfl
  | cons c s ih =>
    have h1 : c ≠ 37#8 := fun e => h (e ▸ List.mem_cons_self)
    rw [unescapeURL.eq_def]
    dsimp only
    rw [if_neg h1, ih fun hm => h (List.mem_cons_of_mem _ hm), if_neg (fun h => by cases h.1)]
    rfl

theorem cutAt_absent {sep : Byte} {s : Bytes} (h : sep ∉ s) : cutAt sep s = (s, []) := by
  rcases cutAt_spec sep s with ⟨-, h2⟩ | ⟨h1, -⟩
  · exact h2
  · exact absurd (by rw [h1]; exact List.mem_append_right _ List.mem_cons_self) h

/-- Telling the others changes nothing else. -/
theorem run_farewell (order : List Bytes) (user : ChatUser) (keys : List Bytes) (w : RegWorld) :
    ∃ l, ((forRange (farewell user) keys ()).run (regExec order 0) w).2 = { w with log := w.log ++ l } := by
  induction keys generalizing w with
  | nil => exact ⟨[], by simp [forRange, Prog.run]⟩
  | cons k keys ih =>
    show ∃ l, (Prog.run (regExec order 0) (match w.get k with | none => _ | some user' => _) w).2 = _
    cases w.get k with
    | none => exact ih w
    | some other =>
      obtain ⟨l, hl⟩ := ih { w with log := w.log ++ [.notified other.host other.notifyPort .left user] }
      refine ⟨[.notified other.host other.notifyPort .left user] ++ l, ?_⟩
      refine Eq.trans (b := ((forRange (farewell user) keys ()).run (regExec order 0)
        { w with log := w.log ++ [.notified other.host other.notifyPort .left user] }).2) rfl ?_
      rw [hl]
      simp

/-- **C132**, what holds: a user whose name has none of `/?#%` and no control characters can leave, and nobody else is
affected. -/
theorem C132_plain_partial (w : RegWorld) (order : List Bytes) (userName : Bytes) (user : ChatUser)
    (hplain : ∀ c ∈ userName, 32 ≤ c.toNat ∧ c.toNat ≠ 127 ∧ c ∉ str "/?#%") (_ : userName ≠ str ".")
    (_ : userName ≠ str "..") (hreg : w.get userName = some user) :
    (chatUnregister order userName w).1 = none ∧
      ∀ n, (chatUnregister order userName w).2.get n = if n = userName then none else w.get n := by
  have hne : ∀ c : Byte, c ∈ str "/?#%" → c ∉ userName := fun c hc hm => (hplain c hm).2.2 hc
  have hpre : ∀ c ∈ str "/users/", 32 ≤ c.toNat ∧ c.toNat ≠ 127 ∧ c ∉ str "?#%" := by decide +kernel
  have habs : ∀ c : Byte, c ∈ str "?#%" → c ∉ str "/users/" ++ userName := by
    intro c hc hm
    rcases List.mem_append.mp hm with hm | hm
    · exact (hpre c hm).2.2 hc
    · exact hne c ((by decide +kernel : ∀ c : Byte, c ∈ str "?#%" → c ∈ str "/?#%") c hc) hm
  have hctl : (str "/users/" ++ userName).any (fun c => c < 32#8 || c == 127#8) = false := by
    rw [List.any_eq_false]
    intro c hm
    have : 32 ≤ c.toNat ∧ c.toNat ≠ 127 := by
      rcases List.mem_append.mp hm with hm | hm
      · exact ⟨(hpre c hm).1, (hpre c hm).2.1⟩
      · exact ⟨(hplain c hm).1, (hplain c hm).2.1⟩
    clear hm
    revert this
    revert c
    decide +kernel
  have hpath : unregisterPath userName = .ok (str "/users/" ++ userName) := by
    unfold unregisterPath
    dsimp only
    rw [cutAt_absent (habs 35#8 (by decide +kernel))]
    dsimp only
    rw [hctl, cutAt_absent (habs 63#8 (by decide +kernel)), unescapeURL_plain (habs 37#8 (by decide +kernel))]
    rfl
  have hdrop : (str "/users/" ++ userName).drop usersPrefix = userName :=
    List.drop_left' (by decide +kernel)
  have hlen : ¬ (str "/users/" ++ userName).length < usersPrefix := by
    rw [List.length_append]
    have : (str "/users/").length = 7 := by decide +kernel
    show ¬ _ < 7
    omega
  let w1 : RegWorld := { users := w.users.filter (·.1 ≠ userName), log := w.log ++ [.responded 0 204 []] }
  obtain ⟨l, hl⟩ := run_farewell order user (w1.users.map (·.1) ++ order).dedup w1
  have hrun : ((usersHandler { method := .delete, path := str "/users/" ++ userName, body := none }).run
      (regExec order 0) w).2 = { w1 with log := w1.log ++ l } := by
    rw [← hl]
    show ((unregisterUser (str "/users/" ++ userName)).run (regExec order 0) w).2 = _
    unfold unregisterUser
    rw [if_neg hlen, hdrop]
    show (Prog.run (regExec order 0) (match w.get userName with | none => _ | some user' => _) w).2 = _
    rw [hreg]
    rfl
  have hst : statusIn (({ w1 with log := w1.log ++ l } : RegWorld).log.drop w.log.length) = some 204 := by
    show statusIn ((w.log ++ [RegEvent.responded 0 204 []] ++ l).drop w.log.length) = some 204
    rw [List.append_assoc, List.drop_left]
    rfl
  have hall : chatUnregister order userName w = (none, { w1 with log := w1.log ++ l }) := by
    unfold chatUnregister
    rw [hpath]
    dsimp only
    rw [hrun, hst]
    rfl
  rw [hall]
  refine ⟨rfl, fun n => ?_⟩
  show (w.users.filter (·.1 ≠ userName)).lookup n = _
  split
  · rename_i hn
    subst hn
    rw [List.lookup_eq_none_iff]
    intro p hp
    have := (List.mem_filter.mp hp).2
    simp only [ne_eq, decide_not, Bool.not_eq_eq_eq_not, Bool.not_true, decide_eq_false_iff_not] at this
    exact bne_iff_ne.mpr (Ne.symm this)
  · rename_i hn
    exact lookup_filter_ne _ hn

/-- bob can leave. -/
example : (chatUnregister [] (str "bob") registry).1 = none ∧ (chatUnregister [] (str "bob") registry).2.users =
    [(str "bob?x", bobX)] := by decide +kernel

/-- A name with a percent sign may be another name, or none. -/
example : unregisterPath (str "100%") matches .error _ ∧
    (match unregisterPath (str "%62ob") with | .ok p => p | .error _ => []) = str "/users/bob" := by decide +kernel

end Goe2ee
