import Verif.Props.Codec
import Verif.Props.Nonce
import Verif.Props.LeakClient

/-!
# C168: what the messages of the application decide
-/

set_option autoImplicit false

namespace Goe2ee

section
variable {C : Crypto}

/-- The same octets, or requests of the same session with the same counter and messages of the same length. -/
inductive VeiledRequest (C : Crypto) : Bytes → Bytes → Prop where
  | same (m : Bytes) : VeiledRequest C m m
  | request (expectReply : Bool) (id : Bytes) (counter : BitVec 64) (key text text' : Bytes) :
    text.length = text'.length →
    VeiledRequest C
      (Wire.processRequest expectReply id counter.toNat (C.aeadSeal key (Wire.nonce12 0 counter.toNat) text))
      (Wire.processRequest expectReply id counter.toNat (C.aeadSeal key (Wire.nonce12 0 counter.toNat) text'))

/-- The same calls, with messages of the same lengths. -/
inductive OtherCalls : List CCall → List CCall → Prop where
  | nil : OtherCalls [] []
  | read (n : Nat) {calls calls' : List CCall} : OtherCalls calls calls' →
    OtherCalls (.read n :: calls) (.read n :: calls')
  | write (p p' : Bytes) {calls calls' : List CCall} : p.length = p'.length → p.length < 2 ^ 63 →
    OtherCalls calls calls' → OtherCalls (.write p :: calls) (.write p' :: calls')

/-- The same goroutines of two applications that write different messages. -/
inductive OtherUsers : List User → List User → Prop where
  | nil : OtherUsers [] []
  | cons (u : User) {calls : List CCall} {users users' : List User} : OtherCalls u.calls calls →
    OtherUsers users users' → OtherUsers (u :: users) ({ u with calls := calls } :: users')

/-- What remains of an encryption when nobody may see what is encrypted: key, nonce and length. -/
def sealVeil (e : Bytes × Bytes × Bytes) : Bytes × Bytes × Nat := (e.1, e.2.1, e.2.2.length)

theorem VeiledRequest.length (hC : C.Lawful) {m m' : Bytes} (h : VeiledRequest C m m') : m.length = m'.length := by
  cases h with
  | same => rfl
  | request expectReply id counter key text text' h =>
    simp only [Wire.processRequest, Wire.be64, List.length_append, List.length_cons, List.length_nil, hC.seal_length, h]

/-- Programs that differ in the messages encrypted and written. -/
inductive CVeil {α : Type} : CProg C α → CProg C α → Prop where
  | ret (a : α) : CVeil (.ret a) (.ret a)
  | panic (m : String) : CVeil (.panic m) (.panic m)
  | op (o : COp) (k k' : COp.Ret C o → CProg C α) : (∀ r, CVeil (k r) (k' r)) → CVeil (.op o k) (.op o k')
  | write (bs bs' : Bytes) (k k' : Nat × Option Err → CProg C α) : VeiledRequest C bs bs' →
    (∀ r, CVeil (k r) (k' r)) → CVeil (.op (.write bs) k) (.op (.write bs') k')
  | aead (key nonce text text' : Bytes) (k k' : Bytes → CProg C α) : text.length = text'.length →
    CVeil (k (C.aeadSeal key nonce text)) (k' (C.aeadSeal key nonce text')) →
    CVeil (.op (.aead key nonce text) k) (.op (.aead key nonce text') k')

theorem CVeil.refl {α : Type} (p : CProg C α) : CVeil p p := by
  induction p with
  | ret a => exact .ret a
  | panic m => exact .panic m
  | op o k ih => exact .op o k k ih

theorem CVeil.bind {α β : Type} {p p' : CProg C α} (h : CVeil p p') {f f' : α → CProg C β}
    (hf : ∀ a, CVeil (f a) (f' a)) : CVeil (p.bind f) (p'.bind f') := by
  induction h with
  | ret a => exact hf a
  | panic m => exact .panic m
  | op o k k' _ ih => exact .op o _ _ ih
  | write bs bs' k k' hm _ ih => exact .write bs bs' _ _ hm ih
  | aead key nonce text text' k k' hl _ ih => exact .aead key nonce text text' _ _ hl ih

theorem cveil_write (hC : C.Lawful) (c : Client) (p p' : Bytes) (hl : p.length = p'.length) (hp : p.length < 2 ^ 63) :
    CVeil (c.write p : CProg C ((Nat × Option Err) × Client)) (c.write p') := by
  refine CVeil.bind (.refl _) fun r => ?_
  cases r with
  | some e => exact .refl _
  | none =>
    dsimp only
    split
    · exact .refl _
    rename_i session hs
    split
    · exact .refl _
    rename_i gcm hg
    refine .op _ _ _ fun (counter : BitVec 64) => ?_
    split
    · exact .refl _
    rw [show gcmNonceSize = 12 from rfl, C12_nonce_layout]
    refine .aead gcm _ p p' _ _ hl ?_
    refine .write _ _ _ _ ?_ fun r => .refl _
    rw [C04_process_request_layout _ _ _ _ (by rw [hC.seal_length]; omega),
      C04_process_request_layout _ _ _ _ (by rw [hC.seal_length]; omega)]
    exact .request _ _ _ _ _ _ hl

theorem cveil_calls (hC : C.Lawful) {calls calls' : List CCall} (h : OtherCalls calls calls') (c : Client) :
    CVeil (c.calls calls : CProg C Client) (c.calls calls') := by
  induction h generalizing c with
  | nil => exact .refl _
  | read n _ ih => exact CVeil.bind (.refl _) ih
  | write p p' hl hp _ ih => exact CVeil.bind (CVeil.bind (cveil_write hC c p p' hl hp) fun _ => .refl _) ih

theorem cveil_user (hC : C.Lawful) (u : User) {calls : List CCall} (h : OtherCalls u.calls calls) :
    CVeil (u.prog : CProg C Client) ({ u with calls := calls } : User).prog := by
  refine CVeil.bind (.refl _) fun r => ?_
  cases r with
  | error e => exact .refl _
  | ok c => exact cveil_calls hC h c

/-- Two goroutines that differ in the messages written. -/
structure CThreadVeiled (t t' : CThread C) : Prop where
  net : t'.conn.net = t.conn.net
  isOpen : t'.conn.isOpen = t.conn.isOpen
  results : t'.conn.writes.map (·.2) = t.conn.writes.map (·.2)
  writes : ∀ x ∈ t.conn.writes.zip t'.conn.writes, VeiledRequest C x.1.1 x.2.1
  prog : CVeil t.prog t'.prog

/-- Two processes that differ in the messages written. -/
structure CSysVeiled (s s' : CSys C) : Prop where
  counters : s'.shared.counters = s.shared.counters
  sealed : s'.shared.sealed.map sealVeil = s.shared.sealed.map sealVeil
  count : s'.threads.length = s.threads.length
  threads : ∀ (i : Nat) (t t' : CThread C), s.threads[i]? = some t → s'.threads[i]? = some t' → CThreadVeiled t t'

/-- An effect that is the same in both. -/
theorem cexec_veiled (env : CEnv C) (o : COp) (c c' : CConn) (w w' : CShared) (hn : c'.net = c.net)
    (ho : c'.isOpen = c.isOpen) (hr : c'.writes.map (·.2) = c.writes.map (·.2))
    (hw : ∀ x ∈ c.writes.zip c'.writes, VeiledRequest C x.1.1 x.2.1) (hc : w'.counters = w.counters)
    (hs : w'.sealed.map sealVeil = w.sealed.map sealVeil) :
    (cexec env o (c', w')).1 = (cexec env o (c, w)).1 ∧
    (cexec env o (c', w')).2.1.net = (cexec env o (c, w)).2.1.net ∧
    (cexec env o (c', w')).2.1.isOpen = (cexec env o (c, w)).2.1.isOpen ∧
    (cexec env o (c', w')).2.1.writes.map (·.2) = (cexec env o (c, w)).2.1.writes.map (·.2) ∧
    (∀ x ∈ (cexec env o (c, w)).2.1.writes.zip (cexec env o (c', w')).2.1.writes, VeiledRequest C x.1.1 x.2.1) ∧
    (cexec env o (c', w')).2.2.counters = (cexec env o (c, w)).2.2.counters ∧
    (cexec env o (c', w')).2.2.sealed.map sealVeil = (cexec env o (c, w)).2.2.sealed.map sealVeil := by
  obtain ⟨net, writes, isOpen⟩ := c
  obtain ⟨net', writes', isOpen'⟩ := c'
  obtain ⟨counters, sealed⟩ := w
  obtain ⟨counters', sealed'⟩ := w'
  dsimp only at hn ho hr hw hc hs
  subst hn ho hc
  cases o with
  | write bs =>
    refine ⟨rfl, rfl, rfl, by simp [cexec, hr], ?_, rfl, hs⟩
    simp only [cexec]
    rw [List.zip_append (by simpa using (congrArg List.length hr).symm)]
    intro x hx
    rcases List.mem_append.mp hx with hx | hx
    · exact hw x hx
    · simp only [List.zip_cons_cons, List.zip_nil_right, List.mem_singleton] at hx
      subst hx
      exact .same _
  | aead key nonce text => exact ⟨rfl, rfl, rfl, hr, hw, rfl, by simp [cexec, hs]⟩
  | close =>
    cases net' with
    | tcp _ => exact ⟨rfl, rfl, rfl, hr, hw, rfl, hs⟩
    | udp _ _ _ => exact ⟨rfl, rfl, rfl, hr, hw, rfl, hs⟩
  | _ => exact ⟨rfl, rfl, rfl, hr, hw, rfl, hs⟩

theorem csys_step_veiled (hC : C.Lawful) {s s' : CSys C} (hs : CSysVeiled s s') (act : Nat × CEnv C) :
    CSysVeiled (s.step act) (s'.step act) := by
  obtain ⟨i, env⟩ := act
  unfold CSys.step
  dsimp only
  cases hi : s.threads[i]? with
  | none =>
    have hi' : s'.threads[i]? = none := by
      rw [List.getElem?_eq_none_iff] at hi ⊢
      rw [hs.count]; exact hi
    rw [hi']
    exact hs
  | some t =>
    have hlt := (List.getElem?_eq_some_iff.mp hi).1
    have hlt' : i < s'.threads.length := by rw [hs.count]; exact hlt
    have hi' : s'.threads[i]? = some s'.threads[i] := List.getElem?_eq_getElem hlt'
    rw [hi']
    have ht := hs.threads i _ _ hi hi'
    generalize s'.threads[i] = t' at ht
    -- setting one goroutine
    have hset : ∀ (w w' : CShared) (u u' : CThread C), w'.counters = w.counters →
        w'.sealed.map sealVeil = w.sealed.map sealVeil → CThreadVeiled u u' →
        CSysVeiled { shared := w, threads := s.threads.set i u } { shared := w', threads := s'.threads.set i u' } := by
      intro w w' u u' h1 h2 h3
      refine ⟨h1, h2, by simp [hs.count], ?_⟩
      intro j v v' hv hv'
      by_cases hij : i = j
      · subst hij
        rw [List.getElem?_set_self hlt] at hv
        rw [List.getElem?_set_self hlt'] at hv'
        cases hv
        cases hv'
        exact h3
      · rw [List.getElem?_set_ne hij] at hv hv'
        exact hs.threads j v v' hv hv'
    obtain ⟨hn, ho, hr, hw, hp⟩ := ht
    obtain ⟨conn, prog⟩ := t
    obtain ⟨conn', prog'⟩ := t'
    dsimp only at hn ho hr hw hp ⊢
    cases hp with
    | ret a => exact hs
    | panic m => exact hs
    | op o k k' hk =>
      obtain ⟨e1, e2, e3, e4, e5, e6, e7⟩ :=
        cexec_veiled env o conn conn' s.shared s'.shared hn ho hr hw hs.counters hs.sealed
      refine hset _ _ _ _ e6 e7 ⟨e2, e3, e4, e5, ?_⟩
      dsimp only
      rw [e1]
      exact hk _
    | write bs bs' k k' hm hk =>
      have hlen := hm.length hC
      refine hset _ _ _ _ hs.counters hs.sealed ⟨?_, ho, ?_, ?_, ?_⟩
      · simp [cexec, hn]
      · simp [cexec, hr, hlen]
      · simp only [cexec]
        rw [List.zip_append (by simpa using (congrArg List.length hr).symm)]
        intro x hx
        rcases List.mem_append.mp hx with hx | hx
        · exact hw x hx
        · simp only [List.zip_cons_cons, List.zip_nil_right, List.mem_singleton] at hx
          subst hx
          exact hm
      · simp only [cexec, hlen]
        exact hk _
    | aead key nonce text text' k k' hl hk =>
      refine hset _ _ _ _ hs.counters ?_ ⟨hn, ho, hr, hw, hk⟩
      simp [cexec, hs.sealed, sealVeil, hl]

theorem csys_run_veiled (hC : C.Lawful) (acts : List (Nat × CEnv C)) {s s' : CSys C} (hs : CSysVeiled s s') :
    CSysVeiled (s.run acts) (s'.run acts) := by
  induction acts generalizing s s' with
  | nil => exact hs
  | cons act acts ih => exact ih (csys_step_veiled hC hs act)

theorem csys_start_veiled (hC : C.Lawful) {users users' : List User} (h : OtherUsers users users') :
    CSysVeiled (CSys.ofUsers C users) (CSys.ofUsers C users') := by
  refine ⟨rfl, rfl, ?_, ?_⟩
  · simp only [CSys.ofUsers, List.length_map]
    induction h with
    | nil => rfl
    | cons u _ _ ih => simp [ih]
  · intro i t t' ht ht'
    simp only [CSys.ofUsers, List.getElem?_map] at ht ht'
    obtain ⟨u, hu, rfl⟩ := Option.map_eq_some_iff.mp ht
    obtain ⟨u', hu', rfl⟩ := Option.map_eq_some_iff.mp ht'
    clear ht ht'
    induction h generalizing i with
    | nil => simp at hu
    | cons v hv _ ih =>
      cases i with
      | zero =>
        cases hu
        cases hu'
        exact ⟨rfl, rfl, rfl, by simp, cveil_user hC _ hv⟩
      | succ i => exact ih i (by simpa using hu) (by simpa using hu')

/-- **C168**: two applications that dial and make the same calls, but write different messages of the same lengths, under the
same schedule and with the same data received: at any time the counters are the same, and so are keys and nonces used; every
goroutine has made the same writes on its connection, of the same lengths and with the same results, and they are the same
except for the ciphertexts; what was read, which goroutines have ended and what is left of the connections is the same. -/
theorem C168_messages (hC : C.Lawful) {users users' : List User} (h : OtherUsers users users')
    (acts : List (Nat × CEnv C)) (s s' : CSys C) (hs : s = (CSys.ofUsers C users).run acts)
    (hs' : s' = (CSys.ofUsers C users').run acts) :
    s'.shared.counters = s.shared.counters ∧
    s'.shared.sealed.map sealVeil = s.shared.sealed.map sealVeil ∧
    s'.threads.length = s.threads.length ∧
    ∀ (i : Nat) (t t' : CThread C), s.threads[i]? = some t → s'.threads[i]? = some t' →
      t'.conn.writes.map (fun x => (x.1.length, x.2)) = t.conn.writes.map (fun x => (x.1.length, x.2)) ∧
      (∀ x ∈ t.conn.writes.zip t'.conn.writes, VeiledRequest C x.1.1 x.2.1) ∧
      t'.conn.net = t.conn.net ∧ t'.conn.isOpen = t.conn.isOpen ∧
      ∀ c : Client, t'.prog = .ret c ↔ t.prog = .ret c := by
  subst hs hs'
  obtain ⟨h1, h2, h3, h4⟩ := csys_run_veiled hC acts (csys_start_veiled hC h)
  refine ⟨h1, h2, h3, fun i t t' ht ht' => ?_⟩
  obtain ⟨hn, ho, hr, hw, hp⟩ := h4 i t t' ht ht'
  refine ⟨?_, hw, hn, ho, ?_⟩
  · have hlen : t.conn.writes.length = t'.conn.writes.length := by simpa using (congrArg List.length hr).symm
    apply List.ext_getElem (by simp [hlen])
    intro n h5 h6
    rw [List.length_map] at h5 h6
    rw [List.getElem_map, List.getElem_map]
    have hm := (hw (t.conn.writes[n], t'.conn.writes[n]) (by
      rw [List.mem_iff_getElem]
      exact ⟨n, by rw [List.length_zip]; omega, by simp⟩)).length hC
    have he := congrArg (fun l => l[n]?) hr
    simp only [List.getElem?_map, List.getElem?_eq_getElem h5, List.getElem?_eq_getElem h6, Option.map_some,
      Option.some.injEq] at he
    exact Prod.ext hm.symm he
  · intro c
    generalize t.prog = p at hp
    generalize t'.prog = p' at hp
    cases hp with
    | ret a => exact Iff.rfl
    | panic m => exact Iff.rfl
    | op => exact ⟨fun h => (by cases h), fun h => (by cases h)⟩
    | write => exact ⟨fun h => (by cases h), fun h => (by cases h)⟩
    | aead => exact ⟨fun h => (by cases h), fun h => (by cases h)⟩

end

namespace VeilClientExample

/-- Two goroutines that write the given messages. -/
def after (p q : String) : CSys Toy.crypto :=
  (CSys.ofUsers Toy.crypto [{ LeakExample.user 4 with calls := [.write (str p), .write (str q)] }, LeakExample.user 4]).run
    (List.replicate 40 [(0, HandshakeExample.env), (1, HandshakeExample.env)]).flatten

/-- The octets differ; their numbers and the rest do not. A longer message shows. -/
example :
    ((after "ping" "stop").threads.map fun t => t.conn.writes.map (·.1)) ≠
      ((after "abcd" "efgh").threads.map fun t => t.conn.writes.map (·.1)) ∧
    ((after "ping" "stop").threads.map fun t => t.conn.writes.map (·.1.length)) =
      ((after "abcd" "efgh").threads.map fun t => t.conn.writes.map (·.1.length)) ∧
    ((after "ping" "stop").threads.map fun t => t.conn.writes.map (·.1.length)) ≠
      ((after "ping" "stops").threads.map fun t => t.conn.writes.map (·.1.length)) ∧
    (after "ping" "stop").shared.counters = (after "abcd" "efgh").shared.counters ∧
    (after "ping" "stop").shared.sealed.map sealVeil = (after "abcd" "efgh").shared.sealed.map sealVeil ∧
    (after "ping" "stop").shared.sealed ≠ (after "abcd" "efgh").shared.sealed := by decide +kernel

end VeilClientExample

end Goe2ee
