import Verif.Proofs.SystemWorld
import Verif.Props.FlowDial

/-!
# The server and its clients at any time
-/

set_option autoImplicit false

namespace Goe2ee

section
variable {C : Crypto}

/-- What the client and the server know about each other. -/
structure Tied (g : SessionStage) (d : Talker) : Prop where
  fresh : d.started = false → g = .new
  begun : d.started = true → g ≠ .new
  kept : ∀ r top, g = .kept r top → top.toNat ≤ d.sent
  asked : ∀ r c top, g = .asked r c top → c.toNat ≤ d.sent
  sent : d.sent ≤ d.last
  bound : d.last + d.left < 2 ^ 64

/-- The client finds its counter. -/
def Recalls (d : Talker) (memory : CShared) : Prop :=
  ∀ a, d.addr = some a → memory.counters[a]? = some (BitVec.ofNat 64 d.last)

/-- What holds for a client and its goroutine. -/
def Joined (T : Terms C) (g : SessionStage) (d : Talker) (q p : FlowProg C FlowLoop) (w : FlowWorld) : Prop :=
  w.closed = false ∧ Tied g d ∧
    ∃ todo inp out, Speaks T q d todo inp ∧ w.down ++ out = inp ∧ Stands T p g (w.up ++ todo) out

/-- Only the client has a message to add. -/
theorem Tied.next {g : SessionStage} {d : Talker} (h : Tied g d) {o : COp} (ho : Does d o) (r : o.Ret C) :
    Tied g (d.next o r) := by
  cases o <;> first | exact h | skip
  · exact ⟨h.fresh, h.begun, h.kept, h.asked, h.sent, h.bound⟩
  · have := ho.2
    exact ⟨h.fresh, h.begun, h.kept, h.asked, Nat.le_succ_of_le h.sent,
      by show d.last + 1 + (d.left - 1) < 2 ^ 64; have := h.bound; omega⟩

theorem Tied.stage {g : SessionStage} {d : Talker} (h : Tied g d) {T : Terms C} {o : SOp} (r : o.Ret C)
    (ho : Waits o ∨ Works T g o) : Tied (g.next o r) d := by
  rcases ho with ho | ho
  · rw [waits_next ho]
    exact h
  · cases o with
    | newSession s host id =>
      obtain ⟨rfl, -⟩ := ho
      exact ⟨fun h' => (by cases h.fresh h'), fun _ => nofun, nofun, nofun, h.sent, h.bound⟩
    | mapStore key v =>
      obtain ⟨-, rfl | ⟨c, top, rfl⟩⟩ := ho
      · exact ⟨fun h' => (by cases h.fresh h'), fun _ => nofun, fun r top h' => by cases h'; exact Nat.zero_le _, nofun,
          h.sent, h.bound⟩
      · exact h
    | check r' c =>
      obtain ⟨top, rfl⟩ := ho
      refine ⟨fun h' => (by cases h.fresh h'), fun _ => nofun, fun r top h' => ?_, nofun, h.sent, h.bound⟩
      cases h'
      exact h.asked _ _ _ rfl
    | mapLoad key => obtain ⟨-, r', c, top, rfl⟩ := ho; exact h
    | secretOf r' => obtain ⟨top, rfl⟩ := ho; exact h
    | invoke r' c host id m => cases g <;> exact h
    | now => cases g <;> exact h
    | genKey => cases g <;> exact h
    | sign hash content => cases g <;> exact h
    | aead r' key nonce plaintext => cases g <;> exact h
    | _ => exact ho.elim

/-- A step of the server. -/
theorem Joined.server (hC : C.Lawful) {T : Terms C} (hT : T.Works) {roomUp roomDown : Nat} {env : FlowEnv C}
    {g : SessionStage} {d : Talker} {q p : FlowProg C FlowLoop} {w : FlowWorld} (h : Joined T g d q p w)
    (henv : ∀ o k, p = .op (.server o) k → Waits o ∨ Works T g o → Gives T g o (serverAnswer env o)) :
    Joined T (stageAfter env g p) d q (turn (inMemory C) (.ok T.host) roomUp roomDown env 1 p w).1
      (turn (inMemory C) (.ok T.host) roomUp roomDown env 1 p w).2 := by
  obtain ⟨hc, hl, todo, inp, out, hq, hd, hp⟩ := h
  have hfine := hp.fine hT.short.1
  have henv' : ∀ o k, p = .op (.server o) k → Gives T g o (serverAnswer env o) := by
    rintro o k rfl
    exact henv o k rfl hfine
  obtain ⟨up, down, out', h1, h2, h3⟩ := stands_turn hC hT (roomUp := roomUp) (roomDown := roomDown) hp henv'
  rw [h1]
  refine ⟨hc, ?_, todo, inp, out', hq, h2.trans hd, h3⟩
  cases p with
  | ret l => exact hl
  | panic m => exact hl
  | op o k =>
    cases o with
    | server o => exact hl.stage _ hfine
    | send b => exact hl
    | recv => exact hl
    | hangUp => exact hl
    | client o => exact hl
    | wrote r => exact hl
    | gotData r => exact hl

/-- What the client knows after its step, unless it begins a request. -/
def talkerAfter (env : FlowEnv C) (d : Talker) : FlowProg C FlowLoop → Talker
  | .op (.client o) _ => d.next o (clientAnswer env o)
  | _ => d

/-- A step of the client. -/
theorem Joined.client {T : Terms C} (hT : T.Works) {M : Manager C} {host : Except Err Bytes} {roomUp roomDown : Nat}
    {env : FlowEnv C} {g : SessionStage} {d : Talker} {q p : FlowProg C FlowLoop} {w : FlowWorld} (h : Joined T g d q p w)
    (henv : ∀ o k, q = .op (.client o) k → Does d o → Returns T d o (clientAnswer env o)) :
    ∃ g' d', Joined T g' d' (turn M host roomUp roomDown env 0 q w).1 p (turn M host roomUp roomDown env 0 q w).2 ∧
      d'.addr = (talkerAfter env d q).addr ∧ d'.last = (talkerAfter env d q).last ∧
      g'.ref = g.ref ∧ ∀ W, Remembers T W g → Remembers T W g' := by
  have h0 := h
  obtain ⟨hc, hl, todo, inp, out, hq, hd, hp⟩ := h0
  cases q with
  | ret l =>
    obtain ⟨rfl, -⟩ := hq
    exact ⟨g, d, h, rfl, rfl, rfl, fun _ h => h⟩
  | panic m => exact hq.elim
  | op o k =>
    cases o with
    | send b =>
      by_cases hroom : w.up.length < roomUp
      · rw [turn_client_send hc hroom]
        rcases hq with ⟨todo', rfl, hq⟩ | ⟨rfl, rfl, d', todo', inp', hsay, hq⟩
        · refine ⟨g, d, ⟨hc, hl, todo', inp, out, hq, hd, ?_⟩, rfl, rfl, rfl, fun _ h => h⟩
          simpa using hp
        · obtain ⟨hdown, rfl⟩ := List.append_eq_nil_iff.mp hd
          obtain ⟨hup, hset⟩ := hp.over hT.short.1
          obtain ⟨hup, -⟩ := List.append_eq_nil_iff.mp hup
          rcases hsay with ⟨h1, rfl, h2, rfl⟩ | ⟨m, h1, h2, rfl, h3, h4⟩
          · obtain rfl := hl.fresh h1
            have hask : Asked T .new .settingUp (b :: todo') (dialResponse C T.serverKey T.signature) :=
              .inl ⟨rfl, rfl, h2, rfl⟩
            refine ⟨.settingUp, { d with started := true }, ⟨hc, ?_, todo', _, _, hq, by rw [hdown]; rfl, ?_⟩, rfl, rfl,
              rfl, fun _ _ => trivial⟩
            · exact ⟨nofun, fun _ => nofun, nofun, nofun, hl.sent, hl.bound⟩
            · rw [hup]
              exact hp.asked hT.short.1 hask
          · cases g with
            | new => exact (hl.begun h1 rfl).elim
            | settingUp => exact hset.elim
            | created r => exact hset.elim
            | asked r c top => exact hset.elim
            | kept r top =>
              have htop := hl.kept r top rfl
              have hlast : (BitVec.ofNat 64 d.last).toNat = d.last := by
                rw [BitVec.toNat_ofNat]
                exact Nat.mod_eq_of_lt (by have := hl.bound; omega)
              have hask : Asked T (.kept r top) (.asked r (BitVec.ofNat 64 d.last) top) (b :: todo') inp' :=
                .inr ⟨r, top, _, m, rfl, rfl, h3, h4⟩
              refine ⟨.asked r (BitVec.ofNat 64 d.last) top, { d with sent := d.last }, ⟨hc, ?_, todo', inp', inp', hq,
                by rw [hdown]; rfl, ?_⟩, rfl, rfl, rfl, fun W hW => ⟨hW, ?_⟩⟩
              · refine ⟨fun h => ?_, fun _ => nofun, nofun, fun r c top h => ?_, Nat.le_refl _, hl.bound⟩
                · have h : d.started = false := h
                  rw [h1] at h
                  cases h
                · cases h
                  exact Nat.le_of_eq hlast
              · rw [hup]
                exact hp.asked hT.short.1 hask
              · rw [BitVec.lt_def, hlast]
                omega
      · rw [turn_client_full hc hroom]
        exact ⟨g, d, h, rfl, rfl, rfl, fun _ h => h⟩
    | recv =>
      obtain ⟨rfl, b, inp', rfl, hq⟩ := hq
      cases hdn : w.down with
      | nil =>
        rw [turn_client_empty hdn hc]
        exact ⟨g, d, h, rfl, rfl, rfl, fun _ h => h⟩
      | cons b' down =>
        rw [turn_client_recv hdn]
        rw [hdn, List.cons_append] at hd
        obtain ⟨rfl, rfl⟩ := List.cons.inj hd
        exact ⟨g, d, ⟨hc, hl, [], _, out, hq, rfl, hp⟩, rfl, rfl, rfl, fun _ h => h⟩
    | client o =>
      obtain ⟨hdo, hq⟩ := hq
      exact ⟨g, d.next o (clientAnswer env o), ⟨hc, hl.next hdo _, todo, inp, out, hq _ (henv o k rfl hdo), hd, hp⟩,
        rfl, rfl, rfl, fun _ h => h⟩
    | wrote r => exact ⟨g, d, ⟨hc, hl, todo, inp, out, hq, hd, hp⟩, rfl, rfl, rfl, fun _ h => h⟩
    | gotData r => exact ⟨g, d, ⟨hc, hl, todo, inp, out, hq, hd, hp⟩, rfl, rfl, rfl, fun _ h => h⟩
    | hangUp => exact hq.elim
    | server o => exact hq.elim

theorem Speaks.notServer {T : Terms C} {d : Talker} {todo inp : Bytes} {o : SOp}
    {k : (FlowSig C).Ret (.server o) → FlowProg C FlowLoop} (h : Speaks T (.op (.server o) k) d todo inp) : False := h

/-! ## The client's memory -/

section
variable (S : Site C) (x : Party C) (secret gcm signature : Bytes)

theorem returns_effect {d : Talker} {memory : CShared} (hr : Recalls d memory) (hb : d.last + d.left < 2 ^ 64) (o : COp)
    (ho : Does d o) : Returns (termsOf S x secret gcm signature) d o (clientEffect S x memory o).1 := by
  cases o with
  | addCounter a =>
    have h := hr a ho.1
    have hv : (clientEffect S x memory (.addCounter a)).1 = BitVec.ofNat 64 (d.last + 1) := by
      show memory.counters.getD a 0 + 1 = _
      rw [List.getD_eq_getElem?_getD, h]
      exact (BitVec.ofNat_add _ _).symm
    refine ⟨hv, ?_⟩
    rw [hv]
    intro h0
    have h1 := congrArg BitVec.toNat h0
    rw [BitVec.toNat_ofNat, Nat.mod_eq_of_lt (by have := ho.2; omega)] at h1
    cases h1
  | fetch name => exact ⟨fun hn => if_pos hn, trivial, trivial⟩
  | _ => exact ⟨by first | rfl | trivial, by first | rfl | trivial, by first | rfl | trivial⟩

theorem recalls_effect {d : Talker} {memory : CShared} (hr : Recalls d memory) (o : COp) (ho : Does d o) :
    Recalls (d.next o (clientEffect S x memory o).1) (clientEffect S x memory o).2 := by
  cases o with
  | addCounter a =>
    have h := hr a ho.1
    have ha : a < memory.counters.length := (List.getElem?_eq_some_iff.mp h).1
    intro a' ha'
    have ha' : d.addr = some a' := ha'
    rw [ho.1] at ha'
    cases ha'
    show (memory.counters.set a (memory.counters.getD a 0 + 1))[a]? = some (BitVec.ofNat 64 (d.last + 1))
    rw [List.getElem?_set_self ha, List.getD_eq_getElem?_getD, h]
    exact congrArg some (BitVec.ofNat_add _ _).symm
  | newCounter =>
    intro a ha
    cases ha
    show (memory.counters ++ [0])[memory.counters.length]? = some (BitVec.ofNat 64 d.last)
    rw [List.getElem?_concat_length, ho.1]
    rfl
  | _ => exact hr

end

/-! ## Answers as C124 and C128 want them -/

/-- A counter other than 0. -/
def mendedCounter (v : BitVec 64) : BitVec 64 := if v = 0 then 1 else v

theorem mendedCounter_ne (v : BitVec 64) : mendedCounter v ≠ 0 := by
  unfold mendedCounter
  split
  · decide
  · rename_i h; exact h

/-- The key of the host with that name. -/
def mendedKey (T : Terms C) (name : Bytes) (v : Except Err PublicKey) : Except Err PublicKey :=
  if name = T.hostname then .ok T.key else v

/-- The answers that count are left as they are, if they are as they should be. -/
def mended (T : Terms C) (env : FlowEnv C) : FlowEnv C where
  server
    | .quitClosed => false
    | .mapLoad key => ((env.server (.mapLoad key) : Option (Ref × Nat)).getD (0, 0) |> some : Option (Ref × Nat))
    | .secretOf _ => T.secret
    | .check _ _ => true
    | .invoke _ _ _ _ m => HRes.reply (T.f m)
    | .genKey => .ok T.serverKey
    | .sign hash content => T.signer hash content
    | o => env.server o
  client
    | .connect => none
    | .setKeepAlive => none
    | .fetch name => mendedKey T name (env.client (.fetch name))
    | .random => .ok T.random
    | .genKey => .ok T.clientKey
    | .addCounter a => mendedCounter (env.client (.addCounter a))
    | .setWriteDeadline => none
    | o => env.client o

theorem mended_dial (T : Terms C) (env : FlowEnv C) :
    HonestDial T.hostname T.key T.random T.clientKey T.serverKey T.signer (mended T env) where
  connect := rfl
  keepAlive := rfl
  fetch := if_pos rfl
  random := rfl
  clientKey := rfl
  serverKey := rfl
  sign := fun _ _ => rfl

theorem mended_env (T : Terms C) (env : FlowEnv C) : HonestEnv T.secret T.f (mended T env) where
  running := rfl
  known := fun _ => rfl
  secretOf := fun _ => rfl
  fresh := fun _ _ => rfl
  reply := fun _ _ _ _ _ => rfl
  counter := fun a => by
    show mendedCounter (env.client (.addCounter a)) ≠ 0#64
    exact mendedCounter_ne _
  deadline := rfl

theorem mended_server {T : Terms C} {g : SessionStage} (env : FlowEnv C) (o : SOp) (ho : Waits o ∨ Works T g o)
    (hg : Gives T g o (serverAnswer env o)) : serverAnswer (mended T env) o = serverAnswer env o := by
  rcases ho with ho | ho
  · cases o <;> first | exact ho.elim | exact hg.1.symm | rfl
  · cases o with
    | mapLoad key =>
      obtain ⟨-, r, c, top, rfl⟩ := ho
      obtain ⟨t, ht⟩ := hg r c top rfl
      have ht : (env.server (.mapLoad key) : Option (Ref × Nat)) = some (r, t) := ht
      show some ((env.server (.mapLoad key) : Option (Ref × Nat)).getD (0, 0)) =
        (env.server (.mapLoad key) : Option (Ref × Nat))
      rw [ht]
      rfl
    | secretOf r => exact hg.1.symm
    | check r c => exact hg.1.symm
    | invoke r c host id m => exact hg.1.symm
    | genKey => exact hg.2.symm
    | sign hash content => exact hg.2.symm
    | newSession s host id => rfl
    | mapStore key v => rfl
    | now => rfl
    | aead r key nonce plaintext => rfl
    | _ => exact ho.elim

theorem mended_client {T : Terms C} {d : Talker} (env : FlowEnv C) (o : COp)
    (hg : Returns T d o (clientAnswer env o)) : clientAnswer (mended T env) o = clientAnswer env o := by
  cases o with
  | addCounter a =>
    exact if_neg hg.2
  | fetch name =>
    have h : name = T.hostname → (env.client (.fetch name) : Except Err PublicKey) = .ok T.key := hg.1
    show mendedKey T name (env.client (.fetch name)) = env.client (.fetch name)
    by_cases hn : name = T.hostname
    · exact (if_pos hn).trans (h hn).symm
    · exact if_neg hn
  | connect => exact hg.1.symm
  | setKeepAlive => exact hg.1.symm
  | random => exact hg.1.symm
  | genKey => exact hg.1.symm
  | setWriteDeadline => exact hg.2.1.symm
  | _ => rfl

/-- Only the answer to the next effect counts. -/
theorem turn_congr {M : Manager C} {host : Except Err Bytes} {roomUp roomDown : Nat} {env env' : FlowEnv C} (i : Nat)
    (p : FlowProg C FlowLoop) (w : FlowWorld)
    (hs : ∀ o k, p = .op (.server o) k → serverAnswer env' o = serverAnswer env o)
    (hc : ∀ o k, p = .op (.client o) k → clientAnswer env' o = clientAnswer env o) :
    turn M host roomUp roomDown env' i p w = turn M host roomUp roomDown env i p w := by
  cases p with
  | ret l => rfl
  | panic m => rfl
  | op o k =>
    cases o with
    | server o =>
      show (k (serverAnswer env' o), w) = (k (serverAnswer env o), w)
      rw [hs o k rfl]
    | client o =>
      show (k (clientAnswer env' o), w) = (k (clientAnswer env o), w)
      rw [hc o k rfl]
    | send b => rfl
    | recv => rfl
    | hangUp => rfl
    | wrote r => rfl
    | gotData r => rfl

/-! ## All of them -/

section
variable {n : Nat}

theorem Books.restage {T : Fin n → Terms C} {G : Fin n → SessionStage} {W : World} (h : Books T G W) (i : Fin n)
    (g : SessionStage) (hr : g.ref = (G i).ref) (hk : ∀ W, Remembers (T i) W (G i) → Remembers (T i) W g) :
    Books T (setStage G i g) W ∧ ∀ r, Foreign G W r → Foreign (setStage G i g) W r := by
  have href : ∀ j, (setStage G i g j).ref = (G j).ref := by
    intro j
    unfold setStage
    split
    · rename_i hj; rw [hr, hj]
    · rfl
  refine ⟨⟨h.running, fun j => ?_, fun j k hjk r => ?_, fun key hkey r t ht => ?_⟩, fun r hr => ⟨hr.1, fun j => ?_⟩⟩
  · by_cases hj : j = i
    · subst hj
      rw [setStage_self]
      exact hk _ (h.knows j)
    · rw [setStage_ne g hj]
      exact h.knows j
  · rw [href, href]
    exact h.apart j k hjk r
  · simp only [href]
    exact h.foreign key hkey r t ht
  · rw [href]
    exact hr.2 j

variable (S : Site C) (X : Fin n → Party C) (secret gcm signature : Fin n → Bytes)

/-- The table keys of the clients. -/
abbrev TheirKeys (k : Bytes) : Prop := ∃ i, k = (allTerms S X secret gcm signature i).tableKey

/-- What holds at any time. -/
structure NetInv (s : Network C n) (G : Fin n → SessionStage) (D : Fin n → Talker) : Prop where
  books : Books (allTerms S X secret gcm signature) G s.world
  links : ∀ i, ∃ q p w, (s.links i).flow = ⟨w, [q, p]⟩ ∧ Joined (allTerms S X secret gcm signature i) (G i) (D i) q p w
  memory : ∀ i, Recalls (D i) (s.links i).memory
  others : ∀ t ∈ s.others, ∃ g, ThreadOK (strangerA C (TheirKeys S X secret gcm signature)) t g ∧
    ∀ r ∈ g, Foreign G s.world r

variable {S X secret gcm signature} {s : Network C n} {G : Fin n → SessionStage} {D : Fin n → Talker}

/-- Somebody else connects. -/
theorem NetInv.joins (h : NetInv S X secret gcm signature s G D) (peer : Peer)
    (hpeer : ∀ h, peer.host = .ok h → ∀ id i, sessionKey C h id ≠ (allTerms S X secret gcm signature i).tableKey) :
    NetInv S X secret gcm signature (s.step S X (.joins peer)) G D where
  books := h.books
  links := h.links
  memory := h.memory
  others := by
    intro t ht
    rcases List.mem_append.mp ht with ht | ht
    · exact h.others t ht
    · obtain rfl := List.mem_singleton.mp ht
      exact ⟨[], stranger_ofPeer peer (fun host hh id ⟨i, hi⟩ => hpeer host hh id i hi) [], nofun⟩

/-- Somebody else is served. -/
theorem NetInv.serves (h : NetInv S X secret gcm signature s G D) (j : Nat) (a : Answer C) :
    NetInv S X secret gcm signature (s.step S X (.serves j a)) G D ∧ (s.step S X (.serves j a)).links = s.links := by
  unfold Network.step
  dsimp only
  cases hj : s.others[j]? with
  | none => exact ⟨h, rfl⟩
  | some t =>
    obtain ⟨g, hok, hg⟩ := h.others t (List.mem_of_getElem? hj)
    refine ⟨?_, rfl⟩
    dsimp only
    rcases hok.step 0 a s.world with ⟨h1, h2⟩ | ⟨o, hpre, h1, h2⟩
    · refine ⟨by rw [h2]; exact h.books, h.links, h.memory, fun t' ht' => ?_⟩
      show ∃ g, ThreadOK _ t' g ∧ ∀ r ∈ g, Foreign G (t.step 0 a s.world).2 r
      rw [h2]
      rcases List.mem_or_eq_of_mem_set ht' with ht' | rfl
      · exact h.others t' ht'
      · exact ⟨g, h1, hg⟩
    · obtain ⟨hb, hlen, hf⟩ := h.books.stranger a o t.conn g hg hpre
      refine ⟨by rw [h2]; exact hb, h.links, h.memory, fun t' ht' => ?_⟩
      show ∃ g, ThreadOK _ t' g ∧ ∀ r ∈ g, Foreign G (t.step 0 a s.world).2 r
      rw [h2]
      rcases List.mem_or_eq_of_mem_set ht' with ht' | rfl
      · obtain ⟨g', h3, h4⟩ := h.others t' ht'
        exact ⟨g', h3, fun r hr => ⟨Nat.lt_of_lt_of_le (h4 r hr).1 hlen, (h4 r hr).2⟩⟩
      · exact ⟨_, h1, hf⟩

theorem serverAnswer_env (i : Fin n) (tick : Nat) (o : SOp) :
    serverAnswer (s.env S X i tick) o = (serverEffect S (X i) tick s.world o).1 := by cases o <;> rfl

theorem clientAnswer_env (i : Fin n) (tick : Nat) (o : COp) :
    clientAnswer (s.env S X i tick) o = (clientEffect S (X i) (s.links i).memory o).1 := by cases o <;> rfl

/-- A client or its goroutine goes on. -/
theorem NetInv.go (hC : C.Lawful) (hT : ∀ i, (allTerms S X secret gcm signature i).Works)
    (hkeys : ∀ i j, i ≠ j →
      (allTerms S X secret gcm signature i).tableKey ≠ (allTerms S X secret gcm signature j).tableKey)
    (h : NetInv S X secret gcm signature s G D) (i : Fin n) (side tick : Nat) :
    (∃ G' D', NetInv S X secret gcm signature (s.step S X (.go i side tick)) G' D') ∧
    ((s.step S X (.go i side tick)).links i).flow =
      Loops.step (flowBody (inMemory C) (.ok (X i).host)) (flowExec (X i).roomUp (X i).roomDown) (s.links i).flow
        (side, mended (allTerms S X secret gcm signature i) (s.env S X i tick)) ∧
    ∀ j, j ≠ i → (s.step S X (.go i side tick)).links j = s.links j := by
  refine and_assoc.mp ⟨?_, fun j hj => if_neg hj⟩
  obtain ⟨q, p, w, hflow, hjoin⟩ := h.links i
  have hlinki : ((s.step S X (.go i side tick)).links i).flow = Loops.step (flowBody (inMemory C) (.ok (X i).host))
      (flowExec (X i).roomUp (X i).roomDown) ⟨w, [q, p]⟩ (side, s.env S X i tick) := by
    rw [← hflow]
    show (if i = i then _ else _ : Link C).flow = _
    rw [if_pos rfl]
  have hmem : ((s.step S X (.go i side tick)).links i).memory = match (s.links i).flow.threads[side]? with
      | some (.op (.client o) _) => (clientEffect S (X i) (s.links i).memory o).2
      | _ => (s.links i).memory := by
    show (if i = i then _ else _ : Link C).memory = _
    rw [if_pos rfl]
    rfl
  have hworld : (s.step S X (.go i side tick)).world = match (s.links i).flow.threads[side]? with
      | some (.op (.server o) _) => (serverEffect S (X i) tick s.world o).2
      | _ => s.world := rfl
  have hother : ∀ j, j ≠ i → (s.step S X (.go i side tick)).links j = s.links j := fun j hj => if_neg hj
  rw [hflow] at hmem hworld ⊢
  have key : ∀ g d q' p' w', ((s.step S X (.go i side tick)).links i).flow = ⟨w', [q', p']⟩ →
      Joined (allTerms S X secret gcm signature i) g d q' p' w' →
      Recalls d ((s.step S X (.go i side tick)).links i).memory →
      Books (allTerms S X secret gcm signature) (setStage G i g) (s.step S X (.go i side tick)).world →
      (∀ r, Foreign G s.world r → Foreign (setStage G i g) (s.step S X (.go i side tick)).world r) →
      ∃ G' D', NetInv S X secret gcm signature (s.step S X (.go i side tick)) G' D' := by
    intro g d q' p' w' h1 h2 h3 h4 h5
    refine ⟨setStage G i g, fun j => if j = i then d else D j, h4, fun j => ?_, fun j => ?_, fun t ht => ?_⟩
    · by_cases hj : j = i
      · subst hj
        rw [setStage_self, if_pos rfl]
        exact ⟨q', p', w', h1, h2⟩
      · rw [setStage_ne g hj, if_neg hj, hother j hj]
        exact h.links j
    · by_cases hj : j = i
      · subst hj
        rw [if_pos rfl]
        exact h3
      · rw [if_neg hj, hother j hj]
        exact h.memory j
    · obtain ⟨g', h6, h7⟩ := h.others t ht
      exact ⟨g', h6, fun r hr => h5 r (h7 r hr)⟩
  match side with
  | 0 =>
    have hq := hjoin.2.2
    have hl := hjoin.2.1
    have henv : ∀ o k, q = .op (.client o) k → Does (D i) o →
        Returns (allTerms S X secret gcm signature i) (D i) o (clientAnswer (s.env S X i tick) o) :=
      fun o k _ hd => clientAnswer_env (S := S) (X := X) i tick o ▸
        returns_effect S (X i) _ _ _ (h.memory i) hl.bound o hd
    have hw0 : (s.step S X (.go i 0 tick)).world = s.world := by
      rw [hworld]
      split
      · rename_i o k hh
        obtain ⟨todo, inp, out, hq, -⟩ := hq
        have hh : q = .op (.server o) k := Option.some.inj hh
        subst hh
        exact hq.elim
      · rfl
    refine ⟨?_, ?_⟩
    · obtain ⟨g', d', h1, h2, h3, h4, h5⟩ := hjoin.client (M := inMemory C) (host := .ok (X i).host)
        (roomUp := (X i).roomUp) (roomDown := (X i).roomDown) (hT i) henv
      rw [flowStep_eq, flowStep_client] at hlinki
      obtain ⟨h6, h7⟩ := h.books.restage i g' h4 h5
      refine key g' d' _ _ _ hlinki h1 ?_ (by rw [hw0]; exact h6) (by rw [hw0]; exact h7)
      rw [hmem]
      intro a ha
      rw [h2] at ha
      rw [h3]
      cases q with
      | op o k =>
        cases o with
        | client o =>
          obtain ⟨todo, inp, out, hq, -⟩ := hq
          have he : talkerAfter (s.env S X i tick) (D i) (.op (.client o) k) =
              (D i).next o (clientEffect S (X i) (s.links i).memory o).1 := by rw [← clientAnswer_env]; rfl
          rw [he] at ha ⊢
          exact recalls_effect S (X i) (h.memory i) o hq.1 a ha
        | _ => exact h.memory i a ha
      | _ => exact h.memory i a ha
    · rw [hlinki, flowStep_eq, flowStep_eq, flowStep_client, flowStep_client, turn_congr 0 q w]
      · rintro o k rfl
        obtain ⟨todo, inp, out, hq, -⟩ := hq
        exact hq.elim
      · rintro o k rfl
        obtain ⟨todo, inp, out, hq, -⟩ := hq
        exact (mended_client _ o (henv o k rfl hq.1)).symm
  | 1 =>
    obtain ⟨todo, inp, out, hq, hd, hp⟩ := hjoin.2.2
    have hfine := hp.fine (hT i).short.1
    have henv : ∀ o k, p = .op (.server o) k → Waits o ∨ Works (allTerms S X secret gcm signature i) (G i) o →
        Gives (allTerms S X secret gcm signature i) (G i) o (serverAnswer (s.env S X i tick) o) :=
      fun o k _ ho => serverAnswer_env (S := S) (X := X) i tick o ▸
        gives_effect S (X i) _ _ _ (h.books.knows i) h.books.running tick o ho
    refine ⟨?_, ?_⟩
    · rw [flowStep_eq, flowStep_server] at hlinki
      have hm : ((s.step S X (.go i 1 tick)).links i).memory = (s.links i).memory := by
        rw [hmem]
        split
        · rename_i o k hh
          have hh : p = .op (.client o) k := Option.some.inj hh
          subst hh
          exact hfine.elim
        · rfl
      have h1 := hjoin.server (roomUp := (X i).roomUp) (roomDown := (X i).roomDown) hC (hT i) henv
      refine key _ (D i) _ _ _ hlinki h1 (by rw [hm]; exact h.memory i) ?_ ?_
      · rw [hworld]
        cases p with
        | op o k =>
          cases o with
          | server o =>
            rw [show stageAfter (s.env S X i tick) (G i) (.op (.server o) k) =
              (G i).next o (serverEffect S (X i) tick s.world o).1 by rw [← serverAnswer_env]; rfl]
            exact (h.books.own _ _ _ _ _ hkeys i tick o hfine).1
          | _ => exact (setStage_same (G := G) i).symm ▸ h.books
        | _ => exact (setStage_same (G := G) i).symm ▸ h.books
      · rw [hworld]
        cases p with
        | op o k =>
          cases o with
          | server o =>
            rw [show stageAfter (s.env S X i tick) (G i) (.op (.server o) k) =
              (G i).next o (serverEffect S (X i) tick s.world o).1 by rw [← serverAnswer_env]; rfl]
            exact (h.books.own _ _ _ _ _ hkeys i tick o hfine).2
          | _ => exact (setStage_same (G := G) i).symm ▸ fun _ h => h
        | _ => exact (setStage_same (G := G) i).symm ▸ fun _ h => h
    · rw [hlinki, flowStep_eq, flowStep_eq, flowStep_server, flowStep_server, turn_congr 1 p w]
      · rintro o k rfl
        exact (mended_server _ o hfine (henv o k rfl hfine)).symm
      · rintro o k rfl
        exact hfine.elim
  | side + 2 =>
    refine ⟨key (G i) (D i) q p w hlinki hjoin (by rw [hmem]; exact h.memory i) ?_ ?_, hlinki⟩
    · rw [setStage_same, hworld]
      exact h.books
    · rw [setStage_same, hworld]
      exact fun _ h => h

end

end

end Goe2ee
