import Verif.Proofs.Local
import Verif.Model.UDP

/-!
# Datagrams: goroutines of the server, and `UDPConn` against the models of connections
-/

set_option autoImplicit false

namespace Goe2ee

/-- Everything written to a connection. -/
def Conn.written (c : Conn) : Bytes := (c.writes.map (·.1)).flatten

/-- Ghost state: the peer a listener got last, and whether the answer was sent. -/
structure UGhost where
  last : Option Peer
  flushed : Bool

section
variable (C : Crypto)

/-- Listeners start goroutines only for peers they got; the answer is sent once, after all writes. -/
def udpA : Auto (SSig C) UGhost where
  pre
    | .spawn p, g => g.last = some p
    | .write _, g => g.flushed = false
    | .flush, g => g.flushed = false
    | _, _ => True
  next
    | .receive, .ok p, g => { g with last := some p }
    | .accept, .ok p, g => { g with last := some p }
    | .flush, _, g => { g with flushed := true }
    | _, _, g => g

variable {C}

/-- The connection of a goroutine in terms of the peers that were received. -/
def UdpR (hist : Peer → Prop) (g : UGhost) (c : Conn) : Prop :=
  (∀ p, g.last = some p → hist p) ∧
  (c.buffered = true → ∃ host d, hist (.udp host d) ∧ flatten c.input <:+ d.map Sum.inl ∧
    ((c.sent = [] ∧ c.output = c.written) ∨
     (g.flushed = true ∧ c.sent = [c.written] ∧ c.written ≠ [])))

theorem serving_udp {α : Type} {p : SProg C α} (hp : Uses (S := SSig C) SOp.serving p) {g : UGhost}
    (hg : g.flushed = false) {Q : α → UGhost → Prop} {E : String → UGhost → Prop} (hQ : ∀ a, Q a g)
    (hE : ∀ m, E m g) : SafeE (udpA C) p g Q E := by
  induction p with
  | ret a => exact hQ a
  | panic m => exact hE m
  | op o k ih =>
    have hpre : (udpA C).pre o g := by
      rcases hp.1 with (h | h | h | h) | h <;> cases o <;>
        first | exact h.elim | exact hg | trivial
    have hnext : ∀ r, (udpA C).next o r g = g := by
      intro r
      rcases hp.1 with (h | h | h | h) | h <;> cases o <;> first | exact h.elim | rfl
    refine ⟨hpre, fun r => ?_⟩
    rw [hnext r]
    exact ih r (hp.2 r)

theorem udp_ofPeer {M : Manager C} (hM : M.Passive) (p : Peer) :
    ThreadOK (udpA C) (Thread.ofPeer M p) ⟨none, false⟩ := by
  have hb : ∀ (b : Bool) (g : UGhost), g.flushed = false →
      if b then g.flushed = false else g.flushed = false := by intro b g h; cases b <;> exact h
  cases p with
  | tcp host input =>
    have hpass : ∀ g : UGhost, g.flushed = false → SafeE (udpA C) (connPass M host) g
        (fun b g' => if b then g'.flushed = false else g'.flushed = false)
        (fun _ g' => g'.flushed = false) := by
      intro g hg
      refine ⟨trivial, fun (closed : Bool) => ?_⟩
      cases closed with
      | true => exact hg
      | false =>
        refine ⟨trivial, fun _ => ?_⟩
        exact serving_udp (serving_serveRequest hM host) hg (fun b => hb b _ hg) (fun _ => hg)
    refine ⟨fun g => g.flushed = false, fun g => g.flushed = false, hpass _ rfl, hpass, ?_⟩
    exact fun g _ => ⟨trivial, fun _ => ⟨trivial, fun _ => trivial⟩⟩
  | udp host d =>
    refine ⟨fun g => g.flushed = false, fun g => g.flushed = false, ?_, fun g h => h, ?_⟩
    · exact ⟨trivial, fun _ =>
        SafeE.bind (serving_udp (serving_serveRequest hM host) rfl (fun b => rfl) (fun _ => rfl))⟩
    · exact fun g hg => ⟨hg, fun _ => trivial⟩

theorem udp_start (hist : Peer → Prop) (ttl closers : Nat) :
    ∀ t ∈ (Sys.start (C := C) ttl closers).threads, LocalOK (udpA C) (UdpR hist) t := by
  have hR : UdpR hist ⟨none, false⟩ Conn.none := ⟨fun p h => (by cases h), fun h => (by cases h)⟩
  have hloop : ∀ {p : SProg C Bool},
      (∀ g, SafeE (udpA C) p g (fun _ _ => True) (fun _ _ => True)) →
      LocalOK (udpA C) (UdpR hist) (.repeating p) := by
    intro p hp
    refine ⟨⟨none, false⟩, ⟨fun _ => True, fun _ => True, ?_, ?_, fun _ _ => trivial⟩, hR⟩
    · exact (hp _).mono (fun a _ _ => by cases a <;> trivial) (fun _ _ _ => trivial)
    · exact fun g _ => (hp g).mono (fun a _ _ => by cases a <;> trivial) (fun _ _ _ => trivial)
  refine start_threads (hloop ?_) (hloop ?_) (hloop ?_) ?_
  · refine fun g => ⟨trivial, fun (closed : Bool) => ?_⟩
    cases closed with
    | true => trivial
    | false =>
      refine ⟨trivial, fun (acc : Except Err Peer) => ?_⟩
      cases acc with
      | error e => trivial
      | ok p => exact ⟨trivial, fun _ => ⟨rfl, fun _ => trivial⟩⟩
  · refine fun g => ⟨trivial, fun (closed : Bool) => ?_⟩
    cases closed with
    | true => trivial
    | false =>
      refine ⟨trivial, fun (acc : Except Err Peer) => ?_⟩
      cases acc with
      | error e => trivial
      | ok p => exact ⟨rfl, fun _ => trivial⟩
  · intro g
    refine ⟨trivial, fun (key : Bytes) => ⟨trivial, fun (value : Option (Ref × Nat)) => ?_⟩⟩
    rcases value with _ | ⟨r, last⟩
    · trivial
    refine ⟨trivial, fun (t : Nat) => ?_⟩
    dsimp only
    split
    · exact ⟨trivial, fun _ => trivial⟩
    · trivial
  · refine ⟨⟨none, false⟩, ⟨fun _ => True, fun _ => True, ?_, fun _ _ => trivial, fun _ _ => trivial⟩, hR⟩
    refine ⟨trivial, fun (ok : Bool) => ?_⟩
    cases ok with
    | true => exact ⟨trivial, fun _ => ⟨trivial, fun _ => trivial⟩⟩
    | false => trivial

theorem exec_udp (hist : Peer → Prop) (timeout : Nat) (a : Answer C)
    (ha : ∀ p, a.peer = .ok p → hist p) (o : SOp) (c : Conn) (w : World) (g : UGhost)
    (hpre : (udpA C).pre o g) (h : UdpR hist g c) :
    UdpR hist ((udpA C).next o (exec C timeout a o (c, w)).1 g) (exec C timeout a o (c, w)).2.1 := by
  have hlast : ∀ p, a.peer = .ok p → UdpR hist { g with last := some p } c := by
    intro p hp
    refine ⟨fun q hq => ?_, h.2⟩
    cases hq
    exact ha _ hp
  cases o with
  | receive =>
    simp only [exec]
    cases hp : a.peer with
    | error e => exact h
    | ok p => cases p with
      | tcp host inp => exact h
      | udp host d => exact hlast _ hp
  | accept =>
    simp only [exec]
    cases hp : a.peer with
    | error e => exact h
    | ok p => cases p with
      | tcp host inp => exact hlast _ hp
      | udp host d => exact h
  | read o =>
    refine ⟨h.1, fun hb => ?_⟩
    obtain ⟨host, d, h1, h2, h3⟩ := h.2 hb
    refine ⟨host, d, h1, ?_, h3⟩
    exact readInterp_keeps (P := fun evs => flatten evs <:+ d.map Sum.inl)
      (fun s k hs => (readEv_suffix s k).trans hs) o c.input h2
  | write bs =>
    refine ⟨h.1, fun hb => ?_⟩
    have hb : c.buffered = true := hb
    obtain ⟨host, d, h1, h2, h3⟩ := h.2 hb
    refine ⟨host, d, h1, h2, .inl ?_⟩
    have hpre : g.flushed = false := hpre
    rcases h3 with ⟨h3, h4⟩ | ⟨h3, -⟩
    · refine ⟨h3, ?_⟩
      simp only [exec, execWrite, hb, if_true, Conn.written, List.map_append, List.flatten_append,
        List.take_length]
      rw [h4]
      simp [Conn.written]
    · rw [hpre] at h3; cases h3
  | flush =>
    have hpre : g.flushed = false := hpre
    refine ⟨h.1, fun hb => ?_⟩
    simp only [exec] at hb ⊢
    split at hb
    · rename_i ho
      rw [if_pos ho]
      obtain ⟨host, d, h1, h2, h3⟩ := h.2 hb
      exact ⟨host, d, h1, h2, h3.imp id fun h3 => ⟨rfl, h3.2⟩⟩
    · rename_i ho
      rw [if_neg ho]
      obtain ⟨host, d, h1, h2, h3⟩ := h.2 hb
      rcases h3 with ⟨h3, h4⟩ | ⟨h3, -⟩
      · refine ⟨host, d, h1, h2, .inr ⟨rfl, ?_, ?_⟩⟩
        · show c.sent ++ [c.output] = [c.written]
          rw [h3, h4]; rfl
        · show c.written ≠ []
          rw [← h4]; exact fun h => ho (.inl h)
      · rw [hpre] at h3; cases h3
  | check r counter =>
    simp only [exec]
    split <;> exact h
  | _ => exact h

theorem udp_keeps {M : Manager C} (hM : M.Passive) (hist : Peer → Prop) (timeout : Nat) :
    KeepsLocal M timeout (udpA C) (UdpR hist) (fun a => ∀ p, a.peer = .ok p → hist p) where
  exec a o c w g ha hpre h := exec_udp hist timeout a ha o c w g hpre h
  spawn p c g hpre h := by
    refine ⟨_, udp_ofPeer hM p, fun q hq => (by cases hq), fun hb => ?_⟩
    cases p with
    | tcp host inp => cases hb
    | udp host d =>
      refine ⟨host, d, h.1 _ hpre, ?_, .inl ⟨rfl, rfl⟩⟩
      simp [Conn.ofPeer, flatten]

end

end Goe2ee
