import Verif.Model.ProtocolFetcher
import Verif.Proofs.Borrow
import Verif.Props.InStep
import Verif.Props.Handshake

/-!
# C140: error responses are reported with their code and message
-/

set_option autoImplicit false

namespace Goe2ee

section
variable {C : Crypto}

/-- The octets of an error response; the reserved bits of the first are free. -/
def refusal (header : Byte) (code : BitVec 32) (text : Bytes) : Bytes :=
  header :: (Wire.be32 code.toNat ++ Wire.be64 text.length ++ text)

theorem refusal_parse {header : Byte} {code : BitVec 32} {text : Bytes} {t : Transport} {rest : List (Byte ⊕ Err)}
    (hl : text.length < 2 ^ 63) (hstream : t.stream = (refusal header code text).map Sum.inl ++ rest) :
    runI parseResponseCommon t.stream = (.val (.ok ⟨(header >>> 7) == 1#8, (header <<< 1) >>> 1⟩),
      (runNet parseResponseCommon t).2.stream) ∧
    runI (parseErrorResponse ⟨(header >>> 7) == 1#8, (header <<< 1) >>> 1⟩)
        (runNet parseResponseCommon t).2.stream =
      (.val (.ok ⟨⟨(header >>> 7) == 1#8, (header <<< 1) >>> 1⟩, code, text⟩), rest) := by
  rw [refusal, List.map_cons, List.cons_append] at hstream
  have h1 := (congrArg (runI parseResponseCommon) hstream).trans (runI_parseResponseCommon _ _)
  have h2 := congrArg (runI (parseErrorResponse ⟨(header >>> 7) == 1#8, (header <<< 1) >>> 1⟩)) (runNet_rest h1)
  rw [show Wire.be32 code.toNat ++ Wire.be64 text.length ++ text =
    beEnc 4 code.toNat ++ (beEnc 8 text.length ++ text) by simp [beEnc_eight, beEnc_four],
    runI_parseErrorResponse _ code text hl rest] at h2
  exact ⟨h1.trans (by rw [runNet_rest h1]), h2⟩

/-- **C140**, dialling: if the server answers the setup request with an error response, in any segmentation, the
error of `Dial` contains its code and its message.  No session exists then, and over TCP the connection is
closed. -/
theorem C140_dial (env : CEnv C) (udp : Bool) (hostname : Bytes) (options : ClientOptions) (key : PublicKey)
    (random : ID) (priv : C.EPriv) (header : Byte) (code : BitVec 32) (text : Bytes) (s : CConn × CShared)
    (rest : List (Byte ⊕ Err))
    (hconnect : env.connect = none) (hkeep : env.keepAlive = none) (hwrite : env.write = (0, none))
    (hclose : env.close = none) (hfetch : env.fetch hostname = .ok key) (hrandom : env.random = .ok random)
    (hgen : env.genKey = .ok priv) (hh : header.msb = false) (hl : text.length < 2 ^ 63)
    (hstream : s.1.net.written.stream = (refusal header code text).map Sum.inl ++ rest) :
    ∃ s', runClient env (dial udp (.ok hostname) options) s =
        (.val (.error (.remote "failed to set shared secret" code text)), s') ∧
      s'.1.net.stream = rest ∧ s'.2 = s.2 ∧ ((∃ input, s.1.net = .tcp input) → s'.1.isOpen = false) := by
  obtain ⟨h1, h2⟩ := refusal_parse hl hstream
  obtain ⟨⟨net, writes, isOpen⟩, w⟩ := s
  dsimp only at hstream h1 h2 ⊢
  have hshake : ∃ t ws, t.stream = rest ∧ ((∃ input, net = .tcp input) → ∃ input, t = .tcp input) ∧
      (handshake (.ok hostname)).run (cexec env) ({ net, writes, isOpen := true }, w) =
      (.val (.error (.remote "failed to set shared secret" code text)), ({ net := t, writes := ws, isOpen := true }, w)) := by
    unfold handshake
    simp only [Prog.run, cexec, hfetch, hrandom, hgen, hwrite, uuid, Nat.sub_zero]
    rw [if_neg (by simp), run_parse_eq _ _ h1]
    dsimp only
    rw [if_pos (by rw [success_msb, hh]; rfl), run_parse_eq _ _ h2]
    refine ⟨_, _, runNet_rest h2, ?_, rfl⟩
    rintro ⟨input, rfl⟩
    obtain ⟨i1, e1⟩ := runNet_tcp parseResponseCommon input
    obtain ⟨i2, e2⟩ := runNet_tcp (parseErrorResponse ⟨(header >>> 7) == 1#8, (header <<< 1) >>> 1⟩) i1
    exact ⟨i2, by rw [Transport.written, e1, e2]⟩
  obtain ⟨t, ws, ht, htcp, hrun⟩ := hshake
  have hor : ∃ s', (handshakeOrClose (newClient (.ok hostname) options)).run (cexec env)
        ({ net, writes, isOpen := true }, w) =
        (.val (.error (.remote "failed to set shared secret" code text)), s') ∧
      s'.1.net.stream = rest ∧ s'.2 = w ∧ ((∃ input, net = .tcp input) → s'.1.isOpen = false) := by
    rw [handshakeOrClose, Prog.run_bind, show (newClient (.ok hostname) options).host = .ok hostname from rfl, hrun]
    dsimp only
    cases t with
    | tcp input =>
      simp only [Client.close, Prog.bind, Prog.run, cexec, hclose]
      exact ⟨_, rfl, ht, rfl, fun _ => rfl⟩
    | udp a b q =>
      simp only [Client.close, Prog.bind, Prog.run, cexec]
      refine ⟨_, rfl, ht, rfl, fun h => ?_⟩
      obtain ⟨_, h⟩ := htcp h
      cases h
  unfold runClient dial dialUDP dialTCP
  cases udp <;>
  · simp only [if_true, if_false, Bool.false_eq_true, Prog.run, cexec, hconnect, hkeep, Option.isNone,
      Bool.or_true]
    exact hor

/-- **C140**, reading: if the answer to a message is an error response, the error of `Read` contains its code and
its message; the client is unchanged and exactly this response was taken from the connection. -/
theorem C140_read (env : CEnv C) (c : Client) (n : Nat) (header : Byte) (code : BitVec 32) (text : Bytes)
    (s : CConn × CShared) (rest : List (Byte ⊕ Err)) (hd : env.readDeadline = none) (hb : c.buffer = [])
    (hh : header.msb = false) (hl : text.length < 2 ^ 63)
    (hstream : s.1.net.stream = (refusal header code text).map Sum.inl ++ rest) :
    ∃ t, runClient env (c.read n) s = (.val (([], some (.remote "failed to read data" code text)), c),
        ({ s.1 with net := t }, s.2)) ∧ t.stream = rest := by
  obtain ⟨h1, h2⟩ := refusal_parse hl hstream
  obtain ⟨conn, w⟩ := s
  refine ⟨_, ?_, runNet_rest h2⟩
  rw [runClient, Client.read, run_readDeadline, hd, ite_self]
  dsimp only at h1 h2 ⊢
  rw [if_neg (by simpa using hb), run_parse_eq _ _ h1]
  dsimp only
  rw [if_pos (by rw [success_msb, hh]; rfl), run_parse_eq _ _ h2]
  rfl

/-- **C140**, fetching a key from the server: likewise, and the socket is closed. -/
theorem C140_fetch (env : CEnv C) (network : Bytes) (hnet : network = str "tcp" ∨ network = str "udp")
    (header : Byte) (code : BitVec 32) (text : Bytes) (s : CConn × CShared) (rest : List (Byte ⊕ Err))
    (hconnect : env.connect = none) (hwrite : env.write.2 = none) (hclose : env.close = none)
    (hh : header.msb = false) (hl : text.length < 2 ^ 63)
    (hstream : s.1.net.written.stream = (refusal header code text).map Sum.inl ++ rest) :
    ∃ s', runClient env (protocolFetch (C := C) network) s = (.val (.error (.remote "error response" code text)), s') ∧
      s'.1.net.stream = rest ∧ s'.1.isOpen = false := by
  obtain ⟨h1, h2⟩ := refusal_parse hl hstream
  obtain ⟨⟨net, writes, isOpen⟩, w⟩ := s
  dsimp only at h1 h2
  unfold runClient protocolFetch
  rw [if_pos hnet]
  simp only [Prog.run, cexec, hconnect, Option.isNone, Bool.or_true]
  rw [Prog.run_bind]
  unfold protocolExchange
  simp only [Prog.run, cexec, hwrite]
  rw [run_parse_eq _ _ h1]
  dsimp only
  rw [if_pos (by rw [success_msb, hh]; rfl), run_parse_eq _ _ h2]
  simp only [Prog.run, hclose]
  exact ⟨_, rfl, runNet_rest h2, rfl⟩

end

namespace ReportedExample
open HandshakeExample

/-- What a server that cannot sign answers to the client of `HandshakeExample`. -/
def answer : Bytes :=
  (serveOne 5000 (fun _ => { OnceExample.answer (.error .eof) with
      sign := fun _ _ => .error (.other "smart card removed") } : Nat → Answer Toy.crypto) (str "10.0.0.1")
    (SessionExample.start SessionExample.world (Wire.setupRequest (uuidOf ⟨List.replicate 16 1, rfl⟩).val
      (Toy.crypto.marshalEPub (5 : BitVec 256))))).conn.output

/-- It is an error response. -/
example : answer = refusal 0 2 (str "failed to sign response") := by decide +kernel

/-- The client says so, over TCP and UDP. -/
example : ∀ udp ∈ [false, true], (match runClient env (dial udp (.ok (str "example.com")) {})
      (start (if udp then .udp false [] [.ok answer] else .tcp (answer.map fun b => .data [b]))) with
    | (.val (.error e), _) => some e
    | _ => none) = some (.remote "failed to set shared secret" 2 (str "failed to sign response")) := by
  decide +kernel

end ReportedExample

end Goe2ee
