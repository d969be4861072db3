import Verif.Model.ChatStart
import Verif.Proofs.Dns
import Verif.Props.KeySources

/-!
# C149–C151: how the user program of the chat example starts and ends
-/

set_option autoImplicit false

namespace Goe2ee

/-! ## Decimal numbers -/

theorem digitChar_toNat {d : Nat} (h : d < 10) : d.digitChar.toNat = 48 + d := by
  match d, h with
  | 0, _ | 1, _ | 2, _ | 3, _ | 4, _ | 5, _ | 6, _ | 7, _ | 8, _ | 9, _ => rfl

theorem formatUint_lt {d : Nat} (h : d < 10) : formatUint d = [BitVec.ofNat 8 (48 + d)] := by
  unfold formatUint
  rw [Nat.toDigits_of_lt_base h, List.map_cons, List.map_nil, digitChar_toNat h]

theorem formatUint_ge {n : Nat} (h : 10 ≤ n) : formatUint n = formatUint (n / 10) ++ formatUint (n % 10) := by
  unfold formatUint
  rw [← List.map_append, Nat.toDigits_append_toDigits (by decide) (by omega) (by omega)]
  congr 2
  omega

theorem numeral_formatUint (n : Nat) : Numeral (formatUint n) n := by
  induction n using Nat.strongRecOn with
  | _ n ih =>
    have hdigit : ∀ d, d < 10 → (BitVec.ofNat 8 (48 + d)).toNat = 48 + d := by
      intro d hd
      rw [BitVec.toNat_ofNat]
      omega
    by_cases h : n < 10
    · rw [formatUint_lt h]
      refine ⟨by simp, fun c hc => ?_, ?_⟩
      · rw [List.mem_singleton.mp hc, hdigit n h]
        omega
      · simp only [List.foldl_cons, List.foldl_nil]
        rw [hdigit n h]
        omega
    · obtain ⟨h1, h2, h3⟩ := ih (n / 10) (by omega)
      rw [formatUint_ge (by omega), formatUint_lt (d := n % 10) (by omega)]
      refine ⟨by simp, fun c hc => ?_, ?_⟩
      · rcases List.mem_append.mp hc with hc | hc
        · exact h2 c hc
        · rw [List.mem_singleton.mp hc, hdigit _ (by omega)]
          omega
      · rw [List.foldl_append, h3]
        simp only [List.foldl_cons, List.foldl_nil]
        rw [hdigit _ (by omega)]
        omega

theorem parseInt64_formatUint {p : Nat} (h : p < 2 ^ 63) : parseInt64 (formatUint p) = some (p : Int) := by
  have hn := numeral_formatUint p
  have hp : parseUint (formatUint p) 64 = some p := parseUint_iff.mpr ⟨hn, by omega⟩
  obtain ⟨hne, hd, -⟩ := hn
  unfold parseInt64
  split
  · rename_i digits heq
    have := hd 45#8 (by rw [heq]; simp)
    simp at this
  · rename_i digits heq
    have := hd 43#8 (by rw [heq]; simp)
    simp at this
  · rw [hp]
    simp [h]

theorem split_local (p : Nat) :
    splitHostPort (str "127.0.0.1:" ++ formatUint p) = .ok (str "127.0.0.1", formatUint p) := by
  have h := C71_names_partial (str "127.0.0.1") p (by decide +kernel)
  have h' : str "127.0.0.1:" = str "127.0.0.1" ++ [58#8] := by decide +kernel
  rw [h', List.append_assoc]
  exact h

/-! ## C149 -/

/-- The operating system lets a program listen at the address it asked for, with a port. -/
def StartEnv.Listens (e : StartEnv) : Prop :=
  (∀ udp address a, e.start udp address = .ok a → ∃ p < 65536, a = str "127.0.0.1:" ++ formatUint p) ∧
  ∀ address a, e.listen address = .ok a → ∃ q < 65536, a = str "127.0.0.1:" ++ formatUint q

/-- What the program sends to the registry: nothing, or one user, who can be reached. -/
def PostedReachable (name network : Bytes)
    (posted : List (ChatUser × Option (Bool × Bytes) × Option Bytes × Bool × Bool)) : Prop :=
  posted = [] ∨ ∃ (udp : Bool) (p q : Nat), name ≠ [] ∧ network = (if udp then str "udp" else str "tcp") ∧
    posted = [(⟨name, network, str "127.0.0.1", p, q⟩, some (udp, str "127.0.0.1:" ++ formatUint p),
      some (str "127.0.0.1:" ++ formatUint q), true, true)]

theorem leaveNotify_run (e : StartEnv) (w : StartWorld) :
    leaveNotify.run (startExec e) w = (.val (), { w with notify := none, serving := false, server := none }) := rfl

/-- The registry and the log after a request to register. -/
def StartWorld.afterPost (w : StartWorld) (e : StartEnv) (user : ChatUser) : StartWorld :=
  { w with
    registered := if (e.post user).1 then w.registered ++ [user] else w.registered
    posted := w.posted ++ [(user, w.server, w.notify, w.serving, w.printing)]
    received := w.received + responses (e.post user).2
    closed := w.closed + responses (e.post user).2 }

theorem chatRegister_run (e : StartEnv) (user : ChatUser) (w : StartWorld) :
    ∃ r, (chatRegister user).run (startExec e) w = (.val r, w.afterPost e user) ∧
      (r = none ↔ (e.post user).2 = .ok 201 ∧ e.body = none) := by
  obtain ⟨key, start, listen, post, body, unregister⟩ := e
  rcases hp : post user with ⟨accepted, res⟩
  have hw : w.afterPost ⟨key, start, listen, post, body, unregister⟩ user =
      { w with
        registered := if accepted then w.registered ++ [user] else w.registered
        posted := w.posted ++ [(user, w.server, w.notify, w.serving, w.printing)]
        received := w.received + responses res
        closed := w.closed + responses res } := by
    simp only [StartWorld.afterPost, hp]
  rw [hw]
  simp only [hp]
  unfold chatRegister
  have h1 : startExec ⟨key, start, listen, post, body, unregister⟩ (.post user) w = (res,
      { w with
        registered := if accepted then w.registered ++ [user] else w.registered
        posted := w.posted ++ [(user, w.server, w.notify, w.serving, w.printing)]
        received := w.received + responses res }) := by
    simp only [startExec, hp]
    rfl
  simp only [Prog.run, h1]
  cases res with
  | error err => exact ⟨some err, rfl, by simp⟩
  | ok status =>
    by_cases hs : status = 201
    · subst hs
      cases body with
      | none => exact ⟨none, rfl, by simp⟩
      | some err => exact ⟨some err, rfl, by simp⟩
    · have hif : (if status ≠ 201 then some (Err.other "unexpected error response") else none) =
          some (.other "unexpected error response") := if_pos hs
      simp only [hif]
      have hne : (Except.ok (ε := Err) status = .ok 201) ↔ False := by
        simp only [Except.ok.injEq, hs]
      cases body with
      | none => exact ⟨some (.other "unexpected error response"), rfl, by simp [hs]⟩
      | some err => exact ⟨some (.wrap "errors.Join" (.other "unexpected error response")), rfl, by simp⟩

/-- Everything that the last part of `main` does, if it is not interrupted. -/
theorem startRegistered_run (e : StartEnv) (user : ChatUser) (w : StartWorld) :
    ((startRegistered user).run (startExec e) w).1 = .val () ∧
    (((startRegistered user).run (startExec e) w).2 =
        { ({ w with printing := true }).afterPost e user with notify := none, serving := false, server := none } ∧
      ¬ ((e.post user).2 = .ok 201 ∧ e.body = none) ∨
     ((startRegistered user).run (startExec e) w).2 =
        (leaveNotify.run (startExec e) (startExec e (.unregister user.name)
          { ({ w with printing := true }).afterPost e user with chatting := true, catching := true, stopped := true }).2).2 ∧
      (e.post user).2 = .ok 201 ∧ e.body = none) := by
  obtain ⟨r, h1, h2⟩ := chatRegister_run e user { w with printing := true }
  have h3 : (startRegistered user).run (startExec e) w =
      (afterRegister user r).run (startExec e) (({ w with printing := true }).afterPost e user) := by
    unfold startRegistered
    show ((chatRegister user).bind (afterRegister user)).run (startExec e) { w with printing := true } = _
    rw [Prog.run_bind, h1]
  rw [h3]
  cases r with
  | some err =>
    refine ⟨rfl, .inl ⟨rfl, fun h => ?_⟩⟩
    have := h2.mpr h
    cases this
  | none => exact ⟨rfl, .inr ⟨rfl, h2.mp rfl⟩⟩

theorem startRegistered_posted (e : StartEnv) (user : ChatUser) (w : StartWorld) :
    ((startRegistered user).run (startExec e) w).2.posted =
      w.posted ++ [(user, w.server, w.notify, w.serving, true)] := by
  obtain ⟨-, ⟨h, -⟩ | ⟨h, -, -⟩⟩ := startRegistered_run e user w
  · rw [h]
    rfl
  · rw [h]
    simp only [startExec, leaveNotify_run]
    cases e.unregister user.name <;> rfl

theorem startNotify_posted (e : StartEnv) (he : e.Listens) (name : Bytes) (udp : Bool) (p : Nat) (hp : p < 65536)
    (hname : name ≠ []) (w : StartWorld) (hw : w.posted = [])
    (hs : w.server = some (udp, str "127.0.0.1:" ++ formatUint p)) :
    PostedReachable name (if udp then str "udp" else str "tcp")
      ((startNotify name (if udp then str "udp" else str "tcp") (str "127.0.0.1:" ++ formatUint p)).run (startExec e) w).2.posted := by
  unfold startNotify
  rw [split_local]
  simp only
  rw [parseInt64_formatUint (by omega)]
  simp only [Prog.run, startExec]
  cases hl : e.listen (str "127.0.0.1:0") with
  | error err => exact .inl hw
  | ok a =>
    obtain ⟨q, hq, rfl⟩ := he.2 _ _ hl
    simp only [Prog.run, startExec]
    rw [split_local]
    simp only
    rw [parseInt64_formatUint (by omega)]
    simp only
    rw [startRegistered_posted, hw]
    exact .inr ⟨udp, p, q, hname, rfl, by rw [hs]; rfl⟩

/-- **C149**: whatever fails, the program sends the registry nothing, or one user, with the name and the network that it
was started with; and when it does, its server listens at the host and port of this user with this network, the listener
for notifications listens at the host and the notification port of this user and is served, and the printer runs. -/
theorem C149_reachable (e : StartEnv) (he : e.Listens) (name network registryHost : Bytes) (port : Int) :
    PostedReachable name network ((chatMain name port network registryHost).run (startExec e) {}).2.posted := by
  unfold chatMain
  by_cases hn : name = []
  · rw [if_pos hn]
    exact .inl rfl
  rw [if_neg hn]
  by_cases hr : registryHost = []
  · rw [if_pos hr]
    exact .inl rfl
  rw [if_neg hr]
  simp only [Prog.run, startExec]
  cases hk : e.key with
  | some err => exact .inl rfl
  | none =>
    simp only
    unfold startServer
    by_cases ht : network = str "tcp"
    · rw [if_pos ht, ht]
      simp only [Prog.run, startExec]
      cases hs : e.start false (str "127.0.0.1:" ++ formatInt port) with
      | error err => exact .inl rfl
      | ok a =>
        obtain ⟨p, hp, rfl⟩ := he.1 _ _ _ hs
        exact startNotify_posted e he name false p hp hn _ rfl rfl
    · rw [if_neg ht]
      by_cases hu : network = str "udp"
      · rw [if_pos hu, hu]
        simp only [Prog.run, startExec]
        cases hs : e.start true (str "127.0.0.1:" ++ formatInt port) with
        | error err => exact .inl rfl
        | ok a =>
          obtain ⟨p, hp, rfl⟩ := he.1 _ _ _ hs
          exact startNotify_posted e he name true p hp hn _ rfl rfl
      · rw [if_neg hu]
        exact .inl rfl

/-- **C149**, the user is sent: if a key can be generated and both listeners can be opened, the program sends the user to
the registry. -/
theorem C149_sent (e : StartEnv) (he : e.Listens) (name registryHost : Bytes) (udp : Bool) (port : Int) (a b : Bytes)
    (hname : name ≠ []) (hhost : registryHost ≠ []) (hkey : e.key = none)
    (hstart : e.start udp (str "127.0.0.1:" ++ formatInt port) = .ok a) (hlisten : e.listen (str "127.0.0.1:0") = .ok b) :
    ((chatMain name port (if udp then str "udp" else str "tcp") registryHost).run (startExec e) {}).2.posted ≠ [] := by
  obtain ⟨p, hp, rfl⟩ := he.1 _ _ _ hstart
  obtain ⟨q, hq, rfl⟩ := he.2 _ _ hlisten
  have hnotify : ∀ network w, ((startNotify name network (str "127.0.0.1:" ++ formatUint p)).run (startExec e) w).2.posted ≠ [] := by
    intro network w
    unfold startNotify
    rw [split_local]
    simp only
    rw [parseInt64_formatUint (by omega)]
    simp only [Prog.run, startExec, hlisten]
    rw [split_local]
    simp only
    rw [parseInt64_formatUint (by omega)]
    simp only
    rw [startRegistered_posted]
    simp
  unfold chatMain
  rw [if_neg hname, if_neg hhost]
  simp only [Prog.run, startExec, hkey]
  unfold startServer
  have hne : str "udp" ≠ str "tcp" := by decide +kernel
  cases udp with
  | false =>
    simp only [Bool.false_eq_true, if_false, if_true, Prog.run, startExec, hstart]
    exact hnotify _ _
  | true =>
    simp only [hne, if_true, if_false, Prog.run, startExec, hstart]
    exact hnotify _ _

/-- What is read as a port: an optional sign and decimal digits, of which the value fits into 64 bits. -/
theorem C149_port_read (s : Bytes) (v : Int) :
    parseInt64 s = some v ↔ ∃ (n : Nat) (digits : Bytes), Numeral digits n ∧
      ((s = 45#8 :: digits ∧ v = -(n : Int) ∧ n ≤ 2 ^ 63) ∨
       ((s = 43#8 :: digits ∨ s = digits) ∧ v = (n : Int) ∧ n < 2 ^ 63)) := by
  constructor
  · intro h
    unfold parseInt64 at h
    split at h <;>
      (obtain ⟨n, hn, h⟩ := Option.bind_eq_some_iff.mp h
       obtain ⟨hn, -⟩ := parseUint_iff.mp hn
       split at h <;> cases h)
    · exact ⟨n, _, hn, .inl ⟨rfl, rfl, by assumption⟩⟩
    · exact ⟨n, _, hn, .inr ⟨.inl rfl, rfl, by assumption⟩⟩
    · exact ⟨n, _, hn, .inr ⟨.inr rfl, rfl, by assumption⟩⟩
  · rintro ⟨n, digits, hn, h⟩
    have hp : n ≤ 2 ^ 63 → parseUint digits 64 = some n := fun h => parseUint_iff.mpr ⟨hn, by omega⟩
    rcases h with ⟨rfl, rfl, hb⟩ | ⟨rfl | rfl, rfl, hb⟩
    · unfold parseInt64
      simp [hp hb, hb]
    · unfold parseInt64
      simp [hp (by omega), hb]
    · obtain ⟨hne, hd, -⟩ := hn
      unfold parseInt64
      split
      · have := hd 45#8 (by simp)
        simp at this
      · have := hd 43#8 (by simp)
        simp at this
      · simp [hp (by omega), hb]

example : parseInt64 (str "+80") = some 80 ∧ parseInt64 (str "-9223372036854775808") = some (-(2 ^ 63)) ∧
    parseInt64 (str "+9223372036854775808") = none ∧ parseInt64 (str "") = none := by decide +kernel

/-- **C149**: the address that the program asks for has the port of its flag: a numeral, with a sign if it is negative. -/
theorem C149_port_text (port : Int) (h1 : -(2 ^ 63) ≤ port) (h2 : port < 2 ^ 63) :
    parseInt64 (formatInt port) = some port ∧ (0 ≤ port → Numeral (formatInt port) port.natAbs) := by
  unfold formatInt
  split
  · rename_i hneg
    refine ⟨?_, fun h => by omega⟩
    have hp : parseUint (formatUint port.natAbs) 64 = some port.natAbs :=
      parseUint_iff.mpr ⟨numeral_formatUint _, by omega⟩
    show (parseUint (formatUint port.natAbs) 64).bind _ = _
    rw [hp]
    simp only [Option.bind_some]
    rw [if_pos (by omega)]
    congr 1
    omega
  · rename_i hpos
    refine ⟨?_, fun _ => numeral_formatUint _⟩
    rw [parseInt64_formatUint (by omega)]
    congr 1
    omega

example : formatInt 8080 = str "8080" ∧ formatInt 0 = str "0" ∧ formatInt (-1) = str "-1" := by decide +kernel

namespace ChatStartExample

/-- Everything works. -/
def env : StartEnv :=
  { key := none, start := fun _ _ => .ok (str "127.0.0.1:4000"), listen := fun _ => .ok (str "127.0.0.1:5000")
    post := fun _ => (true, .ok 201), body := none, unregister := fun _ => none }

def ann : ChatUser := ⟨str "ann", str "udp", str "127.0.0.1", 4000, 5000⟩

theorem listens : env.Listens :=
  ⟨fun _ _ a h => by cases h; exact ⟨4000, by decide, by decide +kernel⟩,
    fun _ a h => by cases h; exact ⟨5000, by decide, by decide +kernel⟩⟩

end ChatStartExample

open ChatStartExample in
example : (((chatMain (str "ann") 0 (str "udp") (str "r")).run (startExec env) {}).2.posted ==
    [(ann, some (true, str "127.0.0.1:4000"), some (str "127.0.0.1:5000"), true, true)]) = true := by
  decide +kernel

open ChatStartExample in
example : ((chatMain (str "ann") 0 (str "sctp") (str "r")).run (startExec env) {}).2.posted = [] := by
  decide +kernel

/-! ## C150 -/

/-- A registry that answers 201 exactly if it stored the user. -/
def StartEnv.Honest (e : StartEnv) : Prop :=
  ∀ user status, (e.post user).2 = .ok status → ((e.post user).1 = true ↔ status = 201)

/-- **C150**, the full claim: when the program has ended, by itself or by a signal at any time, the registry does not list
its user.  The registry is honest, and requests to unregister succeed. -/
def C150_claim : Prop :=
  ∀ (e : StartEnv) (name network registryHost : Bytes) (port : Int) (n : Nat) (w : StartWorld),
    e.Listens → e.Honest → (∀ name, e.unregister name = none) → w.catching = false →
    (∀ u ∈ w.registered, u.name ≠ name) →
    ∀ u ∈ (interrupted e (chatMain name port network registryHost) n w).registered, u.name ≠ name

namespace ChatStartExample

theorem honest : env.Honest := by
  intro user status h
  cases h
  exact ⟨fun _ => rfl, fun _ => rfl⟩

/-- The connection to the registry breaks after the user was stored. -/
def broken : StartEnv := { env with post := fun _ => (true, .error .eof) }

end ChatStartExample

open ChatStartExample in
/-- **C150 is refuted**: `main` catches signals only after it has registered.  If it is interrupted between, the user stays
registered. -/
theorem C150_refuted : ¬ C150_claim := by
  intro h
  refine h env (str "ann") (str "udp") (str "r") 0 6 {} listens honest (fun _ => rfl) rfl (by decide) ann ?_ rfl
  decide +kernel

open ChatStartExample in
/-- **C150 is refuted** without a signal: if the response of the registry is lost, `Register` fails, and `main` ends
without unregistering. -/
theorem C150_lost_response : broken.Listens ∧ broken.Honest ∧ (∀ name, broken.unregister name = none) ∧
    ann ∈ ((chatMain (str "ann") 0 (str "udp") (str "r")).run (startExec broken) {}).2.registered :=
  ⟨listens, fun _ _ h => (by cases h), fun _ => rfl, by decide +kernel⟩

theorem Prog.first_run {S : Sig} {σ α : Type} (I : Interp S σ) (n : Nat) (p : Prog S α) (s : σ) :
    (p.first I n s).1.run I (p.first I n s).2 = p.run I s := by
  induction n generalizing p s with
  | zero => rfl
  | succ n ih =>
    cases p with
    | ret a => rfl
    | panic m => rfl
    | op o k => exact ih _ _

/-- A user is listed only after it was sent. -/
theorem first_registered (e : StartEnv) (n : Nat) (p : StartProg Unit) (w : StartWorld) :
    ∃ more, (p.first (startExec e) n w).2.posted = w.posted ++ more ∧
      (more = [] → ∀ u ∈ (p.first (startExec e) n w).2.registered, u ∈ w.registered) := by
  induction n generalizing p w with
  | zero => exact ⟨[], by simp [Prog.first], fun _ u h => h⟩
  | succ n ih =>
    cases p with
    | ret a => exact ⟨[], by simp [Prog.first], fun _ u h => h⟩
    | panic m => exact ⟨[], by simp [Prog.first], fun _ u h => h⟩
    | op o k =>
      obtain ⟨more, h1, h2⟩ := ih (k (startExec e o w).1) (startExec e o w).2
      have hstep : ∃ l, (startExec e o w).2.posted = w.posted ++ l ∧
          (l = [] → ∀ u ∈ (startExec e o w).2.registered, u ∈ w.registered) := by
        cases o with
        | post user => exact ⟨_, rfl, fun h => by cases h⟩
        | unregister name =>
          refine ⟨[], ?_, fun _ u hu => ?_⟩
          · simp only [startExec]
            cases e.unregister name <;> simp
          · simp only [startExec] at hu
            cases hn : e.unregister name <;> rw [hn] at hu
            · exact List.mem_of_mem_filter hu
            · exact hu
        | start udp address =>
          refine ⟨[], ?_, fun _ u hu => ?_⟩
          · simp only [startExec]
            cases e.start udp address <;> simp
          · simp only [startExec] at hu
            cases hn : e.start udp address <;> rw [hn] at hu <;> exact hu
        | listen address =>
          refine ⟨[], ?_, fun _ u hu => ?_⟩
          · simp only [startExec]
            cases e.listen address <;> simp
          · simp only [startExec] at hu
            cases hn : e.listen address <;> rw [hn] at hu <;> exact hu
        | _ => exact ⟨[], by simp [startExec], fun _ u hu => hu⟩
      obtain ⟨l, h3, h4⟩ := hstep
      refine ⟨l ++ more, ?_, fun h => ?_⟩
      · rw [← List.append_assoc, ← h3]
        exact h1
      · obtain ⟨hl, hm⟩ := List.append_eq_nil_iff.mp h
        exact fun u hu => h4 hl u (h2 hm u hu)

/-- `main` ends before it registers, or it registers a user with the name. -/
theorem chatMain_cases (e : StartEnv) (name network registryHost : Bytes) (port : Int) (w : StartWorld) :
    ((chatMain name port network registryHost).run (startExec e) w).2.registered = w.registered ∨
    ∃ user w', user.name = name ∧ w'.registered = w.registered ∧
      (chatMain name port network registryHost).run (startExec e) w = (startRegistered user).run (startExec e) w' := by
  have hnotify : ∀ network addr w', w'.registered = w.registered →
      ((startNotify name network addr).run (startExec e) w').2.registered = w.registered ∨
      ∃ user w'', user.name = name ∧ w''.registered = w.registered ∧
        (startNotify name network addr).run (startExec e) w' = (startRegistered user).run (startExec e) w'' := by
    intro network addr w' hw
    unfold startNotify
    cases splitHostPort addr with
    | error err => exact .inl hw
    | ok hp =>
      simp only
      cases parseInt64 hp.2 with
      | none => exact .inl hw
      | some serverPort =>
        simp only [Prog.run, startExec]
        cases e.listen (str "127.0.0.1:0") with
        | error err => exact .inl hw
        | ok a =>
          simp only [Prog.run, startExec]
          cases splitHostPort a with
          | error err => exact .inl hw
          | ok hp' =>
            simp only
            cases parseInt64 hp'.2 with
            | none => exact .inl hw
            | some notifyPort => exact .inr ⟨_, { w' with notify := some a, serving := true }, rfl, hw, rfl⟩
  unfold chatMain
  by_cases hn : name = []
  · rw [if_pos hn]
    exact .inl rfl
  rw [if_neg hn]
  by_cases hr : registryHost = []
  · rw [if_pos hr]
    exact .inl rfl
  rw [if_neg hr]
  simp only [Prog.run, startExec]
  cases e.key with
  | some err => exact .inl rfl
  | none =>
    simp only
    unfold startServer
    by_cases ht : network = str "tcp"
    · rw [if_pos ht]
      simp only [Prog.run, startExec]
      cases e.start false (str "127.0.0.1:" ++ formatInt port) with
      | error err => exact .inl rfl
      | ok a => exact hnotify _ _ _ rfl
    · rw [if_neg ht]
      by_cases hu : network = str "udp"
      · rw [if_pos hu]
        simp only [Prog.run, startExec]
        cases e.start true (str "127.0.0.1:" ++ formatInt port) with
        | error err => exact .inl rfl
        | ok a => exact hnotify _ _ _ rfl
      · rw [if_neg hu]
        exact .inl rfl

/-- **C150**, what holds: if the response to a user that the registry stored is not lost, and a signal does not come between
sending the user to the registry and catching signals, the registry does not list the user when the program has ended.
Missing from the full claim: signals in between, and lost responses. -/
theorem C150_gone_partial (e : StartEnv) (name network registryHost : Bytes) (port : Int) (n : Nat) (w : StartWorld)
    (hun : ∀ name, e.unregister name = none)
    (hresponse : ∀ user, (e.post user).1 = true → (e.post user).2 = .ok 201 ∧ e.body = none)
    (hsignal : ((chatMain name port network registryHost).first (startExec e) n w).2.posted ≠ w.posted →
      ((chatMain name port network registryHost).first (startExec e) n w).2.catching = true)
    (hw : ∀ u ∈ w.registered, u.name ≠ name) :
    ∀ u ∈ (interrupted e (chatMain name port network registryHost) n w).registered, u.name ≠ name := by
  intro u hu
  unfold interrupted at hu
  simp only [Prog.first_run] at hu
  split at hu
  · rcases chatMain_cases e name network registryHost port w with h | ⟨user, w', rfl, h2, h3⟩
    · rw [h] at hu
      exact hw u hu
    · rw [h3] at hu
      obtain ⟨-, ⟨h, hno⟩ | ⟨h, -, -⟩⟩ := startRegistered_run e user w'
      · rw [h] at hu
        have hacc : ¬ (e.post user).1 = true := fun h => hno (hresponse user h)
        have hu' : u ∈ (if (e.post user).1 then w'.registered ++ [user] else w'.registered) := hu
        rw [if_neg hacc, h2] at hu'
        exact hw u hu'
      · rw [h, leaveNotify_run] at hu
        simp only [startExec, hun] at hu
        have := (List.mem_filter.mp hu).2
        simpa using this
  · rename_i hc
    obtain ⟨more, h1, h2⟩ := first_registered e n (chatMain name port network registryHost) w
    refine hw u (h2 ?_ u hu)
    refine Classical.byContradiction fun hm => hc (hsignal fun heq => hm ?_)
    rw [h1] at heq
    simpa using heq

open ChatStartExample in
/-- After eight effects signals are caught: the user is unregistered.  After five nothing was sent. -/
example : (interrupted env (chatMain (str "ann") 0 (str "udp") (str "r")) 9 {}).registered = [] ∧
    ((chatMain (str "ann") 0 (str "udp") (str "r")).first (startExec env) 9 {}).2.catching = true ∧
    ((chatMain (str "ann") 0 (str "udp") (str "r")).first (startExec env) 9 {}).2.registered = [ann] ∧
    ((chatMain (str "ann") 0 (str "udp") (str "r")).first (startExec env) 5 {}).2.registered = [] := by
  decide +kernel

/-! ## C151 -/

/-- **C151**, registering: `Register` returns no error exactly if the status of the response is 201 and its body could be
closed; every response is closed once. -/
theorem C151_register (e : StartEnv) (user : ChatUser) (w : StartWorld) :
    ∃ r w', (chatRegister user).run (startExec e) w = (.val r, w') ∧
      (r = none ↔ (e.post user).2 = .ok 201 ∧ e.body = none) ∧
      w'.closed + w.received = w.closed + w'.received ∧ w'.posted.map (·.1) = w.posted.map (·.1) ++ [user] := by
  obtain ⟨r, h1, h2⟩ := chatRegister_run e user w
  refine ⟨r, _, h1, h2, ?_, ?_⟩
  · simp only [StartWorld.afterPost]
    omega
  · simp [StartWorld.afterPost]

/-- **C151**, the full claim: every response is closed once; if `GenerateMessage` returns no error, it returns a message of
the user with the first excuse of a successful response. -/
def C151_claim : Prop :=
  ∀ (e : ExcuseEnv) (sender : ChatUser) (s : Nat × Nat), ∃ m err s',
    (generateMessage sender).run (excuseExec e) s = (.val (m, err), s') ∧ s'.2 + s.1 = s.2 + s'.1 ∧
      (err = none → ∃ status excuse rest, e.get = .ok status ∧ 200 ≤ status ∧ status < 300 ∧
        e.body = .ok (excuse :: rest) ∧ m = some (sender, excuse))

/-- **C151 is refuted**: the status is not looked at. -/
theorem C151_refuted : ¬ C151_claim := by
  intro h
  obtain ⟨m, err, s', h1, -, h2⟩ := h ⟨.ok 500, .ok [str "server error"], none⟩ ChatStartExample.ann (0, 0)
  have h3 : (generateMessage ChatStartExample.ann).run (excuseExec ⟨.ok 500, .ok [str "server error"], none⟩) (0, 0) =
    (.val (some (ChatStartExample.ann, str "server error"), none), (1, 1)) := rfl
  rw [h3] at h1
  cases h1
  obtain ⟨status, excuse, rest, h4, h5, h6, -, -⟩ := h2 rfl
  cases h4
  omega

/-- **C151**, what holds: every response is closed once; without an error the message is one of the user with the first
excuse of a response, whatever its status; and there is no error if a response with an excuse came and could be closed. -/
theorem C151_generate_partial (e : ExcuseEnv) (sender : ChatUser) (s : Nat × Nat) :
    ∃ m err s', (generateMessage sender).run (excuseExec e) s = (.val (m, err), s') ∧ s'.2 + s.1 = s.2 + s'.1 ∧
      (err = none → ∃ status excuse rest, e.get = .ok status ∧ e.body = .ok (excuse :: rest) ∧
        m = some (sender, excuse)) ∧
      ((∃ status excuse rest, e.get = .ok status ∧ e.body = .ok (excuse :: rest) ∧ e.close = none) → err = none) := by
  obtain ⟨get, body, close⟩ := e
  cases get with
  | error err => exact ⟨none, some err, s, rfl, by omega, by simp, by simp⟩
  | ok status =>
    cases body with
    | error err =>
      cases close with
      | none => exact ⟨none, some err, (s.1 + 1, s.2 + 1), rfl, by simp; omega, by simp, by simp⟩
      | some e => exact ⟨none, some (.wrap "errors.Join" err), (s.1 + 1, s.2 + 1), rfl, by simp; omega, by simp, by simp⟩
    | ok excuses =>
      cases excuses with
      | nil =>
        cases close with
        | none => exact ⟨none, some (.other "no excuses found"), (s.1 + 1, s.2 + 1), rfl, by simp; omega, by simp, by simp⟩
        | some e =>
          exact ⟨none, some (.wrap "errors.Join" (.other "no excuses found")), (s.1 + 1, s.2 + 1), rfl, by simp; omega, by simp,
            by simp⟩
      | cons excuse rest =>
        cases close with
        | none => exact ⟨some (sender, excuse), none, (s.1 + 1, s.2 + 1), rfl, by simp; omega, by simp, by simp⟩
        | some e => exact ⟨some (sender, excuse), some e, (s.1 + 1, s.2 + 1), rfl, by simp; omega, by simp, by simp⟩

example : ((generateMessage ChatStartExample.ann).run (excuseExec ⟨.ok 200, .ok [str "late train", str "rain"], none⟩) (0, 0)).2 =
    (1, 1) := by
  decide +kernel

end Goe2ee
