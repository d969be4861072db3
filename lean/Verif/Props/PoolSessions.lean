import Verif.Props.PoolClosed

/-!
# C76: sessions after the pool was closed
-/

set_option autoImplicit false

namespace Goe2ee

/-- Where a goroutine is: without the mutex; with it; with it and a client it has just connected; with it and a session it
has just read; with it, and it has just set the pool's session. -/
inductive SessPh where
  | out
  | held
  | dialed (c : Nat)
  | got (s : Option Nat)
  | stored (s : Option Nat)
  deriving DecidableEq

def sessPre : POp → SessPh → Prop
  | .lock, g => g = .out
  | .test _, g => g = .out
  | .park, g => g = .out
  | .await, g => g = .out
  | .command _, g => g = .out
  | .lend _, g => g = .out
  | .setSession s, g => g ≠ .out ∧ (s = none ∨ g = .got s)
  | .setSessionOf _ s, g => g = .got s
  | .sessionOf c, g => g = .dialed c
  | .closeChan, g => g = .stored none
  | _, g => g ≠ .out

def sessA : Auto PSig SessPh where
  pre := sessPre
  next
    | .lock, _, _ => .held
    | .unlock, _, _ => .out
    | .dial _, (r : Except Err Nat), _ => match r with | .ok c => .dialed c | .error _ => .held
    | .sessionOf _, (s : Option Nat), _ => .got s
    | .getSession, (s : Option Nat), _ => .got s
    | .setSession s, _, _ => .stored s
    | .setSessionOf _ _, _, _ => .held
    | _, _, g => g

def sessAt : PLoop → SessPh → Prop
  | .scan _, g => g = .held
  | _, g => g = .out

def sessX (_ : String) (g : SessPh) : Prop := g = .out

section
variable (cfg : PoolCfg)

theorem sess_put (c : Nat) (Q : Option Err → SessPh → Prop) (hQ : ∀ e, Q e .out) :
    SafeE sessA (poolPut cfg c) .out Q sessX := by
  have hne : SessPh.held ≠ .out := by intro h; cases h
  refine ⟨rfl, fun _ => ⟨hne, fun r => ?_⟩⟩
  cases (r : SendRes) with
  | sent => exact ⟨hne, fun _ => hQ _⟩
  | closed => exact ⟨hne, fun _ => rfl⟩
  | noReceiver =>
    refine ⟨hne, fun n => ?_⟩
    show SafeE sessA (poolKeep cfg c n) SessPh.held _ _
    unfold poolKeep
    split
    · exact ⟨hne, fun _ => ⟨hne, fun e => ⟨hne, fun _ => hQ _⟩⟩⟩
    · exact ⟨hne, fun _ => ⟨hne, fun _ => hQ _⟩⟩

theorem sess_return (b : Bool) (r : Except Err Nat) : SafeE sessA (poolReturn b r) .out sessAt sessX :=
  ⟨rfl, fun _ => rfl⟩

theorem sess_dial (b : Bool) : SafeE sessA (poolDial b) .held sessAt sessX := by
  have hne : SessPh.held ≠ .out := by intro h; cases h
  have hgot : ∀ s, SessPh.got s ≠ .out := by intro s h; cases h
  have hdialed : ∀ c, SessPh.dialed c ≠ .out := by intro s h; cases h
  have hstored : ∀ s, SessPh.stored s ≠ .out := by intro s h; cases h
  refine ⟨hne, fun s => ?_⟩
  rcases (s : Option Nat) with _ | k
  · refine ⟨hgot _, fun r => ?_⟩
    rcases (r : Except Err Nat) with e | c
    · exact ⟨hne, fun _ => sess_return b _⟩
    · exact ⟨rfl, fun s => ⟨⟨hgot _, .inr rfl⟩, fun _ => ⟨hstored _, fun _ => ⟨hstored _, fun _ => sess_return b _⟩⟩⟩⟩
  · refine ⟨hgot _, fun r => ?_⟩
    rcases (r : Except Err Nat) with e | c
    · exact ⟨hne, fun _ => sess_return b _⟩
    · exact ⟨hdialed _, fun s => ⟨rfl, fun _ => ⟨hne, fun _ => ⟨hne, fun _ => sess_return b _⟩⟩⟩⟩

theorem sess_try (b : Bool) (c : Nat) (next : Prog PSig PLoop) (hnext : SafeE sessA next .held sessAt sessX) :
    SafeE sessA (poolTry cfg b c next) .out sessAt sessX := by
  have hne : SessPh.held ≠ .out := by intro h; cases h
  refine ⟨rfl, fun ok => ?_⟩
  cases (ok : Bool) with
  | true => exact sess_return b _
  | false => exact SafeE.bind (sess_put cfg c _ fun e => ⟨rfl, fun _ => ⟨hne, fun _ => hnext⟩⟩)

theorem sess_scan (b : Bool) : SafeE sessA (poolScan cfg b) .held sessAt sessX := by
  have hne : SessPh.held ≠ .out := by intro h; cases h
  refine ⟨hne, fun o => ?_⟩
  rcases (o : Option Nat) with _ | c
  · refine ⟨hne, fun n => ?_⟩
    show SafeE _ (poolFull cfg b n) _ _ _
    unfold poolFull
    split
    · refine ⟨hne, fun _ => ⟨rfl, fun _ => ⟨rfl, fun o => ?_⟩⟩⟩
      rcases (o : Option Nat) with _ | c
      · rfl
      · exact sess_try cfg b c _ (sess_dial b)
    · exact sess_dial b
  · exact ⟨hne, fun _ => sess_try cfg b c _ rfl⟩

theorem sess_closeAll (cs : List Nat) (Q : Option Err → SessPh → Prop) (hQ : ∀ e, Q e .held) :
    SafeE sessA (closeAll cs) .held Q sessX := by
  induction cs with
  | nil => exact hQ _
  | cons c cs ih =>
    refine ⟨(by intro h; cases h), fun e => ?_⟩
    rcases (e : Option Err) with _ | e
    · exact ih
    · exact hQ _

theorem sess_close : SafeE sessA poolClose .out sessAt sessX := by
  have hne : SessPh.held ≠ .out := by intro h; cases h
  have hne' : SessPh.stored none ≠ .out := by intro h; cases h
  refine ⟨rfl, fun _ => ⟨hne, fun cs => SafeE.bind (sess_closeAll cs _ fun e => ?_)⟩⟩
  rcases e with _ | e
  · refine ⟨hne, fun _ => ⟨hne, fun _ => ⟨⟨hne, .inl rfl⟩, fun _ => ⟨rfl, fun ok => ⟨hne', fun _ => ?_⟩⟩⟩⟩⟩
    cases (ok : Bool) <;> rfl
  · exact ⟨hne, fun _ => rfl⟩

theorem sess_body (l : PLoop) (g : SessPh) (h : sessAt l g) : SafeE sessA (poolBody cfg l) g sessAt sessX := by
  cases l with
  | user b =>
    cases h
    refine ⟨rfl, fun cmd => ?_⟩
    rcases (cmd : Option Nat) with _ | c
    · exact ⟨rfl, fun _ => rfl⟩
    · exact SafeE.bind (sess_put cfg c _ fun e => rfl)
  | scan b => cases h; exact sess_scan cfg b
  | closer => cases h; exact sess_close
  | done => exact h

end

/-- None, or the session of a handshake that is not older. -/
def Recent (h0 : Nat) (s : Option Nat) : Prop := ∀ k, s = some k → h0 ≤ k

/-- What holds of the pool: sessions of clients connected since there were `n0`, and the pool's session, are of
handshakes since there were `h0`. -/
structure RecentPool (n0 h0 : Nat) (w : PWorld) : Prop where
  shakes : h0 ≤ w.handshakes
  many : n0 ≤ w.clients.length
  pool : Recent h0 w.session
  clients : ∀ c y, n0 ≤ c → w.clients[c]? = some y → Recent h0 y.session

/-- What holds of the goroutine with the mutex. -/
def RecentAt (n0 h0 : Nat) (w : PWorld) : SessPh → Prop
  | .out => True
  | .held => True
  | .dialed c => n0 ≤ c
  | .got s => Recent h0 s
  | .stored s => w.session = s

structure SessInv (n0 h0 : Nat) (w : PWorld) (gs : List SessPh) : Prop where
  one : ∀ (i j : Nat) (g g' : SessPh), gs[i]? = some g → gs[j]? = some g' → g ≠ .out → g' ≠ .out → i = j
  locked : ∀ g ∈ gs, g ≠ .out → w.locked = true
  recent : RecentPool n0 h0 w
  at_ : ∀ g ∈ gs, RecentAt n0 h0 w g

theorem SessInv.mine {n0 h0 : Nat} {w' : PWorld} {gs : List SessPh} {i : Nat} {g g' : SessPh}
    (hg : gs[i]? = some g) (hout : ∀ (j : Nat) (g : SessPh), j ≠ i → gs[j]? = some g → g = .out)
    (hl : g' ≠ .out → w'.locked = true) (hr : RecentPool n0 h0 w') (ha : RecentAt n0 h0 w' g') :
    SessInv n0 h0 w' (gs.set i g') := by
  have hcase : ∀ (j : Nat) (x : SessPh), (gs.set i g')[j]? = some x → x ≠ .out → j = i ∧ x = g' := by
    intro j x hx hne
    by_cases hij : i = j
    · subst hij
      rw [List.getElem?_set_self (List.getElem?_eq_some_iff.mp hg).1] at hx
      cases hx
      exact ⟨rfl, rfl⟩
    · rw [List.getElem?_set_ne hij] at hx
      exact absurd (hout j x (fun e => hij e.symm) hx) hne
  refine ⟨fun j k x y hx hy h1 h2 => ?_, fun x hx hne => ?_, hr, fun x hx => ?_⟩
  · rw [(hcase j x hx h1).1, (hcase k y hy h2).1]
  · obtain ⟨j, hj⟩ := List.mem_iff_getElem?.mp hx
    have := (hcase j x hj hne).2
    subst this
    exact hl hne
  · by_cases hxo : x = .out
    · subst hxo; trivial
    · obtain ⟨j, hj⟩ := List.mem_iff_getElem?.mp hx
      rw [(hcase j x hj hxo).2]; exact ha

theorem SessInv.outside {n0 h0 : Nat} {w w' : PWorld} {gs : List SessPh} {i : Nat} (h : SessInv n0 h0 w gs)
    (hg : gs[i]? = some .out) (hl : w'.locked = w.locked) (hs : w'.session = w.session) (hc : w'.clients = w.clients)
    (hh : w'.handshakes = w.handshakes) : SessInv n0 h0 w' (gs.set i .out) := by
  have hself : gs.set i .out = gs := by
    apply List.ext_getElem?
    intro j
    by_cases hij : i = j
    · subst hij; rw [List.getElem?_set_self (List.getElem?_eq_some_iff.mp hg).1, hg]
    · rw [List.getElem?_set_ne hij]
  rw [hself]
  refine ⟨h.one, fun g hg hne => hl.trans (h.locked g hg hne),
    ⟨by rw [hh]; exact h.recent.shakes, by rw [hc]; exact h.recent.many, by rw [hs]; exact h.recent.pool,
      by rw [hc]; exact h.recent.clients⟩, fun g hg => ?_⟩
  have := h.at_ g hg
  cases g with
  | stored s => exact hs.trans this
  | _ => exact this

theorem sess_step (n0 h0 : Nat) (e : PEnv) (i : Nat) (o : POp) (w : PWorld) (gs : List SessPh) (g : SessPh)
    (r : POp.Ret o) (w' : PWorld) (hg : gs[i]? = some g) (hpre : sessA.pre o g) (h : SessInv n0 h0 w gs)
    (hx : pexec e i o w = some (r, w')) : SessInv n0 h0 w' (gs.set i (sessA.next o r g)) := by
  have hmem : g ∈ gs := List.mem_of_getElem? hg
  have hat := h.at_ g hmem
  have hrec := h.recent
  have hout : g ≠ .out → ∀ (j : Nat) (x : SessPh), j ≠ i → gs[j]? = some x → x = .out := by
    intro hne j x hj hxj
    exact Classical.byContradiction fun hxo => hj (h.one j i x g hxj hg hxo hne)
  have same : g ≠ .out → w'.locked = w.locked → w'.session = w.session → w'.handshakes = w.handshakes →
      w'.clients = w.clients → SessInv n0 h0 w' (gs.set i g) := by
    intro hne hl hs hh hc
    refine SessInv.mine hg (hout hne) (fun _ => hl.trans (h.locked g hmem hne))
      ⟨by rw [hh]; exact hrec.shakes, by rw [hc]; exact hrec.many, by rw [hs]; exact hrec.pool,
        by rw [hc]; exact hrec.clients⟩ ?_
    cases g with
    | stored s => exact hs.trans hat
    | _ => exact hat
  cases o with
  | lock =>
    have hpre : g = .out := hpre
    subst hpre
    simp only [pexec] at hx
    split at hx <;> cases hx
    rename_i hw
    refine SessInv.mine hg (fun j x _ hxj => ?_) (fun _ => rfl) ⟨hrec.shakes, hrec.many, hrec.pool, hrec.clients⟩ trivial
    exact Classical.byContradiction fun hxo => hw (h.locked x (List.mem_of_getElem? hxj) hxo)
  | unlock =>
    simp only [pexec] at hx
    cases hx
    exact SessInv.mine hg (hout hpre) (fun hne => absurd rfl hne) ⟨hrec.shakes, hrec.many, hrec.pool, hrec.clients⟩ trivial
  | test c =>
    have hpre : g = .out := hpre
    subst hpre
    simp only [pexec] at hx
    cases hx
    exact h.outside hg rfl rfl rfl rfl
  | park =>
    have hpre : g = .out := hpre
    subst hpre
    simp only [pexec] at hx
    cases hx
    refine h.outside hg ?_ ?_ ?_ ?_ <;> split <;> rfl
  | await =>
    have hpre : g = .out := hpre
    subst hpre
    simp only [pexec] at hx
    split at hx <;> cases hx
    exact h.outside hg rfl rfl rfl rfl
  | command b =>
    have hpre : g = .out := hpre
    subst hpre
    simp only [pexec] at hx
    split at hx
    · cases hx; exact h.outside hg rfl rfl rfl rfl
    · split at hx <;> cases hx
      cases b <;> exact h.outside hg rfl rfl rfl rfl
  | lend r' =>
    have hpre : g = .out := hpre
    subst hpre
    simp only [pexec] at hx
    split at hx <;> cases hx <;> exact h.outside hg rfl rfl rfl rfl
  | send c =>
    simp only [pexec] at hx
    split at hx
    · cases hx; exact same hpre rfl rfl rfl rfl
    · split at hx
      · cases hx; exact same hpre rfl rfl rfl rfl
      · split at hx <;> cases hx
        exact same hpre rfl rfl rfl rfl
  | closeChan =>
    have hne : g ≠ .out := by intro h; rw [h] at hpre; cases hpre
    simp only [pexec] at hx
    split at hx <;> cases hx <;> exact same hne rfl rfl rfl rfl
  | getSession =>
    simp only [pexec] at hx
    cases hx
    exact SessInv.mine hg (hout hpre) (fun _ => h.locked g hmem hpre) hrec hrec.pool
  | setSession s =>
    obtain ⟨hne, hs⟩ := hpre
    simp only [pexec] at hx
    cases hx
    refine SessInv.mine hg (hout hne) (fun _ => h.locked g hmem hne) ⟨hrec.shakes, hrec.many, ?_, hrec.clients⟩ rfl
    rcases hs with rfl | rfl
    · intro k hk; cases hk
    · exact hat
  | setSessionOf d s =>
    have hpre : g = .got s := hpre
    subst hpre
    have hne : SessPh.got s ≠ .out := by intro h; cases h
    simp only [pexec] at hx
    cases hx
    refine SessInv.mine hg (hout hne) (fun _ => h.locked _ hmem hne) ⟨hrec.shakes, ?_, hrec.pool, ?_⟩ trivial
    · show n0 ≤ (w.clients.modify d _).length
      rw [List.length_modify]; exact hrec.many
    · intro c y hc hy
      have hy : (w.clients.modify d ({ · with session := s }))[c]? = some y := hy
      rw [List.getElem?_modify] at hy
      rcases hw : w.clients[c]? with _ | z
      · rw [hw] at hy; cases hy
      · rw [hw] at hy
        have hy : (if d = c then { z with session := s } else z) = y := by simpa using hy
        subst hy
        split
        · exact hat
        · exact hrec.clients c z hc hw
  | sessionOf d =>
    have hpre : g = .dialed d := hpre
    subst hpre
    have hne : SessPh.dialed d ≠ .out := by intro h; cases h
    simp only [pexec] at hx
    cases hx
    refine SessInv.mine hg (hout hne) (fun _ => h.locked _ hmem hne) hrec ?_
    show Recent h0 (w.clients[d]?.bind (·.session))
    rcases hw : w.clients[d]? with _ | z
    · intro k hk; cases hk
    · exact hrec.clients d z hat hw
  | dial b =>
    have hl := h.locked g hmem hpre
    simp only [pexec] at hx
    split at hx
    · cases hx
      exact SessInv.mine hg (hout hpre) (fun _ => hl) hrec trivial
    · cases hx
      have hnew : ∀ (z : PClient), Recent h0 z.session → ∀ c y, n0 ≤ c → (w.clients ++ [z])[c]? = some y →
          Recent h0 y.session := by
        intro z hz c y hc hy
        by_cases hlt : c < w.clients.length
        · rw [List.getElem?_append_left hlt] at hy
          exact hrec.clients c y hc hy
        · rw [List.getElem?_append_right (Nat.le_of_not_lt hlt), List.getElem?_singleton] at hy
          split at hy
          · cases hy; exact hz
          · cases hy
      have hlen : ∀ z : PClient, n0 ≤ (w.clients ++ [z]).length := by
        intro z
        rw [List.length_append]
        exact Nat.le_add_right_of_le hrec.many
      cases b
      · exact SessInv.mine hg (hout hpre) (fun _ => hl)
          ⟨hrec.shakes, hlen _, hrec.pool, hnew _ (fun k hk => by cases hk)⟩ hrec.many
      · exact SessInv.mine hg (hout hpre) (fun _ => hl)
          ⟨Nat.le_add_right_of_le hrec.shakes, hlen _, hrec.pool,
            hnew _ (fun k hk => by cases hk; exact hrec.shakes)⟩ hrec.many
  | closeConn d =>
    have hl := h.locked g hmem hpre
    simp only [pexec] at hx
    cases hx
    refine SessInv.mine hg (hout hpre) (fun _ => hl) ⟨hrec.shakes, ?_, hrec.pool, ?_⟩ ?_
    · show n0 ≤ (w.clients.modify d _).length
      rw [List.length_modify]; exact hrec.many
    · intro c y hc hy
      have hy : (w.clients.modify d ({ · with isOpen := false }))[c]? = some y := hy
      rw [List.getElem?_modify] at hy
      rcases hw : w.clients[c]? with _ | z
      · rw [hw] at hy; cases hy
      · rw [hw] at hy
        have hy : (if d = c then { z with isOpen := false } else z) = y := by simpa using hy
        subst hy
        have := hrec.clients c z hc hw
        split <;> exact this
    · show RecentAt n0 h0 _ g
      cases g <;> exact hat
  | _ =>
    simp only [pexec] at hx
    cases hx
    exact same hpre rfl rfl rfl rfl

/-- **C76**, sessions after `Close`: a step of some goroutine closes the pool's channel (`Close` does so at its end);
whatever the goroutines do then, a client that is connected later has no session of a handshake before. -/
theorem C76_fresh_sessions_partial (cfg : PoolCfg) (threads : List PLoop) (hscan : ∀ b, .scan b ∉ threads)
    (before after : List (Nat × PEnv)) (act : Nat × PEnv) (s s₁ s' : PoolSys)
    (hs : s = (poolStart threads).run cfg before) (hs₁ : s₁ = s.step cfg act) (hs' : s' = s₁.run cfg after)
    (hopen : s.world.closed = false) (hclosed : s₁.world.closed = true) (c : Nat) (y : PClient) (k : Nat)
    (hc : s₁.world.clients.length ≤ c) (hy : s'.world.clients[c]? = some y) (hk : y.session = some k) :
    s₁.world.handshakes ≤ k := by
  obtain ⟨gs, h⟩ := LoopsOK.run (I := SessInv 0 0) (sess_body cfg) (sess_step 0 0) before (s := poolStart threads)
    (gs := threads.map fun _ => .out) (P := sessAt) (X := sessX)
    ⟨by simp [poolStart], by
      intro i p g hp hg
      simp only [poolStart, List.getElem?_map, Option.map_eq_some_iff] at hp hg
      obtain ⟨l, hl, rfl⟩ := hp
      obtain ⟨-, -, rfl⟩ := hg
      cases l with
      | scan b => exact absurd (List.mem_of_getElem? hl) (hscan b)
      | _ => rfl, by
      have hall : ∀ g ∈ threads.map (fun _ => SessPh.out), g = .out := by
        intro g hg
        obtain ⟨-, -, rfl⟩ := List.mem_map.mp hg
        rfl
      exact ⟨fun i j g g' hi _ hne => absurd (hall g (List.mem_of_getElem? hi)) hne,
        fun g hg hne => absurd (hall g hg) hne,
        ⟨Nat.zero_le _, Nat.zero_le _, fun _ _ => Nat.zero_le _, fun _ _ _ _ _ _ => Nat.zero_le _⟩,
        fun g hg => by rw [hall g hg]; trivial⟩⟩
  have h : LoopsOK sessA sessAt sessX (SessInv 0 0) s gs := by rw [hs]; exact h
  -- the step that closes the channel
  have hwhere : ∃ k, s.threads[act.1]? = some (.op .closeChan k) ∧ s₁.world = { s.world with
      closed := true, waiting := [], mail := s.world.mail ++ s.world.waiting.map fun j => (j, none) } ∧
      s₁.threads = s.threads.set act.1 (k true) := by
    rw [hs₁] at hclosed ⊢
    unfold PoolSys.step Loops.step at hclosed ⊢
    split at hclosed
    · rw [hopen] at hclosed; cases hclosed
    · rename_i o k hk
      split at hclosed
      · rename_i r hr
        rw [hk]
        cases o with
        | closeChan =>
          simp only [pexec, hopen] at hr ⊢
          cases hr
          exact ⟨k, rfl, rfl, rfl⟩
        | _ =>
          exfalso
          simp only [pexec] at hr
          repeat' split at hr
          all_goals first
            | (cases hr; revert hclosed; simp [hopen]; done)
            | (cases hr; revert hclosed; split <;> simp [hopen]; done)
            | (cases hr; done)
      · rw [hopen] at hclosed; cases hclosed
    · rw [hopen] at hclosed; cases hclosed
  obtain ⟨kk, ht, hw, hth⟩ := hwhere
  have hlt : act.1 < gs.length := by rw [h.len]; exact (List.getElem?_eq_some_iff.mp ht).1
  have hgi : gs[act.1]? = some gs[act.1] := List.getElem?_eq_getElem hlt
  have hsafe := h.safe _ _ _ ht hgi
  have hstored : gs[act.1] = .stored none := hsafe.1
  rw [hstored] at hgi hsafe
  have hne : SessPh.stored none ≠ .out := by intro h; cases h
  have hat : s.world.session = none := h.inv.at_ _ (List.mem_of_getElem? hgi)
  -- from there on
  have h1 : LoopsOK sessA sessAt sessX (SessInv s₁.world.clients.length s₁.world.handshakes) s₁
      (gs.set act.1 (.stored none)) := by
    refine ⟨by rw [hth, List.length_set, List.length_set]; exact h.len, fun j p g hp hg => ?_, ?_⟩
    · by_cases hj : act.1 = j
      · subst hj
        rw [hth, List.getElem?_set_self (List.getElem?_eq_some_iff.mp ht).1] at hp
        rw [List.getElem?_set_self hlt] at hg
        cases hp
        cases hg
        exact hsafe.2 true
      · rw [hth, List.getElem?_set_ne hj] at hp
        rw [List.getElem?_set_ne hj] at hg
        exact h.safe j p g hp hg
    · refine SessInv.mine hgi (fun j x hj hxj => ?_) (fun _ => ?_) ⟨Nat.le_refl _, Nat.le_refl _, ?_, ?_⟩ ?_
      · exact Classical.byContradiction fun hxo => hj (h.inv.one j act.1 x _ hxj hgi hxo hne)
      · rw [hw]; exact h.inv.locked _ (List.mem_of_getElem? hgi) hne
      · intro k hk
        rw [hw] at hk
        exact absurd (hat.symm.trans hk) (by intro h; cases h)
      · intro c y hc hy
        have := (List.getElem?_eq_some_iff.mp hy).1
        omega
      · show s₁.world.session = none
        rw [hw]; exact hat
  obtain ⟨gs', h2⟩ := LoopsOK.run (sess_body cfg) (sess_step _ _) after h1
  have h2 : LoopsOK sessA sessAt sessX (SessInv s₁.world.clients.length s₁.world.handshakes) s' gs' := by
    rw [hs']; exact h2
  exact h2.inv.recent.clients c y hc hy k hk

/-- The pool is closed, then two goroutines get clients; both have the session of the second handshake. -/
example :
    let s := (poolStart [.closer, .user false, .user false]).run ⟨2, 2⟩ (closeFails ++ go 0 8)
    let s₁ := s.step ⟨2, 2⟩ (0, {})
    let s' := s₁.run ⟨2, 2⟩ (go 0 1 ++ go 1 13 ++ go 2 13)
    s.world.closed = false ∧ s₁.world.closed = true ∧ s₁.world.handshakes = 1 ∧
    s'.world.clients = [⟨some 0, false⟩, ⟨some 0, false⟩, ⟨some 1, true⟩, ⟨some 1, true⟩] := by
  decide +kernel

end Goe2ee
