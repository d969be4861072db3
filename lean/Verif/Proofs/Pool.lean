import Verif.Spec.Pool
import Verif.Proofs.Loops

/-!
# The invariant of the client pool (before `Close` of the pool)
-/

set_option autoImplicit false

namespace Goe2ee

/-- Where a careful application goroutine is.  In `put`, `f` says that the caller is `Get`, after a
failed borrow test. -/
inductive PPh where
  | idle
  | entry
  | scan
  | popped (c : Nat)
  | hand (c : Nat)
  | good (c : Nat)
  | put (f : Bool) (c : Nat)
  | offer (f : Bool) (c : Nat)
  | kept (f : Bool) (c : Nat)
  | sized (f : Bool) (c n : Nat)
  | shut (f : Bool) (c : Nat)
  | putDone (f : Bool)
  | putOut
  | relock
  | room
  | full
  | out
  | parked
  | sess (s : Option Nat)
  | fresh (c : Nat)
  | fresh2 (c : Nat) (s : Option Nat)
  | plain (c : Nat)
  | plain2 (c : Nat) (s : Option Nat)
  | ready (c : Nat)
  | counted (c : Nat)
  | failed
  | refused
  | boom

/-- What a goroutine may do where. -/
def poolPre (cfg : PoolCfg) : POp → PPh → Prop
  | _, .boom => True
  | .lock, .entry => True
  | .lock, .put _ _ => True
  | .lock, .putOut => True
  | .unlock, .popped _ => True
  | .unlock, .putDone _ => True
  | .unlock, .full => True
  | .unlock, .counted _ => True
  | .unlock, .failed => True
  | .popIdle, .scan => True
  | .popIdle, .room => True
  | .countIdle, .kept _ _ => True
  | .pushIdle c, .sized _ c' n => c = c' ∧ (n : Int) < cfg.maxIdle
  | .getNumber, .scan => True
  | .addNumber d, .sized _ _ _ => d = -1
  | .addNumber d, .relock => d = -1
  | .addNumber d, .ready _ => d = 1
  | .getSession, .room => True
  | .getSession, .plain _ => True
  | .dial handshake, .sess s => handshake = s.isNone
  | .sessionOf c, .fresh c' => c = c'
  | .setSession s, .fresh2 _ s' => s = s'
  | .setSessionOf c s, .plain2 c' s' => c = c' ∧ s = s'
  | .test c, .hand c' => c = c'
  | .closeConn c, .shut _ c' => c = c'
  | .park, .out => True
  | .await, .parked => True
  | .send c, .offer _ c' => c = c'
  | .command careless, .idle => careless = false
  | .lend r, .good c => r = .ok c
  | .lend r, .refused => ∃ e, r = .error e
  | _, _ => False

/-- After looking at the limit. -/
def limitPh (cfg : PoolCfg) (n : Int) : PPh := if n ≥ cfg.maxOpen then .full else .room

/-- Where it goes. -/
def poolNext (cfg : PoolCfg) : (o : POp) → POp.Ret o → PPh → PPh
  | _, _, .boom => .boom
  | .lock, _, .entry => .scan
  | .lock, _, .put f c => .offer f c
  | .lock, _, .putOut => .relock
  | .unlock, _, .popped c => .hand c
  | .unlock, _, .putDone f => if f then .putOut else .idle
  | .unlock, _, .full => .out
  | .unlock, _, .counted c => .good c
  | .unlock, _, .failed => .refused
  | .popIdle, (r : Option Nat), _ =>
    match r with
    | some c => .popped c
    | none => .scan
  | .countIdle, (n : Nat), .kept f c => .sized f c n
  | .pushIdle _, _, .sized f _ _ => .putDone f
  | .getNumber, (n : Int), _ => limitPh cfg n
  | .addNumber _, _, .sized f c _ => .shut f c
  | .addNumber _, _, .relock => .room
  | .addNumber _, _, .ready c => .counted c
  | .getSession, (s : Option Nat), .room => .sess s
  | .getSession, (s : Option Nat), .plain c => .plain2 c s
  | .dial handshake, (r : Except Err Nat), _ =>
    match r with
    | .error _ => .failed
    | .ok c => if handshake then .fresh c else .plain c
  | .sessionOf _, (s : Option Nat), .fresh c => .fresh2 c s
  | .setSession _, _, .fresh2 c _ => .ready c
  | .setSessionOf _ _, _, .plain2 c _ => .ready c
  | .test c, (ok : Bool), _ => if ok then .good c else .put true c
  | .closeConn _, _, .shut f _ => .putDone f
  | .park, _, _ => .parked
  | .await, (r : Option Nat), _ =>
    match r with
    | some c => .hand c
    | none => .boom
  | .send c, (r : SendRes), .offer f _ =>
    match r with
    | .sent => .putDone f
    | .noReceiver => .kept f c
    | .closed => .boom
  | .command _, (cmd : Option Nat), _ =>
    match cmd with
    | none => .entry
    | some c => .put false c
  | .lend _, _, _ => .idle
  | _, _, g => g

def poolA (cfg : PoolCfg) : Auto PSig PPh := ⟨poolPre cfg, poolNext cfg⟩

/-- Where a goroutine is between two rounds of its loops. -/
def poolAt : PLoop → PPh → Prop
  | .user false, g => g = .idle
  | .scan false, g => g = .scan ∨ g = .room
  | _, _ => False

def poolX (_ : String) (g : PPh) : Prop := g = .boom

section
variable (cfg : PoolCfg)

theorem poolPut_safe (f : Bool) (c : Nat) (Q : Option Err → PPh → Prop) (hQ : ∀ e, Q e (if f then .putOut else .idle)) :
    SafeE (poolA cfg) (poolPut cfg c) (.put f c) Q poolX := by
  refine ⟨trivial, fun _ => ⟨rfl, fun r => ?_⟩⟩
  cases (r : SendRes) with
  | sent => exact ⟨trivial, fun _ => hQ _⟩
  | closed => exact ⟨trivial, fun _ => rfl⟩
  | noReceiver =>
    refine ⟨trivial, fun n => ?_⟩
    show SafeE _ (poolKeep cfg c n) (PPh.sized f c n) _ _
    unfold poolKeep
    split
    · exact ⟨rfl, fun _ => ⟨rfl, fun e => ⟨trivial, fun _ => hQ _⟩⟩⟩
    · rename_i hn
      exact ⟨⟨rfl, by omega⟩, fun _ => ⟨trivial, fun _ => hQ _⟩⟩

theorem poolReturn_safe (c : Nat) : SafeE (poolA cfg) (poolReturn false (.ok c)) (.good c) poolAt poolX :=
  ⟨rfl, fun _ => rfl⟩

theorem poolReturn_safe_err (e : Err) :
    SafeE (poolA cfg) (poolReturn false (.error e)) .refused poolAt poolX :=
  ⟨⟨_, rfl⟩, fun _ => rfl⟩

theorem poolCount_safe (c : Nat) : SafeE (poolA cfg) (poolCount false c) (.ready c) poolAt poolX :=
  ⟨rfl, fun _ => ⟨trivial, fun _ => poolReturn_safe cfg c⟩⟩

theorem poolDial_safe : SafeE (poolA cfg) (poolDial false) .room poolAt poolX := by
  refine ⟨trivial, fun s => ?_⟩
  rcases (s : Option Nat) with _ | k
  · refine ⟨rfl, fun r => ?_⟩
    rcases (r : Except Err Nat) with e | c
    · exact ⟨trivial, fun _ => poolReturn_safe_err cfg e⟩
    · exact ⟨rfl, fun s => ⟨rfl, fun _ => poolCount_safe cfg c⟩⟩
  · refine ⟨rfl, fun r => ?_⟩
    rcases (r : Except Err Nat) with e | c
    · exact ⟨trivial, fun _ => poolReturn_safe_err cfg e⟩
    · exact ⟨trivial, fun s => ⟨⟨rfl, rfl⟩, fun _ => poolCount_safe cfg c⟩⟩

theorem poolTry_safe (c : Nat) (next : Prog PSig PLoop)
    (hnext : SafeE (poolA cfg) next .room poolAt poolX) :
    SafeE (poolA cfg) (poolTry cfg false c next) (.hand c) poolAt poolX := by
  refine ⟨rfl, fun ok => ?_⟩
  cases (ok : Bool) with
  | true => exact poolReturn_safe cfg c
  | false => exact SafeE.bind (poolPut_safe cfg true c _ fun e => ⟨trivial, fun _ => ⟨rfl, fun _ => hnext⟩⟩)

theorem poolScan_safe (g : PPh) (hg : g = .scan ∨ g = .room) :
    SafeE (poolA cfg) (poolScan cfg false) g poolAt poolX := by
  refine ⟨by rcases hg with rfl | rfl <;> trivial, fun o => ?_⟩
  have hn : poolNext cfg .popIdle o g = match (o : Option Nat) with
      | some c => .popped c
      | none => .scan := by rcases hg with rfl | rfl <;> rfl
  show SafeE _ _ (poolNext cfg .popIdle o g) _ _
  rw [hn]
  rcases (o : Option Nat) with _ | c
  · refine ⟨trivial, fun n => ?_⟩
    show SafeE _ (poolFull cfg false n) (limitPh cfg n) _ _
    unfold poolFull limitPh
    split
    · refine ⟨trivial, fun _ => ⟨trivial, fun _ => ⟨trivial, fun o => ?_⟩⟩⟩
      rcases (o : Option Nat) with _ | c
      · rfl
      · exact poolTry_safe cfg c _ (poolDial_safe cfg)
    · exact poolDial_safe cfg
  · exact ⟨trivial, fun _ => poolTry_safe cfg c _ (.inr rfl)⟩

theorem poolBody_safe (l : PLoop) (g : PPh) (h : poolAt l g) :
    SafeE (poolA cfg) (poolBody cfg l) g poolAt poolX := by
  match l, h with
  | .user false, h =>
    subst h
    refine ⟨rfl, fun cmd => ?_⟩
    rcases (cmd : Option Nat) with _ | c
    · exact ⟨trivial, fun _ => .inl rfl⟩
    · exact SafeE.bind (poolPut_safe cfg false c _ fun e => rfl)
  | .scan false, h => exact poolScan_safe cfg g h

end

/-! ## The invariant -/

def PPh.locked : PPh → Nat
  | .scan | .popped _ | .offer _ _ | .kept _ _ | .sized _ _ _ | .shut _ _ | .putDone _ | .relock | .room
  | .full | .sess _ | .fresh _ | .fresh2 _ _ | .plain _ | .plain2 _ _ | .ready _ | .counted _
  | .failed => 1
  | _ => 0

/-- Which client a goroutine has in hand. -/
def PPh.own : PPh → Option Nat
  | .popped c | .hand c | .good c | .put _ c | .offer _ c | .kept _ c | .sized _ c _ | .shut _ c
  | .fresh c | .fresh2 c _ | .plain c | .plain2 c _ | .ready c | .counted c => some c
  | _ => none

def PPh.owns (c : Nat) (g : PPh) : Nat := if g.own = some c then 1 else 0

/-- Clients in hand that have a session. -/
def PPh.ownS : PPh → Option Nat
  | .plain _ | .plain2 _ _ => none
  | g => g.own

def PPh.ownsS (c : Nat) (g : PPh) : Nat := if g.ownS = some c then 1 else 0

def PPh.isFresh : PPh → Nat
  | .fresh _ | .fresh2 _ _ => 1
  | _ => 0

/-- Open connections not yet or no longer counted. -/
def PPh.adj : PPh → Int
  | .put f _ | .offer f _ | .kept f _ | .sized f _ _ | .putDone f => if f then -1 else 0
  | .relock | .putOut => -1
  | .shut f _ => if f then 0 else 1
  | .fresh _ | .fresh2 _ _ | .plain _ | .plain2 _ _ | .ready _ => 1
  | _ => 0

/-- Clients handed over to waiting goroutines. -/
def mailed (m : List (Nat × Option Nat)) : List Nat := m.filterMap (·.2)

/-- How often client `c` is somewhere. -/
def cnt (w : PWorld) (gs : List PPh) (c : Nat) : Nat :=
  w.idle.count c + w.held.count c + (mailed w.mail).count c + tot (PPh.owns c) gs

/-- How often client `c` is somewhere and has a session. -/
def cntS (w : PWorld) (gs : List PPh) (c : Nat) : Nat :=
  w.idle.count c + w.held.count c + (mailed w.mail).count c + tot (PPh.ownsS c) gs

def PFact (cfg : PoolCfg) (w : PWorld) : PPh → Prop
  | .boom => False
  | .sized _ _ n => w.idle.length = n
  | .room => w.number < cfg.maxOpen
  | .sess s => w.number < cfg.maxOpen ∧ w.session = s
  | .fresh c => w.number < cfg.maxOpen ∧ w.session = none ∧ ∃ b, w.clients[c]? = some ⟨some 0, b⟩
  | .fresh2 c s => w.number < cfg.maxOpen ∧ w.session = none ∧ s = some 0 ∧
      ∃ b, w.clients[c]? = some ⟨some 0, b⟩
  | .plain c => w.number < cfg.maxOpen ∧ w.session = some 0 ∧ ∃ b, w.clients[c]? = some ⟨none, b⟩
  | .plain2 c s => w.number < cfg.maxOpen ∧ w.session = some 0 ∧ s = some 0 ∧
      ∃ b, w.clients[c]? = some ⟨none, b⟩
  | .ready _ => w.number < cfg.maxOpen
  | .shut _ _ => w.number < cfg.maxOpen
  | _ => True

structure PInv (cfg : PoolCfg) (w : PWorld) (gs : List PPh) : Prop where
  lock : tot PPh.locked gs = if w.locked then 1 else 0
  once : ∀ c, cnt w gs c ≤ 1
  live : ∀ c, 0 < cnt w gs c → ∃ s, w.clients[c]? = some ⟨s, true⟩
  count : (openConns w : Int) = w.number + w.failed + totI PPh.adj gs
  le : w.number ≤ cfg.maxOpen
  idleLe : (w.idle.length : Int) ≤ cfg.maxIdle ∨ w.idle = []
  facts : ∀ (j : Nat) (g : PPh), gs[j]? = some g → PFact cfg w g
  sess : (w.session = none ∧ w.handshakes = tot PPh.isFresh gs) ∨
    (w.session = some 0 ∧ w.handshakes = 1 ∧ tot PPh.isFresh gs = 0)
  sesn : ∀ c, 0 < cntS w gs c ∨ c ∈ w.lent → ∃ b, w.clients[c]? = some ⟨some 0, b⟩
  mail : ∀ m ∈ w.mail, ∃ c, m.2 = some c
  isOpen : w.closed = false

/-- Occurrences outside goroutines. -/
def PWorld.base (w : PWorld) (c : Nat) : Nat :=
  w.idle.count c + w.held.count c + (mailed w.mail).count c

theorem fact_unlocked {cfg : PoolCfg} {w w' : PWorld} {g : PPh} (h : g.locked = 0)
    (hw : PFact cfg w g) : PFact cfg w' g := by
  cases g <;> first | trivial | exact hw.elim | cases h

theorem fresh_le_locked (g : PPh) : g.isFresh ≤ g.locked := by
  cases g <;> simp [PPh.isFresh, PPh.locked]

theorem tot_mono {G : Type} (f f' : G → Nat) (hf : ∀ g, f g ≤ f' g) (gs : List G) :
    tot f gs ≤ tot f' gs := by
  induction gs with
  | nil => exact Nat.le_refl _
  | cons a gs ih =>
    have := hf a
    simp [tot] at ih ⊢
    omega

section
variable {cfg : PoolCfg} {w : PWorld} {gs : List PPh} {i : Nat} {g : PPh}

theorem facts_set (h : PInv cfg w gs) (hg : gs[i]? = some g) (g' : PPh) (w' : PWorld)
    (hf : PFact cfg w' g') (ho : g.locked = 1 ∨ ∀ x, PFact cfg w x → PFact cfg w' x) (j : Nat) (x : PPh)
    (hx : (gs.set i g')[j]? = some x) : PFact cfg w' x := by
  by_cases hij : i = j
  · subst hij
    rw [List.getElem?_set_self (List.getElem?_eq_some_iff.mp hg).1] at hx
    cases hx
    exact hf
  · rw [List.getElem?_set_ne hij] at hx
    rcases ho with ho | ho
    · refine fact_unlocked ?_ (h.facts j x hx)
      have h1 := add_le_tot PPh.locked hg hx hij
      have h2 := h.lock
      split at h2 <;> omega
    · exact ho x (h.facts j x hx)

theorem fresh_le_one (h : PInv cfg w gs) : tot PPh.isFresh gs ≤ 1 := by
  have h1 := tot_mono PPh.isFresh PPh.locked fresh_le_locked gs
  have h2 := h.lock
  split at h2 <;> omega

/-- A step that does not change clients. -/
theorem PInv.quiet (h : PInv cfg w gs) (hg : gs[i]? = some g) (g' : PPh) (w' : PWorld)
    (hclients : w'.clients = w.clients)
    (hf : PFact cfg w' g') (ho : g.locked = 1 ∨ ∀ x, PFact cfg w x → PFact cfg w' x)
    (hlock : (if w.locked then 1 else 0) + g'.locked = (if w'.locked then 1 else 0) + g.locked)
    (hcnt : ∀ c, w'.base c + g'.owns c ≤ w.base c + g.owns c)
    (hcntS : ∀ c, w'.base c + g'.ownsS c ≤ w.base c + g.ownsS c)
    (hcount : w'.number + w'.failed + g'.adj = w.number + w.failed + g.adj)
    (hle : w'.number ≤ cfg.maxOpen)
    (hidle : (w'.idle.length : Int) ≤ cfg.maxIdle ∨ w'.idle.length ≤ w.idle.length)
    (hhs : w'.handshakes = w.handshakes)
    (hsess : (w'.session = w.session ∧ g'.isFresh = g.isFresh) ∨
      (w'.session = some 0 ∧ w.session = none ∧ g.isFresh = 1 ∧ g'.isFresh = 0))
    (hlent : ∀ c ∈ w'.lent, c ∈ w.lent ∨ 0 < g.ownsS c)
    (hmail : ∀ m ∈ w'.mail, m ∈ w.mail ∨ ∃ c, m.2 = some c) (hclosed : w'.closed = w.closed) :
    PInv cfg w' (gs.set i g') where
  lock := by
    have h1 := tot_set PPh.locked hg g'
    have h2 := h.lock
    omega
  once c := by
    have h1 := tot_set (PPh.owns c) hg g'
    have h2 := h.once c
    have h3 := hcnt c
    simp only [cnt, PWorld.base] at h2 h3 ⊢
    omega
  live c hc := by
    rw [hclients]
    refine h.live c ?_
    have h1 := tot_set (PPh.owns c) hg g'
    have h3 := hcnt c
    simp only [cnt, PWorld.base] at hc h3 ⊢
    omega
  count := by
    have h1 := totI_set PPh.adj hg g'
    have h2 := h.count
    simp only [openConns, hclients] at h2 ⊢
    omega
  le := hle
  idleLe := by
    rcases hidle with h1 | h1
    · exact .inl h1
    · rcases h.idleLe with h2 | h2
      · exact .inl (by omega)
      · rw [h2] at h1
        exact .inr (List.eq_nil_of_length_eq_zero (by simpa using h1))
  facts := facts_set h hg g' w' hf ho
  sess := by
    have h1 := tot_set PPh.isFresh hg g'
    have h2 := fresh_le_one h
    have h3 := le_tot PPh.isFresh hg
    rcases hsess with ⟨e1, e2⟩ | ⟨e1, e2, e3, e4⟩
    · rcases h.sess with ⟨f1, f2⟩ | ⟨f1, f2, f3⟩
      · exact .inl ⟨e1.trans f1, by omega⟩
      · exact .inr ⟨e1.trans f1, by omega, by omega⟩
    · rcases h.sess with ⟨f1, f2⟩ | ⟨f1, f2, f3⟩
      · exact .inr ⟨e1, by omega, by omega⟩
      · rw [e2] at f1; cases f1
  sesn c hc := by
    rw [hclients]
    refine h.sesn c ?_
    have h1 := tot_set (PPh.ownsS c) hg g'
    have h3 := hcntS c
    have h4 := le_tot (PPh.ownsS c) hg
    rcases hc with hc | hc
    · left
      simp only [cntS, PWorld.base] at hc h3 ⊢
      omega
    · rcases hlent c hc with hc | hc
      · exact .inr hc
      · left
        simp only [cntS]
        omega
  mail m hm := by
    rcases hmail m hm with hm | hm
    · exact h.mail m hm
    · exact hm
  isOpen := hclosed.trans h.isOpen

/-- A step of a goroutine that holds the mutex, in a world that does not change. -/
theorem PInv.look (h : PInv cfg w gs) (hg : gs[i]? = some g) (g' : PPh) (hf : PFact cfg w g')
    (hlock : g'.locked = g.locked) (hown : g'.own = g.own) (hownS : g'.ownS = g.ownS)
    (hadj : g'.adj = g.adj) (hfresh : g'.isFresh = g.isFresh) : PInv cfg w (gs.set i g') := by
  refine h.quiet hg g' w rfl hf (.inr fun x hx => hx) (by omega) ?_ ?_ (by omega) h.le
    (.inr (Nat.le_refl _)) rfl (.inl ⟨rfl, hfresh⟩) (fun c hc => .inl hc) (fun m hm => .inl hm) rfl
  · intro c; simp only [PPh.owns, hown]; exact Nat.le_refl _
  · intro c; simp only [PPh.ownsS, hownS]; exact Nat.le_refl _

/-- Locking. -/
theorem PInv.locks (h : PInv cfg w gs) (hg : gs[i]? = some g) (g' : PPh) (hl : w.locked = false)
    (hf : PFact cfg { w with locked := true } g')
    (hlock : g'.locked = g.locked + 1) (hown : g'.own = g.own) (hownS : g'.ownS = g.ownS)
    (hadj : g'.adj = g.adj) (hfresh : g'.isFresh = g.isFresh) :
    PInv cfg { w with locked := true } (gs.set i g') := by
  refine h.quiet hg g' _ rfl hf (.inr fun x hx => ?_) ?_ ?_ ?_ (by dsimp only; omega) h.le
    (.inr (Nat.le_refl _)) rfl (.inl ⟨rfl, hfresh⟩) (fun c hc => .inl hc) (fun m hm => .inl hm) rfl
  · cases x <;> exact hx
  · simp [hl]; omega
  · intro c; simp only [PPh.owns, hown]; exact Nat.le_refl _
  · intro c; simp only [PPh.ownsS, hownS]; exact Nat.le_refl _

/-- Unlocking. -/
theorem PInv.unlocks (h : PInv cfg w gs) (hg : gs[i]? = some g) (g' : PPh)
    (hf : PFact cfg { w with locked := false } g') (hl : g.locked = 1)
    (hlock : g'.locked = 0) (hown : g'.own = g.own) (hownS : g'.ownS = g.ownS)
    (hadj : g'.adj = g.adj) (hfresh : g'.isFresh = g.isFresh) :
    PInv cfg { w with locked := false } (gs.set i g') := by
  refine h.quiet hg g' _ rfl hf (.inl hl) ?_ ?_ ?_ (by dsimp only; omega) h.le
    (.inr (Nat.le_refl _)) rfl (.inl ⟨rfl, hfresh⟩) (fun c hc => .inl hc) (fun m hm => .inl hm) rfl
  · have h1 := le_tot PPh.locked hg
    have h2 := h.lock
    split at h2
    · rename_i hw; simp [hw]; omega
    · omega
  · intro c; simp only [PPh.owns, hown]; exact Nat.le_refl _
  · intro c; simp only [PPh.ownsS, hownS]; exact Nat.le_refl _

theorem mailed_append (m m' : List (Nat × Option Nat)) : mailed (m ++ m') = mailed m ++ mailed m' := by
  simp [mailed]

theorem mailed_erase {m : List (Nat × Option Nat)} {x : Nat × Option Nat} {c : Nat} (h : x ∈ m)
    (hc : x.2 = some c) (d : Nat) :
    (mailed (m.erase x)).count d + (if c = d then 1 else 0) = (mailed m).count d := by
  induction m with
  | nil => cases h
  | cons a m ih =>
    by_cases hax : a = x
    · subst hax
      rw [List.erase_cons_head]
      simp only [mailed, List.filterMap_cons, hc, List.count_cons]
      simp
    · rw [List.erase_cons_tail (by simpa using hax)]
      have hm : x ∈ m := by
        rcases List.mem_cons.mp h with rfl | hm
        · exact absurd rfl hax
        · exact hm
      have := ih hm
      rcases a with ⟨j, _ | b⟩
      · simpa [mailed] using this
      · simp only [mailed, List.filterMap_cons, List.count_cons] at this ⊢
        omega

theorem count_eraseIdx {l : List Nat} {k c : Nat} (h : l[k]? = some c) (d : Nat) :
    (l.eraseIdx k).count d + (if c = d then 1 else 0) = l.count d := by
  induction l generalizing k with
  | nil => cases h
  | cons a l ih =>
    cases k with
    | zero =>
      cases h
      simp [List.count_cons]
    | succ k =>
      have := ih (k := k) (by simpa using h)
      simp only [List.eraseIdx_cons_succ, List.count_cons] at this ⊢
      omega

theorem count_head_tail (l : List Nat) (d : Nat) :
    l.tail.count d + (if l.head? = some d then 1 else 0) = l.count d := by
  cases l with
  | nil => simp
  | cons a l => simp [List.count_cons]

/-- A successful dial. -/
theorem PInv.dials {s : Option Nat} (h : PInv cfg w gs) (hg : gs[i]? = some (.sess s)) (c : PClient)
    (g' : PPh) (w' : PWorld) (hclients : w'.clients = w.clients ++ [c])
    (e1 : w'.locked = w.locked) (e2 : w'.idle = w.idle) (e3 : w'.number = w.number)
    (e4 : w'.session = w.session) (e5 : w'.mail = w.mail) (e6 : w'.closed = w.closed)
    (e7 : w'.failed = w.failed) (e8 : w'.held = w.held) (e9 : w'.lent = w.lent) (hc : c.isOpen = true)
    (hf : PFact cfg w' g') (hl : g'.locked = 1) (ho : g'.own = some w.clients.length)
    (ha : g'.adj = 1)
    (hs : (w'.handshakes = w.handshakes + 1 ∧ w.session = none ∧ g'.isFresh = 1 ∧
        c.session = some 0) ∨
      (w'.handshakes = w.handshakes ∧ g'.isFresh = 0 ∧ g'.ownS = none)) :
    PInv cfg w' (gs.set i g') := by
  have hnew : cnt w gs w.clients.length = 0 := by
    rcases Nat.eq_zero_or_pos (cnt w gs w.clients.length) with h0 | h0
    · exact h0
    · obtain ⟨s, hs⟩ := h.live _ h0
      simp at hs
  have hcnt : ∀ d, cnt w' (gs.set i g') d = cnt w gs d + if d = w.clients.length then 1 else 0 := by
    intro d
    have h1 := tot_set (PPh.owns d) hg g'
    have h2 : g'.owns d = if d = w.clients.length then 1 else 0 := by
      simp only [PPh.owns, ho, Option.some.injEq, eq_comm]
    have h3 : (PPh.sess s).owns d = 0 := by simp [PPh.owns, PPh.own]
    simp only [cnt, e2, e5, e8]
    omega
  have hold : ∀ (d : Nat) (x : PClient), w.clients[d]? = some x → w'.clients[d]? = some x := by
    intro d x hd
    rw [hclients, List.getElem?_append_left (List.getElem?_eq_some_iff.mp hd).1]
    exact hd
  refine { lock := ?_, once := ?_, live := ?_, count := ?_, le := by rw [e3]; exact h.le,
           idleLe := by rw [e2]; exact h.idleLe, facts := facts_set h hg g' w' hf (.inl rfl), sess := ?_,
           sesn := ?_, mail := by rw [e5]; exact h.mail, isOpen := e6.trans h.isOpen }
  · have h1 := tot_set PPh.locked hg g'
    have h2 := h.lock
    have h3 : (PPh.sess s).locked = 1 := rfl
    rw [e1]
    omega
  · intro d
    rw [hcnt]
    have := h.once d
    split
    · rename_i hd; rw [hd, hnew]; omega
    · omega
  · intro d hd
    rw [hcnt] at hd
    by_cases hdn : d = w.clients.length
    · refine ⟨c.session, ?_⟩
      rw [hclients, hdn]
      simp
      rcases c with ⟨a, b⟩
      cases hc
      rfl
    · rw [if_neg hdn] at hd
      obtain ⟨s, hs⟩ := h.live d (by omega)
      exact ⟨s, hold _ _ hs⟩
  · have h1 := totI_set PPh.adj hg g'
    have h2 := h.count
    have h3 : (PPh.sess s).adj = 0 := rfl
    have h4 : openConns w' = openConns w + 1 := by simp [openConns, hclients, List.countP_append, hc]
    rw [h4, e3, e7]
    push_cast
    omega
  · have h1 := tot_set PPh.isFresh hg g'
    have h2 : (PPh.sess s).isFresh = 0 := rfl
    rcases hs with ⟨f1, f2, f3, -⟩ | ⟨f1, f2, -⟩
    · rcases h.sess with ⟨k1, k2⟩ | ⟨k1, k2, k3⟩
      · exact .inl ⟨e4.trans k1, by omega⟩
      · rw [f2] at k1; cases k1
    · rcases h.sess with ⟨k1, k2⟩ | ⟨k1, k2, k3⟩
      · exact .inl ⟨e4.trans k1, by omega⟩
      · exact .inr ⟨e4.trans k1, by omega, by omega⟩
  · intro d hd
    have hS : (0 < cntS w gs d ∨ d ∈ w.lent) ∨ (d = w.clients.length ∧ g'.ownS = some d) := by
      rcases hd with hd | hd
      · have h1 := tot_set (PPh.ownsS d) hg g'
        have h3 : (PPh.sess s).ownsS d = 0 := by simp [PPh.ownsS, PPh.ownS, PPh.own]
        by_cases hdS : g'.ownS = some d
        · right
          refine ⟨?_, hdS⟩
          have : g'.own = some d := by
            cases g' <;> first | exact hdS | (cases hdS; done)
          rw [ho] at this
          cases this
          rfl
        · left; left
          have h4 : g'.ownsS d = 0 := if_neg hdS
          simp only [cntS, e2, e5, e8] at hd ⊢
          omega
      · rw [e9] at hd
        exact .inl (.inr hd)
    rcases hS with hS | ⟨rfl, hS⟩
    · obtain ⟨b, hb⟩ := h.sesn d hS
      exact ⟨b, hold _ _ hb⟩
    · rcases hs with ⟨-, -, -, f4⟩ | ⟨-, -, f3⟩
      · refine ⟨c.isOpen, ?_⟩
        rw [hclients]
        simp
        rcases c with ⟨a, b⟩
        cases f4
        rfl
      · rw [f3] at hS; cases hS

/-- A goroutine that holds the mutex and is not dialling finds no session only before the first
handshake. -/
theorem PInv.no_handshake (h : PInv cfg w gs) (hg : gs[i]? = some g) (hl : g.locked = 1)
    (hf : g.isFresh = 0) (hs : w.session = none) : w.handshakes = 0 := by
  rcases h.sess with ⟨-, k2⟩ | ⟨k1, -, -⟩
  · rcases Nat.eq_zero_or_pos (tot PPh.isFresh gs) with h0 | h0
    · omega
    · obtain ⟨j, x, hx, hpos⟩ := tot_pos PPh.isFresh h0
      have hij : i ≠ j := by
        rintro rfl
        rw [hg] at hx
        cases hx
        omega
      have h1 := add_le_tot PPh.locked hg hx hij
      have h2 := h.lock
      have h3 := fresh_le_locked x
      split at h2 <;> omega
  · rw [hs] at k1; cases k1

theorem getElem?_modify_ne {f : PClient → PClient} {l : List PClient} {c d : Nat} (h : c ≠ d) :
    (l.modify c f)[d]? = l[d]? := by
  rw [List.getElem?_modify]
  simp [h]

theorem getElem?_modify_self {f : PClient → PClient} {l : List PClient} {c : Nat} {x : PClient}
    (h : l[c]? = some x) : (l.modify c f)[c]? = some (f x) := by
  rw [List.getElem?_modify, h]
  simp

theorem countP_close {l : List PClient} {c : Nat} {s : Option Nat} (h : l[c]? = some ⟨s, true⟩) :
    (l.modify c ({ · with isOpen := false })).countP (·.isOpen) + 1 = l.countP (·.isOpen) := by
  induction l generalizing c with
  | nil => cases h
  | cons a l ih =>
    cases c with
    | zero =>
      cases h
      simp
    | succ c =>
      have := ih (c := c) (by simpa using h)
      simp only [List.modify_succ_cons, List.countP_cons]
      omega

theorem countP_session {l : List PClient} {c : Nat} {s : Option Nat} :
    (l.modify c ({ · with session := s })).countP (·.isOpen) = l.countP (·.isOpen) := by
  induction l generalizing c with
  | nil => simp
  | cons a l ih =>
    cases c with
    | zero => simp [List.countP_cons]
    | succ c => simp only [List.modify_succ_cons, List.countP_cons, ih]

/-- Giving a new client its session. -/
theorem PInv.adopts {c : Nat} {s : Option Nat} (h : PInv cfg w gs) (hg : gs[i]? = some (.plain2 c s)) :
    PInv cfg { w with clients := w.clients.modify c ({ · with session := s }) } (gs.set i (.ready c)) := by
  have hF := h.facts i _ hg
  obtain ⟨h1, h2, rfl, b, h3⟩ := hF
  have hcnt : ∀ d, cnt { w with clients := w.clients.modify c ({ · with session := some 0 }) }
      (gs.set i (.ready c)) d = cnt w gs d := by
    intro d
    have h1 := tot_set (PPh.owns d) hg (.ready c)
    have h2 : (PPh.ready c).owns d = (PPh.plain2 c (some 0)).owns d := rfl
    simp only [cnt]
    omega
  have hother : ∀ (d : Nat) (x : Bool), w.clients[d]? = some ⟨some 0, x⟩ →
      (w.clients.modify c ({ · with session := some 0 }))[d]? = some ⟨some 0, x⟩ := by
    intro d x hd
    by_cases hcd : c = d
    · subst hcd; rw [h3] at hd; cases hd
    · rw [getElem?_modify_ne hcd]; exact hd
  refine { lock := ?_, once := ?_, live := ?_, count := ?_, le := h.le,
           idleLe := h.idleLe, facts := facts_set h hg _ _ h1 (.inl rfl), sess := ?_,
           sesn := ?_, mail := h.mail, isOpen := h.isOpen }
  · have h1 := tot_set PPh.locked hg (.ready c)
    have h2 : (PPh.ready c).locked = (PPh.plain2 c (some 0)).locked := rfl
    have h3 := h.lock
    dsimp only
    omega
  · intro d; rw [hcnt]; exact h.once d
  · intro d hd
    rw [hcnt] at hd
    obtain ⟨s, hs⟩ := h.live d hd
    dsimp only
    by_cases hcd : c = d
    · subst hcd
      exact ⟨some 0, getElem?_modify_self hs⟩
    · rw [getElem?_modify_ne hcd]; exact ⟨s, hs⟩
  · have h1 := totI_set PPh.adj hg (.ready c)
    have h2 : (PPh.ready c).adj = (PPh.plain2 c (some 0)).adj := rfl
    have h3 := h.count
    simp only [openConns, countP_session] at h3 ⊢
    omega
  · have h1 := tot_set PPh.isFresh hg (.ready c)
    have h2 : (PPh.ready c).isFresh = (PPh.plain2 c (some 0)).isFresh := rfl
    have h3 : tot PPh.isFresh (gs.set i (.ready c)) = tot PPh.isFresh gs := by omega
    dsimp only
    rw [h3]
    exact h.sess
  · intro d hd
    dsimp only
    by_cases hcd : c = d
    · subst hcd
      exact ⟨b, getElem?_modify_self h3⟩
    · have : 0 < cntS w gs d ∨ d ∈ w.lent := by
        refine hd.imp_left fun hd => ?_
        have h1 := tot_set (PPh.ownsS d) hg (.ready c)
        have h2 : (PPh.ready c).ownsS d = 0 := by
          simp only [PPh.ownsS, PPh.ownS, PPh.own]
          exact if_neg (by simpa using hcd)
        simp only [cntS] at hd ⊢
        omega
      obtain ⟨x, hx⟩ := h.sesn d this
      exact ⟨x, hother d x hx⟩

/-- Closing a connection. -/
theorem PInv.closes {c : Nat} {f : Bool} (h : PInv cfg w gs) (hg : gs[i]? = some (.shut f c)) :
    PInv cfg { w with clients := w.clients.modify c ({ · with isOpen := false }) }
      (gs.set i (.putDone f)) := by
  have hown : (PPh.shut f c).owns c = 1 := by simp [PPh.owns, PPh.own]
  have hone : 0 < cnt w gs c := by
    have := le_tot (PPh.owns c) hg
    simp only [cnt]
    omega
  obtain ⟨s, hs⟩ := h.live c hone
  have hcnt : ∀ d, cnt { w with clients := w.clients.modify c ({ · with isOpen := false }) }
      (gs.set i (.putDone f)) d + (if c = d then 1 else 0) = cnt w gs d := by
    intro d
    have h1 := tot_set (PPh.owns d) hg (.putDone f)
    have h2 : (PPh.putDone f).owns d = 0 := by simp [PPh.owns, PPh.own]
    have h3 : (PPh.shut f c).owns d = if c = d then 1 else 0 := by simp [PPh.owns, PPh.own]
    simp only [cnt]
    omega
  refine { lock := ?_, once := ?_, live := ?_, count := ?_, le := h.le,
           idleLe := h.idleLe, facts := facts_set h hg _ _ trivial (.inl rfl), sess := ?_,
           sesn := ?_, mail := h.mail, isOpen := h.isOpen }
  · have h1 := tot_set PPh.locked hg (.putDone f)
    have h2 : (PPh.putDone f).locked = (PPh.shut f c).locked := rfl
    have h3 := h.lock
    dsimp only
    omega
  · intro d
    have h1 := hcnt d
    have h2 := h.once d
    omega
  · intro d hd
    have h1 := hcnt d
    dsimp only
    by_cases hcd : c = d
    · subst hcd
      have h2 := h.once c
      simp only [if_true] at h1
      omega
    · rw [getElem?_modify_ne hcd]
      exact h.live d (by omega)
  · have h1 := totI_set PPh.adj hg (.putDone f)
    have h2 : (PPh.putDone f).adj + 1 = (PPh.shut f c).adj := by cases f <;> rfl
    have h3 := h.count
    have h4 := countP_close hs
    simp only [openConns] at h3 ⊢
    omega
  · have h1 := tot_set PPh.isFresh hg (.putDone f)
    have h2 : (PPh.putDone f).isFresh = (PPh.shut f c).isFresh := rfl
    have h3 : tot PPh.isFresh (gs.set i (.putDone f)) = tot PPh.isFresh gs := by omega
    dsimp only
    rw [h3]
    exact h.sess
  · intro d hd
    dsimp only
    have : 0 < cntS w gs d ∨ d ∈ w.lent := by
      refine hd.imp_left fun hd => ?_
      have h1 := tot_set (PPh.ownsS d) hg (.putDone f)
      have h2 : (PPh.putDone f).ownsS d = 0 := by simp [PPh.ownsS, PPh.ownS, PPh.own]
      simp only [cntS] at hd ⊢
      omega
    obtain ⟨x, hx⟩ := h.sesn d this
    by_cases hcd : c = d
    · subst hcd
      exact ⟨false, getElem?_modify_self hx⟩
    · rw [getElem?_modify_ne hcd]
      exact ⟨x, hx⟩

theorem pinv_step (e : PEnv) (o : POp) (r : POp.Ret o) (w' : PWorld) (h : PInv cfg w gs)
    (hg : gs[i]? = some g) (hpre : poolPre cfg o g) (hx : pexec e i o w = some (r, w')) :
    PInv cfg w' (gs.set i (poolNext cfg o r g)) := by
  have hF := h.facts i g hg
  cases o with
  | lock =>
    simp only [pexec] at hx
    split at hx
    · cases hx
    rename_i hl
    cases hx
    have hl : w.locked = false := by simpa using hl
    cases g <;> first | exact hpre.elim | exact hF.elim | exact h.locks hg _ hl trivial rfl rfl rfl rfl rfl
  | unlock =>
    simp only [pexec] at hx
    cases hx
    cases g with
    | putDone f => cases f <;> exact h.unlocks hg _ trivial rfl rfl rfl rfl rfl rfl
    | _ => first | exact hpre.elim | exact hF.elim | exact h.unlocks hg _ trivial rfl rfl rfl rfl rfl rfl
  | popIdle =>
    simp only [pexec] at hx
    cases hx
    have hc := fun d => count_head_tail w.idle d
    cases g <;> first | exact hpre.elim | exact hF.elim | skip
    all_goals
      rcases hh : w.idle.head? with _ | c
      · refine h.quiet hg .scan _ rfl trivial (.inl rfl) rfl ?_ ?_ rfl h.le (.inr (by simp)) rfl
          (.inl ⟨rfl, rfl⟩) (fun c hc => .inl hc) (fun m hm => .inl hm) rfl
        · intro d
          have := hc d
          simp [PWorld.base, PPh.owns, PPh.own]
          omega
        · intro d
          have := hc d
          simp [PWorld.base, PPh.ownsS, PPh.ownS, PPh.own]
          omega
      · refine h.quiet hg (.popped c) _ rfl trivial (.inl rfl) rfl ?_ ?_ rfl h.le (.inr (by simp)) rfl
          (.inl ⟨rfl, rfl⟩) (fun c hc => .inl hc) (fun m hm => .inl hm) rfl
        · intro d
          have := hc d
          simp [hh] at this
          simp [PWorld.base, PPh.owns, PPh.own]
          omega
        · intro d
          have := hc d
          simp [hh] at this
          simp [PWorld.base, PPh.ownsS, PPh.ownS, PPh.own]
          omega
  | countIdle =>
    simp only [pexec] at hx
    cases hx
    cases g <;> first | exact hpre.elim | exact hF.elim | exact h.look hg _ rfl rfl rfl rfl rfl rfl
  | pushIdle c =>
    simp only [pexec] at hx
    cases hx
    cases g <;> first | exact hpre.elim | exact hF.elim | skip
    rename_i f c' n
    obtain ⟨rfl, hn⟩ := hpre
    have hF : w.idle.length = n := hF
    refine h.quiet hg (.putDone f) _ rfl trivial (.inl rfl) ?_ ?_ ?_ rfl h.le (.inl ?_) rfl
      (.inl ⟨rfl, rfl⟩) (fun c hc => .inl hc) (fun m hm => .inl hm) rfl
    · rfl
    · intro d
      simp [PWorld.base, PPh.owns, PPh.own, List.count_append, List.count_singleton]
      omega
    · intro d
      simp [PWorld.base, PPh.ownsS, PPh.ownS, PPh.own, List.count_append, List.count_singleton]
      omega
    · simp
      omega
  | listIdle => cases g <;> first | exact hpre.elim | exact hF.elim
  | clearIdle => cases g <;> first | exact hpre.elim | exact hF.elim
  | getNumber =>
    simp only [pexec] at hx
    cases hx
    cases g <;> first | exact hpre.elim | exact hF.elim | skip
    show PInv cfg w (gs.set i (limitPh cfg w.number))
    unfold limitPh
    split
    · exact h.look hg _ trivial rfl rfl rfl rfl rfl
    · rename_i hn
      exact h.look hg _ (show _ < _ by omega) rfl rfl rfl rfl rfl
  | addNumber d =>
    simp only [pexec] at hx
    cases hx
    have hle := h.le
    cases g <;> first | exact hpre.elim | exact hF.elim | skip
    · rename_i f c n
      cases hpre
      refine h.quiet hg (.shut f c) _ rfl (show w.number + -1 < _ by omega) (.inl rfl) rfl (fun _ => Nat.le_refl _)
        (fun _ => Nat.le_refl _) ?_ ?_ (.inr (Nat.le_refl _)) rfl (.inl ⟨rfl, rfl⟩)
        (fun c hc => .inl hc) (fun m hm => .inl hm) rfl
      · cases f <;> simp [PPh.adj] <;> omega
      · dsimp only; omega
    · cases hpre
      refine h.quiet hg .room _ rfl ?_ (.inl rfl) rfl (fun _ => Nat.le_refl _)
        (fun _ => Nat.le_refl _) ?_ ?_ (.inr (Nat.le_refl _)) rfl (.inl ⟨rfl, rfl⟩)
        (fun c hc => .inl hc) (fun m hm => .inl hm) rfl
      · show w.number + -1 < _; omega
      · simp [PPh.adj]; omega
      · dsimp only; omega
    · rename_i c
      cases hpre
      have hF : w.number < cfg.maxOpen := hF
      refine h.quiet hg (.counted c) _ rfl trivial (.inl rfl) rfl (fun _ => Nat.le_refl _)
        (fun _ => Nat.le_refl _) ?_ ?_ (.inr (Nat.le_refl _)) rfl (.inl ⟨rfl, rfl⟩)
        (fun c hc => .inl hc) (fun m hm => .inl hm) rfl
      · simp [PPh.adj]; omega
      · dsimp only; omega
  | zeroNumber => cases g <;> first | exact hpre.elim | exact hF.elim
  | getSession =>
    simp only [pexec] at hx
    cases hx
    cases g <;> first | exact hpre.elim | exact hF.elim | skip
    · exact h.look hg _ ⟨hF, rfl⟩ rfl rfl rfl rfl rfl
    · exact h.look hg _ ⟨hF.1, hF.2.1, hF.2.1, hF.2.2⟩ rfl rfl rfl rfl rfl
  | setSession s =>
    simp only [pexec] at hx
    cases hx
    cases g <;> first | exact hpre.elim | exact hF.elim | skip
    rename_i c s'
    cases hpre
    obtain ⟨h1, h2, rfl, b, h3⟩ := hF
    exact h.quiet hg (.ready c) _ rfl h1 (.inl rfl) rfl (fun _ => Nat.le_refl _)
      (fun _ => Nat.le_refl _) rfl h.le (.inr (Nat.le_refl _)) rfl (.inr ⟨rfl, h2, rfl, rfl⟩)
      (fun c hc => .inl hc) (fun m hm => .inl hm) rfl
  | dial handshake =>
    simp only [pexec] at hx
    cases g <;> first | exact hpre.elim | exact hF.elim | skip
    rename_i s
    cases hpre
    obtain ⟨h1, h2⟩ := hF
    cases hd : e.dial with
    | some err =>
      rw [hd] at hx
      cases hx
      exact h.look hg .failed trivial rfl rfl rfl rfl rfl
    | none =>
      rw [hd] at hx
      cases hs : s with
      | none =>
        subst hs
        cases hx
        have hz := h.no_handshake hg rfl rfl h2
        exact h.dials hg ⟨some w.handshakes, true⟩ (.fresh w.clients.length) _ rfl rfl rfl rfl rfl rfl
          rfl rfl rfl rfl rfl
          (by
            refine ⟨h1, h2, true, ?_⟩
            simp [hz])
          rfl rfl rfl (.inl ⟨rfl, h2, rfl, by simp [hz]⟩)
      | some k =>
        subst hs
        cases hx
        exact h.dials hg ⟨none, true⟩ (.plain w.clients.length) _ rfl rfl rfl rfl rfl rfl
          rfl rfl rfl rfl rfl
          (by
            refine ⟨h1, ?_, true, by simp⟩
            rcases h.sess with ⟨f1, -⟩ | ⟨f1, -⟩
            · rw [h2] at f1; cases f1
            · exact f1)
          rfl rfl rfl (.inr ⟨rfl, rfl, rfl⟩)
  | sessionOf c =>
    simp only [pexec] at hx
    cases hx
    cases g <;> first | exact hpre.elim | exact hF.elim | skip
    cases hpre
    obtain ⟨h1, h2, b, h3⟩ := hF
    exact h.look hg _ ⟨h1, h2, by rw [h3]; rfl, b, h3⟩ rfl rfl rfl rfl rfl
  | setSessionOf c s =>
    simp only [pexec] at hx
    cases hx
    cases g <;> first | exact hpre.elim | exact hF.elim | skip
    obtain ⟨rfl, rfl⟩ := hpre
    exact h.adopts hg
  | test c =>
    simp only [pexec] at hx
    cases hx
    cases g <;> first | exact hpre.elim | exact hF.elim | skip
    cases hpre
    cases ht : e.test with
    | true =>
      exact h.quiet hg (.good c) _ rfl trivial (.inr fun x hx => by cases x <;> exact hx) rfl
        (fun _ => Nat.le_refl _) (fun _ => Nat.le_refl _) rfl h.le (.inr (Nat.le_refl _)) rfl
        (.inl ⟨rfl, rfl⟩) (fun c hc => .inl hc) (fun m hm => .inl hm) rfl
    | false =>
      refine h.quiet hg (.put true c) _ rfl trivial (.inr fun x hx => by cases x <;> exact hx) rfl
        (fun _ => Nat.le_refl _) (fun _ => Nat.le_refl _) ?_ h.le (.inr (Nat.le_refl _)) rfl
        (.inl ⟨rfl, rfl⟩) (fun c hc => .inl hc) (fun m hm => .inl hm) rfl
      simp [PPh.adj]
      omega
  | closeConn c =>
    simp only [pexec] at hx
    cases hx
    cases g <;> first | exact hpre.elim | exact hF.elim | skip
    cases hpre
    exact h.closes hg
  | park =>
    simp only [pexec, h.isOpen] at hx
    cases hx
    cases g <;> first | exact hpre.elim | exact hF.elim | skip
    exact h.quiet hg .parked _ rfl trivial (.inr fun x hx => by cases x <;> exact hx) rfl
      (fun _ => Nat.le_refl _) (fun _ => Nat.le_refl _) rfl h.le (.inr (Nat.le_refl _)) rfl
      (.inl ⟨rfl, rfl⟩) (fun c hc => .inl hc) (fun m hm => .inl hm) h.isOpen.symm
  | await =>
    simp only [pexec] at hx
    cases hm : w.mail.find? (·.1 == i) with
    | none => rw [hm] at hx; cases hx
    | some m =>
    rw [hm] at hx
    cases hx
    have hmem := List.mem_of_find?_eq_some hm
    obtain ⟨c, hc⟩ := h.mail m hmem
    have he := fun d => mailed_erase hmem hc d
    cases g <;> first | exact hpre.elim | exact hF.elim | skip
    rw [hc]
    refine h.quiet hg (.hand c) _ rfl trivial (.inr fun x hx => by cases x <;> exact hx) rfl
      ?_ ?_ rfl h.le (.inr (Nat.le_refl _)) rfl
      (.inl ⟨rfl, rfl⟩) (fun c hc => .inl hc) (fun m hm => .inl (List.mem_of_mem_erase hm)) rfl
    · intro d
      have := he d
      simp [PWorld.base, PPh.owns, PPh.own]
      omega
    · intro d
      have := he d
      simp [PWorld.base, PPh.ownsS, PPh.ownS, PPh.own]
      omega
  | send c =>
    simp only [pexec, h.isOpen] at hx
    simp only [Bool.false_eq_true, if_false] at hx
    cases g <;> first | exact hpre.elim | exact hF.elim | skip
    rename_i f c'
    cases hpre
    split at hx
    · rename_i j hj
      cases hx
      refine h.quiet hg (.putDone f) _ rfl trivial (.inl rfl) rfl
        ?_ ?_ rfl h.le (.inr (Nat.le_refl _)) rfl
        (.inl ⟨rfl, rfl⟩) (fun c hc => .inl hc) (fun m hm => ?_) h.isOpen.symm
      · intro d
        simp [PWorld.base, PPh.owns, PPh.own, mailed, List.count_singleton]
        omega
      · intro d
        simp [PWorld.base, PPh.ownsS, PPh.ownS, PPh.own, mailed, List.count_singleton]
        omega
      · rcases List.mem_append.mp hm with hm | hm
        · exact .inl hm
        · exact .inr ⟨c, by rw [List.mem_singleton.mp hm]⟩
    · split at hx
      · cases hx
        exact h.look hg (.kept f c) trivial rfl rfl rfl rfl rfl
      · cases hx
  | closeChan => cases g <;> first | exact hpre.elim | exact hF.elim
  | command careless =>
    cases g <;> first | exact hpre.elim | exact hF.elim | skip
    cases hpre
    simp only [pexec] at hx
    cases hcmd : e.cmd with
    | get =>
      rw [hcmd] at hx
      cases hx
      exact h.look hg .entry trivial rfl rfl rfl rfl rfl
    | close k =>
      rw [hcmd] at hx
      dsimp only at hx
      cases hk : w.held[k]? with
      | none => rw [hk] at hx; cases hx
      | some c =>
        rw [hk] at hx
        cases hx
        have he := fun d => count_eraseIdx hk d
        refine h.quiet hg (.put false c) _ rfl trivial (.inr fun x hx => by cases x <;> exact hx) rfl
          ?_ ?_ rfl h.le (.inr (Nat.le_refl _)) rfl
          (.inl ⟨rfl, rfl⟩) (fun c hc => .inl hc) (fun m hm => .inl hm) rfl
        · intro d
          have := he d
          simp [PWorld.base, PPh.owns, PPh.own]
          omega
        · intro d
          have := he d
          simp [PWorld.base, PPh.ownsS, PPh.ownS, PPh.own]
          omega
  | lend r =>
    cases g <;> first | exact hpre.elim | exact hF.elim | skip
    · rename_i c
      cases hpre
      simp only [pexec] at hx
      cases hx
      refine h.quiet hg .idle _ rfl trivial (.inr fun x hx => by cases x <;> exact hx) rfl
          ?_ ?_ rfl h.le (.inr (Nat.le_refl _)) rfl
          (.inl ⟨rfl, rfl⟩) (fun d hd => ?_) (fun m hm => .inl hm) rfl
      · intro d
        simp [PWorld.base, PPh.owns, PPh.own, List.count_append, List.count_singleton]
        omega
      · intro d
        simp [PWorld.base, PPh.ownsS, PPh.ownS, PPh.own, List.count_append, List.count_singleton]
        omega
      · rcases List.mem_append.mp hd with hd | hd
        · exact .inl hd
        · rw [List.mem_singleton.mp hd]
          right
          simp [PPh.ownsS, PPh.ownS, PPh.own]
    · obtain ⟨err, rfl⟩ := hpre
      simp only [pexec] at hx
      cases hx
      exact h.look hg .idle trivial rfl rfl rfl rfl rfl

theorem totI_pos {G : Type} (f : G → Int) {gs : List G} (h : 0 < totI f gs) :
    ∃ (i : Nat) (g : G), gs[i]? = some g ∧ 0 < f g := by
  induction gs with
  | nil => simp [totI] at h
  | cons a gs ih =>
    by_cases ha : 0 < f a
    · exact ⟨0, a, rfl, ha⟩
    · obtain ⟨i, g, h1, h2⟩ := ih (by simp [totI] at h ⊢; omega)
      exact ⟨i + 1, g, by simpa using h1, h2⟩

theorem totI_le {G : Type} (f : G → Int) (f' : G → Nat) (hf : ∀ g, f g ≤ f' g) (gs : List G) :
    totI f gs ≤ tot f' gs := by
  induction gs with
  | nil => simp [tot, totI]
  | cons a gs ih =>
    have := hf a
    simp [tot, totI] at ih ⊢
    omega

theorem adj_le_locked (g : PPh) : g.adj ≤ g.locked := by
  cases g <;> simp [PPh.adj, PPh.locked] <;> split <;> omega

/-- The number of open connections. -/
theorem PInv.open_le (h : PInv cfg w gs) : (openConns w : Int) ≤ cfg.maxOpen + w.failed := by
  have h1 := h.count
  have h2 := h.le
  have h3 := h.lock
  have h4 := totI_le PPh.adj PPh.locked adj_le_locked gs
  by_cases hp : 0 < totI PPh.adj gs
  · obtain ⟨j, g, hj, hpos⟩ := totI_pos PPh.adj hp
    have h5 := h.facts j g hj
    have : w.number < cfg.maxOpen := by
      cases g with
      | put f c => cases f <;> simp [PPh.adj] at hpos
      | offer f c => cases f <;> simp [PPh.adj] at hpos
      | kept f c => cases f <;> simp [PPh.adj] at hpos
      | sized f c => cases f <;> simp [PPh.adj] at hpos
      | putDone f => cases f <;> simp [PPh.adj] at hpos
      | fresh c => exact h5.1
      | fresh2 c => exact h5.1
      | plain c => exact h5.1
      | plain2 c => exact h5.1
      | ready c => exact h5
      | shut f c => exact h5
      | _ => simp [PPh.adj] at hpos
    split at h3 <;> omega
  · omega

end

/-- All goroutines are careful and the pool is not closed. -/
theorem pool_reach (cfg : PoolCfg) (h0 : 0 ≤ cfg.maxOpen) (n : Nat) (acts : List (Nat × PEnv)) :
    ∃ gs, LoopsOK (poolA cfg) poolAt poolX (PInv cfg)
      (PoolSys.run cfg (poolStart (List.replicate n (.user false))) acts) gs := by
  refine LoopsOK.run (poolBody_safe cfg)
    (fun e i o w gs g r w' hg hpre hI hx => pinv_step e o r w' hI hg hpre hx) acts
    (gs := List.replicate n .idle) ⟨by simp [poolStart], ?_, ?_⟩
  · intro i p g hp hg
    simp only [poolStart, List.map_replicate, List.getElem?_replicate] at hp hg
    split at hp
    · cases hp
      rw [if_pos (by assumption)] at hg
      cases hg
      rfl
    · cases hp
  · have hz : ∀ f : PPh → Nat, f .idle = 0 → tot f (List.replicate n .idle) = 0 := fun f hf =>
      tot_zero f fun g hg => by rw [List.eq_of_mem_replicate hg]; exact hf
    have hzi : totI PPh.adj (List.replicate n .idle) = 0 :=
      totI_zero _ fun g hg => by rw [List.eq_of_mem_replicate hg]; rfl
    have hc : ∀ c, cnt newPool (List.replicate n .idle) c = 0 := by
      intro c
      simp [cnt, newPool, mailed, hz (PPh.owns c) rfl]
    show PInv cfg newPool _
    refine { lock := ?_, once := ?_, live := ?_, count := ?_, le := h0, idleLe := .inr rfl,
             facts := ?_, sess := .inl ⟨rfl, (hz _ rfl).symm⟩, sesn := ?_, mail := ?_, isOpen := rfl }
    · rw [hz _ rfl]; rfl
    · intro c; rw [hc]; omega
    · intro c h; rw [hc] at h; omega
    · rw [hzi]; rfl
    · intro j g hg
      rw [List.eq_of_mem_replicate (List.mem_of_getElem? hg)]
      trivial
    · intro c h
      rcases h with h | h
      · simp [cntS, newPool, mailed, hz (PPh.ownsS c) rfl] at h
      · cases h
    · intro m hm; cases hm

end Goe2ee
