import Verif.Proofs.SharedRead

/-!
# A client used by several goroutines: what `Read` returns, whatever happens
-/

set_option autoImplicit false

namespace Goe2ee

/-- What a goroutine knows and holds. -/
structure DGhost where
  /-- data taken from the buffer and not returned yet -/
  held : List Bytes
  /-- value of `lastSentCounter` it looked at -/
  loaded : Option (BitVec 64)
  /-- counter it was given -/
  added : Option (BitVec 64)

/-- The order of effects. -/
def callAuto (C : Crypto) (c : Client) : Auto DSig DGhost where
  pre o g := match o with
    | .bufWrite m => ∃ session key x ct, c.session = some session ∧ newGCM C session.secret = .ok key ∧
        g.loaded = some x ∧ C.aeadOpen key (Wire.nonce12 1 x.toNat) ct = some m
    | .bufRead _ => g.held = []
    | .storeLast x => g.added = some x
    | .returned (.read _) d _ => g.held = [d] ∨ (g.held = [] ∧ d = [])
    | .returned (.write _) _ _ => g.held = []
    | _ => True
  next o r g := match o, r with
    | .bufRead _, (d, none) => { g with held := [d] }
    | .loadLast, x => { g with loaded := some x }
    | .addCounter, x => { g with added := some x }
    | .returned _ _ _, _ => { g with held := [] }
    | _, _ => g

/-- Between calls. -/
def Free (_ : List CCall) (g : DGhost) : Prop := g.held = []

section
variable {C : Crypto} {c : Client}

/-- Reads of the connection. -/
def DOp.ofParse : DOp → Prop
  | .connRead _ => True
  | _ => False

theorem parse_readFullFrom : ∀ (fuel r : Nat) (acc : Bytes), Uses (S := DSig) DOp.ofParse (readFullFrom fuel r acc)
  | fuel, 0, acc => by cases fuel <;> trivial
  | 0, r + 1, acc => trivial
  | fuel + 1, r + 1, acc => by
    refine ⟨trivial, fun got => ?_⟩
    show Uses _ (if _ then _ else _)
    split
    · trivial
    · rcases got with ⟨bs, _ | e⟩
      · exact parse_readFullFrom fuel _ _
      · trivial

theorem parse_copyFrom : ∀ (fuel r : Nat) (acc : Bytes), Uses (S := DSig) DOp.ofParse (copyFrom fuel r acc)
  | fuel, 0, acc => by cases fuel <;> trivial
  | 0, r + 1, acc => trivial
  | fuel + 1, r + 1, acc => by
    refine ⟨trivial, fun got => ?_⟩
    rcases got with ⟨bs, _ | e⟩
    · exact parse_copyFrom fuel _ _
    · cases e <;> trivial

theorem parse_onSharedConn {α : Type} (p : RProg α) : Uses (S := DSig) DOp.ofParse (onSharedConn p) := by
  induction p with
  | ret a => trivial
  | panic m => trivial
  | op o k ih =>
    refine Uses.bind (p := sharedReads o) ?_ fun r => ih r
    cases o with
    | alloc n => trivial
    | readFull n => exact parse_readFullFrom _ _ _
    | copyLimit n => exact parse_copyFrom _ _ _

theorem safe_parse {α β : Type} (p : RProg α) {q : α → DProg β} {g : DGhost} {Q : β → DGhost → Prop}
    (h : ∀ a, SafeE (callAuto C c) (q a) g Q fun _ _ => True) :
    SafeE (callAuto C c) ((onSharedConn p).bind q) g Q fun _ _ => True := by
  refine SafeE.bind (SafeE.of_uses (parse_onSharedConn p) (fun o g ho => ?_) (fun o r g ho => ?_) h fun _ => trivial)
  · cases o <;> first | exact ho.elim | trivial
  · cases o <;> first | exact ho.elim | rfl

/-- What a call of `Read` hands back is what it holds. -/
def Handed (r : Bytes × Option Err) (g : DGhost) : Prop := g.held = [r.1] ∨ (g.held = [] ∧ r.1 = [])

theorem safe_readBuffer (n : Nat) {g : DGhost} (hg : g.held = []) :
    SafeE (callAuto C c) (sharedReadBuffer n) g Handed fun _ _ => True := by
  refine ⟨hg, fun (got : Bytes × Option Err) => ?_⟩
  rcases got with ⟨d, _ | e⟩
  · exact ⟨trivial, fun _ => .inl rfl⟩
  · exact .inr ⟨hg, rfl⟩

theorem safe_sharedRead (n : Nat) {g : DGhost} (hg : g.held = []) :
    SafeE (callAuto C c) (sharedRead C c n) g Handed fun _ _ => True := by
  refine SafeE.bind (SafeE.mono (Q := fun _ g' => g' = g) (E := fun _ _ => True) ?_ (fun r g' hg' => ?_) fun _ _ h => h)
  · split
    · exact ⟨trivial, fun _ => rfl⟩
    · rfl
  · subst hg'
    cases r with
    | some e => exact .inr ⟨hg, rfl⟩
    | none =>
      refine ⟨trivial, fun (len : Nat) => ?_⟩
      show SafeE _ (if len > 0 then _ else _) _ _ _
      split
      · exact safe_readBuffer n hg
      · refine safe_parse _ fun parsed => ?_
        cases parsed with
        | error e => exact .inr ⟨hg, rfl⟩
        | ok common =>
          show SafeE _ (if _ then _ else _) _ _ _
          split
          · refine safe_parse _ fun parsed => ?_
            cases parsed <;> exact .inr ⟨hg, rfl⟩
          · refine safe_parse _ fun parsed => ?_
            cases parsed with
            | error e => exact .inr ⟨hg, rfl⟩
            | ok response =>
              refine ⟨trivial, fun (last : BitVec 64) => ?_⟩
              show SafeE _ (if response.counter ≠ last then _ else _) _ _ _
              split
              · exact .inr ⟨hg, rfl⟩
              · rename_i hlast
                split
                · trivial
                · rename_i session hs
                  split
                  · exact .inr ⟨hg, rfl⟩
                  · rename_i gcm hgcm
                    rw [show gcmNonceSize = 12 from rfl, C12_nonce_layout]
                    dsimp only [ofSharedRes, Prog.ret_bind]
                    split
                    · exact .inr ⟨hg, rfl⟩
                    · rename_i message ho
                      refine ⟨⟨session, gcm, response.counter, response.message, hs, hgcm, ?_, ho⟩, fun _ => ?_⟩
                      · exact congrArg some (Decidable.not_not.mp hlast).symm
                      · exact safe_readBuffer n hg

theorem safe_sharedWrite (p : Bytes) {g : DGhost} (hg : g.held = []) :
    SafeE (callAuto C c) (sharedWrite C c p) g (fun _ g => g.held = []) fun _ _ => True := by
  refine SafeE.bind (SafeE.mono (Q := fun _ g' => g' = g) (E := fun _ _ => True) ?_ (fun r g' hg' => ?_) fun _ _ h => h)
  · split
    · exact ⟨trivial, fun _ => rfl⟩
    · rfl
  · subst hg'
    cases r with
    | some e => exact hg
    | none =>
      show SafeE _ (match c.session with | none => _ | some _ => _) _ _ _
      split
      · trivial
      · split
        · exact hg
        · refine ⟨trivial, fun (counter : BitVec 64) => ?_⟩
          show SafeE _ (if counter = 0 then _ else _) _ _ _
          split
          · exact hg
          · refine ⟨rfl, fun _ => ?_⟩
            rw [show gcmNonceSize = 12 from rfl, C12_nonce_layout]
            exact ⟨trivial, fun _ => ⟨trivial, fun _ => hg⟩⟩

theorem safe_sharedCalls : ∀ l g, Free l g → SafeE (callAuto C c) (sharedCalls C c l) g Free fun _ _ => True := by
  intro l g hg
  match l with
  | [] => exact hg
  | .read n :: rest =>
    refine SafeE.bind (SafeE.mono (safe_sharedRead n hg) (fun r g' hg' => ?_) fun _ _ h => h)
    exact ⟨hg', fun _ => rfl⟩
  | .write p :: rest =>
    refine SafeE.bind (SafeE.mono (safe_sharedWrite p hg) (fun r g' hg' => ?_) fun _ _ h => h)
    exact ⟨hg', fun _ => rfl⟩

/-- The data the calls of `Read` have returned. -/
def readData : List (Nat × CCall × Bytes × Option Err) → List Bytes
  | [] => []
  | (_, .read _, d, _) :: rest => d :: readData rest
  | (_, .write _, _, _) :: rest => readData rest

theorem readData_append (a b : List (Nat × CCall × Bytes × Option Err)) :
    readData (a ++ b) = readData a ++ readData b := by
  induction a with
  | nil => rfl
  | cons r a ih =>
    rcases r with ⟨i, _ | _, d, e⟩
    · exact ih
    · exact congrArg _ ih

/-- A message the server sent in reply to one of these counters. -/
def GenuineReply (C : Crypto) (c : Client) (counters : List (BitVec 64)) (m : Bytes) : Prop :=
  ∃ session key x ct, c.session = some session ∧ newGCM C session.secret = .ok key ∧ x ∈ counters ∧
    C.aeadOpen key (Wire.nonce12 1 x.toNat) ct = some m

/-- What all goroutines hold. -/
def heldAll (gs : List DGhost) : List Bytes := gs.flatMap DGhost.held

theorem heldAll_set : ∀ {gs : List DGhost} {i : Nat} {g : DGhost}, gs[i]? = some g → ∃ others,
    (heldAll gs).Perm (g.held ++ others) ∧ ∀ g' : DGhost, (heldAll (gs.set i g')).Perm (g'.held ++ others)
  | [], _, _, h => by cases h
  | a :: gs, 0, g, h => by
    cases h
    exact ⟨heldAll gs, .refl _, fun _ => .refl _⟩
  | a :: gs, i + 1, g, h => by
    obtain ⟨others, h1, h2⟩ := heldAll_set (gs := gs) (i := i) (g := g) h
    have swap : ∀ x : List Bytes, (a.held ++ (x ++ others)).Perm (x ++ (a.held ++ others)) := fun x => by
      rw [← List.append_assoc, ← List.append_assoc]
      exact (List.perm_append_comm (l₁ := a.held) (l₂ := x)).append_right others
    exact ⟨a.held ++ others, (h1.append_left a.held).trans (swap _),
      fun g' => ((h2 g').append_left a.held).trans (swap _)⟩

theorem heldAll_same {gs : List DGhost} {i : Nat} {g g' : DGhost} (h : gs[i]? = some g) (hh : g'.held = g.held) :
    (heldAll (gs.set i g')).Perm (heldAll gs) := by
  obtain ⟨others, h1, h2⟩ := heldAll_set h
  exact (h2 g').trans (hh ▸ h1.symm)

/-- Every octet is returned at most once, in the order of the buffer, and comes from a genuine reply. -/
structure SharedOnce (C : Crypto) (c : Client) (w : DWorld) (gs : List DGhost) : Prop where
  data : ∃ pieces messages : List Bytes, (readData w.returns ++ heldAll gs).Perm pieces ∧
    pieces.flatten ++ w.buffer = c.buffer ++ messages.flatten ∧
    ∀ m ∈ messages, GenuineReply C c (c.lastSentCounter :: w.issued) m
  last : w.last ∈ c.lastSentCounter :: w.issued
  loaded : ∀ g ∈ gs, ∀ x, g.loaded = some x → x ∈ c.lastSentCounter :: w.issued
  added : ∀ g ∈ gs, ∀ x, g.added = some x → x ∈ c.lastSentCounter :: w.issued

theorem mem_set_ghost {gs : List DGhost} {i : Nat} {g' x : DGhost} (h : x ∈ gs.set i g') : x = g' ∨ x ∈ gs := by
  rcases List.mem_or_eq_of_mem_set h with h | h
  · exact .inr h
  · exact .inl h

theorem GenuineReply.mono {a b : List (BitVec 64)} (h : ∀ x ∈ a, x ∈ b) {m : Bytes} (hm : GenuineReply C c a m) :
    GenuineReply C c b m := by
  obtain ⟨session, key, x, ct, h1, h2, h3, h4⟩ := hm
  exact ⟨session, key, x, ct, h1, h2, h _ h3, h4⟩

/-- Effects that change nothing of this. -/
theorem SharedOnce.same {w w' : DWorld} {gs : List DGhost} {i : Nat} {g : DGhost} (h : SharedOnce C c w gs)
    (hg : gs[i]? = some g) (h1 : w'.returns = w.returns) (h2 : w'.buffer = w.buffer) (h3 : w'.issued = w.issued)
    (h4 : w'.last = w.last) : SharedOnce C c w' (gs.set i g) := by
  have : gs.set i g = gs := by
    apply List.ext_getElem?
    intro j
    rcases Nat.decEq i j with hij | rfl
    · exact List.getElem?_set_ne hij
    · rw [hg, List.getElem?_set_self (List.getElem?_eq_some_iff.mp hg).1]
  rw [this]
  exact ⟨by rw [h1, h2, h3]; exact h.data, by rw [h4, h3]; exact h.last, by rw [h3]; exact h.loaded,
    by rw [h3]; exact h.added⟩

theorem sharedOnce_step (e : DEnv) (i : Nat) (o : DOp) (w : DWorld) (gs : List DGhost) (g : DGhost) (r : o.Ret)
    (w' : DWorld) (hg : gs[i]? = some g) (hpre : (callAuto C c).pre o g) (h : SharedOnce C c w gs)
    (hd : dexec C e i o w = some (r, w')) : SharedOnce C c w' (gs.set i ((callAuto C c).next o r g)) := by
  have hmem : g ∈ gs := List.mem_of_getElem? hg
  cases o with
  | setReadDeadline => cases hd; exact h.same hg rfl rfl rfl rfl
  | setWriteDeadline => cases hd; exact h.same hg rfl rfl rfl rfl
  | connRead k =>
    simp only [dexec] at hd
    split at hd
    · cases hd
    · cases hd; exact h.same hg rfl rfl rfl rfl
  | connWrite bs => cases hd; exact h.same hg rfl rfl rfl rfl
  | aead a b d => cases hd; exact h.same hg rfl rfl rfl rfl
  | bufLen => cases hd; exact h.same hg rfl rfl rfl rfl
  | addCounter =>
    cases hd
    have hin : ∀ x ∈ c.lastSentCounter :: w.issued, x ∈ c.lastSentCounter :: (w.issued ++ [w.counter + 1]) := by
      intro x hx
      simp only [List.mem_cons, List.mem_append] at hx ⊢
      rcases hx with hx | hx
      · exact .inl hx
      · exact .inr (.inl hx)
    obtain ⟨pieces, messages, d1, d2, d3⟩ := h.data
    refine ⟨⟨pieces, messages, (List.Perm.append_left _ (heldAll_same (g' := { g with added := some (w.counter + 1) }) hg rfl)).trans d1,
      d2, fun m hm => (d3 m hm).mono hin⟩, hin _ h.last, fun g' hg' x hx => ?_, fun g' hg' x hx => ?_⟩
    · rcases mem_set_ghost hg' with rfl | hg'
      · exact hin _ (h.loaded _ hmem x hx)
      · exact hin _ (h.loaded _ hg' x hx)
    · rcases mem_set_ghost hg' with rfl | hg'
      · cases hx
        exact List.mem_cons_of_mem _ (List.mem_append_right _ (List.mem_singleton.mpr rfl))
      · exact hin _ (h.added _ hg' x hx)
  | loadLast =>
    cases hd
    obtain ⟨pieces, messages, d1, d2, d3⟩ := h.data
    refine ⟨⟨pieces, messages, (List.Perm.append_left _ (heldAll_same (g' := { g with loaded := some w.last }) hg rfl)).trans d1,
      d2, d3⟩, h.last, fun g' hg' x hx => ?_, fun g' hg' x hx => ?_⟩
    · rcases mem_set_ghost hg' with rfl | hg'
      · cases hx; exact h.last
      · exact h.loaded _ hg' x hx
    · rcases mem_set_ghost hg' with rfl | hg'
      · exact h.added _ hmem x hx
      · exact h.added _ hg' x hx
  | storeLast x =>
    cases hd
    have h' := h.same (w' := { w with input := w.input ++ e.arrives, arrived := w.arrived ++ e.arrives }) hg rfl rfl
      rfl rfl
    exact ⟨h'.data, h.added _ hmem x hpre, h'.loaded, h'.added⟩
  | bufWrite bs =>
    cases hd
    have h' := h.same (w' := { w with input := w.input ++ e.arrives, arrived := w.arrived ++ e.arrives }) hg rfl rfl
      rfl rfl
    obtain ⟨pieces, messages, d1, d2, d3⟩ := h'.data
    obtain ⟨session, key, x, ct, p1, p2, p3, p4⟩ := hpre
    refine ⟨⟨pieces, messages ++ [bs], d1, ?_, fun m hm => ?_⟩, h'.last, h'.loaded, h'.added⟩
    · show pieces.flatten ++ (w.buffer ++ bs) = _
      rw [List.flatten_append, ← List.append_assoc, ← List.append_assoc, ← d2]
      simp
    · rcases List.mem_append.mp hm with hm | hm
      · exact d3 m hm
      · cases List.mem_singleton.mp hm
        exact ⟨session, key, x, ct, p1, p2, h.loaded _ hmem x p3, p4⟩
  | bufRead n =>
    cases hd
    have hheld : g.held = [] := hpre
    obtain ⟨pieces, messages, d1, d2, d3⟩ := h.data
    obtain ⟨others, o1, o2⟩ := heldAll_set hg
    by_cases hb : w.buffer = [] ∧ 0 < n
    · have ht : takeBuffer w.buffer n = (([], some .eof), w.buffer) := if_pos hb
      simp only [ht]
      exact h.same hg rfl rfl rfl rfl
    · have ht : takeBuffer w.buffer n = ((w.buffer.take n, none), w.buffer.drop n) := if_neg hb
      simp only [ht]
      refine ⟨⟨pieces ++ [w.buffer.take n], messages, ?_, ?_, d3⟩, h.last, fun g' hg' x hx => ?_, fun g' hg' x hx => ?_⟩
      · refine (List.Perm.append_left _ (o2 _)).trans ?_
        rw [hheld] at o1
        have := (List.Perm.append_left (readData w.returns) o1).symm.trans d1
        refine List.Perm.trans ?_ (this.append_right _)
        rw [List.append_assoc]
        exact List.Perm.append_left _ List.perm_append_comm
      · show (pieces ++ [w.buffer.take n]).flatten ++ w.buffer.drop n = _
        rw [← d2]
        simp
      · rcases mem_set_ghost hg' with rfl | hg'
        · exact h.loaded _ hmem x hx
        · exact h.loaded _ hg' x hx
      · rcases mem_set_ghost hg' with rfl | hg'
        · exact h.added _ hmem x hx
        · exact h.added _ hg' x hx
  | returned call d er =>
    cases hd
    obtain ⟨pieces, messages, d1, d2, d3⟩ := h.data
    obtain ⟨others, o1, o2⟩ := heldAll_set hg
    have hl : ∀ g' ∈ gs.set i { g with held := [] }, ∀ x, g'.loaded = some x → x ∈ c.lastSentCounter :: w.issued := by
      intro g' hg' x hx
      rcases mem_set_ghost hg' with rfl | hg'
      · exact h.loaded _ hmem x hx
      · exact h.loaded _ hg' x hx
    have ha : ∀ g' ∈ gs.set i { g with held := [] }, ∀ x, g'.added = some x → x ∈ c.lastSentCounter :: w.issued := by
      intro g' hg' x hx
      rcases mem_set_ghost hg' with rfl | hg'
      · exact h.added _ hmem x hx
      · exact h.added _ hg' x hx
    have d1' := (List.Perm.append_left (readData w.returns) o1).symm.trans d1
    cases call with
    | write p =>
      have hheld : g.held = [] := hpre
      refine ⟨⟨pieces, messages, ?_, d2, d3⟩, h.last, hl, ha⟩
      show (readData (w.returns ++ [(i, CCall.write p, d, er)]) ++ _).Perm _
      rw [readData_append, show readData [(i, CCall.write p, d, er)] = [] from rfl, List.append_nil]
      rw [hheld] at d1'
      exact (List.Perm.append_left _ (o2 _)).trans d1'
    | read n =>
      rcases hpre with hheld | ⟨hheld, hd⟩
      · refine ⟨⟨pieces, messages, ?_, d2, d3⟩, h.last, hl, ha⟩
        show (readData (w.returns ++ [(i, CCall.read n, d, er)]) ++ _).Perm _
        rw [readData_append, show readData [(i, CCall.read n, d, er)] = [d] from rfl, List.append_assoc]
        rw [hheld] at d1'
        exact (List.Perm.append_left _ (List.Perm.append_left _ (o2 _))).trans d1'
      · subst hd
        refine ⟨⟨[] :: pieces, messages, ?_, d2, d3⟩, h.last, hl, ha⟩
        show (readData (w.returns ++ [(i, CCall.read n, [], er)]) ++ _).Perm _
        rw [readData_append, show readData [(i, CCall.read n, [], er)] = [[]] from rfl, List.append_assoc]
        rw [hheld] at d1'
        refine (List.Perm.append_left _ (List.Perm.append_left _ (o2 _))).trans ?_
        exact List.perm_middle.trans (d1'.cons [])

/-- Any goroutines, any schedule, any network. -/
theorem sharedOnce (counter : BitVec 64) (calls : List (List CCall)) (acts : List (Nat × DEnv)) :
    ∃ gs, SharedOnce C c (DSys.run C c (DSys.start c counter calls) acts).world gs := by
  have h0 : LoopsOK (callAuto C c) Free (fun _ _ => True) (SharedOnce C c) (DSys.start c counter calls)
      (calls.map fun _ => ⟨[], none, none⟩) := by
    refine ⟨by simp [DSys.start], fun i p g hp hg => ?_, ?_⟩
    · simp only [DSys.start, List.getElem?_map, Option.map_eq_some_iff] at hp hg
      obtain ⟨l, -, rfl⟩ := hp
      obtain ⟨l, -, rfl⟩ := hg
      rfl
    · have hh : ∀ l : List (List CCall), heldAll (l.map fun _ => ⟨[], none, none⟩) = [] := by
        intro l
        induction l with
        | nil => rfl
        | cons a l ih => exact ih
      refine ⟨⟨[], [], ?_, ?_, ?_⟩, List.mem_cons_self .., ?_, ?_⟩
      · rw [hh]; exact .refl _
      · simp [DSys.start]
      · simp
      · intro g hg x hx
        obtain ⟨l, -, rfl⟩ := List.mem_map.mp hg
        cases hx
      · intro g hg x hx
        obtain ⟨l, -, rfl⟩ := List.mem_map.mp hg
        cases hx
  obtain ⟨gs, h⟩ := h0.run safe_sharedCalls (fun e i o w gs g r w' => sharedOnce_step e i o w gs g r w') acts
  exact ⟨gs, h.inv⟩

end

end Goe2ee
