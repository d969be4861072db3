import Verif.Props.ChatUser

/-!
# C112, C113, C117: what a user of the chat example sees
-/

set_option autoImplicit false

namespace Goe2ee

/-! ## C112 -/

/-- The handler handed over a message that is shown as `d`. -/
def UserPoint.sentAs (self : ChatUser) (d : ChatMessage) : UserPoint → Bool
  | .serving _ (some m) | .finished (some m) => named self m = d
  | _ => false

/-- The printer is about to show `d`. -/
def UserPoint.showsNext (d : ChatMessage) : UserPoint → Bool
  | .printLine m => m = d
  | _ => false

/-- The message in the channel is shown as `d`. -/
def inSlot (self : ChatUser) (d : ChatMessage) (w : UserWorld) : Nat :=
  if w.slot.map (named self) = some d then 1 else 0

/-- It is neither news of the registry nor a message of the user themselves. -/
def ChatMessage.foreign (self : ChatUser) (d : ChatMessage) : Prop := d.system = false ∧ d.sender ≠ self

structure UserShown (me : ChatUser) (s : UserState) : Prop where
  least : ∀ d, s.points.countP (UserPoint.sentAs me d) ≤
    s.world.log.count (.shown d) + inSlot me d s.world + s.points.countP (UserPoint.showsNext d)
  most : ∀ d, d.foreign me → s.world.log.count (.shown d) + inSlot me d s.world +
    s.points.countP (UserPoint.showsNext d) ≤ s.points.countP (UserPoint.sentAs me d)
  served : ∀ (i : Nat) (ok : Bool), UserEvent.served i ok ∈ s.world.log → ∃ m, s.points[i]? = some (.finished m)

theorem point_quiet (self : ChatUser) (d : ChatMessage) (n : ChatNotification) :
    n.point.sentAs self d = false ∧ n.point.showsNext d = false := by
  unfold ChatNotification.point
  split
  · exact ⟨rfl, rfl⟩
  · split
    · exact ⟨rfl, rfl⟩
    · split <;> exact ⟨rfl, rfl⟩
  · exact ⟨rfl, rfl⟩

theorem named_foreign {self : ChatUser} {m : ChatMessage} (h : m.sender = self ∨ m.system = true) :
    ¬ (named self m).foreign self := by
  intro ⟨h1, h2⟩
  unfold named at h1 h2
  split at h1
  · rename_i hs
    rw [if_pos hs] at h2
    exact h2 rfl
  · rename_i hs
    rw [if_neg hs] at h2
    rcases h with h | h
    · exact h2 h
    · rw [h] at h1; cases h1

/-- What a move does to the messages on their way to the screen. -/
theorem shown_balance {self : ChatUser} {i : Nat} {w w' : UserWorld} {p q : UserPoint} (d : ChatMessage)
    (hm : UserMove self i w p q w') (hw : w.waiting = true → w.slot = none) :
    (w.log.count (.shown d) + inSlot self d w + (if p.showsNext d then 1 else 0) + (if q.sentAs self d then 1 else 0) ≤
      w'.log.count (.shown d) + inSlot self d w' + (if q.showsNext d then 1 else 0) +
        (if p.sentAs self d then 1 else 0)) ∧
    (d.foreign self → (∀ m, p = .tellSend m ∨ p = .telling m → m.sender = self ∨ m.system = true) →
      w.log.count (.shown d) + inSlot self d w + (if p.showsNext d then 1 else 0) +
        (if q.sentAs self d then 1 else 0) =
      w'.log.count (.shown d) + inSlot self d w' + (if q.showsNext d then 1 else 0) +
        (if p.sentAs self d then 1 else 0)) := by
  have slotSome : ∀ (m : ChatMessage) (w : UserWorld), w.slot = some m →
      inSlot self d w = if named self m = d then 1 else 0 := by
    intro m w h
    simp [inSlot, h]
  have slotNone : ∀ (w : UserWorld), w.slot = none → inSlot self d w = 0 := by
    intro w h
    simp [inSlot, h]
  cases hm
  case arrive n _ =>
    obtain ⟨h3, h4⟩ := point_quiet self d n
    rw [h3, h4]
    exact ⟨Nat.le_refl _, fun _ _ => rfl⟩
  case receive m hslot =>
    rw [slotSome m w hslot, slotNone { w with slot := none } rfl]
    simp [UserPoint.sentAs, UserPoint.showsNext]
  case print m =>
    have h0 : inSlot self d { w with log := w.log ++ [.shown m] } = inSlot self d w := rfl
    rw [h0, List.count_append, List.count_singleton]
    simp [UserPoint.sentAs, UserPoint.showsNext]
    omega
  case pass m hwait =>
    rw [slotNone w (hw hwait), slotSome m { w with waiting := false, slot := some m } rfl]
    simp [UserPoint.sentAs, UserPoint.showsNext]
  case tellSend m hwait | telling m hwait =>
    rw [slotNone w (hw hwait), slotSome m { w with waiting := false, slot := some m } rfl]
    simp only [UserPoint.sentAs, UserPoint.showsNext]
    refine ⟨by simp, fun hd ho => ?_⟩
    have hn : named self m ≠ d := fun h => named_foreign (ho m (by simp)) (h ▸ hd)
    simp [hn]
  case served ok m =>
    have h0 : inSlot self d { w with active := w.active - 1, log := w.log ++ [.served i ok] } = inSlot self d w := rfl
    rw [h0, List.count_append, List.count_singleton]
    cases m <;> simp [UserPoint.sentAs, UserPoint.showsNext]
  case serveBad | receiveStop | ready => exact ⟨Nat.le_refl _, fun _ _ => rfl⟩
  all_goals
    first
    | exact ⟨Nat.le_refl _, fun _ _ => rfl⟩
    | (dsimp only [inSlot]
       rw [List.count_append, List.count_singleton]
       exact ⟨Nat.le_refl _, fun _ _ => rfl⟩)

theorem UserShown.move {self : ChatUser} {notifications : List (Option ChatNotification)}
    {messages : List (Option (ChatUser × Bytes))} (s : UserState) (i : Nat) (p q : UserPoint) (w' : UserWorld)
    (h : (UserPlaced self notifications messages s ∧ UserChan s) ∧ UserShown self s) (hp : s.points[i]? = some p)
    (hm : UserMove self i s.world p q w') :
    (UserPlaced self notifications messages ⟨w', s.points.set i q⟩ ∧ UserChan ⟨w', s.points.set i q⟩) ∧
      UserShown self ⟨w', s.points.set i q⟩ := by
  obtain ⟨hpc, hs⟩ := h
  refine ⟨UserChan.move s i p q w' hpc hp hm, ?_⟩
  obtain ⟨hpl, hc⟩ := hpc
  have hlen := (List.getElem?_eq_some_iff.mp hp).1
  have hown : ∀ m, p = .tellSend m ∨ p = .telling m → m.sender = self ∨ m.system = true := by
    intro m hpm
    obtain ⟨r, _, hf⟩ := hpl.fits i p hp
    rcases hpm with rfl | rfl
    · cases r <;> first | (cases hf; done) | exact .inl hf.1
    · cases r <;> first | (cases hf; done) | skip
      obtain ⟨n, _, ⟨_, rfl⟩ | ⟨_, rfl⟩⟩ := hf <;> exact .inr rfl
  refine ⟨fun d => ?_, fun d hd => ?_, ?_⟩
  · have h1 := countP_points hp (UserPoint.sentAs self d) q
    have h2 := countP_points hp (UserPoint.showsNext d) q
    have h3 := (shown_balance d hm fun h => (hc.waits h).2).1
    have h4 := hs.least d
    dsimp only
    omega
  · have h1 := countP_points hp (UserPoint.sentAs self d) q
    have h2 := countP_points hp (UserPoint.showsNext d) q
    have h3 := (shown_balance d hm fun h => (hc.waits h).2).2 hd hown
    have h4 := hs.most d hd
    dsimp only
    omega
  · intro j ok hj
    have old : UserEvent.served j ok ∈ s.world.log → ∃ m, (s.points.set i q)[j]? = some (.finished m) := by
      intro hj
      obtain ⟨m, hm'⟩ := hs.served j ok hj
      by_cases hij : i = j
      · subst hij
        rw [hp] at hm'
        cases hm'
        cases hm
        exact ⟨_, List.getElem?_set_self hlen⟩
      · exact ⟨m, by rw [List.getElem?_set_ne hij]; exact hm'⟩
    clear hown
    cases hm <;> first | exact old hj | skip
    case served ok' m =>
      rcases List.mem_append.mp hj with hj | hj
      · exact old hj
      · simp at hj
        obtain ⟨rfl, _⟩ := hj
        exact ⟨_, List.getElem?_set_self hlen⟩
    all_goals
      rcases List.mem_append.mp hj with hj | hj
      · exact old hj
      · simp at hj

theorem UserShown.run (self : ChatUser) (notifications : List (Option ChatNotification))
    (messages : List (Option (ChatUser × Bytes))) (acts : List (Nat × UserEnv)) :
    UserShown self ((userPoints notifications messages).run self acts) := by
  refine (UserState.run_induct self UserShown.move acts
    ⟨⟨UserPlaced.start self notifications messages, (fun h => by cases h), (fun h => absurd rfl h),
      (fun h => by cases h)⟩, fun d => ?_, fun d _ => ?_, (fun _ _ h => by cases h)⟩).2
  · have : (userPoints notifications messages).points.countP (UserPoint.sentAs self d) = 0 := by
      refine List.countP_eq_zero.mpr fun p hp => ?_
      simp only [userPoints, List.mem_append, List.mem_cons, List.mem_map, List.not_mem_nil, or_false] at hp
      rcases hp with ((rfl | rfl | rfl) | ⟨b, _, rfl⟩) | ⟨b, _, rfl⟩ <;> exact Bool.false_ne_true
    omega
  · have : (userPoints notifications messages).points.countP (UserPoint.showsNext d) = 0 := by
      refine List.countP_eq_zero.mpr fun p hp => ?_
      simp only [userPoints, List.mem_append, List.mem_cons, List.mem_map, List.not_mem_nil, or_false] at hp
      rcases hp with ((rfl | rfl | rfl) | ⟨b, _, rfl⟩) | ⟨b, _, rfl⟩ <;> exact Bool.false_ne_true
    rw [this]
    exact Nat.zero_le _

/-- Distinct goroutines that satisfy a test are no more than there are. -/
theorem length_le_countP {points : List UserPoint} {f : UserPoint → Bool} (is : List Nat) (hn : is.Nodup)
    (h : ∀ i ∈ is, ∃ p, points[i]? = some p ∧ f p = true) : is.length ≤ points.countP f := by
  have key : is.length ≤ ((List.range points.length).filter fun i => (points[i]?.map f).getD false).length := by
    refine (List.subperm_of_subset hn ?_).length_le
    intro i hi
    obtain ⟨p, hp, hf⟩ := h i hi
    refine List.mem_filter.mpr ⟨List.mem_range.mpr (List.getElem?_eq_some_iff.mp hp).1, ?_⟩
    simp [hp, hf]
  refine Nat.le_trans key (Nat.le_of_eq ?_)
  clear key hn h is
  rw [← List.countP_eq_length_filter]
  induction points with
  | nil => rfl
  | cons a points ih =>
    rw [List.length_cons, List.range_succ_eq_map, List.countP_cons, List.countP_map, List.countP_cons, ← ih]
    simp [Function.comp_def]

/-- **C112**: a message that was answered with "ok" is shown.  If any number of different requests whose message is
shown as `d` have been answered, as many lines `d` have been shown, except for one that the printer has in its hands;
and none is missing when the printer waits for the next message. -/
theorem C112_answered_is_shown (self : ChatUser) (notifications : List (Option ChatNotification))
    (messages : List (Option (ChatUser × Bytes))) (acts : List (Nat × UserEnv)) (d : ChatMessage) (js : List Nat)
    (hjs : js.Nodup)
    (h : ∀ j ∈ js, (∃ sender content, messages[j]? = some (some (sender, content)) ∧
        named self ⟨false, sender, content⟩ = d) ∧
      UserEvent.served (3 + notifications.length + j) true ∈ (userRun self notifications messages acts).world.log) :
    js.length ≤ (userRun self notifications messages acts).world.log.count (.shown d) + 1 ∧
    ((userRun self notifications messages acts).world.waiting = true →
      js.length ≤ (userRun self notifications messages acts).world.log.count (.shown d)) := by
  rw [userRun_world] at h ⊢
  have hs := UserShown.run self notifications messages acts
  have hpl := UserPlaced.run self notifications messages acts
  have hc := UserChan.run self notifications messages acts
  generalize (userPoints notifications messages).run self acts = s at h hs hpl hc
  have hcount : js.length ≤ s.points.countP (UserPoint.sentAs self d) := by
    rw [← List.length_map (f := fun j => 3 + notifications.length + j) (as := js)]
    refine length_le_countP _ (hjs.map fun a b hab => by omega) fun i hi => ?_
    obtain ⟨j, hj, rfl⟩ := List.mem_map.mp hi
    obtain ⟨⟨sender, content, h1, h2⟩, h3⟩ := h j hj
    obtain ⟨m, hm⟩ := hs.served _ _ h3
    refine ⟨_, hm, ?_⟩
    obtain ⟨r, hr, hf⟩ := hpl.fits _ _ hm
    obtain ⟨b, hb, rfl⟩ := userRoles_message hr (by omega)
    have : 3 + notifications.length + j - (3 + notifications.length) = j := by omega
    rw [this, h1] at hb
    cases hb
    cases hf
    simpa [UserPoint.sentAs] using h2
  have hnext : s.points.countP (UserPoint.showsNext d) = if s.points[0]? = some (.printLine d) then 1 else 0 := by
    obtain ⟨p, ps, hps⟩ : ∃ p ps, s.points = p :: ps := by
      cases hps : s.points with
      | nil => have := hpl.len; rw [hps] at this; simp [userRoles] at this
      | cons p ps => exact ⟨p, ps, rfl⟩
    have hrest : ps.countP (UserPoint.showsNext d) = 0 := by
      refine List.countP_eq_zero.mpr fun q hq hq' => ?_
      obtain ⟨k, hk⟩ := List.mem_iff_getElem?.mp hq
      have hk' : s.points[k + 1]? = some q := by rw [hps]; simpa using hk
      cases q <;> first | (cases hq'; done) | skip
      rename_i m
      exact absurd (hpl.printer hk' (.inr (.inr (.inr ⟨m, rfl⟩)))) (by omega)
    rw [hps, List.countP_cons, hrest]
    simp only [List.getElem?_cons_zero, Option.some.injEq]
    cases p <;> simp [UserPoint.showsNext]
  have hle := hs.least d
  constructor
  · by_cases hl : s.points[0]? = some (.printLine d)
    · have h0 : s.world.slot = none := by
        cases hsl : s.world.slot with
        | none => rfl
        | some m =>
          have := hc.sent (by rw [hsl]; exact (fun h => by cases h))
          rw [hl] at this
          cases this
      have h1 : inSlot self d s.world = 0 := by simp [inSlot, h0]
      rw [if_pos hl] at hnext
      omega
    · rw [if_neg hl] at hnext
      have h1 : inSlot self d s.world ≤ 1 := by unfold inSlot; split <;> omega
      omega
  · intro hw
    obtain ⟨h1, h2⟩ := hc.waits hw
    have h3 : inSlot self d s.world = 0 := by simp [inSlot, h2]
    rw [h1, if_neg (by simp)] at hnext
    omega

/-- The goroutine handles this message. -/
def UserRole.brings (b : Option (ChatUser × Bytes)) : UserRole → Bool
  | .message b' => b' == b
  | _ => false

/-- **C112**: no message of another user is shown more often than it arrived. -/
theorem C112_not_twice (self : ChatUser) (notifications : List (Option ChatNotification))
    (messages : List (Option (ChatUser × Bytes))) (acts : List (Nat × UserEnv)) (d : ChatMessage)
    (hd : d.system = false) (hself : d.sender ≠ self) :
    (userRun self notifications messages acts).world.log.count (.shown d) ≤
      messages.count (some (d.sender, d.content)) := by
  rw [userRun_world]
  have hs := (UserShown.run self notifications messages acts).most d ⟨hd, hself⟩
  have hpl := UserPlaced.run self notifications messages acts
  generalize (userPoints notifications messages).run self acts = s at hs hpl
  refine Nat.le_trans (Nat.le_trans (Nat.le_add_right _ _) (Nat.le_trans (Nat.le_add_right _ _) hs)) ?_
  have hlen := hpl.len
  have hfit : ∀ (i : Nat) (p : UserPoint), s.points[i]? = some p → p.sentAs self d = true →
      ∃ b, (userRoles notifications messages)[i]? = some (.message b) ∧ b = some (d.sender, d.content) := by
    intro i p hp hsent
    obtain ⟨r, hr, hf⟩ := hpl.fits i p hp
    have key : ∀ m, named self m = d → m = d := by
      intro m hm
      unfold named at hm
      split at hm
      · rw [← hm] at hself; exact absurd rfl hself
      · exact hm
    cases p <;> first | (cases hsent; done) | skip
    case serving ok m =>
      cases m with
      | none => cases hsent
      | some m =>
        have hm := key m (by simpa [UserPoint.sentAs] using hsent)
        subst hm
        cases r <;> first | (cases hf; done) | skip
        rename_i b
        match b, hf with
        | none, hf => cases hf.2
        | some (a, c), hf => cases hf.2; exact ⟨_, hr, rfl⟩
    case finished m =>
      cases m with
      | none => cases hsent
      | some m =>
        have hm := key m (by simpa [UserPoint.sentAs] using hsent)
        subst hm
        cases r <;> first | (cases hf; done) | skip
        rename_i b
        match b, hf with
        | none, hf => cases hf
        | some (a, c), hf => cases hf; exact ⟨_, hr, rfl⟩
  have hroles : s.points.countP (UserPoint.sentAs self d) ≤ (userRoles notifications messages).countP
      (UserRole.brings (some (d.sender, d.content))) := by
    generalize userRoles notifications messages = roles at hlen hfit
    generalize s.points = points at hlen hfit
    induction points generalizing roles with
    | nil => exact Nat.zero_le _
    | cons p points ih =>
      cases roles with
      | nil => cases hlen
      | cons r roles =>
        rw [List.countP_cons, List.countP_cons]
        have h1 := ih roles (by simpa using hlen) fun i p hp hs => by
          simpa using hfit (i + 1) p (by simpa using hp) hs
        have h2 : (if p.sentAs self d = true then 1 else 0) ≤ (if r.brings (some (d.sender, d.content)) = true
            then 1 else 0) := by
          by_cases hp : p.sentAs self d = true
          · obtain ⟨b, hb, rfl⟩ := hfit 0 p rfl hp
            cases hb
            simp [hp, UserRole.brings]
          · simp [hp]
        omega
  refine Nat.le_trans hroles (Nat.le_of_eq ?_)
  unfold userRoles
  rw [List.countP_append, List.countP_append, List.countP_map, List.countP_map]
  have h1 : List.countP (UserRole.brings (some (d.sender, d.content))) [.printer, .chatter, .main] = 0 := rfl
  have h2 : notifications.countP (UserRole.brings (some (d.sender, d.content)) ∘ UserRole.note) = 0 :=
    List.countP_eq_zero.mpr fun _ _ h => by cases h
  rw [h1, h2]
  simp only [Nat.zero_add]
  rfl

open UserExample in
/-- Bob says "hi" twice: two answers, two lines. -/
example : (userRun alice [] [some (bob, str "hi"), some (bob, str "hi")]
      (began ++ does 3 3 ++ does 0 4 ++ does 4 3 ++ does 0 4)).world.log =
    [.served 3 true, .shown ⟨false, bob, str "hi"⟩, .served 4 true, .shown ⟨false, bob, str "hi"⟩] := by
  rw [userRun_world]; decide +kernel

/-! ## C113 -/

/-- What is shown about a user who joins or leaves. -/
def ChatEvent.text : ChatEvent → Bytes
  | .joined => joinedText
  | .left => leftText

/-- Where a message comes from: from the registry, from another user, or from the user themselves. -/
def UserSource (self : ChatUser) (notifications : List (Option ChatNotification))
    (messages : List (Option (ChatUser × Bytes))) (acts : List (Nat × UserEnv)) (m : ChatMessage) : Prop :=
  (∃ n event, some n ∈ notifications ∧ n.event = some event ∧ m = systemMessage n.user.name event.text) ∨
  (∃ sender content, some (sender, content) ∈ messages ∧ m = ⟨false, sender, content⟩) ∨
  (∃ e, (1, e) ∈ acts ∧ e.ok = true ∧ m = ⟨false, self, e.content⟩)

/-- The message that the user is telling the others. -/
def UserPoint.tells : UserPoint → Option ChatMessage
  | .tellRLock m => some m
  | .tellRange m => some m
  | .tellEach m _ => some m
  | .tellSend m => some m
  | _ => none

structure UserOrigins (me : ChatUser) (notifications : List (Option ChatNotification))
    (messages : List (Option (ChatUser × Bytes))) (acts : List (Nat × UserEnv)) (s : UserState) : Prop where
  placed : UserPlaced me notifications messages s
  slot : ∀ m, s.world.slot = some m → UserSource me notifications messages acts m
  line : ∀ (i : Nat) (d : ChatMessage), s.points[i]? = some (.printLine d) →
    ∃ m, UserSource me notifications messages acts m ∧ d = named me m
  log : ∀ d, UserEvent.shown d ∈ s.world.log → ∃ m, UserSource me notifications messages acts m ∧ d = named me m
  own : ∀ (i : Nat) (p : UserPoint) (m : ChatMessage), s.points[i]? = some p → p.tells = some m →
    ∃ e, (1, e) ∈ acts ∧ e.ok = true ∧ m = ⟨false, me, e.content⟩

theorem UserOrigins.source {self : ChatUser} {notifications : List (Option ChatNotification)}
    {messages : List (Option (ChatUser × Bytes))} {acts : List (Nat × UserEnv)} {s : UserState}
    (h : UserOrigins self notifications messages acts s)
    {i : Nat} {p : UserPoint} {m : ChatMessage} (hp : s.points[i]? = some p)
    (hm : p = .tellSend m ∨ p = .telling m ∨ p = .passing m) : UserSource self notifications messages acts m := by
  obtain ⟨r, hr, hf⟩ := h.placed.fits i p hp
  have hmem := List.mem_of_getElem? hr
  simp only [userRoles, List.mem_append, List.mem_cons, List.mem_map, List.not_mem_nil, or_false] at hmem
  rcases hm with rfl | rfl | rfl
  · exact .inr (.inr (h.own i _ m hp rfl))
  · cases r <;> first | (cases hf; done) | skip
    rename_i b
    obtain ⟨n, rfl, h2⟩ := hf
    have hn : some n ∈ notifications := by simpa using hmem
    rcases h2 with ⟨he, rfl⟩ | ⟨he, rfl⟩
    · exact .inl ⟨n, .joined, hn, he, rfl⟩
    · exact .inl ⟨n, .left, hn, he, rfl⟩
  · cases r <;> first | (cases hf; done) | skip
    rename_i b
    obtain ⟨a, c, rfl, rfl⟩ := hf
    exact .inr (.inl ⟨a, c, by simpa using hmem, rfl⟩)

theorem UserOrigins.mono {self : ChatUser} {notifications : List (Option ChatNotification)}
    {messages : List (Option (ChatUser × Bytes))} {acts : List (Nat × UserEnv)} {s : UserState}
    (h : UserOrigins self notifications messages acts s) (act : Nat × UserEnv) :
    UserOrigins self notifications messages (acts ++ [act]) s := by
  have key : ∀ m, UserSource self notifications messages acts m →
      UserSource self notifications messages (acts ++ [act]) m := by
    rintro m (h | h | ⟨e, h1, h2⟩)
    · exact .inl h
    · exact .inr (.inl h)
    · exact .inr (.inr ⟨e, List.mem_append_left _ h1, h2⟩)
  refine ⟨h.placed, fun m hm => key m (h.slot m hm), fun i d hi => ?_, fun d hd => ?_, fun i p m hp hm => ?_⟩
  · obtain ⟨m, h1, h2⟩ := h.line i d hi
    exact ⟨m, key m h1, h2⟩
  · obtain ⟨m, h1, h2⟩ := h.log d hd
    exact ⟨m, key m h1, h2⟩
  · obtain ⟨e, h1, h2⟩ := h.own i p m hp hm
    exact ⟨e, List.mem_append_left _ h1, h2⟩

/-- What the user tells the others is what was generated. -/
theorem UserState.step_generate {self : ChatUser} {s : UserState} {act : Nat × UserEnv}
    (hp : s.points[act.1]? = some .chatGenerate) {m : ChatMessage} {q : UserPoint}
    (hq : (s.step self act).points[act.1]? = some q) (hm : q.tells = some m) :
    act.2.ok = true ∧ m = ⟨false, self, act.2.content⟩ := by
  obtain ⟨i, e⟩ := act
  dsimp only at hp hq ⊢
  unfold UserState.step at hq
  simp only [hp, UserPoint.next, userExec] at hq
  by_cases hx : s.world.exited = true
  · simp only [hx, if_true, hp] at hq
    cases hq
    cases hm
  · rw [if_neg hx] at hq
    dsimp only at hq
    rw [List.getElem?_set_self (List.getElem?_eq_some_iff.mp hp).1] at hq
    cases he : e.ok with
    | true => simp only [he, if_true] at hq; cases hq; cases hm; exact ⟨rfl, rfl⟩
    | false => simp [he] at hq; cases hq; cases hm

theorem tells_move {self : ChatUser} {i : Nat} {w w' : UserWorld} {p q : UserPoint} {m : ChatMessage}
    (hm : UserMove self i w p q w') (hq : q.tells = some m) : p = .chatGenerate ∨ p.tells = some m := by
  cases hm <;> first | (cases hq; done) | exact .inr hq | exact .inl rfl | skip
  case arrive n _ =>
    exfalso
    revert hq
    unfold ChatNotification.point
    split
    · exact (fun h => by cases h)
    · split
      · exact (fun h => by cases h)
      · split <;> exact (fun h => by cases h)
    · exact (fun h => by cases h)

theorem line_move {self : ChatUser} {i : Nat} {w w' : UserWorld} {p q : UserPoint} {d : ChatMessage}
    (hm : UserMove self i w p q w') (hq : q = .printLine d) : ∃ m, w.slot = some m ∧ d = named self m := by
  cases hm <;> first | (cases hq; done) | skip
  case receive m hs => cases hq; exact ⟨m, hs, rfl⟩
  case arrive n _ =>
    exfalso
    revert hq
    unfold ChatNotification.point
    split
    · exact (fun h => by cases h)
    · split
      · exact (fun h => by cases h)
      · split <;> exact (fun h => by cases h)
    · exact (fun h => by cases h)

theorem slot_move {self : ChatUser} {i : Nat} {w w' : UserWorld} {p q : UserPoint} {m : ChatMessage}
    (hm : UserMove self i w p q w') (hs : w'.slot = some m) :
    w.slot = some m ∨ p = .tellSend m ∨ p = .telling m ∨ p = .passing m := by
  cases hm <;> first | exact .inl hs | (cases hs; done) | (cases hs; simp; done)

theorem shown_move {self : ChatUser} {i : Nat} {w w' : UserWorld} {p q : UserPoint} {d : ChatMessage}
    (hm : UserMove self i w p q w') (hd : UserEvent.shown d ∈ w'.log) : UserEvent.shown d ∈ w.log ∨ p = .printLine d := by
  cases hm <;> first | exact .inl hd | skip
  all_goals
    rcases List.mem_append.mp hd with hd | hd
    · exact .inl hd
    · simp at hd
      try (subst hd; exact .inr rfl)

theorem UserRole.chatter_first {notifications : List (Option ChatNotification)}
    {messages : List (Option (ChatUser × Bytes))} {i : Nat} {r : UserRole}
    (h : (userRoles notifications messages)[i]? = some r) (hr : r = .chatter) : i = 1 := by
  subst hr
  match i with
  | 0 => cases h
  | 1 => rfl
  | 2 => cases h
  | k + 3 =>
    exfalso
    have h3 : UserRole.chatter ∈ notifications.map UserRole.note ++ messages.map UserRole.message := by
      refine List.mem_of_getElem? (i := k) ?_
      simpa [userRoles] using h
    rcases List.mem_append.mp h3 with h3 | h3 <;> obtain ⟨b, _, h4⟩ := List.mem_map.mp h3 <;> cases h4

theorem UserOrigins.step {self : ChatUser} {notifications : List (Option ChatNotification)}
    {messages : List (Option (ChatUser × Bytes))} {acts : List (Nat × UserEnv)} (s : UserState)
    (act : Nat × UserEnv) (h : UserOrigins self notifications messages acts s) :
    UserOrigins self notifications messages (acts ++ [act]) (s.step self act) := by
  have hgen := fun hp m q => UserState.step_generate (self := self) (s := s) (act := act) hp (m := m) (q := q)
  rcases s.step_move self act with hs | ⟨p, q, w', hp, hm, hs⟩
  · rw [hs]; exact h.mono act
  have ho := h.mono act
  rw [hs] at hgen ⊢
  have hlt := (List.getElem?_eq_some_iff.mp hp).1
  refine ⟨h.placed.move s _ p q w' hp hm, ?_, ?_, ?_, ?_⟩
  · intro m hs
    rcases slot_move hm hs with h1 | h1
    · exact ho.slot m h1
    · exact ho.source hp h1
  · intro j d hj
    by_cases hij : act.1 = j
    · subst hij
      rw [List.getElem?_set_self hlt] at hj
      obtain ⟨m, h1, h2⟩ := line_move hm (Option.some.inj hj)
      exact ⟨m, ho.slot m h1, h2⟩
    · rw [List.getElem?_set_ne hij] at hj
      exact ho.line j d hj
  · intro d hd
    rcases shown_move hm hd with h1 | rfl
    · exact ho.log d h1
    · exact ho.line _ d hp
  · intro j q' m hj hq
    by_cases hij : act.1 = j
    · subst hij
      have hj' := hj
      rw [List.getElem?_set_self hlt] at hj'
      cases hj'
      rcases tells_move hm hq with rfl | h1
      · obtain ⟨h2, h3⟩ := hgen hp m q hj hq
        have h4 : act.1 = 1 := by
          obtain ⟨r, hr, hf⟩ := h.placed.fits _ _ hp
          exact UserRole.chatter_first hr (by cases r <;> first | (cases hf; done) | rfl)
        refine ⟨act.2, List.mem_append_right _ ?_, h2, h3⟩
        rw [← h4]
        exact List.mem_cons_self
      · exact ho.own _ p m hp h1
    · rw [List.getElem?_set_ne hij] at hj
      exact ho.own j q' m hj hq

theorem UserOrigins.run (self : ChatUser) (notifications : List (Option ChatNotification))
    (messages : List (Option (ChatUser × Bytes))) (acts : List (Nat × UserEnv)) :
    UserOrigins self notifications messages acts ((userPoints notifications messages).run self acts) := by
  have key : ∀ (acts pre : List (Nat × UserEnv)) (s : UserState), UserOrigins self notifications messages pre s →
      UserOrigins self notifications messages (pre ++ acts) (s.run self acts) := by
    intro acts
    induction acts with
    | nil => intro pre s h; rw [List.append_nil]; exact h
    | cons act acts ih =>
      intro pre s h
      have := ih (pre ++ [act]) _ (UserOrigins.step s act h)
      rw [List.append_assoc] at this
      exact this
  refine key acts [] _ ⟨UserPlaced.start self notifications messages, (fun _ h => by cases h), fun i d hi => ?_,
    (fun _ h => by cases h), fun i p m hp hm => ?_⟩
  · have hp := List.mem_of_getElem? hi
    simp only [userPoints, List.mem_append, List.mem_cons, List.mem_map, List.not_mem_nil, or_false] at hp
    rcases hp with ((h | h | h) | ⟨b, _, h⟩) | ⟨b, _, h⟩ <;> cases h
  · have hp := List.mem_of_getElem? hp
    simp only [userPoints, List.mem_append, List.mem_cons, List.mem_map, List.not_mem_nil, or_false] at hp
    rcases hp with ((rfl | rfl | rfl) | ⟨b, _, rfl⟩) | ⟨b, _, rfl⟩ <;> cases hm

/-- **C113** (full statement): a line that looks like the news that a user joined or left is such news: the registry
has sent it. -/
def C113_claim : Prop :=
  ∀ (sha512 : Bytes → Bytes) (time : Bytes) (self : ChatUser) (notifications : List (Option ChatNotification))
    (messages : List (Option (ChatUser × Bytes))) (acts : List (Nat × UserEnv)) (m : ChatMessage) (name : Bytes)
    (event : ChatEvent),
    UserEvent.shown m ∈ (userRun self notifications messages acts).world.log →
    m.text sha512 time = (named self (systemMessage name event.text)).text sha512 time →
    ∃ n, some n ∈ notifications ∧ n.event = some event ∧ n.user.name = name

open UserExample in
/-- C113 fails for every hash function: another user may call themselves like the robot, and claim the user's own
host, so that even the colour is the same. -/
theorem C113_refuted : ¬ C113_claim := by
  intro h
  obtain ⟨n, hn, _⟩ := h id [] alice [] [some ({ alice with name := robot }, str "bob" ++ leftText)]
    (began ++ does 3 2 ++ does 0 2) ⟨false, { alice with name := robot }, str "bob" ++ leftText⟩ (str "bob") .left
    (by rw [userRun_world]; decide +kernel) rfl
  cases hn

theorem color_length (sha512 : Bytes → Bytes) (m : ChatMessage) : (m.color sha512).length = 5 := by
  unfold ChatMessage.color
  dsimp only
  generalize ((sha512 (m.sender.host ++ m.sender.name)).map BitVec.toNat).sum = n
  have h : n % messageColors.length < 8 := Nat.mod_lt _ (by decide)
  generalize n % messageColors.length = k at h
  match k, h with
  | 0, _ | 1, _ | 2, _ | 3, _ | 4, _ | 5, _ | 6, _ | 7, _ => decide +kernel

/-- A name without a closing bracket ends at the first one. -/
theorem bracket_inj {a b x y : Bytes} (ha : 0x5d#8 ∉ a) (hb : 0x5d#8 ∉ b)
    (h : a ++ 0x5d#8 :: x = b ++ 0x5d#8 :: y) : a = b ∧ x = y := by
  induction a generalizing b with
  | nil =>
    cases b with
    | nil => exact ⟨rfl, by simpa using h⟩
    | cons c b =>
      simp only [List.nil_append, List.cons_append, List.cons.injEq] at h
      exact absurd (by rw [← h.1]; exact List.mem_cons_self) hb
  | cons c a ih =>
    cases b with
    | nil =>
      simp only [List.nil_append, List.cons_append, List.cons.injEq] at h
      exact absurd (by rw [h.1]; exact List.mem_cons_self) ha
    | cons c' b =>
      simp only [List.cons_append, List.cons.injEq] at h
      obtain ⟨h1, h2⟩ := ih (fun h => ha (List.mem_cons_of_mem _ h)) (fun h => hb (List.mem_cons_of_mem _ h)) h.2
      exact ⟨by rw [h.1, h1], h2⟩

/-- The news tell the event and the name. -/
theorem event_text_inj {a b : Bytes} {e e' : ChatEvent} (h : a ++ e.text = b ++ e'.text) : e = e' ∧ a = b := by
  have key : ∀ (a b : Bytes), a ++ joinedText ≠ b ++ leftText := by
    intro a b h
    have h1 : joinedText = [0x20#8, 0x6a#8] ++ joinedText.drop 2 := by decide +kernel
    rw [h1, ← List.append_assoc] at h
    have h2 := (List.append_inj' h (by decide +kernel)).2
    exact absurd h2 (by decide +kernel)
  cases e <;> cases e'
  · exact ⟨rfl, List.append_cancel_right h⟩
  · exact absurd h (key _ _)
  · exact absurd h.symm (key _ _)
  · exact ⟨rfl, List.append_cancel_right h⟩

/-- The text of a line, cut where the name begins. -/
theorem text_eq (sha512 : Bytes → Bytes) (time : Bytes) (m : ChatMessage) :
    ∃ c : Bytes, c.length = 5 ∧ m.text sha512 time = (time ++ str " " ++ c ++ str "[") ++
      ((if m.system then robot else m.sender.name) ++ 0x5d#8 :: (str " " ++ m.content ++ colorReset)) := by
  unfold ChatMessage.text
  dsimp only
  refine ⟨(if m.system then { m with sender := { m.sender with name := robot } } else m).color sha512,
    color_length sha512 _, ?_⟩
  have h : str "] " = 0x5d#8 :: str " " := by decide +kernel
  split <;> simp [h]

/-- **C113** (partial): if nobody whose messages arrive, nor the user themselves, has a name with "]" in it or the
name of the robot, then a line that looks like the news that a user joined or left is such news.  (The full
statement is `C113_claim`.) -/
theorem C113_news_partial (sha512 : Bytes → Bytes) (time : Bytes) (self : ChatUser)
    (notifications : List (Option ChatNotification)) (messages : List (Option (ChatUser × Bytes)))
    (acts : List (Nat × UserEnv)) (m : ChatMessage) (name : Bytes) (event : ChatEvent)
    (hself : 0x5d#8 ∉ self.name ∧ self.name ≠ robot)
    (hothers : ∀ sender content, some (sender, content) ∈ messages → 0x5d#8 ∉ sender.name ∧ sender.name ≠ robot)
    (hm : UserEvent.shown m ∈ (userRun self notifications messages acts).world.log)
    (ht : m.text sha512 time = (named self (systemMessage name event.text)).text sha512 time) :
    ∃ n, some n ∈ notifications ∧ n.event = some event ∧ n.user.name = name := by
  rw [userRun_world] at hm
  obtain ⟨raw, hraw, rfl⟩ := (UserOrigins.run self notifications messages acts).log m hm
  obtain ⟨c, hc, h1⟩ := text_eq sha512 time (named self raw)
  obtain ⟨c', hc', h2⟩ := text_eq sha512 time (named self (systemMessage name event.text))
  rw [h1, h2] at ht
  have ht := (List.append_inj ht (by simp [hc, hc'])).2
  have hsys : (named self (systemMessage name event.text)).system = true := by unfold named; split <;> rfl
  have hcont : ∀ m, (named self m).content = m.content := fun m => by unfold named; split <;> rfl
  have hsame : ∀ m, (named self m).system = m.system := fun m => by unfold named; split <;> rfl
  have hrobot : 0x5d#8 ∉ robot := by decide
  rw [if_pos hsys, hcont, hcont, hsame] at ht
  have hname : ∀ sender content, (0x5d#8 ∉ sender.name ∧ sender.name ≠ robot) →
      (0x5d#8 ∉ (named self ⟨false, sender, content⟩).sender.name ∧
        (named self ⟨false, sender, content⟩).sender.name ≠ robot) := by
    intro sender content h
    unfold named
    split
    · exact hself
    · exact h
  rcases hraw with ⟨n, e, hn, he, rfl⟩ | ⟨sender, content, hmem, rfl⟩ | ⟨e, _, _, rfl⟩
  · rw [if_pos (show (systemMessage n.user.name e.text).system = true from rfl)] at ht
    have h3 := (bracket_inj hrobot hrobot ht).2
    have h4 : n.user.name ++ e.text = name ++ event.text := by
      have := List.append_cancel_right h3
      exact List.append_cancel_left this
    obtain ⟨rfl, rfl⟩ := event_text_inj h4
    exact ⟨n, hn, he, rfl⟩
  · exfalso
    obtain ⟨h3, h4⟩ := hname sender content (hothers sender content hmem)
    rw [if_neg (by simp)] at ht
    exact h4 (bracket_inj h3 hrobot ht).1
  · exfalso
    obtain ⟨h3, h4⟩ := hname self e.content hself
    rw [if_neg (by simp)] at ht
    exact h4 (bracket_inj h3 hrobot ht).1

open UserExample in
/-- The line of Bob's farewell. -/
example : (named alice (systemMessage (str "bob") leftText)).text (fun _ => [3#8]) (str "now") =
    str "now " ++ (0x1b#8 :: str "[34m") ++ str "[" ++ robot ++ str "] bob left the chat" ++ colorReset := by
  decide +kernel

/-! ## C117 -/

/-- **C117** (full statement): a line that bears the user's own name is a message that the user program itself has
generated (the generator is called by goroutine 1). -/
def C117_claim : Prop :=
  ∀ (self : ChatUser) (notifications : List (Option ChatNotification))
    (messages : List (Option (ChatUser × Bytes))) (acts : List (Nat × UserEnv)) (d : ChatMessage),
    d.system = false → d.sender.name = self.name →
    UserEvent.shown d ∈ (userRun self notifications messages acts).world.log →
    d.sender = self ∧ ∃ e, (1, e) ∈ acts ∧ e.ok = true ∧ e.content = d.content

open UserExample in
/-- C117 fails: a message without a sender is shown as the user's own. -/
theorem C117_refuted : ¬ C117_claim := by
  intro h
  obtain ⟨_, e, h1, _, h2⟩ := h alice [] [some (ChatUser.none, str "hi")] (began ++ does 3 2 ++ does 0 2)
    ⟨false, alice, str "hi"⟩ rfl rfl (by rw [userRun_world]; decide +kernel)
  simp [began, does] at h1

/-- **C117** (partial): if every message that arrives names a sender other than the user, then a line that bears the
user's own name is a message that the user program itself has generated.  (The full statement is `C117_claim`.) -/
theorem C117_own_partial (self : ChatUser) (notifications : List (Option ChatNotification))
    (messages : List (Option (ChatUser × Bytes))) (acts : List (Nat × UserEnv)) (d : ChatMessage)
    (hd : d.system = false) (hname : d.sender.name = self.name)
    (hothers : ∀ sender content, some (sender, content) ∈ messages → sender.name ≠ [] ∧ sender.name ≠ self.name)
    (hs : UserEvent.shown d ∈ (userRun self notifications messages acts).world.log) :
    d.sender = self ∧ ∃ e, (1, e) ∈ acts ∧ e.ok = true ∧ e.content = d.content := by
  rw [userRun_world] at hs
  obtain ⟨raw, hraw, rfl⟩ := (UserOrigins.run self notifications messages acts).log d hs
  rcases hraw with ⟨n, e, _, _, rfl⟩ | ⟨sender, content, hmem, rfl⟩ | ⟨e, h1, h2, rfl⟩
  · exfalso
    have : (named self (systemMessage n.user.name e.text)).system = true := by unfold named; split <;> rfl
    rw [this] at hd
    cases hd
  · exfalso
    obtain ⟨h1, h2⟩ := hothers sender content hmem
    unfold named at hname
    rw [if_neg h1] at hname
    exact h2 hname
  · unfold named
    split
    · exact ⟨rfl, e, h1, h2, rfl⟩
    · exact ⟨rfl, e, h1, h2, rfl⟩

open UserExample in
/-- Alice greets Bob, who has joined and who answers: one line is hers. -/
example : (userRun alice [joins bob] [some (bob, str "hey")]
      (began ++ does 3 6 ++ does 0 4 ++ does 1 5 ++ does 1 6 { content := str "hi" } ++ does 0 4 ++ does 4 3 ++
        does 0 2)).world.log =
    [.shown ⟨true, alice, str "bob joined the chat"⟩, .wrote 0 ⟨false, alice, str "hi"⟩ true,
      .shown ⟨false, alice, str "hi"⟩, .served 4 true, .shown ⟨false, bob, str "hey"⟩] := by
  rw [userRun_world]; decide +kernel

end Goe2ee
