import Verif.Model.Rejoin

/-!
# C136: a group member presents itself correctly, and comes back when it lost its standing

The specification is a history of what a member and its coordinator told each other, computed from the exchanges only; it says
which requests are in order after a given history.
-/

namespace Healer

/-- the error says that the coordinator does not know the member -/
def Unknown (e : Err) : Prop := e.is (.kafka 25) = true

/-- the error says that the node is not, or no longer, the coordinator: COORDINATOR_NOT_AVAILABLE, NOT_COORDINATOR -/
def NotCoordinator (e : Err) : Prop := e.is (.kafka 15) = true ∨ e.is (.kafka 16) = true

/-- the node cannot be talked to -/
def Gone (e : Err) : Prop :=
  e.is .eof = true ∨ e.says "connection refused" = true ∨ e.says "network is unreachable" = true ∨ e.says "i/o timeout" = true

/-- ILLEGAL_GENERATION, UNKNOWN_MEMBER_ID, REBALANCE_IN_PROGRESS: join again at once -/
def AtOnce (e : Err) : Prop := e.is (.kafka 22) = true ∨ e.is (.kafka 25) = true ∨ e.is (.kafka 27) = true

instance (e : Err) : Decidable (Unknown e) := inferInstanceAs (Decidable (_ = _))
instance (e : Err) : Decidable (NotCoordinator e) := inferInstanceAs (Decidable (_ ∨ _))
instance (e : Err) : Decidable (Gone e) := inferInstanceAs (Decidable (_ ∨ _))
instance (e : Err) : Decidable (AtOnce e) := inferInstanceAs (Decidable (_ ∨ _))

/-- What a member may conclude from the exchanges so far. -/
structure History where
  /-- the generation and member id of the last join that succeeded, unless the member was called unknown since -/
  standing : Option (Int32 × Bytes) := none
  /-- the coordinator found last, unless something showed that it no longer is -/
  coordinator : Option Int32 := none
  /-- the join answered just now, for which no sync was sent yet -/
  fresh : Option JoinGroupResponse := none
  /-- the metadata asked for since that join -/
  topics : Option (List TopicMetadata) := none
  /-- the last sync succeeded, and nothing since has ended the membership -/
  inGroup : Bool := false
  /-- a request failed and no pause was made since -/
  hasty : Bool := false

def History.see (h : History) : GroupSeen → History
  | .pause => { h with hasty := false }
  | .exchange .find (.found n) => { h with coordinator := some n }
  | .exchange .find (.failed _) => { h with hasty := true }
  | .exchange (.join _ _) (.joined r) =>
    { h with standing := some (r.generationID, r.memberID), fresh := some r, topics := none, inGroup := false }
  | .exchange (.join _ _) (.failed e) =>
    { h with standing := if Unknown e then none else h.standing
             coordinator := if NotCoordinator e ∨ Gone e then none else h.coordinator
             inGroup := false, hasty := decide ¬ AtOnce e }
  | .exchange .metadata (.topics ts) => { h with topics := some ts }
  | .exchange .metadata (.failed _) => { h with hasty := true }
  | .exchange (.sync _ _ _ _) (.synced good) => { h with fresh := none, inGroup := good, hasty := !good }
  | .exchange (.sync _ _ _ _) (.failed e) =>
    { h with standing := if Unknown e then none else h.standing
             coordinator := if NotCoordinator e then none else h.coordinator
             fresh := none, inGroup := false, hasty := decide ¬ AtOnce e }
  | .exchange (.heartbeat _ _ _) (.failed _) => { h with inGroup := false }
  | .exchange _ _ => h

/-- the history told by a list of exchanges -/
def historyOf (log : List GroupSeen) : History := log.foldl History.see {}

/-- Which requests are in order. -/
def History.InOrder (h : History) : GroupReq → Prop
  /- look for the coordinator when none is known -/
  | .find => h.coordinator = none ∧ h.hasty = false
  /- join at the coordinator, as the member it made of us, or as a new one -/
  | .join n m => h.coordinator = some n ∧ h.hasty = false ∧ m = (h.standing.map Prod.snd).getD []
  | .metadata => (∃ r, h.fresh = some r ∧ r.leaderID = r.memberID) ∧ h.hasty = false
  /- sync with the generation and id of the join just answered; the leader, and only the leader, assigns -/
  | .sync n g m what => h.coordinator = some n ∧ h.hasty = false ∧ ∃ r, h.fresh = some r ∧ g = r.generationID ∧ m = r.memberID
      ∧ (r.leaderID ≠ r.memberID → what = none)
      ∧ (r.leaderID = r.memberID → ∃ ts, what = some (r.members, ts) ∧ (h.topics = some ts ∨ h.topics = none ∧ ts = []))
  | .heartbeat n g m => h.coordinator = some n ∧ h.standing = some (g, m) ∧ h.inGroup = true
  | .commit _ g m => h.standing = some (g, m)

theorem historyOf_append (a b : List GroupSeen) : historyOf (a ++ b) = b.foldl History.see (historyOf a) := by
  simp [historyOf]

/-- every request was in order -/
def AllInOrder (log : List GroupSeen) : Prop := ∀ pre q a post, log = pre ++ .exchange q a :: post → (historyOf pre).InOrder q

theorem allInOrder_nil : AllInOrder [] := by
  intro pre q a post h
  cases pre <;> cases h

theorem AllInOrder.pause {log : List GroupSeen} (h : AllInOrder log) : AllInOrder (log ++ [.pause]) := by
  intro pre q a post e
  rcases List.eq_nil_or_concat post with rfl | ⟨post, x, rfl⟩
  · have := (List.append_inj' e rfl).2; cases this
  · have e' : log ++ [.pause] = (pre ++ .exchange q a :: post) ++ [x] := by rw [e]; simp
    exact h pre q a post (List.append_inj' e' rfl).1

theorem AllInOrder.exchange {log : List GroupSeen} (h : AllInOrder log) (q : GroupReq) (a : GroupAns)
    (hq : (historyOf log).InOrder q) : AllInOrder (log ++ [.exchange q a]) := by
  intro pre q' a' post e
  rcases List.eq_nil_or_concat post with rfl | ⟨post, x, rfl⟩
  · obtain ⟨e1, e2⟩ := List.append_inj' e rfl
    cases e2
    subst e1
    exact hq
  · have e' : log ++ [.exchange q a] = (pre ++ .exchange q' a' :: post) ++ [x] := by rw [e]; simp
    exact h pre q' a' post (List.append_inj' e' rfl).1

/-- how the state of the consumer and the history agree, whatever is outstanding -/
structure Knows (s : Membership) : Prop where
  order : AllInOrder s.log
  id : s.memberID = ((historyOf s.log).standing.map Prod.snd).getD []
  generation : ∀ g m, (historyOf s.log).standing = some (g, m) → s.generationID = g
  node : (historyOf s.log).coordinator = cond s.available (some s.node) none

/-- what is outstanding fits the history -/
def Poised (s : Membership) : Prop :=
  match s.pos with
  | .finding => s.available = false ∧ (historyOf s.log).hasty = false
  | .joining => s.available = true ∧ (historyOf s.log).hasty = false
  | .asking => s.available = true ∧ (historyOf s.log).hasty = false
      ∧ ∃ r, (historyOf s.log).fresh = some r ∧ s.generationID = r.generationID ∧ s.memberID = r.memberID
        ∧ r.leaderID = r.memberID ∧ s.ifLeader = true ∧ s.members = r.members ∧ (historyOf s.log).topics = none
        ∧ (historyOf s.log).standing = some (r.generationID, r.memberID)
  | .syncing => s.available = true ∧ (historyOf s.log).hasty = false
      ∧ ∃ r, (historyOf s.log).fresh = some r ∧ s.generationID = r.generationID ∧ s.memberID = r.memberID
        ∧ s.ifLeader = decide (r.leaderID = r.memberID)
        ∧ (r.leaderID = r.memberID → s.members = r.members
          ∧ ((historyOf s.log).topics = some s.topics ∨ (historyOf s.log).topics = none ∧ s.topics = []))
        ∧ (historyOf s.log).standing = some (r.generationID, r.memberID)
  | .still => s.closed = false → s.joined = true → s.available = true ∧ (historyOf s.log).inGroup = true
      ∧ (historyOf s.log).hasty = false ∧ (historyOf s.log).standing ≠ none

theorem joinLoses_iff (e : Err) : joinLoses e = true ↔ NotCoordinator e ∨ Gone e := by
  simp only [joinLoses, NotCoordinator, Gone, Bool.or_eq_true]
  grind

theorem syncLoses_iff (e : Err) : syncLoses e = true ↔ NotCoordinator e := by
  simp only [syncLoses, NotCoordinator, Bool.or_eq_true]

theorem atOnce_iff (e : Err) : (e.is (.kafka 22) || e.is (.kafka 25) || e.is (.kafka 27)) = true ↔ AtOnce e := by
  simp only [AtOnce, Bool.or_eq_true]
  grind

theorem top_closed {s : Membership} (h : Knows s) (hc : s.closed = true) : Knows s.top ∧ Poised s.top := by
  unfold Membership.top
  rw [if_pos hc]
  refine ⟨⟨h.order, h.id, h.generation, h.node⟩, ?_⟩
  simp only [Poised]
  intro h'
  rw [hc] at h'
  cases h'

theorem top_good {s : Membership} (h : Knows s) (hh : (historyOf s.log).hasty = false) : Knows s.top ∧ Poised s.top := by
  by_cases hc : s.closed = true
  · exact top_closed h hc
  · unfold Membership.top
    rw [if_neg hc]
    by_cases ha : s.available = true
    · rw [if_pos ha]
      exact ⟨⟨h.order, h.id, h.generation, h.node⟩, by simp only [Poised]; exact ⟨ha, hh⟩⟩
    · rw [if_neg ha]
      exact ⟨⟨h.order, h.id, h.generation, h.node⟩, by simp only [Poised]; exact ⟨by simpa using ha, hh⟩⟩

theorem knows_pause {s : Membership} (h : Knows s) : Knows (s.note [.pause]) := by
  have e : historyOf (s.log ++ [.pause]) = { historyOf s.log with hasty := false } := by rw [historyOf_append]; rfl
  refine ⟨h.order.pause, ?_, ?_, ?_⟩
  · simp only [Membership.note, e]; exact h.id
  · simp only [Membership.note, e]; exact h.generation
  · simp only [Membership.note, e]; exact h.node

theorem pause_calm (s : Membership) : (historyOf (s.note [.pause]).log).hasty = false := by
  simp only [Membership.note]
  rw [historyOf_append]
  rfl

theorem retry_good {s : Membership} (h : Knows s) (e : Err) (hh : AtOnce e → (historyOf s.log).hasty = false) :
    Knows (s.retry e) ∧ Poised (s.retry e) := by
  unfold Membership.retry
  by_cases ho : (e.is (.kafka 22) || e.is (.kafka 25) || e.is (.kafka 27)) = true
  · rw [if_pos ho]
    exact top_good h (hh ((atOnce_iff e).mp ho))
  · rw [if_neg ho]
    exact top_good (knows_pause h) (pause_calm s)

theorem find_good {s s' : Membership} (h : Knows s) (hp : s.available = false ∧ (historyOf s.log).hasty = false) (a : GroupAns)
    (hs : s.afterFind a = some s') : Knows s' ∧ Poised s' := by
  obtain ⟨ha, hh⟩ := hp
  have ho : (historyOf s.log).InOrder .find := ⟨by rw [h.node, ha]; rfl, hh⟩
  cases a <;> simp only [Membership.afterFind] at hs <;> try cases hs
  · rename_i n
    have e : historyOf (s.log ++ [.exchange .find (.found n)]) = { historyOf s.log with coordinator := some n } := by
      rw [historyOf_append]; rfl
    refine top_good ⟨h.order.exchange _ _ ho, ?_, ?_, ?_⟩ ?_
    · simp only [Membership.note, e]; exact h.id
    · simp only [Membership.note, e]; exact h.generation
    · simp only [Membership.note, e]; rfl
    · simp only [Membership.note, e]; exact hh
  · rename_i er
    have e : historyOf (s.log ++ [.exchange .find (.failed er), .pause]) = { historyOf s.log with hasty := false } := by
      rw [historyOf_append]; rfl
    refine top_good ⟨?_, ?_, ?_, ?_⟩ ?_
    · have := (h.order.exchange _ (.failed er) ho).pause
      rw [List.append_assoc] at this
      exact this
    · simp only [Membership.note, e]; exact h.id
    · simp only [Membership.note, e]; exact h.generation
    · simp only [Membership.note, e]; exact h.node
    · simp only [Membership.note, e]

theorem join_good {s s' : Membership} (h : Knows s) (hp : s.available = true ∧ (historyOf s.log).hasty = false) (a : GroupAns)
    (hs : s.afterJoin a = some s') : Knows s' ∧ Poised s' := by
  obtain ⟨ha, hh⟩ := hp
  have ho : (historyOf s.log).InOrder (.join s.node s.memberID) := ⟨by rw [h.node, ha]; rfl, hh, h.id⟩
  have hn : (historyOf s.log).coordinator = some s.node := ho.1
  cases a <;> simp only [Membership.afterJoin] at hs <;> try cases hs
  · rename_i r
    have e : historyOf (s.log ++ [.exchange (.join s.node s.memberID) (.joined r)]) = { historyOf s.log with
        standing := some (r.generationID, r.memberID), fresh := some r, topics := none, inGroup := false } := by
      rw [historyOf_append]; rfl
    have ho' := h.order.exchange _ (.joined r) ho
    have hk : Knows ((s.note [.exchange (.join s.node s.memberID) (.joined r)]).enter r) := by
      refine ⟨ho', ?_, ?_, ?_⟩
      · simp only [Membership.note, Membership.enter, e]; rfl
      · simp only [Membership.note, Membership.enter, e]; intro g m h'; cases h'; rfl
      · simp only [Membership.note, Membership.enter, e]; exact h.node
    unfold Membership.proceed
    by_cases hc : ((s.note [.exchange (.join s.node s.memberID) (.joined r)]).enter r).closed = true
    · rw [if_pos hc]; exact top_closed hk hc
    · rw [if_neg hc]
      by_cases hl : r.leaderID = r.memberID
      · rw [if_pos (by simp [Membership.enter, hl])]
        refine ⟨⟨hk.order, hk.id, hk.generation, hk.node⟩, ?_⟩
        simp only [Poised, Membership.note, Membership.enter, e]
        exact ⟨ha, hh, r, rfl, rfl, rfl, hl, decide_eq_true hl, if_pos hl, trivial, rfl⟩
      · rw [if_neg (by simp [Membership.enter, hl])]
        refine ⟨⟨hk.order, hk.id, hk.generation, hk.node⟩, ?_⟩
        simp only [Poised, Membership.note, Membership.enter, e]
        exact ⟨ha, hh, r, rfl, rfl, rfl, rfl, fun h' => absurd h' hl, rfl⟩
  · rename_i er
    have e : historyOf (s.log ++ [.exchange (.join s.node s.memberID) (.failed er)]) = { historyOf s.log with
        standing := if Unknown er then none else (historyOf s.log).standing
        coordinator := if NotCoordinator er ∨ Gone er then none else (historyOf s.log).coordinator
        inGroup := false, hasty := decide ¬ AtOnce er } := by
      rw [historyOf_append]; rfl
    have hk : Knows ((s.note [.exchange (.join s.node s.memberID) (.failed er)]).refuse er) := by
      refine ⟨h.order.exchange _ _ ho, ?_, ?_, ?_⟩
      · simp only [Membership.refuse, Membership.note, e]
        by_cases hu : Unknown er
        · rw [if_pos hu, if_pos (show er.is (.kafka 25) = true from hu)]; rfl
        · rw [if_neg hu, if_neg (show ¬ er.is (.kafka 25) = true from hu)]; exact h.id
      · simp only [Membership.refuse, Membership.note, e]
        by_cases hu : Unknown er
        · rw [if_pos hu]; intro g m h'; cases h'
        · rw [if_neg hu]; exact h.generation
      · simp only [Membership.refuse, Membership.note, e]
        by_cases hu : NotCoordinator er ∨ Gone er
        · rw [if_pos hu, if_pos ((joinLoses_iff er).mpr hu)]; rfl
        · rw [if_neg hu, if_neg (fun h' => hu ((joinLoses_iff er).mp h'))]; exact h.node
    by_cases hc : ((s.note [.exchange (.join s.node s.memberID) (.failed er)]).refuse er).closed = true
    · rw [if_pos hc]; exact top_closed hk hc
    · rw [if_neg hc]
      refine retry_good hk er ?_
      intro ho
      simp only [Membership.refuse, Membership.note, e, ho]
      rfl

theorem metadata_good {s s' : Membership} (h : Knows s) (hpos : s.pos = .asking) (hp : Poised s) (a : GroupAns)
    (hs : s.afterMetadata a = some s') : Knows s' ∧ Poised s' := by
  simp only [Poised, hpos] at hp
  obtain ⟨ha, hh, r, hf, hg, hm, hl, hi, hms, ht, hst⟩ := hp
  have ho : (historyOf s.log).InOrder .metadata := ⟨⟨r, hf, hl⟩, hh⟩
  cases a <;> simp only [Membership.afterMetadata] at hs <;> try cases hs
  · rename_i ts
    have e : historyOf (s.log ++ [.exchange .metadata (.topics ts)]) = { historyOf s.log with topics := some ts } := by
      rw [historyOf_append]; rfl
    refine ⟨⟨h.order.exchange _ _ ho, ?_, ?_, ?_⟩, ?_⟩
    · simp only [Membership.note, e]; exact h.id
    · simp only [Membership.note, e]; exact h.generation
    · simp only [Membership.note, e]; exact h.node
    · simp only [Poised, Membership.note, e]
      exact ⟨ha, hh, r, hf, hg, hm, by simp [hi, hl], fun _ => ⟨hms, .inl trivial⟩, hst⟩
  · rename_i er
    have e : historyOf (s.log ++ [.exchange .metadata (.failed er), .pause]) = { historyOf s.log with hasty := false } := by
      rw [historyOf_append]; rfl
    have hk : Knows (s.note [.exchange .metadata (.failed er), .pause]) := by
      refine ⟨?_, ?_, ?_, ?_⟩
      · have := (h.order.exchange _ (.failed er) ho).pause
        rw [List.append_assoc] at this
        exact this
      · simp only [Membership.note, e]; exact h.id
      · simp only [Membership.note, e]; exact h.generation
      · simp only [Membership.note, e]; exact h.node
    by_cases hc : (s.note [.exchange .metadata (.failed er), .pause]).closed = true
    · rw [if_pos hc]
      refine ⟨⟨hk.order, hk.id, hk.generation, hk.node⟩, ?_⟩
      simp only [Poised, Membership.note, e]
      exact ⟨ha, trivial, r, hf, hg, hm, by simp [hi, hl], fun _ => ⟨hms, .inr ⟨ht, trivial⟩⟩, hst⟩
    · rw [if_neg hc]
      refine ⟨hk, ?_⟩
      simp only [Poised, Membership.note, hpos, e]
      exact ⟨ha, trivial, r, hf, hg, hm, hl, hi, hms, ht, hst⟩

theorem sync_good {s s' : Membership} (h : Knows s) (hpos : s.pos = .syncing) (hp : Poised s) (a : GroupAns)
    (hs : s.afterSync a = some s') : Knows s' ∧ Poised s' := by
  simp only [Poised, hpos] at hp
  obtain ⟨ha, hh, r, hf, hg, hm, hi, hms, hst⟩ := hp
  have hn : (historyOf s.log).coordinator = some s.node := by rw [h.node, ha]; rfl
  have ho : (historyOf s.log).InOrder (.sync s.node s.generationID s.memberID
      (if s.ifLeader then some (s.members, s.topics) else none)) := by
    refine ⟨hn, hh, r, hf, hg, hm, ?_, ?_⟩
    · intro hl; simp [hi, hl]
    · intro hl
      obtain ⟨h1, h2⟩ := hms hl
      exact ⟨s.topics, by simp [hi, hl, h1], h2⟩
  generalize hq : GroupReq.sync s.node s.generationID s.memberID (if s.ifLeader then some (s.members, s.topics) else none) = q at ho
  have hsee : ∀ (hst : History) good, hst.see (.exchange q (.synced good)) = { hst with fresh := none, inGroup := good, hasty := !good } := by
    intro hst good; subst hq; rfl
  have hsee' : ∀ (hst : History) er, hst.see (.exchange q (.failed er)) = { hst with
      standing := if Unknown er then none else hst.standing
      coordinator := if NotCoordinator er then none else hst.coordinator
      fresh := none, inGroup := false, hasty := decide ¬ AtOnce er } := by
    intro hst er; subst hq; rfl
  simp only [Membership.afterSync, hq] at hs
  cases a with
  | synced good =>
    have e : historyOf (s.log ++ [.exchange q (.synced good)]) = { historyOf s.log with
        fresh := none, inGroup := good, hasty := !good } := by
      rw [historyOf_append]; exact hsee _ _
    have hk : Knows (s.note [.exchange q (.synced good)]) := by
      refine ⟨h.order.exchange _ _ ho, ?_, ?_, ?_⟩
      · simp only [Membership.note, e]; exact h.id
      · simp only [Membership.note, e]; exact h.generation
      · simp only [Membership.note, e]; exact h.node
    cases good with
    | true =>
      cases hs
      refine ⟨⟨hk.order, hk.id, hk.generation, hk.node⟩, ?_⟩
      simp only [Poised, Membership.note, e]
      intro _ _
      exact ⟨ha, trivial, by simp, by rw [hst]; simp⟩
    | false =>
      cases hs
      refine retry_good hk _ ?_
      intro h'
      rcases h' with h' | h' | h' <;> simp [Err.is] at h'
  | failed er =>
    cases hs
    have e : historyOf (s.log ++ [.exchange q (.failed er)]) = { historyOf s.log with
        standing := if Unknown er then none else (historyOf s.log).standing
        coordinator := if NotCoordinator er then none else (historyOf s.log).coordinator
        fresh := none, inGroup := false, hasty := decide ¬ AtOnce er } := by
      rw [historyOf_append]; exact hsee' _ _
    refine retry_good ⟨h.order.exchange _ _ ho, ?_, ?_, ?_⟩ er ?_
    · simp only [Membership.unsynced, Membership.note, e]
      by_cases hu : Unknown er
      · rw [if_pos hu, if_pos (show er.is (.kafka 25) = true from hu)]; rfl
      · rw [if_neg hu, if_neg (show ¬ er.is (.kafka 25) = true from hu)]; exact h.id
    · simp only [Membership.unsynced, Membership.note, e]
      by_cases hu : Unknown er
      · rw [if_pos hu]; intro g m h'; cases h'
      · rw [if_neg hu]; exact h.generation
    · simp only [Membership.unsynced, Membership.note, e]
      by_cases hu : NotCoordinator er
      · rw [if_pos hu, if_pos ((syncLoses_iff er).mpr hu)]; rfl
      · rw [if_neg hu, if_neg (fun h' => hu ((syncLoses_iff er).mp h'))]; exact h.node
    · intro ho
      simp only [Membership.unsynced, Membership.note, e, ho]
      rfl
  | _ => cases hs

theorem still_good {s : Membership} (h : Knows s) (hj : s.joined = true) (hpos : s.pos = .still) (hc : s.closed = false) (hp : Poised s) :
    (historyOf s.log).InOrder (.heartbeat s.node s.generationID s.memberID) ∧ (historyOf s.log).hasty = false := by
  simp only [Poised, hpos] at hp
  obtain ⟨ha, hi, hh, hst⟩ := hp hc hj
  refine ⟨⟨by rw [h.node, ha]; rfl, ?_, hi⟩, hh⟩
  cases hs : (historyOf s.log).standing with
  | none => exact absurd hs hst
  | some gm =>
    obtain ⟨g, m⟩ := gm
    have h1 := h.generation g m hs
    have h2 := h.id
    rw [hs] at h2
    rw [h1, h2]; rfl

theorem step_good {s s' : Membership} (h : Knows s) (hp : Poised s) (a : RejoinAct) (hs : s.step a = some s') : Knows s' ∧ Poised s' := by
  cases a with
  | answer a =>
    simp only [Membership.step] at hs
    cases hpos : s.pos <;> rw [hpos] at hs
    · exact find_good h (by simpa only [Poised, hpos] using hp) a hs
    · exact join_good h (by simpa only [Poised, hpos] using hp) a hs
    · exact metadata_good h hpos hp a hs
    · exact sync_good h hpos hp a hs
    · cases hs
  | heartbeat a =>
    simp only [Membership.step] at hs
    by_cases hg : (s.joined && decide (s.pos = .still) && !s.closed) = true
    · rw [if_pos hg] at hs
      simp only [Bool.and_eq_true, decide_eq_true_eq, Bool.not_eq_true'] at hg
      obtain ⟨⟨hj, hpos⟩, hc⟩ := hg
      obtain ⟨ho, hh⟩ := still_good h hj hpos hc hp
      cases a <;> try cases hs
      · have e : historyOf (s.log ++ [.exchange (.heartbeat s.node s.generationID s.memberID) .fine]) = historyOf s.log := by
          rw [historyOf_append]; rfl
        refine ⟨⟨h.order.exchange _ _ ho, ?_, ?_, ?_⟩, ?_⟩
        · simp only [Membership.note, e]; exact h.id
        · simp only [Membership.note, e]; exact h.generation
        · simp only [Membership.note, e]; exact h.node
        · simpa only [Poised, Membership.note, e, hpos] using hp
      · rename_i er
        have e : historyOf (s.log ++ [.exchange (.heartbeat s.node s.generationID s.memberID) (.failed er)])
            = { historyOf s.log with inGroup := false } := by
          rw [historyOf_append]; rfl
        refine top_good ⟨h.order.exchange _ _ ho, ?_, ?_, ?_⟩ ?_
        · simp only [Membership.note, e]; exact h.id
        · simp only [Membership.note, e]; exact h.generation
        · simp only [Membership.note, e]; exact h.node
        · simp only [Membership.note, e]; exact hh
    · rw [if_neg hg] at hs; cases hs
  | commit a =>
    simp only [Membership.step] at hs
    by_cases hm : s.memberID = []
    · rw [if_pos hm] at hs; cases hs; exact ⟨h, hp⟩
    · rw [if_neg hm] at hs
      have ho : (historyOf s.log).InOrder (.commit s.node s.generationID s.memberID) := by
        show (historyOf s.log).standing = some (s.generationID, s.memberID)
        cases hst : (historyOf s.log).standing with
        | none => have := h.id; rw [hst] at this; exact absurd this hm
        | some gm =>
          obtain ⟨g, m⟩ := gm
          have h1 := h.generation g m hst
          have h2 := h.id
          rw [hst] at h2
          rw [h1, h2]; rfl
      have key : ∀ a', (historyOf (s.log ++ [.exchange (.commit s.node s.generationID s.memberID) a'])) = historyOf s.log := by
        intro a'; rw [historyOf_append]; cases a' <;> rfl
      have res : ∀ a', Knows (s.note [.exchange (.commit s.node s.generationID s.memberID) a'])
          ∧ Poised (s.note [.exchange (.commit s.node s.generationID s.memberID) a']) := by
        intro a'
        refine ⟨⟨h.order.exchange _ _ ho, ?_, ?_, ?_⟩, ?_⟩
        · simp only [Membership.note, key]; exact h.id
        · simp only [Membership.note, key]; exact h.generation
        · simp only [Membership.note, key]; exact h.node
        · simpa only [Poised, Membership.note, key] using hp
      cases a <;> try cases hs
      · exact res _
      · exact res _
  | restart ts =>
    simp only [Membership.step] at hs
    by_cases hg : (s.joined && decide (s.pos = .still) && !s.closed && s.ifLeader) = true
    · rw [if_pos hg] at hs
      cases hs
      simp only [Bool.and_eq_true, decide_eq_true_eq, Bool.not_eq_true'] at hg
      obtain ⟨⟨⟨hj, hpos⟩, hc⟩, _⟩ := hg
      obtain ⟨_, hh⟩ := still_good h hj hpos hc hp
      exact top_good ⟨h.order, h.id, h.generation, h.node⟩ hh
    · rw [if_neg hg] at hs; cases hs
  | close =>
    cases hs
    refine ⟨⟨h.order, h.id, h.generation, h.node⟩, ?_⟩
    cases hpos : s.pos <;> simp only [Poised, hpos] at hp ⊢
    · exact hp
    · exact hp
    · exact hp
    · exact hp
    · intro h'; cases h'

theorem run_good {as : List RejoinAct} {s s' : Membership} (h : Knows s) (hp : Poised s) (hr : Membership.run as s = some s') :
    Knows s' ∧ Poised s' := by
  induction as generalizing s with
  | nil => cases hr; exact ⟨h, hp⟩
  | cons a as ih =>
    simp only [Membership.run] at hr
    cases e : s.step a with
    | none => rw [e] at hr; cases hr
    | some t => rw [e] at hr; obtain ⟨h1, h2⟩ := step_good h hp a e; exact ih h1 h2 hr

theorem start_good : Knows {} ∧ Poised {} :=
  ⟨⟨allInOrder_nil, rfl, (by intro g m h; cases h), rfl⟩, ⟨rfl, rfl⟩⟩

/-- **C136.**  Whatever the coordinator and the network answer, and whenever heartbeats, commits, metadata changes and `Close`
come in: every request of a group consumer is in order after the exchanges before it. -/
theorem C136_requests_in_order (as : List RejoinAct) (s : Membership) (hr : Membership.run as {} = some s)
    (pre : List GroupSeen) (q : GroupReq) (a : GroupAns) (post : List GroupSeen) (hl : s.log = pre ++ .exchange q a :: post) :
    (historyOf pre).InOrder q :=
  (run_good start_good.1 start_good.2 hr).1.order pre q a post hl

/-- a join answer -/
def joinedAs (g : Int32) (leader member : Bytes) (ms : List Member) : JoinGroupResponse :=
  { correlationID := 0, errorCode := 0, generationID := g, groupProtocol := [], leaderID := leader, memberID := member, members := ms }

/-- a member which becomes leader, is sent away after a heartbeat, is unknown, loses its coordinator, and commits in between -/
def troubled : List RejoinAct :=
  [.answer (.failed .noAvailableBrokers), .answer (.found 1), .answer (.joined (joinedAs 5 [65] [65] [⟨[65], []⟩])), .answer (.topics []),
   .answer (.synced true), .heartbeat .fine, .commit .fine, .heartbeat (.failed (.kafka 27)), .answer (.failed (.wrapped (.kafka 25))),
   .commit .fine, .answer (.joined (joinedAs 6 [66] [67] [])), .answer (.failed (.kafka 16)), .answer (.found 2),
   .answer (.joined (joinedAs 7 [66] [67] [])), .answer (.synced true), .heartbeat .fine]

example : (Membership.run troubled {}).map (fun s => s.log.filterMap fun | .exchange q _ => some q | .pause => none)
    = some [.find, .find, .join 1 [], .metadata, .sync 1 5 [65] (some ([⟨[65], []⟩], [])), .heartbeat 1 5 [65], .commit 1 5 [65],
        .heartbeat 1 5 [65], .join 1 [65], .join 1 [], .sync 1 6 [67] none, .find, .join 2 [67], .sync 2 7 [67] none, .heartbeat 2 7 [67]] := by
  decide

theorem top_open {s : Membership} (hc : s.closed = false) : s.top = { s with pos := if s.available then .joining else .finding } := by
  unfold Membership.top
  rw [if_neg (by rw [hc]; simp)]
  by_cases ha : s.available = true
  · rw [if_pos ha, if_pos ha]
  · rw [if_neg ha, if_neg ha]

theorem recovers_syncing (s : Membership) (hp : s.pos = .syncing) :
    ∃ s', Membership.run [.answer (.synced true)] s = some s' ∧ s'.pos = .still ∧ s'.joined = true := by
  refine ⟨_, by simp only [Membership.run, Membership.step, hp, Membership.afterSync]; rfl, rfl, rfl⟩

theorem recovers_asking (s : Membership) (hp : s.pos = .asking) (ts : List TopicMetadata) :
    ∃ s', Membership.run [.answer (.topics ts), .answer (.synced true)] s = some s' ∧ s'.pos = .still ∧ s'.joined = true := by
  simp only [Membership.run, Membership.step, hp, Membership.afterMetadata]
  exact ⟨_, by simp only [Membership.afterSync]; rfl, rfl, rfl⟩

theorem run_append_some {as bs : List RejoinAct} {s t u : Membership} (h1 : Membership.run as s = some t) (h2 : Membership.run bs t = some u) :
    Membership.run (as ++ bs) s = some u := by
  induction as generalizing s with
  | nil => cases h1; exact h2
  | cons a as ih =>
    simp only [Membership.run, List.cons_append] at h1 ⊢
    cases e : s.step a with
    | none => rw [e] at h1; cases h1
    | some v => rw [e] at h1; exact ih h1

theorem recovers_joining (s : Membership) (hc : s.closed = false) (hp : s.pos = .joining) (r : JoinGroupResponse) (ts : List TopicMetadata) :
    ∃ bs s', bs ⊆ [.topics ts, .synced true] ∧ Membership.run ((.joined r :: bs).map .answer) s = some s' ∧ s'.pos = .still ∧ s'.joined = true := by
  have h1 : Membership.run [.answer (.joined r)] s
      = some ((s.note [.exchange (.join s.node s.memberID) (.joined r)]).enter r).proceed := by
    simp only [Membership.run, Membership.step, hp, Membership.afterJoin]
  by_cases hl : r.leaderID = r.memberID
  · have hp' : ((s.note [.exchange (.join s.node s.memberID) (.joined r)]).enter r).proceed.pos = .asking := by
      simp [Membership.proceed, Membership.enter, Membership.note, hc, hl]
    obtain ⟨s', h2, h3⟩ := recovers_asking _ hp' ts
    exact ⟨[.topics ts, .synced true], s', by simp, run_append_some h1 h2, h3⟩
  · have hp' : ((s.note [.exchange (.join s.node s.memberID) (.joined r)]).enter r).proceed.pos = .syncing := by
      simp [Membership.proceed, Membership.enter, Membership.note, hc, hl]
    obtain ⟨s', h2, h3⟩ := recovers_syncing _ hp'
    exact ⟨[.synced true], s', by simp, run_append_some h1 h2, h3⟩

theorem recovers_finding (s : Membership) (hc : s.closed = false) (hp : s.pos = .finding) (n : Int32) (r : JoinGroupResponse)
    (ts : List TopicMetadata) :
    ∃ bs s', bs ⊆ [.topics ts, .synced true] ∧ Membership.run ((.found n :: .joined r :: bs).map .answer) s = some s'
      ∧ s'.pos = .still ∧ s'.joined = true := by
  have h1 : Membership.run [.answer (.found n)] s
      = some (({ s with available := true, node := n } : Membership).note [.exchange .find (.found n)]).top := by
    simp only [Membership.run, Membership.step, hp, Membership.afterFind]
  have ho := top_open (s := ({ s with available := true, node := n } : Membership).note [.exchange .find (.found n)]) hc
  obtain ⟨bs, s', hb, h2, h3⟩ := recovers_joining
    (({ s with available := true, node := n } : Membership).note [.exchange .find (.found n)]).top (by rw [ho]; exact hc) (by rw [ho]; rfl) r ts
  exact ⟨bs, s', hb, run_append_some h1 h2, h3⟩

/-- **C136.**  Wherever a consumer that is not closed stands, and whatever went before: when the next join or sync request is
answered by an error which says that the coordinator is elsewhere, or a join by one which says that it is gone, and from then on the
cluster names a coordinator which accepts the member, the consumer has joined after at most four more requests.

`_partial`: only for these errors; see `C136_violated_other_errors`. -/
theorem C136_recovers_partial (s : Membership) (hc : s.closed = false) (e : Err)
    (hp : s.pos = .joining ∧ (NotCoordinator e ∨ Gone e) ∨ s.pos = .syncing ∧ NotCoordinator e)
    (n : Int32) (r : JoinGroupResponse) (ts : List TopicMetadata) :
    ∃ bs s', bs ⊆ [.topics ts, .synced true]
      ∧ Membership.run ((.failed e :: .found n :: .joined r :: bs).map .answer) s = some s' ∧ s'.pos = .still ∧ s'.joined = true := by
  have key : ∃ t, Membership.run [.answer (.failed e)] s = some t ∧ t.closed = false ∧ t.pos = .finding := by
    have hretry : ∀ u : Membership, u.closed = false → u.available = false → (u.retry e).closed = false ∧ (u.retry e).pos = .finding := by
      intro u hu ha
      unfold Membership.retry
      split
      · rw [top_open hu]; exact ⟨hu, by simp [ha]⟩
      · rw [top_open (s := u.note [.pause]) hu]; exact ⟨hu, by simp [Membership.note, ha]⟩
    rcases hp with ⟨hp, he⟩ | ⟨hp, he⟩
    · refine ⟨((s.note [.exchange (.join s.node s.memberID) (.failed e)]).refuse e).retry e, ?_, hretry _ hc ?_⟩
      · simp only [Membership.run, Membership.step, hp, Membership.afterJoin]
        have : ((s.note [.exchange (.join s.node s.memberID) (.failed e)]).refuse e).closed = false := hc
        rw [this]
        rfl
      · simp only [Membership.refuse]; exact if_pos ((joinLoses_iff e).mpr he)
    · refine ⟨((s.note [.exchange (.sync s.node s.generationID s.memberID
          (if s.ifLeader then some (s.members, s.topics) else none)) (.failed e)]).unsynced e).retry e, ?_, hretry _ hc ?_⟩
      · simp only [Membership.run, Membership.step, hp, Membership.afterSync]
      · simp only [Membership.unsynced]; exact if_pos ((syncLoses_iff e).mpr he)
  obtain ⟨t, h1, h2, h3⟩ := key
  obtain ⟨bs, s', hb, h4, h5⟩ := recovers_finding t h2 h3 n r ts
  exact ⟨bs, s', hb, run_append_some h1 h4, h5⟩

example : ∃ s, Membership.run [.answer (.found 1)] {} = some s ∧ s.closed = false ∧ s.pos = .joining
    ∧ (NotCoordinator (.other "dial tcp 10.0.0.1:9092: connect: connection refused")
      ∨ Gone (.other "dial tcp 10.0.0.1:9092: connect: connection refused")) := by
  refine ⟨_, rfl, rfl, rfl, ?_⟩
  right; right; left; decide

/-- dialling a host which has disappeared from the network -/
def noRoute : Err := .other "dial tcp 10.0.0.1:9092: connect: no route to host"

/-- **C136, negation of the recovery.**  The coordinator's host disappears ("no route to host"; likewise "no such host"): the consumer dials it again and again, and never asks who the coordinator is now, however long this
lasts. -/
theorem C136_violated_other_errors (k : Nat) :
    ∃ s, Membership.run (.answer (.found 1) :: List.replicate k (.answer (.failed noRoute))) {} = some s ∧ s.pos = .joining
      ∧ s.log = .exchange .find (.found 1) :: (List.replicate k [GroupSeen.exchange (.join 1 []) (.failed noRoute), .pause]).flatten := by
  have step : ∀ s : Membership, s.closed = false → s.available = true → s.pos = .joining → s.node = 1 → s.memberID = [] →
      s.step (.answer (.failed noRoute)) = some (s.note [.exchange (.join 1 []) (.failed noRoute), .pause]) := by
    intro s h1 h2 h3 h4 h5
    obtain ⟨pos, closed, joined, available, node, memberID, generationID, ifLeader, members, topics, log⟩ := s
    simp only at h1 h2 h3 h4 h5
    subst h1 h2 h3 h4 h5
    have e1 : noRoute.is (.kafka 25) = false := by decide
    have e2 : joinLoses noRoute = false := by decide
    have e3 : noRoute.is (.kafka 22) = false := by decide
    have e4 : noRoute.is (.kafka 27) = false := by decide
    simp [Membership.step, Membership.afterJoin, Membership.note, Membership.refuse, Membership.retry, Membership.top, e1, e2, e3, e4]
  have many : ∀ k (s : Membership), s.closed = false → s.available = true → s.pos = .joining → s.node = 1 → s.memberID = [] →
      Membership.run (List.replicate k (.answer (.failed noRoute))) s
        = some (s.note (List.replicate k [GroupSeen.exchange (.join 1 []) (.failed noRoute), .pause]).flatten) := by
    intro k
    induction k with
    | zero => intro s _ _ _ _ _; simp [Membership.run, Membership.note]
    | succ k ih =>
      intro s h1 h2 h3 h4 h5
      simp only [List.replicate_succ, Membership.run]
      rw [step s h1 h2 h3 h4 h5]
      dsimp only
      rw [ih (s.note _) h1 h2 h3 h4 h5]
      simp [Membership.note]
  have h0 : Membership.run [.answer (.found 1)] {}
      = some { pos := .joining, available := true, node := 1, log := [.exchange .find (.found 1)] } := by decide
  refine ⟨_, run_append_some h0 (many k _ rfl rfl rfl rfl rfl), rfl, ?_⟩
  simp [Membership.note]

end Healer
