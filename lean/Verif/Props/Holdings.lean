import Verif.Model.Holdings
import Verif.Props.Brokers2

/-!
# C162: the connections of a producer

What is opened is closed again?  Counted on the log: broker objects made, and broker objects closed.
-/

namespace Healer

open Brokers

variable {W : Type} (net : Net W)

/-- how many broker objects were made -/
def madeCount (log : List Done) : Nat := log.countP fun d => d.opens.isSome

/-- something was closed -/
def Done.isClose : Done → Bool
  | .closed _ => true
  | _ => false

/-- how many times a broker object was closed -/
def closeCount (log : List Done) : Nat := log.countP Done.isClose

theorem madeCount_append (a b : List Done) : madeCount (a ++ b) = madeCount a + madeCount b := List.countP_append

theorem closeCount_append (a b : List Done) : closeCount (a ++ b) = closeCount a + closeCount b := List.countP_append

/-- the log grew, with `k` more objects made than closed at least -/
def Surplus (k : Nat) (l l' : List Done) : Prop := ∃ d, l' = l ++ d ∧ closeCount d + k ≤ madeCount d

theorem Surplus.refl (l : List Done) : Surplus 0 l l := ⟨[], by simp, Nat.le_refl _⟩

theorem Surplus.trans {j k : Nat} {a b c : List Done} : Surplus j a b → Surplus k b c → Surplus (j + k) a c := by
  rintro ⟨d, rfl, h1⟩ ⟨e, rfl, h2⟩
  exact ⟨d ++ e, by simp, by rw [madeCount_append, closeCount_append]; omega⟩

theorem Surplus.weaken {j k : Nat} {a b : List Done} (h : Surplus j a b) (hk : k ≤ j) : Surplus k a b := by
  obtain ⟨d, rfl, h⟩ := h
  exact ⟨d, rfl, by omega⟩

theorem Surplus.zero {j : Nat} {a b c : List Done} (h : Surplus 0 a b) (h2 : Surplus j b c) : Surplus j a c := by
  have := h.trans h2; rwa [Nat.zero_add] at this

theorem Surplus.one (l : List Done) (d : Done) (h : Done.isClose d = false) : Surplus 0 l (l ++ [d]) :=
  ⟨[d], rfl, by simp [closeCount, h]⟩

theorem connect_surplus (a : Bytes) (n : Int32) (b : Brokers W) :
    Surplus (match (connect net a n b).1 with | .ok _ => 1 | .error _ => 0) b.log (connect net a n b).2.log := by
  unfold Brokers.connect
  cases h : net.connect a n b.world with
  | mk r w =>
    cases r with
    | ok h => exact ⟨_, rfl, by simp [closeCount, madeCount, Done.isClose, Done.opens]⟩
    | error e => exact Surplus.one _ _ rfl

theorem connect_ok_surplus {a : Bytes} {n : Int32} {b b' : Brokers W} {h : Nat} (hc : connect net a n b = (.ok h, b')) :
    Surplus 1 b.log b'.log := by
  have := connect_surplus net a n b; rw [hc] at this; exact this

theorem connect_error_surplus {a : Bytes} {n : Int32} {b b' : Brokers W} {e : Err} (hc : connect net a n b = (.error e, b')) :
    Surplus 0 b.log b'.log := by
  have := connect_surplus net a n b; rw [hc] at this; exact this

theorem ask_surplus {h : Nat} {ts : List Bytes} {b b' : Brokers W} {r : MetadataResponse × Option Err}
    (hc : askMetadata net h ts b = (r, b')) : Surplus 0 b.log b'.log := by
  unfold askMetadata at hc
  cases hc
  exact Surplus.one _ _ rfl

theorem closed_surplus {k : Nat} {l l' : List Done} (h : Nat) (hs : Surplus (k + 1) l l') : Surplus k l (l' ++ [.closed h]) := by
  obtain ⟨d, rfl, h1⟩ := hs
  exact ⟨d ++ [.closed h], by simp, by rw [madeCount_append, closeCount_append]; simp [closeCount, madeCount, Done.isClose, Done.opens] at h1 ⊢; omega⟩

theorem refreshBootstrap_surplus (as : List Bytes) (b : Brokers W) : Surplus 0 b.log (refreshBootstrap net as b).log := by
  induction as generalizing b with
  | nil => exact Surplus.refl _
  | cons a as ih =>
    unfold refreshBootstrap
    cases hc : connect net a (-1) b with
    | mk r b1 =>
      cases r with
      | error e => exact (connect_error_surplus net hc).zero (ih b1)
      | ok h =>
        have h1 := connect_ok_surplus net hc
        cases ha : askMetadata net h [] b1 with
        | mk r b2 =>
          have h2 := (h1.trans (ask_surplus net ha))
          dsimp only
          rw [ha]
          dsimp only
          split
          · exact (closed_surplus h h2).zero (ih _)
          · exact (h2.weaken (Nat.zero_le _)).zero (ih { b2 with infos := infosOf r.1.brokers })

theorem refreshKnown_surplus (is : List BrokerInfo) (b : Brokers W) : Surplus 0 b.log (refreshKnown net is b).2.log := by
  induction is generalizing b with
  | nil => exact Surplus.refl _
  | cons i is ih =>
    unfold refreshKnown
    cases hc : connect net i.netAddress (-1) b with
    | mk r b1 =>
      cases r with
      | error e => exact (connect_error_surplus net hc).zero (ih b1)
      | ok h =>
        have h1 := connect_ok_surplus net hc
        cases ha : askMetadata net h [] b1 with
        | mk r b2 =>
          have h2 := (h1.trans (ask_surplus net ha)).weaken (Nat.zero_le _)
          dsimp only
          rw [ha]
          dsimp only
          split
          · exact h2.zero (ih _)
          · exact h2

theorem ensureKnown_surplus (n : Int32) (b : Brokers W) : Surplus 0 b.log (ensureKnown net n b).log := by
  unfold ensureKnown
  split
  · exact Surplus.refl _
  · unfold refreshMetadata order
    exact (refreshBootstrap_surplus net _ b).zero (refreshKnown_surplus net _ { refreshBootstrap net b.bootstrap b with world := _ })

theorem newBroker_surplus {n : Int32} {b b' : Brokers W} {r : Except Err (Nat × Int32)} (hc : newBroker net n b = (r, b')) :
    Surplus 0 b.log b'.log := by
  have hk := ensureKnown_surplus net n b
  unfold newBroker createBroker at hc
  split at hc
  · cases hc; exact hk
  · rename_i i hi
    cases hcc : connect net i.netAddress i.nodeID (ensureKnown net n b) with
    | mk x b1 =>
      rw [hcc] at hc
      cases x with
      | ok h => cases hc; exact hk.zero ((connect_ok_surplus net hcc).weaken (Nat.zero_le _))
      | error e => cases hc; exact hk.zero (connect_error_surplus net hcc)

theorem newBroker_ok_surplus {n : Int32} {b b' : Brokers W} {h : Nat × Int32} (hc : newBroker net n b = (.ok h, b')) :
    Surplus 1 b.log b'.log := by
  have hk := ensureKnown_surplus net n b
  unfold newBroker createBroker at hc
  split at hc
  · cases hc
  · rename_i i hi
    cases hcc : connect net i.netAddress i.nodeID (ensureKnown net n b) with
    | mk x b1 =>
      rw [hcc] at hc
      cases x with
      | ok h => cases hc; exact hk.zero (connect_ok_surplus net hcc)
      | error e => cases hc

theorem getBroker_surplus {n : Int32} {b b' : Brokers W} {r : Except Err (Nat × Int32)} (hc : getBroker net n b = (r, b')) :
    Surplus 0 b.log b'.log := by
  unfold getBroker at hc
  split at hc
  · cases hc; exact Surplus.refl _
  · cases hb : newBroker net n b with
    | mk x b1 =>
      have := newBroker_surplus net hb
      unfold newBroker at hb
      rw [hb] at hc
      cases x <;> cases hc <;> exact this

theorem metadataLoop_surplus (ts : List Bytes) (is : List BrokerInfo) (b : Brokers W) :
    Surplus 0 b.log (metadataLoop net ts is b).2.log := by
  induction is generalizing b with
  | nil => exact Surplus.refl _
  | cons i is ih =>
    unfold metadataLoop
    cases hg : getBroker net i.nodeID b with
    | mk r b1 =>
      have h1 := getBroker_surplus net hg
      cases r with
      | error e => exact h1.zero (ih b1)
      | ok h =>
        cases ha : askMetadata net h.1 ts b1 with
        | mk r b2 =>
          have h2 := h1.zero (ask_surplus net ha)
          obtain ⟨r, e⟩ := r
          dsimp only
          rw [ha]
          cases e with
          | none => exact h2
          | some e =>
            dsimp only
            split
            · exact h2
            · exact h2.zero (ih b2)

theorem requestMetaData_surplus (ts : List Bytes) (b : Brokers W) : Surplus 0 b.log (requestMetaData net ts b).2.log := by
  unfold requestMetaData order
  exact metadataLoop_surplus net ts _ { b with world := _ }

theorem findLeader_surplus {t : Bytes} {pid : Int32} {b b' : Brokers W} {r : Out Int32} (hc : findLeader net t pid b = (r, b')) :
    Surplus 0 b.log b'.log := by
  have h := requestMetaData_surplus net [t] b
  unfold findLeader at hc
  cases hm : requestMetaData net [t] b with
  | mk x b1 =>
    obtain ⟨m, e⟩ := x
    rw [hm] at hc h
    cases e with
    | none =>
      dsimp only at hc h
      split at hc
      · cases hc; exact h
      · split at hc <;> cases hc <;> exact h
    | some e =>
      dsimp only at hc h
      split at hc
      · split at hc
        · cases hc; exact h
        · split at hc <;> cases hc <;> exact h
      · cases hc; exact h

theorem bootstrapLoop_surplus (bs as : List Bytes) (w : W) (log : List Done) :
    Surplus 0 log (bootstrapLoop net bs as w log).2 ∧
    ∀ b, (bootstrapLoop net bs as w log).1 = .ok b → Surplus 1 log b.log := by
  induction as generalizing w log with
  | nil => exact ⟨Surplus.refl _, fun b h => nomatch h⟩
  | cons a as ih =>
    unfold bootstrapLoop
    cases hc : net.connect a (-1) w with
    | mk r w1 =>
      cases r with
      | error e =>
        have h1 := Surplus.one log (.connectFailed a (-1) e) rfl
        exact ⟨h1.zero (ih _ _).1, fun b hb => h1.zero ((ih _ _).2 b hb)⟩
      | ok h =>
        dsimp only
        cases hf : fromOne net bs a h w1 with
        | error e =>
          have h1 : Surplus 0 log (log ++ [.connected a (-1) h, .metadata h [] (net.metadata h [] w1).1]) :=
            ⟨_, rfl, by simp [closeCount, Done.isClose]⟩
          exact ⟨h1.zero (ih _ _).1, fun b hb => h1.zero ((ih _ _).2 b hb)⟩
        | ok b0 =>
          have h1 : Surplus 1 log (log ++ .connected a (-1) h :: b0.log) := by
            refine ⟨_, rfl, ?_⟩
            have : b0.log = [.metadata h [] (net.metadata h [] w1).1] := by
              unfold fromOne askMetadata at hf
              dsimp only at hf
              split at hf
              · cases hf
              · split at hf
                · cases hf
                · injection hf with hf
                  subst hf
                  rename_i r b1 heq _
                  injection heq with _ h2
                  subst h2
                  generalize r.brokers = l
                  suffices ∀ b : Brokers W, (l.foldl (fun b i =>
                      { b with infos := b.infos.set i.nodeID i
                               cache := if a = i.netAddress then b.cache.set i.nodeID (h, -1) else b.cache }) b).log = b.log by
                    rw [this]; rfl
                  intro b
                  induction l generalizing b with
                  | nil => rfl
                  | cons x xs ih2 => rw [List.foldl_cons, ih2]
            rw [this]
            simp [closeCount, madeCount, Done.isClose, Done.opens]
          exact ⟨h1.weaken (Nat.zero_le _), fun b hb => by cases hb; exact h1⟩

/-- How many more objects than are closed are made at least when a leader is made. -/
def leaderGain : Out (Option Nat) → Nat
  | .ok (some _) => 2
  | .ok none => 1
  | _ => 0

theorem leaderOf_surplus (topic : Bytes) (pid : Int32) (b : Brokers W) (h1 : Surplus 1 [] b.log) :
    Surplus (leaderGain (leaderOf net topic pid b).result) [] (leaderOf net topic pid b).log := by
  unfold leaderOf
  cases hf : findLeader net topic pid b with
  | mk x b1 =>
    have h2 := h1.trans (findLeader_surplus net hf)
    cases x with
    | err e => exact h2.weaken (Nat.zero_le _)
    | panic => exact h2.weaken (Nat.zero_le _)
    | ok id =>
      dsimp only
      by_cases hid : id = -1
      · rw [if_pos hid]; exact h2
      · rw [if_neg hid]
        cases hnb : newBroker net id b1 with
        | mk y b2 =>
          cases y with
          | ok h => exact h2.trans (newBroker_ok_surplus net hnb)
          | error e => exact (h2.trans (newBroker_surplus net hnb)).weaken (Nat.zero_le _)

theorem makeLeader_surplus (servers topic : Bytes) (pid : Int32) (w : W) :
    Surplus (leaderGain (makeLeader net servers topic pid w).result) [] (makeLeader net servers topic pid w).log := by
  unfold makeLeader
  have hb := bootstrapLoop_surplus net (splitAt 44 servers) (splitAt 44 servers) w []
  cases hn : newBrokers net servers w with
  | mk r log =>
    unfold newBrokers at hn
    rw [hn] at hb
    cases r with
    | error e => exact hb.1
    | ok b => exact leaderOf_surplus net topic pid b (hb.2 b rfl)

/-! ## What is held -/

/-- how many objects the producer can close: that of the current partition producer and those of the leaders -/
def Holdings.known (p : Holdings W) : Nat :=
  (match p.current with | some (some _) => 1 | _ => 0) + p.leaders.length

/-- The count: objects made, less those closed, are at least those the producer can still close, one for itself and one for every partition producer. -/
def Holdings.Piled (p : Holdings W) : Prop := closeCount p.log + p.known + p.produced + 1 ≤ madeCount p.log

/-- Every object messages are sent by is closed, or is that of the current producer, or that of a leader. -/
def Holdings.Kept (p : Holdings W) : Prop :=
  ∀ h ∈ p.led, Done.closed h ∈ p.log ∨ p.current = some (some h) ∨ h ∈ p.leaders.map Prod.snd

theorem Surplus.count {k : Nat} {l l' : List Done} (h : Surplus k l l') :
    closeCount l' + madeCount l + k ≤ madeCount l' + closeCount l := by
  obtain ⟨d, rfl, h⟩ := h
  rw [madeCount_append, closeCount_append]; omega

theorem Surplus.sub {k : Nat} {l l' : List Done} (h : Surplus k l l') {d : Done} (hd : d ∈ l) : d ∈ l' := by
  obtain ⟨e, rfl, _⟩ := h
  exact List.mem_append_left _ hd

theorem AMap.set_new {α β : Type} [DecidableEq α] (m : AMap α β) (k : α) (v : β) (h : AMap.get m k = none) :
    AMap.set m k v = m ++ [(k, v)] := by
  induction m with
  | nil => rfl
  | cons e m ih =>
    obtain ⟨a, b⟩ := e
    rw [AMap.get_cons] at h
    by_cases hk : k = a
    · rw [if_pos hk] at h; cases h
    · rw [if_neg hk] at h
      rw [AMap.set, if_neg (Ne.symm hk), ih h]; rfl

theorem through_surplus {α : Type} {op : Brokers W → α × Brokers W} {p q : Holdings W} {a : α} {k : Nat}
    (hop : ∀ b b', op b = (a, b') → Surplus k b.log b'.log) (h : p.through op = (a, q)) :
    Surplus k p.log q.log ∧ q.current = p.current ∧ q.leaders = p.leaders ∧ q.led = p.led ∧ q.produced = p.produced := by
  unfold Holdings.through at h
  cases hb : op { p.own with world := p.world, log := p.log } with
  | mk a' b =>
    rw [hb] at h
    cases h
    exact ⟨hop _ _ hb, rfl, rfl, rfl, rfl⟩

/-- what only adds to the log, and closes no more than it makes, keeps both -/
theorem Holdings.same {p q : Holdings W} (h : Surplus 0 p.log q.log ∧ q.current = p.current ∧ q.leaders = p.leaders ∧ q.led = p.led ∧ q.produced = p.produced)
    (hp : p.Piled ∧ p.Kept) : q.Piled ∧ q.Kept := by
  obtain ⟨h1, h2, h3, h4, h5⟩ := h
  constructor
  · have := h1.count
    have h := hp.1
    unfold Holdings.Piled Holdings.known at *
    rw [h2, h3, h5]
    omega
  · intro x hx
    rw [h4] at hx
    rcases hp.2 x hx with h | h | h
    · exact .inl (h1.sub h)
    · exact .inr (.inl (by rw [h2]; exact h))
    · exact .inr (.inr (by rw [h3]; exact h))

theorem replace_holds {m : LeaderMade W} {p q : Holdings W} (hm : Surplus (leaderGain m.result) [] m.log)
    (hp : p.Piled ∧ p.Kept) (h : p.replace m = .ok q) : q.Piled ∧ q.Kept := by
  obtain ⟨r, w, l⟩ := m
  have hc := hm.count
  unfold Holdings.replace at h
  cases r with
  | panic => cases h
  | err e =>
    cases h
    refine Holdings.same (p := p) ⟨?_, rfl, rfl, rfl, rfl⟩ hp
    obtain ⟨d, hd, hk⟩ := hm
    exact ⟨l, rfl, by rw [show l = d from hd]; exact hk⟩
  | ok leader =>
    obtain ⟨h1, h2⟩ := hp
    dsimp only at h hc
    cases hcur : p.current with
    | none =>
      rw [hcur] at h
      cases h
      constructor
      · unfold Holdings.Piled Holdings.known at *
        dsimp only
        rw [madeCount_append, closeCount_append]
        rw [hcur] at h1
        have e1 : closeCount ([] : List Done) = 0 := rfl
        have e2 : madeCount ([] : List Done) = 0 := rfl
        cases leader <;> simp only [leaderGain] at hc ⊢ <;> dsimp only at h1 <;> omega
      · intro x hx
        dsimp only at hx ⊢
        rcases List.mem_append.1 hx with hx | hx
        · cases leader with
          | none => cases hx
          | some y =>
            cases hx with
            | head => exact .inr (.inl rfl)
            | tail _ hx => cases hx
        · rcases h2 x hx with h | h | h
          · exact .inl (List.mem_append_left _ h)
          · rw [hcur] at h; cases h
          · exact .inr (.inr h)
    | some old =>
      rw [hcur] at h
      cases old with
      | none => cases h
      | some o =>
        cases h
        constructor
        · unfold Holdings.Piled Holdings.known at *
          dsimp only
          rw [madeCount_append, closeCount_append, madeCount_append, closeCount_append]
          rw [hcur] at h1
          have e1 : closeCount ([] : List Done) = 0 := rfl
          have e2 : madeCount ([] : List Done) = 0 := rfl
          have e3 : closeCount [Done.closed o] = 1 := rfl
          have e4 : madeCount [Done.closed o] = 0 := rfl
          cases leader <;> simp only [leaderGain] at hc ⊢ <;> dsimp only at h1 <;> omega
        · intro x hx
          dsimp only at hx ⊢
          rcases List.mem_append.1 hx with hx | hx
          · cases leader with
            | none => cases hx
            | some y =>
              cases hx with
              | head => exact .inr (.inl rfl)
              | tail _ hx => cases hx
          · rcases h2 x hx with h | h | h
            · exact .inl (List.mem_append_left _ (List.mem_append_left _ h))
            · rw [hcur] at h
              cases h
              exact .inl (List.mem_append_right _ (List.mem_singleton.2 rfl))
            · exact .inr (.inr h)

theorem step_holds {servers topic : Bytes} {a : HoldAct} {p q : Holdings W} (hp : p.Piled ∧ p.Kept)
    (h : p.step net servers topic a = .ok q) : q.Piled ∧ q.Kept := by
  cases a with
  | refresh pick =>
    simp only [Holdings.step] at h
    unfold Holdings.refresh at h
    cases ht : p.through (requestMetaData net [topic]) with
    | mk r p1 =>
      have h1 := Holdings.same (through_surplus (k := 0) (fun b b' hb => by
        have := requestMetaData_surplus net [topic] b; rw [hb] at this; exact this) ht) hp
      rw [ht] at h
      obtain ⟨r, e⟩ := r
      cases e with
      | some e => cases h; exact h1
      | none =>
        dsimp only at h
        split at h
        · cases h; exact h1
        · cases h
        · split at h
          · exact replace_holds (makeLeader_surplus net _ _ _ _) h1 h
          · cases h
          · cases h
  | keyed leader =>
    simp only [Holdings.step] at h
    injection h with h
    subst h
    unfold Holdings.keyed
    cases hg : AMap.get p.leaders leader with
    | some v => exact hp
    | none =>
      dsimp only
      cases ht : p.through (newBroker net leader) with
      | mk r p1 =>
        cases r with
        | error e => exact Holdings.same (through_surplus (k := 0) (fun b b' hb => newBroker_surplus net hb) ht) hp
        | ok v =>
          obtain ⟨h1, h2, h3, h4, h5⟩ := through_surplus (k := 1) (fun b b' hb => newBroker_ok_surplus net hb) ht
          dsimp only
          constructor
          · have hc := h1.count
            have h := hp.1
            unfold Holdings.Piled Holdings.known at *
            dsimp only
            rw [h2, h3, h5, AMap.set_new _ _ _ hg, List.length_append]
            simp only [List.length_singleton]
            omega
          · intro x hx
            dsimp only at hx ⊢
            rw [h2, h3, AMap.set_new _ _ _ hg, List.map_append]
            cases hx with
            | head => exact .inr (.inr (List.mem_append_right _ (List.mem_singleton.2 rfl)))
            | tail _ hx =>
              rw [h4] at hx
              rcases hp.2 x hx with h | h | h
              · exact .inl (h1.sub h)
              · exact .inr (.inl h)
              · exact .inr (.inr (List.mem_append_left _ h))

theorem run_holds {servers topic : Bytes} (as : List HoldAct) {p q : Holdings W} (hp : p.Piled ∧ p.Kept)
    (h : p.run net servers topic as = .ok q) : q.Piled ∧ q.Kept := by
  induction as generalizing p with
  | nil => cases h; exact hp
  | cons a as ih =>
    unfold Holdings.run at h
    cases hs : p.step net servers topic a with
    | ok p1 => rw [hs] at h; exact ih (step_holds net hp hs) h
    | err e => rw [hs] at h; cases h
    | panic => rw [hs] at h; cases h

theorem new_holds {servers : Bytes} {w : W} {p : Holdings W} (h : Holdings.new net servers w = .ok p) : p.Piled ∧ p.Kept := by
  unfold Holdings.new at h
  have hb := bootstrapLoop_surplus net (splitAt 44 servers) (splitAt 44 servers) w []
  cases hn : newBrokers net servers w with
  | mk r log =>
    rw [hn] at h
    unfold newBrokers at hn
    rw [hn] at hb
    cases r with
    | error e => cases h
    | ok b =>
      cases h
      have := (hb.2 b rfl).count
      refine ⟨?_, fun x hx => by cases hx⟩
      unfold Holdings.Piled Holdings.known
      have e1 : closeCount ([] : List Done) = 0 := rfl
      have e2 : madeCount ([] : List Done) = 0 := rfl
      dsimp only [List.length_nil]
      omega

/-- **C162, the part that holds.** Whatever the cluster does and in whatever order the timer fires and keyed messages come: every connection made to send messages by is closed, or is
that of the current partition producer, or is that of a leader in the map — and after `Close` all of them are closed.  What is missing: the connections asked for metadata on the way
(`C162_violated`), and the timer that goes on after `Close` (C49). -/
theorem C162_leaders_partial (servers topic : Bytes) (w : W) (as : List HoldAct) (p q : Holdings W)
    (hn : Holdings.new net servers w = .ok p) (hr : p.run net servers topic as = .ok q) :
    (∀ h ∈ q.led, Done.closed h ∈ q.log ∨ q.current = some (some h) ∨ h ∈ q.leaders.map Prod.snd) ∧
    ∀ z, q.close = .ok z → ∀ h ∈ z.led, Done.closed h ∈ z.log := by
  have hk := (run_holds net as (new_holds net hn) hr).2
  refine ⟨hk, fun z hz h hh => ?_⟩
  have hrest : ∀ x ∈ q.leaders.map Prod.snd, Done.closed x ∈ q.leaders.map fun e => Done.closed e.2 := by
    intro x hx
    obtain ⟨e, he, rfl⟩ := List.mem_map.1 hx
    exact List.mem_map.2 ⟨e, he, rfl⟩
  unfold Holdings.close at hz
  cases hc : q.current with
  | none =>
    rw [hc] at hz
    cases hz
    rcases hk h hh with h | h | h
    · exact List.mem_append_left _ h
    · rw [hc] at h; cases h
    · exact List.mem_append_right _ (hrest _ h)
  | some leader =>
    rw [hc] at hz
    cases leader with
    | none => cases hz
    | some o =>
      cases hz
      rcases hk h hh with h | h | h
      · exact List.mem_append_left _ (List.mem_append_left _ h)
      · rw [hc] at h
        cases h
        exact List.mem_append_left _ (List.mem_append_right _ (List.mem_singleton.2 rfl))
      · exact List.mem_append_right _ (hrest _ h)

/-- C162 does not hold: whatever the cluster does and in whatever order the timer fires and keyed messages come, when the producer has been closed there remain at least as many
connections that were made and not closed as it had current partition producers, and one more. -/
theorem C162_violated (servers topic : Bytes) (w : W) (as : List HoldAct) (p q z : Holdings W)
    (hn : Holdings.new net servers w = .ok p) (hr : p.run net servers topic as = .ok q) (hz : q.close = .ok z) :
    closeCount z.log + z.produced + 1 ≤ madeCount z.log := by
  have hk := (run_holds net as (new_holds net hn) hr).1
  unfold Holdings.Piled Holdings.known at hk
  have e1 : ∀ l : AMap Int32 Nat, closeCount (l.map fun e => Done.closed e.2) = l.length ∧ madeCount (l.map fun e => Done.closed e.2) = 0 := by
    intro l
    induction l with
    | nil => exact ⟨rfl, rfl⟩
    | cons e l ih =>
      have ha : (Done.closed e.2 :: l.map fun e => Done.closed e.2) = [Done.closed e.2] ++ l.map fun e => Done.closed e.2 := rfl
      have e3 : closeCount [Done.closed e.2] = 1 := rfl
      have e4 : madeCount [Done.closed e.2] = 0 := rfl
      rw [List.map_cons, ha, closeCount_append, madeCount_append, List.length_cons]
      omega
  have e2 := e1 q.leaders
  unfold Holdings.close at hz
  cases hc : q.current with
  | none =>
    rw [hc] at hz hk
    cases hz
    dsimp only at hk ⊢
    rw [closeCount_append, madeCount_append]
    omega
  | some leader =>
    rw [hc] at hz hk
    cases leader with
    | none => cases hz
    | some o =>
      cases hz
      dsimp only at hk ⊢
      have e3 : closeCount [Done.closed o] = 1 := rfl
      have e4 : madeCount [Done.closed o] = 0 := rfl
      rw [closeCount_append, madeCount_append, closeCount_append, madeCount_append]
      omega

/-! ## The number has no bound -/

/-- the two nodes of `demoMeta` are known -/
def Holdings.KnowsDemo (p : Holdings Nat) : Prop := p.own.infos = infosOf demoMeta.brokers

theorem goodNet_metadata (ts : List Bytes) (b : Brokers Nat) (h : b.infos = infosOf demoMeta.brokers) :
    (requestMetaData goodNet ts b).1 = (demoMeta, none) ∧ (requestMetaData goodNet ts b).2.infos = infosOf demoMeta.brokers := by
  obtain ⟨boot, infos, cache, c, w, log⟩ := b
  dsimp only at h
  subst h
  cases hc : AMap.get cache 2 with
  | some v =>
    have : getBroker goodNet 2 ⟨boot, infosOf demoMeta.brokers, cache, c, w, log⟩ = (.ok v, ⟨boot, infosOf demoMeta.brokers, cache, c, w, log⟩) := by
      unfold getBroker; dsimp only; rw [hc]
    have e : requestMetaData goodNet ts ⟨boot, infosOf demoMeta.brokers, cache, c, w, log⟩
        = metadataLoop goodNet ts [demoInfo 2 98, demoInfo 1 97] ⟨boot, infosOf demoMeta.brokers, cache, c, w, log⟩ := rfl
    rw [e, metadataLoop, show (demoInfo 2 98).nodeID = 2 from rfl, this]
    exact ⟨rfl, rfl⟩
  | none =>
    have : getBroker goodNet 2 ⟨boot, infosOf demoMeta.brokers, cache, c, w, log⟩
        = (.ok (w, 2), ⟨boot, infosOf demoMeta.brokers, AMap.set cache 2 (w, 2), c, w + 1, log ++ [.connected [98, 58, 49] 2 w]⟩) := by
      unfold getBroker; dsimp only; rw [hc]; rfl
    have e : requestMetaData goodNet ts ⟨boot, infosOf demoMeta.brokers, cache, c, w, log⟩
        = metadataLoop goodNet ts [demoInfo 2 98, demoInfo 1 97] ⟨boot, infosOf demoMeta.brokers, cache, c, w, log⟩ := rfl
    rw [e, metadataLoop, show (demoInfo 2 98).nodeID = 2 from rfl, this]
    exact ⟨rfl, rfl⟩

theorem goodNet_leader (w : Nat) : (makeLeader goodNet [97, 58, 49] [116] 0 w).result = .ok (some (w + 4)) := rfl

theorem goodNet_refresh (p : Holdings Nat) (h : p.KnowsDemo) (hc : p.current ≠ some none) :
    ∃ q, p.refresh goodNet [97, 58, 49] [116] 0 = .ok q ∧ q.KnowsDemo ∧ q.current ≠ some none ∧ q.produced = p.produced + 1 := by
  have hm := goodNet_metadata [[116]] { p.own with world := p.world, log := p.log } h
  unfold Holdings.refresh Holdings.through
  cases hb : requestMetaData goodNet [[116]] { p.own with world := p.world, log := p.log } with
  | mk r b =>
    rw [hb] at hm
    obtain ⟨h1, h2⟩ := hm
    dsimp only at h1 h2
    subst h1
    dsimp only
    have e1 : demoMeta.error = none := rfl
    have e2 : demoMeta.topics = [⟨0, [116], false, [demoPart 0 2, demoPart 1 1, demoPart 2 2]⟩] := rfl
    have e3 : pickPartition 0 [demoPart 0 2, demoPart 1 1, demoPart 2 2] = .ok 0 := rfl
    rw [e1, e2]
    dsimp only
    rw [e3]
    dsimp only
    unfold Holdings.replace
    rw [goodNet_leader]
    dsimp only
    cases hcur : p.current with
    | none => exact ⟨_, rfl, h2, (fun h => by cases h), rfl⟩
    | some o =>
      cases o with
      | none => exact absurd hcur hc
      | some o => exact ⟨_, rfl, h2, (fun h => by cases h), rfl⟩

theorem goodNet_run (n : Nat) (p : Holdings Nat) (h : p.KnowsDemo) (hc : p.current ≠ some none) :
    ∃ q, p.run goodNet [97, 58, 49] [116] (List.replicate n (.refresh 0)) = .ok q ∧ q.current ≠ some none ∧ q.produced = p.produced + n := by
  induction n generalizing p with
  | zero => exact ⟨p, rfl, hc, rfl⟩
  | succ n ih =>
    obtain ⟨q, h1, h2, h3, h4⟩ := goodNet_refresh p h hc
    obtain ⟨z, h5, h6, h7⟩ := ih q h2 h3
    refine ⟨z, ?_, h6, by omega⟩
    rw [List.replicate_succ, Holdings.run]
    simp only [Holdings.step]
    rw [h1]
    exact h5

/-- C162 does not hold, without bound: however large `n` is, a producer of a cluster where every request is answered leaves more than `n` connections open when it is closed after the
timer has fired `n` times. -/
theorem C162_violated_unbounded (n : Nat) : ∃ p q z : Holdings Nat, Holdings.new goodNet [97, 58, 49] 0 = .ok p ∧
    p.run goodNet [97, 58, 49] [116] (List.replicate n (.refresh 0)) = .ok q ∧ q.close = .ok z ∧
    closeCount z.log + n < madeCount z.log := by
  obtain ⟨q, h1, h2, h3⟩ := goodNet_run n ⟨{ demoBrokers goodNet with world := 2, log := [.connected [97, 58, 49] (-1) 0, .metadata 0 [] (demoMeta, none)] }, none, [],
    2, [.connected [97, 58, 49] (-1) 0, .metadata 0 [] (demoMeta, none)], [], 0⟩ rfl (fun h => by cases h)
  have hz : ∃ z, q.close = .ok z ∧ z.produced = q.produced := by
    unfold Holdings.close
    cases hc : q.current with
    | none => exact ⟨_, rfl, rfl⟩
    | some o =>
      cases o with
      | none => exact absurd hc h2
      | some o => exact ⟨_, rfl, rfl⟩
  obtain ⟨z, hz, hp⟩ := hz
  refine ⟨_, q, z, rfl, h1, hz, ?_⟩
  have := C162_violated goodNet [97, 58, 49] [116] 0 _ _ q z rfl h1 hz
  dsimp only at h3
  omega

/-- Two timers and a keyed message: two connections to leaders for the current producer, one for the key; after `Close` those three are closed and six others are not. -/
example : ∃ p q z : Holdings Nat, Holdings.new goodNet [97, 58, 49] 0 = .ok p ∧
    p.run goodNet [97, 58, 49] [116] [.refresh 0, .keyed 1, .refresh 1] = .ok q ∧ q.close = .ok z ∧
    q.led.length = 3 ∧ q.leaders.length = 1 ∧ closeCount z.log = 3 ∧ madeCount z.log = 9 := by
  refine ⟨_, _, _, rfl, rfl, rfl, ?_, ?_, ?_, ?_⟩ <;> rfl

end Healer
