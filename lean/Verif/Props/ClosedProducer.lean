import Verif.Props.Producer2

/-!
# C48, C49: every closed producer of a topic
-/

namespace Healer

theorem closeLine_closed (ls : List Line) (i j : Nat) (l : Line) (h : (closeLine ls j)[i]? = some l) (hc : i = j ∨ ∀ l', ls[i]? = some l' → l'.closed = true) : l.closed = true := by
  unfold closeLine at h
  rw [List.getElem?_modify] at h
  cases hl : ls[i]? with
  | none => rw [hl] at h; cases h
  | some l' =>
    rw [hl] at h
    simp only [Option.map_eq_map, Option.map_some, Option.some.injEq] at h
    subst h
    split
    · rfl
    · rcases hc with hc | hc
      · exact absurd hc.symm (by assumption)
      · exact hc l' hl

theorem foldl_closeLine_closed (js : List Nat) (ls : List Line) (i : Nat) (l : Line) (h : (js.foldl closeLine ls)[i]? = some l)
    (hc : i ∈ js ∨ ∀ l', ls[i]? = some l' → l'.closed = true) : l.closed = true := by
  induction js generalizing ls with
  | nil =>
    rcases hc with hc | hc
    · cases hc
    · exact hc l h
  | cons j js ih =>
    refine ih (closeLine ls j) h ?_
    rcases hc with hc | hc
    · rcases List.mem_cons.1 hc with rfl | hc
      · exact .inr fun l' hl' => closeLine_closed ls _ _ l' hl' (.inl rfl)
      · exact .inl hc
    · exact .inr fun l' hl' => closeLine_closed ls _ _ l' hl' (.inr hc)

theorem foldl_closeLine_length (js : List Nat) (ls : List Line) : (js.foldl closeLine ls).length = ls.length := by
  induction js generalizing ls with
  | nil => rfl
  | cons j js ih => rw [List.foldl_cons, ih]; simp [closeLine]

theorem close_lines (p : Producer) : p.close.lines.length = p.lines.length := by
  unfold Producer.close
  simp only [foldl_closeLine_length]
  cases p.current <;> simp [closeLine]

theorem close_closed (p : Producer) (i : Nat) (hi : p.current = some i ∨ i ∈ p.keyed.map Prod.snd) (l : Line) (h : p.close.lines[i]? = some l) : l.closed = true := by
  unfold Producer.close at h
  refine foldl_closeLine_closed _ _ i l h ?_
  rcases hi with hi | hi
  · rw [hi]
    exact .inr fun l' hl' => closeLine_closed _ _ _ l' hl' (.inl rfl)
  · exact .inl hi

theorem amap_get_snd {α β : Type} [DecidableEq α] (m : AMap α β) (k : α) (v : β) (h : AMap.get m k = some v) : v ∈ m.map Prod.snd := by
  induction m with
  | nil => cases h
  | cons e m ih =>
    obtain ⟨a, b⟩ := e
    unfold AMap.get at h ih
    rw [List.lookup_cons] at h
    split at h
    · cases h; exact List.mem_cons_self
    · exact List.mem_cons_of_mem _ (ih h)

/-- **C48 is violated by every closed producer of a topic** for messages without a key, and for keys whose partition was used before: `AddMessage` returns no error, and the message goes nowhere. -/
theorem C48_violated_every_closed_producer (hash : Bytes → UInt32) (p : Producer) (key : Option Bytes) (connected : Option Err) (i : Nat) (hi : i < p.lines.length)
    (h : (key = none ∧ p.current = some i) ∨ ∃ k pid, key = some k ∧ partitionOf hash k p.partitions = .ok pid ∧ AMap.get p.keyed pid = some i) :
    p.close.addMessage hash key connected 3 = .ok (none, { p.close with log := p.close.log ++ [.added key none none] }) := by
  have hg : p.close.getLine hash key connected = .ok (.ok i, p.close) := by
    unfold Producer.getLine
    rcases h with ⟨rfl, h⟩ | ⟨k, pid, rfl, h1, h2⟩
    · have : p.close.current = some i := h
      simp only [this]
    · have h1 : partitionOf hash k p.close.partitions = .ok pid := h1
      have h2 : AMap.get p.close.keyed pid = some i := h2
      simp only [h1, h2]
  have hm : p.current = some i ∨ i ∈ p.keyed.map Prod.snd := by
    rcases h with ⟨-, h⟩ | ⟨k, pid, -, -, h2⟩
    · exact .inl h
    · exact .inr (amap_get_snd _ _ _ h2)
  obtain ⟨l, hl⟩ : ∃ l, p.close.lines[i]? = some l := ⟨_, List.getElem?_eq_getElem (by rw [close_lines]; exact hi)⟩
  have hc := close_closed p i hm l hl
  simp only [Producer.addMessage, hg, hl, hc, if_true]

example : ({ partitions := two, current := some 0, lines := [⟨0, some 1, false⟩] } : Producer).close.addMessage firstByte none none 3 =
    .ok (none, { partitions := two, current := some 0, lines := [⟨0, some 1, true⟩], log := [.closed, .added none none none] }) :=
  C48_violated_every_closed_producer firstByte { partitions := two, current := some 0, lines := [⟨0, some 1, false⟩] } none none 0 (by decide) (.inl ⟨rfl, rfl⟩)

theorem replaced_add (hash : Bytes → UInt32) (pid : Int32) (leader : Option Int32) (r q : Producer) (c : Option Err) (h : replaceCurrent pid (.ok leader) r = (none, q)) :
    q.addMessage hash none c 3 = .ok (none, { q with log := q.log ++ [.added none (some (pid, leader)) none] }) := by
  have h1 : q.current = some r.lines.length := by
    unfold replaceCurrent at h
    simp only [Prod.mk.injEq, true_and] at h
    rw [← h]
  have h2 : q.lines[r.lines.length]? = some ⟨pid, leader, false⟩ := by
    unfold replaceCurrent at h
    simp only [Prod.mk.injEq, true_and] at h
    rw [← h]
    cases r.current <;> simp [closeLine]
  simp only [Producer.addMessage, Producer.getLine, h1, h2]
  rfl

/-- **C49 is violated by every closed producer of a topic**: once the timer, which goes on, has made a current producer again, a message without a key is accepted and will be sent. -/
theorem C49_violated_every_revival (hash : Bytes → UInt32) (p q : Producer) (answer : Except Err MetadataResponse) (pick : Nat) (found : Except Err Int32) (connected c : Option Err)
    (hu : p.close.update answer pick found connected = .ok (none, q)) :
    ∃ pid node, q.addMessage hash none c 3 = .ok (none, { q with log := q.log ++ [.added none (some (pid, node)) none] }) := by
  unfold Producer.update at hu
  cases answer with
  | error e => cases hu
  | ok r =>
    cases he : r.error with
    | some e => simp only [he] at hu; cases hu
    | none =>
      cases ht : r.topics with
      | nil => simp only [he, ht] at hu; cases hu
      | cons t ts =>
        simp only [he, ht] at hu
        cases hp : pickPartition pick t.partitions with
        | err e => simp only [hp] at hu; cases hu
        | panic => simp only [hp] at hu; cases hu
        | ok pid =>
          simp only [hp] at hu
          cases hl : createLeader found connected with
          | error e => rw [hl] at hu; cases hu
          | ok leader =>
            rw [hl] at hu
            exact ⟨pid, leader, replaced_add hash pid leader _ q c (by simpa using hu)⟩

/-- The timer's refresh after `Close`, for a cluster that answers: it succeeds for every producer, so the hypothesis of `C49_violated_every_revival` is met by every one. -/
example (p : Producer) : ∃ q, p.close.update (.ok (metaOf two)) 0 (.ok 1) none = .ok (none, q) := ⟨_, rfl⟩

/-- **C49 is violated by every closed producer of a topic** for every key whose partition was not used before `Close`: if its leader is known and can be connected to, or was, the message is accepted. -/
theorem C49_violated_every_other_key (hash : Bytes → UInt32) (p : Producer) (k : Bytes) (pid leader : Int32) (hk : partitionOf hash k p.partitions = .ok pid)
    (hn : AMap.get p.keyed pid = none) (hl : getLeaderID pid p.partitions = .ok leader) :
    ∃ node q log, p.close.addMessage hash (some k) none 3 = .ok (none, q) ∧ q.log = p.log ++ Routed.closed :: (log ++ [.added (some k) (some (pid, some node)) none]) := by
  have hk : partitionOf hash k p.close.partitions = .ok pid := hk
  have hn : AMap.get p.close.keyed pid = none := hn
  have hl : getLeaderID pid p.close.partitions = .ok leader := hl
  have hlog : p.close.log = p.log ++ [.closed] := rfl
  generalize p.close = r at hk hn hl hlog
  simp only [Producer.addMessage, Producer.getLine, hk, hn, Producer.newLine, hl]
  cases hc : AMap.get r.leaders leader with
  | some node =>
    simp only [Producer.openLine, List.getElem?_concat_length, Bool.false_eq_true, if_false]
    exact ⟨node, _, [.opened pid node], rfl, by simp [hlog]⟩
  | none =>
    simp only [Producer.openLine, List.getElem?_concat_length, Bool.false_eq_true, if_false]
    exact ⟨leader, _, [.connected leader, .opened pid leader], rfl, by simp [hlog]⟩

example : partitionOf firstByte [3] two = .ok 1 ∧ getLeaderID 1 two = .ok 2 ∧ AMap.get ([] : List (Int32 × Nat)) 1 = none := by decide

end Healer
