import Verif.Spec.Serve
import Verif.Props.Exact
import Verif.Props.Always2
import Verif.Props.Lost

/-!
# C174: a consumer gets to every message
-/

namespace Healer

/-! ## Specification -/

/-- What is handed on from an answer with the batches `bs` to a fetch at offset `o`: nothing if there is no batch, an error if
there is no message from `o` on, and otherwise these messages. -/
def Handed (topic : Bytes) (pid : Int) (o : Int) (bs : List Kafka.LogBatch) (ms : List FullMessage) : Prop :=
  if bs = [] then ms = []
  else if fromOffset (bs.flatMap (·.messages)) o = [] then ms = [⟨[], -1, some .maxBytesTooSmall, none⟩]
  else ms.map FullMessage.seen = (fromOffset (bs.flatMap (·.messages)) o).map fun m => some ⟨topic, pid, m⟩

/-- A stored batch, as it counts for what a broker returns. -/
def asLogBatch (x : Kafka.Packed) (last : Int) : Kafka.LogBatch := ⟨last, (Kafka.packed x).length, Kafka.stored x.batch⟩

/-- One round of the loop: a fetch is answered, and the first thing handed on is dealt with. -/
def fetchRound (ms : List FullMessage) (answer : Except Err Int64) : List ConsumerAct := [.fetched ms, .next answer]

/-! ## Lemmas -/

theorem fitting_prefix (bs : List Kafka.LogBatch) (room : Int) : Kafka.fitting room bs <+: bs := by
  induction bs generalizing room with
  | nil => exact List.nil_prefix
  | cons b bs ih =>
    unfold Kafka.fitting
    split
    · exact (List.cons_prefix_cons).2 ⟨rfl, ih _⟩
    · exact List.nil_prefix

theorem fromOffset_append (a b : List Kafka.Stored) (o : Int) : fromOffset (a ++ b) o = fromOffset a o ++ fromOffset b o := by
  unfold fromOffset; rw [List.filter_append]

/-- The batches left out at the beginning have nothing that is wanted. -/
theorem fromOffset_dropWhile (log : List Kafka.LogBatch) (o : Int) (h : ∀ b ∈ log, ∀ m ∈ b.messages, m.offset ≤ b.last) :
    fromOffset (log.flatMap (·.messages)) o = fromOffset ((log.dropWhile fun b => decide (b.last < o)).flatMap (·.messages)) o := by
  induction log with
  | nil => rfl
  | cons b log ih =>
    rw [List.dropWhile_cons]
    split
    · rename_i hb
      rw [← ih fun c hc => h c (List.mem_cons_of_mem _ hc), List.flatMap_cons, fromOffset_append]
      have : fromOffset b.messages o = [] := by
        unfold fromOffset
        rw [List.filter_eq_nil_iff]
        intro m hm
        have := h b List.mem_cons_self m hm
        simp only [decide_eq_true_eq] at hb
        simp; omega
      rw [this, List.nil_append]
    · rfl

theorem serve_prefix (log : List Kafka.LogBatch) (o n : Int) (h : ∀ b ∈ log, ∀ m ∈ b.messages, m.offset ≤ b.last) :
    fromOffset ((Kafka.serve log o n).flatMap (·.messages)) o <+: fromOffset (log.flatMap (·.messages)) o := by
  rw [fromOffset_dropWhile log o h]
  unfold Kafka.serve
  split
  · rename_i hd; rw [hd]; exact List.prefix_rfl
  · rename_i b bs hd
    rw [hd]
    obtain ⟨r, hr⟩ := fitting_prefix bs (n - b.size)
    refine ⟨fromOffset (r.flatMap (·.messages)) o, ?_⟩
    rw [← fromOffset_append, ← List.flatMap_append, List.cons_append, hr]

theorem round_small (env : ConsumerEnv) (answer : Except Err Int64) (s : SC) (ht : s.loop = .top) (hs : s.stop = false) :
    SC.run env (fetchRound [⟨[], -1, some .maxBytesTooSmall, none⟩] answer) s =
      some { s with fetchMaxBytes := s.fetchMaxBytes * 2, log := s.log ++ [.fetch s.offset s.fetchMaxBytes] } := by
  obtain ⟨stop, cancelled, offset, oc, fb, fm, loop, commits, queue, mid, gid, log⟩ := s
  simp only at ht hs
  subst ht hs
  have h1 : Err.maxBytesTooSmall.is (.kafka 1) = false := rfl
  have h6 : Err.maxBytesTooSmall.is (.kafka 6) = false := rfl
  simp [fetchRound, SC.run, SC.step, nextMessage, onError, h1, h6, growFetch]

theorem Handed.first {topic : Bytes} {pid o : Int} {bs : List Kafka.LogBatch} {ms : List FullMessage} {r : Kafka.Stored} {rest : List Kafka.Stored}
    (h : Handed topic pid o bs ms) (hw : fromOffset (bs.flatMap (·.messages)) o = r :: rest) :
    ∃ x ms' m, ms = x :: ms' ∧ x.error = none ∧ x.message = some m ∧ m.seen = r := by
  unfold Handed at h
  have hb : bs ≠ [] := by rintro rfl; cases hw
  rw [if_neg hb, if_neg (by rw [hw]; simp), hw] at h
  cases ms with
  | nil => cases h
  | cons x ms =>
    simp only [List.map_cons, List.cons.injEq] at h
    have hx := h.1
    unfold FullMessage.seen at hx
    cases he : x.error with
    | some e => rw [he] at hx; cases hx
    | none =>
      rw [he] at hx
      cases hm : x.message with
      | none => rw [hm] at hx; cases hx
      | some m =>
        rw [hm] at hx
        simp only [Option.isSome_none, Bool.false_eq_true, if_false, Option.map_some, Option.some.injEq, Kafka.Delivered.mk.injEq] at hx
        exact ⟨x, ms, m, rfl, he, hm, hx.2.2⟩

theorem round_first (env : ConsumerEnv) (answer : Except Err Int64) (s : SC) (x : FullMessage) (ms : List FullMessage) (m : Message)
    (ht : s.loop = .top) (hs : s.stop = false) (hroom : env.capacity = 0 ∨ s.queue.length < env.capacity)
    (he : x.error = none) (hm : x.message = some m) :
    ∃ t, SC.run env (fetchRound (x :: ms) answer) s = some t ∧ t.log = s.log ++ [.fetch s.offset s.fetchMaxBytes] ++ putSeen env m := by
  obtain ⟨stop, cancelled, offset, oc, fb, fm, loop, commits, queue, mid, gid, log⟩ := s
  simp only at ht hs hroom
  subst ht hs
  by_cases hc : env.capacity = 0
  · simp [fetchRound, SC.run, SC.step, nextMessage, he, hm, hc]
  · have hq : queue.length < env.capacity := by rcases hroom with h | h; exact absurd h hc; exact h
    simp [fetchRound, SC.run, SC.step, nextMessage, he, hm, hc, hq]

/-! ## The property -/

/-- What the decoder makes of complete batches in an answer is what `Handed` says.  (Part of the claim: what is missing
are answers that end within a batch.) -/
theorem C174_answers_partial (env : FetchEnv) (hacc : ∀ n, env.accept n = true) (unpack : Nat → Bytes → Option Bytes)
    (xs : List (Kafka.Packed × Int)) (hx : ∀ x ∈ xs, LogFits env unpack x.1) (h : Kafka.FetchHeader) (topic : Bytes) (p : Kafka.FetchPartition)
    (hdata : p.data = (xs.map Prod.fst).flatMap Kafka.packed) (hne : p.data ≠ []) (rest : Bytes) (s : SD) (hs : s.delivered = [])
    (w : OnWire env h topic p rest s) :
    ∃ s', streamDecode env s = .ok () s' ∧
      Handed topic p.partition env.startOffset.toInt (xs.map fun x => asLogBatch x.1 x.2) s'.delivered := by
  obtain ⟨s', ms, h1, h2, -, -, h3⟩ := C15_fetch_delivery_partial env hacc unpack (xs.map Prod.fst)
    (fun x hm => by obtain ⟨y, hy, rfl⟩ := List.mem_map.1 hm; exact hx y hy) h topic p hdata hne rest s w
  refine ⟨s', h1, ?_⟩
  rw [h2, hs, List.nil_append]
  have hxs : xs.map (fun x => asLogBatch x.1 x.2) ≠ [] := by
    intro hn
    rw [List.map_eq_nil_iff] at hn
    subst hn
    exact hne hdata
  have hmsgs : (xs.map fun x => asLogBatch x.1 x.2).flatMap (·.messages) = (xs.map Prod.fst).flatMap fun x => Kafka.stored x.batch := by
    rw [List.flatMap_map, List.flatMap_map]
    rfl
  unfold Handed
  rw [if_neg hxs, hmsgs]
  unfold expected at h3
  by_cases hw : fromOffset ((xs.map Prod.fst).flatMap fun x => Kafka.stored x.batch) env.startOffset.toInt = []
  · rw [if_pos hw]
    unfold fromOffset at hw
    simpa [hw] using h3
  · rw [if_neg hw]
    unfold fromOffset at hw ⊢
    rw [if_neg (by simpa using hw)] at h3
    simpa [Function.comp_def] using h3

/-- The answer to a fetch with something wanted hands over the first of it. -/
theorem round_wanted (env : ConsumerEnv) (topic : Bytes) (pid : Int) (log : List Kafka.LogBatch) (hlog : Kafka.ProperLog log)
    (answer : Except Err Int64) (s : SC) (ht : s.loop = .top) (hs : s.stop = false)
    (hroom : env.capacity = 0 ∨ s.queue.length < env.capacity) (n : Int)
    (hw : fromOffset ((Kafka.serve log s.offset.toInt n).flatMap (·.messages)) s.offset.toInt ≠ []) (ms : List FullMessage)
    (hms : Handed topic pid s.offset.toInt (Kafka.serve log s.offset.toInt n) ms) :
    ∃ t m rest, SC.run env (fetchRound ms answer) s = some t ∧
      (∃ pre, t.log = pre ++ putSeen env m ∧ putIn pre = putIn s.log) ∧
      fromOffset (log.flatMap (·.messages)) s.offset.toInt = m.seen :: rest := by
  obtain ⟨r, rest, hr⟩ := List.exists_cons_of_ne_nil hw
  obtain ⟨x, ms', m, rfl, he, hm, rfl⟩ := hms.first hr
  obtain ⟨t, h1, h2⟩ := round_first env answer s x ms' m ht hs hroom he hm
  obtain ⟨more, hmore⟩ := serve_prefix log s.offset.toInt n hlog.inside
  refine ⟨t, m, rest ++ more, h1, ⟨_, h2, by simp [putIn_append, putIn]⟩, ?_⟩
  rw [← hmore, hr, List.cons_append]

theorem serve_nil (log : List Kafka.LogBatch) (o n n' : Int) (h : Kafka.serve log o n = []) : Kafka.serve log o n' = [] := by
  unfold Kafka.serve at h ⊢
  split at h
  · rfl
  · cases h

theorem double_toInt (n : Int32) (h0 : 0 < n.toInt) (h : n.toInt * 2 < 2 ^ 31) : (n * 2).toInt = n.toInt * 2 := by
  rw [Int32.toInt_mul, show (2 : Int32).toInt = 2 from rfl, Int.bmod_def]
  split <;> omega

/-- As long as a size that can be reached by doubling is enough for an answer with a message the consumer has not had, it gets
there: in at most `k` rounds, in which the size is doubled, and hands over the first message from its position on.  The
answers are those of a broker that holds the log.  (Part of the claim; what is missing are logs that end in offsets without
messages.) -/
theorem C174_progress_partial (env : ConsumerEnv) (topic : Bytes) (pid : Int) (log : List Kafka.LogBatch) (hlog : Kafka.ProperLog log)
    (answer : Except Err Int64) (k : Nat) (s : SC) (ht : s.loop = .top) (hs : s.stop = false)
    (hroom : env.capacity = 0 ∨ s.queue.length < env.capacity) (hn : 0 < s.fetchMaxBytes.toInt)
    (hfits : s.fetchMaxBytes.toInt * 2 ^ k < 2 ^ 31)
    (henough : fromOffset ((Kafka.serve log s.offset.toInt (s.fetchMaxBytes.toInt * 2 ^ k)).flatMap (·.messages)) s.offset.toInt ≠ [])
    (answers : Nat → List FullMessage)
    (hans : ∀ j, j ≤ k → Handed topic pid s.offset.toInt (Kafka.serve log s.offset.toInt (s.fetchMaxBytes.toInt * 2 ^ j)) (answers j)) :
    ∃ j t m rest, j ≤ k ∧
      SC.run env ((List.range (j + 1)).flatMap fun i => fetchRound (answers i) answer) s = some t ∧
      (∃ pre, t.log = pre ++ putSeen env m ∧ putIn pre = putIn s.log) ∧
      fromOffset (log.flatMap (·.messages)) s.offset.toInt = m.seen :: rest := by
  induction k generalizing s answers with
  | zero =>
    obtain ⟨t, m, rest, h1, h2, h3⟩ := round_wanted env topic pid log hlog answer s ht hs hroom _ henough (answers 0) (hans 0 (Nat.le_refl _))
    exact ⟨0, t, m, rest, Nat.le_refl _, by simpa using h1, h2, h3⟩
  | succ k ih =>
    have h0 := hans 0 (Nat.zero_le _)
    by_cases hw : fromOffset ((Kafka.serve log s.offset.toInt (s.fetchMaxBytes.toInt * 2 ^ 0)).flatMap (·.messages)) s.offset.toInt = []
    · have hb : Kafka.serve log s.offset.toInt (s.fetchMaxBytes.toInt * 2 ^ 0) ≠ [] := fun hn =>
        henough (by rw [serve_nil _ _ _ _ hn]; rfl)
      unfold Handed at h0
      rw [if_neg hb, if_pos hw] at h0
      have hp : (1 : Int) ≤ 2 ^ k := by
        have := Nat.one_le_two_pow (n := k)
        exact_mod_cast this
      have hd : s.fetchMaxBytes.toInt * 2 * 2 ^ k < 2 ^ 31 := by
        rw [Int.pow_succ] at hfits
        rw [Int.mul_assoc, Int.mul_comm 2]
        exact hfits
      have hd' : s.fetchMaxBytes.toInt * 2 < 2 ^ 31 := by
        have := Int.mul_le_mul_of_nonneg_left hp (show (0 : Int) ≤ s.fetchMaxBytes.toInt * 2 by omega)
        omega
      have h2 := double_toInt s.fetchMaxBytes hn hd'
      have hpow : ∀ i : Nat, (s.fetchMaxBytes * 2).toInt * 2 ^ i = s.fetchMaxBytes.toInt * 2 ^ (i + 1) := by
        intro i
        rw [h2, Int.pow_succ, Int.mul_assoc, Int.mul_comm 2]
      obtain ⟨j, t, m, rest, hj, h3, ⟨pre, h4, h5⟩, h6⟩ := ih
        { s with fetchMaxBytes := s.fetchMaxBytes * 2, log := s.log ++ [.fetch s.offset s.fetchMaxBytes] } ht hs hroom
        (by show 0 < (s.fetchMaxBytes * 2).toInt; omega)
        (by show (s.fetchMaxBytes * 2).toInt * 2 ^ k < 2 ^ 31; rw [h2]; exact hd)
        (by show fromOffset ((Kafka.serve log s.offset.toInt ((s.fetchMaxBytes * 2).toInt * 2 ^ k)).flatMap (·.messages)) s.offset.toInt ≠ []
            rw [hpow]; exact henough)
        (fun i => answers (i + 1))
        (fun i hi => by
          show Handed topic pid s.offset.toInt (Kafka.serve log s.offset.toInt ((s.fetchMaxBytes * 2).toInt * 2 ^ i)) (answers (i + 1))
          rw [hpow]; exact hans (i + 1) (by omega))
      refine ⟨j + 1, t, m, rest, by omega, ?_, ⟨pre, h4, by rw [h5]; simp [putIn_append, putIn]⟩, h6⟩
      rw [List.range_succ_eq_map, List.flatMap_cons, SC.run_append, h0, round_small env answer s ht hs, List.flatMap_map]
      exact h3
    · obtain ⟨t, m, rest, h1, h2, h3⟩ := round_wanted env topic pid log hlog answer s ht hs hroom _ hw (answers 0) h0
      exact ⟨0, t, m, rest, Nat.zero_le _, by simpa using h1, h2, h3⟩

/-- Rounds in which a consumer is answered from logs one after the other. -/
def roundsOf (answers : List (List FullMessage)) (answer : Except Err Int64) : List ConsumerAct :=
  answers.flatMap fun ms => fetchRound ms answer

theorem rounds_small (env : ConsumerEnv) (answer : Except Err Int64) (k : Nat) (s : SC) (ht : s.loop = .top) (hs : s.stop = false) :
    ∃ t, SC.run env (roundsOf (List.replicate k [⟨[], -1, some .maxBytesTooSmall, none⟩]) answer) s = some t ∧
      t.loop = .top ∧ t.stop = false ∧ t.offset = s.offset ∧ t.queue = s.queue ∧ putIn t.log = putIn s.log ∧
      t.fetchMaxBytes = s.fetchMaxBytes * Int32.ofInt (2 ^ k) := by
  induction k generalizing s with
  | zero => exact ⟨s, rfl, ht, hs, rfl, rfl, rfl, by simp⟩
  | succ k ih =>
    obtain ⟨t, h1, h2, h3, h4, h5, h6, h7⟩ := ih
      { s with fetchMaxBytes := s.fetchMaxBytes * 2, log := s.log ++ [.fetch s.offset s.fetchMaxBytes] } ht hs
    refine ⟨t, ?_, h2, h3, h4, h5, by rw [h6]; simp [putIn_append, putIn], ?_⟩
    · rw [List.replicate_succ, roundsOf, List.flatMap_cons, SC.run_append, round_small env answer s ht hs]
      exact h1
    · rw [h7, Int.pow_succ, Int32.ofInt_mul, Int32.mul_comm (Int32.ofInt (2 ^ k)), ← Int32.mul_assoc]
      rfl

theorem serve_gap (pre : List Kafka.LogBatch) (g : Kafka.LogBatch) (more : List Kafka.LogBatch) (o n : Int)
    (hpre : ∀ b ∈ pre, b.last < o) (hg : o ≤ g.last) :
    Kafka.serve (pre ++ g :: more) o n = g :: Kafka.fitting (n - g.size) more := by
  unfold Kafka.serve
  rw [List.dropWhile_append_of_pos (by simpa using hpre), List.dropWhile_cons_of_neg (by simp; omega)]

theorem handed_gap {topic : Bytes} {pid o : Int} {g : Kafka.LogBatch} {ms : List FullMessage}
    (hm : ∀ m ∈ g.messages, m.offset < o) (h : Handed topic pid o [g] ms) : ms = [⟨[], -1, some .maxBytesTooSmall, none⟩] := by
  unfold Handed at h
  rw [if_neg (by simp), if_pos] at h
  · exact h
  · unfold fromOffset
    rw [List.filter_eq_nil_iff]
    intro m hx
    have := hm m (by simpa using hx)
    simp; omega

/-- For every log which ends in a batch whose messages all lie before the position, though its offsets do not, and for every
size to begin with: 32 fetches answered from this log leave the size zero.  From then on the consumer gets nothing, whatever
is appended to the log and however often it fetches: its position stays, and so does the size.  A size of zero is answered
with the first batch alone. -/
theorem C174_violated_every_gap (env : ConsumerEnv) (topic : Bytes) (pid : Int) (pre : List Kafka.LogBatch) (g : Kafka.LogBatch)
    (answer : Except Err Int64) (s : SC) (ht : s.loop = .top) (hs : s.stop = false)
    (hpre : ∀ b ∈ pre, b.last < s.offset.toInt) (hg : s.offset.toInt ≤ g.last) (hm : ∀ m ∈ g.messages, m.offset < s.offset.toInt)
    (more : List Kafka.LogBatch) (hmore : Kafka.ProperLog more)
    (first later : List (List FullMessage)) (hlen : first.length = 32)
    (hfirst : ∀ ms ∈ first, ∃ n, Handed topic pid s.offset.toInt (Kafka.serve (pre ++ [g]) s.offset.toInt n) ms)
    (hlater : ∀ ms ∈ later, ∃ k, Handed topic pid s.offset.toInt (Kafka.serve (pre ++ g :: more.take k) s.offset.toInt 0) ms) :
    ∃ t, SC.run env (roundsOf (first ++ later) answer) s = some t ∧
      t.loop = .top ∧ t.offset = s.offset ∧ t.fetchMaxBytes = 0 ∧ t.queue = s.queue ∧ putIn t.log = putIn s.log := by
  have e1 : first = List.replicate 32 [⟨[], -1, some .maxBytesTooSmall, none⟩] := by
    rw [List.eq_replicate_iff]
    refine ⟨hlen, fun ms hms => ?_⟩
    obtain ⟨n, hn⟩ := hfirst ms hms
    rw [serve_gap pre g [] _ n hpre hg] at hn
    exact handed_gap hm hn
  have e2 : later = List.replicate later.length [⟨[], -1, some .maxBytesTooSmall, none⟩] := by
    rw [List.eq_replicate_iff]
    refine ⟨rfl, fun ms hms => ?_⟩
    obtain ⟨k, hk⟩ := hlater ms hms
    have hf : Kafka.fitting (0 - g.size) (more.take k) = [] := by
      cases hx : more.take k with
      | nil => rfl
      | cons b bs =>
        have hb := hmore.sized b (List.mem_of_mem_take (by rw [hx]; exact List.mem_cons_self))
        unfold Kafka.fitting
        rw [if_neg (by omega)]
    rw [serve_gap pre g _ _ 0 hpre hg, hf] at hk
    exact handed_gap hm hk
  obtain ⟨t, h1, h2, -, h4, h5, h6, h7⟩ := rounds_small env answer (32 + later.length) s ht hs
  refine ⟨t, ?_, h2, h4, ?_, h5, h6⟩
  · rw [e1, e2, List.replicate_append_replicate]; exact h1
  · rw [h7, Int.pow_add, Int32.ofInt_mul, show Int32.ofInt (2 ^ 32) = 0 by decide, Int32.zero_mul, Int32.mul_zero]

/-- Every positive size is below zero after some doublings, and that before it is zero. -/
theorem doubled_negative (n : Int32) (hn : 0 < n.toInt) : ∃ j, j ≤ 31 ∧ (n * Int32.ofInt (2 ^ j)).toInt < 0 := by
  obtain ⟨k, hk⟩ := Int.eq_ofNat_of_zero_le (Int.le_of_lt hn)
  have hk0 : k ≠ 0 := by omega
  have hlt := n.toInt_lt
  have hlog : k.log2 < 31 := (Nat.log2_lt hk0).2 (by omega)
  have h1 : 2 ^ k.log2 ≤ k := Nat.log2_self_le hk0
  have h2 : k < 2 ^ (k.log2 + 1) := Nat.lt_log2_self
  refine ⟨31 - k.log2, by omega, ?_⟩
  have h3 : 2 ^ 31 ≤ k * 2 ^ (31 - k.log2) := by
    have := Nat.mul_le_mul_right (2 ^ (31 - k.log2)) h1
    rwa [← Nat.pow_add, show k.log2 + (31 - k.log2) = 31 by omega] at this
  have h4 : k * 2 ^ (31 - k.log2) < 2 ^ 32 := by
    have := Nat.mul_lt_mul_of_pos_right h2 (Nat.two_pow_pos (31 - k.log2))
    rwa [← Nat.pow_add, show k.log2 + 1 + (31 - k.log2) = 32 by omega] at this
  have e : n = Int32.ofInt (k : Int) := by
    rw [← Int32.toInt_inj, Int32.toInt_ofInt, hk, Int.bmod_eq_of_le] <;> simp [Int32.size] <;> omega
  rw [e, ← Int32.ofInt_mul, Int32.toInt_ofInt]
  have : ((k : Int) * 2 ^ (31 - k.log2)) = ((k * 2 ^ (31 - k.log2) : Nat) : Int) := by simp
  rw [this]
  generalize k * 2 ^ (31 - k.log2) = x at h3 h4
  rw [show Int32.size = 4294967296 from rfl, Int.bmod_def]
  split <;> omega

theorem rounds_refused (env : ConsumerEnv) (answer : Except Err Int64) (x : FullMessage) (e : Err) (hx : x.error = some e)
    (he : e ≠ .maxBytesTooSmall) (h1 : e.is (.kafka 1) = false) (h6 : e.is (.kafka 6) = false) (k : Nat) (s : SC)
    (ht : s.loop = .top) (hs : s.stop = false) :
    ∃ t, SC.run env (roundsOf (List.replicate k [x]) answer) s = some t ∧
      t.loop = .top ∧ t.offset = s.offset ∧ t.queue = s.queue ∧ putIn t.log = putIn s.log ∧ t.fetchMaxBytes = s.fetchMaxBytes := by
  induction k generalizing s with
  | zero => exact ⟨s, rfl, ht, rfl, rfl, rfl, rfl⟩
  | succ k ih =>
    obtain ⟨t, r1, r2, r3, r4, r5, r6⟩ := ih { s with log := s.log ++ [.fetch s.offset s.fetchMaxBytes] } ht hs
    refine ⟨t, ?_, r2, r3, r4, by rw [r5]; simp [putIn_append, putIn], r6⟩
    rw [List.replicate_succ, roundsOf, List.flatMap_cons, SC.run_append, ← show _ = _ from r1]
    obtain ⟨stop, cancelled, offset, oc, fb, fm, loop, commits, queue, mid, gid, log⟩ := s
    simp only at ht hs
    subst ht hs
    simp [fetchRound, roundsOf, SC.run, SC.step, nextMessage, onError, hx, h1, h6, growFetch, he]

/-- The same with a broker that refuses a size below zero: from every positive size, fewer than 32 fetches answered from such a
log lead to a size below zero, and the refusal of such a fetch, with any error but the three a consumer reacts to, changes
neither the size nor the position.  So all later fetches are refused too, whatever the log holds by then. -/
theorem C174_violated_every_refusal (env : ConsumerEnv) (topic : Bytes) (pid : Int) (pre : List Kafka.LogBatch) (g : Kafka.LogBatch)
    (answer : Except Err Int64) (s : SC) (ht : s.loop = .top) (hs : s.stop = false) (hn : 0 < s.fetchMaxBytes.toInt)
    (hpre : ∀ b ∈ pre, b.last < s.offset.toInt) (hg : s.offset.toInt ≤ g.last) (hm : ∀ m ∈ g.messages, m.offset < s.offset.toInt)
    (x : FullMessage) (e : Err) (hx : x.error = some e)
    (he : e ≠ .maxBytesTooSmall) (h1 : e.is (.kafka 1) = false) (h6 : e.is (.kafka 6) = false)
    (answers : Nat → List FullMessage)
    (hans : ∀ j, ∃ n, Handed topic pid s.offset.toInt (Kafka.serve (pre ++ [g]) s.offset.toInt n) (answers j)) :
    ∃ j, j ≤ 31 ∧ ∀ k, ∃ t, SC.run env (roundsOf ((List.range j).map answers ++ List.replicate k [x]) answer) s = some t ∧
      t.loop = .top ∧ t.offset = s.offset ∧ t.fetchMaxBytes.toInt < 0 ∧ t.queue = s.queue ∧ putIn t.log = putIn s.log := by
  obtain ⟨j, hj, hneg⟩ := doubled_negative s.fetchMaxBytes hn
  refine ⟨j, hj, fun k => ?_⟩
  have e1 : (List.range j).map answers = List.replicate j [⟨[], -1, some .maxBytesTooSmall, none⟩] := by
    rw [List.eq_replicate_iff]
    refine ⟨by simp, fun ms hms => ?_⟩
    obtain ⟨i, -, rfl⟩ := List.mem_map.1 hms
    obtain ⟨n, hn⟩ := hans i
    rw [serve_gap pre g [] _ n hpre hg] at hn
    exact handed_gap hm hn
  obtain ⟨t, r1, r2, r3, r4, r5, r6, r7⟩ := rounds_small env answer j s ht hs
  obtain ⟨u, q1, q2, q3, q4, q5, q6⟩ := rounds_refused env answer x e hx he h1 h6 k t r2 r3
  refine ⟨u, ?_, q2, q3.trans r4, by rw [q6, r7]; exact hneg, q4.trans r5, q5.trans r6⟩
  rw [e1, roundsOf, List.flatMap_append, SC.run_append]
  have r1' : SC.run env ((List.replicate j [⟨[], -1, some .maxBytesTooSmall, none⟩]).flatMap fun ms => fetchRound ms answer) s = some t := r1
  rw [r1']
  exact q1

/-! ## Cases -/

/-- The message at offset `o`, as it is stored. -/
def bareAt (o : Int) : Kafka.Stored := ⟨o, 0, [], [], []⟩

/-- A log from which compaction removed the messages at 3 to 6. -/
def compactedLog : List Kafka.LogBatch := [⟨2, 100, [bareAt 0, bareAt 2]⟩, ⟨5, 100, []⟩, ⟨9, 5000, [bareAt 7]⟩]

/-- a batch without messages, and behind it one that does not fit: two doublings are not enough, the third is -/
example : Kafka.ProperLog compactedLog ∧
    fromOffset ((Kafka.serve compactedLog 3 1000).flatMap (·.messages)) 3 = [] ∧
    fromOffset ((Kafka.serve compactedLog 3 (1000 * 2 ^ 2)).flatMap (·.messages)) 3 = [] ∧
    fromOffset ((Kafka.serve compactedLog 3 (1000 * 2 ^ 3)).flatMap (·.messages)) 3 = [bareAt 7] :=
  ⟨⟨by decide, by decide⟩, by decide, by decide, by decide⟩

/-- what is handed on at these sizes -/
example : Handed [116] 0 3 (Kafka.serve compactedLog 3 1000) [⟨[], -1, some .maxBytesTooSmall, none⟩] ∧
    Handed [116] 0 3 (Kafka.serve compactedLog 3 (1000 * 2 ^ 3)) [⟨[116], 0, none, some { offset := 7 }⟩] := by
  constructor
  · rw [Handed, if_neg (by decide), if_pos (by decide)]
  · rw [Handed, if_neg (by decide), if_neg (by decide)]; decide

/-- a log that ends in a batch whose last messages are gone, with the position behind those that are left -/
example : Handed [116] 0 3 (Kafka.serve ([⟨0, 100, [bareAt 0]⟩] ++ [⟨5, 100, [bareAt 2]⟩]) 3 1000)
      [⟨[], -1, some .maxBytesTooSmall, none⟩] ∧
    Handed [116] 0 3 (Kafka.serve ([⟨0, 100, [bareAt 0]⟩] ++ ⟨5, 100, [bareAt 2]⟩ :: compactedLog.drop 2) 3 0)
      [⟨[], -1, some .maxBytesTooSmall, none⟩] ∧
    Handed [116] 0 3 (Kafka.serve ([⟨0, 100, [bareAt 0]⟩] ++ ⟨5, 100, [bareAt 2]⟩ :: compactedLog.drop 2) 3 8000)
      [⟨[116], 0, none, some { offset := 7 }⟩] := by
  refine ⟨?_, ?_, ?_⟩
  · rw [Handed, if_neg (by decide), if_pos (by decide)]
  · rw [Handed, if_neg (by decide), if_pos (by decide)]
  · rw [Handed, if_neg (by decide), if_neg (by decide)]; decide

/-- a broker's refusal is none of the three errors a consumer reacts to -/
example : Err.kafka (-1) ≠ .maxBytesTooSmall ∧ (Err.kafka (-1)).is (.kafka 1) = false ∧ (Err.kafka (-1)).is (.kafka 6) = false := by decide

end Healer
