import Verif.Spec.Murmur
import Verif.Props.Producer2

/-!
# C187: keyed messages go where Kafka's own clients put them
-/

namespace Healer

/-- producer.go:140: the hash that the producer takes, `murmur.MurmurHash2(key, 0)` -/
def producerHash (key : Bytes) : UInt32 := Kafka.murmur2 0 key

/-- What Kafka's own tests expect of the hash with Kafka's seed (UtilsTest.testMurmur2). -/
example : (Kafka.murmur2 0x9747b28c "21".toUTF8.toList).toInt32 = -973932308 ∧ (Kafka.murmur2 0x9747b28c "foobar".toUTF8.toList).toInt32 = -790332482 ∧
    (Kafka.murmur2 0x9747b28c "a-little-bit-long-string".toUTF8.toList).toInt32 = -985981536 ∧ (Kafka.murmur2 0x9747b28c "abc".toUTF8.toList).toInt32 = 479470107 := by
  decide +kernel

/-- C187 holds for a topic with one partition: every keyed message that is accepted while the topic has one goes to the partition that Kafka's own clients choose. -/
theorem C187_single_partial (as : List RouteAct) (q : Producer) (h : Producer.run producerHash as {} = .ok q) (pre post : List Routed) (k : Bytes) (pid : Int32)
    (n : Option Int32) (r : Option Err) (he : q.log = pre ++ .added (some k) (some (pid, n)) r :: post) (h1 : (latest pre).length = 1) :
    pid.toInt = Kafka.partitionForKey k (latest pre).length := by
  have g := (allRouted h _ _ _ he (by omega)).2
  rw [g, h1]
  simp [Kafka.partitionForKey, Nat.mod_one]

/-- **C187 is violated for every number of partitions above one.** There is a key - the empty one, or the one that is a zero byte - such that whatever happens, every
message with that key that is accepted while the topic has so many partitions goes to another partition than the one that Kafka's own clients choose. -/
theorem C187_violated_every_topic (m : Nat) (hm : 2 ≤ m) (hlt : m < 2 ^ 31) :
    ∃ k : Bytes, (k = [] ∨ k = [0]) ∧ ∀ (as : List RouteAct) (q : Producer), Producer.run producerHash as {} = .ok q →
      ∀ (pre post : List Routed) (pid : Int32) (n : Option Int32) (r : Option Err), q.log = pre ++ .added (some k) (some (pid, n)) r :: post →
        (latest pre).length = m → pid.toInt ≠ Kafka.partitionForKey k m := by
  have key : ∃ k : Bytes, (k = [] ∨ k = [0]) ∧ (producerHash k).toNat % m ≠ Kafka.partitionForKey k m := by
    have e1 : (producerHash []).toNat = 0 := by decide +kernel
    have e2 : (Kafka.murmur2 0x9747b28c [] &&& 0x7fffffff).toNat = 275646681 := by decide +kernel
    have e3 : (producerHash [0]).toNat = 3914231485 := by decide +kernel
    have e4 : (Kafka.murmur2 0x9747b28c [0] &&& 0x7fffffff).toNat = 375494588 := by decide +kernel
    by_cases h0 : (producerHash []).toNat % m = Kafka.partitionForKey [] m
    · refine ⟨[0], .inr rfl, fun h1 => ?_⟩
      unfold Kafka.partitionForKey at h0 h1
      rw [e1, e2, Nat.zero_mod] at h0
      rw [e3, e4] at h1
      have d1 : m ∣ 275646681 := Nat.dvd_of_mod_eq_zero h0.symm
      have d2 : m ∣ 3914231485 - 375494588 := Nat.dvd_of_mod_eq_zero (Nat.sub_mod_eq_zero_of_mod_eq h1)
      have d3 : m ∣ Nat.gcd 275646681 (3914231485 - 375494588) := Nat.dvd_gcd d1 d2
      have d4 : Nat.gcd 275646681 (3914231485 - 375494588) = 1 := by decide +kernel
      rw [d4] at d3
      have := Nat.le_of_dvd (by omega) d3
      omega
    · exact ⟨[], .inl rfl, h0⟩
  obtain ⟨k, hk, hne⟩ := key
  refine ⟨k, hk, fun as q h pre post pid n r he hl e => ?_⟩
  have g := (allRouted h _ _ _ he (by omega)).2
  rw [g, hl] at e
  exact hne (by exact_mod_cast e)

/-- a topic with two partitions: a message with the empty key goes to partition 0, Kafka's own clients put it into partition 1 -/
example : (match Producer.run producerHash [learn two, .add (some []) none] {} with | .ok q => some q.log | _ => none) =
    some [.metadata two, .connected 1, .opened 0 1, .added (some []) (some (0, some 1)) none] ∧ Kafka.partitionForKey [] 2 = 1 := by decide +kernel

end Healer
