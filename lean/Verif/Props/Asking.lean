import Verif.Model.Asking
import Verif.Spec.Session
import Verif.Props.Request3

/-!
# C184: what a partition consumer asks its leader for
-/

namespace Healer

/-- What a fetch is to say about everything but sessions. -/
def Asker.query (a : Asker) (session epoch : Int) : Kafka.FetchQuery :=
  ⟨-1, a.maxWaitMS.toInt, a.minBytes.toInt, a.maxBytes.toInt, 0, session, epoch⟩

/-- the one partition asked for -/
def Asker.block (a : Asker) (offset : Int64) : Kafka.FetchBlock :=
  ⟨a.partition.toInt, a.epoch.toInt, offset.toInt, 0, a.maxBytes.toInt⟩

theorem fetch_wire (a : Asker) (offset : Int64) (v : UInt16) :
    (a.fetch offset).wire v = Kafka.fetchRequest v.toNat (a.query 0 0) [(a.topic, [a.block offset])] [] := by
  have h : (0 + a.maxBytes : Int32) = a.maxBytes := by simp
  simp [FetchRequest.wire, FetchRequest.query, Asker.fetch, newFetchRequest, FetchRequest.addPartition, inFirst, fetchTopicWire,
    PartitionBlock.wire, Asker.query, Asker.block, h]

/-- C184, the part that holds.  Whatever version was negotiated, a fetch asks for exactly the consumer's partition from its
position on, with the waiting time and the sizes configured, as a consumer (replica -1); in version 0 it opens no session. -/
theorem C184_fields_partial (a : Asker) (offset : Int64) (v : UInt16) (hv : v ∈ clientVersions API_FetchRequest) (w : UInt16)
    (corr : UInt32) (cid : Option Bytes) :
    (∃ session epoch, (a.fetch offset).encode (reqHeader API_FetchRequest w corr cid) v =
      .ok (Kafka.request .fetch v.toNat corr.toNat cid
        (Kafka.fetchRequest v.toNat (a.query session epoch) [(a.topic, [a.block offset])] []))) ∧
    (v = 0 → ∀ q, Kafka.sessionUse v.toNat q = .without) := by
  refine ⟨⟨0, 0, ?_⟩, ?_⟩
  · rw [C63_fetch_single_partial (a.fetch offset) ?_ v hv, fetch_wire]
    intro t ht
    simp only [Asker.fetch, newFetchRequest, FetchRequest.addPartition, inFirst, List.mem_singleton] at ht
    subst ht
    exact Nat.le_refl 1
  · rintro rfl q
    simp [Kafka.sessionUse]

/-- C184 is violated for every run of a consumer whose broker knows version 7: every fetch, at whatever positions, makes the
broker open a new session - so none of them is ever continued. -/
theorem C184_violated_every_fetch (a : Asker) (v : UInt16) (hv : v ∈ clientVersions API_FetchRequest) (h7 : 7 ≤ v) (w : UInt16)
    (cid : Option Bytes) (offsets : List Int64) (corr : UInt32) :
    ∃ qs : List Kafka.FetchQuery, qs.length = offsets.length ∧ (∀ q ∈ qs, Kafka.sessionUse v.toNat q = .opens) ∧
      (offsets.map fun o => (a.fetch o).encode (reqHeader API_FetchRequest w corr cid) v) =
        (offsets.zip qs).map fun x => .ok (Kafka.request .fetch v.toNat corr.toNat cid
          (Kafka.fetchRequest v.toNat x.2 [(a.topic, [a.block x.1])] [])) := by
  refine ⟨offsets.map fun _ => a.query 0 0, by simp, ?_, ?_⟩
  · intro q hq
    obtain ⟨_, _, rfl⟩ := List.mem_map.1 hq
    have : ¬ v.toNat < 7 := by
      have := UInt16.le_iff_toNat_le.1 h7
      simp at this
      omega
    simp [Kafka.sessionUse, this, Asker.query]
  · induction offsets with
    | nil => rfl
    | cons o os ih =>
      rw [List.map_cons, List.map_cons, List.zip_cons_cons, List.map_cons, ih]
      congr 1
      rw [C63_fetch_single_partial (a.fetch o) ?_ v hv, fetch_wire]
      intro t ht
      simp only [Asker.fetch, newFetchRequest, FetchRequest.addPartition, inFirst, List.mem_singleton] at ht
      subst ht
      exact Nat.le_refl 1

/-- What stands on the wire where Kafka reads the session and its epoch, for a fetch of version 10 from offset 7. -/
example : ((Asker.fetch ⟨500, 1, 1048576, [116], 3, 5⟩ 7).wire 10).drop 17 =
    [0, 0, 0, 0, 0, 0, 0, 0] ++ [0, 0, 0, 1, 0, 1, 116, 0, 0, 0, 1, 0, 0, 0, 3, 0, 0, 0, 5] ++ [0, 0, 0, 0, 0, 0, 0, 7] ++
      [0, 0, 0, 0, 0, 0, 0, 0] ++ [0, 16, 0, 0, 0, 0, 0, 0] := by decide +kernel

example : (10 : UInt16) ∈ clientVersions API_FetchRequest := by decide +kernel

end Healer
