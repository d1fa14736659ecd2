import Verif.Props.Always7

/-! C36: every create-partitions request sent again to an older broker has a stray byte. -/

namespace Healer

/-- A request encoded with the header version that a flexible broker left behind. -/
theorem encodePatched_stale (q : RequestHeader) (hq1 : q.headerVersion = .ok 2) (hq3 : q.taggedFields = none) {n : Nat} {body : Enc} {bs : Bytes}
    (hw : Writes body bs) (hn : bs.length ≤ n) : encodePatched q n body = .ok (Kafka.frame (q.wire 2 ++ bs)) := by
  unfold encodePatched
  rw [requestHeader_length_exact q 2 hq1 (by decide) hq3]
  simp only [Out.bind_ok]
  rw [encodeCut_of_writes (Writes.all_cons (Writes.put [0, 0, 0, 0]) (Writes.all_cons (requestHeader_writes q 2 hq1 (by rw [hq3]; exact taggedFields_fits_none))
    (Writes.all_cons hw Writes.all_nil)))]
  · simp only [Out.bind_ok, List.append_nil]
    rw [patch_ok]
  · simp; omega

/-- C36 fails for every create-partitions request with assignments sent first to a broker of version 2, then to one of version 0: whatever the topics,
the client id and the correlation ids, the second frame has a byte more, of value 0, between header and body than what a new object gives. -/
theorem C36_violated_every_createPartitions (r : CreatePartitionsRequest) (hr : ∀ t ∈ r.topics, t.assignments ≠ none) (cid : Option Bytes) (c1 c2 : UInt32) :
    ∃ first head body, (AnyRequest.createPartitions r).transmissions (reqHeader 37 0 0 cid) [(2, c1), (0, c2)] =
        [first, .ok (Kafka.frame (head ++ [0] ++ body))] ∧
      (AnyRequest.createPartitions r).encode (reqHeader 37 0 c2 cid) 0 = .ok (Kafka.frame (head ++ body)) ∧
      head = Kafka.requestHeader 1 37 0 c2.toNat cid [] ∧
      body = Kafka.createPartitionsRequest 0 (r.topics.map CreatePartitionsTopic.wire) r.timeoutMS.toInt r.validateOnly := by
  have he : Writes (Enc.each (CreatePartitionsTopic.enc 0) r.topics)
      ((r.topics.map CreatePartitionsTopic.wire).flatMap (morePartitionsWire 0)) :=
    (Writes.each _ fun t ht => createPartitionsTopic0_writes t (hr t ht)).cast (by rw [List.flatMap_map])
  let body := Kafka.createPartitionsRequest 0 (r.topics.map CreatePartitionsTopic.wire) r.timeoutMS.toInt r.validateOnly
  have hs : (AnyRequest.createPartitions r).encode ({ reqHeader 37 0 c2 cid with hv := some 2 }) 0 =
      .ok (Kafka.frame ((({ reqHeader 37 0 c2 cid with hv := some 2 }) : RequestHeader).wire 2 ++ body)) := by
    refine encodePatched_stale _ rfl rfl (Writes.cast writes![Writes.nop, Writes.put _, he, Writes.i32 _, Writes.bool _, Writes.nop] ?_) ?_
    · show _ = Kafka.array (morePartitionsWire 0) _ ++ _ ++ _
      simp [Kafka.array, be32_ofNat]
    · have := foldl_ge (k := CreatePartitionsTopic.wire) (g := morePartitionsWire 0)
        (f := fun l t => (t.assignments.getD []).foldl (fun l a => l + 4 + 4 * a.length + 1)
          (l + (2 + t.name.length) + 4 + 4)) r.topics 4 (fun l t ht => morePartitions0_length t (hr t ht) l)
      show (Kafka.array (morePartitionsWire 0) _ ++ _ ++ _).length ≤ _
      simp only [List.length_append, array_length, int32_length, boolean_length, CreatePartitionsRequest.length]
      omega
  refine ⟨(AnyRequest.transmit (.createPartitions r) (reqHeader 37 0 0 cid) 2 c1).1, _, body, ?_, ?_, rfl, rfl⟩
  · rw [show AnyRequest.transmissions (.createPartitions r) (reqHeader 37 0 0 cid) [(2, c1), (0, c2)] =
      [(AnyRequest.transmit (.createPartitions r) (reqHeader 37 0 0 cid) 2 c1).1,
       (AnyRequest.createPartitions r).encode ({ reqHeader 37 0 c2 cid with hv := some 2 }) 0] from rfl, hs]
    congr 5
    unfold RequestHeader.wire Kafka.requestHeader
    simp [reqHeader, TaggedFields.wire, Kafka.tagBuffer, uvarint_zero]
  · exact C61_createPartitions_v0_partial r hr c2 cid

example : ∀ t ∈ ([⟨[116], 3, some [[1], [2]]⟩] : List CreatePartitionsTopic), t.assignments ≠ none := by simp

end Healer
