import Verif.Props.Request3

/-!
# Faults shown for all requests: old versions

As `Verif.Props.Always`, for the requests that are written in the wrong layout in old versions.
-/

namespace Healer

/-- requests of different length differ -/
theorem request_ne {a : Kafka.Api} {v corr : Nat} {cid : Option Bytes} {x y : Bytes} (h : x.length ≠ y.length) :
    Kafka.request a v corr cid x ≠ Kafka.request a v corr cid y := by
  intro e
  have := congrArg List.length e
  simp only [Kafka.request, Kafka.frame, List.length_append] at this
  simp only [int32_length] at this
  omega

/-! ## C64 -/

theorem writeCount_false (n : Nat) : writeCount false n = .ok (Kafka.int32 n) := by
  simp [writeCount, be32_ofNat]

/-- C64 fails for every request in version 0, whose body has no transactional id: it has the body of version 3, which has one. -/
theorem C64_violated_every_v0 (compress : Int8 → Bytes → Out Bytes) (recs : ProduceP → Bytes) (r : ProduceRequest)
    (he : ∀ t ∈ r.topicBlocks, ∀ p ∈ t.partitionBlocks, encodeBatches compress p.recordBatches = .ok (recs p)) (corr : UInt32) (cid : Option Bytes)
    (hc : ∀ b, cid = some b → b.length ≤ 32767) :
    let topics := r.topicBlocks.map (ProduceT.wire recs)
    r.encode compress (reqHeader API_ProduceRequest 0 corr cid) = .ok (Kafka.request .produce 0 corr.toNat cid
      (Kafka.produceRequest 3 r.transactionalID r.requiredAcks.toInt r.timeout.toInt topics)) ∧
    Kafka.request .produce 0 corr.toNat cid (Kafka.produceRequest 3 r.transactionalID r.requiredAcks.toInt r.timeout.toInt topics) ≠
      Kafka.request .produce 0 corr.toNat cid (Kafka.produceRequest 0 r.transactionalID r.requiredAcks.toInt r.timeout.toInt topics) := by
  intro topics
  have hp : ∀ t ∈ r.topicBlocks, ∀ p ∈ t.partitionBlocks,
      p.encode compress false = .ok ((fun q : Int × Bytes => Kafka.int32 q.1 ++ Kafka.nullableBytes (some q.2)) (p.wire recs)) := by
    intro t h p h'
    unfold ProduceP.encode
    rw [he t h p h']
    simp only [Out.bind_ok, writeCount_false, writeTags, Bool.false_eq_true, if_false, be32_eq]
    simp [ProduceP.wire, Kafka.nullableBytes]
  have ht : ∀ t ∈ r.topicBlocks, t.encode compress false = .ok ((fun t : Bytes × List (Int × Bytes) => Kafka.string t.1 ++
      Kafka.array (fun p => Kafka.int32 p.1 ++ Kafka.nullableBytes (some p.2)) t.2) (t.wire recs)) := by
    intro t h
    unfold ProduceT.encode
    rw [encodeEach_eq (f := ProduceP.encode compress false) (g := fun q : Int × Bytes => Kafka.int32 q.1 ++ Kafka.nullableBytes (some q.2)) (k := ProduceP.wire recs)
      t.partitionBlocks (hp t h)]
    simp only [Bool.false_eq_true, if_false, Out.bind_ok, writeCount_false, writeTags, writeString_eq]
    simp [ProduceT.wire, Kafka.array]
  have e := encodeEach_eq (f := ProduceT.encode compress false) (g := fun t : Bytes × List (Int × Bytes) => Kafka.string t.1 ++
      Kafka.array (fun p => Kafka.int32 p.1 ++ Kafka.nullableBytes (some p.2)) t.2) (k := ProduceT.wire recs) r.topicBlocks ht
  have hw := (C07_request_header .produce 0 corr cid none [] hc (by simp) (by simp)).2.1
  have hf := reqHeader_flexible .produce API_ProduceRequest 0 corr cid rfl
  have hf' : Kafka.Api.flexible .produce (0 : UInt16).toNat = false := rfl
  rw [hf'] at hf
  have hw' : (reqHeader API_ProduceRequest 0 corr cid).writeTo = .ok (hdr .produce 0 corr cid, (hdr .produce 0 corr cid).length) := hw
  constructor
  · unfold ProduceRequest.encode
    rw [hf, hw']
    simp only [Out.bind_ok, Bool.false_eq_true, if_false, writeCount_false, e, writeTags, writeNullableString_eq, be16_eq, be32_eq, List.append_assoc]
    rw [patch_ok]
    simp only [Kafka.request, Kafka.produceRequest, hdr, topics]
    simp [Kafka.array]
  · apply request_ne
    have : 2 ≤ (Kafka.nullableString r.transactionalID).length := by
      cases r.transactionalID <;> simp [Kafka.nullableString]
    simp only [Kafka.produceRequest]
    simp only [List.length_append, List.length_nil, show ¬ (9 ≤ 3) by decide, show ¬ (9 ≤ 0) by decide, show ¬ (3 ≤ 0) by decide, if_false,
      Nat.le_refl, if_true]
    omega

example : ∀ t ∈ (⟨none, 1, 1000, [⟨[116], [⟨0, []⟩]⟩]⟩ : ProduceRequest).topicBlocks, ∀ p ∈ t.partitionBlocks,
    encodeBatches (fun _ b => .ok b) p.recordBatches = .ok [] := by simp [encodeBatches]

/-! ## C65 -/

theorem u8_eq (b : UInt8) : [b] = Kafka.int8 b.toNat := by
  have : (b.toNat : Int) % 256 = b.toNat := by have := b.toNat_lt; omega
  simp [Kafka.int8, Kafka.be, this]

/-- C65 fails for every request describing ACLs in versions 0 and 1: it has a byte too many, that of empty tagged fields. -/
theorem C65_violated_every_describe (f : AclFilter) (v : UInt16) (hv : v = 0 ∨ v = 1) (corr : UInt32) (cid : Option Bytes) :
    encodeDescribeAclsRequest (reqHeader API_DescribeAcls v corr cid) v f = .ok (Kafka.request .describeAcls v.toNat corr.toNat cid
      (Kafka.describeAclsRequest v.toNat f.wire ++ [0])) ∧
    Kafka.request .describeAcls v.toNat corr.toNat cid (Kafka.describeAclsRequest v.toNat f.wire ++ [0]) ≠
      Kafka.request .describeAcls v.toNat corr.toNat cid (Kafka.describeAclsRequest v.toNat f.wire) := by
  refine ⟨?_, request_ne (by simp)⟩
  unfold encodeDescribeAclsRequest writeAclString
  rw [reqHeader_length .describeAcls API_DescribeAcls v corr cid rfl]
  rw [Out.bind_ok, encodeCut_of_writes (reqHeader_writes .describeAcls API_DescribeAcls v corr cid rfl) (Nat.le_refl _)]
  have hlt : v < 2 := by rcases hv with rfl | rfl <;> decide
  simp only [if_pos hlt, Out.bind_ok, noTags_encode, writeNullableString_eq, List.append_assoc]
  rw [patch_ok]
  have ht : Kafka.tagBuffer [] = [0] := by decide
  rcases hv with rfl | rfl
  all_goals
    simp only [Kafka.request, Kafka.describeAclsRequest, Kafka.aclFilter, AclFilter.wire, u8_eq, List.append_assoc, hdr, ht]
    rfl

theorem aclString_old (s : Bytes) : Writes (encodeAclString 1 s) (Kafka.string s) := by
  unfold encodeAclString
  rw [if_pos (by decide)]
  exact Writes.cpyO (encodeString_eq s)

theorem creation_old (v : UInt16) (hv : v = 0 ∨ v = 1) (f : AclCreation) : Writes (f.enc v 1) (Kafka.aclCreation v.toNat f.wire ++ [0]) := by
  unfold AclCreation.enc
  refine Writes.cast writes![Writes.u8 _, aclString_old _, Writes.when fun _ => Writes.u8 _, aclString_old _, aclString_old _, Writes.u8 _, Writes.u8 _,
    Writes.noTags] ?_
  have ht : Kafka.tagBuffer [] = [0] := by decide
  have h2 : ¬ 2 ≤ v.toNat := by rcases hv with rfl | rfl <;> decide
  rw [ge_one]
  simp only [decide_eq_true_eq, Kafka.aclCreation, AclCreation.wire, List.append_assoc, h2, if_false, ht]

/-- C65 fails for every request creating ACLs in versions 0 and 1: it has a byte too many for each rule and one at the end. -/
theorem C65_violated_every_create (fs : List AclCreation) (v : UInt16) (hv : v = 0 ∨ v = 1) (corr : UInt32) (cid : Option Bytes) :
    encodeCreateAclsRequest (reqHeader API_CreateAcls v corr cid) fs = .ok (Kafka.request .createAcls v.toNat corr.toNat cid
      (Kafka.array (fun c => Kafka.aclCreation v.toNat c ++ [0]) (fs.map AclCreation.wire) ++ [0])) ∧
    Kafka.request .createAcls v.toNat corr.toNat cid (Kafka.array (fun c => Kafka.aclCreation v.toNat c ++ [0]) (fs.map AclCreation.wire) ++ [0]) ≠
      Kafka.request .createAcls v.toNat corr.toNat cid (Kafka.createAclsRequest v.toNat (fs.map AclCreation.wire)) := by
  have h2 : ¬ 2 ≤ v.toNat := by rcases hv with rfl | rfl <;> decide
  constructor
  · have hf := reqHeader_version .createAcls API_CreateAcls v corr cid rfl
    have hfl : Kafka.Api.requestHeaderVersion .createAcls v.toNat = 1 := by
      have : Kafka.Api.flexible .createAcls v.toNat = decide (2 ≤ v.toNat) := rfl
      simp [Kafka.Api.requestHeaderVersion, this, h2]
    rw [hfl] at hf
    have hw : Writes (.all [if (1 : UInt16) < 2 then .put (be32 (UInt32.ofNat fs.length)) else .cpyO (encodeCompactArrayLength (Int64.ofNat fs.length)),
        .each (AclCreation.enc v 1) fs, .noTags]) (Kafka.array (fun c => Kafka.aclCreation v.toNat c ++ [0]) (fs.map AclCreation.wire) ++ [0]) := by
      have he := Writes.each (f := AclCreation.enc v 1) (g := fun f => Kafka.aclCreation v.toNat f.wire ++ [0]) fs fun f _ => creation_old v hv f
      rw [if_pos (by decide)]
      refine Writes.cast writes![Writes.put _, he, Writes.noTags] ?_
      simp [Kafka.array, be32_ofNat, List.flatMap_map]
      decide
    unfold encodeCreateAclsRequest
    rw [hf, Out.bind_ok]
    refine encodePatched_ok .createAcls rfl hw ?_
    have hlen : ∀ f : AclCreation, (Kafka.aclCreation v.toNat f.wire ++ [0]).length ≤ f.length := by
      intro f
      have : (if 1 ≤ v.toNat then Kafka.int8 f.patternType.toNat else []).length ≤ 1 := by split <;> simp
      unfold Kafka.aclCreation AclCreation.wire AclCreation.length
      simp only [h2, if_false, List.length_append, int8_length, string_length, noTagsLength_eq, List.length_cons, List.length_nil]
      omega
    have h1 := foldl_ge (k := AclCreation.wire) (g := fun c => Kafka.aclCreation v.toNat c ++ [0]) (f := fun l f => l + f.length) fs 4
      (fun l f _ => by have := hlen f; omega)
    simp only [Kafka.array, List.length_append, int32_length, noTagsLength_eq, List.length_cons, List.length_nil]
    omega
  · apply request_ne
    unfold Kafka.createAclsRequest
    rw [if_neg h2]
    have : (Kafka.array (Kafka.aclCreation v.toNat) (fs.map AclCreation.wire)).length ≤
        (Kafka.array (fun c => Kafka.aclCreation v.toNat c ++ [0]) (fs.map AclCreation.wire)).length := by
      unfold Kafka.array
      simp only [List.length_append, int32_length]
      apply Nat.add_le_add_left
      induction fs.map AclCreation.wire with
      | nil => simp
      | cons x xs ih =>
        simp only [List.flatMap_cons, List.length_append, List.length_cons, List.length_nil]
        omega
    rw [List.length_append, List.length_singleton]
    omega

end Healer
