import Verif.Props.StaleHeader

/-! C36: every describe-ACLs request sent again to an older broker has a stray byte. -/

namespace Healer

/-- A describe-ACLs request of version 0 or 1 behind any header: the body does not depend on the header. -/
theorem describeAcls_old (w : UInt16) (hw : w < 2) (f : AclFilter) : ∃ body, ∀ (q : RequestHeader) (hv : UInt16), q.headerVersion = .ok hv →
    1 ≤ hv.toNat → q.taggedFields = none → encodeDescribeAclsRequest q w f = .ok (Kafka.frame (q.wire hv ++ body)) := by
  refine ⟨[f.resourceType] ++ (writeNullableString f.resourceName ++ ((if w ≥ 1 then [f.patternType] else []) ++ (writeNullableString f.principal ++
    (writeNullableString f.host ++ ([f.operation] ++ ([f.permissionType] ++ Kafka.tagBuffer [])))))), fun q hv h1 h2 h3 => ?_⟩
  unfold encodeDescribeAclsRequest writeAclString
  rw [requestHeader_length_exact q hv h1 h2 h3]
  rw [Out.bind_ok, encodeCut_of_writes (requestHeader_writes q hv h1 (by rw [h3]; exact taggedFields_fits_none)) (Nat.le_refl _)]
  simp only [if_pos hw, Out.bind_ok, noTags_encode, List.append_assoc]
  rw [patch_ok]

/-- C36 fails for every describe-ACLs request sent first to a broker of version 2, then to one of version 0 or 1: whatever the filter, the client id
and the correlation ids, the second frame has a byte more, of value 0, between header and body than what a new object gives. -/
theorem C36_violated_every_describeAcls (f : AclFilter) (w : UInt16) (hw : w < 2) (cid : Option Bytes) (c1 c2 : UInt32) :
    ∃ first head body, (AnyRequest.describeAcls f).transmissions (reqHeader 29 0 0 cid) [(2, c1), (w, c2)] =
        [first, .ok (Kafka.frame (head ++ [0] ++ body))] ∧
      (AnyRequest.describeAcls f).encode (reqHeader 29 w c2 cid) w = .ok (Kafka.frame (head ++ body)) ∧
      head = Kafka.requestHeader 1 29 w.toNat c2.toNat cid [] := by
  obtain ⟨body, hb⟩ := describeAcls_old w hw f
  have hf : (reqHeader 29 w c2 cid).headerVersion = .ok 1 := by
    have : w = 0 ∨ w = 1 := by
      have h : w.toNat < 2 := hw
      rcases Nat.lt_or_ge w.toNat 1 with h' | h'
      · exact .inl (UInt16.toNat_inj.mp (by show w.toNat = 0; omega))
      · exact .inr (UInt16.toNat_inj.mp (by show w.toNat = 1; omega))
    rcases this with rfl | rfl <;> rfl
  refine ⟨(AnyRequest.transmit (.describeAcls f) (reqHeader 29 0 0 cid) 2 c1).1, _, body, ?_, ?_, rfl⟩
  · rw [show AnyRequest.transmissions (.describeAcls f) (reqHeader 29 0 0 cid) [(2, c1), (w, c2)] =
      [(AnyRequest.transmit (.describeAcls f) (reqHeader 29 0 0 cid) 2 c1).1,
       encodeDescribeAclsRequest ({ reqHeader 29 w c2 cid with hv := some 2 }) w f] from rfl, hb _ 2 rfl (by decide) rfl]
    congr 5
    unfold RequestHeader.wire Kafka.requestHeader
    simp [reqHeader, TaggedFields.wire, Kafka.tagBuffer, uvarint_zero]
  · exact hb _ 1 hf (by decide) rfl

example : (AnyRequest.describeAcls ⟨2, some [116], 3, none, none, 1, 1⟩).transmissions (reqHeader 29 0 0 none) [(2, 5), (1, 9)] =
    [.ok [0, 0, 0, 20, 0, 29, 0, 2, 0, 0, 0, 5, 255, 255, 0, 2, 2, 116, 3, 0, 0, 1, 1, 0],
     .ok [0, 0, 0, 23, 0, 29, 0, 1, 0, 0, 0, 9, 255, 255, 0, 2, 0, 1, 116, 3, 255, 255, 255, 255, 1, 1, 0]] := by decide +kernel


/-- What a produce request without transactional id begins with, behind any header. -/
theorem produce_begins (compress : Int8 → Bytes → Out Bytes) (q : RequestHeader) (f : Bool) (hd : Bytes × Nat) (hf : q.isFlexible = .ok f)
    (hh : q.writeTo = .ok hd) (r : ProduceRequest) (hr : r.transactionalID = none) (bs : Bytes) (h : r.encode compress q = .ok bs) :
    ∃ rest, bs.drop 4 = hd.1 ++ ((if f then [0] else [255, 255]) ++ rest) := by
  unfold ProduceRequest.encode at h
  rw [hf, hh, hr] at h
  cases f <;>
    simp only [Out.bind_ok, Bool.false_eq_true, if_true, if_false, show writeCompactNullableString none = .ok [0] from rfl] at h
  all_goals
    revert h
    generalize writeCount _ _ = o1
    generalize encodeEach _ _ = o2
    generalize writeTags _ = o3
    intro h
    cases o1 <;> cases o2 <;> cases o3 <;> first
      | (simp only [Out.bind_ok, List.append_assoc, patch_ok] at h
         cases h
         exact ⟨_, by simp [Kafka.frame, writeNullableString]; rfl⟩)
      | cases h

/-- C36 fails for every produce request without transactional id sent first to a broker of a version below 9, then to one of version 9: whatever the
compression, the topics and records, the client id and the correlation ids, the second frame is not what a new object gives. -/
theorem C36_violated_every_produce (compress : Int8 → Bytes → Out Bytes) (r : ProduceRequest) (hr : r.transactionalID = none) (v : UInt16)
    (hv : requestHeaderVersion 0 v = some 1) (cid : Option Bytes) (c1 c2 : UInt32) (bs : Bytes)
    (hb : (AnyRequest.produce compress r).encode (reqHeader 0 9 c2 cid) 9 = .ok bs) :
    (AnyRequest.produce compress r).transmissions (reqHeader 0 0 0 cid) [(v, c1), (9, c2)] ≠
      [(AnyRequest.produce compress r).encode (reqHeader 0 v c1 cid) v, .ok bs] := by
  intro h
  have h2 : (AnyRequest.transmit (.produce compress r) (reqHeader 0 0 0 cid) v c1).2 = { reqHeader 0 v c1 cid with hv := some 1 } := by
    simp [AnyRequest.transmit, RequestHeader.remember, reqHeader, RequestHeader.headerVersion, hv]
  have hs : r.encode compress ({ reqHeader 0 9 c2 cid with hv := some 1 }) = .ok bs := by
    have := (List.cons.inj (List.cons.inj h).2).1
    rw [h2] at this
    exact this
  obtain ⟨r1, e1⟩ := produce_begins compress _ true ((be16 0 ++ be16 9 ++ be32 c2 ++ writeNullableString cid) ++ [0], _) rfl rfl r hr bs hb
  obtain ⟨r2, e2⟩ := produce_begins compress _ false (be16 0 ++ be16 9 ++ be32 c2 ++ writeNullableString cid, _) rfl rfl r hr bs hs
  rw [e1] at e2
  simp at e2

example : requestHeaderVersion 0 7 = some 1 ∧ (AnyRequest.produce (fun _ b => .ok b) ⟨none, 1, 2, []⟩).encode (reqHeader 0 9 9 (some [99])) 9 =
    .ok [0, 0, 0, 21, 0, 0, 0, 9, 0, 0, 0, 9, 0, 1, 99, 0, 0, 0, 1, 0, 0, 0, 2, 1, 0] := by decide +kernel

end Healer
