import Verif.Props.Response3

/-! C74: every answer of version 1 to describe ACLs crashes the client. -/

namespace Healer

/-- The code panics when it reads these bytes, wherever they begin. -/
def CrashesAt {α : Type} (c : Cur α) (bs : Bytes) : Prop := ∀ pre : Bytes, c (pre ++ bs) (pre.length : Int) = .panic

theorem CrashesAt.after {α β : Type} {m : Cur α} {f : α → Cur β} {e bs : Bytes} {a : α} (h1 : CReads m e a) (h2 : CrashesAt (f a) bs) :
    CrashesAt (m >>= f) (e ++ bs) := by
  intro pre
  rw [Cur.bind_def, h1 pre bs]
  have := h2 (pre ++ e)
  rw [List.append_assoc, List.length_append] at this
  exact this

theorem CrashesAt.first {α β : Type} {m : Cur α} {f : α → Cur β} {bs : Bytes} (h : CrashesAt m bs) : CrashesAt (m >>= f) bs := by
  intro pre
  rw [Cur.bind_def, h pre]

theorem creads_word (w : Nat) (e : Bytes) (h : e.length = w) : CReads (Cur.call (beGet w)) e (beVal e) := by
  intro pre rest
  unfold Cur.call beGet
  rw [sliceFrom_append]
  subst h
  simp

/-- A nullable string whose length is -256 crashes the decoder. -/
theorem nullable_crashes (bs : Bytes) : CrashesAt (Cur.call nullableString) ([255, 0] ++ bs) := by
  intro pre
  unfold Cur.call
  rw [sliceFrom_append]
  have h1 : CReads rdI16 [255, 0] (-256) := (CReads.bind_pure (g := fun v : UInt16 => v.toInt16)
    (CReads.bind_pure (g := UInt16.ofNat) (creads_word 2 [255, 0] rfl)))
  have h2 : CrashesAt (do
      let l ← rdI16
      if l = -1 then pure none
      else do
        let s ← rdBytes l.toInt
        pure (some s) : Cur (Option Bytes)) ([255, 0] ++ bs) := by
    refine CrashesAt.after h1 ?_
    rw [if_neg (by decide)]
    refine CrashesAt.first ?_
    intro pre
    unfold rdBytes sliceTo
    rw [if_neg]
    have : (-256 : Int16).toInt = -256 := by decide
    omega
  have := h2 []
  rw [List.nil_append] at this
  simp only [show nullableString ([255, 0] ++ bs) = .panic from this]

/-- The first byte of a number below 2^24 -/
theorem int32_high (n : Nat) (hn : n < 2 ^ 24) : ∃ a b c, Kafka.int32 n = [0, a, b, c] := by
  have h1 : ((n : Int) % 2 ^ 32).toNat = n := by omega
  have h3 : n / 256 ^ 3 = 0 := by omega
  unfold Kafka.int32 Kafka.be
  rw [h1]
  refine ⟨UInt8.ofNat (n / 256 ^ 2), UInt8.ofNat (n / 256 ^ 1), UInt8.ofNat (n / 256 ^ 0), ?_⟩
  exact (congrArg (fun x => [UInt8.ofNat x, UInt8.ofNat (n / 256 ^ 2), UInt8.ofNat (n / 256 ^ 1), UInt8.ofNat (n / 256 ^ 0)]) h3 :)

/-- C74 fails for every answer of version 1 to describe ACLs without error message that asks to wait less than 2^24 ms and has less than 2^24
resources: the first byte of the throttle time is taken for a tag count, everything behind it is read a byte late, and the client crashes. -/
theorem C74_violated_every_describeAcls (corr : UInt32) (throttle : Nat) (ht : throttle < 2 ^ 24) (error : Int16)
    (resources : List Kafka.AclResource) (hr : resources.length < 2 ^ 24) (tags htags : List (Nat × Bytes)) :
    newDescribeAclsResponse 1 (Kafka.response .describeAcls 1 corr.toNat htags (Kafka.describeAclsResponse 1 throttle error.toInt none resources tags)) =
      .panic := by
  obtain ⟨t1, t2, t3, e1⟩ := int32_high throttle ht
  obtain ⟨n1, n2, n3, e2⟩ := int32_high resources.length hr
  obtain ⟨x1, x2, e3⟩ : ∃ x1 x2, Kafka.int16 error.toInt = [x1, x2] := ⟨_, _, rfl⟩
  obtain ⟨rest, e4⟩ : ∃ rest, Kafka.response .describeAcls 1 corr.toNat htags (Kafka.describeAclsResponse 1 throttle error.toInt none resources tags) =
      Kafka.frame (Kafka.int32 corr.toNat ++ (Kafka.tagBuffer [] ++ ([t1, t2, t3, x1] ++ ([x2, 255] ++ ([255, 0] ++ ([n1, n2, n3] ++ rest)))))) := by
    unfold Kafka.response Kafka.describeAclsResponse
    rw [show Kafka.Api.flexible .describeAcls 1 = false from rfl, show Kafka.Api.responseHeaderVersion .describeAcls 1 = 0 from rfl]
    simp only [Kafka.responseHeader, Kafka.flexNullable, Kafka.flexArray, Kafka.array, Bool.false_eq_true, if_false, e1, e2, e3,
      show Kafka.nullableString none = [255, 255] from by decide]
    generalize List.flatMap _ resources = body
    exact ⟨body ++ Kafka.flexTags false tags, by simp [Kafka.tagBuffer, uvarint_zero]⟩
  rw [e4]
  have hb : CrashesAt (rdDescribeAcls 1) (Kafka.int32 corr.toNat ++ (Kafka.tagBuffer [] ++ ([t1, t2, t3, x1] ++ ([x2, 255] ++ ([255, 0] ++ ([n1, n2, n3] ++ rest)))))) := by
    unfold rdDescribeAcls
    refine CrashesAt.after (creads_u32 corr) ?_
    refine CrashesAt.after (m := Cur.call decodeTaggedFields) (CReads.call (reads_taggedFields' none taggedFields_fits_none)) ?_
    refine CrashesAt.after (CReads.bind_pure (g := fun v : UInt32 => v.toInt32) (CReads.bind_pure (g := UInt32.ofNat) (creads_word 4 _ rfl))) ?_
    refine CrashesAt.after (CReads.bind_pure (g := fun v : UInt16 => v.toInt16) (CReads.bind_pure (g := UInt16.ofNat) (creads_word 2 _ rfl))) ?_
    exact CrashesAt.first (nullable_crashes _)
  have := hb (Kafka.int32 (Kafka.int32 corr.toNat ++ (Kafka.tagBuffer [] ++ ([t1, t2, t3, x1] ++ ([x2, 255] ++ ([255, 0] ++ ([n1, n2, n3] ++ rest)))))).length)
  rw [int32_length] at this
  simp only [newDescribeAclsResponse, Cur.bind_def, Cur.advance]
  have z : (0 : Int) + 4 = ((4 : Nat) : Int) := rfl
  rw [z]
  unfold Kafka.frame
  rw [this]

example : newDescribeAclsResponse 1 [0, 0, 0, 16, 0, 0, 0, 7, 0, 0, 0, 5, 0, 0, 255, 255, 0, 0, 0, 0] = .panic ∧
    Kafka.response .describeAcls 1 7 [] (Kafka.describeAclsResponse 1 5 0 none [] []) =
      [0, 0, 0, 16, 0, 0, 0, 7, 0, 0, 0, 5, 0, 0, 255, 255, 0, 0, 0, 0] := by decide +kernel


theorem CrashesAt.s {α : Type} {c : Cur α} {bs : Bytes} (h : CrashesAt c bs) : SPanics c bs := fun _ => h

/-- C74 fails for every answer of version 0 or 1 to delete ACLs about several filters whose second one has no message, an error code below 256 and less
than 2^24 matching ACLs: a tag count that is not there is read behind the first result, and the client crashes. -/
theorem C74_violated_every_deleteAcls (v : UInt16) (hv : v = 0 ∨ v = 1) (corr : UInt32) (throttle : Int32) (x : AclFilterResult) (h : x.Fits)
    (error : Nat) (he : error < 256) (matching : List Kafka.AclDeleted) (hm : matching.length < 2 ^ 24) (ytags : List (Nat × Bytes))
    (rest : List Kafka.AclFilterResult) (hr : rest.length + 2 < 2 ^ 31) (hl : (Kafka.response .deleteAcls v.toNat corr.toNat [] (Kafka.deleteAclsResponse
      v.toNat throttle.toInt (x.wire :: ⟨error, none, matching, ytags⟩ :: rest) [])).length < 2 ^ 31) :
    decodeDeleteAclsResponse v (Kafka.response .deleteAcls v.toNat corr.toNat [] (Kafka.deleteAclsResponse v.toNat throttle.toInt
      (x.wire :: ⟨error, none, matching, ytags⟩ :: rest) [])) = .panic := by
  obtain ⟨hh, ha, hf, hge, hg2⟩ : responseHeaderVersion API_DeleteAcls v = some 0 ∧
      Kafka.Api.responseHeaderVersion .deleteAcls v.toNat = (0 : UInt16).toNat ∧
      Kafka.Api.flexible .deleteAcls v.toNat = false ∧ ¬ v ≥ 2 ∧ decide (v ≥ 2) = false := by
    rcases hv with rfl | rfl <;> decide
  have hflex : ResponseHeader.isFlexible ⟨API_DeleteAcls, v, 0, corr, none⟩ = false := by rcases hv with rfl | rfl <;> rfl
  clear hv
  obtain ⟨n1, n2, n3, e2⟩ := int32_high matching.length hm
  have e3 : Kafka.int16 (error : Int) = [0, UInt8.ofNat error] := by
    have h1 : ((error : Int) % 2 ^ 16).toNat = error := by omega
    have h2 : error / 256 ^ 1 = 0 := by omega
    have h3 : error / 256 ^ 0 = error := by omega
    unfold Kafka.int16 Kafka.be
    rw [h1]
    show [UInt8.ofNat (error / 256 ^ 1), UInt8.ofNat (error / 256 ^ 0)] = _
    rw [h2, h3]
    rfl
  have hn : (Int32.ofNat (rest.length + 2)).toInt = ((rest.length + 2 : Nat) : Int) := Int32.toInt_ofNat_of_lt (by omega)
  obtain ⟨tail, e4⟩ : ∃ tail, Kafka.response .deleteAcls v.toNat corr.toNat [] (Kafka.deleteAclsResponse v.toNat throttle.toInt
      (x.wire :: ⟨error, none, matching, ytags⟩ :: rest) []) = Kafka.frame (Kafka.int32 corr.toNat ++ (Kafka.int32 throttle.toInt ++
        (Kafka.int32 (Int32.ofNat (rest.length + 2)).toInt ++ (Kafka.int16 x.errorCode.toInt ++ (Kafka.flexNullable false x.errorMessage ++
          (Kafka.flexArray false (Kafka.aclDeleted v.toNat) (x.matchingAcls.map MatchingAcl.wire) ++ (Kafka.tagBuffer [] ++
            ([UInt8.ofNat error, 255] ++ ([255, 0] ++ ([n1, n2, n3] ++ tail)))))))))) := by
    unfold Kafka.response Kafka.deleteAclsResponse
    rw [hf, ha, hn]
    simp only [Kafka.responseHeader, Kafka.flexNullable, Kafka.flexArray, Kafka.array, Bool.false_eq_true, if_false, List.flatMap_cons, e2, e3,
      show Kafka.nullableString none = [255, 255] from by decide, Kafka.flexTags]
    generalize List.flatMap _ rest = more
    generalize List.flatMap _ matching = ms
    exact ⟨ms ++ more, by simp [Kafka.tagBuffer, uvarint_zero, AclFilterResult.wire, Int.add_assoc]⟩
  rw [e4] at hl ⊢
  unfold decodeDeleteAclsResponse
  rw [respondWrap_eq _ _ hl]
  have hh' : SReads (Cur.call (decodeResponseHeader API_DeleteAcls v)) (Kafka.int32 corr.toNat) ⟨API_DeleteAcls, v, 0, corr, none⟩ :=
    (CReads.call (reads_responseHeader API_DeleteAcls v 0 hh corr none taggedFields_fits_none)).s.cast (by simp [Kafka.responseHeader]) rfl
  refine respond_panics (SReads.bind_panics hh' ?_) hl
  rw [hflex]
  refine SReads.bind_panics (sreads_i32 _) <| SReads.bind_panics (m := rdFlexCount false) (sreads_i32 _) <| SPanics.bind ?_
  rw [hn]
  unfold Cur.forInt
  rw [if_neg (by omega)]
  show SPanics (rdAclFilterResult v false >>= fun y => Cur.forN (rest.length + 1) (rdAclFilterResult v false) >>= fun ys => pure (y :: ys)) _
  have first : SReads (rdAclFilterResult v false) (Kafka.int16 x.errorCode.toInt ++ (Kafka.flexNullable false x.errorMessage ++
      (Kafka.flexArray false (Kafka.aclDeleted v.toNat) (x.matchingAcls.map MatchingAcl.wire) ++ Kafka.tagBuffer [])))
      ⟨x.errorCode, x.errorMessage, x.matchingAcls.map (MatchingAcl.seen v), none⟩ := by
    refine SReads.bind (sreads_i16 _) <| SReads.bind (sreads_flexNullable fun _ => h.message) ?_
    refine sreads_flexArr (c := Cur.call (decodeMatchingAcl v false)) false MatchingAcl.wire (MatchingAcl.seen v)
      x.matchingAcls (aclDeleted_pos _) (fun m hm => sreads_matchingAcl v false hf hg2.symm m (h.matching m hm)) ?_
    intro n hn hr'
    exact SReads.bind (sreads_forInt hn hr') (.bind_pure (g := fun t => AclFilterResult.mk _ _ _ t)
      ((sreads_tags taggedFields_fits_none).cast rfl rfl))
  have := SReads.bind_panics (f := fun y => Cur.forN (rest.length + 1) (rdAclFilterResult v false) >>= fun ys => pure (y :: ys)) first
    (e2 := [UInt8.ofNat error, 255] ++ ([255, 0] ++ ([n1, n2, n3] ++ tail))) (SPanics.bind (SPanics.bind (CrashesAt.s (CrashesAt.after
      (CReads.bind_pure (g := fun v : UInt16 => v.toInt16) (CReads.bind_pure (g := UInt16.ofNat) (creads_word 2 _ rfl)))
      (CrashesAt.first (nullable_crashes _))))))
  simpa only [List.append_assoc] using this

example : decodeDeleteAclsResponse 0 (Kafka.response .deleteAcls 0 7 [] (Kafka.deleteAclsResponse 0 0
    [⟨0, some [120], [], []⟩, ⟨31, none, [], []⟩, ⟨0, none, [], []⟩] [])) = .panic := by decide +kernel

end Healer
