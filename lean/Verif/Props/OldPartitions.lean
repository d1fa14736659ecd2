import Verif.Props.OldAcls

/-! C70: every answer of version 0 about partitions added to two topics crashes the client. -/

namespace Healer

theorem creads_skip (b : UInt8) : CReads (Cur.advance 1) [b] () := fun _ _ => rfl

/-- C70 fails for every answer of version 0 about partitions added to two topics: the byte skipped behind the first result makes the length of the
second name at least 256, and the client crashes whenever less than 250 bytes of message follow. -/
theorem C70_violated_every_createPartitions_v0 (corr : UInt32) (throttle : Int32) (x : CreatePartitionsResult) (h : x.Fits) (name : Bytes)
    (h1 : name ≠ []) (h2 : name.length < 256) (error : Int16) (message : Option Bytes) (hm : (Kafka.nullableString message).length < 250)
    (hl : (Kafka.response .createPartitions 0 corr.toNat [] (Kafka.createPartitionsResponse 0 throttle.toInt
      [x.wire, ⟨name, error.toInt, message⟩])).length < 2 ^ 31) :
    newCreatePartitionsResponse 0 (Kafka.response .createPartitions 0 corr.toNat [] (Kafka.createPartitionsResponse 0 throttle.toInt
      [x.wire, ⟨name, error.toInt, message⟩])) = .panic := by
  obtain ⟨c, cs, rfl⟩ := List.exists_cons_of_ne_nil h1
  have e3 : Kafka.int16 ((c :: cs).length : Int) = [0, UInt8.ofNat (c :: cs).length] := by
    have g1 : (((c :: cs).length : Int) % 2 ^ 16).toNat = (c :: cs).length := by omega
    have g2 : (c :: cs).length / 256 ^ 1 = 0 := by omega
    have g3 : (c :: cs).length / 256 ^ 0 = (c :: cs).length := by omega
    unfold Kafka.int16 Kafka.be
    rw [g1]
    show [UInt8.ofNat ((c :: cs).length / 256 ^ 1), UInt8.ofNat ((c :: cs).length / 256 ^ 0)] = _
    rw [g2, g3]
    rfl
  have e : Kafka.response .createPartitions 0 corr.toNat [] (Kafka.createPartitionsResponse 0 throttle.toInt [x.wire, ⟨c :: cs, error.toInt, message⟩]) =
      Kafka.frame (Kafka.int32 corr.toNat ++ ([] ++ (Kafka.int32 throttle.toInt ++ (Kafka.int32 (2 : UInt32).toNat ++ ((Kafka.string x.topicName ++
        (Kafka.int16 x.errorCode.toInt ++ (Kafka.nullableString x.errorMessage ++ [0]))) ++ ([UInt8.ofNat (c :: cs).length, c] ++
          (cs ++ (Kafka.int16 error.toInt ++ Kafka.nullableString message)))))))) := by
    simp only [Kafka.response, Kafka.responseHeader, Kafka.createPartitionsResponse,
      show Kafka.Api.responseHeaderVersion .createPartitions 0 = 0 from rfl,
      show Kafka.Api.flexible .createPartitions 0 = false from rfl, Kafka.flexArray, Kafka.flexString, Kafka.flexNullable,
      Kafka.flexTags, Kafka.array, CreatePartitionsResult.wire, List.flatMap_cons, Kafka.string, e3]
    simp
  rw [e] at hl ⊢
  refine respond_panics (SReads.bind_panics (sreads_u32 _) <| SReads.bind_panics (e1 := []) (CReads.pure ()).s <|
    SReads.bind_panics (sreads_i32 _) <| SReads.bind_panics (a := (2 : Int)) (CReads.bind_pure (g := fun n : UInt32 => (n.toNat : Int)) (creads_u32 2)).s
      (SPanics.bind ?_)) hl
  have first : SReads (rdCreatePartitionsResult 0) (Kafka.string x.topicName ++ (Kafka.int16 x.errorCode.toInt ++ (Kafka.nullableString x.errorMessage ++ [0]))) x := by
    unfold rdCreatePartitionsResult
    exact SReads.bind (sreads_str16 h.name) <| SReads.bind (sreads_i16 _) <| SReads.bind (sreads_nullableString h.message)
      (SReads.bind_pure (g := fun _ => x) (creads_skip 0).s)
  show SPanics (rdCreatePartitionsResult 0 >>= fun y => Cur.forN 1 (rdCreatePartitionsResult 0) >>= fun ys => pure (y :: ys)) _
  refine SReads.bind_panics first (SPanics.bind ?_)
  show SPanics (rdCreatePartitionsResult 0 >>= fun y => Cur.forN 0 (rdCreatePartitionsResult 0) >>= fun ys => pure (y :: ys)) _
  refine SPanics.bind (SPanics.bind ?_)
  show SPanics (rdU16 >>= fun l => rdBytes l.toNat) _
  refine CrashesAt.s (CrashesAt.after (CReads.bind_pure (g := UInt16.ofNat) (creads_word 2 _ rfl)) ?_)
  intro pre
  unfold rdBytes sliceTo
  rw [if_neg]
  have g : (UInt16.ofNat (beVal [UInt8.ofNat (c :: cs).length, c])).toNat ≥ 256 * (c :: cs).length := by
    have k1 : (UInt8.ofNat (c :: cs).length).toNat = (c :: cs).length := UInt8.toNat_ofNat_of_lt' h2
    have k2 := c.toNat_lt
    have k3 : beVal [UInt8.ofNat (c :: cs).length, c] = (c :: cs).length * 256 + c.toNat := by
      simp only [beVal, List.foldl, k1]
      omega
    rw [k3, UInt16.toNat_ofNat_of_lt' (by show _ < 65536; omega)]
    omega
  simp only [List.length_append, List.length_cons, int16_length] at g ⊢
  omega

example : newCreatePartitionsResponse 0 (Kafka.response .createPartitions 0 7 [] (Kafka.createPartitionsResponse 0 0
    [⟨[97], 0, none⟩, ⟨[98, 99], 37, some [110, 111]⟩])) = .panic ∧ (Kafka.nullableString (some [110, 111])).length < 250 := by decide +kernel

end Healer
