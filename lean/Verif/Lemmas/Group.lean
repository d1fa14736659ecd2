import Verif.Lemmas.Header
import Verif.Lemmas.Assign
import Verif.Spec.Group

/-! # Helper lemmas about the group protocol encodings -/

namespace Healer

theorem foldl_length {α : Type} {f : Nat → α → Nat} {enc : α → Bytes} (xs : List α) (a : Nat)
    (h : ∀ l, ∀ x ∈ xs, f l x = l + (enc x).length) : xs.foldl f a = a + (xs.flatMap enc).length := by
  induction xs generalizing a with
  | nil => simp
  | cons x xs ih =>
    simp only [List.foldl_cons, List.flatMap_cons, List.length_append]
    rw [h a x (by simp), ih _ (fun l y hy => h l y (by simp [hy]))]
    omega

theorem flatMap_length_const {α : Type} {enc : α → Bytes} {k : Nat} (xs : List α)
    (h : ∀ x ∈ xs, (enc x).length = k) : (xs.flatMap enc).length = xs.length * k := by
  induction xs with
  | nil => simp
  | cons x xs ih =>
    simp only [List.flatMap_cons, List.length_append, List.length_cons]
    rw [h x (by simp), ih (fun y hy => h y (by simp [hy])), Nat.succ_mul]; omega

/-- The grammar of one topic of an assignment, from the Go structure. -/
def PartitionAssignment.wire (p : PartitionAssignment) : Bytes :=
  Kafka.string p.topic ++ Kafka.array Kafka.int32 (p.partitions.map Int32.toInt)

theorem wire_flatMap (pas : List PartitionAssignment) :
    pas.flatMap PartitionAssignment.wire
      = (pas.map fun p => (p.topic, p.partitions.map Int32.toInt)).flatMap
          (fun t => Kafka.string t.1 ++ Kafka.array Kafka.int32 t.2) := by
  rw [List.flatMap_map]; rfl

theorem partitionAssignment_writes (p : PartitionAssignment) : Writes p.enc p.wire := by
  refine Writes.cast (Writes.all_cons (Writes.put _) (Writes.all_cons (Writes.cpyN _)
    (Writes.all_cons (Writes.put _) (Writes.all_cons (Writes.each (g := fun x : Int32 => Kafka.int32 x.toInt) _ ?_)
      Writes.all_nil)))) ?_
  · intro x _; exact (Writes.put _).cast (be32_eq x)
  · simp [PartitionAssignment.wire, Kafka.string, Kafka.array, be16_ofNat, be32_ofNat,
      List.flatMap_map]

theorem partitionAssignment_wire_length (p : PartitionAssignment) :
    p.wire.length = (2 + p.topic.length) + (4 + p.partitions.length * 4) := by
  simp only [PartitionAssignment.wire, Kafka.string, Kafka.array, List.length_append, int16_length,
    int32_length]
  rw [flatMap_length_const (k := 4)]
  · simp
  · intro x _; simp

/-- Encoding with no user data is the grammar. -/
theorem memberAssignment_encode_eq (m : MemberAssignment) (h : m.userData.getD [] = []) :
    m.encode = .ok (Kafka.assignment m.version.toInt
      (m.partitionAssignments.map fun p => (p.topic, p.partitions.map Int32.toInt)) []) := by
  have hw : Writes (Enc.all [
    .put (be16 m.version.toUInt16),
    .put (be32 (UInt32.ofNat m.partitionAssignments.length)),
    .each PartitionAssignment.enc m.partitionAssignments,
    .cpy (m.userData.getD [])])
      (Kafka.int16 m.version.toInt ++ (Kafka.int32 m.partitionAssignments.length ++
        (m.partitionAssignments.flatMap PartitionAssignment.wire ++ ([] ++ [])))) := by
    refine Writes.all_cons ((Writes.put _).cast (be16_eq _)) (Writes.all_cons
      ((Writes.put _).cast (be32_ofNat _)) (Writes.all_cons (Writes.each _ ?_)
        (Writes.all_cons ?_ Writes.all_nil)))
    · intro x _; exact partitionAssignment_writes x
    · rw [h]; exact Writes.cpy _
  unfold MemberAssignment.encode
  have hl : m.length = (Kafka.int16 m.version.toInt ++ (Kafka.int32 m.partitionAssignments.length ++
        (m.partitionAssignments.flatMap PartitionAssignment.wire ++ ([] ++ [])))).length + 4 := by
    unfold MemberAssignment.length
    rw [foldl_length (enc := PartitionAssignment.wire), h]
    · simp; omega
    · intro l x _; rw [partitionAssignment_wire_length]; omega
  rw [encodeFull_of_writes hw (by omega), hl]
  congr 1
  rw [Nat.add_sub_cancel_left]
  rw [wire_flatMap]
  simp only [Kafka.assignment, Kafka.bytes, List.append_nil, List.append_assoc, List.length_nil]
  rw [Kafka.array]
  simp only [List.length_map, List.append_assoc]
  have : (Kafka.int32 0) = List.replicate 4 0 := by decide
  rw [show ((0 : Nat) : Int) = 0 from rfl, this]

theorem creads_partitionAssignment (p : PartitionAssignment) (h1 : p.topic.length < 2 ^ 16)
    (h2 : p.partitions.length < 2 ^ 32) : CReads decodePartitionAssignment p.wire p := by
  have hps : CReads (Cur.forN (UInt32.ofNat p.partitions.length).toNat rdI32)
      (p.partitions.flatMap (fun x => Kafka.int32 x.toInt)) p.partitions := by
    rw [toNat_len32 _ h2]
    have := CReads.forN (c := rdI32) (enc := fun x : Int32 => Kafka.int32 x.toInt) (g := id)
      p.partitions (fun x _ => creads_int32 x)
    simpa using this
  refine CReads.cast (CReads.bind (creads_len16 p.topic.length) (CReads.bind
    (reads_rdBytes p.topic _ (by rw [toNat_len16 _ h1])) (CReads.bind (creads_len32 p.partitions.length)
      (CReads.bind_pure hps)))) ?_ rfl
  simp [PartitionAssignment.wire, Kafka.string, Kafka.array, List.flatMap_map]

/-- Any assignment in the grammar is decoded, including user data. -/
theorem newMemberAssignment_grammar (v : Int16) (pas : List PartitionAssignment) (u rest : Bytes)
    (hc : pas.length < 2 ^ 31) (hu : u.length < 2 ^ 31)
    (hp : ∀ p ∈ pas, p.topic.length < 2 ^ 16 ∧ p.partitions.length < 2 ^ 32) :
    newMemberAssignment (Kafka.assignment v.toInt
        (pas.map fun p => (p.topic, p.partitions.map Int32.toInt)) u ++ rest)
      = .ok ⟨v, pas, some u⟩ := by
  unfold newMemberAssignment
  have hwire : Kafka.assignment v.toInt (pas.map fun p => (p.topic, p.partitions.map Int32.toInt)) u ++ rest
      = Kafka.int16 v.toInt ++ (Kafka.int32 pas.length ++ (pas.flatMap PartitionAssignment.wire ++
        (Kafka.int32 u.length ++ (u ++ rest)))) := by
    rw [wire_flatMap, Kafka.assignment, Kafka.array, Kafka.bytes]
    simp only [List.length_map, List.append_assoc]
  rw [hwire]
  rw [if_neg (by simp)]
  have hpas : CReads (Cur.forInt (UInt32.ofNat pas.length).toInt32.toInt decodePartitionAssignment)
      (pas.flatMap PartitionAssignment.wire) pas := by
    have := CReads.forInt (c := decodePartitionAssignment) (enc := PartitionAssignment.wire) (g := id)
      pas _ (toInt_ilen32 _ hc) (fun p hpm => creads_partitionAssignment p (hp p hpm).1 (hp p hpm).2)
    simpa using this
  have h1 := creads_int16 v [] (Kafka.int32 pas.length ++ (pas.flatMap PartitionAssignment.wire ++
        (Kafka.int32 u.length ++ (u ++ rest))))
  have h2 := creads_ilen32 pas.length (Kafka.int16 v.toInt) (pas.flatMap PartitionAssignment.wire ++
        (Kafka.int32 u.length ++ (u ++ rest)))
  have h3 := hpas (Kafka.int16 v.toInt ++ Kafka.int32 pas.length) (Kafka.int32 u.length ++ (u ++ rest))
  have h4 := creads_ilen32 u.length (Kafka.int16 v.toInt ++ Kafka.int32 pas.length ++
    pas.flatMap PartitionAssignment.wire) (u ++ rest)
  have h5 := sliceFrom_append (Kafka.int16 v.toInt ++ Kafka.int32 pas.length ++
    pas.flatMap PartitionAssignment.wire ++ Kafka.int32 u.length) (u ++ rest)
  simp only [List.nil_append, List.length_nil, List.append_assoc, List.length_append, int16_length, int32_length,
    Nat.zero_add, Nat.add_assoc] at h1 h2 h3 h4 h5
  have e0 : ((0 : Nat) : Int) = 0 := rfl
  rw [e0] at h1
  simp only [Cur.bind_def, h1, h2, h3, h4]
  have hun := toInt_ilen32 u.length hu
  rw [if_neg (fun hc => by rw [hc] at hun; have : ((-1 : Int32)).toInt = -1 := by decide
                           omega)]
  rw [if_neg (by omega)]
  simp only [Cur.bind_def, Cur.peekRest, Nat.add_assoc] at h5 ⊢
  rw [h5]
  simp only [Cur.pure_def, hun, Int.toNat_natCast]
  simp

theorem protocolMetadata_length (m : ProtocolMetadata) (v : Int) :
    m.length = (Kafka.subscription v m.subscription (m.userData.getD [])).length := by
  unfold ProtocolMetadata.length
  rw [foldl_length (enc := Kafka.string)]
  · simp [Kafka.subscription, Kafka.array, Kafka.bytes]; omega
  · intro l x _; simp [Kafka.string]; omega

theorem protocolMetadata_encode_eq (m : ProtocolMetadata) :
    m.encode = .ok (Kafka.subscription m.version.toNat m.subscription (m.userData.getD [])) := by
  unfold ProtocolMetadata.encode
  apply encodeFull_exact _ (protocolMetadata_length m _).symm
  refine Writes.cast (Writes.all_cons ((Writes.put _).cast (be16_toNat _)) (Writes.all_cons
      ((Writes.put _).cast (be32_ofNat _)) (Writes.all_cons (Writes.each (g := Kafka.string) _ ?_)
        (Writes.all_cons ((Writes.put _).cast (be32_ofNat _)) (Writes.all_cons (Writes.cpy _) Writes.all_nil))))) ?_
  · intro x _
    refine Writes.cast (Writes.all_cons ((Writes.put _).cast (be16_ofNat _)) (Writes.all_cons (Writes.cpyN _)
      Writes.all_nil)) ?_
    simp [Kafka.string]
  · simp [Kafka.subscription, Kafka.array, Kafka.bytes]

theorem newProtocolMetadata_grammar (v : UInt16) (ss : List Bytes) (u rest : Bytes)
    (hc : ss.length < 2 ^ 32) (hu : u.length < 2 ^ 31) (hs : ∀ s ∈ ss, s.length < 2 ^ 16) :
    newProtocolMetadata (Kafka.subscription v.toNat ss u ++ rest) = .ok ⟨v, ss, some u⟩ := by
  unfold newProtocolMetadata
  have hss : CReads (Cur.forN (UInt32.ofNat ss.length).toNat (do
      let l ← rdU16
      rdBytes l.toNat)) (ss.flatMap Kafka.string) ss := by
    rw [toNat_len32 _ hc]
    have := CReads.forN (c := (do
      let l ← rdU16
      rdBytes l.toNat)) (enc := Kafka.string) (g := id)
      ss (fun s hm => CReads.bind (creads_len16 s.length) (reads_rdBytes s _ (by rw [toNat_len16 _ (hs s hm)])))
    simpa using this
  have h := CReads.bind (m := rdU16) (f := fun v => do
    let c ← rdU32
    let ss ← Cur.forN c.toNat (do
      let l ← rdU16
      rdBytes l.toNat)
    let l ← rdI32
    if l = -1 then pure { version := v, subscription := ss, userData := none }
    else if l.toInt < 0 then Cur.crash
    else do
      let u ← rdBytes l.toInt
      pure ({ version := v, subscription := ss, userData := some u } : ProtocolMetadata))
    (creads_u16 v) (CReads.bind (creads_len32 ss.length) (CReads.bind hss
      (CReads.bind (creads_ilen32 u.length) (e2 := u) (b := ⟨v, ss, some u⟩) ?_)))
  · have := h [] rest
    have e : Kafka.subscription v.toNat ss u
        = Kafka.int16 v.toNat ++ (Kafka.int32 ss.length ++ (ss.flatMap Kafka.string ++
          (Kafka.int32 u.length ++ u))) := by
      simp [Kafka.subscription, Kafka.array, Kafka.bytes]
    rw [e]
    simp only [List.nil_append, List.length_nil] at this
    have e0 : ((0 : Nat) : Int) = 0 := rfl
    rw [e0] at this
    rw [this]
  · have hun := toInt_ilen32 u.length hu
    rw [if_neg (fun hc => by rw [hc] at hun; have : ((-1 : Int32)).toInt = -1 := by decide
                             omega)]
    rw [if_neg (by omega)]
    exact CReads.bind_pure (reads_rdBytes u _ hun)

end Healer
