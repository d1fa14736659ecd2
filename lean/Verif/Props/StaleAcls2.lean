import Verif.Props.StaleAcls
import Verif.Props.NilFilter

/-! C36: every request to create or delete ACLs sent first to an old broker, then to a newer one. -/

namespace Healer

theorem encodePatched_behind (q : RequestHeader) (hv : UInt16) (h1 : q.headerVersion = .ok hv) (h2 : 1 ≤ hv.toNat) (h3 : q.taggedFields = none)
    {n : Nat} {body : Enc} {bs : Bytes} (hw : Writes body bs) (hn : bs.length ≤ n) : encodePatched q n body = .ok (Kafka.frame (q.wire hv ++ bs)) := by
  unfold encodePatched
  rw [requestHeader_length_exact q hv h1 h2 h3]
  simp only [Out.bind_ok]
  rw [encodeCut_of_writes (Writes.all_cons (Writes.put [0, 0, 0, 0]) (Writes.all_cons (requestHeader_writes q hv h1 (by rw [h3]; exact taggedFields_fits_none))
    (Writes.all_cons hw Writes.all_nil)))]
  · simp only [Out.bind_ok, List.append_nil]
    rw [patch_ok]
  · simp; omega

/-- The classic count of a short array is not the tags of a header followed by a compact count. -/
theorem int32_not_compact (n : Nat) (hn : n < 2 ^ 16) (a b : Bytes) : Kafka.int32 n ++ a ≠ [0] ++ (Kafka.uvarint (n + 1) ++ b) := by
  intro h
  have e : Kafka.int32 n = [0, 0, UInt8.ofNat (n / 256), UInt8.ofNat n] := by
    have h1 : ((n : Int) % 2 ^ 32).toNat = n := by omega
    have h2 : n / 256 ^ 2 = 0 := by omega
    have h3 : n / 256 ^ 3 = 0 := by omega
    unfold Kafka.int32 Kafka.be
    rw [h1]
    show [UInt8.ofNat (n / 256 ^ 3), UInt8.ofNat (n / 256 ^ 2), UInt8.ofNat (n / 256 ^ 1), UInt8.ofNat (n / 256 ^ 0)] = _
    rw [h2, h3]
    simp
  rw [e] at h
  simp only [List.cons_append, List.nil_append, List.cons.injEq, true_and] at h
  exact uvarint_first (n + 1) (by omega) _ _ h.symm

theorem request_flexible (a : Kafka.Api) (v corr : Nat) (h : a.requestHeaderVersion v = 2) (cid : Option Bytes) (body : Bytes) :
    Kafka.request a v corr cid body = Kafka.frame (Kafka.requestHeader 1 a.key v corr cid [] ++ ([0] ++ body)) := by
  unfold Kafka.request
  rw [h]
  simp [Kafka.requestHeader, Kafka.tagBuffer, uvarint_zero]

theorem frame_inj {a b : Bytes} (h : Kafka.frame a = Kafka.frame b) : a = b := by
  have := congrArg (List.drop 4) h
  simpa [Kafka.frame] using this

/-- C36 fails for every request to delete ACLs sent first to a broker of version 0 or 1, then to one of version 2 or 3: the second frame says version
2 or 3 and has the header and the body of version 1, which is not the layout of the version. -/
theorem C36_violated_every_deleteAcls (fs : List AclFilter) (hs : ∀ f ∈ fs, f.Small) (hn : fs.length < 2 ^ 16) (v w : UInt16)
    (hv : v = 0 ∨ v = 1) (hw : w = 2 ∨ w = 3) (cid : Option Bytes) (c1 c2 : UInt32) :
    ∃ first, (AnyRequest.deleteAcls fs).transmissions (reqHeader 31 0 0 cid) [(v, c1), (w, c2)] =
        [first, .ok (Kafka.frame (Kafka.requestHeader 1 31 w.toNat c2.toNat cid [] ++ Kafka.deleteAclsRequest 1 (fs.map AclFilter.wire)))] ∧
      Kafka.frame (Kafka.requestHeader 1 31 w.toNat c2.toNat cid [] ++ Kafka.deleteAclsRequest 1 (fs.map AclFilter.wire)) ≠
        Kafka.request .deleteAcls w.toNat c2.toNat cid (Kafka.deleteAclsRequest w.toNat (fs.map AclFilter.wire)) := by
  refine ⟨(AnyRequest.transmit (.deleteAcls fs) (reqHeader 31 0 0 cid) v c1).1, ?_, ?_⟩
  · have h2 : (AnyRequest.transmit (.deleteAcls fs) (reqHeader 31 0 0 cid) v c1).2 = { reqHeader 31 v c1 cid with hv := some 1 } := by
      rcases hv with rfl | rfl <;> rfl
    have hwr : Writes (.all [Enc.put (be32 (UInt32.ofNat fs.length)), .each (AclFilter.enc w false) fs, .when false .noTags])
        (Kafka.deleteAclsRequest 1 (fs.map AclFilter.wire)) := by
      have he := Writes.each (f := AclFilter.enc w false) (g := fun f => filterWire 1 f.wire) fs fun f hf => by
        have : AclFilter.enc w false f = AclFilter.enc 1 false f := by rcases hw with rfl | rfl <;> rfl
        rw [this]
        exact filter_writes 1 f (hs f hf)
      refine Writes.cast writes![count_writes 1 fs.length (by omega), he, Writes.nop] ?_
      rw [deleteAcls_wire, List.flatMap_map]
      simp [endTags]
    have hb : encodeDeleteAclsRequest { reqHeader 31 w c2 cid with hv := some 1 } fs = .ok (Kafka.frame
        (({ reqHeader 31 w c2 cid with hv := some 1 } : RequestHeader).wire 1 ++ Kafka.deleteAclsRequest 1 (fs.map AclFilter.wire))) :=
      encodePatched_behind { reqHeader 31 w c2 cid with hv := some 1 } 1 rfl (by decide) rfl hwr (deleteAcls_length 1 fs hs (by omega))
    rw [show AnyRequest.transmissions (.deleteAcls fs) (reqHeader 31 0 0 cid) [(v, c1), (w, c2)] =
      [(AnyRequest.transmit (.deleteAcls fs) (reqHeader 31 0 0 cid) v c1).1,
       (AnyRequest.transmit (.deleteAcls fs) (AnyRequest.transmit (.deleteAcls fs) (reqHeader 31 0 0 cid) v c1).2 w c2).1] from rfl, h2]
    exact congrArg (fun x => [_, x]) hb
  · rw [request_flexible .deleteAcls _ _ (by rcases hw with rfl | rfl <;> rfl)]
    intro h
    have := List.append_cancel_left (frame_inj h)
    rw [deleteAcls_wire, deleteAcls_wire, countWire, countWire, if_neg (by decide),
      if_pos (by rcases hw with rfl | rfl <;> decide)] at this
    exact int32_not_compact _ hn _ _ this

example : ∀ f ∈ ([⟨2, some [116], 3, none, none, 1, 1⟩] : List AclFilter), f.Small := by
  intro f hf
  simp only [List.mem_singleton] at hf
  subst hf
  exact ⟨by simp, by simp, by simp⟩

/-- The layout of an ACL to create with a header of version 1 -/
theorem creation_stale (w : UInt16) (hw : w = 2 ∨ w = 3) (f : AclCreation) : ∃ bs, Writes (f.enc w 1) bs ∧ bs.length ≤ f.length := by
  have str : ∀ s : Bytes, Writes (encodeAclString 1 s) (Kafka.string s) := fun s => by
    unfold encodeAclString
    rw [if_pos (by decide)]
    exact Writes.cpyO (encodeString_eq s)
  have h1 : decide (w ≥ 1) = true := by rcases hw with rfl | rfl <;> rfl
  unfold AclCreation.enc
  rw [h1]
  refine ⟨_, writes![Writes.u8 _, str _, Writes.u8 _, str _, str _, Writes.u8 _, Writes.u8 _, Writes.noTags], ?_⟩
  simp [AclCreation.length, noTagsLength_eq, Kafka.string]
  omega

theorem creations_stale (w : UInt16) (hw : w = 2 ∨ w = 3) (fs : List AclCreation) (n : Nat) :
    ∃ bs, Writes (.each (AclCreation.enc w 1) fs) bs ∧ n + bs.length ≤ fs.foldl (fun l f => l + f.length) n := by
  choose g hg using creation_stale w hw
  refine ⟨_, Writes.each (f := AclCreation.enc w 1) (g := g) fs fun f _ => (hg f).1, ?_⟩
  induction fs generalizing n with
  | nil => exact Nat.le_refl _
  | cons f fs ih =>
    have := ih (n + f.length)
    have := (hg f).2
    rw [List.foldl_cons, List.flatMap_cons, List.length_append]
    omega

/-- C36 fails for every request to create ACLs sent first to a broker of version 0 or 1, then to one of version 2 or 3: the second frame says version
2 or 3 and has the header and the count of an older one, which is not what a new object gives. -/
theorem C36_violated_every_createAcls (fs : List AclCreation) (hs : ∀ f ∈ fs, f.Small) (hn : fs.length < 2 ^ 16) (v w : UInt16)
    (hv : v = 0 ∨ v = 1) (hw : w = 2 ∨ w = 3) (cid : Option Bytes) (c1 c2 : UInt32) :
    ∃ first bs, (AnyRequest.createAcls fs).transmissions (reqHeader 30 0 0 cid) [(v, c1), (w, c2)] =
        [first, .ok (Kafka.frame (Kafka.requestHeader 1 30 w.toNat c2.toNat cid [] ++ (Kafka.int32 fs.length ++ bs)))] ∧
      (AnyRequest.createAcls fs).encode (reqHeader 30 w c2 cid) w ≠
        .ok (Kafka.frame (Kafka.requestHeader 1 30 w.toNat c2.toNat cid [] ++ (Kafka.int32 fs.length ++ bs))) := by
  obtain ⟨bs, hb, hl⟩ := creations_stale w hw fs 4
  refine ⟨(AnyRequest.transmit (.createAcls fs) (reqHeader 30 0 0 cid) v c1).1, bs ++ Kafka.tagBuffer [], ?_, ?_⟩
  · have h2 : (AnyRequest.transmit (.createAcls fs) (reqHeader 30 0 0 cid) v c1).2 = { reqHeader 30 v c1 cid with hv := some 1 } := by
      rcases hv with rfl | rfl <;> rfl
    have hwr : Writes (.all [Enc.put (be32 (UInt32.ofNat fs.length)), .each (AclCreation.enc w 1) fs, .noTags])
        (Kafka.int32 fs.length ++ (bs ++ Kafka.tagBuffer [])) :=
      Writes.cast writes![Writes.put _, hb, Writes.noTags] (by rw [be32_ofNat])
    have hb : encodeCreateAclsRequest { reqHeader 30 w c2 cid with hv := some 1 } fs = .ok (Kafka.frame
        (({ reqHeader 30 w c2 cid with hv := some 1 } : RequestHeader).wire 1 ++ (Kafka.int32 fs.length ++ (bs ++ Kafka.tagBuffer [])))) :=
      encodePatched_behind (n := fs.foldl (fun l c => l + c.length) 4 + noTagsLength) { reqHeader 30 w c2 cid with hv := some 1 } 1 rfl (by decide) rfl hwr (by
        simp only [List.length_append, int32_length, tagBuffer_nil_length, noTagsLength_eq]
        omega)
    rw [show AnyRequest.transmissions (.createAcls fs) (reqHeader 30 0 0 cid) [(v, c1), (w, c2)] =
      [(AnyRequest.transmit (.createAcls fs) (reqHeader 30 0 0 cid) v c1).1,
       (AnyRequest.transmit (.createAcls fs) (AnyRequest.transmit (.createAcls fs) (reqHeader 30 0 0 cid) v c1).2 w c2).1] from rfl, h2]
    exact congrArg (fun x => [_, x]) hb
  · have h2 : 2 ≤ w.toNat := by rcases hw with rfl | rfl <;> decide
    rw [show (AnyRequest.createAcls fs).encode (reqHeader 30 w c2 cid) w = encodeCreateAclsRequest (reqHeader API_CreateAcls w c2 cid) fs from rfl,
      C65_createAcls_partial fs hs (by omega) w (by rcases hw with rfl | rfl <;> decide) h2,
      request_flexible .createAcls _ _ (by rcases hw with rfl | rfl <;> rfl), createAcls_wire _ h2]
    intro h
    have := List.append_cancel_left (frame_inj (Out.ok.inj h))
    exact int32_not_compact _ hn _ _ this.symm

example : ∀ f ∈ ([⟨2, [116], 3, [117], [42], 3, 3⟩] : List AclCreation), f.Small := by
  intro f hf
  simp only [List.mem_singleton] at hf
  subst hf
  exact ⟨by simp, by simp, by simp⟩

end Healer
