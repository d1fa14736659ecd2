import Verif.Props.OldAcls

/-! C70: no answer to describe configs with a message beside a resource without error is understood. -/

namespace Healer

/-- Whatever the code reads from these bytes, wherever they begin, is like this. -/
def ReadsSome {α : Type} (c : Cur α) (bs : Bytes) (P : α → Prop) : Prop :=
  ∀ (pre : Bytes) (a : α) (o : Int), c (pre ++ bs) (pre.length : Int) = .ok (a, o) → P a

theorem ReadsSome.after {α β : Type} {m : Cur α} {f : α → Cur β} {e bs : Bytes} {a : α} {P : β → Prop} (h1 : CReads m e a) (h2 : ReadsSome (f a) bs P) :
    ReadsSome (m >>= f) (e ++ bs) P := by
  intro pre b o h
  rw [Cur.bind_def, h1 pre bs] at h
  refine h2 (pre ++ e) b o ?_
  rw [List.append_assoc, List.length_append]
  exact h

theorem ReadsSome.bind {α β : Type} {m : Cur α} {f : α → Cur β} {bs : Bytes} {Q : α → Prop} {P : β → Prop} (h1 : ReadsSome m bs Q)
    (h2 : ∀ a, Q a → ∀ p i b o, f a p i = .ok (b, o) → P b) : ReadsSome (m >>= f) bs P := by
  intro pre b o h
  rw [Cur.bind_def] at h
  cases hm : m (pre ++ bs) (pre.length : Int) with
  | ok x =>
    obtain ⟨a, i⟩ := x
    rw [hm] at h
    exact h2 a (h1 pre a i hm) _ _ _ _ h
  | err e => rw [hm] at h; simp at h
  | panic => rw [hm] at h; simp at h

theorem ReadsSome.call {α : Type} {c : Cur α} {bs : Bytes} {P : α → Prop} (h : ReadsSome c bs P) : ReadsSome (Cur.call (Cur.run c)) bs P := by
  intro pre a o hc
  unfold Cur.call Cur.run at hc
  rw [sliceFrom_append] at hc
  cases hm : c bs 0 with
  | ok x =>
    obtain ⟨b, i⟩ := x
    simp only [hm, Out.ok.injEq, Prod.mk.injEq] at hc
    exact hc.1 ▸ h [] b i hm
  | err e => simp [hm] at hc
  | panic => simp [hm] at hc

/-- What a step followed by `pure` gives -/
theorem then_pure {α β : Type} {m : Cur α} {g : α → β} {P : β → Prop} (h : ∀ a, P (g a)) (p : Bytes) (i : Int) (b : β) (o : Int)
    (e : (m >>= fun a => pure (g a)) p i = .ok (b, o)) : P b := by
  rw [Cur.bind_def] at e
  cases hm : m p i with
  | ok x =>
    obtain ⟨a, j⟩ := x
    rw [hm] at e
    have e : (Out.ok (g a, j) : Out (β × Int)) = .ok (b, o) := e
    simp only [Out.ok.injEq, Prod.mk.injEq] at e
    exact e.1 ▸ h a
  | err e' => rw [hm] at e; simp at e
  | panic => rw [hm] at e; simp at e

theorem respond_tells {α : Type} {c : Cur α} {body : Bytes} {P : α → Prop} (h : ReadsSome c body P) (hl : (Kafka.frame body).length < 2 ^ 31) (a : α)
    (e : respond c (Kafka.frame body) = .ok a) : P a := by
  unfold respond at e
  have hb : body.length < 2 ^ 31 := by
    unfold Kafka.frame at hl; rw [List.length_append] at hl; omega
  rw [Cur.bind_def, openFrame_ok _ (by omega)] at e
  cases hm : c (Kafka.frame body) 4 with
  | ok x =>
    obtain ⟨b, i⟩ := x
    simp only [hm, Out.ok.injEq] at e
    exact e ▸ h (Kafka.int32 body.length) b i hm
  | err e' => simp [hm] at e
  | panic => simp [hm] at e

/-- A resource without error but with a message: its type is the first byte of the message, and the message is gone. -/
theorem resource_tells (x y c : UInt8) (bs : Bytes) :
    ReadsSome (Cur.call decodeDescribedResource) ([0, 0] ++ ([x, y] ++ ([c] ++ bs))) fun r => r.errorCode = 0 ∧ r.errorMessage = [] ∧ r.resourceType = c := by
  refine ReadsSome.call (ReadsSome.after (a := (0 : Int16)) (CReads.bind_pure (g := fun v : UInt16 => v.toInt16)
    (CReads.bind_pure (g := UInt16.ofNat) (creads_word 2 [0, 0] rfl))) ?_)
  refine ReadsSome.after (a := []) (CReads.bind_pure (g := fun _ => []) (fun _ _ => rfl : CReads (Cur.advance 2) [x, y] ())) ?_
  refine ReadsSome.after (a := c) (reads_rdU8 c) ?_
  refine ReadsSome.bind (Q := fun _ => True) (fun _ _ _ _ => trivial) ?_
  intro n _ p i b o h
  exact then_pure (P := fun r : DescribedResource => r.errorCode = 0 ∧ r.errorMessage = [] ∧ r.resourceType = c) (fun _ => ⟨rfl, rfl, rfl⟩) p i b o h

/-- C70 fails for every answer to describe configs whose first resource has no error but a message that is not empty: whatever the client reads, if it does
not crash, the resource has the first byte of the message for its type and no message.  The types that the protocol
defines (2 topic, 4 broker, 8 logger) are control characters, with which no text begins. -/
theorem C70_violated_every_describeConfigs_message (corr throttle : UInt32) (x : Kafka.DescribedConfig) (he : x.error = 0) (c : UInt8) (cs : Bytes)
    (hm : x.message = some (c :: cs)) (rest : List Kafka.DescribedConfig) (hr : rest.length + 1 < 2 ^ 32)
    (hl : (Kafka.response .describeConfigs 0 corr.toNat [] (Kafka.describeConfigsResponse throttle.toNat (x :: rest))).length < 2 ^ 31)
    (r : DescribeConfigsResponse) (e : Option Err)
    (h : newDescribeConfigsResponse (Kafka.response .describeConfigs 0 corr.toNat [] (Kafka.describeConfigsResponse throttle.toNat (x :: rest))) = .ok (r, e)) :
    ∃ y ys, r.resources = y :: ys ∧ y.resourceType = c ∧ y.errorMessage = [] := by
  obtain ⟨a, b, e2⟩ : ∃ a b, Kafka.int16 ((cs.length + 1 : Nat) : Int) = [a, b] := ⟨_, _, rfl⟩
  obtain ⟨tail, e1⟩ : ∃ tail, Kafka.response .describeConfigs 0 corr.toNat [] (Kafka.describeConfigsResponse throttle.toNat (x :: rest)) =
      Kafka.frame (Kafka.int32 corr.toNat ++ (Kafka.int32 throttle.toNat ++ (Kafka.int32 (UInt32.ofNat (rest.length + 1)).toNat ++
        ([0, 0] ++ ([a, b] ++ ([c] ++ tail)))))) := by
    rw [response_plain _ _ _ _ _ rfl, UInt32.toNat_ofNat_of_lt' (by show _ < 4294967296; omega)]
    simp only [Kafka.describeConfigsResponse, Kafka.array, List.flatMap_cons, he, hm, Kafka.nullableString, e2, List.length_cons,
      show Kafka.int16 0 = [0, 0] from by decide, List.append_assoc, List.cons_append, List.nil_append]
    exact ⟨_, rfl⟩
  rw [e1] at hl h
  have key : ReadsSome (do
      let c ← rdU32
      let t ← rdU32
      let rs ← rdArr32 (Cur.call decodeDescribedResource)
      pure (⟨c, t, rs⟩, none) : Cur (DescribeConfigsResponse × Option Err)) (Kafka.int32 corr.toNat ++ (Kafka.int32 throttle.toNat ++
        (Kafka.int32 (UInt32.ofNat (rest.length + 1)).toNat ++ ([0, 0] ++ ([a, b] ++ ([c] ++ tail))))))
      fun z => ∃ y ys, z.1.resources = y :: ys ∧ y.resourceType = c ∧ y.errorMessage = [] := by
    refine ReadsSome.after (creads_u32 _) (ReadsSome.after (creads_u32 _) (ReadsSome.bind
      (Q := fun l : List DescribedResource => ∃ y ys, l = y :: ys ∧ y.resourceType = c ∧ y.errorMessage = []) (ReadsSome.after (creads_u32 _) ?_) ?_))
    · rw [UInt32.toNat_ofNat_of_lt' (by show _ < 4294967296; omega)]
      refine ReadsSome.bind (resource_tells a b c tail) ?_
      intro y hy p i l o hc
      exact then_pure (P := fun l : List DescribedResource => ∃ y ys, l = y :: ys ∧ y.resourceType = c ∧ y.errorMessage = [])
        (fun ys => ⟨y, ys, rfl, hy.2.2, hy.2.1⟩) p i l o hc
    · rintro l ⟨y, ys, rfl, h1, h2⟩ p i z o hz
      have hz : (Out.ok (((⟨corr, throttle, y :: ys⟩, none) : DescribeConfigsResponse × Option Err), i) : Out (_ × Int)) = .ok (z, o) := hz
      simp only [Out.ok.injEq, Prod.mk.injEq] at hz
      exact ⟨y, ys, by rw [← hz.1], h1, h2⟩
  exact respond_tells key hl (r, e) h

/-- a message that does not crash the client, the letter o and six zero bytes: the type is read as 111 instead of 2, and the name "t" as empty -/
example : ∃ r, newDescribeConfigsResponse (Kafka.response .describeConfigs 0 7 [] (Kafka.describeConfigsResponse 0
    [⟨0, some [111, 0, 0, 0, 0, 0, 0], 2, [116], []⟩])) = .ok (r, none) ∧ r.resources.map DescribedResource.resourceType = [111] :=
  ⟨⟨7, 0, [⟨0, [], 111, [], []⟩]⟩, by decide +kernel, rfl⟩

end Healer
