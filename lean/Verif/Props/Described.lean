import Verif.Props.Response

/-! C66: the error with which a description of groups comes is that of the last member's assignment, whatever errors the groups have. -/

namespace Healer
open Kafka (IsString)

/-- A member as brokers send it: its texts are protocol strings, and its assignment is one in the protocol's encoding or empty, as while the group is rebalancing. -/
def MemberDetail.Known (m : MemberDetail) : Prop :=
  m.Sent ∨ (IsString m.memberID ∧ IsString m.clientID ∧ IsString m.clientHost ∧ m.rawMemberAssignment = [])

/-- A group as brokers send it -/
structure GroupDetail.Known (g : GroupDetail) : Prop where
  groupID : IsString g.groupID
  state : IsString g.state
  protocolType : IsString g.protocolType
  protocol : IsString g.protocol
  members : ∀ m ∈ g.members, m.Known

theorem MemberDetail.Known.texts {m : MemberDetail} (h : m.Known) : IsString m.memberID ∧ IsString m.clientID ∧ IsString m.clientHost := by
  rcases h with h | h
  · exact ⟨h.memberID, h.clientID, h.host⟩
  · exact ⟨h.1, h.2.1, h.2.2.1⟩

theorem assign_sent {m : MemberDetail} (h : m.Sent) : ∃ m', m.raw.assign = .ok (m', none) := by
  have := assignMembers_raw [m] (by simpa using h) none
  simp only [List.map_cons, List.map_nil, assignMembers] at this
  cases ha : m.raw.assign with
  | ok x =>
    obtain ⟨m', e⟩ := x
    simp [ha] at this
    exact ⟨m', by rw [this.2]⟩
  | err e => simp [ha] at this
  | panic => simp [ha] at this

theorem assign_idle {m : MemberDetail} (h : m.rawMemberAssignment = []) : m.raw.assign = .ok (m.raw, some .emptyPayload) := by
  unfold MemberDetail.assign
  rw [show m.raw.rawMemberAssignment = [] from h]
  rfl

theorem assign_known {m : MemberDetail} (h : m.Known) : ∃ m' e, m.raw.assign = .ok (m', e) := by
  rcases h with h | h
  · obtain ⟨m', e⟩ := assign_sent h
    exact ⟨m', none, e⟩
  · exact ⟨_, _, assign_idle h.2.2.2⟩

theorem assignMembers_known (ms : List MemberDetail) (h : ∀ m ∈ ms, m.Known) (err : Option Err) :
    ∃ ms' e, assignMembers err (ms.map MemberDetail.raw) = .ok (ms', e) := by
  induction ms generalizing err with
  | nil => exact ⟨[], err, rfl⟩
  | cons m ms ih =>
    obtain ⟨m', e, h1⟩ := assign_known (h m (by simp))
    obtain ⟨ms', e', h2⟩ := ih (fun x hx => h x (by simp [hx])) e
    exact ⟨m' :: ms', e', by simp only [List.map_cons, assignMembers, h1, h2]⟩

theorem assignMembers_last (ms : List MemberDetail) (h : ∀ m ∈ ms, m.Known) (l l' : MemberDetail) (e : Option Err) (hl : l.raw.assign = .ok (l', e)) (err : Option Err) :
    ∃ ms', assignMembers err ((ms ++ [l]).map MemberDetail.raw) = .ok (ms', e) := by
  induction ms generalizing err with
  | nil => exact ⟨[l'], by simp [assignMembers, hl]⟩
  | cons m ms ih =>
    obtain ⟨m', e1, h1⟩ := assign_known (h m (by simp))
    obtain ⟨ms', h2⟩ := ih (fun x hx => h x (by simp [hx])) e1
    exact ⟨m' :: ms', by simp only [List.cons_append, List.map_cons, assignMembers, h1, h2]⟩

theorem assignGroups_last (gs : List GroupDetail) (h : ∀ g ∈ gs, g.Known) (g : GroupDetail) (ms : List MemberDetail) (hm : ∀ m ∈ ms, m.Known)
    (l l' : MemberDetail) (e : Option Err) (hl : l.raw.assign = .ok (l', e)) (hg : g.members = ms ++ [l]) (err : Option Err) :
    ∃ gs', assignGroups err ((gs ++ [g]).map GroupDetail.raw) = .ok (gs', e) ∧ gs'.map GroupDetail.errorCode = (gs ++ [g]).map GroupDetail.errorCode := by
  induction gs generalizing err with
  | nil =>
    obtain ⟨ms', h1⟩ := assignMembers_last ms hm l l' e hl (if err = none ∧ g.errorCode ≠ 0 then some (.kafka g.errorCode) else err)
    refine ⟨[{ g.raw with members := ms' }], ?_, rfl⟩
    simp only [List.nil_append, List.map_cons, List.map_nil, assignGroups]
    rw [show g.raw.errorCode = g.errorCode from rfl, show g.raw.members = (ms ++ [l]).map MemberDetail.raw by rw [← hg]; rfl, h1]
  | cons x gs ih =>
    obtain ⟨ms', e1, h1⟩ := assignMembers_known x.members (h x (by simp)).members (if err = none ∧ x.errorCode ≠ 0 then some (.kafka x.errorCode) else err)
    obtain ⟨gs', h2, h3⟩ := ih (fun y hy => h y (by simp [hy])) e1
    refine ⟨{ x.raw with members := ms' } :: gs', ?_, by simp only [List.map_cons, List.cons_append, h3]; rfl⟩
    simp only [List.cons_append, List.map_cons, assignGroups]
    rw [show x.raw.errorCode = x.errorCode from rfl, show x.raw.members = x.members.map MemberDetail.raw from rfl, h1]
    simp only
    rw [h2]

/-- The texts of every description are read. -/
theorem describeGroups_raw (corr : UInt32) (gs : List GroupDetail) (h : ∀ g ∈ gs, g.Known)
    (hl : (Kafka.response .describeGroups 0 corr.toNat [] (Kafka.describeGroupsResponse (gs.map GroupDetail.wire))).length < 2 ^ 31) :
    respond (do
        let c ← rdU32
        let gs ← rdArr32 rdGroupDetail
        pure (⟨c, gs⟩ : DescribeGroupsResponse)) (Kafka.response .describeGroups 0 corr.toNat [] (Kafka.describeGroupsResponse (gs.map GroupDetail.wire)))
      = .ok ⟨corr, gs.map GroupDetail.raw⟩ := by
  refine respond_plain rfl (.bind_pure (g := fun x => DescribeGroupsResponse.mk _ x) ?_) hl
  unfold Kafka.describeGroupsResponse
  have := sreads_arr32' (c := rdGroupDetail) (enc := fun g : GroupDetail => (fun g : Kafka.DescribedGroup =>
    Kafka.int16 g.error ++ Kafka.string g.id ++ Kafka.string g.state ++ Kafka.string g.protocolType ++
    Kafka.string g.protocol ++ Kafka.array (fun m : Kafka.DescribedMember => Kafka.string m.id ++
      Kafka.string m.clientId ++ Kafka.string m.host ++ Kafka.bytes m.metadata ++ Kafka.bytes m.assignment)
      g.members) g.wire) GroupDetail.raw gs (by nonempty) ?_
  · refine this.cast ?_ rfl
    simp [Kafka.array, List.flatMap_map]
  · intro g hg
    have hg := h g hg
    simp only [List.append_assoc, GroupDetail.wire]
    refine .bind (sreads_i16 _) <| .bind (sreads_str16 hg.groupID) <| .bind (sreads_str16 hg.state) <|
      .bind (sreads_str16 hg.protocolType) <| .bind (sreads_str16 hg.protocol) <|
      .bind_pure (g := fun x => GroupDetail.mk _ _ _ _ _ x) ?_
    have := sreads_arr32' (c := rdMemberDetail) (enc := fun m : MemberDetail => (fun m : Kafka.DescribedMember =>
      Kafka.string m.id ++ (Kafka.string m.clientId ++ (Kafka.string m.host ++ (Kafka.bytes m.metadata ++
      Kafka.bytes m.assignment)))) m.wire) MemberDetail.raw g.members (by nonempty) ?_
    · refine this.cast ?_ rfl
      simp [Kafka.array, List.flatMap_map]
    · intro m hm
      have hm := (hg.members m hm).texts
      exact .bind (sreads_str16 hm.1) <| .bind (sreads_str16 hm.2.1) <| .bind (sreads_str16 hm.2.2) <|
        .bind (sreads_bytes32 _) <| .bind_pure (g := fun x => MemberDetail.mk _ _ _ _ x none) (sreads_bytes32 _)

theorem describeGroups_last (corr : UInt32) (gs : List GroupDetail) (g : GroupDetail) (h : ∀ x ∈ gs ++ [g], x.Known) (ms : List MemberDetail) (l l' : MemberDetail)
    (e : Option Err) (hl : l.raw.assign = .ok (l', e)) (hg : g.members = ms ++ [l])
    (hn : (Kafka.response .describeGroups 0 corr.toNat [] (Kafka.describeGroupsResponse ((gs ++ [g]).map GroupDetail.wire))).length < 2 ^ 31) :
    ∃ r, newDescribeGroupsResponse (Kafka.response .describeGroups 0 corr.toNat [] (Kafka.describeGroupsResponse ((gs ++ [g]).map GroupDetail.wire))) = .ok (r, e) ∧
      r.groups.map GroupDetail.errorCode = (gs ++ [g]).map GroupDetail.errorCode := by
  obtain ⟨gs', h1, h2⟩ := assignGroups_last gs (fun x hx => h x (by simp [hx])) g ms
    (fun m hm => (h g (by simp)).members m (by rw [hg]; simp [hm])) l l' e hl hg none
  refine ⟨⟨corr, gs'⟩, ?_, h2⟩
  unfold newDescribeGroupsResponse
  rw [describeGroups_raw corr _ h hn]
  simp only [h1]

/-- C66 fails for every description whose last group has a last member with an assignment: the decoder returns no error, whatever errors the groups have. -/
theorem C66_violated_every_error_lost (corr : UInt32) (gs : List GroupDetail) (g : GroupDetail) (h : ∀ x ∈ gs ++ [g], x.Known) (ms : List MemberDetail) (l : MemberDetail)
    (hl : l.Sent) (hg : g.members = ms ++ [l])
    (hn : (Kafka.response .describeGroups 0 corr.toNat [] (Kafka.describeGroupsResponse ((gs ++ [g]).map GroupDetail.wire))).length < 2 ^ 31) :
    ∃ r, newDescribeGroupsResponse (Kafka.response .describeGroups 0 corr.toNat [] (Kafka.describeGroupsResponse ((gs ++ [g]).map GroupDetail.wire))) = .ok (r, none) ∧
      r.groups.map GroupDetail.errorCode = (gs ++ [g]).map GroupDetail.errorCode := by
  obtain ⟨l', e⟩ := assign_sent hl
  exact describeGroups_last corr gs g h ms l l' none e hg hn

/-- C66 fails for every description whose last group has a last member without assignment, as while it is rebalancing: the decoder returns an error, even if no
group has one, and not the error of a group that has one. -/
theorem C66_violated_every_idle_member (corr : UInt32) (gs : List GroupDetail) (g : GroupDetail) (h : ∀ x ∈ gs ++ [g], x.Known) (ms : List MemberDetail) (l : MemberDetail)
    (hl : l.rawMemberAssignment = []) (hg : g.members = ms ++ [l])
    (hn : (Kafka.response .describeGroups 0 corr.toNat [] (Kafka.describeGroupsResponse ((gs ++ [g]).map GroupDetail.wire))).length < 2 ^ 31) :
    ∃ r, newDescribeGroupsResponse (Kafka.response .describeGroups 0 corr.toNat [] (Kafka.describeGroupsResponse ((gs ++ [g]).map GroupDetail.wire))) =
        .ok (r, some .emptyPayload) ∧
      r.groups.map GroupDetail.errorCode = (gs ++ [g]).map GroupDetail.errorCode :=
  describeGroups_last corr gs g h ms l _ _ (assign_idle hl) hg hn

/-- a group of two members, neither of which has an assignment -/
example : (⟨0, [103], [80], [99], [114], [⟨[109], [99], [104], [1], [], none⟩, ⟨[110], [99], [104], [1], [], none⟩]⟩ : GroupDetail).Known where
  groupID := by unfold IsString; decide
  state := by unfold IsString; decide
  protocolType := by unfold IsString; decide
  protocol := by unfold IsString; decide
  members m hm := by
    simp only [List.mem_cons, List.not_mem_nil, or_false] at hm
    rcases hm with rfl | rfl <;> exact .inr ⟨by unfold IsString; decide, by unfold IsString; decide, by unfold IsString; decide, rfl⟩

/-- the first group failed, the last has a member with an assignment: no error -/
example : ∃ r, newDescribeGroupsResponse (Kafka.response .describeGroups 0 7 [] (Kafka.describeGroupsResponse
    [⟨30, [103], [], [], [], []⟩, ⟨16, [104], [], [], [], [⟨[109], [], [], [], []⟩, ⟨[110], [], [], [], Kafka.assignment 0 [] []⟩]⟩])) = .ok (r, none) :=
  ⟨⟨7, [⟨30, [103], [], [], [], []⟩, ⟨16, [104], [], [], [], [⟨[109], [], [], [], [], none⟩, ⟨[110], [], [], [], [0, 0, 0, 0, 0, 0, 0, 0, 0, 0],
    some ⟨0, [], some []⟩⟩]⟩]⟩, by decide +kernel⟩

end Healer
