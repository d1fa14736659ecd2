import Verif.Props.Brokers2
import Verif.Props.Broker2
import Verif.Props.Tools
import Verif.Props.Rejoin

/-!
# C91, C92: what is known of the brokers, and how they are addressed
-/

namespace Healer

open Brokers

/-! ## C92: the latest answer is what is known -/

/-- The entry of a node in a metadata answer; the last, should there be several. -/
def entryFor (bs : List BrokerInfo) (n : Int32) : Option BrokerInfo := (bs.filter fun i => i.nodeID = n).getLast?

/-- What someone knows who reads all metadata answers of a log and forgets the older ones. -/
def learnt (known : Int32 → Option BrokerInfo) (log : List Done) : Int32 → Option BrokerInfo :=
  log.foldl (fun known x => match x with
    | .metadata _ _ r => if r.1.brokers = [] then known else entryFor r.1.brokers
    | _ => known) known

theorem learnt_append (known : Int32 → Option BrokerInfo) (l m : List Done) :
    learnt known (l ++ m) = learnt (learnt known l) m := List.foldl_append

theorem infosOf_get (bs : List BrokerInfo) (n : Int32) : (infosOf bs).get n = entryFor bs n := by
  have key : ∀ (bs : List BrokerInfo) (m : AMap Int32 BrokerInfo),
      (bs.foldl (fun m i => m.set i.nodeID i) m).get n = (entryFor bs n).or (m.get n) := by
    intro bs
    induction bs with
    | nil => intro m; simp [entryFor]
    | cons i bs ih =>
      intro m
      rw [List.foldl_cons, ih, AMap.get_set]
      unfold entryFor
      by_cases h : i.nodeID = n
      · rw [List.filter_cons_of_pos (by simpa using h), if_pos h.symm, List.getLast?_cons]
        cases (bs.filter fun i => i.nodeID = n).getLast? <;> simp
      · rw [List.filter_cons_of_neg (by simpa using h), if_neg (fun hh => h hh.symm)]
  rw [infosOf, key, AMap.get_nil, Option.or_none]

/-- from `b` to `b'` the log grew, and what is known is what the new part says -/
def Learns (b b' : Brokers W) : Prop :=
  ∃ d, b'.log = b.log ++ d ∧ ∀ n, b'.infos.get n = learnt (fun n => b.infos.get n) d n

theorem Learns.trans {a b c : Brokers W} (h1 : Learns a b) (h2 : Learns b c) : Learns a c := by
  obtain ⟨d1, e1, f1⟩ := h1
  obtain ⟨d2, e2, f2⟩ := h2
  refine ⟨d1 ++ d2, by rw [e2, e1, List.append_assoc], fun n => ?_⟩
  rw [f2, learnt_append, funext f1]

theorem learns_quiet (b b' : Brokers W) (hl : b'.log = b.log) (hi : b'.infos = b.infos) : Learns b b' :=
  ⟨[], by rw [hl, List.append_nil], fun n => by rw [hi]; rfl⟩

theorem connect_learns (net : Net W) (a : Bytes) (n : Int32) (b : Brokers W) : Learns b (connect net a n b).2 := by
  unfold connect
  rcases net.connect a n b.world with ⟨_ | h, w⟩
  · exact ⟨_, rfl, fun _ => rfl⟩
  · exact ⟨_, rfl, fun _ => rfl⟩

/-- asking, and taking over the answer if it has brokers -/
theorem take_learns (net : Net W) (h : Nat) (ts : List Bytes) (b : Brokers W) (hne : (askMetadata net h ts b).1.1.brokers ≠ []) :
    Learns b { (askMetadata net h ts b).2 with infos := infosOf (askMetadata net h ts b).1.1.brokers } := by
  refine ⟨_, rfl, fun n => ?_⟩
  simp only [learnt, List.foldl_cons, List.foldl_nil]
  rw [show (net.metadata h ts b.world).1 = (askMetadata net h ts b).1 from rfl, if_neg hne]
  exact infosOf_get _ n

theorem ask_learns (net : Net W) (h : Nat) (ts : List Bytes) (b : Brokers W) (he : (askMetadata net h ts b).1.1.brokers = []) :
    Learns b (askMetadata net h ts b).2 := by
  refine ⟨_, rfl, fun n => ?_⟩
  simp only [learnt, List.foldl_cons, List.foldl_nil]
  rw [show (net.metadata h ts b.world).1 = (askMetadata net h ts b).1 from rfl, if_pos he]
  rfl

theorem refreshBootstrap_learns (net : Net W) (as : List Bytes) (b : Brokers W) : Learns b (refreshBootstrap net as b) := by
  induction as generalizing b with
  | nil => exact learns_quiet _ _ rfl rfl
  | cons a as ih =>
    unfold refreshBootstrap
    have h1 := connect_learns net a (-1) b
    revert h1
    rcases Brokers.connect net a (-1) b with ⟨_ | h, b1⟩ <;> intro h1
    · exact h1.trans (ih b1)
    · simp only
      have h2 := take_learns net h [] b1
      have h3 := ask_learns net h [] b1
      revert h2 h3
      rcases askMetadata net h [] b1 with ⟨r, b2⟩
      intro h2 h3
      simp only at h2 h3 ⊢
      by_cases hb : r.1.brokers = []
      · rw [if_pos hb]
        refine (h1.trans (h3 hb)).trans (Learns.trans ?_ (ih _))
        exact ⟨[.closed h], rfl, fun _ => rfl⟩
      · rw [if_neg hb]
        exact (h1.trans (h2 hb)).trans (ih _)

theorem refreshKnown_learns (net : Net W) (is : List BrokerInfo) (b : Brokers W) : Learns b (refreshKnown net is b).2 := by
  induction is generalizing b with
  | nil => exact learns_quiet _ _ rfl rfl
  | cons i is ih =>
    unfold refreshKnown
    have h1 := connect_learns net i.netAddress (-1) b
    revert h1
    rcases Brokers.connect net i.netAddress (-1) b with ⟨_ | h, b1⟩ <;> intro h1
    · exact h1.trans (ih b1)
    · simp only
      have h2 := take_learns net h [] b1
      have h3 := ask_learns net h [] b1
      revert h2 h3
      rcases askMetadata net h [] b1 with ⟨r, b2⟩
      intro h2 h3
      simp only at h2 h3 ⊢
      by_cases hb : r.1.brokers = []
      · rw [if_pos hb]
        exact (h1.trans (h3 hb)).trans (ih _)
      · rw [if_neg hb]
        exact h1.trans (h2 hb)

/-- C92: after a refresh, what is known of every node is what the latest metadata answer with brokers says of it - its
address there, or nothing if the answer does not list it; without such an answer, what was known before.
Missing: cached connections (`C92_violated_cached`). -/
theorem C92_refreshed_partial (net : Net W) (b : Brokers W) :
    ∃ d, (refreshMetadata net b).2.log = b.log ++ d ∧
      ∀ n, (refreshMetadata net b).2.infos.get n = learnt (fun n => b.infos.get n) d n := by
  have h1 := refreshBootstrap_learns net b.bootstrap b
  have h2 : Learns (refreshBootstrap net b.bootstrap b)
      (order net ((refreshBootstrap net b.bootstrap b).infos.map Prod.snd) (refreshBootstrap net b.bootstrap b)).2 :=
    learns_quiet _ _ rfl rfl
  exact (h1.trans h2).trans (refreshKnown_learns net _ _)

/-- Node 1 moves from a:1 to c:1, as the answer read last says. -/
example : ((demoBrokers movingNet).infos.get 1).map BrokerInfo.netAddress = some [97, 58, 49] ∧
    ((refreshMetadata movingNet (demoBrokers movingNet)).2.infos.get 1).map BrokerInfo.netAddress = some [99, 58, 49] := by
  decide +kernel

/-! ## C92: addresses -/

/-- How an address is read (RFC 3986): a host in brackets, or one without colons, then a colon and the port. -/
def hostAndPort : Bytes → Option (Bytes × Bytes)
  | 91 :: s => match s.dropWhile (· != 93) with
    | 93 :: 58 :: port => if 58 ∈ port then none else some (s.takeWhile (· != 93), port)
    | _ => none
  | s => match s.dropWhile (· != 58) with
    | 58 :: port => if 58 ∈ port then none else some (s.takeWhile (· != 58), port)
    | _ => none

theorem until_at (a : Bytes) (x : UInt8) (b : Bytes) (ha : x ∉ a) :
    (a ++ x :: b).takeWhile (· != x) = a ∧ (a ++ x :: b).dropWhile (· != x) = x :: b := by
  have h : ∀ y ∈ a, (y != x) = true := by
    intro y hy
    simp only [bne_iff_ne, ne_eq]
    rintro rfl
    exact ha hy
  rw [List.takeWhile_append_of_pos h, List.dropWhile_append_of_pos h]
  simp

/-- C92: the address a broker is contacted at names its host and its port, whether the host is a name, an IPv4 address or
an IPv6 address.
Missing: cached connections (`C92_violated_cached`). -/
theorem C92_address_partial (i : BrokerInfo) (h : 91 ∉ i.host ∧ 93 ∉ i.host) :
    hostAndPort i.netAddress = some (i.host, itoa i.port.toInt) ∧ atoi (itoa i.port.toInt) = some i.port.toInt64 := by
  have hp : (58 : UInt8) ∉ itoa i.port.toInt := fun hx => (itoa_no_sep i.port 58 hx).1 rfl
  refine ⟨?_, ?_⟩
  · unfold BrokerInfo.netAddress
    by_cases hc : i.host.contains 58 = true
    · rw [if_pos hc]
      have hs := until_at i.host 93 (58 :: itoa i.port.toInt) h.2
      have he : [91] ++ i.host ++ [93] ++ [58] ++ itoa i.port.toInt = 91 :: (i.host ++ 93 :: 58 :: itoa i.port.toInt) := by simp
      rw [he, hostAndPort, hs.2, hs.1]
      simp only
      rw [if_neg hp]
    · rw [if_neg hc]
      have hc' : (58 : UInt8) ∉ i.host := by simpa using hc
      simp only [List.append_assoc, List.singleton_append]
      have hs := until_at i.host 58 (itoa i.port.toInt) hc'
      unfold hostAndPort
      split
      · next s heq =>
        exfalso
        cases hh : i.host with
        | nil => rw [hh] at heq; simp at heq
        | cons a t =>
          rw [hh] at heq
          simp only [List.cons_append, List.cons.injEq] at heq
          exact h.1 (by rw [hh, heq.1]; simp)
      · rw [hs.2, hs.1]
        simp only
        rw [if_neg hp]
  · have h1 := i.port.toInt_lt
    have h2 := i.port.le_toInt
    rw [atoi_itoa _ ⟨by omega, by omega⟩]
    congr 1

example : ({ nodeID := 1, host := [58, 58, 49], port := 9092, rack := [] } : BrokerInfo).netAddress =
    [91, 58, 58, 49, 93, 58, 57, 48, 57, 50] := by decide +kernel

/-! ## C91: the mechanism -/

/-- "plain" in capital and small letters -/
def SpellsPlain (m : Bytes) : Prop :=
  ∃ a b c d e, m = [a, b, c, d, e] ∧ (a = 112 ∨ a = 80) ∧ (b = 108 ∨ b = 76) ∧ (c = 97 ∨ c = 65) ∧ (d = 105 ∨ d = 73) ∧
    (e = 110 ∨ e = 78)

theorem lower_letter (c l : UInt8) (hl : 97 ≤ l ∧ l ≤ 122) :
    (if 65 ≤ c ∧ c ≤ 90 then c + 32 else c) = l ↔ c = l ∨ c = l - 32 := by
  constructor
  · intro h
    split at h
    · right
      rw [← h]
      simp
    · exact Or.inl h
  · rintro (rfl | rfl)
    · rw [if_neg]
      intro h
      have := h.2
      have h1 := UInt8.le_iff_toNat_le.1 this
      have h2 := UInt8.le_iff_toNat_le.1 hl.1
      simp at h1 h2
      omega
    · have h1 := UInt8.le_iff_toNat_le.1 hl.1
      have h2 := UInt8.le_iff_toNat_le.1 hl.2
      simp at h1 h2
      rw [if_pos]
      · simp
      · constructor <;> rw [UInt8.le_iff_toNat_le, UInt8.toNat_sub_of_le _ _ (UInt8.le_iff_toNat_le.2 (by simpa using (by omega)))] <;>
          simp <;> omega

theorem toLower_plain (m : Bytes) : toLower m = [112, 108, 97, 105, 110] ↔ SpellsPlain m := by
  unfold toLower SpellsPlain
  constructor
  · intro h
    have hl := congrArg List.length h
    simp only [List.length_map] at hl
    obtain ⟨a, b, c, d, e, rfl⟩ : ∃ a b c d e, m = [a, b, c, d, e] := by
      rcases m with _ | ⟨a, _ | ⟨b, _ | ⟨c, _ | ⟨d, _ | ⟨e, _ | ⟨f, m⟩⟩⟩⟩⟩⟩ <;> simp at hl
      exact ⟨a, b, c, d, e, rfl⟩
    · simp only [List.map_cons, List.map_nil, List.cons.injEq, and_true] at h
      obtain ⟨h1, h2, h3, h4, h5⟩ := h
      exact ⟨a, b, c, d, e, rfl, (lower_letter a 112 (by decide)).1 h1, (lower_letter b 108 (by decide)).1 h2,
        (lower_letter c 97 (by decide)).1 h3, (lower_letter d 105 (by decide)).1 h4, (lower_letter e 110 (by decide)).1 h5⟩
  · rintro ⟨a, b, c, d, e, rfl, h1, h2, h3, h4, h5⟩
    simp only [List.map_cons, List.map_nil, List.cons.injEq, and_true]
    exact ⟨(lower_letter a 112 (by decide)).2 h1, (lower_letter b 108 (by decide)).2 h2, (lower_letter c 97 (by decide)).2 h3,
      (lower_letter d 105 (by decide)).2 h4, (lower_letter e 110 (by decide)).2 h5⟩

/-- C91: a broker is handed out only if the mechanism is none or PLAIN, in whatever letters; and for those the credentials
are sent.
Missing: an error for the other mechanisms (`C91_violated_mechanism`). -/
theorem C91_plain_partial (s : SaslConfig) :
    (∀ (dials : List (Except Err Script)) (b : Broker), s.mechanism ≠ [] → ¬ SpellsPlain s.mechanism → newBroker s dials ≠ (.ok (), b)) ∧
    ((saslAuthenticateReq s.user s.password s.mechanism).isSome = true ↔ SpellsPlain s.mechanism) := by
  refine ⟨fun dials b hs hp => C91_rejected_partial s dials hs (fun h => hp ((toLower_plain _).1 h)) b, ?_⟩
  unfold saslAuthenticateReq
  rw [← toLower_plain]
  by_cases h : toLower s.mechanism = [112, 108, 97, 105, 110]
  · rw [if_pos h]; simp [h]
  · rw [if_neg h]; simp [h]

example : SpellsPlain [80, 108, 97, 105, 78] := ⟨_, _, _, _, _, rfl, by decide, by decide, by decide, by decide, by decide⟩

/-! ## C136: which errors mean that the coordinator is gone -/

theorem containsChars_iff (t s : List Char) : containsChars t s = true ↔ ∃ a b, s = a ++ (t ++ b) := by
  induction s with
  | nil =>
    simp only [containsChars, List.isPrefixOf_iff_prefix]
    constructor
    · rintro ⟨b, h⟩; exact ⟨[], b, h.symm⟩
    · rintro ⟨a, b, h⟩
      have := congrArg List.length h
      simp at this
      have ht : t = [] := List.length_eq_zero_iff.1 (by omega)
      exact ⟨[], by rw [ht]; rfl⟩
  | cons c s ih =>
    simp only [containsChars, Bool.or_eq_true, List.isPrefixOf_iff_prefix, ih]
    constructor
    · rintro (⟨b, h⟩ | ⟨a, b, h⟩)
      · exact ⟨[], b, h.symm⟩
      · exact ⟨c :: a, b, by rw [h]; rfl⟩
    · rintro ⟨a, b, h⟩
      cases a with
      | nil => exact Or.inl ⟨b, h.symm⟩
      | cons x a =>
        simp only [List.cons_append, List.cons.injEq] at h
        exact Or.inr ⟨a, b, h.2⟩

/-- an error with this text, wrapped any number of times -/
inductive Tells (text : String) : Err → Prop
  | plain : Tells text (.other text)
  | wrapped {e : Err} : Tells text e → Tells text (.wrapped e)

theorem says_iff {text : String} {e : Err} (h : Tells text e) (t : String) :
    e.says t = true ↔ ∃ a b, text.toList = a ++ (t.toList ++ b) := by
  induction h with
  | plain => exact containsChars_iff _ _
  | wrapped _ ih => exact ih

/-- C136: a member whose join request fails with an error whose text has one of the three phrases anywhere in it, wrapped
or not, asks for the coordinator and joins there.
Missing: other errors (`C136_violated_other_errors`). -/
theorem C136_lost_partial (s : Membership) (hc : s.closed = false) (hp : s.pos = .joining) (text : String) (e : Err) (he : Tells text e)
    (ht : ∃ t ∈ ["connection refused", "network is unreachable", "i/o timeout"], ∃ a b, text.toList = a ++ (t.toList ++ b))
    (n : Int32) (r : JoinGroupResponse) (ts : List TopicMetadata) :
    ∃ bs s', bs ⊆ [.topics ts, .synced true]
      ∧ Membership.run ((.failed e :: .found n :: .joined r :: bs).map .answer) s = some s' ∧ s'.pos = .still ∧ s'.joined = true := by
  refine C136_recovers_partial s hc e (Or.inl ⟨hp, Or.inr ?_⟩) n r ts
  obtain ⟨t, hm, hx⟩ := ht
  have hs := (says_iff he t).2 hx
  simp only [List.mem_cons, List.not_mem_nil, or_false] at hm
  rcases hm with rfl | rfl | rfl
  · exact Or.inr (Or.inl hs)
  · exact Or.inr (Or.inr (Or.inl hs))
  · exact Or.inr (Or.inr (Or.inr hs))

example : Tells "dial tcp 10.0.0.1:9092: connect: connection refused" (.wrapped (.other "dial tcp 10.0.0.1:9092: connect: connection refused")) ∧
    ∃ a b, "dial tcp 10.0.0.1:9092: connect: connection refused".toList = a ++ ("connection refused".toList ++ b) :=
  ⟨.wrapped .plain, "dial tcp 10.0.0.1:9092: connect: ".toList, [], by decide⟩

end Healer
