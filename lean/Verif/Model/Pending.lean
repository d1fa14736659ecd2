import Verif.Model.Tools
import Verif.Model.Response

/-!
# get-pending: which groups and topics

helper.go:42-80 and command/healer/cmd/get-pending.go:102-178, 235-291.  The coordinators are remembered in a global map; here the object found for the
group is passed on (a group listed twice would be looked up twice).
-/

namespace Healer

/-! ## Patterns -/

/-- get-pending.go:161-162: `strings.Replace(…, ".", "\.", -1)`, then `"*"` by `".*"` -/
def globPattern (g : Bytes) : Bytes :=
  (g.flatMap fun c => if c = 46 then [92, 46] else [c]).flatMap fun c => if c = 42 then [46, 42] else [c]

/-- a single character or any character but a line feed (regexp/syntax) -/
inductive ReItem where
  | one (c : UInt8)
  | any
deriving DecidableEq, Repr

/-- an item with what follows it: nothing, `*`, `+` or `?` -/
inductive ReTok where
  | once (i : ReItem)
  | star (i : ReItem)
  | plus (i : ReItem)
  | opt (i : ReItem)
deriving DecidableEq, Repr

/-- what regexp/syntax makes of a pattern -/
inductive ReParsed where
  | ok (ts : List ReTok)
  /-- `Compile` fails -/
  | bad
  /-- groups, classes, alternatives, anchors, counted repetitions, other escapes and characters beyond ASCII: not modelled -/
  | other
deriving DecidableEq, Repr

/-- where the parser stands: before anything that could be repeated, after an item, after a repetition, after a repetition with `?`, after a backslash -/
inductive ReAt where
  | start
  | item
  | repeated
  | lazy
  | escape
deriving DecidableEq, Repr

/-- the last token repeated; the tokens are in reverse order -/
def reRepeat (c : UInt8) : List ReTok → List ReTok
  | .once i :: ts => (if c = 42 then .star i else if c = 43 then .plus i else .opt i) :: ts
  | ts => ts

/-- the characters with a meaning in patterns which the model leaves out: ( ) [ ] { } ^ $ | -/
def reSpecial (c : UInt8) : Bool :=
  c = 40 || c = 41 || c = 91 || c = 93 || c = 123 || c = 125 || c = 94 || c = 36 || c = 124

/-- regexp/syntax (Go 1.21) `parse` for the part of the syntax described by `ReTok`: repetitions do not follow each other ("invalid nested repetition operator")
except for the `?` that asks for fewest.  Left out: a repetition at the start, which here is one of the `^` in front. -/
def reParse (ts : List ReTok) (at_ : ReAt) : Bytes → ReParsed
  | [] => if at_ = .escape then .other else .ok ts.reverse
  | c :: cs =>
    if at_ = .escape then (if c = 46 then reParse (.once (.one 46) :: ts) .item cs else .other)
    else if c = 42 ∨ c = 43 ∨ c = 63 then
      match at_ with
      | .item => reParse (reRepeat c ts) .repeated cs
      | .repeated => if c = 63 then reParse ts .lazy cs else .bad
      | .start => .other
      | _ => .bad
    else if c = 46 then reParse (.once .any :: ts) .item cs
    else if c = 92 then reParse ts .escape cs
    else if reSpecial c || c ≥ 128 then .other
    else reParse (.once (.one c) :: ts) .item cs

def ReItem.fits : ReItem → UInt8 → Bool
  | .one c, x => x = c
  | .any, x => x ≠ 10

/-- any number of characters that fit, then the rest -/
def starFits (i : ReItem) (rest : Bytes → Bool) : Bytes → Bool
  | [] => rest []
  | x :: s => rest (x :: s) || (i.fits x && starFits i rest s)

/-- the whole text is matched -/
def reMatches : List ReTok → Bytes → Bool
  | [], s => s.isEmpty
  | .once _ :: _, [] => false
  | .once i :: ts, x :: s => i.fits x && reMatches ts s
  | .star i :: ts, s => starFits i (reMatches ts) s
  | .plus _ :: _, [] => false
  | .plus i :: ts, x :: s => i.fits x && starFits i (reMatches ts) s
  | .opt _ :: ts, [] => reMatches ts []
  | .opt i :: ts, x :: s => reMatches ts (x :: s) || (i.fits x && reMatches ts s)

/-- `regexp.Compile`: `none` is an error, otherwise `MatchString` -/
abbrev RegexpLib := Bytes → Option (Bytes → Bool)

namespace Brokers

variable {W : Type} (net : Net W)

/-! ## Groups -/

/-- helper.go:62-77: the loop over the brokers; `none` is the nil result after an error.  `RequestListGroups` gives a nil response only together with an error. -/
def helperLoop : List BrokerInfo → List Bytes → Brokers W → Option (List Bytes) × Brokers W
  | [], acc, b => (some acc, b)
  | i :: is, acc, b =>
    match getBroker net i.nodeID b with
    | (.error _, b) => (none, b)
    | (.ok h, b) =>
      match askListGroups net h.1 b with
      | ((some r, none), b) => helperLoop is (acc ++ r.groups.map ListedGroup.groupID) b
      | (_, b) => (none, b)

/-- helper.go:42-53, 55-80 `UpdateMeta`, `GetGroups` -/
def helperGroups (b : Brokers W) : Option (List Bytes) × Brokers W :=
  match requestMetaData net [] b with
  | ((_, some _), b) => (none, b)
  | ((r, none), b) => helperLoop net r.brokers [] b

/-- get-pending.go:153-178 `getGroups`; `MustCompile` panics where `Compile` fails -/
def getGroups (lib : RegexpLib) (group : Bytes) (b : Brokers W) : Out (Option (List Bytes)) × Brokers W :=
  if group = [] then
    let x := helperGroups net b
    (.ok x.1, x.2)
  else if group.contains 42 = false then (.ok (some [group]), b)
  else match lib (94 :: globPattern group ++ [36]) with
    | none => (.panic, b)
    | some m =>
      let x := helperGroups net b
      (.ok (x.1.map fun gs => gs.filter m), x.2)

/-! ## Subscriptions -/

/-- topic, partition, member -/
abbrev Subscriptions := AMap Bytes (AMap Int32 Bytes)

/-- get-pending.go:138-146: one topic of an assignment -/
def subscribe (member : Bytes) (subs : Subscriptions) (p : PartitionAssignment) : Subscriptions :=
  subs.set p.topic (p.partitions.foldl (fun m q => m.set q member) ((subs.get p.topic).getD []))

/-- get-pending.go:128-148: the members -/
def subscribeAll : List MemberDetail → Subscriptions → Out Subscriptions
  | [], subs => .ok subs
  | m :: ms, subs =>
    if m.rawMemberAssignment = [] then subscribeAll ms subs
    else match newMemberAssignment m.rawMemberAssignment with
      | .ok a => subscribeAll ms (a.partitionAssignments.foldl (subscribe m.memberID) subs)
      | .err e => .err e
      | .panic => .panic

/-- get-pending.go:126-149 -/
def subscriptionsOf (r : DescribeGroupsResponse) : Out Subscriptions := subscribeAll (r.groups.flatMap GroupDetail.members) []

/-- get-pending.go:121-150, with the recovered panic of lines 103-107: the result is then nil without error -/
def subscriptionsFrom (r : Out DescribeGroupsResponse) : Except Err Subscriptions :=
  match r with
  | .err e => .error e
  | .panic => .ok []
  | .ok r =>
    match subscriptionsOf r with
    | .ok s => .ok s
    | .err e => .error e
    | .panic => .ok []

/-- get-pending.go:102-151 `getSubscriptionsInGroup`: the coordinator's object and the subscriptions.  `describe` is the request for the group. -/
def getSubscriptions (describe : Nat → Bytes → W → Out DescribeGroupsResponse × W) (group : Bytes) (b : Brokers W) : Except Err (Nat × Subscriptions) × Brokers W :=
  match coordinatorBroker net group b with
  | (.err e, b) => (.error (.wrapped e), b)
  | (.panic, b) => (.error (.other "not reached: finding the coordinator does not panic"), b)
  | (.ok h, b) =>
    match describe h group b.world with
    | (r, w) => ((subscriptionsFrom r).map fun s => (h, s), { b with world := w })

/-! ## The tool -/

/-- get-pending.go:81-98: `getCommittedOffset` with the coordinator remembered -/
def getCommittedAt (fetch : Nat → OffsetFetchRequest → W → Except Err OffsetFetchResponse × W) (h : Nat) (group topic : Bytes) (ps : List Int32) (b : Brokers W) :
    Out (AMap Int32 Int64) × Brokers W :=
  match fetch h (committedRequest group topic ps) b.world with
  | (.error e, w) => (.err e, { b with world := w })
  | (.ok r, w) => (.ok (committedMap r), { b with world := w })

/-- get-pending.go:181-229 `getPending` with the coordinator remembered -/
def getPendingAt (fetch : Nat → OffsetFetchRequest → W → Except Err OffsetFetchResponse × W) (h : Nat) (group topic : Bytes) (b : Brokers W) :
    Out (List PendingRow) × Brokers W :=
  andThen (getOffset net topic b) fun offsets b =>
    andThen (getPartitions net topic b) fun ps b =>
      andThen (getCommittedAt fetch h group topic ps b) fun committed b =>
        (.ok (ps.map (pendingRow offsets committed)), b)

/-- What the tool prints for one group and topic: its lines, each with the member its partition belongs to (`members`, if the topic was not given), and what it logs instead. -/
inductive PendingOut where
  | table (group topic : Bytes) (members : Option (AMap Int32 Bytes)) (rows : List PendingRow)
  | failed (group : Bytes) (topic : Option Bytes) (e : Err)
deriving DecidableEq, Repr

/-- get-pending.go:278-288: the topics of a group -/
def pendingTopics (fetch : Nat → OffsetFetchRequest → W → Except Err OffsetFetchResponse × W) (h : Nat) (group : Bytes) :
    List (Bytes × Option (AMap Int32 Bytes)) → Brokers W → Out (List PendingOut) × Brokers W
  | [], b => (.ok [], b)
  | (topic, members) :: rest, b =>
    match getPendingAt net fetch h group topic b with
    | (.panic, b) => (.panic, b)
    | (.err e, b) => andThen (pendingTopics fetch h group rest b) fun out b => (.ok (.failed group (some topic) e :: out), b)
    | (.ok rows, b) => andThen (pendingTopics fetch h group rest b) fun out b => (.ok (.table group topic members rows :: out), b)

/-- get-pending.go:278-279, 283: the topic given, or those subscribed to in the order of the map -/
def topicsFor (topic : Bytes) (subs : Subscriptions) (b : Brokers W) : List (Bytes × Option (AMap Int32 Bytes)) × Brokers W :=
  if topic ≠ [] then ([(topic, none)], b)
  else match order net subs b with
    | (l, b) => (l.map fun e => (e.1, some e.2), b)

/-- get-pending.go:269-289: the groups -/
def pendingGroups (describe : Nat → Bytes → W → Out DescribeGroupsResponse × W) (fetch : Nat → OffsetFetchRequest → W → Except Err OffsetFetchResponse × W)
    (topic : Bytes) : List Bytes → Brokers W → Out (List PendingOut) × Brokers W
  | [], b => (.ok [], b)
  | g :: gs, b =>
    match getSubscriptions net describe g b with
    | (.error e, b) => andThen (pendingGroups describe fetch topic gs b) fun out b => (.ok (.failed g none e :: out), b)
    | (.ok (h, subs), b) =>
      match topicsFor net topic subs b with
      | (ts, b) => andThen (pendingTopics net fetch h g ts b) fun out b =>
        andThen (pendingGroups describe fetch topic gs b) fun out' b => (.ok (out ++ out'), b)

/-- get-pending.go:265-290: the tool after its flags are read and the brokers are known: what it prints and logs.  It ends with success unless it panics. -/
def getPendingCmd (lib : RegexpLib) (describe : Nat → Bytes → W → Out DescribeGroupsResponse × W)
    (fetch : Nat → OffsetFetchRequest → W → Except Err OffsetFetchResponse × W) (group topic : Bytes) (b : Brokers W) : Out (List PendingOut) × Brokers W :=
  andThen (getGroups net lib group b) fun gs b => pendingGroups net describe fetch topic (gs.getD []) b

end Brokers

end Healer
