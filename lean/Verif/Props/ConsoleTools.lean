import Verif.Model.ConsoleTools
import Verif.Props.Tools
import Verif.Props.Restart

/-!
# C153: the commands print what they consume

The specification: a command prints one line for each message it receives, in that order, until the number of messages asked for is reached or the
user ends it; and the lines tell the messages apart.
-/

namespace Healer

/-- the messages which arrive before the user ends the command -/
def beforeInterrupt : List ConsoleEv → List FullMessage
  | .message m :: es => m :: beforeInterrupt es
  | _ => []

/-- what is printed for the messages; those the layout has no line for are left out -/
def printed (line : FullMessage → Option Bytes) (ms : List FullMessage) : Bytes := (ms.map fun m => (line m).getD []).flatten

theorem groupConsumer_run (line : FullMessage → Option Bytes) (max : Int) (h0 : 0 < max) : ∀ (es : List ConsoleEv) (i : Int), (∀ m ∈ beforeInterrupt es, line m ≠ none) → i < max →
    groupConsumerLoop line max i es = (printed line ((beforeInterrupt es).take (max - i).toNat),
      if max - i ≤ ((beforeInterrupt es).length : Int) ∨ .interrupt ∈ es then .returned else .waiting) := by
  intro es
  induction es with
  | nil =>
    intro i _ hi
    simp only [groupConsumerLoop, beforeInterrupt, List.take_nil, printed, List.map_nil, List.flatten_nil, List.length_nil, List.not_mem_nil, or_false]
    rw [if_neg (by omega)]
  | cons e es ih =>
    intro i hl hi
    cases e with
    | interrupt => simp [groupConsumerLoop, beforeInterrupt, printed]
    | message m =>
      have hm := hl m (by simp [beforeInterrupt])
      obtain ⟨s, hs⟩ := Option.ne_none_iff_exists'.1 hm
      simp only [groupConsumerLoop, hs, beforeInterrupt, List.length_cons, List.mem_cons, reduceCtorEq, false_or]
      obtain ⟨n, hn⟩ : ∃ n, (max - i).toNat = n + 1 := ⟨(max - i).toNat - 1, by omega⟩
      rw [hn, List.take_succ_cons]
      simp only [printed, List.map_cons, List.flatten_cons, hs, Option.getD_some]
      by_cases h : max > 0 ∧ i + 1 ≥ max
      · rw [if_pos h, if_pos (.inl (by push_cast; omega))]
        have : n = 0 := by omega
        simp [this]
      · rw [if_neg h, ih (i + 1) (fun x hx => hl x (by simp [beforeInterrupt, hx])) (by omega)]
        have e1 : (max - (i + 1)).toNat = n := by omega
        have e2 : (max - (i + 1) ≤ ((beforeInterrupt es).length : Int)) ↔ (max - i ≤ ((beforeInterrupt es).length + 1 : Nat)) := by push_cast; omega
        simp only [e1, e2, printed]

/-- C153, `group-consumer`: asked for `max > 0` messages it prints the first `max` of those it receives before it is interrupted, in their order, and has
returned when that many have come, or it has been interrupted; otherwise it waits.
Missing: 0 (`C153_violated_zero`). -/
theorem C153_group_partial (line : FullMessage → Option Bytes) (max : Int) (hmax : 0 < max) (es : List ConsoleEv) (hl : ∀ m ∈ beforeInterrupt es, line m ≠ none) :
    groupConsumerLoop line max 0 es = (printed line ((beforeInterrupt es).take max.toNat),
      if max ≤ ((beforeInterrupt es).length : Int) ∨ .interrupt ∈ es then .returned else .waiting) := by
  have := groupConsumer_run line max hmax es 0 hl hmax
  simpa using this

/-- C153, `console-consumer`: asked for `max` messages, also 0, it prints the first `max` of those it receives before it is interrupted, in their order,
and has returned when that many have come.  An interrupt before ends it without closing the consumer. -/
theorem C153_console (line : FullMessage → Option Bytes) (max : Int) : ∀ (es : List ConsoleEv) (i : Int), (∀ m ∈ beforeInterrupt es, line m ≠ none) →
    consoleConsumerLoop line max i es = (printed line ((beforeInterrupt es).take (max - i).toNat),
      if max - i ≤ ((beforeInterrupt es).length : Int) then .returned else if .interrupt ∈ es then .killed else .waiting) := by
  intro es
  induction es with
  | nil =>
    intro i _
    rw [consoleConsumerLoop.eq_def]
    by_cases hi : i < max
    · rw [if_pos hi, if_neg (by simp [beforeInterrupt]; omega)]
      simp [beforeInterrupt, printed]
    · rw [if_neg hi, if_pos (by simp [beforeInterrupt]; omega)]
      simp [beforeInterrupt, printed]
  | cons e es ih =>
    intro i hl
    rw [consoleConsumerLoop.eq_def]
    by_cases hi : i < max
    · rw [if_pos hi]
      cases e with
      | interrupt =>
        rw [if_neg (by simp [beforeInterrupt]; omega)]
        simp [beforeInterrupt, printed]
      | message m =>
        have hm := hl m (by simp [beforeInterrupt])
        obtain ⟨s, hs⟩ := Option.ne_none_iff_exists'.1 hm
        simp only [hs, beforeInterrupt, List.length_cons, List.mem_cons, reduceCtorEq, false_or]
        obtain ⟨n, hn⟩ : ∃ n, (max - i).toNat = n + 1 := ⟨(max - i).toNat - 1, by omega⟩
        rw [hn, List.take_succ_cons, ih (i + 1) (fun x hx => hl x (by simp [beforeInterrupt, hx]))]
        have e1 : (max - (i + 1)).toNat = n := by omega
        have e2 : (max - (i + 1) ≤ ((beforeInterrupt es).length : Int)) ↔ (max - i ≤ ((beforeInterrupt es).length + 1 : Nat)) := by push_cast; omega
        simp only [e1, e2, printed, List.map_cons, List.flatten_cons, hs, Option.getD_some]
    · rw [if_neg hi, if_pos (by omega)]
      have : (max - i).toNat = 0 := by omega
      simp [this, printed]

/-! ## The lines -/

theorem until_sep {x : UInt8} : ∀ {a b r s : Bytes}, x ∉ a → x ∉ b → a ++ x :: r = b ++ x :: s → a = b ∧ r = s
  | [], [], _, _, _, _, h => by simpa using h
  | [], c :: b, _, _, _, hb, h => by
    simp only [List.nil_append, List.cons_append, List.cons.injEq] at h
    exact absurd (by simp [h.1]) hb
  | c :: a, [], _, _, ha, _, h => by
    simp only [List.nil_append, List.cons_append, List.cons.injEq] at h
    exact absurd (by simp [h.1]) ha
  | c :: a, d :: b, r, s, ha, hb, h => by
    simp only [List.cons_append, List.cons.injEq] at h
    obtain ⟨h1, h2⟩ := until_sep (fun hx => ha (by simp [hx])) (fun hx => hb (by simp [hx])) h.2
    exact ⟨by rw [h.1, h1], h2⟩

theorem itoa_plain (n : Int) (x : UInt8) (hx : x ∈ itoa n) : x ≠ 58 ∧ x ≠ 10 := by
  by_cases h : n < 0
  · rw [itoa_neg _ h] at hx
    rcases List.mem_cons.1 hx with rfl | hx
    · decide
    · have := mem_decimal _ x hx
      constructor <;> (rintro rfl; simp at this)
  · rw [itoa_nat _ (by omega)] at hx
    have := mem_decimal _ x hx
    constructor <;> (rintro rfl; simp at this)

theorem itoa_inj {n m : Int} (h : itoa n = itoa m) : n = m := by
  have := signedOf_itoa n
  rw [h, signedOf_itoa] at this
  simpa using this.symm

/-- What a line of `group-consumer` is to tell: topic, partition, offset and value. -/
def FullMessage.told (m : FullMessage) : Bytes × Int32 × Option (Int64 × Bytes) := (m.topicName, m.partitionID, m.message.map fun x => (x.offset, x.value.getD []))

/-- a message that fits on a line: Kafka's topic names have neither colon nor line feed, and the value has no line feed -/
structure FullMessage.OneLine (m : FullMessage) : Prop where
  colon : 58 ∉ m.topicName
  feed : 10 ∉ m.topicName
  value : ∃ x, m.message = some x ∧ 10 ∉ x.value.getD []

theorem groupLine_split (m : FullMessage) (h : m.OneLine) : ∃ b x, m.message = some x ∧ groupLine m = some (b ++ [10]) ∧ 10 ∉ b ∧
    b = m.topicName ++ 58 :: (itoa m.partitionID.toInt ++ 58 :: (itoa x.offset.toInt ++ 58 :: (32 :: x.value.getD []))) := by
  obtain ⟨hc, hf, x, hx, hv⟩ := h
  refine ⟨_, x, hx, ?_, ?_, rfl⟩
  · simp [groupLine, hx]
  · simp only [List.mem_append, List.mem_cons, not_or]
    exact ⟨hf, by decide, fun h => (itoa_plain _ _ h).2 rfl, by decide, fun h => (itoa_plain _ _ h).2 rfl, by decide, by decide, hv⟩

/-- C153, the lines of `group-consumer`: if the values have no line feed, what is printed determines the messages, their number, order, topics, partitions,
offsets and values.
Missing: values with a line feed (`C153_violated_feed`); a nil value is printed like an empty one. -/
theorem C153_lines_partial : ∀ (ms ms' : List FullMessage), (∀ m ∈ ms, m.OneLine) → (∀ m ∈ ms', m.OneLine) → printed groupLine ms = printed groupLine ms' →
    ms.map FullMessage.told = ms'.map FullMessage.told := by
  intro ms
  induction ms with
  | nil =>
    intro ms' _ h' h
    cases ms' with
    | nil => rfl
    | cons m' ms' =>
      obtain ⟨b, x, -, h1, -, -⟩ := groupLine_split m' (h' m' (by simp))
      simp [printed, h1] at h
  | cons m ms ih =>
    intro ms' hm h' h
    obtain ⟨b, x, hx, h1, h2, h3⟩ := groupLine_split m (hm m (by simp))
    cases ms' with
    | nil => simp [printed, h1] at h
    | cons m' ms' =>
      obtain ⟨b', x', hx', h1', h2', h3'⟩ := groupLine_split m' (h' m' (by simp))
      have o := hm m (by simp)
      have o' := h' m' (by simp)
      simp only [printed, List.map_cons, List.flatten_cons, h1, h1', Option.getD_some, List.append_assoc, List.singleton_append] at h
      obtain ⟨hb, hr⟩ := until_sep h2 h2' h
      have hrest := ih ms' (fun k hk => hm k (by simp [hk])) (fun k hk => h' k (by simp [hk])) hr
      rw [h3, h3'] at hb
      obtain ⟨t1, hb⟩ := until_sep o.colon o'.colon hb
      obtain ⟨t2, hb⟩ := until_sep (fun h => (itoa_plain _ _ h).1 rfl) (fun h => (itoa_plain _ _ h).1 rfl) hb
      obtain ⟨t3, hb⟩ := until_sep (fun h => (itoa_plain _ _ h).1 rfl) (fun h => (itoa_plain _ _ h).1 rfl) hb
      simp only [List.cons.injEq, true_and] at hb
      have p2 : m.partitionID = m'.partitionID := Int32.toInt_inj.1 (itoa_inj t2)
      have p3 : x.offset = x'.offset := Int64.toInt_inj.1 (itoa_inj t3)
      simp only [List.map_cons, hrest, FullMessage.told, t1, p2, hx, hx', Option.map_some, p3, hb]

/-- a message without topic and partition, that fits on a line -/
def FullMessage.OneValue (m : FullMessage) : Prop := ∃ x, m.message = some x ∧ 10 ∉ x.value.getD []

/-- C153, the lines of `console-consumer`: if the values have no line feed, what is printed determines offsets and values.
Missing: values with a line feed (`C153_violated_feed`); a nil value is printed like an empty one. -/
theorem C153_console_lines_partial : ∀ (ms ms' : List FullMessage), (∀ m ∈ ms, m.OneValue) → (∀ m ∈ ms', m.OneValue) →
    printed consoleLine ms = printed consoleLine ms' → ms.map (fun m => m.told.2.2) = ms'.map fun m => m.told.2.2 := by
  have split : ∀ m : FullMessage, m.OneValue → ∃ x, m.message = some x ∧
      consoleLine m = some (itoa x.offset.toInt ++ 58 :: 32 :: (x.value.getD [] ++ [10])) ∧
      10 ∉ itoa x.offset.toInt ++ 58 :: 32 :: x.value.getD [] := by
    rintro m ⟨x, hx, hv⟩
    refine ⟨x, hx, ?_, ?_⟩
    · simp [consoleLine, hx]
    · simp only [List.mem_append, List.mem_cons, not_or]
      exact ⟨fun h => (itoa_plain _ _ h).2 rfl, by decide, by decide, hv⟩
  intro ms
  induction ms with
  | nil =>
    intro ms' _ h' h
    cases ms' with
    | nil => rfl
    | cons m' ms' =>
      obtain ⟨x, -, h1, -⟩ := split m' (h' m' (by simp))
      simp [printed, h1] at h
  | cons m ms ih =>
    intro ms' hm h' h
    obtain ⟨x, hx, h1, h2⟩ := split m (hm m (by simp))
    cases ms' with
    | nil => simp [printed, h1] at h
    | cons m' ms' =>
      obtain ⟨x', hx', h1', h2'⟩ := split m' (h' m' (by simp))
      have h : (itoa x.offset.toInt ++ 58 :: 32 :: x.value.getD []) ++ 10 :: printed consoleLine ms =
          (itoa x'.offset.toInt ++ 58 :: 32 :: x'.value.getD []) ++ 10 :: printed consoleLine ms' := by
        simpa [printed, h1, h1'] using h
      obtain ⟨hb, hr⟩ := until_sep h2 h2' h
      have hrest := ih ms' (fun k hk => hm k (by simp [hk])) (fun k hk => h' k (by simp [hk])) hr
      obtain ⟨t3, hb⟩ := until_sep (fun h => (itoa_plain _ _ h).1 rfl) (fun h => (itoa_plain _ _ h).1 rfl) hb
      simp only [List.cons.injEq, true_and] at hb
      have p3 : x.offset = x'.offset := Int64.toInt_inj.1 (itoa_inj t3)
      rw [List.map_cons, List.map_cons, hrest]
      congr 1
      simp only [FullMessage.told, hx, hx', Option.map_some, p3, hb]

/-- C153, the layout of the lines. -/
theorem C153_layout (m : FullMessage) (x : Message) (hx : m.message = some x) :
    consoleLine m = some (itoa x.offset.toInt ++ ": ".toUTF8.toList ++ x.value.getD [] ++ "\n".toUTF8.toList) ∧
    groupLine m = some (m.topicName ++ ":".toUTF8.toList ++ itoa m.partitionID.toInt ++ ":".toUTF8.toList ++ itoa x.offset.toInt ++ ": ".toUTF8.toList ++
      x.value.getD [] ++ "\n".toUTF8.toList) := by
  rw [show ": ".toUTF8.toList = [58, 32] by decide +kernel, show "\n".toUTF8.toList = [10] by decide +kernel, show ":".toUTF8.toList = [58] by decide +kernel]
  simp [consoleLine, groupLine, hx]

/-- C153 does not hold for values with a line feed: one message is printed like two. -/
theorem C153_violated_feed : ∃ m a b : FullMessage, a.OneLine ∧ b.OneLine ∧ printed groupLine [m] = printed groupLine [a, b] ∧
    printed groupLine [m] = "t:0:5: x\nt:0:6: y\n".toUTF8.toList := by
  refine ⟨⟨[116], 0, none, some { offset := 5, value := some "x\nt:0:6: y".toUTF8.toList }⟩, ⟨[116], 0, none, some { offset := 5, value := some [120] }⟩,
    ⟨[116], 0, none, some { offset := 6, value := some [121] }⟩, ⟨by decide, by decide, _, rfl, by decide⟩, ⟨by decide, by decide, _, rfl, by decide⟩,
    by decide +kernel, by decide +kernel⟩

/-- C153 does not hold for `group-consumer --max-messages 0`, nor for a negative number: it prints everything and never returns unless interrupted, where
`console-consumer` prints nothing and returns. -/
theorem C153_violated_zero (line : FullMessage → Option Bytes) (max : Int) (hmax : max ≤ 0) (ms : List FullMessage) (hl : ∀ m ∈ ms, line m ≠ none) :
    groupConsumerLoop line max 0 (ms.map .message) = (printed line ms, .waiting) ∧ consoleConsumerLoop line max 0 (ms.map .message) = ([], .returned) := by
  refine ⟨?_, ?_⟩
  · suffices h : ∀ (ms : List FullMessage) (i : Int), (∀ m ∈ ms, line m ≠ none) → groupConsumerLoop line max i (ms.map .message) = (printed line ms, .waiting) from
      h ms 0 hl
    intro ms
    induction ms with
    | nil => intro i _; rfl
    | cons m ms ih =>
      intro i hl
      obtain ⟨s, hs⟩ := Option.ne_none_iff_exists'.1 (hl m (by simp))
      simp only [List.map_cons, groupConsumerLoop, hs]
      rw [if_neg (by omega), ih (i + 1) fun x hx => hl x (by simp [hx])]
      simp [printed, hs]
  · rw [consoleConsumerLoop.eq_def, if_neg (by omega)]

/-- three messages, two of them asked for, and an interrupt which comes too late -/
example : groupConsumerLoop groupLine 2 0 [.message (at' 5), .message (at' 7), .message (at' 8), .interrupt] =
    ("t:0:5: \nt:0:7: \n".toUTF8.toList, .returned) := by decide +kernel

example : (∀ m ∈ beforeInterrupt [.message (at' 5), .message (at' 7), .interrupt], groupLine m ≠ none) ∧ (at' 5).OneLine :=
  ⟨by decide, by decide, by decide, _, rfl, by decide⟩

example : (at' 5).OneValue := ⟨_, rfl, by decide⟩

example : consoleConsumerLoop consoleLine 2 0 [.message (at' 5), .interrupt] = ("5: \n".toUTF8.toList, .killed) := by
  rw [C153_console _ _ _ _ (by decide)]; decide +kernel

/-! ## Messages that are never printed -/

/-- a member of a group, started at 5, which has put 5 and 7 into the channel when `group-consumer --max-messages 1` has printed 5 and closes it -/
def printingLife : Life where
  env := { mode := .member, capacity := 100 }
  offset := 5
  committed := -1
  fetchMaxBytes := 100
  acts := [.membership [109] 1, .fetched [at' 5, at' 7]] ++ take' ++ take' ++ [.receive, .stop, .commit, .commitStep 0 true, .commitStep 0 true, .commitStep 0 true, .commitStep 0 true]
  final := ((consumeStart .member 5 (-1) [] 100).run { mode := .member, capacity := 100 }
    ([.membership [109] 1, .fetched [at' 5, at' 7]] ++ take' ++ take' ++
      [.receive, .stop, .commit, .commitStep 0 true, .commitStep 0 true, .commitStep 0 true, .commitStep 0 true])).getD { offset := 0, fetchMaxBytes := 0 }

/-- the next run of the command -/
def nextPrintingLife : Life where
  env := { mode := .member, capacity := 100 }
  offset := -1
  committed := 8
  fetchMaxBytes := 100
  acts := [.fetched [at' 8]] ++ take' ++ [.receive]
  final := ((consumeStart .member (-1) 8 [] 100).run { mode := .member, capacity := 100 } ([.fetched [at' 8]] ++ take' ++ [.receive])).getD
    { offset := 0, fetchMaxBytes := 0 }

/-- C153 does not hold from one run of `group-consumer --max-messages 1` to the next: the first prints 5 and closes the consumer, which commits 8; the second prints 8.
The message 7 is printed by neither. -/
theorem C153_violated_skipped : ∃ first second : Life, Lives 5 [second, first] ∧ (∀ l ∈ [second, first], l.Ran threeStored ∧ l.env.capacity = 100) ∧
    groupConsumerLoop groupLine 1 0 [.message (at' 5)] = (printed groupLine [at' 5], .returned) ∧
    (Seen.got { offset := 5 } ∈ first.final.log ∧ Seen.got { offset := 8 } ∈ second.final.log) ∧
    ({ offset := 7 } : Message).seen ∈ threeStored ∧ ∀ l ∈ [second, first], Seen.got { offset := 7 } ∉ l.final.log := by
  have one : FromLog (fromOffset threeStored 5) [at' 5, at' 7] := by
    intro _ m hm; cases hm
    refine ⟨_, rfl, ?_⟩
    intro _ m hm; cases hm
    exact ⟨_, rfl, trivial⟩
  have two : FromLog (fromOffset threeStored 8) [at' 8] := by
    intro _ m hm; cases hm
    exact ⟨_, rfl, trivial⟩
  have log1 : printingLife.final.log = [.member [109] 1, .fetch 5 100, .put { offset := 5 }, .put { offset := 7 }, .got { offset := 5 }, .commit [109] 1 8 true] := rfl
  have log2 : nextPrintingLife.final.log = [.fetch 8 100, .put { offset := 8 }, .got { offset := 8 }] := rfl
  refine ⟨printingLife, nextPrintingLife, ⟨.inr ⟨printingLife, by simp, by decide, .inl rfl, by decide, [109], 1, true, ?_⟩, .inl rfl, trivial⟩, fun l hl => ?_,
    by decide +kernel, ⟨?_, ?_⟩, by decide, fun l hl h => ?_⟩
  · rw [log1]; exact List.mem_of_getElem? (i := 5) rfl
  · simp only [List.mem_cons, List.not_mem_nil, or_false] at hl
    rcases hl with rfl | rfl
    · refine ⟨⟨rfl, ?_, fun b a h => ?_⟩, rfl⟩
      · refine ⟨fun ms h => by cases h; exact two, fun s1 h1 => ?_⟩
        cases h1
        repeat (refine ⟨fun ms h => (nomatch h), fun s1 h1 => ?_⟩; cases h1)
        trivial
      · rw [log2] at h; simp at h
    · refine ⟨⟨rfl, ?_, fun b a h => ?_⟩, rfl⟩
      · refine ⟨fun ms h => (nomatch h), fun s1 h1 => ?_⟩
        cases h1
        refine ⟨fun ms h => by cases h; exact one, fun s1 h1 => ?_⟩
        cases h1
        repeat (refine ⟨fun ms h => (nomatch h), fun s1 h1 => ?_⟩; cases h1)
        trivial
      · rw [log1] at h; simp at h
  · rw [log1]; exact List.mem_of_getElem? (i := 4) rfl
  · rw [log2]; exact List.mem_of_getElem? (i := 2) rfl
  · simp only [List.mem_cons, List.not_mem_nil, or_false] at hl
    rcases hl with rfl | rfl
    · rw [log2] at h; simp at h
    · rw [log1] at h; simp at h

end Healer
