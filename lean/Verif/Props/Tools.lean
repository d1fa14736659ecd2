import Verif.Model.Tools
import Verif.Props.Builders

/-!
# C129: assignments given on the command line
-/

namespace Healer

/-! ## Text -/

theorem splitAt_word (sep : UInt8) (w : Bytes) (h : sep ∉ w) : splitAt sep w = [w] := by
  induction w with
  | nil => rfl
  | cons c w ih =>
    simp only [List.mem_cons, not_or] at h
    simp [splitAt, Ne.symm h.1, ih h.2]

theorem splitAt_append (sep : UInt8) (w rest : Bytes) (h : sep ∉ w) : splitAt sep (w ++ sep :: rest) = w :: splitAt sep rest := by
  induction w with
  | nil => simp [splitAt]
  | cons c w ih =>
    simp only [List.mem_cons, not_or] at h
    simp [splitAt, Ne.symm h.1, ih h.2]

theorem splitAt_join (sep : UInt8) (ws : List Bytes) (hne : ws ≠ []) (h : ∀ w ∈ ws, sep ∉ w) :
    splitAt sep (List.intercalate [sep] ws) = ws := by
  induction ws with
  | nil => exact absurd rfl hne
  | cons w ws ih =>
    cases ws with
    | nil => simpa using splitAt_word sep w (h w (by simp))
    | cons v ws =>
      have : List.intercalate [sep] (w :: v :: ws) = w ++ sep :: List.intercalate [sep] (v :: ws) := by
        simp [List.intercalate, List.intersperse]
      rw [this, splitAt_append _ _ _ (h w (by simp)), ih (by simp) fun x hx => h x (by simp [hx])]

theorem digit_range (c : Char) (h : c.isDigit = true) : 48 ≤ c.toNat ∧ c.toNat ≤ 57 := by
  simp only [Char.isDigit, Bool.and_eq_true, decide_eq_true_eq, UInt32.le_iff_toNat_le] at h
  exact h

theorem toNat_ofDigit (c : Char) (h : c.isDigit = true) : (UInt8.ofNat c.toNat).toNat = c.toNat := by
  have := digit_range c h
  simp only [UInt8.toNat_ofNat']
  omega

/-- the digits of a number -/
def decimal (n : Nat) : Bytes := (Nat.toDigits 10 n).map fun c => UInt8.ofNat c.toNat

theorem mem_decimal (n : Nat) (x : UInt8) (h : x ∈ decimal n) : 48 ≤ x.toNat ∧ x.toNat ≤ 57 := by
  obtain ⟨c, hc, rfl⟩ := List.mem_map.1 h
  have hd := Nat.isDigit_of_mem_toDigits (by decide) (by decide) hc
  rw [toNat_ofDigit c hd]
  exact digit_range c hd

theorem digitsOf_decimal (n : Nat) : digitsOf (decimal n) = some n := by
  have h1 : decimal n ≠ [] := by
    simp [decimal, Nat.toDigits_ne_nil]
  have h2 : (decimal n).all (fun c => 48 ≤ c && c ≤ 57) = true := by
    rw [List.all_eq_true]
    intro x hx
    have := mem_decimal n x hx
    simp only [Bool.and_eq_true, decide_eq_true_eq, UInt8.le_iff_toNat_le]
    exact this
  unfold digitsOf
  rw [if_neg h1, if_pos h2]
  congr 1
  have key : ∀ (l : List Char) (k : Nat), (∀ c ∈ l, c.isDigit = true) →
      (l.map fun c => UInt8.ofNat c.toNat).foldl (fun n c => 10 * n + (c.toNat - 48)) k = Nat.ofDigitChars 10 l k := by
    intro l
    induction l with
    | nil => intro k _; simp
    | cons c l ih =>
      intro k h
      rw [List.map_cons, List.foldl_cons, toNat_ofDigit c (h c (by simp)), ih _ fun d hd => h d (by simp [hd]), Nat.ofDigitChars_cons]
      rfl
  unfold decimal
  rw [key _ _ fun c hc => Nat.isDigit_of_mem_toDigits (by decide) (by decide) hc, Nat.ofDigitChars_ten_toDigits]

theorem itoa_nat (n : Int) (h : 0 ≤ n) : itoa n = decimal n.toNat := by
  unfold itoa decimal
  rw [if_neg (by omega), show n.natAbs = n.toNat by omega]
  rfl

theorem itoa_neg (n : Int) (h : n < 0) : itoa n = 45 :: decimal n.natAbs := by
  unfold itoa decimal
  rw [if_pos h]
  rfl

theorem signedOf_itoa (n : Int) : signedOf (itoa n) = some n := by
  by_cases h : n < 0
  · rw [itoa_neg n h]
    simp only [signedOf, digitsOf_decimal, Option.map_some, Option.some.injEq]
    show -((n.natAbs : Nat) : Int) = n
    omega
  · rw [itoa_nat n (by omega)]
    have hm := mem_decimal n.toNat
    unfold signedOf
    split
    · rename_i s hs
      have := (hm 45 (by simp [hs])).1
      simp at this
    · rename_i s hs
      have := (hm 43 (by simp [hs])).1
      simp at this
    · rw [digitsOf_decimal]
      show some ((n.toNat : Nat) : Int) = some n
      congr 1
      omega

theorem atoi_itoa (n : Int) (hr : -2 ^ 63 ≤ n ∧ n < 2 ^ 63) : atoi (itoa n) = some (Int64.ofInt n) := by
  unfold atoi
  rw [signedOf_itoa, Option.bind_some, if_pos hr]

/-- How an assignment is written on the command line: nodes separated by colons, partitions by commas. -/
def showNodes (ns : List Int32) : Bytes := List.intercalate [58] (ns.map fun n => itoa n.toInt)

/-- the same for all partitions -/
def showAssignment (a : List (List Int32)) : Bytes := List.intercalate [44] (a.map showNodes)

theorem mem_intercalate {α : Type} (sep : α) (ws : List (List α)) (x : α) (h : x ∈ List.intercalate [sep] ws) : x = sep ∨ ∃ w ∈ ws, x ∈ w := by
  induction ws with
  | nil => simp at h
  | cons w ws ih =>
    cases ws with
    | nil => exact .inr ⟨w, by simp, by simpa using h⟩
    | cons v ws =>
      have : List.intercalate [sep] (w :: v :: ws) = w ++ sep :: List.intercalate [sep] (v :: ws) := by
        simp [List.intercalate, List.intersperse]
      rw [this] at h
      rcases List.mem_append.1 h with h | h
      · exact .inr ⟨w, by simp, h⟩
      · rcases List.mem_cons.1 h with h | h
        · exact .inl h
        · rcases ih h with h | ⟨u, hu, hx⟩
          · exact .inl h
          · exact .inr ⟨u, by simp [hu], hx⟩

theorem itoa_no_sep (n : Int32) (x : UInt8) (hx : x ∈ itoa n.toInt) : x ≠ 58 ∧ x ≠ 44 := by
  by_cases h : n.toInt < 0
  · rw [itoa_neg _ h] at hx
    rcases List.mem_cons.1 hx with rfl | hx
    · decide
    · have := mem_decimal _ x hx
      constructor <;> (rintro rfl; simp at this)
  · rw [itoa_nat _ (by omega)] at hx
    have := mem_decimal _ x hx
    constructor <;> (rintro rfl; simp at this)

theorem mapM_some {α β γ : Type} (f : β → Option γ) (g : α → β) (k : α → γ) (l : List α) (h : ∀ a ∈ l, f (g a) = some (k a)) :
    (l.map g).mapM f = some (l.map k) := by
  induction l with
  | nil => rfl
  | cons a l ih =>
    simp only [List.map_cons, List.mapM_cons, h a (by simp), ih fun b hb => h b (by simp [hb])]
    rfl

theorem parseNodes_show (ns : List Int32) (hne : ns ≠ []) : parseNodes (showNodes ns) = some ns := by
  unfold parseNodes showNodes
  rw [splitAt_join 58 _ (by simpa using hne)]
  · have := mapM_some (fun n => (atoi n).map Int64.toInt32) (fun n : Int32 => itoa n.toInt) id ns ?_
    · simpa using this
    · intro n hn
      have h0 := n.le_toInt
      have h1 := n.toInt_lt
      rw [atoi_itoa _ ⟨by omega, by omega⟩]
      simp only [Option.map_some, id_eq, Option.some.injEq]
      apply Int32.toInt_inj.1
      rw [Int64.toInt_toInt32, Int64.toInt_ofInt_of_le (by omega) (by omega), Int.bmod_eq_of_le] <;> omega
  · intro w hw hs
    obtain ⟨n, hn, rfl⟩ := List.mem_map.1 hw
    exact (itoa_no_sep n _ hs).1 rfl

theorem showNodes_no_comma (ns : List Int32) : (44 : UInt8) ∉ showNodes ns := by
  intro hm
  rcases mem_intercalate _ _ _ hm with h1 | ⟨w, hw, hx⟩
  · cases h1
  · obtain ⟨n, hn, rfl⟩ := List.mem_map.1 hw
    exact (itoa_no_sep n _ hx).2 rfl

theorem showNodes_ne_nil (ns : List Int32) (hne : ns ≠ []) : showNodes ns ≠ [] := by
  intro h0
  have := parseNodes_show ns hne
  rw [h0] at this
  simp [parseNodes, splitAt, atoi, signedOf, digitsOf] at this

/-- C129: create-topic reads the assignment that was written, for every assignment with at least one partition and one node for
each.
Missing for the full statement: the request made of it (`C129_violated_order`). -/
theorem C129_parsed_partial (a : List (List Int32)) (hne : a ≠ []) (h : ∀ ns ∈ a, ns ≠ []) :
    parseReplicaAssignment (showAssignment a) = some a := by
  unfold parseReplicaAssignment showAssignment
  rw [splitAt_join 44 _ (by simpa using hne)]
  · have := mapM_some parseNodes showNodes id a fun ns hns => parseNodes_show ns (h ns hns)
    simpa using this
  · intro w hw hs
    obtain ⟨ns, hns, rfl⟩ := List.mem_map.1 hw
    exact showNodes_no_comma ns hs

theorem modify_last (acc : List (List Int32)) (ns : List Int32) : (acc ++ [[]]).modify acc.length (· ++ ns) = acc ++ [ns] := by
  induction acc with
  | nil => simp
  | cons x acc ih => simpa using ih

theorem genAssignmentsLoop_show (a acc : List (List Int32)) (h : ∀ ns ∈ a, ns ≠ []) :
    genAssignmentsLoop acc.length (a.map showNodes) acc = .ok (acc ++ a) := by
  induction a generalizing acc with
  | nil => simp [genAssignmentsLoop]
  | cons ns a ih =>
    have hn := h ns (by simp)
    simp only [List.map_cons, genAssignmentsLoop, showNodes_ne_nil ns hn, if_false, parseNodes_show ns hn, Nat.le_refl, if_true]
    rw [modify_last]
    have := ih (acc ++ [ns]) fun x hx => h x (by simp [hx])
    simpa using this

/-- C129 for create-partitions: the assignment requested is the one written.
Missing: create-topic (`C129_violated_order`), and what is written otherwise (`C129_violated_empty`, `C129_violated_wrap`). -/
theorem C129_create_partitions_partial (a : List (List Int32)) (hne : a ≠ []) (h : ∀ ns ∈ a, ns ≠ []) :
    genPartitionAssignments (showAssignment a) = .ok a := by
  unfold genPartitionAssignments showAssignment
  rw [splitAt_join 44 _ (by simpa using hne)]
  · simpa using genAssignmentsLoop_show a [] h
  · intro w hw hs
    obtain ⟨ns, hns, rfl⟩ := List.mem_map.1 hw
    exact showNodes_no_comma ns hs

/-- a request to create one topic with the assignments given -/
def createOne (topic : Bytes) (l : List ReplicaAssignment) (timeout : UInt32) : CreateTopicsRequest :=
  ⟨[⟨topic, -1, -1, l, []⟩], timeout⟩

/-- the request create-topic should make -/
def wantedCreateTopic (topic : Bytes) (a : List (List Int32)) (timeout : UInt32) : CreateTopicsRequest :=
  createOne topic (a.zipIdx.map fun e => ⟨Int32.ofNat e.2, e.1⟩) timeout

theorem addAssignments_ascending (topic : Bytes) (timeout : UInt32) (l : List (Int32 × List Int32)) (ras : List ReplicaAssignment)
    (hs : (ras.map ReplicaAssignment.partition ++ l.map Prod.fst).Pairwise fun x y => x < y) :
    addAssignments topic l (createOne topic ras timeout) = createOne topic (ras ++ l.map fun e => ⟨e.1, e.2⟩) timeout := by
  induction l generalizing ras with
  | nil => simp [addAssignments]
  | cons e l ih =>
    obtain ⟨pid, nodes⟩ := e
    have h1 := C77_added_partial (createOne topic ras timeout) [] [] ⟨topic, -1, -1, ras, []⟩ pid nodes rfl (by simp) (by
        intro ra hra
        rw [List.pairwise_append] at hs
        exact hs.2.2 _ (List.mem_map.2 ⟨ra, hra, rfl⟩) _ (by simp))
    have h2 : (createOne topic ras timeout).addReplicaAssignment topic pid nodes = .ok (createOne topic (ras ++ [⟨pid, nodes⟩]) timeout) := h1
    simp only [addAssignments, h2]
    rw [ih (ras ++ [ReplicaAssignment.mk pid nodes]) (by simpa using hs)]
    simp

theorem ofNat_lt (i j : Nat) (h : i < j) (hj : j < 2 ^ 31) : Int32.ofNat i < Int32.ofNat j := by
  rw [Int32.lt_iff_toInt_lt, Int32.toInt_ofNat_of_lt (by omega), Int32.toInt_ofNat_of_lt (by omega)]
  omega

/-- C129 for create-topic: if the map is visited from the lowest partition to the highest, the request holds the assignment
written.
Missing for the full statement: all other orders (`C129_violated_order`). -/
theorem C129_ascending_partial (topic : Bytes) (timeout : UInt32) (a : List (List Int32)) (hne : a ≠ []) (hl : a.length ≤ 2 ^ 31)
    (h : ∀ ns ∈ a, ns ≠ []) :
    createTopicRequestOf topic (showAssignment a) timeout id = some (wantedCreateTopic topic a timeout) := by
  unfold createTopicRequestOf wantedCreateTopic
  rw [C129_parsed_partial a hne h]
  simp only [Option.map_some, id_eq, Option.some.injEq]
  have hz : (a.mapIdx fun i nodes => (Int32.ofNat i, nodes)) = a.zipIdx.map fun e => (Int32.ofNat e.2, e.1) := by
    rw [List.mapIdx_eq_zipIdx_map]
  rw [hz]
  have := addAssignments_ascending topic timeout (a.zipIdx.map fun e => (Int32.ofNat e.2, e.1)) [] ?_
  · refine Eq.trans this ?_
    simp [Function.comp_def]
  · simp only [List.map_nil, List.nil_append, List.map_map]
    rw [List.pairwise_iff_getElem]
    intro i j hi hj hij
    simp only [List.getElem_map, List.getElem_zipIdx, Function.comp_apply]
    simp only [List.length_map, List.length_zipIdx] at hj
    exact ofNat_lt _ _ (by omega) (by omega)

/-- two partitions -/
example : createTopicRequestOf [116] (showAssignment [[1, 2], [2, 13]]) 0 id = some (wantedCreateTopic [116] [[1, 2], [2, 13]] 0) ∧
    showAssignment [[1, 2], [2, 13]] = [49, 58, 50, 44, 50, 58, 49, 51] := by decide +kernel

/-- C129 does not hold if the map is visited in another order, which is up to the Go runtime: the assignment of partition 0 is lost, and
the request is sent all the same. -/
theorem C129_violated_order : createTopicRequestOf [116] (showAssignment [[1, 2], [2, 13]]) 0 List.reverse =
    some (createOne [116] [⟨1, [2, 13]⟩] 0) := by
  decide +kernel

/-- C129 does not hold for create-partitions if an entry is left empty: the tool crashes ("1,,2"). -/
theorem C129_violated_empty : genPartitionAssignments [49, 44, 44, 50] = .panic := by decide +kernel

example : genPartitionAssignments [49, 58, 51, 44, 50] = .ok [[1, 3], [2]] := by decide +kernel

/-- C129 does not hold for node ids beyond 32 bits: another node is meant ("4294967297" is node 1). -/
theorem C129_violated_wrap : genPartitionAssignments [52, 50, 57, 52, 57, 54, 55, 50, 57, 55] = .ok [[1]] := by decide +kernel

end Healer
