import Verif.Props.Holdings

/-!
# C95: how many connections a refresh of the metadata leaves open
-/

namespace Healer

open Brokers

variable {W : Type} (net : Net W)

/-- an answer to a metadata request was received, listing brokers -/
def Done.listsBrokers : Done → Bool
  | .metadata _ _ r => decide (r.1.brokers ≠ [])
  | _ => false

/-- a metadata request was made -/
def Done.asksMetadata : Done → Bool
  | .metadata _ _ _ => true
  | _ => false

/-- how many metadata answers listed brokers -/
def listedCount (log : List Done) : Nat := log.countP Done.listsBrokers

/-- how many metadata requests were made -/
def askedCount (log : List Done) : Nat := log.countP Done.asksMetadata

theorem connect_events (a : Bytes) (n : Int32) (b : Brokers W) :
    (∃ h, (connect net a n b).1 = .ok h ∧ (connect net a n b).2.log = b.log ++ [.connected a n h]) ∨
    (∃ e, (connect net a n b).1 = .error e ∧ (connect net a n b).2.log = b.log ++ [.connectFailed a n e]) := by
  unfold Brokers.connect
  cases h : net.connect a n b.world with
  | mk r w =>
    cases r with
    | ok k => exact .inl ⟨k, rfl, rfl⟩
    | error e => exact .inr ⟨e, rfl, rfl⟩

theorem refreshBootstrap_left (as : List Bytes) (b : Brokers W) : ∃ d, (refreshBootstrap net as b).log = b.log ++ d ∧
    madeCount d = closeCount d + listedCount d := by
  induction as generalizing b with
  | nil => exact ⟨[], by simp [refreshBootstrap], rfl⟩
  | cons a as ih =>
    unfold refreshBootstrap
    have hc := connect_events net a (-1) b
    cases hx : connect net a (-1) b with
    | mk r b1 =>
      rw [hx] at hc
      cases r with
      | error e =>
        rcases hc with ⟨h, h1, -⟩ | ⟨e', -, h2⟩
        · cases h1
        · obtain ⟨d, g1, g2⟩ := ih b1
          dsimp only at h2 ⊢
          refine ⟨.connectFailed a (-1) e' :: d, by rw [g1, h2]; simp, ?_⟩
          rw [madeCount, closeCount, listedCount, List.countP_cons_of_neg (by simp [Done.opens]), List.countP_cons_of_neg (by simp [Done.isClose]),
            List.countP_cons_of_neg (by simp [Done.listsBrokers])]
          exact g2
      | ok h =>
        rcases hc with ⟨h', h1, h2⟩ | ⟨e', h1, -⟩
        · cases h1
          dsimp only at h2
          dsimp only
          rw [show askMetadata net h [] b1 = ((net.metadata h [] b1.world).1, { b1 with
            world := (net.metadata h [] b1.world).2
            log := b1.log ++ [.metadata h [] (net.metadata h [] b1.world).1] }) from rfl]
          dsimp only
          split
          · rename_i hn
            obtain ⟨d, g1, g2⟩ := ih { b1 with
              world := (net.metadata h [] b1.world).2
              log := b1.log ++ [.metadata h [] (net.metadata h [] b1.world).1] ++ [.closed h] }
            refine ⟨.connected a (-1) h :: .metadata h [] (net.metadata h [] b1.world).1 :: .closed h :: d, by rw [g1, h2]; simp, ?_⟩
            simp only [madeCount, closeCount, listedCount, List.countP_cons, Done.opens, Done.isClose, Done.listsBrokers, hn] at g2 ⊢
            simp at g2 ⊢
            omega
          · rename_i hn
            obtain ⟨d, g1, g2⟩ := ih { b1 with
              infos := infosOf (net.metadata h [] b1.world).1.1.brokers
              world := (net.metadata h [] b1.world).2
              log := b1.log ++ [.metadata h [] (net.metadata h [] b1.world).1] }
            refine ⟨.connected a (-1) h :: .metadata h [] (net.metadata h [] b1.world).1 :: d, by rw [g1, h2]; simp, ?_⟩
            simp only [madeCount, closeCount, listedCount, List.countP_cons, Done.opens, Done.isClose, Done.listsBrokers] at g2 ⊢
            simp [hn] at g2 ⊢
            omega
        · cases h1

theorem refreshKnown_left (is : List BrokerInfo) (b : Brokers W) : ∃ d, (refreshKnown net is b).2.log = b.log ++ d ∧
    closeCount d = 0 ∧ madeCount d = askedCount d ∧ ((refreshKnown net is b).1 = true ↔ 0 < listedCount d) := by
  induction is generalizing b with
  | nil => exact ⟨[], by simp [refreshKnown], rfl, rfl, by simp [refreshKnown, listedCount]⟩
  | cons i is ih =>
    unfold refreshKnown
    have hc := connect_events net i.netAddress (-1) b
    cases hx : connect net i.netAddress (-1) b with
    | mk r b1 =>
      rw [hx] at hc
      cases r with
      | error e =>
        rcases hc with ⟨h, h1, -⟩ | ⟨e', -, h2⟩
        · cases h1
        · obtain ⟨d, g1, g2, g3, g4⟩ := ih b1
          dsimp only at h2 ⊢
          refine ⟨.connectFailed i.netAddress (-1) e' :: d, by rw [g1, h2]; simp, ?_⟩
          simp only [madeCount, closeCount, listedCount, askedCount, List.countP_cons, Done.opens, Done.isClose, Done.listsBrokers,
            Done.asksMetadata] at g2 g3 g4 ⊢
          simp at g2 g3 g4 ⊢
          exact ⟨g2, g3, g4⟩
      | ok h =>
        rcases hc with ⟨h', h1, h2⟩ | ⟨e', h1, -⟩
        · cases h1
          dsimp only at h2
          dsimp only
          rw [show askMetadata net h [] b1 = ((net.metadata h [] b1.world).1, { b1 with
            world := (net.metadata h [] b1.world).2
            log := b1.log ++ [.metadata h [] (net.metadata h [] b1.world).1] }) from rfl]
          dsimp only
          split
          · rename_i hn
            obtain ⟨d, g1, g2, g3, g4⟩ := ih { b1 with
              world := (net.metadata h [] b1.world).2
              log := b1.log ++ [.metadata h [] (net.metadata h [] b1.world).1] }
            refine ⟨.connected i.netAddress (-1) h :: .metadata h [] (net.metadata h [] b1.world).1 :: d, by rw [g1, h2]; simp, ?_⟩
            simp only [madeCount, closeCount, listedCount, askedCount, List.countP_cons, Done.opens, Done.isClose, Done.listsBrokers,
              Done.asksMetadata, hn] at g2 g3 g4 ⊢
            simp at g2 g3 g4 ⊢
            exact ⟨g2, g3, g4⟩
          · rename_i hn
            refine ⟨[.connected i.netAddress (-1) h, .metadata h [] (net.metadata h [] b1.world).1], by simp [h2], ?_⟩
            simp [madeCount, closeCount, listedCount, askedCount, Done.opens, Done.isClose, Done.listsBrokers,
              Done.asksMetadata, hn]
        · cases h1

/-- C95, exactly: a refresh first asks the bootstrap servers (`d₁`), then the brokers known by then (`d₂`).  It leaves
open one connection for each bootstrap server whose answer lists brokers, and every connection of the second part.
Missing for the full statement: that there be none; what is closed are the connections to bootstrap servers whose answer lists
no brokers. -/
theorem C95_exact_partial (b : Brokers W) : ∃ d₁ d₂, (refreshMetadata net b).2.log = b.log ++ d₁ ++ d₂ ∧
    madeCount d₁ = closeCount d₁ + listedCount d₁ ∧ closeCount d₂ = 0 ∧ madeCount d₂ = askedCount d₂ := by
  obtain ⟨d₁, h1, h2⟩ := refreshBootstrap_left net b.bootstrap b
  unfold refreshMetadata order
  obtain ⟨d₂, g1, g2, g3, -⟩ := refreshKnown_left net
    (net.shuffle ((refreshBootstrap net b.bootstrap b).infos.map Prod.snd) (refreshBootstrap net b.bootstrap b).world).1
    { refreshBootstrap net b.bootstrap b with
      world := (net.shuffle ((refreshBootstrap net b.bootstrap b).infos.map Prod.snd) (refreshBootstrap net b.bootstrap b).world).2 }
  exact ⟨d₁, d₂, by dsimp only at g1 ⊢; rw [g1, h1], h2, g2, g3⟩

/-- C95 fails for every successful refresh: at least one more connection is open after it than before. -/
theorem C95_violated_always (b : Brokers W) (h : (refreshMetadata net b).1 = true) :
    ∃ d, (refreshMetadata net b).2.log = b.log ++ d ∧ closeCount d + 1 ≤ madeCount d := by
  have hs := refreshBootstrap_surplus net b.bootstrap b
  obtain ⟨d₁, h1, h2⟩ := hs
  unfold refreshMetadata order at h ⊢
  obtain ⟨d₂, g1, g2, g3, g4⟩ := refreshKnown_left net
    (net.shuffle ((refreshBootstrap net b.bootstrap b).infos.map Prod.snd) (refreshBootstrap net b.bootstrap b).world).1
    { refreshBootstrap net b.bootstrap b with
      world := (net.shuffle ((refreshBootstrap net b.bootstrap b).infos.map Prod.snd) (refreshBootstrap net b.bootstrap b).world).2 }
  have hl : listedCount d₂ ≤ askedCount d₂ := by
    refine List.countP_mono_left fun x _ hx => ?_
    cases x <;> first | rfl | cases hx
  have := g4.1 h
  exact ⟨d₁ ++ d₂, by dsimp only at g1 ⊢; rw [g1, h1, List.append_assoc], by rw [madeCount_append, closeCount_append]; omega⟩

example : (refreshMetadata goodNet (demoBrokers goodNet)).1 = true ∧
    (madeCount (refreshMetadata goodNet (demoBrokers goodNet)).2.log, closeCount (refreshMetadata goodNet (demoBrokers goodNet)).2.log) =
      (madeCount (demoBrokers goodNet).log + 2, closeCount (demoBrokers goodNet).log) := by decide +kernel

end Healer
