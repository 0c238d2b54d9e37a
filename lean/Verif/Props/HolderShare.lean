import Verif.SpecHolderShare
import Verif.Props.Ledger
import Verif.Lemmas.Solvency
/-!
# C113: every account is paid the holder rewards of its tokens
-/

namespace Verif.Props

open Verif Verif.Witness

variable {env : Env} {o : Oracle} {w w' : World} {ix : Ix}

theorem _root_.Verif.HolderLedger.reachable {ck k : Key} {r s p n : Nat} (L : HolderLedger env ck k w r s p n) : Reachable env w := by
  induction L with
  | genesis G => exact .genesis G
  | ext _ E ih => exact .ext ih E
  | exec _ O _ h _ ih => exact .exec ih O h

theorem holderClaim_some {ck k : Key} {d : Delegation} (hd : stakeAt w k = some d) (hb : belongs k ck) :
    holderClaim env w ck k = growth d.lastHolder (holderAcc env ck w) * d.staked := by
  unfold holderClaim; rw [hd]; simp only [if_pos hb]

theorem holderClaim_none {ck k : Key} (hd : stakeAt w k = none) : holderClaim env w ck k = 0 := by
  unfold holderClaim; rw [hd]

theorem holderClaim_other {ck k : Key} (hb : ¬ belongs k ck) : holderClaim env w ck k = 0 := by
  unfold holderClaim; split
  · exact if_neg hb
  · rfl

theorem holder_stakedIn_none {ck k : Key} (hd : stakeAt w k = none) : stakedIn w ck k = 0 := by
  unfold stakedIn; rw [hd]; simp

theorem holder_stakedIn_other {ck k : Key} (hb : ¬ belongs k ck) : stakedIn w ck k = 0 := if_neg hb

/-- Rises add up, as long as the sum does not wrap. -/
theorem growth_chain {a b c : Nat} (ha : a < U128) (hb : b < U128) (hc : c < U128) (h : growth a b + growth b c < U128) :
    growth a c = growth a b + growth b c := by
  unfold growth at *; unfold U128 at *; omega

/-- The invariant of a holder ledger. -/
structure HolderOk (env : Env) (ck k : Key) (w : World) (r s p n : Nat) : Prop where
  upper : scale * p + holderClaim env w ck k ≤ s
  lower : r < U128 → s ≤ scale * p + holderClaim env w ck k + scale * n ∧
    ∀ d, belongs k ck → stakeAt w k = some d → d.staked = 0 ∨ growth d.lastHolder (holderAcc env ck w) ≤ r

/-- A step in which the account keeps its markers and its tokens. -/
theorem HolderOk.keep {ck k : Key} {r s p n : Nat} (K : HolderOk env ck k w r s p n) (W : w.WF) (W' : w'.WF) (I : Inv env w)
    {d d' : Delegation} (hb : belongs k ck) (hd : stakeAt w k = some d) (hd' : stakeAt w' k = some d') (h1 : d'.lastHolder = d.lastHolder)
    (h2 : d'.staked = d.staked) :
    HolderOk env ck k w' (r + holderRise env ck w w') (s + holderRise env ck w w' * stakedIn w' ck k) p n := by
  have K1 := K.upper
  have e := holderClaim_some (env := env) hd hb
  have e' := holderClaim_some (env := env) hd' hb
  have a1 := (I.markers hd).2
  have a2 := holderAcc_lt (env := env) W ck
  have a3 := holderAcc_lt (env := env) W' ck
  rw [stakedIn_eq hb hd', h2]
  rw [h1, h2] at e'
  have hR : holderRise env ck w w' = growth (holderAcc env ck w) (holderAcc env ck w') := rfl
  rw [hR]
  have tri := Nat.mul_le_mul_right d.staked (growth_triangle a1 a2 (holderAcc env ck w'))
  rw [Nat.add_mul] at tri
  refine ⟨by omega, fun hlt => ?_⟩
  obtain ⟨k1, k2⟩ := K.lower (by omega)
  have key : d.staked = 0 ∨ growth d.lastHolder (holderAcc env ck w') =
      growth d.lastHolder (holderAcc env ck w) + growth (holderAcc env ck w) (holderAcc env ck w') :=
    (k2 d hb hd).imp id fun hle => growth_chain a1 a2 a3 (by omega)
  refine ⟨?_, fun d1 _ hd1 => ?_⟩
  · rcases key with h0 | h0
    · rw [e', h0]; rw [e, h0] at k1; simpa using k1
    · rw [e', h0, Nat.add_mul]; omega
  · rw [hd'] at hd1; cases hd1
    rw [h1, h2]
    rcases k2 d hb hd with h0 | h0
    · exact .inl h0
    · rcases key with h3 | h3
      · exact .inl h3
      · exact .inr (by omega)

/-- A step in which nothing is staked. -/
theorem HolderOk.idle {ck k : Key} {r s p n : Nat} (K : HolderOk env ck k w r s p n) (x : Nat) (hs : holderClaim env w ck k = 0)
    (h' : stakedIn w' ck k = 0) : HolderOk env ck k w' (r + x) (s + x * stakedIn w' ck k) p n := by
  have hc' : holderClaim env w' ck k = 0 := by
    by_cases hb : belongs k ck
    · cases hd : stakeAt w' k with
      | none => exact holderClaim_none hd
      | some d => rw [holderClaim_some hd hb]; rw [stakedIn_eq hb hd] at h'; rw [h', Nat.mul_zero]
    · exact holderClaim_other hb
  have K1 := K.upper
  rw [hs] at K1
  rw [h', Nat.mul_zero, Nat.add_zero]
  refine ⟨by rw [hc']; exact K1, fun hlt => ⟨?_, fun d hb hd => .inl (by rw [stakedIn_eq hb hd] at h'; exact h')⟩⟩
  have := (K.lower (by omega)).1
  rw [hs] at this; rw [hc']; exact this

theorem holderOk_ext (I : Inv env w) {ck k : Key} {r s p n : Nat} (K : HolderOk env ck k w r s p n) (E : ExtStep w w') :
    HolderOk env ck k w' (r + holderRise env ck w w') (s + holderRise env ck w w' * stakedIn w' ck k) p n := by
  have es := ext_stakeAt I E
  by_cases hb : belongs k ck
  · cases hd : stakeAt w k with
    | none => exact K.idle _ (holderClaim_none hd) (holder_stakedIn_none ((es k).trans hd))
    | some d => exact K.keep I.wf (ext_inv I E).wf I hb hd ((es k).trans hd) rfl rfl
  · exact K.idle _ (holderClaim_other hb) (holder_stakedIn_other hb)

theorem holderOk_exec (I : Inv env w) {ck k : Key} {r s p n : Nat} (K : HolderOk env ck k w r s p n) (O : o.Ok) (L : o.Local)
    (h : exec env o w ix = .ok w') (hn : ix.OnlyAsConfig ck) :
    HolderOk env ck k w' (r + holderRise env ck w w') (s + holderRise env ck w w' * stakedIn w' ck k)
      (p + holderPaid env w w' ck k) (n + if settledIn w w' ck k then 1 else 0) := by
  have quiet : settledIn w w' ck k = false → ∀ {x y}, HolderOk env ck k w' x y p n →
      HolderOk env ck k w' x y (p + holderPaid env w w' ck k) (n + if settledIn w w' ck k then 1 else 0) := by
    intro h0 x y H
    unfold holderPaid; rw [h0]; exact H
  by_cases hb : belongs k ck
  · cases hd : stakeAt w k with
    | none =>
      have h0 : settledIn w w' ck k = false := by unfold settledIn; rw [hd]
      refine quiet h0 (K.idle _ (holderClaim_none hd) ?_)
      cases hd' : stakeAt w' k with
      | none => exact holder_stakedIn_none hd'
      | some d' => rw [stakedIn_eq hb hd']; exact (effect_new (exec_effect I O h) hd hd').1
    | some d =>
      cases hc : configAt w ck with
      | none => rw [stake_has_config I hc hb] at hd; cases hd
      | some c =>
        obtain ⟨_, _, _, _, hs⟩ := exec_reckon I O L h hc hn
        obtain ⟨d', q, hd', T⟩ := (hs k hb).2 d hd
        have hset : settledIn w w' ck k = decide (belongs k ck ∧ (d'.lastStake ≠ d.lastStake ∨ d'.lastHolder ≠ d.lastHolder)) := by
          unfold settledIn; rw [hd, hd']
        cases T with
        | kept b1 b2 b3 b4 b5 =>
          have h0 : settledIn w w' ck k = false := by rw [hset]; simp [b1, b2]
          exact quiet h0 (K.keep I.wf (exec_inv I O h).wf I hb hd hd' b2 b4)
        | settled b1 b2 b3 =>
          have e' := holderClaim_some (env := env) hd' hb
          have hR : holderRise env ck w w' = growth (holderAcc env ck w) (holderAcc env ck w') := rfl
          rw [b2, ← hR] at e'
          rw [stakedIn_eq hb hd']
          have paidIs : scale * holderPaid env w w' ck k ≤ holderClaim env w ck k ∧
              holderClaim env w ck k ≤ scale * holderPaid env w w' ck k + scale * (if settledIn w w' ck k then 1 else 0) := by
            unfold holderPaid
            have hsc : (1000000000000000000 : Nat) = scale := rfl
            by_cases h0 : settledIn w w' ck k = true
            · rw [h0, hsc]
              have := Nat.div_add_mod (holderClaim env w ck k) scale
              have := Nat.mod_lt (holderClaim env w ck k) (show 0 < scale by decide)
              simp only [if_true]
              omega
            · have h1 : d'.lastHolder = d.lastHolder := by
                rw [hset] at h0; simp only [decide_eq_true_eq, not_and, not_or, not_not] at h0; exact (h0 hb).2
              rw [if_neg h0, if_neg h0, holderClaim_some hd hb, ← h1, b2, growth_self]; simp
          have K1 := K.upper
          rw [Nat.mul_comm] at e'
          refine ⟨?_, fun hlt => ?_⟩
          · rw [e', Nat.mul_add, Nat.mul_comm (holderRise env ck w w')]; omega
          · obtain ⟨k1, _⟩ := K.lower (by omega)
            refine ⟨?_, fun d1 _ hd1 => ?_⟩
            · rw [e', Nat.mul_add, Nat.mul_add, Nat.mul_comm (holderRise env ck w w')]; omega
            · rw [hd'] at hd1; cases hd1
              rw [b2, ← hR]; exact .inr (Nat.le_add_left _ _)
  · have h0 : settledIn w w' ck k = false := settledIn_other hb
    exact quiet h0 (K.idle _ (holderClaim_other hb) (holder_stakedIn_other hb))

theorem holderOk {ck k : Key} {r s p n : Nat} (L : HolderLedger env ck k w r s p n) : HolderOk env ck k w r s p n := by
  induction L with
  | @genesis w0 G =>
    have hn : stakeAt w0 k = none := by
      cases hd : stakeAt w0 k with
      | none => rfl
      | some d =>
        obtain ⟨h1, h2⟩ := stakeAt_eq.1 hd
        have z := G.owned _ h1
        cases hD : (w0 k).data <;> rw [hD] at z h2 <;> simp [Data.zeroed, Data.del?] at z h2
    exact ⟨by rw [holderClaim_none hn]; simp, fun _ => ⟨Nat.zero_le _, fun d _ hd => by rw [hn] at hd; cases hd⟩⟩
  | ext L E ih => exact holderOk_ext (reachable_inv L.reachable) ih E
  | exec L O Lo h hn ih => exact holderOk_exec (reachable_inv L.reachable) ih O Lo h hn

/-- **C113.** No stake account is ever paid more in holder rewards than those of its tokens, and what it still claims is within them. -/
theorem C113_no_more {ck k : Key} {rise share paid settled : Nat} (L : HolderLedger env ck k w rise share paid settled) :
    10 ^ 18 * paid + holderClaim env w ck k ≤ share := (holderOk L).upper

/-- **C113.** And it misses less than a lamport each time it is settled, as long as the accumulator has not wrapped. -/
theorem C113_no_less {ck k : Key} {rise share paid settled : Nat} (L : HolderLedger env ck k w rise share paid settled)
    (hr : rise < 2 ^ 128) : share ≤ 10 ^ 18 * (paid + settled) + holderClaim env w ck k := by
  have := ((holderOk L).lower hr).1
  have e : (10 ^ 18 : Nat) = scale := rfl
  rw [e, Nat.mul_add]; omega

/-- **C113.** What an account is paid in all is its stake rewards and its holder rewards. -/
theorem C113_paid (R : Reachable env w) (ck k : Key) : paidFor env w w' ck k = stakePaid w w' ck k + holderPaid env w w' ck k := by
  unfold paidFor stakePaid holderPaid
  by_cases h : settledIn w w' ck k = true
  · rw [if_pos h, if_pos h, if_pos h]
    cases hd : stakeAt w k with
    | none => unfold settledIn at h; rw [hd] at h; cases h
    | some d =>
      by_cases hb : belongs k ck
      · cases hc : configAt w ck with
        | none => rw [stake_has_config (reachable_inv R) hc hb] at hd; cases hd
        | some c => unfold accrued stakeClaim holderClaim; rw [hc, hd]; simp only [if_pos hb]
      · rw [settledIn_other hb] at h; cases h
  · rw [if_neg h, if_neg h, if_neg h]

/-! ### The witness history: 5000 lamports of holder rewards are paid, of which those of the first validator's tokens -/

private def asCfg (ix : Ix) : Bool :=
  (List.range ix.ctx.accts.length).all fun q => decide (ix.acct q = some cfg → q = ix.configPos)

private theorem asCfg_ok {ix : Ix} (h : asCfg ix = true) : ix.OnlyAsConfig cfg := by
  intro p hp
  have hlt : p < ix.ctx.accts.length := by
    by_contra hn
    have : ix.acct p = none := List.getElem?_eq_none (by omega)
    rw [this] at hp; cases hp
  have := (List.all_eq_true.1 h) p (List.mem_range.2 hlt)
  exact of_decide_eq_true this hp

private theorem hstep {w : World} {r s p n : Nat} {ix : Ix} {o : Oracle} (L : HolderLedger Witness.env cfg val1 w r s p n) (O : o.Ok)
    (Lo : o.Local) (h : okB o w ix = true) (hn : asCfg ix = true) (r' s' p' n' : Nat)
    (hp : decide (r + holderRise Witness.env cfg w (after o w ix) = r' ∧
      s + holderRise Witness.env cfg w (after o w ix) * stakedIn (after o w ix) cfg val1 = s' ∧
      p + holderPaid Witness.env w (after o w ix) cfg val1 = p' ∧
      (n + if settledIn w (after o w ix) cfg val1 then 1 else 0) = n') = true) :
    HolderLedger Witness.env cfg val1 (after o w ix) r' s' p' n' := by
  obtain ⟨e1, e2, e3, e4⟩ := of_decide_eq_true hp
  rw [← e1, ← e2, ← e3, ← e4]
  exact .exec L O Lo (ok_after h) (asCfg_ok hn)

private theorem t1 : HolderLedger Witness.env cfg val1 w1 0 0 0 0 := by
  unfold w1
  exact hstep (.genesis genesis) o1_ok (oracle_local _ _ _) ok0 (by decide +kernel) 0 0 0 0 (by decide +kernel)
private theorem t2 : HolderLedger Witness.env cfg val1 w2 0 0 0 0 := by
  unfold w2; exact hstep t1 o1_ok (oracle_local _ _ _) ok1 (by decide +kernel) 0 0 0 0 (by decide +kernel)
private theorem t3 : HolderLedger Witness.env cfg val1 w3 0 0 0 0 := by
  unfold w3; exact hstep t2 o1_ok (oracle_local _ _ _) ok2 (by decide +kernel) 0 0 0 0 (by decide +kernel)
private theorem t4 : HolderLedger Witness.env cfg val1 w4 0 0 0 0 := by
  unfold w4; exact hstep t3 o1_ok (oracle_local _ _ _) ok3 (by decide +kernel) 0 0 0 0 (by decide +kernel)
private theorem t5 : HolderLedger Witness.env cfg val1 w5 0 0 0 0 := by
  unfold w5; exact hstep t4 o1_ok (oracle_local _ _ _) ok4 (by decide +kernel) 0 0 0 0 (by decide +kernel)
private theorem t6 : HolderLedger Witness.env cfg val1 w6 0 0 0 0 := by
  unfold w6; exact hstep t5 o1_ok (oracle_local _ _ _) ok5 (by decide +kernel) 0 0 0 0 (by decide +kernel)
private theorem t7 : HolderLedger Witness.env cfg val1 w7 0 0 0 0 := by
  unfold w7; exact hstep t6 o1_ok (oracle_local _ _ _) ok6 (by decide +kernel) 0 0 0 0 (by decide +kernel)
private theorem t8 : HolderLedger Witness.env cfg val1 w8 0 0 0 0 := by
  have h := HolderLedger.ext t7 (credit_ext (k := cfg) (n := 10000) (reachable_inv r7).wf (of_decide_eq_true lt7))
  have e : holderRise Witness.env cfg w7 (credit w7 cfg 10000) = 0 := by decide +kernel
  rw [e] at h
  unfold w8
  simpa using h
private theorem t9 : HolderLedger Witness.env cfg val1 w9 2000000000000000000 4000000000000000000000 0 0 := by
  unfold w9
  exact hstep t8 o1_ok (oracle_local _ _ _) ok8 (by decide +kernel) 2000000000000000000 4000000000000000000000 0 0 (by decide +kernel)
private theorem t10 : HolderLedger Witness.env cfg val1 w10 2000000000000000000 4000000000000000000000 4000 1 := by
  unfold w10
  exact hstep t9 o1_ok (oracle_local _ _ _) ok9 (by decide +kernel) 2000000000000000000 4000000000000000000000 4000 1 (by decide +kernel)

/-- The record rose by 2 lamports per token; the first validator with its 2000 tokens has been paid exactly 4000 lamports. -/
example : HolderLedger Witness.env cfg val1 w10 2000000000000000000 4000000000000000000000 4000 1 ∧
    (2000000000000000000 : Nat) < 2 ^ 128 ∧ holderClaim Witness.env w10 cfg val1 = 0 ∧
    holderPaid Witness.env w9 w10 cfg val1 = 4000 ∧ stakePaid w9 w10 cfg val1 = 8000 ∧ paidFor Witness.env w9 w10 cfg val1 = 12000 :=
  ⟨t10, by decide +kernel⟩

end Verif.Props
