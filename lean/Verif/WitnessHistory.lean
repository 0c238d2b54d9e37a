import Verif.WitnessSettle
/-!
# The witness history under the contract of the rewards program
-/

namespace Verif.Witness

open Verif

/-- A step of the witness history that satisfies `Careful`. -/
theorem hstep {o : Oracle} {w : World} {i : Ix} {n : Nat} (H : History env cfg (Careful env cfg) w n) (O : o.Ok)
    (RC : RewardsContract o) (ok : okB o w i = true)
    (hc : (decide (holderAcc env cfg (after o w i) = holderAcc env cfg w ∨
      i.decoded = some .harvestHolderRewards) && decide (i.acct 11 ≠ some cfg)) = true) {m : Nat}
    (hp : payout env cfg w (after o w i) = m) : History env cfg (Careful env cfg) (after o w i) (n + m) := by
  subst hp
  refine .exec H O RC (ok_after ok) ⟨?_, ?_⟩
  · rintro ⟨m, hm⟩
    simp only [Bool.and_eq_true, decide_eq_true_eq] at hc
    rcases hc.1 with h | h
    · exact h
    · rcases hm with hm | hm <;> rw [h] at hm <;> cases hm
  · intro _
    simp only [Bool.and_eq_true, decide_eq_true_eq] at hc
    exact hc.2

/-- Lamports arriving do not change the records of the rewards program. -/
theorem credit_keeps {w : World} {k : Key} {n : Nat} : KeepsRecord env cfg w (credit w k n) := by
  refine Or.inl ?_
  unfold holderAt credit
  simp only [World.set_apply]
  split_ifs with h
  · subst h; rfl
  · rfl

theorem creditTokens_keeps {w : World} {k : Key} {n : Nat} : KeepsRecord env cfg w (creditTokens w k n) := by
  refine Or.inl ?_
  unfold creditTokens
  split
  · rename_i t ht
    split_ifs
    · unfold holderAt
      simp only [World.set_apply]
      split_ifs with h
      · subst h; simp [ht]
      · rfl
    · rfl
  · rfl

theorem h0 : History env cfg (Careful env cfg) w0 0 := .genesis genesis
theorem h1 : History env cfg (Careful env cfg) w1 0 := by
  unfold w1; exact hstep h0 o1_ok oracle_contract ok0 (by decide +kernel) (m := 0) (by decide +kernel)
theorem h2 : History env cfg (Careful env cfg) w2 0 := by
  unfold w2; exact hstep h1 o1_ok oracle_contract ok1 (by decide +kernel) (m := 0) (by decide +kernel)
theorem h3 : History env cfg (Careful env cfg) w3 0 := by
  unfold w3; exact hstep h2 o1_ok oracle_contract ok2 (by decide +kernel) (m := 0) (by decide +kernel)
theorem h4 : History env cfg (Careful env cfg) w4 0 := by
  unfold w4; exact hstep h3 o1_ok oracle_contract ok3 (by decide +kernel) (m := 0) (by decide +kernel)
theorem h5 : History env cfg (Careful env cfg) w5 0 := by
  unfold w5; exact hstep h4 o1_ok oracle_contract ok4 (by decide +kernel) (m := 0) (by decide +kernel)
theorem h6 : History env cfg (Careful env cfg) w6 0 := by
  unfold w6; exact hstep h5 o1_ok oracle_contract ok5 (by decide +kernel) (m := 0) (by decide +kernel)
theorem h7 : History env cfg (Careful env cfg) w7 0 := by
  unfold w7; exact hstep h6 o1_ok oracle_contract ok6 (by decide +kernel) (m := 0) (by decide +kernel)
theorem h8 : History env cfg (Careful env cfg) w8 0 := by
  have e : payout env cfg w7 w8 = 0 := by decide +kernel
  have := History.ext h7 (credit_ext (n := 10000) (reachable_inv r7).wf (of_decide_eq_true lt7)) credit_keeps
  unfold w8 at e ⊢; rw [e] at this; exact this
theorem h9 : History env cfg (Careful env cfg) w9 1 := by
  unfold w9; exact hstep h8 o1_ok oracle_contract ok8 (by decide +kernel) (m := 1) (by decide +kernel)
theorem h10 : History env cfg (Careful env cfg) w10 1 := by
  unfold w10; exact hstep h9 o1_ok oracle_contract ok9 (by decide +kernel) (m := 0) (by decide +kernel)
theorem h11 : History env cfg (Careful env cfg) w11 1 := by
  unfold w11; exact hstep h10 o2_ok oracle_contract ok10 (by decide +kernel) (m := 0) (by decide +kernel)
theorem h12 : History env cfg (Careful env cfg) w12 1 := by
  unfold w12; exact hstep h11 o2_ok oracle_contract ok11 (by decide +kernel) (m := 0) (by decide +kernel)
theorem h13 : History env cfg (Careful env cfg) w13 1 := by
  unfold w13; exact hstep h12 o2_ok oracle_contract ok12 (by decide +kernel) (m := 0) (by decide +kernel)
theorem h14 : History env cfg (Careful env cfg) w14 1 := by
  have e : payout env cfg w13 w14 = 0 := by decide +kernel
  have := History.ext h13 (creditTokens_ext (k := vault) (n := 5000) (reachable_inv r13).wf) creditTokens_keeps
  unfold w14 at e ⊢; rw [e] at this; exact this
theorem h15 : History env cfg (Careful env cfg) w15 1 := by
  unfold w15; exact hstep h14 o2_ok oracle_contract ok14 (by decide +kernel) (m := 0) (by decide +kernel)
theorem h16 : History env cfg (Careful env cfg) w16 1 := by
  unfold w16; exact hstep h15 o2_ok oracle_contract ok15 (by decide +kernel) (m := 0) (by decide +kernel)
theorem h17 : History env cfg (Careful env cfg) w17 1 := by
  unfold w17; exact hstep h16 o2_ok oracle_contract ok16 (by decide +kernel) (m := 0) (by decide +kernel)
theorem h18 : History env cfg (Careful env cfg) w18 1 := by
  unfold w18; exact hstep h17 o2_ok oracle_contract ok17 (by decide +kernel) (m := 0) (by decide +kernel)
theorem h19 : History env cfg (Careful env cfg) w19 1 := by
  unfold w19; exact hstep h18 o2_ok oracle_contract ok18 (by decide +kernel) (m := 0) (by decide +kernel)
theorem h20 : History env cfg (Careful env cfg) w20 1 := by
  unfold w20; exact hstep h19 o2_ok oracle_contract ok19 (by decide +kernel) (m := 0) (by decide +kernel)
theorem h21 : History env cfg (Careful env cfg) w21 1 := by
  unfold w21; exact hstep h20 o2_ok oracle_contract ok20 (by decide +kernel) (m := 0) (by decide +kernel)

theorem _root_.Verif.History.mono {env : Env} {ck : Key} {P Q : World → Ix → World → Prop} (hPQ : ∀ w i w', P w i w' → Q w i w')
    {w : World} {n : Nat} (H : History env ck P w n) : History env ck Q w n := by
  induction H with
  | genesis G => exact .genesis G
  | ext _ E K ih => exact .ext ih E K
  | exec _ O C h p ih => exact .exec ih O C h (hPQ _ _ _ p)

/-- Staking 990000 tokens while 50000 lamports of holder rewards are pending, with a Deposit that pays them out. -/
theorem hz8 : History env cfg (fun _ _ _ => True) z8 1 := by
  have e : payout env cfg w7 z8 = 1 := by decide +kernel
  have := History.exec (h7.mono (Q := fun _ _ _ => True) fun _ _ _ _ => trivial) o3_ok settleOracle_contract (ok_after okz8)
    trivial
  unfold z8 at e ⊢; rw [e] at this; exact this

end Verif.Witness
