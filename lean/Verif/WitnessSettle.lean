import Verif.WitnessContract
/-!
# A rewards program whose Deposit pays out pending rewards

The binary kept in the repository's test fixtures first settles the depositor (it raises
`last_accumulated_rewards_per_token` to the pool's value and pays for the tokens deposited so far) and then records the
deposit. This reference program does the same. It meets the contract.
-/

namespace Verif.Witness

open Verif

/-- Deposit that first pays `pay` lamports of pending rewards. -/
def settleDeposit (pay : Nat) (w : World) (c : RewardsCall) : Res World := do
  let w ← harvestRewards pay w c
  deposit w c

/-- The outside world with that rewards program. -/
def settleOracle (time : Int) (view : Key → Res StakeView) (pay : Nat) : Oracle :=
  { oracle time view pay with deposit := settleDeposit pay }

theorem harvestRewards_owner {pay : Nat} {w w' : World} {c : RewardsCall} (h : harvestRewards pay w c = .ok w') (k : Key) :
    (w' k).owner = (w k).owner := by
  unfold harvestRewards at h
  split at h
  · split_ifs at h
    rw [← Except.ok.inj h]; simp only [World.set_apply]; split_ifs <;> simp_all
  · simp at h

theorem deposit_owner {w w' : World} {c : RewardsCall} (h : deposit w c = .ok w') (k : Key) :
    (w' k).owner = (w k).owner := by
  unfold deposit at h
  split at h
  · split_ifs at h
    rw [← Except.ok.inj h]; simp only [World.set_apply]; split_ifs <;> simp_all
  · simp at h

theorem ext_comp {w w1 w2 : World} (E1 : ExtStep w w1) (E2 : ExtStep w1 w2) (o1 : ∀ k, (w1 k).owner = (w k).owner)
    (o2 : ∀ k, (w2 k).owner = (w1 k).owner) : ExtStep w w2 := by
  have hps : progId ≠ systemId := by decide
  refine extStep_of E2.1 (fun k => by rw [o2, o1]) fun k hk => ?_
  have one : ∀ {wa wb : World}, ExtStep wa wb → (∀ k, (wb k).owner = (wa k).owner) →
      ((wa k).owner = progId ∨ k.ofProgram = true) → (wb k).data = (wa k).data ∧ (wa k).lamports ≤ (wb k).lamports := by
    intro wa wb E ho hk
    by_cases hp : (wa k).owner = progId
    · rcases (E.2 k).1 hp with ⟨_, h⟩ | ⟨_, h, _⟩
      · exact h
      · rw [ho, hp] at h; exact absurd h hps
    · exact (((E.2 k).2 hp).1 (hk.resolve_left hp)).2
  obtain ⟨d1, l1⟩ := one E1 o1 hk
  obtain ⟨d2, l2⟩ := one E2 o2 (by rw [o1]; exact hk)
  exact ⟨d2.trans d1, l1.trans l2⟩

theorem settleOracle_ok {time : Int} {view : Key → Res StakeView} {pay : Nat}
    (hv : ∀ {k v}, view k = .ok v → v.effective < U64) : (settleOracle time view pay).Ok where
  harvestRewards wf h := harvestRewards_ext wf h
  deposit wf h := by
    obtain ⟨w1, h1, h2⟩ := bind_ok.1 h
    have E1 := harvestRewards_ext wf h1
    exact ext_comp E1 (deposit_ext E1.1 h2) (harvestRewards_owner h1) (deposit_owner h2)
  withdraw wf h := withdraw_ext wf h
  view h := hv h

theorem settleOracle_contract {time : Int} {view : Key → Res StakeView} {pay : Nat} :
    RewardsContract (settleOracle time view pay) where
  deposit {w c w'} h := by
    obtain ⟨w1, h1, h2⟩ := bind_ok.1 h
    obtain ⟨a, b, p, E, hdep, htok⟩ := harvest_effect h1
    obtain ⟨t, b', E', ht, hle, ht', hoth⟩ := deposit_effect' h2
    have hb : b' = b := by have := E'.before; rw [E.after] at this; simpa using this.symm
    subst hb
    refine ⟨t, a, _, p, ⟨E.before, E'.after, fun k hk => by rw [E'.others k hk, E.others k hk], ?_, ?_⟩, ?_, ?_, hle, ht',
      fun k h1 h2 => by rw [hoth k h1 h2, htok]⟩
    · rw [E'.owner, E.owner]; rfl
    · exact E.paid
    · simp only [hdep]
    · rw [← htok]; exact ht
  withdraw h := withdraw_effect h
  harvestRewards h := harvest_effect h

/-- The outside world when 50000 lamports of holder rewards are pending. -/
def o3 : Oracle := settleOracle 1000 view1 50000

theorem o3_ok : o3.Ok := settleOracle_ok (by
  intro k v h; unfold view1 at h; split_ifs at h; obtain rfl := Except.ok.inj h; decide)

/-- Stake 990000 more tokens. -/
def ixStakeMore : Ix :=
  ix (.validatorStakeTokens 990000)
    [cfg, pool, poolToken, val1, auth1, source, holderOwner, mint, vaultAuth, vault, holder, tokenId, rewardsId]
    [holderOwner]

def z8 : World := after o3 w7 ixStakeMore
theorem okz8 : okB o3 w7 ixStakeMore = true := by decide +kernel
theorem rz8 : Reachable env z8 := by unfold z8; exact .exec r7 o3_ok (ok_after okz8)

end Verif.Witness
