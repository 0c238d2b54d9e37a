import Verif.Lemmas.Hand
import Verif.WitnessHand
import Verif.Props.Footprint
/-!
# C92: rewards and the calls to other programs
-/

namespace Verif.Props

open Verif Verif.Witness

variable {env : Env} {o : Oracle} {w w' : World} {ix : Ix}

/-- **C92.** An instruction that settles rewards never hands its config or its stake account to another program: with either of
them in the place of an account it hands on, it fails. -/
theorem C92_own_accounts_not_handed (R : Reachable env w) (L : o.Local) (h : exec env o w ix = .ok w') (hr : ix.reaches w) {k : Key}
    (hk : ix.hands k) : ¬ix.passes .config k ∧ ¬ix.passes .stake k :=
  (hand_ok (reachable_inv R) L h hr hk).1

/-- **C92.** If staking, unstaking or slashing succeeds and the stake authority is among the accounts handed to another program,
then no reward was due to it. -/
theorem C92_handed_payee_had_nothing_due (R : Reachable env w) (L : o.Local) (h : exec env o w ix = .ok w') (hr : ix.reaches w)
    {k : Key} (hk : ix.hands k) (hn : ix.decoded ≠ some .harvestSolStakerRewards) (ha : ix.passes .stakeAuthority k) {ck sk : Key}
    (hc : ix.passes .config ck) (hs : ix.passes .stake sk) : accrued env w ck sk = 0 :=
  (hand_ok (reachable_inv R) L h hr hk).2 hn ha ck sk hc hs

-- The validator stakes tokens of their own: their account is handed on, and there is nothing left to pay.
example : ∃ w', exec Witness.env o1 p10 ixOwnVal1 = .ok w' ∧ ixOwnVal1.hands auth1 ∧ ixOwnVal1.reaches p10 ∧
    ixOwnVal1.passes .stakeAuthority auth1 ∧ accrued Witness.env p10 cfg val1 = 0 := by
  have hd : ixOwnVal1.decoded = some (.validatorStakeTokens 100) := by decide +kernel
  have hh : ixOwnVal1.hands auth1 := ⟨_, 6, hd, by decide, by decide +kernel⟩
  have hr : ixOwnVal1.reaches p10 := by unfold Ix.reaches; rw [hd]; trivial
  have hp : ∀ r k n, (StakeInstruction.validatorStakeTokens 100).position r = some n → ixOwnVal1.acct n = some k →
      ixOwnVal1.passes r k := fun r k n a b => ⟨_, n, hd, a, b⟩
  have ha := hp .stakeAuthority auth1 4 (by decide) (by decide +kernel)
  have hR : Reachable Witness.env p10 := .exec rp9 o1_ok (ok_after okp9)
  exact ⟨_, ok_after okp10, hh, hr, ha, C92_handed_payee_had_nothing_due hR (oracle_local _ _ _) (ok_after okp10) hr hh
    (by rw [hd]; decide) ha (hp .config cfg 0 (by decide) (by decide +kernel)) (hp .stake val1 3 (by decide) (by decide +kernel))⟩

/-- **C92.** A staker who owns the tokens cannot stake them while a reward is due: staking fails whenever the owner of the source
token account is the stake authority and the reward is not zero. -/
theorem C92_own_tokens_refused (R : Reachable env w) (L : o.Local) {n : Nat}
    (hi : ix.decoded = some (.validatorStakeTokens n) ∨ ix.decoded = some (.solStakerStakeTokens n)) {ck sk a : Key}
    (hc : ix.acct 0 = some ck) (hs : ix.acct 3 = some sk) (ha : ix.acct 4 = some a) (hown : ix.acct 6 = some a)
    (hdue : 0 < accrued env w ck sk) : ∃ e, exec env o w ix = .error e := by
  cases hx : exec env o w ix with
  | error e => exact ⟨e, rfl⟩
  | ok w' =>
    have : accrued env w ck sk = 0 := by
      rcases hi with hi | hi <;>
      · refine C92_handed_payee_had_nothing_due R L hx (by unfold Ix.reaches; rw [hi]; trivial)
          (k := a) ⟨_, 6, hi, by simp [StakeInstruction.handed], hown⟩ (by rw [hi]; simp) ⟨_, 4, hi, rfl, ha⟩ ⟨_, 0, hi, rfl, hc⟩ ⟨_, 3, hi, rfl, hs⟩
    omega

-- It happens: 12000 lamports are due to a validator who wants to stake 100 tokens of their own.
example : accrued Witness.env p9 cfg val1 = 12000 ∧ ∃ e, exec Witness.env o1 p9 ixOwnVal1 = .error e := by
  have hd : accrued Witness.env p9 cfg val1 = 12000 := by decide +kernel
  exact ⟨hd, C92_own_tokens_refused rp9 (oracle_local _ _ _) (n := 100) (ck := cfg) (sk := val1) (a := auth1) (.inl (by decide +kernel))
    (by decide +kernel) (by decide +kernel) (by decide +kernel) (by decide +kernel) (by rw [hd]; decide)⟩

/-- **C92.** The refusal is due to the runtime's balance check alone. Everything else is in order (compare C59): the rewards can be
settled, the accounts are the right ones, the vault takes the tokens; the error is UnbalancedInstruction. -/
theorem C92_own_tokens_unbalanced_validator (R : Reachable env w) {n : Nat} (hi : ix.decoded = some (.validatorStakeTokens n))
    {ck sk src mk pool pt : Key} {c : Config} {v : ValidatorStake} {td : TokenAccount} {mi : Mint} {rest : List Key}
    (hl : ix.ctx.accts = ck :: pool :: pt :: sk :: v.del.authority :: src :: v.del.authority :: mk :: env.vaultAuth ck :: c.vault ::
      vaultRecord env ck :: tokenId :: rewardsId :: rest)
    (hv : validatorAt w sk = some v) (hn : 0 < n) (hlt : v.del.staked + n < 2 ^ 64)
    (P : Payable env w ck sk c v.del) (F : Fits c v.del (v.del.staked + n) (max v.total v.min))
    (hsrc : (w src).owner = tokenId) (V : Receives w c.vault mk td n) (hm : mintAt w mk = some mi)
    (hsa : v.del.authority ≠ sk) (hdue : 0 < accrued env w ck sk) : exec env o w ix = .error .unbalanced :=
  own_stakeValidator (reachable_inv R) hi hl hv hn hlt P F (by rw [hsrc]; decide) V hm hsa hdue

example : accrued Witness.env p9 cfg val1 = 12000 ∧ (tokOf p9 source).owner = auth1 ∧ 100 ≤ (tokOf p9 source).amount ∧
    ixOwnVal1.ctx.signer auth1 = true ∧ exec Witness.env o1 p9 ixOwnVal1 = .error .unbalanced := by
  have hd : accrued Witness.env p9 cfg val1 = 12000 := by decide +kernel
  exact ⟨hd, by decide +kernel, by decide +kernel, by decide +kernel, C92_own_tokens_unbalanced_validator rp9 (n := 100)
    (by decide +kernel) (ck := cfg) (sk := val1) (mk := mint) (src := source) (pool := pool) (pt := poolToken) (c := cfgOf p9 cfg)
    (v := valOf p9 val1) (td := tokOf p9 vault) (mi := mintOf p9 mint) (rest := [])
    (by decide +kernel) (by decide +kernel) (by decide) (by decide +kernel)
    (payable_mk (belongs_val _ _) (by decide +kernel)) (by unfold Fits; decide +kernel) (by decide +kernel)
    (receives_mk (by decide +kernel)) (by decide +kernel) (by decide +kernel) (by rw [hd]; decide)⟩

/-- **C92.** The same for a SOL staker. -/
theorem C92_own_tokens_unbalanced_sol_staker (R : Reachable env w) {n : Nat} (hi : ix.decoded = some (.solStakerStakeTokens n))
    {ck sk src mk pool pt : Key} {c : Config} {v : SolStakerStake} {td : TokenAccount} {mi : Mint} {rest : List Key}
    (hl : ix.ctx.accts = ck :: pool :: pt :: sk :: v.del.authority :: src :: v.del.authority :: mk :: env.vaultAuth ck :: c.vault ::
      vaultRecord env ck :: tokenId :: rewardsId :: rest)
    (hv : solStakerAt w sk = some v) (hn : 0 < n) (hlt : v.del.staked + n < 2 ^ 64)
    (P : Payable env w ck sk c v.del) (F : Fits c v.del (v.del.staked + n) v.lamports)
    (hsrc : (w src).owner = tokenId) (V : Receives w c.vault mk td n) (hto : td.owner = env.vaultAuth ck)
    (hm : mintAt w mk = some mi) (hsa : v.del.authority ≠ sk) (hdue : 0 < accrued env w ck sk) :
    exec env o w ix = .error .unbalanced :=
  own_stakeSolStaker (reachable_inv R) hi hl hv hn hlt P F (by rw [hsrc]; decide) V hto hm hsa hdue

example : accrued Witness.env q9 cfg sol1 = 3000 ∧ (tokOf q9 source).owner = staker ∧ 100 ≤ (tokOf q9 source).amount ∧
    ixOwnSol1.ctx.signer staker = true ∧ exec Witness.env o1 q9 ixOwnSol1 = .error .unbalanced := by
  have hd : accrued Witness.env q9 cfg sol1 = 3000 := by decide +kernel
  exact ⟨hd, by decide +kernel, by decide +kernel, by decide +kernel, C92_own_tokens_unbalanced_sol_staker rq9 (n := 100)
    (by decide +kernel) (ck := cfg) (sk := sol1) (mk := mint) (src := source) (pool := pool) (pt := poolToken) (c := cfgOf q9 cfg)
    (v := solOf q9 sol1) (td := tokOf q9 vault) (mi := mintOf q9 mint) (rest := [])
    (by decide +kernel) (by decide +kernel) (by decide) (by decide +kernel)
    (payable_mk (belongs_sol _ _) (by decide +kernel)) (by unfold Fits; decide +kernel) (by decide +kernel)
    (receives_mk (by decide +kernel)) (by decide +kernel) (by decide +kernel) (by decide +kernel) (by rw [hd]; decide)⟩

/-- **C92.** A harvest first makes it work: in the same two states the instruction is refused, and accepted once the reward has
been paid out. -/
theorem C92_harvest_first :
    (exec Witness.env o1 p9 ixOwnVal1 = .error .unbalanced ∧ ∃ w1 w2, exec Witness.env o1 p9 ixHarvestVal1 = .ok w1 ∧
      exec Witness.env o1 w1 ixOwnVal1 = .ok w2) ∧
    (exec Witness.env o1 q9 ixOwnSol1 = .error .unbalanced ∧ ∃ w1 w2, exec Witness.env o2 q9 ixHarvestSol1 = .ok w1 ∧
      exec Witness.env o1 w1 ixOwnSol1 = .ok w2) :=
  ⟨⟨err_after (by decide +kernel), _, _, ok_after okp9, ok_after okp10⟩,
    ⟨err_after (by decide +kernel), _, _, ok_after okq9, ok_after okq10⟩⟩

end Verif.Props
