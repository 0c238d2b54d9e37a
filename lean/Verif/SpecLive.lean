import Verif.Contract
/-!
# Vocabulary of the "this instruction is accepted" statements

Conditions under which an instruction goes through, in terms of the accounts. Nothing here mentions a handler.
-/

namespace Verif

/-- The rewards of the stake account `k` of config `ck` can be settled: the accounts exist, the products of the reward
formula fit in 128 bits, the config can pay without dropping below its rent minimum, and the payee (not the config
itself) can hold the payment. -/
structure Payable (env : Env) (w : World) (ck k : Key) (c : Config) (d : Delegation) : Prop where
  config : configAt w ck = some c
  stake : stakeAt w k = some d
  belongs : belongs k ck
  record : (holderAt w (vaultRecord env ck)).isSome = true
  fitsStake : growth d.lastStake (currentAcc c (w ck).lamports) * d.effective < 2 ^ 128
  fitsHolder : growth d.lastHolder (holderAcc env ck w) * d.staked < 2 ^ 128
  funds : accrued env w ck k + env.rentMin configLen ≤ (w ck).lamports
  payee : d.authority ≠ ck
  room : (w d.authority).lamports + accrued env w ck k < 2 ^ 64

/-- The effective stake of an account can be recomputed for `staked` tokens and `lamports`: the cap and the new effective
total fit in 64 bits. -/
def Fits (c : Config) (d : Delegation) (staked lamports : Nat) : Prop :=
  cap lamports < 2 ^ 64 ∧ c.effTotal - d.effective + min staked (cap lamports) < 2 ^ 64

/-- Tokens staked on an account, 0 if there is none. -/
def stakedOf (w : World) (k : Key) : Nat := ((stakeAt w k).map (·.staked)).getD 0

/-- All accounts of the list are writable in the instruction. -/
def Ix.Writes (ix : Ix) (l : List Key) : Prop := ∀ k ∈ l, ix.ctx.writable k = true

/-- The accounts handed to the rewards program, without mint and programs. -/
def RewardsCall.accounts (c : RewardsCall) : List Key := [c.pool, c.poolToken, c.holderRewards, c.owner, c.token]

/-- The rewards program is ready to take the call `c`: the pool belongs to it, the pool's token account is a token account
other than that of the caller, and the call succeeds in every state that agrees with `w` on the pool, its token account, the
record and the mint (which may have received lamports) and in which the caller's token account satisfies `ok`. Then it
turns the caller's token account into `after`, changes nothing but its accounts and no owner, and conserves lamports. -/
structure Ready (f : World → RewardsCall → Res World) (w : World) (c : RewardsCall) (ok : TokenAccount → Prop)
    (after : TokenAccount → TokenAccount) : Prop where
  pool : (w c.pool).owner = rewardsId
  poolToken : (w c.poolToken).owner = tokenId
  ne : c.poolToken ≠ c.token
  accepts : ∀ w1 t,
    (∀ k ∈ [c.pool, c.poolToken, c.holderRewards, c.mint],
      (w1 k).data = (w k).data ∧ (w1 k).owner = (w k).owner ∧ (w k).lamports ≤ (w1 k).lamports) →
    (w1 c.token).owner = (w c.token).owner → tokenAt w1 c.token = some t → ok t →
    ∃ w2, f w1 c = .ok w2 ∧ tokenAt w2 c.token = some (after t) ∧ (∀ k, (w2 k).owner = (w1 k).owner) ∧
      (∀ k, k ∉ c.accounts → w2 k = w1 k) ∧
      (∀ l, (∀ k ∈ c.accounts, k ∈ l) → lamportSum w2 l = lamportSum w1 l)

/-- The `Deposit` and `Withdraw` calls of `n` tokens for the vault of config `ck`. -/
def vaultCall (env : Env) (ck : Key) (c : Config) (pool poolToken mint : Key) (n : Nat) : RewardsCall :=
  { pool := pool, poolToken := poolToken, holderRewards := vaultRecord env ck, mint := mint, owner := env.vaultAuth ck,
    token := c.vault, amount := n }

/-- The `HarvestRewards` call for the vault of config `ck`. -/
def harvestCall (env : Env) (ck pool poolToken mint : Key) : RewardsCall :=
  { pool := pool, poolToken := poolToken, holderRewards := vaultRecord env ck, mint := mint, owner := env.vaultAuth ck,
    token := poolToken, amount := 0 }

/-- The rewards program is ready to pay `p` lamports to the caller: the call succeeds in every state that agrees with `w` on
its accounts; the caller gains `p` lamports, nothing but the accounts of the call and no owner changes, and lamports are
conserved. -/
structure Pays (f : World → RewardsCall → Res World) (w : World) (c : RewardsCall) (p : Nat) : Prop where
  accepts : ∀ w1, (∀ k, k = c.mint ∨ k ∈ c.accounts → w1 k = w k) →
    ∃ w2, f w1 c = .ok w2 ∧ w2 c.owner = { w1 c.owner with lamports := (w1 c.owner).lamports + p } ∧
      (∀ k, (w2 k).owner = (w1 k).owner) ∧ (∀ k, k ∉ c.accounts → w2 k = w1 k) ∧
      (∀ l, (∀ k ∈ c.accounts, k ∈ l) → lamportSum w2 l = lamportSum w1 l)

/-- The token account `src` with contents `t` lets `auth` move `n` tokens of the given mint, `auth` being its owner. -/
structure Spendable (w : World) (src mint auth : Key) (t : TokenAccount) (n : Nat) : Prop where
  token : tokenAt w src = some t
  owned : (w src).owner = tokenId
  mint_eq : t.mint = mint
  notFrozen : t.frozen = false
  authority : t.owner = auth
  noDelegate : t.delegate ≠ some auth
  enough : n ≤ t.amount

/-- The token account `dst` with contents `t` can take `n` tokens of the given mint. -/
structure Receives (w : World) (dst mint : Key) (t : TokenAccount) (n : Nat) : Prop where
  token : tokenAt w dst = some t
  owned : (w dst).owner = tokenId
  mint_eq : t.mint = mint
  notFrozen : t.frozen = false
  room : t.amount + n < 2 ^ 64

end Verif
