import Verif.Spec
/-!
# The contract of the rewards program

The stake program hands every staked token to the Paladin rewards program. Its source is not part of `/repo`; only its
instruction builders are used there, and a binary is kept as a test fixture. The properties that need to know what the
rewards program does (C07, C18, C22, C44) take the following contract as a hypothesis. `Verif.Witness` has a reference
program that satisfies it.

The contract allows a Deposit or Withdraw to pay out pending rewards, as the fixture binary does: it raises
`last_accumulated_rewards_per_token` to the pool's and pays the owner for the tokens deposited so far.
-/

namespace Verif

/-- Growth of a wrapping 128-bit accumulator from `a` to `b`. -/
def growth (a b : Nat) : Nat := (b + U128 - a) % U128

/-- The holder record went from `h` to `h'` and `p` lamports were paid to the owner: the payment is the rounded down
reward of the tokens that were deposited. -/
def Paid (h h' : HolderRewards) (p : Nat) : Prop :=
  growth h.lastAcc h'.lastAcc * h.deposited < 1000000000000000000 * (p + 1)

/-- What the three calls have in common: one holder record changes, the owner may be paid, the pool account may be
debited, no other account loses or gains lamports. -/
structure RewardsCall.Effect (c : RewardsCall) (w w' : World) (h h' : HolderRewards) (p : Nat) : Prop where
  before : holderAt w c.holderRewards = some h
  after : holderAt w' c.holderRewards = some h'
  others : ∀ k, k ≠ c.holderRewards → holderAt w' k = holderAt w k
  owner : (w' c.owner).lamports = (w c.owner).lamports + p
  paid : Paid h h' p

/-- What the stake program relies on in the rewards program. -/
structure RewardsContract (o : Oracle) : Prop where
  /-- Deposit takes `amount` tokens from the given token account and records them. -/
  deposit : ∀ {w c w'}, o.deposit w c = .ok w' → ∃ t h h' p, c.Effect w w' h h' p ∧
    h'.deposited = h.deposited + c.amount ∧ tokenAt w c.token = some t ∧ c.amount ≤ t.amount ∧
    tokenAt w' c.token = some { t with amount := t.amount - c.amount } ∧
    (∀ k, k ≠ c.token → k ≠ c.poolToken → tokenAt w' k = tokenAt w k)
  /-- Withdraw pays `amount` recorded tokens out to the given token account. -/
  withdraw : ∀ {w c w'}, o.withdraw w c = .ok w' → ∃ t h h' p, c.Effect w w' h h' p ∧
    c.amount ≤ h.deposited ∧ h'.deposited = h.deposited - c.amount ∧ tokenAt w c.token = some t ∧
    tokenAt w' c.token = some { t with amount := t.amount + c.amount } ∧
    (∀ k, k ≠ c.token → k ≠ c.poolToken → tokenAt w' k = tokenAt w k)
  /-- HarvestRewards moves no tokens. -/
  harvestRewards : ∀ {w c w'}, o.harvestRewards w c = .ok w' → ∃ h h' p, c.Effect w w' h h' p ∧
    h'.deposited = h.deposited ∧ ∀ k, tokenAt w' k = tokenAt w k

/-- The holder record that belongs to a config's vault authority. -/
def vaultRecord (env : Env) (ck : Key) : Key := .holderRewardsPda (env.vaultAuth ck)

/-- What can happen to the record of a config's vault authority outside the stake program. Deposit and Withdraw need the
vault authority's signature, so nobody else can change the deposited amount. A record that does not exist yet can be
created, empty, and pending rewards can be paid out to the vault authority. -/
def KeepsRecord (env : Env) (ck : Key) (w w' : World) : Prop :=
  holderAt w' (vaultRecord env ck) = holderAt w (vaultRecord env ck) ∨
  (holderAt w (vaultRecord env ck) = none ∧ ∃ h, holderAt w' (vaultRecord env ck) = some h ∧ h.deposited = 0) ∨
  (∃ h h' p, holderAt w (vaultRecord env ck) = some h ∧ holderAt w' (vaultRecord env ck) = some h' ∧
    h'.deposited = h.deposited ∧ Paid h h' p ∧
    (w (env.vaultAuth ck)).lamports + p ≤ (w' (env.vaultAuth ck)).lamports)

/-- Whether a step pays holder rewards out to the vault authority (1) or not (0). -/
def payout (env : Env) (ck : Key) (w w' : World) : Nat :=
  match holderAt w (vaultRecord env ck), holderAt w' (vaultRecord env ck) with
  | some h, some h' => if h'.lastAcc = h.lastAcc then 0 else 1
  | _, _ => 0

/-- A history in which the rewards program keeps its contract, every instruction satisfies `P` (before, instruction,
after), and `n` payouts of holder rewards to the vault authority of config `ck` have happened. -/
inductive History (env : Env) (ck : Key) (P : World → Ix → World → Prop) : World → Nat → Prop
  | genesis {w} : Genesis w → History env ck P w 0
  | ext {w w' n} : History env ck P w n → ExtStep w w' → KeepsRecord env ck w w' →
      History env ck P w' (n + payout env ck w w')
  | exec {w w' o ix n} : History env ck P w n → o.Ok → RewardsContract o → exec env o w ix = .ok w' → P w ix w' →
      History env ck P w' (n + payout env ck w w')

/-- The value of the vault authority's holder rewards accumulator that the stake program pays against; 0 without a
record. -/
def holderAcc (env : Env) (ck : Key) (w : World) : Nat := ((holderAt w (vaultRecord env ck)).map (·.lastAcc)).getD 0

/-- Tokens the rewards program records as deposited for the vault authority of a config. -/
def depositedFor (env : Env) (ck : Key) (w : World) : Nat := ((holderAt w (vaultRecord env ck)).map (·.deposited)).getD 0

/-- The stake rewards accumulator of a config as the next settlement will see it: lamports that arrived since the config
was last settled are divided over the effective total (over nothing when that is 0). -/
def currentAcc (c : Config) (lamports : Nat) : Nat :=
  (c.acc + (lamports - c.lamportsLast) * 1000000000000000000 / c.effTotal) % 2 ^ 128

/-- Stake rewards and holder rewards that the account `k` of config `ck` would be paid if it were settled now. -/
def accrued (env : Env) (w : World) (ck k : Key) : Nat :=
  match configAt w ck, stakeAt w k with
  | some c, some d =>
    if belongs k ck then
      growth d.lastStake (currentAcc c (w ck).lamports) * d.effective / 1000000000000000000 +
        growth d.lastHolder (holderAcc env ck w) * d.staked / 1000000000000000000
    else 0
  | _, _ => 0

/-- The authority recorded for the stake account at an address. -/
def authorityOf (w : World) (k : Key) : Option Key := (stakeAt w k).map (·.authority)

/-- The two things that have to be excluded for the stakers' claims to stay funded: a Deposit that pays out pending
holder rewards, and a sync keeper that is the config account itself. -/
def Careful (env : Env) (ck : Key) (w : World) (ix : Ix) (w' : World) : Prop :=
  ((∃ n, ix.decoded = some (.validatorStakeTokens n) ∨ ix.decoded = some (.solStakerStakeTokens n)) →
    holderAcc env ck w' = holderAcc env ck w) ∧
  (ix.decoded = some .harvestSolStakerRewards → ix.acct 11 ≠ some ck)

theorem History.reachable {env : Env} {ck : Key} {P : World → Ix → World → Prop} {w : World} {n : Nat}
    (H : History env ck P w n) : Reachable env w := by
  induction H with
  | genesis G => exact .genesis G
  | ext _ E _ ih => exact .ext ih E
  | exec _ O _ h _ ih => exact .exec ih O h

end Verif
