import Verif.Props.History
import Verif.Lemmas.Record
import Verif.Props.Authority
import Verif.Props.Exact
import Verif.WitnessHistory
/-!
# What slashing needs and what it leaves behind

C77, C78.
-/

namespace Verif.Props

open Verif Verif.Witness

variable {env : Env} {o : Oracle} {w w' start : World} {ix : Ix}

/-- Tokens on the token account at an address; 0 if there is none. -/
def tokensAt (w : World) (k : Key) : Nat := ((tokenAt w k).map (·.amount)).getD 0

/-- A history from `start` to the given world. `g` counts the tokens that were sent to the token account `vault` by anything but an
instruction for config `ck`, and `s` the tokens slashed from config `ck`. -/
inductive Funding (env : Env) (ck vault : Key) (start : World) : World → Nat → Nat → Prop
  | start : Funding env ck vault start start 0 0
  | ext {w w' : World} {g s : Nat} : Funding env ck vault start w g s → ExtStep w w' →
      Funding env ck vault start w' (g + (tokensAt w' vault - tokensAt w vault)) s
  | exec {w w' : World} {o : Oracle} {ix : Ix} {g s : Nat} : Funding env ck vault start w g s → o.Ok → RewardsContract o →
      exec env o w ix = .ok w' →
      Funding env ck vault start w' (g + if ix.config = some ck then 0 else tokensAt w' vault - tokensAt w vault)
        (s + slashedBy w ck ix)

theorem Funding.steps {ck vault : Key} {g s : Nat} (F : Funding env ck vault start w g s) : Steps env start w := by
  induction F with
  | start => exact .refl
  | ext _ E ih => exact .tail ih (.ext E)
  | exec _ O _ h ih => exact .tail ih (.exec O h)

/-- No instruction for a config puts tokens on its vault, and what it slashes comes off the vault. -/
theorem vault_step (R : Reachable env w) (O : o.Ok) (C : RewardsContract o) (h : exec env o w ix = .ok w') {ck : Key} {c : Config}
    (hc : configAt w ck = some c) (hck : ix.config = some ck) :
    tokensAt w' c.vault + slashedBy w ck ix ≤ tokensAt w c.vault := by
  have quiet : (∀ n, ix.decoded ≠ some (.slashValidatorStake n) ∧ ix.decoded ≠ some (.slashSolStakerStake n)) →
      slashedBy w ck ix = 0 := by
    intro hn
    unfold slashedBy
    simp only
    split_ifs
    · split
      · exact absurd ‹_› (hn _).1
      · exact absurd ‹_› (hn _).2
      · rfl
    · rfl
  by_cases hs : ∃ n, ix.decoded = some (.slashValidatorStake n) ∨ ix.decoded = some (.slashSolStakerStake n)
  · obtain ⟨n, hs⟩ := hs
    obtain ⟨ck', s, c', d, d', t, t', h0, h1, _, hc', hd, _, _, _, _, _, ht, ht', e, _⟩ := C16_slash R O h hs
    have : ck' = ck := by rcases hs with hs | hs <;> simpa [Ix.config, hs, h0] using hck
    subst this
    rw [hc] at hc'; cases hc'
    have e2 : slashedBy w ck' ix = min n d.staked := by
      rcases hs with hs | hs <;> simp [slashedBy, hs, h0, h1, hd]
    unfold tokensAt
    rw [e2, ht, ht']
    simpa using e.le
  · push Not at hs
    rw [quiet hs, Nat.add_zero]
    by_cases hne : tokenAt w' c.vault = tokenAt w c.vault
    · unfold tokensAt; rw [hne]
    obtain ⟨n, hi⟩ := C42_other_instructions_move_no_tokens R C h hne
    have stake : (ix.decoded = some (.validatorStakeTokens n) ∨ ix.decoded = some (.solStakerStakeTokens n)) →
        tokensAt w' c.vault ≤ tokensAt w c.vault := by
      intro hi
      obtain ⟨ck', c', t, t', h0, hc', ht, ht', e⟩ := C45_stake_leaves_the_vault R C h hi
      have : ck' = ck := by rcases hi with hi | hi <;> simpa [Ix.config, hi, h0] using hck
      subst this
      rw [hc] at hc'; cases hc'
      by_cases h5 : ix.acct 5 = some c.vault
      · cases exec_foreign (reachable_inv R).wf h with
        | none _ _ _ _ h1 h2 => rcases hi with hi | hi; exacts [absurd hi (h1 _), absurd hi (h2 _)]
        | slash h1 => rcases hi with hi | hi <;> rcases h1 with h1 | h1 <;> rw [hi] at h1 <;> cases h1
        | holder h1 => rcases hi with hi | hi <;> rw [hi] at h1 <;> cases h1
        | unstake h1 => rcases hi with hi | hi <;> rw [hi] at h1 <;> cases h1
        | @stake m a rest c0 d hr rs rh w1 w2 w3 D' c1 d1 d2 ts td h1 h2 S hf =>
          have a0 : ix.acct 0 = some a.config := by simp [Ix.acct, h2, StakeTokensAccts.list]
          have a5 : ix.acct 5 = some a.sourceTokenAccount := by simp [Ix.acct, h2, StakeTokensAccts.list]
          rw [h0] at a0; cases a0
          have ec := configAt_eq.2 ⟨S.cO, S.harv.config⟩
          rw [hc] at ec; cases ec
          have a5' : a.sourceTokenAccount = c.vault := by rw [h5, Option.some.injEq] at a5; exact a5.symm
          obtain ⟨tv, hh, hh', p, _, _, htok, _, htok', _⟩ := C.deposit S.deposit
          simp only [StakeTokensAccts.call] at htok htok'
          have hw : w3 = w2 := S.transfer.self (by rw [S.vault, a5'])
          rw [hw, tokenAt_of_fv (congrFun hf _), S.vault, ht] at htok
          cases htok
          rw [S.vault] at htok'
          unfold tokensAt
          rw [htok', ht]
          simp
      · unfold tokensAt; rw [ht, ht']; simpa using (e h5).le
    rcases hi with hi | hi | hi | hi | hi
    · obtain ⟨ck', s, c', d, d', t, t', h0, _, _, hc', _, _, _, _, ht, ht', e⟩ := C42_unstake_leaves_the_vault R O C h hi
      have : ck' = ck := by simpa [Ix.config, hi, h0] using hck
      subst this
      rw [hc] at hc'; cases hc'
      unfold tokensAt; rw [ht, ht']; simpa using e.le
    · exact absurd hi (hs n).1
    · exact absurd hi (hs n).2
    · exact stake (Or.inl hi)
    · exact stake (Or.inr hi)

theorem slashedBy_other {ck : Key} (hck : ix.config ≠ some ck) : slashedBy w ck ix = 0 := by
  unfold slashedBy
  simp only
  split_ifs with h0
  · split
    · rename_i hi; exact absurd (by simpa [Ix.config, hi] using h0) hck
    · rename_i hi; exact absurd (by simpa [Ix.config, hi] using h0) hck
    · rfl
  · rfl

/-- **C77.** Slashing is paid for by tokens that somebody sent to the vault: whatever is slashed from a config over any stretch of
history, together with what the vault holds at the end, is at most what the vault held at the start plus what was sent to it by
others. The tokens that were staked do not count: they are with the rewards program, and no instruction brings them back to the
vault for a slash. -/
theorem C77_slashes_are_prepaid (R : Reachable env start) {ck : Key} {c : Config} (hc : configAt start ck = some c) {g s : Nat}
    (F : Funding env ck c.vault start w g s) : s + tokensAt w c.vault ≤ tokensAt start c.vault + g := by
  induction F with
  | start => omega
  | ext _ _ ih => omega
  | exec F0 O C h ih =>
    obtain ⟨c1, hc1, hv, _⟩ := C11_fixed_at_creation R F0.steps hc
    split_ifs with hck
    · have := vault_step (steps_reachable R F0.steps) O C h hc1 hck
      rw [hv] at this
      omega
    · rw [slashedBy_other hck]; omega

/-- **C77.** So, from the creation of a config on, nothing can be slashed until somebody has sent tokens to the vault: a slash of an
account that has tokens fails. -/
theorem C77_no_slash_before_funding (R : Reachable env w) (O : o.Ok) (h : exec env o w ix = .ok start)
    {slash auth hash : List UInt8} {t b y : Nat} (hi : ix.decoded = some (.initializeConfig slash auth t b y hash)) {ck vault : Key}
    (hck : ix.acct 0 = some ck) (hvault : ix.acct 3 = some vault) {s : Nat} (F : Funding env ck vault start w' 0 s) :
    s = 0 ∧ ∀ {o' : Oracle} {ix' : Ix} {n : Nat} {k : Key} {d : Delegation}, o'.Ok → 0 < n → 0 < d.staked →
      (ix'.decoded = some (.slashValidatorStake n) ∨ ix'.decoded = some (.slashSolStakerStake n)) → ix'.acct 0 = some ck →
      ix'.acct 1 = some k → stakeAt w' k = some d → ∀ w2, exec env o' w' ix' ≠ .ok w2 := by
  obtain ⟨a, rest, hl, _⟩ := ran_initializeConfig h hi
  have hm : ix.acct 1 = some a.mint := by simp [Ix.acct, hl, InitializeConfigAccts.list]
  obtain ⟨_, _, hc, ⟨v, hv, _, _, _, _, hz⟩, _⟩ := C46_new_config h hi hck hm hvault
  have R1 : Reachable env start := .exec R O h
  have le := C77_slashes_are_prepaid R1 hc F
  have z : tokensAt start vault = 0 := by simp [tokensAt, hv, hz]
  simp only [z] at le
  refine ⟨by omega, ?_⟩
  intro o' ix' n k d O' hn hd hi' h0 h1 hk w2 h2
  obtain ⟨c1, hc1, hv1, _⟩ := C11_fixed_at_creation R1 F.steps hc
  obtain ⟨ck', s', c', d1, d', t, t', g0, g1, _, gc, gd, _, _, _, _, _, gt, _, e, _⟩ :=
    C16_slash (steps_reachable R1 F.steps) O' h2 hi'
  rw [h0] at g0; cases g0
  rw [h1] at g1; cases g1
  rw [hk] at gd; cases gd
  rw [hc1] at gc; cases gc
  have : tokensAt w' vault = 0 := by omega
  simp only at hv1
  rw [hv1] at gt
  unfold tokensAt at this
  rw [gt] at this
  simp at this
  omega

/-- In the witness history 5000 tokens are sent to the empty vault, then 300 and 100 are slashed: 4600 are left. -/
example : ∃ g s, Funding Witness.env cfg vault w13 w16 g s ∧ g = 5000 ∧ s = 400 ∧ tokensAt w13 vault = 0 ∧ tokensAt w16 vault = 4600 ∧
    (configAt w13 cfg).map (·.vault) = some vault :=
  ⟨_, _, .exec (.exec (.ext .start (creditTokens_ext (reachable_inv r13).wf)) o2_ok oracle_contract (ok_after ok14)) o2_ok
    oracle_contract (ok_after ok15), by decide +kernel⟩

theorem funding_step {g s : Nat} {ck vault : Key} (F : Funding env ck vault start w g s) (O : o.Ok) (C : RewardsContract o)
    (h : exec env o w ix = .ok w') (hck : ix.config = some ck) : Funding env ck vault start w' g (s + slashedBy w ck ix) := by
  simpa [hck] using Funding.exec F O C h

/-- The second theorem at work: the config is created at the first step, 2000 tokens are staked on the first validator at the sixth,
and nobody has sent tokens to the vault, so the validator cannot be slashed. -/
example : (∃ s, Funding Witness.env cfg vault w1 w6 0 s) ∧ ixInitConfig.acct 0 = some cfg ∧ ixInitConfig.acct 3 = some vault ∧
    (stakeAt w6 val1).map (·.staked) = some 2000 ∧ okB o1 w6 ixSlashVal1 = false :=
  ⟨⟨_, funding_step (funding_step (funding_step (funding_step (funding_step .start o1_ok oracle_contract (ok_after ok1)
    (by decide +kernel)) o1_ok oracle_contract (ok_after ok2) (by decide +kernel)) o1_ok oracle_contract (ok_after ok3)
    (by decide +kernel)) o1_ok oracle_contract (ok_after ok4) (by decide +kernel)) o1_ok oracle_contract (ok_after ok5)
    (by decide +kernel)⟩, by decide +kernel⟩

/-! ## C78 -/

/-- A history of a config from `start` to the given world in which the rewards program keeps its contract and `s` tokens were slashed. -/
inductive Books (env : Env) (ck : Key) (start : World) : World → Nat → Prop
  | start : Books env ck start start 0
  | ext {w w' : World} {s : Nat} : Books env ck start w s → ExtStep w w' → KeepsRecord env ck w w' → Books env ck start w' s
  | exec {w w' : World} {o : Oracle} {ix : Ix} {s : Nat} : Books env ck start w s → o.Ok → RewardsContract o →
      exec env o w ix = .ok w' → Books env ck start w' (s + slashedBy w ck ix)

theorem Books.steps {ck : Key} {s : Nat} (B : Books env ck start w s) : Steps env start w := by
  induction B with
  | start => exact .refl
  | ext _ E _ ih => exact .tail ih (.ext E)
  | exec _ O _ h ih => exact .tail ih (.exec O h)

/-- **C78.** Over any stretch of history, the deposit that the rewards program records for a config changes by exactly as much as the
staked tokens do, plus the slashed tokens: a slash does not take the tokens it destroys off the deposit. -/
theorem C78_deposit_keeps_slashed (R : Reachable env start) {ck : Key} {s t0 : Nat} (B : Books env ck start w s)
    (T : TotalIs (stakedIn start ck) t0) :
    ∃ t, TotalIs (stakedIn w ck) t ∧ depositedFor env ck w + t0 = depositedFor env ck start + t + s := by
  induction B with
  | start => exact ⟨t0, T, by omega⟩
  | ext B0 E K ih =>
    obtain ⟨t, hT, e⟩ := ih
    refine ⟨t, hT.congr (ext_stakedIn (reachable_inv (steps_reachable R B0.steps)) E ck), ?_⟩
    rw [← e]
    unfold depositedFor
    rcases K with e | ⟨e, h, e', hd⟩ | ⟨h, h', p, e, e', hd, _⟩
    · rw [e]
    · rw [e, e']; simp [hd]
    · rw [e, e']; simp [hd]
  | exec B0 O C h ih =>
    obtain ⟨t, hT, e⟩ := ih
    have I := reachable_inv (steps_reachable R B0.steps)
    obtain ⟨t', hT', e'⟩ := staked_total_step (exec_effect I O h) hT
    have := (exec_record I C h ck).deposited
    exact ⟨t', hT', by omega⟩

/-- **C78.** The deposit of slashed tokens can never be withdrawn: however the history goes on, at least the slashed amount (and what
was deposited beyond the staked tokens at the start) stays with the rewards program. -/
theorem C78_slashed_deposit_is_stuck (R : Reachable env start) {ck : Key} {s t0 : Nat} (B : Books env ck start w s)
    (T : TotalIs (stakedIn start ck) t0) : depositedFor env ck start + s ≤ depositedFor env ck w + t0 := by
  obtain ⟨t, _, e⟩ := C78_deposit_keeps_slashed R B T
  omega

/-- In the witness history the slash of 300 leaves the deposit of 2350 as it is, with 2050 tokens still staked. -/
example : ∃ s, Books Witness.env cfg w14 w15 s ∧ s = 300 ∧ depositedFor Witness.env cfg w14 = 2350 ∧
    depositedFor Witness.env cfg w15 = 2350 :=
  ⟨_, .exec .start o2_ok oracle_contract (ok_after ok14), by decide +kernel⟩

end Verif.Props
