import Verif.Props.Book
/-!
# C125: instructions about no tokens at all
-/

namespace Verif.Props

open Verif Verif.Witness

variable {env : Env} {o : Oracle} {w w' : World} {ix : Ix} {ck sk tk : Key}

/-- **C125.** Staking nothing and slashing nothing is refused, in every state. -/
theorem C125_refused (w : World)
    (hi : ix.decoded ∈ [some (.validatorStakeTokens 0), some (.solStakerStakeTokens 0), some (.slashValidatorStake 0),
      some (.slashSolStakerStake 0)]) : ∀ w', exec env o w ix ≠ .ok w' := by
  intro w' h
  simp only [List.mem_cons, List.not_mem_nil, or_false] at hi
  rcases hi with hi | hi | hi | hi
  · obtain ⟨a, rest, _, hr⟩ := ran_validatorStakeTokens h hi
    obtain ⟨_, _, _, _, _, _, _, _, _, _, _, _, _, S⟩ := validatorStakeTokens_ok hr
    exact absurd S.pos (by simp)
  · obtain ⟨a, rest, _, hr⟩ := ran_solStakerStakeTokens h hi
    obtain ⟨_, _, _, _, _, _, _, _, _, _, _, _, _, S⟩ := solStakerStakeTokens_ok hr
    exact absurd S.pos (by simp)
  · obtain ⟨a, rest, _, hr⟩ := ran_slashValidatorStake h hi
    obtain ⟨_, _, _, _, _, _, _, _, _, _, S⟩ := slashValidatorStake_ok hr
    exact absurd S.pos (by simp)
  · obtain ⟨a, rest, _, hr⟩ := ran_slashSolStakerStake h hi
    obtain ⟨_, _, _, _, _, _, _, _, _, _, S⟩ := slashSolStakerStake_ok hr
    exact absurd S.pos (by simp)

/-- **C125.** Unstaking nothing is a withdrawal like any other: it needs the authority's signature and an account that is not
locked, leaves the tokens where they are and locks the account for the cooldown time. So nobody but the authority can lock an
account in this way. -/
theorem C125_unstake_nothing (R : Reachable env w) (O : o.Ok) (h : exec env o w ix = .ok w')
    (hi : ix.decoded = some (.unstakeTokens 0)) (h0 : ix.acct 0 = some ck) (h3 : ix.acct 3 = some sk) :
    ∃ t e, (bookOf w ck).terms = some t ∧ (bookOf w ck).entry sk = some e ∧ ix.ctx.signer e.owner = true ∧
      e.lockedUntil ≤ o.now ∧
      (bookOf w' ck).entry sk = some { e with lockedUntil := min (o.now + t.cooldownTime) (2 ^ 64 - 1) } := by
  obtain ⟨ck', op, hck, ha, hB, _⟩ := C123_program_is_the_machine R O h
  have e0 : ck' = ck := by simp only [Ix.config, hi] at hck; rw [h0] at hck; simpa using hck.symm
  subst e0
  cases op with
  | withdraw k n =>
    obtain ⟨a1, a2⟩ := ha
    rw [hi] at a1; rw [h3] at a2
    cases a1; cases a2
    simp only [Book.apply, Option.bind_eq_bind, Option.bind_eq_some_iff] at hB
    obtain ⟨t, ht, e, he, hB⟩ := hB
    split_ifs at hB with hg
    rw [Option.some.injEq] at hB
    refine ⟨t, e, ht, he, hg.1, hg.2.1, ?_⟩
    rw [← hB]
    simp [Book.put]
  | _ => simp [asksFor, hi] at ha

/-- **C125.** Moving nothing needs the signature of the authority of both accounts, leaves all tokens where they are, and locks the
destination for as long as the source is locked. -/
theorem C125_move_nothing (R : Reachable env w) (O : o.Ok) (h : exec env o w ix = .ok w')
    (hi : ix.decoded = some (.solStakerMoveTokens 0)) (h0 : ix.acct 0 = some ck) (h3 : ix.acct 3 = some sk)
    (h4 : ix.acct 4 = some tk) :
    ∃ e f, (bookOf w ck).entry sk = some e ∧ (bookOf w ck).entry tk = some f ∧ sk ≠ tk ∧ ix.ctx.signer e.owner = true ∧
      f.owner = e.owner ∧ (bookOf w' ck).entry sk = some e ∧
      (bookOf w' ck).entry tk = some { f with lockedUntil := max e.lockedUntil f.lockedUntil } := by
  obtain ⟨ck', op, hck, ha, hB, _⟩ := C123_program_is_the_machine R O h
  have e0 : ck' = ck := by simp only [Ix.config, hi] at hck; rw [h0] at hck; simpa using hck.symm
  subst e0
  cases op with
  | move k l n =>
    obtain ⟨a1, a2, a3⟩ := ha
    rw [hi] at a1; rw [h3] at a2; rw [h4] at a3
    cases a1; cases a2; cases a3
    simp only [Book.apply, Option.bind_eq_bind, Option.bind_eq_some_iff] at hB
    obtain ⟨e, he, f, hf, hB⟩ := hB
    split_ifs at hB with hg
    rw [Option.some.injEq] at hB
    refine ⟨e, f, he, hf, hg.1, hg.2.2.1, hg.2.1, ?_⟩
    rw [← hB]
    simp [Book.put, hg.1]
  | _ => simp [asksFor, hi] at ha

/-! An unstake of nothing that is accepted, and locks the account. -/

def ixUnstake0 : Ix :=
  Witness.ix (.unstakeTokens 0)
    [cfg, pool, poolToken, sol1, staker, vault, vaultAuth, holder, mint, dest, tokenId, rewardsId] [staker]
def w13zero : World := after o2 w12 ixUnstake0

theorem ok12zero : exec Witness.env o2 w12 ixUnstake0 = .ok w13zero := ok_after (by decide +kernel)

example : Reachable Witness.env w12 ∧ (bookOf w12 cfg).entry sol1 = some ⟨staker, 400, 0⟩ ∧
    (bookOf w13zero cfg).entry sol1 = some ⟨staker, 400, 2100⟩ := ⟨r12, by decide +kernel⟩

/-! And a move of nothing, which carries the lock over. -/

def ixMove0 : Ix := Witness.ix (.solStakerMoveTokens 0) [cfg, holder, staker, sol1, sol2] [staker]
def w14zero : World := after o2 w13zero ixMove0

theorem ok13zero : exec Witness.env o2 w13zero ixMove0 = .ok w14zero := ok_after (by decide +kernel)

example : Reachable Witness.env w13zero ∧ (bookOf w13zero cfg).entry sol2 = some ⟨staker, 100, 0⟩ ∧
    (bookOf w14zero cfg).entry sol2 = some ⟨staker, 100, 2100⟩ :=
  ⟨.exec r12 o2_ok ok12zero, by decide +kernel⟩

/-- The refused instructions decode. -/
example : (Witness.ix (.slashValidatorStake 0) [] []).decoded = some (.slashValidatorStake 0) := by decide +kernel

end Verif.Props
