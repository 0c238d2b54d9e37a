import Verif.Props.Book
import Verif.Props.State
/-!
# C126: amounts given in parts
-/

namespace Verif.Props

open Verif Verif.Witness

variable {env : Env} {o oa ob : Oracle} {w wa wb w' : World} {ix ixa ixb : Ix} {ck sk tk : Key} {n a b : Nat}

private theorem deposit_op (R : Reachable env w) (O : o.Ok) (h : exec env o w ix = .ok w')
    (hi : ix.decoded = some (.validatorStakeTokens n) ∨ ix.decoded = some (.solStakerStakeTokens n))
    (h0 : ix.acct 0 = some ck) (h3 : ix.acct 3 = some sk) :
    ∃ e, (bookOf w ck).entry sk = some e ∧ bookOf w' ck = (bookOf w ck).put sk { e with tokens := e.tokens + n } := by
  obtain ⟨ck', op, hck, ha, hB, _⟩ := C123_program_is_the_machine R O h
  have e0 : ck' = ck := by
    rcases hi with hi | hi <;> simp only [Ix.config, hi] at hck <;> rw [h0] at hck <;> simpa using hck.symm
  subst e0
  cases op with
  | deposit k m =>
    obtain ⟨a1, a2⟩ := ha
    rw [h3] at a2; cases a2
    have e : m = n := by
      rcases hi with hi | hi <;> rcases a1 with a1 | a1 <;> rw [hi] at a1 <;> cases a1 <;> rfl
    subst e
    simp only [Book.apply, Option.bind_eq_bind, Option.bind_eq_some_iff] at hB
    obtain ⟨e, he, hB⟩ := hB
    split_ifs at hB with hg
    rw [Option.some.injEq] at hB
    exact ⟨e, he, hB.symm⟩
  | _ => exfalso; rcases hi with hi | hi <;> simp [asksFor, hi] at ha

private theorem slash_op (R : Reachable env w) (O : o.Ok) (h : exec env o w ix = .ok w')
    (hi : ix.decoded = some (.slashValidatorStake n) ∨ ix.decoded = some (.slashSolStakerStake n))
    (h0 : ix.acct 0 = some ck) (h1 : ix.acct 1 = some sk) :
    ∃ e, (bookOf w ck).entry sk = some e ∧
      bookOf w' ck = (bookOf w ck).put sk { e with tokens := e.tokens - min n e.tokens } := by
  obtain ⟨ck', op, hck, ha, hB, _⟩ := C123_program_is_the_machine R O h
  have e0 : ck' = ck := by
    rcases hi with hi | hi <;> simp only [Ix.config, hi] at hck <;> rw [h0] at hck <;> simpa using hck.symm
  subst e0
  cases op with
  | slash k m =>
    obtain ⟨a1, a2⟩ := ha
    rw [h1] at a2; cases a2
    have e : m = n := by
      rcases hi with hi | hi <;> rcases a1 with a1 | a1 <;> rw [hi] at a1 <;> cases a1 <;> rfl
    subst e
    simp only [Book.apply, Option.bind_eq_bind, Option.bind_eq_some_iff] at hB
    obtain ⟨t, _, e, he, hB⟩ := hB
    split_ifs at hB with hg
    rw [Option.some.injEq] at hB
    exact ⟨e, he, hB.symm⟩
  | _ => exfalso; rcases hi with hi | hi <;> simp [asksFor, hi] at ha

private theorem move_op (R : Reachable env w) (O : o.Ok) (h : exec env o w ix = .ok w')
    (hi : ix.decoded = some (.solStakerMoveTokens n)) (h0 : ix.acct 0 = some ck) (h3 : ix.acct 3 = some sk)
    (h4 : ix.acct 4 = some tk) :
    ∃ e f, (bookOf w ck).entry sk = some e ∧ (bookOf w ck).entry tk = some f ∧ sk ≠ tk ∧ n ≤ e.tokens ∧
      bookOf w' ck = ((bookOf w ck).put sk { e with tokens := e.tokens - n }).put tk
        { f with tokens := f.tokens + n, lockedUntil := max e.lockedUntil f.lockedUntil } := by
  obtain ⟨ck', op, hck, ha, hB, _⟩ := C123_program_is_the_machine R O h
  have e0 : ck' = ck := by simp only [Ix.config, hi] at hck; rw [h0] at hck; simpa using hck.symm
  subst e0
  cases op with
  | move k l m =>
    obtain ⟨a1, a2, a3⟩ := ha
    rw [hi] at a1; rw [h3] at a2; rw [h4] at a3
    cases a1; cases a2; cases a3
    simp only [Book.apply, Option.bind_eq_bind, Option.bind_eq_some_iff] at hB
    obtain ⟨e, he, f, hf, hB⟩ := hB
    split_ifs at hB with hg
    rw [Option.some.injEq] at hB
    exact ⟨e, f, he, hf, hg.1, hg.2.2.2, hB.symm⟩
  | _ => simp [asksFor, hi] at ha

private theorem put_put {B : Book} {k : Key} {e f : Entry} : (B.put k e).put k f = B.put k f := by
  unfold Book.put
  congr 1
  funext k'
  dsimp only
  split_ifs <;> rfl

private theorem put_entry {B : Book} {k : Key} {e : Entry} : (B.put k e).entry k = some e := by simp [Book.put]

/-- **C126.** Staking `a` tokens and then `b` leaves the config's terms and all its entries (owner, tokens, lock) as staking `a + b`
at once does. -/
theorem C126_stake_in_parts (R : Reachable env w) (Oa : oa.Ok) (Ob : ob.Ok) (O : o.Ok)
    (ha : exec env oa w ixa = .ok wa) (hb : exec env ob wa ixb = .ok wb) (h : exec env o w ix = .ok w')
    (ia : ixa.decoded = some (.validatorStakeTokens a) ∨ ixa.decoded = some (.solStakerStakeTokens a))
    (ib : ixb.decoded = some (.validatorStakeTokens b) ∨ ixb.decoded = some (.solStakerStakeTokens b))
    (i : ix.decoded = some (.validatorStakeTokens (a + b)) ∨ ix.decoded = some (.solStakerStakeTokens (a + b)))
    (h0 : ∀ x ∈ [ixa, ixb, ix], x.acct 0 = some ck ∧ x.acct 3 = some sk) : bookOf wb ck = bookOf w' ck := by
  obtain ⟨e, he, h1⟩ := deposit_op R Oa ha ia (h0 ixa (by simp)).1 (h0 ixa (by simp)).2
  obtain ⟨e2, he2, h2⟩ := deposit_op (.exec R Oa ha) Ob hb ib (h0 ixb (by simp)).1 (h0 ixb (by simp)).2
  obtain ⟨e3, he3, h3⟩ := deposit_op R O h i (h0 ix (by simp)).1 (h0 ix (by simp)).2
  rw [he] at he3; cases he3
  rw [h1, put_entry] at he2; cases he2
  rw [h2, h1, h3, put_put]
  simp only [Nat.add_assoc]

/-- **C126.** Slashing `a` tokens and then `b` comes to the same as slashing `a + b` at once, also when the account holds less. -/
theorem C126_slash_in_parts (R : Reachable env w) (Oa : oa.Ok) (Ob : ob.Ok) (O : o.Ok)
    (ha : exec env oa w ixa = .ok wa) (hb : exec env ob wa ixb = .ok wb) (h : exec env o w ix = .ok w')
    (ia : ixa.decoded = some (.slashValidatorStake a) ∨ ixa.decoded = some (.slashSolStakerStake a))
    (ib : ixb.decoded = some (.slashValidatorStake b) ∨ ixb.decoded = some (.slashSolStakerStake b))
    (i : ix.decoded = some (.slashValidatorStake (a + b)) ∨ ix.decoded = some (.slashSolStakerStake (a + b)))
    (h0 : ∀ x ∈ [ixa, ixb, ix], x.acct 0 = some ck ∧ x.acct 1 = some sk) : bookOf wb ck = bookOf w' ck := by
  obtain ⟨e, he, h1⟩ := slash_op R Oa ha ia (h0 ixa (by simp)).1 (h0 ixa (by simp)).2
  obtain ⟨e2, he2, h2⟩ := slash_op (.exec R Oa ha) Ob hb ib (h0 ixb (by simp)).1 (h0 ixb (by simp)).2
  obtain ⟨e3, he3, h3⟩ := slash_op R O h i (h0 ix (by simp)).1 (h0 ix (by simp)).2
  rw [he] at he3; cases he3
  rw [h1, put_entry] at he2; cases he2
  rw [h2, h1, h3, put_put]
  simp only
  congr 2
  omega

/-- **C126.** Moving `a` tokens and then `b` between the same two accounts comes to the same as moving `a + b` at once. -/
theorem C126_move_in_parts (R : Reachable env w) (Oa : oa.Ok) (Ob : ob.Ok) (O : o.Ok)
    (ha : exec env oa w ixa = .ok wa) (hb : exec env ob wa ixb = .ok wb) (h : exec env o w ix = .ok w')
    (ia : ixa.decoded = some (.solStakerMoveTokens a)) (ib : ixb.decoded = some (.solStakerMoveTokens b))
    (i : ix.decoded = some (.solStakerMoveTokens (a + b)))
    (h0 : ∀ x ∈ [ixa, ixb, ix], x.acct 0 = some ck ∧ x.acct 3 = some sk ∧ x.acct 4 = some tk) :
    bookOf wb ck = bookOf w' ck := by
  obtain ⟨p1, p2, p3⟩ := h0 ixa (by simp)
  obtain ⟨q1, q2, q3⟩ := h0 ixb (by simp)
  obtain ⟨r1, r2, r3⟩ := h0 ix (by simp)
  obtain ⟨e, f, he, hf, hne, hle, h1⟩ := move_op R Oa ha ia p1 p2 p3
  obtain ⟨e2, f2, he2, hf2, _, _, h2⟩ := move_op (.exec R Oa ha) Ob hb ib q1 q2 q3
  obtain ⟨e3, f3, he3, hf3, _, _, h3⟩ := move_op R O h i r1 r2 r3
  rw [he] at he3; cases he3
  rw [hf] at hf3; cases hf3
  have e2' : e2 = { e with tokens := e.tokens - a } := by
    rw [h1] at he2; simpa [Book.put, hne] using he2.symm
  have f2' : f2 = { f with tokens := f.tokens + a, lockedUntil := max e.lockedUntil f.lockedUntil } := by
    rw [h1, put_entry] at hf2; exact (Option.some.inj hf2).symm
  subst e2' f2'
  rw [h2, h1, h3]
  unfold Book.put
  congr 1
  funext k
  dsimp only
  split_ifs
  · congr 2
    · omega
    · omega
  · congr 2
    omega
  · rfl

private theorem record_kept (R : Reachable env w) (O : o.Ok) (h : exec env o w ix = .ok w')
    (hi : ix.decoded ≠ some .harvestSolStakerRewards) {s : SolStakerStake} (hs : solStakerAt w sk = some s) :
    ∃ s', solStakerAt w' sk = some s' ∧ s'.lamports = s.lamports := by
  obtain ⟨s', hs', _⟩ := (effect_ident (reachable_inv R) (exec_effect (reachable_inv R) O h)).2 sk s hs
  refine ⟨s', hs', ?_⟩
  by_contra hne
  exact hi (C49_record_changes_only_by_harvest R O h hs hs' (Or.inl hne)).1

/-- **C126.** Where the books agree the effective stakes of the SOL stakers agree too. So in all three cases nobody gains or loses
effective stake by dividing an amount. -/
theorem C126_same_effective (R : Reachable env w) (Oa : oa.Ok) (Ob : ob.Ok) (O : o.Ok)
    (ha : exec env oa w ixa = .ok wa) (hb : exec env ob wa ixb = .ok wb) (h : exec env o w ix = .ok w')
    (hn : ∀ x ∈ [ixa, ixb, ix], x.decoded ≠ some .harvestSolStakerRewards) (hB : bookOf wb ck = bookOf w' ck)
    (hbel : belongs sk ck) {s : SolStakerStake} (hs : solStakerAt w sk = some s) :
    ∃ s1 s2, solStakerAt wb sk = some s1 ∧ solStakerAt w' sk = some s2 ∧ s1.del.effective = s2.del.effective := by
  have Ra := Reachable.exec R Oa ha
  obtain ⟨s0, hs0, e0⟩ := record_kept R Oa ha (hn ixa (by simp)) hs
  obtain ⟨s1, hs1, e1⟩ := record_kept Ra Ob hb (hn ixb (by simp)) hs0
  obtain ⟨s2, hs2, e2⟩ := record_kept R O h (hn ix (by simp)) hs
  refine ⟨s1, s2, hs1, hs2, ?_⟩
  rw [C03_solStaker_effective_exact (.exec Ra Ob hb) hs1, C03_solStaker_effective_exact (.exec R O h) hs2, e1, e0, e2]
  have := congrFun (congrArg Book.entry hB) sk
  simp only [bookOf, if_pos hbel, stakeAt_of_solStaker hs1, stakeAt_of_solStaker hs2, Option.map_some, Option.some.injEq,
    Entry.mk.injEq] at this
  rw [this.2.1]

/-! The example history with the stake of 500, the move of 100 and the slash of 1000 (of an account that holds 100) in two parts. -/

def ixStakePart (n : Nat) : Ix :=
  Witness.ix (.solStakerStakeTokens n)
    [cfg, pool, poolToken, sol1, staker, source, holderOwner, mint, vaultAuth, vault, holder, tokenId, rewardsId] [holderOwner]
def ixMovePart (n : Nat) : Ix := Witness.ix (.solStakerMoveTokens n) [cfg, holder, staker, sol1, sol2] [staker]
def ixSlashPart (n : Nat) : Ix :=
  Witness.ix (.slashSolStakerStake n) [cfg, sol2, staker, slashAuth, mint, vault, holder, vaultAuth, tokenId] [slashAuth]

example : okB o1 w6 (ixStakePart 500) = true ∧ okB o1 w6 (ixStakePart 200) = true ∧
    okB o1 (after o1 w6 (ixStakePart 200)) (ixStakePart 300) = true ∧
    (bookOf (after o1 (after o1 w6 (ixStakePart 200)) (ixStakePart 300)) cfg).entry sol1 = some ⟨staker, 500, 0⟩ := by
  decide +kernel

example : okB o2 w11 (ixMovePart 100) = true ∧ okB o2 w11 (ixMovePart 40) = true ∧
    okB o2 (after o2 w11 (ixMovePart 40)) (ixMovePart 60) = true ∧
    (bookOf (after o2 (after o2 w11 (ixMovePart 40)) (ixMovePart 60)) cfg).entry sol2 = some ⟨staker, 100, 0⟩ := by
  decide +kernel

example : okB o2 w15 (ixSlashPart 1000) = true ∧ okB o2 w15 (ixSlashPart 60) = true ∧
    okB o2 (after o2 w15 (ixSlashPart 60)) (ixSlashPart 940) = true ∧
    (bookOf (after o2 w15 (ixSlashPart 60)) cfg).entry sol2 = some ⟨staker, 40, 0⟩ ∧
    (bookOf (after o2 (after o2 w15 (ixSlashPart 60)) (ixSlashPart 940)) cfg).entry sol2 = some ⟨staker, 0, 0⟩ := by
  decide +kernel

end Verif.Props
