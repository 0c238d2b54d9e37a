import Verif.SpecNative
import Verif.Props.Exact
import Verif.Props.Split
import Verif.Props.Isolation
import Verif.Props.Clock
/-!
# C114: native stake is looked at only when a SOL staker account is created and when it is harvested
-/

namespace Verif.Props

open Verif Witness

variable {env : Env} {o : Oracle} {w w' : World} {ix : Ix}

theorem blind_stakeVal (v : Key → Res StakeView) : validatorStakeTokens env { o with view := v } = validatorStakeTokens env o := rfl
theorem blind_stakeSol (v : Key → Res StakeView) : solStakerStakeTokens env { o with view := v } = solStakerStakeTokens env o := rfl
theorem blind_holder (v : Key → Res StakeView) : harvestHolderRewards env { o with view := v } = harvestHolderRewards env o := rfl
theorem blind_unstake (v : Key → Res StakeView) : unstakeTokens env { o with view := v } = unstakeTokens env o := rfl

theorem blind_initSol {v : Key → Res StakeView} {ctx : Ctx} {a : InitializeSolStakerStakeAccts}
    (h : v a.solStakerNativeStake = o.view a.solStakerNativeStake) :
    initializeSolStakerStake env { o with view := v } ctx w a = initializeSolStakerStake env o ctx w a := by
  unfold initializeSolStakerStake; simp only [h]

theorem blind_harvestSol {v : Key → Res StakeView} {a : HarvestSolStakerRewardsAccts}
    (h : v a.solStakerNativeStake = o.view a.solStakerNativeStake) :
    harvestSolStakerRewards env { o with view := v } w a = harvestSolStakerRewards env o w a := by
  unfold harvestSolStakerRewards; simp only [h]

theorem blind_dispatch {ctx : Ctx} {i : StakeInstruction} {v : Key → Res StakeView}
    (hv : i = .initializeSolStakerStake ∨ i = .harvestSolStakerRewards → ∀ k, ctx.accts[5]? = some k → v k = o.view k) :
    dispatch env { o with view := v } ctx w i = dispatch env o ctx w i := by
  unfold dispatch
  split <;> first
    | with_reducible rfl
    | rw [blind_stakeVal]
    | rw [blind_stakeSol]
    | rw [blind_holder]
    | rw [blind_unstake]
    | (rename_i hl; exact blind_initSol (hv (.inl rfl) _ (by rw [hl]; rfl)))
    | (rename_i hl; exact blind_harvestSol (hv (.inr rfl) _ (by rw [hl]; rfl)))

/-- **C114.** What an instruction does, and whether it is accepted, depends on native stake only if it is InitializeSolStakerStake or
HarvestSolStakerRewards, and then only on that of the native stake account passed to it. -/
theorem C114_native_stake_looked_at {v : Key → Res StakeView}
    (hv : ix.decoded = some .initializeSolStakerStake ∨ ix.decoded = some .harvestSolStakerRewards →
      ∀ k, ix.acct 5 = some k → v k = o.view k) :
    exec env { o with view := v } w ix = exec env o w ix := by
  have h : processInstruction env { o with view := v } w ix = processInstruction env o w ix := by
    unfold processInstruction
    cases hu : StakeInstruction.unpack ix.data with
    | error x =>
      have e : ∀ f : StakeInstruction → Res World, ((Except.error x : Res StakeInstruction) >>= f) = .error x := fun _ => rfl
      rw [e, e]
    | ok i =>
      have hd : ix.decoded = some i := by unfold Ix.decoded; rw [hu]
      have e : ∀ f : StakeInstruction → Res World, ((Except.ok i : Res StakeInstruction) >>= f) = f i := fun _ => rfl
      rw [e, e, blind_dispatch (w := w) (fun hi k hk => hv (hi.imp (fun h => by rw [hd, h]) fun h => by rw [hd, h]) k hk)]
  unfold exec
  rw [h]

/-- **C114.** After a harvest the account is up to date. -/
theorem C114_harvest_brings_up_to_date (R : Reachable env w) (h : exec env o w ix = .ok w')
    (hi : ix.decoded = some .harvestSolStakerRewards) {ck sk : Key} (hck : ix.acct 1 = some ck) (hsk : ix.acct 3 = some sk) :
    ∃ s', solStakerAt w' sk = some s' ∧ UpToDate o s' := by
  obtain ⟨s, s', v, _, h2, h3, h4, h5⟩ := C49_record_follows_native_stake R h hi hck hsk
  refine ⟨s', h2, ?_⟩
  unfold UpToDate liveStake
  rw [h4, h3]
  split_ifs at h5
  · rw [h5.1]; exact Nat.zero_le _
  · rw [h5.1]

/-- **C114.** So is a new account. -/
theorem C114_new_account_up_to_date (R : Reachable env w) (h : exec env o w ix = .ok w')
    (hi : ix.decoded = some .initializeSolStakerStake) {sk : Key} (hsk : ix.acct 2 = some sk) :
    ∃ s', solStakerAt w' sk = some s' ∧ UpToDate o s' := by
  obtain ⟨ck, native, c, view, b, s, _, _, _, _, hv, _, h2, _, hs, _, _, _, _, _, hl, hn⟩ := C26_sol_staker_stake R h hi
  rw [hsk] at h2; cases h2
  refine ⟨s, hs, ?_⟩
  unfold UpToDate liveStake
  rw [hn, hv, hl]

/-- A SOL staker account that was not there before is up to date. -/
theorem new_upToDate (E : Effect env o ix w w') {k : Key} {s' : SolStakerStake} (hd : stakeAt w k = none)
    (hs' : solStakerAt w' k = some s') : UpToDate o s' := by
  have hd' := stakeAt_of_solStaker hs'
  obtain ⟨_, _, _, hnew⟩ := effect_new E hd hd'
  have no : ∀ {i : StakeInstruction}, ix.decoded = some i → i ≠ .initializeValidatorStake → i ≠ .initializeSolStakerStake → False := by
    intro i h h1 h2
    rw [h] at hnew
    simp only [Option.some.injEq] at hnew
    exact hnew.elim h1 h2
  have hst := st_solStaker.2 hs'
  cases E with
  | initializeConfig _ _ h => obtain ⟨_, _, _, _, _, _, h⟩ := h; exact (no h (by simp) (by simp)).elim
  | initializeValidatorStake ck vote wd c hi _ _ _ _ hn h =>
    exfalso
    by_cases hk : k = .validatorPda vote ck
    · subst hk; rw [h, stUpd_same] at hst; cases hst
    · rw [stakeAt_congr (w := w) (k := k) (by rw [h, stUpd_ne hk]), hd] at hd'; cases hd'
  | initializeSolStakerStake ck native c v vs hi _ _ hv hvs hn h =>
    by_cases h2 : k = .validatorPda v.delegatedVote ck
    · subst h2; rw [h, stUpd_same] at hst; cases hst
    · by_cases h1 : k = .solStakerPda native ck
      · subst h1
        rw [h, stUpd_ne h2, stUpd_same] at hst
        cases hst
        unfold UpToDate liveStake; rw [hv]
      · rw [stakeAt_congr (w := w) (k := k) (by rw [h, stUpd_ne h2, stUpd_ne h1]), hd] at hd'; cases hd'
  | setAuthority _ _ _ _ _ h => exact (no h (by simp) (by simp)).elim
  | updateConfig _ _ _ h => exact (no h (by simp) (by simp)).elim
  | validatorSyncAuthority _ _ _ _ h => exact (no h (by simp) (by simp)).elim
  | settle ck h => rcases h with h | h | h | ⟨n, h⟩ <;> exact (no h (by simp) (by simp)).elim
  | stake ck sk n d d' h => rcases h with h | h <;> exact (no h (by simp) (by simp)).elim
  | slash ck sk n d d' h => rcases h with h | h <;> exact (no h (by simp) (by simp)).elim
  | unstake ck sk n c d d' h => exact (no h (by simp) (by simp)).elim
  | move ck sk tk n ds dt ds' dt' h => exact (no h (by simp) (by simp)).elim

/-- **C114.** An account is up to date after an instruction if it was before: only native stake that moves makes it out of date. -/
theorem C114_stays_up_to_date (R : Reachable env w) (O : o.Ok) (h : exec env o w ix = .ok w') {k : Key} {s' : SolStakerStake}
    (hs' : solStakerAt w' k = some s') (hu : ∀ s, solStakerAt w k = some s → UpToDate o s) : UpToDate o s' := by
  have I := reachable_inv R
  have E := exec_effect I O h
  cases hs : solStakerAt w k with
  | some s =>
    obtain ⟨x, e, hx⟩ := (effect_ident I E).2 k s hs
    rw [hs'] at e; cases e
    by_cases hl : s'.lamports = s.lamports
    · have := hu s hs
      unfold UpToDate at this ⊢; rw [hl, hx]; exact this
    · obtain ⟨hi, h3⟩ := C49_record_changes_only_by_harvest R O h hs hs' (.inl hl)
      obtain ⟨ck, hck⟩ : ∃ ck, ix.acct 1 = some ck := by
        unfold Ix.acct at h3 ⊢
        have := (List.getElem?_eq_some_iff.1 h3).1
        exact ⟨ix.ctx.accts[1], List.getElem?_eq_getElem (by omega)⟩
      obtain ⟨y, e, H⟩ := C114_harvest_brings_up_to_date R h hi hck h3
      rw [hs'] at e; cases e; exact H
  | none =>
    refine new_upToDate E ?_ hs'
    cases hd : stakeAt w k with
    | none => rfl
    | some d =>
      exfalso
      obtain ⟨h1, h2⟩ := stakeAt_eq.1 hd
      cases hD : (w k).data with
      | validator v =>
        obtain ⟨v', e, _⟩ := (effect_ident I E).1 k v (validatorAt_eq.2 ⟨h1, hD⟩)
        have := (validatorAt_eq.1 e).2
        rw [(solStakerAt_eq.1 hs').2] at this; cases this
      | solStaker s => rw [solStakerAt_eq.2 ⟨h1, hD⟩] at hs; cases hs
      | _ => rw [hD] at h2; simp [Data.del?] at h2

/-- Native stake of all SOL stakers that are up to date, against all native stake. -/
theorem upToDate_total (I : Inv env w) {ck : Key} {n N : Nat} (hn : TotalIs (lamportsIn w ck) n) (hN : TotalIs (liveStake o) N)
    (hs : ∀ k s, belongs k ck → solStakerAt w k = some s → UpToDate o s) : n ≤ N := by
  obtain ⟨S, hS, rfl⟩ := hn
  obtain ⟨T, hT, rfl⟩ := hN
  let nat : Key → Key := fun k => match k with | .solStakerPda n _ => n | k => k
  have key : ∀ k, lamportsIn w ck k ≠ 0 → ∃ x s, k = .solStakerPda x ck ∧ solStakerAt w k = some s ∧ s.solStake = x := by
    intro k hk
    unfold lamportsIn at hk
    split_ifs at hk with hb
    · cases hd : solStakerAt w k with
      | none => rw [hd] at hk; exact absurd rfl hk
      | some s =>
        have h1 := solStakerAt_eq.1 hd
        have sh := I.shape k h1.1
        cases k <;> simp_all [Shape, belongs]
    · exact absurd rfl hk
  calc ∑ k ∈ S, lamportsIn w ck k = ∑ k ∈ S.filter (fun k => lamportsIn w ck k ≠ 0), lamportsIn w ck k :=
        (Finset.sum_filter_ne_zero _).symm
    _ ≤ ∑ k ∈ S.filter (fun k => lamportsIn w ck k ≠ 0), liveStake o (nat k) := by
        refine Finset.sum_le_sum fun k hk => ?_
        obtain ⟨x, s, rfl, hd, hx⟩ := key k (Finset.mem_filter.1 hk).2
        have hb : belongs (.solStakerPda x ck) ck := by simp [belongs]
        have := hs _ s hb hd
        unfold UpToDate at this
        unfold lamportsIn; rw [if_pos hb, hd]
        rw [hx] at this
        exact this
    _ = ∑ x ∈ (S.filter (fun k => lamportsIn w ck k ≠ 0)).image nat, liveStake o x := by
        refine (Finset.sum_image fun a ha b hb hab => ?_).symm
        obtain ⟨x, _, rfl, _⟩ := key a (Finset.mem_filter.1 ha).2
        obtain ⟨y, _, rfl, _⟩ := key b (Finset.mem_filter.1 hb).2
        have : x = y := hab
        rw [this]
    _ ≤ ∑ x ∈ T, liveStake o x := by
        refine Finset.sum_le_sum_of_ne_zero fun x _ hx => ?_
        by_contra hn
        exact hx (hT x hn)

/-- **C114.** If all SOL staker accounts of a config are up to date, its effective stake is bounded by the native stake there is: at most
1.3 times twice that (once for the stakers, once for their validators), plus 1.3 times the minimums set by the config authority. -/
theorem C114_bounded_when_up_to_date (R : Reachable env w) {ck : Key} {c : Config} (hc : configAt w ck = some c) {N m : Nat}
    (hN : TotalIs (liveStake o) N) (hm : TotalIs (minimumIn w ck) m)
    (hs : ∀ k s, belongs k ck → solStakerAt w k = some s → UpToDate o s) : 10 * c.effTotal ≤ 13 * (2 * N + m) := by
  obtain ⟨n, _, hn, _⟩ := C91_totals_exist R ck
  have h1 := C91_effective_total_bounded R hc hn hm
  have h2 := upToDate_total (reachable_inv R) hn hN hs
  omega

/-! ### Up to date: the first two stakes of the witness history -/

private def AllNow (w : World) : Prop := ∀ k s, belongs k cfg → solStakerAt w k = some s → UpToDate o1 s

private theorem AllNow.step {w : World} {ix : Ix} (A : AllNow w) (R : Reachable Witness.env w) (h : okB o1 w ix = true) :
    AllNow (after o1 w ix) :=
  fun k _ hb hs' => C114_stays_up_to_date R o1_ok (ok_after h) hs' fun s hs => A k s hb hs

private theorem allNow7 : AllNow w7 := by
  have a0 : AllNow w0 := fun k s _ hs => by
    have h := solStakerAt_eq.1 hs
    have z := genesis.owned _ h.1
    rw [h.2] at z; simp [Data.zeroed] at z
  have a1 : AllNow w1 := a0.step r0 ok0
  have a2 : AllNow w2 := a1.step r1 ok1
  have a3 : AllNow w3 := a2.step r2 ok2
  have a4 : AllNow w4 := a3.step r3 ok3
  have a5 : AllNow w5 := a4.step r4 ok4
  have a6 : AllNow w6 := a5.step r5 ok5
  exact a6.step r6 ok6

/-- All accounts of the config are up to date, with 2000 native lamports, and an effective stake of 2500. -/
example : Reachable Witness.env w7 ∧ configAt w7 cfg = some (cfgOf w7 cfg) ∧ (cfgOf w7 cfg).effTotal = 2500 ∧
    TotalIs (liveStake o1) 2000 ∧ (∃ m, TotalIs (minimumIn w7 cfg) m) ∧
    ∀ k s, belongs k cfg → solStakerAt w7 k = some s → UpToDate o1 s := by
  refine ⟨r7, by decide +kernel, by decide +kernel, ⟨{native1, native2}, fun k hk => ?_, by decide +kernel⟩, ?_, allNow7⟩
  · have h1 : ¬ (k = native1 ∨ k = native2) := by simpa using hk
    show (match view1 k with | .ok v => v.effective | .error _ => 0) = 0
    unfold view1; rw [if_neg h1]
  · obtain ⟨_, m, _, hm⟩ := C91_totals_exist r7 cfg
    exact ⟨m, hm⟩

/-! ### Native stake moves from one account to the other, and is counted for both -/

/-- First the native stake of 1000 is in the first account. -/
def viewFirst (k : Key) : Res StakeView :=
  if k = native1 then .ok { delegatedVote := vote1, withdrawer := staker, effective := 1000 }
  else .error .cpi

/-- Then it is in the second. -/
def viewSecond (k : Key) : Res StakeView :=
  if k = native1 then .ok { delegatedVote := .default, withdrawer := staker, effective := 0 }
  else if k = native2 then .ok { delegatedVote := vote1, withdrawer := staker, effective := 1000 }
  else .error .cpi

def oFirst : Oracle := oracle 1000 viewFirst 5000
def oSecond : Oracle := oracle 1000 viewSecond 5000

theorem oFirst_ok : oFirst.Ok := oracle_ok (by
  intro k v h; unfold viewFirst at h; split_ifs at h; obtain rfl := Except.ok.inj h; decide)
theorem oSecond_ok : oSecond.Ok := oracle_ok (by
  intro k v h; unfold viewSecond at h
  split_ifs at h <;> (obtain rfl := Except.ok.inj h; decide))

theorem oFirst_total : TotalIs (liveStake oFirst) 1000 := by
  refine ⟨{native1}, fun k hk => ?_, by decide +kernel⟩
  have h1 : k ≠ native1 := by simpa using hk
  show (match viewFirst k with | .ok v => v.effective | .error _ => 0) = 0
  unfold viewFirst; rw [if_neg h1]

theorem oSecond_total : TotalIs (liveStake oSecond) 1000 := by
  refine ⟨{native2}, fun k hk => ?_, by decide +kernel⟩
  have h1 : k ≠ native2 := by simpa using hk
  show (match viewSecond k with | .ok v => v.effective | .error _ => 0) = 0
  unfold viewSecond
  by_cases h2 : k = native1
  · rw [if_pos h2]
  · rw [if_neg h2, if_neg h1]

def ixTwiceSol1 : Ix :=
  Witness.ix (.solStakerStakeTokens 1300)
    [cfg, pool, poolToken, sol1, staker, source, holderOwner, mint, vaultAuth, vault, holder, tokenId, rewardsId] [holderOwner]
def ixTwiceSol2 : Ix :=
  Witness.ix (.solStakerStakeTokens 1300)
    [cfg, pool, poolToken, sol2, staker, source, holderOwner, mint, vaultAuth, vault, holder, tokenId, rewardsId] [holderOwner]

def twice1 : World := after oFirst w0 ixInitConfig
def twice2 : World := after oFirst twice1 ixInitVal1
def twice3 : World := after oFirst twice2 ixInitSol1
def twice4 : World := after oSecond twice3 ixInitSol2
def twice5 : World := after oSecond twice4 ixTwiceSol1
def twice6 : World := after oSecond twice5 ixTwiceSol2

theorem _root_.Verif.SteadyStake.reachable {n : Nat} (H : SteadyStake env n w) : Reachable env w := by
  induction H with
  | genesis G => exact .genesis G
  | ext _ E ih => exact .ext ih E
  | exec _ O _ h ih => exact .exec ih O h

theorem twice_steady4 : SteadyStake Witness.env 1000 twice4 := by
  have s1 : SteadyStake Witness.env 1000 twice1 := .exec (.genesis genesis) oFirst_ok oFirst_total (ok_after (by decide +kernel))
  have s2 : SteadyStake Witness.env 1000 twice2 := .exec s1 oFirst_ok oFirst_total (ok_after (by decide +kernel))
  have s3 : SteadyStake Witness.env 1000 twice3 := .exec s2 oFirst_ok oFirst_total (ok_after (by decide +kernel))
  exact .exec s3 oSecond_ok oSecond_total (ok_after (by decide +kernel))

theorem twice_ok5 : exec Witness.env oSecond twice4 ixTwiceSol1 = .ok twice5 := ok_after (by decide +kernel)

theorem twice_steady : SteadyStake Witness.env 1000 twice6 := by
  have s5 : SteadyStake Witness.env 1000 twice5 := .exec twice_steady4 oSecond_ok oSecond_total twice_ok5
  exact .exec s5 oSecond_ok oSecond_total (ok_after (by decide +kernel))

/-- **C114.** Otherwise it is not bounded by that: the same native stake can back the stake of two accounts in full. All native stake
together is `n` throughout, yet two accounts of a config have an effective stake of `1.3 * n` each. -/
theorem C114_counted_twice : ∃ env n w ck k1 k2 s1 s2, SteadyStake env n w ∧ 0 < n ∧ k1 ≠ k2 ∧ belongs k1 ck ∧ belongs k2 ck ∧
    solStakerAt w k1 = some s1 ∧ solStakerAt w k2 = some s2 ∧ 10 * s1.del.effective = 13 * n ∧ 10 * s2.del.effective = 13 * n := by
  refine ⟨Witness.env, 1000, twice6, cfg, sol1, sol2, solOf twice6 sol1, solOf twice6 sol2, twice_steady, by decide, by decide, ?_⟩
  decide +kernel

/-- **C114.** Tokens can be staked on native stake that has gone: the account's native stake is zero, yet the tokens become effective. -/
theorem C114_staked_on_nothing : ∃ env o w w' ix k n s s', Reachable env w ∧ o.Ok ∧ exec env o w ix = .ok w' ∧
    ix.decoded = some (.solStakerStakeTokens n) ∧ ix.acct 3 = some k ∧ solStakerAt w k = some s ∧ solStakerAt w' k = some s' ∧
    liveStake o s.solStake = 0 ∧ 0 < n ∧ s'.del.effective = s.del.effective + n := by
  refine ⟨Witness.env, oSecond, twice4, twice5, ixTwiceSol1, sol1, 1300, solOf twice4 sol1, solOf twice5 sol1, twice_steady4.reachable,
    oSecond_ok, twice_ok5, ?_⟩
  decide +kernel

/-- A harvest of the first account, which anybody can ask for, ends that: it has lost its native stake. -/
example : okB oSecond twice6 (Witness.ix .harvestSolStakerRewards
      [viewId, cfg, holder, sol1, staker, native1, val1, auth1, .validatorPda .default cfg, .default, .raw 9, keeper] []) = true ∧
    (solOf (after oSecond twice6 (Witness.ix .harvestSolStakerRewards
      [viewId, cfg, holder, sol1, staker, native1, val1, auth1, .validatorPda .default cfg, .default, .raw 9, keeper] [])) sol1).del.effective
      = 0 := by decide +kernel

end Verif.Props
