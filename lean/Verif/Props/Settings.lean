import Verif.SpecSettings
import Verif.Props.Timing
import Verif.Props.Exact
import Verif.Props.Exactly
/-!
# C122: what a change of the settings does to stakes that exist already
-/

namespace Verif.Props

open Verif Verif.Witness

variable {env : Env} {o : Oracle} {w wa w' : World} {ix : Ix} {ck sk : Key}

/-- A change of a setting leaves the stake accounts of the config alone. -/
private theorem update_stake {b : ConfigField} (h : exec env o w ix = .ok w') (hi : ix.decoded = some (.updateConfig b))
    (h0 : ix.acct 0 = some ck) (hb : belongs sk ck) : stakeAt w' sk = stakeAt w sk := by
  obtain ⟨_, _, _, h3, _⟩ := C47_update_config h hi h0
  have hne : sk ≠ ck := by
    have key : ∀ a : Key, ∀ b, (Key.validatorPda b a ≠ a ∧ Key.solStakerPda b a ≠ a) := by
      intro a b
      constructor <;> (intro e; have := congrArg sizeOf e; simp at this)
    rcases hb with ⟨v, rfl⟩ | ⟨v, rfl⟩
    · exact (key ck v).1
    · exact (key ck v).2
  exact stakeAt_congr (by unfold st; rw [h3 sk hne])

/-- **C122.** A new limit holds at once, also for tokens staked before: what may be withdrawn from a stake account follows from
the new limit, and the time of the next withdrawal stays as it was. -/
theorem C122_limit_at_once (h : exec env o w ix = .ok w') {b : Nat}
    (hi : ix.decoded = some (.updateConfig (.maxDeactivationBasisPoints b))) (h0 : ix.acct 0 = some ck) (hb : belongs sk ck)
    {d : Delegation} (hd : stakeAt w sk = some d) (t n : Nat) :
    MayWithdraw w' ck sk t n ↔ d.cooldown ≤ t ∧ n ≤ d.staked ∧ n * 10000 ≤ d.staked * b := by
  obtain ⟨c, hc, hc', _⟩ := C47_update_config h hi h0
  have hd' := (update_stake h hi h0 hb).trans hd
  constructor
  · rintro ⟨c1, d1, e1, e2, _, e3, e4, e5⟩
    rw [hc'] at e1; rw [hd'] at e2
    cases e1; cases e2
    exact ⟨e3, e4, e5⟩
  · rintro ⟨e3, e4, e5⟩
    exact ⟨_, d, hc', hd', hb, e3, e4, e5⟩

/-- **C122.** A new cooldown time changes nothing for the next withdrawal of any stake account; it counts from that one on
(C13). -/
theorem C122_cooldown_time_later (h : exec env o w ix = .ok w') {s : Nat}
    (hi : ix.decoded = some (.updateConfig (.cooldownTimeSeconds s))) (h0 : ix.acct 0 = some ck) (t n : Nat) :
    MayWithdraw w' ck sk t n ↔ MayWithdraw w ck sk t n := by
  obtain ⟨c, hc, hc', _⟩ := C47_update_config h hi h0
  constructor
  · rintro ⟨c1, d1, e1, e2, hb, e3, e4, e5⟩
    rw [hc'] at e1
    cases e1
    exact ⟨c, d1, hc, (update_stake h hi h0 hb).symm.trans e2, hb, e3, e4, e5⟩
  · rintro ⟨c1, d1, e1, e2, hb, e3, e4, e5⟩
    rw [hc] at e1
    cases e1
    exact ⟨_, d1, hc', (update_stake h hi h0 hb).trans e2, hb, e3, e4, e5⟩

theorem _root_.Verif.Unsigned.reachable {k : Key} (R : Reachable env w) (S : Unsigned env k w w') : Reachable env w' := by
  induction S with
  | start => exact R
  | ext _ E ih => exact .ext ih E
  | exec _ O _ h ih => exact .exec ih O h

/-- While the config authority signs nothing its settings stay as they are. -/
theorem unsigned_settings (R : Reachable env w) {c : Config} (hc : configAt w ck = some c) (S : Unsigned env c.authority w w') :
    ∃ c', configAt w' ck = some c' ∧ settings c' = settings c := by
  induction S with
  | start => exact ⟨c, hc, rfl⟩
  | ext S E ih =>
    obtain ⟨c', hc', e⟩ := ih
    exact ⟨c', by rw [configAt_congr (ext_st (reachable_inv (Unsigned.reachable R S)) E ck)]; exact hc', e⟩
  | exec S O hs h ih =>
    obtain ⟨c', hc', e1⟩ := ih
    have R1 := Unsigned.reachable R S
    obtain ⟨c2, hc2, _⟩ := effect_config (reachable_inv R1) (exec_effect (reachable_inv R1) O h) hc'
    refine ⟨c2, hc2, ?_⟩
    by_contra hne
    have e2 : c'.authority = c.authority := congrArg Settings.authority e1
    obtain ⟨_, h2, _⟩ := C09_settings_need_signature R1 O h hc' hc2 (fun e => hne (e.trans e1))
    rw [e2, hs] at h2; cases h2

/-- **C122.** The config authority, as long as it is set, can stop all withdrawals, also of tokens staked before: it can set the
limit to zero, and from then on, whatever everybody else does, no token can be unstaked until it signs again. -/
theorem C122_withdrawals_stopped (R : Reachable env w) (O : o.Ok) {c : Config} (hc : configAt w ck = some c)
    (hset : c.authority ≠ .default) (hi : ix.decoded = some (.updateConfig (.maxDeactivationBasisPoints 0))) {rest : List Key}
    (hl : ix.ctx.accts = ck :: c.authority :: rest) (hw : ix.ctx.writable ck = true) (hs : ix.ctx.signer c.authority = true) :
    ∃ wa, exec env o w ix = .ok wa ∧ ∀ w', Unsigned env c.authority wa w' →
      ∀ o' : Oracle, o'.Ok → ∀ (ix' : Ix) (n : Nat), ix'.decoded = some (.unstakeTokens n) → ix'.acct 0 = some ck → 0 < n →
        ¬ ∃ w'', exec env o' w' ix' = .ok w'' := by
  obtain ⟨wa, h⟩ := (C102_update_config (env := env) (o := o) (w := w) hi hl hw).2
    ⟨hs, hset, by rintro v ⟨⟩; omega, c, hc, rfl⟩
  have h0 : ix.acct 0 = some ck := by simp [Ix.acct, hl]
  refine ⟨wa, h, ?_⟩
  rintro w' S o' O' ix' n hi' h0' hn ⟨w'', h'⟩
  obtain ⟨c0, hc0, hc1, _⟩ := C47_update_config h hi h0
  rw [hc] at hc0; cases hc0
  have Ra : Reachable env wa := .exec R O h
  obtain ⟨c', hc', e⟩ := unsigned_settings Ra hc1 S
  have R' := Unsigned.reachable Ra S
  have hb : c'.maxBps = 0 := congrArg Settings.maxBps e
  obtain ⟨a, r, hl', hr⟩ := ran_unstakeTokens h' hi'
  obtain ⟨c2, d0, d', U⟩ := unstakeTokens_one (reachable_inv R') O' hr
  have b0 : ix'.acct 0 = some a.config := by simp [Ix.acct, hl', UnstakeTokensAccts.list]
  rw [h0'] at b0; cases b0
  have e3 := U.config; rw [hc'] at e3; cases e3
  have := U.limit
  rw [hb] at this
  simp at this
  omega

/-- In the witness history the limit is 5000 basis points and an unstake of 150 tokens is about to succeed. -/
def ixNoWithdrawals : Ix := Witness.ix (.updateConfig (.maxDeactivationBasisPoints 0)) [cfg, configAuth] [configAuth]

example : okB o2 w12 ixUnstake = true ∧ okB o2 w12 ixNoWithdrawals = true ∧ (cfgOf w12 cfg).authority = configAuth ∧
    configAuth ≠ .default ∧ ixUnstake.ctx.signer configAuth = false ∧
    okB o2 (after o2 w12 ixNoWithdrawals) ixUnstake = false ∧ okB o2 (after o2 w12 ixUpdate) ixUnstake = true := by
  refine ⟨ok12, ?_, ?_, ?_, ?_, ?_, ?_⟩ <;> decide +kernel

/-- **C122.** There is no upper bound on the cooldown time, and lowering it does not release accounts that are waiting: whoever
unstakes while it is 2^63 seconds or more never unstakes from that account again, whatever the setting becomes. -/
theorem C122_locked_for_ever (R : Reachable env w) (O : o.Ok) (h : exec env o w ix = .ok wa) {n : Nat}
    (hi : ix.decoded = some (.unstakeTokens n)) {c : Config} (h0 : ix.acct 0 = some ck) (h3 : ix.acct 3 = some sk)
    (hc : configAt w ck = some c) (hcd : 2 ^ 63 ≤ c.cooldownTime) {t : Nat} (ht : o.unixTimestamp = t) (hlt : t < 2 ^ 63)
    (S : Steps env wa w') {o' : Oracle} (O' : o'.Ok) {ix' : Ix} {n' t' : Nat} (hi' : ix'.decoded = some (.unstakeTokens n'))
    (h3' : ix'.acct 3 = some sk) (ht' : o'.unixTimestamp = t') (hlt' : t' < 2 ^ 63) :
    ¬ ∃ w'', exec env o' w' ix' = .ok w'' := by
  rintro ⟨w'', h'⟩
  obtain ⟨ck1, c1, e0, e1, hle⟩ := C14_unstakes_apart R O h S O' h' hi hi' (h3.trans h3'.symm) ht hlt ht' hlt'
  rw [h0] at e0; cases e0
  rw [hc] at e1; cases e1
  omega

/-- The cooldown time set to its largest value before the unstake, and to zero after it: a later unstake fails. -/
def ixLongest : Ix := Witness.ix (.updateConfig (.cooldownTimeSeconds (2 ^ 64 - 1))) [cfg, configAuth] [configAuth]
def ixShortest : Ix := Witness.ix (.updateConfig (.cooldownTimeSeconds 0)) [cfg, configAuth] [configAuth]
def long1 : World := after o2 w12 ixLongest
def long2 : World := after o2 long1 ixUnstake
def long3 : World := after o2 long2 ixShortest

example : okB o2 w12 ixLongest = true ∧ (cfgOf long1 cfg).cooldownTime = 2 ^ 64 - 1 ∧ okB o2 long1 ixUnstake = true ∧
    okB o2 long2 ixShortest = true ∧ (cfgOf long3 cfg).cooldownTime = 0 ∧
    errOf (oracle (2 ^ 63 - 1) view2 5000) long3 ixUnstake = some (.stake .activeUnstakeCooldown) := by
  refine ⟨?_, ?_, ?_, ?_, ?_, ?_⟩ <;> decide +kernel

end Verif.Props
