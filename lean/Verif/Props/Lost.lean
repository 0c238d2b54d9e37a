import Verif.Lemmas.Lost
import Verif.Props.Rules
/-!
# C107: a vault authority that is set up without lamports
-/

namespace Verif.Props

open Verif Verif.Witness

variable {env : Env} {o : Oracle} {w w' : World} {ix : Ix} {ck : Key} {c : Config}

/-- **C107.** A vault authority that does not belong to the program never will, and never loses a lamport: whatever it receives
stays there. -/
theorem C107_never_returns (R : Reachable env w) (hc : configAt w ck = some c) (hn : (w (env.vaultAuth ck)).owner ≠ progId)
    (S : Steps env w w') :
    (w' (env.vaultAuth ck)).owner ≠ progId ∧ (w (env.vaultAuth ck)).lamports ≤ (w' (env.vaultAuth ck)).lamports := by
  induction S with
  | refl => exact ⟨hn, Nat.le_refl _⟩
  | tail S X ih =>
    obtain ⟨ih1, ih2⟩ := ih
    have I := steps_inv (reachable_inv R) S
    obtain ⟨c1, hc1⟩ := C25_config_permanent R S hc
    cases X with
    | ext E => exact ⟨(KeepsSide.ext E rfl).1 ih1, ih2.trans (ext_lamports E (.inl rfl))⟩
    | exec O h =>
      refine ⟨(exec_side I O h hc1).1 ih1, ih2.trans ?_⟩
      rcases exec_authority_lamports I O h ck with h' | ⟨hi, hk⟩
      · exact h'
      · obtain ⟨e1, e2⟩ := harvest_rest I O h hi hk
        rw [e1]; exact e2 ih1

/-- **C107.** Such a config gets nothing from HarvestHolderRewards: an accepted one takes no lamport from the vault authority, and once the
vault authority has more than its rent minimum none is ever accepted again. -/
theorem C107_nothing_passed_on (R : Reachable env w) (hc : configAt w ck = some c) (hn : (w (env.vaultAuth ck)).owner ≠ progId)
    (hm : env.rentMin 0 < (w (env.vaultAuth ck)).lamports) (S : Steps env w w') (O : o.Ok)
    (hi : ix.decoded = some .harvestHolderRewards) (hk : ix.acct 0 = some ck) (w'' : World) : exec env o w' ix ≠ .ok w'' := by
  intro h
  obtain ⟨h1, h2⟩ := C107_never_returns R hc hn S
  have := (harvest_rest (steps_inv (reachable_inv R) S) O h hi hk).2 h1
  omega

/-- **C107.** A vault authority that belongs to the program and has lamports keeps both: funding it before the config is set up
is enough, for ever. -/
theorem C107_funded_stays (R : Reachable env w) (hc : configAt w ck = some c)
    (hf : (w (env.vaultAuth ck)).owner = progId ∧ 0 < (w (env.vaultAuth ck)).lamports) (S : Steps env w w') :
    (w' (env.vaultAuth ck)).owner = progId ∧ 0 < (w' (env.vaultAuth ck)).lamports := by
  induction S with
  | refl => exact hf
  | tail S X ih =>
    have I := steps_inv (reachable_inv R) S
    obtain ⟨c1, hc1⟩ := C25_config_permanent R S hc
    cases X with
    | ext E => exact ⟨(KeepsSide.ext E rfl).2 ih, Nat.lt_of_lt_of_le ih.2 (ext_lamports E (.inl rfl))⟩
    | exec O h =>
      refine ⟨(exec_side I O h hc1).2 ih, ?_⟩
      rcases exec_authority_lamports I O h ck with h' | ⟨hi, hk⟩
      · exact Nat.lt_of_lt_of_le ih.2 h'
      · rw [(harvest_rest I O h hi hk).1]; exact env.rentMin_pos 0

/-- **C107.** InitializeConfig leaves the vault authority with the program, but does not ask for lamports. -/
theorem C107_initialised (h : exec env o w ix = .ok w') {s a d : List UInt8} {t b y : Nat}
    (hi : ix.decoded = some (.initializeConfig s a t b y d)) (hk : ix.acct 0 = some ck) :
    (w' (env.vaultAuth ck)).owner = progId ∧ (w' (env.vaultAuth ck)).lamports = (w (env.vaultAuth ck)).lamports := by
  cases exec_ran h with
  | initializeConfig a s c hh t b y rest hi hl hr =>
    obtain rfl : a.config = ck := by simpa [Ix.acct, hl, InitializeConfigAccts.list] using hk
    obtain ⟨w1, bb, t', hv, _, hw1, _, _, _, _, _, _, _, hb, _, _, _, _, rfl⟩ := initializeConfig_ok hr
    rw [← hv]
    rcases hw1 with ⟨ho, rfl⟩ | ⟨_, rfl⟩
    · exact ⟨by simpa using ho, by simp⟩
    · exact ⟨by simp [World.setO_owner], by simp⟩
  | _ => simp_all

/-! ## A config that loses its vault authority -/

/-- The rewards program pays 500000000 lamports. -/
def oMuch : Oracle := oracle 1000 (fun _ => .error .cpi) 500000000
theorem oMuch_ok : oMuch.Ok := oracle_ok fun h => by cases h

def gone2 : World := after o1 gone1 ixInitVal1
def gone3 : World := after o1 gone2 ixOverride
def gone4 : World := after o1 gone3 ixStakeVal1

theorem okg1 : okB o1 gone1 ixInitVal1 = true := by decide +kernel
theorem okg2 : okB o1 gone2 ixOverride = true := by decide +kernel
theorem okg3 : okB o1 gone3 ixStakeVal1 = true := by decide +kernel

/-- Somebody asks the rewards program to pay out the vault's rewards. -/
def paid (o : Oracle) (w : World) : Res World := o.harvestRewards w (harvestCall Witness.env cfg pool poolToken mint)
def paidOk (o : Oracle) (w : World) : Bool := match paid o w with
  | .ok _ => true
  | .error _ => false
def gone5 : World := match paid oMuch gone4 with
  | .ok w => w
  | .error _ => gone4
theorem okg4 : paid oMuch gone4 = .ok gone5 := by
  have h : paidOk oMuch gone4 = true := by decide +kernel
  unfold paidOk at h; unfold gone5
  split at h
  · rename_i hx; rw [hx]
  · cases h

/-- The validator's withdrawal. -/
def ixGoneUnstake : Ix := Witness.ix (.unstakeTokens 150)
  [cfg, pool, poolToken, val1, auth1, vault, vaultAuth, holder, mint, dest, tokenId, rewardsId] [auth1]

theorem gone4_reachable : Reachable Witness.env gone4 := by
  unfold gone4 gone3 gone2
  exact .exec (.exec (.exec gone1_reachable o1_ok (ok_after okg1)) o1_ok (ok_after okg2)) o1_ok (ok_after okg3)

theorem gone5_reachable : Reachable Witness.env gone5 :=
  .ext gone4_reachable (oMuch_ok.harvestRewards (reachable_inv gone4_reachable).wf okg4)

/-- **C107.** Stake can be locked in by this. A config is set up while its vault authority is empty, and the runtime removes the empty
account. A validator stakes, and could withdraw. Then somebody has the rewards program pay out the vault's rewards, which the validator
is entitled to. They arrive at the vault authority, where nobody can reach them; the config cannot pay, so neither the
harvest nor the withdrawal is accepted. -/
theorem C107_locked : ∃ (o : Oracle) (start set gone staked paid : World) (call : RewardsCall),
    Genesis start ∧ o.Ok ∧ (start vaultAuth).lamports = 0 ∧ exec Witness.env o1 start ixInitConfig = .ok set ∧ ExtStep set gone ∧
    Steps Witness.env gone staked ∧ (∃ w', exec Witness.env o1 staked ixGoneUnstake = .ok w') ∧
    o.harvestRewards staked call = .ok paid ∧ Reachable Witness.env paid ∧
    (paid vaultAuth).owner ≠ progId ∧ (paid vaultAuth).lamports = 500000000 ∧ accrued Witness.env paid cfg val1 = 500000000 ∧
    exec Witness.env o1 paid ixHarvestVal1 = .error .arithmeticOverflow ∧
    exec Witness.env o1 paid ixGoneUnstake = .error .arithmeticOverflow ∧
    exec Witness.env o paid ixHarvestHolder = .error .externalLamportSpend := by
  have S : Steps Witness.env gone1 gone4 := by
    unfold gone4 gone3 gone2
    exact .tail (.tail (.tail .refl (.exec o1_ok (ok_after okg1))) (.exec o1_ok (ok_after okg2))) (.exec o1_ok (ok_after okg3))
  exact ⟨oMuch, poor0, poor1, gone1, gone4, gone5, harvestCall Witness.env cfg pool poolToken mint, poor_genesis, oMuch_ok,
    by decide +kernel, ok_after (by decide +kernel), gone_ext, S, ⟨_, ok_after (by decide +kernel)⟩, okg4, gone5_reachable,
    by decide +kernel, by decide +kernel, by decide +kernel, err_after (by decide +kernel), err_after (by decide +kernel),
    err_after (by decide +kernel)⟩

/-- The hypotheses of `C107_never_returns` and `C107_nothing_passed_on` are met. -/
example {w' : World} (S : Steps Witness.env gone5 w') (w'' : World) : (w' vaultAuth).owner ≠ progId ∧
    500000000 ≤ (w' vaultAuth).lamports ∧ exec Witness.env oMuch w' ixHarvestHolder ≠ .ok w'' := by
  have hl : (gone5 vaultAuth).lamports = 500000000 := by decide +kernel
  obtain ⟨c, hc⟩ := Option.isSome_iff_exists.1 (by decide +kernel : (configAt gone5 cfg).isSome = true)
  have h := C107_never_returns (ck := cfg) gone5_reachable hc (by decide +kernel) S
  exact ⟨h.1, hl ▸ h.2, C107_nothing_passed_on (ck := cfg) gone5_reachable hc (by decide +kernel) (by decide +kernel) S oMuch_ok
    (by decide +kernel) (by decide +kernel) w''⟩

/-- Those of `C107_funded_stays` are met too, after the usual set-up. -/
example {w' : World} (S : Steps Witness.env w1 w') : (w' vaultAuth).owner = progId ∧ 0 < (w' vaultAuth).lamports := by
  obtain ⟨c, hc⟩ := Option.isSome_iff_exists.1 (by decide +kernel : (configAt w1 cfg).isSome = true)
  exact C107_funded_stays (ck := cfg) r1 hc (by decide +kernel) S

/-- And those of `C107_initialised`. -/
example : (poor1 vaultAuth).owner = progId ∧ (poor1 vaultAuth).lamports = 0 := by
  have h := C107_initialised (ck := cfg) (w := poor0) (w' := poor1) (ix := ixInitConfig) (ok_after (by decide +kernel))
    (s := bytes32 151) (a := bytes32 150) (t := 100) (b := 5000) (y := 10) (d := Witness.hash) (by decide +kernel) (by decide +kernel)
  exact ⟨h.1, h.2.trans (by decide +kernel)⟩

end Verif.Props
