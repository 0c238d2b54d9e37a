import Verif.Lemmas.LiveInit
import Verif.Lemmas.LiveSync
import Verif.WitnessLive
import Verif.Props.Settle
/-!
# Instructions that are due are accepted

C52 to C62. The other property files say what follows when an instruction succeeds; here are conditions on the
accounts, the signers and the arguments under which each instruction does succeed.
-/

namespace Verif.Props

open Verif Verif.Witness

variable {env : Env} {o : Oracle} {w w' : World} {ix : Ix}

/-- **C52.** The config authority can replace itself and the slash authority can replace itself: a SetAuthority signed by the
current authority, on a writable config, is accepted and records the new authority, whatever else is in the state. -/
theorem C52_set_authority_accepted {t : AuthorityType} (hi : ix.decoded = some (.setAuthority t)) {ck auth new : Key}
    {rest : List Key} (hl : ix.ctx.accts = ck :: auth :: new :: rest) {c : Config} (hc : configAt w ck = some c)
    (hset : auth ≠ .default) (ha : auth = match t with | .config => c.authority | .slash => c.slashAuthority)
    (hs : ix.ctx.signer auth = true) (hw : ix.ctx.writable ck = true) :
    ∃ w', exec env o w ix = .ok w' ∧ configAt w' ck = some (match t with
      | .config => { c with authority := new }
      | .slash => { c with slashAuthority := new }) := by
  refine ⟨_, live_setAuthority hi hl hc hset ha hs hw, configAt_eq.2 ⟨?_, ?_⟩⟩
  · rw [World.setD_owner]; exact (configAt_eq.1 hc).1
  · rw [World.setD_data, if_pos rfl]; cases t <;> rfl

example : ∃ w', exec Witness.env o2 w19 ixSetSlash = .ok w' ∧
    configAt w' cfg = some { cfgOf w19 cfg with slashAuthority := .default } :=
  C52_set_authority_accepted (t := .slash) (by decide +kernel) (rest := []) (new := .default) rfl
    (c := cfgOf w19 cfg) (auth := slashAuth) (by decide +kernel) (by decide) (by decide +kernel) (by decide +kernel) rfl

/-- **C52.** The config authority can change each of the three settings, to any value the format can express, except that the
limit for unstaking may not exceed 10000 basis points. -/
theorem C52_update_config_accepted {f : ConfigField} (hi : ix.decoded = some (.updateConfig f)) {ck auth : Key}
    {rest : List Key} (hl : ix.ctx.accts = ck :: auth :: rest) {c : Config} (hc : configAt w ck = some c)
    (hset : c.authority ≠ .default) (ha : auth = c.authority)
    (hf : ∀ v, f = .maxDeactivationBasisPoints v → v ≤ 10000)
    (hs : ix.ctx.signer auth = true) (hw : ix.ctx.writable ck = true) :
    ∃ w', exec env o w ix = .ok w' ∧ configAt w' ck = some (c.updated f) := by
  refine ⟨_, live_updateConfig hi hl hc hset ha hf hs hw, configAt_eq.2 ⟨?_, ?_⟩⟩
  · rw [World.setD_owner]; exact (configAt_eq.1 hc).1
  · rw [World.setD_data, if_pos rfl]

example : ∃ w', exec Witness.env o2 w18 ixUpdate = .ok w' ∧
    configAt w' cfg = some ((cfgOf w18 cfg).updated (.cooldownTimeSeconds 200)) :=
  C52_update_config_accepted (f := .cooldownTimeSeconds 200) (by decide +kernel) (rest := []) rfl
    (auth := configAuth) (by decide +kernel) (by decide +kernel) (by decide +kernel) (by simp) (by decide +kernel) rfl

/-- **C53.** Anybody can bring the authority of a validator stake account in line with its vote account: no signature is needed
and nothing else in the state can prevent it. -/
theorem C53_sync_authority_accepted (hi : ix.decoded = some .validatorSyncAuthority) {ck vote wd : Key} {rest : List Key}
    (hl : ix.ctx.accts = ck :: .validatorPda vote ck :: vote :: rest)
    (hc : (configAt w ck).isSome = true) (hv : (validatorAt w (.validatorPda vote ck)).isSome = true)
    (ho : (w vote).owner = voteId) (hd : (w vote).data = .vote wd)
    (hw : ix.ctx.writable (.validatorPda vote ck) = true) :
    ∃ w', exec env o w ix = .ok w' ∧ authorityOf w' (.validatorPda vote ck) = some wd := by
  obtain ⟨v, hv⟩ := Option.isSome_iff_exists.1 hv
  refine ⟨_, live_syncAuthority hi hl hc hv ho hd hw, ?_⟩
  have : validatorAt (w.setD (.validatorPda vote ck) (.validator { v with del := { v.del with authority := wd } }))
      (.validatorPda vote ck) = some { v with del := { v.del with authority := wd } } :=
    validatorAt_eq.2 ⟨by rw [World.setD_owner]; exact (validatorAt_eq.1 hv).1, by rw [World.setD_data, if_pos rfl]⟩
  unfold authorityOf
  rw [stakeAt_validator this]; rfl

example : ∃ w', exec Witness.env o2 w17 ixSync = .ok w' ∧ authorityOf w' val1 = some auth1 :=
  C53_sync_authority_accepted (by decide +kernel) (rest := []) rfl (by decide +kernel) (by decide +kernel)
    (by decide +kernel) (by decide +kernel) rfl

/-- **C54.** Anybody can have the rewards of a validator paid out, without any signature, whenever they can be settled. -/
theorem C54_harvest_validator_accepted (R : Reachable env w) (hi : ix.decoded = some .harvestValidatorRewards) {ck sk : Key}
    {c : Config} {v : ValidatorStake} {rest : List Key}
    (hl : ix.ctx.accts = ck :: vaultRecord env ck :: sk :: v.del.authority :: rest) (hv : validatorAt w sk = some v)
    (P : Payable env w ck sk c v.del) (hw : ix.Writes [ck, sk, v.del.authority]) :
    ∃ w', exec env o w ix = .ok w' :=
  live_harvestValidator (reachable_inv R) hi hl hv P hw

/-- 12000 lamports are due in this state. -/
example : accrued Witness.env w9 cfg val1 = 12000 ∧ ∃ w', exec Witness.env o1 w9 ixHarvestVal1 = .ok w' :=
  ⟨by decide +kernel,
    C54_harvest_validator_accepted r9 (by decide +kernel) (sk := val1) (c := cfgOf w9 cfg) (v := valOf w9 val1) (rest := [])
      (by decide +kernel) (by decide +kernel) (payable_mk (belongs_val _ _) (by decide +kernel)) (ix_writes _ _ _ _)⟩

/-- **C55.** The config authority can override the lamports of a validator whenever its rewards can be settled and the new
effective stake fits. -/
theorem C55_override_accepted (R : Reachable env w) {n : Nat}
    (hi : ix.decoded = some (.validatorOverrideStakedLamports n)) {ck sk : Key}
    {c : Config} {v : ValidatorStake} {rest : List Key}
    (hl : ix.ctx.accts = ck :: c.authority :: sk :: v.del.authority :: vaultRecord env ck :: rest)
    (hset : c.authority ≠ .default) (hs : ix.ctx.signer c.authority = true)
    (hv : validatorAt w sk = some v) (P : Payable env w ck sk c v.del) (F : Fits c v.del v.del.staked (max v.total n))
    (hw : ix.Writes [ck, sk, v.del.authority]) : ∃ w', exec env o w ix = .ok w' :=
  live_override (reachable_inv R) hi hl hset hs hv P F hw

example : accrued Witness.env w9 cfg val1 = 12000 ∧ ∃ w', exec Witness.env o1 w9 ixOverride = .ok w' :=
  ⟨by decide +kernel,
    C55_override_accepted r9 (n := 5000) (by decide +kernel) (ck := cfg) (sk := val1) (c := cfgOf w9 cfg) (v := valOf w9 val1)
      (rest := []) (by decide +kernel) (by decide +kernel) (by decide +kernel) (by decide +kernel)
      (payable_mk (belongs_val _ _) (by decide +kernel)) (by unfold Fits; decide +kernel) (ix_writes _ _ _ _)⟩

/-- **C56.** A staker can move any amount up to the whole stake between two of their accounts whenever the rewards of both can
be settled and the amounts fit. Neither the cooldown nor the limit for unstaking stands in the way. -/
theorem C56_move_accepted (R : Reachable env w) {n : Nat} (hi : ix.decoded = some (.solStakerMoveTokens n)) {ck sk tk : Key}
    {c : Config} {s t : SolStakerStake} {rest : List Key}
    (hl : ix.ctx.accts = ck :: vaultRecord env ck :: s.del.authority :: sk :: tk :: rest)
    (hsig : ix.ctx.signer s.del.authority = true)
    (hs : solStakerAt w sk = some s) (ht : solStakerAt w tk = some t) (hne : tk ≠ sk)
    (hauth : t.del.authority = s.del.authority)
    (Ps : Payable env w ck sk c s.del) (Pt : Payable env w ck tk c t.del)
    (funds : accrued env w ck sk + accrued env w ck tk + env.rentMin configLen ≤ (w ck).lamports)
    (room : (w s.del.authority).lamports + accrued env w ck sk + accrued env w ck tk < 2 ^ 64)
    (hn : n ≤ s.del.staked) (hlt : t.del.staked + n < 2 ^ 64)
    (heff : c.effTotal - s.del.effective + min (s.del.staked - n) (cap s.lamports) - t.del.effective +
      min (t.del.staked + n) (cap t.lamports) < 2 ^ 64)
    (hcs : cap s.lamports < 2 ^ 64) (hct : cap t.lamports < 2 ^ 64)
    (hw : ix.Writes [ck, sk, tk, s.del.authority]) : ∃ w', exec env o w ix = .ok w' :=
  live_move (reachable_inv R) hi hl hsig hs ht hne hauth Ps Pt funds room hn hlt heff hcs hct hw

example : accrued Witness.env w10 cfg sol1 = 3000 ∧ ∃ w', exec Witness.env o2 w10 ixMove = .ok w' :=
  ⟨by decide +kernel,
    C56_move_accepted r10 (n := 100) (by decide +kernel) (ck := cfg) (sk := sol1) (tk := sol2) (c := cfgOf w10 cfg)
      (s := solOf w10 sol1) (t := solOf w10 sol2) (rest := [])
      (by decide +kernel) (by decide +kernel) (by decide +kernel) (by decide +kernel) (by decide) (by decide +kernel)
      (payable_mk (belongs_sol _ _) (by decide +kernel)) (payable_mk (belongs_sol _ _) (by decide +kernel))
      (by decide +kernel) (by decide +kernel) (by decide +kernel) (by decide +kernel) (by decide +kernel)
      (by decide +kernel) (by decide +kernel) (ix_writes _ _ _ _)⟩

/-- **C57.** The slash authority can slash a validator by any amount, also one larger than the stake, whenever the rewards can
be settled and the vault token account holds what is to be burned (see C45 for when it does not), provided no reward is due
to one of the accounts handed to the token program (see C92). -/
theorem C57_slash_validator_accepted (R : Reachable env w) {n : Nat} (hi : ix.decoded = some (.slashValidatorStake n))
    {ck sk mk : Key} {c : Config} {v : ValidatorStake} {t : TokenAccount} {mi : Mint} {rest : List Key}
    (hl : ix.ctx.accts = ck :: sk :: v.del.authority :: c.slashAuthority :: c.vault :: vaultRecord env ck ::
      env.vaultAuth ck :: mk :: tokenId :: rest)
    (hset : c.slashAuthority ≠ .default) (hsig : ix.ctx.signer c.slashAuthority = true)
    (hv : validatorAt w sk = some v) (P : Payable env w ck sk c v.del) (hn : 0 < n)
    (S : Spendable w c.vault mk (env.vaultAuth ck) t (min n v.del.staked)) (hm : mintAt w mk = some mi)
    (hmO : (w mk).owner = tokenId) (hs : min n v.del.staked ≤ mi.supply)
    (F : Fits c v.del (v.del.staked - min n v.del.staked) (max v.total v.min))
    (hw : ix.Writes [ck, sk, v.del.authority, c.vault, mk])
    (hpay : v.del.authority ∉ [c.vault, mk, env.vaultAuth ck] ∨ accrued env w ck sk = 0) :
    ∃ w', exec env o w ix = .ok w' :=
  live_slashValidator (reachable_inv R) hi hl hset hsig hv P hn S hm hmO hs F hw hpay

example : accrued Witness.env z9 cfg val1 = 12000 ∧ ∃ w', exec Witness.env o2 z9 ixSlashVal1 = .ok w' :=
  ⟨by decide +kernel,
    C57_slash_validator_accepted rz9 (n := 300) (by decide +kernel) (ck := cfg) (sk := val1) (mk := mint) (c := cfgOf z9 cfg)
      (v := valOf z9 val1) (t := tokOf z9 vault) (mi := mintOf z9 mint) (rest := [])
      (by decide +kernel) (by decide +kernel) (by decide +kernel) (by decide +kernel)
      (payable_mk (belongs_val _ _) (by decide +kernel)) (by decide) (spendable_mk (by decide +kernel))
      (by decide +kernel) (by decide +kernel) (by decide +kernel) (by unfold Fits; decide +kernel) (ix_writes _ _ _ _)
      (Or.inl (by decide +kernel))⟩

/-- **C57.** The same for a SOL staker. -/
theorem C57_slash_sol_staker_accepted (R : Reachable env w) {n : Nat} (hi : ix.decoded = some (.slashSolStakerStake n))
    {ck sk mk : Key} {c : Config} {v : SolStakerStake} {t : TokenAccount} {mi : Mint} {rest : List Key}
    (hl : ix.ctx.accts = ck :: sk :: v.del.authority :: c.slashAuthority :: mk :: c.vault :: vaultRecord env ck ::
      env.vaultAuth ck :: tokenId :: rest)
    (hset : c.slashAuthority ≠ .default) (hsig : ix.ctx.signer c.slashAuthority = true)
    (hv : solStakerAt w sk = some v) (P : Payable env w ck sk c v.del) (hn : 0 < n)
    (S : Spendable w c.vault mk (env.vaultAuth ck) t (min n v.del.staked)) (hm : mintAt w mk = some mi)
    (hmO : (w mk).owner = tokenId) (hs : min n v.del.staked ≤ mi.supply)
    (F : Fits c v.del (v.del.staked - min n v.del.staked) v.lamports)
    (hw : ix.Writes [ck, sk, v.del.authority, c.vault, mk])
    (hpay : v.del.authority ∉ [c.vault, mk, env.vaultAuth ck] ∨ accrued env w ck sk = 0) :
    ∃ w', exec env o w ix = .ok w' :=
  live_slashSolStaker (reachable_inv R) hi hl hset hsig hv P hn S hm hmO hs F hw hpay

example : (solOf w15 sol2).del.staked = 100 ∧ ∃ w', exec Witness.env o2 w15 ixSlashSol2 = .ok w' :=
  ⟨by decide +kernel,
    C57_slash_sol_staker_accepted r15 (n := 1000) (by decide +kernel) (ck := cfg) (sk := sol2) (mk := mint)
      (c := cfgOf w15 cfg) (v := solOf w15 sol2) (t := tokOf w15 vault) (mi := mintOf w15 mint) (rest := [])
      (by decide +kernel) (by decide +kernel) (by decide +kernel) (by decide +kernel)
      (payable_mk (belongs_sol _ _) (by decide +kernel)) (by decide) (spendable_mk (by decide +kernel))
      (by decide +kernel) (by decide +kernel) (by decide +kernel) (by unfold Fits; decide +kernel) (ix_writes _ _ _ _)
      (Or.inl (by decide +kernel))⟩

/-- **C58.** A stake authority can take tokens out once the cooldown has passed, up to the limit of the config, whenever the
rewards can be settled and the rewards program takes the withdrawal, provided no reward is due to one of the accounts handed
to the other programs (see C92). `l` are the lamports that cap the effective stake. -/
theorem C58_unstake_accepted (R : Reachable env w) {n : Nat} (hi : ix.decoded = some (.unstakeTokens n))
    {ck sk dst mk pool pt : Key} {c : Config} {d : Delegation} {l : Nat}
    {tv td : TokenAccount} {mi : Mint} {ok : TokenAccount → Prop} {after : TokenAccount → TokenAccount} {rest : List Key}
    (hl : ix.ctx.accts = ck :: pool :: pt :: sk :: d.authority :: c.vault :: env.vaultAuth ck :: vaultRecord env ck :: mk ::
      dst :: tokenId :: rewardsId :: rest)
    (hsig : ix.ctx.signer d.authority = true)
    (P : Payable env w ck sk c d)
    (hk : (∃ v, validatorAt w sk = some v ∧ l = max v.total v.min) ∨ ∃ s, solStakerAt w sk = some s ∧ l = s.lamports)
    (hcd : d.cooldown ≤ o.now) (hn : n ≤ d.staked) (hmax : n ≤ d.staked * c.maxBps / 10000)
    (F : Fits c d (d.staked - n) l)
    (hvt : tokenAt w c.vault = some tv) (hvO : (w c.vault).owner = tokenId) (hvm : tv.mint = mk)
    (hm : mintAt w mk = some mi)
    (D : Ready o.withdraw w (vaultCall env ck c pool pt mk n) ok after) (hok : ok tv)
    (haf : (after tv).mint = mk ∧ (after tv).frozen = false ∧ (after tv).owner = env.vaultAuth ck ∧
      (after tv).delegate ≠ some (env.vaultAuth ck) ∧ n ≤ (after tv).amount)
    (V : Receives w dst mk td n)
    (hdst : dst ∉ (vaultCall env ck c pool pt mk n).accounts) (hmk : mk ∉ (vaultCall env ck c pool pt mk n).accounts)
    (hw : ix.Writes [ck, pool, pt, sk, c.vault, env.vaultAuth ck, vaultRecord env ck, dst])
    (hwa : ix.ctx.writable d.authority = true ∨ accrued env w ck sk = 0) (hct : ck ≠ tokenId)
    (hpay : d.authority ∉ [pool, pt, vaultRecord env ck, c.vault, mk, env.vaultAuth ck, tokenId, dst] ∨
      accrued env w ck sk = 0) :
    ∃ w', exec env o w ix = .ok w' :=
  live_unstake (reachable_inv R) hi hl hsig P hk hcd hn hmax F hvt hvO hvm hm D hok haf V hdst hmk hw hwa hct hpay

example : accrued Witness.env w10 cfg sol1 = 3000 ∧ ∃ w', exec Witness.env o2 w10 ixUnstake = .ok w' :=
  ⟨by decide +kernel,
    C58_unstake_accepted r10 (n := 150) (by decide +kernel) (ck := cfg) (sk := sol1) (mk := mint) (dst := dest) (pool := pool)
      (pt := poolToken) (c := cfgOf w10 cfg) (d := (solOf w10 sol1).del) (l := (solOf w10 sol1).lamports)
      (tv := tokOf w10 vault) (td := tokOf w10 dest) (mi := mintOf w10 mint) (rest := [])
      (by decide +kernel) (by decide +kernel) (payable_mk (belongs_sol _ _) (by decide +kernel))
      (Or.inr ⟨solOf w10 sol1, by decide +kernel, rfl⟩) (by decide +kernel) (by decide +kernel) (by decide +kernel)
      (by unfold Fits; decide +kernel) (by decide +kernel) (by decide +kernel) (by decide +kernel) (by decide +kernel)
      (withdraw_ready (p := tokOf w10 poolToken) (h := recOf w10 holder) (by decide +kernel) (by decide +kernel)
        (by decide +kernel) (by decide +kernel) (by decide +kernel) (by decide +kernel))
      (by decide +kernel) (by decide +kernel) (receives_mk (by decide +kernel)) (by decide +kernel) (by decide +kernel)
      (ix_writes _ _ _ _) (Or.inl rfl) (by decide) (Or.inl (by decide +kernel))⟩

/-- **C59.** Anybody who owns tokens can stake them for a validator, without the stake authority's signature, whenever the
rewards can be settled, the amounts fit and the rewards program takes the deposit, provided no reward is due to one of the
accounts handed to the other programs; the owner of the tokens is one of them (see C92). -/
theorem C59_stake_validator_accepted (R : Reachable env w) {n : Nat} (hi : ix.decoded = some (.validatorStakeTokens n))
    {ck sk src sauth mk pool pt : Key} {c : Config} {v : ValidatorStake} {ts td : TokenAccount} {mi : Mint}
    {ok : TokenAccount → Prop} {after : TokenAccount → TokenAccount} {rest : List Key}
    (hl : ix.ctx.accts = ck :: pool :: pt :: sk :: v.del.authority :: src :: sauth :: mk :: env.vaultAuth ck :: c.vault ::
      vaultRecord env ck :: tokenId :: rewardsId :: rest)
    (hsig : ix.ctx.signer sauth = true) (hv : validatorAt w sk = some v) (hn : 0 < n) (hlt : v.del.staked + n < 2 ^ 64)
    (P : Payable env w ck sk c v.del) (F : Fits c v.del (v.del.staked + n) (max v.total v.min))
    (S : Spendable w src mk sauth ts n) (V : Receives w c.vault mk td n) (hm : mintAt w mk = some mi) (hne : src ≠ c.vault)
    (D : Ready o.deposit w (vaultCall env ck c pool pt mk n) ok after) (hok : ok { td with amount := td.amount + n })
    (hpt : pt ≠ src) (hw : ix.Writes [ck, pool, pt, sk, src, env.vaultAuth ck, c.vault, vaultRecord env ck])
    (hwa : ix.ctx.writable v.del.authority = true ∨ accrued env w ck sk = 0)
    (hsa : sauth ≠ ck ∧ sauth ≠ sk) (hct : ck ≠ tokenId)
    (hpay : v.del.authority ∉ [src, mk, c.vault, sauth, pool, pt, vaultRecord env ck, env.vaultAuth ck, tokenId] ∨
      accrued env w ck sk = 0) :
    ∃ w', exec env o w ix = .ok w' :=
  live_stakeValidator (reachable_inv R) hi hl hsig hv hn hlt P F S V hm hne D hok hpt hw hwa hsa hct hpay

example : accrued Witness.env w9 cfg val1 = 12000 ∧ ∃ w', exec Witness.env o1 w9 ixStakeVal1 = .ok w' :=
  ⟨by decide +kernel,
    C59_stake_validator_accepted r9 (n := 2000) (by decide +kernel) (ck := cfg) (sk := val1) (mk := mint) (src := source)
      (sauth := holderOwner) (pool := pool) (pt := poolToken) (c := cfgOf w9 cfg) (v := valOf w9 val1)
      (ts := tokOf w9 source) (td := tokOf w9 vault) (mi := mintOf w9 mint) (rest := [])
      (by decide +kernel) (by decide +kernel) (by decide +kernel) (by decide) (by decide +kernel)
      (payable_mk (belongs_val _ _) (by decide +kernel)) (by unfold Fits; decide +kernel) (spendable_mk (by decide +kernel))
      (receives_mk (by decide +kernel)) (by decide +kernel) (by decide +kernel)
      (deposit_ready (p := tokOf w9 poolToken) (h := recOf w9 holder) (by decide +kernel) (by decide +kernel)
        (by decide +kernel) (by decide +kernel) (by decide +kernel) (by decide +kernel))
      (by decide +kernel) (by decide) (ix_writes _ _ _ _) (Or.inl rfl) (by decide) (by decide) (Or.inl (by decide +kernel))⟩

/-- **C59.** The same for a SOL staker. -/
theorem C59_stake_sol_staker_accepted (R : Reachable env w) {n : Nat} (hi : ix.decoded = some (.solStakerStakeTokens n))
    {ck sk src sauth mk pool pt : Key} {c : Config} {v : SolStakerStake} {ts td : TokenAccount} {mi : Mint}
    {ok : TokenAccount → Prop} {after : TokenAccount → TokenAccount} {rest : List Key}
    (hl : ix.ctx.accts = ck :: pool :: pt :: sk :: v.del.authority :: src :: sauth :: mk :: env.vaultAuth ck :: c.vault ::
      vaultRecord env ck :: tokenId :: rewardsId :: rest)
    (hsig : ix.ctx.signer sauth = true) (hv : solStakerAt w sk = some v) (hn : 0 < n) (hlt : v.del.staked + n < 2 ^ 64)
    (P : Payable env w ck sk c v.del) (F : Fits c v.del (v.del.staked + n) v.lamports)
    (S : Spendable w src mk sauth ts n) (V : Receives w c.vault mk td n) (hto : td.owner = env.vaultAuth ck)
    (hm : mintAt w mk = some mi) (hne : src ≠ c.vault)
    (D : Ready o.deposit w (vaultCall env ck c pool pt mk n) ok after) (hok : ok { td with amount := td.amount + n })
    (hpt : pt ≠ src) (hw : ix.Writes [ck, pool, pt, sk, src, env.vaultAuth ck, c.vault, vaultRecord env ck])
    (hwa : ix.ctx.writable v.del.authority = true ∨ accrued env w ck sk = 0)
    (hsa : sauth ≠ ck ∧ sauth ≠ sk) (hct : ck ≠ tokenId)
    (hpay : v.del.authority ∉ [src, mk, c.vault, sauth, pool, pt, vaultRecord env ck, env.vaultAuth ck, tokenId] ∨
      accrued env w ck sk = 0) :
    ∃ w', exec env o w ix = .ok w' :=
  live_stakeSolStaker (reachable_inv R) hi hl hsig hv hn hlt P F S V hto hm hne D hok hpt hw hwa hsa hct hpay

example : accrued Witness.env w10 cfg sol1 = 3000 ∧ ∃ w', exec Witness.env o1 w10 ixStakeSol1 = .ok w' :=
  ⟨by decide +kernel,
    C59_stake_sol_staker_accepted r10 (n := 500) (by decide +kernel) (ck := cfg) (sk := sol1) (mk := mint) (src := source)
      (sauth := holderOwner) (pool := pool) (pt := poolToken) (c := cfgOf w10 cfg) (v := solOf w10 sol1)
      (ts := tokOf w10 source) (td := tokOf w10 vault) (mi := mintOf w10 mint) (rest := [])
      (by decide +kernel) (by decide +kernel) (by decide +kernel) (by decide) (by decide +kernel)
      (payable_mk (belongs_sol _ _) (by decide +kernel)) (by unfold Fits; decide +kernel) (spendable_mk (by decide +kernel))
      (receives_mk (by decide +kernel)) (by decide +kernel) (by decide +kernel) (by decide +kernel)
      (deposit_ready (p := tokOf w10 poolToken) (h := recOf w10 holder) (by decide +kernel) (by decide +kernel)
        (by decide +kernel) (by decide +kernel) (by decide +kernel) (by decide +kernel))
      (by decide +kernel) (by decide) (ix_writes _ _ _ _) (Or.inl rfl) (by decide) (by decide) (Or.inl (by decide +kernel))⟩

/-- **C60.** Anybody can have the rewards of a SOL staker paid out whenever they can be settled, if the native stake is as
recorded; the last seven accounts do not matter then. -/
theorem C60_harvest_sol_staker_accepted (R : Reachable env w) (hi : ix.decoded = some .harvestSolStakerRewards)
    {ck sk pk pa qk qa hist kp : Key} {c : Config} {s : SolStakerStake} {v : StakeView} {rest : List Key}
    (hl : ix.ctx.accts = viewId :: ck :: vaultRecord env ck :: sk :: s.del.authority :: s.solStake :: pk :: pa :: qk :: qa ::
      hist :: kp :: rest)
    (hs : solStakerAt w sk = some s) (hview : o.view s.solStake = .ok v)
    (hnat : s.solStake ≠ ck) (hhc : hist ≠ ck) (hhs : hist ≠ sk)
    (hsame : v.effective = s.lamports ∧ v.delegatedVote = s.del.vote)
    (P : Payable env w ck sk c s.del) (hw : ix.Writes [ck, sk, s.del.authority]) :
    ∃ w', exec env o w ix = .ok w' :=
  live_harvestSol_settle (reachable_inv R) hi hl hs hview hnat hhc hhs hsame P hw

example : accrued Witness.env w9 cfg sol1 = 3000 ∧ ∃ w', exec Witness.env o1 w9 ixHarvestSol1 = .ok w' :=
  ⟨by decide +kernel,
    C60_harvest_sol_staker_accepted r9 (by decide +kernel) (ck := cfg) (sk := sol1) (c := cfgOf w9 cfg)
      (s := solOf w9 sol1) (v := { delegatedVote := vote1, withdrawer := staker, effective := 1000 })
      (pk := val1) (pa := auth1) (qk := val2) (qa := auth2) (hist := .raw 9) (kp := keeper) (rest := [])
      (by decide +kernel) (by decide +kernel) (by decide +kernel) (by decide +kernel) (by decide +kernel) (by decide +kernel)
      (by decide +kernel) (payable_mk (belongs_sol _ _) (by decide +kernel)) (ix_writes _ _ _ _)⟩

/-- **C60.** When the native stake has changed, anybody can bring the record up to date, whatever the new delegation is: no
delegation, a validator with or without a stake account, or the same validator with other lamports. Enough is: the rewards of
the staker and of the validators involved can be settled, all payees have room for the total, and the sums fit in 64 bits.
A staker recorded without delegation must be recorded with no lamports (see C43). -/
theorem C60_sync_sol_staker_accepted (R : Reachable env w) (hi : ix.decoded = some .harvestSolStakerRewards)
    {ck sk pk pa qk qa hist kp : Key} {c : Config} {s : SolStakerStake} {v : StakeView} {rest : List Key}
    (hl : ix.ctx.accts = viewId :: ck :: vaultRecord env ck :: sk :: s.del.authority :: s.solStake :: pk :: pa :: qk :: qa ::
      hist :: kp :: rest)
    (hs : solStakerAt w sk = some s) (hview : o.view s.solStake = .ok v)
    (hnat : s.solStake ≠ ck) (hhc : hist ≠ ck) (hhs : hist ≠ sk)
    (hdiff : ¬ (v.effective = s.lamports ∧ v.delegatedVote = s.del.vote)) (hkp : kp ≠ progId) (hkc : kp ≠ ck)
    (P : Payable env w ck sk c s.del)
    (hp : s.del.vote ≠ .default → pk = .validatorPda s.del.vote ck ∧
      ∀ p, validatorAt w pk = some p → pa = p.del.authority ∧ Payable env w ck pk c p.del ∧ cap (max p.total p.min) < 2 ^ 64)
    (hu : s.del.vote = .default → s.lamports = 0)
    (hq : v.delegatedVote ≠ .default → qk = .validatorPda v.delegatedVote ck ∧
      ∀ q, validatorAt w qk = some q → qa = q.del.authority ∧ Payable env w ck qk c q.del ∧ q.total + v.effective < 2 ^ 64 ∧
        cap (max (q.total + v.effective) q.min) < 2 ^ 64)
    (hcap : cap v.effective < 2 ^ 64)
    (funds : accrued env w ck sk + accrued env w ck (.validatorPda s.del.vote ck) +
      accrued env w ck (.validatorPda v.delegatedVote ck) + env.rentMin configLen ≤ (w ck).lamports)
    (room : ∀ x ∈ [s.del.authority, kp, pa, qa], (w x).lamports + (accrued env w ck sk +
      accrued env w ck (.validatorPda s.del.vote ck) + accrued env w ck (.validatorPda v.delegatedVote ck)) < 2 ^ 64)
    (heff : c.effTotal + stakedOf w (.validatorPda s.del.vote ck) + stakedOf w (.validatorPda v.delegatedVote ck) +
      s.del.staked < 2 ^ 64)
    (hw : ix.Writes [ck, sk, s.del.authority, kp, pk, pa, qk, qa]) :
    ∃ w', exec env o w ix = .ok w' :=
  live_harvestSol_sync (reachable_inv R) (reachable_totals R) hi hl hs hview hnat hhc hhs hdiff hkp hkc P
    (fun h => ⟨(hp h).1, fun p h' => by
      obtain ⟨h1, h2, h3⟩ := (hp h).2 p h'
      exact ⟨h1, h2, lt_of_le_of_lt (cap_mono (by omega)) h3⟩⟩) hu
    (fun h => ⟨(hq h).1, fun q h' => by
      obtain ⟨h1, h2, h3, h4⟩ := (hq h).2 q h'
      exact ⟨h1, h2, by omega, lt_of_le_of_lt (cap_mono (by omega)) h4⟩⟩) (fun _ => hcap)
    (by split_ifs <;> omega) (fun x hx => by have := room x hx; split_ifs <;> omega) heff hw

/-- The native stake of `sol1` has moved from `vote1` to `vote2`; the staker has 3000 lamports to get and the first validator
12000. -/
example : accrued Witness.env w9 cfg sol1 = 3000 ∧ accrued Witness.env w9 cfg val1 = 12000 ∧
    ∃ w', exec Witness.env o2 w9 ixHarvestSol1 = .ok w' :=
  ⟨by decide +kernel, by decide +kernel,
    C60_sync_sol_staker_accepted r9 (by decide +kernel) (ck := cfg) (sk := sol1) (c := cfgOf w9 cfg)
      (s := solOf w9 sol1) (v := { delegatedVote := vote2, withdrawer := staker, effective := 3000 })
      (pk := val1) (pa := auth1) (qk := val2) (qa := auth2) (hist := .raw 9) (kp := keeper) (rest := [])
      (by decide +kernel) (by decide +kernel) (by decide +kernel) (by decide +kernel) (by decide +kernel) (by decide +kernel)
      (by decide +kernel) (by decide) (by decide) (payable_mk (belongs_sol _ _) (by decide +kernel))
      (fun _ => ⟨by decide +kernel, fun p h => by
        obtain rfl : valOf w9 val1 = p := Option.some.inj ((by decide +kernel : some (valOf w9 val1) = validatorAt w9 val1).trans h)
        exact ⟨by decide +kernel, payable_mk (belongs_val _ _) (by decide +kernel), by decide +kernel⟩⟩)
      (fun h => absurd h (by decide +kernel))
      (fun _ => ⟨by decide +kernel, fun q h => by
        obtain rfl : valOf w9 val2 = q := Option.some.inj ((by decide +kernel : some (valOf w9 val2) = validatorAt w9 val2).trans h)
        exact ⟨by decide +kernel, payable_mk (belongs_val _ _) (by decide +kernel), by decide +kernel, by decide +kernel⟩⟩)
      (by decide +kernel) (by decide +kernel) (by decide +kernel) (by decide +kernel) (ix_writes _ _ _ _)⟩

/-- **C61.** A validator stake account can be created by anybody, once the address holds its rent and the withdraw authority of
the vote account has signed the DUNA document, for every vote account that has none yet. -/
theorem C61_initialize_validator_accepted (R : Reachable env w) (hi : ix.decoded = some .initializeValidatorStake)
    {ck vote wd : Key} {c : Config} {rest : List Key} {b : List UInt8}
    (hl : ix.ctx.accts = ck :: .dunaPda wd c.dunaHash :: .validatorPda vote ck :: vote :: systemId :: rest)
    (hc : configAt w ck = some c) (hvO : (w vote).owner = voteId) (hvd : (w vote).data = .vote wd)
    (hduna : (w (.dunaPda wd c.dunaHash)).data = .bytes (1 :: b))
    (hnew : validatorAt w (.validatorPda vote ck) = none)
    (hrent : env.rentMin validatorLen ≤ (w (.validatorPda vote ck)).lamports)
    (hw : ix.ctx.writable (.validatorPda vote ck) = true) : ∃ w', exec env o w ix = .ok w' :=
  live_initValidator (reachable_inv R) hi hl hc hvO hvd hduna hnew hrent hw

example : ∃ w', exec Witness.env o1 w2 ixInitVal2 = .ok w' :=
  C61_initialize_validator_accepted r2 (by decide +kernel) (ck := cfg) (vote := vote2) (wd := auth2) (c := cfgOf w2 cfg) (b := [])
    (rest := []) (by decide +kernel) (by decide +kernel) (by decide +kernel) (by decide +kernel) (by decide +kernel)
    (by decide +kernel) (by decide +kernel) rfl

/-- **C61.** A SOL staker stake account can be created for every native stake that has none yet and is delegated to a validator
that has an account. -/
theorem C61_initialize_sol_staker_accepted (R : Reachable env w) (hi : ix.decoded = some .initializeSolStakerStake)
    {ck native : Key} {c : Config} {v : StakeView} {vs : ValidatorStake} {rest : List Key} {b : List UInt8} {hist : Key}
    (hl : ix.ctx.accts = ck :: .dunaPda v.withdrawer c.dunaHash :: .solStakerPda native ck :: .overridePda v.withdrawer ck ::
      .validatorPda v.delegatedVote ck :: native :: hist :: systemId :: viewId :: rest)
    (hc : configAt w ck = some c) (hview : o.view native = .ok v) (hdel : v.delegatedVote ≠ .default)
    (hwd : v.withdrawer ≠ .default)
    (hduna : (w (.dunaPda v.withdrawer c.dunaHash)).data = .bytes (1 :: b))
    (hval : validatorAt w (.validatorPda v.delegatedVote ck) = some vs) (hlt : vs.total + v.effective < 2 ^ 64)
    (hnew : solStakerAt w (.solStakerPda native ck) = none)
    (hrent : env.rentMin solStakerLen ≤ (w (.solStakerPda native ck)).lamports)
    (hw : ix.Writes [.solStakerPda native ck, .validatorPda v.delegatedVote ck]) : ∃ w', exec env o w ix = .ok w' :=
  live_initSolStaker (reachable_inv R) hi hl hc hview hdel hwd hduna hval hlt hnew hrent hw

example : ∃ w', exec Witness.env o1 w4 ixInitSol2 = .ok w' :=
  C61_initialize_sol_staker_accepted r4 (by decide +kernel) (ck := cfg) (native := native2) (c := cfgOf w4 cfg) (b := [])
    (v := { delegatedVote := vote1, withdrawer := staker, effective := 1000 }) (vs := valOf w4 val1) (hist := .raw 9)
    (rest := []) (by decide +kernel) (by decide +kernel) rfl (by decide +kernel) (by decide +kernel) (by decide +kernel)
    (by decide +kernel) (by decide +kernel) (by decide +kernel) (by decide +kernel) (ix_writes _ _ _ _)

/-- **C61.** A config can be created in every zeroed account of the right size with a fitting vault. -/
theorem C61_initialize_config_accepted (R : Reachable env w) {sa ca : List UInt8} {ct bps sync : Nat} {hash : List UInt8}
    (hi : ix.decoded = some (.initializeConfig sa ca ct bps sync hash)) {ck mk vault : Key} {t : TokenAccount} {b : List UInt8}
    {rest : List Key}
    (hl : ix.ctx.accts = ck :: mk :: env.vaultAuth ck :: vault :: vaultRecord env ck :: systemId :: rewardsId :: rest)
    (hm : (mintAt w mk).isSome = true) (ht : tokenAt w vault = some t) (hto : t.owner = env.vaultAuth ck)
    (htc : t.closeAuthority = none) (htd : t.delegate = none) (htm : t.mint = mk) (hta : t.amount = 0)
    (hcO : (w ck).owner = progId) (hcd : (w ck).data = .bytes b) (hlen : b.length = configLen)
    (hzero : b.take 8 = List.replicate 8 0) (hrent : env.rentMin configLen ≤ (w ck).lamports) (hbps : bps ≤ 10000)
    (hw : ix.Writes [ck, env.vaultAuth ck]) : ∃ w', exec env o w ix = .ok w' :=
  live_initConfig (reachable_inv R) hi hl hm ht hto htc htd htm hta hcO hcd hlen hzero hrent hbps hw

example : ∃ w', exec Witness.env o1 w0 ixInitConfig = .ok w' :=
  C61_initialize_config_accepted r0 (sa := bytes32 151) (ca := bytes32 150) (ct := 100) (bps := 5000) (sync := 10)
    (hash := Witness.hash) (by decide +kernel) (ck := cfg) (mk := mint) (vault := vault) (t := tokOf w0 vault)
    (b := List.replicate 192 0) (rest := []) (by decide +kernel) (by decide +kernel) (by decide +kernel) (by decide +kernel)
    (by decide +kernel) (by decide +kernel) (by decide +kernel) (by decide +kernel) (by decide +kernel) (by decide +kernel)
    (by decide +kernel) (by decide +kernel) (by decide +kernel) (by decide +kernel) (ix_writes _ _ _ _)

/-- **C62.** Anybody can pass the holder rewards of the vault on to the config when the rewards program pays them out, provided
the vault authority account still belongs to the program. -/
theorem C62_harvest_holder_accepted (R : Reachable env w) (hi : ix.decoded = some .harvestHolderRewards)
    {ck pool pt mk : Key} {c : Config} {t : TokenAccount} {p : Nat} {rest : List Key}
    (hl : ix.ctx.accts = ck :: pool :: pt :: c.vault :: vaultRecord env ck :: env.vaultAuth ck :: mk :: tokenId :: rewardsId ::
      systemId :: rest)
    (hc : configAt w ck = some c) (ht : tokenAt w c.vault = some t) (htm : t.mint = mk)
    (hrO : (w (vaultRecord env ck)).owner = rewardsId)
    (hva : (w (env.vaultAuth ck)).owner = progId)
    (hrent : env.rentMin 0 ≤ (w (env.vaultAuth ck)).lamports + p)
    (hcall : ck ≠ mk ∧ ck ∉ (harvestCall env ck pool pt mk).accounts)
    (Y : Pays o.harvestRewards w (harvestCall env ck pool pt mk) p)
    (hsup : (w (env.vaultAuth ck)).lamports + p + (w ck).lamports < 2 ^ 64)
    (hw : ix.Writes [ck, pool, pt, vaultRecord env ck, env.vaultAuth ck]) : ∃ w', exec env o w ix = .ok w' :=
  live_harvestHolder (reachable_inv R) hi hl hc ht htm hrO hva hrent hcall Y hsup hw

example : ∃ w', exec Witness.env o1 w8 ixHarvestHolder = .ok w' :=
  C62_harvest_holder_accepted r8 (by decide +kernel) (ck := cfg) (pool := pool) (pt := poolToken) (mk := mint)
    (c := cfgOf w8 cfg) (t := tokOf w8 vault) (p := 5000) (rest := []) (by decide +kernel) (by decide +kernel)
    (by decide +kernel) (by decide +kernel) (by decide +kernel) (by decide +kernel) (by decide +kernel) (by decide +kernel)
    (harvest_pays (h := recOf w8 holder) (by decide +kernel) (by decide +kernel)) (by decide +kernel) (ix_writes _ _ _ _)

end Verif.Props
