import Verif.Lemmas.Exact
import Verif.Lemmas.Effect
/-!
# What acceptance of the instructions that call the rewards program implies
-/

namespace Verif

variable {env : Env} {o : Oracle} {ctx : Ctx} {w w' w1 w2 : World} {ix : Ix}

/-- What an accepted stake implies. -/
structure Stakeable (env : Env) (w : World) (ctx : Ctx) (a : StakeTokensAccts) (n l : Nat) (c : Config) (d : Delegation)
    (ts td : TokenAccount) (mi : Mint) : Prop where
  record : a.vaultHolderRewards = vaultRecord env a.config
  vaultAuth : a.vaultPda = env.vaultAuth a.config
  vault : a.vault = c.vault
  pos : 0 < n
  lt : d.staked + n < U64
  signer : ctx.signer a.sourceTokenAccountAuthority = true
  payee : a.stakeAuthority = d.authority
  pay : Payable env w a.config a.stake c d
  fits : Fits c d (d.staked + n) l
  spend : Spendable w a.sourceTokenAccount a.mint a.sourceTokenAccountAuthority ts n
  receives : Receives w c.vault a.mint td n
  mint : mintAt w a.mint = some mi
  source : a.sourceTokenAccountAuthority ≠ a.config ∧ a.sourceTokenAccountAuthority ≠ a.stake
  program : a.config ≠ a.tokenProgram
  apart : d.authority ∉ a.toToken ++ a.toRewards ∨ accrued env w a.config a.stake = 0

theorem tokenTransfer_frozen {source mint dest authority : Key} {signed : Bool} {amount decimals : Nat} {s d : TokenAccount}
    (h : tokenTransfer ctx w source mint dest authority signed amount decimals = .ok w') (hs : (w source).data = .token s)
    (hd : (w dest).data = .token d) : s.frozen = false ∧ d.frozen = false ∧ ∃ m, (w mint).data = .mint m := by
  simp only [tokenTransfer, bind_ok, require_ok, exists_unit, tokenData_ok, mintData_ok, ite_ok, pure_ok] at h
  obtain ⟨s', hs', d', hd', m, hm, ⟨h1, h2⟩, _⟩ := h
  rw [hs] at hs'; rw [hd] at hd'
  cases hs'; cases hd'
  exact ⟨h1, h2, m, hm⟩

theorem Adjusted.data_eq {ck sk k : Key} {D' : Data} {c1 : Config} {d1 d2 : Delegation}
    (A : Adjusted w1 w2 ck sk D' c1 d1 d2) {D : Data} (hD : (w2 k).data = D) (hn : D.del? = none) (hc : ∀ c, D ≠ .config c) :
    (w1 k).data = D := by
  have e1 : k ≠ ck := by
    rintro rfl
    rw [A.config'] at hD; exact hc _ hD.symm
  have e2 : k ≠ sk := by
    rintro rfl
    rw [A.stake'] at hD
    have := A.del'
    rw [hD, hn] at this; cases this
  rw [← hD, A.data' k e1 e2]

theorem stake_inv {a : StakeTokensAccts} {n l lmin : Nat} {c c1 : Config} {d d1 d2 : Delegation} {hr : HolderRewards} {rs rh : Nat}
    {wx w3 : World} {D' : Data} {ts td : TokenAccount} {dec : Nat}
    (S : StakedOk env o ctx w w' a n c d hr rs rh w1 w2 w3 D' c1 d1 d2 ts td)
    (hau : a.stakeAuthority ≠ a.config) (hne : a.sourceTokenAccount ≠ a.vault)
    (hdl : ∀ t, tokenAt w a.sourceTokenAccount = some t → t.delegate ≠ some a.sourceTokenAccountAuthority)
    (hsy : syncEffective wx a.config a.stake l lmin = .ok w2)
    (hwx : wx = w1.setD a.stake ((w1 a.stake).data.setDel
      { d.marked (accNow c (w a.config).lamports) hr.lastAcc with staked := d.staked + n }))
    (htr : tokenTransfer ctx w2 a.sourceTokenAccount a.mint a.vault a.sourceTokenAccountAuthority
      (ctx.signer a.sourceTokenAccountAuthority) n dec = .ok w3) :
    ∃ mi, Stakeable env w ctx a n (max l lmin) c d ts td mi := by
  have H := S.harv
  have O2 : ∀ k, (w2 k).owner = (w k).owner := fun k => by rw [S.adj.owner, H.owner]
  have back : ∀ {k D}, (w2 k).data = D → D.del? = none → (∀ c, D ≠ .config c) → (w k).data = D := fun h1 h2 h3 =>
    (H.data_eq (S.adj.data_eq h1 h2 h3) h2 h3).1
  obtain ⟨f1, f2, m, hm⟩ := tokenTransfer_frozen htr S.transfer.src S.transfer.dst
  have hs0 := tokenAt_data.2 (back S.transfer.src rfl (by simp))
  have hd0 := tokenAt_data.2 (back S.transfer.dst rfl (by simp))
  have hm0 := mintAt_data.2 (back hm rfl (by simp))
  have hdel := hdl ts hs0
  have hauth := S.transfer.auth
  rw [if_neg hdel] at hauth
  obtain ⟨ca, da, Y⟩ := syncEffective_ok hsy
  have F : Fits c d (d.staked + n) (max l lmin) := by
    subst hwx
    refine Y.fits (c0 := c.settled (w a.config).lamports (rs + rh))
      (d0 := { d.marked (accNow c (w a.config).lamports) hr.lastAcc with staked := d.staked + n }) ?_ rfl ?_ rfl rfl
    · rw [World.setD_data, if_neg (Ne.symm H.ne)]; exact H.config_data
    · rw [World.setD_data, if_pos rfl]; exact del?_setDel H.del'
  have o1 := (callOut_ok.1 S.out1).1
  have o2 := (callOut_ok.1 S.out2).1
  refine ⟨m, H.hk_eq, S.vaultPda, S.vault, S.pos, S.lt, S.transfer.signed_eq, H.auth_eq, H.payable S.cO S.sO S.bel hau, F,
    ⟨hs0, by rw [← O2]; exact S.transfer.srcO, S.transfer.mint_eq, f1, hauth.symm, hdel, S.transfer.le⟩,
    ⟨by rw [← S.vault]; exact hd0, by rw [← O2, ← S.vault]; exact S.transfer.dstO, S.transfer.mint_eq', f2, (S.transfer.other hne).1⟩,
    hm0, ⟨fun e => o1 a.sourceTokenAccountAuthority (by simp [StakeTokensAccts.toToken]) (by simp [e]),
      fun e => o1 a.sourceTokenAccountAuthority (by simp [StakeTokensAccts.toToken]) (by simp [e])⟩,
    fun e => o2 a.tokenProgram (by simp [StakeTokensAccts.toRewards]) (by simp [e]), ?_⟩
  by_cases h : d.authority ∈ a.toToken ++ a.toRewards
  · right
    rw [← H.paid S.cO S.sO S.bel]
    exact S.none_due (by rw [H.auth_eq]; exact List.mem_append.1 h)
  · exact Or.inl h

theorem stakeValidator_inv {a : StakeTokensAccts} {n : Nat} (h : validatorStakeTokens env o ctx w a n = .ok w')
    (hau : a.stakeAuthority ≠ a.config) (hne : a.sourceTokenAccount ≠ a.vault)
    (hdl : ∀ t, tokenAt w a.sourceTokenAccount = some t → t.delegate ≠ some a.sourceTokenAccountAuthority) :
    ∃ c v ts td mi, validatorAt w a.stake = some v ∧
      Stakeable env w ctx a n (max v.total v.min) c v.del ts td mi := by
  simp only [validatorStakeTokens, bind_ok, require_ok, exists_unit, unpackConfig_ok, unpackValidator_ok,
    unpackToken_ok, unpackMint_ok, readDel_ok, addU64_ok, writeDel, setData_ok] at h
  obtain ⟨hcO, c, hc, hsO, _, s, hs, hsk, w1, hw1, hpda, hvault, _, tv, htv, hmint, _, m, hm, hpos, d, hd, _, ⟨hlt, rfl⟩,
    wx, ⟨_, rfl⟩, w2, hw2, ho1, w3, hw3, ho2, hdep⟩ := h
  obtain ⟨c0, d0, hr, rs, rh, H⟩ := harvest_ok hw1
  obtain ⟨c1, d2, S⟩ := syncEffective_ok hw2
  obtain ⟨ts, td, T⟩ := tokenTransfer_ok hw3
  obtain ⟨rfl, hv'⟩ := H.validator' hs
  have hcc : c0 = c := by have := H.config; rw [hc] at this; simpa using this.symm
  subst hcc
  have hd' := hd
  rw [hv'] at hd'
  simp only [Data.del?, Option.some.injEq] at hd'
  subst hd'
  have A := adjusted_of_synced S H.ne H.del' (del?_setDel H.del') rfl
  obtain ⟨mi, X⟩ := stake_inv (l := s.total) (lmin := s.min)
    (⟨hcO, hsO, hsk ▸ (by simp [belongs]), H, hpda, hvault, hpos, hlt, A, rfl, rfl, rfl, T, hdep, ho1, ho2⟩ :
      StakedOk env o ctx w w' a n c0 s.del hr rs rh w1 w2 w3 _ c1 _ _ ts td) hau hne hdl hw2 rfl hw3
  exact ⟨c0, s, ts, td, mi, validatorAt_eq.2 ⟨hsO, hs⟩, X⟩

theorem stakeSolStaker_inv {a : StakeTokensAccts} {n : Nat} (h : solStakerStakeTokens env o ctx w a n = .ok w')
    (hau : a.stakeAuthority ≠ a.config) (hne : a.sourceTokenAccount ≠ a.vault)
    (hdl : ∀ t, tokenAt w a.sourceTokenAccount = some t → t.delegate ≠ some a.sourceTokenAccountAuthority) :
    ∃ c v ts td mi, solStakerAt w a.stake = some v ∧ td.owner = env.vaultAuth a.config ∧
      Stakeable env w ctx a n v.lamports c v.del ts td mi := by
  simp only [solStakerStakeTokens, bind_ok, require_ok, exists_unit, unpackConfig_ok, unpackSolStaker_ok,
    unpackToken_ok, unpackMint_ok, readDel_ok, addU64_ok, writeDel, setData_ok] at h
  obtain ⟨hcO, c, hc, hsO, _, s, hs, hsk, w1, hw1, hpda, hvault, _, tv, htv, hown, hmint, _, m, hm, hpos, d, hd, _, ⟨hlt, rfl⟩,
    wx, ⟨_, rfl⟩, w2, hw2, ho1, w3, hw3, ho2, hdep⟩ := h
  obtain ⟨c0, d0, hr, rs, rh, H⟩ := harvest_ok hw1
  obtain ⟨c1, d2, S⟩ := syncEffective_ok hw2
  obtain ⟨ts, td, T⟩ := tokenTransfer_ok hw3
  obtain ⟨rfl, hv'⟩ := H.solStaker' hs
  have hcc : c0 = c := by have := H.config; rw [hc] at this; simpa using this.symm
  subst hcc
  have hd' := hd
  rw [hv'] at hd'
  simp only [Data.del?, Option.some.injEq] at hd'
  subst hd'
  have A := adjusted_of_synced S H.ne H.del' (del?_setDel H.del') rfl
  obtain ⟨mi, X⟩ := stake_inv (l := s.lamports) (lmin := 0)
    (⟨hcO, hsO, hsk ▸ (by simp [belongs]), H, hpda, hvault, hpos, hlt, A, rfl, rfl, rfl, T, hdep, ho1, ho2⟩ :
      StakedOk env o ctx w w' a n c0 s.del hr rs rh w1 w2 w3 _ c1 _ _ ts td) hau hne hdl hw2 rfl hw3
  rw [Nat.max_zero] at X
  have e : tv = td := by
    have h1 := tokenAt_data.1 X.receives.token
    rw [← hvault, ← H.foreign hcO hsO (by rw [hvault, X.receives.owned]; decide), htv] at h1
    cases h1; rfl
  exact ⟨c0, s, ts, td, mi, solStakerAt_eq.2 ⟨hsO, hs⟩, e ▸ hown.trans hpda, X⟩

theorem Inv.foreign_token (I : Inv env w) {k : Key} {t : TokenAccount} (h : tokenAt w k = some t) : (w k).owner ≠ progId := by
  intro hO
  have hs := I.shape k hO
  have hd := tokenAt_data.1 h
  cases k <;> simp only [Shape] at hs <;> simp [hd, Data.zeroed] at hs

/-- What an accepted withdrawal implies. -/
structure Unstakeable (env : Env) (o : Oracle) (w : World) (ctx : Ctx) (a : UnstakeTokensAccts) (n l : Nat) (c : Config) (d : Delegation)
    (after : TokenAccount → TokenAccount) (tv td : TokenAccount) (mi : Mint) : Prop where
  record : a.vaultHolderRewards = vaultRecord env a.config
  vaultAuth : a.vaultPda = env.vaultAuth a.config
  vault : a.vault = c.vault
  signer : ctx.signer a.stakeAuthority = true
  payee : a.stakeAuthority = d.authority
  pay : Payable env w a.config a.stake c d
  cooldown : d.cooldown ≤ o.now
  le : n ≤ d.staked
  limit : n ≤ d.staked * c.maxBps / maxBasisPoints
  fits : Fits c d (d.staked - n) l
  token : tokenAt w c.vault = some tv
  owned : (w c.vault).owner = tokenId
  mint_eq : tv.mint = a.mint
  mint : mintAt w a.mint = some mi
  left : (after tv).mint = a.mint ∧ (after tv).frozen = false ∧ (after tv).owner = env.vaultAuth a.config ∧ n ≤ (after tv).amount
  receives : Receives w a.destinationTokenAccount a.mint td n
  program : a.config ≠ a.tokenProgram
  apart : d.authority ∉ a.toRewards ++ a.toToken ∨ accrued env w a.config a.stake = 0

theorem unstake_inv (I : Inv env w) {a : UnstakeTokensAccts} {n : Nat} {c : Config} {ok : TokenAccount → Prop}
    {after : TokenAccount → TokenAccount} (h : unstakeTokens env o ctx w a n = .ok w') (hc : configAt w a.config = some c)
    (hau : a.stakeAuthority ≠ a.config)
    (D : Ready o.withdraw w
      (vaultCall env a.config c a.holderRewardsPool a.holderRewardsPoolTokenAccount a.mint n) ok after)
    (hok : ∀ t, tokenAt w c.vault = some t → ok t)
    (hdl : ∀ t, tokenAt w c.vault = some t → (after t).delegate ≠ some (env.vaultAuth a.config))
    (hdst : a.destinationTokenAccount ∉
      (vaultCall env a.config c a.holderRewardsPool a.holderRewardsPoolTokenAccount a.mint n).accounts)
    (hmk : a.mint ∉ (vaultCall env a.config c a.holderRewardsPool a.holderRewardsPoolTokenAccount a.mint n).accounts) :
    ∃ d l tv td mi, ((∃ v, validatorAt w a.stake = some v ∧ d = v.del ∧ l = max v.total v.min) ∨
        (∃ s, solStakerAt w a.stake = some s ∧ d = s.del ∧ l = s.lamports)) ∧
      Unstakeable env o w ctx a n l c d after tv td mi := by
  have hc0 := (configAt_eq.1 hc).2
  simp only [unstakeTokens, bind_ok, require_ok, exists_unit, unpackConfig_ok, unpackToken_ok, unpackMint_ok,
    readDel_ok, subU64_ok, writeDel, setData_ok, mulDivU64_ok, Prod.exists] at h
  obtain ⟨hcO, c', hc', hvault, hdest, _, tv, htv, hpda, hsO, _, k, l, lmin, hview, hsk, d, hd, hsig, hauth, hmint, _, m, hm, w1, hw1,
    d', hd', hcool, hle, _, ⟨_, rfl⟩, hlim, _, ⟨_, rfl⟩, wx, ⟨_, rfl⟩, w2, hw2, ho1, w3, hw3, ho2, hw'⟩ := h
  obtain rfl : c' = c := by rw [hc0] at hc'; simpa using hc'.symm
  obtain ⟨c0, d0, hr, rs, rh, H⟩ := harvest_ok hw1
  obtain ⟨c1, d2, S⟩ := syncEffective_ok hw2
  obtain ⟨ts, td, T⟩ := tokenTransfer_ok hw'
  have hcc : c0 = c' := by have := H.config; rw [hc'] at this; simpa using this.symm
  subst hcc
  have hdd : d0 = d := by have := H.del; rw [hd] at this; simpa using this.symm
  subst hdd
  have : d' = d0.marked (accNow c0 (w a.config).lamports) hr.lastAcc := by
    rw [H.del'] at hd'; exact (Option.some.inj hd').symm
  subst this
  have hbel : belongs a.stake a.config := by
    rw [hsk]; rcases unstakeView_ok hview with ⟨s, _, rfl, _⟩ | ⟨s, _, rfl, _⟩ <;> simp [belongs]
  have F : Fits c0 d0 (d0.staked - n) (max l lmin) := by
    refine S.fits (c0 := c0.settled (w a.config).lamports (rs + rh))
      (d0 := { d0.marked (accNow c0 (w a.config).lamports) hr.lastAcc with
        staked := d0.staked - n, cooldown := satAdd o.now c0.cooldownTime }) ?_ rfl ?_ rfl rfl
    · rw [World.setD_data, if_neg (Ne.symm H.ne)]; exact H.config_data
    · rw [World.setD_data, if_pos rfl]; exact del?_setDel H.del'
  have A := adjusted_of_synced S H.ne H.del' (del?_setDel H.del') rfl
  have O2 : ∀ k, (w2 k).owner = (w k).owner := fun k => by rw [A.owner, H.owner]
  have back : ∀ {k D}, (w2 k).data = D → D.del? = none → (∀ c, D ≠ .config c) → (w k).data = D := fun h1 h2 h3 =>
    (H.data_eq (A.data_eq h1 h2 h3) h2 h3).1
  have hpk : ∀ {k}, (w k).owner ≠ progId → (w2 k).data = (w k).data := fun {k} hk => by
    have e1 : k ≠ a.config := by rintro rfl; exact hk hcO
    have e2 : k ≠ a.stake := by rintro rfl; exact hk hsO
    rw [A.data' k e1 e2, H.data' k e1 e2]
  have P := H.payable hcO hsO hbel hau
  obtain ⟨hx, hhx⟩ := Option.isSome_iff_exists.1 P.record
  have hcall : a.call n = vaultCall env a.config c0 a.holderRewardsPool a.holderRewardsPoolTokenAccount a.mint n := by
    unfold UnstakeTokensAccts.call vaultCall
    rw [H.hk_eq, hpda, hvault]; rfl
  rw [hcall] at hw3
  have hpool := D.pool
  have hptO := D.poolToken
  simp only [vaultCall] at hpool hptO
  have htv0 : tokenAt w c0.vault = some tv := by rw [← hvault]; exact tokenAt_data.2 htv
  have hmi : mintAt w a.mint = some m := mintAt_data.2 hm
  have hvO := I.foreign_token htv0
  obtain ⟨w3', hw3', ht3, O3, same3, _⟩ := D.accepts w2 tv (by
      intro k hk
      have hk' : (w k).owner ≠ progId := by
        simp only [vaultCall, List.mem_cons, List.not_mem_nil, or_false] at hk
        rcases hk with rfl | rfl | rfl | rfl
        · rw [hpool]; decide
        · rw [hptO]; decide
        · exact I.foreign_holder hhx
        · exact I.foreign_mint hmi
      refine ⟨hpk hk', O2 k, ?_⟩
      rw [A.lamports, H.gain (by rintro rfl; exact hk' hcO)]; omega)
    (O2 _) (tokenAt_data.2 ((hpk hvO).trans (tokenAt_data.1 htv0))) (hok tv htv0)
  obtain rfl : w3' = w3 := by rw [hw3] at hw3'; cases hw3'; rfl
  have ets : ts = after tv := by
    have h1 := T.src
    rw [hvault] at h1
    have h2 := tokenAt_data.1 ht3
    simp only [vaultCall] at h2
    rw [h1] at h2; cases h2; rfl
  subst ets
  have hdl' := hdl tv htv0
  have hd0 : (w a.destinationTokenAccount).data = .token td := back (by rw [← same3 _ hdst]; exact T.dst) rfl (by simp)
  obtain ⟨f1, f2, _⟩ := tokenTransfer_frozen hw' T.src T.dst
  have hau' := T.auth
  rw [hpda, if_neg hdl'] at hau'
  have o1 := (callOut_ok.1 ho1).1
  have L3 : ∀ k, k ∉ a.toRewards → (w3' k).lamports = (w2 k).lamports := by
    intro k hk
    rw [same3 k]
    rw [← hcall]
    intro hm
    apply hk
    simp only [RewardsCall.accounts, UnstakeTokensAccts.call, List.mem_cons, List.not_mem_nil, or_false] at hm
    rcases hm with rfl | rfl | rfl | rfl | rfl <;> simp [UnstakeTokensAccts.toRewards]
  have hap : d0.authority ∉ a.toRewards ++ a.toToken ∨ accrued env w a.config a.stake = 0 := by
    by_cases h : d0.authority ∈ a.toRewards ++ a.toToken
    · right
      rw [← H.paid hcO hsO hbel]
      rw [← H.auth_eq] at h
      have o2 := (callOut_ok.1 ho2).1
      by_cases h1 : a.stakeAuthority ∈ a.toRewards
      · refine H.none_due ho1 h1 (A.lamports _) rfl fun k hk hne => ?_
        rw [A.lamports, H.gain (fun e => o1 k hk (by simp [e])), if_neg hne, Nat.add_zero]
      · have h2 := (List.mem_append.1 h).resolve_left h1
        refine H.none_due ho2 h2 ((L3 _ h1).trans (A.lamports _)) (by rw [World.known, if_neg h1]) fun k hk hne => ?_
        unfold World.known
        split_ifs with hin
        · rfl
        · rw [L3 k hin, A.lamports, H.gain (fun e => o2 k hk (by simp [e])), if_neg hne, Nat.add_zero]
    · exact Or.inl h
  refine ⟨d0, max l lmin, tv, td, m, ?_, H.hk_eq, hpda, hvault, hsig, H.auth_eq, P, hcool, hle, hlim, F, htv0, ?_, hmint, hmi,
    ⟨T.mint_eq, f1, hau'.symm, T.le⟩, ⟨tokenAt_data.2 hd0, ?_, T.mint_eq', f2, (T.other hdest).1⟩,
    fun e => o1 a.tokenProgram (by simp [UnstakeTokensAccts.toRewards]) (by simp [e]), hap⟩
  · rcases unstakeView_ok hview with ⟨s, hs, _, rfl, rfl⟩ | ⟨s, hs, _, rfl, rfl⟩
    · exact Or.inl ⟨s, validatorAt_eq.2 ⟨hsO, hs⟩, (H.validator' hs).1, rfl⟩
    · exact Or.inr ⟨s, solStakerAt_eq.2 ⟨hsO, hs⟩, (H.solStaker' hs).1, Nat.max_zero _⟩
  · have := T.srcO; rw [hvault, O3, O2] at this; exact this
  · have := T.dstO; rw [O3, O2] at this; exact this

theorem harvestHolder_inv (I : Inv env w) {a : HarvestHolderRewardsAccts} {p : Nat} (h : harvestHolderRewards env o w a = .ok w')
    (hva : (w (env.vaultAuth a.config)).owner = progId)
    (hcall : a.config ≠ a.mint ∧ a.config ∉
      (harvestCall env a.config a.holderRewardsPool a.holderRewardsPoolTokenAccount a.mint).accounts)
    (Y : Pays o.harvestRewards w (harvestCall env a.config a.holderRewardsPool a.holderRewardsPoolTokenAccount a.mint) p) :
    ∃ c t, configAt w a.config = some c ∧ a.vault = c.vault ∧ a.vaultPda = env.vaultAuth a.config ∧
      a.vaultHolderRewards = vaultRecord env a.config ∧ tokenAt w c.vault = some t ∧ t.mint = a.mint ∧
      (w (vaultRecord env a.config)).owner = rewardsId ∧
      env.rentMin 0 ≤ (w (env.vaultAuth a.config)).lamports + p ∧
      (w (env.vaultAuth a.config)).lamports + p + (w a.config).lamports < 2 ^ 64 := by
  simp only [harvestHolderRewards, bind_ok, require_ok, exists_unit, unpackConfig_ok, unpackToken_ok,
    createVaultPda_ok, setData_ok, transferExcess] at h
  obtain ⟨hcO, c, hc, hvault, _, tv, htv, hmint, vs, ⟨hcurve, rfl⟩, hpda, hhO, hhk, c1, hc1, w1, ⟨_, rfl⟩, w2, hw2, w4,
    ⟨hrent, hsup, _⟩, _⟩ := h
  have hcfg := configAt_eq.2 ⟨hcO, hc⟩
  obtain ⟨_, b2⟩ := bump_facts I hcfg
  have hpda := hpda.trans b2
  have hne := vaultAuth_ne (env := env) a.config
  rw [hpda] at hhk
  rw [hhk, hpda] at hw2
  obtain ⟨w2', hw2', hpay, O2, same2, _⟩ := Y.accepts (w.setD a.config (.config c1)) (by
    intro k hk
    have : k ≠ a.config := by rintro rfl; rcases hk with h | h; exacts [hcall.1 h, hcall.2 h]
    unfold World.setD; rw [World.set_apply, if_neg this])
  have e : w2' = w2 := by
    have : o.harvestRewards (w.setD a.config (.config c1)) (harvestCall env a.config a.holderRewardsPool
      a.holderRewardsPoolTokenAccount a.mint) = .ok w2 := hw2
    rw [hw2'] at this; cases this; rfl
  subst e
  have hpay : w2' (env.vaultAuth a.config) = _ := hpay
  have hw1va : w.setD a.config (.config c1) (env.vaultAuth a.config) = w (env.vaultAuth a.config) := by
    unfold World.setD; rw [World.set_apply, if_neg hne.symm]
  have hvd : (w (env.vaultAuth a.config)).data = .bytes [] := I.shape _ hva
  have hlen : (w2' (env.vaultAuth a.config)).data.len = 0 := by
    rw [hpay]; show ((w.setD a.config (.config c1)) (env.vaultAuth a.config)).data.len = 0
    rw [hw1va, hvd]; rfl
  have hlam : (w2' (env.vaultAuth a.config)).lamports = (w (env.vaultAuth a.config)).lamports + p := by
    rw [hpay]; show ((w.setD a.config (.config c1)) (env.vaultAuth a.config)).lamports + p = _
    rw [hw1va]
  have hcl : (w2' a.config).lamports = (w a.config).lamports := by rw [same2 _ hcall.2, World.setD_lamports]
  rw [hpda, hlen, hlam] at hrent
  rw [hpda, hlam, hcl] at hsup
  exact ⟨c, tv, hcfg, hvault, hpda, hhk, by rw [← hvault]; exact tokenAt_data.2 htv, hmint, by rw [hhk] at hhO; exact hhO, hrent,
    hsup.resolve_left (Ne.symm hne)⟩

end Verif
