import Verif.Lemmas.LiveInit
import Verif.Lemmas.LiveSync
import Verif.Lemmas.Hand
import Verif.Lemmas.Invert
/-!
# What acceptance of an instruction implies, in terms of the accounts
-/

namespace Verif

variable {env : Env} {o : Oracle} {ctx : Ctx} {w w' : World} {ix : Ix}

theorem eligible_fits {current last balance r : Nat} (h : eligibleRewards current last balance = .ok r) :
    growth last current * balance < U128 := by
  unfold eligibleRewards at h
  rw [show wrapSub current last = growth last current from rfl] at h
  by_cases h0 : growth last current = 0
  · rw [h0, Nat.zero_mul]; decide
  · simp only [if_neg h0] at h
    exact (mulDivU64_ok.1 h).1.1

/-- A settlement that went through could be settled. -/
theorem Harvested.payable {ck hk auth sk : Key} {c : Config} {d : Delegation} {h : HolderRewards} {rs rh : Nat}
    (H : Harvested env w w' ck hk auth (env.vaultAuth ck) sk none c d h rs rh) (hcO : (w ck).owner = progId)
    (hsO : (w sk).owner = progId) (hb : belongs sk ck) (hne : auth ≠ ck) : Payable env w ck sk c d := by
  have hp := H.paid hcO hsO hb
  have hk := H.hk_eq
  have hh := H.holder
  rw [hk] at hh
  have hh' : holderAt w (vaultRecord env ck) = some h := holderAt_data.2 hh
  have hacc : holderAcc env ck w = h.lastAcc := by unfold holderAcc; rw [hh', Option.map_some, Option.getD_some]
  refine ⟨configAt_eq.2 ⟨hcO, H.config⟩, stakeAt_eq.2 ⟨hsO, H.del⟩, hb, by rw [hh']; rfl, eligible_fits H.rs_eq, ?_, ?_,
    by rw [← H.auth_eq]; exact hne, ?_⟩
  · rw [hacc]; exact eligible_fits H.rh_eq
  · rw [← hp]; exact H.rent
  · have := H.auth_lt
    simp only [authAfterKeeper, keeperReward, reduceCtorEq, if_false, Nat.sub_zero] at this
    rw [← hp, ← H.auth_eq]
    exact this

theorem Synced.fits {ck sk : Key} {l lmin n : Nat} {c c0 c1 : Config} {d d0 d1 : Delegation}
    (S : Synced w w' ck sk l lmin c1 d1) (hc : (w ck).data = .config c0) (he : c0.effTotal = c.effTotal)
    (hd : (w sk).data.del? = some d0) (hde : d0.effective = d.effective) (hs : d0.staked = n) :
    Fits c d n (max l lmin) := by
  have e1 : c1 = c0 := by have := S.config; rw [hc] at this; simpa using this.symm
  have e2 : d1 = d0 := by have := S.del; rw [hd] at this; simpa using this.symm
  subst e1 e2
  have := S.lt
  rw [he, hde, hs] at this
  exact ⟨S.cap_lt, this⟩

theorem override_inv {a : ValidatorOverrideStakedLamportsAccts} {n : Nat}
    (h : validatorOverrideStakedLamports env ctx w a n = .ok w') (hne : a.validatorStakeAuthority ≠ a.config) :
    a.vaultHolderRewards = vaultRecord env a.config ∧ ∃ c v, validatorAt w a.validatorStake = some v ∧
      c.authority ≠ .default ∧ a.configAuthority = c.authority ∧ ctx.signer a.configAuthority = true ∧
      a.validatorStakeAuthority = v.del.authority ∧ Payable env w a.config a.validatorStake c v.del ∧
      Fits c v.del v.del.staked (max v.total n) := by
  simp only [validatorOverrideStakedLamports, bind_ok, require_ok, exists_unit, unpackConfig_ok, unpackValidator_ok,
    setData_ok] at h
  obtain ⟨hcO, c, hc, hset, hauth, hsig, hsO, _, s, hs, hsk, w1, hw1, s1, hs1, w2, ⟨_, rfl⟩, hw'⟩ := h
  obtain ⟨c0, d0, hr, rs, rh, H⟩ := harvest_ok hw1
  obtain ⟨rfl, hv'⟩ := H.validator' hs
  have hcc : c0 = c := by have := H.config; rw [hc] at this; simpa using this.symm
  subst hcc
  rw [hv'] at hs1; cases hs1
  obtain ⟨c1, d2, S⟩ := syncEffective_ok hw'
  have hbel : belongs a.validatorStake a.config := by rw [hsk]; simp [belongs]
  refine ⟨H.hk_eq, c0, s, validatorAt_eq.2 ⟨hsO, hs⟩, hset, hauth, hsig, H.auth_eq, H.payable hcO hsO hbel hne,
    S.fits (d0 := s.del.marked (accNow c0 (w a.config).lamports) hr.lastAcc)
      (c0 := c0.settled (w a.config).lamports (rs + rh)) ?_ rfl ?_ rfl rfl⟩
  · rw [World.setD_data, if_neg (Ne.symm H.ne)]; exact H.config_data
  · rw [World.setD_data, if_pos rfl]; rfl

/-- A claim that can be settled after another settlement could be settled before it. -/
theorem Payable.before {ck hk auth sk k : Key} {c c1 : Config} {d e : Delegation} {h : HolderRewards}
    {rs rh : Nat} (H : Harvested env w w' ck hk auth (env.vaultAuth ck) sk none c d h rs rh) (I' : Inv env w')
    (hcO : (w ck).owner = progId) (hau : auth ≠ ck) (P : Payable env w' ck k c1 e) (hne : k ≠ sk) :
    Payable env w ck k c e ∧ accrued env w' ck k = accrued env w ck k := by
  obtain ⟨hcO', hc', hsO, hd, hkc⟩ := P.facts
  have S := H.settled (by simp) (fun e => absurd e hau)
  have hst : stakeAt w k = some e := by rw [← stakeAt_congr (H.stakeAt_other hkc hne)]; exact P.stake
  have hcfg : configAt w ck = some c := configAt_eq.2 ⟨hcO, H.config⟩
  have hacc := H.holderAcc' ck
  have e1 : accrued env w' ck k = accrued env w ck k := by
    rw [accrued_settled S I'.wf hcO', dueAt_some P.stake P.belongs, hacc, accrued_eq hcfg hst P.belongs]
  have hcfg' := H.configAt' hcO
  have hcc : c1 = c.settled (w ck).lamports (rs + rh) := by
    have := P.config; rw [hcfg'] at this; exact (Option.some.inj this).symm
  subst hcc
  have e2 : currentAcc (c.settled (w ck).lamports (rs + rh)) (w' ck).lamports = currentAcc c (w ck).lamports :=
    (S.accNow I'.wf hc').1
  have hlc : (w' ck).lamports ≤ (w ck).lamports := by
    rw [H.lamports' ck, if_neg (Ne.symm hau), if_pos rfl]; omega
  have f1 := P.funds
  have r1 := P.room
  have g1 := H.gain P.payee
  have x1 := P.fitsStake
  have x2 := P.fitsHolder
  rw [e2] at x1
  rw [hacc] at x2
  rw [e1] at f1 r1
  refine ⟨⟨hcfg, hst, P.belongs, ?_, x1, x2, by omega, P.payee, by omega⟩, e1⟩
  obtain ⟨x, hx⟩ := Option.isSome_iff_exists.1 P.record
  have hx' := holderAt_data.1 hx
  have h1 : vaultRecord env ck ≠ ck := by intro e; rw [e, hc'] at hx'; cases hx'
  have h2 : vaultRecord env ck ≠ sk := by
    intro e; have := H.stake'; rw [← e, hx'] at this
    have y := H.del
    rw [← e] at y
    have z := congrArg Data.del? this
    rw [del?_setDel y] at z
    cases z
  rw [holderAt_data.2 ((H.data' _ h1 h2).symm.trans hx')]; rfl

theorem move_inv (I : Inv env w) {a : SolStakerMoveTokensAccts} {n : Nat}
    (h : solStakerMoveTokens env ctx w a n = .ok w') (hau : a.solStakerAuthority ≠ a.config) :
    a.vaultHolderRewards = vaultRecord env a.config ∧ ctx.signer a.solStakerAuthority = true ∧
      a.destinationSolStakerStake ≠ a.sourceSolStakerStake ∧ ∃ c s t,
      solStakerAt w a.sourceSolStakerStake = some s ∧ solStakerAt w a.destinationSolStakerStake = some t ∧
      s.del.authority = a.solStakerAuthority ∧ t.del.authority = a.solStakerAuthority ∧
      Payable env w a.config a.sourceSolStakerStake c s.del ∧ Payable env w a.config a.destinationSolStakerStake c t.del ∧
      accrued env w a.config a.sourceSolStakerStake + accrued env w a.config a.destinationSolStakerStake +
        env.rentMin configLen ≤ (w a.config).lamports ∧
      (w a.solStakerAuthority).lamports + accrued env w a.config a.sourceSolStakerStake +
        accrued env w a.config a.destinationSolStakerStake < 2 ^ 64 ∧
      n ≤ s.del.staked ∧ t.del.staked + n < 2 ^ 64 ∧
      c.effTotal - s.del.effective + min (s.del.staked - n) (cap s.lamports) - t.del.effective +
        min (t.del.staked + n) (cap t.lamports) < 2 ^ 64 ∧
      cap s.lamports < 2 ^ 64 ∧ cap t.lamports < 2 ^ 64 := by
  simp only [solStakerMoveTokens, bind_ok, require_ok, exists_unit, unpackConfig_ok, unpackSolStaker_ok,
    readDel_ok, addU64_ok, subU64_ok, writeDel, setData_ok] at h
  obtain ⟨hcO, _, _, hsig, hsO, _, s, hs, hsk, hauth, w1, hw1, htO, _, hne, t, ht, htk, w2, hw2, ds, hds, dt, hdt, hauth',
    _, ⟨hle, rfl⟩, _, ⟨hlt, rfl⟩, w3, ⟨_, rfl⟩, w4, ⟨_, rfl⟩, w5, hw5, hw'⟩ := h
  obtain ⟨c, d0, hr, rs, rh, H⟩ := harvest_ok hw1
  obtain ⟨c', d0', hr', rs', rh', H'⟩ := harvest_ok hw2
  obtain ⟨rfl, hs1⟩ := H.solStaker' hs
  obtain ⟨rfl, ht2⟩ := H'.solStaker' ht
  have hkc := H'.ne
  have hkc0 := H.ne
  have ht0 : (w a.destinationSolStakerStake).data = .solStaker t := by rw [← H.data' _ hkc hne]; exact ht
  have hs2 := H'.data' _ hkc0 (Ne.symm hne)
  rw [hs1] at hs2
  have hds' : ds = s.del.marked (accNow c (w a.config).lamports) hr.lastAcc := by
    rw [hs2] at hds; exact (Option.some.inj hds).symm
  have hdt' : dt = t.del.marked (accNow c' (w1 a.config).lamports) hr'.lastAcc := by
    rw [ht2] at hdt; exact (Option.some.inj hdt).symm
  subst hds' hdt'
  have bs : belongs a.sourceSolStakerStake a.config := by rw [hsk]; simp [belongs]
  have bt : belongs a.destinationSolStakerStake a.config := by rw [htk]; simp [belongs]
  have I1 := harvest_inv I H hcO hsO bs
  have hcO1 : (w1 a.config).owner = progId := by rw [H.owner]; exact hcO
  have Ps := H.payable hcO hsO bs hau
  have Pt1 := H'.payable hcO1 htO bt hau
  obtain ⟨Pt, ea⟩ := Pt1.before H I1 hcO hau hne
  have hp := H.paid hcO hsO bs
  have hp' := H'.paid hcO1 htO bt
  have f1 := Pt1.funds
  have r1 := Pt1.room
  have ta : t.del.authority = a.solStakerAuthority := H'.auth_eq.symm
  rw [ea, ta, H.gain hau, if_pos rfl] at r1
  have hlc : (w1 a.config).lamports = (w a.config).lamports - (rs + rh) := by
    rw [H.lamports', if_neg (Ne.symm hau), if_pos rfl]
  rw [ea, hlc] at f1
  have hr0 := H.rent
  obtain ⟨ca, da, S⟩ := syncEffective_ok hw5
  obtain ⟨cb, db, S'⟩ := syncEffective_ok hw'
  have hcc' : c' = c.settled (w a.config).lamports (rs + rh) := by
    have := H'.config; rw [H.config_data] at this; simpa using this.symm
  -- the two recomputations
  have eca : ca = c'.settled (w1 a.config).lamports (rs' + rh') := by
    have := S.config
    rw [World.setD_data, if_neg (Ne.symm hkc), World.setD_data, if_neg (Ne.symm hkc0), H'.config_data] at this
    simpa using this.symm
  have eda : da = { s.del.marked (accNow c (w a.config).lamports) hr.lastAcc with staked := s.del.staked - n } := by
    have := S.del
    rw [World.setD_data, if_neg (Ne.symm hne), World.setD_data, if_pos rfl, hs2] at this
    exact (Option.some.inj this).symm
  have ecb : cb = { ca with effTotal := ca.effTotal - da.effective + min da.staked (cap (max s.lamports 0)) } := by
    have := S'.config; rw [S.config'] at this; simpa using this.symm
  have edb : db.effective = t.del.effective ∧ db.staked = t.del.staked + n := by
    have := S'.del
    rw [S.data' _ hkc hne, World.setD_data, if_pos rfl, World.setD_data, if_neg hne, ht2] at this
    rw [← Option.some.inj this]
    exact ⟨rfl, rfl⟩
  have l1 := S.cap_lt
  have l2 := S'.cap_lt
  have l3 := S'.lt
  rw [Nat.max_zero] at l1 l2 l3
  rw [ecb, Nat.max_zero, edb.1, edb.2, eca, eda, hcc'] at l3
  refine ⟨H.hk_eq, hsig, hne, c, s, t, solStakerAt_eq.2 ⟨hsO, hs⟩, solStakerAt_eq.2 ⟨by rw [← H.owner]; exact htO, ht0⟩,
    hauth, ta, Ps, Pt, by omega, by omega, hle, hlt, l3, l1, l2⟩

theorem slashDelegation_inv {view : World} {ck sk mk vk va tp : Key} {n : Nat} {d : Delegation}
    (hd : (w sk).data.del? = some d) (h : slashDelegation ctx view w ck sk mk vk va tp n = .ok w')
    (hst : 0 < d.staked) :
    tp = tokenId ∧ 0 < n ∧ ∃ t m, (w vk).data = .token t ∧ (w mk).data = .mint m ∧ t.frozen = false ∧
      min n d.staked ≤ t.amount ∧ t.mint = mk ∧ (t.delegate ≠ some va → t.owner = va) ∧ (w vk).owner = tokenId ∧
      (w mk).owner = tokenId ∧ min n d.staked ≤ m.supply := by
  simp only [slashDelegation, bind_ok, require_ok, exists_unit, readDel_ok, subU64_ok, writeDel, setData_ok, ite_ok,
    unpackMint_ok] at h
  obtain ⟨htp, hn, d', hd', _, ⟨_, rfl⟩, w1, ⟨_, rfl⟩, h⟩ := h
  rw [hd] at hd'; cases hd'
  rcases h with ⟨hp, _, m0, hm0, _, hb⟩ | ⟨hp, _⟩
  swap
  · exact absurd (by omega) hp
  simp only [tokenBurn, bind_ok, require_ok, exists_unit, tokenData_ok, mintData_ok] at hb
  obtain ⟨t, ht, m, hm, hf, hle, ⟨hm1, _⟩, hauth, ⟨ho1, ho2⟩, _, hsup, _⟩ := hb
  have key : ∀ {k : Key} {D : Data}, ((w.setD sk ((w sk).data.setDel { d with staked := d.staked - min n d.staked })) k).data = D →
      D.del? = none → (w k).data = D := by
    intro k D h1 h2
    rw [World.setD_data] at h1
    split_ifs at h1 with e
    · have h3 := del?_setDel (x := { d with staked := d.staked - min n d.staked }) hd
      rw [h1, h2] at h3; cases h3
    · exact h1
  refine ⟨htp, hn, t, m, key ht rfl, key hm rfl, hf, hle, hm1, fun h => ?_, by simpa using ho1, by simpa using ho2, hsup⟩
  rw [if_neg h] at hauth; exact hauth.symm

/-- What an accepted slash of a stake that is not empty implies. -/
structure Slashable (env : Env) (w : World) (ctx : Ctx) (a : SlashAccts) (n l : Nat) (c : Config) (d : Delegation)
    (t : TokenAccount) (mi : Mint) : Prop where
  record : a.vaultHolderRewards = vaultRecord env a.config
  vaultAuth : a.vaultAuthority = env.vaultAuth a.config
  program : a.tokenProgram = tokenId
  pos : 0 < n
  set : c.slashAuthority ≠ .default
  auth : a.slashAuthority = c.slashAuthority
  signer : ctx.signer a.slashAuthority = true
  vault : a.vault = c.vault
  payee : a.stakeAuthority = d.authority
  pay : Payable env w a.config a.stake c d
  spend : Spendable w c.vault a.mint (env.vaultAuth a.config) t (min n d.staked)
  mint : mintAt w a.mint = some mi
  mintO : (w a.mint).owner = tokenId
  supply : min n d.staked ≤ mi.supply
  fits : Fits c d (d.staked - min n d.staked) l
  apart : d.authority ∉ [c.vault, a.mint, env.vaultAuth a.config] ∨ accrued env w a.config a.stake = 0

theorem slash_inv (I : Inv env w) {a : SlashAccts} {n l lmin : Nat} {c : Config} {d : Delegation} {w1 wx : World}
    (hcO : (w a.config).owner = progId) (hc : (w a.config).data = .config c) (hsO : (w a.stake).owner = progId)
    (hd : (w a.stake).data.del? = some d) (bel : belongs a.stake a.config)
    (hva : a.vaultAuthority = .vaultPda a.config c.bump)
    (hw1 : harvest env w a.config a.vaultHolderRewards a.stakeAuthority a.vaultAuthority a.stake none = .ok w1)
    (hset : c.slashAuthority ≠ .default) (hauth : a.slashAuthority = c.slashAuthority)
    (hsig : ctx.signer a.slashAuthority = true) (hvault : a.vault = c.vault)
    (hsl : slashDelegation ctx w w1 a.config a.stake a.mint a.vault a.vaultAuthority a.tokenProgram n = .ok wx)
    (hsy : syncEffective wx a.config a.stake l lmin = .ok w')
    (hau : a.stakeAuthority ≠ a.config) (hst : 0 < d.staked)
    (hdl : ∀ t, tokenAt w a.vault = some t → t.delegate ≠ some a.vaultAuthority) :
    ∃ t mi, Slashable env w ctx a n (max l lmin) c d t mi := by
  obtain ⟨c0, d0, hr, rs, rh, H⟩ := harvest_ok hw1
  have hcc : c0 = c := by have := H.config; rw [hc] at this; simpa using this.symm
  have hdd : d0 = d := by have := H.del; rw [hd] at this; simpa using this.symm
  subst hcc hdd
  have hcfg : configAt w a.config = some c0 := configAt_eq.2 ⟨hcO, H.config⟩
  obtain ⟨_, b2⟩ := bump_facts I hcfg
  have hva : a.vaultAuthority = env.vaultAuth a.config := hva.trans b2
  rw [hva] at H
  have hst1 : 0 < (d0.marked (accNow c0 (w a.config).lamports) hr.lastAcc).staked := hst
  obtain ⟨htp, hn, t, m, h1, h2, h3, h4, h5, h6, h7, h8, h9⟩ := slashDelegation_inv H.del' hsl hst1
  rw [H.owner] at h7 h8
  rw [H.foreign hcO hsO (by rw [h7]; decide)] at h1
  rw [H.foreign hcO hsO (by rw [h8]; decide)] at h2
  have hdel := hdl t (tokenAt_data.2 h1)
  have P := H.payable hcO hsO bel hau
  have hp := H.paid hcO hsO bel
  obtain ⟨ca, da, Y⟩ := syncEffective_ok hsy
  obtain ⟨_, wb, e2, hwb, hburn, hout⟩ := slashDelegation_ok H.del' hsl
  have out := hout (Nat.lt_min.2 ⟨hn, hst1⟩)
  have hcv : a.config ≠ a.vault := by intro e; rw [← e, hcO] at h7; exact absurd h7 (by decide)
  have hcm : a.config ≠ a.mint := by intro e; rw [← e, hcO] at h8; exact absurd h8 (by decide)
  have hcd : (wb a.config).data = (w1 a.config).data := by
    rcases hburn with ⟨_, rfl⟩ | ⟨_, x, y, B⟩
    · rfl
    · rw [B.eq, World.setD_data, if_neg hcm, World.setD_data, if_neg hcv]
  have F : Fits c0 d0 (d0.staked - min n d0.staked) (max l lmin) := by
    refine Y.fits (c0 := c0.settled (w a.config).lamports (rs + rh))
      (d0 := { d0.marked (accNow c0 (w a.config).lamports) hr.lastAcc with staked := d0.staked - min n d0.staked })
      ?_ rfl ?_ rfl rfl
    · rw [e2, World.setD_data, if_neg (Ne.symm H.ne), hcd]; exact H.config_data
    · rw [e2, World.setD_data, if_pos rfl]; exact del?_setDel H.del'
  refine ⟨t, m, H.hk_eq, hva, htp, hn, hset, hauth, hsig, hvault, H.auth_eq, P, ?_, mintAt_data.2 h2, h8, h9, F, ?_⟩
  · rw [← hvault, ← hva]
    exact ⟨tokenAt_data.2 h1, h7, h5, h3, h6 hdel, hdel, h4⟩
  · by_cases hm : d0.authority ∈ [c0.vault, a.mint, env.vaultAuth a.config]
    · right
      rw [← hp]
      refine H.none_due out (by rw [H.auth_eq, hvault, hva]; exact hm) rfl rfl fun k hk hne => ?_
      rw [H.gain (fun e => (callOut_ok.1 out).1 k hk (by simp [e])), if_neg hne, Nat.add_zero]
    · exact Or.inl hm

theorem slashValidator_inv (I : Inv env w) {a : SlashAccts} {n : Nat}
    (h : slashValidatorStake env ctx w a n = .ok w') (hau : a.stakeAuthority ≠ a.config) (hst : 0 < stakedOf w a.stake)
    (hdl : ∀ t, tokenAt w a.vault = some t → t.delegate ≠ some a.vaultAuthority) :
    ∃ c v t mi, validatorAt w a.stake = some v ∧ Slashable env w ctx a n (max v.total v.min) c v.del t mi := by
  simp only [slashValidatorStake, bind_ok, require_ok, exists_unit, unpackConfig_ok, unpackValidator_ok,
    unpackToken_ok, createVaultPda_ok] at h
  obtain ⟨hcO, c, hc, hsO, _, s, hs, hsk, _, ⟨hcurve, rfl⟩, hva, w1, hw1, hset, hauth, hsig, hvault, _, tv, htv, hmint,
    wx, hwx, hw'⟩ := h
  have hv := validatorAt_eq.2 ⟨hsO, hs⟩
  have h0 : 0 < s.del.staked := by unfold stakedOf at hst; rw [stakeAt_validator hv] at hst; exact hst
  obtain ⟨t, mi, X⟩ := slash_inv I hcO hc hsO (by rw [hs]; rfl) (hsk ▸ (by simp [belongs])) hva hw1 hset hauth hsig hvault hwx
    hw' hau h0 hdl
  exact ⟨c, s, t, mi, hv, X⟩

theorem slashSolStaker_inv (I : Inv env w) {a : SlashAccts} {n : Nat}
    (h : slashSolStakerStake env ctx w a n = .ok w') (hau : a.stakeAuthority ≠ a.config) (hst : 0 < stakedOf w a.stake)
    (hdl : ∀ t, tokenAt w a.vault = some t → t.delegate ≠ some a.vaultAuthority) :
    ∃ c v t mi, solStakerAt w a.stake = some v ∧ Slashable env w ctx a n v.lamports c v.del t mi := by
  simp only [slashSolStakerStake, bind_ok, require_ok, exists_unit, unpackConfig_ok, unpackSolStaker_ok,
    unpackToken_ok, createVaultPda_ok] at h
  obtain ⟨hcO, c, hc, hsO, _, s, hs, hsk, _, ⟨hcurve, rfl⟩, hva, w1, hw1, hset, hauth, hsig, hvault, _, tv, htv, hmint,
    wx, hwx, hw'⟩ := h
  have hv := solStakerAt_eq.2 ⟨hsO, hs⟩
  have h0 : 0 < s.del.staked := by unfold stakedOf at hst; rw [stakeAt_solStaker hv] at hst; exact hst
  obtain ⟨t, mi, X⟩ := slash_inv I hcO hc hsO (by rw [hs]; rfl) (hsk ▸ (by simp [belongs])) hva hw1 hset hauth hsig hvault hwx
    hw' hau h0 hdl
  rw [Nat.max_zero] at X
  exact ⟨c, s, t, mi, hv, X⟩

end Verif
