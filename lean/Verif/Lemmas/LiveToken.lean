import Verif.Lemmas.LiveMove
/-!
# Success of the instructions that move tokens
-/

namespace Verif

variable {env : Env} {o : Oracle} {ctx : Ctx} {w w' : World} {ix : Ix}

theorem Spendable.congr {src mint auth : Key} {t : TokenAccount} {n : Nat} (S : Spendable w src mint auth t n)
    (h1 : (w' src).data = (w src).data) (h2 : (w' src).owner = (w src).owner) : Spendable w' src mint auth t n :=
  { S with token := tokenAt_data.2 (h1.trans (tokenAt_data.1 S.token)), owned := h2.trans S.owned }

theorem Receives.congr {dst mint : Key} {t : TokenAccount} {n : Nat} (S : Receives w dst mint t n)
    (h1 : (w' dst).data = (w dst).data) (h2 : (w' dst).owner = (w dst).owner) : Receives w' dst mint t n :=
  { S with token := tokenAt_data.2 (h1.trans (tokenAt_data.1 S.token)), owned := h2.trans S.owned }

theorem tokenTransfer_live {src mint dst auth : Key} {t td : TokenAccount} {m : Mint} {n : Nat}
    (S : Spendable w src mint auth t n) (R : Receives w dst mint td n) (hm : mintAt w mint = some m) (hne : src ≠ dst)
    (h1 : ctx.writable src = true) (h2 : ctx.writable dst = true) :
    ∃ w', tokenTransfer ctx w src mint dst auth true n m.decimals = .ok w' ∧
      Transferred ctx w w' src mint dst auth true n t td := by
  have : ∃ w', tokenTransfer ctx w src mint dst auth true n m.decimals = .ok w' := by
    simp only [tokenTransfer, bind_ok, require_ok, exists_unit, tokenData_ok, mintData_ok, if_neg hne]
    exact ⟨_, t, tokenAt_data.1 S.token, td, tokenAt_data.1 R.token, m, mintAt_data.1 hm, ⟨S.notFrozen, R.notFrozen⟩,
      S.enough, ⟨S.mint_eq.trans R.mint_eq.symm, S.mint_eq, rfl⟩, trivial, by rw [if_neg S.noDelegate]; exact S.authority.symm,
      ⟨S.owned, R.owned⟩, ⟨h1, h2⟩, R.room, rfl⟩
  obtain ⟨w', hw⟩ := this
  obtain ⟨s, d, T⟩ := tokenTransfer_ok hw
  have e1 : s = t := by have := T.src; rw [tokenAt_data.1 S.token] at this; cases this; rfl
  have e2 : d = td := by have := T.dst; rw [tokenAt_data.1 R.token] at this; cases this; rfl
  subst e1 e2
  exact ⟨w', hw, T⟩

theorem tokenBurn_live {acct mint auth : Key} {t : TokenAccount} {m : Mint} {n : Nat}
    (S : Spendable w acct mint auth t n) (hm : mintAt w mint = some m) (hmO : (w mint).owner = tokenId)
    (hs : n ≤ m.supply) (h1 : ctx.writable acct = true) (h2 : ctx.writable mint = true) :
    ∃ w', tokenBurn ctx w acct mint auth n m.decimals = .ok w' := by
  simp only [tokenBurn, bind_ok, require_ok, exists_unit, tokenData_ok, mintData_ok]
  exact ⟨_, t, tokenAt_data.1 S.token, m, mintAt_data.1 hm, S.notFrozen, S.enough, ⟨S.mint_eq, rfl⟩,
    by rw [if_neg S.noDelegate]; exact S.authority.symm, ⟨S.owned, hmO⟩, ⟨h1, h2⟩, hs, rfl⟩

/-- Accounts of other programs are not written by a settlement. -/
theorem Harvested.foreign {ck hk auth va sk : Key} {keeper : Option Key} {c : Config} {d : Delegation} {h : HolderRewards}
    {rs rh : Nat} (H : Harvested env w w' ck hk auth va sk keeper c d h rs rh) (hcO : (w ck).owner = progId)
    (hsO : (w sk).owner = progId) {k : Key} (hk : (w k).owner ≠ progId) : (w' k).data = (w k).data := by
  refine H.data' k ?_ ?_ <;> rintro rfl <;> contradiction

/-- A settlement leaves the lamports of an account alone, unless it is the config or the payee of something. -/
theorem Harvested.steady {ck hk va sk : Key} {c : Config} {d : Delegation} {h : HolderRewards}
    {rs rh : Nat} (H : Harvested env w w' ck hk d.authority va sk none c d h rs rh) {k : Key} (h1 : k ≠ ck)
    (h2 : k ≠ d.authority ∨ rs + rh = 0) : (w' k).lamports = (w k).lamports := by
  rw [H.lamports', if_neg h1]
  split_ifs with e1 e2
  · subst e1
    have h3 : rs + rh = 0 := h2.resolve_left (fun h => h rfl)
    rw [h3]; simp [authAfterKeeper]
  · simp at e2
  · rfl

theorem callOut_ok {view : World} {held passed : List Key} :
    callOut view w held passed = .ok () ↔ (∀ k ∈ passed, k ∉ held) ∧ lamportSum w passed = lamportSum view passed := by
  simp only [callOut, bind_ok, require_ok, exists_unit]

theorem callOut_live {view : World} {held passed : List Key} (h : ∀ k ∈ passed, k ∉ held)
    (l : ∀ k ∈ passed, (w k).lamports = (view k).lamports) : callOut view w held passed = .ok () := by
  have e : lamportSum w passed = lamportSum view passed := congrArg _ (List.map_congr_left fun k hk => l k (List.mem_eraseDups.1 hk))
  simp only [callOut, bind_ok, require_ok, exists_unit]
  exact ⟨h, e⟩

theorem notin_pair {l : List Key} {ck sk : Key} (h1 : ck ∉ l) (h2 : sk ∉ l) :
    ∀ k ∈ l, k ∉ [ck, sk] := by
  rintro k hk hm
  simp only [List.mem_cons, List.not_mem_nil, or_false] at hm
  rcases hm with rfl | rfl <;> contradiction

theorem _root_.Verif.belongs.ne_vaultAuth {k ck : Key} (h : belongs k ck) : k ≠ env.vaultAuth ck := by
  rintro rfl
  simp [belongs, Env.vaultAuth] at h

theorem _root_.Verif.belongs.ne_tokenId {k ck : Key} (h : belongs k ck) : k ≠ tokenId := by
  rintro rfl
  simp [belongs, tokenId] at h

theorem vaultAuth_ne (ck : Key) : ck ≠ env.vaultAuth ck := by
  intro h
  have := congrArg sizeOf h
  simp only [Env.vaultAuth, Key.vaultPda.sizeOf_spec] at this
  omega

/-! ## Slashing -/

theorem slashDelegation_live {view : World} {ck sk mk vk va : Key} {n : Nat} {d : Delegation} {t : TokenAccount} {mi : Mint}
    (hO : (w sk).owner = progId) (hd : (w sk).data.del? = some d) (hn : 0 < n)
    (S : Spendable w vk mk va t (min n d.staked)) (hm : mintAt w mk = some mi) (hmO : (w mk).owner = tokenId)
    (hs : min n d.staked ≤ mi.supply) (h1 : ctx.writable vk = true) (h2 : ctx.writable mk = true)
    (hout : callOut view w [ck, sk] [vk, mk, va] = .ok ()) :
    ∃ w', slashDelegation ctx view w ck sk mk vk va tokenId n = .ok w' := by
  have hv : vk ≠ sk := by rintro rfl; have := S.owned; rw [hO] at this; exact absurd this (by decide)
  have hmk : mk ≠ sk := by rintro rfl; rw [hO] at hmO; exact absurd hmO (by decide)
  simp only [slashDelegation, bind_ok, require_ok, exists_unit, readDel_ok, subU64_ok, writeDel, setData_ok]
  by_cases h0 : 0 < min n d.staked
  · set wx := w.setD sk ((w sk).data.setDel { d with staked := d.staked - min n d.staked }) with ex
    obtain ⟨w2, hw2⟩ := tokenBurn_live (w := wx) (ctx := ctx) (S.congr (by rw [ex, World.setD_data, if_neg hv]) (by simp [ex]))
      (m := mi) (mintAt_data.2 (by rw [ex, World.setD_data, if_neg hmk]; exact mintAt_data.1 hm))
      (by simpa [ex] using hmO) hs h1 h2
    refine ⟨w2, trivial, hn, d, hd, _, ⟨Nat.min_le_right .., rfl⟩, wx, ⟨Or.inr hO, rfl⟩, ?_⟩
    rw [if_pos h0]
    simp only [bind_ok, require_ok, exists_unit, unpackMint_ok]
    have hh := (callOut_ok.1 hout).1 mk (by simp)
    simp only [List.mem_cons, List.not_mem_nil, or_false, not_or] at hh
    refine ⟨hh, mi, by rw [ex, World.setD_data, if_neg hmk]; exact mintAt_data.1 hm, ?_, hw2⟩
    rw [← hout]
    exact callOut_congr fun k => by rw [ex, World.setD_lamports]
  · refine ⟨w.setD sk ((w sk).data.setDel { d with staked := d.staked - min n d.staked }), trivial, hn, d, hd, _,
      ⟨Nat.min_le_right .., rfl⟩, _, ⟨Or.inr hO, rfl⟩, ?_⟩
    rw [if_neg h0]; rfl

theorem slash_core (I : Inv env w) {n l lmin : Nat} {ck sk mk : Key} {c : Config} {d : Delegation}
    {t : TokenAccount} {mi : Mint} (P : Payable env w ck sk c d) (hn : 0 < n)
    (S : Spendable w c.vault mk (env.vaultAuth ck) t (min n d.staked)) (hm : mintAt w mk = some mi)
    (hmO : (w mk).owner = tokenId) (hs : min n d.staked ≤ mi.supply)
    (F : Fits c d (d.staked - min n d.staked) (max l lmin))
    (h1 : ctx.writable c.vault = true) (h2 : ctx.writable mk = true)
    (hpay : d.authority ∉ [c.vault, mk, env.vaultAuth ck] ∨ accrued env w ck sk = 0) :
    ∃ w1 h rs rh w2 w3, harvest env w ck (vaultRecord env ck) d.authority (env.vaultAuth ck) sk none = .ok w1 ∧
      Harvested env w w1 ck (vaultRecord env ck) d.authority (env.vaultAuth ck) sk none c d h rs rh ∧
      tokenAt w1 c.vault = some t ∧
      slashDelegation ctx w w1 ck sk mk c.vault (env.vaultAuth ck) tokenId n = .ok w2 ∧
      syncEffective w2 ck sk l lmin = .ok w3 ∧ (∀ k, (w3 k).lamports = (w1 k).lamports) ∧
      (∀ k, k = ck ∨ k = sk ∨ k = c.vault ∨ k = mk ∨ w3 k = w1 k) := by
  obtain ⟨hcO, hc, hsO, hd, hne⟩ := P.facts
  obtain ⟨w1, hw1⟩ := harvest_live I P
  obtain ⟨c0, d0, h, rs, rh, H⟩ := harvest_ok hw1
  have hcc : c0 = c := by have := H.config; rw [hc] at this; simpa using this.symm
  have hdd : d0 = d := by have := H.del; rw [hd] at this; simpa using this.symm
  subst hcc hdd
  have hvO : (w c0.vault).owner ≠ progId := by rw [S.owned]; decide
  have hmO' : (w mk).owner ≠ progId := by rw [hmO]; decide
  have dv := H.foreign hcO hsO hvO
  have dm := H.foreign hcO hsO hmO'
  have S1 := S.congr dv (H.owner _)
  have hsO1 : (w1 sk).owner = progId := by rw [H.owner]; exact hsO
  have hp := H.paid hcO hsO P.belongs
  have nout : ∀ {k}, (w k).owner = progId → k ≠ env.vaultAuth ck → k ∉ [c0.vault, mk, env.vaultAuth ck] := by
    intro k hk hk' hm
    simp only [List.mem_cons, List.not_mem_nil, or_false] at hm
    rcases hm with rfl | rfl | rfl
    · exact hvO hk
    · exact hmO' hk
    · exact hk' rfl
  have hout : callOut w w1 [ck, sk] [c0.vault, mk, env.vaultAuth ck] = .ok () := by
    refine callOut_live (notin_pair (nout hcO (vaultAuth_ne ck)) (nout hsO (P.belongs.ne_vaultAuth))) fun k hk => ?_
    refine H.steady (fun e => nout hcO (vaultAuth_ne ck) (e ▸ hk)) ?_
    rcases hpay with h | h
    · exact Or.inl fun e => h (e ▸ hk)
    · exact Or.inr (hp.trans h)
  obtain ⟨w2, hw2⟩ := slashDelegation_live (ctx := ctx) (n := n) hsO1 H.del' hn S1
    (mintAt_data.2 (dm.trans (mintAt_data.1 hm))) (by rw [H.owner]; exact hmO) hs h1 h2 hout
  obtain ⟨_, wb, e2, hwb, hburn, _⟩ := slashDelegation_ok H.del' hw2
  have own : ∀ k, (wb k).owner = (w1 k).owner := by
    rcases hburn with ⟨_, rfl⟩ | ⟨_, x, y, B⟩
    · exact fun _ => rfl
    · intro k; rw [B.eq]; simp
  have lam : ∀ k, (wb k).lamports = (w1 k).lamports := by
    rcases hburn with ⟨_, rfl⟩ | ⟨_, x, y, B⟩
    · exact fun _ => rfl
    · intro k; rw [B.eq]; simp
  have dat : ∀ k, k ≠ c0.vault → k ≠ mk → (wb k).data = (w1 k).data := by
    rcases hburn with ⟨_, rfl⟩ | ⟨_, x, y, B⟩
    · exact fun _ _ _ => rfl
    · intro k e1 e2; rw [B.eq, World.setD_data, if_neg e2, World.setD_data, if_neg e1]
  have nv : ck ≠ c0.vault := by intro e; rw [← e] at hvO; exact hvO hcO
  have nm : ck ≠ mk := by rintro rfl; exact hmO' hcO
  obtain ⟨w3, hw3⟩ := syncEffective_live (w := w2) (ck := ck) (sk := sk) (l := l) (lmin := lmin)
    (c := c0.settled (w ck).lamports (rs + rh))
    (d := { d0.marked (accNow c0 (w ck).lamports) h.lastAcc with staked := d0.staked - min n d0.staked })
    (by rw [e2, World.setD_owner, own, H.owner]; exact hcO)
    (by rw [e2, World.setD_data, if_neg (Ne.symm hne), dat _ nv nm]; exact H.config_data)
    (by rw [e2, World.setD_owner, own, H.owner]; exact hsO)
    (by rw [e2, World.setD_data, if_pos rfl]; exact del?_setDel H.del')
    (show d0.effective ≤ c0.effTotal from I.effective_le P.config P.stake P.belongs) F.1 F.2
  obtain ⟨_, _, Y⟩ := syncEffective_ok hw3
  refine ⟨w1, h, rs, rh, w2, w3, hw1, H, S1.token, hw2, hw3, fun k => ?_, fun k => ?_⟩
  · rw [Y.lamports, e2, World.setD_lamports, lam]
  · by_cases k1 : k = ck
    · exact Or.inl k1
    by_cases k2 : k = sk
    · exact Or.inr (Or.inl k2)
    by_cases k3 : k = c0.vault
    · exact Or.inr (Or.inr (Or.inl k3))
    by_cases k4 : k = mk
    · exact Or.inr (Or.inr (Or.inr (Or.inl k4)))
    refine Or.inr (Or.inr (Or.inr (Or.inr (account_ext ?_ ?_ ?_))))
    · rw [Y.lamports, e2, World.setD_lamports, lam]
    · rw [Y.owner, e2, World.setD_owner, own]
    · rw [Y.data' k k1 k2, e2, World.setD_data, if_neg k2, dat k k3 k4]

theorem bump_facts (I : Inv env w) {ck : Key} {c : Config} (h : configAt w ck = some c) :
    env.offCurve ck c.bump = true ∧ Key.vaultPda ck c.bump = env.vaultAuth ck := by
  rw [(I.config ck c h).bump]
  exact ⟨env.offCurve_bump ck, rfl⟩

theorem live_slashValidator (I : Inv env w) {n : Nat} (hi : ix.decoded = some (.slashValidatorStake n)) {ck sk mk : Key}
    {c : Config} {v : ValidatorStake} {t : TokenAccount} {mi : Mint} {rest : List Key}
    (hl : ix.ctx.accts = ck :: sk :: v.del.authority :: c.slashAuthority :: c.vault :: vaultRecord env ck ::
      env.vaultAuth ck :: mk :: tokenId :: rest)
    (hset : c.slashAuthority ≠ .default) (hsig : ix.ctx.signer c.slashAuthority = true)
    (hv : validatorAt w sk = some v) (P : Payable env w ck sk c v.del) (hn : 0 < n)
    (S : Spendable w c.vault mk (env.vaultAuth ck) t (min n v.del.staked)) (hm : mintAt w mk = some mi)
    (hmO : (w mk).owner = tokenId) (hs : min n v.del.staked ≤ mi.supply)
    (F : Fits c v.del (v.del.staked - min n v.del.staked) (max v.total v.min))
    (hw : ix.Writes [ck, sk, v.del.authority, c.vault, mk])
    (hpay : v.del.authority ∉ [c.vault, mk, env.vaultAuth ck] ∨ accrued env w ck sk = 0) :
    ∃ w', exec env o w ix = .ok w' := by
  obtain ⟨hcO, hc, hsO, hd, hne⟩ := P.facts
  obtain ⟨w1, h, rs, rh, w2, w3, hw1, H, ht, hw2, hw3, lam, same⟩ := slash_core (ctx := ix.ctx) I P hn S hm hmO hs F
    (hw _ (by simp)) (hw _ (by simp)) hpay
  refine ⟨w3, settle_exec hi H P.payee (by simp [hl]) (by simp [hl]) (fun k hk => hw k ?_) ?_ (fun k _ => ?_) lam⟩
  · simp only [List.mem_cons, List.not_mem_nil, or_false] at hk ⊢; tauto
  · unfold dispatch
    rw [hl]
    simp only [slashValidatorStake, bind_ok, require_ok, exists_unit, unpackConfig_ok, unpackValidator_ok,
      unpackToken_ok, createVaultPda_ok]
    obtain ⟨b1, b2⟩ := bump_facts I P.config
    exact ⟨hcO, _, hc, hsO, hne, v, (validatorAt_eq.1 hv).2, I.validator_at hv P.belongs, _, ⟨b1, rfl⟩, b2.symm, w1, hw1, hset,
      rfl, hsig, rfl, P.apart_token S.token, t, tokenAt_data.1 ht, S.mint_eq, w2, hw2, hw3⟩
  · rcases same k with h | h | h | h | h
    · exact Or.inr (Or.inl h)
    · exact Or.inr (Or.inr (Or.inl h))
    · subst h; exact Or.inl (hw _ (by simp))
    · subst h; exact Or.inl (hw _ (by simp))
    · exact Or.inr (Or.inr (Or.inr h))

theorem live_slashSolStaker (I : Inv env w) {n : Nat} (hi : ix.decoded = some (.slashSolStakerStake n)) {ck sk mk : Key}
    {c : Config} {v : SolStakerStake} {t : TokenAccount} {mi : Mint} {rest : List Key}
    (hl : ix.ctx.accts = ck :: sk :: v.del.authority :: c.slashAuthority :: mk :: c.vault :: vaultRecord env ck ::
      env.vaultAuth ck :: tokenId :: rest)
    (hset : c.slashAuthority ≠ .default) (hsig : ix.ctx.signer c.slashAuthority = true)
    (hv : solStakerAt w sk = some v) (P : Payable env w ck sk c v.del) (hn : 0 < n)
    (S : Spendable w c.vault mk (env.vaultAuth ck) t (min n v.del.staked)) (hm : mintAt w mk = some mi)
    (hmO : (w mk).owner = tokenId) (hs : min n v.del.staked ≤ mi.supply)
    (F : Fits c v.del (v.del.staked - min n v.del.staked) v.lamports)
    (hw : ix.Writes [ck, sk, v.del.authority, c.vault, mk])
    (hpay : v.del.authority ∉ [c.vault, mk, env.vaultAuth ck] ∨ accrued env w ck sk = 0) :
    ∃ w', exec env o w ix = .ok w' := by
  obtain ⟨hcO, hc, hsO, hd, hne⟩ := P.facts
  obtain ⟨w1, h, rs, rh, w2, w3, hw1, H, ht, hw2, hw3, lam, same⟩ := slash_core (ctx := ix.ctx) (l := v.lamports)
    (lmin := 0) I P hn S hm hmO hs (by rw [Nat.max_zero]; exact F) (hw _ (by simp)) (hw _ (by simp)) hpay
  refine ⟨w3, settle_exec hi H P.payee (by simp [hl]) (by simp [hl]) (fun k hk => hw k ?_) ?_ (fun k _ => ?_) lam⟩
  · simp only [List.mem_cons, List.not_mem_nil, or_false] at hk ⊢; tauto
  · unfold dispatch
    rw [hl]
    simp only [slashSolStakerStake, bind_ok, require_ok, exists_unit, unpackConfig_ok, unpackSolStaker_ok,
      unpackToken_ok, createVaultPda_ok]
    obtain ⟨b1, b2⟩ := bump_facts I P.config
    exact ⟨hcO, _, hc, hsO, hne, v, (solStakerAt_eq.1 hv).2, I.solStaker_at hv P.belongs, _, ⟨b1, rfl⟩, b2.symm, w1, hw1, hset,
      rfl, hsig, rfl, P.apart_token S.token, t, tokenAt_data.1 ht, S.mint_eq, w2, hw2, hw3⟩
  · rcases same k with h | h | h | h | h
    · exact Or.inr (Or.inl h)
    · exact Or.inr (Or.inr (Or.inl h))
    · subst h; exact Or.inl (hw _ (by simp))
    · subst h; exact Or.inl (hw _ (by simp))
    · exact Or.inr (Or.inr (Or.inr h))

theorem Inv.foreign_mint (I : Inv env w) {k : Key} {m : Mint} (h : mintAt w k = some m) : (w k).owner ≠ progId := by
  intro hO
  have hs := I.shape k hO
  have hd := mintAt_data.1 h
  cases k <;> simp only [Shape] at hs <;> simp [hd, Data.zeroed] at hs

theorem Inv.foreign_holder (I : Inv env w) {k : Key} {m : HolderRewards} (h : holderAt w k = some m) :
    (w k).owner ≠ progId := by
  intro hO
  have hs := I.shape k hO
  have hd := holderAt_data.1 h
  cases k <;> simp only [Shape] at hs <;> simp [hd, Data.zeroed] at hs

/-! ## Staking and unstaking -/

/-- As `settle_exec`, for handlers that end with a call; a payee who gets nothing need not be writable. -/
theorem settle_exec_sum {i : StakeInstruction} (hi : ix.decoded = some i) {ck hk va sk : Key} {c : Config}
    {d : Delegation} {h : HolderRewards} {rs rh : Nat} {w1 : World}
    (H : Harvested env w w1 ck hk d.authority va sk none c d h rs rh)
    (hne : d.authority ≠ ck) (hck : ck ∈ ix.ctx.accts) (hau : d.authority ∈ ix.ctx.accts)
    (hw : ix.Writes [ck, sk]) (hwa : ix.ctx.writable d.authority = true ∨ rs + rh = 0)
    (hd : dispatch env o ix.ctx w i = .ok w')
    (same : ∀ k ∈ ix.ctx.accts, ix.ctx.writable k = true ∨ w' k = w1 k)
    (bal : lamportSum w' ix.ctx.accts = lamportSum w1 ix.ctx.accts) : exec env o w ix = .ok w' := by
  refine exec_of_dispatch hi hd (fun k hk => ?_) ?_
  · rcases same k hk with h | h
    · exact Or.inl h
    by_cases h1 : k = ck
    · subst h1; exact Or.inl (hw _ (by simp))
    by_cases h2 : k = sk
    · subst h2; exact Or.inl (hw _ (by simp))
    by_cases h3 : k = d.authority
    · subst h3
      rcases hwa with h4 | h4
      · exact Or.inl h4
      · right
        rw [h]
        refine account_ext ?_ (H.owner _) (H.data' _ h1 h2)
        rw [H.lamports', if_pos rfl, h4]
        simp [authAfterKeeper]
    right; rw [h]; exact H.same h1 h2 h3
  · rw [bal, H.sum hck hau (by simp) (by simp), if_neg hne, Nat.add_zero]

theorem restake_core (I : Inv env w) {n cd l lmin : Nat} {ck sk : Key} {c : Config} {d : Delegation}
    (P : Payable env w ck sk c d) (F : Fits c d n (max l lmin)) :
    ∃ w1 h rs rh w2, harvest env w ck (vaultRecord env ck) d.authority (env.vaultAuth ck) sk none = .ok w1 ∧
      Harvested env w w1 ck (vaultRecord env ck) d.authority (env.vaultAuth ck) sk none c d h rs rh ∧
      rs + rh = accrued env w ck sk ∧
      syncEffective (w1.setD sk ((w1 sk).data.setDel
        { d.marked (accNow c (w ck).lamports) h.lastAcc with staked := n, cooldown := cd })) ck sk l lmin = .ok w2 ∧
      (∀ k, (w2 k).lamports = (w1 k).lamports) ∧ (∀ k, (w2 k).owner = (w1 k).owner) ∧
      (∀ k, k ≠ ck → k ≠ sk → w2 k = w1 k) ∧
      ∀ k, (w k).owner ≠ progId → (w2 k).data = (w k).data := by
  obtain ⟨hcO, hc, hsO, hd, hne⟩ := P.facts
  obtain ⟨w1, hw1⟩ := harvest_live I P
  obtain ⟨c0, d0, h, rs, rh, H⟩ := harvest_ok hw1
  have hcc : c0 = c := by have := H.config; rw [hc] at this; simpa using this.symm
  have hdd : d0 = d := by have := H.del; rw [hd] at this; simpa using this.symm
  subst hcc hdd
  obtain ⟨w2, hw2⟩ := syncEffective_live (w := w1.setD sk ((w1 sk).data.setDel
      { d0.marked (accNow c0 (w ck).lamports) h.lastAcc with staked := n, cooldown := cd })) (ck := ck) (sk := sk)
    (l := l) (lmin := lmin)
    (c := c0.settled (w ck).lamports (rs + rh))
    (d := { d0.marked (accNow c0 (w ck).lamports) h.lastAcc with staked := n, cooldown := cd })
    (by rw [World.setD_owner, H.owner]; exact hcO)
    (by rw [World.setD_data, if_neg (Ne.symm hne)]; exact H.config_data)
    (by rw [World.setD_owner, H.owner]; exact hsO)
    (by rw [World.setD_data, if_pos rfl]; exact del?_setDel H.del')
    (show d0.effective ≤ c0.effTotal from I.effective_le P.config P.stake P.belongs) F.1 F.2
  obtain ⟨_, _, Y⟩ := syncEffective_ok hw2
  have L : ∀ k, (w2 k).lamports = (w1 k).lamports := fun k => by rw [Y.lamports, World.setD_lamports]
  have O : ∀ k, (w2 k).owner = (w1 k).owner := fun k => by rw [Y.owner, World.setD_owner]
  have S : ∀ k, k ≠ ck → k ≠ sk → w2 k = w1 k := fun k k1 k2 =>
    account_ext (L k) (O k) (by rw [Y.data' k k1 k2, World.setD_data, if_neg k2])
  refine ⟨w1, h, rs, rh, w2, hw1, H, H.paid hcO hsO P.belongs, hw2, L, O, S, fun k hk => ?_⟩
  rw [S k (by rintro rfl; exact hk hcO) (by rintro rfl; exact hk hsO)]
  exact H.foreign hcO hsO hk

theorem stake_out {ck rk sk src mk vk sauth pool pt : Key} {c : Config} {d : Delegation} {h : HolderRewards} {rs rh : Nat}
    {w1 w2 w3 : World} (H : Harvested env w w1 ck rk d.authority (env.vaultAuth ck) sk none c d h rs rh)
    (hcO : (w ck).owner = progId) (hsO : (w sk).owner = progId) (h1 : (w src).owner ≠ progId) (h2 : (w mk).owner ≠ progId)
    (h3 : (w vk).owner ≠ progId) (h4 : (w pool).owner ≠ progId) (h5 : (w pt).owner ≠ progId) (h6 : (w rk).owner ≠ progId)
    (h7 : ck ≠ sauth) (h8 : sk ≠ sauth) (h9 : ck ≠ tokenId) (hb : belongs sk ck)
    (L2 : ∀ k, (w2 k).lamports = (w1 k).lamports) (L3 : ∀ k, (w3 k).lamports = (w2 k).lamports)
    (hpay : d.authority ∉ [src, mk, vk, sauth, pool, pt, rk, env.vaultAuth ck, tokenId] ∨ rs + rh = 0) :
    callOut w w2 [ck, sk] [src, mk, vk, sauth] = .ok () ∧ callOut (w.known w3 [src, mk, vk, sauth]) w3 [ck, sk] [pool, pt, rk, vk, mk, env.vaultAuth ck, tokenId] = .ok () := by
  have nfor : ∀ {k}, (w k).owner = progId → k ≠ sauth → k ≠ tokenId → k ≠ env.vaultAuth ck → k ∉ [src, mk, vk, sauth, pool, pt, rk, env.vaultAuth ck, tokenId] := by
    intro k hk e1 e2 e4 hm
    simp only [List.mem_cons, List.not_mem_nil, or_false] at hm
    rcases hm with rfl | rfl | rfl | rfl | rfl | rfl | rfl | rfl | rfl <;> contradiction
  have oc := nfor hcO h7 h9 (vaultAuth_ne ck)
  have os := nfor hsO h8 hb.ne_tokenId hb.ne_vaultAuth
  have s1 : ∀ {k}, k ∈ [src, mk, vk, sauth] → k ∈ [src, mk, vk, sauth, pool, pt, rk, env.vaultAuth ck, tokenId] := by
    intro k hk
    simp only [List.mem_cons, List.not_mem_nil, or_false] at hk
    rcases hk with rfl | rfl | rfl | rfl <;> simp
  have s2 : ∀ {k}, k ∈ [pool, pt, rk, vk, mk, env.vaultAuth ck, tokenId] → k ∈ [src, mk, vk, sauth, pool, pt, rk, env.vaultAuth ck, tokenId] := by
    intro k hk
    simp only [List.mem_cons, List.not_mem_nil, or_false] at hk
    rcases hk with rfl | rfl | rfl | rfl | rfl | rfl | rfl <;> simp
  have L : ∀ k ∈ [src, mk, vk, sauth, pool, pt, rk, env.vaultAuth ck, tokenId], (w1 k).lamports = (w k).lamports := fun k hk =>
    H.steady (fun e => oc (e ▸ hk)) (hpay.imp (fun h e => h (e ▸ hk)) id)
  refine ⟨callOut_live (notin_pair (fun h => oc (s1 h)) fun h => os (s1 h)) fun k hk => by rw [L2]; exact L k (s1 hk),
    callOut_live (notin_pair (fun h => oc (s2 h)) fun h => os (s2 h)) fun k hk => ?_⟩
  unfold World.known
  split_ifs
  · rfl
  · rw [L3, L2]; exact L k (s2 hk)

theorem stake_core (I : Inv env w) {n l lmin : Nat} {ck sk src sauth mk pool pt : Key} {c : Config} {d : Delegation}
    {ts td : TokenAccount} {mi : Mint} {ok : TokenAccount → Prop} {after : TokenAccount → TokenAccount}
    (P : Payable env w ck sk c d) (F : Fits c d (d.staked + n) (max l lmin))
    (S : Spendable w src mk sauth ts n) (R : Receives w c.vault mk td n) (hm : mintAt w mk = some mi) (hne : src ≠ c.vault)
    (hmO : (w mk).owner ≠ progId)
    (D : Ready o.deposit w (vaultCall env ck c pool pt mk n) ok after) (hok : ok { td with amount := td.amount + n })
    (hrO : (w (vaultRecord env ck)).owner ≠ progId)
    (hpt : pt ≠ src) (hsk : ctx.writable src = true) (hvk : ctx.writable c.vault = true)
    (hsa : sauth ≠ ck ∧ sauth ≠ sk) (hct : ck ≠ tokenId)
    (hpay : d.authority ∉ [src, mk, c.vault, sauth, pool, pt, vaultRecord env ck, env.vaultAuth ck, tokenId] ∨
      accrued env w ck sk = 0) :
    ∃ w1 h rs rh w2 w3 w4, harvest env w ck (vaultRecord env ck) d.authority (env.vaultAuth ck) sk none = .ok w1 ∧
      Harvested env w w1 ck (vaultRecord env ck) d.authority (env.vaultAuth ck) sk none c d h rs rh ∧
      rs + rh = accrued env w ck sk ∧
      tokenAt w1 c.vault = some td ∧ mintAt w1 mk = some mi ∧
      syncEffective (w1.setD sk ((w1 sk).data.setDel
        { d.marked (accNow c (w ck).lamports) h.lastAcc with staked := d.staked + n })) ck sk l lmin = .ok w2 ∧
      callOut w w2 [ck, sk] [src, mk, c.vault, sauth] = .ok () ∧
      tokenTransfer ctx w2 src mk c.vault sauth true n mi.decimals = .ok w3 ∧
      callOut (w.known w3 [src, mk, c.vault, sauth]) w3 [ck, sk] [pool, pt, vaultRecord env ck, c.vault, mk, env.vaultAuth ck, tokenId] = .ok () ∧
      o.deposit w3 (vaultCall env ck c pool pt mk n) = .ok w4 ∧
      (∀ k, k = ck ∨ k = sk ∨ k = src ∨ k = c.vault ∨ k = pool ∨ k = pt ∨ k = vaultRecord env ck ∨ k = env.vaultAuth ck ∨
        w4 k = w1 k) ∧
      (∀ l, (∀ k ∈ [pool, pt, vaultRecord env ck, env.vaultAuth ck, c.vault], k ∈ l) → lamportSum w4 l = lamportSum w1 l) := by
  obtain ⟨hcO, hc, hsO, hd, hskc⟩ := P.facts
  obtain ⟨w1, h, rs, rh, w2, hw1, H, hp, hw2, L2, O2, same2, foreign2⟩ :=
    restake_core (cd := d.cooldown) (l := l) (lmin := lmin) I P F
  have O2' : ∀ k, (w2 k).owner = (w k).owner := fun k => by rw [O2, H.owner]
  have hsrcO : (w src).owner ≠ progId := by rw [S.owned]; decide
  have hvO : (w c.vault).owner ≠ progId := by rw [R.owned]; decide
  have S2 := S.congr (foreign2 _ hsrcO) (O2' _)
  have R2 := R.congr (foreign2 _ hvO) (O2' _)
  have hm2 : mintAt w2 mk = some mi := mintAt_data.2 ((foreign2 _ hmO).trans (mintAt_data.1 hm))
  obtain ⟨w3, hw3, T⟩ := tokenTransfer_live (ctx := ctx) S2 R2 hm2 hne hsk hvk
  obtain ⟨_, e3⟩ := T.other hne
  have O3 : ∀ k, (w3 k).owner = (w2 k).owner := fun k => by rw [e3]; simp
  have L3 : ∀ k, (w3 k).lamports = (w2 k).lamports := fun k => by rw [e3]; simp
  have D3 : ∀ k, k ≠ src → k ≠ c.vault → (w3 k).data = (w2 k).data := fun k k1 k2 => by
    rw [e3, World.setD_data, if_neg k2, World.setD_data, if_neg k1]
  obtain ⟨hx, hhx⟩ := Option.isSome_iff_exists.1 P.record
  have hrec := holderAt_data.1 hhx
  have tne : ∀ {k}, (w k).owner = tokenId → (w pool).owner = rewardsId → pool ≠ k := by
    rintro k h1 h2 rfl; rw [h1] at h2; exact absurd h2 (by decide)
  have hpool := D.pool
  have hptO := D.poolToken
  have hptne := D.ne
  simp only [vaultCall] at hpool hptO hptne
  have hlam : ∀ k, k ≠ ck → (w k).lamports ≤ (w3 k).lamports := fun k hk => by
    rw [L3, L2, H.lamports', if_neg hk]
    split_ifs with e1 e2
    · subst e1; simp only [authAfterKeeper]; simp
    · simp at e2
    · exact Nat.le_refl _
  obtain ⟨w4, hw4, _, O4, same4, bal4⟩ := D.accepts w3 { td with amount := td.amount + n } (by
      intro k hk
      have hk' : (w k).owner ≠ progId ∧ k ≠ src ∧ k ≠ c.vault := by
        simp only [vaultCall, List.mem_cons, List.not_mem_nil, or_false] at hk
        rcases hk with rfl | rfl | rfl | rfl
        · exact ⟨by rw [hpool]; decide, tne S.owned hpool, tne R.owned hpool⟩
        · exact ⟨by rw [hptO]; decide, hpt, hptne⟩
        · refine ⟨hrO, ?_, ?_⟩
          · intro e; have := tokenAt_data.1 S.token; rw [← e, hrec] at this; cases this
          · intro e; have := tokenAt_data.1 R.token; rw [← e, hrec] at this; cases this
        · refine ⟨hmO, ?_, ?_⟩
          · intro e; have := tokenAt_data.1 S.token; rw [← e, mintAt_data.1 hm] at this; cases this
          · intro e; have := tokenAt_data.1 R.token; rw [← e, mintAt_data.1 hm] at this; cases this
      exact ⟨(D3 k hk'.2.1 hk'.2.2).trans (foreign2 k hk'.1), by rw [O3, O2'], hlam k (by rintro rfl; exact hk'.1 hcO)⟩)
    (by rw [O3, O2']) (tokenAt_data.2 (by rw [e3, World.setD_data]; exact if_pos rfl)) hok
  obtain ⟨out1, out2⟩ := stake_out H hcO hsO hsrcO hmO hvO (by rw [hpool]; decide) (by rw [hptO]; decide) hrO hsa.1.symm
    hsa.2.symm hct P.belongs L2 L3 (hpay.imp id (hp.trans ·))
  clear hpay
  refine ⟨w1, h, rs, rh, w2, w3, w4, hw1, H, hp, tokenAt_data.2 ?_, mintAt_data.2 ?_, hw2, out1, hw3, out2, hw4, fun k => ?_, fun l hl => ?_⟩
  · rw [H.foreign hcO hsO hvO]; exact tokenAt_data.1 R.token
  · rw [H.foreign hcO hsO hmO]; exact mintAt_data.1 hm
  · by_cases k1 : k = ck
    · exact Or.inl k1
    by_cases k2 : k = sk
    · exact Or.inr (Or.inl k2)
    by_cases k3 : k = src
    · exact Or.inr (Or.inr (Or.inl k3))
    by_cases k4 : k = c.vault
    · exact Or.inr (Or.inr (Or.inr (Or.inl k4)))
    by_cases k5 : k ∈ (vaultCall env ck c pool pt mk n).accounts
    · simp only [RewardsCall.accounts, vaultCall, List.mem_cons, List.not_mem_nil, or_false] at k5
      tauto
    · rw [same4 k k5, ← same2 k k1 k2]
      have : w3 k = w2 k := account_ext (L3 k) (O3 k) (D3 k k3 k4)
      tauto
  · rw [bal4 l hl, lamportSum_congr l L3, lamportSum_congr l L2]

theorem live_stakeValidator (I : Inv env w) {n : Nat} (hi : ix.decoded = some (.validatorStakeTokens n))
    {ck sk src sauth mk pool pt : Key} {c : Config} {v : ValidatorStake} {ts td : TokenAccount} {mi : Mint}
    {ok : TokenAccount → Prop} {after : TokenAccount → TokenAccount} {rest : List Key}
    (hl : ix.ctx.accts = ck :: pool :: pt :: sk :: v.del.authority :: src :: sauth :: mk :: env.vaultAuth ck :: c.vault ::
      vaultRecord env ck :: tokenId :: rewardsId :: rest)
    (hsig : ix.ctx.signer sauth = true) (hv : validatorAt w sk = some v) (hn : 0 < n) (hlt : v.del.staked + n < 2 ^ 64)
    (P : Payable env w ck sk c v.del) (F : Fits c v.del (v.del.staked + n) (max v.total v.min))
    (S : Spendable w src mk sauth ts n) (R : Receives w c.vault mk td n) (hm : mintAt w mk = some mi) (hne : src ≠ c.vault)
    (D : Ready o.deposit w (vaultCall env ck c pool pt mk n) ok after) (hok : ok { td with amount := td.amount + n })
    (hpt : pt ≠ src) (hw : ix.Writes [ck, pool, pt, sk, src, env.vaultAuth ck, c.vault, vaultRecord env ck])
    (hwa : ix.ctx.writable v.del.authority = true ∨ accrued env w ck sk = 0)
    (hsa : sauth ≠ ck ∧ sauth ≠ sk) (hct : ck ≠ tokenId)
    (hpay : v.del.authority ∉ [src, mk, c.vault, sauth, pool, pt, vaultRecord env ck, env.vaultAuth ck, tokenId] ∨
      accrued env w ck sk = 0) :
    ∃ w', exec env o w ix = .ok w' := by
  obtain ⟨hcO, hc, hsO, hd, _⟩ := P.facts
  obtain ⟨hx, hhx⟩ := Option.isSome_iff_exists.1 P.record
  obtain ⟨w1, h, rs, rh, w2, w3, w4, hw1, H, hp, ht1, hm1, hw2, out1, hw3, out2, hw4, same, bal⟩ := stake_core (ctx := ix.ctx)
    I P F S R hm hne (I.foreign_mint hm) D hok (I.foreign_holder hhx) hpt (hw _ (by simp)) (hw _ (by simp)) hsa hct hpay
  refine ⟨w4, settle_exec_sum hi H P.payee (by simp [hl]) (by simp [hl]) (fun k hk => hw k ?_) (by rw [hp]; exact hwa) ?_
    (fun k _ => ?_) (bal _ fun k hk => ?_)⟩
  · simp only [List.mem_cons, List.not_mem_nil, or_false] at hk ⊢; tauto
  · unfold dispatch
    rw [hl]
    simp only [validatorStakeTokens, bind_ok, require_ok, exists_unit, unpackConfig_ok, unpackValidator_ok,
      unpackToken_ok, unpackMint_ok, readDel_ok, addU64_ok, writeDel, setData_ok]
    exact ⟨hcO, c, hc, hsO, P.facts.2.2.2.2, v, (validatorAt_eq.1 hv).2, I.validator_at hv P.belongs, w1, hw1, trivial, rfl,
      P.apart_token R.token, td,
      tokenAt_data.1 ht1, R.mint_eq, P.apart_mint hm, mi, mintAt_data.1 hm1, hn, _, H.del', _, ⟨hlt, rfl⟩, _,
      ⟨Or.inr (by rw [H.owner]; exact hsO), rfl⟩, w2, hw2, out1, w3, by rw [hsig]; exact hw3, out2, hw4⟩
  · rcases same k with h | h | h | h | h | h | h | h | h
    all_goals first
      | exact Or.inr h
      | (subst h; exact Or.inl (hw _ (by simp)))
  · simp only [List.mem_cons, List.not_mem_nil, or_false] at hk
    rw [hl]
    rcases hk with rfl | rfl | rfl | rfl | rfl <;> simp

theorem live_stakeSolStaker (I : Inv env w) {n : Nat} (hi : ix.decoded = some (.solStakerStakeTokens n))
    {ck sk src sauth mk pool pt : Key} {c : Config} {v : SolStakerStake} {ts td : TokenAccount} {mi : Mint}
    {ok : TokenAccount → Prop} {after : TokenAccount → TokenAccount} {rest : List Key}
    (hl : ix.ctx.accts = ck :: pool :: pt :: sk :: v.del.authority :: src :: sauth :: mk :: env.vaultAuth ck :: c.vault ::
      vaultRecord env ck :: tokenId :: rewardsId :: rest)
    (hsig : ix.ctx.signer sauth = true) (hv : solStakerAt w sk = some v) (hn : 0 < n) (hlt : v.del.staked + n < 2 ^ 64)
    (P : Payable env w ck sk c v.del) (F : Fits c v.del (v.del.staked + n) v.lamports)
    (S : Spendable w src mk sauth ts n) (R : Receives w c.vault mk td n) (hto : td.owner = env.vaultAuth ck)
    (hm : mintAt w mk = some mi) (hne : src ≠ c.vault)
    (D : Ready o.deposit w (vaultCall env ck c pool pt mk n) ok after) (hok : ok { td with amount := td.amount + n })
    (hpt : pt ≠ src) (hw : ix.Writes [ck, pool, pt, sk, src, env.vaultAuth ck, c.vault, vaultRecord env ck])
    (hwa : ix.ctx.writable v.del.authority = true ∨ accrued env w ck sk = 0)
    (hsa : sauth ≠ ck ∧ sauth ≠ sk) (hct : ck ≠ tokenId)
    (hpay : v.del.authority ∉ [src, mk, c.vault, sauth, pool, pt, vaultRecord env ck, env.vaultAuth ck, tokenId] ∨
      accrued env w ck sk = 0) :
    ∃ w', exec env o w ix = .ok w' := by
  obtain ⟨hcO, hc, hsO, hd, _⟩ := P.facts
  obtain ⟨hx, hhx⟩ := Option.isSome_iff_exists.1 P.record
  obtain ⟨w1, h, rs, rh, w2, w3, w4, hw1, H, hp, ht1, hm1, hw2, out1, hw3, out2, hw4, same, bal⟩ := stake_core (ctx := ix.ctx)
    (l := v.lamports) (lmin := 0)
    I P (by rw [Nat.max_zero]; exact F) S R hm hne (I.foreign_mint hm) D hok (I.foreign_holder hhx) hpt (hw _ (by simp)) (hw _ (by simp)) hsa hct hpay
  refine ⟨w4, settle_exec_sum hi H P.payee (by simp [hl]) (by simp [hl]) (fun k hk => hw k ?_) (by rw [hp]; exact hwa) ?_
    (fun k _ => ?_) (bal _ fun k hk => ?_)⟩
  · simp only [List.mem_cons, List.not_mem_nil, or_false] at hk ⊢; tauto
  · unfold dispatch
    rw [hl]
    simp only [solStakerStakeTokens, bind_ok, require_ok, exists_unit, unpackConfig_ok, unpackSolStaker_ok,
      unpackToken_ok, unpackMint_ok, readDel_ok, addU64_ok, writeDel, setData_ok]
    exact ⟨hcO, c, hc, hsO, P.facts.2.2.2.2, v, (solStakerAt_eq.1 hv).2, I.solStaker_at hv P.belongs, w1, hw1, trivial, rfl,
      P.apart_token R.token, td,
      tokenAt_data.1 ht1, hto, R.mint_eq, P.apart_mint hm, mi, mintAt_data.1 hm1, hn, _, H.del', _, ⟨hlt, rfl⟩, _,
      ⟨Or.inr (by rw [H.owner]; exact hsO), rfl⟩, w2, hw2, out1, w3, by rw [hsig]; exact hw3, out2, hw4⟩
  · rcases same k with h | h | h | h | h | h | h | h | h
    all_goals first
      | exact Or.inr h
      | (subst h; exact Or.inl (hw _ (by simp)))
  · simp only [List.mem_cons, List.not_mem_nil, or_false] at hk
    rw [hl]
    rcases hk with rfl | rfl | rfl | rfl | rfl <;> simp

theorem unstake_out {ck rk sk dst mk vk pool pt : Key} {c : Config} {d : Delegation} {h : HolderRewards} {rs rh : Nat}
    {w1 w2 w3 : World} (H : Harvested env w w1 ck rk d.authority (env.vaultAuth ck) sk none c d h rs rh)
    (hcO : (w ck).owner = progId) (hsO : (w sk).owner = progId) (h1 : (w dst).owner ≠ progId) (h2 : (w mk).owner ≠ progId)
    (h3 : (w vk).owner ≠ progId) (h4 : (w pool).owner ≠ progId) (h5 : (w pt).owner ≠ progId) (h6 : (w rk).owner ≠ progId)
    (h9 : ck ≠ tokenId) (hb : belongs sk ck)
    (L2 : ∀ k, (w2 k).lamports = (w1 k).lamports) (L3 : (w3 dst).lamports = (w2 dst).lamports)
    (hpay : d.authority ∉ [pool, pt, rk, vk, mk, env.vaultAuth ck, tokenId, dst] ∨ rs + rh = 0) :
    callOut w w2 [ck, sk] [pool, pt, rk, vk, mk, env.vaultAuth ck, tokenId] = .ok () ∧ callOut (w.known w3 [pool, pt, rk, vk, mk, env.vaultAuth ck, tokenId]) w3 [ck, sk] [vk, mk, dst, env.vaultAuth ck] = .ok () := by
  have nfor : ∀ {k}, (w k).owner = progId → k ≠ tokenId → k ≠ env.vaultAuth ck → k ∉ [pool, pt, rk, vk, mk, env.vaultAuth ck, tokenId, dst] := by
    intro k hk e2 e4 hm
    simp only [List.mem_cons, List.not_mem_nil, or_false] at hm
    rcases hm with rfl | rfl | rfl | rfl | rfl | rfl | rfl | rfl <;> contradiction
  have oc := nfor hcO h9 (vaultAuth_ne ck)
  have os := nfor hsO hb.ne_tokenId hb.ne_vaultAuth
  have s1 : ∀ {k}, k ∈ [pool, pt, rk, vk, mk, env.vaultAuth ck, tokenId] → k ∈ [pool, pt, rk, vk, mk, env.vaultAuth ck, tokenId, dst] := by
    intro k hk
    simp only [List.mem_cons, List.not_mem_nil, or_false] at hk
    rcases hk with rfl | rfl | rfl | rfl | rfl | rfl | rfl <;> simp
  have s2 : ∀ {k}, k ∈ [vk, mk, dst, env.vaultAuth ck] → k ∈ [pool, pt, rk, vk, mk, env.vaultAuth ck, tokenId, dst] := by
    intro k hk
    simp only [List.mem_cons, List.not_mem_nil, or_false] at hk
    rcases hk with rfl | rfl | rfl | rfl <;> simp
  have L : ∀ k ∈ [pool, pt, rk, vk, mk, env.vaultAuth ck, tokenId, dst], (w1 k).lamports = (w k).lamports := fun k hk =>
    H.steady (fun e => oc (e ▸ hk)) (hpay.imp (fun h e => h (e ▸ hk)) id)
  refine ⟨callOut_live (notin_pair (fun h => oc (s1 h)) fun h => os (s1 h)) fun k hk => by rw [L2]; exact L k (s1 hk),
    callOut_live (notin_pair (fun h => oc (s2 h)) fun h => os (s2 h)) fun k hk => ?_⟩
  unfold World.known
  split_ifs with hin
  · rfl
  · have hkd : k = dst := by
      simp only [List.mem_cons, List.not_mem_nil, or_false] at hk
      rcases hk with rfl | rfl | rfl | rfl
      · exact absurd (by simp) hin
      · exact absurd (by simp) hin
      · rfl
      · exact absurd (by simp) hin
    subst hkd
    rw [L3, L2]; exact L _ (s2 hk)

theorem unstake_core (I : Inv env w) {n l lmin : Nat} {ck sk dst mk pool pt : Key} {c : Config} {d : Delegation}
    {tv td : TokenAccount} {mi : Mint} {ok : TokenAccount → Prop} {after : TokenAccount → TokenAccount}
    (P : Payable env w ck sk c d) (F : Fits c d (d.staked - n) (max l lmin))
    (hvt : tokenAt w c.vault = some tv) (hvO : (w c.vault).owner = tokenId)
    (hm : mintAt w mk = some mi)
    (D : Ready o.withdraw w (vaultCall env ck c pool pt mk n) ok after) (hok : ok tv)
    (haf : (after tv).mint = mk ∧ (after tv).frozen = false ∧ (after tv).owner = env.vaultAuth ck ∧
      (after tv).delegate ≠ some (env.vaultAuth ck) ∧ n ≤ (after tv).amount)
    (R : Receives w dst mk td n)
    (hdst : dst ∉ (vaultCall env ck c pool pt mk n).accounts) (hmk : mk ∉ (vaultCall env ck c pool pt mk n).accounts)
    (hsk : ctx.writable dst = true) (hvk : ctx.writable c.vault = true) (cd : Nat)
    (hct : ck ≠ tokenId)
    (hpay : d.authority ∉ [pool, pt, vaultRecord env ck, c.vault, mk, env.vaultAuth ck, tokenId, dst] ∨
      accrued env w ck sk = 0) :
    ∃ w1 h rs rh w2 w3 w4, harvest env w ck (vaultRecord env ck) d.authority (env.vaultAuth ck) sk none = .ok w1 ∧
      Harvested env w w1 ck (vaultRecord env ck) d.authority (env.vaultAuth ck) sk none c d h rs rh ∧
      rs + rh = accrued env w ck sk ∧
      syncEffective (w1.setD sk ((w1 sk).data.setDel
        { d.marked (accNow c (w ck).lamports) h.lastAcc with staked := d.staked - n, cooldown := cd })) ck sk l lmin = .ok w2 ∧
      callOut w w2 [ck, sk] [pool, pt, vaultRecord env ck, c.vault, mk, env.vaultAuth ck, tokenId] = .ok () ∧
      o.withdraw w2 (vaultCall env ck c pool pt mk n) = .ok w3 ∧
      callOut (w.known w3 [pool, pt, vaultRecord env ck, c.vault, mk, env.vaultAuth ck, tokenId]) w3 [ck, sk] [c.vault, mk, dst, env.vaultAuth ck] = .ok () ∧
      tokenTransfer ctx w3 c.vault mk dst (env.vaultAuth ck) true n mi.decimals = .ok w4 ∧
      (∀ k, k = ck ∨ k = sk ∨ k = dst ∨ k = c.vault ∨ k = pool ∨ k = pt ∨ k = vaultRecord env ck ∨ k = env.vaultAuth ck ∨
        w4 k = w1 k) ∧
      (∀ l, (∀ k ∈ [pool, pt, vaultRecord env ck, env.vaultAuth ck, c.vault], k ∈ l) → lamportSum w4 l = lamportSum w1 l) := by
  obtain ⟨hcO, hc, hsO, hd, hskc⟩ := P.facts
  obtain ⟨w1, h, rs, rh, w2, hw1, H, hp, hw2, L2, O2, same2, foreign2⟩ :=
    restake_core (cd := cd) (l := l) (lmin := lmin) I P F
  have O2' : ∀ k, (w2 k).owner = (w k).owner := fun k => by rw [O2, H.owner]
  have hvO' : (w c.vault).owner ≠ progId := by rw [hvO]; decide
  have hdO : (w dst).owner ≠ progId := by rw [R.owned]; decide
  have hmO := I.foreign_mint hm
  obtain ⟨hx, hhx⟩ := Option.isSome_iff_exists.1 P.record
  have hrO := I.foreign_holder hhx
  have hpool := D.pool
  have hptO := D.poolToken
  simp only [vaultCall] at hpool hptO
  have hlam : ∀ k, k ≠ ck → (w k).lamports ≤ (w2 k).lamports := fun k hk => by
    rw [L2, H.lamports', if_neg hk]
    split_ifs with e1 e2
    · subst e1; simp only [authAfterKeeper]; simp
    · simp at e2
    · exact Nat.le_refl _
  obtain ⟨w3, hw3, ht3, O3, same3, bal3⟩ := D.accepts w2 tv (by
      intro k hk
      have hk' : (w k).owner ≠ progId := by
        simp only [vaultCall, List.mem_cons, List.not_mem_nil, or_false] at hk
        rcases hk with rfl | rfl | rfl | rfl
        · rw [hpool]; decide
        · rw [hptO]; decide
        · exact hrO
        · exact hmO
      exact ⟨foreign2 k hk', by rw [O2'], hlam k (by rintro rfl; exact hk' hcO)⟩)
    (by rw [O2']) (tokenAt_data.2 ((foreign2 _ hvO').trans (tokenAt_data.1 hvt))) hok
  have hne : c.vault ≠ dst := by
    rintro e; apply hdst; rw [← e]; simp [RewardsCall.accounts, vaultCall]
  have R3 : Receives w3 dst mk td n := R.congr (by rw [same3 _ hdst]; exact foreign2 _ hdO) (by rw [O3, O2'])
  have S3 : Spendable w3 c.vault mk (env.vaultAuth ck) (after tv) n :=
    ⟨ht3, by rw [O3, O2']; exact hvO, haf.1, haf.2.1, haf.2.2.1, haf.2.2.2.1, haf.2.2.2.2⟩
  have hm3 : mintAt w3 mk = some mi := mintAt_data.2 (by rw [same3 _ hmk, foreign2 _ hmO]; exact mintAt_data.1 hm)
  obtain ⟨w4, hw4, T⟩ := tokenTransfer_live (ctx := ctx) S3 R3 hm3 hne hvk hsk
  obtain ⟨_, e4⟩ := T.other hne
  have L4 : ∀ k, (w4 k).lamports = (w3 k).lamports := fun k => by rw [e4]; simp
  obtain ⟨out1, out2⟩ := unstake_out H hcO hsO hdO hmO hvO' (by rw [hpool]; decide) (by rw [hptO]; decide) hrO hct P.belongs
    L2 (congrArg Account.lamports (same3 _ hdst)) (hpay.imp id (hp.trans ·))
  clear hpay
  refine ⟨w1, h, rs, rh, w2, w3, w4, hw1, H, hp, hw2, out1, hw3, out2, hw4, fun k => ?_, fun l hl => ?_⟩
  · by_cases k1 : k = ck
    · exact Or.inl k1
    by_cases k2 : k = sk
    · exact Or.inr (Or.inl k2)
    by_cases k3 : k = dst
    · exact Or.inr (Or.inr (Or.inl k3))
    by_cases k4 : k = c.vault
    · exact Or.inr (Or.inr (Or.inr (Or.inl k4)))
    by_cases k5 : k ∈ (vaultCall env ck c pool pt mk n).accounts
    · simp only [RewardsCall.accounts, vaultCall, List.mem_cons, List.not_mem_nil, or_false] at k5
      tauto
    · rw [← same2 k k1 k2, ← same3 k k5]
      have : w4 k = w3 k := account_ext (L4 k) (by rw [e4]; simp)
        (by rw [e4, World.setD_data, if_neg k3, World.setD_data, if_neg k4])
      tauto
  · rw [lamportSum_congr l L4, bal3 l hl, lamportSum_congr l L2]

theorem live_unstake (I : Inv env w) {n : Nat} (hi : ix.decoded = some (.unstakeTokens n))
    {ck sk dst mk pool pt : Key} {c : Config} {d : Delegation} {l : Nat}
    {tv td : TokenAccount} {mi : Mint} {ok : TokenAccount → Prop} {after : TokenAccount → TokenAccount} {rest : List Key}
    (hl : ix.ctx.accts = ck :: pool :: pt :: sk :: d.authority :: c.vault :: env.vaultAuth ck :: vaultRecord env ck :: mk ::
      dst :: tokenId :: rewardsId :: rest)
    (hsig : ix.ctx.signer d.authority = true)
    (P : Payable env w ck sk c d)
    (hk : (∃ v, validatorAt w sk = some v ∧ l = max v.total v.min) ∨ ∃ s, solStakerAt w sk = some s ∧ l = s.lamports)
    (hcd : d.cooldown ≤ o.now) (hn : n ≤ d.staked) (hmax : n ≤ d.staked * c.maxBps / maxBasisPoints)
    (F : Fits c d (d.staked - n) l)
    (hvt : tokenAt w c.vault = some tv) (hvO : (w c.vault).owner = tokenId) (hvm : tv.mint = mk)
    (hm : mintAt w mk = some mi)
    (D : Ready o.withdraw w (vaultCall env ck c pool pt mk n) ok after) (hok : ok tv)
    (haf : (after tv).mint = mk ∧ (after tv).frozen = false ∧ (after tv).owner = env.vaultAuth ck ∧
      (after tv).delegate ≠ some (env.vaultAuth ck) ∧ n ≤ (after tv).amount)
    (R : Receives w dst mk td n)
    (hdst : dst ∉ (vaultCall env ck c pool pt mk n).accounts) (hmk : mk ∉ (vaultCall env ck c pool pt mk n).accounts)
    (hw : ix.Writes [ck, pool, pt, sk, c.vault, env.vaultAuth ck, vaultRecord env ck, dst])
    (hwa : ix.ctx.writable d.authority = true ∨ accrued env w ck sk = 0)
    (hct : ck ≠ tokenId)
    (hpay : d.authority ∉ [pool, pt, vaultRecord env ck, c.vault, mk, env.vaultAuth ck, tokenId, dst] ∨
      accrued env w ck sk = 0) :
    ∃ w', exec env o w ix = .ok w' := by
  obtain ⟨hcO, hc, hsO, hd, _⟩ := P.facts
  have hvne : c.vault ≠ dst := by
    rintro e; apply hdst; rw [← e]; simp [RewardsCall.accounts, vaultCall]
  obtain ⟨l1, l2, hlm, hview⟩ : ∃ l1 l2, l = max l1 l2 ∧ unstakeView w sk ck = .ok (sk, l1, l2) := by
    rcases hk with ⟨v, hv, rfl⟩ | ⟨s, hs, rfl⟩
    · refine ⟨v.total, v.min, rfl, ?_⟩
      unfold unstakeView
      have hdv := (validatorAt_eq.1 hv).2
      rw [if_pos (by rw [hdv]; rfl)]
      simp only [bind_ok, unpackValidator_ok, pure_ok]
      exact ⟨v, hdv, by rw [← I.validator_at hv P.belongs]⟩
    · refine ⟨s.lamports, 0, (Nat.max_zero _).symm, ?_⟩
      unfold unstakeView
      have hdv := (solStakerAt_eq.1 hs).2
      rw [if_neg (by rw [hdv]; simp [Data.len, validatorLen, solStakerLen]), if_pos (by rw [hdv]; rfl)]
      simp only [bind_ok, unpackSolStaker_ok, pure_ok]
      exact ⟨s, hdv, by rw [← I.solStaker_at hs P.belongs]⟩
  rw [hlm] at F
  obtain ⟨w1, h, rs, rh, w2, w3, w4, hw1, H, hp, hw2, out1, hw3, out2, hw4, same, bal⟩ := unstake_core (ctx := ix.ctx)
    I P F hvt hvO hm D hok haf R hdst hmk (hw _ (by simp)) (hw _ (by simp)) (satAdd o.now c.cooldownTime) hct hpay
  have hb := (I.config ck c P.config).bps
  have hst : d.staked < U64 := by
    have h1 := (I.wf.1 sk).2
    cases hdd : (w sk).data <;> rw [hdd] at hd h1 <;> simp [Data.del?] at hd
    · rw [← hd]; exact h1.1.1
    · rw [← hd]; exact h1.1.1
  refine ⟨w4, settle_exec_sum hi H P.payee (by simp [hl]) (by simp [hl]) (fun k hk => hw k ?_) (by rw [hp]; exact hwa) ?_
    (fun k _ => ?_) (bal _ fun k hk => ?_)⟩
  · simp only [List.mem_cons, List.not_mem_nil, or_false] at hk ⊢; tauto
  · unfold dispatch
    rw [hl]
    simp only [unstakeTokens, bind_ok, require_ok, exists_unit, unpackConfig_ok, unpackToken_ok, unpackMint_ok,
      readDel_ok, subU64_ok, writeDel, setData_ok, mulDivU64_ok, Prod.exists]
    refine ⟨hcO, c, hc, rfl, hvne, (P.apart_token hvt).1, tv, tokenAt_data.1 hvt, trivial, hsO,
      ⟨P.facts.2.2.2.2, (P.apart_token hvt).2.symm⟩, sk, l1, l2, hview, rfl, d, hd, hsig, rfl,
      hvm, P.apart_mint hm, mi, mintAt_data.1 hm, w1, hw1, _, H.del', hcd, hn, _, ⟨⟨?_, ?_⟩, rfl⟩, hmax, _, ⟨hn, rfl⟩, _,
      ⟨Or.inr (by rw [H.owner]; exact hsO), rfl⟩, w2, hw2, out1, w3, hw3, out2, hw4⟩
    · show d.staked * c.maxBps < U128
      have : d.staked * c.maxBps ≤ U64 * maxBasisPoints := Nat.mul_le_mul (Nat.le_of_lt hst) hb
      refine Nat.lt_of_le_of_lt this ?_
      unfold U64 U128 maxBasisPoints; decide
    · show d.staked * c.maxBps / maxBasisPoints < U64
      refine Nat.lt_of_le_of_lt ?_ hst
      have : d.staked * c.maxBps ≤ d.staked * maxBasisPoints := Nat.mul_le_mul_left _ hb
      exact (Nat.div_le_div_right this).trans (Nat.le_of_eq (Nat.mul_div_cancel _ (by decide)))
  · rcases same k with h | h | h | h | h | h | h | h | h
    all_goals first
      | exact Or.inr h
      | (subst h; exact Or.inl (hw _ (by simp)))
  · simp only [List.mem_cons, List.not_mem_nil, or_false] at hk
    rw [hl]
    rcases hk with rfl | rfl | rfl | rfl | rfl <;> simp

end Verif
