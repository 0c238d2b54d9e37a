import Verif.Lemmas.LiveToken
/-!
# Success of the initialisations and of harvesting holder rewards
-/

namespace Verif

variable {env : Env} {o : Oracle} {ctx : Ctx} {w w' : World} {ix : Ix}

theorem Inv.free_validator (I : Inv env w) {vote ck : Key} (h : validatorAt w (.validatorPda vote ck) = none) :
    (w (.validatorPda vote ck)).owner = systemId ∧ (w (.validatorPda vote ck)).data = .bytes [] := by
  refine I.unowned _ rfl fun hO => ?_
  obtain ⟨x, hx, _⟩ := I.shape _ hO
  rw [validatorAt_eq.2 ⟨hO, hx⟩] at h; cases h

theorem Inv.free_solStaker (I : Inv env w) {n ck : Key} (h : solStakerAt w (.solStakerPda n ck) = none) :
    (w (.solStakerPda n ck)).owner = systemId ∧ (w (.solStakerPda n ck)).data = .bytes [] := by
  refine I.unowned _ rfl fun hO => ?_
  obtain ⟨x, hx, _⟩ := I.shape _ hO
  rw [solStakerAt_eq.2 ⟨hO, hx⟩] at h; cases h

theorem live_initValidator (I : Inv env w) (hi : ix.decoded = some .initializeValidatorStake) {ck vote wd : Key} {c : Config}
    {rest : List Key} {b : List UInt8}
    (hl : ix.ctx.accts = ck :: .dunaPda wd c.dunaHash :: .validatorPda vote ck :: vote :: systemId :: rest)
    (hc : configAt w ck = some c) (hvO : (w vote).owner = voteId) (hvd : (w vote).data = .vote wd)
    (hduna : (w (.dunaPda wd c.dunaHash)).data = .bytes (1 :: b))
    (hnew : validatorAt w (.validatorPda vote ck) = none)
    (hrent : env.rentMin validatorLen ≤ (w (.validatorPda vote ck)).lamports)
    (hw : ix.ctx.writable (.validatorPda vote ck) = true) : ∃ w', exec env o w ix = .ok w' := by
  obtain ⟨hcO, hcd⟩ := configAt_eq.1 hc
  obtain ⟨hsO, hsd⟩ := I.free_validator hnew
  have hsys : systemId ≠ progId := by decide
  set k := Key.validatorPda vote ck with ek
  set w1 := w.set k { w k with data := .bytes (List.replicate validatorLen 0) } with e1
  set w2 := w1.set k { w1 k with owner := progId } with e2
  have h1O : (w1 k).owner = systemId := by rw [e1, World.set_apply, if_pos rfl]; exact hsO
  have h2O : (w2 k).owner = progId := by rw [e2, World.set_apply, if_pos rfl]
  let D : Data := .validator
    { del :=
        { staked := 0, effective := 0, cooldown := 0, authority := wd, vote := vote, lastHolder := 0, lastStake := 0 }
      total := 0
      min := 0 }
  refine ⟨w2.setD k D, exec_of_dispatch hi ?_ (fun x _ => ?_) (lamportSum_congr _ fun x => ?_)⟩
  · unfold dispatch
    rw [hl]
    simp only [initializeValidatorStake, bind_ok, require_ok, exists_unit, unpackConfig_ok, unpackVote_ok, checkDuna,
      systemAllocate, systemAssign, setData_ok, pure_ok]
    refine ⟨hcO, c, hcd, wd, ⟨hvO, hvd⟩, ⟨rfl, ?_⟩, rfl, by rw [hsd]; rfl, hrent, w1, ⟨⟨by rw [hsd]; rfl, hsO⟩, hw, rfl⟩,
      w2, ?_, Or.inr h2O, rfl⟩
    · rw [hduna]; rfl
    · rw [if_neg (by rw [h1O]; exact hsys)]
      simp only [bind_ok, require_ok, exists_unit, pure_ok]
      exact ⟨h1O, hw, rfl⟩
  · by_cases hx : x = k
    · subst hx; exact Or.inl hw
    · right
      unfold World.setD
      rw [World.set_apply, if_neg hx, e2, World.set_apply, if_neg hx, e1, World.set_apply, if_neg hx]
  · unfold World.setD
    rw [World.set_apply]; split_ifs with hx
    · subst hx; simp [e2, e1]
    · rw [e2, World.set_apply, if_neg hx, e1, World.set_apply, if_neg hx]

theorem live_initSolStaker (I : Inv env w) (hi : ix.decoded = some .initializeSolStakerStake) {ck native : Key} {c : Config}
    {v : StakeView} {vs : ValidatorStake} {rest : List Key} {b : List UInt8} {hist : Key}
    (hl : ix.ctx.accts = ck :: .dunaPda v.withdrawer c.dunaHash :: .solStakerPda native ck :: .overridePda v.withdrawer ck ::
      .validatorPda v.delegatedVote ck :: native :: hist :: systemId :: viewId :: rest)
    (hc : configAt w ck = some c) (hview : o.view native = .ok v) (hdel : v.delegatedVote ≠ .default)
    (hwd : v.withdrawer ≠ .default)
    (hduna : (w (.dunaPda v.withdrawer c.dunaHash)).data = .bytes (1 :: b))
    (hval : validatorAt w (.validatorPda v.delegatedVote ck) = some vs) (hlt : vs.total + v.effective < 2 ^ 64)
    (hnew : solStakerAt w (.solStakerPda native ck) = none)
    (hrent : env.rentMin solStakerLen ≤ (w (.solStakerPda native ck)).lamports)
    (hw : ix.Writes [.solStakerPda native ck, .validatorPda v.delegatedVote ck]) : ∃ w', exec env o w ix = .ok w' := by
  obtain ⟨hcO, hcd⟩ := configAt_eq.1 hc
  obtain ⟨hsO, hsd⟩ := I.free_solStaker hnew
  obtain ⟨hvO, hvd⟩ := validatorAt_eq.1 hval
  have hsys : systemId ≠ progId := by decide
  have hover : (w (.overridePda v.withdrawer ck)).data = .bytes [] := by
    refine (I.unowned _ rfl fun hO => ?_).2
    exact I.shape _ hO
  have hw1 : ix.ctx.writable (.solStakerPda native ck) = true := hw _ (by simp)
  have hw2 : ix.ctx.writable (.validatorPda v.delegatedVote ck) = true := hw _ (by simp)
  set k := Key.solStakerPda native ck with ek
  have hne : Key.validatorPda v.delegatedVote ck ≠ k := by rw [ek]; simp
  set kv := Key.validatorPda v.delegatedVote ck with ekv
  set w1 := w.set k { w k with data := .bytes (List.replicate solStakerLen 0) } with e1
  set w2 := w1.set k { w1 k with owner := progId } with e2
  have h1O : (w1 k).owner = systemId := by rw [e1, World.set_apply, if_pos rfl]; exact hsO
  have h2O : (w2 k).owner = progId := by rw [e2, World.set_apply, if_pos rfl]
  have hother : ∀ x, x ≠ k → w2 x = w x := fun x hx => by
    rw [e2, World.set_apply, if_neg hx, e1, World.set_apply, if_neg hx]
  let D : Data := .solStaker
    { del :=
        { staked := 0, effective := 0, cooldown := 0, authority := v.withdrawer, vote := v.delegatedVote, lastHolder := 0,
          lastStake := 0 }
      lamports := v.effective
      solStake := native }
  have hlam : ∀ x, (w2 x).lamports = (w x).lamports := fun x => by
    by_cases hx : x = k
    · subst hx; simp [e2, e1]
    · rw [hother x hx]
  refine ⟨(w2.setD k D).setD kv (.validator { vs with total := vs.total + v.effective }),
    exec_of_dispatch hi ?_ (fun x _ => ?_) (lamportSum_congr _ fun x => ?_)⟩
  · unfold dispatch
    rw [hl]
    simp only [initializeSolStakerStake, bind_ok, require_ok, exists_unit, unpackConfig_ok, unpackValidator_ok, checkDuna,
      systemAllocate, systemAssign, setData_ok, addU64_ok, pure_ok]
    refine ⟨hcO, c, hcd, trivial, v, hview, hdel, hwd, ⟨rfl, ?_⟩, hvO, rfl, vs, hvd, rfl, by rw [hsd]; rfl, rfl, none, ?_,
      hrent, w1, ⟨⟨by rw [hsd]; rfl, hsO⟩, hw1, rfl⟩, w2, ?_, w2.setD k D, ⟨Or.inr h2O, rfl⟩, _, ⟨hlt, rfl⟩, Or.inr ?_, rfl⟩
    · rw [hduna]; rfl
    · unfold readOverride; rw [hover]; rfl
    · rw [if_neg (by rw [h1O]; exact hsys)]
      simp only [bind_ok, require_ok, exists_unit, pure_ok]
      exact ⟨h1O, hw1, rfl⟩
    · rw [World.setD_owner, hother _ hne]; exact hvO
  · by_cases hx : x = k
    · subst hx; exact Or.inl hw1
    by_cases hy : x = kv
    · subst hy; exact Or.inl hw2
    · right
      unfold World.setD
      rw [World.set_apply, if_neg hy, World.set_apply, if_neg hx, hother x hx]
  · rw [World.setD_lamports, World.setD_lamports, hlam]

theorem live_initConfig (I : Inv env w) {sa ca : List UInt8} {ct bps sync : Nat} {hash : List UInt8}
    (hi : ix.decoded = some (.initializeConfig sa ca ct bps sync hash)) {ck mk vault : Key} {t : TokenAccount} {b : List UInt8}
    {rest : List Key}
    (hl : ix.ctx.accts = ck :: mk :: env.vaultAuth ck :: vault :: vaultRecord env ck :: systemId :: rewardsId :: rest)
    (hm : (mintAt w mk).isSome = true) (ht : tokenAt w vault = some t) (hto : t.owner = env.vaultAuth ck)
    (htc : t.closeAuthority = none) (htd : t.delegate = none) (htm : t.mint = mk) (hta : t.amount = 0)
    (hcO : (w ck).owner = progId) (hcd : (w ck).data = .bytes b) (hlen : b.length = configLen)
    (hzero : b.take 8 = List.replicate 8 0) (hrent : env.rentMin configLen ≤ (w ck).lamports) (hbps : bps ≤ 10000)
    (hw : ix.Writes [ck, env.vaultAuth ck]) : ∃ w', exec env o w ix = .ok w' := by
  obtain ⟨mi, hm⟩ := Option.isSome_iff_exists.1 hm
  have hsys : systemId ≠ progId := by decide
  have hcm : ck ≠ mk := by rintro rfl; have := mintAt_data.1 hm; rw [hcd] at this; cases this
  have hcv : ck ≠ vault := by rintro rfl; have := tokenAt_data.1 ht; rw [hcd] at this; cases this
  set va := env.vaultAuth ck with eva
  have hva : va ≠ ck := by
    intro e; have := congrArg sizeOf e; rw [eva] at this; unfold Env.vaultAuth at this; simp at this; omega
  have hvd : (w va).data = .bytes [] := by
    by_cases h : (w va).owner = progId
    · exact I.shape _ h
    · exact (I.unowned va rfl h).2
  have hvt : vault ≠ va := by
    rintro rfl; have := tokenAt_data.1 ht; rw [hvd] at this; cases this
  -- the assignment of the vault authority
  obtain ⟨w1, hw1, hd1, hl1, ho1, hs1⟩ : ∃ w1, systemAssign ix.ctx w va = .ok w1 ∧ (∀ k, (w1 k).data = (w k).data) ∧
      (∀ k, (w1 k).lamports = (w k).lamports) ∧ (∀ k, k ≠ va → w1 k = w k) ∧ (w1 va).owner = progId := by
    by_cases h : (w va).owner = progId
    · refine ⟨w, ?_, fun _ => rfl, fun _ => rfl, fun _ _ => rfl, h⟩
      unfold systemAssign; rw [if_pos h]; rfl
    · refine ⟨w.setO va progId, ?_, fun k => World.setO_data .., fun k => World.setO_lamports .., fun k hk => ?_, ?_⟩
      · unfold systemAssign; rw [if_neg h]
        simp only [bind_ok, require_ok, exists_unit, pure_ok]
        exact ⟨(I.unowned va rfl h).1, hw _ (by simp), rfl⟩
      · unfold World.setO; rw [World.set_apply, if_neg hk]
      · rw [World.setO_owner, if_pos rfl]
  have hc1 : w1 ck = w ck := ho1 ck (Ne.symm hva)
  let C : Config :=
    { authority := env.keyOfBytes ca, slashAuthority := env.keyOfBytes sa, vault := vault, cooldownTime := ct, effTotal := 0,
      lamportsLast := (w1 ck).lamports, acc := 0, maxBps := bps, dunaHash := hash, syncRewards := sync,
      bump := env.vaultBump ck }
  refine ⟨w1.setD ck (.config C), exec_of_dispatch hi ?_ (fun x _ => ?_) (lamportSum_congr _ fun x => ?_)⟩
  · unfold dispatch
    rw [hl]
    simp only [initializeConfig, bind_ok, require_ok, exists_unit, unpackMint_ok, unpackToken_ok, setData_ok]
    refine ⟨mi, mintAt_data.1 hm, rfl, by rw [hvd]; rfl, w1, hw1, rfl, t, by rw [hd1]; exact tokenAt_data.1 ht, hto, htc, htd,
      htm, hta, ⟨hcm, hcv⟩, by rw [hc1]; exact hcO, ?_, by rw [hc1]; exact hrent, hbps, Or.inr (by rw [hc1]; exact hcO), rfl⟩
    rw [hc1, hcd]
    unfold checkConfigUninit
    rw [if_neg (by simp [Data.len, hlen])]
    exact require_ok.2 hzero
  · by_cases hx : x = ck
    · subst hx; exact Or.inl (hw _ (by simp))
    by_cases hy : x = va
    · subst hy; exact Or.inl (hw _ (by simp))
    · right
      unfold World.setD
      rw [World.set_apply, if_neg hx, ho1 x hy]
  · rw [World.setD_lamports, hl1]

theorem live_harvestHolder (I : Inv env w) (hi : ix.decoded = some .harvestHolderRewards) {ck pool pt mk : Key} {c : Config}
    {t : TokenAccount} {p : Nat} {rest : List Key}
    (hl : ix.ctx.accts = ck :: pool :: pt :: c.vault :: vaultRecord env ck :: env.vaultAuth ck :: mk :: tokenId :: rewardsId ::
      systemId :: rest)
    (hc : configAt w ck = some c) (ht : tokenAt w c.vault = some t) (htm : t.mint = mk)
    (hrO : (w (vaultRecord env ck)).owner = rewardsId)
    (hva : (w (env.vaultAuth ck)).owner = progId)
    (hrent : env.rentMin 0 ≤ (w (env.vaultAuth ck)).lamports + p)
    (hcall : ck ≠ mk ∧ ck ∉ (harvestCall env ck pool pt mk).accounts)
    (Y : Pays o.harvestRewards w (harvestCall env ck pool pt mk) p)
    (hsup : (w (env.vaultAuth ck)).lamports + p + (w ck).lamports < 2 ^ 64)
    (hw : ix.Writes [ck, pool, pt, vaultRecord env ck, env.vaultAuth ck]) : ∃ w', exec env o w ix = .ok w' := by
  obtain ⟨hcO, hcd⟩ := configAt_eq.1 hc
  have hcv : c.vault ≠ ck := by intro e; have := tokenAt_data.1 ht; rw [e, hcd] at this; cases this
  obtain ⟨b1, b2⟩ := bump_facts I hc
  obtain ⟨c1, hc1⟩ := syncConfigLamports_live (I.config ck c hc).last_le (I.wf.1 ck).1
  set va := env.vaultAuth ck with eva
  have hne : va ≠ ck := by
    intro e; have := congrArg sizeOf e; rw [eva] at this; unfold Env.vaultAuth at this; simp at this; omega
  have hvd : (w va).data = .bytes [] := I.shape _ hva
  set w1 := w.setD ck (.config c1) with e1
  have same1 : ∀ k, k ≠ ck → w1 k = w k := fun k hk => by rw [e1]; unfold World.setD; rw [World.set_apply, if_neg hk]
  obtain ⟨w2, hw2, hpay, O2, same2, bal2⟩ := Y.accepts w1 (fun k hk => same1 k (by
    rintro rfl; rcases hk with h | h
    · exact hcall.1 h
    · exact hcall.2 h))
  have hpay : w2 va = { w1 va with lamports := (w1 va).lamports + p } := hpay
  rw [same1 va hne] at hpay
  have h2d : (w2 va).data.len = 0 := by rw [hpay]; show (w va).data.len = 0; rw [hvd]; rfl
  have h2l : (w2 va).lamports = (w va).lamports + p := by rw [hpay]
  have h2O : (w2 va).owner = progId := by rw [hpay]; exact hva
  have h2c : w2 ck = w1 ck := same2 ck hcall.2
  have h2cl : (w2 ck).lamports = (w ck).lamports := by rw [h2c, e1, World.setD_lamports]
  have h2cd : (w2 ck).data = .config c1 := by rw [h2c, e1, World.setD_data]; exact if_pos rfl
  have h2cO : (w2 ck).owner = progId := by rw [h2c, e1, World.setD_owner]; exact hcO
  set x := (w va).lamports + p - env.rentMin 0 with ex
  set w3 := w2.setL va ((w2 va).lamports - ((w2 va).lamports - env.rentMin 0)) with e3
  have h3c : (w3 ck).lamports = (w ck).lamports := by rw [e3, World.setL_lamports, if_neg (Ne.symm hne), h2cl]
  set w4 := w3.setL ck (((w3 ck).lamports + ((w2 va).lamports - env.rentMin 0)) % U64) with e4
  have hU : (w ck).lamports + x < U64 := by unfold U64; omega
  have h4c : (w4 ck).lamports = (w ck).lamports + x := by
    rw [e4, World.setL_lamports, if_pos rfl, h3c, h2l, Nat.mod_eq_of_lt hU]
  have htr : transferExcess env w2 va ck = .ok w4 := by
    simp only [transferExcess, bind_ok, require_ok, exists_unit, setLamports_ok, h2d]
    refine ⟨by omega, Or.inr (by rw [h2l, h2cl]; exact hsup), w3, ⟨Or.inr h2O, rfl⟩, Or.inl ?_, rfl⟩
    rw [h3c, h2l, Nat.mod_eq_of_lt hU]; omega
  have h4cd : (w4 ck).data = .config c1 := by rw [e4, e3, World.setL_data, World.setL_data]; exact h2cd
  have h4cO : (w4 ck).owner = progId := by rw [e4, e3, World.setL_owner, World.setL_owner]; exact h2cO
  refine ⟨w4.setD ck (.config { c1 with lamportsLast := (w4 ck).lamports }), exec_of_dispatch hi ?_ (fun k _ => ?_) ?_⟩
  · unfold dispatch
    rw [hl]
    simp only [harvestHolderRewards, bind_ok, require_ok, exists_unit, unpackConfig_ok, unpackToken_ok, createVaultPda_ok,
      setData_ok]
    exact ⟨hcO, c, hcd, rfl, hcv, t, tokenAt_data.1 ht, htm, va, ⟨b1, b2.symm⟩, rfl, hrO, rfl, c1, hc1, w1, ⟨Or.inr hcO, rfl⟩, w2,
      hw2, w4, htr, c1, h4cd, Or.inr h4cO, rfl⟩
  · by_cases k1 : k = ck
    · subst k1; exact Or.inl (hw _ (by simp))
    by_cases k2 : k ∈ (harvestCall env ck pool pt mk).accounts
    · left
      refine hw k ?_
      simp only [RewardsCall.accounts, harvestCall, List.mem_cons, List.not_mem_nil, or_false] at k2 ⊢
      tauto
    · right
      have k3 : k ≠ va := by intro e; apply k2; rw [e, eva]; simp [RewardsCall.accounts, harvestCall]
      have : w2 k = w k := by rw [same2 k k2, same1 k k1]
      rw [← this]
      refine account_ext ?_ ?_ ?_
      · rw [World.setD_lamports, e4, World.setL_lamports, if_neg k1, e3, World.setL_lamports, if_neg k3]
      · rw [World.setD_owner, e4, e3, World.setL_owner, World.setL_owner]
      · rw [World.setD_data, if_neg k1, e4, e3, World.setL_data, World.setL_data]
  · have hb := bal2 ix.ctx.accts (by
      intro k hk
      simp only [RewardsCall.accounts, harvestCall, List.mem_cons, List.not_mem_nil, or_false] at hk
      rw [hl]; simp only [List.mem_cons]; tauto)
    rw [lamportSum_congr (w := w) (w' := w1) _ (fun k => by rw [e1, World.setD_lamports])] at hb
    rw [lamportSum_congr (w := w4) _ (fun k => World.setD_lamports ..), ← hb, lamportSum_eq, lamportSum_eq]
    have m1 : va ∈ ix.ctx.accts.toFinset := by simp [hl]
    have m2 : ck ∈ ix.ctx.accts.toFinset := by simp [hl]
    have s1 := sum_change (f := fun k => (w2 k).lamports) (g := fun k => (w3 k).lamports) m1 (fun k hk => by
      show (w3 k).lamports = (w2 k).lamports
      rw [e3, World.setL_lamports, if_neg hk])
    have s2 := sum_change (f := fun k => (w3 k).lamports) (g := fun k => (w4 k).lamports) m2 (fun k hk => by
      show (w4 k).lamports = (w3 k).lamports
      rw [e4, World.setL_lamports, if_neg hk])
    have h3v : (w3 va).lamports = env.rentMin 0 := by rw [e3, World.setL_lamports, if_pos rfl]; omega
    simp only [h3v, h3c, h4c, h2l] at s1 s2
    omega

end Verif
