import Verif.Lemmas.Debit
import Verif.Lemmas.Token
/-!
# Whose account the vault authority is
-/

namespace Verif

variable {env : Env} {o : Oracle} {w w' w1 : World} {ix : Ix}

/-- The account belongs to the program and is not empty. -/
def Held (w : World) (k : Key) : Prop := (w k).owner = progId ∧ 0 < (w k).lamports

/-- What a step may do to the ownership of an account: foreign accounts stay foreign, and accounts held stay with the program. -/
def KeepsSide (w w' : World) (k : Key) : Prop :=
  ((w k).owner ≠ progId → (w' k).owner ≠ progId) ∧ (Held w k → (w' k).owner = progId)

theorem KeepsSide.of_owner {k : Key} (h : (w' k).owner = (w k).owner) : KeepsSide w w' k :=
  ⟨fun hn => by rwa [h], fun hh => h.trans hh.1⟩

theorem KeepsSide.ext {k : Key} (E : ExtStep w w') (hk : k.ofProgram = true) : KeepsSide w w' k := by
  obtain ⟨h1, h2⟩ := E.2 k
  refine ⟨fun hn => ?_, fun hh => ?_⟩
  · rw [((h2 hn).1 hk).1]; exact hn
  · rcases h1 hh.1 with h | h
    · exact h.1
    · have := hh.2; omega

/-- Before the step, the same owner and no fewer lamports. -/
theorem KeepsSide.before {k : Key} (X : KeepsSide w1 w' k) (ho : (w1 k).owner = (w k).owner)
    (hl : (w k).lamports ≤ (w1 k).lamports) : KeepsSide w w' k :=
  ⟨fun hn => X.1 (by rwa [ho]), fun hh => X.2 ⟨ho.trans hh.1, Nat.lt_of_lt_of_le hh.2 hl⟩⟩

/-- After the step, the same owner. -/
theorem KeepsSide.after {k : Key} (X : KeepsSide w w1 k) (ho : (w' k).owner = (w1 k).owner) : KeepsSide w w' k :=
  ⟨fun hn => by rw [ho]; exact X.1 hn, fun hh => ho.trans (X.2 hh)⟩

theorem settled_wf (I : Inv env w) {ck : Key} {c : Config} (hc : (w ck).data = .config c) {n : Nat} :
    (w.setD ck (.config (c.settled (w ck).lamports n))).WF ∨ U64 ≤ n := by
  by_cases hn : n < U64
  · left
    refine ⟨fun k => ⟨by simpa using (I.wf.1 k).1, ?_⟩, by simpa using I.wf.2⟩
    rw [World.setD_data]
    split_ifs
    · obtain ⟨q1, q2, q3, q4, q5, q6, q7⟩ := wf_config I hc
      have := (I.wf.1 ck).1
      exact ⟨q1, q2, q3, by simp only [Config.settled]; omega, accNow_lt _ _, q6, q7⟩
    · exact (I.wf.1 k).2
  · right; omega

theorem exec_side (I : Inv env w) (O : o.Ok) (h : exec env o w ix = .ok w') {ck : Key} {c : Config} (hck : configAt w ck = some c) :
    KeepsSide w w' (env.vaultAuth ck) := by
  have hp : (env.vaultAuth ck).ofProgram = true := rfl
  have hne : ∀ {k : Key} {d : Config}, (w k).owner = progId → (w k).data = .config d → env.vaultAuth ck ≠ k := by
    intro k d h1 h2 e
    have := I.config_key (configAt_eq.2 ⟨h1, h2⟩)
    rw [← e, hp] at this; cases this
  cases exec_ran h with
  | initializeConfig a s c hh t b y rest hi hl hr =>
    obtain ⟨w1, bb, t', hv, _, hw1, _, _, _, _, _, _, _, hb, _, _, _, _, rfl⟩ := initializeConfig_ok hr
    rcases hw1 with ⟨_, rfl⟩ | ⟨_, rfl⟩
    · exact .of_owner (by simp)
    · refine .of_owner ?_
      rw [World.setD_owner, World.setO_owner, if_neg]
      rw [hv]
      intro e
      obtain rfl : ck = a.config := (Key.vaultPda.inj e).1
      rw [configAt_eq] at hck
      rw [hb] at hck; exact absurd hck.2 (by simp)
  | initializeValidatorStake a rest hi hl hr =>
    obtain ⟨c, wd, _, _, _, _, _, hk, hb, _, _, rfl⟩ := initializeValidatorStake_ok hr
    refine .of_owner ?_
    rw [World.setN_owner, if_neg]
    rw [hk]; simp [Env.vaultAuth]
  | initializeSolStakerStake a rest hi hl hr =>
    obtain ⟨c, v, vs, au, _, _, _, _, _, _, _, _, hk1, hvs, hk2, hb, _, _, _, _, _, rfl⟩ := initializeSolStakerStake_ok hr
    refine .of_owner ?_
    rw [World.setD_owner, World.setN_owner, if_neg]
    rw [hk2]; simp [Env.vaultAuth]
  | setAuthority a t rest hi hl hr =>
    obtain ⟨c, c', _, _, hc, rfl, _⟩ := setAuthority_ok hr
    exact .of_owner (by simp)
  | updateConfig a f rest hi hl hr =>
    obtain ⟨c, _, hc, _, _, _, _, rfl⟩ := updateConfig_ok hr
    exact .of_owner (by simp)
  | validatorSyncAuthority a rest hi hl hr =>
    obtain ⟨s, wd, _, _, _, hs, _, _, _, rfl⟩ := validatorSyncAuthority_ok hr
    exact .of_owner (by simp)
  | validatorStakeTokens a n rest hi hl hr =>
    obtain ⟨c, s, hr, rs, rh, w1, w2, w3, c1, ts, td, hs, _, S⟩ := validatorStakeTokens_ok hr
    obtain ⟨I1, I2, I3, e3, e4, _⟩ := validatorStakeTokens_inv I O hs S
    refine (KeepsSide.ext e4 hp).before (by rw [S.transfer.owner, S.adj.owner, S.harv.owner]) ?_
    rw [S.transfer.lamports, S.adj.lamports]
    exact S.harv.lamports_mono _ (hne S.cO S.harv.config)
  | solStakerStakeTokens a n rest hi hl hr =>
    obtain ⟨c, s, hr, rs, rh, w1, w2, w3, c1, ts, td, hs, _, S⟩ := solStakerStakeTokens_ok hr
    obtain ⟨I1, I2, I3, e3, e4, _⟩ := solStakerStakeTokens_inv I O hs S
    refine (KeepsSide.ext e4 hp).before (by rw [S.transfer.owner, S.adj.owner, S.harv.owner]) ?_
    rw [S.transfer.lamports, S.adj.lamports]
    exact S.harv.lamports_mono _ (hne S.cO S.harv.config)
  | unstakeTokens a n rest hi hl hr =>
    obtain ⟨c, d, hr, rs, rh, w1, w2, w3, c1, D', call, ts, td, lam, S, K⟩ := unstakeTokens_ok hr
    obtain ⟨I1, I2, I3, e3, e4, _⟩ := unstakeTokens_inv I O S K
    refine ((KeepsSide.ext e3 hp).before (by rw [S.adj.owner, S.harv.owner]) ?_).after (S.transfer.owner _)
    rw [S.adj.lamports]
    exact S.harv.lamports_mono _ (hne S.cO S.harv.config)
  | slashValidatorStake a n rest hi hl hr =>
    obtain ⟨c, s, hr, rs, rh, w1, w2, c1, _, _, S⟩ := slashValidatorStake_ok hr
    refine .of_owner ?_
    rw [S.adj.owner, ← S.harv.owner]
    rcases S.burn with ⟨_, e⟩ | ⟨_, t, m, B⟩
    · rw [e]
    · rw [B.eq]; simp
  | slashSolStakerStake a n rest hi hl hr =>
    obtain ⟨c, s, hr, rs, rh, w1, w2, c1, _, _, S⟩ := slashSolStakerStake_ok hr
    refine .of_owner ?_
    rw [S.adj.owner, ← S.harv.owner]
    rcases S.burn with ⟨_, e⟩ | ⟨_, t, m, B⟩
    · rw [e]
    · rw [B.eq]; simp
  | harvestHolderRewards a rest hi hl hr =>
    obtain ⟨c, w1, w2, c2, call, hcO, hc, hvault, hcurve, hpda, hhO, hhk, hlast, hw1, hcall, _, _, hc2, hrent, hown, ho',
      hc', hd', hl', _⟩ := harvestHolderRewards_ok hr
    have W1 : w1.WF := by rw [hw1]; exact (settled_wf I hc).resolve_right (by decide)
    exact ((KeepsSide.ext (O.harvestRewards W1 hcall) hp).before (by rw [hw1]; simp) (by rw [hw1]; simp)).after (ho' _)
  | harvestValidatorRewards a rest hi hl hr =>
    obtain ⟨c, s, hr, rs, rh, _, _, _, _, H⟩ := harvestValidatorRewards_ok hr
    exact .of_owner (H.owner _)
  | harvestSolStakerRewards a keeper rest hi hl hk hr =>
    obtain ⟨s, v, c, hr, rs, rh, w1, B, H⟩ := harvestSolStakerRewards_ok I.wf hr
    cases H with
    | noSync _ _ H hw => subst hw; exact .of_owner (H.owner _)
    | sync _ _ H L J hd1 hd2 A => exact .of_owner (by rw [A.owner, J.owner, L.owner, H.owner])
  | solStakerMoveTokens a n rest hi hl hr =>
    obtain ⟨c, c', s, t, hr, rs, rh, rs', rh', w1, w2, wx, cs, ct, ds, dt, ds', dt', M⟩ := solStakerMoveTokens_ok hr
    exact .of_owner (by rw [M.adjT.owner, M.adjS.owner, M.harvT.owner, M.harvS.owner])
  | validatorOverrideStakedLamports a n rest hi hl hr =>
    obtain ⟨c, s, hr, rs, rh, w1, c1, hcO, hsO, hs, hk, _, _, _, H, A⟩ := validatorOverrideStakedLamports_ok hr
    exact .of_owner (by rw [A.owner, H.owner])

theorem Inv.authority_empty (I : Inv env w) (ck : Key) : (w (env.vaultAuth ck)).data = .bytes [] := by
  by_cases h : (w (env.vaultAuth ck)).owner = progId
  · exact I.shape _ h
  · exact (I.unowned _ rfl h).2

/-- In the harvest of the vault's holder rewards the vault authority ends up with its rent minimum; it can pay only if it belongs to
the program. -/
theorem harvest_rest (I : Inv env w) (O : o.Ok) (h : exec env o w ix = .ok w') (hi : ix.decoded = some .harvestHolderRewards) {ck : Key}
    (hk : ix.acct 0 = some ck) : (w' (env.vaultAuth ck)).lamports = env.rentMin 0 ∧
      ((w (env.vaultAuth ck)).owner ≠ progId → (w (env.vaultAuth ck)).lamports ≤ env.rentMin 0) := by
  have I' := exec_inv I O h
  cases exec_ran h with
  | harvestHolderRewards a rest hi hl hr =>
    obtain rfl : a.config = ck := by simpa [Ix.acct, hl, HarvestHolderRewardsAccts.list] using hk
    obtain ⟨c, w1, w2, c2, call, hcO, hc, hvault, hcurve, hpda, hhO, hhk, hlast, hw1, hcall, _, _, hc2, hrent, hown, ho',
      hc', hd', hl', _⟩ := harvestHolderRewards_ok hr
    have hb : c.bump = env.vaultBump a.config := (I.config _ c (configAt_eq.2 ⟨hcO, hc⟩)).bump
    have hp : a.vaultPda = env.vaultAuth a.config := by rw [hpda, hb]; rfl
    have hne : env.vaultAuth a.config ≠ a.config := by
      intro e
      have := I.config_key (configAt_eq.2 ⟨hcO, hc⟩)
      rw [← e] at this; cases this
    have hd : (w2 (env.vaultAuth a.config)).data.len = 0 := by
      rw [← hd' _ hne, I'.authority_empty]; rfl
    rw [hp, hd] at hl' hown
    have W1 : w1.WF := by rw [hw1]; exact (settled_wf I hc).resolve_right (by decide)
    refine ⟨by rw [hl', if_neg hne, if_pos rfl], fun hn => ?_⟩
    have hn1 : (w1 (env.vaultAuth a.config)).owner ≠ progId := by rw [hw1]; simpa using hn
    obtain ⟨e1, _, e3⟩ := (((O.harvestRewards W1 hcall).2 _).2 hn1).1 rfl
    rw [← hown.resolve_left (by rw [e1]; exact hn1)]
    rw [hw1] at e3; simpa using e3
  | _ => simp_all

theorem steps_inv (I : Inv env w) (S : Steps env w w') : Inv env w' := by
  induction S with
  | refl => exact I
  | tail _ X ih =>
    cases X with
    | ext E => exact ext_inv ih E
    | exec O h => exact exec_inv ih O h

theorem vaultAuth_inj {a b : Key} (h : env.vaultAuth a = env.vaultAuth b) : a = b := (Key.vaultPda.inj h).1

/-- Lamports of the vault authority after an instruction. -/
theorem exec_authority_lamports (I : Inv env w) (O : o.Ok) (h : exec env o w ix = .ok w') (ck : Key) :
    (w (env.vaultAuth ck)).lamports ≤ (w' (env.vaultAuth ck)).lamports ∨
      (ix.decoded = some .harvestHolderRewards ∧ ix.acct 0 = some ck) := by
  obtain ⟨ck', e, hk, _⟩ := (exec_effect I O h).elsewhere I
  by_cases hh : ix.decoded = some .harvestHolderRewards ∧ ck' = ck
  · obtain ⟨hi, rfl⟩ := hh
    refine .inr ⟨hi, ?_⟩
    rw [← e, Ix.config, hi]
  · refine .inl (exec_debit I O h e ?_ (fun hi he => hh ⟨hi, (vaultAuth_inj he).symm⟩) (.inl (.inl rfl)))
    intro e'; rw [← e'] at hk; cases hk

end Verif
