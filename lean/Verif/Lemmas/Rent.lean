import Verif.SpecTx
import Verif.Lemmas.Change
import Verif.Lemmas.Footprint
import Verif.Lemmas.Debit
/-!
# Lamports and sizes of accounts in one instruction
-/

namespace Verif

variable {env : Env} {o : Oracle} {w w' w'' : World} {ix : Ix} {ctx : Ctx}

/-- The account ends rent exempt, or with the same size and no fewer lamports. -/
def Mild (env : Env) (w w' : World) (k : Key) : Prop :=
  RentExempt env (w' k) ∨ ((w' k).data.len = (w k).data.len ∧ (w k).lamports ≤ (w' k).lamports)

theorem Mild.refl (k : Key) : Mild env w w k := Or.inr ⟨rfl, Nat.le_refl _⟩

theorem Mild.trans {k : Key} (h : Mild env w w' k) (h' : Mild env w' w'' k) : Mild env w w'' k := by
  unfold Mild RentExempt at *
  rcases h' with h' | ⟨h1, h2⟩
  · exact Or.inl h'
  · rcases h with h | ⟨h3, h4⟩
    · left; rw [h1]; omega
    · right; exact ⟨h1.trans h3, h4.trans h2⟩

theorem Mild.of_data {k : Key} (h : (w' k).data = (w k).data) (h' : (w k).lamports ≤ (w' k).lamports) : Mild env w w' k :=
  Or.inr ⟨by rw [h], h'⟩

/-- State of the program is rent exempt. -/
theorem Inv.exempt (I : Inv env w) {k : Key} (h : st w k ≠ none) : RentExempt env (w k) := by
  obtain ⟨D, hD⟩ := Option.ne_none_iff_exists'.1 h
  have hc : (∃ c, D = .config c) ∨ ∃ d, D.del? = some d := by
    unfold st at hD
    split at hD
    · split at hD <;> simp at hD <;> subst hD
      · exact Or.inl ⟨_, rfl⟩
      · exact Or.inr ⟨_, rfl⟩
      · exact Or.inr ⟨_, rfl⟩
    · simp at hD
  rcases hc with ⟨c, rfl⟩ | ⟨d, hd⟩
  · have hc := st_config.1 hD
    have := (I.config k c hc).rent
    unfold RentExempt
    rw [(configAt_eq.1 hc).2]; exact this
  · exact I.rent k d (by rw [stakeAt_st, hD]; exact hd)

/-- The program's state is permanent. -/
theorem exec_st_kept (I : Inv env w) (O : o.Ok) (h : exec env o w ix = .ok w') {k : Key} (hs : st w k ≠ none) :
    st w' k ≠ none := by
  obtain ⟨D, hD⟩ := Option.ne_none_iff_exists'.1 hs
  have E := exec_effect I O h
  have hc : (∃ c, D = .config c) ∨ ∃ d, D.del? = some d := by
    unfold st at hD
    split at hD
    · split at hD <;> simp at hD <;> subst hD
      · exact Or.inl ⟨_, rfl⟩
      · exact Or.inr ⟨_, rfl⟩
      · exact Or.inr ⟨_, rfl⟩
    · simp at hD
  rcases hc with ⟨c, rfl⟩ | ⟨d, hd⟩
  · obtain ⟨c', hc', _⟩ := effect_config I E (st_config.1 hD)
    rw [st_config.2 hc']; simp
  · obtain ⟨d', hd', _⟩ := effect_del E (s := k) (d := d) (by rw [stakeAt_st, hD]; exact hd)
    intro hn
    rw [stakeAt_none_of_st hn] at hd'; simp at hd'

theorem Inv.st_of_belongs (I : Inv env w) {k ck : Key} (hb : belongs k ck) (ho : (w k).owner = progId) : st w k ≠ none := by
  have := I.shape k ho
  rcases hb with ⟨v, rfl⟩ | ⟨n, rfl⟩
  · obtain ⟨x, hx, _⟩ := this
    rw [st_of_owned ho hx (Or.inr ⟨_, rfl⟩)]; simp
  · obtain ⟨x, hx, _⟩ := this
    rw [st_of_owned ho hx (Or.inr ⟨_, rfl⟩)]; simp

theorem st_of_config {k : Key} {c : Config} (ho : (w k).owner = progId) (hd : (w k).data = .config c) : st w k ≠ none := by
  rw [st_of_owned ho hd (Or.inl ⟨_, rfl⟩)]; simp

theorem Harvested.mild {ck hk auth va sk : Key} {keeper : Option Key} {c : Config} {d : Delegation}
    {h : HolderRewards} {rs rh : Nat} (H : Harvested env w w' ck hk auth va sk keeper c d h rs rh) {k : Key}
    (h1 : k ≠ ck) (h2 : k ≠ sk) : Mild env w w' k := .of_data (H.data' k h1 h2) (H.lamports_mono k h1)

theorem Adjusted.mild {ck sk : Key} {D' : Data} {c : Config} {d d' : Delegation} (A : Adjusted w w' ck sk D' c d d') {k : Key}
    (h1 : k ≠ ck) (h2 : k ≠ sk) : Mild env w w' k := .of_data (A.data' k h1 h2) (Nat.le_of_eq (A.lamports k).symm)

theorem Retotaled.mild {ck hk auth sk : Key} {v : ValidatorStake} {total : Nat} {c : Config}
    {hr : HolderRewards} {rs rh : Nat} {w1 : World} {c1 : Config} {d1 d2 : Delegation}
    (R : Retotaled env w w' ck hk auth sk v total c hr rs rh w1 c1 d1 d2) {k : Key} (h1 : k ≠ ck) (h2 : k ≠ sk) :
    Mild env w w' k := (R.harv.mild h1 h2).trans (R.adj.mild h1 h2)

theorem Transferred.mild {source mint dest authority : Key} {signed : Bool} {amount : Nat}
    {s d : TokenAccount} (T : Transferred ctx w w' source mint dest authority signed amount s d) (k : Key) : Mild env w w' k := by
  by_cases e : source = dest
  · rw [T.self e]; exact .refl k
  · obtain ⟨_, e'⟩ := T.other e
    refine Or.inr ⟨?_, Nat.le_of_eq (T.lamports k).symm⟩
    rw [e', World.setD_data, World.setD_data]
    split_ifs with h1 h2
    · rw [h1, T.dst]; rfl
    · rw [h2, T.src]; rfl
    · rfl

theorem Burned.mild {account mint authority : Key} {amount : Nat} {s : TokenAccount} {m : Mint}
    (B : Burned ctx w w' account mint authority amount s m) (k : Key) : Mild env w w' k := by
  rw [B.eq]
  refine Or.inr ⟨?_, by simp⟩
  rw [World.setD_data, World.setD_data]
  split_ifs with h1 h2
  · rw [h1, B.mintD]; rfl
  · rw [h2, B.acct]; rfl
  · rfl

/-- What a transaction's rent check is about: in one instruction an account ends rent exempt, or with the same size and no fewer
lamports. -/
theorem exec_mild (I : Inv env w) (O : o.Ok) (K : o.KeepsRent env) (h : exec env o w ix = .ok w') (k : Key) : Mild env w w' k := by
  by_cases hs' : st w' k ≠ none
  · exact Or.inl ((exec_inv I O h).exempt hs')
  have hs : st w k = none := by
    by_contra hs; exact hs' (exec_st_kept I O h hs)
  have hs' : st w' k = none := by simpa using hs'
  have nC : ∀ {ck c}, (w ck).owner = progId → (w ck).data = .config c → k ≠ ck := by
    rintro ck c h1 h2 rfl; exact st_of_config h1 h2 hs
  have nS : ∀ {sk ck}, belongs sk ck → (w sk).owner = progId → k ≠ sk := by
    rintro sk ck h1 h2 rfl; exact I.st_of_belongs h1 h2 hs
  have nC' : ∀ {ck c}, (w' ck).owner = progId → (w' ck).data = .config c → k ≠ ck := by
    rintro ck c h1 h2 rfl; exact st_of_config h1 h2 hs'
  have staked : ∀ {a : StakeTokensAccts} {n : Nat} {c : Config} {d : Delegation} {hr : HolderRewards}
      {rs rh : Nat} {w1 w2 w3 : World} {D' : Data} {c1 : Config} {d1 d2 : Delegation} {ts td : TokenAccount},
      StakedOk env o ix.ctx w w' a n c d hr rs rh w1 w2 w3 D' c1 d1 d2 ts td → Mild env w w' k := by
    intro a n c d hr rs rh w1 w2 w3 D' c1 d1 d2 ts td S
    have n1 := nC S.cO S.harv.config
    have n2 := nS S.bel S.sO
    exact (((S.harv.mild n1 n2).trans (S.adj.mild n1 n2)).trans (S.transfer.mild k)).trans (K.deposit S.deposit k)
  have slashed : ∀ {a : SlashAccts} {n : Nat} {c : Config} {d : Delegation} {hr : HolderRewards} {rs rh : Nat}
      {w1 w2 : World} {D' : Data} {c1 : Config} {d1 d2 : Delegation},
      SlashedOk env ix.ctx w w' a n c d hr rs rh w1 w2 D' c1 d1 d2 → Mild env w w' k := by
    intro a n c d hr rs rh w1 w2 D' c1 d1 d2 S
    have n1 := nC S.cO S.harv.config
    have n2 := nS S.bel S.sO
    refine ((S.harv.mild n1 n2).trans ?_).trans (S.adj.mild n1 n2)
    rcases S.burn with ⟨_, e⟩ | ⟨_, t, m, B⟩
    · rw [e]; exact .refl k
    · exact B.mild k
  cases exec_ran h with
  | initializeConfig a s c hh t b y rest hi hl hr =>
    obtain ⟨w1, bb, t', _, _, hw1, _, _, _, _, _, _, hO, hb, _, _, _, _, rfl⟩ := initializeConfig_ok hr
    have n1 : k ≠ a.config := nC' (by simpa using hO) (by rw [World.setD_data, if_pos rfl])
    rw [Mild, setD_same n1]
    rcases hw1 with ⟨_, rfl⟩ | ⟨_, rfl⟩
    · exact Mild.refl k
    · exact Mild.of_data (by simp) (by simp)
  | initializeValidatorStake a rest hi hl hr =>
    obtain ⟨c, wd, _, _, _, _, _, hk, hb, _, _, rfl⟩ := initializeValidatorStake_ok hr
    have n1 : k ≠ a.validatorStake := by
      rintro rfl
      refine (exec_inv I O h).st_of_belongs (ck := a.config) (by rw [hk]; simp [belongs]) ?_ hs'
      rw [World.setN_owner, if_pos rfl]
    rw [Mild, setN_same n1]; exact Mild.refl k
  | initializeSolStakerStake a rest hi hl hr =>
    obtain ⟨c, v, vs, au, _, _, _, _, _, _, _, hvO, hk1, hvs, hk2, hb, _, _, _, _, _, rfl⟩ := initializeSolStakerStake_ok hr
    have n1 : k ≠ a.validatorStake := nS (by rw [hk1]; exact Or.inl ⟨_, rfl⟩) hvO
    have n2 : k ≠ a.solStakerStake := by
      rintro rfl
      refine (exec_inv I O h).st_of_belongs (ck := a.config) (by rw [hk2]; simp [belongs]) ?_ hs'
      rw [World.setD_owner, World.setN_owner, if_pos rfl]
    rw [Mild, setD_same n1, setN_same n2]; exact Mild.refl k
  | setAuthority a t rest hi hl hr =>
    obtain ⟨c, c', _, hO, hc, rfl, _⟩ := setAuthority_ok hr
    rw [Mild, setD_same (nC hO hc)]; exact Mild.refl k
  | updateConfig a f rest hi hl hr =>
    obtain ⟨c, hO, hc, _, _, _, _, rfl⟩ := updateConfig_ok hr
    rw [Mild, setD_same (nC hO hc)]; exact Mild.refl k
  | validatorSyncAuthority a rest hi hl hr =>
    obtain ⟨s, wd, _, _, hk, hv, _, _, _, rfl⟩ := validatorSyncAuthority_ok hr
    refine Or.inr ⟨?_, by simp⟩
    rw [World.setD_data]
    split_ifs with e
    · rw [e, hv]; rfl
    · rfl
  | validatorStakeTokens a n rest hi hl hr =>
    obtain ⟨c, s, hr, rs, rh, w1, w2, w3, c1, ts, td, hs, _, S⟩ := validatorStakeTokens_ok hr
    exact staked S
  | solStakerStakeTokens a n rest hi hl hr =>
    obtain ⟨c, s, hr, rs, rh, w1, w2, w3, c1, ts, td, hs, _, S⟩ := solStakerStakeTokens_ok hr
    exact staked S
  | unstakeTokens a n rest hi hl hr =>
    obtain ⟨c, d, hr, rs, rh, w1, w2, w3, c1, D', call, ts, td, lam, S, _⟩ := unstakeTokens_ok hr
    have n1 := nC S.cO S.harv.config
    have n2 := nS S.bel S.sO
    exact (((S.harv.mild n1 n2).trans (S.adj.mild n1 n2)).trans (K.withdraw S.withdraw k)).trans (S.transfer.mild k)
  | slashValidatorStake a n rest hi hl hr =>
    obtain ⟨c, s, hr, rs, rh, w1, w2, c1, _, _, S⟩ := slashValidatorStake_ok hr
    exact slashed S
  | slashSolStakerStake a n rest hi hl hr =>
    obtain ⟨c, s, hr, rs, rh, w1, w2, c1, _, _, S⟩ := slashSolStakerStake_ok hr
    exact slashed S
  | harvestHolderRewards a rest hi hl hr =>
    obtain ⟨c, w1, w2, c2, call, hcO, hc, hvault, hcurve, hpda, hhO, hhk, hlast, hw1, hcall, _, _, hc2, hrent, hown, ho',
      hc', hd', hl', _⟩ := harvestHolderRewards_ok hr
    have n1 := nC hcO hc
    by_cases e : k = a.vaultPda
    · left
      unfold RentExempt
      rw [hl', if_neg n1, if_pos e, hd' k n1, e]
    · have h1 : Mild env w w1 k := by rw [hw1, Mild, setD_same n1]; exact Mild.refl k
      refine (h1.trans (K.harvestRewards hcall k)).trans (.of_data (hd' k n1) ?_)
      rw [hl', if_neg n1, if_neg e]
  | harvestValidatorRewards a rest hi hl hr =>
    obtain ⟨c, s, hr, rs, rh, hcO, hsO, _, hk, H⟩ := harvestValidatorRewards_ok hr
    exact H.mild (nC hcO H.config) (nS (by rw [hk]; exact Or.inl ⟨_, rfl⟩) hsO)
  | harvestSolStakerRewards a keeper rest hi hl hk hr =>
    obtain ⟨s, v, c, hr, rs, rh, w1, B, S⟩ := harvestSolStakerRewards_ok I.wf hr
    have n2 : k ≠ a.solStakerStake := nS (by rw [B.sk]; exact Or.inr ⟨_, rfl⟩) B.sO
    cases S with
    | noSync _ _ H e => rw [e]; exact H.mild (nC B.cO H.config) n2
    | @sync _ w2 w3 _ _ _ _ _ _ hkp' H L J _ _ A =>
      have n1 := nC B.cO H.config
      have e2 : Mild env w1 w2 k := by
        cases L with
        | stay _ _ h => rw [h]; exact Mild.refl k
        | leave _ hk _ R => exact R.mild n1 (nS (by rw [hk]; exact Or.inl ⟨_, rfl⟩) (by rw [← H.owner]; exact R.owner))
      have e1 : Mild env w2 w3 k := by
        cases J with
        | undelegated _ h => rw [h]; exact Mild.refl k
        | absent _ _ _ h => rw [h]; exact Mild.refl k
        | join _ hk R =>
          exact R.mild n1 (nS (by rw [hk]; exact Or.inl ⟨_, rfl⟩) (by rw [← H.owner, ← L.owner]; exact R.owner))
      exact (((H.mild n1 n2).trans e2).trans e1).trans (A.mild n1 n2)
  | solStakerMoveTokens a n rest hi hl hr =>
    obtain ⟨c, c', s, t, hr, rs, rh, rs', rh', w1, w2, wx, cs, ct, ds, dt, ds', dt', M⟩ := solStakerMoveTokens_ok hr
    have n1 := nC M.cO M.harvS.config
    have n2 : k ≠ a.sourceSolStakerStake := nS (by rw [M.sk]; exact Or.inr ⟨_, rfl⟩) M.sO
    have n3 : k ≠ a.destinationSolStakerStake := nS (by rw [M.tk]; exact Or.inr ⟨_, rfl⟩) M.tO
    exact (((M.harvS.mild n1 n2).trans (M.harvT.mild n1 n3)).trans (M.adjS.mild n1 n2)).trans (M.adjT.mild n1 n3)
  | validatorOverrideStakedLamports a n rest hi hl hr =>
    obtain ⟨c, s, hr, rs, rh, w1, c1, hcO, hsO, _, hk, _, _, _, H, A⟩ := validatorOverrideStakedLamports_ok hr
    have n1 := nC hcO H.config
    have n2 : k ≠ a.validatorStake := nS (by rw [hk]; exact Or.inl ⟨_, rfl⟩) hsO
    exact (H.mild n1 n2).trans (A.mild n1 n2)

/-- The rent check refuses exactly the credits that leave an account below its rent minimum. -/
theorem allowed_iff {k : Key} (h : Mild env w w' k) :
    (rentState env (w k)).allowed (rentState env (w' k)) = true ↔
      ((w k).lamports < (w' k).lamports → RentExempt env (w' k)) := by
  unfold Mild RentExempt at *
  by_cases h0 : (w' k).lamports = 0
  · have : rentState env (w' k) = .uninitialized := by simp [rentState, h0]
    rw [this]
    refine iff_of_true ?_ (by omega)
    cases rentState env (w k) <;> rfl
  · by_cases hx : env.rentMin (w' k).data.len ≤ (w' k).lamports
    · have : rentState env (w' k) = .rentExempt := by simp [rentState, h0, hx]
      rw [this]
      refine iff_of_true ?_ fun _ => hx
      cases rentState env (w k) <;> rfl
    · obtain ⟨h1, h2⟩ := h.resolve_left hx
      have e' : rentState env (w' k) = .rentPaying (w' k).lamports (w' k).data.len := by simp [rentState, h0, hx]
      rw [e']
      by_cases hz : (w k).lamports = 0
      · have : rentState env (w k) = .uninitialized := by simp [rentState, hz]
        rw [this]
        refine iff_of_false (by simp [RentState.allowed]) fun h => hx (h (by omega))
      · have e : rentState env (w k) = .rentPaying (w k).lamports (w k).data.len := by
          have : ¬ env.rentMin (w k).data.len ≤ (w k).lamports := by rw [← h1]; omega
          simp [rentState, hz, this]
        rw [e]
        simp only [RentState.allowed, decide_eq_true_eq]
        constructor
        · rintro ⟨_, h3⟩ h4; omega
        · intro h3
          exact ⟨h1, by by_contra h4; exact hx (h3 (by omega))⟩

end Verif
