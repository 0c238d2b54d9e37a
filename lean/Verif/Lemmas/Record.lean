import Verif.Lemmas.Debit
import Verif.Props.History
/-!
# The rewards program's record of a vault authority
-/

namespace Verif

open Props

variable {env : Env} {o : Oracle} {w w' : World} {ix : Ix}

theorem Transferred.holderAt {ctx : Ctx} {source mint dest authority : Key} {signed : Bool} {amount : Nat}
    {s d : TokenAccount} (T : Transferred ctx w w' source mint dest authority signed amount s d) (k : Key) :
    holderAt w' k = holderAt w k := by
  by_cases h : source = dest
  · rw [T.self h]
  · rw [(T.other h).2]
    unfold Verif.holderAt
    simp only [World.setD_data]
    by_cases h1 : k = dest
    · subst h1; simp [T.dst]
    · by_cases h2 : k = source
      · subst h2; simp [h1, T.src]
      · simp [h1, h2]

theorem SlashedOk.holderAt {ctx : Ctx} {a : SlashAccts} {amount : Nat} {c : Config} {d : Delegation} {hr : HolderRewards}
    {rs rh : Nat} {w1 w2 : World} {D' : Data} {c1 : Config} {d1 d2 : Delegation}
    (S : SlashedOk env ctx w w' a amount c d hr rs rh w1 w2 D' c1 d1 d2) (k : Key) : holderAt w2 k = holderAt w1 k := by
  rcases S.burn with ⟨_, e⟩ | ⟨_, t, m, B⟩
  · rw [e]
  · rw [B.eq]
    unfold Verif.holderAt
    simp only [World.setD_data]
    by_cases h1 : k = a.mint
    · subst h1; simp [B.mintD]
    · by_cases h2 : k = a.vault
      · subst h2; simp [h1, B.acct]
      · simp [h1, h2]

theorem vaultRecord_inj {ck ck' : Key} (h : vaultRecord env ck = vaultRecord env ck') : ck = ck' := by
  simp only [vaultRecord, Env.vaultAuth, Key.holderRewardsPda.injEq, Key.vaultPda.injEq] at h
  exact h.1

/-- How an instruction changes the record of a config's vault authority. -/
inductive RecordChange (env : Env) (ck : Key) (w w' : World) (ix : Ix) : Prop
  | same : holderAt w' (vaultRecord env ck) = holderAt w (vaultRecord env ck) → stakedBy ck ix = 0 →
      unstakedBy ck ix = 0 → RecordChange env ck w w' ix
  | moved {h h' : HolderRewards} {p : Nat} : ix.config = some ck → holderAt w (vaultRecord env ck) = some h →
      holderAt w' (vaultRecord env ck) = some h' → Paid h h' p →
      h'.deposited + unstakedBy ck ix = h.deposited + stakedBy ck ix → RecordChange env ck w w' ix

theorem exec_record (I : Inv env w) (C : RewardsContract o) (h : exec env o w ix = .ok w') (ck : Key) :
    RecordChange env ck w w' ix := by
  cases exec_foreign I.wf h with
  | none hf h1 h2 h3 h4 h5 h6 =>
    refine .same (holderAt_of_fv (congrFun hf _)) ?_ ?_
    · unfold stakedBy; split_ifs
      · split
        · rename_i hi; exact absurd hi (h4 _)
        · rename_i hi; exact absurd hi (h5 _)
        · rfl
      · rfl
    · unfold unstakedBy; split_ifs
      · split
        · rename_i hi; exact absurd hi (h1 _)
        · rfl
      · rfl
  | @stake n a rest c d hr rs rh w1 w2 w3 D' c1 d1 d2 ts td hi hl S hf =>
    obtain ⟨t, h0, h1, p, E, hdep, _⟩ := C.deposit S.deposit
    have ha : ix.acct 0 = some a.config := by simp [Ix.acct, hl, StakeTokensAccts.list]
    have hu : unstakedBy ck ix = 0 := by rcases hi with hi | hi <;> simp [unstakedBy, hi]
    have hs : stakedBy ck ix = if a.config = ck then n else 0 := by rcases hi with hi | hi <;> simp [stakedBy, hi, ha]
    have hkey : (a.call n).holderRewards = vaultRecord env a.config := S.harv.hk_eq
    have back : ∀ k, holderAt w3 k = holderAt w k := fun k => by
      rw [S.transfer.holderAt, holderAt_of_fv (congrFun hf k)]
    by_cases hck : a.config = ck
    · subst hck
      refine .moved (h := h0) (h' := h1) (p := p) ?_ ?_ ?_ E.paid ?_
      · rcases hi with hi | hi <;> simp [Ix.config, hi, ha]
      · rw [← back, ← hkey]; exact E.before
      · rw [← hkey]; exact E.after
      · rw [hu, hs, if_pos rfl, hdep]; rfl
    · refine .same ?_ (by rw [hs, if_neg hck]) hu
      rw [E.others _ (by rw [hkey]; intro e; exact hck (vaultRecord_inj e).symm), back]
  | @unstake n a rest c d hr rs rh w1 w2 w3 D' c1 d1 d2 call ts td hi hl S hf =>
    obtain ⟨t, h0, h1, p, E, hle, hdep, _⟩ := C.withdraw S.withdraw
    have ha : ix.acct 0 = some a.config := by simp [Ix.acct, hl, UnstakeTokensAccts.list]
    have hs : stakedBy ck ix = 0 := by simp [stakedBy, hi]
    have hu : unstakedBy ck ix = if a.config = ck then n else 0 := by simp [unstakedBy, hi, ha]
    have hkey : call.holderRewards = vaultRecord env a.config := by rw [S.call_holder]; exact S.harv.hk_eq
    rw [S.call_amount] at hle hdep
    by_cases hck : a.config = ck
    · subst hck
      refine .moved (h := h0) (h' := h1) (p := p) (by simp [Ix.config, hi, ha]) ?_ ?_ E.paid ?_
      · rw [← holderAt_of_fv (congrFun hf _), ← hkey]; exact E.before
      · rw [S.transfer.holderAt, ← hkey]; exact E.after
      · rw [hu, hs, if_pos rfl, hdep]; omega
    · refine .same ?_ hs (by rw [hu, if_neg hck])
      rw [S.transfer.holderAt, E.others _ (by rw [hkey]; intro e; exact hck (vaultRecord_inj e).symm),
        holderAt_of_fv (congrFun hf _)]
  | slash hi h0 h1 S hf1 hf2 =>
    refine .same ?_ (by rcases hi with hi | hi <;> simp [stakedBy, hi]) (by rcases hi with hi | hi <;> simp [unstakedBy, hi])
    rw [holderAt_of_fv (congrFun hf2 _), S.holderAt, holderAt_of_fv (congrFun hf1 _)]
  | @holder ck0 c w1 w2 call hi h0 hc hf1 _ hr ho hk hf2 =>
    obtain ⟨h0', h1, p, E, hdep, _⟩ := C.harvestRewards hr
    have hs : stakedBy ck ix = 0 := by simp [stakedBy, hi]
    have hu : unstakedBy ck ix = 0 := by simp [unstakedBy, hi]
    have hkey : call.holderRewards = vaultRecord env ck0 := by rw [hk, (I.config ck0 c hc).bump]; rfl
    by_cases hck : ck0 = ck
    · subst hck
      refine .moved (h := h0') (h' := h1) (p := p) (by simp [Ix.config, hi, h0]) ?_ ?_ E.paid (by rw [hs, hu, hdep])
      · rw [← holderAt_of_fv (congrFun hf1 _), ← hkey]; exact E.before
      · rw [holderAt_of_fv (congrFun hf2 _), ← hkey]; exact E.after
    · refine .same ?_ hs hu
      rw [holderAt_of_fv (congrFun hf2 _), E.others _ (by rw [hkey]; intro e; exact hck (vaultRecord_inj e).symm),
        holderAt_of_fv (congrFun hf1 _)]

theorem RecordChange.deposited {ck : Key} (R : RecordChange env ck w w' ix) :
    depositedFor env ck w' + unstakedBy ck ix = depositedFor env ck w + stakedBy ck ix := by
  unfold depositedFor
  cases R with
  | same h1 h2 h3 => rw [h1, h2, h3]
  | moved _ h1 h2 _ h3 => rw [h1, h2]; simpa using h3

theorem ext_stakedIn (I : Inv env w) (E : ExtStep w w') (ck k : Key) : stakedIn w' ck k = stakedIn w ck k := by
  unfold stakedIn; rw [ext_stakeAt I E]

/-- The staked tokens of a config are deposited with the rewards program. -/
theorem History.backed {ck : Key} {P : World → Ix → World → Prop} {n : Nat} (H : History env ck P w n) :
    ∃ t, TotalIs (stakedIn w ck) t ∧ t ≤ depositedFor env ck w := by
  induction H with
  | @genesis w0 G =>
    refine ⟨0, .zero fun k => ?_, Nat.zero_le _⟩
    have : stakeAt w0 k = none := by
      cases h : stakeAt w0 k with
      | none => rfl
      | some d =>
        obtain ⟨h1, h2⟩ := stakeAt_eq.1 h
        obtain ⟨m, hm⟩ := G.owned k h1
        rw [hm] at h2; simp [Data.del?] at h2
    simp [stakedIn, this]
  | ext H0 E K ih =>
    obtain ⟨t, hT, hle⟩ := ih
    refine ⟨t, hT.congr (ext_stakedIn (reachable_inv H0.reachable) E ck), hle.trans ?_⟩
    unfold depositedFor
    rcases K with e | ⟨e, h, e', _⟩ | ⟨h, h', p, e, e', hd, _⟩
    · rw [e]
    · rw [e]; simp
    · rw [e, e']; simp [hd]
  | exec H0 O C h _ ih =>
    obtain ⟨t, hT, hle⟩ := ih
    have I := reachable_inv H0.reachable
    obtain ⟨t', hT', e⟩ := staked_total_step (exec_effect I O h) hT
    have := (exec_record I C h ck).deposited
    exact ⟨t', hT', by omega⟩

end Verif
