import Verif.SpecLive
import Verif.Lemmas.Reward
/-!
# Sufficient conditions for success
-/

namespace Verif

variable {env : Env} {o : Oracle} {w w' : World} {ix : Ix}

theorem exec_of_dispatch {i : StakeInstruction} (hi : ix.decoded = some i) (h : dispatch env o ix.ctx w i = .ok w')
    (ro : ∀ k ∈ ix.ctx.accts, ix.ctx.writable k = true ∨ w' k = w k)
    (bal : lamportSum w' ix.ctx.accts = lamportSum w ix.ctx.accts) : exec env o w ix = .ok w' := by
  simp only [exec, processInstruction, bind_ok, require_ok, exists_unit, pure_ok]
  exact ⟨w', ⟨i, decoded_eq.1 hi, h⟩, ro, bal, rfl⟩

theorem account_ext {a b : Account} (h1 : a.lamports = b.lamports) (h2 : a.owner = b.owner) (h3 : a.data = b.data) :
    a = b := by
  cases a; cases b; simp_all

theorem lamportSum_congr (l : List Key) (h : ∀ k, (w' k).lamports = (w k).lamports) : lamportSum w' l = lamportSum w l := by
  unfold lamportSum
  exact congrArg _ (List.map_congr_left fun k _ => h k)

theorem eligible_live {current last balance : Nat} (h1 : growth last current * balance < U128)
    (h2 : growth last current * balance / scale < U64) :
    eligibleRewards current last balance = .ok (growth last current * balance / scale) := by
  unfold eligibleRewards
  rw [show wrapSub current last = growth last current from rfl]
  by_cases h : growth last current = 0
  · simp [h]
  · simp only [if_neg h]; exact mulDivU64_ok.2 ⟨⟨h1, h2⟩, rfl⟩

theorem rewardsPerToken_live {r s : Nat} (h : r < U64) : ∃ n, rewardsPerToken r s = .ok n := by
  unfold rewardsPerToken
  split_ifs with h1 h2
  · exact ⟨_, rfl⟩
  · exact ⟨_, rfl⟩
  · exfalso; apply h2; unfold U64 at h; unfold U128 scale; omega

theorem syncConfigLamports_live {l : Nat} {c : Config} (h : c.lamportsLast ≤ l) (hl : l < U64) :
    ∃ c', syncConfigLamports l c = .ok c' := by
  obtain ⟨n, hn⟩ := rewardsPerToken_live (r := l - c.lamportsLast) (s := c.effTotal) (by omega)
  exact ⟨_, by simp only [syncConfigLamports, bind_ok, subU64_ok, pure_ok]; exact ⟨_, ⟨h, rfl⟩, n, hn, rfl⟩⟩

theorem Payable.facts {ck k : Key} {c : Config} {d : Delegation} (P : Payable env w ck k c d) :
    (w ck).owner = progId ∧ (w ck).data = .config c ∧ (w k).owner = progId ∧ (w k).data.del? = some d ∧ k ≠ ck := by
  obtain ⟨h1, h2⟩ := configAt_eq.1 P.config
  obtain ⟨h3, h4⟩ := stakeAt_eq.1 P.stake
  exact ⟨h1, h2, h3, h4, by rintro rfl; rw [h2] at h4; simp [Data.del?] at h4⟩

theorem harvest_live (I : Inv env w) {ck k : Key} {c : Config} {d : Delegation} (P : Payable env w ck k c d) :
    ∃ w', harvest env w ck (vaultRecord env ck) d.authority (env.vaultAuth ck) k none = .ok w' := by
  obtain ⟨hcO, hc, hsO, hd, hne⟩ := P.facts
  have hl : (w ck).lamports < U64 := (I.wf.1 ck).1
  have hlast := (I.config ck c P.config).last_le
  obtain ⟨c1, hc1⟩ := syncConfigLamports_live hlast hl
  obtain ⟨_, e1⟩ := syncConfigLamports_ok hc1
  obtain ⟨h, hh⟩ := Option.isSome_iff_exists.1 P.record
  have hh' : (w (vaultRecord env ck)).data = .holder h := by
    unfold holderAt at hh; split at hh <;> simp_all
  have hacc : holderAcc env ck w = h.lastAcc := by unfold holderAcc; rw [hh, Option.map_some, Option.getD_some]
  have hdue := accrued_eq (env := env) P.config P.stake P.belongs
  have hf := P.funds
  have hroom := P.room
  have f1 := P.fitsStake
  have f2 := P.fitsHolder
  rw [hdue] at hf hroom
  unfold due at hf hroom
  rw [hacc] at hf hroom f2
  rw [show currentAcc c (w ck).lamports = accNow c (w ck).lamports from rfl] at f1
  generalize hrs : growth d.lastStake (accNow c (w ck).lamports) * d.effective / scale = rs at hf hroom
  generalize hrh : growth d.lastHolder h.lastAcc * d.staked / scale = rh at hf hroom
  have g1 := eligible_live (current := accNow c (w ck).lamports) (last := d.lastStake) (balance := d.effective) f1
    (by rw [hrs]; omega)
  have g2 := eligible_live (current := h.lastAcc) (last := d.lastHolder) (balance := d.staked) f2
    (by rw [hrh]; omega)
  rw [hrs] at g1
  rw [hrh] at g2
  simp only [harvest, bind_ok, require_ok, exists_unit, unpackConfig_ok, readDel_ok, unpackHolder_ok, addU64_ok,
    subU64_ok, setLamports_ok, setData_ok, writeDel]
  refine ⟨_, c, hc, d, hd, rfl, c1, hc1, rs, by rw [e1]; exact g1, rfl, h, hh', rh, g2, _, ⟨by omega, rfl⟩, _,
    ⟨by omega, rfl⟩, by omega, w, rfl, _, ⟨Nat.zero_le _, rfl⟩, _, ⟨by simp only [keeperReward]; exact hroom, rfl⟩, _, ⟨Or.inr hcO, rfl⟩,
    _, ⟨Or.inl ?_, rfl⟩, _, ⟨Or.inr (by simpa using hcO), rfl⟩, Or.inr (by simpa using hsO), rfl⟩
  rw [World.setL_lamports, if_neg P.payee]
  omega

theorem maxStake_live {l : Nat} (h : cap l < U64) : maxStake l = .ok (cap l) := by
  unfold maxStake
  split_ifs with h0
  · subst h0; rfl
  · have e : l * stakeFactor / stakeScaling = cap l := by unfold cap; rw [Nat.mul_comm]
    refine mulDivU64_ok.2 ⟨⟨?_, by rw [e]; exact h⟩, e.symm⟩
    unfold cap at h; unfold U64 at h; unfold U128 stakeFactor; omega

theorem syncEffective_live {ck sk : Key} {l lmin : Nat} {c : Config} {d : Delegation}
    (hcO : (w ck).owner = progId) (hc : (w ck).data = .config c) (hsO : (w sk).owner = progId)
    (hd : (w sk).data.del? = some d) (hle : d.effective ≤ c.effTotal) (hcap : cap (max l lmin) < U64)
    (hlt : c.effTotal - d.effective + min d.staked (cap (max l lmin)) < U64) :
    ∃ w', syncEffective w ck sk l lmin = .ok w' := by
  simp only [syncEffective, bind_ok, unpackConfig_ok, readDel_ok, addU64_ok, subU64_ok, setData_ok, writeDel]
  exact ⟨_, c, hc, d, hd, _, maxStake_live hcap, _, ⟨hle, rfl⟩, _, ⟨hlt, rfl⟩, _, ⟨Or.inr hcO, rfl⟩,
    Or.inr (by simpa using hsO), rfl⟩

theorem Harvested.same {ck hk auth va sk : Key} {c : Config} {d : Delegation} {h : HolderRewards} {rs rh : Nat}
    (H : Harvested env w w' ck hk auth va sk none c d h rs rh) {k : Key} (h1 : k ≠ ck) (h2 : k ≠ sk) (h3 : k ≠ auth) :
    w' k = w k := by
  refine account_ext ?_ (H.owner k) (H.data' k h1 h2)
  rw [H.lamports', if_neg h3, if_neg h1, if_neg (by simp)]

theorem Adjusted.same {ck sk : Key} {D' : Data} {c : Config} {d d' : Delegation} (A : Adjusted w w' ck sk D' c d d')
    {k : Key} (h1 : k ≠ ck) (h2 : k ≠ sk) : w' k = w k :=
  account_ext (A.lamports k) (A.owner k) (A.data' k h1 h2)

theorem Inv.validator_at (I : Inv env w) {sk ck : Key} {v : ValidatorStake} (h : validatorAt w sk = some v)
    (hb : belongs sk ck) : sk = .validatorPda v.del.vote ck := by
  obtain ⟨hO, hd⟩ := validatorAt_eq.1 h
  have hs := I.shape sk hO
  rcases hb with ⟨x, rfl⟩ | ⟨x, rfl⟩
  · obtain ⟨y, hy, rfl, _⟩ := hs
    rw [hd] at hy; cases hy; rfl
  · obtain ⟨y, hy, _⟩ := hs
    rw [hd] at hy; cases hy

theorem Inv.solStaker_at (I : Inv env w) {sk ck : Key} {v : SolStakerStake} (h : solStakerAt w sk = some v)
    (hb : belongs sk ck) : sk = .solStakerPda v.solStake ck := by
  obtain ⟨hO, hd⟩ := solStakerAt_eq.1 h
  have hs := I.shape sk hO
  rcases hb with ⟨x, rfl⟩ | ⟨x, rfl⟩
  · obtain ⟨y, hy, _⟩ := hs
    rw [hd] at hy; cases hy
  · obtain ⟨y, hy, rfl, _⟩ := hs
    rw [hd] at hy; cases hy; rfl

theorem Inv.effective_le (I : Inv env w) {sk ck : Key} {c : Config} {d : Delegation} (hc : configAt w ck = some c)
    (hd : stakeAt w sk = some d) (hb : belongs sk ck) : d.effective ≤ c.effTotal := by
  have := (I.config ck c hc).total.le sk
  unfold effectiveIn at this
  rw [if_pos hb, hd, Option.map_some, Option.getD_some] at this
  exact this

theorem tokenAt_data {k : Key} {t : TokenAccount} : tokenAt w k = some t ↔ (w k).data = .token t := by
  unfold tokenAt; split <;> simp_all

theorem mintAt_data {k : Key} {t : Mint} : mintAt w k = some t ↔ (w k).data = .mint t := by
  unfold mintAt; split <;> simp_all

theorem Payable.apart_token {ck k x : Key} {c : Config} {d : Delegation} {t : TokenAccount} (P : Payable env w ck k c d)
    (h : tokenAt w x = some t) : x ≠ ck ∧ x ≠ k := by
  obtain ⟨_, hc, _, hd, _⟩ := P.facts
  have h := tokenAt_data.1 h
  exact ⟨by rintro rfl; simp [hc] at h, by rintro rfl; simp [h, Data.del?] at hd⟩

theorem Payable.apart_mint {ck k x : Key} {c : Config} {d : Delegation} {m : Mint} (P : Payable env w ck k c d)
    (h : mintAt w x = some m) : x ≠ ck ∧ x ≠ k := by
  obtain ⟨_, hc, _, hd, _⟩ := P.facts
  have h := mintAt_data.1 h
  exact ⟨by rintro rfl; simp [hc] at h, by rintro rfl; simp [h, Data.del?] at hd⟩

theorem holderAt_data {k : Key} {t : HolderRewards} : holderAt w k = some t ↔ (w k).data = .holder t := by
  unfold holderAt; split <;> simp_all

/-! ## Instructions that only write data -/

theorem data_only {k : Key} {d : Data} {i : StakeInstruction} (hi : ix.decoded = some i)
    (h : dispatch env o ix.ctx w i = .ok (w.setD k d)) (hw : ix.ctx.writable k = true) :
    exec env o w ix = .ok (w.setD k d) := by
  refine exec_of_dispatch hi h (fun x _ => ?_) (lamportSum_congr _ fun x => World.setD_lamports ..)
  by_cases hx : x = k
  · subst hx; exact Or.inl hw
  · right
    exact account_ext (World.setD_lamports ..) (World.setD_owner ..) (by rw [World.setD_data, if_neg hx])

/-! ## Settlement with a recomputation of the effective stake -/

/-- The two steps behind override, slash, unstake and stake: settle, then adjust. -/
theorem settle_exec {i : StakeInstruction} (hi : ix.decoded = some i) {ck hk va sk : Key} {c : Config}
    {d : Delegation} {h : HolderRewards} {rs rh : Nat} {w1 : World}
    (H : Harvested env w w1 ck hk d.authority va sk none c d h rs rh)
    (hne : d.authority ≠ ck) (hck : ck ∈ ix.ctx.accts) (hau : d.authority ∈ ix.ctx.accts)
    (hw : ix.Writes [ck, sk, d.authority]) (hd : dispatch env o ix.ctx w i = .ok w')
    (same : ∀ k ∈ ix.ctx.accts, ix.ctx.writable k = true ∨ k = ck ∨ k = sk ∨ w' k = w1 k)
    (lam : ∀ k, (w' k).lamports = (w1 k).lamports) : exec env o w ix = .ok w' := by
  refine exec_of_dispatch hi hd (fun k hk => ?_) ?_
  · by_cases h1 : k = ck
    · subst h1; exact Or.inl (hw _ (by simp))
    by_cases h2 : k = sk
    · subst h2; exact Or.inl (hw _ (by simp))
    by_cases h3 : k = d.authority
    · subst h3; exact Or.inl (hw _ (by simp))
    rcases same k hk with h | h | h | h
    · exact Or.inl h
    · exact absurd h h1
    · exact absurd h h2
    · right; rw [h]; exact H.same h1 h2 h3
  · rw [lamportSum_congr _ lam, H.sum hck hau (by simp) (by simp), if_neg hne, Nat.add_zero]

end Verif
