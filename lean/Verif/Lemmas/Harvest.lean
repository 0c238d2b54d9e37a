import Verif.Lemmas.Monad
/-!
# Inversion of `harvest` and `syncEffective`
-/

namespace Verif

/-- The stake accumulator once the lamports that arrived since the last settlement are counted. -/
def accNow (c : Config) (lamports : Nat) : Nat := (c.acc + (lamports - c.lamportsLast) * scale / c.effTotal) % U128

/-- Lamports of the authority once the keeper has been paid. -/
def authAfterKeeper (w : World) (keeper : Option Key) (auth : Key) (share : Nat) : Nat :=
  if keeper = some auth then (w auth).lamports + share else (w auth).lamports

theorem rewardsPerToken_ok {r s n : Nat} (h : rewardsPerToken r s = .ok n) : n = r * scale / s := by
  unfold rewardsPerToken at h
  split at h
  · rename_i hs; simp only [ok_ok] at h; subst h; simp [hs]
  · split at h
    · simp only [ok_ok] at h; exact h.symm
    · simp at h

theorem syncConfigLamports_ok {l : Nat} {c c' : Config} (h : syncConfigLamports l c = .ok c') :
    c.lamportsLast ≤ l ∧ c' = { c with acc := accNow c l, lamportsLast := l } := by
  simp only [syncConfigLamports, bind_ok, subU64_ok, pure_ok] at h
  obtain ⟨_, ⟨h1, rfl⟩, r, hr, rfl⟩ := h
  refine ⟨h1, ?_⟩
  rw [rewardsPerToken_ok hr]; rfl

/-- Everything a successful `harvest` establishes. -/
structure Harvested (env : Env) (w w' : World) (ck hk auth va sk : Key) (keeper : Option Key)
    (c : Config) (d : Delegation) (h : HolderRewards) (rs rh : Nat) : Prop where
  config : (w ck).data = .config c
  del : (w sk).data.del? = some d
  auth_eq : auth = d.authority
  hk_eq : hk = .holderRewardsPda va
  holder : (w hk).data = .holder h
  last_le : c.lamportsLast ≤ (w ck).lamports
  rs_eq : eligibleRewards (accNow c (w ck).lamports) d.lastStake d.effective = .ok rs
  rh_eq : eligibleRewards h.lastAcc d.lastHolder d.staked = .ok rh
  total_lt : rs + rh < U64
  rent : rs + rh + env.rentMin configLen ≤ (w ck).lamports
  keeper_lt : ∀ k, keeper = some k → (w k).lamports + keeperReward keeper (rs + rh) c.syncRewards < U64
  auth_lt : authAfterKeeper w keeper auth (keeperReward keeper (rs + rh) c.syncRewards) +
    (rs + rh - keeperReward keeper (rs + rh) c.syncRewards) < U64
  owner : ∀ k, (w' k).owner = (w k).owner
  config' : (w' ck).data =
    .config { c with acc := accNow c (w ck).lamports, lamportsLast := (w ck).lamports - (rs + rh) }
  stake' : (w' sk).data =
    (w sk).data.setDel { d with lastStake := accNow c (w ck).lamports, lastHolder := h.lastAcc }
  data' : ∀ k, k ≠ ck → k ≠ sk → (w' k).data = (w k).data
  lamports' : ∀ k, (w' k).lamports =
    if k = auth then
      authAfterKeeper w keeper auth (keeperReward keeper (rs + rh) c.syncRewards) +
        (rs + rh - keeperReward keeper (rs + rh) c.syncRewards)
    else if k = ck then (w ck).lamports - (rs + rh)
    else if keeper = some k then (w k).lamports + keeperReward keeper (rs + rh) c.syncRewards
    else (w k).lamports

theorem del?_config {c : Config} : (Data.config c).del? = none := rfl

theorem harvest_ok {env : Env} {w w' : World} {ck hk auth va sk : Key} {keeper : Option Key}
    (h : harvest env w ck hk auth va sk keeper = .ok w') :
    ∃ c d hr rs rh, Harvested env w w' ck hk auth va sk keeper c d hr rs rh := by
  simp only [harvest, bind_ok, require_ok, exists_unit, unpackConfig_ok, readDel_ok, unpackHolder_ok, addU64_ok,
    subU64_ok, setLamports_ok, setData_ok, writeDel] at h
  obtain ⟨c, hc, d, hd, hauth, c1, hc1, rs, hrs, hhk, hr, hhr, rh, hrh, _, ⟨htot, rfl⟩, _, ⟨hle, rfl⟩, hrent,
    w1, hw1, _, ⟨hshare, rfl⟩, _, ⟨hlt, rfl⟩, w2, ⟨_, rfl⟩, w3, ⟨_, rfl⟩, w4, ⟨_, rfl⟩, _, rfl⟩ := h
  obtain ⟨hlast, rfl⟩ := syncConfigLamports_ok hc1
  have hne : sk ≠ ck := by rintro rfl; rw [hc] at hd; simp [del?_config] at hd
  have hw1' : (∀ k, (w1 k).owner = (w k).owner ∧ (w1 k).data = (w k).data) ∧
      (∀ k, (w1 k).lamports = if keeper = some k then
        (w k).lamports + keeperReward keeper (rs + rh) c.syncRewards else (w k).lamports) ∧
      (∀ k, keeper = some k → (w k).lamports + keeperReward keeper (rs + rh) c.syncRewards < U64) := by
    cases keeper with
    | none =>
      simp only [payKeeper, ok_ok] at hw1; subst hw1; simp
    | some kp =>
      simp only [payKeeper, bind_ok, addU64_ok, setLamports_ok] at hw1
      obtain ⟨_, ⟨hb, rfl⟩, _, rfl⟩ := hw1
      refine ⟨fun k => by simp, fun k => ?_, fun k hk => ?_⟩
      · simp only [World.setL_lamports, Option.some.injEq, eq_comm (a := kp)]
        split_ifs with hk
        · subst hk; rfl
        · rfl
      · cases hk; exact hb
  obtain ⟨hod, hlam, hkl⟩ := hw1'
  refine ⟨c, d, hr, rs, rh, ⟨hc, hd, hauth, hhk, hhr, hlast, hrs, hrh, htot, by omega, hkl, ?_, ?_, ?_, ?_, ?_, ?_⟩⟩
  · rw [hlam] at hlt
    exact hlt
  · intro k; simp [(hod k).1]
  · simp [World.setD_data, Ne.symm hne]
  · simp [World.setD_data, hne, (hod sk).2]
  · intro k h1 h2; simp [World.setD_data, h1, h2, (hod k).2]
  · intro k
    simp only [World.setD_lamports, World.setL_lamports]
    rw [hlam k, hlam auth]
    rfl

/-- Everything a successful `syncEffective` establishes. -/
structure Synced (w w' : World) (ck sk : Key) (l lmin : Nat) (c : Config) (d : Delegation) : Prop where
  config : (w ck).data = .config c
  del : (w sk).data.del? = some d
  le : d.effective ≤ c.effTotal
  lt : c.effTotal - d.effective + min d.staked (cap (max l lmin)) < U64
  cap_lt : cap (max l lmin) < U64
  owner : ∀ k, (w' k).owner = (w k).owner
  lamports : ∀ k, (w' k).lamports = (w k).lamports
  config' : (w' ck).data =
    .config { c with effTotal := c.effTotal - d.effective + min d.staked (cap (max l lmin)) }
  stake' : (w' sk).data = (w sk).data.setDel { d with effective := min d.staked (cap (max l lmin)) }
  data' : ∀ k, k ≠ ck → k ≠ sk → (w' k).data = (w k).data

theorem maxStake_ok {l n : Nat} (h : maxStake l = .ok n) : n = cap l ∧ cap l < U64 := by
  unfold maxStake at h
  split at h
  · simp only [ok_ok] at h; subst h; simp_all [cap]
  · simp only [mulDivU64_ok] at h
    obtain ⟨⟨_, h2⟩, rfl⟩ := h
    have : l * stakeFactor / stakeScaling = cap l := by unfold cap; rw [Nat.mul_comm]
    rw [this] at h2 ⊢
    exact ⟨rfl, h2⟩

theorem syncEffective_ok {w w' : World} {ck sk : Key} {l lmin : Nat} (h : syncEffective w ck sk l lmin = .ok w') :
    ∃ c d, Synced w w' ck sk l lmin c d := by
  simp only [syncEffective, bind_ok, unpackConfig_ok, readDel_ok, addU64_ok, subU64_ok, setData_ok, writeDel] at h
  obtain ⟨c, hc, d, hd, lim, hlim, _, ⟨hle, rfl⟩, _, ⟨hlt, rfl⟩, w1, ⟨_, rfl⟩, _, rfl⟩ := h
  obtain ⟨rfl, hcap⟩ := maxStake_ok hlim
  have hne : sk ≠ ck := by rintro rfl; rw [hc] at hd; simp [del?_config] at hd
  refine ⟨c, d, ⟨hc, hd, hle, hlt, hcap, ?_, ?_, ?_, ?_, ?_⟩⟩
  · intro k; simp
  · intro k; simp
  · simp [World.setD_data, Ne.symm hne]
  · simp [World.setD_data, hne]
  · intro k h1 h2; simp [World.setD_data, h1, h2]

end Verif
