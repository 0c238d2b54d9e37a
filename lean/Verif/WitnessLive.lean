import Verif.SpecLive
import Verif.Lemmas.Live
import Verif.WitnessSettle
/-!
# The reference rewards program takes its calls

For the witnesses of the liveness theorems.
-/

namespace Verif.Witness

open Verif

theorem deposit_ready {w : World} {c : RewardsCall} {p : TokenAccount} {h : HolderRewards} (hc : callOk w c)
    (hp : (w c.poolToken).data = .token p) (hh : (w c.holderRewards).data = .holder h) (hpool : (w c.pool).owner = rewardsId)
    (hpl : p.amount + c.amount < U64) (hhl : h.deposited + c.amount < U64) :
    Ready deposit w c (fun t => c.amount ≤ t.amount) (fun t => { t with amount := t.amount - c.amount }) := by
  obtain ⟨c1, c2, c3, c4, c5, c6, c7⟩ := hc
  refine ⟨hpool, c2, Ne.symm c7, fun w1 t same ho ht ok => ?_⟩
  have s2 := same c.poolToken (by simp)
  have s3 := same c.holderRewards (by simp)
  have ht' := tokenAt_data.1 ht
  have h1 : c.poolToken ≠ c.holderRewards := by intro e; rw [e, hh] at hp; cases hp
  have h2 : c.token ≠ c.holderRewards := by intro e; rw [e, s3.1, hh] at ht'; cases ht'
  have hcall : callOk w1 c := ⟨by rw [ho]; exact c1, by rw [s2.2.1]; exact c2, by rw [s3.2.1]; exact c3, c4, c5, c6, c7⟩
  refine ⟨?_, ?_, ?_, ?_, ?_, ?_⟩
  · exact ((w1.set c.token { w1 c.token with data := .token { t with amount := t.amount - c.amount } }).set
        c.poolToken { w1 c.poolToken with data := .token { p with amount := p.amount + c.amount } }).set
        c.holderRewards { w1 c.holderRewards with data := .holder { h with deposited := h.deposited + c.amount } }
  · unfold deposit
    rw [ht', s2.1, s3.1, hp, hh]
    simp only
    rw [if_pos ⟨hcall, ok, hpl, hhl⟩]
  · simp only [tokenAt, World.set_apply, if_neg h2, if_neg c7, if_true]
  · intro k; simp only [World.set_apply]; split_ifs <;> simp_all
  · intro k hk
    simp only [RewardsCall.accounts, List.mem_cons, List.not_mem_nil, or_false, not_or] at hk
    obtain ⟨_, k2, k3, _, k5⟩ := hk
    simp only [World.set_apply, if_neg k2, if_neg k3, if_neg k5]
  · intro l _
    rw [lamportSum_eq, lamportSum_eq]
    refine Finset.sum_congr rfl fun k _ => ?_
    simp only [World.set_apply]; split_ifs <;> simp_all

theorem withdraw_ready {w : World} {c : RewardsCall} {p : TokenAccount} {h : HolderRewards} (hc : callOk w c)
    (hp : (w c.poolToken).data = .token p) (hh : (w c.holderRewards).data = .holder h) (hpool : (w c.pool).owner = rewardsId)
    (hpl : c.amount ≤ p.amount) (hhl : c.amount ≤ h.deposited) :
    Ready withdraw w c (fun t => t.amount + c.amount < U64) (fun t => { t with amount := t.amount + c.amount }) := by
  obtain ⟨c1, c2, c3, c4, c5, c6, c7⟩ := hc
  refine ⟨hpool, c2, Ne.symm c7, fun w1 t same ho ht ok => ?_⟩
  have s2 := same c.poolToken (by simp)
  have s3 := same c.holderRewards (by simp)
  have ht' := tokenAt_data.1 ht
  have h1 : c.poolToken ≠ c.holderRewards := by intro e; rw [e, hh] at hp; cases hp
  have h2 : c.token ≠ c.holderRewards := by intro e; rw [e, s3.1, hh] at ht'; cases ht'
  have hcall : callOk w1 c := ⟨by rw [ho]; exact c1, by rw [s2.2.1]; exact c2, by rw [s3.2.1]; exact c3, c4, c5, c6, c7⟩
  refine ⟨?_, ?_, ?_, ?_, ?_, ?_⟩
  · exact ((w1.set c.token { w1 c.token with data := .token { t with amount := t.amount + c.amount } }).set
        c.poolToken { w1 c.poolToken with data := .token { p with amount := p.amount - c.amount } }).set
        c.holderRewards { w1 c.holderRewards with data := .holder { h with deposited := h.deposited - c.amount } }
  · unfold withdraw
    rw [ht', s2.1, s3.1, hp, hh]
    simp only
    rw [if_pos ⟨hcall, hpl, ok, hhl⟩]
  · simp only [tokenAt, World.set_apply, if_neg h2, if_neg c7, if_true]
  · intro k; simp only [World.set_apply]; split_ifs <;> simp_all
  · intro k hk
    simp only [RewardsCall.accounts, List.mem_cons, List.not_mem_nil, or_false, not_or] at hk
    obtain ⟨_, k2, k3, _, k5⟩ := hk
    simp only [World.set_apply, if_neg k2, if_neg k3, if_neg k5]
  · intro l _
    rw [lamportSum_eq, lamportSum_eq]
    refine Finset.sum_congr rfl fun k _ => ?_
    simp only [World.set_apply]; split_ifs <;> simp_all

theorem harvest_pays {w : World} {c : RewardsCall} {h : HolderRewards} {pay : Nat} (hh : (w c.holderRewards).data = .holder h)
    (hc : (w c.pool).owner = rewardsId ∧ (w c.holderRewards).owner = rewardsId ∧ c.pool.ofProgram = false ∧
        c.holderRewards.ofProgram = false ∧ c.pool ≠ c.owner ∧ c.pool ≠ c.holderRewards ∧
        c.owner ≠ c.holderRewards ∧ pay ≤ (w c.pool).lamports ∧ (w c.owner).lamports + pay < U64 ∧
        (w c.owner).owner ≠ rewardsId ∧ h.lastAcc < U128) : Pays (harvestRewards pay) w c pay := by
  refine ⟨fun w1 same => ?_⟩
  have s1 := same c.pool (by simp [RewardsCall.accounts])
  have s2 := same c.holderRewards (by simp [RewardsCall.accounts])
  have s3 := same c.owner (by simp [RewardsCall.accounts])
  obtain ⟨c1, c2, c3, c4, c5, c6, c7, c8, c9⟩ := hc
  refine ⟨?_, ?_, ?_, ?_, ?_, ?_⟩
  · exact ((w1.set c.pool { w1 c.pool with lamports := (w1 c.pool).lamports - pay }).set
        c.owner { w1 c.owner with lamports := (w1 c.owner).lamports + pay }).set
        c.holderRewards { w1 c.holderRewards with
          data := .holder { h with lastAcc := (h.lastAcc + pay * scale / h.deposited) % U128 } }
  · unfold harvestRewards
    rw [s2, hh]
    simp only
    rw [s1, s3, if_pos ⟨c1, c2, c3, c4, c5, c6, c7, c8, c9⟩]
  · simp only [World.set_apply, if_neg c7, if_true]
  · intro k; simp only [World.set_apply]; split_ifs <;> simp_all
  · intro k hk
    simp only [RewardsCall.accounts, List.mem_cons, List.not_mem_nil, or_false, not_or] at hk
    obtain ⟨k1, k2, k3, k4, _⟩ := hk
    simp only [World.set_apply, if_neg k1, if_neg k3, if_neg k4]
  · intro l hl
    rw [lamportSum_eq, lamportSum_eq]
    have m1 : c.pool ∈ l.toFinset := List.mem_toFinset.2 (hl _ (by simp [RewardsCall.accounts]))
    have m2 : c.owner ∈ l.toFinset := List.mem_toFinset.2 (hl _ (by simp [RewardsCall.accounts]))
    set u := w1.set c.pool { w1 c.pool with lamports := (w1 c.pool).lamports - pay } with eu
    have e1 := sum_change (f := fun k => (w1 k).lamports) (g := fun k => (u k).lamports) m1
      (by intro k hk; simp only [eu, World.set_apply, if_neg hk])
    set u' := (u.set c.owner { w1 c.owner with lamports := (w1 c.owner).lamports + pay }).set
        c.holderRewards { w1 c.holderRewards with
          data := .holder { h with lastAcc := (h.lastAcc + pay * scale / h.deposited) % U128 } } with eu'
    have e2 := sum_change (f := fun k => (u k).lamports) (g := fun k => (u' k).lamports) m2
      (by intro k hk
          simp only [eu', World.set_apply, if_neg hk]
          split_ifs with e
          · rw [e]; simp only [eu, World.set_apply, if_neg (Ne.symm c6)]
          · rfl)
    have v1 : (u c.pool).lamports = (w1 c.pool).lamports - pay := by simp [eu]
    have v2 : (u c.owner).lamports = (w1 c.owner).lamports := by simp [eu, World.set_apply, Ne.symm c5]
    have v3 : (u' c.owner).lamports = (w1 c.owner).lamports + pay := by simp [eu', World.set_apply, c7]
    have v4 : pay ≤ (w1 c.pool).lamports := by rw [s1]; exact c8
    omega

/-! ## Contents of accounts in concrete worlds -/

def cfgOf (w : World) (k : Key) : Config :=
  (configAt w k).getD ⟨.default, .default, .default, 0, 0, 0, 0, [], 0, 0, 0⟩
def noDel : Delegation := freshDel .default .default
def valOf (w : World) (k : Key) : ValidatorStake := (validatorAt w k).getD ⟨noDel, 0, 0⟩
def solOf (w : World) (k : Key) : SolStakerStake := (solStakerAt w k).getD ⟨noDel, 0, .default⟩
def tokOf (w : World) (k : Key) : TokenAccount :=
  (tokenAt w k).getD ⟨.default, .default, 0, none, 0, none, false⟩
def mintOf (w : World) (k : Key) : Mint := (mintAt w k).getD ⟨0, 0⟩
def recOf (w : World) (k : Key) : HolderRewards := (holderAt w k).getD ⟨0, 0⟩

theorem payable_mk {w : World} {ck k : Key} {c : Config} {d : Delegation} (hb : belongs k ck)
    (h : configAt w ck = some c ∧ stakeAt w k = some d ∧ (holderAt w (vaultRecord env ck)).isSome = true ∧
      growth d.lastStake (currentAcc c (w ck).lamports) * d.effective < 2 ^ 128 ∧
      growth d.lastHolder (holderAcc env ck w) * d.staked < 2 ^ 128 ∧
      accrued env w ck k + env.rentMin configLen ≤ (w ck).lamports ∧ d.authority ≠ ck ∧
      (w d.authority).lamports + accrued env w ck k < 2 ^ 64) : Payable env w ck k c d :=
  ⟨h.1, h.2.1, hb, h.2.2.1, h.2.2.2.1, h.2.2.2.2.1, h.2.2.2.2.2.1, h.2.2.2.2.2.2.1, h.2.2.2.2.2.2.2⟩

theorem spendable_mk {w : World} {src mint auth : Key} {t : TokenAccount} {n : Nat}
    (h : tokenAt w src = some t ∧ (w src).owner = tokenId ∧ t.mint = mint ∧ t.frozen = false ∧ t.owner = auth ∧
      t.delegate ≠ some auth ∧ n ≤ t.amount) : Spendable w src mint auth t n :=
  ⟨h.1, h.2.1, h.2.2.1, h.2.2.2.1, h.2.2.2.2.1, h.2.2.2.2.2.1, h.2.2.2.2.2.2⟩

theorem receives_mk {w : World} {dst mint : Key} {t : TokenAccount} {n : Nat}
    (h : tokenAt w dst = some t ∧ (w dst).owner = tokenId ∧ t.mint = mint ∧ t.frozen = false ∧ t.amount + n < 2 ^ 64) :
    Receives w dst mint t n :=
  ⟨h.1, h.2.1, h.2.2.1, h.2.2.2.1, h.2.2.2.2⟩

theorem belongs_val (v c : Key) : belongs (.validatorPda v c) c := Or.inl ⟨v, rfl⟩
theorem belongs_sol (n c : Key) : belongs (.solStakerPda n c) c := Or.inr ⟨n, rfl⟩

/-- All accounts of a witness instruction are writable. -/
theorem ix_writes (i : StakeInstruction) (accts signers l : List Key) : (ix i accts signers).Writes l := fun _ _ => rfl

end Verif.Witness
