import Verif.Contract
import Verif.Lemmas.Foreign
import Verif.Witness
/-!
# The reference rewards program meets the contract
-/

namespace Verif.Witness

open Verif

theorem growth_add_le (a g : Nat) : growth a ((a + g) % U128) ≤ g := by
  unfold growth
  have : ((a + g) % U128 + U128 - a) % U128 ≤ g := by
    have hU : 0 < U128 := by decide
    generalize U128 = M at *
    have h1 := Nat.div_add_mod (a + g) M
    have h2 := Nat.mod_lt (a + g) hU
    by_cases ha : a ≤ (a + g) % M
    · have : (a + g) % M + M - a = ((a + g) % M - a) + M := by omega
      rw [this, Nat.add_mod_right]
      refine (Nat.mod_le _ _).trans ?_
      have := Nat.mod_le (a + g) M
      omega
    · refine (Nat.mod_le _ _).trans ?_
      have h3 : 1 ≤ (a + g) / M := by
        rcases Nat.eq_zero_or_pos ((a + g) / M) with h | h
        · rw [h] at h1; omega
        · exact h
      have : M ≤ M * ((a + g) / M) := Nat.le_mul_of_pos_right _ h3
      omega
  exact this

/-- What writing the three accounts of a deposit or withdrawal does. -/
theorem three_effect {w w' : World} {c : RewardsCall} {t t' p p' : TokenAccount} {h h' : HolderRewards}
    (ht : (w c.token).data = .token t) (hp : (w c.poolToken).data = .token p) (hh : (w c.holderRewards).data = .holder h)
    (hne : c.token ≠ c.poolToken) (acc : h'.lastAcc = h.lastAcc)
    (e : w' = ((w.set c.token { w c.token with data := .token t' }).set c.poolToken
      { w c.poolToken with data := .token p' }).set c.holderRewards { w c.holderRewards with data := .holder h' }) :
    c.Effect w w' h h' 0 ∧ tokenAt w' c.token = some t' ∧
      (∀ k, k ≠ c.token → k ≠ c.poolToken → tokenAt w' k = tokenAt w k) := by
  have n1 : c.token ≠ c.holderRewards := by intro e; rw [e, hh] at ht; simp at ht
  have n2 : c.poolToken ≠ c.holderRewards := by intro e; rw [e, hh] at hp; simp at hp
  refine ⟨⟨holderAt_eq.2 hh, ?_, ?_, ?_, ?_⟩, ?_, ?_⟩
  · rw [holderAt_eq, e]; simp
  · intro k hk
    rw [e]; simp only [holderAt, World.set_apply, hk, if_false]
    split_ifs with h1 h2
    · subst h1; simp [hp]
    · subst h2; simp [ht]
    · rfl
  · rw [e]; simp only [World.set_apply]
    split_ifs with h1 h2 h3 <;> simp_all
  · unfold Paid growth; rw [acc]
    have : (h.lastAcc + U128 - h.lastAcc) % U128 = 0 := by simp
    rw [this]; omega
  · rw [tokenAt_eq, e]; simp [World.set_apply, n1, hne]
  · intro k h1 h2
    rw [e]; simp only [tokenAt, World.set_apply, h1, h2, if_false]
    split_ifs with h3
    · subst h3; simp [hh]
    · rfl

theorem deposit_effect' {w w' : World} {c : RewardsCall} (h : deposit w c = .ok w') :
    ∃ t hh, c.Effect w w' hh { hh with deposited := hh.deposited + c.amount } 0 ∧
    tokenAt w c.token = some t ∧ c.amount ≤ t.amount ∧
    tokenAt w' c.token = some { t with amount := t.amount - c.amount } ∧
    (∀ k, k ≠ c.token → k ≠ c.poolToken → tokenAt w' k = tokenAt w k) := by
  unfold deposit at h
  split at h
  · rename_i t p hh ht hp hd
    split_ifs at h with hc
    obtain ⟨⟨h1, h2, h3, h4, h5, h6, h7⟩, h8, h9, h10⟩ := hc
    have := three_effect (h' := { hh with deposited := hh.deposited + c.amount }) ht hp hd h7 rfl (Except.ok.inj h).symm
    exact ⟨t, hh, this.1, tokenAt_eq.2 ht, h8, this.2⟩
  · simp at h

theorem deposit_effect {w w' : World} {c : RewardsCall} (h : deposit w c = .ok w') : ∃ t h h' p, c.Effect w w' h h' p ∧
    h'.deposited = h.deposited + c.amount ∧ tokenAt w c.token = some t ∧ c.amount ≤ t.amount ∧
    tokenAt w' c.token = some { t with amount := t.amount - c.amount } ∧
    (∀ k, k ≠ c.token → k ≠ c.poolToken → tokenAt w' k = tokenAt w k) := by
  obtain ⟨t, hh, E, rest⟩ := deposit_effect' h
  exact ⟨t, hh, _, 0, E, rfl, rest⟩

theorem withdraw_effect {w w' : World} {c : RewardsCall} (h : withdraw w c = .ok w') : ∃ t h h' p, c.Effect w w' h h' p ∧
    c.amount ≤ h.deposited ∧ h'.deposited = h.deposited - c.amount ∧ tokenAt w c.token = some t ∧
    tokenAt w' c.token = some { t with amount := t.amount + c.amount } ∧
    (∀ k, k ≠ c.token → k ≠ c.poolToken → tokenAt w' k = tokenAt w k) := by
  unfold withdraw at h
  split at h
  · rename_i t p hh ht hp hd
    split_ifs at h with hc
    obtain ⟨⟨h1, h2, h3, h4, h5, h6, h7⟩, h8, h9, h10⟩ := hc
    have := three_effect (h' := { hh with deposited := hh.deposited - c.amount }) ht hp hd h7 rfl (Except.ok.inj h).symm
    exact ⟨t, hh, _, 0, this.1, h10, rfl, tokenAt_eq.2 ht, this.2⟩
  · simp at h

theorem harvest_effect {pay : Nat} {w w' : World} {c : RewardsCall} (h : harvestRewards pay w c = .ok w') :
    ∃ h h' p, c.Effect w w' h h' p ∧ h'.deposited = h.deposited ∧ ∀ k, tokenAt w' k = tokenAt w k := by
  unfold harvestRewards at h
  split at h
  · rename_i hh hd
    split_ifs at h with hc
    obtain ⟨h1, h2, h3, h4, h5, h6, h7, h8, h9, h10, h11⟩ := hc
    have e := (Except.ok.inj h).symm
    refine ⟨hh, { hh with lastAcc := (hh.lastAcc + pay * scale / hh.deposited) % U128 }, pay,
      ⟨holderAt_eq.2 hd, ?_, ?_, ?_, ?_⟩, rfl, ?_⟩
    · rw [holderAt_eq, e]; simp
    · intro k hk
      rw [e]; simp only [holderAt, World.set_apply, hk, if_false]
      split_ifs with k1 k2
      · subst k1; rfl
      · subst k2; rfl
      · rfl
    · rw [e]; simp [World.set_apply, h7]
    · unfold Paid
      have g := growth_add_le hh.lastAcc (pay * scale / hh.deposited)
      have := Nat.mul_le_mul_right hh.deposited g
      have h2 := Nat.div_mul_le_self (pay * scale) hh.deposited
      simp only [scale] at *
      omega
    · intro k
      rw [e]; simp only [tokenAt, World.set_apply]
      split_ifs with k1 k2 k3
      · subst k1; simp [hd]
      · subst k2; rfl
      · subst k3; rfl
      · rfl
  · simp at h

theorem oracle_contract {time : Int} {view : Key → Res StakeView} {pay : Nat} :
    RewardsContract (oracle time view pay) where
  deposit h := deposit_effect h
  withdraw h := withdraw_effect h
  harvestRewards h := harvest_effect h

end Verif.Witness
