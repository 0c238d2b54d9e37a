import Verif.SpecOrphan
import Verif.Props.Shortfall
/-!
# Holder rewards of slashed tokens

C101.
-/

namespace Verif.Props

open Verif Verif.Witness

variable {env : Env} {o : Oracle} {w w' : World} {ix : Ix}

theorem _root_.Verif.SlashHistory.claim {ck : Key} {s n u x : Nat} (H : SlashHistory env ck w s n u x) :
    ClaimHistory env ck w n u := by
  induction H with
  | genesis G => exact .genesis G
  | ext _ E K ih => exact .ext ih E K
  | exec _ O C h ih => exact .exec ih O C h

theorem _root_.Verif.SlashHistory.reachable {ck : Key} {s n u x : Nat} (H : SlashHistory env ck w s n u x) :
    Reachable env w := H.claim.history.reachable

/-- The recorded deposit covers the staked and the slashed tokens. -/
theorem _root_.Verif.SlashHistory.backed {ck : Key} {s n u x : Nat} (H : SlashHistory env ck w s n u x) :
    ∃ t, TotalIs (stakedIn w ck) t ∧ t + s ≤ depositedFor env ck w := by
  induction H with
  | genesis G =>
    obtain ⟨t, hT, hle⟩ := (ClaimHistory.genesis (env := env) (ck := ck) G).history.backed
    exact ⟨t, hT, hle⟩
  | ext H0 E K ih =>
    obtain ⟨t, hT, hle⟩ := ih
    refine ⟨t, hT.congr (ext_stakedIn (reachable_inv H0.reachable) E ck), hle.trans ?_⟩
    unfold depositedFor
    rcases K with e | ⟨e, h, e', _⟩ | ⟨h, h', p, e, e', hd, _⟩
    · rw [e]
    · rw [e]; simp
    · rw [e, e']; simp [hd]
  | exec H0 O C h ih =>
    obtain ⟨t, hT, hle⟩ := ih
    have I := reachable_inv H0.reachable
    obtain ⟨t', hT', e⟩ := staked_total_step (exec_effect I O h) hT
    have := (exec_record I C h ck).deposited
    exact ⟨t', hT', by omega⟩

/-- Nothing is slashed before there is a config. -/
theorem _root_.Verif.SlashHistory.none {ck : Key} {s n u x : Nat} (H : SlashHistory env ck w s n u x)
    (hc : configAt w ck = none) : s = 0 ∧ x = 0 := by
  have back : ∀ {w1 w2 : World}, Reachable env w1 → Steps env w1 w2 → configAt w2 ck = Option.none → configAt w1 ck = Option.none := by
    intro w1 w2 R S h2
    cases h1 : configAt w1 ck with
    | none => rfl
    | some c => obtain ⟨c', hc'⟩ := C25_config_permanent R S h1; rw [h2] at hc'; simp at hc'
  induction H with
  | genesis G => exact ⟨rfl, rfl⟩
  | ext H0 E K ih =>
    obtain ⟨rfl, rfl⟩ := ih (back H0.reachable (.tail .refl (.ext E)) hc)
    exact ⟨rfl, by simp⟩
  | @exec w1 w2 o1 ix1 s n u x H0 O C h ih =>
    have h1 := back H0.reachable (.tail .refl (.exec O h)) hc
    obtain ⟨rfl, rfl⟩ := ih h1
    refine ⟨?_, by simp⟩
    have key : ∀ m, ix1.acct 0 = some ck →
        (ix1.decoded = some (.slashValidatorStake m) ∨ ix1.decoded = some (.slashSolStakerStake m)) → False := by
      intro m h0 hi
      obtain ⟨a, c, d, _, _, _, _, _, _, _, _, _, e0, _, S, _⟩ := exec_slash_steps (reachable_inv H0.reachable) h hi
      rw [h0] at e0; cases e0
      have : configAt w1 a.config = some c := configAt_eq.2 ⟨S.cO, S.harv.config⟩
      rw [h1] at this; simp at this
    rw [Nat.zero_add]
    unfold slashedBy
    split_ifs with h0
    · split
      · rename_i m e; exact (key m h0 (.inl e)).elim
      · rename_i m e; exact (key m h0 (.inr e)).elim
      · rfl
    · rfl

theorem _root_.Verif.SlashHistory.covered {ck : Key} {s n u x : Nat} (H : SlashHistory env ck w s n u x)
    (hc : configAt w ck ≠ none) :
    Covered (scale * env.rentMin configLen + x) ck (holderAcc env ck w) ((w (env.vaultAuth ck)).lamports + (n + u)) w := by
  induction H with
  | genesis G => exact absurd (genesis_config G ck) hc
  | @ext w1 w2 s n u x H0 E K ih =>
    have I := reachable_inv H0.reachable
    have C := ih (by rw [← configAt_congr (ext_st I E ck)]; exact hc)
    obtain ⟨t, hT, hle⟩ := H0.backed
    have := ext_covered I E K hT hle C
    rw [Nat.add_assoc] at this
    exact this.mono (by omega)
  | exec H0 O RC h ih =>
    obtain ⟨t, hT, hle⟩ := H0.backed
    have := exec_covered (reachable_inv H0.reachable) O RC h hT hle ih
      (fun hn => by rw [(H0.none hn).2]; simp) hc
    rw [Nat.add_assoc] at this
    exact this.mono (by omega)

/-- **C101.** In every history, what all stake accounts of a config would be paid now, plus the config's rent-exempt minimum, plus all holder
rewards ever paid for slashed tokens, is at most the lamports on the config and the vault authority (up to one lamport for each payout of
holder rewards and the lamports credited without cover). The rewards of slashed tokens never fall, so these lamports never leave. -/
theorem C101_slashed_rewards_are_stuck {ck : Key} {c : Config} {s n u x : Nat} (H : SlashHistory env ck w s n u x)
    (hc : configAt w ck = some c) :
    ∃ total, TotalIs (accrued env w ck) total ∧
      total + env.rentMin configLen + x / 1000000000000000000 ≤
        (w ck).lamports + (w (env.vaultAuth ck)).lamports + (n + u) := by
  obtain ⟨total, hT, h⟩ := (H.covered (by rw [hc]; simp)).accrued (reachable_inv H.reachable) hc
    (r := env.rentMin configLen + x / 1000000000000000000) (by
      rw [Nat.mul_add]; exact Nat.add_le_add_left (Nat.mul_div_le _ _) _)
  exact ⟨total, hT, by omega⟩

/-- **C101.** Every history under the contract of the rewards program has these totals: none is excluded. -/
theorem C101_every_history {ck : Key} {n : Nat} {P : World → Ix → World → Prop} (H : History env ck P w n) :
    ∃ s u x, SlashHistory env ck w s n u x := by
  induction H with
  | genesis G => exact ⟨0, 0, 0, .genesis G⟩
  | ext _ E K ih => obtain ⟨s, u, x, ih⟩ := ih; exact ⟨_, _, _, .ext ih E K⟩
  | exec _ O RC h _ ih => obtain ⟨s, u, x, ih⟩ := ih; exact ⟨_, _, _, .exec ih O RC h⟩

/-- **C101.** The slashed tokens stay in the deposit that the rewards program pays for: it is at least the staked tokens plus everything
slashed so far. -/
theorem C101_deposit_includes_slashed {ck : Key} {s n u x : Nat} (H : SlashHistory env ck w s n u x) :
    ∃ t, TotalIs (stakedIn w ck) t ∧ t + s ≤ depositedFor env ck w := H.backed

/-! ## A history with a slash -/

theorem sstep {i : Ix} {s n u x a b c g : Nat} (H : SlashHistory Witness.env cfg w s n u x) (O : o.Ok) (C : RewardsContract o)
    (ok : okB o w i = true)
    (e : (slashedBy w cfg i, payout Witness.env cfg w (after o w i), overCredit Witness.env cfg w i (after o w i),
      growth (holderAcc Witness.env cfg w) (holderAcc Witness.env cfg (after o w i))) = (a, b, c, g)) :
    SlashHistory Witness.env cfg (after o w i) (s + a) (n + b) (u + c) (x + g * s) := by
  simp only [Prod.mk.injEq] at e
  obtain ⟨rfl, rfl, rfl, rfl⟩ := e
  exact .exec H O C (ok_after ok)

theorem sh0 : SlashHistory Witness.env cfg w0 0 0 0 0 := .genesis genesis
theorem sh1 : SlashHistory Witness.env cfg w1 0 0 0 0 := by
  unfold w1; exact sstep sh0 o1_ok oracle_contract ok0 (a := 0) (b := 0) (c := 0) (g := 0) (by decide +kernel)
theorem sh2 : SlashHistory Witness.env cfg w2 0 0 0 0 := by
  unfold w2; exact sstep sh1 o1_ok oracle_contract ok1 (a := 0) (b := 0) (c := 0) (g := 0) (by decide +kernel)
theorem sh3 : SlashHistory Witness.env cfg w3 0 0 0 0 := by
  unfold w3; exact sstep sh2 o1_ok oracle_contract ok2 (a := 0) (b := 0) (c := 0) (g := 0) (by decide +kernel)
theorem sh4 : SlashHistory Witness.env cfg w4 0 0 0 0 := by
  unfold w4; exact sstep sh3 o1_ok oracle_contract ok3 (a := 0) (b := 0) (c := 0) (g := 0) (by decide +kernel)
theorem sh5 : SlashHistory Witness.env cfg w5 0 0 0 0 := by
  unfold w5; exact sstep sh4 o1_ok oracle_contract ok4 (a := 0) (b := 0) (c := 0) (g := 0) (by decide +kernel)
theorem sh6 : SlashHistory Witness.env cfg w6 0 0 0 0 := by
  unfold w6; exact sstep sh5 o1_ok oracle_contract ok5 (a := 0) (b := 0) (c := 0) (g := 0) (by decide +kernel)
theorem sh7 : SlashHistory Witness.env cfg w7 0 0 0 0 := by
  unfold w7; exact sstep sh6 o1_ok oracle_contract ok6 (a := 0) (b := 0) (c := 0) (g := 0) (by decide +kernel)
theorem sh8 : SlashHistory Witness.env cfg w8 0 0 0 0 := by
  have e : payout Witness.env cfg w7 w8 = 0 := by decide +kernel
  have := SlashHistory.ext sh7 (credit_ext (n := 10000) (reachable_inv r7).wf (of_decide_eq_true lt7)) credit_keeps
  unfold w8 at e ⊢; rw [e, Nat.mul_zero] at this; exact this
theorem sh9 : SlashHistory Witness.env cfg w9 0 1 0 0 := by
  unfold w9; simpa using sstep sh8 o1_ok oracle_contract ok8 (a := 0) (b := 1) (c := 0) (g := 2000000000000000000)
    (by decide +kernel)
theorem sh10 : SlashHistory Witness.env cfg w10 0 1 0 0 := by
  unfold w10; exact sstep sh9 o1_ok oracle_contract ok9 (a := 0) (b := 0) (c := 0) (g := 0) (by decide +kernel)
theorem sh11 : SlashHistory Witness.env cfg w11 0 1 0 0 := by
  unfold w11; exact sstep sh10 o2_ok oracle_contract ok10 (a := 0) (b := 0) (c := 0) (g := 0) (by decide +kernel)
theorem sh12 : SlashHistory Witness.env cfg w12 0 1 0 0 := by
  unfold w12; exact sstep sh11 o2_ok oracle_contract ok11 (a := 0) (b := 0) (c := 0) (g := 0) (by decide +kernel)
theorem sh13 : SlashHistory Witness.env cfg w13 0 1 0 0 := by
  unfold w13; exact sstep sh12 o2_ok oracle_contract ok12 (a := 0) (b := 0) (c := 0) (g := 0) (by decide +kernel)
theorem sh14 : SlashHistory Witness.env cfg w14 0 1 0 0 := by
  have e : payout Witness.env cfg w13 w14 = 0 := by decide +kernel
  have := SlashHistory.ext sh13 (creditTokens_ext (k := vault) (n := 5000) (reachable_inv r13).wf) creditTokens_keeps
  unfold w14 at e ⊢; rw [e, Nat.mul_zero] at this; exact this
theorem sh15 : SlashHistory Witness.env cfg w15 300 1 0 0 := by
  unfold w15; exact sstep sh14 o2_ok oracle_contract ok14 (a := 300) (b := 0) (c := 0) (g := 0) (by decide +kernel)

/-- The vault's holder rewards are harvested after 300 of its 2350 tokens were slashed: 5000 lamports. -/
def y16 : World := after o2 w15 ixHarvestHolder
theorem oky16 : okB o2 w15 ixHarvestHolder = true := by decide +kernel
theorem sy16 : SlashHistory Witness.env cfg y16 300 2 0 638297872340425531800 := by
  unfold y16
  simpa using sstep sh15 o2_ok oracle_contract oky16 (a := 0) (b := 1) (c := 0) (g := 2127659574468085106) (by decide +kernel)

/-- Of these 5000 lamports the stakers can claim 4360; 638 belong to the slashed tokens and stay on the config. -/
example : SlashHistory Witness.env cfg y16 300 2 0 638297872340425531800 ∧ (configAt y16 cfg).isSome = true ∧
    (w15 cfg).lamports + 5000 = (y16 cfg).lamports ∧
    accrued Witness.env w15 cfg val1 + accrued Witness.env w15 cfg val2 + accrued Witness.env w15 cfg sol1 +
      accrued Witness.env w15 cfg sol2 = 0 ∧
    accrued Witness.env y16 cfg val1 + accrued Witness.env y16 cfg val2 + accrued Witness.env y16 cfg sol1 +
      accrued Witness.env y16 cfg sol2 = 4360 ∧
    638297872340425531800 / 1000000000000000000 = 638 :=
  ⟨sy16, by decide +kernel, by decide +kernel, by decide +kernel, by decide +kernel, by decide⟩

end Verif.Props
