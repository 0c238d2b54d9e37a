import Verif.SpecIdle
import Verif.Props.Orphan
/-!
# Lamports that nobody can get back

C108.
-/

namespace Verif.Props

open Verif Verif.Witness

variable {env : Env} {o : Oracle} {w w' : World} {ix : Ix}

theorem _root_.Verif.IdleHistory.slash {ck : Key} {s n u x z : Nat} (H : IdleHistory env ck w s n u x z) :
    SlashHistory env ck w s n u x := by
  induction H with
  | genesis G => exact .genesis G
  | ext _ E K ih => exact .ext ih E K
  | exec _ O C h ih => exact .exec ih O C h

theorem _root_.Verif.IdleHistory.reachable {ck : Key} {s n u x z : Nat} (H : IdleHistory env ck w s n u x z) :
    Reachable env w := H.slash.reachable

theorem idle_none {ck : Key} (hc : configAt w ck = none) : idle w ck = 0 := by unfold idle; rw [hc]

theorem _root_.Verif.IdleHistory.none {ck : Key} {s n u x z : Nat} (H : IdleHistory env ck w s n u x z)
    (hc : configAt w ck = none) : z = 0 := by
  have back : ∀ {w1 w2 : World}, Reachable env w1 → Steps env w1 w2 → configAt w2 ck = Option.none →
      configAt w1 ck = Option.none := by
    intro w1 w2 R S h2
    cases h1 : configAt w1 ck with
    | none => rfl
    | some c => obtain ⟨c', hc'⟩ := C25_config_permanent R S h1; rw [h2] at hc'; simp at hc'
  induction H with
  | genesis G => rfl
  | ext H0 E K ih => exact ih (back H0.reachable (.tail .refl (.ext E)) hc)
  | exec H0 O C h ih =>
    have h1 := back H0.reachable (.tail .refl (.exec O h)) hc
    rw [ih h1]
    unfold stranded
    rw [idle_none h1]
    split_ifs <;> rfl

theorem Covered.ready_all {ck : Key} {X hacc B : Nat} (I : Inv env w) (C : Covered X ck hacc B w) :
    Primed (X + scale * idle w ck) ck hacc B w := by
  obtain ⟨c, hc, F⟩ := C
  by_cases h0 : c.effTotal = 0
  · have e : idle w ck = (w ck).lamports - c.lamportsLast := by unfold idle; rw [hc]; exact if_pos h0
    rw [e]; exact Covered.ready_idle I hc h0 ⟨c, hc, F⟩
  · have e : idle w ck = 0 := by unfold idle; rw [hc]; exact if_neg h0
    rw [e, Nat.mul_zero, Nat.add_zero]; exact Covered.ready I ⟨c, hc, F⟩

theorem _root_.Verif.IdleHistory.covered {ck : Key} {s n u x z : Nat} (H : IdleHistory env ck w s n u x z)
    (hc : configAt w ck ≠ none) :
    Covered (scale * env.rentMin configLen + scale * z + x) ck (holderAcc env ck w)
      ((w (env.vaultAuth ck)).lamports + (n + u)) w := by
  induction H with
  | genesis G => exact absurd (genesis_config G ck) hc
  | @ext w1 w2 s n u x z H0 E K ih =>
    have I := reachable_inv H0.reachable
    have C := ih (by rw [← configAt_congr (ext_st I E ck)]; exact hc)
    obtain ⟨t, hT, hle⟩ := H0.slash.backed
    have := ext_covered I E K hT hle C
    rw [Nat.add_assoc] at this
    exact this.mono (by omega)
  | @exec w1 w2 o1 ix1 s n u x z H0 O RC h ih =>
    have I := reachable_inv H0.reachable
    obtain ⟨t, hT, hle⟩ := H0.slash.backed
    have := exec_covered_gen (X := scale * env.rentMin configLen + scale * (z + stranded ck w1 ix1) + x) I O RC h hT hle
      (m := n + u) (fun hn hcn => ?_) (fun hs hcn => ?_) (fun hn => ?_) hc
    · rw [Nat.add_assoc] at this
      exact this.mono (by omega)
    · have e : stranded ck w1 ix1 = 0 := by unfold stranded; exact if_neg hn
      rw [e]; exact ih hcn
    · have e : stranded ck w1 ix1 = idle w1 ck := by unfold stranded; exact if_pos hs
      have := Covered.ready_all I (ih hcn)
      rw [e, Nat.mul_add]
      convert this using 1; omega
    · have e : stranded ck w1 ix1 = 0 := by unfold stranded; rw [idle_none hn]; split_ifs <;> rfl
      rw [e, H0.none hn, (H0.slash.none hn).2]; simp

/-- **C108.** In every history, what all stake accounts of a config would be paid now, plus the config's rent-exempt minimum, plus the holder
rewards ever paid for slashed tokens, plus all lamports that ever arrived on the config while it had no effective stake, is at most the
lamports on the config and the vault authority (up to one lamport for each payout of holder rewards and the lamports credited without
cover). The lamports that arrived without stake never get less, so they never leave. -/
theorem C108_idle_lamports_are_stuck {ck : Key} {c : Config} {s n u x z : Nat} (H : IdleHistory env ck w s n u x z)
    (hc : configAt w ck = some c) :
    ∃ total, TotalIs (accrued env w ck) total ∧
      total + env.rentMin configLen + x / 1000000000000000000 + (z + idle w ck) ≤
        (w ck).lamports + (w (env.vaultAuth ck)).lamports + (n + u) := by
  obtain ⟨total, hT, h⟩ := (Covered.ready_all (reachable_inv H.reachable) (H.covered (by rw [hc]; simp))).accrued hc
    (r := env.rentMin configLen + x / 1000000000000000000 + (z + idle w ck)) (by
      have : scale * (x / 1000000000000000000) ≤ x := Nat.mul_div_le _ _
      rw [Nat.mul_add, Nat.mul_add, Nat.mul_add]; omega)
  exact ⟨total, hT, by omega⟩

/-- **C108.** Every history under the contract of the rewards program has these totals: none is excluded. -/
theorem C108_every_history {ck : Key} {n : Nat} {P : World → Ix → World → Prop} (H : History env ck P w n) :
    ∃ s u x z, IdleHistory env ck w s n u x z := by
  induction H with
  | genesis G => exact ⟨0, 0, 0, 0, .genesis G⟩
  | ext _ E K ih => obtain ⟨s, u, x, z, ih⟩ := ih; exact ⟨_, _, _, _, .ext ih E K⟩
  | exec _ O RC h _ ih => obtain ⟨s, u, x, z, ih⟩ := ih; exact ⟨_, _, _, _, .exec ih O RC h⟩

/-- **C108.** Lamports that arrive while the config has no effective stake give nobody a claim. -/
theorem C108_no_claim {ck : Key} {c : Config} {n : Nat} (R : Reachable env w) (hc : configAt w ck = some c)
    (h0 : c.effTotal = 0)
    (hw : ∀ k, w' k = if k = ck then { w ck with lamports := (w ck).lamports + n } else w k) (k : Key) :
    accrued env w' ck k = accrued env w ck k := by
  have I := reachable_inv R
  have hst : ∀ k, st w' k = st w k := fun k => by
    refine st_congr ?_ ?_ <;> rw [hw k] <;> split_ifs with e <;> simp [e]
  have hhold : ∀ k, holderAt w' k = holderAt w k := fun k => by
    unfold holderAt; rw [hw k]; split_ifs with e <;> simp [e]
  have ha : ∀ l, currentAcc c l = c.acc := fun l => by
    rw [currentAcc_eq]; unfold accNow; rw [h0, Nat.div_zero, Nat.add_zero]
    exact Nat.mod_eq_of_lt (wf_config I (configAt_eq.1 hc).2).2.2.2.2.1
  have e1 : configAt w' ck = some c := by rw [configAt_congr (hst ck)]; exact hc
  have e2 : holderAcc env ck w' = holderAcc env ck w := by unfold holderAcc; rw [hhold]
  unfold accrued
  rw [e1, hc, stakeAt_congr (hst k), e2]
  cases stakeAt w k with
  | none => rfl
  | some d => simp only [ha]

/-- **C108.** No lamport ever leaves a stake account: there is no instruction that closes one, and its rent and whatever else is sent to it
stay. -/
theorem C108_stake_account_keeps (R : Reachable env w) {k : Key} {d : Delegation} (hd : stakeAt w k = some d) (S : Steps env w w') :
    (w k).lamports ≤ (w' k).lamports := by
  obtain ⟨c0, hb, _⟩ := (reachable_inv R).stake_key hd
  have hg : ∀ w1 : World, Guarded w1 k := fun _ => Or.inl hb.ofProgram
  have hv : ∀ c1, k ≠ env.vaultAuth c1 := by
    rintro c1 rfl; simp [belongs, Env.vaultAuth] at hb
  induction S with
  | refl => exact le_rfl
  | tail S1 T ih =>
    refine ih.trans ?_
    have I := reachable_inv (steps_reachable R S1)
    cases T with
    | ext E => exact ext_lamports E (hg _)
    | exec O h =>
      obtain ⟨ck0, hck0, hkey, _⟩ := (exec_effect I O h).elsewhere I
      exact exec_debit I O h hck0 (by rintro rfl; rw [hb.ofProgram] at hkey; simp at hkey) (fun _ => hv _) (Or.inl (hg _))

/-! ## Lamports that arrive before anybody stakes -/

/-- The config of the example has validators and SOL stakers, but nobody has staked yet: 700 lamports arrive. -/
def idle5 : World := credit w5 cfg 700
/-- Then the first validator stakes. -/
def idle6 : World := after o1 idle5 ixStakeVal1
/-- Then 10000 lamports arrive. -/
def idle7 : World := credit idle6 cfg 10000

theorem istep {i : Ix} {s n u x z a b c g y : Nat} (H : IdleHistory Witness.env cfg w s n u x z) (O : o.Ok) (C : RewardsContract o)
    (ok : okB o w i = true)
    (e : (slashedBy w cfg i, payout Witness.env cfg w (after o w i), overCredit Witness.env cfg w i (after o w i),
      growth (holderAcc Witness.env cfg w) (holderAcc Witness.env cfg (after o w i)), stranded cfg w i) = (a, b, c, g, y)) :
    IdleHistory Witness.env cfg (after o w i) (s + a) (n + b) (u + c) (x + g * s) (z + y) := by
  simp only [Prod.mk.injEq] at e
  obtain ⟨rfl, rfl, rfl, rfl, rfl⟩ := e
  exact .exec H O C (ok_after ok)

theorem ih0 : IdleHistory Witness.env cfg w0 0 0 0 0 0 := .genesis genesis
theorem ih1 : IdleHistory Witness.env cfg w1 0 0 0 0 0 := by
  unfold w1; exact istep ih0 o1_ok oracle_contract ok0 (a := 0) (b := 0) (c := 0) (g := 0) (y := 0) (by decide +kernel)
theorem ih2 : IdleHistory Witness.env cfg w2 0 0 0 0 0 := by
  unfold w2; exact istep ih1 o1_ok oracle_contract ok1 (a := 0) (b := 0) (c := 0) (g := 0) (y := 0) (by decide +kernel)
theorem ih3 : IdleHistory Witness.env cfg w3 0 0 0 0 0 := by
  unfold w3; exact istep ih2 o1_ok oracle_contract ok2 (a := 0) (b := 0) (c := 0) (g := 0) (y := 0) (by decide +kernel)
theorem ih4 : IdleHistory Witness.env cfg w4 0 0 0 0 0 := by
  unfold w4; exact istep ih3 o1_ok oracle_contract ok3 (a := 0) (b := 0) (c := 0) (g := 0) (y := 0) (by decide +kernel)
theorem ih5 : IdleHistory Witness.env cfg w5 0 0 0 0 0 := by
  unfold w5; exact istep ih4 o1_ok oracle_contract ok4 (a := 0) (b := 0) (c := 0) (g := 0) (y := 0) (by decide +kernel)
theorem lt_w5 : decide ((w5 cfg).lamports + 700 < U64) = true := by decide +kernel
theorem lt_idle6 : decide ((idle6 cfg).lamports + 10000 < U64) = true := by decide +kernel
theorem ok_idle5 : okB o1 idle5 ixStakeVal1 = true := by decide +kernel
theorem ihi5 : IdleHistory Witness.env cfg idle5 0 0 0 0 0 := by
  have e : payout Witness.env cfg w5 idle5 = 0 := by decide +kernel
  have := IdleHistory.ext ih5 (credit_ext (n := 700) (reachable_inv r5).wf (of_decide_eq_true lt_w5)) credit_keeps
  unfold idle5 at e ⊢; rw [e, Nat.mul_zero] at this; exact this
theorem ihi6 : IdleHistory Witness.env cfg idle6 0 0 0 0 700 := by
  unfold idle6; exact istep ihi5 o1_ok oracle_contract ok_idle5 (a := 0) (b := 0) (c := 0) (g := 0) (y := 700) (by decide +kernel)
theorem ihi7 : IdleHistory Witness.env cfg idle7 0 0 0 0 700 := by
  have e : payout Witness.env cfg idle6 idle7 = 0 := by decide +kernel
  have := IdleHistory.ext ihi6 (credit_ext (n := 10000) (reachable_inv ihi6.reachable).wf (of_decide_eq_true lt_idle6)) credit_keeps
  unfold idle7 at e ⊢; rw [e, Nat.mul_zero] at this; exact this

/-- The 700 lamports were counted when the first validator staked and belong to nobody. The validator may claim the later 10000. -/
example : IdleHistory Witness.env cfg idle7 0 0 0 0 700 ∧ (configAt idle7 cfg).isSome = true ∧ idle idle5 cfg = 700 ∧
    idle idle7 cfg = 0 ∧ (idle7 cfg).lamports = (w5 cfg).lamports + 10700 ∧ accrued Witness.env idle7 cfg val1 = 10000 ∧
    ((configAt idle5 cfg).map (·.effTotal)) = some 0 :=
  ⟨ihi7, by decide +kernel, by decide +kernel, by decide +kernel, by decide +kernel, by decide +kernel, by decide +kernel⟩

/-- A stake account for `C108_stake_account_keeps`. -/
example : Reachable Witness.env w7 ∧ (stakeAt w7 val1).isSome = true ∧ 0 < (w7 val1).lamports :=
  ⟨r7, by decide +kernel, by decide +kernel⟩

end Verif.Props
