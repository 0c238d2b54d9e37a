import Verif.Lemmas.Reckon
import Verif.WitnessHistory
/-!
# C93: stake rewards are paid out in full, and not more
-/

namespace Verif.Props

open Verif Verif.Witness

variable {env : Env} {o : Oracle} {w w' : World} {ix : Ix}

theorem RewardLedger.reachable {ck : Key} {g p d : Nat} (L : RewardLedger env ck w g p d) : Reachable env w := by
  induction L with
  | genesis G => exact .genesis G
  | ext _ E ih => exact .ext ih E
  | exec _ O _ h _ _ _ ih => exact .exec ih O h

/-- The invariant of a ledger. -/
structure Reckoned (ck : Key) (w : World) (g p d : Nat) : Prop where
  none : configAt w ck = none → scale * p ≤ scale * g ∧ scale * g ≤ scale * p + d
  some : ∀ c, configAt w ck = some c → ∃ t, TotalIs (stakeClaim w ck) t ∧
    scale * p + t + remainder c (w ck).lamports ≤ scale * g ∧
    (scale * g < U128 → scale * g ≤ scale * p + t + remainder c (w ck).lamports + d ∧
      accNow c (w ck).lamports + remainder c (w ck).lamports ≤ scale * g ∧
      ∀ k dl, belongs k ck → stakeAt w k = some dl → dl.lastStake ≤ accNow c (w ck).lamports)

theorem effTotalOf_some {ck : Key} {c : Config} (h : configAt w ck = some c) : effTotalOf w ck = c.effTotal := by
  unfold effTotalOf; rw [h]; rfl

theorem effTotalOf_none {ck : Key} (h : configAt w ck = none) : effTotalOf w ck = 0 := by
  unfold effTotalOf; rw [h]; rfl

theorem reckoned_ext (I : Inv env w) {ck : Key} {g p d : Nat} (K : Reckoned ck w g p d) (E : ExtStep w w') :
    Reckoned ck w' (g + if 0 < effTotalOf w ck then (w' ck).lamports - (w ck).lamports else 0) p d := by
  have ec : configAt w' ck = configAt w ck := Option.ext fun c => ext_config_iff I E
  have es : ∀ k, stakeAt w' k = stakeAt w k := ext_stakeAt I E
  refine ⟨fun h => ?_, fun c h => ?_⟩
  · rw [ec] at h
    rw [effTotalOf_none h]
    exact K.none h
  · rw [ec] at h
    obtain ⟨t, T, K1, K2⟩ := K.some c h
    rw [effTotalOf_some h]
    have hl : (w ck).lamports ≤ (w' ck).lamports := ext_lamports E (.inr (configAt_eq.1 h).1)
    obtain ⟨x, hx⟩ := Nat.exists_eq_add_of_le hl
    obtain ⟨q, hq, he, hqE⟩ := accNow_arrive (x := x) (I.config ck c h).last_le
    rw [← hx] at hq he
    have hx' : (w' ck).lamports - (w ck).lamports = x := by omega
    rw [hx']
    generalize hX : (if 0 < c.effTotal then x else 0) = X at he ⊢
    have hg : scale * (g + X) = scale * g + X * scale := by ring
    rw [hg]
    have hE := (I.config ck c h).total
    have TQ := T.add (hE.mul q)
    have hle := fun k => (claim_arrive I h (ec.trans h) es hq k).1
    obtain ⟨t', ht', T'⟩ := TQ.below hle
    rw [Nat.mul_comm q] at ht'
    refine ⟨t', T', by omega, fun hlt => ?_⟩
    obtain ⟨k1, k2, k3⟩ := K2 (by omega)
    have hnw : accNow c (w ck).lamports + q < U128 := by omega
    rw [Nat.mod_eq_of_lt hnw] at hq
    have T2 := TQ.congr fun k => (claim_arrive I h (ec.trans h) es (by rw [hq, Nat.mod_eq_of_lt hnw]) k).2 hnw (k3 k)
    have et := T'.unique T2
    rw [Nat.mul_comm q] at et
    refine ⟨by omega, by omega, fun k dl hb hk => ?_⟩
    rw [es] at hk
    have := k3 k dl hb hk
    omega

theorem reckoned_exec (I : Inv env w) {ck : Key} {g p d x y : Nat} (K : Reckoned ck w g p d) (O : o.Ok) (L : o.Local)
    (h : exec env o w ix = .ok w') (hn : ix.OnlyAsConfig ck) (X : TotalIs (stakePaid w w' ck) x)
    (Y : TotalIs (fun k => if settledIn w w' ck k then 1 else 0) y) :
    Reckoned ck w' g (p + x) (d + y * 1000000000000000000 + if ix.config = some ck then effTotalOf w ck else 0) := by
  have hsc : (1000000000000000000 : Nat) = scale := rfl
  rw [hsc]
  cases hc : configAt w ck with
  | none =>
    obtain ⟨hs, hz⟩ := exec_creates I O h hc
    have h0 : ∀ k, settledIn w w' ck k = false := fun k => by
      by_cases hb : belongs k ck
      · exact settledIn_same fun hne => absurd (stake_has_config I hc hb) hne
      · exact settledIn_other hb
    have x0 : x = 0 := X.unique (TotalIs.zero fun k => by unfold stakePaid; rw [h0]; rfl)
    have y0 : y = 0 := Y.unique (TotalIs.zero fun k => by rw [h0]; rfl)
    subst x0 y0
    obtain ⟨k1, k2⟩ := K.none hc
    rw [effTotalOf_none hc]
    simp only [ite_self, Nat.zero_mul, Nat.add_zero]
    refine ⟨fun _ => K.none hc, fun c' hc' => ⟨0, TotalIs.zero fun k => ?_, ?_⟩⟩
    · by_cases hb : belongs k ck
      · exact stakeClaim_none (hs k hb)
      · exact stakeClaim_other hb
    · obtain ⟨e1, e2⟩ := hz c' hc'
      have er : remainder c' (w' ck).lamports = 0 := by unfold remainder; rw [if_pos e1]
      have ea : accNow c' (w' ck).lamports = 0 := by unfold accNow; rw [e1, e2]; simp
      rw [er, ea]
      refine ⟨by omega, fun _ => ⟨by omega, by omega, fun k dl hb hk => ?_⟩⟩
      rw [hs k hb] at hk; simp at hk
  | some c =>
    obtain ⟨c', hc', ha, hr, hs⟩ := exec_reckon I O L h hc hn
    have st := claim_step hc hc' rfl ha hs
    obtain ⟨t, T, K1, K2⟩ := K.some c hc
    refine ⟨fun h => (by rw [hc'] at h; simp at h), fun c1 hc1 => ?_⟩
    rw [hc'] at hc1; cases hc1
    obtain ⟨t', _, T'⟩ := T.below fun k => (Nat.le_add_left _ _).trans (st k).1
    have up := ((X.mul scale).add T').mono T fun k => (st k).1
    have low := T.mono (((X.mul scale).add T').add (Y.mul scale)) fun k => (st k).2
    have rl := remainder_le c (w ck).lamports
    rw [effTotalOf_some hc]
    have hrr : remainder c' (w' ck).lamports ≤ remainder c (w ck).lamports ∧ remainder c (w ck).lamports ≤
        remainder c' (w' ck).lamports + (if ix.config = some ck then c.effTotal else 0) := by
      rcases hr with e | ⟨e, e'⟩
      · rw [e]; exact ⟨le_refl _, Nat.le_add_right _ _⟩
      · rw [e', if_pos e]; exact ⟨Nat.zero_le _, by omega⟩
    rw [ha, Nat.mul_add, Nat.mul_comm y]
    generalize (if ix.config = some ck then c.effTotal else 0) = z at hrr ⊢
    refine ⟨t', T', by omega, fun hlt => ?_⟩
    obtain ⟨k1, k2, k3⟩ := K2 hlt
    refine ⟨by omega, by omega, fun k dl hb hk => ?_⟩
    cases hd : stakeAt w k with
    | none => rw [((hs k hb).1 dl hd hk).2]; exact Nat.zero_le _
    | some d0 =>
      obtain ⟨d', q, e', Tr⟩ := (hs k hb).2 d0 hd
      rw [hk] at e'; cases e'
      cases Tr with
      | kept b1 _ _ _ _ => rw [b1]; exact k3 k d0 hb hd
      | settled b1 _ _ => rw [b1]

theorem reckoned {ck : Key} {g p d : Nat} (L : RewardLedger env ck w g p d) : Reckoned ck w g p d := by
  induction L with
  | @genesis w0 G =>
    refine ⟨fun _ => ⟨le_refl _, Nat.zero_le _⟩, fun c hc => ?_⟩
    have := configAt_eq.1 hc
    have z := G.owned _ this.1
    rw [this.2] at z
    simp [Data.zeroed] at z
  | ext L E ih => exact reckoned_ext (reachable_inv (RewardLedger.reachable L)) ih E
  | exec L O Lo h hn X Y ih => exact reckoned_exec (reachable_inv (RewardLedger.reachable L)) ih O Lo h hn X Y

/-- **C93.** Never more is paid out in stake rewards than has arrived, and what is still claimed is covered too: whatever the
history, the scaled rewards paid and claimed are at most those received. -/
theorem C93_not_overpaid {ck : Key} {got paid dust claimed : Nat} (L : RewardLedger env ck w got paid dust)
    (T : TotalIs (stakeClaim w ck) claimed) :
    1000000000000000000 * paid + claimed ≤ 1000000000000000000 * got := by
  have K := reckoned L
  have hsc : (1000000000000000000 : Nat) = scale := rfl
  rw [hsc]
  cases hc : configAt w ck with
  | none =>
    rw [T.unique (TotalIs.zero (stakeClaim_no_config hc))]
    exact (K.none hc).1
  | some c =>
    obtain ⟨t, T', h, _⟩ := K.some c hc
    rw [T.unique T']; omega

/-- **C93.** Nothing but rounding dust is lost: as long as the accumulator has not wrapped, all stake rewards that have
arrived are paid, claimed, dust, or less than one unit of the accumulator. -/
theorem C93_nothing_lost {ck : Key} {got paid dust claimed : Nat} (L : RewardLedger env ck w got paid dust)
    (T : TotalIs (stakeClaim w ck) claimed) (hg : 1000000000000000000 * got < 2 ^ 128) :
    1000000000000000000 * got ≤ 1000000000000000000 * paid + claimed + dust + effTotalOf w ck := by
  have K := reckoned L
  have hsc : (1000000000000000000 : Nat) = scale := rfl
  rw [hsc] at hg ⊢
  cases hc : configAt w ck with
  | none =>
    have := (K.none hc).2
    omega
  | some c =>
    obtain ⟨t, T', _, h⟩ := K.some c hc
    obtain ⟨h1, _⟩ := h hg
    rw [T.unique T', effTotalOf_some hc]
    have := remainder_le c (w ck).lamports
    omega

/-- **C93.** The claims always have a total. -/
theorem C93_claims_total (R : Reachable env w) (ck : Key) : ∃ claimed, TotalIs (stakeClaim w ck) claimed := by
  obtain ⟨S, hS⟩ := finite_state R
  refine ⟨_, S, fun k hk => stakeClaim_none ?_, rfl⟩
  rw [stakeAt_st, hS k hk]; rfl

/-- **C93.** Every instruction that names the config in no other role extends the ledger. -/
theorem C93_ledger_continues {ck : Key} {got paid dust : Nat} (L : RewardLedger env ck w got paid dust) (O : o.Ok)
    (Lo : o.Local) (h : exec env o w ix = .ok w') (hn : ix.OnlyAsConfig ck) :
    ∃ x y, TotalIs (stakePaid w w' ck) x ∧ TotalIs (fun k => if settledIn w w' ck k then 1 else 0) y ∧
      RewardLedger env ck w' got (paid + x)
        (dust + y * 1000000000000000000 + if ix.config = some ck then effTotalOf w ck else 0) := by
  obtain ⟨S, hS⟩ := finite_state (RewardLedger.reachable L)
  have h0 : ∀ k, k ∉ S → settledIn w w' ck k = false := fun k hk => by
    have : stakeAt w k = none := by rw [stakeAt_st, hS k hk]; rfl
    unfold settledIn; rw [this]
  have X : TotalIs (stakePaid w w' ck) _ := ⟨S, fun k hk => by unfold stakePaid; rw [h0 k hk]; rfl, rfl⟩
  have Y : TotalIs (fun k => if settledIn w w' ck k then 1 else 0) _ := ⟨S, fun k hk => by simp only [h0 k hk]; rfl, rfl⟩
  exact ⟨_, _, X, Y, .exec L O Lo h hn X Y⟩

/-- **C93.** What leaves the config is exactly what the accounts settled are paid: an instruction other than
`HarvestHolderRewards` takes from the config the accrued rewards of the accounts it settles, and nothing else. -/
theorem C93_paid_from_config (R : Reachable env w) (O : o.Ok) (Lo : o.Local) (h : exec env o w ix = .ok w') {ck : Key}
    (hc : configAt w ck ≠ none) (hn : ix.OnlyAsConfig ck) (hi : ix.decoded ≠ some .harvestHolderRewards) :
    ∃ n, TotalIs (paidFor env w w' ck) n ∧ (w' ck).lamports + n = (w ck).lamports := by
  have I := reachable_inv R
  obtain ⟨c, hc⟩ := Option.ne_none_iff_exists'.1 hc
  have zero : (∀ k, belongs k ck → stakeAt w k ≠ none → stakeAt w' k = stakeAt w k) → (w' ck).lamports = (w ck).lamports →
      ∃ n, TotalIs (paidFor env w w' ck) n ∧ (w' ck).lamports + n = (w ck).lamports := fun e el => by
    refine ⟨0, TotalIs.zero fun k => ?_, el⟩
    have h0 : settledIn w w' ck k = false := by
      by_cases hb : belongs k ck
      · exact settledIn_same (e k hb)
      · exact settledIn_other hb
    unfold paidFor; rw [h0]; rfl
  by_cases hck : ix.config = some ck
  · rcases exec_pays I O Lo h hc hck fun p q hp hq => (hn p hp).trans (hn q hq).symm with
      ⟨P, n, M, e⟩ | ⟨e, _⟩ | ⟨sk, ds, hb, h0, h1, he, hl, el, e⟩
    · exact ⟨n, M.total.congr (marked_paidFor hc M), e⟩
    · exact absurd e hi
    · exact zero (fun k _ hne => e k (by rintro rfl; exact hne h0)) el
  · obtain ⟨e, es⟩ := exec_apart I O Lo h hn hck
    exact zero (fun k hb _ => es k hb) (by rw [e])

/-! ### The witness history as a ledger: 10000 lamports of stake rewards arrive -/

private def onlyAsB (ix : Ix) (ck : Key) : Bool :=
  (List.range ix.ctx.accts.length).all fun q => decide (ix.acct q = some ck → q = ix.configPos)

private theorem onlyAs {ix : Ix} {ck : Key} (h : onlyAsB ix ck = true) : ix.OnlyAsConfig ck := by
  intro p hp
  have hlt : p < ix.ctx.accts.length := by
    by_contra hn
    have : ix.acct p = none := List.getElem?_eq_none (by omega)
    rw [this] at hp; cases hp
  have := (List.all_eq_true.1 h) p (List.mem_range.2 hlt)
  exact of_decide_eq_true this hp

private def Led (w : World) (got : Nat) : Prop := ∃ p d, RewardLedger Witness.env cfg w got p d

private theorem Led.step {w : World} {got : Nat} {ix : Ix} {o : Oracle} (L : Led w got) (O : o.Ok) (Lo : o.Local)
    (h : okB o w ix = true) (hn : onlyAsB ix cfg = true) : Led (after o w ix) got := by
  obtain ⟨p, d, L⟩ := L
  obtain ⟨x, y, _, _, L'⟩ := C93_ledger_continues L O Lo (ok_after h) (onlyAs hn)
  exact ⟨_, _, L'⟩

private theorem Led.ext {w w' : World} {got n : Nat} (L : Led w got) (E : ExtStep w w')
    (h : (if 0 < effTotalOf w cfg then (w' cfg).lamports - (w cfg).lamports else 0) = n) : Led w' (got + n) := by
  obtain ⟨p, d, L⟩ := L
  subst h
  exact ⟨p, d, .ext L E⟩

private theorem g0 : Led w0 0 := ⟨0, 0, .genesis genesis⟩
private theorem g1 : Led w1 0 := by
  unfold w1; exact g0.step o1_ok (oracle_local _ _ _) ok0 (by decide +kernel)
private theorem g2 : Led w2 0 := by
  unfold w2; exact g1.step o1_ok (oracle_local _ _ _) ok1 (by decide +kernel)
private theorem g3 : Led w3 0 := by
  unfold w3; exact g2.step o1_ok (oracle_local _ _ _) ok2 (by decide +kernel)
private theorem g4 : Led w4 0 := by
  unfold w4; exact g3.step o1_ok (oracle_local _ _ _) ok3 (by decide +kernel)
private theorem g5 : Led w5 0 := by
  unfold w5; exact g4.step o1_ok (oracle_local _ _ _) ok4 (by decide +kernel)
private theorem g6 : Led w6 0 := by
  unfold w6; exact g5.step o1_ok (oracle_local _ _ _) ok5 (by decide +kernel)
private theorem g7 : Led w7 0 := by
  unfold w7; exact g6.step o1_ok (oracle_local _ _ _) ok6 (by decide +kernel)
private theorem g8 : Led w8 10000 := by
  unfold w8; exact g7.ext (n := 10000) (credit_ext (reachable_inv r7).wf (of_decide_eq_true lt7)) (by decide +kernel)
private theorem g9 : Led w9 10000 := by
  unfold w9; exact g8.step o1_ok (oracle_local _ _ _) ok8 (by decide +kernel)
private theorem g10 : Led w10 10000 := by
  unfold w10; exact g9.step o1_ok (oracle_local _ _ _) ok9 (by decide +kernel)
private theorem g11 : Led w11 10000 := by
  unfold w11; exact g10.step o2_ok (oracle_local _ _ _) ok10 (by decide +kernel)
private theorem g12 : Led w12 10000 := by
  unfold w12; exact g11.step o2_ok (oracle_local _ _ _) ok11 (by decide +kernel)
private theorem g13 : Led w13 10000 := by
  unfold w13; exact g12.step o2_ok (oracle_local _ _ _) ok12 (by decide +kernel)
private theorem g14 : Led w14 10000 := by
  unfold w14; exact g13.ext (n := 0) (creditTokens_ext (reachable_inv r13).wf) (by decide +kernel)
private theorem g15 : Led w15 10000 := by
  unfold w15; exact g14.step o2_ok (oracle_local _ _ _) ok14 (by decide +kernel)
private theorem g16 : Led w16 10000 := by
  unfold w16; exact g15.step o2_ok (oracle_local _ _ _) ok15 (by decide +kernel)
private theorem g17 : Led w17 10000 := by
  unfold w17; exact g16.step o2_ok (oracle_local _ _ _) ok16 (by decide +kernel)
private theorem g18 : Led w18 10000 := by
  unfold w18; exact g17.step o2_ok (oracle_local _ _ _) ok17 (by decide +kernel)

/-- Of the 10000 lamports the validator was paid its share when it harvested; the staker's share was still claimed. -/
example : (∃ paid dust, RewardLedger Witness.env cfg w18 10000 paid dust) ∧
    1000000000000000000 * 10000 < 2 ^ 128 ∧ stakePaid w9 w10 cfg val1 = 8000 ∧
    stakeClaim w10 cfg sol1 = 2000 * 1000000000000000000 :=
  ⟨g18, by decide +kernel⟩

/-- The harvest takes the validator's 12000 lamports of stake and holder rewards from the config. -/
example : ixHarvestVal1.OnlyAsConfig cfg ∧ ixHarvestVal1.decoded ≠ some .harvestHolderRewards ∧ configAt w9 cfg ≠ none ∧
    paidFor Witness.env w9 w10 cfg val1 = 12000 ∧ (w10 cfg).lamports + 12000 = (w9 cfg).lamports :=
  ⟨onlyAs (by decide +kernel), by decide +kernel⟩

end Verif.Props
