import Verif.SpecShare
import Verif.Props.Ledger
import Mathlib.Tactic.Linarith
import Mathlib.Tactic.FieldSimp
import Mathlib.Tactic.Positivity
import Mathlib.Tactic.Ring
/-!
# C111: every account is paid its share
-/

namespace Verif.Props

open Verif Verif.Witness

variable {env : Env} {o : Oracle} {w w' : World} {ix : Ix}

theorem _root_.Verif.ShareLedger.reachable {ck k : Key} {g p : Nat} {s d : ℚ} (L : ShareLedger env ck k w g s p d) : Reachable env w := by
  induction L with
  | genesis G => exact .genesis G
  | ext _ E ih => exact .ext ih E
  | exec _ O _ h _ ih => exact .exec ih O h

/-- Instructions that do not settle the config leave every effective stake as it is. -/
theorem unsettled_effective (E : Effect env o ix w w') (hs : ix.settles = false) (ck k : Key) :
    effectiveIn w' ck k = effectiveIn w ck k := by
  have no : ∀ {i : StakeInstruction}, ix.decoded = some i → i.settles = true → False := fun h e => by
    unfold Ix.settles at hs; rw [h] at hs; simp only at hs; rw [hs] at e; cases e
  have keep : st w' k = st w k → effectiveIn w' ck k = effectiveIn w ck k := fun h => by
    unfold effectiveIn; rw [stakeAt_congr h]
  have upd : ∀ {k' D D0}, st w' k = stUpd (st w) k' D k → st w k' = some D0 →
      (D.del?).map (·.effective) = (D0.del?).map (·.effective) → effectiveIn w' ck k = effectiveIn w ck k := by
    intro k' D D0 h h0 he
    by_cases hk : k = k'
    · subst hk
      unfold effectiveIn; rw [stakeAt_st, stakeAt_st, h, stUpd_same, h0]
      simp only [Option.bind_some, he]
    · exact keep (by rw [h, stUpd_ne hk])
  have new : ∀ {k' D}, st w' k = stUpd (st w) k' D k → st w k' = none → ((D.del?).map (·.effective)).getD 0 = 0 →
      effectiveIn w' ck k = effectiveIn w ck k := by
    intro k' D h h0 he
    by_cases hk : k = k'
    · subst hk
      unfold effectiveIn; rw [stakeAt_st, stakeAt_st, h, stUpd_same, h0]
      simp only [Option.bind_some, Option.bind_none, Option.map_none, Option.getD_none, he]
    · exact keep (by rw [h, stUpd_ne hk])
  cases E with
  | initializeConfig ck' c _ _ hn _ h => exact new (congrFun h k) hn rfl
  | initializeValidatorStake ck' vote wd c hi _ _ _ _ hn h => exact new (congrFun h k) hn rfl
  | initializeSolStakerStake ck' native c v vs hi _ _ _ hvs hn h =>
    by_cases h2 : k = .validatorPda v.delegatedVote ck'
    · subst h2
      unfold effectiveIn; rw [stakeAt_st, stakeAt_st, h, stUpd_same, st_validator.2 hvs]; rfl
    · exact new (k' := .solStakerPda native ck') (by rw [h, stUpd_ne h2]) hn rfl
  | setAuthority ck' new c c' t _ _ hc _ h => exact upd (congrFun h k) (st_config.2 hc) rfl
  | updateConfig ck' c f _ _ hc _ _ h => exact upd (congrFun h k) (st_config.2 hc) rfl
  | validatorSyncAuthority ck' vote wd v _ _ _ hv _ _ h => exact upd (congrFun h k) (st_validator.2 hv) rfl
  | settle ck' h => rcases h with h | h | h | ⟨n, h⟩ <;> exact (no h rfl).elim
  | stake ck' sk n d d' h => rcases h with h | h <;> exact (no h rfl).elim
  | slash ck' sk n d d' h => rcases h with h | h <;> exact (no h rfl).elim
  | unstake ck' sk n c d d' h => exact (no h rfl).elim
  | move ck' sk tk n ds dt ds' dt' h => exact (no h rfl).elim

/-- What is left over on a config, for one account. -/
theorem exec_left (I : Inv env w) (O : o.Ok) (L : o.Local) (h : exec env o w ix = .ok w') {ck : Key} {c c' : Config}
    (hc : configAt w ck = some c) (hc' : configAt w' ck = some c') (hn : ix.OnlyAsConfig ck) (k : Key) :
    (remainder c' (w' ck).lamports = remainder c (w ck).lamports ∧ c'.effTotal = c.effTotal ∧
      effectiveIn w' ck k = effectiveIn w ck k) ∨ (ix.config = some ck ∧ remainder c' (w' ck).lamports = 0) := by
  by_cases hck : ix.config = some ck
  · have honce : ∀ p q, ix.acct p = some ck → ix.acct q = some ck → p = q := fun p q hp hq => (hn p hp).trans (hn q hq).symm
    rcases exec_still_or_settled I O L h hc hck honce with ⟨S, hs⟩ | ⟨S, hO⟩
    · obtain ⟨c1, h', h1, h2, h3, h4⟩ := S
      rw [hc'] at h'; cases h'
      exact .inl ⟨by unfold remainder; rw [h2, h3, h4], h3, unsettled_effective (exec_effect I O h) hs ck k⟩
    · obtain ⟨c1, hd', e1, e2⟩ := id S
      rw [(configAt_eq.1 hc').2] at hd'; cases hd'
      exact .inr ⟨hck, by rw [← e2]; exact remainder_self c'⟩
  · obtain ⟨e, es⟩ := exec_apart I O L h hn hck
    have : c' = c := by
      have := (configAt_eq.1 hc').2
      rw [e, (configAt_eq.1 hc).2] at this; cases this; rfl
    subst this
    refine .inl ⟨by rw [e], rfl, ?_⟩
    by_cases hb : belongs k ck
    · unfold effectiveIn; rw [es k hb]
    · rw [effectiveIn_notBelongs hb, effectiveIn_notBelongs hb]

/-- The invariant of a share ledger, scaled. -/
structure Shared (ck k : Key) (w : World) (g : Nat) (s : ℚ) (p : Nat) (d : ℚ) : Prop where
  none : configAt w ck = none → (p : ℚ) ≤ s ∧ s ≤ p + d
  some : ∀ c, configAt w ck = some c →
    scale * (p : ℚ) + stakeClaim w ck k + remainder c (w ck).lamports * (effectiveIn w ck k / c.effTotal : ℚ) ≤ scale * s ∧
    (scale * g < U128 →
      scale * s ≤ scale * (p : ℚ) + stakeClaim w ck k + remainder c (w ck).lamports * (effectiveIn w ck k / c.effTotal : ℚ) +
        scale * d ∧
      accNow c (w ck).lamports + remainder c (w ck).lamports ≤ scale * g ∧
      ∀ dl, belongs k ck → stakeAt w k = some dl → dl.lastStake ≤ accNow c (w ck).lamports)

theorem shared_ext (I : Inv env w) {ck k : Key} {g p : Nat} {s d : ℚ} (K : Shared ck k w g s p d) (E : ExtStep w w') :
    Shared ck k w' (g + arrived ck w w') (s + arrived ck w w' * (effectiveIn w ck k / effTotalOf w ck)) p d := by
  have ec : configAt w' ck = configAt w ck := Option.ext fun c => ext_config_iff I E
  have es : ∀ k, stakeAt w' k = stakeAt w k := ext_stakeAt I E
  have ee : effectiveIn w' ck k = effectiveIn w ck k := by unfold effectiveIn; rw [es]
  refine ⟨fun h => ?_, fun c h => ?_⟩
  · rw [ec] at h
    unfold arrived; rw [effTotalOf_none h]
    simpa using K.none h
  · rw [ec] at h
    obtain ⟨K1, K2⟩ := K.some c h
    unfold arrived; rw [effTotalOf_some h]
    have hl : (w ck).lamports ≤ (w' ck).lamports := ext_lamports E (.inr (configAt_eq.1 h).1)
    obtain ⟨x, hx⟩ := Nat.exists_eq_add_of_le hl
    obtain ⟨q, hq, he, hqE⟩ := accNow_arrive (x := x) (I.config ck c h).last_le
    rw [← hx] at hq he
    have hx' : (w' ck).lamports - (w ck).lamports = x := by omega
    rw [hx', ee]
    generalize hX : (if 0 < c.effTotal then x else 0) = X at he ⊢
    have cl := claim_arrive I h (ec.trans h) es hq k
    -- the share of the arrival
    have hshare : scale * ((X : ℚ) * (effectiveIn w ck k / c.effTotal)) +
        remainder c (w ck).lamports * (effectiveIn w ck k / c.effTotal : ℚ) =
        q * effectiveIn w ck k + remainder c (w' ck).lamports * (effectiveIn w ck k / c.effTotal : ℚ) := by
      by_cases hE : c.effTotal = 0
      · have hE0 : ¬ 0 < c.effTotal := by omega
        rw [if_neg hE0] at hX
        have hq0 : q = 0 := by rw [hE] at hqE; omega
        rw [hE, hq0]; simp
      · have hE' : (c.effTotal : ℚ) ≠ 0 := by exact_mod_cast hE
        have heq : (c.effTotal : ℚ) * q + remainder c (w' ck).lamports = remainder c (w ck).lamports + X * scale := by
          exact_mod_cast he
        have : (scale : ℚ) * X = c.effTotal * q + remainder c (w' ck).lamports - remainder c (w ck).lamports := by linarith
        rw [← mul_assoc, this]
        field_simp
        ring
    have c1 : (stakeClaim w' ck k : ℚ) ≤ stakeClaim w ck k + q * effectiveIn w ck k := by exact_mod_cast cl.1
    refine ⟨by linarith, fun hlt => ?_⟩
    have hg : scale * (g + X) = scale * g + X * scale := by ring
    rw [hg] at hlt ⊢
    obtain ⟨k1, k2, k3⟩ := K2 (by omega)
    have hnw : accNow c (w ck).lamports + q < U128 := by omega
    have c2 : (stakeClaim w' ck k : ℚ) = stakeClaim w ck k + q * effectiveIn w ck k := by
      exact_mod_cast cl.2 hnw fun d hb hd => k3 d hb hd
    rw [Nat.mod_eq_of_lt hnw] at hq
    refine ⟨by linarith, by omega, fun dl hb hk => ?_⟩
    rw [es] at hk
    have := k3 dl hb hk
    omega

theorem scale_rat : (scale : ℚ) = 10 ^ 18 := by exact_mod_cast (show scale = 10 ^ 18 by decide)

theorem left_le (c : Config) (l e : Nat) : (remainder c l : ℚ) * (e / c.effTotal) ≤ e := by
  by_cases hE : c.effTotal = 0
  · rw [hE]; simp
  · have hE' : (0 : ℚ) < c.effTotal := by exact_mod_cast Nat.pos_of_ne_zero hE
    have hr : (remainder c l : ℚ) ≤ c.effTotal := by exact_mod_cast remainder_le c l
    calc (remainder c l : ℚ) * (e / c.effTotal) ≤ c.effTotal * (e / c.effTotal) := mul_le_mul_of_nonneg_right hr (by positivity)
      _ = e := by field_simp

private theorem shift_up {S p q s cl cl' R R' : ℚ} (h1 : S * p + cl + R ≤ S * s) (h2 : S * q + cl' ≤ cl) (h3 : R' ≤ R) :
    S * (p + q) + cl' + R' ≤ S * s := by
  rw [mul_add]; linarith

private theorem shift_low {S p q s cl cl' R R' d a b : ℚ} (h1 : S * s ≤ S * p + cl + R + S * d) (h2 : cl ≤ S * q + cl' + S * a)
    (h3 : R ≤ R' + S * b) : S * s ≤ S * (p + q) + cl' + R' + S * (d + a + b) := by
  rw [mul_add, mul_add, mul_add]; linarith

theorem shared_exec (I : Inv env w) {ck k : Key} {g p : Nat} {s d : ℚ} (K : Shared ck k w g s p d) (O : o.Ok) (L : o.Local)
    (h : exec env o w ix = .ok w') (hn : ix.OnlyAsConfig ck) :
    Shared ck k w' g s (p + stakePaid w w' ck k)
      (d + (if settledIn w w' ck k then 1 else 0) + if ix.config = some ck then (effectiveIn w ck k : ℚ) / 10 ^ 18 else 0) := by
  have hd0 : (0 : ℚ) ≤ if ix.config = some ck then (effectiveIn w ck k : ℚ) / 10 ^ 18 else 0 := by
    split_ifs <;> positivity
  cases hc : configAt w ck with
  | none =>
    obtain ⟨hs, hz⟩ := exec_creates I O h hc
    have h0 : settledIn w w' ck k = false := by
      by_cases hb : belongs k ck
      · exact settledIn_same fun hne => absurd (stake_has_config I hc hb) hne
      · exact settledIn_other hb
    have hp : stakePaid w w' ck k = 0 := by unfold stakePaid; rw [h0]; rfl
    have hcl : stakeClaim w' ck k = 0 := by
      by_cases hb : belongs k ck
      · exact stakeClaim_none (hs k hb)
      · exact stakeClaim_other hb
    obtain ⟨k1, k2⟩ := K.none hc
    rw [hp, h0]
    refine ⟨fun _ => ⟨by simpa using k1, by simp; linarith⟩, fun c' hc' => ?_⟩
    obtain ⟨e1, e2⟩ := hz c' hc'
    have er : remainder c' (w' ck).lamports = 0 := by unfold remainder; rw [if_pos e1]
    have ea : accNow c' (w' ck).lamports = 0 := by unfold accNow; rw [e1, e2]; simp
    rw [er, ea, hcl]
    have hsc : (0 : ℚ) < scale := by exact_mod_cast (show 0 < scale by decide)
    refine ⟨by simpa using mul_le_mul_of_nonneg_left k1 hsc.le, fun _ => ⟨?_, by omega, fun dl hb hk => ?_⟩⟩
    · simp; nlinarith
    · rw [hs k hb] at hk; simp at hk
  | some c =>
    obtain ⟨c', hc', ha, _, hs⟩ := exec_reckon I O L h hc hn
    have st := claim_step hc hc' rfl ha hs k
    obtain ⟨K1, K2⟩ := K.some c hc
    have s1 : (scale : ℚ) * stakePaid w w' ck k + stakeClaim w' ck k ≤ stakeClaim w ck k := by exact_mod_cast st.1
    have s2 : (stakeClaim w ck k : ℚ) ≤ scale * stakePaid w w' ck k + stakeClaim w' ck k +
        scale * (if settledIn w w' ck k then 1 else 0) := by
      have := st.2
      split_ifs at this ⊢ <;> exact_mod_cast this
    have hrr : (remainder c' (w' ck).lamports * (effectiveIn w' ck k / c'.effTotal) : ℚ) ≤
          remainder c (w ck).lamports * (effectiveIn w ck k / c.effTotal) ∧
        (remainder c (w ck).lamports * (effectiveIn w ck k / c.effTotal) : ℚ) ≤
          remainder c' (w' ck).lamports * (effectiveIn w' ck k / c'.effTotal) +
            scale * (if ix.config = some ck then (effectiveIn w ck k : ℚ) / 10 ^ 18 else 0) := by
      rcases exec_left I O L h hc hc' hn k with ⟨e1, e2, e3⟩ | ⟨e1, e2⟩
      · rw [e1, e2, e3]
        exact ⟨le_refl _, le_add_of_nonneg_right (mul_nonneg (by positivity) hd0)⟩
      · rw [e2, if_pos e1, scale_rat]
        refine ⟨by simp; positivity, ?_⟩
        simp only [Nat.cast_zero, zero_mul, zero_add]
        rw [mul_div_cancel₀ _ (by norm_num)]
        exact left_le c (w ck).lamports (effectiveIn w ck k)
    refine ⟨fun h => (by rw [hc'] at h; simp at h), fun c1 hc1 => ?_⟩
    rw [hc'] at hc1; cases hc1
    rw [ha]
    rw [Nat.cast_add]
    refine ⟨shift_up K1 s1 hrr.1, fun hlt => ?_⟩
    obtain ⟨k1, k2, k3⟩ := K2 hlt
    refine ⟨shift_low k1 s2 hrr.2, ?_, fun dl hb hk => ?_⟩
    · rcases exec_left I O L h hc hc' hn k with ⟨e1, _⟩ | ⟨_, e2⟩ <;> omega
    · cases hd : stakeAt w k with
      | none => rw [((hs k hb).1 dl hd hk).2]; exact Nat.zero_le _
      | some d0 =>
        obtain ⟨d', q, e', Tr⟩ := (hs k hb).2 d0 hd
        rw [hk] at e'; cases e'
        cases Tr with
        | kept b1 _ _ _ _ => rw [b1]; exact k3 d0 hb hd
        | settled b1 _ _ => rw [b1]

theorem shared {ck k : Key} {g p : Nat} {s d : ℚ} (L : ShareLedger env ck k w g s p d) : Shared ck k w g s p d := by
  induction L with
  | @genesis w0 G =>
    refine ⟨fun _ => by simp, fun c hc => ?_⟩
    have := configAt_eq.1 hc
    have z := G.owned _ this.1
    rw [this.2] at z
    simp [Data.zeroed] at z
  | ext L E ih => exact shared_ext (reachable_inv L.reachable) ih E
  | exec L O Lo h hn ih => exact shared_exec (reachable_inv L.reachable) ih O Lo h hn

/-- **C111.** No stake account is ever paid more in stake rewards than its share, and what it still claims is within its share as well. -/
theorem C111_no_more_than_share {ck k : Key} {got paid : Nat} {share dust : ℚ} (L : ShareLedger env ck k w got share paid dust) :
    (paid : ℚ) + stakeClaim w ck k / 10 ^ 18 ≤ share := by
  have K := shared L
  cases hc : configAt w ck with
  | none => rw [stakeClaim_no_config hc]; simpa using (K.none hc).1
  | some c =>
    have h := (K.some c hc).1
    rw [scale_rat] at h
    have : (0 : ℚ) ≤ remainder c (w ck).lamports * (effectiveIn w ck k / c.effTotal) := by positivity
    rw [← mul_le_mul_iff_right₀ (show (0 : ℚ) < 10 ^ 18 by norm_num), mul_add, mul_div_cancel₀ _ (by norm_num)]
    linarith

/-- **C111.** And it misses its share by no more than rounding: as long as the accumulator has not wrapped, the share has been paid, is
claimed, or is dust. -/
theorem C111_no_less_than_share {ck k : Key} {got paid : Nat} {share dust : ℚ} (L : ShareLedger env ck k w got share paid dust)
    (hg : 10 ^ 18 * got < 2 ^ 128) :
    share ≤ paid + (stakeClaim w ck k : ℚ) / 10 ^ 18 + dust + (effectiveIn w ck k : ℚ) / 10 ^ 18 := by
  have K := shared L
  have he : (0 : ℚ) ≤ (effectiveIn w ck k : ℚ) / 10 ^ 18 := by positivity
  cases hc : configAt w ck with
  | none => rw [stakeClaim_no_config hc]; have := (K.none hc).2; simp; linarith
  | some c =>
    obtain ⟨h, _⟩ := (K.some c hc).2 hg
    rw [scale_rat] at h
    have := left_le c (w ck).lamports (effectiveIn w ck k)
    rw [← mul_le_mul_iff_right₀ (show (0 : ℚ) < 10 ^ 18 by norm_num), mul_add, mul_add, mul_add, mul_div_cancel₀ _ (by norm_num),
      mul_div_cancel₀ _ (by norm_num)]
    linarith

/-! ### The witness history: 10000 lamports arrive, of which 8000 are the share of the first validator -/

private def onlyAsCfg (ix : Ix) : Bool :=
  (List.range ix.ctx.accts.length).all fun q => decide (ix.acct q = some cfg → q = ix.configPos)

private theorem onlyAsCfg_ok {ix : Ix} (h : onlyAsCfg ix = true) : ix.OnlyAsConfig cfg := by
  intro p hp
  have hlt : p < ix.ctx.accts.length := by
    by_contra hn
    have : ix.acct p = none := List.getElem?_eq_none (by omega)
    rw [this] at hp; cases hp
  have := (List.all_eq_true.1 h) p (List.mem_range.2 hlt)
  exact of_decide_eq_true this hp

private def Shr (w : World) (got : Nat) (share : ℚ) (paid : Nat) : Prop := ∃ d, ShareLedger Witness.env cfg val1 w got share paid d

private theorem Shr.step {w : World} {got p m : Nat} {s : ℚ} {ix : Ix} {o : Oracle} (L : Shr w got s p) (O : o.Ok) (Lo : o.Local)
    (h : okB o w ix = true) (hn : onlyAsCfg ix = true) (hp : stakePaid w (after o w ix) cfg val1 = m) :
    Shr (after o w ix) got s (p + m) := by
  obtain ⟨d, L⟩ := L
  subst hp
  exact ⟨_, .exec L O Lo (ok_after h) (onlyAsCfg_ok hn)⟩

private theorem s0 : Shr w0 0 0 0 := ⟨0, .genesis genesis⟩
private theorem s1 : Shr w1 0 0 0 := by
  unfold w1; exact s0.step (m := 0) o1_ok (oracle_local _ _ _) ok0 (by decide +kernel) (by decide +kernel)
private theorem s2 : Shr w2 0 0 0 := by
  unfold w2; exact s1.step (m := 0) o1_ok (oracle_local _ _ _) ok1 (by decide +kernel) (by decide +kernel)
private theorem s3 : Shr w3 0 0 0 := by
  unfold w3; exact s2.step (m := 0) o1_ok (oracle_local _ _ _) ok2 (by decide +kernel) (by decide +kernel)
private theorem s4 : Shr w4 0 0 0 := by
  unfold w4; exact s3.step (m := 0) o1_ok (oracle_local _ _ _) ok3 (by decide +kernel) (by decide +kernel)
private theorem s5 : Shr w5 0 0 0 := by
  unfold w5; exact s4.step (m := 0) o1_ok (oracle_local _ _ _) ok4 (by decide +kernel) (by decide +kernel)
private theorem s6 : Shr w6 0 0 0 := by
  unfold w6; exact s5.step (m := 0) o1_ok (oracle_local _ _ _) ok5 (by decide +kernel) (by decide +kernel)
private theorem s7 : Shr w7 0 0 0 := by
  unfold w7; exact s6.step (m := 0) o1_ok (oracle_local _ _ _) ok6 (by decide +kernel) (by decide +kernel)
private theorem s8 : Shr w8 10000 8000 0 := by
  obtain ⟨d, L⟩ := s7
  have h := ShareLedger.ext L (credit_ext (k := cfg) (n := 10000) (reachable_inv r7).wf (of_decide_eq_true lt7))
  have e : arrived cfg w7 (credit w7 cfg 10000) = 10000 ∧ effectiveIn w7 cfg val1 * 10 = effTotalOf w7 cfg * 8 ∧
      effTotalOf w7 cfg ≠ 0 := by decide +kernel
  rw [e.1] at h
  have e2 : (effectiveIn w7 cfg val1 : ℚ) / effTotalOf w7 cfg = 8 / 10 := by
    have h1 : (effTotalOf w7 cfg : ℚ) ≠ 0 := by exact_mod_cast e.2.2
    rw [div_eq_div_iff h1 (by norm_num)]
    have : ((effectiveIn w7 cfg val1 * 10 : Nat) : ℚ) = (effTotalOf w7 cfg * 8 : Nat) := by rw [e.2.1]
    push_cast at this; linarith
  rw [e2] at h
  unfold w8
  exact ⟨d, by convert h using 1; norm_num⟩
private theorem s9 : Shr w9 10000 8000 0 := by
  unfold w9; exact s8.step (m := 0) o1_ok (oracle_local _ _ _) ok8 (by decide +kernel) (by decide +kernel)
private theorem s10 : Shr w10 10000 8000 8000 := by
  unfold w10; exact s9.step (m := 8000) o1_ok (oracle_local _ _ _) ok9 (by decide +kernel) (by decide +kernel)
private theorem s11 : Shr w11 10000 8000 8000 := by
  unfold w11; exact s10.step (m := 0) o2_ok (oracle_local _ _ _) ok10 (by decide +kernel) (by decide +kernel)
private theorem s12 : Shr w12 10000 8000 8000 := by
  unfold w12; exact s11.step (m := 0) o2_ok (oracle_local _ _ _) ok11 (by decide +kernel) (by decide +kernel)
private theorem s13 : Shr w13 10000 8000 8000 := by
  unfold w13; exact s12.step (m := 0) o2_ok (oracle_local _ _ _) ok12 (by decide +kernel) (by decide +kernel)

/-- After 13 steps the first validator has been paid exactly its share. -/
example : (∃ dust, ShareLedger Witness.env cfg val1 w13 10000 8000 8000 dust) ∧ 10 ^ 18 * 10000 < 2 ^ 128 ∧
    stakeClaim w13 cfg val1 = 0 :=
  ⟨s13, by decide +kernel⟩

end Verif.Props
