import Verif.SpecLedger
import Verif.Lemmas.Marks
import Verif.Props.Accrual
import Verif.Props.Split
/-!
# All stake rewards ever received and paid: the invariant behind C93
-/

namespace Verif

open Props

variable {env : Env} {o : Oracle} {w w' w1 w2 : World} {ix : Ix}

theorem TotalIs.mono {f g : Key → Nat} {n m : Nat} (hf : TotalIs f n) (hg : TotalIs g m) (h : ∀ k, f k ≤ g k) : n ≤ m := by
  obtain ⟨x, hx, T⟩ := hg.below h
  rw [hf.unique T]; exact hx

/-- Scaled rewards on the config that are too few to move the accumulator. -/
def remainder (c : Config) (l : Nat) : Nat := if c.effTotal = 0 then 0 else (l - c.lamportsLast) * scale % c.effTotal

theorem remainder_le (c : Config) (l : Nat) : remainder c l ≤ c.effTotal := by
  unfold remainder; split_ifs with h
  · exact Nat.zero_le _
  · exact (Nat.mod_lt _ (Nat.pos_of_ne_zero h)).le

theorem remainder_self (c : Config) : remainder c c.lamportsLast = 0 := by
  unfold remainder; simp

/-- Arriving lamports are shared out up to the remainder. -/
theorem accNow_arrive {c : Config} {l x : Nat} (hl : c.lamportsLast ≤ l) :
    ∃ q, accNow c (l + x) = (accNow c l + q) % U128 ∧
      c.effTotal * q + remainder c (l + x) = remainder c l + (if 0 < c.effTotal then x else 0) * scale ∧
      q ≤ c.effTotal * q := by
  by_cases hE : c.effTotal = 0
  · refine ⟨0, ?_, by simp [remainder, hE], Nat.zero_le _⟩
    unfold accNow; simp [hE]
  · have hp := Nat.pos_of_ne_zero hE
    have hs : l + x - c.lamportsLast = (l - c.lamportsLast) + x := by omega
    refine ⟨(l + x - c.lamportsLast) * scale / c.effTotal - (l - c.lamportsLast) * scale / c.effTotal, ?_, ?_,
      Nat.le_mul_of_pos_left _ hp⟩
    · have hm : (l - c.lamportsLast) * scale / c.effTotal ≤ (l + x - c.lamportsLast) * scale / c.effTotal :=
        Nat.div_le_div_right (Nat.mul_le_mul_right _ (by omega))
      unfold accNow
      rw [Nat.mod_add_mod]
      congr 1; omega
    · unfold remainder
      rw [if_neg hE, if_neg hE, if_pos hp, Nat.mul_sub, hs, Nat.add_mul]
      have h1 := Nat.div_add_mod ((l - c.lamportsLast) * scale + x * scale) c.effTotal
      have h2 := Nat.div_add_mod ((l - c.lamportsLast) * scale) c.effTotal
      have h3 : c.effTotal * ((l - c.lamportsLast) * scale / c.effTotal) ≤
          c.effTotal * (((l - c.lamportsLast) * scale + x * scale) / c.effTotal) :=
        Nat.mul_le_mul_left _ (Nat.div_le_div_right (by omega))
      omega

theorem stakeClaim_some {ck k : Key} {c : Config} {d : Delegation} (hc : configAt w ck = some c) (hd : stakeAt w k = some d)
    (hb : belongs k ck) : stakeClaim w ck k = growth d.lastStake (accNow c (w ck).lamports) * d.effective := by
  unfold stakeClaim; rw [hc, hd]; simp only [if_pos hb]; rfl

theorem stakeClaim_none {ck k : Key} (hd : stakeAt w k = none) : stakeClaim w ck k = 0 := by
  unfold stakeClaim; rw [hd]; cases configAt w ck <;> rfl

theorem stakeClaim_other {ck k : Key} (hb : ¬ belongs k ck) : stakeClaim w ck k = 0 := by
  unfold stakeClaim; split
  · exact if_neg hb
  · rfl

theorem stakeClaim_no_config {ck : Key} (hc : configAt w ck = none) (k : Key) : stakeClaim w ck k = 0 := by
  unfold stakeClaim; rw [hc]

theorem stake_has_config (I : Inv env w) {ck k : Key} (hc : configAt w ck = none) (hb : belongs k ck) : stakeAt w k = none := by
  cases hd : stakeAt w k with
  | none => rfl
  | some d =>
    obtain ⟨c, hb', h⟩ := I.stake_key hd
    rw [belongs_unique hb hb'] at hc
    rw [hc] at h; simp at h

/-- What one step does to a stake account of the config. -/
def StepsTo (acc hacc : Nat) (w w' : World) (k : Key) : Prop :=
  (∀ d', stakeAt w k = none → stakeAt w' k = some d' → d'.effective = 0 ∧ d'.lastStake = 0) ∧
    ∀ d, stakeAt w k = some d → ∃ d' p, stakeAt w' k = some d' ∧ Treated acc hacc d d' p

theorem StepsTo.same {acc hacc : Nat} {k : Key} (h : stakeAt w' k = stakeAt w k) : StepsTo acc hacc w w' k := by
  refine ⟨fun d' e e' => ?_, fun d e => ⟨d, 0, by rw [h]; exact e, .refl⟩⟩
  rw [h, e] at e'; simp at e'

/-- An instruction on another config. -/
theorem exec_apart (I : Inv env w) (O : o.Ok) (L : o.Local) (h : exec env o w ix = .ok w') {ck : Key}
    (hn : ix.OnlyAsConfig ck) (hck : ix.config ≠ some ck) :
    w' ck = w ck ∧ ∀ k, belongs k ck → stakeAt w' k = stakeAt w k := by
  have hno : ∀ p, ix.acct p ≠ some ck := fun p hp => by
    have := hn p hp; subst this
    refine hck ?_
    unfold Ix.config; unfold Ix.configPos at hp; split <;> simp_all
  have e : w' ck = w ck := by
    obtain ⟨i, hi⟩ : ∃ i, ix.decoded = some i := by
      cases exec_ran h <;> exact ⟨_, by assumption⟩
    exact exec_same I.wf L h hi fun p _ => hno p
  obtain ⟨ck', h1, _, h3⟩ := (exec_effect I O h).elsewhere I
  have hne : ck ≠ ck' := by rintro rfl; exact hck h1
  refine ⟨e, fun k hb => ?_⟩
  refine stakeAt_congr (h3 k ?_ fun hb' => hne (belongs_unique hb hb'))
  rintro rfl
  have := hb.ofProgram
  rw [‹k.ofProgram = false›] at this; simp at this

/-- What an instruction does to a config and its stake accounts. -/
theorem exec_reckon (I : Inv env w) (O : o.Ok) (L : o.Local) (h : exec env o w ix = .ok w') {ck : Key} {c : Config}
    (hc : configAt w ck = some c) (hn : ix.OnlyAsConfig ck) :
    ∃ c', configAt w' ck = some c' ∧ accNow c' (w' ck).lamports = accNow c (w ck).lamports ∧
      (remainder c' (w' ck).lamports = remainder c (w ck).lamports ∨
        (ix.config = some ck ∧ remainder c' (w' ck).lamports = 0)) ∧
      ∀ k, belongs k ck → StepsTo (accNow c (w ck).lamports) (holderAcc env ck w) w w' k := by
  by_cases hck : ix.config = some ck
  · have honce : ∀ p q, ix.acct p = some ck → ix.acct q = some ck → p = q := fun p q hp hq => (hn p hp).trans (hn q hq).symm
    have hsteps : ∀ k, belongs k ck → StepsTo (accNow c (w ck).lamports) (holderAcc env ck w) w w' k := by
      rcases exec_pays I O L h hc hck honce with ⟨P, n, M, _⟩ | ⟨_, e⟩ | ⟨sk, ds, hb, h0, h1, he, hl, _, e⟩
      · intro k hb
        refine ⟨fun d' e e' => ?_, fun d e => ?_⟩
        · rw [(M.none k hb e).1] at e'; simp at e'
        · obtain ⟨d', e', T⟩ := M.some k hb d e
          exact ⟨d', P k, e', T⟩
      · exact fun k hb => .same (e k hb)
      · intro k _
        by_cases hk : k = sk
        · subst hk
          refine ⟨fun d' _ e' => ?_, fun d e => ?_⟩
          · rw [h1] at e'; cases e'; exact ⟨he, hl⟩
          · rw [h0] at e; simp at e
        · exact .same (e k hk)
    rcases exec_still I O L h hc hck honce with S | ⟨S, hO⟩
    · obtain ⟨c', h', h1, h2, h3, h4⟩ := S
      refine ⟨c', h', by unfold accNow; rw [h1, h2, h3, h4], .inl ?_, hsteps⟩
      unfold remainder; rw [h2, h3, h4]
    · obtain ⟨c', hd', e1, e2⟩ := id S
      refine ⟨c', configAt_eq.2 ⟨hO, hd'⟩, (S.accNow (exec_inv I O h).wf hd').1, .inr ⟨hck, ?_⟩, hsteps⟩
      rw [← e2]; exact remainder_self c'
  · obtain ⟨e, es⟩ := exec_apart I O L h hn hck
    exact ⟨c, by rw [configAt_eq] at hc ⊢; rw [e]; exact hc, by rw [e], .inl (by rw [e]), fun k hb => .same (es k hb)⟩

/-- Claims against payments, account by account. -/
theorem claim_step {ck : Key} {c c' : Config} {acc hacc : Nat} (hc : configAt w ck = some c) (hc' : configAt w' ck = some c')
    (ha : accNow c (w ck).lamports = acc) (ha' : accNow c' (w' ck).lamports = acc)
    (hs : ∀ k, belongs k ck → StepsTo acc hacc w w' k) (k : Key) :
    scale * stakePaid w w' ck k + stakeClaim w' ck k ≤ stakeClaim w ck k ∧
      stakeClaim w ck k ≤ scale * stakePaid w w' ck k + stakeClaim w' ck k + scale * (if settledIn w w' ck k then 1 else 0) := by
  by_cases hb : belongs k ck
  · cases hd : stakeAt w k with
    | none =>
      have h0 : settledIn w w' ck k = false := by unfold settledIn; rw [hd]
      have h2 : stakeClaim w' ck k = 0 := by
        cases hd' : stakeAt w' k with
        | none => exact stakeClaim_none hd'
        | some d' => rw [stakeClaim_some hc' hd' hb, ((hs k hb).1 d' hd hd').1, Nat.mul_zero]
      unfold stakePaid
      rw [h0, stakeClaim_none hd, h2]; simp
    | some d =>
      obtain ⟨d', p, hd', T⟩ := (hs k hb).2 d hd
      have hset : settledIn w w' ck k = decide (belongs k ck ∧ (d'.lastStake ≠ d.lastStake ∨ d'.lastHolder ≠ d.lastHolder)) := by
        unfold settledIn; rw [hd, hd']
      have e1 := stakeClaim_some hc hd hb
      have e2 := stakeClaim_some hc' hd' hb
      rw [ha] at e1; rw [ha'] at e2
      unfold stakePaid
      cases T with
      | kept b1 b2 b3 b4 b5 =>
        have h0 : settledIn w w' ck k = false := by rw [hset]; simp [b1, b2]
        rw [h0, e1, e2, b1, b3]; simp
      | settled b1 b2 b3 =>
        rw [e2, b1, growth_self, Nat.zero_mul]
        by_cases h0 : settledIn w w' ck k = true
        · rw [h0]
          have := Nat.div_add_mod (stakeClaim w ck k) scale
          have := Nat.mod_lt (stakeClaim w ck k) (show 0 < scale by decide)
          have hsc : (1000000000000000000 : Nat) = scale := rfl
          rw [hsc]
          simp only [if_true]
          omega
        · have h1 : d'.lastStake = d.lastStake := by
            rw [hset] at h0; simp only [decide_eq_true_eq, not_and, not_or, not_not] at h0; exact (h0 hb).1
          rw [if_neg h0, if_neg h0, e1, ← h1, b1, growth_self]; simp
  · have h0 : settledIn w w' ck k = false := by
      unfold settledIn; split
      · simp [hb]
      · rfl
    unfold stakePaid
    rw [h0, stakeClaim_other hb, stakeClaim_other hb]; simp

/-- Claims when lamports arrive. -/
theorem claim_arrive (I : Inv env w) {ck : Key} {c c' : Config} {q : Nat} (hc : configAt w ck = some c)
    (hc' : configAt w' ck = some c') (hs : ∀ k, stakeAt w' k = stakeAt w k)
    (ha : accNow c' (w' ck).lamports = (accNow c (w ck).lamports + q) % U128) (k : Key) :
    stakeClaim w' ck k ≤ stakeClaim w ck k + q * effectiveIn w ck k ∧
      (accNow c (w ck).lamports + q < U128 → (∀ d, belongs k ck → stakeAt w k = some d → d.lastStake ≤ accNow c (w ck).lamports) →
        stakeClaim w' ck k = stakeClaim w ck k + q * effectiveIn w ck k) := by
  by_cases hb : belongs k ck
  · cases hd : stakeAt w k with
    | none =>
      have hd' : stakeAt w' k = none := by rw [hs]; exact hd
      rw [stakeClaim_none hd, stakeClaim_none hd']
      have : effectiveIn w ck k = 0 := by unfold effectiveIn; rw [hd]; simp
      rw [this]; simp
    | some d =>
      have hd' : stakeAt w' k = some d := by rw [hs]; exact hd
      rw [stakeClaim_some hc hd hb, stakeClaim_some hc' hd' hb, effectiveIn_some hb (stakeAt_eq.1 hd).1 (stakeAt_eq.1 hd).2, ha, ← Nat.add_mul]
      have hA := accNow_lt c (w ck).lamports
      have hm := (I.markers hd).1
      refine ⟨Nat.mul_le_mul_right _ ((growth_triangle hm hA _).trans (Nat.add_le_add_left (growth_add hA q) _)), fun hlt hle => ?_⟩
      have := hle d hb rfl
      congr 1
      unfold growth
      rw [Nat.mod_eq_of_lt hlt]
      unfold U128 at *
      omega
  · rw [stakeClaim_other hb, stakeClaim_other hb]
    have : effectiveIn w ck k = 0 := by unfold effectiveIn; rw [if_neg hb]
    rw [this]; simp

/-- Only the instruction that creates a config runs on an address that has none. -/
theorem Effect.creates (E : Effect env o ix w w') {ck : Key} (hc : configAt w ck = none) (hck : ix.config = some ck) :
    (∃ s c t b y h, ix.decoded = some (.initializeConfig s c t b y h)) ∧ ∃ c, st w' = stUpd (st w) ck (.config c) := by
  have no : ∀ {k : Key} {c : Config}, configAt w k = some c → ix.config = some k → False := fun h e => by
    rw [hck] at e; cases e; rw [hc] at h; simp at h
  have qn : ∀ {k : Key} {T : Key → Prop}, Quiet T k w w' → ix.config = some k → False := fun Q e => by
    obtain ⟨_, _, h, _⟩ := Q.config; exact no h e
  cases E with
  | initializeConfig ck' c h h0 _ _ e =>
    obtain ⟨a1, a2, a3, a4, a5, a6, h⟩ := h
    have : ck' = ck := by
      have : ix.config = some ck' := by simp [Ix.config, h, h0]
      rw [hck] at this; cases this; rfl
    subst this
    exact ⟨⟨a1, a2, a3, a4, a5, a6, h⟩, c, e⟩
  | initializeValidatorStake ck' vote wd c h h0 hc' => exact (no hc' (by simp [Ix.config, h, h0])).elim
  | initializeSolStakerStake ck' native c v vs h h0 hc' => exact (no hc' (by simp [Ix.config, h, h0])).elim
  | setAuthority ck' new c c' t h h0 hc' => exact (no hc' (by simp [Ix.config, h, h0])).elim
  | updateConfig ck' c f h h0 hc' => exact (no hc' (by simp [Ix.config, h, h0])).elim
  | validatorSyncAuthority ck' vote wd v h h0 hc' =>
    obtain ⟨c, hc'⟩ := Option.isSome_iff_exists.1 hc'
    exact (no hc' (by simp [Ix.config, h, h0])).elim
  | settle ck' _ h0 Q => exact (qn Q h0).elim
  | stake ck' sk n d d' h h0 _ Q => rcases h with h | h <;> exact (qn Q.quiet (by simp [Ix.config, h, h0])).elim
  | slash ck' sk n d d' h h0 _ Q => rcases h with h | h <;> exact (qn Q.one.quiet (by simp [Ix.config, h, h0])).elim
  | unstake ck' sk n c d d' h h0 _ Q => exact (qn Q.one.quiet (by simp [Ix.config, h, h0])).elim
  | move ck' sk tk n ds dt ds' dt' h h0 _ _ Q => exact (qn Q.quiet (by simp [Ix.config, h, h0])).elim

/-- A config that is created starts empty. -/
theorem exec_creates (I : Inv env w) (O : o.Ok) (h : exec env o w ix = .ok w') {ck : Key} (hc : configAt w ck = none) :
    (∀ k, belongs k ck → stakeAt w' k = none) ∧ ∀ c', configAt w' ck = some c' → c'.effTotal = 0 ∧ c'.acc = 0 := by
  have E := exec_effect I O h
  obtain ⟨ck', h1, hp, h3⟩ := E.elsewhere I
  by_cases hck : ck = ck'
  · subst hck
    obtain ⟨⟨s, c, t, b, y, hh, hi⟩, c1, e⟩ := E.creates hc h1
    refine ⟨fun k hb => ?_, fun c' hc' => ?_⟩
    · have hk : k ≠ ck := by rintro rfl; rw [hb.ofProgram] at hp; simp at hp
      rw [stakeAt_st, e]; simp only [stUpd, if_neg hk]
      rw [← stakeAt_st]; exact stake_has_config I hc hb
    · obtain ⟨a, rest, hl, hr⟩ := ran_initializeConfig h hi
      have ha : a.config = ck := by simpa [Ix.config, hi, Ix.acct, hl, InitializeConfigAccts.list] using h1
      subst ha
      obtain ⟨w1, bb, t', hpda, hempty, hw1, _, _, _, _, _, _, hO, hb, _, _, _, _, hw'⟩ := initializeConfig_ok hr
      have := (configAt_eq.1 hc').2
      rw [hw', World.setD_data, if_pos rfl] at this
      simp only [Data.config.injEq] at this
      rw [← this]; exact ⟨rfl, rfl⟩
  · refine ⟨fun k hb => ?_, fun c' hc' => ?_⟩
    · have hk : k ≠ ck' := by rintro rfl; rw [hb.ofProgram] at hp; simp at hp
      rw [stakeAt_congr (h3 k hk fun hb' => hck (belongs_unique hb hb'))]
      exact stake_has_config I hc hb
    · have hb : ¬ belongs ck ck' := fun hb => by
        have := (exec_inv I O h).config_key hc'
        rw [hb.ofProgram] at this; simp at this
      rw [configAt_congr (h3 ck hck hb), hc] at hc'; simp at hc'

theorem settledIn_other {ck k : Key} (hb : ¬ belongs k ck) : settledIn w w' ck k = false := by
  unfold settledIn; split
  · simp [hb]
  · rfl

theorem settledIn_same {ck k : Key} (h : stakeAt w k ≠ none → stakeAt w' k = stakeAt w k) : settledIn w w' ck k = false := by
  cases hd : stakeAt w k with
  | none => unfold settledIn; rw [hd]
  | some d =>
    have := h (by rw [hd]; simp)
    unfold settledIn; rw [this, hd]; simp

/-- The payments of an instruction are what the accounts it settles had accrued. -/
theorem marked_paidFor {ck : Key} {c : Config} (hc : configAt w ck = some c) {P : Key → Nat} {n : Nat}
    (M : Marked ck (accNow c (w ck).lamports) (holderAcc env ck w) w w' P n) (k : Key) : paidFor env w w' ck k = P k := by
  by_cases hb : belongs k ck
  · cases hd : stakeAt w k with
    | none =>
      have h0 : settledIn w w' ck k = false := by unfold settledIn; rw [hd]
      unfold paidFor; rw [h0, (M.none k hb hd).2]; rfl
    | some d =>
      obtain ⟨d', hd', T⟩ := M.some k hb d hd
      have hset : settledIn w w' ck k = decide (belongs k ck ∧ (d'.lastStake ≠ d.lastStake ∨ d'.lastHolder ≠ d.lastHolder)) := by
        unfold settledIn; rw [hd, hd']
      unfold paidFor
      rw [accrued_eq hc hd hb]
      cases T with
      | kept b1 b2 b3 b4 b5 =>
        have h0 : settledIn w w' ck k = false := by rw [hset]; simp [b1, b2]
        rw [h0, b5]; rfl
      | settled b1 b2 b3 =>
        rw [b3]
        by_cases h0 : settledIn w w' ck k = true
        · rw [if_pos h0]
        · rw [hset] at h0; simp only [decide_eq_true_eq, not_and, not_or, not_not] at h0
          obtain ⟨m1, m2⟩ := h0 hb
          rw [due_marked _ _ (m1.symm.trans b1) (m2.symm.trans b2), ite_self]
  · unfold paidFor; rw [settledIn_other hb, M.other k hb]; rfl

end Verif
