import Verif.Props.Exactly
import Verif.Props.Effects
import Verif.Props.Rewards
import Verif.Props.History
import Verif.Props.State
/-!
# C132: sending an instruction a second time

Whoever does not know whether a transaction went through sends it again.
-/

namespace Verif.Props

open Verif Verif.Witness

variable {env : Env} {o o' : Oracle} {w w' : World} {ix : Ix}

private theorem turns_nothing {gain : Key → Int} {new : List (Key × Data)} (T : Turns w w' gain new) (hg : ∀ k, gain k = 0)
    (hn : ∀ p ∈ new, (w p.1).data = p.2) : w' = w := by
  funext k
  have h1 := T.owner k
  have h2 := T.lamports k
  have h3 : (w' k).data = (w k).data := by
    by_cases h : ∃ p ∈ new, k = p.1
    · obtain ⟨p, hp, rfl⟩ := h
      rw [T.data p hp, hn p hp]
    · exact T.rest k (fun p hp e => h ⟨p, hp, e⟩)
  rw [hg] at h2
  have h4 : (w' k).lamports = (w k).lamports := by omega
  cases e1 : w' k
  cases e2 : w k
  rw [e1, e2] at h1 h3 h4
  simp only at h1 h3 h4
  rw [h1, h3, h4]

private theorem pays_zero (a b k : Key) : pays a b 0 k = 0 := by simp [pays]

/-- **C132.** An UpdateConfig that went through goes through again and changes nothing. -/
theorem C132_update_config (h : exec env o w ix = .ok w') {f : ConfigField} (hi : ix.decoded = some (.updateConfig f))
    {ck auth : Key} {rest : List Key} (hl : ix.ctx.accts = ck :: auth :: rest) (hw : ix.ctx.writable ck = true) :
    exec env o' w' ix = .ok w' := by
  obtain ⟨c, hc, T⟩ := C105_update_config h hi hl
  obtain ⟨h1, h2, h3, c', hc', h4⟩ := (C102_update_config (o := o) hi hl hw).1 ⟨_, h⟩
  rw [hc] at hc'; cases hc'
  obtain ⟨hO, _⟩ := configAt_eq.1 hc
  have hO' : (w' ck).owner = progId := by rw [T.owner]; exact hO
  obtain ⟨w2, g⟩ := (C102_update_config (env := env) (o := o') (w := w') hi hl hw).2
    ⟨h1, h2, h3, _, configAt_eq.2 ⟨hO', T.fst⟩, by rw [h4]; cases f <;> rfl⟩
  obtain ⟨c2, hc2, T2⟩ := C105_update_config g hi hl
  rw [configAt_eq.2 ⟨hO', T.fst⟩] at hc2
  cases hc2
  rw [g, turns_nothing T2 (fun _ => rfl) (fun p hp => by
    rw [List.mem_singleton] at hp
    rw [hp, T.fst]
    cases f <;> rfl)]

/-- **C132.** So does a ValidatorSyncAuthority. -/
theorem C132_sync_authority (R : Reachable env w) (O : o.Ok) (h : exec env o w ix = .ok w')
    (hi : ix.decoded = some .validatorSyncAuthority) {ck sk vote : Key} {rest : List Key}
    (hl : ix.ctx.accts = ck :: sk :: vote :: rest) (hw : ix.ctx.writable sk = true) : exec env o' w' ix = .ok w' := by
  have R' : Reachable env w' := .exec R O h
  obtain ⟨v, wd, hv, hk, hd, ho, T⟩ := C105_sync_authority R h hi hl
  obtain ⟨h1, _, _, _, _⟩ := (C102_sync_authority (o := o) R hi hl hw).1 ⟨_, h⟩
  obtain ⟨hO, hvd⟩ := validatorAt_eq.1 hv
  have hO' : (w' sk).owner = progId := by rw [T.owner]; exact hO
  have hne : vote ≠ sk := by
    rintro rfl
    rw [hd] at hvd; cases hvd
  have hd' : (w' vote).data = .vote wd := by
    rw [T.rest vote (fun p hp => by rw [List.mem_singleton] at hp; rw [hp]; exact hne)]; exact hd
  obtain ⟨c, hc⟩ := Option.isSome_iff_exists.1 h1
  obtain ⟨c', hc'⟩ := C25_config_permanent R (.tail .refl (.exec O h)) hc
  obtain ⟨w2, g⟩ := (C102_sync_authority (env := env) (o := o') R' hi hl hw).2
    ⟨by rw [hc']; rfl, hk, by rw [validatorAt_eq.2 ⟨hO', T.fst⟩]; rfl, by rw [T.owner]; exact ho, wd, hd'⟩
  obtain ⟨v2, wd2, hv2, _, hd2, _, T2⟩ := C105_sync_authority R' g hi hl
  rw [validatorAt_eq.2 ⟨hO', T.fst⟩] at hv2
  cases hv2
  rw [hd'] at hd2
  cases hd2
  rw [g, turns_nothing T2 (fun _ => rfl) (fun p hp => by
    rw [List.mem_singleton] at hp
    rw [hp, T.fst])]

private theorem payable_again (R : Reachable env w) {ck sk : Key} {c : Config} {d : Delegation} (hc : configAt w ck = some c)
    (hd : stakeAt w sk = some d) (hb : belongs sk ck) (hr : (holderAt w (vaultRecord env ck)).isSome = true)
    (h1 : c.lamportsLast = (w ck).lamports) (h2 : d.lastStake = c.acc) (h3 : d.lastHolder = holderAcc env ck w)
    (h4 : d.authority ≠ ck) : Payable env w ck sk c d ∧ accrued env w ck sk = 0 ∧ currentAcc c (w ck).lamports = c.acc := by
  have W := (reachable_inv R).wf
  obtain ⟨hO, hcd⟩ := configAt_eq.1 hc
  have hz := accrued_settled_zero W hc hd h1 h2 h3
  have hacc : currentAcc c (w ck).lamports = c.acc := by
    rw [currentAcc_eq]
    exact (Settled.accNow (w := w) ⟨c, hcd, rfl, h1⟩ W hcd).1
  refine ⟨⟨hc, hd, hb, hr, ?_, ?_, ?_, h4, ?_⟩, hz, hacc⟩
  · rw [hacc, h2, growth_self]; simp
  · rw [h3, growth_self]; simp
  · rw [hz, Nat.zero_add]; exact C28_config_rent_exempt R hc
  · rw [hz, Nat.add_zero]; exact (W.1 _).1

/-- **C132.** A HarvestValidatorRewards that went through goes through again and changes nothing, unless the payee is the config. -/
theorem C132_harvest_validator (R : Reachable env w) (O : o.Ok) (h : exec env o w ix = .ok w')
    (hi : ix.decoded = some .harvestValidatorRewards) {ck hk sk auth : Key} {rest : List Key}
    (hl : ix.ctx.accts = ck :: hk :: sk :: auth :: rest) (hne : auth ≠ ck) (hw : ix.Writes [ck, sk, auth]) :
    exec env o' w' ix = .ok w' := by
  have R' : Reachable env w' := .exec R O h
  obtain ⟨e1, c0, v0, hv0, e2, P⟩ := (C102_harvest_validator (o := o) R hi hl hne hw).1 ⟨_, h⟩
  obtain ⟨c, v, hc, hv, hb, _, hv', hc'⟩ := C19_validator_harvest R h hi (ck := ck) (sk := sk) (by simp [Ix.acct, hl]) (by simp [Ix.acct, hl])
  rw [hv] at hv0; cases hv0
  have hrec := exec_record_same (reachable_inv R) h (fun i e => by rw [hi] at e; cases e; simp [CallsRewards]) (vaultRecord env ck)
  have hq : holderAcc env ck w' = holderAcc env ck w := by unfold holderAcc; rw [hrec]
  obtain ⟨P', hz, hacc⟩ := payable_again R' hc' (stakeAt_validator hv') hb (by rw [hrec]; exact P.record) rfl rfl (by rw [hq]) (by
    rw [← e2]; exact hne)
  obtain ⟨w2, g⟩ := (C102_harvest_validator (o := o') R' hi hl hne hw).2 ⟨e1, _, _, hv', e2, P'⟩
  obtain ⟨c2, v2, hc2, hv2, _, T⟩ := C105_harvest_validator g hi hl
  rw [hc'] at hc2; cases hc2
  rw [hv'] at hv2; cases hv2
  rw [hz, hacc, hq] at T
  rw [g, turns_nothing T (fun k => pays_zero _ _ k) (fun p hp => by
    rw [List.mem_cons, List.mem_singleton] at hp
    rcases hp with rfl | rfl
    · dsimp only
      rw [(configAt_eq.1 hc').2]
      unfold Config.paid
      rw [hacc]; rfl
    · exact (validatorAt_eq.1 hv').2)]

/-- **C132.** So does a ValidatorOverrideStakedLamports. -/
theorem C132_override (R : Reachable env w) (O : o.Ok) (h : exec env o w ix = .ok w') {n : Nat}
    (hi : ix.decoded = some (.validatorOverrideStakedLamports n)) {ck cauth sk auth hk : Key} {rest : List Key}
    (hl : ix.ctx.accts = ck :: cauth :: sk :: auth :: hk :: rest) (hne : auth ≠ ck) (hw : ix.Writes [ck, sk, auth]) :
    exec env o' w' ix = .ok w' := by
  have R' : Reachable env w' := .exec R O h
  obtain ⟨e1, e2, e3, c0, v0, hv0, e4, e5, P, F⟩ := (C102_override (o := o) R hi hl hne hw).1 ⟨_, h⟩
  obtain ⟨c, v, hc, hv, _, _, T⟩ := C105_override h hi hl
  rw [hv] at hv0; cases hv0
  have := P.config
  rw [hc] at this; cases this
  have hO' : (w' ck).owner = progId := by rw [T.owner]; exact (configAt_eq.1 hc).1
  have hsO' : (w' sk).owner = progId := by rw [T.owner]; exact (validatorAt_eq.1 hv).1
  have hc' := configAt_eq.2 ⟨hO', T.fst⟩
  have hv' := validatorAt_eq.2 ⟨hsO', T.snd⟩
  have hrec := exec_record_same (reachable_inv R) h (fun i e => by rw [hi] at e; cases e; simp [CallsRewards]) (vaultRecord env ck)
  have hq : holderAcc env ck w' = holderAcc env ck w := by unfold holderAcc; rw [hrec]
  have hlam : (w ck).lamports - accrued env w ck sk = (w' ck).lamports := by
    have := T.lamports ck
    have hf := P.funds
    rw [pays, if_neg (Ne.symm hne), if_pos rfl] at this
    omega
  obtain ⟨P', hz, hacc⟩ := payable_again R' hc' (stakeAt_validator hv') P.belongs (by rw [hrec]; exact P.record) hlam rfl (by
    rw [hq]; rfl) (by rw [e5] at hne; exact hne)
  have heff : c0.effTotal - v0.del.effective + min v0.del.staked (cap (max v0.total n)) - min v0.del.staked (cap (max v0.total n)) +
      min v0.del.staked (cap (max v0.total n)) = c0.effTotal - v0.del.effective + min v0.del.staked (cap (max v0.total n)) := by omega
  obtain ⟨w2, g⟩ := (C102_override (o := o') R' hi hl hne hw).2 (by
    refine ⟨e1, e2, e3, _, _, hv', ?_, e5, P', F.1, ?_⟩
    · exact e4
    · dsimp only [Delegation.holding, Delegation.seen]; rw [heff]; exact F.2)
  obtain ⟨c2, v2, hc2, hv2, _, _, T2⟩ := C105_override g hi hl
  rw [hc'] at hc2; cases hc2
  rw [hv'] at hv2; cases hv2
  rw [hz, hacc, hq] at T2
  rw [g, turns_nothing T2 (fun k => pays_zero _ _ k) (fun p hp => by
    rw [List.mem_cons, List.mem_singleton] at hp
    rcases hp with rfl | rfl
    · dsimp only
      rw [T.fst]
      unfold Config.paid at hacc ⊢
      dsimp only [Delegation.holding, Delegation.seen] at hacc ⊢
      rw [hacc, heff, Nat.sub_zero, hlam]
    · dsimp only
      rw [T.snd]; rfl)]

/-- **C132.** A HarvestSolStakerRewards that went through goes through again and changes nothing, as long as the view program still reports
the same native stake, and that stake is with a validator of the config or with nobody. (Payees are not the config.) -/
theorem C132_harvest_sol_staker (R : Reachable env w) (O : o.Ok) (h : exec env o w ix = .ok w')
    (hi : ix.decoded = some .harvestSolStakerRewards) {vp ck hk sk auth native pk pa qk qa hist kp : Key} {v : StakeView}
    {rest : List Key} (hl : ix.ctx.accts = vp :: ck :: hk :: sk :: auth :: native :: pk :: pa :: qk :: qa :: hist :: kp :: rest)
    (hview : o.view native = .ok v) (hview' : o'.view native = .ok v)
    (hreg : (validatorAt w' (.validatorPda v.delegatedVote ck)).isSome = true ∨ (v.effective = 0 ∧ v.delegatedVote = .default))
    (hne : ∀ k ∈ [auth, pa, qa, kp], k ≠ ck) (hw : ix.Writes [ck, sk, auth]) :
    exec env o' w' ix = .ok w' := by
  have I := reachable_inv R
  have R' : Reachable env w' := .exec R O h
  obtain ⟨c, s, _, _, _, _, hc, hs, hsk', _, _, _, _, _, ⟨c', hc', a1, a2⟩, ⟨s', hs', m1, m2⟩⟩ :=
    C19_sol_staker_harvest R h hi (ck := ck) (sk := sk) (by simp [Ix.acct, hl]) (by simp [Ix.acct, hl]) (by
      simp only [Ix.acct, hl]
      simp only [List.mem_cons, List.not_mem_nil, or_false, forall_eq_or_imp, forall_eq] at hne ⊢
      simpa using hne)
  have hau : auth ≠ ck := hne auth (by simp)
  have hrec := exec_record_same I h (fun i e => by rw [hi] at e; cases e; simp [CallsRewards]) (vaultRecord env ck)
  have hq : holderAcc env ck w' = holderAcc env ck w := by unfold holderAcc; rw [hrec]
  -- what the first one checked and recorded
  have facts : vp = viewId ∧ hk = vaultRecord env ck ∧ auth = s.del.authority ∧ native = s.solStake ∧ native ≠ ck ∧ hist ≠ ck ∧
      hist ≠ sk ∧ (holderAt w (vaultRecord env ck)).isSome = true ∧ s'.solStake = s.solStake ∧ s'.del.authority = s.del.authority ∧
      (v.effective = s'.lamports ∧ v.delegatedVote = s'.del.vote) := by
    obtain ⟨⟨a0, a1, a2, a3, a4, a5, a6, a7, a8, a9, a10, a11⟩, kk, r, hl', _, h⟩ := ran_harvestSolStakerRewards h hi
    rw [hl] at hl'
    simp only [HarvestSolStakerRewardsAccts.list, List.cons_append, List.nil_append, List.cons.injEq] at hl'
    obtain ⟨rfl, rfl, rfl, rfl, rfl, rfl, rfl, rfl, rfl, rfl, rfl, rfl, _⟩ := hl'
    obtain ⟨sx, vx, cx, hr, rs, rh, wx, B, H⟩ := harvestSolStakerRewards_ok I.wf h
    obtain ⟨s1, q1, q2, q4, _, _, _, _, q3⟩ := solHarvest_record B H
    dsimp only at q1 q2 q3
    rw [hs'] at q1; cases q1
    have e0 := solStakerAt_eq.2 ⟨B.sO, B.data⟩
    dsimp only at e0
    rw [hs] at e0; cases e0
    have e4 := B.view
    dsimp only at e4
    rw [hview] at e4; cases e4
    simp only [harvestSolStakerRewards, bind_ok, require_ok, exists_unit, unpackConfig_ok, unpackSolStaker_ok] at h
    obtain ⟨hcO, _, _, hsO, _, s2, hs2, hsk, h1, h2, h3, h4, h5, v', hv', _, w1, hw1, _⟩ := h
    rw [(solStakerAt_eq.1 hs).2] at hs2; cases hs2
    obtain ⟨c0, d0, hr0, rs0, rh0, H0⟩ := harvest_ok hw1
    have h6 := (callOut_ok.1 h5).1
    have hh := H0.holder
    rw [H0.hk_eq] at hh
    refine ⟨h4, h3, h1, h2, fun e => h6 native (by simp) (by simp [e]), fun e => h6 hist (by simp) (by simp [e]),
      fun e => h6 hist (by simp) (by simp [e]), ?_, q2, q4, ?_⟩
    · have : holderAt w (vaultRecord env ck) = some hr0 := holderAt_data.2 hh
      rw [this]; rfl
    · rcases q3 with q3 | ⟨z1, z2, z3⟩
      · exact ⟨q3.1.symm, q3.2.symm⟩
      · rcases hreg with hreg | hreg
        · rw [z3] at hreg; simp at hreg
        · rw [z1, z2]; exact hreg
  obtain ⟨f1, f2, f3, f4, f5, f6, f7, f8, f9, f10, f11⟩ := facts
  have hb : belongs sk ck := by rw [hsk']; simp [belongs]
  obtain ⟨P', hz, hacc⟩ := payable_again R' hc' (stakeAt_solStaker hs') hb (by rw [hrec]; exact f8) a2 (by rw [m1, a1]) (by rw [m2, hq])
    (by rw [f10, ← f3]; exact hau)
  obtain ⟨w2, g⟩ := (C102_harvest_sol_staker (o := o') R' hi hl hs' hview' f11 hau hw).2
    ⟨f1, f2, by rw [f10]; exact f3, by rw [f9]; exact f4, f5, f6, f7, c', P'⟩
  obtain ⟨c2, s2, hc2, hs2, _, _, T⟩ := C105_harvest_sol_unchanged R' g hi hl hview'
  rw [hc'] at hc2; cases hc2
  rw [hs'] at hs2; cases hs2
  have T := T f11
  rw [hz, hacc, hq] at T
  rw [g, turns_nothing T (fun k => pays_zero _ _ k) (fun p hp => by
    rw [List.mem_cons, List.mem_singleton] at hp
    rcases hp with rfl | rfl
    · dsimp only
      rw [(configAt_eq.1 hc').2]
      unfold Config.paid
      rw [hacc, Nat.sub_zero, ← a2]
    · dsimp only
      rw [(solStakerAt_eq.1 hs').2]
      unfold Delegation.seen
      rw [a1, ← m1, ← m2])]

/-- **C132.** A SetAuthority that went through goes through again only if it set the authority to the one that was set already. -/
theorem C132_set_authority (h : exec env o w ix = .ok w') {t : AuthorityType} (hi : ix.decoded = some (.setAuthority t))
    {ck auth new : Key} {rest : List Key} (hl : ix.ctx.accts = ck :: auth :: new :: rest) (hw : ix.ctx.writable ck = true) :
    (∃ w2, exec env o' w' ix = .ok w2) ↔ new = auth := by
  obtain ⟨c, hc, T⟩ := C105_set_authority h hi hl
  obtain ⟨h1, h2, c', hc', h4⟩ := (C102_set_authority (o := o) hi hl hw).1 ⟨_, h⟩
  rw [hc] at hc'; cases hc'
  have hO' : (w' ck).owner = progId := by rw [T.owner]; exact (configAt_eq.1 hc).1
  have hc' := configAt_eq.2 ⟨hO', T.fst⟩
  rw [C102_set_authority hi hl hw]
  constructor
  · rintro ⟨_, _, c2, hc2, h⟩
    rw [hc'] at hc2; cases hc2
    rw [h]; cases t <;> rfl
  · rintro rfl
    exact ⟨h1, h2, _, hc', by cases t <;> rfl⟩

/-- **C132.** An initialisation that went through never goes through again. -/
theorem C132_initialize (R : Reachable env w) (O : o.Ok) (h : exec env o w ix = .ok w')
    (hi : (∃ s c t b y d, ix.decoded = some (.initializeConfig s c t b y d)) ∨ ix.decoded = some .initializeValidatorStake ∨
      ix.decoded = some .initializeSolStakerStake) {w2 : World} (S : Steps env w' w2) (w3 : World) : exec env o' w2 ix ≠ .ok w3 := by
  intro g
  have R' : Reachable env w' := .exec R O h
  rcases hi with ⟨s, c, t, b, y, d, hi⟩ | hi
  · obtain ⟨k, h0, _, _, _, hc⟩ := C25_initialize_config_once h hi
    obtain ⟨k', h0', hn, _⟩ := C25_initialize_config_once g hi
    rw [h0] at h0'; cases h0'
    obtain ⟨c, hc⟩ := Option.isSome_iff_exists.1 hc
    obtain ⟨c', hc'⟩ := C25_config_permanent R' S hc
    rw [hn] at hc'; simp at hc'
  · obtain ⟨k, h0, _, _, _, hs⟩ := C25_initialize_stake_once h hi
    obtain ⟨k', h0', _, hn, hn', _⟩ := C25_initialize_stake_once g hi
    rw [h0] at h0'; cases h0'
    obtain ⟨x, hx⟩ := Option.isSome_iff_exists.1 hs
    cases e : validatorAt w' k with
    | some v =>
      obtain ⟨v', hv', _⟩ := C25_validator_permanent R' S e
      rw [hn] at hv'; simp at hv'
    | none =>
      cases e' : solStakerAt w' k with
      | some s =>
        obtain ⟨s', hs', _⟩ := C25_solStaker_permanent R' S e'
        rw [hn'] at hs'; simp at hs'
      | none =>
        unfold stakeAt at hx
        rw [e, e'] at hx
        simp at hx

/-- **C132.** An UnstakeTokens that went through does not go through again before the cooldown is over. -/
theorem C132_unstake (R : Reachable env w) (O : o.Ok) (h : exec env o w ix = .ok w') {n : Nat}
    (hi : ix.decoded = some (.unstakeTokens n)) {ck : Key} {c : Config} (h0 : ix.acct 0 = some ck) (hc : configAt w ck = some c)
    {w2 : World} (S : Steps env w' w2) (O' : o'.Ok) {t t' : Nat} (ht : o.unixTimestamp = t) (ht' : o'.unixTimestamp = t')
    (hlt : t < 2 ^ 63) (hlt' : t' < 2 ^ 63) (hsoon : t' < t + c.cooldownTime) (w3 : World) : exec env o' w2 ix ≠ .ok w3 := by
  intro g
  obtain ⟨ck', c', g0, hc', hle⟩ := C14_unstakes_apart R O h S O' g hi hi rfl ht hlt ht' hlt'
  rw [h0] at g0; cases g0
  rw [hc] at hc'; cases hc'
  omega

/-! The instructions of the example history, sent again. The first harvests do pay something, and the SOL staker's harvest changes the record of
the native stake. -/

example : exec Witness.env o1 w19 ixUpdate = .ok w19 := C132_update_config (ok_after ok18) (f := .cooldownTimeSeconds 200) (by decide +kernel) (rest := []) rfl rfl

example : exec Witness.env o1 w18 ixSync = .ok w18 :=
  C132_sync_authority r17 o2_ok (ok_after ok17) (by decide +kernel) (rest := []) rfl rfl

example : accrued Witness.env w9 cfg val1 = 12000 ∧ exec Witness.env o2 w10 ixHarvestVal1 = .ok w10 :=
  ⟨by decide +kernel, by
    unfold w10
    exact C132_harvest_validator r9 o1_ok (ok_after ok9) (by decide +kernel) (rest := []) rfl (by decide) (ix_writes _ _ _ _)⟩

example : (valOf w16 val1).min ≠ (valOf w17 val1).min ∧ exec Witness.env o1 w17 ixOverride = .ok w17 :=
  ⟨by decide +kernel, C132_override r16 o2_ok (ok_after ok16) (n := 5000) (by decide +kernel) (rest := []) rfl (by decide)
    (ix_writes _ _ _ _)⟩

example : (solOf w10 sol1).del.vote ≠ (solOf w11 sol1).del.vote ∧ exec Witness.env o2 w11 ixHarvestSol1 = .ok w11 :=
  ⟨by decide +kernel, by
    unfold w11
    exact C132_harvest_sol_staker (v := (o2.view native1).toOption.getD ⟨.default, .default, 0⟩) r10 o2_ok (ok_after ok10) (by decide +kernel) (rest := []) rfl
      (by decide +kernel) (by decide +kernel) (Or.inl (by decide +kernel)) (by decide) (ix_writes _ _ _ _)⟩

example : ¬ ∃ w', exec Witness.env o2 w20 ixSetAuthority = .ok w' := fun h =>
  absurd ((C132_set_authority (ok_after ok19) (t := .config) (by decide +kernel) (rest := []) rfl rfl).1 h) (by decide)

example (w' : World) : exec Witness.env o2 w3 ixInitVal1 ≠ .ok w' :=
  C132_initialize r1 o1_ok (ok_after ok1) (Or.inr (Or.inl (by decide +kernel))) (.tail .refl (.exec o1_ok (ok_after ok2))) w'

example (w' : World) : exec Witness.env o2 w13 ixUnstake ≠ .ok w' :=
  C132_unstake r12 o2_ok (ok_after ok12) (n := 150) (by decide +kernel) (ck := cfg) (c := cfgOf w12 cfg) rfl (by decide +kernel) .refl o2_ok
    (t := 2000) (t' := 2000) (by decide) (by decide) (by decide) (by decide) (by decide +kernel) w'

end Verif.Props
