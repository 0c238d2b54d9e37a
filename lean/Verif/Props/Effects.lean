import Verif.Lemmas.Effect
import Verif.Lemmas.Invert
import Verif.WitnessLive
/-!
# C105: what each instruction does, in full

For every instruction: if it is accepted, the state afterwards is the one described here, down to every field of every account.
`Turns w w' gain new` says that every account gained `gain` lamports, the accounts listed in `new` have the contents given
there, and owners and all other contents are unchanged. Where the rewards program is called, the state in which it is called,
the call, and what is done with its result are given.
-/

namespace Verif.Props

open Verif Witness

variable {env : Env} {o : Oracle} {w w' : World} {ix : Ix}

/-- **C105.** HarvestValidatorRewards pays the validator's accrued rewards from the config to its authority; the config and the
validator are brought up to date. -/
theorem C105_harvest_validator (h : exec env o w ix = .ok w') (hi : ix.decoded = some .harvestValidatorRewards)
    {ck hk sk auth : Key} {rest : List Key} (hl : ix.ctx.accts = ck :: hk :: sk :: auth :: rest) :
    ∃ c v, configAt w ck = some c ∧ validatorAt w sk = some v ∧ auth = v.del.authority ∧
      Turns w w' (pays ck auth (accrued env w ck sk))
        [(ck, .config (c.paid (w ck).lamports (accrued env w ck sk))),
          (sk, .validator { v with del := v.del.seen (currentAcc c (w ck).lamports) (holderAcc env ck w) })] := by
  obtain ⟨⟨a0, a1, a2, a3⟩, r, hl', hr⟩ := ran_harvestValidatorRewards h hi
  rw [hl] at hl'
  simp only [HarvestValidatorRewardsAccts.list, List.cons_append, List.nil_append, List.cons.injEq] at hl'
  obtain ⟨rfl, rfl, rfl, rfl, _⟩ := hl'
  obtain ⟨c, v, hr, rs, rh, hcO, hsO, hv, hk', H⟩ := harvestValidatorRewards_ok hr
  have hz := H.self_zero (exec_ok h).2.2 (fun _ => rfl) (by rw [hl]; simp)
  have T := H.turns hcO hsO (by rw [hk']; simp [belongs]) hz
  simp only at hv
  rw [hv] at T
  exact ⟨c, v, configAt_eq.2 ⟨hcO, H.config⟩, validatorAt_eq.2 ⟨hsO, hv⟩, H.auth_eq, T⟩

/-- 8000 lamports go to the validator's authority. -/
example : accrued Witness.env w9 cfg val1 ≠ 0 ∧
    ((w10 auth1).lamports : Int) = (w9 auth1).lamports + accrued Witness.env w9 cfg val1 := by
  obtain ⟨_, _, _, _, _, T⟩ := C105_harvest_validator (ok_after ok9) (by decide +kernel) (rest := []) rfl
  refine ⟨by decide +kernel, (T.lamports auth1).trans ?_⟩
  unfold pays
  rw [if_pos rfl, if_neg (by decide), sub_zero]

/-- **C105.** ValidatorOverrideStakedLamports settles the validator's rewards, sets its minimum to `n` lamports and recomputes
its effective stake from the larger of the minimum and the SOL delegated. -/
theorem C105_override (h : exec env o w ix = .ok w') {n : Nat}
    (hi : ix.decoded = some (.validatorOverrideStakedLamports n)) {ck cauth sk auth hk : Key} {rest : List Key}
    (hl : ix.ctx.accts = ck :: cauth :: sk :: auth :: hk :: rest) :
    ∃ c v, configAt w ck = some c ∧ validatorAt w sk = some v ∧ auth = v.del.authority ∧ cauth = c.authority ∧
      Turns w w' (pays ck auth (accrued env w ck sk))
        [(ck, .config { c.paid (w ck).lamports (accrued env w ck sk) with
            effTotal := c.effTotal - v.del.effective + min v.del.staked (cap (max v.total n)) }),
          (sk, .validator { v with
            del := (v.del.seen (currentAcc c (w ck).lamports) (holderAcc env ck w)).holding v.del.staked (max v.total n)
            min := n })] := by
  obtain ⟨⟨a0, a1, a2, a3, a4⟩, r, hl', hr⟩ := ran_validatorOverrideStakedLamports h hi
  rw [hl] at hl'
  simp only [ValidatorOverrideStakedLamportsAccts.list, List.cons_append, List.nil_append, List.cons.injEq] at hl'
  obtain ⟨rfl, rfl, rfl, rfl, rfl, _⟩ := hl'
  obtain ⟨c, v, hr, rs, rh, w1, c1, hcO, hsO, hv, hk', hset, hauth, hsig, H, A⟩ := validatorOverrideStakedLamports_ok hr
  have hz := H.self_zero (exec_ok h).2.2 A.lamports (by rw [hl]; simp)
  rw [← H.record] at A
  exact ⟨c, v, configAt_eq.2 ⟨hcO, H.config⟩, validatorAt_eq.2 ⟨hsO, hv⟩, H.auth_eq, hauth,
    H.adjust_turns hcO hsO (by rw [hk']; simp [belongs]) hz A rfl⟩

/-- Accepted in the witness history, and the minimum of the validator is then 5000 lamports. -/
example : ∃ v, validatorAt w16 val1 = some v ∧ v.min ≠ 5000 ∧ (valOf w17 val1).min = 5000 := by
  obtain ⟨c, v, hc, hv, _, _, T⟩ := C105_override (n := 5000) (ok_after ok16) (by decide +kernel) (rest := []) rfl
  have e : v = valOf w16 val1 := Option.some.inj (hv.symm.trans (by decide +kernel : validatorAt w16 val1 = some (valOf w16 val1)))
  rw [e] at hv T
  have h2 := T.snd
  refine ⟨_, hv, by decide +kernel, ?_⟩
  have : after o2 w16 ixOverride = w17 := rfl
  rw [this] at h2
  unfold valOf
  have hO : (w17 val1).owner = progId := by decide +kernel
  rw [validatorAt_eq.2 ⟨hO, h2⟩]; rfl

/-- **C105.** SlashValidatorStake settles the validator's rewards, takes the smaller of `n` and its stake off it, recomputes its
effective stake, and burns that many tokens of the vault. -/
theorem C105_slash_validator (R : Reachable env w) (h : exec env o w ix = .ok w') {n : Nat}
    (hi : ix.decoded = some (.slashValidatorStake n)) {ck sk auth sauth vault hk va mk tp : Key} {rest : List Key}
    (hl : ix.ctx.accts = ck :: sk :: auth :: sauth :: vault :: hk :: va :: mk :: tp :: rest) :
    ∃ c v, configAt w ck = some c ∧ validatorAt w sk = some v ∧ auth = v.del.authority ∧ sauth = c.slashAuthority ∧
      vault = c.vault ∧ va = env.vaultAuth ck ∧
      let m := min n v.del.staked
      let changed : List (Key × Data) :=
        [(ck, .config { c.paid (w ck).lamports (accrued env w ck sk) with
            effTotal := c.effTotal - v.del.effective + min (v.del.staked - m) (cap (max v.total v.min)) }),
          (sk, .validator { v with
            del := (v.del.seen (currentAcc c (w ck).lamports) (holderAcc env ck w)).holding (v.del.staked - m)
              (max v.total v.min) })]
      (m = 0 ∧ Turns w w' (pays ck auth (accrued env w ck sk)) changed) ∨
      (m ≠ 0 ∧ ∃ t mi, tokenAt w vault = some t ∧ mintAt w mk = some mi ∧
        Turns w w' (pays ck auth (accrued env w ck sk)) (changed ++
          [(vault, .token (t.less va m)), (mk, .mint { mi with supply := mi.supply - m })])) := by
  obtain ⟨⟨a0, a1, a2, a3, a4, a5, a6, a7, a8⟩, r, hl', hr⟩ := ran_slashValidatorStake h hi
  rw [hl] at hl'
  simp only [SlashAccts.listValidator, List.cons_append, List.nil_append, List.cons.injEq] at hl'
  obtain ⟨rfl, rfl, rfl, rfl, rfl, rfl, rfl, rfl, rfl, _⟩ := hl'
  obtain ⟨c, v, hr, rs, rh, w1, w2, c1, hv, hk', S⟩ := slashValidatorStake_ok hr
  have hcA := configAt_eq.2 ⟨S.cO, S.harv.config⟩
  have hva : va = env.vaultAuth ck := by
    have := S.vaultAuth; rw [((reachable_inv R).config _ c hcA).bump] at this; exact this
  have T := S.turns hva (exec_ok h).2.2 (by rw [hl]; simp)
  have hrec : hr.lastAcc = holderAcc env ck w := by
    have H := S.harv
    simp only at H
    rw [hva] at H
    exact H.record.symm
  rw [hrec] at T
  exact ⟨c, v, hcA, validatorAt_eq.2 ⟨S.sO, hv⟩, S.harv.auth_eq, S.auth, S.vault, hva, T⟩

/-- 300 tokens of the first validator are burned: the supply of the mint falls by 300. -/
example : ∃ mi, mintAt w14 mint = some mi ∧ mintAt w15 mint = some { mi with supply := mi.supply - 300 } ∧ 300 ≤ mi.supply := by
  obtain ⟨c, v, hc, hv, _, _, _, _, T⟩ := C105_slash_validator r14 (n := 300) (ok_after ok14) (by decide +kernel) (rest := []) rfl
  have e : v = valOf w14 val1 := Option.some.inj (hv.symm.trans (by decide +kernel : validatorAt w14 val1 = some (valOf w14 val1)))
  have hm : min 300 v.del.staked = 300 := by rw [e]; decide +kernel
  rw [hm] at T
  rcases T with ⟨h0, _⟩ | ⟨_, t, mi, _, hmi, T⟩
  · cases h0
  · refine ⟨mi, hmi, mintAt_data.2 (T.data (mint, _) (by simp)), ?_⟩
    have e2 : mi = mintOf w14 mint := Option.some.inj (hmi.symm.trans (by decide +kernel : mintAt w14 mint = some (mintOf w14 mint)))
    rw [e2]; decide +kernel

/-- **C105.** SlashSolStakerStake does the same to a SOL staker. -/
theorem C105_slash_sol_staker (R : Reachable env w) (h : exec env o w ix = .ok w') {n : Nat}
    (hi : ix.decoded = some (.slashSolStakerStake n)) {ck sk auth sauth vault hk va mk tp : Key} {rest : List Key}
    (hl : ix.ctx.accts = ck :: sk :: auth :: sauth :: mk :: vault :: hk :: va :: tp :: rest) :
    ∃ c s, configAt w ck = some c ∧ solStakerAt w sk = some s ∧ auth = s.del.authority ∧ sauth = c.slashAuthority ∧
      vault = c.vault ∧ va = env.vaultAuth ck ∧
      let m := min n s.del.staked
      let changed : List (Key × Data) :=
        [(ck, .config { c.paid (w ck).lamports (accrued env w ck sk) with
            effTotal := c.effTotal - s.del.effective + min (s.del.staked - m) (cap s.lamports) }),
          (sk, .solStaker { s with
            del := (s.del.seen (currentAcc c (w ck).lamports) (holderAcc env ck w)).holding (s.del.staked - m) s.lamports })]
      (m = 0 ∧ Turns w w' (pays ck auth (accrued env w ck sk)) changed) ∨
      (m ≠ 0 ∧ ∃ t mi, tokenAt w vault = some t ∧ mintAt w mk = some mi ∧
        Turns w w' (pays ck auth (accrued env w ck sk)) (changed ++
          [(vault, .token (t.less va m)), (mk, .mint { mi with supply := mi.supply - m })])) := by
  obtain ⟨⟨a0, a1, a2, a3, a4, a5, a6, a7, a8⟩, r, hl', hr⟩ := ran_slashSolStakerStake h hi
  rw [hl] at hl'
  simp only [SlashAccts.listSolStaker, List.cons_append, List.nil_append, List.cons.injEq] at hl'
  obtain ⟨rfl, rfl, rfl, rfl, rfl, rfl, rfl, rfl, rfl, _⟩ := hl'
  obtain ⟨c, s, hr, rs, rh, w1, w2, c1, hs, hk', S⟩ := slashSolStakerStake_ok hr
  have hcA := configAt_eq.2 ⟨S.cO, S.harv.config⟩
  have hva : va = env.vaultAuth ck := by
    have := S.vaultAuth; rw [((reachable_inv R).config _ c hcA).bump] at this; exact this
  have T := S.turns hva (exec_ok h).2.2 (by rw [hl]; simp)
  have hrec : hr.lastAcc = holderAcc env ck w := by
    have H := S.harv
    simp only at H
    rw [hva] at H
    exact H.record.symm
  rw [hrec] at T
  exact ⟨c, s, hcA, solStakerAt_eq.2 ⟨S.sO, hs⟩, S.harv.auth_eq, S.auth, S.vault, hva, T⟩

/-- 1000 tokens are asked for, but only the 100 staked ones are burned. -/
example : ∃ mi, mintAt w15 mint = some mi ∧ mintAt w16 mint = some { mi with supply := mi.supply - 100 } := by
  obtain ⟨c, s, hc, hs, _, _, _, _, T⟩ := C105_slash_sol_staker r15 (n := 1000) (ok_after ok15) (by decide +kernel) (rest := []) rfl
  have e : s = solOf w15 sol2 := Option.some.inj (hs.symm.trans (by decide +kernel : solStakerAt w15 sol2 = some (solOf w15 sol2)))
  have hm : min 1000 s.del.staked = 100 := by rw [e]; decide +kernel
  rw [hm] at T
  rcases T with ⟨h0, _⟩ | ⟨_, t, mi, _, hmi, T⟩
  · cases h0
  · exact ⟨mi, hmi, mintAt_data.2 (T.data (mint, _) (by simp))⟩

/-- **C105.** SolStakerMoveTokens settles the rewards of both accounts, moves `n` tokens from the first to the second, recomputes
both effective stakes, and gives the second the later of the two cooldowns. -/
theorem C105_move (R : Reachable env w) (h : exec env o w ix = .ok w') {n : Nat}
    (hi : ix.decoded = some (.solStakerMoveTokens n)) {ck hk auth sk tk : Key} {rest : List Key}
    (hl : ix.ctx.accts = ck :: hk :: auth :: sk :: tk :: rest) :
    ∃ c s t, configAt w ck = some c ∧ solStakerAt w sk = some s ∧ solStakerAt w tk = some t ∧ s.del.authority = auth ∧
      t.del.authority = auth ∧ n ≤ s.del.staked ∧
      let acc := currentAcc c (w ck).lamports
      let hacc := holderAcc env ck w
      let paid := accrued env w ck sk + accrued env w ck tk
      Turns w w' (pays ck auth paid)
        [(ck, .config { c.paid (w ck).lamports paid with
            effTotal := c.effTotal - s.del.effective + min (s.del.staked - n) (cap s.lamports) - t.del.effective +
              min (t.del.staked + n) (cap t.lamports) }),
          (sk, .solStaker { s with del := (s.del.seen acc hacc).holding (s.del.staked - n) s.lamports }),
          (tk, .solStaker { t with
            del := { (t.del.seen acc hacc).holding (t.del.staked + n) t.lamports with
              cooldown := max s.del.cooldown t.del.cooldown } })] := by
  obtain ⟨⟨a0, a1, a2, a3, a4⟩, r, hl', hr⟩ := ran_solStakerMoveTokens h hi
  rw [hl] at hl'
  simp only [SolStakerMoveTokensAccts.list, List.cons_append, List.nil_append, List.cons.injEq] at hl'
  obtain ⟨rfl, rfl, rfl, rfl, rfl, _⟩ := hl'
  obtain ⟨c, c', s, t, hr, rs, rh, rs', rh', w1, w2, wx, cs, ct, ds, dt, ds', dt', M⟩ := solStakerMoveTokens_ok hr
  obtain ⟨e1, e2, e3, T⟩ := M.turns (reachable_inv R) (exec_ok h).2.2 (by rw [hl]; simp)
  have f1 : ds' = (s.del.seen (currentAcc c (w ck).lamports) (holderAcc env ck w)).holding (s.del.staked - n) s.lamports := by
    rw [M.ds'_eq, M.ds_eq, e3]; rfl
  have f2 : dt' = { (t.del.seen (currentAcc c (w ck).lamports) (holderAcc env ck w)).holding (t.del.staked + n) t.lamports with
      cooldown := max s.del.cooldown t.del.cooldown } := by
    have e2' := e2
    rw [M.dt'_eq, M.dt_eq] at e2' ⊢
    have : accNow c' (w1 ck).lamports = currentAcc c (w ck).lamports := e2'
    simp only [this, e3]; rfl
  refine ⟨c, s, t, configAt_eq.2 ⟨M.cO, M.harvS.config⟩, solStakerAt_eq.2 ⟨M.sO, M.src⟩, solStakerAt_eq.2 ⟨M.tO, M.dst⟩,
    M.harvS.auth_eq.symm, M.harvT.auth_eq.symm, M.le, ?_⟩
  rw [f1, f2] at T
  exact T

/-- 100 tokens are moved from one account to the other. -/
example : (solOf w11 sol1).del.staked = 500 ∧ (solOf w11 sol2).del.staked = 0 ∧
    ∃ s : SolStakerStake, (w12 sol1).data = .solStaker s ∧ s.del.staked = 400 := by
  obtain ⟨c, s, t, hc, hs, ht, _, _, _, T⟩ := C105_move r11 (n := 100) (ok_after ok11) (by decide +kernel) (rest := []) rfl
  have e1 : s.del.staked = 500 := by
    rw [(Option.some.inj (hs.symm.trans (by decide +kernel : solStakerAt w11 sol1 = some (solOf w11 sol1))) : s = solOf w11 sol1)]
    decide +kernel
  refine ⟨by decide +kernel, by decide +kernel, _, T.snd, ?_⟩
  change s.del.staked - 100 = 400
  rw [e1]

/-- **C105.** HarvestSolStakerRewards of a staker whose native stake is as recorded pays its accrued rewards to its authority. -/
theorem C105_harvest_sol_unchanged (R : Reachable env w) (h : exec env o w ix = .ok w')
    (hi : ix.decoded = some .harvestSolStakerRewards) {vp ck hk sk auth native pv pauth cv cauth hist keeper : Key}
    {rest : List Key}
    (hl : ix.ctx.accts = vp :: ck :: hk :: sk :: auth :: native :: pv :: pauth :: cv :: cauth :: hist :: keeper :: rest)
    {v : StakeView} (hv : o.view native = .ok v) :
    ∃ c s, configAt w ck = some c ∧ solStakerAt w sk = some s ∧ auth = s.del.authority ∧ native = s.solStake ∧
      (v.effective = s.lamports ∧ v.delegatedVote = s.del.vote →
        Turns w w' (pays ck auth (accrued env w ck sk))
          [(ck, .config (c.paid (w ck).lamports (accrued env w ck sk))),
            (sk, .solStaker { s with del := s.del.seen (currentAcc c (w ck).lamports) (holderAcc env ck w) })]) := by
  obtain ⟨⟨a0, a1, a2, a3, a4, a5, a6, a7, a8, a9, a10, a11⟩, kp, r, hl', hkp, hr⟩ := ran_harvestSolStakerRewards h hi
  rw [hl] at hl'
  simp only [HarvestSolStakerRewardsAccts.list, List.cons_append, List.nil_append, List.cons.injEq] at hl'
  obtain ⟨rfl, rfl, rfl, rfl, rfl, rfl, rfl, rfl, rfl, rfl, rfl, rfl, _⟩ := hl'
  obtain ⟨s, v', c, hr, rs, rh, w1, B, H⟩ := harvestSolStakerRewards_ok (reachable_inv R).wf hr
  have hvv : v' = v := by have := B.view; simp only at this; rw [hv] at this; cases this; rfl
  subst hvv
  have hb : belongs sk ck := by have := B.sk; simp only at this; rw [this]; simp [belongs]
  cases H with
  | noSync h1 h2 H hw =>
    have hz := H.self_zero (exec_ok h).2.2 (fun _ => by rw [hw]) (by rw [hl]; simp)
    have T := H.turns B.cO B.sO hb hz
    have hd := B.data
    simp only at hd
    rw [hd] at T
    rw [hw]
    exact ⟨c, s, configAt_eq.2 ⟨B.cO, H.config⟩, solStakerAt_eq.2 ⟨B.sO, hd⟩, H.auth_eq, B.native, fun _ => T⟩
  | sync hn _ H _ _ _ _ _ =>
    exact ⟨c, s, configAt_eq.2 ⟨B.cO, H.config⟩, solStakerAt_eq.2 ⟨B.sO, B.data⟩, H.auth_eq, B.native, fun e => absurd e hn⟩

/-- With the native stake as recorded, the first SOL staker's accrued rewards are not zero, and are paid to it. -/
example : accrued Witness.env w9 cfg sol1 ≠ 0 ∧
    ((after o1 w9 ixHarvestSol1 staker).lamports : Int) = (w9 staker).lamports + accrued Witness.env w9 cfg sol1 := by
  obtain ⟨c, s, _, hs, _, _, h⟩ := C105_harvest_sol_unchanged r9
    (ok_after (by decide +kernel : okB o1 w9 ixHarvestSol1 = true)) (by decide +kernel) (rest := []) rfl
    (v := { delegatedVote := vote1, withdrawer := staker, effective := 1000 }) (by decide +kernel)
  have e : s = solOf w9 sol1 := Option.some.inj (hs.symm.trans (by decide +kernel : solStakerAt w9 sol1 = some (solOf w9 sol1)))
  refine ⟨by decide +kernel, ((h (by rw [e]; decide +kernel)).lamports staker).trans ?_⟩
  unfold pays
  rw [if_pos rfl, if_neg (by decide), sub_zero]

/-- **C105.** HarvestSolStakerRewards of a staker whose native stake has changed: the keeper gets its share of the staker's
rewards and the staker's authority the rest; the validator left and the validator joined have their rewards settled and their
SOL totals changed by what left and came; the staker records the live native stake, or nothing if its validator has no account
here; the config's effective total is again the sum over its stake accounts. No authority is the config account itself. -/
theorem C105_harvest_sol_changed (R : Reachable env w) (O : o.Ok) (h : exec env o w ix = .ok w')
    (hi : ix.decoded = some .harvestSolStakerRewards) {vp ck hk sk auth native pv pauth cv cauth hist keeper : Key}
    {rest : List Key}
    (hl : ix.ctx.accts = vp :: ck :: hk :: sk :: auth :: native :: pv :: pauth :: cv :: cauth :: hist :: keeper :: rest)
    (h4 : auth ≠ ck) (h7 : pauth ≠ ck) (h9 : cauth ≠ ck) (h11 : keeper ≠ ck) {v : StakeView} (hv : o.view native = .ok v)
    {s : SolStakerStake} (hs : solStakerAt w sk = some s) (hn : v.effective ≠ s.lamports ∨ v.delegatedVote ≠ s.del.vote) :
    ∃ c total, configAt w ck = some c ∧ auth = s.del.authority ∧ native = s.solStake ∧ TotalIs (effectiveIn w' ck) total ∧
      let acc := currentAcc c (w ck).lamports
      let hacc := holderAcc env ck w
      let due := accrued env w ck sk
      let share := min due c.syncRewards
      let left : Key := .validatorPda s.del.vote ck
      let joined : Key := .validatorPda v.delegatedVote ck
      let dueLeft := if s.del.vote = .default then 0 else accrued env w ck left
      let dueJoined := if v.delegatedVote = .default ∨ v.delegatedVote = s.del.vote then 0 else accrued env w ck joined
      let live : Key × Nat :=
        if v.delegatedVote ≠ .default ∧ validatorAt w joined = none then (.default, 0) else (v.delegatedVote, v.effective)
      Turns w w' (fun k => paysTo ck (some auth) (due - share) k + paysTo ck (some keeper) share k +
          paysTo ck (authorityOf w left) dueLeft k + paysTo ck (authorityOf w joined) dueJoined k)
        ([(ck, .config { c.paid (w ck).lamports (due + dueLeft + dueJoined) with effTotal := total }),
          (sk, .solStaker { s with
            del := { (s.del.seen acc hacc).holding s.del.staked live.2 with vote := live.1 }, lamports := live.2 })] ++
          movedBetween w ck s.del.vote v.delegatedVote s.lamports v.effective acc hacc) := by
  have I' := exec_inv (reachable_inv R) O h
  obtain ⟨⟨a0, a1, a2, a3, a4, a5, a6, a7, a8, a9, a10, a11⟩, kp, r, hl', hkp, hr⟩ := ran_harvestSolStakerRewards h hi
  rw [hl] at hl'
  simp only [HarvestSolStakerRewardsAccts.list, List.cons_append, List.nil_append, List.cons.injEq] at hl'
  obtain ⟨rfl, rfl, rfl, rfl, rfl, rfl, rfl, rfl, rfl, rfl, rfl, rfl, _⟩ := hl'
  obtain ⟨s', v', c, hr, rs, rh, w1, B, H⟩ := harvestSolStakerRewards_ok (reachable_inv R).wf hr
  have hvv : v' = v := by have := B.view; simp only at this; rw [hv] at this; cases this; rfl
  subst hvv
  have hss : s' = s := by
    have := solStakerAt_eq.2 ⟨B.sO, B.data⟩
    simp only at this
    rw [hs] at this; exact (Option.some.inj this).symm
  subst hss
  have hn' : ¬ (v'.effective = s'.lamports ∧ v'.delegatedVote = s'.del.vote) := by
    rintro ⟨e1, e2⟩; rcases hn with hn | hn <;> contradiction
  have hcfg : (w ck).data = .config c := by
    cases H with
    | noSync _ _ H _ => exact H.config
    | sync _ _ H _ _ _ _ _ => exact H.config
  have hkeep : a11 = some keeper := by
    cases H with
    | noSync h1 h2 _ _ => exact absurd ⟨h1, h2⟩ hn'
    | @sync kp' _ _ _ _ _ _ _ _ e _ _ _ _ _ _ =>
      simp only at hkp e
      rw [hkp] at e
      split_ifs at e
      rw [hkp, if_neg (by assumption)]
  obtain ⟨total, hauth, T⟩ := solSync_turns (reachable_inv R) B H hn' h4 h7 h9
    (by simp only [hkeep]; intro e; exact h11 (Option.some.inj e))
  simp only at hauth
  simp only [hkeep] at T
  refine ⟨c, total, configAt_eq.2 ⟨B.cO, hcfg⟩, hauth, B.native, ?_, by rw [hauth]; exact T⟩
  have hc' := configAt_eq.2 ⟨(T.owner ck).trans B.cO, T.fst⟩
  exact (I'.config _ _ hc').total

/-- The first SOL staker's native stake has changed in the witness history: the keeper is paid. -/
example : ∃ c total, configAt w10 cfg = some c ∧ TotalIs (effectiveIn w11 cfg) total ∧
    min (accrued Witness.env w10 cfg sol1) c.syncRewards ≠ 0 := by
  obtain ⟨c, total, hc, _, _, ht, _⟩ := C105_harvest_sol_changed r10 o2_ok (ok_after ok10) (by decide +kernel) (rest := []) rfl
    (by decide) (by decide) (by decide) (by decide) (v := { delegatedVote := vote2, withdrawer := staker, effective := 3000 }) (by decide +kernel)
    (by decide +kernel : solStakerAt w10 sol1 = some (solOf w10 sol1)) (by decide +kernel)
  refine ⟨c, total, hc, ht, ?_⟩
  have e : c = cfgOf w10 cfg := Option.some.inj (hc.symm.trans (by decide +kernel : configAt w10 cfg = some (cfgOf w10 cfg)))
  rw [e]; decide +kernel

/-- **C105.** SetAuthority replaces the authority of the given kind and nothing else. -/
theorem C105_set_authority (h : exec env o w ix = .ok w') {t : AuthorityType} (hi : ix.decoded = some (.setAuthority t))
    {ck auth new : Key} {rest : List Key} (hl : ix.ctx.accts = ck :: auth :: new :: rest) :
    ∃ c, configAt w ck = some c ∧ Turns w w' (fun _ => 0) [(ck, .config (match t with
      | .config => { c with authority := new }
      | .slash => { c with slashAuthority := new }))] := by
  obtain ⟨⟨a0, a1, a2⟩, r, hl', h⟩ := ran_setAuthority h hi
  rw [hl] at hl'
  simp only [SetAuthorityAccts.list, List.cons_append, List.nil_append, List.cons.injEq] at hl'
  obtain ⟨rfl, rfl, rfl, _⟩ := hl'
  obtain ⟨c, c', _, h2, h3, h4, h5⟩ := setAuthority_ok h
  refine ⟨c, configAt_eq.2 ⟨h2, h3⟩, ?_⟩
  rw [h4]
  cases t <;> (obtain ⟨_, _, rfl⟩ := h5; exact setD_turns _ _)

example : ∃ c, configAt w19 cfg = some c ∧ Turns w19 w20 (fun _ => 0) [(cfg, .config { c with authority := .default })] :=
  C105_set_authority (t := .config) (ok_after ok19) (by decide +kernel) (rest := []) rfl

/-- **C105.** UpdateConfig replaces the given setting and nothing else. -/
theorem C105_update_config (h : exec env o w ix = .ok w') {f : ConfigField} (hi : ix.decoded = some (.updateConfig f))
    {ck auth : Key} {rest : List Key} (hl : ix.ctx.accts = ck :: auth :: rest) :
    ∃ c, configAt w ck = some c ∧ Turns w w' (fun _ => 0) [(ck, .config (match f with
      | .cooldownTimeSeconds n => { c with cooldownTime := n }
      | .maxDeactivationBasisPoints n => { c with maxBps := n }
      | .syncRewardsLamports n => { c with syncRewards := n }))] := by
  obtain ⟨⟨a0, a1⟩, r, hl', h⟩ := ran_updateConfig h hi
  rw [hl] at hl'
  simp only [UpdateConfigAccts.list, List.cons_append, List.nil_append, List.cons.injEq] at hl'
  obtain ⟨rfl, rfl, _⟩ := hl'
  obtain ⟨c, h2, h3, _, _, _, _, h4⟩ := updateConfig_ok h
  refine ⟨c, configAt_eq.2 ⟨h2, h3⟩, ?_⟩
  rw [h4]
  cases f <;> exact setD_turns _ _

example : ∃ c, configAt w18 cfg = some c ∧ Turns w18 w19 (fun _ => 0) [(cfg, .config { c with cooldownTime := 200 })] :=
  C105_update_config (f := .cooldownTimeSeconds 200) (ok_after ok18) (by decide +kernel) (rest := []) rfl

/-- **C105.** ValidatorSyncAuthority gives the validator the withdraw authority of its vote account as authority, and does
nothing else. -/
theorem C105_sync_authority (R : Reachable env w) (h : exec env o w ix = .ok w')
    (hi : ix.decoded = some .validatorSyncAuthority) {ck sk vote : Key} {rest : List Key}
    (hl : ix.ctx.accts = ck :: sk :: vote :: rest) :
    ∃ v wd, validatorAt w sk = some v ∧ sk = .validatorPda vote ck ∧ (w vote).data = .vote wd ∧ (w vote).owner = voteId ∧
      Turns w w' (fun _ => 0) [(sk, .validator { v with del := { v.del with authority := wd } })] := by
  obtain ⟨⟨a0, a1, a2⟩, r, hl', h⟩ := ran_validatorSyncAuthority h hi
  rw [hl] at hl'
  simp only [ValidatorSyncAuthorityAccts.list, List.cons_append, List.nil_append, List.cons.injEq] at hl'
  obtain ⟨rfl, rfl, rfl, _⟩ := hl'
  obtain ⟨v, wd, _, _, h1, h2, h3, h4, _, h5⟩ := validatorSyncAuthority_ok h
  simp only at h1 h2 h3 h4 h5
  have hO : (w sk).owner = progId := by
    by_contra hO
    have := ((reachable_inv R).unowned sk (by rw [h1]; rfl) hO).2
    rw [h2] at this; cases this
  refine ⟨v, wd, validatorAt_eq.2 ⟨hO, h2⟩, h1, h4, h3, ?_⟩
  rw [h5]; exact setD_turns _ _

example : ∃ v wd, validatorAt w17 val1 = some v ∧ (w17 vote1).data = .vote wd ∧
    Turns w17 w18 (fun _ => 0) [(val1, .validator { v with del := { v.del with authority := wd } })] := by
  obtain ⟨v, wd, h1, _, h2, _, T⟩ := C105_sync_authority r17 (ok_after ok17) (by decide +kernel) (rest := []) rfl
  exact ⟨v, wd, h1, h2, T⟩

/-- **C105.** InitializeValidatorStake turns the account at the validator's address into an empty validator stake account with
the vote account's withdraw authority as authority, and does nothing else. -/
theorem C105_initialize_validator (h : exec env o w ix = .ok w') (hi : ix.decoded = some .initializeValidatorStake)
    {ck duna sk vote sys : Key} {rest : List Key} (hl : ix.ctx.accts = ck :: duna :: sk :: vote :: sys :: rest) :
    ∃ wd, sk = .validatorPda vote ck ∧ (w vote).data = .vote wd ∧
      w' sk = { lamports := (w sk).lamports, owner := progId,
                data := .validator { del := { staked := 0, effective := 0, cooldown := 0, authority := wd, vote := vote,
                                              lastHolder := 0, lastStake := 0 }, total := 0, min := 0 } } ∧
      ∀ k, k ≠ sk → w' k = w k := by
  obtain ⟨⟨a0, a1, a2, a3, a4⟩, r, hl', h⟩ := ran_initializeValidatorStake h hi
  rw [hl] at hl'
  simp only [InitializeValidatorStakeAccts.list, List.cons_append, List.nil_append, List.cons.injEq] at hl'
  obtain ⟨rfl, rfl, rfl, rfl, rfl, _⟩ := hl'
  obtain ⟨c, wd, _, _, _, h4, _, h7, _, _, _, h8⟩ := initializeValidatorStake_ok h
  refine ⟨wd, h7, h4, ?_, fun k hk => ?_⟩
  · rw [h8]; unfold World.setN; rw [World.set_apply, if_pos rfl]; rfl
  · rw [h8]; unfold World.setN; rw [World.set_apply, if_neg hk]

example : ∃ wd, (w1 vote1).data = .vote wd ∧ ∀ k, k ≠ val1 → w2 k = w1 k := by
  obtain ⟨wd, _, h, _, h'⟩ := C105_initialize_validator (ok_after ok1) (by decide +kernel) (rest := []) rfl
  exact ⟨wd, h, h'⟩

/-- **C105.** InitializeSolStakerStake turns the account at the staker's address into an empty SOL staker stake account that
records the live native stake, with its withdraw authority as authority, adds the native stake to the validator's total, and
does nothing else. -/
theorem C105_initialize_sol_staker (R : Reachable env w) (h : exec env o w ix = .ok w')
    (hi : ix.decoded = some .initializeSolStakerStake) {ck duna sk ov vk native hist sys vp : Key} {rest : List Key}
    (hl : ix.ctx.accts = ck :: duna :: sk :: ov :: vk :: native :: hist :: sys :: vp :: rest) :
    ∃ v vs, o.view native = .ok v ∧ sk = .solStakerPda native ck ∧ vk = .validatorPda v.delegatedVote ck ∧
      validatorAt w vk = some vs ∧
      w' sk = { lamports := (w sk).lamports, owner := progId,
                data := .solStaker { del := { staked := 0, effective := 0, cooldown := 0, authority := v.withdrawer,
                                              vote := v.delegatedVote, lastHolder := 0, lastStake := 0 },
                                     lamports := v.effective, solStake := native } } ∧
      w' vk = { w vk with data := .validator { vs with total := vs.total + v.effective } } ∧
      ∀ k, k ≠ sk → k ≠ vk → w' k = w k := by
  obtain ⟨⟨a0, a1, a2, a3, a4, a5, a6, a7, a8⟩, r, hl', h⟩ := ran_initializeSolStakerStake h hi
  rw [hl] at hl'
  simp only [InitializeSolStakerStakeAccts.list, List.cons_append, List.nil_append, List.cons.injEq] at hl'
  obtain ⟨rfl, rfl, rfl, rfl, rfl, rfl, rfl, rfl, rfl, _⟩ := hl'
  obtain ⟨c, v, vs, au, h1, h2, h3, h4, h5, h6, _, h9, h10, h11, h12, h13, h14, h15, h16, h17, h18, h19⟩ :=
    initializeSolStakerStake_ok h
  simp only at h9 h10 h11 h12 h15 h16 h19
  have hau : au = none := by
    have hO : (w ov).owner ≠ progId := by
      intro hO
      have := (reachable_inv R).shape ov hO
      rw [h15] at this; exact this
    have hd := ((reachable_inv R).unowned ov (by rw [h15]; rfl) hO).2
    rw [hd] at h16
    simpa [readOverride, Data.isEmpty] using h16.symm
  subst hau
  have hne : sk ≠ vk := by rw [h12, h10]; simp
  refine ⟨v, vs, h4, h12, h10, validatorAt_eq.2 ⟨h9, h11⟩, ?_, ?_, fun k k1 k2 => ?_⟩
  · rw [h19, World.setD, World.set_apply, if_neg hne]; unfold World.setN; rw [World.set_apply, if_pos rfl]; rfl
  · rw [h19, World.setD, World.set_apply, if_pos rfl]; unfold World.setN; rw [World.set_apply, if_neg (Ne.symm hne)]
  · rw [h19, World.setD, World.set_apply, if_neg k2]; unfold World.setN; rw [World.set_apply, if_neg k1]

example : ∀ k, k ≠ sol1 → k ≠ val1 → w4 k = w3 k := by
  obtain ⟨v, vs, _, _, _, _, _, _, h⟩ := C105_initialize_sol_staker r3 (ok_after ok3) (by decide +kernel) (rest := []) rfl
  exact h

/-- **C105.** InitializeConfig writes a config with the given settings, no stake and no accrued rewards into the account, makes
the program the owner of the vault authority, and does nothing else. -/
theorem C105_initialize_config (h : exec env o w ix = .ok w') {sa ca : List UInt8} {ct bps sync : Nat} {doc : List UInt8}
    (hi : ix.decoded = some (.initializeConfig sa ca ct bps sync doc)) {ck mk va vault hk sys rp : Key} {rest : List Key}
    (hl : ix.ctx.accts = ck :: mk :: va :: vault :: hk :: sys :: rp :: rest) :
    va = env.vaultAuth ck ∧
      w' ck = { lamports := (w ck).lamports, owner := (w ck).owner,
                data := .config
                  { authority := env.keyOfBytes ca, slashAuthority := env.keyOfBytes sa, vault := vault, cooldownTime := ct,
                    effTotal := 0, lamportsLast := (w ck).lamports, acc := 0, maxBps := bps, dunaHash := doc,
                    syncRewards := sync, bump := env.vaultBump ck } } ∧
      w' va = { w va with owner := progId } ∧ ∀ k, k ≠ ck → k ≠ va → w' k = w k := by
  obtain ⟨⟨a0, a1, a2, a3, a4, a5, a6⟩, r, hl', h⟩ := ran_initializeConfig h hi
  rw [hl] at hl'
  simp only [InitializeConfigAccts.list, List.cons_append, List.nil_append, List.cons.injEq] at hl'
  obtain ⟨rfl, rfl, rfl, rfl, rfl, rfl, rfl, _⟩ := hl'
  obtain ⟨w1, b, t, h1, h2, h3, h4, h5, h6, h7, h8, h9, h10, h11, h12, h13, h14, h15, h16⟩ := initializeConfig_ok h
  simp only at h1 h2 h3 h16
  have hne : ck ≠ va := by rw [h1]; exact vaultAuth_ne ck
  refine ⟨h1, ?_, ?_, fun k k1 k2 => ?_⟩
  · rw [h16, World.setD, World.set_apply, if_pos rfl]
    rcases h3 with ⟨_, rfl⟩ | ⟨_, rfl⟩
    · rfl
    · rw [World.setO, World.set_apply, if_neg hne]
  · rw [h16, World.setD, World.set_apply, if_neg (Ne.symm hne)]
    rcases h3 with ⟨e, rfl⟩ | ⟨_, rfl⟩
    · rw [← e]
    · rw [World.setO, World.set_apply, if_pos rfl]
  · rw [h16, World.setD, World.set_apply, if_neg k1]
    rcases h3 with ⟨_, rfl⟩ | ⟨_, rfl⟩
    · rfl
    · rw [World.setO, World.set_apply, if_neg k2]

example : (w0 vaultAuth).owner ≠ progId ∧ (w1 vaultAuth).owner = progId := by
  obtain ⟨_, _, h, _⟩ := C105_initialize_config (ok_after ok0) (sa := bytes32 151) (ca := bytes32 150) (ct := 100) (bps := 5000)
    (sync := 10) (doc := Witness.hash) (by decide +kernel) (rest := []) rfl
  exact ⟨by decide +kernel, congrArg Account.owner h⟩

/-- **C105.** ValidatorStakeTokens settles the validator's rewards, adds `n` tokens to its stake, recomputes its effective
stake, moves the tokens from the source to the vault (nothing moves if these are the same account), and in the state so reached
calls the rewards program to deposit them; the outcome of that call is the outcome of the instruction. -/
theorem C105_stake_validator (h : exec env o w ix = .ok w') {n : Nat}
    (hi : ix.decoded = some (.validatorStakeTokens n)) {ck pool pt sk auth src sauth mk va vault hk tp rp : Key} {rest : List Key}
    (hl : ix.ctx.accts = ck :: pool :: pt :: sk :: auth :: src :: sauth :: mk :: va :: vault :: hk :: tp :: rp :: rest)
    (hne : auth ≠ ck) :
    ∃ c v ts tv mid, configAt w ck = some c ∧ validatorAt w sk = some v ∧ auth = v.del.authority ∧ vault = c.vault ∧
      tokenAt w src = some ts ∧ tokenAt w vault = some tv ∧
      Turns w mid (pays ck auth (accrued env w ck sk)) (
        [(ck, .config { c.paid (w ck).lamports (accrued env w ck sk) with
            effTotal := c.effTotal - v.del.effective + min (v.del.staked + n) (cap (max v.total v.min)) }),
          (sk, .validator { v with
            del := (v.del.seen (currentAcc c (w ck).lamports) (holderAcc env ck w)).holding (v.del.staked + n)
              (max v.total v.min) })] ++
        if src = vault then [] else [(src, .token (ts.less sauth n)), (vault, .token { tv with amount := tv.amount + n })]) ∧
      o.deposit mid (vaultCall env ck c pool pt mk n) = .ok w' := by
  obtain ⟨⟨a0, a1, a2, a3, a4, a5, a6, a7, a8, a9, a10, a11, a12⟩, r, hl', hr⟩ := ran_validatorStakeTokens h hi
  rw [hl] at hl'
  simp only [StakeTokensAccts.list, List.cons_append, List.nil_append, List.cons.injEq] at hl'
  obtain ⟨rfl, rfl, rfl, rfl, rfl, rfl, rfl, rfl, rfl, rfl, rfl, rfl, rfl, _⟩ := hl'
  obtain ⟨c, v, hr, rs, rh, w1, w2, w3, c1, ts, td, hv, hk', S⟩ := validatorStakeTokens_ok hr
  obtain ⟨g1, g2, g3, T⟩ := S.turns hne
  rw [← S.harv.record] at T
  exact ⟨c, v, ts, td, w3, configAt_eq.2 ⟨S.cO, S.harv.config⟩, validatorAt_eq.2 ⟨S.sO, hv⟩, S.harv.auth_eq, S.vault, g2, g3, T, g1⟩

example : ∃ ts tv mid, tokenAt w5 source = some ts ∧ tokenAt w5 vault = some tv ∧
    tokenAt mid vault = some { tv with amount := tv.amount + 2000 } := by
  obtain ⟨_, _, ts, tv, mid, _, _, _, _, h1, h2, T, _⟩ :=
    C105_stake_validator (n := 2000) (ok_after ok5) (by decide +kernel) (rest := []) rfl (by decide)
  rw [if_neg (by decide)] at T
  exact ⟨ts, tv, mid, h1, h2, tokenAt_data.2 (T.data (vault, _) (by simp))⟩

/-- **C105.** SolStakerStakeTokens does the same for a SOL staker. -/
theorem C105_stake_sol_staker (h : exec env o w ix = .ok w') {n : Nat}
    (hi : ix.decoded = some (.solStakerStakeTokens n)) {ck pool pt sk auth src sauth mk va vault hk tp rp : Key} {rest : List Key}
    (hl : ix.ctx.accts = ck :: pool :: pt :: sk :: auth :: src :: sauth :: mk :: va :: vault :: hk :: tp :: rp :: rest)
    (hne : auth ≠ ck) :
    ∃ c s ts tv mid, configAt w ck = some c ∧ solStakerAt w sk = some s ∧ auth = s.del.authority ∧ vault = c.vault ∧
      tokenAt w src = some ts ∧ tokenAt w vault = some tv ∧
      Turns w mid (pays ck auth (accrued env w ck sk)) (
        [(ck, .config { c.paid (w ck).lamports (accrued env w ck sk) with
            effTotal := c.effTotal - s.del.effective + min (s.del.staked + n) (cap s.lamports) }),
          (sk, .solStaker { s with
            del := (s.del.seen (currentAcc c (w ck).lamports) (holderAcc env ck w)).holding (s.del.staked + n) s.lamports })] ++
        if src = vault then [] else [(src, .token (ts.less sauth n)), (vault, .token { tv with amount := tv.amount + n })]) ∧
      o.deposit mid (vaultCall env ck c pool pt mk n) = .ok w' := by
  obtain ⟨⟨a0, a1, a2, a3, a4, a5, a6, a7, a8, a9, a10, a11, a12⟩, r, hl', hr⟩ := ran_solStakerStakeTokens h hi
  rw [hl] at hl'
  simp only [StakeTokensAccts.list, List.cons_append, List.nil_append, List.cons.injEq] at hl'
  obtain ⟨rfl, rfl, rfl, rfl, rfl, rfl, rfl, rfl, rfl, rfl, rfl, rfl, rfl, _⟩ := hl'
  obtain ⟨c, s, hr, rs, rh, w1, w2, w3, c1, ts, td, hs, hk', S⟩ := solStakerStakeTokens_ok hr
  obtain ⟨g1, g2, g3, T⟩ := S.turns hne
  rw [← S.harv.record] at T
  exact ⟨c, s, ts, td, w3, configAt_eq.2 ⟨S.cO, S.harv.config⟩, solStakerAt_eq.2 ⟨S.sO, hs⟩, S.harv.auth_eq, S.vault, g2, g3, T, g1⟩

example : ∃ ts tv mid, tokenAt w6 source = some ts ∧ tokenAt w6 vault = some tv ∧
    tokenAt mid vault = some { tv with amount := tv.amount + 500 } := by
  obtain ⟨_, _, ts, tv, mid, _, _, _, _, h1, h2, T, _⟩ :=
    C105_stake_sol_staker (n := 500) (ok_after ok6) (by decide +kernel) (rest := []) rfl (by decide)
  rw [if_neg (by decide)] at T
  exact ⟨ts, tv, mid, h1, h2, tokenAt_data.2 (T.data (vault, _) (by simp))⟩

/-- **C105.** UnstakeTokens settles the rewards of the stake, takes `n` tokens off it, recomputes its effective stake and starts
a new cooldown, calls the rewards program in that state to withdraw the tokens, and moves them from the vault to the
destination in the state which that call leaves. -/
theorem C105_unstake (h : exec env o w ix = .ok w') {n : Nat} (hi : ix.decoded = some (.unstakeTokens n))
    {ck pool pt sk auth vault va hk mk dst tp rp : Key} {rest : List Key}
    (hl : ix.ctx.accts = ck :: pool :: pt :: sk :: auth :: vault :: va :: hk :: mk :: dst :: tp :: rp :: rest)
    (hne : auth ≠ ck) :
    ∃ c d mid after tv td, configAt w ck = some c ∧ stakeAt w sk = some d ∧ auth = d.authority ∧ vault = c.vault ∧
      let later (lamports : Nat) : Delegation :=
        { (d.seen (currentAcc c (w ck).lamports) (holderAcc env ck w)).holding (d.staked - n) lamports with
          cooldown := min (o.now + c.cooldownTime) (2 ^ 64 - 1) }
      let settled (e : Nat) : Data := .config { c.paid (w ck).lamports (accrued env w ck sk) with effTotal := c.effTotal - d.effective + e }
      ((∃ v, validatorAt w sk = some v ∧ Turns w mid (pays ck auth (accrued env w ck sk))
          [(ck, settled (min (d.staked - n) (cap (max v.total v.min)))),
            (sk, .validator { v with del := later (max v.total v.min) })]) ∨
       (∃ s, solStakerAt w sk = some s ∧ Turns w mid (pays ck auth (accrued env w ck sk))
          [(ck, settled (min (d.staked - n) (cap s.lamports))), (sk, .solStaker { s with del := later s.lamports })])) ∧
      o.withdraw mid (vaultCall env ck c pool pt mk n) = .ok after ∧
      tokenAt after vault = some tv ∧ tokenAt after dst = some td ∧
      Turns after w' (fun _ => 0)
        [(vault, .token (tv.less (env.vaultAuth ck) n)), (dst, .token { td with amount := td.amount + n })] := by
  obtain ⟨⟨a0, a1, a2, a3, a4, a5, a6, a7, a8, a9, a10, a11⟩, r, hl', hr⟩ := ran_unstakeTokens h hi
  rw [hl] at hl'
  simp only [UnstakeTokensAccts.list, List.cons_append, List.nil_append, List.cons.injEq] at hl'
  obtain ⟨rfl, rfl, rfl, rfl, rfl, rfl, rfl, rfl, rfl, rfl, rfl, rfl, _⟩ := hl'
  obtain ⟨c, d, hr, rs, rh, w1, w2, w3, c1, D', call, ts, td, lam, S, K⟩ := unstakeTokens_ok hr
  obtain ⟨T, g1, g2, g3, T'⟩ := S.turns hne
  rw [← S.harv.record] at T K
  refine ⟨c, d, w2, w3, ts, td, configAt_eq.2 ⟨S.cO, S.harv.config⟩, stakeAt_eq.2 ⟨S.sO, S.harv.del⟩, S.harv.auth_eq, S.vault, ?_,
    g1, g2, g3, T'⟩
  rcases K with ⟨v, hv, _, rfl, rfl, rfl⟩ | ⟨s, hs, _, rfl, rfl, rfl⟩
  · exact Or.inl ⟨v, validatorAt_eq.2 ⟨S.sO, hv⟩, T⟩
  · exact Or.inr ⟨s, solStakerAt_eq.2 ⟨S.sO, hs⟩, T⟩

example : ∃ mid tv, o2.withdraw mid (vaultCall Witness.env cfg (cfgOf w12 cfg) pool poolToken mint 150) = .ok tv := by
  obtain ⟨c, _, mid, aft, _, _, hc, _, _, _, _, h, _⟩ :=
    C105_unstake (n := 150) (ok_after ok12) (by decide +kernel) (rest := []) rfl (by decide)
  have e : c = cfgOf w12 cfg := Option.some.inj (hc.symm.trans (by decide +kernel : configAt w12 cfg = some (cfgOf w12 cfg)))
  rw [e] at h
  exact ⟨mid, aft, h⟩

/-- **C105.** HarvestHolderRewards brings the config up to date, calls the rewards program in that state to pay the vault's
rewards, and moves whatever the vault authority then has above its rent minimum to the config, whose record of its lamports is
exact afterwards. The accumulator of the stake rewards does not see these lamports. -/
theorem C105_harvest_holder (R : Reachable env w) (O : o.Ok) (h : exec env o w ix = .ok w')
    (hi : ix.decoded = some .harvestHolderRewards) {ck pool pt vault hk va mk tp rp sys : Key} {rest : List Key}
    (hl : ix.ctx.accts = ck :: pool :: pt :: vault :: hk :: va :: mk :: tp :: rp :: sys :: rest) :
    ∃ c mid after, configAt w ck = some c ∧ va = env.vaultAuth ck ∧
      Turns w mid (fun _ => 0) [(ck, .config (c.paid (w ck).lamports 0))] ∧
      o.harvestRewards mid (harvestCall env ck pool pt mk) = .ok after ∧
      let excess := (after va).lamports - env.rentMin (after va).data.len
      env.rentMin (after va).data.len ≤ (after va).lamports ∧
      Turns after w' (pays va ck excess)
        [(ck, .config { c.paid (w ck).lamports 0 with lamportsLast := (after ck).lamports + excess })] := by
  obtain ⟨⟨a0, a1, a2, a3, a4, a5, a6, a7, a8, a9⟩, r, hl', hr⟩ := ran_harvestHolderRewards h hi
  rw [hl] at hl'
  simp only [HarvestHolderRewardsAccts.list, List.cons_append, List.nil_append, List.cons.injEq] at hl'
  obtain ⟨rfl, rfl, rfl, rfl, rfl, rfl, rfl, rfl, rfl, rfl, _⟩ := hl'
  obtain ⟨c, w1, w2, h1, h2, h3, h4, h5, h6⟩ := harvestHolder_turns (reachable_inv R) O hr
  exact ⟨c, w1, w2, h1, h2, h3, h4, h5, h6⟩

example : ∃ c mid after, configAt w8 cfg = some c ∧ c.lamportsLast < (w8 cfg).lamports ∧
    Turns w8 mid (fun _ => 0) [(cfg, .config (c.paid (w8 cfg).lamports 0))] ∧
    o1.harvestRewards mid (harvestCall Witness.env cfg pool poolToken mint) = .ok after := by
  obtain ⟨c, mid, aft, hc, _, T, h, _⟩ := C105_harvest_holder r8 o1_ok (ok_after ok8) (by decide +kernel) (rest := []) rfl
  refine ⟨c, mid, aft, hc, ?_, T, h⟩
  have e : c = cfgOf w8 cfg := Option.some.inj (hc.symm.trans (by decide +kernel : configAt w8 cfg = some (cfgOf w8 cfg)))
  rw [e]; decide +kernel

end Verif.Props
