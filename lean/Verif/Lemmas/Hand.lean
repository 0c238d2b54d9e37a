import Verif.SpecHand
import Verif.SpecFoot
import Verif.Lemmas.LiveToken
import Verif.Lemmas.BlameIx
import Mathlib.Algebra.BigOperators.Group.Finset.Basic
/-!
# What the checks of a call exclude
-/

namespace Verif

variable {env : Env} {o : Oracle} {w w' : World} {ix : Ix}

theorem lamportSum_gain {l : List Key} {a : Key} {n : Nat} (ha : a ∈ l) (h1 : (w' a).lamports = (w a).lamports + n)
    (h2 : ∀ k ∈ l, k ≠ a → (w' k).lamports = (w k).lamports) : lamportSum w' l = lamportSum w l + n := by
  have ha' : a ∈ l.toFinset := by simpa using ha
  rw [lamportSum_eq, lamportSum_eq, ← Finset.add_sum_erase _ _ ha', ← Finset.add_sum_erase _ (fun k => (w k).lamports) ha',
    h1, Finset.sum_congr rfl fun k hk => h2 k (by simpa using (Finset.mem_erase.1 hk).2) (Finset.mem_erase.1 hk).1]
  omega

/-- What a settlement does to the accounts other than the config. -/
theorem Harvested.gain {ck hk va sk auth : Key} {c : Config} {d : Delegation} {h : HolderRewards} {rs rh : Nat}
    (H : Harvested env w w' ck hk auth va sk none c d h rs rh) {k : Key} (h1 : k ≠ ck) :
    (w' k).lamports = (w k).lamports + if k = auth then rs + rh else 0 := by
  rw [H.lamports', if_neg h1]
  split_ifs with e1 e2
  · subst e1; simp [authAfterKeeper, keeperReward]
  · simp at e2
  · rfl

/-- If the payee is handed on together with accounts that have not changed, the payment is nothing. -/
theorem Harvested.none_due {ck hk va sk auth : Key} {c : Config} {d : Delegation} {h : HolderRewards} {rs rh : Nat} {w2 view : World}
    (H : Harvested env w w' ck hk auth va sk none c d h rs rh) {passed : List Key}
    (hc : callOut view w2 [ck, sk] passed = .ok ()) (hk : auth ∈ passed)
    (L : (w2 auth).lamports = (w' auth).lamports) (V : (view auth).lamports = (w auth).lamports)
    (same : ∀ k ∈ passed, k ≠ auth → (w2 k).lamports = (view k).lamports) : rs + rh = 0 := by
  obtain ⟨h1, h2⟩ := callOut_ok.1 hc
  have hne : auth ≠ ck := fun e => h1 _ hk (by simp [e])
  rw [lamportSum_gain hk (n := rs + rh) (by rw [L, V, H.gain hne, if_pos rfl]) same] at h2
  omega

theorem StakedOk.none_due {ctx : Ctx} {a : StakeTokensAccts} {n : Nat} {c : Config} {d : Delegation} {hr : HolderRewards}
    {rs rh : Nat} {w1 w2 w3 : World} {D' : Data} {c1 : Config} {d1 d2 : Delegation} {ts td : TokenAccount}
    (S : StakedOk env o ctx w w' a n c d hr rs rh w1 w2 w3 D' c1 d1 d2 ts td)
    (h : a.stakeAuthority ∈ a.toToken ∨ a.stakeAuthority ∈ a.toRewards) : rs + rh = 0 := by
  have L2 : ∀ k, (w2 k).lamports = (w1 k).lamports := S.adj.lamports
  have L3 : ∀ k, (w3 k).lamports = (w2 k).lamports := S.transfer.lamports
  have o1 := (callOut_ok.1 S.out1).1
  have o2 := (callOut_ok.1 S.out2).1
  by_cases h1 : a.stakeAuthority ∈ a.toToken
  · refine S.harv.none_due S.out1 h1 (L2 _) rfl fun k hk hne => ?_
    rw [L2, S.harv.gain (fun e => o1 k hk (by simp [e])), if_neg hne, Nat.add_zero]
  · have h2 := h.resolve_left h1
    refine S.harv.none_due S.out2 h2 ((L3 _).trans (L2 _)) (by rw [World.known, if_neg h1]) fun k hk hne => ?_
    unfold World.known
    split_ifs
    · rfl
    · rw [L3, L2, S.harv.gain (fun e => o2 k hk (by simp [e])), if_neg hne, Nat.add_zero]

theorem SlashedOk.none_due {ctx : Ctx} {a : SlashAccts} {n : Nat} {c : Config} {d : Delegation} {hr : HolderRewards}
    {rs rh : Nat} {w1 w2 : World} {D' : Data} {c1 : Config} {d1 d2 : Delegation}
    (S : SlashedOk env ctx w w' a n c d hr rs rh w1 w2 D' c1 d1 d2) (hp : 0 < d.staked)
    (h : a.stakeAuthority ∈ [a.vault, a.mint, a.vaultAuthority]) : rs + rh = 0 := by
  have out := S.out (by have := S.pos; omega)
  have o1 := (callOut_ok.1 out).1
  refine S.harv.none_due out h rfl rfl fun k hk hne => ?_
  rw [S.harv.gain (fun e => o1 k hk (by simp [e])), if_neg hne, Nat.add_zero]

theorem UnstakedOk.none_due {ctx : Ctx} {a : UnstakeTokensAccts} {n : Nat} {c : Config} {d : Delegation} {hr : HolderRewards}
    {rs rh : Nat} {w1 w2 w3 : World} {D' : Data} {c1 : Config} {d1 d2 : Delegation} {call : RewardsCall} {ts td : TokenAccount}
    (L : o.Local) (S : UnstakedOk env o ctx w w' a n c d hr rs rh w1 w2 w3 D' c1 d1 d2 call ts td)
    (h : a.stakeAuthority ∈ a.toRewards ∨ a.stakeAuthority ∈ a.toToken) : rs + rh = 0 := by
  have L2 : ∀ k, (w2 k).lamports = (w1 k).lamports := S.adj.lamports
  have o1 := (callOut_ok.1 S.out1).1
  have o2 := (callOut_ok.1 S.out2).1
  by_cases h1 : a.stakeAuthority ∈ a.toRewards
  · refine S.harv.none_due S.out1 h1 (L2 _) rfl fun k hk hne => ?_
    rw [L2, S.harv.gain (fun e => o1 k hk (by simp [e])), if_neg hne, Nat.add_zero]
  · have h2 := h.resolve_left h1
    have L3 : ∀ k, k ∉ a.toRewards → (w3 k).lamports = (w2 k).lamports := by
      intro k hk
      rw [L.withdraw S.withdraw k]
      rw [S.call_eq]
      intro hm
      apply hk
      simp only [RewardsCall.accounts, UnstakeTokensAccts.call, List.mem_cons, List.not_mem_nil, or_false] at hm
      rcases hm with rfl | rfl | rfl | rfl | rfl <;> simp [UnstakeTokensAccts.toRewards]
    refine S.harv.none_due S.out2 h2 ((L3 _ h1).trans (L2 _)) (by rw [World.known, if_neg h1]) fun k hk hne => ?_
    unfold World.known
    split_ifs with hin
    · rfl
    · rw [L3 k hin, L2, S.harv.gain (fun e => o2 k hk (by simp [e])), if_neg hne, Nat.add_zero]

theorem passes_eq {i : StakeInstruction} {r : Role} {l : List Key} {k x : Key} {n : Nat} (hi : ix.decoded = some i)
    (hl : ix.ctx.accts = l) (hp : i.position r = some n) (ha : l[n]? = some x) (h : ix.passes r k) : k = x := by
  obtain ⟨j, p, hj, hq, hk⟩ := h
  rw [hi] at hj
  cases hj
  rw [hp] at hq
  cases hq
  unfold Ix.acct at hk
  rw [hl, ha] at hk
  exact (Option.some.inj hk).symm

theorem hands_mem {i : StakeInstruction} {l m : List Key} {k : Key} (hi : ix.decoded = some i) (hl : ix.ctx.accts = l)
    (hm : ∀ p ∈ i.handed, ∀ x, l[p]? = some x → x ∈ m) (h : ix.hands k) : k ∈ m := by
  obtain ⟨j, p, hj, hq, hk⟩ := h
  rw [hi] at hj
  cases hj
  refine hm p hq k ?_
  unfold Ix.acct at hk
  rw [hl] at hk
  exact hk

/-- What holds of an account handed to another program. -/
def HandOk (env : Env) (w : World) (ix : Ix) (k : Key) : Prop :=
  (¬ ix.passes .config k ∧ ¬ ix.passes .stake k) ∧
  (ix.decoded ≠ some .harvestSolStakerRewards → ix.passes .stakeAuthority k →
    ∀ ck sk, ix.passes .config ck → ix.passes .stake sk → accrued env w ck sk = 0)

theorem hand_of {i : StakeInstruction} {l : List Key} {k ck sk au : Key} {n0 n1 n2 : Nat} (hi : ix.decoded = some i)
    (hl : ix.ctx.accts = l) (h0 : i.position .config = some n0) (h1 : i.position .stake = some n1)
    (h2 : i.position .stakeAuthority = some n2) (a0 : l[n0]? = some ck) (a1 : l[n1]? = some sk) (a2 : l[n2]? = some au)
    (apart : k ∉ [ck, sk]) (due : i ≠ .harvestSolStakerRewards → k = au → accrued env w ck sk = 0) : HandOk env w ix k := by
  refine ⟨⟨fun h => apart ?_, fun h => apart ?_⟩, fun hn h ck' sk' hc hs => ?_⟩
  · rw [passes_eq hi hl h0 a0 h]; simp
  · rw [passes_eq hi hl h1 a1 h]; simp
  · rw [passes_eq hi hl h0 a0 hc, passes_eq hi hl h1 a1 hs]
    exact due (by rintro rfl; exact hn hi) (passes_eq hi hl h2 a2 h)

theorem hand_staked {n : Nat} {i : StakeInstruction} (hx : exec env o w ix = .ok w') (hi : ix.decoded = some i)
    (hs : i = .validatorStakeTokens n ∨ i = .solStakerStakeTokens n) {k : Key} (hk : ix.hands k) : HandOk env w ix k := by
  obtain ⟨a, rest, hl, c, d, hr, rs, rh, w1, w2, w3, D', c1, d1, d2, ts, td, S⟩ := exec_staked hx
    (by rcases hs with rfl | rfl
        · exact .inl hi
        · exact .inr hi)
  have hm : k ∈ a.toToken ++ a.toRewards := hands_mem hi hl (by
    rcases hs with rfl | rfl
    all_goals
      intro p hp x hx
      simp only [StakeInstruction.handed, List.mem_cons, List.not_mem_nil, or_false] at hp
      rcases hp with rfl | rfl | rfl | rfl | rfl | rfl | rfl | rfl | rfl
      all_goals
        cases hx
        simp [StakeTokensAccts.toToken, StakeTokensAccts.toRewards]) hk
  have hap : k ∉ [a.config, a.stake] := by
    rcases List.mem_append.1 hm with h | h
    · exact (callOut_ok.1 S.out1).1 k h
    · exact (callOut_ok.1 S.out2).1 k h
  have hdue : i ≠ .harvestSolStakerRewards → k = a.stakeAuthority → accrued env w a.config a.stake = 0 := by
    rintro _ rfl
    rw [← S.harv.paid S.cO S.sO S.bel]
    exact S.none_due (List.mem_append.1 hm)
  rcases hs with rfl | rfl
  · exact hand_of hi hl rfl rfl rfl rfl rfl rfl hap hdue
  · exact hand_of hi hl rfl rfl rfl rfl rfl rfl hap hdue

theorem hand_unstaked {n : Nat} (L : o.Local) (hx : exec env o w ix = .ok w') (hi : ix.decoded = some (.unstakeTokens n))
    {k : Key} (hk : ix.hands k) : HandOk env w ix k := by
  obtain ⟨a, rest, hl, c, d, hr, rs, rh, w1, w2, w3, D', c1, d1, d2, call, ts, td, S⟩ := exec_unstaked hx hi
  have hm : k ∈ a.toRewards ++ a.toToken := hands_mem hi hl (by
    intro p hp x hx
    simp only [StakeInstruction.handed, List.mem_cons, List.not_mem_nil, or_false] at hp
    rcases hp with rfl | rfl | rfl | rfl | rfl | rfl | rfl | rfl
    all_goals
      cases hx
      simp [UnstakeTokensAccts.toToken, UnstakeTokensAccts.toRewards]) hk
  refine hand_of hi hl rfl rfl rfl rfl rfl rfl ?_ ?_
  · rcases List.mem_append.1 hm with h | h
    · exact (callOut_ok.1 S.out1).1 k h
    · exact (callOut_ok.1 S.out2).1 k h
  · rintro _ rfl
    rw [← S.harv.paid S.cO S.sO S.bel]
    exact S.none_due L (List.mem_append.1 hm)

theorem hand_slashed (I : Inv env w) {n : Nat} {a : SlashAccts} {rest : List Key} {i : StakeInstruction}
    (hi : ix.decoded = some i)
    (hs : (i = .slashValidatorStake n ∧ ix.ctx.accts = a.listValidator ++ rest) ∨
      (i = .slashSolStakerStake n ∧ ix.ctx.accts = a.listSolStaker ++ rest))
    {c : Config} {d : Delegation} {hr : HolderRewards} {rs rh : Nat} {w1 w2 : World} {D' : Data} {c1 : Config}
    {d1 d2 : Delegation} (S : SlashedOk env ix.ctx w w' a n c d hr rs rh w1 w2 D' c1 d1 d2) (hre : ix.reaches w)
    {k : Key} (hk : ix.hands k) : HandOk env w ix k := by
  have hst : 0 < d.staked := by
    rcases hs with ⟨rfl, hl⟩ | ⟨rfl, hl⟩
    all_goals
      unfold Ix.reaches at hre
      rw [hi] at hre
      obtain ⟨k', d', hk', hd', hp⟩ := hre
      have e := passes_eq (x := a.stake) hi hl (n := 1) rfl rfl hk'
      rw [e, stakeAt_eq.2 ⟨S.sO, S.harv.del⟩] at hd'
      cases hd'
      exact hp
  have out := S.out (by have := S.pos; omega)
  have hm : k ∈ [a.vault, a.mint, a.vaultAuthority] := by
    rcases hs with ⟨rfl, hl⟩ | ⟨rfl, hl⟩
    all_goals
      refine hands_mem hi hl ?_ hk
      intro p hp x hx
      simp only [StakeInstruction.handed, List.mem_cons, List.not_mem_nil, or_false] at hp
      rcases hp with rfl | rfl | rfl
      all_goals
        cases hx
        simp
  have hap := (callOut_ok.1 out).1 k hm
  have hdue : i ≠ .harvestSolStakerRewards → k = a.stakeAuthority → accrued env w a.config a.stake = 0 := by
    rintro _ rfl
    have hva : a.vaultAuthority = env.vaultAuth a.config := by
      rw [S.vaultAuth]; exact (bump_facts I (configAt_eq.2 ⟨S.cO, S.harv.config⟩)).2
    have H := S.harv
    rw [hva] at H
    rw [← H.paid S.cO S.sO S.bel]
    exact S.none_due hst hm
  rcases hs with ⟨rfl, hl⟩ | ⟨rfl, hl⟩
  · exact hand_of hi hl rfl rfl rfl rfl rfl rfl hap hdue
  · exact hand_of hi hl rfl rfl rfl rfl rfl rfl hap hdue

theorem hand_harvestSol (hx : exec env o w ix = .ok w') (hi : ix.decoded = some .harvestSolStakerRewards)
    {k : Key} (hk : ix.hands k) : HandOk env w ix k := by
  obtain ⟨a, kp, rest, hl, _, h⟩ := ran_harvestSolStakerRewards hx hi
  simp only [harvestSolStakerRewards, bind_ok, require_ok, exists_unit] at h
  obtain ⟨_, _, _, _, _, _, _, _, _, _, _, _, hout, _⟩ := h
  have hm : k ∈ [a.solStakerNativeStake, a.sysvarStakeHistory] := hands_mem hi hl (by
    intro p hp x hx
    simp only [StakeInstruction.handed, List.mem_cons, List.not_mem_nil, or_false] at hp
    rcases hp with rfl | rfl
    all_goals
      cases hx
      simp) hk
  exact hand_of hi hl rfl rfl rfl rfl rfl rfl ((callOut_ok.1 hout).1 k hm) (fun h => absurd rfl h)

theorem hand_ok (I : Inv env w) (L : o.Local) (hx : exec env o w ix = .ok w') (hre : ix.reaches w) {k : Key} (hk : ix.hands k) :
    HandOk env w ix k := by
  obtain ⟨i, p, hi, hp, _⟩ := id hk
  cases i with
  | validatorStakeTokens n => exact hand_staked hx hi (.inl rfl) hk
  | solStakerStakeTokens n => exact hand_staked hx hi (.inr rfl) hk
  | unstakeTokens n => exact hand_unstaked L hx hi hk
  | slashValidatorStake n =>
    obtain ⟨a, rest, hl, h⟩ := ran_slashValidatorStake hx hi
    obtain ⟨c, s, hr, rs, rh, w1, w2, c1, _, _, S⟩ := slashValidatorStake_ok h
    exact hand_slashed I hi (.inl ⟨rfl, hl⟩) S hre hk
  | slashSolStakerStake n =>
    obtain ⟨a, rest, hl, h⟩ := ran_slashSolStakerStake hx hi
    obtain ⟨c, s, hr, rs, rh, w1, w2, c1, _, _, S⟩ := slashSolStakerStake_ok h
    exact hand_slashed I hi (.inr ⟨rfl, hl⟩) S hre hk
  | harvestSolStakerRewards => exact hand_harvestSol hx hi hk
  | _ => simp [StakeInstruction.handed] at hp

/-! ## The error of staking one's own tokens -/

theorem bind_error {α β} {x : Res α} {f : α → Res β} {e : Err} :
    (x >>= f) = .error e ↔ x = .error e ∨ ∃ a, x = .ok a ∧ f a = .error e := by
  cases x with
  | error e => simp [bind, Except.bind]
  | ok a => simp [bind, Except.bind]

theorem bind_fails {α β} {x : Res α} {f : α → Res β} {e : Err} {a : α} (h : x = .ok a) (hf : f a = .error e) :
    (x >>= f) = .error e := bind_error.2 (.inr ⟨a, h, hf⟩)

theorem require_passes {β} {p : Prop} [Decidable p] {f : Unit → Res β} {e e' : Err} (h : p) (hf : f () = .error e') :
    (require p e >>= f) = .error e' := bind_fails (a := ()) (require_ok.2 h) hf

theorem exec_error {i : StakeInstruction} {e : Err} (hi : ix.decoded = some i) (h : dispatch env o ix.ctx w i = .error e) :
    exec env o w ix = .error e := by
  simp only [exec, processInstruction]
  exact bind_error.2 (.inl (bind_fails (decoded_eq.1 hi) h))

/-- Handing on an account that has just been paid. -/
theorem callOut_unbalanced {ck hk va sk auth : Key} {c : Config} {d : Delegation} {h : HolderRewards} {rs rh : Nat} {w1 w2 : World}
    (H : Harvested env w w1 ck hk auth va sk none c d h rs rh) {passed : List Key}
    (hap : ∀ k ∈ passed, k ∉ [ck, sk]) (hk : auth ∈ passed) (L : ∀ k, (w2 k).lamports = (w1 k).lamports)
    (hp : 0 < rs + rh) : callOut w w2 [ck, sk] passed = .error .unbalanced := by
  unfold callOut
  refine require_passes hap ?_
  unfold require
  rw [if_neg]
  have hne : auth ≠ ck := fun e => hap _ hk (by simp [e])
  have := lamportSum_gain (w := w) (w' := w2) hk (n := rs + rh) (by rw [L, H.gain hne, if_pos rfl]) fun k hk hne' => by
    rw [L, H.gain (fun e => hap k hk (by simp [e])), if_neg hne', Nat.add_zero]
  omega

theorem own_apart {ck sk src mk vk sauth : Key} (hcO : (w ck).owner = progId) (hsO : (w sk).owner = progId)
    (h1 : (w src).owner ≠ progId) (h2 : (w mk).owner ≠ progId) (h3 : (w vk).owner ≠ progId) (h4 : sauth ≠ ck) (h5 : sauth ≠ sk) :
    ∀ k ∈ [src, mk, vk, sauth], k ∉ [ck, sk] := by
  intro k hk hm
  simp only [List.mem_cons, List.not_mem_nil, or_false] at hk hm
  rcases hm with rfl | rfl
  all_goals
    rcases hk with rfl | rfl | rfl | rfl <;> contradiction

theorem own_stakeValidator (I : Inv env w) {n : Nat} (hi : ix.decoded = some (.validatorStakeTokens n))
    {ck sk src mk pool pt : Key} {c : Config} {v : ValidatorStake} {td : TokenAccount} {mi : Mint} {rest : List Key}
    (hl : ix.ctx.accts = ck :: pool :: pt :: sk :: v.del.authority :: src :: v.del.authority :: mk :: env.vaultAuth ck :: c.vault ::
      vaultRecord env ck :: tokenId :: rewardsId :: rest)
    (hv : validatorAt w sk = some v) (hn : 0 < n) (hlt : v.del.staked + n < 2 ^ 64)
    (P : Payable env w ck sk c v.del) (F : Fits c v.del (v.del.staked + n) (max v.total v.min))
    (hsrc : (w src).owner ≠ progId) (R : Receives w c.vault mk td n) (hm : mintAt w mk = some mi)
    (hsa : v.del.authority ≠ sk) (hdue : 0 < accrued env w ck sk) : exec env o w ix = .error .unbalanced := by
  obtain ⟨hcO, hc, hsO, hd, _⟩ := P.facts
  obtain ⟨w1, h, rs, rh, w2, hw1, H, hp, hw2, L2, O2, same2, foreign2⟩ :=
    restake_core (cd := v.del.cooldown) I P F
  have hvO : (w c.vault).owner ≠ progId := by rw [R.owned]; decide
  have hmO := I.foreign_mint hm
  have tok : (w1 c.vault).data = .token td := (H.foreign hcO hsO hvO).trans (tokenAt_data.1 R.token)
  have mnt : (w1 mk).data = .mint mi := (H.foreign hcO hsO hmO).trans (mintAt_data.1 hm)
  refine exec_error hi ?_
  unfold dispatch
  rw [hl]
  dsimp only
  unfold validatorStakeTokens
  refine require_passes hcO (bind_fails (unpackConfig_ok.2 hc) (require_passes hsO
    (require_passes P.facts.2.2.2.2 (bind_fails (unpackValidator_ok.2 (validatorAt_eq.1 hv).2) (require_passes (I.validator_at hv P.belongs)
    (bind_fails hw1 (require_passes rfl (require_passes rfl (require_passes (P.apart_token R.token) (bind_fails (unpackToken_ok.2 tok)
    (require_passes R.mint_eq (require_passes (P.apart_mint hm) (bind_fails (unpackMint_ok.2 mnt) (require_passes hn
    (bind_fails (readDel_ok.2 H.del') (bind_fails (addU64_ok.2 ⟨hlt, rfl⟩)
    (bind_fails (setData_ok.2 ⟨Or.inr (by rw [H.owner]; exact hsO), rfl⟩) (bind_fails hw2 (bind_error.2 (.inl ?_))))))))))))))))))))
  exact callOut_unbalanced H (own_apart hcO hsO hsrc hmO hvO P.payee hsa) (by simp [StakeTokensAccts.toToken]) L2
    (by rw [hp]; exact hdue)

theorem own_stakeSolStaker (I : Inv env w) {n : Nat} (hi : ix.decoded = some (.solStakerStakeTokens n))
    {ck sk src mk pool pt : Key} {c : Config} {v : SolStakerStake} {td : TokenAccount} {mi : Mint} {rest : List Key}
    (hl : ix.ctx.accts = ck :: pool :: pt :: sk :: v.del.authority :: src :: v.del.authority :: mk :: env.vaultAuth ck :: c.vault ::
      vaultRecord env ck :: tokenId :: rewardsId :: rest)
    (hv : solStakerAt w sk = some v) (hn : 0 < n) (hlt : v.del.staked + n < 2 ^ 64)
    (P : Payable env w ck sk c v.del) (F : Fits c v.del (v.del.staked + n) v.lamports)
    (hsrc : (w src).owner ≠ progId) (R : Receives w c.vault mk td n) (hto : td.owner = env.vaultAuth ck)
    (hm : mintAt w mk = some mi) (hsa : v.del.authority ≠ sk) (hdue : 0 < accrued env w ck sk) :
    exec env o w ix = .error .unbalanced := by
  obtain ⟨hcO, hc, hsO, hd, _⟩ := P.facts
  obtain ⟨w1, h, rs, rh, w2, hw1, H, hp, hw2, L2, O2, same2, foreign2⟩ :=
    restake_core (cd := v.del.cooldown) (l := v.lamports) (lmin := 0) I P (by rw [Nat.max_zero]; exact F)
  have hvO : (w c.vault).owner ≠ progId := by rw [R.owned]; decide
  have hmO := I.foreign_mint hm
  have tok : (w1 c.vault).data = .token td := (H.foreign hcO hsO hvO).trans (tokenAt_data.1 R.token)
  have mnt : (w1 mk).data = .mint mi := (H.foreign hcO hsO hmO).trans (mintAt_data.1 hm)
  refine exec_error hi ?_
  unfold dispatch
  rw [hl]
  dsimp only
  unfold solStakerStakeTokens
  refine require_passes hcO (bind_fails (unpackConfig_ok.2 hc) (require_passes hsO
    (require_passes P.facts.2.2.2.2 (bind_fails (unpackSolStaker_ok.2 (solStakerAt_eq.1 hv).2) (require_passes (I.solStaker_at hv P.belongs)
    (bind_fails hw1 (require_passes rfl (require_passes rfl (require_passes (P.apart_token R.token) (bind_fails (unpackToken_ok.2 tok)
    (require_passes hto
    (require_passes R.mint_eq (require_passes (P.apart_mint hm) (bind_fails (unpackMint_ok.2 mnt) (require_passes hn
    (bind_fails (readDel_ok.2 H.del') (bind_fails (addU64_ok.2 ⟨hlt, rfl⟩)
    (bind_fails (setData_ok.2 ⟨Or.inr (by rw [H.owner]; exact hsO), rfl⟩) (bind_fails hw2 (bind_error.2 (.inl ?_)))))))))))))))))))))
  exact callOut_unbalanced H (own_apart hcO hsO hsrc hmO hvO P.payee hsa) (by simp [StakeTokensAccts.toToken]) L2
    (by rw [hp]; exact hdue)

end Verif
