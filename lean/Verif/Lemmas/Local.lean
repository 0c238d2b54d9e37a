import Verif.SpecOrder
import Verif.Lemmas.Dispatch
/-!
# Handlers see and change only the accounts they are given

For a set `P` of addresses and a state `u`, `patch P u w` is `w` on `P` and `u` elsewhere. Running a handler on `patch P u w`,
with all its accounts in `P`, is running it on `w` and patching the result.
-/

namespace Verif

/-- `w` on `P`, `u` elsewhere. -/
def patch (P : Key → Bool) (u w : World) : World := fun k => if P k then w k else u k

/-- Apply a function to the state in a result. -/
def mapW (f : World → World) : Res World → Res World
  | .ok w => .ok (f w)
  | .error e => .error e

section
variable {P : Key → Bool} {u w : World} {k : Key} {f : World → World}

theorem patch_in (h : P k = true) : patch P u w k = w k := by simp [patch, h]

theorem patch_set (h : P k = true) (a : Account) : (patch P u w).set k a = patch P u (w.set k a) := by
  funext j
  simp only [World.set, patch]
  by_cases e : j = k
  · subst e; simp [h]
  · simp [e]

theorem mapW_bind {α} (x : Res α) (g : α → Res World) : mapW f (x >>= g) = x >>= fun a => mapW f (g a) := by
  cases x <;> rfl

theorem bind_mapW {β} (x : Res World) (g : World → Res β) : (mapW f x >>= g) = x >>= fun a => g (f a) := by
  cases x <;> rfl

@[simp] theorem mapW_ok (w : World) : mapW f (.ok w) = .ok (f w) := rfl
@[simp] theorem mapW_pure (w : World) : mapW f (pure w) = pure (f w) := rfl
@[simp] theorem mapW_error (e : Err) : mapW f (.error e) = .error e := rfl
theorem mapW_ite {p : Prop} [Decidable p] (x y : Res World) :
    mapW f (if p then x else y) = if p then mapW f x else mapW f y := by split <;> rfl

theorem setLamports_patch (h : P k = true) (n : Nat) :
    setLamports (patch P u w) k n = mapW (patch P u) (setLamports w k n) := by
  simp only [setLamports, mapW_bind, patch_in h, patch_set h, mapW_pure]

theorem setData_patch (h : P k = true) (d : Data) :
    setData (patch P u w) k d = mapW (patch P u) (setData w k d) := by
  simp only [setData, mapW_bind, patch_in h, patch_set h, mapW_pure]

theorem writeDel_patch (h : P k = true) (d : Delegation) :
    writeDel (patch P u w) k d = mapW (patch P u) (writeDel w k d) := by
  simp only [writeDel, patch_in h, setData_patch h]

theorem unpackConfig_patch (h : P k = true) : unpackConfig (patch P u w) k = unpackConfig w k := by
  simp only [unpackConfig, patch_in h]
theorem unpackValidator_patch (h : P k = true) : unpackValidator (patch P u w) k = unpackValidator w k := by
  simp only [unpackValidator, patch_in h]
theorem unpackSolStaker_patch (h : P k = true) : unpackSolStaker (patch P u w) k = unpackSolStaker w k := by
  simp only [unpackSolStaker, patch_in h]
theorem unpackToken_patch (h : P k = true) : unpackToken (patch P u w) k = unpackToken w k := by
  simp only [unpackToken, patch_in h]
theorem unpackMint_patch (h : P k = true) : unpackMint (patch P u w) k = unpackMint w k := by
  simp only [unpackMint, patch_in h]
theorem tokenData_patch (h : P k = true) : tokenData (patch P u w) k = tokenData w k := by
  simp only [tokenData, patch_in h]
theorem mintData_patch (h : P k = true) : mintData (patch P u w) k = mintData w k := by
  simp only [mintData, patch_in h]
theorem unpackHolder_patch (h : P k = true) : unpackHolder (patch P u w) k = unpackHolder w k := by
  simp only [unpackHolder, patch_in h]
theorem unpackVote_patch (h : P k = true) : unpackVote (patch P u w) k = unpackVote w k := by
  simp only [unpackVote, patch_in h]
theorem readDel_patch (h : P k = true) : readDel (patch P u w) k = readDel w k := by
  simp only [readDel, patch_in h]
theorem checkDuna_patch (h : P k = true) (s : Key) (x : List UInt8) :
    checkDuna (patch P u w) s k x = checkDuna w s k x := by
  simp only [checkDuna, patch_in h]
theorem unstakeView_patch (h : P k = true) (c : Key) : unstakeView (patch P u w) k c = unstakeView w k c := by
  simp only [unstakeView, patch_in h, unpackValidator_patch h, unpackSolStaker_patch h]

theorem payKeeper_patch {keeper : Option Key} (h : ∀ k, keeper = some k → P k = true) (n : Nat) :
    payKeeper (patch P u w) keeper n = mapW (patch P u) (payKeeper w keeper n) := by
  cases keeper with
  | none => rfl
  | some k => simp only [payKeeper, mapW_bind, patch_in (h k rfl), setLamports_patch (h k rfl)]

theorem harvest_patch {env : Env} {ck hk ak va sk : Key} {keeper : Option Key} (h1 : P ck = true) (h2 : P hk = true)
    (h3 : P ak = true) (h4 : P sk = true) (h5 : ∀ k, keeper = some k → P k = true) :
    harvest env (patch P u w) ck hk ak va sk keeper = mapW (patch P u) (harvest env w ck hk ak va sk keeper) := by
  simp only [harvest, mapW_bind, bind_mapW, patch_in, setLamports_patch, setData_patch, writeDel_patch,
    unpackConfig_patch, unpackHolder_patch, readDel_patch, payKeeper_patch h5, h1, h2, h3, h4]

theorem syncEffective_patch {ck sk : Key} {a b : Nat} (h1 : P ck = true) (h2 : P sk = true) :
    syncEffective (patch P u w) ck sk a b = mapW (patch P u) (syncEffective w ck sk a b) := by
  simp only [syncEffective, mapW_bind, bind_mapW, setData_patch, writeDel_patch, unpackConfig_patch, readDel_patch, h1, h2]

theorem tokenTransfer_patch {ctx : Ctx} {s m d a : Key} {b : Bool} {n x : Nat} (h1 : P s = true) (h2 : P m = true)
    (h3 : P d = true) :
    tokenTransfer ctx (patch P u w) s m d a b n x = mapW (patch P u) (tokenTransfer ctx w s m d a b n x) := by
  simp only [tokenTransfer, mapW_bind, mapW_ite, mapW_pure, patch_in, patch_set, tokenData_patch,
    mintData_patch, h1, h2, h3]

theorem tokenBurn_patch {ctx : Ctx} {s m a : Key} {n x : Nat} (h1 : P s = true) (h2 : P m = true) :
    tokenBurn ctx (patch P u w) s m a n x = mapW (patch P u) (tokenBurn ctx w s m a n x) := by
  simp only [tokenBurn, mapW_bind, mapW_pure, patch_in, patch_set, tokenData_patch,
    mintData_patch, h1, h2]

theorem systemAllocate_patch {ctx : Ctx} (h : P k = true) (n : Nat) :
    systemAllocate ctx (patch P u w) k n = mapW (patch P u) (systemAllocate ctx w k n) := by
  simp only [systemAllocate, mapW_bind, mapW_pure, patch_in h, patch_set h]

theorem systemAssign_patch {ctx : Ctx} (h : P k = true) :
    systemAssign ctx (patch P u w) k = mapW (patch P u) (systemAssign ctx w k) := by
  simp only [systemAssign, mapW_bind, mapW_ite, mapW_pure, patch_in h, patch_set h]

theorem lamportSum_patch {ks : List Key} (h : ∀ k ∈ ks, P k = true) : lamportSum (patch P u w) ks = lamportSum w ks := by
  unfold lamportSum
  congr 1
  refine List.map_congr_left fun k hk => ?_
  rw [patch_in (h k (List.mem_eraseDups.1 hk))]

theorem callOut_patch {view : World} {held passed : List Key} (h : ∀ k ∈ passed, P k = true) :
    callOut (patch P u view) (patch P u w) held passed = callOut view w held passed := by
  simp only [callOut, lamportSum_patch h]

theorem known_patch {view : World} {passed : List Key} :
    (patch P u view).known (patch P u w) passed = patch P u (view.known w passed) := by
  funext k
  simp only [World.known, patch]
  split_ifs <;> rfl

theorem slashDelegation_patch {view : World} {ctx : Ctx} {ck sk mk vk va tk : Key} {n : Nat} (h1 : P sk = true) (h2 : P mk = true)
    (h3 : P vk = true) (h4 : P va = true) :
    slashDelegation ctx (patch P u view) (patch P u w) ck sk mk vk va tk n =
      mapW (patch P u) (slashDelegation ctx view w ck sk mk vk va tk n) := by
  have hc : ∀ {v : World} {held : List Key}, callOut (patch P u view) (patch P u v) held [vk, mk, va] = callOut view v held [vk, mk, va] :=
    callOut_patch (by simp [h2, h3, h4])
  simp only [slashDelegation, mapW_bind, bind_mapW, mapW_ite, mapW_pure, readDel_patch, writeDel_patch, unpackMint_patch,
    tokenBurn_patch, hc, h1, h2, h3]

theorem transferExcess_patch {env : Env} {s d : Key} (h1 : P s = true) (h2 : P d = true) :
    transferExcess env (patch P u w) s d = mapW (patch P u) (transferExcess env w s d) := by
  simp only [transferExcess, mapW_bind, bind_mapW, patch_in, setLamports_patch, h1, h2]

/-! ## The rewards program -/

theorem call_patch {F : World → RewardsCall → Res World}
    (hl : ∀ {w c w'}, F w c = .ok w' → ∀ k, k ∉ c.accounts → w' k = w k)
    (hs : ∀ w w' c, Agree c.seen w w' → SameOutcome c.seen (F w c) (F w' c))
    {c : RewardsCall} (hP : ∀ k ∈ c.seen, P k = true) :
    F (patch P u w) c = mapW (patch P u) (F w c) := by
  have h := hs (patch P u w) w c (fun k hk => patch_in (hP k hk))
  cases hx : F (patch P u w) c with
  | error e =>
    cases hy : F w c with
    | error e' => rw [hx, hy] at h; simp only [SameOutcome] at h; rw [h]; rfl
    | ok w' => rw [hx, hy] at h; exact h.elim
  | ok w1 =>
    cases hy : F w c with
    | error e' => rw [hx, hy] at h; exact h.elim
    | ok w' =>
      rw [hx, hy] at h
      rw [mapW_ok]
      congr 1
      funext k
      by_cases hk : k ∈ c.seen
      · rw [patch_in (hP k hk)]; exact h k hk
      · have hk' : k ∉ c.accounts := fun e => hk (List.mem_cons_of_mem _ e)
        rw [hl hx k hk']
        simp only [patch]
        rw [hl hy k hk']

end

section
variable {env : Env} {o : Oracle} {ctx : Ctx} {P : Key → Bool} {u w : World}

theorem initializeConfig_patch {a : InitializeConfigAccts} {x : InitializeConfigArgs} (h : ∀ k ∈ a.list, P k = true) :
    initializeConfig env ctx (patch P u w) a x = mapW (patch P u) (initializeConfig env ctx w a x) := by
  simp only [InitializeConfigAccts.list, List.forall_mem_cons] at h
  simp only [initializeConfig, mapW_bind, bind_mapW, patch_in, setData_patch, unpackMint_patch, unpackToken_patch,
    systemAssign_patch, h]

theorem initializeValidatorStake_patch {a : InitializeValidatorStakeAccts} (h : ∀ k ∈ a.list, P k = true) :
    initializeValidatorStake env ctx (patch P u w) a = mapW (patch P u) (initializeValidatorStake env ctx w a) := by
  simp only [InitializeValidatorStakeAccts.list, List.forall_mem_cons] at h
  simp only [initializeValidatorStake, mapW_bind, bind_mapW, patch_in, setData_patch, unpackConfig_patch, unpackVote_patch,
    checkDuna_patch, systemAssign_patch, systemAllocate_patch, h]

theorem initializeSolStakerStake_patch {a : InitializeSolStakerStakeAccts} (h : ∀ k ∈ a.list, P k = true) :
    initializeSolStakerStake env o ctx (patch P u w) a =
      mapW (patch P u) (initializeSolStakerStake env o ctx w a) := by
  simp only [InitializeSolStakerStakeAccts.list, List.forall_mem_cons] at h
  simp only [initializeSolStakerStake, mapW_bind, bind_mapW, patch_in, setData_patch, unpackConfig_patch,
    unpackValidator_patch, checkDuna_patch, systemAssign_patch, systemAllocate_patch, h]

theorem validatorStakeTokens_patch (L : o.Local) (S : o.Sees) {a : StakeTokensAccts} {n : Nat}
    (h : ∀ k ∈ a.list, P k = true) :
    validatorStakeTokens env o ctx (patch P u w) a n = mapW (patch P u) (validatorStakeTokens env o ctx w a n) := by
  simp only [StakeTokensAccts.list, List.forall_mem_cons] at h
  have hc : ∀ {v : World}, o.deposit (patch P u v) (a.call n) = mapW (patch P u) (o.deposit v (a.call n)) :=
    call_patch L.deposit S.deposit (by simp [RewardsCall.seen, RewardsCall.accounts, StakeTokensAccts.call, h])
  have h1 : ∀ {v z : World} {held : List Key}, callOut (patch P u v) (patch P u z) held a.toToken = callOut v z held a.toToken :=
    callOut_patch (by simp [StakeTokensAccts.toToken, h])
  have h2 : ∀ {v z : World} {held : List Key}, callOut (patch P u v) (patch P u z) held a.toRewards = callOut v z held a.toRewards :=
    callOut_patch (by simp [StakeTokensAccts.toRewards, h])
  simp only [validatorStakeTokens, known_patch, h1, h2, mapW_bind, bind_mapW, patch_in, writeDel_patch, readDel_patch, unpackConfig_patch,
    unpackValidator_patch, unpackToken_patch, unpackMint_patch, harvest_patch, syncEffective_patch, tokenTransfer_patch,
    hc, h, reduceCtorEq, false_imp_iff, implies_true]

theorem solStakerStakeTokens_patch (L : o.Local) (S : o.Sees) {a : StakeTokensAccts} {n : Nat}
    (h : ∀ k ∈ a.list, P k = true) :
    solStakerStakeTokens env o ctx (patch P u w) a n = mapW (patch P u) (solStakerStakeTokens env o ctx w a n) := by
  simp only [StakeTokensAccts.list, List.forall_mem_cons] at h
  have hc : ∀ {v : World}, o.deposit (patch P u v) (a.call n) = mapW (patch P u) (o.deposit v (a.call n)) :=
    call_patch L.deposit S.deposit (by simp [RewardsCall.seen, RewardsCall.accounts, StakeTokensAccts.call, h])
  have h1 : ∀ {v z : World} {held : List Key}, callOut (patch P u v) (patch P u z) held a.toToken = callOut v z held a.toToken :=
    callOut_patch (by simp [StakeTokensAccts.toToken, h])
  have h2 : ∀ {v z : World} {held : List Key}, callOut (patch P u v) (patch P u z) held a.toRewards = callOut v z held a.toRewards :=
    callOut_patch (by simp [StakeTokensAccts.toRewards, h])
  simp only [solStakerStakeTokens, known_patch, h1, h2, mapW_bind, bind_mapW, patch_in, writeDel_patch, readDel_patch, unpackConfig_patch,
    unpackSolStaker_patch, unpackToken_patch, unpackMint_patch, harvest_patch, syncEffective_patch, tokenTransfer_patch,
    hc, h, reduceCtorEq, false_imp_iff, implies_true]

theorem harvestHolderRewards_patch (L : o.Local) (S : o.Sees) {a : HarvestHolderRewardsAccts}
    (h : ∀ k ∈ a.list, P k = true) :
    harvestHolderRewards env o (patch P u w) a = mapW (patch P u) (harvestHolderRewards env o w a) := by
  simp only [HarvestHolderRewardsAccts.list, List.forall_mem_cons] at h
  have hc : ∀ {v : World}, o.harvestRewards (patch P u v)
      { pool := a.holderRewardsPool, poolToken := a.holderRewardsPoolTokenAccount,
        holderRewards := a.vaultHolderRewards, mint := a.mint, owner := a.vaultPda, token := a.holderRewardsPoolTokenAccount, amount := 0 } = mapW (patch P u) (o.harvestRewards v
      { pool := a.holderRewardsPool, poolToken := a.holderRewardsPoolTokenAccount,
        holderRewards := a.vaultHolderRewards, mint := a.mint, owner := a.vaultPda, token := a.holderRewardsPoolTokenAccount, amount := 0 }) :=
    call_patch L.harvestRewards S.harvestRewards (by simp [RewardsCall.seen, RewardsCall.accounts, h])
  simp only [harvestHolderRewards, mapW_bind, bind_mapW, patch_in, setData_patch, unpackConfig_patch, unpackToken_patch,
    transferExcess_patch, hc, h]

theorem harvestValidatorRewards_patch {a : HarvestValidatorRewardsAccts} (h : ∀ k ∈ a.list, P k = true) :
    harvestValidatorRewards env (patch P u w) a = mapW (patch P u) (harvestValidatorRewards env w a) := by
  simp only [HarvestValidatorRewardsAccts.list, List.forall_mem_cons] at h
  simp only [harvestValidatorRewards, mapW_bind, patch_in, unpackConfig_patch, unpackValidator_patch,
    harvest_patch, h, reduceCtorEq, false_imp_iff, implies_true]

/-- The state in the result of `joinValidator`. -/
def mapW1 (f : World → World) : Res (World × Key × Nat) → Res (World × Key × Nat)
  | .ok (w, x) => .ok (f w, x)
  | .error e => .error e

theorem mapW1_bind {α} {f : World → World} (x : Res α) (g : α → Res (World × Key × Nat)) :
    mapW1 f (x >>= g) = x >>= fun a => mapW1 f (g a) := by
  cases x <;> rfl

theorem bind_mapW1 {β} {f : World → World} (x : Res (World × Key × Nat)) (g : World × Key × Nat → Res β) :
    (mapW1 f x >>= g) = x >>= fun a => g (f a.1, a.2) := by
  rcases x with _ | ⟨_, _, _⟩ <;> rfl

theorem mapW1_ite {f : World → World} {p : Prop} [Decidable p] (x y : Res (World × Key × Nat)) :
    mapW1 f (if p then x else y) = if p then mapW1 f x else mapW1 f y := by split <;> rfl

theorem mapW1_pure {f : World → World} (w : World) (x : Key × Nat) : mapW1 f (pure (w, x)) = pure (f w, x) := rfl

theorem leaveValidator_patch {a : HarvestSolStakerRewardsAccts} {keeper : Key} {s : SolStakerStake}
    (h : ∀ k ∈ a.list keeper, P k = true) :
    leaveValidator env (patch P u w) a s = mapW (patch P u) (leaveValidator env w a s) := by
  simp only [HarvestSolStakerRewardsAccts.list, List.forall_mem_cons] at h
  simp only [leaveValidator, mapW_bind, bind_mapW, mapW_ite, mapW_pure, patch_in, setData_patch, unpackValidator_patch,
    harvest_patch, syncEffective_patch, h, reduceCtorEq, false_imp_iff, implies_true]

theorem joinValidator_patch {a : HarvestSolStakerRewardsAccts} {keeper vote : Key} {n : Nat}
    (h : ∀ k ∈ a.list keeper, P k = true) :
    joinValidator env (patch P u w) a vote n = mapW1 (patch P u) (joinValidator env w a vote n) := by
  simp only [HarvestSolStakerRewardsAccts.list, List.forall_mem_cons] at h
  simp only [joinValidator, mapW1_bind, bind_mapW, mapW1_ite, mapW1_pure, patch_in, setData_patch, unpackValidator_patch,
    harvest_patch, syncEffective_patch, h, reduceCtorEq, false_imp_iff, implies_true]

theorem harvestSolStakerRewards_patch {a : HarvestSolStakerRewardsAccts} {keeper : Key}
    (h : ∀ k ∈ a.list keeper, P k = true) (hk : ∀ k, a.keeperRecipient = some k → k = keeper) :
    harvestSolStakerRewards env o (patch P u w) a = mapW (patch P u) (harvestSolStakerRewards env o w a) := by
  have h' := h
  simp only [HarvestSolStakerRewardsAccts.list, List.forall_mem_cons] at h'
  have hk' : ∀ (b : Bool) k, (if b = true then a.keeperRecipient else none) = some k → P k = true := by
    intro b k e
    cases b
    · simp at e
    · rw [hk k (by simpa using e)]; exact h'.2.2.2.2.2.2.2.2.2.2.2.1
  have hv : ∀ {v : World} {va : Key} {b : Bool}, harvest env (patch P u v) a.config a.vaultHolderRewards
      a.solStakerStakeAuthority va a.solStakerStake (if b = true then a.keeperRecipient else none) =
      mapW (patch P u) (harvest env v a.config a.vaultHolderRewards a.solStakerStakeAuthority va a.solStakerStake
        (if b = true then a.keeperRecipient else none)) := by
    intro v va b
    exact harvest_patch (by simp [h']) (by simp [h']) (by simp [h']) (by simp [h']) (hk' b)
  have hc : ∀ {v : World} {held : List Key}, callOut (patch P u v) (patch P u v) held [a.solStakerNativeStake, a.sysvarStakeHistory] =
      callOut v v held [a.solStakerNativeStake, a.sysvarStakeHistory] := callOut_patch (by simp [h'])
  simp only [harvestSolStakerRewards, hc, mapW_bind, bind_mapW, bind_mapW1, mapW_ite, mapW_pure, patch_in, setData_patch,
    unpackConfig_patch, unpackSolStaker_patch, hv, syncEffective_patch, leaveValidator_patch h,
    joinValidator_patch h, h']

theorem slashValidatorStake_patch {a : SlashAccts} {n : Nat} (h : ∀ k ∈ a.listValidator, P k = true) :
    slashValidatorStake env ctx (patch P u w) a n = mapW (patch P u) (slashValidatorStake env ctx w a n) := by
  simp only [SlashAccts.listValidator, List.forall_mem_cons] at h
  simp only [slashValidatorStake, mapW_bind, bind_mapW, patch_in, unpackConfig_patch, unpackValidator_patch,
    unpackToken_patch, harvest_patch, slashDelegation_patch, syncEffective_patch, h, reduceCtorEq, false_imp_iff,
    implies_true]

theorem slashSolStakerStake_patch {a : SlashAccts} {n : Nat} (h : ∀ k ∈ a.listSolStaker, P k = true) :
    slashSolStakerStake env ctx (patch P u w) a n = mapW (patch P u) (slashSolStakerStake env ctx w a n) := by
  simp only [SlashAccts.listSolStaker, List.forall_mem_cons] at h
  simp only [slashSolStakerStake, mapW_bind, bind_mapW, patch_in, unpackConfig_patch, unpackSolStaker_patch,
    unpackToken_patch, harvest_patch, slashDelegation_patch, syncEffective_patch, h, reduceCtorEq, false_imp_iff,
    implies_true]

theorem setAuthority_patch {a : SetAuthorityAccts} {t : AuthorityType} (h : ∀ k ∈ a.list, P k = true) :
    setAuthority ctx (patch P u w) a t = mapW (patch P u) (setAuthority ctx w a t) := by
  simp only [SetAuthorityAccts.list, List.forall_mem_cons] at h
  cases t <;> simp only [setAuthority, mapW_bind, patch_in, setData_patch, unpackConfig_patch, h]

theorem updateConfig_patch {a : UpdateConfigAccts} {f : ConfigField} (h : ∀ k ∈ a.list, P k = true) :
    updateConfig ctx (patch P u w) a f = mapW (patch P u) (updateConfig ctx w a f) := by
  simp only [UpdateConfigAccts.list, List.forall_mem_cons] at h
  cases f <;> simp only [updateConfig, mapW_bind, patch_in, setData_patch, unpackConfig_patch, h]

theorem unstakeTokens_patch (L : o.Local) (S : o.Sees) {a : UnstakeTokensAccts} {n : Nat}
    (h : ∀ k ∈ a.list, P k = true) :
    unstakeTokens env o ctx (patch P u w) a n = mapW (patch P u) (unstakeTokens env o ctx w a n) := by
  simp only [UnstakeTokensAccts.list, List.forall_mem_cons] at h
  have hc : ∀ {v : World}, o.withdraw (patch P u v) (a.call n) = mapW (patch P u) (o.withdraw v (a.call n)) :=
    call_patch L.withdraw S.withdraw (by simp [RewardsCall.seen, RewardsCall.accounts, UnstakeTokensAccts.call, h])
  have h1 : ∀ {v z : World} {held : List Key}, callOut (patch P u v) (patch P u z) held a.toToken = callOut v z held a.toToken :=
    callOut_patch (by simp [UnstakeTokensAccts.toToken, h])
  have h2 : ∀ {v z : World} {held : List Key}, callOut (patch P u v) (patch P u z) held a.toRewards = callOut v z held a.toRewards :=
    callOut_patch (by simp [UnstakeTokensAccts.toRewards, h])
  simp only [unstakeTokens, known_patch, h1, h2, mapW_bind, bind_mapW, patch_in, writeDel_patch, readDel_patch, unpackConfig_patch,
    unstakeView_patch, unpackToken_patch, unpackMint_patch, harvest_patch, syncEffective_patch, tokenTransfer_patch,
    hc, h, reduceCtorEq, false_imp_iff, implies_true]

theorem solStakerMoveTokens_patch {a : SolStakerMoveTokensAccts} {n : Nat} (h : ∀ k ∈ a.list, P k = true) :
    solStakerMoveTokens env ctx (patch P u w) a n = mapW (patch P u) (solStakerMoveTokens env ctx w a n) := by
  simp only [SolStakerMoveTokensAccts.list, List.forall_mem_cons] at h
  simp only [solStakerMoveTokens, mapW_bind, bind_mapW, patch_in, writeDel_patch, readDel_patch, unpackConfig_patch,
    unpackSolStaker_patch, harvest_patch, syncEffective_patch, h, reduceCtorEq, false_imp_iff, implies_true]

theorem validatorOverrideStakedLamports_patch {a : ValidatorOverrideStakedLamportsAccts} {n : Nat}
    (h : ∀ k ∈ a.list, P k = true) :
    validatorOverrideStakedLamports env ctx (patch P u w) a n =
      mapW (patch P u) (validatorOverrideStakedLamports env ctx w a n) := by
  simp only [ValidatorOverrideStakedLamportsAccts.list, List.forall_mem_cons] at h
  simp only [validatorOverrideStakedLamports, mapW_bind, bind_mapW, patch_in, setData_patch, unpackConfig_patch,
    unpackValidator_patch, harvest_patch, syncEffective_patch, h, reduceCtorEq, false_imp_iff, implies_true]

theorem validatorSyncAuthority_patch {a : ValidatorSyncAuthorityAccts} (h : ∀ k ∈ a.list, P k = true) :
    validatorSyncAuthority (patch P u w) a = mapW (patch P u) (validatorSyncAuthority w a) := by
  simp only [ValidatorSyncAuthorityAccts.list, List.forall_mem_cons] at h
  simp only [validatorSyncAuthority, mapW_bind, patch_in, setData_patch, unpackConfig_patch, unpackVote_patch, h]
  cases (w a.validatorStake).data <;> simp only [mapW_bind, mapW_error]

theorem dispatch_patch (L : o.Local) (S : o.Sees) {i : StakeInstruction} (h : ∀ k ∈ ctx.accts, P k = true) :
    dispatch env o ctx (patch P u w) i = mapW (patch P u) (dispatch env o ctx w i) := by
  simp only [dispatch]
  split
  all_goals first
    | (rename_i e; rw [e] at h; simp only [List.forall_mem_cons] at h)
    | rfl
  · exact initializeConfig_patch (by simp [InitializeConfigAccts.list, h])
  · exact initializeValidatorStake_patch (by simp [InitializeValidatorStakeAccts.list, h])
  · exact validatorStakeTokens_patch L S (by simp [StakeTokensAccts.list, h])
  · exact harvestHolderRewards_patch L S (by simp [HarvestHolderRewardsAccts.list, h])
  · exact harvestValidatorRewards_patch (by simp [HarvestValidatorRewardsAccts.list, h])
  · exact slashValidatorStake_patch (by simp [SlashAccts.listValidator, h])
  · exact setAuthority_patch (by simp [SetAuthorityAccts.list, h])
  · exact updateConfig_patch (by simp [UpdateConfigAccts.list, h])
  · exact initializeSolStakerStake_patch (by simp [InitializeSolStakerStakeAccts.list, h])
  · exact solStakerStakeTokens_patch L S (by simp [StakeTokensAccts.list, h])
  · rename_i k11 _
    exact harvestSolStakerRewards_patch (keeper := k11) (by simp [HarvestSolStakerRewardsAccts.list, h])
      (by intro k e; simp only at e; split at e <;> simp_all)
  · exact unstakeTokens_patch L S (by simp [UnstakeTokensAccts.list, h])
  · exact slashSolStakerStake_patch (by simp [SlashAccts.listSolStaker, h])
  · exact solStakerMoveTokens_patch (by simp [SolStakerMoveTokensAccts.list, h])
  · exact validatorOverrideStakedLamports_patch (by simp [ValidatorOverrideStakedLamportsAccts.list, h])
  · exact validatorSyncAuthority_patch (by simp [ValidatorSyncAuthorityAccts.list, h])

theorem exec_patch (L : o.Local) (S : o.Sees) {ix : Ix} (h : ∀ k ∈ ix.ctx.accts, P k = true) :
    exec env o (patch P u w) ix = mapW (patch P u) (exec env o w ix) := by
  have e : ∀ v : World, (∀ k ∈ ix.ctx.accts, ix.ctx.writable k = true ∨ patch P u v k = patch P u w k) ↔
      (∀ k ∈ ix.ctx.accts, ix.ctx.writable k = true ∨ v k = w k) :=
    fun v => forall_congr' fun k => forall_congr' fun hk => by rw [patch_in (h k hk), patch_in (h k hk)]
  simp only [exec, processInstruction, mapW_bind, bind_mapW, dispatch_patch L S h, mapW_pure, bind_assoc, e,
    lamportSum_patch h]

/-- An execution on two states that agree on its accounts. -/
theorem exec_agree (L : o.Local) (S : o.Sees) {ix : Ix} {w1 w2 : World} (h : Agree ix.ctx.accts w1 w2) :
    SameOutcome ix.ctx.accts (exec env o w1 ix) (exec env o w2 ix) := by
  have hp : patch (fun k => decide (k ∈ ix.ctx.accts)) w2 w1 = w2 := by
    funext k
    by_cases hk : k ∈ ix.ctx.accts
    · simp [patch, hk, h k hk]
    · simp [patch, hk]
  have e := exec_patch (env := env) (u := w2) (w := w1) L S (P := fun k => decide (k ∈ ix.ctx.accts)) (ix := ix)
    (fun k hk => by simpa using hk)
  rw [hp] at e
  rw [e]
  cases exec env o w1 ix with
  | error e => rfl
  | ok w' => exact fun k hk => (patch_in (by simpa using hk)).symm

/-- What an instruction leaves alone: accounts it does not name, and accounts it does not name as writable. -/
theorem exec_keeps (L : o.Local) (S : o.Sees) {ix : Ix} {w' : World} (h : exec env o w ix = .ok w') {k : Key}
    (hk : k ∈ ix.ctx.accts → ix.ctx.writable k = false) : w' k = w k := by
  by_cases hm : k ∈ ix.ctx.accts
  · obtain ⟨w1, _, h⟩ := bind_ok.1 h
    obtain ⟨_, h1, h⟩ := bind_ok.1 h
    obtain ⟨_, _, h⟩ := bind_ok.1 h
    rw [require_ok] at h1
    cases pure_ok.1 h
    rcases h1 k hm with h1 | h1
    · rw [hk hm] at h1; cases h1
    · exact h1
  · have hp : ∀ v, patch (fun k => decide (k ∈ ix.ctx.accts)) v v = v := fun v => by funext k; simp [patch]
    have e := exec_patch (env := env) (u := w) (w := w) L S (P := fun k => decide (k ∈ ix.ctx.accts)) (ix := ix)
      (fun k hk => by simpa using hk)
    rw [hp, h, mapW_ok] at e
    have e := congrFun (Except.ok.inj e) k
    rw [e]
    simp [patch, hm]

end

end Verif
