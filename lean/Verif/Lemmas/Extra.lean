import Verif.SpecExtra
import Verif.Lemmas.Local
/-!
# Accounts past the ones an instruction takes
-/

namespace Verif

section
variable {env : Env} {o : Oracle} {w : World} {c c' : Ctx}

/-- A handler sees of the request only its accounts in order and their rights. -/
theorem dispatch_congr {i : StakeInstruction} {ks rest rest' : List Key} (hn : ks.length = accountCount i)
    (e : c.accts = ks ++ rest) (e' : c'.accts = ks ++ rest') (f : SameRights ks c c') :
    dispatch env o c w i = dispatch env o c' w i := by
  cases i with
  | initializeConfig s c t b y h =>
    match ks, hn with
    | [k0, k1, k2, k3, k4, k5, k6], _ =>
      simp only [SameRights, List.forall_mem_cons] at f
      simp only [List.cons_append, List.nil_append] at e e'
      simp only [dispatch, e, e']
      simp only [initializeConfig, systemAssign, f]
  | initializeValidatorStake =>
    match ks, hn with
    | [k0, k1, k2, k3, k4], _ =>
      simp only [SameRights, List.forall_mem_cons] at f
      simp only [List.cons_append, List.nil_append] at e e'
      simp only [dispatch, e, e']
      simp only [initializeValidatorStake, systemAllocate, systemAssign, f]
  | validatorStakeTokens n =>
    match ks, hn with
    | [k0, k1, k2, k3, k4, k5, k6, k7, k8, k9, k10, k11, k12], _ =>
      simp only [SameRights, List.forall_mem_cons] at f
      simp only [List.cons_append, List.nil_append] at e e'
      simp only [dispatch, e, e']
      simp only [validatorStakeTokens, tokenTransfer, f]
  | harvestHolderRewards =>
    match ks, hn with
    | [k0, k1, k2, k3, k4, k5, k6, k7, k8, k9], _ =>
      simp only [SameRights, List.forall_mem_cons] at f
      simp only [List.cons_append, List.nil_append] at e e'
      simp only [dispatch, e, e']
  | harvestValidatorRewards =>
    match ks, hn with
    | [k0, k1, k2, k3], _ =>
      simp only [SameRights, List.forall_mem_cons] at f
      simp only [List.cons_append, List.nil_append] at e e'
      simp only [dispatch, e, e']
  | slashValidatorStake n =>
    match ks, hn with
    | [k0, k1, k2, k3, k4, k5, k6, k7, k8], _ =>
      simp only [SameRights, List.forall_mem_cons] at f
      simp only [List.cons_append, List.nil_append] at e e'
      simp only [dispatch, e, e']
      simp only [slashValidatorStake, slashDelegation, tokenBurn, f]
  | setAuthority t =>
    match ks, hn with
    | [k0, k1, k2], _ =>
      simp only [SameRights, List.forall_mem_cons] at f
      simp only [List.cons_append, List.nil_append] at e e'
      simp only [dispatch, e, e']
      cases t <;> simp only [setAuthority, f]
  | updateConfig f =>
    match ks, hn with
    | [k0, k1], _ =>
      simp only [SameRights, List.forall_mem_cons] at f
      simp only [List.cons_append, List.nil_append] at e e'
      simp only [dispatch, e, e']
      simp only [updateConfig, f]
  | initializeSolStakerStake =>
    match ks, hn with
    | [k0, k1, k2, k3, k4, k5, k6, k7, k8], _ =>
      simp only [SameRights, List.forall_mem_cons] at f
      simp only [List.cons_append, List.nil_append] at e e'
      simp only [dispatch, e, e']
      simp only [initializeSolStakerStake, systemAllocate, systemAssign, f]
  | solStakerStakeTokens n =>
    match ks, hn with
    | [k0, k1, k2, k3, k4, k5, k6, k7, k8, k9, k10, k11, k12], _ =>
      simp only [SameRights, List.forall_mem_cons] at f
      simp only [List.cons_append, List.nil_append] at e e'
      simp only [dispatch, e, e']
      simp only [solStakerStakeTokens, tokenTransfer, f]
  | harvestSolStakerRewards =>
    match ks, hn with
    | [k0, k1, k2, k3, k4, k5, k6, k7, k8, k9, k10, k11], _ =>
      simp only [SameRights, List.forall_mem_cons] at f
      simp only [List.cons_append, List.nil_append] at e e'
      simp only [dispatch, e, e']
  | unstakeTokens n =>
    match ks, hn with
    | [k0, k1, k2, k3, k4, k5, k6, k7, k8, k9, k10, k11], _ =>
      simp only [SameRights, List.forall_mem_cons] at f
      simp only [List.cons_append, List.nil_append] at e e'
      simp only [dispatch, e, e']
      simp only [unstakeTokens, tokenTransfer, f]
  | slashSolStakerStake n =>
    match ks, hn with
    | [k0, k1, k2, k3, k4, k5, k6, k7, k8], _ =>
      simp only [SameRights, List.forall_mem_cons] at f
      simp only [List.cons_append, List.nil_append] at e e'
      simp only [dispatch, e, e']
      simp only [slashSolStakerStake, slashDelegation, tokenBurn, f]
  | solStakerMoveTokens n =>
    match ks, hn with
    | [k0, k1, k2, k3, k4], _ =>
      simp only [SameRights, List.forall_mem_cons] at f
      simp only [List.cons_append, List.nil_append] at e e'
      simp only [dispatch, e, e']
      simp only [solStakerMoveTokens, f]
  | validatorOverrideStakedLamports n =>
    match ks, hn with
    | [k0, k1, k2, k3, k4], _ =>
      simp only [SameRights, List.forall_mem_cons] at f
      simp only [List.cons_append, List.nil_append] at e e'
      simp only [dispatch, e, e']
      simp only [validatorOverrideStakedLamports, f]
  | validatorSyncAuthority =>
    match ks, hn with
    | [k0, k1, k2], _ =>
      simp only [SameRights, List.forall_mem_cons] at f
      simp only [List.cons_append, List.nil_append] at e e'
      simp only [dispatch, e, e']

/-- Too few accounts. -/
theorem dispatch_few {i : StakeInstruction} (h : c.accts.length < accountCount i) :
    dispatch env o c w i = .error .notEnoughAccountKeys := by
  unfold dispatch
  split
  all_goals first
    | rfl
    | (rename_i e; rw [e] at h; simp only [accountCount, List.length_cons] at h; omega)

theorem eraseDups_sum {w w' : World} {ks rest : List Key} (h : ∀ k, k ∉ ks → w' k = w k) :
    lamportSum w' (ks ++ rest) = lamportSum w (ks ++ rest) ↔ lamportSum w' ks = lamportSum w ks := by
  have e : ((rest.removeAll ks).eraseDups.map fun k => (w' k).lamports) =
      (rest.removeAll ks).eraseDups.map fun k => (w k).lamports := by
    refine List.map_congr_left fun k hk => ?_
    simp only [List.mem_eraseDups, List.removeAll, List.mem_filter] at hk
    rw [h k (by simpa using hk.2)]
  unfold lamportSum
  rw [List.eraseDups_append, List.map_append, List.map_append, List.sum_append, List.sum_append, e]
  omega

/-- A handler changes only the accounts the instruction takes. -/
theorem dispatch_keeps (L : o.Local) (S : o.Sees) {i : StakeInstruction} {ks rest : List Key}
    (hn : ks.length = accountCount i) (e : c.accts = ks ++ rest) {w' : World} (h : dispatch env o c w i = .ok w') {k : Key}
    (hk : k ∉ ks) : w' k = w k := by
  rw [dispatch_congr (c' := { c with accts := ks }) (rest' := []) hn e (List.append_nil ks).symm fun _ _ => ⟨rfl, rfl⟩] at h
  have hp : ∀ v : World, patch (fun k => decide (k ∈ ks)) v v = v := fun v => by funext k; simp [patch]
  have e' := dispatch_patch (env := env) (o := o) (ctx := { c with accts := ks }) (u := w) (w := w) (i := i) L S
    (P := fun k => decide (k ∈ ks)) (fun k hk => by simpa using hk)
  rw [hp, h, mapW_ok] at e'
  rw [congrFun (Except.ok.inj e') k]
  simp [patch, hk]

/-- Two requests that agree on what the instruction takes. -/
theorem exec_congr (L : o.Local) (S : o.Sees) {ix ix' : Ix} {i : StakeInstruction} {ks rest rest' : List Key}
    (hi : ix.decoded = some i) (hd : ix'.data = ix.data) (hn : ks.length = accountCount i) (e : ix.ctx.accts = ks ++ rest)
    (e' : ix'.ctx.accts = ks ++ rest') (f : SameRights ks ix.ctx ix'.ctx) : exec env o w ix = exec env o w ix' := by
  have hu := decoded_eq.1 hi
  have hc := dispatch_congr (env := env) (o := o) (w := w) hn e e' f
  have p : processInstruction env o w ix = dispatch env o ix.ctx w i := by simp only [processInstruction, hu]; rfl
  have p' : processInstruction env o w ix' = dispatch env o ix.ctx w i := by
    simp only [processInstruction, hd, hu, hc]; rfl
  simp only [exec, p, p']
  cases h : dispatch env o ix.ctx w i with
  | error x => rfl
  | ok w1 =>
    have K : ∀ k, k ∉ ks → w1 k = w k := fun k hk => dispatch_keeps L S hn e h hk
    have h1 : (∀ k ∈ ix.ctx.accts, ix.ctx.writable k = true ∨ w1 k = w k) ↔
        (∀ k ∈ ix'.ctx.accts, ix'.ctx.writable k = true ∨ w1 k = w k) := by
      rw [e, e']
      constructor <;>
      · intro H k _
        by_cases hk : k ∈ ks
        · have := H k (List.mem_append_left _ hk)
          rwa [(f k hk).2] at *
        · exact Or.inr (K k hk)
    have h2 : lamportSum w1 ix.ctx.accts = lamportSum w ix.ctx.accts ↔
        lamportSum w1 ix'.ctx.accts = lamportSum w ix'.ctx.accts := by
      rw [e, e', eraseDups_sum K, eraseDups_sum K]
    simp only [bind, Except.bind]
    simp only [h1, h2]

end

end Verif
