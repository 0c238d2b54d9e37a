import Verif.Lemmas.Dispatch
/-!
# Concrete histories

A concrete environment, a reference rewards program, a genesis world and a history that runs every instruction.
The property files use it to show that their hypotheses are met.
-/

namespace Verif.Witness

open Verif

/-! ## Environment -/

/-- A concrete environment: bump 255 everywhere, the Solana rent formula. -/
def env : Env where
  vaultBump _ := 255
  offCurve _ _ := true
  rentMin n := (128 + n) * 6960
  keyOfBytes b := .raw (leNat b)
  keyPrefix _ := .default
  vaultBump_lt _ := by omega
  offCurve_bump _ := rfl
  rentMin_pos _ := by omega

/-! ## A reference rewards program

Deposit and Withdraw move tokens between the given token account and the pool token account and keep `deposited`;
HarvestRewards pays `pay` lamports from the pool account to the owner and raises `lastAcc` by `pay * 1e18 / deposited`. -/

/-- The accounts a deposit or withdrawal works on are in order. -/
def callOk (w : World) (c : RewardsCall) : Prop :=
  (w c.token).owner = tokenId ∧ (w c.poolToken).owner = tokenId ∧ (w c.holderRewards).owner = rewardsId ∧
  c.token.ofProgram = false ∧ c.poolToken.ofProgram = false ∧ c.holderRewards.ofProgram = false ∧
  c.token ≠ c.poolToken

instance (w : World) (c : RewardsCall) : Decidable (callOk w c) := by unfold callOk; infer_instance

/-- Deposit of the reference rewards program. -/
def deposit (w : World) (c : RewardsCall) : Res World :=
  match (w c.token).data, (w c.poolToken).data, (w c.holderRewards).data with
  | .token t, .token p, .holder h =>
    if callOk w c ∧ c.amount ≤ t.amount ∧ p.amount + c.amount < U64 ∧ h.deposited + c.amount < U64 then
      .ok (((w.set c.token { w c.token with data := .token { t with amount := t.amount - c.amount } }).set
        c.poolToken { w c.poolToken with data := .token { p with amount := p.amount + c.amount } }).set
        c.holderRewards { w c.holderRewards with data := .holder { h with deposited := h.deposited + c.amount } })
    else .error .cpi
  | _, _, _ => .error .cpi

/-- Withdraw of the reference rewards program. -/
def withdraw (w : World) (c : RewardsCall) : Res World :=
  match (w c.token).data, (w c.poolToken).data, (w c.holderRewards).data with
  | .token t, .token p, .holder h =>
    if callOk w c ∧ c.amount ≤ p.amount ∧ t.amount + c.amount < U64 ∧ c.amount ≤ h.deposited then
      .ok (((w.set c.token { w c.token with data := .token { t with amount := t.amount + c.amount } }).set
        c.poolToken { w c.poolToken with data := .token { p with amount := p.amount - c.amount } }).set
        c.holderRewards { w c.holderRewards with data := .holder { h with deposited := h.deposited - c.amount } })
    else .error .cpi
  | _, _, _ => .error .cpi

/-- HarvestRewards of the reference rewards program, paying `pay` lamports. -/
def harvestRewards (pay : Nat) (w : World) (c : RewardsCall) : Res World :=
  match (w c.holderRewards).data with
  | .holder h =>
    if (w c.pool).owner = rewardsId ∧ (w c.holderRewards).owner = rewardsId ∧ c.pool.ofProgram = false ∧
        c.holderRewards.ofProgram = false ∧ c.pool ≠ c.owner ∧ c.pool ≠ c.holderRewards ∧
        c.owner ≠ c.holderRewards ∧ pay ≤ (w c.pool).lamports ∧ (w c.owner).lamports + pay < U64 ∧
        (w c.owner).owner ≠ rewardsId ∧ h.lastAcc < U128 then
      .ok (((w.set c.pool { w c.pool with lamports := (w c.pool).lamports - pay }).set
        c.owner { w c.owner with lamports := (w c.owner).lamports + pay }).set
        c.holderRewards { w c.holderRewards with
          data := .holder { h with lastAcc := (h.lastAcc + pay * scale / h.deposited) % U128 } })
    else .error .cpi
  | _ => .error .cpi

/-- An oracle made from the reference rewards program. -/
def oracle (time : Int) (view : Key → Res StakeView) (pay : Nat) : Oracle where
  unixTimestamp := time
  view := view
  harvestRewards := harvestRewards pay
  deposit := deposit
  withdraw := withdraw

/-- Changes that keep owners, touch data only outside the program's reach and take lamports from nobody it protects. -/
theorem extStep_of {w w' : World} (wf : w'.WF) (owner : ∀ k, (w' k).owner = (w k).owner)
    (h : ∀ k, (w k).owner = progId ∨ k.ofProgram = true →
      (w' k).data = (w k).data ∧ (w k).lamports ≤ (w' k).lamports) : ExtStep w w' := by
  refine ⟨wf, fun k => ⟨fun ho => Or.inl ⟨by rw [owner, ho], h k (Or.inl ho)⟩, fun ho => ⟨fun hk => ?_, fun _ ho' => ?_⟩⟩⟩
  · exact ⟨owner k, h k (Or.inr hk)⟩
  · rw [owner] at ho'; exact absurd ho' ho

theorem wf_of {w w' : World} (wf : w.WF) (owner : ∀ k, (w' k).owner = (w k).owner)
    (h : ∀ k, ((w' k).lamports = (w k).lamports ∨ (w' k).lamports < U64) ∧
      ((w' k).data = (w k).data ∨ (w' k).data.WF)) : w'.WF := by
  refine ⟨fun k => ⟨?_, ?_⟩, by rw [owner]; exact wf.2⟩
  · rcases (h k).1 with e | e
    · rw [e]; exact (wf.1 k).1
    · exact e
  · rcases (h k).2 with e | e
    · rw [e]; exact (wf.1 k).2
    · exact e

/-- What the three token movements of the reference program have in common. -/
theorem three_ext {w w' : World} {a b c : Key} {ta tb hc : Data} (wf : w.WF)
    (h : w' = ((w.set a { w a with data := ta }).set b { w b with data := tb }).set c { w c with data := hc })
    (ha : (w a).owner ≠ progId) (hb : (w b).owner ≠ progId) (hcc : (w c).owner ≠ progId)
    (ka : a.ofProgram = false) (kb : b.ofProgram = false) (kc : c.ofProgram = false)
    (wa : ta.WF) (wb : tb.WF) (wc : hc.WF) : ExtStep w w' := by
  have ho : ∀ k, (w' k).owner = (w k).owner := by
    intro k; rw [h]; simp only [World.set_apply]; split_ifs <;> simp_all
  refine extStep_of (wf_of wf ho fun k => ?_) ho fun k hk => ?_
  · rw [h]; simp only [World.set_apply]
    split_ifs with h1 h2 h3
    · subst h1; exact ⟨Or.inl rfl, Or.inr wc⟩
    · subst h2; exact ⟨Or.inl rfl, Or.inr wb⟩
    · subst h3; exact ⟨Or.inl rfl, Or.inr wa⟩
    · exact ⟨Or.inl rfl, Or.inl rfl⟩
  · have h1 : k ≠ a := by rintro rfl; simp_all
    have h2 : k ≠ b := by rintro rfl; simp_all
    have h3 : k ≠ c := by rintro rfl; simp_all
    rw [h]; simp [World.set_apply, h1, h2, h3]

theorem deposit_ext {w w' : World} {c : RewardsCall} (wf : w.WF) (h : deposit w c = .ok w') : ExtStep w w' := by
  unfold deposit at h
  split at h
  · rename_i t p hh ht hp hd
    split_ifs at h with hc
    · obtain ⟨⟨h1, h2, h3, h4, h5, h6, h7⟩, h8, h9, h10⟩ := hc
      have wt := (wf.1 c.token).2; rw [ht] at wt
      have wp := (wf.1 c.poolToken).2; rw [hp] at wp
      have wh := (wf.1 c.holderRewards).2; rw [hd] at wh
      simp only [Data.WF] at wt wp wh
      refine three_ext wf (Except.ok.inj h).symm (by rw [h1]; decide) (by rw [h2]; decide) (by rw [h3]; decide) h4 h5 h6
        ?_ ?_ ?_ <;> simp only [Data.WF] <;> omega
  · simp at h

theorem withdraw_ext {w w' : World} {c : RewardsCall} (wf : w.WF) (h : withdraw w c = .ok w') : ExtStep w w' := by
  unfold withdraw at h
  split at h
  · rename_i t p hh ht hp hd
    split_ifs at h with hc
    · obtain ⟨⟨h1, h2, h3, h4, h5, h6, h7⟩, h8, h9, h10⟩ := hc
      have wt := (wf.1 c.token).2; rw [ht] at wt
      have wp := (wf.1 c.poolToken).2; rw [hp] at wp
      have wh := (wf.1 c.holderRewards).2; rw [hd] at wh
      simp only [Data.WF] at wt wp wh
      refine three_ext wf (Except.ok.inj h).symm (by rw [h1]; decide) (by rw [h2]; decide) (by rw [h3]; decide) h4 h5 h6
        ?_ ?_ ?_ <;> simp only [Data.WF] <;> omega
  · simp at h

theorem harvestRewards_ext {pay : Nat} {w w' : World} {c : RewardsCall} (wf : w.WF)
    (h : harvestRewards pay w c = .ok w') : ExtStep w w' := by
  unfold harvestRewards at h
  split at h
  · rename_i hh hd
    split_ifs at h with hc
    · obtain ⟨h1, h2, h3, h4, h5, h6, h7, h8, h9, h10, h11⟩ := hc
      have e := (Except.ok.inj h).symm
      have wh := (wf.1 c.holderRewards).2; rw [hd] at wh
      simp only [Data.WF] at wh
      have ho : ∀ k, (w' k).owner = (w k).owner := by
        intro k; rw [e]; simp only [World.set_apply]; split_ifs <;> simp_all
      refine extStep_of (wf_of wf ho fun k => ?_) ho fun k hk => ?_
      · have := (wf.1 c.pool).1
        rw [e]; simp only [World.set_apply]
        split_ifs with h1 h2 h3
        · subst h1; exact ⟨Or.inl rfl, Or.inr ⟨Nat.mod_lt _ (by decide), wh.2⟩⟩
        · subst h2; exact ⟨Or.inr h9, Or.inl rfl⟩
        · subst h3; exact ⟨Or.inr (by simp only; omega), Or.inl rfl⟩
        · exact ⟨Or.inl rfl, Or.inl rfl⟩
      · have k1 : k ≠ c.pool := by rintro rfl; simp_all
        have k2 : k ≠ c.holderRewards := by rintro rfl; simp_all
        rw [e]; simp only [World.set_apply, k1, k2, if_false]
        split_ifs with k3
        · subst k3; exact ⟨rfl, by simp⟩
        · exact ⟨rfl, le_rfl⟩
  · simp at h

theorem oracle_ok {time : Int} {view : Key → Res StakeView} {pay : Nat}
    (hv : ∀ {k v}, view k = .ok v → v.effective < U64) : (oracle time view pay).Ok where
  harvestRewards wf h := harvestRewards_ext wf h
  deposit wf h := deposit_ext wf h
  withdraw wf h := withdraw_ext wf h
  view h := hv h

/-! ## Genesis -/

abbrev cfg : Key := .raw 100
abbrev mint : Key := .raw 101
abbrev vault : Key := .raw 102
abbrev vote1 : Key := .raw 110
abbrev vote2 : Key := .raw 111
abbrev auth1 : Key := .raw 120
abbrev auth2 : Key := .raw 121
abbrev native1 : Key := .raw 130
abbrev native2 : Key := .raw 131
abbrev staker : Key := .raw 140
abbrev configAuth : Key := .raw 150
abbrev slashAuth : Key := .raw 151
abbrev keeper : Key := .raw 160
abbrev source : Key := .raw 170
abbrev dest : Key := .raw 171
abbrev holderOwner : Key := .raw 172
abbrev pool : Key := .raw 180
abbrev poolToken : Key := .raw 181
abbrev hash : List UInt8 := List.replicate 32 7
abbrev vaultAuth : Key := .vaultPda cfg 255
abbrev holder : Key := .holderRewardsPda vaultAuth
abbrev val1 : Key := .validatorPda vote1 cfg
abbrev val2 : Key := .validatorPda vote2 cfg
abbrev sol1 : Key := .solStakerPda native1 cfg
abbrev sol2 : Key := .solStakerPda native2 cfg

/-- A token account with the given owner and amount. -/
def tokens (owner : Key) (amount : Nat) : Data :=
  .token { mint := mint, owner := owner, amount := amount, delegate := none, delegatedAmount := 0,
           closeAuthority := none, frozen := false }

/-- The accounts that exist at the start. -/
def table : List (Key × Account) :=
  [ (cfg, ⟨5000000, progId, .bytes (List.replicate 192 0)⟩),
    (mint, ⟨2000000, tokenId, .mint { supply := 1000000000, decimals := 9 }⟩),
    (vault, ⟨3000000, tokenId, tokens vaultAuth 0⟩),
    (vaultAuth, ⟨890880, systemId, .bytes []⟩),
    (holder, ⟨2000000, rewardsId, .holder { lastAcc := 0, deposited := 0 }⟩),
    (vote1, ⟨30000000, voteId, .vote auth1⟩),
    (vote2, ⟨30000000, voteId, .vote auth2⟩),
    (auth1, ⟨1000000, systemId, .bytes []⟩),
    (auth2, ⟨1000000, systemId, .bytes []⟩),
    (staker, ⟨1000000, systemId, .bytes []⟩),
    (keeper, ⟨1000000, systemId, .bytes []⟩),
    (source, ⟨3000000, tokenId, tokens holderOwner 1000000⟩),
    (dest, ⟨3000000, tokenId, tokens holderOwner 0⟩),
    (pool, ⟨1000000000, rewardsId, .bytes [1]⟩),
    (poolToken, ⟨3000000, tokenId, tokens pool 0⟩),
    (.dunaPda auth1 hash, ⟨1000000, .raw 7, .bytes [1]⟩),
    (.dunaPda auth2 hash, ⟨1000000, .raw 7, .bytes [1]⟩),
    (.dunaPda staker hash, ⟨1000000, .raw 7, .bytes [1]⟩),
    (val1, ⟨3000000, systemId, .bytes []⟩),
    (val2, ⟨3000000, systemId, .bytes []⟩),
    (sol1, ⟨3000000, systemId, .bytes []⟩),
    (sol2, ⟨3000000, systemId, .bytes []⟩) ]

/-- An address with nothing on it. -/
def nothing : Account := ⟨0, systemId, .bytes []⟩

/-- Look an address up in a list of accounts. -/
def look : List (Key × Account) → World
  | [], _ => nothing
  | (k, a) :: t, k' => if k' = k then a else look t k'

theorem look_all {P : Key → Account → Prop} {t : List (Key × Account)} (h : ∀ p ∈ t, P p.1 p.2) (h0 : ∀ k, P k nothing)
    (k : Key) : P k (look t k) := by
  induction t with
  | nil => exact h0 k
  | cons p t ih =>
    unfold look
    split_ifs with e
    · subst e; exact h p (by simp)
    · exact ih fun q hq => h q (by simp [hq])

/-- The world before the program has been used. -/
def w0 : World := look table

theorem genesis : Genesis w0 where
  wf := by
    refine ⟨fun k => look_all (P := fun _ a => a.lamports < U64 ∧ a.data.WF) ?_ ?_ k, by decide⟩
    · simp [table, Data.WF, tokens, U64]
    · simp [nothing, Data.WF]
  owned := fun k => look_all (P := fun _ a => a.owner = progId → a.data.zeroed)
    (by simp only [table, List.forall_mem_cons]; simp [Data.zeroed, -List.reduceReplicate]) (by simp [nothing]) k
  derived := fun k => look_all (P := fun k a => k.ofProgram = true → a.owner = systemId ∧ a.data = .bytes [])
    (by simp [table, Key.ofProgram]) (by simp [nothing]) k

/-! ## Instructions -/

/-- An instruction with the given accounts and signers, all accounts writable. -/
def ix (i : StakeInstruction) (accts signers : List Key) : Ix where
  data := i.pack
  ctx := { accts := accts, signer := fun k => signers.contains k, writable := fun _ => true }

/-- Whether an instruction succeeds. -/
def okB (o : Oracle) (w : World) (i : Ix) : Bool :=
  match exec env o w i with
  | .ok _ => true
  | .error _ => false

/-- The world after an instruction (unchanged on failure). -/
def after (o : Oracle) (w : World) (i : Ix) : World :=
  match exec env o w i with
  | .ok w' => w'
  | .error _ => w

theorem ok_after {o : Oracle} {w : World} {i : Ix} (h : okB o w i = true) : exec env o w i = .ok (after o w i) := by
  unfold okB at h; unfold after
  split at h <;> simp_all

/-- The error of a failing instruction. -/
def errOf (o : Oracle) (w : World) (i : Ix) : Option Err :=
  match exec env o w i with
  | .ok _ => none
  | .error e => some e

theorem err_after {o : Oracle} {w : World} {i : Ix} {e : Err} (h : errOf o w i = some e) : exec env o w i = .error e := by
  unfold errOf at h
  split at h <;> simp_all

/-- Both native stakes are delegated to the first validator with 1000 lamports. -/
def view1 (k : Key) : Res StakeView :=
  if k = native1 ∨ k = native2 then .ok { delegatedVote := vote1, withdrawer := staker, effective := 1000 }
  else .error .cpi

/-- The first native stake has moved to the second validator with 3000 lamports. -/
def view2 (k : Key) : Res StakeView :=
  if k = native1 then .ok { delegatedVote := vote2, withdrawer := staker, effective := 3000 }
  else if k = native2 then .ok { delegatedVote := vote1, withdrawer := staker, effective := 1000 }
  else .error .cpi

/-- The outside world during most of the history. -/
def o1 : Oracle := oracle 1000 view1 5000
/-- The outside world after the first native stake was redelegated. -/
def o2 : Oracle := oracle 2000 view2 5000

theorem o1_ok : o1.Ok := oracle_ok (by
  intro k v h; unfold view1 at h; split_ifs at h; obtain rfl := Except.ok.inj h; decide)

theorem o2_ok : o2.Ok := oracle_ok (by
  intro k v h; unfold view2 at h
  split_ifs at h <;> (obtain rfl := Except.ok.inj h; decide))

abbrev bytes32 (n : Nat) : List UInt8 := leBytes 32 n

def ixInitConfig : Ix :=
  ix (.initializeConfig (bytes32 151) (bytes32 150) 100 5000 10 hash)
    [cfg, mint, vaultAuth, vault, holder, systemId, rewardsId] []
def ixInitVal1 : Ix := ix .initializeValidatorStake [cfg, .dunaPda auth1 hash, val1, vote1, systemId] []
def ixInitVal2 : Ix := ix .initializeValidatorStake [cfg, .dunaPda auth2 hash, val2, vote2, systemId] []
def ixInitSol1 : Ix :=
  ix .initializeSolStakerStake
    [cfg, .dunaPda staker hash, sol1, .overridePda staker cfg, val1, native1, .raw 9, systemId, viewId] []
def ixInitSol2 : Ix :=
  ix .initializeSolStakerStake
    [cfg, .dunaPda staker hash, sol2, .overridePda staker cfg, val1, native2, .raw 9, systemId, viewId] []
def ixStakeVal1 : Ix :=
  ix (.validatorStakeTokens 2000)
    [cfg, pool, poolToken, val1, auth1, source, holderOwner, mint, vaultAuth, vault, holder, tokenId, rewardsId]
    [holderOwner]
def ixStakeSol1 : Ix :=
  ix (.solStakerStakeTokens 500)
    [cfg, pool, poolToken, sol1, staker, source, holderOwner, mint, vaultAuth, vault, holder, tokenId, rewardsId]
    [holderOwner]
def ixHarvestHolder : Ix :=
  ix .harvestHolderRewards [cfg, pool, poolToken, vault, holder, vaultAuth, mint, tokenId, rewardsId, systemId] []
def ixHarvestVal1 : Ix := ix .harvestValidatorRewards [cfg, holder, val1, auth1] []
def ixHarvestSol1 : Ix :=
  ix .harvestSolStakerRewards
    [viewId, cfg, holder, sol1, staker, native1, val1, auth1, val2, auth2, .raw 9, keeper] []
def ixMove : Ix := ix (.solStakerMoveTokens 100) [cfg, holder, staker, sol1, sol2] [staker]
def ixUnstake : Ix :=
  ix (.unstakeTokens 150)
    [cfg, pool, poolToken, sol1, staker, vault, vaultAuth, holder, mint, dest, tokenId, rewardsId] [staker]
def ixSlashVal1 : Ix :=
  ix (.slashValidatorStake 300) [cfg, val1, auth1, slashAuth, vault, holder, vaultAuth, mint, tokenId] [slashAuth]
def ixSlashSol2 : Ix :=
  ix (.slashSolStakerStake 1000) [cfg, sol2, staker, slashAuth, mint, vault, holder, vaultAuth, tokenId] [slashAuth]
def ixOverride : Ix :=
  ix (.validatorOverrideStakedLamports 5000) [cfg, configAuth, val1, auth1, holder] [configAuth]
def ixSync : Ix := ix .validatorSyncAuthority [cfg, val1, vote1] []
def ixSetAuthority : Ix := ix (.setAuthority .config) [cfg, configAuth, .default] [configAuth]
def ixSetSlash : Ix := ix (.setAuthority .slash) [cfg, slashAuth, .default] [slashAuth]
def ixUpdate : Ix := ix (.updateConfig (.cooldownTimeSeconds 200)) [cfg, configAuth] [configAuth]

/-- Lamports arrive on an address. -/
def credit (w : World) (k : Key) (n : Nat) : World := w.set k { w k with lamports := (w k).lamports + n }

/-- Tokens arrive in a token account. -/
def creditTokens (w : World) (k : Key) (n : Nat) : World :=
  match (w k).data with
  | .token t => if (w k).owner = tokenId ∧ t.amount + n < U64 ∧ k.ofProgram = false then
      w.set k { w k with data := .token { t with amount := t.amount + n } } else w
  | _ => w

theorem credit_ext {w : World} (wf : w.WF) {k : Key} {n : Nat} (h : (w k).lamports + n < U64) :
    ExtStep w (credit w k n) := by
  have ho : ∀ k', (credit w k n k').owner = (w k').owner := by
    intro k'; simp only [credit, World.set_apply]; split_ifs <;> simp_all
  refine extStep_of (wf_of wf ho fun k' => ?_) ho fun k' _ => ?_ <;> simp only [credit, World.set_apply]
  · split_ifs with e
    · subst e; exact ⟨Or.inr h, Or.inl rfl⟩
    · exact ⟨Or.inl rfl, Or.inl rfl⟩
  · split_ifs with e
    · subst e; exact ⟨rfl, by simp⟩
    · exact ⟨rfl, le_rfl⟩

theorem creditTokens_ext {w : World} (wf : w.WF) {k : Key} {n : Nat} : ExtStep w (creditTokens w k n) := by
  have hr : ExtStep w w := extStep_of wf (fun _ => rfl) fun _ _ => ⟨rfl, le_rfl⟩
  unfold creditTokens
  split
  · rename_i t ht
    split_ifs with hc
    · have wt := (wf.1 k).2; rw [ht] at wt
      have ho : ∀ k', (w.set k { w k with data := .token { t with amount := t.amount + n } } k').owner =
          (w k').owner := by
        intro k'; simp only [World.set_apply]; split_ifs <;> simp_all
      refine extStep_of (wf_of wf ho fun k' => ?_) ho fun k' hk => ?_
      · simp only [World.set_apply]
        split_ifs with e
        · subst e; exact ⟨Or.inl rfl, Or.inr ⟨hc.2.1, wt.2⟩⟩
        · exact ⟨Or.inl rfl, Or.inl rfl⟩
      · have : k' ≠ k := by rintro rfl; simp_all
        simp [World.set_apply, this]
    · exact hr
  · exact hr

/-! ## The history -/

def w1 : World := after o1 w0 ixInitConfig
def w2 : World := after o1 w1 ixInitVal1
def w3 : World := after o1 w2 ixInitVal2
def w4 : World := after o1 w3 ixInitSol1
def w5 : World := after o1 w4 ixInitSol2
def w6 : World := after o1 w5 ixStakeVal1
def w7 : World := after o1 w6 ixStakeSol1
/-- 10000 lamports of stake rewards arrive on the config. -/
def w8 : World := credit w7 cfg 10000

def w9 : World := after o1 w8 ixHarvestHolder
def w10 : World := after o1 w9 ixHarvestVal1
def w11 : World := after o2 w10 ixHarvestSol1
def w12 : World := after o2 w11 ixMove
def w13 : World := after o2 w12 ixUnstake
/-- Somebody sends 5000 tokens to the vault token account. -/
def w14 : World := creditTokens w13 vault 5000
def w15 : World := after o2 w14 ixSlashVal1
def w16 : World := after o2 w15 ixSlashSol2
def w17 : World := after o2 w16 ixOverride
def w18 : World := after o2 w17 ixSync
def w19 : World := after o2 w18 ixUpdate
def w20 : World := after o2 w19 ixSetAuthority
def w21 : World := after o2 w20 ixSetSlash

theorem ok0 : okB o1 w0 ixInitConfig = true := by decide +kernel
theorem ok1 : okB o1 w1 ixInitVal1 = true := by decide +kernel
theorem ok2 : okB o1 w2 ixInitVal2 = true := by decide +kernel
theorem ok3 : okB o1 w3 ixInitSol1 = true := by decide +kernel
theorem ok4 : okB o1 w4 ixInitSol2 = true := by decide +kernel
theorem ok5 : okB o1 w5 ixStakeVal1 = true := by decide +kernel
theorem ok6 : okB o1 w6 ixStakeSol1 = true := by decide +kernel
theorem ok8 : okB o1 w8 ixHarvestHolder = true := by decide +kernel
theorem ok9 : okB o1 w9 ixHarvestVal1 = true := by decide +kernel
theorem ok10 : okB o2 w10 ixHarvestSol1 = true := by decide +kernel
theorem ok11 : okB o2 w11 ixMove = true := by decide +kernel
theorem ok12 : okB o2 w12 ixUnstake = true := by decide +kernel
theorem ok14 : okB o2 w14 ixSlashVal1 = true := by decide +kernel
theorem ok15 : okB o2 w15 ixSlashSol2 = true := by decide +kernel
theorem ok16 : okB o2 w16 ixOverride = true := by decide +kernel
theorem ok17 : okB o2 w17 ixSync = true := by decide +kernel
theorem ok18 : okB o2 w18 ixUpdate = true := by decide +kernel
theorem ok19 : okB o2 w19 ixSetAuthority = true := by decide +kernel
theorem ok20 : okB o2 w20 ixSetSlash = true := by decide +kernel

/-! ## The history is reachable -/

theorem r0 : Reachable env w0 := .genesis genesis
theorem r1 : Reachable env w1 := by unfold w1; exact .exec r0 o1_ok (ok_after ok0)
theorem r2 : Reachable env w2 := by unfold w2; exact .exec r1 o1_ok (ok_after ok1)
theorem r3 : Reachable env w3 := by unfold w3; exact .exec r2 o1_ok (ok_after ok2)
theorem r4 : Reachable env w4 := by unfold w4; exact .exec r3 o1_ok (ok_after ok3)
theorem r5 : Reachable env w5 := by unfold w5; exact .exec r4 o1_ok (ok_after ok4)
theorem r6 : Reachable env w6 := by unfold w6; exact .exec r5 o1_ok (ok_after ok5)
theorem r7 : Reachable env w7 := by unfold w7; exact .exec r6 o1_ok (ok_after ok6)
theorem lt7 : decide ((w7 cfg).lamports + 10000 < U64) = true := by decide +kernel
theorem r8 : Reachable env w8 := by unfold w8; exact .ext r7 (credit_ext (reachable_inv r7).wf (of_decide_eq_true lt7))
theorem r9 : Reachable env w9 := by unfold w9; exact .exec r8 o1_ok (ok_after ok8)
theorem r10 : Reachable env w10 := by unfold w10; exact .exec r9 o1_ok (ok_after ok9)
theorem r11 : Reachable env w11 := by unfold w11; exact .exec r10 o2_ok (ok_after ok10)
theorem r12 : Reachable env w12 := by unfold w12; exact .exec r11 o2_ok (ok_after ok11)
theorem r13 : Reachable env w13 := by unfold w13; exact .exec r12 o2_ok (ok_after ok12)
theorem r14 : Reachable env w14 := by unfold w14; exact .ext r13 (creditTokens_ext (reachable_inv r13).wf)
theorem r15 : Reachable env w15 := by unfold w15; exact .exec r14 o2_ok (ok_after ok14)
theorem r16 : Reachable env w16 := by unfold w16; exact .exec r15 o2_ok (ok_after ok15)
theorem r17 : Reachable env w17 := by unfold w17; exact .exec r16 o2_ok (ok_after ok16)
theorem r18 : Reachable env w18 := by unfold w18; exact .exec r17 o2_ok (ok_after ok17)
theorem r19 : Reachable env w19 := by unfold w19; exact .exec r18 o2_ok (ok_after ok18)
theorem r20 : Reachable env w20 := by unfold w20; exact .exec r19 o2_ok (ok_after ok19)
theorem r21 : Reachable env w21 := by unfold w21; exact .exec r20 o2_ok (ok_after ok20)

end Verif.Witness
