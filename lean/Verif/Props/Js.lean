import Verif.Lemmas.Js
import Verif.Props.Build
/-!
# The JavaScript client (C83-C85)
-/

namespace Verif.Props

open Verif Verif.Client Verif.Witness

variable {env : Env} {o : Oracle} {w : World} {c : Call} {payer : Key} {kind : Kind} {r : Request} {i : Js.Input}

/-! ## Requests -/

/-- **C83.** Given the accounts and arguments of a call by name (accounts with a default may be left out), with signers exactly
where the type asks for one, the JavaScript function returns the same request as the Rust client. -/
theorem C83_js_request (hT : c.Typed) (hk : c.kind = kind)
    (hf : ∀ f ∈ kind.fields, c.account f = ((i.accounts f).map Js.Value.key).or f.default)
    (hs : ∀ f ∈ kind.fields, ∀ v, i.accounts f = some v → (v.signs ↔ f ∈ kind.signing))
    (ha : ∀ a ∈ kind.arguments, ∀ x, c.argument a = some x → Js.Means a (i.args a) x) :
    i.instruction kind = some c.request := by
  subst hk
  unfold Js.Input.instruction
  rw [Js.js_data hT ha, Js.js_metas hf hs]
  rfl

/-- **C83.** The function throws exactly when an argument does not fit its type; a hash of any length is taken. -/
theorem C83_js_throws : i.instruction kind = none ↔ ∃ a ∈ kind.arguments, ¬ Js.Accepts a (i.args a) := by
  have h : i.instruction kind = none ↔ ¬ (i.data kind).isSome = true := by
    unfold Js.Input.instruction
    cases i.data kind <;> simp
  rw [h, Js.js_data_isSome]
  push Not
  rfl

theorem js_missing_zip (i : Js.Input) (kind : Kind) : ∀ p ∈ kind.fields.zip (i.metas kind),
    i.accounts p.1 = none → p.1.default = none → p.2 = reads progId := by
  cases kind <;>
    (simp only [Kind.fields, Js.Input.metas, List.zip_cons_cons, List.zip_nil_right, List.forall_mem_cons, List.not_mem_nil,
       false_imp_iff, implies_true, and_true]
     repeat' apply And.intro
     all_goals
       intro h1 h2
       first
       | (rw [h1]; rfl)
       | cases h2)

/-- **C83.** A missing account is not reported: the program's own address is passed in its place, read-only. -/
theorem C83_js_missing {f : Field} {n : Nat} (h : i.instruction kind = some r) (hn : kind.fields[n]? = some f)
    (hd : f.default = none) (hm : i.accounts f = none) : r.metas[n]? = some (reads progId) := by
  have hr : r.metas = i.metas kind := by
    unfold Js.Input.instruction at h
    cases hd : i.data kind with
    | none => rw [hd] at h; cases h
    | some d => rw [hd] at h; cases h; rfl
  rw [hr]
  have hl : (i.metas kind).length = kind.fields.length := by cases kind <;> rfl
  obtain ⟨h1, h2⟩ := List.getElem?_eq_some_iff.1 hn
  have h3 : n < (i.metas kind).length := hl ▸ h1
  have hz : (f, (i.metas kind)[n]) ∈ kind.fields.zip (i.metas kind) := by
    refine List.mem_iff_getElem.2 ⟨n, by simp [h1, h3], ?_⟩
    simp [h2]
  rw [List.getElem?_eq_getElem h3]
  exact congrArg some (js_missing_zip i kind _ hz hm hd)

/-- **C83.** A document hash that does not have 32 bytes is not reported either: it is cut off, or filled up with zeros. -/
theorem C83_js_hash {b : List UInt8} (hb : i.args .dunaDocumentHash = b)
    (h : i.instruction .initializeConfig = some r) :
    ∃ x : InitializeConfigInstructionArgs, StakeInstruction.unpack r.data = .ok
        (.initializeConfig x.slashAuthority x.configAuthority x.cooldownTimeSeconds x.maxDeactivationBasisPoints
          x.syncRewardsLamports x.dunaDocumentHash) ∧
      x.dunaDocumentHash.length = 32 ∧
      (32 ≤ b.length → x.dunaDocumentHash = b.take 32) ∧
      (b.length ≤ 32 → x.dunaDocumentHash = b ++ List.replicate (32 - b.length) 0) := by
  have hacc : ∀ a ∈ Kind.arguments .initializeConfig, Js.Accepts a (i.args a) := by
    by_contra hc
    push Not at hc
    rw [C83_js_throws.2 hc] at h
    cases h
  have n1 := hacc .slashAuthority (by decide)
  have n2 := hacc .configAuthority (by decide)
  have n3 := hacc .cooldownTimeSeconds (by decide)
  have n4 := hacc .maxDeactivationBasisPoints (by decide)
  have n5 := hacc .syncRewardsLamports (by decide)
  have hlen : (Js.fixSize 32 b).length = 32 := by
    simp only [Js.fixSize, List.length_append, List.length_take, List.length_replicate]; omega
  let x : InitializeConfigInstructionArgs :=
    { slashAuthority := i.args .slashAuthority, configAuthority := i.args .configAuthority
      cooldownTimeSeconds := Int.toNat (i.args .cooldownTimeSeconds)
      maxDeactivationBasisPoints := Int.toNat (i.args .maxDeactivationBasisPoints)
      syncRewardsLamports := Int.toNat (i.args .syncRewardsLamports)
      dunaDocumentHash := Js.fixSize 32 b }
  let c : Call := .initializeConfig ⟨progId, progId, progId, progId, progId, progId, progId⟩ x
  have hT : c.Typed := by
    have m3 : 0 ≤ (show Int from i.args .cooldownTimeSeconds) ∧ (show Int from i.args .cooldownTimeSeconds) < 2 ^ 64 := n3
    have m4 : 0 ≤ (show Int from i.args .maxDeactivationBasisPoints) ∧
      (show Int from i.args .maxDeactivationBasisPoints) < 2 ^ 16 := n4
    have m5 : 0 ≤ (show Int from i.args .syncRewardsLamports) ∧ (show Int from i.args .syncRewardsLamports) < 2 ^ 64 := n5
    exact ⟨n1, n2, (Int.toNat_lt m3.1).2 (by exact_mod_cast m3.2), (Int.toNat_lt m4.1).2 (by exact_mod_cast m4.2),
      (Int.toNat_lt m5.1).2 (by exact_mod_cast m5.2), hlen⟩
  have hd : i.data .initializeConfig = some c.data := by
    have e3 := Js.encode8 (Int.toNat_of_nonneg n3.1).symm hT.2.2.1
    have e4 := Js.encode2 (Int.toNat_of_nonneg n4.1).symm hT.2.2.2.1
    have e5 := Js.encode8 (Int.toNat_of_nonneg n5.1).symm hT.2.2.2.2.1
    simp only [Js.Input.data]
    refine Option.bind_eq_some_iff.2 ⟨_, rfl, ?_⟩
    refine Option.bind_eq_some_iff.2 ⟨_, Js.encode32 rfl n1, ?_⟩
    refine Option.bind_eq_some_iff.2 ⟨_, Js.encode32 rfl n2, ?_⟩
    refine Option.bind_eq_some_iff.2 ⟨_, e3, ?_⟩
    refine Option.bind_eq_some_iff.2 ⟨_, e4, ?_⟩
    refine Option.bind_eq_some_iff.2 ⟨_, e5, ?_⟩
    rw [hb]
    rfl
  refine ⟨x, ?_, hlen, fun hb => ?_, fun hb => ?_⟩
  · unfold Js.Input.instruction at h
    rw [hd] at h
    cases h
    exact call_unpack hT
  · simp [x, Js.fixSize, Nat.sub_eq_zero_of_le hb]
  · simp [x, Js.fixSize, List.take_of_length_le hb]

/-- Input for the move of 100 tokens. The arguments of other instructions do not matter. -/
def moveInput : Js.Input where
  accounts
    | .config => some (.address cfg)
    | .vaultHolderRewards => some (.address holder)
    | .solStakerAuthority => some (.signer staker)
    | .sourceSolStakerStake => some (.address sol1)
    | .destinationSolStakerStake => some (.address sol2)
    | _ => none
  args
    | .amount => (100 : Int)
    | .slashAuthority | .configAuthority => List.replicate 32 7
    | .dunaDocumentHash => List.replicate 40 9
    | .cooldownTimeSeconds | .maxDeactivationBasisPoints | .syncRewardsLamports | .amountMin | .authorityType => (0 : Int)
    | .configField => .syncRewardsLamports (-1)

example : moveInput.instruction .solStakerMoveTokens = some move100.request :=
  C83_js_request move100_typed rfl (by decide)
    (by
      simp only [Kind.fields, List.forall_mem_cons, List.not_mem_nil, false_imp_iff, implies_true, and_true]
      refine ⟨?_, ?_, ?_, ?_, ?_⟩ <;> (intro v hv; cases hv; simp [Js.Value.signs, Kind.signing]))
    (by
      intro a h x hx
      simp only [Kind.arguments, List.mem_singleton] at h
      subst h
      cases hx
      exact (rfl : (100 : Int) = _))
example : moveInput.instruction .updateConfig = none :=
  C83_js_throws.2 ⟨.configField, .head _, fun h => absurd h.1 (by decide)⟩
example : ∃ r, moveInput.instruction .initializeConfig = some r ∧ r.metas[0]? = some (writes cfg) ∧
    r.metas[1]? = some (reads progId) := ⟨_, rfl, rfl,
      C83_js_missing (i := moveInput) (f := .mint) (kind := .initializeConfig) rfl rfl rfl rfl⟩
example : ∃ r, moveInput.instruction .initializeConfig = some r ∧ ∃ s c t m y,
    StakeInstruction.unpack r.data = .ok (.initializeConfig s c t m y (List.replicate 32 9)) := by
  refine ⟨_, rfl, ?_⟩
  obtain ⟨x, h1, -, h2, -⟩ := C83_js_hash (i := moveInput) rfl rfl
  rw [h2 (by decide)] at h1
  exact ⟨_, _, _, _, _, h1⟩

/-! ## Parsing -/

/-- **C84.** `parse…Instruction` gives back the accounts and arguments of a call by name, with the signers marked, whatever
further accounts follow. -/
theorem C84_js_parse (hT : c.Typed) (extra : List Meta) :
    ∃ p, Js.parse c.kind { c.request with metas := c.request.metas ++ extra } = some p ∧
      (∀ f, (p.accounts f).map (·.key) = c.account f) ∧ (∀ a, p.args a = c.argument a) ∧
      ∀ f m, p.accounts f = some m → (m.signer = true ↔ f ∈ c.kind.signing) := by
  obtain ⟨p, h1, -, h2, h3, h4⟩ := Js.js_parse hT (program := progId) (extra := extra) (rest := [])
  rw [List.append_nil] at h1
  exact ⟨p, h1, h2, fun a => by rw [h3], h4⟩

theorem ite_some_cases {x y : UInt8} {j k : Kind} {o : Option Kind} (h : (if x = y then some j else o) = some k) :
    (x = y ∧ j = k) ∨ o = some k := by
  by_cases e : x = y
  · rw [if_pos e] at h; exact .inl ⟨e, Option.some.inj h⟩
  · rw [if_neg e] at h; exact .inr h

/-- **C84.** `identifyPaladinStakeProgramInstruction` tells the instruction by the first byte, and throws when that is not one of
the sixteen numbers. -/
theorem C84_js_identify {data : List UInt8} : Js.identify data = some kind ↔ data.head? = some kind.number := by
  cases data with
  | nil => simp [Js.identify, Js.startsWith]
  | cons x rest =>
    have e : ∀ y : UInt8, Js.startsWith (x :: rest) [y] = decide (x = y) := fun y => by simp [Js.startsWith]
    simp only [Js.identify, e, decide_eq_true_eq, List.head?_cons, Option.some.injEq]
    constructor
    · intro h
      iterate 16
        rcases ite_some_cases h with ⟨rfl, rfl⟩ | h'
        · rfl
        clear h
        rename' h' => h
      cases h
    · rintro rfl
      cases kind <;> rfl

/-- **C84.** Every byte string that the program accepts as an instruction is identified as that instruction, and decoded to the
same arguments. -/
theorem C84_js_decode {data : List UInt8} {x : StakeInstruction} (h : StakeInstruction.unpack data = .ok x) :
    ∃ c : Call, c.Typed ∧ c.meaning = x ∧ Js.identify data = some c.kind ∧
      ∃ args, Js.decodeData c.kind data = some args ∧ ∀ a, args a = c.argument a := by
  obtain ⟨hr, rest, rfl, -⟩ := (C31_accepted _ _).1 h
  have hc : ∃ c : Call, c.meaning = x ∧ (InRange x → c.Typed) := by
    cases x with
    | initializeConfig s c t m y d =>
      exact ⟨.initializeConfig ⟨progId, progId, progId, progId, progId, progId, progId⟩ ⟨s, c, t, m, y, d⟩, rfl, id⟩
    | initializeValidatorStake => exact ⟨.initializeValidatorStake ⟨progId, progId, progId, progId, progId⟩, rfl, fun _ => trivial⟩
    | initializeSolStakerStake =>
      exact ⟨.initializeSolStakerStake ⟨progId, progId, progId, progId, progId, progId, progId, progId, progId⟩, rfl, fun _ => trivial⟩
    | harvestHolderRewards =>
      exact ⟨.harvestHolderRewards ⟨progId, progId, progId, progId, progId, progId, progId, progId, progId, progId⟩, rfl, fun _ => trivial⟩
    | harvestValidatorRewards =>
      exact ⟨.harvestValidatorRewards ⟨progId, progId, progId, progId⟩, rfl, fun _ => trivial⟩
    | validatorSyncAuthority =>
      exact ⟨.validatorSyncAuthority ⟨progId, progId, progId⟩, rfl, fun _ => trivial⟩
    | validatorStakeTokens n =>
      exact ⟨.validatorStakeTokens ⟨progId, progId, progId, progId, progId, progId, progId, progId, progId, progId, progId, progId, progId⟩ n, rfl, id⟩
    | solStakerStakeTokens n =>
      exact ⟨.solStakerStakeTokens ⟨progId, progId, progId, progId, progId, progId, progId, progId, progId, progId, progId, progId, progId⟩ n, rfl, id⟩
    | unstakeTokens n =>
      exact ⟨.unstakeTokens ⟨progId, progId, progId, progId, progId, progId, progId, progId, progId, progId, progId, progId⟩ n, rfl, id⟩
    | slashValidatorStake n =>
      exact ⟨.slashValidatorStake ⟨progId, progId, progId, progId, progId, progId, progId, progId, progId⟩ n, rfl, id⟩
    | slashSolStakerStake n =>
      exact ⟨.slashSolStakerStake ⟨progId, progId, progId, progId, progId, progId, progId, progId, progId⟩ n, rfl, id⟩
    | solStakerMoveTokens n =>
      exact ⟨.solStakerMoveTokens ⟨progId, progId, progId, progId, progId⟩ n, rfl, id⟩
    | validatorOverrideStakedLamports n =>
      exact ⟨.validatorOverrideStakedLamports ⟨progId, progId, progId, progId, progId⟩ n, rfl, id⟩
    | harvestSolStakerRewards =>
      exact ⟨.harvestSolStakerRewards ⟨progId, progId, progId, progId, progId, progId, progId, progId, progId, progId, progId, none⟩, rfl, fun _ => nofun⟩
    | setAuthority t =>
      cases t with
      | config => exact ⟨.setAuthority ⟨progId, progId, progId⟩ .config, rfl, fun _ => trivial⟩
      | slash => exact ⟨.setAuthority ⟨progId, progId, progId⟩ .slash, rfl, fun _ => trivial⟩
    | updateConfig f =>
      cases f with
      | cooldownTimeSeconds n => exact ⟨.updateConfig ⟨progId, progId⟩ (.cooldownTimeSeconds n), rfl, id⟩
      | maxDeactivationBasisPoints n => exact ⟨.updateConfig ⟨progId, progId⟩ (.maxDeactivationBasisPoints n), rfl, id⟩
      | syncRewardsLamports n => exact ⟨.updateConfig ⟨progId, progId⟩ (.syncRewardsLamports n), rfl, id⟩
  obtain ⟨c, rfl, hT⟩ := hc
  refine ⟨c, hT hr, rfl, ?_, _, ?_, fun a => rfl⟩
  · rw [C84_js_identify, ← call_pack]
    cases c <;> rfl
  · rw [← call_pack]; exact Js.decode_data (hT hr) rest

/-- **C84.** `parse…Instruction` does not check that it has been given its instruction: neither the program nor the first byte of
the data makes a difference. -/
theorem C84_js_parse_unchecked {p q : Key} {x y : UInt8} {metas : List Meta} {d : List UInt8} :
    (Js.parse kind { program := p, metas, data := x :: d }).map (fun r => (r.accounts, r.args)) =
      (Js.parse kind { program := q, metas, data := y :: d }).map (fun r => (r.accounts, r.args)) := by
  have h : Js.decodeData kind (x :: d) = Js.decodeData kind (y :: d) := by
    have e : ∀ z : UInt8, readInt 1 (z :: d) = some (z.toNat, d) := fun z => by simp [readInt, leNat]
    cases kind <;> (simp only [Js.decodeData, e]; rfl)
  simp only [Js.parse, h]
  split
  · rfl
  · cases Js.decodeData kind (y :: d) <;> rfl

example : ∃ p, Js.parse .harvestSolStakerRewards { harvestSol1.request with metas := harvestSol1.metas ++ [reads cfg] } = some p ∧
    (p.accounts .keeperRecipient).map (·.key) = some keeper ∧ p.accounts .mint = none := by
  obtain ⟨p, h1, h2, -, -⟩ := C84_js_parse harvestSol1_typed [reads cfg]
  exact ⟨p, h1, h2 .keeperRecipient, Option.map_eq_none_iff.1 (h2 .mint)⟩
example : Js.identify move100.data = some .solStakerMoveTokens := C84_js_identify.2 rfl
example : Js.identify [16] = none := by
  rw [Option.eq_none_iff_forall_ne_some]
  intro k h
  have := C84_js_identify.1 h
  cases k <;> exact absurd this (by decide)
/-- A stake of a validator parsed as a move: the validator's stake account is shown as the source of a move. -/
example : ((Js.parse .solStakerMoveTokens stakeVal1.request).bind fun p =>
    (p.accounts .sourceSolStakerStake).map (·.key)) = some val1 := rfl

end Verif.Props
